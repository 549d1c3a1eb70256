import Verif.PropsLocal
import Verif.PropsValidOwisp
import Verif.PropsValidVpn
import Verif.PropsClasses
import Verif.PropsHistory

/-!
# C95: other keys of the configuration mean nothing
-/

namespace NJ

/-- the keys a schema defines at the top level -/
def definedKeys (schema : VDict) : List String :=
  match Dict.get? schema "properties" with
  | some (.dict ps) => Dict.keys ps
  | _ => []

def isJsonList : Val → Bool
  | .list _ => true
  | _ => false

/-- the members of a configuration that mean something for the backend of a schema: those the schema defines, and with `packages` (OpenWrt and OpenWisp, where a
list is the UCI package of the name of its key) also the lists -/
def meaning (schema : VDict) (packages : Bool) (c : VDict) : VDict :=
  c.filter fun p => decide (p.1 ∈ definedKeys schema) || (packages && isJsonList p.2)

/-! ## Lemmas -/

section
variable {m : String × Val → Bool}

/-- every member of this key is kept -/
def Always (m : String × Val → Bool) (k : String) : Prop := ∀ v, m (k, v) = true

theorem get?_kept {k : String} (hk : Always m k) (c : VDict) : Dict.get? (c.filter m) k = Dict.get? c k := by
  induction c with
  | nil => rfl
  | cons p c ih =>
    obtain ⟨k', v⟩ := p
    rw [List.filter_cons, Dict.get?_cons]
    by_cases h : k' = k
    · subst h
      rw [if_pos (hk v), if_pos rfl, Dict.get?_cons, if_pos rfl]
    · rw [if_neg h]
      split
      · rw [Dict.get?_cons, if_neg h, ih]
      · exact ih

theorem set_kept {k : String} (hk : Always m k) (c : VDict) (v : Val) : (Dict.set c k v).filter m = Dict.set (c.filter m) k v := by
  induction c with
  | nil => rw [Dict.set, List.filter_cons, if_pos (hk v)]; rfl
  | cons p c ih =>
    obtain ⟨k', w⟩ := p
    rw [Dict.set]
    by_cases h : k' = k
    · subst h
      rw [if_pos rfl, List.filter_cons, List.filter_cons, if_pos (hk v), if_pos (hk w), Dict.set, if_pos rfl]
    · rw [if_neg h, List.filter_cons, List.filter_cons, ih]
      split
      · rw [Dict.set, if_neg h]
      · rfl

/-- the same members are kept -/
def Beside (m : String × Val → Bool) (c c' : VDict) : Prop := c.filter m = c'.filter m

theorem Beside.get {c c' : VDict} (h : Beside m c c') {k : String} (hk : Always m k) : Dict.get? c k = Dict.get? c' k := by
  rw [← get?_kept hk c, h, get?_kept hk c']

theorem Beside.set {c c' : VDict} (h : Beside m c c') {k : String} (hk : Always m k) (v : Val) : Beside m (Dict.set c k v) (Dict.set c' k v) := by
  unfold Beside
  rw [set_kept hk, set_kept hk, h]

theorem Beside.agree {c c' : VDict} (h : Beside m c c') {S : List String} (hS : ∀ k ∈ S, Always m k) : AgreeOn S c c' := fun k hk => h.get (hS k hk)

theorem Beside.files {c c' : VDict} (h : Beside m c c') (hf : Always m "files") : filesOf c = filesOf c' := by
  unfold filesOf
  rw [h.get hf]

/-- a converter that sees the kept members only -/
def Blind (m : String × Val → Bool) (conv : Conv) : Prop := ∀ c c' i, Beside m c c' → conv.should c = conv.should c' ∧ (conv.run c i).2 = (conv.run c' i).2 ∧
  Beside m (conv.run c i).1 (conv.run c' i).1

theorem blind_pure {key : String} {run : VDict → VDict → Except PyErr VDict} (hk : Always m key) (hr : ∀ c c' i, Beside m c c' → run c i = run c' i) :
    Blind m (pureConv key run) := fun c c' i h => ⟨by show Dict.has c key = Dict.has c' key; rw [Dict.has_eq, Dict.has_eq, h.get hk], hr c c' i h, h⟩

theorem blind_fwd {key : String} {loop : Option Nat → Val → VDict → Except PyErr VDict} (hk : Always m key) :
    Blind m (pureConv key fun config _ => fwd key loop config) :=
  blind_pure hk fun _ _ _ h => agree_fwd (S := [key]) (h.agree (by simpa using hk)) List.mem_cons_self loop

theorem blind_wireless {env : Env} {dsa : Bool} (hk : Always m "interfaces") : Blind m (wirelessConv env dsa) := by
  refine blind_pure hk fun c c' i h => ?_
  unfold wirelessRun
  simp only [agree_fwd (S := ["interfaces"]) (h.agree (by simpa using hk)) List.mem_cons_self]

theorem addVpnFile_beside (hf : Always m "files") {c c' : VDict} (h : Beside m c c') (f : Option VDict) : Beside m (addVpnFile c f) (addVpnFile c' f) := by
  cases f with
  | none => exact h
  | some d =>
    unfold addVpnFile appendTo
    dsimp only
    rw [h.get hf]
    split <;> exact h.set hf _

theorem vpnBlocks_beside (hf : Always m "files") (conv1 : VDict → Except PyErr (VDict × Option VDict)) (l : List Val) : ∀ {c c' : VDict}, Beside m c c' →
    Beside m (vpnBlocks conv1 c l).1 (vpnBlocks conv1 c' l).1 := by
  induction l with
  | nil => exact fun h => h
  | cons v l ih =>
    intro c c' h
    rw [vpnBlocks, vpnBlocks]
    generalize asDict v >>= conv1 = x
    cases x with
    | error e => exact h
    | ok y => exact ih (addVpnFile_beside hf h y.2)

theorem vpnRun_beside (hf : Always m "files") (hk : Always m "openvpn") (conv1 : VDict → Except PyErr (VDict × Option VDict)) {c c' : VDict} (h : Beside m c c') (i : VDict) :
    (vpnRun conv1 c i).2 = (vpnRun conv1 c' i).2 ∧ Beside m (vpnRun conv1 c i).1 (vpnRun conv1 c' i).1 := by
  unfold vpnRun
  rw [h.get hk]
  generalize (Dict.get? c' "openvpn").getD .none = x
  cases x with
  | list l =>
    dsimp only
    rw [(vpnBlocks_local conv1 l c c').1]
    exact ⟨rfl, vpnBlocks_beside hf conv1 l h⟩
  | _ => exact ⟨rfl, h⟩

theorem has_beside {c c' : VDict} (h : Beside m c c') {k : String} (hk : Always m k) : Dict.has c k = Dict.has c' k := by
  rw [Dict.has_eq, Dict.has_eq, h.get hk]

theorem ztConfig_beside {env : Env} (hf : Always m "files") {c c' : VDict} (h : Beside m c c') (d : VDict) :
    (∃ e, ztConfig env c d = .error e ∧ ztConfig env c' d = .error e) ∨ ∃ a a', ztConfig env c d = .ok a ∧ ztConfig env c' d = .ok a' ∧ Beside m a a' := by
  have hn : netjsonFiles c = netjsonFiles c' := by unfold netjsonFiles; rw [h.get hf]
  unfold ztConfig
  rw [hn]
  cases netjsonFiles c' with
  | error e => exact .inl ⟨e, rfl, rfl⟩
  | ok fs =>
    cases hz : ztFiles env d fs with
    | error e => left; exact ⟨e, by change (ztFiles env d fs >>= _) = _; rw [hz]; rfl, by change (ztFiles env d fs >>= _) = _; rw [hz]; rfl⟩
    | ok gs =>
      right
      exact ⟨_, _, by change (ztFiles env d fs >>= _) = _; rw [hz]; rfl, by change (ztFiles env d fs >>= _) = _; rw [hz]; rfl, h.set hf _⟩

theorem ztAll_beside {env : Env} (hf : Always m "files") (l : List Val) : ∀ {c c' : VDict}, Beside m c c' →
    (ztAll env c l).2 = (ztAll env c' l).2 ∧ Beside m (ztAll env c l).1 (ztAll env c' l).1 := by
  induction l with
  | nil => exact fun h => ⟨rfl, h⟩
  | cons v l ih =>
    intro c c' h
    rw [ztAll, ztAll]
    cases asDict v with
    | error e => exact ⟨rfl, h⟩
    | ok d =>
      dsimp only
      rcases ztConfig_beside (env := env) hf h d with ⟨e, e1, e2⟩ | ⟨a, a', e1, e2, ha⟩
      · rw [e1, e2]; exact ⟨rfl, h⟩
      · rw [e1, e2]
        dsimp only
        cases ztBlocks d with
        | error e => exact ⟨rfl, ha⟩
        | ok bs =>
          dsimp only
          rw [(ih ha).1]
          exact ⟨rfl, (ih ha).2⟩

theorem ztRun_beside {env : Env} (hf : Always m "files") (hk : Always m "zerotier") {c c' : VDict} (h : Beside m c c') (i : VDict) :
    (ztRun env c i).2 = (ztRun env c' i).2 ∧ Beside m (ztRun env c i).1 (ztRun env c' i).1 := by
  unfold ztRun
  rw [h.get hk]
  generalize (Dict.get? c' "zerotier").getD .none = x
  cases x with
  | list l =>
    dsimp only
    rw [(ztAll_beside (env := env) hf l h).1]
    exact ⟨rfl, (ztAll_beside hf l h).2⟩
  | _ => exact ⟨rfl, h⟩

theorem defaultLoop_kept {env : Env} {known : List String} (hl : ∀ k l, m (k, .list l) = true) (c : VDict) :
    (defaultLoop env known (c.filter m)).2 = (defaultLoop env known c).2 ∧ (defaultLoop env known c).1.filter m = (defaultLoop env known (c.filter m)).1 := by
  induction c with
  | nil => exact ⟨rfl, rfl⟩
  | cons p c ih =>
    obtain ⟨k, v⟩ := p
    have other : (∀ l, v ≠ .list l) → (defaultLoop env known ((k, v) :: c)) = ((k, v) :: (defaultLoop env known c).1, (defaultLoop env known c).2) := by
      intro hv
      cases v with
      | list l => exact absurd rfl (hv l)
      | _ => rw [defaultLoop]; exact fun l h => nomatch h
    by_cases hv : ∀ l, v ≠ .list l
    · rw [other hv, List.filter_cons, List.filter_cons]
      have other' : defaultLoop env known ((k, v) :: c.filter m) = ((k, v) :: (defaultLoop env known (c.filter m)).1, (defaultLoop env known (c.filter m)).2) := by
        cases v with
        | list l => exact absurd rfl (hv l)
        | _ => rw [defaultLoop]; exact fun l h => nomatch h
      split
      · rw [other']
        exact ⟨ih.1, by rw [ih.2]⟩
      · exact ih
    · obtain ⟨l, rfl⟩ := not_forall_not.1 hv
      rw [List.filter_cons, if_pos (hl k l), defaultLoop, defaultLoop]
      split
      · dsimp only
        rw [List.filter_cons, if_pos (hl k l)]
        exact ⟨ih.1, by rw [ih.2]⟩
      · generalize defaultBlocks env 1 l = x
        obtain ⟨l', r⟩ := x
        cases r with
        | error e =>
          dsimp only
          rw [List.filter_cons, if_pos (hl k l')]
          exact ⟨rfl, rfl⟩
        | ok bs =>
          dsimp only
          rw [List.filter_cons, if_pos (hl k l'), ih.1, ih.2]
          exact ⟨rfl, rfl⟩

theorem blind_default {env : Env} {known : List String} (hl : ∀ k l, m (k, .list l) = true) : Blind m (defaultConv env known) := by
  intro c c' i h
  refine ⟨rfl, ?_, ?_⟩
  · show ((defaultLoop env known c).2 >>= fun r => pure (sortedDict r)) = ((defaultLoop env known c').2 >>= fun r => pure (sortedDict r))
    rw [← (defaultLoop_kept hl c).1, ← (defaultLoop_kept hl c').1, h]
  · show Beside m (defaultLoop env known c).1 (defaultLoop env known c').1
    unfold Beside
    rw [(defaultLoop_kept hl c).2, (defaultLoop_kept hl c').2, h]

/-- the loop over converters that see the kept members only -/
theorem convLoop_beside {cls : Class} : ∀ (cs : List Conv), (∀ conv ∈ cs, Blind m conv) → ∀ {c c' : VDict} (i : VDict), Beside m c c' →
    (convLoop cls cs c i).2 = (convLoop cls cs c' i).2 ∧ (convLoop cls cs c i).1.inter = (convLoop cls cs c' i).1.inter ∧
      Beside m (convLoop cls cs c i).1.config (convLoop cls cs c' i).1.config := by
  intro cs
  induction cs with
  | nil => exact fun _ _ _ i h => ⟨rfl, rfl, h⟩
  | cons conv cs ih =>
    intro hb c c' i h
    have ih := @ih fun x hx => hb x (List.mem_cons_of_mem _ hx)
    obtain ⟨b1, b2, b3⟩ := hb conv List.mem_cons_self c c' i h
    rw [convLoop, convLoop, b1]
    split
    · exact ih i h
    generalize conv.run c i = x at b2 b3
    generalize conv.run c' i = x' at b2 b3
    obtain ⟨c1, r⟩ := x
    obtain ⟨c1', r'⟩ := x'
    cases b2
    cases r with
    | error e => exact ⟨rfl, rfl, b3⟩
    | ok v =>
      dsimp only
      split
      · exact ih i b3
      · split
        · exact ⟨rfl, rfl, b3⟩
        · exact ih _ b3

/-- a class that sees the kept members only -/
structure BlindClass (m : String × Val → Bool) (cls : Class) : Prop where
  files : Always m "files"
  pre : ∀ c c', Beside m c c' → cls.pre c = cls.pre c'
  schema : ∀ c c', Beside m c c' → cls.schema c = cls.schema c'
  post : ∀ c c', Beside m c c' → cls.post c = cls.post c'
  convs : ∀ conv ∈ cls.convs, Blind m conv

/-- two objects whose configurations have the same kept members, with the same intermediate data -/
def BesideState (m : String × Val → Bool) (st st' : BState) : Prop := Beside m st.config st'.config ∧ st.inter = st'.inter

variable {cls : Class}

theorem validate_beside (hb : BlindClass m cls) {c c' : VDict} (h : Beside m c c') : validate cls c = validate cls c' := by
  unfold validate validateFilePaths
  rw [hb.pre c c' h, hb.schema c c' h, hb.post c c' h, h.files hb.files]

theorem ensure_beside (hb : BlindClass m cls) {st st' : BState} (h : BesideState m st st') :
    (ensureIntermediate cls st).2 = (ensureIntermediate cls st').2 ∧ BesideState m (ensureIntermediate cls st).1 (ensureIntermediate cls st').1 := by
  obtain ⟨c, i⟩ := st
  obtain ⟨c', i'⟩ := st'
  obtain ⟨h1, h2⟩ := h
  cases h2
  dsimp only at h1
  cases i with
  | some i => exact ⟨rfl, h1, rfl⟩
  | none =>
    unfold ensureIntermediate toIntermediate
    dsimp only
    rw [validate_beside hb h1]
    split
    · exact ⟨rfl, h1, rfl⟩
    · obtain ⟨l1, l2, l3⟩ := convLoop_beside (cls := cls) cls.convs hb.convs [] h1
      exact ⟨l1, l3, l2⟩

theorem filesSection_beside (hf : Always m "files") {c c' : VDict} (h : Beside m c c') : filesSection c = filesSection c' := by
  unfold filesSection renderFiles
  rw [h.files hf]

theorem dedup_beside (hf : Always m "files") {c c' : VDict} (h : Beside m c c') :
    (∃ e, deduplicateFiles c = .error e ∧ deduplicateFiles c' = .error e) ∨ ∃ a a', deduplicateFiles c = .ok a ∧ deduplicateFiles c' = .ok a' ∧ Beside m a a' := by
  unfold deduplicateFiles
  rw [h.files hf]
  cases filesOf c' with
  | nil => exact .inr ⟨c, c', rfl, rfl, h⟩
  | cons f fs =>
    dsimp only
    cases dedupLoop [] (f :: fs) with
    | error e => exact .inl ⟨e, rfl, rfl⟩
    | ok d => exact .inr ⟨_, _, rfl, rfl, h.set hf _⟩

theorem renderTail_beside (hf : Always m "files") (f : Bool) {st st' : BState} (h : BesideState m st st') :
    (renderTail cls f st).2 = (renderTail cls f st').2 ∧ BesideState m (renderTail cls f st).1 (renderTail cls f st').1 := by
  obtain ⟨c, i⟩ := st
  obtain ⟨c', i'⟩ := st'
  obtain ⟨h1, h2⟩ := h
  cases h2
  dsimp only at h1
  unfold renderTail
  dsimp only
  rcases dedup_beside hf h1 with ⟨e, e1, e2⟩ | ⟨a, a', e1, e2, ha⟩
  · rw [e1, e2]; exact ⟨rfl, h1, rfl⟩
  · rw [e1, e2]
    dsimp only
    rw [filesSection_beside hf ha]
    exact ⟨rfl, ha, rfl⟩

theorem render_beside (hb : BlindClass m cls) (f : Bool) {st st' : BState} (h : BesideState m st st') :
    (render cls f st).2 = (render cls f st').2 ∧ BesideState m (render cls f st).1 (render cls f st').1 := by
  unfold render
  rw [validate_beside hb h.1]
  split
  · exact ⟨rfl, h⟩
  · obtain ⟨h1, h2⟩ := ensure_beside hb h
    generalize ensureIntermediate cls st = x at h1 h2
    generalize ensureIntermediate cls st' = x' at h1 h2
    obtain ⟨s, r⟩ := x
    obtain ⟨s', r'⟩ := x'
    cases h1
    cases r with
    | error e => exact ⟨rfl, h2⟩
    | ok u => exact renderTail_beside hb.files f h2

theorem generate_beside (hb : BlindClass m cls) {st st' : BState} (h : BesideState m st st') :
    (generate cls st).2 = (generate cls st').2 ∧ BesideState m (generate cls st).1 (generate cls st').1 := by
  unfold generate
  obtain ⟨h1, h2⟩ := render_beside hb false h
  generalize render cls false st = x at h1 h2
  generalize render cls false st' = x' at h1 h2
  obtain ⟨s, r⟩ := x
  obtain ⟨s', r'⟩ := x'
  cases h1
  cases r with
  | error e => exact ⟨rfl, h2⟩
  | ok t =>
    dsimp only
    unfold processFiles
    rw [h2.1.files hb.files]
    exact ⟨rfl, h2⟩

/-! ## The schemas -/

/-- the keywords at the top of the schemas -/
def topKeywords (s : VDict) : Bool := s.all (fun p => decide (p.1 ∈ ["type", "definitions", "properties", "required"])) && (Dict.get? s "$ref").isNone &&
  s.all fun p => match p with
    | ("required", .list l) => (textsOf l).all fun k => k ∈ definedKeys s
    | ("properties", .dict ps) => (Dict.keys ps).all fun k => k ∈ definedKeys s
    | _ => true

theorem schemas_top : ∀ root ∈ schemas, topKeywords root = true := by
  have h : schemas.all topKeywords = true := by decide +kernel
  exact List.all_eq_true.1 h

theorem schema_beside {root : VDict} (ht : topKeywords root = true) (hm : ∀ k ∈ definedKeys root, Always m k) (ip6 : Ip6) {c c' : VDict} (h : Beside m c c') :
    schemaValidate root ip6 c = schemaValidate root ip6 c' := by
  unfold topKeywords at ht
  rw [Bool.and_eq_true, Bool.and_eq_true, List.all_eq_true, List.all_eq_true, Option.isNone_iff_eq_none] at ht
  obtain ⟨⟨t1, t2⟩, t3⟩ := ht
  have hv : ∀ n, valid ip6 root (n + 1) (.dict root) (.dict c) = valid ip6 root (n + 1) (.dict root) (.dict c') := by
    intro n
    rw [valid, valid, t2]
    dsimp only
    rw [Bool.eq_iff_iff, List.all_eq_true, List.all_eq_true]
    refine forall_congr' fun p => forall_congr' fun hp => ?_
    have q1 := t1 p hp
    have q3 := t3 p hp
    obtain ⟨k, a⟩ := p
    rw [decide_eq_true_eq] at q1
    simp only [List.mem_cons, List.not_mem_nil, or_false] at q1
    rcases q1 with rfl | rfl | rfl | rfl
    · cases a <;> rfl
    · cases a <;> rfl
    · cases a with
      | dict ps =>
        show (ps.all _) = true ↔ (ps.all _) = true
        rw [List.all_eq_true, List.all_eq_true]
        refine forall_congr' fun x => forall_congr' fun hx => ?_
        have : Always m x.1 := hm _ (of_decide_eq_true (List.all_eq_true.1 q3 x.1 (List.mem_map_of_mem hx)))
        rw [h.get this]
      | _ => rfl
    · cases a with
      | list l =>
        show ((textsOf l).all _) = true ↔ ((textsOf l).all _) = true
        rw [List.all_eq_true, List.all_eq_true]
        refine forall_congr' fun x => forall_congr' fun hx => ?_
        have : Always m x := hm _ (of_decide_eq_true (List.all_eq_true.1 q3 x hx))
        rw [has_beside h this]
      | _ => rfl
  unfold schemaValidate
  rw [show schemaDepth = 23 + 1 from rfl, hv]

theorem always_defined {root : VDict} {packages : Bool} {k : String} (hk : k ∈ definedKeys root) :
    Always (fun p => decide (p.1 ∈ definedKeys root) || (packages && isJsonList p.2)) k := fun v => by
  show (decide (k ∈ definedKeys root) || _) = true
  rw [decide_eq_true hk, Bool.true_or]

theorem radios_beside (hk : Always m "radios") {c c' : VDict} (h : Beside m c c') : validateRadios c = validateRadios c' := by
  unfold validateRadios
  rw [h.get hk]

theorem pvid_beside (hk : Always m "interfaces") {c c' : VDict} (h : Beside m c c') : validatePvid c = validatePvid c' := by
  unfold validatePvid dictsAt
  rw [h.get hk]

theorem blind_vpn (hf : Always m "files") (hk : Always m "openvpn") (conv1 : VDict → Except PyErr (VDict × Option VDict)) :
    Blind m ⟨fun config => Dict.has config "openvpn", vpnRun conv1⟩ :=
  fun _ _ i h => ⟨has_beside h hk, vpnRun_beside hf hk conv1 h i⟩

theorem blind_openwrt (hm : ∀ k ∈ knownKeys, Always m k) (hl : ∀ k l, m (k, .list l) = true) (env : Env) (sh : Val → Bool) (dsa : Bool) (known : List String) :
    ∀ conv ∈ [generalConv env, ntpConv, ledConv env, ifacesConv sh env dsa, routesConv env, rulesConv env, switchConv env, radiosConv env dsa,
      wirelessConv env dsa, uciVpnConv env, peersConv, ztConv env, defaultConv env known], Blind m conv := by
  intro conv hc
  simp only [List.mem_cons, List.not_mem_nil, or_false] at hc
  rcases hc with rfl | rfl | rfl | rfl | rfl | rfl | rfl | rfl | rfl | rfl | rfl | rfl | rfl
  · exact blind_fwd (hm _ (by decide))
  · exact blind_fwd (hm _ (by decide))
  · exact blind_fwd (hm _ (by decide))
  · refine blind_pure (hm "interfaces" (by decide)) fun c c' _ h => agree_ifaces (h.agree fun k hk => ?_)
    simp only [List.mem_cons, List.not_mem_nil, or_false] at hk
    rcases hk with rfl | rfl | rfl <;> exact hm _ (by decide)
  · exact blind_fwd (hm _ (by decide))
  · exact blind_fwd (hm _ (by decide))
  · exact blind_fwd (hm _ (by decide))
  · exact blind_fwd (hm _ (by decide))
  · exact blind_wireless (hm _ (by decide))
  · exact blind_vpn (hm _ (by decide)) (hm _ (by decide)) _
  · exact blind_fwd (hm _ (by decide))
  · exact fun _ _ i h => ⟨has_beside h (hm _ (by decide)), ztRun_beside (hm _ (by decide)) (hm _ (by decide)) h i⟩
  · exact blind_default hl

/-- the backends with their schemas, reading JSON texts; with OpenWrt also lists under other keys have a meaning -/
def backendsWithSchema (env : Env) (sh : Val → Bool) (dsa : Bool) : List (Class × VDict × Bool) :=
  [(openwrtClass env (owValidate env.ip6) sh jsonLoads dsa, owSchema, true), (openvpnReal env sh jsonLoads, openvpnSchema, false),
    (wireguardReal env sh jsonLoads, wireguardSchema, false), (vxlanReal env sh jsonLoads, vxlanSchema, false), (zerotierReal env sh, zerotierSchema, false)]

theorem known_defined : ∀ k ∈ knownKeys, k ∈ definedKeys owSchema ∧ k ∈ definedKeys owispSchema := by decide +kernel

theorem lists_kept {root : VDict} (k : String) (l : List Val) : (decide (k ∈ definedKeys root) || (true && isJsonList (.list l))) = true := by
  show (_ || true) = true
  rw [Bool.or_true]

theorem blind_backends {env : Env} {sh : Val → Bool} {dsa : Bool} {x : Class × VDict × Bool} (hx : x ∈ backendsWithSchema env sh dsa) :
    BlindClass (fun p => decide (p.1 ∈ definedKeys x.2.1) || (x.2.2 && isJsonList p.2)) x.1 := by
  have top : ∀ root ∈ schemas, topKeywords root = true := schemas_top
  simp only [backendsWithSchema, List.mem_cons, List.not_mem_nil, or_false] at hx
  rcases hx with rfl | rfl | rfl | rfl | rfl
  · have hm : ∀ k ∈ knownKeys, Always (fun p => decide (p.1 ∈ definedKeys owSchema) || (true && isJsonList p.2)) k := fun k hk => always_defined (known_defined k hk).1
    exact {
      files := hm _ (by decide)
      pre := fun _ _ => radios_beside (hm _ (by decide))
      schema := fun c c' h => by
        show owValidate env.ip6 c = owValidate env.ip6 c'
        rw [owValidate_eq, owValidate_eq]
        exact schema_beside (top _ (by simp [schemas])) (fun _ => always_defined) _ h
      post := fun _ _ => pvid_beside (hm _ (by decide))
      convs := blind_openwrt hm lists_kept env sh dsa knownKeys }
  · have hd : "files" ∈ definedKeys openvpnSchema ∧ "openvpn" ∈ definedKeys openvpnSchema := by decide +kernel
    exact {
      files := always_defined hd.1
      pre := fun _ _ _ => rfl
      schema := fun c c' h => schema_beside (top _ (by simp [schemas])) (fun _ => always_defined) _ h
      post := fun _ _ _ => rfl
      convs := fun conv hc => by rw [List.mem_singleton.1 hc]; exact blind_vpn (always_defined hd.1) (always_defined hd.2) _ }
  · have hd : "files" ∈ definedKeys wireguardSchema ∧ "wireguard" ∈ definedKeys wireguardSchema := by decide +kernel
    exact {
      files := always_defined hd.1
      pre := fun _ _ _ => rfl
      schema := fun c c' h => schema_beside (top _ (by simp [schemas])) (fun _ => always_defined) _ h
      post := fun _ _ _ => rfl
      convs := fun conv hc => by rw [List.mem_singleton.1 hc]; exact blind_fwd (always_defined hd.2) }
  · have hd : "files" ∈ definedKeys vxlanSchema ∧ "wireguard" ∈ definedKeys vxlanSchema := by decide +kernel
    exact {
      files := always_defined hd.1
      pre := fun _ _ _ => rfl
      schema := fun c c' h => schema_beside (top _ (by simp [schemas])) (fun _ => always_defined) _ h
      post := fun _ _ _ => rfl
      convs := fun conv hc => by rw [List.mem_singleton.1 hc]; exact blind_fwd (always_defined hd.2) }
  · have hd : "files" ∈ definedKeys zerotierSchema ∧ "zerotier" ∈ definedKeys zerotierSchema := by decide +kernel
    exact {
      files := always_defined hd.1
      pre := fun _ _ _ => rfl
      schema := fun c c' h => schema_beside (top _ (by simp [schemas])) (fun _ => always_defined) _ h
      post := fun _ _ _ => rfl
      convs := fun conv hc => by rw [List.mem_singleton.1 hc]; exact blind_fwd (always_defined hd.2) }

/-! ## C95 -/

/-- what two answers have in common: they are the same, or both are documents -/
def SameAnswer : Except PyErr Answer → Except PyErr Answer → Prop
  | .ok (.doc _), .ok (.doc _) => True
  | a, b => a = b

theorem ask_beside (hb : BlindClass m cls) (q : Call) {st st' : BState} (h : BesideState m st st') :
    SameAnswer (ask cls q st).2 (ask cls q st').2 ∧ BesideState m (ask cls q st).1 (ask cls q st').1 := by
  have same : ∀ a : Except PyErr Answer, SameAnswer a a := fun a => by
    unfold SameAnswer
    split
    · trivial
    · rfl
  cases q with
  | validate =>
    refine ⟨?_, h⟩
    unfold ask
    dsimp only
    rw [validate_beside hb h.1]
    exact same _
  | json =>
    refine ⟨?_, h⟩
    unfold ask jsonDoc
    dsimp only
    rw [validate_beside hb h.1]
    cases validate cls st'.config with
    | error e => exact same _
    | ok u => exact trivial
  | render files =>
    obtain ⟨h1, h2⟩ := render_beside hb files h
    refine ⟨?_, h2⟩
    unfold ask
    dsimp only
    rw [h1]
    exact same _
  | generate =>
    obtain ⟨h1, h2⟩ := generate_beside hb h
    refine ⟨?_, h2⟩
    unfold ask
    dsimp only
    rw [h1]
    exact same _

theorem afterCalls_beside (hb : BlindClass m cls) : ∀ (past : List Call) {st st' : BState}, BesideState m st st' →
    BesideState m (afterCalls cls past st) (afterCalls cls past st') := by
  intro past
  induction past with
  | nil => exact fun h => h
  | cons q past ih => exact fun h => ih (ask_beside hb q h).2

end

/-- **C95.** If two configurations have the same members that mean something for a backend, in the same order, then after any history of calls every call
has the same answer on both, or raises the same exception (`json` has a document for both, with the members of each). -/
theorem C95_same (env : Env) (sh : Val → Bool) (dsa : Bool) (cls : Class) (schema : VDict) (packages : Bool)
    (hx : (cls, schema, packages) ∈ backendsWithSchema env sh dsa) (c c' : VDict) (h : meaning schema packages c = meaning schema packages c') (past : List Call)
    (q : Call) : SameAnswer (ask cls q (afterCalls cls past ⟨c, none⟩)).2 (ask cls q (afterCalls cls past ⟨c', none⟩)).2 :=
  have hb : BlindClass (fun p => decide (p.1 ∈ definedKeys schema) || (packages && isJsonList p.2)) cls := blind_backends hx
  (ask_beside hb q (afterCalls_beside hb past (st := ⟨c, none⟩) (st' := ⟨c', none⟩) ⟨h, rfl⟩)).1

theorem set_dropped {m : String × Val → Bool} {k : String} {v : Val} (hv : m (k, v) = false) : ∀ {c : VDict}, (∀ w, Dict.get? c k = some w → m (k, w) = false) →
    (Dict.set c k v).filter m = c.filter m := by
  intro c
  induction c with
  | nil => intro _; rw [Dict.set, List.filter_cons, if_neg (by rw [hv]; decide)]
  | cons p c ih =>
    obtain ⟨k', w⟩ := p
    intro hc
    rw [Dict.set]
    by_cases h : k' = k
    · subst h
      have hw := hc w (by rw [Dict.get?_cons, if_pos rfl])
      rw [if_pos rfl, List.filter_cons, List.filter_cons, if_neg (by rw [hv]; decide), if_neg (by rw [hw]; decide)]
    · rw [if_neg h, List.filter_cons, List.filter_cons, ih fun w hw => hc w (by rw [Dict.get?_cons, if_neg h, hw])]

/-- **C95**, adding a member: a key outside the schema, which the configuration does not have yet, changes nothing; for OpenWrt when the value is no list -/
theorem C95_add (env : Env) (sh : Val → Bool) (dsa : Bool) (cls : Class) (schema : VDict) (packages : Bool)
    (hx : (cls, schema, packages) ∈ backendsWithSchema env sh dsa) (c : VDict) (k : String) (v : Val) (hk : k ∉ definedKeys schema)
    (hv : packages = true → ∀ l, v ≠ .list l) (hc : packages = true → ∀ l, Dict.get? c k ≠ some (.list l)) (past : List Call) (q : Call) :
    SameAnswer (ask cls q (afterCalls cls past ⟨Dict.set c k v, none⟩)).2 (ask cls q (afterCalls cls past ⟨c, none⟩)).2 := by
  refine C95_same env sh dsa cls schema packages hx _ _ (set_dropped ?_ fun w hw => ?_) past q
  · rw [decide_eq_false hk, Bool.false_or]
    cases packages with
    | false => rfl
    | true => cases v with
      | list l => exact absurd rfl (hv rfl l)
      | _ => rfl
  · rw [decide_eq_false hk, Bool.false_or]
    cases packages with
    | false => rfl
    | true => cases w with
      | list l => exact absurd hw (hc rfl l)
      | _ => rfl

/-- **C95**, `json`: the text of the document that `json()` gives after any history, loaded in place of the configuration (with OpenWrt: one without a package called
`type`), makes an object with the same answers as one of the configuration that the first object has by then -/
theorem C95_json (env : Env) (sh : Val → Bool) (dsa : Bool) (cls : Class) (schema : VDict) (packages : Bool)
    (hx : (cls, schema, packages) ∈ backendsWithSchema env sh dsa) (st : BState) (hw : (Val.dict st.config).WF)
    (hc : packages = true → ∀ l, Dict.get? st.config "type" ≠ some (.list l)) (doc : VDict) (h : jsonDoc cls st = .ok doc) :
    ∃ again, construct cls (some (.text (jsonDumps (.dict doc)))) none .falsy none = .ok again ∧ ∀ past q,
      SameAnswer (ask cls q (afterCalls cls past again)).2 (ask cls q (afterCalls cls past ⟨st.config, none⟩)).2 := by
  have hl : cls.loads = jsonLoads := by
    simp only [backendsWithSchema, List.mem_cons, List.not_mem_nil, or_false, Prod.mk.injEq] at hx
    rcases hx with hx | hx | hx | hx | hx <;> rw [hx.1] <;> rfl
  have ht : "type" ∉ definedKeys schema := by
    have : ∀ s ∈ schemas, "type" ∉ definedKeys s := by decide +kernel
    simp only [backendsWithSchema, List.mem_cons, List.not_mem_nil, or_false, Prod.mk.injEq] at hx
    rcases hx with hx | hx | hx | hx | hx <;> rw [hx.2.1] <;> exact this _ (by simp [schemas])
  refine ⟨⟨doc, none⟩, (C75_constructor cls hl st hw doc h).1, fun past q => ?_⟩
  obtain ⟨_, _, h2⟩ := bind_ok_iff.1 h
  obtain rfl := Except.ok.inj h2
  exact C95_add env sh dsa cls schema packages hx st.config "type" _ ht (fun _ l hl => by cases hl) hc past q

/-- OpenWISP 1.x, with the radios it completes in `validate` -/
theorem blind_owisp {env : Env} {sh : Val → Bool} {loads : Chars → Option Val} {dsa : Bool} :
    BlindClass (fun p => decide (p.1 ∈ definedKeys owispSchema) || (true && isJsonList p.2)) (owispBackend env sh loads dsa) :=
  have hm : ∀ k ∈ knownKeys, Always (fun p => decide (p.1 ∈ definedKeys owispSchema) || (true && isJsonList p.2)) k := fun k hk => always_defined (known_defined k hk).2
  { files := hm _ (by decide)
    pre := fun _ _ => radios_beside (hm _ (by decide))
    schema := fun c c' h => schema_beside (schemas_top _ (by simp [schemas])) (fun _ => always_defined) _ h
    post := fun _ _ => pvid_beside (hm _ (by decide))
    convs := blind_openwrt hm lists_kept env sh dsa (knownKeys ++ ["tc_options"]) }

theorem sanitize_beside {m : String × Val → Bool} (hk : Always m "radios") {c c' : VDict} (h : Beside m c c') :
    (owSanitize c).2 = (owSanitize c').2 ∧ Beside m (owSanitize c).1 (owSanitize c').1 := by
  unfold owSanitize
  rw [h.get hk]
  split
  · exact ⟨rfl, h⟩
  · exact ⟨rfl, h.set hk _⟩
  · exact ⟨rfl, h⟩
  · exact ⟨rfl, h⟩
  · exact ⟨rfl, h⟩

/-- **C95**, OpenWISP 1.x: `validate` and `render`, of objects with any intermediate data -/
theorem C95_openwisp (env : Env) (sh : Val → Bool) (loads : Chars → Option Val) (dsa : Bool) (c c' : VDict) (h : meaning owispSchema true c = meaning owispSchema true c')
    (i : Option VDict) (files : Bool) : (owispValidate (owispBackend env sh loads dsa) c).2 = (owispValidate (owispBackend env sh loads dsa) c').2 ∧
      (owRender (owispBackend env sh loads dsa) files ⟨c, i⟩).2 = (owRender (owispBackend env sh loads dsa) files ⟨c', i⟩).2 := by
  have hb := @blind_owisp env sh loads dsa
  obtain ⟨h1, h2⟩ := sanitize_beside (always_defined (known_defined "radios" (by decide)).2) (show Beside _ c c' from h)
  unfold owispValidate owRender
  dsimp only
  generalize owSanitize c = x at h1 h2
  generalize owSanitize c' = x' at h1 h2
  obtain ⟨s, r⟩ := x
  obtain ⟨s', r'⟩ := x'
  cases h1
  cases r with
  | error e => exact ⟨rfl, rfl⟩
  | ok u => exact ⟨validate_beside hb h2, (render_beside hb files (st := ⟨s, i⟩) (st' := ⟨s', i⟩) ⟨h2, rfl⟩).1⟩

end NJ
