import Verif.OverMerge
import Verif.OpenWrt

/-!
# The conversion of an OpenWrt configuration writes only what it was given, and plain characters
-/

namespace NJ

variable {A : Char → Prop} {env : Env}

/-! ## Specification -/

/-- a TLS key given as text, not as a file and a direction: it is moved into a file -/
def InlineKey (v : Val) : Prop := ∃ s : String, v = .str s ∧ (splitOn ' ' (strip s.toList)).length ≠ 2

/-- an OpenVPN instance all texts of which are made of the characters in `A`, but for a TLS key given as text -/
structure CleanVpn (A : Char → Prop) (d : VDict) : Prop where
  nodup : (Dict.keys d).Nodup
  rest : ∀ p ∈ d, p.1 ≠ "tls_auth" → Over A p
  key : ∀ v, Dict.get? d "tls_auth" = some v → Over A v ∨ InlineKey v

/-- a configuration all texts of which (keys and values, at any depth) are made of the characters in `A`, but for `files` and
the TLS keys given as text -/
def CleanConfig (A : Char → Prop) (config : VDict) : Prop :=
  ∀ k v, (k, v) ∈ config → k ≠ "files" → Over A k ∧ (if k = "openvpn" then ∀ l, v = .list l → ∀ d, Val.dict d ∈ l → CleanVpn A d else Over A v)

/-! ## OpenVPN -/

theorem CleanVpn.get {d : VDict} (h : CleanVpn A d) {k : String} (hk : k ≠ "tls_auth") : Over A (Dict.get? d k) :=
  fun _ hv => (h.rest _ (Dict.mem_of_get? hv) hk).2

theorem mem_set_or {d : VDict} {k : String} {v : Val} {p : String × Val} (h : p ∈ Dict.set d k v) : p ∈ d ∨ p = (k, v) := by
  induction d with
  | nil => exact .inr (List.mem_singleton.1 h)
  | cons q r ih =>
    obtain ⟨k', v'⟩ := q
    rw [Dict.set] at h
    split at h
    · rename_i e
      rcases List.mem_cons.1 h with rfl | h
      · exact .inr (by rw [e])
      · exact .inl (List.mem_cons_of_mem _ h)
    · rcases List.mem_cons.1 h with rfl | h
      · exact .inl List.mem_cons_self
      · rcases ih h with h | h
        · exact .inl (List.mem_cons_of_mem _ h)
        · exact .inr h

theorem CleanVpn.set {d : VDict} (h : CleanVpn A d) {k : String} {v : Val} (hk : Over A k) (hv : Over A v) (hne : k ≠ "tls_auth") : CleanVpn A (Dict.set d k v) := by
  refine ⟨Dict.nodup_set h.nodup k v, fun p hp hpk => ?_, fun w hw => ?_⟩
  · rcases mem_set_or hp with hp | rfl
    · exact h.rest p hp hpk
    · exact ⟨hk, hv⟩
  · rw [Dict.get?_set, if_neg hne] at hw
    exact h.key w hw

theorem CleanVpn.filter {d : VDict} (h : CleanVpn A d) (f : String × Val → Bool) : CleanVpn A (d.filter f) := by
  refine ⟨?_, fun p hp hpk => h.rest p (List.mem_filter.1 hp).1 hpk, fun w hw => ?_⟩
  · exact h.nodup.sublist (List.Sublist.map _ List.filter_sublist)
  · exact h.key w (Dict.get?_of_mem h.nodup (List.mem_filter.1 (Dict.mem_of_get? hw)).1)

theorem CleanVpn.erase {d : VDict} (h : CleanVpn A d) (k : String) : CleanVpn A (Dict.erase d k) := h.filter _

theorem CleanVpn.update {d : VDict} (h : CleanVpn A d) {e : VDict} (he : Over A e) (hk : ∀ p ∈ e, p.1 ≠ "tls_auth") : CleanVpn A (Dict.update d e) := by
  unfold Dict.update
  induction e generalizing d with
  | nil => exact h
  | cons p e ih =>
    exact ih (h.set (over_cons.1 he).1.1 (over_cons.1 he).1.2 (hk p List.mem_cons_self)) (over_cons.1 he).2 fun q hq => hk q (List.mem_cons_of_mem _ hq)

theorem cleanVpn_bareBridge (hA : Wide A env) {d : VDict} (h : CleanVpn A d) : CleanVpn A (bareBridge d) := by
  unfold bareBridge
  split
  · exact h.set (over_lit hA.plain (by decide +kernel)) over_vbool (by decide)
  · exact h

theorem over_remoteText (hA : Wide A env) {v : Val} (h : Over A v) : Over A (remoteText env v) := by
  unfold remoteText
  over

theorem cleanVpn_remotes (hA : Wide A env) {d c : VDict} (h : CleanVpn A d) (hc : remotesText env d = .ok c) : CleanVpn A c := by
  unfold remotesText at hc
  split at hc
  · cases hc; exact h
  · rename_i l hl
    obtain ⟨l', hl', hc⟩ := bind_ok_iff.1 hc
    cases hc
    refine h.set (over_lit hA.plain (by decide +kernel)) (over_vlist.2 ?_) (by decide)
    exact over_mapM (over_vlist.1 (over_some.1 (over_eq hl (h.get (by decide))))) (fun _ hx => over_remoteText hA hx) l' hl'
  · cases hc

theorem over_cipherText (hA : Wide A env) {v : Val} (h : Over A v) : Over A (cipherText env v) := by
  unfold cipherText
  over

theorem cleanVpn_ciphers (hA : Wide A env) {d c : VDict} (h : CleanVpn A d) (hc : dataCiphers env d = .ok c) : CleanVpn A c := by
  unfold dataCiphers at hc
  have hv : Over A ((Dict.get? d "data_ciphers").getD .none) := over_optGetD (h.get (by decide)) over_vnone
  generalize (Dict.get? d "data_ciphers").getD .none = v at hv hc
  dsimp only at hc
  split at hc
  · cases hc; exact h
  · split at hc
    · rename_i l
      obtain ⟨l', hl', hc⟩ := bind_ok_iff.1 hc
      cases hc
      refine h.set (over_lit hA.plain (by decide +kernel)) (over_txt.2 (over_joinWith ?_ ?_)) (by decide)
      · over
      · exact over_mapM (over_vlist.1 hv) (fun _ hx => over_cipherText hA hx) l' hl'
    · cases hc

theorem over_falsy {v : Val} (h : v.truthy = false) : Over A v := by
  cases v with
  | none => exact over_vnone
  | bool b => exact over_vbool
  | int i => exact over_vint
  | str s =>
    have : s = "" := by simpa [Val.truthy] using h
    subst this
    exact fun c hc => nomatch hc
  | list l =>
    have : l = [] := by simpa [Val.truthy] using h
    subst this
    exact over_vlist.2 over_nil
  | dict d =>
    have : d = [] := by simpa [Val.truthy] using h
    subst this
    exact over_vdict.2 over_nil

theorem CleanVpn.over {d : VDict} (hA : Wide A env) (h : CleanVpn A d) (hk : ∀ v, Dict.get? d "tls_auth" = some v → Over A v) : Over A d := by
  intro p hp
  obtain ⟨k, v⟩ := p
  by_cases e : k = "tls_auth"
  · subst e
    exact ⟨over_lit hA.plain (s := "tls_auth") (by decide +kernel), hk v (Dict.get?_of_mem h.nodup hp)⟩
  · exact h.rest _ hp e

theorem CleanVpn.setKey {d : VDict} (hA : Wide A env) (h : CleanVpn A d) {v : Val} (hv : Over A v) : Over A (Dict.set d "tls_auth" v) := by
  intro p hp
  have hn := Dict.nodup_set h.nodup "tls_auth" v
  by_cases e : p.1 = "tls_auth"
  · have hg := Dict.get?_of_mem (k := p.1) (v := p.2) hn hp
    rw [e, Dict.get?_set, if_pos rfl] at hg
    cases hg
    refine ⟨?_, hv⟩
    rw [e]
    exact over_lit hA.plain (by decide +kernel)
  · rcases mem_set_or hp with hp | rfl
    · exact h.rest p hp e
    · exact absurd rfl e

theorem over_tlsAuthPath (hA : Wide A env) {ca dev : Chars} (h0 : Over A ca) (h1 : Over A dev) : Over A (tlsAuthPath ca dev) := by
  unfold tlsAuthPath
  over

theorem cleanVpn_tls (hA : Wide A env) {d c : VDict} {f : Option VDict} (h : CleanVpn A d) (hc : tlsAuth env d = .ok (c, f)) : Over A c := by
  unfold tlsAuth at hc
  dsimp only at hc
  split at hc
  · rename_i hf
    cases hc
    refine h.over hA fun v hv => over_falsy ?_
    rw [hv] at hf
    simpa using hf
  · rename_i hf
    cases hv : Dict.get? d "tls_auth" with
    | none => rw [hv] at hf; exact absurd rfl hf
    | some v =>
      rw [hv] at hc
      obtain ⟨t, ht, hc⟩ := bind_ok_iff.1 hc
      split at hc
      · rename_i h2
        cases hc
        refine h.over hA fun w hw => ?_
        rw [hv] at hw
        cases hw
        rcases h.key v hv with h3 | ⟨s, rfl, h3⟩
        · exact h3
        · exfalso
          simp only [Option.getD_some, asText] at ht
          cases ht
          exact h3 h2
      · obtain ⟨ca, hca, hc⟩ := bind_ok_iff.1 hc
        cases hc
        refine h.setKey hA (over_txt.2 (over_append.2 ⟨over_tlsAuthPath hA ?_ ?_, ?_⟩))
        · refine over_asText ?_ ca hca
          exact over_optGetD (h.get (by decide)) (over_vstr.2 (over_lit hA.plain (by decide +kernel)))
        · refine over_toList.2 (over_pyStr hA ?_)
          exact over_optGetD (h.get (by decide)) (over_vstr.2 (over_lit hA.plain (by decide +kernel)))
        · over

theorem cleanVpn_cipherList (hA : Wide A env) {d : VDict} (h : CleanVpn A d) : CleanVpn A (tlsCipherList d) := by
  unfold tlsCipherList
  have hg := h.get (k := "tls_cipher") (by decide)
  generalize Dict.get? d "tls_cipher" = x at hg
  split
  · split
    · exact h
    · refine h.set (over_lit hA.plain (by decide +kernel)) ?_ (by decide)
      over_norm
      over
  · exact h

theorem over_uciVpnBlock (hA : Wide A env) {d c : VDict} {f : Option VDict} (h : CleanVpn A d) (hc : uciVpnBlock env d = .ok (c, f)) : Over A c := by
  unfold uciVpnBlock at hc
  dsimp only at hc
  have h1 : CleanVpn A (if isZero (Dict.get? d "fragment") = true then Dict.erase d "fragment" else d) := by
    split
    · exact h.erase _
    · exact h
  generalize (if isZero (Dict.get? d "fragment") = true then Dict.erase d "fragment" else d) = d1 at h1 hc
  obtain ⟨p, hp, hc⟩ := bind_ok_iff.1 hc
  obtain ⟨name, d2⟩ := p
  have hd2 : Over A name ∧ CleanVpn A d2 := by
    unfold popKey at hp
    split at hp
    · rename_i v hv
      cases hp
      exact ⟨over_some.1 (over_eq hv (h1.get (by decide))), h1.erase _⟩
    · cases hp
  obtain ⟨t, ht, hc⟩ := bind_ok_iff.1 hc
  have ht := over_asText hd2.1 t ht
  unfold popOr at hc
  dsimp only at hc
  have h3 := (hd2.2.erase "disabled").update (e := [(".name", txt (uciName t)), (".type", .str "openvpn"), ("enabled", .bool (!((Dict.get? d2 "disabled").getD (.bool false)).truthy))])
    (by over) (by simp)
  unfold vpnBlock at hc
  obtain ⟨c1, e1, hc⟩ := bind_ok_iff.1 hc
  have h4 := cleanVpn_remotes hA ((cleanVpn_bareBridge hA (cleanVpn_cipherList hA h3)).filter _) e1
  obtain ⟨c2, e2, hc⟩ := bind_ok_iff.1 hc
  have h5 : CleanVpn A (statusVersion c1) := by
    unfold statusVersion
    split
    · exact h4
    · exact h4.erase _
  have h6 := cleanVpn_ciphers hA h5 e2
  obtain ⟨⟨c3, f3⟩, e3, hc⟩ := bind_ok_iff.1 hc
  cases hc
  exact over_sorted (cleanVpn_tls hA h6 e3)

/-! ## The configuration -/

theorem CleanConfig.get {config : VDict} (h : CleanConfig A config) {k : String} (h1 : k ≠ "files") (h2 : k ≠ "openvpn") : Over A (Dict.get? config k) := by
  intro v hv
  have := (h k v (Dict.mem_of_get? hv) h1).2
  rw [if_neg h2] at this
  exact this

theorem CleanConfig.setFiles {config : VDict} (h : CleanConfig A config) (v : Val) : CleanConfig A (Dict.set config "files" v) := by
  intro k w hk hne
  rcases mem_set_or hk with hk | hk
  · exact h k w hk hne
  · cases hk; exact absurd rfl hne

theorem CleanConfig.addFile {config : VDict} (h : CleanConfig A config) (f : Option VDict) : CleanConfig A (addVpnFile config f) := by
  cases f with
  | none => exact h
  | some f =>
    show CleanConfig A (appendTo config "files" [.dict f])
    unfold appendTo
    split <;> exact h.setFiles _

theorem vpnBlocks_clean (hA : Wide A env) {l : List Val} (hl : ∀ d, Val.dict d ∈ l → CleanVpn A d) {config : VDict} (h : CleanConfig A config) :
    CleanConfig A (vpnBlocks (uciVpnBlock env) config l).1 ∧ Over A (vpnBlocks (uciVpnBlock env) config l).2 := by
  induction l generalizing config with
  | nil => exact ⟨h, over_ok.2 over_nil⟩
  | cons v l ih =>
    have ih' := fun config h => @ih (fun d hd => hl d (List.mem_cons_of_mem _ hd)) config h
    rw [vpnBlocks]
    cases hb : asDict v >>= uciVpnBlock env with
    | error e => exact ⟨h, over_error⟩
    | ok p =>
      obtain ⟨b, f⟩ := p
      obtain ⟨d, hd, hb⟩ := bind_ok_iff.1 hb
      have hv : v = .dict d := by
        cases v <;> simp only [asDict, reduceCtorEq] at hd
        cases hd; rfl
      subst hv
      have hbo := over_uciVpnBlock hA (hl d List.mem_cons_self) hb
      obtain ⟨h1, h2⟩ := ih' _ (h.addFile f)
      exact ⟨h1, over_bind h2 fun bs hbs => over_pure.2 (over_cons.2 ⟨over_vdict.2 hbo, hbs⟩)⟩

/-- what is shown of each converter -/
def ConvOver (A : Char → Prop) (c : Conv) : Prop :=
  ∀ config inter, CleanConfig A config → Over A inter → CleanConfig A (c.run config inter).1 ∧ Over A (c.run config inter).2

theorem vpnConv_over (hA : Wide A env) : ConvOver A (uciVpnConv env) := by
  intro config inter h _
  show CleanConfig A (vpnRun (uciVpnBlock env) config inter).1 ∧ Over A (vpnRun (uciVpnBlock env) config inter).2
  unfold vpnRun
  split
  · rename_i l hl
    have hl' : ∀ d, Val.dict d ∈ l → CleanVpn A d := by
      cases hg : Dict.get? config "openvpn" with
      | none => rw [hg] at hl; cases hl
      | some v =>
        rw [hg] at hl
        have := (h _ _ (Dict.mem_of_get? hg) (by decide)).2
        rw [if_pos rfl] at this
        exact this l hl
    obtain ⟨h1, h2⟩ := vpnBlocks_clean hA hl' h
    refine ⟨h1, over_bind h2 fun bs hbs => over_pure.2 (over_ite over_nil (over_cons.2 ⟨over_mk.2 ⟨?_, over_vlist.2 hbs⟩, over_nil⟩))⟩
    exact over_lit hA.plain (by decide +kernel)
  · exact ⟨h, over_error⟩

theorem over_ztNetworks {d : VDict} (h : Over A d) : Over A (ztNetworks d) := by
  unfold ztNetworks
  have hg := over_get? (k := "networks") h
  generalize Dict.get? d "networks" = x at hg
  split
  · exact over_ok.2 over_nil
  · exact over_ok.2 (over_vlist.1 (over_some.1 hg))
  · exact over_error

theorem over_ztId (hA : Wide A env) {v : Val} (h : Over A v) : Over A (ztId v) := by
  unfold ztId
  over

theorem over_ztLocalConf (hA : Wide A env) {d : VDict} (h : Over A d) : Over A (ztLocalConf d) := by
  unfold ztLocalConf
  dsimp only
  over

theorem over_ztBlock (hA : Wide A env) {d : VDict} (h : Over A d) : Over A (ztBlock d) := by
  unfold ztBlock popOr
  dsimp only
  refine over_bind (over_ztNetworks h) fun ns hns => over_bind (over_popKey h) fun p hp => ?_
  obtain ⟨n, d'⟩ := p
  obtain ⟨hn, hd⟩ := over_mk.1 hp
  dsimp only
  refine over_bind (over_asText hn) fun t ht => over_bind (over_mapM hns fun _ hx => over_ztId hA hx) fun ids hids => ?_
  refine over_pure.2 (over_sorted (over_erase (over_ztLocalConf hA ?_)))
  have hz : Over A ztPath := over_vstr.2 (over_lit hA.plain (by decide +kernel))
  over

theorem over_ztNetwork (hA : Wide A env) {v : Val} (h : Over A v) : Over A (ztNetwork v) := by
  unfold ztNetwork
  over

theorem over_ztBlocks (hA : Wide A env) {d : VDict} (h : Over A d) : Over A (ztBlocks d) := by
  unfold ztBlocks
  refine over_bind (over_ztBlock hA h) fun b hb => over_bind (over_popKey hb) fun p hp => ?_
  obtain ⟨n, d'⟩ := p
  obtain ⟨hn, hd⟩ := over_mk.1 hp
  dsimp only
  split
  · exact over_bind (over_mapM (over_vlist.1 hn) fun _ hx => over_ztNetwork hA hx) fun l hl => over_pure.2 (over_cons.2 ⟨over_vdict.2 hd, hl⟩)
  · exact over_error

theorem ztAll_over (hA : Wide A env) {l : List Val} (hl : Over A l) {config : VDict} (h : CleanConfig A config) :
    CleanConfig A (ztAll env config l).1 ∧ Over A (ztAll env config l).2 := by
  induction l generalizing config with
  | nil => exact ⟨h, over_ok.2 over_nil⟩
  | cons v l ih =>
    have ih' := fun config h => @ih (over_cons.1 hl).2 config h
    rw [ztAll]
    have hd := over_asDict (over_cons.1 hl).1
    cases he : asDict v with
    | error e => exact ⟨h, over_error⟩
    | ok d =>
      dsimp only
      cases hc : ztConfig env config d with
      | error e => exact ⟨h, over_error⟩
      | ok config' =>
        dsimp only
        have h' : CleanConfig A config' := by
          obtain ⟨_, _, hc⟩ := bind_ok_iff.1 hc
          obtain ⟨_, _, hc⟩ := bind_ok_iff.1 hc
          cases hc
          exact h.setFiles _
        cases hb : ztBlocks d with
        | error e => exact ⟨h', over_error⟩
        | ok bs =>
          dsimp only
          obtain ⟨h1, h2⟩ := ih' _ h'
          exact ⟨h1, over_bind h2 fun more hm => over_pure.2 (over_append.2 ⟨over_ztBlocks hA (hd d he) bs hb, hm⟩)⟩

theorem ztConv_over (hA : Wide A env) : ConvOver A (ztConv env) := by
  intro config inter h _
  show CleanConfig A (ztRun env config inter).1 ∧ Over A (ztRun env config inter).2
  unfold ztRun
  have hv := over_optGetD (h.get (k := "zerotier") (by decide) (by decide)) (over_vnone (A := A))
  generalize (Dict.get? config "zerotier").getD .none = v at hv
  split
  · obtain ⟨h1, h2⟩ := ztAll_over hA (over_vlist.1 hv) h
    refine ⟨h1, over_bind h2 fun bs hbs => over_pure.2 (over_ite over_nil (over_cons.2 ⟨over_mk.2 ⟨?_, over_vlist.2 hbs⟩, over_nil⟩))⟩
    exact over_lit hA.plain (by decide +kernel)
  · exact ⟨h, over_error⟩

/-! ## The default converter -/

theorem defaultBlocks_over (hA : Wide A env) {l : List Val} (h : Over A l) (i : Nat) : Over A (defaultBlocks env i l).1 ∧ Over A (defaultBlocks env i l).2 := by
  induction l generalizing i with
  | nil => exact ⟨over_nil, over_ok.2 over_nil⟩
  | cons v l ih =>
    have ih := fun i => @ih (over_cons.1 h).2 i
    have hv := (over_cons.1 h).1
    rw [defaultBlocks.eq_def]
    dsimp only
    split
    · rename_i b
      split
      · have hb := over_defaultBlock hA i (over_vdict.1 hv)
        split
        · exact ⟨h, over_error⟩
        · rename_i b' e
          have hb' := hb b' e
          exact ⟨over_cons.2 ⟨over_vdict.2 hb', (ih _).1⟩, over_bind (ih _).2 fun bs hbs => over_pure.2 (over_cons.2 ⟨over_vdict.2 (over_sorted hb'), hbs⟩)⟩
      · exact ⟨over_cons.2 ⟨hv, (ih i).1⟩, (ih i).2⟩
    · exact ⟨over_cons.2 ⟨hv, (ih i).1⟩, (ih i).2⟩

theorem cleanConfig_cons {k : String} {v : Val} {r : VDict} : CleanConfig A ((k, v) :: r) ↔
    (k ≠ "files" → Over A k ∧ (if k = "openvpn" then ∀ l, v = .list l → ∀ d, Val.dict d ∈ l → CleanVpn A d else Over A v)) ∧ CleanConfig A r := by
  refine ⟨fun h => ⟨h k v List.mem_cons_self, fun k' v' hm => h k' v' (List.mem_cons_of_mem _ hm)⟩, fun h k' v' hm => ?_⟩
  rcases List.mem_cons.1 hm with e | hm
  · cases e; exact h.1
  · exact h.2 k' v' hm

theorem defaultLoop_over (hA : Wide A env) {known : List String} (hf : "files" ∈ known) (ho : "openvpn" ∈ known) {config : VDict} (h : CleanConfig A config) :
    CleanConfig A (defaultLoop env known config).1 ∧ Over A (defaultLoop env known config).2 := by
  induction config with
  | nil => exact ⟨h, over_ok.2 over_nil⟩
  | cons p r ih =>
    obtain ⟨k, v⟩ := p
    obtain ⟨h1, h2⟩ := cleanConfig_cons.1 h
    obtain ⟨i1, i2⟩ := ih h2
    rw [defaultLoop.eq_def]
    dsimp only
    split
    · rename_i l
      split
      · exact ⟨cleanConfig_cons.2 ⟨h1, i1⟩, i2⟩
      · rename_i hk
        have hne : k ≠ "files" := fun e => hk (e ▸ hf)
        have hno : k ≠ "openvpn" := fun e => hk (e ▸ ho)
        obtain ⟨ok, ov⟩ := h1 hne
        rw [if_neg hno] at ov
        obtain ⟨b1, b2⟩ := defaultBlocks_over hA (over_vlist.1 ov) 1
        split
        · rename_i l' e hd
          rw [hd] at b1
          refine ⟨cleanConfig_cons.2 ⟨fun _ => ⟨ok, ?_⟩, h2⟩, over_error⟩
          rw [if_neg hno]; exact over_vlist.2 b1
        · rename_i l' bs hd
          rw [hd] at b1 b2
          refine ⟨cleanConfig_cons.2 ⟨fun _ => ⟨ok, ?_⟩, i1⟩, over_bind i2 fun rest hr => over_pure.2 (over_ite hr (over_cons.2 ⟨⟨ok, over_vlist.2 (over_ok.1 b2)⟩, hr⟩))⟩
          rw [if_neg hno]; exact over_vlist.2 b1
    · exact ⟨cleanConfig_cons.2 ⟨h1, i1⟩, i2⟩

/-! ## All converters -/

theorem convOver_pure {key : String} {run : VDict → VDict → Except PyErr VDict}
    (h : ∀ config inter, CleanConfig A config → Over A inter → Over A (run config inter)) : ConvOver A (pureConv key run) :=
  fun config inter hJ hi => ⟨hJ, h config inter hJ hi⟩

theorem openwrt_convs_over (hA : Wide A env) (sh : Val → Bool) (dsa : Bool) : ∀ c ∈ openwrtConvs env sh dsa, ConvOver A c := by
  intro c hc
  unfold openwrtConvs at hc
  simp only [List.mem_cons, List.not_mem_nil, or_false] at hc
  rcases hc with rfl | rfl | rfl | rfl | rfl | rfl | rfl | rfl | rfl | rfl | rfl | rfl | rfl
  · exact convOver_pure fun config inter h _ => over_fwd (h.get (by decide) (by decide)) fun i _ _ hv hr => over_generalFwd hA i hv hr
  · exact convOver_pure fun config inter h _ => over_fwd (h.get (by decide) (by decide)) fun i _ _ hv hr => over_ntpFwd hA i hv hr
  · exact convOver_pure fun config inter h _ => over_fwd (h.get (by decide) (by decide)) fun i _ _ hv hr => over_ledFwd hA i hv hr
  · exact convOver_pure fun config inter h _ => over_ifacesRun hA dsa (h.get (by decide) (by decide)) (h.get (by decide) (by decide)) (h.get (by decide) (by decide))
  · exact convOver_pure fun config inter h _ => over_fwd (h.get (by decide) (by decide)) fun i _ _ hv hr => over_routeFwd hA i hv hr
  · exact convOver_pure fun config inter h _ => over_fwd (h.get (by decide) (by decide)) fun i _ _ hv hr => over_ruleFwd hA i hv hr
  · exact convOver_pure fun config inter h _ => over_fwd (h.get (by decide) (by decide)) fun i _ _ hv hr => over_switchFwd hA i hv hr
  · exact convOver_pure fun config inter h _ => over_fwd (h.get (by decide) (by decide)) fun i _ _ hv hr => over_radioFwd hA dsa i hv hr
  · refine convOver_pure fun config inter h hi => ?_
    unfold wirelessRun
    exact over_bind (over_trackBridges hA dsa hi) fun m hm => over_fwd (h.get (by decide) (by decide)) fun i _ _ hv hr => over_wirelessFwd hA i hm hv hr
  · exact vpnConv_over hA
  · exact convOver_pure fun config inter h _ => over_fwd (h.get (by decide) (by decide)) fun i _ _ hv hr => over_peerFwd hA i hv hr
  · exact ztConv_over hA
  · intro config inter h _
    obtain ⟨h1, h2⟩ := defaultLoop_over hA (known := knownKeys) (by decide) (by decide) h
    exact ⟨h1, over_bind h2 fun r hr => over_pure.2 (over_sorted hr)⟩

theorem convLoop_over {cls : Class} {cs : List Conv} (hc : ∀ c ∈ cs, ConvOver A c) {config inter : VDict} (h : CleanConfig A config) (hi : Over A inter) :
    CleanConfig A (convLoop cls cs config inter).1.config ∧ Over A (convLoop cls cs config inter).1.inter := by
  induction cs generalizing config inter with
  | nil => exact ⟨h, over_some.2 hi⟩
  | cons c cs ih =>
    have ih := fun config inter h hi => @ih (fun c hm => hc c (List.mem_cons_of_mem _ hm)) config inter h hi
    rw [convLoop]
    split
    · exact ih _ _ h hi
    · obtain ⟨h1, h2⟩ := hc c List.mem_cons_self config inter h hi
      split
      · rename_i e; rw [e] at h1; exact ⟨h1, over_some.2 hi⟩
      · rename_i config' value e
        rw [e] at h1 h2
        split
        · exact ih _ _ h1 hi
        · have hm := mergeKvs_over (sh := cls.sh) [".name"] value inter (over_ok.1 h2) hi
          split
          · exact ⟨h1, over_some.2 hi⟩
          · rename_i i hx
            exact ih _ _ h1 (hm i hx)

end NJ
