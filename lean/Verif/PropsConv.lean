import Verif.ConvPipe

/-!
# Round trips of simple sections: C39 (ntp), C40 (led), C43 (rules), C53, C54
-/

namespace NJ

/-- The options of a section, apart from some special keys: distinct names that are words, values that survive. -/
structure OptionsOK (props : Dict String JType) (special : List String) (d : VDict) : Prop where
  nodup : (Dict.keys d).Nodup
  options : ∀ k v, Dict.get? d k = some v → k ∉ special →
    IsWord k.toList ∧ k.toList.head? ≠ some '.' ∧ Survives (Dict.get? props k) v

/-! Checkers, for concrete examples -/

def survivesB (t : Option JType) : Val → Bool
  | .str s => s != "" && decide (PlainText s.toList) && t != some .integer && t != some .boolean
  | .int _ => t == some .integer
  | .bool _ => t == some .boolean
  | .list l => !l.isEmpty && l.all (fun v => match v with | .str s => decide (PlainText s.toList) | _ => false) &&
      t != some .integer && t != some .boolean
  | _ => false

theorem survivesB_sound {t : Option JType} {v : Val} (h : survivesB t v = true) : Survives t v := by
  cases v with
  | none => cases h
  | bool b => simpa [survivesB, Survives] using h
  | int i => simpa [survivesB, Survives] using h
  | str s =>
    simp only [survivesB, Bool.and_eq_true, bne_iff_ne, decide_eq_true_eq] at h
    exact ⟨h.1.1.1, h.1.1.2, h.1.2, h.2⟩
  | list l =>
    simp only [survivesB, Bool.and_eq_true, bne_iff_ne, List.all_eq_true, Bool.not_eq_eq_eq_not, Bool.not_true] at h
    refine ⟨fun e => by simp [e] at h, ?_, h.1.2, h.2⟩
    intro v hv
    have := h.1.1.2 v hv
    cases v with
    | str s => exact ⟨s, rfl, by simpa using this⟩
    | _ => cases this
  | dict d => cases h

def optionsB (props : Dict String JType) (special : List String) (d : VDict) : Bool :=
  decide (Dict.keys d).Nodup && d.all (fun p => decide (p.1 ∈ special) ||
    (decide (IsWord p.1.toList) && decide (p.1.toList.head? ≠ some '.') && survivesB (Dict.get? props p.1) p.2))

theorem optionsB_sound {props : Dict String JType} {special : List String} {d : VDict} (h : optionsB props special d = true) :
    OptionsOK props special d := by
  simp only [optionsB, Bool.and_eq_true, decide_eq_true_eq, List.all_eq_true, Bool.or_eq_true] at h
  refine ⟨h.1, fun k v hk hs => ?_⟩
  rcases h.2 (k, v) ((Dict.get?_some_iff h.1).1 hk) with h1 | h1
  · exact absurd h1 hs
  · exact ⟨h1.1.1, h1.1.2, survivesB_sound h1.2⟩

/-- an environment for the examples: no IPv6, one time zone -/
def sampleEnv : Env where
  reprC := fun _ => ""
  lower := List.map Char.toLower
  upper := List.map Char.toUpper
  tz := fun z => if z = "Europe/Rome" then some "CET-1CEST,M3.5.0,M10.5.0/3" else none
  tzRev := fun z => if z = "CET-1CEST,M3.5.0,M10.5.0/3" then some "Europe/Rome" else none
  ip6 := ⟨fun _ => none, fun _ => []⟩

theorem OptionsOK.dotless {props : Dict String JType} {special : List String} {d : VDict} (h : OptionsOK props special d) {k : String}
    (hk : k.toList.head? = some '.') (hs : k ∉ special) : Dict.get? d k = none := by
  cases hv : Dict.get? d k with
  | none => rfl
  | some v => exact absurd hk (h.options k v hv hs).2.1

theorem skip_of_type {b : VDict} {t : String} {ts : List String} (h : Dict.get? b ".type" = some (.str t)) (ht : t ∈ ts) :
    skipBlock (some ts) b = false := by
  unfold skipBlock
  have hne : b.isEmpty = false := by
    cases b with
    | nil => simp at h
    | cons p r => rfl
  rw [hne, h]
  simp only [Bool.false_or, Bool.not_eq_eq_eq_not, Bool.not_false, List.any_eq_true]
  exact ⟨t, ht, by simp⟩

/-! ## Blocks with an identifier: `.name` is the value of a key of the section, or made from other data -/

/-- the section with its identifier moved to `.name` -/
def namedBlock (d : VDict) (idk ty nm : String) : VDict :=
  sortedDict (Dict.update (Dict.erase d idk) [(".type", .str ty), (".name", .str nm)])

theorem namedBlock_nodup {d : VDict} (h : (Dict.keys d).Nodup) (idk ty nm : String) : (Dict.keys (namedBlock d idk ty nm)).Nodup :=
  sortedDict_nodup (Dict.nodup_update (Dict.nodup_erase h idk) _)

theorem namedBlock_get? {d : VDict} (h : (Dict.keys d).Nodup) (idk ty nm k : String) :
    Dict.get? (namedBlock d idk ty nm) k =
      if k = ".name" then some (.str nm) else if k = ".type" then some (.str ty) else if k = idk then none else Dict.get? d k := by
  unfold namedBlock
  rw [get?_sortedDict (Dict.nodup_update (Dict.nodup_erase h idk) _)]
  simp only [Dict.update_cons, Dict.update_nil, Dict.get?_set, Dict.get?_erase]
  by_cases h1 : k = ".name"
  · subst h1; simp
  · by_cases h2 : k = ".type"
    · subst h2; simp
    · have h1' : ¬ ".name" = k := fun e => h1 e.symm
      have h2' : ¬ ".type" = k := fun e => h2 e.symm
      by_cases h3 : k = idk
      · subst h3; simp [h1, h2, h1', h2']
      · have h3' : ¬ idk = k := fun e => h3 e.symm
        simp [h1, h2, h3, h1', h2', h3']

theorem namedBlock_plain {props : Dict String JType} {d : VDict} {idk ty nm : String} (h : OptionsOK props [idk] d)
    (ht : IsWord ty.toList ∧ ty ≠ "device" ∧ ty ≠ "bridge-vlan") (hn : IsWord nm.toList) : PlainBlock (namedBlock d idk ty nm) where
  nodup := namedBlock_nodup h.nodup _ _ _
  type := ⟨ty, by rw [namedBlock_get? h.nodup]; simp, ht⟩
  name := ⟨nm, by rw [namedBlock_get? h.nodup]; simp, hn⟩
  options := by
    intro k v hk h1 h2
    rw [namedBlock_get? h.nodup, if_neg h2, if_neg h1] at hk
    split at hk
    · cases hk
    · next h3 =>
      obtain ⟨o1, o2, o3⟩ := h.options k v hk (by simpa using h3)
      exact ⟨o1, o2, survives_plain o3⟩

/-- converting the block read back from text: the identifier is put back when it is not the automatic one -/
theorem named_back (reprC : Val → String) {props : Dict String JType} {d : VDict} {idk ty nm : String} {auto : Val} (h : OptionsOK props [idk] d)
    (ht : IsWord ty.toList ∧ ty ≠ "device" ∧ ty ≠ "bridge-vlan") (hn : IsWord nm.toList)
    (hid : idk ≠ ".type" ∧ idk ≠ ".name" ∧ Dict.get? props idk ≠ some .integer ∧ Dict.get? props idk ≠ some .boolean)
    (hd : (Dict.get? d idk = none ∧ .str nm = auto) ∨ (Dict.get? d idk = some (.str nm) ∧ .str nm ≠ auto))
    (x : VDict) (hxn : (Dict.keys x).Nodup)
    (hx : ∀ k, Dict.get? x k = if k = ".type" ∨ k = ".name" then none else Dict.get? (blockBack reprC (namedBlock d idk ty nm)) k) :
    ∃ out, typeCast props (if .str nm = auto then x else Dict.set x idk (.str nm)) = .ok out ∧ SameItems out d := by
  have hsur : Survives (Dict.get? props idk) (.str nm) :=
    ⟨fun e => hn.1 (by rw [e]; rfl), isWord_plain hn, hid.2.2.1, hid.2.2.2⟩
  have hdot : ∀ k : String, k = ".type" ∨ k = ".name" → Dict.get? d k = none := by
    intro k hk
    apply h.dotless
    · rcases hk with rfl | rfl <;> decide
    · simp only [List.mem_singleton]
      rcases hk with rfl | rfl
      · exact fun e => hid.1 e.symm
      · exact fun e => hid.2.1 e.symm
  have hitem : ∀ k, k ≠ idk → Dict.get? x k = (Dict.get? d k).bind readVal := by
    intro k hk
    rw [hx]
    by_cases h1 : k = ".type" ∨ k = ".name"
    · rw [if_pos h1, hdot k h1]; rfl
    · rw [if_neg h1, get?_blockBack reprC (namedBlock_plain h ht hn), if_neg h1, namedBlock_get? h.nodup]
      simp only [not_or] at h1
      rw [if_neg h1.2, if_neg h1.1, if_neg hk]
  have hxid : Dict.get? x idk = none := by
    rw [hx, if_neg (by simp [hid.1, hid.2.1]), get?_blockBack reprC (namedBlock_plain h ht hn), if_neg (by simp [hid.1, hid.2.1]),
      namedBlock_get? h.nodup, if_neg hid.2.1, if_neg hid.1, if_pos rfl]; rfl
  have hsurv : ∀ k v, Dict.get? d k = some v → Survives (Dict.get? props k) v := by
    intro k v hk
    by_cases e : k = idk
    · subst e
      rcases hd with ⟨h1, _⟩ | ⟨h1, _⟩
      · rw [h1] at hk; cases hk
      · rw [h1] at hk; cases hk; exact hsur
    · exact (h.options k v hk (by simpa using e)).2.2
  apply typeCast_back
  · split
    · exact hxn
    · exact Dict.nodup_set hxn _ _
  · exact hsurv
  · intro k
    rcases hd with ⟨h1, h2⟩ | ⟨h1, h2⟩
    · rw [if_pos h2]
      by_cases e : k = idk
      · subst e; rw [hxid, h1]; rfl
      · exact hitem k e
    · rw [if_neg h2, Dict.get?_set]
      by_cases e : k = idk
      · subst e
        rw [if_pos rfl, h1]
        have : nm ≠ "" := fun e => hn.1 (by rw [e]; rfl)
        simp [readVal, this]
      · rw [if_neg (fun h => e h.symm)]; exact hitem k e

/-- the type and the name of a block removed -/
theorem get?_erase2 (b : VDict) (k1 k2 k : String) :
    Dict.get? (Dict.erase (Dict.erase b k1) k2) k = if k = k1 ∨ k = k2 then none else Dict.get? b k := by
  rw [Dict.get?_erase, Dict.get?_erase]
  by_cases h1 : k = k1
  · subst h1; by_cases h2 : k = k2 <;> simp
  · by_cases h2 : k = k2
    · subst h2; simp
    · have h1' : ¬ k1 = k := fun e => h1 e.symm
      have h2' : ¬ k2 = k := fun e => h2 e.symm
      simp [h1, h2, h1', h2']

theorem str_inj {a b : String} : Val.str a = Val.str b ↔ a = b := by simp

/-! ## C40: LEDs -/

/-- A LED whose settings survive: it has a name; its identifier, if there is one, is a word other than the automatic one;
the automatic one is a word if it is used; the other options survive. -/
structure LedOK (env : Env) (d : VDict) : Prop where
  options : OptionsOK ledProps ["id"] d
  name : ∃ n : String, Dict.get? d "name" = some (.str n) ∧
    ((Dict.get? d "id" = none ∧ IsWord ("led_".toList ++ env.lower n.toList)) ∨
     ∃ i, Dict.get? d "id" = some (.str i) ∧ IsWord i.toList ∧ i.toList ≠ "led_".toList ++ env.lower n.toList)

theorem led_item (env : Env) (i : Nat) (d : VDict) (h : LedOK env d) :
    ItemBack env.reprC (some ["led"]) (fun _ d => ledBlock env d) (fun _ b => netjsonLed env b) i d := by
  obtain ⟨n, hn, hid⟩ := h.name
  have hty : IsWord ("led" : String).toList ∧ "led" ≠ "device" ∧ "led" ≠ "bridge-vlan" := by decide
  -- the name of the block
  obtain ⟨nm, hnm, hcase, hpop⟩ : ∃ nm : String, IsWord nm.toList ∧
      ((Dict.get? d "id" = none ∧ Val.str nm = txt ("led_".toList ++ env.lower n.toList)) ∨
        (Dict.get? d "id" = some (.str nm) ∧ Val.str nm ≠ txt ("led_".toList ++ env.lower n.toList))) ∧
      popOrElse d "id" (ledAutoName env) = .ok (.str nm, Dict.erase d "id") := by
    rcases hid with ⟨h1, h2⟩ | ⟨i, h1, h2, h3⟩
    · refine ⟨String.ofList ("led_".toList ++ env.lower n.toList), by simpa using h2, .inl ⟨h1, rfl⟩, ?_⟩
      unfold popOrElse
      rw [h1]
      have : ledAutoName env (Dict.erase d "id") = .ok (txt ("led_".toList ++ env.lower n.toList)) := by
        unfold ledAutoName
        rw [getKey_ok (v := .str n) (by rw [Dict.get?_erase, if_neg (by decide)]; exact hn)]
        rfl
      simp only [this]
      rfl
    · refine ⟨i, h2, .inr ⟨h1, ?_⟩, ?_⟩
      · intro e
        simp only [txt, Val.str.injEq] at e
        exact h3 (by rw [e]; simp)
      · unfold popOrElse
        rw [h1]
        have : (Val.str i).truthy = true := by
          simp only [Val.truthy, bne_iff_ne, ne_eq]
          exact fun e => h2.1 (by rw [e]; rfl)
        simp only [this, if_true]
  have hplain := namedBlock_plain h.options hty hnm
  have htype : Dict.get? (blockBack env.reprC (namedBlock d "id" "led" nm)) ".type" = some (.str "led") := by
    rw [get?_blockBack _ hplain, if_pos (.inl rfl), namedBlock_get? h.options.nodup]; simp
  have hname : Dict.get? (blockBack env.reprC (namedBlock d "id" "led" nm)) ".name" = some (.str nm) := by
    rw [get?_blockBack _ hplain, if_pos (.inr rfl), namedBlock_get? h.options.nodup]; simp
  obtain ⟨out, ho1, ho2⟩ := named_back env.reprC h.options hty hnm (by decide) hcase
    (Dict.erase (Dict.erase (blockBack env.reprC (namedBlock d "id" "led" nm)) ".type") ".name")
    (Dict.nodup_erase (Dict.nodup_erase (blockBack_nodup _ hplain) _) _) (fun k => get?_erase2 _ _ _ k)
  refine ⟨namedBlock d "id" "led" nm, out, ?_, hplain, skip_of_type htype (by simp), ?_, ho2⟩
  · show ledBlock env d = _
    unfold ledBlock
    rw [hpop]; rfl
  · show netjsonLed env _ = _
    unfold netjsonLed
    rw [popKey_ok htype]
    simp only [bind, Except.bind]
    rw [popKey_ok (v := .str nm) (by rw [Dict.get?_erase, if_neg (by decide)]; exact hname)]
    simp only []
    have hauto : ledAutoName env (Dict.erase (Dict.erase (blockBack env.reprC (namedBlock d "id" "led" nm)) ".type") ".name") =
        .ok (txt ("led_".toList ++ env.lower n.toList)) := by
      unfold ledAutoName
      rw [getKey_ok (v := .str n)]
      · rfl
      · rw [get?_erase2, if_neg (by decide), get?_blockBack _ hplain, if_neg (by decide), namedBlock_get? h.options.nodup,
          if_neg (by decide), if_neg (by decide), if_neg (by decide), hn]
        have := (h.options.options "name" _ hn (by decide)).2.2
        simp only [Survives] at this
        simp [readVal, this.1]
    rw [hauto]
    exact ho1

/-- C40: the LED list, converted to UCI text and back, is the same list of the same settings. -/
theorem C40_round_trip (env : Env) (config : VDict) (l : List VDict) (hne : l ≠ [])
    (hk : Dict.get? config "led" = some (.list (l.map .dict))) (h : ∀ d ∈ l, LedOK env d) :
    ∃ rs, viaText env.reprC (ledConv env) (ledBConv env) config = .ok [("led", .list (rs.map .dict))] ∧ List.Forall₂ SameItems rs l := by
  refine list_section env.reprC "led" "system" (some ["led"]) (ledFwd env) (ledBack env) (fun _ d => ledBlock env d)
    (fun _ b => netjsonLed env b) (by decide) ?_ ?_ config l hne hk ?_
  · intro i d r; rfl
  · intro i b r; rfl
  · exact allIdx_mono (Nat.le_refl 1) (allIdx_of_forall (p := fun _ _ => True) (fun _ _ => trivial) 1 l)
      (fun i _ d hd _ => led_item env i d (h d hd))

/-! ## C43: policy rules -/

theorem allIdx_of_getElem {α : Type} {p : Nat → α → Prop} {l : List α} {i : Nat} (h : ∀ j x, l[j]? = some x → p (i + j) x) : AllIdx p i l := by
  induction l generalizing i with
  | nil => trivial
  | cons x xs ih =>
    refine ⟨h 0 x rfl, ih (fun j y hy => ?_)⟩
    have := h (j + 1) y (by simpa using hy)
    rwa [show i + 1 + j = i + (j + 1) by omega]

/-- the text under a key of a rule, if there is one, is a network without host bits -/
def NetOK (env : Env) (d : VDict) (k : String) : Prop :=
  ∀ v, Dict.get? d k = some v → ∃ s net, v = .str s ∧ ipNetwork env.ip6 s.toList = some net

/-- A rule, the one number `i`, whose settings survive: source and destination are networks, its name, if it has one, is a word
other than the automatic one, the other options survive. -/
structure RuleOK (env : Env) (i : Nat) (d : VDict) : Prop where
  options : OptionsOK ruleProps ["name"] d
  src : NetOK env d "src"
  dest : NetOK env d "dest"
  name : Dict.get? d "name" = none ∨ ∃ n, Dict.get? d "name" = some (.str n) ∧ IsWord n.toList ∧ n.toList ≠ "rule".toList ++ showNat i

/-- is the text under the key an IPv6 network, `none` when the key is missing -/
def isV6 (env : Env) (d : VDict) (k : String) : Option Bool :=
  match Dict.get? d k with
  | some (.str s) => (ipNetwork env.ip6 s.toList).map IpIf.v6
  | _ => none

/-- the type of the block: IPv6 when the destination, or without destination the source, is an IPv6 network -/
def ruleType (env : Env) (d : VDict) : String :=
  if ((isV6 env d "dest").or (isV6 env d "src")).getD false then "rule6" else "rule"

theorem ruleNet_ok {env : Env} {d : VDict} {k : String} (h : NetOK env d k) :
    ∃ o : Option IpIf, ruleNet env d k = .ok o ∧ o.map IpIf.v6 = isV6 env d k := by
  unfold ruleNet isV6
  cases hk : Dict.get? d k with
  | none => exact ⟨none, rfl, rfl⟩
  | some v =>
    obtain ⟨s, net, rfl, hn⟩ := h v hk
    exact ⟨some net, by simp [hn], by simp [hn]⟩

theorem autoName_word (pre : Chars) (hp : IsWord pre) (i : Nat) : IsWord (pre ++ showNat i) := by
  refine ⟨by simp [hp.1], ?_⟩
  intro c hc
  rcases List.mem_append.1 hc with hc | hc
  · exact hp.2 c hc
  · have hd := showNat_digits i c hc
    refine ⟨isDigit_not_space hd, ?_, ?_⟩ <;> (rintro rfl; exact absurd hd (by decide))

/-- the name of a block: the one given, or the automatic one -/
theorem pop_name {d : VDict} {k : String} {auto : Chars} (ha : IsWord auto)
    (h : Dict.get? d k = none ∨ ∃ n, Dict.get? d k = some (.str n) ∧ IsWord n.toList ∧ n.toList ≠ auto) :
    ∃ nm : String, IsWord nm.toList ∧
      ((Dict.get? d k = none ∧ Val.str nm = txt auto) ∨ (Dict.get? d k = some (.str nm) ∧ Val.str nm ≠ txt auto)) ∧
      popOrElse d k (fun _ => .ok (txt auto)) = .ok (.str nm, Dict.erase d k) := by
  rcases h with h1 | ⟨i, h1, h2, h3⟩
  · refine ⟨String.ofList auto, by simpa using ha, .inl ⟨h1, rfl⟩, ?_⟩
    unfold popOrElse
    rw [h1]; rfl
  · refine ⟨i, h2, .inr ⟨h1, ?_⟩, ?_⟩
    · intro e
      simp only [txt, Val.str.injEq] at e
      exact h3 (by rw [e]; simp)
    · unfold popOrElse
      rw [h1]
      have : (Val.str i).truthy = true := by
        simp only [Val.truthy, bne_iff_ne, ne_eq]
        exact fun e => h2.1 (by rw [e]; rfl)
      simp only [this, if_true]

theorem ruleBlock_eq {env : Env} {i : Nat} {d : VDict} (hs : NetOK env d "src") (hd : NetOK env d "dest") {nm : Val} {r : VDict}
    (hpop : popOrElse d "name" (fun _ => .ok (autoName "rule".toList i)) = .ok (nm, r)) :
    ruleBlock env i d = .ok (sortedDict (Dict.update r [(".type", .str (ruleType env d)), (".name", nm)])) := by
  obtain ⟨os, h1, h2⟩ := ruleNet_ok hs
  obtain ⟨od, h3, h4⟩ := ruleNet_ok hd
  unfold ruleBlock ruleType
  rw [h1, h3]
  simp only [bind, Except.bind, hpop, ← h2, ← h4, pure, Except.pure]
  cases od <;> cases os <;> rfl

theorem ruleType_ok (env : Env) (d : VDict) :
    (IsWord (ruleType env d).toList ∧ ruleType env d ≠ "device" ∧ ruleType env d ≠ "bridge-vlan") ∧ ruleType env d ∈ ["rule", "rule6"] := by
  unfold ruleType
  split <;> decide

theorem rule_item (env : Env) (i : Nat) (d : VDict) (h : RuleOK env i d) :
    ItemBack env.reprC (some ["rule", "rule6"]) (ruleBlock env) netjsonRule i d := by
  obtain ⟨nm, hnm, hcase, hpop⟩ := pop_name (autoName_word "rule".toList (by decide) i) h.name
  obtain ⟨hty, hmem⟩ := ruleType_ok env d
  have hplain := namedBlock_plain h.options hty hnm
  have htype : Dict.get? (blockBack env.reprC (namedBlock d "name" (ruleType env d) nm)) ".type" = some (.str (ruleType env d)) := by
    rw [get?_blockBack _ hplain, if_pos (.inl rfl), namedBlock_get? h.options.nodup]; simp
  have hname : Dict.get? (blockBack env.reprC (namedBlock d "name" (ruleType env d) nm)) ".name" = some (.str nm) := by
    rw [get?_blockBack _ hplain, if_pos (.inr rfl), namedBlock_get? h.options.nodup]; simp
  obtain ⟨out, ho1, ho2⟩ := named_back env.reprC h.options hty hnm (by decide) hcase
    (Dict.erase (Dict.erase (blockBack env.reprC (namedBlock d "name" (ruleType env d) nm)) ".name") ".type")
    (Dict.nodup_erase (Dict.nodup_erase (blockBack_nodup _ hplain) _) _)
    (fun k => by rw [get?_erase2]; congr 1; exact propext or_comm)
  refine ⟨namedBlock d "name" (ruleType env d) nm, out, ruleBlock_eq h.src h.dest hpop, hplain, skip_of_type htype hmem, ?_, ho2⟩
  unfold netjsonRule
  rw [popKey_ok hname]
  simp only [bind, Except.bind]
  by_cases e : Val.str nm = autoName "rule".toList i
  · rw [if_pos e]
    rw [if_pos (show Val.str nm = txt ("rule".toList ++ showNat i) from e)] at ho1
    rw [popKey_ok (v := .str (ruleType env d)) (by rw [Dict.get?_erase, if_neg (by decide)]; exact htype)]
    exact ho1
  · rw [if_neg e]
    rw [if_neg (show ¬ Val.str nm = txt ("rule".toList ++ showNat i) from e)] at ho1
    rw [popKey_ok (v := .str (ruleType env d)) (by
      rw [Dict.get?_set, if_neg (by decide), Dict.get?_erase, if_neg (by decide)]; exact htype)]
    have hc : Dict.erase (Dict.set (Dict.erase (blockBack env.reprC (namedBlock d "name" (ruleType env d) nm)) ".name") "name" (.str nm)) ".type" =
        Dict.set (Dict.erase (Dict.erase (blockBack env.reprC (namedBlock d "name" (ruleType env d) nm)) ".name") ".type") "name" (.str nm) :=
      Dict.erase_set_comm _ (by decide) _
    simp only [hc]
    exact ho1

/-- C43: the policy rules, converted to UCI text and back, are the same list of the same settings. -/
theorem C43_round_trip (env : Env) (config : VDict) (l : List VDict) (hne : l ≠ [])
    (hk : Dict.get? config "ip_rules" = some (.list (l.map .dict))) (h : ∀ i d, l[i]? = some d → RuleOK env (i + 1) d) :
    ∃ rs, viaText env.reprC (rulesConv env) rulesBConv config = .ok [("ip_rules", .list (rs.map .dict))] ∧ List.Forall₂ SameItems rs l := by
  refine list_section env.reprC "ip_rules" "network" (some ["rule", "rule6"]) (ruleFwd env) ruleBack (ruleBlock env)
    netjsonRule (by decide) ?_ ?_ config l hne hk ?_
  · intro i d r; rfl
  · intro i b r; rfl
  · exact allIdx_of_getElem (fun i d hd => rule_item env _ d (by rw [Nat.add_comm]; exact h i d hd))

/-- C43: every rule gets the type of its destination, or else of its source. -/
theorem C43_family (env : Env) (config : VDict) (l : List VDict) (hn : ∀ d ∈ l, (Dict.keys d).Nodup)
    (hk : Dict.get? config "ip_rules" = some (.list (l.map .dict))) (out : VDict) (h : ((rulesConv env).run config []).2 = .ok out) :
    ∃ bs, out = (if bs.isEmpty then [] else [("network", .list (bs.map .dict))]) ∧
      List.Forall₂ (fun b d => Dict.get? b ".type" = some (.str (ruleType env d))) bs l := by
  have h' : fwd "ip_rules" (ruleFwd env) config = .ok out := h
  rw [fwd_eq "ip_rules" (ruleFwd env) "network" (ruleBlock env) (fun _ _ _ => rfl) config l hk] at h'
  obtain ⟨bs, h1, h2⟩ := bind_ok_iff.1 h'
  cases h2
  refine ⟨bs, rfl, mapIdxM_forall h1 ?_⟩
  intro j d b hd hb
  have net : ∀ k o, ruleNet env d k = .ok o → NetOK env d k := by
    intro k o ho v hv
    unfold ruleNet at ho
    rw [hv] at ho
    cases v with
    | str s =>
      cases hs : ipNetwork env.ip6 s.toList with
      | none => simp [hs] at ho
      | some net => exact ⟨s, net, rfl, hs⟩
    | none => cases ho
    | bool _ => cases ho
    | int _ => cases ho
    | list _ => cases ho
    | dict _ => cases ho
  have hsrc : NetOK env d "src" := by
    unfold ruleBlock at hb
    obtain ⟨o, h1, _⟩ := bind_ok_iff.1 hb
    exact net _ _ h1
  have hdest : NetOK env d "dest" := by
    unfold ruleBlock at hb
    obtain ⟨_, _, h2⟩ := bind_ok_iff.1 hb
    obtain ⟨o, h1, _⟩ := bind_ok_iff.1 h2
    exact net _ _ h1
  obtain ⟨nm, r, hpop, hrn⟩ : ∃ nm r, popOrElse d "name" (fun _ => .ok (autoName "rule".toList j)) = .ok (nm, r) ∧ r = Dict.erase d "name" := by
    unfold popOrElse
    cases Dict.get? d "name" with
    | none => exact ⟨_, _, rfl, rfl⟩
    | some v =>
      cases hv : v.truthy with
      | true => exact ⟨v, _, by simp [hv], rfl⟩
      | false => exact ⟨autoName "rule".toList j, _, by simp [hv], rfl⟩
  rw [ruleBlock_eq hsrc hdest hpop] at hb
  cases hb
  have hnr : (Dict.keys r).Nodup := by rw [hrn]; exact Dict.nodup_erase (hn d hd) _
  rw [get?_sortedDict (Dict.nodup_update hnr _)]
  simp [Dict.update_cons, Dict.update_nil, Dict.get?_set]

/-- C43: a rule whose source or destination is not a network (for instance because of host bits) makes the conversion fail. -/
theorem C43_refused (env : Env) (config : VDict) (d : VDict) (rest : List VDict) (k s : String) (hk : k = "src" ∨ k = "dest")
    (hs : Dict.get? d k = some (.str s)) (hbad : ipNetwork env.ip6 s.toList = none)
    (hc : Dict.get? config "ip_rules" = some (.list ((d :: rest).map .dict))) :
    ((rulesConv env).run config []).2 = .error .valueError := by
  show fwd "ip_rules" (ruleFwd env) config = _
  rw [fwd_eq "ip_rules" (ruleFwd env) "network" (ruleBlock env) (fun _ _ _ => rfl) config _ hc]
  have net : ∀ k, (∃ o, ruleNet env d k = .ok o) ∨ ruleNet env d k = .error .valueError := by
    intro k
    unfold ruleNet
    split
    · exact .inl ⟨_, rfl⟩
    · split
      · exact .inl ⟨_, rfl⟩
      · exact .inr rfl
    · exact .inr rfl
  have hb : ruleNet env d k = .error .valueError := by
    unfold ruleNet; rw [hs]; simp [hbad]
  have : ruleBlock env 1 d = .error .valueError := by
    unfold ruleBlock
    rcases hk with rfl | rfl
    · rw [hb]; rfl
    · rcases net "src" with ⟨o, ho⟩ | ho
      · rw [ho, hb]; rfl
      · rw [ho]; rfl
  rw [mapIdxM, this]; rfl

/-! ## C39: NTP -/

/-- NTP settings that survive: there are some; the identifier, if there is one, is a word other than `ntp`; options survive. -/
structure NtpOK (d : VDict) : Prop where
  options : OptionsOK ntpProps ["id"] d
  ne : d ≠ []
  id : Dict.get? d "id" = none ∨ ∃ n, Dict.get? d "id" = some (.str n) ∧ IsWord n.toList ∧ n ≠ "ntp"

/-- the block of NTP settings and what it is converted back to -/
theorem ntp_item (env : Env) (d : VDict) (h : NtpOK d) :
    ∃ b out, ntpFwd none (.dict d) [] = .ok [("system", .list [.dict b])] ∧ PlainBlock b ∧ Dict.get? b ".type" = some (.str "timeserver") ∧
      skipBlock (some ["timeserver"]) (blockBack env.reprC b) = false ∧
      (∀ i r, ntpBack i (blockBack env.reprC b) r = .ok (Dict.set r "ntp" (.dict out))) ∧ SameItems out d := by
  obtain ⟨nm, hnm, hcase, hpop⟩ : ∃ nm : String, IsWord nm.toList ∧
      ((Dict.get? d "id" = none ∧ Val.str nm = .str "ntp") ∨ (Dict.get? d "id" = some (.str nm) ∧ Val.str nm ≠ .str "ntp")) ∧
      popOr d "id" (.str "ntp") = (.str nm, Dict.erase d "id") := by
    rcases h.id with h1 | ⟨n, h1, h2, h3⟩
    · exact ⟨"ntp", by decide, .inl ⟨h1, rfl⟩, by unfold popOr; rw [h1]; rfl⟩
    · exact ⟨n, h2, .inr ⟨h1, by simpa using h3⟩, by unfold popOr; rw [h1]; rfl⟩
  have hty : IsWord ("timeserver" : String).toList ∧ "timeserver" ≠ "device" ∧ "timeserver" ≠ "bridge-vlan" := by decide
  have hplain := namedBlock_plain h.options hty hnm
  have htype : Dict.get? (blockBack env.reprC (namedBlock d "id" "timeserver" nm)) ".type" = some (.str "timeserver") := by
    rw [get?_blockBack _ hplain, if_pos (.inl rfl), namedBlock_get? h.options.nodup]; simp
  have hname : Dict.get? (blockBack env.reprC (namedBlock d "id" "timeserver" nm)) ".name" = some (.str nm) := by
    rw [get?_blockBack _ hplain, if_pos (.inr rfl), namedBlock_get? h.options.nodup]; simp
  obtain ⟨out, ho1, ho2⟩ := named_back env.reprC h.options hty hnm (by decide) hcase
    (Dict.erase (Dict.erase (blockBack env.reprC (namedBlock d "id" "timeserver" nm)) ".type") ".name")
    (Dict.nodup_erase (Dict.nodup_erase (blockBack_nodup _ hplain) _) _) (fun k => get?_erase2 _ _ _ k)
  refine ⟨namedBlock d "id" "timeserver" nm, out, ?_, hplain, by rw [namedBlock_get? h.options.nodup]; simp, skip_of_type htype (by simp), fun i r => ?_, ho2⟩
  · unfold ntpFwd
    have : (Val.dict d).truthy = true := by
      cases d with
      | nil => exact absurd rfl h.ne
      | cons p r => rfl
    rw [if_pos this]
    simp only [asDict, bind, Except.bind, hpop]
    rfl
  · show (netjsonNtp _ >>= _) = _
    have : netjsonNtp (blockBack env.reprC (namedBlock d "id" "timeserver" nm)) = .ok out := by
      unfold netjsonNtp
      rw [popKey_ok htype]
      simp only [bind, Except.bind]
      rw [popKey_ok (v := .str nm) (by rw [Dict.get?_erase, if_neg (by decide)]; exact hname)]
      exact ho1
    rw [this]; rfl

/-- C39: NTP settings, converted to UCI text and back, are the same settings. -/
theorem C39_round_trip (env : Env) (config d : VDict) (hk : Dict.get? config "ntp" = some (.dict d)) (h : NtpOK d) :
    ∃ out, viaText env.reprC ntpConv ntpBConv config = .ok [("ntp", .dict out)] ∧ SameItems out d := by
  obtain ⟨b, out, h1, h2, _, h3, h4, h5⟩ := ntp_item env d h
  exact ⟨out, dict_section env.reprC "ntp" "system" (some ["timeserver"]) ntpFwd ntpBack (by decide) config d b _ hk h1 h2 h3 (h4 1 []), h5⟩

/-! ## C41: general settings -/

/-- General settings that survive: texts and lists of texts; a known time zone with a clean POSIX string; an identifier, if
there is one, that is a word other than `system`; no option `zonename` and no ULA prefix (which has its own block). -/
structure GeneralOK (env : Env) (d : VDict) : Prop where
  options : OptionsOK [] ["id"] d
  ne : d ≠ []
  id : Dict.get? d "id" = none ∨ ∃ n, Dict.get? d "id" = some (.str n) ∧ IsWord n.toList ∧ n ≠ "system"
  zone : ∀ v, Dict.get? d "timezone" = some v → ∃ z p, v = .str z ∧ env.tz z = some p ∧ p ≠ "" ∧ PlainText p.toList
  noZonename : Dict.get? d "zonename" = none
  noUla : Dict.get? d "ula_prefix" = none

/-- the settings with the host name that is used when none is given -/
def withHostname (d : VDict) : VDict := if Dict.has d "hostname" then d else Dict.set d "hostname" (.str "OpenWRT")

/-- the block made from general settings, item by item -/
def systemItem (env : Env) (d : VDict) (nm k : String) : Option Val :=
  if k = ".name" then some (.str nm) else if k = ".type" then some (.str "system") else if k = "id" then none
  else if k = "hostname" then some ((Dict.get? d "hostname").getD (.str "OpenWRT"))
  else if k = "zonename" then Dict.get? d "timezone"
  else if k = "timezone" then match Dict.get? d "timezone" with
    | some (.str z) => (env.tz z).map .str
    | _ => none
  else Dict.get? d k

theorem system_block (env : Env) (d : VDict) (h : GeneralOK env d) :
    ∃ (nm : String) (b : VDict), IsWord nm.toList ∧
      ((Dict.get? d "id" = none ∧ nm = "system") ∨ (Dict.get? d "id" = some (.str nm) ∧ nm ≠ "system")) ∧
      systemBlock env d = .ok (some b) ∧ (Dict.keys b).Nodup ∧ ∀ k, Dict.get? b k = systemItem env d nm k := by
  obtain ⟨nm, hnm, hcase, hpop⟩ : ∃ nm : String, IsWord nm.toList ∧
      ((Dict.get? d "id" = none ∧ nm = "system") ∨ (Dict.get? d "id" = some (.str nm) ∧ nm ≠ "system")) ∧
      popOr d "id" (.str "system") = (.str nm, Dict.erase d "id") := by
    rcases h.id with h1 | ⟨n, h1, h2, h3⟩
    · exact ⟨"system", by decide, .inl ⟨h1, rfl⟩, by unfold popOr; rw [h1]; rfl⟩
    · exact ⟨n, h2, .inr ⟨h1, h3⟩, by unfold popOr; rw [h1]; rfl⟩
  have hne : d.isEmpty = false := by
    cases d with
    | nil => exact absurd rfl h.ne
    | cons p r => rfl
  have hn := h.options.nodup
  have hne2 := Dict.nodup_erase hn "id"
  have hg : ∀ k, Dict.get? (Dict.erase d "id") k = if k = "id" then none else Dict.get? d k := by
    intro k; rw [Dict.get?_erase']
  have hdot : Dict.get? d ".name" = none ∧ Dict.get? d ".type" = none :=
    ⟨h.options.dotless (by decide) (by decide), h.options.dotless (by decide) (by decide)⟩
  refine ⟨nm, ?_⟩
  unfold systemBlock
  simp only [hne, Bool.false_eq_true, if_false, hpop, pure, Except.pure]
  have hnu := Dict.nodup_update hne2 [(".type", .str "system"), (".name", .str nm), ("hostname", (Dict.get? (Dict.erase d "id") "hostname").getD (.str "OpenWRT"))]
  have hu : ∀ k, Dict.get? (Dict.update (Dict.erase d "id") [(".type", .str "system"), (".name", .str nm),
      ("hostname", (Dict.get? (Dict.erase d "id") "hostname").getD (.str "OpenWRT"))]) k =
      if k = ".name" then some (.str nm) else if k = ".type" then some (.str "system") else if k = "id" then none
      else if k = "hostname" then some ((Dict.get? d "hostname").getD (.str "OpenWRT")) else Dict.get? d k := by
    intro k
    simp only [Dict.update_cons, Dict.update_nil, Dict.get?_set', hg]
    by_cases h1 : k = ".name"
    · subst h1; simp
    · by_cases h2 : k = ".type"
      · subst h2; simp
      · by_cases h3 : k = "id"
        · subst h3; simp
        · by_cases h4 : k = "hostname"
          · subst h4; simp
          · simp [h1, h2, h3, h4]
  cases htz : Dict.get? d "timezone" with
  | none =>
    have htz' := hu "timezone"
    rw [if_neg (by decide), if_neg (by decide), if_neg (by decide), if_neg (by decide), htz] at htz'
    simp only [htz']
    refine ⟨_, hnm, hcase, rfl, sortedDict_nodup hnu, ?_⟩
    intro k
    rw [get?_sortedDict hnu, hu]
    unfold systemItem
    by_cases h5 : k = "zonename"
    · subst h5; simp [h.noZonename, htz]
    · by_cases h6 : k = "timezone"
      · subst h6; simp [htz]
      · simp [h5, h6]
  | some v =>
    obtain ⟨z, p, rfl, hp, hpne, hpp⟩ := h.zone v htz
    have htz' := hu "timezone"
    rw [if_neg (by decide), if_neg (by decide), if_neg (by decide), if_neg (by decide), htz] at htz'
    simp only [htz', hp]
    have hnu2 := Dict.nodup_set (Dict.nodup_set hnu "zonename" (.str z)) "timezone" (.str p)
    refine ⟨_, hnm, hcase, rfl, sortedDict_nodup hnu2, ?_⟩
    intro k
    rw [get?_sortedDict hnu2, Dict.get?_set', Dict.get?_set', hu]
    unfold systemItem
    by_cases h5 : k = "zonename"
    · subst h5; simp [htz]
    · by_cases h6 : k = "timezone"
      · subst h6; simp [htz, hp]
      · simp [h5, h6]

/-- C41: the block made from general settings has the host name (by default `OpenWRT`), the zone as `zonename` and its POSIX
string as `timezone`, and the other options. -/
theorem C41_system_block (env : Env) (config d : VDict) (hk : Dict.get? config "general" = some (.dict d)) (h : GeneralOK env d) :
    ∃ nm b, ((generalConv env).run config []).2 = .ok [("system", .list [.dict b])] ∧
      (nm = "system" ∨ Dict.get? d "id" = some (.str nm)) ∧ ∀ k, Dict.get? b k = systemItem env d nm k := by
  obtain ⟨nm, b, h1, h2, h3, h4, h5⟩ := system_block env d h
  refine ⟨nm, b, ?_, ?_, h5⟩
  · show fwd "general" (generalFwd env) config = _
    unfold fwd
    simp only [hk, Option.getD_some]
    unfold generalFwd ulaBlock
    have : Dict.has d "ula_prefix" = false := by simp [Dict.has, h.noUla]
    simp only [asDict, bind, Except.bind, this, Bool.false_eq_true, if_false, h3]
    rfl
  · rcases h2 with ⟨_, e⟩ | ⟨e, _⟩
    · exact .inl e
    · exact .inr e

/-- C41: with an ULA prefix there is, besides, one section in the network package, of type `globals`, named by `globals_id` or else
`globals`, with the prefix and nothing else; the other settings are converted as if those two were not there. -/
theorem C41_ula (env : Env) (config d : VDict) (u : Val) (hk : Dict.get? config "general" = some (.dict d)) (hu : Dict.get? d "ula_prefix" = some u) :
    ∃ b : VDict, (∀ k, Dict.get? b k = if k = ".type" then some (.str "globals") else
        if k = ".name" then some ((Dict.get? d "globals_id").getD (.str "globals")) else if k = "ula_prefix" then some u else none) ∧
      ((generalConv env).run config []).2 =
        (((generalConv env).run [("general", .dict (Dict.erase (Dict.erase d "globals_id") "ula_prefix"))] []).2).map
          (fun r => Dict.set r "network" (.list [.dict b])) := by
  refine ⟨sortedDict [(".type", .str "globals"), (".name", (Dict.get? d "globals_id").getD (.str "globals")), ("ula_prefix", u)], ?_, ?_⟩
  · intro k
    rw [get?_sortedDict (by simp [Dict.keys])]
    simp only [Dict.get?, eq_comm]
  · simp only [generalConv, pureConv]
    unfold fwd
    simp only [hk, Option.getD_some, Dict.get?, if_true]
    unfold generalFwd ulaBlock
    have h1 : Dict.has d "ula_prefix" = true := by simp [Dict.has, hu]
    have h2 : Dict.has (Dict.erase (Dict.erase d "globals_id") "ula_prefix") "ula_prefix" = false := by
      simp [Dict.has, Dict.get?_erase']
    have h3 : Dict.get? (Dict.erase d "globals_id") "ula_prefix" = some u := by rw [Dict.get?_erase', if_neg (by decide)]; exact hu
    simp only [asDict, bind, Except.bind, h1, h2, if_true, popOr, popKey_ok h3, Bool.false_eq_true, if_false, pure, Except.pure]
    cases systemBlock env (Dict.erase (Dict.erase d "globals_id") "ula_prefix") with
    | error e => rfl
    | ok o => cases o <;> rfl

theorem readVal_of_survives {v : Val} (h : Survives none v) : readVal v = some v ∧ v.truthy = true := by
  cases v with
  | none => exact absurd h (by simp [Survives])
  | bool b => simp [Survives] at h
  | int i => simp [Survives] at h
  | str s => simp [readVal, Val.truthy, h.1]
  | list l =>
    cases l with
    | nil => exact absurd rfl h.1
    | cons x xs => simp [readVal, Val.truthy]
  | dict d => exact absurd h (by simp [Survives])

/-- the block of general settings and what it is converted back to -/
theorem general_item (env : Env) (d : VDict) (h : GeneralOK env d) :
    ∃ b out, systemBlock env d = .ok (some b) ∧ PlainBlock b ∧ Dict.get? b ".type" = some (.str "system") ∧
      skipBlock (some ["system"]) (blockBack env.reprC b) = false ∧
      systemBack env (blockBack env.reprC b) = .ok out ∧ SameItems out (withHostname d) := by
  obtain ⟨nm, b, hnm, hid, h3, h4, h5⟩ := system_block env d h
  have hrv : ∀ k v, Dict.get? d k = some v → k ≠ "id" → readVal v = some v ∧ v.truthy = true :=
    fun k v hv hk => readVal_of_survives (h.options.options k v hv (by simpa using hk)).2.2
  have hpo : Dict.get? b ".type" = some (.str "system") ∧ Dict.get? b ".name" = some (.str nm) := by
    rw [h5, h5]; exact ⟨rfl, rfl⟩
  obtain ⟨hv, hhv, hhr, hht, hhs⟩ : ∃ hv, (Dict.get? d "hostname").getD (.str "OpenWRT") = hv ∧ readVal hv = some hv ∧ hv.truthy = true ∧ Survives none hv := by
    cases hh : Dict.get? d "hostname" with
    | none => exact ⟨_, rfl, rfl, rfl, by simp [Survives]; decide⟩
    | some v =>
      obtain ⟨r1, r2⟩ := hrv "hostname" v hh (by decide)
      exact ⟨v, rfl, r1, r2, (h.options.options _ v hh (by decide)).2.2⟩
  have hplain : PlainBlock b := by
    refine ⟨h4, ⟨"system", hpo.1, by decide⟩, ⟨nm, hpo.2, hnm⟩, ?_⟩
    intro k v hv' h1 h2
    rw [h5] at hv'
    unfold systemItem at hv'
    rw [if_neg h2, if_neg h1] at hv'
    split at hv'
    · cases hv'
    · next h6 =>
      split at hv'
      · next h7 =>
        subst h7
        rw [hhv] at hv'
        cases hv'
        exact ⟨by decide, by decide, survives_plain hhs⟩
      · split at hv'
        · next h8 =>
          subst h8
          exact ⟨by decide, by decide, survives_plain (h.options.options _ v hv' (by decide)).2.2⟩
        · split at hv'
          · next h9 =>
            subst h9
            refine ⟨by decide, by decide, ?_⟩
            cases htz : Dict.get? d "timezone" with
            | none => rw [htz] at hv'; cases hv'
            | some w =>
              obtain ⟨z, p, rfl, hp, _, hpp⟩ := h.zone w htz
              rw [htz] at hv'
              simp only [hp, Option.map_some, Option.some.injEq] at hv'
              rw [← hv']; exact hpp
          · obtain ⟨o1, o2, o3⟩ := h.options.options k v hv' (by simpa using h6)
            exact ⟨o1, o2, survives_plain o3⟩
  have htype : Dict.get? (blockBack env.reprC b) ".type" = some (.str "system") := by
    rw [get?_blockBack _ hplain, if_pos (.inl rfl)]; exact hpo.1
  have hname : Dict.get? (blockBack env.reprC b) ".name" = some (.str nm) := by
    rw [get?_blockBack _ hplain, if_pos (.inr rfl)]; exact hpo.2
  -- the block without type and name, with the identifier
  obtain ⟨y, hy, hyn, hyg⟩ : ∃ y, (if Val.str nm = .str "system" then Dict.erase (Dict.erase (blockBack env.reprC b) ".type") ".name"
        else Dict.set (Dict.erase (Dict.erase (blockBack env.reprC b) ".type") ".name") "id" (.str nm)) = y ∧ (Dict.keys y).Nodup ∧
      ∀ k, Dict.get? y k = if k = "id" then Dict.get? d "id" else if k = ".type" ∨ k = ".name" then none
        else (systemItem env d nm k).bind readVal := by
    have hxn := Dict.nodup_erase (Dict.nodup_erase (blockBack_nodup env.reprC hplain) ".type") ".name"
    have hxg : ∀ k, Dict.get? (Dict.erase (Dict.erase (blockBack env.reprC b) ".type") ".name") k =
        if k = ".type" ∨ k = ".name" then none else (systemItem env d nm k).bind readVal := by
      intro k
      rw [get?_erase2]
      split
      · rfl
      · next h1 => rw [get?_blockBack _ hplain, if_neg h1, h5]
    rcases hid with ⟨i1, i2⟩ | ⟨i1, i2⟩
    · refine ⟨_, rfl, by rw [if_pos (by rw [i2])]; exact hxn, ?_⟩
      intro k
      rw [if_pos (by rw [i2]), hxg]
      by_cases e : k = "id"
      · subst e; rw [if_neg (by decide), if_pos rfl, i1]; rfl
      · rw [if_neg e]
    · have : ¬ Val.str nm = .str "system" := by simpa using i2
      refine ⟨_, rfl, by rw [if_neg this]; exact Dict.nodup_set hxn _ _, ?_⟩
      intro k
      rw [if_neg this, Dict.get?_set', hxg]
      by_cases e : k = "id"
      · subst e; rw [if_pos rfl, if_pos rfl, i1]
      · rw [if_neg e, if_neg e]
  have hyh : Dict.get? y "hostname" = some hv := by
    rw [hyg, if_neg (by decide), if_neg (by decide)]
    unfold systemItem
    rw [if_neg (by decide), if_neg (by decide), if_neg (by decide), if_pos rfl, hhv]
    exact hhr
  have hyz : Dict.get? y "zonename" = Dict.get? d "timezone" := by
    rw [hyg, if_neg (by decide), if_neg (by decide)]
    unfold systemItem
    rw [if_neg (by decide), if_neg (by decide), if_neg (by decide), if_neg (by decide), if_pos rfl]
    cases htz : Dict.get? d "timezone" with
    | none => rfl
    | some w => exact (hrv _ w htz (by decide)).1
  have hyo : ∀ k, k ≠ "hostname" → k ≠ "zonename" → k ≠ "timezone" → Dict.get? y k = Dict.get? d k := by
    intro k k1 k2 k3
    rw [hyg]
    by_cases e : k = "id"
    · subst e; simp
    · rw [if_neg e]
      by_cases e2 : k = ".type" ∨ k = ".name"
      · rw [if_pos e2]
        rcases e2 with rfl | rfl <;> exact (h.options.dotless (by decide) (by decide)).symm
      · rw [if_neg e2]
        simp only [not_or] at e2
        unfold systemItem
        rw [if_neg e2.2, if_neg e2.1, if_neg e, if_neg k1, if_neg k2, if_neg k3]
        cases hd : Dict.get? d k with
        | none => rfl
        | some w => exact (hrv _ w hd e).1
  -- what is left at the end
  let s3 := Dict.erase (Dict.erase (Dict.erase y "hostname") "zonename") "timezone"
  have hs3 : ∀ k, Dict.get? s3 k = if k = "hostname" ∨ k = "zonename" ∨ k = "timezone" then none else Dict.get? d k := by
    intro k
    simp only [s3, Dict.get?_erase']
    by_cases k1 : k = "hostname"
    · simp [k1]
    · by_cases k2 : k = "zonename"
      · simp [k2]
      · by_cases k3 : k = "timezone"
        · simp [k3]
        · simp [k1, k2, k3, hyo k k1 k2 k3]
  have hwh : ∀ k, Dict.get? (withHostname d) k = if k = "hostname" then some hv else Dict.get? d k := by
    intro k
    unfold withHostname
    cases hh : Dict.get? d "hostname" with
    | none =>
      rw [hh] at hhv
      rw [if_neg (by simp [Dict.has, hh]), Dict.get?_set', ← hhv]; rfl
    | some w =>
      rw [hh] at hhv
      rw [if_pos (by simp [Dict.has, hh])]
      by_cases e : k = "hostname"
      · subst e; rw [if_pos rfl, hh, ← hhv]; rfl
      · rw [if_neg e]
  have hback : ∃ out, systemBack env (blockBack env.reprC b) = .ok out ∧ SameItems out (withHostname d) := by
    unfold systemBack
    rw [popKey_ok htype]
    simp only [bind, Except.bind]
    rw [popKey_ok (v := .str nm) (by rw [Dict.get?_erase, if_neg (by decide)]; exact hname)]
    simp only [hy, popOr]
    have e1 : (Dict.get? y "hostname").getD .none = hv := by rw [hyh]; rfl
    have e2 : Dict.get? (Dict.erase y "hostname") "zonename" = Dict.get? d "timezone" := by
      rw [Dict.get?_erase', if_neg (by decide)]; exact hyz
    simp only [e1, e2, hht, if_true]
    cases htz : Dict.get? d "timezone" with
    | none =>
      have e3 : Dict.get? (Dict.erase (Dict.erase y "hostname") "zonename") "timezone" = none := by
        rw [Dict.get?_erase', if_neg (by decide), Dict.get?_erase', if_neg (by decide), hyg, if_neg (by decide), if_neg (by decide)]
        unfold systemItem
        simp [htz]
      simp only [e3, Option.getD_none, Val.truthy, Bool.false_eq_true, if_false, pure, Except.pure]
      refine ⟨_, rfl, ?_⟩
      intro k
      rw [hwh, Dict.get?_set']
      by_cases k1 : k = "hostname"
      · simp [k1]
      · rw [if_neg k1, if_neg k1]
        show Dict.get? s3 k = _
        rw [hs3]
        by_cases k2 : k = "zonename"
        · simp [k2, h.noZonename]
        · by_cases k3 : k = "timezone"
          · simp [k3, htz]
          · simp [k1, k2, k3]
    | some w =>
      have ht := (hrv _ w htz (by decide)).2
      simp only [Option.getD_some, ht, if_true, pure, Except.pure]
      refine ⟨_, rfl, ?_⟩
      intro k
      rw [hwh, Dict.get?_set', Dict.get?_set']
      by_cases k3 : k = "timezone"
      · subst k3; simp [htz]
      · rw [if_neg k3]
        by_cases k1 : k = "hostname"
        · simp [k1]
        · rw [if_neg k1, if_neg k1]
          show Dict.get? s3 k = _
          rw [hs3]
          by_cases k2 : k = "zonename"
          · simp [k2, h.noZonename]
          · simp [k1, k2, k3]
  obtain ⟨out, ho1, ho2⟩ := hback
  exact ⟨b, out, h3, hplain, hpo.1, skip_of_type htype (by simp), ho1, ho2⟩

/-- C41: general settings, converted to UCI text and back, are the same settings; a missing host name becomes `OpenWRT`. -/
theorem C41_round_trip (env : Env) (config d : VDict) (hk : Dict.get? config "general" = some (.dict d)) (h : GeneralOK env d) :
    ∃ out, viaText env.reprC (generalConv env) (generalBConv env) config = .ok [("general", .dict out)] ∧ SameItems out (withHostname d) := by
  obtain ⟨b, out, h3, h1, _, h2, ho1, ho2⟩ := general_item env d h
  refine ⟨out, ?_, ho2⟩
  refine dict_section env.reprC "general" "system" (some ["system"]) (generalFwd env) (generalBack env) (by decide) config d b _ hk ?_ h1 h2 ?_
  · unfold generalFwd ulaBlock
    have : Dict.has d "ula_prefix" = false := by simp [Dict.has, h.noUla]
    simp only [asDict, bind, Except.bind, this, Bool.false_eq_true, if_false, h3]
    rfl
  · show (systemBack env _ >>= _) = _
    rw [ho1]; rfl

/-! ## The hypotheses are met -/

def sampleLeds : List VDict :=
  [[("name", .str "USB1"), ("sysfs", .str "tp-link:green:usb1"), ("trigger", .str "usbdev"), ("dev", .str "1-1.1"), ("interval", .int 50),
    ("default", .bool false)],
   [("id", .str "wan"), ("name", .str "WAN"), ("sysfs", .str "green:wan"), ("trigger", .str "timer"), ("delayoff", .int (-1))]]

example : ∃ rs, viaText sampleEnv.reprC (ledConv sampleEnv) (ledBConv sampleEnv) [("led", .list (sampleLeds.map .dict))] =
    .ok [("led", .list (rs.map .dict))] ∧ List.Forall₂ SameItems rs sampleLeds := by
  refine C40_round_trip sampleEnv _ sampleLeds (by decide) rfl ?_
  intro d hd
  simp only [sampleLeds, List.mem_cons, List.not_mem_nil, or_false] at hd
  rcases hd with rfl | rfl
  · exact ⟨optionsB_sound (by decide +kernel), "USB1", rfl, .inl ⟨rfl, by decide +kernel⟩⟩
  · exact ⟨optionsB_sound (by decide +kernel), "WAN", rfl, .inr ⟨"wan", rfl, by decide +kernel, by decide +kernel⟩⟩

def sampleRules : List VDict :=
  [[("src", .str "192.168.1.0/24"), ("dest", .str "10.0.0.0/8"), ("tos", .int 2), ("invert", .bool true)],
   [("name", .str "custom"), ("in", .str "lan"), ("action", .str "blackhole")]]

theorem sampleRules_ok (i : Nat) (d : VDict) (h : sampleRules[i]? = some d) : RuleOK sampleEnv (i + 1) d := by
  have net : ∀ (d : VDict) (k s : String) (n : IpIf), Dict.get? d k = some (.str s) → ipNetwork sampleEnv.ip6 s.toList = some n → NetOK sampleEnv d k := by
    intro d k s n h1 h2 v hv
    rw [h1] at hv; cases hv
    exact ⟨s, n, rfl, h2⟩
  match i with
  | 0 =>
    cases h
    exact ⟨optionsB_sound (by decide +kernel), net _ _ _ ⟨false, 0xC0A80100, 24⟩ rfl (by decide +kernel),
      net _ _ _ ⟨false, 0x0A000000, 8⟩ rfl (by decide +kernel), .inl rfl⟩
  | 1 =>
    cases h
    exact ⟨optionsB_sound (by decide +kernel), fun v hv => (by cases hv), fun v hv => (by cases hv),
      .inr ⟨"custom", rfl, by decide +kernel, by decide +kernel⟩⟩

example : ∃ rs, viaText sampleEnv.reprC (rulesConv sampleEnv) rulesBConv [("ip_rules", .list (sampleRules.map .dict))] =
    .ok [("ip_rules", .list (rs.map .dict))] ∧ List.Forall₂ SameItems rs sampleRules :=
  C43_round_trip sampleEnv _ sampleRules (by decide) rfl sampleRules_ok

/-- an address with host bits is refused -/
example : ((rulesConv sampleEnv).run [("ip_rules", .list [.dict [("src", .str "192.168.1.1/24")]])] []).2 = .error .valueError :=
  C43_refused sampleEnv _ [("src", .str "192.168.1.1/24")] [] "src" "192.168.1.1/24" (.inl rfl) rfl (by decide +kernel) rfl

def sampleNtp : VDict := [("enabled", .bool true), ("enable_server", .bool false), ("server", .list [.str "0.openwrt.pool.ntp.org", .str "1.pool"])]

example : ∃ out, viaText sampleEnv.reprC ntpConv ntpBConv [("ntp", .dict sampleNtp)] = .ok [("ntp", .dict out)] ∧ SameItems out sampleNtp :=
  C39_round_trip sampleEnv _ sampleNtp rfl ⟨optionsB_sound (by decide +kernel), by decide, .inl rfl⟩

def sampleGeneral : VDict := [("timezone", .str "Europe/Rome"), ("description", .str "roof node"), ("id", .str "main")]

theorem sampleGeneral_ok : GeneralOK sampleEnv sampleGeneral :=
  ⟨optionsB_sound (by decide +kernel), by decide, .inr ⟨"main", rfl, by decide +kernel, by decide⟩,
    fun v hv => by cases hv; exact ⟨"Europe/Rome", "CET-1CEST,M3.5.0,M10.5.0/3", rfl, rfl, by decide, by decide +kernel⟩, rfl, rfl⟩

example : ∃ out, viaText sampleEnv.reprC (generalConv sampleEnv) (generalBConv sampleEnv) [("general", .dict sampleGeneral)] =
    .ok [("general", .dict out)] ∧ SameItems out (withHostname sampleGeneral) :=
  C41_round_trip sampleEnv _ sampleGeneral rfl sampleGeneral_ok

example : ((generalConv sampleEnv).run [("general", .dict [("ula_prefix", .str "fd8e::/48")])] []).2 =
    .ok [("network", .list [.dict [(".name", .str "globals"), (".type", .str "globals"), ("ula_prefix", .str "fd8e::/48")]])] := by
  decide +kernel

end NJ
