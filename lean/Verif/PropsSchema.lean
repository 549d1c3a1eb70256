import Verif.SchemaSpec
import Verif.SchemaMore

/-!
# C80: validation accepts exactly what the schema says
-/

namespace NJ

/-! ## Formats -/

theorem readDigits_bound {s : Chars} {acc n : Nat} (h : readDigits acc s = some n) : acc * 10 ^ s.length ≤ n ∧ n < (acc + 1) * 10 ^ s.length := by
  induction s generalizing acc with
  | nil => simp [readDigits] at h; subst h; simp
  | cons c s ih =>
    rw [readDigits] at h
    split at h
    · next hd =>
      obtain ⟨h1, h2⟩ := ih h
      simp only [isDigit, Bool.and_eq_true, decide_eq_true_eq] at hd
      rw [List.length_cons, Nat.pow_succ]
      have hp : 0 < 10 ^ s.length := Nat.pos_of_ne_zero (by simp)
      generalize 10 ^ s.length = p at h1 h2 hp
      have e1 : (acc * 10 + (c.toNat - 48)) * p = acc * (p * 10) + (c.toNat - 48) * p := by
        rw [Nat.add_mul, Nat.mul_assoc, Nat.mul_comm 10 p]
      have e2 : (acc * 10 + (c.toNat - 48) + 1) * p ≤ (acc + 1) * (p * 10) := by
        have : acc * 10 + (c.toNat - 48) + 1 ≤ (acc + 1) * 10 := by omega
        calc _ ≤ ((acc + 1) * 10) * p := Nat.mul_le_mul_right _ this
          _ = _ := by rw [Nat.mul_assoc, Nat.mul_comm 10 p]
      exact ⟨by omega, by omega⟩
    · cases h

theorem digit_of_toNat {c d : Char} (hc : isDigit c = true) (hd : isDigit d = true) (h : c.toNat - 48 = d.toNat - 48) : c = d := by
  simp only [isDigit, Bool.and_eq_true, decide_eq_true_eq] at hc hd
  exact Char.toNat_inj.1 (by omega)

/-- digits of the same length with the same value are the same -/
theorem readDigits_inj {s t : Chars} {acc bcc n : Nat} (hl : s.length = t.length) (hs : readDigits acc s = some n) (ht : readDigits bcc t = some n) :
    acc = bcc ∧ s = t := by
  induction s generalizing t acc bcc with
  | nil =>
    cases t with
    | nil => simp [readDigits] at hs ht; exact ⟨by omega, rfl⟩
    | cons => simp at hl
  | cons c s ih =>
    cases t with
    | nil => simp at hl
    | cons d t =>
      rw [readDigits] at hs ht
      split at hs
      · next hc =>
        split at ht
        · next hd =>
          obtain ⟨h1, rfl⟩ := ih (by simpa using hl) hs ht
          have hc' := hc
          have hd' := hd
          simp only [isDigit, Bool.and_eq_true, decide_eq_true_eq] at hc' hd'
          exact ⟨by omega, by rw [digit_of_toNat hc hd (by omega)]⟩
        · cases ht
      · cases hs

/-- a text of digits that does not begin with zero, or is zero, is the text of its value -/
theorem showNat_readNat {s : Chars} {n : Nat} (h : readNat s = some n) (hz : s = ['0'] ∨ s.head? ≠ some '0') : s = showNat n := by
  have hn := readNat_showNat n
  unfold readNat at h hn
  split at h
  · cases h
  · split at hn
    · cases hn
    · -- the lengths
      have first : ∀ {u : Chars} {n : Nat}, u ≠ [] → readDigits 0 u = some n → (u = ['0'] ∨ u.head? ≠ some '0') → u = ['0'] ∧ n = 0 ∨ 10 ^ (u.length - 1) ≤ n := by
        intro u n hne h hz
        rcases hz with rfl | hz
        · left; exact ⟨rfl, by simpa [readDigits, isDigit] using h.symm⟩
        · right
          cases u with
          | nil => exact absurd rfl hne
          | cons c u =>
            rw [readDigits] at h
            split at h
            · next hd =>
              have hb := (readDigits_bound h).1
              have : 1 ≤ 0 * 10 + (c.toNat - 48) := by
                simp only [isDigit, Bool.and_eq_true, decide_eq_true_eq] at hd
                have : c.toNat ≠ 48 := by
                  intro e
                  have : c = '0' := Char.toNat_inj.1 (by rw [e]; rfl)
                  subst this
                  exact hz rfl
                omega
              calc 10 ^ ((c :: u).length - 1) = 1 * 10 ^ u.length := by simp
                _ ≤ _ := Nat.mul_le_mul_right _ this
                _ ≤ n := hb
            · cases h
      have hzn : showNat n = ['0'] ∨ (showNat n).head? ≠ some '0' := by
        by_cases h0 : n = 0
        · left; subst h0; rfl
        · right
          intro e
          have key : ∀ f n, n < f → n ≠ 0 → (natDigits f n).head? ≠ some '0' := by
            intro f
            induction f with
            | zero => intro n h; omega
            | succ f ih =>
              intro n hf h0
              rw [natDigits]
              split
              · next hlt =>
                intro e
                simp only [List.head?_cons, Option.some.injEq] at e
                have := congrArg Char.toNat e
                rw [digitChar_toNat hlt] at this
                have h48 : '0'.toNat = 48 := rfl
                omega
              · next hlt =>
                have := ih (n / 10) (by omega) (by omega)
                have hne := (natDigits_spec f (n / 10) (by omega)).2.1
                cases hd : natDigits f (n / 10) with
                | nil => exact absurd hd hne
                | cons c r => rw [hd] at this; simpa using this
          exact key _ _ (by omega) h0 e
      have hlen : s.length = (showNat n).length := by
        have hne1 : s ≠ [] := by
          rintro rfl
          simp at *
        have b1 := (readDigits_bound h).2
        have b2 := (readDigits_bound hn).2
        rcases first hne1 h hz with ⟨h1, h2⟩ | h1
        · subst h2; rw [h1]; rfl
        · rcases first (showNat_ne_nil n) hn hzn with ⟨h3, h4⟩ | h3
          · subst h4
            have := Nat.pos_of_ne_zero (n := 10 ^ (s.length - 1)) (by simp)
            omega
          · have hs0 : s.length ≠ 0 := by simpa using hne1
            have ht0 : (showNat n).length ≠ 0 := by simpa using showNat_ne_nil n
            simp only [Nat.zero_add, Nat.one_mul] at b1 b2
            have l1 : s.length - 1 < (showNat n).length := (Nat.pow_lt_pow_iff_right (by omega)).1 (Nat.lt_of_le_of_lt h1 b2)
            have l2 : (showNat n).length - 1 < s.length := (Nat.pow_lt_pow_iff_right (by omega)).1 (Nat.lt_of_le_of_lt h3 b1)
            omega
      exact (readDigits_inj hlen h hn).2

theorem parseOctet_iff {s : Chars} {n : Nat} : parseOctet s = some n ↔ s = showNat n ∧ n ≤ 255 := by
  constructor
  · intro h
    have hle := parseOctet_le h
    unfold parseOctet at h
    split at h
    · cases h
    · next hc =>
      simp only [Bool.or_eq_true, Bool.and_eq_true, not_or, bne_iff_ne, ne_eq, beq_iff_eq] at hc
      split at h
      · next m hm =>
        split at h
        · cases h
          refine ⟨showNat_readNat hm ?_, hle⟩
          by_cases hz : s = ['0']
          · exact .inl hz
          · exact .inr (fun e => hc.2 ⟨hz, e⟩)
        · cases h
      · cases h
  · rintro ⟨rfl, h⟩
    exact parseOctet_show n (by omega)

theorem parseIp4_iff (s : Chars) : (parseIp4 s).isSome = true ↔ IsIp4 s := by
  unfold parseIp4 IsIp4
  constructor
  · intro h
    split at h
    · next a b c d e =>
      split at h
      · next a' b' c' d' ha hb hc hd =>
        rw [parseOctet_iff] at ha hb hc hd
        refine ⟨a', b', c', d', ha.2, hb.2, hc.2, hd.2, ?_⟩
        rw [← ha.1, ← hb.1, ← hc.1, ← hd.1, ← e, joinWith_splitOn]
      · cases h
    · cases h
  · rintro ⟨a, b, c, d, ha, hb, hc, hd, rfl⟩
    rw [splitOn_joinWith _ (by simp) (by
      intro w hw
      simp only [List.mem_cons, List.not_mem_nil, or_false] at hw
      rcases hw with rfl | rfl | rfl | rfl <;> exact showNat_noSep _ _ (by decide))]
    dsimp only
    rw [parseOctet_iff.2 ⟨rfl, ha⟩, parseOctet_iff.2 ⟨rfl, hb⟩, parseOctet_iff.2 ⟨rfl, hc⟩, parseOctet_iff.2 ⟨rfl, hd⟩]
    rfl

theorem hostnameOk_iff (s : Chars) : hostnameOk s = true ↔ IsHostname s := by
  unfold hostnameOk IsHostname
  simp only [Bool.and_eq_true, List.all_eq_true, decide_eq_true_eq]
  refine and_congr ?_ Iff.rfl
  have alnum_nl : isAsciiAlnum '\n' = false := by decide
  constructor
  · intro h
    split at h
    · next c r e =>
      simp only [Bool.and_eq_true, List.all_eq_true, decide_eq_true_eq, Bool.or_eq_true, beq_iff_eq] at h
      refine ⟨c, r, ?_, h.1.1.1, fun x hx => by rcases h.1.1.2 x hx with (h | h) | h <;> simp [h], h.1.2, h.2⟩
      split at e
      · next hl =>
        right
        rw [← e]
        have hne : s ≠ [] := by rintro rfl; simp at hl
        have hd := List.dropLast_concat_getLast hne
        rw [List.getLast?_eq_some_getLast hne] at hl
        rw [Option.some.inj hl] at hd
        exact hd.symm
      · exact .inl e
    · cases h
  · rintro ⟨c, r, hs, h1, h2, h3, h4⟩
    have hbody : (if s.getLast? = some '\n' then s.dropLast else s) = c :: r := by
      rcases hs with rfl | rfl
      · rw [if_neg]
        intro e
        have hm := List.mem_of_getLast? e
        rcases List.mem_cons.1 hm with rfl | hm
        · rw [alnum_nl] at h1; cases h1
        · rcases h2 _ hm with h | h | h
          · rw [alnum_nl] at h; cases h
          · cases h
          · cases h
      · rw [if_pos (List.getLast?_concat (l := c :: r)), List.dropLast_concat]
    rw [hbody]
    simp only [Bool.and_eq_true, List.all_eq_true, decide_eq_true_eq, Bool.or_eq_true, beq_iff_eq]
    exact ⟨⟨⟨h1, fun x hx => by rcases h2 x hx with h | h | h <;> simp [h]⟩, h3⟩, h4⟩

theorem formatOk_iff (ip6 : Ip6) {f : String} (hf : f ∈ ["ipv4", "ipv6", "hostname", "cidr"]) (s : String) :
    formatOk ip6 f (.str s) = true ↔ FormatMeans ip6 f s.toList := by
  unfold formatOk FormatMeans
  simp only [List.mem_cons, List.not_mem_nil, or_false] at hf
  rcases hf with rfl | rfl | rfl | rfl
  · simp [parseIp4_iff]
  · simp [Option.isSome_iff_ne_none, and_assoc]
  · simp [hostnameOk_iff]
  · simp only [show ("cidr" = "ipv4") = False by simp, show ("cidr" = "ipv6") = False by simp, show ("cidr" = "hostname") = False by simp, if_false, if_true,
      false_implies, true_and, forall_const]
    unfold ipNetwork
    cases e : ipInterface ip6 s.toList with
    | none => simp
    | some i =>
      simp only [Option.some.injEq, exists_eq_left']
      split <;> simp [*]

/-! ## References -/

theorem leadsTo_iff (v t : Val) (path : List String) :
    path.foldl (fun v k => match v with | some (.dict d) => Dict.get? d k | _ => none) (some v) = some t ↔ LeadsTo v path t := by
  induction path generalizing v with
  | nil => simp only [List.foldl_nil, Option.some.injEq]; exact ⟨fun h => h ▸ .here v, fun h => by cases h; rfl⟩
  | cons k path ih =>
    have hnone : ∀ path : List String, path.foldl (fun v k => match v with | some (Val.dict d) => Dict.get? d k | _ => none) (none : Option Val) = none := by
      intro path
      induction path with
      | nil => rfl
      | cons k path ih => exact ih
    rw [List.foldl_cons]
    cases v with
    | dict d =>
      dsimp only
      cases hk : Dict.get? d k with
      | none =>
        rw [hnone]
        constructor
        · intro h; cases h
        · intro h; cases h with | step _ _ x _ _ h1 h2 => rw [hk] at h1; cases h1
      | some x =>
        rw [ih]
        constructor
        · intro h; exact .step d k x path t hk h
        · intro h; cases h with | step _ _ y _ _ h1 h2 => rw [hk] at h1; cases h1; exact h2
    | _ =>
      dsimp only
      rw [hnone]
      constructor
      · intro h; cases h
      · intro h; cases h

theorem resolveRef_iff (root : VDict) (r : String) (t : Val) : resolveRef root r = some t ↔ RefersTo root r t := by
  have hfold : ∀ (v : Option Val) (path : List Chars), path.foldl (fun v k => match v with
      | some (.dict d) => Dict.get? d (String.ofList k)
      | _ => none) v =
      (path.map String.ofList).foldl (fun v k => match v with | some (.dict d) => Dict.get? d k | _ => none) v := by
    intro v path
    induction path generalizing v with
    | nil => rfl
    | cons k path ih => rw [List.map_cons, List.foldl_cons, List.foldl_cons, ih]
  unfold RefersTo
  constructor
  · intro h
    unfold resolveRef at h
    split at h
    · next path e =>
      have h' := (leadsTo_iff _ _ _).1 ((hfold _ _).symm.trans h)
      refine ⟨path.map String.ofList, ?_, ?_, h'⟩
      · rw [List.map_map]
        have : (String.toList ∘ String.ofList) = (id : Chars → Chars) := by funext x; simp
        rw [this, List.map_id, ← e, joinWith_splitOn]
      · intro k hk
        obtain ⟨w, hw, rfl⟩ := List.mem_map.1 hk
        rw [String.toList_ofList]
        exact splitOn_no_sep (s := r.toList) (by rw [e]; simp [hw])
    · cases h
  · rintro ⟨path, h1, h2, h3⟩
    unfold resolveRef
    rw [h1, splitOn_joinWith _ (by simp) (by
      intro w hw
      rcases List.mem_cons.1 hw with rfl | hw
      · decide
      · obtain ⟨k, hk, rfl⟩ := List.mem_map.1 hw
        exact h2 k hk)]
    refine (hfold _ _).trans ?_
    rw [List.map_map]
    have : (String.ofList ∘ String.toList) = (id : String → String) := by funext x; simp
    rw [this, List.map_id]
    exact (leadsTo_iff _ _ _).2 h3

/-! ## Keywords -/

theorem typeOk_iff (t : String) (v : Val) : typeOk t v = true ↔ IsType t v := by
  cases v <;> simp [typeOk, IsType]

/-- values that are not lists and not objects -/
def scalar : Val → Bool
  | .list _ => false
  | .dict _ => false
  | _ => true

theorem scalar_wf {v : Val} (h : scalar v = true) : v.WF := by
  cases v with
  | list => cases h
  | dict => cases h
  | _ => constructor

/-- the arguments of the keywords are of the shapes the specification speaks of -/
def argOk (k : String) (arg : Val) : Bool :=
  match k, arg with
  | "type", .str _ => true
  | "type", .list l => l.all (fun v => match v with | .str _ => true | _ => false)
  | "enum", .list l => l.all scalar
  | "pattern", .str _ => true
  | "format", .str _ => true
  | "minimum", .int _ => true
  | "maximum", .int _ => true
  | "minLength", .int _ => true
  | "maxLength", .int _ => true
  | "minItems", .int _ => true
  | "items", .dict _ => true
  | "uniqueItems", .bool _ => true
  | "properties", .dict ps => decide (Dict.keys ps).Nodup
  | "required", .list l => l.all (fun v => match v with | .str _ => true | _ => false)
  | "additionalProperties", .bool _ => true
  | "allOf", .list _ => true
  | "anyOf", .list _ => true
  | "oneOf", .list _ => true
  | "not", .dict _ => true
  | "definitions", .dict _ => true
  | _, _ => false

/-- a schema that the specification covers: known keywords, each once, with arguments of the right shape -/
def shapesOk (s : VDict) : Bool := decide (Dict.keys s).Nodup && keywordsOk s && s.all (fun p => argOk p.1 p.2)

/-- every schema inside the schemas of the backends is covered by the specification -/
theorem schema_shapes : ∀ root ∈ schemas, everywhere shapesOk root schemaDepth (.dict root) = true := by
  have h : schemas.all (fun root => everywhere shapesOk root schemaDepth (.dict root)) = true := by decide +kernel
  exact List.all_eq_true.1 h

theorem mem_textsOf (l : List Val) (t : String) : t ∈ textsOf l ↔ Val.str t ∈ l := by
  unfold textsOf
  rw [List.mem_filterMap]
  constructor
  · rintro ⟨v, hv, e⟩
    split at e
    · cases e; exact hv
    · cases e
  · intro h; exact ⟨_, h, rfl⟩

theorem uniqueOk_iff {l : List Val} (hl : ∀ v ∈ l, v.WF) :
    uniqueOk l = true ↔ ∀ (i j : Nat) x y, l[i]? = some x → l[j]? = some y → SameJson x y → i = j := by
  induction l with
  | nil => simp [uniqueOk]
  | cons v l ih =>
    have hv := hl v (by simp)
    have hl' : ∀ v ∈ l, v.WF := fun w hw => hl w (by simp [hw])
    rw [uniqueOk, Bool.and_eq_true, ih hl', Bool.not_eq_true', List.any_eq_false]
    constructor
    · rintro ⟨h1, h2⟩ i j x y hx hy he
      cases i with
      | zero =>
        cases j with
        | zero => rfl
        | succ j =>
          simp only [List.getElem?_cons_zero, Option.some.injEq] at hx
          rw [List.getElem?_cons_succ] at hy
          subst hx
          have hm := List.mem_of_getElem? hy
          exact absurd ((jsEq_iff hv (hl' y hm)).2 he) (h1 y hm)
      | succ i =>
        rw [List.getElem?_cons_succ] at hx
        cases j with
        | zero =>
          simp only [List.getElem?_cons_zero, Option.some.injEq] at hy
          subst hy
          have hm := List.mem_of_getElem? hx
          exact absurd ((jsEq_iff hv (hl' x hm)).2 (sameJson_symm he)) (h1 x hm)
        | succ j =>
          rw [List.getElem?_cons_succ] at hy
          rw [h2 i j x y hx hy he]
    · intro h
      refine ⟨fun w hw he => ?_, fun i j x y hx hy he => ?_⟩
      · obtain ⟨j, hj⟩ := List.mem_iff_getElem?.1 hw
        have := h 0 (j + 1) v w rfl (by simpa using hj) ((jsEq_iff hv (hl' w hw)).1 he)
        omega
      · have := h (i + 1) (j + 1) x y (by simpa using hx) (by simpa using hy) he
        omega

theorem oneOf_iff {l : List Val} {p : Val → Bool} :
    (l.filter p).length = 1 ↔ ∃ (i : Nat) (t : Val), l[i]? = some t ∧ p t = true ∧ ∀ (j : Nat) (u : Val), l[j]? = some u → p u = true → j = i := by
  induction l with
  | nil => simp
  | cons v l ih =>
    by_cases hv : p v = true
    · rw [List.filter_cons_of_pos hv, List.length_cons]
      constructor
      · intro h
        have h0 : l.filter p = [] := List.eq_nil_of_length_eq_zero (by omega)
        refine ⟨0, v, rfl, hv, fun j u hj hu => ?_⟩
        cases j with
        | zero => rfl
        | succ j =>
          rw [List.getElem?_cons_succ] at hj
          have := List.filter_eq_nil_iff.1 h0 u (List.mem_of_getElem? hj)
          exact absurd hu this
      · rintro ⟨i, t, hi, ht, h⟩
        have hi0 := h 0 v rfl hv
        subst hi0
        have : l.filter p = [] := by
          rw [List.filter_eq_nil_iff]
          intro u hu hp
          obtain ⟨j, hj⟩ := List.mem_iff_getElem?.1 hu
          have := h (j + 1) u (by simpa using hj) hp
          omega
        rw [this]; rfl
    · rw [List.filter_cons_of_neg hv, ih]
      constructor
      · rintro ⟨i, t, hi, ht, h⟩
        refine ⟨i + 1, t, by simpa using hi, ht, fun j u hj hu => ?_⟩
        cases j with
        | zero => simp at hj; subst hj; exact absurd hu hv
        | succ j => rw [h j u (by simpa using hj) hu]
      · rintro ⟨i, t, hi, ht, h⟩
        cases i with
        | zero => simp at hi; subst hi; exact absurd ht hv
        | succ i =>
          refine ⟨i, t, by simpa using hi, ht, fun j u hj hu => ?_⟩
          have := h (j + 1) u (by simpa using hj) hu
          omega

theorem keywords_iff {ip6 : Ip6} {r : Val → Val → Bool} {A : Val → Val → Prop} {s : VDict} {v : Val} (hs : shapesOk s = true) (hv : v.WF)
    (hr : ∀ p ∈ s, ∀ t ∈ subSchemas p.1 p.2, ∀ x : Val, x.WF → (r t x = true ↔ A t x)) :
    s.all (fun p => keywordOk ip6 r s p.1 p.2 v) = true ↔ Meets ip6 A s v := by
  rw [shapesOk, Bool.and_eq_true, Bool.and_eq_true, decide_eq_true_eq] at hs
  obtain ⟨⟨hnd, hkw⟩, hargs⟩ := hs
  have hnum : ∀ l, v = .list l → ∀ x ∈ l, x.WF := by
    rintro l rfl
    cases hv with | list _ h => exact h
  have hobj : ∀ d, v = .dict d → ∀ k x, Dict.get? d k = some x → x.WF := by
    rintro d rfl k x hx
    cases hv with | dict _ _ h => exact h _ (Dict.mem_of_get? hx)
  have hpat : ∀ p, Dict.get? s "pattern" = some (.str p) → Dict.has patterns p = true := by
    intro p hp
    unfold keywordsOk at hkw
    rw [hp] at hkw
    simp only [Bool.and_eq_true] at hkw
    exact hkw.1.2
  have hfmt : ∀ f, Dict.get? s "format" = some (.str f) → f ∈ ["ipv4", "ipv6", "hostname", "cidr"] := by
    intro f hf
    unfold keywordsOk at hkw
    rw [hf] at hkw
    simp only [Bool.and_eq_true, decide_eq_true_eq] at hkw
    exact hkw.2
  have harg : ∀ k a, Dict.get? s k = some a → argOk k a = true := fun k a h => List.all_eq_true.1 hargs (k, a) (Dict.mem_of_get? h)
  have hsub : ∀ k a, Dict.get? s k = some a → ∀ t ∈ subSchemas k a, ∀ x : Val, x.WF → (r t x = true ↔ A t x) :=
    fun k a h => hr (k, a) (Dict.mem_of_get? h)
  have hall : s.all (fun p => keywordOk ip6 r s p.1 p.2 v) = true ↔ ∀ k a, Dict.get? s k = some a → keywordOk ip6 r s k a v = true := by
    rw [List.all_eq_true]
    exact ⟨fun h k a hk => h (k, a) (Dict.mem_of_get? hk), fun h p hp => h p.1 p.2 (Dict.get?_of_mem hnd hp)⟩
  rw [hall]
  constructor
  · intro h
    constructor
    case type => intro t ht; exact (typeOk_iff t v).1 (h _ _ ht)
    case types =>
      intro l hl
      have := h _ _ hl
      simp only [keywordOk, List.any_eq_true] at this
      obtain ⟨t, h1, h2⟩ := this
      exact ⟨t, (mem_textsOf l t).1 h1, (typeOk_iff t v).1 h2⟩
    case enum =>
      intro l hl
      have := h _ _ hl
      simp only [keywordOk, List.any_eq_true] at this
      obtain ⟨x, h1, h2⟩ := this
      exact ⟨x, h1, (jsEq_iff (scalar_wf (List.all_eq_true.1 (harg _ _ hl) x h1)) hv).1 h2⟩
    case pattern =>
      rintro p t hp rfl
      have := h _ _ hp
      simp only [keywordOk, patternOk] at this
      split at this
      · next r hr => exact ⟨r, hr, (Rx.run_iff r _).1 this⟩
      · cases this
    case format =>
      rintro f t hf rfl
      exact (formatOk_iff ip6 (hfmt f hf) t).1 (h _ _ hf)
    case minimum => rintro m i hm rfl; simpa [keywordOk] using h _ _ hm
    case maximum => rintro m i hm rfl; simpa [keywordOk] using h _ _ hm
    case minLength => rintro m i hm rfl; simpa [keywordOk, String.length_toList] using h _ _ hm
    case maxLength => rintro m i hm rfl; simpa [keywordOk, String.length_toList] using h _ _ hm
    case minItems => rintro m i hm rfl; simpa [keywordOk] using h _ _ hm
    case items =>
      rintro t l ht rfl x hx
      have := h _ _ ht
      simp only [keywordOk, List.all_eq_true] at this
      exact (hsub _ _ ht t List.mem_cons_self x (hnum l rfl x hx)).1 (this x hx)
    case uniqueItems =>
      rintro l hl rfl
      have := h _ _ hl
      simp only [keywordOk] at this
      exact (uniqueOk_iff (hnum l rfl)).1 this
    case properties =>
      rintro ps d k t x hps rfl ht hx
      have := h _ _ hps
      simp only [keywordOk, List.all_eq_true] at this
      have := this (k, t) (Dict.mem_of_get? ht)
      rw [hx] at this
      exact (hsub _ _ hps t (List.mem_map_of_mem (Dict.mem_of_get? ht)) x (hobj d rfl k x hx)).1 this
    case required =>
      rintro l d k hl rfl hk
      have := h _ _ hl
      simp only [keywordOk, List.all_eq_true] at this
      have := this k ((mem_textsOf l k).2 hk)
      intro hn
      simp [Dict.has, hn] at this
    case additional =>
      rintro d k hl rfl hk
      have := h _ _ hl
      simp only [keywordOk, List.all_eq_true] at this
      have hm : k ∈ Dict.keys d := by
        exact Classical.byContradiction fun hc => hk ((Dict.get?_eq_none_iff _ _).2 hc)
      have := this k hm
      split at this
      · next ps hps =>
        refine ⟨ps, hps, fun hn => ?_⟩
        simp [Dict.has, hn] at this
      · cases this
    case allOf =>
      intro l hl t ht
      have := h _ _ hl
      simp only [keywordOk, List.all_eq_true] at this
      exact (hsub _ _ hl t ht v hv).1 (this t ht)
    case anyOf =>
      intro l hl
      have := h _ _ hl
      simp only [keywordOk, List.any_eq_true] at this
      obtain ⟨t, h1, h2⟩ := this
      exact ⟨t, h1, (hsub _ _ hl t h1 v hv).1 h2⟩
    case oneOf =>
      intro l hl
      have := h _ _ hl
      simp only [keywordOk, decide_eq_true_eq] at this
      obtain ⟨i, t, h1, h2, h3⟩ := oneOf_iff.1 this
      refine ⟨i, t, h1, (hsub _ _ hl t (List.mem_of_getElem? h1) v hv).1 h2, fun j u hj hu => h3 j u hj ?_⟩
      exact (hsub _ _ hl u (List.mem_of_getElem? hj) v hv).2 hu
    case not =>
      intro t ht
      have := h _ _ ht
      simp only [keywordOk, Bool.not_eq_true'] at this
      intro hA
      rw [(hsub _ _ ht t List.mem_cons_self v hv).2 hA] at this
      cases this
  · intro h k a hk
    have ha := harg k a hk
    have hr := hsub k a hk
    unfold keywordOk
    split
    · exact (typeOk_iff _ v).2 (h.type _ hk)
    · obtain ⟨t, h1, h2⟩ := h.types _ hk
      exact List.any_eq_true.2 ⟨t, (mem_textsOf _ t).2 h1, (typeOk_iff t v).2 h2⟩
    · obtain ⟨x, h1, h2⟩ := h.enum _ hk
      exact List.any_eq_true.2 ⟨x, h1, (jsEq_iff (scalar_wf (List.all_eq_true.1 ha x h1)) hv).2 h2⟩
    · split
      · obtain ⟨r, h1, h2⟩ := h.pattern _ _ hk rfl
        unfold patternOk
        rw [h1]
        exact (Rx.run_iff r _).2 h2
      · rfl
    · next f =>
      cases v with
      | str t => exact (formatOk_iff ip6 (hfmt f hk) t).2 (h.format _ _ hk rfl)
      | _ => rfl
    · split
      · exact decide_eq_true (h.minimum _ _ hk rfl)
      · rfl
    · split
      · exact decide_eq_true (h.maximum _ _ hk rfl)
      · rfl
    · split
      · exact decide_eq_true (by simpa [String.length_toList] using h.minLength _ _ hk rfl)
      · rfl
    · split
      · exact decide_eq_true (by simpa [String.length_toList] using h.maxLength _ _ hk rfl)
      · rfl
    · split
      · exact decide_eq_true (h.minItems _ _ hk rfl)
      · rfl
    · split
      · next l =>
        exact List.all_eq_true.2 fun x hx => (hr _ List.mem_cons_self x (hnum l rfl x hx)).2 (h.items _ _ hk rfl x hx)
      · rfl
    · split
      · next l => exact (uniqueOk_iff (hnum l rfl)).2 (h.uniqueItems _ hk rfl)
      · rfl
    · split
      · next ps _ d =>
        have hps : (Dict.keys ps).Nodup := of_decide_eq_true ha
        refine List.all_eq_true.2 fun p hp => ?_
        split
        · next x hx =>
                    exact (hr p.2 (List.mem_map_of_mem hp) x (hobj d rfl p.1 x hx)).2 (h.properties ps d p.1 p.2 x hk rfl (Dict.get?_of_mem hps hp) hx)
        · rfl
      · rfl
    · split
      · next l _ d =>
        refine List.all_eq_true.2 fun k hkl => ?_
        have := h.required l d k hk rfl ((mem_textsOf l k).1 hkl)
        cases hg : Dict.get? d k with
        | none => exact absurd hg this
        | some x => simp [Dict.has, hg]
      · rfl
    · split
      · next d =>
        refine List.all_eq_true.2 fun k hkl => ?_
        obtain ⟨ps, h1, h2⟩ := h.additional d k hk rfl (fun hn => (Dict.get?_eq_none_iff _ _).1 hn hkl)
        rw [h1]
        cases hg : Dict.get? ps k with
        | none => exact absurd hg h2
        | some x => simp [Dict.has, hg]
      · rfl
    · exact List.all_eq_true.2 fun t ht => (hr t ht v hv).2 (h.allOf _ hk t ht)
    · obtain ⟨t, h1, h2⟩ := h.anyOf _ hk
      exact List.any_eq_true.2 ⟨t, h1, (hr t h1 v hv).2 h2⟩
    · obtain ⟨i, t, h1, h2, h3⟩ := h.oneOf _ hk
      refine decide_eq_true (oneOf_iff.2 ⟨i, t, h1, (hr t (List.mem_of_getElem? h1) v hv).2 h2, fun j u hj hu => h3 j u hj ?_⟩)
      exact (hr u (List.mem_of_getElem? hj) v hv).1 hu
    · rw [Bool.not_eq_true']
      cases hc : r a v with
      | false => rfl
      | true => exact absurd ((hr a List.mem_cons_self v hv).1 hc) (h.not _ hk)
    · rfl

/-! ## Theorems -/

theorem everywhere_mono {P : VDict → Bool} {root : VDict} {n m : Nat} {s : Val} (h : everywhere P root n s = true) (hm : n ≤ m) : everywhere P root m s = true := by
  induction n generalizing m s with
  | zero => simp [everywhere] at h
  | succ n ih =>
    cases m with
    | zero => omega
    | succ m =>
      have hm : n ≤ m := by omega
      cases s with
      | dict s =>
        rw [everywhere] at h ⊢
        split at h
        · next r hr =>
          split at h
          · exact ih h hm
          · cases h
        · rw [Bool.and_eq_true] at h ⊢
          refine ⟨h.1, List.all_eq_true.2 fun p hp => List.all_eq_true.2 fun t ht => ih (List.all_eq_true.1 (List.all_eq_true.1 h.2 p hp) t ht) hm⟩
      | _ => cases h

theorem everywhere_ref {P : VDict → Bool} {root : VDict} {n : Nat} {s : VDict} {r : String} {t : Val} (h : everywhere P root (n + 1) (.dict s) = true)
    (hr : Dict.get? s "$ref" = some (.str r)) (ht : resolveRef root r = some t) : everywhere P root n t = true := by
  rw [everywhere, hr] at h
  dsimp only at h
  rw [ht] at h
  exact h

theorem everywhere_sub {P : VDict → Bool} {root : VDict} {n : Nat} {s : VDict} {k : String} {arg t : Val} (h : everywhere P root (n + 1) (.dict s) = true)
    (hr : Dict.get? s "$ref" = none) (hk : Dict.get? s k = some arg) (ht : t ∈ subSchemas k arg) : everywhere P root n t = true := by
  rw [everywhere, hr] at h
  rw [Bool.and_eq_true] at h
  exact List.all_eq_true.1 (List.all_eq_true.1 h.2 (k, arg) (Dict.mem_of_get? hk)) t ht

/-- what holds everywhere holds in every part -/
theorem part_everywhere {P : VDict → Bool} {root : VDict} {n : Nat} (h : everywhere P root n (.dict root) = true) {s : Val} (hs : Part root s) :
    everywhere P root n s = true := by
  have up : ∀ {t : Val}, (∀ m, n = m + 1 → everywhere P root m t = true) → n ≠ 0 → everywhere P root n t = true := by
    intro t ht h0
    obtain ⟨m, rfl⟩ := Nat.exists_eq_succ_of_ne_zero h0
    exact everywhere_mono (ht m rfl) (by omega)
  have h0 : n ≠ 0 := by rintro rfl; simp [everywhere] at h
  induction hs with
  | root => exact h
  | items s t _ hr hk ih =>
    refine up (fun m e => ?_) h0
    subst e
    exact everywhere_sub ih hr hk List.mem_cons_self
  | properties s ps k t _ hr hps hk ih =>
    refine up (fun m e => ?_) h0
    subst e
    exact everywhere_sub ih hr hps (List.mem_map_of_mem (Dict.mem_of_get? hk))
  | some_of s k l t _ hr hk hl ht ih =>
    refine up (fun m e => ?_) h0
    subst e
    refine everywhere_sub ih hr hl ?_
    simp only [List.mem_cons, List.not_mem_nil, or_false] at hk
    rcases hk with rfl | rfl | rfl <;> exact ht
  | not s t _ hr hk ih =>
    refine up (fun m e => ?_) h0
    subst e
    exact everywhere_sub ih hr hk List.mem_cons_self
  | ref s r t _ hr ht ih =>
    refine up (fun m e => ?_) h0
    subst e
    exact everywhere_ref ih hr ((resolveRef_iff root r t).2 ht)

/-- a schema covered by the specification has no `$ref` beside its keywords -/
theorem shapes_ref {s : VDict} (h : shapesOk s = true) : Dict.get? s "$ref" = none := by
  rw [shapesOk, Bool.and_eq_true, Bool.and_eq_true] at h
  have hk := h.1.2
  unfold keywordsOk at hk
  rw [Bool.and_eq_true, Bool.and_eq_true, List.all_eq_true] at hk
  rw [Dict.get?_eq_none_iff]
  intro hm
  have := hk.1.1 _ hm
  simp at this

theorem part_sub {root d : VDict} {k : String} {arg t : Val} (hs : shapesOk d = true) (hd : Part root (.dict d)) (hr : Dict.get? d "$ref" = none) (hk : Dict.get? d k = some arg)
    (ht : t ∈ subSchemas k arg) : Part root t := by
  unfold subSchemas at ht
  split at ht
  · rw [List.mem_singleton] at ht; subst ht; exact .items d t hd hr hk
  · next ps =>
    obtain ⟨p, hp, rfl⟩ := List.mem_map.1 ht
    rw [shapesOk, Bool.and_eq_true, Bool.and_eq_true] at hs
    have := List.all_eq_true.1 hs.2 _ (Dict.mem_of_get? hk)
    have hnd : (Dict.keys ps).Nodup := of_decide_eq_true this
    exact .properties d ps p.1 p.2 hd hr hk (Dict.get?_of_mem hnd hp)
  · next l => exact .some_of d "allOf" l t hd hr (by simp) hk ht
  · next l => exact .some_of d "anyOf" l t hd hr (by simp) hk ht
  · next l => exact .some_of d "oneOf" l t hd hr (by simp) hk ht
  · rw [List.mem_singleton] at ht; subst ht; exact .not d t hd hr hk
  · cases ht

/-- the verdict of the validator, once it may look deep enough -/
theorem valid_iff_of {ip6 : Ip6} {root : VDict} {A : Val → Val → Prop} {n : Nat} {s v : Val} (he : everywhere shapesOk root n s = true) (hv : v.WF)
    (hA : ∀ m t, m < n → everywhere shapesOk root m t = true → (Part root s → Part root t) → ∀ x : Val, x.WF → (valid ip6 root m t x = true ↔ A t x)) :
    valid ip6 root n s v = true ↔ ∃ d, s = .dict d ∧
      ((∃ r t, Dict.get? d "$ref" = some (.str r) ∧ RefersTo root r t ∧ A t v) ∨ (Dict.get? d "$ref" = none ∧ Meets ip6 A d v)) := by
  cases n with
  | zero => simp [everywhere] at he
  | succ n =>
    cases s with
    | dict d =>
      have he0 := he
      rw [everywhere] at he
      rw [valid]
      split at he
      · next r hr =>
        rw [hr]
        dsimp only
        cases ht : resolveRef root r with
        | none => rw [ht] at he; cases he
        | some t =>
          rw [ht] at he
          dsimp only at he ⊢
          rw [hA n t (by omega) he (fun hp => .ref d r t hp hr ((resolveRef_iff root r t).1 ht)) v hv]
          constructor
          · intro h
            exact ⟨d, rfl, .inl ⟨r, t, hr, (resolveRef_iff root r t).1 ht, h⟩⟩
          · rintro ⟨d', hd, h⟩
            cases hd
            rcases h with ⟨r', t', h1, h2, h3⟩ | ⟨h1, _⟩
            · rw [hr] at h1
              cases h1
              rw [← resolveRef_iff, ht] at h2
              cases h2
              exact h3
            · rw [hr] at h1; cases h1
      · next hr =>
        rw [Bool.and_eq_true] at he
        have href := shapes_ref he.1
        rw [href]
        dsimp only
        have hnd : (Dict.keys d).Nodup := by
          have := he.1
          rw [shapesOk, Bool.and_eq_true, Bool.and_eq_true, decide_eq_true_eq] at this
          exact this.1.1
        rw [keywords_iff he.1 hv (A := A) (fun p hp t ht x hx => hA n t (by omega) (List.all_eq_true.1 (List.all_eq_true.1 he.2 p hp) t ht)
          (fun hd => part_sub he.1 hd href (Dict.get?_of_mem hnd hp) ht) x hx)]
        constructor
        · intro h; exact ⟨d, rfl, .inr ⟨href, h⟩⟩
        · rintro ⟨d', hd, h⟩
          cases hd
          rcases h with ⟨r', t', h1, _⟩ | ⟨_, h⟩
          · rw [href] at h1; cases h1
          · exact h
    | _ => cases he

/-- The validator reads the schemas of the backends as Draft 4 says. -/
theorem C80_reading (ip6 : Ip6) (root : VDict) (hroot : root ∈ schemas) : Reading ip6 root (fun s v => valid ip6 root schemaDepth s v = true) := by
  intro s hs v hv
  have he := part_everywhere (schema_shapes root hroot) hs
  refine valid_iff_of (A := fun s v => valid ip6 root schemaDepth s v = true) he hv fun m t hm ht _ x _ => ?_
  rw [valid_enough ht (Nat.le_of_lt hm)]

/-- Every reading of the schema accepts the documents the validator accepts. -/
theorem reading_unique {ip6 : Ip6} {root : VDict} {A : Val → Val → Prop} (hA : Reading ip6 root A) {n : Nat} {s v : Val} (hs : Part root s)
    (he : everywhere shapesOk root n s = true) (hv : v.WF) : valid ip6 root n s v = true ↔ A s v := by
  induction n using Nat.strongRecOn generalizing s v with
  | ind n ih =>
    rw [hA s hs v hv]
    exact valid_iff_of he hv fun m t hm ht hp x hx => ih m hm (hp hs) ht hx

/-- **C80.** `validate()` accepts a configuration exactly when the schema of the backend, read as Draft 4 says, accepts it; otherwise it
raises `ValidationError`. This holds for every reading `A` of the schema, and there is one (`C80_reading`). -/
theorem C80_validate (ip6 : Ip6) (root : VDict) (hroot : root ∈ schemas) (A : Val → Val → Prop) (hA : Reading ip6 root A)
    (config : VDict) (hc : (Val.dict config).WF) :
    (A (.dict root) (.dict config) → schemaValidate root ip6 config = .ok ()) ∧
    (¬ A (.dict root) (.dict config) → schemaValidate root ip6 config = .error .validation) := by
  have h := reading_unique hA .root (schema_shapes root hroot) hc
  unfold schemaValidate
  constructor
  · intro ha; rw [if_pos (h.2 ha)]
  · intro ha; rw [if_neg (fun hv => ha (h.1 hv))]

/-- the keys of objects are different, at every depth -/
def wfN : Nat → Val → Bool
  | 0, _ => false
  | n + 1, .list l => l.all (wfN n)
  | n + 1, .dict d => decide (Dict.keys d).Nodup && d.all (fun p => wfN n p.2)
  | _ + 1, _ => true

theorem wf_of {n : Nat} {v : Val} (h : wfN n v = true) : v.WF := by
  induction n generalizing v with
  | zero => cases h
  | succ n ih =>
    cases v with
    | list l => exact .list l fun v hv => ih (List.all_eq_true.1 h v hv)
    | dict d =>
      rw [wfN, Bool.and_eq_true, decide_eq_true_eq] at h
      exact .dict d h.1 fun p hp => ih (List.all_eq_true.1 h.2 p hp)
    | _ => constructor

/-- there are no IPv6 addresses: enough for the examples -/
def noIp6 : Ip6 := ⟨fun _ => none, fun _ => []⟩

/-- a configuration with nested objects, references, choices between schemas and formats -/
def sampleValid : VDict := [("general", .dict [("hostname", .str "router-1"), ("timezone", .str "UTC")]),
  ("interfaces", .list [.dict [("type", .str "ethernet"), ("name", .str "eth0"), ("mtu", .int 1500), ("addresses", .list
    [.dict [("proto", .str "static"), ("family", .str "ipv4"), ("address", .str "10.0.0.1"), ("mask", .int 24)]])]])]

/-- the same with an octet over 255 -/
def sampleInvalid : VDict := [("general", .dict [("hostname", .str "router-1"), ("timezone", .str "UTC")]),
  ("interfaces", .list [.dict [("type", .str "ethernet"), ("name", .str "eth0"), ("mtu", .int 1500), ("addresses", .list
    [.dict [("proto", .str "static"), ("family", .str "ipv4"), ("address", .str "10.0.0.256"), ("mask", .int 24)]])]])]

/-- both verdicts occur -/
theorem C80_sample (A : Val → Val → Prop) (hA : Reading noIp6 owSchema A) :
    A (.dict owSchema) (.dict sampleValid) ∧ ¬ A (.dict owSchema) (.dict sampleInvalid) := by
  have hr : owSchema ∈ schemas := List.mem_cons_self
  have w1 : (Val.dict sampleValid).WF := wf_of (n := 9) (by decide +kernel)
  have w2 : (Val.dict sampleInvalid).WF := wf_of (n := 9) (by decide +kernel)
  have v1 : schemaValidate owSchema noIp6 sampleValid = .ok () := by decide +kernel
  have v2 : schemaValidate owSchema noIp6 sampleInvalid = .error .validation := by decide +kernel
  constructor
  · refine Classical.byContradiction fun h => ?_
    rw [(C80_validate noIp6 owSchema hr A hA _ w1).2 h] at v1
    cases v1
  · intro h
    rw [(C80_validate noIp6 owSchema hr A hA _ w2).1 h] at v2
    cases v2

end NJ
