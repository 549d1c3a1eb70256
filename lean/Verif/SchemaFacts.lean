import Verif.Schema

/-!
# What a valid document is known to satisfy

`Fact` is a small language of statements about values, `Fact.Holds` says what they mean, and `implies` looks for a reason for a statement
in a schema. `implies_sound`: what it finds holds of every value that the schema accepts. With it every consequence of the schema that the
proofs need is one evaluation.
-/

namespace NJ

/-- statements about a value -/
inductive Fact where
  /-- the value is of that type -/
  | isType (t : String)
  /-- the value is one of those texts -/
  | among (l : List String)
  /-- the value has that format -/
  | format (f : String)
  /-- if a text, it matches the pattern -/
  | pattern (p : String)
  /-- if a number, at least this -/
  | atLeast (i : Int)
  /-- if a text, at least that long -/
  | minLength (n : Nat)
  /-- if an object, has the key -/
  | has (k : String)
  /-- if an object with the key, what is there satisfies the statement -/
  | at (k : String) (f : Fact)
  /-- if a list, every element satisfies the statement -/
  | each (f : Fact)
  | and (a b : Fact)
  | or (a b : Fact)

/-- the meaning of a statement -/
def Fact.Holds (ip6 : Ip6) : Fact → Val → Prop
  | .isType t, v => typeOk t v = true
  | .among l, v => ∃ s ∈ l, v = .str s
  | .format f, v => formatOk ip6 f v = true
  | .pattern p, v => ∀ s, v = .str s → patternOk p s.toList = true
  | .atLeast i, v => ∀ j, v = .int j → i ≤ j
  | .minLength n, v => ∀ s, v = .str s → n ≤ s.toList.length
  | .has k, v => ∀ d, v = .dict d → Dict.has d k = true
  | .at k f, v => ∀ d x, v = .dict d → Dict.get? d k = some x → f.Holds ip6 x
  | .each f, v => ∀ l, v = .list l → ∀ x ∈ l, f.Holds ip6 x
  | .and a b, v => a.Holds ip6 v ∧ b.Holds ip6 v
  | .or a b, v => a.Holds ip6 v ∨ b.Holds ip6 v

/-- the value of a keyword that is a list -/
def schemaList (s : VDict) (k : String) : List Val :=
  match Dict.get? s k with
  | some (.list l) => l
  | _ => []

/-- a statement follows from one of the keywords of the schema itself -/
def direct (rec : Val → Fact → Bool) (s : VDict) : Fact → Bool
  | .isType t => Dict.get? s "type" == some (.str t) ||
      (!(schemaList s "enum").isEmpty && (schemaList s "enum").all (fun x => match x with | .str _ => t == "string" | _ => false))
  | .among l => !(schemaList s "enum").isEmpty && (decide (schemaList s "enum" = l.map .str) ||
      (schemaList s "enum").all (fun x => match x with | .str t => decide (t ∈ l) | _ => false))
  | .format f => Dict.get? s "format" == some (.str f)
  | .pattern p => Dict.get? s "pattern" == some (.str p)
  | .atLeast i => match Dict.get? s "minimum" with
    | some (.int m) => decide (i ≤ m)
    | _ => false
  | .minLength n => match Dict.get? s "minLength" with
    | some (.int m) => decide ((n : Int) ≤ m)
    | _ => false
  | .has k => (schemaList s "required").any (fun x => x == .str k)
  | .at k f => match Dict.get? s "properties" with
    | some (.dict ps) => match Dict.get? ps k with
      | some t => rec t f
      | none => false
    | _ => false
  | .each f => match Dict.get? s "items" with
    | some t => rec t f
    | none => false
  | _ => false

/-- a statement follows from one of the parts, or from each of the alternatives -/
def branches (rec : Val → Fact → Bool) (s : VDict) (f : Fact) : Bool :=
  (schemaList s "allOf").any (fun t => rec t f) ||
  (!(schemaList s "anyOf").isEmpty && (schemaList s "anyOf").all (fun t => rec t f)) ||
  (!(schemaList s "oneOf").isEmpty && (schemaList s "oneOf").all (fun t => rec t f))

def impliesHere (rec : Val → Fact → Bool) (s : VDict) : Fact → Bool
  | .and a b => impliesHere rec s a && impliesHere rec s b
  | .or a b => impliesHere rec s a || impliesHere rec s b || branches rec s (.or a b)
  | f => direct rec s f || branches rec s f

/-- a statement follows from a schema -/
def implies (root : VDict) : Nat → Val → Fact → Bool
  | 0, _, _ => false
  | n + 1, .dict s, f => match Dict.get? s "$ref" with
    | some (.str r) => match resolveRef root r with
      | some t => implies root n t f
      | none => false
    | _ => impliesHere (implies root n) s f
  | _ + 1, _, _ => false

/-! ## Soundness -/

theorem schemaList_get {s : VDict} {k : String} (h : (schemaList s k).isEmpty = false) :
    Dict.get? s k = some (.list (schemaList s k)) := by
  unfold schemaList at h ⊢
  split at h <;> simp_all

theorem schemaList_mem {s : VDict} {k : String} {x : Val} (h : x ∈ schemaList s k) :
    Dict.get? s k = some (.list (schemaList s k)) := by
  apply schemaList_get
  cases hl : schemaList s k with
  | nil => rw [hl] at h; cases h
  | cons => rfl

section
variable {ip6 : Ip6} {vrec : Val → Val → Bool} {rec : Val → Fact → Bool} {s : VDict} {v : Val}

theorem direct_sound (hrec : ∀ t f x, rec t f = true → vrec t x = true → f.Holds ip6 x)
    (hs : ∀ k arg, Dict.get? s k = some arg → keywordOk ip6 vrec s k arg v = true) {f : Fact} (h : direct rec s f = true) :
    f.Holds ip6 v := by
  have enum {P : Val → Prop} (hne : (schemaList s "enum").isEmpty = false) (hP : ∀ x ∈ schemaList s "enum", P x) :
      ∃ x, P x ∧ Val.jsEq x v = true := by
    have := hs _ _ (schemaList_get hne)
    simp only [keywordOk, List.any_eq_true] at this
    obtain ⟨x, hx, he⟩ := this
    exact ⟨x, hP x hx, he⟩
  cases f with
  | isType t =>
    simp only [direct, Bool.or_eq_true, beq_iff_eq, Bool.and_eq_true, List.all_eq_true, Bool.not_eq_true'] at h
    rcases h with h | ⟨hne, hall⟩
    · simpa [Fact.Holds, keywordOk] using hs _ _ h
    · obtain ⟨x, hx, he⟩ := enum hne hall
      cases x with
      | str a =>
        cases v with
        | str b => simp at hx; subst hx; rfl
        | _ => simp [Val.jsEq] at he
      | _ => simp at hx
  | among l =>
    simp only [direct, Bool.and_eq_true, Bool.or_eq_true, decide_eq_true_eq, List.all_eq_true, Bool.not_eq_true'] at h
    have h2 : ∀ x ∈ schemaList s "enum", (match x with | .str t => decide (t ∈ l) | _ => false) = true := by
      rcases h.2 with h2 | h2
      · intro x hx
        rw [h2, List.mem_map] at hx
        obtain ⟨t, ht, rfl⟩ := hx
        simpa using ht
      · exact h2
    obtain ⟨x, hx, he⟩ := enum h.1 h2
    cases x with
    | str a =>
      cases v with
      | str b =>
        simp only [Val.jsEq, beq_iff_eq] at he
        subst he
        exact ⟨a, by simpa using hx, rfl⟩
      | _ => simp [Val.jsEq] at he
    | _ => simp at hx
  | format f =>
    simp only [direct, beq_iff_eq] at h
    simpa [Fact.Holds, keywordOk] using hs _ _ h
  | pattern p =>
    simp only [direct, beq_iff_eq] at h
    have := hs _ _ h
    intro t ht
    subst ht
    simpa [keywordOk] using this
  | atLeast i =>
    simp only [direct] at h
    split at h
    · rename_i m hm
      have := hs _ _ hm
      intro j hj
      subst hj
      simp only [keywordOk, decide_eq_true_eq] at this
      have h : i ≤ m := by simpa using h
      exact Int.le_trans h this
    · cases h
  | minLength n =>
    simp only [direct] at h
    split at h
    · rename_i m hm
      have := hs _ _ hm
      intro t ht
      subst ht
      simp only [keywordOk, decide_eq_true_eq] at this
      have h : (n : Int) ≤ m := by simpa using h
      rw [String.length_toList]
      omega
    · cases h
  | has k =>
    simp only [direct, List.any_eq_true, beq_iff_eq] at h
    obtain ⟨x, hx, rfl⟩ := h
    have := hs _ _ (schemaList_mem hx)
    intro d hd
    subst hd
    simp only [keywordOk, List.all_eq_true] at this
    exact this k (by
      simp only [textsOf, List.mem_filterMap]
      exact ⟨_, hx, rfl⟩)
  | «at» k f =>
    simp only [direct] at h
    split at h
    · rename_i ps hp
      split at h
      · rename_i t ht
        have := hs _ _ hp
        intro d x hd hx
        subst hd
        simp only [keywordOk, List.all_eq_true] at this
        have := this (k, t) (Dict.mem_of_get? ht)
        rw [hx] at this
        exact hrec _ _ _ h this
      · cases h
    · cases h
  | each f =>
    simp only [direct] at h
    split at h
    · rename_i t ht
      have := hs _ _ ht
      intro l hl x hx
      subst hl
      simp only [keywordOk, List.all_eq_true] at this
      exact hrec _ _ _ h (this x hx)
    · cases h
  | and a b => cases h
  | or a b => cases h

theorem branches_sound (hrec : ∀ t f x, rec t f = true → vrec t x = true → f.Holds ip6 x)
    (hs : ∀ k arg, Dict.get? s k = some arg → keywordOk ip6 vrec s k arg v = true) {f : Fact} (h : branches rec s f = true) :
    f.Holds ip6 v := by
  simp only [branches, Bool.or_eq_true, List.any_eq_true, Bool.and_eq_true, List.all_eq_true, Bool.not_eq_true'] at h
  rcases h with (⟨t, ht, h⟩ | ⟨hne, h⟩) | ⟨hne, h⟩
  · have := hs _ _ (schemaList_mem ht)
    simp only [keywordOk, List.all_eq_true] at this
    exact hrec _ _ _ h (this t ht)
  · have := hs _ _ (schemaList_get hne)
    simp only [keywordOk, List.any_eq_true] at this
    obtain ⟨t, ht, hv⟩ := this
    exact hrec _ _ _ (h t ht) hv
  · have := hs _ _ (schemaList_get hne)
    simp only [keywordOk, decide_eq_true_eq] at this
    cases hf : (schemaList s "oneOf").filter (fun s => vrec s v) with
    | nil => rw [hf] at this; cases this
    | cons t r =>
      have ht : t ∈ (schemaList s "oneOf").filter (fun s => vrec s v) := by rw [hf]; exact List.mem_cons_self
      rw [List.mem_filter] at ht
      exact hrec _ _ _ (h t ht.1) ht.2

theorem impliesHere_sound (hrec : ∀ t f x, rec t f = true → vrec t x = true → f.Holds ip6 x)
    (hs : ∀ k arg, Dict.get? s k = some arg → keywordOk ip6 vrec s k arg v = true) {f : Fact} (h : impliesHere rec s f = true) :
    f.Holds ip6 v := by
  induction f with
  | and a b iha ihb =>
    simp only [impliesHere, Bool.and_eq_true] at h
    exact ⟨iha h.1, ihb h.2⟩
  | or a b iha ihb =>
    simp only [impliesHere, Bool.or_eq_true] at h
    rcases h with (h | h) | h
    · exact .inl (iha h)
    · exact .inr (ihb h)
    · exact branches_sound hrec hs h
  | _ =>
    simp only [impliesHere, Bool.or_eq_true] at h
    rcases h with h | h
    · exact direct_sound hrec hs h
    · exact branches_sound hrec hs h

end

/-- what is found in a schema holds of every value the schema accepts -/
theorem implies_sound {ip6 : Ip6} {root : VDict} {n m : Nat} {s v : Val} {f : Fact} (h : implies root n s f = true)
    (hv : valid ip6 root m s v = true) : f.Holds ip6 v := by
  induction n generalizing m s v f with
  | zero => simp [implies] at h
  | succ n ih =>
    cases m with
    | zero => simp [valid] at hv
    | succ m =>
      cases s with
      | dict s =>
        rw [implies] at h
        rw [valid] at hv
        split at h
        · rename_i r hr
          rw [hr] at hv
          dsimp only at hv
          cases ht : resolveRef root r with
          | none => rw [ht] at h; cases h
          | some t =>
            rw [ht] at h hv
            exact ih h hv
        · rename_i hr
          split at hv
          · rename_i r hr'
            exact absurd hr' (hr r)
          · rw [List.all_eq_true] at hv
            refine impliesHere_sound (vrec := valid ip6 root m) (fun t f x h hx => ih h hx) ?_ h
            intro k arg hk
            exact hv (k, arg) (Dict.mem_of_get? hk)
      | _ => simp [implies] at h

end NJ
