import Mathlib.Logic.Basic
import Batteries.Data.List.Perm
import Verif.SchemaChecks
import Verif.IpLemmas

/-!
# What a JSON schema means (specification of C80)

Draft 4 of JSON Schema, keyword by keyword, for the keywords of the schemas; patterns, formats and equality of JSON values are
specified here too. Nothing of this uses the validator (`valid`, `keywordOk`, `typeOk`, `Val.jsEq`, `Rx.run`, …).
-/

namespace NJ

/-! ## Specification -/

/-- **Specification.** Equal JSON values: numbers and truth values are different, lists in order, objects whatever the order. -/
inductive SameJson : Val → Val → Prop
  | none : SameJson .none .none
  | bool (b : Bool) : SameJson (.bool b) (.bool b)
  | int (i : Int) : SameJson (.int i) (.int i)
  | str (s : String) : SameJson (.str s) (.str s)
  | list (a b : List Val) : a.length = b.length → (∀ (i : Nat) x y, a[i]? = some x → b[i]? = some y → SameJson x y) → SameJson (.list a) (.list b)
  | dict (a b : VDict) : (∀ k, Dict.get? a k = none ↔ Dict.get? b k = none) → (∀ k x y, Dict.get? a k = some x → Dict.get? b k = some y → SameJson x y) →
      SameJson (.dict a) (.dict b)

/-- **Specification.** The text matches the regular expression. -/
inductive Rx.Matches : Rx → Chars → Prop
  | eps : Matches .eps []
  | chr (p : Char → Bool) (c : Char) : p c = true → Matches (.chr p) [c]
  | seq (a b : Rx) (s t : Chars) : Matches a s → Matches b t → Matches (.seq a b) (s ++ t)
  | left (a b : Rx) (s : Chars) : Matches a s → Matches (.alt a b) s
  | right (a b : Rx) (s : Chars) : Matches b s → Matches (.alt a b) s
  | none (a : Rx) : Matches (.star a) []
  | more (a : Rx) (s t : Chars) : Matches a s → Matches (.star a) t → Matches (.star a) (s ++ t)

/-- **Specification.** The JSON types -/
def IsType (t : String) (v : Val) : Prop :=
  t = "null" ∧ v = .none ∨ t = "boolean" ∧ (∃ b, v = .bool b) ∨ (t = "integer" ∨ t = "number") ∧ (∃ i, v = .int i) ∨
  t = "string" ∧ (∃ s, v = .str s) ∨ t = "array" ∧ (∃ l, v = .list l) ∨ t = "object" ∧ (∃ d, v = .dict d)

/-- **Specification.** Dotted IPv4 addresses: four numbers up to 255 -/
def IsIp4 (s : Chars) : Prop :=
  ∃ a b c d : Nat, a ≤ 255 ∧ b ≤ 255 ∧ c ≤ 255 ∧ d ≤ 255 ∧ s = joinWith ['.'] [showNat a, showNat b, showNat c, showNat d]

/-- **Specification.** Host names: a letter or digit and then 1 to 255 letters, digits, dots and dashes, maybe a final line break; between dots
at most 63 characters -/
def IsHostname (s : Chars) : Prop :=
  (∃ c r, (s = c :: r ∨ s = c :: r ++ ['\n']) ∧ isAsciiAlnum c = true ∧ (∀ x ∈ r, isAsciiAlnum x = true ∨ x = '.' ∨ x = '-') ∧ 1 ≤ r.length ∧ r.length ≤ 255) ∧
  ∀ w ∈ splitOn '.' s, w.length ≤ 63

/-- **Specification.** The formats; IPv6 addresses are a parameter of the model; `cidr` is a network address (with no host bits) -/
def FormatMeans (ip6 : Ip6) (f : String) (s : Chars) : Prop :=
  (f = "ipv4" → IsIp4 s) ∧
  (f = "ipv6" → '/' ∉ s ∧ '%' ∉ s ∧ ip6.read s ≠ none) ∧
  (f = "hostname" → IsHostname s) ∧
  (f = "cidr" → ∃ i, ipInterface ip6 s = some i ∧ i.network = i.addr)

/-- **Specification.** What a schema that is not a reference asks of a value, keyword by keyword. `A t x`: the schema `t` accepts `x`. -/
structure Meets (ip6 : Ip6) (A : Val → Val → Prop) (s : VDict) (v : Val) : Prop where
  type : ∀ t, Dict.get? s "type" = some (.str t) → IsType t v
  types : ∀ l, Dict.get? s "type" = some (.list l) → ∃ t, Val.str t ∈ l ∧ IsType t v
  enum : ∀ l, Dict.get? s "enum" = some (.list l) → ∃ x ∈ l, SameJson x v
  pattern : ∀ p t, Dict.get? s "pattern" = some (.str p) → v = .str t → ∃ r, Dict.get? patterns p = some r ∧ r.Matches t.toList
  format : ∀ f t, Dict.get? s "format" = some (.str f) → v = .str t → FormatMeans ip6 f t.toList
  minimum : ∀ m i, Dict.get? s "minimum" = some (.int m) → v = .int i → m ≤ i
  maximum : ∀ m i, Dict.get? s "maximum" = some (.int m) → v = .int i → i ≤ m
  minLength : ∀ m t, Dict.get? s "minLength" = some (.int m) → v = .str t → m ≤ t.toList.length
  maxLength : ∀ m t, Dict.get? s "maxLength" = some (.int m) → v = .str t → t.toList.length ≤ m
  minItems : ∀ m l, Dict.get? s "minItems" = some (.int m) → v = .list l → m ≤ l.length
  items : ∀ t l, Dict.get? s "items" = some t → v = .list l → ∀ x ∈ l, A t x
  uniqueItems : ∀ l, Dict.get? s "uniqueItems" = some (.bool true) → v = .list l →
    ∀ (i j : Nat) x y, l[i]? = some x → l[j]? = some y → SameJson x y → i = j
  properties : ∀ ps d k t x, Dict.get? s "properties" = some (.dict ps) → v = .dict d → Dict.get? ps k = some t → Dict.get? d k = some x → A t x
  required : ∀ l d k, Dict.get? s "required" = some (.list l) → v = .dict d → Val.str k ∈ l → Dict.get? d k ≠ none
  additional : ∀ d k, Dict.get? s "additionalProperties" = some (.bool false) → v = .dict d → Dict.get? d k ≠ none →
    ∃ ps, Dict.get? s "properties" = some (.dict ps) ∧ Dict.get? ps k ≠ none
  allOf : ∀ l, Dict.get? s "allOf" = some (.list l) → ∀ t ∈ l, A t v
  anyOf : ∀ l, Dict.get? s "anyOf" = some (.list l) → ∃ t ∈ l, A t v
  oneOf : ∀ l, Dict.get? s "oneOf" = some (.list l) → ∃ (i : Nat) (t : Val), l[i]? = some t ∧ A t v ∧ ∀ (j : Nat) (u : Val), l[j]? = some u → A u v → j = i
  not : ∀ t, Dict.get? s "not" = some t → ¬ A t v

/-- **Specification.** The value found in nested objects by the keys of the path -/
inductive LeadsTo : Val → List String → Val → Prop
  | here (v : Val) : LeadsTo v [] v
  | step (d : VDict) (k : String) (x : Val) (path : List String) (v : Val) : Dict.get? d k = some x → LeadsTo x path v → LeadsTo (.dict d) (k :: path) v

/-- **Specification.** The reference `#/a/b/c` leads from the document to the schema -/
def RefersTo (root : VDict) (ref : String) (t : Val) : Prop :=
  ∃ path : List String, ref.toList = joinWith ['/'] (['#'] :: path.map String.toList) ∧ (∀ k ∈ path, '/' ∉ k.toList) ∧ LeadsTo (.dict root) path t

/-- **Specification.** The schemas inside a schema: those the keywords look into, and those it refers to -/
inductive Part (root : VDict) : Val → Prop
  | root : Part root (.dict root)
  | items (s : VDict) (t : Val) : Part root (.dict s) → Dict.get? s "$ref" = none → Dict.get? s "items" = some t → Part root t
  | properties (s ps : VDict) (k : String) (t : Val) : Part root (.dict s) → Dict.get? s "$ref" = none → Dict.get? s "properties" = some (.dict ps) → Dict.get? ps k = some t → Part root t
  | some_of (s : VDict) (k : String) (l : List Val) (t : Val) : Part root (.dict s) → Dict.get? s "$ref" = none → k ∈ ["allOf", "anyOf", "oneOf"] → Dict.get? s k = some (.list l) → t ∈ l → Part root t
  | not (s : VDict) (t : Val) : Part root (.dict s) → Dict.get? s "$ref" = none → Dict.get? s "not" = some t → Part root t
  | ref (s : VDict) (r : String) (t : Val) : Part root (.dict s) → Dict.get? s "$ref" = some (.str r) → RefersTo root r t → Part root t

/-- **Specification.** `A` reads the schema, and all the schemas inside it, as Draft 4 says: a reference stands for the schema it leads to
(whatever is beside it), other schemas accept what meets their keywords. -/
def Reading (ip6 : Ip6) (root : VDict) (A : Val → Val → Prop) : Prop :=
  ∀ s, Part root s → ∀ v : Val, v.WF → (A s v ↔ ∃ d, s = .dict d ∧
    ((∃ r t, Dict.get? d "$ref" = some (.str r) ∧ RefersTo root r t ∧ A t v) ∨ (Dict.get? d "$ref" = none ∧ Meets ip6 A d v)))

/-! ## Regular expressions -/

namespace Rx

theorem nullable_iff (r : Rx) : r.nullable = true ↔ r.Matches [] := by
  induction r with
  | never => exact ⟨fun h => by simp [nullable] at h, fun h => by cases h⟩
  | eps => exact ⟨fun _ => .eps, fun _ => rfl⟩
  | chr p => exact ⟨fun h => by simp [nullable] at h, fun h => by cases h⟩
  | seq a b iha ihb =>
    rw [nullable, Bool.and_eq_true, iha, ihb]
    constructor
    · rintro ⟨h1, h2⟩; exact .seq a b [] [] h1 h2
    · intro h
      generalize hs : ([] : Chars) = s at h
      cases h with
      | seq _ _ s t h1 h2 =>
        have := List.append_eq_nil_iff.1 hs.symm
        rw [this.1] at h1 ⊢; rw [this.2] at h2 ⊢
        exact ⟨h1, h2⟩
  | alt a b iha ihb =>
    rw [nullable, Bool.or_eq_true, iha, ihb]
    constructor
    · rintro (h | h)
      · exact .left _ _ _ h
      · exact .right _ _ _ h
    · intro h
      cases h with
      | left _ _ _ h => exact .inl h
      | right _ _ _ h => exact .inr h
  | star a => exact ⟨fun _ => .none a, fun _ => rfl⟩

theorem deriv_iff (c : Char) (r : Rx) (s : Chars) : (r.deriv c).Matches s ↔ r.Matches (c :: s) := by
  induction r generalizing s with
  | never => exact ⟨fun h => (nomatch h), fun h => (nomatch h)⟩
  | eps => exact ⟨fun h => (nomatch h), fun h => (nomatch h)⟩
  | chr p =>
    unfold deriv
    constructor
    · intro h
      split at h
      · next hp => cases h; exact .chr p c hp
      · cases h
    · intro h
      cases h with
      | chr _ _ hp => rw [if_pos hp]; exact .eps
  | seq a b iha ihb =>
    have one : (Rx.seq (a.deriv c) b).Matches s ↔ ∃ x y, s = x ++ y ∧ a.Matches (c :: x) ∧ b.Matches y := by
      constructor
      · intro h
        generalize hr : Rx.seq (a.deriv c) b = r at h
        cases h <;> cases hr
        next x y h1 h2 => exact ⟨x, y, rfl, (iha x).1 h1, h2⟩
      · rintro ⟨x, y, rfl, h1, h2⟩
        exact .seq _ _ _ _ ((iha x).2 h1) h2
    have two : (Rx.seq a b).Matches (c :: s) ↔ (∃ x y, s = x ++ y ∧ a.Matches (c :: x) ∧ b.Matches y) ∨ (a.Matches [] ∧ b.Matches (c :: s)) := by
      constructor
      · intro h
        generalize hr : Rx.seq a b = r at h
        generalize ht : c :: s = t at h
        cases h <;> cases hr
        next x y h1 h2 =>
          cases x with
          | nil => rw [List.nil_append] at ht; subst ht; exact .inr ⟨h1, h2⟩
          | cons z zs =>
            rw [List.cons_append, List.cons.injEq] at ht
            obtain ⟨rfl, rfl⟩ := ht
            exact .inl ⟨zs, y, rfl, h1, h2⟩
      · rintro (⟨x, y, rfl, h1, h2⟩ | ⟨h1, h2⟩)
        · exact .seq a b (c :: x) y h1 h2
        · exact .seq a b [] _ h1 h2
    rw [deriv, two]
    split
    · next hn =>
      constructor
      · intro h
        generalize hr : Rx.alt (Rx.seq (a.deriv c) b) (b.deriv c) = r at h
        cases h <;> cases hr
        next h => exact .inl (one.1 h)
        next h => exact .inr ⟨(nullable_iff a).1 hn, (ihb s).1 h⟩
      · rintro (h | ⟨_, h⟩)
        · exact .left _ _ _ (one.2 h)
        · exact .right _ _ _ ((ihb s).2 h)
    · next hn =>
      rw [one]
      constructor
      · exact .inl
      · rintro (h | ⟨h, _⟩)
        · exact h
        · exact absurd ((nullable_iff a).2 h) hn
  | alt a b iha ihb =>
    rw [deriv]
    constructor
    · intro h
      generalize hr : Rx.alt (a.deriv c) (b.deriv c) = r at h
      cases h <;> cases hr
      next h => exact .left _ _ _ ((iha s).1 h)
      next h => exact .right _ _ _ ((ihb s).1 h)
    · intro h
      generalize hr : Rx.alt a b = r at h
      generalize ht : c :: s = t at h
      cases h <;> cases hr <;> subst ht
      next h => exact .left _ _ _ ((iha s).2 h)
      next h => exact .right _ _ _ ((ihb s).2 h)
  | star a iha =>
    rw [deriv]
    constructor
    · intro h
      generalize hr : Rx.seq (a.deriv c) (Rx.star a) = r at h
      cases h <;> cases hr
      next x y h1 h2 => exact .more a (c :: x) y ((iha x).1 h1) h2
    · intro h
      generalize hr : Rx.star a = r at h
      generalize ht : c :: s = t at h
      induction h with
      | none => cases ht
      | more b x y h1 h2 _ ih =>
        cases hr
        cases x with
        | nil => exact ih rfl (by simpa using ht)
        | cons z zs =>
          rw [List.cons_append, List.cons.injEq] at ht
          obtain ⟨rfl, rfl⟩ := ht
          exact .seq _ _ _ _ ((iha zs).2 h1) h2
      | _ => cases hr

theorem run_iff (r : Rx) (s : Chars) : r.run s = true ↔ r.Matches s := by
  induction s generalizing r with
  | nil => exact nullable_iff r
  | cons c s ih => rw [run, ih, deriv_iff]

end Rx

/-! ## Equality -/

theorem jsEq_iff {x y : Val} (hx : x.WF) (hy : y.WF) : Val.jsEq x y = true ↔ SameJson x y := by
  induction hx generalizing y with
  | none =>
    cases y with
    | none => exact ⟨fun _ => .none, fun _ => rfl⟩
    | _ => simp only [Val.jsEq]; exact ⟨fun h => (nomatch h), fun h => (nomatch h)⟩
  | bool b =>
    cases y with
    | bool c =>
      simp only [Val.jsEq, beq_iff_eq]
      exact ⟨fun h => h ▸ .bool b, fun h => by cases h; rfl⟩
    | _ => simp only [Val.jsEq]; exact ⟨fun h => (nomatch h), fun h => (nomatch h)⟩
  | int b =>
    cases y with
    | int c =>
      simp only [Val.jsEq, beq_iff_eq]
      exact ⟨fun h => h ▸ .int b, fun h => by cases h; rfl⟩
    | _ => simp only [Val.jsEq]; exact ⟨fun h => (nomatch h), fun h => (nomatch h)⟩
  | str b =>
    cases y with
    | str c =>
      simp only [Val.jsEq, beq_iff_eq]
      exact ⟨fun h => h ▸ .str b, fun h => by cases h; rfl⟩
    | _ => simp only [Val.jsEq]; exact ⟨fun h => (nomatch h), fun h => (nomatch h)⟩
  | list a _ ih =>
    cases y with
    | list b =>
      have key : ∀ (a b : List Val), (∀ v ∈ a, ∀ {y : Val}, y.WF → (Val.jsEq v y = true ↔ SameJson v y)) → (∀ v ∈ b, v.WF) →
          (Val.jsEqL a b = true ↔ a.length = b.length ∧ ∀ (i : Nat) x y, a[i]? = some x → b[i]? = some y → SameJson x y) := by
        intro a
        induction a with
        | nil => intro b _ _; cases b <;> simp [Val.jsEqL]
        | cons v a iha =>
          intro b h1 h2
          cases b with
          | nil => simp [Val.jsEqL]
          | cons w b =>
            rw [Val.jsEqL, Bool.and_eq_true, h1 v (by simp) (h2 w (by simp)), iha b (fun v hv => h1 v (by simp [hv])) (fun v hv => h2 v (by simp [hv]))]
            constructor
            · rintro ⟨h3, h4, h5⟩
              refine ⟨by simp [h4], fun i x y hx hy => ?_⟩
              cases i with
              | zero => simp at hx hy; subst hx hy; exact h3
              | succ i => exact h5 i x y (by simpa using hx) (by simpa using hy)
            · rintro ⟨h3, h4⟩
              refine ⟨h4 0 v w rfl rfl, by simpa using h3, fun i x y hx hy => h4 (i + 1) x y (by simpa using hx) (by simpa using hy)⟩
      cases hy with
      | list _ hb =>
        rw [Val.jsEq, key a b ih hb]
        exact ⟨fun h => .list a b h.1 h.2, fun h => by cases h with | list _ _ h1 h2 => exact ⟨h1, h2⟩⟩
    | _ => simp only [Val.jsEq]; exact ⟨fun h => (nomatch h), fun h => (nomatch h)⟩
  | dict a ha _ ih =>
    cases y with
    | dict b =>
      cases hy with
      | dict _ hb hbw =>
        have hD : ∀ a : VDict, (∀ p ∈ a, ∀ {y : Val}, y.WF → (Val.jsEq p.2 y = true ↔ SameJson p.2 y)) →
            (Val.jsEqD a b = true ↔ ∀ p ∈ a, ∃ w, Dict.get? b p.1 = some w ∧ SameJson p.2 w) := by
          intro a
          induction a with
          | nil => intro _; simp [Val.jsEqD]
          | cons p a iha =>
            intro h
            obtain ⟨k, v⟩ := p
            rw [Val.jsEqD, Bool.and_eq_true, iha (fun p hp => h p (by simp [hp])), List.forall_mem_cons]
            refine and_congr ?_ Iff.rfl
            cases hw : Dict.get? b k with
            | none => simp
            | some w =>
              dsimp only
              rw [h (k, v) (by simp) (hbw (k, w) (Dict.mem_of_get? hw))]
              simp
        rw [Val.jsEq, Bool.and_eq_true, beq_iff_eq, hD a ih]
        constructor
        · rintro ⟨hl, h⟩
          have hsub : ∀ k ∈ Dict.keys a, k ∈ Dict.keys b := by
            intro k hk
            obtain ⟨p, hp, rfl⟩ := List.mem_map.1 hk
            obtain ⟨w, hw, _⟩ := h p hp
            exact List.mem_map.2 ⟨(p.1, w), Dict.mem_of_get? hw, rfl⟩
          have hsub' : ∀ k ∈ Dict.keys b, k ∈ Dict.keys a := by
            have hp : (Dict.keys a).Perm (Dict.keys b) := by
              refine (List.subperm_of_subset ha hsub).perm_of_length_le ?_
              simp [Dict.keys, hl]
            exact fun k hk => hp.mem_iff.2 hk
          refine .dict a b (fun k => ?_) ?_
          · rw [Dict.get?_eq_none_iff, Dict.get?_eq_none_iff]
            exact not_congr ⟨hsub k, hsub' k⟩
          · intro k x y hx hy
            obtain ⟨w, hw, hs⟩ := h (k, x) (Dict.mem_of_get? hx)
            rw [hy] at hw
            cases hw
            exact hs
        · intro h
          cases h with
          | dict _ _ h1 h2 =>
            refine ⟨?_, ?_⟩
            · have hp : (Dict.keys a).Perm (Dict.keys b) := by
                rw [List.perm_ext_iff_of_nodup ha hb]
                intro k
                have := h1 k
                rw [Dict.get?_eq_none_iff, Dict.get?_eq_none_iff] at this
                exact not_iff_not.1 this
              have := hp.length_eq
              simpa [Dict.keys] using this
            · intro p hp
              have hg := Dict.get?_of_mem ha (k := p.1) (v := p.2) hp
              cases hw : Dict.get? b p.1 with
              | none => rw [(h1 p.1).2 hw] at hg; cases hg
              | some w => exact ⟨w, rfl, h2 _ _ _ hg hw⟩
    | _ => simp only [Val.jsEq]; exact ⟨fun h => (nomatch h), fun h => (nomatch h)⟩

theorem sameJson_symm {x y : Val} (h : SameJson x y) : SameJson y x := by
  induction h with
  | list a b h _ ih => exact .list b a h.symm fun i x y hx hy => ih i y x hy hx
  | dict a b h _ ih => exact .dict b a (fun k => (h k).symm) fun k x y hx hy => ih k y x hy hx
  | _ => constructor

end NJ
