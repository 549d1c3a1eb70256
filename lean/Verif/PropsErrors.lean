import Verif.Errors
import Verif.AutoValid

/-!
# C94: the text of a `ValidationError`
-/

namespace NJ

section
variable {msg : String → Val → Val → Chars} {ip6 : Ip6} {root : VDict} {n : Nat}

theorem afterFirst_none {rec : Val → Val → List JErr} {v : Val} {l : List Val} : afterFirst rec v l = none ↔ ∀ s ∈ l, rec s v ≠ [] := by
  induction l with
  | nil => simp [afterFirst]
  | cons s l ih =>
    unfold afterFirst
    by_cases h : rec s v = []
    · simp [h]
    · simp [h, ih]

/-- keywords without parts -/
theorem leafKeyword {rec rec' : Val → Val → Bool} {s : VDict} {k : String} {arg v : Val}
    (h : k ∉ ["items", "properties", "allOf", "anyOf", "oneOf", "not"]) : keywordOk ip6 rec s k arg v = keywordOk ip6 rec' s k arg v := by
  unfold keywordOk
  split <;> first | rfl | (exfalso; exact h (by simp))

theorem one_of {p : Val → Bool} {rec : Val → Val → List JErr} {v : Val} (h : ∀ s, rec s v = [] ↔ p s = true) {l : List Val} :
    (l.filter p).length = 1 ↔ ∃ r, afterFirst rec v l = some r ∧ (r.any fun s => (rec s v).isEmpty) = false := by
  induction l with
  | nil => simp [afterFirst]
  | cons s l ih =>
    unfold afterFirst
    by_cases hs : rec s v = []
    · have hp := (h s).1 hs
      simp only [List.filter_cons, hp, if_true, hs, List.isEmpty_nil, List.length_cons, Option.some.injEq, exists_eq_left']
      rw [Nat.add_eq_right, List.length_eq_zero_iff, List.filter_eq_nil_iff, List.any_eq_false]
      simp only [List.isEmpty_iff, h]
    · have hp : p s ≠ true := fun q => hs ((h s).2 q)
      simp only [List.filter_cons, hp, List.isEmpty_iff, hs]
      exact ih

theorem keyword_nil {rec : Val → Val → Bool} {recE : Val → Val → List JErr} (h : ∀ s v, recE s v = [] ↔ rec s v = true) (s : VDict) (k : String) (arg v : Val) :
    keywordErrors msg ip6 recE s k arg v = [] ↔ keywordOk ip6 rec s k arg v = true := by
  unfold keywordErrors
  split
  · cases v <;> simp [keywordOk, h]
  · cases v with
    | dict d =>
      simp only [keywordOk, List.flatMap_eq_nil_iff, List.all_eq_true]
      refine forall_congr' fun p => forall_congr' fun _ => ?_
      cases Dict.get? d p.1 <;> simp [h]
    | _ => simp [keywordOk]
  · cases v with
    | dict d =>
      simp only [keywordOk, List.filterMap_eq_nil_iff, List.all_eq_true]
      refine forall_congr' fun p => forall_congr' fun _ => ?_
      cases Dict.has d p <;> simp
    | _ => simp [keywordOk]
  · simp [keywordOk, h]
  · next l =>
    simp only [keywordOk, List.any_eq_true]
    cases e : afterFirst recE v l with
    | none =>
      rw [afterFirst_none] at e
      simp only [reduceCtorEq, false_iff, not_exists, not_and]
      intro x hx hr
      exact e x hx ((h ..).2 hr)
    | some r =>
      simp only [true_iff]
      by_contra hc
      have : afterFirst recE v l = none := afterFirst_none.2 fun x hx hr => hc ⟨x, hx, (h ..).1 hr⟩
      rw [this] at e
      cases e
  · next l =>
    simp only [keywordOk, decide_eq_true_eq]
    rw [one_of (fun s => h s v)]
    cases e : afterFirst recE v l with
    | none => simp
    | some r =>
      simp only [Option.some.injEq, exists_eq_left']
      generalize (r.any fun s => (recE s v).isEmpty) = b
      cases b <;> simp
  · simp only [keywordOk]
    by_cases hn : recE arg v = []
    · simp [hn, (h ..).1 hn]
    · have : rec arg v = false := by
        cases e : rec arg v with
        | false => rfl
        | true => exact absurd ((h ..).2 e) hn
      simp [hn, this]
  · have : keywordOk ip6 (fun _ _ => true) s k arg v = keywordOk ip6 rec s k arg v := by
      by_cases hk : k ∈ ["items", "properties", "allOf", "anyOf", "oneOf", "not"]
      · simp only [List.mem_cons, List.not_mem_nil, or_false] at hk
        rcases hk with rfl | rfl | rfl | rfl | rfl | rfl
        · exfalso; simp_all
        · cases arg <;> first | rfl | (exfalso; simp_all)
        · cases arg <;> first | rfl | (exfalso; simp_all)
        · cases arg <;> first | rfl | (exfalso; simp_all)
        · cases arg <;> first | rfl | (exfalso; simp_all)
        · exfalso; simp_all
      · exact leafKeyword hk
    rw [this]
    cases keywordOk ip6 rec s k arg v <;> simp

/-- there are errors if and only if the value is not valid -/
theorem errors_nil : ∀ (n : Nat) (s v : Val), errors msg ip6 root n s v = [] ↔ valid ip6 root n s v = true
  | 0, _, _ => by simp [errors, valid]
  | n + 1, .dict s, v => by
    rw [errors, valid]
    have hs : (s.flatMap (fun p => keywordErrors msg ip6 (errors msg ip6 root n) s p.1 p.2 v)) = [] ↔
        (s.all fun p => keywordOk ip6 (valid ip6 root n) s p.1 p.2 v) = true := by
      rw [List.flatMap_eq_nil_iff, List.all_eq_true]
      exact forall_congr' fun p => forall_congr' fun _ => keyword_nil (errors_nil n) s p.1 p.2 v
    cases Dict.get? s "$ref" with
    | none => exact hs
    | some r => cases r with
      | str r =>
        change (match resolveRef root r with
          | some t => errors msg ip6 root n t v
          | none => _) = [] ↔ (match resolveRef root r with
          | some t => valid ip6 root n t v
          | none => false) = true
        cases resolveRef root r with
        | none => simp
        | some t => exact errors_nil n t v
      | _ => exact hs
  | n + 1, .none, v => by simp [errors, valid]
  | n + 1, .bool _, v => by simp [errors, valid]
  | n + 1, .int _, v => by simp [errors, valid]
  | n + 1, .str _, v => by simp [errors, valid]
  | n + 1, .list _, v => by simp [errors, valid]

end

/-! ## Specification -/

/-- **Specification.** The error `d` is shown with the schema `a` when `e` is told: the errors of `context` are told as far as there are schemas, each with the schema at the
same place, and each with its own -/
inductive Shown : JErr → Val → JErr → Prop where
  | here {e : JErr} {i : Nat} {a : Val} {d : JErr} (hs : e.schemas[i]? = some a) (hc : e.context[i]? = some d) : Shown e a d
  | deeper {e : JErr} {i : Nat} {b a : Val} {c d : JErr} (hs : e.schemas[i]? = some b) (hc : e.context[i]? = some c) (h : Shown c a d) : Shown e a d

/-- **Specification.** `d` is `e` or in the context of an error within it -/
inductive Within : JErr → JErr → Prop where
  | self (e : JErr) : Within e e
  | deeper {e c d : JErr} (hc : c ∈ e.context) (h : Within c d) : Within e d

/-- **Specification.** Part of a document -/
inductive DocPart : Val → Val → Prop where
  | self (v : Val) : DocPart v v
  | item {x v : Val} {l : List Val} (hx : x ∈ l) (h : DocPart v x) : DocPart v (.list l)
  | entry {x v : Val} {d : VDict} {k : String} (hx : Dict.get? d k = some x) (h : DocPart v x) : DocPart v (.dict d)

/-- **Specification.** What is told of one error: the schema and the message -/
def errorBlock (showSchema : Val → Chars) (y : Val × Chars) : Chars := "\nAgainst schema ".toList ++ showSchema y.1 ++ '\n' :: y.2 ++ ['\n']

/-! ## Proofs -/

theorem listErrorsZip_iff : ∀ {ss : List Val} {es : List JErr} {a : Val} {m : Chars}, (a, m) ∈ listErrorsZip ss es ↔
    ∃ (i : Nat) (b : Val) (c : JErr), ss[i]? = some b ∧ es[i]? = some c ∧ ((a, m) = (b, c.message) ∨ (a, m) ∈ listErrors c)
  | [], _, _, _ => by simp [listErrorsZip]
  | _ :: _, [], _, _ => by simp [listErrorsZip]
  | s :: ss, e :: es, a, m => by
    rw [listErrorsZip, List.mem_cons, List.mem_append, listErrorsZip_iff]
    constructor
    · rintro (h | h | ⟨i, b, c, h1, h2, h3⟩)
      · exact ⟨0, s, e, rfl, rfl, Or.inl h⟩
      · exact ⟨0, s, e, rfl, rfl, Or.inr h⟩
      · exact ⟨i + 1, b, c, h1, h2, h3⟩
    · rintro ⟨i, b, c, h1, h2, h3⟩
      cases i with
      | zero =>
        cases h1; cases h2
        exact h3.imp id Or.inl
      | succ i => exact Or.inr (Or.inr ⟨i, b, c, h1, h2, h3⟩)

theorem listErrors_of_shown {e : JErr} {a : Val} {d : JErr} (h : Shown e a d) : (a, d.message) ∈ listErrors e := by
  induction h with
  | @here e i a d hs hc =>
    obtain ⟨m, ss, es⟩ := e
    rw [listErrors]
    exact listErrorsZip_iff.2 ⟨i, a, d, hs, hc, Or.inl rfl⟩
  | @deeper e i b a c d hs hc h ih =>
    obtain ⟨m, ss, es⟩ := e
    rw [listErrors]
    exact listErrorsZip_iff.2 ⟨i, b, c, hs, hc, Or.inr ih⟩

theorem shown_of_listErrors : ∀ (e : JErr) (a : Val) (m : Chars), (a, m) ∈ listErrors e → ∃ d, Shown e a d ∧ d.message = m
  | .mk msg ss es, a, m, h => by
    rw [listErrors] at h
    obtain ⟨i, b, c, h1, h2, h3⟩ := listErrorsZip_iff.1 h
    rcases h3 with h3 | h3
    · cases h3
      exact ⟨c, .here h1 h2, rfl⟩
    · obtain ⟨d, hd, hm⟩ := shown_of_listErrors c a m h3
      exact ⟨d, .deeper h1 h2 hd, hm⟩
  termination_by e => sizeOf e
  decreasing_by
    have := List.sizeOf_lt_of_mem (List.mem_of_getElem? h2)
    simp_wf
    omega

/-- **C94**, the entries: exactly the errors shown are listed, each with its schema. -/
theorem C94_entries (e : JErr) (a : Val) (m : Chars) : (a, m) ∈ listErrors e ↔ ∃ d, Shown e a d ∧ d.message = m :=
  ⟨shown_of_listErrors e a m, fun ⟨_, h, hm⟩ => hm ▸ listErrors_of_shown h⟩

theorem listErrorsZip_eq : ∀ (ss : List Val) (es : List JErr), listErrorsZip ss es = (ss.zip es).flatMap fun p => (p.1, p.2.message) :: listErrors p.2
  | [], _ => by simp [listErrorsZip]
  | _ :: _, [] => by simp [listErrorsZip]
  | s :: ss, e :: es => by rw [listErrorsZip, listErrorsZip_eq ss es]; rfl

/-- **C94**, the order: the alternatives in their order, each followed by what is told of its own alternatives. -/
theorem C94_order (e : JErr) : listErrors e = (e.schemas.zip e.context).flatMap fun p => (p.1, p.2.message) :: listErrors p.2 := by
  cases e with
  | mk m ss es => rw [listErrors]; exact listErrorsZip_eq ss es

theorem foldl_blocks (f : Val × Chars → Chars) : ∀ (l : List (Val × Chars)) (x : Chars), l.foldl (fun x y => x ++ f y) x = x ++ l.flatMap f
  | [], x => by simp
  | y :: l, x => by rw [List.foldl_cons, foldl_blocks f l, List.flatMap_cons, List.append_assoc]

/-- **C94**, the text: the name of the exception, the error, and a block for each entry. It never fails. -/
theorem C94_text (name : Chars) (showError : JErr → Chars) (showSchema : Val → Chars) (e : JErr) : errorText name showError showSchema (some e) =
    .ok (name ++ ' ' :: showError e ++ '\n' :: (listErrors e).flatMap (errorBlock showSchema)) := by
  unfold errorText
  change Except.ok (if (listErrors e).isEmpty = true then name ++ ' ' :: showError e ++ ['\n']
    else name ++ ' ' :: showError e ++ ['\n'] ++ (listErrors e).foldl (fun x y => x ++ errorBlock showSchema y) []) = _
  rw [foldl_blocks]
  cases listErrors e with
  | nil => simp
  | cons y l => simp

/-- the text of a `ParseError` fails: it has no `details` -/
theorem C94_parse_error (name : Chars) (showError : JErr → Chars) (showSchema : Val → Chars) : errorText name showError showSchema none = .error .attributeError := rfl

section
variable {msg : String → Val → Val → Chars} {ip6 : Ip6} {root : VDict}

/-- **C94**, when there is an error: `validate()` refuses a configuration if and only if the library finds an error, the first of which becomes `details`. -/
theorem C94_details (config : VDict) : (schemaValidate root ip6 config = .error .validation ↔ ∃ e, schemaDetails msg root ip6 config = some e) ∧
    (schemaValidate root ip6 config = .ok () ↔ schemaDetails msg root ip6 config = none) := by
  have h := errors_nil (msg := msg) (ip6 := ip6) (root := root) schemaDepth (.dict root) (.dict config)
  unfold schemaDetails schemaValidate
  cases e : errors msg ip6 root schemaDepth (.dict root) (.dict config) with
  | nil =>
    rw [if_pos (h.1 e)]
    simp
  | cons x l =>
    rw [if_neg (fun hv => by rw [h.2 hv] at e; cases e)]
    simp

theorem DocPart.trans {a b c : Val} (h : DocPart b c) : DocPart a b → DocPart a c := by
  induction h with
  | self => exact id
  | item hx _ ih => exact fun h => .item hx (ih h)
  | entry hx _ ih => exact fun h => .entry hx (ih h)

/-- what is known of an error of a value -/
def Explained (msg : String → Val → Val → Chars) (ip6 : Ip6) (root : VDict) (v : Val) (d : JErr) : Prop :=
  d.context = [] ∨ ∃ n w, DocPart w v ∧ d.context = d.schemas.flatMap (fun a => errors msg ip6 root n a w) ∧ ∀ a ∈ d.schemas, errors msg ip6 root n a w ≠ []

theorem Explained.mono {v w : Val} {d : JErr} (h : Explained msg ip6 root w d) (hp : DocPart w v) : Explained msg ip6 root v d :=
  h.imp id fun ⟨n, x, h1, h2⟩ => ⟨n, x, hp.trans h1, h2⟩

theorem leaf_explained {v : Val} {m : Chars} {l : List Val} {d : JErr} (h : Within (.mk m l []) d) : Explained msg ip6 root v d := by
  cases h with
  | self => exact Or.inl rfl
  | deeper hc => cases hc

theorem keyword_explained {n : Nat} {s : VDict} (ih : ∀ (s v : Val) (e d : JErr), e ∈ errors msg ip6 root n s v → Within e d → Explained msg ip6 root v d)
    {k : String} {arg v : Val} {e d : JErr} (he : e ∈ keywordErrors msg ip6 (errors msg ip6 root n) s k arg v) (hd : Within e d) : Explained msg ip6 root v d := by
  unfold keywordErrors at he
  split at he
  · cases v with
    | list l =>
      obtain ⟨x, hx, he⟩ := List.mem_flatMap.1 he
      exact (ih _ _ _ _ he hd).mono (.item hx (.self _))
    | _ => cases he
  · cases v with
    | dict o =>
      obtain ⟨p, _, he⟩ := List.mem_flatMap.1 he
      cases hx : Dict.get? o p.1 with
      | none => rw [hx] at he; cases he
      | some x =>
        rw [hx] at he
        exact (ih _ _ _ _ he hd).mono (.entry hx (.self _))
    | _ => cases he
  · cases v with
    | dict o =>
      obtain ⟨x, _, he⟩ := List.mem_filterMap.1 he
      split at he
      · cases he
      · cases he
        exact leaf_explained hd
    | _ => cases he
  · obtain ⟨x, _, he⟩ := List.mem_flatMap.1 he
    exact ih _ _ _ _ he hd
  · next l =>
    cases hf : afterFirst (errors msg ip6 root n) v l with
    | some r => rw [hf] at he; cases he
    | none =>
      rw [hf, List.mem_singleton] at he
      subst he
      cases hd with
      | self => exact Or.inr ⟨n, v, .self _, rfl, afterFirst_none.1 hf⟩
      | deeper hc hd =>
        obtain ⟨a, _, hc⟩ := List.mem_flatMap.1 hc
        exact ih _ _ _ _ hc hd
  · next l =>
    cases hf : afterFirst (errors msg ip6 root n) v l with
    | some r =>
      rw [hf] at he
      simp only at he
      split at he
      · rw [List.mem_singleton] at he
        subst he
        exact leaf_explained hd
      · cases he
    | none =>
      rw [hf, List.mem_singleton] at he
      subst he
      cases hd with
      | self => exact Or.inr ⟨n, v, .self _, rfl, afterFirst_none.1 hf⟩
      | deeper hc hd =>
        obtain ⟨a, _, hc⟩ := List.mem_flatMap.1 hc
        exact ih _ _ _ _ hc hd
  · split at he
    · rw [List.mem_singleton] at he
      subst he
      exact leaf_explained hd
    · cases he
  · split at he
    · cases he
    · rw [List.mem_singleton] at he
      subst he
      exact leaf_explained hd

/-- **C94**, what the context is: within an error of a value, an error with a context is about a part of the value that meets none of the alternatives, and the context
are the reasons, those of the first alternative first. -/
theorem C94_context : ∀ (n : Nat) (s v : Val) (e d : JErr), e ∈ errors msg ip6 root n s v → Within e d → d.context = [] ∨
    ∃ n w, DocPart w v ∧ d.context = d.schemas.flatMap (fun a => errors msg ip6 root n a w) ∧ ∀ a ∈ d.schemas, errors msg ip6 root n a w ≠ []
  | 0, s, v, e, d, he, hd => by
    rw [errors, List.mem_singleton] at he
    subst he
    exact leaf_explained hd
  | n + 1, .dict s, v, e, d, he, hd => by
    rw [errors] at he
    have hs : e ∈ (s.flatMap (fun p => keywordErrors msg ip6 (errors msg ip6 root n) s p.1 p.2 v)) → Explained msg ip6 root v d := fun he => by
      obtain ⟨p, _, he⟩ := List.mem_flatMap.1 he
      exact keyword_explained (C94_context n) he hd
    cases hr : Dict.get? s "$ref" with
    | none => rw [hr] at he; exact hs he
    | some r => cases r with
      | str r =>
        rw [hr] at he
        simp only at he
        cases ht : resolveRef root r with
        | none =>
          rw [ht, List.mem_singleton] at he
          subst he
          exact leaf_explained hd
        | some t => rw [ht] at he; exact C94_context n t v e d he hd
      | _ => rw [hr] at he; exact hs he
  | n + 1, .none, v, e, d, he, hd => by rw [errors, List.mem_singleton] at he; subst he; exact leaf_explained hd; intro _ h; cases h
  | n + 1, .bool _, v, e, d, he, hd => by rw [errors, List.mem_singleton] at he; subst he; exact leaf_explained hd; intro _ h; cases h
  | n + 1, .int _, v, e, d, he, hd => by rw [errors, List.mem_singleton] at he; subst he; exact leaf_explained hd; intro _ h; cases h
  | n + 1, .str _, v, e, d, he, hd => by rw [errors, List.mem_singleton] at he; subst he; exact leaf_explained hd; intro _ h; cases h
  | n + 1, .list _, v, e, d, he, hd => by rw [errors, List.mem_singleton] at he; subst he; exact leaf_explained hd; intro _ h; cases h

end

theorem length_le_flatMap {α β : Type} (f : α → List β) : ∀ {l : List α}, (∀ a ∈ l, f a ≠ []) → l.length ≤ (l.flatMap f).length
  | [], _ => by simp
  | a :: l, h => by
    have h1 := List.length_pos_iff.2 (h a (List.mem_cons_self ..))
    have h2 := length_le_flatMap f (l := l) fun b hb => h b (List.mem_cons_of_mem _ hb)
    rw [List.flatMap_cons, List.length_append, List.length_cons]
    omega

theorem singles_flatMap {α β : Type} (f : α → List β) : ∀ {l : List α} {i : Nat} {a : α} {b : β}, (∀ a ∈ l, (f a).length = 1) → l[i]? = some a →
    (l.flatMap f)[i]? = some b → b ∈ f a
  | [], _, _, _, _, h, _ => by simp at h
  | x :: l, i, a, b, h, h1, h2 => by
    obtain ⟨y, hy⟩ := List.length_eq_one_iff.1 (h x (List.mem_cons_self ..))
    rw [List.flatMap_cons, hy] at h2
    cases i with
    | zero =>
      cases h1; cases h2
      rw [hy]
      exact List.mem_cons_self ..
    | succ i => exact singles_flatMap f (fun b hb => h b (List.mem_cons_of_mem _ hb)) h1 h2

section
variable {msg : String → Val → Val → Chars} {ip6 : Ip6} {root : VDict}

/-- **C94**, every alternative is named: within an error of a value, an error with a context shows an error with each of its alternatives. -/
theorem C94_named {n : Nat} {s v : Val} {e d : JErr} (he : e ∈ errors msg ip6 root n s v) (hd : Within e d) (hc : d.context ≠ []) (i : Nat) (a : Val)
    (ha : d.schemas[i]? = some a) : ∃ c, d.context[i]? = some c ∧ Shown d a c := by
  rcases C94_context n s v e d he hd with h | ⟨m, w, -, h1, h2⟩
  · exact absurd h hc
  · have hl := length_le_flatMap (fun a => errors msg ip6 root m a w) h2
    rw [← h1] at hl
    have hi : i < d.schemas.length := (List.getElem?_eq_some_iff.1 ha).1
    exact ⟨d.context[i], List.getElem?_eq_getElem _, .here ha (List.getElem?_eq_getElem (by omega))⟩

/-- **C94**, with its own reason: if each of the alternatives fails for one reason, what is shown directly with an alternative is its own reason; with the first alternative
its first reason is shown in any case. -/
theorem C94_own {n : Nat} {s v : Val} {e d : JErr} (he : e ∈ errors msg ip6 root n s v) (hd : Within e d) (hc : d.context ≠ []) :
    ∃ m w, DocPart w v ∧ (∀ a ∈ d.schemas, errors msg ip6 root m a w ≠ []) ∧
      (∀ (a : Val) (c : JErr), d.schemas[0]? = some a → d.context[0]? = some c → (errors msg ip6 root m a w)[0]? = some c) ∧
      ((∀ a ∈ d.schemas, (errors msg ip6 root m a w).length = 1) →
        d.context.length = d.schemas.length ∧ ∀ (i : Nat) (a : Val) (c : JErr), d.schemas[i]? = some a → d.context[i]? = some c → c ∈ errors msg ip6 root m a w) := by
  rcases C94_context n s v e d he hd with h | ⟨m, w, hp, h1, h2⟩
  · exact absurd h hc
  · refine ⟨m, w, hp, h2, ?_, fun h3 => ⟨?_, ?_⟩⟩
    · intro a c ha hc
      cases hs : d.schemas with
      | nil => rw [hs] at ha; cases ha
      | cons x l =>
        rw [hs] at ha h1
        cases ha
        rw [h1, List.flatMap_cons] at hc
        cases hx : errors msg ip6 root m a w with
        | nil => exact absurd hx (h2 a (by rw [hs]; exact List.mem_cons_self ..))
        | cons y r =>
          rw [hx] at hc
          exact hc
    · rw [h1, List.length_flatMap]
      rw [List.map_congr_left h3]
      simp
    · intro i a c ha hc
      rw [h1] at hc
      exact singles_flatMap (fun a => errors msg ip6 root m a w) h3 ha hc

end

end NJ
