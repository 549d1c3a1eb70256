import Verif.VarsLemmas

/-!
# Properties C13–C18: evaluation of configuration variables

`reprC` (the text Python gives to a list or dict used as a context value) is arbitrary in every theorem.
-/

set_option linter.unusedSimpArgs false
set_option linter.unusedVariables false

namespace NJ

/-! ## Specification -/

mutual
/-- the string values of a structure (keys excluded) -/
def strings : Val → List Chars
  | .str s => [s.toList]
  | .list l => stringsL l
  | .dict d => stringsD d
  | _ => []
  termination_by structural v => v
def stringsL : List Val → List Chars
  | [] => []
  | v :: r => strings v ++ stringsL r
  termination_by structural v => v
def stringsD : List (String × Val) → List Chars
  | [] => []
  | (_, v) :: r => strings v ++ stringsD r
  termination_by structural v => v
end

mutual
/-- the structure with every string value `s` replaced by `f s`; keys, order and all other values kept -/
def mapStr (f : Chars → Chars) : Val → Val
  | .str s => .str (String.ofList (f s.toList))
  | .list l => .list (mapStrL f l)
  | .dict d => .dict (mapStrD f d)
  | .none => .none
  | .bool b => .bool b
  | .int i => .int i
  termination_by structural v => v
def mapStrL (f : Chars → Chars) : List Val → List Val
  | [] => []
  | v :: r => mapStr f v :: mapStrL f r
  termination_by structural v => v
def mapStrD (f : Chars → Chars) : List (String × Val) → List (String × Val)
  | [] => []
  | (k, v) :: r => (k, mapStr f v) :: mapStrD f r
  termination_by structural v => v
end

/-- the text that stands for the variable `name` in a context -/
def ctxText (reprC : Val → String) (ctx : VDict) (name : Chars) : Option Chars :=
  (Dict.get? ctx (String.ofList name)).map (fun v => (pyStr reprC v).toList)

/-- simultaneous, literal replacement: what a user expects -/
def expand (reprC : Val → String) (ctx : VDict) (ts : List VTok) : Chars :=
  ts.flatMap (fun t => match t with
    | .inl c => [c]
    | .inr p => match ctxText reprC ctx p.name with
      | some v => v
      | none => p.text)

/-! ## C13 -/

mutual
theorem mapStr_id : ∀ v, mapStr id v = v
  | .str s => by simp [mapStr]
  | .list l => by simp [mapStr, mapStrL_id l]
  | .dict d => by simp [mapStr, mapStrD_id d]
  | .none => rfl
  | .bool _ => rfl
  | .int _ => rfl
theorem mapStrL_id : ∀ v, mapStrL id v = v
  | [] => rfl
  | v :: r => by simp [mapStrL, mapStr_id v, mapStrL_id r]
theorem mapStrD_id : ∀ v, mapStrD id v = v
  | [] => rfl
  | (k, v) :: r => by simp [mapStrD, mapStr_id v, mapStrD_id r]
end

mutual
theorem evalVars_iff {reprC ctx} (f : Chars → Except PyErr Chars) (hf : ∀ s, f s = evalStr reprC ctx s) :
    ∀ v, (∀ s ∈ strings v, ∃ t, f s = .ok t) →
      evalVars reprC ctx v = .ok (mapStr (fun s => (f s).toOption.getD s) v)
  | .str s, h => by
    obtain ⟨t, ht⟩ := h s.toList (by simp [strings])
    simp only [evalVars, ← hf, ht, mapStr]; rfl
  | .list l, h => by
    simp only [evalVars, evalVarsL_iff f hf l (by simpa [strings] using h), mapStr]; rfl
  | .dict d, h => by
    simp only [evalVars, evalVarsD_iff f hf d (by simpa [strings] using h), mapStr]; rfl
  | .none, _ => rfl
  | .bool _, _ => rfl
  | .int _, _ => rfl
theorem evalVarsL_iff {reprC ctx} (f : Chars → Except PyErr Chars) (hf : ∀ s, f s = evalStr reprC ctx s) :
    ∀ v, (∀ s ∈ stringsL v, ∃ t, f s = .ok t) →
      evalVarsL reprC ctx v = .ok (mapStrL (fun s => (f s).toOption.getD s) v)
  | [], _ => rfl
  | v :: r, h => by
    simp only [evalVarsL, evalVars_iff f hf v (fun s hs => h s (by simp [stringsL, hs])),
      evalVarsL_iff f hf r (fun s hs => h s (by simp [stringsL, hs])), mapStrL]; rfl
theorem evalVarsD_iff {reprC ctx} (f : Chars → Except PyErr Chars) (hf : ∀ s, f s = evalStr reprC ctx s) :
    ∀ v, (∀ s ∈ stringsD v, ∃ t, f s = .ok t) →
      evalVarsD reprC ctx v = .ok (mapStrD (fun s => (f s).toOption.getD s) v)
  | [], _ => rfl
  | (k, v) :: r, h => by
    simp only [evalVarsD, evalVars_iff f hf v (fun s hs => h s (by simp [stringsD, hs])),
      evalVarsD_iff f hf r (fun s hs => h s (by simp [stringsD, hs])), mapStrD]; rfl
end

mutual
theorem evalVars_ok_all {reprC ctx} : ∀ v r, evalVars reprC ctx v = .ok r → ∀ s ∈ strings v, ∃ t, evalStr reprC ctx s = .ok t
  | .str s, r, h => by
    intro x hx; simp [strings] at hx; subst hx
    simp only [evalVars] at h
    obtain ⟨y, hy, _⟩ := bind_ok_iff.1 h
    exact ⟨y, hy⟩
  | .list l, r, h => by
    intro x hx
    simp only [evalVars] at h
    obtain ⟨y, hy, _⟩ := bind_ok_iff.1 h
    exact evalVarsL_ok_all l y hy x (by simpa [strings] using hx)
  | .dict d, r, h => by
    intro x hx
    simp only [evalVars] at h
    obtain ⟨y, hy, _⟩ := bind_ok_iff.1 h
    exact evalVarsD_ok_all d y hy x (by simpa [strings] using hx)
  | .none, _, _ => by simp [strings]
  | .bool _, _, _ => by simp [strings]
  | .int _, _, _ => by simp [strings]
theorem evalVarsL_ok_all {reprC ctx} : ∀ v r, evalVarsL reprC ctx v = .ok r → ∀ s ∈ stringsL v, ∃ t, evalStr reprC ctx s = .ok t
  | [], _, _ => by simp [stringsL]
  | v :: r, x, h => by
    simp only [evalVarsL] at h
    obtain ⟨y, hy, h⟩ := bind_ok_iff.1 h
    obtain ⟨ys, hys, h⟩ := bind_ok_iff.1 h
    intro s hs
    simp only [stringsL, List.mem_append] at hs
    rcases hs with hs | hs
    · exact evalVars_ok_all v y hy s hs
    · exact evalVarsL_ok_all r ys hys s hs
theorem evalVarsD_ok_all {reprC ctx} : ∀ v r, evalVarsD reprC ctx v = .ok r → ∀ s ∈ stringsD v, ∃ t, evalStr reprC ctx s = .ok t
  | [], _, _ => by simp [stringsD]
  | (k, v) :: r, x, h => by
    simp only [evalVarsD] at h
    obtain ⟨y, hy, h⟩ := bind_ok_iff.1 h
    obtain ⟨ys, hys, h⟩ := bind_ok_iff.1 h
    intro s hs
    simp only [stringsD, List.mem_append] at hs
    rcases hs with hs | hs
    · exact evalVars_ok_all v y hy s hs
    · exact evalVarsD_ok_all r ys hys s hs
end

/-- C13: a successful evaluation maps every string value to its own evaluation and
keeps everything else (keys, their order, list lengths, numbers, booleans, nulls). -/
theorem C13_only_strings (reprC : Val → String) (ctx : VDict) (v r : Val) (h : evalVars reprC ctx v = .ok r) :
    ∃ f : Chars → Chars, (∀ s ∈ strings v, evalStr reprC ctx s = .ok (f s)) ∧ r = mapStr f v := by
  have ha := evalVars_ok_all v r h
  have := evalVars_iff (reprC := reprC) (ctx := ctx) (evalStr reprC ctx) (fun _ => rfl) v ha
  rw [h] at this
  refine ⟨_, ?_, Except.ok.inj this⟩
  intro s hs
  obtain ⟨t, ht⟩ := ha s hs
  simp [ht, Except.toOption]

/-- C13: evaluation can only fail because the evaluation of one of its strings fails. -/
theorem C13_fails_only_for_a_string (reprC : Val → String) (ctx : VDict) (v : Val) :
    (∃ r, evalVars reprC ctx v = .ok r) ↔ ∀ s ∈ strings v, ∃ t, evalStr reprC ctx s = .ok t :=
  ⟨fun ⟨r, h⟩ => evalVars_ok_all v r h, fun h => ⟨_, evalVars_iff (evalStr reprC ctx) (fun _ => rfl) v h⟩⟩

example : evalVars (fun _ => "") [("n", .int 5)]
    (.dict [("{{n}}", .list [.str "a{{ n }}b", .int 7, .bool true]), ("x", .none)])
    = .ok (.dict [("{{n}}", .list [.str "a5b", .int 7, .bool true]), ("x", .none)]) := by rfl

/-! ## C14 -/

theorem foldlM_pure_none {reprC ctx} (multi : Bool) (l : List Chars) (s : Chars)
    (h : ∀ n ∈ l, Dict.get? ctx (String.ofList (strip n)) = none) :
    l.foldlM (fun data var =>
      match Dict.get? ctx (String.ofList (strip var)) with
      | some v => subVar multi (strip var) (pyStr reprC v).toList data
      | none => (pure data : Except PyErr Chars)) s = .ok s := by
  induction l with
  | nil => rfl
  | cons n l ih =>
    rw [List.foldlM_cons, h n (by simp)]
    exact ih (fun m hm => h m (by simp [hm]))

/-- the names between the double braces of a text, as the code finds them -/
theorem findVars_eq (s : Chars) : findVars s = (vtokens s).filterMap (fun t => match t with | .inr p => some p.name | .inl _ => none) := rfl

/-- C14: if no placeholder of the text is defined in the context, the text is unchanged. A
placeholder is an occurrence of `{{`, white space, word characters, white space, `}}` in the text. -/
theorem C14_unknown_unchanged (reprC : Val → String) (ctx : VDict) (s : Chars)
    (h : ∀ p : Ph, PhWF p → p.text <:+: s → Dict.get? ctx (String.ofList p.name) = none) :
    evalStr reprC ctx s = .ok s := by
  refine foldlM_pure_none _ _ _ ?_
  intro n hn
  simp only [findVars, List.mem_filterMap] at hn
  obtain ⟨t, ht, hn⟩ := hn
  cases t with
  | inl c => cases hn
  | inr p =>
    simp only [Option.some.injEq] at hn
    subst hn
    have hw := vtokens_wf ht
    rw [name_strip hw]
    refine h p hw ?_
    obtain ⟨a, b, hab⟩ := List.append_of_mem ht
    refine ⟨renderToks a, renderToks b, ?_⟩
    have e := vtokens_render s
    rw [hab] at e
    rw [← e]
    simp [renderToks]

/-- C14: a text without `{{` is unchanged. -/
theorem C14_plain_unchanged (reprC : Val → String) (ctx : VDict) (s : Chars)
    (h : ¬ ['{', '{'] <:+: s) : evalStr reprC ctx s = .ok s := by
  refine C14_unknown_unchanged reprC ctx s ?_
  intro p _ hp
  exfalso
  apply h
  refine List.IsInfix.trans ?_ hp
  exact ⟨[], p.inner ++ ['}', '}'], by simp [Ph.text]⟩

example : evalStr (fun _ => "") [("b", .str "X")] "{{ a }} and {b}".toList = .ok "{{ a }} and {b}".toList := by rfl

/-! ## C15 -/

theorem expand_eq {reprC ctx} (ts : List VTok) : expand reprC ctx ts = renderToks (substToks (ctxText reprC ctx) ts) :=
  (renderToks_substToks _ _).symm

theorem substToks_mem {f p} {ts : List VTok} (h : Sum.inr p ∈ substToks f ts) : Sum.inr p ∈ ts ∧ f p.name = none := by
  simp only [substToks, List.mem_flatMap] at h
  obtain ⟨t, ht, hp⟩ := h
  cases t with
  | inl c => simp at hp
  | inr q =>
    simp only at hp
    split at hp
    · simp at hp
    · next hq => simp at hp; subst hp; exact ⟨ht, hq⟩

theorem foldlM_subst {reprC ctx} (multi : Bool) (l : List Chars) (ts : List VTok) (hw : ∀ p, .inr p ∈ ts → PhWF p)
    (hd : noDD (litText ts) = true)
    (hl : ∀ n ∈ l, strip n = n)
    (hv : ∀ n v, ctxText reprC ctx n = some v → n ∈ l → '{' ∉ v ∧ '\\' ∉ v)
    (hm : multi = false → ∀ n ∈ l, ∀ p, .inr p ∈ ts → p.name = n) :
    l.foldlM (fun data var =>
      match Dict.get? ctx (String.ofList (strip var)) with
      | some v => subVar multi (strip var) (pyStr reprC v).toList data
      | none => (pure data : Except PyErr Chars)) (renderToks ts) =
    .ok (renderToks (substToks (fun x => if x ∈ l then ctxText reprC ctx x else none) ts)) := by
  induction l generalizing ts with
  | nil =>
    simp only [List.foldlM_nil, List.not_mem_nil, if_false]
    have : substToks (fun _ => none) ts = ts := by
      induction ts with
      | nil => rfl
      | cons t ts ih =>
        rw [substToks_cons, ih (fun p hp => hw p (by simp [hp]))]
        · cases t <;> rfl
        · cases t with
          | inl c => exact noDD_tail (c := c) (by simpa [litText] using hd)
          | inr p => simpa [litText] using hd
        · intro h; simp
    rw [this]; rfl
  | cons n l ih =>
    have hn : strip n = n := hl n (by simp)
    rw [List.foldlM_cons, hn]
    cases hc : Dict.get? ctx (String.ofList n) with
    | none =>
      show List.foldlM _ (renderToks ts) l = _
      rw [ih ts hw hd (fun m hm => hl m (by simp [hm])) (fun m v h1 h2 => hv m v h1 (by simp [h2]))
        (fun h m hm' => hm h m (by simp [hm']))]
      congr 2
      refine substToks_congr ?_
      intro p hp
      by_cases e : p.name = n
      · have : ctxText reprC ctx n = none := by simp [ctxText, hc]
        simp [e, this]
      · simp [e]
    | some v =>
      have hcn : ctxText reprC ctx n = some (pyStr reprC v).toList := by simp [ctxText, hc]
      obtain ⟨v1, v2⟩ := hv n _ hcn (by simp)
      have h1 := subVar_clean (multi := multi) (name := n) hw hd v2 (fun h p hp => hm h n (by simp) p hp)
      rw [bind_ok_iff]
      refine ⟨_, h1, ?_⟩
      rw [ih _ (substToks_wf hw) (substToks_noDD (by
          intro p w hp hpw
          by_cases e : p.name = n
          · rw [if_pos e] at hpw; cases hpw; exact v1
          · rw [if_neg e] at hpw; cases hpw) hd).1 (fun m hm => hl m (by simp [hm])) (fun m v h1 h2 => hv m v h1 (by simp [h2]))
          (fun h m hm' p hp => hm h m (by simp [hm']) p (substToks_mem hp).1)]
      rw [substToks_comp]
      congr 2
      refine substToks_congr ?_
      intro p hp
      by_cases e : p.name = n
      · simp [e, hcn]
      · simp [e]

/-- C15, for an arbitrary text: if the context values used contain neither `{` nor a backslash, and
removing the placeholders from the text leaves no `{{`, every placeholder defined in the
context is replaced by the text of its value, simultaneously, and nothing else changes. -/
theorem C15_literal_simultaneous (reprC : Val → String) (ctx : VDict) (ts : List VTok)
    (hw : ∀ p, .inr p ∈ ts → PhWF p)
    (hd : ¬ ['{', '{'] <:+: litText ts)
    (hv : ∀ p v, .inr p ∈ ts → ctxText reprC ctx p.name = some v → '{' ∉ v ∧ '\\' ∉ v) :
    evalStr reprC ctx (renderToks ts) = .ok (expand reprC ctx ts) := by
  have hd' : noDD (litText ts) = true := by
    generalize litText ts = l at hd
    induction l with
    | nil => rfl
    | cons c l ih =>
      simp only [noDD, Bool.and_eq_true, Bool.not_eq_eq_eq_not, Bool.not_true, Bool.and_eq_false_iff, beq_eq_false_iff_ne, ne_eq]
      refine ⟨?_, ih (fun h => hd (h.trans (List.infix_cons (List.infix_refl _))))⟩
      by_cases hc : c = '{'
      · right
        intro h
        cases l with
        | nil => cases h
        | cons x xs => simp at h; subst hc; subst h; exact hd ⟨[], xs, rfl⟩
      · exact .inl hc
  unfold evalStr
  have hvt := vtokens_of_clean ts hw hd'
  have hf : ∀ n, n ∈ findVars (renderToks ts) ↔ ∃ p, Sum.inr p ∈ ts ∧ p.name = n := by
    intro n
    rw [findVars, hvt, List.mem_filterMap]
    constructor
    · rintro ⟨t, ht, hn⟩
      cases t with
      | inl c => cases hn
      | inr p => simp at hn; exact ⟨p, ht, hn⟩
    · rintro ⟨p, hp, rfl⟩
      exact ⟨_, hp, rfl⟩
  have := foldlM_subst (reprC := reprC) (ctx := ctx) (decide ((findVars (renderToks ts)).length > 1)) (findVars (renderToks ts)) ts hw hd'
    (by
      intro n hn
      obtain ⟨p, hp, rfl⟩ := (hf n).1 hn
      exact name_strip (hw p hp))
    (by
      intro n v hnv hn
      obtain ⟨p, hp, rfl⟩ := (hf n).1 hn
      exact hv p v hp hnv)
    (by
      intro hlen n hn p hp
      have hpn := (hf p.name).2 ⟨p, hp, rfl⟩
      generalize findVars (renderToks ts) = l at hlen hn hpn
      match l, hlen, hn, hpn with
      | [x], _, hn, hpn => simp at hn hpn; rw [hn, hpn]
      | _ :: _ :: _, hlen, _, _ => simp at hlen)
  refine this.trans ?_
  rw [expand_eq]
  congr 2
  refine substToks_congr ?_
  intro p hp
  rw [if_pos ((hf _).2 ⟨p, hp, rfl⟩)]

/-- C15, for every text: the same with the pieces the code finds. -/
theorem C15_every_text (reprC : Val → String) (ctx : VDict) (s : Chars)
    (hd : ¬ ['{', '{'] <:+: litText (vtokens s))
    (hv : ∀ p v, .inr p ∈ vtokens s → ctxText reprC ctx p.name = some v → '{' ∉ v ∧ '\\' ∉ v) :
    evalStr reprC ctx s = .ok (expand reprC ctx (vtokens s)) := by
  have := C15_literal_simultaneous reprC ctx (vtokens s) (fun p hp => vtokens_wf hp) hd hv
  rwa [vtokens_render] at this

/-- C15: the text of a context value: a string is itself, an integer is its decimal
form (reading it back gives the integer), booleans and null are `True`, `False`, `None`. -/
theorem C15_value_text (reprC : Val → String) :
    (∀ s, pyStr reprC (.str s) = s) ∧ (∀ i, parseInt (pyStr reprC (.int i)).toList = some i) ∧
    pyStr reprC (.bool true) = "True" ∧ pyStr reprC (.bool false) = "False" ∧ pyStr reprC .none = "None" :=
  ⟨fun _ => rfl, fun i => by simpa [pyStr] using parseInt_showInt i, rfl, rfl, rfl⟩

/-- a text meeting the hypotheses -/
example : vtokens "x{{a}}-{{ b }}{{c}}{".toList =
    [.inl 'x', .inr ⟨['a'], ['a']⟩, .inl '-', .inr ⟨['b'], [' ', 'b', ' ']⟩, .inr ⟨['c'], ['c']⟩, .inl '{'] := by rfl
example : evalStr (fun _ => "") [("a", .str "1}"), ("b", .bool true)] "x{{a}}-{{ b }}{{c}}{".toList
    = .ok "x1}-True{{c}}{".toList := by rfl

/-- C15, boundary: a value that is itself a placeholder is expanded again when the text has several placeholders. -/
theorem C15_needs_brace_free : evalStr (fun _ => "") [("a", .str "{{b}}"), ("b", .str "2")] "{{a}}{{b}}".toList
    = .ok "22".toList := by rfl
/-- C15, boundary: backslashes of values are interpreted by the regular expression engine, or make it fail. -/
theorem C15_needs_backslash_free :
    evalStr (fun _ => "") [("a", .str "x\\ny")] "{{a}}".toList = .ok "x\ny".toList ∧
    evalStr (fun _ => "") [("a", .str "\\d")] "{{a}}".toList = .error .reError := by
  constructor <;> rfl
/-- C15, boundary: nested braces: a replaced variable can complete a new placeholder. -/
theorem C15_needs_no_leftover_braces : evalStr (fun _ => "") [("a", .str "b"), ("b", .str "2")] "{{ {{a}} }} {{b}}".toList
    = .ok "2 2".toList := by rfl

/-! ## C16 -/

/-- a piece without the white space around names -/
def dropSpace : VTok → Char ⊕ Chars
  | .inl c => .inl c
  | .inr p => .inr p.name

/-- C16: two texts that differ only in the white space inside the braces of defined variables have the same evaluation. -/
theorem C16_space_irrelevant (reprC : Val → String) (ctx : VDict) (ts ts' : List VTok)
    (hsame : ts.map dropSpace = ts'.map dropSpace)
    (hw : ∀ p, .inr p ∈ ts → PhWF p) (hw' : ∀ p, .inr p ∈ ts' → PhWF p)
    (hd : ¬ ['{', '{'] <:+: litText ts)
    (hdef : ∀ p, .inr p ∈ ts → ∃ v, ctxText reprC ctx p.name = some v ∧ '{' ∉ v ∧ '\\' ∉ v) :
    evalStr reprC ctx (renderToks ts) = evalStr reprC ctx (renderToks ts') := by
  have hlit : ∀ a b : List VTok, a.map dropSpace = b.map dropSpace → litText a = litText b := by
    intro a
    induction a with
    | nil => intro b h; cases b with | nil => rfl | cons _ _ => simp at h
    | cons x xs ih =>
      intro b h
      cases b with
      | nil => simp at h
      | cons y ys =>
        simp only [List.map_cons, List.cons.injEq] at h
        have := ih ys h.2
        cases x <;> cases y <;> simp_all [dropSpace, litText]
  have hmem : ∀ p, Sum.inr p ∈ ts' → ∃ q, Sum.inr q ∈ ts ∧ q.name = p.name := by
    intro p hp
    have : Sum.inr p.name ∈ ts'.map dropSpace := List.mem_map.2 ⟨_, hp, rfl⟩
    rw [← hsame] at this
    obtain ⟨t, ht, e⟩ := List.mem_map.1 this
    cases t with
    | inl c => simp [dropSpace] at e
    | inr q => simp [dropSpace] at e; exact ⟨q, ht, e⟩
  rw [C15_literal_simultaneous reprC ctx ts hw hd, C15_literal_simultaneous reprC ctx ts' hw' (hlit _ _ hsame ▸ hd)]
  · congr 1
    clear hw hw' hd hmem hlit
    induction ts generalizing ts' with
    | nil => cases ts' with | nil => rfl | cons _ _ => simp at hsame
    | cons x xs ih =>
      cases ts' with
      | nil => simp at hsame
      | cons y ys =>
        simp only [List.map_cons, List.cons.injEq] at hsame
        simp only [expand, List.flatMap_cons] at ih ⊢
        rw [ih ys hsame.2 (fun p hp => hdef p (by simp [hp]))]
        congr 1
        have h1 := hsame.1
        cases x with
        | inl c => cases y with
          | inl c' => simp [dropSpace] at h1; simp [h1]
          | inr q => simp [dropSpace] at h1
        | inr p => cases y with
          | inl c' => simp [dropSpace] at h1
          | inr q =>
            simp only [dropSpace, Sum.inr.injEq] at h1
            obtain ⟨v, hv, _⟩ := hdef p (by simp)
            have hv' := hv
            rw [h1] at hv'
            simp only [hv, hv']
  · intro p v hp hv
    obtain ⟨q, hq, e⟩ := hmem p hp
    obtain ⟨w, hw, h⟩ := hdef q hq
    rw [e, hv] at hw; cases hw; exact h
  · intro p v hp hv
    obtain ⟨w, hw, h⟩ := hdef p hp
    rw [hv] at hw; cases hw; exact h

example : evalStr (fun _ => "") [("a", .int 1)] "{{a}}".toList = evalStr (fun _ => "") [("a", .int 1)] "{{ \t a  }}".toList := by rfl

/-! ## C17 -/

/-- C17: no context or an empty one leaves the whole configuration unchanged. -/
theorem C17_no_context (reprC : Val → String) (config : VDict) :
    evaluateConfig reprC none config = .ok config ∧ evaluateConfig reprC (some []) config = .ok config := ⟨rfl, rfl⟩

/-- C17: `evaluate_vars` itself changes nothing when the context is empty, or defines none of the variables used. -/
theorem C17_irrelevant_context (reprC : Val → String) (ctx : VDict) (v : Val)
    (h : ∀ s ∈ strings v, ∀ p : Ph, PhWF p → p.text <:+: s → Dict.get? ctx (String.ofList p.name) = none) :
    evalVars reprC ctx v = .ok v := by
  have hs : ∀ s ∈ strings v, evalStr reprC ctx s = .ok s := fun s hs => C14_unknown_unchanged reprC ctx s (h s hs)
  obtain ⟨r, hr⟩ := (C13_fails_only_for_a_string reprC ctx v).2 (fun s hs' => ⟨s, hs s hs'⟩)
  obtain ⟨f, hf, rfl⟩ := C13_only_strings reprC ctx v r hr
  have hid : ∀ s ∈ strings v, f s = s := fun s h => by
    have := hf s h; rw [hs s h] at this; exact (Except.ok.inj this).symm
  rw [hr]
  congr 1
  clear hr hs h hf
  revert hid
  let P : Val → Prop := fun v => (∀ s ∈ strings v, f s = s) → mapStr f v = v
  have : (∀ v, P v) := by
    intro v
    induction v using Val.induct with
    | hn => intro _; rfl
    | hb b => intro _; rfl
    | hi i => intro _; rfl
    | hs s => intro h; simp [mapStr, h s.toList (by simp [strings])]
    | hl l ih =>
      intro h
      simp only [mapStr, Val.list.injEq]
      simp only [strings] at h
      induction l with
      | nil => rfl
      | cons x xs ihl =>
        simp only [mapStrL, List.cons.injEq]
        exact ⟨ih x (by simp) (fun s hs => h s (by simp [stringsL, hs])),
          ihl (fun y hy => ih y (by simp [hy])) (fun s hs => h s (by simp [stringsL, hs]))⟩
    | hd d ih =>
      intro h
      simp only [mapStr, Val.dict.injEq]
      simp only [strings] at h
      induction d with
      | nil => rfl
      | cons x xs ihl =>
        obtain ⟨k, x⟩ := x
        simp only [mapStrD, List.cons.injEq, Prod.mk.injEq, true_and]
        exact ⟨ih (k, x) (by simp) (fun s hs => h s (by simp [stringsD, hs])),
          ihl (fun y hy => ih y (by simp [hy])) (fun s hs => h s (by simp [stringsD, hs]))⟩
  exact this v

/-! ## C18 -/

/-- C18: under the conditions of C15, evaluating the result again changes nothing. -/
theorem C18_idempotent (reprC : Val → String) (ctx : VDict) (s r : Chars)
    (hd : ¬ ['{', '{'] <:+: litText (vtokens s))
    (hv : ∀ p v, .inr p ∈ vtokens s → ctxText reprC ctx p.name = some v → '{' ∉ v ∧ '\\' ∉ v)
    (h : evalStr reprC ctx s = .ok r) : evalStr reprC ctx r = .ok r := by
  rw [C15_every_text reprC ctx s hd hv] at h
  cases h
  rw [expand_eq]
  have hd' : noDD (litText (vtokens s)) = true := by
    generalize litText (vtokens s) = l at hd
    induction l with
    | nil => rfl
    | cons c l ih =>
      simp only [noDD, Bool.and_eq_true, Bool.not_eq_eq_eq_not, Bool.not_true, Bool.and_eq_false_iff, beq_eq_false_iff_ne, ne_eq]
      refine ⟨?_, ih (fun h => hd (h.trans (List.infix_cons (List.infix_refl _))))⟩
      by_cases hc : c = '{'
      · right
        intro h
        cases l with
        | nil => cases h
        | cons x xs => simp at h; subst hc; subst h; exact hd ⟨[], xs, rfl⟩
      · exact .inl hc
  have hclean := (substToks_noDD (f := ctxText reprC ctx) (ts := vtokens s) (fun p v hp h => (hv p v hp h).1) hd').1
  have hwf := substToks_wf (f := ctxText reprC ctx) (ts := vtokens s) (fun p hp => vtokens_wf hp)
  refine foldlM_pure_none _ _ _ ?_
  intro n hn
  rw [findVars, vtokens_of_clean _ hwf hclean, List.mem_filterMap] at hn
  obtain ⟨t, ht, hn⟩ := hn
  cases t with
  | inl c => cases hn
  | inr p =>
    simp only [Option.some.injEq] at hn
    subst hn
    have := (substToks_mem ht).2
    rw [name_strip (hwf p ht)]
    simpa [ctxText] using this

example : evalStr (fun _ => "") [("a", .str "x")] "{{a}} {{z}}".toList = .ok "x {{z}}".toList := by rfl
/-- C18, boundary: with braces in the values the second evaluation can change the text. -/
theorem C18_needs_brace_free : evalStr (fun _ => "") [("a", .str "{{b}}"), ("b", .str "2")] "{{a}}".toList = .ok "{{b}}".toList ∧
    evalStr (fun _ => "") [("a", .str "{{b}}"), ("b", .str "2")] "{{b}}".toList = .ok "2".toList := by
  constructor <;> rfl

end NJ
