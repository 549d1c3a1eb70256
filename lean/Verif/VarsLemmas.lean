import Verif.Vars
import Verif.MergeLemmas

/-! Helper lemmas about variable evaluation. -/

set_option linter.unusedSimpArgs false

namespace NJ

/-- the text of a list of pieces -/
def renderToks (ts : List VTok) : Chars := ts.flatMap (fun t => match t with | .inl c => [c] | .inr p => p.text)

/-- the literal text of a list of pieces (placeholders removed) -/
def litText (ts : List VTok) : Chars := ts.filterMap (fun t => match t with | .inl c => some c | .inr _ => none)

/-- a placeholder is white space, a name, white space -/
def PhWF (p : Ph) : Prop :=
  ∃ a b, p.inner = a ++ p.name ++ b ∧ a.all isSpace = true ∧ p.name.all isWord = true ∧ b.all isSpace = true ∧
    (p.name = [] → b = [])

/-- no two adjacent `{` -/
def noDD : Chars → Bool
  | [] => true
  | c :: r => !(c == '{' && r.head? == some '{') && noDD r

theorem takeWhile_append_of_all {α} (p : α → Bool) (a b : List α) (ha : a.all p = true)
    (hb : ∀ c, b.head? = some c → p c = false) : (a ++ b).takeWhile p = a ∧ (a ++ b).dropWhile p = b := by
  induction a with
  | nil =>
    cases b with
    | nil => simp
    | cons c cs => simp [hb c rfl]
  | cons x xs ih =>
    simp only [List.all_cons, Bool.and_eq_true] at ha
    simp [ha.1, ih ha.2]

theorem matchVar_complete {p : Ph} (h : PhWF p) (rest : Chars) :
    matchVar (p.text ++ rest) = some (p, p.text.length) := by
  obtain ⟨a, b, hi, ha, hn, hb, he⟩ := h
  obtain ⟨name, inner⟩ := p
  simp only at hi hn he
  subst hi
  have e1 : Ph.text ⟨name, a ++ name ++ b⟩ ++ rest = '{' :: '{' :: (a ++ (name ++ (b ++ ('}' :: '}' :: rest)))) := by
    simp [Ph.text]
  rw [e1]
  have hbr : ∀ c, (b ++ ('}' :: '}' :: rest)).head? = some c → isWord c = false := by
    intro c hc
    cases b with
    | nil => simp at hc; subst hc; decide
    | cons x xs =>
      simp at hc; subst hc
      simp only [List.all_cons, Bool.and_eq_true] at hb
      cases hw : isWord x with
      | false => rfl
      | true => have := isWord_not_space hw; rw [this] at hb; simp at hb
  have hnr : ∀ c, (name ++ (b ++ ('}' :: '}' :: rest))).head? = some c → isSpace c = false := by
    intro c hc
    cases name with
    | nil =>
      have : b = [] := he rfl
      subst this
      simp at hc; subst hc; decide
    | cons x xs =>
      simp at hc; subst hc
      simp only [List.all_cons, Bool.and_eq_true] at hn
      exact isWord_not_space hn.1
  have hr : ∀ c, ('}' :: '}' :: rest).head? = some c → isSpace c = false := by
    intro c hc; simp at hc; subst hc; decide
  obtain ⟨t1, d1⟩ := takeWhile_append_of_all isSpace a _ ha hnr
  obtain ⟨t2, d2⟩ := takeWhile_append_of_all isWord name _ hn hbr
  obtain ⟨t3, d3⟩ := takeWhile_append_of_all isSpace b _ hb hr
  simp only [matchVar, t1, d1, t2, d2, t3, d3]
  simp [Ph.text]
  try omega

theorem takeWhile_all {α} (p : α → Bool) (l : List α) : (l.takeWhile p).all p = true := by
  induction l with
  | nil => rfl
  | cons x xs ih => simp only [List.takeWhile_cons]; split <;> simp_all

theorem matchVar_sound {s : Chars} {p : Ph} {n : Nat} (h : matchVar s = some (p, n)) :
    PhWF p ∧ n = p.text.length ∧ ∃ rest, s = p.text ++ rest := by
  unfold matchVar at h
  split at h
  · next r =>
    simp only at h
    split at h
    · next r3 hr3 =>
      cases h
      have s1 : r = r.takeWhile isSpace ++ r.dropWhile isSpace := (List.takeWhile_append_dropWhile).symm
      have s2 : (r.dropWhile isSpace) = (r.dropWhile isSpace).takeWhile isWord ++ (r.dropWhile isSpace).dropWhile isWord :=
        (List.takeWhile_append_dropWhile).symm
      have s3 : ((r.dropWhile isSpace).dropWhile isWord) = ((r.dropWhile isSpace).dropWhile isWord).takeWhile isSpace ++ ('}' :: '}' :: r3) := by
        rw [← hr3]; exact (List.takeWhile_append_dropWhile).symm
      refine ⟨⟨r.takeWhile isSpace, ((r.dropWhile isSpace).dropWhile isWord).takeWhile isSpace, rfl, takeWhile_all _ _, takeWhile_all _ _,
        takeWhile_all _ _, ?_⟩, by simp [Ph.text]; omega, r3, ?_⟩
      · intro hnil
        -- an empty name: the text after the first white space does not begin with white space
        have hd : (r.dropWhile isSpace).dropWhile isWord = r.dropWhile isSpace := by
          have h2 := s2
          simp only at hnil
          rw [hnil] at h2
          simpa using h2.symm
        rw [hd]
        cases hdr : r.dropWhile isSpace with
        | nil => rfl
        | cons x xs =>
          have := List.head_dropWhile_not isSpace (l := r) (by rw [hdr]; simp)
          simp [hdr] at this
          simp [this]
      · simp only [Ph.text, List.cons_append, List.append_assoc, List.nil_append, List.cons.injEq, true_and]
        rw [← s3, ← s2, ← s1]
    · cases h
  · cases h

theorem scan_matchVar_render (s : Chars) (n : Nat) (hn : s.length ≤ n) : renderToks (vtokens s) = s ∧
    ∀ p, .inr p ∈ vtokens s → PhWF p := by
  induction n generalizing s with
  | zero =>
    have : s = [] := List.length_eq_zero_iff.1 (by omega)
    subst this; simp [vtokens, scan, renderToks]
  | succ n ih =>
    cases s with
    | nil => simp [vtokens, scan, renderToks]
    | cons c cs =>
      simp only [vtokens, scan]
      cases hm : matchVar (c :: cs) with
      | none =>
        obtain ⟨h1, h2⟩ := ih cs (by simp at hn; omega)
        refine ⟨?_, ?_⟩
        · simp only [vtokens, renderToks] at h1 ⊢
          simp [h1]
        · intro p hp; simp at hp; exact h2 p hp
      | some pn =>
        obtain ⟨p, k⟩ := pn
        obtain ⟨hw, hk, rest, hs⟩ := matchVar_sound hm
        have hcs : cs = p.text.tail ++ rest := by
          have := congrArg List.tail hs
          simpa [Ph.text] using this
        have hskip : scan matchVar (k - 1) cs = vtokens rest := by
          rw [hcs]
          have : k - 1 = p.text.tail.length := by rw [hk]; simp
          rw [this]; exact scan_skip _ _ _
        have hl : rest.length ≤ n := by
          have := congrArg List.length hs
          simp [Ph.text] at this
          simp at hn; omega
        obtain ⟨h1, h2⟩ := ih rest hl
        simp only [hskip]
        refine ⟨?_, ?_⟩
        · simp only [renderToks] at h1 ⊢
          simp only [List.flatMap_cons, h1]
          exact hs.symm
        · intro q hq
          simp at hq
          rcases hq with rfl | hq
          · exact hw
          · exact h2 q hq

theorem vtokens_render (s : Chars) : renderToks (vtokens s) = s := (scan_matchVar_render s s.length (Nat.le_refl _)).1
theorem vtokens_wf {s : Chars} {p : Ph} (h : .inr p ∈ vtokens s) : PhWF p := (scan_matchVar_render s s.length (Nat.le_refl _)).2 p h

theorem matchVar_lit_none {c : Char} {ts : List VTok} (hd : noDD (litText (.inl c :: ts)) = true)
    : matchVar (c :: renderToks ts) = none := by
  by_cases hc : c = '{'
  · subst hc
    cases ts with
    | nil => rfl
    | cons t ts =>
      cases t with
      | inl c2 =>
        simp only [litText, List.filterMap_cons, noDD, List.head?_cons] at hd
        have : c2 ≠ '{' := by rintro rfl; simp at hd
        simp only [renderToks, List.flatMap_cons, List.singleton_append]
        unfold matchVar
        split
        · next h => simp at h; exact absurd h.1 this
        · rfl
      | inr p =>
        simp only [renderToks, List.flatMap_cons, Ph.text, List.cons_append]
        simp [matchVar, isSpace, isWord, isAsciiAlnum, isAsciiAlpha, isUpper, isLower, isDigit]
  · unfold matchVar
    split
    · next h => simp at h; exact absurd h.1 hc
    · rfl

theorem noDD_tail {c : Char} {r : Chars} (h : noDD (c :: r) = true) : noDD r = true := by
  simp only [noDD, Bool.and_eq_true] at h; exact h.2

/-- scanning the text of clean pieces gives the pieces back -/
theorem vtokens_of_clean (ts : List VTok) (hw : ∀ p, .inr p ∈ ts → PhWF p) (hd : noDD (litText ts) = true) :
    vtokens (renderToks ts) = ts := by
  induction ts with
  | nil => rfl
  | cons t ts ih =>
    cases t with
    | inl c =>
      have hd' : noDD (litText ts) = true := noDD_tail (c := c) (by simpa [litText] using hd)
      have := matchVar_lit_none hd
      have e : renderToks (.inl c :: ts) = c :: renderToks ts := by simp [renderToks]
      rw [e]
      simp only [vtokens, scan, this]
      have := ih (fun p hp => hw p (by simp [hp])) hd'
      simp only [vtokens] at this
      rw [this]
    | inr p =>
      have hd' : noDD (litText ts) = true := by simpa [litText] using hd
      have hp := hw p (by simp)
      have e : renderToks (.inr p :: ts) = p.text ++ renderToks ts := by simp [renderToks]
      have hm := matchVar_complete hp (renderToks ts)
      rw [e]
      have e2 : p.text ++ renderToks ts = '{' :: (p.text.tail ++ renderToks ts) := by simp [Ph.text]
      rw [e2] at hm ⊢
      simp only [vtokens, scan, hm]
      have hk : p.text.length - 1 = p.text.tail.length := by simp
      rw [hk, scan_skip]
      have := ih (fun p hp => hw p (by simp [hp])) hd'
      simp only [vtokens] at this
      rw [this]

/-! ## templates without backslash are literal -/

theorem ttokens_plain {s : Chars} (h : '\\' ∉ s) : ttokens s = some (s.map TTok.plain) := by
  induction s with
  | nil => rfl
  | cons c cs ih =>
    simp only [List.mem_cons, not_or] at h
    have hc : c ≠ '\\' := fun e => h.1 e.symm
    unfold ttokens
    split
    · simp_all
    · simp_all
    · simp_all
    · next heq => cases heq; rw [ih h.2]; rfl

theorem parseTemplate_plain (s : Chars) (n : Nat) (h : s.length ≤ n) :
    parseTemplate n (s.map TTok.plain) = .ok (s.map TPart.lit) := by
  induction s generalizing n with
  | nil => cases n <;> rfl
  | cons c cs ih =>
    cases n with
    | zero => simp at h
    | succ n =>
      simp only [List.map_cons, parseTemplate]
      rw [ih n (by simpa using h)]; rfl

theorem compileTemplate_plain {s : Chars} (h : '\\' ∉ s) : compileTemplate s = .ok (s.map TPart.lit) := by
  unfold compileTemplate
  rw [ttokens_plain h]
  simp only
  exact parseTemplate_plain s _ (by simp)

theorem expandTemplate_lit (g0 g1 s : Chars) : expandTemplate g0 g1 (s.map TPart.lit) = s := by
  induction s with
  | nil => rfl
  | cons c cs ih => simp only [expandTemplate, List.map_cons, List.flatMap_cons] at ih ⊢; rw [ih]; rfl

/-! ## substitution on pieces -/

/-- replace the placeholders for which `f` is defined -/
def substToks (f : Chars → Option Chars) (ts : List VTok) : List VTok :=
  ts.flatMap (fun t => match t with
    | .inl c => [.inl c]
    | .inr p => match f p.name with
      | some v => v.map .inl
      | none => [.inr p])

theorem substToks_cons (f t ts) : substToks f (t :: ts) = (match t with
    | .inl c => [.inl c]
    | .inr p => match f p.name with
      | some v => v.map .inl
      | none => [.inr p]) ++ substToks f ts := by simp [substToks]

theorem substToks_append (f a b) : substToks f (a ++ b) = substToks f a ++ substToks f b := by
  simp [substToks]

theorem substToks_lits (f) (v : Chars) : substToks f (v.map .inl) = v.map .inl := by
  induction v with
  | nil => rfl
  | cons c cs ih => simp only [List.map_cons, substToks_cons, ih]; rfl

theorem substToks_comp (f g) (ts : List VTok) :
    substToks f (substToks g ts) = substToks (fun x => (g x).or (f x)) ts := by
  induction ts with
  | nil => rfl
  | cons t ts ih =>
    rw [substToks_cons g, substToks_append, ih, substToks_cons (fun x => (g x).or (f x))]
    congr 1
    cases t with
    | inl c => rfl
    | inr p =>
      simp only
      cases hg : g p.name with
      | none => simp [substToks]
      | some v => simp [substToks_lits]

theorem substToks_congr {f g} {ts : List VTok} (h : ∀ p, .inr p ∈ ts → f p.name = g p.name) :
    substToks f ts = substToks g ts := by
  induction ts with
  | nil => rfl
  | cons t ts ih =>
    rw [substToks_cons, substToks_cons, ih (fun p hp => h p (by simp [hp]))]
    congr 1
    cases t with
    | inl c => rfl
    | inr p => simp only [h p (by simp)]

theorem substToks_wf {f ts} (hw : ∀ p, .inr p ∈ ts → PhWF p) : ∀ p, .inr p ∈ substToks f ts → PhWF p := by
  intro p hp
  simp only [substToks, List.mem_flatMap] at hp
  obtain ⟨t, ht, hp⟩ := hp
  cases t with
  | inl c => simp at hp
  | inr q =>
    simp only at hp
    split at hp
    · simp at hp
    · simp at hp; subst hp; exact hw _ ht

theorem noDD_append_free {v r : Chars} (hv : '{' ∉ v) (hr : noDD r = true) : noDD (v ++ r) = true := by
  induction v with
  | nil => exact hr
  | cons c cs ih =>
    simp only [List.mem_cons, not_or] at hv
    simp only [List.cons_append, noDD, ih hv.2, Bool.and_true]
    have : c ≠ '{' := fun e => hv.1 e.symm
    simp [this]

theorem litText_append (a b : List VTok) : litText (a ++ b) = litText a ++ litText b := by simp [litText]
theorem litText_lits (v : Chars) : litText (v.map .inl) = v := by
  induction v with
  | nil => rfl
  | cons c cs ih => simp only [litText, List.map_cons, List.filterMap_cons] at ih ⊢; rw [ih]

theorem substToks_noDD {f} {ts : List VTok} (hf : ∀ p v, .inr p ∈ ts → f p.name = some v → '{' ∉ v)
    (h : noDD (litText ts) = true) :
    noDD (litText (substToks f ts)) = true ∧
      ((litText (substToks f ts)).head? = some '{' → (litText ts).head? = some '{') := by
  induction ts with
  | nil => exact ⟨rfl, id⟩
  | cons t ts ih =>
    cases t with
    | inl c =>
      have h' : noDD (c :: litText ts) = true := by simpa [litText] using h
      obtain ⟨i1, i2⟩ := ih (fun p v hp => hf p v (by simp [hp])) (noDD_tail h')
      have e : litText (substToks f (.inl c :: ts)) = c :: litText (substToks f ts) := by
        rw [substToks_cons, litText_append]; rfl
      have e' : litText (.inl c :: ts) = c :: litText ts := rfl
      rw [e, e']
      refine ⟨?_, fun hh => hh⟩
      simp only [noDD, i1, Bool.and_true]
      simp only [noDD, Bool.and_eq_true] at h'
      have h1 := h'.1
      by_cases hc : c = '{'
      · subst hc
        simp only [BEq.rfl, Bool.true_and, Bool.not_eq_eq_eq_not, Bool.not_true, beq_eq_false_iff_ne, ne_eq] at h1 ⊢
        exact fun hh => h1 (i2 hh)
      · simp [hc]
    | inr p =>
      have h' : noDD (litText ts) = true := by simpa [litText] using h
      obtain ⟨i1, i2⟩ := ih (fun p v hp => hf p v (by simp [hp])) h'
      have e' : litText (.inr p :: ts) = litText ts := by simp [litText]
      rw [substToks_cons, litText_append, e']
      cases hp : f p.name with
      | none => simp only [hp]; exact ⟨i1, i2⟩
      | some v =>
        have hv := hf p v (by simp) hp
        simp only [hp, litText_lits]
        refine ⟨noDD_append_free hv i1, ?_⟩
        cases v with
        | nil => simpa using i2
        | cons c cs =>
          intro hh
          simp at hh; subst hh; simp at hv

theorem renderToks_substToks (f) (ts : List VTok) : renderToks (substToks f ts) =
    ts.flatMap (fun t => match t with
      | .inl c => [c]
      | .inr p => match f p.name with | some v => v | none => p.text) := by
  induction ts with
  | nil => rfl
  | cons t ts ih =>
    rw [substToks_cons]
    simp only [renderToks] at ih ⊢
    rw [List.flatMap_append, ih, List.flatMap_cons]
    congr 1
    cases t with
    | inl c => rfl
    | inr p =>
      simp only
      cases f p.name with
      | none => simp
      | some v =>
        simp only [List.flatMap_map]
        induction v with
        | nil => rfl
        | cons c cs ih => rw [List.flatMap_cons, ih]; rfl

/-- one substitution on clean pieces -/
theorem subVar_clean {multi : Bool} {name value : Chars} {ts : List VTok} (hw : ∀ p, .inr p ∈ ts → PhWF p)
    (hd : noDD (litText ts) = true) (hb : '\\' ∉ value) (hm : multi = false → ∀ p, .inr p ∈ ts → p.name = name) :
    subVar multi name value (renderToks ts) =
      .ok (renderToks (substToks (fun x => if x = name then some value else none) ts)) := by
  unfold subVar
  rw [compileTemplate_plain hb]
  show Except.ok _ = _
  rw [vtokens_of_clean ts hw hd, renderToks_substToks]
  congr 1
  have : ∀ t ∈ ts, (match t with
      | Sum.inl c => [c]
      | .inr p =>
        if multi = true then (if p.name = name then expandTemplate p.text p.inner (value.map TPart.lit) else p.text)
        else expandTemplate p.text p.name (value.map TPart.lit)) =
      (match t with
      | .inl c => [c]
      | .inr p => match (if p.name = name then some value else none) with | some v => v | none => p.text) := by
    intro t ht
    cases t with
    | inl c => rfl
    | inr p =>
      simp only [expandTemplate_lit]
      cases multi with
      | true =>
        by_cases e : p.name = name
        · simp [e]
        · simp [e]
      | false => simp [hm rfl p ht]
  clear hw hd hm
  induction ts with
  | nil => rfl
  | cons t ts ih =>
    rw [List.flatMap_cons, List.flatMap_cons]
    exact congr (congrArg HAppend.hAppend (this t (by simp))) (ih (fun t ht => this t (by simp [ht])))

theorem name_strip {p : Ph} (h : PhWF p) : strip p.name = p.name := by
  obtain ⟨a, b, _, _, hn, _, _⟩ := h
  apply strip_of_no_space
  intro c hc
  exact isWord_not_space (List.all_eq_true.1 hn c hc)

end NJ
