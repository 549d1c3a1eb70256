import Verif.Uci
import Verif.PropsFiles
import Mathlib.Data.List.Forall2

/-!
# Lemmas on UCI text
-/

namespace NJ

/-! ## `replaceAll` -/

theorem replaceAll_nil (old new : Chars) : replaceAll old new [] = [] := rfl

theorem replaceAll_cons (old new : Chars) (hne : old ≠ []) (c : Char) (cs : Chars) :
    replaceAll old new (c :: cs) = match stripPrefix old (c :: cs) with
      | some r => new ++ replaceAll old new r
      | none => c :: replaceAll old new cs := by
  unfold replaceAll
  rw [scan]
  cases h : stripPrefix old (c :: cs) with
  | none => simp
  | some r =>
    simp only [Option.map_some, List.flatMap_cons]
    congr 1
    have hr := stripPrefix_some.1 h
    cases old with
    | nil => exact absurd rfl hne
    | cons o os =>
      simp only [List.cons_append, List.cons.injEq] at hr
      rw [hr.2]
      simp only [List.length_cons, Nat.add_sub_cancel]
      rw [scan_skip]

theorem replaceAll_match (old new : Chars) (hne : old ≠ []) (s : Chars) : replaceAll old new (old ++ s) = new ++ replaceAll old new s := by
  cases old with
  | nil => exact absurd rfl hne
  | cons o os =>
    have := replaceAll_cons (o :: os) new hne o (os ++ s)
    rw [List.cons_append, this]
    have h : stripPrefix (o :: os) (o :: (os ++ s)) = some s := stripPrefix_some.2 rfl
    rw [h]

theorem replaceAll_nomatch (old new : Chars) (hne : old ≠ []) (c : Char) (cs : Chars) (h : ¬ old <+: c :: cs) :
    replaceAll old new (c :: cs) = c :: replaceAll old new cs := by
  rw [replaceAll_cons old new hne]
  split
  · next r hr => exact absurd ⟨r, (stripPrefix_some.1 hr).symm⟩ h
  · rfl

/-- text that starts no match can be moved out -/
theorem replaceAll_append (old new : Chars) (hne : old ≠ []) (w s : Chars)
    (h : ∀ a b, w = a ++ b → b ≠ [] → ¬ old <+: b ++ s) : replaceAll old new (w ++ s) = w ++ replaceAll old new s := by
  induction w with
  | nil => rfl
  | cons c w ih =>
    rw [List.cons_append, replaceAll_nomatch old new hne, ih, List.cons_append]
    · intro a b hab hb
      exact h (c :: a) b (by rw [hab]; rfl) hb
    · exact h [] (c :: w) rfl (by simp)

/-! ### Four blanks -/

theorem replaceAll4_sp (k : Nat) (s : Chars) : replaceAll (sp 4) [] (sp (4 * k) ++ s) = replaceAll (sp 4) [] s := by
  induction k with
  | zero => rfl
  | succ k ih =>
    have : sp (4 * (k + 1)) = sp 4 ++ sp (4 * k) := by
      unfold sp; rw [← List.replicate_add]; congr 1; omega
    rw [this, List.append_assoc, replaceAll_match _ _ (by decide), List.nil_append, ih]

theorem replaceAll4_text {w : Chars} (h : ¬ sp 4 <:+: w) {c : Char} (hc : c ≠ ' ') (s : Chars) :
    replaceAll (sp 4) [] (w ++ c :: s) = w ++ c :: replaceAll (sp 4) [] s := by
  rw [replaceAll_append _ _ (by decide), replaceAll_nomatch _ _ (by decide)]
  · rintro ⟨t, ht⟩
    have : some ' ' = some c := by
      have := congrArg List.head? ht
      simpa [sp] using this
    cases this; exact hc rfl
  · rintro a b rfl hb ⟨t, ht⟩
    -- the four blanks lie inside b, or reach c
    by_cases hl : 4 ≤ b.length
    · refine h ⟨a, b.drop 4, ?_⟩
      have : b.take 4 = sp 4 := by
        have := congrArg (List.take 4) ht
        rw [List.take_append_of_le_length (by simp [sp]), List.take_append_of_le_length hl] at this
        rw [← this]; rfl
      rw [← this, List.append_assoc, List.take_append_drop]
    · have h1 := congrArg (fun l => l[b.length]?) ht
      simp only [List.getElem?_append_right (Nat.le_refl _), Nat.sub_self, List.getElem?_cons_zero] at h1
      rw [List.getElem?_append_left (by simp [sp]; omega)] at h1
      simp only [sp, List.getElem?_replicate] at h1
      split at h1
      · cases h1; exact hc rfl
      · cases h1

/-! ### Lines -/

/-- the line gets a tab when it starts with the keyword -/
def tabLine (w l : Chars) : Chars := if w <+: l then '\t' :: l else l

theorem not_prefix_nl {w l s : Chars} (hw : '\n' ∉ w) : w <+: l ++ '\n' :: s ↔ w <+: l := by
  constructor
  · rintro ⟨t, ht⟩
    rcases List.append_eq_append_iff.1 ht with ⟨a, h1, h2⟩ | ⟨a, h1, h2⟩
    · exact ⟨a, h1.symm⟩
    · cases a with
      | nil => simp at h1; exact ⟨[], by simp [h1]⟩
      | cons x a =>
        simp at h2
        rw [← h2.1] at h1
        exact absurd (by rw [h1]; simp) hw
  · exact fun h => h.trans (List.prefix_append _ _)

theorem replaceAll_nl_text (w new : Chars) {l : Chars} (hl : '\n' ∉ l) (s : Chars) :
    replaceAll ('\n' :: w) new (l ++ s) = l ++ replaceAll ('\n' :: w) new s := by
  apply replaceAll_append _ _ (by simp)
  rintro a b rfl hb ⟨t, ht⟩
  cases b with
  | nil => exact hb rfl
  | cons x b => simp at ht; rw [← ht.1] at hl; simp at hl

theorem replaceAll_line (w : Chars) (hw : '\n' ∉ w) (l s : Chars) (hl : '\n' ∉ l) (s' : Chars)
    (hs : s = [] ∧ s' = [] ∨ ∃ r r', s = '\n' :: r ∧ s' = '\n' :: r' ∧ replaceAll ('\n' :: w) ('\n' :: '\t' :: w) s = s') :
    replaceAll ('\n' :: w) ('\n' :: '\t' :: w) ('\n' :: (l ++ s)) = '\n' :: (tabLine w l ++ s') := by
  have hpre : w <+: l ++ s ↔ w <+: l := by
    rcases hs with ⟨rfl, _⟩ | ⟨r, r', rfl, _⟩
    · simp
    · exact not_prefix_nl hw
  have hrest : replaceAll ('\n' :: w) ('\n' :: '\t' :: w) s = s' := by
    rcases hs with ⟨rfl, rfl⟩ | ⟨r, r', _, _, h⟩
    · rfl
    · exact h
  unfold tabLine
  split
  · next h =>
    obtain ⟨t, rfl⟩ := h
    have : '\n' :: ((w ++ t) ++ s) = ('\n' :: w) ++ (t ++ s) := by simp
    rw [this, replaceAll_match _ _ (by simp), replaceAll_nl_text _ _ (by simp at hl; exact hl.2), hrest]
    simp
  · next h =>
    rw [replaceAll_nomatch _ _ (by simp), replaceAll_nl_text _ _ hl, hrest]
    rintro ⟨t, ht⟩
    simp at ht
    exact h (hpre.1 ⟨t, ht⟩)

/-- text after the first line: each line preceded by its line break -/
def nlLines (ls : List Chars) : Chars := ls.flatMap (fun l => '\n' :: l)

theorem nlLines_append (a b : List Chars) : nlLines (a ++ b) = nlLines a ++ nlLines b := by simp [nlLines]
theorem nlLines_cons (l : Chars) (b : List Chars) : nlLines (l :: b) = '\n' :: (l ++ nlLines b) := by simp [nlLines]

theorem joinWith_cons (l : Chars) (ls : List Chars) : joinWith ['\n'] (l :: ls) = l ++ nlLines ls := by
  induction ls generalizing l with
  | nil => simp [joinWith, nlLines]
  | cons x xs ih => rw [joinWith, ih, nlLines_cons]; simp

theorem replaceAll_nlLines (w : Chars) (hw : '\n' ∉ w) (ls : List Chars) (h : ∀ l ∈ ls, '\n' ∉ l) :
    replaceAll ('\n' :: w) ('\n' :: '\t' :: w) (nlLines ls) = nlLines (ls.map (tabLine w)) := by
  induction ls with
  | nil => rfl
  | cons l ls ih =>
    have ih := ih (fun l hl => h l (by simp [hl]))
    simp only [List.map_cons, nlLines_cons]
    refine replaceAll_line w hw l _ (h l (by simp)) _ ?_
    cases ls with
    | nil => exact .inl ⟨rfl, rfl⟩
    | cons x xs => exact .inr ⟨x ++ nlLines xs, tabLine w x ++ nlLines (xs.map (tabLine w)), nlLines_cons _ _, by simp [nlLines_cons], ih⟩

/-! ### Three line breaks -/

theorem replaceAll3 {w : Chars} (h : ¬ ['\n', '\n', '\n'] <:+: w) (hl : w.getLast? ≠ some '\n') (s : Chars) :
    replaceAll ['\n', '\n', '\n'] ['\n', '\n'] (w ++ ['\n', '\n', '\n'] ++ s) =
      w ++ ['\n', '\n'] ++ replaceAll ['\n', '\n', '\n'] ['\n', '\n'] s := by
  rw [List.append_assoc, replaceAll_append _ _ (by simp), replaceAll_match _ _ (by simp), List.append_assoc]
  rintro a b rfl hb ⟨t, ht⟩
  match b, hb with
  | [x], _ =>
    simp at ht; rw [← ht.1] at hl; simp at hl
  | [x, y], _ =>
    simp at ht; rw [← ht.1, ← ht.2.1] at hl; simp at hl
  | x :: y :: z :: b, _ =>
    simp at ht
    obtain ⟨rfl, rfl, rfl, _⟩ := ht
    exact h ⟨a, b, by simp⟩

/-! ## `strip` -/

theorem lstrip_cons {c : Char} (h : isSpace c = false) (s : Chars) : lstrip (c :: s) = c :: s := by
  unfold lstrip; rw [List.dropWhile_cons_of_neg (by simp [h])]

theorem rstrip_append_space {s t : Chars} (h : ∀ c ∈ t, isSpace c = true) : rstrip (s ++ t) = rstrip s := by
  unfold rstrip
  rw [List.reverse_append]
  congr 1
  have : ∀ (l m : Chars), (∀ c ∈ l, isSpace c = true) → (l ++ m).dropWhile isSpace = m.dropWhile isSpace := by
    intro l m hl
    induction l with
    | nil => rfl
    | cons x l ih => rw [List.cons_append, List.dropWhile_cons_of_pos (hl x (by simp)), ih (fun c hc => hl c (by simp [hc]))]
  exact this _ _ (fun c hc => h c (List.mem_reverse.1 hc))

theorem lstrip_append_space {s t : Chars} (h : ∀ c ∈ s, isSpace c = true) : lstrip (s ++ t) = lstrip t := by
  unfold lstrip
  induction s with
  | nil => rfl
  | cons x l ih => rw [List.cons_append, List.dropWhile_cons_of_pos (h x (by simp)), ih (fun c hc => h c (by simp [hc]))]

theorem rstrip_of_last {s : Chars} (h : ∀ c, s.getLast? = some c → isSpace c = false) : rstrip s = s := by
  unfold rstrip
  cases hs : s.reverse with
  | nil => simp at hs; subst hs; rfl
  | cons c r =>
    have : isSpace c = false := h c (by
      have := congrArg List.head? hs
      rw [List.head?_reverse] at this
      exact this)
    rw [List.dropWhile_cons_of_neg (by simp [this]), ← hs, List.reverse_reverse]

theorem strip_space {t : Chars} (h : ∀ c ∈ t, isSpace c = true) : strip t = [] := by
  unfold strip
  have : lstrip t = lstrip [] := by
    have := lstrip_append_space (t := []) h
    rwa [List.append_nil] at this
  rw [this]; rfl

/-! ## Splitting at keywords -/

theorem splitKw_ne_nil (w : Chars) (b : Bool) (k : Nat) (s : Chars) : splitKw w b k s ≠ [] := by
  induction s generalizing b k with
  | nil => simp [splitKw]
  | cons c cs ih =>
    cases k with
    | succ k => simp only [splitKw]; exact ih _ _
    | zero =>
      simp only [splitKw]
      split
      · simp
      · unfold consHead; split <;> simp

theorem consHead_append (a b : Chars) (l : List Chars) (h : l ≠ []) : consHead a (consHead b l) = consHead (a ++ b) l := by
  cases l with
  | nil => exact absurd rfl h
  | cons x xs => simp [consHead]

theorem splitKw_inline (w l : Chars) (hl : '\n' ∉ l) (s : Chars) :
    splitKw w false 0 (l ++ s) = consHead l (splitKw w false 0 s) := by
  induction l with
  | nil => cases h : splitKw w false 0 s with
    | nil => exact absurd h (splitKw_ne_nil _ _ _ _)
    | cons x xs => simp [consHead, h]
  | cons c l ih =>
    have hc : (c == '\n') = false := beq_eq_false_iff_ne.2 (fun e => hl (by rw [e]; exact List.mem_cons_self))
    rw [List.cons_append, splitKw]
    simp only [Bool.false_and, Bool.false_eq_true, if_false, hc]
    rw [ih (by simp at hl; exact hl.2), consHead_append _ _ _ (splitKw_ne_nil _ _ _ _)]
    rfl

theorem splitKw_break (w s : Chars) : splitKw w false 0 ('\n' :: s) = consHead ['\n'] (splitKw w true 0 s) := by
  rw [splitKw]; rfl

/-- at the start of a line that does not begin with the keyword (and a blank) the split goes on as inside the line -/
theorem splitKw_bol (w s : Chars) (h : ¬ w <+: s) : splitKw w true 0 s = splitKw w false 0 s := by
  cases s with
  | nil => rfl
  | cons c cs =>
    have hm : matchKw w (c :: cs) = false := by
      unfold matchKw
      cases hs : stripPrefix w (c :: cs) with
      | none => rfl
      | some r => exact absurd ⟨r, (stripPrefix_some.1 hs).symm⟩ h
    simp only [splitKw, hm, Bool.and_false]

theorem splitKw_skip (w a s : Chars) (b : Bool) (hne : a ≠ []) (ha : '\n' ∉ a) :
    splitKw w b a.length (a ++ s) = splitKw w false 0 s := by
  induction a generalizing b with
  | nil => exact absurd rfl hne
  | cons c a ih =>
    have hc : (c == '\n') = false := beq_eq_false_iff_ne.2 (fun e => ha (by rw [e]; exact List.mem_cons_self))
    simp only [List.length_cons, List.cons_append, splitKw, hc]
    cases a with
    | nil => rfl
    | cons d a => exact ih _ (by simp) (by simp at ha ⊢; exact ha.2)

theorem splitKw_match (w s : Chars) (hne : w ≠ []) (hw : '\n' ∉ w) :
    splitKw w true 0 (w ++ ' ' :: s) = [] :: splitKw w false 0 s := by
  cases w with
  | nil => exact absurd rfl hne
  | cons c cs =>
    have hm : matchKw (c :: cs) (c :: (cs ++ ' ' :: s)) = true := by
      unfold matchKw
      have h : stripPrefix (c :: cs) (c :: (cs ++ ' ' :: s)) = some (' ' :: s) := stripPrefix_some.2 rfl
      rw [h]; rfl
    simp only [List.cons_append, splitKw, hm, Bool.and_true, if_true]
    congr 1
    have : cs ++ ' ' :: s = (cs ++ [' ']) ++ s := by simp
    rw [this]
    have hlen : (c :: cs).length = (cs ++ [' ']).length := by simp
    rw [hlen]
    refine splitKw_skip _ _ _ _ (by simp) ?_
    simp at hw ⊢
    exact hw.2

/-- The chunks of a list of lines: the lines before the first line `w …`, then for each such line its rest and the
lines up to the next one. -/
def chunks (w : Chars) : List Chars → List Chars × List (List Chars)
  | [] => ([], [])
  | l :: ls => match stripPrefix (w ++ [' ']) l with
    | some x => ([], (x :: (chunks w ls).1) :: (chunks w ls).2)
    | none => (l :: (chunks w ls).1, (chunks w ls).2)

/-- a line that can be split: without line break, and if it begins with the keyword then followed by a blank -/
def GoodLine (w l : Chars) : Prop := '\n' ∉ l ∧ (w <+: l → w ++ [' '] <+: l)

/-- the pieces of the text, stripped -/
def chunkTexts (w : Chars) (ls : List Chars) : List Chars :=
  strip (joinWith ['\n'] (chunks w ls).1) :: (chunks w ls).2.map (fun c => strip (joinWith ['\n'] c))

theorem splitKw_lines (w : Chars) (hne : w ≠ []) (hw : '\n' ∉ w) (l : Chars) (ls : List Chars)
    (hg : ∀ x ∈ l :: ls, GoodLine w x) :
    ∃ (a : Chars) (bs : List Chars), splitKw w true 0 (joinWith ['\n'] (l :: ls)) = a :: bs ∧
      (∃ k, a = joinWith ['\n'] (chunks w (l :: ls)).1 ++ List.replicate k '\n') ∧
      List.Forall₂ (fun b c => ∃ k, b = joinWith ['\n'] c ++ List.replicate k '\n') bs (chunks w (l :: ls)).2 := by
  induction ls generalizing l with
  | nil =>
    obtain ⟨hl, hk⟩ := hg l (by simp)
    rw [joinWith]
    cases hs : stripPrefix (w ++ [' ']) l with
    | some x =>
      have := stripPrefix_some.1 hs
      subst this
      rw [List.append_assoc]
      show ∃ a bs, splitKw w true 0 (w ++ ' ' :: x) = _ ∧ _
      rw [splitKw_match w x hne hw]
      have hx : '\n' ∉ x := by simp at hl; exact hl.2
      have := splitKw_inline w x hx []
      rw [List.append_nil] at this
      refine ⟨[], [x], ?_, ?_, ?_⟩
      · rw [this]; simp [splitKw, consHead]
      · simp only [chunks, List.append_assoc] at hs ⊢
        have hs' : stripPrefix (w ++ [' ']) (w ++ ([' '] ++ x)) = some x := by
          rw [stripPrefix_some]; simp
        rw [hs']; exact ⟨0, rfl⟩
      · have hs' : stripPrefix (w ++ [' ']) (w ++ ([' '] ++ x)) = some x := by
          rw [stripPrefix_some]; simp
        simp only [chunks, List.append_assoc]
        rw [hs']
        exact .cons ⟨0, by simp [joinWith]⟩ .nil
    | none =>
      have hp : ¬ w <+: l := by
        intro h
        obtain ⟨t, ht⟩ := hk h
        have := stripPrefix_some.2 ht.symm
        rw [hs] at this; cases this
      rw [splitKw_bol w l hp]
      have := splitKw_inline w l hl []
      rw [List.append_nil] at this
      rw [this]
      refine ⟨l, [], ?_, ?_, ?_⟩
      · simp [splitKw, consHead]
      · simp only [chunks, hs]; exact ⟨0, by simp [joinWith]⟩
      · simp only [chunks, hs]; exact .nil
  | cons m ms ih =>
    obtain ⟨hl, hk⟩ := hg l (by simp)
    obtain ⟨a, bs, he, ⟨ka, ha⟩, hb⟩ := ih m (fun x hx => hg x (by simp at hx ⊢; exact .inr hx))
    have hj : joinWith ['\n'] (l :: m :: ms) = l ++ '\n' :: joinWith ['\n'] (m :: ms) := by simp [joinWith]
    have hpush : ∀ (x : Chars), ∃ k, x ++ '\n' :: a = joinWith ['\n'] (x :: (chunks w (m :: ms)).1) ++ List.replicate k '\n' := by
      intro x
      rw [ha]
      cases hc : (chunks w (m :: ms)).1 with
      | nil => exact ⟨ka + 1, by simp [joinWith, List.replicate_succ]⟩
      | cons y ys => exact ⟨ka, by simp [joinWith]⟩
    cases hs : stripPrefix (w ++ [' ']) l with
    | some x =>
      have := stripPrefix_some.1 hs
      have hx : '\n' ∉ x := by subst this; simp at hl; exact hl.2
      rw [hj]
      conv in l ++ _ => rw [this]
      rw [List.append_assoc, List.append_assoc]
      show ∃ a bs, splitKw w true 0 (w ++ ' ' :: (x ++ '\n' :: _)) = _ ∧ _
      rw [splitKw_match w _ hne hw, splitKw_inline w x hx, splitKw_break, he]
      refine ⟨[], (x ++ '\n' :: a) :: bs, ?_, ?_, ?_⟩
      · simp [consHead]
      · unfold chunks; rw [hs]; exact ⟨0, rfl⟩
      · unfold chunks; rw [hs]; exact .cons (hpush x) hb
    | none =>
      have hp : ¬ w <+: joinWith ['\n'] (l :: m :: ms) := by
        rw [hj, not_prefix_nl hw]
        intro h
        obtain ⟨t, ht⟩ := hk h
        have := stripPrefix_some.2 ht.symm
        rw [hs] at this; cases this
      rw [splitKw_bol w _ hp, hj, splitKw_inline w l hl, splitKw_break, he]
      refine ⟨l ++ '\n' :: a, bs, ?_, ?_, ?_⟩
      · simp [consHead]
      · unfold chunks; rw [hs]; exact hpush l
      · unfold chunks; rw [hs]; exact hb

theorem strip_append_breaks (s : Chars) (k : Nat) : strip (s ++ List.replicate k '\n') = strip s := by
  have hall : ∀ c ∈ List.replicate k '\n', isSpace c = true := by
    intro c hc; rw [List.eq_of_mem_replicate hc]; decide
  unfold strip
  unfold lstrip
  induction s with
  | nil =>
    have h1 := lstrip_append_space (t := []) hall
    unfold lstrip at h1
    rw [List.append_nil] at h1
    rw [List.nil_append, h1]
  | cons c s ih =>
    by_cases hc : isSpace c = true
    · rw [List.cons_append, List.dropWhile_cons_of_pos hc, List.dropWhile_cons_of_pos hc, ih]
    · rw [List.cons_append, List.dropWhile_cons_of_neg hc, List.dropWhile_cons_of_neg hc, ← List.cons_append, rstrip_append_space hall]

theorem splitKw_strip (w : Chars) (hne : w ≠ []) (hw : '\n' ∉ w) (ls : List Chars) (hg : ∀ x ∈ ls, GoodLine w x) :
    (splitKw w true 0 (joinWith ['\n'] ls)).map strip = chunkTexts w ls := by
  cases ls with
  | nil => rfl
  | cons l ls =>
    obtain ⟨a, bs, he, ⟨k, ha⟩, hb⟩ := splitKw_lines w hne hw l ls hg
    rw [he]
    unfold chunkTexts
    rw [List.map_cons, ha, strip_append_breaks]
    congr 1
    clear he ha hg
    generalize (chunks w (l :: ls)).2 = cs at hb
    induction hb with
    | nil => rfl
    | cons h _ ih =>
      obtain ⟨k, h⟩ := h
      rw [List.map_cons, List.map_cons, ih, h, strip_append_breaks]

theorem joinWith_snoc_nil (l : List Chars) : ∃ k, joinWith ['\n'] (l ++ [[]]) = joinWith ['\n'] l ++ List.replicate k '\n' := by
  cases l with
  | nil => exact ⟨0, rfl⟩
  | cons x xs => exact ⟨1, by rw [List.cons_append, joinWith_cons, joinWith_cons, nlLines_append]; simp [nlLines]⟩

/-- blank lines at the end change nothing -/
theorem chunkTexts_snoc (w : Chars) (ls : List Chars) : chunkTexts w (ls ++ [[]]) = chunkTexts w ls := by
  have key : ∀ ls : List Chars, ((chunks w (ls ++ [[]])).1 = (chunks w ls).1 ∨ (chunks w (ls ++ [[]])).1 = (chunks w ls).1 ++ [[]]) ∧
      (chunks w (ls ++ [[]])).2.map (fun c => strip (joinWith ['\n'] c)) = (chunks w ls).2.map (fun c => strip (joinWith ['\n'] c)) := by
    intro ls
    induction ls with
    | nil =>
      have : stripPrefix (w ++ [' ']) [] = none := by
        cases h : stripPrefix (w ++ [' ']) [] with
        | none => rfl
        | some r => have := stripPrefix_some.1 h; simp at this
      simp [chunks, this]
    | cons l ls ih =>
      obtain ⟨h1, h2⟩ := ih
      simp only [List.cons_append]
      unfold chunks
      cases stripPrefix (w ++ [' ']) l with
      | some x =>
        refine ⟨.inl rfl, ?_⟩
        simp only [List.map_cons, h2]
        congr 1
        rcases h1 with h1 | h1
        · rw [h1]
        · rw [h1, ← List.cons_append]
          obtain ⟨k, hk⟩ := joinWith_snoc_nil (x :: (chunks w ls).1)
          rw [hk, strip_append_breaks]
      | none =>
        refine ⟨?_, h2⟩
        rcases h1 with h1 | h1
        · left; simp [h1]
        · right; simp [h1]
  obtain ⟨h1, h2⟩ := key ls
  unfold chunkTexts
  rw [h2]
  congr 1
  rcases h1 with h1 | h1
  · rw [h1]
  · rw [h1]
    obtain ⟨k, hk⟩ := joinWith_snoc_nil (chunks w ls).1
    rw [hk, strip_append_breaks]

theorem chunkTexts_blanks (w : Chars) (ls : List Chars) (n : Nat) : chunkTexts w (ls ++ List.replicate n []) = chunkTexts w ls := by
  induction n with
  | zero => simp
  | succ n ih => rw [List.replicate_succ', ← List.append_assoc, chunkTexts_snoc, ih]

end NJ
