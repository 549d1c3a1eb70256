import Verif.UciLemmas

/-!
# Properties of the rendered UCI text: C34, C35, C36
-/

namespace NJ

/-! ## Specification -/

/-- the lines of one option: `option key 'value'` or one `list key 'item'` per item -/
def optionLines (reprC : Val → String) (p : String × Val) : List Chars :=
  let line (kw : String) (v : Chars) : Chars := '\t' :: kw.toList ++ [' '] ++ p.1.toList ++ [' ', '\''] ++ v ++ ['\'']
  match p.2 with
  | .list l => l.map (fun v => line "list" (pyStr reprC v).toList)
  | .dict d => d.map (fun q => line "list" q.1.toList)
  | .bool true => [line "option" ['1']]
  | .bool false => [line "option" ['0']]
  | v => [line "option" (pyStr reprC v).toList]

/-- the options that are shown: neither empty nor null nor with a name that begins with a dot -/
def shownOptions (b : VDict) : VDict := b.filter (fun p => p.2 ≠ .str "" ∧ p.2 ≠ .none ∧ p.1.toList.head? ≠ some '.')

/-- the lines of a block -/
def blockLines (reprC : Val → String) (b : VDict) : List Chars :=
  ("config ".toList ++ fieldText reprC b ".type" ++ " '".toList ++ fieldText reprC b ".name" ++ "'".toList) ::
    (shownOptions b).flatMap (optionLines reprC)

/-- the lines of a package: its name, and its blocks, separated by blank lines -/
def packageLines (reprC : Val → String) (p : String × List VDict) : List Chars :=
  ("package ".toList ++ p.1.toList) :: [] :: p.2.flatMap (fun b => blockLines reprC b ++ [[]])

/-- a line without line break and without four blanks in a row -/
def CleanLine (l : Chars) : Prop := '\n' ∉ l ∧ ¬ [' ', ' ', ' ', ' '] <:+: l

/-- data all lines of which are clean -/
def CleanUci (reprC : Val → String) (data : List (String × List VDict)) : Prop :=
  ∀ p ∈ data, ∀ l ∈ packageLines reprC p, CleanLine l

/-! ## The template without indentation -/

/-- the lines of an option without indentation -/
def flatOption (reprC : Val → String) (p : String × Val) : List Chars :=
  match p.2 with
  | .list l => l.map (fun v => kwList ++ [' '] ++ p.1.toList ++ [' ', '\''] ++ (pyStr reprC v).toList ++ ['\''])
  | .dict d => d.map (fun q => kwList ++ [' '] ++ p.1.toList ++ [' ', '\''] ++ q.1.toList ++ ['\''])
  | .bool b => [kwOption ++ [' '] ++ p.1.toList ++ [' ', '\''] ++ [if b then '1' else '0'] ++ ['\'']]
  | v => [kwOption ++ [' '] ++ p.1.toList ++ [' ', '\''] ++ (pyStr reprC v).toList ++ ['\'']]

theorem optionLines_eq (reprC : Val → String) (p : String × Val) : optionLines reprC p = (flatOption reprC p).map ('\t' :: ·) := by
  obtain ⟨k, v⟩ := p
  cases v with
  | bool b => cases b <;> rfl
  | list l => simp only [optionLines, flatOption, List.map_map]; rfl
  | dict d => simp only [optionLines, flatOption, List.map_map]; rfl
  | none => rfl
  | int i => rfl
  | str s => rfl

def hdrLine (reprC : Val → String) (b : VDict) : Chars :=
  kwConfig ++ [' '] ++ fieldText reprC b ".type" ++ [' ', '\''] ++ fieldText reprC b ".name" ++ ['\'']

def pkgLine (p : String × List VDict) : Chars := kwPackage ++ [' '] ++ p.1.toList

def flatBlock (reprC : Val → String) (b : VDict) : List Chars := hdrLine reprC b :: (shownOptions b).flatMap (flatOption reprC)

def flatPackage (reprC : Val → String) (p : String × List VDict) : List Chars :=
  [pkgLine p, []] ++ p.2.flatMap (fun b => flatBlock reprC b ++ [[]]) ++ [[]]

/-- each line followed by a line break -/
def unl (ls : List Chars) : Chars := ls.flatMap (fun l => l ++ ['\n'])

theorem unl_append (a b : List Chars) : unl (a ++ b) = unl a ++ unl b := by simp [unl]

/-- `a` becomes `b` by removing indentation, whatever follows -/
def Out (a b : Chars) : Prop := ∀ s, replaceAll (sp 4) [] (a ++ s) = b ++ replaceAll (sp 4) [] s

theorem Out.append {a b a' b' : Chars} (h : Out a b) (h' : Out a' b') : Out (a ++ a') (b ++ b') := by
  intro s; rw [List.append_assoc, h, h', List.append_assoc]

theorem Out.sp {n : Nat} (k : Nat) (h : n = 4 * k) : Out (sp n) [] := by
  intro s; rw [h, replaceAll4_sp]; rfl

theorem Out.nil : Out [] [] := fun _ => rfl

/-- the line without the runs of four blanks -/
def r4 (w : Chars) : Chars := replaceAll (NJ.sp 4) [] w

theorem r4_break (w s : Chars) : r4 (w ++ '\n' :: s) = r4 w ++ '\n' :: r4 s := by
  have hne : NJ.sp 4 ≠ [] := by decide
  have hnl : '\n' ∉ NJ.sp 4 := by decide
  suffices h : ∀ n (w : Chars), w.length ≤ n → r4 (w ++ '\n' :: s) = r4 w ++ '\n' :: r4 s from h _ w (Nat.le_refl _)
  intro n
  induction n with
  | zero =>
    intro w hw
    have : w = [] := List.length_eq_zero_iff.1 (by omega)
    subst this
    exact replaceAll4_text (w := []) (by decide) (by decide) s
  | succ n ih =>
    intro w hw
    cases w with
    | nil => exact replaceAll4_text (w := []) (by decide) (by decide) s
    | cons c cs =>
      by_cases hp : NJ.sp 4 <+: c :: cs
      · obtain ⟨t, ht⟩ := hp
        unfold r4
        rw [← ht, List.append_assoc, replaceAll_match _ _ hne, replaceAll_match _ _ hne]
        have hlen := congrArg List.length ht
        simp only [List.length_append, List.length_cons, NJ.sp, List.length_replicate] at hlen
        exact ih t (by simp at hw; omega)
      · unfold r4
        have hp' : ¬ NJ.sp 4 <+: c :: (cs ++ '\n' :: s) := fun h => hp ((not_prefix_nl hnl (l := c :: cs)).1 h)
        rw [List.cons_append, replaceAll_nomatch _ _ hne _ _ hp, replaceAll_nomatch _ _ hne _ _ hp']
        have := ih cs (by simp at hw; omega)
        unfold r4 at this
        rw [this]; rfl

theorem r4_clean {w : Chars} (h : CleanLine w) : r4 w = w := by
  unfold r4
  exact replaceAll_of_not_infix h.2

theorem Out.line (w : Chars) : Out (w ++ ['\n']) (r4 w ++ ['\n']) := by
  intro s
  rw [List.append_assoc, List.append_assoc]
  exact r4_break w s

theorem Out.nl : Out ['\n'] ['\n'] := Out.line []

theorem Out.flatMap {α} {l : List α} {f g : α → Chars} (h : ∀ x ∈ l, Out (f x) (g x)) : Out (l.flatMap f) (l.flatMap g) := by
  induction l with
  | nil => exact Out.nil
  | cons x l ih => rw [List.flatMap_cons, List.flatMap_cons]; exact (h x (by simp)).append (ih (fun y hy => h y (by simp [hy])))

theorem Out.eq {a b : Chars} (h : Out a b) : replaceAll (NJ.sp 4) [] a = b := by
  have := h []
  rw [List.append_nil, replaceAll_nil, List.append_nil] at this
  exact this

theorem stmtText_eq (kw key v : Chars) : stmtText kw key v = (kw ++ [' '] ++ key ++ [' ', '\''] ++ v ++ ['\'']) ++ ['\n'] := by
  simp [stmtText]

theorem out_value (reprC : Val → String) (p : String × Val) :
    Out (rawValue reprC p.1.toList p.2) (unl ((flatOption reprC p).map r4)) := by
  obtain ⟨k, v⟩ := p
  have hstmt : ∀ kw v,
      Out (NJ.sp 20 ++ stmtText kw k.toList v ++ NJ.sp 16) (r4 (kw ++ [' '] ++ k.toList ++ [' ', '\''] ++ v ++ ['\'']) ++ ['\n']) := by
    intro kw v
    have h1 := ((Out.sp (n := 20) 5 rfl).append (Out.line (kw ++ [' '] ++ k.toList ++ [' ', '\''] ++ v ++ ['\'']))).append (Out.sp (n := 16) 4 rfl)
    rw [List.nil_append, List.append_nil] at h1
    rw [stmtText_eq]; exact h1
  have hlist : ∀ {α} (l : List α) (f : α → Chars),
      Out (NJ.sp 20 ++ l.flatMap (fun v => NJ.sp 24 ++ stmtText kwList k.toList (f v) ++ NJ.sp 20) ++ NJ.sp 16)
        (unl ((l.map (fun v => kwList ++ [' '] ++ k.toList ++ [' ', '\''] ++ f v ++ ['\''])).map r4)) := by
    intro α l f
    have h1 := ((Out.sp (n := 20) 5 rfl).append (Out.flatMap (l := l)
      (f := fun v => NJ.sp 24 ++ stmtText kwList k.toList (f v) ++ NJ.sp 20)
      (g := fun v => r4 (kwList ++ [' '] ++ k.toList ++ [' ', '\''] ++ f v ++ ['\'']) ++ ['\n']) (by
        intro x hx
        have := ((Out.sp (n := 24) 6 rfl).append (Out.line (kwList ++ [' '] ++ k.toList ++ [' ', '\''] ++ f x ++ ['\'']))).append (Out.sp (n := 20) 5 rfl)
        rw [List.nil_append, List.append_nil] at this
        rw [stmtText_eq]; exact this))).append (Out.sp (n := 16) 4 rfl)
    rw [List.nil_append, List.append_nil] at h1
    have e : unl ((l.map (fun v => kwList ++ [' '] ++ k.toList ++ [' ', '\''] ++ f v ++ ['\''])).map r4) =
        l.flatMap (fun v => r4 (kwList ++ [' '] ++ k.toList ++ [' ', '\''] ++ f v ++ ['\'']) ++ ['\n']) := by
      unfold unl; rw [List.map_map, List.flatMap_map]; rfl
    rw [e]; exact h1
  have one : ∀ x : Chars, unl [x] = x ++ ['\n'] := by intro x; simp [unl]
  cases v with
  | list l => exact hlist l (fun v => (pyStr reprC v).toList)
  | dict d => exact hlist d (fun q => q.1.toList)
  | bool b => simp only [flatOption, one, List.map_cons, List.map_nil]; exact hstmt _ _
  | none => simp only [flatOption, one, List.map_cons, List.map_nil]; exact hstmt _ _
  | int i => simp only [flatOption, one, List.map_cons, List.map_nil]; exact hstmt _ _
  | str s => simp only [flatOption, one, List.map_cons, List.map_nil]; exact hstmt _ _

theorem isRendered_iff (p : String × Val) : isRendered p = true ↔ p.2 ≠ .str "" ∧ p.2 ≠ .none ∧ p.1.toList.head? ≠ some '.' := by
  simp [isRendered, and_assoc]

theorem shown_cons_pos {p : String × Val} (hp : isRendered p = true) (b : VDict) : shownOptions (p :: b) = p :: shownOptions b := by
  unfold shownOptions
  rw [List.filter_cons_of_pos]
  simpa using (isRendered_iff p).1 hp

theorem shown_cons_neg {p : String × Val} (hp : ¬ isRendered p = true) (b : VDict) : shownOptions (p :: b) = shownOptions b := by
  unfold shownOptions
  rw [List.filter_cons_of_neg]
  intro hc
  exact hp ((isRendered_iff p).2 (by simpa using hc))

theorem out_options (reprC : Val → String) (b : VDict) :
    Out (b.flatMap (rawOption reprC)) (unl (((shownOptions b).flatMap (flatOption reprC)).map r4)) := by
  induction b with
  | nil => exact Out.nil
  | cons p b ih =>
    rw [List.flatMap_cons]
    by_cases hp : isRendered p = true
    · rw [shown_cons_pos hp, List.flatMap_cons, List.map_append, unl_append]
      refine Out.append ?_ ih
      unfold rawOption
      rw [if_pos hp]
      have := ((Out.sp (n := 12) 3 rfl).append (((Out.sp (n := 16) 4 rfl).append (out_value reprC p)).append (Out.sp (n := 12) 3 rfl))).append
        (Out.sp (n := 8) 2 rfl)
      simpa only [List.nil_append, List.append_nil] using this
    · rw [shown_cons_neg hp]
      have h1 := ((Out.sp (n := 12) 3 rfl).append Out.nil).append (Out.sp (n := 8) 2 rfl)
      have : Out (rawOption reprC p) [] := by
        unfold rawOption; rw [if_neg hp]; exact h1
      exact this.append ih

theorem r4_nil : r4 [] = [] := rfl

theorem out_block (reprC : Val → String) (b : VDict) :
    Out (rawBlock reprC b) (unl ((flatBlock reprC b ++ [[]]).map r4)) := by
  have h1 := (((((Out.sp (n := 8) 2 rfl).append (Out.line (hdrLine reprC b))).append
    (Out.sp (n := 8) 2 rfl)).append (out_options reprC b)).append Out.nl).append (Out.sp (n := 4) 1 rfl)
  have e1 : rawBlock reprC b = NJ.sp 8 ++ (hdrLine reprC b ++ ['\n']) ++ NJ.sp 8 ++ b.flatMap (rawOption reprC) ++ ['\n'] ++ NJ.sp 4 := by
    simp [rawBlock, hdrLine]
  have e2 : unl ((flatBlock reprC b ++ [[]]).map r4) =
      [] ++ (r4 (hdrLine reprC b) ++ ['\n']) ++ [] ++ unl (((shownOptions b).flatMap (flatOption reprC)).map r4) ++ ['\n'] ++ [] := by
    rw [List.map_append, unl_append, flatBlock, List.map_cons]
    generalize ((shownOptions b).flatMap (flatOption reprC)).map r4 = ls
    simp [unl, r4_nil]
  rw [e1, e2]; exact h1

theorem out_package (reprC : Val → String) (p : String × List VDict) :
    Out (rawPackage reprC p) (unl ((flatPackage reprC p).map r4)) := by
  have hb : Out (p.2.flatMap (rawBlock reprC)) (p.2.flatMap (fun b => unl ((flatBlock reprC b ++ [[]]).map r4))) :=
    Out.flatMap (fun b hb => out_block reprC b)
  have h1 := ((((Out.sp (n := 4) 1 rfl).append (Out.line (pkgLine p))).append Out.nl).append
    (Out.sp (n := 4) 1 rfl)).append (hb.append Out.nl)
  have e1 : rawPackage reprC p = NJ.sp 4 ++ (pkgLine p ++ ['\n']) ++ ['\n'] ++ NJ.sp 4 ++ (p.2.flatMap (rawBlock reprC) ++ ['\n']) := by
    simp [rawPackage, pkgLine]
  have e2 : unl ((flatPackage reprC p).map r4) =
      [] ++ (r4 (pkgLine p) ++ ['\n']) ++ ['\n'] ++ [] ++ (p.2.flatMap (fun b => unl ((flatBlock reprC b ++ [[]]).map r4)) ++ ['\n']) := by
    unfold flatPackage
    rw [List.map_append, List.map_append, unl_append, unl_append, List.map_flatMap]
    have e3 : unl (p.2.flatMap (fun b => (flatBlock reprC b ++ [[]]).map r4)) = p.2.flatMap (fun b => unl ((flatBlock reprC b ++ [[]]).map r4)) := by
      unfold unl; rw [List.flatMap_assoc]
    rw [e3]
    simp [unl, r4_nil]
  rw [e1, e2]; exact h1

/-- whatever the data, removing the indentation of the template gives the lines without their runs of four blanks -/
theorem cleanup_stage1_any (reprC : Val → String) (data : List (String × List VDict)) :
    replaceAll (sp 4) [] (rawUci reprC data) = unl ((data.flatMap (flatPackage reprC)).map r4) := by
  have := Out.eq (Out.flatMap (l := data) (f := rawPackage reprC) (g := fun p => unl ((flatPackage reprC p).map r4))
    (fun p _ => out_package reprC p))
  unfold rawUci
  rw [this, List.map_flatMap]
  unfold unl
  rw [List.flatMap_assoc]

theorem cleanLine_tab {l : Chars} : CleanLine ('\t' :: l) ↔ CleanLine l := by
  unfold CleanLine
  constructor
  · rintro ⟨h1, h2⟩
    exact ⟨fun h => h1 (List.mem_cons_of_mem _ h), fun ⟨a, b, h⟩ => h2 ⟨'\t' :: a, b, by rw [← h]; simp⟩⟩
  · rintro ⟨h1, h2⟩
    refine ⟨?_, ?_⟩
    · intro h
      rcases List.mem_cons.1 h with h | h
      · exact absurd h (by decide)
      · exact h1 h
    · rintro ⟨a, b, h⟩
      cases a with
      | nil => simp at h
      | cons x a => simp at h; exact h2 ⟨a, b, by rw [← h.2]; simp⟩

theorem kw_lines : ("config ".toList = kwConfig ++ [' ']) ∧ ("package ".toList = kwPackage ++ [' ']) ∧ (" '".toList = [' ', '\'']) ∧ ("'".toList = ['\'']) := by
  refine ⟨?_, ?_, ?_, ?_⟩ <;> rfl

theorem blockLines_eq (reprC : Val → String) (b : VDict) :
    blockLines reprC b = hdrLine reprC b :: (shownOptions b).flatMap (fun p => (flatOption reprC p).map ('\t' :: ·)) := by
  obtain ⟨h1, h2, h3, h4⟩ := kw_lines
  unfold blockLines hdrLine
  rw [h1, h3, h4]
  congr 1
  congr 1
  funext p
  exact optionLines_eq reprC p

theorem packageLines_eq (reprC : Val → String) (p : String × List VDict) :
    packageLines reprC p = pkgLine p :: [] :: p.2.flatMap (fun b => blockLines reprC b ++ [[]]) := by
  obtain ⟨h1, h2, h3, h4⟩ := kw_lines
  unfold packageLines pkgLine
  rw [h2]

theorem cleanLine_nil : CleanLine [] := ⟨by simp, by decide⟩

theorem clean_flat {reprC : Val → String} {p : String × List VDict} (h : ∀ l ∈ packageLines reprC p, CleanLine l) :
    ∀ l ∈ flatPackage reprC p, CleanLine l := by
  rw [packageLines_eq] at h
  intro l hl
  simp only [flatPackage, List.mem_append, List.mem_flatMap, List.mem_cons, List.not_mem_nil, or_false] at hl
  rcases hl with ((rfl | rfl) | ⟨b, hb, hl | rfl⟩) | rfl
  · exact h _ (by simp)
  · exact cleanLine_nil
  · simp only [flatBlock, List.mem_cons, List.mem_flatMap] at hl
    have hin : ∀ x ∈ blockLines reprC b, CleanLine x := by
      intro x hx
      refine h x ?_
      simp only [List.mem_cons, List.mem_flatMap]
      exact .inr (.inr ⟨b, hb, List.mem_append_left _ hx⟩)
    rw [blockLines_eq] at hin
    rcases hl with rfl | ⟨q, hq, hl⟩
    · exact hin _ (by simp)
    · refine cleanLine_tab.1 (hin ('\t' :: l) ?_)
      simp only [List.mem_cons, List.mem_flatMap, List.mem_map]
      exact .inr ⟨q, hq, l, hl, rfl⟩
  · exact cleanLine_nil
  · exact cleanLine_nil

theorem cleanup_stage1 (reprC : Val → String) (data : List (String × List VDict)) (h : CleanUci reprC data) :
    replaceAll (sp 4) [] (rawUci reprC data) = unl (data.flatMap (flatPackage reprC)) := by
  rw [cleanup_stage1_any]
  congr 1
  have : ∀ l ∈ data.flatMap (flatPackage reprC), r4 l = l := by
    intro l hl
    obtain ⟨p, hp, hl⟩ := List.mem_flatMap.1 hl
    exact r4_clean (clean_flat (h p hp) l hl)
  exact (List.map_congr_left this).trans (List.map_id _)

/-! ## Indentation -/

theorem unl_eq (l : Chars) (ls : List Chars) : unl (l :: ls) = joinWith ['\n'] (l :: (ls ++ [[]])) := by
  rw [joinWith_cons]
  induction ls generalizing l with
  | nil => simp [unl, nlLines]
  | cons x xs ih =>
    have e : unl (l :: x :: xs) = l ++ '\n' :: unl (x :: xs) := by simp [unl]
    rw [e, ih, List.cons_append, nlLines_cons]

theorem tabLine_nil {w : Chars} (hne : w ≠ []) : tabLine w [] = [] := by
  unfold tabLine
  rw [if_neg]
  rintro ⟨t, ht⟩
  simp at ht; exact hne ht.1

theorem replaceAll_tab (w : Chars) (hne : w ≠ []) (hw : '\n' ∉ w) (l : Chars) (ls : List Chars) (h : ∀ x ∈ l :: ls, '\n' ∉ x) :
    replaceAll ('\n' :: w) ('\n' :: '\t' :: w) (unl (l :: ls)) = unl (l :: ls.map (tabLine w)) := by
  rw [unl_eq, unl_eq, joinWith_cons, joinWith_cons, replaceAll_nl_text _ _ (h l (by simp)), replaceAll_nlLines w hw]
  · rw [List.map_append, List.map_cons, List.map_nil, tabLine_nil hne]
  · intro x hx
    rcases List.mem_append.1 hx with hx | hx
    · exact h x (by simp [hx])
    · simp at hx; subst hx; simp

theorem tabLine_ne {w l : Chars} (h : w.head? ≠ l.head?) (hne : w ≠ []) : tabLine w l = l := by
  unfold tabLine
  rw [if_neg]
  rintro ⟨t, ht⟩
  cases w with
  | nil => exact hne rfl
  | cons c w => subst ht; exact h rfl

theorem tabLine_pre (w t : Chars) : tabLine w (w ++ t) = '\t' :: (w ++ t) := by
  unfold tabLine; rw [if_pos (List.prefix_append _ _)]

/-- both indentation steps -/
def tab2 (l : Chars) : Chars := tabLine kwList (tabLine kwOption l)

theorem kwo : kwOption.head? = some 'o' ∧ kwOption ≠ [] ∧ '\n' ∉ kwOption := by decide
theorem kwl : kwList.head? = some 'l' ∧ kwList ≠ [] ∧ '\n' ∉ kwList := by decide
theorem kwc : kwConfig.head? = some 'c' ∧ kwConfig ≠ [] ∧ '\n' ∉ kwConfig := by decide
theorem kwp : kwPackage.head? = some 'p' ∧ kwPackage ≠ [] ∧ '\n' ∉ kwPackage := by decide

theorem tab2_other {l : Chars} (h1 : l.head? ≠ some 'o') (h2 : l.head? ≠ some 'l') : tab2 l = l := by
  unfold tab2
  rw [tabLine_ne (w := kwOption) (by rw [kwo.1]; exact fun e => h1 e.symm) kwo.2.1,
    tabLine_ne (w := kwList) (by rw [kwl.1]; exact fun e => h2 e.symm) kwl.2.1]

theorem tab2_option (t : Chars) : tab2 (kwOption ++ t) = '\t' :: (kwOption ++ t) := by
  unfold tab2
  rw [tabLine_pre, tabLine_ne (w := kwList) (by rw [kwl.1]; simp) kwl.2.1]

theorem tab2_list (t : Chars) : tab2 (kwList ++ t) = '\t' :: (kwList ++ t) := by
  unfold tab2
  have h : (kwList ++ t).head? = some 'l' := rfl
  rw [tabLine_ne (w := kwOption) (by rw [kwo.1, h]; decide) kwo.2.1, tabLine_pre]

theorem tab2_flatOption (reprC : Val → String) (p : String × Val) :
    (flatOption reprC p).map tab2 = (flatOption reprC p).map ('\t' :: ·) := by
  apply List.map_congr_left
  intro l hl
  have : (∃ t, l = kwOption ++ t) ∨ ∃ t, l = kwList ++ t := by
    unfold flatOption at hl
    split at hl
    · obtain ⟨v, _, rfl⟩ := List.mem_map.1 hl
      right; simp only [List.append_assoc]; exact ⟨_, rfl⟩
    · obtain ⟨v, _, rfl⟩ := List.mem_map.1 hl
      right; simp only [List.append_assoc]; exact ⟨_, rfl⟩
    · left; rw [List.mem_singleton.1 hl]; simp only [List.append_assoc]; exact ⟨_, rfl⟩
    · left; rw [List.mem_singleton.1 hl]; simp only [List.append_assoc]; exact ⟨_, rfl⟩
  rcases this with ⟨t, rfl⟩ | ⟨t, rfl⟩
  · exact tab2_option t
  · exact tab2_list t

theorem head_pkgLine (p : String × List VDict) : (pkgLine p).head? = some 'p' := rfl
theorem head_hdrLine (reprC : Val → String) (b : VDict) : (hdrLine reprC b).head? = some 'c' := rfl

/-- the lines of the package with indentation, before blank lines are reduced -/
def tabbedPackage (reprC : Val → String) (p : String × List VDict) : List Chars :=
  [pkgLine p, []] ++ p.2.flatMap (fun b => blockLines reprC b ++ [[]]) ++ [[]]

theorem tab2_package (reprC : Val → String) (p : String × List VDict) : (flatPackage reprC p).map tab2 = tabbedPackage reprC p := by
  have h0 : tab2 [] = [] := tab2_other (by simp) (by simp)
  have h1 : tab2 (pkgLine p) = pkgLine p := tab2_other (by rw [head_pkgLine]; decide) (by rw [head_pkgLine]; decide)
  simp only [flatPackage, tabbedPackage, List.map_append, List.map_cons, List.map_nil, h0, h1, List.map_flatMap]
  congr 3
  funext b
  congr 1
  rw [blockLines_eq, flatBlock, List.map_cons, List.map_flatMap,
    tab2_other (by rw [head_hdrLine]; decide) (by rw [head_hdrLine]; decide)]
  congr 2
  funext q
  exact tab2_flatOption reprC q

theorem nonl_tabLine {w l : Chars} (h : '\n' ∉ l) : '\n' ∉ tabLine w l := by
  unfold tabLine
  split
  · intro hc; rcases List.mem_cons.1 hc with hc | hc
    · exact absurd hc (by decide)
    · exact h hc
  · exact h

theorem cleanup_stage23 (reprC : Val → String) (data : List (String × List VDict)) (h : CleanUci reprC data) :
    replaceAll ('\n' :: kwList) ('\n' :: '\t' :: kwList)
      (replaceAll ('\n' :: kwOption) ('\n' :: '\t' :: kwOption) (unl (data.flatMap (flatPackage reprC)))) =
    unl (data.flatMap (tabbedPackage reprC)) := by
  have hn : ∀ l ∈ data.flatMap (flatPackage reprC), '\n' ∉ l := by
    intro l hl
    obtain ⟨p, hp, hl⟩ := List.mem_flatMap.1 hl
    exact (clean_flat (h p hp) l hl).1
  have hmap : data.flatMap (tabbedPackage reprC) = (data.flatMap (flatPackage reprC)).map tab2 := by
    rw [List.map_flatMap]
    congr 1
    funext p
    exact (tab2_package reprC p).symm
  cases data with
  | nil => rfl
  | cons p data =>
    obtain ⟨ls, hls⟩ : ∃ ls, (p :: data).flatMap (flatPackage reprC) = pkgLine p :: ls := ⟨_, by rw [List.flatMap_cons]; rfl⟩
    rw [hls] at hn hmap ⊢
    rw [replaceAll_tab _ kwo.2.1 kwo.2.2 _ _ hn, replaceAll_tab _ kwl.2.1 kwl.2.2, hmap]
    · rw [List.map_cons, List.map_map]
      have h1 : tab2 (pkgLine p) = pkgLine p := tab2_other (by rw [head_pkgLine]; decide) (by rw [head_pkgLine]; decide)
      rw [h1]; rfl
    · intro x hx
      rcases List.mem_cons.1 hx with rfl | hx
      · exact hn _ (by simp)
      · obtain ⟨y, hy, rfl⟩ := List.mem_map.1 hx
        exact nonl_tabLine (hn y (by simp [hy]))

/-! ## Blank lines -/

/-- the text of a package without the line breaks at its end -/
def bodyText (reprC : Val → String) (p : String × List VDict) : Chars :=
  pkgLine p ++ nlLines (p.2.flatMap (fun b => [] :: blockLines reprC b))

theorem nlLines_unl (ls : List Chars) (x : Chars) : '\n' :: (unl ls ++ x) = nlLines ls ++ '\n' :: x := by
  induction ls with
  | nil => rfl
  | cons l ls ih =>
    have e : unl (l :: ls) = l ++ '\n' :: unl ls := by simp [unl]
    rw [e, nlLines_cons]
    simp only [List.append_assoc, List.cons_append]
    rw [ih]

theorem unl_tabbed (reprC : Val → String) (p : String × List VDict) :
    unl (tabbedPackage reprC p) = bodyText reprC p ++ ['\n', '\n', '\n'] := by
  have key : ∀ bs : List VDict, '\n' :: '\n' :: (unl (bs.flatMap (fun b => blockLines reprC b ++ [[]])) ++ ['\n']) =
      nlLines (bs.flatMap (fun b => [] :: blockLines reprC b)) ++ ['\n', '\n', '\n'] := by
    intro bs
    induction bs with
    | nil => rfl
    | cons b bs ih =>
      rw [List.flatMap_cons, List.flatMap_cons, unl_append, nlLines_append, List.append_assoc (nlLines _), ← ih, unl_append]
      have h := nlLines_unl (blockLines reprC b) ('\n' :: (unl (bs.flatMap (fun b => blockLines reprC b ++ [[]])) ++ ['\n']))
      have e : unl [([] : Chars)] = ['\n'] := rfl
      rw [e, nlLines_cons]
      simp only [List.append_assoc, List.cons_append, List.nil_append] at h ⊢
      rw [h]
  unfold tabbedPackage bodyText
  rw [unl_append, unl_append, List.append_assoc (pkgLine p), ← key]
  simp [unl]

theorem runs_nlLines_lines {ls : List Chars} (h : ∀ l ∈ ls, '\n' ∉ l ∧ l ≠ []) {k : Nat} (hk : k ≤ 1) :
    runs k (nlLines ls) = some 0 ∨ (ls = [] ∧ runs k (nlLines ls) = some k) := by
  induction ls generalizing k with
  | nil => right; exact ⟨rfl, rfl⟩
  | cons l ls ih =>
    left
    obtain ⟨h1, h2⟩ := h l (by simp)
    rw [nlLines_cons]
    have hk2 : ¬ k = 2 := by omega
    simp only [runs, hk2, if_true, if_false]
    rw [runs_append, runs_no_nl h1 h2]
    rcases ih (fun x hx => h x (by simp [hx])) (k := 0) (by omega) with h | ⟨_, h⟩ <;> exact h

theorem clean_block {reprC : Val → String} {p : String × List VDict} (h : ∀ l ∈ packageLines reprC p, CleanLine l) {b : VDict} (hb : b ∈ p.2) :
    ∀ l ∈ blockLines reprC b, '\n' ∉ l ∧ l ≠ [] := by
  intro l hl
  refine ⟨?_, ?_⟩
  · rw [packageLines_eq] at h
    refine (h l ?_).1
    simp only [List.mem_cons, List.mem_flatMap]
    exact .inr (.inr ⟨b, hb, List.mem_append_left _ hl⟩)
  · rw [blockLines_eq] at hl
    rcases List.mem_cons.1 hl with rfl | hl
    · intro e
      have := head_hdrLine reprC b
      rw [e] at this; cases this
    · obtain ⟨q, _, hl⟩ := List.mem_flatMap.1 hl
      obtain ⟨x, _, rfl⟩ := List.mem_map.1 hl
      simp

theorem runs_body {reprC : Val → String} {p : String × List VDict} (h : ∀ l ∈ packageLines reprC p, CleanLine l) (k : Nat) :
    runs k (bodyText reprC p) = some 0 := by
  have hp : '\n' ∉ pkgLine p := by
    rw [packageLines_eq] at h
    exact (h _ (by simp)).1
  have key : ∀ bs : List VDict, (∀ b ∈ bs, ∀ l ∈ blockLines reprC b, '\n' ∉ l ∧ l ≠ []) →
      runs 0 (nlLines (bs.flatMap (fun b => [] :: blockLines reprC b))) = some 0 := by
    intro bs
    induction bs with
    | nil => intro _; rfl
    | cons b bs ih =>
      intro hb
      rw [List.flatMap_cons, nlLines_append, nlLines_cons, runs_append]
      simp only [List.nil_append, runs, if_true]
      have h1 := runs_nlLines_lines (hb b (by simp)) (k := 1) (by omega)
      rcases h1 with h1 | ⟨h1, _⟩
      · simp only [if_false, show ¬ (0 = 2) by omega]
        rw [h1]
        exact ih (fun b' hb' => hb b' (by simp [hb']))
      · rw [blockLines_eq] at h1; cases h1
  unfold bodyText
  rw [runs_append, runs_no_nl hp (by intro e; have := head_pkgLine p; rw [e] at this; cases this)]
  exact key _ (fun b hb => clean_block h hb)

theorem last_of_runs {s : Chars} {k : Nat} (h : runs k s = some 0) (hne : s ≠ []) : s.getLast? ≠ some '\n' := by
  intro hl
  have hs : s = s.dropLast ++ ['\n'] := by
    have := List.dropLast_append_getLast? '\n' hl
    exact this.symm
  rw [hs, runs_append] at h
  cases hr : runs k s.dropLast with
  | none => rw [hr] at h; cases h
  | some j =>
    rw [hr] at h
    simp only [Option.bind_some, runs, if_true] at h
    split at h
    · cases h
    · cases h

theorem body_ne_nil (reprC : Val → String) (p : String × List VDict) : bodyText reprC p ≠ [] := by
  intro e
  have h : (bodyText reprC p).head? = some 'p' := rfl
  rw [e] at h; cases h

theorem cleanup_stage4 (reprC : Val → String) (data : List (String × List VDict)) (h : CleanUci reprC data) :
    replaceAll ['\n', '\n', '\n'] ['\n', '\n'] (unl (data.flatMap (tabbedPackage reprC))) =
      data.flatMap (fun p => bodyText reprC p ++ ['\n', '\n']) := by
  have e : unl (data.flatMap (tabbedPackage reprC)) = data.flatMap (fun p => bodyText reprC p ++ ['\n', '\n', '\n']) := by
    clear h
    induction data with
    | nil => rfl
    | cons p data ih => rw [List.flatMap_cons, unl_append, ih, unl_tabbed]; rfl
  rw [e]
  clear e
  induction data with
  | nil => rfl
  | cons p data ih =>
    have hp := h p (by simp)
    have hr := runs_body hp 0
    rw [List.flatMap_cons, List.flatMap_cons, replaceAll3 (not_triple_of_runs (by rw [hr]; simp)) (last_of_runs hr (body_ne_nil reprC p)),
      ih (fun q hq => h q (by simp [hq]))]

theorem dropFinalBreak_two (s : Chars) : dropFinalBreak (s ++ ['\n', '\n']) = s ++ ['\n'] := by
  unfold dropFinalBreak
  simp

/-- the text as lines -/
theorem bodies_eq (reprC : Val → String) (data : List (String × List VDict)) (hne : data ≠ []) :
    ∃ s, data.flatMap (fun p => bodyText reprC p ++ ['\n', '\n']) = s ++ ['\n', '\n'] ∧
      joinWith ['\n'] (data.flatMap (packageLines reprC)) = s ++ ['\n'] := by
  have hb : ∀ p, bodyText reprC p ++ ['\n'] = joinWith ['\n'] (packageLines reprC p) := by
    intro p
    rw [packageLines_eq, joinWith_cons, bodyText, List.append_assoc]
    congr 1
    generalize p.2 = bs
    rw [nlLines_cons, List.nil_append]
    induction bs with
    | nil => rfl
    | cons b bs ih =>
      rw [List.flatMap_cons, List.flatMap_cons, nlLines_append, nlLines_append, List.append_assoc, ih, nlLines_cons, nlLines_append]
      simp [nlLines]
  have hj : ∀ (a b : List Chars), a ≠ [] → b ≠ [] → joinWith ['\n'] (a ++ b) = joinWith ['\n'] a ++ '\n' :: joinWith ['\n'] b := by
    intro a b ha hb
    cases a with
    | nil => exact absurd rfl ha
    | cons x a =>
      cases b with
      | nil => exact absurd rfl hb
      | cons y b => rw [List.cons_append, joinWith_cons, joinWith_cons, joinWith_cons, nlLines_append, nlLines_cons]; simp
  induction data with
  | nil => exact absurd rfl hne
  | cons p data ih =>
    cases data with
    | nil =>
      refine ⟨bodyText reprC p, by simp, ?_⟩
      rw [hb]; simp
    | cons q data =>
      obtain ⟨s, h1, h2⟩ := ih (by simp)
      refine ⟨bodyText reprC p ++ ['\n', '\n'] ++ s, ?_, ?_⟩
      · rw [List.flatMap_cons, h1]; simp
      · rw [List.flatMap_cons, hj _ _ (by rw [packageLines_eq]; simp) (by rw [List.flatMap_cons, packageLines_eq]; simp), h2, ← hb]
        simp

/-! ## C34 -/

/-- C34: for clean data the rendered document is exactly the list of lines of its packages: for each package its name and a blank
line, for each block its `config` line, one line per shown option or list item, in order, and a blank line. -/
theorem C34_exact_lines (reprC : Val → String) (data : List (String × List VDict)) (hne : data ≠ []) (h : CleanUci reprC data) :
    renderUci reprC data = joinWith ['\n'] (data.flatMap (packageLines reprC)) := by
  unfold renderUci uciCleanup
  simp only []
  rw [cleanup_stage1 reprC data h, cleanup_stage23 reprC data h, cleanup_stage4 reprC data h]
  obtain ⟨s, h1, h2⟩ := bodies_eq reprC data hne
  rw [h1, h2, dropFinalBreak_two]

theorem C34_no_packages (reprC : Val → String) : renderUci reprC [] = [] := rfl

/-! ## C36 -/

/-- C36: the text of clean data has no three line breaks in a row and ends with exactly one. -/
theorem C36_normal_form (reprC : Val → String) (data : List (String × List VDict)) (hne : data ≠ []) (h : CleanUci reprC data) :
    ¬ ['\n', '\n', '\n'] <:+: renderUci reprC data ∧ ['\n'] <:+ renderUci reprC data ∧ ¬ ['\n', '\n'] <:+ renderUci reprC data := by
  obtain ⟨s, h1, h2⟩ := bodies_eq reprC data hne
  rw [C34_exact_lines reprC data hne h, h2]
  have key : ∀ data : List (String × List VDict), CleanUci reprC data → data ≠ [] → ∀ k,
      runs k (data.flatMap (fun p => bodyText reprC p ++ ['\n', '\n'])) = some 2 := by
    intro data
    induction data with
    | nil => intro _ h; exact absurd rfl h
    | cons p data ih =>
      intro hc _ k
      rw [List.flatMap_cons, runs_append, runs_append, runs_body (hc p (by simp))]
      show runs 2 _ = _
      cases data with
      | nil => rfl
      | cons q data => exact ih (fun x hx => hc x (by simp at hx ⊢; exact .inr hx)) (by simp) 2
  have hr := key data h hne 0
  rw [h1] at hr
  have hs : runs 0 s = some 0 := by
    rw [runs_append] at hr
    cases hrs : runs 0 s with
    | none => rw [hrs] at hr; cases hr
    | some j =>
      rw [hrs] at hr
      have hj := runs_le (by omega) hrs
      simp only [Option.bind_some, runs, if_true] at hr
      match j, hj with
      | 0, _ => rfl
      | 1, _ => simp at hr
      | 2, _ => simp at hr
  refine ⟨?_, ⟨s, rfl⟩, ?_⟩
  · apply not_triple_of_runs
    rw [runs_append, hs]; simp [runs]
  · rintro ⟨t, ht⟩
    have hs' : s = t ++ ['\n'] := by
      have : (t ++ ['\n']) ++ ['\n'] = s ++ ['\n'] := by rw [← ht]; simp
      exact (List.append_cancel_right this).symm
    refine last_of_runs hs ?_ (by rw [hs']; simp)
    rw [hs']; simp

/-! ## C35 -/

/-- the block without the options that are not shown -/
def keepShown (b : VDict) : VDict :=
  b.filter (fun p => (p.2 ≠ .str "" ∧ p.2 ≠ .none ∧ p.1.toList.head? ≠ some '.') ∨ p.1 = ".type" ∨ p.1 = ".name")

/-- a value with a boolean written as the text 1 or 0 -/
def boolAsText : Val → Val
  | .bool true => .str "1"
  | .bool false => .str "0"
  | v => v

/-- the options of a block with booleans written as 1 and 0 -/
def boolsAsText (b : VDict) : VDict := b.map (fun p => if p.1 = ".type" ∨ p.1 = ".name" then p else (p.1, boolAsText p.2))

theorem renderUci_congr (reprC : Val → String) (data data' : List (String × List VDict))
    (h : data.flatMap (flatPackage reprC) = data'.flatMap (flatPackage reprC)) : renderUci reprC data = renderUci reprC data' := by
  unfold renderUci uciCleanup
  simp only []
  rw [cleanup_stage1_any, cleanup_stage1_any, h]

theorem fieldText_filter (reprC : Val → String) (f : String × Val → Bool) (b : VDict) (k : String) (hk : ∀ v, f (k, v) = true) :
    fieldText reprC (b.filter f) k = fieldText reprC b k := by
  have : Dict.get? (b.filter f) k = Dict.get? b k := by
    induction b with
    | nil => rfl
    | cons p b ih =>
      obtain ⟨k', v⟩ := p
      by_cases hf : f (k', v) = true
      · rw [List.filter_cons_of_pos hf, Dict.get?_cons, Dict.get?_cons, ih]
      · rw [List.filter_cons_of_neg hf, Dict.get?_cons, ih, if_neg]
        rintro rfl; exact hf (hk v)
  unfold fieldText
  rw [this]

/-- C35: options whose value is empty or null, and options whose name begins with a dot (other than the type and name of the
block), leave no trace in the output: removing them from the data gives the same text. For all data, clean or not. -/
theorem C35_hidden_options (reprC : Val → String) (data : List (String × List VDict)) :
    renderUci reprC (data.map (fun p => (p.1, p.2.map keepShown))) = renderUci reprC data := by
  apply renderUci_congr
  rw [List.flatMap_map]
  congr 1
  funext p
  simp only [flatPackage, pkgLine, List.flatMap_map]
  congr 3
  funext b
  congr 1
  unfold flatBlock
  have e1 : hdrLine reprC (keepShown b) = hdrLine reprC b := by
    unfold hdrLine keepShown
    rw [fieldText_filter _ _ _ _ (by intro v; simp), fieldText_filter _ _ _ _ (by intro v; simp)]
  have e2 : shownOptions (keepShown b) = shownOptions b := by
    unfold shownOptions keepShown
    rw [List.filter_filter]
    apply List.filter_congr
    intro p hp
    by_cases h : p.2 ≠ .str "" ∧ p.2 ≠ .none ∧ p.1.toList.head? ≠ some '.'
    · simp [h]
    · simp [h]
  rw [e1, e2]

/-- C35: booleans are written as 1 and 0. -/
theorem C35_booleans (reprC : Val → String) (data : List (String × List VDict)) :
    renderUci reprC (data.map (fun p => (p.1, p.2.map boolsAsText))) = renderUci reprC data := by
  apply renderUci_congr
  rw [List.flatMap_map]
  congr 1
  funext p
  simp only [flatPackage, pkgLine, List.flatMap_map]
  congr 3
  funext b
  congr 1
  unfold flatBlock
  have hget : ∀ (b : VDict) (k : String), (k = ".type" ∨ k = ".name") → Dict.get? (boolsAsText b) k = Dict.get? b k := by
    intro b k hk
    induction b with
    | nil => rfl
    | cons q b ih =>
      obtain ⟨k', v⟩ := q
      simp only [boolsAsText, List.map_cons] at ih ⊢
      split
      · rw [Dict.get?_cons, Dict.get?_cons, ih]
      · next hq =>
        rw [Dict.get?_cons, Dict.get?_cons, ih, if_neg, if_neg]
        · rintro rfl; exact hq hk
        · rintro rfl; exact hq hk
  have e1 : hdrLine reprC (boolsAsText b) = hdrLine reprC b := by
    unfold hdrLine fieldText
    rw [hget b ".type" (.inl rfl), hget b ".name" (.inr rfl)]
  rw [e1]
  congr 1
  induction b with
  | nil => rfl
  | cons q b ih =>
    obtain ⟨k, v⟩ := q
    have hcons : boolsAsText ((k, v) :: b) = (if k = ".type" ∨ k = ".name" then (k, v) else (k, boolAsText v)) :: boolsAsText b := rfl
    rw [hcons]
    split
    · next hk =>
      have hd : ¬ isRendered (k, v) = true := by
        rw [isRendered_iff]
        rcases hk with rfl | rfl <;> (intro h; refine h.2.2 ?_; simp only []; decide)
      rw [shown_cons_neg hd, shown_cons_neg hd, ih]
      unfold hdrLine fieldText
      rw [hget b ".type" (.inl rfl), hget b ".name" (.inr rfl)]
    · have hb : hdrLine reprC (boolsAsText b) = hdrLine reprC b := by
        unfold hdrLine fieldText
        rw [hget b ".type" (.inl rfl), hget b ".name" (.inr rfl)]
      have hr : isRendered (k, boolAsText v) = isRendered (k, v) := by
        cases v with
        | bool x =>
          have h0 : (Val.str "0" != Val.str "" && Val.str "0" != Val.none) = (Val.bool false != Val.str "" && Val.bool false != Val.none) := by decide
          have h1 : (Val.str "1" != Val.str "" && Val.str "1" != Val.none) = (Val.bool true != Val.str "" && Val.bool true != Val.none) := by decide
          cases x
          · simp only [isRendered, boolAsText, h0]
          · simp only [isRendered, boolAsText, h1]
        | _ => rfl
      have hf : flatOption reprC (k, boolAsText v) = flatOption reprC (k, v) := by
        cases v with
        | bool x =>
          have h0 : "0".toList = ['0'] := by decide
          have h1 : "1".toList = ['1'] := by decide
          cases x
          · simp [flatOption, boolAsText, pyStr, h0]
          · simp [flatOption, boolAsText, pyStr, h1]
        | _ => rfl
      by_cases hp : isRendered (k, v) = true
      · rw [shown_cons_pos (by rw [hr]; exact hp), shown_cons_pos hp, List.flatMap_cons, List.flatMap_cons, ih hb, hf]
      · rw [shown_cons_neg (by rw [hr]; exact hp), shown_cons_neg hp, ih hb]

/-! ## Examples -/

/-- non-trivial data meeting the conditions -/
def sampleUci : List (String × List VDict) :=
  [("system", [[(".type", .str "system"), (".name", .str "system"), ("hostname", .str "my router"), ("log", .bool true), ("empty", .str "")]]),
   ("network", []),
   ("firewall", [[(".type", .str "zone"), (".name", .str "zone_1"), ("n", .int 3), ("network", .list [.str "lan", .str "wan"])],
     [(".type", .str "rule"), (".name", .str "r"), ("x", .none)]])]

instance (l : Chars) : Decidable (CleanLine l) := inferInstanceAs (Decidable (_ ∧ _))
instance (reprC : Val → String) (data : List (String × List VDict)) : Decidable (CleanUci reprC data) :=
  inferInstanceAs (Decidable (∀ p ∈ data, ∀ l ∈ packageLines reprC p, CleanLine l))

example : CleanUci (fun _ => "") sampleUci := by decide +kernel
example : renderUci (fun _ => "") sampleUci =
    "package system\n\nconfig system 'system'\n\toption hostname 'my router'\n\toption log '1'\n\npackage network\n\npackage firewall\n\nconfig zone 'zone_1'\n\toption n '3'\n\tlist network 'lan'\n\tlist network 'wan'\n\nconfig rule 'r'\n".toList := by
  decide +kernel

end NJ
