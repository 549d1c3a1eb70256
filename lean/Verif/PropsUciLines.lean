import Verif.PropsUciRender

/-!
# C82, first part: the text of any data without line breaks

The lines of the text are those of the packages, each without its runs of four blanks. Unlike in C34, runs of four blanks are
allowed in the data.
-/

namespace NJ

/-- the first line of a package, and for each block its first line and the others, without indentation -/
abbrev LinePkg := Chars × List (Chars × List Chars)

/-- all lines of it -/
def LinePkg.all (q : LinePkg) : List Chars := q.1 :: q.2.flatMap (fun b => b.1 :: b.2)

/-- lines without line break, the first letters of which are those of the keywords -/
structure LinePkg.Fit (q : LinePkg) : Prop where
  lines : ∀ l ∈ q.all, '\n' ∉ l
  pkg : q.1.head? = some 'p'
  hdr : ∀ b ∈ q.2, b.1.head? = some 'c'
  opt : ∀ b ∈ q.2, ∀ l ∈ b.2, kwOption <+: l ∨ kwList <+: l

def LinePkg.flat (q : LinePkg) : List Chars := [q.1, []] ++ q.2.flatMap (fun b => (b.1 :: b.2) ++ [[]]) ++ [[]]

def LinePkg.tabbedBlock (b : Chars × List Chars) : List Chars := b.1 :: b.2.map ('\t' :: ·)

def LinePkg.tabbed (q : LinePkg) : List Chars := [q.1, []] ++ q.2.flatMap (fun b => tabbedBlock b ++ [[]]) ++ [[]]

/-- as they are shown -/
def LinePkg.shown (q : LinePkg) : List Chars := q.1 :: [] :: q.2.flatMap (fun b => tabbedBlock b ++ [[]])

def LinePkg.body (q : LinePkg) : Chars := q.1 ++ nlLines (q.2.flatMap (fun b => [] :: tabbedBlock b))

theorem LinePkg.Fit.flat_ok {q : LinePkg} (h : q.Fit) : ∀ l ∈ q.flat, '\n' ∉ l := by
  intro l hl
  simp only [LinePkg.flat, List.mem_append, List.mem_flatMap, List.mem_cons, List.not_mem_nil, or_false] at hl
  have hb := h.lines
  simp only [LinePkg.all, List.mem_cons, List.mem_flatMap] at hb
  rcases hl with ((rfl | rfl) | ⟨b, hb', (rfl | hl) | rfl⟩) | rfl
  · exact hb _ (.inl rfl)
  · exact List.not_mem_nil
  · exact hb _ (.inr ⟨b, hb', .inl rfl⟩)
  · exact hb _ (.inr ⟨b, hb', .inr hl⟩)
  · exact List.not_mem_nil
  · exact List.not_mem_nil

theorem LinePkg.Fit.tab2 {q : LinePkg} (h : q.Fit) : q.flat.map tab2 = q.tabbed := by
  have h0 : NJ.tab2 [] = [] := tab2_other (by simp) (by simp)
  have h1 : NJ.tab2 q.1 = q.1 := tab2_other (by rw [h.pkg]; decide) (by rw [h.pkg]; decide)
  simp only [LinePkg.flat, LinePkg.tabbed, List.map_append, List.map_cons, List.map_nil, h0, h1, List.map_flatMap]
  congr 2
  apply List.flatMap_congr
  intro b hb
  unfold LinePkg.tabbedBlock
  rw [tab2_other (by rw [h.hdr b hb]; decide) (by rw [h.hdr b hb]; decide)]
  congr 2
  apply List.map_congr_left
  intro l hl
  rcases h.opt b hb l hl with ⟨t, rfl⟩ | ⟨t, rfl⟩
  · exact tab2_option t
  · exact tab2_list t

theorem line_stage23 {qs : List LinePkg} (h : ∀ q ∈ qs, q.Fit) :
    replaceAll ('\n' :: kwList) ('\n' :: '\t' :: kwList)
      (replaceAll ('\n' :: kwOption) ('\n' :: '\t' :: kwOption) (unl (qs.flatMap LinePkg.flat))) = unl (qs.flatMap LinePkg.tabbed) := by
  have hn : ∀ l ∈ qs.flatMap LinePkg.flat, '\n' ∉ l := by
    intro l hl
    obtain ⟨q, hq, hl⟩ := List.mem_flatMap.1 hl
    exact (h q hq).flat_ok l hl
  have hmap : qs.flatMap LinePkg.tabbed = (qs.flatMap LinePkg.flat).map tab2 := by
    rw [List.map_flatMap]
    exact List.flatMap_congr fun q hq => (h q hq).tab2.symm
  cases qs with
  | nil => rfl
  | cons q qs =>
    obtain ⟨ls, hls⟩ : ∃ ls, (q :: qs).flatMap LinePkg.flat = q.1 :: ls := ⟨_, by rw [List.flatMap_cons]; rfl⟩
    rw [hls] at hn hmap ⊢
    rw [replaceAll_tab _ kwo.2.1 kwo.2.2 _ _ hn, replaceAll_tab _ kwl.2.1 kwl.2.2, hmap]
    · have hp := (h q List.mem_cons_self).pkg
      rw [List.map_cons, List.map_map, tab2_other (by rw [hp]; decide) (by rw [hp]; decide)]
      rfl
    · intro x hx
      rcases List.mem_cons.1 hx with rfl | hx
      · exact hn _ (by simp)
      · obtain ⟨y, hy, rfl⟩ := List.mem_map.1 hx
        exact nonl_tabLine (hn y (by simp [hy]))

theorem line_unl (q : LinePkg) : unl q.tabbed = q.body ++ ['\n', '\n', '\n'] := by
  have key : ∀ bs : List (Chars × List Chars), '\n' :: '\n' :: (unl (bs.flatMap (fun b => LinePkg.tabbedBlock b ++ [[]])) ++ ['\n']) =
      nlLines (bs.flatMap (fun b => [] :: LinePkg.tabbedBlock b)) ++ ['\n', '\n', '\n'] := by
    intro bs
    induction bs with
    | nil => rfl
    | cons b bs ih =>
      rw [List.flatMap_cons, List.flatMap_cons, unl_append, nlLines_append, List.append_assoc (nlLines _), ← ih, unl_append]
      have h := nlLines_unl (LinePkg.tabbedBlock b) ('\n' :: (unl (bs.flatMap (fun b => LinePkg.tabbedBlock b ++ [[]])) ++ ['\n']))
      have e : unl [([] : Chars)] = ['\n'] := rfl
      rw [e, nlLines_cons]
      simp only [List.append_assoc, List.cons_append, List.nil_append] at h ⊢
      rw [h]
  unfold LinePkg.tabbed LinePkg.body
  rw [unl_append, unl_append, List.append_assoc q.1, ← key]
  simp [unl]

theorem LinePkg.Fit.block {q : LinePkg} (h : q.Fit) {b : Chars × List Chars} (hb : b ∈ q.2) : ∀ l ∈ tabbedBlock b, '\n' ∉ l ∧ l ≠ [] := by
  intro l hl
  have hall := h.lines
  simp only [LinePkg.all, List.mem_cons, List.mem_flatMap] at hall
  rcases List.mem_cons.1 hl with rfl | hl
  · refine ⟨hall _ (.inr ⟨b, hb, .inl rfl⟩), fun e => ?_⟩
    have := h.hdr b hb
    rw [e] at this; cases this
  · obtain ⟨x, hx, rfl⟩ := List.mem_map.1 hl
    refine ⟨fun hc => ?_, List.cons_ne_nil _ _⟩
    rcases List.mem_cons.1 hc with hc | hc
    · exact absurd hc (by decide)
    · exact hall _ (.inr ⟨b, hb, .inr hx⟩) hc

theorem LinePkg.Fit.runs_body {q : LinePkg} (h : q.Fit) (k : Nat) : runs k q.body = some 0 := by
  have key : ∀ bs : List (Chars × List Chars), (∀ b ∈ bs, ∀ l ∈ tabbedBlock b, '\n' ∉ l ∧ l ≠ []) →
      runs 0 (nlLines (bs.flatMap (fun b => [] :: tabbedBlock b))) = some 0 := by
    intro bs
    induction bs with
    | nil => intro _; rfl
    | cons b bs ih =>
      intro hb
      rw [List.flatMap_cons, nlLines_append, nlLines_cons, runs_append]
      simp only [List.nil_append, runs, if_true]
      rcases runs_nlLines_lines (hb b (by simp)) (k := 1) (by omega) with h1 | ⟨h1, _⟩
      · simp only [if_false, show ¬ (0 = 2) by omega]
        rw [h1]
        exact ih (fun b' hb' => hb b' (by simp [hb']))
      · cases h1
  unfold LinePkg.body
  rw [runs_append, runs_no_nl (h.lines _ List.mem_cons_self) (by intro e; have := h.pkg; rw [e] at this; cases this)]
  exact key _ fun b hb => h.block hb

theorem LinePkg.Fit.body_ne {q : LinePkg} (h : q.Fit) : q.body ≠ [] := by
  intro e
  have hh : q.body.head? = some 'p' := by
    unfold LinePkg.body
    have := h.pkg
    cases hq : q.1 with
    | nil => rw [hq] at this; cases this
    | cons c r => rw [hq] at this; exact this
  rw [e] at hh; cases hh

theorem line_stage4 {qs : List LinePkg} (h : ∀ q ∈ qs, q.Fit) :
    replaceAll ['\n', '\n', '\n'] ['\n', '\n'] (unl (qs.flatMap LinePkg.tabbed)) = qs.flatMap (fun q => q.body ++ ['\n', '\n']) := by
  have e : unl (qs.flatMap LinePkg.tabbed) = qs.flatMap (fun q => q.body ++ ['\n', '\n', '\n']) := by
    clear h
    induction qs with
    | nil => rfl
    | cons p data ih => rw [List.flatMap_cons, unl_append, ih, line_unl]; rfl
  rw [e]
  clear e
  induction qs with
  | nil => rfl
  | cons p data ih =>
    have hp := h p List.mem_cons_self
    have hr := hp.runs_body 0
    rw [List.flatMap_cons, List.flatMap_cons, replaceAll3 (not_triple_of_runs (by rw [hr]; simp)) (last_of_runs hr hp.body_ne),
      ih (fun q hq => h q (List.mem_cons_of_mem _ hq))]

theorem line_bodies (qs : List LinePkg) (hne : qs ≠ []) :
    ∃ s, qs.flatMap (fun q => q.body ++ ['\n', '\n']) = s ++ ['\n', '\n'] ∧ joinWith ['\n'] (qs.flatMap LinePkg.shown) = s ++ ['\n'] := by
  have hb : ∀ q : LinePkg, q.body ++ ['\n'] = joinWith ['\n'] q.shown := by
    intro p
    rw [LinePkg.shown, joinWith_cons, LinePkg.body, List.append_assoc]
    congr 1
    generalize p.2 = bs
    rw [nlLines_cons, List.nil_append]
    induction bs with
    | nil => rfl
    | cons b bs ih =>
      rw [List.flatMap_cons, List.flatMap_cons, nlLines_append, nlLines_append, List.append_assoc, ih, nlLines_cons, nlLines_append]
      simp [nlLines]
  have hj : ∀ (a b : List Chars), a ≠ [] → b ≠ [] → joinWith ['\n'] (a ++ b) = joinWith ['\n'] a ++ '\n' :: joinWith ['\n'] b := by
    intro a b ha hb
    cases a with
    | nil => exact absurd rfl ha
    | cons x a =>
      cases b with
      | nil => exact absurd rfl hb
      | cons y b => rw [List.cons_append, joinWith_cons, joinWith_cons, joinWith_cons, nlLines_append, nlLines_cons]; simp
  induction qs with
  | nil => exact absurd rfl hne
  | cons p data ih =>
    cases data with
    | nil =>
      refine ⟨p.body, by simp, ?_⟩
      rw [hb]; simp
    | cons q data =>
      obtain ⟨s, h1, h2⟩ := ih (by simp)
      refine ⟨p.body ++ ['\n', '\n'] ++ s, ?_, ?_⟩
      · rw [List.flatMap_cons, h1]; simp
      · rw [List.flatMap_cons, hj _ _ (by simp [LinePkg.shown]) (by simp [LinePkg.shown]), h2, ← hb]
        simp

/-- the steps of the clean up after the first, on lines that fit -/
theorem line_cleanup {qs : List LinePkg} (h : ∀ q ∈ qs, q.Fit) (hne : qs ≠ []) :
    dropFinalBreak (replaceAll ['\n', '\n', '\n'] ['\n', '\n'] (replaceAll ('\n' :: kwList) ('\n' :: '\t' :: kwList)
      (replaceAll ('\n' :: kwOption) ('\n' :: '\t' :: kwOption) (unl (qs.flatMap LinePkg.flat))))) = joinWith ['\n'] (qs.flatMap LinePkg.shown) := by
  rw [line_stage23 h, line_stage4 h]
  obtain ⟨s, h1, h2⟩ := line_bodies qs hne
  rw [h1, h2, dropFinalBreak_two]

/-! ## The lines of the data -/

/-- the lines of a package without runs of four blanks -/
def linePkgOf (reprC : Val → String) (p : String × List VDict) : LinePkg :=
  (r4 (pkgLine p), p.2.map (fun b => (r4 (hdrLine reprC b), ((shownOptions b).flatMap (flatOption reprC)).map r4)))

theorem r4_cons {c : Char} (hc : c ≠ ' ') (s : Chars) : r4 (c :: s) = c :: r4 s := by
  unfold r4
  refine replaceAll_nomatch _ _ (by decide) c s ?_
  rintro ⟨t, ht⟩
  exact hc (List.cons.inj ht).1.symm

theorem r4_pre {w : Chars} (h : ' ' ∉ w) (s : Chars) : r4 (w ++ s) = w ++ r4 s := by
  induction w with
  | nil => rfl
  | cons c w ih =>
    rw [List.cons_append, r4_cons (fun e => h (by rw [e]; exact List.mem_cons_self)), ih (fun e => h (List.mem_cons_of_mem _ e))]
    rfl

theorem mem_r4 {c : Char} : ∀ {s : Chars}, c ∈ r4 s → c ∈ s := by
  suffices h : ∀ n (s : Chars), s.length ≤ n → c ∈ r4 s → c ∈ s from @fun s hc => h _ s (Nat.le_refl _) hc
  have hne : NJ.sp 4 ≠ [] := by decide
  intro n
  induction n with
  | zero =>
    intro s hs hc
    rw [List.length_eq_zero_iff.1 (by omega : s.length = 0)] at hc
    cases hc
  | succ n ih =>
    intro s hs hc
    cases s with
    | nil => cases hc
    | cons x r =>
      by_cases hp : NJ.sp 4 <+: x :: r
      · obtain ⟨t, ht⟩ := hp
        have hlen := congrArg List.length ht
        simp only [List.length_append, List.length_cons, NJ.sp, List.length_replicate] at hlen
        rw [← ht] at hc ⊢
        unfold r4 at hc
        rw [replaceAll_match _ _ hne] at hc
        exact List.mem_append_right _ (ih t (by simp at hs; omega) hc)
      · unfold r4 at hc
        rw [replaceAll_nomatch _ _ hne _ _ hp] at hc
        rcases List.mem_cons.1 hc with rfl | hc
        · exact List.mem_cons_self
        · exact List.mem_cons_of_mem _ (ih r (by simp at hs; omega) hc)

theorem flatOption_kw (reprC : Val → String) (p : String × Val) {l : Chars} (hl : l ∈ flatOption reprC p) : (∃ t, l = kwOption ++ t) ∨ ∃ t, l = kwList ++ t := by
  unfold flatOption at hl
  split at hl
  · obtain ⟨v, _, rfl⟩ := List.mem_map.1 hl
    right; simp only [List.append_assoc]; exact ⟨_, rfl⟩
  · obtain ⟨v, _, rfl⟩ := List.mem_map.1 hl
    right; simp only [List.append_assoc]; exact ⟨_, rfl⟩
  · left; rw [List.mem_singleton.1 hl]; simp only [List.append_assoc]; exact ⟨_, rfl⟩
  · left; rw [List.mem_singleton.1 hl]; simp only [List.append_assoc]; exact ⟨_, rfl⟩

/-- no line of the packages has a line break -/
def UnbrokenUci (reprC : Val → String) (data : List (String × List VDict)) : Prop := ∀ p ∈ data, ∀ l ∈ packageLines reprC p, '\n' ∉ l

theorem linePkgOf_flat (reprC : Val → String) (p : String × List VDict) : (linePkgOf reprC p).flat = (flatPackage reprC p).map r4 := by
  unfold LinePkg.flat linePkgOf flatPackage flatBlock
  simp only [List.map_append, List.map_cons, List.map_nil, r4_nil, List.map_flatMap, List.flatMap_map]

theorem linePkgOf_shown (reprC : Val → String) (p : String × List VDict) : (linePkgOf reprC p).shown = (packageLines reprC p).map r4 := by
  rw [packageLines_eq]
  unfold LinePkg.shown linePkgOf LinePkg.tabbedBlock
  simp only [List.map_append, List.map_cons, List.map_nil, r4_nil, List.map_flatMap, List.flatMap_map, List.map_map]
  congr 2
  apply List.flatMap_congr
  intro b _
  rw [blockLines_eq]
  simp only [List.map_cons, List.map_flatMap, List.map_map]
  congr 3

theorem linePkgOf_fit {reprC : Val → String} {p : String × List VDict} (h : ∀ l ∈ packageLines reprC p, '\n' ∉ l) : (linePkgOf reprC p).Fit := by
  rw [packageLines_eq] at h
  have hb : ∀ b ∈ p.2, ∀ x ∈ blockLines reprC b, '\n' ∉ x := by
    intro b hb x hx
    refine h x ?_
    simp only [List.mem_cons, List.mem_flatMap]
    exact .inr (.inr ⟨b, hb, List.mem_append_left _ hx⟩)
  refine ⟨?_, ?_, ?_, ?_⟩
  · intro l hl
    unfold linePkgOf LinePkg.all at hl
    rcases List.mem_cons.1 hl with rfl | hl
    · exact fun hc => h _ List.mem_cons_self (mem_r4 hc)
    · obtain ⟨q, hq, hl⟩ := List.mem_flatMap.1 hl
      obtain ⟨b, hb', rfl⟩ := List.mem_map.1 hq
      have hin := hb b hb'
      rw [blockLines_eq] at hin
      rcases List.mem_cons.1 hl with rfl | hl
      · exact fun hc => hin _ List.mem_cons_self (mem_r4 hc)
      · obtain ⟨y, hy, rfl⟩ := List.mem_map.1 hl
        obtain ⟨o, ho, hy⟩ := List.mem_flatMap.1 hy
        refine fun hc => hin ('\t' :: y) ?_ (List.mem_cons_of_mem _ (mem_r4 hc))
        simp only [List.mem_cons, List.mem_flatMap, List.mem_map]
        exact .inr ⟨o, ho, y, hy, rfl⟩
  · unfold linePkgOf pkgLine
    simp only [List.append_assoc]
    rw [r4_pre (by decide)]
    rfl
  · intro q hq
    obtain ⟨b, _, rfl⟩ := List.mem_map.1 hq
    unfold hdrLine
    simp only [List.append_assoc]
    rw [r4_pre (by decide)]
    rfl
  · intro q hq l hl
    obtain ⟨b, _, rfl⟩ := List.mem_map.1 hq
    obtain ⟨y, hy, rfl⟩ := List.mem_map.1 hl
    obtain ⟨o, _, hy⟩ := List.mem_flatMap.1 hy
    rcases flatOption_kw reprC o hy with ⟨t, rfl⟩ | ⟨t, rfl⟩
    · exact .inl ⟨r4 t, (r4_pre (by decide) t).symm⟩
    · exact .inr ⟨r4 t, (r4_pre (by decide) t).symm⟩

/-- C82: for data without line breaks, the lines of the text are exactly the lines of its packages, each without its runs of four
blanks. -/
theorem C82_lines_of_data (reprC : Val → String) (data : List (String × List VDict)) (hne : data ≠ []) (h : UnbrokenUci reprC data) :
    renderUci reprC data = joinWith ['\n'] ((data.flatMap (packageLines reprC)).map r4) := by
  have hq : ∀ q ∈ data.map (linePkgOf reprC), q.Fit := by
    intro q hq
    obtain ⟨p, hp, rfl⟩ := List.mem_map.1 hq
    exact linePkgOf_fit (h p hp)
  have e1 : (data.flatMap (flatPackage reprC)).map r4 = (data.map (linePkgOf reprC)).flatMap LinePkg.flat := by
    rw [List.map_flatMap, List.flatMap_map]
    exact List.flatMap_congr fun p _ => (linePkgOf_flat reprC p).symm
  have e2 : (data.flatMap (packageLines reprC)).map r4 = (data.map (linePkgOf reprC)).flatMap LinePkg.shown := by
    rw [List.map_flatMap, List.flatMap_map]
    exact List.flatMap_congr fun p _ => (linePkgOf_shown reprC p).symm
  unfold renderUci uciCleanup
  simp only []
  rw [cleanup_stage1_any, e1, e2]
  exact line_cleanup hq (by simpa using hne)

end NJ
