import Verif.PropsUciRound
import Verif.Backend

/-!
# The archive of the OpenWrt backend: C30, C37
-/

namespace NJ

/-! ## Splitting a document into its packages, exactly -/

/-- inside a piece the split goes on unchanged -/
theorem splitKw_piece (w : Chars) (hw : '\n' ∉ w) (x : Chars) (ls : List Chars) (hx : '\n' ∉ x)
    (hl : ∀ l ∈ ls, '\n' ∉ l ∧ ¬ w <+: l) (s : Chars) (hs : s = [] ∨ ∃ r, s = '\n' :: r) :
    splitKw w false 0 (x ++ nlLines ls ++ s) = consHead (x ++ nlLines ls) (splitKw w false 0 s) := by
  induction ls generalizing x with
  | nil => simp only [nlLines, List.flatMap_nil, List.append_nil]; exact splitKw_inline w x hx s
  | cons l ls ih =>
    rw [nlLines_cons, show x ++ '\n' :: (l ++ nlLines ls) ++ s = x ++ '\n' :: (l ++ nlLines ls ++ s) by simp,
      splitKw_inline w x hx, splitKw_break]
    obtain ⟨h1, h2⟩ := hl l (by simp)
    have hnp : ¬ w <+: l ++ nlLines ls ++ s := by
      cases ls with
      | nil =>
        rcases hs with rfl | ⟨r, rfl⟩
        · simpa [nlLines] using h2
        · simp only [nlLines, List.flatMap_nil, List.append_nil]
          rw [not_prefix_nl hw]; exact h2
      | cons m ls =>
        rw [nlLines_cons, show l ++ '\n' :: (m ++ nlLines ls) ++ s = l ++ '\n' :: (m ++ nlLines ls ++ s) by simp, not_prefix_nl hw]
        exact h2
    rw [splitKw_bol w _ hnp, ih l h1 (fun y hy => hl y (by simp [hy])),
      consHead_append _ _ _ (splitKw_ne_nil _ _ _ _), consHead_append]
    · simp
    · exact splitKw_ne_nil _ _ _ _

/-- the pieces of a list of groups of lines: each group joined, with a line break unless it is the last -/
def groupPieces : List (Chars × List Chars) → List Chars
  | [] => []
  | [(x, ls)] => [x ++ nlLines ls]
  | (x, ls) :: g :: gs => (x ++ nlLines ls ++ ['\n']) :: groupPieces (g :: gs)

/-- the lines of a list of groups -/
def groupLines (w : Chars) (gs : List (Chars × List Chars)) : List Chars := gs.flatMap (fun g => (w ++ [' '] ++ g.1) :: g.2)

theorem splitKw_groups (w : Chars) (hne : w ≠ []) (hw : '\n' ∉ w) (g : Chars × List Chars) (gs : List (Chars × List Chars))
    (h : ∀ g' ∈ g :: gs, '\n' ∉ g'.1 ∧ ∀ l ∈ g'.2, '\n' ∉ l ∧ ¬ w <+: l) :
    splitKw w true 0 (joinWith ['\n'] (groupLines w (g :: gs))) = [] :: groupPieces (g :: gs) := by
  induction gs generalizing g with
  | nil =>
    obtain ⟨x, ls⟩ := g
    obtain ⟨h1, h2⟩ := h (x, ls) (by simp)
    simp only [groupLines, List.flatMap_cons, List.flatMap_nil, List.append_nil]
    rw [joinWith_cons, show w ++ [' '] ++ x ++ nlLines ls = w ++ ' ' :: (x ++ nlLines ls) by simp, splitKw_match w _ hne hw]
    have := splitKw_piece w hw x ls h1 h2 [] (.inl rfl)
    rw [List.append_nil] at this
    rw [this]
    simp [splitKw, consHead, groupPieces]
  | cons g2 gs ih =>
    obtain ⟨x, ls⟩ := g
    obtain ⟨h1, h2⟩ := h (x, ls) (by simp)
    have ih := ih g2 (fun g' hg' => h g' (by simp only [List.mem_cons]; right; simpa using hg'))
    have e : joinWith ['\n'] (groupLines w ((x, ls) :: g2 :: gs)) = w ++ ' ' :: (x ++ nlLines ls ++ '\n' :: joinWith ['\n'] (groupLines w (g2 :: gs))) := by
      have e1 : groupLines w ((x, ls) :: g2 :: gs) = (w ++ [' '] ++ x) :: (ls ++ groupLines w (g2 :: gs)) := by
        simp [groupLines]
      have e2 : groupLines w (g2 :: gs) = (w ++ [' '] ++ g2.1) :: (g2.2 ++ groupLines w gs) := by simp [groupLines]
      rw [e1, joinWith_cons, nlLines_append]
      rw [e2, joinWith_cons, nlLines_cons]
      simp
    rw [e, splitKw_match w _ hne hw, splitKw_piece w hw x ls h1 h2 _ (.inr ⟨_, rfl⟩), splitKw_break, ih]
    simp [consHead, groupPieces]

/-! ## C30 -/

/-- the text of the blocks of a package -/
def blocksText (reprC : Val → String) (p : String × List VDict) : Chars :=
  joinWith ['\n'] (p.2.flatMap (fun b => blockLines reprC b ++ [[]]))

/-- a member of the archive for a package: in etc/config, with mode 0644 and the text of the blocks, possibly followed by a line break -/
def IsPackageMember (reprC : Val → String) (p : String × List VDict) (m : Member) : Prop :=
  m.name = "etc/config/".toList ++ p.1.toList ∧ m.mode = 0o644 ∧
    (m.data = utf8 (blocksText reprC p) ∨ m.data = utf8 (blocksText reprC p ++ ['\n']))

/-- every character written is ASCII -/
def AsciiUci (reprC : Val → String) (data : List (String × List VDict)) : Prop :=
  ∀ p ∈ data, ∀ l ∈ packageLines reprC p, ∀ c ∈ l, c.toNat < 128

/-- the group of lines of a package -/
def pkgGroup (reprC : Val → String) (p : String × List VDict) : Chars × List Chars :=
  (p.1.toList, [] :: p.2.flatMap (fun b => blockLines reprC b ++ [[]]))

theorem pkgGroup_line (reprC : Val → String) (p : String × List VDict) :
    packageLines reprC p = (kwPackage ++ [' '] ++ (pkgGroup reprC p).1) :: (pkgGroup reprC p).2 := by
  unfold packageLines
  rw [kw_lines.2.1]; rfl

theorem optionLines_head (reprC : Val → String) (p : String × Val) : ∀ l ∈ optionLines reprC p, l.head? = some '\t' := by
  intro l hl
  rw [optionLines_eq] at hl
  obtain ⟨x, _, rfl⟩ := List.mem_map.1 hl
  rfl

theorem blockLines_head (reprC : Val → String) (b : VDict) : ∀ l ∈ blockLines reprC b ++ [[]], l.head? ≠ some 'p' := by
  intro l hl
  rcases List.mem_append.1 hl with hl | hl
  · unfold blockLines at hl
    rcases List.mem_cons.1 hl with rfl | hl
    · rw [kw_lines.1]
      simp [kwConfig]
    · obtain ⟨p, _, hl⟩ := List.mem_flatMap.1 hl
      rw [optionLines_head reprC p l hl]; simp
  · simp at hl; subst hl; simp

theorem pkgGroup_ok {reprC : Val → String} {data : List (String × List VDict)} (h : CleanUci reprC data) :
    ∀ g ∈ data.map (pkgGroup reprC), '\n' ∉ g.1 ∧ ∀ l ∈ g.2, '\n' ∉ l ∧ ¬ kwPackage <+: l := by
  intro g hg
  obtain ⟨p, hp, rfl⟩ := List.mem_map.1 hg
  have hc := h p hp
  rw [pkgGroup_line] at hc
  constructor
  · have := (hc _ List.mem_cons_self).1
    intro hm; exact this (by simp [hm])
  · intro l hl
    refine ⟨(hc l (by simp only [List.mem_cons]; exact .inr hl)).1, not_prefix_head kwp.2.1 ?_⟩
    rw [kwp.1]
    have hl : l ∈ [] :: p.2.flatMap (fun b => blockLines reprC b ++ [[]]) := hl
    rcases List.mem_cons.1 hl with rfl | hl
    · simp
    · obtain ⟨b, _, hl⟩ := List.mem_flatMap.1 hl
      exact blockLines_head reprC b l hl

/-- what is made of one piece -/
def pieceMember (package : Chars) : Except PyErr Member :=
  addFile (configPath ++ (splitOn '\n' package).headD []) (joinWith ['\n'] ((splitOn '\n' package).drop 2)) "0644".toList

theorem uciSplit_eq (uci : Chars) : uciSplit uci = (removeFirstEmpty (splitKw kwPackage true 0 uci)).mapM pieceMember := rfl

theorem mode0644 : parseOct "0644".toList = .ok 0o644 := by decide

theorem utf8_ascii {s : Chars} (h : ∀ c ∈ s, c.toNat < 128) : (utf8 s).take s.length = utf8 s := by
  have := (C22_complete_iff_ascii [] s "0644".toList ⟨[], 0o644, (utf8 s).take s.length⟩ (by unfold addFile; rw [mode0644]; rfl)).2 h
  exact this

/-- the member made of the piece of a package -/
theorem pieceMember_eq {reprC : Val → String} {p : String × List VDict} (hc : ∀ l ∈ packageLines reprC p, CleanLine l)
    (ha : ∀ l ∈ packageLines reprC p, ∀ c ∈ l, c.toNat < 128) (tail : List Chars) (ht : tail = [] ∨ tail = [[]]) :
    pieceMember ((pkgGroup reprC p).1 ++ nlLines ((pkgGroup reprC p).2 ++ tail)) =
      .ok ⟨configPath ++ p.1.toList, 0o644, utf8 (joinWith ['\n'] (p.2.flatMap (fun b => blockLines reprC b ++ [[]]) ++ tail))⟩ := by
  rw [pkgGroup_line] at hc ha
  have hn : '\n' ∉ p.1.toList := by
    have := (hc _ List.mem_cons_self).1
    intro hm; exact this (by simp [pkgGroup, hm])
  have hlines : splitOn '\n' ((pkgGroup reprC p).1 ++ nlLines ((pkgGroup reprC p).2 ++ tail)) = (pkgGroup reprC p).1 :: ((pkgGroup reprC p).2 ++ tail) := by
    rw [← joinWith_cons, splitOn_joinWith _ (by simp)]
    intro l hl
    rcases List.mem_cons.1 hl with rfl | hl
    · exact hn
    · rcases List.mem_append.1 hl with hl | hl
      · exact (hc l (by simp only [List.mem_cons]; exact .inr hl)).1
      · rcases ht with rfl | rfl
        · cases hl
        · simp at hl; subst hl; simp
  have hascii : ∀ c ∈ joinWith ['\n'] (p.2.flatMap (fun b => blockLines reprC b ++ [[]]) ++ tail), c.toNat < 128 := by
    intro c hcm
    rcases mem_joinWith hcm with hcm | ⟨l, hl, hcm⟩
    · simp at hcm; subst hcm; decide
    · rcases List.mem_append.1 hl with hl | hl
      · exact ha l (by simp only [List.mem_cons, pkgGroup]; exact .inr (.inr hl)) c hcm
      · rcases ht with rfl | rfl
        · cases hl
        · simp at hl; subst hl; cases hcm
  unfold pieceMember addFile
  rw [hlines, mode0644]
  show Except.ok _ = _
  simp only [List.headD_cons, pkgGroup, List.cons_append, List.drop_succ_cons, List.drop_zero]
  rw [utf8_ascii hascii]

/-- the pieces of packages and what becomes of them -/
theorem pieces_members {reprC : Val → String} (data : List (String × List VDict)) (hc : CleanUci reprC data) (ha : AsciiUci reprC data) :
    ∃ ms, (groupPieces (data.map (pkgGroup reprC))).mapM pieceMember = .ok ms ∧
      List.Forall₂ (fun p m => ∃ tail, (tail = [] ∨ tail = [[]]) ∧
        m = ⟨configPath ++ p.1.toList, 0o644, utf8 (joinWith ['\n'] (p.2.flatMap (fun b => blockLines reprC b ++ [[]]) ++ tail))⟩) data ms := by
  induction data with
  | nil => exact ⟨[], rfl, .nil⟩
  | cons p data ih =>
    have hcp := hc p (by simp)
    have hap := ha p (by simp)
    cases data with
    | nil =>
      have h1 := pieceMember_eq hcp hap [] (.inl rfl)
      rw [List.append_nil, List.append_nil] at h1
      refine ⟨[_], ?_, .cons ⟨[], .inl rfl, rfl⟩ .nil⟩
      simp only [List.map_cons, List.map_nil, groupPieces, List.mapM_cons, List.mapM_nil]
      rw [h1, List.append_nil]; rfl
    | cons q data =>
      have h1 := pieceMember_eq hcp hap [[]] (.inr rfl)
      obtain ⟨ms, h2, h3⟩ := ih (fun x hx => hc x (by simp only [List.mem_cons] at hx ⊢; exact .inr hx)) (fun x hx => ha x (by simp only [List.mem_cons] at hx ⊢; exact .inr hx))
      refine ⟨_ :: ms, ?_, .cons ⟨[[]], .inr rfl, rfl⟩ h3⟩
      simp only [List.map_cons, groupPieces, List.mapM_cons] at h2 ⊢
      rw [nlLines_append, ← List.append_assoc] at h1
      have h1' : pieceMember ((pkgGroup reprC p).1 ++ nlLines (pkgGroup reprC p).2 ++ ['\n']) = _ := h1
      rw [h1']
      rw [h2]
      rfl

theorem uciSplit_render {reprC : Val → String} (data : List (String × List VDict)) (hc : CleanUci reprC data) (ha : AsciiUci reprC data) :
    ∃ ms, uciSplit (renderUci reprC data) = .ok ms ∧
      List.Forall₂ (fun p m => ∃ tail, (tail = [] ∨ tail = [[]]) ∧
        m = ⟨configPath ++ p.1.toList, 0o644, utf8 (joinWith ['\n'] (p.2.flatMap (fun b => blockLines reprC b ++ [[]]) ++ tail))⟩) data ms := by
  cases data with
  | nil => exact ⟨[], by rw [C34_no_packages]; decide +kernel, .nil⟩
  | cons p data =>
    obtain ⟨ms, h1, h2⟩ := pieces_members (p :: data) hc ha
    refine ⟨ms, ?_, h2⟩
    have e : (p :: data).flatMap (packageLines reprC) = groupLines kwPackage ((p :: data).map (pkgGroup reprC)) := by
      unfold groupLines
      rw [List.flatMap_map]
      exact congrArg (fun f => List.flatMap f _) (funext (pkgGroup_line reprC))
    rw [uciSplit_eq, C34_exact_lines reprC _ (by simp) hc, e, List.map_cons,
      splitKw_groups kwPackage kwp.2.1 kwp.2.2 _ _ (by rw [← List.map_cons]; exact pkgGroup_ok hc)]
    rw [← List.map_cons]
    exact h1

theorem joinWith_tail (ls : List Chars) : joinWith ['\n'] (ls ++ [[]]) = joinWith ['\n'] ls ∨ joinWith ['\n'] (ls ++ [[]]) = joinWith ['\n'] ls ++ ['\n'] := by
  cases ls with
  | nil => left; rfl
  | cons x xs =>
    right
    rw [List.cons_append, joinWith_cons, joinWith_cons, nlLines_append]
    simp [nlLines]

/-- C30: the archive has one member per package of the rendered text, in order, named after the package and holding its blocks. -/
theorem C30_one_member_per_package (reprC : Val → String) (data : List (String × List VDict)) (hc : CleanUci reprC data) (ha : AsciiUci reprC data) :
    ∃ ms, uciSplit (renderUci reprC data) = .ok ms ∧ List.Forall₂ (IsPackageMember reprC) data ms := by
  obtain ⟨ms, h1, h2⟩ := uciSplit_render data hc ha
  refine ⟨ms, h1, ?_⟩
  refine List.Forall₂.imp ?_ h2
  rintro p m ⟨tail, ht, rfl⟩
  refine ⟨rfl, rfl, ?_⟩
  rcases ht with rfl | rfl
  · left; simp only [List.append_nil]; rfl
  · rcases joinWith_tail (p.2.flatMap (fun b => blockLines reprC b ++ [[]])) with h | h
    · left; simp only [h]; rfl
    · right; simp only [h]; rfl

/-- C30: `generate()` of a backend with the UCI renderer: the members of the packages, followed by the additional files. -/
theorem C30_generate (cls : Class) (reprC : Val → String) (hn : cls.native = uciNative reprC) (hs : cls.split = uciSplit)
    (st st' : BState) (ms : List Member) (h : generate cls st = (st', .ok ms)) (inter : VDict) (hi : st'.inter = some inter)
    (data : List (String × List VDict)) (hd : packagesOf inter = .ok data) (hc : CleanUci reprC data) (ha : AsciiUci reprC data) :
    ∃ ps fs, ms = ps ++ fs ∧ List.Forall₂ (IsPackageMember reprC) data ps ∧ processFiles st'.config = .ok fs := by
  unfold generate at h
  cases hr : render cls false st with
  | mk st1 res =>
    rw [hr] at h
    cases res with
    | error e => simp at h
    | ok text =>
      simp only at h
      obtain ⟨h0, h9⟩ := (Prod.mk.injEq _ _ _ _).mp h
      clear h
      subst h0
      obtain ⟨a, h1, h8⟩ := bind_ok_iff.1 h9
      obtain ⟨b, h2, h7⟩ := bind_ok_iff.1 h8
      cases h7
      clear h8 h9
      have htext : text = renderUci reprC data := by
        unfold render at hr
        cases hv : validate cls st.config with
        | error e => rw [hv] at hr; simp at hr
        | ok u =>
          rw [hv] at hr
          simp only at hr
          cases he : ensureIntermediate cls st with
          | mk st2 r2 =>
            rw [he] at hr
            cases r2 with
            | error e => simp at hr
            | ok u =>
              simp only at hr
              unfold renderTail at hr
              cases hdd : deduplicateFiles st2.config with
              | error e => rw [hdd] at hr; simp at hr
              | ok c =>
                rw [hdd] at hr
                simp only at hr
                obtain ⟨h0, h6⟩ := (Prod.mk.injEq _ _ _ _).mp hr
                clear hr
                subst h0
                simp only at hi
                rw [hi, hn] at h6
                obtain ⟨o, ho, h5⟩ := bind_ok_iff.1 h6
                simp only [Bool.false_eq_true, if_false] at h5
                cases h5
                unfold uciNative at ho
                simp only [Option.getD_some] at ho
                rw [hd] at ho
                cases ho
                rfl
      rw [hs, htext] at h1
      obtain ⟨ps, h3, h4⟩ := C30_one_member_per_package reprC data hc ha
      rw [h3] at h1
      cases h1
      exact ⟨_, b, rfl, h4, h2⟩

/-! ## C37 -/

theorem decode_utf8 (s : Chars) : decodeUtf8 (utf8 s) = .ok s := by
  unfold decodeUtf8
  have e : ByteArray.mk (utf8 s).toArray = s.utf8Encode := by
    unfold List.utf8Encode utf8
    exact ByteArray.ext (by simp)
  rw [e, List.utf8Decode?_utf8Encode]

/-- a package name that does not hold the name of the directory -/
def SafeNames (data : List (String × List VDict)) : Prop := ∀ p ∈ data, ¬ "etc/config/".toList <:+: p.1.toList

theorem replace_configPath {n : Chars} (h : ¬ configPath <:+: n) : replaceAll configPath [] (configPath ++ n) = n := by
  rw [replaceAll_match configPath [] (by decide), replaceAll_of_not_infix h]; rfl

theorem tarText_other (extra : List Member) (h : ∀ m ∈ extra, ¬ configPath <+: m.name) (ms : List Member) : tarText (ms ++ extra) = tarText ms := by
  induction ms with
  | nil =>
    simp only [List.nil_append]
    induction extra with
    | nil => rfl
    | cons m extra ih =>
      have e : tarText (m :: extra) = tarText extra := by
        rw [tarText.eq_2]; exact if_neg (h m (by simp))
      rw [e]; exact ih (fun x hx => h x (by simp [hx]))
  | cons m ms ih => rw [List.cons_append, tarText, tarText, ih]

/-- the text made from the members of packages: that of the packages, and perhaps a line break -/
theorem tarText_packages {reprC : Val → String} (data : List (String × List VDict)) (hne : data ≠ []) (hc : CleanUci reprC data) (ha : AsciiUci reprC data)
    (hsafe : SafeNames data) : ∀ ms, (groupPieces (data.map (pkgGroup reprC))).mapM pieceMember = .ok ms →
      tarText ms = .ok (joinWith ['\n'] (data.flatMap (packageLines reprC))) ∨
      tarText ms = .ok (joinWith ['\n'] (data.flatMap (packageLines reprC)) ++ ['\n']) := by
  induction data with
  | nil => exact absurd rfl hne
  | cons p data ih =>
    intro ms hms
    have hcp := hc p (by simp)
    have hap := ha p (by simp)
    have hsp := hsafe p (by simp)
    cases data with
    | nil =>
      have h1 := pieceMember_eq hcp hap [] (.inl rfl)
      rw [List.append_nil, List.append_nil] at h1
      simp only [List.map_cons, List.map_nil, groupPieces, List.mapM_cons, List.mapM_nil] at hms
      rw [h1] at hms
      simp only [pure, Except.pure, bind, Except.bind] at hms
      cases hms
      rw [tarText, if_pos ⟨_, rfl⟩, decode_utf8]
      simp only [tarText, replace_configPath hsp, bind, Except.bind, pure, Except.pure]
      simp only [List.flatMap_cons, List.flatMap_nil, List.append_nil]
      rw [pkgGroup_line]
      rw [joinWith_cons]
      simp only [pkgGroup, nlLines_cons]
      cases hb : p.2.flatMap (fun b => blockLines reprC b ++ [[]]) with
      | nil => right; simp [nlLines, joinWith]
      | cons x xs => left; rw [joinWith_cons, nlLines_cons]; simp
    | cons q data =>
      have h1 := pieceMember_eq hcp hap [[]] (.inr rfl)
      rw [nlLines_append, ← List.append_assoc] at h1
      have h1' : pieceMember ((pkgGroup reprC p).1 ++ nlLines (pkgGroup reprC p).2 ++ ['\n']) = _ := h1
      simp only [List.map_cons, groupPieces, List.mapM_cons] at hms
      rw [h1'] at hms
      obtain ⟨m, hm, hms⟩ := bind_ok_iff.1 hms
      cases hm
      obtain ⟨ms', hms', hms⟩ := bind_ok_iff.1 hms
      cases hms
      have ih := ih (by simp) (fun x hx => hc x (by simp only [List.mem_cons] at hx ⊢; exact .inr hx)) (fun x hx => ha x (by simp only [List.mem_cons] at hx ⊢; exact .inr hx))
        (fun x hx => hsafe x (by simp only [List.mem_cons] at hx ⊢; exact .inr hx)) ms' hms'
      have hjoin : joinWith ['\n'] ((p :: q :: data).flatMap (packageLines reprC)) =
          kwPackage ++ [' '] ++ p.1.toList ++ ['\n', '\n'] ++ joinWith ['\n'] (p.2.flatMap (fun b => blockLines reprC b ++ [[]]) ++ [[]]) ++
            joinWith ['\n'] ((q :: data).flatMap (packageLines reprC)) := by
        rw [List.flatMap_cons, pkgGroup_line reprC p, List.cons_append, joinWith_cons, nlLines_append]
        rw [List.flatMap_cons, pkgGroup_line reprC q, List.cons_append, joinWith_cons, nlLines_cons]
        simp only [pkgGroup, nlLines_cons]
        cases hb : p.2.flatMap (fun b => blockLines reprC b ++ [[]]) with
        | nil => simp [nlLines, joinWith]
        | cons x xs => rw [show x :: xs ++ [[]] = x :: (xs ++ [[]]) from rfl, joinWith_cons, nlLines_cons, nlLines_append]; simp [nlLines]
      rw [tarText, if_pos ⟨_, rfl⟩, decode_utf8]
      rw [hjoin]
      rcases ih with ih | ih
      · left
        simp only [ih, replace_configPath hsp, bind, Except.bind, pure, Except.pure]
      · right
        simp only [ih, replace_configPath hsp, bind, Except.bind, pure, Except.pure]
        simp

/-- a line break at the end of the text does not matter -/
theorem parseUci_trailing (reprC : Val → String) (data : List (String × List VDict)) (hc : CleanUci reprC data) (hne : data ≠ []) :
    parseUci (joinWith ['\n'] (data.flatMap (packageLines reprC)) ++ ['\n']) = parseUci (joinWith ['\n'] (data.flatMap (packageLines reprC))) := by
  have hl : data.flatMap (packageLines reprC) ≠ [] := by
    cases data with
    | nil => exact absurd rfl hne
    | cons p data => rw [List.flatMap_cons, pkgGroup_line]; simp
  have hgood : ∀ l ∈ data.flatMap (packageLines reprC), GoodLine kwPackage l := by
    intro l hl
    obtain ⟨p, hp, hl⟩ := List.mem_flatMap.1 hl
    have hcl := (hc p hp l hl).1
    rw [pkgGroup_line] at hl
    rcases List.mem_cons.1 hl with rfl | hl
    · exact ⟨hcl, fun _ => ⟨_, rfl⟩⟩
    · exact ⟨hcl, fun hp' => absurd hp' ((pkgGroup_ok hc _ (List.mem_map.2 ⟨p, hp, rfl⟩)).2 l hl).2⟩
  have e : joinWith ['\n'] (data.flatMap (packageLines reprC)) ++ ['\n'] = joinWith ['\n'] (data.flatMap (packageLines reprC) ++ [[]]) := by
    cases hd : data.flatMap (packageLines reprC) with
    | nil => exact absurd hd hl
    | cons x xs => rw [List.cons_append, joinWith_cons, joinWith_cons, nlLines_append]; simp [nlLines]
  unfold parseUci
  rw [e, parsePackages_strip, splitKw_strip kwPackage kwp.2.1 kwp.2.2 _ (by
    intro l hl
    rcases List.mem_append.1 hl with hl | hl
    · exact hgood l hl
    · simp at hl; subst hl; exact goodLine_head kwp.2.1 (by simp) (by simp [kwp.1])), chunkTexts_snoc,
    ← splitKw_strip kwPackage kwp.2.1 kwp.2.2 _ hgood, ← parsePackages_strip]

/-- C37: parsing the archive (with any further members outside etc/config) gives the same data as parsing the text. -/
theorem C37_archive_as_text (reprC : Val → String) (data : List (String × List VDict)) (hc : CleanUci reprC data) (ha : AsciiUci reprC data)
    (hsafe : SafeNames data) (ms extra : List Member) (hms : uciSplit (renderUci reprC data) = .ok ms)
    (hx : ∀ m ∈ extra, ¬ "etc/config/".toList <+: m.name) :
    parseTar (ms ++ extra) = parseUci (renderUci reprC data) := by
  unfold parseTar
  rw [tarText_other extra hx]
  by_cases hne : data = []
  · subst hne
    have : ms = [] := by
      have h : uciSplit (renderUci reprC []) = .ok [] := by rw [C34_no_packages]; decide +kernel
      rw [h] at hms; cases hms; rfl
    subst this
    rw [C34_no_packages]; decide +kernel
  have hms' : (groupPieces (data.map (pkgGroup reprC))).mapM pieceMember = .ok ms := by
    have e : data.flatMap (packageLines reprC) = groupLines kwPackage (data.map (pkgGroup reprC)) := by
      unfold groupLines
      rw [List.flatMap_map]
      exact congrArg (fun f => List.flatMap f _) (funext (pkgGroup_line reprC))
    have hok := pkgGroup_ok hc
    rw [uciSplit_eq, C34_exact_lines reprC _ hne hc, e] at hms
    cases hd : data.map (pkgGroup reprC) with
    | nil => simp at hd; exact absurd hd hne
    | cons g gs =>
      rw [hd] at hms hok
      rw [splitKw_groups kwPackage kwp.2.1 kwp.2.2 _ _ hok] at hms
      exact hms
  rw [C34_exact_lines reprC data hne hc]
  rcases tarText_packages data hne hc ha hsafe ms hms' with h | h
  · rw [h]; rfl
  · rw [h]; exact parseUci_trailing reprC data hc hne

/-- C37 needs ASCII: otherwise the archive is cut and may not even be decoded. -/
theorem C37_needs_ascii :
    (uciSplit (renderUci (fun _ => "") [("p", [[(".type", .str "t"), (".name", .str "n"), ("o", .str "ééé")]])])).bind parseTar =
      .error .valueError := by decide +kernel

/-! ## Examples -/

example : AsciiUci (fun _ => "") sampleUci ∧ SafeNames sampleUci := by
  constructor
  · have h : sampleUci.all (fun p => (packageLines (fun _ => "") p).all (fun l => l.all (fun c => decide (c.toNat < 128)))) = true := by decide +kernel
    simp only [List.all_eq_true, decide_eq_true_eq] at h
    exact h
  · have h : sampleUci.all (fun p => !decide ("etc/config/".toList <:+: p.1.toList)) = true := by decide +kernel
    simp only [List.all_eq_true, Bool.not_eq_true', decide_eq_false_iff_not] at h
    exact h

example : uciSplit "package a\n\nconfig x 'y'\n\npackage b\n".toList =
    .ok [⟨"etc/config/a".toList, 0o644, utf8 "config x 'y'\n\n".toList⟩, ⟨"etc/config/b".toList, 0o644, []⟩] := by decide +kernel

end NJ
