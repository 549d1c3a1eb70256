import Verif.Files
import Verif.MergeLemmas

/-!
# Properties C19–C25: additional files
-/

set_option linter.unusedSimpArgs false
set_option linter.unusedVariables false

namespace NJ

/-! ## C19 -/

/-- Walking through path components from a directory below the root (innermost component first); `none` when the walk
leaves the root. Empty components and `.` stay, `..` goes up. -/
def walk (dir : List Chars) : List Chars → Option (List Chars)
  | [] => some dir
  | c :: r =>
    if c = [] ∨ c = ['.'] then walk dir r
    else if c = ['.', '.'] then match dir with
      | [] => none
      | _ :: up => walk up r
    else walk (c :: dir) r

theorem walk_of_proper (dir l : List Chars) (h : ∀ c ∈ l, c ≠ [] ∧ c ≠ ['.'] ∧ c ≠ ['.', '.']) :
    walk dir l = some (l.reverse ++ dir) := by
  induction l generalizing dir with
  | nil => rfl
  | cons c r ih =>
    obtain ⟨h1, h2, h3⟩ := h c (by simp)
    simp only [walk, h1, h2, h3, or_self, if_false]
    rw [ih _ (fun c hc => h c (by simp [hc]))]
    simp

theorem validPath_components {p : Chars} (h : validPath p = true) :
    ∀ c ∈ pathComponents p, c ≠ [] ∧ c ≠ ['.'] ∧ c ≠ ['.', '.'] := by
  intro c hc
  simp only [validPath, Bool.and_eq_true, List.all_eq_true] at h
  have := h.2 c hc
  simp at this
  exact ⟨this.1.1, this.1.2, this.2⟩

theorem pathComponents_eq (p : Chars) : pathComponents p = splitOn '/' (memberName p) := by
  unfold pathComponents memberName
  split <;> rfl

/-- C19: an accepted path, taken relative to any directory `root` after removing its leading slash, stays below it: every
component is kept in order and at least one directory entry below the root is reached. The path has no second leading slash. -/
theorem C19_path_stays_below (p : Chars) (h : validPath p = true) (root : List Chars) :
    walk root (splitOn '/' (memberName p)) = some ((splitOn '/' (memberName p)).reverse ++ root) ∧
    splitOn '/' (memberName p) ≠ [] ∧ (memberName p).head? ≠ some '/' := by
  have hc := validPath_components h
  rw [pathComponents_eq] at hc
  refine ⟨walk_of_proper _ _ hc, splitOn_ne_nil _ _, ?_⟩
  intro hh
  cases hm : memberName p with
  | nil => rw [hm] at hh; cases hh
  | cons c r =>
    rw [hm] at hh hc
    simp at hh; subst hh
    have := hc [] (by simp [splitOn])
    exact this.1 rfl

theorem forM_ok {α} {f : α → Except PyErr Unit} {l : List α} : l.forM f = .ok () ↔ ∀ x ∈ l, f x = .ok () := by
  induction l with
  | nil => simp [List.forM_nil, pure, Except.pure]
  | cons x xs ih =>
    show (do f x; xs.forM f) = .ok () ↔ _
    rw [bind_ok_iff]
    constructor
    · rintro ⟨_, h1, h2⟩ y hy
      rcases List.mem_cons.1 hy with rfl | hy
      · exact h1
      · exact ih.1 h2 y hy
    · intro h
      exact ⟨(), h x (by simp), ih.2 (fun y hy => h y (by simp [hy]))⟩

theorem validateFilePaths_ok {config : VDict} : validateFilePaths config = .ok () ↔
    ∀ f ∈ filesOf config, ∃ p, filePath f = .ok p ∧ validPath p = true := by
  rw [validateFilePaths, forM_ok]
  refine forall_congr' (fun f => imp_congr_right (fun hf => ?_))
  rw [bind_ok_iff]
  refine exists_congr (fun p => and_congr_right (fun hp => ?_))
  split
  · next h => simp [h, pure, Except.pure]
  · next h => simp [h]

/-- C19 for a whole configuration: if the path check of validate() accepts it, every file has a path that stays below any root. -/
theorem C19_validated_config (config : VDict) (h : validateFilePaths config = .ok ()) (f : Val) (hf : f ∈ filesOf config)
    (root : List Chars) :
    ∃ p, filePath f = .ok p ∧ ∃ d, walk root (splitOn '/' (memberName p)) = some (d ++ root) ∧ d ≠ [] := by
  obtain ⟨p, hp, hv⟩ := validateFilePaths_ok.1 h f hf
  obtain ⟨h1, h2, _⟩ := C19_path_stays_below p hv root
  exact ⟨p, hp, _, h1, by simpa using h2⟩

example : validPath "/etc/config/foo.d/a-b_c".toList = true := by rfl
example : validPath "/etc/../../x".toList = false ∧ validPath "//etc".toList = false ∧ validPath "/".toList = false ∧
    validPath "a//b".toList = false ∧ validPath "a/./b".toList = false ∧ validPath "..".toList = false := by
  refine ⟨?_, ?_, ?_, ?_, ?_, ?_⟩ <;> rfl
example : walk [] (splitOn '/' "etc/../../x".toList) = none := by rfl

/-! ## C20 -/

/-- a literal component of an acceptable path -/
def GoodComponent (c : Chars) : Prop :=
  c ≠ [] ∧ c ≠ ['.'] ∧ c ≠ ['.', '.'] ∧ ∀ x ∈ c, isAsciiAlnum x = true ∨ x = '.' ∨ x = '_' ∨ x = '-'

theorem cleanPath_no_brace {p : Chars} (h : '{' ∉ p ∧ '}' ∉ p) : cleanPath false p = some p := by
  induction p with
  | nil => rfl
  | cons c r ih =>
    simp at h
    have h1 : c ≠ '{' := fun e => h.1.1 e.symm
    have h2 : c ≠ '}' := fun e => h.2.1 e.symm
    unfold cleanPath
    split <;> simp_all

theorem mem_joinWith {x : Char} {sep : Chars} {ws : List Chars} (h : x ∈ joinWith sep ws) : x ∈ sep ∨ ∃ w ∈ ws, x ∈ w := by
  induction ws with
  | nil => simp [joinWith] at h
  | cons w ws ih =>
    cases ws with
    | nil => simp [joinWith] at h; exact .inr ⟨w, by simp, h⟩
    | cons y ys =>
      simp only [joinWith, List.mem_append] at h
      rcases h with (h | h) | h
      · exact .inr ⟨w, by simp, h⟩
      · exact .inl h
      · rcases ih h with h | ⟨v, hv, hx⟩
        · exact .inl h
        · exact .inr ⟨v, by simp [hv], hx⟩

theorem mem_joinWith_of {x : Char} {sep : Chars} {ws : List Chars} {w : Chars} (hw : w ∈ ws) (hx : x ∈ w) : x ∈ joinWith sep ws := by
  induction ws with
  | nil => cases hw
  | cons v ws ih =>
    cases ws with
    | nil => simp at hw; subst hw; exact hx
    | cons y ys =>
      simp only [joinWith, List.mem_append]
      rcases List.mem_cons.1 hw with rfl | hw
      · exact .inl (.inl hx)
      · exact .inr (ih hw)

/-- C20: a path without braces is accepted exactly when it is one or more good components joined by single
slashes, optionally with one slash in front. -/
theorem C20_literal_paths (p : Chars) (hb : '{' ∉ p ∧ '}' ∉ p) :
    validPath p = true ↔ ∃ cs : List Chars, cs ≠ [] ∧ (∀ c ∈ cs, GoodComponent c) ∧
      (p = joinWith ['/'] cs ∨ p = '/' :: joinWith ['/'] cs) := by
  have hcl := cleanPath_no_brace hb
  constructor
  · intro h
    have hc := validPath_components h
    rw [pathComponents_eq] at hc
    have hchars : ∀ x ∈ p, isPathChar x = true := by
      simp only [validPath, validPathChars, hcl, filePathRe, Bool.and_eq_true, List.all_eq_true] at h
      exact h.1.2
    refine ⟨splitOn '/' (memberName p), splitOn_ne_nil _ _, ?_, ?_⟩
    · intro c hcm
      obtain ⟨h1, h2, h3⟩ := hc c hcm
      refine ⟨h1, h2, h3, ?_⟩
      intro x hx
      have hxm : x ∈ memberName p := by
        rw [← joinWith_splitOn '/' (memberName p)]; exact mem_joinWith_of hcm hx
      have hxp : x ∈ p := by
        unfold memberName at hxm
        split at hxm
        · exact List.mem_cons_of_mem _ hxm
        · exact hxm
      have := hchars x hxp
      have hns : x ≠ '/' := by rintro rfl; exact splitOn_no_sep hcm hx
      simp only [isPathChar, Bool.or_eq_true, beq_iff_eq] at this
      rcases this with (((h | h) | h) | h) | h
      · exact .inl h
      · exact .inr (.inl h)
      · exact .inr (.inr (.inl h))
      · exact absurd h hns
      · exact .inr (.inr (.inr h))
    · rw [joinWith_splitOn]
      unfold memberName
      split
      · exact .inr rfl
      · exact .inl rfl
  · rintro ⟨cs, hne, hg, hp⟩
    have hns : ∀ c ∈ cs, '/' ∉ c := by
      intro c hc hs
      have := (hg c hc).2.2.2 '/' hs
      simp [isAsciiAlnum, isAsciiAlpha, isUpper, isLower, isDigit] at this
    have hjne : joinWith ['/'] cs ≠ [] := by
      cases cs with
      | nil => exact absurd rfl hne
      | cons c cs' =>
        have hc1 := (hg c (by simp)).1
        cases c with
        | nil => exact absurd rfl hc1
        | cons a as => cases cs' <;> simp [joinWith]
    have hjh : (joinWith ['/'] cs).head? ≠ some '/' := by
      cases cs with
      | nil => exact absurd rfl hne
      | cons c cs' =>
        have hc1 := (hg c (by simp)).1
        have hc2 := hns c (by simp)
        cases c with
        | nil => exact absurd rfl hc1
        | cons a as =>
          have : a ≠ '/' := by rintro rfl; simp at hc2
          cases cs' <;> simpa [joinWith] using this
    have hm : memberName p = joinWith ['/'] cs := by
      rcases hp with rfl | rfl
      · unfold memberName
        split
        · next r he => rw [he] at hjh; simp at hjh
        · rfl
      · rfl
    have hcomp : pathComponents p = cs := by rw [pathComponents_eq, hm, splitOn_joinWith cs hne hns]
    have hpc : ∀ x ∈ joinWith ['/'] cs, isPathChar x = true := by
      intro x hx
      rcases mem_joinWith hx with hx | ⟨w, hw, hx⟩
      · simp at hx; subst hx; rfl
      · rcases (hg w hw).2.2.2 x hx with h | h | h | h
        · simp [isPathChar, h]
        · subst h; rfl
        · subst h; rfl
        · subst h; rfl
    simp only [validPath, validPathChars, hcl, filePathRe, hcomp, Bool.and_eq_true, List.all_eq_true]
    refine ⟨⟨?_, ?_⟩, ?_⟩
    · rcases hp with rfl | rfl
      · simpa using hjne
      · simp
    · rcases hp with rfl | rfl
      · exact hpc
      · intro x hx
        rcases List.mem_cons.1 hx with rfl | hx
        · rfl
        · exact hpc x hx
    · intro c hc
      obtain ⟨h1, h2, h3, _⟩ := hg c hc
      simp [h1, h2, h3]

/-- A piece of a path: a character or a template variable with the text between its braces. -/
abbrev PathPiece := Char ⊕ Chars
def pieceText : PathPiece → Chars
  | .inl c => [c]
  | .inr v => '{' :: '{' :: v ++ ['}', '}']
def piecesText (l : List PathPiece) : Chars := l.flatMap pieceText

/-- Every brace of the text belongs to a complete variable, closed at the first `}}`. -/
def WellBraced (l : List PathPiece) : Prop :=
  ∀ x ∈ l, match x with
    | .inl c => c ≠ '{' ∧ c ≠ '}'
    | .inr v => ¬ ['}', '}'] <:+: (v ++ ['}'])

theorem cleanPath_true_skip {c : Char} {r : Chars} (h : ¬ (c = '}' ∧ r.head? = some '}')) :
    cleanPath true (c :: r) = cleanPath true r := by
  conv => lhs; unfold cleanPath
  split
  · simp_all
  · simp_all
  · simp_all
  · simp_all
  · next heq => simp at heq; rw [heq.1, heq.2] at h; simp at h
  · next heq => cases heq; rfl

theorem cleanPath_inside (v r : Chars) (h : ¬ ['}', '}'] <:+: (v ++ ['}'])) :
    cleanPath true (v ++ '}' :: '}' :: r) = cleanPath false r := by
  induction v with
  | nil => simp [cleanPath]
  | cons c v ih =>
    have h' : ¬ ['}', '}'] <:+: (v ++ ['}']) := fun hh => h (hh.trans ⟨[c], [], by simp⟩)
    rw [List.cons_append]
    have : ¬ (c = '}' ∧ (v ++ '}' :: '}' :: r).head? = some '}') := by
      rintro ⟨rfl, hh⟩
      apply h
      cases v with
      | nil => exact ⟨[], [], by simp⟩
      | cons d ds => simp at hh; subst hh; exact ⟨[], ds ++ ['}'], by simp⟩
    rw [cleanPath_true_skip this]
    exact ih h'

theorem cleanPath_pieces (l : List PathPiece) (h : WellBraced l) :
    cleanPath false (piecesText l) = some (l.map (fun x => match x with | .inl c => c | .inr _ => 'x')) := by
  induction l with
  | nil => rfl
  | cons x l ih =>
    have hx := h x (by simp)
    have := ih (fun y hy => h y (by simp [hy]))
    cases x with
    | inl c =>
      simp only at hx
      have e : piecesText (.inl c :: l) = c :: piecesText l := by simp [piecesText, pieceText]
      rw [e]
      unfold cleanPath
      split <;> simp_all
    | inr v =>
      simp only at hx
      have e : piecesText (.inr v :: l) = '{' :: '{' :: (v ++ '}' :: '}' :: piecesText l) := by simp [piecesText, pieceText]
      rw [e]
      simp only [cleanPath, List.map_cons]
      rw [cleanPath_inside v _ hx, this]; rfl

theorem cleanPath_inside_sound : ∀ (s : Chars) {r}, cleanPath true s = some r →
    ∃ v t, s = v ++ '}' :: '}' :: t ∧ ¬ ['}', '}'] <:+: (v ++ ['}']) ∧ cleanPath false t = some r
  | [], r, h => by simp [cleanPath] at h
  | [c], r, h => by
      unfold cleanPath at h
      split at h <;> simp_all [cleanPath]
  | c :: d :: s, r, h => by
      by_cases hcd : c = '}' ∧ d = '}'
      · obtain ⟨rfl, rfl⟩ := hcd
        simp only [cleanPath] at h
        refine ⟨[], s, rfl, ?_, h⟩
        rintro ⟨a, b, hab⟩
        have := congrArg List.length hab
        simp at this
        omega
      · have h' : cleanPath true (d :: s) = some r := by
          rwa [cleanPath_true_skip (by simpa using hcd)] at h
        obtain ⟨v, t, e, hv, ht⟩ := cleanPath_inside_sound (d :: s) h'
        refine ⟨c :: v, t, by rw [e]; rfl, ?_, ht⟩
        rintro ⟨a, b, hab⟩
        cases a with
        | nil =>
          simp only [List.nil_append, List.cons_append, List.cons.injEq] at hab
          obtain ⟨rfl, hab⟩ := hab
          apply hcd
          refine ⟨rfl, ?_⟩
          cases v with
          | nil => simp at e; exact e.1
          | cons x xs =>
            simp at hab e
            rw [e.1, ← hab.1]
        | cons x xs =>
          simp only [List.cons_append, List.cons.injEq] at hab
          exact hv ⟨xs, b, hab.2⟩
theorem cleanPath_sound_aux (n : Nat) : ∀ (s : Chars) {r}, s.length ≤ n → cleanPath false s = some r →
    ∃ l, s = piecesText l ∧ WellBraced l := by
  induction n with
  | zero =>
    intro s r hn h
    have : s = [] := List.length_eq_zero_iff.1 (by omega)
    subst this
    exact ⟨[], rfl, fun x hx => by cases hx⟩
  | succ n ih =>
    intro s r hn h
    unfold cleanPath at h
    split at h
    · exact ⟨[], rfl, fun x hx => by cases hx⟩
    · simp_all
    · next t _ =>
      cases ht : cleanPath true t with
      | none => rw [ht] at h; simp at h
      | some q =>
        obtain ⟨v, u, e, hv, hu⟩ := cleanPath_inside_sound t ht
        obtain ⟨l, hl, hw⟩ := ih u (by subst e; simp at hn; omega) hu
        refine ⟨.inr v :: l, ?_, ?_⟩
        · rw [e, hl]; simp [piecesText, pieceText]
        · intro x hx
          rcases List.mem_cons.1 hx with rfl | hx
          · exact hv
          · exact hw x hx
    · next c t _ _ =>
      split at h
      · cases h
      · next hc =>
        cases ht : cleanPath false t with
        | none => simp [ht] at h
        | some q =>
          obtain ⟨l, hl, hw⟩ := ih t (by simp at hn; omega) ht
          refine ⟨.inl c :: l, ?_, ?_⟩
          · rw [hl]; simp [piecesText, pieceText]
          · intro x hx
            rcases List.mem_cons.1 hx with rfl | hx
            · simpa using hc
            · exact hw x hx
    · simp_all
    · simp_all

/-- C20, paths with template variables: accepted exactly when all braces belong to complete variables, the rest
consists of allowed characters, and no slash-separated component is empty, `.` or `..`. -/
theorem C20_paths_with_variables (p : Chars) :
    validPath p = true ↔ ∃ l : List PathPiece, p = piecesText l ∧ WellBraced l ∧ l ≠ [] ∧
      (∀ c, .inl c ∈ l → isAsciiAlnum c = true ∨ c = '.' ∨ c = '_' ∨ c = '-' ∨ c = '/') ∧
      ∀ c ∈ splitOn '/' (memberName p), c ≠ [] ∧ c ≠ ['.'] ∧ c ≠ ['.', '.'] := by
  constructor
  · intro h
    have hc := validPath_components h
    rw [pathComponents_eq] at hc
    simp only [validPath, validPathChars, Bool.and_eq_true] at h
    split at h
    · next s hs =>
      obtain ⟨l, hl, hw⟩ := cleanPath_sound_aux _ p (Nat.le_refl _) hs
      have := cleanPath_pieces l hw
      rw [← hl, hs] at this
      cases this
      have h1 := h.1
      simp only [filePathRe, Bool.and_eq_true, List.all_eq_true] at h1
      refine ⟨l, hl, hw, ?_, ?_, hc⟩
      · rintro rfl; simp at h1
      · intro c hcl
        have := h1.2 c (List.mem_map.2 ⟨_, hcl, rfl⟩)
        simp only [isPathChar, Bool.or_eq_true, beq_iff_eq] at this
        rcases this with (((h | h) | h) | h) | h
        · exact .inl h
        · exact .inr (.inl h)
        · exact .inr (.inr (.inl h))
        · exact .inr (.inr (.inr (.inr h)))
        · exact .inr (.inr (.inr (.inl h)))
    · simp at h
  · rintro ⟨l, rfl, hw, hne, hch, hc⟩
    have hcl := cleanPath_pieces l hw
    simp only [validPath, validPathChars, hcl, filePathRe, pathComponents_eq, Bool.and_eq_true, List.all_eq_true]
    refine ⟨⟨by simpa using hne, ?_⟩, ?_⟩
    · intro x hx
      obtain ⟨y, hy, rfl⟩ := List.mem_map.1 hx
      cases y with
      | inl c => rcases hch c hy with h | h | h | h | h <;> simp [isPathChar, h]
      | inr v => rfl
    · intro c hcm
      obtain ⟨h1, h2, h3⟩ := hc c hcm
      simp [h1, h2, h3]

example : validPath "/etc/{{ my var! }}/x".toList = true := by rfl
/-- C20: unterminated or stray braces. -/
example : validPath "/etc/{{x}".toList = false ∧ validPath "/etc/{x}".toList = false ∧ validPath "/etc/{{x}}}".toList = false := by
  refine ⟨?_, ?_, ?_⟩ <;> rfl

/-! ## C21 -/

theorem dedupLoop_eq (fs : List Val) (ps : List Chars) (h : fs.mapM filePath = .ok ps) (acc : Dict Chars Val) :
    dedupLoop acc fs = .ok ((ps.zip fs).foldl (fun a p => Dict.set a p.1 p.2) acc) := by
  induction fs generalizing ps acc with
  | nil => rw [mapM_ok_nil] at h; cases h; rfl
  | cons f fs ih =>
    obtain ⟨p, qs, hp, hqs, rfl⟩ := (mapM_ok_cons _ _ _ _).1 h
    simp only [dedupLoop, hp, List.zip_cons_cons, List.foldl_cons]
    exact ih qs hqs _


/-- the last file of a list with a given path -/
def lastFile (p : Chars) (fs : List Val) : Option Val :=
  fs.reverse.find? (fun g => match filePath g with | .ok q => q == p | .error _ => false)

theorem lastFile_eq_lastWith {fs : List Val} {ps : List Chars} (h : fs.mapM filePath = .ok ps) (p : Chars) :
    lastWith p (ps.zip fs) = lastFile p fs := by
  induction fs generalizing ps with
  | nil => rw [mapM_ok_nil] at h; cases h; rfl
  | cons f fs ih =>
    obtain ⟨q, qs, hq, hqs, rfl⟩ := (mapM_ok_cons _ _ _ _).1 h
    simp only [List.zip_cons_cons, lastWith, ih hqs, lastFile, List.reverse_cons, List.find?_append]
    cases hl : fs.reverse.find? (fun g => match filePath g with | .ok q => q == p | .error _ => false) with
    | some w => simp
    | none => simp [hq]

theorem keys_zip {κ α} : ∀ (a : List κ) (b : List α), a.length = b.length → Dict.keys (a.zip b) = a
  | [], [], _ => rfl
  | [], _ :: _, h => by simp at h
  | _ :: _, [], h => by simp at h
  | x :: xs, y :: ys, h => by simp [Dict.keys]; simpa [Dict.keys] using keys_zip xs ys (by simpa using h)

theorem mapM_length {α β} {f : α → Except PyErr β} {l : List α} {r : List β} (h : l.mapM f = .ok r) : r.length = l.length := by
  induction l generalizing r with
  | nil => rw [mapM_ok_nil] at h; cases h; rfl
  | cons x xs ih => obtain ⟨b, bs, _, hbs, rfl⟩ := (mapM_ok_cons _ _ _ _).1 h; simp [ih hbs]

theorem collapse_keys_firsts {κ α} [DecidableEq κ] (l : List (κ × α)) : Dict.keys (collapse l) = firsts (Dict.keys l) := by
  induction l with
  | nil => rfl
  | cons p r ih => obtain ⟨k, v⟩ := p; simp only [collapse, Dict.keys_cons, keys_filter_ne, firsts, ih]

theorem mapM_values_collapse {fs : List Val} {ps : List Chars} (h : fs.mapM filePath = .ok ps) :
    (Dict.values (collapse (ps.zip fs))).mapM filePath = .ok (firsts ps) := by
  have key : ∀ (d : Dict Chars Val), (∀ p f, (p, f) ∈ d → filePath f = .ok p) → (Dict.values d).mapM filePath = .ok (Dict.keys d) := by
    intro d hd
    induction d with
    | nil => rfl
    | cons x xs ih =>
      obtain ⟨k, v⟩ := x
      show List.mapM filePath (v :: Dict.values xs) = .ok (k :: Dict.keys xs)
      rw [mapM_ok_cons]
      exact ⟨k, _, hd k v (by simp), ih (fun p f hp => hd p f (by simp [hp])), rfl⟩
  have hz : ∀ p f, (p, f) ∈ ps.zip fs → filePath f = .ok p := by
    clear key
    induction fs generalizing ps with
    | nil => simp
    | cons f fs ih =>
      obtain ⟨q, qs, hq, hqs, rfl⟩ := (mapM_ok_cons _ _ _ _).1 h
      intro p g hp
      simp only [List.zip_cons_cons, List.mem_cons, Prod.mk.injEq] at hp
      rcases hp with ⟨rfl, rfl⟩ | hp
      · exact hq
      · exact ih hqs p g hp
  rw [key]
  · rw [collapse_keys_firsts, keys_zip _ _ (mapM_length h)]
  · intro p f hp
    have := Dict.get?_of_mem (collapse_nodup _) hp
    rw [collapse_get?] at this
    exact hz p f (lastWith_mem this)

theorem filesOf_set (config : VDict) (l : List Val) : filesOf (Dict.set config "files" (.list l)) = l := by
  simp [filesOf, Dict.get?_set_self]

theorem dedup_ok {config : VDict} {c' : VDict} (h : deduplicateFiles config = .ok c') :
    ∃ ps, (filesOf config).mapM filePath = .ok ps ∧ filesOf c' = Dict.values (collapse (ps.zip (filesOf config))) ∧
      ∀ k, k ≠ "files" → Dict.get? c' k = Dict.get? config k := by
  unfold deduplicateFiles at h
  split at h
  · next hf => cases h; exact ⟨[], by rw [hf]; rfl, by rw [hf]; rfl, fun _ _ => rfl⟩
  · obtain ⟨d, hd, h⟩ := bind_ok_iff.1 h
    cases h
    have : ∀ (fs : List Val) (acc d), dedupLoop acc fs = .ok d → ∃ ps, fs.mapM filePath = .ok ps := by
      intro fs
      induction fs with
      | nil => exact fun _ _ _ => ⟨[], rfl⟩
      | cons f fs ih =>
        intro acc d h
        simp only [dedupLoop] at h
        obtain ⟨p, hp, h⟩ := bind_ok_iff.1 h
        obtain ⟨ps, hps⟩ := ih _ _ h
        exact ⟨p :: ps, (mapM_ok_cons _ _ _ _).2 ⟨p, ps, hp, hps, rfl⟩⟩
    obtain ⟨ps, hps⟩ := this _ _ _ hd
    rw [dedupLoop_eq _ ps hps] at hd
    cases hd
    refine ⟨ps, hps, ?_, ?_⟩
    · rw [filesOf_set, foldl_set_eq_collapse]
    · intro k hk; exact Dict.get?_set_ne _ _ (fun e => hk e.symm)

/-- C21: after deduplication there is one file per path, in order of first appearance, each being the last one
defined for its path; nothing else in the configuration changes. -/
theorem C21_one_file_per_path (config c' : VDict) (h : deduplicateFiles config = .ok c') :
    ∃ paths, (filesOf config).mapM filePath = .ok paths ∧
      (filesOf c').mapM filePath = .ok (firsts paths) ∧
      (∀ f ∈ filesOf c', ∃ p, filePath f = .ok p ∧ lastFile p (filesOf config) = some f) ∧
      ∀ k, k ≠ "files" → Dict.get? c' k = Dict.get? config k := by
  obtain ⟨ps, hps, hf, hk⟩ := dedup_ok h
  refine ⟨ps, hps, by rw [hf]; exact mapM_values_collapse hps, ?_, hk⟩
  intro f hfm
  rw [hf] at hfm
  simp only [Dict.values, List.mem_map] at hfm
  obtain ⟨⟨p, g⟩, hp, rfl⟩ := hfm
  have := Dict.get?_of_mem (collapse_nodup _) hp
  rw [collapse_get?, lastFile_eq_lastWith hps] at this
  refine ⟨p, ?_, this⟩
  have := List.find?_some this
  split at this
  · next q hq => simp at this; subst this; exact hq
  · cases this

theorem firsts_of_nodup {α} [DecidableEq α] {l : List α} (h : l.Nodup) : firsts l = l := by
  induction l with
  | nil => rfl
  | cons x xs ih =>
    simp only [List.nodup_cons] at h
    simp only [firsts, ih h.2, List.cons.injEq, true_and, List.filter_eq_self]
    intro y hy; simp; rintro rfl; exact h.1 hy

theorem firsts_nodup' {α} [DecidableEq α] (l : List α) : (firsts l).Nodup := by
  induction l with
  | nil => simp [firsts]
  | cons x xs ih =>
    simp only [firsts, List.nodup_cons, List.mem_filter]
    exact ⟨by simp, ih.filter _⟩

theorem values_zip {κ α} : ∀ (a : List κ) (b : List α), a.length = b.length → Dict.values (a.zip b) = b
  | [], [], _ => rfl
  | [], _ :: _, h => by simp at h
  | _ :: _, [], h => by simp at h
  | x :: xs, y :: ys, h => by simp [Dict.values]; simpa [Dict.values] using values_zip xs ys (by simpa using h)

/-- C21: deduplicating again changes nothing. -/
theorem C21_idempotent (config c' : VDict) (h : deduplicateFiles config = .ok c') : deduplicateFiles c' = .ok c' := by
  obtain ⟨ps, hps, hf, hk⟩ := dedup_ok h
  have hp' := mapM_values_collapse hps
  rw [← hf] at hp'
  have hn := firsts_nodup' ps
  unfold deduplicateFiles
  split
  · rfl
  · next fs hne =>
    rw [dedupLoop_eq _ _ hp']
    show Except.ok _ = _
    have hz : (Dict.keys ((firsts ps).zip (filesOf c'))).Nodup := by
      rw [keys_zip _ _ (mapM_length hp')]; exact hn
    rw [foldl_set_eq_collapse, collapse_of_nodup hz, values_zip _ _ (mapM_length hp')]
    congr 1
    have : Dict.get? c' "files" = some (.list (filesOf c')) := by
      unfold filesOf at hne ⊢
      split
      · next l hl => simp [hl] at hne ⊢
      · next hx => 
        exfalso; apply hne
        split
        · next l hl => exact absurd hl (hx l)
        · rfl
    exact Dict.set_eq_self this

example : deduplicateFiles [("files", .list [
      .dict [("path", .str "/a"), ("contents", .str "1")], .dict [("path", .str "/b"), ("contents", .str "2")],
      .dict [("path", .str "/a"), ("contents", .str "3")]])]
    = .ok [("files", .list [.dict [("path", .str "/a"), ("contents", .str "3")], .dict [("path", .str "/b"), ("contents", .str "2")]])] := by
  rfl

/-! ## C22 -/

theorem utf8_length_ge (s : Chars) : s.length ≤ (utf8 s).length := by
  induction s with
  | nil => simp [utf8]
  | cons c cs ih =>
    simp only [utf8, List.flatMap_cons, List.length_append, List.length_cons] at ih ⊢
    have := c.utf8Size_pos
    rw [String.length_utf8EncodeChar]; omega

theorem utf8Size_one_iff (c : Char) : c.utf8Size = 1 ↔ c.toNat < 128 := by
  unfold Char.utf8Size
  have e : c.toNat = c.val.toNat := rfl
  rw [e]
  simp only
  split
  · next h => simp; have := UInt32.le_iff_toNat_le.1 h; simp at this; omega
  · next h =>
    have h1 : ¬ c.val.toNat ≤ 127 := fun hh => h (UInt32.le_iff_toNat_le.2 (by simpa using hh))
    split <;> (try split) <;> simp <;> omega

/-- C22: the data of a member is the complete UTF-8 encoding of the contents exactly when the contents are ASCII;
otherwise it is cut (the size given to the archive is the number of characters, not of bytes). -/
theorem C22_complete_iff_ascii (name contents mode : Chars) (m : Member) (h : addFile name contents mode = .ok m) :
    m.data = utf8 contents ↔ ∀ c ∈ contents, c.toNat < 128 := by
  obtain ⟨n, hn, h⟩ := bind_ok_iff.1 h
  cases h
  simp only
  have ht : (utf8 contents).take contents.length = utf8 contents ↔ (utf8 contents).length ≤ contents.length := by
    constructor
    · intro h; rw [← h]; simp [List.length_take]; exact Nat.min_le_left _ _
    · exact List.take_of_length_le
  rw [ht]
  clear h ht
  clear hn
  induction contents with
  | nil => simp [utf8]
  | cons c cs ih =>
    have hge := utf8_length_ge cs
    have hp := c.utf8Size_pos
    have h1 := utf8Size_one_iff c
    simp only [utf8, List.flatMap_cons, List.length_append, List.length_cons, List.mem_cons, forall_eq_or_imp,
      String.length_utf8EncodeChar] at ih hge ⊢
    rw [← h1]
    constructor
    · intro h; exact ⟨by omega, ih.1 (by omega)⟩
    · rintro ⟨h, h'⟩; have := ih.2 h'; omega

/-- C22: in every case the member holds a prefix of the encoding, as many bytes as the contents have characters. -/
theorem C22_prefix (name contents mode : Chars) (m : Member) (h : addFile name contents mode = .ok m) :
    m.data <+: utf8 contents ∧ m.data.length = contents.length ∧ m.name = name := by
  obtain ⟨n, hn, h⟩ := bind_ok_iff.1 h
  cases h
  refine ⟨List.take_prefix _ _, ?_, rfl⟩
  rw [List.length_take]
  exact Nat.min_eq_left (utf8_length_ge contents)

example : addFile "a".toList "hi".toList "0644".toList = .ok ⟨"a".toList, 420, [104, 105]⟩ := by rfl
/-- C22: a file with the single character `é` loses its second byte. -/
theorem C22_needs_ascii : addFile "a".toList "é".toList "0644".toList = .ok ⟨"a".toList, 420, [195]⟩ ∧ utf8 "é".toList = [195, 169] := by
  constructor <;> rfl

/-! ## C24 -/

/-- Automaton over line breaks: number of line breaks just read, `none` after three in a row. -/
def runs : Nat → Chars → Option Nat
  | k, [] => some k
  | k, c :: r => if c = '\n' then (if k = 2 then none else runs (k + 1) r) else runs 0 r

theorem runs_append (k : Nat) (a b : Chars) : runs k (a ++ b) = (runs k a).bind (fun k' => runs k' b) := by
  induction a generalizing k with
  | nil => rfl
  | cons c a ih =>
    simp only [List.cons_append, runs]
    split
    · split
      · rfl
      · exact ih _
    · exact ih _

theorem runs_le {k n : Nat} {s : Chars} (hk : k ≤ 2) (h : runs k s = some n) : n ≤ 2 := by
  induction s generalizing k with
  | nil => cases h; exact hk
  | cons c s ih =>
    simp only [runs] at h
    split at h
    · split at h
      · cases h
      · exact ih (by omega) h
    · exact ih (by omega) h

theorem runs_none_of_triple (k : Nat) (hk : k ≤ 2) (r : Chars) : runs k ('\n' :: '\n' :: '\n' :: r) = none := by
  have : k = 0 ∨ k = 1 ∨ k = 2 := by omega
  rcases this with h | h | h <;> subst h <;> simp [runs]

theorem not_triple_of_runs {s : Chars} (h : runs 0 s ≠ none) : ¬ ['\n', '\n', '\n'] <:+: s := by
  rintro ⟨a, b, rfl⟩
  apply h
  rw [List.append_assoc, runs_append]
  cases ha : runs 0 a with
  | none => rfl
  | some n => exact runs_none_of_triple n (runs_le (by omega) ha) b

theorem runs_mono {s : Chars} {j k : Nat} (hjk : j ≤ k) (h : runs j s = none) : runs k s = none ∨ 2 < k := by
  induction s generalizing j k with
  | nil => cases h
  | cons c s ih =>
    simp only [runs] at h ⊢
    split
    · next hc =>
      simp only [hc, if_true] at h
      split
      · exact .inl rfl
      · next hk2 =>
        by_cases hk : 2 < k
        · exact .inr hk
        · split at h
          · omega
          · exact (ih (by omega) h).imp_right (by omega)
    · next hc => simp only [hc, if_false] at h; exact .inl h

theorem runs_of_no_triple {s : Chars} (h : ¬ ['\n', '\n', '\n'] <:+: s) (hh : s.head? ≠ some '\n') (hl : s.getLast? ≠ some '\n')
    (hne : s ≠ []) (k : Nat) : runs k s = some 0 := by
  -- any text without three line breaks in a row, with `j` line breaks before it
  have key : ∀ (s : Chars) (j : Nat), j ≤ 2 → ¬ ['\n', '\n', '\n'] <:+: (List.replicate j '\n' ++ s) → s ≠ [] → s.getLast? ≠ some '\n' →
      runs j s = some 0 := by
    intro s
    induction s with
    | nil => intro j _ _ h; exact absurd rfl h
    | cons c s ih =>
      intro j hj hnt _ hlast
      simp only [runs]
      by_cases hc : c = '\n'
      · subst hc
        have hs : s ≠ [] := by rintro rfl; simp at hlast
        have hl' : s.getLast? ≠ some '\n' := by
          cases s with
          | nil => exact absurd rfl hs
          | cons d ds => simpa [List.getLast?_cons] using hlast
        have hj2 : j ≠ 2 := by
          rintro rfl
          apply hnt
          exact ⟨[], s, by simp [List.replicate]⟩
        rw [if_pos rfl, if_neg hj2]
        refine ih (j + 1) (by omega) ?_ hs hl'
        have e : List.replicate (j + 1) '\n' ++ s = List.replicate j '\n' ++ '\n' :: s := by
          simp [List.replicate_succ', List.append_assoc]
        rw [e]; exact hnt
      · rw [if_neg hc]
        by_cases hs : s = []
        · subst hs; rfl
        · have hl' : s.getLast? ≠ some '\n' := by
            cases s with
            | nil => exact absurd rfl hs
            | cons d ds => simpa [List.getLast?_cons] using hlast
          refine ih 0 (by omega) ?_ hs hl'
          intro hi
          apply hnt
          exact List.IsInfix.trans (by simpa using hi) ⟨List.replicate j '\n' ++ [c], [], by simp⟩
  cases s with
  | nil => exact absurd rfl hne
  | cons c s =>
    have hc : c ≠ '\n' := by rintro rfl; simp at hh
    have := key (c :: s) 0 (by omega) (by simpa using h) hne hl
    simp only [runs, if_neg hc] at this ⊢
    exact this

/-- The file can be shown exactly: path and mode on one line, contents not empty, neither beginning nor ending with
a line break, without two empty lines in a row. -/
def ShowsExactly (f : FileItem) : Prop :=
  '\n' ∉ f.path ∧ '\n' ∉ f.mode ∧ f.contents ≠ [] ∧ f.contents.head? ≠ some '\n' ∧ f.contents.getLast? ≠ some '\n' ∧
  ¬ ['\n', '\n', '\n'] <:+: f.contents

theorem runs_no_nl {s : Chars} (h : '\n' ∉ s) (hne : s ≠ []) (k : Nat) : runs k s = some 0 := by
  refine runs_of_no_triple ?_ ?_ ?_ hne k
  · rintro ⟨a, b, rfl⟩; simp at h
  · intro hh
    cases s with
    | nil => cases hh
    | cons c s => simp at hh; subst hh; simp at h
  · intro hh; exact h (List.mem_of_getLast? hh)

theorem runs_fileText {f : FileItem} (h : ShowsExactly f) (k : Nat) : runs k (fileText f) = some 2 := by
  obtain ⟨h1, h2, h3, h4, h5, h6⟩ := h
  have e : fileText f = (pathTag ++ f.path) ++ ('\n' :: ((modeTag ++ f.mode) ++ ('\n' :: '\n' :: (f.contents ++ ['\n', '\n'])))) := by
    simp only [fileText, List.append_assoc, List.cons_append, List.nil_append]
  have p1 : '\n' ∉ pathTag := by decide
  have p2 : '\n' ∉ modeTag := by decide
  have p3 : pathTag ≠ [] := by decide
  have p4 : modeTag ≠ [] := by decide
  rw [e, runs_append, runs_no_nl (by simp [h1, p1]) (by simp [p3])]
  simp only [Option.bind_some, runs, if_true]
  rw [if_neg (by omega), runs_append, runs_no_nl (by simp [h2, p2]) (by simp [p4])]
  simp only [Option.bind_some, runs, if_true]
  rw [if_neg (by omega), if_neg (by omega), runs_append, runs_of_no_triple h6 h4 h5 h3]
  simp [runs]

theorem mapM_fileItem {config : VDict} {fs : List FileItem} (h : (filesOf config).mapM fileItem = .ok fs) :
    renderFiles config = .ok (renderFileItems fs) := by
  unfold renderFiles; rw [h]; rfl

/-- C24: for files that can be shown exactly, the section appended to the rendered text is the delimiter followed, for every file
in order, by its path, its mode and its exact contents. -/
theorem C24_exact_section (config : VDict) (fs : List FileItem) (hfs : (filesOf config).mapM fileItem = .ok fs)
    (hne : fs ≠ []) (hex : ∀ f ∈ fs, ShowsExactly f) :
    filesSection config = .ok (['\n'] ++ "# ---------- files ---------- #".toList ++ ['\n', '\n'] ++
      fs.flatMap (fun f => "# path: ".toList ++ f.path ++ ['\n'] ++ "# mode: ".toList ++ f.mode ++ ['\n', '\n'] ++ f.contents ++ ['\n', '\n'])) := by
  unfold filesSection
  rw [mapM_fileItem hfs]
  show Except.ok _ = _
  have hr : ∀ (l : List FileItem), (∀ f ∈ l, ShowsExactly f) → ∀ k, k ≤ 2 → runs k (l.flatMap fileText) ≠ none := by
    intro l
    induction l with
    | nil => intro _ k _; simp [runs]
    | cons f l ih =>
      intro hl k hk
      rw [List.flatMap_cons, runs_append, runs_fileText (hl f (by simp))]
      exact ih (fun g hg => hl g (by simp [hg])) 2 (by omega)
  cases fs with
  | nil => exact absurd rfl hne
  | cons f fs =>
    rw [replaceAll_of_not_infix]
    · rfl
    · apply not_triple_of_runs
      have e : renderFileItems (f :: fs) = ['\n'] ++ (filesDelimiter ++ (['\n', '\n'] ++ (f :: fs).flatMap fileText)) := by
        simp only [renderFileItems, List.append_assoc]
      rw [e, runs_append]
      have e1 : runs 0 ['\n'] = some 1 := by rfl
      have e2 : runs 1 filesDelimiter = some 0 := by rfl
      have e3 : runs 0 ['\n', '\n'] = some 2 := by rfl
      rw [e1, Option.bind_some, runs_append, e2, Option.bind_some, runs_append, e3, Option.bind_some]
      exact hr (f :: fs) hex 2 (by omega)

/-- C24: no files, no section. -/
theorem C24_no_files (config : VDict) (h : filesOf config = []) : filesSection config = .ok [] := by
  simp only [filesSection, renderFiles, h]; rfl

example : ShowsExactly ⟨"/a".toList, "0644".toList, "x\n\ny".toList⟩ := by
  refine ⟨by decide, by decide, by decide, by decide, by decide, ?_⟩
  apply not_triple_of_runs
  decide

/-- C24, boundary: files with different contents are shown alike. -/
theorem C24_needs_no_outer_line_breaks :
    filesSection [("files", .list [.dict [("path", .str "/a"), ("mode", .str "0644"), ("contents", .str "a")]])] =
    filesSection [("files", .list [.dict [("path", .str "/a"), ("mode", .str "0644"), ("contents", .str "\na\n")]])] := by
  decide +kernel

/-! ## C25 -/

/-- a mode accepted by the schema (schema.py l.1198-1206): three or four characters, octal digits, possibly
with a final line break (which `$` lets through) -/
def SchemaMode (m : Chars) : Prop :=
  3 ≤ m.length ∧ m.length ≤ 4 ∧ ∃ ds : List Nat, (∀ d ∈ ds, d < 8) ∧ (m = ds.map digitChar ∨ m = ds.map digitChar ++ ['\n'])

theorem octDigit_digitChar {d : Nat} (h : d < 8) : octDigit? (digitChar d) = some d := by
  have := digitChar_toNat (n := d) (by omega)
  unfold octDigit?
  rw [this]
  rw [if_pos (by simp; omega)]
  simp

theorem octDigits_digits (ds : List Nat) (h : ∀ d ∈ ds, d < 8) (acc : Nat) :
    octDigits acc (ds.map digitChar) = some (ds.foldl (fun n d => n * 8 + d) acc) := by
  induction ds generalizing acc with
  | nil => rfl
  | cons d ds ih =>
    simp only [List.map_cons, octDigits, octDigit_digitChar (h d (by simp)), List.foldl_cons]
    exact ih (fun x hx => h x (by simp [hx])) _

theorem digitChar_not_space {d : Nat} (h : d < 8) : isSpace (digitChar d) = false := by
  have := digitChar_toNat (n := d) (by omega)
  simp only [isSpace, this, Bool.or_eq_false_iff, Bool.and_eq_false_iff, decide_eq_false_iff_not, beq_eq_false_iff_ne, ne_eq]
  omega

theorem strip_digits (ds : List Nat) (h : ∀ d ∈ ds, d < 8) : strip (ds.map digitChar) = ds.map digitChar ∧
    (ds ≠ [] → strip (ds.map digitChar ++ ['\n']) = ds.map digitChar) := by
  have hns : ∀ c ∈ ds.map digitChar, isSpace c = false := by
    intro c hc
    obtain ⟨d, hd, rfl⟩ := List.mem_map.1 hc
    exact digitChar_not_space (h d hd)
  refine ⟨strip_of_no_space hns, ?_⟩
  intro hne
  have hl : lstrip (ds.map digitChar ++ ['\n']) = ds.map digitChar ++ ['\n'] := by
    unfold lstrip
    cases ds with
    | nil => exact absurd rfl hne
    | cons d ds => simp [digitChar_not_space (h d (by simp))]
  have hsn : isSpace '\n' = true := by decide
  have hr : (ds.map digitChar).reverse.dropWhile isSpace = (ds.map digitChar).reverse := by
    cases hrev : (ds.map digitChar).reverse with
    | nil => rfl
    | cons c cs =>
      have : isSpace c = false := hns c (List.mem_reverse.1 (by rw [hrev]; simp))
      simp [this]
  unfold strip
  rw [hl]
  unfold rstrip
  rw [List.reverse_append]
  simp only [List.reverse_cons, List.reverse_nil, List.nil_append, List.singleton_append, List.dropWhile_cons, hsn, if_true]
  rw [hr, List.reverse_reverse]

theorem parseOct_digits (ds : List Nat) (hne : ds ≠ []) (h : ∀ d ∈ ds, d < 8) (m : Chars)
    (hm : m = ds.map digitChar ∨ m = ds.map digitChar ++ ['\n']) :
    parseOct m = .ok (ds.foldl (fun n d => n * 8 + d) 0) := by
  have hs : strip m = ds.map digitChar := by
    rcases hm with rfl | rfl
    · exact (strip_digits ds h).1
    · exact (strip_digits ds h).2 hne
  unfold parseOct
  simp only [hs]
  have hno : dropOctPrefix (ds.map digitChar) = ds.map digitChar := by
    unfold dropOctPrefix
    split
    · next r he =>
      cases ds with
      | nil => cases he
      | cons a ds => cases ds with
        | nil => simp at he
        | cons b ds =>
          simp at he
          have hb := digitChar_toNat (n := b) (by have := h b (by simp); omega)
          rw [he.2.1] at hb
          have := h b (by simp)
          have h111 : ('o' : Char).toNat = 111 := rfl
          omega
    · next r he =>
      cases ds with
      | nil => cases he
      | cons a ds => cases ds with
        | nil => simp at he
        | cons b ds =>
          simp at he
          have hb := digitChar_toNat (n := b) (by have := h b (by simp); omega)
          rw [he.2.1] at hb
          have := h b (by simp)
          have h79 : ('O' : Char).toNat = 79 := rfl
          omega
    · rfl
  rw [hno]
  have := octDigits_digits ds h 0
  cases hd : ds.map digitChar with
  | nil => cases ds with
    | nil => exact absurd rfl hne
    | cons _ _ => simp at hd
  | cons c cs => rw [hd] at this; simp only [this]

/-- C25: every mode accepted by the schema is convertible and its permission bits are the value of its octal digits. -/
theorem C25_octal_mode (name contents mode : Chars) (hm : SchemaMode mode) :
    ∃ (ds : List Nat) (m : Member), (∀ d ∈ ds, d < 8) ∧ (mode = ds.map digitChar ∨ mode = ds.map digitChar ++ ['\n']) ∧
      addFile name contents mode = .ok m ∧ m.mode = ds.foldl (fun n d => n * 8 + d) 0 ∧ m.mode < 4096 := by
  obtain ⟨h3, h4, ds, hd, he⟩ := hm
  have hne : ds ≠ [] := by rintro rfl; rcases he with rfl | rfl <;> simp at h3
  have hp := parseOct_digits ds hne hd mode he
  refine ⟨ds, ⟨name, ds.foldl (fun n d => n * 8 + d) 0, (utf8 contents).take contents.length⟩, hd, he, ?_, rfl, ?_⟩
  · unfold addFile; rw [hp]; rfl
  · have hl : ds.length ≤ 4 := by rcases he with rfl | rfl <;> simp at h4 <;> omega
    simp only
    match ds, hl with
    | [], _ => simp
    | [a], _ => have := hd a (by simp); simp; omega
    | [a, b], _ => have := hd a (by simp); have := hd b (by simp); simp; omega
    | [a, b, c], _ => have := hd a (by simp); have := hd b (by simp); have := hd c (by simp); simp; omega
    | [a, b, c, d], _ =>
      have := hd a (by simp); have := hd b (by simp); have := hd c (by simp); have := hd d (by simp); simp; omega
    | _ :: _ :: _ :: _ :: _ :: _, h => simp at h

/-- C25: without a mode the permissions are those of 0644. -/
theorem C25_default_mode (path contents : String) (f : FileItem)
    (h : fileItem (.dict [("path", .str path), ("contents", .str contents)]) = .ok f) :
    parseOct f.mode = .ok (6 * 64 + 4 * 8 + 4) := by
  cases h; rfl

example : SchemaMode "0755".toList := ⟨by decide, by decide, [0, 7, 5, 5], by simp, .inl rfl⟩
example : SchemaMode "644\n".toList := ⟨by decide, by decide, [6, 4, 4], by simp, .inr rfl⟩

/-! ## C23 (files given in the configuration) -/

/-- C23 for the files of a configuration: if the path check accepts it, every member written for them has a relative
name without empty, `.` or `..` components. -/
theorem C23_member_names_safe (config : VDict) (h : validateFilePaths config = .ok ()) (ms : List Member)
    (hm : processFiles config = .ok ms) (m : Member) (hmem : m ∈ ms) :
    m.name.head? ≠ some '/' ∧ m.name ≠ [] ∧ ∀ c ∈ splitOn '/' m.name, c ≠ [] ∧ c ≠ ['.'] ∧ c ≠ ['.', '.'] := by
  obtain ⟨fs, hfs, hm⟩ := bind_ok_iff.1 hm
  have hv := validateFilePaths_ok.1 h
  have key : ∀ (l : List Val) (fs : List FileItem) (ms : List Member), l.mapM fileItem = .ok fs →
      fs.mapM (fun f => addFile (memberName f.path) f.contents f.mode) = .ok ms →
      (∀ f ∈ l, ∃ p, filePath f = .ok p ∧ validPath p = true) → ∀ m ∈ ms, ∃ p, validPath p = true ∧ m.name = memberName p := by
    intro l
    induction l with
    | nil => intro fs ms h1 h2 _; rw [mapM_ok_nil] at h1; cases h1; rw [mapM_ok_nil] at h2; cases h2; simp
    | cons v l ih =>
      intro fs ms h1 h2 hval
      obtain ⟨f, fs', hf, hfs', rfl⟩ := (mapM_ok_cons _ _ _ _).1 h1
      obtain ⟨m0, ms', hm0, hms', rfl⟩ := (mapM_ok_cons _ _ _ _).1 h2
      intro m hm
      rcases List.mem_cons.1 hm with rfl | hm
      · obtain ⟨p, hp, hvp⟩ := hval v (by simp)
        have hfp : f.path = p := by
          cases v with
          | dict d =>
            simp only [fileItem] at hf
            simp only [filePath] at hp
            obtain ⟨q, hq, hf⟩ := bind_ok_iff.1 hf
            obtain ⟨c, hc, hf⟩ := bind_ok_iff.1 hf
            obtain ⟨mo, hmo, hf⟩ := bind_ok_iff.1 hf
            cases hf
            rw [hp] at hq
            cases hq
            rfl
          | _ => cases hp
        obtain ⟨n, _, hm0⟩ := bind_ok_iff.1 hm0
        cases hm0
        exact ⟨p, hvp, by rw [hfp]⟩
      · exact ih fs' ms' hfs' hms' (fun g hg => hval g (by simp [hg])) m hm
  obtain ⟨p, hvp, hn⟩ := key _ _ _ hfs hm hv m hmem
  obtain ⟨_, _, h3⟩ := C19_path_stays_below p hvp []
  have hc := validPath_components hvp
  rw [pathComponents_eq] at hc
  rw [hn]
  refine ⟨h3, ?_, hc⟩
  intro he
  have := hc [] (by rw [he]; simp [splitOn])
  exact this.1 rfl

example : processFiles [("files", .list [.dict [("path", .str "/etc/x"), ("mode", .str "0600"), ("contents", .str "c")]])]
    = .ok [⟨"etc/x".toList, 384, [99]⟩] := by rfl

end NJ
