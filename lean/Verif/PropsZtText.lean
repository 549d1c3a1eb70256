import Verif.ZtBackend
import Verif.PropsJson
import Verif.PropsVpnRound
import Mathlib.Data.List.Chain

/-!
# The text of the ZeroTier backend: comments, blank lines
-/

set_option linter.unusedSimpArgs false
set_option linter.unnecessarySimpa false

namespace NJ

/-! ## What is not a comment -/

/-- the text has neither of the marks that start a comment -/
def NoComment (s : String) : Prop := ¬ ['/', '/'] <:+: s.toList ∧ ¬ ['/', '*'] <:+: s.toList

/-- no text of the data, keys included, has them -/
inductive CommentFree : Val → Prop
  | none : CommentFree .none
  | bool (b) : CommentFree (.bool b)
  | int (i) : CommentFree (.int i)
  | str (s) : NoComment s → CommentFree (.str s)
  | list (l : List Val) : (∀ v ∈ l, CommentFree v) → CommentFree (.list l)
  | dict (d : VDict) : (∀ p ∈ d, NoComment p.1) → (∀ p ∈ d, CommentFree p.2) → CommentFree (.dict d)

/-- neither a comment nor an empty line -/
def Follows (a b : Char) : Prop := (a = '/' → b ≠ '/' ∧ b ≠ '*') ∧ (a = '\n' → b ≠ '\n')

/-- a part of the text that can be put anywhere -/
structure Piece (s : Chars) : Prop where
  chain : s.IsChain Follows
  first : ∃ c t, s = c :: t ∧ c ≠ '/' ∧ c ≠ '*' ∧ c ≠ '\n'
  last : ∀ c ∈ s.getLast?, c ≠ '/' ∧ c ≠ '\n'

theorem Piece.ne {s : Chars} (h : Piece s) : s ≠ [] := by
  obtain ⟨c, t, e, _⟩ := h.first
  rw [e]; simp

theorem follows_any {a b : Char} (h : a ≠ '/' ∧ a ≠ '\n') : Follows a b := ⟨fun e => absurd e h.1, fun e => absurd e h.2⟩

theorem follows_first {a b : Char} (h : b ≠ '/' ∧ b ≠ '*' ∧ b ≠ '\n') : Follows a b := ⟨fun _ => ⟨h.1, h.2.1⟩, fun _ => h.2.2⟩

theorem Piece.head {s : Chars} (h : Piece s) : ∀ c ∈ s.head?, c ≠ '/' ∧ c ≠ '*' ∧ c ≠ '\n' := by
  obtain ⟨c, t, e, h1⟩ := h.first
  rw [e]
  intro d hd
  simp at hd
  subst hd
  exact h1

theorem Piece.single {c : Char} (h : c ≠ '/' ∧ c ≠ '*' ∧ c ≠ '\n') : Piece [c] :=
  ⟨by simp, ⟨c, [], rfl, h⟩, by intro d hd; simp at hd; subst hd; exact ⟨h.1, h.2.2⟩⟩

theorem Piece.append {a b : Chars} (ha : Piece a) (hb : Piece b) : Piece (a ++ b) := by
  obtain ⟨c, t, e, h1⟩ := ha.first
  refine ⟨ha.chain.append hb.chain (fun x hx y _ => follows_any (ha.last x hx)), ⟨c, t ++ b, by rw [e]; rfl, h1⟩, ?_⟩
  intro x hx
  rw [List.getLast?_append_of_ne_nil _ hb.ne] at hx
  exact hb.last x hx

theorem chain_sp (n : Nat) : (sp n).IsChain Follows ∧ ∀ c ∈ sp n, c = ' ' := by
  have h : ∀ c ∈ sp n, c = ' ' := fun c hc => (List.mem_replicate.1 hc).2
  refine ⟨?_, h⟩
  generalize sp n = s at h
  induction s with
  | nil => simp
  | cons c s ih =>
    rw [List.isChain_cons]
    refine ⟨fun y hy => ?_, ih (fun d hd => h d (by simp [hd]))⟩
    rw [h c (by simp)]
    exact follows_any (by decide)

theorem Piece.brk {a b : Chars} (st : JsonStyle) (lvl : Nat) (ha : Piece a) (hb : Piece b) : Piece (a ++ (st.brk lvl ++ b)) := by
  unfold JsonStyle.brk
  cases st.indent with
  | none => exact ha.append hb
  | some n =>
    obtain ⟨h1, h2⟩ := chain_sp (n * lvl)
    obtain ⟨c, t, e, h3⟩ := ha.first
    have hs : (sp (n * lvl) ++ b).IsChain Follows := h1.append hb.chain (fun x hx y hy => follows_first (hb.head y hy))
    have hh : ∀ c ∈ (sp (n * lvl) ++ b).head?, c ≠ '/' ∧ c ≠ '*' ∧ c ≠ '\n' := by
      intro c hc
      cases hsp : sp (n * lvl) with
      | nil => rw [hsp] at hc; exact hb.head c hc
      | cons d r =>
        rw [hsp] at hc
        simp at hc
        subst hc
        rw [h2 d (by rw [hsp]; simp)]
        decide
    refine ⟨ha.chain.append ?_ (fun x hx y _ => follows_any (ha.last x hx)), ⟨c, _, by rw [e]; rfl, h3⟩, ?_⟩
    · rw [List.cons_append, List.isChain_cons]
      exact ⟨fun y hy => follows_first (hh y hy), hs⟩
    · intro x hx
      have hne : ('\n' :: sp (n * lvl)) ++ b ≠ [] := by simp
      rw [List.getLast?_append_of_ne_nil _ hne, List.getLast?_append_of_ne_nil _ hb.ne] at hx
      exact hb.last x hx

/-! ## Texts -/

/-- how a character may be written -/
def SafeEsc (esc : Char → Chars) : Prop :=
  esc '/' = ['/'] ∧ ∀ c, c ≠ '/' → esc c ≠ [] ∧ (∀ d ∈ esc c, d ≠ '/' ∧ d ≠ '\n') ∧ (c ≠ '*' → ∀ d ∈ esc c, d ≠ '*')

theorem safeHex {k : Nat} (h : k < 16) : hexDigit k ≠ '/' ∧ hexDigit k ≠ '\n' ∧ hexDigit k ≠ '*' :=
  (by decide : ∀ k : Fin 16, hexDigit k ≠ '/' ∧ hexDigit k ≠ '\n' ∧ hexDigit k ≠ '*') ⟨k, h⟩

theorem safe_uEscape (n : Nat) : ∀ d ∈ uEscape n, d ≠ '/' ∧ d ≠ '\n' ∧ d ≠ '*' := by
  intro d hd
  simp only [uEscape, List.mem_cons, List.not_mem_nil, or_false] at hd
  rcases hd with rfl | rfl | rfl | rfl | rfl | rfl
  · decide
  · decide
  all_goals exact safeHex (Nat.mod_lt _ (by decide))

theorem escHtml_cases (c : Char) : escHtml c = [c] ∧ c ≠ '\n' ∨ (escHtml c ≠ [] ∧ c ≠ '/' ∧ ∀ d ∈ escHtml c, d ≠ '/' ∧ d ≠ '\n' ∧ d ≠ '*') := by
  by_cases hh : c = '<' ∨ c = '>' ∨ c = '&' ∨ c = '\''
  · right
    rcases hh with h | h | h | h <;> subst h
    · exact ⟨by decide, by decide, safe_uEscape 60⟩
    · exact ⟨by decide, by decide, safe_uEscape 62⟩
    · exact ⟨by decide, by decide, safe_uEscape 38⟩
    · exact ⟨by decide, by decide, safe_uEscape 39⟩
  · have h4 : htmlChar c = [c] := by
      simp only [not_or] at hh
      simp [htmlChar, hh]
    unfold escHtml escChar
    split_ifs with h1 h2 h3 h4' h5 h6 h7 h8 h9
    · right; subst h1; decide
    · right; subst h2; decide
    · right; subst h3; decide
    · right; subst h4'; decide
    · right; subst h5; decide
    · right; subst h6; decide
    · right; subst h7; decide
    · left
      exact ⟨by simp [h4], h3⟩
    · right
      rw [html_uEscape]
      refine ⟨by simp [uEscape], fun e => ?_, safe_uEscape _⟩
      subst e
      exact h8 (by decide)
    · right
      rw [List.flatMap_append, html_uEscape, html_uEscape]
      refine ⟨by simp [uEscape], fun e => ?_, fun d hd => ?_⟩
      · subst e
        exact h8 (by decide)
      · rcases List.mem_append.1 hd with h | h
        · exact safe_uEscape _ d h
        · exact safe_uEscape _ d h

theorem escHtml_safe : SafeEsc escHtml := by
  refine ⟨by decide, fun c hc => ?_⟩
  rcases escHtml_cases c with ⟨h, hn⟩ | ⟨h, _, h2⟩
  · rw [h]
    refine ⟨by simp, fun d hd => ?_, fun hs d hd => ?_⟩
    · simp at hd; subst hd; exact ⟨hc, hn⟩
    · simp at hd; subst hd; exact hs
  · exact ⟨h, fun d hd => ⟨(h2 d hd).1, (h2 d hd).2.1⟩, fun _ d hd => (h2 d hd).2.2⟩

/-- the characters of a text, followed by the closing quote -/
theorem chain_escaped {esc : Char → Chars} (he : SafeEsc esc) (s : Chars) (h1 : ¬ ['/', '/'] <:+: s) (h2 : ¬ ['/', '*'] <:+: s) :
    (s.flatMap esc ++ ['"']).IsChain Follows ∧
      ∀ d ∈ (s.flatMap esc ++ ['"']).head?, d ≠ '\n' ∧ (d = '/' → s.head? = some '/') ∧ (d = '*' → s.head? = some '*') := by
  induction s with
  | nil => refine ⟨by simp, fun d hd => ?_⟩
           simp at hd; subst hd; decide
  | cons c s ih =>
    obtain ⟨i1, i2⟩ := ih (fun h => h1 (h.trans (List.suffix_cons c s).isInfix)) (fun h => h2 (h.trans (List.suffix_cons c s).isInfix))
    rw [List.flatMap_cons, List.append_assoc]
    by_cases hc : c = '/'
    · subst hc
      rw [he.1, List.singleton_append, List.isChain_cons]
      refine ⟨⟨fun y hy => ?_, i1⟩, fun d hd => ?_⟩
      · obtain ⟨_, j2, j3⟩ := i2 y hy
        have hpre (x : Char) (hx : s.head? = some x) : ['/', x] <:+: ('/' :: s) := by
          obtain ⟨y, t, rfl⟩ : ∃ y t, s = y :: t := by
            cases s with
            | nil => cases hx
            | cons y t => exact ⟨y, t, rfl⟩
          simp at hx
          subst hx
          exact ⟨[], t, by simp⟩
        exact ⟨fun _ => ⟨fun e => h1 (hpre _ (j2 e)), fun e => h2 (hpre _ (j3 e))⟩, fun e => absurd e (by decide)⟩
      · simp at hd; subst hd
        exact ⟨by decide, fun _ => by simp, fun e => absurd e (by decide)⟩
    · obtain ⟨j1, j2, j3⟩ := he.2 c hc
      refine ⟨List.IsChain.append ?_ i1 (fun x hx y _ => follows_any ?_), fun d hd => ?_⟩
      · generalize esc c = l at j2
        clear j1 j3 i1 i2
        induction l with
        | nil => simp
        | cons x l ih =>
          rw [List.isChain_cons]
          refine ⟨fun y hy => follows_any (j2 x (by simp)), ih (fun d hd => j2 d (by simp [hd]))⟩
      · exact j2 x (List.mem_of_mem_getLast? hx)
      · cases hl : esc c with
        | nil => exact absurd hl j1
        | cons x l =>
          rw [hl] at hd
          simp at hd
          subst hd
          have hx := j2 x (by rw [hl]; simp)
          refine ⟨hx.2, fun e => absurd e hx.1, fun e => ?_⟩
          by_cases hs : c = '*'
          · simp [hs]
          · exact absurd e (j3 hs x (by rw [hl]; simp))

theorem piece_text {st : JsonStyle} (he : SafeEsc st.esc) {s : String} (h : NoComment s) : Piece (jsonText st s.toList) := by
  obtain ⟨h1, h2⟩ := chain_escaped he s.toList h.1 h.2
  refine ⟨?_, ⟨'"', _, rfl, by decide, by decide, by decide⟩, fun c hc => ?_⟩
  · unfold jsonText
    rw [List.isChain_cons]
    exact ⟨fun y hy => follows_any (by decide), h1⟩
  · unfold jsonText at hc
    have : ('"' :: (s.toList.flatMap st.esc ++ ['"'])) = ('"' :: s.toList.flatMap st.esc) ++ ['"'] := by simp
    rw [this, List.getLast?_append_of_ne_nil _ (by simp)] at hc
    simp at hc
    subst hc
    decide

/-! ## Values -/

theorem piece_all {s : Chars} (hne : s ≠ []) (h : ∀ c ∈ s, c ≠ '/' ∧ c ≠ '*' ∧ c ≠ '\n') : Piece s := by
  induction s with
  | nil => exact absurd rfl hne
  | cons c s ih =>
    cases s with
    | nil => exact Piece.single (h c (by simp))
    | cons d s => exact (Piece.single (h c (by simp))).append (ih (by simp) (fun x hx => h x (by simp [hx])))

theorem piece_int (i : Int) : Piece (showInt i) := by
  obtain ⟨c, t, h1, _⟩ := showInt_head i
  refine piece_all (by rw [h1]; simp) (fun d hd => ?_)
  have h2 : isDigit d = true ∨ d = '-' := by
    cases i with
    | ofNat n => exact .inl (showNat_digits n d hd)
    | negSucc n =>
      rcases List.mem_cons.1 hd with h | h
      · exact .inr h
      · exact .inl (showNat_digits (n + 1) d h)
  exact ⟨digit_other h2 (by decide) (by decide), digit_other h2 (by decide) (by decide), digit_other h2 (by decide) (by decide)⟩

theorem Piece.sep {a b : Chars} (st : JsonStyle) (lvl : Nat) (ha : Piece a) (hb : Piece b) : Piece (a ++ (st.sep lvl ++ b)) := by
  unfold JsonStyle.sep
  cases hi : st.indent with
  | none =>
    have := (ha.append (piece_all (s := [',', ' ']) (by simp) (by decide))).append hb
    simpa using this
  | some n =>
    have := Piece.brk st lvl (ha.append (Piece.single (c := ',') (by decide))) hb
    simpa using this

theorem piece_dumpV {st : JsonStyle} (he : SafeEsc st.esc) {v : Val} (h : CommentFree v) : ∀ lvl, Piece (dumpV st lvl v) := by
  induction h with
  | none => intro lvl; rw [dumpV]; exact piece_all (by simp) (by decide)
  | bool b => intro lvl; cases b <;> rw [dumpV] <;> exact piece_all (by simp) (by decide)
  | int i => intro lvl; rw [dumpV]; exact piece_int i
  | str s hs => intro lvl; rw [dumpV]; exact piece_text he hs
  | list l hl ih =>
    intro lvl
    cases l with
    | nil => rw [dumpV]; exact piece_all (by simp) (by decide)
    | cons v vs =>
      have hL : ∀ (vs : List Val), (∀ w ∈ vs, ∀ lvl, Piece (dumpV st lvl w)) → ∀ lvl a, Piece a → Piece (a ++ dumpL st lvl vs) := by
        intro vs
        induction vs with
        | nil => intro _ lvl a ha; simpa [dumpL] using ha
        | cons w vs ihv =>
          intro hw lvl a ha
          rw [dumpL]
          have := ihv (fun x hx => hw x (by simp [hx])) lvl _ (Piece.sep st lvl ha (hw w (by simp) lvl))
          simpa using this
      rw [dumpV]
      have h1 := Piece.brk st (lvl + 1) (Piece.single (c := '[') (by decide)) (ih v (by simp) (lvl + 1))
      have h2 := Piece.brk st lvl (hL vs (fun w hw => ih w (by simp [hw])) (lvl + 1) _ h1) (Piece.single (c := ']') (by decide))
      simpa using h2
  | dict d hk hl ih =>
    intro lvl
    cases d with
    | nil => rw [dumpV]; exact piece_all (by simp) (by decide)
    | cons p ps =>
      obtain ⟨k, v⟩ := p
      have hcol : Piece [':', ' '] := piece_all (by simp) (by decide)
      have hL : ∀ (ps : List (String × Val)), (∀ w ∈ ps, NoComment w.1 ∧ ∀ lvl, Piece (dumpV st lvl w.2)) → ∀ lvl a, Piece a → Piece (a ++ dumpD st lvl ps) := by
        intro vs
        induction vs with
        | nil => intro _ lvl a ha; simpa [dumpD] using ha
        | cons w vs ihv =>
          obtain ⟨k', v'⟩ := w
          intro hw lvl a ha
          rw [dumpD]
          have hp := hw (k', v') (by simp)
          have := ihv (fun x hx => hw x (by simp [hx])) lvl _ (Piece.sep st lvl ha (((piece_text he hp.1).append hcol).append (hp.2 lvl)))
          simpa using this
      rw [dumpV]
      have h1 := Piece.brk st (lvl + 1) (Piece.single (c := '{') (by decide)) (((piece_text he (hk (k, v) (by simp))).append hcol).append (ih (k, v) (by simp) (lvl + 1)))
      have h2 := Piece.brk st lvl (hL ps (fun w hw => ⟨hk w (by simp [hw]), ih w (by simp [hw])⟩) (lvl + 1) _ h1) (Piece.single (c := '}') (by decide))
      simpa using h2

/-! ## Removing comments -/

theorem dropComments_cons {c : Char} {s : Chars} (h : ∀ d ∈ s.head?, c = '/' → d ≠ '/' ∧ d ≠ '*') : dropComments (c :: s) = c :: dropComments s := by
  have : commentAt (c :: s) = none := by
    unfold commentAt
    split
    · next heq =>
      simp only [List.cons.injEq] at heq
      obtain ⟨rfl, rfl⟩ := heq
      exact absurd rfl (h '*' (by simp) rfl).2
    · next heq =>
      simp only [List.cons.injEq] at heq
      obtain ⟨rfl, rfl⟩ := heq
      exact absurd rfl (h '/' (by simp) rfl).1
    · rfl
  unfold dropComments
  rw [scan, this]
  rfl

theorem dropComments_piece {a b : Chars} (ha : Piece a) : dropComments (a ++ b) = a ++ dropComments b := by
  have h1 := ha.chain
  have h2 := ha.last
  clear ha
  induction a with
  | nil => rfl
  | cons c a ih =>
    rw [List.isChain_cons] at h1
    rw [List.cons_append, dropComments_cons, ih h1.2]
    · rfl
    · intro d hd
      cases a with
      | nil => simp at hd
      | cons x a => exact h2 d (by simpa using hd)
    · intro d hd e
      cases a with
      | nil => exact absurd e (h2 c (by simp)).1
      | cons x a =>
        simp at hd
        subst hd
        exact (h1.1 x (by simp)).1 e

theorem dropComments_line {l b : Chars} (hl : '\n' ∉ l) : dropComments ('/' :: '/' :: (l ++ '\n' :: b)) = dropComments ('\n' :: b) := by
  have ht : (l ++ '\n' :: b).takeWhile (· ≠ '\n') = l := by
    have := (takeWhile_stop (p := fun c => decide (c ≠ '\n')) (a := l) (r := '\n' :: b) (fun c hc => by
      simp only [decide_eq_true_eq]
      rintro rfl
      exact hl hc) (fun c t h => by cases h; simp)).1
    simpa using this
  have hm : commentAt ('/' :: '/' :: (l ++ '\n' :: b)) = some ((), l.length + 2) := by
    unfold commentAt
    simp only [ht]
  unfold dropComments
  rw [scan, hm]
  have : ('/' :: (l ++ '\n' :: b)) = ('/' :: l) ++ '\n' :: b := rfl
  simp only [Nat.add_sub_cancel, List.flatMap_cons, List.nil_append]
  rw [this, show l.length + 2 - 1 = ('/' :: l).length by simp, scan_skip]

/-! ## Splitting -/

theorem splitBlank_ne (f : Bool) (s : Chars) : splitBlank f s ≠ [] := by
  cases s with
  | nil => cases f <;> simp [splitBlank]
  | cons c s =>
    cases f
    · rw [splitBlank]
      split
      · simp
      · exact consHead_ne_nil' _ _
    · rw [splitBlank]
      split
      · exact splitBlank_ne true s
      · exact consHead_ne_nil' _ _
where
  consHead_ne_nil' (c : Chars) (l : List Chars) : consHead c l ≠ [] := by cases l <;> simp [consHead]

theorem splitBlank_piece {a b : Chars} (ha : Piece a) : splitBlank false (a ++ b) = consHead a (splitBlank false b) := by
  have h1 := ha.chain
  have h2 := ha.last
  clear ha
  induction a with
  | nil =>
    rw [List.nil_append]
    have := splitBlank_ne false b
    generalize splitBlank false b = l at this
    cases l with
    | nil => exact absurd rfl this
    | cons x l => rfl
  | cons c a ih =>
    rw [List.isChain_cons] at h1
    rw [List.cons_append, splitBlank, if_neg, ih h1.2, consHead_append _ _ _ (splitBlank_ne _ _)]
    · rfl
    · intro d hd
      cases a with
      | nil => simp at hd
      | cons x a => exact h2 d (by simpa using hd)
    · rintro ⟨rfl, h⟩
      cases a with
      | nil => exact absurd rfl (h2 '\n' (by simp)).2
      | cons x a =>
        simp at h
        subst h
        exact (h1.1 '\n' (by simp)).2 rfl rfl

/-- what separates the networks -/
theorem splitBlank_breaks {a : Chars} (ha : Piece a) (k : Nat) (b : Chars) :
    splitBlank false (List.replicate (k + 2) '\n' ++ (a ++ b)) = [] :: splitBlank false (a ++ b) := by
  have hskip : ∀ k, splitBlank true (List.replicate k '\n' ++ (a ++ b)) = splitBlank false (a ++ b) := by
    intro k
    induction k with
    | zero =>
      obtain ⟨c, t, e, _, _, h3⟩ := ha.first
      rw [List.replicate_zero, List.nil_append, e, List.cons_append, splitBlank, if_neg h3, splitBlank, if_neg]
      exact fun h => h3 h.1
    | succ k ih => rw [List.replicate_succ, List.cons_append, splitBlank, if_pos rfl, ih]
  rw [List.replicate_succ, List.cons_append, splitBlank, if_pos ⟨rfl, by simp [List.replicate_succ]⟩, hskip]

end NJ
