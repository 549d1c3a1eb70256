import Verif.PropsBackend

/-!
# C91: what an object answers does not depend on what it was asked before

A history is any list of calls of `validate`, `json`, `render` and `generate`, in any order, whether they succeed or fail. This module
is about any backend class; `PropsHistoryReal.lean` is about the backends with their schemas.
-/

namespace NJ

/-- the calls -/
inductive Call where
  | validate
  | json
  | render (files : Bool)
  | generate
deriving DecidableEq

/-- what a call returns: nothing, a document, a text, the members of an archive -/
inductive Answer where
  | done
  | doc (d : VDict)
  | text (t : Chars)
  | archive (l : List Member)

/-- one call on an object: the object afterwards, and the answer or the exception -/
def ask (cls : Class) : Call → BState → BState × Except PyErr Answer
  | .validate, st => (st, (validate cls st.config).map fun _ => .done)
  | .json, st => (st, (jsonDoc cls st).map .doc)
  | .render files, st => ((render cls files st).1, (render cls files st).2.map .text)
  | .generate, st => ((generate cls st).1, (generate cls st).2.map .archive)

/-- the object after a history -/
def afterCalls (cls : Class) (past : List Call) (st : BState) : BState := past.foldl (fun st q => (ask cls q st).1) st

section
variable {cls : Class} {c : VDict} {st1 : BState} {t : Chars}

/-- whatever the argument of `render`, the object is left in the same state, and the answer is that of this state -/
theorem render_reaches (h : render cls false ⟨c, none⟩ = (st1, .ok t)) (hv : validate cls st1.config = .ok ()) (files : Bool) :
    (render cls files ⟨c, none⟩).1 = st1 ∧ (render cls files st1).1 = st1 ∧ (render cls files ⟨c, none⟩).2 = (render cls files st1).2 := by
  obtain ⟨hc, st2, he, ht⟩ := render_ok h
  obtain ⟨c', hd, rfl, out, ho, _⟩ := renderTail_ok ht
  obtain ⟨i, hi⟩ := ensure_inter he
  have hd' := C21_idempotent _ _ hd
  have e1 : render cls files ⟨c, none⟩ = renderTail cls files st2 := by
    unfold render; rw [hc]; simp only [he]
  have e2 : render cls files ⟨c', st2.inter⟩ = renderTail cls files ⟨c', st2.inter⟩ := by
    unfold render; rw [hv]; simp only [ensureIntermediate, hi]
  rw [e1, e2]
  unfold renderTail
  rw [hd, hd']
  exact ⟨rfl, rfl, rfl⟩

theorem generate_reaches (h : render cls false ⟨c, none⟩ = (st1, .ok t)) (hv : validate cls st1.config = .ok ()) :
    (generate cls ⟨c, none⟩).1 = st1 ∧ (generate cls st1).1 = st1 ∧ (generate cls ⟨c, none⟩).2 = (generate cls st1).2 := by
  have h1 := render_again h hv
  unfold generate
  rw [h, h1]
  exact ⟨rfl, rfl, rfl⟩

/-- one call on the fresh object, or on the one that was rendered -/
theorem ask_reaches (h : render cls false ⟨c, none⟩ = (st1, .ok t)) (hv : validate cls st1.config = .ok ()) (q : Call) :
    ((ask cls q ⟨c, none⟩).1 = ⟨c, none⟩ ∨ (ask cls q ⟨c, none⟩).1 = st1) ∧ (ask cls q st1).1 = st1 ∧
    (q ≠ .json → (ask cls q st1).2 = (ask cls q ⟨c, none⟩).2) := by
  cases q with
  | validate =>
    refine ⟨Or.inl rfl, rfl, fun _ => ?_⟩
    simp only [ask, hv, (render_ok h).1]
  | json => exact ⟨Or.inl rfl, rfl, fun hq => absurd rfl hq⟩
  | render files =>
    obtain ⟨a, b, d⟩ := render_reaches h hv files
    exact ⟨Or.inr a, b, fun _ => by simp only [ask, d]⟩
  | generate =>
    obtain ⟨a, b, d⟩ := generate_reaches h hv
    exact ⟨Or.inr a, b, fun _ => by simp only [ask, d]⟩

theorem after_reaches (h : render cls false ⟨c, none⟩ = (st1, .ok t)) (hv : validate cls st1.config = .ok ()) (past : List Call) :
    afterCalls cls past ⟨c, none⟩ = ⟨c, none⟩ ∨ afterCalls cls past ⟨c, none⟩ = st1 := by
  have stay : ∀ past : List Call, afterCalls cls past st1 = st1 := by
    intro past
    induction past with
    | nil => rfl
    | cons q qs ih =>
      unfold afterCalls at ih ⊢
      rw [List.foldl_cons, (ask_reaches h hv q).2.1]
      exact ih
  induction past with
  | nil => exact Or.inl rfl
  | cons q qs ih =>
    unfold afterCalls at ih stay ⊢
    rw [List.foldl_cons]
    rcases (ask_reaches h hv q).1 with e | e <;> rw [e]
    · exact ih
    · exact Or.inr (stay qs)

/-- **C91**, any class: if the configuration can be rendered, and what rendering leaves in the object is valid, then after any history
every call but `json` answers what it answers on a fresh object: the same text, the same archive, the same exception. -/
theorem C91_answers (h : render cls false ⟨c, none⟩ = (st1, .ok t)) (hv : validate cls st1.config = .ok ()) (past : List Call) (q : Call)
    (hq : q ≠ .json) : (ask cls q (afterCalls cls past ⟨c, none⟩)).2 = (ask cls q ⟨c, none⟩).2 := by
  rcases after_reaches h hv past with e | e <;> rw [e]
  exact (ask_reaches h hv q).2.2 hq

/-- `json` has two answers: that of the fresh object until it is rendered or archived, and that of the rendered object from then on -/
theorem C91_json (h : render cls false ⟨c, none⟩ = (st1, .ok t)) (hv : validate cls st1.config = .ok ()) (past : List Call) :
    (ask cls .json (afterCalls cls past ⟨c, none⟩)).2 =
      (if past.any (fun q => q ≠ .json && q ≠ .validate) then (ask cls .json st1).2 else (ask cls .json ⟨c, none⟩).2) := by
  have stay : ∀ past : List Call, afterCalls cls past st1 = st1 := by
    intro past
    induction past with
    | nil => rfl
    | cons q qs ih =>
      unfold afterCalls at ih ⊢
      rw [List.foldl_cons, (ask_reaches h hv q).2.1]
      exact ih
  induction past with
  | nil => rfl
  | cons q qs ih =>
    unfold afterCalls at ih stay ⊢
    rw [List.foldl_cons, List.any_cons]
    cases q with
    | validate => exact ih
    | json => exact ih
    | render files =>
      rw [show (ask cls (.render files) ⟨c, none⟩).1 = st1 from (render_reaches h hv files).1, stay]
      rfl
    | generate =>
      rw [show (ask cls .generate ⟨c, none⟩).1 = st1 from (generate_reaches h hv).1, stay]
      rfl

/-- an object whose configuration is not valid answers every call of every history with that exception, and keeps its configuration -/
theorem C91_invalid {e : PyErr} (h : validate cls c = .error e) (past : List Call) (q : Call) :
    afterCalls cls past ⟨c, none⟩ = ⟨c, none⟩ ∧ (ask cls q (afterCalls cls past ⟨c, none⟩)).2 = .error e := by
  have hr : ∀ files, render cls files ⟨c, none⟩ = (⟨c, none⟩, .error e) := by
    intro files; unfold render; rw [h]
  have hs : ∀ q, ask cls q ⟨c, none⟩ = (⟨c, none⟩, .error e) := by
    intro q
    cases q with
    | validate => simp only [ask, h]; rfl
    | json => simp only [ask, jsonDoc, h]; rfl
    | render files => simp only [ask, hr]; rfl
    | generate => simp only [ask, generate, hr]; rfl
  have ha : afterCalls cls past ⟨c, none⟩ = ⟨c, none⟩ := by
    induction past with
    | nil => rfl
    | cons q qs ih =>
      unfold afterCalls at ih ⊢
      rw [List.foldl_cons, hs q]
      exact ih
  exact ⟨ha, by rw [ha, hs q]⟩

end

end NJ
