import Verif.SameAttr
import Verif.Interfaces
import Verif.ZeroTier
import Verif.Radio
import Verif.ConvLemmas

/-!
# Dictionaries with the same options in another order

`SameD X d e`: the two dictionaries hold the same options, in any order; the values of some keys (those of `X`) need only be related.
The rules say that the operations of Python used by the converters keep this; the tactic `same` applies them.
-/

namespace NJ

/-- the keys with values that need not be equal, and how these are related -/
structure Spec where
  keys : List String
  rel : String → Val → Val → Prop

/-- only equal values -/
def flat : Spec := ⟨[], fun _ _ _ => False⟩

/-- both missing, or related -/
inductive OptRel (R : Val → Val → Prop) : Option Val → Option Val → Prop
  | none : OptRel R none none
  | some {a b} : R a b → OptRel R (some a) (some b)

/-- the same keys, equal values; related values under the special keys -/
structure SameD (X : Spec) (d e : VDict) : Prop where
  left : (Dict.keys d).Nodup
  right : (Dict.keys e).Nodup
  plain : ∀ k, k ∉ X.keys → Dict.get? d k = Dict.get? e k
  special : ∀ k, k ∈ X.keys → OptRel (X.rel k) (Dict.get? d k) (Dict.get? e k)

/-- both fail in the same way, or both succeed with related results -/
inductive RelE {α β : Type} (R : α → β → Prop) : Except PyErr α → Except PyErr β → Prop
  | ok {a b} : R a b → RelE R (.ok a) (.ok b)
  | error (e) : RelE R (.error e) (.error e)

/-- pairs -/
structure RelP {α β γ δ : Type} (R : α → β → Prop) (S : γ → δ → Prop) (p : α × γ) (q : β × δ) : Prop where
  fst : R p.1 q.1
  snd : S p.2 q.2

section rules
variable {α β γ δ : Type} {R : α → β → Prop} {S : γ → δ → Prop} {X : Spec} {d e : VDict}

theorem relE_pure {a : α} {b : β} (h : R a b) : RelE R (pure a) (pure b) := .ok h
theorem relE_refl (x : Except PyErr α) : RelE Eq x x := by
  cases x with
  | ok a => exact .ok rfl
  | error e => exact .error e
theorem relE_of_eq {x y : Except PyErr α} (h : x = y) : RelE Eq x y := h ▸ relE_refl x
theorem relE_eq {x y : Except PyErr α} (h : RelE Eq x y) : x = y := by
  cases h with
  | ok h => rw [h]
  | error e => rfl

theorem relE_bind {x : Except PyErr α} {y : Except PyErr β} {f : α → Except PyErr γ} {g : β → Except PyErr δ} (h : RelE R x y)
    (hf : ∀ a b, R a b → RelE S (f a) (g b)) : RelE S (x >>= f) (y >>= g) := by
  cases h with
  | ok h => exact hf _ _ h
  | error e => exact .error e

theorem relE_ite {c c' : Prop} [Decidable c] [Decidable c'] {a b : Except PyErr α} {a' b' : Except PyErr β} (h : c ↔ c')
    (h1 : c → RelE R a a') (h2 : ¬ c → RelE R b b') : RelE R (if c then a else b) (if c' then a' else b') := by
  by_cases hc : c
  · rw [if_pos hc, if_pos (h.1 hc)]; exact h1 hc
  · rw [if_neg hc, if_neg (fun q => hc (h.2 q))]; exact h2 hc

theorem relE_mono {T : α → β → Prop} {x : Except PyErr α} {y : Except PyErr β} (h : RelE R x y) (ht : ∀ a b, R a b → T a b) : RelE T x y := by
  cases h with
  | ok h => exact .ok (ht _ _ h)
  | error e => exact .error e

theorem relE_mapM {l : List α} {m : List β} {f : α → Except PyErr γ} {g : β → Except PyErr δ} (h : List.Forall₂ R l m)
    (hf : ∀ a b, R a b → RelE S (f a) (g b)) : RelE (List.Forall₂ S) (l.mapM f) (m.mapM g) := by
  induction h with
  | nil => rw [List.mapM_nil, List.mapM_nil]; exact .ok .nil
  | cons h _ ih =>
    rw [List.mapM_cons, List.mapM_cons]
    exact relE_bind (hf _ _ h) fun a b hab => relE_bind ih fun as bs habs => .ok (.cons hab habs)

theorem relE_foldlM {l : List α} {m : List β} {f : γ → α → Except PyErr γ} {g : δ → β → Except PyErr δ} {a : γ} {b : δ} (h : List.Forall₂ R l m)
    (hab : S a b) (hf : ∀ a b x y, S a b → R x y → RelE S (f a x) (g b y)) : RelE S (l.foldlM f a) (m.foldlM g b) := by
  induction h generalizing a b with
  | nil => rw [List.foldlM_nil, List.foldlM_nil]; exact .ok hab
  | cons h _ ih =>
    rw [List.foldlM_cons, List.foldlM_cons]
    exact relE_bind (hf _ _ _ _ hab h) fun a b hab => ih hab

theorem forall₂_refl {T : α → α → Prop} (h : ∀ a, T a a) (l : List α) : List.Forall₂ T l l := by
  induction l with
  | nil => exact .nil
  | cons a l ih => exact .cons (h a) ih

theorem forall₂_eq {l m : List α} (h : List.Forall₂ Eq l m) : l = m := by
  induction h with
  | nil => rfl
  | cons h _ ih => rw [h, ih]

theorem forall₂_foldl {l : List α} {f : γ → α → γ} {g : δ → α → δ} {a : γ} {b : δ} (hab : S a b) (hf : ∀ a b x, S a b → S (f a x) (g b x)) :
    S (l.foldl f a) (l.foldl g b) := by
  induction l generalizing a b with
  | nil => exact hab
  | cons x l ih => exact ih (hf _ _ _ hab)

/-! ## Dictionaries -/

theorem SameD.get (h : SameD X d e) {k : String} (hk : k ∉ X.keys) : Dict.get? d k = Dict.get? e k := h.plain k hk

theorem SameD.get_flat (h : SameD flat d e) (k : String) : Dict.get? d k = Dict.get? e k := h.get (fun q => nomatch q)

theorem sameD_flat (h1 : (Dict.keys d).Nodup) (h2 : (Dict.keys e).Nodup) (h : ∀ k, Dict.get? d k = Dict.get? e k) : SameD flat d e :=
  ⟨h1, h2, fun k _ => h k, fun _ q => nomatch q⟩

theorem sameD_refl (h : (Dict.keys d).Nodup) : SameD flat d d := sameD_flat h h fun _ => rfl

theorem SameD.has (h : SameD X d e) (k : String) : Dict.has d k = Dict.has e k := by
  have : ∀ d : VDict, Dict.has d k = (Dict.get? d k).isSome := fun d => rfl
  rw [this, this]
  by_cases hk : k ∈ X.keys
  · have := h.special k hk
    revert this
    generalize Dict.get? d k = a
    generalize Dict.get? e k = b
    intro this
    cases this with
    | none => rfl
    | some _ => rfl
  · rw [h.plain k hk]

theorem sameD_set (h : SameD X d e) {k : String} {v w : Val} (hk : k ∉ X.keys) (hv : v = w) : SameD X (Dict.set d k v) (Dict.set e k w) :=
  ⟨Dict.nodup_set h.left _ _, Dict.nodup_set h.right _ _, fun q hq => by
    rw [Dict.get?_set, Dict.get?_set, hv, h.plain q hq], fun q hq => by
    rw [Dict.get?_set, Dict.get?_set, if_neg (fun e : k = q => hk (e ▸ hq)), if_neg (fun e : k = q => hk (e ▸ hq))]
    exact h.special q hq⟩

/-- a value under a special key -/
theorem sameD_set_rel (h : SameD X d e) {k : String} {v w : Val} (hk : k ∈ X.keys) (hv : X.rel k v w) : SameD X (Dict.set d k v) (Dict.set e k w) :=
  ⟨Dict.nodup_set h.left _ _, Dict.nodup_set h.right _ _, fun q hq => by
    rw [Dict.get?_set, Dict.get?_set, if_neg (fun e : k = q => hq (e ▸ hk)), if_neg (fun e : k = q => hq (e ▸ hk))]
    exact h.plain q hq, fun q hq => by
    rw [Dict.get?_set, Dict.get?_set]
    split
    · rename_i hkq
      subst hkq
      exact .some hv
    · exact h.special q hq⟩

/-- fewer special keys, when the values of the others are equal -/
theorem sameD_shrink {Y : Spec} (h : SameD X d e) (hp : ∀ k, k ∈ X.keys → k ∉ Y.keys → Dict.get? d k = Dict.get? e k)
    (hs : ∀ k, k ∈ Y.keys → k ∈ X.keys ∧ ∀ v w, X.rel k v w → Y.rel k v w) : SameD Y d e :=
  ⟨h.left, h.right, fun k hk => if hx : k ∈ X.keys then hp k hx hk else h.plain k hx, fun k hk => by
    have := h.special k (hs k hk).1
    revert this
    generalize Dict.get? d k = a
    generalize Dict.get? e k = b
    intro this
    cases this with
    | none => exact .none
    | some q => exact .some ((hs k hk).2 _ _ q)⟩

theorem sameD_ite {c c' : Prop} [Decidable c] [Decidable c'] {d' e' : VDict} (h : c ↔ c') (h1 : SameD X d e) (h2 : SameD X d' e') :
    SameD X (if c then d else d') (if c' then e else e') := by
  by_cases hc : c
  · rw [if_pos hc, if_pos (h.1 hc)]; exact h1
  · rw [if_neg hc, if_neg (fun q => hc (h.2 q))]; exact h2

theorem sameD_erase (h : SameD X d e) {k : String} : SameD X (Dict.erase d k) (Dict.erase e k) :=
  ⟨Dict.nodup_erase h.left _, Dict.nodup_erase h.right _, fun q hq => by
    rw [Dict.get?_erase', Dict.get?_erase', h.plain q hq], fun q hq => by
    rw [Dict.get?_erase', Dict.get?_erase']
    split
    · exact .none
    · exact h.special q hq⟩

theorem sameD_eraseList (h : SameD X d e) {ks : List String} : SameD X (ks.foldl Dict.erase d) (ks.foldl Dict.erase e) :=
  forall₂_foldl (S := SameD X) h fun _ _ _ h => sameD_erase h

/-- an update with a dictionary written down -/
theorem sameD_update {l m : VDict} (h : SameD X d e) (hl : l = m) (hk : ∀ k ∈ Dict.keys l, k ∉ X.keys) :
    SameD X (Dict.update d l) (Dict.update e m) := by
  subst hl
  induction l generalizing d e with
  | nil => exact h
  | cons p l ih => exact ih (sameD_set h (hk p.1 (List.mem_cons_self ..)) rfl) fun k hq => hk k (List.mem_cons_of_mem _ hq)

theorem sameD_update_flat {l m : VDict} (h : SameD flat d e) (hl : l = m) : SameD flat (Dict.update d l) (Dict.update e m) :=
  sameD_update h hl fun _ _ q => nomatch q

theorem get?_update_nodup (d l : VDict) (hl : (Dict.keys l).Nodup) (k : String) :
    Dict.get? (Dict.update d l) k = match Dict.get? l k with | some v => some v | none => Dict.get? d k := by
  induction l generalizing d with
  | nil => rfl
  | cons p l ih =>
    obtain ⟨q, v⟩ := p
    have h1 : (Dict.keys l).Nodup := (List.nodup_cons.1 hl).2
    have h2 : q ∉ Dict.keys l := (List.nodup_cons.1 hl).1
    show Dict.get? (Dict.update (Dict.set d q v) l) k = _
    rw [ih _ h1, Dict.get?_cons]
    by_cases hq : q = k
    · subst hq
      rw [if_pos rfl, (Dict.get?_eq_none_iff _ _).2 h2]
      exact Dict.get?_set_self _ _ _
    · rw [if_neg hq]
      cases Dict.get? l k with
      | some v => rfl
      | none => exact Dict.get?_set_ne _ _ hq

theorem nodup_foldlSet (d l : VDict) (h : (Dict.keys d).Nodup) : (Dict.keys (Dict.update d l)).Nodup := by
  induction l generalizing d with
  | nil => exact h
  | cons p l ih => exact ih _ (Dict.nodup_set h _ _)

/-- an update with dictionaries in another order -/
theorem sameD_update_same (h : SameD X d e) {l m : VDict} (hl : SameD X l m) : SameD X (Dict.update d l) (Dict.update e m) :=
  ⟨nodup_foldlSet _ _ h.left, nodup_foldlSet _ _ h.right, fun k hk => by
    rw [get?_update_nodup _ _ hl.left, get?_update_nodup _ _ hl.right, hl.plain k hk]
    cases Dict.get? m k with
    | some v => rfl
    | none => exact h.plain k hk, fun k hk => by
    rw [get?_update_nodup _ _ hl.left, get?_update_nodup _ _ hl.right]
    have := hl.special k hk
    revert this
    generalize Dict.get? l k = a
    generalize Dict.get? m k = b
    intro this
    cases this with
    | none => exact h.special k hk
    | some q => exact .some q⟩

theorem sameD_sorted (h : SameD X d e) : SameD X (sortedDict d) (sortedDict e) :=
  ⟨sortedDict_nodup h.left, sortedDict_nodup h.right, fun k hk => by rw [get?_sortedDict h.left, get?_sortedDict h.right]; exact h.plain k hk,
    fun k hk => by rw [get?_sortedDict h.left, get?_sortedDict h.right]; exact h.special k hk⟩

theorem charsLe_antisymm' {a b : Chars} (h1 : charsLe a b = true) (h2 : charsLe b a = true) : a = b := by
  induction a generalizing b with
  | nil =>
    cases b with
    | nil => rfl
    | cons c b => simp [charsLe] at h2
  | cons x a ih =>
    cases b with
    | nil => simp [charsLe] at h1
    | cons y b =>
      by_cases h : x = y
      · subst h
        simp only [charsLe, if_true] at h1 h2
        rw [ih h1 h2]
      · simp only [charsLe, if_neg h, if_neg (Ne.symm h), decide_eq_true_eq] at h1 h2
        omega

theorem nodup_pairs (h : (Dict.keys d).Nodup) : d.Nodup := by
  induction d with
  | nil => exact .nil
  | cons p d ih =>
    have := List.nodup_cons.1 h
    exact List.nodup_cons.2 ⟨fun hp => this.1 (List.mem_map.2 ⟨p, hp, rfl⟩), ih this.2⟩

theorem flat_perm (h : SameD flat d e) : d.Perm e := by
  refine (List.perm_ext_iff_of_nodup (nodup_pairs h.left) (nodup_pairs h.right)).2 fun p => ⟨fun hp => ?_, fun hp => ?_⟩
  · exact Dict.mem_of_get? ((h.get_flat p.1).symm.trans (Dict.get?_of_mem h.left hp))
  · exact Dict.mem_of_get? ((h.get_flat p.1).trans (Dict.get?_of_mem h.right hp))

/-- sorted dictionaries with the same options are equal -/
theorem eq_of_sorted (h : SameD flat d e) (h1 : d.Pairwise fun p q => charsLe p.1.toList q.1.toList = true)
    (h2 : e.Pairwise fun p q => charsLe p.1.toList q.1.toList = true) : d = e := by
  refine List.Perm.eq_of_pairwise ?_ h1 h2 (flat_perm h)
  intro p q hp hq h1 h2
  have hk : p.1 = q.1 := String.toList_inj.1 (charsLe_antisymm' h1 h2)
  have h3 := Dict.get?_of_mem h.right ((flat_perm h).subset hp)
  have h4 := Dict.get?_of_mem h.right hq
  rw [hk, h4] at h3
  exact Prod.ext hk (Option.some.inj h3).symm

theorem sorted_eq (h : SameD flat d e) : sortedDict d = sortedDict e := eq_of_sorted (sameD_sorted h) (C33_sorting_sorts d) (C33_sorting_sorts e)

theorem flat_isEmpty (h : SameD X d e) : d.isEmpty = e.isEmpty := by
  cases d with
  | nil =>
    cases e with
    | nil => rfl
    | cons p e =>
      have q := h.has p.1
      rw [Dict.has_eq, Dict.has_eq, Dict.get?_cons, if_pos rfl] at q; cases q
  | cons p d =>
    cases e with
    | nil =>
      have q := h.has p.1
      rw [Dict.has_eq, Dict.has_eq, Dict.get?_cons, if_pos rfl] at q; cases q
    | cons q e => rfl

theorem relE_getKey (h : SameD X d e) {k : String} (hk : k ∉ X.keys) : RelE Eq (getKey d k) (getKey e k) := by
  unfold getKey
  rw [h.get hk]
  exact relE_refl _

theorem relE_popKey (h : SameD X d e) {k : String} (hk : k ∉ X.keys) : RelE (RelP Eq (SameD X)) (popKey d k) (popKey e k) := by
  unfold popKey
  rw [h.get hk]
  cases Dict.get? e k with
  | none => exact .error _
  | some v => exact .ok ⟨rfl, sameD_erase h⟩

theorem relE_popOrElse (h : SameD X d e) {k : String} (hk : k ∉ X.keys) {f g : VDict → Except PyErr Val} (hf : ∀ d e, SameD X d e → RelE Eq (f d) (g e)) :
    RelE (RelP Eq (SameD X)) (popOrElse d k f) (popOrElse e k g) := by
  unfold popOrElse
  rw [h.get hk]
  have hd : RelE (RelP Eq (SameD X)) (f (Dict.erase d k) >>= fun n => pure (n, Dict.erase d k)) (g (Dict.erase e k) >>= fun n => pure (n, Dict.erase e k)) :=
    relE_bind (hf _ _ (sameD_erase h)) fun a b hab => .ok ⟨hab, sameD_erase h⟩
  cases Dict.get? e k with
  | none => exact hd
  | some v =>
    show RelE _ (if _ then _ else _) (if _ then _ else _)
    exact relE_ite Iff.rfl (fun _ => .ok ⟨rfl, sameD_erase h⟩) fun _ => hd

/-- equal values that are not dictionaries, or dictionaries with the same options -/
inductive Blk (X : Spec) : Val → Val → Prop
  | same (v : Val) : (∀ d, v ≠ .dict d) → Blk X v v
  | dict {d e : VDict} : SameD X d e → Blk X (.dict d) (.dict e)

/-- equal plain values, dictionaries with the same options, or lists of those -/
inductive Sec (X : Spec) : Val → Val → Prop
  | same (v : Val) : (∀ d, v ≠ .dict d) → (∀ l, v ≠ .list l) → Sec X v v
  | dict {d e : VDict} : SameD X d e → Sec X (.dict d) (.dict e)
  | list {l m : List Val} : List.Forall₂ (Blk X) l m → Sec X (.list l) (.list m)

theorem forall₂_isEmpty {l : List α} {m : List β} (h : List.Forall₂ R l m) : l.isEmpty = m.isEmpty := by
  cases h with
  | nil => rfl
  | cons _ _ => rfl

theorem Sec.truthy {v w : Val} (h : Sec X v w) : v.truthy = w.truthy := by
  cases h with
  | same => rfl
  | dict h => simp only [Val.truthy, flat_isEmpty h]
  | list h => simp only [Val.truthy, forall₂_isEmpty h]

theorem Blk.truthy {v w : Val} (h : Blk X v w) : v.truthy = w.truthy := by
  cases h with
  | same => rfl
  | dict h => simp only [Val.truthy, flat_isEmpty h]

theorem Blk.asDict {v w : Val} (h : Blk X v w) : RelE (SameD X) (asDict v) (asDict w) := by
  cases h with
  | dict h => exact .ok h
  | same _ h => cases v <;> first | exact .error _ | exact absurd rfl (h _)

theorem Sec.asDict {v w : Val} (h : Sec X v w) : RelE (SameD X) (asDict v) (asDict w) := by
  cases h with
  | dict h => exact .ok h
  | same _ h => cases v <;> first | exact .error _ | exact absurd rfl (h _)
  | list h => exact .error _

theorem Blk.sec {v w : Val} (h : Blk X v w) (hl : ∀ l, v ≠ .list l) : Sec X v w := by
  cases h with
  | dict h => exact .dict h
  | same _ h => exact .same _ h hl

theorem get?_update_cons (d l : VDict) (p : String × Val) (q : String) :
    Dict.get? (Dict.update d (p :: l)) q = Dict.get? (Dict.update (Dict.set d p.1 p.2) l) q := rfl
theorem get?_update_nil (d : VDict) (q : String) : Dict.get? (Dict.update d []) q = Dict.get? d q := rfl
theorem has_update_cons (d l : VDict) (p : String × Val) (q : String) :
    Dict.has (Dict.update d (p :: l)) q = Dict.has (Dict.update (Dict.set d p.1 p.2) l) q := rfl
theorem has_update_nil (d : VDict) (q : String) : Dict.has (Dict.update d []) q = Dict.has d q := rfl
theorem has_isSome (d : VDict) (q : String) : Dict.has d q = (Dict.get? d q).isSome := rfl
theorem has_set' (d : VDict) (k q : String) (v : Val) : Dict.has (Dict.set d k v) q = if k = q then true else Dict.has d q := by
  rw [has_isSome, Dict.get?_set, has_isSome]; split <;> rfl
theorem has_erase' (d : VDict) (k q : String) : Dict.has (Dict.erase d k) q = if q = k then false else Dict.has d q := by
  rw [has_isSome, Dict.get?_erase', has_isSome]; split <;> rfl

end rules

/-! ## The tactic -/

open Lean Elab Tactic Meta in
/-- lookups in the first dictionary become lookups in the second -/
elab "same_get" : tactic => withMainContext do
  let g ← getMainGoal
  for d in (← getLCtx) do
    unless d.isImplementationDetail do
      if (← instantiateMVars d.type).isAppOf ``SameD then
        unless (← getGoals).isEmpty do
          let h ← Term.exprToSyntax d.toExpr
          evalTactic (← `(tactic| try simp (config := {decide := true}) only [Dict.get?_set, Dict.get?_erase', get?_update_cons, get?_update_nil, has_update_cons, has_update_nil, has_set', has_erase', List.foldl_cons, List.foldl_nil, SameD.get $h, SameD.has $h, flat_isEmpty $h, if_true, if_false, reduceIte]))
  if (← getGoals).contains g then throwError "no change"

/-- a variable on which a match waits -/
partial def matchVar? (e : Lean.Expr) : Lean.MetaM (Option Lean.Expr) := do
  let e := e.consumeMData
  if e.isFVar then return some e
  if let some _ ← Lean.Meta.isConstructorApp? e then
    for a in e.getAppArgs do
      unless (← Lean.Meta.isType a) do
        if let some x ← matchVar? a then
          let t ← Lean.Meta.whnf (← Lean.Meta.inferType x)
          if [``Val, ``Option, ``List, ``Prod, ``Bool].any (fun n => t.isAppOf n) then return some x
    return none
  return none

open Lean Meta in
/-- the first term on which a match waits -/
partial def waiting? (e : Expr) : MetaM (Option Expr) := do
  if let some m ← matchMatcherApp? e then
    for x in m.discrs do
      if let some y ← waiting? x then return some y
    for x in m.discrs do
      unless x.hasLooseBVars do
        if (← isConstructorApp? x).isNone || (← matchVar? x).isSome then return some x
    return none
  else
    match e with
    | .app f a => do
      if let some y ← waiting? f then return some y
      waiting? a
    | .mdata _ b => waiting? b
    | _ => return none

open Lean Elab Tactic Meta in
/-- a case distinction on what the first match waits for -/
elab "same_cases" : tactic => withMainContext do
  let t ← instantiateMVars (← getMainTarget)
  match ← waiting? t with
  | none => throwError "no match"
  | some x =>
    match ← matchVar? x with
    | some v =>
      let s ← Term.exprToSyntax v
      evalTactic (← `(tactic| cases $s:term))
    | none =>
      let s ← Term.exprToSyntax x
      evalTactic (← `(tactic| (generalize $s = o; cases o)))

open Lean Elab Tactic Meta in
/-- one of the labelled rules -/
elab "same_label" : tactic => do
  let rules ← labelled `same_rule
  let g ← getMainGoal
  for r in rules do
    let s ← saveState
    let attempt : TacticM Unit := do
      let gs ← g.withContext (withReducible (do g.apply (← mkConstWithFreshMVarLevels r)))
      replaceMainGoal gs
    let done ← tryCatch (do attempt; pure true) (fun _ => do s.restore; pure false)
    if done then return
  throwError "no rule"

open Lean Elab Tactic Meta in
/-- the goal is a statement for all … -/
elab "fail_if_no_forall" : tactic => withMainContext do
  unless (← instantiateMVars (← getMainTarget)).isForall do throwError "no"

open Lean Elab Tactic Meta in
/-- the goal is `_ ∉ _` -/
elab "fail_if_no_mem" : tactic => withMainContext do
  let t ← instantiateMVars (← getMainTarget)
  unless t.isAppOf ``Not && (t.getArg! 0).isAppOf ``Membership.mem do throwError "no"

/-- takes apart what a step gave -/
macro "same_intro" : tactic => `(tactic| (fail_if_no_forall; intros; (try casesm* RelP _ _ _ _, _ × _); (try dsimp only at *); (try subst_vars)))

syntax "same_rule" : tactic
macro_rules
  | `(tactic| same_rule) => `(tactic| with_reducible first
    | exact relE_refl _
    | (apply relE_getKey) | (apply relE_popKey) | (apply relE_popOrElse)
    | (apply Blk.asDict; assumption) | (apply Sec.asDict; assumption)
    | same_label)

open Lean Elab Tactic Meta in
/-- one step of a `do` block -/
elab "same_bind" : tactic => do
  let g ← getMainGoal
  let gs ← g.withContext (withReducible (do g.apply (← mkConstWithFreshMVarLevels ``relE_bind)))
  let mut first := none
  let mut second := none
  for x in gs do
    let t ← x.withContext (do instantiateMVars (← x.getType))
    if t.isAppOf ``RelE then first := some x
    else if ← x.withContext (isProp t) then second := some x
  match first, second with
  | some a, some b =>
    let rest := (← getGoals).drop 1
    setGoals [a]
    evalTactic (← `(tactic| same_rule))
    setGoals ((← getGoals) ++ b :: rest)
  | _, _ => throwError "no"

syntax "same_step" : tactic
macro_rules
  | `(tactic| same_step) => `(tactic| with_reducible first
    | assumption
    | exact RelE.error _ | exact Iff.rfl | rfl
    | (fail_if_no_mem; decide) | (fail_if_no_forall; simp only [Dict.keys, List.map_cons, List.map_nil]; decide)
    | same_intro
    | same_rule
    | (apply sameD_set) | (apply sameD_erase) | (apply sameD_eraseList) | (apply sameD_update_flat) | (apply sameD_update) | (apply sameD_ite)
    | (apply sorted_eq) | (apply SameD.has) | (apply SameD.get) | (apply flat_isEmpty)
    | (refine RelP.mk ?_ ?_ <;> dsimp only)
    | (refine relE_pure ?_) | (refine RelE.ok ?_)
    | (apply relE_ite)
    | same_bind)

/-- equal parts -/
macro "same_congr" : tactic => `(tactic| first | (refine iff_of_eq ?_) | congr 1)

macro "same" : tactic => `(tactic| repeat' (first | same_step | same_get | (same_cases <;> (try dsimp only)) | same_congr))

end NJ
