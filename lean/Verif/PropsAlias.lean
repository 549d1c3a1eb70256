import Verif.Alias
import Verif.VarsLemmas
import Mathlib.Data.List.Forall2

/-!
# Property C11: the constructor never shares dicts or lists with the caller
-/

set_option linter.unusedSimpArgs false
set_option linter.unusedVariables false

namespace NJ

/-! ## Erasing the owners gives the plain model -/

theorem eraseOD_eq (d : ODict) : eraseOD d = Dict.map' eraseO d := by
  induction d with
  | nil => rfl
  | cons p d ih => obtain ⟨k, v⟩ := p; simp only [eraseOD, ih]; rfl
theorem eraseOL_eq (d : List OVal) : eraseOL d = d.map eraseO := by
  induction d with
  | nil => rfl
  | cons p d ih => simp only [eraseOL, ih]; rfl
theorem copyOD_eq (d : ODict) : copyOD d = Dict.map' copyO d := by
  induction d with
  | nil => rfl
  | cons p d ih => obtain ⟨k, v⟩ := p; simp only [copyOD, ih]; rfl

mutual
theorem eraseO_copyO : ∀ v, eraseO (copyO v) = eraseO v
  | .none => rfl
  | .bool _ => rfl
  | .int _ => rfl
  | .str _ => rfl
  | .list _ l => by simp only [copyO, eraseO, eraseOL_copyOL l]
  | .dict _ l => by simp only [copyO, eraseO, eraseOD_copyOD l]
theorem eraseOL_copyOL : ∀ v, eraseOL (copyOL v) = eraseOL v
  | [] => rfl
  | v :: r => by simp only [copyOL, eraseOL, eraseO_copyO v, eraseOL_copyOL r]
theorem eraseOD_copyOD : ∀ v, eraseOD (copyOD v) = eraseOD v
  | [] => rfl
  | (k, v) :: r => by simp only [copyOD, eraseOD, eraseO_copyO v, eraseOD_copyOD r]
end

namespace Dict
variable {κ α β γ : Type} [DecidableEq κ]
theorem map'_get? (f : α → β) (d : Dict κ α) (k : κ) : get? (map' f d) k = (get? d k).map f := by
  induction d with
  | nil => rfl
  | cons p d ih =>
    obtain ⟨k', v⟩ := p
    simp only [map', List.map_cons] at ih ⊢
    rw [get?_cons, get?_cons, ih]
    split <;> rfl
theorem map'_set (f : α → β) (d : Dict κ α) (k : κ) (v : α) : map' f (set d k v) = set (map' f d) k (f v) := by
  induction d with
  | nil => rfl
  | cons p d ih =>
    obtain ⟨k', w⟩ := p
    simp only [set, map', List.map_cons] at ih ⊢
    split
    · simp
    · simp [ih]
theorem map'_values (f : α → β) (d : Dict κ α) : values (map' f d) = (values d).map f := by
  simp [values, map']
theorem map'_map' (g : β → γ) (f : α → β) (d : Dict κ α) : map' g (map' f d) = map' (g ∘ f) d := by
  simp [map', List.map_map]
end Dict

theorem except_map_bind {α β γ} (f : β → γ) (x : Except PyErr α) (g : α → Except PyErr β) :
    (x >>= g).map f = x >>= fun a => (g a).map f := by cases x <;> rfl

theorem except_bind_map {α β γ} (f : α → β) (x : Except PyErr α) (g : β → Except PyErr γ) :
    (x.map f) >>= g = x >>= fun a => g (f a) := by cases x <;> rfl

theorem container1O_erase {sh ids} (l : List OVal) (i : Nat) (acc : Dict LKey OVal) :
    (container1O sh ids i acc l).map (Dict.map' eraseO) = container1 sh ids i (Dict.map' eraseO acc) (eraseOL l) := by
  induction l generalizing i acc with
  | nil => rfl
  | cons el l ih =>
    simp only [container1O, container1, eraseOL, except_map_bind]
    congr 1; funext k
    rw [ih, Dict.map'_set, eraseO_copyO]

/-- an element of the second list with owners and its counterpart -/
def MRel (a : MergeableO) (b : Mergeable) : Prop :=
  eraseO a.1 = b.1 ∧ ∀ e, (a.2 e).map eraseO = b.2 (e.map eraseO)

/-- same keys, related values -/
def MRelD : Dict LKey MergeableO → Dict LKey Mergeable → Prop :=
  List.Forall₂ (fun a b => a.1 = b.1 ∧ MRel a.2 b.2)

theorem MRelD_set {a b} (h : MRelD a b) {x y} (hx : MRel x y) (k : LKey) : MRelD (Dict.set a k x) (Dict.set b k y) := by
  induction h with
  | nil => exact .cons ⟨rfl, hx⟩ .nil
  | @cons p q ps qs hpq h ih =>
    obtain ⟨k1, x1⟩ := p; obtain ⟨k2, y1⟩ := q
    obtain ⟨e, hr⟩ := hpq
    simp only at e; subst e
    simp only [Dict.set]
    split
    · exact .cons ⟨rfl, hx⟩ h
    · exact .cons ⟨rfl, hr⟩ ih

theorem container2O_erase {sh ids} {l : List MergeableO} {m : List Mergeable} (h : List.Forall₂ MRel l m)
    (c1 : List OVal) (i : Nat) {acc acc'} (ha : MRelD acc acc') :
    (∃ e, container2O sh ids c1 i acc l = .error e ∧ container2 sh ids (c1.map eraseO) i acc' m = .error e) ∨
    (∃ a b, container2O sh ids c1 i acc l = .ok a ∧ container2 sh ids (c1.map eraseO) i acc' m = .ok b ∧ MRelD a b) := by
  induction h generalizing i acc acc' with
  | nil => exact .inr ⟨_, _, rfl, rfl, ha⟩
  | @cons x y xs ys hxy h ih =>
    simp only [container2O, container2]
    have e : (c1.map eraseO).any (fun z => Val.pyEq y.1 z) = c1.any (fun z => Val.pyEq (eraseO x.1) (eraseO z)) := by
      rw [List.any_map, hxy.1]; rfl
    rw [e, hxy.1]
    split
    · exact ih _ ha
    · cases hk : elemKey sh ids 2 i y.1 with
      | error er => exact .inl ⟨er, rfl, rfl⟩
      | ok k => exact ih _ (MRelD_set ha hxy k)

theorem mergeContainersO_erase {c : Dict LKey MergeableO} {d : Dict LKey Mergeable} (h : MRelD c d) (acc : Dict LKey OVal) :
    (mergeContainersO acc c).map (Dict.map' eraseO) = mergeContainers (Dict.map' eraseO acc) d := by
  induction h generalizing acc with
  | nil => rfl
  | @cons x y xs ys hxy h ih =>
    obtain ⟨k1, x1⟩ := x; obtain ⟨k2, y1⟩ := y
    obtain ⟨e, hr⟩ := hxy
    simp only at e; subst e
    simp only [mergeContainersO, mergeContainers, except_map_bind]
    rw [Dict.map'_get?, ← hr.2, except_bind_map]
    congr 1; funext v
    rw [ih, Dict.map'_set]

theorem mergeListWithO_erase {sh ids} (l1 : List OVal) {l : List MergeableO} {m : List Mergeable} (h : List.Forall₂ MRel l m) :
    (mergeListWithO sh ids l1 l).map eraseOL = mergeListWith sh ids (eraseOL l1) m := by
  simp only [mergeListWithO, mergeListWith, except_map_bind]
  have h1 := container1O_erase (sh := sh) (ids := ids) l1 0 []
  have e0 : Dict.map' eraseO ([] : Dict LKey OVal) = [] := rfl
  rw [e0] at h1
  rw [← h1, except_bind_map]
  congr 1; funext c1
  rw [Dict.map'_values]
  rcases container2O_erase (sh := sh) (ids := ids) h (Dict.values c1) 0 (acc := []) (acc' := []) List.Forall₂.nil with
    ⟨e, ha, hb⟩ | ⟨a, b, ha, hb, hab⟩
  · rw [ha, hb]; rfl
  · rw [ha, hb]
    show (mergeContainersO (Dict.map' copyO c1) a >>= _) = (mergeContainers (Dict.map' eraseO c1) b >>= _)
    have := mergeContainersO_erase hab (Dict.map' copyO c1)
    have e2 : Dict.map' eraseO (Dict.map' copyO c1) = Dict.map' eraseO c1 := by
      rw [Dict.map'_map']
      congr 1; funext v; exact eraseO_copyO v
    rw [e2] at this
    rw [← this, except_bind_map]
    congr 1; funext m
    simp only [pure, Except.pure, Except.map, eraseOL_eq, Dict.map'_values]

mutual
theorem mergeValO_erase {sh cp} (ids : List String) : ∀ (v : OVal) (e : Option OVal),
    (mergeValO sh cp ids v e).map eraseO = mergeVal sh ids (eraseO v) (e.map eraseO)
  | .dict o kvs, some (.dict o' t) => by
    have := mergeKvsO_erase (sh := sh) (cp := cp) ids kvs (copyOD t)
    simp only [mergeValO, mergeVal, Option.map_some, eraseO, except_map_bind, eraseOD_copyOD] at this ⊢
    rw [← this, except_bind_map]; rfl
  | .list o l, some (.list o' t) => by
    have := mergeListWithO_erase (sh := sh) (ids := ids) t (closuresO_erase (sh := sh) l)
    simp only [mergeValO, mergeVal, Option.map_some, eraseO, except_map_bind] at this ⊢
    rw [← this, except_bind_map]; rfl
  | .dict _ _, some (.list _ _) => rfl
  | .list _ _, some (.dict _ _) => rfl
  | .dict o d, none => by cases cp <;> simp [mergeValO, mergeVal, Except.map, eraseO, eraseO_copyO]
  | .dict o d, some .none => by cases cp <;> simp [mergeValO, mergeVal, Except.map, eraseO, eraseO_copyO]
  | .dict o d, some (.bool _) => by cases cp <;> simp [mergeValO, mergeVal, Except.map, eraseO, eraseO_copyO]
  | .dict o d, some (.int _) => by cases cp <;> simp [mergeValO, mergeVal, Except.map, eraseO, eraseO_copyO]
  | .dict o d, some (.str _) => by cases cp <;> simp [mergeValO, mergeVal, Except.map, eraseO, eraseO_copyO]
  | .list o d, none => by cases cp <;> simp [mergeValO, mergeVal, Except.map, eraseO, eraseO_copyO]
  | .list o d, some .none => by cases cp <;> simp [mergeValO, mergeVal, Except.map, eraseO, eraseO_copyO]
  | .list o d, some (.bool _) => by cases cp <;> simp [mergeValO, mergeVal, Except.map, eraseO, eraseO_copyO]
  | .list o d, some (.int _) => by cases cp <;> simp [mergeValO, mergeVal, Except.map, eraseO, eraseO_copyO]
  | .list o d, some (.str _) => by cases cp <;> simp [mergeValO, mergeVal, Except.map, eraseO, eraseO_copyO]
  | .none, e => by cases cp <;> simp [mergeValO, mergeVal, Except.map, eraseO, copyO]
  | .bool _, e => by cases cp <;> simp [mergeValO, mergeVal, Except.map, eraseO, copyO]
  | .int _, e => by cases cp <;> simp [mergeValO, mergeVal, Except.map, eraseO, copyO]
  | .str _, e => by cases cp <;> simp [mergeValO, mergeVal, Except.map, eraseO, copyO]
theorem mergeKvsO_erase {sh cp} (ids : List String) : ∀ (c : ODict) (acc : ODict),
    (mergeKvsO sh cp ids c acc).map eraseOD = mergeKvs sh ids (eraseOD c) (eraseOD acc)
  | [], acc => rfl
  | (k, v) :: r, acc => by
    have h1 := mergeValO_erase (sh := sh) (cp := cp) ids v (Dict.get? acc k)
    simp only [mergeKvsO, mergeKvs, eraseOD, except_map_bind]
    rw [eraseOD_eq acc, Dict.map'_get?, ← h1, except_bind_map]
    congr 1; funext x
    rw [mergeKvsO_erase ids r, eraseOD_eq (Dict.set acc k x), Dict.map'_set]
theorem closuresO_erase {sh} : ∀ (l : List OVal), List.Forall₂ MRel (closuresO sh l) (closures sh (eraseOL l))
  | [] => .nil
  | v :: r => .cons ⟨rfl, fun e => mergeValO_erase [] v e⟩ (closuresO_erase r)
end

theorem eraseOD_mergeAllO {sh ids} (ts : List ODict) (c : ODict) :
    (mergeAllO sh ids ts c).map eraseOD = mergeAll sh ids (ts.map eraseOD) (eraseOD c) := by
  have hf : ∀ (l : List ODict) (acc : ODict),
      (l.foldlM (fun acc c => mergeConfigO sh ids acc c) acc).map eraseOD =
        (l.map eraseOD).foldlM (fun acc c => mergeConfig sh ids acc c) (eraseOD acc) := by
    intro l
    induction l with
    | nil => intro acc; rfl
    | cons x xs ih =>
      intro acc
      have h1 := mergeKvsO_erase (sh := sh) (cp := false) ids x (copyOD acc)
      rw [eraseOD_copyOD] at h1
      simp only [List.map_cons, List.foldlM_cons, except_map_bind, mergeConfigO, mergeConfig]
      rw [← h1, except_bind_map]
      congr 1; funext y
      exact ih y
  cases ts with
  | nil => rfl
  | cons t ts =>
    simp only [mergeAllO, mergeAll, List.map_cons]
    rw [hf, List.map_append]; rfl

mutual
theorem evalO_erase {reprC ctx} : ∀ v : OVal, (evalO reprC ctx v).map eraseO = evalVars reprC ctx (eraseO v)
  | .none => rfl
  | .bool _ => rfl
  | .int _ => rfl
  | .str s => by simp only [evalO, eraseO, evalVars, except_map_bind]; rfl
  | .list o l => by
    simp only [evalO, eraseO, evalVars, except_map_bind, ← evalOL_erase l, except_bind_map]; rfl
  | .dict o l => by
    simp only [evalO, eraseO, evalVars, except_map_bind, ← evalOD_erase l, except_bind_map]; rfl
theorem evalOL_erase {reprC ctx} : ∀ v : List OVal, (evalOL reprC ctx v).map eraseOL = evalVarsL reprC ctx (eraseOL v)
  | [] => rfl
  | v :: r => by
    simp only [evalOL, eraseOL, evalVarsL, except_map_bind, ← evalOL_erase r, ← evalO_erase v, except_bind_map]; rfl
theorem evalOD_erase {reprC ctx} : ∀ v : ODict, (evalOD reprC ctx v).map eraseOD = evalVarsD reprC ctx (eraseOD v)
  | [] => rfl
  | (k, v) :: r => by
    simp only [evalOD, eraseOD, evalVarsD, except_map_bind, ← evalOD_erase r, ← evalO_erase v, except_bind_map]; rfl
end

/-! ## Fresh values -/

/-- nothing of the value belongs to the caller -/
def Fresh (v : OVal) : Prop := ∀ o ∈ ownersO v, o = none
def FreshL (l : List OVal) : Prop := ∀ v ∈ l, Fresh v
def FreshD {κ} (l : Dict κ OVal) : Prop := ∀ p ∈ l, Fresh p.2

theorem fresh_list (o l) : Fresh (.list o l) ↔ o = none ∧ FreshL l := by
  simp only [Fresh, ownersO, List.mem_cons, forall_eq_or_imp]
  refine and_congr Iff.rfl ?_
  induction l with
  | nil => simp [ownersOL, FreshL]
  | cons v r ih =>
    simp only [ownersOL, List.mem_append, FreshL, List.mem_cons, forall_eq_or_imp] at ih ⊢
    rw [← ih]
    constructor
    · exact fun h => ⟨fun o ho => h o (.inl ho), fun o ho => h o (.inr ho)⟩
    · rintro ⟨h1, h2⟩ o (ho | ho)
      · exact h1 o ho
      · exact h2 o ho
theorem fresh_dict (o) (l : ODict) : Fresh (.dict o l) ↔ o = none ∧ FreshD l := by
  simp only [Fresh, ownersO, List.mem_cons, forall_eq_or_imp]
  refine and_congr Iff.rfl ?_
  induction l with
  | nil => simp [ownersOD, FreshD]
  | cons v r ih =>
    obtain ⟨k, v⟩ := v
    simp only [ownersOD, List.mem_append, FreshD, List.mem_cons, forall_eq_or_imp] at ih ⊢
    rw [← ih]
    constructor
    · exact fun h => ⟨fun o ho => h o (.inl ho), fun o ho => h o (.inr ho)⟩
    · rintro ⟨h1, h2⟩ o (ho | ho)
      · exact h1 o ho
      · exact h2 o ho

mutual
theorem copyO_fresh : ∀ v, Fresh (copyO v)
  | .none => by simp [Fresh, copyO, ownersO]
  | .bool _ => by simp [Fresh, copyO, ownersO]
  | .int _ => by simp [Fresh, copyO, ownersO]
  | .str _ => by simp [Fresh, copyO, ownersO]
  | .list _ l => by rw [copyO, fresh_list]; exact ⟨rfl, copyOL_fresh l⟩
  | .dict _ l => by rw [copyO, fresh_dict]; exact ⟨rfl, copyOD_fresh l⟩
theorem copyOL_fresh : ∀ v, FreshL (copyOL v)
  | [] => by simp [FreshL, copyOL]
  | v :: r => by
    intro x hx
    simp only [copyOL, List.mem_cons] at hx
    rcases hx with rfl | hx
    · exact copyO_fresh v
    · exact copyOL_fresh r x hx
theorem copyOD_fresh : ∀ v, FreshD (copyOD v)
  | [] => by simp [FreshD, copyOD]
  | (k, v) :: r => by
    intro x hx
    simp only [copyOD, List.mem_cons] at hx
    rcases hx with rfl | hx
    · exact copyO_fresh v
    · exact copyOD_fresh r x hx
end

theorem FreshD_set {κ} [DecidableEq κ] {d : Dict κ OVal} (h : FreshD d) {v} (hv : Fresh v) (k : κ) : FreshD (Dict.set d k v) := by
  induction d with
  | nil => intro p hp; simp [Dict.set] at hp; subst hp; exact hv
  | cons q d ih =>
    obtain ⟨k', w⟩ := q
    simp only [Dict.set]
    split
    · intro p hp
      rcases List.mem_cons.1 hp with rfl | hp
      · exact hv
      · exact h p (by simp [hp])
    · intro p hp
      rcases List.mem_cons.1 hp with rfl | hp
      · exact h _ (by simp)
      · exact ih (fun p hp => h p (by simp [hp])) p hp

theorem FreshD_get? {κ} [DecidableEq κ] {d : Dict κ OVal} (h : FreshD d) {k v} (hk : Dict.get? d k = some v) : Fresh v :=
  h _ (Dict.mem_of_get? hk)

theorem FreshD_map_copy {κ} (d : Dict κ OVal) : FreshD (Dict.map' copyO d) := by
  intro p hp
  simp only [Dict.map', List.mem_map] at hp
  obtain ⟨q, _, rfl⟩ := hp
  exact copyO_fresh _

def FreshOut (m : MergeableO) : Prop := ∀ e v, (∀ w, e = some w → Fresh w) → m.2 e = .ok v → Fresh v

theorem container2O_freshOut {sh ids} (l : List MergeableO) (hl : ∀ m ∈ l, FreshOut m) (c1 : List OVal) (i : Nat)
    (acc r : Dict LKey MergeableO) (ha : ∀ m ∈ acc, FreshOut m.2) (h : container2O sh ids c1 i acc l = .ok r) :
    ∀ m ∈ r, FreshOut m.2 := by
  induction l generalizing i acc with
  | nil => cases h; exact ha
  | cons x xs ih =>
    simp only [container2O] at h
    split at h
    · exact ih (fun m hm => hl m (by simp [hm])) _ _ ha h
    · obtain ⟨k, hk, h'⟩ := bind_ok_iff.1 h
      refine ih (fun m hm => hl m (by simp [hm])) _ _ ?_ h'
      clear h h' ih hk
      induction acc with
      | nil => intro m hm; simp [Dict.set] at hm; subst hm; exact hl x (by simp)
      | cons p ps ihp =>
        obtain ⟨k', w⟩ := p
        simp only [Dict.set]
        split
        · intro m hm
          rcases List.mem_cons.1 hm with rfl | hm
          · exact hl x (by simp)
          · exact ha m (by simp [hm])
        · intro m hm
          rcases List.mem_cons.1 hm with rfl | hm
          · exact ha _ (by simp)
          · exact ihp (fun m hm => ha m (by simp [hm])) m hm

theorem mergeContainersO_fresh (c : Dict LKey MergeableO) (hc : ∀ m ∈ c, FreshOut m.2) (acc r : Dict LKey OVal)
    (ha : FreshD acc) (h : mergeContainersO acc c = .ok r) : FreshD r := by
  induction c generalizing acc with
  | nil => cases h; exact ha
  | cons x xs ih =>
    obtain ⟨k, m⟩ := x
    simp only [mergeContainersO] at h
    obtain ⟨v, hv, h⟩ := bind_ok_iff.1 h
    refine ih (fun m hm => hc m (by simp [hm])) _ (FreshD_set ha ?_ k) h
    exact hc (k, m) (by simp) _ _ (fun w hw => FreshD_get? ha hw) hv

theorem mergeListWithO_fresh {sh ids} {l1 : List OVal} {l : List MergeableO} (hl : ∀ m ∈ l, FreshOut m) {r}
    (h : mergeListWithO sh ids l1 l = .ok r) : FreshL r := by
  simp only [mergeListWithO] at h
  obtain ⟨c1, h1, h⟩ := bind_ok_iff.1 h
  obtain ⟨c2, h2, h⟩ := bind_ok_iff.1 h
  obtain ⟨m, h3, h⟩ := bind_ok_iff.1 h
  cases h
  have := mergeContainersO_fresh c2 (container2O_freshOut l hl _ _ _ _ (by simp) h2) _ _ (FreshD_map_copy c1) h3
  intro v hv
  simp only [Dict.values, List.mem_map] at hv
  obtain ⟨p, hp, rfl⟩ := hv
  exact this p hp

mutual
theorem mergeValO_fresh {sh} (cp : Bool) (ids : List String) : ∀ (v : OVal) (e : Option OVal) (r : OVal),
    (cp = true ∨ Fresh v) → mergeValO sh cp ids v e = .ok r → Fresh r
  | .dict o kvs, some (.dict o' t), r, hv, h => by
    simp only [mergeValO] at h
    obtain ⟨d, hd, h⟩ := bind_ok_iff.1 h
    cases h
    rw [fresh_dict]
    exact ⟨rfl, mergeKvsO_fresh cp ids kvs _ _ (hv.imp_right (fun h => ((fresh_dict _ _).1 h).2)) (copyOD_fresh t) hd⟩
  | .list o l, some (.list o' t), r, hv, h => by
    simp only [mergeValO] at h
    obtain ⟨d, hd, h⟩ := bind_ok_iff.1 h
    cases h
    rw [fresh_list]
    exact ⟨rfl, mergeListWithO_fresh (closuresO_fresh l) hd⟩
  | .dict _ _, some (.list _ _), r, hv, h => by simp [mergeValO] at h
  | .list _ _, some (.dict _ _), r, hv, h => by simp [mergeValO] at h
  | .dict o d, none, r, hv, h => leaf h hv
  | .dict o d, some .none, r, hv, h => leaf h hv
  | .dict o d, some (.bool _), r, hv, h => leaf h hv
  | .dict o d, some (.int _), r, hv, h => leaf h hv
  | .dict o d, some (.str _), r, hv, h => leaf h hv
  | .list o d, none, r, hv, h => leaf h hv
  | .list o d, some .none, r, hv, h => leaf h hv
  | .list o d, some (.bool _), r, hv, h => leaf h hv
  | .list o d, some (.int _), r, hv, h => leaf h hv
  | .list o d, some (.str _), r, hv, h => leaf h hv
  | .none, e, r, hv, h => by simp [mergeValO] at h; subst h; split <;> simp [Fresh, ownersO, copyO]
  | .bool _, e, r, hv, h => by simp [mergeValO] at h; subst h; split <;> simp [Fresh, ownersO, copyO]
  | .int _, e, r, hv, h => by simp [mergeValO] at h; subst h; split <;> simp [Fresh, ownersO, copyO]
  | .str _, e, r, hv, h => by simp [mergeValO] at h; subst h; split <;> simp [Fresh, ownersO, copyO]
where
  leaf {cp : Bool} {v r : OVal} (h : Except.ok (ε := PyErr) (if cp then copyO v else v) = .ok r) (hv : cp = true ∨ Fresh v) : Fresh r := by
    cases h
    split
    · exact copyO_fresh v
    · next hc => exact hv.resolve_left hc
theorem mergeKvsO_fresh {sh} (cp : Bool) (ids : List String) : ∀ (c : ODict) (acc r : ODict),
    (cp = true ∨ FreshD c) → FreshD acc → mergeKvsO sh cp ids c acc = .ok r → FreshD r
  | [], acc, r, hc, ha, h => by cases h; exact ha
  | (k, v) :: c, acc, r, hc, ha, h => by
    simp only [mergeKvsO] at h
    obtain ⟨x, hx, h⟩ := bind_ok_iff.1 h
    have hf := mergeValO_fresh cp ids v _ x (hc.imp_right (fun h => h (k, v) (by simp))) hx
    exact mergeKvsO_fresh cp ids c _ r (hc.imp_right (fun h p hp => h p (by simp [hp]))) (FreshD_set ha hf k) h
theorem closuresO_fresh {sh} : ∀ (l : List OVal), ∀ m ∈ closuresO sh l, FreshOut m
  | [] => by simp [closuresO]
  | v :: r => by
    intro m hm
    simp only [closuresO, List.mem_cons] at hm
    rcases hm with rfl | hm
    · intro e w _ h; exact mergeValO_fresh true [] v e w (.inl rfl) h
    · exact closuresO_fresh r m hm
end

mutual
theorem evalO_owners {reprC ctx} : ∀ (v r : OVal), evalO reprC ctx v = .ok r → ownersO r = ownersO v
  | .none, r, h => by cases h; rfl
  | .bool _, r, h => by cases h; rfl
  | .int _, r, h => by cases h; rfl
  | .str s, r, h => by
    simp only [evalO] at h
    obtain ⟨_, _, h⟩ := bind_ok_iff.1 h
    cases h; rfl
  | .list o l, r, h => by
    simp only [evalO] at h
    obtain ⟨x, hx, h⟩ := bind_ok_iff.1 h
    cases h
    simp only [ownersO, evalOL_owners l x hx]
  | .dict o l, r, h => by
    simp only [evalO] at h
    obtain ⟨x, hx, h⟩ := bind_ok_iff.1 h
    cases h
    simp only [ownersO, evalOD_owners l x hx]
theorem evalOL_owners {reprC ctx} : ∀ (v r : List OVal), evalOL reprC ctx v = .ok r → ownersOL r = ownersOL v
  | [], r, h => by cases h; rfl
  | v :: l, r, h => by
    simp only [evalOL] at h
    obtain ⟨x, hx, h⟩ := bind_ok_iff.1 h
    obtain ⟨y, hy, h⟩ := bind_ok_iff.1 h
    cases h
    simp only [ownersOL, evalO_owners v x hx, evalOL_owners l y hy]
theorem evalOD_owners {reprC ctx} : ∀ (v r : ODict), evalOD reprC ctx v = .ok r → ownersOD r = ownersOD v
  | [], r, h => by cases h; rfl
  | (k, v) :: l, r, h => by
    simp only [evalOD] at h
    obtain ⟨x, hx, h⟩ := bind_ok_iff.1 h
    obtain ⟨y, hy, h⟩ := bind_ok_iff.1 h
    cases h
    simp only [ownersOD, evalO_owners v x hx, evalOD_owners l y hy]
end

/-! ## C11 -/

theorem merged_fresh {sh ids ts c m} (h : mergeAllO sh ids ts (copyOD c) = .ok m) : FreshD m := by
  cases ts with
  | nil => cases h; exact copyOD_fresh c
  | cons t ts =>
    simp only [mergeAllO] at h
    rw [List.foldlM_append] at h
    obtain ⟨acc, _, h⟩ := bind_ok_iff.1 h
    simp only [List.foldlM_cons, List.foldlM_nil] at h
    obtain ⟨x, hx, h⟩ := bind_ok_iff.1 h
    cases h
    exact mergeKvsO_fresh false ids _ _ _ (.inr (copyOD_fresh c)) (copyOD_fresh acc) hx

/-- C11: no dict or list reachable from the configuration of the new backend is an object of the caller,
whatever the caller's configuration, templates and context are (the caller's objects may be shared
among them in any way). Hence nothing the backend does in place to its configuration can change them. -/
theorem C11_no_sharing (sh : Val → Bool) (reprC : Val → String) (ids : List String) (config : ODict) (templates : List ODict)
    (ctx : Option VDict) (result : OVal) (h : constructO sh reprC ids config templates ctx = .ok result)
    (i : Nat) : some i ∉ ownersO result := by
  simp only [constructO] at h
  obtain ⟨m, hm, h⟩ := bind_ok_iff.1 h
  obtain ⟨r, hr, h⟩ := bind_ok_iff.1 h
  cases h
  have hf := (fresh_dict none m).2 ⟨rfl, merged_fresh hm⟩
  have ho : ownersO (.dict none r) = ownersO (.dict none m) := by
    simp only [evaluateO] at hr
    split at hr
    · cases hr; rfl
    · cases hr; rfl
    · simp only [ownersO, evalOD_owners _ _ hr]
  rw [ho]
  intro hi
  cases hf _ hi

/-- C11: the in-place evaluation of variables during the construction writes only to objects of the
backend: the configuration it traverses is already separate from the caller's. -/
theorem C11_evaluation_writes_own_objects (sh : Val → Bool) (ids : List String) (config : ODict) (templates : List ODict)
    (merged : ODict) (h : mergeAllO sh ids templates (copyOD config) = .ok merged) (i : Nat) :
    some i ∉ ownersO (.dict none merged) := by
  intro hi
  cases (fresh_dict none merged).2 ⟨rfl, merged_fresh h⟩ _ hi

/-- The model with owners computes the same configurations as the plain model. -/
theorem C11_same_values (sh : Val → Bool) (reprC : Val → String) (ids : List String) (config : ODict) (templates : List ODict)
    (ctx : Option VDict) :
    (constructO sh reprC ids config templates ctx).map eraseO =
      (do let m ← mergeAll sh ids (templates.map eraseOD) (eraseOD config)
          let r ← evaluateConfig reprC ctx m
          pure (Val.dict r)) := by
  have h1 := eraseOD_mergeAllO (sh := sh) (ids := ids) templates (copyOD config)
  rw [eraseOD_copyOD] at h1
  simp only [constructO, except_map_bind]
  rw [← h1, except_bind_map]
  congr 1; funext m
  have h2 : (evaluateO reprC ctx m).map eraseOD = evaluateConfig reprC ctx (eraseOD m) := by
    simp only [evaluateO, evaluateConfig]
    cases ctx with
    | none => rfl
    | some c => cases c with
      | nil => rfl
      | cons p c => exact evalOD_erase m
  rw [← h2, except_bind_map]
  rfl

/-- a case in which the caller's template list and config share an object (number 7) -/
example : constructO (fun _ => false) (fun _ => "") ["name"]
    [("files", .list (some 1) [.dict (some 7) [("path", .str "{{p}}")]])]
    [[("files", .list (some 2) [.dict (some 7) [("path", .str "{{p}}")]]), ("general", .dict (some 3) [("x", .int 1)])]]
    (some [("p", .str "/a")])
    = .ok (.dict none [("files", .list none [.dict none [("path", .str "/a")]]), ("general", .dict none [("x", .int 1)])]) := by rfl

/-- Without the copy of `config` the property would fail: a single merge step does share the values of its second argument. -/
theorem C11_merge_config_shares_config : mergeConfigO (fun _ => false) [] [] [("l", .list (some 1) [])]
    = .ok [("l", .list (some 1) [])] := by rfl

end NJ
