import Verif.PropsMerge
import Verif.PropsVars

/-!
# Merging and a replacement of the texts of both sides

Helper module for C97: `merge_config` commutes with any replacement of the text values that keeps different texts inside of lists different.
-/

namespace NJ

/-- all texts of a value -/
def AllT (S : Chars → Prop) (v : Val) : Prop := ∀ s ∈ strings v, S s

/-- the texts of a value that are inside of a list -/
def listTexts : Val → List Chars
  | .list l => stringsL l
  | .dict d => listTextsD d
  | _ => []
  termination_by structural v => v
where
  listTextsD : List (String × Val) → List Chars
  | [] => []
  | (_, v) :: r => listTexts v ++ listTextsD r
  termination_by structural v => v

def ListT (S : Chars → Prop) (v : Val) : Prop := ∀ s ∈ listTexts v, S s

section
variable {S : Chars → Prop}

theorem allT_list {l : List Val} : AllT S (.list l) ↔ ∀ v ∈ l, AllT S v := by
  unfold AllT
  simp only [strings]
  induction l with
  | nil => simp [stringsL]
  | cons v r ih =>
    simp only [stringsL, List.mem_append, List.forall_mem_cons, or_imp, forall_and, ih]

theorem allT_dict {d : VDict} : AllT S (.dict d) ↔ ∀ p ∈ d, AllT S p.2 := by
  unfold AllT
  simp only [strings]
  induction d with
  | nil => simp [stringsD]
  | cons p r ih =>
    obtain ⟨k, v⟩ := p
    simp only [stringsD, List.mem_append, List.forall_mem_cons, or_imp, forall_and, ih]

theorem listT_list {l : List Val} : ListT S (.list l) ↔ AllT S (.list l) := by
  unfold ListT AllT
  simp only [listTexts, strings]

theorem listT_dict {d : VDict} : ListT S (.dict d) ↔ ∀ p ∈ d, ListT S p.2 := by
  unfold ListT
  simp only [listTexts]
  induction d with
  | nil => simp [listTexts.listTextsD]
  | cons p r ih =>
    obtain ⟨k, v⟩ := p
    simp only [listTexts.listTextsD, List.mem_append, List.forall_mem_cons, or_imp, forall_and, ih]

theorem allT_get {d : VDict} (h : AllT S (.dict d)) {k : String} {v : Val} (hk : Dict.get? d k = some v) : AllT S v :=
  allT_dict.1 h _ (Dict.mem_of_get? hk)

theorem mapStrL_eq (f : Chars → Chars) (l : List Val) : mapStrL f l = l.map (mapStr f) := by
  induction l with
  | nil => rfl
  | cons v r ih => simp [mapStrL, ih]

theorem mapStrD_eq (f : Chars → Chars) (d : VDict) : mapStrD f d = d.map (fun p => (p.1, mapStr f p.2)) := by
  induction d with
  | nil => rfl
  | cons p r ih => obtain ⟨k, v⟩ := p; simp [mapStrD, ih]

theorem get?_mapStrD (f : Chars → Chars) (d : VDict) (k : String) : Dict.get? (mapStrD f d) k = (Dict.get? d k).map (mapStr f) := by
  induction d with
  | nil => rfl
  | cons p r ih =>
    obtain ⟨k', v⟩ := p
    simp only [mapStrD, Dict.get?_cons, ih]
    split <;> rfl

variable {f : Chars → Chars} (hinj : ∀ a b, S a → S b → f a = f b → a = b)
include hinj

theorem mapStr_inj (a b : Val) (ha : AllT S a) (hb : AllT S b) (h : mapStr f a = mapStr f b) : a = b := by
  induction a using Val.induct generalizing b with
  | hn => cases b <;> simp [mapStr] at h ⊢
  | hb x => cases b <;> simp [mapStr] at h ⊢; exact h
  | hi x => cases b <;> simp [mapStr] at h ⊢; exact h
  | hs x =>
    cases b <;> simp [mapStr] at h ⊢
    rename_i y
    have := hinj x.toList y.toList (ha _ (by simp [strings])) (hb _ (by simp [strings])) (by
      have := congrArg String.toList h; simpa using this)
    exact String.toList_injective this
  | hl l ih =>
    cases b <;> simp [mapStr] at h ⊢
    rename_i m
    rw [allT_list] at ha hb
    induction l generalizing m with
    | nil => cases m <;> simp [mapStrL] at h ⊢
    | cons x xs ihx =>
      cases m with
      | nil => simp [mapStrL] at h
      | cons y ys =>
        simp only [mapStrL, List.cons.injEq] at h
        rw [ih x (by simp) y (ha x (by simp)) (hb y (by simp)) h.1,
          ihx (fun v hv => ih v (by simp [hv])) (fun v hv => ha v (by simp [hv])) ys (fun v hv => hb v (by simp [hv])) h.2]
  | hd l ih =>
    cases b <;> simp [mapStr] at h ⊢
    rename_i m
    rw [allT_dict] at ha hb
    induction l generalizing m with
    | nil => cases m <;> simp [mapStrD] at h ⊢
    | cons x xs ihx =>
      obtain ⟨k, x⟩ := x
      cases m with
      | nil => simp [mapStrD] at h
      | cons y ys =>
        obtain ⟨k', y⟩ := y
        simp only [mapStrD, List.cons.injEq, Prod.mk.injEq] at h
        have e1 : x = y := ih (k, x) (by simp) y (ha (k, x) (by simp)) (hb (k', y) (by simp)) h.1.2
        rw [h.1.1, e1, ihx (fun v hv => ih v (by simp [hv])) (fun v hv => ha v (by simp [hv])) ys (fun v hv => hb v (by simp [hv])) h.2]

theorem pyEq_map (a b : Val) (ha : AllT S a) (hb : AllT S b) : Val.pyEq (mapStr f a) (mapStr f b) = Val.pyEq a b := by
  induction a using Val.induct generalizing b with
  | hn => cases b <;> rfl
  | hb x => cases b <;> rfl
  | hi x => cases b <;> rfl
  | hs x =>
    cases b <;> try rfl
    rename_i y
    simp only [mapStr, Val.pyEq]
    have := hinj x.toList y.toList (ha _ (by simp [strings])) (hb _ (by simp [strings]))
    rw [Bool.eq_iff_iff, beq_iff_eq, beq_iff_eq]
    constructor
    · intro h
      exact String.toList_injective (this (by have := congrArg String.toList h; simpa using this))
    · rintro rfl; rfl
  | hl l ih =>
    cases b <;> try rfl
    rename_i m
    simp only [mapStr, Val.pyEq]
    rw [allT_list] at ha hb
    induction l generalizing m with
    | nil => cases m <;> rfl
    | cons x xs ihx =>
      cases m with
      | nil => rfl
      | cons y ys =>
        simp only [mapStrL, Val.pyEqL]
        rw [ih x (by simp) y (ha x (by simp)) (hb y (by simp)),
          ihx (fun v hv => ih v (by simp [hv])) (fun v hv => ha v (by simp [hv])) ys (fun v hv => hb v (by simp [hv]))]
  | hd l ih =>
    cases b <;> try rfl
    rename_i m
    simp only [mapStr, Val.pyEq]
    congr 1
    · simp [mapStrD_eq]
    · rw [allT_dict] at ha
      induction l with
      | nil => rfl
      | cons x xs ihx =>
        obtain ⟨k, x⟩ := x
        simp only [mapStrD, Val.pyEqD, get?_mapStrD]
        rw [ihx (fun v hv => ih v (by simp [hv])) (fun v hv => ha v (by simp [hv]))]
        cases hk : Dict.get? m k with
        | none => rfl
        | some w =>
          simp only [Option.map_some]
          rw [ih (k, x) (by simp) w (ha (k, x) (by simp)) (allT_get hb hk)]

omit hinj

/-! ## keys of list elements -/

/-- the key of an element after the replacement -/
def LKey.mapT (f : Chars → Chars) : LKey → LKey
  | .pos s i => .pos s i
  | .obj v => .obj (mapStr f v)
  | .val v => .val (mapStr f v)

def LKey.Ok (S : Chars → Prop) : LKey → Prop
  | .pos _ _ => True
  | .obj v => AllT S v
  | .val v => AllT S v

include hinj in
theorem mapT_inj (a b : LKey) (ha : a.Ok S) (hb : b.Ok S) (h : a.mapT f = b.mapT f) : a = b := by
  cases a <;> cases b <;> simp only [LKey.mapT, LKey.pos.injEq, LKey.obj.injEq, LKey.val.injEq, reduceCtorEq] at h ⊢
  · exact h
  · exact mapStr_inj hinj _ _ ha hb h
  · exact mapStr_inj hinj _ _ ha hb h

theorem scalarKey_map (v : Val) : scalarKey (mapStr f v) = (scalarKey v).map (mapStr f) := by
  cases v <;> rfl

theorem scalarKey_allT {v k : Val} (h : scalarKey v = .ok k) (hv : AllT S v) : AllT S k := by
  cases v <;> simp only [scalarKey, Except.ok.injEq, reduceCtorEq] at h <;> subst h
  · exact hv
  · intro s hs; simp [strings] at hs
  · exact hv
  · exact hv

theorem scalarKeys_map (l : List Val) : scalarKeys (l.map (mapStr f)) = (scalarKeys l).map (List.map (mapStr f)) := by
  induction l with
  | nil => rfl
  | cons v r ih =>
    simp only [List.map_cons, scalarKeys, scalarKey_map, ih]
    cases scalarKey v with
    | error e => rfl
    | ok k => cases scalarKeys r <;> rfl

theorem scalarKeys_allT {l ks : List Val} (h : scalarKeys l = .ok ks) (hl : ∀ v ∈ l, AllT S v) : ∀ k ∈ ks, AllT S k := by
  induction l generalizing ks with
  | nil => cases h; simp
  | cons v r ih =>
    rw [scalarKeys] at h
    obtain ⟨k, hk, h⟩ := bind_ok_iff.1 h
    obtain ⟨ks', hks, h⟩ := bind_ok_iff.1 h
    cases h
    intro x hx
    rcases List.mem_cons.1 hx with rfl | hx
    · exact scalarKey_allT hk (hl v (by simp))
    · exact ih hks (fun v hv => hl v (by simp [hv])) x hx

theorem hashKey_map (v : Val) : hashKey (mapStr f v) = (hashKey v).map (mapStr f) := by
  cases v with
  | list l =>
    simp only [mapStr, hashKey, mapStrL_eq, scalarKeys_map]
    cases scalarKeys l with
    | error e => rfl
    | ok k => simp only [Except.map, bind, Except.bind, pure, Except.pure, mapStr, mapStrL_eq]
  | _ => simp only [mapStr, hashKey, scalarKey, Except.map]

theorem hashKey_allT {v k : Val} (h : hashKey v = .ok k) (hv : AllT S v) : AllT S k := by
  cases v with
  | list l =>
    simp only [hashKey] at h
    obtain ⟨ks, hks, h⟩ := bind_ok_iff.1 h
    cases h
    exact allT_list.2 (scalarKeys_allT hks (allT_list.1 hv))
  | _ => simp only [hashKey] at h; exact scalarKey_allT h hv

theorem identValue_map (ids : List String) (d : VDict) : identValue ids (mapStrD f d) = (identValue ids d).map (mapStr f) := by
  induction ids with
  | nil => rfl
  | cons i r ih =>
    simp only [identValue, get?_mapStrD]
    cases Dict.get? d i with
    | none => exact ih
    | some v => rfl

theorem identValue_allT {ids : List String} {d : VDict} {v : Val} (h : identValue ids d = some v) (hd : AllT S (.dict d)) : AllT S v := by
  induction ids with
  | nil => cases h
  | cons i r ih =>
    simp only [identValue] at h
    split at h
    · rename_i w hw; cases h; exact allT_get hd hw
    · exact ih h

variable {sh sh' : Val → Bool} (hsh : ∀ v, AllT S v → sh' (mapStr f v) = sh v)
include hsh

theorem elemKey_map (ids : List String) (side i : Nat) (el : Val) (he : AllT S el) :
    elemKey sh' ids side i (mapStr f el) = (elemKey sh ids side i el).map (LKey.mapT f) ∧ ∀ k, elemKey sh ids side i el = .ok k → k.Ok S := by
  have h1 : (if sh' (mapStr f el) then LKey.obj (mapStr f el) else LKey.pos side i) = (if sh el then LKey.obj el else LKey.pos side i).mapT f := by
    rw [hsh el he]; split <;> rfl
  have h2 : (if sh el then LKey.obj el else LKey.pos side i).Ok S := by
    split
    · exact he
    · trivial
  cases el with
  | dict d =>
    simp only [mapStr] at h1
    simp only [mapStr, elemKey, identValue_map, h1]
    cases hi : identValue ids d with
    | none => exact ⟨rfl, fun k hk => by cases hk; exact h2⟩
    | some v =>
      simp only [Option.map_some, hashKey_map]
      cases hh : hashKey v with
      | error e => exact ⟨rfl, fun k hk => by cases hk⟩
      | ok k => exact ⟨rfl, fun k' hk => by cases hk; exact hashKey_allT hh (identValue_allT hi he)⟩
  | _ =>
    simp only [mapStr] at h1
    simp only [mapStr, elemKey, h1]
    exact ⟨rfl, fun k hk => by cases hk; exact h2⟩

theorem keyed_map (ids : List String) (side : Nat) (l : List Val) (hl : ∀ v ∈ l, AllT S v) (i : Nat) :
    keyed sh' ids side i (l.map (mapStr f)) = (keyed sh ids side i l).map (List.map fun p => (p.1.mapT f, mapStr f p.2)) ∧
    ∀ ks, keyed sh ids side i l = .ok ks → ∀ p ∈ ks, p.1.Ok S ∧ p.2 ∈ l := by
  induction l generalizing i with
  | nil => exact ⟨rfl, fun ks hk => by cases hk; simp⟩
  | cons el r ih =>
    obtain ⟨e1, e2⟩ := elemKey_map hsh ids side i el (hl el (by simp))
    obtain ⟨i1, i2⟩ := ih (fun v hv => hl v (by simp [hv])) (i + 1)
    simp only [List.map_cons, keyed, e1, i1]
    constructor
    · cases elemKey sh ids side i el with
      | error e => rfl
      | ok k => cases keyed sh ids side (i + 1) r <;> rfl
    · intro ks hk
      obtain ⟨k, hk1, hk⟩ := bind_ok_iff.1 hk
      obtain ⟨ks', hk2, hk⟩ := bind_ok_iff.1 hk
      cases hk
      intro p hp
      rcases List.mem_cons.1 hp with rfl | hp
      · exact ⟨e2 k hk1, by simp⟩
      · exact ⟨(i2 ks' hk2 p hp).1, by simp [(i2 ks' hk2 p hp).2]⟩

include hinj in
theorem keyedNew_map (ids : List String) (known : List Val) (hn : ∀ v ∈ known, AllT S v) (side : Nat) (l : List Val) (hl : ∀ v ∈ l, AllT S v) (i : Nat) :
    keyedNew sh' ids (known.map (mapStr f)) side i (l.map (mapStr f)) =
      (keyedNew sh ids known side i l).map (List.map fun p => (p.1.mapT f, mapStr f p.2)) ∧
    ∀ ks, keyedNew sh ids known side i l = .ok ks → ∀ p ∈ ks, p.1.Ok S ∧ p.2 ∈ l := by
  induction l generalizing i with
  | nil => exact ⟨rfl, fun ks hk => by cases hk; simp⟩
  | cons el r ih =>
    obtain ⟨e1, e2⟩ := elemKey_map hsh ids side i el (hl el (by simp))
    obtain ⟨i1, i2⟩ := ih (fun v hv => hl v (by simp [hv])) (i + 1)
    have ha : ((known.map (mapStr f)).any fun x => Val.pyEq (mapStr f el) x) = known.any fun x => Val.pyEq el x := by
      rw [List.any_map]
      apply Bool.eq_iff_iff.2
      simp only [List.any_eq_true, Function.comp]
      constructor
      · rintro ⟨x, hx, h⟩; exact ⟨x, hx, by rwa [pyEq_map hinj _ _ (hl el (by simp)) (hn x hx)] at h⟩
      · rintro ⟨x, hx, h⟩; exact ⟨x, hx, by rwa [pyEq_map hinj _ _ (hl el (by simp)) (hn x hx)]⟩
    simp only [List.map_cons, keyedNew, ha]
    split
    · exact ⟨i1, fun ks hk p hp => ⟨(i2 ks hk p hp).1, by simp [(i2 ks hk p hp).2]⟩⟩
    · simp only [e1, i1]
      constructor
      · cases elemKey sh ids side i el with
        | error e => rfl
        | ok k => cases keyedNew sh ids known side (i + 1) r <;> rfl
      · intro ks hk
        obtain ⟨k, hk1, hk⟩ := bind_ok_iff.1 hk
        obtain ⟨ks', hk2, hk⟩ := bind_ok_iff.1 hk
        cases hk
        intro p hp
        rcases List.mem_cons.1 hp with rfl | hp
        · exact ⟨e2 k hk1, by simp⟩
        · exact ⟨(i2 ks' hk2 p hp).1, by simp [(i2 ks' hk2 p hp).2]⟩

omit hsh

/-! ## dictionaries under a replacement of keys and values -/

theorem mem_set_kv {κ α : Type} [DecidableEq κ] {d : Dict κ α} {k : κ} {v : α} {p : κ × α} (h : p ∈ Dict.set d k v) : p ∈ d ∨ p = (k, v) := by
  induction d with
  | nil => simp [Dict.set] at h; exact .inr h
  | cons q r ih =>
    obtain ⟨k', w⟩ := q
    simp only [Dict.set] at h
    split at h
    · rcases List.mem_cons.1 h with rfl | h
      · rename_i e; right; rw [e]
      · left; simp [h]
    · rcases List.mem_cons.1 h with rfl | h
      · left; simp
      · rcases ih h with h | h
        · left; simp [h]
        · exact .inr h

section dicts
variable {κ κ' α α' : Type} [DecidableEq κ] [DecidableEq κ'] {φ : κ → κ'} {g : α → α'} {K : κ → Prop} (hφ : ∀ a b, K a → K b → φ a = φ b → a = b)
include hφ

theorem lastWith_mapKV (l : List (κ × α)) (hl : ∀ p ∈ l, K p.1) (k : κ) (hk : K k) :
    lastWith (φ k) (l.map fun p => (φ p.1, g p.2)) = (lastWith k l).map g := by
  induction l with
  | nil => rfl
  | cons p r ih =>
    obtain ⟨k', v⟩ := p
    simp only [List.map_cons, lastWith, ih (fun p hp => hl p (by simp [hp]))]
    cases lastWith k r with
    | some w => rfl
    | none =>
      simp only [Option.map_none]
      by_cases e : k' = k
      · simp [e]
      · rw [if_neg e, if_neg (fun h => e (hφ _ _ (hl (k', v) (by simp)) hk h))]; rfl

omit hφ in
omit [DecidableEq κ'] in
theorem collapse_sub (l : List (κ × α)) : ∀ p ∈ collapse l, p ∈ l := by
  intro p hp
  have h1 := Dict.get?_of_mem (collapse_nodup l) (k := p.1) (v := p.2) hp
  rw [collapse_get?] at h1
  exact lastWith_mem h1

theorem collapse_mapKV (l : List (κ × α)) (hl : ∀ p ∈ l, K p.1) :
    collapse (l.map fun p => (φ p.1, g p.2)) = (collapse l).map fun p => (φ p.1, g p.2) := by
  induction l with
  | nil => rfl
  | cons p r ih =>
    obtain ⟨k, v⟩ := p
    have hr : ∀ p ∈ r, K p.1 := fun p hp => hl p (by simp [hp])
    have hk : K k := hl (k, v) (by simp)
    simp only [List.map_cons, collapse, ih hr, lastWith_mapKV hφ r hr k hk, List.filter_map]
    congr 1
    · cases lastWith k r <;> rfl
    · congr 1
      apply List.filter_congr
      intro p hp
      have hp' := hr p (collapse_sub r p hp)
      simp only [Function.comp, decide_eq_decide]
      exact not_congr ⟨fun h => hφ _ _ hp' hk h, fun h => by rw [h]⟩

theorem get?_mapKV (d : Dict κ α) (hd : ∀ p ∈ d, K p.1) (k : κ) (hk : K k) :
    Dict.get? (d.map fun p => (φ p.1, g p.2)) (φ k) = (Dict.get? d k).map g := by
  induction d with
  | nil => rfl
  | cons p r ih =>
    obtain ⟨k', v⟩ := p
    simp only [List.map_cons, Dict.get?_cons, ih (fun p hp => hd p (by simp [hp]))]
    by_cases e : k' = k
    · simp [e]
    · rw [if_neg e, if_neg (fun h => e (hφ _ _ (hd (k', v) (by simp)) hk h))]

theorem set_mapKV (d : Dict κ α) (hd : ∀ p ∈ d, K p.1) (k : κ) (hk : K k) (v : α) :
    Dict.set (d.map fun p => (φ p.1, g p.2)) (φ k) (g v) = (Dict.set d k v).map fun p => (φ p.1, g p.2) := by
  induction d with
  | nil => rfl
  | cons p r ih =>
    obtain ⟨k', w⟩ := p
    simp only [List.map_cons, Dict.set]
    by_cases e : k' = k
    · simp [e]
    · rw [if_neg e, if_neg (fun h => e (hφ _ _ (hd (k', w) (by simp)) hk h)), ih (fun p hp => hd p (by simp [hp]))]
      rfl

theorem mfold_mapKV {β : Type} {Q : α → Prop} (u : β → Option α → Except PyErr α) (u' : β → Option α' → Except PyErr α') (c : List (κ × β)) (hc : ∀ p ∈ c, K p.1)
    (hu : ∀ p ∈ c, ∀ e : Option α, (∀ w, e = some w → Q w) → u' p.2 (e.map g) = (u p.2 e).map g ∧ ∀ r, u p.2 e = .ok r → Q r)
    (acc : Dict κ α) (ha : ∀ p ∈ acc, K p.1 ∧ Q p.2) :
    mfold (acc.map fun p => (φ p.1, g p.2)) (c.map fun p => (φ p.1, u' p.2)) =
      (mfold acc (c.map fun p => (p.1, u p.2))).map (List.map fun p => (φ p.1, g p.2)) ∧
    ∀ out, mfold acc (c.map fun p => (p.1, u p.2)) = .ok out → ∀ p ∈ out, K p.1 ∧ Q p.2 := by
  induction c generalizing acc with
  | nil => exact ⟨rfl, fun out h => by cases h; exact ha⟩
  | cons p r ih =>
    obtain ⟨k, b⟩ := p
    have hk : K k := hc (k, b) (by simp)
    have hg := get?_mapKV (φ := φ) (g := g) hφ acc (fun p hp => (ha p hp).1) k hk
    obtain ⟨u1, u2⟩ := hu (k, b) (by simp) (Dict.get? acc k) (fun w hw => (ha _ (Dict.mem_of_get? hw)).2)
    have hr := fun acc ha => ih (fun p hp => hc p (by simp [hp])) (fun p hp => hu p (by simp [hp])) acc ha
    simp only [List.map_cons, mfold, hg, u1]
    cases hx : u b (Dict.get? acc k) with
    | error e => exact ⟨rfl, fun out h => by cases h⟩
    | ok x =>
      have hset : ∀ p ∈ Dict.set acc k x, K p.1 ∧ Q p.2 := by
        intro p hp
        rcases mem_set_kv hp with h | h
        · exact ha p h
        · rw [h]; exact ⟨hk, u2 x hx⟩
      obtain ⟨r1, r2⟩ := hr (Dict.set acc k x) hset
      have hs := set_mapKV (φ := φ) (g := g) hφ acc (fun p hp => (ha p hp).1) k hk x
      constructor
      · show mfold (Dict.set (acc.map fun p => (φ p.1, g p.2)) (φ k) (g x)) _ = _
        rw [hs]; exact r1
      · exact r2

end dicts

end

end NJ
