import Verif.MergeSpec

/-! Helper lemmas about the merge model. -/

set_option linter.unusedSimpArgs false

namespace NJ

/-- `Except` bind inversion -/
theorem bind_ok_iff {α β} {x : Except PyErr α} {f : α → Except PyErr β} {b : β} :
    (x >>= f) = .ok b ↔ ∃ a, x = .ok a ∧ f a = .ok b := by
  cases x <;> simp [bind, Except.bind]

theorem pure_ok_iff {α} {a b : α} : (pure a : Except PyErr α) = .ok b ↔ a = b := by
  simp [pure, Except.pure]

theorem closures_eq (sh) (l : List Val) :
    closures sh l = l.map (fun v => (v, fun e => mergeVal sh [] v e)) := by
  induction l with
  | nil => rfl
  | cons v r ih => simp [closures, ih]

/-! ## Folding updates into a dictionary -/

section fold
variable {κ α : Type} [DecidableEq κ]

/-- common shape of the loops of `merge_config` -/
def mfold (acc : Dict κ α) : List (κ × (Option α → Except PyErr α)) → Except PyErr (Dict κ α)
  | [] => .ok acc
  | (k, f) :: r => do
    let v ← f (Dict.get? acc k)
    mfold (Dict.set acc k v) r

abbrev Upd (κ α : Type) := Dict κ (Option α → Except PyErr α)

theorem mfold_cons_ok {k f} {r : Upd κ α} {acc out : Dict κ α} :
    mfold acc ((k, f) :: r) = .ok out ↔
      ∃ x, f (Dict.get? acc k) = .ok x ∧ mfold (Dict.set acc k x) r = .ok out := by
  rw [mfold]; exact bind_ok_iff

theorem mfold_get?_not_mem {c : Upd κ α} {acc out : Dict κ α}
    (h : mfold acc c = .ok out) {k : κ} (hk : k ∉ Dict.keys c) :
    Dict.get? out k = Dict.get? acc k := by
  induction c generalizing acc with
  | nil => cases h; rfl
  | cons p r ih =>
    obtain ⟨k', v⟩ := p
    obtain ⟨x, _, hr⟩ := mfold_cons_ok.1 h
    simp only [Dict.keys_cons, List.mem_cons, not_or] at hk
    rw [ih hr hk.2, Dict.get?_set_ne _ _ (fun e => hk.1 e.symm)]

theorem mfold_get?_mem {c : Upd κ α} (hc : (Dict.keys c).Nodup) {acc out : Dict κ α}
    (h : mfold acc c = .ok out) {k : κ} {f} (hk : Dict.get? c k = some f) :
    ∃ x, f (Dict.get? acc k) = .ok x ∧ Dict.get? out k = some x := by
  induction c generalizing acc with
  | nil => simp at hk
  | cons p r ih =>
    obtain ⟨k', v'⟩ := p
    obtain ⟨x, hx, hr⟩ := mfold_cons_ok.1 h
    simp only [Dict.keys_cons, List.nodup_cons] at hc
    rw [Dict.get?_cons] at hk
    by_cases e : k' = k
    · subst e
      rw [if_pos rfl] at hk
      cases hk
      refine ⟨x, hx, ?_⟩
      rw [mfold_get?_not_mem hr hc.1, Dict.get?_set_self]
    · rw [if_neg e] at hk
      obtain ⟨y, hy, ho⟩ := ih hc.2 hr hk
      rw [Dict.get?_set_ne _ _ e] at hy
      exact ⟨y, hy, ho⟩

theorem mfold_keys {c : Upd κ α} (hc : (Dict.keys c).Nodup) {acc out : Dict κ α}
    (h : mfold acc c = .ok out) :
    Dict.keys out = Dict.keys acc ++ (Dict.keys c).filter (fun k => decide (k ∉ Dict.keys acc)) := by
  induction c generalizing acc with
  | nil => cases h; simp
  | cons p r ih =>
    obtain ⟨k', v'⟩ := p
    obtain ⟨x, hx, hr⟩ := mfold_cons_ok.1 h
    simp only [Dict.keys_cons, List.nodup_cons] at hc
    rw [ih hc.2 hr, Dict.keys_set, Dict.keys_cons]
    by_cases hm : k' ∈ Dict.keys acc
    · simp [hm]
    · simp only [hm, if_false, List.append_assoc, List.filter_cons, not_false_eq_true, decide_true,
        if_true, List.singleton_append, List.append_cancel_left_eq, List.cons.injEq, true_and]
      apply List.filter_congr
      intro y hy
      have : y ≠ k' := by rintro rfl; exact hc.1 hy
      simp [this]

theorem mfold_ok_iff {c : Upd κ α} (hc : (Dict.keys c).Nodup) (acc : Dict κ α) :
    (∃ out, mfold acc c = .ok out) ↔
      ∀ k f, Dict.get? c k = some f → ∃ x, f (Dict.get? acc k) = .ok x := by
  constructor
  · rintro ⟨out, h⟩ k v hk
    obtain ⟨x, hx, _⟩ := mfold_get?_mem hc h hk
    exact ⟨x, hx⟩
  · intro h
    induction c generalizing acc with
    | nil => exact ⟨acc, rfl⟩
    | cons p r ih =>
      obtain ⟨k', v'⟩ := p
      simp only [Dict.keys_cons, List.nodup_cons] at hc
      obtain ⟨x, hx⟩ := h k' v' (by simp)
      have := ih hc.2 (Dict.set acc k' x) (by
        intro k v hk
        have hne : k' ≠ k := by
          rintro rfl
          exact hc.1 ((Dict.get?_isSome_iff r _).1 (by simp [hk]))
        rw [Dict.get?_set_ne _ _ hne]
        exact h k v (by rw [Dict.get?_cons, if_neg hne]; exact hk))
      obtain ⟨out, ho⟩ := this
      exact ⟨out, mfold_cons_ok.2 ⟨x, hx, ho⟩⟩

theorem mfold_nodup {c : Upd κ α} {acc out : Dict κ α} (ha : (Dict.keys acc).Nodup)
    (h : mfold acc c = .ok out) : (Dict.keys out).Nodup := by
  induction c generalizing acc with
  | nil => cases h; exact ha
  | cons p r ih =>
    obtain ⟨k', v'⟩ := p
    obtain ⟨x, hx, hr⟩ := mfold_cons_ok.1 h
    exact ih (Dict.nodup_set ha _ _) hr

/-- two dictionaries with the same key sequence and the same lookups are equal -/
theorem dict_ext {d e : Dict κ α} (hd : (Dict.keys d).Nodup) (hk : Dict.keys d = Dict.keys e)
    (hg : ∀ k, Dict.get? d k = Dict.get? e k) : d = e := by
  induction d generalizing e with
  | nil => cases e with
    | nil => rfl
    | cons p r => simp [Dict.keys] at hk
  | cons p r ih =>
    obtain ⟨k, v⟩ := p
    cases e with
    | nil => simp [Dict.keys] at hk
    | cons q s =>
      obtain ⟨k', v'⟩ := q
      simp only [Dict.keys_cons, List.cons.injEq] at hk
      simp only [Dict.keys_cons, List.nodup_cons] at hd
      obtain ⟨rfl, hk⟩ := hk
      have h0 := hg k
      simp only [Dict.get?_cons_self, Option.some.injEq] at h0
      subst h0
      congr 1
      apply ih hd.2 hk
      intro j
      by_cases e : k = j
      · subst e
        have h1 := (Dict.get?_eq_none_iff r k).2 hd.1
        have h2 := (Dict.get?_eq_none_iff s k).2 (hk ▸ hd.1)
        rw [h1, h2]
      · have := hg j
        simpa [Dict.get?_cons, e] using this

/-! ## collapse -/

theorem lastWith_append (k : κ) (a b : List (κ × α)) :
    lastWith k (a ++ b) = (lastWith k b).or (lastWith k a) := by
  induction a with
  | nil => simp [lastWith]
  | cons p r ih =>
    obtain ⟨k', v⟩ := p
    simp only [List.cons_append, lastWith, ih]
    cases lastWith k b <;> simp

theorem lastWith_eq_none (k : κ) (l : List (κ × α)) : lastWith k l = none ↔ k ∉ Dict.keys l := by
  induction l with
  | nil => simp [lastWith]
  | cons p r ih =>
    obtain ⟨k', v⟩ := p
    simp only [lastWith, Dict.keys_cons, List.mem_cons, not_or]
    cases h : lastWith k r with
    | none =>
      simp only [h, true_iff] at ih
      by_cases e : k' = k
      · simp [e]
      · simp [e, ih]; exact fun e' => e e'.symm
    | some w => simp [h] at ih; simp [ih]

theorem lastWith_mem {k : κ} {l : List (κ × α)} {v : α} (h : lastWith k l = some v) : (k, v) ∈ l := by
  induction l with
  | nil => simp [lastWith] at h
  | cons p r ih =>
    obtain ⟨k', w⟩ := p
    simp only [lastWith] at h
    cases h2 : lastWith k r with
    | none =>
      rw [h2] at h
      simp only at h
      split at h
      · next e => subst e; cases h; simp
      · cases h
    | some u =>
      rw [h2] at h
      simp only [Option.some.injEq] at h
      subst h
      exact List.mem_cons_of_mem _ (ih h2)

theorem keys_filter_ne (l : Dict κ α) (k : κ) :
    Dict.keys (l.filter (fun p => decide (p.1 ≠ k))) = (Dict.keys l).filter (fun x => decide (x ≠ k)) :=
  Dict.keys_erase l k

theorem collapse_nodup (l : List (κ × α)) : (Dict.keys (collapse l)).Nodup := by
  induction l with
  | nil => simp [collapse]
  | cons p r ih =>
    obtain ⟨k, v⟩ := p
    simp only [collapse, Dict.keys_cons, List.nodup_cons, keys_filter_ne]
    exact ⟨by simp, ih.filter _⟩

theorem collapse_get? (l : List (κ × α)) (k : κ) : Dict.get? (collapse l) k = lastWith k l := by
  induction l with
  | nil => simp [collapse, lastWith]
  | cons p r ih =>
    obtain ⟨k', v⟩ := p
    simp only [collapse, Dict.get?_cons, lastWith]
    have := Dict.get?_erase (collapse r) k' k
    simp only [Dict.erase] at this
    rw [this, ih]
    by_cases e : k' = k
    · subst e; simp; cases lastWith k' r <;> simp
    · simp only [e, if_false]; cases lastWith k r <;> simp

theorem collapse_of_nodup {l : Dict κ α} (h : (Dict.keys l).Nodup) : collapse l = l := by
  induction l with
  | nil => rfl
  | cons p r ih =>
    obtain ⟨k, v⟩ := p
    simp only [Dict.keys_cons, List.nodup_cons] at h
    have h1 : lastWith k r = none := (lastWith_eq_none k r).2 h.1
    have h2 := Dict.erase_not_mem r k h.1
    simp only [Dict.erase] at h2
    simp only [collapse, ih h.2, h1, h2, Option.getD_none]

/-- order of first occurrences -/
theorem collapse_keys_append (l : List (κ × α)) (k : κ) (v : α) :
    Dict.keys (collapse (l ++ [(k, v)])) =
      if k ∈ Dict.keys l then Dict.keys (collapse l) else Dict.keys (collapse l) ++ [k] := by
  induction l with
  | nil => simp [collapse, Dict.keys]
  | cons p r ih =>
    obtain ⟨k', w⟩ := p
    simp only [List.cons_append, collapse, Dict.keys_cons, keys_filter_ne, List.mem_cons, ih]
    by_cases e : k = k'
    · subst e
      simp only [true_or, if_true, List.cons.injEq, true_and]
      split <;> simp
    · simp only [e, false_or]
      split
      · rfl
      · simp [e]

theorem foldl_set_eq_collapse (l : List (κ × α)) :
    l.foldl (fun d p => Dict.set d p.1 p.2) [] = collapse l := by
  -- reverse induction
  suffices H : ∀ n, ∀ l : List (κ × α), l.length = n →
      l.foldl (fun d p => Dict.set d p.1 p.2) [] = collapse l from H _ l rfl
  intro n
  induction n with
  | zero => intro l hl; simp at hl; subst hl; rfl
  | succ n ih =>
    intro l hl
    obtain ⟨m, x, rfl⟩ : ∃ m x, l = m ++ [x] := by
      have hne : l ≠ [] := by rintro rfl; simp at hl
      exact ⟨l.dropLast, l.getLast hne, (List.dropLast_concat_getLast hne).symm⟩
    obtain ⟨k, v⟩ := x
    simp only [List.length_append, List.length_cons, List.length_nil] at hl
    rw [List.foldl_append, ih m (by omega)]
    simp only [List.foldl_cons, List.foldl_nil]
    apply dict_ext (Dict.nodup_set (collapse_nodup m) k v)
    · rw [Dict.keys_set, collapse_keys_append]
      have : k ∈ Dict.keys (collapse m) ↔ k ∈ Dict.keys m := by
        rw [← Dict.get?_isSome_iff, collapse_get?]
        have := lastWith_eq_none k m
        cases h : lastWith k m <;> simp_all
      simp [this]
    · intro j
      rw [Dict.get?_set, collapse_get?, collapse_get?, lastWith_append]
      by_cases e : k = j
      · simp [lastWith, e]
      · simp [lastWith, e]

end fold

/-! ## merge_config -/

theorem mergeKvs_eq (sh ids) (c acc : VDict) :
    mergeKvs sh ids c acc = mfold acc (c.map (fun p => (p.1, fun e => mergeVal sh ids p.2 e))) := by
  induction c generalizing acc with
  | nil => rfl
  | cons p r ih =>
    obtain ⟨k, v⟩ := p
    simp only [mergeKvs, List.map_cons, mfold]
    congr 1; funext x; exact ih _

theorem keys_map_upd {κ α β} [DecidableEq κ] (c : Dict κ α) (f : κ → α → β) :
    Dict.keys (c.map (fun p => (p.1, f p.1 p.2))) = Dict.keys c := by
  simp [Dict.keys, Function.comp_def]

theorem get?_map_upd {κ α β} [DecidableEq κ] (c : Dict κ α) (f : κ → α → β) (k : κ) :
    Dict.get? (c.map (fun p => (p.1, f p.1 p.2))) k = (Dict.get? c k).map (f k) := by
  induction c with
  | nil => rfl
  | cons p r ih =>
    obtain ⟨k', v⟩ := p
    simp only [List.map_cons, Dict.get?_cons, ih]
    split
    · next e => subst e; rfl
    · rfl

theorem mergeKvs_get?_not_mem {sh ids} {c : VDict} {acc out : VDict}
    (h : mergeKvs sh ids c acc = .ok out) {k : String} (hk : k ∉ Dict.keys c) :
    Dict.get? out k = Dict.get? acc k := by
  rw [mergeKvs_eq] at h
  exact mfold_get?_not_mem h (by rw [keys_map_upd c (fun _ v e => mergeVal sh ids v e)]; exact hk)

theorem mergeKvs_get?_mem {sh ids} {c : VDict} (hc : (Dict.keys c).Nodup) {acc out : VDict}
    (h : mergeKvs sh ids c acc = .ok out) {k : String} {v : Val} (hk : Dict.get? c k = some v) :
    ∃ x, mergeVal sh ids v (Dict.get? acc k) = .ok x ∧ Dict.get? out k = some x := by
  rw [mergeKvs_eq] at h
  refine mfold_get?_mem (f := fun e => mergeVal sh ids v e) ?_ h ?_
  · rw [keys_map_upd c (fun _ v e => mergeVal sh ids v e)]; exact hc
  · rw [get?_map_upd c (fun _ v e => mergeVal sh ids v e), hk]; rfl

theorem mergeKvs_keys {sh ids} {c : VDict} (hc : (Dict.keys c).Nodup) {acc out : VDict}
    (h : mergeKvs sh ids c acc = .ok out) :
    Dict.keys out = Dict.keys acc ++ (Dict.keys c).filter (fun k => decide (k ∉ Dict.keys acc)) := by
  rw [mergeKvs_eq] at h
  have := mfold_keys (by rw [keys_map_upd c (fun _ v e => mergeVal sh ids v e)]; exact hc) h
  rwa [keys_map_upd c (fun _ v e => mergeVal sh ids v e)] at this

theorem mergeKvs_ok_iff {sh ids} {c : VDict} (hc : (Dict.keys c).Nodup) (acc : VDict) :
    (∃ out, mergeKvs sh ids c acc = .ok out) ↔
      ∀ k v, Dict.get? c k = some v → ∃ x, mergeVal sh ids v (Dict.get? acc k) = .ok x := by
  rw [mergeKvs_eq, mfold_ok_iff (by rw [keys_map_upd c (fun _ v e => mergeVal sh ids v e)]; exact hc)]
  constructor
  · intro h k v hk
    exact h k _ (by rw [get?_map_upd c (fun _ v e => mergeVal sh ids v e), hk]; rfl)
  · intro h k f hk
    rw [get?_map_upd c (fun _ v e => mergeVal sh ids v e)] at hk
    cases h2 : Dict.get? c k with
    | none => rw [h2] at hk; cases hk
    | some v => rw [h2] at hk; cases hk; exact h k v h2

theorem mergeKvs_nodup {sh ids} {c : VDict} {acc out : VDict} (ha : (Dict.keys acc).Nodup)
    (h : mergeKvs sh ids c acc = .ok out) : (Dict.keys out).Nodup := by
  rw [mergeKvs_eq] at h; exact mfold_nodup ha h

/-- A scalar config value is stored. -/
theorem mergeVal_scalar {sh ids} {v : Val} (h : v.isScalar = true) (e : Option Val) :
    mergeVal sh ids v e = .ok v := by
  cases v <;> simp [Val.isScalar] at h <;> simp [mergeVal]

theorem mergeVal_none {sh ids} (v : Val) : mergeVal sh ids v none = .ok v := by
  cases v <;> simp [mergeVal]

theorem mergeVal_existing_scalar {sh ids} (v : Val) {w : Val} (h : w.isScalar = true) :
    mergeVal sh ids v (some w) = .ok v := by
  cases w <;> simp [Val.isScalar] at h <;> cases v <;> simp [mergeVal]

theorem mergeVal_dict_dict {sh ids} (c t : VDict) (x : Val) :
    mergeVal sh ids (.dict c) (some (.dict t)) = .ok x ↔
      ∃ d, mergeConfig sh ids t c = .ok d ∧ x = .dict d := by
  simp only [mergeVal, mergeConfig]
  rw [bind_ok_iff]
  simp only [pure_ok_iff, eq_comm (a := x)]

theorem mergeVal_list_list {sh ids} (c t : List Val) (x : Val) :
    mergeVal sh ids (.list c) (some (.list t)) = .ok x ↔
      ∃ r, mergeList sh ids t c = .ok r ∧ x = .list r := by
  simp only [mergeVal, mergeList]
  rw [bind_ok_iff]
  simp only [pure_ok_iff, eq_comm (a := x)]

/-! ## merge_list -/

theorem container1_eq {sh ids} (l : List Val) (i : Nat) (acc : Dict LKey Val) :
    container1 sh ids i acc l = (keyed sh ids 1 i l).map (fun ks => ks.foldl (fun d p => Dict.set d p.1 p.2) acc) := by
  induction l generalizing i acc with
  | nil => rfl
  | cons el r ih =>
    simp only [container1, keyed]
    cases elemKey sh ids 1 i el with
    | error e => rfl
    | ok k =>
      show container1 sh ids (i+1) (Dict.set acc k el) r = _
      rw [ih]
      show _ = Except.map _ ((keyed sh ids 1 (i+1) r) >>= fun ks => pure ((k, el) :: ks))
      cases keyed sh ids 1 (i + 1) r with
      | error e => rfl
      | ok ks => rfl

/-- the second container, built from the elements and an arbitrary payload -/
theorem container2_eq {sh ids} (l : List Val) (g : Val → Option Val → Except PyErr Val) (known : List Val)
    (i : Nat) (acc : Dict LKey Mergeable) :
    container2 sh ids known i acc (l.map (fun v => (v, g v))) =
      (keyedNew sh ids known 2 i l).map
        (fun ks => (ks.map (fun p => (p.1, (p.2, g p.2)))).foldl (fun d p => Dict.set d p.1 p.2) acc) := by
  induction l generalizing i acc with
  | nil => rfl
  | cons el r ih =>
    simp only [container2, keyedNew, List.map_cons]
    split
    · exact ih _ _
    · cases elemKey sh ids 2 i el with
      | error e => rfl
      | ok k =>
        show container2 sh ids known (i+1) (Dict.set acc k (el, g el)) _ = _
        rw [ih]
        show _ = Except.map _ ((keyedNew sh ids known 2 (i+1) r) >>= fun ks => pure ((k, el) :: ks))
        cases keyedNew sh ids known 2 (i + 1) r with
        | error e => rfl
        | ok ks => rfl

theorem collapse_map {κ α β} [DecidableEq κ] (f : α → β) (l : List (κ × α)) :
    collapse (l.map (fun p => (p.1, f p.2))) = (collapse l).map (fun p => (p.1, f p.2)) := by
  have hl : ∀ (k : κ) (l : List (κ × α)), lastWith k (l.map (fun p => (p.1, f p.2))) = (lastWith k l).map f := by
    intro k l
    induction l with
    | nil => rfl
    | cons p r ih =>
      obtain ⟨k', v⟩ := p
      simp only [List.map_cons, lastWith, ih]
      cases lastWith k r with
      | none => simp only [Option.map_none]; split <;> rfl
      | some w => rfl
  induction l with
  | nil => rfl
  | cons p r ih =>
    obtain ⟨k, v⟩ := p
    simp only [List.map_cons, collapse, ih, hl, List.filter_map]
    congr 1
    cases lastWith k r <;> rfl

theorem mergeContainers_eq (acc : Dict LKey Val) (c : Dict LKey Mergeable) :
    mergeContainers acc c = mfold acc (c.map (fun p => (p.1, p.2.2))) := by
  induction c generalizing acc with
  | nil => rfl
  | cons p r ih =>
    obtain ⟨k, v⟩ := p
    simp only [mergeContainers, List.map_cons, mfold]
    congr 1; funext x; exact ih _

/-- `mapM` in `Except`: success means success on all elements -/
theorem mapM_ok_nil {α β} (f : α → Except PyErr β) : List.mapM f [] = .ok [] := rfl

theorem mapM_ok_cons {α β} (f : α → Except PyErr β) (a : α) (l : List α) (r : List β) :
    List.mapM f (a :: l) = .ok r ↔ ∃ b bs, f a = .ok b ∧ List.mapM f l = .ok bs ∧ r = b :: bs := by
  rw [List.mapM_cons, bind_ok_iff]
  simp only [bind_ok_iff, pure_ok_iff]
  constructor
  · rintro ⟨b, hb, bs, hbs, rfl⟩; exact ⟨b, bs, hb, hbs, rfl⟩
  · rintro ⟨b, bs, hb, hbs, rfl⟩; exact ⟨b, hb, bs, hbs, rfl⟩

/-- Values of a dictionary that extends `A`: first those under the keys of `A`, then the rest. -/
theorem mfold_values {A : Dict LKey Val} (hA : (Dict.keys A).Nodup) {B : Dict LKey Val}
    (hB : (Dict.keys B).Nodup) (g : Val → Option Val → Except PyErr Val)
    (hg : ∀ v, g v none = .ok v) (r : List Val) :
    (∃ out, mfold A (B.map (fun p => (p.1, g p.2))) = .ok out ∧ Dict.values out = r) ↔
      mergeKeyedSpec (fun e1 e2 => g e2 (some e1)) A B = .ok r := by
  have hBk : (Dict.keys (B.map (fun p => (p.1, g p.2)))) = Dict.keys B := keys_map_upd B (fun _ v => g v)
  have hBg : ∀ k, Dict.get? (B.map (fun p => (p.1, g p.2))) k = (Dict.get? B k).map g :=
    fun k => get?_map_upd B (fun _ v => g v) k
  have hBn : (Dict.keys (B.map (fun p => (p.1, g p.2)))).Nodup := hBk ▸ hB
  -- the merged dictionary as a function of the merged values of `A`
  have key : ∀ out ms, (∀ i (h : i < A.length) (h2 : i < ms.length), (match Dict.get? B (A[i]).1 with
      | none => pure (A[i]).2 | some e => g e (some (A[i]).2)) = Except.ok ms[i]) → ms.length = A.length →
      mfold A (B.map (fun p => (p.1, g p.2))) = .ok out →
      out = (List.zipWith (fun p m => (p.1, m)) A ms) ++ B.filter (fun p => !(Dict.has A p.1)) := by
    intro out ms hms hlen hout
    have hkz : ∀ (A : Dict LKey Val) (ms : List Val), ms.length = A.length →
        Dict.keys (List.zipWith (fun p m => (p.1, m)) A ms) = Dict.keys A := by
      intro A
      induction A with
      | nil => intro ms _; cases ms <;> rfl
      | cons p A ih =>
        intro ms h
        cases ms with
        | nil => simp at h
        | cons m ms => simp at h; obtain ⟨k, v⟩ := p; simp [ih ms h]
    have hgz : ∀ (A : Dict LKey Val) (ms : List Val), (Dict.keys A).Nodup → ms.length = A.length → ∀ i (h : i < A.length) (h2 : i < ms.length),
        Dict.get? (List.zipWith (fun p m => (p.1, m)) A ms) (A[i]).1 = some ms[i] := by
      intro A ms hA hlen i h h2
      apply Dict.get?_of_mem
      · rw [hkz A ms hlen]; exact hA
      · have : (List.zipWith (fun p m => (p.1, m)) A ms)[i]'(by simp; omega) = ((A[i]).1, ms[i]) := by simp
        rw [← this]; exact List.getElem_mem _
    have hkf : ∀ B : Dict LKey Val, Dict.keys (B.filter (fun p => !(Dict.has A p.1))) =
        (Dict.keys B).filter (fun k => decide (k ∉ Dict.keys A)) := by
      intro B
      induction B with
      | nil => rfl
      | cons p B ih =>
        have : (!(Dict.has A p.1)) = decide (p.1 ∉ Dict.keys A) := by
          have := Dict.has_iff A p.1
          cases h : Dict.has A p.1 <;> simp_all
        obtain ⟨k, v⟩ := p
        simp only [List.filter_cons, Dict.keys_cons, this]
        split <;> simp [ih]
    have hgf : ∀ (B : Dict LKey Val) k, Dict.get? (B.filter (fun p => !(Dict.has A p.1))) k =
        if k ∈ Dict.keys A then none else Dict.get? B k := by
      intro B k
      induction B with
      | nil => simp
      | cons p B ih =>
        obtain ⟨k', v⟩ := p
        have hh := Dict.has_iff A k'
        by_cases hm : k' ∈ Dict.keys A
        · simp only [hm, iff_true] at hh
          simp only [List.filter_cons, hh, Bool.not_true, Bool.false_eq_true, if_false, ih, Dict.get?_cons]
          split
          · rfl
          · next hk =>
            have : k' ≠ k := by rintro rfl; exact hk hm
            simp [this]
        · simp only [hm, iff_false, Bool.not_eq_true] at hh
          simp only [List.filter_cons, hh, Bool.not_false, if_true, ih, Dict.get?_cons]
          by_cases e : k' = k
          · subst e; simp [hm]
          · simp [e]
    apply dict_ext (mfold_nodup hA hout)
    · rw [mfold_keys hBn hout, Dict.keys_append, hkz A ms hlen, hBk, hkf]
    · intro k
      rw [Dict.get?_append, hgf]
      by_cases hm : k ∈ Dict.keys A
      · obtain ⟨i, hi, rfl⟩ : ∃ i, ∃ h : i < A.length, (A[i]).1 = k := by
          simp only [Dict.keys, List.mem_map] at hm
          obtain ⟨p, hp, rfl⟩ := hm
          obtain ⟨i, hi, rfl⟩ := List.mem_iff_getElem.1 hp
          exact ⟨i, hi, rfl⟩
        have hi2 : i < ms.length := by omega
        rw [hgz A ms hA hlen i hi hi2]
        have h1 := hms i hi hi2
        have hAi : Dict.get? A (A[i]).1 = some (A[i]).2 := Dict.get?_of_mem hA (List.getElem_mem _)
        cases hb : Dict.get? B (A[i]).1 with
        | none =>
          rw [hb] at h1
          simp only [pure_ok_iff] at h1
          rw [mfold_get?_not_mem hout (by rw [hBk]; exact (Dict.get?_eq_none_iff _ _).1 hb), hAi, h1]
          simp
        | some e =>
          rw [hb] at h1
          obtain ⟨x, hx, ho⟩ := mfold_get?_mem hBn hout (f := g e) (by rw [hBg, hb]; rfl)
          simp only at h1
          rw [hAi, h1] at hx
          cases hx
          rw [ho]; simp
      · have hz : Dict.get? (List.zipWith (fun p m => (p.1, m)) A ms) k = none := by
          rw [Dict.get?_eq_none_iff, hkz A ms hlen]; exact hm
        rw [hz]
        simp only [hm, if_false, Option.none_or]
        have hAk := (Dict.get?_eq_none_iff A k).2 hm
        cases hb : Dict.get? B k with
        | none => rw [mfold_get?_not_mem hout (by rw [hBk]; exact (Dict.get?_eq_none_iff _ _).1 hb), hAk]
        | some e =>
          obtain ⟨x, hx, ho⟩ := mfold_get?_mem hBn hout (f := g e) (by rw [hBg, hb]; rfl)
          rw [hAk, hg] at hx
          cases hx
          exact ho
  -- mapM as pointwise statement
  have hmap : ∀ (A : Dict LKey Val) ms, List.mapM (fun p => match Dict.get? B p.1 with
      | none => pure p.2 | some e => g e (some p.2)) A = Except.ok ms ↔
      ms.length = A.length ∧ (∀ i (h : i < A.length) (h2 : i < ms.length), (match Dict.get? B (A[i]).1 with
      | none => pure (A[i]).2 | some e => g e (some (A[i]).2)) = Except.ok ms[i]) := by
    intro A
    induction A with
    | nil => intro ms; rw [mapM_ok_nil]; cases ms <;> simp
    | cons p A ih =>
      intro ms
      rw [mapM_ok_cons]
      constructor
      · rintro ⟨b, bs, h1, h2, rfl⟩
        obtain ⟨hl, hh⟩ := (ih bs).1 h2
        refine ⟨by simp [hl], ?_⟩
        intro i h h2
        cases i with
        | zero => exact h1
        | succ i => exact hh i (by simpa using h) (by simpa using h2)
      · rintro ⟨hl, hh⟩
        cases ms with
        | nil => simp at hl
        | cons m ms =>
          refine ⟨m, ms, hh 0 (by simp) (by simp), (ih ms).2 ⟨by simpa using hl, ?_⟩, rfl⟩
          intro i h h2
          exact hh (i+1) (by simpa using h) (by simpa using h2)
  have hvz : ∀ (A : Dict LKey Val) (ms : List Val), ms.length = A.length →
      Dict.values (List.zipWith (fun p m => (p.1, m)) A ms) = ms := by
    intro A
    induction A with
    | nil => intro ms h; cases ms with
      | nil => rfl
      | cons _ _ => simp at h
    | cons p A ih =>
      intro ms h
      cases ms with
      | nil => simp at h
      | cons m ms => simp at h; simp [ih ms h]
  unfold mergeKeyedSpec
  rw [bind_ok_iff]
  simp only [pure_ok_iff]
  constructor
  · rintro ⟨out, hout, rfl⟩
    -- all merges succeed
    have hs := (mfold_ok_iff hBn A).1 ⟨out, hout⟩
    have hex : ∀ i (h : i < A.length), ∃ x, (match Dict.get? B (A[i]).1 with
      | none => pure (A[i]).2 | some e => g e (some (A[i]).2)) = Except.ok x := by
      intro i h
      have hAi : Dict.get? A (A[i]).1 = some (A[i]).2 := Dict.get?_of_mem hA (List.getElem_mem _)
      cases hb : Dict.get? B (A[i]).1 with
      | none => exact ⟨_, rfl⟩
      | some e =>
        have := hs (A[i]).1 (g e) (by rw [hBg, hb]; rfl)
        rwa [hAi] at this
    have hex2 : ∀ A' : Dict LKey Val, (∀ i (h : i < A'.length), ∃ x, (match Dict.get? B (A'[i]).1 with
      | none => pure (A'[i]).2 | some e => g e (some (A'[i]).2)) = Except.ok x) → ∃ ms, List.mapM (fun p => match Dict.get? B p.1 with
      | none => pure p.2 | some e => g e (some p.2)) A' = Except.ok ms := by
      intro A'
      induction A' with
      | nil => intro _; exact ⟨[], rfl⟩
      | cons p A' ih =>
        intro h
        obtain ⟨b, hb⟩ := h 0 (by simp)
        obtain ⟨bs, hbs⟩ := ih (fun i hi => h (i+1) (by simpa using hi))
        exact ⟨b :: bs, (mapM_ok_cons _ _ _ _).2 ⟨b, bs, hb, hbs, rfl⟩⟩
    obtain ⟨ms, hms⟩ := hex2 A hex
    obtain ⟨hl, hh⟩ := (hmap A ms).1 hms
    refine ⟨ms, hms, ?_⟩
    rw [key out ms hh hl hout, Dict.values_append, hvz A ms hl]
  · rintro ⟨ms, hms, rfl⟩
    obtain ⟨hl, hh⟩ := (hmap A ms).1 hms
    have : ∃ out, mfold A (B.map (fun p => (p.1, g p.2))) = .ok out := by
      rw [mfold_ok_iff hBn]
      intro k f hk
      rw [hBg] at hk
      cases hb : Dict.get? B k with
      | none => rw [hb] at hk; cases hk
      | some e =>
        rw [hb] at hk; cases hk
        by_cases hm : k ∈ Dict.keys A
        · obtain ⟨i, hi, rfl⟩ : ∃ i, ∃ h : i < A.length, (A[i]).1 = k := by
            simp only [Dict.keys, List.mem_map] at hm
            obtain ⟨p, hp, rfl⟩ := hm
            obtain ⟨i, hi, rfl⟩ := List.mem_iff_getElem.1 hp
            exact ⟨i, hi, rfl⟩
          have h1 := hh i hi (by omega)
          rw [hb] at h1
          have hAi : Dict.get? A (A[i]).1 = some (A[i]).2 := Dict.get?_of_mem hA (List.getElem_mem _)
          rw [hAi]; exact ⟨_, h1⟩
        · rw [(Dict.get?_eq_none_iff A k).2 hm]; exact ⟨e, hg e⟩
    obtain ⟨out, hout⟩ := this
    refine ⟨out, hout, ?_⟩
    rw [key out ms hh hl hout, Dict.values_append, hvz A ms hl]

end NJ
