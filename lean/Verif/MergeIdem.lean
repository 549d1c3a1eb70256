import Verif.MergeLemmas2

/-! Idempotence of `merge_config` (helper lemmas). -/

set_option linter.unusedSimpArgs false

namespace NJ

theorem nodup_subset_length {α} [DecidableEq α] {xs ys : List α} (h : xs.Nodup) (hs : ∀ x ∈ xs, x ∈ ys) :
    xs.length ≤ ys.length := by
  induction xs generalizing ys with
  | nil => simp
  | cons x xs ih =>
    rw [List.nodup_cons] at h
    have hx := hs x (by simp)
    have := ih (ys := ys.erase x) h.2 (by
      intro y hy
      have hne : y ≠ x := by rintro rfl; exact h.1 hy
      exact (List.mem_erase_of_ne hne).2 (hs y (by simp [hy])))
    have h2 := List.length_erase_of_mem hx
    have h3 : 0 < ys.length := List.length_pos_of_mem hx
    simp only [List.length_cons]
    omega

theorem pyEqD_get? {a b : VDict} (h : Val.pyEqD a b = true) {k v} (hk : Dict.get? a k = some v) :
    ∃ w, Dict.get? b k = some w ∧ Val.pyEq v w = true := by
  induction a with
  | nil => simp at hk
  | cons p r ih =>
    obtain ⟨k', v'⟩ := p
    simp only [Val.pyEqD, Bool.and_eq_true] at h
    rw [Dict.get?_cons] at hk
    split at hk
    · next e =>
      subst e; cases hk
      cases hb : Dict.get? b k' with
      | none => rw [hb] at h; simp at h
      | some w => rw [hb] at h; exact ⟨w, rfl, h.1⟩
    · exact ih h.2 hk

/-- equal dicts have the same keys -/
theorem pyEq_dict_none {a b : VDict} (ha : (Dict.keys a).Nodup) (h : Val.pyEq (.dict a) (.dict b) = true)
    {k} (hk : Dict.get? a k = none) : Dict.get? b k = none := by
  simp only [Val.pyEq, Bool.and_eq_true, beq_iff_eq] at h
  rw [Dict.get?_eq_none_iff] at hk ⊢
  intro hkb
  have : (k :: Dict.keys a).length ≤ (Dict.keys b).length := by
    apply nodup_subset_length (List.nodup_cons.2 ⟨hk, ha⟩)
    intro x hx
    rcases List.mem_cons.1 hx with rfl | hx
    · exact hkb
    · obtain ⟨v, hv⟩ := Option.isSome_iff_exists.1 ((Dict.get?_isSome_iff a x).2 hx)
      obtain ⟨w, hw, _⟩ := pyEqD_get? h.2 hv
      exact (Dict.get?_isSome_iff b x).1 (by simp [hw])
  simp [Dict.keys] at this
  omega

theorem scalarKey_congr {v w : Val} (h : Val.pyEq v w = true) : scalarKey v = scalarKey w := by
  cases v <;> cases w <;> simp [Val.pyEq] at h <;> simp [scalarKey, h]

theorem scalarKeys_congr {v w : List Val} (h : Val.pyEqL v w = true) : scalarKeys v = scalarKeys w := by
  induction v generalizing w with
  | nil => cases w <;> simp [Val.pyEqL] at h; rfl
  | cons a as ih =>
    cases w with
    | nil => simp [Val.pyEqL] at h
    | cons b bs =>
      simp only [Val.pyEqL, Bool.and_eq_true] at h
      simp only [scalarKeys, scalarKey_congr h.1, ih h.2]

theorem hashKey_congr {v w : Val} (h : Val.pyEq v w = true) : hashKey v = hashKey w := by
  cases v <;> cases w <;> try (simp [Val.pyEq] at h; done)
  all_goals first
    | (simp only [hashKey]; exact scalarKey_congr h)
    | (simp only [Val.pyEq] at h; simp only [hashKey, scalarKeys_congr h])
    | rfl

theorem identOf_congr {ids} {a b : Val} (ha : a.WF) (h : Val.pyEq a b = true) : identOf ids a = identOf ids b := by
  cases a <;> cases b <;> try (simp [Val.pyEq] at h; done)
  all_goals try rfl
  rename_i a b
  cases ha with
  | dict _ hn _ =>
  simp only [identOf]
  induction ids with
  | nil => rfl
  | cons i r ih =>
    simp only [identValue]
    cases hk : Dict.get? a i with
    | none => rw [pyEq_dict_none hn h hk]; exact ih
    | some v =>
      have h' := h
      simp only [Val.pyEq, Bool.and_eq_true] at h'
      obtain ⟨w, hw, hp⟩ := pyEqD_get? h'.2 hk
      rw [hw]; simp only [hashKey_congr hp]

/-- the merge of two dicts with the same (scalar) identifier keeps that identifier -/
theorem identOf_merge {sh ids} {d1 d2 m : VDict} (h2w : (Dict.keys d2).Nodup) {k : Val} (hk : k.isScalar = true)
    (h1 : identOf ids (.dict d1) = some k) (h2 : identOf ids (.dict d2) = some k)
    (hm : mergeConfig sh [] d1 d2 = .ok m) : identOf ids (.dict m) = some k := by
  have hg : ∀ i v, Dict.get? d2 i = some v → ∃ x, mergeVal sh [] v (Dict.get? d1 i) = .ok x ∧ Dict.get? m i = some x :=
    fun i v h => mergeKvs_get?_mem h2w hm h
  have hg' : ∀ i, Dict.get? d2 i = none → Dict.get? m i = Dict.get? d1 i :=
    fun i h => mergeKvs_get?_not_mem hm ((Dict.get?_eq_none_iff _ _).1 h)
  simp only [identOf] at h1 h2 ⊢
  induction ids with
  | nil => simp [identValue] at h1
  | cons i r ih =>
    simp only [identValue] at h1 h2 ⊢
    cases e2 : Dict.get? d2 i with
    | none =>
      rw [hg' i e2]
      rw [e2] at h2
      cases e1 : Dict.get? d1 i with
      | none => rw [e1] at h1; exact ih h1 h2
      | some v => rw [e1] at h1; exact h1
    | some v =>
      rw [e2] at h2
      simp only at h2
      obtain ⟨x, hx, hmx⟩ := hg i v e2
      rw [hmx]
      -- v is a scalar, because its hash key is
      have hv : v.isScalar = true := by
        cases v with
        | list l =>
          simp only [hashKey] at h2
          cases hs : scalarKeys l with
          | error e => rw [hs] at h2; simp [bind, Except.bind, Except.toOption] at h2
          | ok ks =>
            rw [hs] at h2
            simp [bind, Except.bind, Except.toOption, pure, Except.pure] at h2
            subst h2; cases hk
        | dict d => simp [hashKey, scalarKey, Except.toOption] at h2
        | _ => rfl
      rw [mergeVal_scalar hv] at hx
      cases hx
      exact h2

/-- one pair of equal keys is always a pair of identified dicts -/
theorem same_key_dicts {sh ids} {l1 l2 : List Val} (hw : ∀ v ∈ l1, v.WF) {a b}
    (ha : keyed sh ids 1 0 l1 = .ok a) (hb : keyedNew sh ids (Dict.values (collapse a)) 2 0 l2 = .ok b)
    {k : LKey} {e1 e2 : Val} (h1 : lastWith k a = some e1) (h2 : (k, e2) ∈ b) :
    ∃ v d1 d2, k = .val v ∧ e1 = .dict d1 ∧ e2 = .dict d2 ∧ identOf ids e1 = some v ∧ identOf ids e2 = some v := by
  obtain ⟨hm1, j1, _, hk1⟩ := keyed_mem ha (lastWith_mem h1)
  obtain ⟨hm2, hn2, j2, _, hk2⟩ := keyedNew_mem hb h2
  simp only at hm1 hk1 hm2 hn2 hk2
  rcases elemKey_cases hk1 with ⟨v, hv, e, hd1⟩ | ⟨hv, hs, e⟩ | ⟨hv, hs, e⟩
  · rcases elemKey_cases hk2 with ⟨v', hv', e', hd2⟩ | ⟨_, _, e'⟩ | ⟨_, _, e'⟩
    · rw [e] at e'; cases e'
      cases e1 <;> simp [Val.isDict] at hd1
      cases e2 <;> simp [Val.isDict] at hd2
      exact ⟨v, _, _, e, rfl, rfl, hv, hv'⟩
    · rw [e] at e'; cases e'
    · rw [e] at e'; cases e'
  · rcases elemKey_cases hk2 with ⟨v', hv', e', _⟩ | ⟨_, _, e'⟩ | ⟨_, _, e'⟩
    · rw [e] at e'; cases e'
    · rw [e] at e'; injection e' with e'
      subst e'
      exfalso
      have hin : e1 ∈ Dict.values (collapse a) := by
        have := Dict.mem_of_get? ((collapse_get? a k).trans h1)
        exact List.mem_map.2 ⟨_, this, rfl⟩
      have : (Dict.values (collapse a)).any (fun x => Val.pyEq e1 x) = true :=
        List.any_eq_true.2 ⟨e1, hin, Val.pyEq_refl (hw _ hm1)⟩
      rw [this] at hn2; cases hn2
    · rw [e] at e'; cases e'
  · rcases elemKey_cases hk2 with ⟨v', hv', e', _⟩ | ⟨_, _, e'⟩ | ⟨_, _, e'⟩
    · rw [e] at e'; cases e'
    · rw [e] at e'; cases e'
    · rw [e] at e'; cases e'

/-- `merge_list` returns the values of a dictionary whose keys are distinct (general form with the dictionary exposed) -/
theorem mergeList_dict {sh ids l1 l2 r} (h : mergeList sh ids l1 l2 = .ok r) :
    ∃ a b out, keyed sh ids 1 0 l1 = .ok a ∧
      keyedNew sh ids (Dict.values (collapse a)) 2 0 l2 = .ok b ∧
      mfold (collapse a) ((collapse b).map (fun p => (p.1, fun e => mergeVal sh [] p.2 e))) = .ok out ∧
      Dict.values out = r := by
  obtain ⟨a, b, ha, hb, hs⟩ := (mergeList_ok_iff sh ids l1 l2 r).1 h
  obtain ⟨m, hm, rfl⟩ := (mfold_values (collapse_nodup a) (collapse_nodup b) (fun v e => mergeVal sh [] v e)
      (fun v => mergeVal_none v) _).2 hs
  exact ⟨a, b, m, ha, hb, hm, rfl⟩

/-- merging a list with a list all of whose elements are already there changes nothing -/
theorem mergeList_of_known {sh ids} {l1 l2 : List Val} (hd : Distinct sh ids l1)
    (hh : l1.all (elemHashable ids) = true)
    (hk : ∀ e ∈ l2, l1.any (fun x => Val.pyEq e x) = true) : mergeList sh ids l1 l2 = .ok l1 := by
  obtain ⟨a, ha⟩ := keyed_ok_of_hashable (sh := sh) (side := 1) hh 0
  have hn := nodup_of_distinct hd ha
  have hc := collapse_of_nodup hn
  have hv := keyed_values ha
  rw [mergeList_ok_iff]
  refine ⟨a, [], ha, ?_, ?_⟩
  · rw [hc, hv]; exact keyedNew_nil_of_all hk
  · rw [hc]
    unfold mergeKeyedSpec
    have : List.mapM (fun p => match Dict.get? (collapse ([] : List (LKey × Val))) p.1 with
      | none => (pure p.2 : Except PyErr Val) | some e => mergeVal sh [] e (some p.2)) a = .ok (Dict.values a) := by
      clear ha hn hc hv
      induction a with
      | nil => rfl
      | cons p r ih =>
        rw [mapM_ok_cons]
        exact ⟨p.2, Dict.values r, rfl, ih, rfl⟩
    rw [bind_ok_iff]
    refine ⟨_, this, ?_⟩
    rw [pure_ok_iff, hv]; simp [collapse, Dict.values]

/-- merging a value with itself gives it back -/
theorem mergeVal_self {sh} (c : Val) (hw : c.WF) {ids} (hd : DistinctAll sh ids c) :
    mergeVal sh ids c (some c) = .ok c := by
  induction c using Val.induct generalizing ids with
  | hn => exact mergeVal_scalar rfl _
  | hb => exact mergeVal_scalar rfl _
  | hi => exact mergeVal_scalar rfl _
  | hs => exact mergeVal_scalar rfl _
  | hl l _ =>
    cases hw with
    | list _ hw =>
    cases hd with
    | list _ _ hd hh _ _ =>
    rw [mergeVal_list_list]
    refine ⟨l, mergeList_of_known hd hh ?_, rfl⟩
    intro e he
    exact List.any_eq_true.2 ⟨e, he, Val.pyEq_refl (hw e he)⟩
  | hd d ih =>
    cases hw with
    | dict _ hn hw =>
    cases hd with
    | dict _ _ hd =>
    rw [mergeVal_dict_dict]
    have hok : ∃ out, mergeKvs sh ids d d = .ok out := by
      rw [mergeKvs_ok_iff hn]
      intro k v hk
      rw [hk]
      have hm := Dict.mem_of_get? hk
      exact ⟨v, ih _ hm (hw _ hm) (hd _ hm)⟩
    obtain ⟨out, ho⟩ := hok
    refine ⟨d, ?_, rfl⟩
    have : out = d := by
      apply dict_ext (mergeKvs_nodup hn ho)
      · rw [mergeKvs_keys hn ho]
        have : (Dict.keys d).filter (fun k => decide (k ∉ Dict.keys d)) = [] := by
          rw [List.filter_eq_nil_iff]; intro k hk; simp [hk]
        rw [this, List.append_nil]
      · intro k
        cases hk : Dict.get? d k with
        | none => rw [mergeKvs_get?_not_mem ho ((Dict.get?_eq_none_iff _ _).1 hk), hk]
        | some v =>
          obtain ⟨x, hx, hg⟩ := mergeKvs_get?_mem hn ho hk
          have hm := Dict.mem_of_get? hk
          rw [hk, ih _ hm (hw _ hm) (hd _ hm)] at hx
          cases hx; exact hg
    rw [mergeConfig, ho, this]

/-- pairwise from distinct keys -/
theorem distinct_of_keys {sh ids} {out : Dict LKey Val} (hn : (Dict.keys out).Nodup)
    (hk : ∀ p ∈ out, (∀ k, identOf ids p.2 = some k → p.1 = .val k) ∧
      (identOf ids p.2 = none → sh p.2 = true → p.1 = .obj p.2)) :
    Distinct sh ids (Dict.values out) := by
  induction out with
  | nil => exact List.Pairwise.nil
  | cons p r ih =>
    obtain ⟨k, v⟩ := p
    simp only [Dict.keys_cons, List.nodup_cons] at hn
    rw [Dict.values_cons, Distinct, List.pairwise_cons]
    refine ⟨?_, ih hn.2 (fun q hq => hk q (by simp [hq]))⟩
    intro w hw
    simp only [Dict.values, List.mem_map] at hw
    obtain ⟨q, hq, rfl⟩ := hw
    have h1 := hk (k, v) (by simp)
    have h2 := hk q (by simp [hq])
    have hne : k ≠ q.1 := by
      rintro rfl
      exact hn.1 (List.mem_map.2 ⟨q, hq, rfl⟩)
    constructor
    · intro j hj hj'
      exact hne ((h1.1 j hj).trans (h2.1 j hj').symm)
    · intro hs e
      subst e
      cases hi : identOf ids q.2 with
      | none => exact hne ((h1.2 hi hs).trans (h2.2 hi hs).symm)
      | some j => exact hne ((h1.1 j hi).trans (h2.1 j hi).symm)

theorem key_facts {sh ids side i} {el : Val} {k : LKey} (h : elemKey sh ids side i el = .ok k) :
    (∀ v, identOf ids el = some v → k = .val v) ∧ (identOf ids el = none → sh el = true → k = .obj el) := by
  rcases elemKey_cases h with ⟨v, hv, e, _⟩ | ⟨hv, hs, e⟩ | ⟨hv, hs, e⟩
  · constructor
    · intro v' hv'; rw [hv] at hv'; cases hv'; exact e
    · intro hn; rw [hv] at hn; cases hn
  · constructor
    · intro v' hv'; rw [hv] at hv'; cases hv'
    · intro _ _; exact e
  · constructor
    · intro v' hv'; rw [hv] at hv'; cases hv'
    · intro _ hs'; rw [hs] at hs'; cases hs'

theorem elemHashable_of_key {sh ids side i} {el : Val} {k : LKey} (h : elemKey sh ids side i el = .ok k) :
    elemHashable ids el = true := by
  unfold elemKey at h
  unfold elemHashable
  cases el <;> try rfl
  rename_i d
  simp only at h ⊢
  cases h2 : identValue ids d with
  | none => rfl
  | some v =>
    rw [h2] at h
    simp only [bind_ok_iff] at h
    obtain ⟨kk, hkk, _⟩ := h
    simp [hkk, Except.toOption]

theorem elemHashable_of_ident {ids} {el : Val} {k : Val} (h : identOf ids el = some k) :
    elemHashable ids el = true := by
  cases el <;> try rfl
  rename_i d
  simp only [identOf] at h
  simp only [elemHashable]
  cases h2 : identValue ids d with
  | none => rfl
  | some v => rw [h2] at h; simp only at h ⊢; simp [h]

/-- Main lemma: merging a second time changes nothing. -/
theorem mergeVal_idem {sh} (c : Val) (hw : c.WF) {ids} (hd : DistinctAll sh ids c) (t x : Val) (ht : t.WF)
    (h : mergeVal sh ids c (some t) = .ok x) : mergeVal sh ids c (some x) = .ok x := by
  induction c using Val.induct generalizing ids t x with
  | hn => rw [mergeVal_scalar rfl] at h; cases h; exact mergeVal_scalar rfl _
  | hb => rw [mergeVal_scalar rfl] at h; cases h; exact mergeVal_scalar rfl _
  | hi => rw [mergeVal_scalar rfl] at h; cases h; exact mergeVal_scalar rfl _
  | hs => rw [mergeVal_scalar rfl] at h; cases h; exact mergeVal_scalar rfl _
  | hl l ih =>
    cases t with
    | none => rw [mergeVal_existing_scalar _ rfl] at h; cases h; exact mergeVal_self _ hw hd
    | bool => rw [mergeVal_existing_scalar _ rfl] at h; cases h; exact mergeVal_self _ hw hd
    | int => rw [mergeVal_existing_scalar _ rfl] at h; cases h; exact mergeVal_self _ hw hd
    | str => rw [mergeVal_existing_scalar _ rfl] at h; cases h; exact mergeVal_self _ hw hd
    | dict _ => simp [mergeVal] at h
    | list t =>
      obtain ⟨r, hr, rfl⟩ := (mergeVal_list_list _ _ _).1 h
      rw [mergeVal_list_list]
      refine ⟨r, ?_, rfl⟩
      cases hw with
      | list _ hw =>
      cases ht with
      | list _ ht =>
      cases hd with
      | list _ _ hd hh hsc hda =>
      obtain ⟨a, b, out, ha, hb, hout, rfl⟩ := mergeList_dict hr
      have hbn : (Dict.keys b).Nodup := keyedNew_keys_nodup hd hb
      have hbc : collapse b = b := collapse_of_nodup hbn
      rw [hbc] at hout
      have hbn' : (Dict.keys (b.map (fun p => (p.1, fun e => mergeVal sh [] p.2 e)))).Nodup := by
        rw [keys_map_upd b (fun _ v e => mergeVal sh [] v e)]; exact hbn
      have hbg : ∀ k, Dict.get? (b.map (fun p => (p.1, fun e => mergeVal sh [] p.2 e))) k
          = (Dict.get? b k).map (fun v e => mergeVal sh [] v e) :=
        fun k => get?_map_upd b (fun _ v e => mergeVal sh [] v e) k
      have hon := mfold_nodup (collapse_nodup a) hout
      -- what is stored under each key of the result
      have hstored : ∀ k x, Dict.get? out k = some x →
          (∃ e1, lastWith k a = some e1 ∧ Dict.get? b k = none ∧ x = e1) ∨
          (lastWith k a = none ∧ Dict.get? b k = some x) ∨
          (∃ v d1 d2 m, k = .val v ∧ v.isScalar = true ∧ lastWith k a = some (.dict d1) ∧ Dict.get? b k = some (.dict d2) ∧
            identOf ids (.dict d1) = some v ∧ identOf ids (.dict d2) = some v ∧ mergeConfig sh [] d1 d2 = .ok m ∧ x = .dict m ∧
            identOf ids (.dict m) = some v) := by
        intro k x hx
        cases hbk : Dict.get? b k with
        | none =>
          left
          have := mfold_get?_not_mem hout (k := k) (by
            rw [keys_map_upd b (fun _ v e => mergeVal sh [] v e)]
            exact (Dict.get?_eq_none_iff _ _).1 hbk)
          rw [hx, collapse_get?] at this
          exact ⟨x, this.symm, rfl, rfl⟩
        | some e2 =>
          obtain ⟨y, hy, ho⟩ := mfold_get?_mem hbn' hout (k := k) (f := fun e => mergeVal sh [] e2 e) (by rw [hbg, hbk]; rfl)
          rw [hx] at ho; cases ho
          rw [collapse_get?] at hy
          cases hak : lastWith k a with
          | none => rw [hak, mergeVal_none] at hy; cases hy; right; left; exact ⟨rfl, rfl⟩
          | some e1 =>
            right; right
            rw [hak] at hy
            obtain ⟨v, d1, d2, rfl, rfl, rfl, hi1, hi2⟩ := same_key_dicts ht ha hb hak (Dict.mem_of_get? hbk)
            obtain ⟨m, hm, rfl⟩ := (mergeVal_dict_dict _ _ _).1 hy
            have he2 := (keyedNew_mem hb (Dict.mem_of_get? hbk)).1
            have hvs := hsc _ he2 v hi2
            have hwd := hw _ he2
            cases hwd with
            | dict _ hn2 _ =>
            exact ⟨v, d1, d2, m, rfl, hvs, rfl, rfl, hi1, hi2, hm, rfl, identOf_merge hn2 hvs hi1 hi2 hm⟩
      -- keys of the stored values
      have hkf : ∀ p ∈ out, (∀ k, identOf ids p.2 = some k → p.1 = .val k) ∧
          (identOf ids p.2 = none → sh p.2 = true → p.1 = .obj p.2) := by
        intro p hp
        obtain ⟨k, x⟩ := p
        rcases hstored k x (Dict.get?_of_mem hon hp) with ⟨e1, h1, _, rfl⟩ | ⟨_, h2⟩ | ⟨v, d1, d2, m, rfl, _, _, _, _, _, _, rfl, hi⟩
        · obtain ⟨_, j, _, hj⟩ := keyed_mem ha (lastWith_mem h1)
          exact key_facts hj
        · obtain ⟨_, _, j, _, hj⟩ := keyedNew_mem hb (Dict.mem_of_get? h2)
          exact key_facts hj
        · constructor
          · intro k hk; simp only [hi] at hk; cases hk; rfl
          · intro hn; simp only [hi] at hn; cases hn
      have hdist : Distinct sh ids (Dict.values out) := distinct_of_keys hon hkf
      have hhash : (Dict.values out).all (elemHashable ids) = true := by
        rw [List.all_eq_true]
        intro e he
        simp only [Dict.values, List.mem_map] at he
        obtain ⟨⟨k, x⟩, hp, rfl⟩ := he
        rcases hstored k x (Dict.get?_of_mem hon hp) with ⟨e1, h1, _, rfl⟩ | ⟨_, h2⟩ | ⟨v, d1, d2, m, rfl, _, _, _, _, _, _, rfl, hi⟩
        · obtain ⟨_, j, _, hj⟩ := keyed_mem ha (lastWith_mem h1)
          exact elemHashable_of_key hj
        · obtain ⟨_, _, j, _, hj⟩ := keyedNew_mem hb (Dict.mem_of_get? h2)
          exact elemHashable_of_key hj
        · exact elemHashable_of_ident hi
      -- second merge
      obtain ⟨a', ha'⟩ := keyed_ok_of_hashable (sh := sh) (side := 1) hhash 0
      have han' := nodup_of_distinct hdist ha'
      have hac' := collapse_of_nodup han'
      have hav' := keyed_values ha'
      obtain ⟨b', hb'⟩ := keyedNew_ok_of_hashable (sh := sh) (known := Dict.values (collapse a')) (side := 2) hh 0
      have hbn2 : (Dict.keys b').Nodup := keyedNew_keys_nodup hd hb'
      have hbc2 : collapse b' = b' := collapse_of_nodup hbn2
      -- every remaining element of the config list finds its merged self
      have hfind : ∀ k e2, (k, e2) ∈ b' → ∃ m, Dict.get? a' k = some m ∧ mergeVal sh [] e2 (some m) = .ok m := by
        intro k e2 hke
        obtain ⟨he2, hnk, j, _, hkj⟩ := keyedNew_mem hb' hke
        simp only at he2 hnk hkj
        rw [hac', hav'] at hnk
        have hnot : ∀ y ∈ Dict.values out, Val.pyEq e2 y = false := by
          intro y hy
          cases hp : Val.pyEq e2 y with
          | false => rfl
          | true =>
            exfalso
            rw [List.any_eq_true.2 ⟨y, hy, hp⟩] at hnk; cases hnk
        have hval : ∀ k y, Dict.get? out k = some y → y ∈ Dict.values out := fun k y hy =>
          List.mem_map.2 ⟨_, Dict.mem_of_get? hy, rfl⟩
        by_cases hknown : (Dict.values (collapse a)).any (fun x => Val.pyEq e2 x) = true
        · -- it was skipped in the first merge: impossible
          exfalso
          obtain ⟨e1, he1, hp⟩ := List.any_eq_true.1 hknown
          simp only [Dict.values, List.mem_map] at he1
          obtain ⟨⟨k1, e1'⟩, hm1, rfl⟩ := he1
          simp only at hp
          have hg1 := Dict.get?_of_mem (collapse_nodup a) hm1
          rw [collapse_get?] at hg1
          cases hbk : Dict.get? b k1 with
          | none =>
            have := mfold_get?_not_mem hout (k := k1) (by
              rw [keys_map_upd b (fun _ v e => mergeVal sh [] v e)]
              exact (Dict.get?_eq_none_iff _ _).1 hbk)
            rw [collapse_get?, hg1] at this
            rw [hnot _ (hval _ _ this)] at hp; cases hp
          | some e2' =>
            have hmem' := Dict.mem_of_get? hbk
            obtain ⟨v, d1, d2, rfl, rfl, rfl, hi1, hi2⟩ := same_key_dicts ht ha hb hg1 hmem'
            obtain ⟨he2', hn2', _⟩ := keyedNew_mem hb hmem'
            simp only at he2' hn2'
            have hi : identOf ids e2 = some v := by rw [identOf_congr (hw _ he2) hp]; exact hi1
            have hne : e2 ≠ .dict d2 := by
              rintro rfl
              rw [hknown] at hn2'; cases hn2'
            -- two different elements of the config list with the same identifier
            have : ∀ (l : List Val), Distinct sh ids l → e2 ∈ l → Val.dict d2 ∈ l → False := by
              intro l hl h1 h2
              induction l with
              | nil => simp at h1
              | cons y ys ihy =>
                rw [Distinct, List.pairwise_cons] at hl
                rcases List.mem_cons.1 h1 with g1 | g1
                · subst g1
                  rcases List.mem_cons.1 h2 with g2 | g2
                  · exact hne g2.symm
                  · exact (hl.1 _ g2).1 v hi hi2
                · rcases List.mem_cons.1 h2 with g2 | g2
                  · subst g2; exact (hl.1 _ g1).1 v hi2 hi
                  · exact ihy hl.2 g1 g2
            exact this l hd he2 he2'
        · have hknown : (Dict.values (collapse a)).any (fun x => Val.pyEq e2 x) = false := by
            simpa using hknown
          obtain ⟨k0, hk0⟩ := keyedNew_complete hb he2 hknown
          have hbk := Dict.get?_of_mem hbn hk0
          have hsome : ∃ y, Dict.get? out k0 = some y := by
            obtain ⟨y, _, ho⟩ := mfold_get?_mem hbn' hout (k := k0) (f := fun e => mergeVal sh [] e2 e) (by rw [hbg, hbk]; rfl)
            exact ⟨y, ho⟩
          obtain ⟨y, hy⟩ := hsome
          rcases hstored k0 y hy with ⟨_, _, hb0, _⟩ | ⟨_, hb0⟩ | ⟨v, d1, d2, m, rfl, _, hak, hb0, hi1, hi2, hm, rfl, hi⟩
          · rw [hbk] at hb0; cases hb0
          · rw [hbk] at hb0; cases hb0
            have := hnot _ (hval _ _ hy)
            rw [Val.pyEq_refl (hw _ he2)] at this; cases this
          · rw [hbk] at hb0; cases hb0
            have hkv : k = .val v := (key_facts hkj).1 v hi2
            subst hkv
            have hmr := hval _ _ hy
            rw [← hav'] at hmr
            simp only [Dict.values, List.mem_map] at hmr
            obtain ⟨⟨k', m'⟩, hm', e⟩ := hmr
            simp only at e
            subst e
            obtain ⟨_, j', _, hj'⟩ := keyed_mem ha' hm'
            have : k' = .val v := (key_facts hj').1 v hi
            subst this
            refine ⟨.dict m, Dict.get?_of_mem han' hm', ?_⟩
            have hd1w : (Val.dict d1).WF := ht _ (keyed_mem ha (lastWith_mem hak)).1
            exact ih _ he2 (hw _ he2) (hda _ he2) (.dict d1) (.dict m) hd1w
              ((mergeVal_dict_dict _ _ _).2 ⟨m, hm, rfl⟩)
      rw [mergeList_ok_iff]
      refine ⟨a', b', ha', hb', ?_⟩
      rw [hac', hbc2]
      unfold mergeKeyedSpec
      have hmap : List.mapM (fun p => match Dict.get? b' p.1 with
          | none => (pure p.2 : Except PyErr Val) | some e => mergeVal sh [] e (some p.2)) a' = .ok (Dict.values a') := by
        have : ∀ a'' : Dict LKey Val, (∀ p ∈ a'', p ∈ a') → List.mapM (fun p => match Dict.get? b' p.1 with
          | none => (pure p.2 : Except PyErr Val) | some e => mergeVal sh [] e (some p.2)) a'' = .ok (Dict.values a'') := by
          intro a'' hsub
          induction a'' with
          | nil => rfl
          | cons p r ih2 =>
            rw [mapM_ok_cons]
            refine ⟨p.2, Dict.values r, ?_, ih2 (fun q hq => hsub q (by simp [hq])), rfl⟩
            cases hbk : Dict.get? b' p.1 with
            | none => rfl
            | some e2 =>
              obtain ⟨m, hm, hmm⟩ := hfind p.1 e2 (Dict.mem_of_get? hbk)
              have := Dict.get?_of_mem han' (hsub p (by simp) : (p.1, p.2) ∈ a')
              rw [this] at hm; cases hm
              exact hmm
        exact this a' (fun _ h => h)
      rw [bind_ok_iff]
      refine ⟨_, hmap, ?_⟩
      have hrest : b'.filter (fun p => !(Dict.has a' p.1)) = [] := by
        rw [List.filter_eq_nil_iff]
        intro p hp
        obtain ⟨m, hm, _⟩ := hfind p.1 p.2 hp
        simp [Dict.has, hm]
      rw [pure_ok_iff, hrest, hav']; simp [Dict.values]
  | hd d ih =>
    cases t with
    | none => rw [mergeVal_existing_scalar _ rfl] at h; cases h; exact mergeVal_self _ hw hd
    | bool => rw [mergeVal_existing_scalar _ rfl] at h; cases h; exact mergeVal_self _ hw hd
    | int => rw [mergeVal_existing_scalar _ rfl] at h; cases h; exact mergeVal_self _ hw hd
    | str => rw [mergeVal_existing_scalar _ rfl] at h; cases h; exact mergeVal_self _ hw hd
    | list _ => simp [mergeVal] at h
    | dict t =>
      obtain ⟨m, hm, rfl⟩ := (mergeVal_dict_dict _ _ _).1 h
      rw [mergeVal_dict_dict]
      refine ⟨m, ?_, rfl⟩
      have htw := ht
      cases hw with
      | dict _ hn hw =>
      cases ht with
      | dict _ htn ht =>
      cases hd with
      | dict _ _ hd =>
      have hmn := mergeKvs_nodup htn hm
      have hsecond : ∀ k v, Dict.get? d k = some v → ∃ y, Dict.get? m k = some y ∧ mergeVal sh ids v (some y) = .ok y := by
        intro k v hk
        obtain ⟨y, hy, hg⟩ := mergeKvs_get?_mem hn hm hk
        refine ⟨y, hg, ?_⟩
        have hmem := Dict.mem_of_get? hk
        cases htk : Dict.get? t k with
        | none =>
          rw [htk, mergeVal_none] at hy; cases hy
          exact mergeVal_self _ (hw _ hmem) (hd _ hmem)
        | some w =>
          rw [htk] at hy
          exact ih _ hmem (hw _ hmem) (hd _ hmem) w y (htw.of_get? htk) hy
      have hok : ∃ out, mergeKvs sh ids d m = .ok out := by
        rw [mergeKvs_ok_iff hn]
        intro k v hk
        obtain ⟨y, hy, hz⟩ := hsecond k v hk
        rw [hy]; exact ⟨y, hz⟩
      obtain ⟨out, ho⟩ := hok
      have : out = m := by
        apply dict_ext (mergeKvs_nodup hmn ho)
        · rw [mergeKvs_keys hn ho]
          have : (Dict.keys d).filter (fun k => decide (k ∉ Dict.keys m)) = [] := by
            rw [List.filter_eq_nil_iff]
            intro k hk
            obtain ⟨v, hv⟩ := Option.isSome_iff_exists.1 ((Dict.get?_isSome_iff d k).2 hk)
            obtain ⟨y, hy, _⟩ := hsecond k v hv
            have : k ∈ Dict.keys m := (Dict.get?_isSome_iff m k).1 (by simp [hy])
            simp [this]
          rw [this, List.append_nil]
        · intro k
          cases hk : Dict.get? d k with
          | none => rw [mergeKvs_get?_not_mem ho ((Dict.get?_eq_none_iff _ _).1 hk)]
          | some v =>
            obtain ⟨y, hy, hz⟩ := hsecond k v hk
            obtain ⟨x, hx, hg⟩ := mergeKvs_get?_mem hn ho hk
            rw [hy, hz] at hx; cases hx
            rw [hg, hy]
      rw [mergeConfig, ho, this]

end NJ
