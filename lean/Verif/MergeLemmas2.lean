import Verif.MergeLemmas

/-! Helper lemmas about `merge_list` and failures of `merge_config`. -/

set_option linter.unusedSimpArgs false

namespace NJ

theorem mapExcept_ok {α β} {f : α → β} {x : Except PyErr α} {b : β} :
    x.map f = .ok b ↔ ∃ a, x = .ok a ∧ f a = b := by
  cases x <;> simp [Except.map]

theorem foldl_set_map {κ α} [DecidableEq κ] (ks : List (κ × α)) :
    ks.foldl (fun d p => Dict.set d p.1 p.2) [] = collapse ks := foldl_set_eq_collapse ks

/-- `merge_list` computes the specification on the collapsed lists. -/
theorem mergeList_ok_iff (sh ids) (l1 l2 r : List Val) :
    mergeList sh ids l1 l2 = .ok r ↔
      ∃ a b, keyed sh ids 1 0 l1 = .ok a ∧
        keyedNew sh ids (Dict.values (collapse a)) 2 0 l2 = .ok b ∧
        mergeKeyedSpec (fun e1 e2 => mergeVal sh [] e2 (some e1)) (collapse a) (collapse b) = .ok r := by
  simp only [mergeList, mergeListWith, bind_ok_iff, pure_ok_iff, container1_eq, mapExcept_ok, closures_eq]
  constructor
  · rintro ⟨c1, ⟨a, ha, rfl⟩, c2, hc2, m, hm, rfl⟩
    rw [container2_eq, mapExcept_ok] at hc2
    obtain ⟨b, hb, rfl⟩ := hc2
    rw [foldl_set_map] at hb hm
    refine ⟨a, b, ha, hb, ?_⟩
    rw [foldl_set_map, mergeContainers_eq, collapse_map (fun v => (v, fun e => mergeVal sh [] v e)),
      List.map_map] at hm
    exact (mfold_values (collapse_nodup a) (collapse_nodup b) (fun v e => mergeVal sh [] v e)
      (fun v => mergeVal_none v) _).1 ⟨m, hm, rfl⟩
  · rintro ⟨a, b, ha, hb, hs⟩
    obtain ⟨m, hm, rfl⟩ := (mfold_values (collapse_nodup a) (collapse_nodup b) (fun v e => mergeVal sh [] v e)
      (fun v => mergeVal_none v) _).2 hs
    refine ⟨collapse a, ⟨a, ha, foldl_set_map a⟩,
      (b.map (fun p => (p.1, (p.2, fun e => mergeVal sh [] p.2 e)))).foldl (fun d p => Dict.set d p.1 p.2) [],
      ?_, m, ?_, rfl⟩
    · rw [container2_eq, hb]; rfl
    · rw [foldl_set_map, mergeContainers_eq, collapse_map (fun v => (v, fun e => mergeVal sh [] v e)),
        List.map_map]
      exact hm

/-! ### keys -/

theorem elemHashable_ok {sh ids side i} {el : Val} (h : elemHashable ids el = true) :
    ∃ k, elemKey sh ids side i el = .ok k := by
  unfold elemHashable at h
  unfold elemKey
  cases el <;> try exact ⟨_, rfl⟩
  rename_i d
  simp only at h ⊢
  cases h2 : identValue ids d with
  | none => exact ⟨_, rfl⟩
  | some v =>
    rw [h2] at h
    simp only at h ⊢
    cases h3 : hashKey v with
    | error e => rw [h3] at h; simp [Except.toOption] at h
    | ok k => exact ⟨_, rfl⟩

theorem keyed_ok_of_hashable {sh ids side} {l : List Val} (h : l.all (elemHashable ids) = true) (i : Nat) :
    ∃ a, keyed sh ids side i l = .ok a := by
  induction l generalizing i with
  | nil => exact ⟨[], rfl⟩
  | cons el r ih =>
    simp only [List.all_cons, Bool.and_eq_true] at h
    obtain ⟨k, hk⟩ := elemHashable_ok (sh := sh) (side := side) (i := i) h.1
    obtain ⟨a, ha⟩ := ih h.2 (i + 1)
    exact ⟨(k, el) :: a, by simp [keyed, hk, ha, bind, Except.bind, pure, Except.pure]⟩

theorem keyedNew_ok_of_hashable {sh ids known side} {l : List Val} (h : l.all (elemHashable ids) = true) (i : Nat) :
    ∃ a, keyedNew sh ids known side i l = .ok a := by
  induction l generalizing i with
  | nil => exact ⟨[], rfl⟩
  | cons el r ih =>
    simp only [List.all_cons, Bool.and_eq_true] at h
    obtain ⟨k, hk⟩ := elemHashable_ok (sh := sh) (side := side) (i := i) h.1
    obtain ⟨a, ha⟩ := ih h.2 (i + 1)
    simp only [keyedNew]
    split
    · exact ⟨a, ha⟩
    · exact ⟨(k, el) :: a, by simp [hk, ha, bind, Except.bind, pure, Except.pure]⟩

theorem keyed_cons_ok {sh ids side i el r a} : keyed sh ids side i (el :: r) = .ok a ↔
    ∃ k ks, elemKey sh ids side i el = .ok k ∧ keyed sh ids side (i+1) r = .ok ks ∧ a = (k, el) :: ks := by
  simp only [keyed, bind_ok_iff, pure_ok_iff]
  constructor
  · rintro ⟨k, hk, ks, hks, rfl⟩; exact ⟨k, ks, hk, hks, rfl⟩
  · rintro ⟨k, ks, hk, hks, rfl⟩; exact ⟨k, hk, ks, hks, rfl⟩

theorem keyed_values {sh ids side} {l : List Val} {i : Nat} {a} (h : keyed sh ids side i l = .ok a) :
    Dict.values a = l := by
  induction l generalizing i a with
  | nil => cases h; rfl
  | cons el r ih =>
    obtain ⟨k, ks, _, hks, rfl⟩ := keyed_cons_ok.1 h
    simp [ih hks]

/-- every keyed element got its key at some position -/
theorem keyed_mem {sh ids side} {l : List Val} {i : Nat} {a} (h : keyed sh ids side i l = .ok a)
    {p : LKey × Val} (hp : p ∈ a) : p.2 ∈ l ∧ ∃ j, i ≤ j ∧ elemKey sh ids side j p.2 = .ok p.1 := by
  induction l generalizing i a with
  | nil => cases h; simp at hp
  | cons el r ih =>
    obtain ⟨k, ks, hk, hks, rfl⟩ := keyed_cons_ok.1 h
    rcases List.mem_cons.1 hp with rfl | hp
    · exact ⟨by simp, i, Nat.le_refl _, hk⟩
    · obtain ⟨h1, j, hj, h2⟩ := ih hks hp
      exact ⟨by simp [h1], j, by omega, h2⟩

theorem keyedNew_mem {sh ids known side} {l : List Val} {i : Nat} {a}
    (h : keyedNew sh ids known side i l = .ok a)
    {p : LKey × Val} (hp : p ∈ a) : p.2 ∈ l ∧ known.any (fun x => Val.pyEq p.2 x) = false ∧
      ∃ j, i ≤ j ∧ elemKey sh ids side j p.2 = .ok p.1 := by
  induction l generalizing i a with
  | nil => cases h; simp at hp
  | cons el r ih =>
    simp only [keyedNew] at h
    split at h
    · obtain ⟨h1, h0, j, hj, h2⟩ := ih h hp
      exact ⟨by simp [h1], h0, j, by omega, h2⟩
    · next hn =>
      simp only [bind_ok_iff, pure_ok_iff] at h
      obtain ⟨k, hk, ks, hks, rfl⟩ := h
      rcases List.mem_cons.1 hp with rfl | hp
      · exact ⟨by simp, by simpa using hn, i, Nat.le_refl _, hk⟩
      · obtain ⟨h1, h0, j, hj, h2⟩ := ih hks hp
        exact ⟨by simp [h1], h0, j, by omega, h2⟩

/-- every element of the second list is either known or keyed -/
theorem keyedNew_complete {sh ids known side} {l : List Val} {i : Nat} {a}
    (h : keyedNew sh ids known side i l = .ok a) {e : Val} (he : e ∈ l)
    (hn : known.any (fun x => Val.pyEq e x) = false) : ∃ k, (k, e) ∈ a := by
  induction l generalizing i a with
  | nil => simp at he
  | cons el r ih =>
    simp only [keyedNew] at h
    rcases List.mem_cons.1 he with rfl | he
    · rw [hn] at h
      simp only [Bool.false_eq_true, if_false, bind_ok_iff, pure_ok_iff] at h
      obtain ⟨k, hk, ks, hks, rfl⟩ := h
      exact ⟨k, by simp⟩
    · split at h
      · exact ih h he
      · simp only [bind_ok_iff, pure_ok_iff] at h
        obtain ⟨k, hk, ks, hks, rfl⟩ := h
        obtain ⟨k', hk'⟩ := ih hks he
        exact ⟨k', by simp [hk']⟩

theorem keyed_append {sh ids side} (l m : List Val) (i : Nat) :
    keyed sh ids side i (l ++ m) = (do
      let a ← keyed sh ids side i l
      let b ← keyed sh ids side (i + l.length) m
      pure (a ++ b)) := by
  induction l generalizing i with
  | nil =>
    simp only [List.nil_append, keyed, List.length_nil, Nat.add_zero]
    cases keyed sh ids side i m <;> rfl
  | cons el r ih =>
    simp only [List.cons_append, keyed, ih, List.length_cons]
    have : i + 1 + r.length = i + (r.length + 1) := by omega
    rw [this]
    cases elemKey sh ids side i el with
    | error e => rfl
    | ok k =>
      simp only [bind, Except.bind]
      cases keyed sh ids side (i+1) r with
      | error e => rfl
      | ok ks =>
        cases keyed sh ids side (i + (r.length + 1)) m <;> rfl

/-- which key an element gets -/
theorem elemKey_cases {sh ids side i} {el : Val} {k : LKey} (h : elemKey sh ids side i el = .ok k) :
    (∃ v, identOf ids el = some v ∧ k = .val v ∧ el.isDict = true) ∨
    (identOf ids el = none ∧ sh el = true ∧ k = .obj el) ∨
    (identOf ids el = none ∧ sh el = false ∧ k = .pos side i) := by
  unfold elemKey at h
  have base : (pure (if sh el then LKey.obj el else LKey.pos side i) : Except PyErr LKey) = .ok k →
      identOf ids el = none →
      (∃ v, identOf ids el = some v ∧ k = .val v ∧ el.isDict = true) ∨
      (identOf ids el = none ∧ sh el = true ∧ k = .obj el) ∨
      (identOf ids el = none ∧ sh el = false ∧ k = .pos side i) := by
    intro h hi
    rw [pure_ok_iff] at h
    cases hs : sh el <;> simp [hs] at h
    · exact .inr (.inr ⟨hi, rfl, h.symm⟩)
    · exact .inr (.inl ⟨hi, rfl, h.symm⟩)
  cases el with
  | dict d =>
    simp only at h
    cases h2 : identValue ids d with
    | none => rw [h2] at h; exact base h (by simp [identOf, h2])
    | some v =>
      rw [h2] at h
      simp only [bind_ok_iff, pure_ok_iff] at h
      obtain ⟨kk, hkk, rfl⟩ := h
      exact .inl ⟨kk, by simp [identOf, h2, hkk, Except.toOption], rfl, rfl⟩
  | none => exact base h rfl
  | bool b => exact base h rfl
  | int b => exact base h rfl
  | str b => exact base h rfl
  | list b => exact base h rfl

theorem nodup_of_distinct {sh ids side} {l : List Val} (hd : Distinct sh ids l) {i : Nat} {a}
    (h : keyed sh ids side i l = .ok a) : (Dict.keys a).Nodup := by
  induction l generalizing i a with
  | nil => cases h; simp
  | cons el r ih =>
    obtain ⟨k, ks, hk, hks, rfl⟩ := keyed_cons_ok.1 h
    rw [Distinct, List.pairwise_cons] at hd
    simp only [Dict.keys_cons, List.nodup_cons]
    refine ⟨?_, ih hd.2 hks⟩
    intro hm
    simp only [Dict.keys, List.mem_map] at hm
    obtain ⟨p, hp, hpk⟩ := hm
    obtain ⟨hpr, j, hj, hpj⟩ := keyed_mem hks hp
    rw [hpk] at hpj
    obtain ⟨hd1, hd2⟩ := hd.1 _ hpr
    rcases elemKey_cases hk with ⟨v, hv, rfl, _⟩ | ⟨hv, hs, rfl⟩ | ⟨hv, hs, rfl⟩
    · rcases elemKey_cases hpj with ⟨v', hv', e, _⟩ | ⟨_, _, e⟩ | ⟨_, _, e⟩
      · cases e; exact hd1 v hv hv'
      · cases e
      · cases e
    · rcases elemKey_cases hpj with ⟨v', hv', e, _⟩ | ⟨_, _, e⟩ | ⟨_, _, e⟩
      · cases e
      · injection e with e; exact hd2 hs e
      · cases e
    · rcases elemKey_cases hpj with ⟨v', hv', e, _⟩ | ⟨_, _, e⟩ | ⟨_, _, e⟩
      · cases e
      · cases e
      · cases e; omega

theorem keyedNew_keys_nodup {sh ids known side} {l : List Val} (hd : Distinct sh ids l) {i : Nat} {a}
    (h : keyedNew sh ids known side i l = .ok a) : (Dict.keys a).Nodup := by
  induction l generalizing i a with
  | nil => cases h; simp
  | cons el r ih =>
    rw [Distinct, List.pairwise_cons] at hd
    simp only [keyedNew] at h
    split at h
    · exact ih hd.2 h
    · simp only [bind_ok_iff, pure_ok_iff] at h
      obtain ⟨k, hk, ks, hks, rfl⟩ := h
      simp only [Dict.keys_cons, List.nodup_cons]
      refine ⟨?_, ih hd.2 hks⟩
      intro hm
      simp only [Dict.keys, List.mem_map] at hm
      obtain ⟨p, hp, hpk⟩ := hm
      obtain ⟨hpr, _, j, hj, hpj⟩ := keyedNew_mem hks hp
      rw [hpk] at hpj
      obtain ⟨hd1, hd2⟩ := hd.1 _ hpr
      rcases elemKey_cases hk with ⟨v, hv, rfl, _⟩ | ⟨hv, hs, rfl⟩ | ⟨hv, hs, rfl⟩
      · rcases elemKey_cases hpj with ⟨v', hv', e, _⟩ | ⟨_, _, e⟩ | ⟨_, _, e⟩
        · cases e; exact hd1 v hv hv'
        · cases e
        · cases e
      · rcases elemKey_cases hpj with ⟨v', hv', e, _⟩ | ⟨_, _, e⟩ | ⟨_, _, e⟩
        · cases e
        · injection e with e; exact hd2 hs e
        · cases e
      · rcases elemKey_cases hpj with ⟨v', hv', e, _⟩ | ⟨_, _, e⟩ | ⟨_, _, e⟩
        · cases e
        · cases e
        · cases e; omega

/-- the result of `keyedNew` does not depend on the known elements beyond membership tests -/
theorem keyedNew_nil_of_all {sh ids known side} {l : List Val} {i : Nat}
    (h : ∀ e ∈ l, known.any (fun x => Val.pyEq e x) = true) :
    keyedNew sh ids known side i l = .ok [] := by
  induction l generalizing i with
  | nil => rfl
  | cons el r ih =>
    simp only [keyedNew, h el (by simp), if_true]
    exact ih (fun e he => h e (by simp [he]))

/-! ### failures -/

theorem mfold_error {κ α} [DecidableEq κ] {c : Upd κ α} (hc : (Dict.keys c).Nodup) {acc : Dict κ α} {e : PyErr}
    (h : mfold acc c = .error e) : ∃ k f, Dict.get? c k = some f ∧ f (Dict.get? acc k) = .error e := by
  induction c generalizing acc with
  | nil => cases h
  | cons p r ih =>
    obtain ⟨k', f⟩ := p
    simp only [Dict.keys_cons, List.nodup_cons] at hc
    simp only [mfold] at h
    cases hf : f (Dict.get? acc k') with
    | error e' =>
      rw [hf] at h; cases h
      exact ⟨k', f, by simp, hf⟩
    | ok x =>
      rw [hf] at h
      obtain ⟨k, g, hg, he⟩ := ih hc.2 (acc := Dict.set acc k' x) h
      have hne : k' ≠ k := by
        rintro rfl
        exact hc.1 ((Dict.get?_isSome_iff r _).1 (by simp [hg]))
      rw [Dict.get?_set_ne _ _ hne] at he
      exact ⟨k, g, by rw [Dict.get?_cons, if_neg hne]; exact hg, he⟩

theorem hashableD_get? {ids} {d : VDict} (h : hashableD ids d = true) {k v} (hk : Dict.get? d k = some v) :
    hashable ids v = true := by
  induction d with
  | nil => simp at hk
  | cons p r ih =>
    obtain ⟨k', w⟩ := p
    simp only [hashableD, Bool.and_eq_true] at h
    rw [Dict.get?_cons] at hk
    split at hk
    · cases hk; exact h.1
    · exact ih h.2 hk

theorem identValue_nil (d : VDict) : identValue [] d = none := rfl

theorem elemHashable_nil (v : Val) : elemHashable [] v = true := by
  cases v <;> rfl

theorem hashable_nil (v : Val) : hashable [] v = true := by
  induction v using Val.induct with
  | hn => rfl
  | hb => rfl
  | hi => rfl
  | hs => rfl
  | hl l _ => simp [hashable, elemHashable_nil]
  | hd d ih =>
    simp only [hashable]
    induction d with
    | nil => rfl
    | cons p r ih2 =>
      obtain ⟨k, v⟩ := p
      simp only [hashableD, Bool.and_eq_true]
      exact ⟨ih (k, v) (by simp), ih2 (fun q hq => ih q (by simp [hq]))⟩

/-- with hashable identifiers: success, or the validation error because of a conflict -/
theorem mergeVal_total {sh} (c : Val) (hw : c.WF) (ids : List String) (t : Val)
    (hc : hashable ids c = true) (ht : hashable ids t = true) :
    ((∃ x, mergeVal sh ids c (some t) = .ok x) ∧ ¬ Conflict sh ids t c) ∨
      (mergeVal sh ids c (some t) = .error .validation ∧ Conflict sh ids t c) := by
  induction c using Val.induct generalizing ids t with
  | hn => left; exact ⟨⟨_, mergeVal_scalar rfl _⟩, fun h => nomatch h⟩
  | hb => left; exact ⟨⟨_, mergeVal_scalar rfl _⟩, fun h => nomatch h⟩
  | hi => left; exact ⟨⟨_, mergeVal_scalar rfl _⟩, fun h => nomatch h⟩
  | hs => left; exact ⟨⟨_, mergeVal_scalar rfl _⟩, fun h => nomatch h⟩
  | hl l ih =>
    cases t with
    | none => left; exact ⟨⟨_, mergeVal_existing_scalar _ rfl⟩, fun h => nomatch h⟩
    | bool => left; exact ⟨⟨_, mergeVal_existing_scalar _ rfl⟩, fun h => nomatch h⟩
    | int => left; exact ⟨⟨_, mergeVal_existing_scalar _ rfl⟩, fun h => nomatch h⟩
    | str => left; exact ⟨⟨_, mergeVal_existing_scalar _ rfl⟩, fun h => nomatch h⟩
    | dict d => right; exact ⟨rfl, .dictList _ _ _⟩
    | list t =>
      cases hw with
      | list _ hw =>
      simp only [hashable] at hc ht
      obtain ⟨a, ha⟩ := keyed_ok_of_hashable (sh := sh) (side := 1) ht 0
      obtain ⟨b, hb⟩ := keyedNew_ok_of_hashable (sh := sh) (known := Dict.values (collapse a)) (side := 2) hc 0
      -- the error of the whole comes from one pair
      have hcomp : mergeVal sh ids (.list l) (some (.list t)) =
          (mfold (collapse a) ((collapse b).map (fun p => (p.1, fun e => mergeVal sh [] p.2 e)))) >>=
            (fun m => pure (.list (Dict.values m))) := by
        simp only [mergeVal, mergeListWith, closures_eq]
        rw [container1_eq, ha]
        simp only [Except.map, foldl_set_map]
        show (container2 sh ids _ 0 [] _ >>= _) >>= _ = _
        rw [container2_eq, hb]
        simp only [Except.map, foldl_set_map]
        rw [collapse_map (fun v => (v, fun e => mergeVal sh [] v e))]
        show (mergeContainers _ _ >>= _) >>= _ = _
        rw [mergeContainers_eq, List.map_map]
        simp only [Function.comp_def]
        cases mfold (collapse a) ((collapse b).map (fun p => (p.1, fun e => mergeVal sh [] p.2 e))) <;> rfl
      have hbn : (Dict.keys ((collapse b).map (fun p => (p.1, fun e => mergeVal sh [] p.2 e)))).Nodup := by
        rw [keys_map_upd (collapse b) (fun _ v e => mergeVal sh [] v e)]; exact collapse_nodup b
      have hbg : ∀ k, Dict.get? ((collapse b).map (fun p => (p.1, fun e => mergeVal sh [] p.2 e))) k
          = (lastWith k b).map (fun v e => mergeVal sh [] v e) := by
        intro k
        rw [get?_map_upd (collapse b) (fun _ v e => mergeVal sh [] v e), collapse_get?]
      have hwf : ∀ k w, lastWith k b = some w → w ∈ l := fun k w h => (keyedNew_mem hb (lastWith_mem h)).1
      rw [hcomp]
      cases hm : mfold (collapse a) ((collapse b).map (fun p => (p.1, fun e => mergeVal sh [] p.2 e))) with
      | ok m =>
        left
        refine ⟨⟨_, rfl⟩, ?_⟩
        intro hcf
        cases hcf with
        | inList _ _ _ a' b' k v w ha' hb' hv hw' hcf =>
          rw [ha] at ha'; cases ha'
          rw [hb] at hb'; cases hb'
          obtain ⟨x, hx, _⟩ := mfold_get?_mem hbn hm (k := k) (f := fun e => mergeVal sh [] w e) (by rw [hbg, hw']; rfl)
          rw [collapse_get?, hv] at hx
          have hwl := hwf k w hw'
          rcases ih w hwl (hw w hwl) [] v (hashable_nil w) (hashable_nil v) with ⟨_, h2⟩ | ⟨h1, _⟩
          · exact h2 hcf
          · rw [h1] at hx; cases hx
      | error e =>
        right
        obtain ⟨k, f, hf, he⟩ := mfold_error hbn hm
        rw [hbg] at hf
        cases hl : lastWith k b with
        | none => rw [hl] at hf; cases hf
        | some w =>
          rw [hl] at hf; cases hf
          simp only at he
          rw [collapse_get?] at he
          cases hv : lastWith k a with
          | none => rw [hv, mergeVal_none] at he; cases he
          | some v =>
            rw [hv] at he
            have hwl := hwf k w hl
            rcases ih w hwl (hw w hwl) [] v (hashable_nil w) (hashable_nil v) with ⟨⟨x, hx⟩, _⟩ | ⟨h1, h2⟩
            · rw [hx] at he; cases he
            · rw [h1] at he; cases he
              exact ⟨rfl, .inList ids t l a b k v w ha hb hv hl h2⟩
  | hd d ih =>
    cases t with
    | none => left; exact ⟨⟨_, mergeVal_existing_scalar _ rfl⟩, fun h => nomatch h⟩
    | bool => left; exact ⟨⟨_, mergeVal_existing_scalar _ rfl⟩, fun h => nomatch h⟩
    | int => left; exact ⟨⟨_, mergeVal_existing_scalar _ rfl⟩, fun h => nomatch h⟩
    | str => left; exact ⟨⟨_, mergeVal_existing_scalar _ rfl⟩, fun h => nomatch h⟩
    | list d => right; exact ⟨rfl, .listDict _ _ _⟩
    | dict t =>
      cases hw with
      | dict _ hn hw =>
      simp only [hashable] at hc ht
      have hcn : (Dict.keys (d.map (fun p => (p.1, fun e => mergeVal sh ids p.2 e)))).Nodup := by
        rw [keys_map_upd d (fun _ v e => mergeVal sh ids v e)]; exact hn
      have hcg : ∀ k, Dict.get? (d.map (fun p => (p.1, fun e => mergeVal sh ids p.2 e))) k
          = (Dict.get? d k).map (fun v e => mergeVal sh ids v e) :=
        fun k => get?_map_upd d (fun _ v e => mergeVal sh ids v e) k
      simp only [mergeVal, mergeKvs_eq]
      cases hm : mfold t (d.map (fun p => (p.1, fun e => mergeVal sh ids p.2 e))) with
      | ok m =>
        left
        refine ⟨⟨_, rfl⟩, ?_⟩
        intro hcf
        cases hcf with
        | inDict _ _ _ k v w hv hw' hcf =>
          obtain ⟨x, hx, _⟩ := mfold_get?_mem hcn hm (k := k) (f := fun e => mergeVal sh ids w e) (by rw [hcg, hw']; rfl)
          rw [hv] at hx
          have hmem := Dict.mem_of_get? hw'
          rcases ih _ hmem (hw _ hmem) ids v (hashableD_get? hc hw') (hashableD_get? ht hv) with ⟨_, h2⟩ | ⟨h1, _⟩
          · exact h2 hcf
          · rw [h1] at hx; cases hx
      | error e =>
        right
        obtain ⟨k, f, hf, he⟩ := mfold_error hcn hm
        rw [hcg] at hf
        cases hl : Dict.get? d k with
        | none => rw [hl] at hf; cases hf
        | some w =>
          rw [hl] at hf; cases hf
          simp only at he
          cases hv : Dict.get? t k with
          | none => rw [hv, mergeVal_none] at he; cases he
          | some v =>
            rw [hv] at he
            have hmem := Dict.mem_of_get? hl
            rcases ih _ hmem (hw _ hmem) ids v (hashableD_get? hc hl) (hashableD_get? ht hv) with ⟨⟨x, hx⟩, _⟩ | ⟨h1, h2⟩
            · rw [hx] at he; cases he
            · rw [h1] at he; cases he
              exact ⟨rfl, .inDict ids t d k v w hv hl h2⟩

end NJ
