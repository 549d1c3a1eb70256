import Verif.MergeIdem

/-!
# Properties C01–C10, C12: merging configurations and templates

`sh` (which equal values are one and the same object) and `ids` (the list
identifiers of the backend) are arbitrary in every theorem.
-/

set_option linter.unusedSimpArgs false
set_option linter.unusedVariables false

namespace NJ

/-! ## C01 -/

/-- C01: what is found under each key of a merged configuration. -/
theorem C01_merge_config_lookup (sh : Val → Bool) (ids : List String) (template config result : VDict)
    (hc : (Dict.keys config).Nodup)
    (h : mergeConfig sh ids template config = .ok result) (k : String) :
    match Dict.get? template k, Dict.get? config k with
    | none, none => Dict.get? result k = none
    | some t, none => Dict.get? result k = some t
    | none, some c => Dict.get? result k = some c
    | some (.dict t), some (.dict c) =>
        ∃ d, mergeConfig sh ids t c = .ok d ∧ Dict.get? result k = some (.dict d)
    | some (.list t), some (.list c) =>
        ∃ l, mergeList sh ids t c = .ok l ∧ Dict.get? result k = some (.list l)
    | some _, some c => Dict.get? result k = some c := by
  cases hck : Dict.get? config k with
  | none =>
    have hr := mergeKvs_get?_not_mem h ((Dict.get?_eq_none_iff _ _).1 hck)
    cases htk : Dict.get? template k with
    | none => simp only; rw [hr, htk]
    | some t => cases t <;> (simp only; rw [hr, htk])
  | some c =>
    obtain ⟨x, hx, hg⟩ := mergeKvs_get?_mem hc h hck
    cases htk : Dict.get? template k with
    | none => rw [htk, mergeVal_none] at hx; cases hx; exact hg
    | some t =>
      rw [htk] at hx
      cases t with
      | dict t =>
        cases c with
        | dict c =>
          obtain ⟨d, hd, rfl⟩ := (mergeVal_dict_dict _ _ _).1 hx
          exact ⟨d, hd, hg⟩
        | list c => simp [mergeVal] at hx
        | _ => rw [mergeVal_scalar rfl] at hx; cases hx; exact hg
      | list t =>
        cases c with
        | list c =>
          obtain ⟨d, hd, rfl⟩ := (mergeVal_list_list _ _ _).1 hx
          exact ⟨d, hd, hg⟩
        | dict c => simp [mergeVal] at hx
        | _ => rw [mergeVal_scalar rfl] at hx; cases hx; exact hg
      | _ => rw [mergeVal_existing_scalar _ rfl] at hx; cases hx; cases c <;> exact hg

/-- a non trivial merge that succeeds -/
example : mergeConfig (fun _ => false) ["name"]
    [("general", .dict [("hostname", .str "a"), ("maintainer", .str "m")]), ("x", .int 1)]
    [("general", .dict [("hostname", .str "b")]), ("y", .bool true)]
    = .ok [("general", .dict [("hostname", .str "b"), ("maintainer", .str "m")]), ("x", .int 1), ("y", .bool true)] := by
  rfl

/-! ## C02 -/

theorem getPath_merge_scalar {sh ids} (c : VDict) (hc : (Val.dict c).WF) (t r : VDict)
    (h : mergeConfig sh ids t c = .ok r) (p : List String) (v : Val) (hv : v.isScalar = true)
    (hp : getPath (.dict c) p = some v) : getPath (.dict r) p = some v := by
  induction p generalizing c t r with
  | nil => simp [getPath] at hp; subst hp; cases hv
  | cons k p ih =>
    simp only [getPath] at hp ⊢
    cases hk : Dict.get? c k with
    | none => rw [hk] at hp; cases hp
    | some w =>
      rw [hk] at hp
      simp only at hp
      cases hc' : hc with
      | dict _ hn hw =>
      obtain ⟨x, hx, hg⟩ := mergeKvs_get?_mem hn h hk
      rw [hg]
      simp only
      cases p with
      | nil =>
        simp [getPath] at hp; subst hp
        rw [mergeVal_scalar hv] at hx; cases hx; rfl
      | cons k2 p =>
        cases w with
        | dict d =>
          cases htk : Dict.get? t k with
          | none => rw [htk, mergeVal_none] at hx; cases hx; exact hp
          | some t' =>
            rw [htk] at hx
            cases t' with
            | dict t' =>
              obtain ⟨m, hm, rfl⟩ := (mergeVal_dict_dict _ _ _).1 hx
              exact ih d (hc.of_get? hk) t' m hm hp
            | list _ => simp [mergeVal] at hx
            | _ => rw [mergeVal_existing_scalar _ rfl] at hx; cases hx; exact hp
        | _ => simp [getPath] at hp

theorem getPath_silent {c : VDict} {p : List String} (h : silent c p = true) : getPath (.dict c) p = none := by
  induction p generalizing c with
  | nil => cases h
  | cons k p ih =>
    simp only [silent] at h
    simp only [getPath]
    cases hk : Dict.get? c k with
    | none => rfl
    | some w =>
      rw [hk] at h
      cases w <;> simp at h
      exact ih h

/-- C02 (first half): a scalar set by the config at some path of keys is what the merged configuration has there. -/
theorem C02_config_scalar_wins (sh : Val → Bool) (ids : List String) (template config result : VDict)
    (hc : (Val.dict config).WF) (h : mergeConfig sh ids template config = .ok result)
    (path : List String) (v : Val) (hv : v.isScalar = true)
    (hp : getPath (.dict config) path = some v) : getPath (.dict result) path = some v :=
  getPath_merge_scalar config hc template result h path v hv hp

/-- C02 (second half): where the config is silent the template shows through. -/
theorem C02_template_shows_through (sh : Val → Bool) (ids : List String) (template config result : VDict)
    (hc : (Val.dict config).WF) (h : mergeConfig sh ids template config = .ok result)
    (path : List String) (hp : silent config path = true) :
    getPath (.dict result) path = getPath (.dict template) path := by
  induction path generalizing config template result with
  | nil => cases hp
  | cons k p ih =>
    have hp' := hp
    simp only [silent] at hp
    simp only [getPath]
    cases hk : Dict.get? config k with
    | none => rw [mergeKvs_get?_not_mem h ((Dict.get?_eq_none_iff _ _).1 hk)]
    | some w =>
      rw [hk] at hp
      cases w with
      | dict d =>
        simp only at hp
        have hcw := hc
        cases hc with
        | dict _ hn hw =>
        obtain ⟨x, hx, hg⟩ := mergeKvs_get?_mem hn h hk
        rw [hg]
        cases htk : Dict.get? template k with
        | none => rw [htk, mergeVal_none] at hx; cases hx; exact getPath_silent hp
        | some t' =>
          rw [htk] at hx
          have hpne : p ≠ [] := by rintro rfl; cases hp
          obtain ⟨k2, p2, rfl⟩ := List.exists_cons_of_ne_nil hpne
          cases t' with
          | dict t' =>
            obtain ⟨m, hm, rfl⟩ := (mergeVal_dict_dict _ _ _).1 hx
            exact ih t' d m (hcw.of_get? hk) hm hp
          | list _ => simp [mergeVal] at hx
          | _ =>
            rw [mergeVal_existing_scalar _ rfl] at hx; cases hx
            show getPath (.dict d) (k2 :: p2) = _
            rw [getPath_silent hp]; rfl
      | _ => simp at hp

example : getPath (.dict [("a", .dict [("b", .int 1)])]) ["a", "b"] = some (.int 1) ∧
    silent [("a", .dict [("b", .int 1)])] ["a", "c"] = true := by decide

/-! ## C03 -/

/-- C03: with hashable identifiers, merging either succeeds and there is no
dict/list conflict, or it raises the library `ValidationError` and there is one. -/
theorem C03_conflict_exactly (sh : Val → Bool) (ids : List String) (template config : VDict)
    (hc : (Val.dict config).WF)
    (hhc : hashable ids (.dict config) = true) (hht : hashable ids (.dict template) = true) :
    (mergeConfig sh ids template config = .error .validation ↔ Conflict sh ids (.dict template) (.dict config)) ∧
    ((∃ r, mergeConfig sh ids template config = .ok r) ↔ ¬ Conflict sh ids (.dict template) (.dict config)) := by
  have := mergeVal_total (sh := sh) (.dict config) hc ids (.dict template) hhc hht
  simp only [mergeVal] at this
  unfold mergeConfig
  cases hm : mergeKvs sh ids config template with
  | ok r =>
    rw [hm] at this
    rcases this with ⟨_, h⟩ | ⟨h, _⟩
    · simp [h]
    · cases h
  | error e =>
    rw [hm] at this
    rcases this with ⟨⟨x, h⟩, _⟩ | ⟨h, hcf⟩
    · cases h
    · cases h; simp [hcf]

/-- the backends without list identifiers need no hypothesis on hashability -/
theorem C03_conflict_exactly_no_ids (sh : Val → Bool) (template config : VDict) (hc : (Val.dict config).WF) :
    (mergeConfig sh [] template config = .error .validation ↔ Conflict sh [] (.dict template) (.dict config)) :=
  (C03_conflict_exactly sh [] template config hc (hashable_nil _) (hashable_nil _)).1

/-- a conflict, and a conflict-free pair -/
example : mergeConfig (fun _ => false) [] [("a", .dict [("l", .list [])])] [("a", .dict [("l", .dict [])])]
    = .error .validation := by rfl
example : mergeConfig (fun _ => false) [] [("a", .dict [("l", .list [])])] [("a", .str "x")]
    = .ok [("a", .str "x")] := by rfl
/-- the hypothesis on hashability is needed: a dict used as identifier raises `TypeError` -/
example : mergeConfig (fun _ => false) ["name"] [("l", .list [])] [("l", .list [.dict [("name", .dict [])]])]
    = .error .typeError := by rfl

/-! ## C04 -/

/-- C04: an empty config is neutral. -/
theorem C04_empty_config (sh : Val → Bool) (ids : List String) (template : VDict) :
    mergeConfig sh ids template [] = .ok template := rfl

/-- C04: an empty template is neutral (same items in the same order). -/
theorem C04_empty_template (sh : Val → Bool) (ids : List String) (config : VDict) (hc : (Dict.keys config).Nodup) :
    mergeConfig sh ids [] config = .ok config := by
  suffices H : ∀ (c acc : VDict), (Dict.keys (acc ++ c)).Nodup → mergeKvs sh ids c acc = .ok (acc ++ c) by
    exact H config [] hc
  intro c
  induction c with
  | nil => intro acc _; simp [mergeKvs]
  | cons p r ih =>
    intro acc hn
    obtain ⟨k, v⟩ := p
    have hk : k ∉ Dict.keys acc := by
      intro hk
      rw [Dict.keys_append, List.nodup_append] at hn
      exact hn.2.2 k hk k (by simp) rfl
    simp only [mergeKvs]
    rw [(Dict.get?_eq_none_iff acc k).2 hk, mergeVal_none]
    show mergeKvs sh ids r (Dict.set acc k v) = _
    rw [Dict.set_not_mem acc k v hk, ih]
    · simp
    · simpa using hn

/-! ## C05 -/

/-- C05: merging the same config a second time changes nothing, provided the identifiers inside each of its lists are
distinct, scalar and no object is repeated. -/
theorem C05_idempotent (sh : Val → Bool) (ids : List String) (template config result : VDict)
    (ht : (Val.dict template).WF) (hc : (Val.dict config).WF) (hd : DistinctAll sh ids (.dict config))
    (h : mergeConfig sh ids template config = .ok result) :
    mergeConfig sh ids result config = .ok result := by
  have := mergeVal_idem (sh := sh) (.dict config) hc hd (.dict template) (.dict result) ht
    ((mergeVal_dict_dict _ _ _).2 ⟨result, h, rfl⟩)
  obtain ⟨d, hd, e⟩ := (mergeVal_dict_dict _ _ _).1 this
  cases e; exact hd

/-- Without distinct identifiers the claim is false of the code: repeated identifiers in one list collapse
only from the second merge on, and flip. -/
theorem C05_needs_distinct :
    ∃ t c r, mergeConfig (fun _ => false) ["name"] t c = .ok r ∧
      mergeConfig (fun _ => false) ["name"] r c ≠ .ok r := by
  refine ⟨[("l", .list [])], [("l", .list [.dict [("name", .str "a"), ("v", .int 1)],
    .dict [("name", .str "a"), ("v", .int 2)]])], [("l", .list [.dict [("name", .str "a"), ("v", .int 2)]])], rfl, ?_⟩
  intro h
  have : mergeConfig (fun _ => false) ["name"] [("l", .list [.dict [("name", .str "a"), ("v", .int 2)]])]
      [("l", .list [.dict [("name", .str "a"), ("v", .int 1)], .dict [("name", .str "a"), ("v", .int 2)]])]
      = .ok [("l", .list [.dict [("name", .str "a"), ("v", .int 1)]])] := rfl
  rw [this] at h
  injection h with h
  revert h; decide

/-- the hypotheses of `C05_idempotent` are met by a config with two identified elements -/
example : DistinctAll (fun _ => true) ["name"]
    (.dict [("interfaces", .list [.dict [("name", .str "eth0")], .dict [("name", .str "eth1")]])]) := by
  refine .dict _ _ ?_
  intro p hp
  simp only [List.mem_singleton] at hp
  subst hp
  refine .list _ _ ?_ rfl ?_ ?_
  · refine List.Pairwise.cons ?_ (List.pairwise_singleton _ _)
    intro w hw
    simp only [List.mem_singleton] at hw
    subst hw
    refine ⟨?_, by decide⟩
    intro k hk hk'
    rw [hk'.symm] at hk
    revert hk; decide
  · intro v hv k hk
    simp only [List.mem_cons, List.not_mem_nil, or_false] at hv
    rcases hv with rfl | rfl
    · have : k = .str "eth0" := (Option.some.inj hk).symm
      subst this; rfl
    · have : k = .str "eth1" := (Option.some.inj hk).symm
      subst this; rfl
  · intro v hv
    simp only [List.mem_cons, List.not_mem_nil, or_false] at hv
    rcases hv with rfl | rfl <;>
    · refine .dict _ _ ?_
      intro p hp
      simp only [List.mem_singleton] at hp
      subst hp
      exact .str _ _

/-! ## C06, C07, C08 -/

/-- the merge of two list elements with the same identifier -/
def mergeElems (sh : Val → Bool) (e1 e2 : Val) : Except PyErr Val :=
  match e1, e2 with
  | .dict d1, .dict d2 => do let d ← mergeConfig sh [] d1 d2; pure (.dict d)
  | _, _ => .error .typeError

theorem mergeElems_eq {sh} (d1 d2 : VDict) :
    mergeElems sh (.dict d1) (.dict d2) = mergeVal sh [] (.dict d2) (some (.dict d1)) := rfl

/-- C06 for lists whose elements have distinct identifiers. The result is the list `l1` in which each
element whose identifier also occurs among the elements of `l2` that are not already in `l1` is
replaced by the merge of the two, followed by the elements of `l2` that are not in `l1` and share no
identifier with an element of `l1`, in order. -/
theorem C06_merge_list_order (sh : Val → Bool) (ids : List String) (l1 l2 r : List Val)
    (hw : ∀ v ∈ l1, v.WF) (h1 : Distinct sh ids l1) (h2 : Distinct sh ids l2)
    (h : mergeList sh ids l1 l2 = .ok r) :
    ∃ ms : List Val, ms.length = l1.length ∧
      (∀ i (h1 : i < l1.length) (h2 : i < ms.length),
        (∃ k e, e ∈ l2 ∧ l1.any (fun x => Val.pyEq e x) = false ∧ identOf ids l1[i] = some k ∧ identOf ids e = some k ∧
            mergeElems sh l1[i] e = .ok ms[i]) ∨
        (ms[i] = l1[i] ∧ ∀ k e, e ∈ l2 → l1.any (fun x => Val.pyEq e x) = false →
            identOf ids l1[i] = some k → identOf ids e ≠ some k)) ∧
      r = ms ++ l2.filter (fun e => !(l1.any (fun x => Val.pyEq e x)) &&
            !(l1.any (fun x => (identOf ids e).isSome && decide (identOf ids x = identOf ids e)))) := by
  obtain ⟨a, b, ha, hb, hs⟩ := (mergeList_ok_iff sh ids l1 l2 r).1 h
  have han := nodup_of_distinct h1 ha
  have hac := collapse_of_nodup han
  have hav := keyed_values ha
  have hbn := keyedNew_keys_nodup h2 hb
  have hbc := collapse_of_nodup hbn
  rw [hac, hav] at hb
  rw [hac, hbc] at hs
  have hlast : ∀ k, lastWith k a = Dict.get? a k := fun k => by rw [← collapse_get?, hac]
  -- matching keys are matching identifiers
  have hmatch : ∀ k e1 e2, (k, e1) ∈ a → (k, e2) ∈ b →
      ∃ v d1 d2, k = .val v ∧ e1 = .dict d1 ∧ e2 = .dict d2 ∧ identOf ids e1 = some v ∧ identOf ids e2 = some v := by
    intro k e1 e2 he1 he2
    refine same_key_dicts hw ha (by rw [hac, hav]; exact hb) ?_ he2
    rw [hlast]; exact Dict.get?_of_mem han he1
  unfold mergeKeyedSpec at hs
  rw [bind_ok_iff] at hs
  obtain ⟨ms, hms, hr⟩ := hs
  rw [pure_ok_iff] at hr
  subst hr
  have hlen : l1.length = a.length := by rw [← hav]; simp [Dict.values]
  -- pointwise
  have hpt : ∀ (a' : List (LKey × Val)) (ms : List Val), List.mapM (fun p => match Dict.get? b p.1 with
      | none => (pure p.2 : Except PyErr Val) | some e => mergeVal sh [] e (some p.2)) a' = .ok ms →
      ms.length = a'.length ∧ ∀ i (h : i < a'.length) (h2 : i < ms.length), (match Dict.get? b (a'[i]).1 with
      | none => (pure (a'[i]).2 : Except PyErr Val) | some e => mergeVal sh [] e (some (a'[i]).2)) = .ok ms[i] := by
    intro a'
    induction a' with
    | nil => intro ms h; rw [mapM_ok_nil] at h; cases h; simp
    | cons p r ih =>
      intro ms h
      rw [mapM_ok_cons] at h
      obtain ⟨m, ms', hm, hms', rfl⟩ := h
      obtain ⟨hl, hi⟩ := ih ms' hms'
      refine ⟨by simp [hl], ?_⟩
      intro i h h2
      cases i with
      | zero => exact hm
      | succ i => exact hi i (by simpa using h) (by simpa using h2)
  obtain ⟨hml, hmi⟩ := hpt a ms hms
  have hli : ∀ i (h : i < l1.length), l1[i] = (a[i]'(by omega)).2 := by
    intro i h
    have : l1[i] = (Dict.values a)[i]'(by rw [hav]; exact h) := by simp only [hav]
    rw [this]; simp [Dict.values]
  refine ⟨ms, by omega, ?_, ?_⟩
  · intro i hi1 hi2
    have hia : i < a.length := by omega
    have hmem : (a[i]).1 = (a[i]).1 ∧ a[i] ∈ a := ⟨rfl, List.getElem_mem _⟩
    have hst := hmi i hia hi2
    rw [hli i hi1]
    cases hbk : Dict.get? b (a[i]).1 with
    | none =>
      right
      rw [hbk] at hst
      simp only [pure_ok_iff] at hst
      refine ⟨hst.symm, ?_⟩
      intro k e he hnk hk1 hk2
      obtain ⟨k', hk'⟩ := keyedNew_complete hb he hnk
      obtain ⟨_, _, j, _, hj⟩ := keyedNew_mem hb hk'
      have e1 := (key_facts hj).1 k hk2
      obtain ⟨_, j', _, hj'⟩ := keyed_mem ha hmem.2
      have e2 := (key_facts hj').1 k hk1
      simp only at e1
      subst e1
      rw [e2] at hbk
      exact (Dict.get?_eq_none_iff _ _).1 hbk (List.mem_map.2 ⟨_, hk', rfl⟩)
    | some e =>
      left
      rw [hbk] at hst
      simp only at hst
      have hbm := Dict.mem_of_get? hbk
      obtain ⟨v, d1, d2, hv, he1, he2, hi1', hi2'⟩ := hmatch _ _ _ hmem.2 hbm
      obtain ⟨hin, hnk, _⟩ := keyedNew_mem hb hbm
      refine ⟨v, e, hin, hnk, hi1', hi2', ?_⟩
      have he1' : (a[i]).2 = .dict d1 := he1
      rw [he1', he2] at hst
      rw [he1', he2]
      exact hst
  · congr 1
    -- the appended part
    have hfilter : ∀ (l : List Val) (i : Nat) (b' : List (LKey × Val)),
        keyedNew sh ids l1 2 i l = .ok b' → (∀ p ∈ b', p ∈ b) →
        Dict.values (b'.filter (fun p => !(Dict.has a p.1))) = l.filter (fun e => !(l1.any (fun x => Val.pyEq e x)) &&
            !(l1.any (fun x => (identOf ids e).isSome && decide (identOf ids x = identOf ids e)))) := by
      intro l
      induction l with
      | nil => intro i b' h _; cases h; rfl
      | cons el l ih =>
        intro i b' h hsub
        simp only [keyedNew] at h
        by_cases hn : l1.any (fun x => Val.pyEq el x) = true
        · rw [if_pos hn] at h
          rw [ih _ _ h hsub, List.filter_cons]
          simp [hn]
        · rw [if_neg hn] at h
          simp only [bind_ok_iff, pure_ok_iff] at h
          obtain ⟨k, hk, ks, hks, rfl⟩ := h
          have hn' : l1.any (fun x => Val.pyEq el x) = false := by simpa using hn
          have hmb : (k, el) ∈ b := hsub _ (by simp)
          have hhas : Dict.has a k = l1.any (fun x => (identOf ids el).isSome && decide (identOf ids x = identOf ids el)) := by
            rw [Bool.eq_iff_iff, Dict.has_iff, List.any_eq_true]
            constructor
            · intro hka
              simp only [Dict.keys, List.mem_map] at hka
              obtain ⟨⟨k', e1⟩, hp, rfl⟩ := hka
              obtain ⟨v, d1, d2, _, _, _, hv1, hv2⟩ := hmatch _ _ _ hp hmb
              refine ⟨e1, (keyed_mem ha hp).1, ?_⟩
              simp [hv1, hv2]
            · rintro ⟨x, hx, hxe⟩
              simp only [Bool.and_eq_true, decide_eq_true_eq] at hxe
              obtain ⟨v, hv⟩ := Option.isSome_iff_exists.1 hxe.1
              have hxv : identOf ids x = some v := by rw [hxe.2, hv]
              have hkv := (key_facts hk).1 v hv
              rw [← hav] at hx
              simp only [Dict.values, List.mem_map] at hx
              obtain ⟨⟨k', x'⟩, hp, rfl⟩ := hx
              obtain ⟨_, j, _, hj⟩ := keyed_mem ha hp
              have := (key_facts hj).1 v hxv
              simp only at this
              rw [hkv, ← this]
              exact List.mem_map.2 ⟨_, hp, rfl⟩
          simp only [List.filter_cons, hn', Bool.not_false, Bool.true_and, hhas]
          split
          · rw [Dict.values_cons, ih _ _ hks (fun p hp => hsub p (by simp [hp]))]
          · rw [ih _ _ hks (fun p hp => hsub p (by simp [hp]))]
    exact hfilter l2 0 b hb (fun _ h => h)

/-- C06, general form (repeated identifiers allowed): on lists with repeated keys the code first keeps
one element per key, at the position of the first and with the value of the last. -/
theorem C06_merge_list_general (sh : Val → Bool) (ids : List String) (l1 l2 r : List Val) :
    mergeList sh ids l1 l2 = .ok r ↔
      ∃ a b, keyed sh ids 1 0 l1 = .ok a ∧
        keyedNew sh ids (Dict.values (collapse a)) 2 0 l2 = .ok b ∧
        mergeKeyedSpec (fun e1 e2 => mergeVal sh [] e2 (some e1)) (collapse a) (collapse b) = .ok r :=
  mergeList_ok_iff sh ids l1 l2 r

/-- C07: nothing is lost when identifiers are distinct inside each list. -/
theorem C07_no_element_lost (sh : Val → Bool) (ids : List String) (l1 l2 r : List Val)
    (hw : ∀ v ∈ l1, v.WF) (h1 : Distinct sh ids l1) (h2 : Distinct sh ids l2)
    (h : mergeList sh ids l1 l2 = .ok r) :
    (∀ e ∈ l1, e ∈ r ∨ ∃ e2 ∈ l2, ∃ k m, identOf ids e = some k ∧ identOf ids e2 = some k ∧
        mergeElems sh e e2 = .ok m ∧ m ∈ r) ∧
    (∀ e ∈ l2, e ∈ r ∨ (∃ e1 ∈ l1, Val.pyEq e e1 = true) ∨
      ∃ e1 ∈ l1, ∃ k m, identOf ids e1 = some k ∧ identOf ids e = some k ∧ mergeElems sh e1 e = .ok m ∧ m ∈ r) := by
  obtain ⟨ms, hl, hi, hr⟩ := C06_merge_list_order sh ids l1 l2 r hw h1 h2 h
  subst hr
  constructor
  · intro e he
    obtain ⟨i, hi1, rfl⟩ := List.mem_iff_getElem.1 he
    rcases hi i hi1 (by omega) with ⟨k, e2, he2, _, hk1, hk2, hm⟩ | ⟨hm, _⟩
    · right
      exact ⟨e2, he2, k, ms[i], hk1, hk2, hm, List.mem_append_left _ (List.getElem_mem _)⟩
    · left
      rw [← hm]; exact List.mem_append_left _ (List.getElem_mem _)
  · intro e he
    by_cases hn : l1.any (fun x => Val.pyEq e x) = true
    · right; left
      obtain ⟨x, hx, hp⟩ := List.any_eq_true.1 hn
      exact ⟨x, hx, hp⟩
    · have hn : l1.any (fun x => Val.pyEq e x) = false := by simpa using hn
      by_cases hs : l1.any (fun x => (identOf ids e).isSome && decide (identOf ids x = identOf ids e)) = true
      · right; right
        obtain ⟨x, hx, hxe⟩ := List.any_eq_true.1 hs
        simp only [Bool.and_eq_true, decide_eq_true_eq] at hxe
        obtain ⟨v, hv⟩ := Option.isSome_iff_exists.1 hxe.1
        have hxv : identOf ids x = some v := by rw [hxe.2, hv]
        obtain ⟨i, hi1, rfl⟩ := List.mem_iff_getElem.1 hx
        rcases hi i hi1 (by omega) with ⟨k, e2, he2, hn2, hk1, hk2, hm⟩ | ⟨_, hno⟩
        · rw [hxv] at hk1; cases hk1
          -- e2 and e have the same identifier in l2, so they are the same element
          have : e2 = e := by
            have : ∀ l : List Val, Distinct sh ids l → e ∈ l → e2 ∈ l → e2 = e := by
              intro l hl he1 he2
              induction l with
              | nil => simp at he1
              | cons y ys ih =>
                rw [Distinct, List.pairwise_cons] at hl
                rcases List.mem_cons.1 he1 with g1 | g1
                · rcases List.mem_cons.1 he2 with g2 | g2
                  · rw [g1, g2]
                  · exact absurd hk2 ((hl.1 _ g2).1 v (g1 ▸ hv))
                · rcases List.mem_cons.1 he2 with g2 | g2
                  · exact absurd hv ((hl.1 _ g1).1 v (g2 ▸ hk2))
                  · exact ih hl.2 g1 g2
            exact this l2 h2 he he2
          subst this
          exact ⟨_, List.getElem_mem _, v, ms[i], hxv, hv, hm, List.mem_append_left _ (List.getElem_mem _)⟩
        · exact absurd hv (hno v e he hn hxv)
      · left
        apply List.mem_append_right
        rw [List.mem_filter]
        refine ⟨he, ?_⟩
        have hs : l1.any (fun x => (identOf ids e).isSome && decide (identOf ids x = identOf ids e)) = false := by
          simpa using hs
        rw [hn, hs]; rfl

/-- C07: the distinctness hypothesis cannot be dropped. -/
theorem C07_needs_distinct : ∃ l1 l2 r, mergeList (fun _ => false) ["name"] l1 l2 = .ok r ∧
    ∃ e ∈ l2, e ∉ r ∧ l1 = [] := by
  refine ⟨[], [.dict [("name", .str "a"), ("v", .int 1)], .dict [("name", .str "a"), ("v", .int 2)]],
    [.dict [("name", .str "a"), ("v", .int 2)]], rfl, .dict [("name", .str "a"), ("v", .int 1)], by simp, ?_, rfl⟩
  decide

/-- C08: no element of the second list equal to one of the first is added: the merged list is one
element per (distinct) element of the first list plus only elements of the second that equal none of them;
when the second list brings nothing new, the first list is returned. -/
theorem C08_no_duplicates (sh : Val → Bool) (ids : List String) (l1 l2 r : List Val)
    (hw : ∀ v ∈ l1, v.WF) (h1 : Distinct sh ids l1) (h2 : Distinct sh ids l2)
    (h : mergeList sh ids l1 l2 = .ok r) :
    ∃ ms extra, r = ms ++ extra ∧ ms.length = l1.length ∧
      ∀ e ∈ extra, e ∈ l2 ∧ ∀ x ∈ l1, Val.pyEq e x = false := by
  obtain ⟨ms, hl, hi, hr⟩ := C06_merge_list_order sh ids l1 l2 r hw h1 h2 h
  refine ⟨ms, _, hr, hl, ?_⟩
  intro e he
  rw [List.mem_filter] at he
  refine ⟨he.1, ?_⟩
  intro x hx
  cases hp : Val.pyEq e x with
  | false => rfl
  | true =>
    have := List.any_eq_true.2 ⟨x, hx, hp⟩
    rw [this] at he
    simp at he

/-- C08 continued -/
theorem C08_nothing_new (sh : Val → Bool) (ids : List String) (l1 l2 : List Val) (h1 : Distinct sh ids l1)
    (hh : l1.all (elemHashable ids) = true)
    (hk : ∀ e ∈ l2, ∃ x ∈ l1, Val.pyEq e x = true) : mergeList sh ids l1 l2 = .ok l1 :=
  mergeList_of_known h1 hh (fun e he => List.any_eq_true.2 (hk e he))

/-- a merge of two lists with a common element, a merged one and a new one -/
example : mergeList (fun _ => false) ["name"]
    [.dict [("name", .str "a"), ("x", .int 1)], .str "s", .dict [("name", .str "b")]]
    [.str "s", .dict [("name", .str "b"), ("y", .int 2)], .dict [("name", .str "c")]]
    = .ok [.dict [("name", .str "a"), ("x", .int 1)], .str "s", .dict [("name", .str "b"), ("y", .int 2)],
        .dict [("name", .str "c")]] := by rfl

/-! ## C09 -/

/-- C09: the chain of templates is the left-to-right merge, then the config; no templates: the config itself. -/
theorem C09_chain (sh : Val → Bool) (ids : List String) (config : VDict) :
    mergeAll sh ids [] config = .ok config ∧
    ∀ t ts, (∀ d ∈ t :: ts, (Dict.keys d).Nodup) →
      mergeAll sh ids (t :: ts) config =
        (ts.foldlM (fun acc d => mergeConfig sh ids acc d) t) >>= (fun acc => mergeConfig sh ids acc config) := by
  refine ⟨rfl, ?_⟩
  intro t ts hn
  simp only [mergeAll, List.cons_append, List.foldlM_cons, List.foldlM_append, List.foldlM_nil]
  rw [C04_empty_template sh ids t (hn t (by simp))]
  show (List.foldlM (fun acc d => mergeConfig sh ids acc d) t ts >>= fun acc =>
    mergeConfig sh ids acc config >>= pure) = _
  congr 1; funext acc
  cases mergeConfig sh ids acc config <;> rfl

theorem foldlM_get?_untouched {sh ids} (k : String) : ∀ (ts : List VDict) (acc r : VDict),
    (∀ d ∈ ts, Dict.get? d k = none) →
    ts.foldlM (fun acc d => mergeConfig sh ids acc d) acc = .ok r → Dict.get? r k = Dict.get? acc k := by
  intro ts
  induction ts with
  | nil => intro acc r _ h; rw [List.foldlM_nil, pure_ok_iff] at h; rw [h]
  | cons d ds ih =>
    intro acc r hn h
    rw [List.foldlM_cons, bind_ok_iff] at h
    obtain ⟨acc', h1, h2⟩ := h
    rw [ih acc' r (fun e he => hn e (by simp [he])) h2,
      mergeKvs_get?_not_mem h1 ((Dict.get?_eq_none_iff _ _).1 (hn d (by simp)))]

/-- C09: the last layer (template or config) that defines a key with a scalar decides its value. -/
theorem C09_last_definition_wins (sh : Val → Bool) (ids : List String) (before after : List VDict) (layer r : VDict)
    (hl : (Dict.keys layer).Nodup) (k : String) (v : Val)
    (hk : Dict.get? layer k = some v) (hv : v.isScalar = true) (ha : ∀ d ∈ after, Dict.get? d k = none)
    (templates : List VDict) (config : VDict) (hne : templates ≠ [])
    (hsplit : templates ++ [config] = before ++ layer :: after)
    (h : mergeAll sh ids templates config = .ok r) : Dict.get? r k = some v := by
  cases templates with
  | nil => exact absurd rfl hne
  | cons t ts =>
    simp only [mergeAll] at h
    rw [hsplit, List.foldlM_append, bind_ok_iff] at h
    obtain ⟨acc, _, h⟩ := h
    rw [List.foldlM_cons, bind_ok_iff] at h
    obtain ⟨acc', h1, h2⟩ := h
    rw [foldlM_get?_untouched k after acc' r ha h2]
    obtain ⟨x, hx, hg⟩ := mergeKvs_get?_mem hl h1 hk
    rw [mergeVal_scalar hv] at hx; cases hx
    exact hg

/-- C09: a key no layer defines does not appear. -/
theorem C09_undefined_stays_undefined (sh : Val → Bool) (ids : List String) (templates : List VDict) (config r : VDict)
    (k : String) (ht : ∀ d ∈ templates, Dict.get? d k = none) (hc : Dict.get? config k = none)
    (h : mergeAll sh ids templates config = .ok r) : Dict.get? r k = none := by
  cases templates with
  | nil => cases h; exact hc
  | cons t ts =>
    simp only [mergeAll] at h
    rw [foldlM_get?_untouched k ((t :: ts) ++ [config]) [] r ?_ h]
    · rfl
    · intro d hd
      rcases List.mem_append.1 hd with hd | hd
      · exact ht d hd
      · simp only [List.mem_singleton] at hd; subst hd; exact hc

example : mergeAll (fun _ => false) [] [[("a", .int 1), ("b", .int 1)], [("a", .int 2)]] [("c", .int 3)]
    = .ok [("a", .int 2), ("b", .int 1), ("c", .int 3)] := by rfl

/-! ## C10 -/

theorem mergeVal_listFree {sh ids} (c : Val) (hw : c.WF) (hc : ListFree c) (t : Val) (ht : ListFree t) :
    ∃ x, mergeVal sh ids c (some t) = .ok x ∧ ListFree x := by
  induction c using Val.induct generalizing t with
  | hn => exact ⟨_, mergeVal_scalar rfl _, .none⟩
  | hb => exact ⟨_, mergeVal_scalar rfl _, .bool _⟩
  | hi => exact ⟨_, mergeVal_scalar rfl _, .int _⟩
  | hs => exact ⟨_, mergeVal_scalar rfl _, .str _⟩
  | hl l _ => nomatch hc
  | hd d ih =>
    cases t with
    | none => exact ⟨_, mergeVal_existing_scalar _ rfl, hc⟩
    | bool => exact ⟨_, mergeVal_existing_scalar _ rfl, hc⟩
    | int => exact ⟨_, mergeVal_existing_scalar _ rfl, hc⟩
    | str => exact ⟨_, mergeVal_existing_scalar _ rfl, hc⟩
    | list => nomatch ht
    | dict t =>
      cases hw with
      | dict _ hn hw =>
      cases hc with
      | dict _ hc =>
      cases ht with
      | dict _ ht =>
      have hex : ∃ out, mergeKvs sh ids d t = .ok out := by
        rw [mergeKvs_ok_iff hn]
        intro k v hk
        have hm := Dict.mem_of_get? hk
        cases htk : Dict.get? t k with
        | none => exact ⟨v, mergeVal_none v⟩
        | some w =>
          obtain ⟨x, hx, _⟩ := ih _ hm (hw _ hm) (hc _ hm) w (ht _ (Dict.mem_of_get? htk))
          exact ⟨x, hx⟩
      obtain ⟨out, ho⟩ := hex
      refine ⟨.dict out, (mergeVal_dict_dict _ _ _).2 ⟨out, ho, rfl⟩, .dict _ ?_⟩
      have key : ∀ (d' : VDict) (acc out' : VDict), (∀ p ∈ d', p ∈ d) → (∀ p ∈ acc, ListFree p.2) →
          mergeKvs sh ids d' acc = .ok out' → ∀ p ∈ out', ListFree p.2 := by
        intro d'
        induction d' with
        | nil => intro acc out' _ ha h; cases h; exact ha
        | cons q r ih2 =>
          intro acc out' hs ha h
          obtain ⟨k, v⟩ := q
          simp only [mergeKvs, bind_ok_iff] at h
          obtain ⟨x, hx, h⟩ := h
          have hm := hs (k, v) (by simp)
          have hxl : ListFree x := by
            cases htk : Dict.get? acc k with
            | none => rw [htk, mergeVal_none] at hx; cases hx; exact hc _ hm
            | some w =>
              rw [htk] at hx
              obtain ⟨y, hy, hyl⟩ := ih _ hm (hw _ hm) (hc _ hm) w (ha _ (Dict.mem_of_get? htk))
              rw [hy] at hx; cases hx; exact hyl
          refine ih2 _ _ (fun p hp => hs p (by simp [hp])) ?_ h
          have : ∀ (e : VDict), (∀ p ∈ e, ListFree p.2) → ∀ p ∈ Dict.set e k x, ListFree p.2 := by
            intro e
            induction e with
            | nil => intro _ p hp; simp [Dict.set] at hp; subst hp; exact hxl
            | cons q e ihe =>
              intro he p hp
              obtain ⟨k', w⟩ := q
              simp only [Dict.set] at hp
              split at hp
              · rcases List.mem_cons.1 hp with rfl | hp
                · exact hxl
                · exact he p (by simp [hp])
              · rcases List.mem_cons.1 hp with rfl | hp
                · exact he (k', w) (by simp)
                · exact ihe (fun q hq => he q (by simp [hq])) p hp
          exact this acc ha
      exact key d t out (fun _ h => h) ht ho

theorem mergeVal_assoc {sh ids} (v3 : Val) (h3w : v3.WF) (v2 : Val) (h2w : v2.WF) (h2f : ListFree v2) (h3f : ListFree v3)
    (hc : NoDictOverScalar v2 v3) (v1 : Val) (h1w : v1.WF) (h1f : ListFree v1) (a b r : Val)
    (h12 : mergeVal sh ids v2 (some v1) = .ok a) (hl : mergeVal sh ids v3 (some a) = .ok r)
    (h23 : mergeVal sh ids v3 (some v2) = .ok b) : mergeVal sh ids b (some v1) = .ok r := by
  induction v3 using Val.induct generalizing v2 v1 a b r with
  | hn => rw [mergeVal_scalar rfl] at hl h23; cases hl; cases h23; exact mergeVal_scalar rfl _
  | hb => rw [mergeVal_scalar rfl] at hl h23; cases hl; cases h23; exact mergeVal_scalar rfl _
  | hi => rw [mergeVal_scalar rfl] at hl h23; cases hl; cases h23; exact mergeVal_scalar rfl _
  | hs => rw [mergeVal_scalar rfl] at hl h23; cases hl; cases h23; exact mergeVal_scalar rfl _
  | hl l _ => nomatch h3f
  | hd d3 ih =>
    cases hc with
    | scalarRight _ _ h => cases h
    | dict d2 _ hcmp =>
    obtain ⟨m23, hm23, rfl⟩ := (mergeVal_dict_dict _ _ _).1 h23
    cases v1 with
    | none => rw [mergeVal_existing_scalar _ rfl] at h12; cases h12; rw [h23] at hl; cases hl; exact mergeVal_existing_scalar _ rfl
    | bool => rw [mergeVal_existing_scalar _ rfl] at h12; cases h12; rw [h23] at hl; cases hl; exact mergeVal_existing_scalar _ rfl
    | int => rw [mergeVal_existing_scalar _ rfl] at h12; cases h12; rw [h23] at hl; cases hl; exact mergeVal_existing_scalar _ rfl
    | str => rw [mergeVal_existing_scalar _ rfl] at h12; cases h12; rw [h23] at hl; cases hl; exact mergeVal_existing_scalar _ rfl
    | list => nomatch h1f
    | dict d1 =>
      obtain ⟨m12, hm12, rfl⟩ := (mergeVal_dict_dict _ _ _).1 h12
      obtain ⟨m, hm, rfl⟩ := (mergeVal_dict_dict _ _ _).1 hl
      rw [mergeVal_dict_dict]
      have h1w' := h1w; have h2w' := h2w; have h3w' := h3w
      cases h1w with
      | dict _ hn1 hw1 =>
      cases h2w with
      | dict _ hn2 hw2 =>
      cases h3w with
      | dict _ hn3 hw3 =>
      cases h1f with
      | dict _ hf1 =>
      cases h2f with
      | dict _ hf2 =>
      cases h3f with
      | dict _ hf3 =>
      have hn23 := mergeKvs_nodup hn2 hm23
      have hn12 := mergeKvs_nodup hn1 hm12
      -- each key of m23 merged on d1 gives what m has
      have hpt : ∀ k y, Dict.get? m23 k = some y →
          ∃ z, mergeVal sh ids y (Dict.get? d1 k) = .ok z ∧ Dict.get? m k = some z := by
        intro k y hy
        cases h3k : Dict.get? d3 k with
        | none =>
          rw [mergeKvs_get?_not_mem hm23 ((Dict.get?_eq_none_iff _ _).1 h3k)] at hy
          obtain ⟨x, hx, hg⟩ := mergeKvs_get?_mem hn2 hm12 hy
          refine ⟨x, hx, ?_⟩
          rw [mergeKvs_get?_not_mem hm ((Dict.get?_eq_none_iff _ _).1 h3k), hg]
        | some w3 =>
          obtain ⟨y', hy', hgy⟩ := mergeKvs_get?_mem hn3 hm23 h3k
          rw [hy] at hgy; cases hgy
          obtain ⟨z, hz, hgz⟩ := mergeKvs_get?_mem hn3 hm h3k
          refine ⟨z, ?_, hgz⟩
          cases h2k : Dict.get? d2 k with
          | none =>
            rw [h2k, mergeVal_none] at hy'; cases hy'
            rw [mergeKvs_get?_not_mem hm12 ((Dict.get?_eq_none_iff _ _).1 h2k)] at hz
            exact hz
          | some w2 =>
            rw [h2k] at hy'
            obtain ⟨x, hx, hgx⟩ := mergeKvs_get?_mem hn2 hm12 h2k
            rw [hgx] at hz
            cases h1k : Dict.get? d1 k with
            | none =>
              rw [h1k, mergeVal_none] at hx; cases hx
              rw [hz] at hy'; cases hy'
              exact mergeVal_none _
            | some w1 =>
              rw [h1k] at hx
              have hm3 := Dict.mem_of_get? h3k
              exact ih _ hm3 (hw3 _ hm3) w2 (h2w'.of_get? h2k) (hf2 _ (Dict.mem_of_get? h2k)) (hf3 _ hm3)
                (hcmp k w2 w3 h2k h3k) w1 (h1w'.of_get? h1k) (hf1 _ (Dict.mem_of_get? h1k)) x y z hx hz hy'
      have hok : ∃ out, mergeKvs sh ids m23 d1 = .ok out := by
        rw [mergeKvs_ok_iff hn23]
        intro k y hy
        obtain ⟨z, hz, _⟩ := hpt k y hy
        exact ⟨z, hz⟩
      obtain ⟨out, ho⟩ := hok
      refine ⟨out, ho, ?_⟩
      congr 1
      symm
      apply dict_ext (mergeKvs_nodup hn1 ho)
      · rw [mergeKvs_keys hn23 ho, mergeKvs_keys hn3 hm, mergeKvs_keys hn2 hm12, mergeKvs_keys hn3 hm23]
        rw [List.filter_append, List.append_assoc, List.filter_filter]
        congr 2
        apply List.filter_congr
        intro k hk
        simp only [List.mem_append, List.mem_filter, decide_eq_true_eq, not_or, not_and, ← Bool.decide_and]
        rw [decide_eq_decide]
        by_cases h1 : k ∈ Dict.keys d1 <;> by_cases h2 : k ∈ Dict.keys d2 <;> simp [h1, h2]
      · intro k
        cases hk : Dict.get? m23 k with
        | none =>
          rw [mergeKvs_get?_not_mem ho ((Dict.get?_eq_none_iff _ _).1 hk)]
          have hk2 := (Dict.get?_eq_none_iff _ _).1 hk
          rw [mergeKvs_keys hn3 hm23] at hk2
          simp only [List.mem_append, List.mem_filter, decide_eq_true_eq, not_or, not_and, Classical.not_not] at hk2
          have h3 : k ∉ Dict.keys d3 := fun h => hk2.1 (hk2.2 h)
          rw [mergeKvs_get?_not_mem hm h3, mergeKvs_get?_not_mem hm12 hk2.1]
        | some y =>
          obtain ⟨z, hz, hgz⟩ := hpt k y hk
          obtain ⟨x, hx, hgx⟩ := mergeKvs_get?_mem hn23 ho hk
          rw [hz] at hx; cases hx
          rw [hgx, hgz]

/-- C10: for list-free configurations grouping does not matter, as long as `t3` has no dict where `t2` has a scalar. -/
theorem C10_associative (sh : Val → Bool) (ids : List String) (t1 t2 t3 : VDict)
    (w1 : (Val.dict t1).WF) (w2 : (Val.dict t2).WF) (w3 : (Val.dict t3).WF)
    (f1 : ListFree (.dict t1)) (f2 : ListFree (.dict t2)) (f3 : ListFree (.dict t3))
    (hc : NoDictOverScalar (.dict t2) (.dict t3)) :
    ∃ a b r, mergeConfig sh ids t1 t2 = .ok a ∧ mergeConfig sh ids a t3 = .ok r ∧
      mergeConfig sh ids t2 t3 = .ok b ∧ mergeConfig sh ids t1 b = .ok r := by
  obtain ⟨x, hx, fx⟩ := mergeVal_listFree (sh := sh) (ids := ids) _ w2 f2 _ f1
  obtain ⟨y, hy, fy⟩ := mergeVal_listFree (sh := sh) (ids := ids) _ w3 f3 _ fx
  obtain ⟨z, hz, _⟩ := mergeVal_listFree (sh := sh) (ids := ids) _ w3 f3 _ f2
  have := mergeVal_assoc (.dict t3) w3 (.dict t2) w2 f2 f3 hc (.dict t1) w1 f1 x z y hx hy hz
  obtain ⟨a, ha, rfl⟩ := (mergeVal_dict_dict _ _ _).1 hx
  obtain ⟨r, hr, rfl⟩ := (mergeVal_dict_dict _ _ _).1 hy
  obtain ⟨b, hb, rfl⟩ := (mergeVal_dict_dict _ _ _).1 hz
  obtain ⟨r', hr', e⟩ := (mergeVal_dict_dict _ _ _).1 this
  cases e
  exact ⟨a, b, r, ha, hr, hb, hr'⟩

/-- The hypothesis is needed: dict over scalar over dict. -/
theorem C10_needs_no_dict_over_scalar :
    (mergeConfig (fun _ => false) [] [("a", .dict [("x", .int 1)])] [("a", .int 5)] >>=
      fun a => mergeConfig (fun _ => false) [] a [("a", .dict [("y", .int 2)])])
    ≠ (mergeConfig (fun _ => false) [] [("a", .int 5)] [("a", .dict [("y", .int 2)])] >>=
      fun b => mergeConfig (fun _ => false) [] [("a", .dict [("x", .int 1)])] b) := by
  intro h
  have h1 : (mergeConfig (fun _ => false) [] [("a", .dict [("x", .int 1)])] [("a", .int 5)] >>=
      fun a => mergeConfig (fun _ => false) [] a [("a", .dict [("y", .int 2)])])
      = .ok [("a", .dict [("y", .int 2)])] := rfl
  have h2 : (mergeConfig (fun _ => false) [] [("a", .int 5)] [("a", .dict [("y", .int 2)])] >>=
      fun b => mergeConfig (fun _ => false) [] [("a", .dict [("x", .int 1)])] b)
      = .ok [("a", .dict [("x", .int 1), ("y", .int 2)])] := rfl
  rw [h1, h2] at h
  injection h with h
  revert h; decide

/-- The hypothesis is met by nested dicts that override each other. -/
example : NoDictOverScalar (.dict [("a", .dict [("x", .int 1)])]) (.dict [("a", .dict [("x", .int 2), ("y", .str "s")])]) := by
  refine .dict _ _ ?_
  intro k v w hv hw
  by_cases h : "a" = k
  · subst h
    cases hv; cases hw
    refine .dict _ _ ?_
    intro k v w hv hw
    simp only [Dict.get?] at hv hw
    split at hw
    · cases hw; exact .scalarRight _ _ rfl
    · split at hw
      · cases hw; exact .scalarRight _ _ rfl
      · cases hw
  · simp [Dict.get?, h] at hv

/-! ## C12 -/

theorem firsts_append_nodup {α} [DecidableEq α] (a b : List α) (ha : a.Nodup) (hb : b.Nodup) :
    firsts (a ++ b) = a ++ b.filter (fun k => decide (k ∉ a)) := by
  induction a with
  | nil =>
    simp only [List.nil_append, List.not_mem_nil, not_false_eq_true, decide_true]
    rw [List.filter_eq_self.2 (by simp)]
    induction b with
    | nil => rfl
    | cons x r ih =>
      rw [List.nodup_cons] at hb
      simp only [firsts, ih hb.2, List.cons.injEq, true_and]
      rw [List.filter_eq_self]
      intro y hy
      simp only [ne_eq, decide_not, Bool.not_eq_eq_eq_not, Bool.not_true, decide_eq_false_iff_not]
      rintro rfl; exact hb.1 hy
  | cons x r ih =>
    rw [List.nodup_cons] at ha
    simp only [List.cons_append, firsts, ih ha.2, List.filter_append, List.cons.injEq, true_and]
    congr 1
    · rw [List.filter_eq_self]
      intro y hy
      simp only [ne_eq, decide_not, Bool.not_eq_eq_eq_not, Bool.not_true, decide_eq_false_iff_not]
      rintro rfl; exact ha.1 hy
    · rw [List.filter_filter]
      apply List.filter_congr
      intro y _
      simp only [List.mem_cons, not_or, ← Bool.decide_and, ne_eq]

/-- C12: key order of a merge of two. -/
theorem C12_key_order (sh : Val → Bool) (ids : List String) (template config result : VDict)
    (hc : (Dict.keys config).Nodup) (h : mergeConfig sh ids template config = .ok result) :
    Dict.keys result = Dict.keys template ++ (Dict.keys config).filter (fun k => decide (k ∉ Dict.keys template)) :=
  mergeKvs_keys hc h

theorem firsts_mem {α} [DecidableEq α] (l : List α) (x : α) : x ∈ firsts l ↔ x ∈ l := by
  induction l with
  | nil => simp [firsts]
  | cons y r ih =>
    simp only [firsts, List.mem_cons, List.mem_filter, ih, decide_eq_true_eq]
    by_cases e : x = y <;> simp [e]

theorem firsts_nodup {α} [DecidableEq α] (l : List α) : (firsts l).Nodup := by
  induction l with
  | nil => exact List.Pairwise.nil
  | cons y r ih =>
    simp only [firsts, List.nodup_cons, List.mem_filter]
    exact ⟨by simp, ih.filter _⟩

theorem firsts_firsts_append {α} [DecidableEq α] (a b : List α) : firsts (firsts a ++ b) = firsts (a ++ b) := by
  have filt : ∀ (p : α → Bool) (l : List α), (firsts l).filter p = firsts (l.filter p) := by
    intro p l
    induction l with
    | nil => rfl
    | cons x r ih =>
      simp only [firsts, List.filter_cons]
      split
      · next hp =>
        simp only [firsts, ← ih, List.filter_filter]
        congr 1
        apply List.filter_congr; intro y _; rw [Bool.and_comm]
      · next hp =>
        rw [List.filter_filter, ← ih]
        apply List.filter_congr
        intro y _
        by_cases e : y = x
        · subst e; simp at hp; simp [hp]
        · simp [e]
  induction a generalizing b with
  | nil => rfl
  | cons x r ih =>
    simp only [firsts, List.cons_append, List.cons.injEq, true_and]
    have h1 : List.filter (fun y => decide (y ≠ x)) (List.filter (fun y => decide (y ≠ x)) (firsts r) ++ b)
        = List.filter (fun y => decide (y ≠ x)) (firsts r ++ b) := by
      rw [List.filter_append, List.filter_append, List.filter_filter]
      congr 1
      apply List.filter_congr; intro y _; simp
    rw [filt, h1, ← filt, ih]

/-- C12: with any chain of templates the keys come in order of first appearance. -/
theorem C12_key_order_chain (sh : Val → Bool) (ids : List String) (templates : List VDict) (config r : VDict)
    (hn : ∀ d ∈ templates ++ [config], (Dict.keys d).Nodup)
    (h : mergeAll sh ids templates config = .ok r) :
    Dict.keys r = firsts ((templates ++ [config]).flatMap Dict.keys) := by
  have key : ∀ (ts : List VDict) (acc r : VDict), (Dict.keys acc).Nodup → (∀ d ∈ ts, (Dict.keys d).Nodup) →
      ts.foldlM (fun acc d => mergeConfig sh ids acc d) acc = .ok r →
      Dict.keys r = firsts (Dict.keys acc ++ ts.flatMap Dict.keys) := by
    intro ts
    induction ts with
    | nil =>
      intro acc r ha _ h
      rw [List.foldlM_nil, pure_ok_iff] at h; subst h
      have := firsts_append_nodup (Dict.keys acc) [] ha List.nodup_nil
      simpa using this.symm
    | cons d ds ih =>
      intro acc r ha hn h
      rw [List.foldlM_cons, bind_ok_iff] at h
      obtain ⟨acc', h1, h2⟩ := h
      have hd := hn d (by simp)
      rw [ih acc' r (mergeKvs_nodup ha h1) (fun e he => hn e (by simp [he])) h2, mergeKvs_keys hd h1,
        ← firsts_append_nodup _ _ ha hd, firsts_firsts_append]
      simp
  cases templates with
  | nil =>
    cases h
    have := firsts_append_nodup [] (Dict.keys config) List.nodup_nil (hn config (by simp))
    rw [List.nil_append, List.nil_append, List.filter_eq_self.2 (by simp)] at this
    simpa using this.symm
  | cons t ts =>
    have := key ((t :: ts) ++ [config]) [] r (by simp) hn h
    simpa using this

example : firsts (["a", "b"] ++ ["b", "c"]) = ["a", "b", "c"] := by decide

end NJ
