import Verif.PropsPreMap
import Verif.PropsBackend
import Mathlib.Data.List.Forall2

/-!
# C97: variables replaced by the object, or beforehand by the caller
-/

namespace NJ

section
variable {S : Chars → Prop} {f : Chars → Chars} {sh sh' : Val → Bool}

/-- the loop of `merge_config`, given what holds of each value -/
theorem mergeKvs_map {Q : Val → Prop} {ids : List String} (c : VDict)
    (hu : ∀ p ∈ c, ∀ e : Option Val, (∀ w, e = some w → Q w) →
      mergeVal sh' ids (mapStr f p.2) (e.map (mapStr f)) = (mergeVal sh ids p.2 e).map (mapStr f) ∧ ∀ r, mergeVal sh ids p.2 e = .ok r → Q r)
    (acc : VDict) (ha : ∀ p ∈ acc, Q p.2) :
    mergeKvs sh' ids (mapStrD f c) (mapStrD f acc) = (mergeKvs sh ids c acc).map (mapStrD f) ∧
    ∀ out, mergeKvs sh ids c acc = .ok out → ∀ p ∈ out, Q p.2 := by
  have h := mfold_mapKV (κ := String) (φ := id) (g := mapStr f) (K := fun _ => True) (fun a b _ _ h => h) (Q := Q)
    (fun v e => mergeVal sh ids v e) (fun v e => mergeVal sh' ids (mapStr f v) e) c (fun _ _ => trivial) hu acc (fun p hp => ⟨trivial, ha p hp⟩)
  rw [mergeKvs_eq, mergeKvs_eq, mapStrD_eq, mapStrD_eq, List.map_map]
  refine ⟨?_, fun out ho p hp => (h.2 out ho p hp).2⟩
  refine Eq.trans h.1 ?_
  congr 1
  funext d
  exact (mapStrD_eq f d).symm

theorem mergeListWith_eq (ids : List String) (l1 l2 : List Val) : mergeListWith sh ids l1 (closures sh l2) = (do
    let k1 ← keyed sh ids 1 0 l1
    let k2 ← keyedNew sh ids (Dict.values (collapse k1)) 2 0 l2
    let m ← mfold (collapse k1) ((collapse k2).map fun p => (p.1, fun e => mergeVal sh [] p.2 e))
    pure (Dict.values m)) := by
  unfold mergeListWith
  rw [container1_eq]
  cases keyed sh ids 1 0 l1 with
  | error e => rfl
  | ok k1 =>
    simp only [Except.map, bind, Except.bind, foldl_set_eq_collapse]
    rw [closures_eq, container2_eq (g := fun v e => mergeVal sh [] v e)]
    cases keyedNew sh ids (Dict.values (collapse k1)) 2 0 l2 with
    | error e => rfl
    | ok k2 =>
      simp only [Except.map, foldl_set_eq_collapse, collapse_map (f := fun v : Val => ((v, fun e => mergeVal sh [] v e) : Mergeable)), mergeContainers_eq, List.map_map]
      rfl

variable (hinj : ∀ a b, S a → S b → f a = f b → a = b) (hsh : ∀ v, AllT S v → sh' (mapStr f v) = sh v)
include hinj hsh

/-- `merge_list`, given what holds of each element of the second list -/
theorem mergeList_map {ids : List String} (l2 : List Val) (h2 : ∀ v ∈ l2, AllT S v)
    (hu : ∀ v ∈ l2, ∀ e : Option Val, (∀ w, e = some w → AllT S w) →
      mergeVal sh' [] (mapStr f v) (e.map (mapStr f)) = (mergeVal sh [] v e).map (mapStr f) ∧ ∀ r, mergeVal sh [] v e = .ok r → AllT S r)
    (l1 : List Val) (h1 : ∀ v ∈ l1, AllT S v) :
    mergeListWith sh' ids (l1.map (mapStr f)) (closures sh' (l2.map (mapStr f))) = (mergeListWith sh ids l1 (closures sh l2)).map (List.map (mapStr f)) ∧
    ∀ out, mergeListWith sh ids l1 (closures sh l2) = .ok out → ∀ v ∈ out, AllT S v := by
  rw [mergeListWith_eq, mergeListWith_eq]
  have hφ := mapT_inj hinj (S := S) (f := f)
  obtain ⟨a1, a2⟩ := keyed_map hsh ids 1 l1 h1 0
  rw [a1]
  cases hk1 : keyed sh ids 1 0 l1 with
  | error e => exact ⟨rfl, fun out h => by cases h⟩
  | ok k1 =>
    have b1 := a2 k1 hk1
    have hc1 : ∀ p ∈ collapse k1, p.1.Ok S ∧ AllT S p.2 := fun p hp => ⟨(b1 p (collapse_sub k1 p hp)).1, h1 _ (b1 p (collapse_sub k1 p hp)).2⟩
    have e1 : collapse (k1.map fun p => (p.1.mapT f, mapStr f p.2)) = (collapse k1).map fun p => (p.1.mapT f, mapStr f p.2) :=
      collapse_mapKV hφ k1 (fun p hp => (b1 p hp).1)
    have e2 : Dict.values ((collapse k1).map fun p => (p.1.mapT f, mapStr f p.2)) = (Dict.values (collapse k1)).map (mapStr f) := by
      simp [Dict.values, Function.comp_def]
    have hv : ∀ v ∈ Dict.values (collapse k1), AllT S v := by
      intro v hv
      obtain ⟨p, hp, rfl⟩ := List.mem_map.1 hv
      exact (hc1 p hp).2
    obtain ⟨c1, c2⟩ := keyedNew_map hinj hsh ids (Dict.values (collapse k1)) hv 2 l2 h2 0
    simp only [Except.map, bind, Except.bind, e1, e2, c1]
    cases hk2 : keyedNew sh ids (Dict.values (collapse k1)) 2 0 l2 with
    | error e => exact ⟨rfl, fun out h => by cases h⟩
    | ok k2 =>
      have d1 := c2 k2 hk2
      have hd : ∀ p ∈ collapse k2, p.1.Ok S ∧ p.2 ∈ l2 := fun p hp => d1 p (collapse_sub k2 p hp)
      have e3 : collapse (k2.map fun p => (p.1.mapT f, mapStr f p.2)) = (collapse k2).map fun p => (p.1.mapT f, mapStr f p.2) :=
        collapse_mapKV hφ k2 (fun p hp => (d1 p hp).1)
      have hm := mfold_mapKV (φ := LKey.mapT f) (g := mapStr f) (K := LKey.Ok S) hφ (Q := AllT S)
        (fun v e => mergeVal sh [] v e) (fun v e => mergeVal sh' [] (mapStr f v) e) (collapse k2) (fun p hp => (hd p hp).1)
        (fun p hp e he => hu p.2 (hd p hp).2 e he) (collapse k1) hc1
      simp only [e3, List.map_map, Function.comp_def]
      rw [show mfold ((collapse k1).map fun p => (p.1.mapT f, mapStr f p.2)) ((collapse k2).map fun p => (p.1.mapT f, fun e => mergeVal sh' [] (mapStr f p.2) e)) = _
        from hm.1]
      cases hmf : mfold (collapse k1) ((collapse k2).map fun p => (p.1, fun e => mergeVal sh [] p.2 e)) with
      | error e => exact ⟨rfl, fun out h => by cases h⟩
      | ok m =>
        constructor
        · simp [Except.map, pure, Except.pure, Dict.values, Function.comp_def]
        · intro out ho
          cases ho
          intro v hv
          obtain ⟨p, hp, rfl⟩ := List.mem_map.1 hv
          exact (hm.2 m hmf p hp).2

/-- inside of lists -/
theorem mergeVal_mapAll (v : Val) : ∀ ids (e : Option Val), AllT S v → (∀ w, e = some w → AllT S w) →
    mergeVal sh' ids (mapStr f v) (e.map (mapStr f)) = (mergeVal sh ids v e).map (mapStr f) ∧ ∀ r, mergeVal sh ids v e = .ok r → AllT S r := by
  induction v using Val.induct with
  | hd d ih =>
    intro ids e hv he
    cases e with
    | none => simp only [Option.map_none, mergeVal_none]; exact ⟨rfl, fun r h => by cases h; exact hv⟩
    | some w =>
      cases w with
      | dict t =>
        have hd := allT_dict.1 hv
        have h := mergeKvs_map (sh := sh) (sh' := sh') (f := f) (Q := AllT S) (ids := ids) d (fun p hp e he => ih p hp ids e (hd p hp) he) t (allT_dict.1 (he _ rfl))
        simp only [Option.map_some, mapStr, mergeVal, h.1]
        cases hm : mergeKvs sh ids d t with
        | error e => exact ⟨rfl, fun r h => by cases h⟩
        | ok o => exact ⟨rfl, fun r hr => by cases hr; exact allT_dict.2 (h.2 o hm)⟩
      | list t => simp only [Option.map_some, mapStr, mergeVal]; exact ⟨rfl, fun r h => by cases h⟩
      | _ => simp only [Option.map_some, mapStr, mergeVal]; exact ⟨by simp only [Except.map, mapStr], fun r h => by cases h; exact hv⟩
  | hl l ih =>
    intro ids e hv he
    cases e with
    | none => simp only [Option.map_none, mergeVal_none]; exact ⟨rfl, fun r h => by cases h; exact hv⟩
    | some w =>
      cases w with
      | list t =>
        have hl := allT_list.1 hv
        have h := mergeList_map hinj hsh (ids := ids) l hl (fun v hv e he => ih v hv [] e (hl v hv) he) t (allT_list.1 (he _ rfl))
        simp only [Option.map_some, mapStr, mergeVal, mapStrL_eq, h.1]
        cases hm : mergeListWith sh ids t (closures sh l) with
        | error e => exact ⟨rfl, fun r h => by cases h⟩
        | ok o =>
          refine ⟨?_, fun r hr => by cases hr; exact allT_list.2 (h.2 o hm)⟩
          simp only [Except.map, bind, Except.bind, pure, Except.pure, mapStr, mapStrL_eq]
      | dict t => simp only [Option.map_some, mapStr, mergeVal]; exact ⟨rfl, fun r h => by cases h⟩
      | _ => simp only [Option.map_some, mapStr, mergeVal]; exact ⟨by simp only [Except.map, mapStr], fun r h => by cases h; exact hv⟩
  | hn => intro ids e hv _; simp only [mapStr, mergeVal]; exact ⟨by simp only [Except.map, mapStr], fun r h => by cases h; exact hv⟩
  | hb b => intro ids e hv _; simp only [mapStr, mergeVal]; exact ⟨by simp only [Except.map, mapStr], fun r h => by cases h; exact hv⟩
  | hi i => intro ids e hv _; simp only [mapStr, mergeVal]; exact ⟨by simp only [Except.map, mapStr], fun r h => by cases h; exact hv⟩
  | hs s => intro ids e hv _; simp only [mapStr, mergeVal]; exact ⟨by simp only [Except.map, mapStr], fun r h => by cases h; exact hv⟩

/-- anywhere -/
theorem mergeVal_mapList (v : Val) : ∀ ids (e : Option Val), ListT S v → (∀ w, e = some w → ListT S w) →
    mergeVal sh' ids (mapStr f v) (e.map (mapStr f)) = (mergeVal sh ids v e).map (mapStr f) ∧ ∀ r, mergeVal sh ids v e = .ok r → ListT S r := by
  induction v using Val.induct with
  | hd d ih =>
    intro ids e hv he
    cases e with
    | none => simp only [Option.map_none, mergeVal_none]; exact ⟨rfl, fun r h => by cases h; exact hv⟩
    | some w =>
      cases w with
      | dict t =>
        have hd := listT_dict.1 hv
        have h := mergeKvs_map (sh := sh) (sh' := sh') (f := f) (Q := ListT S) (ids := ids) d (fun p hp e he => ih p hp ids e (hd p hp) he) t (listT_dict.1 (he _ rfl))
        simp only [Option.map_some, mapStr, mergeVal, h.1]
        cases hm : mergeKvs sh ids d t with
        | error e => exact ⟨rfl, fun r h => by cases h⟩
        | ok o => exact ⟨rfl, fun r hr => by cases hr; exact listT_dict.2 (h.2 o hm)⟩
      | list t => simp only [Option.map_some, mapStr, mergeVal]; exact ⟨rfl, fun r h => by cases h⟩
      | _ => simp only [Option.map_some, mapStr, mergeVal]; exact ⟨by simp only [Except.map, mapStr], fun r h => by cases h; exact hv⟩
  | hl l _ =>
    intro ids e hv he
    cases e with
    | none => simp only [Option.map_none, mergeVal_none]; exact ⟨rfl, fun r h => by cases h; exact hv⟩
    | some w =>
      cases w with
      | list t =>
        obtain ⟨h1, h2⟩ := mergeVal_mapAll hinj hsh (.list l) ids (some (.list t)) (listT_list.1 hv) (fun w hw => by cases hw; exact listT_list.1 (he _ rfl))
        refine ⟨h1, fun r hr => ?_⟩
        obtain ⟨o, _, rfl⟩ := (mergeVal_list_list l t r).1 hr
        exact listT_list.2 (h2 _ hr)
      | dict t => simp only [Option.map_some, mapStr, mergeVal]; exact ⟨rfl, fun r h => by cases h⟩
      | _ => simp only [Option.map_some, mapStr, mergeVal]; exact ⟨by simp only [Except.map, mapStr], fun r h => by cases h; exact hv⟩
  | hn => intro ids e hv _; simp only [mapStr, mergeVal]; exact ⟨by simp only [Except.map, mapStr], fun r h => by cases h; exact hv⟩
  | hb b => intro ids e hv _; simp only [mapStr, mergeVal]; exact ⟨by simp only [Except.map, mapStr], fun r h => by cases h; exact hv⟩
  | hi i => intro ids e hv _; simp only [mapStr, mergeVal]; exact ⟨by simp only [Except.map, mapStr], fun r h => by cases h; exact hv⟩
  | hs s => intro ids e hv _; simp only [mapStr, mergeVal]; exact ⟨by simp only [Except.map, mapStr], fun r h => by cases h; exact hv⟩

end

/-! ## construction -/

/-- what the variables make of a text (itself, if it cannot be evaluated) -/
def evalText (reprC : Val → String) (ctx : VDict) (s : Chars) : Chars := (evalStr reprC ctx s).toOption.getD s

theorem evalD_ok {reprC : Val → String} {ctx d d' : VDict} (h : evaluateConfig reprC (some ctx) d = .ok d') :
    d' = mapStrD (evalText reprC ctx) d ∧ AllT (fun s => ∃ t, evalStr reprC ctx s = .ok t) (.dict d) := by
  have h' : evalVarsD reprC ctx d = .ok d' := by
    cases ctx with
    | nil =>
      cases h
      have := C17_irrelevant_context reprC [] (.dict d) (fun s _ p _ _ => rfl)
      rw [evalVars] at this
      obtain ⟨r, h1, h2⟩ := bind_ok_iff.1 this
      cases h2
      exact h1
    | cons p ps => exact h
  have ha : AllT (fun s => ∃ t, evalStr reprC ctx s = .ok t) (.dict d) := by
    intro s hs
    exact evalVarsD_ok_all d d' h' s (by simpa [strings] using hs)
  refine ⟨?_, ha⟩
  have := evalVarsD_iff (reprC := reprC) (ctx := ctx) (evalStr reprC ctx) (fun _ => rfl) d (fun s hs => ha s (by simpa [strings] using hs))
  rw [h'] at this
  exact Except.ok.inj this

theorem evalD_of {reprC : Val → String} {ctx d : VDict} (h : AllT (fun s => ∃ t, evalStr reprC ctx s = .ok t) (.dict d)) :
    evaluateConfig reprC (some ctx) d = .ok (mapStrD (evalText reprC ctx) d) := by
  obtain ⟨r, hr⟩ := (C13_fails_only_for_a_string reprC ctx (.dict d)).2 h
  have hd : ∃ d', evaluateConfig reprC (some ctx) d = .ok d' := by
    cases ctx with
    | nil => exact ⟨d, rfl⟩
    | cons p ps =>
      rw [evalVars] at hr
      obtain ⟨r', h1, _⟩ := bind_ok_iff.1 hr
      exact ⟨r', h1⟩
  obtain ⟨d', hd'⟩ := hd
  rw [hd', (evalD_ok hd').1]

theorem foldl_map {S : Chars → Prop} {f : Chars → Chars} {sh : Val → Bool} {ids : List String} {E : Chars → Prop}
    (hinj : ∀ a b, S a → S b → f a = f b → a = b) (hsh : ∀ v, AllT S v → sh (mapStr f v) = sh v)
    (l : List VDict) (hl : ∀ d ∈ l, ListT S (.dict d) ∧ AllT E (.dict d)) (acc : VDict) (ha : ListT S (.dict acc) ∧ AllT E (.dict acc)) :
    (l.map (mapStrD f)).foldlM (fun acc c => mergeConfig sh ids acc c) (mapStrD f acc) = (l.foldlM (fun acc c => mergeConfig sh ids acc c) acc).map (mapStrD f) ∧
    ∀ out, l.foldlM (fun acc c => mergeConfig sh ids acc c) acc = .ok out → AllT E (.dict out) := by
  induction l generalizing acc with
  | nil => exact ⟨rfl, fun out h => by cases h; exact ha.2⟩
  | cons d r ih =>
    have hd := hl d (by simp)
    obtain ⟨h1, h2⟩ := mergeKvs_map (sh := sh) (sh' := sh) (f := f) (Q := ListT S) (ids := ids) d
      (fun p hp e he => mergeVal_mapList hinj hsh p.2 ids e (listT_dict.1 hd.1 p hp) he) acc (listT_dict.1 ha.1)
    obtain ⟨_, h3⟩ := mergeKvs_map (sh := sh) (sh' := sh) (f := id) (Q := AllT E) (ids := ids) d
      (fun p hp e he => mergeVal_mapAll (S := E) (sh := sh) (sh' := sh) (f := id) (fun a b _ _ h => h) (fun v _ => by rw [mapStr_id]) p.2 ids e (allT_dict.1 hd.2 p hp) he)
      acc (allT_dict.1 ha.2)
    simp only [List.map_cons, List.foldlM_cons, mergeConfig, h1]
    cases hm : mergeKvs sh ids d acc with
    | error e => exact ⟨rfl, fun out h => by cases h⟩
    | ok o => exact ih (fun d hd => hl d (by simp [hd])) o ⟨listT_dict.2 (h2 o hm), allT_dict.2 (h3 o hm)⟩

theorem mergeTemplates_dicts (cls : Class) (c : VDict) (ts : List VDict) :
    mergeTemplates cls c (.list (ts.map fun t => .val (.dict t))) =
      if ts = [] then .ok c else (ts ++ [c]).foldlM (fun acc c => mergeConfig cls.sh cls.ids acc c) [] := by
  have h : ∀ (l : List VDict) (acc : VDict), (l.map fun t => Arg.val (.dict t)).foldlM (fun acc t => do
      let c ← load cls t
      mergeConfig cls.sh cls.ids acc c) acc = l.foldlM (fun acc c => mergeConfig cls.sh cls.ids acc c) acc := by
    intro l
    induction l with
    | nil => intro acc; rfl
    | cons d r ih =>
      intro acc
      simp only [List.map_cons, List.foldlM_cons]
      show (do
        let a ← mergeConfig cls.sh cls.ids acc d
        (r.map fun t => Arg.val (.dict t)).foldlM _ a) = _
      cases mergeConfig cls.sh cls.ids acc d with
      | error e => rfl
      | ok o => exact ih o
  cases ts with
  | nil => rfl
  | cons t ts =>
    rw [if_neg (by simp)]
    rw [← h, List.map_append]
    rfl

/-- **C97** -/
theorem C97_beforehand (cls : Class) (ctx : VDict) (c c' : VDict) (ts ts' : List VDict)
    (hc : evaluateConfig cls.reprC (some ctx) c = .ok c') (ht : List.Forall₂ (fun t t' => evaluateConfig cls.reprC (some ctx) t = .ok t') ts ts')
    (hinj : ∀ a ∈ (ts ++ [c]).flatMap (fun d => listTexts (.dict d)), ∀ b ∈ (ts ++ [c]).flatMap (fun d => listTexts (.dict d)),
      evalStr cls.reprC ctx a = evalStr cls.reprC ctx b → a = b)
    (hsh : ∀ v v', (∀ s ∈ strings v, s ∈ (ts ++ [c]).flatMap fun d => listTexts (.dict d)) → evalVars cls.reprC ctx v = .ok v' → cls.sh v' = cls.sh v) :
    construct cls (some (.val (.dict c))) none (.list (ts.map fun t => .val (.dict t))) (some ctx) =
      construct cls (some (.val (.dict c'))) none (.list (ts'.map fun t => .val (.dict t))) none := by
  obtain ⟨rfl, hce⟩ := evalD_ok hc
  have hts : ts' = ts.map (mapStrD (evalText cls.reprC ctx)) ∧ ∀ t ∈ ts, AllT (fun s => ∃ t, evalStr cls.reprC ctx s = .ok t) (.dict t) := by
    clear hinj hsh
    induction ht with
    | nil => exact ⟨rfl, by simp⟩
    | cons h _ ih =>
      obtain ⟨rfl, h2⟩ := evalD_ok h
      refine ⟨by rw [ih.1]; rfl, ?_⟩
      intro t ht
      rcases List.mem_cons.1 ht with rfl | ht
      · exact h2
      · exact ih.2 t ht
  obtain ⟨rfl, hte⟩ := hts
  have hall : ∀ d ∈ ts ++ [c], AllT (fun s => ∃ t, evalStr cls.reprC ctx s = .ok t) (.dict d) := by
    intro d hd
    rcases List.mem_append.1 hd with hd | hd
    · exact hte d hd
    · rw [List.mem_singleton.1 hd]; exact hce
  -- every text inside of lists can be evaluated
  have sub : ∀ v : Val, ∀ s ∈ listTexts v, s ∈ strings v := by
    intro v
    induction v using Val.induct with
    | hl l ih => intro s hs; simpa only [listTexts, strings] using hs
    | hd d ih =>
      have := (allT_dict (S := fun s => s ∈ strings (.dict d)) (d := d)).1 (fun s hs => hs)
      exact (listT_dict (S := fun s => s ∈ strings (.dict d)) (d := d)).2 (fun p hp s hs => this p hp s (ih p hp s hs))
    | _ => intro s hs; simp [listTexts] at hs
  have hev : ∀ s ∈ (ts ++ [c]).flatMap (fun d => listTexts (.dict d)), ∃ t, evalStr cls.reprC ctx s = .ok t := by
    intro s hs
    obtain ⟨d, hd, hs⟩ := List.mem_flatMap.1 hs
    exact hall d hd s (sub _ s hs)
  have htext : ∀ s, (∃ t, evalStr cls.reprC ctx s = .ok t) → evalStr cls.reprC ctx s = .ok (evalText cls.reprC ctx s) := by
    rintro s ⟨t, h⟩
    rw [evalText, h]; rfl
  have hinj' : ∀ a b, a ∈ (ts ++ [c]).flatMap (fun d => listTexts (.dict d)) → b ∈ (ts ++ [c]).flatMap (fun d => listTexts (.dict d)) →
      evalText cls.reprC ctx a = evalText cls.reprC ctx b → a = b := by
    intro a b ha hb h
    refine hinj a ha b hb ?_
    rw [htext a (hev a ha), htext b (hev b hb), h]
  have hsh' : ∀ v, AllT (fun s => s ∈ (ts ++ [c]).flatMap fun d => listTexts (.dict d)) v → cls.sh (mapStr (evalText cls.reprC ctx) v) = cls.sh v := by
    intro v hv
    refine hsh v _ hv ?_
    exact evalVars_iff (reprC := cls.reprC) (ctx := ctx) (evalStr cls.reprC ctx) (fun _ => rfl) v (fun s hs => hev s (hv s hs))
  have hl : ∀ d ∈ ts ++ [c], ListT (fun s => s ∈ (ts ++ [c]).flatMap fun d => listTexts (.dict d)) (.dict d) ∧
      AllT (fun s => ∃ t, evalStr cls.reprC ctx s = .ok t) (.dict d) :=
    fun d hd => ⟨fun s hs => List.mem_flatMap.2 ⟨d, hd, hs⟩, hall d hd⟩
  obtain ⟨h1, h2⟩ := foldl_map (ids := cls.ids) hinj' hsh' (ts ++ [c]) hl [] ⟨listT_dict.2 (by simp), allT_dict.2 (by simp)⟩
  simp only [construct, load]
  show (do
      let m ← mergeTemplates cls c (.list (ts.map fun t => .val (.dict t)))
      let e ← evaluateConfig cls.reprC (some ctx) m
      pure (⟨e, none⟩ : BState)) = (do
      let m ← mergeTemplates cls (mapStrD (evalText cls.reprC ctx) c) (.list ((ts.map (mapStrD (evalText cls.reprC ctx))).map fun t => .val (.dict t)))
      let e ← evaluateConfig cls.reprC none m
      pure (⟨e, none⟩ : BState))
  rw [mergeTemplates_dicts, mergeTemplates_dicts]
  cases ts with
  | nil =>
    rw [if_pos rfl, if_pos (show List.map (mapStrD (evalText cls.reprC ctx)) [] = [] from rfl)]
    show (do
      let e ← evaluateConfig cls.reprC (some ctx) c
      pure (⟨e, none⟩ : BState)) = _
    rw [hc]
    rfl
  | cons t ts =>
    rw [if_neg (by simp), if_neg (by simp)]
    rw [show (t :: ts).map (mapStrD (evalText cls.reprC ctx)) ++ [mapStrD (evalText cls.reprC ctx) c] = ((t :: ts) ++ [c]).map (mapStrD (evalText cls.reprC ctx)) by simp]
    rw [show ([] : VDict) = mapStrD (evalText cls.reprC ctx) [] from rfl, h1]
    show (do
      let m ← ((t :: ts) ++ [c]).foldlM (fun acc c => mergeConfig cls.sh cls.ids acc c) []
      let e ← evaluateConfig cls.reprC (some ctx) m
      pure (⟨e, none⟩ : BState)) = _
    cases hm : ((t :: ts) ++ [c]).foldlM (fun acc c => mergeConfig cls.sh cls.ids acc c) [] with
    | error e => rfl
    | ok o =>
      show (do
        let e ← evaluateConfig cls.reprC (some ctx) o
        pure (⟨e, none⟩ : BState)) = _
      rw [evalD_of (h2 o hm)]
      rfl

/-- without texts inside of lists nothing is asked of the values of the variables -/
theorem C97_no_lists (cls : Class) (ctx : VDict) (c c' : VDict) (ts ts' : List VDict)
    (hc : evaluateConfig cls.reprC (some ctx) c = .ok c') (ht : List.Forall₂ (fun t t' => evaluateConfig cls.reprC (some ctx) t = .ok t') ts ts')
    (hl : ∀ d ∈ ts ++ [c], listTexts (.dict d) = []) :
    construct cls (some (.val (.dict c))) none (.list (ts.map fun t => .val (.dict t))) (some ctx) =
      construct cls (some (.val (.dict c'))) none (.list (ts'.map fun t => .val (.dict t))) none := by
  have h0 : (ts ++ [c]).flatMap (fun d => listTexts (.dict d)) = [] := List.flatMap_eq_nil_iff.2 hl
  refine C97_beforehand cls ctx c c' ts ts' hc ht (by rw [h0]; simp) ?_
  rw [h0]
  intro v v' hv h
  have := C17_irrelevant_context cls.reprC ctx v (fun s hs => by cases hv s hs)
  rw [this] at h
  cases h
  rfl

end NJ
