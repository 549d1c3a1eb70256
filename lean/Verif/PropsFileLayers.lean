import Verif.PropsPre
import Verif.PropsFiles
import Verif.PropsBackend

/-!
# C98: files of templates and files of the configuration
-/

namespace NJ

/-- **Specification.** Lists of files one after the other, without those that are equal to one that comes before. -/
def layered (layers : List (List Val)) : List Val :=
  layers.foldl (fun acc l => acc ++ l.filter fun f => !acc.any fun g => Val.pyEq f g) []

/-- the files of a template or configuration: well-formed dictionaries without identifiers of list elements, each its own object -/
structure FilesOk (cls : Class) (d : VDict) : Prop where
  shape : Dict.get? d "files" = none ∨ ∃ l, Dict.get? d "files" = some (.list l)
  plain : ∀ f ∈ filesOf d, f.WF ∧ identOf cls.ids f = none ∧ cls.sh f = false
  keys : (Dict.keys d).Nodup

theorem mergeList_plain {sh : Val → Bool} {ids : List String} {l1 l2 r : List Val} (h1 : ∀ f ∈ l1, f.WF ∧ identOf ids f = none ∧ sh f = false)
    (h2 : ∀ f ∈ l2, f.WF ∧ identOf ids f = none ∧ sh f = false) (h : mergeList sh ids l1 l2 = .ok r) :
    r = l1 ++ l2.filter fun f => !l1.any fun g => Val.pyEq f g := by
  have hd : ∀ l : List Val, (∀ f ∈ l, f.WF ∧ identOf ids f = none ∧ sh f = false) → Distinct sh ids l := by
    intro l hl
    unfold Distinct
    apply List.Pairwise.imp_of_mem (R := fun _ _ => True)
    · intro a b ha hb _
      refine ⟨fun k hk => ?_, fun hs => ?_⟩
      · rw [(hl a ha).2.1] at hk; cases hk
      · rw [(hl a ha).2.2] at hs; cases hs
    · exact List.pairwise_of_forall (by simp)
  obtain ⟨ms, hlen, hms, hr⟩ := C06_merge_list_order sh ids l1 l2 r (fun v hv => (h1 v hv).1) (hd l1 h1) (hd l2 h2) h
  have hm : ms = l1 := by
    apply List.ext_getElem hlen
    intro i i1 i2
    rcases hms i i2 i1 with ⟨k, e, _, _, hk, _⟩ | ⟨hk, _⟩
    · rw [(h1 _ (List.getElem_mem i2)).2.1] at hk; cases hk
    · exact hk
  rw [hr, hm]
  congr 1
  apply List.filter_congr
  intro e he
  rw [(h2 e he).2.1]
  simp

theorem filesOf_merge {cls : Class} {acc d r : VDict} (ha : FilesOk cls acc) (hd : FilesOk cls d) (h : mergeConfig cls.sh cls.ids acc d = .ok r) :
    filesOf r = filesOf acc ++ (filesOf d).filter (fun f => !(filesOf acc).any fun g => Val.pyEq f g) ∧ FilesOk cls r := by
  have hk := mergeKvs_nodup ha.keys h
  have main : (filesOf r = filesOf acc ++ (filesOf d).filter (fun f => !(filesOf acc).any fun g => Val.pyEq f g)) ∧
      (Dict.get? r "files" = none ∨ ∃ l, Dict.get? r "files" = some (.list l)) := by
    rcases hd.shape with e | ⟨l, e⟩
    · have hg := mergeKvs_get?_not_mem h ((Dict.get?_eq_none_iff d "files").1 e)
      refine ⟨?_, by rw [hg]; exact ha.shape⟩
      unfold filesOf
      rw [hg, e]
      simp
    · obtain ⟨x, hx, hr⟩ := mergeKvs_get?_mem hd.keys h e
      rcases ha.shape with e' | ⟨t, e'⟩
      · rw [e', mergeVal_none] at hx
        cases hx
        refine ⟨?_, .inr ⟨l, hr⟩⟩
        unfold filesOf
        rw [hr, e, e']
        simp
      · rw [e'] at hx
        obtain ⟨o, ho, rfl⟩ := (mergeVal_list_list l t x).1 hx
        refine ⟨?_, .inr ⟨o, hr⟩⟩
        have hp1 := ha.plain
        have hp2 := hd.plain
        unfold filesOf at hp1 hp2 ⊢
        rw [e'] at hp1
        rw [e] at hp2
        rw [hr, e, e']
        exact mergeList_plain hp1 hp2 ho
  refine ⟨main.1, main.2, ?_, hk⟩
  intro f hf
  rw [main.1] at hf
  rcases List.mem_append.1 hf with hf | hf
  · exact ha.plain f hf
  · exact hd.plain f (List.mem_of_mem_filter hf)

theorem filesOf_fold {cls : Class} (l : List VDict) (hl : ∀ d ∈ l, FilesOk cls d) (acc r : VDict) (ha : FilesOk cls acc)
    (h : l.foldlM (fun acc c => mergeConfig cls.sh cls.ids acc c) acc = .ok r) :
    filesOf r = (l.map filesOf).foldl (fun acc l => acc ++ l.filter fun f => !acc.any fun g => Val.pyEq f g) (filesOf acc) := by
  induction l generalizing acc with
  | nil => cases h; rfl
  | cons d ds ih =>
    rw [List.foldlM_cons] at h
    obtain ⟨x, hx, h⟩ := bind_ok_iff.1 h
    obtain ⟨h1, h2⟩ := filesOf_merge ha (hl d (by simp)) hx
    rw [ih (fun d hd => hl d (by simp [hd])) x h2 h, h1]
    rfl

/-- **C98**, which files the object has -/
theorem C98_layers (cls : Class) (c : VDict) (ts : List VDict) (hok : ∀ d ∈ ts ++ [c], FilesOk cls d) {st : BState}
    (h : construct cls (some (.val (.dict c))) none (.list (ts.map fun t => .val (.dict t))) none = .ok st) :
    filesOf st.config = layered ((ts ++ [c]).map filesOf) := by
  simp only [construct, load] at h
  change (do
      let m ← mergeTemplates cls c (.list (ts.map fun t => .val (.dict t)))
      let e ← evaluateConfig cls.reprC none m
      pure (⟨e, none⟩ : BState)) = .ok st at h
  rw [mergeTemplates_dicts] at h
  obtain ⟨m, hm, h⟩ := bind_ok_iff.1 h
  cases h
  cases ts with
  | nil =>
    rw [if_pos rfl] at hm
    cases hm
    simp [layered]
  | cons t ts =>
    rw [if_neg (by simp)] at hm
    exact filesOf_fold _ hok [] m ⟨.inl rfl, by simp [filesOf, Dict.get?], by simp [Dict.keys]⟩ hm

theorem lastFile_append (p : Chars) (a b : List Val) : lastFile p (a ++ b) = (lastFile p b).or (lastFile p a) := by
  unfold lastFile
  rw [List.reverse_append, List.find?_append]

theorem find_filter {α : Type} {q r : α → Bool} {f : α} (l : List α) (h : l.find? q = some f) (hr : r f = true) : (l.filter r).find? q = some f := by
  induction l with
  | nil => cases h
  | cons x xs ih =>
    rw [List.find?_cons] at h
    cases hq : q x with
    | true =>
      rw [hq] at h
      cases h
      rw [List.filter_cons_of_pos hr, List.find?_cons, hq]
    | false =>
      rw [hq] at h
      by_cases hx : r x = true
      · rw [List.filter_cons_of_pos hx, List.find?_cons, hq]; exact ih h
      · rw [List.filter_cons_of_neg hx]; exact ih h

theorem lastFile_filter_none {p : Chars} {l : List Val} (r : Val → Bool) (h : lastFile p l = none) : lastFile p (l.filter r) = none := by
  unfold lastFile at h ⊢
  rw [List.find?_eq_none] at h ⊢
  intro x hx
  exact h x (by rw [List.mem_reverse] at hx ⊢; exact List.mem_of_mem_filter hx)

theorem layer_sub (layers : List (List Val)) (acc : List Val) (f : Val)
    (h : f ∈ layers.foldl (fun acc l => acc ++ l.filter fun f => !acc.any fun g => Val.pyEq f g) acc) : f ∈ acc ∨ ∃ l ∈ layers, f ∈ l := by
  induction layers generalizing acc with
  | nil => exact .inl h
  | cons l ls ih =>
    rcases ih _ h with h | ⟨m, hm, hf⟩
    · rcases List.mem_append.1 h with h | h
      · exact .inl h
      · exact .inr ⟨l, by simp, List.mem_of_mem_filter h⟩
    · exact .inr ⟨m, by simp [hm], hf⟩

theorem layer_keep {p : Chars} {f : Val} (after : List (List Val)) (ha : ∀ l ∈ after, lastFile p l = none) (acc : List Val) (h : lastFile p acc = some f) :
    lastFile p (after.foldl (fun acc l => acc ++ l.filter fun f => !acc.any fun g => Val.pyEq f g) acc) = some f := by
  induction after generalizing acc with
  | nil => exact h
  | cons l ls ih =>
    refine ih (fun l hl => ha l (by simp [hl])) _ ?_
    rw [lastFile_append, lastFile_filter_none _ (ha l (by simp)), h]
    rfl

/-- **C98**: the file of a path is the last one of the last template (or of the configuration) that has the path, if the templates before have no file that equals it -/
theorem C98_last_wins (cls : Class) (c : VDict) (ts : List VDict) (hok : ∀ d ∈ ts ++ [c], FilesOk cls d) {st : BState}
    (h : construct cls (some (.val (.dict c))) none (.list (ts.map fun t => .val (.dict t))) none = .ok st)
    {before after : List VDict} {layer : VDict} (hs : ts ++ [c] = before ++ layer :: after) {p : Chars} {f : Val}
    (hf : lastFile p (filesOf layer) = some f) (ha : ∀ d ∈ after, lastFile p (filesOf d) = none)
    (hb : ∀ d ∈ before, ∀ g ∈ filesOf d, Val.pyEq f g = false) : lastFile p (filesOf st.config) = some f := by
  rw [C98_layers cls c ts hok h, hs]
  unfold layered
  rw [List.map_append, List.foldl_append, List.map_cons, List.foldl_cons]
  refine layer_keep _ (by
    intro l hl
    obtain ⟨d, hd, rfl⟩ := List.mem_map.1 hl
    exact ha d hd) _ ?_
  rw [lastFile_append]
  have hk : lastFile p ((filesOf layer).filter fun f => !((before.map filesOf).foldl (fun acc l => acc ++ l.filter fun f => !acc.any fun g => Val.pyEq f g) []).any
      fun g => Val.pyEq f g) = some f := by
    unfold lastFile at hf ⊢
    rw [← List.filter_reverse]
    refine find_filter _ hf ?_
    rw [Bool.not_eq_true', List.any_eq_false]
    intro g hg
    rcases layer_sub _ _ g hg with hg | ⟨l, hl, hg⟩
    · cases hg
    · obtain ⟨d, hd, rfl⟩ := List.mem_map.1 hl
      rw [hb d hd g hg]
      simp
  rw [hk]
  rfl

/-- **C98**, archive: the file that was found is in the archive, as the only one of its path, if the conversion makes no file of that path -/
theorem C98_archive (cls : Class) {st st' : BState} {l : List Member} (h : generate cls st = (st', .ok l)) {p : Chars} {f : Val}
    (hf : lastFile p (filesOf st.config) = some f) (hk : lastFile p (filesOf (ensureIntermediate cls st).1.config) = lastFile p (filesOf st.config)) :
    ∃ item m, fileItem f = .ok item ∧ addFile (memberName item.path) item.contents item.mode = .ok m ∧ m ∈ l ∧
      ∀ g ∈ filesOf st'.config, filePath g = .ok p → g = f := by
  unfold generate at h
  split at h
  · cases h
  · rename_i st1 text hr
    obtain ⟨hst, hl⟩ := Prod.mk.inj h
    subst hst
    obtain ⟨a, _, hl⟩ := bind_ok_iff.1 hl
    obtain ⟨b, hb, hl⟩ := bind_ok_iff.1 hl
    cases hl
    have hd : deduplicateFiles (ensureIntermediate cls st).1.config = .ok st1.config := by
      obtain ⟨_, st2, he, ht⟩ := render_ok hr
      obtain ⟨c, hc, rfl, _⟩ := renderTail_ok ht
      rw [he]; exact hc
    rw [hf] at hk
    generalize (ensureIntermediate cls st).1.config = c1 at hd hk
    clear hf
    rename' hk => hf
    obtain ⟨paths, hp1, hp2, hp3, _⟩ := C21_one_file_per_path _ _ hd
    have hfp : filePath f = .ok p ∧ f ∈ filesOf c1 := by
      unfold lastFile at hf
      have h1 := List.find?_some hf
      have h2 := List.mem_of_find?_eq_some hf
      refine ⟨?_, by simpa using h2⟩
      split at h1
      · rename_i q hq; rw [hq, beq_iff_eq.1 h1]
      · cases h1
    -- the path is among those of the result
    have hpm : p ∈ paths := by
      have : ∀ (fs : List Val) (ps : List Chars), fs.mapM filePath = .ok ps → f ∈ fs → p ∈ ps := by
        intro fs
        induction fs with
        | nil => intro _ _ h; cases h
        | cons x xs ih =>
          intro ps hps hm
          obtain ⟨q, qs, hq, hqs, rfl⟩ := (mapM_ok_cons _ _ _ _).1 hps
          rcases List.mem_cons.1 hm with rfl | hm
          · rw [hfp.1] at hq; cases hq; simp
          · simp [ih qs hqs hm]
      exact this _ _ hp1 hfp.2
    have hg : ∃ g ∈ filesOf st1.config, filePath g = .ok p := by
      have : ∀ (fs : List Val) (ps : List Chars), fs.mapM filePath = .ok ps → p ∈ ps → ∃ g ∈ fs, filePath g = .ok p := by
        intro fs
        induction fs with
        | nil => intro ps h hm; rw [mapM_ok_nil] at h; cases h; cases hm
        | cons x xs ih =>
          intro ps hps hm
          obtain ⟨q, qs, hq, hqs, rfl⟩ := (mapM_ok_cons _ _ _ _).1 hps
          rcases List.mem_cons.1 hm with rfl | hm
          · exact ⟨x, by simp, hq⟩
          · obtain ⟨g, hg, h⟩ := ih qs hqs hm
            exact ⟨g, by simp [hg], h⟩
      exact this _ _ hp2 ((firsts_mem _ _).2 hpm)
    have uniq : ∀ g ∈ filesOf st1.config, filePath g = .ok p → g = f := by
      intro g hg hgp
      obtain ⟨q, hq, hlast⟩ := hp3 g hg
      rw [hgp] at hq
      cases hq
      rw [hf] at hlast
      exact (Option.some.inj hlast).symm
    obtain ⟨g, hgm, hgp⟩ := hg
    obtain rfl := uniq g hgm hgp
    unfold processFiles at hb
    obtain ⟨items, hi, hb⟩ := bind_ok_iff.1 hb
    have : ∀ (fs : List Val) (items : List FileItem) (b : List Member), fs.mapM fileItem = .ok items →
        items.mapM (fun f => addFile (memberName f.path) f.contents f.mode) = .ok b → g ∈ fs →
        ∃ item m, fileItem g = .ok item ∧ addFile (memberName item.path) item.contents item.mode = .ok m ∧ m ∈ b := by
      intro fs
      induction fs with
      | nil => intro _ _ _ _ h; cases h
      | cons x xs ih =>
        intro items b hi hb hm
        obtain ⟨it, its, h1, h2, rfl⟩ := (mapM_ok_cons _ _ _ _).1 hi
        obtain ⟨m, ms, h3, h4, rfl⟩ := (mapM_ok_cons _ _ _ _).1 hb
        rcases List.mem_cons.1 hm with rfl | hm
        · exact ⟨it, m, h1, h3, by simp⟩
        · obtain ⟨i, m', a1, a2, a3⟩ := ih its ms h2 h4 hm
          exact ⟨i, m', a1, a2, by simp [a3]⟩
    obtain ⟨item, m, a1, a2, a3⟩ := this _ items b hi hb hgm
    exact ⟨item, m, a1, a2, by simp [a3], uniq⟩

/-- **C98**, for backends whose converters keep the configuration (WireGuard, VXLAN, ZeroTier) -/
theorem C98_archive_keeping (cls : Class) (hk : ∀ v ∈ cls.convs, v.Keeps) {st st' : BState} {l : List Member} (h : generate cls st = (st', .ok l)) {p : Chars} {f : Val}
    (hf : lastFile p (filesOf st.config) = some f) :
    ∃ item m, fileItem f = .ok item ∧ addFile (memberName item.path) item.contents item.mode = .ok m ∧ m ∈ l ∧
      ∀ g ∈ filesOf st'.config, filePath g = .ok p → g = f :=
  C98_archive cls h hf (by rw [ensure_config hk])

end NJ
