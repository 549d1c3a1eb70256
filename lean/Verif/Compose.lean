import Verif.IfaceList
import Verif.PropsConv

/-!
# Several sections together

How the intermediate data of several converters are put together, and how converters take their blocks out of it one after the other.
-/

namespace NJ

/-! ## Merging lists of blocks with different names -/

theorem elem_named {b : VDict} (ids : List String) (h : Named b) (sh : Val → Bool) (side i : Nat) :
    elemKey sh (".name" :: ids) side i (.dict b) = .ok (nameKey b) := by
  obtain ⟨s, hs⟩ := h
  simp only [elemKey, identValue, hs, nameKey, Option.getD_some]
  rfl

theorem container1_blocks (sh : Val → Bool) (ids : List String) (i : Nat) (acc : Dict LKey Val) (l : List VDict) (h : ∀ b ∈ l, Named b)
    (hn : (Dict.keys acc ++ l.map nameKey).Nodup) :
    container1 sh (".name" :: ids) i acc (l.map .dict) = .ok (acc ++ l.map (fun b => (nameKey b, .dict b))) := by
  induction l generalizing i acc with
  | nil => simp [container1]
  | cons b l ih =>
    rw [List.map_cons, container1, elem_named ids (h b (by simp))]
    simp only [bind, Except.bind]
    have hnot : nameKey b ∉ Dict.keys acc := by
      intro hm
      rw [List.map_cons] at hn
      exact List.nodup_append.1 hn |>.2.2 _ hm _ (by simp) rfl
    rw [Dict.set_not_mem _ _ _ hnot, ih]
    · rw [List.map_cons]; simp
    · exact fun x hx => h x (by simp [hx])
    · have : Dict.keys (acc ++ [(nameKey b, Val.dict b)]) = Dict.keys acc ++ [nameKey b] := by simp [Dict.keys]
      rw [this]; simpa using hn

/-- a block waiting to be merged -/
def waiting (sh : Val → Bool) (b : VDict) : LKey × Mergeable := (nameKey b, (.dict b, fun e => mergeVal sh [] (.dict b) e))

theorem container2_blocks (sh : Val → Bool) (ids : List String) (c1 : List Val) (i : Nat) (acc : Dict LKey Mergeable) (l : List VDict)
    (h : ∀ b ∈ l, Named b) (hf : ∀ b ∈ l, ∀ x ∈ c1, Val.pyEq (.dict b) x = false) (hn : (Dict.keys acc ++ l.map nameKey).Nodup) :
    container2 sh (".name" :: ids) c1 i acc (closures sh (l.map .dict)) = .ok (acc ++ l.map (waiting sh)) := by
  induction l generalizing i acc with
  | nil => simp [closures, container2]
  | cons b l ih =>
    rw [List.map_cons, closures, container2, if_neg, elem_named ids (h b (by simp))]
    · simp only [bind, Except.bind]
      have hnot : nameKey b ∉ Dict.keys acc := by
        intro hm
        rw [List.map_cons] at hn
        exact List.nodup_append.1 hn |>.2.2 _ hm _ (by simp) rfl
      rw [Dict.set_not_mem _ _ _ hnot, ih]
      · rw [List.map_cons]; simp [waiting]
      · exact fun x hx => h x (by simp [hx])
      · exact fun x hx => hf x (by simp [hx])
      · have : Dict.keys (acc ++ [(nameKey b, (Val.dict b, fun e => mergeVal sh [] (.dict b) e))]) = Dict.keys acc ++ [nameKey b] := by simp [Dict.keys]
        rw [this]; simpa using hn
    · rw [List.any_eq_true]
      rintro ⟨x, hx, he⟩
      dsimp only at he
      rw [hf b (by simp) x hx] at he
      cases he

theorem mergeContainers_blocks (sh : Val → Bool) (acc : Dict LKey Val) (l : List VDict) (hn : (Dict.keys acc ++ l.map nameKey).Nodup) :
    mergeContainers acc (l.map (waiting sh)) = .ok (acc ++ l.map (fun b => (nameKey b, .dict b))) := by
  induction l generalizing acc with
  | nil => simp [mergeContainers]
  | cons b l ih =>
    have hnot : nameKey b ∉ Dict.keys acc := by
      intro hm
      rw [List.map_cons] at hn
      exact List.nodup_append.1 hn |>.2.2 _ hm _ (by simp) rfl
    rw [List.map_cons]
    show mergeContainers acc ((nameKey b, (.dict b, fun e => mergeVal sh [] (.dict b) e)) :: _) = _
    rw [mergeContainers, (Dict.get?_eq_none_iff _ _).2 hnot]
    simp only [mergeVal_none, bind, Except.bind]
    rw [Dict.set_not_mem _ _ _ hnot, ih]
    · rw [List.map_cons]; simp
    · have : Dict.keys (acc ++ [(nameKey b, Val.dict b)]) = Dict.keys acc ++ [nameKey b] := by simp [Dict.keys]
      rw [this]; simpa using hn

/-- blocks with names that are all different are put one after the other -/
theorem merge_blocks (sh : Val → Bool) (ids : List String) (l1 l2 : List VDict) (h : ∀ b ∈ l1 ++ l2, Named b) (hn : ((l1 ++ l2).map nameKey).Nodup) :
    mergeListWith sh (".name" :: ids) (l1.map .dict) (closures sh (l2.map .dict)) = .ok ((l1 ++ l2).map .dict) := by
  unfold mergeListWith
  rw [List.map_append] at hn
  have hn' := List.nodup_append.1 hn
  rw [container1_blocks sh ids 0 [] l1 (fun b hb => h b (by simp [hb])) (by simpa [Dict.keys] using hn'.1)]
  have hv : Dict.values (([] : Dict LKey Val) ++ l1.map (fun b => (nameKey b, Val.dict b))) = l1.map .dict := by
    simp [Dict.values, Function.comp_def]
  simp only [bind, Except.bind]
  rw [hv, container2_blocks sh ids _ 0 [] l2 (fun b hb => h b (by simp [hb])) ?_ (by simpa [Dict.keys] using hn'.2.1)]
  · dsimp only
    have hk : Dict.keys (l1.map (fun b => (nameKey b, Val.dict b))) = l1.map nameKey := by simp [Dict.keys, Function.comp_def]
    rw [List.nil_append, List.nil_append, mergeContainers_blocks sh _ l2 (by rw [hk]; exact hn)]
    simp [pure, Except.pure, Dict.values, Function.comp_def]
  · intro b hb x hx
    obtain ⟨c, hc, rfl⟩ := List.mem_map.1 hx
    obtain ⟨s, hs⟩ := h b (by simp [hb])
    obtain ⟨t, ht⟩ := h c (by simp [hc])
    refine pyEq_named hs ht ?_
    rintro rfl
    exact hn'.2.2 (nameKey c) (List.mem_map_of_mem hc) (nameKey b) (List.mem_map_of_mem hb) (by simp [nameKey, hs, ht])

/-! ## Intermediate data -/

/-- packages with their blocks -/
abbrev Data := Dict String (List VDict)

/-- the blocks of a package -/
def blocksIn (d : Data) (pkg : String) : List VDict := (Dict.get? d pkg).getD []

theorem get?_interOf (d : Data) (k : String) : Dict.get? (interOf d) k = (Dict.get? d k).map (fun bs => Val.list (bs.map .dict)) := by
  induction d with
  | nil => rfl
  | cons p r ih =>
    show Dict.get? ((p.1, Val.list (p.2.map .dict)) :: interOf r) k = _
    rw [Dict.get?_cons, ih]
    obtain ⟨a, b⟩ := p
    rw [Dict.get?_cons]
    split <;> rfl

theorem keys_interOf (d : Data) : Dict.keys (interOf d) = Dict.keys d := by simp [interOf, Dict.keys]

theorem set_interOf (d : Data) (k : String) (bs : List VDict) : Dict.set (interOf d) k (.list (bs.map .dict)) = interOf (Dict.set d k bs) := by
  induction d with
  | nil => rfl
  | cons p r ih =>
    obtain ⟨a, b⟩ := p
    show Dict.set ((a, Val.list (b.map .dict)) :: interOf r) k _ = _
    simp only [Dict.set]
    split
    · rfl
    · rw [ih]; rfl

/-- one more package -/
def joinOne (acc : Data) (p : String × List VDict) : Data := Dict.set acc p.1 (blocksIn acc p.1 ++ p.2)

/-- the blocks of both, package by package -/
def joinData (acc P : Data) : Data := P.foldl joinOne acc

theorem blocksIn_joinOne (acc : Data) (p : String × List VDict) (k : String) :
    blocksIn (joinOne acc p) k = if k = p.1 then blocksIn acc k ++ p.2 else blocksIn acc k := by
  unfold joinOne
  show (Dict.get? (Dict.set acc p.1 _) k).getD [] = _
  rw [Dict.get?_set']
  split
  · next e => rw [e]; rfl
  · rfl

theorem blocksIn_cons (p : String × List VDict) (r : Data) (k : String) : blocksIn (p :: r) k = if k = p.1 then p.2 else blocksIn r k := by
  obtain ⟨a, b⟩ := p
  unfold blocksIn
  rw [Dict.get?_cons]
  by_cases h : a = k
  · subst h; simp
  · rw [if_neg h, if_neg (Ne.symm h)]

theorem blocksIn_join (acc P : Data) (hP : (Dict.keys P).Nodup) (k : String) : blocksIn (joinData acc P) k = blocksIn acc k ++ blocksIn P k := by
  induction P generalizing acc with
  | nil => simp [joinData, blocksIn]
  | cons p r ih =>
    have hP' : p.1 ∉ Dict.keys r ∧ (Dict.keys r).Nodup := by
      simpa [Dict.keys] using hP
    show blocksIn (joinData (joinOne acc p) r) k = _
    rw [ih _ hP'.2, blocksIn_joinOne, blocksIn_cons]
    by_cases h : k = p.1
    · subst h
      have : blocksIn r p.1 = [] := by
        unfold blocksIn
        rw [(Dict.get?_eq_none_iff _ _).2 hP'.1]; rfl
      rw [if_pos rfl, if_pos rfl, this, List.append_nil]
    · rw [if_neg h, if_neg h]

theorem mem_keys_join (acc P : Data) (k : String) : k ∈ Dict.keys (joinData acc P) ↔ k ∈ Dict.keys acc ∨ k ∈ Dict.keys P := by
  induction P generalizing acc with
  | nil => simp [joinData, Dict.keys]
  | cons p r ih =>
    show k ∈ Dict.keys (joinData (joinOne acc p) r) ↔ _
    rw [ih]
    have : k ∈ Dict.keys (joinOne acc p) ↔ k = p.1 ∨ k ∈ Dict.keys acc := by
      unfold joinOne
      rw [← not_iff_not, ← Dict.get?_eq_none_iff, Dict.get?_set', not_or, ← Dict.get?_eq_none_iff]
      split
      · next e => simp [e]
      · next e => simp [e]
    rw [this]
    simp only [Dict.keys, List.map_cons, List.mem_cons]
    constructor
    · rintro ((h | h) | h)
      · exact .inr (.inl h)
      · exact .inl h
      · exact .inr (.inr h)
    · rintro (h | h | h)
      · exact .inl (.inr h)
      · exact .inl (.inl h)
      · exact .inr h

theorem nodup_join (acc P : Data) (h : (Dict.keys acc).Nodup) : (Dict.keys (joinData acc P)).Nodup := by
  induction P generalizing acc with
  | nil => exact h
  | cons p r ih => exact ih _ (Dict.nodup_set h _ _)

/-- all the blocks of a package, in order -/
def allIn (acc : Data) (Ps : List Data) (k : String) : List VDict := blocksIn acc k ++ Ps.flatMap (fun P => blocksIn P k)

theorem allIn_cons (acc P : Data) (Ps : List Data) (hP : (Dict.keys P).Nodup) (k : String) : allIn (joinData acc P) Ps k = allIn acc (P :: Ps) k := by
  unfold allIn
  rw [blocksIn_join _ _ hP, List.flatMap_cons, List.append_assoc]

theorem merge_data (sh : Val → Bool) (acc P : Data) (hP : (Dict.keys P).Nodup) (h : ∀ k, ∀ b ∈ blocksIn acc k ++ blocksIn P k, Named b)
    (hn : ∀ k, ((blocksIn acc k ++ blocksIn P k).map nameKey).Nodup) :
    mergeConfig sh [".name"] (interOf acc) (interOf P) = .ok (interOf (joinData acc P)) := by
  unfold mergeConfig
  induction P generalizing acc with
  | nil => rfl
  | cons p r ih =>
    have hP' : p.1 ∉ Dict.keys r ∧ (Dict.keys r).Nodup := by simpa [Dict.keys] using hP
    have hr : blocksIn r p.1 = [] := by
      unfold blocksIn
      rw [(Dict.get?_eq_none_iff _ _).2 hP'.1]; rfl
    have h0 := h p.1
    have n0 := hn p.1
    rw [blocksIn_cons, if_pos rfl] at h0 n0
    have e : mergeVal sh [".name"] (.list (p.2.map .dict)) (Dict.get? (interOf acc) p.1) = .ok (.list ((blocksIn acc p.1 ++ p.2).map .dict)) := by
      rw [get?_interOf]
      unfold blocksIn at h0 n0 ⊢
      cases hg : Dict.get? acc p.1 with
      | none => rw [Option.map_none, mergeVal_none, Option.getD_none, List.nil_append]
      | some l =>
        rw [hg] at h0 n0
        simp only [Option.getD_some] at h0 n0
        rw [Option.map_some, mergeVal, merge_blocks sh [] l p.2 h0 n0]; rfl
    show mergeKvs sh [".name"] ((p.1, .list (p.2.map .dict)) :: interOf r) (interOf acc) = _
    rw [mergeKvs, e]
    simp only [bind, Except.bind]
    rw [set_interOf]
    have hk : ∀ k, blocksIn (joinOne acc p) k ++ blocksIn r k = blocksIn acc k ++ blocksIn (p :: r) k := by
      intro k
      rw [blocksIn_joinOne, blocksIn_cons]
      by_cases hk : k = p.1
      · subst hk; rw [if_pos rfl, if_pos rfl, hr, List.append_nil]
      · rw [if_neg hk, if_neg hk]
    exact ih (joinOne acc p) hP'.2 (fun k => by rw [hk]; exact h k) (fun k => by rw [hk]; exact hn k)

/-! ## The converters one after the other -/

/-- each converter is not needed or makes the given packages; `c` is the configuration, `e` what it is in the end -/
inductive Forward : List Conv → VDict → Data → List Data → VDict → Prop
  | nil {c acc} : Forward [] c acc [] c
  | skip {conv convs c acc Ps e} : conv.should c = false → Forward convs c acc Ps e → Forward (conv :: convs) c acc ([] :: Ps) e
  | run {conv convs c c' acc P Ps e} : conv.should c = true → conv.run c (interOf acc) = (c', .ok (interOf P)) → (Dict.keys P).Nodup →
      Forward convs c' (joinData acc P) Ps e → Forward (conv :: convs) c acc (P :: Ps) e

theorem forward_loop (cls : Class) {convs : List Conv} {c e : VDict} {acc : Data} {Ps : List Data} (hf : Forward convs c acc Ps e)
    (h : ∀ k, ∀ b ∈ allIn acc Ps k, Named b) (hn : ∀ k, ((allIn acc Ps k).map nameKey).Nodup) :
    convLoop cls convs c (interOf acc) = (⟨e, some (interOf (Ps.foldl joinData acc))⟩, .ok ()) := by
  induction hf with
  | nil => rfl
  | @skip conv convs c acc Ps e hs _ ih =>
    rw [convLoop, if_pos hs]
    have : ∀ k, allIn acc ([] :: Ps) k = allIn acc Ps k := by
      intro k; unfold allIn; rw [List.flatMap_cons]; rfl
    rw [ih (fun k => by rw [← this]; exact h k) (fun k => by rw [← this]; exact hn k)]
    rfl
  | @run conv convs c c' acc P Ps e hs hr hP _ ih =>
    have i := ih (fun k => by rw [allIn_cons _ _ _ hP]; exact h k) (fun k => by rw [allIn_cons _ _ _ hP]; exact hn k)
    rw [convLoop, if_neg (by rw [hs]; simp), hr]
    dsimp only
    have hsub : ∀ k, blocksIn acc k ++ blocksIn P k ++ Ps.flatMap (fun P => blocksIn P k) = allIn acc (P :: Ps) k := by
      intro k; unfold allIn; rw [List.flatMap_cons, List.append_assoc]
    have hm := merge_data cls.sh acc P hP (fun k b hb => h k b (by rw [← hsub]; exact List.mem_append_left _ hb))
      (fun k => by
        have := hn k
        rw [← hsub, List.map_append] at this
        exact (List.nodup_append.1 this).1)
    by_cases he : (interOf P).isEmpty
    · rw [if_pos he]
      have : P = [] := by
        cases P with
        | nil => rfl
        | cons p r => cases he
      subst this
      exact i
    · rw [if_neg he, hm]
      exact i

theorem blocksIn_all (acc : Data) (Ps : List Data) (hP : ∀ P ∈ Ps, (Dict.keys P).Nodup) (k : String) :
    blocksIn (Ps.foldl joinData acc) k = allIn acc Ps k := by
  induction Ps generalizing acc with
  | nil => simp [allIn]
  | cons P Ps ih =>
    rw [List.foldl_cons, ih _ (fun Q hQ => hP Q (by simp [hQ])), allIn_cons _ _ _ (hP P (by simp))]

theorem nodup_all (acc : Data) (Ps : List Data) (h : (Dict.keys acc).Nodup) : (Dict.keys (Ps.foldl joinData acc)).Nodup := by
  induction Ps generalizing acc with
  | nil => exact h
  | cons P Ps ih => exact ih _ (nodup_join _ _ h)

theorem keys_all (acc : Data) (Ps : List Data) (k : String) : k ∈ Dict.keys (Ps.foldl joinData acc) ↔ k ∈ Dict.keys acc ∨ ∃ P ∈ Ps, k ∈ Dict.keys P := by
  induction Ps generalizing acc with
  | nil => simp
  | cons P Ps ih =>
    rw [List.foldl_cons, ih, mem_keys_join]
    simp only [List.mem_cons, exists_eq_or_imp, or_assoc]

theorem Forward.nodup {convs : List Conv} {c e : VDict} {acc : Data} {Ps : List Data} (hf : Forward convs c acc Ps e) : ∀ P ∈ Ps, (Dict.keys P).Nodup := by
  induction hf with
  | nil => simp
  | skip _ _ ih =>
    intro P hP
    rcases List.mem_cons.1 hP with rfl | hP
    · simp [Dict.keys]
    · exact ih P hP
  | run _ _ hP' _ ih =>
    intro P hP
    rcases List.mem_cons.1 hP with rfl | hP
    · exact hP'
    · exact ih P hP

/-! ## Back -/

/-- The converter takes its blocks from the front of what is left of the package, leaves the others, and makes `out` of them. -/
structure Takes (b : BConv) (copy : VDict) (pkg : String) (mine others : List VDict) (out : VDict) : Prop where
  should : ∀ inter, b.should inter = Dict.has inter pkg
  run : ∀ c inter, Dict.get? inter pkg = some (.list ((mine ++ others).map .dict)) →
    b.run c copy inter = ((c, Dict.set inter pkg (.list (others.map .dict))), .ok out)
  empty : mine = [] → out = []

/-- the packages once a converter has taken its blocks -/
structure Taken (M : Data) (pkg : String) (others : List VDict) (M' : Data) : Prop where
  keys : Dict.keys M' = Dict.keys M
  blocks : ∀ k, blocksIn M' k = if k = pkg then others else blocksIn M k

theorem mergeConfig_nil (sh : Val → Bool) (ids : List String) (c : VDict) : mergeConfig sh ids c [] = .ok c := rfl

theorem keys_set_mem {α : Type} (d : Dict String α) (k : String) (v : α) (h : k ∈ Dict.keys d) : Dict.keys (Dict.set d k v) = Dict.keys d := by
  induction d with
  | nil => cases h
  | cons p r ih =>
    obtain ⟨a, b⟩ := p
    simp only [Dict.set]
    by_cases e : a = k
    · subst e; simp [Dict.keys]
    · rw [if_neg e]
      have : k ∈ Dict.keys r := by
        simp only [Dict.keys, List.map_cons, List.mem_cons] at h
        exact h.resolve_left (fun h => e h.symm)
      have := ih this
      simp only [Dict.keys] at this ⊢
      simp [this]

theorem take_step_at (cls : Class) {b : BConv} {bs : List BConv} {copy c c' : VDict} {pkg : String} {mine others : List VDict} {out : VDict} {M : Data}
    (hs : ∀ inter, b.should inter = Dict.has inter pkg)
    (hr : ∀ inter, Dict.get? inter pkg = some (.list ((mine ++ others).map .dict)) →
      b.run c copy inter = ((c, Dict.set inter pkg (.list (others.map .dict))), .ok out)) (he0 : mine = [] → out = [])
    (hM : blocksIn M pkg = mine ++ others) (hc : mergeConfig cls.sh cls.ids c out = .ok c') :
    ∃ M', Taken M pkg others M' ∧ bconvLoop cls copy (b :: bs) c (interOf M) = bconvLoop cls copy bs c' (interOf M') := by
  rw [bconvLoop, hs]
  cases hg : Dict.get? M pkg with
  | none =>
    have h0 : mine ++ others = [] := by rw [← hM, blocksIn, hg]; rfl
    obtain ⟨rfl, rfl⟩ := List.append_eq_nil_iff.1 h0
    rw [he0 rfl, mergeConfig_nil] at hc
    cases hc
    refine ⟨M, ⟨rfl, fun k => ?_⟩, ?_⟩
    · split
      · next e => rw [e, hM]; rfl
      · rfl
    · rw [if_pos]
      unfold Dict.has
      rw [get?_interOf, hg]; rfl
  | some l =>
    have hl : l = mine ++ others := by rw [← hM, blocksIn, hg]; rfl
    subst hl
    have hin : Dict.get? (interOf M) pkg = some (.list ((mine ++ others).map .dict)) := by rw [get?_interOf, hg]; rfl
    refine ⟨Dict.set M pkg others, ⟨keys_set_mem _ _ _ ?_, fun k => ?_⟩, ?_⟩
    · by_contra hk
      rw [(Dict.get?_eq_none_iff _ _).2 hk] at hg
      cases hg
    · unfold blocksIn
      rw [Dict.get?_set']
      split <;> rfl
    · rw [if_neg (by unfold Dict.has; rw [hin]; simp), hr (interOf M) hin]
      dsimp only
      rw [set_interOf]
      by_cases he : out.isEmpty
      · rw [if_pos he]
        have : out = [] := by
          cases out with
          | nil => rfl
          | cons _ _ => cases he
        rw [this, mergeConfig_nil] at hc
        cases hc
        rfl
      · rw [if_neg he, hc]

theorem take_step (cls : Class) {b : BConv} {bs : List BConv} {copy c c' : VDict} {pkg : String} {mine others : List VDict} {out : VDict} {M : Data}
    (hT : Takes b copy pkg mine others out) (hM : blocksIn M pkg = mine ++ others) (hc : mergeConfig cls.sh cls.ids c out = .ok c') :
    ∃ M', Taken M pkg others M' ∧ bconvLoop cls copy (b :: bs) c (interOf M) = bconvLoop cls copy bs c' (interOf M') :=
  take_step_at cls hT.should (hT.run c) hT.empty hM hc

/-- new sections are added to the configuration -/
theorem merge_new (sh : Val → Bool) (ids : List String) (c out : VDict) (hn : (Dict.keys out).Nodup) (h : ∀ k, Dict.get? out k ≠ none → Dict.get? c k = none) :
    ∃ c', mergeConfig sh ids c out = .ok c' ∧ ∀ k, Dict.get? c' k = (Dict.get? out k).or (Dict.get? c k) := by
  obtain ⟨c', hc⟩ := (mergeKvs_ok_iff (sh := sh) (ids := ids) hn c).2 (by
    intro k v hv
    rw [h k (by rw [hv]; simp)]
    exact ⟨v, mergeVal_none v⟩)
  refine ⟨c', hc, fun k => ?_⟩
  cases hv : Dict.get? out k with
  | none => rw [mergeKvs_get?_not_mem hc ((Dict.get?_eq_none_iff _ _).1 hv)]; rfl
  | some v =>
    obtain ⟨x, h1, h2⟩ := mergeKvs_get?_mem hn hc hv
    rw [h k (by rw [hv]; simp), mergeVal_none] at h1
    cases h1
    rw [h2]; rfl

/-- the same, when both have settings in a dictionary under one key, but not the same settings -/
theorem merge_both (sh : Val → Bool) (ids : List String) (c out g1 g2 : VDict) (key : String) (hn : (Dict.keys out).Nodup) (hn2 : (Dict.keys g2).Nodup)
    (h1 : Dict.get? c key = some (.dict g1)) (h2 : Dict.get? out key = some (.dict g2)) (hg : ∀ k, Dict.get? g2 k ≠ none → Dict.get? g1 k = none)
    (h : ∀ k, k ≠ key → Dict.get? out k ≠ none → Dict.get? c k = none) :
    ∃ c' g, mergeConfig sh ids c out = .ok c' ∧ (∀ k, k ≠ key → Dict.get? c' k = (Dict.get? out k).or (Dict.get? c k)) ∧
      Dict.get? c' key = some (.dict g) ∧ ∀ k, Dict.get? g k = (Dict.get? g2 k).or (Dict.get? g1 k) := by
  obtain ⟨g, e1, e2⟩ := merge_new sh ids g1 g2 hn2 hg
  have ek : mergeVal sh ids (.dict g2) (some (.dict g1)) = .ok (.dict g) := (mergeVal_dict_dict _ _ _).2 ⟨g, e1, rfl⟩
  obtain ⟨c', hc⟩ := (mergeKvs_ok_iff (sh := sh) (ids := ids) hn c).2 (by
    intro k v hv
    by_cases e : k = key
    · subst e
      rw [h2] at hv
      cases hv
      rw [h1]
      exact ⟨_, ek⟩
    · rw [h k e (by rw [hv]; simp)]
      exact ⟨v, mergeVal_none v⟩)
  refine ⟨c', g, hc, fun k e => ?_, ?_, e2⟩
  · cases hv : Dict.get? out k with
    | none => rw [mergeKvs_get?_not_mem hc ((Dict.get?_eq_none_iff _ _).1 hv)]; rfl
    | some v =>
      obtain ⟨x, h1', h2'⟩ := mergeKvs_get?_mem hn hc hv
      rw [h k e (by rw [hv]; simp), mergeVal_none] at h1'
      cases h1'
      rw [h2']; rfl
  · obtain ⟨x, h1', h2'⟩ := mergeKvs_get?_mem hn hc h2
    rw [h1, ek] at h1'
    cases h1'
    exact h2'

/-- a converter that goes through the blocks once -/
theorem takes_simple {pkg : String} {types : Option (List String)} {bloop : Nat → VDict → VDict → Except PyErr VDict} {mine others : List VDict} {out : VDict}
    (copy : VDict) (hm : ∀ b ∈ mine, skipBlock types b = false) (ho : ∀ b ∈ others, skipBlock types b = true)
    (hf : backFold types (fun i b (acc : Unit × VDict) => do let r ← bloop i b acc.2; pure ((), r)) 1 mine ((), []) = .ok ((), out)) :
    Takes (bwdSimple pkg types bloop) copy pkg mine others out where
  should := fun _ => rfl
  run := fun c inter hk => bwd_split pkg types () _ c copy inter mine others ((), out) hk hm ho hf
  empty := by
    rintro rfl
    rw [backFold] at hf
    cases hf
    rfl

end NJ
