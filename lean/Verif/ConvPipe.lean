import Verif.ConvLemmas

/-!
# One section through UCI text and back

`viaText` is the specification of "converting a section to UCI and back": forward conversion, rendering, parsing and
backward conversion, all with the functions of the model of the code. The lemmas reduce it to the conversion of single blocks.
-/

namespace NJ

/-- forward conversion, rendering, parsing, backward conversion of one section -/
def viaText (reprC : Val → String) (conv : Conv) (bconv : BConv) (config : VDict) : Except PyErr VDict := do
  let inter ← (if conv.should config then (conv.run config []).2 else .ok [])
  let text ← uciNative reprC inter
  let inter' ← parseUci text
  if bconv.should inter' then (bconv.run [] inter' inter').2 else .ok []

/-! ## Rendering and parsing -/

/-- intermediate data with the given packages -/
def interOf (data : List (String × List VDict)) : VDict := data.map (fun p => (p.1, Val.list (p.2.map Val.dict)))

theorem blocksOf_map (bs : List VDict) : blocksOf (.list (bs.map .dict)) = .ok bs := by
  unfold blocksOf
  induction bs with
  | nil => rfl
  | cons b bs ih =>
    rw [List.map_cons, mapM_ok_cons]
    exact ⟨b, bs, rfl, ih, rfl⟩

theorem packagesOf_map (data : List (String × List VDict)) :
    packagesOf (interOf data) = .ok data := by
  unfold packagesOf interOf
  induction data with
  | nil => rfl
  | cons p ps ih =>
    rw [List.map_cons, mapM_ok_cons]
    refine ⟨p, ps, ?_, ih, rfl⟩
    show (blocksOf (.list (p.2.map .dict)) >>= fun bs => pure (p.1, bs)) = _
    rw [blocksOf_map]; rfl

/-- rendered and parsed, a package of plain blocks becomes the package of the blocks as read back -/
theorem text_back (reprC : Val → String) (data : List (String × List VDict)) (hn : (data.map Prod.fst).Nodup)
    (hw : ∀ p ∈ data, IsWord p.1.toList) (hb : ∀ p ∈ data, ∀ b ∈ p.2, PlainBlock b) :
    ∃ t, uciNative reprC (interOf data) = .ok t ∧ parseUci t = .ok (interOf (data.map (fun p => (p.1, p.2.map (blockBack reprC))))) := by
  refine ⟨renderUci reprC data, ?_, ?_⟩
  · unfold uciNative
    rw [packagesOf_map]; rfl
  · rw [C33_round_trip reprC data (plain_round reprC data hn hw hb)]
    simp [interOf]

/-- the same, also with devices -/
theorem text_read (reprC : Val → String) (data : List (String × List VDict)) (hn : (data.map Prod.fst).Nodup)
    (hw : ∀ p ∈ data, IsWord p.1.toList) (hb : ∀ p ∈ data, ∀ b ∈ p.2, PlainData b) :
    ∃ t, uciNative reprC (interOf data) = .ok t ∧ parseUci t = .ok (interOf (data.map (fun p => (p.1, p.2.map (blockRead reprC))))) := by
  refine ⟨renderUci reprC data, ?_, ?_⟩
  · unfold uciNative
    rw [packagesOf_map]; rfl
  · rw [C33_devices reprC data (plain_data reprC data hn hw hb)]
    simp [interOf]

theorem viaText_eq {reprC : Val → String} {conv : Conv} {bconv : BConv} {config inter inter' out : VDict} {text : Chars}
    (h0 : conv.should config = true) (h1 : (conv.run config []).2 = .ok inter) (h2 : uciNative reprC inter = .ok text)
    (h3 : parseUci text = .ok inter') (h4 : bconv.should inter' = true) (h5 : (bconv.run [] inter' inter').2 = .ok out) :
    viaText reprC conv bconv config = .ok out := by
  unfold viaText
  simp only [h0, if_true, h1, bind, Except.bind, h2, h3, h4, h5]

/-! ## The loop of the backward conversion -/

/-- the loop of `to_netjson` without the bookkeeping of what is left -/
def backFold {σ : Type} (types : Option (List String)) (loop : Nat → VDict → σ × VDict → Except PyErr (σ × VDict)) :
    Nat → List VDict → σ × VDict → Except PyErr (σ × VDict)
  | _, [], acc => .ok acc
  | i, b :: bs, acc => if skipBlock types b then backFold types loop (i + 1) bs acc
    else do
      let a ← loop i b acc
      backFold types loop (i + 1) bs a

/-- the list without one occurrence of each of the given values -/
def eraseAll (l : List Val) : List Val → List Val
  | [] => l
  | v :: vs => eraseAll (l.erase v) vs

theorem bwdLoop_eq {σ : Type} (types : Option (List String)) (loop : Nat → VDict → σ × VDict → Except PyErr (σ × VDict))
    (i : Nat) (todo : List VDict) (rest : List Val) (acc out : σ × VDict) (h : backFold types loop i todo acc = .ok out) :
    bwdLoop types loop i (todo.map .dict) rest acc =
      (eraseAll rest ((todo.filter (fun b => !skipBlock types b)).map .dict), .ok out) := by
  induction todo generalizing i rest acc with
  | nil =>
    obtain ⟨s, r⟩ := acc
    cases h
    rfl
  | cons b bs ih =>
    rw [backFold] at h
    rw [List.map_cons, bwdLoop]
    cases hs : skipBlock types b with
    | true =>
      rw [if_pos hs] at h
      simp only [hs, if_true, List.filter_cons, Bool.not_true, Bool.false_eq_true, if_false]
      exact ih (i + 1) rest acc h
    | false =>
      rw [if_neg (by rw [hs]; simp)] at h
      obtain ⟨a, h1, h2⟩ := bind_ok_iff.1 h
      simp only [hs, if_false, Bool.false_eq_true, h1, List.filter_cons, Bool.not_false, if_true, List.map_cons, eraseAll]
      exact ih (i + 1) _ a h2

theorem eraseAll_prefix (a b : List Val) : eraseAll (a ++ b) a = b := by
  induction a generalizing b with
  | nil => rfl
  | cons v vs ih => rw [List.cons_append, eraseAll, List.erase_cons_head]; exact ih b

theorem backFold_skip {σ : Type} (types : Option (List String)) (loop : Nat → VDict → σ × VDict → Except PyErr (σ × VDict))
    (i : Nat) (bs : List VDict) (acc : σ × VDict) (h : ∀ b ∈ bs, skipBlock types b = true) : backFold types loop i bs acc = .ok acc := by
  induction bs generalizing i with
  | nil => rfl
  | cons b bs ih => rw [backFold, if_pos (h b (by simp))]; exact ih (i + 1) (fun x hx => h x (by simp [hx]))

theorem backFold_append {σ : Type} (types : Option (List String)) (loop : Nat → VDict → σ × VDict → Except PyErr (σ × VDict))
    (i : Nat) (as bs : List VDict) (acc a : σ × VDict) (h : backFold types loop i as acc = .ok a) :
    backFold types loop i (as ++ bs) acc = backFold types loop (i + as.length) bs a := by
  induction as generalizing i acc with
  | nil => cases h; rfl
  | cons b r ih =>
    rw [List.cons_append, backFold]
    rw [backFold] at h
    split
    · next hs =>
      rw [if_pos hs] at h
      rw [ih (i + 1) acc h]; congr 1; simp; omega
    · next hs =>
      rw [if_neg hs] at h
      obtain ⟨x, h1, h2⟩ := bind_ok_iff.1 h
      rw [h1]
      show backFold _ _ _ _ _ = _
      rw [ih (i + 1) x h2]; congr 1; simp; omega

/-- the blocks of the converter come first and all the others are skipped: what is left are the others -/
theorem bwd_split {σ : Type} (key : String) (types : Option (List String)) (init : σ)
    (loop : Nat → VDict → σ × VDict → Except PyErr (σ × VDict)) (config copy inter : VDict) (mine others : List VDict) (out : σ × VDict)
    (hk : Dict.get? inter key = some (.list ((mine ++ others).map .dict)))
    (hm : ∀ b ∈ mine, skipBlock types b = false) (ho : ∀ b ∈ others, skipBlock types b = true)
    (hf : backFold types loop 1 mine (init, []) = .ok out) :
    (bwd key types id init loop).run config copy inter = ((config, Dict.set inter key (.list (others.map .dict))), .ok out.2) := by
  unfold bwd bwdG
  simp only [hk, Option.getD_some, id]
  have h : backFold types loop 1 (mine ++ others) (init, []) = .ok out := by
    rw [backFold_append _ _ _ _ _ _ _ hf, backFold_skip _ _ _ _ _ ho]
  rw [bwdLoop_eq types loop 1 (mine ++ others) _ _ _ h]
  have e : (mine ++ others).filter (fun b => !skipBlock types b) = mine := by
    rw [List.filter_append, List.filter_eq_self.2 (fun b hb => by rw [hm b hb]; rfl),
      List.filter_eq_nil_iff.2 (fun b hb => by rw [ho b hb]; simp), List.append_nil]
  rw [e, List.map_append, eraseAll_prefix]
  rfl

/-! ## Sections that are lists -/

theorem appendTo_nil (key : String) (v : List Val) : appendTo [] key v = [(key, .list v)] := rfl

theorem appendTo_one (key : String) (u v : List Val) : appendTo [(key, .list u)] key v = [(key, .list (u ++ v))] := by
  simp [appendTo, Dict.get?, Dict.set]

/-- `f` on each element with its position -/
def mapIdxM {α β : Type} (f : Nat → α → Except PyErr β) : Nat → List α → Except PyErr (List β)
  | _, [] => .ok []
  | i, x :: xs => do
    let y ← f i x
    let ys ← mapIdxM f (i + 1) xs
    pure (y :: ys)

theorem fwdList_blocks (loop : Option Nat → Val → VDict → Except PyErr VDict) (pkg : String) (blk : Nat → VDict → Except PyErr VDict)
    (hl : ∀ i d r, loop (some i) (.dict d) r = do let b ← blk i d; pure (appendTo r pkg [.dict b]))
    (i : Nat) (l bs : List VDict) (done : List Val) (h : mapIdxM blk i l = .ok bs) :
    fwdList loop i [(pkg, .list done)] (l.map .dict) = .ok [(pkg, .list (done ++ bs.map .dict))] := by
  induction l generalizing i bs done with
  | nil => cases h; simp [fwdList]
  | cons d ds ih =>
    rw [mapIdxM] at h
    obtain ⟨b, h1, h2⟩ := bind_ok_iff.1 h
    obtain ⟨bs', h3, h4⟩ := bind_ok_iff.1 h2
    cases h4
    rw [List.map_cons, fwdList, hl, h1]
    show (fwdList loop (i + 1) (appendTo [(pkg, .list done)] pkg [.dict b]) _) = _
    rw [appendTo_one, ih (i + 1) bs' _ h3]
    simp

theorem fwd_blocks (key : String) (loop : Option Nat → Val → VDict → Except PyErr VDict) (pkg : String)
    (blk : Nat → VDict → Except PyErr VDict)
    (hl : ∀ i d r, loop (some i) (.dict d) r = do let b ← blk i d; pure (appendTo r pkg [.dict b]))
    (config : VDict) (l bs : List VDict) (hne : l ≠ []) (hk : Dict.get? config key = some (.list (l.map .dict)))
    (h : mapIdxM blk 1 l = .ok bs) :
    fwd key loop config = .ok [(pkg, .list (bs.map .dict))] := by
  unfold fwd
  simp only [hk, Option.getD_some]
  cases l with
  | nil => exact absurd rfl hne
  | cons d ds =>
    rw [mapIdxM] at h
    obtain ⟨b, h1, h2⟩ := bind_ok_iff.1 h
    obtain ⟨bs', h3, h4⟩ := bind_ok_iff.1 h2
    cases h4
    rw [List.map_cons, fwdList, hl, h1]
    show (fwdList loop 2 (appendTo [] pkg [.dict b]) _) = _
    rw [appendTo_nil, fwdList_blocks loop pkg blk hl 2 ds bs' _ h3]
    rfl

theorem backFold_blocks (types : Option (List String)) (loop : Nat → VDict → VDict → Except PyErr VDict) (key : String)
    (back : Nat → VDict → Except PyErr VDict)
    (hl : ∀ i b r, loop i b r = do let x ← back i b; pure (appendTo r key [.dict x]))
    (i : Nat) (bs rs : List VDict) (done : List Val) (hs : ∀ b ∈ bs, skipBlock types b = false) (h : mapIdxM back i bs = .ok rs) :
    backFold types (fun i b (acc : Unit × VDict) => do let r ← loop i b acc.2; pure ((), r)) i bs ((), [(key, .list done)]) =
      .ok ((), [(key, .list (done ++ rs.map .dict))]) := by
  induction bs generalizing i rs done with
  | nil => cases h; simp [backFold]
  | cons d ds ih =>
    rw [mapIdxM] at h
    obtain ⟨b, h1, h2⟩ := bind_ok_iff.1 h
    obtain ⟨bs', h3, h4⟩ := bind_ok_iff.1 h2
    cases h4
    rw [backFold, if_neg (by rw [hs d (by simp)]; simp), hl, h1]
    show (backFold types _ (i + 1) ds ((), appendTo [(key, .list done)] key [.dict b])) = _
    rw [appendTo_one, ih (i + 1) bs' _ (fun b hb => hs b (by simp [hb])) h3]
    simp

theorem backFold_section (types : Option (List String)) (loop : Nat → VDict → VDict → Except PyErr VDict) (key : String)
    (back : Nat → VDict → Except PyErr VDict)
    (hl : ∀ i b r, loop i b r = do let x ← back i b; pure (appendTo r key [.dict x]))
    (bs rs : List VDict) (hne : bs ≠ []) (hs : ∀ b ∈ bs, skipBlock types b = false) (h : mapIdxM back 1 bs = .ok rs) :
    backFold types (fun i b (acc : Unit × VDict) => do let r ← loop i b acc.2; pure ((), r)) 1 bs ((), []) =
      .ok ((), [(key, .list (rs.map .dict))]) := by
  cases bs with
  | nil => exact absurd rfl hne
  | cons d ds =>
    rw [mapIdxM] at h
    obtain ⟨b, h1, h2⟩ := bind_ok_iff.1 h
    obtain ⟨bs', h3, h4⟩ := bind_ok_iff.1 h2
    cases h4
    rw [backFold, if_neg (by rw [hs d (by simp)]; simp), hl, h1]
    show (backFold types _ 2 ds ((), appendTo [] key [.dict b])) = _
    rw [appendTo_nil, backFold_blocks types loop key back hl 2 ds bs' _ (fun b hb => hs b (by simp [hb])) h3]
    rfl

/-- One item of a list section survives: it is converted to a plain block of the right type, and the block read back from
text is converted to the same item. -/
def ItemBack (reprC : Val → String) (types : Option (List String)) (blk back : Nat → VDict → Except PyErr VDict) (i : Nat) (d : VDict) : Prop :=
  ∃ b r, blk i d = .ok b ∧ PlainBlock b ∧ skipBlock types (blockBack reprC b) = false ∧
    back i (blockBack reprC b) = .ok r ∧ SameItems r d

/-- `p` on each element with its position -/
def AllIdx {α : Type} (p : Nat → α → Prop) : Nat → List α → Prop
  | _, [] => True
  | i, x :: xs => p i x ∧ AllIdx p (i + 1) xs

theorem allIdx_of_forall {α : Type} {p : Nat → α → Prop} (h : ∀ i x, p i x) (i : Nat) (l : List α) : AllIdx p i l := by
  induction l generalizing i with
  | nil => trivial
  | cons x xs ih => exact ⟨h i x, ih (i + 1)⟩

theorem allIdx_mono {α : Type} {p q : Nat → α → Prop} {i : Nat} {l : List α} (hi : 1 ≤ i) (h : AllIdx p i l)
    (hpq : ∀ i, 1 ≤ i → ∀ x ∈ l, p i x → q i x) : AllIdx q i l := by
  induction l generalizing i with
  | nil => trivial
  | cons x xs ih =>
    exact ⟨hpq i hi x (by simp) h.1, ih (by omega) h.2 (fun i hi y hy => hpq i hi y (by simp [hy]))⟩

/-- the same, with any relation between what comes back and the item -/
def ItemBackTo (R : VDict → VDict → Prop) (reprC : Val → String) (types : Option (List String)) (blk back : Nat → VDict → Except PyErr VDict)
    (i : Nat) (d : VDict) : Prop :=
  ∃ b r, blk i d = .ok b ∧ PlainBlock b ∧ skipBlock types (blockBack reprC b) = false ∧
    back i (blockBack reprC b) = .ok r ∧ R r d

theorem items_backTo {R : VDict → VDict → Prop} {reprC : Val → String} {types : Option (List String)} {blk back : Nat → VDict → Except PyErr VDict} (i : Nat) (l : List VDict)
    (h : AllIdx (ItemBackTo R reprC types blk back) i l) :
    ∃ bs rs, mapIdxM blk i l = .ok bs ∧ bs.length = l.length ∧ (∀ b ∈ bs, PlainBlock b ∧ skipBlock types (blockBack reprC b) = false) ∧
      mapIdxM back i (bs.map (blockBack reprC)) = .ok rs ∧ List.Forall₂ R rs l := by
  induction l generalizing i with
  | nil => exact ⟨[], [], rfl, rfl, by simp, rfl, .nil⟩
  | cons d ds ih =>
    obtain ⟨⟨b, r, h1, h2, h3, h4, h5⟩, hr⟩ := h
    obtain ⟨bs, rs, i1, i0, i2, i3, i4⟩ := ih (i + 1) hr
    refine ⟨b :: bs, r :: rs, ?_, by simp [i0], ?_, ?_, .cons h5 i4⟩
    · rw [mapIdxM, h1, i1]; rfl
    · intro x hx
      rcases List.mem_cons.1 hx with rfl | hx
      · exact ⟨h2, h3⟩
      · exact i2 x hx
    · rw [List.map_cons, mapIdxM, h4, i3]; rfl

/-- A list section each item of which comes back as one related to it comes back as a list of related ones. -/
theorem list_sectionTo (R : VDict → VDict → Prop) (reprC : Val → String) (key pkg : String) (types : Option (List String))
    (floop : Option Nat → Val → VDict → Except PyErr VDict) (bloop : Nat → VDict → VDict → Except PyErr VDict)
    (blk back : Nat → VDict → Except PyErr VDict) (hp : IsWord pkg.toList)
    (hf : ∀ i d r, floop (some i) (.dict d) r = do let b ← blk i d; pure (appendTo r pkg [.dict b]))
    (hb : ∀ i b r, bloop i b r = do let x ← back i b; pure (appendTo r key [.dict x]))
    (config : VDict) (l : List VDict) (hne : l ≠ []) (hk : Dict.get? config key = some (.list (l.map .dict)))
    (h : AllIdx (ItemBackTo R reprC types blk back) 1 l) :
    ∃ rs, viaText reprC (pureConv key (fun config _ => fwd key floop config)) (bwdSimple pkg types bloop) config =
        .ok [(key, .list (rs.map .dict))] ∧ List.Forall₂ R rs l := by
  obtain ⟨bs, rs, i1, i0, i2, i3, i4⟩ := items_backTo 1 l h
  have hbne : bs ≠ [] := by
    rintro rfl
    cases l with
    | nil => exact hne rfl
    | cons x xs => simp at i0
  refine ⟨rs, ?_, i4⟩
  unfold viaText
  have hs : (pureConv key (fun config _ => fwd key floop config)).should config = true := by
    simp [pureConv, Dict.has, hk]
  rw [if_pos hs]
  have hr : ((pureConv key (fun config _ => fwd key floop config)).run config []).2 = .ok [(pkg, .list (bs.map .dict))] :=
    fwd_blocks key floop pkg blk hf config l bs hne hk i1
  rw [hr]
  have ht := text_back reprC [(pkg, bs)] (by simp) (by simpa using hp) (by
    intro p hp b hb
    simp only [List.mem_singleton] at hp
    subst hp
    exact (i2 b hb).1)
  obtain ⟨t, ht1, ht2⟩ := ht
  show (uciNative reprC [(pkg, .list (bs.map .dict))] >>= _) = _
  rw [show uciNative reprC [(pkg, .list (bs.map .dict))] = .ok t from ht1]
  show (parseUci t >>= _) = _
  rw [ht2]
  have hsk : ∀ b ∈ bs.map (blockBack reprC), skipBlock types b = false := by
    intro b hb
    obtain ⟨c, hc, rfl⟩ := List.mem_map.1 hb
    exact (i2 c hc).2
  have hsec := backFold_section types bloop key back hb (bs.map (blockBack reprC)) rs (by simpa using hbne) hsk i3
  have hrun := bwd_split pkg types () (fun i b (acc : Unit × VDict) => do let r ← bloop i b acc.2; pure ((), r))
    [] [(pkg, .list ((bs.map (blockBack reprC)).map .dict))] [(pkg, .list ((bs.map (blockBack reprC)).map .dict))] (bs.map (blockBack reprC)) [] _ (by simp) hsk (by simp) hsec
  show (if (bwdSimple pkg types bloop).should _ = true then _ else _) = _
  rw [if_pos (by simp [bwdSimple, bwd, bwdG, Dict.has, interOf])]
  exact congrArg Prod.snd hrun

theorem items_back {reprC : Val → String} {types : Option (List String)} {blk back : Nat → VDict → Except PyErr VDict} (i : Nat) (l : List VDict)
    (h : AllIdx (ItemBack reprC types blk back) i l) :
    ∃ bs rs, mapIdxM blk i l = .ok bs ∧ bs.length = l.length ∧ (∀ b ∈ bs, PlainBlock b ∧ skipBlock types (blockBack reprC b) = false) ∧
      mapIdxM back i (bs.map (blockBack reprC)) = .ok rs ∧ List.Forall₂ SameItems rs l :=
  items_backTo (R := SameItems) i l h

/-- A list section all items of which survive, survives. -/
theorem list_section (reprC : Val → String) (key pkg : String) (types : Option (List String))
    (floop : Option Nat → Val → VDict → Except PyErr VDict) (bloop : Nat → VDict → VDict → Except PyErr VDict)
    (blk back : Nat → VDict → Except PyErr VDict) (hp : IsWord pkg.toList)
    (hf : ∀ i d r, floop (some i) (.dict d) r = do let b ← blk i d; pure (appendTo r pkg [.dict b]))
    (hb : ∀ i b r, bloop i b r = do let x ← back i b; pure (appendTo r key [.dict x]))
    (config : VDict) (l : List VDict) (hne : l ≠ []) (hk : Dict.get? config key = some (.list (l.map .dict)))
    (h : AllIdx (ItemBack reprC types blk back) 1 l) :
    ∃ rs, viaText reprC (pureConv key (fun config _ => fwd key floop config)) (bwdSimple pkg types bloop) config =
        .ok [(key, .list (rs.map .dict))] ∧ List.Forall₂ SameItems rs l :=
  list_sectionTo SameItems reprC key pkg types floop bloop blk back hp hf hb config l hne hk h

/-- the forward conversion of a list section, exceptions included -/
theorem fwd_eq (key : String) (loop : Option Nat → Val → VDict → Except PyErr VDict) (pkg : String)
    (blk : Nat → VDict → Except PyErr VDict)
    (hl : ∀ i d r, loop (some i) (.dict d) r = do let b ← blk i d; pure (appendTo r pkg [.dict b]))
    (config : VDict) (l : List VDict) (hk : Dict.get? config key = some (.list (l.map .dict))) :
    fwd key loop config = (do
      let bs ← mapIdxM blk 1 l
      pure (if bs.isEmpty then [] else [(pkg, .list (bs.map .dict))])) := by
  cases hm : mapIdxM blk 1 l with
  | ok bs =>
    cases l with
    | nil => cases hm; simp [fwd, hk, fwdList]
    | cons d ds =>
      rw [fwd_blocks key loop pkg blk hl config (d :: ds) bs (by simp) hk hm]
      rw [mapIdxM] at hm
      obtain ⟨b, h1, h2⟩ := bind_ok_iff.1 hm
      obtain ⟨bs', h3, h4⟩ := bind_ok_iff.1 h2
      cases h4
      rfl
  | error e =>
    unfold fwd
    simp only [hk, Option.getD_some]
    have key : ∀ (l : List VDict) (i : Nat) (r : VDict), mapIdxM blk i l = .error e → fwdList loop i r (l.map .dict) = .error e := by
      intro l
      induction l with
      | nil => intro i r h; cases h
      | cons d ds ih =>
        intro i r h
        rw [mapIdxM] at h
        rw [List.map_cons, fwdList, hl]
        cases hb : blk i d with
        | error e' => rw [hb] at h; cases h; rfl
        | ok b =>
          rw [hb] at h
          cases hr : mapIdxM blk (i + 1) ds with
          | ok bs => rw [show (Except.ok b >>= _) = (mapIdxM blk (i + 1) ds >>= fun ys => pure (b :: ys)) from rfl, hr] at h; cases h
          | error e' =>
            rw [show (Except.ok b >>= _) = (mapIdxM blk (i + 1) ds >>= fun ys => pure (b :: ys)) from rfl, hr] at h
            cases h
            exact ih (i + 1) _ hr
    exact key l 1 [] hm

theorem mapIdxM_forall {α β : Type} {f : Nat → α → Except PyErr β} {R : β → α → Prop} {i : Nat} {l : List α} {bs : List β} (h : mapIdxM f i l = .ok bs)
    (hR : ∀ j x y, x ∈ l → f j x = .ok y → R y x) : List.Forall₂ R bs l := by
  induction l generalizing i bs with
  | nil => cases h; exact .nil
  | cons x xs ih =>
    rw [mapIdxM] at h
    obtain ⟨b, h1, h2⟩ := bind_ok_iff.1 h
    obtain ⟨bs', h3, h4⟩ := bind_ok_iff.1 h2
    cases h4
    exact .cons (hR i x b (by simp) h1) (ih h3 (fun j x y hx => hR j x y (by simp [hx])))

/-- a section that becomes one block and comes back from it -/
theorem dict_section (reprC : Val → String) (key pkg : String) (types : Option (List String))
    (floop : Option Nat → Val → VDict → Except PyErr VDict) (bloop : Nat → VDict → VDict → Except PyErr VDict) (hp : IsWord pkg.toList)
    (config : VDict) (d b out : VDict) (hk : Dict.get? config key = some (.dict d))
    (hf : floop none (.dict d) [] = .ok [(pkg, .list [.dict b])]) (hpl : PlainBlock b)
    (hs : skipBlock types (blockBack reprC b) = false) (hb : bloop 1 (blockBack reprC b) [] = .ok out) :
    viaText reprC (pureConv key (fun config _ => fwd key floop config)) (bwdSimple pkg types bloop) config = .ok out := by
  obtain ⟨t, ht1, ht2⟩ := text_back reprC [(pkg, [b])] (by simp) (by simpa using hp) (by simpa using hpl)
  have hrun := bwd_split pkg types () (fun i b (acc : Unit × VDict) => do let r ← bloop i b acc.2; pure ((), r))
    [] [(pkg, .list [.dict (blockBack reprC b)])] [(pkg, .list [.dict (blockBack reprC b)])] [blockBack reprC b] [] ((), out) (by simp) (by simpa using hs) (by simp) (by
      rw [backFold, if_neg (by rw [hs]; simp), hb]; rfl)
  refine viaText_eq (inter := [(pkg, .list [.dict b])]) (inter' := [(pkg, .list [.dict (blockBack reprC b)])]) (text := t) ?_ ?_ ht1 ht2 ?_ ?_
  · simp [pureConv, Dict.has, hk]
  · show fwd key floop config = _
    unfold fwd
    simp only [hk, Option.getD_some]
    exact hf
  · simp [bwdSimple, bwd, bwdG, Dict.has]
  · exact congrArg Prod.snd hrun

end NJ
