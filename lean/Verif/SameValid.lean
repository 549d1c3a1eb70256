import Verif.SameAll
import Verif.PropsSchema

/-!
# Validation does not look at the order of the keys
-/

namespace NJ

set_option linter.unusedVariables false

theorem sameJson_trans {x y z : Val} (h : SameJson x y) (h' : SameJson y z) : SameJson x z := by
  induction h generalizing z with
  | none => exact h'
  | bool _ => exact h'
  | int _ => exact h'
  | str _ => exact h'
  | list a b hl h ih =>
    cases h' with
    | list _ c hl' h' =>
      refine .list _ _ (hl.trans hl') fun i p q hp hq => ?_
      have : i < b.length := by
        rw [← hl]
        exact (List.getElem?_eq_some_iff.1 hp).1
      exact ih i p b[i] hp (List.getElem?_eq_getElem this) (h' i _ _ (List.getElem?_eq_getElem this) hq)
  | dict a b hk h ih =>
    cases h' with
    | dict _ c hk' h' =>
      refine .dict _ _ (fun k => (hk k).trans (hk' k)) fun k p q hp hq => ?_
      cases hb : Dict.get? b k with
      | none => rw [(hk k).2 hb] at hp; cases hp
      | some r => exact ih k p r hp hb (h' k _ _ hb hq)

theorem sameJson_refl (x : Val) : SameJson x x := by
  induction x using Val.induct with
  | hn => exact .none
  | hb b => exact .bool b
  | hi i => exact .int i
  | hs s => exact .str s
  | hl l ih =>
    refine .list _ _ rfl fun i a b ha hb => ?_
    rw [ha] at hb
    cases hb
    exact ih _ (List.mem_of_getElem? ha)
  | hd d ih =>
    refine .dict _ _ (fun _ => Iff.rfl) fun k a b ha hb => ?_
    rw [ha] at hb
    cases hb
    exact ih _ (Dict.mem_of_get? ha)

theorem sameJson_keys {a b : VDict} (h : ∀ k, Dict.get? a k = none ↔ Dict.get? b k = none) (k : String) : k ∈ Dict.keys a ↔ k ∈ Dict.keys b := by
  have := not_congr (h k)
  rw [Dict.get?_eq_none_iff, Dict.get?_eq_none_iff] at this
  simpa using this

theorem sameJson_perm {a b : VDict} (h : ∀ k, Dict.get? a k = none ↔ Dict.get? b k = none) (ha : (Dict.keys a).Nodup) (hb : (Dict.keys b).Nodup) :
    (Dict.keys a).Perm (Dict.keys b) := (List.perm_ext_iff_of_nodup ha hb).2 (sameJson_keys h)

theorem sameJson_length {a b : VDict} (h : ∀ k, Dict.get? a k = none ↔ Dict.get? b k = none) (ha : (Dict.keys a).Nodup) (hb : (Dict.keys b).Nodup) :
    a.length = b.length := by
  have := (sameJson_perm h ha hb).length_eq
  rwa [Dict.keys, Dict.keys, List.length_map, List.length_map] at this

theorem sameJson_has {a b : VDict} (h : ∀ k, Dict.get? a k = none ↔ Dict.get? b k = none) (k : String) : Dict.has a k = Dict.has b k := by
  rw [Dict.has_eq, Dict.has_eq]
  have := h k
  cases ha : Dict.get? a k with
  | none => rw [this.1 ha]
  | some _ =>
    cases hb : Dict.get? b k with
    | none => rw [this.2 hb] at ha; cases ha
    | some _ => rfl

theorem Val.WF.nodup {d : VDict} (h : (Val.dict d).WF) : (Dict.keys d).Nodup := by
  cases h with
  | dict _ h _ => exact h

theorem Val.WF.mem {l : List Val} (h : (Val.list l).WF) : ∀ v ∈ l, v.WF := by
  cases h with
  | list _ h => exact h

theorem jsEq_right {x v w : Val} (h : SameJson v w) (hv : v.WF) (hw : w.WF) : Val.jsEq x v = Val.jsEq x w := by
  induction x using Val.induct generalizing v w with
  | hn => cases h <;> rfl
  | hb b => cases h <;> rfl
  | hi i => cases h <;> rfl
  | hs s => cases h <;> rfl
  | hl a ih =>
    cases h with
    | list l m hl hr =>
      rw [Val.jsEq, Val.jsEq]
      have h1 := hv.mem
      have h2 := hw.mem
      clear hv hw
      induction a generalizing l m with
      | nil => cases l <;> cases m <;> first | rfl | cases hl
      | cons a as iha =>
        cases l with
        | nil => cases m with
          | nil => rfl
          | cons _ _ => cases hl
        | cons p l =>
          cases m with
          | nil => cases hl
          | cons q m =>
            rw [Val.jsEqL, Val.jsEqL, ih a List.mem_cons_self (hr 0 p q rfl rfl) (h1 p List.mem_cons_self) (h2 q List.mem_cons_self),
              iha (fun y hy => ih y (List.mem_cons_of_mem _ hy)) l m (by simpa using hl) (fun i x y hx hy => hr (i + 1) x y (by simpa using hx) (by simpa using hy))
                (fun y hy => h1 y (List.mem_cons_of_mem _ hy)) fun y hy => h2 y (List.mem_cons_of_mem _ hy)]
    | _ => rfl
  | hd a ih =>
    cases h with
    | dict l m hk hr =>
      rw [Val.jsEq, Val.jsEq, sameJson_length hk hv.nodup hw.nodup]
      congr 1
      induction a with
      | nil => rfl
      | cons p a iha =>
        obtain ⟨k, z⟩ := p
        rw [Val.jsEqD, Val.jsEqD, iha fun y hy => ih y (List.mem_cons_of_mem _ hy)]
        congr 1
        cases hl : Dict.get? l k with
        | none => rw [(hk k).1 hl]
        | some x =>
          cases hm : Dict.get? m k with
          | none => rw [(hk k).2 hm] at hl; cases hl
          | some y => exact ih (k, z) List.mem_cons_self (hr k x y hl hm) (hv.of_get? hl) (hw.of_get? hm)
    | _ => rfl

theorem uniqueOk_same {l m : List Val} (hl : l.length = m.length) (hr : ∀ (i : Nat) x y, l[i]? = some x → m[i]? = some y → SameJson x y)
    (h1 : ∀ v ∈ l, v.WF) (h2 : ∀ v ∈ m, v.WF) : uniqueOk l = uniqueOk m := by
  have key : ∀ (l m : List Val), l.length = m.length → (∀ (i : Nat) x y, l[i]? = some x → m[i]? = some y → SameJson x y) →
      (∀ (i j : Nat) x y, l[i]? = some x → l[j]? = some y → SameJson x y → i = j) → ∀ (i j : Nat) x y, m[i]? = some x → m[j]? = some y → SameJson x y → i = j := by
    intro l m hl hr h i j x y hx hy hxy
    have hi : i < l.length := by rw [hl]; exact (List.getElem?_eq_some_iff.1 hx).1
    have hj : j < l.length := by rw [hl]; exact (List.getElem?_eq_some_iff.1 hy).1
    refine h i j l[i] l[j] (List.getElem?_eq_getElem hi) (List.getElem?_eq_getElem hj) ?_
    exact sameJson_trans (hr i _ _ (List.getElem?_eq_getElem hi) hx) (sameJson_trans hxy (sameJson_symm (hr j _ _ (List.getElem?_eq_getElem hj) hy)))
  rw [Bool.eq_iff_iff, uniqueOk_iff h1, uniqueOk_iff h2]
  exact ⟨key l m hl hr, key m l hl.symm fun i x y hx hy => sameJson_symm (hr i y x hy hx)⟩

theorem all_same {f g : Val → Bool} {l m : List Val} (hl : l.length = m.length) (h : ∀ (i : Nat) x y, l[i]? = some x → m[i]? = some y → f x = g y) :
    l.all f = m.all g := by
  induction l generalizing m with
  | nil => cases m with
    | nil => rfl
    | cons _ _ => cases hl
  | cons a l ih =>
    cases m with
    | nil => cases hl
    | cons b m =>
      rw [List.all_cons, List.all_cons, h 0 a b rfl rfl, ih (by simpa using hl) fun i x y hx hy => h (i + 1) x y (by simpa using hx) (by simpa using hy)]

theorem all_perm {α : Type} {f : α → Bool} {l m : List α} (h : l.Perm m) : l.all f = m.all f := by
  rw [Bool.eq_iff_iff, List.all_eq_true, List.all_eq_true]
  exact ⟨fun q x hx => q x (h.symm.subset hx), fun q x hx => q x (h.subset hx)⟩

theorem filter_congr_length {α : Type} {f g : α → Bool} {l : List α} (h : ∀ x ∈ l, f x = g x) : (l.filter f).length = (l.filter g).length := by
  rw [List.filter_congr h]

theorem keywordOk_same {ip6 : Ip6} {r : Val → Val → Bool} (hr : ∀ s v w, SameJson v w → v.WF → w.WF → r s v = r s w) {s : VDict} {k : String} {arg v w : Val}
    (h : SameJson v w) (hv : v.WF) (hw : w.WF) : keywordOk ip6 r s k arg v = keywordOk ip6 r s k arg w := by
  have hsame := h
  unfold keywordOk
  split <;> try rfl
  · cases h <;> rfl
  · cases h <;> rfl
  · exact any_congr fun x _ => jsEq_right h hv hw
  · cases h <;> rfl
  · cases h <;> rfl
  · cases h <;> rfl
  · cases h <;> rfl
  · cases h <;> rfl
  · cases h <;> rfl
  · cases h with
    | list l m hl _ => dsimp only; rw [hl]
    | _ => rfl
  · cases h with
    | list l m hl q =>
      exact all_same hl fun i x y hx hy => hr _ _ _ (q i x y hx hy) (hv.mem _ (List.mem_of_getElem? hx)) (hw.mem _ (List.mem_of_getElem? hy))
    | _ => rfl
  · cases h with
    | list l m hl q => exact uniqueOk_same hl q hv.mem hw.mem
    | _ => rfl
  · cases h with
    | dict d e hk q =>
      refine all_congr fun p _ => ?_
      cases hd : Dict.get? d p.1 with
      | none => rw [(hk _).1 hd]
      | some x =>
        cases he : Dict.get? e p.1 with
        | none => rw [(hk _).2 he] at hd; cases hd
        | some y => exact hr _ _ _ (q _ x y hd he) (hv.of_get? hd) (hw.of_get? he)
    | _ => rfl
  · cases h with
    | dict d e hk q => exact all_congr fun p _ => sameJson_has hk p
    | _ => rfl
  · cases h with
    | dict d e hk q => exact all_perm (sameJson_perm hk hv.nodup hw.nodup)
    | _ => rfl
  · exact all_congr fun x _ => hr _ _ _ h hv hw
  · exact any_congr fun x _ => hr _ _ _ h hv hw
  · rw [filter_congr_length fun x _ => hr x _ _ h hv hw]
  · rw [hr _ _ _ h hv hw]

theorem valid_same {ip6 : Ip6} {root : VDict} (n : Nat) : ∀ s v w, SameJson v w → v.WF → w.WF → valid ip6 root n s v = valid ip6 root n s w := by
  induction n with
  | zero => intro s v w _ _ _; rfl
  | succ n ih =>
    intro s v w h hv hw
    cases s with
    | dict s =>
      rw [valid, valid]
      split
      · split
        · exact ih _ _ _ h hv hw
        · rfl
      · exact all_congr fun p _ => keywordOk_same ih h hv hw
    | _ => rfl

theorem owValidate_same {ip6 : Ip6} {c c' : VDict} (h : SameJson (.dict c) (.dict c')) (hc : (Val.dict c).WF) (hc' : (Val.dict c').WF) :
    owValidate ip6 c = owValidate ip6 c' := by
  unfold owValidate
  rw [valid_same _ _ _ _ h hc hc']

/-! ## The other checks -/

variable {X : Spec} {d e : VDict} {dsa : Bool} {c c' : VDict}

theorem relE_forM {α : Type} {R : α → α → Prop} {l m : List α} {f : α → Except PyErr Unit} (h : List.Forall₂ R l m) (hf : ∀ a b, R a b → RelE Eq (f a) (f b)) :
    RelE Eq (l.forM f) (m.forM f) := by
  induction h with
  | nil => exact relE_refl _
  | cons h _ ih =>
    show RelE Eq (f _ >>= fun _ => List.forM _ f) (f _ >>= fun _ => List.forM _ f)
    exact relE_bind (hf _ _ h) fun _ _ _ => ih

theorem same_radioRefused (h : SameD flat d e) : RelE Eq (radioRefused d) (radioRefused e) := by
  unfold radioRefused
  same

theorem same_checkRadio {v w : Val} (h : Blk flat v w) : RelE Eq (checkRadio v) (checkRadio w) := by
  unfold checkRadio
  cases h with
  | same _ _ => exact relE_refl _
  | dict h =>
    dsimp only
    refine relE_bind (same_radioRefused h) fun a b hab => ?_
    subst hab
    exact relE_refl _

theorem same_validateRadios (h : TopSame dsa c c') : RelE Eq (validateRadios c) (validateRadios c') := by
  unfold validateRadios
  have hs : OptRel (Sec flat) (Dict.get? c "radios") (Dict.get? c' "radios") := h.at' "radios"
  generalize Dict.get? c "radios" = a at hs ⊢
  generalize Dict.get? c' "radios" = b at hs ⊢
  cases hs with
  | none => exact relE_refl _
  | some q =>
    cases q with
    | same _ h1 h2 => exact relE_refl _
    | dict h =>
      dsimp only
      rw [flat_isEmpty h]
      exact relE_refl _
    | list hl => exact relE_forM hl fun _ _ => same_checkRadio

theorem same_filesOf (h : TopSame dsa c c') : List.Forall₂ (Blk flat) (filesOf c) (filesOf c') := by
  unfold filesOf
  have hs := h.files
  generalize Dict.get? c "files" = a at hs ⊢
  generalize Dict.get? c' "files" = b at hs ⊢
  cases hs with
  | none => exact .nil
  | some q =>
    cases q with
    | same v h1 h2 =>
      rename_i v
      cases v <;> first | exact .nil | exact absurd rfl (h2 _)
    | dict h => exact .nil
    | list hl => exact hl

theorem same_filePath {v w : Val} (h : Blk flat v w) : filePath v = filePath w := by
  cases h with
  | same => rfl
  | dict h =>
    show reqStr _ _ = reqStr _ _
    unfold reqStr
    rw [h.get_flat]

theorem same_fileItem {v w : Val} (h : Blk flat v w) : fileItem v = fileItem w := by
  cases h with
  | same => rfl
  | dict h =>
    unfold fileItem
    dsimp only
    unfold reqStr optStr
    rw [h.get_flat, h.get_flat "contents", h.get_flat "mode"]

theorem same_validateFilePaths (h : TopSame dsa c c') : RelE Eq (validateFilePaths c) (validateFilePaths c') := by
  unfold validateFilePaths
  exact relE_forM (same_filesOf h) fun v w q => by rw [same_filePath q]; exact relE_refl _

theorem same_dictsAt {k : String} {o o' : Option Val} {R : VDict → VDict → Prop} {S : Val → Val → Prop} (h : OptRel (EachV S) (Dict.get? d k) (Dict.get? e k))
    (hs : ∀ v w, S v w → RelE R (asDict v) (asDict w)) (hn : ∀ v w, S v w → (∀ l, v ≠ .list l) → ∀ l, w ≠ .list l) :
    RelE (List.Forall₂ R) (dictsAt d k) (dictsAt e k) := by
  unfold dictsAt
  generalize Dict.get? d k = a at h ⊢
  generalize Dict.get? e k = b at h ⊢
  cases h with
  | none => exact .ok .nil
  | some q =>
    cases q with
    | list hl => exact relE_mapM hl hs
    | one h1 h2 _ =>
      rename_i v w _
      cases v <;> first | exact absurd rfl (h1 _) | (cases w <;> first | exact absurd rfl (h2 _) | exact .error _)

theorem same_pvidPort {seen : List Val} (h : SameD flat d e) : RelE Eq (pvidPort seen d) (pvidPort seen e) := by
  unfold pvidPort
  rw [h.get_flat "primary_vid"]
  refine relE_ite Iff.rfl (fun _ => ?_) fun _ => relE_refl _
  refine relE_bind (relE_getKey h (by decide)) fun a b hab => ?_
  subst hab
  exact relE_refl _

theorem optRel_mono {R S : Val → Val → Prop} {a b : Option Val} (h : OptRel R a b) (hs : ∀ v w, R v w → S v w) : OptRel S a b := by
  cases h with
  | none => exact .none
  | some q => exact .some (hs _ _ q)

theorem same_pvidVlan {seen : List Val} (h : SameD vlanSpec d e) : RelE Eq (pvidVlan seen d) (pvidVlan seen e) := by
  unfold pvidVlan
  refine relE_bind (same_dictsAt (o := none) (o' := none) (S := Blk flat) (optRel_mono (h.special "ports" (by decide)) fun _ _ q => Sec.each q) (fun _ _ q => q.asDict)
    fun v w q hn l hl => ?_) fun l m hlm => relE_foldlM (S := Eq) hlm rfl fun a b x y hab hxy => ?_
  · subst hl
    cases q with
    | same => exact hn l rfl
  · subst hab
    exact same_pvidPort hxy

theorem same_pvidInterface (h : SameD ifaceSpec d e) : RelE Eq (pvidInterface d) (pvidInterface e) := by
  unfold pvidInterface
  rw [h.get (k := "type") (by decide)]
  refine relE_ite Iff.rfl (fun _ => relE_refl _) fun _ => ?_
  refine relE_bind (same_dictsAt (o := none) (o' := none) (S := Blk vlanSpec) (optRel_mono (h.special "vlan_filtering" (by decide)) fun _ _ q => Sec.each q) (fun _ _ q => q.asDict)
    fun v w q hn l hl => ?_) fun l m hlm => relE_bind (relE_foldlM (S := Eq) hlm rfl fun a b x y hab hxy => ?_) fun _ _ _ => relE_refl _
  · subst hl
    cases q with
    | same => exact hn l rfl
  · subst hab
    exact same_pvidVlan hxy

theorem same_validatePvid (h : TopSame dsa c c') : RelE Eq (validatePvid c) (validatePvid c') := by
  unfold validatePvid
  refine relE_bind (same_dictsAt (o := none) (o' := none) (S := IfaceBlk dsa) (h.at' "interfaces") (fun _ _ q => q.asDict)
    fun v w q hn l hl => ?_) fun l m hlm => relE_forM hlm fun a b hab => same_pvidInterface hab.same
  subst hl
  cases q with
  | same => exact hn l rfl

/-! ## The backend -/

theorem same_dedupLoop {l m : List Val} {a b : Dict Chars Val} (h : List.Forall₂ (Blk flat) l m)
    (hab : List.Forall₂ (fun p q => p.1 = q.1 ∧ Blk flat p.2 q.2) a b) :
    RelE (List.Forall₂ (fun p q : Chars × Val => p.1 = q.1 ∧ Blk flat p.2 q.2)) (dedupLoop a l) (dedupLoop b m) := by
  induction h generalizing a b with
  | nil => exact .ok hab
  | cons h _ ih =>
    rw [dedupLoop, dedupLoop, same_filePath h]
    refine relE_bind (relE_refl _) fun p q hpq => ?_
    subst hpq
    refine ih ?_
    clear ih
    induction hab with
    | nil => exact .cons ⟨rfl, h⟩ .nil
    | cons h1 h2 ih2 =>
      rename_i x y a b
      obtain ⟨k, v⟩ := x
      obtain ⟨k', w⟩ := y
      obtain ⟨rfl, h1⟩ := h1
      rw [Dict.set, Dict.set]
      split
      · exact .cons ⟨rfl, h⟩ h2
      · exact .cons ⟨rfl, h1⟩ ih2

theorem same_deduplicate (h : TopSame dsa c c') : RelE (TopSame dsa) (deduplicateFiles c) (deduplicateFiles c') := by
  unfold deduplicateFiles
  have hf := same_filesOf h
  generalize filesOf c = l at hf
  generalize filesOf c' = m at hf
  cases hf with
  | nil => exact .ok h
  | cons h1 h2 =>
    refine relE_bind (same_dedupLoop (.cons h1 h2) .nil) fun a b hab => .ok (h.setFiles (.list ?_))
    induction hab with
    | nil => exact .nil
    | cons q _ ih => exact .cons q.2 ih

theorem same_items {l m : List Val} (h : List.Forall₂ (Blk flat) l m) : l.mapM fileItem = m.mapM fileItem := by
  have := relE_eq (relE_mono (relE_mapM (S := Eq) h fun v w q => relE_of_eq (same_fileItem q)) fun a b hab => forall₂_eq hab)
  exact this

theorem same_filesSection (h : TopSame dsa c c') : filesSection c = filesSection c' := by
  unfold filesSection renderFiles
  rw [same_items (same_filesOf h)]

theorem same_processFiles (h : TopSame dsa c c') : processFiles c = processFiles c' := by
  unfold processFiles
  rw [same_items (same_filesOf h)]

section
variable {env : Env} {schema : VDict → Except PyErr Unit} {sh : Val → Bool} {loads : Chars → Option Val}

theorem same_validate (h : TopSame dsa c c') (hs : schema c = schema c') :
    validate (openwrtClass env schema sh loads dsa) c = validate (openwrtClass env schema sh loads dsa) c' := by
  refine relE_eq ?_
  unfold validate
  refine relE_bind (same_validateRadios h) fun _ _ _ => relE_bind (relE_of_eq hs) fun _ _ _ => relE_bind (same_validateFilePaths h) fun _ _ _ => same_validatePvid h

theorem same_renderTail {files : Bool} {i : Option VDict} (h : TopSame dsa c c') :
    SameSt dsa (renderTail (openwrtClass env schema sh loads dsa) files ⟨c, i⟩) (renderTail (openwrtClass env schema sh loads dsa) files ⟨c', i⟩) := by
  unfold renderTail
  have hd := same_deduplicate h
  dsimp only
  generalize deduplicateFiles c = a at hd ⊢
  generalize deduplicateFiles c' = b at hd ⊢
  cases hd with
  | error e => exact .error _ _ _ _
  | ok h =>
    dsimp only
    rw [same_filesSection h]
    generalize (do
      let out ← (openwrtClass env schema sh loads dsa).native (i.getD [])
      if files = true then do
          let s ← filesSection _
          pure (out ++ s)
        else pure out : Except PyErr Chars) = z
    cases z with
    | error e => exact .error _ _ _ _
    | ok t => exact .ok _ _ h

theorem same_render {files : Bool} (h : TopSame dsa c c') (hs : schema c = schema c') :
    SameSt dsa (render (openwrtClass env schema sh loads dsa) files ⟨c, none⟩) (render (openwrtClass env schema sh loads dsa) files ⟨c', none⟩) := by
  unfold render ensureIntermediate toIntermediate
  dsimp only
  rw [same_validate h hs]
  split
  · exact .error _ _ _ _
  · rename_i hv
    dsimp only
    have hl := convLoop_same (cls := openwrtClass env schema sh loads dsa) (i := []) (openwrt_convs_same (env := env) (sh := sh)) h
    change SameSt dsa (match convLoop (openwrtClass env schema sh loads dsa) (openwrtConvs env sh dsa) c [] with
      | (st', .error e) => (st', .error e)
      | (st', .ok ()) => renderTail (openwrtClass env schema sh loads dsa) files st')
      (match convLoop (openwrtClass env schema sh loads dsa) (openwrtConvs env sh dsa) c' [] with
      | (st', .error e) => (st', .error e)
      | (st', .ok ()) => renderTail (openwrtClass env schema sh loads dsa) files st')
    generalize convLoop (openwrtClass env schema sh loads dsa) (openwrtConvs env sh dsa) c [] = x at hl ⊢
    generalize convLoop (openwrtClass env schema sh loads dsa) (openwrtConvs env sh dsa) c' [] = y at hl ⊢
    cases hl with
    | error => exact .error _ _ _ _
    | ok i r h => exact same_renderTail h

theorem same_generate (h : TopSame dsa c c') (hs : schema c = schema c') :
    SameSt dsa (generate (openwrtClass env schema sh loads dsa) ⟨c, none⟩) (generate (openwrtClass env schema sh loads dsa) ⟨c', none⟩) := by
  unfold generate
  have hr := same_render (env := env) (sh := sh) (loads := loads) (files := false) h hs
  generalize render (openwrtClass env schema sh loads dsa) false ⟨c, none⟩ = x at hr ⊢
  generalize render (openwrtClass env schema sh loads dsa) false ⟨c', none⟩ = y at hr ⊢
  cases hr with
  | error => exact .error _ _ _ _
  | ok i t h =>
    dsimp only
    rw [same_processFiles h]
    generalize (do
      let a ← (openwrtClass env schema sh loads dsa).split t
      let b ← processFiles _
      pure (a ++ b) : Except PyErr (List Member)) = z
    cases z with
    | error e => exact .error _ _ _ _
    | ok t => exact .ok _ _ h

end
end NJ
