import Verif.SameConv

/-!
# OpenVPN and ZeroTier do not look at the order of the options
-/

namespace NJ

set_option linter.unusedVariables false
variable {env : Env} {X : Spec} {d e : VDict}

/-! ## OpenVPN -/

def vpnSpec : Spec := ⟨["remote", "data_ciphers"], fun _ => Sec flat⟩
def cipherKeys : Spec := ⟨["data_ciphers"], fun _ => Sec flat⟩

theorem get?_filter {f : String × Val → Bool} {d : VDict} (h : (Dict.keys d).Nodup) (k : String) :
    Dict.get? (d.filter f) k = match Dict.get? d k with
      | some v => if f (k, v) then some v else none
      | none => none := by
  induction d with
  | nil => rfl
  | cons p d ih =>
    obtain ⟨q, v⟩ := p
    have hn := List.nodup_cons.1 h
    rw [Dict.get?_cons]
    by_cases hq : q = k
    · subst hq
      rw [if_pos rfl]
      by_cases hf : f (q, v) = true
      · rw [List.filter_cons_of_pos hf, Dict.get?_cons, if_pos rfl]
        exact (if_pos hf).symm
      · rw [List.filter_cons_of_neg hf]
        show _ = if _ then _ else _
        rw [if_neg hf]
        have : Dict.get? d q = none := (Dict.get?_eq_none_iff _ _).2 hn.1
        rw [ih hn.2, this]
    · rw [if_neg hq]
      by_cases hf : f (q, v) = true
      · rw [List.filter_cons_of_pos hf, Dict.get?_cons, if_neg hq, ih hn.2]
      · rw [List.filter_cons_of_neg hf, ih hn.2]

theorem nodup_filter {f : String × Val → Bool} {d : VDict} (h : (Dict.keys d).Nodup) : (Dict.keys (d.filter f)).Nodup :=
  (List.filter_sublist.map Prod.fst).nodup h

theorem sameD_filter {f : String × Val → Bool} (h : SameD X d e) (hf : ∀ k v w, k ∈ X.keys → X.rel k v w → f (k, v) = f (k, w)) :
    SameD X (d.filter f) (e.filter f) := by
  refine ⟨nodup_filter h.left, nodup_filter h.right, fun k hk => ?_, fun k hk => ?_⟩
  · rw [get?_filter h.left, get?_filter h.right, h.plain k hk]
  · rw [get?_filter h.left, get?_filter h.right]
    have := h.special k hk
    revert this
    generalize Dict.get? d k = a
    generalize Dict.get? e k = b
    intro this
    cases this with
    | none => exact .none
    | some q =>
      dsimp only
      rw [hf _ _ _ hk q]
      split
      · exact .some q
      · exact .none

/-- what is removed does not depend on the order -/
theorem same_removed {remove : Val → Bool} (hr : (∀ l, remove (.list l) = false) ∧ ∀ d, remove (.dict d) = false) {v w : Val} (h : Sec flat v w) :
    remove v = remove w := by
  cases h with
  | same => rfl
  | dict _ => rw [hr.2, hr.2]
  | list _ => rw [hr.1, hr.1]

theorem same_bareBridge (h : SameD vpnSpec d e) : SameD vpnSpec (bareBridge d) (bareBridge e) := by
  unfold bareBridge
  rw [h.get (by decide)]
  same

theorem same_dropRemoved {remove : Val → Bool} (hr : (∀ l, remove (.list l) = false) ∧ ∀ d, remove (.dict d) = false) (h : SameD vpnSpec d e) :
    SameD vpnSpec (dropRemoved remove d) (dropRemoved remove e) :=
  sameD_filter h fun k v w _ hv => by rw [show remove (k, v).2 = remove (k, w).2 from same_removed hr hv]

theorem same_remoteText {v w : Val} (h : Blk flat v w) : RelE Eq (remoteText env v) (remoteText env w) := by
  cases h with
  | same => exact relE_refl _
  | dict h =>
    unfold remoteText
    dsimp only
    same

/-- the values of one special key become equal -/
theorem sameD_settle {Y : Spec} {k : String} {v : Val} (h : SameD X d e) (hk : k ∉ Y.keys) (hx : ∀ q, q ∈ X.keys → q ≠ k → q ∈ Y.keys)
    (hs : ∀ q, q ∈ Y.keys → q ∈ X.keys ∧ ∀ v w, X.rel q v w → Y.rel q v w) : SameD Y (Dict.set d k v) (Dict.set e k v) := by
  refine ⟨Dict.nodup_set h.left _ _, Dict.nodup_set h.right _ _, fun q hq => ?_, fun q hq => ?_⟩
  · rw [Dict.get?_set, Dict.get?_set]
    split
    · rfl
    · rename_i hkq
      exact h.plain q fun hxq => hq (hx q hxq (Ne.symm hkq))
  · have hkq : k ≠ q := fun e => hk (e ▸ hq)
    rw [Dict.get?_set, Dict.get?_set, if_neg hkq, if_neg hkq]
    have := h.special q (hs q hq).1
    revert this
    generalize Dict.get? d q = a
    generalize Dict.get? e q = b
    intro this
    cases this with
    | none => exact .none
    | some r => exact .some ((hs q hq).2 _ _ r)

theorem same_remotesText (h : SameD vpnSpec d e) : RelE (SameD cipherKeys) (remotesText env d) (remotesText env e) := by
  unfold remotesText
  have hs := h.special "remote" (by decide)
  generalize ha : Dict.get? d "remote" = a at hs
  generalize hb : Dict.get? e "remote" = b at hs
  cases hs with
  | none =>
    refine .ok (sameD_shrink h (fun k hk hc => ?_) fun k hk => ⟨List.mem_cons_of_mem _ hk, fun _ _ q => q⟩)
    rcases List.mem_cons.1 hk with rfl | hk
    · rw [ha, hb]
    · exact absurd hk hc
  | some q =>
    cases q with
    | same _ h1 h2 =>
      rename_i v
      cases v <;> first | exact .error _ | exact absurd rfl (h2 _)
    | dict _ => exact .error _
    | list hl =>
      refine relE_bind (relE_mapM hl fun _ _ => same_remoteText) fun l m hm => ?_
      rw [forall₂_eq hm]
      refine .ok (sameD_settle h (by decide) (fun q hq hne => ?_) fun k hk => ⟨List.mem_cons_of_mem _ hk, fun _ _ q => q⟩)
      rcases List.mem_cons.1 hq with rfl | hq
      · exact absurd rfl hne
      · exact hq

theorem same_statusVersion (h : SameD cipherKeys d e) : SameD cipherKeys (statusVersion d) (statusVersion e) := by
  unfold statusVersion
  rw [h.has]
  same

theorem same_cipherText {v w : Val} (h : Blk flat v w) : RelE Eq (cipherText env v) (cipherText env w) := by
  cases h with
  | same => exact relE_refl _
  | dict h =>
    unfold cipherText
    dsimp only
    same

theorem Sec.falsy {v w : Val} (h : Sec X v w) (hv : v.truthy = false) : v = w := by
  cases h with
  | same => rfl
  | dict h =>
    rename_i d e
    cases d with
    | nil =>
      have := flat_isEmpty h
      cases e with
      | nil => rfl
      | cons _ _ => cases this
    | cons _ _ => simp [Val.truthy] at hv
  | list h =>
    cases h with
    | nil => rfl
    | cons _ _ => simp [Val.truthy] at hv

theorem optRel_getD {R : Val → Val → Prop} {o p : Option Val} {v : Val} (h : OptRel R o p) (hv : R v v) : R (o.getD v) (p.getD v) := by
  cases h with
  | none => exact hv
  | some q => exact q

theorem sec_none : Sec X .none .none := .same _ (fun _ h => nomatch h) (fun _ h => nomatch h)

theorem same_dataCiphers (h : SameD cipherKeys d e) : RelE (SameD flat) (dataCiphers env d) (dataCiphers env e) := by
  unfold dataCiphers
  dsimp only
  have hs : Sec flat ((Dict.get? d "data_ciphers").getD .none) ((Dict.get? e "data_ciphers").getD .none) :=
    optRel_getD (h.special "data_ciphers" (by decide)) sec_none
  rw [hs.truthy]
  refine relE_ite Iff.rfl (fun ht => ?_) fun _ => ?_
  · refine .ok (sameD_shrink h (fun k hk _ => ?_) fun _ q => nomatch q)
    cases List.mem_singleton.1 hk
    have hv := hs.falsy (by rw [hs.truthy]; simpa using ht)
    have := h.special "data_ciphers" (by decide)
    generalize Dict.get? d "data_ciphers" = a at this hv ⊢
    generalize Dict.get? e "data_ciphers" = b at this hv ⊢
    cases this with
    | none => rfl
    | some _ => exact congrArg some hv
  · generalize (Dict.get? d "data_ciphers").getD .none = a at hs
    generalize (Dict.get? e "data_ciphers").getD .none = b at hs
    cases hs with
    | same _ h1 h2 => cases a <;> first | exact .error _ | exact absurd rfl (h2 _)
    | dict _ => exact .error _
    | list hl =>
      refine relE_bind (relE_mapM hl fun _ _ => same_cipherText) fun l m hm => ?_
      rw [forall₂_eq hm]
      exact .ok (sameD_settle h (by decide) (fun q hq hne => absurd (List.mem_singleton.1 hq) hne) fun _ q => nomatch q)

@[same_rule] theorem same_tlsAuth (h : SameD flat d e) : RelE (RelP (SameD flat) Eq) (tlsAuth env d) (tlsAuth env e) := by
  unfold tlsAuth
  dsimp only
  same

theorem same_vpnBlock {remove : Val → Bool} (hr : (∀ l, remove (.list l) = false) ∧ ∀ d, remove (.dict d) = false) (h : SameD vpnSpec d e) :
    RelE Eq (vpnBlock env remove d) (vpnBlock env remove e) := by
  unfold vpnBlock
  refine relE_bind (same_remotesText (same_dropRemoved hr (same_bareBridge h))) fun a b hab =>
    relE_bind (same_dataCiphers (same_statusVersion hab)) fun a b hab => relE_bind (same_tlsAuth hab) ?_
  rintro ⟨c, f⟩ ⟨c', f'⟩ ⟨h1, h2⟩
  dsimp only at h1 h2 ⊢
  rw [sorted_eq h1, h2]
  exact .ok rfl

theorem same_tlsCipherList (h : SameD vpnSpec d e) : SameD vpnSpec (tlsCipherList d) (tlsCipherList e) := by
  unfold tlsCipherList
  rw [h.get (by decide)]
  split
  · same
  · exact h

theorem same_uciVpnBlock (h : SameD vpnSpec d e) : RelE Eq (uciVpnBlock env d) (uciVpnBlock env e) := by
  unfold uciVpnBlock popOr
  dsimp only
  have h1 : SameD vpnSpec (if isZero (Dict.get? d "fragment") then Dict.erase d "fragment" else d) (if isZero (Dict.get? e "fragment") then Dict.erase e "fragment" else e) := by
    rw [h.get (k := "fragment") (by decide)]
    same
  refine relE_bind (relE_popKey h1 (by decide)) ?_
  rintro ⟨c, f⟩ ⟨c', f'⟩ ⟨hc, hf⟩
  dsimp only at hc hf ⊢
  subst hc
  refine relE_bind (relE_refl _) fun a b hab => ?_
  subst hab
  refine same_vpnBlock ⟨fun _ => rfl, fun _ => rfl⟩ (same_tlsCipherList ?_)
  rw [hf.get (k := "disabled") (by decide)]
  same

/-! ## ZeroTier -/

def ztSpec : Spec := ⟨["networks"], fun _ => Sec flat⟩

theorem same_ztLine {v w : Val} (h : Blk flat v w) : RelE Eq (ztLine env v) (ztLine env w) := by
  unfold ztLine
  same

theorem same_ztId {v w : Val} (h : Blk flat v w) : RelE Eq (ztId v) (ztId w) := by
  unfold ztId
  same

theorem same_ztNetwork {v w : Val} (h : Blk flat v w) : RelE Eq (ztNetwork v) (ztNetwork w) := by
  unfold ztNetwork
  same

theorem same_ztNetworks (h : SameD ztSpec d e) : RelE (List.Forall₂ (Blk flat)) (ztNetworks d) (ztNetworks e) := by
  unfold ztNetworks
  have := h.special "networks" (by decide)
  generalize Dict.get? d "networks" = a at this ⊢
  generalize Dict.get? e "networks" = b at this ⊢
  cases this with
  | none => exact .ok .nil
  | some q =>
    cases q with
    | same _ h1 h2 =>
      rename_i v
      cases v <;> first | exact .error _ | exact absurd rfl (h2 _)
    | dict _ => exact .error _
    | list hl => exact .ok hl

/-- files of the configuration -/
theorem same_ztMerge {path : Chars} {l m : List Val} (h : List.Forall₂ (Blk flat) l m) :
    RelE (RelP (List.Forall₂ (Blk flat)) Eq) (ztMerge path l) (ztMerge path m) := by
  induction h with
  | nil => exact .ok ⟨.nil, rfl⟩
  | cons h hl ih =>
    rw [ztMerge, ztMerge]
    refine relE_bind h.asDict fun d e hd => ?_
    rw [hd.get_flat "path"]
    refine relE_ite Iff.rfl (fun _ => ?_) fun _ => relE_bind ih fun a b hab => .ok ⟨.cons h hab.fst, hab.snd⟩
    refine relE_bind (relE_getKey hd (by decide)) fun c c' hc => ?_
    subst hc
    refine relE_bind (relE_refl _) fun t t' ht => relE_bind ih fun a b hab => ?_
    rw [ht, hab.snd]
    exact .ok ⟨hab.fst, rfl⟩

theorem same_ztFiles {l m : List Val} (h : SameD ztSpec d e) (hl : List.Forall₂ (Blk flat) l m) :
    RelE (List.Forall₂ (Blk flat)) (ztFiles env d l) (ztFiles env e m) := by
  unfold ztFiles
  dsimp only
  rw [h.get (k := "config_path") (by decide)]
  refine relE_bind (same_ztNetworks h) fun a b hab => relE_bind (relE_mapM hab fun _ _ => same_ztLine) fun x y hxy =>
    relE_bind (same_ztMerge hl) fun o p hop => ?_
  rw [forall₂_eq hxy, hop.snd]
  exact .ok (List.rel_append hop.fst (.cons (.dict (sameD_refl (by simp only [Dict.keys, List.map_cons, List.map_nil]; decide))) .nil))

theorem same_ztLocalConf (h : SameD ztSpec d e) : SameD ztSpec (ztLocalConf d) (ztLocalConf e) := by
  unfold ztLocalConf
  dsimp only
  rw [h.get (k := "local_conf") (by decide), h.get (k := "local_conf_path") (by decide)]
  same

def SortedD (d : VDict) : Prop := d.Pairwise fun p q => charsLe p.1.toList q.1.toList = true

theorem same_ztBlock (h : SameD ztSpec d e) : RelE (fun a b => SameD ztSpec a b ∧ SortedD a ∧ SortedD b) (ztBlock d) (ztBlock e) := by
  unfold ztBlock popOr
  dsimp only
  refine relE_bind (same_ztNetworks h) fun a b hab => relE_bind (relE_popKey h (by decide)) ?_
  rintro ⟨c, f⟩ ⟨c', f'⟩ ⟨hc, hf⟩
  dsimp only at hc hf ⊢
  subst hc
  refine relE_bind (relE_refl _) fun t t' ht => relE_bind (relE_mapM hab fun _ _ => same_ztId) fun x y hxy => ?_
  subst ht
  rw [forall₂_eq hxy, hf.get (k := "disabled") (by decide), hf.get (k := "config_path") (by decide), hf.get (k := "copy_config_path") (by decide)]
  refine .ok ⟨sameD_sorted (sameD_erase (same_ztLocalConf ?_)), C33_sorting_sorts _, C33_sorting_sorts _⟩
  same

theorem same_ztBlocks (h : SameD ztSpec d e) : RelE Eq (ztBlocks d) (ztBlocks e) := by
  unfold ztBlocks
  refine relE_bind (same_ztBlock h) fun a b hab => ?_
  obtain ⟨hab, ha, hb⟩ := hab
  unfold popKey
  have hs := hab.special "networks" (by decide)
  generalize Dict.get? a "networks" = x at hs ⊢
  generalize Dict.get? b "networks" = y at hs ⊢
  cases hs with
  | none => exact .error _
  | some q =>
    have he : Dict.erase a "networks" = Dict.erase b "networks" :=
      eq_of_sorted (sameD_erased hab) (ha.sublist List.filter_sublist) (hb.sublist List.filter_sublist)
    cases q with
    | same _ h1 h2 =>
      rename_i v
      cases v <;> first | exact .error _ | exact absurd rfl (h2 _)
    | dict _ => exact .error _
    | list hl =>
      show RelE Eq (List.mapM ztNetwork _ >>= fun l => pure (Val.dict (Dict.erase a "networks") :: l))
        (List.mapM ztNetwork _ >>= fun l => pure (Val.dict (Dict.erase b "networks") :: l))
      refine relE_bind (relE_mapM hl fun _ _ => same_ztNetwork) fun l m hm => ?_
      rw [forall₂_eq hm]
      exact .ok (by rw [he])

end NJ
