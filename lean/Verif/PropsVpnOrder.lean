import Verif.PropsOrder
import Verif.PropsValidVpn
import Verif.PropsOpenVpn
import Verif.PropsZtBackend

/-!
# C89: the order of the keys of a VPN configuration means nothing

C83 for the backends of VPNs: OpenVPN, WireGuard, VXLAN over WireGuard and ZeroTier.
-/

namespace NJ

set_option linter.unusedVariables false

/-! ## Specification -/

/-- OpenVPN: dictionaries only among the servers and the data ciphers -/
def TidyOpenvpn (c : VDict) : Prop := At c "openvpn" (Blocks (Nested ["remote", "data_ciphers"])) ∧ At c "files" (Blocks Simple)
/-- WireGuard and VXLAN: only among the peers -/
def TidyWireguard (c : VDict) : Prop := At c "wireguard" (Blocks (Nested ["peers"])) ∧ At c "files" (Blocks Simple)
/-- ZeroTier: anywhere but in the identifier of the network -/
def TidyZerotier (c : VDict) : Prop := At c "zerotier" (Blocks fun d => At d "nwid" NoDict) ∧ At c "files" (Blocks Simple)

/-- validated, rendered and archived alike -/
def SameBackend (cls : Class) (c c' : VDict) : Prop :=
  validate cls c = validate cls c' ∧ (∀ files, SameOutcome (render cls files ⟨c, none⟩).2 (render cls files ⟨c', none⟩).2) ∧
    SameOutcome (generate cls ⟨c, none⟩).2 (generate cls ⟨c', none⟩).2

/-! ## A backend with one converter -/

/-- the same files, with their keys in any order -/
abbrev FilesSame (c c' : VDict) : Prop := List.Forall₂ (Blk flat) (filesOf c) (filesOf c')

/-- data with the same text -/
def NatSame (cls : Class) (v w : VDict) : Prop :=
  v.isEmpty = w.isEmpty ∧ RelE (fun m n => cls.native m = cls.native n) (mergeConfig cls.sh [".name"] [] v) (mergeConfig cls.sh [".name"] [] w)

theorem natSame_refl (cls : Class) (v : VDict) : NatSame cls v v := by
  refine ⟨rfl, ?_⟩
  cases mergeConfig cls.sh [".name"] [] v with
  | ok m => exact .ok rfl
  | error e => exact .error e

inductive OneRun (cls : Class) : VDict × Except PyErr VDict → VDict × Except PyErr VDict → Prop
  | ok {c c' v w : VDict} : FilesSame c c' → NatSame cls v w → OneRun cls (c, .ok v) (c', .ok w)
  | error (c c' : VDict) (e e' : PyErr) : OneRun cls (c, .error e) (c', .error e')

inductive SameOf {α : Type} : BState × Except PyErr α → BState × Except PyErr α → Prop
  | ok {s s' : BState} (r : α) : FilesSame s.config s'.config → SameOf (s, .ok r) (s', .ok r)
  | error (s s' : BState) (e e' : PyErr) : SameOf (s, .error e) (s', .error e')

theorem SameOf.outcome {α : Type} {x y : BState × Except PyErr α} (h : SameOf x y) : SameOutcome x.2 y.2 := by
  cases h with
  | ok r _ => exact .inl ⟨r, rfl, rfl⟩
  | error _ _ e e' => exact .inr ⟨e, e', rfl, rfl⟩

theorem filesSame_of {c c' : VDict} (hsame : SameJson (.dict c) (.dict c')) (hc : (Val.dict c).WF) (hc' : (Val.dict c').WF) (h : At c "files" (Blocks Simple)) :
    FilesSame c c' := by
  cases hsame with
  | dict _ _ hk hr =>
    unfold FilesSame filesOf
    cases hv : Dict.get? c "files" with
    | none => rw [(hk _).1 hv]; exact .nil
    | some v =>
      cases hw : Dict.get? c' "files" with
      | none => rw [(hk _).2 hw] at hv; cases hv
      | some w =>
        have hs := sec_of (X := flat) (hr _ v w hv hw) (hc.of_get? hv) (hc'.of_get? hw) (at_get h hv) fun _ _ => simple_same
        cases hs with
        | same v h1 h2 => cases v <;> first | exact .nil | exact absurd rfl (h2 _)
        | dict => exact .nil
        | list hl => exact hl

theorem filesSame_dedup {c c' : VDict} (h : FilesSame c c') : RelE FilesSame (deduplicateFiles c) (deduplicateFiles c') := by
  unfold deduplicateFiles
  have h0 := h
  unfold FilesSame at h
  generalize filesOf c = l at h
  generalize filesOf c' = m at h
  cases h with
  | nil => exact .ok h0
  | cons h1 h2 =>
    refine relE_bind (same_dedupLoop (.cons h1 h2) .nil) fun a b hab => .ok ?_
    unfold FilesSame
    rw [filesOf_set, filesOf_set]
    clear h0
    induction hab with
    | nil => exact .nil
    | cons q _ ih => exact .cons q.2 ih

section
variable {cls : Class} {c c' : VDict}

theorem one_validate (hpre : cls.pre c = cls.pre c') (hpost : cls.post c = cls.post c') (hs : cls.schema c = cls.schema c') (hf : FilesSame c c') :
    validate cls c = validate cls c' := by
  refine relE_eq ?_
  unfold validate
  refine relE_bind (relE_of_eq hpre) fun _ _ _ => relE_bind (relE_of_eq hs) fun _ _ _ => relE_bind (R := Eq) ?_ fun _ _ _ => relE_of_eq hpost
  unfold validateFilePaths
  exact relE_forM hf fun v w q => by rw [same_filePath q]; exact relE_refl _

theorem one_loop {conv : Conv} (hsh : conv.should c = conv.should c') (hf : FilesSame c c') (hr : OneRun cls (conv.run c []) (conv.run c' [])) :
    (∃ i j, (convLoop cls [conv] c []).1.inter = some i ∧ (convLoop cls [conv] c' []).1.inter = some j ∧ cls.native i = cls.native j ∧
      FilesSame (convLoop cls [conv] c []).1.config (convLoop cls [conv] c' []).1.config ∧ (convLoop cls [conv] c []).2 = .ok () ∧ (convLoop cls [conv] c' []).2 = .ok ()) ∨
    ∃ e e', (convLoop cls [conv] c []).2 = .error e ∧ (convLoop cls [conv] c' []).2 = .error e' := by
  have e : ∀ x, convLoop cls [conv] x [] = if conv.should x = false then (⟨x, some []⟩, .ok ()) else
      match conv.run x [] with
      | (x', .error e) => (⟨x', some []⟩, .error e)
      | (x', .ok value) => if value.isEmpty then (⟨x', some []⟩, .ok ()) else match mergeConfig cls.sh [".name"] [] value with
        | .error e => (⟨x', some []⟩, .error e)
        | .ok i => (⟨x', some i⟩, .ok ()) := fun _ => rfl
  rw [e, e, hsh]
  clear e
  split
  · exact .inl ⟨[], [], rfl, rfl, rfl, hf, rfl, rfl⟩
  · generalize conv.run c [] = x at hr ⊢
    generalize conv.run c' [] = y at hr ⊢
    cases hr with
    | error _ _ e e' => exact .inr ⟨e, e', rfl, rfl⟩
    | ok hf hn =>
      rename_i c1 c1' v w
      obtain ⟨h1, h2⟩ := hn
      dsimp only
      rw [h1]
      split
      · exact .inl ⟨[], [], rfl, rfl, rfl, hf, rfl, rfl⟩
      · generalize mergeConfig cls.sh [".name"] [] v = a at h2 ⊢
        generalize mergeConfig cls.sh [".name"] [] w = b at h2 ⊢
        cases h2 with
        | error e => exact .inr ⟨e, e, rfl, rfl⟩
        | ok h2 => exact .inl ⟨_, _, rfl, rfl, h2, hf, rfl, rfl⟩

theorem one_tail {files : Bool} {s s' : BState} (hf : FilesSame s.config s'.config) (hn : cls.native (s.inter.getD []) = cls.native (s'.inter.getD [])) :
    SameOf (renderTail cls files s) (renderTail cls files s') := by
  unfold renderTail
  have hd := filesSame_dedup hf
  generalize deduplicateFiles s.config = a at hd ⊢
  generalize deduplicateFiles s'.config = b at hd ⊢
  cases hd with
  | error e => exact .error _ _ _ _
  | ok h =>
    rename_i x y
    dsimp only
    have e : filesSection x = filesSection y := by
      unfold filesSection renderFiles
      rw [same_items h]
    rw [e, hn]
    generalize (do
      let out ← cls.native (s'.inter.getD [])
      if files = true then do
          let s ← filesSection _
          pure (out ++ s)
        else pure out : Except PyErr Chars) = z
    cases z with
    | error e => exact .error _ _ _ _
    | ok t => exact .ok _ h

theorem one_render {conv : Conv} (hcs : cls.convs = [conv]) (hv : validate cls c = validate cls c') (hsh : conv.should c = conv.should c') (hf : FilesSame c c')
    (hr : OneRun cls (conv.run c []) (conv.run c' [])) (files : Bool) : SameOf (render cls files ⟨c, none⟩) (render cls files ⟨c', none⟩) := by
  unfold render ensureIntermediate toIntermediate
  dsimp only
  rw [hv, hcs]
  split
  · exact .error _ _ _ _
  · dsimp only
    have hl := one_loop hsh hf hr
    change SameOf (match convLoop cls [conv] c [] with
      | (st', .error e) => (st', .error e)
      | (st', .ok ()) => renderTail cls files st')
      (match convLoop cls [conv] c' [] with
      | (st', .error e) => (st', .error e)
      | (st', .ok ()) => renderTail cls files st')
    generalize convLoop cls [conv] c [] = x at hl ⊢
    generalize convLoop cls [conv] c' [] = y at hl ⊢
    obtain ⟨s, r⟩ := x
    obtain ⟨s', r'⟩ := y
    rcases hl with ⟨i, j, h1, h2, h3, h4, h5, h6⟩ | ⟨e, e', h1, h2⟩
    · dsimp only at h1 h2 h4 h5 h6
      subst h5 h6
      exact one_tail h4 (by rw [h1, h2]; exact h3)
    · dsimp only at h1 h2
      subst h1 h2
      exact .error _ _ _ _

theorem one_generate {conv : Conv} (hcs : cls.convs = [conv]) (hv : validate cls c = validate cls c') (hsh : conv.should c = conv.should c') (hf : FilesSame c c')
    (hr : OneRun cls (conv.run c []) (conv.run c' [])) : SameOf (generate cls ⟨c, none⟩) (generate cls ⟨c', none⟩) := by
  unfold generate
  have hr := one_render hcs hv hsh hf hr false
  generalize render cls false ⟨c, none⟩ = x at hr ⊢
  generalize render cls false ⟨c', none⟩ = y at hr ⊢
  cases hr with
  | error => exact .error _ _ _ _
  | ok t h =>
    rename_i s s'
    dsimp only
    have e : processFiles s.config = processFiles s'.config := by
      unfold processFiles
      rw [same_items h]
    rw [e]
    generalize (do
      let a ← cls.split t
      let b ← processFiles _
      pure (a ++ b) : Except PyErr (List Member)) = z
    cases z with
    | error e => exact .error _ _ _ _
    | ok t => exact .ok _ h

theorem one_same {conv : Conv} (hcs : cls.convs = [conv]) (hpre : cls.pre c = cls.pre c') (hpost : cls.post c = cls.post c') (hs : cls.schema c = cls.schema c')
    (hsh : conv.should c = conv.should c') (hf : FilesSame c c') (hr : OneRun cls (conv.run c []) (conv.run c' [])) : SameBackend cls c c' :=
  have hv := one_validate hpre hpost hs hf
  ⟨hv, fun files => (one_render hcs hv hsh hf hr files).outcome, (one_generate hcs hv hsh hf hr).outcome⟩

end

theorem schema_same {ip6 : Ip6} {root : VDict} {c c' : VDict} (h : SameJson (.dict c) (.dict c')) (hc : (Val.dict c).WF) (hc' : (Val.dict c').WF) :
    schemaValidate root ip6 c = schemaValidate root ip6 c' := by
  unfold schemaValidate
  rw [valid_same _ _ _ _ h hc hc']

theorem has_same {c c' : VDict} (h : SameJson (.dict c) (.dict c')) (k : String) : Dict.has c k = Dict.has c' k := by
  cases h with
  | dict _ _ hk hr => exact sameJson_has hk k

theorem section_same {X : Spec} {P : VDict → Prop} {c c' : VDict} {k : String} (h : SameJson (.dict c) (.dict c')) (hc : (Val.dict c).WF) (hc' : (Val.dict c').WF)
    (ht : At c k (Blocks P)) (hp : ∀ d e, P d → SameJson (.dict d) (.dict e) → (Val.dict d).WF → (Val.dict e).WF → SameD X d e) :
    Sec X ((Dict.get? c k).getD .none) ((Dict.get? c' k).getD .none) := by
  cases h with
  | dict _ _ hk hr =>
    cases hv : Dict.get? c k with
    | none => rw [(hk _).1 hv]; exact sec_none
    | some v =>
      cases hw : Dict.get? c' k with
      | none => rw [(hk _).2 hw] at hv; cases hv
      | some w => exact sec_of (hr _ v w hv hw) (hc.of_get? hv) (hc'.of_get? hw) (at_get ht hv) hp

/-! ## OpenVPN -/

theorem filesOf_add (c : VDict) (f : Option VDict) : filesOf (addVpnFile c f) = filesOf c ++ f.toList.map Val.dict := (addVpnFile_get c f).1

theorem tlsBlock_nodup {env : Env} {remove : Val → Bool} {d b : VDict} {f : Option VDict} (h : vpnBlock env remove d = .ok (b, f)) : ∀ x, f = some x → (Dict.keys x).Nodup := by
  unfold vpnBlock at h
  obtain ⟨_, _, h⟩ := bind_ok_iff.1 h
  obtain ⟨_, _, h⟩ := bind_ok_iff.1 h
  obtain ⟨⟨r, f'⟩, h3, h⟩ := bind_ok_iff.1 h
  cases Except.ok.inj h
  exact tlsFile_nodup h3

theorem openvpn_blocks {env : Env} {l m : List Val} (hl : List.Forall₂ (Blk vpnSpec) l m) : ∀ {c c' : VDict}, FilesSame c c' →
    (∃ bs, (vpnBlocks (vpnBlock env removedVpn) c l).2 = .ok bs ∧ (vpnBlocks (vpnBlock env removedVpn) c' m).2 = .ok bs ∧
      FilesSame (vpnBlocks (vpnBlock env removedVpn) c l).1 (vpnBlocks (vpnBlock env removedVpn) c' m).1) ∨
    ∃ e e', (vpnBlocks (vpnBlock env removedVpn) c l).2 = .error e ∧ (vpnBlocks (vpnBlock env removedVpn) c' m).2 = .error e' := by
  induction hl with
  | nil => exact fun h => .inl ⟨[], rfl, rfl, h⟩
  | cons hv _ ih =>
    intro c c' h
    rename_i v w l m _
    rw [vpnBlocks, vpnBlocks]
    have hx : RelE Eq (asDict v >>= vpnBlock env removedVpn) (asDict w >>= vpnBlock env removedVpn) :=
      relE_bind hv.asDict fun _ _ => same_vpnBlock ⟨fun _ => rfl, fun _ => rfl⟩
    rw [relE_eq hx]
    cases hb : asDict w >>= vpnBlock env removedVpn with
    | error e => exact .inr ⟨e, e, rfl, rfl⟩
    | ok p =>
      obtain ⟨b, f⟩ := p
      obtain ⟨d, hd, hb⟩ := bind_ok_iff.1 hb
      have hf : FilesSame (addVpnFile c f) (addVpnFile c' f) := by
        unfold FilesSame
        rw [filesOf_add, filesOf_add]
        refine List.rel_append h ?_
        cases f with
        | none => exact .nil
        | some x => exact .cons (.dict (sameD_refl (tlsBlock_nodup hb x rfl))) .nil
      dsimp only
      rcases ih hf with ⟨bs, h1, h2, h3⟩ | ⟨e, e', h1, h2⟩
      · rw [h1, h2]
        exact .inl ⟨_, rfl, rfl, h3⟩
      · rw [h1, h2]
        exact .inr ⟨e, e', rfl, rfl⟩

/-- **C89.** OpenVPN configurations that are the same data with keys in another order are accepted or refused together, rendered to the same text and
give the same members of the archive. -/
theorem C89_openvpn {env : Env} {sh : Val → Bool} {loads : Chars → Option Val} {c c' : VDict} (hsame : SameJson (.dict c) (.dict c'))
    (hc : (Val.dict c).WF) (hc' : (Val.dict c').WF) (ht : TidyOpenvpn c) : SameBackend (openvpnReal env sh loads) c c' := by
  have hf := filesSame_of hsame hc hc' ht.2
  refine one_same (conv := openvpnConv env) rfl rfl rfl (schema_same hsame hc hc') (has_same hsame _) hf ?_
  show OneRun _ (vpnRun (vpnBlock env removedVpn) c []) (vpnRun (vpnBlock env removedVpn) c' [])
  unfold vpnRun
  have hs := section_same (X := vpnSpec) hsame hc hc' ht.1 fun _ _ => nested_same
  generalize (Dict.get? c "openvpn").getD .none = v at hs ⊢
  generalize (Dict.get? c' "openvpn").getD .none = w at hs ⊢
  cases hs with
  | same _ h1 h2 => cases v <;> first | exact .error _ _ _ _ | exact absurd rfl (h2 _)
  | dict _ => exact .error _ _ _ _
  | list hl =>
    dsimp only
    rcases openvpn_blocks (env := env) hl hf with ⟨bs, h1, h2, h3⟩ | ⟨e, e', h1, h2⟩
    · rw [h1, h2]
      exact .ok h3 (natSame_refl _ _)
    · rw [h1, h2]
      exact .error _ _ _ _

/-! ## WireGuard -/

def wgSpec : Spec := ⟨["peers"], fun _ => Sec flat⟩

variable {env : Env} {d e : VDict}

theorem same_renamePop {p : String × String} (h : SameD wgSpec d e) (h1 : p.1 ≠ "peers") (h2 : p.2 ≠ "peers") : RelE (SameD wgSpec) (renamePop d p) (renamePop e p) := by
  unfold renamePop
  refine relE_bind (relE_popKey h (by simpa [wgSpec] using h1)) ?_
  rintro ⟨v, a⟩ ⟨w, b⟩ ⟨rfl, h⟩
  exact .ok (sameD_set h (by simpa [wgSpec] using h2) rfl)

theorem same_wgOption {p : String × String} (h : SameD wgSpec d e) (h1 : p.1 ≠ "peers") (h2 : p.2 ≠ "peers") : RelE (SameD wgSpec) (wgOption d p) (wgOption e p) := by
  unfold wgOption
  rw [h.get (by simpa [wgSpec] using h1)]
  cases Dict.get? e p.1 with
  | none => exact .ok h
  | some v =>
    dsimp only
    split
    · refine relE_bind (relE_refl _) ?_
      rintro a b rfl
      exact .ok (sameD_set (sameD_erase h) (by simpa [wgSpec] using h2) rfl)
    · exact .ok (sameD_erase h)

theorem same_wgPeer {v w : Val} (h : Blk flat v w) : RelE Eq (wgPeer env v) (wgPeer env w) := by
  unfold wgPeer popOr wgEndpoint
  refine relE_bind h.asDict fun d e h => ?_
  refine relE_bind (relE_popKey h (fun q => nomatch q)) ?_
  rintro ⟨v, a⟩ ⟨w, b⟩ ⟨hv, h⟩
  dsimp only at hv h ⊢
  subst hv
  refine relE_bind (relE_popKey (sameD_set h (fun q => nomatch q) rfl) (fun q => nomatch q)) ?_
  rintro ⟨v, a⟩ ⟨w, b⟩ ⟨hv, h⟩
  dsimp only at hv h ⊢
  subst hv
  have h := sameD_set (k := "PublicKey") (v := v) h (fun q => nomatch q) rfl
  rw [h.get_flat "preshared_key"]
  have h := sameD_set (k := "PreSharedKey") (v := (Dict.get? (Dict.set b "PublicKey" v) "preshared_key").getD .none) (sameD_erase (k := "preshared_key") h) (fun q => nomatch q) rfl
  rw [h.get_flat "endpoint_host"]
  have h := sameD_erase (k := "endpoint_host") h
  rw [h.get_flat "endpoint_port"]
  have h := sameD_erase (k := "endpoint_port") h
  refine .ok ?_
  split
  · rw [sorted_eq (sameD_set h (fun q => nomatch q) rfl)]
  · rw [sorted_eq h]

theorem relE_foldlM_list {α γ δ : Type} {S : γ → δ → Prop} {f : γ → α → Except PyErr γ} {g : δ → α → Except PyErr δ} :
    ∀ {l : List α}, (∀ x ∈ l, ∀ a b, S a b → RelE S (f a x) (g b x)) → ∀ {a : γ} {b : δ}, S a b → RelE S (l.foldlM f a) (l.foldlM g b)
  | [], _, _, _, h => .ok h
  | x :: l, hf, _, _, h => by
    rw [List.foldlM_cons, List.foldlM_cons]
    exact relE_bind (hf x List.mem_cons_self _ _ h) fun _ _ h => relE_foldlM_list (fun y hy => hf y (List.mem_cons_of_mem _ hy)) h

theorem same_wgBlock (h : SameD wgSpec d e) : RelE Eq (wgBlock env d) (wgBlock env e) := by
  unfold wgBlock
  have n1 : ∀ p ∈ wgRequired, p.1 ≠ "peers" ∧ p.2 ≠ "peers" := by decide
  have n2 : ∀ p ∈ wgOptional, p.1 ≠ "peers" ∧ p.2 ≠ "peers" := by decide
  refine relE_bind (relE_foldlM_list (S := SameD wgSpec) (f := renamePop) (g := renamePop) (fun p hp a b h => same_renamePop h (n1 p hp).1 (n1 p hp).2) h) fun a b h => ?_
  refine relE_bind (relE_foldlM_list (S := SameD wgSpec) (f := wgOption) (g := wgOption) (fun p hp a b h => same_wgOption h (n2 p hp).1 (n2 p hp).2) h) fun a b h => ?_
  have hp : RelE (List.Forall₂ (Blk flat)) (wgPeerList a) (wgPeerList b) := by
    unfold wgPeerList
    have hs := h.special "peers" (by decide)
    generalize Dict.get? a "peers" = x at hs ⊢
    generalize Dict.get? b "peers" = y at hs ⊢
    cases hs with
    | none => exact .ok .nil
    | some q =>
      cases q with
      | same v h1 h2 => rename_i v; cases v <;> first | exact .error _ | exact absurd rfl (h2 _)
      | dict _ => exact .error _
      | list hl => exact .ok hl
  refine relE_bind hp fun l m hl => relE_bind (relE_mapM hl fun _ _ => same_wgPeer) fun l m hm => ?_
  rw [forall₂_eq hm]
  exact .ok (sorted_eq (sameD_settle h (by decide) (fun q hq hne => absurd (List.mem_singleton.1 hq) hne) fun _ q => nomatch q))

theorem same_wgFwd {i : Option Nat} {v w : Val} {r : VDict} (h : Blk wgSpec v w) : RelE Eq (wgFwd env i v r) (wgFwd env i w r) := by
  unfold wgFwd
  refine relE_bind h.asDict fun d e h => relE_bind (same_wgBlock h) ?_
  rintro a b rfl
  exact relE_refl _

theorem wireguard_same {env : Env} {root : VDict} {sh : Val → Bool} {loads : Chars → Option Val} {c c' : VDict} (hsame : SameJson (.dict c) (.dict c'))
    (hc : (Val.dict c).WF) (hc' : (Val.dict c').WF) (ht : TidyWireguard c) : SameBackend (wireguardClass env (schemaValidate root env.ip6) sh loads) c c' := by
  have hf := filesSame_of hsame hc hc' ht.2
  refine one_same (conv := wgConv env) rfl rfl rfl (schema_same hsame hc hc') (has_same hsame _) hf ?_
  show OneRun _ (c, fwd "wireguard" (wgFwd env) c) (c', fwd "wireguard" (wgFwd env) c')
  have hs := section_same (X := wgSpec) hsame hc hc' ht.1 fun _ _ => nested_same
  have hr := same_fwd (loop := wgFwd env) (fun _ _ _ _ => same_wgFwd) hs.each
  generalize fwd "wireguard" (wgFwd env) c = x at hr ⊢
  generalize fwd "wireguard" (wgFwd env) c' = y at hr ⊢
  cases hr with
  | error => exact .error _ _ _ _
  | ok h => subst h; exact .ok hf (natSame_refl _ _)

/-- **C89.** The same for WireGuard, and VXLAN over WireGuard … -/
theorem C89_wireguard {env : Env} {sh : Val → Bool} {loads : Chars → Option Val} {c c' : VDict} (hsame : SameJson (.dict c) (.dict c'))
    (hc : (Val.dict c).WF) (hc' : (Val.dict c').WF) (ht : TidyWireguard c) : SameBackend (wireguardReal env sh loads) c c' ∧ SameBackend (vxlanReal env sh loads) c c' :=
  ⟨wireguard_same hsame hc hc' ht, wireguard_same hsame hc hc' ht⟩

/-! ## ZeroTier -/

/-- the texts of JSON data that are the same but for the order of keys are equal: `tojson` sorts them at every depth -/
theorem sortDeep_eq {v w : Val} (h : SameJson v w) : v.WF → w.WF → sortDeep v = sortDeep w := by
  induction h with
  | none => exact fun _ _ => rfl
  | bool _ => exact fun _ _ => rfl
  | int _ => exact fun _ _ => rfl
  | str _ => exact fun _ _ => rfl
  | list a b hl hr ih =>
    intro ha hb
    rw [sortDeep, sortDeep, sortDeepL_map, sortDeepL_map]
    refine congrArg Val.list (List.ext_getElem? fun i => ?_)
    rw [List.getElem?_map, List.getElem?_map]
    cases hx : a[i]? with
    | none => rw [List.getElem?_eq_none (by rw [← hl]; exact List.getElem?_eq_none_iff.1 hx)]
    | some x =>
      cases hy : b[i]? with
      | none =>
        rw [List.getElem?_eq_none (by rw [hl]; exact List.getElem?_eq_none_iff.1 hy)] at hx
        cases hx
      | some y => exact congrArg some (ih i x y hx hy (ha.mem x (List.mem_of_getElem? hx)) (hb.mem y (List.mem_of_getElem? hy)))
  | dict a b hk hr ih =>
    intro ha hb
    rw [sortDeep, sortDeep, sortDeepD_map, sortDeepD_map]
    refine congrArg Val.dict (sorted_eq (sameD_flat (by rw [keys_mapVals]; exact ha.nodup) (by rw [keys_mapVals]; exact hb.nodup) fun k => ?_))
    rw [get?_mapVals, get?_mapVals]
    cases hx : Dict.get? a k with
    | none => rw [(hk _).1 hx]
    | some x =>
      cases hy : Dict.get? b k with
      | none => rw [(hk _).2 hy] at hx; cases hx
      | some y => exact congrArg some (ih k x y hx hy (ha.of_get? hx) (hb.of_get? hy))

/-- blocks of controllers whose files are equal -/
inductive ZBlk (reprC : Val → String) : Val → Val → Prop
  | same (v : Val) : (∀ d, v ≠ .dict d) → ZBlk reprC v v
  | dict {d e : VDict} : rawZtn reprC (ztnBlock d) = rawZtn reprC (ztnBlock e) → ZBlk reprC (.dict d) (.dict e)

theorem zblk_of {reprC : Val → String} {d e : VDict} (hp : At d "nwid" NoDict) (h : SameJson (.dict d) (.dict e)) (hd : (Val.dict d).WF) (he : (Val.dict e).WF) :
    rawZtn reprC (ztnBlock d) = rawZtn reprC (ztnBlock e) := by
  cases h with
  | dict _ _ hk hr =>
    have q1 : ∀ k, Dict.get? (ztnBlock d) k = if k = "client_options" then none else Dict.get? d k := get?_ztnBlock hd
    have q2 : ∀ k, Dict.get? (ztnBlock e) k = if k = "client_options" then none else Dict.get? e k := get?_ztnBlock he
    have hs : SameJson (.dict (ztnBlock d)) (.dict (ztnBlock e)) := by
      refine .dict _ _ (fun k => ?_) (fun k x y hx hy => ?_)
      · rw [q1, q2]; split
        · exact Iff.rfl
        · exact hk k
      · rw [q1] at hx
        rw [q2] at hy
        split at hx
        · cases hx
        · rename_i q
          rw [if_neg q] at hy
          exact hr k x y hx hy
    have w1 : (Val.dict (ztnBlock d)).WF := ztnBlock_wf hd
    have w2 : (Val.dict (ztnBlock e)).WF := ztnBlock_wf he
    have hn : fieldText reprC (ztnBlock d) "nwid" = fieldText reprC (ztnBlock e) "nwid" := by
      unfold fieldText
      rw [q1, q2, if_neg (by decide), if_neg (by decide)]
      cases hx : Dict.get? d "nwid" with
      | none => rw [(hk _).1 hx]
      | some x =>
        cases hy : Dict.get? e "nwid" with
        | none => rw [(hk _).2 hy] at hx; cases hx
        | some y => rw [noDict_eq (hr _ x y hx hy) (at_get hp hx)]
    unfold rawZtn tojson4
    rw [hn, sortDeep_eq hs w1 w2]

theorem zsec_of {reprC : Val → String} {v w : Val} (h : SameJson v w) (hv : v.WF) (hw : w.WF) (hb : Blocks (fun d => At d "nwid" NoDict) v) :
    EachV (ZBlk reprC) v w := by
  have h' := h
  cases h with
  | none => exact .one (fun _ q => nomatch q) (fun _ q => nomatch q) (.same _ (fun _ q => nomatch q))
  | bool _ => exact .one (fun _ q => nomatch q) (fun _ q => nomatch q) (.same _ (fun _ q => nomatch q))
  | int _ => exact .one (fun _ q => nomatch q) (fun _ q => nomatch q) (.same _ (fun _ q => nomatch q))
  | str _ => exact .one (fun _ q => nomatch q) (fun _ q => nomatch q) (.same _ (fun _ q => nomatch q))
  | dict d e => exact .one (fun _ q => nomatch q) (fun _ q => nomatch q) (.dict (zblk_of hb h' hv hw))
  | list a b hl hr =>
    refine .list (forall₂_of hl fun i x y hx hy => ?_)
    have h1 := hb x (List.mem_of_getElem? hx)
    have h2 := hr i x y hx hy
    have wx := hv.mem x (List.mem_of_getElem? hx)
    have wy := hw.mem y (List.mem_of_getElem? hy)
    cases x with
    | dict d =>
      cases y with
      | dict e => exact .dict (zblk_of h1 h2 wx wy)
      | _ => cases h2
    | _ => rw [← noDict_eq h2 h1]; exact .same _ fun _ q => nomatch q

/-- two lists of controllers with the same files -/
abbrev ZList (reprC : Val → String) : List Val → List Val → Prop := List.Forall₂ fun v w => ∃ a b, v = .dict a ∧ w = .dict b ∧ rawZtn reprC a = rawZtn reprC b

inductive ZRes (reprC : Val → String) : VDict → VDict → Prop
  | nil : ZRes reprC [] []
  | list {l m : List Val} : ZList reprC l m → ZRes reprC [("zerotier", .list l)] [("zerotier", .list m)]

theorem zfwd {reprC : Val → String} {i : Option Nat} {v w : Val} {r s : VDict} (h : ZBlk reprC v w) (hr : ZRes reprC r s) :
    RelE (ZRes reprC) (ztnFwd i v r) (ztnFwd i w s) := by
  unfold ztnFwd
  cases h with
  | same _ h => cases v <;> first | exact .error _ | exact absurd rfl (h _)
  | dict h =>
    rename_i d e
    refine .ok ?_
    have hc : ZList reprC [.dict (ztnBlock d)] [.dict (ztnBlock e)] := .cons ⟨_, _, rfl, rfl, h⟩ .nil
    cases hr with
    | nil => exact .list hc
    | list hl => exact .list (List.rel_append hl hc)

theorem zfwdList {reprC : Val → String} {l m : List Val} (h : List.Forall₂ (ZBlk reprC) l m) : ∀ {i : Nat} {r s : VDict}, ZRes reprC r s →
    RelE (ZRes reprC) (fwdList ztnFwd i r l) (fwdList ztnFwd i s m) := by
  induction h with
  | nil => exact fun h => .ok h
  | cons hv _ ih =>
    intro i r s hr
    rw [fwdList, fwdList]
    exact relE_bind (zfwd hv hr) fun _ _ h => ih h

theorem zlist_blocks {reprC : Val → String} {l m : List Val} (h : ZList reprC l m) :
    RelE (fun a b => a.flatMap (rawZtn reprC) = b.flatMap (rawZtn reprC)) (blocksOf (.list l)) (blocksOf (.list m)) := by
  simp only [blocksOf]
  induction h with
  | nil => exact .ok rfl
  | cons h _ ih =>
    obtain ⟨a, b, rfl, rfl, h⟩ := h
    rw [List.mapM_cons, List.mapM_cons]
    refine relE_bind (R := fun x y => rawZtn reprC x = rawZtn reprC y) (.ok h) fun p q hpq => relE_bind ih fun x y hxy => .ok ?_
    rw [List.flatMap_cons, List.flatMap_cons, hpq, hxy]

/-- **C89.** … and for ZeroTier, whose controllers may nest dictionaries at any depth. -/
theorem C89_zerotier {env : Env} {sh : Val → Bool} {c c' : VDict} (hsame : SameJson (.dict c) (.dict c'))
    (hc : (Val.dict c).WF) (hc' : (Val.dict c').WF) (ht : TidyZerotier c) : SameBackend (zerotierReal env sh) c c' := by
  have hf := filesSame_of hsame hc hc' ht.2
  refine one_same (conv := ztnConv) rfl rfl rfl (schema_same hsame hc hc') (has_same hsame _) hf ?_
  show OneRun _ (c, fwd "zerotier" ztnFwd c) (c', fwd "zerotier" ztnFwd c')
  have hs : EachV (ZBlk env.reprC) ((Dict.get? c "zerotier").getD .none) ((Dict.get? c' "zerotier").getD .none) := by
    cases hsame with
    | dict _ _ hk hr =>
      cases hv : Dict.get? c "zerotier" with
      | none => rw [(hk _).1 hv]; exact .one (fun _ q => nomatch q) (fun _ q => nomatch q) (.same _ (fun _ q => nomatch q))
      | some v =>
        cases hw : Dict.get? c' "zerotier" with
        | none => rw [(hk _).2 hw] at hv; cases hv
        | some w => exact zsec_of (hr _ v w hv hw) (hc.of_get? hv) (hc'.of_get? hw) (at_get ht.1 hv)
  have hr : RelE (ZRes env.reprC) (fwd "zerotier" ztnFwd c) (fwd "zerotier" ztnFwd c') := by
    unfold fwd
    generalize (Dict.get? c "zerotier").getD .none = v at hs ⊢
    generalize (Dict.get? c' "zerotier").getD .none = w at hs ⊢
    cases hs with
    | list h => exact zfwdList h .nil
    | one h1 h2 h =>
      cases h with
      | same v q => cases v <;> first | exact .error _ | exact absurd rfl (q _) | exact absurd rfl (h1 _)
      | dict h => exact zfwd (.dict h) .nil
  generalize fwd "zerotier" ztnFwd c = x at hr ⊢
  generalize fwd "zerotier" ztnFwd c' = y at hr ⊢
  cases hr with
  | error => exact .error _ _ _ _
  | ok h =>
    refine .ok hf ?_
    cases h with
    | nil => exact natSame_refl _ _
    | list hl =>
      refine ⟨rfl, ?_⟩
      rw [merge_one, merge_one]
      refine .ok ?_
      rename_i l m
      change ztnNative env.reprC [("zerotier", .list l)] = ztnNative env.reprC [("zerotier", .list m)]
      refine relE_eq ?_
      refine relE_bind (zlist_blocks hl) fun x y hxy => ?_
      unfold renderZtn
      rw [hxy]
      exact relE_refl _

end NJ
