import Verif.SameVpn

/-!
# Interfaces do not depend on the order of the options
-/

namespace NJ

set_option linter.unusedVariables false
variable {env : Env} {X : Spec} {d e : VDict}

def wifiSpec : Spec := ⟨["encryption"], fun _ => Sec flat⟩
def vlanSpec : Spec := ⟨["ports"], fun _ => Sec flat⟩
/-- the keys of an interface that hold dictionaries -/
def ifaceSpec : Spec := ⟨["addresses", "wireless", "vlan_filtering"], fun k => if k = "addresses" then Sec flat else if k = "wireless" then Sec wifiSpec else Sec vlanSpec⟩
/-- what is left of them in the section of the interface -/
def sectionSpec : Spec := ⟨["vlan_filtering"], fun _ => Sec vlanSpec⟩

/-! ## Wi-Fi -/

@[same_rule] theorem same_wifiOption {k u : String} (hu : u ∉ X.keys) (hk : k ∉ X.keys) (h : SameD X d e) : RelE (SameD X) (wifiOption k u d) (wifiOption k u e) := by
  unfold wifiOption
  rw [h.get hk]
  split
  · exact .ok (sameD_erase h)
  · exact .ok (sameD_ite Iff.rfl (sameD_set (sameD_erase h) hu rfl) (sameD_erase h))
  · exact .ok (sameD_ite Iff.rfl (sameD_set (sameD_erase h) hu rfl) (sameD_erase h))
  · exact .error _

theorem same_copyIf {Y : Spec} {k u : String} {s t : VDict} (hs : SameD Y s t) (hk : k ∉ Y.keys) (hu : u ∉ X.keys) (h : SameD X d e) :
    SameD X (copyIf s k d u) (copyIf t k e u) := by
  unfold copyIf
  rw [hs.get hk]
  split
  · exact sameD_set h hu rfl
  · exact h

theorem same_radiusUci {s t : VDict} (hs : SameD flat s t) (h : SameD flat d e) : RelE (SameD flat) (radiusUci s d) (radiusUci t e) := by
  unfold radiusUci
  dsimp only
  refine relE_bind (relE_getKey hs (by decide)) fun a b hab => ?_
  subst hab
  rw [hs.has]
  have h1 := sameD_set (k := "auth_secret") (v := a) (same_copyIf (k := "port") (u := "auth_port") hs (by decide) (by decide) (same_copyIf (k := "server") (u := "auth_server") hs (by decide) (by decide) h)) (by decide) rfl
  exact .ok (same_copyIf hs (by decide) (by decide) (sameD_ite Iff.rfl h1 (sameD_set h1 (by decide) rfl)))

theorem same_enterpriseUci {m : String} {s t : VDict} (hs : SameD flat s t) (h : SameD flat d e) : RelE (SameD flat) (enterpriseUci m s d) (enterpriseUci m t e) := by
  unfold enterpriseUci
  dsimp only
  rw [h.get_flat "eap_type"]
  have h1 := sameD_ite (c := Dict.get? e "eap_type" = some (.str "tls")) (c' := Dict.get? e "eap_type" = some (.str "tls")) Iff.rfl (sameD_erase (k := "auth") h) h
  exact relE_ite Iff.rfl (fun _ => same_radiusUci hs h1) fun _ => .ok h1

theorem same_encOff (h : SameD flat d e) : RelE Eq (encOff d) (encOff e) := by
  unfold encOff
  same

theorem same_encKeys {m p : String} {s t : VDict} (hs : SameD flat s t) (h : SameD flat d e) : RelE (SameD flat) (encKeys env m p s d) (encKeys env m p t e) := by
  unfold encKeys
  dsimp only
  refine relE_ite Iff.rfl (fun _ => ?_) fun _ => ?_
  · refine relE_bind (relE_getKey hs (by decide)) fun a b hab => ?_
    subst hab
    exact .ok (sameD_set (sameD_set h (by decide) rfl) (by decide) rfl)
  · refine relE_bind (R := SameD flat) (relE_ite Iff.rfl (fun _ => same_enterpriseUci hs h) fun _ => .ok h) fun a b hab => ?_
    exact .ok (same_copyIf hs (by decide) (by decide) hab)

theorem same_encryptionUci {m : String} (h : SameD flat d e) : RelE (SameD flat) (encryptionUci env m d) (encryptionUci env m e) := by
  unfold encryptionUci
  refine relE_bind (same_encOff h) fun a b hab => ?_
  subst hab
  refine relE_ite Iff.rfl (fun _ => .ok (sameD_refl (by decide))) fun _ => ?_
  refine relE_bind (relE_getKey h (by decide)) fun a b hab => ?_
  subst hab
  refine relE_bind (relE_refl _) fun p q hpq => ?_
  subst hpq
  refine relE_bind (same_encKeys h (sameD_eraseList h)) fun a b hab => ?_
  rw [h.get_flat "cipher"]
  exact .ok (sameD_set hab (by decide) rfl)

theorem same_wifiEncryption {m : String} (h : SameD wifiSpec d e) : RelE (SameD flat) (wifiEncryption env m d) (wifiEncryption env m e) := by
  unfold wifiEncryption
  have hs := h.special "encryption" (by decide)
  generalize ha : Dict.get? d "encryption" = x at hs ⊢
  generalize hb : Dict.get? e "encryption" = y at hs ⊢
  cases hs with
  | none => exact .ok (sameD_dropped h ha)
  | some q =>
    exact relE_bind (Sec.asDict q) fun a b hab => relE_bind (same_encryptionUci hab) fun s t hst => .ok (sameD_update_same (sameD_erased h) hst)

theorem same_wifiRoaming (h : SameD flat d e) : SameD flat (wifiRoaming d) (wifiRoaming e) := by
  unfold wifiRoaming
  rw [h.get_flat "ieee80211r"]
  exact sameD_ite Iff.rfl (sameD_eraseList h) h

theorem sameD_nil : SameD flat [] [] := sameD_refl (by decide)

theorem same_addresses (h : SameD ifaceSpec d e) (v : Val) (hv : Sec flat v v) :
    Sec flat ((Dict.get? d "addresses").getD v) ((Dict.get? e "addresses").getD v) := optRel_getD (h.special "addresses" (by decide)) hv

theorem same_autoNetwork {m : Dict String (List String)} {n : String} {s t : VDict} (hs : SameD ifaceSpec s t) (h : SameD flat d e) :
    autoNetwork m n s d = autoNetwork m n t e := by
  unfold autoNetwork
  dsimp only
  rw [h.get_flat "network", (same_addresses hs (.list []) (.list .nil)).truthy]

theorem same_wifiBlock {m : Dict String (List String)} {s t : VDict} (hs : SameD ifaceSpec s t) (h : SameD wifiSpec d e) :
    RelE Eq (wifiBlock env m s d) (wifiBlock env m t e) := by
  unfold wifiBlock
  dsimp only
  refine relE_bind (relE_getKey hs (by decide)) fun a b hab => ?_
  subst hab
  refine relE_bind (relE_refl _) fun n n' hn => ?_
  subst hn
  rw [hs.get (k := "disabled") (by decide)]
  have h1 := sameD_set (k := "ifname") (v := .str n) (sameD_set (k := "disabled") (v := (Dict.get? t "disabled").getD .none) h (by decide) rfl) (by decide) rfl
  refine relE_bind (relE_popOrElse h1 (by decide) fun _ _ _ => relE_refl _) ?_
  rintro ⟨a, w⟩ ⟨a', w'⟩ ⟨ha, hw⟩
  dsimp only at ha hw ⊢
  subst ha
  refine relE_bind (relE_popKey (sameD_update hw rfl (by simp only [Dict.keys, List.map_cons, List.map_nil]; decide)) (by decide)) ?_
  rintro ⟨r, u⟩ ⟨r', u'⟩ ⟨hr, hu⟩
  dsimp only at hr hu ⊢
  subst hr
  have h2 := same_copyIf (k := "mac") (u := "macaddr") hs (by decide) (by decide) (sameD_set (k := "device") (v := r) hu (by decide) rfl)
  refine relE_bind (relE_getKey h2 (by decide)) fun a b hab => ?_
  subst hab
  refine relE_bind (relE_refl _) fun p q hpq => ?_
  subst hpq
  have h3 := sameD_set (k := "mode") (v := .str p) h2 (by decide) rfl
  refine relE_bind (same_wifiOption (by decide) (by decide) h3) fun a b hab => relE_bind (same_wifiOption (by decide) (by decide) hab) fun a b hab =>
    relE_bind (same_wifiOption (by decide) (by decide) hab) fun a b hab => relE_bind (same_wifiEncryption hab) fun x y hxy => ?_
  have h4 := same_wifiRoaming hxy
  rw [same_autoNetwork hs h4]
  refine relE_bind (relE_refl _) fun p q hpq => ?_
  subst hpq
  rw [sorted_eq (sameD_set h4 (by decide) rfl)]
  exact .ok rfl

theorem same_wirelessFwd {m : Dict String (List String)} {i : Option Nat} {v w : Val} {r : VDict} (h : Blk ifaceSpec v w) :
    RelE Eq (wirelessFwd env m i v r) (wirelessFwd env m i w r) := by
  unfold wirelessFwd
  refine relE_bind h.asDict fun a b hab => ?_
  have hs := hab.special "wireless" (by decide)
  generalize Dict.get? a "wireless" = x at hs ⊢
  generalize Dict.get? b "wireless" = y at hs ⊢
  cases hs with
  | none => exact .ok rfl
  | some q =>
    refine relE_bind (Sec.asDict (X := wifiSpec) q) fun c c' hc => relE_bind (same_wifiBlock hab hc) fun s t hst => ?_
    rw [hst]
    exact .ok rfl

/-! ## Addresses -/

@[same_rule] theorem same_addressText (h : SameD flat d e) : RelE Eq (addressText env d) (addressText env e) := by
  unfold addressText
  same

theorem same_addressRest (h : SameD flat d e) : SameD flat (addressRest d) (addressRest e) := sameD_eraseList h

theorem same_pushTo {k : String} {v : Val} (h : SameD flat d e) : RelE (SameD flat) (pushTo d k v) (pushTo e k v) := by
  unfold pushTo
  rw [h.get_flat]
  split
  · exact .ok (sameD_set h (fun q => nomatch q) rfl)
  · exact .ok (sameD_set h (fun q => nomatch q) rfl)
  · exact .error _

structure SameAcc (a b : AddrAcc) : Prop where
  interface : SameD ifaceSpec a.interface b.interface
  static : SameD flat a.static b.static
  dhcp : List.Forall₂ (SameD flat) a.dhcp b.dhcp

theorem same_gatewayStep {v4 : Bool} {a b : VDict} (ha : SameD flat a b) (h : SameD ifaceSpec d e) : SameD ifaceSpec (gatewayStep v4 a d) (gatewayStep v4 b e) := by
  unfold gatewayStep
  rw [ha.get_flat]
  split
  · refine sameD_set h ?_ rfl
    cases v4 <;> decide
  · exact h

theorem same_addressStep {a b : AddrAcc} {v w : Val} (h : SameAcc a b) (hv : Blk flat v w) : RelE SameAcc (addressStep env a v) (addressStep env b w) := by
  unfold addressStep
  refine relE_bind hv.asDict fun x y hxy => relE_bind (relE_getKey hxy (by decide)) fun p q hpq => ?_
  subst hpq
  dsimp only
  rw [hxy.get_flat "family"]
  refine relE_ite Iff.rfl (fun _ => ?_) fun _ => ?_
  · exact .ok ⟨h.interface, h.static, List.rel_append h.dhcp (.cons (same_addressRest (sameD_set hxy (by decide) rfl)) .nil)⟩
  · refine relE_bind (same_addressText hxy) fun t u ht => ?_
    subst ht
    refine relE_bind (same_pushTo h.static) fun s s' hs => ?_
    exact .ok ⟨same_gatewayStep hxy h.interface, sameD_update_same hs (same_addressRest hxy), h.dhcp⟩

theorem same_singleIpv4 (h : SameD flat d e) : RelE (SameD flat) (singleIpv4 env d) (singleIpv4 env e) := by
  unfold singleIpv4
  rw [h.get_flat]
  split
  · refine relE_bind (relE_refl _) fun i j hij => ?_
    subst hij
    exact .ok (sameD_set (sameD_set h (by decide) rfl) (by decide) rfl)
  · exact .ok h
  · exact .ok h
  · exact .error _

theorem same_singleIpv6 (h : SameD flat d e) : RelE (SameD flat) (singleIpv6 d) (singleIpv6 e) := by
  unfold singleIpv6
  rw [h.get_flat]
  split
  · exact .ok (sameD_set h (by decide) rfl)
  · exact .ok h
  · exact .ok h
  · exact .error _

theorem same_staticSection (h : SameD flat d e) : RelE (List.Forall₂ (SameD flat)) (staticSection env d) (staticSection env e) := by
  unfold staticSection staticAddress
  rw [flat_isEmpty h]
  refine relE_ite Iff.rfl (fun _ => .ok .nil) fun _ => ?_
  exact relE_bind (relE_bind (same_singleIpv4 h) fun _ _ => same_singleIpv6) fun a b hab => .ok (.cons hab .nil)

theorem same_wgAddress {v w : Val} (h : Blk flat v w) : RelE Eq (wgAddress env v) (wgAddress env w) := by
  unfold wgAddress
  refine relE_bind h.asDict fun x y hxy => relE_bind (relE_getKey hxy (by decide)) fun p q hpq => ?_
  subst hpq
  rw [hxy.get_flat]
  exact .ok rfl

theorem same_wgAddresses (h : SameD ifaceSpec d e) :
    RelE (RelP (SameD ifaceSpec) (List.Forall₂ (SameD flat))) (wgAddresses env d) (wgAddresses env e) := by
  unfold wgAddresses
  refine relE_bind (relE_popRel h (by decide)) ?_
  rintro ⟨v, i⟩ ⟨w, j⟩ ⟨hv, hi⟩
  have hv : Sec flat v w := hv
  dsimp only at hi ⊢
  cases hv with
  | same _ h1 h2 => cases v <;> first | exact .error _ | exact absurd rfl (h2 _)
  | dict _ => exact .error _
  | list hl =>
    refine relE_bind (relE_mapM hl fun _ _ => same_wgAddress) fun l m hm => ?_
    rw [forall₂_eq hm]
    exact .ok ⟨hi, .cons (sameD_refl (by simp only [Dict.keys, List.map_cons, List.map_nil]; decide)) .nil⟩

theorem same_ifaceAddresses (h : SameD ifaceSpec d e) :
    RelE (RelP (SameD ifaceSpec) (List.Forall₂ (SameD flat))) (ifaceAddresses env d) (ifaceAddresses env e) := by
  unfold ifaceAddresses
  rw [h.get (k := "type") (by decide)]
  refine relE_ite Iff.rfl (fun _ => same_wgAddresses h) fun _ => ?_
  have hv := same_addresses h .none sec_none
  dsimp only
  rw [hv.truthy]
  refine relE_ite Iff.rfl (fun _ => ?_) fun _ => ?_
  · generalize (Dict.get? d "addresses").getD .none = v at hv ⊢
    generalize (Dict.get? e "addresses").getD .none = w at hv ⊢
    cases hv with
    | same _ h1 h2 => cases v <;> first | exact .error _ | exact absurd rfl (h2 _)
    | dict _ => exact .error _
    | list hl =>
      refine relE_bind (relE_foldlM (S := SameAcc) hl ⟨h, sameD_nil, .nil⟩ fun _ _ _ _ ha hx => same_addressStep ha hx) fun a b hab => ?_
      exact relE_bind (same_staticSection hab.static) fun s t hst => .ok ⟨hab.interface, List.rel_append hst hab.dhcp⟩
  · refine relE_bind (relE_getKey h (by decide)) fun a b hab => ?_
    subst hab
    refine .ok ⟨h, ?_⟩
    dsimp only
    split
    · exact .nil
    · exact .cons (sameD_refl (by decide)) .nil

/-! ## The interface -/

theorem same_macStep (h : SameD ifaceSpec d e) : SameD ifaceSpec (macStep d) (macStep e) := by
  unfold macStep
  rw [h.get (k := "mac") (by decide), h.get (k := "type") (by decide)]
  same

theorem same_autoStep (h : SameD ifaceSpec d e) : SameD ifaceSpec (autoStep d) (autoStep e) := by
  unfold autoStep
  rw [h.get (k := "autostart") (by decide)]
  same

theorem same_enabledStep (h : SameD ifaceSpec d e) : SameD ifaceSpec (enabledStep d) (enabledStep e) := by
  unfold enabledStep
  rw [h.get (k := "disabled") (by decide)]
  same

theorem same_modemManager (h : SameD sectionSpec d e) : SameD sectionSpec (modemManager d) (modemManager e) := by
  unfold modemManager popOr
  dsimp only
  same

theorem same_wireguardIface (h : SameD sectionSpec d e) : SameD sectionSpec (wireguardIface d) (wireguardIface e) := by
  unfold wireguardIface popOr
  dsimp only
  same

theorem same_vxlanIface (h : SameD sectionSpec d e) : RelE (SameD sectionSpec) (vxlanIface d) (vxlanIface e) := by
  unfold vxlanIface
  same

theorem same_vlanIface (h : SameD sectionSpec d e) : RelE (SameD sectionSpec) (vlanIface env d) (vlanIface env e) := by
  unfold vlanIface
  dsimp only
  same

theorem same_specific (h : SameD sectionSpec d e) : RelE (SameD sectionSpec) (specific env d) (specific env e) := by
  unfold specific
  refine relE_bind (relE_getKey h (by decide)) fun a b hab => ?_
  subst hab
  refine relE_bind (relE_refl _) fun t u ht => ?_
  subst ht
  exact relE_ite Iff.rfl (fun _ => .ok (same_modemManager h)) fun _ => relE_ite Iff.rfl (fun _ => .ok (same_wireguardIface h)) fun _ =>
    relE_ite Iff.rfl (fun _ => same_vxlanIface h) fun _ => relE_ite Iff.rfl (fun _ => same_vlanIface h) fun _ => .ok h

theorem same_moveOption {p q : VDict × VDict} {k : String} (hk : k ∉ X.keys) (h : RelP (SameD flat) (SameD X) p q) :
    RelP (SameD flat) (SameD X) (moveOption p k) (moveOption q k) := by
  unfold moveOption
  rw [h.snd.get hk]
  split
  · exact ⟨sameD_set h.fst (fun q => nomatch q) rfl, sameD_erase h.snd⟩
  · exact h

theorem same_moves {l : List String} {p q : VDict × VDict} (hl : ∀ k ∈ l, k ∉ X.keys) (h : RelP (SameD flat) (SameD X) p q) :
    RelP (SameD flat) (SameD X) (l.foldl moveOption p) (l.foldl moveOption q) := by
  induction l generalizing p q with
  | nil => exact h
  | cons k l ih => exact ih (fun k hk => hl k (List.mem_cons_of_mem _ hk)) (same_moveOption (hl k (List.mem_cons_self ..)) h)

theorem same_addL2 (hX : ∀ k ∈ "macaddr" :: l2Options, k ∉ X.keys) {a b : VDict} (ha : SameD flat a b) (h : SameD X d e) :
    RelP (SameD flat) (SameD X) (addL2 a d) (addL2 b e) := by
  unfold addL2
  dsimp only
  have h1 := same_moves (l := l2Options) (p := (a, d)) (q := (b, e)) (fun k hk => hX k (List.mem_cons_of_mem _ hk)) ⟨ha, h⟩
  generalize l2Options.foldl moveOption (a, d) = p at h1 ⊢
  generalize l2Options.foldl moveOption (b, e) = q at h1 ⊢
  have hm := hX "macaddr" (List.mem_cons_self ..)
  rw [h1.snd.get (k := "macaddr") hm]
  split
  · exact same_moveOption hm h1
  · exact h1

theorem same_checkBridgeVlan {dsa : Bool} {vlans : List Val} (h : SameD sectionSpec d e) :
    RelE (SameD sectionSpec) (checkBridgeVlan dsa vlans d) (checkBridgeVlan dsa vlans e) := by
  unfold checkBridgeVlan
  rw [h.get (k := "ifname") (by decide)]
  refine relE_ite Iff.rfl (fun _ => ?_) fun _ => .ok h
  split
  · exact relE_ite Iff.rfl (fun _ => .ok (sameD_set (sameD_erase (same_addL2 (by decide) sameD_nil h).snd) (by decide) rfl)) fun _ => .ok h
  · exact .error _

theorem same_sectionOf (h : SameD ifaceSpec d e) :
    SameD sectionSpec (Dict.erase (Dict.erase d "wireless") "addresses") (Dict.erase (Dict.erase e "wireless") "addresses") :=
  sameD_shrink (sameD_erase (sameD_erase h)) (fun k hk hn => by
    simp only [ifaceSpec, List.mem_cons, List.not_mem_nil, or_false] at hk
    rcases hk with rfl | rfl | rfl
    · simp [Dict.get?_erase']
    · simp [Dict.get?_erase']
    · exact absurd (List.mem_singleton.2 rfl) hn) fun k hk => by
    cases List.mem_singleton.1 hk
    exact ⟨by decide, fun _ _ q => q⟩

theorem same_ifaceBlock {dsa : Bool} {vlans : List Val} {uci : Chars} (h : SameD ifaceSpec d e) :
    RelE (SameD sectionSpec) (ifaceBlock env dsa vlans uci d) (ifaceBlock env dsa vlans uci e) := by
  unfold ifaceBlock
  dsimp only
  have h1 : SameD ifaceSpec (Dict.update d [(".type", .str "interface"), (".name", txt uci)]) (Dict.update e [(".type", .str "interface"), (".name", txt uci)]) :=
    sameD_update h rfl (by simp only [Dict.keys, List.map_cons, List.map_nil]; decide)
  refine relE_bind (relE_popKey h1 (by decide)) ?_
  rintro ⟨v, i⟩ ⟨w, j⟩ ⟨hv, hi⟩
  dsimp only at hv hi ⊢
  subst hv
  refine relE_bind (same_specific (same_sectionOf (same_enabledStep (same_autoStep (same_macStep (sameD_set hi (by decide) rfl)))))) fun a b hab =>
    relE_bind (same_checkBridgeVlan hab) fun a b hab => .ok (sameD_erase hab)

theorem same_isDsa {dsa : Bool} {vlans : List Val} (h : SameD sectionSpec d e) : isDsa dsa vlans d = isDsa dsa vlans e := by
  unfold isDsa
  rw [h.get (k := "proto") (by decide), h.get (k := "type") (by decide), h.get (k := "ifname") (by decide), h.get (k := "device") (by decide)]

/-! ## Devices -/

theorem same_addOption {o : String} {s t : VDict} (hs : SameD flat s t) (h : SameD flat d e) : SameD flat (addOption s d o) (addOption t e o) := by
  unfold addOption
  rw [hs.get_flat]
  split
  · exact sameD_ite Iff.rfl (sameD_set h (fun q => nomatch q) rfl) h
  · exact h

theorem same_addOptions {p : String} {l : List String} {s t : VDict} (hs : SameD flat s t) (h : SameD flat d e) :
    SameD flat (addOptions p l d s) (addOptions p l e t) := by
  unfold addOptions
  rw [hs.get_flat]
  split
  · have h1 := sameD_set (k := p) (v := .bool true) h (fun q => nomatch q) rfl
    revert h1
    generalize Dict.set d p _ = a
    generalize Dict.set e p _ = b
    intro h1
    induction l generalizing a b with
    | nil => exact h1
    | cons o l ih => exact ih _ _ (same_addOption hs h1)
  · exact h

theorem same_vlanDevice {a b : VDict} (ha : SameD flat a b) (h : SameD flat d e) :
    RelE (RelP (SameD flat) (SameD flat)) (vlanDevice a d) (vlanDevice b e) := by
  unfold vlanDevice popOr
  dsimp only
  same

attribute [local irreducible] addOptions moveOption sortedDict in
theorem same_bridgeDevice {a b : VDict} (ha : SameD flat a b) (h : SameD flat d e) :
    RelE (RelP (SameD flat) (SameD flat)) (bridgeDevice a d) (bridgeDevice b e) := by
  unfold bridgeDevice
  refine relE_bind (relE_getKey h (by decide)) fun x y hxy => ?_
  subst hxy
  refine relE_bind (relE_refl _) fun t u ht => ?_
  subst ht
  dsimp only
  generalize (if "br-".toList <+: t then t else "br-".toList ++ t) = n
  have hi := sameD_set (k := "device") (v := txt n) (sameD_set (k := "ifname") (v := txt n) h (by decide) rfl) (by decide) rfl
  have hd := sameD_set (k := "name") (v := txt n) (sameD_set (k := "type") (v := .str "bridge") ha (by decide) rfl) (by decide) rfl
  have ho := same_addOptions (p := "igmp_snooping") (l := igmpOptions) hi (same_addOptions (p := "stp") (l := stpOptions) hi hd)
  have hp : RelP (SameD flat) (SameD flat)
      (addOptions "igmp_snooping" igmpOptions
        (addOptions "stp" stpOptions (Dict.set (Dict.set a "type" (.str "bridge")) "name" (txt n)) (Dict.set (Dict.set d "ifname" (txt n)) "device" (txt n)))
        (Dict.set (Dict.set d "ifname" (txt n)) "device" (txt n)), Dict.set (Dict.set d "ifname" (txt n)) "device" (txt n))
      (addOptions "igmp_snooping" igmpOptions
        (addOptions "stp" stpOptions (Dict.set (Dict.set b "type" (.str "bridge")) "name" (txt n)) (Dict.set (Dict.set e "ifname" (txt n)) "device" (txt n)))
        (Dict.set (Dict.set e "ifname" (txt n)) "device" (txt n)), Dict.set (Dict.set e "ifname" (txt n)) "device" (txt n)) := ⟨ho, hi⟩
  have h1 := same_moves (X := flat) (l := allOptions ++ stpOptions ++ igmpOptions) (fun _ _ q => nomatch q) hp
  rw [h1.snd.get_flat "bridge_members"]
  exact .ok ⟨sameD_sorted (sameD_ite Iff.rfl (sameD_erase (sameD_set h1.fst (by decide) rfl)) (sameD_set h1.fst (by decide) rfl)), h1.snd⟩

theorem same_ifaceDevice (h : SameD flat d e) : RelE (RelP (SameD flat) (SameD flat)) (ifaceDevice env d) (ifaceDevice env e) := by
  unfold ifaceDevice
  have h1 := same_addL2 (X := flat) (fun _ _ q => nomatch q) sameD_nil h
  generalize addL2 [] d = p at h1 ⊢
  generalize addL2 [] e = q at h1 ⊢
  obtain ⟨l, i⟩ := p
  obtain ⟨l', i'⟩ := q
  obtain ⟨hl, hi⟩ := h1
  dsimp only at hl hi ⊢
  refine relE_bind (relE_getKey hi (by decide)) fun x y hxy => ?_
  subst hxy
  refine relE_bind (relE_getKey hi (by decide)) fun z y hxy => ?_
  subst hxy
  have hb := sameD_update_flat (l := [(".type", .str "device"), (".name", .str ("device_" ++ pyStr env.reprC x)), ("name", z)]) hl rfl
  have hi' : SameD flat (if ((Dict.get? i "device").getD .none).truthy then i else Dict.set i "device" z)
      (if ((Dict.get? i' "device").getD .none).truthy then i' else Dict.set i' "device" z) := by
    rw [hi.get_flat "device"]
    exact sameD_ite Iff.rfl hi (sameD_set hi (by decide) rfl)
  refine relE_bind (relE_getKey hi' (by decide)) fun x y hxy => ?_
  subst hxy
  refine relE_bind (relE_refl _) fun t u ht => ?_
  subst ht
  refine relE_bind (R := RelP (SameD flat) (SameD flat)) (relE_ite Iff.rfl (fun _ => same_vlanDevice hb hi') fun _ => .ok ⟨hb, hi'⟩) ?_
  rintro ⟨c, f⟩ ⟨c', f'⟩ ⟨hc, hf⟩
  dsimp only at hc hf ⊢
  refine relE_ite Iff.rfl (fun _ => .ok ⟨?_, hf⟩) fun _ => same_bridgeDevice hc hf
  rw [flat_isEmpty hl]
  exact sameD_ite Iff.rfl sameD_nil hc

/-! ## Sections -/

theorem same_portText {v w : Val} (h : Blk flat v w) : RelE Eq (portText env v) (portText env w) := by
  unfold portText
  same

theorem same_vlanPorts {a : VDict} (h : SameD vlanSpec d e) : RelE Eq (vlanPorts env d a) (vlanPorts env e a) := by
  unfold vlanPorts
  have hs := h.special "ports" (by decide)
  generalize Dict.get? d "ports" = x at hs ⊢
  generalize Dict.get? e "ports" = y at hs ⊢
  cases hs with
  | none => exact .ok rfl
  | some q =>
    cases q with
    | same _ h1 h2 =>
      rename_i v
      cases v <;> first | exact .error _ | exact absurd rfl (h2 _)
    | dict _ => exact .error _
    | list hl =>
      refine relE_bind (relE_mapM hl fun _ _ => same_portText) fun l m hm => ?_
      rw [forall₂_eq hm]
      exact .ok rfl

theorem same_vlanSections {uci : Chars} {v w : Val} (h : SameD flat d e) (hv : Blk vlanSpec v w) :
    RelE Eq (vlanSections env uci d v) (vlanSections env uci e w) := by
  unfold vlanSections
  dsimp only
  refine relE_bind hv.asDict fun a b hab => relE_bind (relE_getKey hab (by decide)) fun x y hxy => ?_
  subst hxy
  refine relE_bind (relE_getKey h (by decide)) fun z y hxy => ?_
  subst hxy
  refine relE_bind (same_vlanPorts hab) fun p q hpq => ?_
  rw [hpq]
  exact .ok rfl

theorem same_vlanList {v w : Val} (h : Sec vlanSpec v w) : RelE (List.Forall₂ (Blk vlanSpec)) (vlanList v) (vlanList w) := by
  cases h with
  | list h => exact .ok h
  | dict h =>
    rename_i d e
    unfold vlanList
    dsimp only
    rw [show (Val.dict d).truthy = (Val.dict e).truthy from (Sec.dict h).truthy]
    exact relE_ite Iff.rfl (fun _ => .error _) fun _ => .ok .nil
  | same _ h1 h2 =>
    unfold vlanList
    split
    · exact absurd rfl (h2 _)
    · refine relE_ite Iff.rfl (fun _ => .error _) fun _ => ?_
      split
      · exact .ok .nil
      · exact .ok .nil
      · exact .error _

theorem same_dsaSections {vlans : List Val} {uci : Chars} {r : VDict} (h : SameD sectionSpec d e) :
    RelE (RelP (SameD flat) Eq) (dsaSections env vlans uci d r) (dsaSections env vlans uci e r) := by
  unfold dsaSections popOr
  dsimp only
  have hv : Sec vlanSpec ((Dict.get? d "vlan_filtering").getD (.list [])) ((Dict.get? e "vlan_filtering").getD (.list [])) :=
    optRel_getD (h.special "vlan_filtering" (by decide)) (.list .nil)
  generalize (Dict.get? d "vlan_filtering").getD (.list []) = v at hv ⊢
  generalize (Dict.get? e "vlan_filtering").getD (.list []) = w at hv ⊢
  have h0 : SameD flat (Dict.erase d "vlan_filtering") (Dict.erase e "vlan_filtering") := sameD_erased h
  rw [hv.truthy]
  have hi := sameD_ite (c := w.truthy = true) (c' := w.truthy = true) Iff.rfl (sameD_set (k := "vlan_filtering") (v := .bool true) h0 (by decide) rfl) h0
  refine relE_bind (same_ifaceDevice hi) ?_
  rintro ⟨c, f⟩ ⟨c', f'⟩ ⟨hc, hf⟩
  dsimp only at hc hf ⊢
  rw [flat_isEmpty hc, sorted_eq hc]
  refine relE_bind (same_vlanList hv) fun l m hlm => relE_bind (relE_mapM hlm fun _ _ q => same_vlanSections hf q) fun x y hxy => ?_
  rw [forall₂_eq hxy]
  refine relE_bind (relE_refl _) fun a b hab => ?_
  subst hab
  refine relE_bind (relE_refl _) fun a b hab => ?_
  subst hab
  exact .ok ⟨hf, rfl⟩

theorem same_firstBridge {b : Bool} (h : SameD flat d e) : RelE (SameD flat) (firstBridge b d) (firstBridge b e) := by
  unfold firstBridge
  same

theorem same_nextBridge (h : SameD flat d e) : RelE (SameD flat) (nextBridge d) (nextBridge e) := by
  unfold nextBridge
  refine relE_bind (relE_getKey h (by decide)) fun a b hab => ?_
  subst hab
  refine relE_bind (relE_refl _) fun t u ht => ?_
  subst ht
  exact .ok (sameD_eraseList (sameD_ite Iff.rfl h (sameD_set h (by decide) rfl)))

theorem same_bridgeSection {b : Bool} {i : Nat} (h : SameD flat d e) : RelE (SameD flat) (bridgeSection b i d) (bridgeSection b i e) := by
  unfold bridgeSection
  refine relE_bind (relE_getKey h (by decide)) fun x y hab => ?_
  subst hab
  refine relE_bind (R := SameD flat) (relE_ite Iff.rfl (fun _ => relE_ite Iff.rfl (fun _ => same_firstBridge h) fun _ => same_nextBridge h)
    fun _ => .ok (sameD_erase h)) fun a c hac => .ok ?_
  unfold cleanBridge
  exact sameD_ite Iff.rfl (sameD_eraseList hac) hac

theorem same_dnsValue {c c' : VDict} {own key : String} {l : List Val} {p : Val} (hc : Dict.get? c key = Dict.get? c' key) (h : SameD flat d e) :
    dnsValue c own key l d p = dnsValue c' own key l e p := by
  unfold dnsValue joinedOf
  rw [h.get_flat, hc]

theorem same_ifaceSection {c c' : VDict} {b : Bool} {uci : Chars} {i : Nat} {x y : VDict} (h1 : Dict.get? c "dns_servers" = Dict.get? c' "dns_servers")
    (h2 : Dict.get? c "dns_search" = Dict.get? c' "dns_search") (h : SameD flat d e) (hx : SameD flat x y) :
    RelE Eq (ifaceSection c b uci d i x) (ifaceSection c' b uci e i y) := by
  unfold ifaceSection
  have hd := sameD_ite (c := i > 1) (c' := i > 1) Iff.rfl (sameD_set (k := ".name") (v := txt (uci ++ '_' :: showNat i)) h (by decide) rfl) h
  refine relE_bind (relE_getKey hx (by decide)) fun p q hpq => ?_
  subst hpq
  dsimp only
  generalize (if i > 1 then Dict.set d ".name" (txt (uci ++ '_' :: showNat i)) else d) = a at hd ⊢
  generalize (if i > 1 then Dict.set e ".name" (txt (uci ++ '_' :: showNat i)) else e) = a' at hd ⊢
  rw [same_dnsValue h1 hd]
  refine relE_bind (relE_refl _) fun s t hst => ?_
  subst hst
  rw [same_dnsValue h2 hd]
  refine relE_bind (relE_refl _) fun s t hst => ?_
  subst hst
  rw [hd.get_flat "proto"]
  refine relE_bind (same_bridgeSection (sameD_update_flat (sameD_erase hd) rfl)) fun s t hst => ?_
  rw [sorted_eq (sameD_update_same hst (sameD_erase hx))]
  exact .ok rfl

theorem same_addSections {sh : Val → Bool} {c c' : VDict} {b : Bool} {uci : Chars} {i : Nat} {r : VDict} {l m : List VDict}
    (h1 : Dict.get? c "dns_servers" = Dict.get? c' "dns_servers")
    (h2 : Dict.get? c "dns_search" = Dict.get? c' "dns_search") (h : SameD flat d e) (hl : List.Forall₂ (SameD flat) l m) :
    RelE Eq (addSections sh c b uci d i r l) (addSections sh c' b uci e i r m) := by
  induction hl generalizing i r with
  | nil => exact relE_refl _
  | cons hx _ ih =>
    rw [addSections, addSections]
    refine relE_bind (same_ifaceSection h1 h2 h hx) fun s t hst => ?_
    subst hst
    refine relE_bind (relE_refl _) fun s t hst => ?_
    subst hst
    exact ih

end NJ
