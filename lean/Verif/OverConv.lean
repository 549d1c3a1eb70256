import Verif.Over

/-!
# The converters write only what they were given, and plain characters
-/

namespace NJ

set_option linter.unusedVariables false
variable {A : Char → Prop} {env : Env}

@[over_rule] theorem over_ulaBlock (hA : Wide A env) {d : VDict} (h0 : Over A d) : Over A (ulaBlock d) := by
  unfold ulaBlock popOr
  dsimp only
  over

@[over_rule] theorem over_systemBlock (hA : Wide A env) {d : VDict} (h0 : Over A d) : Over A (systemBlock env d) := by
  unfold systemBlock popOr
  dsimp only
  over

@[over_rule] theorem over_generalFwd (hA : Wide A env) (i : Option Nat) {v : Val} {r : VDict} (h0 : Over A v) (h1 : Over A r) : Over A (generalFwd env i v r) := by
  unfold generalFwd
  over

@[over_rule] theorem over_ntpFwd (hA : Wide A env) (i : Option Nat) {v : Val} {r : VDict} (h0 : Over A v) (h1 : Over A r) : Over A (ntpFwd i v r) := by
  unfold ntpFwd popOr
  dsimp only
  over

@[over_rule] theorem over_ledAutoName (hA : Wide A env) {d : VDict} (h0 : Over A d) : Over A (ledAutoName env d) := by
  unfold ledAutoName
  over

@[over_rule] theorem over_ledBlock (hA : Wide A env) {d : VDict} (h0 : Over A d) : Over A (ledBlock env d) := by
  unfold ledBlock
  over

@[over_rule] theorem over_ledFwd (hA : Wide A env) (i : Option Nat) {v : Val} {r : VDict} (h0 : Over A v) (h1 : Over A r) : Over A (ledFwd env i v r) := by
  unfold ledFwd
  over

@[over_rule] theorem over_autoName (hA : Wide A env) {pre : Chars} (n : Nat) (h0 : Over A pre) : Over A (autoName pre n) := by
  unfold autoName
  over

@[over_rule] theorem over_ipInterfaceV (hA : Wide A env) {v : Val} (h0 : Over A v) : Over A (ipInterfaceV env v) := by
  unfold ipInterfaceV
  over

@[over_rule] theorem over_routeBlock (hA : Wide A env) (n : Nat) {d : VDict} (h0 : Over A d) : Over A (routeBlock env n d) := by
  unfold routeBlock
  dsimp only
  over

@[over_rule] theorem over_routeFwd (hA : Wide A env) (i : Option Nat) {v : Val} {r : VDict} (h0 : Over A v) (h1 : Over A r) : Over A (routeFwd env i v r) := by
  unfold routeFwd
  over

@[over_rule] theorem over_ruleNet (hA : Wide A env) {d : VDict} {k : String} (h0 : Over A d) : Over A (ruleNet env d k) := by
  unfold ruleNet
  over

@[over_rule] theorem over_ruleBlock (hA : Wide A env) (n : Nat) {d : VDict} (h0 : Over A d) : Over A (ruleBlock env n d) := by
  unfold ruleBlock
  dsimp only
  over

@[over_rule] theorem over_ruleFwd (hA : Wide A env) (i : Option Nat) {v : Val} {r : VDict} (h0 : Over A v) (h1 : Over A r) : Over A (ruleFwd env i v r) := by
  unfold ruleFwd
  over

@[over_rule] theorem over_vlanAutoName (hA : Wide A env) {v : Val} (n : Nat) (h0 : Over A v) : Over A (vlanAutoName env v n) := by
  unfold vlanAutoName
  over

@[over_rule] theorem over_vlanBlock (hA : Wide A env) {v : Val} (n : Nat) {d : VDict} (h0 : Over A v) (h1 : Over A d) : Over A (vlanBlock env v n d) := by
  unfold vlanBlock
  dsimp only
  over

@[over_rule] theorem over_vlanBlocks (hA : Wide A env) {v : Val} {n : Nat} {l : List Val} (hv : Over A v) (hl : Over A l) : Over A (vlanBlocks env v n l) := by
  induction l generalizing n with
  | nil => exact over_ok.2 over_nil
  | cons x l ih =>
    rw [vlanBlocks]
    have h1 := (over_cons.1 hl).1
    have h2 := @ih (n + 1) (over_cons.1 hl).2
    over

@[over_rule] theorem over_switchBlocks (hA : Wide A env) {d : VDict} (h0 : Over A d) : Over A (switchBlocks env d) := by
  unfold switchBlocks
  over

@[over_rule] theorem over_switchFwd (hA : Wide A env) (i : Option Nat) {v : Val} {r : VDict} (h0 : Over A v) (h1 : Over A r) : Over A (switchFwd env i v r) := by
  unfold switchFwd
  over

@[over_rule] theorem over_peerBlock (hA : Wide A env) (n : Nat) {d : VDict} (h0 : Over A d) : Over A (peerBlock n d) := by
  unfold peerBlock
  dsimp only
  over

@[over_rule] theorem over_peerFwd (hA : Wide A env) (i : Option Nat) {v : Val} {r : VDict} (h0 : Over A v) (h1 : Over A r) : Over A (peerFwd i v r) := by
  unfold peerFwd
  over

@[over_rule] theorem over_defaultBlock (hA : Wide A env) (n : Nat) {d : VDict} (h0 : Over A d) : Over A (defaultBlock env n d) := by
  unfold defaultBlock popOr
  dsimp only
  over

@[over_rule] theorem over_bandFromHwmode (hA : Wide A env) {v : Val} (h0 : Over A v) : Over A (bandFromHwmode v) := by
  unfold bandFromHwmode
  over

@[over_rule] theorem over_bandValue (hA : Wide A env) {a b c e : Val} (h0 : Over A a) (h1 : Over A b) (h2 : Over A c) (h3 : Over A e) : Over A (bandValue a b c e) := by
  unfold bandValue
  over

@[over_rule] theorem over_radioBand (hA : Wide A env) {d : VDict} (h0 : Over A d) : Over A (radioBand d) := by
  unfold radioBand popOr
  dsimp only
  over

@[over_rule] theorem over_hwmodeFromProtocol (hA : Wide A env) {d : VDict} (h0 : Over A d) : Over A (hwmodeFromProtocol d) := by
  unfold hwmodeFromProtocol
  over

@[over_rule] theorem over_radioHwmode (hA : Wide A env) {d : VDict} (h0 : Over A d) : Over A (radioHwmode d) := by
  unfold radioHwmode popOr
  dsimp only
  over

@[over_rule] theorem over_setBand (hA : Wide A env) (b : Bool) {d : VDict} (h0 : Over A d) : Over A (setBand b d) := by
  unfold setBand
  have h1 := over_radioBand hA h0
  have h2 := over_radioHwmode hA h0
  generalize radioBand d = x at h1 ⊢
  generalize radioHwmode d = y at h2 ⊢
  over

@[over_rule] theorem over_setHtmode (hA : Wide A env) {d : VDict} (h0 : Over A d) : Over A (setHtmode env d) := by
  unfold setHtmode
  over

@[over_rule] theorem over_renameTxPower (hA : Wide A env) {d : VDict} (h0 : Over A d) : Over A (renameTxPower d) := by
  unfold renameTxPower
  over

@[over_rule] theorem over_autoChannel (hA : Wide A env) {d : VDict} (h0 : Over A d) : Over A (autoChannel d) := by
  unfold autoChannel
  over

@[over_rule] theorem over_radioWidth (hA : Wide A env) {d : VDict} (h0 : Over A d) : Over A (radioWidth env d) := by
  unfold radioWidth
  over

@[over_rule] theorem over_upperCountry (hA : Wide A env) {d : VDict} (h0 : Over A d) : Over A (upperCountry env d) := by
  unfold upperCountry
  over

@[over_rule] theorem over_radioBlock (hA : Wide A env) (b : Bool) {d : VDict} (h0 : Over A d) : Over A (radioBlock env b d) := by
  unfold radioBlock popOr
  dsimp only
  over

@[over_rule] theorem over_radioFwd (hA : Wide A env) (b : Bool) (i : Option Nat) {v : Val} {r : VDict} (h0 : Over A v) (h1 : Over A r) : Over A (radioFwd env b i v r) := by
  unfold radioFwd
  over

@[over_rule] theorem over_portTexts (hA : Wide A env) {v : Val} (h0 : Over A v) : Over A (portTexts v) := by
  unfold portTexts
  over

attribute [local irreducible] portTexts in
@[over_rule] theorem over_bridgeMembers (hA : Wide A env) (b : Bool) {d : VDict} (h0 : Over A d) : Over A (bridgeMembers b d) := by
  unfold bridgeMembers
  over

@[over_rule] theorem over_stripPrefix {p s : Chars} (h : Over A s) : Over A (stripPrefix p s) := by
  induction p generalizing s with
  | nil => exact over_some.2 h
  | cons x p ih =>
    cases s with
    | nil => exact over_none
    | cons c s => exact over_ite (ih (over_cons.1 h).2) over_none

@[over_rule] theorem over_bridgeName (hA : Wide A env) (b : Bool) {s : Chars} (h0 : Over A s) : Over A (bridgeName b s) := by
  unfold bridgeName
  over

@[over_rule] theorem over_addBridge (hA : Wide A env) {n p : String} {m : Dict String (List String)} (h0 : Over A n) (h1 : Over A p) (h2 : Over A m) : Over A (addBridge n m p) := by
  unfold addBridge
  over

@[over_rule] theorem over_trackBlock (hA : Wide A env) (b : Bool) {m : Dict String (List String)} {v : Val} (h0 : Over A m) (h1 : Over A v) : Over A (trackBlock b m v) := by
  unfold trackBlock
  over

@[over_rule] theorem over_trackBridges (hA : Wide A env) (b : Bool) {d : VDict} (h0 : Over A d) : Over A (trackBridges b d) := by
  unfold trackBridges
  over

@[over_rule] theorem over_lookupText (hA : Wide A env) {t : Dict String String} {v : Val} (h0 : Over A t) (h1 : Over A v) : Over A (lookupText t v) := by
  unfold lookupText
  over

@[over_rule] theorem over_wifiOption (hA : Wide A env) {k u : String} {d : VDict} (h0 : Over A u) (h1 : Over A d) : Over A (wifiOption k u d) := by
  unfold wifiOption
  over

@[over_rule] theorem over_protocolText (hA : Wide A env) {v : Val} (h0 : Over A v) : Over A (protocolText v) := by
  unfold protocolText
  over

@[over_rule] theorem over_copyIf (hA : Wide A env) {d e : VDict} {k u : String} (h0 : Over A d) (h1 : Over A e) (h2 : Over A u) : Over A (copyIf d k e u) := by
  unfold copyIf
  over

@[over_rule] theorem over_radiusUci (hA : Wide A env) {d e : VDict} (h0 : Over A d) (h1 : Over A e) : Over A (radiusUci d e) := by
  unfold radiusUci
  dsimp only
  over

@[over_rule] theorem over_enterpriseUci (hA : Wide A env) {m : String} {d e : VDict} (h0 : Over A d) (h1 : Over A e) : Over A (enterpriseUci m d e) := by
  unfold enterpriseUci
  dsimp only
  over

@[over_rule] theorem over_encStrip (hA : Wide A env) {d : VDict} (h0 : Over A d) : Over A (encStrip d) := by
  unfold encStrip
  over

@[over_rule] theorem over_encKeys (hA : Wide A env) {m p : String} {d e : VDict} (h0 : Over A p) (h1 : Over A d) (h2 : Over A e) : Over A (encKeys env m p d e) := by
  unfold encKeys
  dsimp only
  over

@[over_rule] theorem over_encValue (hA : Wide A env) {p : String} {v : Val} (h0 : Over A p) (h1 : Over A v) : Over A (encValue env p v) := by
  unfold encValue
  dsimp only
  over

@[over_rule] theorem over_encryptionUci (hA : Wide A env) {m : String} {d : VDict} (h0 : Over A d) : Over A (encryptionUci env m d) := by
  unfold encryptionUci
  over

@[over_rule] theorem over_wifiEncryption (hA : Wide A env) {m : String} {d : VDict} (h0 : Over A d) : Over A (wifiEncryption env m d) := by
  unfold wifiEncryption
  over

@[over_rule] theorem over_wifiRoaming (hA : Wide A env) {d : VDict} (h0 : Over A d) : Over A (wifiRoaming d) := by
  unfold wifiRoaming
  over

@[over_rule] theorem over_itemText (hA : Wide A env) {v : Val} (h0 : Over A v) : Over A (itemText v) := by
  unfold itemText
  over

@[over_rule] theorem over_joinSpaces (hA : Wide A env) {v : Val} (h0 : Over A v) : Over A (joinSpaces v) := by
  unfold joinSpaces
  over

@[over_rule] theorem over_autoNetwork (hA : Wide A env) {m : Dict String (List String)} {n : String} {d e : VDict} (h0 : Over A m) (h1 : Over A n) (h2 : Over A d) (h3 : Over A e) : Over A (autoNetwork m n d e) := by
  unfold autoNetwork
  dsimp only
  over

@[over_rule] theorem over_wifiAutoName (hA : Wide A env) {n : String} (h0 : Over A n) : Over A (wifiAutoName n) := by
  unfold wifiAutoName
  over

@[over_rule] theorem over_wifiBlock (hA : Wide A env) {m : Dict String (List String)} {d e : VDict} (h0 : Over A m) (h1 : Over A d) (h2 : Over A e) : Over A (wifiBlock env m d e) := by
  unfold wifiBlock
  dsimp only
  over

@[over_rule] theorem over_wirelessFwd (hA : Wide A env) {m : Dict String (List String)} (i : Option Nat) {v : Val} {r : VDict} (h0 : Over A m) (h1 : Over A v) (h2 : Over A r) : Over A (wirelessFwd env m i v r) := by
  unfold wirelessFwd
  over

@[over_rule] theorem over_textItem (hA : Wide A env) {v : Val} (h0 : Over A v) : Over A (textItem v) := by
  unfold textItem
  over

@[over_rule] theorem over_addressText (hA : Wide A env) {d : VDict} (h0 : Over A d) : Over A (addressText env d) := by
  unfold addressText
  over

@[over_rule] theorem over_addressRest (hA : Wide A env) {d : VDict} (h0 : Over A d) : Over A (addressRest d) := by
  unfold addressRest
  over

@[over_rule] theorem over_pushTo (hA : Wide A env) {d : VDict} {k : String} {v : Val} (h0 : Over A d) (h1 : Over A k) (h2 : Over A v) : Over A (pushTo d k v) := by
  unfold pushTo
  over

@[over_rule] theorem over_gatewayStep (hA : Wide A env) (b : Bool) {d e : VDict} (h0 : Over A d) (h1 : Over A e) : Over A (gatewayStep b d e) := by
  unfold gatewayStep
  over

@[over_rule] theorem over_addressStep (hA : Wide A env) {a : AddrAcc} {v : Val} (h0 : Over A a) (h1 : Over A v) : Over A (addressStep env a v) := by
  unfold addressStep
  obtain ⟨ai, as, ad⟩ := a
  over_norm
  over

@[over_rule] theorem over_netmaskText (hA : Wide A env) (i : IpIf)  : Over A (netmaskText env i) := by
  unfold netmaskText
  over

@[over_rule] theorem over_singleIpv4 (hA : Wide A env) {d : VDict} (h0 : Over A d) : Over A (singleIpv4 env d) := by
  unfold singleIpv4
  over

@[over_rule] theorem over_singleIpv6 (hA : Wide A env) {d : VDict} (h0 : Over A d) : Over A (singleIpv6 d) := by
  unfold singleIpv6
  over

@[over_rule] theorem over_staticAddress (hA : Wide A env) {d : VDict} (h0 : Over A d) : Over A (staticAddress env d) := by
  unfold staticAddress
  over

@[over_rule] theorem over_wgAddress (hA : Wide A env) {v : Val} (h0 : Over A v) : Over A (wgAddress env v) := by
  unfold wgAddress
  over

@[over_rule] theorem over_wgAddresses (hA : Wide A env) {d : VDict} (h0 : Over A d) : Over A (wgAddresses env d) := by
  unfold wgAddresses
  over

@[over_rule] theorem over_staticSection (hA : Wide A env) {d : VDict} (h0 : Over A d) : Over A (staticSection env d) := by
  unfold staticSection
  over

@[over_rule] theorem over_ifaceAddresses (hA : Wide A env) {d : VDict} (h0 : Over A d) : Over A (ifaceAddresses env d) := by
  unfold ifaceAddresses
  dsimp only
  over

@[over_rule] theorem over_macStep (hA : Wide A env) {d : VDict} (h0 : Over A d) : Over A (macStep d) := by
  unfold macStep
  over

@[over_rule] theorem over_autoStep (hA : Wide A env) {d : VDict} (h0 : Over A d) : Over A (autoStep d) := by
  unfold autoStep
  over

@[over_rule] theorem over_enabledStep (hA : Wide A env) {d : VDict} (h0 : Over A d) : Over A (enabledStep d) := by
  unfold enabledStep
  over

@[over_rule] theorem over_modemManager (hA : Wide A env) {d : VDict} (h0 : Over A d) : Over A (modemManager d) := by
  unfold modemManager popOr
  dsimp only
  over

@[over_rule] theorem over_wireguardIface (hA : Wide A env) {d : VDict} (h0 : Over A d) : Over A (wireguardIface d) := by
  unfold wireguardIface popOr
  dsimp only
  over

@[over_rule] theorem over_vxlanIface (hA : Wide A env) {d : VDict} (h0 : Over A d) : Over A (vxlanIface d) := by
  unfold vxlanIface
  over

@[over_rule] theorem over_orVal (hA : Wide A env) {a b : Val} (h0 : Over A a) (h1 : Over A b) : Over A (orVal a b) := by
  unfold orVal
  over

@[over_rule] theorem over_vlanIface (hA : Wide A env) {d : VDict} (h0 : Over A d) : Over A (vlanIface env d) := by
  unfold vlanIface
  dsimp only
  over

@[over_rule] theorem over_specific (hA : Wide A env) {d : VDict} (h0 : Over A d) : Over A (specific env d) := by
  unfold specific
  dsimp only
  over

end NJ
