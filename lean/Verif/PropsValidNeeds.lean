import Verif.PropsValid
import Verif.PropsConv

/-!
# C66: nothing in `Tame` can be left out

For every clause a configuration that `validate` accepts and `render` fails on with an internal error.
-/

namespace NJ

/-! ## The clauses can be decided -/

instance {d : VDict} {k : String} {P : Val → Prop} [DecidablePred P] : Decidable (Opt d k P) :=
  match h : Dict.get? d k with
  | none => isTrue fun v hv => by rw [h] at hv; cases hv
  | some v => if hp : P v then isTrue fun w hw => by rw [h] at hw; cases hw; exact hp
    else isFalse fun hall => hp (hall v h)

instance : DecidablePred IsTxt
  | .str s => isTrue ⟨s, rfl⟩
  | .none => isFalse fun ⟨_, h⟩ => nomatch h
  | .bool _ => isFalse fun ⟨_, h⟩ => nomatch h
  | .int _ => isFalse fun ⟨_, h⟩ => nomatch h
  | .list _ => isFalse fun ⟨_, h⟩ => nomatch h
  | .dict _ => isFalse fun ⟨_, h⟩ => nomatch h

/-- said of the value if it is an object -/
def IfObj (P : VDict → Prop) (v : Val) : Prop := match v with
  | .dict d => P d
  | _ => True

/-- said of the value if it is a list of objects -/
def IfObjs (P : VDict → Prop) (v : Val) : Prop := match v with
  | .list l => ∀ x ∈ l, IfObj P x
  | _ => True

instance {P : VDict → Prop} [DecidablePred P] : DecidablePred (IfObj P) := fun v => by
  unfold IfObj
  cases v <;> infer_instance

instance {P : VDict → Prop} [DecidablePred P] : DecidablePred (IfObjs P) := fun v => by
  unfold IfObjs
  cases v <;> infer_instance

instance {d : VDict} {k : String} {P : VDict → Prop} [DecidablePred P] : Decidable (Each d k P) :=
  decidable_of_iff (Opt d k (IfObjs P)) ⟨fun h _ _ hl hx => h _ hl _ hx, fun h v hv => by
    unfold IfObjs
    split
    · intro x hx
      unfold IfObj
      split
      · exact h _ _ hv hx
      · trivial
    · trivial⟩

instance {d : VDict} {k : String} {P : VDict → Prop} [DecidablePred P] : Decidable (Inside d k P) :=
  decidable_of_iff (Opt d k (IfObj P)) ⟨fun h _ hx => h _ hx, fun h v hv => by
    unfold IfObj
    split
    · exact h _ hv
    · trivial⟩

instance decInt {o : Option Val} {P : Int → Prop} [DecidablePred P] : Decidable (∀ n, o = some (.int n) → P n) :=
  match o with
  | some (.int n) => if h : P n then isTrue fun m e => by cases e; exact h else isFalse fun hall => h (hall n rfl)
  | none => isTrue (fun _ e => nomatch e)
  | some .none => isTrue (fun _ e => nomatch e)
  | some (.bool _) => isTrue (fun _ e => nomatch e)
  | some (.str _) => isTrue (fun _ e => nomatch e)
  | some (.list _) => isTrue (fun _ e => nomatch e)
  | some (.dict _) => isTrue (fun _ e => nomatch e)

instance decStr {o : Option Val} {P : String → Prop} [DecidablePred P] : Decidable (∀ s, o = some (.str s) → P s) :=
  match o with
  | some (.str n) => if h : P n then isTrue fun m e => by cases e; exact h else isFalse fun hall => h (hall n rfl)
  | none => isTrue (fun _ e => nomatch e)
  | some .none => isTrue (fun _ e => nomatch e)
  | some (.bool _) => isTrue (fun _ e => nomatch e)
  | some (.int _) => isTrue (fun _ e => nomatch e)
  | some (.list _) => isTrue (fun _ e => nomatch e)
  | some (.dict _) => isTrue (fun _ e => nomatch e)

instance : DecidablePred EncTame := fun e => decidable_of_iff (Dict.has e ".name" = false ∧ Dict.has e "network" = false)
  ⟨fun h => ⟨h.1, h.2⟩, fun h => ⟨h.1, h.2⟩⟩

instance : DecidablePred WifiTame := fun w => decidable_of_iff (Opt w "id" IsTxt ∧
    (Dict.get? w "mode" = some (.str "monitor") → Dict.has w "encryption" = false) ∧ Inside w "encryption" EncTame)
  ⟨fun h => ⟨h.1, h.2.1, h.2.2⟩, fun h => ⟨h.1, h.2, h.3⟩⟩

instance : DecidablePred AddrTame := fun a => decidable_of_iff
    ((Dict.get? a "family" = some (.str "ipv4") → ∀ n, Dict.get? a "mask" = some (.int n) → n ≤ 32) ∧ Dict.has a "ipaddr" = false ∧
      Dict.has a "ip6addr" = false ∧ Dict.has a ".name" = false)
  ⟨fun h => ⟨h.1, h.2.1, h.2.2.1, h.2.2.2⟩, fun h => ⟨h.1, h.2, h.3, h.4⟩⟩

instance : DecidablePred IfaceTame := fun d => decidable_of_iff
    ((Dict.get? d "type" = some (.str "wireguard") → Dict.has d "addresses" = true) ∧
     (∀ t, Dict.get? d "type" = some (.str t) → t = "modem-manager" ∨ t = "vxlan" → Dict.has d "addresses" = false) ∧
     (Dict.get? d "type" ≠ some (.str "wireguard") → Each d "addresses" AddrTame) ∧
     (Dict.has d "vlan_filtering" = true → Dict.get? d "type" = some (.str "bridge")) ∧
     Each d "vlan_filtering" (fun x => Dict.has x "vlan" = true) ∧
     (Dict.get? d "type" = some (.str "bridge") → ∀ s, Dict.get? d "name" = some (.str s) → '.' ∉ s.toList) ∧
     (Dict.has d "wireless" = true → Dict.get? d "type" = some (.str "wireless")) ∧ Inside d "wireless" WifiTame)
  ⟨fun ⟨a, b, c, d, e, f, g, h⟩ => ⟨a, b, c, d, e, f, g, h⟩, fun ⟨a, b, c, d, e, f, g, h⟩ => ⟨a, b, c, d, e, f, g, h⟩⟩

theorem custom_iff {config : VDict} {P : VDict → Prop} :
    (∀ p ∈ config, p.1 ∉ knownKeys → Each config p.1 P) ↔ ∀ k, k ∉ knownKeys → Each config k P :=
  ⟨fun h k hk l x hl hx => h (k, .list l) (Dict.mem_of_get? hl) hk l x hl hx, fun h p _ hk => h p.1 hk⟩

instance {ip6 : Ip6} : DecidablePred (Tame ip6) := fun config => decidable_of_iff
    (Inside config "general" (fun d => Opt d "id" IsTxt ∧ Opt d "globals_id" IsTxt) ∧
     Inside config "ntp" (fun d => Opt d "id" IsTxt) ∧
     Each config "led" (fun d => Opt d "id" IsTxt) ∧
     Each config "switch" (fun d => Opt d "id" IsTxt ∧ Each d "vlan" fun v => Opt v "id" IsTxt) ∧
     Each config "routes" (fun d => Opt d "name" IsTxt) ∧
     Each config "ip_rules" (fun d => Opt d "name" IsTxt) ∧
     Each config "routes" (fun d => ∀ s, Dict.get? d "destination" = some (.str s) → (ipInterface ip6 s.toList).isSome = true) ∧
     Each config "interfaces" IfaceTame ∧
     Each config "openvpn" (fun d => Dict.get? d "mode" = some (.str "server") → Dict.has d "remote" = false) ∧
     ∀ p ∈ config, p.1 ∉ knownKeys → Each config p.1 fun d => Dict.has d "config_name" = true → Opt d "config_value" IsTxt)
  ⟨fun ⟨a, b, c, d, e, f, g, h, i, j⟩ => ⟨a, b, c, d, e, f, g, h, i, custom_iff.1 j⟩,
   fun ⟨a, b, c, d, e, f, g, h, i, j⟩ => ⟨a, b, c, d, e, f, g, h, i, custom_iff.2 j⟩⟩

/-! ## What goes wrong without the clauses -/

/-- the environment of the examples, with the real table of time zones -/
def validEnv : Env := { sampleEnv with tz := fun z => Dict.get? timezones z }

/-- the OpenWrt backend of the examples -/
def validClass (dsa : Bool) : Class := openwrtClass validEnv (owValidate validEnv.ip6) (fun _ => false) (fun _ => none) dsa

/-- accepted by `validate`, and `render` raises that error -/
def Surprise (config : VDict) (e : PyErr) : Prop :=
  validate (validClass true) config = .ok () ∧ (render (validClass true) true ⟨config, none⟩).2 = .error e

instance {config : VDict} {e : PyErr} : Decidable (Surprise config e) := inferInstanceAs (Decidable (_ ∧ _))

private def o (l : VDict) : Val := .dict l
private def l (l : List Val) : Val := .list l
private def s (x : String) : Val := .str x
private def eth (more : VDict) : Val := o ([("name", s "eth0"), ("type", s "ethernet")] ++ more)
private def addr (more : VDict) : Val :=
  o ([("proto", s "static"), ("family", s "ipv4"), ("address", s "10.0.0.1"), ("mask", .int 24)] ++ more)
private def wifi (more enc : VDict) : Val :=
  o [("name", s "wlan0"), ("type", s "wireless"), ("wireless", o ([("radio", s "radio0"), ("mode", s "access_point"), ("ssid", s "MyNet")] ++ more ++ enc))]

/-- a name of the `system` section that is an object -/
theorem C66_needs_general_id : Surprise
    [("general", o [("id", o [("x", .int 1)])]), ("ntp", o [("enabled", .bool true)])] .typeError := by
  decide +kernel

/-- a name of the `globals` section that is an object -/
theorem C66_needs_globals_id : Surprise
    [("general", o [("ula_prefix", s "fd8e:f40a:6701::/48"), ("globals_id", o [("x", .int 1)])]), ("interfaces", l [eth []])] .typeError := by
  decide +kernel

/-- a name of the `timeserver` section that is an object -/
theorem C66_needs_ntp_id : Surprise
    [("general", o [("hostname", s "router")]), ("ntp", o [("enabled", .bool true), ("id", o [("x", .int 1)])])] .typeError := by
  decide +kernel

/-- a name of a LED section that is an object -/
theorem C66_needs_led_id : Surprise
    [("general", o [("hostname", s "router")]), ("led", l [o [("name", s "a"), ("sysfs", s "b"), ("trigger", s "none"), ("id", o [("x", .int 1)])]])] .typeError := by
  decide +kernel

/-- a name of a route that is an object -/
theorem C66_needs_route_name : Surprise
    [("interfaces", l [eth []]), ("routes", l [o [("device", s "eth0"), ("destination", s "10.0.0.0/8"), ("next", s "10.0.0.1"), ("cost", .int 0), ("name", o [("x", .int 1)])]])] .typeError := by
  decide +kernel

/-- a name of a rule that is an object -/
theorem C66_needs_rule_name : Surprise
    [("interfaces", l [eth []]), ("ip_rules", l [o [("in", s "eth0"), ("name", o [("x", .int 1)])]])] .typeError := by
  decide +kernel

/-- a name of a switch that is an object -/
theorem C66_needs_switch_id : Surprise
    [("interfaces", l [eth []]), ("switch", l [o [("name", s "switch0"), ("reset", .bool true), ("enable_vlan", .bool true), ("id", o [("x", .int 1)]), ("vlan", l [])]])] .typeError := by
  decide +kernel

/-- a name of a VLAN of a switch that is an object -/
theorem C66_needs_switch_vlan_id : Surprise
    [("interfaces", l [eth []]), ("switch", l [o [("name", s "switch0"), ("reset", .bool true), ("enable_vlan", .bool true), ("vlan", l [o [("device", s "switch0"), ("vlan", .int 1), ("ports", s "0t 2"), ("id", o [("x", .int 1)])]])]])] .typeError := by
  decide +kernel

/-- a destination that is not a network: the schema accepts any text -/
theorem C66_needs_destination : Surprise
    [("routes", l [o [("device", s "eth0"), ("destination", s "wrong"), ("next", s "10.0.0.1"), ("cost", .int 0)]])] .valueError := by
  decide +kernel

/-- a custom package whose `config_value` is a number -/
theorem C66_needs_custom : Surprise
    [("mypkg", l [o [("config_name", s "x"), ("config_value", .int 1)]])] .attributeError := by
  decide +kernel

/-- an OpenVPN server with a remote: the schema only describes remotes of clients -/
theorem C66_needs_openvpn : Surprise
    [("openvpn", l [o [("name", s "ab"), ("mode", s "server"), ("proto", s "udp"), ("dev", s "tun0"), ("dev_type", s "tun"), ("ca", s "ca.pem"), ("cert", s "c.pem"), ("key", s "k.pem"), ("dh", s "dh.pem"), ("tls_server", .bool true), ("remote", l [o []])]])] .keyError := by
  decide +kernel

/-- a WireGuard interface without addresses -/
theorem C66_needs_wireguard : Surprise
    [("interfaces", l [o [("name", s "wg0"), ("type", s "wireguard"), ("private_key", s "QFdbnuYr7rrF4eONCAs7FhZwP7BXX/jD/jq2LXCpaXI="), ("port", .int 40840)]])] .keyError := by
  decide +kernel

/-- a modem with addresses: the schema does not describe them -/
theorem C66_needs_modem : Surprise
    [("interfaces", l [o [("name", s "wwan0"), ("type", s "modem-manager"), ("apn", s "a.b"), ("pin", s "1234"), ("device", s "/sys/x"), ("addresses", l [o []])]])] .keyError := by
  decide +kernel

/-- a VXLAN interface with addresses: the schema does not describe them -/
theorem C66_needs_vxlan : Surprise
    [("interfaces", l [o [("name", s "vx0"), ("type", s "vxlan"), ("vtep", s "10.0.0.1"), ("vni", .int 1), ("port", .int 4789), ("tunlink", s "a"), ("addresses", l [o []])]])] .keyError := by
  decide +kernel

/-- a mask of 33 bits: the schema says `maxmium` -/
theorem C66_needs_mask : Surprise
    [("interfaces", l [eth [("addresses", l [o [("proto", s "static"), ("family", s "ipv4"), ("address", s "10.0.0.1"), ("mask", .int 33)]])]])] .valueError := by
  decide +kernel

/-- an address object with a property `ipaddr` -/
theorem C66_needs_ipaddr : Surprise
    [("interfaces", l [eth [("addresses", l [addr [("ipaddr", .int 1)]])]])] .typeError := by
  decide +kernel

/-- an address object with a property `ip6addr` -/
theorem C66_needs_ip6addr : Surprise
    [("interfaces", l [eth [("addresses", l [addr [("ip6addr", .int 1)]])]])] .typeError := by
  decide +kernel

/-- an address object with a property `.name` -/
theorem C66_needs_address_name : Surprise
    [("interfaces", l [eth [("addresses", l [o [("proto", s "dhcp"), ("family", s "ipv4"), (".name", o [("x", .int 1)])]])], o [("name", s "eth1"), ("type", s "ethernet")]])] .typeError := by
  decide +kernel

/-- VLAN filtering of an interface that is no bridge -/
theorem C66_needs_filtering : Surprise
    [("interfaces", l [eth [("vlan_filtering", l [o []])]])] .keyError := by
  decide +kernel

/-- VLAN filtering without VLAN number -/
theorem C66_needs_vlan : Surprise
    [("interfaces", l [o [("name", s "br0"), ("type", s "bridge"), ("bridge_members", l [s "eth0"]), ("vlan_filtering", l [o []])]])] .keyError := by
  decide +kernel

/-- a bridge named like a VLAN device of a bridge before it -/
theorem C66_needs_bridge : Surprise
    [("interfaces", l [o [("name", s "br0"), ("type", s "bridge"), ("bridge_members", l [s "eth0"]), ("vlan_filtering", l [o [("vlan", .int 1), ("ports", l [])]])], o [("name", s "br-br0.1"), ("type", s "bridge"), ("bridge_members", l [])]])] .keyError := by
  decide +kernel

/-- Wi-Fi settings of a wired interface -/
theorem C66_needs_wifi : Surprise
    [("interfaces", l [eth [("wireless", o [])]])] .keyError := by
  decide +kernel

/-- encryption in monitor mode -/
theorem C66_needs_monitor : Surprise
    [("interfaces", l [o [("name", s "wlan0"), ("type", s "wireless"), ("wireless", o [("radio", s "radio0"), ("mode", s "monitor"), ("encryption", o [("x", .int 1)])])]])] .keyError := by
  decide +kernel

/-- a name of a Wi-Fi section that is an object -/
theorem C66_needs_wifi_id : Surprise
    [("radios", l [o [("name", s "radio0"), ("phy", s "phy0"), ("driver", s "mac80211"), ("protocol", s "802.11n"), ("channel", .int 3), ("channel_width", .int 20)]]), ("interfaces", l [wifi [("id", o [("x", .int 1)])] []])] .typeError := by
  decide +kernel

/-- an encryption with a property `.name` -/
theorem C66_needs_encryption_name : Surprise
    [("radios", l [o [("name", s "radio0"), ("phy", s "phy0"), ("driver", s "mac80211"), ("protocol", s "802.11n"), ("channel", .int 3), ("channel_width", .int 20)]]), ("interfaces", l [wifi [] [("encryption", o [("protocol", s "wpa2_personal"), ("key", s "12345678"), (".name", o [("x", .int 1)])])]])] .typeError := by
  decide +kernel

/-- an encryption with a property `network` -/
theorem C66_needs_encryption_network : Surprise
    [("interfaces", l [wifi [] [("encryption", o [("protocol", s "wpa2_personal"), ("key", s "12345678"), ("network", .int 1)])]])] .typeError := by
  decide +kernel

end NJ
