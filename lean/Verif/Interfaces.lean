import Verif.Wireless
import Verif.OpenVpn

/-!
# Network interfaces, NetJSON to UCI (openwrt/converters/interfaces.py l.1-502)

Simplifications: interfaces, addresses, VLANs and ports are dictionaries and their lists are lists (the schema asks for it; anything
else is a `TypeError` or `AttributeError` in the model); a single address has no option called `ipaddr` or `ip6addr` that is a text of
one character.
-/

namespace NJ

/-! ## Addresses -/

/-- `"{address}/{mask}".format(**address)` -/
def addressText (env : Env) (a : VDict) : Except PyErr Val := do
  let ad ← getKey a "address"
  let m ← getKey a "mask"
  pure (.str (pyStr env.reprC ad ++ "/" ++ pyStr env.reprC m))

/-- l.256-263 `__intermediate_address` -/
def addressRest (a : VDict) : VDict := ["address", "mask", "family", "gateway"].foldl Dict.erase a

/-- l.147-148: `static.setdefault(key, []); static[key].append(value)` -/
def pushTo (d : VDict) (k : String) (v : Val) : Except PyErr VDict :=
  match Dict.get? d k with
  | none => .ok (Dict.set d k (.list [v]))
  | some (.list l) => .ok (Dict.set d k (.list (l ++ [v])))
  | some _ => .error .attributeError

/-- what l.131-149 gathers: the interface, the static section, the DHCP sections -/
structure AddrAcc where
  interface : VDict
  static : VDict
  dhcp : List VDict

/-- l.143-145 -/
def gatewayStep (v4 : Bool) (a interface : VDict) : VDict :=
  match Dict.get? a "gateway" with
  | some g => Dict.set interface (if v4 then "gateway" else "ip6gw") g
  | none => interface

/-- l.136-149: one address -/
def addressStep (env : Env) (acc : AddrAcc) (v : Val) : Except PyErr AddrAcc := do
  let a ← asDict v
  let proto ← getKey a "proto"
  let v4 := decide (Dict.get? a "family" = some (.str "ipv4"))
  if proto = .str "dhcp" then
    pure { acc with dhcp := acc.dhcp ++ [addressRest (Dict.set a "proto" (.str (if v4 then "dhcp" else "dhcpv6")))] }
  else do
    let t ← addressText env a
    let s ← pushTo acc.static (if v4 then "ipaddr" else "ip6addr") t
    pure ⟨gatewayStep v4 a acc.interface, Dict.update s (addressRest a), acc.dhcp⟩

/-- the netmask of a network -/
def netmaskText (env : Env) (i : IpIf) : Chars :=
  showIp env.ip6 i.v6 (if i.v6 then 2 ^ 128 - 2 ^ (128 - i.plen) else mask4 i.plen)

/-- l.158-161 -/
def singleIpv4 (env : Env) (uci : VDict) : Except PyErr VDict :=
  match (Dict.get? uci "ipaddr").getD (.list []) with
  | .list [v] => do
    let i ← ipInterfaceV env v
    pure (Dict.set (Dict.set uci "ipaddr" (txt (showIp env.ip6 i.v6 i.addr))) "netmask" (txt (netmaskText env i)))
  | .list _ => .ok uci
  | .str _ => .ok uci
  | _ => .error .typeError

/-- l.164-165 -/
def singleIpv6 (uci : VDict) : Except PyErr VDict :=
  match (Dict.get? uci "ip6addr").getD (.list []) with
  | .list [v] => .ok (Dict.set uci "ip6addr" v)
  | .list _ => .ok uci
  | .str _ => .ok uci
  | _ => .error .typeError

/-- l.155-166 `__intermediate_static_address` -/
def staticAddress (env : Env) (uci : VDict) : Except PyErr VDict := do
  let u ← singleIpv4 env uci
  singleIpv6 u

/-- l.172-175: one address of a WireGuard interface -/
def wgAddress (env : Env) (v : Val) : Except PyErr Val := do
  let d ← asDict v
  let a ← getKey d "address"
  pure (match Dict.get? d "mask" with
    | some m => .str (pyStr env.reprC a ++ "/" ++ pyStr env.reprC m)
    | none => a)

/-- l.168-177 `__intermediate_wireguard_addresses`: the interface is left without its addresses -/
def wgAddresses (env : Env) (interface : VDict) : Except PyErr (VDict × List VDict) := do
  let (v, i) ← popKey interface "addresses"
  match v with
  | .list l => do
    let l ← l.mapM (wgAddress env)
    pure (i, [[("addresses", .list l), ("proto", .str "wireguard")]])
  | _ => .error .typeError

/-- l.150-152 -/
def staticSection (env : Env) (s : VDict) : Except PyErr (List VDict) :=
  if s.isEmpty then .ok [] else do
    let s ← staticAddress env s
    pure [s]

/-- l.116-153 `__intermediate_addresses`: the interface, maybe with gateways, and the addresses of its sections -/
def ifaceAddresses (env : Env) (interface : VDict) : Except PyErr (VDict × List VDict) :=
  if Dict.get? interface "type" = some (.str "wireguard") then wgAddresses env interface
  else
    let v := (Dict.get? interface "addresses").getD .none
    if v.truthy then
      match v with
      | .list l => do
        let acc ← l.foldlM (addressStep env) ⟨interface, [], []⟩
        let s ← staticSection env acc.static
        pure (acc.interface, s ++ acc.dhcp)
      | _ => .error .typeError
    else do
      let t ← getKey interface "type"
      pure (interface, if t = .str "wireless" then [] else [[("proto", .str "none")]])

/-! ## The interface -/

/-- l.186-192 -/
def macStep (d : VDict) : VDict :=
  match Dict.get? d "mac" with
  | some m => Dict.erase (if Dict.get? d "type" = some (.str "wireless") then d else Dict.set d "macaddr" m) "mac"
  | none => d

/-- l.193-195 -/
def autoStep (d : VDict) : VDict :=
  match Dict.get? d "autostart" with
  | some v => Dict.erase (Dict.set d "auto" v) "autostart"
  | none => d

/-- l.196-198 -/
def enabledStep (d : VDict) : VDict :=
  match Dict.get? d "disabled" with
  | some v => Dict.erase (Dict.set d "enabled" (.bool (!v.truthy))) "disabled"
  | none => d

/-- l.224-227 `_intermediate_modem_manager` -/
def modemManager (d : VDict) : VDict :=
  let (pin, d) := popOr (Dict.set d "proto" (.str "modemmanager")) "pin" .none
  Dict.set d "pincode" pin

/-- l.229-233 `_intermediate_wireguard` -/
def wireguardIface (d : VDict) : VDict :=
  let (port, d) := popOr (Dict.set d "proto" (.str "wireguard")) "port" .none
  Dict.erase (Dict.set d "listen_port" port) "ifname"

/-- l.235-239 `_intermediate_vxlan` -/
def vxlanIface (d : VDict) : Except PyErr VDict := do
  let (vtep, d) ← popKey (Dict.set d "proto" (.str "vxlan")) "vtep"
  let (vni, d) ← popKey (Dict.set d "peeraddr" vtep) "vni"
  pure (Dict.set d "vid" vni)

/-- `a or b` -/
def orVal (a b : Val) : Val := if a.truthy then a else b

/-- l.241-246 `_intermediate_8021_vlan` -/
def vlanIface (env : Env) (d : VDict) : Except PyErr VDict := do
  let ifname ← getKey d "ifname"
  let vid ← getKey d "vid"
  let name ← getKey d ".name"
  let d := Dict.set d "name" (.str (pyStr env.reprC ifname ++ "." ++ pyStr env.reprC vid))
  pure (Dict.set d ".name" (orVal ((Dict.get? d "network").getD .none)
    (.str ("vlan_" ++ pyStr env.reprC name ++ "_" ++ pyStr env.reprC vid))))

/-- l.203-207: the method for the type -/
def specific (env : Env) (d : VDict) : Except PyErr VDict := do
  let t ← getKey d "type"
  let t ← asText t
  let t := uciName t
  if t = "modem_manager".toList then pure (modemManager d)
  else if t = "wireguard".toList then pure (wireguardIface d)
  else if t = "vxlan".toList then vxlanIface d
  else if t = "8021q".toList ∨ t = "8021ad".toList ∨ t = "8021_vlan".toList then vlanIface env d
  else pure d

/-- l.388-403 -/
def l2Options : List String :=
  ["rpfilter", "txqueuelen", "neighreachabletime", "neighgcstaletime", "neighlocktime", "igmpversion", "mldversion", "promisc",
   "acceptlocal", "sendredirects", "multicast", "mtu", "mtu6", "dadtransmits"]

/-- `if option in interface: device[option] = interface.pop(option)` -/
def moveOption (p : VDict × VDict) (k : String) : VDict × VDict :=
  match Dict.get? p.2 k with
  | some v => (Dict.set p.1 k v, Dict.erase p.2 k)
  | none => p

/-- l.387-408 `_add_l2_options`: device and interface -/
def addL2 (device interface : VDict) : VDict × VDict :=
  let p := l2Options.foldl moveOption (device, interface)
  if ((Dict.get? p.2 "macaddr").getD .none).truthy then moveOption p "macaddr" else p

/-- l.213-222 `_check_bridge_vlan`; `vlans` are the devices of the VLANs of the bridges seen so far -/
def checkBridgeVlan (dsa : Bool) (vlans : List Val) (d : VDict) : Except PyErr VDict :=
  if dsa then
    match (Dict.get? d "ifname").getD (.str "") with
    | .str s =>
      if '.' ∈ s.toList ∧ Val.str s ∈ vlans then
        .ok (Dict.set (Dict.erase (addL2 [] d).2 "ifname") "device" (.str s))
      else .ok d
    | _ => .error .typeError
  else .ok d

/-- l.179-211 `__intermediate_interface` -/
def ifaceBlock (env : Env) (dsa : Bool) (vlans : List Val) (uci : Chars) (interface : VDict) : Except PyErr VDict := do
  let d := Dict.update interface [(".type", .str "interface"), (".name", txt uci)]
  let (name, d) ← popKey d "name"
  let d := Dict.set d "ifname" name
  let d := enabledStep (autoStep (macStep d))
  let d := Dict.erase (Dict.erase d "wireless") "addresses"
  let d ← specific env d
  let d ← checkBridgeVlan dsa vlans d
  pure (Dict.erase d "network")

/-- l.35-42 -/
def dsaTypes : List Val := [.str "loopback", .str "ethernet", .str "bridge", .str "wireless", .str "8021q", .str "8021ad"]

/-- l.49-60 `__set_dsa_interface` -/
def isDsa (dsa : Bool) (vlans : List Val) (d : VDict) : Bool :=
  dsa && decide ((Dict.get? d "proto").getD .none ≠ .str "ppp") && decide ((Dict.get? d "type").getD .none ∈ dsaTypes) &&
    decide ((Dict.get? d "ifname").getD ((Dict.get? d "device").getD .none) ∉ vlans)

/-! ## Devices -/

def stpOptions : List String := ["stp", "forward_delay", "hello_time", "priority", "ageing_time", "max_age"]

def igmpOptions : List String :=
  ["igmp_snooping", "multicast_querier", "query_interval", "query_response_interval", "last_member_interval", "hash_max", "robustness"]

def allOptions : List String := ["vlan_filtering", "macaddr", "mtu"]

/-- `str.lstrip(characters)` -/
def lstripChars (cs s : Chars) : Chars := s.dropWhile (fun c => decide (c ∈ cs))

/-- l.381-383: one of the options, if it is set -/
def addOption (interface dev : VDict) (o : String) : VDict :=
  match Dict.get? interface o with
  | some v => if v.truthy then Dict.set dev o v else dev
  | none => dev

/-- l.378-384 `_add_options` -/
def addOptions (property : String) (options : List String) (device interface : VDict) : VDict :=
  if ((Dict.get? interface property).getD .none).truthy then
    options.foldl (addOption interface) (Dict.set device property (.bool true))
  else device

/-- l.318-331: the options of a VLAN device -/
def vlanDevice (device interface : VDict) : Except PyErr (VDict × VDict) := do
  let type ← getKey interface "type"
  let (vid, i) ← popKey interface "vid"
  let (name, i) ← popKey i "name"
  let dname ← getKey i ".name"
  let dname ← asText dname
  let (ifname, i) ← popKey i "ifname"
  let (ingress, i) := popOr i "ingress_qos_mapping" (.list [])
  let (egress, i) := popOr i "egress_qos_mapping" (.list [])
  let device := Dict.update device [("type", type), ("vid", vid), ("name", name),
    (".name", txt ("device_".toList ++ lstripChars "vlan_".toList dname)), ("ifname", ifname), ("ingress_qos_mapping", ingress),
    ("egress_qos_mapping", egress)]
  pure (device, Dict.set i "device" name)

/-- l.337-376: the device of a bridge -/
def bridgeDevice (device interface : VDict) : Except PyErr (VDict × VDict) := do
  let ifname ← getKey interface "ifname"
  let ifname ← asText ifname
  let ifname := if "br-".toList <+: ifname then ifname else "br-".toList ++ ifname
  let i := Dict.set (Dict.set interface "ifname" (txt ifname)) "device" (txt ifname)
  let device := Dict.set (Dict.set device "type" (.str "bridge")) "name" (txt ifname)
  let device := addOptions "stp" stpOptions device i
  let device := addOptions "igmp_snooping" igmpOptions device i
  let (device, i) := (allOptions ++ stpOptions ++ igmpOptions).foldl moveOption (device, i)
  let ports := (Dict.get? i "bridge_members").getD (.list [])
  pure (sortedDict (if ports = .list [] then Dict.erase (Dict.set device "bridge_empty" (.bool true)) "ports" else Dict.set device "ports" ports), i)

/-- l.299-376 `__intermediate_device`: the device, empty when not needed, and the interface -/
def ifaceDevice (env : Env) (interface : VDict) : Except PyErr (VDict × VDict) := do
  let (l2, i) := addL2 [] interface
  let name ← getKey i ".name"
  let ifname ← getKey i "ifname"
  let base : VDict := [(".type", .str "device"), (".name", .str ("device_" ++ pyStr env.reprC name)), ("name", ifname)]
  let device := Dict.update l2 base
  let i := if ((Dict.get? i "device").getD .none).truthy then i else Dict.set i "device" ifname
  let type ← getKey i "type"
  let type ← asText type
  let (device, i) ← (if "8021".toList <+: type then vlanDevice device i else pure (device, i))
  if type ≠ "bridge".toList then
    pure (if l2.isEmpty ∧ ¬ "8021".toList <+: type then [] else device, i)
  else bridgeDevice device i

/-- l.283-293: one port of a VLAN -/
def portText (env : Env) (v : Val) : Except PyErr Val := do
  let p ← asDict v
  let ifname ← getKey p "ifname"
  let tagging := (Dict.get? p "tagging").getD .none
  pure (.str (pyStr env.reprC ifname ++ (if tagging.truthy then ":" ++ pyStr env.reprC tagging else "") ++
    (if ((Dict.get? p "primary_vid").getD .none).truthy then "*" else "")))

/-- l.281-294 -/
def vlanPorts (env : Env) (vlan d : VDict) : Except PyErr VDict :=
  match Dict.get? vlan "ports" with
  | none => .ok d
  | some (.list l) => do
    let ps ← l.mapM (portText env)
    pure (Dict.set d "ports" (.list ps))
  | some _ => .error .typeError

/-- l.265-297 `__intermediate_vlan`: the two sections of a VLAN, and its device -/
def vlanSections (env : Env) (uci : Chars) (interface : VDict) (v : Val) : Except PyErr (VDict × VDict × Val) := do
  let vlan ← asDict v
  let vid ← getKey vlan "vlan"
  let ifname ← getKey interface "ifname"
  let name := String.ofList uci ++ "_" ++ pyStr env.reprC vid
  let device := Val.str (pyStr env.reprC ifname ++ "." ++ pyStr env.reprC vid)
  let d : VDict := [(".type", .str "bridge-vlan"), (".name", .str ("vlan_" ++ name)), ("vlan", vid), ("device", ifname)]
  let i : VDict := [(".type", .str "interface"), (".name", .str name), ("device", device), ("proto", .str "none")]
  let d ← vlanPorts env vlan d
  pure (sortedDict d, sortedDict i, device)

/-! ## Sections -/

/-- `" ".join(l)` -/
def blankJoin : Val → Except PyErr Val
  | .list l => do
    let ts ← l.mapM textItem
    pure (txt (joinWith [' '] ts))
  | .str s => .ok (txt (joinWith [' '] (s.toList.map (fun c => [c]))))
  | .dict d => .ok (txt (joinWith [' '] (d.map (fun p => p.1.toList))))
  | _ => .error .typeError

/-- l.483-488, l.497-502: the value of a list of the configuration -/
def joinedOf (config : VDict) (k : String) : Except PyErr Val :=
  let v := (Dict.get? config k).getD .none
  if v.truthy then blankJoin v else .ok .none

/-- l.476-502 `__intermediate_dns_servers`, `__intermediate_dns_search` -/
def dnsValue (config : VDict) (own key : String) (ignored : List Val) (uci : VDict) (proto : Val) : Except PyErr Val :=
  match Dict.get? uci own with
  | some v => .ok v
  | none => if proto ∈ ignored then .ok .none else joinedOf config key

/-- l.410-423 `__clean_intermediate_bridge` -/
def cleanBridge (isdsa : Bool) (d : VDict) : VDict :=
  if isdsa then (["ifname", "type", "bridge_members"] ++ stpOptions ++ igmpOptions ++ allOptions).foldl Dict.erase d else d

/-- l.431-442: the first section of a bridge -/
def firstBridge (isdsa : Bool) (d : VDict) : Except PyErr VDict := do
  let (members, d) ← popKey d "bridge_members"
  let members ← blankJoin members
  if isdsa then do
    let ifname ← getKey d "ifname"
    pure (Dict.set d "device" ifname)
  else if members.truthy then pure (Dict.set d "ifname" members)
  else do
    let (_, d) ← popKey (Dict.set d "bridge_empty" (.bool true)) "ifname"
    pure d

/-- l.445-460: the other sections of a bridge -/
def nextBridge (d : VDict) : Except PyErr VDict := do
  let ifname ← getKey d "ifname"
  let t ← asText ifname
  let d := if "br-".toList <:+: t then d else Dict.set d "ifname" (txt ("br-".toList ++ t))
  pure ((["type", "bridge_members", "gateway"] ++ stpOptions ++ igmpOptions).foldl Dict.erase d)

/-- l.425-462 `__intermediate_bridge` -/
def bridgeSection (isdsa : Bool) (i : Nat) (d : VDict) : Except PyErr VDict := do
  let t ← getKey d "type"
  let d ← (if t = .str "bridge" then (if i < 2 then firstBridge isdsa d else nextBridge d) else pure (Dict.erase d "type"))
  pure (cleanBridge isdsa d)

/-- l.84-103: the section of one address -/
def ifaceSection (config : VDict) (isdsa : Bool) (uci : Chars) (interface : VDict) (i : Nat) (address : VDict) : Except PyErr VDict := do
  let d := if i > 1 then Dict.set interface ".name" (txt (uci ++ '_' :: showNat i)) else interface
  let proto ← getKey address "proto"
  let dns ← dnsValue config "dns" "dns_servers" [.str "dhcp", .str "dhcpv6", .str "none"] d proto
  let search ← dnsValue config "dns_search" "dns_search" [.str "none"] d proto
  let own := (Dict.get? d "proto").getD proto
  let d := Dict.update (Dict.erase d "proto") [("dns", dns), ("dns_search", search), ("proto", own)]
  let d ← bridgeSection isdsa i d
  pure (sortedDict (Dict.update d (Dict.erase address "proto")))

/-- l.104-112: the blocks so far, with one more section -/
def addSection (sh : Val → Bool) (result : VDict) (b : VDict) : Except PyErr VDict :=
  match (Dict.get? result "network").getD (.list []) with
  | .list l => do
    let l ← mergeList sh [".name", ".type"] l [.dict b]
    pure (Dict.set result "network" (.list l))
  | _ => .error .typeError

/-- l.82-113: the sections of the addresses, numbered from `i` -/
def addSections (sh : Val → Bool) (config : VDict) (isdsa : Bool) (uci : Chars) (interface : VDict) : Nat → VDict → List VDict → Except PyErr VDict
  | _, result, [] => .ok result
  | i, result, a :: as => do
    let b ← ifaceSection config isdsa uci interface i a
    let r ← addSection sh result b
    addSections sh config isdsa uci interface (i + 1) r as

/-- `result["network"].append(...)`, for what is known to be there -/
def pushNetwork (result : VDict) (bs : List VDict) : Except PyErr VDict :=
  match bs with
  | [] => .ok result
  | bs => match Dict.get? result "network" with
    | some (.list l) => .ok (Dict.set result "network" (.list (l ++ bs.map .dict)))
    | some _ => .error .attributeError
    | none => .error .keyError

/-- `for vlan in vlan_list` -/
def vlanList : Val → Except PyErr (List Val)
  | .list l => .ok l
  | v => if v.truthy then .error .typeError else match v with
    | .str _ => .ok []
    | .dict _ => .ok []
    | _ => .error .typeError

/-- l.67-80: device and VLANs; the interface, the devices of VLANs, the result -/
def dsaSections (env : Env) (vlans : List Val) (uci : Chars) (interface result : VDict) : Except PyErr (VDict × List Val × VDict) := do
  let (v, i) := popOr interface "vlan_filtering" (.list [])
  let i := if v.truthy then Dict.set i "vlan_filtering" (.bool true) else i
  let (device, i) ← ifaceDevice env i
  let result := if device.isEmpty then result else appendTo result "network" [.dict (sortedDict device)]
  let l ← vlanList v
  let vs ← l.mapM (vlanSections env uci i)
  let result ← pushNetwork result (vs.map (fun x => x.1))
  let result ← pushNetwork result (vs.map (fun x => x.2.1))
  pure (i, vlans ++ vs.map (fun x => x.2.2), result)

/-- l.62-114 `to_intermediate_loop`: one interface -/
def ifaceFwd (sh : Val → Bool) (env : Env) (dsa : Bool) (config : VDict) (acc : List Val × VDict) (block : Val) : Except PyErr (List Val × VDict) := do
  let b ← asDict block
  let name ← (let n := (Dict.get? b "network").getD .none
    if n.truthy then pure n else getKey b "name")
  let uci ← asText name
  let uci := uciName uci
  let (b, addresses) ← ifaceAddresses env b
  let i ← ifaceBlock env dsa acc.1 uci b
  let isdsa := isDsa dsa acc.1 i
  let (i, vlans, result) ← (if isdsa then dsaSections env acc.1 uci i acc.2 else pure (i, acc.1, acc.2))
  let result ← addSections sh config isdsa uci i 1 result addresses
  pure (vlans, result)

/-- base/converter.py l.71-86 `to_intermediate` -/
def ifacesRun (sh : Val → Bool) (env : Env) (dsa : Bool) (config : VDict) : Except PyErr VDict := do
  let acc ← (match (Dict.get? config "interfaces").getD .none with
    | .list l => l.foldlM (ifaceFwd sh env dsa config) ([], [])
    | v => ifaceFwd sh env dsa config ([], []) v)
  pure acc.2

def ifacesConv (sh : Val → Bool) (env : Env) (dsa : Bool) : Conv := pureConv "interfaces" (fun config _ => ifacesRun sh env dsa config)

end NJ
