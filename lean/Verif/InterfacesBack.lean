import Verif.Interfaces

/-!
# Network interfaces, UCI to NetJSON (openwrt/converters/interfaces.py l.504-990)

Simplifications: the names of devices are texts or missing; options that are expected to be texts and are lists are a `TypeError` or
`AttributeError`.
-/

namespace NJ

/-- `_device_config`: the devices by name, and what is known so far of the result -/
structure IfState where
  dev : Dict Val VDict
  result : VDict

/-! ## Devices -/

/-- `if option in interface: interface[option] = int(interface.pop(option))` -/
def castIntPop (d : VDict) (k : String) : Except PyErr VDict :=
  match Dict.get? d k with
  | some v => do
    let i ← toInt v
    pure (Dict.set (Dict.erase d k) k i)
  | none => .ok d

/-- l.756-766 -/
def deviceInts : List String :=
  ["txqueuelen", "neighreachabletime", "neighgcstaletime", "neighlocktime", "igmpversion", "mldversion", "mtu", "mtu6", "dadtransmits"]

/-- l.773-778 -/
def deviceBools : List String := ["promisc", "acceptlocal", "sendredirects", "multicast"]

/-- l.779-784 -/
def castBoolPop (d : VDict) (k : String) : VDict :=
  match Dict.get? d k with
  | some v => Dict.set (Dict.erase d k) k (.bool (decide (v = .str "1")))
  | none => d

/-- l.747-787 `__netjson_device` -/
def deviceBack (b : VDict) (st : IfState) : Except PyErr IfState := do
  let (name, d) ← popKey b ".name"
  let name ← asText name
  let d := Dict.set d "network" (txt ((stripPrefix "device_".toList name).getD name))
  let d ← deviceInts.foldlM castIntPop d
  let d := deviceBools.foldl castBoolPop d
  let key := (Dict.get? d "name").getD .none
  pure ⟨Dict.set st.dev key (match Dict.get? st.dev key with
    | some old => Dict.update old d
    | none => d), st.result⟩

/-- l.796-805: one port -/
def portBack (v : Val) : Except PyErr Val := do
  let t ← asText v
  let ifname := txt ((splitOn ':' t).headD [])
  match splitOn ':' t with
  | _ :: (c :: cs) :: _ => pure (.dict [("ifname", ifname), ("tagging", txt [c]), ("primary_vid", .bool (!cs.isEmpty))])
  | _ :: [] :: _ => .error .indexError
  | _ => pure (.dict [("ifname", ifname), ("tagging", .str "u"), ("primary_vid", .bool false)])

/-- `for x in value` -/
def iterate : Val → Except PyErr (List Val)
  | .list l => .ok l
  | .str s => .ok (s.toList.map (fun c => txt [c]))
  | .dict d => .ok (d.map (fun p => .str p.1))
  | _ => .error .typeError

/-- l.789-810 `__netjson_vlan` -/
def vlanBack (vlan dev : VDict) : Except PyErr VDict := do
  let dev := if Dict.get? dev "vlan_filtering" = some (.str "1") then Dict.erase dev "vlan_filtering" else dev
  let vid ← getKey vlan "vlan"
  let vid ← toInt vid
  let ports ← iterate ((Dict.get? vlan "ports").getD (.list []))
  let ports ← ports.mapM portBack
  let v := Val.dict [("vlan", vid), ("ports", .list ports)]
  match Dict.get? dev "vlan_filtering" with
  | none => pure (Dict.set dev "vlan_filtering" (.list [v]))
  | some (.list l) => pure (Dict.set dev "vlan_filtering" (.list (l ++ [v])))
  | some _ => .error .attributeError

/-- l.575-583 `__process_device_block` -/
def deviceBlock (b : VDict) (st : IfState) : Except PyErr IfState :=
  if Dict.get? b "type" = some (.str "bridge-vlan") then do
    let name := (Dict.get? b "device").getD .none
    let dev ← (match Dict.get? st.dev name with
      | some d => pure d
      | none => if name.truthy then pure [] else .error .keyError : Except PyErr VDict)
    let dev ← vlanBack b dev
    pure ⟨Dict.set st.dev name dev, st.result⟩
  else deviceBack b st

/-! ## Interfaces and their devices -/

/-- `device.rpartition(".")[0]`, for a text with a dot -/
def beforeLastDot (s : Chars) : Chars := joinWith ['.'] (splitOn '.' s).dropLast

/-- `device.rpartition(".")[2]`, for a text with a dot -/
def afterLastDot (s : Chars) : Chars := (splitOn '.' s).getLastD []

/-- l.660-665: the name of the device found, with its options -/
def findDevice (dev : Dict Val VDict) (interface : VDict) : Option (Val × VDict) :=
  let device := (Dict.get? interface "device").getD (.str "")
  let name := (Dict.get? interface "name").getD .none
  let found := match Dict.get? dev device with
    | some d => some (device, d)
    | none => (Dict.get? dev name).map (fun d => (name, d))
  match found with
  | some (k, p :: ps) => some (k, p :: ps)
  | found =>
    match device with
    | .str s => if '.' ∈ s.toList then (Dict.get? dev (txt (beforeLastDot s.toList))).map (fun d => (txt (beforeLastDot s.toList), d)) else found
    | _ => found

/-- `vlan["vlan"] == int(vlan_id)` -/
def sameVlan (v : Val) (id : Chars) : Except PyErr Bool :=
  match v with
  | .dict d => do
    let x ← getKey d "vlan"
    match parseInt id with
    | some i => pure (decide (x = .int i))
    | none => .error .valueError
  | _ => .error .typeError

/-- l.713: is there such a VLAN -/
def anyVlan (id : Chars) : List Val → Except PyErr Bool
  | [] => .ok false
  | v :: vs => do
    let b ← sameVlan v id
    if b then pure true else anyVlan id vs

/-- l.705-727 `_handle_bridge_vlan_interface`; `none` when the interface is to be ignored -/
def handleVlan (interface dev : VDict) : Except PyErr (Option VDict) := do
  let ifname ← asText ((Dict.get? interface "ifname").getD (.str ""))
  if '.' ∈ ifname then do
    let vs ← iterate ((Dict.get? dev "vlan_filtering").getD (.list []))
    let b ← anyVlan (afterLastDot ifname) vs
    if b then
      if Dict.get? interface "proto" = some (.str "none") ∧ (Dict.keys interface).all (fun k => k ∈ [".type", ".name", "ifname", "proto"]) ∧
          [".type", ".name", "ifname", "proto"].all (fun k => Dict.has interface k) then pure none
      else pure (some (Dict.set interface ".name" (txt (uciName ifname))))
    else pure (some interface)
  else pure (some interface)

/-- l.684-693: one option of the device of a bridge -/
def bridgeOption (interface : VDict) (p : String × Val) : Except PyErr VDict :=
  if p.1 = "bridge_21" then .ok interface
  else if p.1 = "ports" then do
    let ts ← blankJoin p.2
    pure (Dict.set interface "ifname" ts)
  else .ok (Dict.set interface p.1 p.2)

/-- `if option in device: interface[option] = device[option]` -/
def copyOption (dev interface : VDict) (k : String) : VDict :=
  match Dict.get? dev k with
  | some v => Dict.set interface k v
  | none => interface

/-- l.672-703 `__add_options_from_device_config`: interface and device -/
def addDeviceOptions (interface dev : VDict) : Except PyErr (VDict × VDict) := do
  let is21 := ((Dict.get? dev "bridge_21").getD .none).truthy
  if is21 ∧ (Dict.get? interface "ifname").getD .none ≠ (Dict.get? dev "name").getD .none then do
    let ifname ← getKey interface "ifname"
    let t ← asText ifname
    pure (Dict.set interface ".name" (txt (uciName t)), dev)
  else if ((Dict.get? dev "consumed").getD .none).truthy then pure (interface, dev)
  else do
    let i ← (if is21 then dev.foldlM bridgeOption interface else pure interface)
    let i := (allOptions ++ stpOptions ++ igmpOptions).foldl (copyOption dev) i
    let type ← asText ((Dict.get? dev "type").getD (.str ""))
    let i ← (if "8021".toList <+: type then do
        let name ← getKey dev "name"
        let t ← asText name
        pure (Dict.set i "ifname" (txt (joinWith [] (splitOn '.' t).dropLast)))
      else pure i)
    pure (i, Dict.set dev "consumed" (.bool true))

/-- l.743: `interface["ifname"] = interface.pop("device")` -/
def deviceToIfname (interface : VDict) : Except PyErr VDict := do
  let (d, i) ← popKey interface "device"
  pure (Dict.set i "ifname" d)

/-- l.729-745 `__netjson_dsa_interface` -/
def dsaBack (interface : VDict) (dev : Dict Val VDict) : Except PyErr (Option VDict × Dict Val VDict) :=
  match findDevice dev interface with
  | some (k, p :: ps) => do
    let i ← deviceToIfname interface
    let r ← handleVlan i (p :: ps)
    match r with
    | none => pure (none, dev)
    | some i => do
      let (i, d) ← addDeviceOptions i (p :: ps)
      pure (some i, Dict.set dev k d)
  | _ =>
    if Dict.has interface "device" ∧ Dict.has interface "ifname" = false then do
      let i ← deviceToIfname interface
      pure (some i, dev)
    else pure (some interface, dev)

/-! ## One interface -/

/-- l.838-855 `__netjson_bridge_typecast`, the integers: only a `ValueError` is caught -/
def castIntOrDrop (d : VDict) (k : String) : Except PyErr VDict :=
  match Dict.get? d k with
  | none => .ok d
  | some v => match toInt v with
    | .ok i => .ok (Dict.set d k i)
    | .error .valueError => .ok (Dict.erase d k)
    | .error e => .error e

/-- l.843-853 -/
def bridgeInts : List String :=
  ["forward_delay", "hello_time", "max_age", "priority", "query_interval", "query_response_interval", "last_member_interval",
   "hash_max", "robustness"]

/-- l.832-855 `__netjson_bridge_typecast` -/
def bridgeTypecast (d : VDict) : Except PyErr VDict :=
  bridgeInts.foldlM castIntOrDrop (["stp", "igmp_snooping", "multicast_querier"].foldl castBool d)

/-- l.815-825: a bridge -/
def bridgeBack (deviceName : Val) (d : VDict) : Except PyErr VDict := do
  let name ← getKey d "name"
  let name ← asText name
  let d := Dict.set d "bridge_members" (.list ((words name).map txt))
  let network ← getKey d "network"
  let n ← asText (orVal deviceName network)
  let n := if "br-".toList <+: n then n else "br-".toList ++ n
  let d := Dict.set d "name" (txt (replaceAll "br_".toList [] n))
  let d ← bridgeTypecast d
  let (empty, d) := popOr d "bridge_empty" .none
  pure (if empty = .str "1" then Dict.set d "bridge_members" (.list []) else d)

/-- l.812-830 `__netjson_type`: the type, and the interface -/
def typeBack (d : VDict) : Except PyErr (Val × VDict) := do
  let (deviceName, d) := popOr d "device_name" .none
  let type := (Dict.get? d "type").getD (.str "")
  if type = .str "bridge" then do
    let d ← bridgeBack deviceName d
    pure (.str "bridge", d)
  else do
    let t ← asText type
    if "802".toList <+: t then pure (type, d)
    else do
      let name ← getKey d "name"
      pure (.str (if name ∈ [Val.str "lo", .str "lo0", .str "loopback"] then "loopback" else "ethernet"), d)

/-- l.952-960 `__netjson_parse_ip` -/
def parseIp (env : Env) (v netmask : Val) : Except PyErr (Option Chars) :=
  match v with
  | .str s =>
    let parts := splitOn '/' s.toList
    let ip := if '/' ∈ s.toList then parts.headD [] else s.toList
    let mask := if '/' ∈ s.toList then orVal (txt ((parts.drop 1).headD [])) netmask else netmask
    .ok (if ip ≠ [] ∧ mask.truthy then some (ip ++ '/' :: (pyStr env.reprC mask).toList) else none)
  | _ => .error .typeError

/-- `ip_address(text)` -/
def ipAddress (ip6 : Ip6) (s : Chars) : Option IpIf :=
  if '/' ∈ s then none else ipInterface ip6 s

/-- `address in network` -/
def inNetwork (g i : IpIf) : Bool := decide (g.v6 = i.v6 ∧ ({ i with addr := g.addr } : IpIf).network = i.network)

/-- l.945-949: the gateway, and the interface without it -/
def gatewayBack (env : Env) (i : IpIf) (netjson interface : VDict) : Except PyErr (VDict × VDict) :=
  let key := if i.v6 then "ip6gw" else "gateway"
  match Dict.get? interface key with
  | none => .ok (netjson, interface)
  | some g =>
    if g.truthy then do
      let a ← (match g with
        | .str s => match ipAddress env.ip6 s.toList with
          | some a => pure a
          | none => .error .valueError
        | _ => .error .valueError : Except PyErr IpIf)
      pure (if inNetwork a i then (Dict.set netjson "gateway" g, Dict.erase interface key) else (netjson, interface))
    else .ok (netjson, interface)

/-- l.934-950 `__netjson_address` -/
def addressBack (env : Env) (address : Chars) (interface : VDict) : Except PyErr (VDict × VDict) := do
  let i ← ipInterfaceV env (txt address)
  gatewayBack env i [("address", txt (showIp env.ip6 i.v6 i.addr)), ("mask", .int i.plen), ("proto", .str "static"),
    ("family", .str (if i.v6 then "ipv6" else "ipv4"))] interface

/-- l.885-889 -/
def addressesLoop (env : Env) : List Val → List Val × VDict → Except PyErr (List Val × VDict)
  | [], acc => .ok acc
  | v :: vs, acc => do
    let p ← parseIp env v (.int 32)
    match p with
    | none => addressesLoop env vs acc
    | some a => do
      let (n, i) ← addressBack env a acc.2
      addressesLoop env vs (acc.1 ++ [.dict n], i)

/-- l.872-879: one of the two options -/
def addressOption (env : Env) (k : String) (default : Int) (d : VDict) : Except PyErr (List Val × VDict) := do
  let (v, d) := popOr d k (.list [])
  match v with
  | .list l => pure (l, d)
  | v => do
    let (mask, d) := popOr d "netmask" (.int default)
    let p ← parseIp env v mask
    pure ((match p with
      | some t => [txt t]
      | none => []), d)

/-- l.868-890 `_add_netjson_addresses` (the order in which the options are taken from the interface makes no difference) -/
def addAddresses (env : Env) (d : VDict) (proto : Chars) : Except PyErr VDict := do
  let (v4, d) ← addressOption env "ipaddr" 32 d
  let (v6, d) ← addressOption env "ip6addr" 128 d
  let dhcp : List Val := if "dhcp".toList <+: proto then
    [.dict [("proto", .str "dhcp"), ("family", .str (if proto = "dhcp".toList then "ipv4" else "ipv6"))]] else []
  let (l, d) ← addressesLoop env (v4 ++ v6) (dhcp, d)
  pure (if l.isEmpty then d else Dict.set d "addresses" (.list l))

/-- l.857-866 `__netjson_addresses` -/
def addressesBack (env : Env) (d : VDict) : Except PyErr VDict := do
  let proto ← asText ((Dict.get? d "proto").getD (.str "none"))
  let known := proto ∈ ["static".toList, "dhcp".toList, "dhcpv6".toList, "none".toList]
  let d := if known then Dict.erase d "proto" else d
  if Dict.has d "ipaddr" = false ∧ Dict.has d "ip6addr" = false ∧ proto = "none".toList then pure d
  else addAddresses env (if known then d else Dict.set d "type" (.str "other")) proto

/-- l.973-988: the protocols of dial-up interfaces, and l.892 -/
def dialupProtos : List String :=
  ["dialup", "3g", "6in4", "aiccu", "l2tp", "ncm", "ppp", "pppoa", "pppoe", "pptp", "qmi", "wwan"]

/-- openwrt/schema.py l.451-529 -/
def modemProps : Dict String JType :=
  [("type", .other), ("apn", .other), ("pin", .other), ("device", .other), ("username", .other), ("password", .other),
   ("metric", .integer), ("iptype", .other), ("lowpower", .boolean), ("signalrate", .integer), ("force_link", .boolean), ("loglevel", .other)]

/-- l.898-902 `_netjson_modem_manager` -/
def modemBack (d : VDict) : Except PyErr VDict := do
  let (_, d) ← popKey d "proto"
  let d := Dict.set d "type" (.str "modem-manager")
  let (pin, d) := popOr d "pincode" .none
  typeCast modemProps (Dict.set d "pin" pin)

/-- openwrt/schema.py l.541-661, wireguard/schema.py l.35-42 -/
def wgProps : Dict String JType :=
  [("type", .other), ("private_key", .other), ("port", .integer), ("mtu", .integer), ("nohostroute", .boolean), ("fwmark", .other),
   ("ip6prefix", .other), ("addresses", .other)]

/-- l.912-922: one address -/
def wgAddressBack (env : Env) (v : Val) : Except PyErr Val := do
  let i ← ipInterfaceV env v
  pure (.dict [("address", txt (showIp env.ip6 i.v6 i.addr)), ("mask", .int i.plen), ("proto", .str "static"),
    ("family", .str (if i.v6 then "ipv6" else "ipv4"))])

/-- l.908-923 `_netjson_wireguard` -/
def wireguardBack (env : Env) (d : VDict) : Except PyErr VDict := do
  let (proto, d) := popOr d "proto" .none
  let (port, d) := popOr (Dict.set d "type" proto) "listen_port" .none
  let d := Dict.set d "port" port
  let l ← getKey d "addresses"
  let l ← iterate l
  let l ← l.mapM (wgAddressBack env)
  typeCast wgProps (Dict.set d "addresses" (.list l))

/-- openwrt/schema.py l.673-734 -/
def vxlanProps : Dict String JType :=
  [("type", .other), ("vtep", .other), ("port", .integer), ("vni", .integer), ("tunlink", .other), ("rxcsum", .boolean),
   ("txcsum", .boolean), ("mtu", .integer), ("ttl", .integer), ("mac", .other)]

/-- l.927-932 `_netjson_vxlan` -/
def vxlanBack (d : VDict) : Except PyErr VDict := do
  let (proto, d) := popOr d "proto" .none
  let (vtep, d) := popOr (Dict.set d "type" proto) "peeraddr" .none
  let (vni, d) := popOr (Dict.set d "vtep" vtep) "vid" .none
  let d := Dict.set d "vni" vni
  let _ ← getKey d "port"
  typeCast vxlanProps d

/-- l.653-657: the method for the protocol -/
def protoBack (env : Env) (d : VDict) : Except PyErr VDict :=
  match Dict.get? d "proto" with
  | some (.str p) =>
    if p ∈ dialupProtos then .ok (Dict.set d "type" (.str "dialup"))
    else if p = "modemmanager" ∨ p = "modem_manager" then modemBack d
    else if p = "wireguard" then wireguardBack env d
    else if p = "vxlan" then vxlanBack d
    else .ok d
  | _ => .ok d

/-- l.641-644, 649-650: an option with another name -/
def renameWith (f : Val → Val) (u k : String) (d : VDict) : VDict :=
  match Dict.get? d u with
  | some v => Dict.set (Dict.erase d u) k (f v)
  | none => d

/-- l.645-648: `interface[k] = int(interface[k])` -/
def intIf (k : String) (d : VDict) : Except PyErr VDict :=
  match Dict.get? d k with
  | some v => do
    let i ← toInt v
    pure (Dict.set d k i)
  | none => .ok d

/-- l.651-652 -/
def dropNetwork (d : VDict) : Except PyErr VDict := do
  let name ← getKey d "name"
  let name ← asText name
  pure (if Dict.get? d "network" = some (txt (uciName name)) then Dict.erase d "network" else d)

/-- l.634-657 `__netjson_interface` -/
def ifaceBack (env : Env) (b : VDict) : Except PyErr VDict := do
  let (_, d) ← popKey b ".type"
  let (network, d) ← popKey d ".name"
  let d := Dict.set d "network" network
  let d := Dict.set d "device_name" ((Dict.get? d "name").getD .none)
  let (name, d) := popOr d "ifname" network
  let d := Dict.set d "name" name
  let (type, d) ← typeBack d
  let d ← addressesBack env (Dict.set d "type" type)
  let d := renameWith (fun v => .bool (decide (v = .str "1"))) "auto" "autostart" d
  let d := renameWith (fun v => .bool (decide (v = .str "0"))) "enabled" "disabled" d
  let d ← intIf "mtu" d
  let d ← intIf "vid" d
  let d := renameWith id "macaddr" "mac" d
  let d ← dropNetwork d
  protoBack env d

/-! ## The configuration -/

/-- l.965-971: one of the two options: interface and result -/
def dnsBack (u k : String) (p : VDict × VDict) : Except PyErr (VDict × VDict) :=
  match Dict.get? p.1 u with
  | none => .ok p
  | some v => do
    let items ← (match v with
      | .str s => pure ((words s.toList).map txt)
      | v => iterate v : Except PyErr (List Val))
    pure (Dict.erase p.1 u, appendTo p.2 k items)

/-- l.617-631: an interface -/
def interfaceBack (env : Env) (dsa : Bool) (b : VDict) (st : IfState) : Except PyErr IfState := do
  let (b, dev) ← (if dsa then dsaBack b st.dev else pure (some b, st.dev))
  match b with
  | none => pure ⟨dev, st.result⟩
  | some b =>
    if b.isEmpty ∨ Dict.get? b "type" = some (.str "device") ∨ ((Dict.get? b "bridge_21").getD .none).truthy then pure ⟨dev, st.result⟩
    else do
      let i ← ifaceBack env b
      if i.isEmpty then pure ⟨dev, st.result⟩
      else do
        let p ← dnsBack "dns" "dns_servers" (i, st.result)
        let p ← dnsBack "dns_search" "dns_search" p
        pure ⟨dev, appendTo p.2 "interfaces" [.dict p.1]⟩

/-- l.611-617: the globals; the result begins anew -/
def globalsBack (b : VDict) (st : IfState) : Except PyErr IfState :=
  let ula := (Dict.get? b "ula_prefix").getD .none
  if ula.truthy then do
    let (name, _) ← popKey b ".name"
    pure ⟨st.dev, [("general", .dict (if name = .str "globals" then [("ula_prefix", ula)] else [("ula_prefix", ula), ("globals_id", name)]))]⟩
  else .ok st

/-- l.610-632 `to_netjson_loop` -/
def ifaceLoop (env : Env) (dsa : Bool) (b : VDict) (st : IfState) : Except PyErr IfState :=
  if Dict.get? b ".type" = some (.str "globals") then globalsBack b st
  else if Dict.get? b ".type" = some (.str "interface") then interfaceBack env dsa b st
  else .ok st

/-- l.562-573 `__process_blocks` -/
def passLoop (skip : Dict Val VDict → VDict → Bool) (handler : VDict → IfState → Except PyErr IfState) :
    List Val → List Val → IfState → List Val × Except PyErr IfState
  | [], rest, st => (rest, .ok st)
  | v :: vs, rest, st =>
    match v with
    | .dict b =>
      if skip st.dev b then passLoop skip handler vs rest st
      else match handler b st with
        | .error e => (rest.erase v, .error e)
        | .ok st' => passLoop skip handler vs (rest.erase v) st'
    | _ => (rest, .error .attributeError)

/-- l.23 -/
def ifaceTypes : Option (List String) := some ["interface", "globals"]

/-- l.550-553 `__skip_non_device_block` -/
def skipNonDevice (_ : Dict Val VDict) (b : VDict) : Bool :=
  skipBlock ifaceTypes b || (!((Dict.get? b "bridge_21").getD .none).truthy && !decide (Dict.get? b "type" = some (.str "device")))

/-- l.555-560 `__skip_vlan_block` -/
def skipVlan (dev : Dict Val VDict) (b : VDict) : Bool :=
  skipBlock ifaceTypes b || (match Dict.get? b "device" with
    | some (.str s) => decide ('.' ∈ s.toList) && Dict.has dev (txt ((splitOn '.' s.toList).headD []))
    | _ => false)

/-- l.588-599 `make_fallback_interface`; the devices have no `.name` any more -/
def fallback (name : Val) : Except PyErr VDict := do
  let n ← asText name
  pure [(".type", .str "interface"), (".name", txt ((stripPrefix "device_".toList n).getD n)), ("device", name), ("proto", .str "none")]

/-- l.602-608 `__add_fallback_interfaces`, over the devices there were at the beginning. Simplification: the options of each device are
looked up when it is its turn, as in the code, where the copy of the dictionary shares them. -/
def fallbacks (env : Env) (dsa : Bool) : List Val → IfState → Except PyErr IfState
  | [], st => .ok st
  | k :: ks, st =>
    if ((Dict.get? ((Dict.get? st.dev k).getD []) "consumed").getD .none).truthy then fallbacks env dsa ks st
    else do
      let b ← fallback k
      let st ← ifaceLoop env dsa b st
      fallbacks env dsa ks st

/-- l.504-542 `to_netjson` -/
def ifacesBack (env : Env) (dsa : Bool) (l : List Val) : List Val × Except PyErr IfState :=
  match passLoop skipNonDevice deviceBlock l l ⟨[], []⟩ with
  | (rest, .error e) => (rest, .error e)
  | (rest, .ok st) =>
    match passLoop skipVlan (ifaceLoop env dsa) rest rest st with
    | (rest, .error e) => (rest, .error e)
    | (rest, .ok st) =>
      match fallbacks env dsa (Dict.keys st.dev) st with
      | .error e => (rest, .error e)
      | .ok st => passLoop (fun _ => skipBlock ifaceTypes) (ifaceLoop env dsa) rest rest st

def ifacesBConv (env : Env) (dsa : Bool) : BConv :=
  ⟨fun inter => Dict.has inter "network", fun config _ inter =>
    match (Dict.get? inter "network").getD .none with
    | .list l => match ifacesBack env dsa l with
      | (rest, .ok st) => ((config, Dict.set inter "network" (.list rest)), .ok st.result)
      | (rest, .error e) => ((config, Dict.set inter "network" (.list rest)), .error e)
    | _ => ((config, inter), .error .typeError)⟩

end NJ
