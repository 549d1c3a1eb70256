import Verif.Conv

/-!
# Wi-Fi interfaces (openwrt/converters/wireless.py)

Simplifications: interfaces and their `wireless` and `encryption` objects are dictionaries (the schema asks for it; anything else
is an `AttributeError` in the model), and names of interfaces are texts.
-/

namespace NJ

/-! ## Bridges -/

/-- the members of a bridge listed in `ports`: a text is iterated character by character; members that are not texts can
never be the name of an interface and are left out (a list or dictionary among them would be a `TypeError`) -/
def portTexts : Val → List String
  | .list l => l.filterMap (fun v => match v with | .str s => some s | _ => none)
  | .str s => s.toList.map (fun c => String.ofList [c])
  | .dict d => Dict.keys d
  | _ => []

/-- wireless.py l.450-453 `__get_bridge_members`; `none` when it raises `AttributeError` -/
def bridgeMembers (dsa : Bool) (iface : VDict) : Option (List String) :=
  let ports := (Dict.get? iface "ports").getD (.list [])
  if dsa && ports.truthy then some (portTexts ports)
  else match Dict.get? iface "ifname" with
    | some (.str s) => some ((splitOn ' ' s.toList).map String.ofList)
    | _ => none

/-- l.438-440: in dsa the name of the bridge is the one of the device without its prefix -/
def bridgeName (dsa : Bool) (name : Chars) : String :=
  String.ofList (if dsa then (stripPrefix "device_".toList name).getD name else name)

/-- l.441-448: one more bridge for one physical interface -/
def addBridge (bridge : String) (m : Dict String (List String)) (phys : String) : Dict String (List String) :=
  match Dict.get? m phys with
  | none => Dict.set m phys [bridge]
  | some l => if bridge ∈ l then m else Dict.set m phys (l ++ [bridge])

/-- l.428-448: one block of the network package -/
def trackBlock (dsa : Bool) (m : Dict String (List String)) (v : Val) : Except PyErr (Dict String (List String)) := do
  let iface ← asDict v
  if Dict.get? iface "type" ≠ some (.str "bridge") then pure m
  else match bridgeMembers dsa iface with
    | none => pure m
    | some members => do
      let name ← getKey iface ".name"
      let name ← asText name
      pure (members.foldl (addBridge (bridgeName dsa name)) m)

/-- wireless.py l.417-448 `_track_bridged_wifi` -/
def trackBridges (dsa : Bool) (inter : VDict) : Except PyErr (Dict String (List String)) :=
  match (Dict.get? inter "network").getD (.list []) with
  | .list l => l.foldlM (trackBlock dsa) []
  | _ => .error .attributeError

/-! ## NetJSON to UCI -/

/-- wireless.py l.41-47 -/
def wifiModes : Dict String String :=
  [("access_point", "ap"), ("station", "sta"), ("adhoc", "adhoc"), ("monitor", "monitor"), ("802.11s", "mesh")]

/-- `table[value]` for a table of texts -/
def lookupText (table : Dict String String) : Val → Except PyErr String
  | .str s => match Dict.get? table s with
    | some t => .ok t
    | none => .error .keyError
  | .list _ => .error .typeError
  | .dict _ => .error .typeError
  | _ => .error .keyError

/-- l.49-60: one of the numeric options, renamed, dropped unless positive -/
def wifiOption (k u : String) (w : VDict) : Except PyErr VDict :=
  match (Dict.get? w k).getD .none with
  | .none => .ok (Dict.erase w k)
  | .int i => .ok (if 0 < i then Dict.set (Dict.erase w k) u (.int i) else Dict.erase w k)
  | .bool b => .ok (if b then Dict.set (Dict.erase w k) u (.bool b) else Dict.erase w k)
  | _ => .error .typeError

/-- l.103-118 `protocol_mapping` -/
def encProtocols : Dict String String :=
  [("wep_open", "wep-open"), ("wep_shared", "wep-shared"), ("wpa_personal", "psk"), ("wpa2_personal", "psk2"),
   ("wpa3_personal", "sae"), ("wpa_personal_mixed", "psk-mixed"), ("wpa2_personal_mixed", "sae-mixed"),
   ("wpa_enterprise", "wpa"), ("wpa2_enterprise", "wpa2"), ("wpa3_enterprise", "wpa3"), ("wpa_enterprise_mixed", "wpa-mixed"),
   ("wpa2_enterprise_mixed", "wpa3-mixed"), ("wps", "psk"), ("owe", "owe")]

/-- `protocol` where a text is needed: unhashable values fail in the table, the others have no `startswith` -/
def protocolText : Val → Except PyErr String
  | .str s => .ok s
  | .list _ => .error .typeError
  | .dict _ => .error .typeError
  | _ => .error .attributeError

/-- `"enterprise" in protocol` -/
def isEnterprise : Chars → Bool
  | [] => false
  | c :: cs => (stripPrefix "enterprise".toList (c :: cs)).isSome || isEnterprise cs

def startsWith (pre : String) (p : String) : Bool := (stripPrefix pre.toList p.toList).isSome

/-- copies an option if it is there -/
def copyIf (src : VDict) (k : String) (dst : VDict) (u : String) : VDict :=
  match Dict.get? src k with
  | some v => Dict.set dst u v
  | none => dst

/-- l.153-161: the RADIUS options of an access point -/
def radiusUci (enc uci : VDict) : Except PyErr VDict := do
  let uci := copyIf enc "server" uci "auth_server"
  let uci := copyIf enc "port" uci "auth_port"
  let key ← getKey enc "key"
  let uci := Dict.set uci "auth_secret" key
  let uci := if Dict.has enc "acct_secret" then uci else Dict.set uci "acct_secret" key
  pure (copyIf enc "acct_server_port" uci "acct_port")

/-- l.148-161 `__intermediate_encryption_wpa_enterprise` -/
def enterpriseUci (mode : String) (enc uci : VDict) : Except PyErr VDict :=
  let uci := if Dict.get? uci "eap_type" = some (.str "tls") then Dict.erase uci "auth" else uci
  if mode = "ap" then radiusUci enc uci else .ok uci

/-- l.123-126: the options that are not copied -/
def encStrip (enc : VDict) : VDict :=
  ["protocol", "key", "cipher", "disabled", "acct_server_port"].foldl Dict.erase enc

/-- l.101-120: whether encryption is off -/
def encOff (enc : VDict) : Except PyErr Bool :=
  if enc.isEmpty then .ok true
  else if ((Dict.get? enc "disabled").getD (.bool false)).truthy then .ok true
  else do
    let p ← getKey enc "protocol"
    pure (decide (p = .str "none"))

/-- l.131-141: the key -/
def encKeys (env : Env) (mode p : String) (enc uci : VDict) : Except PyErr VDict :=
  if startsWith "wep" p then do
    let uci := Dict.set uci "key" (.str "1")
    let key ← getKey enc "key"
    pure (Dict.set uci "key1" (if p = "wep_open" then .str ("s:" ++ pyStr env.reprC key) else key))
  else do
    let uci ← (if isEnterprise p.toList then enterpriseUci mode enc uci else .ok uci)
    pure (copyIf enc "key" uci "key")

/-- l.130, l.142-145: the value of the option `encryption` -/
def encValue (env : Env) (p : String) (cipher : Val) : String :=
  let base := (Dict.get? encProtocols p).getD p
  if cipher.truthy && startsWith "wpa" p && decide (cipher ≠ .str "auto") then base ++ "+" ++ pyStr env.reprC cipher else base

/-- wireless.py l.100-146 `__intermediate_encryption` -/
def encryptionUci (env : Env) (mode : String) (enc : VDict) : Except PyErr VDict := do
  let off ← encOff enc
  if off then pure [("encryption", .str "none")]
  else do
    let p ← getKey enc "protocol"
    let p ← protocolText p
    let uci ← encKeys env mode p enc (encStrip enc)
    pure (Dict.set uci "encryption" (.str (encValue env p ((Dict.get? enc "cipher").getD .none))))

/-- l.61-64 -/
def wifiEncryption (env : Env) (mode : String) (w : VDict) : Except PyErr VDict :=
  match Dict.get? w "encryption" with
  | none => .ok w
  | some v => do
    let enc ← asDict v
    let uci ← encryptionUci env mode enc
    pure (Dict.update (Dict.erase w "encryption") uci)

/-- l.163-168 -/
def roamingProperties : List String := ["ft_over_ds", "ft_psk_generate_local", "nasid", "reassociation_deadline"]

/-- l.170-175 `__intermediate_roaming` -/
def wifiRoaming (w : VDict) : VDict :=
  if Dict.get? w "ieee80211r" = some (.bool false) then roamingProperties.foldl Dict.erase w else w

/-- one item of `" ".join(...)` -/
def itemText : Val → Except PyErr Chars
  | .str s => .ok s.toList
  | _ => .error .typeError

/-- l.67-69: `" ".join(value)` -/
def joinSpaces : Val → Except PyErr Chars
  | .list l => do
    let ts ← l.mapM itemText
    pure (joinWith [' '] ts)
  | .str s => .ok (joinWith [' '] (s.toList.map (fun c => [c])))
  | .dict d => .ok (joinWith [' '] ((Dict.keys d).map String.toList))
  | _ => .error .typeError

/-- l.72-94 `__intermediate_auto_network`: the networks the interface is attached to -/
def autoNetwork (bridged : Dict String (List String)) (name : String) (interface w : VDict) : Val :=
  let explicit := (Dict.get? w "network").getD .none
  if explicit.truthy then explicit
  else match Dict.get? bridged name with
    | some bridges => .list (bridges.map .str)
    | none => if ((Dict.get? interface "addresses").getD (.list [])).truthy then .list [.str name] else .list []

/-- l.96-98 `__get_auto_name` -/
def wifiAutoName (name : String) : String := String.ofList ("wifi_".toList ++ uciName name.toList)

/-- l.20-70 `__intermediate_wireless`, for an interface that has a `wireless` object -/
def wifiBlock (env : Env) (bridged : Dict String (List String)) (interface w : VDict) : Except PyErr VDict := do
  let name ← getKey interface "name"
  let name ← protocolText name
  let w := Dict.set w "disabled" ((Dict.get? interface "disabled").getD .none)
  let w := Dict.set w "ifname" (.str name)
  let (id, w) ← popOrElse w "id" (fun _ => .ok (.str (wifiAutoName name)))
  let w := Dict.update w [(".type", .str "wifi-iface"), (".name", id)]
  let (radio, w) ← popKey w "radio"
  let w := Dict.set w "device" radio
  let w := copyIf interface "mac" w "macaddr"
  let mode ← getKey w "mode"
  let mode ← lookupText wifiModes mode
  let w := Dict.set w "mode" (.str mode)
  let w ← wifiOption "ack_distance" "distance" w
  let w ← wifiOption "rts_threshold" "rts" w
  let w ← wifiOption "frag_threshold" "frag" w
  let w ← wifiEncryption env mode w
  let w := wifiRoaming w
  let network ← joinSpaces (autoNetwork bridged name interface w)
  pure (sortedDict (Dict.set w "network" (txt (uciName network))))

/-- l.13-18 `to_intermediate_loop` -/
def wirelessFwd (env : Env) (bridged : Dict String (List String)) (_ : Option Nat) (block : Val) (result : VDict) : Except PyErr VDict := do
  let interface ← asDict block
  match Dict.get? interface "wireless" with
  | none => pure result
  | some w => do
    let w ← asDict w
    let b ← wifiBlock env bridged interface w
    pure (appendTo result "wireless" [.dict b])

/-- l.9-11 `to_intermediate` -/
def wirelessRun (env : Env) (dsa : Bool) (config inter : VDict) : Except PyErr VDict := do
  let bridged ← trackBridges dsa inter
  fwd "interfaces" (wirelessFwd env bridged) config

def wirelessConv (env : Env) (dsa : Bool) : Conv := pureConv "interfaces" (wirelessRun env dsa)

/-! ## UCI to NetJSON -/

/-- l.206-212 -/
def wifiModesBack : Dict String String :=
  [("ap", "access_point"), ("sta", "station"), ("adhoc", "adhoc"), ("monitor", "monitor"), ("mesh", "802.11s")]

/-- `int(value)`: of a number, of a truth value, of a text -/
def toInt : Val → Except PyErr Val
  | .int i => .ok (.int i)
  | .bool b => .ok (.int (if b then 1 else 0))
  | v => pyInt v

/-- l.214-223: one of the numeric options -/
def wifiOptionBack (u k : String) (w : VDict) : Except PyErr VDict :=
  match Dict.get? w u with
  | none => .ok w
  | some v => do
    let i ← toInt v
    pure (Dict.set (Dict.erase w u) k i)

/-- l.191-197 `__netjson_wifi_get_ifname` -/
def wifiIfname (block : VDict) : Except PyErr Val := do
  let name ← getKey block ".name"
  let name ← asText name
  pure ((Dict.get? block "ifname").getD (txt (replaceAll "wifi_".toList [] name)))

/-- l.225-229: the networks -/
def networkBack (ifname : Val) (interface w : VDict) : Except PyErr VDict :=
  match Dict.get? w "network" with
  | none => .ok w
  | some v =>
    if v = ifname ∨ v = (Dict.get? interface "network").getD .none then .ok (Dict.erase w "network")
    else do
      let t ← asText v
      pure (Dict.set w "network" (.list ((words t).map txt)))

/-- l.240-253 -/
def wifiBooleans : List String :=
  ["hidden", "wds", "ft_over_ds", "ft_psk_generate_local", "ieee80211r", "rsn_preauth", "isolate", "doth", "wmm",
   "short_preamble", "start_disabled", "default_disabled"]

/-- `if k in d: d[k] = d[k] == "1"` -/
def castBool (w : VDict) (k : String) : VDict :=
  match Dict.get? w k with
  | some v => Dict.set w k (.bool (decide (v = .str "1")))
  | none => w

/-- l.256-260: only a `ValueError` is caught -/
def deadlineBack (w : VDict) : Except PyErr VDict :=
  match Dict.get? w "reassociation_deadline" with
  | none => .ok w
  | some v => match toInt v with
    | .ok i => .ok (Dict.set w "reassociation_deadline" i)
    | .error .valueError => .ok (Dict.erase w "reassociation_deadline")
    | .error e => .error e

/-- l.239-260 `__netjson_wifi_typecast` -/
def wifiTypecast (w : VDict) : Except PyErr VDict := deadlineBack (wifiBooleans.foldl castBool w)

/-- l.262-305 `_encryption_keys` -/
def encryptionKeys : List String :=
  ["key", "server", "port", "wpa_group_rekey", "auth_server", "auth_port", "auth_secret", "auth_cache", "acct_port", "acct_server",
   "acct_secret", "acct_interval", "nasid", "ownip", "dae_client", "dae_port", "dae_secret", "dynamic_vlan", "vlan_naming",
   "vlan_tagged_interface", "vlan_bridge", "eap_type", "auth", "anonymous_identity", "identity", "password", "ca_cert", "client_cert",
   "ca_cert_usesystem", "subject_match", "altsubject_match", "domain_match", "domain_suffix_match", "priv_key", "priv_key_pwd",
   "wps_config", "wps_device_name", "wps_device_type", "wps_label", "wps_manufacturer", "wps_pushbutton", "wps_pin"]

/-- l.312-318: one key is moved from the wifi object to the settings -/
def moveKey (st : VDict × VDict × Bool) (key : String) : VDict × VDict × Bool :=
  match Dict.get? st.2.1 key with
  | some v => if v.truthy then (Dict.set st.1 key v, Dict.erase st.2.1 key, st.2.2 || startsWith "wps_" key) else st
  | none => st

/-- l.329-343 -/
def encProtocolsBack : Dict String String :=
  [("wep-open", "wep_open"), ("wep-shared", "wep_shared"), ("psk", "wpa_personal"), ("psk2", "wpa2_personal"),
   ("sae", "wpa3_personal"), ("psk-mixed", "wpa_personal_mixed"), ("sae-mixed", "wpa2_personal_mixed"),
   ("wpa", "wpa_enterprise"), ("wpa2", "wpa2_enterprise"), ("wpa3", "wpa3_enterprise"), ("wpa-mixed", "wpa_enterprise_mixed"),
   ("wpa3-mixed", "wpa2_enterprise_mixed"), ("owe", "owe")]

/-- l.326-327: `protocol.split("+", 1)` -/
def splitPlus : Chars → Chars × Option Chars
  | [] => ([], none)
  | c :: cs => if c = '+' then ([], some cs) else
    let r := splitPlus cs
    (c :: r.1, r.2)

/-- l.328-347: the protocol and cipher -/
def protocolSettings (wps : Bool) (protocol : Chars) (cipher : Chars) (settings : VDict) : Except PyErr VDict :=
  if wps then .ok (Dict.set settings "protocol" (.str "wps"))
  else do
    let p ← lookupText encProtocolsBack (txt protocol)
    pure (Dict.set (Dict.set settings "protocol" (.str p)) "cipher" (txt cipher))

/-- l.348-355: the WEP key; both the settings and the wifi object change -/
def wepBack (env : Env) (protocol : Chars) (settings w : VDict) : Except PyErr (VDict × VDict) :=
  if (stripPrefix "wep".toList protocol).isSome then do
    let index ← getKey settings "key"
    let dictKey := "key" ++ pyStr env.reprC index
    let key ← asText ((Dict.get? w dictKey).getD (.str ""))
    let key := (stripPrefix "s:".toList key).getD key
    pure (Dict.set settings "key" (txt key), Dict.erase w dictKey)
  else .ok (settings, w)

/-- renames a setting if it is there -/
def renameIf (k u : String) (s : VDict) : VDict :=
  match Dict.get? s k with
  | some v => Dict.set (Dict.erase s k) u v
  | none => s

/-- l.359-362 -/
def dropAcctSecret (s : VDict) : VDict :=
  if Dict.has s "acct_secret" ∧ Dict.get? s "acct_secret" = some ((Dict.get? s "key").getD .none) then Dict.erase s "acct_secret" else s

/-- l.356-367 -/
def enterpriseBack (s : VDict) : Except PyErr VDict := do
  let p ← getKey s "protocol"
  let p ← asText p
  pure (if isEnterprise p then
      renameIf "acct_port" "acct_server_port" (renameIf "auth_port" "port" (renameIf "auth_server" "server"
        (dropAcctSecret (renameIf "auth_secret" "key" s))))
    else s)

/-- `if k in d: d[k] = int(d[k])` -/
def castInt (s : VDict) (k : String) : Except PyErr VDict :=
  match Dict.get? s k with
  | none => .ok s
  | some v => do
    let i ← toInt v
    pure (Dict.set s k i)

/-- l.374-388 `__netjson_encryption_typecast` -/
def encTypecast (s : VDict) : Except PyErr VDict := do
  let s ← ["port", "acct_server_port", "dae_port", "acct_interval"].foldlM castInt s
  pure (castBool (castBool s "wps_label") "wps_pushbutton")

/-- l.325-372: the encryption object, when encryption is not `none` -/
def encryptionBack (env : Env) (protocol : Chars) (wps : Bool) (settings w : VDict) : Except PyErr VDict := do
  let (p, cipher) := splitPlus protocol
  let s ← protocolSettings wps p (cipher.getD "auto".toList) settings
  let (s, w) ← wepBack env p s w
  let s ← enterpriseBack s
  let s := copyIf w "ieee80211w" s "ieee80211w"
  let w := Dict.erase w "ieee80211w"
  let s ← encTypecast s
  pure (Dict.set w "encryption" (.dict s))

/-- l.307-372 `__netjson_encryption` -/
def wifiEncryptionBack (env : Env) (w : VDict) : Except PyErr VDict :=
  if Dict.has w "encryption" then do
    let (settings, w, wps) := encryptionKeys.foldl moveKey ([], w, false)
    let (protocol, w) ← popKey w "encryption"
    if protocol = .str "none" then pure (Dict.set w "encryption" (.dict [("protocol", .str "none")]))
    else do
      let p ← asText protocol
      encryptionBack env p wps settings w
  else .ok w

/-- l.230-231: moves an option to the interface -/
def macBack (interface w : VDict) : VDict := copyIf w "macaddr" interface "mac"

/-- l.233-234 -/
def wifiDisabledBack (interface w : VDict) : VDict :=
  match Dict.get? w "disabled" with
  | some v => Dict.set interface "disabled" (.bool (decide (v = .str "1")))
  | none => interface

/-- l.199-237 `__netjson_wifi`: the wifi object and the interface, which is changed -/
def netjsonWifi (env : Env) (block interface : VDict) : Except PyErr (VDict × VDict) := do
  let (name, w) ← popKey block ".name"
  let iname ← getKey interface "name"
  let iname ← protocolText iname
  let w := if name = .str (wifiAutoName iname) then w else Dict.set w "id" name
  let (_, w) ← popKey w ".type"
  let (device, w) ← popKey w "device"
  let w := Dict.set w "radio" device
  let mode ← getKey w "mode"
  let mode ← lookupText wifiModesBack mode
  let w := Dict.set w "mode" (.str mode)
  let w ← wifiOptionBack "distance" "ack_distance" w
  let w ← wifiOptionBack "rts" "rts_threshold" w
  let w ← wifiOptionBack "frag" "frag_threshold" w
  let (ifname, w) := popOr w "ifname" (.str iname)
  let w ← networkBack ifname interface w
  let interface := macBack interface w
  let w := Dict.erase w "macaddr"
  let interface := wifiDisabledBack interface w
  let w := Dict.erase w "disabled"
  let w ← wifiTypecast w
  let w ← wifiEncryptionBack env w
  pure (w, interface)

/-- l.390-395 `__get_netjson_interface`: the position of the interface of that name -/
def findInterface (ifname : Val) : List Val → Option (VDict × (Val → List Val))
  | [] => none
  | .dict d :: r => if (Dict.get? d "name").getD .none = ifname then some (d, fun v => v :: r)
    else (findInterface ifname r).map (fun x => (x.1, fun v => .dict d :: x.2 v))
  | v :: r => (findInterface ifname r).map (fun x => (x.1, fun u => v :: x.2 u))

/-- the interfaces made by the converters before this one -/
def interfacesOf (config : VDict) : List Val :=
  match Dict.get? config "interfaces" with
  | some (.list l) => l
  | _ => []

/-- l.177-189 `to_netjson_loop` -/
def wirelessBack (env : Env) (_ : Nat) (block : VDict) (acc : VDict × VDict) : Except PyErr (VDict × VDict) := do
  let ifname ← wifiIfname block
  match findInterface ifname (interfacesOf acc.1) with
  | some (d, put) => do
    let (wifi, interface) ← netjsonWifi env block (Dict.set d "type" (.str "wireless"))
    pure (Dict.set acc.1 "interfaces" (.list (put (.dict (Dict.set interface "wireless" (.dict wifi))))), acc.2)
  | none => do
    let (wifi, interface) ← netjsonWifi env block [("name", ifname), ("type", .str "wireless")]
    pure (acc.1, appendTo acc.2 "interfaces" [.dict (Dict.set interface "wireless" (.dict wifi))])

/-- l.406-415: one block of `__fix_netjson_network` -/
def fixNetwork (bridged : Dict String (List String)) (v : Val) : Except PyErr Val :=
  match v with
  | .dict b => match Dict.get? b "ifname" with
    | some (.str n) => match Dict.get? bridged n with
      | none => .ok v
      | some bridges => do
        let t ← asText ((Dict.get? b "network").getD (.str ""))
        if bridges = (splitOn ' ' t).map String.ofList then
          (if Dict.has b "network" then pure (.dict (Dict.erase b "network")) else .error .keyError)
        else pure v
    | _ => .ok v
  | _ => .ok v

/-- l.397-415 `to_netjson_clean`: the dictionaries are those of the original list, which changes too -/
def wirelessClean (dsa : Bool) (copy : VDict) (l : List Val) : Except PyErr (List Val × List Val) := do
  let bridged ← trackBridges dsa copy
  let l' ← l.mapM (fixNetwork bridged)
  pure (l', l')

def wirelessBConv (env : Env) (dsa : Bool) : BConv :=
  bwdG "wireless" (some ["wifi-iface"]) (wirelessClean dsa) (fun config => config) (fun _ config => config) (wirelessBack env)

end NJ
