import Verif.Uci
import Verif.Backend
import Verif.Ip

/-!
# Converters of the OpenWrt backend, part 1

base/converter.py, openwrt/converters/base.py, general.py, ntp.py, led.py, routes.py, rules.py, switch.py,
wireguard_peers.py, default.py.
-/

namespace NJ

/-- Library functions taken as parameters: text of containers, `str.lower`, `str.upper`, the table of time zones
(timezones.py) and its reverse, IPv6. -/
structure Env where
  reprC : Val → String
  lower : Chars → Chars
  upper : Chars → Chars
  tz : String → Option String
  tzRev : String → Option String
  ip6 : Ip6

/-! ## Python dictionaries -/

/-- `d[k]` -/
def getKey (d : VDict) (k : String) : Except PyErr Val :=
  match Dict.get? d k with
  | some v => .ok v
  | none => .error .keyError

/-- `d.pop(k)`: the value and what is left -/
def popKey (d : VDict) (k : String) : Except PyErr (Val × VDict) :=
  match Dict.get? d k with
  | some v => .ok (v, Dict.erase d k)
  | none => .error .keyError

/-- `d.pop(k, default)` -/
def popOr (d : VDict) (k : String) (default : Val) : Val × VDict := ((Dict.get? d k).getD default, Dict.erase d k)

/-- a value used as a text; anything else has no such method (`AttributeError`) -/
def asText : Val → Except PyErr Chars
  | .str s => .ok s.toList
  | _ => .error .attributeError

def asDict : Val → Except PyErr VDict
  | .dict d => .ok d
  | _ => .error .attributeError

def txt (s : Chars) : Val := .str (String.ofList s)

/-- `result.setdefault(key, []); result[key].append(v)` -/
def appendTo (result : VDict) (key : String) (v : List Val) : VDict :=
  match Dict.get? result key with
  | some (.list l) => Dict.set result key (.list (l ++ v))
  | _ => Dict.set result key (.list v)

/-! ## base/converter.py -/

/-- the types of the schema that matter for `type_cast` -/
inductive JType where
  | integer | boolean | other
  deriving DecidableEq

/-- `int(value)` for a value that is not an integer -/
def pyInt : Val → Except PyErr Val
  | .str s => match parseInt s.toList with
    | some i => .ok (.int i)
    | none => .error .valueError
  | _ => .error .typeError

/-- one value of base/converter.py l.46-62 `type_cast` -/
def castValue (t : Option JType) (v : Val) : Except PyErr Val :=
  match t with
  | some .integer => match v with
    | .int i => .ok (.int i)
    | .bool b => .ok (.bool b)
    | v => pyInt v
  | some .boolean => match v with
    | .bool b => .ok (.bool b)
    | v => .ok (.bool (decide (v = .str "1")))
  | _ => .ok v

/-- base/converter.py l.39-63 `type_cast` -/
def typeCast (props : Dict String JType) (item : VDict) : Except PyErr VDict :=
  item.mapM (fun p => do
    let v ← castValue (Dict.get? props p.1) p.2
    pure (p.1, v))

/-- the loop over the blocks, base/converter.py l.80-83; indices start from 1 -/
def fwdList (loop : Option Nat → Val → VDict → Except PyErr VDict) (i : Nat) (result : VDict) : List Val → Except PyErr VDict
  | [] => .ok result
  | b :: bs => do
    let r ← loop (some i) b result
    fwdList loop (i + 1) r bs

/-- base/converter.py l.71-86 `to_intermediate` -/
def fwd (key : String) (loop : Option Nat → Val → VDict → Except PyErr VDict) (config : VDict) : Except PyErr VDict :=
  match (Dict.get? config key).getD .none with
  | .list l => fwdList loop 1 [] l
  | v => loop none v []

/-- a converter that does not touch the configuration -/
def pureConv (key : String) (run : VDict → VDict → Except PyErr VDict) : Conv :=
  ⟨fun config => Dict.has config key, fun config inter => (config, run config inter)⟩

/-- openwrt/converters/base.py l.11-13 `should_skip_block`; `types = none` when `_uci_types` is empty or None -/
def skipBlock (types : Option (List String)) (b : VDict) : Bool :=
  b.isEmpty || (match types with
    | some ts => !ts.any (fun t => Dict.get? b ".type" == some (.str t))
    | none => false)

/-- base/converter.py l.101-116: the loop of `to_netjson`. `rest` is the list from which processed blocks are removed
(`list.remove`: the first equal block; blocks made by the parser have sorted keys, so that equality is structural). -/
def bwdLoop {σ : Type} (types : Option (List String)) (loop : Nat → VDict → σ × VDict → Except PyErr (σ × VDict)) :
    Nat → List Val → List Val → σ × VDict → List Val × Except PyErr (σ × VDict)
  | _, [], rest, acc => (rest, .ok acc)
  | i, v :: vs, rest, acc =>
    match v with
    | .dict b =>
      if skipBlock types b then bwdLoop types loop (i + 1) vs rest acc
      else match loop i b acc with
        | .error e => (rest.erase v, .error e)
        | .ok acc' => bwdLoop types loop (i + 1) vs (rest.erase v) acc'
    | _ => (rest, .error .attributeError)

/-- The end of `to_netjson`: the new configuration and intermediate data, and the result. Simplification: changes made in
place to the configuration before an exception are not kept. -/
def bwdEnd {σ : Type} (config inter : VDict) (key : String) (fin : VDict → σ → VDict) (r : List Val × Except PyErr (σ × VDict)) :
    (VDict × VDict) × Except PyErr VDict :=
  match r.2 with
  | .ok acc => ((fin config acc.1, Dict.set inter key (.list r.1)), .ok acc.2)
  | .error e => ((config, Dict.set inter key (.list r.1)), .error e)

/-- base/converter.py l.94-118 `to_netjson`. `clean` is `to_netjson_clean`: the blocks to go through and, because it
makes a shallow copy, what becomes of the blocks of the original list; `σ` is what the converter keeps from one block to
the next, made from the configuration by `init` and put back in it by `fin`. -/
def bwdG {σ : Type} (key : String) (types : Option (List String)) (clean : VDict → List Val → Except PyErr (List Val × List Val))
    (init : VDict → σ) (fin : VDict → σ → VDict) (loop : Nat → VDict → σ × VDict → Except PyErr (σ × VDict)) : BConv :=
  ⟨fun inter => Dict.has inter key, fun config copy inter =>
    match (Dict.get? inter key).getD .none with
    | .list l => match clean copy l with
      | .error e => ((config, inter), .error e)
      | .ok (todo, rest) => bwdEnd config inter key fin (bwdLoop types loop 1 todo rest (init config, []))
    | _ => ((config, inter), .error .typeError)⟩

/-- a converter that does not read or change the configuration -/
def bwd {σ : Type} (key : String) (types : Option (List String)) (clean : List Val → List Val) (init : σ)
    (loop : Nat → VDict → σ × VDict → Except PyErr (σ × VDict)) : BConv :=
  bwdG key types (fun _ l => .ok (clean l, l)) (fun _ => init) (fun config _ => config) loop

/-- without state -/
def bwdSimple (key : String) (types : Option (List String)) (loop : Nat → VDict → VDict → Except PyErr VDict) : BConv :=
  bwd key types id () (fun i b acc => do
    let r ← loop i b acc.2
    pure ((), r))

/-- openwrt/converters/base.py l.15-16 `_get_uci_name` -/
def uciName (s : Chars) : Chars := s.map (fun c => if c = '.' then '_' else if c = '-' then '_' else c)

/-! ## general.py -/

/-- general.py l.34-42 `__intermediate_ula`: the block and what is left of the general section -/
def ulaBlock (general : VDict) : Except PyErr (Option VDict × VDict) :=
  if Dict.has general "ula_prefix" then do
    let (name, g) := popOr general "globals_id" (.str "globals")
    let (ula, g) ← popKey g "ula_prefix"
    pure (some (sortedDict [(".type", .str "globals"), (".name", name), ("ula_prefix", ula)]), g)
  else .ok (none, general)

/-- general.py l.19-32 `__intermediate_system` -/
def systemBlock (env : Env) (general : VDict) : Except PyErr (Option VDict) :=
  if general.isEmpty then .ok none
  else do
    let (name, g) := popOr general "id" (.str "system")
    let hostname := (Dict.get? g "hostname").getD (.str "OpenWRT")
    let g := Dict.update g [(".type", .str "system"), (".name", name), ("hostname", hostname)]
    match Dict.get? g "timezone" with
    | none => pure (some (sortedDict g))
    | some (.str zone) => match env.tz zone with
      | none => .error .keyError
      | some posix => pure (some (sortedDict (Dict.set (Dict.set g "zonename" (.str zone)) "timezone" (.str posix))))
    | some _ => .error .keyError

/-- general.py l.10-17 `to_intermediate_loop` -/
def generalFwd (env : Env) (_ : Option Nat) (block : Val) (result : VDict) : Except PyErr VDict := do
  let d ← asDict block
  let (ula, g) ← ulaBlock d
  let system ← systemBlock env g
  let r := match system with
    | some s => Dict.set result "system" (.list [.dict s])
    | none => result
  pure (match ula with
    | some u => Dict.set r "network" (.list [.dict u])
    | none => r)

/-- general.py l.50-66 `__netjson_system` -/
def systemBack (env : Env) (system : VDict) : Except PyErr VDict := do
  let (_, s) ← popKey system ".type"
  let (name, s) ← popKey s ".name"
  let s := if name = .str "system" then s else Dict.set s "id" name
  let (hostname, s) := popOr s "hostname" .none
  let (zonename, s) := popOr s "zonename" .none
  let (timezone, s) := popOr s "timezone" .none
  let zone ← (if zonename.truthy then pure zonename
    else if timezone.truthy then
      match timezone with
      | .str t => match env.tzRev t with
        | some z => pure (Val.str z)
        | none => .error .keyError
      | .list _ => .error .typeError
      | _ => .error .keyError
    else pure Val.none : Except PyErr Val)
  let s := if hostname.truthy then Dict.set s "hostname" hostname else s
  pure (if zone.truthy then Dict.set s "timezone" zone else s)

/-- general.py l.44-46 `to_netjson_loop` -/
def generalBack (env : Env) (_ : Nat) (block : VDict) (result : VDict) : Except PyErr VDict := do
  let s ← systemBack env block
  pure (Dict.set result "general" (.dict s))

def generalConv (env : Env) : Conv := pureConv "general" (fun config _ => fwd "general" (generalFwd env) config)
def generalBConv (env : Env) : BConv := bwdSimple "system" (some ["system"]) (generalBack env)

/-! ## ntp.py -/

/-- openwrt/schema.py l.1083-1123 -/
def ntpProps : Dict String JType := [("enabled", .boolean), ("enable_server", .boolean), ("server", .other)]

/-- ntp.py l.11-16 `to_intermediate_loop` -/
def ntpFwd (_ : Option Nat) (block : Val) (result : VDict) : Except PyErr VDict :=
  if block.truthy then do
    let d ← asDict block
    let (name, d) := popOr d "id" (.str "ntp")
    let d := Dict.update d [(".type", .str "timeserver"), (".name", name)]
    pure (Dict.set result "system" (.list [.dict (sortedDict d)]))
  else .ok result

/-- ntp.py l.22-27 `__netjson_ntp` -/
def netjsonNtp (block : VDict) : Except PyErr VDict := do
  let (_, n) ← popKey block ".type"
  let (name, n) ← popKey n ".name"
  let n := if name = .str "ntp" then n else Dict.set n "id" name
  typeCast ntpProps n

/-- ntp.py l.18-20 `to_netjson_loop` -/
def ntpBack (_ : Nat) (block : VDict) (result : VDict) : Except PyErr VDict := do
  let n ← netjsonNtp block
  pure (Dict.set result "ntp" (.dict n))

def ntpConv : Conv := pureConv "ntp" (fun config _ => fwd "ntp" ntpFwd config)
def ntpBConv : BConv := bwdSimple "system" (some ["timeserver"]) ntpBack

/-! ## led.py -/

/-- openwrt/schema.py l.1171-1199 -/
def ledProps : Dict String JType :=
  [("name", .other), ("default", .boolean), ("dev", .other), ("sysfs", .other), ("trigger", .other), ("delayoff", .integer),
   ("delayon", .integer), ("interval", .integer), ("message", .other), ("mode", .other)]

/-- led.py l.22-23 `__get_auto_name` -/
def ledAutoName (env : Env) (led : VDict) : Except PyErr Val := do
  let n ← getKey led "name"
  let n ← asText n
  pure (txt ("led_".toList ++ env.lower n))

/-- `d.pop(k, None) or default`, the default being computed only when needed -/
def popOrElse (d : VDict) (k : String) (default : VDict → Except PyErr Val) : Except PyErr (Val × VDict) :=
  match Dict.get? d k with
  | some v => if v.truthy then .ok (v, Dict.erase d k) else do
      let n ← default (Dict.erase d k)
      pure (n, Dict.erase d k)
  | none => do
    let n ← default (Dict.erase d k)
    pure (n, Dict.erase d k)

/-- led.py l.11-20 `to_intermediate_loop`, the part for one LED -/
def ledBlock (env : Env) (led : VDict) : Except PyErr VDict := do
  let (name, d) ← popOrElse led "id" (ledAutoName env)
  let d := Dict.update d [(".type", .str "led"), (".name", name)]
  pure (sortedDict d)

/-- led.py l.11-14 `to_intermediate_loop` -/
def ledFwd (env : Env) (_ : Option Nat) (block : Val) (result : VDict) : Except PyErr VDict := do
  let d ← asDict block
  let b ← ledBlock env d
  pure (appendTo result "system" [.dict b])

/-- led.py l.30-35 `__netjson_led` -/
def netjsonLed (env : Env) (block : VDict) : Except PyErr VDict := do
  let (_, l) ← popKey block ".type"
  let (name, l) ← popKey l ".name"
  let auto ← ledAutoName env l
  let l := if name = auto then l else Dict.set l "id" name
  typeCast ledProps l

/-- led.py l.25-28 `to_netjson_loop` -/
def ledBack (env : Env) (_ : Nat) (block : VDict) (result : VDict) : Except PyErr VDict := do
  let l ← netjsonLed env block
  pure (appendTo result "led" [.dict l])

def ledConv (env : Env) : Conv := pureConv "led" (fun config _ => fwd "led" (ledFwd env) config)
def ledBConv (env : Env) : BConv := bwdSimple "system" (some ["led"]) (ledBack env)

/-! ## routes.py -/

/-- schema.py l.1147-1178 with openwrt/schema.py l.979-1016 -/
def routeProps : Dict String JType :=
  [("device", .other), ("destination", .other), ("next", .other), ("cost", .integer), ("source", .other),
   ("type", .other), ("mtu", .other), ("table", .other), ("onlink", .boolean)]

/-- names made from a prefix and the position -/
def autoName (pre : Chars) (index : Nat) : Val := txt (pre ++ showNat index)

/-- `ip_interface(value)`. Simplification: only texts are accepted (the schema allows nothing else). -/
def ipInterfaceV (env : Env) (v : Val) : Except PyErr IpIf :=
  match v with
  | .str s => match ipInterface env.ip6 s.toList with
    | some i => .ok i
    | none => .error .valueError
  | _ => .error .valueError

/-- routes.py l.18-33 `__intermediate_route` -/
def routeBlock (env : Env) (index : Nat) (route : VDict) : Except PyErr VDict := do
  let (dest, r) ← popKey route "destination"
  let net ← ipInterfaceV env dest
  let target := if net.v6 then ({ net with addr := net.network } : IpIf).text env.ip6 else showIp4 net.addr
  let (name, r) ← popOrElse r "name" (fun _ => .ok (autoName "route".toList index))
  let (device, r) ← popKey r "device"
  let (next, r) ← popKey r "next"
  let (cost, r) ← popKey r "cost"
  let r := Dict.update r [(".type", .str (if net.v6 then "route6" else "route")), (".name", name), ("interface", device),
    ("target", txt target), ("gateway", next), ("metric", cost)]
  let r := if net.v6 then r else Dict.set r "netmask" (txt (showIp4 (mask4 net.plen)))
  pure (sortedDict r)

/-- routes.py l.12-16 -/
def routeFwd (env : Env) (index : Option Nat) (block : Val) (result : VDict) : Except PyErr VDict := do
  let d ← asDict block
  let b ← routeBlock env (index.getD 0) d
  pure (appendTo result "network" [.dict b])

/-- routes.py l.51-52: the target with the netmask, if there is one -/
def routeNetwork (env : Env) (network : Val) (r : VDict) : Val × VDict :=
  match Dict.get? r "netmask" with
  | some m => (txt ((pyStr env.reprC network).toList ++ '/' :: (pyStr env.reprC m).toList), Dict.erase r "netmask")
  | none => (network, r)

/-- routes.py l.46-64 `__netjson_route` -/
def netjsonRoute (env : Env) (i : Nat) (route : VDict) : Except PyErr VDict := do
  let (name, r) ← popKey route ".name"
  let r := if name = autoName "route".toList i then r else Dict.set r "name" name
  let (network, r) ← popKey r "target"
  let (network, r) := routeNetwork env network r
  let (device, r) ← popKey r "interface"
  let dest ← ipInterfaceV env network
  let (next, r) := popOr r "gateway" (.str "")
  let (cost, r) := popOr r "metric" (.int 0)
  let r := Dict.update r [("device", device), ("destination", txt (dest.text env.ip6)), ("next", next), ("cost", cost)]
  let (_, r) ← popKey r ".type"
  typeCast routeProps r

/-- routes.py l.38-42 `to_netjson_loop` -/
def routeBack (env : Env) (i : Nat) (route : VDict) (result : VDict) : Except PyErr VDict := do
  let r ← netjsonRoute env i route
  pure (appendTo result "routes" [.dict r])

def routesConv (env : Env) : Conv := pureConv "routes" (fun config _ => fwd "routes" (routeFwd env) config)
def routesBConv (env : Env) : BConv := bwdSimple "network" (some ["route", "route6"]) (routeBack env)

/-! ## rules.py -/

/-- openwrt/schema.py l.1017-1082 -/
def ruleProps : Dict String JType :=
  [("in", .other), ("out", .other), ("src", .other), ("dest", .other), ("tos", .integer), ("mark", .other), ("lookup", .other),
   ("action", .other), ("goto", .integer), ("invert", .boolean)]

/-- the network under a key of the rule, if the key is there. Simplification: only texts are accepted. -/
def ruleNet (env : Env) (rule : VDict) (k : String) : Except PyErr (Option IpIf) :=
  match Dict.get? rule k with
  | none => .ok none
  | some (.str s) => match ipNetwork env.ip6 s.toList with
    | some i => .ok (some i)
    | none => .error .valueError
  | some _ => .error .valueError

/-- rules.py l.19-35 `__intermediate_rule` -/
def ruleBlock (env : Env) (index : Nat) (rule : VDict) : Except PyErr VDict := do
  let src ← ruleNet env rule "src"
  let dest ← ruleNet env rule "dest"
  let v6 := match dest with
    | some d => d.v6
    | none => match src with
      | some s => s.v6
      | none => false
  let (name, r) ← popOrElse rule "name" (fun _ => .ok (autoName "rule".toList index))
  pure (sortedDict (Dict.update r [(".type", .str (if v6 then "rule6" else "rule")), (".name", name)]))

/-- rules.py l.13-17 -/
def ruleFwd (env : Env) (index : Option Nat) (block : Val) (result : VDict) : Except PyErr VDict := do
  let d ← asDict block
  let b ← ruleBlock env (index.getD 0) d
  pure (appendTo result "network" [.dict b])

/-- rules.py l.46-51 `__netjson_rule` -/
def netjsonRule (i : Nat) (rule : VDict) : Except PyErr VDict := do
  let (name, r) ← popKey rule ".name"
  let r := if name = autoName "rule".toList i then r else Dict.set r "name" name
  let (_, r) ← popKey r ".type"
  typeCast ruleProps r

/-- rules.py l.40-44 `to_netjson_loop` -/
def ruleBack (i : Nat) (rule : VDict) (result : VDict) : Except PyErr VDict := do
  let r ← netjsonRule i rule
  pure (appendTo result "ip_rules" [.dict r])

def rulesConv (env : Env) : Conv := pureConv "ip_rules" (fun config _ => fwd "ip_rules" (ruleFwd env) config)
def rulesBConv : BConv := bwdSimple "network" (some ["rule", "rule6"]) ruleBack

/-! ## switch.py -/

/-- openwrt/schema.py l.1124-1170 -/
def switchProps : Dict String JType := [("name", .other), ("reset", .boolean), ("enable_vlan", .boolean), ("vlan", .other)]
def vlanProps : Dict String JType := [("device", .other), ("vlan", .integer), ("ports", .other)]

/-- switch.py l.57-58 `__get_auto_name` -/
def vlanAutoName (env : Env) (name : Val) (i : Nat) : Val := txt ((pyStr env.reprC name).toList ++ "_vlan".toList ++ showNat i)

/-- switch.py l.42-53: one VLAN -/
def vlanBlock (env : Env) (switchName : Val) (i : Nat) (vlan : VDict) : Except PyErr VDict := do
  let (name, v) ← popOrElse vlan "id" (fun _ => .ok (vlanAutoName env switchName i))
  let v := Dict.update v [(".type", .str "switch_vlan"), (".name", name)]
  if Dict.has v "vid" then pure (sortedDict v)
  else do
    let n ← getKey v "vlan"
    pure (sortedDict (Dict.set v "vid" n))

def vlanBlocks (env : Env) (switchName : Val) : Nat → List Val → Except PyErr (List Val)
  | _, [] => .ok []
  | i, v :: vs => do
    let d ← asDict v
    let b ← vlanBlock env switchName i d
    let bs ← vlanBlocks env switchName (i + 1) vs
    pure (.dict b :: bs)

/-- switch.py l.36-55 `__intermediate_switch` -/
def switchBlocks (env : Env) (switch : VDict) : Except PyErr (List Val) := do
  let (name, s) ← popOrElse switch "id" (fun s => getKey s "name")
  let s := Dict.update s [(".type", .str "switch"), (".name", name)]
  let vlans ← getKey s "vlan"
  let swName ← getKey s "name"
  match vlans with
  | .list l => do
    let vs ← vlanBlocks env swName 1 l
    pure (.dict (sortedDict (Dict.erase s "vlan")) :: vs)
  | _ => .error .typeError

/-- switch.py l.20-24 -/
def switchFwd (env : Env) (_ : Option Nat) (block : Val) (result : VDict) : Except PyErr VDict := do
  let d ← asDict block
  let bs ← switchBlocks env d
  pure (appendTo result "network" bs)

/-- switch.py l.26-34 `to_netjson_clean`: VLANs last -/
def switchClean (l : List Val) : List Val :=
  let isVlan : Val → Bool := fun v => match v with
    | .dict d => Dict.get? d ".type" == some (.str "switch_vlan")
    | _ => false
  l.filter (fun v => !isVlan v) ++ l.filter isVlan

/-- state of the backward conversion: the counter and the map from names to positions in the result -/
abbrev SwitchState := Nat × Dict Val Nat

/-- switch.py l.86-93 `__netjson_vid` -/
def vidBack (vlan : VDict) : Except PyErr VDict :=
  match Dict.get? vlan "vid" with
  | some v => do
    let i ← (match v with
      | .int i => pure (Val.int i)
      | .bool b => pure (Val.int (if b then 1 else 0))
      | v => pyInt v : Except PyErr Val)
    let n ← getKey vlan "vlan"
    if Val.pyEq i n then pure (Dict.erase vlan "vid") else pure (Dict.set vlan "vid" i)
  | none => .ok (Dict.set vlan "vid" .none)

/-- appends a VLAN to the switch at a position -/
def addVlan (switches : List Val) (pos : Nat) (vlan : VDict) : List Val :=
  switches.modify pos (fun s => match s with
    | .dict d => .dict (appendTo d "vlan" [.dict vlan])
    | v => v)

/-- switch.py l.62-82 `to_netjson_loop`. `_switch_map` refers to the dictionaries in the result; here to their positions. -/
def switchBack (env : Env) (_ : Nat) (block : VDict) (acc : SwitchState × VDict) : Except PyErr (SwitchState × VDict) := do
  let (name, b) ← popKey block ".name"
  let (ty, b) ← popKey b ".type"
  let result := appendTo acc.2 "switch" []
  let switches := match Dict.get? result "switch" with
    | some (.list l) => l
    | _ => []
  if ty = .str "switch" then do
    let n ← getKey b "name"
    let b := if name = n then b else Dict.set b "id" name
    let s ← typeCast switchProps b
    let n ← getKey s "name"
    pure ((0, Dict.set acc.1.2 n switches.length), Dict.set result "switch" (.list (switches ++ [.dict s])))
  else do
    let count := acc.1.1 + 1
    let dev ← getKey b "device"
    let b := if name = vlanAutoName env dev count then b else Dict.set b "id" name
    let v ← typeCast vlanProps b
    let v ← vidBack v
    let dev ← getKey v "device"
    match Dict.get? acc.1.2 dev with
    | none => .error .keyError
    | some pos => pure ((count, acc.1.2), Dict.set result "switch" (.list (addVlan switches pos v)))

def switchConv (env : Env) : Conv := pureConv "switch" (fun config _ => fwd "switch" (switchFwd env) config)
def switchBConv (env : Env) : BConv := bwd "network" (some ["switch", "switch_vlan"]) switchClean ((0, []) : SwitchState) (switchBack env)

/-! ## wireguard_peers.py -/

/-- openwrt/schema.py l.1200-1258 with wireguard/schema.py -/
def peerProps : Dict String JType :=
  [("interface", .other), ("public_key", .other), ("allowed_ips", .other), ("endpoint_host", .other), ("endpoint_port", .integer),
   ("preshared_key", .other), ("persistent_keepalive", .integer), ("route_allowed_ips", .boolean)]

/-- wireguard_peers.py l.18-26 `__intermediate_peer` -/
def peerBlock (index : Nat) (peer : VDict) : Except PyErr VDict := do
  let (iface, p) ← popKey peer "interface"
  let iface ← asText iface
  let iface := iface.map (fun c => if c = '-' then '_' else c)
  let name := "wgpeer_".toList ++ iface ++ (if index > 1 then '_' :: showNat index else [])
  let p := Dict.update p [(".type", txt ("wireguard_".toList ++ iface)), (".name", txt name)]
  let p := if !((Dict.get? p "endpoint_host").getD .none).truthy then Dict.erase p "endpoint_port" else p
  pure (sortedDict p)

/-- wireguard_peers.py l.13-16 -/
def peerFwd (index : Option Nat) (block : Val) (result : VDict) : Except PyErr VDict := do
  let d ← asDict block
  let b ← peerBlock (index.getD 0) d
  pure (appendTo result "network" [.dict b])

/-- wireguard_peers.py l.33-37 `__netjson_peer` -/
def netjsonPeer (block : VDict) : Except PyErr VDict := do
  let (_, p) ← popKey block ".name"
  let (ty, p) ← popKey p ".type"
  let ty ← asText ty
  let p := Dict.set p "interface" (txt (replaceAll "wireguard_".toList [] ty))
  typeCast peerProps p

/-- wireguard_peers.py l.28-31 `to_netjson_loop` -/
def peerBack (_ : Nat) (block : VDict) (result : VDict) : Except PyErr VDict := do
  let p ← netjsonPeer block
  pure (appendTo result "wireguard_peers" [.dict p])

def peersConv : Conv := pureConv "wireguard_peers" (fun config _ => fwd "wireguard_peers" peerFwd config)
def peersBConv : BConv := bwdSimple "network" none peerBack

/-! ## default.py -/

/-- default.py l.43-51: what the block in the configuration becomes (it is changed in place) -/
def defaultBlock (env : Env) (i : Nat) (block : VDict) : Except PyErr VDict := do
  let (ty, b) ← popKey block "config_name"
  let b := Dict.set b ".type" ty
  let (name, b) := popOr b "config_value" (txt ((pyStr env.reprC ty).toList ++ '_' :: showNat i))
  let name ← asText name
  pure (Dict.set b ".name" (txt (uciName name)))

/-- default.py l.29-55: the blocks of one package: what becomes of the list in the configuration, and the blocks of the result -/
def defaultBlocks (env : Env) : Nat → List Val → List Val × Except PyErr (List Val)
  | _, [] => ([], .ok [])
  | i, v :: vs => match v with
    | .dict b =>
      if Dict.has b "config_name" then
        match defaultBlock env i b with
        | .error e => (v :: vs, .error e)
        | .ok b' =>
          let r := defaultBlocks env (i + 1) vs
          (.dict b' :: r.1, do
            let bs ← r.2
            pure (.dict (sortedDict b') :: bs))
      else
        let r := defaultBlocks env i vs
        (v :: r.1, r.2)
    | _ =>
      let r := defaultBlocks env i vs
      (v :: r.1, r.2)

/-- default.py l.21-58: the loop over the configuration. Simplification: after an exception the blocks handled before it in the
same package are shown unchanged. -/
def defaultLoop (env : Env) (known : List String) : List (String × Val) → VDict × Except PyErr VDict
  | [] => ([], .ok [])
  | (k, v) :: r =>
    match v with
    | .list l =>
      if k ∈ known then
        let x := defaultLoop env known r
        ((k, v) :: x.1, x.2)
      else
        match defaultBlocks env 1 l with
        | (l', .error e) => ((k, .list l') :: r, .error e)
        | (l', .ok bs) =>
          let x := defaultLoop env known r
          ((k, .list l') :: x.1, do
            let rest ← x.2
            pure (if bs.isEmpty then rest else (k, .list bs) :: rest))
    | _ =>
      let x := defaultLoop env known r
      ((k, v) :: x.1, x.2)

/-- default.py l.19-58 `to_intermediate` -/
def defaultConv (env : Env) (known : List String) : Conv :=
  ⟨fun _ => true, fun config _ =>
    let x := defaultLoop env known config
    (x.1, do
      let r ← x.2
      pure (sortedDict r))⟩

/-- default.py l.66-74: one block -/
def defaultBlockBack (env : Env) (index : Nat) (block : VDict) : Except PyErr VDict := do
  let (name, b) ← popKey block ".name"
  let (ty, b) ← popKey b ".type"
  let b := if name = txt ((pyStr env.reprC ty).toList ++ '_' :: showNat index) then b else Dict.set b "config_value" name
  pure (Dict.set b "config_name" ty)

def defaultBlocksBack (env : Env) : Nat → List Val → Except PyErr (List Val)
  | _, [] => .ok []
  | i, v :: vs => do
    let d ← asDict v
    let b ← defaultBlockBack env i d
    let bs ← defaultBlocksBack env (i + 1) vs
    pure (.dict b :: bs)

/-- default.py l.62-75 `to_netjson` -/
def defaultBack (env : Env) : List (String × Val) → Except PyErr VDict
  | [] => .ok []
  | (k, v) :: r => do
    let rest ← defaultBack env r
    match v with
    | .list [] => pure rest
    | .list l => do
      let bs ← defaultBlocksBack env 1 l
      pure ((k, .list bs) :: rest)
    | _ => .error .typeError

def defaultBConv (env : Env) : BConv := ⟨fun _ => true, fun config _ inter => ((config, inter), defaultBack env inter)⟩

end NJ
