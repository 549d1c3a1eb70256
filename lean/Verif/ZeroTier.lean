import Verif.InterfacesBack

/-!
# ZeroTier in the OpenWrt backend (openwrt/converters/zerotier.py, with zerotier/converters.py)

Simplifications: networks and files are dictionaries in lists (the schema asks for it), and so is the list of ZeroTier entries.
-/

namespace NJ

/-- the path used when there is none -/
def ztPath : Val := .str "/etc/openwisp/zerotier"

/-- l.100-103: one line of the map -/
def ztLine (env : Env) (v : Val) : Except PyErr Chars := do
  let n ← asDict v
  pure ((pyStr env.reprC ((Dict.get? n "id").getD (.str ""))).toList ++ '=' ::
    (pyStr env.reprC ((Dict.get? n "ifname").getD .none)).toList ++ ['\n'])

/-- `vpn.get("networks", [])` -/
def ztNetworks (vpn : VDict) : Except PyErr (List Val) :=
  match Dict.get? vpn "networks" with
  | none => .ok []
  | some (.list l) => .ok l
  | some _ => .error .typeError

/-- l.113-118: the files with another path, and the contents of those with this one -/
def ztMerge (path : Chars) : List Val → Except PyErr (List Val × Chars)
  | [] => .ok ([], [])
  | v :: vs => do
    let f ← asDict v
    if Dict.get? f "path" = some (txt path) then do
      let c ← getKey f "contents"
      let c ← textItem c
      let r ← ztMerge path vs
      pure (r.1, '\n' :: c ++ r.2)
    else do
      let r ← ztMerge path vs
      pure (v :: r.1, r.2)

/-- l.95-121 `__get_zt_ifname_files` -/
def ztFiles (env : Env) (vpn : VDict) (files : List Val) : Except PyErr (List Val) := do
  let path := (pyStr env.reprC ((Dict.get? vpn "config_path").getD ztPath)).toList ++ "/devicemap".toList
  let ns ← ztNetworks vpn
  let lines ← ns.mapM (ztLine env)
  let (others, more) ← ztMerge path files
  pure (others ++ [.dict [("path", txt path), ("mode", .str "0644"), ("contents", txt ("# network_id=interface_name\n".toList ++ lines.flatten ++ more))]])

/-- `networks.get("id", "")` -/
def ztId (v : Val) : Except PyErr Val := do
  let n ← asDict v
  pure ((Dict.get? n "id").getD (.str ""))

/-- l.33-36 -/
def ztLocalConf (d : VDict) : VDict :=
  let a := (Dict.get? d "local_conf").getD .none
  let b := (Dict.get? d "local_conf_path").getD .none
  if a.truthy then Dict.set d "local_conf_path" a
  else if b.truthy then Dict.set d "local_conf" b
  else d

/-- l.19-37 `__intermediate_vpn` without the files, with zerotier/converters.py l.16-18 -/
def ztBlock (vpn : VDict) : Except PyErr VDict := do
  let ns ← ztNetworks vpn
  let (name, d) ← popKey vpn "name"
  let name ← asText name
  let path := (Dict.get? d "config_path").getD ztPath
  let copy := (Dict.get? d "copy_config_path").getD (.str "1")
  let ids ← ns.mapM ztId
  let (disabled, d) := popOr d "disabled" (.bool false)
  let d := Dict.update d [(".name", txt (uciName name)), (".type", .str "zerotier"), ("config_path", path), ("copy_config_path", copy),
    ("join", .list ids), ("enabled", .bool (!disabled.truthy))]
  pure (sortedDict (Dict.erase (ztLocalConf d) "client_options"))

/-- l.39-48 `__intermediate_network` -/
def ztNetwork (v : Val) : Except PyErr Val := do
  let n ← asDict v
  let (ifname, n) ← popKey n "ifname"
  let ifname ← asText ifname
  pure (.dict (sortedDict (Dict.update n [(".name", txt (uciName ifname)), (".type", .str "network")])))

/-- l.10-17 after the files: the blocks of one entry -/
def ztBlocks (vpn : VDict) : Except PyErr (List Val) := do
  let d ← ztBlock vpn
  let (ns, d) ← popKey d "networks"
  match ns with
  | .list l => do
    let l ← l.mapM ztNetwork
    pure (.dict d :: l)
  | _ => .error .typeError

/-- `self.netjson.get("files", [])` -/
def netjsonFiles (config : VDict) : Except PyErr (List Val) :=
  match Dict.get? config "files" with
  | none => .ok []
  | some (.list l) => .ok l
  | some _ => .error .typeError

/-- l.19-22: the configuration with the map of one entry -/
def ztConfig (env : Env) (config vpn : VDict) : Except PyErr VDict := do
  let files ← netjsonFiles config
  let files ← ztFiles env vpn files
  pure (Dict.set config "files" (.list files))

/-- base/converter.py l.80-83: the configuration, which gets the files, and the blocks -/
def ztAll (env : Env) : VDict → List Val → VDict × Except PyErr (List Val)
  | config, [] => (config, .ok [])
  | config, v :: vs =>
    match asDict v with
    | .error e => (config, .error e)
    | .ok vpn => match ztConfig env config vpn with
      | .error e => (config, .error e)
      | .ok config => match ztBlocks vpn with
        | .error e => (config, .error e)
        | .ok bs =>
          let r := ztAll env config vs
          (r.1, do
            let more ← r.2
            pure (bs ++ more))

def ztRun (env : Env) (config _inter : VDict) : VDict × Except PyErr VDict :=
  match (Dict.get? config "zerotier").getD .none with
  | .list l =>
    let r := ztAll env config l
    (r.1, do
      let bs ← r.2
      pure (if bs.isEmpty then [] else [("zerotier", .list bs)]))
  | _ => (config, .error .attributeError)

def ztConv (env : Env) : Conv := ⟨fun config => Dict.has config "zerotier", ztRun env⟩

/-! ## UCI to NetJSON -/

/-- openwrt/schema.py l.1269-1398 -/
def ztProps : Dict String JType :=
  [("disabled", .boolean), ("name", .other), ("networks", .other), ("secret", .other), ("config_path", .other), ("copy_config_path", .other),
   ("port", .integer), ("local_conf_path", .other)]

/-- l.92-93 `_get_ifname_from_id` -/
def ztIfname : Val → Except PyErr Val
  | .str s => .ok (txt ("owzt".toList ++ s.toList.drop (s.toList.length - 6)))
  | _ => .error .typeError

/-- l.69-72: one network joined -/
def ztJoin (v : Val) : Except PyErr Val := do
  let n ← ztIfname v
  pure (.dict [("id", v), ("ifname", n)])

/-- l.62-75 `__netjson_vpn` with zerotier/converters.py l.26-28 -/
def ztVpnBack (vpn : VDict) : Except PyErr VDict := do
  let (name, d) ← popKey vpn ".name"
  let (enabled, d) := popOr (Dict.set d "name" name) "enabled" (.str "0")
  let d := Dict.set d "disabled" (.bool (decide (enabled = .str "0")))
  let (_, d) ← popKey d ".type"
  let (ids, d) := popOr d "join" (.list [])
  let ids ← iterate ids
  let ns ← ids.mapM ztJoin
  let d := Dict.set d "networks" (.list ns)
  typeCast ztProps (match Dict.get? d "local_conf" with
    | some v => Dict.set (Dict.erase d "local_conf") "local_conf_path" v
    | none => d)

/-- l.77-90 `__netjson_network` -/
def ztNetworkBack (network : VDict) : Except PyErr VDict := do
  let (_, d) ← popKey network ".name"
  let (_, d) ← popKey d ".type"
  let id ← getKey d "id"
  let n ← ztIfname id
  pure (["allow_global", "allow_default", "allow_dns", "allow_managed"].foldl castBool (Dict.set d "ifname" n))

/-- l.59: `result["zerotier"][0]["networks"].append(network)` -/
def addNetwork (result : VDict) (n : VDict) : Except PyErr VDict := do
  let l ← getKey result "zerotier"
  match l with
  | .list (.dict v :: rest) => do
    let ns ← getKey v "networks"
    match ns with
    | .list ns => pure (Dict.set result "zerotier" (.list (.dict (Dict.set v "networks" (.list (ns ++ [.dict n]))) :: rest)))
    | _ => .error .attributeError
  | _ => .error .indexError

/-- l.50-60 `to_netjson_loop` -/
def ztBack (_ : Nat) (block : VDict) (result : VDict) : Except PyErr VDict :=
  if Dict.get? block ".type" = some (.str "zerotier") then do
    let v ← ztVpnBack block
    pure (appendTo result "zerotier" [.dict v])
  else do
    let n ← ztNetworkBack block
    addNetwork result n

def ztBConv : BConv := bwdSimple "zerotier" (some ["zerotier", "network"]) ztBack

/-! ## Automatic clients -/

/-- zerotier/zerotier.py l.17-37 `auto_client`, openwrt/openwrt.py `zerotier_auto_client`; an argument not given is `none`. The
networks are changed in place: they are part of the result. -/
structure ZtArgs where
  name : Option Val
  networks : Option (List VDict)
  secret : Option Val
  configPath : Option Val
  disabled : Option Val
  clientOptions : Option VDict

def ztAutoClient (a : ZtArgs) : VDict :=
  [("zerotier", .list [.dict [("name", a.name.getD (.str "global")),
    ("networks", .list ((a.networks.getD []).map (fun n => .dict (Dict.update n (a.clientOptions.getD []))))),
    ("secret", a.secret.getD (.str "{{secret}}")), ("config_path", a.configPath.getD ztPath), ("disabled", a.disabled.getD (.bool false))]])]

end NJ
