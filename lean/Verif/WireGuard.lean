import Verif.OpenVpn

/-!
# WireGuard and VXLAN over WireGuard

wireguard/converters.py, wireguard/templates/wireguard.jinja2, wireguard/renderer.py, wireguard/wireguard.py,
vxlan/vxlan_wireguard.py and the automatic clients of openwrt/openwrt.py.

Simplifications: `wireguard` and `peers` are lists (the schema asks for it).
-/

namespace NJ

/-! ## NetJSON to WireGuard (wireguard/converters.py) -/

/-- l.9-21 `_forward_property_map` without the three required properties -/
def wgOptional : List (String × String) :=
  [("dns", "DNS"), ("mtu", "MTU"), ("save_config", "SaveConfig"), ("table", "Table"), ("pre_up", "PreUp"), ("post_up", "PostUp"),
   ("pre_down", "PreDown"), ("post_down", "PostDown")]

/-- l.31-32 with l.10-12 -/
def wgRequired : List (String × String) := [("port", "ListenPort"), ("private_key", "PrivateKey"), ("address", "Address")]

/-- l.32: `config[new] = config.pop(old)` -/
def renamePop (c : VDict) (p : String × String) : Except PyErr VDict := do
  let (v, c) ← popKey c p.1
  pure (Dict.set c p.2 v)

/-- l.38: `value not in ["", None, []]` -/
def wgGiven : Option Val → Bool
  | none => false
  | some .none => false
  | some (.str s) => s != ""
  | some (.list l) => !l.isEmpty
  | _ => true

/-- l.40: `",".join(value)`; a text is gone through character by character -/
def commaJoin : Val → Except PyErr Val
  | .list l => do
    let ts ← l.mapM textItem
    pure (txt (joinWith [','] ts))
  | .str s => .ok (txt (joinWith [','] (s.toList.map (fun c => [c]))))
  | .dict d => .ok (txt (joinWith [','] (d.map (fun p => p.1.toList))))
  | _ => .error .typeError

/-- l.39-42: the value written for an optional property -/
def wgValue (option : String) (v : Val) : Except PyErr Val :=
  if option = "dns" then commaJoin v
  else if option = "save_config" then .ok (.str (if v.truthy then "true" else "false"))
  else .ok v

/-- l.38-45 -/
def wgOption (c : VDict) (p : String × String) : Except PyErr VDict :=
  match Dict.get? c p.1 with
  | some v =>
    if wgGiven (some v) then do
      let v ← wgValue p.1 v
      pure (Dict.set (Dict.erase c p.1) p.2 v)
    else .ok (Dict.erase c p.1)
  | none => .ok c

/-- l.57-58 -/
def wgEndpoint (env : Env) (host port : Val) (p : VDict) : VDict :=
  if host.truthy && port.truthy then Dict.set p "Endpoint" (.str (pyStr env.reprC host ++ ":" ++ pyStr env.reprC port)) else p

/-- l.52-59: one peer -/
def wgPeer (env : Env) (v : Val) : Except PyErr Val := do
  let p ← asDict v
  let (ips, p) ← popKey p "allowed_ips"
  let p := Dict.set p "AllowedIPs" ips
  let (key, p) ← popKey p "public_key"
  let p := Dict.set p "PublicKey" key
  let (psk, p) := popOr p "preshared_key" .none
  let p := Dict.set p "PreSharedKey" psk
  let (host, p) := popOr p "endpoint_host" .none
  let (port, p) := popOr p "endpoint_port" .none
  pure (.dict (sortedDict (wgEndpoint env host port p)))

/-- l.46: `config.get("peers", [])` -/
def wgPeerList (c : VDict) : Except PyErr (List Val) :=
  match Dict.get? c "peers" with
  | none => .ok []
  | some (.list l) => .ok l
  | some _ => .error .typeError

/-- l.29-47 `__intermediate_vpn` -/
def wgBlock (env : Env) (c : VDict) : Except PyErr VDict := do
  let c ← wgRequired.foldlM renamePop c
  let c ← wgOptional.foldlM wgOption c
  let ps ← wgPeerList c
  let ps ← ps.mapM (wgPeer env)
  pure (sortedDict (Dict.set c "peers" (.list ps)))

/-- l.23-27 `to_intermediate_loop` -/
def wgFwd (env : Env) (_ : Option Nat) (block : Val) (result : VDict) : Except PyErr VDict := do
  let d ← asDict block
  let b ← wgBlock env d
  pure (appendTo result "wireguard" [.dict b])

def wgConv (env : Env) : Conv := pureConv "wireguard" (fun config _ => fwd "wireguard" (wgFwd env) config)

/-! ## Rendering (wireguard/templates/wireguard.jinja2, wireguard/renderer.py) -/

def wgKw : Chars := "# wireguard config:".toList

/-- `{{ key }} = {{ value }}` -/
def wgLine (reprC : Val → String) (p : String × Val) : Chars := p.1.toList ++ [' ', '=', ' '] ++ (pyStr reprC p.2).toList

/-- l.5-9 -/
def rawWgOption (reprC : Val → String) (p : String × Val) : Chars :=
  sp 12 ++ (if p.1 = "name" ∨ p.1 = "peers" then [] else sp 16 ++ wgLine reprC p ++ ['\n'] ++ sp 12) ++ sp 8

/-- l.13-17 -/
def rawWgPeerOption (reprC : Val → String) (p : String × Val) : Chars :=
  sp 12 ++ (if p.2.truthy then sp 16 ++ wgLine reprC p ++ ['\n'] ++ sp 12 else []) ++ sp 8

/-- l.12-19 -/
def rawWgPeer (reprC : Val → String) (p : VDict) : Chars :=
  sp 4 ++ "[Peer]".toList ++ ['\n'] ++ sp 8 ++ p.flatMap (rawWgPeerOption reprC) ++ ['\n'] ++ sp 4

/-- l.1-20; the peers are the items of a list of dictionaries -/
def rawWg (reprC : Val → String) (b : VDict) : Except PyErr Chars := do
  let ps ← (match Dict.get? b "peers" with
    | some v => blocksOf v
    | none => .ok [])
  pure (sp 4 ++ wgKw ++ [' '] ++ fieldText reprC b "name" ++ ['\n'] ++ ['\n'] ++ sp 4 ++ "[Interface]".toList ++ ['\n'] ++ sp 8 ++
    b.flatMap (rawWgOption reprC) ++ ['\n'] ++ sp 4 ++ ps.flatMap (rawWgPeer reprC))

def renderWgs (reprC : Val → String) (bs : List VDict) : Except PyErr Chars := do
  let ts ← bs.mapM (rawWg reprC)
  pure (vpnCleanup ts.flatten)

/-- base/renderer.py l.40-50 `render` for WireGuard -/
def wgNative (reprC : Val → String) (inter : VDict) : Except PyErr Chars :=
  match Dict.get? inter "wireguard" with
  | none => renderWgs reprC []
  | some v => do
    let bs ← blocksOf v
    renderWgs reprC bs

/-- wireguard/wireguard.py l.8-15 (`parser` is `None`), also vxlan/vxlan_wireguard.py l.5 with another schema -/
def wireguardClass (env : Env) (schema : VDict → Except PyErr Unit) (sh : Val → Bool) (loads : Chars → Option Val) : Class where
  pre := fun _ => .ok ()
  schema := schema
  post := fun _ => .ok ()
  convs := [wgConv env]
  bconvs := []
  native := wgNative env.reprC
  split := vpnSplit wgKw confSuffix
  ids := []
  sh := sh
  reprC := env.reprC
  loads := loads
  parser := none

/-! ## Automatic clients -/

/-- wireguard/wireguard.py l.16-41 `auto_client`: the defaults of the arguments are given by `none` -/
structure WgArgs where
  host : Option Val
  publicKey : Option Val
  server : Option VDict
  port : Option Val
  privateKey : Option Val
  ipAddress : Option Val
  serverIpNetwork : Option Val

/-- wireguard/wireguard.py l.28-42 -/
def wgAutoClient (a : WgArgs) : VDict :=
  [("interface_name", (Dict.get? (a.server.getD []) "name").getD (.str "")),
   ("client", .dict [("port", a.port.getD (.int 51820)), ("private_key", a.privateKey.getD (.str "{{private_key}}")),
     ("ip_address", a.ipAddress.getD .none)]),
   ("server", .dict [("public_key", a.publicKey.getD (.str "")), ("endpoint_host", a.host.getD (.str "")),
     ("endpoint_port", (Dict.get? (a.server.getD []) "port").getD (.int 51820)),
     ("allowed_ips", .list [a.serverIpNetwork.getD (.str "")])])]

/-- `data[k][l]` -/
def getIn (d : VDict) (k l : String) : Except PyErr Val := do
  let v ← getKey d k
  match v with
  | .dict d => getKey d l
  | _ => .error .typeError

/-- openwrt/openwrt.py l.102-144 `wireguard_auto_client` -/
def wireguardAutoClient (a : WgArgs) : Except PyErr VDict := do
  let data := wgAutoClient a
  let name ← getKey data "interface_name"
  let key ← getIn data "client" "private_key"
  let port ← getIn data "client" "port"
  let ip ← getIn data "client" "ip_address"
  let pub ← getIn data "server" "public_key"
  let ips ← getIn data "server" "allowed_ips"
  let host ← getIn data "server" "endpoint_host"
  let eport ← getIn data "server" "endpoint_port"
  let addresses : List Val := if ip.truthy then
    [.dict [("proto", .str "static"), ("family", .str "ipv4"), ("address", ip), ("mask", .int 32)]] else []
  pure [("interfaces", .list [.dict [("name", name), ("type", .str "wireguard"), ("private_key", key), ("port", port), ("mtu", .int 1420),
      ("nohostroute", .bool false), ("fwmark", .str ""), ("ip6prefix", .list []), ("addresses", .list addresses), ("network", .str "")]]),
    ("wireguard_peers", .list [.dict [("interface", name), ("public_key", pub), ("allowed_ips", ips), ("endpoint_host", host),
      ("endpoint_port", eport), ("preshared_key", .str ""), ("persistent_keepalive", .int 60), ("route_allowed_ips", .bool true)]])]

/-- the arguments of vxlan/vxlan_wireguard.py l.9 `auto_client` -/
structure VxlanArgs where
  vni : Option Val
  serverIp : Option Val
  vxlan : Option VDict

/-- vxlan/vxlan_wireguard.py l.18-24 -/
def vxlanAutoClient (a : VxlanArgs) : VDict :=
  [("server_ip_address", a.serverIp.getD (.str "")), ("vni", a.vni.getD (.int 0)),
   ("name", (Dict.get? (a.vxlan.getD []) "name").getD (.str "vxlan"))]

/-- openwrt/openwrt.py l.146-167 `vxlan_wireguard_auto_client` -/
def vxlanWireguardAutoClient (a : WgArgs) (x : VxlanArgs) : Except PyErr VDict := do
  let config ← wireguardAutoClient a
  let data := vxlanAutoClient x
  let ifs ← getKey config "interfaces"
  match ifs with
  | .list (.dict wg :: rest) => do
    let tunlink ← getKey wg "name"
    let name ← getKey data "name"
    let vtep ← getKey data "server_ip_address"
    let vni ← getKey data "vni"
    pure (Dict.set config "interfaces" (.list (.dict wg :: rest ++ [.dict [("name", name), ("type", .str "vxlan"), ("vtep", vtep),
      ("port", .int 4789), ("vni", vni), ("tunlink", tunlink), ("rxcsum", .bool true), ("txcsum", .bool true), ("mtu", .int 1280),
      ("ttl", .int 64), ("mac", .str ""), ("disabled", .bool false), ("network", .str "")]])))
  | _ => .error .typeError

end NJ
