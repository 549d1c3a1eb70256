import Verif.Conv

/-!
# OpenVPN

openvpn/converters.py, openvpn/templates/openvpn.jinja2, openvpn/renderer.py, openvpn/parser.py, openvpn/openvpn.py,
openwrt/converters/openvpn.py and `BaseVpnBackend` of base/backend.py.

Simplifications: `openvpn` is a list and `files`, when present, is a list (the schema asks for it).
-/

namespace NJ

/-! ## NetJSON to OpenVPN (openvpn/converters.py) -/

/-- l.28 and l.39: `value in [False, 0, ""]` -/
def removedVpn : Val → Bool
  | .bool b => !b
  | .int i => i == 0
  | .str s => s == ""
  | _ => false

/-- openwrt/converters/openvpn.py l.24: `value in [""]` -/
def removedUci : Val → Bool
  | .str s => s == ""
  | _ => false

/-- l.32-33 -/
def bareBridge (c : VDict) : VDict :=
  if Dict.get? c "server_bridge" = some (.str "") then Dict.set c "server_bridge" (.bool true) else c

/-- l.29 -/
def vpnSkipKeys : List String := ["script_security", "remote"]

/-- l.34-43 -/
def dropRemoved (remove : Val → Bool) (c : VDict) : VDict :=
  c.filter (fun p => decide (p.1 ∈ vpnSkipKeys) || !remove p.2)

/-- l.46-53: one remote as text -/
def remoteText (env : Env) (r : Val) : Except PyErr Val :=
  match r with
  | .dict d => do
    let host ← getKey d "host"
    let port ← getKey d "port"
    let base := pyStr env.reprC host ++ " " ++ pyStr env.reprC port
    pure (.str (match Dict.get? d "proto" with
      | some p => if p = .str "auto" then base else base ++ " " ++ pyStr env.reprC p
      | none => base))
  | _ => .error .attributeError

/-- l.44-54; simplification: `remote` that is not a list is an `AttributeError` -/
def remotesText (env : Env) (c : VDict) : Except PyErr VDict :=
  match Dict.get? c "remote" with
  | none => .ok c
  | some (.list l) => do
    let l ← l.mapM (remoteText env)
    pure (Dict.set c "remote" (.list l))
  | some _ => .error .attributeError

/-- l.55-57 -/
def statusVersion (c : VDict) : VDict :=
  if Dict.has c "status" then c else Dict.erase c "status_version"

/-- l.68-70: one cipher as text -/
def cipherText (env : Env) (v : Val) : Except PyErr Chars :=
  match v with
  | .dict d => do
    let name ← getKey d "cipher"
    let optional ← getKey d "optional"
    let name := (pyStr env.reprC name).toList
    pure (if optional.truthy then '?' :: name else name)
  | _ => .error .typeError

/-- l.62-73 `__output_data_ciphers` -/
def dataCiphers (env : Env) (c : VDict) : Except PyErr VDict :=
  let v := (Dict.get? c "data_ciphers").getD .none
  if !v.truthy then .ok c
  else match v with
    | .list l => do
      let ts ← l.mapM (cipherText env)
      pure (Dict.set c "data_ciphers" (txt (joinWith [':'] ts)))
    | _ => .error .typeError

/-- l.87-89: the path of the key, in the directory of the CA -/
def tlsAuthPath (ca dev : Chars) : Chars := joinWith ['/'] ((splitOn '/' ca).dropLast ++ [dev ++ "_tls_auth.key".toList])

/-- schema.py `X509_FILE_MODE` -/
def x509Mode : String := "0600"

/-- l.75-105 `__add_tls_auth_key`: the options, and the file to add -/
def tlsAuth (env : Env) (c : VDict) : Except PyErr (VDict × Option VDict) :=
  let v := (Dict.get? c "tls_auth").getD .none
  if !v.truthy then .ok (c, none)
  else do
    let t ← asText v
    let t := strip t
    if (splitOn ' ' t).length = 2 then pure (c, none)
    else do
      let ca ← asText ((Dict.get? c "ca").getD (.str ""))
      let dev := (pyStr env.reprC ((Dict.get? c "dev").getD (.str ""))).toList
      let path := tlsAuthPath ca dev
      let direction := if Dict.get? c "mode" = some (.str "server") then '0' else '1'
      pure (Dict.set c "tls_auth" (txt (path ++ [' ', direction])),
        some [("path", txt path), ("mode", .str x509Mode), ("contents", txt t)])

/-- l.27-60 `__intermediate_vpn`: the block, and the file to add to the configuration -/
def vpnBlock (env : Env) (remove : Val → Bool) (c : VDict) : Except PyErr (VDict × Option VDict) := do
  let c ← remotesText env (dropRemoved remove (bareBridge c))
  let c ← dataCiphers env (statusVersion c)
  let (c, f) ← tlsAuth env c
  pure (sortedDict c, f)

/-- l.101-104: `self.netjson["files"].append(file)` -/
def addVpnFile (config : VDict) : Option VDict → VDict
  | some f => appendTo config "files" [.dict f]
  | none => config

/-- base/converter.py l.80-83 with l.21-25: the configuration, which gets the files, and the blocks -/
def vpnBlocks (conv1 : VDict → Except PyErr (VDict × Option VDict)) : VDict → List Val → VDict × Except PyErr (List Val)
  | config, [] => (config, .ok [])
  | config, v :: vs => match asDict v >>= conv1 with
    | .error e => (config, .error e)
    | .ok (b, f) =>
      let r := vpnBlocks conv1 (addVpnFile config f) vs
      (r.1, do
        let bs ← r.2
        pure (.dict b :: bs))

/-- base/converter.py l.71-86 `to_intermediate` for OpenVPN -/
def vpnRun (conv1 : VDict → Except PyErr (VDict × Option VDict)) (config _inter : VDict) : VDict × Except PyErr VDict :=
  match (Dict.get? config "openvpn").getD .none with
  | .list l =>
    let r := vpnBlocks conv1 config l
    (r.1, do
      let bs ← r.2
      pure (if bs.isEmpty then [] else [("openvpn", .list bs)]))
  | _ => (config, .error .attributeError)

def vpnConv (conv1 : VDict → Except PyErr (VDict × Option VDict)) : Conv := ⟨fun config => Dict.has config "openvpn", vpnRun conv1⟩

/-- openvpn/openvpn.py l.15 -/
def openvpnConv (env : Env) : Conv := vpnConv (vpnBlock env removedVpn)

/-! ## NetJSON to UCI (openwrt/converters/openvpn.py) -/

/-- l.9-10: `vpn.get("fragment") == 0` -/
def isZero : Option Val → Bool
  | some (.int i) => i == 0
  | some (.bool b) => !b
  | _ => false

/-- l.18-23 -/
def tlsCipherList (c : VDict) : VDict :=
  match Dict.get? c "tls_cipher" with
  | some (.str s) => if s = "" then c else
      Dict.set c "tls_cipher" (.list (((splitOn ':' s.toList).filter (fun w => !w.isEmpty)).map txt))
  | _ => c

/-- l.8-24 `__intermediate_vpn` -/
def uciVpnBlock (env : Env) (vpn : VDict) : Except PyErr (VDict × Option VDict) := do
  let vpn := if isZero (Dict.get? vpn "fragment") then Dict.erase vpn "fragment" else vpn
  let (name, vpn) ← popKey vpn "name"
  let name ← asText name
  let (disabled, vpn) := popOr vpn "disabled" (.bool false)
  let vpn := Dict.update vpn [(".name", txt (uciName name)), (".type", .str "openvpn"), ("enabled", .bool (!disabled.truthy))]
  vpnBlock env removedUci (tlsCipherList vpn)

def uciVpnConv (env : Env) : Conv := vpnConv (uciVpnBlock env)

/-! ## OpenVPN to NetJSON (openvpn/converters.py) -/

/-- the integer and boolean properties of `openvpn_definitions` (l.7-13, openvpn/schema.py); the others are not cast -/
def openvpnProps : Dict String JType :=
  [("port", .integer), ("mtu_test", .boolean), ("fragment", .integer), ("mssfix", .integer), ("persist_tun", .boolean),
   ("persist_key", .boolean), ("tun_ipv6", .boolean), ("up_delay", .integer), ("script_security", .integer), ("mute", .integer),
   ("status_version", .integer), ("mute_replay_warnings", .boolean), ("reneg_sec", .integer), ("tls_timeout", .integer),
   ("float", .boolean), ("auth_nocache", .boolean), ("fast_io", .boolean), ("verb", .integer), ("remote_random", .boolean),
   ("nobind", .boolean), ("tls_client", .boolean), ("pull", .boolean), ("tls_server", .boolean), ("duplicate_cn", .boolean),
   ("client_to_client", .boolean), ("client_cert_not_required", .boolean), ("username_as_common_name", .boolean)]

/-- l.120-126: one remote -/
def remoteBack (r : Val) : Except PyErr Val := do
  let t ← asText r
  match words t with
  | [h, p, q] => do
    let port ← pyInt (txt p)
    pure (.dict [("host", txt h), ("port", port), ("proto", txt q)])
  | h :: p :: _ => do
    let port ← pyInt (txt p)
    pure (.dict [("host", txt h), ("port", port)])
  | _ => .error .indexError

/-- l.117-127: a text is gone through character by character -/
def remotesBack (c : VDict) : Except PyErr VDict :=
  match Dict.get? c "remote" with
  | none => .ok c
  | some (.list l) => do
    let l ← l.mapM remoteBack
    pure (Dict.set c "remote" (.list l))
  | some (.str s) => do
    let l ← (s.toList.map (fun x => txt [x])).mapM remoteBack
    pure (Dict.set c "remote" (.list l))
  | some _ => .error .typeError

/-- l.138-140: one cipher -/
def cipherBack (t : Chars) : Val :=
  match t with
  | '?' :: r => .dict [("cipher", txt r), ("optional", .bool true)]
  | r => .dict [("cipher", txt r), ("optional", .bool false)]

/-- l.131-142 `__netjson_data_ciphers` -/
def dataCiphersBack (c : VDict) : Except PyErr VDict :=
  let v := (Dict.get? c "data_ciphers").getD .none
  if !v.truthy then .ok c
  else do
    let t ← asText v
    pure (Dict.set c "data_ciphers" (.list ((splitOn ':' t).map cipherBack)))

/-- l.115-116 -/
def bareBridgeBack (c : VDict) : VDict :=
  if Dict.get? c "server_bridge" = some (.bool true) then Dict.set c "server_bridge" (.str "") else c

/-- l.113-129 `__netjson_vpn` -/
def netjsonVpn (vpn : VDict) : Except PyErr VDict := do
  let c ← typeCast openvpnProps vpn
  let c ← remotesBack (bareBridgeBack c)
  dataCiphersBack c

/-- l.107-111 `to_netjson_loop` -/
def vpnBack (one : VDict → Except PyErr VDict) (_ : Nat) (block : VDict) (result : VDict) : Except PyErr VDict := do
  let v ← one block
  pure (appendTo result "openvpn" [.dict v])

def openvpnBConv : BConv := bwdSimple "openvpn" none (vpnBack netjsonVpn)

/-! ## UCI to NetJSON (openwrt/converters/openvpn.py) -/

def textItem : Val → Except PyErr Chars
  | .str s => .ok s.toList
  | _ => .error .typeError

/-- l.33-34 -/
def tlsCipherText (c : VDict) : Except PyErr VDict :=
  match Dict.get? c "tls_cipher" with
  | some (.list (x :: l)) => do
    let ts ← (x :: l).mapM textItem
    pure (Dict.set c "tls_cipher" (txt (joinWith [':'] ts)))
  | _ => .ok c

/-- l.26-35 `__netjson_vpn` -/
def uciNetjsonVpn (vpn : VDict) : Except PyErr VDict := do
  let c := if Dict.get? vpn "server_bridge" = some (.str "1") then Dict.set vpn "server_bridge" (.str "") else vpn
  let (enabled, c) := popOr c "enabled" (.str "0")
  let c := Dict.set c "disabled" (.bool (decide (enabled = .str "0")))
  let (name, c) ← popKey c ".name"
  let c := Dict.set c "name" name
  let (_, c) ← popKey c ".type"
  let c ← tlsCipherText c
  netjsonVpn c

def uciVpnBConv : BConv := bwdSimple "openvpn" (some ["openvpn"]) (vpnBack uciNetjsonVpn)

/-! ## Rendering (openvpn/templates/openvpn.jinja2, openvpn/renderer.py) -/

/-- `key.replace('_', '-')` -/
def dashed (k : String) : Chars := k.toList.map (fun c => if c = '_' then '-' else c)

/-- openvpn.jinja2 l.7-15: the text of one option; white space between the tags stays (`trim_blocks` removes only the line
break after a tag) -/
def rawVpnValue (reprC : Val → String) (key : Chars) : Val → Chars
  | .bool true => sp 16 ++ key ++ ['\n'] ++ sp 12
  | .none => []
  | .list l => sp 16 ++ l.flatMap (fun v => sp 20 ++ key ++ [' '] ++ (pyStr reprC v).toList ++ ['\n'] ++ sp 16) ++ sp 12
  | .dict d => sp 16 ++ d.flatMap (fun p => sp 20 ++ key ++ [' '] ++ p.1.toList ++ ['\n'] ++ sp 16) ++ sp 12
  | v => sp 16 ++ key ++ [' '] ++ (pyStr reprC v).toList ++ ['\n'] ++ sp 12

/-- openvpn.jinja2 l.4-17 -/
def rawVpnOption (reprC : Val → String) (p : String × Val) : Chars :=
  sp 8 ++ sp 8 ++ (if dashed p.1 = "name".toList then [] else sp 12 ++ rawVpnValue reprC (dashed p.1) p.2 ++ sp 8) ++ sp 4

def vpnKw : Chars := "# openvpn config:".toList

/-- openvpn.jinja2 l.1-19 -/
def rawVpn (reprC : Val → String) (b : VDict) : Chars :=
  vpnKw ++ [' '] ++ fieldText reprC b "name" ++ ['\n', '\n'] ++ sp 4 ++ b.flatMap (rawVpnOption reprC) ++ ['\n']

/-- openvpn/renderer.py l.9-15 `cleanup` (the one of WireGuard is the same) -/
def vpnCleanup (s : Chars) : Chars := dropFinalBreak (replaceAll (sp 4) [] s)

def renderVpns (reprC : Val → String) (bs : List VDict) : Chars := vpnCleanup (bs.flatMap (rawVpn reprC))

/-- base/renderer.py l.40-50 `render` for OpenVPN; without `openvpn` in the data nothing is written -/
def vpnNative (reprC : Val → String) (inter : VDict) : Except PyErr Chars :=
  match Dict.get? inter "openvpn" with
  | none => .ok (renderVpns reprC [])
  | some v => do
    let bs ← blocksOf v
    pure (renderVpns reprC bs)

/-! ## Parsing (openvpn/parser.py) -/

/-- l.49-55: one line, stripped and not empty: `^([^\s]*) ?(.*)$` -/
def vpnLine (line : Chars) : String × Val :=
  let key := line.takeWhile (fun c => !isSpace c)
  let rest := line.dropWhile (fun c => !isSpace c)
  let value := (stripPrefix [' '] rest).getD rest
  (String.ofList (key.map (fun c => if c = '-' then '_' else c)), if value.isEmpty then .bool true else txt value)

/-- l.45-55 -/
def vpnLines (config : VDict) : List Chars → VDict
  | [] => config
  | l :: ls =>
    if (strip l).isEmpty then vpnLines config ls
    else vpnLines (Dict.set config (vpnLine (strip l)).1 (vpnLine (strip l)).2) ls

/-- l.41-56 `_get_config` -/
def vpnConfig (contents : Chars) : VDict :=
  let lines := splitOn '\n' contents
  sortedDict (vpnLines [("name", txt (lines.headD []))] lines.tail)

/-- l.31-39 `_get_vpns` -/
def parseVpn (text : Chars) : Except PyErr VDict :=
  .ok [("openvpn", .list (((splitKw vpnKw true 0 text).filter (fun r => !(strip r).isEmpty)).map (fun r => .dict (vpnConfig (strip r)))))]

def confSuffix : Chars := ".conf".toList

/-- l.16-29 `parse_tar`: the text made from the members -/
def vpnTarText : List Member → Except PyErr Chars
  | [] => .ok []
  | m :: ms =>
    if confSuffix <:+ m.name then do
      let contents ← decodeUtf8 m.data
      let r ← vpnTarText ms
      pure (vpnKw ++ [' '] ++ replaceAll confSuffix [] m.name ++ ['\n', '\n'] ++ contents ++ ['\n'] ++ r)
    else vpnTarText ms

def parseVpnTar (ms : List Member) : Except PyErr VDict := do
  let t ← vpnTarText ms
  parseVpn t

/-! ## The archive (base/backend.py l.421-456 `BaseVpnBackend`) -/

/-- `s.split(pat)[0]` -/
def beforeText (pat : Chars) : Chars → Chars
  | [] => []
  | c :: cs => if (stripPrefix pat (c :: cs)).isSome then [] else c :: beforeText pat cs

/-- l.441-456: the file of one VPN -/
def vpnMember (suffix vpn : Chars) : Except PyErr Member :=
  let lines := splitOn '\n' vpn
  addFile (beforeText suffix (lines.headD []) ++ suffix) (dropFinalBreak (joinWith ['\n'] (lines.drop 2))) "0644".toList

/-- l.430-456 `_generate_contents`, from the text on -/
def vpnSplit (kw suffix text : Chars) : Except PyErr (List Member) :=
  (removeFirstEmpty (splitKw kw true 0 text)).mapM (vpnMember suffix)

/-! ## Automatic clients (openvpn/openvpn.py) -/

/-- l.73-78: the certificate type asked by the client -/
def certType : Val → Except PyErr Val
  | .none => .ok (.str "")
  | .str "" => .ok (.str "")
  | .str "client" => .ok (.str "server")
  | .list _ => .error .typeError
  | .dict _ => .error .typeError
  | _ => .error .keyError

/-- l.90-121 `copy_keys` -/
def copyKeys : List String :=
  ["name", "dev_type", "dev", "comp_lzo", "compress", "allow_compression", "auth", "cipher", "ca", "cert", "key", "pkcs12",
   "mtu_test", "fragment", "mssfix", "keepalive", "persist_tun", "mute", "persist_key", "user", "group", "mute_replay_warnings",
   "secret", "reneg_sec", "tls_timeout", "tls_cipher", "float", "fast_io", "verb", "auth_nocache"]

/-- l.122-124 -/
def copyKey (server client : VDict) (k : String) : VDict :=
  match Dict.get? server k with
  | some v => Dict.set client k v
  | none => client

/-- l.79-89 -/
def clientTlsAuth (server client : VDict) : Except PyErr VDict :=
  let v := (Dict.get? server "tls_auth").getD .none
  if !v.truthy then .ok client
  else do
    let t ← asText v
    pure (if (splitOn ' ' (strip t)).length = 2 then client else Dict.set client "tls_auth" v)

/-- l.129-132 -/
def clientLog (server client : VDict) : Except PyErr VDict :=
  match Dict.get? server "log" with
  | none => .ok client
  | some v => do
    let t ← asText v
    pure (Dict.set client "log" (txt (replaceAll "/var/log/openvpn/".toList "/var/log/".toList t)))

/-- l.52-72: what is known before the certificate types -/
def clientBase (host : Val) (server : VDict) : VDict :=
  let port := (Dict.get? server "port").getD .none
  let c : VDict := [("mode", .str "p2p"), ("nobind", .bool true), ("resolv_retry", .str "infinite"), ("tls_client", .bool true),
    ("remote", .list [.dict [("host", host), ("port", if port.truthy then port else .int 1195)]]),
    ("proto", .str (if Dict.get? server "proto" = some (.str "tcp-server") then "tcp-client" else "udp"))]
  let c := if Dict.has server "server" || Dict.has server "server_bridge" then Dict.set c "pull" (.bool true) else c
  if ((Dict.get? server "tls_server").getD .none).truthy then c else Dict.set c "tls_client" (.bool false)

/-- l.159-177: one of the three files of `_auto_client_files` -/
def clientFile (key : String) (path contents : Val) (st : VDict × List Val) : VDict × List Val :=
  if path.truthy && contents.truthy then
    (Dict.set st.1 key path, st.2 ++ [.dict [("path", path), ("contents", contents), ("mode", .str x509Mode)]])
  else st

/-- l.23-142 `auto_client`; the three pairs are path and contents of CA, certificate and key (`None` when not given) -/
def vpnAutoClient (host : Val) (server : VDict) (ca cert key : Val × Val) : Except PyErr VDict := do
  let c := clientBase host server
  let ns ← certType ((Dict.get? server "ns_cert_type").getD .none)
  let c := Dict.set c "ns_cert_type" ns
  let rc ← certType ((Dict.get? server "remote_cert_tls").getD .none)
  let c := Dict.set c "remote_cert_tls" rc
  let c ← clientTlsAuth server c
  let c := copyKeys.foldl (copyKey server) c
  let c := if Dict.has server "script_security" then Dict.set c "script_security" (.int 2) else c
  let c ← clientLog server c
  let (c, files) := clientFile "key" key.1 key.2 (clientFile "cert" cert.1 cert.2 (clientFile "ca" ca.1 ca.2 (c, [])))
  pure [("openvpn", .list [.dict c]), ("files", .list files)]

/-! ## The class -/

/-- openvpn/openvpn.py l.9-21; the schema and the functions of the library are parameters -/
def openvpnClass (env : Env) (schema : VDict → Except PyErr Unit) (sh : Val → Bool) (loads : Chars → Option Val) : Class where
  pre := fun _ => .ok ()
  schema := schema
  post := fun _ => .ok ()
  convs := [openvpnConv env]
  bconvs := [openvpnBConv]
  native := vpnNative env.reprC
  split := vpnSplit vpnKw confSuffix
  ids := ["name"]
  sh := sh
  reprC := env.reprC
  loads := loads
  parser := some parseVpn

end NJ
