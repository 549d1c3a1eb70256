import Verif.OpenWrt

/-!
# The OpenWISP 1.x backend (netjsonconfig/backends/openwisp/)

Modelled: the template `openwrt.jinja2` of this backend, `_sanitize_radios`, the archive with its members for the packages, the
scripts added to the configuration and the additional files. The texts made from the templates of the scripts (`install.sh`,
`uninstall.sh`, `vpn_script_up.sh`, `vpn_script_down.sh`, `tc_script.sh`) are parameters here; see `OpenWispScripts` for them.
-/

namespace NJ

/-! ## The text -/

/-- a text between single quotes -/
def inQuotes (s : Chars) : Chars := '\'' :: s ++ ['\'']

/-- openwisp/templates/openwrt.jinja2 l.6-18: as that of OpenWrt, with the option names in quotes -/
def owRawOption (reprC : Val → String) (p : String × Val) : Chars :=
  sp 12 ++ (if isRendered p then sp 16 ++ rawValue reprC (inQuotes p.1.toList) p.2 ++ sp 12 else []) ++ sp 8

/-- openwisp/templates/openwrt.jinja2 l.5-20: the type of the block is in quotes -/
def owRawBlock (reprC : Val → String) (b : VDict) : Chars :=
  sp 8 ++ kwConfig ++ [' '] ++ inQuotes (fieldText reprC b ".type") ++ [' ', '\''] ++ fieldText reprC b ".name" ++ ['\'', '\n'] ++
  sp 8 ++ b.flatMap (owRawOption reprC) ++ ['\n'] ++ sp 4

/-- openwisp/templates/openwrt.jinja2 l.1-22 -/
def owRawPackage (reprC : Val → String) (p : String × List VDict) : Chars :=
  sp 4 ++ kwPackage ++ [' '] ++ p.1.toList ++ ['\n', '\n'] ++ sp 4 ++ p.2.flatMap (owRawBlock reprC) ++ ['\n']

/-- the text; `cleanup` is inherited (openwisp/renderer.py) -/
def owText (reprC : Val → String) (data : List (String × List VDict)) : Chars := uciCleanup (data.flatMap (owRawPackage reprC))

/-- base/renderer.py l.40-50 `render` -/
def owNative (reprC : Val → String) (inter : VDict) : Except PyErr Chars := do
  let data ← packagesOf inter
  pure (owText reprC data)

/-! ## The members for the packages -/

/-- `re.split(w, text)` for a text `w` without special characters; the number counts the characters of a match still to be skipped -/
def splitLit (w : Chars) : Nat → Chars → List Chars
  | _, [] => [[]]
  | k + 1, _ :: cs => splitLit w k cs
  | 0, c :: cs => if w <+: c :: cs then [] :: splitLit w (w.length - 1) cs else consHead [c] (splitLit w 0 cs)

def packageWord : Chars := "package ".toList

/-- openwisp.py l.168-177, for one piece -/
def owPiece (package : Chars) : Except PyErr Member :=
  let lines := splitOn '\n' package
  let name := lines.headD []
  addFile ("uci/".toList ++ name ++ ".conf".toList) (packageWord ++ name ++ ['\n', '\n'] ++ joinWith ['\n'] (lines.drop 2)) "0644".toList

/-- openwisp.py l.162-177: `_generate_contents` from the text on -/
def owSplit (uci : Chars) : Except PyErr (List Member) := (removeFirstEmpty (splitLit packageWord 0 uci)).mapM owPiece

/-! ## Radios -/

/-- openwisp.py l.34: `radio.setdefault("disabled", False)` -/
def owRadio : Val → Except PyErr Val
  | .dict r => .ok (.dict (if (Dict.get? r "disabled").isSome then r else Dict.set r "disabled" (.bool false)))
  | _ => .error .attributeError

/-- openwisp.py l.33-34: the loop; radios before a failing one are changed -/
def owRadios : List Val → List Val × Except PyErr Unit
  | [] => ([], .ok ())
  | r :: rs =>
    match owRadio r with
    | .error e => (r :: rs, .error e)
    | .ok r' => (r' :: (owRadios rs).1, (owRadios rs).2)

/-- openwisp.py l.27-34 `_sanitize_radios`: the configuration afterwards. Iterating over a text or a dictionary gives texts, which
have no `setdefault`. -/
def owSanitize (config : VDict) : VDict × Except PyErr Unit :=
  match Dict.get? config "radios" with
  | none => (config, .ok ())
  | some (.list l) => (Dict.set config "radios" (.list (owRadios l).1), (owRadios l).2)
  | some (.dict d) => (config, if d.isEmpty then .ok () else .error .attributeError)
  | some (.str s) => (config, if s.isEmpty then .ok () else .error .attributeError)
  | some _ => (config, .error .typeError)

/-- openwisp.py l.23-25 `validate`: the configuration afterwards, and whether it is valid -/
def owispValidate (cls : Class) (config : VDict) : VDict × Except PyErr Unit :=
  match owSanitize config with
  | (c, .error e) => (c, .error e)
  | (c, .ok ()) => (c, validate cls c)

/-- `render`: base/backend.py l.222-253 with that `validate`. It is called once more at the beginning of `to_intermediate`, where
`_sanitize_radios` changes nothing any more (`owSanitize_again`). -/
def owRender (cls : Class) (files : Bool) (st : BState) : BState × Except PyErr Chars :=
  match owSanitize st.config with
  | (c, .error e) => (⟨c, st.inter⟩, .error e)
  | (c, .ok ()) => render cls files ⟨c, st.inter⟩

/-! ## The scripts -/

/-- the texts made from the templates of the scripts -/
structure OwScripts where
  install : VDict → Except PyErr Chars
  uninstall : VDict → Except PyErr Chars
  up : Chars
  down : Chars
  tc : VDict → Except PyErr Chars

/-- `config.get(k, [])`, iterated. Simplification: a value that is no list (refused by the schema) is a `TypeError`. -/
def owItems (config : VDict) (k : String) : Except PyErr (List Val) :=
  match Dict.get? config k with
  | none => .ok []
  | some (.list l) => .ok l
  | some _ => .error .typeError

/-- openwisp.py l.58-62, l.113-121: the VPNs of layer 2 -/
def owTaps : List Val → Except PyErr (List VDict)
  | [] => .ok []
  | .dict v :: vs => do
    let r ← owTaps vs
    pure (if Dict.get? v "dev_type" = some (.str "tap") then v :: r else r)
  | _ :: _ => .error .attributeError

/-- `(d.get(k)).truthy` -/
def isGiven (d : VDict) (k : String) : Bool := ((Dict.get? d k).getD .none).truthy

/-- openwisp.py l.68-71: a bridge, with protocol and address of its first address. Simplification: an address list that is not a list of
dictionaries (refused by the schema) is a `TypeError`. -/
def owBridge (i : VDict) : Except PyErr VDict :=
  if isGiven i "addresses" then
    match Dict.get? i "addresses" with
    | some (.list (.dict a :: _)) =>
      .ok (Dict.set (Dict.set i "proto" ((Dict.get? a "proto").getD .none)) "ip" ((Dict.get? a "address").getD .none))
    | _ => .error .typeError
  else .ok i

/-- openwisp.py l.65-72 -/
def owBridges : List Val → Except PyErr (List VDict)
  | [] => .ok []
  | .dict i :: is => do
    let ty ← getKey i "type"
    let b ← if ty = .str "bridge" then do let b ← owBridge i; pure [b] else pure []
    let r ← owBridges is
    pure (b ++ r)
  | _ :: _ => .error .typeError

/-- openwisp.py l.74-79: is there a file in `crontabs` -/
def owCron : List Val → Except PyErr Bool
  | [] => .ok false
  | f :: fs => do
    let p ← filePath f
    if "/crontabs".toList <+: p ∨ "crontabs".toList <+: p then pure true else owCron fs

/-- openwisp.py l.82: `config.get("general", {}).get("hostname", "OpenWISP1")` -/
def owHostname (config : VDict) : Except PyErr Val :=
  match Dict.get? config "general" with
  | none => .ok (.str "OpenWISP1")
  | some (.dict g) => .ok ((Dict.get? g "hostname").getD (.str "OpenWISP1"))
  | some _ => .error .attributeError

/-- openwisp.py l.51-87 `_get_install_context` -/
def owContext (config : VDict) : Except PyErr VDict := do
  let vpns ← owItems config "openvpn"
  let taps ← owTaps vpns
  let ifs ← owItems config "interfaces"
  let bridges ← owBridges ifs
  let files ← owItems config "files"
  let cron ← owCron files
  let host ← owHostname config
  pure [("hostname", host), ("l2vpn", .list (taps.map .dict)), ("bridges", .list (bridges.map .dict)),
    ("radios", (Dict.get? config "radios").getD (.list [])), ("cron", .bool cron)]

/-- a script: path, contents, mode 755 -/
def owScript (path contents : Chars) : Val := .dict [("path", txt path), ("contents", txt contents), ("mode", .str "755")]

/-- openwisp.py l.44-49 `_add_unique_file` and the `setdefault("files", [])` before it. Simplification: `files` that is no list (refused by
the schema) is a `TypeError`. -/
def owAddFile (config : VDict) (item : Val) : Except PyErr VDict :=
  match Dict.get? config "files" with
  | none => .ok (Dict.set config "files" (.list [item]))
  | some (.list l) => .ok (if l.any (fun f => Val.pyEq item f) then config else Dict.set config "files" (.list (l ++ [item])))
  | some _ => .error .typeError

/-- `path.split("/")[-1]` -/
def lastPart (s : Chars) : Chars := (splitOn '/' s).getLastD []

/-- the script named by the option `k` of a VPN, openwisp.py l.117-120, l.123-139 -/
def owVpnFile (v : VDict) (k : String) (text : Chars) : Except PyErr (List Val) :=
  if isGiven v k then
    match Dict.get? v k with
    | some (.str s) => .ok (if (lastPart s.toList).isEmpty then [] else [owScript ("/openvpn/".toList ++ lastPart s.toList) text])
    | _ => .error .attributeError
  else .ok []

/-- openwisp.py l.111-139 `_add_openvpn_scripts`: the files to be added -/
def owVpnFiles (sc : OwScripts) (config : VDict) : Except PyErr (List Val) := do
  let vpns ← owItems config "openvpn"
  let taps ← owTaps vpns
  let fs ← taps.mapM (fun v => do
    let up ← owVpnFile v "up" sc.up
    let down ← owVpnFile v "down" sc.down
    pure (up ++ down))
  pure fs.flatten

/-- openwisp.py l.178-187: the files added to the configuration, in order. Simplification: they are computed before any of them is added,
which matters only when one of the later ones fails (the context of the tc script and the VPNs do not depend on the files). -/
def owAdded (sc : OwScripts) (config : VDict) : Except PyErr (List Val) := do
  let ctx ← owContext config
  let a ← sc.install ctx
  let b ← sc.uninstall ctx
  let v ← owVpnFiles sc config
  let c ← sc.tc [("tc_options", (Dict.get? config "tc_options").getD (.list []))]
  pure ([owScript "/install.sh".toList a, owScript "/uninstall.sh".toList b] ++ v ++ [owScript "/tc_script.sh".toList c])

/-- base/backend.py l.271-296 `generate` with openwisp.py l.154-182 -/
def owGenerate (cls : Class) (sc : OwScripts) (st : BState) : BState × Except PyErr (List Member) :=
  match owRender cls false st with
  | (st', .error e) => (st', .error e)
  | (st', .ok text) =>
    match (do
      let ms ← cls.split text
      let fs ← owAdded sc st'.config
      let config ← fs.foldlM owAddFile st'.config
      pure (ms, config)) with
    | .error e => (st', .error e)
    | .ok (ms, config) => (⟨config, st'.inter⟩, do
      let fs ← processFiles config
      pure (ms ++ fs))

/-- openwisp.py l.10-21 -/
def openwispClass (env : Env) (schema : VDict → Except PyErr Unit) (sh : Val → Bool) (loads : Chars → Option Val) (dsa : Bool) : Class :=
  { openwrtClass env schema sh loads dsa with
    convs := [generalConv env, ntpConv, ledConv env, ifacesConv sh env dsa, routesConv env, rulesConv env, switchConv env,
      radiosConv env dsa, wirelessConv env dsa, uciVpnConv env, peersConv, ztConv env, defaultConv env (knownKeys ++ ["tc_options"])]
    native := owNative env.reprC
    split := owSplit }

end NJ
