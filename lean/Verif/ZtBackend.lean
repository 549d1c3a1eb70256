import Verif.Json
import Verif.OpenVpn

/-!
# The ZeroTier backend (netjsonconfig/backends/zerotier)
-/

namespace NJ

/-! ## Converter (zerotier/converters.py) -/

/-- l.16-18 `__intermediate_vpn` -/
def ztnBlock (c : VDict) : VDict := sortedDict (Dict.erase c "client_options")

/-- l.10-14 `to_intermediate_loop` -/
def ztnFwd (_ : Option Nat) (block : Val) (result : VDict) : Except PyErr VDict := do
  let d ← asDict block
  pure (appendTo result "zerotier" [.dict (ztnBlock d)])

def ztnConv : Conv := pureConv "zerotier" (fun config _ => fwd "zerotier" ztnFwd config)

/-- zerotier/schema.py l.17-300: the types that matter (`remoteTraceTarget` is `["string", "null"]`, of which the first counts) -/
def ztnProps : Dict String JType :=
  [("name", .other), ("id", .other), ("nwid", .other), ("objtype", .other), ("revision", .integer), ("creationTime", .other), ("client_options", .other),
   ("capabilities", .other), ("dns", .other), ("enableBroadcast", .boolean), ("ipAssignmentPools", .other), ("mtu", .integer),
   ("multicastLimit", .integer), ("private", .boolean), ("remoteTraceLevel", .integer), ("remoteTraceTarget", .other), ("routes", .other),
   ("rules", .other), ("tags", .other), ("v4AssignMode", .other), ("v6AssignMode", .other)]

/-- l.20-24 `to_netjson_loop` -/
def ztnBack (_ : Nat) (block : VDict) (result : VDict) : Except PyErr VDict := do
  let v ← typeCast ztnProps block
  pure (appendTo result "zerotier" [.dict v])

def ztnBConv : BConv := bwdSimple "zerotier" none ztnBack

/-! ## Rendering (zerotier/templates/zerotier.jinja2, zerotier/renderer.py) -/

def ztnKw : Chars := "// zerotier controller config:".toList
def jsonSuffix : Chars := ".json".toList

/-- zerotier.jinja2 l.2-5 -/
def rawZtn (reprC : Val → String) (b : VDict) : Chars :=
  ztnKw ++ [' '] ++ fieldText reprC b "nwid" ++ jsonSuffix ++ ['\n', '\n'] ++ tojson4 (.dict b) ++ ['\n', '\n']

/-- zerotier/renderer.py l.9-13 `cleanup` -/
def renderZtn (reprC : Val → String) (bs : List VDict) : Chars := dropFinalBreak (bs.flatMap (rawZtn reprC))

/-- base/renderer.py l.40-50 `render` for ZeroTier -/
def ztnNative (reprC : Val → String) (inter : VDict) : Except PyErr Chars :=
  match Dict.get? inter "zerotier" with
  | none => .ok (renderZtn reprC [])
  | some v => do
    let bs ← blocksOf v
    pure (renderZtn reprC bs)

/-! ## Parsing (zerotier/parser.py) -/

/-- how far `(\*(?!\/)|[^*])*\*\/` reaches: up to the end of the first `*/` -/
def starSlash : Chars → Option Nat
  | [] => none
  | c :: cs => if c = '*' ∧ cs.head? = some '/' then some 2 else (starSlash cs).map (· + 1)

/-- l.33: the length of `\/\*(\*(?!\/)|[^*])*\*\/` or `\/\/.*` at this place -/
def commentAt : Chars → Option (Unit × Nat)
  | '/' :: '*' :: cs => (starSlash cs).map (fun n => ((), n + 2))
  | '/' :: '/' :: cs => some ((), (cs.takeWhile (· ≠ '\n')).length + 2)
  | _ => none

/-- l.33 `re.sub(…, "", text)` -/
def dropComments (s : Chars) : Chars := (scan commentAt 0 s).flatMap (fun x => match x with | .inl c => [c] | .inr () => [])

/-- l.38 `re.split(r"\n{2,}", text)`; the flag tells that line breaks belong to the separator -/
def splitBlank : Bool → Chars → List Chars
  | _, [] => [[]]
  | true, c :: cs => if c = '\n' then splitBlank true cs else consHead [c] (splitBlank false cs)
  | false, c :: cs => if c = '\n' ∧ cs.head? = some '\n' then [] :: splitBlank true cs else consHead [c] (splitBlank false cs)

/-- l.41: `loads`, which may raise `JSONDecodeError`, a `ValueError` -/
def loadsOrRaise (s : Chars) : Except PyErr Val :=
  match jsonLoads s with
  | some v => .ok v
  | none => .error .valueError

/-- l.13-14, l.31-45 `parse_text` -/
def parseZtn (text : Chars) : Except PyErr VDict := do
  let vs ← ((splitBlank false (strip (dropComments text))).filter (fun r => !(strip r).isEmpty)).mapM loadsOrRaise
  pure [("zerotier", .list vs)]

/-- l.16-29 `parse_tar`: the text made from the members -/
def ztnTarText : List Member → Except PyErr Chars
  | [] => .ok []
  | m :: ms =>
    if jsonSuffix <:+ m.name then do
      let contents ← decodeUtf8 m.data
      let r ← ztnTarText ms
      pure (ztnKw ++ [' '] ++ m.name ++ ['\n', '\n'] ++ contents ++ ['\n'] ++ r)
    else ztnTarText ms

def parseZtnTar (ms : List Member) : Except PyErr VDict := do
  let t ← ztnTarText ms
  parseZtn t

/-! ## The class -/

/-- zerotier/zerotier.py l.8-16; the schema and the functions of the library are parameters -/
def zerotierClass (env : Env) (schema : VDict → Except PyErr Unit) (sh : Val → Bool) : Class where
  pre := fun _ => .ok ()
  schema := schema
  post := fun _ => .ok ()
  convs := [ztnConv]
  bconvs := [ztnBConv]
  native := ztnNative env.reprC
  split := vpnSplit ztnKw jsonSuffix
  ids := []
  sh := sh
  reprC := env.reprC
  loads := jsonLoads
  parser := some parseZtn

end NJ
