import Verif.Radio

/-!
# The checks of the OpenWrt backend besides the schema (openwrt/openwrt.py `validate`, `_validate_radios`)
-/

namespace NJ

/-- openwrt.py l.181-192: one radio; anything but a dictionary has no item "protocol" (`TypeError`) -/
def checkRadio (radio : Val) : Except PyErr Unit :=
  match radio with
  | .dict d => do
    let refused ← radioRefused d
    if refused then .error .jsonSchema else pure ()
  | _ => .error .typeError

/-- openwrt.py l.174-192 `_validate_radios` (called before the schema validation) -/
def validateRadios (config : VDict) : Except PyErr Unit :=
  match Dict.get? config "radios" with
  | none => .ok ()
  | some (.list l) => l.forM checkRadio
  | some (.dict d) => if d.isEmpty then .ok () else .error .typeError
  | some (.str s) => if s = "" then .ok () else .error .typeError
  | some _ => .error .typeError

/-- `d.get(key, [])`, to be iterated: after the schema validation it is a list of objects; anything else is an
error of one kind or another -/
def dictsAt (d : VDict) (key : String) : Except PyErr (List VDict) :=
  match Dict.get? d key with
  | none => .ok []
  | some (.list l) => l.mapM asDict
  | some _ => .error .typeError

/-- openwrt.py l.67-77: one port; `seen` is `pvid_mapping` -/
def pvidPort (seen : List Val) (port : VDict) : Except PyErr (List Val) :=
  if ((Dict.get? port "primary_vid").getD (.bool false)).truthy then do
    let name ← getKey port "ifname"
    if seen.any (fun s => Val.pyEq name s) then .error .validation else pure (seen ++ [name])
  else .ok seen

/-- openwrt.py l.66-77: one VLAN -/
def pvidVlan (seen : List Val) (vlan : VDict) : Except PyErr (List Val) := do
  let ports ← dictsAt vlan "ports"
  ports.foldlM pvidPort seen

/-- openwrt.py l.62-77: one interface -/
def pvidInterface (interface : VDict) : Except PyErr Unit :=
  if Dict.get? interface "type" ≠ some (.str "bridge") then .ok ()
  else do
    let vlans ← dictsAt interface "vlan_filtering"
    let _ ← vlans.foldlM pvidVlan []
    pure ()

/-- openwrt.py l.60-77 -/
def validatePvid (config : VDict) : Except PyErr Unit := do
  let interfaces ← dictsAt config "interfaces"
  interfaces.forM pvidInterface

end NJ
