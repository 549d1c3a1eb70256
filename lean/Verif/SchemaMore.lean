import Verif.SchemaData2
import Verif.SchemaChecks

/-!
# Validation of the other backends
-/

namespace NJ

/-- base/backend.py l.159-163 with the schema of a backend -/
def schemaValidate (root : VDict) (ip6 : Ip6) (config : VDict) : Except PyErr Unit :=
  if valid ip6 root schemaDepth (.dict root) (.dict config) then .ok () else .error .validation

theorem owValidate_eq (ip6 : Ip6) (config : VDict) : owValidate ip6 config = schemaValidate owSchema ip6 config := rfl

/-- `schema["a"]["b"]… = value` -/
def setAt : VDict → List String → Val → VDict
  | d, [], _ => d
  | d, [k], v => Dict.set d k v
  | d, k :: ks, v => match Dict.get? d k with
    | some (.dict e) => Dict.set d k (.dict (setAt e ks v))
    | _ => d

/-- openwisp/schema.py l.9, 47-53 -/
def owispMerged (sh : Val → Bool) : Except PyErr VDict := do
  let a ← mergeConfig sh [] owSchema owispPatch
  pure (setAt a ["definitions", "tunnel", "properties", "comp_lzo", "enum"]
    (.list [.str "adaptive", .str "1", .str "yes", .str "0", .str "no"]))

/-- the schema of OpenWisp is the result of the merge with that of OpenWrt and of the assignment -/
theorem owisp_merged : owispMerged (fun _ => false) = .ok owispSchema ∧ owispMerged (fun _ => true) = .ok owispSchema := by
  constructor <;> decide +kernel

/-- openvpn/schema.py l.963-964: the schema OpenWrt's is merged from, and `files` -/
theorem openvpn_schema : openvpnSchema = setAt vpnSchema ["properties", "files"] owSchema_pro_files ∧
    schemaAt (.dict baseSchema) [.inl "properties", .inl "files"] = some owSchema_pro_files := by
  constructor <;> decide +kernel

/-- vxlan/schema.py l.53-54 -/
theorem vxlan_schema : vxlanSchema = setAt wireguardSchema ["properties", "vxlan"] vxlanSchema_pro_vxlan := by decide +kernel

/-- the schemas of the backends -/
def schemas : List VDict := [owSchema, owispSchema, openvpnSchema, wireguardSchema, vxlanSchema, zerotierSchema]

/-- every keyword, pattern and format of the schemas is known to the validator, at every place the validator reaches -/
theorem schemas_known : ∀ root ∈ schemas, everywhere keywordsOk root schemaDepth (.dict root) = true := by
  have h : schemas.all (fun root => everywhere keywordsOk root schemaDepth (.dict root)) = true := by decide +kernel
  exact List.all_eq_true.1 h

end NJ
