import Verif.Schema
import Verif.OpenWrt
import Verif.InterfacesBack

/-!
# Checks of the schemas

The schema of the OpenWrt backend is the result of the merges of openwrt/schema.py; the tables of types of the model are those of the schema;
the depth given to the validator is enough; every keyword and every pattern of the schema is known to the validator.
-/

namespace NJ

/-- openwrt/schema.py l.21, 1405, 1407 -/
def mergedSchema (sh : Val → Bool) : Except PyErr VDict := do
  let a ← mergeConfig sh [] baseSchema owPatch
  let b ← mergeConfig sh [] a vpnSchema
  mergeConfig sh [] b owPatch2

/-- the schema is the result of the merges, whether equal elements of lists are the same object or not -/
theorem schema_merged : mergedSchema (fun _ => false) = .ok owSchema ∧ mergedSchema (fun _ => true) = .ok owSchema := by
  constructor <;> decide +kernel

/-- the keys the default converter ignores are those of the schema (default.py l.21) -/
theorem schema_keys : Dict.keys owSchema_properties = knownKeys := by decide

/-! ## Tables of types -/

/-- a place in a schema: `schema["a"]["b"][0]` -/
def schemaAt (v : Val) (path : List (String ⊕ Nat)) : Option Val :=
  path.foldl (fun v k => match v, k with
    | some (.dict d), .inl k => Dict.get? d k
    | some (.list l), .inr i => l[i]?
    | _, _ => none) (some v)

/-- base/converter.py l.46-60: the types that matter; of several the first one -/
def jtypeOf : Val → JType
  | .dict d => match Dict.get? d "type" with
    | some (.str "integer") => .integer
    | some (.str "boolean") => .boolean
    | some (.list (.str "integer" :: _)) => .integer
    | some (.list (.str "boolean" :: _)) => .boolean
    | _ => .other
  | _ => .other

/-- `schema["properties"]` as a table of types -/
def propTypes (v : Option Val) : Dict String JType :=
  match v with
  | some (.dict d) => match Dict.get? d "properties" with
    | some (.dict ps) => ps.map (fun p => (p.1, jtypeOf p.2))
    | _ => []
  | _ => []

def owAt (path : List (String ⊕ Nat)) : Dict String JType := propTypes (schemaAt (.dict owSchema) path)

/-- the two tables say the same, whatever the order -/
def sameTable (a b : Dict String JType) : Bool :=
  a.all (fun p => decide (Dict.get? b p.1 = some p.2)) && b.all (fun p => decide (Dict.get? a p.1 = some p.2))

/-- openvpn/converters.py l.7-13: the properties of tunnels, of clients and of servers -/
def vpnTypes : Dict String JType :=
  let types (p : List (String ⊕ Nat)) := propTypes (schemaAt (.dict vpnSchema) p)
  Dict.update (Dict.update (types [.inl "definitions", .inl "tunnel"]) (types [.inl "definitions", .inl "client", .inl "allOf", .inr 1]))
    (types [.inl "definitions", .inl "server"])

/-- the tables of the model are those the converters read from the schema -/
theorem schema_types :
    sameTable (owAt [.inl "properties", .inl "ntp"]) ntpProps = true ∧
    sameTable (owAt [.inl "properties", .inl "led", .inl "items"]) ledProps = true ∧
    sameTable (owAt [.inl "properties", .inl "routes", .inl "items"]) routeProps = true ∧
    sameTable (owAt [.inl "properties", .inl "ip_rules", .inl "items"]) ruleProps = true ∧
    sameTable (owAt [.inl "properties", .inl "switch", .inl "items"]) switchProps = true ∧
    sameTable (owAt [.inl "properties", .inl "switch", .inl "items", .inl "properties", .inl "vlan", .inl "items"]) vlanProps = true ∧
    sameTable (owAt [.inl "properties", .inl "wireguard_peers", .inl "items"]) peerProps = true ∧
    sameTable (owAt [.inl "properties", .inl "zerotier", .inl "items"]) ztProps = true ∧
    sameTable (owAt [.inl "definitions", .inl "modemmanager_interface", .inl "allOf", .inr 0]) modemProps = true ∧
    sameTable (owAt [.inl "definitions", .inl "wireguard_interface", .inl "allOf", .inr 0]) wgProps = true ∧
    sameTable (owAt [.inl "definitions", .inl "vxlan_interface", .inl "allOf", .inr 0]) vxlanProps = true ∧
    sameTable (vpnTypes.filter (fun p => decide (p.2 ≠ .other))) openvpnProps = true := by
  decide +kernel

/-! ## The depth is enough -/

/-- the schemas a keyword looks into -/
def subSchemas (k : String) (arg : Val) : List Val :=
  match k, arg with
  | "items", s => [s]
  | "properties", .dict ps => Dict.values ps
  | "allOf", .list l => l
  | "anyOf", .list l => l
  | "oneOf", .list l => l
  | "not", s => [s]
  | _, _ => []

/-- the statement holds of the schema and of the schemas inside it, references followed, and there are no more than `n` of them inside each other -/
def everywhere (P : VDict → Bool) (root : VDict) : Nat → Val → Bool
  | 0, _ => false
  | n + 1, .dict s => match Dict.get? s "$ref" with
    | some (.str r) => match resolveRef root r with
      | some t => everywhere P root n t
      | none => false
    | _ => P s && s.all (fun p => (subSchemas p.1 p.2).all (everywhere P root n))
  | _ + 1, _ => false

theorem all_congr {α : Type} {l : List α} {f g : α → Bool} (h : ∀ x ∈ l, f x = g x) : l.all f = l.all g := by
  induction l with
  | nil => rfl
  | cons a r ih =>
    rw [List.all_cons, List.all_cons, h a List.mem_cons_self, ih fun x hx => h x (List.mem_cons_of_mem _ hx)]

theorem any_congr {α : Type} {l : List α} {f g : α → Bool} (h : ∀ x ∈ l, f x = g x) : l.any f = l.any g := by
  induction l with
  | nil => rfl
  | cons a r ih =>
    rw [List.any_cons, List.any_cons, h a List.mem_cons_self, ih fun x hx => h x (List.mem_cons_of_mem _ hx)]

/-- a keyword depends on the schemas it looks into only -/
theorem keywordOk_congr {ip6 : Ip6} {r r' : Val → Val → Bool} {s : VDict} {k : String} {arg v : Val}
    (h : ∀ t ∈ subSchemas k arg, ∀ x, r t x = r' t x) : keywordOk ip6 r s k arg v = keywordOk ip6 r' s k arg v := by
  unfold keywordOk
  split <;> try rfl
  · split
    · exact all_congr fun x _ => h _ List.mem_cons_self x
    · rfl
  · split
    · refine all_congr fun p hp => ?_
      split
      · exact h p.2 (List.mem_map_of_mem hp) _
      · rfl
    · rfl
  · exact all_congr fun t ht => h t ht v
  · exact any_congr fun t ht => h t ht v
  · rename_i l
    rw [show (l.filter fun s => r s v) = l.filter fun s => r' s v from List.filter_congr fun t ht => h t ht v]
  · rw [h _ List.mem_cons_self]

/-- more depth changes nothing -/
theorem valid_enough {ip6 : Ip6} {P : VDict → Bool} {root : VDict} {n m : Nat} {s : Val} (h : everywhere P root n s = true) (hm : n ≤ m) (v : Val) :
    valid ip6 root m s v = valid ip6 root n s v := by
  induction n generalizing m s v with
  | zero => simp [everywhere] at h
  | succ n ih =>
    cases m with
    | zero => omega
    | succ m =>
      have hm : n ≤ m := by omega
      cases s with
      | dict s =>
        rw [valid, valid]
        rw [everywhere] at h
        split at h
        · rename_i r hr
          rw [hr]
          dsimp only
          cases ht : resolveRef root r with
          | none => rfl
          | some t =>
            rw [ht] at h
            exact ih h hm v
        · rename_i hr
          split
          · rename_i r hr'
            exact absurd hr' (hr r)
          · rw [Bool.and_eq_true] at h
            refine all_congr fun p hp => keywordOk_congr fun t ht x => ?_
            exact ih (List.all_eq_true.1 (List.all_eq_true.1 h.2 p hp) t ht) hm x
      | _ => rfl

/-- the keywords the validator knows, and those that say nothing (`format` is looked at below) -/
def keywordsOk (s : VDict) : Bool :=
  (Dict.keys s).all (fun k => decide (k ∈ ["type", "enum", "pattern", "format", "minimum", "maximum", "minLength", "maxLength", "minItems", "items",
    "uniqueItems", "properties", "required", "additionalProperties", "allOf", "anyOf", "oneOf", "not", "definitions"])) &&
  (match Dict.get? s "pattern" with
    | none => true
    | some (.str p) => Dict.has patterns p
    | _ => false) &&
  (match Dict.get? s "format" with
    | none => true
    | some (.str f) => decide (f ∈ ["ipv4", "ipv6", "hostname", "cidr"])
    | _ => false)

/-- every keyword, pattern and format of the schema is known to the validator, at every place the validator reaches -/
theorem schema_known : everywhere keywordsOk owSchema schemaDepth (.dict owSchema) = true := by decide +kernel

/-- a schema whose patterns and formats are known, as far as it goes: more depth gives the same verdict on every document -/
theorem owValidate_depth (ip6 : Ip6) (m : Nat) (hm : schemaDepth ≤ m) (config : VDict) :
    owValidate ip6 config = if valid ip6 owSchema m (.dict owSchema) (.dict config) then .ok () else .error .validation := by
  unfold owValidate
  rw [valid_enough schema_known hm]

end NJ
