import Verif.PropsAuto
import Verif.PropsWgSamples

/-!
# C93: what OpenWrt's `wireguard_auto_client` and `vxlan_wireguard_auto_client` return is valid
-/

namespace NJ

/-! ## Specification -/

/-- **Specification.** A text of `a` to `b` characters without white space -/
def Solid (a b : Nat) (v : Val) : Prop := ∃ s : String, v = .str s ∧ a ≤ s.length ∧ s.length ≤ b ∧ ∀ c ∈ s.toList, isSpace c = false

/-- **Specification.** Arguments that the schemas allow. `none` is an argument that is not given -/
structure WgArgsOk (a : WgArgs) : Prop where
  host : ∀ v, a.host = some v → ∃ s, v = .str s
  publicKey : ∃ v, a.publicKey = some v ∧ Solid 1 44 v
  port : ∀ v, a.port = some v → ∃ i : Int, v = .int i ∧ 1 ≤ i ∧ i ≤ 65535
  privateKey : ∀ v, a.privateKey = some v → Solid 0 44 v
  ipAddress : ∀ v, a.ipAddress = some v → v = .none ∨ ∃ s : String, v = .str s ∧ (s = "" ∨ 7 ≤ s.length)
  network : ∃ s : String, a.serverIpNetwork = some (.str s) ∧ 1 ≤ s.length

/-! ## Schemas of OpenWrt -/

section
variable {ip6 : Ip6} {root : VDict} {n : Nat}

theorem required_iff {l : List String} {s d : VDict} : keywordOk ip6 (valid ip6 root n) s "required" (.list (l.map .str)) (.dict d) = true ↔ ∀ k ∈ l, Dict.has d k = true := by
  change ((textsOf (l.map .str)).all fun k => Dict.has d k) = true ↔ _
  have e : textsOf (l.map .str) = l := by
    unfold textsOf
    rw [List.filterMap_map]
    exact List.filterMap_some
  rw [e, List.all_eq_true]

/-- an object of another type -/
theorem type_refused {s d rest : VDict} {l more : List Val} {t : String} (hr : Dict.get? s "$ref" = none)
    (hm : ("allOf", .list (.dict [("properties", .dict (("type", .dict [("type", .str "string"), ("enum", .list l)]) :: rest))] :: more)) ∈ s)
    (ht : Dict.get? d "type" = some (.str t)) (hl : (l.any fun x => Val.jsEq x (.str t)) = false) : valid ip6 root (n + 3) (.dict s) (.dict d) = false := by
  cases h : valid ip6 root (n + 3) (.dict s) (.dict d) with
  | false => rfl
  | true =>
    rw [valid_plain hr] at h
    have h := List.all_eq_true.1 h _ hm
    have h : (List.all _ _) = true := h
    have h := List.all_eq_true.1 h _ (List.mem_cons_self ..)
    rw [valid_plain rfl] at h
    have h := List.all_eq_true.1 h ("properties", _) (List.mem_cons_self ..)
    have h := props_iff.1 h ("type", _) (List.mem_cons_self ..) _ ht
    rw [valid_plain rfl] at h
    have h := List.all_eq_true.1 h ("enum", .list l) (by simp)
    change (l.any fun x => Val.jsEq x (.str t)) = true at h
    rw [hl] at h
    cases h

theorem solid_text {s : String} (h : ∀ c ∈ s.toList, isSpace c = false) : patternOk "^[^\\s]*$" s.toList = true :=
  solid_pattern.2 ⟨s.toList, [], by simp, h, Or.inl rfl⟩

/-- texts with two bounds and a pattern -/
theorem solid_min_max {a b : Nat} {p : String} {s : String} (h1 : a ≤ s.length) (h2 : s.length ≤ b) (h3 : patternOk p s.toList = true) :
    valid ip6 root (n + 1) (.dict [("type", .str "string"), ("minLength", .int a), ("maxLength", .int b), ("pattern", .str p)]) (.str s) = true := by
  rw [valid_plain rfl]
  change (true && (decide ((a : Int) ≤ s.length) && (decide ((s.length : Int) ≤ b) && (patternOk p s.toList && true)))) = true
  rw [h3]
  simp
  omega

theorem solid_max_min {a b : Nat} {p : String} {s : String} (h1 : a ≤ s.length) (h2 : s.length ≤ b) (h3 : patternOk p s.toList = true) :
    valid ip6 root (n + 1) (.dict [("type", .str "string"), ("maxLength", .int b), ("minLength", .int a), ("pattern", .str p)]) (.str s) = true := by
  rw [valid_plain rfl]
  change (true && (decide ((s.length : Int) ≤ b) && (decide ((a : Int) ≤ s.length) && (patternOk p s.toList && true)))) = true
  rw [h3]
  simp
  omega

theorem solid_max {b : Nat} {p : String} {s : String} (h2 : s.length ≤ b) (h3 : patternOk p s.toList = true) :
    valid ip6 root (n + 1) (.dict [("type", .str "string"), ("maxLength", .int b), ("pattern", .str p)]) (.str s) = true := by
  rw [valid_plain rfl]
  change (true && (decide ((s.length : Int) ≤ b) && (patternOk p s.toList && true))) = true
  rw [h3]
  simp
  omega

theorem text_min {a : Nat} {s : String} (h1 : a ≤ s.length) :
    valid ip6 root (n + 1) (.dict [("type", .str "string"), ("minLength", .int a)]) (.str s) = true := by
  rw [valid_plain rfl]
  change (true && (decide ((a : Int) ≤ s.length) && true)) = true
  simp
  omega

theorem port_ok {i : Int} (h1 : 1 ≤ i) (h2 : i ≤ 65535) : valid ip6 root (n + 1) portSchema (.int i) = true := by
  unfold portSchema
  rw [valid_plain rfl]
  change (true && (decide (i ≤ 65535) && (decide (1 ≤ i) && true))) = true
  simp [h1, h2]

/-! ### Tunnels of the WireGuard backend -/

/-- the schema of names of tunnels and interfaces -/
def nameSchema : Val := .dict [("type", .str "string"), ("minLength", .int 2), ("maxLength", .int 15), ("pattern", .str "^[^\\s]*$")]

/-- names and ports of a valid tunnel -/
theorem wg_server {ip6 : Ip6} {root : VDict} {props : VDict} (hp : ("properties", .dict props) ∈ root) (hr : Dict.get? root "$ref" = none)
    (hw : ("wireguard", wireguardSchema_pro_wireguard) ∈ props) {server : VDict}
    (h : valid ip6 root 24 (.dict root) (.dict [("wireguard", .list [.dict server])]) = true) :
    (∃ v, Dict.get? server "name" = some v ∧ valid ip6 root 21 nameSchema v = true) ∧ ∃ v, Dict.get? server "port" = some v ∧ valid ip6 root 21 portSchema v = true := by
  rw [valid_plain hr] at h
  have h := props_iff.1 (List.all_eq_true.1 h _ hp) _ hw (.list [.dict server]) rfl
  have e : wireguardSchema_pro_wireguard = .dict [("type", .str "array"), ("uniqueItems", .bool true), ("items", .dict [("type", .str "object"),
      ("required", .list (["name", "port", "private_key"].map .str)), ("properties", .dict (propsOf (.dict (match wireguardSchema_pro_wireguard with
        | .dict d => match Dict.get? d "items" with
          | some (.dict i) => i
          | _ => []
        | _ => []))))])] := rfl
  rw [e, valid_plain rfl] at h
  have h := List.all_eq_true.1 h ("items", _) (List.mem_of_getElem? (i := 2) rfl)
  have h : ([Val.dict server].all (valid ip6 root 22 _)) = true := h
  have h := List.all_eq_true.1 h _ (List.mem_cons_self ..)
  rw [valid_plain rfl] at h
  have h1 := required_iff.1 (List.all_eq_true.1 h ("required", _) (List.mem_of_getElem? (i := 1) rfl))
  have h2 := props_iff.1 (List.all_eq_true.1 h ("properties", _) (List.mem_of_getElem? (i := 2) rfl))
  have key : ∀ k ∈ ["name", "port", "private_key"], ∃ v, Dict.get? server k = some v := by
    intro k hk
    have := h1 k hk
    rw [Dict.has_eq] at this
    exact Option.isSome_iff_exists.1 this
  obtain ⟨v, hv⟩ := key "name" (by simp)
  obtain ⟨w, hw⟩ := key "port" (by simp)
  exact ⟨⟨v, hv, h2 ("name", nameSchema) (List.mem_of_getElem? (i := 0) rfl) v hv⟩, w, hw, h2 ("port", portSchema) (List.mem_of_getElem? (i := 1) rfl) w hw⟩

/-! ### Interfaces of OpenWrt -/

/-- the settings that all interfaces have -/
def baseProps : VDict := [("name", nameSchema), ("mtu", .dict [("type", .str "integer"), ("minimum", .int 68)]), ("disabled", .dict [("type", .str "boolean")]),
  ("network", .dict [("type", .str "string"), ("maxLength", .int 15), ("pattern", .str "^[a-zA-z0-9_\\.\\-]*$")])]

theorem base_ok {d : VDict} (h1 : Dict.has d "name" = true) (h2 : Dict.has d "type" = true)
    (h : ∀ p ∈ baseProps, ∀ x, Dict.get? d p.1 = some x → valid ip6 owSchema n p.2 x = true) :
    valid ip6 owSchema (n + 2) (.dict [("$ref", .str "#/definitions/base_interface_settings")]) (.dict d) = true := by
  rw [ref_valid (show resolveRef owSchema "#/definitions/base_interface_settings" = some owSchema_def_base_interface_settings from rfl)]
  have e : owSchema_def_base_interface_settings = .dict [("type", .str "object"), ("required", .list (["name", "type"].map .str)), ("properties", .dict baseProps)] := rfl
  rw [e, valid_plain rfl]
  simp only [List.all_cons, List.all_nil, Bool.and_true, Bool.and_eq_true]
  refine ⟨rfl, required_iff.2 ?_, props_iff.2 h⟩
  intro k hk
  simp only [List.mem_cons, List.not_mem_nil, or_false] at hk
  rcases hk with rfl | rfl
  · exact h1
  · exact h2

/-- the settings of WireGuard interfaces -/
def wgIfaceProps : VDict := match owSchema_def_wireguard_interface with
  | .dict d => match Dict.get? d "allOf" with
    | some (.list (p :: _)) => propsOf p
    | _ => []
  | _ => []

/-- an address -/
def autoAddress (ip : Val) : Val := .dict [("proto", .str "static"), ("family", .str "ipv4"), ("address", ip), ("mask", .int 32)]

def addressesSchema : Val := (Dict.get? wgIfaceProps "addresses").getD .none
def addressItem : VDict := match addressesSchema with
  | .dict d => match Dict.get? d "items" with
    | some (.dict i) => i
    | _ => []
  | _ => []
def addressKinds : List Val := match Dict.get? addressItem "oneOf" with
  | some (.list l) => l
  | _ => []
def address4 : Val := addressKinds.headD .none
def address6 : Val := (addressKinds.drop 1).headD .none

theorem address_ok {s : String} (h : 7 ≤ s.length) : valid ip6 root (n + 4) addressesSchema (.list [autoAddress (.str s)]) = true := by
  have e : addressesSchema = .dict [("type", .str "array"), ("uniqueItems", .bool true), ("items", .dict addressItem)] := rfl
  rw [e, valid_plain rfl]
  change (true && (true && ((valid ip6 root (n + 3) (.dict addressItem) (autoAddress (.str s)) && true) && true))) = true
  have e : addressItem = [("required", .list (["proto", "family", "address", "mask"].map .str)), ("oneOf", .list [address4, address6])] := rfl
  have h4 : valid ip6 root (n + 2) address4 (autoAddress (.str s)) = true := by
    have e : address4 = .dict [("type", .str "object"), ("properties", .dict [("proto", .dict [("type", .str "string"), ("enum", .list [.str "static"])]),
      ("family", .dict [("type", .str "string"), ("enum", .list [.str "ipv4"])]), ("address", .dict [("type", .str "string"), ("minLength", .int 7)]),
      ("mask", .dict [("type", .str "number"), ("minimum", .int 8)])])] := rfl
    rw [e, valid_plain rfl]
    unfold autoAddress
    simp only [List.all_cons, List.all_nil, Bool.and_true, Bool.and_eq_true]
    refine ⟨rfl, props_iff.2 ?_⟩
    intro p hp x hx
    simp only [List.mem_cons, List.not_mem_nil, or_false] at hp
    rcases hp with rfl | rfl | rfl | rfl
    · cases hx; rfl
    · cases hx; rfl
    · cases hx
      exact text_min (a := 7) h
    · cases hx; rfl
  have h6 : valid ip6 root (n + 2) address6 (autoAddress (.str s)) = false := by
    cases h : valid ip6 root (n + 2) address6 (autoAddress (.str s)) with
    | false => rfl
    | true =>
      have e : address6 = .dict [("type", .str "object"), ("properties", .dict (propsOf address6))] := rfl
      rw [e, valid_plain rfl] at h
      have h := props_iff.1 (List.all_eq_true.1 h ("properties", _) (List.mem_of_getElem? (i := 1) rfl)) ("family", .dict [("type", .str "string"),
        ("enum", .list [.str "ipv6"])]) (List.mem_of_getElem? (i := 1) rfl) (.str "ipv4") rfl
      rw [valid_plain rfl] at h
      exact absurd h (by rw [show (List.all _ _) = false from rfl]; decide)
  have : valid ip6 root (n + 3) (.dict addressItem) (autoAddress (.str s)) = true := by
    rw [e, valid_plain rfl]
    unfold autoAddress at h4 h6 ⊢
    simp only [List.all_cons, List.all_nil, Bool.and_true, Bool.and_eq_true]
    refine ⟨required_iff.2 (by intro k hk; simp only [List.mem_cons, List.not_mem_nil, or_false] at hk; rcases hk with rfl | rfl | rfl | rfl <;> rfl), ?_⟩
    change decide (([address4, address6].filter fun s => valid ip6 root (n + 2) s _).length = 1) = true
    simp [h4, h6]
  rw [this]
  rfl

/-- the kinds of interfaces, in the order of the schema -/
def ifaceKinds : List String := ["network_interface", "wireless_interface", "bridge_interface", "dialup_interface", "modemmanager_interface",
  "vxlan_interface", "wireguard_interface", "vlan_8021q", "vlan_8021ad"]

def ifaceItem : VDict := match owSchema_pro_interfaces with
  | .dict d => match Dict.get? d "items" with
    | some (.dict i) => i
    | _ => []
  | _ => []

/-- the references to the kinds but WireGuard and VXLAN -/
theorem other_kinds {d : VDict} {t : String} (ht : Dict.get? d "type" = some (.str t)) (hv : t = "wireguard" ∨ t = "vxlan") :
    ∀ r ∈ ["#/definitions/network_interface", "#/definitions/wireless_interface", "#/definitions/bridge_interface", "#/definitions/dialup_interface",
      "#/definitions/modemmanager_interface", "#/definitions/vlan_8021q", "#/definitions/vlan_8021ad"],
      valid ip6 owSchema (n + 4) (.dict [("$ref", .str r)]) (.dict d) = false := by
  intro r hr
  simp only [List.mem_cons, List.not_mem_nil, or_false] at hr
  rcases hr with rfl | rfl | rfl | rfl | rfl | rfl | rfl
  · rw [ref_valid (show resolveRef owSchema "#/definitions/network_interface" = some owSchema_def_network_interface from rfl)]
    exact type_refused rfl (List.mem_of_getElem? (i := 0) rfl) ht (by rcases hv with rfl | rfl <;> decide)
  · rw [ref_valid (show resolveRef owSchema "#/definitions/wireless_interface" = some owSchema_def_wireless_interface from rfl)]
    exact type_refused rfl (List.mem_of_getElem? (i := 0) rfl) ht (by rcases hv with rfl | rfl <;> decide)
  · rw [ref_valid (show resolveRef owSchema "#/definitions/bridge_interface" = some owSchema_def_bridge_interface from rfl)]
    exact type_refused rfl (List.mem_of_getElem? (i := 1) rfl) ht (by rcases hv with rfl | rfl <;> decide)
  · rw [ref_valid (show resolveRef owSchema "#/definitions/dialup_interface" = some owSchema_def_dialup_interface from rfl)]
    exact type_refused rfl (List.mem_of_getElem? (i := 1) rfl) ht (by rcases hv with rfl | rfl <;> decide)
  · rw [ref_valid (show resolveRef owSchema "#/definitions/modemmanager_interface" = some owSchema_def_modemmanager_interface from rfl)]
    exact type_refused rfl (List.mem_of_getElem? (i := 2) rfl) ht (by rcases hv with rfl | rfl <;> decide)
  · rw [ref_valid (show resolveRef owSchema "#/definitions/vlan_8021q" = some owSchema_def_vlan_8021q from rfl)]
    exact type_refused rfl (List.mem_of_getElem? (i := 2) rfl) ht (by rcases hv with rfl | rfl <;> decide)
  · rw [ref_valid (show resolveRef owSchema "#/definitions/vlan_8021ad" = some owSchema_def_vlan_8021ad from rfl)]
    exact type_refused rfl (List.mem_of_getElem? (i := 2) rfl) ht (by rcases hv with rfl | rfl <;> decide)

/-- a WireGuard interface or a VXLAN interface is an interface -/
theorem iface_ok {d : VDict} {t : String} (ht : Dict.get? d "type" = some (.str t))
    (h : t = "wireguard" ∧ valid ip6 owSchema (n + 3) owSchema_def_wireguard_interface (.dict d) = true ∨
      t = "vxlan" ∧ valid ip6 owSchema (n + 3) owSchema_def_vxlan_interface (.dict d) = true) :
    valid ip6 owSchema (n + 5) (.dict ifaceItem) (.dict d) = true := by
  have ho := other_kinds (ip6 := ip6) (n := n) ht (h.imp And.left And.left)
  have e : ifaceItem = [("oneOf", .list [.dict [("$ref", .str "#/definitions/network_interface")], .dict [("$ref", .str "#/definitions/wireless_interface")],
    .dict [("$ref", .str "#/definitions/bridge_interface")], .dict [("$ref", .str "#/definitions/dialup_interface")],
    .dict [("$ref", .str "#/definitions/modemmanager_interface")], .dict [("$ref", .str "#/definitions/vxlan_interface")],
    .dict [("$ref", .str "#/definitions/wireguard_interface")], .dict [("$ref", .str "#/definitions/vlan_8021q")], .dict [("$ref", .str "#/definitions/vlan_8021ad")]])] := rfl
  have rw : valid ip6 owSchema (n + 4) (.dict [("$ref", .str "#/definitions/wireguard_interface")]) (.dict d) =
      valid ip6 owSchema (n + 3) owSchema_def_wireguard_interface (.dict d) :=
    ref_valid (show resolveRef owSchema "#/definitions/wireguard_interface" = some owSchema_def_wireguard_interface from rfl)
  have rx : valid ip6 owSchema (n + 4) (.dict [("$ref", .str "#/definitions/vxlan_interface")]) (.dict d) =
      valid ip6 owSchema (n + 3) owSchema_def_vxlan_interface (.dict d) :=
    ref_valid (show resolveRef owSchema "#/definitions/vxlan_interface" = some owSchema_def_vxlan_interface from rfl)
  simp only [List.mem_cons, List.not_mem_nil, or_false, forall_eq_or_imp, forall_eq] at ho
  obtain ⟨o1, o2, o3, o4, o5, o6, o7⟩ := ho
  rw [e, valid_plain rfl]
  simp only [List.all_cons, List.all_nil, Bool.and_true]
  change decide ((List.filter _ _).length = 1) = true
  rcases h with ⟨rfl, h⟩ | ⟨rfl, h⟩
  · have hx : valid ip6 owSchema (n + 3) owSchema_def_vxlan_interface (.dict d) = false :=
      type_refused rfl (List.mem_of_getElem? (i := 1) rfl) ht (by decide)
    rw [h] at rw
    rw [hx] at rx
    simp [o1, o2, o3, o4, o5, o6, o7, rw, rx]
  · have hx : valid ip6 owSchema (n + 3) owSchema_def_wireguard_interface (.dict d) = false :=
      type_refused rfl (List.mem_of_getElem? (i := 2) rfl) ht (by decide)
    rw [h] at rx
    rw [hx] at rw
    simp [o1, o2, o3, o4, o5, o6, o7, rw, rx]

/-- the WireGuard interface that is made -/
def autoWgIface (name key port addresses : Val) : VDict :=
  [("name", name), ("type", .str "wireguard"), ("private_key", key), ("port", port), ("mtu", .int 1420),
   ("nohostroute", .bool false), ("fwmark", .str ""), ("ip6prefix", .list []), ("addresses", addresses), ("network", .str "")]

theorem no_network : valid ip6 root (n + 1) (.dict [("type", .str "string"), ("maxLength", .int 15), ("pattern", .str "^[a-zA-z0-9_\\.\\-]*$")]) (.str "") = true :=
  solid_max (b := 15) (by decide) (by decide +kernel)

theorem autoWgIface_ok {name key port addresses : Val} (h1 : valid ip6 owSchema (n + 1) nameSchema name = true) (h2 : Solid 0 44 key)
    (h3 : valid ip6 owSchema (n + 1) portSchema port = true) (h4 : valid ip6 owSchema (n + 4) addressesSchema addresses = true) :
    valid ip6 owSchema (n + 6) owSchema_def_wireguard_interface (.dict (autoWgIface name key port addresses)) = true := by
  have e : owSchema_def_wireguard_interface = .dict [("type", .str "object"), ("required", .list (["private_key"].map .str)),
    ("allOf", .list [.dict [("properties", .dict wgIfaceProps)], .dict [("$ref", .str "#/definitions/base_interface_settings")]])] := rfl
  rw [e, valid_plain rfl]
  simp only [List.all_cons, List.all_nil, Bool.and_true, Bool.and_eq_true]
  refine ⟨rfl, required_iff.2 ?_, ?_⟩
  · intro k hk
    rw [List.mem_singleton] at hk
    subst hk
    rfl
  · change (valid ip6 owSchema (n + 5) _ _ && (valid ip6 owSchema (n + 5) _ _ && true)) = true
    rw [Bool.and_true, Bool.and_eq_true]
    constructor
    · rw [valid_plain rfl]
      simp only [List.all_cons, List.all_nil, Bool.and_true]
      refine props_iff.2 ?_
      intro p hp x hx
      have e : wgIfaceProps = [("type", .dict [("type", .str "string"), ("enum", .list [.str "wireguard"])]), ("private_key", .dict [("type", .str "string"),
        ("maxLength", .int 44), ("pattern", .str "^[^\\s]*$")]), ("port", portSchema), ("mtu", .dict [("type", .str "integer")]),
        ("nohostroute", .dict [("type", .str "boolean")]), ("fwmark", .dict [("type", .str "string")]), ("ip6prefix", .dict [("type", .str "array"),
          ("items", .dict [("type", .str "string"), ("uniqueItems", .bool true)])]), ("addresses", addressesSchema)] := rfl
      rw [e] at hp
      simp only [List.mem_cons, List.not_mem_nil, or_false] at hp
      rcases hp with rfl | rfl | rfl | rfl | rfl | rfl | rfl | rfl
      · cases hx; rfl
      · cases hx
        obtain ⟨s, rfl, -, hl, hc⟩ := h2
        exact solid_max hl (solid_text hc)
      · cases hx; exact flat_valid (by decide) h3
      · cases hx; rfl
      · cases hx; rfl
      · cases hx; rfl
      · cases hx; rfl
      · cases hx; exact h4
    · refine base_ok rfl rfl ?_
      intro p hp x hx
      unfold baseProps at hp
      simp only [List.mem_cons, List.not_mem_nil, or_false] at hp
      rcases hp with rfl | rfl | rfl | rfl
      · cases hx; exact flat_valid (by decide) h1
      · cases hx; rfl
      · cases hx
      · cases hx; exact no_network

/-- the VXLAN interface that is made -/
def autoVxIface (name vtep vni tunlink : Val) : VDict :=
  [("name", name), ("type", .str "vxlan"), ("vtep", vtep), ("port", .int 4789), ("vni", vni), ("tunlink", tunlink), ("rxcsum", .bool true), ("txcsum", .bool true),
   ("mtu", .int 1280), ("ttl", .int 64), ("mac", .str ""), ("disabled", .bool false), ("network", .str "")]

/-- **Specification.** What OpenWrt accepts as VNI -/
def VniOk (v : Val) : Prop := (∃ s, v = .str s) ∨ ∃ i : Int, v = .int i ∧ 1 ≤ i ∧ i ≤ 16777216

/-- the settings of VXLAN interfaces -/
def vxIfaceProps : VDict := match owSchema_def_vxlan_interface with
  | .dict d => match Dict.get? d "allOf" with
    | some (.list (p :: _)) => propsOf p
    | _ => []
  | _ => []

theorem autoVxIface_ok {name vtep vni tunlink : Val} (h1 : valid ip6 owSchema (n + 1) nameSchema name = true) (h2 : ∃ s, vtep = .str s) (h3 : VniOk vni)
    (h4 : ∃ s, tunlink = .str s) : valid ip6 owSchema (n + 5) owSchema_def_vxlan_interface (.dict (autoVxIface name vtep vni tunlink)) = true := by
  obtain ⟨vtep, rfl⟩ := h2
  obtain ⟨tunlink, rfl⟩ := h4
  have e : owSchema_def_vxlan_interface = .dict [("required", .list (["vtep", "port", "vni", "tunlink"].map .str)),
    ("allOf", .list [.dict [("properties", .dict vxIfaceProps)], .dict [("$ref", .str "#/definitions/base_interface_settings")]])] := rfl
  rw [e, valid_plain rfl]
  simp only [List.all_cons, List.all_nil, Bool.and_true, Bool.and_eq_true]
  refine ⟨required_iff.2 ?_, ?_⟩
  · intro k hk
    simp only [List.mem_cons, List.not_mem_nil, or_false] at hk
    rcases hk with rfl | rfl | rfl | rfl <;> rfl
  · change (valid ip6 owSchema (n + 4) _ _ && (valid ip6 owSchema (n + 4) _ _ && true)) = true
    rw [Bool.and_true, Bool.and_eq_true]
    constructor
    · rw [valid_plain rfl]
      simp only [List.all_cons, List.all_nil, Bool.and_true]
      refine props_iff.2 ?_
      intro p hp x hx
      have e : vxIfaceProps = [("type", .dict [("type", .str "string"), ("enum", .list [.str "vxlan"])]), ("vtep", .dict [("type", .str "string")]),
        ("port", .dict [("type", .str "integer"), ("minimum", .int 1), ("maximum", .int 65535)]),
        ("vni", .dict [("type", .list [.str "integer", .str "string"]), ("minimum", .int 1), ("maximum", .int 16777216)]), ("tunlink", .dict [("type", .str "string")]),
        ("rxcsum", .dict [("type", .str "boolean")]), ("txcsum", .dict [("type", .str "boolean")]), ("mtu", .dict [("type", .str "integer")]),
        ("ttl", .dict [("type", .str "integer")]), ("mac", .dict [("type", .str "string"), ("pattern", .str "^(([0-9A-Fa-f]{2}[:-]){5}([0-9A-Fa-f]{2})|)$"),
          ("maxLength", .int 17)])] := rfl
      rw [e] at hp
      simp only [List.mem_cons, List.not_mem_nil, or_false] at hp
      rcases hp with rfl | rfl | rfl | rfl | rfl | rfl | rfl | rfl | rfl | rfl
      · cases hx; rfl
      · cases hx; rfl
      · cases hx; rfl
      · cases hx
        rcases h3 with ⟨s, rfl⟩ | ⟨i, rfl, a, b⟩
        · rfl
        · rw [valid_plain rfl]
          change (true && (decide (1 ≤ i) && (decide (i ≤ 16777216) && true))) = true
          simp [a, b]
      · cases hx; rfl
      · cases hx; rfl
      · cases hx; rfl
      · cases hx; rfl
      · cases hx; rfl
      · cases hx
        rw [valid_plain rfl]
        change (true && (patternOk "^(([0-9A-Fa-f]{2}[:-]){5}([0-9A-Fa-f]{2})|)$" "".toList && (decide (((("" : String).length : Nat) : Int) ≤ 17) && true))) = true
        decide +kernel
    · refine base_ok rfl rfl ?_
      intro p hp x hx
      unfold baseProps at hp
      simp only [List.mem_cons, List.not_mem_nil, or_false] at hp
      rcases hp with rfl | rfl | rfl | rfl
      · cases hx; exact flat_valid (by decide) h1
      · cases hx; rfl
      · cases hx; rfl
      · cases hx; exact no_network

/-! ### Peers -/

def autoPeerItem : VDict := match owSchema_pro_wireguard_peers with
  | .dict d => match Dict.get? d "items" with
    | some (.dict i) => i
    | _ => []
  | _ => []

/-- the peer that is made -/
def autoPeer (name pub ips host port : Val) : VDict :=
  [("interface", name), ("public_key", pub), ("allowed_ips", ips), ("endpoint_host", host),
   ("endpoint_port", port), ("preshared_key", .str ""), ("persistent_keepalive", .int 60), ("route_allowed_ips", .bool true)]

theorem autoPeer_ok {name pub host port : Val} {net : String} (h1 : valid ip6 root (n + 1) nameSchema name = true) (h2 : Solid 1 44 pub) (h3 : 1 ≤ net.length)
    (h4 : ∃ s, host = .str s) (h5 : valid ip6 root (n + 1) portSchema port = true) :
    valid ip6 root (n + 4) owSchema_pro_wireguard_peers (.list [.dict (autoPeer name pub (.list [.str net]) host port)]) = true := by
  obtain ⟨host, rfl⟩ := h4
  have e : owSchema_pro_wireguard_peers = .dict [("type", .str "array"), ("uniqueItems", .bool true), ("items", .dict autoPeerItem)] := rfl
  rw [e, valid_plain rfl]
  change (true && (true && ((valid ip6 root (n + 3) (.dict autoPeerItem) _ && true) && true))) = true
  have e : autoPeerItem = [("type", .str "object"), ("required", .list (["interface", "public_key", "allowed_ips"].map .str)), ("properties", .dict (propsOf (.dict autoPeerItem)))] := rfl
  have : valid ip6 root (n + 3) (.dict autoPeerItem) (.dict (autoPeer name pub (.list [.str net]) (.str host) port)) = true := by
    rw [e, valid_plain rfl]
    simp only [List.all_cons, List.all_nil, Bool.and_true, Bool.and_eq_true]
    refine ⟨rfl, required_iff.2 ?_, props_iff.2 ?_⟩
    · intro k hk
      simp only [List.mem_cons, List.not_mem_nil, or_false] at hk
      rcases hk with rfl | rfl | rfl <;> rfl
    · intro p hp x hx
      have e : propsOf (.dict autoPeerItem) = [("interface", nameSchema), ("public_key", .dict [("type", .str "string"), ("maxLength", .int 44), ("minLength", .int 1),
        ("pattern", .str "^[^\\s]*$")]), ("allowed_ips", .dict [("type", .str "array"), ("uniqueItems", .bool true), ("items", .dict [("type", .str "string"), ("minLength", .int 1)])]),
        ("endpoint_host", .dict [("type", .str "string")]), ("endpoint_port", portSchema), ("preshared_key", .dict [("type", .str "string"), ("maxLength", .int 44),
        ("pattern", .str "^[^\\s]*$")]), ("persistent_keepalive", .dict [("type", .str "integer")]), ("route_allowed_ips", .dict [("type", .str "boolean")])] := rfl
      rw [e] at hp
      simp only [List.mem_cons, List.not_mem_nil, or_false] at hp
      rcases hp with rfl | rfl | rfl | rfl | rfl | rfl | rfl | rfl
      · cases hx; exact flat_valid (by decide) h1
      · cases hx
        obtain ⟨s, rfl, ha, hb, hc⟩ := h2
        exact solid_max_min (a := 1) (b := 44) ha hb (solid_text hc)
      · cases hx
        rw [valid_plain rfl]
        change (true && (true && ((valid ip6 root (n + 1) (.dict [("type", .str "string"), ("minLength", .int 1)]) (.str net) && true) && true))) = true
        have t : valid ip6 root (n + 1) (.dict [("type", .str "string"), ("minLength", .int 1)]) (.str net) = true := text_min (a := 1) h3
        rw [t]
        rfl
      · cases hx; rfl
      · cases hx; exact flat_valid (by decide) h5
      · cases hx
        exact solid_max (b := 44) (by decide) (by decide +kernel)
      · cases hx; rfl
      · cases hx; rfl
  rw [this]
  rfl

/-- OpenWrt accepts interfaces and peers -/
theorem ow_accepts {ifaces : List VDict} {peer : VDict} {env : Env} {sh : Val → Bool} {loads : Chars → Option Val} {dsa : Bool}
    (hu : uniqueOk (ifaces.map .dict) = true) (hi : ∀ d ∈ ifaces, valid env.ip6 owSchema 22 (.dict ifaceItem) (.dict d) = true)
    (hb : ∀ d ∈ ifaces, Dict.get? d "type" ≠ some (.str "bridge"))
    (hp : valid env.ip6 owSchema 23 owSchema_pro_wireguard_peers (.list [.dict peer]) = true) :
    validate (openwrtClass env (owValidate env.ip6) sh loads dsa) [("interfaces", .list (ifaces.map .dict)), ("wireguard_peers", .list [.dict peer])] = .ok () := by
  have h1 : valid env.ip6 owSchema 23 owSchema_pro_interfaces (.list (ifaces.map .dict)) = true := by
    have e : owSchema_pro_interfaces = .dict [("type", .str "array"), ("uniqueItems", .bool true), ("items", .dict ifaceItem)] := rfl
    rw [e, valid_plain rfl]
    change (true && (uniqueOk (ifaces.map .dict) && ((ifaces.map .dict).all (valid env.ip6 owSchema 22 (.dict ifaceItem)) && true))) = true
    rw [hu, Bool.true_and, Bool.true_and, Bool.and_true, List.all_eq_true]
    intro v hv
    obtain ⟨d, hd, rfl⟩ := List.mem_map.1 hv
    exact hi d hd
  have hsch : owValidate env.ip6 [("interfaces", .list (ifaces.map .dict)), ("wireguard_peers", .list [.dict peer])] = .ok () := by
    unfold owValidate
    refine if_pos ?_
    change valid env.ip6 owSchema 24 (.dict owSchema) (.dict _) = true
    have er' : owSchema = [("type", .str "object"), ("definitions", .dict owSchema_definitions), ("properties", .dict owSchema_properties)] := rfl
    rw [valid_plain rfl]
    conv => lhs; arg 1; rw [er']
    simp only [List.all_cons, List.all_nil, Bool.and_true, Bool.and_eq_true]
    refine ⟨rfl, rfl, props_iff.2 fun p hp' x hx => ?_⟩
    rw [Dict.get?_cons] at hx
    have hpro : ∀ p ∈ owSchema_properties, (p.1 = "interfaces" → p.2 = owSchema_pro_interfaces) ∧ (p.1 = "wireguard_peers" → p.2 = owSchema_pro_wireguard_peers) := by
      unfold owSchema_properties
      simp
    split at hx
    · next e =>
      cases hx
      rw [(hpro p hp').1 e.symm]
      exact h1
    · rw [Dict.get?_cons] at hx
      split at hx
      · next e =>
        cases hx
        rw [(hpro p hp').2 e.symm]
        exact hp
      · cases hx
  have hpv : validatePvid [("interfaces", .list (ifaces.map .dict)), ("wireguard_peers", .list [.dict peer])] = .ok () := by
    have e : dictsAt [("interfaces", .list (ifaces.map .dict)), ("wireguard_peers", .list [.dict peer])] "interfaces" = .ok ifaces := by
      change (ifaces.map Val.dict).mapM asDict = .ok ifaces
      clear hu hi hb h1 hsch
      induction ifaces with
      | nil => rfl
      | cons d l ih => exact (mapM_ok_cons ..).2 ⟨d, l, rfl, ih, rfl⟩
    unfold validatePvid
    rw [e]
    refine forM_ok.2 fun d hd => ?_
    unfold pvidInterface
    rw [if_pos (hb d hd)]
  unfold validate
  change (Except.ok () >>= fun _ => owValidate env.ip6 _ >>= fun _ => Except.ok () >>= fun _ => validatePvid _) = Except.ok ()
  rw [hsch, hpv]
  rfl

end

/-! ## C93 -/

/-- what the interface and the peer are made of -/
theorem wg_parts {ip6 : Ip6} {root : VDict} {server : VDict} {a : WgArgs} (ha : WgArgsOk a) (hs : a.server = some server)
    (h : (∃ v, Dict.get? server "name" = some v ∧ valid ip6 root 21 nameSchema v = true) ∧ ∃ v, Dict.get? server "port" = some v ∧ valid ip6 root 21 portSchema v = true) :
    ∃ name key port addresses pub host eport, ∃ net : String,
      wireguardAutoClient a = .ok [("interfaces", .list [.dict (autoWgIface name key port addresses)]),
        ("wireguard_peers", .list [.dict (autoPeer name pub (.list [.str net]) host eport)])] ∧
      (∀ n, valid ip6 owSchema (n + 1) nameSchema name = true) ∧ (∃ s, name = .str s) ∧
      (∀ n, valid ip6 owSchema (n + 6) owSchema_def_wireguard_interface (.dict (autoWgIface name key port addresses)) = true) ∧
      (∀ n, valid ip6 owSchema (n + 4) owSchema_pro_wireguard_peers (.list [.dict (autoPeer name pub (.list [.str net]) host eport)]) = true) := by
  obtain ⟨⟨name, hn, vn⟩, eport, hp, vp⟩ := h
  obtain ⟨net, hnet, hnl⟩ := ha.network
  obtain ⟨pub, hpub, spub⟩ := ha.publicKey
  have vn' : ∀ n, valid ip6 owSchema (n + 1) nameSchema name = true := fun n => flat_valid (by decide) vn
  have hkey : Solid 0 44 (a.privateKey.getD (.str "{{private_key}}")) := by
    cases e : a.privateKey with
    | none => exact ⟨_, rfl, by decide, by decide, by decide +kernel⟩
    | some v => exact ha.privateKey v e
  have hport : ∀ n, valid ip6 owSchema (n + 1) portSchema (a.port.getD (.int 51820)) = true := by
    intro n
    cases e : a.port with
    | none => rfl
    | some v =>
      obtain ⟨i, rfl, h1, h2⟩ := ha.port v e
      exact port_ok h1 h2
  have hhost : ∃ s, a.host.getD (.str "") = .str s := by
    cases e : a.host with
    | none => exact ⟨_, rfl⟩
    | some v => exact ha.host v e
  have haddr : ∀ n, valid ip6 owSchema (n + 4) addressesSchema (.list (if (a.ipAddress.getD .none).truthy then [autoAddress (a.ipAddress.getD .none)] else [])) = true := by
    intro n
    cases e : a.ipAddress with
    | none => rfl
    | some v =>
      rcases ha.ipAddress v e with rfl | ⟨s, rfl, rfl | h⟩
      · rfl
      · rfl
      · have ht : (Val.str s).truthy = true := by
          have : s ≠ "" := by rintro rfl; exact absurd h (by decide)
          simp [Val.truthy, this]
        change valid ip6 owSchema (n + 4) addressesSchema (.list (if (Val.str s).truthy then [autoAddress (.str s)] else [])) = true
        rw [ht]
        exact address_ok h
  refine ⟨name, a.privateKey.getD (.str "{{private_key}}"), a.port.getD (.int 51820),
    .list (if (a.ipAddress.getD .none).truthy then [autoAddress (a.ipAddress.getD .none)] else []), pub, a.host.getD (.str ""), eport, net, ?_, vn', ?_,
    fun n => ?_, fun n => ?_⟩
  · obtain ⟨host, publicKey, srv, port, privateKey, ip, sn⟩ := a
    cases hs
    cases hpub
    cases hnet
    have e1 : wgAutoClient ⟨host, some pub, some server, port, privateKey, ip, some (.str net)⟩ =
      [("interface_name", name), ("client", .dict [("port", port.getD (.int 51820)), ("private_key", privateKey.getD (.str "{{private_key}}")), ("ip_address", ip.getD .none)]),
       ("server", .dict [("public_key", pub), ("endpoint_host", host.getD (.str "")), ("endpoint_port", eport), ("allowed_ips", .list [.str net])])] := by
      unfold wgAutoClient
      simp only [Option.getD_some, hn, hp]
    unfold wireguardAutoClient
    rw [e1]
    rfl
  · exact str_of_leaf (s := [("type", .str "string"), ("minLength", .int 2), ("maxLength", .int 15), ("pattern", .str "^[^\\s]*$")]) rfl (by simp) (n := 0) (root := owSchema) (vn' 0)
  · exact autoWgIface_ok (vn' n) hkey (hport n) (haddr n)
  · exact autoPeer_ok (vn' n) spub hnl hhost (flat_valid (by decide) vp)

/-- **C93**, WireGuard: for every tunnel that the WireGuard backend accepts and all arguments that the schemas allow, OpenWrt accepts what its
`wireguard_auto_client` returns. -/
theorem C93_wireguard (env : Env) (sh : Val → Bool) (loads : Chars → Option Val) (dsa : Bool) (server : VDict) (a : WgArgs) (ha : WgArgsOk a)
    (hs : a.server = some server) (hv : validate (wireguardReal env sh loads) [("wireguard", .list [.dict server])] = .ok ()) :
    ∃ r, wireguardAutoClient a = .ok r ∧ validate (openwrtClass env (owValidate env.ip6) sh loads dsa) r = .ok () := by
  have h := wg_server (props := wireguardSchema_properties) (List.mem_of_getElem? (i := 1) rfl) rfl (List.mem_of_getElem? (i := 0) rfl)
    (schema_valid (ip6 := env.ip6) rfl hv)
  obtain ⟨name, key, port, addresses, pub, host, eport, net, e, -, -, h1, h2⟩ := wg_parts ha hs h
  refine ⟨_, e, ow_accepts (ifaces := [autoWgIface name key port addresses]) rfl ?_ ?_ (h2 19)⟩
  · intro d hd
    rw [List.mem_singleton] at hd
    subst hd
    exact iface_ok (n := 17) (t := "wireguard") rfl (Or.inl ⟨rfl, h1 14⟩)
  · intro d hd
    rw [List.mem_singleton] at hd
    subst hd
    exact fun h => absurd (show some (Val.str "wireguard") = some (.str "bridge") from h) (by decide)

/-- **Specification.** The arguments of VXLAN that OpenWrt accepts: an address, a VNI, and, if given, a name -/
structure VxlanArgsOk (x : VxlanArgs) : Prop where
  ip : ∀ v, x.serverIp = some v → ∃ s, v = .str s
  vni : ∃ v, x.vni = some v ∧ VniOk v
  name : ∀ d v, x.vxlan = some d → Dict.get? d "name" = some v → Solid 2 15 v

/-- **C93**, VXLAN over WireGuard: the same, for `vxlan_wireguard_auto_client`. -/
theorem C93_vxlan (env : Env) (sh : Val → Bool) (loads : Chars → Option Val) (dsa : Bool) (server : VDict) (a : WgArgs) (x : VxlanArgs) (ha : WgArgsOk a)
    (hx : VxlanArgsOk x) (hs : a.server = some server) (hv : validate (vxlanReal env sh loads) [("wireguard", .list [.dict server])] = .ok ()) :
    ∃ r, vxlanWireguardAutoClient a x = .ok r ∧ validate (openwrtClass env (owValidate env.ip6) sh loads dsa) r = .ok () := by
  have h := wg_server (props := vxlanSchema_properties) (List.mem_of_getElem? (i := 1) rfl) rfl (List.mem_of_getElem? (i := 0) rfl)
    (schema_valid (ip6 := env.ip6) rfl hv)
  obtain ⟨name, key, port, addresses, pub, host, eport, net, e, -, hn, h1, h2⟩ := wg_parts ha hs h
  obtain ⟨vni, hvni, sv⟩ := hx.vni
  have hname : ∀ n, valid env.ip6 owSchema (n + 1) nameSchema ((Dict.get? (x.vxlan.getD []) "name").getD (.str "vxlan")) = true := by
    intro n
    have hs : Solid 2 15 ((Dict.get? (x.vxlan.getD []) "name").getD (.str "vxlan")) := by
      cases e : x.vxlan with
      | none => exact ⟨_, rfl, by decide, by decide, by decide +kernel⟩
      | some d =>
        cases e' : Dict.get? d "name" with
        | none => simp only [Option.getD_some, e', Option.getD_none]; exact ⟨_, rfl, by decide, by decide, by decide +kernel⟩
        | some v => simp only [Option.getD_some, e']; exact hx.name d v e e'
    obtain ⟨s, hs, h1, h2, h3⟩ := hs
    rw [hs]
    exact solid_min_max h1 h2 (solid_text h3)
  have hip : ∃ s, x.serverIp.getD (.str "") = .str s := by
    cases e : x.serverIp with
    | none => exact ⟨_, rfl⟩
    | some v => exact hx.ip v e
  have hvx := fun n => autoVxIface_ok (n := n) (hname n) hip sv hn
  refine ⟨[("interfaces", .list ([autoWgIface name key port addresses, autoVxIface ((Dict.get? (x.vxlan.getD []) "name").getD (.str "vxlan")) (x.serverIp.getD (.str "")) vni name].map .dict)),
    ("wireguard_peers", .list [.dict (autoPeer name pub (.list [.str net]) host eport)])], ?_, ow_accepts ?_ ?_ ?_ (h2 19)⟩
  · unfold vxlanWireguardAutoClient
    rw [e]
    have e2 : vxlanAutoClient x = [("server_ip_address", x.serverIp.getD (.str "")), ("vni", vni), ("name", (Dict.get? (x.vxlan.getD []) "name").getD (.str "vxlan"))] := by
      unfold vxlanAutoClient
      rw [hvni]
      rfl
    rw [e2]
    rfl
  · rfl
  · intro d hd
    simp only [List.mem_cons, List.not_mem_nil, or_false] at hd
    rcases hd with rfl | rfl
    · exact iface_ok (n := 17) (t := "wireguard") rfl (Or.inl ⟨rfl, h1 14⟩)
    · exact iface_ok (n := 17) (t := "vxlan") rfl (Or.inr ⟨rfl, hvx 15⟩)
  · intro d hd
    simp only [List.mem_cons, List.not_mem_nil, or_false] at hd
    rcases hd with rfl | rfl
    · exact fun h => absurd (show some (Val.str "wireguard") = some (.str "bridge") from h) (by decide)
    · exact fun h => absurd (show some (Val.str "vxlan") = some (.str "bridge") from h) (by decide)

end NJ
