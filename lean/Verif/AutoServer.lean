import Verif.AutoValid

/-!
# Pieces for C92: what a valid OpenVPN server is, and when a client is valid
-/

namespace NJ

/-- the items of `openvpn` -/
def vpnItem : VDict := [("type", .str "object"), ("oneOf", .list [.dict [("$ref", .str "#/definitions/client")],
  .dict [("$ref", .str "#/definitions/server_manual")], .dict [("$ref", .str "#/definitions/server_bridged")], .dict [("$ref", .str "#/definitions/server_routed")]])]

/-- the second part of the schema of clients -/
def clientPart : Val := match owSchema_def_client with
  | .dict [("allOf", .list [_, p])] => p
  | _ => .none

section
variable {ip6 : Ip6} {root : VDict} {n : Nat}

theorem vpnList_iff {d : VDict} : valid ip6 root (n + 2) owSchema_pro_openvpn (.list [.dict d]) = true ↔
    ([.dict [("$ref", .str "#/definitions/client")], .dict [("$ref", .str "#/definitions/server_manual")], .dict [("$ref", .str "#/definitions/server_bridged")],
      .dict [("$ref", .str "#/definitions/server_routed")]].filter fun s => valid ip6 root n s (.dict d)).length = 1 := by
  have e : owSchema_pro_openvpn = .dict [("type", .str "array"), ("uniqueItems", .bool true), ("items", .dict vpnItem)] := rfl
  rw [e, valid_plain rfl]
  change ((true && (true && ((valid ip6 root (n + 1) (.dict vpnItem) (.dict d) && true) && true)))) = true ↔ _
  rw [valid_plain rfl]
  change (true && (true && (((true && (decide (_ = 1) && true)) && true) && true))) = true ↔ _
  simp only [Bool.true_and, Bool.and_true, decide_eq_true_eq]

/-- `server` of the definitions: properties only -/
theorem serverDef_props {d : VDict} (h : valid ip6 root (n + 1) owSchema_def_server (.dict d) = true) :
    ∀ p ∈ propsOf owSchema_def_server, ∀ x, Dict.get? d p.1 = some x → valid ip6 root n p.2 x = true := by
  have e : owSchema_def_server = .dict [("type", .str "object"), ("properties", .dict (propsOf owSchema_def_server))] := rfl
  rw [e, valid_plain rfl] at h
  have := List.all_eq_true.1 h ("properties", .dict (propsOf owSchema_def_server)) (by simp)
  exact props_iff.1 this

/-- the mode of servers -/
theorem not_server {d : VDict} (hm : Dict.get? d "mode" = some (.str "p2p")) : valid ip6 root (n + 2) owSchema_def_server (.dict d) = false := by
  cases h : valid ip6 root (n + 2) owSchema_def_server (.dict d) with
  | false => rfl
  | true =>
    have := serverDef_props h ("mode", .dict [("enum", .list [.str "server"])]) (List.mem_of_getElem? (i := 0) rfl) _ hm
    rw [valid_plain rfl] at this
    exact absurd this (by rw [show (List.all _ _) = false from rfl]; decide)

/-- the references of the schema that the items of `openvpn` lead to -/
structure VpnRefs (root : VDict) (T : Val) : Prop where
  tunnel : resolveRef root "#/definitions/tunnel" = some T
  client : resolveRef root "#/definitions/client" = some owSchema_def_client
  server : resolveRef root "#/definitions/server" = some owSchema_def_server
  manual : resolveRef root "#/definitions/server_manual" = some owSchema_def_server_manual
  bridged : resolveRef root "#/definitions/server_bridged" = some owSchema_def_server_bridged
  routed : resolveRef root "#/definitions/server_routed" = some owSchema_def_server_routed

theorem openvpn_refs : VpnRefs openvpnSchema vpnSchema_def_tunnel := by
  constructor <;> rfl

theorem ow_refs : VpnRefs owSchema owSchema_def_tunnel := by
  constructor <;> rfl

/-- the parts of the three kinds of servers -/
theorem server_parts {T : Val} (hr : VpnRefs root T) {d : VDict} {r : String}
    (hk : r ∈ ["#/definitions/server_manual", "#/definitions/server_bridged", "#/definitions/server_routed"])
    (h : valid ip6 root (n + 3) (.dict [("$ref", .str r)]) (.dict d) = true) :
    valid ip6 root n T (.dict d) = true ∧ valid ip6 root n owSchema_def_server (.dict d) = true := by
  simp only [List.mem_cons, List.not_mem_nil, or_false] at hk
  rcases hk with rfl | rfl | rfl
  · rw [ref_valid hr.manual] at h
    have h := allOf_iff.1 h
    exact ⟨ref_valid hr.tunnel ▸ h _ (List.mem_of_getElem? (i := 0) rfl), ref_valid hr.server ▸ h _ (List.mem_of_getElem? (i := 1) rfl)⟩
  · rw [ref_valid hr.bridged] at h
    have h := allOf_iff.1 h
    exact ⟨ref_valid hr.tunnel ▸ h _ (List.mem_of_getElem? (i := 1) rfl), ref_valid hr.server ▸ h _ (List.mem_of_getElem? (i := 2) rfl)⟩
  · rw [ref_valid hr.routed] at h
    have h := allOf_iff.1 h
    exact ⟨ref_valid hr.tunnel ▸ h _ (List.mem_of_getElem? (i := 1) rfl), ref_valid hr.server ▸ h _ (List.mem_of_getElem? (i := 2) rfl)⟩

theorem client_parts {T : Val} (hr : VpnRefs root T) {d : VDict} :
    valid ip6 root (n + 3) (.dict [("$ref", .str "#/definitions/client")]) (.dict d) = true ↔
      valid ip6 root n T (.dict d) = true ∧ valid ip6 root (n + 1) clientPart (.dict d) = true := by
  rw [ref_valid hr.client]
  have e : owSchema_def_client = .dict [("allOf", .list [.dict [("$ref", .str "#/definitions/tunnel")], clientPart])] := rfl
  rw [e, allOf_iff]
  simp only [List.mem_cons, List.not_mem_nil, or_false, forall_eq_or_imp, forall_eq, ref_valid hr.tunnel]

/-- a dictionary of mode "p2p" is a client only -/
theorem client_only {T : Val} (hr : VpnRefs root T) {d : VDict} (hm : Dict.get? d "mode" = some (.str "p2p"))
    (h1 : valid ip6 root (n + 2) T (.dict d) = true) (h2 : valid ip6 root (n + 3) clientPart (.dict d) = true) :
    valid ip6 root (n + 7) owSchema_pro_openvpn (.list [.dict d]) = true := by
  refine vpnList_iff.2 ?_
  have hs : ∀ r ∈ ["#/definitions/server_manual", "#/definitions/server_bridged", "#/definitions/server_routed"],
      valid ip6 root (n + 5) (.dict [("$ref", .str r)]) (.dict d) = false := by
    intro r hk
    cases h : valid ip6 root (n + 5) (.dict [("$ref", .str r)]) (.dict d) with
    | false => rfl
    | true =>
      have := (server_parts hr hk h).2
      rw [not_server hm] at this
      cases this
  have hc := (client_parts hr).2 ⟨h1, h2⟩
  simp [hs, hc]

/-- what a valid server has -/
structure ServerOk (ip6 : Ip6) (d : VDict) : Prop where
  has : ∀ k ∈ ["name", "mode", "proto", "dev"], Dict.has d k = true
  tunnel : ∀ p ∈ propsOf vpnSchema_def_tunnel, ∀ x, Dict.get? d p.1 = some x → valid ip6 openvpnSchema 17 p.2 x = true
  server : ∀ p ∈ propsOf owSchema_def_server, ∀ x, Dict.get? d p.1 = some x → valid ip6 openvpnSchema 17 p.2 x = true

theorem server_ok {d : VDict} (h : valid ip6 openvpnSchema schemaDepth (.dict openvpnSchema) (.dict [("openvpn", .list [.dict d])]) = true)
    (hm : Dict.get? d "mode" = some (.str "server")) : ServerOk ip6 d := by
  have h : valid ip6 openvpnSchema 24 (.dict openvpnSchema) (.dict [("openvpn", .list [.dict d])]) = true := h
  rw [valid_plain rfl] at h
  have h := List.all_eq_true.1 h ("properties", .dict openvpnSchema_properties) (List.mem_of_getElem? (i := 2) rfl)
  have h := props_iff.1 h ("openvpn", owSchema_pro_openvpn) (List.mem_of_getElem? (i := 0) rfl) (.list [.dict d]) rfl
  have h := vpnList_iff.1 h
  have hc : valid ip6 openvpnSchema 21 (.dict [("$ref", .str "#/definitions/client")]) (.dict d) = false := by
    cases h : valid ip6 openvpnSchema 21 (.dict [("$ref", .str "#/definitions/client")]) (.dict d) with
    | false => rfl
    | true =>
      have h := ((client_parts openvpn_refs).1 h).2
      rw [show clientPart = .dict [("type", .str "object"), ("required", .list [.str "remote"]), ("properties", .dict (propsOf clientPart))] from rfl,
        valid_plain rfl] at h
      have h := List.all_eq_true.1 h ("properties", .dict (propsOf clientPart)) (by simp)
      have h := props_iff.1 h ("mode", .dict [("enum", .list [.str "p2p"])]) (List.mem_of_getElem? (i := 0) rfl) _ hm
      rw [valid_plain rfl] at h
      exact absurd h (by rw [show (List.all _ _) = false from rfl]; decide)
  have hs : ∃ r ∈ ["#/definitions/server_manual", "#/definitions/server_bridged", "#/definitions/server_routed"],
      valid ip6 openvpnSchema 21 (.dict [("$ref", .str r)]) (.dict d) = true := by
    by_cases a : ∃ r ∈ ["#/definitions/server_manual", "#/definitions/server_bridged", "#/definitions/server_routed"],
      valid ip6 openvpnSchema 21 (.dict [("$ref", .str r)]) (.dict d) = true
    · exact a
    · simp only [List.mem_cons, List.not_mem_nil, or_false, exists_eq_or_imp, exists_eq_left, not_or, Bool.not_eq_true] at a
      simp [hc, a] at h
  obtain ⟨r, hr, h⟩ := hs
  obtain ⟨h1, h2⟩ := server_parts openvpn_refs hr h
  have e : vpnSchema_def_tunnel = .dict [("type", .str "object"), ("required", .list [.str "name", .str "mode", .str "proto", .str "dev"]),
    ("properties", .dict (propsOf vpnSchema_def_tunnel))] := rfl
  rw [e] at h1
  obtain ⟨g1, g2⟩ := tunnel_iff.1 h1
  exact ⟨g1, g2, serverDef_props h2⟩

end

end NJ
