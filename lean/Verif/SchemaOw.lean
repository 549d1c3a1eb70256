import Verif.SchemaFacts
import Verif.SafeRender

/-!
# What the schema of the OpenWrt backend guarantees

Each consequence is found by `implies` in the schema itself (one evaluation by the kernel) and holds of every accepted document
(`implies_sound`).
-/

namespace NJ

namespace Fact
/-- a list of objects under that key -/
def objects (k : String) (f : Fact) : Fact := .at k (.and (.isType "array") (.each (.and (.isType "object") f)))
/-- unless of one of the types -/
def otherwise (l : List String) (f : Fact) : Fact := .or (.at "type" (.among l)) f
end Fact

/-- `validate` of the schema accepts -/
def OwValid (ip6 : Ip6) (config : VDict) : Prop := valid ip6 owSchema schemaDepth (.dict owSchema) (.dict config) = true

theorem ow_fact {ip6 : Ip6} {config : VDict} {f : Fact} (h : implies owSchema 24 (.dict owSchema) f = true) (hv : OwValid ip6 config) :
    f.Holds ip6 (.dict config) := implies_sound h hv

section
variable {ip6 : Ip6}

theorem holds_txt {v : Val} (h : (Fact.isType "string").Holds ip6 v) : IsTxt v := by
  cases v <;> simp [Fact.Holds, typeOk] at h
  exact isTxt_str _

theorem holds_int {v : Val} (h : (Fact.isType "integer").Holds ip6 v) : ∃ i, v = .int i := by
  cases v <;> simp [Fact.Holds, typeOk] at h
  exact ⟨_, rfl⟩

theorem holds_obj {v : Val} {f : Fact} (h : (Fact.and (.isType "object") f).Holds ip6 v) : IsObj (fun d => f.Holds ip6 (.dict d)) v := by
  obtain ⟨h, hf⟩ := h
  cases v <;> simp [Fact.Holds, typeOk] at h
  exact ⟨_, rfl, hf⟩

theorem holds_lst {v : Val} {f : Fact} (h : (Fact.and (.isType "array") (.each f)).Holds ip6 v) : IsLst (fun x => f.Holds ip6 x) v := by
  obtain ⟨h, hf⟩ := h
  cases v <;> simp [Fact.Holds, typeOk] at h
  exact ⟨_, rfl, hf _ rfl⟩

theorem holds_at {d : VDict} {k : String} {f : Fact} (h : (Fact.at k f).Holds ip6 (.dict d)) : Opt d k (f.Holds ip6) :=
  fun x hx => h d x rfl hx

theorem holds_has {d : VDict} {k : String} (h : (Fact.has k).Holds ip6 (.dict d)) : Dict.has d k = true := h d rfl

theorem holds_key {d : VDict} {k : String} (h : (Fact.has k).Holds ip6 (.dict d)) : Key d k fun _ => True :=
  key_of (holds_has h) fun _ _ => trivial

theorem opt_mono {d : VDict} {k : String} {P Q : Val → Prop} (h : Opt d k P) (hp : ∀ v, P v → Q v) : Opt d k Q := fun v hv => hp v (h v hv)

theorem holds_objects {d : VDict} {k : String} {f : Fact} (h : (Fact.objects k f).Holds ip6 (.dict d)) :
    Opt d k (IsLst (IsObj fun x => f.Holds ip6 (.dict x))) := by
  refine opt_mono (holds_at h) fun v hv => ?_
  obtain ⟨l, rfl, hl⟩ := holds_lst hv
  exact ⟨l, rfl, fun x hx => holds_obj (hl x hx)⟩

theorem holds_otherwise {d : VDict} {l : List String} {f : Fact} {t : String} (h : (Fact.otherwise l f).Holds ip6 (.dict d))
    (ht : Dict.get? d "type" = some (.str t)) (hn : t ∉ l) : f.Holds ip6 (.dict d) := by
  rcases h with h | h
  · obtain ⟨s, hs, e⟩ := h d _ rfl ht
    cases e
    exact absurd hs hn
  · exact h
end

local infixr:35 " & " => Fact.and
local notation "S" => Fact.isType "string"
local notation "I" => Fact.isType "integer"
local notation "O" => Fact.isType "object"
local notation "L" => Fact.isType "array"

def generalFact : Fact := .at "general" (O & .at "timezone" (.among (timezones.map (·.1))))
def ntpFact : Fact := .at "ntp" (O & O)
def ledFact : Fact := .objects "led" (.has "name" & .at "name" S)
def routesFact : Fact := .objects "routes" (.has "destination" & .has "device" & .has "next" & .has "cost" & .at "destination" S)
def rulesFact : Fact := .objects "ip_rules" (.at "src" (S & .format "cidr") & .at "dest" (S & .format "cidr"))
def switchFact : Fact := .objects "switch" (.has "name" & .at "name" S & .has "vlan" & .objects "vlan" (.has "vlan"))
def radiosFact : Fact := .objects "radios" (.has "name" & .at "name" S & .has "protocol" & .has "channel" & .at "channel" I & .has "channel_width" & .at "country" S)
def peersFact : Fact := .objects "wireguard_peers" (.has "interface" & .at "interface" S)
def ztFact : Fact := .objects "zerotier" (.has "name" & .at "name" S & .has "networks" & .objects "networks" (.has "ifname" & .at "ifname" S))
def filesFact : Fact := .objects "files" (.has "path" & .at "path" S & .has "contents" & .at "contents" S & .at "mode" (S & .pattern "^[0-7]*$" & .minLength 3))
def dnsFact : Fact := .at "dns_servers" (L & .each S) & .at "dns_search" (L & .each S)
def vpnFact : Fact := .objects "openvpn" (.has "name" & .at "name" (S & .minLength 1) & .objects "data_ciphers" (.has "cipher" & .has "optional") &
  .at "tls_auth" S & .at "ca" S & .has "mode" & .or (.at "mode" (.among ["server"])) (.objects "remote" (.has "host" & .has "port")))

/-- the types of interfaces -/
def allTypes : List String :=
  ["ethernet", "virtual", "loopback", "other", "wireless", "bridge", "8021q", "8021ad", "dialup", "modem-manager", "vxlan", "wireguard"]

def ifaceFact : Fact := .has "name" & .at "name" S & .has "type" & .at "type" (.among allTypes) & .at "network" S
def ifaceTypeFact : Fact :=
  .otherwise (allTypes.erase "vxlan") (.has "vtep" & .has "vni") &
  .otherwise (allTypes.erase "8021q") (.has "vid") &
  .otherwise (allTypes.erase "8021ad") (.has "vid") &
  .otherwise (allTypes.erase "bridge") (.has "bridge_members" & .at "bridge_members" (L & .each S)) &
  .otherwise (allTypes.erase "bridge") (.objects "vlan_filtering" (.objects "ports" (.has "ifname")))
/-- said of every static address, except of the types for which the schema says nothing or something else -/
def staticFact (f : Fact) : Fact :=
  .otherwise ["wireguard", "modem-manager", "vxlan"] (.objects "addresses" (.or (.at "proto" (.among ["dhcp"])) f))
def ifaceAddrFact : Fact :=
  .otherwise (allTypes.erase "wireguard") (.objects "addresses" (.has "address")) &
  .otherwise ["wireguard", "modem-manager", "vxlan"] (.objects "addresses" (.has "proto")) &
  staticFact (.has "address" & .has "mask") & staticFact (.at "address" S) & staticFact (.at "mask" I) & staticFact (.at "mask" (.atLeast 0)) &
  staticFact (.or (.at "family" (.among ["ipv6"])) (.at "address" (.format "ipv4")))

/-- protocols without key -/
def openProtocols : List String := ["none", "owe", "wps"]
/-- protocols that are not WEP -/
def noWep : List String :=
  ["none", "owe", "wps", "wpa2_personal", "wpa_personal_mixed", "wpa_personal", "wpa3_personal", "wpa2_personal_mixed", "wpa3_enterprise",
   "wpa2_enterprise_mixed", "wpa_enterprise", "wpa2_enterprise", "wpa_enterprise_mixed"]
/-- the modes of Wi-Fi interfaces -/
def wifiModeNames : List String := ["access_point", "station", "adhoc", "monitor", "802.11s"]

def wifiFact : Fact := .otherwise (allTypes.erase "wireless") (.at "wireless" (O & .has "radio" & .has "mode" & .at "mode" (.among wifiModeNames) &
  .at "ack_distance" I & .at "rts_threshold" I & .at "frag_threshold" I)) &
  .otherwise (allTypes.erase "wireless") (.at "wireless" (.at "network" (L & .each S)))
def encFact : Fact := .otherwise (allTypes.erase "wireless") (.at "wireless" (O &
  .or (.at "mode" (.among ["monitor"])) (.at "encryption" (O & .has "protocol" & .at "protocol" S & .or (.at "protocol" (.among noWep)) (.has "key"))) &
  .or (.at "mode" (.among ["monitor", "station", "adhoc", "802.11s"])) (.at "encryption" (O & .or (.at "protocol" (.among openProtocols)) (.has "key")))))

/-- what the schema of OpenWrt guarantees, and what is used of it below -/
structure OwFacts (ip6 : Ip6) (config : VDict) : Prop where
  general : generalFact.Holds ip6 (.dict config)
  ntp : ntpFact.Holds ip6 (.dict config)
  led : ledFact.Holds ip6 (.dict config)
  routes : routesFact.Holds ip6 (.dict config)
  rules : rulesFact.Holds ip6 (.dict config)
  switch : switchFact.Holds ip6 (.dict config)
  radios : radiosFact.Holds ip6 (.dict config)
  peers : peersFact.Holds ip6 (.dict config)
  zt : ztFact.Holds ip6 (.dict config)
  files : filesFact.Holds ip6 (.dict config)
  dns : dnsFact.Holds ip6 (.dict config)
  vpn : vpnFact.Holds ip6 (.dict config)
  iface : (Fact.objects "interfaces" ifaceFact).Holds ip6 (.dict config)
  ifaceType : (Fact.objects "interfaces" ifaceTypeFact).Holds ip6 (.dict config)
  ifaceAddr : (Fact.objects "interfaces" ifaceAddrFact).Holds ip6 (.dict config)
  wifi : (Fact.objects "interfaces" wifiFact).Holds ip6 (.dict config)
  enc : (Fact.objects "interfaces" encFact).Holds ip6 (.dict config)

/-- documents the schema accepts -/
theorem OwFacts.of_valid {ip6 : Ip6} {config : VDict} (h : OwValid ip6 config) : OwFacts ip6 config where
  general := ow_fact (by decide +kernel) h
  ntp := ow_fact (by decide +kernel) h
  led := ow_fact (by decide +kernel) h
  routes := ow_fact (by decide +kernel) h
  rules := ow_fact (by decide +kernel) h
  switch := ow_fact (by decide +kernel) h
  radios := ow_fact (by decide +kernel) h
  peers := ow_fact (by decide +kernel) h
  zt := ow_fact (by decide +kernel) h
  files := ow_fact (by decide +kernel) h
  dns := ow_fact (by decide +kernel) h
  vpn := ow_fact (by decide +kernel) h
  iface := ow_fact (by decide +kernel) h
  ifaceType := ow_fact (by decide +kernel) h
  ifaceAddr := ow_fact (by decide +kernel) h
  wifi := ow_fact (by decide +kernel) h
  enc := ow_fact (by decide +kernel) h

end NJ
