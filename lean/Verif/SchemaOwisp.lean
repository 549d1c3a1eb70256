import Verif.SchemaMore
import Verif.SchemaOw

/-!
# What the schema of the OpenWISP backend guarantees
-/

namespace NJ

/-- `validate` of the schema of OpenWISP accepts -/
def OwispValid (ip6 : Ip6) (config : VDict) : Prop := valid ip6 owispSchema schemaDepth (.dict owispSchema) (.dict config) = true

theorem owisp_fact {ip6 : Ip6} {config : VDict} {f : Fact} (h : implies owispSchema 24 (.dict owispSchema) f = true) (hv : OwispValid ip6 config) :
    f.Holds ip6 (.dict config) := implies_sound h hv

theorem OwFacts.of_openwisp {ip6 : Ip6} {config : VDict} (h : OwispValid ip6 config) : OwFacts ip6 config where
  general := owisp_fact (by decide +kernel) h
  ntp := owisp_fact (by decide +kernel) h
  led := owisp_fact (by decide +kernel) h
  routes := owisp_fact (by decide +kernel) h
  rules := owisp_fact (by decide +kernel) h
  switch := owisp_fact (by decide +kernel) h
  radios := owisp_fact (by decide +kernel) h
  peers := owisp_fact (by decide +kernel) h
  zt := owisp_fact (by decide +kernel) h
  files := owisp_fact (by decide +kernel) h
  dns := owisp_fact (by decide +kernel) h
  vpn := owisp_fact (by decide +kernel) h
  iface := owisp_fact (by decide +kernel) h
  ifaceType := owisp_fact (by decide +kernel) h
  ifaceAddr := owisp_fact (by decide +kernel) h
  wifi := owisp_fact (by decide +kernel) h
  enc := owisp_fact (by decide +kernel) h

/-- what the scripts ask of a document: hook scripts of VPNs are named by texts -/
def hooksFact : Fact := .objects "openvpn" (.and (.at "up" (.isType "string")) (.at "down" (.isType "string")))
/-- bandwidths are whole numbers -/
def tcFact : Fact := .objects "tc_options" (.and (.at "input_bandwidth" (.isType "integer")) (.at "output_bandwidth" (.isType "integer")))
def hostFact : Fact := .at "general" (.has "hostname")

theorem hooks_fact {ip6 : Ip6} {config : VDict} (h : OwispValid ip6 config) : hooksFact.Holds ip6 (.dict config) := owisp_fact (by decide +kernel) h
theorem tc_fact {ip6 : Ip6} {config : VDict} (h : OwispValid ip6 config) : tcFact.Holds ip6 (.dict config) := owisp_fact (by decide +kernel) h
theorem host_fact {ip6 : Ip6} {config : VDict} (h : OwispValid ip6 config) : hostFact.Holds ip6 (.dict config) := owisp_fact (by decide +kernel) h

end NJ
