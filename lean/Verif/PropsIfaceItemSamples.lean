import Verif.PropsIfaceItems
import Verif.PropsSectionSamples

/-!
# C78: interfaces that meet the conditions, and why the condition on bridge members is needed
-/

namespace NJ

theorem membersOK_iff (b : VDict) : MembersOK b ↔ (Dict.get? b "bridge_members").all (fun v => match v with | .list _ => true | _ => false) = true := by
  unfold MembersOK
  cases Dict.get? b "bridge_members" with
  | none => simp
  | some v => cases v <;> simp

instance (b : VDict) : Decidable (MembersOK b) := decidable_of_iff _ (membersOK_iff b).symm

/-- a VLAN interface, a bridge with two addresses and a gateway, and one of a bridge's VLANs with an address of its own -/
def optionSamples : List VDict :=
  [[("name", .str "eth0"), ("type", .str "8021q"), ("vid", .int 5), ("mac", .str "de:ad:be:ef:00:01"), ("addresses", .list [.dict [("proto", .str "dhcp"), ("family", .str "ipv4")]])],
   [("name", .str "lan"), ("type", .str "bridge"), ("stp", .bool true), ("bridge_members", .list [.str "lan1", .str "lan2"]), ("disabled", .bool false),
    ("addresses", .list [.dict (("gateway", .str "10.0.0.1") :: static4 "10.0.0.2" 24), .dict [("proto", .str "dhcp"), ("family", .str "ipv6")]]),
    ("vlan_filtering", .list [.dict [("vlan", .int 7)]])],
   [("name", .str "br-lan.7"), ("type", .str "ethernet"), ("mtu", .int 1400)]]

def optionConfig : VDict := [("interfaces", .list (optionSamples.map .dict))]

/-- `C78_options` is about them, in both syntaxes. -/
example : (∀ b ∈ optionSamples, (Dict.keys b).Nodup ∧ AddressesOK (addressList b) ∧ MembersOK b) ∧
    Dict.get? optionConfig "interfaces" = some (.list (optionSamples.map .dict)) ∧
    (ifacesRun (fun _ => true) sampleEnv true optionConfig).toBool = true ∧ (ifacesRun (fun _ => true) sampleEnv false optionConfig).toBool = true := by
  refine ⟨by decide +kernel, by decide +kernel, by decide +kernel, by decide +kernel⟩

example : (∀ b ∈ sectionSamples, MembersOK b) := by decide +kernel

/-- which of them have a device, and the VLAN devices seen -/
example : optionSamples.map (usesDevice true [.str "br-lan.7"]) = [true, true, false] ∧ optionSamples.map (deviceNeeded sampleEnv "x".toList) = [true, true, true] ∧
    vlansAfter sampleEnv true [] (optionSamples[1]) = [.str "br-lan.7"] := by
  refine ⟨by decide +kernel, by decide +kernel, by decide +kernel⟩

/-- the specification, for the second section of the bridge in the older syntax: it names the bridge and does not declare it again -/
example : ["ifname", "type", "gateway", "stp", ".name", "enabled", "bridge_members"].map (sectionItem sampleEnv false [] "lan".toList (optionSamples[1]) 2) =
    [some (.str "br-lan"), none, none, none, some (.str "lan_2"), some (.bool true), none] := by decide +kernel

/-- the specification, for the device of the VLAN interface -/
example : ["name", ".name", "type", "vid", "ifname", "macaddr", "ports"].map (deviceItem sampleEnv "eth0".toList (optionSamples[0])) =
    [some (.str "eth0.5"), some (.str "device_eth0_5"), some (.str "8021q"), some (.int 5), some (.str "eth0"), some (.str "de:ad:be:ef:00:01"), none] := by decide +kernel

/-- The members of a bridge must be a list: the letters of a text become its ports. -/
theorem C78_needs_members : ifacesRun (fun _ => true) sampleEnv false [("interfaces", .list [.dict [("name", .str "lan"), ("type", .str "bridge"),
      ("bridge_members", .str "eth0")]])] =
    .ok (netOf [[(".name", .str "lan"), (".type", .str "interface"), ("dns", .none), ("dns_search", .none), ("ifname", .str "e t h 0"), ("proto", .str "none"),
      ("type", .str "bridge")]]) := by decide +kernel

end NJ
