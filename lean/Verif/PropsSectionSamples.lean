import Verif.PropsSectionRun
import Verif.PropsConv

/-!
# C67, C74: interfaces that meet the conditions, and why the conditions are needed
-/

namespace NJ

def static4 (ip : String) (mask : Int) : VDict :=
  [("proto", .str "static"), ("family", .str "ipv4"), ("address", .str ip), ("mask", .int mask)]

/-- an Ethernet interface with two static IPv4 addresses, an IPv6 address and DHCP; a bridge with a VLAN; wireless without addresses; dial-up -/
def sectionSamples : List VDict :=
  [[("name", .str "eth0"), ("type", .str "ethernet"), ("mtu", .int 1400), ("zone", .str "wan"),
    ("addresses", .list [.dict (("gateway", .str "10.0.0.1") :: static4 "10.0.0.2" 24), .dict [("proto", .str "dhcp"), ("family", .str "ipv4")],
      .dict (static4 "10.1.0.2" 16),
      .dict [("proto", .str "static"), ("family", .str "ipv6"), ("address", .str "fd00::1"), ("mask", .int 64), ("note", .str "x")]])],
   [("name", .str "lan"), ("type", .str "bridge"), ("bridge_members", .list [.str "lan1", .str "lan2"]), ("addresses", .list [.dict (static4 "192.168.1.1" 24)]),
    ("vlan_filtering", .list [.dict [("vlan", .int 1), ("ports", .list [.dict [("ifname", .str "lan1"), ("tagging", .str "u"), ("primary_vid", .bool true)],
      .dict [("ifname", .str "lan2"), ("tagging", .str "t")]])]])],
   [("name", .str "wlan0"), ("type", .str "wireless")],
   [("name", .str "wwan"), ("type", .str "dialup"), ("proto", .str "3g")]]

def sectionConfig : VDict := [("interfaces", .list (sectionSamples.map .dict)), ("dns_servers", .list [.str "8.8.8.8", .str "8.8.4.4"])]

/-- what is written for them -/
def sectionBlocks : List VDict :=
  [[(".name", .str "device_eth0"), (".type", .str "device"), ("mtu", .int 1400), ("name", .str "eth0")],
   [(".name", .str "eth0"), (".type", .str "interface"), ("device", .str "eth0"), ("dns", .str "8.8.8.8 8.8.4.4"), ("dns_search", .none), ("gateway", .str "10.0.0.1"), ("ip6addr", .str "fd00::1/64"), ("ipaddr", .list [.str "10.0.0.2/24", .str "10.1.0.2/16"]), ("note", .str "x"), ("proto", .str "static"), ("zone", .str "wan")],
   [(".name", .str "eth0_2"), (".type", .str "interface"), ("device", .str "eth0"), ("dns", .none), ("dns_search", .none), ("gateway", .str "10.0.0.1"), ("proto", .str "dhcp"), ("zone", .str "wan")],
   [(".name", .str "device_lan"), (".type", .str "device"), ("name", .str "br-lan"), ("ports", .list [.str "lan1", .str "lan2"]), ("type", .str "bridge"), ("vlan_filtering", .bool true)],
   [(".name", .str "vlan_lan_1"), (".type", .str "bridge-vlan"), ("device", .str "br-lan"), ("ports", .list [.str "lan1:u*", .str "lan2:t"]), ("vlan", .int 1)],
   [(".name", .str "lan_1"), (".type", .str "interface"), ("device", .str "br-lan.1"), ("proto", .str "none")],
   [(".name", .str "lan"), (".type", .str "interface"), ("device", .str "br-lan"), ("dns", .str "8.8.8.8 8.8.4.4"), ("dns_search", .none), ("ipaddr", .str "192.168.1.1"), ("netmask", .str "255.255.255.0"), ("proto", .str "static")],
   [(".name", .str "wwan"), (".type", .str "interface"), ("dns", .none), ("dns_search", .none), ("ifname", .str "wwan"), ("proto", .str "3g")]]

instance (l : List VDict) : Decidable (AddressesOK l) := by unfold AddressesOK; infer_instance

example : (∀ b ∈ sectionSamples, (Dict.keys b).Nodup ∧ AddressesOK (addressList b)) ∧ sectionSamples.map sectionCount = [2, 1, 0, 1] := by
  constructor
  · decide +kernel
  · decide +kernel

/-- these blocks have different names, so they are the whole package -/
example : Dict.get? sectionConfig "interfaces" = some (.list (sectionSamples.map .dict)) ∧
    ifacesRun (fun _ => true) sampleEnv true sectionConfig = .ok (netOf sectionBlocks) ∧ (sectionBlocks.map nameKey).Nodup := by
  refine ⟨by decide +kernel, by decide +kernel, by decide +kernel⟩

example : ∃ v ∈ vlansOf (sectionSamples[1]), Dict.get? v "vlan" = some (.int 1) := by decide +kernel

def clashing : VDict :=
  [("interfaces", .list [.dict [("name", .str "eth0"), ("type", .str "ethernet"),
     ("addresses", .list [.dict (static4 "10.0.0.2" 24), .dict [("proto", .str "dhcp"), ("family", .str "ipv4")]])],
    .dict [("name", .str "eth0.2"), ("type", .str "ethernet"), ("addresses", .list [.dict (static4 "10.2.0.2" 24)])]])]

/-- Names must differ over all interfaces: the second section of `eth0` and the interface `eth0.2` are both called `eth0_2`, and the DHCP
client of `eth0` is lost. -/
theorem C67_needs_distinct : ifacesRun (fun _ => true) sampleEnv false clashing = .ok (netOf [
    [(".name", .str "eth0"), (".type", .str "interface"), ("dns", .none), ("dns_search", .none), ("ifname", .str "eth0"),
     ("ipaddr", .str "10.0.0.2"), ("netmask", .str "255.255.255.0"), ("proto", .str "static")],
    [(".name", .str "eth0_2"), (".type", .str "interface"), ("dns", .none), ("dns_search", .none), ("ifname", .str "eth0.2"),
     ("proto", .str "static"), ("ipaddr", .str "10.2.0.2"), ("netmask", .str "255.255.255.0")]]) := by decide +kernel

end NJ
