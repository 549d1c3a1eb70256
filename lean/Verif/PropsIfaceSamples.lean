import Verif.PropsIfaces
import Verif.PropsConv

/-!
# C73: interfaces that meet the conditions, and why the conditions are needed
-/

namespace NJ

/-! ## A configuration that meets the conditions -/

def wanAddr : VDict :=
  [("proto", .str "static"), ("family", .str "ipv4"), ("address", .str "10.0.0.2"), ("mask", .int 24), ("gateway", .str "10.0.0.1")]

def wanOptions : VDict :=
  [("name", .str "eth0"), ("type", .str "ethernet"), ("mtu", .int 1400), ("network", .str "wan"), ("autostart", .bool true),
   ("mac", .str "02:00:00:00:00:01"), ("addresses", .list [.dict wanAddr]), ("zone", .str "wan zone")]

def lanOptions : VDict :=
  [("name", .str "br-lan"), ("type", .str "bridge"), ("network", .str "br_lan"), ("stp", .bool true), ("max_age", .int 20), ("disabled", .bool false),
   ("bridge_members", .list [.str "eth1", .str "eth2.10", .str "wlan1"]), ("addresses", .list [.dict [("proto", .str "dhcp"), ("family", .str "ipv4")]])]

def loOptions : VDict := [("name", .str "lo"), ("type", .str "loopback")]

def wanGroup : Group := .static [⟨false, 167772162, 24, some "10.0.0.1"⟩]

def sampleIfaces : List Iface :=
  [⟨"eth0", some "wan", wanGroup, wanOptions⟩, ⟨"br-lan", some "br_lan", .dhcp false, lanOptions⟩, ⟨"lo", none, .none, loOptions⟩]

/-- options of an interface but for those the specification names, as a check -/
def otherOptionsB (d : VDict) : Bool :=
  d.all (fun p => decide (p.1 ∈ ifaceKeys) || decide (p.1 ∈ bridgeOptions) ||
    (decide (IsWord p.1.toList) && decide (p.1.toList.head? ≠ some '.') && survivesB none p.2))

theorem otherOptionsB_sound {d : VDict} (hn : (Dict.keys d).Nodup) (h : otherOptionsB d = true) :
    ∀ k v, Dict.get? d k = some v → k ∉ ifaceKeys → k ∉ bridgeOptions → IsWord k.toList ∧ k.toList.head? ≠ some '.' ∧ Survives none v := by
  intro k v hk h1 h2
  have := List.all_eq_true.1 h (k, v) ((Dict.get?_some_iff hn).1 hk)
  simp only [h1, h2, decide_false, Bool.false_or, Bool.and_eq_true, decide_eq_true_eq] at this
  exact ⟨this.1.1, this.1.2, survivesB_sound this.2⟩

theorem wanGroup_ok : HasGroup sampleEnv wanOptions wanGroup := by
  refine ⟨by simp, [wanAddr], by decide +kernel, .cons ⟨by decide +kernel, fun k => ?_, ?_⟩ .nil⟩
  · have hh : txt (Addr.host sampleEnv ⟨false, 167772162, 24, some "10.0.0.1"⟩) = .str "10.0.0.2" := by decide +kernel
    unfold addrItem
    rw [hh]
    unfold wanAddr
    by_cases e1 : k = "address"
    · subst e1; decide +kernel
    by_cases e2 : k = "mask"
    · subst e2; decide +kernel
    by_cases e3 : k = "proto"
    · subst e3; decide +kernel
    by_cases e4 : k = "family"
    · subst e4; decide +kernel
    by_cases e5 : k = "gateway"
    · subst e5; decide +kernel
    simp [Dict.get?_cons, e1, e2, e3, e4, e5, Ne.symm e1, Ne.symm e2, Ne.symm e3, Ne.symm e4, Ne.symm e5]
  · show (167772162 : Nat) < 2 ^ 32 ∧ 24 ≤ 32
    decide

theorem wanGroup_read : GroupRead sampleEnv wanGroup := by
  refine ⟨by simp, ?_, ?_⟩
  · intro a ha
    rw [List.mem_singleton] at ha
    subst ha
    show (167772162 : Nat) < 2 ^ 32 ∧ 24 ≤ 32
    decide
  · intro v6
    cases v6
    · refine .inr ⟨[], ⟨false, 167772162, 24, some "10.0.0.1"⟩, [], "10.0.0.1", ⟨false, 167772161, 32⟩, rfl, rfl, by simp, by decide, ?_, by decide +kernel, ?_, by simp⟩
      · exact ⟨by decide +kernel, by decide +kernel⟩
      · rw [← inNetwork_iff]; decide +kernel
    · exact .inl (by simp [ofVersion])

theorem sampleIfaces_ok (dsa : Bool) : ∀ i ∈ sampleIfaces, i.OK sampleEnv dsa := by
  intro i hi
  simp only [sampleIfaces, List.mem_cons, List.not_mem_nil, or_false] at hi
  rcases hi with rfl | rfl | rfl
  · left
    have hn : (Dict.keys wanOptions).Nodup := by decide +kernel
    refine { nodup := hn, nameOk := by decide +kernel, word := by decide +kernel, networkOk := by decide +kernel, networkWord := ?_, group := wanGroup_ok,
             groupRead := wanGroup_read, mtu := ?_, mac := ?_, autostart := ?_, disabled := ?_, reserved := by decide +kernel,
             options := otherOptionsB_sound hn (by decide +kernel), type := by decide +kernel, noBridge := by decide +kernel }
    · rintro n ⟨⟩; decide +kernel
    · intro v hv; exact ⟨1400, by simpa [wanOptions, Dict.get?_cons] using hv.symm⟩
    · intro v hv
      refine ⟨"02:00:00:00:00:01", by simpa [wanOptions, Dict.get?_cons] using hv.symm, by decide, ⟨by decide +kernel, by decide +kernel⟩⟩
    · intro v hv; exact ⟨true, by simpa [wanOptions, Dict.get?_cons] using hv.symm⟩
    · intro v hv; exact absurd hv (by simp [wanOptions, Dict.get?_cons])
  · right
    have hn : (Dict.keys lanOptions).Nodup := by decide +kernel
    refine ⟨["eth1", "eth2.10", "wlan1"],
           { nodup := hn, nameOk := by decide +kernel, word := by decide +kernel, networkOk := by decide +kernel, networkWord := ?_,
             group := ?_, groupRead := trivial, mtu := ?_, mac := ?_, autostart := ?_, disabled := ?_, reserved := by decide +kernel,
             options := otherOptionsB_sound hn (by decide +kernel), type := by decide +kernel, membersOk := by decide +kernel,
             memberWords := by decide +kernel, flags := ?_, numbers := ?_, ageing := by decide +kernel, brPrefix := fun _ => by decide +kernel,
             nameBack := by cases dsa <;> decide +kernel }⟩
    · rintro n ⟨⟩; decide +kernel
    · refine ⟨_, by simp [lanOptions, Dict.get?_cons]; rfl, by decide +kernel, fun k => ?_⟩
      unfold dhcpItem
      by_cases e1 : k = "proto"
      · subst e1; decide +kernel
      by_cases e2 : k = "family"
      · subst e2; decide +kernel
      simp [Dict.get?_cons, e1, e2, Ne.symm e1, Ne.symm e2]
    · intro v hv; exact absurd hv (by simp [lanOptions, Dict.get?_cons])
    · intro v hv; exact absurd hv (by simp [lanOptions, Dict.get?_cons])
    · intro v hv; exact absurd hv (by simp [lanOptions, Dict.get?_cons])
    · intro v hv; exact ⟨false, by simpa [lanOptions, Dict.get?_cons] using hv.symm⟩
    · intro k hk v hv
      simp only [bridgeFlags, List.mem_cons, List.not_mem_nil, or_false] at hk
      rcases hk with rfl | rfl | rfl <;> simp [lanOptions, Dict.get?_cons] at hv
      exact ⟨true, hv.symm⟩
    · intro k hk v hv
      have q : ∀ k ∈ bridgeInts, k = "max_age" ∨ Dict.get? lanOptions k = none := by decide +kernel
      rcases q k hk with rfl | e
      · simp [lanOptions, Dict.get?_cons] at hv
        exact ⟨20, hv.symm⟩
      · rw [e] at hv; cases hv
  · left
    have hn : (Dict.keys loOptions).Nodup := by decide +kernel
    refine { nodup := hn, nameOk := by decide +kernel, word := by decide +kernel, networkOk := by decide +kernel, networkWord := ?_, group := ?_,
             groupRead := trivial, mtu := ?_, mac := ?_, autostart := ?_, disabled := ?_, reserved := by decide +kernel,
             options := otherOptionsB_sound hn (by decide +kernel), type := by decide +kernel, noBridge := by decide +kernel }
    · intro n hn; cases hn
    · show Dict.get? loOptions "addresses" = none; decide +kernel
    all_goals intro v hv; exact absurd hv (by simp [loOptions, Dict.get?_cons])

theorem sampleIfaces_apart (dsa : Bool) : IfacesApart dsa sampleIfaces := by
  refine ⟨by decide +kernel, by decide +kernel, ?_, ?_⟩
  · have q : ∀ i ∈ sampleIfaces, ∀ j ∈ sampleIfaces, sectionName i.name i.network ≠ "device_".toList ++ sectionName j.name j.network := by decide +kernel
    exact fun i hi j hj _ => q i hi j hj
  · have q : ∀ i ∈ sampleIfaces, '.' ∉ i.name.toList := by decide +kernel
    exact fun i hi j hj _ hd => absurd hd (q i hi)

def sampleIfConfig : VDict := [("interfaces", .list (sampleIfaces.map (fun i => Val.dict i.options))), ("dns_servers", .list [.str "10.0.0.1", .str "8.8.8.8"])]

/-- the hypotheses of `C73_interfaces` hold of these interfaces -/
example (dsa : Bool) : ∃ out rs, viaText sampleEnv.reprC (ifacesConv (fun _ => true) sampleEnv dsa) (ifacesBConv sampleEnv dsa) sampleIfConfig = .ok out ∧
    Dict.get? out "interfaces" = some (.list (rs.map .dict)) ∧
    List.Forall₂ (fun r (i : Iface) => IfaceComesBack sampleEnv i.name i.network i.group r i.options) rs sampleIfaces := by
  have hdns : DnsOK sampleIfConfig ["10.0.0.1", "8.8.8.8"] [] := ⟨⟨.inr (by decide +kernel), by decide +kernel⟩, ⟨.inl ⟨rfl, by decide +kernel⟩, by decide +kernel⟩⟩
  obtain ⟨out, rs, h1, h2, h3, _⟩ := C73_interfaces (fun _ => true) hdns (is := sampleIfaces) (by decide) rfl (sampleIfaces_ok dsa) (sampleIfaces_apart dsa)
  exact ⟨out, rs, h1, h2, h3⟩

/-! ## Why the conditions are needed -/

/-- the interfaces that come back -/
def ifacesOut (dsa : Bool) (l : List VDict) : Option Val :=
  match viaText sampleEnv.reprC (ifacesConv (fun _ => true) sampleEnv dsa) (ifacesBConv sampleEnv dsa) [("interfaces", .list (l.map .dict))] with
  | .ok out => Dict.get? out "interfaces"
  | .error _ => none

/-- the name of an interface before its dot is the name of a device: the interfaces come back in another order -/
theorem C73_needs_dots : ifacesOut true [[("name", .str "eth0.1"), ("type", .str "ethernet")], [("name", .str "eth0"), ("type", .str "ethernet"), ("mtu", .int 1400)]] =
    some (.list [.dict [("mtu", .int 1400), ("name", .str "eth0"), ("type", .str "ethernet")], .dict [("name", .str "eth0.1"), ("type", .str "ethernet")]]) := by
  decide +kernel

/-- interfaces whose names differ only in a dot and an underscore become one -/
theorem C73_needs_sections : ifacesOut true [[("name", .str "eth0.2"), ("type", .str "ethernet")], [("name", .str "eth0_2"), ("type", .str "ethernet")]] =
    some (.list [.dict [("name", .str "eth0_2"), ("type", .str "ethernet")]]) := by
  decide +kernel

/-- an interface with the name of the section of a device takes the options of that device away -/
theorem C73_needs_devices : ifacesOut true [[("name", .str "eth0"), ("type", .str "ethernet"), ("mtu", .int 1400)], [("name", .str "device_eth0"), ("type", .str "ethernet")]] =
    some (.list [.dict [("mtu", .int 1400), ("name", .str "device_eth0"), ("type", .str "ethernet")], .dict [("name", .str "eth0"), ("type", .str "ethernet")]]) := by
  decide +kernel

/-- two interfaces of one device: the options of the device go to the first of them -/
theorem C73_needs_names : ifacesOut true [[("name", .str "eth0"), ("type", .str "ethernet"), ("network", .str "a")],
      [("name", .str "eth0"), ("type", .str "ethernet"), ("network", .str "b"), ("mtu", .int 1400)]] =
    some (.list [.dict [("mtu", .int 1400), ("network", .str "a"), ("name", .str "eth0"), ("type", .str "ethernet")],
      .dict [("network", .str "b"), ("name", .str "eth0"), ("type", .str "ethernet")]]) := by
  decide +kernel

/-- an interface with a static and a DHCP address comes back as two interfaces, and the second one has the gateway -/
theorem C73_needs_one_group : ifacesOut true [[("name", .str "eth0"), ("type", .str "ethernet"),
      ("addresses", .list [.dict wanAddr, .dict [("proto", .str "dhcp"), ("family", .str "ipv4")]])]] =
    some (.list [.dict [("name", .str "eth0"), ("type", .str "ethernet"), ("addresses", .list [.dict [("address", .str "10.0.0.2"), ("mask", .int 24),
        ("proto", .str "static"), ("family", .str "ipv4"), ("gateway", .str "10.0.0.1")]])],
      .dict [("gateway", .str "10.0.0.1"), ("network", .str "eth0_2"), ("name", .str "eth0"), ("type", .str "ethernet"),
        ("addresses", .list [.dict [("proto", .str "dhcp"), ("family", .str "ipv4")]])]]) := by
  decide +kernel

/-- the ageing time of a bridge, a number, comes back as text -/
theorem C73_needs_no_ageing : ifacesOut true [[("name", .str "br-lan"), ("type", .str "bridge"), ("bridge_members", .list []), ("ageing_time", .int 300)]] =
    some (.list [.dict [("ageing_time", .str "300"), ("name", .str "br-lan"), ("type", .str "bridge"), ("bridge_members", .list [])]]) := by
  decide +kernel

/-- a bridge whose name does not begin with `br-` gets another name -/
theorem C73_needs_bridge_name : ifacesOut true [[("name", .str "lan"), ("type", .str "bridge"), ("bridge_members", .list [])]] =
    some (.list [.dict [("name", .str "br-lan"), ("type", .str "bridge"), ("network", .str "lan"), ("bridge_members", .list [])]]) := by
  decide +kernel

/-- an option of the device other than the MTU and the MAC address is lost -/
theorem C73_needs_reserved : ifacesOut true [[("name", .str "eth0"), ("type", .str "ethernet"), ("txqueuelen", .int 1000)]] =
    some (.list [.dict [("name", .str "eth0"), ("type", .str "ethernet")]]) := by
  decide +kernel

end NJ
