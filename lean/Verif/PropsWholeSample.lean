import Verif.PropsWhole
import Verif.PropsIfaceSamples
import Verif.PropsRoutes
import Verif.PropsSwitch
import Verif.PropsRadio
import Verif.PropsPeers
import Verif.PropsDefault

/-!
# C71: a configuration with every section meets the conditions, and why different names are needed
-/

namespace NJ

/-- the packages in which a converter makes blocks -/
def ownPackages (c : Conv) (config : VDict) : List String :=
  if c.should config then match (c.run config []).2 with
    | .ok r => Dict.keys r
    | .error _ => []
  else []

theorem ownNames_none {c : Conv} {config : VDict} {pkg : String} (h : pkg ∉ ownPackages c config) : ownNames c config pkg = [] := by
  unfold ownPackages at h
  unfold ownNames
  split
  · next hs =>
    rw [if_pos hs] at h
    split
    · next r hr =>
      rw [hr] at h
      dsimp only at h
      rw [(Dict.get?_eq_none_iff _ _).2 h]
    · rfl
  · rfl

/-- the names are checked in the packages that there are -/
theorem noClash_of {env : Env} {sh : Val → Bool} {dsa : Bool} {config : VDict} (pkgs : List String)
    (h1 : ∀ c ∈ openwrtConvs env sh dsa, ∀ k ∈ ownPackages c config, k ∈ pkgs)
    (h2 : ∀ pkg ∈ pkgs, ((openwrtConvs env sh dsa).flatMap (fun c => ownNames c config pkg)).Nodup) : NoClash env sh dsa config := by
  intro pkg
  by_cases hp : pkg ∈ pkgs
  · exact h2 pkg hp
  · have : (openwrtConvs env sh dsa).flatMap (fun c => ownNames c config pkg) = [] := by
      rw [List.flatMap_eq_nil_iff]
      intro c hc
      exact ownNames_none (fun h => hp (h1 c hc pkg h))
    rw [this]
    exact List.nodup_nil

def wholeGeneral : VDict := ("ula_prefix", .str "fd8e:f40a:6701::/48") :: ("globals_id", .str "ula") :: sampleGeneral

/-- a station that is a member of the bridge `br-lan` -/
def sampleSta : VDict := [("mode", .str "station"), ("radio", .str "radio1"), ("ssid", .str "uplink"), ("id", .str "sta_1")]

def sampleStaInterface : VDict := [("name", .str "wlan1"), ("type", .str "wireless"), ("wireless", .dict sampleSta)]

theorem sampleSta_ok : WifiOK "wlan1" "station" sampleStaInterface sampleSta where
  hname := rfl
  word := by decide
  mac := by intro v h; cases h
  disabled := by intro v h; cases h
  nodup := by decide
  mode := rfl
  known := by decide
  radio := ⟨_, rfl, survivesB_sound (by decide)⟩
  id := by intro v h; cases h; exact ⟨_, rfl, by decide +kernel, by decide +kernel⟩
  numbers := by
    intro k hk v h
    simp only [List.mem_cons, List.not_mem_nil, or_false] at hk
    rcases hk with rfl | rfl | rfl <;> cases h
  network := .inl ⟨rfl, fun h => absurd h (by decide)⟩
  others := by
    intro k v h hk
    have hm := Dict.mem_of_get? h
    simp only [sampleSta, List.mem_cons, Prod.mk.injEq, List.not_mem_nil, or_false] at hm
    rcases hm with ⟨rfl, rfl⟩ | ⟨rfl, rfl⟩ | ⟨rfl, rfl⟩ | ⟨rfl, rfl⟩ <;>
      first | exact absurd (by decide) hk | exact ⟨by decide, by decide, by decide, survivesB_sound (by decide)⟩
  encryption := by intro v h; cases h

def wholeWifi : List Wifi := [⟨"wlan0", "access_point", sampleApInterface, sampleAp⟩, ⟨"wlan1", "station", sampleStaInterface, sampleSta⟩]

theorem wholeWifi_ok : ∀ x ∈ wholeWifi, x.OK := by
  intro x hx
  simp only [wholeWifi, List.mem_cons, List.not_mem_nil, or_false] at hx
  rcases hx with rfl | rfl
  · refine ⟨sampleAp_ok, rfl, rfl, fun k v hk => ?_⟩
    have hm := List.mem_map_of_mem (f := Prod.fst) (Dict.mem_of_get? hk)
    revert hm
    exact (by decide : ∀ x ∈ sampleApInterface.map Prod.fst, x ∈ ["name", "type", "mac", "disabled", "wireless"]) k
  · refine ⟨sampleSta_ok, rfl, rfl, fun k v hk => ?_⟩
    have hm := List.mem_map_of_mem (f := Prod.fst) (Dict.mem_of_get? hk)
    revert hm
    exact (by decide : ∀ x ∈ sampleStaInterface.map Prod.fst, x ∈ ["name", "type", "mac", "disabled", "wireless"]) k

/-- all the interfaces: the wireless ones first and last -/
def wholeIfaces : List VDict := sampleApInterface :: sampleIfaces.map Iface.options ++ [sampleStaInterface]

def wholeSections : Sections where
  general := wholeGeneral
  ntp := sampleNtp
  leds := sampleLeds
  interfaces := sampleIfaces
  wifi := wholeWifi
  servers := ["10.0.0.1", "8.8.8.8"]
  search := []
  routes := sampleRoutes
  rules := sampleRules
  switches := [(sampleSwitch "switch0" sampleVlans0, "switch0", sampleVlans0), (sampleSwitch "switch1" sampleVlans1, "switch1", sampleVlans1)]
  radios := [sampleRadio1, sampleRadio2]
  vpns := [sampleUciVpn]
  peers := samplePeers

def wholeSample : VDict :=
  [("general", .dict wholeGeneral), ("ntp", .dict sampleNtp), ("led", .list (sampleLeds.map .dict)),
   ("interfaces", .list (wholeIfaces.map .dict)), ("dns_servers", .list [.str "10.0.0.1", .str "8.8.8.8"]),
   ("routes", .list (sampleRoutes.map .dict)), ("ip_rules", .list (sampleRules.map .dict)),
   ("switch", .list [.dict (sampleSwitch "switch0" sampleVlans0), .dict (sampleSwitch "switch1" sampleVlans1)]),
   ("radios", .list [.dict sampleRadio1, .dict sampleRadio2]), ("openvpn", .list [.dict sampleUciVpn]), ("wireguard_peers", .list (samplePeers.map .dict)),
   ("luci", .list [.dict [("config_name", .str "core"), ("config_value", .str "main"), ("lang", .str "auto")]]), ("empty", .list [])]

theorem wholeSample_noClash (dsa : Bool) : NoClash sampleEnv (fun _ => true) dsa wholeSample := by
  refine noClash_of ["system", "network", "wireless", "openvpn", "luci"] ?_ ?_
  · cases dsa <;> decide +kernel
  · cases dsa <;> decide +kernel

/-- no section but those of interfaces, as a check -/
def onlyBridgesB (env : Env) (config : VDict) : Bool :=
  [generalConv env, routesConv env, rulesConv env, switchConv env, peersConv].all (fun c =>
    match (c.run config []).2 with
    | .ok r => match Dict.get? r "network" with
      | some (.list l) => l.all (fun v => match v with
        | .dict b => !(Dict.get? b "type" == some (.str "bridge"))
        | _ => true)
      | _ => true
    | .error _ => true)

theorem onlyBridgesB_sound {env : Env} {config : VDict} (h : onlyBridgesB env config = true) : OnlyBridges env config := by
  intro c hc _ r l b hr hl hb
  have := List.all_eq_true.1 h c hc
  rw [hr] at this
  dsimp only at this
  rw [hl] at this
  have := List.all_eq_true.1 this _ hb
  intro e
  dsimp only at this
  rw [e] at this
  exact absurd this (by decide)

theorem wholeSample_bridges : OnlyBridges sampleEnv wholeSample := onlyBridgesB_sound (by decide +kernel)

theorem wholeSample_ok (dsa : Bool) : WholeOK sampleEnv dsa wholeSample wholeSections where
  nodup := by decide
  general := ⟨.inr rfl, ⟨fun v hv => by
    cases hv
    exact ⟨⟨_, rfl, by decide, by decide +kernel, by decide +kernel⟩, .inr ⟨"ula", rfl, by decide +kernel, by decide⟩⟩, .inr sampleGeneral_ok⟩⟩
  ntp := ⟨.inr rfl, .inr ⟨optionsB_sound (by decide +kernel), by decide, .inl rfl⟩⟩
  leds := ⟨.inr rfl, by
    intro d hd
    simp only [wholeSections, sampleLeds, List.mem_cons, List.not_mem_nil, or_false] at hd
    rcases hd with rfl | rfl
    · exact ⟨optionsB_sound (by decide +kernel), "USB1", rfl, .inl ⟨rfl, by decide +kernel⟩⟩
    · exact ⟨optionsB_sound (by decide +kernel), "WAN", rfl, .inr ⟨"wan", rfl, by decide +kernel, by decide +kernel⟩⟩⟩
  dns := ⟨⟨.inr rfl, by decide +kernel⟩, ⟨.inl ⟨rfl, rfl⟩, by simp [wholeSections]⟩⟩
  interfaces := ⟨wholeIfaces, .inr rfl, by decide +kernel, by decide +kernel⟩
  wired := ⟨sampleIfaces_ok dsa, sampleIfaces_apart dsa⟩
  wifi := wholeWifi_ok
  wifiNames := by decide +kernel
  wifiNetworks := by
    intro x hx
    simp only [wholeSections, wholeWifi, List.mem_cons, List.not_mem_nil, or_false] at hx
    rcases hx with rfl | rfl
    · exact .inr (by decide +kernel)
    · exact .inl rfl
  bridges := .inr wholeSample_bridges
  routes := ⟨.inr rfl, sampleRoutes_ok⟩
  rules := ⟨.inr rfl, sampleRules_ok⟩
  switches := ⟨.inr rfl, by decide, by
    intro x hx
    simp only [wholeSections, List.mem_cons, List.not_mem_nil, or_false] at hx
    rcases hx with rfl | rfl
    · exact sampleSwitch0_ok
    · exact sampleSwitch1_ok⟩
  radios := ⟨.inr rfl, by
    intro d hd
    simp only [wholeSections, List.mem_cons, List.not_mem_nil, or_false] at hd
    rcases hd with rfl | rfl
    · exact ⟨_, _, _, _, sampleRadio1_ok dsa⟩
    · exact ⟨_, _, _, _, sampleRadio2_ok dsa⟩⟩
  peers := ⟨.inr rfl, by
    intro d hd
    simp only [wholeSections, samplePeers, List.mem_cons, List.not_mem_nil, or_false] at hd
    rcases hd with rfl | rfl
    · exact ⟨optionsB_sound (by decide +kernel), ⟨_, rfl, by decide +kernel, by decide +kernel, by decide +kernel⟩, by decide⟩
    · exact ⟨optionsB_sound (by decide +kernel), ⟨_, rfl, by decide +kernel, by decide +kernel, by decide +kernel⟩, by decide⟩⟩
  vpns := ⟨.inr rfl, by
    intro d hd
    cases List.mem_singleton.1 hd
    exact sample_uci_vpn⟩
  noZt := rfl
  custom := by
    intro k v hv hk
    have hm := Dict.mem_of_get? hv
    simp only [wholeSample, List.mem_cons, List.not_mem_nil, or_false, Prod.mk.injEq] at hm
    rcases hm with ⟨rfl, _⟩ | ⟨rfl, _⟩ | ⟨rfl, _⟩ | ⟨rfl, _⟩ | ⟨rfl, _⟩ | ⟨rfl, _⟩ | ⟨rfl, _⟩ | ⟨rfl, _⟩ | ⟨rfl, _⟩ | ⟨rfl, _⟩ | ⟨rfl, _⟩ | ⟨rfl, rfl⟩ | ⟨rfl, rfl⟩
    case _ | _ | _ | _ | _ | _ | _ | _ | _ | _ | _ => exact absurd (by decide) hk
    · refine .inr ⟨⟨by decide +kernel, [[("config_name", .str "core"), ("config_value", .str "main"), ("lang", .str "auto")]], rfl, by decide, ?_⟩, by decide⟩
      intro i d hd
      match i with
      | 0 => cases hd; exact ⟨optionsB_sound (by decide +kernel), "core", rfl, by decide +kernel, by decide, by decide,
          .inr ⟨"main", rfl, by decide +kernel, by decide +kernel, by decide +kernel, by decide +kernel⟩⟩
    · refine .inl ?_
      intro x xs h
      cases h

/-- the class, with a schema that refuses nothing -/
def sampleClass (dsa : Bool) : Class := openwrtClass sampleEnv (fun _ => .ok ()) (fun _ => true) (fun _ => none) dsa

/-- the hypotheses of `C71_round_trip` hold of this configuration, and what comes back is valid -/
example (dsa : Bool) : ∃ st text, render (sampleClass dsa) true ⟨wholeSample, none⟩ = (st, .ok text) ∧
    ∃ out, ComesBack sampleEnv dsa wholeSample wholeSections out := by
  obtain ⟨st, text, h1, out, _, h2, _⟩ := C71_round_trip sampleEnv (fun _ => .ok ()) (fun _ => true) (fun _ => none) dsa wholeSample wholeSections
    (wholeSample_ok dsa) (wholeSample_noClash dsa) (by cases dsa <;> decide +kernel) true (.inr rfl)
  exact ⟨st, text, h1, out, h2⟩

/-- the configuration made of the rendered text -/
def reread (cls : Class) (config : VDict) : Option VDict :=
  match render cls false ⟨config, none⟩ with
  | (_, .ok t) => match parse cls t with
    | .ok st => some st.config
    | .error _ => none
  | _ => none

/-- a LED whose identifier is the name of the section with the NTP servers: the NTP settings are gone, and are options of the LED -/
theorem C71_needs_names : reread (sampleClass true) [("ntp", .dict [("enabled", .bool true)]),
      ("led", .list [.dict [("id", .str "ntp"), ("name", .str "WAN"), ("sysfs", .str "green:wan"), ("trigger", .str "none")]])] =
    some [("led", .list [.dict [("enabled", .str "1"), ("name", .str "WAN"), ("sysfs", .str "green:wan"), ("trigger", .str "none"), ("id", .str "ntp")]])] := by
  decide +kernel

/-- custom blocks in the package `network` are read as WireGuard peers -/
theorem C71_needs_custom : reread (sampleClass true) [("network", .list [.dict [("config_name", .str "custom"), ("interface", .str "x")]])] =
    some [("wireguard_peers", .list [.dict [("interface", .str "custom")]])] := by
  decide +kernel

/-- a wireless interface whose network is given, and is the bridge it is a member of: the network is gone -/
theorem C71_needs_wifiNetworks : (reread (sampleClass true) [("interfaces", .list
      [.dict [("name", .str "br-lan"), ("type", .str "bridge"), ("network", .str "lan"), ("bridge_members", .list [.str "wlan0"])],
       .dict [("name", .str "wlan0"), ("type", .str "wireless"),
        ("wireless", .dict [("mode", .str "station"), ("radio", .str "radio0"), ("network", .list [.str "lan"])])]])]).bind (fun c => Dict.get? c "interfaces") =
    some (.list [.dict [("name", .str "br-lan"), ("type", .str "bridge"), ("network", .str "lan"), ("bridge_members", .list [.str "wlan0"])],
       .dict [("name", .str "wlan0"), ("type", .str "wireless"), ("wireless", .dict [("mode", .str "station"), ("radio", .str "radio0")])]]) := by
  decide +kernel

end NJ
