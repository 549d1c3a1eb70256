import Verif.WholeWifi
import Verif.PropsBackend
import Mathlib.Data.List.Nodup

/-!
# C71: a whole configuration survives OpenWrt

A configuration with general settings, NTP, LEDs, interfaces (wireless ones among them), DNS, routes, rules, switches, radios, OpenVPN, WireGuard peers and custom packages, given to
`OpenWrt(config).render()`, makes a text from which `OpenWrt(native=text)` makes the same configuration.
-/

namespace NJ

/-- the sections of a configuration; a section that is not there is empty -/
structure Sections where
  general : VDict
  ntp : VDict
  leds : List VDict
  interfaces : List Iface
  wifi : List Wifi
  servers : List String
  search : List String
  routes : List VDict
  rules : List VDict
  switches : List SwitchData
  radios : List VDict
  vpns : List VDict
  peers : List VDict

/-- the configuration has these sections, and each of them survives on its own; there is no ZeroTier -/
structure WholeOK (env : Env) (dsa : Bool) (config : VDict) (s : Sections) : Prop where
  nodup : (Dict.keys config).Nodup
  general : DictIn config "general" s.general ∧ GeneralOK' env s.general
  ntp : DictIn config "ntp" s.ntp ∧ (s.ntp = [] ∨ NtpOK s.ntp)
  leds : ListIn config "led" s.leds ∧ ∀ d ∈ s.leds, LedOK env d
  dns : DnsOK config s.servers s.search
  /-- the interfaces, with and without a `wireless` object, in any order -/
  interfaces : ∃ all : List VDict, ListIn config "interfaces" all ∧ all.filter (fun d => !isWifi d) = s.interfaces.map Iface.options ∧
    all.filter isWifi = s.wifi.map Wifi.options
  wired : (∀ i ∈ s.interfaces, i.OK env dsa) ∧ IfacesApart dsa s.interfaces
  wifi : ∀ x ∈ s.wifi, x.OK
  wifiNames : (s.interfaces.map Iface.name ++ s.wifi.map Wifi.name).Nodup
  /-- the networks of a wireless interface are not given if it is a member of a bridge -/
  wifiNetworks : ∀ x ∈ s.wifi, Dict.get? x.wireless "network" = none ∨ ∀ i ∈ s.interfaces, x.name ∉ memberNames i.options
  bridges : s.wifi = [] ∨ OnlyBridges env config
  routes : ListIn config "routes" s.routes ∧ ∀ i d, s.routes[i]? = some d → ∃ net, RouteOK env (i + 1) d net
  rules : ListIn config "ip_rules" s.rules ∧ ∀ i d, s.rules[i]? = some d → RuleOK env (i + 1) d
  switches : ListIn config "switch" (s.switches.map Prod.fst) ∧ (s.switches.map (fun x => x.2.1)).Nodup ∧ ∀ x ∈ s.switches, SwitchOK x.1 x.2.1 x.2.2
  radios : ListIn config "radios" s.radios ∧ ∀ d ∈ s.radios, ∃ f p c w, RadioOK env dsa d f p c w
  peers : ListIn config "wireguard_peers" s.peers ∧ ∀ d ∈ s.peers, PeerOK d
  vpns : ListIn config "openvpn" s.vpns ∧ ∀ d ∈ s.vpns, UciVpnOK d
  noZt : Dict.get? config "zerotier" = none
  custom : ∀ k v, Dict.get? config k = some v → k ∉ knownKeys → CustomOK k v

/-- the names of the blocks that a converter makes in a package -/
def ownNames (c : Conv) (config : VDict) (pkg : String) : List (Option Val) :=
  if c.should config then match (c.run config []).2 with
    | .ok r => match Dict.get? r pkg with
      | some (.list l) => l.map (fun v => match v with
        | .dict b => Dict.get? b ".name"
        | _ => none)
      | _ => []
    | .error _ => []
  else []

/-- no two blocks of a package have the same name, whichever converters make them -/
def NoClash (env : Env) (sh : Val → Bool) (dsa : Bool) (config : VDict) : Prop :=
  ∀ pkg, ((openwrtConvs env sh dsa).flatMap (fun c => ownNames c config pkg)).Nodup

/-- what comes back of the configuration, section by section; sections that are empty are not there -/
structure ComesBack (env : Env) (dsa : Bool) (config : VDict) (s : Sections) (out : VDict) : Prop where
  general : ∃ g, Dict.get? out "general" = dictItem g ∧ SameItems g (generalReturned s.general)
  ntp : ∃ d, Dict.get? out "ntp" = dictItem d ∧ SameItems d s.ntp
  leds : ∃ rs : List VDict, Dict.get? out "led" = listItem (rs.map .dict) ∧ List.Forall₂ SameItems rs s.leds
  /-- the wireless interfaces come after the others -/
  interfaces : ∃ rs rs' : List VDict, Dict.get? out "interfaces" = listItem ((rs ++ rs').map .dict) ∧
    List.Forall₂ (fun r (i : Iface) => IfaceComesBack env i.name i.network i.group r i.options) rs s.interfaces ∧
    List.Forall₂ (fun r (x : Wifi) => wifiComesBack r x.options) rs' s.wifi
  servers : Dict.get? out "dns_servers" = listItem ((s.interfaces.flatMap (fun i => serversOf s.servers i.group)).map .str)
  search : Dict.get? out "dns_search" = listItem ((s.interfaces.flatMap (fun i => searchOf s.search i.group)).map .str)
  routes : ∃ rs : List VDict, Dict.get? out "routes" = listItem (rs.map .dict) ∧ List.Forall₂ SameItems rs s.routes
  rules : ∃ rs : List VDict, Dict.get? out "ip_rules" = listItem (rs.map .dict) ∧ List.Forall₂ SameItems rs s.rules
  switches : ∃ rs : List VDict, Dict.get? out "switch" = listItem (rs.map .dict) ∧ SwitchesBack 0 s.switches rs
  radios : ∃ rs : List VDict, Dict.get? out "radios" = listItem (rs.map .dict) ∧ List.Forall₂ (RadioComesBack env dsa) rs s.radios
  peers : ∃ rs : List VDict, Dict.get? out "wireguard_peers" = listItem (rs.map .dict) ∧ List.Forall₂ SameItems rs s.peers
  vpns : ∃ rs : List VDict, Dict.get? out "openvpn" = listItem (rs.map .dict) ∧ List.Forall₂ UciVpnSame rs s.vpns
  custom : ∀ k (l : List VDict), k ∉ knownKeys → l ≠ [] → Dict.get? config k = some (.list (l.map .dict)) →
    ∃ rs : List VDict, Dict.get? out k = some (.list (rs.map .dict)) ∧ List.Forall₂ SameItems rs l
  noMore : ∀ k, k ∈ ["files", "zerotier"] ∨ (k ∉ knownKeys ∧ ∀ x xs, Dict.get? config k ≠ some (.list (x :: xs))) → Dict.get? out k = none

/-! ## Forward -/

theorem ownNames_makes {conv : Conv} {config : VDict} {P : Data} (h : Makes conv config [] P) (pkg : String) :
    ownNames conv config pkg = (blocksIn P pkg).map (fun b => Dict.get? b ".name") := by
  unfold ownNames
  rcases h with ⟨h1, rfl⟩ | ⟨h1, h2⟩
  · rw [if_neg (by rw [h1]; simp)]
    rfl
  · rw [if_pos h1, h2]
    dsimp only
    rw [get?_interOf]
    unfold blocksIn
    cases Dict.get? P pkg with
    | none => rfl
    | some bs =>
      simp only [Option.map_some, Option.getD_some, List.map_map]
      rfl

/-- the blocks of the converters, package by package -/
structure Parts where
  sys : Option VDict
  glob : Option VDict
  ntp : List VDict
  leds : List VDict
  ifaces : List VDict
  routes : List VDict
  rules : List VDict
  switches : List VDict
  radios : List VDict
  wifi : List VDict
  vpns : List VDict
  peers : List VDict
  custom : Data

def Parts.early (p : Parts) : List Data :=
  [generalData p.sys p.glob, pkgData "system" p.ntp, pkgData "system" p.leds, pkgData "network" p.ifaces, pkgData "network" p.routes,
   pkgData "network" p.rules, pkgData "network" p.switches, pkgData "wireless" p.radios]

def Parts.all (p : Parts) : List Data := p.early ++ [pkgData "wireless" p.wifi, pkgData "openvpn" p.vpns, pkgData "network" p.peers, [], p.custom]

/-- the blocks of the packages -/
def Parts.blocks (p : Parts) (k : String) : List VDict :=
  if k = "system" then p.sys.toList ++ (p.ntp ++ p.leds)
  else if k = "network" then p.glob.toList ++ (p.ifaces ++ (p.routes ++ (p.rules ++ (p.switches ++ p.peers))))
  else if k = "wireless" then p.radios ++ p.wifi
  else if k = "openvpn" then p.vpns
  else blocksIn p.custom k

theorem Parts.all_nodup (p : Parts) (hL : (Dict.keys p.custom).Nodup) : ∀ P ∈ p.all, (Dict.keys P).Nodup := by
  intro P hP
  unfold Parts.all Parts.early at hP
  simp only [List.mem_append, List.mem_cons, List.not_mem_nil, or_false] at hP
  rcases hP with (rfl | rfl | rfl | rfl | rfl | rfl | rfl | rfl) | rfl | rfl | rfl | rfl | rfl
  all_goals first
    | exact pkgData_nodup _ _
    | exact generalData_nodup _ _
    | exact hL
    | simp [Dict.keys]

theorem Parts.blocks_eq (p : Parts) (hL : ∀ k ∈ Dict.keys p.custom, k ∉ ["system", "network", "wireless", "openvpn"]) (k : String) :
    allIn [] p.all k = p.blocks k := by
  have hc : ∀ k, k ∈ ["system", "network", "wireless", "openvpn"] → blocksIn p.custom k = [] := by
    intro k hk
    unfold blocksIn
    rw [(Dict.get?_eq_none_iff _ _).2 (fun h => hL k h hk)]
    rfl
  have hnil : ∀ k, blocksIn ([] : Data) k = [] := fun _ => rfl
  unfold allIn Parts.all Parts.early Parts.blocks
  simp only [List.cons_append, List.nil_append, List.flatMap_cons, List.flatMap_nil, blocksIn_pkgData, blocksIn_generalData, hnil]
  by_cases k1 : k = "system"
  · subst k1; simp [hc]
  · by_cases k2 : k = "network"
    · subst k2; simp [hc]
    · by_cases k3 : k = "wireless"
      · subst k3; simp [hc]
      · by_cases k4 : k = "openvpn"
        · subst k4; simp [hc]
        · simp [k1, k2, k3, k4]

theorem names_nodup {l : List VDict} (h : ∀ b ∈ l, Named b) (hn : (l.map (fun b => Dict.get? b ".name")).Nodup) : (l.map nameKey).Nodup := by
  have e : l.map nameKey = (l.map (fun b => Dict.get? b ".name")).map (fun o => LKey.val (o.getD .none)) := by
    rw [List.map_map]; rfl
  rw [e]
  refine List.Nodup.map_on ?_ hn
  intro x hx y hy he
  obtain ⟨b, hb, rfl⟩ := List.mem_map.1 hx
  obtain ⟨c, hc, rfl⟩ := List.mem_map.1 hy
  obtain ⟨s, hs⟩ := h b hb
  obtain ⟨t, ht⟩ := h c hc
  rw [hs, ht] at he ⊢
  injection he with he
  exact congrArg some he

/-- the conversion to UCI, when the parts are known -/
theorem whole_forward {env : Env} {sh : Val → Bool} {dsa : Bool} {config : VDict} (cls : Class) (p : Parts) {wifi0 : List VDict}
    (hwifi : Makes (wirelessConv env dsa) config (interOf (p.early.foldl joinData [])) (pkgData "wireless" p.wifi))
    (hwifi0 : Makes (wirelessConv env dsa) config [] (pkgData "wireless" wifi0))
    (hwn : wifi0.map (fun b => Dict.get? b ".name") = p.wifi.map (fun b => Dict.get? b ".name"))
    (hv : ∀ inter, Makes (uciVpnConv env) config inter (pkgData "openvpn" p.vpns)) (hz : Dict.get? config "zerotier" = none)
    (h1 : ∀ inter, Makes (generalConv env) config inter (generalData p.sys p.glob))
    (h2 : ∀ inter, Makes ntpConv config inter (pkgData "system" p.ntp))
    (h3 : ∀ inter, Makes (ledConv env) config inter (pkgData "system" p.leds))
    (h4 : ∀ inter, Makes (ifacesConv sh env dsa) config inter (pkgData "network" p.ifaces))
    (h5 : ∀ inter, Makes (routesConv env) config inter (pkgData "network" p.routes))
    (h6 : ∀ inter, Makes (rulesConv env) config inter (pkgData "network" p.rules))
    (h7 : ∀ inter, Makes (switchConv env) config inter (pkgData "network" p.switches))
    (h8 : ∀ inter, Makes (radiosConv env dsa) config inter (pkgData "wireless" p.radios))
    (h9 : ∀ inter, Makes peersConv config inter (pkgData "network" p.peers))
    (h10 : ∀ inter, (defaultConv env knownKeys).run config inter = ((defaultLoop env knownKeys config).1, .ok (interOf p.custom)))
    (hLn : (Dict.keys p.custom).Nodup) (hLk : ∀ k ∈ Dict.keys p.custom, k ∉ ["system", "network", "wireless", "openvpn"])
    (hnamed : ∀ k, ∀ b ∈ p.blocks k, Named b) (hclash : NoClash env sh dsa config) :
    convLoop cls (openwrtConvs env sh dsa) config [] = (⟨(defaultLoop env knownKeys config).1, some (interOf (p.all.foldl joinData []))⟩, .ok ()) ∧
      ∀ k, ((p.blocks k).map (fun b => Dict.get? b ".name")).Nodup := by
  have hzt : ∀ inter, Makes (ztConv env) config inter [] := fun inter => .inl ⟨by
    show Dict.has config "zerotier" = false
    simp [Dict.has, hz], rfl⟩
  have hf : Forward (openwrtConvs env sh dsa) config [] p.all (defaultLoop env knownKeys config).1 := by
    unfold openwrtConvs Parts.all Parts.early
    simp only [List.cons_append, List.nil_append]
    refine .of_makes (h1 _) (generalData_nodup _ _) ?_
    refine .of_makes (h2 _) (pkgData_nodup _ _) ?_
    refine .of_makes (h3 _) (pkgData_nodup _ _) ?_
    refine .of_makes (h4 _) (pkgData_nodup _ _) ?_
    refine .of_makes (h5 _) (pkgData_nodup _ _) ?_
    refine .of_makes (h6 _) (pkgData_nodup _ _) ?_
    refine .of_makes (h7 _) (pkgData_nodup _ _) ?_
    refine .of_makes (h8 _) (pkgData_nodup _ _) ?_
    refine .of_makes hwifi (pkgData_nodup _ _) ?_
    refine .of_makes (hv _) (pkgData_nodup _ _) ?_
    refine .of_makes (h9 _) (pkgData_nodup _ _) ?_
    refine .of_makes (hzt _) (by simp [Dict.keys]) ?_
    exact .run rfl (h10 _) hLn .nil
  have hown : ∀ k, (openwrtConvs env sh dsa).flatMap (fun c => ownNames c config k) = (p.blocks k).map (fun b => Dict.get? b ".name") := by
    intro k
    have hd : ownNames (defaultConv env knownKeys) config k = (blocksIn p.custom k).map (fun b => Dict.get? b ".name") := by
      unfold ownNames
      rw [if_pos (show (defaultConv env knownKeys).should config = true from rfl), h10]
      dsimp only
      rw [get?_interOf]
      unfold blocksIn
      cases Dict.get? p.custom k with
      | none => rfl
      | some bs =>
        simp only [Option.map_some, Option.getD_some, List.map_map]
        rfl
    have hwl : (blocksIn (pkgData "wireless" wifi0) k).map (fun b => Dict.get? b ".name") =
        (blocksIn (pkgData "wireless" p.wifi) k).map (fun b => Dict.get? b ".name") := by
      rw [blocksIn_pkgData, blocksIn_pkgData]
      split
      · exact hwn
      · rfl
    rw [← p.blocks_eq hLk]
    unfold openwrtConvs allIn Parts.all Parts.early
    simp only [List.flatMap_cons, List.flatMap_nil, List.cons_append, List.nil_append]
    rw [ownNames_makes (h1 []), ownNames_makes (h2 []), ownNames_makes (h3 []), ownNames_makes (h4 []), ownNames_makes (h5 []), ownNames_makes (h6 []),
      ownNames_makes (h7 []), ownNames_makes (h8 []), ownNames_makes hwifi0, ownNames_makes (hv []), ownNames_makes (h9 []), ownNames_makes (hzt []), hd, hwl]
    simp only [List.map_append]
    rfl
  have := forward_loop cls hf (fun k b hb => hnamed k b (by rw [← p.blocks_eq hLk]; exact hb)) (fun k => by
    rw [p.blocks_eq hLk]
    refine names_nodup (hnamed k) ?_
    rw [← hown]
    exact hclash k)
  exact ⟨this, fun k => by rw [← hown]; exact hclash k⟩

end NJ
