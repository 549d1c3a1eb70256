import Verif.Whole

/-!
# C71, the way back: the converters take their blocks one after the other
-/

namespace NJ

/-- a converter whose sections are not there yet -/
theorem step_new (cls : Class) {b : BConv} {bs : List BConv} {copy c : VDict} {pkg : String} {mine others : List VDict} {out : VDict} {M : Data}
    (hT : Takes b copy pkg mine others out) (hM : blocksIn M pkg = mine ++ others) (hn : (Dict.keys out).Nodup)
    (h : ∀ k, Dict.get? out k ≠ none → Dict.get? c k = none) :
    ∃ c' M', Taken M pkg others M' ∧ bconvLoop cls copy (b :: bs) c (interOf M) = bconvLoop cls copy bs c' (interOf M') ∧
      ∀ k, Dict.get? c' k = (Dict.get? out k).or (Dict.get? c k) := by
  obtain ⟨c', e1, e2⟩ := merge_new cls.sh cls.ids c out hn h
  obtain ⟨M', m1, m2⟩ := take_step cls (bs := bs) hT hM e1
  exact ⟨c', M', m1, m2, e2⟩

theorem or_if {k key : String} {a b : Option Val} : (if k = key then a else none).or b = if k = key then a.or b else b := by
  split <;> rfl

/-- a converter of one list section -/
theorem step_sec (cls : Class) {b : BConv} {bs : List BConv} {copy c : VDict} {pkg : String} {mine others rs : List VDict} {key : String} {M : Data}
    (hT : Takes b copy pkg mine others (secData key rs)) (hM : blocksIn M pkg = mine ++ others) (h : Dict.get? c key = none) :
    ∃ c' M', Taken M pkg others M' ∧ bconvLoop cls copy (b :: bs) c (interOf M) = bconvLoop cls copy bs c' (interOf M') ∧
      ∀ k, Dict.get? c' k = if k = key then listItem (rs.map .dict) else Dict.get? c k := by
  obtain ⟨c', M', m1, m2, m3⟩ := step_new cls (bs := bs) (c := c) hT hM (secData_nodup _ _) (by
    intro k hk
    rw [get?_secData] at hk
    by_cases e : k = key
    · rw [e]; exact h
    · rw [if_neg e] at hk; exact absurd rfl hk)
  refine ⟨c', M', m1, m2, fun k => ?_⟩
  rw [m3, get?_secData, or_if]
  by_cases e : k = key
  · rw [if_pos e, if_pos e, e, h, Option.or_none]
  · rw [if_neg e, if_neg e]

/-- a converter of one dictionary section -/
theorem step_dict (cls : Class) {b : BConv} {bs : List BConv} {copy c : VDict} {pkg : String} {mine others : List VDict} {d : VDict} {key : String}
    {M : Data} (hT : Takes b copy pkg mine others (dictData key d)) (hM : blocksIn M pkg = mine ++ others) (h : Dict.get? c key = none) :
    ∃ c' M', Taken M pkg others M' ∧ bconvLoop cls copy (b :: bs) c (interOf M) = bconvLoop cls copy bs c' (interOf M') ∧
      ∀ k, Dict.get? c' k = if k = key then dictItem d else Dict.get? c k := by
  obtain ⟨c', M', m1, m2, m3⟩ := step_new cls (bs := bs) (c := c) hT hM (dictData_nodup _ _) (by
    intro k hk
    rw [get?_dictData] at hk
    by_cases e : k = key
    · rw [e]; exact h
    · rw [if_neg e] at hk; exact absurd rfl hk)
  refine ⟨c', M', m1, m2, fun k => ?_⟩
  rw [m3, get?_dictData, or_if]
  by_cases e : k = key
  · rw [if_pos e, if_pos e, e, h, Option.or_none]
  · rw [if_neg e, if_neg e]

/-- a converter that finds nothing of its own -/
theorem step_none (cls : Class) {b : BConv} {bs : List BConv} {copy c : VDict} {pkg : String} {others : List VDict} {M : Data}
    (hT : Takes b copy pkg [] others []) (hM : blocksIn M pkg = others) :
    ∃ M', Taken M pkg others M' ∧ bconvLoop cls copy (b :: bs) c (interOf M) = bconvLoop cls copy bs c (interOf M') :=
  take_step cls hT hM (mergeConfig_nil _ _ _)

/-- the converter of interfaces, which may have settings for a section that is there already -/
theorem step_ifaces (cls : Class) {b : BConv} {bs : List BConv} {copy c : VDict} {pkg : String} {mine others : List VDict} {out g1 g2 : VDict} {key : String}
    {M : Data} (hT : Takes b copy pkg mine others out) (hM : blocksIn M pkg = mine ++ others) (hn : (Dict.keys out).Nodup) (hn2 : (Dict.keys g2).Nodup)
    (h1 : Dict.get? c key = dictItem g1) (h2 : Dict.get? out key = dictItem g2) (hg : ∀ k, Dict.get? g2 k ≠ none → Dict.get? g1 k = none)
    (h : ∀ k, k ≠ key → Dict.get? out k ≠ none → Dict.get? c k = none) :
    ∃ c' M' g, Taken M pkg others M' ∧ bconvLoop cls copy (b :: bs) c (interOf M) = bconvLoop cls copy bs c' (interOf M') ∧
      (∀ k, k ≠ key → Dict.get? c' k = (Dict.get? out k).or (Dict.get? c k)) ∧
      Dict.get? c' key = dictItem g ∧ ∀ k, Dict.get? g k = (Dict.get? g2 k).or (Dict.get? g1 k) := by
  by_cases e1 : g1 = []
  · subst e1
    obtain ⟨c', M', m1, m2, m3⟩ := step_new cls (bs := bs) (c := c) hT hM hn (by
      intro k hk
      by_cases e : k = key
      · rw [e, h1]; rfl
      · exact h k e hk)
    refine ⟨c', M', g2, m1, m2, fun k _ => m3 k, ?_, fun k => ?_⟩
    · rw [m3, h1, h2]
      show (dictItem g2).or none = _
      rw [Option.or_none]
    · show _ = (Dict.get? g2 k).or none
      rw [Option.or_none]
  · by_cases e2 : g2 = []
    · subst e2
      have hnone : Dict.get? out key = none := h2
      obtain ⟨c', M', m1, m2, m3⟩ := step_new cls (bs := bs) (c := c) hT hM hn (by
        intro k hk
        by_cases e : k = key
        · rw [e] at hk; exact absurd hnone hk
        · exact h k e hk)
      refine ⟨c', M', g1, m1, m2, fun k _ => m3 k, ?_, fun k => rfl⟩
      rw [m3, h1, hnone]; rfl
    · have i1 : dictItem g1 = some (.dict g1) := if_neg e1
      have i2 : dictItem g2 = some (.dict g2) := if_neg e2
      rw [i1] at h1
      rw [i2] at h2
      obtain ⟨c', g, x1, x2, x3, x4⟩ := merge_both cls.sh cls.ids c out g1 g2 key hn hn2 h1 h2 hg h
      obtain ⟨M', m1, m2⟩ := take_step cls (bs := bs) hT hM x1
      refine ⟨c', M', g, m1, m2, x2, ?_, x4⟩
      rw [x3]
      have : g ≠ [] := by
        rintro rfl
        cases hg1 : g1 with
        | nil => exact e1 hg1
        | cons p r =>
          obtain ⟨a, v⟩ := p
          have := x4 a
          rw [hg1, Dict.get?_cons, if_pos rfl] at this
          cases hh : Dict.get? g2 a with
          | none => rw [hh] at this; cases this
          | some _ => rw [hh] at this; cases this
      exact (if_neg this).symm

theorem takes_nothing {pkg : String} {types : Option (List String)} {bloop : Nat → VDict → VDict → Except PyErr VDict} (copy : VDict) :
    Takes (bwdSimple pkg types bloop) copy pkg [] [] [] := takes_simple copy (by simp) (by simp) rfl

/-- what the parts are worth on the way back -/
structure PartsBack (env : Env) (dsa : Bool) (config : VDict) (p : Parts) (g1 g2 ntp : VDict) (leds routes rules switches radios vpns peers : List VDict)
    (ifOut : VDict) : Prop where
  sys : ∀ copy others, (∀ b ∈ others, skipBlock (some ["system"]) b = true) →
    Takes (generalBConv env) copy "system" (p.sys.toList.map (blockRead env.reprC)) others (dictData "general" g1)
  ntp : ∀ copy others, (∀ b ∈ others, skipBlock (some ["timeserver"]) b = true) →
    Takes ntpBConv copy "system" (p.ntp.map (blockRead env.reprC)) others (dictData "ntp" ntp)
  leds : ∀ copy others, (∀ b ∈ others, skipBlock (some ["led"]) b = true) →
    Takes (ledBConv env) copy "system" (p.leds.map (blockRead env.reprC)) others (secData "led" leds)
  ifaces : ∀ copy others, (∀ b ∈ others, skipBlock ifaceTypes b = true) →
    Takes (ifacesBConv env dsa) copy "network" (p.glob.toList.map (blockRead env.reprC) ++ p.ifaces.map (blockRead env.reprC)) others ifOut
  routes : ∀ copy others, (∀ b ∈ others, skipBlock (some ["route", "route6"]) b = true) →
    Takes (routesBConv env) copy "network" (p.routes.map (blockRead env.reprC)) others (secData "routes" routes)
  rules : ∀ copy others, (∀ b ∈ others, skipBlock (some ["rule", "rule6"]) b = true) →
    Takes rulesBConv copy "network" (p.rules.map (blockRead env.reprC)) others (secData "ip_rules" rules)
  switches : ∀ copy others, (∀ b ∈ others, skipBlock (some ["switch", "switch_vlan"]) b = true) →
    Takes (switchBConv env) copy "network" (p.switches.map (blockRead env.reprC)) others (secData "switch" switches)
  radios : ∀ copy others, (∀ b ∈ others, skipBlock (some ["wifi-device"]) b = true) →
    Takes (radiosBConv env dsa) copy "wireless" (p.radios.map (blockRead env.reprC)) others (secData "radios" radios)
  vpns : ∀ copy, Takes uciVpnBConv copy "openvpn" (p.vpns.map (blockRead env.reprC)) [] (secData "openvpn" vpns)
  peers : ∀ copy, Takes peersBConv copy "network" (p.peers.map (blockRead env.reprC)) [] (secData "wireguard_peers" peers)
  tNtp : ∀ b ∈ p.ntp, skipBlock (some ["timeserver"]) (blockRead env.reprC b) = false
  tLeds : ∀ b ∈ p.leds, skipBlock (some ["led"]) (blockRead env.reprC b) = false
  tRoutes : ∀ b ∈ p.routes, skipBlock (some ["route", "route6"]) (blockRead env.reprC b) = false
  tRules : ∀ b ∈ p.rules, skipBlock (some ["rule", "rule6"]) (blockRead env.reprC b) = false
  tSwitches : ∀ b ∈ p.switches, skipBlock (some ["switch", "switch_vlan"]) (blockRead env.reprC b) = false
  tWifi : ∀ b ∈ p.wifi, skipBlock (some ["wifi-iface"]) (blockRead env.reprC b) = false
  tPeers : ∀ b ∈ p.peers, isPeerBlock (blockRead env.reprC b)
  ifNodup : (Dict.keys ifOut).Nodup
  ifKeys : ∀ k, Dict.get? ifOut k ≠ none → k ∈ ["general", "interfaces", "dns_servers", "dns_search"]
  ifGeneral : Dict.get? ifOut "general" = dictItem g2
  g2Nodup : (Dict.keys g2).Nodup
  apart : ∀ k, Dict.get? g2 k ≠ none → Dict.get? g1 k = none
  custom : ∀ q ∈ p.custom, PackageBack env config knownKeys q.1 q.2 ∧ q.1 ∉ ["system", "network", "wireless", "openvpn"]
  customNodup : (Dict.keys p.custom).Nodup

theorem foreign_map {ts us : List String} {reprC : Val → String} {l : List VDict} (h : ∀ b ∈ l, skipBlock (some ts) (blockRead reprC b) = false)
    (hd : ∀ t ∈ ts, t ∉ us) : ∀ b ∈ l.map (blockRead reprC), skipBlock (some us) b = true := by
  intro b hb
  obtain ⟨x, hx, rfl⟩ := List.mem_map.1 hb
  exact skip_disjoint (h x hx) hd

theorem foreign_peers {us : List String} {reprC : Val → String} {l : List VDict} (h : ∀ b ∈ l, isPeerBlock (blockRead reprC b))
    (hd : ∀ t ∈ us, ¬ "wireguard_".toList <+: t.toList) : ∀ b ∈ l.map (blockRead reprC), skipBlock (some us) b = true := by
  intro b hb
  obtain ⟨x, hx, rfl⟩ := List.mem_map.1 hb
  exact peer_foreign (h x hx) hd

theorem forall_append {α : Type} {P : α → Prop} {a b : List α} (ha : ∀ x ∈ a, P x) (hb : ∀ x ∈ b, P x) : ∀ x ∈ a ++ b, P x := by
  intro x hx
  rcases List.mem_append.1 hx with h | h
  · exact ha x h
  · exact hb x h

/-- the configuration read back, section by section -/
def returned (g ntp : VDict) (leds routes rules switches radios vpns peers : List VDict) (ifs : Option Val) (ifOut : VDict) (k : String) : Option Val :=
  if k = "general" then dictItem g
  else if k = "interfaces" then ifs
  else if k = "ntp" then dictItem ntp
  else if k = "led" then listItem (leds.map .dict)
  else if k = "routes" then listItem (routes.map .dict)
  else if k = "ip_rules" then listItem (rules.map .dict)
  else if k = "switch" then listItem (switches.map .dict)
  else if k = "radios" then listItem (radios.map .dict)
  else if k = "wireguard_peers" then listItem (peers.map .dict)
  else if k = "openvpn" then listItem (vpns.map .dict)
  else Dict.get? ifOut k

theorem whole_back {env : Env} {dsa : Bool} {config : VDict} (cls : Class) {p : Parts} {g1 g2 ntp : VDict}
    {leds routes rules switches radios vpns peers : List VDict} {ifOut : VDict} (hp : PartsBack env dsa config p g1 g2 ntp leds routes rules switches radios vpns peers ifOut)
    (M : Data) (hMn : (Dict.keys M).Nodup) (hM : ∀ k, blocksIn M k = (p.blocks k).map (blockRead env.reprC))
    (wifis : List VDict) (ifs : Option Val) (hwe : p.wifi = [] → wifis = [])
    (hwr : ∀ c inter, Dict.get? c "interfaces" = Dict.get? ifOut "interfaces" →
      Dict.get? inter "wireless" = some (.list ((p.wifi.map (blockRead env.reprC)).map .dict)) →
      (wirelessBConv env dsa).run c (interOf M) inter = ((c, Dict.set inter "wireless" (.list [])), .ok (secData "interfaces" wifis)))
    (hwm : ∀ c, Dict.get? c "interfaces" = Dict.get? ifOut "interfaces" → ∃ c', mergeConfig cls.sh cls.ids c (secData "interfaces" wifis) = .ok c' ∧
      ∀ k, Dict.get? c' k = if k = "interfaces" then ifs else Dict.get? c k) :
    ∃ c g inter, bconvLoop cls (interOf M) (openwrtBConvs env dsa) [] (interOf M) = ((c, inter), .ok ()) ∧
      (∀ k, Dict.get? g k = (Dict.get? g2 k).or (Dict.get? g1 k)) ∧
      (∀ k, k ∈ knownKeys → Dict.get? c k = returned g ntp leds routes rules switches radios vpns peers ifs ifOut k) ∧
      (∀ k, k ∉ knownKeys → k ∉ Dict.keys p.custom → Dict.get? c k = none) ∧
      ∀ k ∈ Dict.keys p.custom, ∃ rs l : List VDict, Dict.get? c k = some (.list (rs.map .dict)) ∧ Dict.get? config k = some (.list (l.map .dict)) ∧
        List.Forall₂ SameItems rs l := by
  have hsys := hM "system"
  have hnet := hM "network"
  have hwl := hM "wireless"
  have hov := hM "openvpn"
  simp only [Parts.blocks, if_true, List.map_append] at hsys
  simp only [Parts.blocks, String.reduceEq, if_false, if_true, List.map_append] at hnet hwl hov
  have ho : blocksIn M "zerotier" = [] := by
    have : ∀ k, k ∈ knownKeys → k ∉ ["system", "network", "wireless", "openvpn"] → blocksIn M k = [] := by
      intro k hk hk'
      simp only [List.mem_cons, List.not_mem_nil, or_false, not_or] at hk'
      rw [hM, Parts.blocks, if_neg hk'.1, if_neg hk'.2.1, if_neg hk'.2.2.1, if_neg hk'.2.2.2]
      have : blocksIn p.custom k = [] := by
        unfold blocksIn
        cases hg : Dict.get? p.custom k with
        | none => rfl
        | some v => exact absurd hk (hp.custom (k, v) (Dict.mem_of_get? hg)).1.unknown
      rw [this]; rfl
    exact this _ (by decide) (by decide)
  unfold openwrtBConvs
  -- general
  obtain ⟨c1, M1, t1, r1, e1⟩ := step_dict cls (bs := _) (c := []) (M := M) (hp.sys (interOf M) _ (forall_append
    (foreign_map hp.tNtp (by decide)) (foreign_map hp.tLeds (by decide)))) hsys rfl
  rw [r1]
  -- ntp
  obtain ⟨c2, M2, t2, r2, e2⟩ := step_dict cls (bs := _) (c := c1) (M := M1) (hp.ntp (interOf M) _ (foreign_map hp.tLeds (by decide)))
    (by rw [t1.blocks, if_pos rfl]) (by rw [e1]; rfl)
  rw [r2]
  -- LEDs
  obtain ⟨c3, M3, t3, r3, e3⟩ := step_sec cls (bs := _) (c := c2) (M := M2) (hp.leds (interOf M) [] (by simp))
    (by rw [t2.blocks, if_pos rfl, List.append_nil]) (by rw [e2, e1]; rfl)
  rw [r3]
  -- interfaces
  obtain ⟨c4, M4, g, t4, r4, e4, e4', hg⟩ := step_ifaces cls (bs := _) (c := c3) (M := M3) (key := "general") (g1 := g1) (g2 := g2)
    (hp.ifaces (interOf M) _ (forall_append (foreign_map hp.tRoutes (by decide)) (forall_append (foreign_map hp.tRules (by decide))
      (forall_append (foreign_map hp.tSwitches (by decide)) (foreign_peers hp.tPeers (by decide +kernel))))))
    (by rw [t3.blocks, if_neg (by decide), t2.blocks, if_neg (by decide), t1.blocks, if_neg (by decide), hnet, List.append_assoc]) hp.ifNodup hp.g2Nodup
    (by rw [e3, e2, e1]; rfl) hp.ifGeneral hp.apart (by
      intro k hk ho
      have := hp.ifKeys k ho
      simp only [List.mem_cons, List.not_mem_nil, or_false] at this
      rcases this with rfl | rfl | rfl | rfl
      · exact absurd rfl hk
      all_goals (rw [e3, e2, e1]; rfl))
  rw [r4]
  have hif : ∀ k, k ∉ ["general", "interfaces", "dns_servers", "dns_search"] → Dict.get? ifOut k = none := by
    intro k hk
    by_contra hc
    exact hk (hp.ifKeys k hc)
  -- routes
  obtain ⟨c5, M5, t5, r5, e5⟩ := step_sec cls (bs := _) (c := c4) (M := M4) (hp.routes (interOf M) _ (forall_append (foreign_map hp.tRules (by decide))
      (forall_append (foreign_map hp.tSwitches (by decide)) (foreign_peers hp.tPeers (by decide +kernel)))))
    (by rw [t4.blocks, if_pos rfl]) (by rw [e4 _ (by decide), hif _ (by decide), e3, e2, e1]; rfl)
  rw [r5]
  -- rules
  obtain ⟨c6, M6, t6, r6, e6⟩ := step_sec cls (bs := _) (c := c5) (M := M5) (hp.rules (interOf M) _
      (forall_append (foreign_map hp.tSwitches (by decide)) (foreign_peers hp.tPeers (by decide +kernel))))
    (by rw [t5.blocks, if_pos rfl]) (by rw [e5, if_neg (by decide), e4 _ (by decide), hif _ (by decide), e3, e2, e1]; rfl)
  rw [r6]
  -- switches
  obtain ⟨c7, M7, t7, r7, e7⟩ := step_sec cls (bs := _) (c := c6) (M := M6) (hp.switches (interOf M) _ (foreign_peers hp.tPeers (by decide +kernel)))
    (by rw [t6.blocks, if_pos rfl]) (by rw [e6, if_neg (by decide), e5, if_neg (by decide), e4 _ (by decide), hif _ (by decide), e3, e2, e1]; rfl)
  rw [r7]
  -- radios
  obtain ⟨c8, M8, t8, r8, e8⟩ := step_sec cls (bs := _) (c := c7) (M := M7) (hp.radios (interOf M) _ (foreign_map hp.tWifi (by decide)))
    (by
      rw [t7.blocks, if_neg (by decide), t6.blocks, if_neg (by decide), t5.blocks, if_neg (by decide), t4.blocks, if_neg (by decide), t3.blocks,
        if_neg (by decide), t2.blocks, if_neg (by decide), t1.blocks, if_neg (by decide), hwl])
    (by rw [e7, if_neg (by decide), e6, if_neg (by decide), e5, if_neg (by decide), e4 _ (by decide), hif _ (by decide), e3, e2, e1]; rfl)
  rw [r8]
  -- wireless interfaces
  have hc8 : Dict.get? c8 "interfaces" = Dict.get? ifOut "interfaces" := by
    rw [e8, if_neg (by decide), e7, if_neg (by decide), e6, if_neg (by decide), e5, if_neg (by decide), e4 _ (by decide), e3, e2, e1]
    show (Dict.get? ifOut _).or none = _
    rw [Option.or_none]
  obtain ⟨c9, m9, e9⟩ := hwm c8 hc8
  obtain ⟨M9, t9, r9⟩ := take_step_at cls (bs := _) (c := c8) (M := M8) (b := wirelessBConv env dsa) (pkg := "wireless") (mine := p.wifi.map (blockRead env.reprC))
    (others := []) (copy := interOf M) (out := secData "interfaces" wifis) (fun _ => rfl) (fun inter hi => by
      rw [List.append_nil] at hi
      exact hwr c8 inter hc8 hi) (by
      intro e
      rw [hwe (List.map_eq_nil_iff.1 e)]; rfl) (by rw [t8.blocks, if_pos rfl, List.append_nil]) m9
  rw [r9]
  have hearly : ∀ k, k ∉ ["system", "network", "wireless", "openvpn"] → blocksIn M9 k = blocksIn M k := by
    intro k hk
    simp only [List.mem_cons, List.not_mem_nil, or_false, not_or] at hk
    rw [t9.blocks, if_neg hk.2.2.1, t8.blocks, if_neg hk.2.2.1, t7.blocks, if_neg hk.2.1, t6.blocks, if_neg hk.2.1, t5.blocks, if_neg hk.2.1, t4.blocks,
      if_neg hk.2.1, t3.blocks, if_neg hk.1, t2.blocks, if_neg hk.1, t1.blocks, if_neg hk.1]
  -- OpenVPN
  obtain ⟨c10, M10, t10, r10, e10⟩ := step_sec cls (bs := _) (c := c9) (M := M9) (hp.vpns (interOf M))
    (by
      rw [t9.blocks, if_neg (by decide), t8.blocks, if_neg (by decide), t7.blocks, if_neg (by decide), t6.blocks, if_neg (by decide), t5.blocks, if_neg (by decide),
        t4.blocks, if_neg (by decide), t3.blocks, if_neg (by decide), t2.blocks, if_neg (by decide), t1.blocks, if_neg (by decide), hov, List.append_nil])
    (by rw [e9, if_neg (by decide), e8, if_neg (by decide), e7, if_neg (by decide), e6, if_neg (by decide), e5, if_neg (by decide), e4 _ (by decide), hif _ (by decide), e3, e2, e1]; rfl)
  rw [r10]
  -- peers
  obtain ⟨c11, M11, t11, r11, e11⟩ := step_sec cls (bs := _) (c := c10) (M := M10) (hp.peers (interOf M))
    (by
      rw [t10.blocks, if_neg (by decide), t9.blocks, if_neg (by decide), t8.blocks, if_neg (by decide), t7.blocks, if_pos rfl, List.append_nil])
    (by rw [e10, if_neg (by decide), e9, if_neg (by decide), e8, if_neg (by decide), e7, if_neg (by decide), e6, if_neg (by decide), e5, if_neg (by decide), e4 _ (by decide), hif _ (by decide), e3, e2, e1]; rfl)
  rw [r11]
  -- ZeroTier
  obtain ⟨M12, t12, r12⟩ := step_none cls (bs := [defaultBConv env]) (c := c11) (M := M11) (takes_nothing (pkg := "zerotier") (interOf M))
    (by rw [t11.blocks, if_neg (by decide), t10.blocks, if_neg (by decide), hearly _ (by decide), ho])
  unfold ztBConv
  rw [r12]
  have hlate : ∀ k, blocksIn M12 k = if k ∈ ["system", "network", "wireless", "openvpn"] then [] else blocksIn M k := by
    intro k
    have h0 : blocksIn M12 k = if k = "zerotier" then [] else if k = "network" then [] else if k = "openvpn" then [] else blocksIn M9 k := by
      rw [t12.blocks, t11.blocks, t10.blocks]
    by_cases hk : k ∈ ["system", "network", "wireless", "openvpn"]
    · rw [if_pos hk, h0]
      simp only [List.mem_cons, List.not_mem_nil, or_false] at hk
      rcases hk with rfl | rfl | rfl | rfl
      · simp only [String.reduceEq, if_false]
        rw [t9.blocks, if_neg (by decide), t8.blocks, if_neg (by decide), t7.blocks, if_neg (by decide), t6.blocks, if_neg (by decide), t5.blocks,
          if_neg (by decide), t4.blocks, if_neg (by decide), t3.blocks, if_pos rfl]
      · rfl
      · simp only [String.reduceEq, if_false]
        rw [t9.blocks, if_pos rfl]
      · simp only [String.reduceEq, if_false, if_true]
    · rw [if_neg hk, h0, hearly k hk]
      split
      · next e => rw [e, ho]
      · split
        · next e => exact absurd (by rw [e]; decide) hk
        · split
          · next e => exact absurd (by rw [e]; decide) hk
          · rfl
  have hkeys : Dict.keys M12 = Dict.keys M := by
    rw [t12.keys, t11.keys, t10.keys, t9.keys, t8.keys, t7.keys, t6.keys, t5.keys, t4.keys, t3.keys, t2.keys, t1.keys]
  have hM12n : (Dict.keys M12).Nodup := by rw [hkeys]; exact hMn
  obtain ⟨out, o1, o2, o3, o4⟩ := defaultBack_sparse env knownKeys config M12 hM12n (by
    rintro ⟨k, bs⟩ hq
    have hb : blocksIn M12 k = bs := by
      unfold blocksIn
      rw [Dict.get?_of_mem hM12n hq]; rfl
    rw [hlate] at hb
    by_cases hk : k ∈ ["system", "network", "wireless", "openvpn"]
    · rw [if_pos hk] at hb
      exact .inl hb.symm
    · rw [if_neg hk, hM] at hb
      simp only [List.mem_cons, List.not_mem_nil, or_false, not_or] at hk
      rw [Parts.blocks, if_neg hk.1, if_neg hk.2.1, if_neg hk.2.2.1, if_neg hk.2.2.2] at hb
      cases hg : Dict.get? p.custom k with
      | none =>
        left
        rw [blocksIn, hg] at hb
        exact hb.symm
      | some v =>
        right
        rw [blocksIn, hg] at hb
        exact ⟨v, hb.symm, (hp.custom (k, v) (Dict.mem_of_get? hg)).1⟩)
  have hcust : ∀ k, k ∈ Dict.keys out ↔ k ∈ Dict.keys p.custom := by
    intro k
    rw [o3, hlate]
    by_cases hk : k ∈ ["system", "network", "wireless", "openvpn"]
    · rw [if_pos hk]
      refine ⟨fun h => absurd rfl h, fun h => ?_⟩
      obtain ⟨q, hq, rfl⟩ := List.mem_map.1 h
      exact absurd hk (hp.custom q hq).2
    · rw [if_neg hk, hM]
      simp only [List.mem_cons, List.not_mem_nil, or_false, not_or] at hk
      rw [Parts.blocks, if_neg hk.1, if_neg hk.2.1, if_neg hk.2.2.1, if_neg hk.2.2.2, blocksIn]
      cases hg : Dict.get? p.custom k with
      | none =>
        refine ⟨fun h => absurd rfl h, fun h => absurd h ((Dict.get?_eq_none_iff _ _).1 hg)⟩
      | some v =>
        refine ⟨fun _ => List.mem_map_of_mem (f := Prod.fst) (Dict.mem_of_get? hg), fun _ => ?_⟩
        have := (hp.custom (k, v) (Dict.mem_of_get? hg)).1.ne
        simpa using this
  have hval : ∀ k, Dict.get? c11 k = returned g ntp leds routes rules switches radios vpns peers ifs ifOut k := by
    intro k
    rw [e11, e10, e9, e8, e7, e6, e5]
    unfold returned
    by_cases k0 : k = "general"
    · subst k0; simp only [String.reduceEq, if_false, if_true]; exact e4'
    · rw [e4 k k0, e3, e2, e1, if_neg k0, if_neg k0]
      by_cases k1 : k ∈ ["general", "interfaces", "dns_servers", "dns_search"]
      · simp only [List.mem_cons, List.not_mem_nil, or_false] at k1
        rcases k1 with rfl | rfl | rfl | rfl
        · exact absurd rfl k0
        · simp only [String.reduceEq, if_false, if_true]
        all_goals
          simp only [String.reduceEq, if_false]
          show (Dict.get? ifOut _).or none = _
          rw [Option.or_none]
      · rw [hif k k1]
        show (if k = "wireguard_peers" then _ else if k = "openvpn" then _ else if k = "interfaces" then _ else if k = "radios" then _ else if k = "switch" then _ else if k = "ip_rules" then _ else if k = "routes" then _
          else if k = "led" then _ else if k = "ntp" then _ else none) = _
        by_cases a1 : k = "wireguard_peers"
        · subst a1; rfl
        by_cases a8 : k = "openvpn"
        · subst a8; rfl
        have a9 : k ≠ "interfaces" := fun e => k1 (by simp [e])
        by_cases a2 : k = "radios"
        · subst a2; rfl
        by_cases a3 : k = "switch"
        · subst a3; rfl
        by_cases a4 : k = "ip_rules"
        · subst a4; rfl
        by_cases a5 : k = "routes"
        · subst a5; rfl
        by_cases a6 : k = "led"
        · subst a6; rfl
        by_cases a7 : k = "ntp"
        · subst a7; rfl
        simp only [a1, a2, a3, a4, a5, a6, a7, a8, a9, if_false]
  have hunk : ∀ k, k ∉ knownKeys → Dict.get? c11 k = none := by
    intro k hk
    rw [hval]
    unfold knownKeys at hk
    simp only [List.mem_cons, List.not_mem_nil, or_false, not_or] at hk
    unfold returned
    simp only [hk, if_false]
    exact hif k (by simp [hk])
  have hnew : ∀ k, Dict.get? (interOf out) k ≠ none → k ∉ knownKeys := by
    intro k hk
    have hk : k ∈ Dict.keys out := by
      by_contra hc
      rw [get?_interOf, (Dict.get?_eq_none_iff _ _).2 hc] at hk
      exact hk rfl
    obtain ⟨o, ho, rfl⟩ := List.mem_map.1 hk
    exact (o4 o ho).1
  obtain ⟨c, m1, m2⟩ := merge_new cls.sh cls.ids c11 (interOf out) (by rw [keys_interOf]; exact o2) (fun k hk => hunk k (hnew k hk))
  refine ⟨c, g, interOf M12, ?_, hg, fun k hk => ?_, fun k hk hk' => ?_, fun k hk => ?_⟩
  · rw [bconvLoop, if_neg (by simp [defaultBConv])]
    have : (defaultBConv env).run c11 (interOf M) (interOf M12) = ((c11, interOf M12), .ok (interOf out)) := by
      show ((c11, interOf M12), defaultBack env (interOf M12)) = _
      rw [o1]
    rw [this]
    dsimp only
    by_cases he : (interOf out).isEmpty
    · rw [if_pos he]
      have h0 : interOf out = [] := by
        cases h : interOf out with
        | nil => rfl
        | cons _ _ => rw [h] at he; cases he
      rw [h0, mergeConfig_nil] at m1
      cases m1
      rfl
    · rw [if_neg he, m1]; rfl
  · have : Dict.get? (interOf out) k = none := by
      by_contra hc
      exact hnew k hc hk
    rw [m2, this, Option.none_or, hval]
  · have : Dict.get? (interOf out) k = none := by
      rw [get?_interOf, (Dict.get?_eq_none_iff _ _).2 (fun h => hk' ((hcust k).1 h))]; rfl
    rw [m2, this, Option.none_or, hunk k hk]
  · have hko := (hcust k).2 hk
    obtain ⟨⟨k', bs⟩, ho', rfl⟩ := List.mem_map.1 hko
    obtain ⟨_, l, l1, l2⟩ := o4 _ ho'
    refine ⟨bs, l, ?_, l1, l2⟩
    rw [m2, get?_interOf, Dict.get?_of_mem o2 ho']
    rfl

end NJ
