import Verif.IfaceList

/-!
# Ethernet interfaces, there and back
-/

namespace NJ

/-! ## DNS -/

theorem dnsBack_names {u k : String} {names : List String} (hw : ∀ s ∈ names, IsWord s.toList) {i result : VDict}
    (h : Dict.get? i u = readVal (joinedNames names)) :
    dnsBack u k (i, result) = .ok (Dict.erase i u, withNames k names result) := by
  unfold dnsBack withNames
  by_cases hn : names = []
  · subst hn
    have h' : Dict.get? i u = none := by rw [h]; rfl
    dsimp only
    rw [h', if_pos rfl, erase_absent h']
  · have hj : joinedNames names = txt (joinWith [' '] (names.map String.toList)) := by simp [joinedNames, hn]
    have hne : joinWith [' '] (names.map String.toList) ≠ [] := by
      intro e
      have := words_join (names.map String.toList) (by intro s hs; obtain ⟨n, hn, rfl⟩ := List.mem_map.1 hs; exact hw n hn)
      rw [e] at this
      have e2 : names.map String.toList = [] := by rw [← this]; rfl
      exact hn (List.map_eq_nil_iff.1 e2)
    rw [hj, readVal_txt hne] at h
    dsimp only
    rw [h, if_neg hn]
    simp only [txt, bind, Except.bind, pure, Except.pure, String.toList_ofList,
      words_join (names.map String.toList) (by intro s hs; obtain ⟨n, hn, rfl⟩ := List.mem_map.1 hs; exact hw n hn), List.map_map]
    congr 3
    apply List.map_congr_left
    intro s _
    simp [txt]

/-- what is left to do when the interface has been read -/
theorem iface_noted {env : Env} {dsa : Bool} {servers search : List String} {name : String} {network : Option String} {g : Group} {d r : VDict}
    (h : IfaceOK env name network g d) (hr : IfaceRead env servers search name network g r d)
    (h1 : ∀ s ∈ servers, IsWord s.toList) (h2 : ∀ s ∈ search, IsWord s.toList) :
    ∃ r', IfaceComesBack env name network g r' d ∧ ∀ (b b' : VDict) (dev : Dict Val VDict) (st : IfState),
      (if dsa then dsaBack b st.dev else pure (some b, st.dev)) = .ok (some b', dev) → ifaceBack env b' = .ok r → b'.isEmpty = false →
      Dict.get? b' "type" ≠ some (.str "device") → Dict.get? b' "bridge_21" = none → Dict.get? b ".type" = some (.str "interface") →
      ifaceLoop env dsa b st = .ok ⟨dev, appendTo (withNames "dns_search" (searchOf search g) (withNames "dns_servers" (serversOf servers g) st.result))
        "interfaces" [.dict r']⟩ := by
  refine ⟨Dict.erase (Dict.erase r "dns") "dns_search", ⟨?_, ?_, ?_, ?_⟩, ?_⟩
  · exact Dict.nodup_erase (Dict.nodup_erase hr.nodup _) _
  · intro k k1 k2
    rw [Dict.get?_erase', Dict.get?_erase']
    by_cases c1 : k = "dns_search"
    · rw [if_pos c1, c1]; exact (h.reserved _ (by decide)).symm
    by_cases c2 : k = "dns"
    · rw [if_neg c1, if_pos c2, c2]; exact (h.reserved _ (by decide)).symm
    rw [if_neg c1, if_neg c2]
    exact hr.options k k1 k2 c2 c1
  · refine hasGroup_congr ?_ hr.group
    rw [Dict.get?_erase', Dict.get?_erase', if_neg (by decide), if_neg (by decide)]
  · rw [Dict.get?_erase', Dict.get?_erase', if_neg (by decide), if_neg (by decide)]
    exact hr.network
  · intro b b' dev st e1 e2 e3 e4 e5 e6
    have hs1 : ∀ s ∈ serversOf servers g, IsWord s.toList := by
      cases g <;> simp only [serversOf, List.not_mem_nil, false_imp_iff, implies_true] <;> exact h1
    have hs2 : ∀ s ∈ searchOf search g, IsWord s.toList := by
      cases g <;> simp only [searchOf, List.not_mem_nil, false_imp_iff, implies_true] <;> exact h2
    unfold ifaceLoop
    rw [if_neg (by rw [e6]; decide), if_pos e6]
    unfold interfaceBack
    rw [e1]
    simp only [bind, Except.bind]
    rw [if_neg (by rw [e5, e3]; simp [e4, Val.truthy]), e2]
    have hne : r.isEmpty = false := by
      have hn : Dict.get? r "name" = some (.str name) := by rw [hr.options _ (by decide) (by decide) (by decide) (by decide), h.nameOk]
      cases r with
      | nil => cases hn
      | cons _ _ => rfl
    simp only [hne, Bool.false_eq_true, if_false]
    rw [dnsBack_names hs1 hr.dns]
    dsimp only
    rw [dnsBack_names hs2 (by rw [Dict.get?_erase', if_neg (by decide)]; exact hr.search)]
    rfl

/-! ## The options of the device -/

theorem copyOptions_get (ks : List String) (dev : VDict) {i : VDict} (hn : (Dict.keys i).Nodup) :
    (Dict.keys (ks.foldl (copyOption dev) i)).Nodup ∧
      ∀ x, Dict.get? (ks.foldl (copyOption dev) i) x = if x ∈ ks then (Dict.get? dev x).or (Dict.get? i x) else Dict.get? i x := by
  induction ks generalizing i with
  | nil => exact ⟨hn, fun x => by simp⟩
  | cons k ks ih =>
    have h1 : (Dict.keys (copyOption dev i k)).Nodup ∧ ∀ x, Dict.get? (copyOption dev i k) x = if x = k then (Dict.get? dev x).or (Dict.get? i x) else Dict.get? i x := by
      unfold copyOption
      cases h : Dict.get? dev k with
      | none =>
        refine ⟨hn, fun x => ?_⟩
        by_cases c : x = k
        · rw [if_pos c, c, h]; rfl
        · rw [if_neg c]
      | some v =>
        refine ⟨Dict.nodup_set hn _ _, fun x => ?_⟩
        rw [Dict.get?_set']
        by_cases c : x = k
        · rw [if_pos c, if_pos c, c, h]; rfl
        · rw [if_neg c, if_neg c]
    rw [List.foldl_cons]
    obtain ⟨n2, g2⟩ := ih h1.1
    refine ⟨n2, fun x => ?_⟩
    rw [g2, h1.2]
    by_cases c1 : x = k <;> by_cases c2 : x ∈ ks <;> simp only [c1, c2, if_true, if_false, List.mem_cons, true_or, or_true, or_self]
    · subst c1
      simp only [c2, if_true]
      cases Dict.get? dev x <;> rfl
    · subst c1
      simp only [c2, if_false]

theorem deviceToIfname_ok {b : VDict} {v : Val} (h : Dict.get? b "device" = some v) :
    deviceToIfname b = .ok (Dict.set (Dict.erase b "device") "ifname" v) := by
  unfold deviceToIfname
  rw [popKey_ok h]; rfl

/-- no VLANs -/
theorem handleVlan_none {i dev : VDict} {s : String} (h1 : Dict.get? i "ifname" = some (.str s)) (h2 : Dict.get? dev "vlan_filtering" = none) :
    handleVlan i dev = .ok (some i) := by
  unfold handleVlan
  rw [h1, h2]
  simp only [Option.getD_some, Option.getD_none, asText, bind, Except.bind, iterate, anyVlan]
  split <;> rfl

/-- the device of an interface that is neither bridge nor VLAN -/
theorem addDeviceOptions_simple {i R : VDict} (h1 : Dict.get? R "bridge_21" = none) (h2 : Dict.get? R "consumed" = none)
    (h3 : Dict.get? R "type" = some (.str "device")) :
    addDeviceOptions i R = .ok ((allOptions ++ stpOptions ++ igmpOptions).foldl (copyOption R) i, Dict.set R "consumed" (.bool true)) := by
  unfold addDeviceOptions
  rw [h1, h2, h3]
  have : ¬ "8021".toList <+: "device".toList := by decide
  simp only [Option.getD_none, Option.getD_some, Val.truthy, Bool.false_eq_true, false_and, if_false, bind, Except.bind, pure, Except.pure,
    asText, this]

theorem findDevice_some {dev : Dict Val VDict} {b R : VDict} {name : String} (h1 : Dict.get? b "device" = some (.str name))
    (h2 : Dict.get? dev (.str name) = some R) (h3 : R ≠ []) : findDevice dev b = some (.str name, R) := by
  unfold findDevice
  rw [h1]
  simp only [Option.getD_some, h2]
  cases R with
  | nil => exact absurd rfl h3
  | cons p ps => rfl

theorem findDevice_none {dev : Dict Val VDict} {b : VDict} {name : String} (h1 : Dict.get? b "device" = some (.str name))
    (h2 : Dict.get? b "name" = none) (h3 : Dict.get? dev (.str name) = none) (h4 : Dict.get? dev .none = none)
    (h5 : '.' ∈ name.toList → Dict.get? dev (txt (beforeLastDot name.toList)) = none) : findDevice dev b = none := by
  unfold findDevice
  rw [h1, h2]
  simp only [Option.getD_some, Option.getD_none, h3, h4, Option.map_none]
  split
  · next hd => rw [h5 hd]; rfl
  · rfl

theorem dsaBack_some {dev : Dict Val VDict} {b R i R' : VDict} {name : String} (h1 : Dict.get? b "device" = some (.str name))
    (h2 : Dict.get? dev (.str name) = some R) (h3 : R ≠ [])
    (h4 : handleVlan (Dict.set (Dict.erase b "device") "ifname" (.str name)) R = .ok (some (Dict.set (Dict.erase b "device") "ifname" (.str name))))
    (h5 : addDeviceOptions (Dict.set (Dict.erase b "device") "ifname" (.str name)) R = .ok (i, R')) :
    dsaBack b dev = .ok (some i, Dict.set dev (.str name) R') := by
  unfold dsaBack
  rw [findDevice_some h1 h2 h3]
  cases R with
  | nil => exact absurd rfl h3
  | cons p ps =>
    dsimp only
    rw [deviceToIfname_ok h1]
    simp only [bind, Except.bind, h4, h5]
    rfl

theorem dsaBack_none {dev : Dict Val VDict} {b : VDict} {name : String} (h1 : Dict.get? b "device" = some (.str name))
    (h2 : Dict.get? b "ifname" = none) (h3 : findDevice dev b = none) :
    dsaBack b dev = .ok (some (Dict.set (Dict.erase b "device") "ifname" (.str name)), dev) := by
  unfold dsaBack
  rw [h3]
  dsimp only
  rw [if_pos ⟨by simp [Dict.has, h1], by simp [Dict.has, h2]⟩, deviceToIfname_ok h1]
  rfl

/-! ## Bridges and their members -/

/-- the members of a bridge -/
def memberNames (d : VDict) : List String := portTexts ((Dict.get? d "bridge_members").getD (.list []))

/-- What a block, and the same block read back, say about the members of bridges. -/
structure Tracked (reprC : Val → String) (dsa : Bool) (uci : Chars) (d b : VDict) : Prop where
  same : ∀ m, trackBlock dsa m (.dict (blockRead reprC b)) = trackBlock dsa m (.dict b)
  adds : ∃ l : List String, (∀ x ∈ l, x ∈ memberNames d) ∧ ∀ m, trackBlock dsa m (.dict b) = .ok (l.foldl (addBridge (String.ofList uci)) m)

theorem trackBlock_other {dsa : Bool} {b : VDict} (h : Dict.get? b "type" ≠ some (.str "bridge")) (m : Dict String (List String)) :
    trackBlock dsa m (.dict b) = .ok m := by
  unfold trackBlock
  simp only [asDict, bind, Except.bind, ne_eq, h, not_false_eq_true, if_true]
  rfl

theorem tracked_other {reprC : Val → String} {dsa : Bool} {uci : Chars} {d b : VDict} (h1 : Dict.get? b "type" ≠ some (.str "bridge"))
    (h2 : Dict.get? (blockRead reprC b) "type" ≠ some (.str "bridge")) : Tracked reprC dsa uci d b :=
  ⟨fun m => by rw [trackBlock_other h1, trackBlock_other h2], [], by simp, fun m => trackBlock_other h1 m⟩

theorem trackBlock_bridge {dsa : Bool} {b : VDict} {n : String} (h1 : Dict.get? b "type" = some (.str "bridge")) (h2 : Dict.get? b ".name" = some (.str n))
    (m : Dict String (List String)) :
    trackBlock dsa m (.dict b) = .ok (((bridgeMembers dsa b).getD []).foldl (addBridge (bridgeName dsa n.toList)) m) := by
  unfold trackBlock
  simp only [asDict, bind, Except.bind, h1, ne_eq, not_true_eq_false, if_false]
  cases bridgeMembers dsa b with
  | none => rfl
  | some l => simp only [getKey, h2, asText]; rfl

/-! ## An Ethernet interface -/

/-- A unit that is the given interface in UCI, and what comes back. -/
structure UnitFor (env : Env) (dsa : Bool) (config : VDict) (servers search : List String) (name : String) (network : Option String) (g : Group)
    (device : Bool) (d : VDict) (u : IUnit) : Prop where
  ok : u.OK env dsa
  forward : ∀ sh result, ifaceFwd sh env dsa config ([], result) (.dict d) = addUnit sh u.D u.S result
  nameEq : u.name = name
  deviceIff : u.D ≠ none ↔ device = true
  secKey : nameKey u.S = .val (txt (sectionName name network))
  devKey : ∀ D, u.D = some D → nameKey D = .val (txt ("device_".toList ++ sectionName name network))
  serversEq : u.servers = serversOf servers g
  searchEq : u.search = searchOf search g
  back : IfaceComesBack env name network g u.r d
  track : ∀ b ∈ u.blocks, Tracked env.reprC dsa (sectionName name network) d b

theorem skip_interface {b : VDict} (h : Dict.get? b ".type" = some (.str "interface")) : skipBlock ifaceTypes b = false := by
  unfold skipBlock ifaceTypes
  cases b with
  | nil => cases h
  | cons p ps => simp [h]

/-- the unit of an interface, from its blocks and how its section is read -/
theorem unit_for {env : Env} {dsa : Bool} {config : VDict} {servers search : List String} {name : String} {network : Option String} {g : Group}
    {device : Bool} {d S r : VDict} {D : Option VDict} {R : VDict} (h : IfaceOK env name network g d) (hdns : DnsOK config servers search)
    (hf : ∀ sh result, ifaceFwd sh env dsa config ([], result) (.dict d) = addUnit sh D S result) (hdev : D ≠ none ↔ device = true)
    (hS : PlainBlock S) (hSt : Dict.get? S ".type" = some (.str "interface")) (hSn : Dict.get? S ".name" = some (txt (sectionName name network)))
    (hS21 : Dict.get? S "bridge_21" = none) (hSty : (Dict.get? S "type").bind readVal ≠ some (.str "device"))
    (hSd : Dict.get? S "device" = none ∨ Dict.get? S "device" = some (.str name))
    (hDp : ∀ x, D = some x → PlainData x ∧ Dict.get? x ".type" = some (.str "device") ∧
      Dict.get? x ".name" = some (txt ("device_".toList ++ sectionName name network)) ∧
      skipNonDevice [] (blockRead env.reprC x) = false ∧
      ∀ st : IfState, Dict.get? st.dev (.str name) = none →
        deviceBlock (blockRead env.reprC x) st = .ok ⟨Dict.set st.dev (.str name) R, st.result⟩)
    (hr : IfaceRead env servers search name network g r d)
    (hsec : ∀ dev : Dict Val VDict, (IUnit.mk name D R S [] [] []).Ready dev → ∃ R' b', consumed R' = true ∧
      (if dsa then dsaBack (blockRead env.reprC S) dev else pure (some (blockRead env.reprC S), dev)) =
        .ok (some b', if D = none then dev else Dict.set dev (.str name) R') ∧ ifaceBack env b' = .ok r ∧ b'.isEmpty = false ∧
      Dict.get? b' "type" ≠ some (.str "device") ∧ Dict.get? b' "bridge_21" = none)
    (htS : Tracked env.reprC dsa (sectionName name network) d S)
    (htD : ∀ x, D = some x → Tracked env.reprC dsa (sectionName name network) d x) :
    ∃ u, UnitFor env dsa config servers search name network g device d u := by
  obtain ⟨r', r1, r2⟩ := iface_noted (dsa := dsa) h hr hdns.servers.2 hdns.search.2
  have gS := get?_blockRead env.reprC hS
  have st : Dict.get? (blockRead env.reprC S) ".type" = some (.str "interface") := by rw [gS, if_pos (.inl rfl), hSt]
  refine ⟨⟨name, D, R, S, serversOf servers g, searchOf search g, r'⟩, ⟨⟨?_, ?_, ?_, ?_, ?_, ?_, ?_⟩, hf, rfl, hdev, ?_, ?_, rfl, rfl, r1, ?_⟩⟩
  · intro b hb
    cases D with
    | none => rw [IUnit.blocks, List.mem_singleton] at hb; rw [hb]; exact hS.data
    | some x =>
      rw [IUnit.blocks] at hb
      simp only [List.mem_cons, List.not_mem_nil, or_false] at hb
      rcases hb with rfl | rfl
      · exact (hDp _ rfl).1
      · exact hS.data
  · have e1 : Dict.get? (blockRead env.reprC S) ".name" = Dict.get? S ".name" := by rw [gS, if_pos (.inr rfl)]
    intro b hb
    cases D with
    | none => rw [IUnit.blocks, List.mem_singleton] at hb; rw [hb]; exact e1
    | some x =>
      rw [IUnit.blocks] at hb
      simp only [List.mem_cons, List.not_mem_nil, or_false] at hb
      rcases hb with rfl | rfl
      · rw [get?_blockRead_device env.reprC (hDp _ rfl).1 (hDp _ rfl).2.1, if_neg (by decide), if_pos rfl]
      · exact e1
  · exact fun x hx dev => (hDp x hx).2.2.2.1
  · exact fun x hx st hst => (hDp x hx).2.2.2.2 st hst
  · intro x
    unfold skipNonDevice
    have e1 : Dict.get? (blockRead env.reprC S) "bridge_21" = none := by rw [gS, if_neg (by decide), hS21]; rfl
    have e2 : Dict.get? (blockRead env.reprC S) "type" ≠ some (.str "device") := by rw [gS, if_neg (by decide)]; exact hSty
    rw [e1]
    simp [e2, Val.truthy]
  · intro dev hnp
    unfold skipVlan
    rw [skip_interface st, gS, if_neg (by decide)]
    rcases hSd with e | e
    · rw [e]; rfl
    · rw [e]
      simp only [Option.bind_some, readVal_word h.word, Bool.false_or, Bool.and_eq_false_iff, decide_eq_false_iff_not]
      by_cases hd : '.' ∈ name.toList
      · right
        have := hnp hd
        dsimp only at this
        rw [Dict.has, this]; rfl
      · exact .inl hd
  · intro st' hst
    obtain ⟨R', b', c1, c2, c3, c4, c5, c6⟩ := hsec st'.dev hst
    exact ⟨R', c1, r2 _ b' _ st' c2 c3 c4 c5 c6 st⟩
  · simp [nameKey, hSn]
  · intro x hx
    simp [nameKey, (hDp x hx).2.2.1]
  · intro b hb
    cases D with
    | none => rw [IUnit.blocks, List.mem_singleton] at hb; rw [hb]; exact htS
    | some x =>
      rw [IUnit.blocks] at hb
      simp only [List.mem_cons, List.not_mem_nil, or_false] at hb
      rcases hb with rfl | rfl
      · exact htD _ rfl
      · exact htS

theorem isEmpty_of_get {d : VDict} {k : String} {v : Val} (h : Dict.get? d k = some v) : d.isEmpty = false := by
  cases d with
  | nil => cases h
  | cons _ _ => rfl

/-- An Ethernet interface is a unit. -/
theorem eth_unit {env : Env} {dsa : Bool} {config : VDict} {servers search : List String} (hdns : DnsOK config servers search) {name : String}
    {network : Option String} {g : Group} {d : VDict} (h : EthOK env name network g d) :
    ∃ u, UnitFor env dsa config servers search name network g (dsa && hasL2 d) d u := by
  obtain ⟨D, S, f1, f2, f3, f4⟩ := eth_forward (dsa := dsa) hdns h
  have hS := h.section_plain hdns f2 f3
  have gS := get?_blockRead env.reprC hS
  have nS := blockRead_nodup env.reprC hS.data
  have e1 : Dict.get? S ".type" = some (.str "interface") := by rw [f3]; cases dsa <;> simp [ethItem, dsaItem, blockItem]
  have e2 : Dict.get? S ".name" = some (txt (sectionName name network)) := by rw [f3]; cases dsa <;> simp [ethItem, dsaItem, blockItem]
  have e3 : Dict.get? S "bridge_21" = none := by
    rw [f3]; cases dsa <;> simp [ethItem, dsaItem, blockItem] <;> exact h.reserved _ (by decide)
  have e4 : Dict.get? S "type" = none := by rw [f3]; cases dsa <;> simp [ethItem]
  have e5 : Dict.get? S "name" = none := by rw [f3]; cases dsa <;> simp [ethItem, dsaItem, blockItem]
  have hdev : D ≠ none ↔ (dsa && hasL2 d) = true := by
    cases D with
    | none => dsimp only at f4; rcases f4 with rfl | e <;> simp [*]
    | some x => dsimp only at f4; simp [f4.1, f4.2.1]
  -- the device
  obtain ⟨R, hR⟩ : ∃ R, ∀ x, D = some x → (Dict.keys R).Nodup ∧ (∀ k, Dict.get? R k = recItem (sectionName name network) name d k) ∧
      ∀ st : IfState, Dict.get? st.dev (.str name) = none →
        deviceBlock (blockRead env.reprC x) st = .ok ⟨Dict.set st.dev (.str name) R, st.result⟩ := by
    cases D with
    | none => exact ⟨[], by simp⟩
    | some x =>
      obtain ⟨R, r1, r2, r3⟩ := device_noted h.toIfaceOK f4.2.2.1 f4.2.2.2
      refine ⟨R, fun y hy => ?_⟩
      cases hy
      exact ⟨r2, r3, r1⟩
  have hDp : ∀ x, D = some x → PlainData x ∧ Dict.get? x ".type" = some (.str "device") ∧
      Dict.get? x ".name" = some (txt ("device_".toList ++ sectionName name network)) ∧
      skipNonDevice [] (blockRead env.reprC x) = false ∧
      ∀ st : IfState, Dict.get? st.dev (.str name) = none →
        deviceBlock (blockRead env.reprC x) st = .ok ⟨Dict.set st.dev (.str name) R, st.result⟩ := by
    rintro x rfl
    dsimp only at f4
    have p1 := h.toIfaceOK.device_plain f4.2.2.1 f4.2.2.2
    have t1 : Dict.get? x ".type" = some (.str "device") := by rw [f4.2.2.2]; simp [devItem]
    have gD := get?_blockRead_device env.reprC p1 t1
    refine ⟨p1, t1, by rw [f4.2.2.2]; simp [devItem], ?_, (hR x rfl).2.2⟩
    unfold skipNonDevice
    rw [skip_interface (by rw [gD, if_pos rfl])]
    have t2 : Dict.get? (blockRead env.reprC x) "type" = some (.str "device") := by
      rw [gD, if_neg (by decide), if_neg (by decide), if_neg (by simp), if_pos rfl, f4.2.2.2]
      simp [devItem, l2Item, deviceType, Val.truthy]
    rw [t2]
    simp
  have htS : ∀ dsa, Tracked env.reprC dsa (sectionName name network) d S := fun dsa =>
    tracked_other (by rw [e4]; simp) (by rw [gS, if_neg (by decide), e4]; simp)
  have htD : ∀ dsa x, D = some x → Tracked env.reprC dsa (sectionName name network) d x := by
    rintro dsa x rfl
    dsimp only at f4
    have p1 := h.toIfaceOK.device_plain f4.2.2.1 f4.2.2.2
    have t1 : Dict.get? x ".type" = some (.str "device") := by rw [f4.2.2.2]; simp [devItem]
    have t0 : Dict.get? x "type" = none := by rw [f4.2.2.2]; simp [devItem, l2Item]
    refine tracked_other (by rw [t0]; simp) ?_
    rw [get?_blockRead_device env.reprC p1 t1, if_neg (by decide), if_neg (by decide), if_neg (by simp), if_pos rfl, t0]
    decide
  -- the section
  cases hdsa : dsa with
  | false =>
    subst hdsa
    have hD : D = none := by
      cases D with
      | none => rfl
      | some x => exact absurd f4.1 (by decide)
    have gT := fun k (hk : k ∉ ["dns", "dns_search", "proto", "ipaddr", "netmask", "ip6addr", "type"]) =>
      (show Dict.get? S k = blockItem (sectionName name network) name g d k by
        rw [f3]; simp only [List.mem_cons, List.not_mem_nil, or_false, not_or] at hk
        obtain ⟨k1, k2, k3, k4, k5, k6, k7⟩ := hk
        simp [ethItem, k1, k2, k3, k4, k5, k6, k7])
    obtain ⟨s1, s2⟩ := eth_secRead (dsa := false) (b := blockRead env.reprC S) h f3 nS (by
        intro v hv
        obtain ⟨i, rfl⟩ := h.mtu v hv
        refine ⟨_, ?_, toInt_show i⟩
        rw [gS, if_neg (by decide), gT _ (by decide)]
        simp [blockItem, hv, readVal])
      (by intro hv; rw [gS, if_neg (by decide), gT _ (by decide)]; simp [blockItem, hv])
      (by rw [gS, if_neg (by decide), gT _ (by decide)]; simp only [blockItem, String.reduceEq, if_false, if_true]; exact h.mac_read)
      (by rw [gS, if_neg (by decide), gT _ (by decide)]; simp [blockItem, readVal_word h.word])
      (by rw [gS, if_neg (by decide), gT _ (by decide)]; simp [blockItem, h.reserved "device" (by decide)])
      (fun k _ => gS k)
    obtain ⟨r, r1, r2⟩ := ifaceBack_eth h s1 s2
    refine unit_for (R := R) h.toIfaceOK hdns f1 (by rw [hdev]) hS e1 e2 e3 (by rw [e4]; simp) (.inl (by
      rw [gT _ (by decide)]; simp [blockItem, h.reserved "device" (by decide)])) hDp r2 ?_ (htS _) (htD _)
    intro dev _
    refine ⟨[("consumed", .bool true)], _, by decide, by rw [if_pos hD]; rfl, r1, isEmpty_of_get s1.type, ?_, ?_⟩
    · rw [s1.absent _ (by simp)]; simp
    · exact s1.absent _ (by simp)
  | true =>
    subst hdsa
    have gT := fun k (hk : k ∉ ["dns", "dns_search", "proto", "ipaddr", "netmask", "ip6addr", "type"]) =>
      (show Dict.get? S k = if k = "ifname" then none else dsaItem (sectionName name network) name g d k by
        rw [f3]; simp only [List.mem_cons, List.not_mem_nil, or_false, not_or] at hk
        obtain ⟨k1, k2, k3, k4, k5, k6, k7⟩ := hk
        simp [ethItem, k1, k2, k3, k4, k5, k6, k7])
    have i1 : Dict.get? (blockRead env.reprC S) "device" = some (.str name) := by
      rw [gS, if_neg (by decide), gT _ (by decide)]; simp [dsaItem, readVal_word h.word]
    have i2 : Dict.get? (blockRead env.reprC S) "ifname" = none := by rw [gS, if_neg (by decide), gT _ (by decide)]; simp
    have i3 : Dict.get? (blockRead env.reprC S) "mtu" = none := by rw [gS, if_neg (by decide), gT _ (by decide)]; simp [dsaItem]
    have i4 : Dict.get? (blockRead env.reprC S) "macaddr" = none := by rw [gS, if_neg (by decide), gT _ (by decide)]; simp [dsaItem]
    have i5 : Dict.get? (blockRead env.reprC S) "name" = none := by rw [gS, if_neg (by decide), e5]; rfl
    have nB : (Dict.keys (Dict.set (Dict.erase (blockRead env.reprC S) "device") "ifname" (.str name))).Nodup :=
      Dict.nodup_set (Dict.nodup_erase nS _) _ _
    have gB : ∀ k, Dict.get? (Dict.set (Dict.erase (blockRead env.reprC S) "device") "ifname" (.str name)) k =
        if k = "ifname" then some (.str name) else if k = "device" then none else Dict.get? (blockRead env.reprC S) k := by
      intro k; rw [Dict.get?_set', Dict.get?_erase']
    have hSd : Dict.get? S "device" = some (.str name) := by rw [gT _ (by decide)]; simp [dsaItem]
    cases D with
    | none =>
      have hL : hasL2 d = false := by
        dsimp only at f4
        rcases f4 with e | e
        · cases e
        · exact e
      simp only [hasL2, Dict.has, Bool.or_eq_false_iff] at hL
      have m1 : Dict.get? d "mtu" = none := by simpa using hL.1
      have m2 : Dict.get? d "mac" = none := by simpa using hL.2
      obtain ⟨s1, s2⟩ := eth_secRead (dsa := true) (b := Dict.set (Dict.erase (blockRead env.reprC S) "device") "ifname" (.str name)) h f3 nB
        (by intro v hv; rw [m1] at hv; cases hv) (by intro _; rw [gB]; simpa using i3) (by rw [gB, m2]; simpa using i4)
        (by rw [gB]; simp) (by rw [gB]; simp) (by
          intro k hk
          simp only [List.mem_cons, List.not_mem_nil, or_false, not_or] at hk
          rw [gB, if_neg hk.2.2.1, if_neg hk.2.2.2, gS])
      obtain ⟨r, r1, r2⟩ := ifaceBack_eth h s1 s2
      refine unit_for (R := R) h.toIfaceOK hdns f1 hdev hS e1 e2 e3 (by rw [e4]; simp) (.inr hSd) hDp r2 ?_ (htS _) (htD _)
      intro dev hdevs
      obtain ⟨d1, d2, d3⟩ := hdevs.2 rfl
      refine ⟨[("consumed", .bool true)], _, by decide, by rw [if_pos rfl]; exact dsaBack_none i1 i2 (findDevice_none i1 i5 d1 d2 d3), r1,
        isEmpty_of_get s1.type, ?_, ?_⟩
      · rw [s1.absent _ (by simp)]; simp
      · exact s1.absent _ (by simp)
    | some x =>
      obtain ⟨R1, R2, _⟩ := hR x rfl
      have q1 : Dict.get? R "bridge_21" = none := by rw [R2]; simp [recItem, l2Item]
      have q2 : Dict.get? R "consumed" = none := by rw [R2]; simp [recItem, l2Item]
      have q3 : Dict.get? R "type" = some (.str "device") := by rw [R2]; simp [recItem]
      have q4 : Dict.get? R "vlan_filtering" = none := by rw [R2]; simp [recItem, l2Item]
      have q5 : R ≠ [] := by rintro rfl; cases q3
      obtain ⟨nC, gC⟩ := copyOptions_get (allOptions ++ stpOptions ++ igmpOptions) R nB
      generalize hC : (allOptions ++ stpOptions ++ igmpOptions).foldl (copyOption R)
        (Dict.set (Dict.erase (blockRead env.reprC S) "device") "ifname" (.str name)) = C at nC gC
      have gR : ∀ k, k ≠ "mtu" → k ≠ "macaddr" → k ∈ allOptions ++ stpOptions ++ igmpOptions → Dict.get? R k = none := by
        intro k k1 k2 hk
        rw [R2]
        unfold recItem l2Item
        simp only [allOptions, stpOptions, igmpOptions, List.cons_append, List.nil_append, List.mem_cons, List.not_mem_nil, or_false] at hk
        rcases hk with rfl | rfl | rfl | rfl | rfl | rfl | rfl | rfl | rfl | rfl | rfl | rfl | rfl | rfl | rfl | rfl <;>
          first | exact absurd rfl k1 | exact absurd rfl k2 | simp
      have gC' : ∀ k, k ≠ "mtu" → k ≠ "macaddr" → Dict.get? C k =
          Dict.get? (Dict.set (Dict.erase (blockRead env.reprC S) "device") "ifname" (.str name)) k := by
        intro k k1 k2
        rw [gC]
        split
        · next hk => rw [gR k k1 k2 hk]; rfl
        · rfl
      have cm : Dict.get? C "mtu" = Dict.get? d "mtu" := by
        rw [gC, if_pos (by decide), gB, R2]
        simp only [recItem, l2Item, String.reduceEq, if_false, if_true, i3, Option.or_none]
      have ca : Dict.get? C "macaddr" = Dict.get? d "mac" := by
        rw [gC, if_pos (by decide), gB, R2]
        simp only [recItem, l2Item, String.reduceEq, if_false, if_true, i4, Option.or_none]
      obtain ⟨s1, s2⟩ := eth_secRead (dsa := true) (b := C) h f3 nC
        (by
          intro v hv
          obtain ⟨i, rfl⟩ := h.mtu v hv
          exact ⟨_, by rw [cm, hv], rfl⟩)
        (by intro hv; rw [cm, hv]) ca (by rw [gC' _ (by decide) (by decide), gB]; simp) (by rw [gC' _ (by decide) (by decide), gB]; simp) (by
          intro k hk
          simp only [List.mem_cons, List.not_mem_nil, or_false, not_or] at hk
          rw [gC' k hk.1 hk.2.1, gB, if_neg hk.2.2.1, if_neg hk.2.2.2, gS])
      obtain ⟨r, r1, r2⟩ := ifaceBack_eth h s1 s2
      refine unit_for (R := R) h.toIfaceOK hdns f1 hdev hS e1 e2 e3 (by rw [e4]; simp) (.inr hSd) hDp r2 ?_ (htS _) (htD _)
      intro dev hdevs
      have d1 : Dict.get? dev (.str name) = some R := hdevs.1 (by simp)
      refine ⟨Dict.set R "consumed" (.bool true), C, ?_, ?_, r1, isEmpty_of_get s1.type, ?_, ?_⟩
      · unfold consumed; rw [Dict.get?_set', if_pos rfl]; rfl
      · rw [if_pos rfl, if_neg (by simp)]
        refine dsaBack_some i1 d1 q5 (handleVlan_none (by rw [gB, if_pos rfl]) q4) ?_
        rw [addDeviceOptions_simple q1 q2 q3, hC]
      · rw [s1.absent _ (by simp)]; simp
      · exact s1.absent _ (by simp)

end NJ
