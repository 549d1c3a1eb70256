import Verif.IfaceAddr

/-!
# One interface, to UCI

What the sections of an interface hold, for the interfaces `IfaceOK` describes.
-/

namespace NJ

/-! ## Specification -/

/-- Options the conversion gives a meaning of its own: an interface that comes back must not use them for something else. -/
def reservedOptions : List String :=
  ["ifname", "device", "device_name", "dns", "dns_search", "proto", "ipaddr", "ip6addr", "netmask", "gateway", "ip6gw", "auto", "enabled",
   "macaddr", "wireless", "bridge_21", "bridge_empty", "consumed", "ports", "vid", "vlan_filtering", "pincode", "listen_port"] ++
  l2Options.filter (· ≠ "mtu")

/-- options of bridges -/
def bridgeOptions : List String := "bridge_members" :: (stpOptions ++ igmpOptions)

/-- the options an interface is described by -/
def ifaceKeys : List String := ["name", "type", "network", "addresses", "mac", "mtu", "autostart", "disabled"]

/-- The name of the section: the sanitised name of the network, or of the interface. -/
def sectionName (name : String) (network : Option String) : Chars := uciName ((network.getD name).toList)

/-- the names of the DNS servers or search domains in the configuration -/
def namesOf (config : VDict) (k : String) (names : List String) : Prop :=
  (names = [] ∧ Dict.get? config k = none ∨ Dict.get? config k = some (.list (names.map .str))) ∧ ∀ s ∈ names, IsWord s.toList

/-- the configuration, as far as it concerns every interface -/
structure DnsOK (config : VDict) (servers search : List String) : Prop where
  servers : namesOf config "dns_servers" servers
  search : namesOf config "dns_search" search

/-- the names in one text; none at all when there are no names -/
def joinedNames (names : List String) : Val := if names = [] then .none else txt (joinWith [' '] (names.map String.toList))

/-- DNS servers are for static addresses -/
def serversOf (servers : List String) : Group → List String
  | .static _ => servers
  | _ => []

/-- search domains are for all but interfaces without address -/
def searchOf (search : List String) : Group → List String
  | .none => []
  | _ => search

/-- An interface with one group of addresses (none; one DHCP address; static addresses), without the options of bridges. -/
structure IfaceOK (env : Env) (name : String) (network : Option String) (g : Group) (d : VDict) : Prop where
  nodup : (Dict.keys d).Nodup
  nameOk : Dict.get? d "name" = some (.str name)
  word : IsWord name.toList
  networkOk : Dict.get? d "network" = network.map .str
  networkWord : ∀ n, network = some n → IsWord n.toList ∧ uciName n.toList = n.toList
  group : HasGroup env d g
  groupRead : GroupRead env g
  mtu : ∀ v, Dict.get? d "mtu" = some v → ∃ i : Int, v = .int i
  mac : ∀ v, Dict.get? d "mac" = some v → ∃ s, v = .str s ∧ s ≠ "" ∧ PlainText s.toList
  autostart : ∀ v, Dict.get? d "autostart" = some v → ∃ b, v = .bool b
  disabled : ∀ v, Dict.get? d "disabled" = some v → ∃ b, v = .bool b
  reserved : ∀ k ∈ reservedOptions, Dict.get? d k = none
  options : ∀ k v, Dict.get? d k = some v → k ∉ ifaceKeys → k ∉ bridgeOptions → IsWord k.toList ∧ k.toList.head? ≠ some '.' ∧ Survives none v

/-- the type an interface gets for its name -/
def ethType (name : String) : String := if name ∈ ["lo", "lo0", "loopback"] then "loopback" else "ethernet"

/-- an Ethernet or loopback interface -/
structure EthOK (env : Env) (name : String) (network : Option String) (g : Group) (d : VDict) : Prop extends IfaceOK env name network g d where
  type : Dict.get? d "type" = some (.str (ethType name))
  noBridge : ∀ k ∈ bridgeOptions, Dict.get? d k = none

/-- the section after all but the addresses, DNS and bridge have been taken care of -/
def blockItem (uci : Chars) (name : String) (g : Group) (d : VDict) (k : String) : Option Val :=
  if k = ".type" then some (.str "interface")
  else if k = ".name" then some (txt uci)
  else if k = "ifname" then some (.str name)
  else if k = "gateway" then (groupGw g false).map .str
  else if k = "ip6gw" then (groupGw g true).map .str
  else if k = "auto" then Dict.get? d "autostart"
  else if k = "enabled" then (Dict.get? d "disabled").map (fun v => .bool (!v.truthy))
  else if k = "macaddr" then Dict.get? d "mac"
  else if k ∈ ["name", "network", "addresses", "mac", "autostart", "disabled"] then none
  else Dict.get? d k

theorem macStep_get {d : VDict} (hn : (Dict.keys d).Nodup) (ht : Dict.get? d "type" ≠ some (.str "wireless")) :
    (Dict.keys (macStep d)).Nodup ∧ ∀ k, Dict.get? (macStep d) k =
      if k = "mac" then none else if k = "macaddr" ∧ (Dict.get? d "mac").isSome then Dict.get? d "mac" else Dict.get? d k := by
  unfold macStep
  cases hm : Dict.get? d "mac" with
  | none => refine ⟨hn, fun k => ?_⟩; by_cases hk : k = "mac" <;> simp [hk, hm]
  | some m =>
    simp only [ht, if_false]
    refine ⟨Dict.nodup_erase (Dict.nodup_set hn _ _) _, fun k => ?_⟩
    rw [Dict.get?_erase', Dict.get?_set']
    by_cases hk : k = "mac" <;> by_cases hk2 : k = "macaddr" <;> simp [hk, hk2]

theorem autoStep_get {d : VDict} (hn : (Dict.keys d).Nodup) :
    (Dict.keys (autoStep d)).Nodup ∧ ∀ k, Dict.get? (autoStep d) k =
      if k = "autostart" then none else if k = "auto" ∧ (Dict.get? d "autostart").isSome then Dict.get? d "autostart" else Dict.get? d k := by
  unfold autoStep
  cases hm : Dict.get? d "autostart" with
  | none => refine ⟨hn, fun k => ?_⟩; by_cases hk : k = "autostart" <;> simp [hk, hm]
  | some m =>
    refine ⟨Dict.nodup_erase (Dict.nodup_set hn _ _) _, fun k => ?_⟩
    simp only [Dict.get?_erase', Dict.get?_set']
    by_cases hk : k = "autostart" <;> by_cases hk2 : k = "auto" <;> simp [hk, hk2]

theorem enabledStep_get {d : VDict} (hn : (Dict.keys d).Nodup) :
    (Dict.keys (enabledStep d)).Nodup ∧ ∀ k, Dict.get? (enabledStep d) k =
      if k = "disabled" then none else if k = "enabled" ∧ (Dict.get? d "disabled").isSome
        then (Dict.get? d "disabled").map (fun v => .bool (!v.truthy)) else Dict.get? d k := by
  unfold enabledStep
  cases hm : Dict.get? d "disabled" with
  | none => refine ⟨hn, fun k => ?_⟩; by_cases hk : k = "disabled" <;> simp [hk, hm]
  | some m =>
    refine ⟨Dict.nodup_erase (Dict.nodup_set hn _ _) _, fun k => ?_⟩
    simp only [Dict.get?_erase', Dict.get?_set']
    by_cases hk : k = "disabled" <;> by_cases hk2 : k = "enabled" <;> simp [hk, hk2]

/-- the types without a method of their own -/
def simpleType (t : String) : Prop :=
  uciName t.toList ∉ ["modem_manager".toList, "wireguard".toList, "vxlan".toList, "8021q".toList, "8021ad".toList, "8021_vlan".toList] ∧
    t ≠ "wireless"

theorem ifaceBlock_ok {env : Env} {dsa : Bool} {name : String} {network : Option String} {g : Group} {d b' : VDict} {t : String} {uci : Chars}
    (h : IfaceOK env name network g d) (ht : Dict.get? d "type" = some (.str t)) (hs : simpleType t) (hb' : (Dict.keys b').Nodup)
    (hg : ∀ k, Dict.get? b' k = if k = "gateway" then ((groupGw g false).map .str).or (Dict.get? d k)
        else if k = "ip6gw" then ((groupGw g true).map .str).or (Dict.get? d k) else Dict.get? d k) :
    ∃ i, ifaceBlock env dsa [] uci b' = .ok i ∧ (Dict.keys i).Nodup ∧ ∀ k, Dict.get? i k = blockItem uci name g d k := by
  have r : ∀ k, k ∈ reservedOptions → Dict.get? d k = none := h.reserved
  -- with type and name
  have n1 : (Dict.keys (Dict.update b' [(".type", .str "interface"), (".name", txt uci)])).Nodup := Dict.nodup_update hb' _
  have g1 : ∀ k, Dict.get? (Dict.update b' [(".type", .str "interface"), (".name", txt uci)]) k =
      if k = ".name" then some (txt uci) else if k = ".type" then some (.str "interface") else Dict.get? b' k := by
    intro k
    rw [Dict.update_cons, Dict.update_cons, Dict.update_nil, Dict.get?_set', Dict.get?_set']
  have hname : Dict.get? (Dict.update b' [(".type", .str "interface"), (".name", txt uci)]) "name" = some (.str name) := by
    rw [g1, if_neg (by decide), if_neg (by decide), hg, if_neg (by decide), if_neg (by decide), h.nameOk]
  unfold ifaceBlock
  dsimp only
  rw [popKey_ok hname]
  simp only [bind, Except.bind]
  generalize Dict.update b' [(".type", .str "interface"), (".name", txt uci)] = d1 at n1 g1
  have n2 : (Dict.keys (Dict.set (Dict.erase d1 "name") "ifname" (.str name))).Nodup := Dict.nodup_set (Dict.nodup_erase n1 _) _ _
  have g2 : ∀ k, Dict.get? (Dict.set (Dict.erase d1 "name") "ifname" (.str name)) k =
      if k = "ifname" then some (.str name) else if k = "name" then none else Dict.get? d1 k := by
    intro k; rw [Dict.get?_set', Dict.get?_erase']
  generalize Dict.set (Dict.erase d1 "name") "ifname" (.str name) = d2 at n2 g2
  have t2 : Dict.get? d2 "type" = some (.str t) := by
    rw [g2, if_neg (by decide), if_neg (by decide), g1, if_neg (by decide), if_neg (by decide), hg, if_neg (by decide), if_neg (by decide), ht]
  obtain ⟨n3, g3⟩ := macStep_get n2 (by rw [t2]; intro e; cases e; exact hs.2 rfl)
  generalize macStep d2 = d3 at n3 g3
  obtain ⟨n4, g4⟩ := autoStep_get n3
  generalize autoStep d3 = d4 at n4 g4
  obtain ⟨n5, g5⟩ := enabledStep_get n4
  generalize enabledStep d4 = d5 at n5 g5
  have n6 : (Dict.keys (Dict.erase (Dict.erase d5 "wireless") "addresses")).Nodup := Dict.nodup_erase (Dict.nodup_erase n5 _) _
  have g6 : ∀ k, Dict.get? (Dict.erase (Dict.erase d5 "wireless") "addresses") k =
      if k = "addresses" then none else if k = "wireless" then none else Dict.get? d5 k := by
    intro k; rw [Dict.get?_erase', Dict.get?_erase']
  generalize Dict.erase (Dict.erase d5 "wireless") "addresses" = d6 at n6 g6
  have t6 : Dict.get? d6 "type" = some (.str t) := by
    rw [g6, if_neg (by decide), if_neg (by decide), g5, if_neg (by decide), if_neg (by simp), g4, if_neg (by decide), if_neg (by simp),
      g3, if_neg (by decide), if_neg (by simp), t2]
  have hsp : specific env d6 = .ok d6 := by
    unfold specific
    simp only [getKey_ok t6, asText, bind, Except.bind]
    have hs1 := hs.1
    simp only [List.mem_cons, List.not_mem_nil, or_false, not_or] at hs1
    obtain ⟨a1, a2, a3, a4, a5, a6⟩ := hs1
    rw [if_neg a1, if_neg a2, if_neg a3, if_neg (by simp only [a4, a5, a6, or_self, not_false_eq_true])]
    rfl
  have i6 : Dict.get? d6 "ifname" = some (.str name) := by
    rw [g6, if_neg (by decide), if_neg (by decide), g5, if_neg (by decide), if_neg (by simp), g4, if_neg (by decide), if_neg (by simp),
      g3, if_neg (by decide), if_neg (by simp), g2, if_pos rfl]
  have hbv : checkBridgeVlan dsa [] d6 = .ok d6 := by
    unfold checkBridgeVlan
    cases dsa with
    | false => rfl
    | true => rw [i6]; simp
  rw [hsp]
  dsimp only
  rw [hbv]
  refine ⟨_, rfl, Dict.nodup_erase n6 _, ?_⟩
  intro k
  rw [Dict.get?_erase', g6, g5, g4, g4]
  simp only [g3, g2, g1, hg, String.reduceEq, if_false, false_and]
  clear * - r
  unfold blockItem
  by_cases c1 : k = ".type"
  · subst c1; simp
  by_cases c2 : k = ".name"
  · subst c2; simp
  by_cases c3 : k = "ifname"
  · subst c3; simp
  by_cases c4 : k = "gateway"
  · subst c4; simp [r "gateway" (by decide)]
  by_cases c5 : k = "ip6gw"
  · subst c5; simp [r "ip6gw" (by decide)]
  by_cases c6 : k = "auto"
  · subst c6
    have := r "auto" (by decide)
    cases h : Dict.get? d "autostart" <;> simp [this]
  by_cases c7 : k = "enabled"
  · subst c7
    have := r "enabled" (by decide)
    cases h : Dict.get? d "disabled" <;> simp [this]
  by_cases c8 : k = "macaddr"
  · subst c8
    have := r "macaddr" (by decide)
    cases h : Dict.get? d "mac" <;> simp [this]
  by_cases c9 : k = "wireless"
  · subst c9; simp [r "wireless" (by decide)]
  simp only [c1, c2, c3, c4, c5, c6, c7, c8, c9, if_false, false_and, List.mem_cons, List.not_mem_nil, or_false]
  by_cases e1 : k = "network"
  · simp [e1]
  by_cases e2 : k = "addresses"
  · simp [e2]
  by_cases e3 : k = "disabled"
  · simp [e3]
  by_cases e4 : k = "autostart"
  · simp [e4]
  by_cases e5 : k = "mac"
  · simp [e5]
  by_cases e6 : k = "name"
  · simp [e6]
  simp [e1, e2, e3, e4, e5, e6]

/-! ## Options of layer 2 -/

theorem moveAll_get (ks : List String) (p : VDict × VDict) :
    (∀ k, Dict.get? (ks.foldl moveOption p).2 k = if k ∈ ks then none else Dict.get? p.2 k) ∧
    (∀ k, Dict.get? (ks.foldl moveOption p).1 k = if k ∈ ks then (Dict.get? p.2 k).or (Dict.get? p.1 k) else Dict.get? p.1 k) ∧
    ((Dict.keys p.1).Nodup → (Dict.keys (ks.foldl moveOption p).1).Nodup) ∧
    ((Dict.keys p.2).Nodup → (Dict.keys (ks.foldl moveOption p).2).Nodup) := by
  induction ks generalizing p with
  | nil => simp
  | cons x xs ih =>
    rw [List.foldl_cons]
    obtain ⟨h1, h2, h3, h4⟩ := ih (moveOption p x)
    have m2 : ∀ k, Dict.get? (moveOption p x).2 k = if k = x then none else Dict.get? p.2 k := by
      intro k
      unfold moveOption
      cases hx : Dict.get? p.2 x with
      | none => by_cases hk : k = x <;> simp [hk, hx]
      | some v => simp only [Dict.get?_erase']
    have m1 : ∀ k, Dict.get? (moveOption p x).1 k = if k = x then (Dict.get? p.2 k).or (Dict.get? p.1 k) else Dict.get? p.1 k := by
      intro k
      unfold moveOption
      cases hx : Dict.get? p.2 x with
      | none => by_cases hk : k = x <;> simp [hk, hx]
      | some v => simp only [Dict.get?_set']; by_cases hk : k = x <;> simp [hk, hx]
    have m3 : (Dict.keys p.1).Nodup → (Dict.keys (moveOption p x).1).Nodup := by
      intro h
      unfold moveOption
      split
      · exact Dict.nodup_set h _ _
      · exact h
    have m4 : (Dict.keys p.2).Nodup → (Dict.keys (moveOption p x).2).Nodup := by
      intro h
      unfold moveOption
      split
      · exact Dict.nodup_erase h _
      · exact h
    refine ⟨?_, ?_, fun h => h3 (m3 h), fun h => h4 (m4 h)⟩
    · intro k
      rw [h1, m2]
      by_cases a : k = x <;> by_cases b : k ∈ xs <;> simp [a, b]
    · intro k
      rw [h2, m1, m2]
      by_cases a : k = x <;> by_cases b : k ∈ xs <;> simp [a, b]

theorem dict_empty {d : VDict} (h : ∀ k, Dict.get? d k = none) : d = [] := by
  cases d with
  | nil => rfl
  | cons p r => have := h p.1; rw [Dict.get?_cons_self] at this; cases this

/-- the options that go to the device -/
def l2Item (d : VDict) (k : String) : Option Val :=
  if k = "mtu" then Dict.get? d "mtu" else if k = "macaddr" then Dict.get? d "mac" else none

theorem addL2_ok {env : Env} {name : String} {network : Option String} {g : Group} {d i : VDict} {uci : Chars}
    (h : IfaceOK env name network g d) (hi : (Dict.keys i).Nodup) (hg : ∀ k, Dict.get? i k = blockItem uci name g d k) :
    (∀ k, Dict.get? (addL2 [] i).1 k = l2Item d k) ∧ (Dict.keys (addL2 [] i).1).Nodup ∧ (Dict.keys (addL2 [] i).2).Nodup ∧
      ∀ k, Dict.get? (addL2 [] i).2 k = if k = "mtu" ∨ k = "macaddr" then none else Dict.get? i k := by
  obtain ⟨m1, m2, m3, m4⟩ := moveAll_get l2Options ([], i)
  have m3 := m3 (by simp)
  have m4 := m4 hi
  have hl2 : ∀ k ∈ l2Options, k ≠ "mtu" → Dict.get? i k = none := by
    intro k hk hm
    have hr : Dict.get? d k = none := h.reserved k (by
      unfold reservedOptions
      exact List.mem_append_right _ (List.mem_filter.2 ⟨hk, by simpa using hm⟩))
    rw [hg]
    unfold blockItem
    simp only [l2Options, List.mem_cons, List.not_mem_nil, or_false] at hk
    rcases hk with rfl | rfl | rfl | rfl | rfl | rfl | rfl | rfl | rfl | rfl | rfl | rfl | rfl | rfl <;>
      first | exact absurd rfl hm | (simp; exact hr)
  have hmtu : Dict.get? i "mtu" = Dict.get? d "mtu" := by rw [hg]; simp [blockItem]
  have hmac : Dict.get? i "macaddr" = Dict.get? d "mac" := by rw [hg]; simp [blockItem]
  have q2 : ∀ k, Dict.get? (l2Options.foldl moveOption ([], i)).2 k = if k = "mtu" then none else Dict.get? i k := by
    intro k
    rw [m1]
    by_cases hk : k ∈ l2Options
    · rw [if_pos hk]
      by_cases hm : k = "mtu"
      · rw [if_pos hm]
      · rw [if_neg hm]; exact (hl2 k hk hm).symm
    · rw [if_neg hk, if_neg]
      intro e; subst e; exact hk (by decide)
  have q1 : ∀ k, Dict.get? (l2Options.foldl moveOption ([], i)).1 k = if k = "mtu" then Dict.get? d "mtu" else none := by
    intro k
    rw [m2]
    simp only [Dict.get?_nil, Option.or_none]
    by_cases hm : k = "mtu"
    · subst hm; rw [if_pos (by decide), if_pos rfl, hmtu]
    · rw [if_neg hm]
      by_cases hk : k ∈ l2Options
      · rw [if_pos hk]; exact hl2 k hk hm
      · rw [if_neg hk]
  unfold addL2
  dsimp only
  generalize hq : l2Options.foldl moveOption ([], i) = q at m1 m2 m3 m4 q1 q2
  have e2 : Dict.get? q.2 "macaddr" = Dict.get? d "mac" := by rw [q2, if_neg (by decide), hmac]
  cases hm : Dict.get? d "mac" with
  | none =>
    have hf : ((Dict.get? q.2 "macaddr").getD .none).truthy = false := by rw [e2, hm]; rfl
    rw [hf]
    simp only [Bool.false_eq_true, if_false]
    refine ⟨?_, m3, m4, ?_⟩
    · intro k; rw [q1]; unfold l2Item
      by_cases c : k = "mtu"
      · simp [c]
      · by_cases c2 : k = "macaddr" <;> simp [c, c2, hm]
    · intro k; rw [q2]
      by_cases c : k = "mtu"
      · simp [c]
      · by_cases c2 : k = "macaddr"
        · simp [c2]; rw [hmac, hm]
        · simp [c, c2]
  | some v =>
    obtain ⟨s, rfl, hs, _⟩ := h.mac v hm
    have hf : ((Dict.get? q.2 "macaddr").getD .none).truthy = true := by rw [e2, hm]; simpa [Val.truthy] using hs
    rw [hf]
    simp only [if_true]
    have e3 : moveOption q "macaddr" = (Dict.set q.1 "macaddr" (.str s), Dict.erase q.2 "macaddr") := by
      unfold moveOption; rw [e2, hm]
    rw [e3]
    refine ⟨?_, Dict.nodup_set m3 _ _, Dict.nodup_erase m4 _, ?_⟩
    · intro k
      dsimp only
      rw [Dict.get?_set', q1]; unfold l2Item
      by_cases c : k = "mtu"
      · simp [c]
      · by_cases c2 : k = "macaddr" <;> simp [c, c2, hm]
    · intro k
      dsimp only
      rw [Dict.get?_erase', q2]
      by_cases c : k = "mtu"
      · simp [c]
      · by_cases c2 : k = "macaddr" <;> simp [c, c2]

/-- are there options for the device -/
def hasL2 (d : VDict) : Bool := Dict.has d "mtu" || Dict.has d "mac"

/-- the device of an interface -/
def devItem (uci : Chars) (name : String) (d : VDict) (k : String) : Option Val :=
  if k = ".type" then some (.str "device")
  else if k = ".name" then some (txt ("device_".toList ++ uci))
  else if k = "name" then some (.str name)
  else l2Item d k

/-- the section without the options of the device -/
def dsaItem (uci : Chars) (name : String) (g : Group) (d : VDict) (k : String) : Option Val :=
  if k = "mtu" ∨ k = "macaddr" then none else if k = "device" then some (.str name) else blockItem uci name g d k

theorem word_truthy {s : String} (h : IsWord s.toList) : (Val.str s).truthy = true := by
  simp only [Val.truthy, bne_iff_ne, ne_eq]
  rintro rfl
  exact h.1 rfl

theorem ifaceDevice_eth {env : Env} {name : String} {network : Option String} {g : Group} {d i : VDict} {uci : Chars}
    (h : EthOK env name network g d) (hi : (Dict.keys i).Nodup) (hg : ∀ k, Dict.get? i k = blockItem uci name g d k) :
    ∃ D i', ifaceDevice env i = .ok (D, i') ∧ (Dict.keys i').Nodup ∧ (∀ k, Dict.get? i' k = dsaItem uci name g d k) ∧
      (if hasL2 d then (Dict.keys D).Nodup ∧ ∀ k, Dict.get? D k = devItem uci name d k else D = []) := by
  obtain ⟨a1, a2, a3, a4⟩ := addL2_ok h.toIfaceOK hi hg
  unfold ifaceDevice
  generalize addL2 [] i = p at a1 a2 a3 a4
  obtain ⟨l2, j⟩ := p
  dsimp only at a1 a2 a3 a4 ⊢
  have e1 : Dict.get? j ".name" = some (txt uci) := by rw [a4, if_neg (by decide), hg]; simp [blockItem]
  have e2 : Dict.get? j "ifname" = some (.str name) := by rw [a4, if_neg (by decide), hg]; simp [blockItem]
  have e3 : Dict.get? j "device" = none := by
    rw [a4, if_neg (by decide), hg]; simp [blockItem]; exact h.reserved _ (by decide)
  have e4 : Dict.get? (Dict.set j "device" (.str name)) "type" =
      some (.str (ethType name)) := by
    rw [Dict.get?_set', if_neg (by decide), a4, if_neg (by decide), hg]; simp only [blockItem]
    simp only [String.reduceEq, if_false, List.mem_cons, List.not_mem_nil, or_false]
    exact h.type
  have hw := word_truthy h.word
  rw [getKey_ok e1, getKey_ok e2]
  simp only [bind, Except.bind]
  rw [e3]
  simp only [Option.getD_none, Val.truthy, Bool.false_eq_true, if_false]
  rw [getKey_ok e4]
  simp only [asText]
  have t1 : ¬ "8021".toList <+: (ethType name).toList := by unfold ethType; split <;> decide
  have t2 : (ethType name).toList ≠ "bridge".toList := by unfold ethType; split <;> decide
  simp only [t1, if_false, pure, Except.pure, not_false_eq_true, and_true]
  rw [if_pos t2]
  refine ⟨_, _, rfl, Dict.nodup_set a3 _ _, ?_, ?_⟩
  · intro k
    rw [Dict.get?_set', a4, hg]
    unfold dsaItem
    by_cases c : k = "device"
    · subst c; simp
    · simp only [c, if_false]
  · have hemp : l2.isEmpty = !hasL2 d := by
      unfold hasL2 Dict.has
      cases hm : Dict.get? d "mtu" with
      | some v =>
        have := a1 "mtu"
        cases l2 with
        | nil => rw [l2Item, if_pos rfl, hm] at this; cases this
        | cons x xs => simp
      | none =>
        cases hm2 : Dict.get? d "mac" with
        | some v =>
          have := a1 "macaddr"
          cases l2 with
          | nil => rw [l2Item, if_neg (by decide), if_pos rfl, hm2] at this; cases this
          | cons x xs => simp
        | none =>
          have : l2 = [] := dict_empty (fun k => by rw [a1]; unfold l2Item; split; exact hm; split; exact hm2; rfl)
          rw [this]; rfl
    rw [hemp]
    cases hasL2 d with
    | false => simp
    | true =>
      simp only [Bool.not_true, Bool.false_eq_true, if_false, if_true]
      refine ⟨Dict.nodup_update a2 _, ?_⟩
      intro k
      rw [Dict.update_cons, Dict.update_cons, Dict.update_cons, Dict.update_nil, Dict.get?_set', Dict.get?_set', Dict.get?_set', a1]
      unfold devItem
      by_cases c1 : k = "name"
      · subst c1; simp
      by_cases c2 : k = ".name"
      · subst c2; simp only [String.reduceEq, if_false, if_true, txt, pyStr, String.ofList_append, String.ofList_toList]
      by_cases c3 : k = ".type"
      · subst c3; simp
      simp [c1, c2, c3]

/-! ## The section -/

/-- the section of an Ethernet interface -/
def ethItem (env : Env) (dsa : Bool) (servers search : List String) (uci : Chars) (name : String) (g : Group) (d : VDict) (k : String) : Option Val :=
  if k = "dns" then some (joinedNames (serversOf servers g))
  else if k = "dns_search" then some (joinedNames (searchOf search g))
  else if k ∈ ["proto", "ipaddr", "netmask", "ip6addr"] then groupItem env g k
  else if k = "type" then none
  else if dsa then (if k = "ifname" then none else dsaItem uci name g d k)
  else blockItem uci name g d k

theorem joinedOf_ok {config : VDict} {k : String} {names : List String} (h : namesOf config k names) : joinedOf config k = .ok (joinedNames names) := by
  unfold joinedOf joinedNames
  rcases h.1 with ⟨rfl, h1⟩ | h1
  · rw [h1]; rfl
  · rw [h1]
    cases names with
    | nil => rfl
    | cons x xs =>
      simp only [Option.getD_some, List.map_cons, Val.truthy, List.isEmpty_cons, Bool.not_false, if_true, reduceCtorEq, if_false]
      have : ∀ l : List String, (l.map Val.str).mapM textItem = .ok (l.map String.toList) := by
        intro l
        induction l with
        | nil => rfl
        | cons y ys ih => rw [List.map_cons, mapM_ok_cons]; exact ⟨_, _, rfl, ih, rfl⟩
      have h2 := this (x :: xs)
      rw [List.map_cons] at h2
      show ((Val.str x :: List.map Val.str xs).mapM textItem >>= _) = _
      rw [h2]; rfl

theorem dns_ok {config : VDict} {servers search : List String} (h : DnsOK config servers search) {env : Env} {g : Group} {d : VDict}
    {proto : Val} (hp : groupItem env g "proto" = some proto) (h1 : Dict.get? d "dns" = none) (h2 : Dict.get? d "dns_search" = none) :
    dnsValue config "dns" "dns_servers" [.str "dhcp", .str "dhcpv6", .str "none"] d proto = .ok (joinedNames (serversOf servers g)) ∧
    dnsValue config "dns_search" "dns_search" [.str "none"] d proto = .ok (joinedNames (searchOf search g)) := by
  unfold dnsValue
  rw [h1, h2]
  cases g with
  | none => cases hp; exact ⟨rfl, rfl⟩
  | dhcp v6 =>
    simp only [groupItem, if_true, Option.some.injEq] at hp
    subst hp
    cases v6
    · simp only [serversOf, searchOf, joinedOf_ok h.search]; exact ⟨rfl, rfl⟩
    · simp only [serversOf, searchOf, joinedOf_ok h.search]; exact ⟨rfl, rfl⟩
  | static as =>
    simp only [groupItem, staticItem, if_true, Option.some.injEq] at hp
    subst hp
    simp only [serversOf, searchOf, joinedOf_ok h.search, joinedOf_ok h.servers]; exact ⟨rfl, rfl⟩

/-- the section of one group of addresses, for all kinds of interfaces; `f` is what the bridge step leaves -/
theorem ifaceSection_ok {config : VDict} {servers search : List String} (hdns : DnsOK config servers search) {env : Env} {g : Group}
    {isdsa : Bool} {uci : Chars} {i A : VDict} (hi : (Dict.keys i).Nodup) (hA : (Dict.keys A).Nodup) (hgA : ∀ k, Dict.get? A k = groupItem env g k)
    (h1 : Dict.get? i "dns" = none) (h2 : Dict.get? i "dns_search" = none) (h3 : Dict.get? i "proto" = none) {item f : String → Option Val}
    (hitem : ∀ k, Dict.get? i k = item k)
    (hbr : ∀ d, (Dict.keys d).Nodup → (∀ k, Dict.get? d k = if k = "dns" then some (joinedNames (serversOf servers g))
      else if k = "dns_search" then some (joinedNames (searchOf search g)) else if k = "proto" then groupItem env g k else item k) →
      ∃ d', bridgeSection isdsa 1 d = .ok d' ∧ (Dict.keys d').Nodup ∧ ∀ k, Dict.get? d' k = f k) :
    ∃ S, ifaceSection config isdsa uci i 1 A = .ok S ∧ (Dict.keys S).Nodup ∧
      ∀ k, Dict.get? S k = if k ∈ ["ipaddr", "netmask", "ip6addr"] then (groupItem env g k).or (f k) else f k := by
  obtain ⟨proto, hproto⟩ : ∃ proto, groupItem env g "proto" = some proto := by cases g <;> exact ⟨_, rfl⟩
  obtain ⟨e1, e2⟩ := dns_ok hdns hproto h1 h2
  unfold ifaceSection
  have hAp : Dict.get? A "proto" = some proto := by rw [hgA, hproto]
  simp only [gt_iff_lt, Nat.lt_irrefl, if_false, getKey_ok hAp, bind, Except.bind, e1, e2, h3, Option.getD_none]
  obtain ⟨d', b1, b2, b3⟩ := hbr (Dict.update (Dict.erase i "proto")
      [("dns", joinedNames (serversOf servers g)), ("dns_search", joinedNames (searchOf search g)), ("proto", proto)])
    (Dict.nodup_update (Dict.nodup_erase hi _) _) (by
      intro k
      rw [Dict.update_cons, Dict.update_cons, Dict.update_cons, Dict.update_nil, Dict.get?_set', Dict.get?_set', Dict.get?_set', Dict.get?_erase', hitem]
      by_cases c1 : k = "proto"
      · subst c1; simp [hproto]
      by_cases c2 : k = "dns_search"
      · subst c2; simp
      by_cases c3 : k = "dns"
      · subst c3; simp
      simp only [c1, c2, c3, if_false])
  rw [b1]
  dsimp only
  have n : (Dict.keys (Dict.update d' (Dict.erase A "proto"))).Nodup := Dict.nodup_update b2 _
  refine ⟨_, rfl, sortedDict_nodup n, ?_⟩
  intro k
  rw [get?_sortedDict n, Dict.get?_update _ _ (Dict.nodup_erase hA _), Dict.get?_erase', hgA, b3]
  by_cases c1 : k = "proto"
  · subst c1; simp
  rw [if_neg c1]
  by_cases c2 : k ∈ ["ipaddr", "netmask", "ip6addr"]
  · rw [if_pos c2]
  · rw [if_neg c2]
    have : groupItem env g k = none := by
      simp only [List.mem_cons, List.not_mem_nil, or_false, not_or] at c2
      cases g with
      | none => simp [groupItem, c1]
      | dhcp v6 => simp [groupItem, c1]
      | static as => simp [groupItem, staticItem, c1, c2]
    rw [this, Option.none_or]

theorem eraseAll_get (ks : List String) (d : VDict) (hn : (Dict.keys d).Nodup) :
    (Dict.keys (ks.foldl Dict.erase d)).Nodup ∧ ∀ k, Dict.get? (ks.foldl Dict.erase d) k = if k ∈ ks then none else Dict.get? d k := by
  refine ⟨?_, fun k => Dict.get?_foldl_erase ks d k⟩
  induction ks generalizing d with
  | nil => exact hn
  | cons x xs ih => exact ih _ (Dict.nodup_erase hn _)

/-- what `__clean_intermediate_bridge` removes -/
def cleanKeys : List String := ["ifname", "type", "bridge_members"] ++ stpOptions ++ igmpOptions ++ allOptions

theorem cleanBridge_get (isdsa : Bool) {d : VDict} (hn : (Dict.keys d).Nodup) :
    (Dict.keys (cleanBridge isdsa d)).Nodup ∧
      ∀ k, Dict.get? (cleanBridge isdsa d) k = if isdsa = true ∧ k ∈ cleanKeys then none else Dict.get? d k := by
  unfold cleanBridge
  cases isdsa with
  | false => exact ⟨hn, fun k => by simp⟩
  | true =>
    simp only [if_true, true_and]
    exact eraseAll_get cleanKeys d hn

/-- Ethernet: the type goes, and in DSA the rest that belongs to devices -/
theorem bridgeSection_eth {isdsa : Bool} {i : Nat} {t : String} (ht : t ≠ "bridge") {d : VDict} (hn : (Dict.keys d).Nodup)
    (hg : Dict.get? d "type" = some (.str t)) :
    ∃ d', bridgeSection isdsa i d = .ok d' ∧ (Dict.keys d').Nodup ∧
      ∀ k, Dict.get? d' k = if k = "type" ∨ (isdsa = true ∧ k ∈ cleanKeys) then none else Dict.get? d k := by
  unfold bridgeSection
  have ht : Val.str t ≠ .str "bridge" := by intro e; cases e; exact ht rfl
  simp only [getKey_ok hg, bind, Except.bind, ht, if_false]
  obtain ⟨h1, h2⟩ := cleanBridge_get isdsa (Dict.nodup_erase hn "type")
  refine ⟨_, rfl, h1, fun k => ?_⟩
  rw [h2, Dict.get?_erase']
  by_cases c1 : k = "type"
  · simp [c1]
  · simp only [c1, false_or, if_false]

theorem simple_eth (name : String) : simpleType (ethType name) := by
  unfold simpleType ethType
  split <;> decide

theorem EthOK.clean {env : Env} {name : String} {network : Option String} {g : Group} {d : VDict} (h : EthOK env name network g d) {k : String}
    (hk : k ∈ cleanKeys) (h1 : k ≠ "ifname") (h2 : k ≠ "type") (h3 : k ≠ "mtu") : Dict.get? d k = none := by
  unfold cleanKeys at hk
  simp only [List.mem_append] at hk
  rcases hk with ((hk | hk) | hk) | hk
  · simp only [List.mem_cons, List.not_mem_nil, or_false] at hk
    rcases hk with rfl | rfl | rfl
    · exact absurd rfl h1
    · exact absurd rfl h2
    · exact h.noBridge _ (by decide)
  · exact h.noBridge _ (by unfold bridgeOptions; simp [hk])
  · exact h.noBridge _ (by unfold bridgeOptions; simp [hk])
  · simp only [allOptions, List.mem_cons, List.not_mem_nil, or_false] at hk
    rcases hk with rfl | rfl | rfl
    · exact h.reserved _ (by decide)
    · exact h.reserved _ (by decide)
    · exact absurd rfl h3

/-- the blocks of an interface, added to those there are -/
def addUnit (sh : Val → Bool) (D : Option VDict) (S result : VDict) : Except PyErr (List Val × VDict) := do
  let r ← addSection sh (match D with
    | none => result
    | some D => appendTo result "network" [.dict D]) S
  pure ([], r)

theorem network_name {env : Env} {name : String} {network : Option String} {g : Group} {d : VDict} (h : IfaceOK env name network g d) :
    (let n := (Dict.get? d "network").getD .none
      if n.truthy then pure n else getKey d "name" : Except PyErr Val) = .ok (.str (network.getD name)) := by
  rw [h.networkOk]
  cases network with
  | none => simp only [Option.map_none, Option.getD_none, Val.truthy, Bool.false_eq_true, if_false]; exact getKey_ok h.nameOk
  | some n =>
    have := word_truthy (h.networkWord n rfl).1
    simp only [Option.map_some, Option.getD_some, this, if_true]; rfl

theorem eth_types (name : String) : ethType name ≠ "wireguard" ∧ ethType name ≠ "wireless" ∧ ethType name ≠ "bridge" ∧
    Val.str (ethType name) ∈ dsaTypes := by
  unfold ethType
  split <;> decide

theorem erase_absent {d : VDict} {k : String} (h : Dict.get? d k = none) : Dict.erase d k = d :=
  Dict.erase_not_mem d k ((Dict.get?_eq_none_iff d k).1 h)

/-- without VLANs -/
theorem dsaSections_plain {env : Env} {uci : Chars} {i D i' : VDict} (hv : Dict.get? i "vlan_filtering" = none)
    (hd : ifaceDevice env i = .ok (D, i')) (result : VDict) :
    dsaSections env [] uci i result = .ok (i', [], if D.isEmpty then result else appendTo result "network" [.dict (sortedDict D)]) := by
  unfold dsaSections popOr
  rw [hv, erase_absent hv]
  simp only [Option.getD_none, Val.truthy, List.isEmpty_nil, Bool.not_true, Bool.false_eq_true, if_false, hd, bind, Except.bind, vlanList,
    List.mapM_nil, pure, Except.pure, List.map_nil, pushNetwork, List.append_nil]

/-- An Ethernet interface becomes one section, and in DSA one device if it has an option of layer 2. -/
theorem eth_forward {env : Env} {dsa : Bool} {config : VDict} {servers search : List String} (hdns : DnsOK config servers search) {name : String}
    {network : Option String} {g : Group} {d : VDict} (h : EthOK env name network g d) :
    ∃ D S, (∀ sh result, ifaceFwd sh env dsa config ([], result) (.dict d) = addUnit sh D S result) ∧
      (Dict.keys S).Nodup ∧ (∀ k, Dict.get? S k = ethItem env dsa servers search (sectionName name network) name g d k) ∧
      (match D with
        | none => dsa = false ∨ hasL2 d = false
        | some D => dsa = true ∧ hasL2 d = true ∧ (Dict.keys D).Nodup ∧ ∀ k, Dict.get? D k = devItem (sectionName name network) name d k) := by
  have hs := simple_eth name
  obtain ⟨b', A, a1, a2, a3, a4, a5⟩ := addresses_forward h.nodup h.group h.type
    (by intro e; exact (eth_types name).1 (by injection e)) (by intro e; exact (eth_types name).2.1 (by injection e))
  obtain ⟨i, i1, i2, i3⟩ := ifaceBlock_ok (dsa := dsa) (uci := sectionName name network) h.toIfaceOK h.type hs a2 a5
  -- the device
  obtain ⟨D, j, d1, d2, d3, d4⟩ : ∃ D j, (∀ result, (if dsa = true then dsaSections env [] (sectionName name network) i result else pure (i, [], result)) =
      .ok (j, [], match D with
        | none => result
        | some D => appendTo result "network" [.dict D])) ∧ (Dict.keys j).Nodup ∧
      (∀ k, Dict.get? j k = if dsa then dsaItem (sectionName name network) name g d k else blockItem (sectionName name network) name g d k) ∧
      (match D with
        | none => dsa = false ∨ hasL2 d = false
        | some D => dsa = true ∧ hasL2 d = true ∧ (Dict.keys D).Nodup ∧ ∀ k, Dict.get? D k = devItem (sectionName name network) name d k) := by
    cases dsa with
    | false => exact ⟨none, i, fun _ => rfl, i2, by simpa using i3, .inl rfl⟩
    | true =>
      obtain ⟨D, j, e1, e2, e3, e4⟩ := ifaceDevice_eth h i2 i3
      have hv : Dict.get? i "vlan_filtering" = none := by rw [i3]; simp [blockItem]; exact h.reserved _ (by decide)
      cases hl : hasL2 d with
      | false =>
        rw [hl] at e4
        have e4 : D = [] := by simpa using e4
        refine ⟨none, j, fun result => ?_, e2, by simpa using e3, .inr rfl⟩
        rw [if_pos rfl, dsaSections_plain hv e1, e4]; rfl
      | true =>
        rw [hl] at e4
        have e4 : (Dict.keys D).Nodup ∧ ∀ k, Dict.get? D k = devItem (sectionName name network) name d k := by simpa using e4
        refine ⟨some (sortedDict D), j, fun result => ?_, e2, by simpa using e3, rfl, rfl, sortedDict_nodup e4.1, fun k => ?_⟩
        · rw [if_pos rfl, dsaSections_plain hv e1]
          have : D.isEmpty = false := by
            cases D with
            | nil => have := e4.2 ".type"; simp [devItem] at this
            | cons _ _ => rfl
          rw [this]; rfl
        · rw [get?_sortedDict e4.1, e4.2]
  -- the section
  have hres : ∀ k ∈ ["dns", "dns_search", "proto", "vlan_filtering", "ipaddr", "netmask", "ip6addr"], Dict.get? j k = none := by
    intro k hk
    rw [d3]
    have : Dict.get? d k = none := h.reserved k (by
      simp only [List.mem_cons, List.not_mem_nil, or_false] at hk
      rcases hk with rfl | rfl | rfl | rfl | rfl | rfl | rfl <;> decide)
    simp only [List.mem_cons, List.not_mem_nil, or_false] at hk
    unfold dsaItem blockItem
    rcases hk with rfl | rfl | rfl | rfl | rfl | rfl | rfl <;> simp <;> exact this
  have htype : Dict.get? j "type" = some (.str (ethType name)) := by
    rw [d3]; unfold dsaItem blockItem; simp; exact h.type
  obtain ⟨S, s1, s2, s3⟩ := ifaceSection_ok hdns (env := env) (g := g) (isdsa := dsa) (uci := sectionName name network) d2 a3 a4
    (hres _ (by simp)) (hres _ (by simp)) (hres _ (by simp)) (item := fun k => Dict.get? j k)
    (f := fun k => if k = "type" ∨ (dsa = true ∧ k ∈ cleanKeys) then none else if k = "dns" then some (joinedNames (serversOf servers g))
      else if k = "dns_search" then some (joinedNames (searchOf search g)) else if k = "proto" then groupItem env g k else Dict.get? j k)
    (fun _ => rfl) (by
      intro x hx gx
      obtain ⟨y, y1, y2, y3⟩ := bridgeSection_eth (isdsa := dsa) (i := 1) (eth_types name).2.2.1 hx (by rw [gx]; simpa using htype)
      exact ⟨y, y1, y2, fun k => by rw [y3, gx]⟩)
  refine ⟨D, S, ?_, s2, ?_, d4⟩
  · intro sh result
    have hproto : Dict.get? i "proto" = none := by rw [i3]; simp [blockItem]; exact h.reserved _ (by decide)
    have hdsa : isDsa dsa [] i = dsa := by
      unfold isDsa
      have hit : Dict.get? i "type" = some (.str (ethType name)) := by rw [i3]; simp [blockItem]; exact h.type
      rw [hproto, hit]
      have := (eth_types name).2.2.2
      simp [this]
    unfold ifaceFwd
    simp only [asDict, bind, Except.bind]
    have hnn := network_name h.toIfaceOK
    dsimp only at hnn
    rw [hnn]
    simp only [asText, a1]
    have i1' : ifaceBlock env dsa [] (uciName (network.getD name).toList) b' = .ok i := i1
    have s1' : ifaceSection config dsa (uciName (network.getD name).toList) j 1 A = .ok S := s1
    rw [i1']
    dsimp only
    rw [hdsa]
    have := d1 result
    simp only [sectionName] at this
    rw [this]
    simp only [addSections, s1', bind, Except.bind, pure, Except.pure]
    unfold addUnit
    simp only [bind, Except.bind, pure, Except.pure]
    generalize addSection sh _ S = x
    cases x <;> rfl
  · intro k
    rw [s3]
    unfold ethItem
    clear * - h hres htype d3
    by_cases c1 : k = "dns"
    · subst c1; simp [cleanKeys, stpOptions, igmpOptions, allOptions]
    by_cases c2 : k = "dns_search"
    · subst c2; simp [cleanKeys, stpOptions, igmpOptions, allOptions]
    by_cases c3 : k = "proto"
    · subst c3; simp [cleanKeys, stpOptions, igmpOptions, allOptions]
    by_cases c4 : k ∈ ["ipaddr", "netmask", "ip6addr"]
    · have c4' : k ∈ ["proto", "ipaddr", "netmask", "ip6addr"] := List.mem_cons_of_mem _ c4
      have : k ∉ cleanKeys := by
        simp only [List.mem_cons, List.not_mem_nil, or_false] at c4
        rcases c4 with rfl | rfl | rfl <;> decide
      have hn := hres k (by simp only [List.mem_cons] at c4 ⊢; tauto)
      have c5 : k ≠ "type" := by rintro rfl; revert c4; decide
      simp only [this, and_false, c5, or_self, if_false, c1, c2, c3, hn, Option.or_none, c4, c4', if_true]
    · have c4' : k ∉ ["proto", "ipaddr", "netmask", "ip6addr"] := fun hm => (List.mem_cons.1 hm).elim c3 c4
      simp only [c4, c4', if_false]
      by_cases c5 : k = "type"
      · simp [c5]
      simp only [c5, false_or, c1, c2, c3, if_false, d3]
      cases dsa with
      | false => simp
      | true =>
        simp only [true_and, if_true]
        by_cases c6 : k = "ifname"
        · subst c6; simp [cleanKeys]
        rw [if_neg c6]
        by_cases c7 : k ∈ cleanKeys
        · rw [if_pos c7]
          unfold dsaItem
          by_cases c8 : k = "mtu"
          · simp [c8]
          by_cases c9 : k = "macaddr"
          · simp [c9]
          have := h.clean c7 c6 c5 c8
          have hb : blockItem (sectionName name network) name g d k = none := by
            unfold blockItem
            have : ∀ x ∈ [".type", ".name", "ifname", "gateway", "ip6gw", "auto", "enabled", "macaddr"], k ≠ x ∨ k = "ifname" ∨ k = "macaddr" := by
              intro x hx
              by_cases e : k = x
              · subst e
                simp only [List.mem_cons, List.not_mem_nil, or_false] at hx
                rcases hx with rfl | rfl | rfl | rfl | rfl | rfl | rfl | rfl <;> revert c7 <;> decide
              · exact .inl e
            have ne : ∀ x ∈ [".type", ".name", "ifname", "gateway", "ip6gw", "auto", "enabled", "macaddr"], k ≠ x := by
              intro x hx
              rcases this x hx with e | e | e
              · exact e
              · exact absurd e c6
              · exact absurd e c9
            rw [if_neg (ne _ (by simp)), if_neg (ne _ (by simp)), if_neg (ne _ (by simp)), if_neg (ne _ (by simp)), if_neg (ne _ (by simp)),
              if_neg (ne _ (by simp)), if_neg (ne _ (by simp)), if_neg (ne _ (by simp))]
            split
            · rfl
            · assumption
          rw [if_neg (by simp only [c8, c9, or_self, not_false_eq_true]), if_neg, hb]
          rintro rfl; revert c7; decide
        · rw [if_neg c7]

/-! ## The blocks are plain -/

theorem joinedNames_plain {names : List String} (h : ∀ s ∈ names, IsWord s.toList) : PlainVal (joinedNames names) := by
  unfold joinedNames
  split
  · exact trivial
  · simp only [txt, PlainVal, String.toList_ofList]
    exact joinWords_plain _ (by simpa using h)

theorem DnsOK.joined {config : VDict} {servers search : List String} (h : DnsOK config servers search) (g : Group) :
    PlainVal (joinedNames (serversOf servers g)) ∧ PlainVal (joinedNames (searchOf search g)) := by
  constructor
  · cases g
    · exact trivial
    · exact trivial
    · exact joinedNames_plain h.servers.2
  · cases g
    · exact trivial
    · exact joinedNames_plain h.search.2
    · exact joinedNames_plain h.search.2

theorem full_plain {env : Env} {a : Addr} (h : a.Readable env) : PlainText (a.full env) := by
  unfold Addr.full
  have h1 := h.hostPlain
  have h2 : PlainText (showNat a.plen) := showInt_plain (a.plen : Int)
  refine ⟨?_, noBlanks_sep (by decide) h1.2 h2.2⟩
  intro c hc
  rcases List.mem_append.1 hc with hc | hc
  · exact h1.1 c hc
  · rcases List.mem_cons.1 hc with rfl | hc
    · decide
    · exact h2.1 c hc

theorem groupItem_plain {env : Env} {g : Group} (h : GroupRead env g) {k : String} {v : Val} (hv : groupItem env g k = some v) : PlainVal v := by
  cases g with
  | none =>
    simp only [groupItem] at hv
    split at hv
    · cases hv; exact (by decide : PlainText "none".toList)
    · cases hv
  | dhcp v6 =>
    simp only [groupItem] at hv
    split at hv
    · cases hv; cases v6
      · exact (by decide : PlainText "dhcp".toList)
      · exact (by decide : PlainText "dhcpv6".toList)
    · cases hv
  | static as =>
    obtain ⟨_, hr, _⟩ := h
    have hr' : ∀ v6, ∀ a ∈ ofVersion v6 as, a.Readable env := fun v6 a ha => hr a (List.mem_filter.1 ha).1
    have list_plain : ∀ l : List Addr, (∀ a ∈ l, a.Readable env) → PlainVal (.list (l.map (fun a => txt (a.full env)))) := by
      intro l hl v hv
      obtain ⟨a, ha, rfl⟩ := List.mem_map.1 hv
      exact ⟨_, rfl, by rw [String.toList_ofList]; exact full_plain (hl a ha)⟩
    simp only [groupItem, staticItem] at hv
    split at hv
    · cases hv; exact (by decide : PlainText "static".toList)
    · split at hv
      · have := hr' false
        split at hv
        · cases hv
        · next a e =>
          cases hv
          show PlainText (String.ofList _).toList
          rw [String.toList_ofList]; exact (this a (by rw [e]; simp)).hostPlain
        · cases hv; exact list_plain _ this
      · split at hv
        · split at hv
          · cases hv
            show PlainText (String.ofList _).toList
            rw [String.toList_ofList]; exact showIp4_plain _
          · cases hv
        · split at hv
          · have := hr' true
            split at hv
            · cases hv
            · next a e =>
              cases hv
              show PlainText (String.ofList _).toList
              rw [String.toList_ofList]; exact full_plain (this a (by rw [e]; simp))
            · cases hv; exact list_plain _ this
          · cases hv

theorem gw_plain {env : Env} {g : Group} (h : GroupRead env g) {v6 : Bool} {s : String} (hv : groupGw g v6 = some s) :
    s ≠ "" ∧ PlainText s.toList := by
  cases g with
  | none => cases hv
  | dhcp _ => cases hv
  | static as =>
    have hv : ((ofVersion v6 as).filterMap (·.gw)).getLast? = some s := hv
    have hm := List.mem_of_getLast? hv
    obtain ⟨a, ha, hs⟩ := List.mem_filterMap.1 hm
    rcases h.2.2 v6 with h1 | ⟨pre, b, post, t, i, e, hb, hno, h2, h3, _⟩
    · rw [h1 a ha] at hs; cases hs
    · rw [e] at ha
      rcases List.mem_append.1 ha with ha | ha
      · rw [hno a (by simp [ha])] at hs; cases hs
      · rcases List.mem_cons.1 ha with rfl | ha
        · rw [hb] at hs; cases hs; exact ⟨h2, h3⟩
        · rw [hno a (by simp [ha])] at hs; cases hs

theorem IfaceOK.uciWord {env : Env} {name : String} {network : Option String} {g : Group} {d : VDict} (h : IfaceOK env name network g d) :
    IsWord (sectionName name network) := by
  unfold sectionName
  cases network with
  | none => exact uciName_word h.word
  | some n => exact uciName_word (h.networkWord n rfl).1

/-- the values of a section -/
theorem IfaceOK.block_plain {env : Env} {name : String} {network : Option String} {g : Group} {d : VDict} (h : IfaceOK env name network g d)
    {uci : Chars} {k : String} {v : Val} (hv : blockItem uci name g d k = some v) (h1 : k ≠ ".type") (h2 : k ≠ ".name") (h3 : k ≠ "type")
    (h4 : k ∉ bridgeOptions) :
    IsWord k.toList ∧ k.toList.head? ≠ some '.' ∧ PlainVal v := by
  unfold blockItem at hv
  rw [if_neg h1, if_neg h2] at hv
  by_cases c3 : k = "ifname"
  · subst c3; rw [if_pos rfl] at hv; cases hv; exact ⟨by decide, by decide, isWord_plain h.word⟩
  rw [if_neg c3] at hv
  by_cases c4 : k = "gateway"
  · subst c4; rw [if_pos rfl] at hv
    obtain ⟨s, hs, rfl⟩ := Option.map_eq_some_iff.1 hv
    exact ⟨by decide, by decide, (gw_plain h.groupRead hs).2⟩
  rw [if_neg c4] at hv
  by_cases c5 : k = "ip6gw"
  · subst c5; rw [if_pos rfl] at hv
    obtain ⟨s, hs, rfl⟩ := Option.map_eq_some_iff.1 hv
    exact ⟨by decide, by decide, (gw_plain h.groupRead hs).2⟩
  rw [if_neg c5] at hv
  by_cases c6 : k = "auto"
  · subst c6; rw [if_pos rfl] at hv
    obtain ⟨b, rfl⟩ := h.autostart v hv
    exact ⟨by decide, by decide, trivial⟩
  rw [if_neg c6] at hv
  by_cases c7 : k = "enabled"
  · subst c7; rw [if_pos rfl] at hv
    obtain ⟨s, hs, rfl⟩ := Option.map_eq_some_iff.1 hv
    exact ⟨by decide, by decide, trivial⟩
  rw [if_neg c7] at hv
  by_cases c8 : k = "macaddr"
  · subst c8; rw [if_pos rfl] at hv
    obtain ⟨s, rfl, _, hs⟩ := h.mac v hv
    exact ⟨by decide, by decide, hs⟩
  rw [if_neg c8] at hv
  by_cases c9 : k ∈ ["name", "network", "addresses", "mac", "autostart", "disabled"]
  · rw [if_pos c9] at hv; cases hv
  rw [if_neg c9] at hv
  by_cases c10 : k = "mtu"
  · subst c10
    obtain ⟨i, rfl⟩ := h.mtu v hv
    exact ⟨by decide, by decide, trivial⟩
  · obtain ⟨o1, o2, o3⟩ := h.options k v hv (by
      intro hm
      unfold ifaceKeys at hm
      simp only [List.mem_cons, List.not_mem_nil, or_false] at hm c9
      rcases hm with rfl | rfl | rfl | rfl | rfl | rfl | rfl | rfl <;> simp at c9 c10 h3) h4
    exact ⟨o1, o2, survives_plain o3⟩

theorem EthOK.section_plain {env : Env} {dsa : Bool} {config : VDict} {servers search : List String} (hdns : DnsOK config servers search)
    {name : String} {network : Option String} {g : Group} {d S : VDict} (h : EthOK env name network g d) (hn : (Dict.keys S).Nodup)
    (hS : ∀ k, Dict.get? S k = ethItem env dsa servers search (sectionName name network) name g d k) : PlainBlock S where
  nodup := hn
  type := ⟨"interface", by rw [hS]; cases dsa <;> simp [ethItem, dsaItem, blockItem], by decide, by decide, by decide⟩
  name := ⟨String.ofList (sectionName name network), by rw [hS]; cases dsa <;> simp [ethItem, dsaItem, blockItem, txt], by
    rw [String.toList_ofList]; exact h.toIfaceOK.uciWord⟩
  options := by
    intro k v hv h1 h2
    rw [hS] at hv
    unfold ethItem at hv
    by_cases c1 : k = "dns"
    · subst c1; rw [if_pos rfl] at hv; cases hv; exact ⟨by decide, by decide, (hdns.joined g).1⟩
    rw [if_neg c1] at hv
    by_cases c2 : k = "dns_search"
    · subst c2; rw [if_pos rfl] at hv; cases hv; exact ⟨by decide, by decide, (hdns.joined g).2⟩
    rw [if_neg c2] at hv
    by_cases c3 : k ∈ ["proto", "ipaddr", "netmask", "ip6addr"]
    · rw [if_pos c3] at hv
      refine ⟨?_, ?_, groupItem_plain h.groupRead hv⟩ <;>
        (simp only [List.mem_cons, List.not_mem_nil, or_false] at c3; rcases c3 with rfl | rfl | rfl | rfl <;> decide)
    rw [if_neg c3] at hv
    by_cases c4 : k = "type"
    · rw [if_pos c4] at hv; cases hv
    rw [if_neg c4] at hv
    have hnb : ∀ v, blockItem (sectionName name network) name g d k = some v → k ∉ bridgeOptions := by
      intro v hv hk
      have := h.noBridge k hk
      unfold bridgeOptions stpOptions igmpOptions at hk
      simp only [List.mem_cons, List.mem_append, List.not_mem_nil, or_false] at hk
      unfold blockItem at hv
      rcases hk with rfl | (rfl | rfl | rfl | rfl | rfl | rfl) | (rfl | rfl | rfl | rfl | rfl | rfl | rfl) <;>
        (simp at hv; rw [this] at hv; cases hv)
    cases dsa with
    | false => exact h.toIfaceOK.block_plain hv h1 h2 c4 (hnb v hv)
    | true =>
      simp only [if_true] at hv
      by_cases c5 : k = "ifname"
      · rw [if_pos c5] at hv; cases hv
      rw [if_neg c5] at hv
      unfold dsaItem at hv
      by_cases c6 : k = "mtu" ∨ k = "macaddr"
      · rw [if_pos c6] at hv; cases hv
      rw [if_neg c6] at hv
      by_cases c7 : k = "device"
      · subst c7; rw [if_pos rfl] at hv; cases hv; exact ⟨by decide, by decide, isWord_plain h.word⟩
      rw [if_neg c7] at hv
      exact h.toIfaceOK.block_plain hv h1 h2 c4 (hnb v hv)

theorem IfaceOK.device_plain {env : Env} {name : String} {network : Option String} {g : Group} {d D : VDict} (h : IfaceOK env name network g d)
    (hn : (Dict.keys D).Nodup) (hD : ∀ k, Dict.get? D k = devItem (sectionName name network) name d k) : PlainData D where
  nodup := hn
  type := ⟨"device", by rw [hD]; simp [devItem], by decide⟩
  name := ⟨String.ofList ("device_".toList ++ sectionName name network), by rw [hD]; simp [devItem, txt], by
    rw [String.toList_ofList]
    exact isWord_append (by decide) h.uciWord.2⟩
  options := by
    intro k v hv h1 h2
    rw [hD] at hv
    unfold devItem l2Item at hv
    rw [if_neg h1, if_neg h2] at hv
    by_cases c1 : k = "name"
    · subst c1; rw [if_pos rfl] at hv; cases hv; exact ⟨by decide, by decide, isWord_plain h.word⟩
    rw [if_neg c1] at hv
    by_cases c2 : k = "mtu"
    · subst c2; rw [if_pos rfl] at hv
      obtain ⟨i, rfl⟩ := h.mtu v hv
      exact ⟨by decide, by decide, trivial⟩
    rw [if_neg c2] at hv
    by_cases c3 : k = "macaddr"
    · subst c3; rw [if_pos rfl] at hv
      obtain ⟨s, rfl, _, hs⟩ := h.mac v hv
      exact ⟨by decide, by decide, hs⟩
    rw [if_neg c3] at hv
    cases hv

end NJ
