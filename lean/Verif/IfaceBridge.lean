import Verif.IfaceEth

/-!
# Bridges, to UCI
-/

namespace NJ

/-! ## Specification -/

/-- options of bridges that are flags -/
def bridgeFlags : List String := ["stp", "igmp_snooping", "multicast_querier"]

/-- The name a bridge gets back: it begins with `br-` and `br_` is taken out. -/
def bridgeNameBack (n : Chars) : Chars := replaceAll "br_".toList [] (if "br-".toList <+: n then n else "br-".toList ++ n)

/-- A bridge; `members` are the names of the interfaces in it. In DSA it comes back with the name of its device, otherwise with a name made of
the name of its section. -/
structure BridgeOK (env : Env) (dsa : Bool) (name : String) (network : Option String) (g : Group) (members : List String) (d : VDict) : Prop
    extends IfaceOK env name network g d where
  type : Dict.get? d "type" = some (.str "bridge")
  membersOk : Dict.get? d "bridge_members" = some (.list (members.map .str))
  memberWords : ∀ m ∈ members, IsWord m.toList
  flags : ∀ k ∈ bridgeFlags, ∀ v, Dict.get? d k = some v → ∃ b, v = .bool b
  numbers : ∀ k ∈ bridgeInts, ∀ v, Dict.get? d k = some v → ∃ i : Int, v = .int i
  ageing : Dict.get? d "ageing_time" = none
  brPrefix : dsa = true → "br-".toList <+: name.toList
  nameBack : bridgeNameBack (if dsa then name.toList else sectionName name network) = name.toList

def brOptions : List String := stpOptions ++ igmpOptions

/-- the members, as one text -/
def memberText (members : List String) : Val := txt (joinWith [' '] (members.map String.toList))

/-- the device of a bridge -/
def brDevItem (uci : Chars) (name : String) (members : List String) (d : VDict) (k : String) : Option Val :=
  if k = "type" then some (.str "bridge")
  else if k = "ports" then (if members = [] then none else some (.list (members.map .str)))
  else if k = "bridge_empty" then (if members = [] then some (.bool true) else none)
  else if k ∈ brOptions then Dict.get? d k
  else devItem uci name d k

/-- the section of a bridge -/
def brItem (env : Env) (dsa : Bool) (servers search : List String) (uci : Chars) (name : String) (g : Group) (members : List String) (d : VDict)
    (k : String) : Option Val :=
  if k = "dns" then some (joinedNames (serversOf servers g))
  else if k = "dns_search" then some (joinedNames (searchOf search g))
  else if k ∈ ["proto", "ipaddr", "netmask", "ip6addr"] then groupItem env g k
  else if dsa then (if k ∈ cleanKeys then none else dsaItem uci name g d k)
  else if k = "bridge_members" then none
  else if k = "ifname" then (if members = [] then none else some (memberText members))
  else if k = "bridge_empty" then (if members = [] then some (.bool true) else none)
  else blockItem uci name g d k

/-! ## The device -/

theorem blankJoin_names (l : List String) : blankJoin (.list (l.map .str)) = .ok (memberText l) := by
  unfold blankJoin memberText
  have : ∀ l : List String, (l.map Val.str).mapM textItem = .ok (l.map String.toList) := by
    intro l
    induction l with
    | nil => rfl
    | cons y ys ih => rw [List.map_cons, mapM_ok_cons]; exact ⟨_, _, rfl, ih, rfl⟩
  dsimp only
  rw [this]; rfl

theorem memberText_ne {members : List String} (hw : ∀ m ∈ members, IsWord m.toList) (hm : members ≠ []) :
    joinWith [' '] (members.map String.toList) ≠ [] := by
  intro e
  have := words_join (members.map String.toList) (by intro s hs; obtain ⟨n, hn, rfl⟩ := List.mem_map.1 hs; exact hw n hn)
  rw [e] at this
  have e2 : members.map String.toList = [] := by rw [← this]; rfl
  exact hm (List.map_eq_nil_iff.1 e2)

theorem memberText_truthy {members : List String} (hw : ∀ m ∈ members, IsWord m.toList) :
    (memberText members).truthy = decide (members ≠ []) := by
  by_cases hm : members = []
  · subst hm; rfl
  · have := memberText_ne hw hm
    simp only [memberText, txt, Val.truthy, hm, not_false_eq_true, ne_eq, decide_true, bne_iff_ne]
    intro e
    apply this
    have : (String.ofList (joinWith [' '] (members.map String.toList))).toList = [] := by rw [e]; rfl
    simpa using this

theorem addOptions_get (property : String) (options : List String) (device interface : VDict) (x : String)
    (h : Dict.get? interface x = none ∨ x ∉ property :: options) :
    Dict.get? (addOptions property options device interface) x = Dict.get? device x := by
  unfold addOptions
  split
  · next ht =>
    have hp : x ≠ property := by
      rintro rfl
      rcases h with h | h
      · rw [h] at ht; cases ht
      · simp at h
    have : ∀ (ks : List String) (dev : VDict), (Dict.get? interface x = none ∨ x ∉ ks) → Dict.get? (ks.foldl (addOption interface) dev) x = Dict.get? dev x := by
      intro ks
      induction ks with
      | nil => intros; rfl
      | cons o ks ih =>
        intro dev hx
        rw [List.foldl_cons, ih _ (hx.imp id (fun h => by simp at h; exact h.2))]
        unfold addOption
        cases ho : Dict.get? interface o with
        | none => rfl
        | some v =>
          dsimp only
          split
          · rw [Dict.get?_set', if_neg]
            rintro rfl
            rcases hx with hx | hx
            · rw [hx] at ho; cases ho
            · simp at hx
          · rfl
    rw [this _ _ (h.imp id (fun h => by simp at h; exact h.2)), Dict.get?_set', if_neg hp]
  · rfl

theorem addOptions_nodup (property : String) (options : List String) {device : VDict} (interface : VDict) (h : (Dict.keys device).Nodup) :
    (Dict.keys (addOptions property options device interface)).Nodup := by
  unfold addOptions
  split
  · have : ∀ (ks : List String) (dev : VDict), (Dict.keys dev).Nodup → (Dict.keys (ks.foldl (addOption interface) dev)).Nodup := by
      intro ks
      induction ks with
      | nil => exact fun _ h => h
      | cons o ks ih =>
        intro dev hx
        rw [List.foldl_cons]
        apply ih
        unfold addOption
        split
        · split
          · exact Dict.nodup_set hx _ _
          · exact hx
        · exact hx
    exact this _ _ (Dict.nodup_set h _ _)
  · exact h

def movedKeys : List String := allOptions ++ stpOptions ++ igmpOptions

theorem blockItem_option {uci : Chars} {name : String} {g : Group} {d : VDict} {k : String} (h : k ∈ brOptions ∨ k = "bridge_members" ∨ k = "type") :
    blockItem uci name g d k = Dict.get? d k := by
  unfold brOptions stpOptions igmpOptions at h
  simp only [List.mem_append, List.mem_cons, List.not_mem_nil, or_false] at h
  unfold blockItem
  rcases h with (((rfl | rfl | rfl | rfl | rfl | rfl) | (rfl | rfl | rfl | rfl | rfl | rfl | rfl)) | rfl | rfl) <;> simp

theorem brOption_ne {k : String} (h : k ∈ brOptions) : k ≠ "type" ∧ k ≠ ".type" ∧ k ≠ ".name" ∧ k ≠ "name" ∧ k ≠ "mtu" ∧ k ≠ "macaddr" ∧
    k ≠ "device" ∧ k ∈ movedKeys := by
  have : ∀ k ∈ brOptions, k ≠ "type" ∧ k ≠ ".type" ∧ k ≠ ".name" ∧ k ≠ "name" ∧ k ≠ "mtu" ∧ k ≠ "macaddr" ∧ k ≠ "device" ∧ k ∈ movedKeys := by
    decide +kernel
  exact this k h

theorem movedKey_cases {k : String} (h : k ∈ movedKeys) : k ∈ brOptions ∨ k ∈ allOptions := by
  have : ∀ k ∈ movedKeys, k ∈ brOptions ∨ k ∈ allOptions := by decide +kernel
  exact this k h

/-- the options moved to the device -/
theorem bridge_moved {env : Env} {name : String} {network : Option String} {g : Group} {members : List String} {d I D1 D2 : VDict} {uci : Chars}
    (h : BridgeOK env true name network g members d) (gI : ∀ k, Dict.get? I k = dsaItem uci name g d k)
    (gD1 : ∀ k, (Dict.get? I k = none ∨ k ∉ brOptions) → Dict.get? D1 k = if k = "type" then some (.str "bridge") else devItem uci name d k)
    (m2 : ∀ k, Dict.get? D2 k = if k ∈ movedKeys then (Dict.get? I k).or (Dict.get? D1 k) else Dict.get? D1 k) (k : String) :
    Dict.get? D2 k = if k = "type" then some (.str "bridge") else if k ∈ brOptions then Dict.get? d k else devItem uci name d k := by
  rw [m2]
  by_cases c0 : k = "type"
  · subst c0
    rw [if_neg (by decide +kernel), gD1 _ (.inr (by decide +kernel)), if_pos rfl, if_pos rfl]
  by_cases c1 : k ∈ brOptions
  · obtain ⟨q1, q2, q3, q4, q5, q6, q7, q8⟩ := brOption_ne c1
    rw [if_pos q8, if_neg c0, if_pos c1]
    have gk : Dict.get? I k = Dict.get? d k := by
      rw [gI]
      unfold dsaItem
      rw [if_neg (by simp [q5, q6]), if_neg q7, blockItem_option (.inl c1)]
    rw [gk]
    cases hd : Dict.get? d k with
    | some v => rfl
    | none =>
      rw [gD1 k (.inl (by rw [gk, hd])), if_neg c0, Option.none_or]
      unfold devItem l2Item
      rw [if_neg q2, if_neg q3, if_neg q4, if_neg q5, if_neg q6]
  · rw [if_neg c0, if_neg c1, gD1 k (.inr c1), if_neg c0]
    by_cases c2 : k ∈ movedKeys
    · rw [if_pos c2]
      have c3 : k ∈ allOptions := (movedKey_cases c2).resolve_left c1
      have : Dict.get? I k = none := by
        rw [gI]
        unfold allOptions at c3
        simp only [List.mem_cons, List.not_mem_nil, or_false] at c3
        rcases c3 with rfl | rfl | rfl
        · simp only [dsaItem, String.reduceEq, or_self, if_false, blockItem, List.mem_cons, List.not_mem_nil]; exact h.reserved _ (by decide)
        · simp [dsaItem]
        · simp [dsaItem]
      rw [this, Option.none_or]
    · rw [if_neg c2]

/-- the device of a bridge, and what is left of the interface -/
theorem ifaceDevice_bridge {env : Env} {name : String} {network : Option String} {g : Group} {members : List String} {d i : VDict} {uci : Chars}
    (h : BridgeOK env true name network g members d) (hi : (Dict.keys i).Nodup) (hg : ∀ k, Dict.get? i k = blockItem uci name g d k) :
    ∃ D i', ifaceDevice env i = .ok (D, i') ∧ (Dict.keys i').Nodup ∧
      (∀ k, Dict.get? i' k = if k ∈ movedKeys then none else dsaItem uci name g d k) ∧
      (Dict.keys D).Nodup ∧ ∀ k, Dict.get? D k = brDevItem uci name members d k := by
  obtain ⟨a1, a2, a3, a4⟩ := addL2_ok h.toIfaceOK hi hg
  unfold ifaceDevice
  generalize addL2 [] i = p at a1 a2 a3 a4
  obtain ⟨l2, j⟩ := p
  dsimp only at a1 a2 a3 a4 ⊢
  have e1 : Dict.get? j ".name" = some (txt uci) := by rw [a4, if_neg (by decide), hg]; simp [blockItem]
  have e2 : Dict.get? j "ifname" = some (.str name) := by rw [a4, if_neg (by decide), hg]; simp [blockItem]
  have e3 : Dict.get? j "device" = none := by
    rw [a4, if_neg (by decide), hg]; simp [blockItem]; exact h.reserved _ (by decide)
  have e4 : Dict.get? (Dict.set j "device" (.str name)) "type" = some (.str "bridge") := by
    rw [Dict.get?_set', if_neg (by decide), a4, if_neg (by decide), hg, blockItem_option (by simp)]; exact h.type
  rw [getKey_ok e1, getKey_ok e2]
  simp only [bind, Except.bind]
  rw [e3]
  simp only [Option.getD_none, Val.truthy, Bool.false_eq_true, if_false]
  rw [getKey_ok e4]
  simp only [asText]
  have t1 : ¬ "8021".toList <+: "bridge".toList := by decide
  simp only [t1, if_false, pure, Except.pure, ne_eq, not_true_eq_false]
  -- the device so far
  have nd : (Dict.keys (Dict.update l2 [(".type", .str "device"), (".name", .str ("device_" ++ pyStr env.reprC (txt uci))), ("name", .str name)])).Nodup :=
    Dict.nodup_update a2 _
  have gd : ∀ k, Dict.get? (Dict.update l2 [(".type", .str "device"), (".name", .str ("device_" ++ pyStr env.reprC (txt uci))), ("name", .str name)]) k =
      devItem uci name d k := by
    intro k
    rw [Dict.update_cons, Dict.update_cons, Dict.update_cons, Dict.update_nil, Dict.get?_set', Dict.get?_set', Dict.get?_set', a1]
    unfold devItem
    by_cases c1 : k = "name"
    · subst c1; simp
    by_cases c2 : k = ".name"
    · subst c2; simp only [String.reduceEq, if_false, if_true, txt, pyStr, String.ofList_append, String.ofList_toList]
    by_cases c3 : k = ".type"
    · subst c3; simp
    simp [c1, c2, c3]
  generalize Dict.update l2 [(".type", .str "device"), (".name", .str ("device_" ++ pyStr env.reprC (txt uci))), ("name", .str name)] = dev at nd gd
  unfold bridgeDevice
  have e5 : Dict.get? (Dict.set j "device" (.str name)) "ifname" = some (.str name) := by rw [Dict.get?_set', if_neg (by decide), e2]
  have hpre := h.brPrefix rfl
  simp only [getKey_ok e5, asText, hpre, if_true, bind, Except.bind]
  have etxt : txt name.toList = .str name := by simp [txt]
  simp only [etxt]
  have nI : (Dict.keys (Dict.set (Dict.set (Dict.set j "device" (.str name)) "ifname" (.str name)) "device" (.str name))).Nodup :=
    Dict.nodup_set (Dict.nodup_set (Dict.nodup_set a3 _ _) _ _) _ _
  have gI : ∀ k, Dict.get? (Dict.set (Dict.set (Dict.set j "device" (.str name)) "ifname" (.str name)) "device" (.str name)) k = dsaItem uci name g d k := by
    intro k
    rw [Dict.get?_set', Dict.get?_set', Dict.get?_set', a4, hg]
    unfold dsaItem
    by_cases c : k = "device"
    · subst c; simp
    by_cases c1 : k = "ifname"
    · subst c1; simp [blockItem]
    simp only [c, c1, if_false]
  generalize Dict.set (Dict.set (Dict.set j "device" (.str name)) "ifname" (.str name)) "device" (.str name) = I at nI gI
  have nD1 := addOptions_nodup "igmp_snooping" igmpOptions I (addOptions_nodup "stp" stpOptions I
    (Dict.nodup_set (Dict.nodup_set nd "type" (.str "bridge")) "name" (.str name)))
  have gD1 : ∀ k, (Dict.get? I k = none ∨ k ∉ brOptions) → Dict.get? (addOptions "igmp_snooping" igmpOptions (addOptions "stp" stpOptions
      (Dict.set (Dict.set dev "type" (.str "bridge")) "name" (.str name)) I) I) k = if k = "type" then some (.str "bridge") else devItem uci name d k := by
    intro k hk
    rw [addOptions_get _ _ _ _ _ (hk.imp id (fun h => by
        unfold brOptions stpOptions igmpOptions at *
        simp only [List.mem_append, List.mem_cons, List.not_mem_nil, or_false, not_or] at h ⊢
        tauto)),
      addOptions_get _ _ _ _ _ (hk.imp id (fun h => by
        unfold brOptions stpOptions igmpOptions at *
        simp only [List.mem_append, List.mem_cons, List.not_mem_nil, or_false, not_or] at h ⊢
        tauto)), Dict.get?_set', Dict.get?_set', gd]
    by_cases c1 : k = "name"
    · subst c1; simp [devItem]
    simp [c1]
  generalize addOptions "igmp_snooping" igmpOptions (addOptions "stp" stpOptions
      (Dict.set (Dict.set dev "type" (.str "bridge")) "name" (.str name)) I) I = D1 at nD1 gD1
  obtain ⟨m1, m2, m3, m4⟩ := moveAll_get movedKeys (D1, I)
  have m3 := m3 nD1
  have m4 := m4 nI
  have hmv : allOptions ++ stpOptions ++ igmpOptions = movedKeys := rfl
  rw [hmv]
  generalize movedKeys.foldl moveOption (D1, I) = q at m1 m2 m3 m4
  obtain ⟨D2, i2⟩ := q
  dsimp only at m1 m2 m3 m4 ⊢
  have hports : Dict.get? i2 "bridge_members" = some (.list (members.map .str)) := by
    rw [m1, if_neg (by decide), gI]
    unfold dsaItem
    rw [if_neg (by decide), if_neg (by decide), blockItem_option (by simp)]
    exact h.membersOk
  have gD2 := bridge_moved h gI gD1 m2
  rw [hports]
  simp only [Option.getD_some]
  refine ⟨_, i2, rfl, m4, fun k => by rw [m1, gI], ?_, ?_⟩
  · apply sortedDict_nodup
    split
    · exact Dict.nodup_erase (Dict.nodup_set m3 _ _) _
    · exact Dict.nodup_set m3 _ _
  · intro k
    have hpo : devItem uci name d "ports" = none := by simp [devItem, l2Item]
    have hem : devItem uci name d "bridge_empty" = none := by simp [devItem, l2Item]
    by_cases hm : members = []
    · subst hm
      rw [if_pos (show Val.list (List.map Val.str []) = Val.list [] from rfl), get?_sortedDict (Dict.nodup_erase (Dict.nodup_set m3 _ _) _), Dict.get?_erase', Dict.get?_set', gD2]
      unfold brDevItem
      by_cases c1 : k = "ports"
      · subst c1; simp
      by_cases c2 : k = "bridge_empty"
      · subst c2; simp
      simp only [c1, c2, if_false]
    · rw [if_neg (by simp [hm]), get?_sortedDict (Dict.nodup_set m3 _ _), Dict.get?_set', gD2]
      unfold brDevItem
      by_cases c1 : k = "ports"
      · subst c1; simp [hm]
      by_cases c2 : k = "bridge_empty"
      · subst c2
        rw [if_neg (by decide), if_neg (by decide), if_neg (by decide), hem]; simp [hm]
      simp only [c1, c2, if_false]

/-! ## The section -/

theorem bridgeSection_bridge {isdsa : Bool} {name : String} {members : List String} (hw : ∀ m ∈ members, IsWord m.toList) {d : VDict}
    (hn : (Dict.keys d).Nodup) (h1 : Dict.get? d "type" = some (.str "bridge")) (h2 : Dict.get? d "bridge_members" = some (.list (members.map .str)))
    (h3 : Dict.get? d "ifname" = some (.str name)) (h4 : Dict.get? d "bridge_empty" = none) :
    ∃ d', bridgeSection isdsa 1 d = .ok d' ∧ (Dict.keys d').Nodup ∧ ∀ k, Dict.get? d' k =
      if isdsa then (if k ∈ cleanKeys then none else if k = "device" then some (.str name) else Dict.get? d k)
      else if k = "bridge_members" then none
      else if k = "ifname" then (if members = [] then none else some (memberText members))
      else if k = "bridge_empty" then (if members = [] then some (.bool true) else none)
      else Dict.get? d k := by
  unfold bridgeSection
  simp only [getKey_ok h1, bind, Except.bind, if_true, Nat.lt_succ_self]
  unfold firstBridge
  simp only [popKey_ok h2, bind, Except.bind, blankJoin_names]
  cases isdsa with
  | true =>
    have h5 : Dict.get? (Dict.erase d "bridge_members") "ifname" = some (.str name) := by rw [Dict.get?_erase', if_neg (by decide), h3]
    simp only [if_true, getKey_ok h5]
    obtain ⟨c1, c2⟩ := cleanBridge_get true (Dict.nodup_set (Dict.nodup_erase hn "bridge_members") "device" (.str name))
    refine ⟨_, rfl, c1, fun k => ?_⟩
    rw [c2, Dict.get?_set', Dict.get?_erase']
    simp only [true_and]
    by_cases e1 : k ∈ cleanKeys
    · rw [if_pos e1, if_pos e1]
    rw [if_neg e1, if_neg e1]
    by_cases e2 : k = "device"
    · rw [if_pos e2, if_pos e2]
    rw [if_neg e2, if_neg e2, if_neg]
    rintro rfl; exact e1 (by decide)
  | false =>
    simp only [Bool.false_eq_true, if_false, memberText_truthy hw]
    by_cases hm : members = []
    · have h5 : Dict.get? (Dict.set (Dict.erase d "bridge_members") "bridge_empty" (.bool true)) "ifname" = some (.str name) := by
        rw [Dict.get?_set', if_neg (by decide), Dict.get?_erase', if_neg (by decide), h3]
      simp only [hm, ne_eq, not_true_eq_false, decide_false, Bool.false_eq_true, if_false, popKey_ok h5, pure, Except.pure]
      obtain ⟨c1, c2⟩ := cleanBridge_get false (Dict.nodup_erase (Dict.nodup_set (Dict.nodup_erase hn "bridge_members") "bridge_empty" (.bool true)) "ifname")
      refine ⟨_, rfl, c1, fun k => ?_⟩
      rw [c2, Dict.get?_erase', Dict.get?_set', Dict.get?_erase']
      by_cases e1 : k = "bridge_members"
      · subst e1; simp
      by_cases e2 : k = "ifname"
      · subst e2; simp
      by_cases e3 : k = "bridge_empty"
      · subst e3; simp
      simp [e1, e2, e3]
    · simp only [hm, ne_eq, not_false_eq_true, decide_true, if_true, pure, Except.pure]
      obtain ⟨c1, c2⟩ := cleanBridge_get false (Dict.nodup_set (Dict.nodup_erase hn "bridge_members") "ifname" (memberText members))
      refine ⟨_, rfl, c1, fun k => ?_⟩
      rw [c2, Dict.get?_set', Dict.get?_erase']
      by_cases e1 : k = "bridge_members"
      · subst e1; simp
      by_cases e2 : k = "ifname"
      · subst e2; simp
      by_cases e3 : k = "bridge_empty"
      · subst e3; simp [h4]
      simp [e1, e2, e3]

theorem bridge_simple : simpleType "bridge" := by unfold simpleType; decide

/-- A bridge becomes one section, and in DSA one device. -/
theorem bridge_forward {env : Env} {dsa : Bool} {config : VDict} {servers search : List String} (hdns : DnsOK config servers search) {name : String}
    {network : Option String} {g : Group} {members : List String} {d : VDict} (h : BridgeOK env dsa name network g members d) :
    ∃ D S, (∀ sh result, ifaceFwd sh env dsa config ([], result) (.dict d) = addUnit sh D S result) ∧
      (Dict.keys S).Nodup ∧ (∀ k, Dict.get? S k = brItem env dsa servers search (sectionName name network) name g members d k) ∧
      (match D with
        | none => dsa = false
        | some D => dsa = true ∧ (Dict.keys D).Nodup ∧ ∀ k, Dict.get? D k = brDevItem (sectionName name network) name members d k) := by
  obtain ⟨b', A, a1, a2, a3, a4, a5⟩ := addresses_forward h.nodup h.group h.type (by decide) (by decide)
  obtain ⟨i, i1, i2, i3⟩ := ifaceBlock_ok (dsa := dsa) (uci := sectionName name network) h.toIfaceOK h.type bridge_simple a2 a5
  -- the device
  obtain ⟨D, j, d1, d2, d3, d4⟩ : ∃ D j, (∀ result, (if dsa = true then dsaSections env [] (sectionName name network) i result else pure (i, [], result)) =
      .ok (j, [], match D with
        | none => result
        | some D => appendTo result "network" [.dict D])) ∧ (Dict.keys j).Nodup ∧
      (∀ k, Dict.get? j k = if dsa then (if k ∈ movedKeys then none else dsaItem (sectionName name network) name g d k)
        else blockItem (sectionName name network) name g d k) ∧
      (match D with
        | none => dsa = false
        | some D => dsa = true ∧ (Dict.keys D).Nodup ∧ ∀ k, Dict.get? D k = brDevItem (sectionName name network) name members d k) := by
    cases dsa with
    | false => exact ⟨none, i, fun _ => rfl, i2, by simpa using i3, rfl⟩
    | true =>
      obtain ⟨D, j, e1, e2, e3, e4, e5⟩ := ifaceDevice_bridge h i2 i3
      have hv : Dict.get? i "vlan_filtering" = none := by rw [i3]; simp [blockItem]; exact h.reserved _ (by decide)
      refine ⟨some (sortedDict D), j, fun result => ?_, e2, by simpa using e3, rfl, sortedDict_nodup e4, fun k => ?_⟩
      · rw [if_pos rfl, dsaSections_plain hv e1]
        have : D.isEmpty = false := by
          cases D with
          | nil => have := e5 "type"; simp [brDevItem] at this
          | cons _ _ => rfl
        rw [this]; rfl
      · rw [get?_sortedDict e4, e5]
  -- the section
  have hj : ∀ k, k ∉ movedKeys → k ≠ "device" → k ≠ "mtu" → k ≠ "macaddr" → Dict.get? j k = blockItem (sectionName name network) name g d k := by
    intro k k1 k2 k3 k4
    rw [d3]
    unfold dsaItem
    simp only [k1, k2, k3, k4, or_self, if_false, ite_self]
  have hres : ∀ k ∈ ["dns", "dns_search", "proto", "ipaddr", "netmask", "ip6addr", "bridge_empty"], Dict.get? j k = none := by
    intro k hk
    have : Dict.get? d k = none := h.reserved k (by
      simp only [List.mem_cons, List.not_mem_nil, or_false] at hk
      rcases hk with rfl | rfl | rfl | rfl | rfl | rfl | rfl <;> decide)
    simp only [List.mem_cons, List.not_mem_nil, or_false] at hk
    rcases hk with rfl | rfl | rfl | rfl | rfl | rfl | rfl <;>
      (rw [hj _ (by decide +kernel) (by decide) (by decide) (by decide)]; unfold blockItem; simp; exact this)
  have htype : Dict.get? j "type" = some (.str "bridge") := by
    rw [hj _ (by decide +kernel) (by decide) (by decide) (by decide), blockItem_option (by simp)]; exact h.type
  have hmem : Dict.get? j "bridge_members" = some (.list (members.map .str)) := by
    rw [hj _ (by decide +kernel) (by decide) (by decide) (by decide), blockItem_option (by simp)]; exact h.membersOk
  have hifn : Dict.get? j "ifname" = some (.str name) := by
    rw [hj _ (by decide +kernel) (by decide) (by decide) (by decide)]; simp [blockItem]
  obtain ⟨S, s1, s2, s3⟩ := ifaceSection_ok hdns (env := env) (g := g) (isdsa := dsa) (uci := sectionName name network) d2 a3 a4
    (hres _ (by simp)) (hres _ (by simp)) (hres _ (by simp)) (item := fun k => Dict.get? j k)
    (f := fun k => if dsa then (if k ∈ cleanKeys then none else if k = "device" then some (.str name) else
        if k = "dns" then some (joinedNames (serversOf servers g))
        else if k = "dns_search" then some (joinedNames (searchOf search g)) else if k = "proto" then groupItem env g k else Dict.get? j k)
      else if k = "bridge_members" then none
      else if k = "ifname" then (if members = [] then none else some (memberText members))
      else if k = "bridge_empty" then (if members = [] then some (.bool true) else none)
      else if k = "dns" then some (joinedNames (serversOf servers g))
      else if k = "dns_search" then some (joinedNames (searchOf search g)) else if k = "proto" then groupItem env g k else Dict.get? j k)
    (fun _ => rfl) (by
      intro x hx gx
      obtain ⟨y, y1, y2, y3⟩ := bridgeSection_bridge (isdsa := dsa) (name := name) h.memberWords hx (by rw [gx]; simpa using htype)
        (by rw [gx]; simpa using hmem) (by rw [gx]; simpa using hifn) (by rw [gx]; simpa using hres "bridge_empty" (by simp))
      exact ⟨y, y1, y2, fun k => by rw [y3, gx]⟩)
  refine ⟨D, S, ?_, s2, ?_, d4⟩
  · intro sh result
    have hproto : Dict.get? i "proto" = none := by rw [i3]; simp [blockItem]; exact h.reserved _ (by decide)
    have hdsa : isDsa dsa [] i = dsa := by
      unfold isDsa
      have hit : Dict.get? i "type" = some (.str "bridge") := by rw [i3, blockItem_option (by simp)]; exact h.type
      rw [hproto, hit]
      have : Val.str "bridge" ∈ dsaTypes := by decide
      simp [this]
    unfold ifaceFwd
    simp only [asDict, bind, Except.bind]
    have hnn := network_name h.toIfaceOK
    dsimp only at hnn
    rw [hnn]
    simp only [asText, a1]
    have i1' : ifaceBlock env dsa [] (uciName (network.getD name).toList) b' = .ok i := i1
    have s1' : ifaceSection config dsa (uciName (network.getD name).toList) j 1 A = .ok S := s1
    rw [i1']
    dsimp only
    rw [hdsa]
    have := d1 result
    simp only [sectionName] at this
    rw [this]
    simp only [addSections, s1', bind, Except.bind, pure, Except.pure]
    unfold addUnit
    simp only [bind, Except.bind, pure, Except.pure]
    generalize addSection sh _ S = x
    cases x <;> rfl
  · intro k
    rw [s3]
    unfold brItem
    clear * - hres d3
    by_cases c1 : k = "dns"
    · subst c1; simp [cleanKeys, stpOptions, igmpOptions, allOptions]
    by_cases c2 : k = "dns_search"
    · subst c2; simp [cleanKeys, stpOptions, igmpOptions, allOptions]
    by_cases c3 : k = "proto"
    · subst c3; simp [cleanKeys, stpOptions, igmpOptions, allOptions]
    by_cases c4 : k ∈ ["ipaddr", "netmask", "ip6addr"]
    · have c4' : k ∈ ["proto", "ipaddr", "netmask", "ip6addr"] := List.mem_cons_of_mem _ c4
      have q : ∀ k ∈ ["ipaddr", "netmask", "ip6addr"], k ∉ cleanKeys ∧ k ≠ "device" ∧ k ≠ "bridge_members" ∧ k ≠ "ifname" ∧ k ≠ "bridge_empty" := by
        decide +kernel
      obtain ⟨q1, q2, q3, q4, q5⟩ := q k c4
      have hn := hres k (by simp only [List.mem_cons] at c4 ⊢; tauto)
      simp only [q1, q2, q3, q4, q5, if_false, c1, c2, c3, hn, ite_self, Option.or_none, c4, c4', if_true]
    · have c4' : k ∉ ["proto", "ipaddr", "netmask", "ip6addr"] := fun hm => (List.mem_cons.1 hm).elim c3 c4
      simp only [c4, c4', if_false, c1, c2, c3, d3]
      cases dsa with
      | false => simp
      | true =>
        simp only [if_true]
        by_cases c6 : k ∈ cleanKeys
        · rw [if_pos c6, if_pos c6]
        · rw [if_neg c6, if_neg c6]
          have c7 : k ∉ movedKeys := by
            intro hm
            have : ∀ k ∈ movedKeys, k ∈ cleanKeys := by decide +kernel
            exact c6 (this k hm)
          rw [if_neg c7]
          by_cases c8 : k = "device"
          · subst c8; simp [dsaItem]
          · rw [if_neg c8]

/-! ## The blocks are plain -/

theorem memberText_plain {members : List String} (hw : ∀ m ∈ members, IsWord m.toList) : PlainVal (memberText members) := by
  simp only [memberText, txt, PlainVal, String.toList_ofList]
  exact joinWords_plain _ (by simpa using hw)

theorem BridgeOK.option_plain {env : Env} {dsa : Bool} {name : String} {network : Option String} {g : Group} {members : List String} {d : VDict}
    (h : BridgeOK env dsa name network g members d) {k : String} (hk : k ∈ brOptions) {v : Val} (hv : Dict.get? d k = some v) :
    IsWord k.toList ∧ k.toList.head? ≠ some '.' ∧ PlainVal v := by
  have q : ∀ k ∈ brOptions, (IsWord k.toList ∧ k.toList.head? ≠ some '.') ∧ (k ∈ bridgeFlags ∨ k ∈ bridgeInts ∨ k = "ageing_time") := by decide +kernel
  obtain ⟨⟨q1, q2⟩, q3⟩ := q k hk
  refine ⟨q1, q2, ?_⟩
  rcases q3 with q3 | q3 | rfl
  · obtain ⟨b, rfl⟩ := h.flags k q3 v hv; exact trivial
  · obtain ⟨b, rfl⟩ := h.numbers k q3 v hv; exact trivial
  · rw [h.ageing] at hv; cases hv

theorem bridgeOptions_cases {k : String} (h : k ∈ bridgeOptions) : k = "bridge_members" ∨ k ∈ brOptions := by
  unfold bridgeOptions at h
  exact List.mem_cons.1 h

theorem BridgeOK.section_plain {env : Env} {dsa : Bool} {config : VDict} {servers search : List String} (hdns : DnsOK config servers search)
    {name : String} {network : Option String} {g : Group} {members : List String} {d S : VDict} (h : BridgeOK env dsa name network g members d)
    (hn : (Dict.keys S).Nodup) (hS : ∀ k, Dict.get? S k = brItem env dsa servers search (sectionName name network) name g members d k) :
    PlainBlock S where
  nodup := hn
  type := ⟨"interface", by rw [hS]; cases dsa <;> simp [brItem, dsaItem, blockItem, cleanKeys, stpOptions, igmpOptions, allOptions],
    by decide, by decide, by decide⟩
  name := ⟨String.ofList (sectionName name network), by
    rw [hS]; cases dsa <;> simp [brItem, dsaItem, blockItem, txt, cleanKeys, stpOptions, igmpOptions, allOptions], by
    rw [String.toList_ofList]; exact h.toIfaceOK.uciWord⟩
  options := by
    intro k v hv h1 h2
    rw [hS] at hv
    unfold brItem at hv
    by_cases c1 : k = "dns"
    · subst c1; rw [if_pos rfl] at hv; cases hv; exact ⟨by decide, by decide, (hdns.joined g).1⟩
    rw [if_neg c1] at hv
    by_cases c2 : k = "dns_search"
    · subst c2; rw [if_pos rfl] at hv; cases hv; exact ⟨by decide, by decide, (hdns.joined g).2⟩
    rw [if_neg c2] at hv
    by_cases c3 : k ∈ ["proto", "ipaddr", "netmask", "ip6addr"]
    · rw [if_pos c3] at hv
      refine ⟨?_, ?_, groupItem_plain h.groupRead hv⟩ <;>
        (simp only [List.mem_cons, List.not_mem_nil, or_false] at c3; rcases c3 with rfl | rfl | rfl | rfl <;> decide)
    rw [if_neg c3] at hv
    cases hdsa : dsa with
    | false =>
      subst hdsa
      simp only [Bool.false_eq_true, if_false] at hv
      by_cases c4 : k = "bridge_members"
      · rw [if_pos c4] at hv; cases hv
      rw [if_neg c4] at hv
      by_cases c5 : k = "ifname"
      · subst c5
        rw [if_pos rfl] at hv
        split at hv
        · cases hv
        · cases hv; exact ⟨by decide, by decide, memberText_plain h.memberWords⟩
      rw [if_neg c5] at hv
      by_cases c6 : k = "bridge_empty"
      · subst c6
        rw [if_pos rfl] at hv
        split at hv
        · cases hv; exact ⟨by decide, by decide, trivial⟩
        · cases hv
      rw [if_neg c6] at hv
      by_cases c7 : k = "type"
      · subst c7
        rw [blockItem_option (by simp), h.type] at hv
        cases hv; exact ⟨by decide, by decide, (by decide : PlainText "bridge".toList)⟩
      by_cases c8 : k ∈ brOptions
      · rw [blockItem_option (.inl c8)] at hv
        exact h.option_plain c8 hv
      exact h.toIfaceOK.block_plain hv h1 h2 c7 (fun hm => (bridgeOptions_cases hm).elim c4 c8)
    | true =>
      subst hdsa
      simp only [if_true] at hv
      by_cases c5 : k ∈ cleanKeys
      · rw [if_pos c5] at hv; cases hv
      rw [if_neg c5] at hv
      unfold dsaItem at hv
      by_cases c6 : k = "mtu" ∨ k = "macaddr"
      · rw [if_pos c6] at hv; cases hv
      rw [if_neg c6] at hv
      by_cases c7 : k = "device"
      · subst c7; rw [if_pos rfl] at hv; cases hv; exact ⟨by decide, by decide, isWord_plain h.word⟩
      rw [if_neg c7] at hv
      have q : ∀ k ∈ "type" :: bridgeOptions, k ∈ cleanKeys := by decide +kernel
      exact h.toIfaceOK.block_plain hv h1 h2 (fun e => c5 (q k (by simp [e]))) (fun hm => c5 (q k (List.mem_cons_of_mem _ hm)))

theorem BridgeOK.device_plain {env : Env} {dsa : Bool} {name : String} {network : Option String} {g : Group} {members : List String} {d D : VDict}
    (h : BridgeOK env dsa name network g members d) (hn : (Dict.keys D).Nodup)
    (hD : ∀ k, Dict.get? D k = brDevItem (sectionName name network) name members d k) : PlainData D where
  nodup := hn
  type := ⟨"device", by rw [hD]; simp [brDevItem, devItem, brOptions, stpOptions, igmpOptions], by decide⟩
  name := ⟨String.ofList ("device_".toList ++ sectionName name network), by
    rw [hD]; simp [brDevItem, devItem, txt, brOptions, stpOptions, igmpOptions], by
    rw [String.toList_ofList]
    exact isWord_append (by decide) h.uciWord.2⟩
  options := by
    intro k v hv h1 h2
    rw [hD] at hv
    unfold brDevItem at hv
    by_cases c0 : k = "type"
    · subst c0; rw [if_pos rfl] at hv; cases hv; exact ⟨by decide, by decide, (by decide : PlainText "bridge".toList)⟩
    rw [if_neg c0] at hv
    by_cases c1 : k = "ports"
    · subst c1; rw [if_pos rfl] at hv
      split at hv
      · cases hv
      · cases hv
        refine ⟨by decide, by decide, ?_⟩
        intro x hx
        obtain ⟨m, hm, rfl⟩ := List.mem_map.1 hx
        exact ⟨m, rfl, isWord_plain (h.memberWords m hm)⟩
    rw [if_neg c1] at hv
    by_cases c2 : k = "bridge_empty"
    · subst c2
      rw [if_pos rfl] at hv
      split at hv
      · cases hv; exact ⟨by decide, by decide, trivial⟩
      · cases hv
    rw [if_neg c2] at hv
    by_cases c3 : k ∈ brOptions
    · rw [if_pos c3] at hv; exact h.option_plain c3 hv
    rw [if_neg c3] at hv
    unfold devItem l2Item at hv
    rw [if_neg h1, if_neg h2] at hv
    by_cases c4 : k = "name"
    · subst c4; rw [if_pos rfl] at hv; cases hv; exact ⟨by decide, by decide, isWord_plain h.word⟩
    rw [if_neg c4] at hv
    by_cases c5 : k = "mtu"
    · subst c5; rw [if_pos rfl] at hv
      obtain ⟨i, rfl⟩ := h.mtu v hv
      exact ⟨by decide, by decide, trivial⟩
    rw [if_neg c5] at hv
    by_cases c6 : k = "macaddr"
    · subst c6; rw [if_pos rfl] at hv
      obtain ⟨s, rfl, _, hs⟩ := h.mac v hv
      exact ⟨by decide, by decide, hs⟩
    rw [if_neg c6] at hv
    cases hv

end NJ
