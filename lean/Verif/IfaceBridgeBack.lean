import Verif.IfaceBridge

/-!
# Bridges, back from UCI
-/

namespace NJ

/-! ## The device -/

/-- what is kept of the device of a bridge -/
def brRecItem (uci : Chars) (name : String) (members : List String) (d : VDict) (k : String) : Option Val :=
  if k = ".type" then some (.str "interface")
  else if k = "name" then some (.str name)
  else if k = "network" then some (txt uci)
  else if k = "type" then some (.str "bridge")
  else if k = "bridge_21" then some (.bool true)
  else if k = "ports" then (if members = [] then none else some (.list (members.map .str)))
  else if k = "bridge_empty" then (if members = [] then some (.str "1") else none)
  else if k ∈ brOptions then (Dict.get? d k).bind readVal
  else l2Item d k

theorem readVal_names {l : List String} (h : l ≠ []) : readVal (.list (l.map .str)) = some (.list (l.map .str)) := by
  cases l with
  | nil => exact absurd rfl h
  | cons x xs => rfl

theorem bridge_noted {env : Env} {dsa : Bool} {name : String} {network : Option String} {g : Group} {members : List String} {d D : VDict}
    (h : BridgeOK env dsa name network g members d) (hn : (Dict.keys D).Nodup)
    (hD : ∀ k, Dict.get? D k = brDevItem (sectionName name network) name members d k) :
    ∃ R, (∀ st : IfState, Dict.get? st.dev (.str name) = none →
        deviceBlock (blockRead env.reprC D) st = .ok ⟨Dict.set st.dev (.str name) R, st.result⟩) ∧ (Dict.keys R).Nodup ∧
      ∀ k, Dict.get? R k = brRecItem (sectionName name network) name members d k := by
  have hp := h.device_plain hn hD
  have hr := get?_blockRead_device env.reprC hp (by rw [hD]; simp [brDevItem, devItem, brOptions, stpOptions, igmpOptions])
  have nr := blockRead_nodup env.reprC hp
  have ht : (Dict.get? D "type").bind readVal = some (.str "bridge") := by rw [hD]; simp [brDevItem, readVal]
  rw [ht] at hr
  generalize blockRead env.reprC D = b at hr nr
  have gb : ∀ k, Dict.get? b k = if k = ".name" then some (txt ("device_".toList ++ sectionName name network))
      else if k = "mtu" then (Dict.get? d "mtu").bind readVal else if k = "network" then none else brRecItem (sectionName name network) name members d k := by
    intro k
    rw [hr, hD]
    by_cases c1 : k = ".type"
    · simp [c1, brRecItem]
    by_cases c2 : k = ".name"
    · simp [c2, brDevItem, devItem, brOptions, stpOptions, igmpOptions]
    by_cases c3 : k = "type"
    · subst c3; simp [deviceType, Val.truthy, brRecItem]
    by_cases c5 : k = "bridge_21"
    · subst c5; simp [brRecItem]
    rw [if_neg c1, if_neg c2, if_neg (fun e => c5 e.1), if_neg c3, if_neg c2]
    unfold brDevItem brRecItem
    by_cases c6 : k = "ports"
    · subst c6
      simp only [String.reduceEq, if_false, if_true]
      by_cases hm : members = []
      · simp [hm]
      · simp [hm, readVal_names]
    by_cases c7 : k = "bridge_empty"
    · subst c7
      simp only [String.reduceEq, if_false, if_true]
      by_cases hm : members = []
      · simp [hm, readVal]
      · simp [hm]
    by_cases c8 : k ∈ brOptions
    · obtain ⟨q1, q2, q3, q4, q5, q6, q7, q8⟩ := brOption_ne c8
      have q9 : k ≠ "network" := by
        have : ∀ k ∈ brOptions, k ≠ "network" := by decide +kernel
        exact this k c8
      simp only [c1, c3, c5, c6, c7, c8, q4, q5, q9, if_true, if_false]
    by_cases c4 : k = "name"
    · subst c4; simp [readVal_word h.word, devItem, brOptions, stpOptions, igmpOptions]
    by_cases c9 : k = "mtu"
    · subst c9; simp [devItem, l2Item, brOptions, stpOptions, igmpOptions]
    by_cases c10 : k = "macaddr"
    · subst c10; simp [devItem, l2Item, brOptions, stpOptions, igmpOptions]; exact h.mac_read
    by_cases c11 : k = "network"
    · subst c11; simp [devItem, l2Item, brOptions, stpOptions, igmpOptions]
    simp only [devItem, l2Item, c1, c2, c3, c4, c5, c6, c7, c8, c9, c10, c11, if_false, Option.bind_none]
  have n1 : (Dict.keys (Dict.set (Dict.erase b ".name") "network" (.str (String.ofList (sectionName name network))))).Nodup :=
    Dict.nodup_set (Dict.nodup_erase nr _) _ _
  have hrn : brRecItem (sectionName name network) name members d ".name" = none := by
    simp [brRecItem, l2Item, brOptions, stpOptions, igmpOptions]
  have g1 : ∀ k, Dict.get? (Dict.set (Dict.erase b ".name") "network" (.str (String.ofList (sectionName name network)))) k =
      if k = "mtu" then (Dict.get? d "mtu").bind readVal else brRecItem (sectionName name network) name members d k := by
    intro k
    rw [Dict.get?_set', Dict.get?_erase', gb]
    by_cases c5 : k = "network"
    · simp [c5, txt, brRecItem]
    by_cases c2 : k = ".name"
    · subst c2; simp [hrn]
    simp only [c5, c2, if_false]
  generalize hc : Dict.set (Dict.erase b ".name") "network" (.str (String.ofList (sectionName name network))) = c at n1 g1
  obtain ⟨R, r1, r2, r3, r4⟩ := deviceCasts (m := Dict.get? d "mtu") n1 (by
      intro k hk hm
      rw [g1, if_neg hm]
      unfold brRecItem l2Item brOptions stpOptions igmpOptions
      simp only [deviceInts, deviceBools, List.mem_append, List.mem_cons, List.not_mem_nil, or_false] at hk
      rcases hk with (rfl | rfl | rfl | rfl | rfl | rfl | rfl | rfl | rfl) | (rfl | rfl | rfl | rfl) <;> simp at hm ⊢)
    (by
      rw [g1, if_pos rfl]
      intro e
      cases hm : Dict.get? d "mtu" with
      | none => rfl
      | some v => obtain ⟨i, rfl⟩ := h.mtu v hm; rw [hm] at e; cases e)
    (by
      rw [g1, if_pos rfl]
      intro v hv
      cases hm : Dict.get? d "mtu" with
      | none => rw [hm] at hv; cases hv
      | some w => obtain ⟨i, rfl⟩ := h.mtu w hm; rw [hm] at hv; cases hv; exact ⟨_, toInt_show i, rfl⟩)
  have hname : Dict.get? R "name" = some (.str name) := by rw [r4, if_neg (by decide), g1, if_neg (by decide)]; simp [brRecItem]
  refine ⟨R, fun st hnew => ?_, r3, ?_⟩
  · unfold deviceBlock
    rw [if_neg (by rw [gb]; simp [brRecItem])]
    unfold deviceBack
    rw [popKey_ok (show Dict.get? b ".name" = some (txt ("device_".toList ++ sectionName name network)) by rw [gb]; simp)]
    simp only [bind, Except.bind, asText, txt]
    have hst : (stripPrefix "device_".toList (String.ofList ("device_".toList ++ sectionName name network)).toList).getD
        (String.ofList ("device_".toList ++ sectionName name network)).toList = sectionName name network := by
      exact strip_device _
    rw [hst]
    rw [hc, r1]
    dsimp only
    rw [r2, hname]
    simp only [Option.getD_some, hnew]
    rfl
  · intro k
    rw [r4, g1]
    by_cases c : k = "mtu"
    · subst c; simp [brRecItem, l2Item, brOptions, stpOptions, igmpOptions]
    · simp [c]

/-! ## The options of the device, for the interface -/

theorem bridgeOptions_fold {t : Val} {R : VDict} (hn : (Dict.keys R).Nodup) (hif : Dict.get? R "ifname" = none)
    (hp : ∀ v, Dict.get? R "ports" = some v → blankJoin v = .ok t) {i : VDict} (hi : (Dict.keys i).Nodup) :
    ∃ i', R.foldlM bridgeOption i = .ok i' ∧ (Dict.keys i').Nodup ∧ ∀ x, Dict.get? i' x =
      if x = "ifname" then (if (Dict.get? R "ports").isSome then some t else Dict.get? i x)
      else if x = "bridge_21" ∨ x = "ports" then Dict.get? i x else (Dict.get? R x).or (Dict.get? i x) := by
  induction R generalizing i with
  | nil => exact ⟨i, rfl, hi, fun x => by simp⟩
  | cons p R ih =>
    obtain ⟨k, v⟩ := p
    rw [Dict.keys_cons, List.nodup_cons] at hn
    rw [List.foldlM_cons]
    have kif : k ≠ "ifname" := by
      rintro rfl
      simp at hif
    have hif' : Dict.get? R "ifname" = none := by
      rw [Dict.get?_cons, if_neg kif] at hif; exact hif
    have hRk : Dict.get? R k = none := (Dict.get?_eq_none_iff R k).2 hn.1
    unfold bridgeOption
    dsimp only
    by_cases c1 : k = "bridge_21"
    · subst c1
      simp only [if_true]
      obtain ⟨i', e1, e2, e3⟩ := ih hn.2 hif' (fun w hw => hp w (by rw [Dict.get?_cons, if_neg (by decide)]; exact hw)) hi
      refine ⟨i', e1, e2, fun x => ?_⟩
      rw [e3]
      have e4 : Dict.get? (("bridge_21", v) :: R) "ports" = Dict.get? R "ports" := by rw [Dict.get?_cons, if_neg (by decide)]
      rw [e4]
      by_cases c2 : x = "bridge_21"
      · subst c2; simp
      · have e5 : Dict.get? (("bridge_21", v) :: R) x = Dict.get? R x := by rw [Dict.get?_cons, if_neg (fun e => c2 e.symm)]
        rw [e5]
    · rw [if_neg c1]
      by_cases c2 : k = "ports"
      · subst c2
        rw [if_pos rfl, hp v (by rw [Dict.get?_cons, if_pos rfl])]
        obtain ⟨i', e1, e2, e3⟩ := ih hn.2 hif' (fun w hw => by rw [hRk] at hw; cases hw) (i := Dict.set i "ifname" t) (Dict.nodup_set hi _ _)
        refine ⟨i', e1, e2, fun x => ?_⟩
        rw [e3, Dict.get?_cons, if_pos rfl, hRk, Dict.get?_set']
        by_cases c3 : x = "ifname"
        · subst c3; simp
        · simp only [c3, if_false]
          by_cases c4 : x = "ports"
          · subst c4; simp
          · have e5 : Dict.get? (("ports", v) :: R) x = Dict.get? R x := by rw [Dict.get?_cons, if_neg (fun e => c4 e.symm)]
            rw [e5]
      · rw [if_neg c2]
        obtain ⟨i', e1, e2, e3⟩ := ih hn.2 hif' (fun w hw => hp w (by rw [Dict.get?_cons, if_neg c2]; exact hw)) (i := Dict.set i k v) (Dict.nodup_set hi _ _)
        refine ⟨i', e1, e2, fun x => ?_⟩
        have e4 : Dict.get? ((k, v) :: R) "ports" = Dict.get? R "ports" := by rw [Dict.get?_cons, if_neg c2]
        rw [e3, e4, Dict.get?_set']
        by_cases c3 : x = k
        · subst c3
          have e5 : Dict.get? ((x, v) :: R) x = some v := by rw [Dict.get?_cons, if_pos rfl]
          simp only [kif, c1, c2, or_self, if_false, if_true, hRk, e5, Option.none_or, Option.some_or]
        · have e5 : Dict.get? ((k, v) :: R) x = Dict.get? R x := by rw [Dict.get?_cons, if_neg (fun e => c3 e.symm)]
          rw [e5]
          simp only [c3, if_false]

theorem addDeviceOptions_bridge {name : String} {members : List String} {uci : Chars} {d i R : VDict} (hn : (Dict.keys R).Nodup)
    (hR : ∀ k, Dict.get? R k = brRecItem uci name members d k) (hi : (Dict.keys i).Nodup) (hif : Dict.get? i "ifname" = some (.str name))
    (h0 : ∀ k ∈ ["bridge_21", "ports"], Dict.get? i k = none) :
    ∃ i', addDeviceOptions i R = .ok (i', Dict.set R "consumed" (.bool true)) ∧ (Dict.keys i').Nodup ∧ ∀ k, Dict.get? i' k =
      if k = "ifname" then (if members = [] then some (.str name) else some (memberText members))
      else if k = "bridge_21" ∨ k = "ports" then none else (brRecItem uci name members d k).or (Dict.get? i k) := by
  have r1 : Dict.get? R "bridge_21" = some (.bool true) := by rw [hR]; simp [brRecItem]
  have r2 : Dict.get? R "name" = some (.str name) := by rw [hR]; simp [brRecItem]
  have r3 : Dict.get? R "consumed" = none := by rw [hR]; simp [brRecItem, l2Item, brOptions, stpOptions, igmpOptions]
  have r4 : Dict.get? R "type" = some (.str "bridge") := by rw [hR]; simp [brRecItem]
  have r5 : Dict.get? R "ifname" = none := by rw [hR]; simp [brRecItem, l2Item, brOptions, stpOptions, igmpOptions]
  have r6 : Dict.get? R "ports" = if members = [] then none else some (.list (members.map .str)) := by rw [hR]; simp [brRecItem]
  obtain ⟨j, e1, e2, e3⟩ := bridgeOptions_fold (t := memberText members) hn r5 (by
    intro v hv
    rw [r6] at hv
    split at hv
    · cases hv
    · cases hv; exact blankJoin_names members) hi
  obtain ⟨n2, g2⟩ := copyOptions_get (allOptions ++ stpOptions ++ igmpOptions) R e2
  unfold addDeviceOptions
  have t1 : ¬ "8021".toList <+: "bridge".toList := by decide
  rw [r1, r2, r3, r4, hif]
  simp only [Option.getD_some, Option.getD_none, Val.truthy, Bool.false_eq_true, ne_eq, not_true_eq_false, and_false, if_false, if_true, e1, bind, Except.bind,
    asText, t1, pure, Except.pure]
  refine ⟨_, rfl, n2, fun k => ?_⟩
  rw [g2, e3, r6]
  have q : ∀ k ∈ allOptions ++ stpOptions ++ igmpOptions, k ≠ "ifname" ∧ k ≠ "bridge_21" ∧ k ≠ "ports" := by decide +kernel
  by_cases c1 : k = "ifname"
  · subst c1
    rw [if_neg (fun hm => (q _ hm).1 rfl)]
    by_cases hm : members = [] <;> simp [hm, hif]
  by_cases c2 : k = "bridge_21" ∨ k = "ports"
  · rw [if_neg (fun hm => by rcases c2 with e | e; exact (q _ hm).2.1 e; exact (q _ hm).2.2 e), if_neg c1, if_pos c2, if_neg c1, if_pos c2]
    exact h0 k (by simpa using c2)
  · simp only [c1, c2, if_false, hR]
    split
    · cases brRecItem uci name members d k <;> rfl
    · rfl

/-! ## The type -/

theorem castInts_fold {t : String → Option Val} (ks : List String) (hk : ks.Nodup) {b : VDict} (hn : (Dict.keys b).Nodup)
    (h1 : ∀ k ∈ ks, Dict.get? b k = (t k).bind readVal) (h2 : ∀ k ∈ ks, ∀ v, t k = some v → ∃ i : Int, v = .int i) :
    ∃ r, ks.foldlM castIntOrDrop b = .ok r ∧ (Dict.keys r).Nodup ∧ ∀ x, Dict.get? r x = if x ∈ ks then t x else Dict.get? b x := by
  induction ks generalizing b with
  | nil => exact ⟨b, rfl, hn, fun x => by simp⟩
  | cons k ks ih =>
    rw [List.nodup_cons] at hk
    obtain ⟨c, c1, c2, c3⟩ : ∃ c, castIntOrDrop b k = .ok c ∧ (Dict.keys c).Nodup ∧ ∀ x, Dict.get? c x = if x = k then t k else Dict.get? b x := by
      unfold castIntOrDrop
      rw [h1 k (by simp)]
      cases ht : t k with
      | none =>
        refine ⟨b, rfl, hn, fun x => ?_⟩
        by_cases c : x = k
        · rw [if_pos c, c, h1 k (by simp), ht]; rfl
        · rw [if_neg c]
      | some v =>
        obtain ⟨i, rfl⟩ := h2 k (by simp) v ht
        simp only [Option.bind_some, readVal, toInt_show]
        exact ⟨_, rfl, Dict.nodup_set hn _ _, fun x => by rw [Dict.get?_set']⟩
    rw [List.foldlM_cons, c1]
    obtain ⟨r, r1, r2, r3⟩ := ih hk.2 c2 (fun x hx => by
        rw [c3, if_neg (by rintro rfl; exact hk.1 hx)]; exact h1 x (by simp [hx])) (fun x hx => h2 x (by simp [hx]))
    refine ⟨r, r1, r2, fun x => ?_⟩
    rw [r3, c3]
    by_cases e1 : x = k
    · subst e1; simp [hk.1]
    · simp [e1]

theorem castBools_nodup (ks : List String) {w : VDict} (hn : (Dict.keys w).Nodup) : (Dict.keys (ks.foldl castBool w)).Nodup := by
  induction ks generalizing w with
  | nil => exact hn
  | cons k ks ih =>
    rw [List.foldl_cons]
    apply ih
    unfold castBool
    split
    · exact Dict.nodup_set hn _ _
    · exact hn

/-- the casts of the options of a bridge -/
theorem bridgeTypecast_ok {b d : VDict} (hn : (Dict.keys b).Nodup) (h1 : ∀ k ∈ brOptions, Dict.get? b k = (Dict.get? d k).bind readVal)
    (h2 : ∀ k ∈ bridgeFlags, ∀ v, Dict.get? d k = some v → ∃ b, v = .bool b) (h3 : ∀ k ∈ bridgeInts, ∀ v, Dict.get? d k = some v → ∃ i : Int, v = .int i)
    (h4 : Dict.get? d "ageing_time" = none) :
    ∃ r, bridgeTypecast b = .ok r ∧ (Dict.keys r).Nodup ∧ ∀ k, Dict.get? r k = if k ∈ brOptions then Dict.get? d k else Dict.get? b k := by
  unfold bridgeTypecast
  have q1 : ∀ k ∈ bridgeInts, k ∈ brOptions ∧ k ∉ bridgeFlags := by decide +kernel
  have q2 : ∀ k ∈ bridgeFlags, k ∈ brOptions ∧ k ∉ bridgeInts := by decide +kernel
  have q3 : ∀ k ∈ brOptions, k ∈ bridgeFlags ∨ k ∈ bridgeInts ∨ k = "ageing_time" := by decide +kernel
  have g1 := castBools_get bridgeFlags (by decide) b
  have n1 := castBools_nodup bridgeFlags hn
  have e : ["stp", "igmp_snooping", "multicast_querier"].foldl castBool b = bridgeFlags.foldl castBool b := rfl
  rw [e]
  generalize bridgeFlags.foldl castBool b = c at g1 n1
  obtain ⟨r, r1, r2, r3⟩ := castInts_fold (t := fun k => Dict.get? d k) bridgeInts (by decide +kernel) n1
    (fun k hk => by rw [g1, if_neg (q1 k hk).2]; exact h1 k (q1 k hk).1) h3
  refine ⟨r, r1, r2, fun k => ?_⟩
  rw [r3, g1]
  by_cases c1 : k ∈ bridgeInts
  · rw [if_pos c1, if_pos (q1 k c1).1]
  rw [if_neg c1]
  by_cases c2 : k ∈ bridgeFlags
  · rw [if_pos c2, if_pos (q2 k c2).1, h1 k (q2 k c2).1]
    cases hv : Dict.get? d k with
    | none => rfl
    | some v => obtain ⟨x, rfl⟩ := h2 k c2 v hv; cases x <;> decide
  rw [if_neg c2]
  by_cases c3 : k ∈ brOptions
  · rcases q3 k c3 with e | e | rfl
    · exact absurd e c2
    · exact absurd e c1
    · rw [if_pos c3, h1 _ c3, h4]; rfl
  · rw [if_neg c3]

/-- What the section of a bridge says after the options of its device have been added. -/
structure BrRead (env : Env) (dsa : Bool) (servers search : List String) (uci : Chars) (name : String) (g : Group) (members : List String) (d b : VDict) :
    Prop where
  nodup : (Dict.keys b).Nodup
  type : Dict.get? b ".type" = some (.str "interface")
  secName : Dict.get? b ".name" = some (txt uci)
  ifname : members ≠ [] → Dict.get? b "ifname" = some (memberText members)
  ifnameText : members = [] → Dict.get? b "ifname" = none ∨ Dict.get? b "ifname" = some (.str name)
  empty : Dict.get? b "bridge_empty" = if members = [] then some (.str "1") else none
  devName : Dict.get? b "name" = if dsa then some (.str name) else none
  kind : Dict.get? b "type" = some (.str "bridge")
  dns : Dict.get? b "dns" = readVal (joinedNames (serversOf servers g))
  search : Dict.get? b "dns_search" = readVal (joinedNames (searchOf search g))
  group : ∀ k ∈ ["proto", "ipaddr", "netmask", "ip6addr"], Dict.get? b k = groupItem env g k
  gateway : ∀ v6, Dict.get? b (gwKey v6) = (groupGw g v6).map .str
  auto : Dict.get? b "auto" = (Dict.get? d "autostart").bind readVal
  enabled : Dict.get? b "enabled" = ((Dict.get? d "disabled").map (fun v => Val.bool (!v.truthy))).bind readVal
  macaddr : Dict.get? b "macaddr" = Dict.get? d "mac"
  mtu : ∀ v, Dict.get? d "mtu" = some v → ∃ w, Dict.get? b "mtu" = some w ∧ toInt w = .ok v
  noMtu : Dict.get? d "mtu" = none → Dict.get? b "mtu" = none
  options : ∀ k ∈ brOptions, Dict.get? b k = (Dict.get? d k).bind readVal
  absent : ∀ k ∈ ["addresses", "mac", "autostart", "disabled", "device_name", "vid", "bridge_21"], Dict.get? b k = none
  other : ∀ k, k ∉ sectionKeys → k ∉ bridgeOptions → k ≠ "bridge_empty" → Dict.get? b k = Dict.get? d k

/-- the type of a bridge, with its members and its name -/
theorem typeBack_bridge {env : Env} {dsa : Bool} {name : String} {network : Option String} {g : Group} {members : List String} {d b : VDict}
    (h : BridgeOK env dsa name network g members d) (hn : (Dict.keys b).Nodup)
    (h1 : Dict.get? b "device_name" = some (if dsa then .str name else .none)) (h2 : Dict.get? b "type" = some (.str "bridge"))
    (h3 : members ≠ [] → Dict.get? b "name" = some (memberText members)) (h4 : ∃ s, Dict.get? b "name" = some (.str s))
    (h5 : Dict.get? b "network" = some (txt (sectionName name network)))
    (h6 : Dict.get? b "bridge_empty" = if members = [] then some (.str "1") else none)
    (h7 : ∀ k ∈ brOptions, Dict.get? b k = (Dict.get? d k).bind readVal) :
    ∃ b', typeBack b = .ok (.str "bridge", b') ∧ (Dict.keys b').Nodup ∧ ∀ k, Dict.get? b' k =
      if k = "name" then some (.str name) else if k = "bridge_members" then some (.list (members.map .str))
      else if k = "bridge_empty" ∨ k = "device_name" then none else if k ∈ brOptions then Dict.get? d k else Dict.get? b k := by
  obtain ⟨s, hs⟩ := h4
  unfold typeBack popOr
  have e2 : Dict.get? (Dict.erase b "device_name") "type" = some (.str "bridge") := by rw [Dict.get?_erase', if_neg (by decide), h2]
  simp only [h1, Option.getD_some, e2, if_true, bind, Except.bind]
  unfold bridgeBack
  have e3 : Dict.get? (Dict.erase b "device_name") "name" = some (.str s) := by rw [Dict.get?_erase', if_neg (by decide), hs]
  have e4 : ∀ v, Dict.get? (Dict.set (Dict.erase b "device_name") "bridge_members" v) "network" = some (txt (sectionName name network)) := by
    intro v; rw [Dict.get?_set', if_neg (by decide), Dict.get?_erase', if_neg (by decide), h5]
  simp only [getKey_ok e3, bind, Except.bind, asText, getKey_ok (e4 _)]
  have hno' : asText (orVal (if dsa = true then Val.str name else .none) (txt (sectionName name network))) =
      .ok (if dsa then name.toList else sectionName name network) := by
    cases dsa with
    | true =>
      have := word_truthy h.word
      simp only [if_true, orVal, this, asText]
    | false => simp [orVal, Val.truthy, txt, asText]
  simp only [asText] at hno'
  rw [hno']
  dsimp only
  have hnb := h.nameBack
  unfold bridgeNameBack at hnb
  rw [hnb]
  have etxt : txt name.toList = .str name := by simp [txt]
  rw [etxt]
  have nb : (Dict.keys (Dict.set (Dict.set (Dict.erase b "device_name") "bridge_members" (.list ((words s.toList).map txt))) "name" (.str name))).Nodup :=
    Dict.nodup_set (Dict.nodup_set (Dict.nodup_erase hn _) _ _) _ _
  have gb : ∀ k, Dict.get? (Dict.set (Dict.set (Dict.erase b "device_name") "bridge_members" (.list ((words s.toList).map txt))) "name" (.str name)) k =
      if k = "name" then some (.str name) else if k = "bridge_members" then some (.list ((words s.toList).map txt))
      else if k = "device_name" then none else Dict.get? b k := by
    intro k; rw [Dict.get?_set', Dict.get?_set', Dict.get?_erase']
  generalize Dict.set (Dict.set (Dict.erase b "device_name") "bridge_members" (.list ((words s.toList).map txt))) "name" (.str name) = c at nb gb
  have q : ∀ k ∈ brOptions, k ≠ "name" ∧ k ≠ "bridge_members" ∧ k ≠ "device_name" ∧ k ≠ "bridge_empty" := by decide +kernel
  obtain ⟨r, r1, r2, r3⟩ := bridgeTypecast_ok (d := d) nb (fun k hk => by
    obtain ⟨q1, q2, q3, q4⟩ := q k hk
    rw [gb, if_neg q1, if_neg q2, if_neg q3]; exact h7 k hk) h.flags h.numbers h.ageing
  rw [r1]
  dsimp only
  have he : Dict.get? r "bridge_empty" = if members = [] then some (.str "1") else none := by
    rw [r3, if_neg (by decide +kernel), gb, if_neg (by decide), if_neg (by decide), if_neg (by decide), h6]
  have gr : ∀ k, Dict.get? r k = if k = "name" then some (.str name) else if k = "bridge_members" then some (.list ((words s.toList).map txt))
      else if k = "device_name" then none else if k ∈ brOptions then Dict.get? d k else Dict.get? b k := by
    intro k
    rw [r3, gb]
    by_cases c1 : k ∈ brOptions
    · obtain ⟨q1, q2, q3, q4⟩ := q k c1
      simp only [c1, q1, q2, q3, if_true, if_false]
    · simp only [c1, if_false]
  rw [popOr_pair, he]
  dsimp only
  by_cases hm : members = []
  · subst hm
    simp only [if_true, Option.getD_some, pure, Except.pure]
    refine ⟨_, rfl, Dict.nodup_set (Dict.nodup_erase r2 _) _ _, fun k => ?_⟩
    rw [Dict.get?_set', Dict.get?_erase', gr]
    by_cases c1 : k = "name"
    · subst c1; simp
    by_cases c2 : k = "bridge_members"
    · subst c2; simp
    by_cases c3 : k = "bridge_empty"
    · subst c3; simp
    simp only [c1, c2, c3, if_false, false_or]
  · simp only [hm, if_false, Option.getD_none, pure, Except.pure]
    rw [if_neg (by decide)]
    refine ⟨_, rfl, Dict.nodup_erase r2 _, fun k => ?_⟩
    have hw : (words s.toList).map txt = members.map .str := by
      have e := h3 hm
      rw [hs] at e
      have e : s = String.ofList (joinWith [' '] (members.map String.toList)) := by injection e with e; injection e
      rw [e, String.toList_ofList, words_join _ (by simpa using h.memberWords), List.map_map]
      apply List.map_congr_left
      intro m _
      simp [txt]
    rw [Dict.get?_erase', gr, hw]
    by_cases c1 : k = "name"
    · subst c1; simp
    by_cases c2 : k = "bridge_members"
    · subst c2; simp
    by_cases c3 : k = "bridge_empty"
    · subst c3; simp
    simp only [c1, c2, c3, if_false, false_or]

/-- the part of `__netjson_interface` before the type -/
theorem bridge_pre {env : Env} {dsa : Bool} {servers search : List String} {name : String} {g : Group} {members : List String} {d b : VDict} {uci : Chars}
    (hb : BrRead env dsa servers search uci name g members d b) :
    ∃ b1 s, (members ≠ [] → Val.str s = memberText members) ∧ (Dict.keys b1).Nodup ∧
      (∀ k, Dict.get? b1 k = if k = "name" then some (.str s) else if k = "ifname" then none
        else if k = "device_name" then some (if dsa then .str name else .none)
        else if k = "network" then some (txt uci) else if k = ".name" then none else if k = ".type" then none else Dict.get? b k) ∧
      ifaceBack env b = (do
        let (type, d) ← typeBack b1
        let d ← addressesBack env (Dict.set d "type" type)
        let d ← restBack d
        let d ← dropNetwork d
        protoBack env d) := by
  obtain ⟨s, hs1, hs2⟩ : ∃ s, (Dict.get? b "ifname").getD (txt uci) = .str s ∧ (members ≠ [] → Val.str s = memberText members) := by
    by_cases hm : members = []
    · rcases hb.ifnameText hm with e | e
      · exact ⟨_, by rw [e]; rfl, fun h => absurd hm h⟩
      · exact ⟨_, by rw [e]; rfl, fun h => absurd hm h⟩
    · exact ⟨_, by rw [hb.ifname hm]; rfl, fun _ => rfl⟩
  refine ⟨Dict.set (Dict.erase (Dict.set (Dict.set (Dict.erase (Dict.erase b ".type") ".name") "network" (txt uci))
      "device_name" (if dsa then .str name else .none)) "ifname") "name" (.str s), s, hs2, ?_, ?_, ?_⟩
  · exact Dict.nodup_set (Dict.nodup_erase (Dict.nodup_set (Dict.nodup_set (Dict.nodup_erase (Dict.nodup_erase hb.nodup _) _) _ _) _ _) _) _ _
  · intro k
    simp only [Dict.get?_set', Dict.get?_erase']
  · rw [ifaceBack_split, popKey_ok hb.type]
    simp only [bind, Except.bind]
    rw [popKey_ok (show Dict.get? (Dict.erase b ".type") ".name" = _ by rw [Dict.get?_erase', if_neg (by decide), hb.secName])]
    dsimp only [popOr]
    have e1 : (Dict.get? (Dict.set (Dict.erase (Dict.erase b ".type") ".name") "network" (txt uci)) "name").getD .none = if dsa then .str name else .none := by
      simp only [Dict.get?_set', Dict.get?_erase', String.reduceEq, if_false, hb.devName]
      cases dsa <;> rfl
    rw [e1]
    have e2 : (Dict.get? (Dict.set (Dict.set (Dict.erase (Dict.erase b ".type") ".name") "network" (txt uci)) "device_name" (if dsa = true then Val.str name else .none))
        "ifname").getD (txt uci) = .str s := by
      simp only [Dict.get?_set', Dict.get?_erase', String.reduceEq, if_false, hs1]
    rw [e2]

theorem ifaceBack_bridge {env : Env} {dsa : Bool} {servers search : List String} {name : String} {network : Option String} {g : Group}
    {members : List String} {d b : VDict}
    (h : BridgeOK env dsa name network g members d) (hb : BrRead env dsa servers search (sectionName name network) name g members d b) :
    ∃ r, ifaceBack env b = .ok r ∧ IfaceRead env servers search name network g r d := by
  obtain ⟨b1, s, p1, p2, p3, p4⟩ := bridge_pre hb
  rw [p4]
  clear p4
  have pk : ∀ k, k ∉ ["name", "ifname", "device_name", "network", ".name", ".type"] → Dict.get? b1 k = Dict.get? b k := by
    intro k hk
    simp only [List.mem_cons, List.not_mem_nil, or_false, not_or] at hk
    obtain ⟨c1, c2, c3, c4, c5, c6⟩ := hk
    rw [p3]; simp only [c1, c2, c3, c4, c5, c6, if_false]
  have q : ∀ k ∈ brOptions, k ∉ ["name", "ifname", "device_name", "network", ".name", ".type"] ∧ k ∉ sectionKeys ∧ k ≠ "bridge_members" ∧ k ≠ "bridge_empty" := by
    decide +kernel
  obtain ⟨b2, t1, t2, t3⟩ := typeBack_bridge h p2 (by rw [p3]; simp) (by rw [pk _ (by decide)]; exact hb.kind) (by
      intro hm; rw [p3, if_pos rfl, p1 hm]) ⟨s, by rw [p3, if_pos rfl]⟩ (by rw [p3]; simp) (by rw [pk _ (by decide)]; exact hb.empty)
    (fun k hk => by rw [pk k (q k hk).1]; exact hb.options k hk)
  rw [t1]
  simp only [bind, Except.bind]
  have n2 : (Dict.keys (Dict.set b2 "type" (.str "bridge"))).Nodup := Dict.nodup_set t2 _ _
  have g2 : ∀ k, Dict.get? (Dict.set b2 "type" (.str "bridge")) k = if k = "type" then some (.str "bridge") else Dict.get? b2 k := by
    intro k; rw [Dict.get?_set']
  generalize Dict.set b2 "type" (.str "bridge") = b3 at n2 g2
  have k2 : ∀ k, k ∉ ["type", "name", "ifname", "device_name", ".name", ".type", "network", "bridge_members", "bridge_empty"] → k ∉ brOptions →
      Dict.get? b3 k = Dict.get? b k := by
    intro k hk hk2
    simp only [List.mem_cons, List.not_mem_nil, or_false, not_or] at hk
    obtain ⟨c1, c2, c3, c4, c5, c6, c7, c8, c9⟩ := hk
    rw [g2, if_neg c1, t3, if_neg c2, if_neg c8, if_neg (by simp [c9, c4]), if_neg hk2, pk k (by simp [c2, c3, c4, c5, c6, c7])]
  have key := iface_tail (servers := servers) (search := search) h.toIfaceOK n2 (by rw [g2, if_neg (by decide), t3]; simp)
    (by rw [g2, if_neg (by decide), t3, if_neg (by decide), if_neg (by decide), if_neg (by decide), if_neg (by decide +kernel), p3]; simp)
    (by rw [k2 _ (by decide) (by decide +kernel)]; exact hb.dns) (by rw [k2 _ (by decide) (by decide +kernel)]; exact hb.search)
    (by
      intro k hk
      rw [k2]
      · exact hb.group k hk
      · simp only [List.mem_cons, List.not_mem_nil, or_false] at hk
        rcases hk with rfl | rfl | rfl | rfl <;> decide
      · simp only [List.mem_cons, List.not_mem_nil, or_false] at hk
        rcases hk with rfl | rfl | rfl | rfl <;> decide +kernel)
    (by
      intro v6
      rw [k2]
      · exact hb.gateway v6
      · cases v6 <;> decide
      · cases v6 <;> decide +kernel)
    (by rw [k2 _ (by decide) (by decide +kernel)]; exact hb.auto) (by rw [k2 _ (by decide) (by decide +kernel)]; exact hb.enabled)
    (by rw [k2 _ (by decide) (by decide +kernel)]; exact hb.macaddr)
    (by rw [k2 _ (by decide) (by decide +kernel)]; exact hb.mtu) (by rw [k2 _ (by decide) (by decide +kernel)]; exact hb.noMtu)
    (by
      intro k hk
      by_cases c : k ∈ ["ifname", "device_name", ".name", ".type"]
      · have q2 : ∀ k ∈ ["ifname", "device_name", ".name", ".type"], k ≠ "type" ∧ k ≠ "name" ∧ k ≠ "bridge_members" ∧ k ∉ brOptions := by decide +kernel
        obtain ⟨z1, z2, z3, z4⟩ := q2 k c
        rw [g2, if_neg z1, t3, if_neg z2, if_neg z3, if_neg z4]
        simp only [List.mem_cons, List.not_mem_nil, or_false] at c
        rcases c with rfl | rfl | rfl | rfl <;> simp [p3]
      · rw [k2]
        · apply hb.absent
          simp only [List.mem_cons, List.not_mem_nil, or_false] at hk c ⊢
          rcases hk with rfl | rfl | rfl | rfl | rfl | rfl | rfl | rfl | rfl | rfl <;> simp at c ⊢
        · simp only [List.mem_cons, List.not_mem_nil, or_false] at hk c ⊢
          rcases hk with rfl | rfl | rfl | rfl | rfl | rfl | rfl | rfl | rfl | rfl <;> simp at c ⊢
        · simp only [List.mem_cons, List.not_mem_nil, or_false] at hk
          rcases hk with rfl | rfl | rfl | rfl | rfl | rfl | rfl | rfl | rfl | rfl <;> decide +kernel)
    h.toIfaceOK.noDot
    (by
      intro k hk
      rcases hk with hk | rfl
      · have z : ∀ x ∈ sectionKeys, k ≠ x := by rintro x hx rfl; exact hk hx
        have z1 : k ≠ "type" := z _ (by decide)
        have z2 : k ≠ "name" := z _ (by decide)
        have z3 : k ≠ "device_name" := z _ (by decide)
        by_cases c1 : k = "bridge_members"
        · subst c1; rw [g2, if_neg z1, t3, if_neg z2, if_pos rfl, h.membersOk]
        by_cases c2 : k = "bridge_empty"
        · subst c2; rw [g2, if_neg z1, t3, if_neg z2, if_neg c1, if_pos (.inl rfl)]; exact (h.reserved _ (by decide)).symm
        by_cases c3 : k ∈ brOptions
        · rw [g2, if_neg z1, t3, if_neg z2, if_neg c1, if_neg (by simp [c2, z3]), if_pos c3]
        · rw [k2 k (by
            intro hm
            simp only [List.mem_cons, List.not_mem_nil, or_false] at hm
            rcases hm with e | e | e | e | e | e | e | e | e <;> first | exact c1 e | exact c2 e | exact z _ (by decide) e) c3]
          exact hb.other k hk (fun hm => (bridgeOptions_cases hm).elim c1 c3) c2
      · rw [g2, if_pos rfl, h.type])
  exact key

/-! ## The section read from text -/

/-- keys of the section of a bridge with a meaning of their own -/
def brKeys : List String :=
  [".type", ".name", "mtu", "macaddr", "ifname", "device", "dns", "dns_search", "proto", "ipaddr", "netmask", "ip6addr", "type", "name", "network",
   "bridge_empty", "bridge_21"]

theorem brRead_of {env : Env} {dsa : Bool} {servers search : List String} {name : String} {network : Option String} {g : Group} {members : List String}
    {d b : VDict} (h : BridgeOK env dsa name network g members d) (hn : (Dict.keys b).Nodup)
    (h1 : Dict.get? b ".type" = some (.str "interface")) (h2 : Dict.get? b ".name" = some (txt (sectionName name network)))
    (h3 : members ≠ [] → Dict.get? b "ifname" = some (memberText members))
    (h4 : members = [] → Dict.get? b "ifname" = none ∨ Dict.get? b "ifname" = some (.str name))
    (h5 : Dict.get? b "bridge_empty" = if members = [] then some (.str "1") else none)
    (h6 : Dict.get? b "name" = if dsa then some (.str name) else none) (h7 : Dict.get? b "type" = some (.str "bridge"))
    (h8 : Dict.get? b "dns" = readVal (joinedNames (serversOf servers g))) (h9 : Dict.get? b "dns_search" = readVal (joinedNames (searchOf search g)))
    (h10 : ∀ k ∈ ["proto", "ipaddr", "netmask", "ip6addr"], Dict.get? b k = (groupItem env g k).bind readVal)
    (h11 : Dict.get? b "macaddr" = Dict.get? d "mac")
    (h12 : ∀ v, Dict.get? d "mtu" = some v → ∃ w, Dict.get? b "mtu" = some w ∧ toInt w = .ok v)
    (h13 : Dict.get? d "mtu" = none → Dict.get? b "mtu" = none)
    (h14 : ∀ k ∈ brOptions, Dict.get? b k = (Dict.get? d k).bind readVal) (h15 : Dict.get? b "bridge_21" = none) (h16 : Dict.get? b "device" = none)
    (hbb : ∀ k, k ∉ brKeys → k ∉ bridgeOptions → Dict.get? b k = (blockItem (sectionName name network) name g d k).bind readVal) :
    BrRead env dsa servers search (sectionName name network) name g members d b where
  nodup := hn
  type := h1
  secName := h2
  ifname := h3
  ifnameText := h4
  empty := h5
  devName := h6
  kind := h7
  dns := h8
  search := h9
  group := fun k hk => by rw [h10 k hk]; exact groupItem_read h.groupRead k
  gateway := by
    intro v6
    cases v6
    · show Dict.get? b "gateway" = _
      rw [hbb _ (by decide) (by decide +kernel)]; simp only [blockItem, String.reduceEq, if_false, if_true]; exact gw_read h.groupRead false
    · show Dict.get? b "ip6gw" = _
      rw [hbb _ (by decide) (by decide +kernel)]; simp only [blockItem, String.reduceEq, if_false, if_true]; exact gw_read h.groupRead true
  auto := by rw [hbb _ (by decide) (by decide +kernel)]; simp [blockItem]
  enabled := by rw [hbb _ (by decide) (by decide +kernel)]; simp [blockItem]
  macaddr := h11
  mtu := h12
  noMtu := h13
  options := h14
  absent := by
    intro k hk
    have r1 := h.reserved "device_name" (by decide)
    have r2 := h.reserved "vid" (by decide)
    simp only [List.mem_cons, List.not_mem_nil, or_false] at hk
    rcases hk with rfl | rfl | rfl | rfl | rfl | rfl | rfl <;>
      first | exact h15 | (rw [hbb _ (by decide) (by decide +kernel)]; simp [blockItem, r1, r2])
  other := by
    intro k hk hk2 hk3
    by_cases hd : k = "device"
    · rw [hd, h16]; exact (h.reserved _ (by decide)).symm
    have ne : ∀ x ∈ sectionKeys, k ≠ x := by rintro x hx rfl; exact hk hx
    rw [hbb k (by
      intro hm
      have : ∀ x ∈ brKeys, x ∈ sectionKeys ∨ x = "device" ∨ x = "bridge_empty" := by decide +kernel
      rcases this k hm with e | e | e
      · exact hk e
      · exact hd e
      · exact hk3 e) hk2]
    have hbl : blockItem (sectionName name network) name g d k = Dict.get? d k := by
      unfold blockItem
      rw [if_neg (ne _ (by decide)), if_neg (ne _ (by decide)), if_neg (ne _ (by decide)), if_neg (ne _ (by decide)), if_neg (ne _ (by decide)),
        if_neg (ne _ (by decide)), if_neg (ne _ (by decide)), if_neg (ne _ (by decide)), if_neg]
      intro hm
      simp only [List.mem_cons, List.not_mem_nil, or_false] at hm
      rcases hm with rfl | rfl | rfl | rfl | rfl | rfl <;> exact ne _ (by decide) rfl
    rw [hbl]
    exact h.toIfaceOK.other_read (by
        intro hm
        have : ∀ x ∈ ifaceKeys, x ∈ sectionKeys := by decide +kernel
        exact hk (this k hm)) hk2

/-- a bridge of old OpenWrt -/
theorem bridge_legacy {env : Env} {servers search : List String} {name : String} {network : Option String} {g : Group} {members : List String}
    {d S b : VDict} (h : BridgeOK env false name network g members d)
    (hS : ∀ k, Dict.get? S k = brItem env false servers search (sectionName name network) name g members d k) (hn : (Dict.keys b).Nodup)
    (hb : ∀ k, Dict.get? b k = if k = ".type" ∨ k = ".name" then Dict.get? S k else (Dict.get? S k).bind readVal) :
    BrRead env false servers search (sectionName name network) name g members d b := by
  have hbS : ∀ k, k ≠ ".type" → k ≠ ".name" → Dict.get? b k = (brItem env false servers search (sectionName name network) name g members d k).bind readVal := by
    intro k k1 k2
    rw [hb, if_neg (by simp [k1, k2]), hS]
  have hk : ∀ k, k ∉ ["dns", "dns_search", "proto", "ipaddr", "netmask", "ip6addr", "bridge_members", "ifname", "bridge_empty", ".type", ".name"] →
      Dict.get? b k = (blockItem (sectionName name network) name g d k).bind readVal := by
    intro k hk
    simp only [List.mem_cons, List.not_mem_nil, or_false, not_or] at hk
    obtain ⟨c1, c2, c3, c4, c5, c6, c7, c8, c9, c10, c11⟩ := hk
    rw [hbS k c10 c11]
    unfold brItem
    simp only [c1, c2, c3, c4, c5, c6, c7, c8, c9, List.mem_cons, List.not_mem_nil, or_self, if_false, Bool.false_eq_true]
  refine brRead_of h hn ?_ ?_ ?_ ?_ ?_ ?_ ?_ ?_ ?_ ?_ ?_ ?_ ?_ ?_ ?_ ?_ ?_
  · rw [hb, if_pos (.inl rfl), hS]; simp [brItem, blockItem]
  · rw [hb, if_pos (.inr rfl), hS]; simp [brItem, blockItem]
  · intro hm
    rw [hbS _ (by decide) (by decide)]
    simp only [brItem, String.reduceEq, if_false, if_true, List.mem_cons, List.not_mem_nil, or_self, hm, Bool.false_eq_true, Option.bind_some]
    exact readVal_txt (memberText_ne h.memberWords hm)
  · intro hm
    left
    rw [hbS _ (by decide) (by decide)]
    simp [brItem, hm]
  · rw [hbS _ (by decide) (by decide)]
    by_cases hm : members = [] <;> simp [brItem, hm, readVal]
  · rw [hk _ (by decide)]; simp [blockItem]
  · rw [hk _ (by decide), blockItem_option (by simp), h.type]; rfl
  · rw [hbS _ (by decide) (by decide)]; simp [brItem]
  · rw [hbS _ (by decide) (by decide)]; simp [brItem]
  · intro k hk1
    have q : ∀ k ∈ ["proto", "ipaddr", "netmask", "ip6addr"], k ≠ ".type" ∧ k ≠ ".name" ∧ k ≠ "dns" ∧ k ≠ "dns_search" := by decide
    obtain ⟨q1, q2, q3, q4⟩ := q k hk1
    rw [hbS k q1 q2]
    unfold brItem
    rw [if_neg q3, if_neg q4, if_pos hk1]
  · rw [hk _ (by decide)]; simp only [blockItem, String.reduceEq, if_false, if_true]; exact h.mac_read
  · intro v hv
    obtain ⟨i, rfl⟩ := h.mtu v hv
    exact ⟨_, by rw [hk _ (by decide)]; simp [blockItem, hv, readVal], toInt_show i⟩
  · intro hv; rw [hk _ (by decide)]; simp [blockItem, hv]
  · intro k hk1
    have q : ∀ k ∈ brOptions, k ∉ ["dns", "dns_search", "proto", "ipaddr", "netmask", "ip6addr", "bridge_members", "ifname", "bridge_empty", ".type", ".name"] := by
      decide +kernel
    rw [hk k (q k hk1), blockItem_option (.inl hk1)]
  · rw [hk _ (by decide)]; simp [blockItem, h.reserved "bridge_21" (by decide)]
  · rw [hk _ (by decide)]; simp [blockItem, h.reserved "device" (by decide)]
  · intro k k1 k2
    apply hk
    intro hm
    have q : ∀ k ∈ ["dns", "dns_search", "proto", "ipaddr", "netmask", "ip6addr", "bridge_members", "ifname", "bridge_empty", ".type", ".name"],
      k ∈ brKeys ∨ k ∈ bridgeOptions := by decide +kernel
    exact (q k hm).elim k1 k2

/-- a bridge of DSA, with the options of its device -/
theorem bridge_dsa {env : Env} {servers search : List String} {name : String} {network : Option String} {g : Group} {members : List String}
    {d S i b : VDict} (h : BridgeOK env true name network g members d)
    (hS : ∀ k, Dict.get? S k = brItem env true servers search (sectionName name network) name g members d k) (hn : (Dict.keys b).Nodup)
    (hi : ∀ k, Dict.get? i k = if k = "ifname" then some (.str name) else if k = "device" then none else
      if k = ".type" ∨ k = ".name" then Dict.get? S k else (Dict.get? S k).bind readVal)
    (hb : ∀ k, Dict.get? b k = if k = "ifname" then (if members = [] then some (.str name) else some (memberText members))
      else if k = "bridge_21" ∨ k = "ports" then none else (brRecItem (sectionName name network) name members d k).or (Dict.get? i k)) :
    BrRead env true servers search (sectionName name network) name g members d b := by
  have hrec : ∀ k, k ∉ [".type", "name", "network", "type", "bridge_21", "ports", "bridge_empty", "mtu", "macaddr"] → k ∉ brOptions →
      brRecItem (sectionName name network) name members d k = none := by
    intro k k1 k2
    simp only [List.mem_cons, List.not_mem_nil, or_false, not_or] at k1
    obtain ⟨c1, c2, c3, c4, c5, c6, c7, c8, c9⟩ := k1
    unfold brRecItem l2Item
    simp only [c1, c2, c3, c4, c5, c6, c7, c8, c9, k2, if_false]
  have hbi : ∀ k, k ∉ [".type", ".name", "name", "network", "type", "bridge_21", "ports", "bridge_empty", "mtu", "macaddr", "ifname", "device"] →
      k ∉ brOptions → Dict.get? b k = (brItem env true servers search (sectionName name network) name g members d k).bind readVal := by
    intro k k1 k2
    have k1' := k1
    simp only [List.mem_cons, List.not_mem_nil, or_false, not_or] at k1
    obtain ⟨c1, c2, c3, c4, c5, c6, c7, c8, c9, c10, c11, c12⟩ := k1
    rw [hb, if_neg c11, if_neg (by simp [c6, c7]), hrec k (by simp [c1, c3, c4, c5, c6, c7, c8, c9, c10]) k2, Option.none_or, hi, if_neg c11, if_neg c12,
      if_neg (by simp [c1, c2]), hS]
  have hbr : ∀ k v, k ∉ ["ifname", "bridge_21", "ports"] → brRecItem (sectionName name network) name members d k = some v → Dict.get? b k = some v := by
    intro k v k1 k2
    simp only [List.mem_cons, List.not_mem_nil, or_false, not_or] at k1
    rw [hb, if_neg k1.1, if_neg (by simp [k1.2]), k2]; rfl
  -- keys only the device has
  have hclean : ∀ k, k ∈ cleanKeys → Dict.get? S k = none := by
    intro k hk
    have q : ∀ k ∈ cleanKeys, k ≠ "dns" ∧ k ≠ "dns_search" ∧ k ∉ ["proto", "ipaddr", "netmask", "ip6addr"] := by decide +kernel
    obtain ⟨q1, q2, q3⟩ := q k hk
    rw [hS]
    unfold brItem
    rw [if_neg q1, if_neg q2, if_neg q3, if_pos rfl, if_pos hk]
  have hclean' : ∀ k, k ∈ cleanKeys → k ≠ "ifname" → Dict.get? i k = none := by
    intro k hk k1
    have q : ∀ k ∈ cleanKeys, k ≠ ".type" ∧ k ≠ ".name" := by decide +kernel
    rw [hi, if_neg k1, hclean k hk]
    simp
  refine brRead_of h hn ?_ ?_ ?_ ?_ ?_ ?_ ?_ ?_ ?_ ?_ ?_ ?_ ?_ ?_ ?_ ?_ ?_
  · exact hbr _ _ (by decide) (by simp [brRecItem])
  · rw [hb, if_neg (by decide), if_neg (by decide), hrec _ (by decide) (by decide +kernel), Option.none_or, hi, if_neg (by decide), if_neg (by decide),
      if_pos (.inr rfl), hS]
    simp [brItem, dsaItem, blockItem, cleanKeys, stpOptions, igmpOptions, allOptions]
  · intro hm; rw [hb, if_pos rfl, if_neg hm]
  · intro hm; right; rw [hb, if_pos rfl, if_pos hm]
  · rw [hb, if_neg (by decide), if_neg (by decide), hi, if_neg (by decide), if_neg (by decide), if_neg (by decide), hS]
    have : brItem env true servers search (sectionName name network) name g members d "bridge_empty" = none := by
      simp [brItem, dsaItem, blockItem, cleanKeys, stpOptions, igmpOptions, allOptions, h.reserved "bridge_empty" (by decide)]
    rw [this]
    by_cases hm : members = [] <;> simp [brRecItem, hm]
  · exact hbr _ _ (by decide) (by simp [brRecItem])
  · exact hbr _ _ (by decide) (by simp [brRecItem])
  · rw [hbi _ (by decide) (by decide +kernel)]; simp [brItem]
  · rw [hbi _ (by decide) (by decide +kernel)]; simp [brItem]
  · intro k hk1
    have q : ∀ k ∈ ["proto", "ipaddr", "netmask", "ip6addr"],
      k ∉ [".type", ".name", "name", "network", "type", "bridge_21", "ports", "bridge_empty", "mtu", "macaddr", "ifname", "device"] ∧ k ∉ brOptions ∧
      k ≠ "dns" ∧ k ≠ "dns_search" := by decide +kernel
    obtain ⟨q1, q2, q3, q4⟩ := q k hk1
    rw [hbi k q1 q2]
    unfold brItem
    rw [if_neg q3, if_neg q4, if_pos hk1]
  · rw [hb, if_neg (by decide), if_neg (by decide), hclean' _ (by decide +kernel) (by decide), Option.or_none]
    simp [brRecItem, l2Item, brOptions, stpOptions, igmpOptions]
  · intro v hv
    obtain ⟨x, rfl⟩ := h.mtu v hv
    exact ⟨.int x, hbr _ _ (by decide) (by simp [brRecItem, l2Item, brOptions, stpOptions, igmpOptions, hv]), rfl⟩
  · intro hv
    rw [hb, if_neg (by decide), if_neg (by decide), hclean' _ (by decide +kernel) (by decide), Option.or_none]
    simp [brRecItem, l2Item, brOptions, stpOptions, igmpOptions, hv]
  · intro k hk1
    have q : ∀ k ∈ brOptions, k ∈ cleanKeys ∧ k ∉ [".type", "name", "network", "type", "bridge_21", "ports", "bridge_empty", "ifname"] := by decide +kernel
    obtain ⟨q1, q2⟩ := q k hk1
    simp only [List.mem_cons, List.not_mem_nil, or_false, not_or] at q2
    obtain ⟨c1, c2, c3, c4, c5, c6, c7, c8⟩ := q2
    rw [hb, if_neg c8, if_neg (by simp [c5, c6]), hclean' k q1 c8, Option.or_none]
    unfold brRecItem
    simp only [c1, c2, c3, c4, c5, c6, c7, hk1, if_true, if_false]
  · rw [hb, if_neg (by decide), if_pos (.inl rfl)]
  · rw [hb, if_neg (by decide), if_neg (by decide), hrec _ (by decide) (by decide +kernel), hi, if_neg (by decide), if_pos rfl]; rfl
  · intro k k1 k2
    by_cases c1 : k = "ports"
    · subst c1
      rw [hb, if_neg (by decide), if_pos (.inr rfl)]
      simp [blockItem, h.reserved "ports" (by decide)]
    have k3 : k ∉ brOptions := fun hm => k2 (by unfold bridgeOptions; exact List.mem_cons_of_mem _ hm)
    have z : ∀ x ∈ brKeys, k ≠ x := by rintro x hx rfl; exact k1 hx
    have q : k ∉ cleanKeys ∨ k = "vlan_filtering" := by
      by_cases c : k ∈ cleanKeys
      · right
        have : ∀ k ∈ cleanKeys, k ∈ brKeys ∨ k ∈ bridgeOptions ∨ k = "vlan_filtering" := by decide +kernel
        rcases this k c with e | e | e
        · exact absurd e k1
        · exact absurd e k2
        · exact e
      · exact .inl c
    rw [hbi k (by
      intro hm
      have : ∀ k ∈ [".type", ".name", "name", "network", "type", "bridge_21", "ports", "bridge_empty", "mtu", "macaddr", "ifname", "device"],
        k ∈ brKeys ∨ k = "ports" := by decide +kernel
      exact (this k hm).elim k1 c1) k3]
    unfold brItem
    have c2 : k ∉ ["proto", "ipaddr", "netmask", "ip6addr"] := by
      intro hm
      have : ∀ k ∈ ["proto", "ipaddr", "netmask", "ip6addr"], k ∈ brKeys := by decide +kernel
      exact k1 (this k hm)
    rw [if_neg (z _ (by decide)), if_neg (z _ (by decide)), if_neg c2, if_pos rfl]
    rcases q with q | q
    · rw [if_neg q]
      unfold dsaItem
      rw [if_neg (by simp [z "mtu" (by decide), z "macaddr" (by decide)]), if_neg (z _ (by decide))]
    · subst q
      rw [if_pos (by decide +kernel)]
      simp [blockItem, h.reserved "vlan_filtering" (by decide)]

/-- A bridge is a unit. -/
theorem bridge_unit {env : Env} {dsa : Bool} {config : VDict} {servers search : List String} (hdns : DnsOK config servers search) {name : String}
    {network : Option String} {g : Group} {members : List String} {d : VDict} (h : BridgeOK env dsa name network g members d) :
    ∃ u, UnitFor env dsa config servers search name network g dsa d u := by
  obtain ⟨D, S, f1, f2, f3, f4⟩ := bridge_forward (dsa := dsa) hdns h
  have hS := h.section_plain hdns f2 f3
  have gS := get?_blockRead env.reprC hS
  have nS := blockRead_nodup env.reprC hS.data
  have e1 : Dict.get? S ".type" = some (.str "interface") := by
    rw [f3]; cases dsa <;> simp [brItem, dsaItem, blockItem, cleanKeys, stpOptions, igmpOptions, allOptions]
  have e2 : Dict.get? S ".name" = some (txt (sectionName name network)) := by
    rw [f3]; cases dsa <;> simp [brItem, dsaItem, blockItem, cleanKeys, stpOptions, igmpOptions, allOptions]
  have e3 : Dict.get? S "bridge_21" = none := by
    rw [f3]; cases dsa <;> simp [brItem, dsaItem, blockItem, cleanKeys, stpOptions, igmpOptions, allOptions, h.reserved "bridge_21" (by decide)]
  have e4 : (Dict.get? S "type").bind readVal ≠ some (.str "device") := by
    rw [f3]
    cases dsa
    · simp only [brItem, String.reduceEq, if_false, List.mem_cons, List.not_mem_nil, or_self, Bool.false_eq_true]
      rw [blockItem_option (by simp), h.type]
      decide
    · simp [brItem, cleanKeys]
  have hdev : D ≠ none ↔ dsa = true := by
    cases D with
    | none => dsimp only at f4; simp [f4]
    | some x => dsimp only at f4; simp [f4.1]
  -- the device
  obtain ⟨R, hR⟩ : ∃ R, ∀ x, D = some x → (Dict.keys R).Nodup ∧ (∀ k, Dict.get? R k = brRecItem (sectionName name network) name members d k) ∧
      ∀ st : IfState, Dict.get? st.dev (.str name) = none →
        deviceBlock (blockRead env.reprC x) st = .ok ⟨Dict.set st.dev (.str name) R, st.result⟩ := by
    cases D with
    | none => exact ⟨[], by simp⟩
    | some x =>
      obtain ⟨R, r1, r2, r3⟩ := bridge_noted h f4.2.1 f4.2.2
      refine ⟨R, fun y hy => ?_⟩
      cases hy
      exact ⟨r2, r3, r1⟩
  have hDp : ∀ x, D = some x → PlainData x ∧ Dict.get? x ".type" = some (.str "device") ∧
      Dict.get? x ".name" = some (txt ("device_".toList ++ sectionName name network)) ∧
      skipNonDevice [] (blockRead env.reprC x) = false ∧
      ∀ st : IfState, Dict.get? st.dev (.str name) = none →
        deviceBlock (blockRead env.reprC x) st = .ok ⟨Dict.set st.dev (.str name) R, st.result⟩ := by
    rintro x rfl
    dsimp only at f4
    have p1 := h.device_plain f4.2.1 f4.2.2
    have t1 : Dict.get? x ".type" = some (.str "device") := by rw [f4.2.2]; simp [brDevItem, devItem, brOptions, stpOptions, igmpOptions]
    have t0 : (Dict.get? x "type").bind readVal = some (.str "bridge") := by rw [f4.2.2]; simp [brDevItem, readVal]
    have gD := get?_blockRead_device env.reprC p1 t1
    refine ⟨p1, t1, by rw [f4.2.2]; simp [brDevItem, devItem, brOptions, stpOptions, igmpOptions], ?_, (hR x rfl).2.2⟩
    unfold skipNonDevice
    rw [skip_interface (by rw [gD, if_pos rfl])]
    have t2 : Dict.get? (blockRead env.reprC x) "bridge_21" = some (.bool true) := by
      rw [gD, t0]; simp
    rw [t2]
    simp [Val.truthy]
  have hmn : memberNames d = members := by
    unfold memberNames
    rw [h.membersOk]
    simp only [Option.getD_some, portTexts, List.filterMap_map]
    induction members with
    | nil => rfl
    | cons x xs _ => simp
  have hsec : IsWord (sectionName name network) := by
    obtain ⟨n, hn, hw⟩ := hS.data.name
    rw [e2] at hn
    simp only [Option.some.injEq, txt, Val.str.injEq] at hn
    rw [← hn] at hw
    simpa using hw
  have htS : Tracked env.reprC dsa (sectionName name network) d S := by
    have nR : Dict.get? (blockRead env.reprC S) ".name" = some (txt (sectionName name network)) := by rw [gS, if_pos (.inr rfl), e2]
    cases dsa with
    | true =>
      have t0 : Dict.get? S "type" = none := by rw [f3]; simp [brItem, cleanKeys]
      exact tracked_other (by rw [t0]; simp) (by rw [gS, if_neg (by decide), t0]; simp)
    | false =>
      have t0 : Dict.get? S "type" = some (.str "bridge") := by
        rw [f3]
        simp only [brItem, String.reduceEq, if_false, List.mem_cons, List.not_mem_nil, or_self, Bool.false_eq_true]
        rw [blockItem_option (by simp), h.type]
      have t1 : Dict.get? (blockRead env.reprC S) "type" = some (.str "bridge") := by rw [gS, if_neg (by decide), t0]; rfl
      have i0 : Dict.get? S "ifname" = if members = [] then none else some (memberText members) := by
        rw [f3]; simp [brItem]
      have i1 : Dict.get? (blockRead env.reprC S) "ifname" = Dict.get? S "ifname" := by
        rw [gS, if_neg (by decide), i0]
        split
        · rfl
        · next hne =>
          have := memberText_ne h.memberWords hne
          simp only [memberText, txt, Option.bind_some, readVal]
          rw [if_neg]
          intro e
          apply this
          rw [← String.toList_inj] at e
          simpa using e
      have hb : ∀ b : VDict, Dict.get? b "ifname" = Dict.get? S "ifname" → (bridgeMembers false b).getD [] = members := by
        intro b hb
        unfold bridgeMembers
        simp only [Bool.false_and, Bool.false_eq_true, if_false, hb, i0]
        by_cases hm : members = []
        · simp [hm]
        · rw [if_neg hm]
          simp only [memberText, txt, Option.getD_some, String.toList_ofList]
          rw [splitOn_joinWith _ (by simpa using hm) (by
            intro w hw
            obtain ⟨x, hx, rfl⟩ := List.mem_map.1 hw
            exact fun hs => absurd ((h.memberWords x hx).2 _ hs) (by decide))]
          rw [List.map_map]
          conv_rhs => rw [← List.map_id members]
          exact List.map_congr_left (fun x _ => by simp)
      have e : ∀ m, trackBlock false m (.dict S) = .ok (members.foldl (addBridge (String.ofList (sectionName name network))) m) := by
        intro m
        rw [trackBlock_bridge t0 e2, hb S rfl]
        simp [bridgeName]
      refine ⟨fun m => ?_, members, by rw [hmn]; simp, e⟩
      rw [e, trackBlock_bridge t1 nR, hb _ i1]
      simp [bridgeName]
  have htD : ∀ x, D = some x → Tracked env.reprC dsa (sectionName name network) d x := by
    rintro x rfl
    dsimp only at f4
    obtain ⟨hd, f5, f6⟩ := f4
    subst hd
    obtain ⟨p1, t1, n1, _⟩ := hDp x rfl
    have gD := get?_blockRead_device env.reprC p1 t1
    have t0 : Dict.get? x "type" = some (.str "bridge") := by rw [f6]; simp [brDevItem]
    have t2 : Dict.get? (blockRead env.reprC x) "type" = some (.str "bridge") := by
      rw [gD, if_neg (by decide), if_neg (by decide), if_neg (by simp), if_pos rfl, t0]; decide
    have n2 : Dict.get? (blockRead env.reprC x) ".name" = some (txt ("device_".toList ++ sectionName name network)) := by
      rw [gD, if_neg (by decide), if_pos rfl, n1]
    have i0 : Dict.get? x "ifname" = none := by
      rw [f6]; simp [brDevItem, devItem, l2Item, brOptions, stpOptions, igmpOptions]
    have q0 : Dict.get? x "ports" = if members = [] then none else some (.list (members.map .str)) := by rw [f6]; simp [brDevItem]
    have hb : ∀ b : VDict, Dict.get? b "ifname" = none → Dict.get? b "ports" = Dict.get? x "ports" → (bridgeMembers true b).getD [] = members := by
      intro b hi hp
      unfold bridgeMembers
      rw [hp, q0, hi]
      by_cases hm : members = []
      · simp [hm, Val.truthy]
      · rw [if_neg hm]
        have ht : (Val.list (members.map Val.str)).truthy = true := by simp [Val.truthy, hm]
        simp only [Option.getD_some, ht, Bool.and_self, if_true]
        have := hmn
        unfold memberNames at this
        rwa [h.membersOk] at this
    have hn : bridgeName true ("device_".toList ++ sectionName name network) = String.ofList (sectionName name network) := by
      unfold bridgeName
      rw [if_pos rfl, stripPrefix_some.2 rfl]
      rfl
    have e : ∀ m, trackBlock true m (.dict x) = .ok (members.foldl (addBridge (String.ofList (sectionName name network))) m) := by
      intro m
      rw [trackBlock_bridge t0 n1, hb x i0 rfl, String.toList_ofList, hn]
    refine ⟨fun m => ?_, members, by rw [hmn]; simp, e⟩
    rw [e, trackBlock_bridge t2 n2, hb _ ?_ ?_, String.toList_ofList, hn]
    · rw [gD, if_neg (by decide), if_neg (by decide), if_neg (by simp), if_neg (by decide), i0]; rfl
    · rw [gD, if_neg (by decide), if_neg (by decide), if_neg (by simp), if_neg (by decide), q0]
      by_cases hm : members = []
      · simp [hm]
      · rw [if_neg hm]
        cases members with
        | nil => exact absurd rfl hm
        | cons y ys => rfl
  cases hdsa : dsa with
  | false =>
    subst hdsa
    have hD : D = none := by
      cases D with
      | none => rfl
      | some x => exact absurd f4.1 (by decide)
    have hr := bridge_legacy (b := blockRead env.reprC S) h f3 nS gS
    obtain ⟨r, r1, r2⟩ := ifaceBack_bridge h hr
    refine unit_for (R := R) h.toIfaceOK hdns f1 (by rw [hdev]) hS e1 e2 e3 e4 (.inl (by
      rw [f3]; simp [brItem, blockItem, h.reserved "device" (by decide)])) hDp r2 ?_ htS htD
    intro dev _
    refine ⟨[("consumed", .bool true)], _, by decide, by rw [if_pos hD]; rfl, r1, isEmpty_of_get hr.type, ?_, ?_⟩
    · rw [hr.kind]; decide
    · exact hr.absent _ (by simp)
  | true =>
    subst hdsa
    obtain ⟨x, rfl⟩ : ∃ x, D = some x := Option.ne_none_iff_exists'.1 (hdev.2 rfl)
    obtain ⟨R1, R2, _⟩ := hR x rfl
    have hSd : Dict.get? S "device" = some (.str name) := by
      rw [f3]; simp [brItem, dsaItem, cleanKeys, stpOptions, igmpOptions, allOptions]
    have i1 : Dict.get? (blockRead env.reprC S) "device" = some (.str name) := by
      rw [gS, if_neg (by decide), hSd]; exact readVal_word h.word
    have nB : (Dict.keys (Dict.set (Dict.erase (blockRead env.reprC S) "device") "ifname" (.str name))).Nodup :=
      Dict.nodup_set (Dict.nodup_erase nS _) _ _
    have gB : ∀ k, Dict.get? (Dict.set (Dict.erase (blockRead env.reprC S) "device") "ifname" (.str name)) k =
        if k = "ifname" then some (.str name) else if k = "device" then none else
          if k = ".type" ∨ k = ".name" then Dict.get? S k else (Dict.get? S k).bind readVal := by
      intro k; rw [Dict.get?_set', Dict.get?_erase', gS]
    have hp : Dict.get? S "ports" = none := by
      rw [f3]; simp [brItem, dsaItem, blockItem, cleanKeys, stpOptions, igmpOptions, allOptions, h.reserved "ports" (by decide)]
    obtain ⟨b, b1, b2, b3⟩ := addDeviceOptions_bridge R1 R2 nB (by rw [gB, if_pos rfl]) (by
      intro k hk
      simp only [List.mem_cons, List.not_mem_nil, or_false] at hk
      rcases hk with rfl | rfl
      · rw [gB, if_neg (by decide), if_neg (by decide), if_neg (by decide), e3]; rfl
      · rw [gB, if_neg (by decide), if_neg (by decide), if_neg (by decide), hp]; rfl)
    have hr := bridge_dsa h f3 b2 gB b3
    obtain ⟨r, r1, r2⟩ := ifaceBack_bridge h hr
    refine unit_for (R := R) h.toIfaceOK hdns f1 hdev hS e1 e2 e3 e4 (.inr hSd) hDp r2 ?_ htS htD
    intro dev hdevs
    have d1 : Dict.get? dev (.str name) = some R := hdevs.1 (by simp)
    have q5 : R ≠ [] := by rintro rfl; have := R2 "type"; simp [brRecItem] at this
    refine ⟨Dict.set R "consumed" (.bool true), b, ?_, ?_, r1, isEmpty_of_get hr.type, ?_, ?_⟩
    · unfold consumed; rw [Dict.get?_set', if_pos rfl]; rfl
    · rw [if_pos rfl, if_neg (by simp)]
      exact dsaBack_some i1 d1 q5 (handleVlan_none (by rw [gB, if_pos rfl]) (by
        rw [R2]; simp [brRecItem, l2Item, brOptions, stpOptions, igmpOptions])) b1
    · rw [hr.kind]; decide
    · exact hr.absent _ (by simp)

end NJ
