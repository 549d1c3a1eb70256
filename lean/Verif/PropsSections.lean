import Verif.IfaceList

/-!
# C67: one UCI section for each group of addresses

For every interface, of whatever type: which sections the OpenWrt converter writes for it, their names, protocols and addresses.
-/

namespace NJ

/-! ## Specification -/

/-- an address that is obtained by DHCP -/
def isDhcp (a : VDict) : Bool := decide (Dict.get? a "proto" = some (.str "dhcp"))

/-- an IPv4 address; all others are taken to be IPv6 -/
def isV4 (a : VDict) : Bool := decide (Dict.get? a "family" = some (.str "ipv4"))

/-- "address/mask" -/
def fullText (env : Env) (a : VDict) : String :=
  pyStr env.reprC ((Dict.get? a "address").getD .none) ++ "/" ++ pyStr env.reprC ((Dict.get? a "mask").getD .none)

/-- the value of the last of the dictionaries that has the key -/
def lastOf (l : List VDict) (k : String) : Option Val := (l.filterMap (fun a => Dict.get? a k)).getLast?

/-- the texts of the static addresses of one family, in their order -/
def staticTexts (env : Env) (v4 : Bool) (l : List VDict) : List String := (l.filter (fun a => isV4 a == v4)).map (fullText env)

/-- keys of an address that are no options of the section -/
def addressOnly : List String := ["address", "mask", "family", "gateway"]

/-- The group of all static addresses: one IPv4 address with its netmask, or the list of IPv4 addresses; the IPv6 address or the list of
them; of the other options of addresses the last value. -/
structure StaticGroup (env : Env) (l : List VDict) (g : VDict) : Prop where
  nodup : (Dict.keys g).Nodup
  ipv4 : match staticTexts env true l with
    | [] => Dict.get? g "ipaddr" = none
    | [t] => ∃ i, ipInterface env.ip6 t.toList = some i ∧ Dict.get? g "ipaddr" = some (txt (showIp env.ip6 i.v6 i.addr)) ∧
        Dict.get? g "netmask" = some (txt (netmaskText env i))
    | ts => Dict.get? g "ipaddr" = some (.list (ts.map .str))
  netmask : (staticTexts env true l).length ≠ 1 → Dict.get? g "netmask" = lastOf l "netmask"
  ipv6 : Dict.get? g "ip6addr" = match staticTexts env false l with
    | [] => none
    | [t] => some (.str t)
    | ts => some (.list (ts.map .str))
  others : ∀ k, k ∉ ["ipaddr", "netmask", "ip6addr"] → Dict.get? g k = if k ∈ addressOnly then none else lastOf l k

/-- the group of one DHCP address: the protocol of its family, its other options -/
structure DhcpGroup (a g : VDict) : Prop where
  nodup : (Dict.keys g).Nodup
  items : ∀ k, Dict.get? g k = if k = "proto" then some (.str (if isV4 a then "dhcp" else "dhcpv6"))
    else if k ∈ addressOnly then none else Dict.get? a k

/-- the groups of a list of addresses: all static ones, then each DHCP address -/
def AddressGroups (env : Env) (l : List VDict) (gs : List VDict) : Prop :=
  ∃ s ds, gs = s ++ ds ∧ List.Forall₂ DhcpGroup (l.filter isDhcp) ds ∧
    (l.filter (fun a => !isDhcp a) = [] → s = []) ∧
    (l.filter (fun a => !isDhcp a) ≠ [] → ∃ g, s = [g] ∧ StaticGroup env (l.filter (fun a => !isDhcp a)) g)

/-- the option for the gateway -/
def gatewayOf (b : VDict) (l : List VDict) (v4 : Bool) (k : String) : Option Val :=
  (lastOf (l.filter (fun a => !isDhcp a && isV4 a == v4)) "gateway").or (Dict.get? b k)

/-- the interface with the gateways of its static addresses -/
structure Gatewayed (b : VDict) (l : List VDict) (b' : VDict) : Prop where
  nodup : (Dict.keys b).Nodup → (Dict.keys b').Nodup
  items : ∀ k, Dict.get? b' k = if k = "gateway" then gatewayOf b l true k else if k = "ip6gw" then gatewayOf b l false k else Dict.get? b k

/-! ## The loop over the addresses -/


theorem lastOf_snoc (l : List VDict) (a : VDict) (k : String) : lastOf (l ++ [a]) k = (Dict.get? a k).or (lastOf l k) := by
  unfold lastOf
  rw [List.filterMap_append]
  cases h : Dict.get? a k with
  | none => simp [h]
  | some v => simp [h]

theorem lastOf_none {l : List VDict} {k : String} (h : ∀ a ∈ l, Dict.get? a k = none) : lastOf l k = none := by
  unfold lastOf
  rw [List.getLast?_eq_none_iff, List.filterMap_eq_nil_iff]
  exact h

theorem staticTexts_snoc (env : Env) (v4 : Bool) (l : List VDict) (a : VDict) :
    staticTexts env v4 (l ++ [a]) = if isV4 a = v4 then staticTexts env v4 l ++ [fullText env a] else staticTexts env v4 l := by
  unfold staticTexts
  rw [List.filter_append]
  by_cases h : isV4 a = v4 <;> simp [h]

/-- what is gathered from the addresses `l` of an interface `b` -/
structure Collected (env : Env) (b : VDict) (l : List VDict) (acc : AddrAcc) : Prop where
  dhcp : List.Forall₂ DhcpGroup (l.filter isDhcp) acc.dhcp
  nodup : (Dict.keys acc.static).Nodup
  static : ∀ k, Dict.get? acc.static k =
    if k = "ipaddr" then someList ((staticTexts env true (l.filter (fun a => !isDhcp a))).map .str)
    else if k = "ip6addr" then someList ((staticTexts env false (l.filter (fun a => !isDhcp a))).map .str)
    else if k ∈ addressOnly then none else lastOf (l.filter (fun a => !isDhcp a)) k
  protos : ∀ a ∈ l, Dict.get? a "proto" ≠ none
  interface : Gatewayed b l acc.interface

theorem addressText_inv {env : Env} {a : VDict} {v : Val} (h : addressText env a = .ok v) : v = .str (fullText env a) := by
  unfold addressText at h
  obtain ⟨x, hx, h⟩ := bind_ok_iff.1 h
  obtain ⟨y, hy, h⟩ := bind_ok_iff.1 h
  have h := pure_ok_iff.1 h
  unfold getKey at hx hy
  unfold fullText
  cases h1 : Dict.get? a "address" with
  | none => rw [h1] at hx; cases hx
  | some x' =>
    cases h2 : Dict.get? a "mask" with
    | none => rw [h2] at hy; cases hy
    | some y' =>
      rw [h1] at hx; rw [h2] at hy
      cases hx; cases hy
      exact h.symm

theorem addressRest_gets (a : VDict) (k : String) : Dict.get? (addressRest a) k = if k ∈ addressOnly then none else Dict.get? a k :=
  Dict.get?_foldl_erase addressOnly a k

theorem addressRest_nodup {a : VDict} (h : (Dict.keys a).Nodup) : (Dict.keys (addressRest a)).Nodup :=
  (eraseAll_get addressOnly a h).1

theorem getKey_inv {d : VDict} {k : String} {v : Val} (h : getKey d k = .ok v) : Dict.get? d k = some v := by
  unfold getKey at h
  cases hg : Dict.get? d k with
  | none => rw [hg] at h; cases h
  | some w => rw [hg] at h; cases h; rfl

theorem collected_nil (env : Env) (b : VDict) : Collected env b [] ⟨b, [], []⟩ := by
  refine ⟨.nil, List.nodup_nil, ?_, by simp, fun h => h, ?_⟩
  · intro k; simp [staticTexts, someList, lastOf]
  · intro k; simp [gatewayOf, lastOf]

theorem addressStep_inv {env : Env} {b : VDict} {l : List VDict} {acc acc' : AddrAcc} {a : VDict} (ha : (Dict.keys a).Nodup)
    (h4 : Dict.get? a "ipaddr" = none) (h6 : Dict.get? a "ip6addr" = none) (h : Collected env b l acc)
    (e : addressStep env acc (.dict a) = .ok acc') : Collected env b (l ++ [a]) acc' := by
  unfold addressStep at e
  obtain ⟨a', e1, e⟩ := bind_ok_iff.1 e
  simp only [asDict, Except.ok.injEq] at e1
  subst e1
  obtain ⟨proto, e2, e⟩ := bind_ok_iff.1 e
  have hp := getKey_inv e2
  have hprotos : ∀ x ∈ l ++ [a], Dict.get? x "proto" ≠ none := by
    intro x hx
    rcases List.mem_append.1 hx with hx | hx
    · exact h.protos x hx
    · rw [List.mem_singleton.1 hx, hp]; simp
  dsimp only at e
  by_cases hd : proto = .str "dhcp"
  · rw [if_pos hd] at e
    have e := pure_ok_iff.1 e
    subst e
    have hdh : isDhcp a = true := by unfold isDhcp; rw [hp, hd]; simp
    refine ⟨?_, ?_, ?_, hprotos, ?_⟩
    · rw [List.filter_append]
      simp only [List.filter_cons, hdh, if_true, List.filter_nil]
      refine List.rel_append h.dhcp (.cons ⟨?_, ?_⟩ .nil)
      · exact addressRest_nodup (Dict.nodup_set ha _ _)
      · intro k
        rw [addressRest_gets, Dict.get?_set']
        by_cases hk : k = "proto"
        · subst hk
          rw [if_neg (by decide), if_pos rfl, if_pos rfl]
          rfl
        · rw [if_neg hk, if_neg hk]
    · exact h.nodup
    · intro k
      rw [List.filter_append]
      simp only [List.filter_cons, hdh, Bool.not_true, Bool.false_eq_true, if_false, List.filter_nil, List.append_nil]
      exact h.static k
    · refine ⟨h.interface.nodup, fun k => ?_⟩
      rw [h.interface.items k]
      unfold gatewayOf
      rw [List.filter_append, List.filter_append]
      simp [hdh]
  · rw [if_neg hd] at e
    obtain ⟨t, e3, e⟩ := bind_ok_iff.1 e
    have ht := addressText_inv e3
    subst ht
    obtain ⟨s, e4, e⟩ := bind_ok_iff.1 e
    have e := pure_ok_iff.1 e
    subst e
    have hdh : isDhcp a = false := by unfold isDhcp; rw [hp]; simp [hd]
    have hv : decide (Dict.get? a "family" = some (.str "ipv4")) = isV4 a := rfl
    rw [hv] at e4
    have hpush := pushTo_some (d := acc.static) (k := if isV4 a = true then "ipaddr" else "ip6addr")
      (l := (staticTexts env (isV4 a) (l.filter (fun a => !isDhcp a))).map .str) (by
        rw [h.static]
        cases isV4 a
        · rw [if_neg (by decide), if_pos (by decide)]
        · rw [if_pos (by decide)]) (.str (fullText env a))
    rw [hpush] at e4
    have e4 := Except.ok.inj e4
    subst e4
    have hfil : (l ++ [a]).filter (fun a => !isDhcp a) = l.filter (fun a => !isDhcp a) ++ [a] := by
      rw [List.filter_append]; simp [hdh]
    refine ⟨?_, ?_, ?_, hprotos, ?_⟩
    · rw [List.filter_append]
      simp only [List.filter_cons, hdh, Bool.false_eq_true, if_false, List.filter_nil, List.append_nil]
      exact h.dhcp
    · exact Dict.nodup_update (Dict.nodup_set h.nodup _ _) _
    · intro k
      show Dict.get? (Dict.update _ _) k = _
      rw [Dict.get?_update _ _ (addressRest_nodup ha), addressRest_gets, hfil, staticTexts_snoc, staticTexts_snoc, lastOf_snoc, Dict.get?_set', h.static]
      by_cases k4 : k = "ipaddr"
      · subst k4
        rw [if_neg (by decide : "ipaddr" ∉ addressOnly), h4]
        cases isV4 a <;> simp [someList]
      by_cases k6 : k = "ip6addr"
      · subst k6
        rw [if_neg (by decide : "ip6addr" ∉ addressOnly), h6]
        cases isV4 a <;> simp [someList]
      have : k ≠ (if isV4 a = true then "ipaddr" else "ip6addr") := by split <;> assumption
      simp only [k4, k6, if_false, this]
      by_cases ko : k ∈ addressOnly
      · simp only [ko, if_true, Option.none_or]
      · simp only [ko, if_false]
    · constructor
      · intro hb
        show (Dict.keys (gatewayStep _ _ _)).Nodup
        unfold gatewayStep
        split
        · exact Dict.nodup_set (h.interface.nodup hb) _ _
        · exact h.interface.nodup hb
      · intro k
        show Dict.get? (gatewayStep (isV4 a) a acc.interface) k = _
        have hf4 : ∀ v, (l ++ [a]).filter (fun a => !isDhcp a && isV4 a == v) =
            if isV4 a = v then l.filter (fun a => !isDhcp a && isV4 a == v) ++ [a] else l.filter (fun a => !isDhcp a && isV4 a == v) := by
          intro v
          rw [List.filter_append]
          by_cases e : isV4 a = v <;> simp [hdh, e]
        unfold gatewayStep gatewayOf
        rw [hf4, hf4]
        cases hg : Dict.get? a "gateway" with
        | none =>
          have := h.interface.items k
          unfold gatewayOf at this
          dsimp only
          rw [this]
          cases isV4 a <;> simp [lastOf_snoc, hg]
        | some g =>
          have := h.interface.items k
          unfold gatewayOf at this
          dsimp only
          rw [Dict.get?_set', this]
          cases isV4 a
          · by_cases c : k = "ip6gw"
            · subst c; simp [lastOf_snoc, hg]
            · by_cases c2 : k = "gateway" <;> simp [c, c2]
          · by_cases c : k = "gateway"
            · subst c; simp [lastOf_snoc, hg]
            · simp [c]

theorem addressLoop_inv {env : Env} {b : VDict} (vs : List Val) (done : List VDict) (acc acc' : AddrAcc) (h : Collected env b done acc)
    (e : vs.foldlM (addressStep env) acc = .ok acc') (hok : ∀ v ∈ vs, ∀ a, v = .dict a → (Dict.keys a).Nodup ∧ Dict.get? a "ipaddr" = none ∧ Dict.get? a "ip6addr" = none) :
    ∃ l, vs = l.map .dict ∧ Collected env b (done ++ l) acc' := by
  induction vs generalizing done acc with
  | nil =>
    rw [List.foldlM_nil] at e
    cases e
    exact ⟨[], rfl, by simpa using h⟩
  | cons v vs ih =>
    rw [List.foldlM_cons] at e
    obtain ⟨acc1, e1, e2⟩ := bind_ok_iff.1 e
    cases v with
    | dict a =>
      obtain ⟨h1, h2, h3⟩ := hok _ (by simp) a rfl
      obtain ⟨l, rfl, hl⟩ := ih (done ++ [a]) acc1 (addressStep_inv h1 h2 h3 h e1) e2 (fun v hv => hok v (by simp [hv]))
      exact ⟨a :: l, rfl, by simpa using hl⟩
    | none => cases e1
    | bool _ => cases e1
    | int _ => cases e1
    | str _ => cases e1
    | list _ => cases e1

theorem ipInterfaceV_inv {env : Env} {s : String} {i : IpIf} (h : ipInterfaceV env (.str s) = .ok i) : ipInterface env.ip6 s.toList = some i := by
  unfold ipInterfaceV at h
  dsimp only at h
  cases hg : ipInterface env.ip6 s.toList with
  | none => rw [hg] at h; cases h
  | some w => rw [hg] at h; cases h; rfl

theorem lastOf_ne {l : List VDict} {k : String} (hne : l ≠ []) (h : ∀ a ∈ l, Dict.get? a k ≠ none) : lastOf l k ≠ none := by
  unfold lastOf
  intro e
  rw [List.getLast?_eq_none_iff, List.filterMap_eq_nil_iff] at e
  obtain ⟨a, l', rfl⟩ := List.exists_cons_of_ne_nil hne
  exact h a (by simp) (e a (by simp))

theorem collected_groups {env : Env} {b : VDict} {l : List VDict} {acc : AddrAcc} {s : List VDict} (h : Collected env b l acc)
    (e : staticSection env acc.static = .ok s) : AddressGroups env l (s ++ acc.dhcp) := by
  refine ⟨s, acc.dhcp, rfl, h.dhcp, ?_, ?_⟩
  · intro hnil
    have : acc.static = [] := dict_empty (fun k => by rw [h.static, hnil]; simp [staticTexts, someList, lastOf])
    rw [this] at e
    cases e; rfl
  · intro hne
    have hstat : acc.static.isEmpty = false := by
      cases hs : acc.static with
      | cons _ _ => rfl
      | nil =>
        exfalso
        have := h.static "proto"
        rw [hs, if_neg (by decide), if_neg (by decide), if_neg (by decide)] at this
        exact lastOf_ne hne (fun a ha => h.protos a (List.mem_filter.1 ha).1) this.symm
    unfold staticSection at e
    rw [hstat] at e
    simp only [Bool.false_eq_true, if_false] at e
    obtain ⟨g, e1, e⟩ := bind_ok_iff.1 e
    have e := pure_ok_iff.1 e
    subst e
    refine ⟨g, rfl, ?_⟩
    unfold staticAddress at e1
    obtain ⟨u, e1, e2⟩ := bind_ok_iff.1 e1
    have hst := h.static
    generalize l.filter (fun a => !isDhcp a) = ls at hst
    -- IPv4
    have h4 := hst "ipaddr"
    rw [if_pos rfl] at h4
    unfold singleIpv4 at e1
    rw [h4, someList_getD] at e1
    have hu : (Dict.keys u).Nodup ∧ (∀ k, k ≠ "ipaddr" → k ≠ "netmask" → Dict.get? u k = Dict.get? acc.static k) ∧
        (match staticTexts env true ls with
          | [] => Dict.get? u "ipaddr" = none
          | [t] => ∃ i, ipInterface env.ip6 t.toList = some i ∧ Dict.get? u "ipaddr" = some (txt (showIp env.ip6 i.v6 i.addr)) ∧
              Dict.get? u "netmask" = some (txt (netmaskText env i))
          | ts => Dict.get? u "ipaddr" = some (.list (ts.map .str))) ∧
        ((staticTexts env true ls).length ≠ 1 → Dict.get? u "netmask" = lastOf ls "netmask") := by
      generalize staticTexts env true ls = ts at h4 e1
      have hmask := hst "netmask"
      rw [if_neg (by decide), if_neg (by decide), if_neg (by decide)] at hmask
      cases ts with
      | nil =>
        cases e1
        exact ⟨h.nodup, fun _ _ _ => rfl, by rw [h4]; simp [someList], fun _ => hmask⟩
      | cons t ts =>
        cases ts with
        | nil =>
          simp only [List.map_cons, List.map_nil] at e1
          obtain ⟨i, e3, e1⟩ := bind_ok_iff.1 e1
          have e1 := pure_ok_iff.1 e1
          subst e1
          refine ⟨Dict.nodup_set (Dict.nodup_set h.nodup _ _) _ _, ?_, ⟨i, ipInterfaceV_inv e3, ?_, ?_⟩, fun h => absurd rfl h⟩
          · intro k k1 k2
            rw [Dict.get?_set', Dict.get?_set', if_neg k2, if_neg k1]
          · rw [Dict.get?_set', Dict.get?_set', if_neg (by decide), if_pos rfl]
          · rw [Dict.get?_set', if_pos rfl]
        | cons t' ts =>
          simp only [List.map_cons] at e1
          cases e1
          exact ⟨h.nodup, fun _ _ _ => rfl, by rw [h4]; simp [someList], fun _ => hmask⟩
    obtain ⟨u1, u2, u3, u4⟩ := hu
    clear e1 h4
    have h6 := hst "ip6addr"
    rw [if_neg (by decide), if_pos rfl] at h6
    unfold singleIpv6 at e2
    rw [u2 _ (by decide) (by decide), h6, someList_getD] at e2
    have hg : (Dict.keys g).Nodup ∧ (∀ k, k ≠ "ip6addr" → Dict.get? g k = Dict.get? u k) ∧
        Dict.get? g "ip6addr" = match staticTexts env false ls with
          | [] => none
          | [t] => some (.str t)
          | ts => some (.list (ts.map .str)) := by
      rw [← u2 _ (by decide) (by decide)] at h6
      generalize staticTexts env false ls = ts at h6 e2
      cases ts with
      | nil =>
        cases e2
        exact ⟨u1, fun _ _ => rfl, by rw [h6]; simp [someList]⟩
      | cons t ts =>
        cases ts with
        | nil =>
          simp only [List.map_cons, List.map_nil] at e2
          cases e2
          refine ⟨Dict.nodup_set u1 _ _, ?_, by rw [Dict.get?_set', if_pos rfl]⟩
          intro k hk
          rw [Dict.get?_set', if_neg hk]
        | cons t' ts =>
          simp only [List.map_cons] at e2
          cases e2
          exact ⟨u1, fun _ _ => rfl, by rw [h6]; simp [someList]⟩
    obtain ⟨g1, g2, g3⟩ := hg
    refine ⟨g1, ?_, ?_, g3, ?_⟩
    · rw [g2 _ (by decide), g2 _ (by decide)]; exact u3
    · rw [g2 _ (by decide)]; exact u4
    · intro k hk
      simp only [List.mem_cons, List.not_mem_nil, or_false, not_or] at hk
      rw [g2 _ hk.2.2, u2 _ hk.1 hk.2.1, hst, if_neg hk.1, if_neg hk.2.2]

/-! ## All the addresses of an interface -/

def asDict? : Val → Option VDict
  | .dict d => some d
  | _ => none

/-- the addresses of an interface -/
def addressList (b : VDict) : List VDict := match Dict.get? b "addresses" with
  | some (.list l) => l.filterMap asDict?
  | _ => []

/-- addresses have each key once, and no keys that would be names or addresses of the section -/
def AddressesOK (l : List VDict) : Prop :=
  ∀ a ∈ l, (Dict.keys a).Nodup ∧ ∀ k ∈ [".name", ".type", "ipaddr", "ip6addr"], Dict.get? a k = none

/-- the text of an address of a WireGuard interface -/
def wgText (env : Env) (a : VDict) : Val := match Dict.get? a "mask" with
  | some _ => .str (fullText env a)
  | none => (Dict.get? a "address").getD .none

/-- the groups of addresses of an interface of any type, and the interface as it is used from there on -/
structure GroupsOf (env : Env) (b b' : VDict) (gs : List VDict) : Prop where
  wireguard : Dict.get? b "type" = some (.str "wireguard") → b' = Dict.erase b "addresses" ∧
    gs = [[("addresses", .list ((addressList b).map (wgText env))), ("proto", .str "wireguard")]]
  given : Dict.get? b "type" ≠ some (.str "wireguard") → addressList b ≠ [] → AddressGroups env (addressList b) gs ∧ Gatewayed b (addressList b) b'
  notGiven : Dict.get? b "type" ≠ some (.str "wireguard") → addressList b = [] →
    b' = b ∧ gs = if Dict.get? b "type" = some (.str "wireless") then [] else [[("proto", .str "none")]]

theorem filterMap_asDict (l : List VDict) : (l.map Val.dict).filterMap asDict? = l := by
  induction l with
  | nil => rfl
  | cons a l ih => simp [asDict?, ih]

theorem wgAddress_inv {env : Env} {v t : Val} (h : wgAddress env v = .ok t) : ∃ a, v = .dict a ∧ t = wgText env a := by
  unfold wgAddress at h
  obtain ⟨a, h1, h2⟩ := bind_ok_iff.1 h
  obtain ⟨x, h3, h4⟩ := bind_ok_iff.1 h2
  have h4 := pure_ok_iff.1 h4
  cases v with
  | dict d =>
    simp only [asDict, Except.ok.injEq] at h1
    subst h1
    refine ⟨_, rfl, ?_⟩
    rw [← h4]
    unfold wgText fullText
    rw [getKey_inv h3]
    cases Dict.get? d "mask" <;> rfl
  | none => cases h1
  | bool _ => cases h1
  | int _ => cases h1
  | str _ => cases h1
  | list _ => cases h1

theorem wgAddresses_all {env : Env} {l ts : List Val} (h : l.mapM (wgAddress env) = .ok ts) : ts = (l.filterMap asDict?).map (wgText env) := by
  induction l generalizing ts with
  | nil => rw [mapM_ok_nil] at h; cases h; rfl
  | cons v l ih =>
    rw [mapM_ok_cons] at h
    obtain ⟨t, ts', h1, h2, rfl⟩ := h
    obtain ⟨a, rfl, rfl⟩ := wgAddress_inv h1
    rw [ih h2]
    simp [asDict?]

theorem popKey_inv' {d d' : VDict} {k : String} {v : Val} (h : popKey d k = .ok (v, d')) : Dict.get? d k = some v ∧ d' = Dict.erase d k := by
  unfold popKey at h
  cases hg : Dict.get? d k with
  | none => rw [hg] at h; cases h
  | some w => rw [hg] at h; cases h; exact ⟨rfl, rfl⟩

theorem C67_groups {env : Env} {b b' : VDict} {gs : List VDict} (hok : AddressesOK (addressList b))
    (h : ifaceAddresses env b = .ok (b', gs)) : GroupsOf env b b' gs := by
  unfold ifaceAddresses at h
  by_cases hw : Dict.get? b "type" = some (.str "wireguard")
  · rw [if_pos hw] at h
    refine ⟨fun _ => ?_, fun e => absurd hw e, fun e => absurd hw e⟩
    unfold wgAddresses at h
    obtain ⟨⟨v, i⟩, h1, h2⟩ := bind_ok_iff.1 h
    obtain ⟨h3, rfl⟩ := popKey_inv' h1
    dsimp only at h2
    cases v with
    | list l =>
      dsimp only at h2
      obtain ⟨ts, h4, h5⟩ := bind_ok_iff.1 h2
      have h5 := pure_ok_iff.1 h5
      have e1 := congrArg Prod.fst h5
      have e2 := congrArg Prod.snd h5
      dsimp only at e1 e2
      refine ⟨e1.symm, ?_⟩
      rw [← e2, wgAddresses_all h4]
      unfold addressList
      rw [h3]
    | none => cases h2
    | bool _ => cases h2
    | int _ => cases h2
    | str _ => cases h2
    | dict _ => cases h2
  · rw [if_neg hw] at h
    refine ⟨fun e => absurd e hw, fun _ hne => ?_, fun _ hnil => ?_⟩
    · dsimp only at h
      unfold addressList at hne hok ⊢
      cases ha : Dict.get? b "addresses" with
      | none => rw [ha] at hne; exact absurd rfl hne
      | some v =>
        rw [ha] at h hne hok
        cases v with
        | list l =>
          dsimp only at hne hok
          dsimp only [Option.getD_some] at h
          have htr : (Val.list l).truthy = true := by
            cases l with
            | nil => exact absurd rfl hne
            | cons _ _ => rfl
          rw [if_pos htr] at h
          obtain ⟨acc, h1, h2⟩ := bind_ok_iff.1 h
          obtain ⟨s, h3, h4⟩ := bind_ok_iff.1 h2
          have h4 := pure_ok_iff.1 h4
          obtain ⟨as, hl, hc⟩ := addressLoop_inv l [] _ acc (collected_nil env b) h1 (by
            intro v hv a e
            subst e
            obtain ⟨q1, q2⟩ := hok a (List.mem_filterMap.2 ⟨_, hv, rfl⟩)
            exact ⟨q1, q2 _ (by decide), q2 _ (by decide)⟩)
          rw [List.nil_append] at hc
          subst hl
          dsimp only
          rw [filterMap_asDict]
          rw [Prod.mk.injEq] at h4
          obtain ⟨rfl, rfl⟩ := h4
          exact ⟨collected_groups hc h3, hc.interface⟩
        | none => exact absurd rfl hne
        | bool _ => exact absurd rfl hne
        | int _ => exact absurd rfl hne
        | str _ => exact absurd rfl hne
        | dict _ => exact absurd rfl hne
    · dsimp only at h
      have hf : ((Dict.get? b "addresses").getD .none).truthy = false := by
        cases hv : ((Dict.get? b "addresses").getD .none).truthy with
        | false => rfl
        | true =>
          exfalso
          rw [if_pos hv] at h
          unfold addressList at hnil
          cases ha : Dict.get? b "addresses" with
          | none => rw [ha] at hv; cases hv
          | some v =>
            rw [ha] at h hv hnil
            cases v with
            | list l =>
              cases l with
              | nil => cases hv
              | cons x l =>
                dsimp only [Option.getD_some] at h
                obtain ⟨acc, h1, _⟩ := bind_ok_iff.1 h
                rw [List.foldlM_cons] at h1
                obtain ⟨acc1, h2, _⟩ := bind_ok_iff.1 h1
                cases x with
                | dict a => simp [asDict?] at hnil
                | none => cases h2
                | bool _ => cases h2
                | int _ => cases h2
                | str _ => cases h2
                | list _ => cases h2
            | none => cases hv
            | bool _ => cases h
            | int _ => cases h
            | str _ => cases h
            | dict _ => cases h
      rw [if_neg (by rw [hf]; decide)] at h
      obtain ⟨t, h1, h2⟩ := bind_ok_iff.1 h
      have h2 := pure_ok_iff.1 h2
      rw [Prod.mk.injEq] at h2
      refine ⟨h2.1.symm, ?_⟩
      rw [← h2.2, getKey_inv h1]
      by_cases ht : t = .str "wireless"
      · rw [if_pos ht, if_pos (by rw [ht])]
      · rw [if_neg ht, if_neg (by intro e; exact ht (Option.some.inj e))]

/-- how many sections an interface has -/
def sectionCount (b : VDict) : Nat :=
  if Dict.get? b "type" = some (.str "wireguard") then 1
  else if addressList b = [] then (if Dict.get? b "type" = some (.str "wireless") then 0 else 1)
  else (if (addressList b).all isDhcp then 0 else 1) + (addressList b).countP isDhcp

theorem GroupsOf.count {env : Env} {b b' : VDict} {gs : List VDict} (h : GroupsOf env b b' gs) : gs.length = sectionCount b := by
  unfold sectionCount
  by_cases hw : Dict.get? b "type" = some (.str "wireguard")
  · rw [if_pos hw, (h.wireguard hw).2]; rfl
  rw [if_neg hw]
  by_cases hn : addressList b = []
  · rw [if_pos hn, (h.notGiven hw hn).2]
    split <;> rfl
  rw [if_neg hn]
  obtain ⟨⟨s, ds, rfl, h1, h2, h3⟩, _⟩ := h.given hw hn
  rw [List.length_append, ← h1.length_eq, ← List.countP_eq_length_filter]
  congr 1
  by_cases hall : (addressList b).filter (fun a => !isDhcp a) = []
  · rw [h2 hall, if_pos]
    · rfl
    · rw [List.all_eq_true]
      intro a ha
      have := (List.filter_eq_nil_iff.1 hall) a ha
      simpa using this
  · obtain ⟨g, rfl, _⟩ := h3 hall
    rw [if_neg]
    · rfl
    · intro hc
      apply hall
      rw [List.filter_eq_nil_iff]
      intro a ha
      rw [List.all_eq_true] at hc
      simp [hc a ha]

/-! ## The block of the interface -/

/-- the type of an interface as its converter looks it up -/
def kindOf (b : VDict) : Chars := match Dict.get? b "type" with
  | some (.str t) => uciName t.toList
  | _ => []

/-- a VLAN interface -/
def isVlan (b : VDict) : Bool := decide (kindOf b ∈ ["8021q".toList, "8021ad".toList, "8021_vlan".toList])

/-- the name of the first section: that of the interface, but VLAN interfaces without a network are called `vlan_name_vid` -/
def firstName (env : Env) (b : VDict) (uci : Chars) : Val :=
  if isVlan b then orVal ((Dict.get? b "network").getD .none)
    (.str ("vlan_" ++ String.ofList uci ++ "_" ++ pyStr env.reprC ((Dict.get? b "vid").getD .none)))
  else txt uci

/-- the protocol an interface has from its type or of its own -/
def ownProto (b : VDict) : Option Val :=
  if kindOf b = "modem_manager".toList then some (.str "modemmanager")
  else if kindOf b = "wireguard".toList then some (.str "wireguard")
  else if kindOf b = "vxlan".toList then some (.str "vxlan")
  else Dict.get? b "proto"

/-- options the block of an interface may rename, move or remove -/
def blockKeys : List String :=
  [".type", ".name", "proto", "name", "ifname", "mac", "macaddr", "autostart", "auto", "disabled", "enabled", "wireless", "addresses", "network",
   "pin", "pincode", "port", "listen_port", "vtep", "peeraddr", "vni", "vid", "device"] ++ l2Options

/-- the block of an interface -/
structure BlockOf (env : Env) (uci : Chars) (b i : VDict) : Prop where
  nodup : (Dict.keys i).Nodup
  type : Dict.get? i ".type" = some (.str "interface")
  name : Dict.get? i ".name" = some (firstName env b uci)
  proto : Dict.get? i "proto" = ownProto b
  ifname : ∀ v, Dict.get? i "ifname" = some v → Dict.get? b "name" = some v
  keeps : kindOf b ≠ "wireguard".toList → (∀ s, Dict.get? b "name" = some (.str s) → '.' ∉ s.toList) → Dict.get? i "ifname" = Dict.get? b "name"
  others : ∀ k, k ∉ blockKeys → Dict.get? i k = Dict.get? b k

/-- two dictionaries that agree but for some keys -/
structure Agree (ks : List String) (d e : VDict) : Prop where
  nodup : (Dict.keys d).Nodup → (Dict.keys e).Nodup
  items : ∀ k, k ∉ ks → Dict.get? e k = Dict.get? d k

theorem Agree.refl (ks : List String) (d : VDict) : Agree ks d d := ⟨fun h => h, fun _ _ => rfl⟩

theorem Agree.trans {ks : List String} {a b c : VDict} (h : Agree ks a b) (h' : Agree ks b c) : Agree ks a c :=
  ⟨fun n => h'.nodup (h.nodup n), fun k hk => (h'.items k hk).trans (h.items k hk)⟩

theorem Agree.mono {ks ks' : List String} {a b : VDict} (h : Agree ks a b) (hs : ∀ k ∈ ks, k ∈ ks') : Agree ks' a b :=
  ⟨h.nodup, fun k hk => h.items k (fun hm => hk (hs k hm))⟩

theorem agree_set (d : VDict) (k : String) (v : Val) : Agree [k] d (Dict.set d k v) :=
  ⟨fun n => Dict.nodup_set n _ _, fun x hx => by rw [Dict.get?_set', if_neg (by simpa using hx)]⟩

theorem agree_erase (d : VDict) (k : String) : Agree [k] d (Dict.erase d k) :=
  ⟨fun n => Dict.nodup_erase n _, fun x hx => by rw [Dict.get?_erase', if_neg (by simpa using hx)]⟩

theorem macStep_agree (d : VDict) : Agree ["mac", "macaddr"] d (macStep d) := by
  unfold macStep
  split
  · refine Agree.trans (b := if Dict.get? d "type" = some (.str "wireless") then d else Dict.set d "macaddr" _) ?_ ((agree_erase _ "mac").mono (by decide))
    split
    · exact .refl _ _
    · exact (agree_set _ _ _).mono (by decide)
  · exact .refl _ _

theorem autoStep_agree (d : VDict) : Agree ["autostart", "auto"] d (autoStep d) := by
  unfold autoStep
  split
  · exact ((agree_set _ _ _).mono (by decide)).trans ((agree_erase _ _).mono (by decide))
  · exact .refl _ _

theorem enabledStep_agree (d : VDict) : Agree ["disabled", "enabled"] d (enabledStep d) := by
  unfold enabledStep
  split
  · exact ((agree_set _ _ _).mono (by decide)).trans ((agree_erase _ _).mono (by decide))
  · exact .refl _ _

theorem addL2_agree (d i : VDict) : Agree ("macaddr" :: l2Options) i (addL2 d i).2 := by
  unfold addL2
  obtain ⟨m1, _, _, m4⟩ := moveAll_get l2Options (d, i)
  have h1 : Agree l2Options i (l2Options.foldl moveOption (d, i)).2 := ⟨m4, fun k hk => by rw [m1, if_neg hk]⟩
  have h1 := h1.mono (ks' := "macaddr" :: l2Options) (fun k hk => by simp [hk])
  clear m1 m4
  dsimp only
  generalize l2Options.foldl moveOption (d, i) = p at h1
  split
  · refine h1.trans ?_
    unfold moveOption
    split
    · exact (agree_erase _ _).mono (by decide)
    · exact .refl _ _
  · exact h1

theorem modem_agree (d : VDict) : Agree ["proto", "pin", "pincode"] d (modemManager d) := by
  unfold modemManager popOr
  dsimp only
  exact (((agree_set _ _ _).mono (by decide)).trans ((agree_erase _ _).mono (by decide))).trans ((agree_set _ _ _).mono (by decide))

theorem wireguard_agree (d : VDict) : Agree ["proto", "port", "listen_port", "ifname"] d (wireguardIface d) := by
  unfold wireguardIface popOr
  dsimp only
  exact ((((agree_set _ _ _).mono (by decide)).trans ((agree_erase _ _).mono (by decide))).trans ((agree_set _ _ _).mono (by decide))).trans
    ((agree_erase _ _).mono (by decide))

/-- what the step for the type does -/
structure Specific (env : Env) (d i : VDict) : Prop where
  agree : Agree [".name", "proto", "name", "pin", "pincode", "port", "listen_port", "ifname", "vtep", "peeraddr", "vni", "vid"] d i
  proto : Dict.get? i "proto" = ownProto d
  name : Dict.get? i ".name" = some (if isVlan d then orVal ((Dict.get? d "network").getD .none)
    (.str ("vlan_" ++ pyStr env.reprC ((Dict.get? d ".name").getD .none) ++ "_" ++ pyStr env.reprC ((Dict.get? d "vid").getD .none)))
    else (Dict.get? d ".name").getD .none)
  ifname : ∀ v, Dict.get? i "ifname" = some v → Dict.get? d "ifname" = some v
  keeps : kindOf d ≠ "wireguard".toList → Dict.get? i "ifname" = Dict.get? d "ifname"

theorem specific_inv {env : Env} {d i : VDict} (hname : Dict.get? d ".name" ≠ none) (h : specific env d = .ok i) : Specific env d i := by
  unfold specific at h
  obtain ⟨t, h1, h2⟩ := bind_ok_iff.1 h
  obtain ⟨c, h3, h4⟩ := bind_ok_iff.1 h2
  have ht := getKey_inv h1
  have hk : kindOf d = uciName c := by
    unfold kindOf
    rw [ht]
    cases t with
    | str s => simp only [asText, Except.ok.injEq] at h3; subst h3; rfl
    | none => cases h3
    | bool _ => cases h3
    | int _ => cases h3
    | dict _ => cases h3
    | list _ => cases h3
  obtain ⟨nm, hnm⟩ : ∃ nm, Dict.get? d ".name" = some nm := by
    cases hh : Dict.get? d ".name" with
    | none => exact absurd hh hname
    | some nm => exact ⟨nm, rfl⟩
  clear h h1 h2 h3
  dsimp only at h4
  rw [← hk] at h4
  by_cases k1 : kindOf d = "modem_manager".toList
  · rw [if_pos k1] at h4
    have h4 := pure_ok_iff.1 h4
    subst h4
    have hv : isVlan d = false := by unfold isVlan; rw [k1]; decide
    refine ⟨(modem_agree d).mono (by decide), ?_, ?_, ?_, fun _ => (modem_agree d).items _ (by decide)⟩
    · unfold ownProto
      rw [if_pos k1]
      unfold modemManager popOr
      dsimp only
      rw [Dict.get?_set', if_neg (by decide), Dict.get?_erase', if_neg (by decide), Dict.get?_set', if_pos rfl]
    · rw [hv, hnm, (modem_agree d).items _ (by decide), hnm]
      rfl
    · intro v hn
      rw [(modem_agree d).items _ (by decide)] at hn; exact hn
  rw [if_neg k1] at h4
  by_cases k2 : kindOf d = "wireguard".toList
  · rw [if_pos k2] at h4
    have h4 := pure_ok_iff.1 h4
    subst h4
    have hv : isVlan d = false := by unfold isVlan; rw [k2]; decide
    refine ⟨(wireguard_agree d).mono (by decide), ?_, ?_, ?_, fun h => absurd k2 h⟩
    · unfold ownProto
      rw [if_neg k1, if_pos k2]
      unfold wireguardIface popOr
      dsimp only
      rw [Dict.get?_erase', if_neg (by decide), Dict.get?_set', if_neg (by decide), Dict.get?_erase', if_neg (by decide), Dict.get?_set', if_pos rfl]
    · rw [hv, hnm, (wireguard_agree d).items _ (by decide), hnm]
      rfl
    · intro v hn
      unfold wireguardIface at hn
      rw [Dict.get?_erase', if_pos rfl] at hn
      cases hn
  rw [if_neg k2] at h4
  by_cases k3 : kindOf d = "vxlan".toList
  · rw [if_pos k3] at h4
    unfold vxlanIface at h4
    obtain ⟨⟨v1, d1⟩, e1, h4⟩ := bind_ok_iff.1 h4
    dsimp only at h4
    obtain ⟨⟨v2, d2⟩, e2, h4⟩ := bind_ok_iff.1 h4
    dsimp only at h4
    have h4 := pure_ok_iff.1 h4
    subst h4
    obtain ⟨_, rfl⟩ := popKey_inv' e1
    obtain ⟨_, rfl⟩ := popKey_inv' e2
    have hv : isVlan d = false := by unfold isVlan; rw [k3]; decide
    have ag : Agree ["proto", "vtep", "peeraddr", "vni", "vid"] d (Dict.set (Dict.erase (Dict.set (Dict.erase (Dict.set d "proto" (.str "vxlan")) "vtep") "peeraddr" v1) "vni") "vid" v2) :=
      (((((agree_set _ _ _).mono (by decide)).trans ((agree_erase _ _).mono (by decide))).trans ((agree_set _ _ _).mono (by decide))).trans
        ((agree_erase _ _).mono (by decide))).trans ((agree_set _ _ _).mono (by decide))
    refine ⟨ag.mono (by decide), ?_, ?_, ?_, fun _ => ag.items _ (by decide)⟩
    · unfold ownProto
      rw [if_neg k1, if_neg k2, if_pos k3]
      rw [Dict.get?_set', if_neg (by decide), Dict.get?_erase', if_neg (by decide), Dict.get?_set', if_neg (by decide), Dict.get?_erase',
        if_neg (by decide), Dict.get?_set', if_pos rfl]
    · rw [hv, hnm, ag.items _ (by decide), hnm]
      rfl
    · intro v hn
      rw [ag.items _ (by decide)] at hn; exact hn
  rw [if_neg k3] at h4
  by_cases k4 : isVlan d = true
  · rw [if_pos (by unfold isVlan at k4; simpa using k4)] at h4
    unfold vlanIface at h4
    obtain ⟨x1, e1, h4⟩ := bind_ok_iff.1 h4
    obtain ⟨x2, e2, h4⟩ := bind_ok_iff.1 h4
    obtain ⟨x3, e3, h4⟩ := bind_ok_iff.1 h4
    have h4 := pure_ok_iff.1 h4
    have e2 := getKey_inv e2
    have e3 := getKey_inv e3
    rw [e3] at hnm
    cases hnm
    subst h4
    have ag : ∀ a b, Agree ["name", ".name"] d (Dict.set (Dict.set d "name" a) ".name" b) := fun a b =>
      ((agree_set _ _ _).mono (by decide)).trans ((agree_set _ _ _).mono (by decide))
    refine ⟨(ag _ _).mono (by decide), ?_, ?_, fun v hn => by rw [(ag _ _).items _ (by decide)] at hn; exact hn, fun _ => (ag _ _).items _ (by decide)⟩
    · unfold ownProto
      rw [if_neg k1, if_neg k2, if_neg k3, (ag _ _).items _ (by decide)]
    · rw [Dict.get?_set', if_pos rfl, k4, if_pos rfl, e2, e3, Dict.get?_set', if_neg (by decide)]
      rfl
  · rw [if_neg (by unfold isVlan at k4; simpa using k4)] at h4
    have h4 := pure_ok_iff.1 h4
    subst h4
    refine ⟨.refl _ _, ?_, ?_, fun _ h => h, fun _ => rfl⟩
    · unfold ownProto
      rw [if_neg k1, if_neg k2, if_neg k3]
    · rw [Bool.not_eq_true] at k4
      rw [k4, hnm]; rfl

theorem check_agree {dsa : Bool} {vlans : List Val} {d i : VDict} (h : checkBridgeVlan dsa vlans d = .ok i) :
    Agree ("ifname" :: "device" :: "macaddr" :: l2Options) d i ∧ (∀ v, Dict.get? i "ifname" = some v → Dict.get? d "ifname" = some v) ∧
      ((∀ s, Dict.get? d "ifname" = some (.str s) → '.' ∉ s.toList) → i = d) := by
  unfold checkBridgeVlan at h
  split at h
  · split at h
    · next s hs =>
      split at h
      · next hc =>
        have ag := (addL2_agree [] d).mono (ks' := "ifname" :: "device" :: "macaddr" :: l2Options) (fun k hk => by simp only [List.mem_cons] at hk ⊢; tauto)
        generalize (addL2 [] d).2 = e at ag h
        have h := (Except.ok.inj h).symm
        subst h
        refine ⟨(ag.trans ((agree_erase _ "ifname").mono (by simp))).trans ((agree_set _ "device" _).mono (by simp)), ?_, fun hd => ?_⟩
        rotate_left
        · exfalso
          cases hg : Dict.get? d "ifname" with
          | none =>
            rw [hg] at hs
            simp only [Option.getD_none, Val.str.injEq] at hs
            rw [← hs] at hc
            exact absurd hc.1 (by decide)
          | some w =>
            rw [hg] at hs
            simp only [Option.getD_some] at hs
            subst hs
            exact hd s hg hc.1
        intro v hv
        rw [Dict.get?_set', if_neg (by decide), Dict.get?_erase', if_pos rfl] at hv
        cases hv
      · cases h; exact ⟨.refl _ _, fun _ h => h, fun _ => rfl⟩
    · cases h
  · cases h; exact ⟨.refl _ _, fun _ h => h, fun _ => rfl⟩

theorem kindOf_congr {d b : VDict} (h : Dict.get? d "type" = Dict.get? b "type") : kindOf d = kindOf b := by
  unfold kindOf; rw [h]

theorem ifaceBlock_inv {env : Env} {dsa : Bool} {vlans : List Val} {uci : Chars} {b i : VDict} (hn : (Dict.keys b).Nodup)
    (h : ifaceBlock env dsa vlans uci b = .ok i) : BlockOf env uci b i := by
  unfold ifaceBlock at h
  dsimp only at h
  obtain ⟨⟨name, d1⟩, e1, h1⟩ := bind_ok_iff.1 h
  obtain ⟨hname, rfl⟩ := popKey_inv' e1
  dsimp only at h1
  obtain ⟨d2, e2, h2⟩ := bind_ok_iff.1 h1
  obtain ⟨d3, e3, h3⟩ := bind_ok_iff.1 h2
  have h4 := pure_ok_iff.1 h3
  clear e1 h h1 h2 h3
  -- up to the step for the type
  have a0 : ∀ k, k ∉ [".type", ".name"] → Dict.get? (Dict.update b [(".type", .str "interface"), (".name", txt uci)]) k = Dict.get? b k := by
    intro k hk
    simp only [List.mem_cons, List.not_mem_nil, or_false, not_or] at hk
    rw [Dict.update_cons, Dict.update_cons, Dict.update_nil, Dict.get?_set', if_neg hk.2, Dict.get?_set', if_neg hk.1]
  have t0 : Dict.get? (Dict.update b [(".type", Val.str "interface"), (".name", txt uci)]) ".type" = some (.str "interface") := by
    rw [Dict.update_cons, Dict.update_cons, Dict.update_nil, Dict.get?_set', if_neg (by decide), Dict.get?_set', if_pos rfl]
  have m0 : Dict.get? (Dict.update b [(".type", Val.str "interface"), (".name", txt uci)]) ".name" = some (txt uci) := by
    rw [Dict.update_cons, Dict.update_cons, Dict.update_nil, Dict.get?_set', if_pos rfl]
  have n0 : (Dict.keys (Dict.update b [(".type", Val.str "interface"), (".name", txt uci)])).Nodup := Dict.nodup_update hn _
  have hbname : Dict.get? b "name" = some name := by rw [← a0 _ (by decide)]; exact hname
  generalize Dict.update b [(".type", Val.str "interface"), (".name", txt uci)] = d0 at *
  have a1 : Agree ["name", "ifname", "mac", "macaddr", "autostart", "auto", "disabled", "enabled", "wireless", "addresses"] d0
      (Dict.erase (Dict.erase (enabledStep (autoStep (macStep (Dict.set (Dict.erase d0 "name") "ifname" name)))) "wireless") "addresses") :=
    ((((((((agree_erase d0 "name").mono (by decide)).trans ((agree_set _ "ifname" name).mono (by decide))).trans ((macStep_agree _).mono (by decide))).trans
      ((autoStep_agree _).mono (by decide))).trans ((enabledStep_agree _).mono (by decide))).trans ((agree_erase _ "wireless").mono (by decide))).trans
      ((agree_erase _ "addresses").mono (by decide)))
  have i1 : Dict.get? (Dict.erase (Dict.erase (enabledStep (autoStep (macStep (Dict.set (Dict.erase d0 "name") "ifname" name)))) "wireless") "addresses")
      "ifname" = some name := by
    have ag : Agree ["mac", "macaddr", "autostart", "auto", "disabled", "enabled", "wireless", "addresses"] (Dict.set (Dict.erase d0 "name") "ifname" name)
      (Dict.erase (Dict.erase (enabledStep (autoStep (macStep (Dict.set (Dict.erase d0 "name") "ifname" name)))) "wireless") "addresses") :=
      ((((((macStep_agree _).mono (by decide)).trans
      ((autoStep_agree _).mono (by decide))).trans ((enabledStep_agree _).mono (by decide))).trans ((agree_erase _ "wireless").mono (by decide))).trans
      ((agree_erase _ "addresses").mono (by decide)))
    rw [ag.items _ (by decide), Dict.get?_set', if_pos rfl]
  generalize Dict.erase (Dict.erase (enabledStep (autoStep (macStep (Dict.set (Dict.erase d0 "name") "ifname" name)))) "wireless") "addresses" = d1 at *
  have m1 : Dict.get? d1 ".name" = some (txt uci) := by rw [a1.items _ (by decide), m0]
  have s := specific_inv (by rw [m1]; simp) e2
  obtain ⟨c1, c2, c3⟩ := check_agree e3
  have hk : kindOf d1 = kindOf b := kindOf_congr (by rw [a1.items _ (by decide), a0 _ (by decide)])
  have hv : isVlan d1 = isVlan b := by unfold isVlan; rw [hk]
  subst h4
  refine ⟨?_, ?_, ?_, ?_, ?_, ?_, ?_⟩
  · exact Dict.nodup_erase (c1.nodup (s.agree.nodup (a1.nodup n0))) _
  · rw [Dict.get?_erase', if_neg (by decide), c1.items _ (by decide), s.agree.items _ (by decide), a1.items _ (by decide), t0]
  · rw [Dict.get?_erase', if_neg (by decide), c1.items _ (by decide), s.name, hv, m1]
    unfold firstName
    by_cases v : isVlan b = true
    · rw [if_pos v, if_pos v, a1.items _ (by decide), a0 _ (by decide), a1.items _ (by decide), a0 _ (by decide)]
      rfl
    · rw [if_neg v, if_neg v]; rfl
  · rw [Dict.get?_erase', if_neg (by decide), c1.items _ (by decide), s.proto]
    unfold ownProto
    rw [hk, a1.items _ (by decide), a0 _ (by decide)]
  · intro v hv
    rw [Dict.get?_erase', if_neg (by decide)] at hv
    have := s.ifname _ (c2 v hv)
    rw [i1] at this
    cases this
    exact hbname
  · intro hkw hdot
    rw [Dict.get?_erase', if_neg (by decide)]
    have hs := s.keeps (by rw [hk]; exact hkw)
    rw [i1] at hs
    rw [c3 (fun s hh => by rw [hs] at hh; exact hdot s (hbname.trans hh)), hs, hbname]
  · intro k hk
    have q : ∀ ks : List String, (∀ x ∈ ks, x ∈ blockKeys) → k ∉ ks := fun ks hs hm => hk (hs k hm)
    rw [Dict.get?_erase', if_neg (by rintro rfl; exact hk (by decide)), c1.items _ (q _ (by decide)), s.agree.items _ (q _ (by decide)),
      a1.items _ (q _ (by decide)), a0 _ (q _ (by decide))]

/-! ## The device -/

/-- options that may go to the device -/
def deviceKeys : List String :=
  ["macaddr", "device", "vid", "name", "ifname", "ingress_qos_mapping", "egress_qos_mapping"] ++ l2Options ++ (allOptions ++ stpOptions ++ igmpOptions)

/-- the name of the device section of an interface with a type and a first section of that name -/
def deviceLabel (env : Env) (type name : Val) : Val := match type, name with
  | .str t, .str n => if "8021".toList <+: t.toList then txt ("device_".toList ++ n.toList.dropWhile (fun c => decide (c ∈ "vlan_".toList)))
      else .str ("device_" ++ n)
  | _, v => .str ("device_" ++ pyStr env.reprC v)

/-- the device section with the name `nm` -/
structure DeviceBlock (nm : Val) (D : VDict) : Prop where
  nodup : (Dict.keys D).Nodup
  type : Dict.get? D ".type" = some (.str "device")
  named : Dict.get? D ".name" = some nm

/-- the name of the device of an interface: `br-` is put before names of bridges -/
def deviceName (type name : Val) : Val := match type, name with
  | .str t, .str n => if t = "bridge" then (if "br-".toList <+: n.toList then .str n else txt ("br-".toList ++ n.toList)) else .str n
  | _, v => v

structure DeviceOf (env : Env) (i D i' : VDict) : Prop where
  agree : Agree deviceKeys i i'
  device : D ≠ [] → DeviceBlock (deviceLabel env ((Dict.get? i "type").getD .none) ((Dict.get? i ".name").getD .none)) D
  ifname : ∀ v, Dict.get? i' "ifname" = some v → ∃ t w, Dict.get? i "type" = some t ∧ Dict.get? i "ifname" = some w ∧ v = deviceName t w

theorem deviceBlock_of_agree {nm : Val} {ks : List String} {D E : VDict} (h : DeviceBlock nm D) (ag : Agree ks D E) (h1 : ".type" ∉ ks) (h2 : ".name" ∉ ks) :
    DeviceBlock nm E :=
  ⟨ag.nodup h.nodup, by rw [ag.items _ h1]; exact h.type, by rw [ag.items _ h2]; exact h.named⟩

theorem vlanItems_device {nm : Val} {device : VDict} (hd : DeviceBlock nm device) (x1 x2 x3 x4 x5 x6 : Val) (s : Chars) :
    DeviceBlock (txt ("device_".toList ++ s)) (Dict.update device [("type", x1), ("vid", x2), ("name", x3), (".name", txt ("device_".toList ++ s)), ("ifname", x4),
      ("ingress_qos_mapping", x5), ("egress_qos_mapping", x6)]) := by
  have hk : (Dict.keys [("type", x1), ("vid", x2), ("name", x3), (".name", txt ("device_".toList ++ s)), ("ifname", x4),
      ("ingress_qos_mapping", x5), ("egress_qos_mapping", x6)]).Nodup := by simp [Dict.keys]
  generalize txt ("device_".toList ++ s) = w at hk ⊢
  refine ⟨Dict.nodup_update hd.nodup _, ?_, ?_⟩
  · rw [Dict.get?_update _ _ hk]
    have : Dict.get? [("type", x1), ("vid", x2), ("name", x3), (".name", w), ("ifname", x4),
      ("ingress_qos_mapping", x5), ("egress_qos_mapping", x6)] ".type" = none := by rfl
    rw [this, Option.none_or]; exact hd.type
  · rw [Dict.get?_update _ _ hk]
    have : Dict.get? [("type", x1), ("vid", x2), ("name", x3), (".name", w), ("ifname", x4),
      ("ingress_qos_mapping", x5), ("egress_qos_mapping", x6)] ".name" = some w := by rfl
    rw [this, Option.some_or]

theorem vlanDevice_inv {nm : Val} {device i D i' : VDict} (hd : DeviceBlock nm device) (h : vlanDevice device i = .ok (D, i')) :
    (∃ n : String, Dict.get? i ".name" = some (.str n) ∧
      DeviceBlock (txt ("device_".toList ++ n.toList.dropWhile (fun c => decide (c ∈ "vlan_".toList)))) D) ∧
    Agree deviceKeys i i' ∧ Dict.get? i' "ifname" = none := by
  unfold vlanDevice at h
  obtain ⟨x1, e1, h1⟩ := bind_ok_iff.1 h
  obtain ⟨⟨x2, i2⟩, e2, h2⟩ := bind_ok_iff.1 h1
  dsimp only at h2
  obtain ⟨⟨x3, i3⟩, e3, h3⟩ := bind_ok_iff.1 h2
  dsimp only at h3
  obtain ⟨x4, e4, h4⟩ := bind_ok_iff.1 h3
  obtain ⟨x5, e5, h5⟩ := bind_ok_iff.1 h4
  obtain ⟨⟨x6, i6⟩, e6, h6⟩ := bind_ok_iff.1 h5
  dsimp only [popOr] at h6
  have h7 := pure_ok_iff.1 h6
  clear h h1 h2 h3 h4 h5 h6
  obtain ⟨_, rfl⟩ := popKey_inv' e2
  obtain ⟨_, rfl⟩ := popKey_inv' e3
  obtain ⟨_, rfl⟩ := popKey_inv' e6
  rw [Prod.mk.injEq] at h7
  obtain ⟨rfl, rfl⟩ := h7
  have hnm : ∃ n : String, Dict.get? i ".name" = some (.str n) ∧ x5 = n.toList := by
    have e4 := getKey_inv e4
    rw [Dict.get?_erase', if_neg (by decide), Dict.get?_erase', if_neg (by decide)] at e4
    cases x4 with
    | str n => simp only [asText, Except.ok.injEq] at e5; exact ⟨n, e4, e5.symm⟩
    | none => cases e5
    | bool _ => cases e5
    | int _ => cases e5
    | dict _ => cases e5
    | list _ => cases e5
  obtain ⟨n, hn, rfl⟩ := hnm
  refine ⟨⟨n, hn, vlanItems_device hd _ _ _ _ _ _ _⟩, ?_, ?_⟩
  · exact (((((((agree_erase _ "vid").mono (by decide)).trans ((agree_erase _ "name").mono (by decide))).trans ((agree_erase _ "ifname").mono (by decide))).trans
      ((agree_erase _ "ingress_qos_mapping").mono (by decide))).trans ((agree_erase _ "egress_qos_mapping").mono (by decide))).trans
      ((agree_set _ "device" _).mono (by decide)))
  · rw [Dict.get?_set', if_neg (by decide), Dict.get?_erase', if_neg (by decide), Dict.get?_erase', if_neg (by decide), Dict.get?_erase', if_pos rfl]

theorem addOption_agree (interface dev : VDict) (o : String) : Agree [o] dev (addOption interface dev o) := by
  unfold addOption
  split
  · split
    · exact agree_set _ _ _
    · exact .refl _ _
  · exact .refl _ _

theorem addOption_all (interface : VDict) (os : List String) (dev : VDict) : Agree os dev (os.foldl (addOption interface) dev) := by
  induction os generalizing dev with
  | nil => exact .refl _ _
  | cons o os ih =>
    rw [List.foldl_cons]
    exact ((addOption_agree interface dev o).mono (by simp)).trans ((ih _).mono (by intro k hk; simp [hk]))

theorem addOptions_agree (p : String) (os : List String) (dev interface : VDict) : Agree (p :: os) dev (addOptions p os dev interface) := by
  unfold addOptions
  split
  · exact ((agree_set _ _ _).mono (by simp)).trans ((addOption_all _ _ _).mono (by intro k hk; simp [hk]))
  · exact .refl _ _

theorem sorted_agree (ks : List String) {d : VDict} (h : (Dict.keys d).Nodup) : Agree ks d (sortedDict d) :=
  ⟨fun n => sortedDict_nodup n, fun k _ => get?_sortedDict h k⟩

theorem bridgeDevice_inv {lb : Val} {device i D i' : VDict} (hd : DeviceBlock lb device) (h : bridgeDevice device i = .ok (D, i')) :
    DeviceBlock lb D ∧ Agree deviceKeys i i' ∧ ∃ w, Dict.get? i "ifname" = some w ∧ Dict.get? i' "ifname" = some (deviceName (.str "bridge") w) := by
  unfold bridgeDevice at h
  obtain ⟨x1, e1, h1⟩ := bind_ok_iff.1 h
  obtain ⟨x2, e2, h2⟩ := bind_ok_iff.1 h1
  dsimp only at h2
  have h3 := pure_ok_iff.1 h2
  clear h h1 h2
  have e1 := getKey_inv e1
  obtain ⟨n, rfl, rfl⟩ : ∃ n : String, x1 = .str n ∧ x2 = n.toList := by
    cases x1 with
    | str n => simp only [asText, Except.ok.injEq] at e2; exact ⟨n, rfl, e2.symm⟩
    | none => cases e2
    | bool _ => cases e2
    | int _ => cases e2
    | dict _ => cases e2
    | list _ => cases e2
  have hnm : txt (if "br-".toList <+: n.toList then n.toList else "br-".toList ++ n.toList) = deviceName (.str "bridge") (.str n) := by
    unfold deviceName txt
    dsimp only
    rw [if_pos rfl]
    split
    · rw [String.ofList_toList]
    · rfl
  rw [hnm] at h3
  generalize hq : deviceName (.str "bridge") (.str n) = nm at h3 hnm
  clear hnm e2
  have ai : Agree ["ifname", "device"] i (Dict.set (Dict.set i "ifname" nm) "device" nm) :=
    ((agree_set _ _ _).mono (by decide)).trans ((agree_set _ _ _).mono (by decide))
  have gi : Dict.get? (Dict.set (Dict.set i "ifname" nm) "device" nm) "ifname" = some nm := by
    rw [Dict.get?_set', if_neg (by decide), Dict.get?_set', if_pos rfl]
  generalize Dict.set (Dict.set i "ifname" nm) "device" nm = i1 at *
  have ad : Agree ["type", "name"] device (Dict.set (Dict.set device "type" (.str "bridge")) "name" nm) :=
    ((agree_set _ _ _).mono (by decide)).trans ((agree_set _ _ _).mono (by decide))
  have hd1 := deviceBlock_of_agree hd ad (by decide) (by decide)
  generalize Dict.set (Dict.set device "type" (.str "bridge")) "name" nm = d1 at *
  have hd2 := deviceBlock_of_agree hd1 (addOptions_agree "stp" stpOptions d1 i1) (by decide) (by decide)
  generalize addOptions "stp" stpOptions d1 i1 = d2 at *
  have hd3 := deviceBlock_of_agree hd2 (addOptions_agree "igmp_snooping" igmpOptions d2 i1) (by decide) (by decide)
  generalize addOptions "igmp_snooping" igmpOptions d2 i1 = d3 at *
  obtain ⟨m1, m2, m3, m4⟩ := moveAll_get (allOptions ++ stpOptions ++ igmpOptions) (d3, i1)
  have am : Agree (allOptions ++ stpOptions ++ igmpOptions) i1 ((allOptions ++ stpOptions ++ igmpOptions).foldl moveOption (d3, i1)).2 :=
    ⟨m4, fun k hk => by rw [m1, if_neg hk]⟩
  have hd4 : DeviceBlock lb ((allOptions ++ stpOptions ++ igmpOptions).foldl moveOption (d3, i1)).1 :=
    deviceBlock_of_agree hd3 (ks := allOptions ++ stpOptions ++ igmpOptions) ⟨m3, fun k hk => by rw [m2, if_neg hk]⟩ (by decide) (by decide)
  clear m1 m2 m3 m4
  generalize (allOptions ++ stpOptions ++ igmpOptions).foldl moveOption (d3, i1) = q at *
  obtain ⟨d4, i2⟩ := q
  dsimp only at h3 am hd4
  rw [Prod.mk.injEq] at h3
  obtain ⟨h4, rfl⟩ := h3
  have hd5 : DeviceBlock lb (if (Dict.get? i2 "bridge_members").getD (.list []) = .list [] then Dict.erase (Dict.set d4 "bridge_empty" (.bool true)) "ports"
      else Dict.set d4 "ports" ((Dict.get? i2 "bridge_members").getD (.list []))) := by
    split
    · exact deviceBlock_of_agree hd4 (ks := ["bridge_empty", "ports"]) (((agree_set _ _ _).mono (by decide)).trans ((agree_erase _ _).mono (by decide)))
        (by decide) (by decide)
    · exact deviceBlock_of_agree hd4 (agree_set _ _ _) (by decide) (by decide)
  refine ⟨?_, ?_, .str n, e1, ?_⟩
  · rw [← h4]
    exact deviceBlock_of_agree (ks := []) hd5 (sorted_agree [] hd5.nodup) (by decide) (by decide)
  · exact (ai.mono (by decide)).trans (am.mono (by decide))
  · rw [am.items _ (by decide), gi, hq]

theorem ifaceDevice_inv {env : Env} {i D i' : VDict} (h : ifaceDevice env i = .ok (D, i')) : DeviceOf env i D i' := by
  unfold ifaceDevice at h
  have al := (addL2_agree [] i).mono (ks' := deviceKeys) (by decide)
  have ni : Dict.get? (addL2 [] i).2 "ifname" = Dict.get? i "ifname" := (addL2_agree [] i).items _ (by decide)
  have nn : Dict.get? (addL2 [] i).2 ".name" = Dict.get? i ".name" := (addL2_agree [] i).items _ (by decide)
  have nt : Dict.get? (addL2 [] i).2 "type" = Dict.get? i "type" := (addL2_agree [] i).items _ (by decide)
  have nl : (Dict.keys (addL2 [] i).1).Nodup := by
    have h1 := (moveAll_get l2Options ([], i)).2.2.1 List.nodup_nil
    unfold addL2
    generalize l2Options.foldl moveOption ([], i) = p at h1
    dsimp only
    split
    · unfold moveOption
      split
      · exact Dict.nodup_set h1 _ _
      · exact h1
    · exact h1
  dsimp only at h
  generalize addL2 [] i = p at *
  obtain ⟨l2, j⟩ := p
  dsimp only at h al ni nt nl nn
  obtain ⟨name, e1, h1⟩ := bind_ok_iff.1 h
  obtain ⟨ifname, e2, h2⟩ := bind_ok_iff.1 h1
  clear h h1
  have e2 := getKey_inv e2
  have hnm : Dict.get? i ".name" = some name := by rw [← (nn : Dict.get? j ".name" = _)]; exact getKey_inv e1
  have hb : DeviceBlock (.str ("device_" ++ pyStr env.reprC name))
      (Dict.update l2 [(".type", .str "device"), (".name", .str ("device_" ++ pyStr env.reprC name)), ("name", ifname)]) := by
    refine ⟨Dict.nodup_update nl _, ?_, ?_⟩
    · rw [Dict.get?_update _ _ (by simp [Dict.keys])]; simp
    · rw [Dict.get?_update _ _ (by simp [Dict.keys])]; simp [Dict.get?_cons]
  generalize Dict.update l2 [(".type", .str "device"), (".name", .str ("device_" ++ pyStr env.reprC name)), ("name", ifname)] = base at *
  have aj : Agree ["device"] j (if ((Dict.get? j "device").getD .none).truthy = true then j else Dict.set j "device" ifname) := by
    split
    · exact .refl _ _
    · exact agree_set _ _ _
  generalize (if ((Dict.get? j "device").getD .none).truthy = true then j else Dict.set j "device" ifname) = j1 at *
  obtain ⟨tv, e3, h3⟩ := bind_ok_iff.1 h2
  obtain ⟨t, e4, h4⟩ := bind_ok_iff.1 h3
  obtain ⟨⟨d1, j2⟩, e5, h5⟩ := bind_ok_iff.1 h4
  clear h2 h3 h4
  dsimp only at h5
  have e3 := getKey_inv e3
  obtain ⟨s, rfl, rfl⟩ : ∃ n : String, tv = .str n ∧ t = n.toList := by
    cases tv with
    | str n => simp only [asText, Except.ok.injEq] at e4; exact ⟨n, rfl, e4.symm⟩
    | none => cases e4
    | bool _ => cases e4
    | int _ => cases e4
    | dict _ => cases e4
    | list _ => cases e4
  have hti : Dict.get? i "type" = some (.str s) := by rw [← nt, ← aj.items _ (by decide)]; exact e3
  have hif : Dict.get? j1 "ifname" = Dict.get? i "ifname" := by rw [aj.items _ (by decide), ni]
  have a1 := al.trans (aj.mono (ks' := deviceKeys) (by decide))
  by_cases h8 : "8021".toList <+: s.toList
  · rw [if_pos h8] at e5
    obtain ⟨v1, v2, v3⟩ := vlanDevice_inv hb e5
    have hne : s.toList ≠ "bridge".toList := by
      intro e; rw [e] at h8; revert h8; decide
    rw [if_pos hne, if_neg (fun hc => hc.2 h8)] at h5
    have h6 := pure_ok_iff.1 h5
    rw [Prod.mk.injEq] at h6
    obtain ⟨rfl, rfl⟩ := h6
    obtain ⟨n, v5, v6⟩ := v1
    rw [aj.items _ (by decide), nn] at v5
    refine ⟨a1.trans v2, fun _ => ?_, fun v hv => by rw [v3] at hv; cases hv⟩
    rw [hti, v5]
    unfold deviceLabel
    simp only [Option.getD_some]
    rw [if_pos h8]
    exact v6
  · rw [if_neg h8] at e5
    have hlab : deviceLabel env ((Dict.get? i "type").getD .none) ((Dict.get? i ".name").getD .none) = .str ("device_" ++ pyStr env.reprC name) := by
      rw [hti, hnm]
      unfold deviceLabel
      cases name with
      | str n => simp only [Option.getD_some]; rw [if_neg h8]; rfl
      | none => rfl
      | bool _ => rfl
      | int _ => rfl
      | list _ => rfl
      | dict _ => rfl
    have e6 := pure_ok_iff.1 e5
    rw [Prod.mk.injEq] at e6
    obtain ⟨rfl, rfl⟩ := e6
    by_cases hbr : s.toList ≠ "bridge".toList
    · rw [if_pos hbr] at h5
      have h6 := pure_ok_iff.1 h5
      rw [Prod.mk.injEq] at h6
      obtain ⟨h7, rfl⟩ := h6
      refine ⟨a1, fun hD => ?_, fun v hv => ⟨_, v, hti, by rw [← hif]; exact hv, ?_⟩⟩
      · split at h7
        · exact absurd h7.symm hD
        · rw [← h7, hlab]; exact hb
      · unfold deviceName
        have : s ≠ "bridge" := by rintro rfl; exact hbr rfl
        cases v <;> simp [this]
    · rw [if_neg hbr] at h5
      obtain ⟨v1, v2, w, v3, v4⟩ := bridgeDevice_inv hb h5
      have : s = "bridge" := String.ext (by simpa using hbr)
      subst this
      refine ⟨a1.trans v2, fun _ => by rw [hlab]; exact v1, fun v hv => ⟨_, w, hti, by rw [← hif]; exact v3, ?_⟩⟩
      rw [v4] at hv; exact (Option.some.inj hv).symm

end NJ
