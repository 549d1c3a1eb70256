import Verif.WholeRest
import Verif.PropsIfaceItems
import Mathlib.Data.List.Nodup

/-!
# Wireless interfaces as a part of a configuration (C71)

Wireless interfaces without addresses make no section of the package `network`; they come back after the other interfaces. Their networks are given, or
are those of the bridges they are members of.
-/

namespace NJ

/-- a wireless interface that has nothing but its name, its MAC address, its state and its `wireless` object -/
structure WifiAlone (name m : String) (d w : VDict) : Prop extends WifiOK name m d w where
  wifi : Dict.get? d "wireless" = some (.dict w)
  type : Dict.get? d "type" = some (.str "wireless")
  only : ∀ k v, Dict.get? d k = some v → k ∈ ["name", "type", "mac", "disabled", "wireless"]

theorem WifiAlone.none {name m : String} {d w : VDict} (h : WifiAlone name m d w) {k : String} (hk : k ∉ ["name", "type", "mac", "disabled", "wireless"]) :
    Dict.get? d k = none := by
  cases hg : Dict.get? d k with
  | none => rfl
  | some v => exact absurd (h.only k v hg) hk

/-! ## No sections in the package `network` -/

theorem moveAll_none (l : List String) (p : VDict × VDict) (h : ∀ k ∈ l, Dict.get? p.2 k = none) : l.foldl moveOption p = p := by
  induction l with
  | nil => rfl
  | cons k l ih =>
    rw [List.foldl_cons]
    have : moveOption p k = p := by
      unfold moveOption
      rw [h k (by simp)]
    rw [this]
    exact ih (fun x hx => h x (by simp [hx]))

theorem addL2_none {i : VDict} (h : ∀ k ∈ l2Options, Dict.get? i k = none) (hm : Dict.get? i "macaddr" = none) : addL2 [] i = ([], i) := by
  unfold addL2
  rw [moveAll_none l2Options ([], i) h]
  dsimp only
  rw [hm]
  rfl

/-- the section a wireless interface would have -/
theorem ifaceBlock_wifi (env : Env) (dsa : Bool) (uci : Chars) {name m : String} {d w : VDict} (h : WifiAlone name m d w) :
    ∃ i, ifaceBlock env dsa [] uci d = .ok i ∧ Dict.get? i "type" = some (.str "wireless") ∧ Dict.get? i "ifname" = some (.str name) ∧
      (∃ n, Dict.get? i ".name" = some (.str n)) ∧ ∀ k ∈ "macaddr" :: "vlan_filtering" :: "device" :: "proto" :: l2Options, Dict.get? i k = none := by
  unfold ifaceBlock
  generalize hu : Dict.update d [(".type", Val.str "interface"), (".name", txt uci)] = u
  have gu : ∀ k, k ≠ ".type" → k ≠ ".name" → Dict.get? u k = Dict.get? d k := by
    intro k h1 h2
    rw [← hu, Dict.update_cons, Dict.update_cons, Dict.update_nil, Dict.get?_set', if_neg h2, Dict.get?_set', if_neg h1]
  have gn : Dict.get? u ".name" = some (txt uci) := by
    rw [← hu, Dict.update_cons, Dict.update_cons, Dict.update_nil, Dict.get?_set', if_pos rfl]
  have hname : popKey u "name" = .ok (.str name, Dict.erase u "name") := popKey_iff.2 ⟨by rw [gu _ (by decide) (by decide), h.hname], rfl⟩
  simp only [hname, bind, Except.bind]
  generalize hx : Dict.erase (Dict.erase (enabledStep (autoStep (macStep (Dict.set (Dict.erase u "name") "ifname" (.str name))))) "wireless") "addresses" = x
  have gx : ∀ k, k ∉ ["name", "ifname", "wireless", "addresses", "mac", "macaddr", "autostart", "auto", "disabled", "enabled"] →
      Dict.get? x k = Dict.get? u k := by
    intro k hk
    simp only [List.mem_cons, List.not_mem_nil, or_false, not_or] at hk
    obtain ⟨k1, k2, k3, k4, k5, k6, k7, k8, k9, k10⟩ := hk
    rw [← hx, Dict.get?_erase', if_neg k4, Dict.get?_erase', if_neg k3, enabledStep_option, if_neg k9, if_neg k10, autoStep_option, if_neg k7, if_neg k8,
      macStep_option, if_neg k5, if_neg (fun e => k6 e.1), Dict.get?_set', if_neg k2, Dict.get?_erase', if_neg k1]
  have gi : Dict.get? x "ifname" = some (.str name) := by
    rw [← hx, Dict.get?_erase', if_neg (by decide), Dict.get?_erase', if_neg (by decide), enabledStep_option, if_neg (by decide), if_neg (by decide),
      autoStep_option, if_neg (by decide), if_neg (by decide), macStep_option, if_neg (by decide), if_neg (by simp), Dict.get?_set', if_pos rfl]
  have gt : Dict.get? x "type" = some (.str "wireless") := by rw [gx _ (by decide), gu _ (by decide) (by decide), h.type]
  have gm : Dict.get? x "macaddr" = none := by
    rw [← hx, Dict.get?_erase', if_neg (by decide), Dict.get?_erase', if_neg (by decide), enabledStep_option, if_neg (by decide), if_neg (by decide),
      autoStep_option, if_neg (by decide), if_neg (by decide), macStep_option, if_neg (by decide), if_neg, Dict.get?_set', if_neg (by decide),
      Dict.get?_erase', if_neg (by decide), gu _ (by decide) (by decide), h.none (by decide)]
    rintro ⟨_, e⟩
    apply e
    rw [Dict.get?_set', if_neg (by decide), Dict.get?_erase', if_neg (by decide), gu _ (by decide) (by decide), h.type]
  have hspec : specific env x = .ok x := by
    unfold specific
    rw [getKey_iff.2 gt]
    rfl
  have hvlan : checkBridgeVlan dsa [] x = .ok x := by
    unfold checkBridgeVlan
    cases dsa with
    | false => rfl
    | true =>
      rw [if_pos rfl, gi]
      simp
  rw [hspec]
  dsimp only
  rw [hvlan]
  refine ⟨_, rfl, ?_, ?_, ⟨String.ofList uci, ?_⟩, ?_⟩
  · rw [Dict.get?_erase', if_neg (by decide), gt]
  · rw [Dict.get?_erase', if_neg (by decide), gi]
  · rw [Dict.get?_erase', if_neg (by decide), gx _ (by decide), gn]; rfl
  · intro k hk
    rw [Dict.get?_erase']
    split
    · rfl
    · rcases List.mem_cons.1 hk with rfl | hk
      · exact gm
      · have hd : ∀ k ∈ "vlan_filtering" :: "device" :: "proto" :: l2Options, k ∉ ["name", "ifname", "wireless", "addresses", "mac", "macaddr", "autostart", "auto",
            "disabled", "enabled"] ∧ k ≠ ".type" ∧ k ≠ ".name" ∧ k ∉ ["name", "type", "mac", "disabled", "wireless"] := by decide
        obtain ⟨a, b, c, e⟩ := hd k hk
        rw [gx k a, gu k b c, h.none e]

/-- a wireless interface without addresses makes no section of the package `network` -/
theorem iface_wifi (sh : Val → Bool) (env : Env) (dsa : Bool) (config : VDict) {name m : String} {d w : VDict} (h : WifiAlone name m d w) (acc : VDict) :
    ifaceFwd sh env dsa config ([], acc) (.dict d) = .ok ([], acc) := by
  obtain ⟨i, hb, h1, h2, ⟨n, h3⟩, h4⟩ := ifaceBlock_wifi env dsa (uciName name.toList) h
  have hadr : ifaceAddresses env d = .ok (d, []) := by
    unfold ifaceAddresses
    rw [h.type, h.none (k := "addresses") (by decide), getKey_iff.2 h.type]
    rfl
  have hl2 : addL2 [] i = ([], i) := addL2_none (fun k hk => h4 k (by simp [hk])) (h4 _ (by simp))
  have hdev : dsaSections env [] (uciName name.toList) i acc = .ok (Dict.set i "device" (.str name), [], acc) := by
    unfold dsaSections
    have hpop : popOr i "vlan_filtering" (.list []) = (.list [], i) := by
      unfold popOr
      rw [h4 _ (by simp), erase_absent (h4 _ (by simp))]
      rfl
    have hd : ifaceDevice env i = .ok ([], Dict.set i "device" (.str name)) := by
      unfold ifaceDevice
      rw [hl2]
      dsimp only
      rw [getKey_iff.2 h3, getKey_iff.2 h2, h4 "device" (by simp)]
      simp only [bind, Except.bind, Option.getD_none]
      have ht : getKey (Dict.set i "device" (.str name)) "type" = .ok (.str "wireless") :=
        getKey_iff.2 (by rw [Dict.get?_set', if_neg (by decide), h1])
      rw [if_neg (by decide), ht]
      rfl
    rw [hpop]
    dsimp only
    rw [if_neg (by decide), hd]
    rfl
  unfold ifaceFwd
  simp only [asDict, bind, Except.bind, h.none (k := "network") (by decide), Option.getD_none, Val.truthy, Bool.false_eq_true, if_false, getKey_iff.2 h.hname, asText, hadr, hb]
  cases isDsa dsa [] i with
  | false => rfl
  | true =>
    rw [if_pos rfl, hdev]
    rfl

/-! ## One wireless interface -/

/-- a wireless interface of a configuration -/
structure Wifi where
  name : String
  mode : String
  options : VDict
  wireless : VDict

/-- the wireless interfaces the theorem is about -/
def Wifi.OK (x : Wifi) : Prop := WifiAlone x.name x.mode x.options x.wireless

/-- the bridges that interfaces are in have names that are kept -/
def GoodBridges (m : Dict String (List String)) : Prop :=
  ∀ n bs, Dict.get? m n = some bs → bs ≠ [] ∧ ∀ x ∈ bs, IsWord x.toList ∧ uciName x.toList = x.toList

/-- what is read of the section of a wireless interface -/
structure WifiRead (env : Env) (m : Dict String (List String)) (x : Wifi) (b r y w' i' : VDict) : Prop where
  fix : fixNetwork m (.dict (blockRead env.reprC b)) = .ok (.dict y)
  type : Dict.get? y ".type" = some (.str "wifi-iface")
  ifname : wifiIfname y = .ok (.str x.name)
  run : netjsonWifi env y [("name", .str x.name), ("type", .str "wireless")] = .ok (w', i')
  result : r = Dict.set i' "wireless" (.dict w')

/-- the section of a wireless interface, and what comes back of it -/
structure WifiMade (env : Env) (m : Dict String (List String)) (x : Wifi) (b r : VDict) : Prop where
  forward : wifiBlock env m x.options x.wireless = .ok b
  plain : PlainBlock b
  type : Dict.get? b ".type" = some (.str "wifi-iface")
  name : Dict.get? b ".name" = some (if Dict.get? x.wireless "id" = none then .str (wifiAutoName x.name) else (Dict.get? x.wireless "id").getD .none)
  back : ∃ y w' i', WifiRead env m x b r y w' i'
  same : wifiComesBack r x.options

theorem joinWords_split {names : List String} (hne : names ≠ []) (hw : ∀ n ∈ names, IsWord n.toList ∧ uciName n.toList = n.toList) :
    networkText names = txt (joinWith [' '] (names.map String.toList)) ∧ names = (splitOn ' ' (joinWith [' '] (names.map String.toList))).map String.ofList := by
  constructor
  · unfold networkText
    congr 2
    exact List.map_congr_left (fun n hn => (hw n hn).2)
  · rw [splitOn_joinWith _ (by simpa using hne) (by
      intro w hw'
      obtain ⟨x, hx, rfl⟩ := List.mem_map.1 hw'
      exact word_nospace (hw x hx).1), List.map_map]
    conv_lhs => rw [← List.map_id names]
    exact List.map_congr_left (fun x _ => by simp)

theorem wifi_made (env : Env) {m : Dict String (List String)} (hm : GoodBridges m) {x : Wifi} (h : x.OK)
    (hn : Dict.get? x.wireless "network" = none ∨ Dict.get? m x.name = none) : ∃ b r, WifiMade env m x b r := by
  obtain ⟨name, md, d, w⟩ := x
  change WifiAlone name md d w at h
  simp only at hn
  -- the networks written
  obtain ⟨names, hnames, hcase⟩ : ∃ names : List String, wifiNetworks m name d (Dict.get? w "network") = .list (names.map .str) ∧
      ((Dict.get? m name = none ∧ ((Dict.get? w "network" = none ∧ (names = [] ∨ names = [name] ∧ uciName name.toList = name.toList)) ∨
        (Dict.get? w "network" = some (.list (names.map .str)) ∧ names ≠ [] ∧ names ≠ [name] ∧ ∀ n ∈ names, IsWord n.toList ∧ uciName n.toList = n.toList))) ∨
      (Dict.get? w "network" = none ∧ Dict.get? m name = some names ∧ names ≠ [] ∧ ∀ n ∈ names, IsWord n.toList ∧ uciName n.toList = n.toList)) := by
    obtain ⟨n0, a1, a2⟩ := joinSpaces_ok h.toWifiOK
    cases hg : Dict.get? m name with
    | none =>
      refine ⟨n0, ?_, .inl ⟨rfl, a2⟩⟩
      rw [← a1]
      unfold wifiNetworks
      rw [hg]; rfl
    | some bs =>
      have hnn := hn.resolve_right (by rw [hg]; simp)
      refine ⟨bs, ?_, .inr ⟨hnn, rfl, hm _ _ hg⟩⟩
      unfold wifiNetworks
      rw [hnn, if_neg (by simp [Val.truthy]), hg]
  obtain ⟨b, hb⟩ := wifiBlock_ok_at env h.toWifiOK hnames
  obtain ⟨mode, net, hmode, hnd, hnet, hget⟩ := wifi_section_at env h.toWifiOK hb
  rw [hnames, joinSpaces_texts] at hnet
  obtain rfl := Except.ok.inj hnet
  have hget' : ∀ k, Dict.get? b k = if k = "network" then some (networkText names) else wifiShown env name mode d w k := by
    intro k
    rw [hget, networkText_join]
  obtain ⟨hpl, ht, hnm⟩ := wifi_plain env h.toWifiOK hmode hnd (by
    rcases hcase with ⟨_, ⟨_, x | x⟩ | x⟩ | x
    · exact .inl (.inl x)
    · exact .inl (.inr x.1)
    · exact .inr x.2.2.2
    · exact .inr x.2.2.2) hget'
  have hx := get?_blockRead env.reprC hpl
  have hifname : ∀ y : VDict, (∀ k, k ≠ "network" → Dict.get? y k = Dict.get? (blockRead env.reprC b) k) → Dict.get? y "ifname" = some (.str name) ∧
      wifiIfname y = .ok (.str name) ∧ Dict.get? y ".type" = some (.str "wifi-iface") := by
    intro y hy
    have hne : name ≠ "" := by rintro rfl; exact h.word.1 rfl
    have e1 : Dict.get? y "ifname" = some (.str name) := by
      rw [hy _ (by decide), hx, if_neg (by decide), hget', if_neg (by decide), wifiShown_plain (by decide) (by decide)]
      have : wifiBase name mode d w "ifname" = some (.str name) := by simp [wifiBase]
      rw [this, Option.bind_some, readVal, if_neg hne]
    obtain ⟨n, hn1, _⟩ := hpl.name
    have e2 : Dict.get? y ".name" = some (.str n) := by rw [hy _ (by decide), hx, if_pos (.inr rfl), hn1]
    refine ⟨e1, ?_, ?_⟩
    · unfold wifiIfname
      rw [getKey_iff.2 e2, e1]
      rfl
    · rw [hy _ (by decide), hx, if_pos (.inl rfl), ht]
  have finish : ∀ (y : VDict) (w' i' : VDict), fixNetwork m (.dict (blockRead env.reprC b)) = .ok (.dict y) →
      (∀ k, k ≠ "network" → Dict.get? y k = Dict.get? (blockRead env.reprC b) k) →
      netjsonWifi env y [("name", .str name), ("type", .str "wireless")] = .ok (w', i') →
      ((∀ k, Dict.get? i' k = if k = "type" then some (.str "wireless") else if k ∈ ["name", "mac", "disabled"] then Dict.get? d k else none) ∧
      (∀ k, k ≠ "encryption" → Dict.get? w' k = wifiExpected w k) ∧
      match Dict.get? w "encryption" with
      | some (.dict enc) => ∃ e, Dict.get? w' "encryption" = some (.dict e) ∧ encComesBack enc e
      | _ => Dict.get? w' "encryption" = none) → ∃ b r, WifiMade env m ⟨name, md, d, w⟩ b r := by
    intro y w' i' y1 y2 y3 ⟨gi, gw, ge⟩
    obtain ⟨_, q2, q3⟩ := hifname y y2
    refine ⟨b, Dict.set i' "wireless" (.dict w'), ⟨hb, hpl, ht, hnm, ⟨y, w', i', y1, q3, q2, y3, rfl⟩, fun k hk => ?_, w, w', h.wifi, ?_, gw, ge⟩⟩
    · rw [Dict.get?_set', if_neg hk, gi]
    · rw [Dict.get?_set', if_pos rfl]
  rcases hcase with ⟨hg, hc⟩ | ⟨hnn, hg, hne, hwords⟩
  · obtain ⟨w', i', hrun, hrest⟩ := netjsonWifi_back env h.toWifiOK hmode hc hget' hx ht hnm
    refine finish (blockRead env.reprC b) w' i' ?_ (fun _ _ => rfl) hrun hrest
    unfold fixNetwork
    dsimp only
    rw [(hifname _ (fun _ _ => rfl)).1]
    dsimp only
    rw [hg]
  · obtain ⟨s1, s2⟩ := joinWords_split hne hwords
    have hnon : joinWith [' '] (names.map String.toList) ≠ [] := by
      intro e
      rw [e] at s2
      cases names with
      | nil => exact hne rfl
      | cons a l =>
        have hl := congrArg List.head? s2
        simp only [List.head?_cons] at hl
        have : a = "" := by
          have : some a = some "" := by rw [hl]; rfl
          exact Option.some.inj this
        exact (hwords a (by simp)).1.1 (by rw [this]; rfl)
    have hnr : Dict.get? (blockRead env.reprC b) "network" = some (txt (joinWith [' '] (names.map String.toList))) := by
      rw [hx, if_neg (by decide), hget', if_pos rfl, s1, Option.bind_some]
      unfold txt
      rw [readVal, if_neg]
      intro e
      have := congrArg String.toList e
      rw [String.toList_ofList] at this
      exact hnon this
    have hfix : fixNetwork m (.dict (blockRead env.reprC b)) = .ok (.dict (Dict.erase (blockRead env.reprC b) "network")) := by
      unfold fixNetwork
      dsimp only
      rw [(hifname _ (fun _ _ => rfl)).1]
      dsimp only
      rw [hg, hnr]
      simp only [Option.getD_some, asText, txt, bind, Except.bind, String.toList_ofList]
      rw [if_pos s2, if_pos (by simp [Dict.has, hnr])]
      rfl
    -- the section without networks
    obtain ⟨w', i', hrun, hrest⟩ := netjsonWifi_back env (names := []) (b := Dict.set b "network" (networkText []))
      (x := Dict.erase (blockRead env.reprC b) "network") h.toWifiOK hmode (.inl ⟨hnn, .inl rfl⟩) (by
        intro k
        rw [Dict.get?_set', hget']
        split <;> rfl) (by
        intro k
        rw [Dict.get?_erase', Dict.get?_set', hx]
        by_cases e : k = "network"
        · subst e; rfl
        · rw [if_neg e, if_neg e]) (by rw [Dict.get?_set', if_neg (by decide), ht]) (by rw [Dict.get?_set', if_neg (by decide), hnm])
    exact finish _ w' i' hfix (fun k hk => by rw [Dict.get?_erase', if_neg hk]) hrun hrest

/-! ## The wireless interfaces of a configuration -/

theorem wifis_made (env : Env) {m : Dict String (List String)} (hm : GoodBridges m) (ws : List Wifi) (h : ∀ x ∈ ws, x.OK)
    (hn : ∀ x ∈ ws, Dict.get? x.wireless "network" = none ∨ Dict.get? m x.name = none) :
    ∃ ps : List (VDict × VDict), List.Forall₂ (fun x p => WifiMade env m x p.1 p.2) ws ps := by
  induction ws with
  | nil => exact ⟨[], .nil⟩
  | cons x ws ih =>
    obtain ⟨ps, hps⟩ := ih (fun y hy => h y (by simp [hy])) (fun y hy => hn y (by simp [hy]))
    obtain ⟨b, r, hbr⟩ := wifi_made env hm (h x (by simp)) (hn x (by simp))
    exact ⟨(b, r) :: ps, .cons hbr hps⟩

theorem append_section (key : String) (r : VDict) (done : List VDict) (x : VDict)
    (hr : r = [] ∧ done = [] ∨ r = [(key, .list (done.map .dict))] ∧ done ≠ []) : appendTo r key [.dict x] = [(key, .list ((done ++ [x]).map .dict))] := by
  rcases hr with ⟨rfl, rfl⟩ | ⟨rfl, _⟩
  · rw [appendTo_nil]; rfl
  · rw [appendTo_one]; simp

theorem wifis_forward (env : Env) (m : Dict String (List String)) {ps : List (VDict × VDict)} (all : List VDict) {ws : List Wifi}
    (hw : ∀ x ∈ ws, x.OK) (hps : List.Forall₂ (fun x p => WifiMade env m x p.1 p.2) ws ps) (hall : all.filter isWifi = ws.map Wifi.options)
    (i : Nat) (r : VDict) (done : List VDict) (hr : r = [] ∧ done = [] ∨ r = [("wireless", .list (done.map .dict))] ∧ done ≠ []) :
    fwdList (wirelessFwd env m) i r (all.map .dict) = .ok (if ps = [] then r else [("wireless", .list ((done ++ ps.map Prod.fst).map .dict))]) := by
  induction all generalizing ps ws i r done with
  | nil =>
    have : ws = [] := by simpa using hall.symm
    subst this
    cases hps
    rfl
  | cons d ds ih =>
    rw [List.map_cons, fwdList]
    rw [List.filter_cons] at hall
    cases hd : isWifi d with
    | false =>
      rw [hd, if_neg (by simp)] at hall
      have hn : Dict.get? d "wireless" = none := by
        cases hg : Dict.get? d "wireless" with
        | none => rfl
        | some v => simp [isWifi, Dict.has, hg] at hd
      have : wirelessFwd env m (some i) (.dict d) r = .ok r := by
        simp [wirelessFwd, asDict, hn, bind, Except.bind, pure, Except.pure]
      rw [this]
      exact ih hw hps hall (i + 1) r done hr
    | true =>
      rw [hd, if_pos rfl] at hall
      cases hps with
      | nil => cases hall
      | @cons x p ws ps h1 h2 =>
        rw [List.map_cons] at hall
        injection hall with hx hall
        subst hx
        have hf : wirelessFwd env m (some i) (.dict x.options) r = .ok (appendTo r "wireless" [.dict p.1]) := by
          unfold wirelessFwd
          simp only [asDict, bind, Except.bind, (hw x (by simp)).wifi, h1.forward]
          rfl
        rw [hf, append_section _ _ _ _ hr]
        show fwdList _ _ _ _ = _
        rw [ih (fun y hy => hw y (by simp [hy])) h2 hall (i + 1) _ (done ++ [p.1]) (.inr ⟨rfl, by simp⟩)]
        by_cases e : ps = [] <;> simp [e]

theorem wifis_makes (env : Env) (dsa : Bool) {config inter : VDict} {m : Dict String (List String)} {ps : List (VDict × VDict)} {all : List VDict}
    {ws : List Wifi} (hk : ListIn config "interfaces" all) (hall : all.filter isWifi = ws.map Wifi.options) (hw : ∀ x ∈ ws, x.OK)
    (ht : trackBridges dsa inter = .ok m) (hps : List.Forall₂ (fun x p => WifiMade env m x p.1 p.2) ws ps) :
    Makes (wirelessConv env dsa) config inter (pkgData "wireless" (ps.map Prod.fst)) := by
  rcases hk with ⟨hk, rfl⟩ | hk
  · left
    have : ws = [] := by simpa using hall.symm
    subst this
    cases hps
    exact ⟨by simp [wirelessConv, pureConv, Dict.has, hk], rfl⟩
  · right
    refine ⟨by simp [wirelessConv, pureConv, Dict.has, hk], ?_⟩
    show (config, wirelessRun env dsa config inter) = _
    unfold wirelessRun
    rw [ht]
    show (config, fwd "interfaces" (wirelessFwd env m) config) = _
    unfold fwd
    rw [hk]
    simp only [Option.getD_some]
    rw [wifis_forward env m all hw hps hall 1 [] [] (.inl ⟨rfl, rfl⟩)]
    unfold pkgData
    by_cases e : ps = []
    · subst e; rfl
    · simp only [List.map_eq_nil_iff, e, if_false, List.nil_append]; rfl

/-- the section names do not depend on the bridges -/
theorem wifis_names {env : Env} {m m' : Dict String (List String)} {ps ps' : List (VDict × VDict)} {ws : List Wifi}
    (h : List.Forall₂ (fun x p => WifiMade env m x p.1 p.2) ws ps) (h' : List.Forall₂ (fun x p => WifiMade env m' x p.1 p.2) ws ps') :
    (ps.map Prod.fst).map (fun b => Dict.get? b ".name") = (ps'.map Prod.fst).map (fun b => Dict.get? b ".name") := by
  induction h generalizing ps' with
  | nil => cases h'; rfl
  | cons h1 _ ih =>
    cases h' with
    | cons h1' h2' =>
      simp only [List.map_cons, ih h2', h1.name, h1'.name]

theorem goodBridges_nil : GoodBridges [] := by
  intro n bs h
  cases h

/-! ## Back -/

theorem findInterface_none {name : String} {rs : List VDict} (h : ∀ r ∈ rs, Dict.get? r "name" ≠ some (.str name)) :
    (findInterface (.str name) (rs.map .dict)).isNone = true := by
  induction rs with
  | nil => rfl
  | cons r rs ih =>
    rw [List.map_cons, findInterface, if_neg]
    · have := ih (fun x hx => h x (by simp [hx]))
      rw [Option.isNone_map]; exact this
    · intro e
      apply h r (by simp)
      cases hg : Dict.get? r "name" with
      | none => rw [hg] at e; cases e
      | some v => rw [hg] at e; exact congrArg some e

theorem wifis_fix (env : Env) (m : Dict String (List String)) {ps : List (VDict × VDict)} {ws : List Wifi}
    (h : List.Forall₂ (fun x p => WifiMade env m x p.1 p.2) ws ps) (c : VDict)
    (hc : ∀ x ∈ ws, (findInterface (.str x.name) (interfacesOf c)).isNone = true) :
    ∃ ys : List VDict, (((ps.map Prod.fst).map (blockRead env.reprC)).map Val.dict).mapM (fixNetwork m) = .ok (ys.map .dict) ∧
      (∀ y ∈ ys, skipBlock (some ["wifi-iface"]) y = false) ∧
      ∀ (i : Nat) (r : VDict) (done : List VDict), (r = [] ∧ done = [] ∨ r = [("interfaces", .list (done.map .dict))] ∧ done ≠ []) →
        backFold (some ["wifi-iface"]) (wirelessBack env) i ys (c, r) =
          .ok (c, if ps = [] then r else [("interfaces", .list ((done ++ ps.map Prod.snd).map .dict))]) := by
  induction h with
  | nil => exact ⟨[], rfl, by simp, fun i r done _ => rfl⟩
  | @cons x p ws ps h1 h2 ih =>
    obtain ⟨ys, i1, i2, i3⟩ := ih (fun y hy => hc y (by simp [hy]))
    obtain ⟨y, w', i', hy⟩ := h1.back
    refine ⟨y :: ys, ?_, ?_, fun i r done hr => ?_⟩
    · simp only [List.map_cons]
      rw [mapM_ok_cons]
      exact ⟨_, _, hy.fix, i1, rfl⟩
    · intro z hz
      rcases List.mem_cons.1 hz with rfl | hz
      · exact skip_of_type hy.type (by simp)
      · exact i2 z hz
    · have hb : wirelessBack env i y (c, r) = .ok (c, appendTo r "interfaces" [.dict p.2]) := by
        unfold wirelessBack
        rw [hy.ifname]
        have hnone := hc x (by simp)
        simp only [bind, Except.bind]
        rw [Option.isNone_iff_eq_none.1 hnone]
        simp only [hy.run, hy.result]
        rfl
      rw [backFold, if_neg (by rw [skip_of_type hy.type (by simp)]; simp), hb, append_section _ _ _ _ hr]
      show backFold _ _ _ _ _ = _
      rw [i3 (i + 1) _ (done ++ [p.2]) (.inr ⟨rfl, by simp⟩)]
      by_cases e : ps = [] <;> simp [e]

theorem wifis_run (env : Env) (dsa : Bool) {copy inter c : VDict} {m : Dict String (List String)} {ps : List (VDict × VDict)} {ws : List Wifi}
    (h : List.Forall₂ (fun x p => WifiMade env m x p.1 p.2) ws ps) (ht : trackBridges dsa copy = .ok m)
    (hc : ∀ x ∈ ws, (findInterface (.str x.name) (interfacesOf c)).isNone = true)
    (hi : Dict.get? inter "wireless" = some (.list (((ps.map Prod.fst).map (blockRead env.reprC)).map .dict))) :
    (wirelessBConv env dsa).run c copy inter = ((c, Dict.set inter "wireless" (.list [])), .ok (secData "interfaces" (ps.map Prod.snd))) := by
  obtain ⟨ys, y1, y2, y3⟩ := wifis_fix env m h c hc
  unfold wirelessBConv bwdG
  simp only [hi, Option.getD_some, wirelessClean, ht, bind, Except.bind, y1, pure, Except.pure]
  rw [bwdLoop_eq _ _ _ _ _ _ _ (y3 1 [] [] (.inl ⟨rfl, rfl⟩))]
  have hf : ys.filter (fun b => !skipBlock (some ["wifi-iface"]) b) = ys := by
    rw [List.filter_eq_self]
    intro y hy
    rw [y2 y hy]; rfl
  have he : eraseAll (ys.map Val.dict) (ys.map Val.dict) = [] := by
    have := eraseAll_prefix (ys.map Val.dict) []
    rwa [List.append_nil] at this
  rw [hf, he]
  unfold bwdEnd secData
  by_cases e : ps = []
  · subst e; rfl
  · simp only [List.map_eq_nil_iff, e, if_false, List.nil_append]

/-! ## Two lists of interfaces are put one after the other -/

theorem container1_keyed (sh : Val → Bool) (ids : List String) (key : VDict → LKey) (i : Nat) (acc : Dict LKey Val) (l : List VDict)
    (h : ∀ b ∈ l, ∀ side i, elemKey sh ids side i (.dict b) = .ok (key b)) (hn : (Dict.keys acc ++ l.map key).Nodup) :
    container1 sh ids i acc (l.map .dict) = .ok (acc ++ l.map (fun b => (key b, .dict b))) := by
  induction l generalizing i acc with
  | nil => simp [container1]
  | cons b l ih =>
    rw [List.map_cons, container1, h b (by simp)]
    simp only [bind, Except.bind]
    have hnot : key b ∉ Dict.keys acc := by
      intro hm
      rw [List.map_cons] at hn
      exact List.nodup_append.1 hn |>.2.2 _ hm _ (by simp) rfl
    rw [Dict.set_not_mem _ _ _ hnot, ih]
    · rw [List.map_cons]; simp
    · exact fun x hx => h x (by simp [hx])
    · have : Dict.keys (acc ++ [(key b, Val.dict b)]) = Dict.keys acc ++ [key b] := by simp [Dict.keys]
      rw [this]; simpa using hn

theorem container2_keyed (sh : Val → Bool) (ids : List String) (key : VDict → LKey) (c1 : List Val) (i : Nat) (acc : Dict LKey Mergeable) (l : List VDict)
    (h : ∀ b ∈ l, ∀ side i, elemKey sh ids side i (.dict b) = .ok (key b)) (hf : ∀ b ∈ l, ∀ x ∈ c1, Val.pyEq (.dict b) x = false)
    (hn : (Dict.keys acc ++ l.map key).Nodup) :
    container2 sh ids c1 i acc (closures sh (l.map .dict)) =
      .ok (acc ++ l.map (fun b => (key b, ((.dict b, fun e => mergeVal sh [] (.dict b) e) : Mergeable)))) := by
  induction l generalizing i acc with
  | nil => simp [closures, container2]
  | cons b l ih =>
    rw [List.map_cons, closures, container2, if_neg, h b (by simp)]
    · simp only [bind, Except.bind]
      have hnot : key b ∉ Dict.keys acc := by
        intro hm
        rw [List.map_cons] at hn
        exact List.nodup_append.1 hn |>.2.2 _ hm _ (by simp) rfl
      rw [Dict.set_not_mem _ _ _ hnot, ih]
      · rw [List.map_cons]; simp
      · exact fun x hx => h x (by simp [hx])
      · exact fun x hx => hf x (by simp [hx])
      · have : Dict.keys (acc ++ [(key b, ((Val.dict b, fun e => mergeVal sh [] (.dict b) e) : Mergeable))]) = Dict.keys acc ++ [key b] := by simp [Dict.keys]
        rw [this]; simpa using hn
    · rw [List.any_eq_true]
      rintro ⟨x, hx, he⟩
      dsimp only at he
      rw [hf b (by simp) x hx] at he
      cases he

theorem mergeContainers_keyed (sh : Val → Bool) (key : VDict → LKey) (acc : Dict LKey Val) (l : List VDict) (hn : (Dict.keys acc ++ l.map key).Nodup) :
    mergeContainers acc (l.map (fun b => (key b, ((.dict b, fun e => mergeVal sh [] (.dict b) e) : Mergeable)))) =
      .ok (acc ++ l.map (fun b => (key b, .dict b))) := by
  induction l generalizing acc with
  | nil => simp [mergeContainers]
  | cons b l ih =>
    have hnot : key b ∉ Dict.keys acc := by
      intro hm
      rw [List.map_cons] at hn
      exact List.nodup_append.1 hn |>.2.2 _ hm _ (by simp) rfl
    rw [List.map_cons, mergeContainers, (Dict.get?_eq_none_iff _ _).2 hnot]
    simp only [mergeVal_none, bind, Except.bind]
    rw [Dict.set_not_mem _ _ _ hnot, ih]
    · rw [List.map_cons]; simp
    · have : Dict.keys (acc ++ [(key b, Val.dict b)]) = Dict.keys acc ++ [key b] := by simp [Dict.keys]
      rw [this]; simpa using hn

theorem pyEq_apart {a b : VDict} {k s t : String} (ha : Dict.get? a k = some (.str s)) (hb : Dict.get? b k = some (.str t)) (hne : s ≠ t) :
    Val.pyEq (.dict a) (.dict b) = false := by
  cases h : Val.pyEq (.dict a) (.dict b) with
  | false => rfl
  | true =>
    simp only [Val.pyEq, Bool.and_eq_true] at h
    obtain ⟨w, hw, hp⟩ := pyEqD_get? h.2 ha
    rw [hb] at hw
    cases hw
    simp [Val.pyEq, hne] at hp

/-- objects with names that are all different are put one after the other -/
theorem merge_ifaces (sh : Val → Bool) (ids : List String) (l1 l2 : List VDict) (h : ∀ b ∈ l1 ++ l2, ∃ n, Dict.get? b "name" = some (.str n))
    (hn : ((l1 ++ l2).map (fun b => Dict.get? b "name")).Nodup) :
    mergeListWith sh ("name" :: ids) (l1.map .dict) (closures sh (l2.map .dict)) = .ok ((l1 ++ l2).map .dict) := by
  let key : VDict → LKey := fun b => .val ((Dict.get? b "name").getD .none)
  have hkey : ∀ b ∈ l1 ++ l2, ∀ side i, elemKey sh ("name" :: ids) side i (.dict b) = .ok (key b) := by
    intro b hb side i
    obtain ⟨s, hs⟩ := h b hb
    simp only [elemKey, identValue, hs, key, Option.getD_some]
    rfl
  have hkn : ((l1 ++ l2).map key).Nodup := by
    have e : (l1 ++ l2).map key = ((l1 ++ l2).map (fun b => Dict.get? b "name")).map (fun o => LKey.val (o.getD .none)) := by
      rw [List.map_map]; rfl
    rw [e]
    refine List.Nodup.map_on ?_ hn
    intro x hx y hy he
    obtain ⟨b, hb, rfl⟩ := List.mem_map.1 hx
    obtain ⟨c, hc, rfl⟩ := List.mem_map.1 hy
    obtain ⟨s, hs⟩ := h b hb
    obtain ⟨t, ht⟩ := h c hc
    rw [hs, ht] at he ⊢
    injection he with he
    exact congrArg some he
  unfold mergeListWith
  rw [List.map_append] at hkn
  have hn' := List.nodup_append.1 hkn
  rw [container1_keyed sh _ key 0 [] l1 (fun b hb => hkey b (by simp [hb])) (by simpa [Dict.keys] using hn'.1)]
  have hv : Dict.values (([] : Dict LKey Val) ++ l1.map (fun b => (key b, Val.dict b))) = l1.map .dict := by
    simp [Dict.values, Function.comp_def]
  simp only [bind, Except.bind]
  rw [hv, container2_keyed sh _ key _ 0 [] l2 (fun b hb => hkey b (by simp [hb])) ?_ (by simpa [Dict.keys] using hn'.2.1)]
  · dsimp only
    have hk : Dict.keys (l1.map (fun b => (key b, Val.dict b))) = l1.map key := by simp [Dict.keys, Function.comp_def]
    rw [List.nil_append, List.nil_append, mergeContainers_keyed sh key _ l2 (by rw [hk]; exact hkn)]
    simp [pure, Except.pure, Dict.values, Function.comp_def]
  · intro b hb x hx
    obtain ⟨c, hc, rfl⟩ := List.mem_map.1 hx
    obtain ⟨s, hs⟩ := h b (by simp [hb])
    obtain ⟨t, ht⟩ := h c (by simp [hc])
    refine pyEq_apart hs ht ?_
    rintro rfl
    exact hn'.2.2 (key c) (List.mem_map_of_mem hc) (key b) (List.mem_map_of_mem hb) (by simp [key, hs, ht])

/-! ## Bridges -/

/-- the bridges that are known, and what they come from -/
def BridgesFrom (is : List Iface) (m : Dict String (List String)) : Prop :=
  GoodBridges m ∧ ∀ n bs, Dict.get? m n = some bs → ∃ i ∈ is, n ∈ memberNames i.options

theorem bridgesFrom_add {is : List Iface} {m : Dict String (List String)} (h : BridgesFrom is m) {i : Iface} (hi : i ∈ is) {bridge phys : String}
    (hb : IsWord bridge.toList ∧ uciName bridge.toList = bridge.toList) (hp : phys ∈ memberNames i.options) : BridgesFrom is (addBridge bridge m phys) := by
  have key : ∀ n bs, Dict.get? (addBridge bridge m phys) n = some bs →
      (bs ≠ [] ∧ ∀ x ∈ bs, IsWord x.toList ∧ uciName x.toList = x.toList) ∧ ∃ i ∈ is, n ∈ memberNames i.options := by
    intro n bs hg
    unfold addBridge at hg
    cases hm : Dict.get? m phys with
    | none =>
      rw [hm] at hg
      simp only [Dict.get?_set'] at hg
      by_cases e : n = phys
      · rw [if_pos e] at hg
        obtain rfl := Option.some.inj hg
        refine ⟨⟨by simp, fun x hx => ?_⟩, i, hi, by rw [e]; exact hp⟩
        rw [List.mem_singleton] at hx
        rw [hx]; exact hb
      · rw [if_neg e] at hg
        exact ⟨h.1 n bs hg, h.2 n bs hg⟩
    | some l =>
      rw [hm] at hg
      simp only at hg
      by_cases hin : bridge ∈ l
      · rw [if_pos hin] at hg
        exact ⟨h.1 n bs hg, h.2 n bs hg⟩
      · rw [if_neg hin, Dict.get?_set'] at hg
        by_cases e : n = phys
        · rw [if_pos e] at hg
          obtain rfl := Option.some.inj hg
          refine ⟨⟨by simp, fun x hx => ?_⟩, i, hi, by rw [e]; exact hp⟩
          rcases List.mem_append.1 hx with hx | hx
          · exact (h.1 _ _ hm).2 x hx
          · rw [List.mem_singleton] at hx
            rw [hx]; exact hb
        · rw [if_neg e] at hg
          exact ⟨h.1 n bs hg, h.2 n bs hg⟩
  exact ⟨fun n bs hg => (key n bs hg).1, fun n bs hg => (key n bs hg).2⟩

theorem section_word {env : Env} {dsa : Bool} {i : Iface} (h : i.OK env dsa) :
    IsWord (sectionName i.name i.network) ∧ uciName (sectionName i.name i.network) = sectionName i.name i.network := by
  have hi : IfaceOK env i.name i.network i.group i.options := by
    rcases h with h | ⟨_, h⟩
    · exact h.toIfaceOK
    · exact h.toIfaceOK
  unfold sectionName
  refine ⟨uciName_word ?_, ?_⟩
  · cases hn : i.network with
    | none => exact hi.word
    | some n => exact (hi.networkWord n hn).1
  · unfold uciName
    rw [List.map_map]
    refine List.map_congr_left (fun c _ => ?_)
    simp only [Function.comp_apply]
    by_cases h1 : c = '.'
    · simp [h1]
    · by_cases h2 : c = '-' <;> simp [h1, h2]

/-- the bridges known from the sections, and from the same sections read back, are the same -/
theorem track_same {env : Env} {dsa : Bool} {is : List Iface} (his : ∀ i ∈ is, i.OK env dsa) (bs : List VDict)
    (h : ∀ b ∈ bs, (Dict.get? b "type" ≠ some (.str "bridge") ∧ Dict.get? (blockRead env.reprC b) "type" ≠ some (.str "bridge")) ∨
      ∃ i ∈ is, Tracked env.reprC dsa (sectionName i.name i.network) i.options b) (m0 : Dict String (List String)) (hm : BridgesFrom is m0) :
    ∃ m, (bs.map Val.dict).foldlM (trackBlock dsa) m0 = .ok m ∧ ((bs.map (blockRead env.reprC)).map Val.dict).foldlM (trackBlock dsa) m0 = .ok m ∧
      BridgesFrom is m := by
  induction bs generalizing m0 with
  | nil => exact ⟨m0, rfl, rfl, hm⟩
  | cons b bs ih =>
    have ih := ih (fun x hx => h x (by simp [hx]))
    simp only [List.map_cons, List.foldlM_cons]
    rcases h b (by simp) with ⟨h1, h2⟩ | ⟨i, hi, hb⟩
    · rw [trackBlock_other h1, trackBlock_other h2]
      exact ih m0 hm
    · rw [hb.same]
      obtain ⟨l, l1, l2⟩ := hb.adds
      rw [l2]
      refine ih _ ?_
      obtain ⟨w1, w2⟩ := section_word (his i hi)
      clear l2 ih
      induction l generalizing m0 with
      | nil => exact hm
      | cons x l ih2 =>
        rw [List.foldl_cons]
        refine ih2 (m0 := addBridge _ m0 x) (bridgesFrom_add hm hi ?_ (l1 x (by simp))) (fun y hy => l1 y (by simp [hy]))
        rw [String.toList_ofList]
        exact ⟨w1, w2⟩

theorem trackBridges_blocks (dsa : Bool) (M : Data) : trackBridges dsa (interOf M) = ((blocksIn M "network").map Val.dict).foldlM (trackBlock dsa) [] := by
  unfold trackBridges blocksIn
  rw [get?_interOf]
  cases Dict.get? M "network" <;> rfl

/-- only a text is read as the text `bridge` -/
theorem read_bridge {v : Val} (h : readVal v = some (.str "bridge")) (hd : v.isDict = false) : v = .str "bridge" := by
  cases v with
  | none => cases h
  | bool b => cases b <;> simp [readVal] at h
  | int i =>
    simp only [readVal, Option.some.injEq, Val.str.injEq] at h
    have h := congrArg String.toList h
    rw [String.toList_ofList] at h
    have hp := parseInt_showInt i
    rw [h] at hp
    have hq : parseInt "bridge".toList = none := by decide
    rw [hq] at hp
    cases hp
  | str s =>
    by_cases e : s = ""
    · simp [readVal, e] at h
    · simp only [readVal, e, if_false, Option.some.injEq] at h
      exact h
  | list l => cases l <;> simp [readVal] at h
  | dict d => simp [Val.isDict] at hd

theorem other_read {reprC : Val → String} {b : VDict} (hp : PlainBlock b) (h : Dict.get? b "type" ≠ some (.str "bridge")) :
    Dict.get? (blockRead reprC b) "type" ≠ some (.str "bridge") := by
  rw [get?_blockRead reprC hp, if_neg (by decide)]
  cases hg : Dict.get? b "type" with
  | none => simp
  | some v =>
    rw [Option.bind_some]
    intro e
    have hv : v.isDict = false := by
      have := (hp.options _ _ hg (by decide) (by decide)).2.2
      cases v with
      | dict d => exact absurd this (by simp [PlainVal])
      | _ => rfl
    rw [hg, read_bridge e hv] at h
    exact h rfl

/-- what a converter makes in the package `network` are no bridges -/
def NoBridges (c : Conv) (config : VDict) : Prop :=
  c.should config = true → ∀ r l b, (c.run config []).2 = .ok r → Dict.get? r "network" = some (.list l) → Val.dict b ∈ l →
    Dict.get? b "type" ≠ some (.str "bridge")

/-- The sections of type `bridge` in the package `network` are those of interfaces: none comes from the general settings, a route, a rule, a switch or a
WireGuard peer. -/
def OnlyBridges (env : Env) (config : VDict) : Prop :=
  ∀ c ∈ [generalConv env, routesConv env, rulesConv env, switchConv env, peersConv], NoBridges c config

theorem noBridges_makes {c : Conv} {config : VDict} {P : Data} (h : NoBridges c config) (hm : Makes c config [] P) {b : VDict} (hb : b ∈ blocksIn P "network") :
    Dict.get? b "type" ≠ some (.str "bridge") := by
  rcases hm with ⟨_, rfl⟩ | ⟨h1, h2⟩
  · cases hb
  · unfold blocksIn at hb
    cases hg : Dict.get? P "network" with
    | none => rw [hg] at hb; cases hb
    | some bs =>
      rw [hg] at hb
      refine h h1 (interOf P) (bs.map .dict) b (by rw [h2]) (by rw [get?_interOf, hg]; rfl) (List.mem_map_of_mem hb)

/-- the block is no bridge, also when it is read back -/
def NoBridge (reprC : Val → String) (b : VDict) : Prop :=
  Dict.get? b "type" ≠ some (.str "bridge") ∧ Dict.get? (blockRead reprC b) "type" ≠ some (.str "bridge")

theorem trackBlocks_ok (dsa : Bool) (l : List VDict) (h : ∀ b ∈ l, Named b) : ∃ m, (l.map Val.dict).foldlM (trackBlock dsa) [] = .ok m := by
  obtain ⟨m, hm⟩ := trackBridges_ok dsa [("network", l)] (by
    intro b hb
    refine h b ?_
    simpa [blocksIn, Dict.get?] using hb)
  rw [trackBridges_blocks] at hm
  exact ⟨m, by simpa [blocksIn, Dict.get?] using hm⟩

theorem track_none (dsa : Bool) (l : List VDict) (h : ∀ b ∈ l, Dict.get? b "type" ≠ some (.str "bridge")) (m : Dict String (List String)) :
    (l.map Val.dict).foldlM (trackBlock dsa) m = .ok m := by
  induction l with
  | nil => rfl
  | cons b l ih =>
    rw [List.map_cons, List.foldlM_cons, trackBlock_other (h b (by simp))]
    exact ih (fun x hx => h x (by simp [hx]))

/-- the sections of the wireless interfaces, and what comes back of them -/
theorem wifi_part {env : Env} {dsa : Bool} {is : List Iface} (his : ∀ i ∈ is, i.OK env dsa) {ws : List Wifi} (hw : ∀ x ∈ ws, x.OK)
    (hn : ∀ x ∈ ws, Dict.get? x.wireless "network" = none ∨ ∀ i ∈ is, x.name ∉ memberNames i.options) (early peers : List VDict)
    (hnamed : ∀ b ∈ early ++ peers, Named b ∧ Named (blockRead env.reprC b))
    (h : ws = [] ∨ (∀ b ∈ early, NoBridge env.reprC b ∨ ∃ i ∈ is, Tracked env.reprC dsa (sectionName i.name i.network) i.options b) ∧
      ∀ b ∈ peers, NoBridge env.reprC b) :
    ∃ (mF mB : Dict String (List String)) (ps : List (VDict × VDict)), (early.map Val.dict).foldlM (trackBlock dsa) [] = .ok mF ∧
      (((early ++ peers).map (blockRead env.reprC)).map Val.dict).foldlM (trackBlock dsa) [] = .ok mB ∧
      List.Forall₂ (fun x p => WifiMade env mF x p.1 p.2) ws ps ∧ List.Forall₂ (fun x p => WifiMade env mB x p.1 p.2) ws ps := by
  rcases h with rfl | ⟨h1, h2⟩
  · obtain ⟨mF, e1⟩ := trackBlocks_ok dsa early (fun b hb => (hnamed b (by simp [hb])).1)
    obtain ⟨mB, e2⟩ := trackBlocks_ok dsa ((early ++ peers).map (blockRead env.reprC)) (by
      intro b hb
      obtain ⟨x, hx, rfl⟩ := List.mem_map.1 hb
      exact (hnamed x hx).2)
    exact ⟨mF, mB, [], e1, e2, .nil, .nil⟩
  · obtain ⟨m, e1, e2, e3⟩ := track_same his early h1 [] ⟨goodBridges_nil, fun n bs hg => by cases hg⟩
    obtain ⟨ps, hps⟩ := wifis_made env e3.1 ws hw (by
      intro x hx
      rcases hn x hx with h | h
      · exact .inl h
      · right
        cases hg : Dict.get? m x.name with
        | none => rfl
        | some bs =>
          obtain ⟨i, hi, hm⟩ := e3.2 _ _ hg
          exact absurd hm (h i hi))
    refine ⟨m, m, ps, e1, ?_, hps, hps⟩
    rw [List.map_append, List.map_append, List.foldlM_append, e2]
    exact track_none dsa _ (by
      intro b hb
      obtain ⟨x, hx, rfl⟩ := List.mem_map.1 hb
      exact (h2 x hx).2) m

/-- the wireless interfaces are added to the others -/
theorem merge_wifi {sh : Val → Bool} {ids : List String} {rs rs' : List VDict} (h : ∀ b ∈ rs ++ rs', ∃ n, Dict.get? b "name" = some (.str n))
    (hn : ((rs ++ rs').map (fun b => Dict.get? b "name")).Nodup) (c : VDict) (hc : Dict.get? c "interfaces" = listItem (rs.map .dict)) :
    ∃ c', mergeConfig sh ("name" :: ids) c (secData "interfaces" rs') = .ok c' ∧
      ∀ k, Dict.get? c' k = if k = "interfaces" then listItem ((rs ++ rs').map .dict) else Dict.get? c k := by
  by_cases e2 : rs' = []
  · subst e2
    refine ⟨c, rfl, fun k => ?_⟩
    rw [List.append_nil]
    split
    · next e => rw [e, hc]
    · rfl
  · by_cases e1 : rs = []
    · subst e1
      obtain ⟨c', m1, m2⟩ := merge_new sh ("name" :: ids) c (secData "interfaces" rs') (secData_nodup _ _) (by
        intro k hk
        rw [get?_secData] at hk
        by_cases e : k = "interfaces"
        · rw [e, hc]; rfl
        · rw [if_neg e] at hk; exact absurd rfl hk)
      refine ⟨c', m1, fun k => ?_⟩
      rw [m2, get?_secData]
      by_cases e : k = "interfaces"
      · rw [if_pos e, if_pos e, e, hc]
        show (listItem _).or none = _
        rw [Option.or_none]; rfl
      · rw [if_neg e, if_neg e]; rfl
    · have i1 : listItem (rs.map .dict) = some (.list (rs.map .dict)) := if_neg (by simpa using e1)
      have i2 : listItem ((rs ++ rs').map .dict) = some (.list ((rs ++ rs').map .dict)) := if_neg (by simp [e1])
      have hm := merge_ifaces sh ids rs rs' h hn
      have hs : secData "interfaces" rs' = [("interfaces", .list (rs'.map .dict))] := if_neg e2
      rw [hs]
      have hv : mergeVal sh ("name" :: ids) (.list (rs'.map .dict)) (some (.list (rs.map .dict))) = .ok (.list ((rs ++ rs').map .dict)) :=
        (mergeVal_list_list _ _ _).2 ⟨_, hm, rfl⟩
      have hnd : (Dict.keys ([("interfaces", .list (rs'.map .dict))] : VDict)).Nodup := by simp [Dict.keys]
      obtain ⟨c', hc'⟩ := (mergeKvs_ok_iff (sh := sh) (ids := "name" :: ids) hnd c).2 (by
        intro k v hv'
        simp only [Dict.get?] at hv'
        split at hv'
        · next e =>
          subst e
          cases hv'
          rw [hc, i1]
          exact ⟨_, hv⟩
        · cases hv')
      refine ⟨c', hc', fun k => ?_⟩
      by_cases e : k = "interfaces"
      · subst e
        obtain ⟨x, x1, x2⟩ := mergeKvs_get?_mem hnd hc' (k := "interfaces") (v := .list (rs'.map .dict)) (by simp [Dict.get?])
        rw [hc, i1, hv] at x1
        rw [if_pos rfl, i2, x2, ← Except.ok.inj x1]
      · rw [if_neg e, mergeKvs_get?_not_mem hc' (by simp [Dict.keys, e])]

end NJ
