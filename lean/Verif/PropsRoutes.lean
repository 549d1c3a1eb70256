import Verif.PropsConv
import Verif.IpLemmas

/-!
# C42: static routes
-/

namespace NJ

/-- `type_cast` item by item -/
theorem typeCast_items (props : Dict String JType) (item want : VDict) (hn : (Dict.keys item).Nodup)
    (he : ∀ k, (Dict.get? item k = none ∧ Dict.get? want k = none) ∨
      ∃ r v, Dict.get? item k = some r ∧ Dict.get? want k = some v ∧ castValue (Dict.get? props k) r = .ok v) :
    ∃ out, typeCast props item = .ok out ∧ SameItems out want := by
  have hcast : ∀ p ∈ item, castValue (Dict.get? props p.1) p.2 = .ok ((Dict.get? want p.1).getD .none) := by
    intro p hp
    have hg := Dict.get?_of_mem hn (k := p.1) (v := p.2) hp
    rcases he p.1 with ⟨h1, _⟩ | ⟨r, v, h1, h2, h3⟩
    · rw [h1] at hg; cases hg
    · rw [h1] at hg; cases hg
      rw [h3, h2]; rfl
  refine ⟨_, typeCast_ok props _ item hcast, ?_⟩
  intro k
  rw [Dict.get?_map_val]
  rcases he k with ⟨h1, h2⟩ | ⟨r, v, h1, h2, h3⟩
  · rw [h1, h2]; rfl
  · rw [h1, h2]; simp [h2]

/-- the keys of a route with a meaning of their own, and the names of the options they become -/
def routeKeys : List String := ["destination", "device", "next", "cost", "name"]
def routeOptions : List String := ["interface", "target", "gateway", "metric", "netmask"]

/-- A route, the one number `i`, whose settings survive: the destination is an address with prefix length in canonical text form,
without host bits if it is IPv6; the device is a text, not empty; the next hop is a text, maybe empty; the cost is an integer; the
name, if it has one, is a word other than the automatic one; the other options survive and are not named like those of UCI. -/
structure RouteOK (env : Env) (i : Nat) (d : VDict) (net : IpIf) : Prop where
  options : OptionsOK routeProps routeKeys d
  clash : ∀ k ∈ routeOptions, Dict.get? d k = none
  read : ipInterface env.ip6 (net.text env.ip6) = some net
  plain : PlainText (net.text env.ip6)
  hostBits : net.v6 = true → net.network = net.addr
  dest : Dict.get? d "destination" = some (txt (net.text env.ip6))
  device : ∃ s, Dict.get? d "device" = some (.str s) ∧ s ≠ "" ∧ PlainText s.toList
  next : ∃ s, Dict.get? d "next" = some (.str s) ∧ PlainText s.toList
  cost : ∃ c, Dict.get? d "cost" = some (.int c)
  name : Dict.get? d "name" = none ∨ ∃ n, Dict.get? d "name" = some (.str n) ∧ IsWord n.toList ∧ n.toList ≠ "route".toList ++ showNat i

/-- the block of a route, item by item -/
def routeItem (env : Env) (net : IpIf) (d : VDict) (nm : Val) (k : String) : Option Val :=
  if k = "netmask" ∧ net.v6 = false then some (txt (showIp4 (mask4 net.plen)))
  else if k = "metric" then Dict.get? d "cost"
  else if k = "gateway" then Dict.get? d "next"
  else if k = "target" then some (txt (if net.v6 then net.text env.ip6 else showIp4 net.addr))
  else if k = "interface" then Dict.get? d "device"
  else if k = ".name" then some nm
  else if k = ".type" then some (.str (if net.v6 then "route6" else "route"))
  else if k ∈ routeKeys then none
  else Dict.get? d k

theorem ipInterfaceV_ok {env : Env} {s : Chars} {net : IpIf} (h : ipInterface env.ip6 s = some net) : ipInterfaceV env (txt s) = .ok net := by
  unfold ipInterfaceV txt
  simp [h]

/-- the items of the block before sorting -/
def routeRaw (env : Env) (net : IpIf) (d : VDict) (nm dev next cost : Val) : VDict :=
  let r := Dict.update (Dict.erase (Dict.erase (Dict.erase (Dict.erase (Dict.erase d "destination") "name") "device") "next") "cost")
    [(".type", .str (if net.v6 then "route6" else "route")), (".name", nm), ("interface", dev),
     ("target", txt (if net.v6 then net.text env.ip6 else showIp4 net.addr)), ("gateway", next), ("metric", cost)]
  if net.v6 then r else Dict.set r "netmask" (txt (showIp4 (mask4 net.plen)))

theorem routeRaw_nodup (env : Env) (net : IpIf) {d : VDict} (hd : (Dict.keys d).Nodup) (nm dev next cost : Val) :
    (Dict.keys (routeRaw env net d nm dev next cost)).Nodup := by
  unfold routeRaw
  simp only
  split
  · exact Dict.nodup_update (Dict.nodup_erase (Dict.nodup_erase (Dict.nodup_erase (Dict.nodup_erase (Dict.nodup_erase hd _) _) _) _) _) _
  · exact Dict.nodup_set (Dict.nodup_update (Dict.nodup_erase (Dict.nodup_erase (Dict.nodup_erase (Dict.nodup_erase (Dict.nodup_erase hd _) _) _) _) _) _) _ _

theorem routeRaw_get? (env : Env) (net : IpIf) {d : VDict} {nm dev next cost : Val} (h1 : Dict.get? d "device" = some dev)
    (h2 : Dict.get? d "next" = some next) (h3 : Dict.get? d "cost" = some cost) (k : String) :
    Dict.get? (routeRaw env net d nm dev next cost) k = routeItem env net d nm k := by
  unfold routeRaw routeItem
  by_cases hk : k ∈ routeKeys
  · simp only [routeKeys, List.mem_cons, List.not_mem_nil, or_false] at hk
    rcases hk with rfl | rfl | rfl | rfl | rfl <;> cases net.v6 <;>
      simp [Dict.update_cons, Dict.update_nil, Dict.get?_set', Dict.get?_erase', routeKeys]
  · rw [h1, h2, h3, if_neg hk]
    simp only [routeKeys, List.mem_cons, List.not_mem_nil, or_false, not_or] at hk
    obtain ⟨k1, k2, k3, k4, k5⟩ := hk
    cases net.v6 <;>
      simp [Dict.update_cons, Dict.update_nil, Dict.get?_set', Dict.get?_erase', k1, k2, k3, k4, k5]

theorem route_block (env : Env) (i : Nat) (d : VDict) (net : IpIf) (h : RouteOK env i d net) :
    ∃ (nm : String) (b : VDict), IsWord nm.toList ∧
      ((Dict.get? d "name" = none ∧ Val.str nm = autoName "route".toList i) ∨ (Dict.get? d "name" = some (.str nm) ∧ Val.str nm ≠ autoName "route".toList i)) ∧
      routeBlock env i d = .ok b ∧ (Dict.keys b).Nodup ∧ ∀ k, Dict.get? b k = routeItem env net d (.str nm) k := by
  obtain ⟨nm, hnm, hcase, hpop⟩ := pop_name (d := Dict.erase d "destination") (k := "name") (autoName_word "route".toList (by decide) i) (by
    rw [Dict.get?_erase, if_neg (by decide)]; exact h.name)
  rw [Dict.get?_erase, if_neg (by decide)] at hcase
  obtain ⟨dev, hdev, _⟩ := h.device
  obtain ⟨next, hnext, _⟩ := h.next
  obtain ⟨cost, hcost⟩ := h.cost
  have htgt : (if net.v6 then ({ net with addr := net.network } : IpIf).text env.ip6 else showIp4 net.addr) =
      (if net.v6 then net.text env.ip6 else showIp4 net.addr) := by
    split
    · next hv => rw [h.hostBits hv]
    · rfl
  have hblk : routeBlock env i d = .ok (sortedDict (routeRaw env net d (.str nm) (.str dev) (.str next) (.int cost))) := by
    unfold routeBlock
    rw [popKey_ok h.dest]
    simp only [bind, Except.bind, ipInterfaceV_ok h.read]
    have hpop' : popOrElse (Dict.erase d "destination") "name" (fun _ => Except.ok (autoName "route".toList i)) =
      .ok (.str nm, Dict.erase (Dict.erase d "destination") "name") := hpop
    simp only [hpop']
    rw [popKey_ok (v := .str dev) (by simp [Dict.get?_erase, hdev])]
    simp only []
    rw [popKey_ok (v := .str next) (by simp [Dict.get?_erase, hnext])]
    simp only []
    rw [popKey_ok (v := .int cost) (by simp [Dict.get?_erase, hcost])]
    simp only [htgt]
    rfl
  have hnod := routeRaw_nodup env net h.options.nodup (.str nm) (.str dev) (.str next) (.int cost)
  refine ⟨nm, _, hnm, hcase, hblk, sortedDict_nodup hnod, fun k => ?_⟩
  rw [get?_sortedDict hnod, routeRaw_get? env net hdev hnext hcost]

/-- C42: the block of a route: type by family, the address (IPv4) or the network (IPv6) as target, the netmask of the prefix
length for IPv4, device, next hop, cost, and the other options. -/
theorem C42_block (env : Env) (i : Nat) (d : VDict) (net : IpIf) (h : RouteOK env i d net) :
    ∃ nm b, routeBlock env i d = .ok b ∧ ∀ k, Dict.get? b k = routeItem env net d (.str nm) k := by
  obtain ⟨nm, b, _, _, h3, _, h5⟩ := route_block env i d net h
  exact ⟨nm, b, h3, h5⟩

theorem showIp4_plain (n : Nat) : PlainText (showIp4 n) := by
  refine ⟨fun c hc => ?_, ?_⟩
  · rcases showIp4_chars n c hc with h | rfl
    · exact ⟨fun e => by subst e; revert h; decide, fun e => by subst e; revert h; decide, fun e => by subst e; revert h; decide⟩
    · decide
  · rintro ⟨a, b, h⟩
    have : ' ' ∈ showIp4 n := by rw [← h]; simp
    rcases showIp4_chars n _ this with h | h <;> revert h <;> decide

theorem route_plain {env : Env} {i : Nat} {d : VDict} {net : IpIf} (h : RouteOK env i d net) {nm : String} (hnm : IsWord nm.toList) {b : VDict}
    (hn : (Dict.keys b).Nodup) (hb : ∀ k, Dict.get? b k = routeItem env net d (.str nm) k) : PlainBlock b := by
  obtain ⟨dev, hdev, _, hdp⟩ := h.device
  obtain ⟨next, hnext, hnp⟩ := h.next
  obtain ⟨cost, hcost⟩ := h.cost
  refine ⟨hn, ⟨if net.v6 then "route6" else "route", ?_, by split <;> decide, by split <;> decide, by split <;> decide⟩,
    ⟨nm, by rw [hb]; rfl, hnm⟩, ?_⟩
  · rw [hb]; simp [routeItem]
  · intro k v hk h1 h2
    rw [hb] at hk
    unfold routeItem at hk
    have htx : ∀ s, PlainText s → PlainVal (txt s) := by intro s hs; simpa [txt, PlainVal] using hs
    split at hk
    · next e => rw [e.1]; cases hk; exact ⟨by decide, by decide, htx _ (showIp4_plain _)⟩
    · split at hk
      · next e => subst e; rw [hcost] at hk; cases hk; exact ⟨by decide, by decide, trivial⟩
      · split at hk
        · next e => subst e; rw [hnext] at hk; cases hk; exact ⟨by decide, by decide, hnp⟩
        · split at hk
          · next e =>
            subst e; cases hk
            refine ⟨by decide, by decide, htx _ ?_⟩
            split
            · exact h.plain
            · exact showIp4_plain _
          · split at hk
            · next e => subst e; rw [hdev] at hk; cases hk; exact ⟨by decide, by decide, hdp⟩
            · split at hk
              · cases hk
              · next hkr =>
                obtain ⟨o1, o2, o3⟩ := h.options.options k v hk hkr
                exact ⟨o1, o2, survives_plain o3⟩

theorem route_type (net : IpIf) : (if net.v6 then "route6" else "route") ∈ ["route", "route6"] := by
  split <;> simp

/-- the target and the netmask, as texts, are read as the destination -/
theorem route_target {env : Env} {i : Nat} {d : VDict} {net : IpIf} (h : RouteOK env i d net) :
    ipInterface env.ip6 (if net.v6 then net.text env.ip6 else showIp4 net.addr ++ '/' :: showIp4 (mask4 net.plen)) = some net := by
  split
  · exact h.read
  · next hv =>
    have hv : net.v6 = false := by simpa using hv
    obtain ⟨h1, h2⟩ := ipInterface_v4 h.read hv
    unfold ipInterface
    rw [parseIf4_mask _ _ h1 h2]
    cases net; simp_all

theorem route_item (env : Env) (i : Nat) (d : VDict) (net : IpIf) (h : RouteOK env i d net) :
    ItemBack env.reprC (some ["route", "route6"]) (routeBlock env) (netjsonRoute env) i d := by
  obtain ⟨nm, b, hnm, hcase, hblk, hnod, hb⟩ := route_block env i d net h
  have hplain := route_plain h hnm hnod hb
  obtain ⟨dev, hdev, hdne, _⟩ := h.device
  obtain ⟨next, hnext, _⟩ := h.next
  obtain ⟨cost, hcost⟩ := h.cost
  generalize hx : blockBack env.reprC b = x
  have hget : ∀ k, Dict.get? x k = if k = ".type" ∨ k = ".name" then routeItem env net d (.str nm) k else (routeItem env net d (.str nm) k).bind readVal := by
    intro k
    rw [← hx, get?_blockBack _ hplain, hb]
  have hxn : (Dict.keys x).Nodup := by rw [← hx]; exact blockBack_nodup _ hplain
  have gname : Dict.get? x ".name" = some (.str nm) := by rw [hget]; rfl
  have gtype : Dict.get? x ".type" = some (.str (if net.v6 then "route6" else "route")) := by rw [hget]; simp [routeItem]
  have hnamed : (if Val.str nm = autoName "route".toList i then Dict.erase x ".name" else Dict.set (Dict.erase x ".name") "name" (.str nm)) =
      (if Dict.get? d "name" = none then Dict.erase x ".name" else Dict.set (Dict.erase x ".name") "name" (.str nm)) := by
    rcases hcase with ⟨c1, c2⟩ | ⟨c1, c2⟩
    · rw [if_pos c1, if_pos c2]
    · rw [if_neg c2, if_neg (by rw [c1]; simp)]
  generalize hr1 : (if Dict.get? d "name" = none then Dict.erase x ".name" else Dict.set (Dict.erase x ".name") "name" (Val.str nm)) = r1
  have hr1n : (Dict.keys r1).Nodup := by
    rw [← hr1]; split
    · exact Dict.nodup_erase hxn _
    · exact Dict.nodup_set (Dict.nodup_erase hxn _) _ _
  have hr1g : ∀ k, Dict.get? r1 k = if k = "name" then Dict.get? d "name" else if k = ".name" then none else Dict.get? x k := by
    intro k
    rw [← hr1]
    have hxname : Dict.get? x "name" = none := by rw [hget]; simp [routeItem, routeKeys]
    rcases hcase with ⟨c1, c2⟩ | ⟨c1, c2⟩
    · rw [if_pos c1, Dict.get?_erase', c1]
      by_cases e : k = "name"
      · subst e; simp [hxname]
      · simp [e]
    · rw [if_neg (by rw [c1]; simp), Dict.get?_set', Dict.get?_erase', c1]
  have htne : ∀ s : Chars, s ≠ [] → readVal (txt s) = some (txt s) := by
    intro s hs
    have : String.ofList s ≠ "" := fun e => hs (by have := congrArg String.toList e; simpa using this)
    simp [txt, readVal, this]
  have hmne : showIp4 (mask4 net.plen) ≠ [] := List.ne_nil_of_mem (showIp4_dot _)
  have gtarget : Dict.get? r1 "target" = some (txt (if net.v6 then net.text env.ip6 else showIp4 net.addr)) := by
    rw [hr1g, if_neg (by decide), if_neg (by decide), hget, if_neg (by decide)]
    simp only [routeItem]
    simp only [String.reduceEq, false_and, if_false, if_true, Option.bind_some]
    apply htne
    split
    · simp [IpIf.text]
    · exact List.ne_nil_of_mem (showIp4_dot _)
  have gmask : Dict.get? (Dict.erase r1 "target") "netmask" = if net.v6 then none else some (txt (showIp4 (mask4 net.plen))) := by
    rw [Dict.get?_erase, if_neg (by decide), hr1g, if_neg (by decide), if_neg (by decide), hget, if_neg (by decide)]
    have := h.clash "netmask" (by decide)
    cases hv : net.v6 <;> simp [routeItem, hv, routeKeys, this, htne _ hmne]
  have gdev : Dict.get? r1 "interface" = some (.str dev) := by
    rw [hr1g, if_neg (by decide), if_neg (by decide), hget, if_neg (by decide)]
    simp [routeItem, hdev, readVal, hdne]
  have gnext : (Dict.get? r1 "gateway").getD (.str "") = .str next := by
    rw [hr1g, if_neg (by decide), if_neg (by decide), hget, if_neg (by decide)]
    by_cases e : next = "" <;> simp [routeItem, hnext, readVal, e]
  have gcost : (Dict.get? r1 "metric").getD (.int 0) = .str (String.ofList (showInt cost)) := by
    rw [hr1g, if_neg (by decide), if_neg (by decide), hget, if_neg (by decide)]
    simp [routeItem, hcost, readVal]
  -- what is given to `type_cast`
  generalize hr2 : (if net.v6 then Dict.erase r1 "target" else Dict.erase (Dict.erase r1 "target") "netmask") = r2
  have hr2n : (Dict.keys r2).Nodup := by
    rw [← hr2]; split
    · exact Dict.nodup_erase hr1n _
    · exact Dict.nodup_erase (Dict.nodup_erase hr1n _) _
  have hr2g : ∀ k, k ≠ "netmask" → Dict.get? r2 k = if k = "target" then none else Dict.get? r1 k := by
    intro k hk
    rw [← hr2]; split
    · rw [Dict.get?_erase']
    · rw [Dict.get?_erase', if_neg hk, Dict.get?_erase']
  have hr2m : Dict.get? r2 "netmask" = none := by
    rw [← hr2]
    split
    · next hv => rw [gmask, if_pos hv]
    · simp [Dict.get?_erase']
  have hdest : routeNetwork env (txt (if net.v6 then net.text env.ip6 else showIp4 net.addr)) (Dict.erase r1 "target") =
      (txt (if net.v6 then net.text env.ip6 else showIp4 net.addr ++ '/' :: showIp4 (mask4 net.plen)), r2) := by
    unfold routeNetwork
    rw [gmask, ← hr2]
    cases hv : net.v6 <;> simp [txt, pyStr]
  obtain ⟨out, ho1, ho2⟩ := typeCast_items routeProps
    (Dict.erase (Dict.update (Dict.erase (Dict.erase (Dict.erase r2 "interface") "gateway") "metric")
      [("device", .str dev), ("destination", txt (net.text env.ip6)), ("next", .str next), ("cost", .str (String.ofList (showInt cost)))]) ".type")
    d (Dict.nodup_erase (Dict.nodup_update (Dict.nodup_erase (Dict.nodup_erase (Dict.nodup_erase hr2n _) _) _) _) _) (by
      intro k
      simp only [Dict.update_cons, Dict.update_nil, Dict.get?_set', Dict.get?_erase']
      by_cases e1 : k = ".type"
      · subst e1
        refine .inl ⟨by simp, h.options.dotless (by decide) (by decide)⟩
      rw [if_neg e1]
      by_cases e2 : k = "cost"
      · subst e2
        refine .inr ⟨_, _, if_pos rfl, hcost, ?_⟩
        simp [castValue, routeProps, Dict.get?, pyInt, parseInt_showInt]
      rw [if_neg e2]
      by_cases e3 : k = "next"
      · subst e3
        exact .inr ⟨_, _, if_pos rfl, hnext, rfl⟩
      rw [if_neg e3]
      by_cases e4 : k = "destination"
      · subst e4
        exact .inr ⟨_, _, if_pos rfl, h.dest, rfl⟩
      rw [if_neg e4]
      by_cases e5 : k = "device"
      · subst e5
        exact .inr ⟨_, _, if_pos rfl, hdev, rfl⟩
      rw [if_neg e5]
      by_cases e6 : k ∈ routeOptions
      · left
        refine ⟨?_, h.clash k e6⟩
        simp only [routeOptions, List.mem_cons, List.not_mem_nil, or_false] at e6
        rcases e6 with rfl | rfl | rfl | rfl | rfl
        · simp
        · simp [hr2g]
        · simp
        · simp
        · simp [hr2m]
      have e6' := e6
      simp only [routeOptions, List.mem_cons, List.not_mem_nil, or_false, not_or] at e6'
      rw [if_neg e6'.2.2.2.1, if_neg e6'.2.2.1, if_neg e6'.1, hr2g k e6'.2.2.2.2, if_neg e6'.2.1, hr1g]
      by_cases e7 : k = "name"
      · subst e7
        rw [if_pos rfl]
        cases hn : Dict.get? d "name" with
        | none => exact .inl ⟨rfl, rfl⟩
        | some v => exact .inr ⟨v, v, rfl, rfl, rfl⟩
      rw [if_neg e7]
      by_cases e8 : k = ".name"
      · subst e8
        exact .inl ⟨if_pos rfl, h.options.dotless (by decide) (by decide)⟩
      rw [if_neg e8, hget, if_neg (by simp [e1, e8])]
      have hk : k ∉ routeKeys := by simp [routeKeys, e2, e3, e4, e5, e7]
      have : routeItem env net d (.str nm) k = Dict.get? d k := by
        unfold routeItem
        rw [if_neg (by simp [e6'.2.2.2.2]), if_neg e6'.2.2.2.1, if_neg e6'.2.2.1, if_neg e6'.2.1, if_neg e6'.1, if_neg e8, if_neg e1, if_neg hk]
      rw [this]
      cases hv : Dict.get? d k with
      | none => exact .inl ⟨rfl, rfl⟩
      | some v =>
        obtain ⟨r, s1, s2⟩ := survives_spec (h.options.options k v hv hk).2.2
        exact .inr ⟨r, v, by simp [s1], rfl, s2⟩)
  refine ⟨b, out, hblk, hplain, skip_of_type (t := if net.v6 then "route6" else "route") ?_ (route_type net), ?_, ho2⟩
  · rw [hx]; exact gtype
  · rw [hx]
    unfold netjsonRoute
    rw [popKey_ok gname]
    simp only [bind, Except.bind, hnamed, hr1]
    rw [popKey_ok gtarget]
    simp only [hdest]
    rw [popKey_ok (v := .str dev) (by rw [hr2g _ (by decide), if_neg (by decide)]; exact gdev)]
    simp only [ipInterfaceV_ok (route_target h)]
    have q1 : popOr (Dict.erase r2 "interface") "gateway" (.str "") = (.str next, Dict.erase (Dict.erase r2 "interface") "gateway") := by
      unfold popOr
      rw [Dict.get?_erase', if_neg (by decide), hr2g _ (by decide), if_neg (by decide), gnext]
    have q2 : popOr (Dict.erase (Dict.erase r2 "interface") "gateway") "metric" (.int 0) =
        (.str (String.ofList (showInt cost)), Dict.erase (Dict.erase (Dict.erase r2 "interface") "gateway") "metric") := by
      unfold popOr
      rw [Dict.get?_erase', if_neg (by decide), Dict.get?_erase', if_neg (by decide), hr2g _ (by decide), if_neg (by decide), gcost]
    simp only [q1, q2]
    rw [popKey_ok (v := .str (if net.v6 then "route6" else "route"))]
    · exact ho1
    · simp only [Dict.update_cons, Dict.update_nil, Dict.get?_set', Dict.get?_erase', hr2g, hr1g, gtype]
      simp [hr2g, hr1g, gtype]

/-- C42: the list of routes, converted to UCI text and back, is the same list of the same routes. -/
theorem C42_round_trip (env : Env) (config : VDict) (l : List VDict) (hne : l ≠ [])
    (hk : Dict.get? config "routes" = some (.list (l.map .dict))) (h : ∀ i d, l[i]? = some d → ∃ net, RouteOK env (i + 1) d net) :
    ∃ rs, viaText env.reprC (routesConv env) (routesBConv env) config = .ok [("routes", .list (rs.map .dict))] ∧ List.Forall₂ SameItems rs l := by
  refine list_section env.reprC "routes" "network" (some ["route", "route6"]) (routeFwd env) (routeBack env) (routeBlock env)
    (netjsonRoute env) (by decide) ?_ ?_ config l hne hk ?_
  · intro i d r; rfl
  · intro i b r; rfl
  · refine allIdx_of_getElem (fun i d hd => ?_)
    obtain ⟨net, hnet⟩ := h i d hd
    exact route_item env _ d net (by rw [Nat.add_comm]; exact hnet)

/-- C42: for every IPv4 address and prefix length, the text `address/length` is a destination that `RouteOK` allows (host bits
included). -/
theorem C42_ipv4 (ip6 : Ip6) (n p : Nat) (hn : n < 2 ^ 32) (hp : p ≤ 32) :
    (⟨false, n, p⟩ : IpIf).text ip6 = showIp4 n ++ '/' :: showNat p ∧
      ipInterface ip6 ((⟨false, n, p⟩ : IpIf).text ip6) = some ⟨false, n, p⟩ ∧ PlainText ((⟨false, n, p⟩ : IpIf).text ip6) := by
  have h : (⟨false, n, p⟩ : IpIf).text ip6 = showIp4 n ++ '/' :: showNat p := rfl
  refine ⟨h, ?_, ?_⟩
  · rw [h]; unfold ipInterface; rw [parseIf4_prefix n p hn hp]
  · rw [h]
    refine ⟨fun c hc => ?_, ?_⟩
    · rcases List.mem_append.1 hc with hc | hc
      · exact (showIp4_plain n).1 c hc
      · rcases List.mem_cons.1 hc with rfl | hc
        · decide
        · have := showNat_digits p c hc
          exact ⟨fun e => by subst e; revert this; decide, fun e => by subst e; revert this; decide, fun e => by subst e; revert this; decide⟩
    · refine noBlanks_sep (by decide) (showIp4_plain n).2 ?_
      rintro ⟨a, b, h⟩
      have hm : ' ' ∈ showNat p := by rw [← h]; simp
      have := showNat_digits p _ hm
      revert this; decide

/-- C42: a netmask of `p` ones followed by zeros -/
theorem C42_netmask (p i : Nat) (hp : p ≤ 32) (hi : i < 32) : (mask4 p).testBit i = decide (32 - p ≤ i) := by
  have key : ∀ (p : Fin 33) (i : Fin 32), (mask4 p.1).testBit i.1 = decide (32 - p.1 ≤ i.1) := by decide +kernel
  exact key ⟨p, by omega⟩ ⟨i, hi⟩

/-- C42 needs the condition on host bits: IPv6 destinations with the same network become the same block, whatever their host bits. -/
theorem C42_needs_hostBits (env : Env) (i : Nat) (d : VDict) (s s' : Chars) (net net' : IpIf) (h : ipInterface env.ip6 s = some net)
    (h' : ipInterface env.ip6 s' = some net') (hv : net.v6 = true) (hv' : net'.v6 = true) (hn : net.network = net'.network)
    (hp : net.plen = net'.plen) :
    routeBlock env i (("destination", txt s) :: d) = routeBlock env i (("destination", txt s') :: d) := by
  have e : ∀ v, Dict.erase (("destination", v) :: d) "destination" = Dict.erase d "destination" := by
    intro v; simp [Dict.erase]
  have hpop : ∀ v : Val, popKey (("destination", v) :: d) "destination" = .ok (v, Dict.erase d "destination") := by
    intro v; rw [popKey_ok (v := v) (by simp [Dict.get?]), e]
  unfold routeBlock
  rw [hpop, hpop]
  simp only [bind, Except.bind, ipInterfaceV_ok h, ipInterfaceV_ok h', hv, hv', if_true]
  rw [hn, hp]

/-! ## The hypotheses are met -/

def sampleRoutes : List VDict :=
  [[("device", .str "eth1"), ("destination", .str "192.168.4.1/24"), ("next", .str "192.168.2.2"), ("cost", .int 2), ("onlink", .bool true)],
   [("device", .str "lo"), ("destination", .str "0.0.0.0/0"), ("next", .str ""), ("cost", .int 0), ("name", .str "default"), ("type", .str "unicast")]]

theorem sampleRoutes_ok (i : Nat) (d : VDict) (h : sampleRoutes[i]? = some d) : ∃ net, RouteOK sampleEnv (i + 1) d net := by
  match i with
  | 0 =>
    cases h
    have := C42_ipv4 sampleEnv.ip6 0xC0A80401 24 (by decide) (by decide)
    exact ⟨⟨false, 0xC0A80401, 24⟩, optionsB_sound (by decide +kernel), by decide +kernel, this.2.1, this.2.2, nofun, by decide +kernel,
      ⟨_, rfl, by decide, by decide +kernel⟩, ⟨_, rfl, by decide +kernel⟩, ⟨_, rfl⟩, .inl rfl⟩
  | 1 =>
    cases h
    have := C42_ipv4 sampleEnv.ip6 0 0 (by decide) (by decide)
    exact ⟨⟨false, 0, 0⟩, optionsB_sound (by decide +kernel), by decide +kernel, this.2.1, this.2.2, nofun, by decide +kernel,
      ⟨_, rfl, by decide, by decide +kernel⟩, ⟨_, rfl, by decide +kernel⟩, ⟨_, rfl⟩, .inr ⟨"default", rfl, by decide +kernel, by decide +kernel⟩⟩

example : ∃ rs, viaText sampleEnv.reprC (routesConv sampleEnv) (routesBConv sampleEnv) [("routes", .list (sampleRoutes.map .dict))] =
    .ok [("routes", .list (rs.map .dict))] ∧ List.Forall₂ SameItems rs sampleRoutes :=
  C42_round_trip sampleEnv _ sampleRoutes (by decide) rfl sampleRoutes_ok

example : mask4 24 = 0xFFFFFF00 ∧ mask4 0 = 0 ∧ mask4 32 = 0xFFFFFFFF := by decide

end NJ
