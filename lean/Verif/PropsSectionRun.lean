import Verif.PropsSections
import Verif.PropsPeers

/-!
# C67, C74: the sections of all interfaces

From the groups of addresses (PropsSections.lean) to the list of blocks of the whole `network` package.
-/

namespace NJ

/-! ## Specification of a section -/

/-- the text of the names in a list of the configuration -/
def NamesText (config : VDict) (k : String) (v : Val) : Prop :=
  (Dict.get? config k = none → v = .none) ∧ ∀ names : List String, Dict.get? config k = some (.list (names.map .str)) → v = joinedNames names

/-- The value of `dns` or `dns_search`: the interface's own, none for some protocols, else that of the whole configuration. -/
def DnsValue (config b : VDict) (own key : String) (without : List Val) (proto v : Val) : Prop :=
  match Dict.get? b own with
  | some w => v = w
  | none => if proto ∈ without then v = .none else NamesText config key v

/-- options a bridge leaves to its device, or that say which device a section is for -/
def bridgeKeys : List String := ["type", "bridge_members", "bridge_empty", "device", "ifname"] ++ stpOptions ++ igmpOptions ++ allOptions

/-- the options that are not just copied from the interface to its sections -/
def treatedKeys : List String := blockKeys ++ deviceKeys ++ bridgeKeys ++ ["vlan_filtering", "dns", "dns_search", "gateway", "ip6gw"]

/-- the section number `n` of the interface `b`, for the group of addresses `g` -/
structure LogicalOf (env : Env) (config b : VDict) (uci : Chars) (n : Nat) (g sec : VDict) : Prop where
  nodup : (Dict.keys sec).Nodup
  type : Dict.get? sec ".type" = some (.str "interface")
  name : Dict.get? sec ".name" = some (if n = 1 then firstName env b uci else txt (uci ++ '_' :: showNat n))
  proto : Dict.get? sec "proto" = some ((ownProto b).getD ((Dict.get? g "proto").getD .none))
  group : ∀ k, k ≠ "proto" → Dict.get? g k ≠ none → Dict.get? sec k = Dict.get? g k
  dns : Dict.get? g "dns" = none → ∃ v, Dict.get? sec "dns" = some v ∧
    DnsValue config b "dns" "dns_servers" [.str "dhcp", .str "dhcpv6", .str "none"] ((Dict.get? g "proto").getD .none) v
  search : Dict.get? g "dns_search" = none → ∃ v, Dict.get? sec "dns_search" = some v ∧
    DnsValue config b "dns_search" "dns_search" [.str "none"] ((Dict.get? g "proto").getD .none) v
  gateway : Dict.get? g "gateway" = none → n = 1 ∨ Dict.get? b "type" ≠ some (.str "bridge") →
    Dict.get? sec "gateway" = gatewayOf b (if Dict.get? b "type" = some (.str "wireguard") then [] else addressList b) true "gateway"
  ip6gw : Dict.get? g "ip6gw" = none →
    Dict.get? sec "ip6gw" = gatewayOf b (if Dict.get? b "type" = some (.str "wireguard") then [] else addressList b) false "ip6gw"
  others : ∀ k, k ∉ treatedKeys → Dict.get? g k = none → Dict.get? sec k = Dict.get? b k

/-! ## Bridges -/

theorem eraseAll_agree (ks : List String) (d : VDict) : Agree ks d (ks.foldl Dict.erase d) :=
  ⟨fun h => (eraseAll_get ks d h).1, fun k hk => by rw [Dict.get?_foldl_erase, if_neg hk]⟩

theorem cleanBridge_agree (isdsa : Bool) (d : VDict) : Agree bridgeKeys d (cleanBridge isdsa d) := by
  unfold cleanBridge
  split
  · exact (eraseAll_agree _ d).mono (by decide)
  · exact .refl _ _

theorem firstBridge_agree {isdsa : Bool} {d d' : VDict} (h : firstBridge isdsa d = .ok d') : Agree bridgeKeys d d' := by
  unfold firstBridge at h
  obtain ⟨⟨x1, d1⟩, e1, h1⟩ := bind_ok_iff.1 h
  dsimp only at h1
  obtain ⟨x2, e2, h2⟩ := bind_ok_iff.1 h1
  obtain ⟨_, rfl⟩ := popKey_inv' e1
  clear h h1
  have a1 := (agree_erase d "bridge_members").mono (ks' := bridgeKeys) (by decide)
  split at h2
  · obtain ⟨x3, e3, h3⟩ := bind_ok_iff.1 h2
    have h4 := pure_ok_iff.1 h3
    subst h4
    exact a1.trans ((agree_set _ _ _).mono (by decide))
  · split at h2
    · have h4 := pure_ok_iff.1 h2
      subst h4
      exact a1.trans ((agree_set _ _ _).mono (by decide))
    · obtain ⟨⟨x3, d3⟩, e3, h3⟩ := bind_ok_iff.1 h2
      have h4 := pure_ok_iff.1 h3
      obtain ⟨_, rfl⟩ := popKey_inv' e3
      subst h4
      exact (a1.trans ((agree_set _ _ _).mono (by decide))).trans ((agree_erase _ _).mono (by decide))

theorem nextBridge_agree {d d' : VDict} (h : nextBridge d = .ok d') : Agree ("gateway" :: bridgeKeys) d d' := by
  unfold nextBridge at h
  obtain ⟨x1, e1, h1⟩ := bind_ok_iff.1 h
  obtain ⟨x2, e2, h2⟩ := bind_ok_iff.1 h1
  dsimp only at h2
  have h3 := pure_ok_iff.1 h2
  subst h3
  refine Agree.trans (b := if "br-".toList <:+: x2 then d else Dict.set d "ifname" (txt ("br-".toList ++ x2))) ?_ ((eraseAll_agree _ _).mono (by decide))
  split
  · exact .refl _ _
  · exact (agree_set _ _ _).mono (by decide)

theorem bridgeSection_inv {isdsa : Bool} {n : Nat} {d d' : VDict} (h : bridgeSection isdsa n d = .ok d') :
    Agree ("gateway" :: bridgeKeys) d d' ∧ (n < 2 ∨ Dict.get? d "type" ≠ some (.str "bridge") → Agree bridgeKeys d d') := by
  unfold bridgeSection at h
  obtain ⟨t, e1, h1⟩ := bind_ok_iff.1 h
  obtain ⟨d1, e2, h2⟩ := bind_ok_iff.1 h1
  have h3 := pure_ok_iff.1 h2
  subst h3
  clear h h1 h2
  have e1 := getKey_inv e1
  have hw : ∀ k ∈ bridgeKeys, k ∈ "gateway" :: bridgeKeys := fun k hk => by simp [hk]
  have key : Agree ("gateway" :: bridgeKeys) d d1 ∧ (n < 2 ∨ Dict.get? d "type" ≠ some (.str "bridge") → Agree bridgeKeys d d1) := by
    split at e2
    · next ht =>
      split at e2
      · have a := firstBridge_agree e2
        exact ⟨a.mono hw, fun _ => a⟩
      · next hn =>
        refine ⟨nextBridge_agree e2, fun hc => ?_⟩
        rcases hc with hc | hc
        · exact absurd hc hn
        · rw [ht] at e1; exact absurd e1 hc
    · have := pure_ok_iff.1 e2
      subst this
      have a := (agree_erase d "type").mono (ks' := bridgeKeys) (by decide)
      exact ⟨a.mono hw, fun _ => a⟩
  exact ⟨key.1.trans ((cleanBridge_agree isdsa d1).mono hw), fun hc => (key.2 hc).trans (cleanBridge_agree isdsa d1)⟩

/-! ## One section -/

theorem textItem_all {names : List String} {ts : List Chars} (h : (names.map Val.str).mapM textItem = .ok ts) : ts = names.map String.toList := by
  induction names generalizing ts with
  | nil => cases h; rfl
  | cons s names ih =>
    rw [List.map_cons, mapM_ok_cons] at h
    obtain ⟨t, ts', h1, h2, rfl⟩ := h
    rw [ih h2]
    cases h1
    rfl

theorem joinedOf_inv {config : VDict} {k : String} {v : Val} (h : joinedOf config k = .ok v) : NamesText config k v := by
  constructor
  · intro hn
    unfold joinedOf at h
    rw [hn] at h
    cases h
    rfl
  · intro names hn
    unfold joinedOf at h
    rw [hn] at h
    unfold joinedNames
    cases names with
    | nil => cases h; rfl
    | cons s names =>
      have : (Val.list ((s :: names).map .str)).truthy = true := rfl
      simp only [Option.getD_some] at h
      rw [if_pos this] at h
      unfold blankJoin at h
      dsimp only at h
      obtain ⟨ts, h1, h2⟩ := bind_ok_iff.1 h
      have h3 := pure_ok_iff.1 h2
      rw [← h3, textItem_all h1]
      rfl

theorem dnsValue_inv {config uci : VDict} {own key : String} {without : List Val} {proto v : Val} (h : dnsValue config own key without uci proto = .ok v) :
    DnsValue config uci own key without proto v := by
  unfold dnsValue at h
  unfold DnsValue
  cases hg : Dict.get? uci own with
  | some w => rw [hg] at h; cases h; rfl
  | none =>
    rw [hg] at h
    dsimp only at h ⊢
    split
    · next hp => rw [if_pos hp] at h; cases h; rfl
    · next hp => rw [if_neg hp] at h; exact joinedOf_inv h

/-- the interface when its sections are made: its block, maybe without what has gone to the device -/
structure MadeOf (env : Env) (uci : Chars) (b i : VDict) : Prop where
  nodup : (Dict.keys i).Nodup
  type : Dict.get? i ".type" = some (.str "interface")
  name : Dict.get? i ".name" = some (firstName env b uci)
  proto : Dict.get? i "proto" = ownProto b
  kind : Dict.get? i "type" = Dict.get? b "type"
  others : ∀ k, k ∉ "vlan_filtering" :: (blockKeys ++ deviceKeys) → Dict.get? i k = Dict.get? b k

theorem BlockOf.made {env : Env} {uci : Chars} {b i : VDict} (h : BlockOf env uci b i) : MadeOf env uci b i :=
  ⟨h.nodup, h.type, h.name, h.proto, h.others _ (by decide), fun k hk => h.others k (fun hm => hk (by simp [hm]))⟩

theorem MadeOf.agree {env : Env} {uci : Chars} {b i j : VDict} (h : MadeOf env uci b i) (a : Agree ("vlan_filtering" :: deviceKeys) i j) : MadeOf env uci b j := by
  refine ⟨a.nodup h.nodup, ?_, ?_, ?_, ?_, ?_⟩
  · rw [a.items _ (by decide)]; exact h.type
  · rw [a.items _ (by decide)]; exact h.name
  · rw [a.items _ (by decide)]; exact h.proto
  · rw [a.items _ (by decide)]; exact h.kind
  · intro k hk
    rw [a.items k (fun hm => hk (by simp only [List.mem_cons, List.mem_append] at hm ⊢; tauto))]
    exact h.others k hk

/-- the part of a section that comes from the interface as given to the loop over the groups -/
structure SectionBase (env : Env) (config b : VDict) (uci : Chars) (n : Nat) (g sec : VDict) : Prop where
  nodup : (Dict.keys sec).Nodup
  type : Dict.get? sec ".type" = some (.str "interface")
  name : Dict.get? sec ".name" = some (if n = 1 then firstName env b uci else txt (uci ++ '_' :: showNat n))
  proto : Dict.get? sec "proto" = some ((ownProto b).getD ((Dict.get? g "proto").getD .none))
  group : ∀ k, k ≠ "proto" → Dict.get? g k ≠ none → Dict.get? sec k = Dict.get? g k
  dns : Dict.get? g "dns" = none → ∃ v, Dict.get? sec "dns" = some v ∧
    DnsValue config b "dns" "dns_servers" [.str "dhcp", .str "dhcpv6", .str "none"] ((Dict.get? g "proto").getD .none) v
  search : Dict.get? g "dns_search" = none → ∃ v, Dict.get? sec "dns_search" = some v ∧
    DnsValue config b "dns_search" "dns_search" [.str "none"] ((Dict.get? g "proto").getD .none) v
  gateway : Dict.get? g "gateway" = none → n = 1 ∨ Dict.get? b "type" ≠ some (.str "bridge") → Dict.get? sec "gateway" = Dict.get? b "gateway"
  others : ∀ k, k ∉ blockKeys ++ deviceKeys ++ bridgeKeys ++ ["vlan_filtering", "dns", "dns_search", "gateway"] → Dict.get? g k = none →
    Dict.get? sec k = Dict.get? b k

theorem ifaceSection_inv {env : Env} {config : VDict} {isdsa : Bool} {uci : Chars} {b i : VDict} {n : Nat} {g sec : VDict} (hn : 1 ≤ n)
    (hi : MadeOf env uci b i) (hg : (Dict.keys g).Nodup) (hg1 : Dict.get? g ".name" = none) (hg2 : Dict.get? g ".type" = none)
    (h : ifaceSection config isdsa uci i n g = .ok sec) : SectionBase env config b uci n g sec := by
  unfold ifaceSection at h
  dsimp only at h
  have ad : Agree [".name"] i (if n > 1 then Dict.set i ".name" (txt (uci ++ '_' :: showNat n)) else i) := by
    split
    · exact agree_set _ _ _
    · exact .refl _ _
  have hname : Dict.get? (if n > 1 then Dict.set i ".name" (txt (uci ++ '_' :: showNat n)) else i) ".name" =
      some (if n = 1 then firstName env b uci else txt (uci ++ '_' :: showNat n)) := by
    by_cases h1 : n > 1
    · rw [if_pos h1, Dict.get?_set', if_pos rfl, if_neg (by omega)]
    · rw [if_neg h1, if_pos (by omega), hi.name]
  generalize (if n > 1 then Dict.set i ".name" (txt (uci ++ '_' :: showNat n)) else i) = d at *
  obtain ⟨proto, e1, h1⟩ := bind_ok_iff.1 h
  obtain ⟨dns, e2, h2⟩ := bind_ok_iff.1 h1
  obtain ⟨search, e3, h3⟩ := bind_ok_iff.1 h2
  obtain ⟨d2, e4, h4⟩ := bind_ok_iff.1 h3
  have h5 := pure_ok_iff.1 h4
  clear h h1 h2 h3 h4
  have hp := getKey_inv e1
  have au : Agree ["proto", "dns", "dns_search"] d (Dict.update (Dict.erase d "proto") [("dns", dns), ("dns_search", search), ("proto", (Dict.get? d "proto").getD proto)]) := by
    rw [Dict.update_cons, Dict.update_cons, Dict.update_cons, Dict.update_nil]
    exact ((((agree_erase _ _).mono (by decide)).trans ((agree_set _ _ _).mono (by decide))).trans ((agree_set _ _ _).mono (by decide))).trans
      ((agree_set _ _ _).mono (by decide))
  have gd : Dict.get? (Dict.update (Dict.erase d "proto") [("dns", dns), ("dns_search", search), ("proto", (Dict.get? d "proto").getD proto)]) "dns" = some dns := by
    rw [Dict.update_cons, Dict.update_cons, Dict.update_cons, Dict.update_nil, Dict.get?_set', if_neg (by decide), Dict.get?_set', if_neg (by decide), Dict.get?_set', if_pos rfl]
  have gs : Dict.get? (Dict.update (Dict.erase d "proto") [("dns", dns), ("dns_search", search), ("proto", (Dict.get? d "proto").getD proto)]) "dns_search" = some search := by
    rw [Dict.update_cons, Dict.update_cons, Dict.update_cons, Dict.update_nil, Dict.get?_set', if_neg (by decide), Dict.get?_set', if_pos rfl]
  have gp : Dict.get? (Dict.update (Dict.erase d "proto") [("dns", dns), ("dns_search", search), ("proto", (Dict.get? d "proto").getD proto)]) "proto" =
      some ((Dict.get? d "proto").getD proto) := by
    rw [Dict.update_cons, Dict.update_cons, Dict.update_cons, Dict.update_nil, Dict.get?_set', if_pos rfl]
  have dp : Dict.get? d "proto" = ownProto b := by rw [ad.items _ (by decide)]; exact hi.proto
  rw [dp] at au gd gs gp e4
  generalize Dict.update (Dict.erase d "proto") [("dns", dns), ("dns_search", search), ("proto", (ownProto b).getD proto)] = d1 at *
  obtain ⟨ab, ab'⟩ := bridgeSection_inv e4
  have nd2 : (Dict.keys d2).Nodup := ab.nodup (au.nodup (ad.nodup hi.nodup))
  have nu : (Dict.keys (Dict.update d2 (Dict.erase g "proto"))).Nodup := Dict.nodup_update nd2 _
  have hsec : ∀ k, Dict.get? sec k = if k = "proto" then Dict.get? d2 k else (Dict.get? g k).or (Dict.get? d2 k) := by
    intro k
    rw [← h5, get?_sortedDict nu, Dict.get?_update _ _ (Dict.nodup_erase hg _), Dict.get?_erase']
    by_cases hk : k = "proto"
    · simp [hk]
    · simp [hk]
  have hdb : ∀ k, Dict.get? i k = Dict.get? b k → k ≠ ".name" → ∀ key without v, dnsValue config k key without d proto = .ok v →
      DnsValue config b k key without proto v := by
    intro k hk hk' key without v hv
    have := dnsValue_inv hv
    unfold DnsValue at this ⊢
    rw [ad.items k (by simpa using hk'), hk] at this
    exact this
  refine ⟨?_, ?_, ?_, ?_, ?_, ?_, ?_, ?_, ?_⟩
  · rw [← h5]; exact sortedDict_nodup nu
  · rw [hsec, if_neg (by decide), hg2, Option.none_or, ab.items _ (by decide), au.items _ (by decide), ad.items _ (by decide)]; exact hi.type
  · rw [hsec, if_neg (by decide), hg1, Option.none_or, ab.items _ (by decide), au.items _ (by decide)]; exact hname
  · rw [hsec, if_pos rfl, ab.items _ (by decide), gp, hp]; rfl
  · intro k hk hgk
    rw [hsec, if_neg hk]
    cases hh : Dict.get? g k with
    | none => exact absurd hh hgk
    | some v => rfl
  · intro hgd
    refine ⟨dns, ?_, ?_⟩
    · rw [hsec, if_neg (by decide), hgd, Option.none_or, ab.items _ (by decide), gd]
    · rw [hp]; exact hdb "dns" (hi.others _ (by decide)) (by decide) _ _ _ e2
  · intro hgd
    refine ⟨search, ?_, ?_⟩
    · rw [hsec, if_neg (by decide), hgd, Option.none_or, ab.items _ (by decide), gs]
    · rw [hp]; exact hdb "dns_search" (hi.others _ (by decide)) (by decide) _ _ _ e3
  · intro hgg hc
    have ht : Dict.get? d1 "type" = Dict.get? b "type" := by
      rw [au.items _ (by decide), ad.items _ (by decide)]; exact hi.kind
    have a := ab' (by
      rcases hc with hc | hc
      · exact .inl (by omega)
      · exact .inr (by rw [ht]; exact hc))
    rw [hsec, if_neg (by decide), hgg, Option.none_or, a.items _ (by decide), au.items _ (by decide), ad.items _ (by decide)]
    exact hi.others _ (by decide)
  · intro k hk hgk
    have q : ∀ ks : List String, (∀ x ∈ ks, x ∈ blockKeys ++ deviceKeys ++ bridgeKeys ++ ["vlan_filtering", "dns", "dns_search", "gateway"]) → k ∉ ks :=
      fun ks hs hm => hk (hs k hm)
    rw [hsec, if_neg (by rintro rfl; exact hk (by decide)), hgk, Option.none_or, ab.items _ (q _ (by decide)), au.items _ (q _ (by decide)),
      ad.items _ (q _ (by decide))]
    exact hi.others _ (q _ (by decide))

/-! ## The groups -/

theorem GroupsOf.clean {env : Env} {b b' : VDict} {gs : List VDict} (hok : AddressesOK (addressList b)) (h : GroupsOf env b b' gs) :
    ∀ g ∈ gs, (Dict.keys g).Nodup ∧ Dict.get? g ".name" = none ∧ Dict.get? g ".type" = none := by
  intro g hg
  by_cases hw : Dict.get? b "type" = some (.str "wireguard")
  · rw [(h.wireguard hw).2] at hg
    rw [List.mem_singleton.1 hg]
    refine ⟨?_, rfl, rfl⟩
    simp [Dict.keys]
  by_cases hn : addressList b = []
  · rw [(h.notGiven hw hn).2] at hg
    split at hg
    · cases hg
    · rw [List.mem_singleton.1 hg]
      exact ⟨by simp [Dict.keys], rfl, rfl⟩
  obtain ⟨⟨s, ds, rfl, h1, h2, h3⟩, _⟩ := h.given hw hn
  rcases List.mem_append.1 hg with hg | hg
  · by_cases he : (addressList b).filter (fun a => !isDhcp a) = []
    · rw [h2 he] at hg; cases hg
    · obtain ⟨g', rfl, hs⟩ := h3 he
      rw [List.mem_singleton.1 hg]
      have q : ∀ k ∈ [".name", ".type", "ipaddr", "ip6addr"], lastOf ((addressList b).filter (fun a => !isDhcp a)) k = none :=
        fun k hk => lastOf_none (fun a ha => (hok a (List.mem_filter.1 ha).1).2 k hk)
      refine ⟨hs.nodup, ?_, ?_⟩
      · rw [hs.others _ (by decide), if_neg (by decide), q _ (by decide)]
      · rw [hs.others _ (by decide), if_neg (by decide), q _ (by decide)]
  · have hh : ∀ (as ds : List VDict), List.Forall₂ DhcpGroup as ds → ∀ d ∈ ds, ∃ a ∈ as, DhcpGroup a d := by
      intro as ds hf
      induction hf with
      | nil => intro d hd; cases hd
      | cons h _ ih =>
        intro d hd
        rcases List.mem_cons.1 hd with rfl | hd
        · exact ⟨_, by simp, h⟩
        · obtain ⟨a, ha, h⟩ := ih d hd
          exact ⟨a, by simp [ha], h⟩
    obtain ⟨a, ha, hd⟩ := hh _ _ h1 g hg
    have ha := (List.mem_filter.1 ha).1
    refine ⟨hd.nodup, ?_, ?_⟩
    · rw [hd.items, if_neg (by decide), if_neg (by decide)]; exact (hok a ha).2 _ (by decide)
    · rw [hd.items, if_neg (by decide), if_neg (by decide)]; exact (hok a ha).2 _ (by decide)

/-- the interface with its gateways is the interface, for all other options -/
theorem GroupsOf.same {env : Env} {b b' : VDict} {gs : List VDict} (h : GroupsOf env b b' gs) (hn : (Dict.keys b).Nodup) :
    (Dict.keys b').Nodup ∧ (∀ k, k ≠ "gateway" → k ≠ "ip6gw" → k ≠ "addresses" → Dict.get? b' k = Dict.get? b k) ∧
    Dict.get? b' "gateway" = gatewayOf b (if Dict.get? b "type" = some (.str "wireguard") then [] else addressList b) true "gateway" ∧
    Dict.get? b' "ip6gw" = gatewayOf b (if Dict.get? b "type" = some (.str "wireguard") then [] else addressList b) false "ip6gw" := by
  have g0 : ∀ v k, gatewayOf b [] v k = Dict.get? b k := by intro v k; simp [gatewayOf, lastOf]
  by_cases hw : Dict.get? b "type" = some (.str "wireguard")
  · rw [if_pos hw, g0, g0, (h.wireguard hw).1]
    refine ⟨Dict.nodup_erase hn _, fun k _ _ h3 => ?_, ?_, ?_⟩
    · rw [Dict.get?_erase', if_neg h3]
    · rw [Dict.get?_erase', if_neg (by decide)]
    · rw [Dict.get?_erase', if_neg (by decide)]
  · rw [if_neg hw]
    by_cases hl : addressList b = []
    · rw [hl, g0, g0, (h.notGiven hw hl).1]
      exact ⟨hn, fun _ _ _ _ => rfl, rfl, rfl⟩
    · have hg := (h.given hw hl).2
      refine ⟨hg.nodup hn, fun k h1 h2 _ => ?_, ?_, ?_⟩
      · rw [hg.items, if_neg h1, if_neg h2]
      · rw [hg.items, if_pos rfl]
      · rw [hg.items, if_neg (by decide), if_pos rfl]

theorem firstName_congr {env : Env} {b b' : VDict} {uci : Chars} (h : ∀ k, k ≠ "gateway" → k ≠ "ip6gw" → k ≠ "addresses" → Dict.get? b' k = Dict.get? b k) :
    firstName env b' uci = firstName env b uci := by
  unfold firstName isVlan
  rw [kindOf_congr (h "type" (by decide) (by decide) (by decide)), h "network" (by decide) (by decide) (by decide), h "vid" (by decide) (by decide) (by decide)]

theorem ownProto_congr {b b' : VDict} (h : ∀ k, k ≠ "gateway" → k ≠ "ip6gw" → k ≠ "addresses" → Dict.get? b' k = Dict.get? b k) :
    ownProto b' = ownProto b := by
  unfold ownProto
  rw [kindOf_congr (h "type" (by decide) (by decide) (by decide)), h "proto" (by decide) (by decide) (by decide)]

theorem SectionBase.whole {env : Env} {config b b' : VDict} {uci : Chars} {n : Nat} {g sec : VDict} {gs : List VDict} (hn : (Dict.keys b).Nodup)
    (hg : GroupsOf env b b' gs) (h : SectionBase env config b' uci n g sec) : LogicalOf env config b uci n g sec := by
  obtain ⟨_, s2, s3, s4⟩ := hg.same hn
  have dn : ∀ own key without p v, own ≠ "gateway" → own ≠ "ip6gw" → own ≠ "addresses" → DnsValue config b' own key without p v →
      DnsValue config b own key without p v := by
    intro own key without p v h1 h2 h3 hv
    unfold DnsValue at hv ⊢
    rw [s2 _ h1 h2 h3] at hv
    exact hv
  refine ⟨h.nodup, h.type, ?_, ?_, h.group, ?_, ?_, ?_, ?_, ?_⟩
  · rw [← firstName_congr s2]; exact h.name
  · rw [← ownProto_congr s2]; exact h.proto
  · intro hd
    obtain ⟨v, h1, h2⟩ := h.dns hd
    exact ⟨v, h1, dn _ _ _ _ _ (by decide) (by decide) (by decide) h2⟩
  · intro hd
    obtain ⟨v, h1, h2⟩ := h.search hd
    exact ⟨v, h1, dn _ _ _ _ _ (by decide) (by decide) (by decide) h2⟩
  · intro h1 h2
    rw [h.gateway h1 (by rw [s2 _ (by decide) (by decide) (by decide)]; exact h2), s3]
  · intro h1
    rw [h.others _ (by decide) h1, s4]
  · intro k hk hgk
    have q : ∀ ks : List String, (∀ x ∈ ks, x ∈ treatedKeys) → k ∉ ks := fun ks hs hm => hk (hs k hm)
    rw [h.others k (q _ (by decide +kernel)) hgk]
    exact s2 k (fun e => hk (by rw [e]; decide)) (fun e => hk (by rw [e]; decide)) (fun e => hk (by rw [e]; decide))

/-! ## VLANs of bridges -/

/-- the VLANs of an interface -/
def vlansOf (b : VDict) : List VDict := match Dict.get? b "vlan_filtering" with
  | some (.list l) => l.filterMap asDict?
  | _ => []

/-- `port`, `port:t`, `port:u*` -/
def portSpec (env : Env) (p : VDict) : Val :=
  .str (pyStr env.reprC ((Dict.get? p "ifname").getD .none) ++
    (if ((Dict.get? p "tagging").getD .none).truthy then ":" ++ pyStr env.reprC ((Dict.get? p "tagging").getD .none) else "") ++
    (if ((Dict.get? p "primary_vid").getD .none).truthy then "*" else ""))

/-- the ports of a VLAN -/
def portsOf (env : Env) (v : VDict) : Option Val := match Dict.get? v "ports" with
  | some (.list l) => some (.list ((l.filterMap asDict?).map (portSpec env)))
  | _ => none

def vidText (env : Env) (v : VDict) : String := pyStr env.reprC ((Dict.get? v "vlan").getD .none)

/-- the `bridge-vlan` section of a VLAN of the device `dev` -/
def VlanBridge (env : Env) (uci : Chars) (dev : Val) (v x : VDict) : Prop :=
  ∀ k, Dict.get? x k = if k = ".type" then some (.str "bridge-vlan")
    else if k = ".name" then some (.str ("vlan_" ++ (String.ofList uci ++ "_" ++ vidText env v)))
    else if k = "vlan" then Dict.get? v "vlan" else if k = "device" then some dev else if k = "ports" then portsOf env v else none

/-- the logical interface of a VLAN of the device `dev` -/
def VlanIface (env : Env) (uci : Chars) (dev : Val) (v x : VDict) : Prop :=
  ∀ k, Dict.get? x k = if k = ".type" then some (.str "interface")
    else if k = ".name" then some (.str (String.ofList uci ++ "_" ++ vidText env v))
    else if k = "device" then some (.str (pyStr env.reprC dev ++ "." ++ vidText env v)) else if k = "proto" then some (.str "none") else none

theorem portText_inv {env : Env} {v t : Val} (h : portText env v = .ok t) : ∃ p, v = .dict p ∧ t = portSpec env p := by
  unfold portText at h
  obtain ⟨p, e1, h1⟩ := bind_ok_iff.1 h
  obtain ⟨x, e2, h2⟩ := bind_ok_iff.1 h1
  have h3 := pure_ok_iff.1 h2
  cases v with
  | dict d =>
    simp only [asDict, Except.ok.injEq] at e1
    subst e1
    refine ⟨_, rfl, ?_⟩
    unfold portSpec
    rw [getKey_inv e2, ← h3]
    rfl
  | none => cases e1
  | bool _ => cases e1
  | int _ => cases e1
  | str _ => cases e1
  | list _ => cases e1

theorem portTexts_inv {env : Env} {l ts : List Val} (h : l.mapM (portText env) = .ok ts) : ts = (l.filterMap asDict?).map (portSpec env) := by
  induction l generalizing ts with
  | nil => rw [mapM_ok_nil] at h; cases h; rfl
  | cons v l ih =>
    rw [mapM_ok_cons] at h
    obtain ⟨t, ts', h1, h2, rfl⟩ := h
    obtain ⟨a, rfl, rfl⟩ := portText_inv h1
    rw [ih h2]
    simp [asDict?]

/-- what the two sections of a VLAN are -/
structure VlanPair (env : Env) (uci : Chars) (dev : Val) (v : VDict) (p : VDict × VDict × Val) : Prop where
  bridge : VlanBridge env uci dev v p.1
  iface : VlanIface env uci dev v p.2.1
  device : p.2.2 = .str (pyStr env.reprC dev ++ "." ++ vidText env v)

theorem vlanSections_inv {env : Env} {uci : Chars} {i : VDict} {v : Val} {p : VDict × VDict × Val} (h : vlanSections env uci i v = .ok p) :
    ∃ d dev, v = .dict d ∧ Dict.get? i "ifname" = some dev ∧ VlanPair env uci dev d p := by
  unfold vlanSections at h
  obtain ⟨vlan, e1, h1⟩ := bind_ok_iff.1 h
  obtain ⟨vid, e2, h2⟩ := bind_ok_iff.1 h1
  obtain ⟨ifname, e3, h3⟩ := bind_ok_iff.1 h2
  dsimp only at h3
  obtain ⟨d1, e4, h4⟩ := bind_ok_iff.1 h3
  have h5 := pure_ok_iff.1 h4
  clear h h1 h2 h3 h4
  have e2 := getKey_inv e2
  have e3 := getKey_inv e3
  have hv : v = .dict vlan := by
    cases v with
    | dict d => simp only [asDict, Except.ok.injEq] at e1; rw [e1]
    | none => cases e1
    | bool _ => cases e1
    | int _ => cases e1
    | str _ => cases e1
    | list _ => cases e1
  subst hv
  have hvt : vidText env vlan = pyStr env.reprC vid := by unfold vidText; rw [e2]; rfl
  refine ⟨vlan, ifname, rfl, e3, ?_⟩
  rw [← h5]
  clear h5 e1
  refine ⟨?_, ?_, ?_⟩
  · intro k
    dsimp only
    rw [hvt, e2]
    generalize "vlan_" ++ (String.ofList uci ++ "_" ++ pyStr env.reprC vid) = nm at *
    have hbase : ∀ x, Dict.get? [(".type", Val.str "bridge-vlan"), (".name", Val.str nm), ("vlan", vid), ("device", ifname)] x =
        if x = ".type" then some (.str "bridge-vlan") else if x = ".name" then some (.str nm) else if x = "vlan" then some vid
        else if x = "device" then some ifname else none := by
      intro x
      simp only [Dict.get?_cons, Dict.get?_nil, eq_comm]
    have hnb : (Dict.keys [(".type", Val.str "bridge-vlan"), (".name", Val.str nm), ("vlan", vid), ("device", ifname)]).Nodup := by simp [Dict.keys]
    generalize [(".type", Val.str "bridge-vlan"), (".name", Val.str nm), ("vlan", vid), ("device", ifname)] = base at *
    unfold vlanPorts at e4
    unfold portsOf
    cases hp : Dict.get? vlan "ports" with
    | none =>
      rw [hp] at e4
      cases e4
      rw [get?_sortedDict hnb, hbase]
      split_ifs <;> rfl
    | some w =>
      rw [hp] at e4
      cases w with
      | list l =>
        dsimp only at e4
        obtain ⟨ts, e5, h6⟩ := bind_ok_iff.1 e4
        have h7 := pure_ok_iff.1 h6
        subst h7
        rw [get?_sortedDict (Dict.nodup_set hnb _ _), Dict.get?_set', hbase, portTexts_inv e5]
        by_cases k1 : k = "ports"
        · subst k1; rfl
        · rw [if_neg k1, if_neg k1]
      | none => cases e4
      | bool _ => cases e4
      | int _ => cases e4
      | str _ => cases e4
      | dict _ => cases e4
  · intro k
    dsimp only
    rw [hvt]
    generalize String.ofList uci ++ "_" ++ pyStr env.reprC vid = nm
    generalize pyStr env.reprC ifname ++ "." ++ pyStr env.reprC vid = dv
    rw [get?_sortedDict (by simp [Dict.keys])]
    simp only [Dict.get?_cons, Dict.get?_nil, eq_comm]
  · rw [hvt]

theorem vlanAll_inv {env : Env} {uci : Chars} {i : VDict} {l : List Val} {ps : List (VDict × VDict × Val)} (h : l.mapM (vlanSections env uci i) = .ok ps) :
    List.Forall₂ (fun d p => ∃ dev, Dict.get? i "ifname" = some dev ∧ VlanPair env uci dev d p) (l.filterMap asDict?) ps := by
  induction l generalizing ps with
  | nil => rw [mapM_ok_nil] at h; cases h; exact .nil
  | cons v l ih =>
    rw [mapM_ok_cons] at h
    obtain ⟨t, ts', h1, h2, rfl⟩ := h
    obtain ⟨d, dev, rfl, h3, h4⟩ := vlanSections_inv h1
    exact .cons ⟨dev, h3, h4⟩ (ih h2)

/-! ## Devices and VLANs -/

/-- the blocks written before the sections of an interface: at most one device, the VLANs of a bridge, their interfaces -/
def FrontOf (env : Env) (uci : Chars) (b : VDict) (front : List VDict) : Prop :=
  ∃ ds xs ys, front = ds ++ xs ++ ys ∧ ds.length ≤ 1 ∧
    (∀ d ∈ ds, DeviceBlock (deviceLabel env ((Dict.get? b "type").getD .none) (firstName env b uci)) d) ∧
    List.Forall₂ (VlanBridge env uci (deviceName ((Dict.get? b "type").getD .none) ((Dict.get? b "name").getD .none))) (vlansOf b) xs ∧
    List.Forall₂ (VlanIface env uci (deviceName ((Dict.get? b "type").getD .none) ((Dict.get? b "name").getD .none))) (vlansOf b) ys

/-- a package `network` with the blocks `l`, and no other package -/
def Holds (r : VDict) (l : List Val) : Prop := (Dict.get? r "network").getD (.list []) = .list l ∧ ∀ k, k ≠ "network" → Dict.get? r k = none

theorem holds_append {r : VDict} {l bs : List Val} (h : Holds r l) : Holds (appendTo r "network" bs) (l ++ bs) := by
  obtain ⟨h1, h2⟩ := h
  have hs : ∀ v, (Dict.get? (Dict.set r "network" v) "network").getD (.list []) = v ∧ ∀ k, k ≠ "network" → Dict.get? (Dict.set r "network" v) k = none := by
    intro v
    refine ⟨by rw [Dict.get?_set', if_pos rfl]; rfl, fun k hk => ?_⟩
    rw [Dict.get?_set', if_neg hk]; exact h2 k hk
  unfold appendTo
  cases hg : Dict.get? r "network" with
  | none =>
    rw [hg] at h1
    simp only [Option.getD_none, Val.list.injEq] at h1
    subst h1
    exact hs _
  | some w =>
    rw [hg] at h1
    simp only [Option.getD_some] at h1
    subst h1
    exact hs _

theorem pushNetwork_holds {r r' : VDict} {l : List Val} {bs : List VDict} (h : Holds r l) (e : pushNetwork r bs = .ok r') : Holds r' (l ++ bs.map .dict) := by
  unfold pushNetwork at e
  split at e
  · cases e; simpa using h
  · next hne =>
    have hh := holds_append (bs := bs.map .dict) h
    unfold appendTo at hh
    split at e
    · next l' hg =>
      rw [hg] at hh
      cases e
      exact hh
    · cases e
    · cases e

theorem addSection_holds {sh : Val → Bool} {r r' b : VDict} {l : List Val} (h : Holds r l) (e : addSection sh r b = .ok r') :
    ∃ l', mergeList sh [".name", ".type"] l [.dict b] = .ok l' ∧ Holds r' l' := by
  unfold addSection at e
  rw [h.1] at e
  dsimp only at e
  obtain ⟨l', e1, e2⟩ := bind_ok_iff.1 e
  have e3 := pure_ok_iff.1 e2
  subst e3
  refine ⟨l', e1, by rw [Dict.get?_set', if_pos rfl]; rfl, fun k hk => ?_⟩
  rw [Dict.get?_set', if_neg hk]; exact h.2 k hk

theorem pushNetwork_netOf {l bs : List VDict} {r : VDict} (h : pushNetwork (netOf l) bs = .ok r) : r = netOf (l ++ bs) := by
  unfold pushNetwork at h
  split at h
  · cases h; simp
  · next hne =>
    unfold netOf at h
    by_cases hl : l = []
    · subst hl; simp at h
    · rw [if_neg hl] at h
      simp only [Dict.get?_cons_self, Dict.set, if_true, Except.ok.injEq] at h
      rw [← h]
      unfold netOf
      rw [if_neg (by simp [hl])]
      simp

theorem forall2_map_right {α β γ : Type} {R : α → γ → Prop} {f : β → γ} {as : List α} {bs : List β} (h : List.Forall₂ (fun a b => R a (f b)) as bs) :
    List.Forall₂ R as (bs.map f) := by
  induction h with
  | nil => exact .nil
  | cons h _ ih => exact .cons h ih

theorem forall2_imp {α β : Type} {R S : α → β → Prop} {as : List α} {bs : List β} (h : List.Forall₂ R as bs) (hi : ∀ a b, R a b → S a b) :
    List.Forall₂ S as bs := by
  induction h with
  | nil => exact .nil
  | cons h _ ih => exact .cons (hi _ _ h) ih

/-- devices of VLANs have a dot in their names -/
def Dotted (vlans : List Val) : Prop := ∀ v ∈ vlans, ∃ s, v = .str s ∧ '.' ∈ s.toList

def itemsOf : Val → List Val
  | .list l => l
  | _ => []

theorem vlanList_inv {v : Val} {l : List Val} (h : vlanList v = .ok l) : l = itemsOf v := by
  unfold vlanList at h
  split at h
  · cases h; rfl
  · next hne =>
    split at h
    · cases h
    · split at h
      · cases h; rfl
      · cases h; rfl
      · cases h

theorem dsaSections_inv {env : Env} {vlans vlans' : List Val} {uci : Chars} {b i j result r : VDict} (hb : BlockOf env uci b i) (hd : Dotted vlans)
    (h : dsaSections env vlans uci i result = .ok (j, vlans', r)) :
    ∃ front, FrontOf env uci b front ∧ MadeOf env uci b j ∧ Dotted vlans' ∧ (∀ l, result = netOf l → r = netOf (l ++ front)) ∧
      ∀ l, Holds result l → Holds r (l ++ front.map .dict) := by
  unfold dsaSections at h
  dsimp only [popOr] at h
  have hvf : Dict.get? i "vlan_filtering" = Dict.get? b "vlan_filtering" := hb.others _ (by decide)
  have ai : Agree ["vlan_filtering"] i (if ((Dict.get? i "vlan_filtering").getD (.list [])).truthy = true
      then Dict.set (Dict.erase i "vlan_filtering") "vlan_filtering" (.bool true) else Dict.erase i "vlan_filtering") := by
    split
    · exact (agree_erase _ _).trans (agree_set _ _ _)
    · exact agree_erase _ _
  generalize (if ((Dict.get? i "vlan_filtering").getD (.list [])).truthy = true
      then Dict.set (Dict.erase i "vlan_filtering") "vlan_filtering" (.bool true) else Dict.erase i "vlan_filtering") = i1 at *
  obtain ⟨⟨D, i2⟩, e1, h1⟩ := bind_ok_iff.1 h
  dsimp only at h1
  obtain ⟨l, e2, h2⟩ := bind_ok_iff.1 h1
  obtain ⟨ps, e3, h3⟩ := bind_ok_iff.1 h2
  obtain ⟨r1, e4, h4⟩ := bind_ok_iff.1 h3
  obtain ⟨r2, e5, h5⟩ := bind_ok_iff.1 h4
  have h6 := pure_ok_iff.1 h5
  clear h h1 h2 h3 h4 h5
  rw [Prod.mk.injEq, Prod.mk.injEq] at h6
  obtain ⟨rfl, rfl, rfl⟩ := h6
  have hdev := ifaceDevice_inv e1
  have hall := vlanAll_inv e3
  have hl : l.filterMap asDict? = vlansOf b := by
    have := vlanList_inv e2
    rw [hvf] at this
    rw [this]
    unfold vlansOf
    cases hq : Dict.get? b "vlan_filtering" with
    | none => rfl
    | some w => cases w <;> rfl
  rw [hl] at hall
  have hname : ∀ dev, Dict.get? i2 "ifname" = some dev → dev = deviceName ((Dict.get? b "type").getD .none) ((Dict.get? b "name").getD .none) := by
    intro dev hdv
    obtain ⟨t, w, h1, h2, h3⟩ := hdev.ifname dev hdv
    rw [ai.items _ (by decide)] at h1 h2
    rw [hb.others _ (by decide)] at h1
    rw [h1, hb.ifname _ h2, h3]
    rfl
  have hall2 : List.Forall₂ (fun d p => VlanPair env uci (deviceName ((Dict.get? b "type").getD .none) ((Dict.get? b "name").getD .none)) d p) (vlansOf b) ps :=
    forall2_imp hall (fun d p ⟨dev, h1, h2⟩ => by rw [← hname dev h1]; exact h2)
  refine ⟨(if D.isEmpty then [] else [sortedDict D]) ++ ps.map (fun x => x.1) ++ ps.map (fun x => x.2.1),
    ⟨if D.isEmpty then [] else [sortedDict D], ps.map (fun x => x.1), ps.map (fun x => x.2.1), rfl, ?_, ?_, ?_, ?_⟩, ?_, ?_, ?_, ?_⟩
  · split <;> simp
  · intro d hdm
    cases D with
    | nil => cases hdm
    | cons x D =>
      simp only [List.isEmpty_cons, Bool.false_eq_true, if_false, List.mem_singleton] at hdm
      rw [hdm]
      have := hdev.device (by simp)
      rw [ai.items _ (by decide), hb.others _ (by decide), ai.items _ (by decide), hb.name] at this
      exact deviceBlock_of_agree (ks := []) this (sorted_agree [] this.nodup) (by decide) (by decide)
  · exact forall2_map_right (forall2_imp hall2 (fun _ _ h => h.bridge))
  · exact forall2_map_right (forall2_imp hall2 (fun _ _ h => h.iface))
  · exact hb.made.agree ((ai.mono (by simp)).trans (hdev.agree.mono (fun k hk => by simp [hk])))
  · intro v hv
    rcases List.mem_append.1 hv with hv | hv
    · exact hd v hv
    · obtain ⟨p, hp, rfl⟩ := List.mem_map.1 hv
      have hh : ∀ (as : List VDict) (ps : List (VDict × VDict × Val)) (dev : Val), List.Forall₂ (fun d p => VlanPair env uci dev d p) as ps →
          ∀ p ∈ ps, ∃ a, VlanPair env uci dev a p := by
        intro as ps dev hf
        induction hf with
        | nil => intro p hp; cases hp
        | cons h _ ih =>
          intro p hp
          rcases List.mem_cons.1 hp with rfl | hp
          · exact ⟨_, h⟩
          · exact ih p hp
      obtain ⟨a, ha⟩ := hh _ _ _ hall2 p hp
      exact ⟨_, ha.device, by simp⟩
  · intro l0 hl0
    subst hl0
    have hD : (if D.isEmpty = true then netOf l0 else appendTo (netOf l0) "network" [.dict (sortedDict D)]) =
        netOf (l0 ++ if D.isEmpty = true then [] else [sortedDict D]) := by
      split
      · simp
      · rw [netOf_append]
    rw [hD] at e4
    have e6 := pushNetwork_netOf e4
    subst e6
    have e7 := pushNetwork_netOf e5
    rw [e7]
    simp only [List.append_assoc]
  · intro l0 hl0
    have hD : Holds (if D.isEmpty = true then result else appendTo result "network" [.dict (sortedDict D)])
        (l0 ++ (if D.isEmpty = true then [] else [sortedDict D]).map .dict) := by
      split
      · simpa using hl0
      · exact holds_append hl0
    have h2 := pushNetwork_holds (pushNetwork_holds hD e4) e5
    simpa using h2

/-! ## The sections of an interface -/

/-- sections one after the other, numbered from `n` -/
inductive SectionsFrom (env : Env) (config b : VDict) (uci : Chars) : Nat → List VDict → List VDict → Prop where
  | nil (n : Nat) : SectionsFrom env config b uci n [] []
  | cons {n : Nat} {g sec : VDict} {gs secs : List VDict} (h : LogicalOf env config b uci n g sec) (hs : SectionsFrom env config b uci (n + 1) gs secs) :
      SectionsFrom env config b uci n (g :: gs) (sec :: secs)

/-- names of all blocks are texts, and differ -/
def DistinctNames (l : List VDict) : Prop := (∀ x ∈ l, Named x) ∧ (l.map nameKey).Nodup

theorem distinct_left {a b : List VDict} (h : DistinctNames (a ++ b)) : DistinctNames a :=
  ⟨fun x hx => h.1 x (by simp [hx]), by have := h.2; rw [List.map_append, List.nodup_append] at this; exact this.1⟩

/-- the blocks with one more; one with the name of another is merged with it -/
def mergeOne (sh : Val → Bool) (l : List Val) (b : VDict) : Except PyErr (List Val) := mergeList sh [".name", ".type"] l [.dict b]

theorem addSections_inv {sh : Val → Bool} {env : Env} {config : VDict} {isdsa : Bool} {uci : Chars} {b b' i : VDict} {all : List VDict} (hn : (Dict.keys b).Nodup)
    (hG : GroupsOf env b b' all) (hi : MadeOf env uci b' i) (gs : List VDict)
    (hgs : ∀ g ∈ gs, (Dict.keys g).Nodup ∧ Dict.get? g ".name" = none ∧ Dict.get? g ".type" = none) (n : Nat) (h1 : 1 ≤ n) (result r : VDict)
    (h : addSections sh config isdsa uci i n result gs = .ok r) :
    ∃ secs, SectionsFrom env config b uci n gs secs ∧ (∀ l, result = netOf l → DistinctNames (l ++ secs) → r = netOf (l ++ secs)) ∧
      ∀ l, Holds result l → ∃ l', secs.foldlM (mergeOne sh) l = .ok l' ∧ Holds r l' := by
  induction gs generalizing n result with
  | nil =>
    cases h
    exact ⟨[], .nil n, fun l hl _ => by rw [hl, List.append_nil], fun l hl => ⟨l, rfl, hl⟩⟩
  | cons g gs ih =>
    unfold addSections at h
    obtain ⟨sec, e1, h2⟩ := bind_ok_iff.1 h
    obtain ⟨r1, e2, h3⟩ := bind_ok_iff.1 h2
    obtain ⟨q1, q2, q3⟩ := hgs g (by simp)
    have hs := (ifaceSection_inv h1 hi q1 q2 q3 e1).whole hn hG
    obtain ⟨secs, s1, s2, s3⟩ := ih (fun g hg => hgs g (by simp [hg])) (n + 1) (by omega) r1 h3
    refine ⟨sec :: secs, .cons hs s1, ?_, fun l hl => ?_⟩
    rotate_left
    · obtain ⟨l1, m1, m2⟩ := addSection_holds hl e2
      obtain ⟨l2, m3, m4⟩ := s3 l1 m2
      refine ⟨l2, ?_, m4⟩
      rw [List.foldlM_cons, bind_ok_iff]
      exact ⟨l1, m1, m3⟩
    intro l hl hd
    have e : l ++ sec :: secs = (l ++ [sec]) ++ secs := by simp
    rw [e] at hd ⊢
    refine s2 (l ++ [sec]) ?_ hd
    have hd1 := distinct_left hd
    rw [hl, addSection_named sh l sec hd1.1 hd1.2] at e2
    exact (Except.ok.inj e2).symm

/-- the name of an interface in UCI -/
def uciOf (b : VDict) : Chars :=
  match (if ((Dict.get? b "network").getD .none).truthy then Dict.get? b "network" else Dict.get? b "name") with
  | some (.str s) => uciName s.toList
  | _ => []

/-- All the blocks of an interface: device and VLANs where the new syntax is used, and one section for each group of addresses. -/
structure BlocksOf (env : Env) (dsa : Bool) (config b : VDict) (front secs : List VDict) : Prop where
  old : dsa = false → front = []
  either : front = [] ∨ FrontOf env (uciOf b) b front
  new : dsa = true → (Dict.get? b "type").getD .none ∈ dsaTypes → ownProto b ≠ some (.str "ppp") →
    (∀ s, Dict.get? b "name" = some (.str s) → '.' ∉ s.toList) → FrontOf env (uciOf b) b front
  sections : ∃ b' gs, GroupsOf env b b' gs ∧ SectionsFrom env config b (uciOf b) 1 gs secs

theorem frontOf_congr {env : Env} {uci : Chars} {b b' : VDict} {front : List VDict}
    (h : ∀ k, k ≠ "gateway" → k ≠ "ip6gw" → k ≠ "addresses" → Dict.get? b' k = Dict.get? b k) (hf : FrontOf env uci b' front) : FrontOf env uci b front := by
  unfold FrontOf vlansOf at hf ⊢
  rw [h "type" (by decide) (by decide) (by decide), h "name" (by decide) (by decide) (by decide), h "vlan_filtering" (by decide) (by decide) (by decide), firstName_congr h] at hf
  exact hf

theorem ifaceFwd_inv {sh : Val → Bool} {env : Env} {dsa : Bool} {config b : VDict} {vlans vlans' : List Val} {result r : VDict}
    (hn : (Dict.keys b).Nodup) (hok : AddressesOK (addressList b)) (hd : Dotted vlans)
    (h : ifaceFwd sh env dsa config (vlans, result) (.dict b) = .ok (vlans', r)) :
    ∃ front secs, BlocksOf env dsa config b front secs ∧ Dotted vlans' ∧
      (∀ l, result = netOf l → DistinctNames (l ++ (front ++ secs)) → r = netOf (l ++ (front ++ secs))) ∧
      ∀ l, Holds result l → ∃ l', secs.foldlM (mergeOne sh) (l ++ front.map .dict) = .ok l' ∧ Holds r l' := by
  unfold ifaceFwd at h
  obtain ⟨b0, e0, h0⟩ := bind_ok_iff.1 h
  simp only [asDict, Except.ok.injEq] at e0
  subst e0
  obtain ⟨name, e1, h1⟩ := bind_ok_iff.1 h0
  obtain ⟨t, e2, h2⟩ := bind_ok_iff.1 h1
  dsimp only at h2
  have huci : uciName t = uciOf b := by
    unfold uciOf
    dsimp only at e1
    split at e1
    · next htr =>
      have := pure_ok_iff.1 e1
      rw [if_pos htr]
      cases hg : Dict.get? b "network" with
      | none => rw [hg] at htr; cases htr
      | some w =>
        rw [hg] at this
        simp only [Option.getD_some] at this
        subst this
        cases w with
        | str s => simp only [asText, Except.ok.injEq] at e2; rw [← e2]
        | none => cases e2
        | bool _ => cases e2
        | int _ => cases e2
        | dict _ => cases e2
        | list _ => cases e2
    · next htr =>
      rw [if_neg htr, getKey_inv e1]
      cases name with
      | str s => simp only [asText, Except.ok.injEq] at e2; rw [← e2]
      | none => cases e2
      | bool _ => cases e2
      | int _ => cases e2
      | dict _ => cases e2
      | list _ => cases e2
  rw [huci] at h2
  obtain ⟨⟨b', gs⟩, e3, h3⟩ := bind_ok_iff.1 h2
  dsimp only at h3
  obtain ⟨i, e4, h4⟩ := bind_ok_iff.1 h3
  obtain ⟨⟨j, vs, r1⟩, e5, h5⟩ := bind_ok_iff.1 h4
  dsimp only at h5
  obtain ⟨r2, e6, h6⟩ := bind_ok_iff.1 h5
  have h7 := pure_ok_iff.1 h6
  clear h h0 h1 h2 h3 h4 h5 h6 e1 e2
  rw [Prod.mk.injEq] at h7
  obtain ⟨rfl, rfl⟩ := h7
  have hG := C67_groups hok e3
  obtain ⟨n', same, _, _⟩ := hG.same hn
  have hB := ifaceBlock_inv n' e4
  have hcl := hG.clean hok
  by_cases hc : isDsa dsa vlans i = true
  · rw [if_pos hc] at e5
    obtain ⟨front, f1, f2, f3, f4, f5⟩ := dsaSections_inv hB hd e5
    obtain ⟨secs, s1, s2, s3⟩ := addSections_inv hn hG f2 gs hcl 1 (by omega) r1 r2 e6
    have f1 := frontOf_congr same f1
    refine ⟨front, secs, ⟨?_, .inr f1, fun _ _ _ _ => f1, b', gs, hG, s1⟩, f3, ?_, fun l hl => s3 _ (f5 l hl)⟩
    · intro hf
      rw [hf] at hc
      simp [isDsa] at hc
    · intro l hl hdist
      rw [← List.append_assoc] at hdist ⊢
      exact s2 (l ++ front) (f4 l hl) hdist
  · rw [if_neg hc] at e5
    have e7 := pure_ok_iff.1 e5
    rw [Prod.mk.injEq, Prod.mk.injEq] at e7
    obtain ⟨rfl, rfl, rfl⟩ := e7
    obtain ⟨secs, s1, s2, s3⟩ := addSections_inv hn hG hB.made gs hcl 1 (by omega) result r2 e6
    refine ⟨[], secs, ⟨fun _ => rfl, .inl rfl, ?_, b', gs, hG, s1⟩, hd, fun l hl hdist => s2 l hl hdist, fun l hl => s3 _ (by simpa using hl)⟩
    intro hdsa ht hp hdot
    exfalso
    apply hc
    have ty : Dict.get? i "type" = Dict.get? b "type" := by
      rw [hB.others _ (by decide), same _ (by decide) (by decide) (by decide)]
    have nm : Dict.get? b' "name" = Dict.get? b "name" := same _ (by decide) (by decide) (by decide)
    have hk : kindOf b' ≠ "wireguard".toList := by
      rw [kindOf_congr (same _ (by decide) (by decide) (by decide))]
      unfold kindOf
      intro e
      unfold dsaTypes at ht
      cases hq : Dict.get? b "type" with
      | none => rw [hq] at e; revert e; decide
      | some w =>
        rw [hq] at ht e
        simp only [Option.getD_some, List.mem_cons, List.not_mem_nil, or_false] at ht
        rcases ht with rfl | rfl | rfl | rfl | rfl | rfl <;> revert e <;> decide
    have hif : Dict.get? i "ifname" = Dict.get? b "name" := by
      rw [hB.keeps hk (fun s hs => hdot s (by rw [← nm]; exact hs)), nm]
    have pr : Dict.get? i "proto" = ownProto b := by rw [hB.proto, ownProto_congr same]
    unfold isDsa
    rw [hdsa, ty, pr, hif]
    simp only [Bool.true_and, Bool.and_eq_true, decide_eq_true_eq]
    have hsome : ∃ w, Dict.get? b "name" = some w := by
      unfold ifaceBlock at e4
      dsimp only at e4
      obtain ⟨⟨w, d1⟩, q1, _⟩ := bind_ok_iff.1 e4
      obtain ⟨q2, _⟩ := popKey_inv' q1
      rw [Dict.update_cons, Dict.update_cons, Dict.update_nil, Dict.get?_set', if_neg (by decide), Dict.get?_set', if_neg (by decide), nm] at q2
      exact ⟨w, q2⟩
    obtain ⟨w, hw⟩ := hsome
    refine ⟨⟨?_, ht⟩, ?_⟩
    · intro e
      apply hp
      cases hq : ownProto b with
      | none => rw [hq] at e; cases e
      | some x => rw [hq] at e; rw [← e]; rfl
    · rw [hw]
      simp only [Option.getD_some]
      intro hm
      obtain ⟨s, rfl, hs⟩ := hd w hm
      exact hdot s hw hs

/-! ## All interfaces -/

/-- the blocks of the interfaces put into the package: those before the sections as they are, the sections merged by name -/
def emitted (sh : Val → Bool) : List Val → List (List VDict × List VDict) → Except PyErr (List Val)
  | l, [] => .ok l
  | l, (front, secs) :: outs => do
    let l ← secs.foldlM (mergeOne sh) (l ++ front.map .dict)
    emitted sh l outs

theorem ifaces_inv {sh : Val → Bool} {env : Env} {dsa : Bool} {config : VDict} (bs : List VDict)
    (hok : ∀ b ∈ bs, (Dict.keys b).Nodup ∧ AddressesOK (addressList b)) (vlans vlans' : List Val) (result r : VDict) (hd : Dotted vlans)
    (h : (bs.map Val.dict).foldlM (ifaceFwd sh env dsa config) (vlans, result) = .ok (vlans', r)) :
    ∃ outs : List (List VDict × List VDict), List.Forall₂ (fun b o => BlocksOf env dsa config b o.1 o.2) bs outs ∧
      (∀ l, result = netOf l → DistinctNames (l ++ outs.flatMap (fun o => o.1 ++ o.2)) → r = netOf (l ++ outs.flatMap (fun o => o.1 ++ o.2))) ∧
      ∀ l, Holds result l → ∃ l', emitted sh l outs = .ok l' ∧ Holds r l' := by
  induction bs generalizing vlans result with
  | nil =>
    have h1 := Except.ok.inj h
    rw [Prod.mk.injEq] at h1
    exact ⟨[], .nil, fun l hl _ => by rw [← h1.2, hl]; simp, fun l hl => ⟨l, rfl, by rw [← h1.2]; exact hl⟩⟩
  | cons b bs ih =>
    rw [List.map_cons, List.foldlM_cons] at h
    obtain ⟨⟨v1, r1⟩, e1, h1⟩ := bind_ok_iff.1 h
    obtain ⟨q1, q2⟩ := hok b (by simp)
    obtain ⟨front, secs, f1, f2, f3, f4⟩ := ifaceFwd_inv q1 q2 hd e1
    obtain ⟨outs, o1, o2, o3⟩ := ih (fun x hx => hok x (by simp [hx])) v1 r1 f2 h1
    refine ⟨(front, secs) :: outs, .cons f1 o1, ?_, fun l hl => ?_⟩
    rotate_left
    · obtain ⟨l1, m1, m2⟩ := f4 l hl
      obtain ⟨l2, m3, m4⟩ := o3 l1 m2
      exact ⟨l2, bind_ok_iff.2 ⟨l1, m1, m3⟩, m4⟩
    intro l hl hdist
    rw [List.flatMap_cons, ← List.append_assoc] at hdist ⊢
    exact o2 _ (f3 l hl (distinct_left hdist)) hdist

/-- C67. The `network` package for the interfaces of a configuration comes from the blocks `BlocksOf` describes, for each interface in their
order, put together by name; if no two blocks have the same name it is just these blocks. -/
theorem C67_interfaces {sh : Val → Bool} {env : Env} {dsa : Bool} {config r : VDict} {bs : List VDict}
    (hc : Dict.get? config "interfaces" = some (.list (bs.map .dict))) (hok : ∀ b ∈ bs, (Dict.keys b).Nodup ∧ AddressesOK (addressList b))
    (h : ifacesRun sh env dsa config = .ok r) :
    ∃ outs : List (List VDict × List VDict), List.Forall₂ (fun b o => BlocksOf env dsa config b o.1 o.2) bs outs ∧
      (DistinctNames (outs.flatMap (fun o => o.1 ++ o.2)) → r = netOf (outs.flatMap (fun o => o.1 ++ o.2))) ∧
      ∃ l, emitted sh [] outs = .ok l ∧ Holds r l := by
  unfold ifacesRun at h
  rw [hc] at h
  obtain ⟨⟨v, r1⟩, e1, h1⟩ := bind_ok_iff.1 h
  have h2 := pure_ok_iff.1 h1
  subst h2
  obtain ⟨outs, o1, o2, o3⟩ := ifaces_inv bs hok [] v [] r1 (fun v hv => by cases hv) e1
  exact ⟨outs, o1, fun hd => o2 [] rfl hd, o3 [] ⟨rfl, fun k _ => rfl⟩⟩

/-! ## Names -/

theorem uciName_length (s : Chars) : (uciName s).length = s.length := by unfold uciName; simp

theorem showNat_no_us (n : Nat) : '_' ∉ showNat n := showNat_noSep n '_' (by decide)

theorem firstName_other {env : Env} {b : VDict} {n : Nat} : firstName env b (uciOf b) ≠ txt (uciOf b ++ '_' :: showNat n) := by
  have hlen : ∀ (s : String), s.toList.length = (uciOf b).length → Val.str s ≠ txt (uciOf b ++ '_' :: showNat n) := by
    intro s hs e
    unfold txt at e
    have e := Val.str.inj e
    rw [e, String.toList_ofList] at hs
    simp at hs
  unfold firstName
  split
  · unfold orVal
    split
    · next htr =>
      cases hg : Dict.get? b "network" with
      | none => rw [hg] at htr; cases htr
      | some w =>
        rw [hg] at htr
        cases w with
        | str s =>
          apply hlen
          unfold uciOf
          rw [hg]
          simp only [Option.getD_some] at htr ⊢
          rw [if_pos htr]
          exact (uciName_length _).symm
        | none => cases htr
        | bool _ => intro e; cases e
        | int _ => intro e; cases e
        | list _ => intro e; cases e
        | dict _ => intro e; cases e
    · intro e
      unfold txt at e
      have e := congrArg String.toList (Val.str.inj e)
      generalize pyStr env.reprC ((Dict.get? b "vid").getD .none) = vid at e
      generalize uciOf b = u at e
      simp only [String.toList_append, String.toList_ofList] at e
      -- the text after the last `_`
      have hv : "vlan_".toList = ['v', 'l', 'a', 'n', '_'] := by decide
      have hu : "_".toList = ['_'] := by decide
      rw [hv, hu] at e
      by_cases hus : '_' ∈ vid.toList
      · obtain ⟨x, y, hxy, hy⟩ : ∃ x y, vid.toList = x ++ '_' :: y ∧ '_' ∉ y := by
          have : ∀ l : Chars, '_' ∈ l → ∃ x y, l = x ++ '_' :: y ∧ '_' ∉ y := by
            intro l
            induction l with
            | nil => intro h; cases h
            | cons c l ih =>
              intro h
              by_cases hl : '_' ∈ l
              · obtain ⟨x, y, rfl, hy⟩ := ih hl
                exact ⟨c :: x, y, rfl, hy⟩
              · rcases List.mem_cons.1 h with rfl | h
                · exact ⟨[], l, rfl, hl⟩
                · exact absurd h hl
          exact this _ hus
        rw [hxy] at e
        have e2 : (['v', 'l', 'a', 'n', '_'] ++ u ++ ['_'] ++ x) ++ '_' :: y = u ++ '_' :: showNat n := by rw [← e]; simp
        have := (last_sep hy (showNat_no_us n) e2).1
        have := congrArg List.length this
        simp at this
        omega
      · have e2 : (['v', 'l', 'a', 'n', '_'] ++ u) ++ '_' :: vid.toList = u ++ '_' :: showNat n := by rw [← e]; simp
        have := (last_sep hus (showNat_no_us n) e2).1
        have := congrArg List.length this
        simp at this
        omega
  · apply hlen
    rw [String.toList_ofList]

theorem numbered_inj {u : Chars} {m n : Nat} (h : txt (u ++ '_' :: showNat m) = txt (u ++ '_' :: showNat n)) : m = n := by
  unfold txt at h
  have h := congrArg String.toList (Val.str.inj h)
  rw [String.toList_ofList, String.toList_ofList] at h
  exact showNat_inj (last_sep (showNat_no_us m) (showNat_no_us n) h).2

theorem SectionsFrom.key {env : Env} {config b : VDict} {uci : Chars} {n : Nat} {gs secs : List VDict} (h : SectionsFrom env config b uci n gs secs) :
    ∀ x ∈ secs, ∃ m, n ≤ m ∧ nameKey x = .val (if m = 1 then firstName env b uci else txt (uci ++ '_' :: showNat m)) := by
  induction h with
  | nil => intro x hx; cases hx
  | @cons n g sec gs secs h _ ih =>
    intro x hx
    rcases List.mem_cons.1 hx with rfl | hx
    · exact ⟨n, Nat.le_refl _, by unfold nameKey; rw [h.name]; rfl⟩
    · obtain ⟨m, h1, h2⟩ := ih x hx
      exact ⟨m, by omega, h2⟩

theorem SectionsFrom.length {env : Env} {config b : VDict} {uci : Chars} {n : Nat} {gs secs : List VDict} (h : SectionsFrom env config b uci n gs secs) :
    secs.length = gs.length := by
  induction h with
  | nil => rfl
  | cons _ _ ih => simp [ih]

/-- C67. The sections of one interface have different names. -/
theorem C67_names_differ {env : Env} {dsa : Bool} {config b : VDict} {front secs : List VDict} (h : BlocksOf env dsa config b front secs) :
    (secs.map nameKey).Nodup := by
  obtain ⟨b', gs, _, hs⟩ := h.sections
  have gen : ∀ n, 1 ≤ n → ∀ gs secs, SectionsFrom env config b (uciOf b) n gs secs → (secs.map nameKey).Nodup := by
    intro n hn gs secs hs
    induction hs with
    | nil => exact List.nodup_nil
    | @cons n g sec gs secs h hs ih =>
      rw [List.map_cons, List.nodup_cons]
      refine ⟨?_, ih (by omega)⟩
      intro hm
      obtain ⟨x, hx, he⟩ := List.mem_map.1 hm
      obtain ⟨m, h1, h2⟩ := hs.key x hx
      rw [h2, if_neg (by omega : ¬ m = 1)] at he
      have h3 : nameKey sec = .val (if n = 1 then firstName env b (uciOf b) else txt (uciOf b ++ '_' :: showNat n)) := by
        unfold nameKey; rw [h.name]; rfl
      rw [h3] at he
      have he := LKey.val.inj he
      by_cases hn1 : n = 1
      · rw [if_pos hn1] at he; exact firstName_other he.symm
      · rw [if_neg hn1] at he
        have := numbered_inj he
        omega
  exact gen 1 (Nat.le_refl _) _ _ hs

/-- C67. How many sections an interface has: one for its static addresses, one for each DHCP address; one if it has no address and is no
wireless interface. -/
theorem C67_how_many {env : Env} {dsa : Bool} {config b : VDict} {front secs : List VDict} (h : BlocksOf env dsa config b front secs) :
    secs.length = sectionCount b := by
  obtain ⟨b', gs, hg, hs⟩ := h.sections
  rw [hs.length, hg.count]

/-- C74. Every VLAN of a bridge has its `bridge-vlan` section and its logical interface. -/
theorem C74_vlans {sh : Val → Bool} {env : Env} {config r : VDict} {bs : List VDict}
    (hc : Dict.get? config "interfaces" = some (.list (bs.map .dict))) (hok : ∀ b ∈ bs, (Dict.keys b).Nodup ∧ AddressesOK (addressList b))
    (h : ifacesRun sh env true config = .ok r) :
    ∃ outs : List (List VDict × List VDict), (∃ l, emitted sh [] outs = .ok l ∧ Holds r l) ∧
      (DistinctNames (outs.flatMap (fun o => o.1 ++ o.2)) → r = netOf (outs.flatMap (fun o => o.1 ++ o.2))) ∧
      ∀ b ∈ bs, ∀ n, Dict.get? b "type" = some (.str "bridge") → Dict.get? b "proto" ≠ some (.str "ppp") → Dict.get? b "name" = some (.str n) →
        '.' ∉ n.toList → ∀ v ∈ vlansOf b, ∃ o ∈ outs, ∃ x ∈ o.1, ∃ y ∈ o.1,
          VlanBridge env (uciOf b) (deviceName (.str "bridge") (.str n)) v x ∧ VlanIface env (uciOf b) (deviceName (.str "bridge") (.str n)) v y := by
  obtain ⟨outs, o1, o2, o3⟩ := C67_interfaces hc hok h
  refine ⟨outs, o3, o2, ?_⟩
  clear o2 o3
  intro b hb n ht hp hn hdot v hv
  have hfind : ∀ (bs : List VDict) (outs : List (List VDict × List VDict)), List.Forall₂ (fun b o => BlocksOf env true config b o.1 o.2) bs outs →
      ∀ b ∈ bs, ∃ o ∈ outs, BlocksOf env true config b o.1 o.2 := by
    intro bs outs hf
    induction hf with
    | nil => intro b hb; cases hb
    | cons h _ ih =>
      intro b hb
      rcases List.mem_cons.1 hb with rfl | hb
      · exact ⟨_, by simp, h⟩
      · obtain ⟨o, ho, h⟩ := ih b hb
        exact ⟨o, by simp [ho], h⟩
  obtain ⟨o, ho, hB⟩ := hfind _ _ o1 b hb
  have hown : ownProto b = Dict.get? b "proto" := by
    unfold ownProto kindOf
    rw [ht]
    rw [if_neg (by decide), if_neg (by decide), if_neg (by decide)]
  obtain ⟨ds, xs, ys, e, _, _, f1, f2⟩ := hB.new rfl (by rw [ht]; decide) (by rw [hown]; exact hp) (by
    intro s hs; rw [hn] at hs; cases hs; exact hdot)
  rw [ht, hn] at f1 f2
  simp only [Option.getD_some] at f1 f2
  have hin : ∀ (R : VDict → VDict → Prop) (as xs : List VDict), List.Forall₂ R as xs → ∀ a ∈ as, ∃ x ∈ xs, R a x := by
    intro R as xs hf
    induction hf with
    | nil => intro a ha; cases ha
    | cons h _ ih =>
      intro a ha
      rcases List.mem_cons.1 ha with rfl | ha
      · exact ⟨_, by simp, h⟩
      · obtain ⟨o, ho, h⟩ := ih a ha
        exact ⟨o, by simp [ho], h⟩
  obtain ⟨x, hx, rx⟩ := hin _ _ _ f1 v hv
  obtain ⟨y, hy, ry⟩ := hin _ _ _ f2 v hv
  refine ⟨o, ho, x, ?_, y, ?_, rx, ry⟩
  · rw [e]; simp [hx]
  · rw [e]; simp [hy]

end NJ
