import Verif.WholeIfaces
import Verif.PropsRoutes
import Verif.PropsSwitch
import Verif.PropsPeers
import Verif.PropsRadio
import Verif.PropsVpnUci
import Verif.PropsDefault
import Verif.PropsWifiRound
import Verif.OpenWrt

/-!
# The sections of a configuration, each with the blocks it makes and the way back

For each converter of the OpenWrt backend: what it makes of its section whatever the other sections are, and what it makes of its blocks when
they come before the blocks of other converters.
-/

namespace NJ

/-- a list of objects in the configuration; no list is like an empty one -/
def ListIn (config : VDict) (key : String) (l : List VDict) : Prop :=
  Dict.get? config key = none ∧ l = [] ∨ Dict.get? config key = some (.list (l.map .dict))

/-- a package with the given blocks, if there are any -/
def pkgData (pkg : String) (bs : List VDict) : Data := if bs = [] then [] else [(pkg, bs)]

/-- a section with the given objects, if there are any -/
def secData (key : String) (rs : List VDict) : VDict := if rs = [] then [] else [(key, .list (rs.map .dict))]

/-- what a converter does with a configuration -/
def Makes (conv : Conv) (config inter : VDict) (P : Data) : Prop :=
  conv.should config = false ∧ P = [] ∨ conv.should config = true ∧ conv.run config inter = (config, .ok (interOf P))

theorem Forward.of_makes {conv : Conv} {convs : List Conv} {c e : VDict} {acc P : Data} {Ps : List Data} (h : Makes conv c (interOf acc) P)
    (hP : (Dict.keys P).Nodup) (hf : Forward convs c (joinData acc P) Ps e) : Forward (conv :: convs) c acc (P :: Ps) e := by
  rcases h with ⟨h1, rfl⟩ | ⟨h1, h2⟩
  · exact .skip h1 hf
  · exact .run h1 h2 hP hf

theorem pkgData_nodup (pkg : String) (bs : List VDict) : (Dict.keys (pkgData pkg bs)).Nodup := by
  unfold pkgData
  split <;> simp [Dict.keys]

theorem blocksIn_pkgData (pkg : String) (bs : List VDict) (k : String) : blocksIn (pkgData pkg bs) k = if k = pkg then bs else [] := by
  unfold pkgData
  split
  · next e => rw [e]; simp [blocksIn]
  · rw [blocksIn_cons]
    split
    · rfl
    · simp [blocksIn]

theorem secData_nodup (key : String) (rs : List VDict) : (Dict.keys (secData key rs)).Nodup := by
  unfold secData
  split <;> simp [Dict.keys]

theorem get?_secData (key : String) (rs : List VDict) (k : String) : Dict.get? (secData key rs) k = if k = key then listItem (rs.map .dict) else none := by
  unfold secData listItem
  by_cases h : rs = []
  · simp [h]
  · simp [h, Dict.get?_cons, eq_comm]

theorem skip_disjoint {ts us : List String} {b : VDict} (h : skipBlock (some ts) b = false) (hd : ∀ t ∈ ts, t ∉ us) : skipBlock (some us) b = true := by
  unfold skipBlock at h ⊢
  simp only [Bool.or_eq_false_iff, Bool.not_eq_false', List.any_eq_true, beq_iff_eq, Bool.or_eq_true, Bool.not_eq_true'] at h ⊢
  right
  obtain ⟨_, t, ht, e⟩ := h
  rw [List.any_eq_false]
  intro u hu hc
  rw [beq_iff_eq, e] at hc
  injection hc with hc
  injection hc with hc
  exact hd t ht (hc ▸ hu)

theorem plain_read {reprC : Val → String} {b : VDict} (h : PlainBlock b) : blockRead reprC b = blockBack reprC b := blockRead_eq (h.round reprC)

theorem map_plain_read {reprC : Val → String} {bs : List VDict} (h : ∀ b ∈ bs, PlainBlock b) : bs.map (blockRead reprC) = bs.map (blockBack reprC) :=
  List.map_congr_left (fun b hb => plain_read (h b hb))

/-- A section that is a list of objects each of which comes back on its own. -/
theorem list_part (R : VDict → VDict → Prop) (reprC : Val → String) (key pkg : String) (types : Option (List String))
    (floop : Option Nat → Val → VDict → Except PyErr VDict) (bloop : Nat → VDict → VDict → Except PyErr VDict)
    (blk back : Nat → VDict → Except PyErr VDict)
    (hf : ∀ i d r, floop (some i) (.dict d) r = do let b ← blk i d; pure (appendTo r pkg [.dict b]))
    (hb : ∀ i b r, bloop i b r = do let x ← back i b; pure (appendTo r key [.dict x]))
    (config : VDict) (l : List VDict) (hk : ListIn config key l)
    (h : AllIdx (ItemBackTo R reprC types blk back) 1 l) :
    ∃ bs rs, mapIdxM blk 1 l = .ok bs ∧ (∀ inter, Makes (pureConv key (fun config _ => fwd key floop config)) config inter (pkgData pkg bs)) ∧
      (∀ b ∈ bs, PlainBlock b ∧ skipBlock types (blockRead reprC b) = false) ∧
      (∀ copy others, (∀ b ∈ others, skipBlock types b = true) →
        Takes (bwdSimple pkg types bloop) copy pkg (bs.map (blockRead reprC)) others (secData key rs)) ∧
      List.Forall₂ R rs l := by
  obtain ⟨bs, rs, i1, i0, i2, i3, i4⟩ := items_backTo 1 l h
  have hp : ∀ b ∈ bs, PlainBlock b := fun b hb => (i2 b hb).1
  have hlen : bs = [] ↔ l = [] := by rw [← List.length_eq_zero_iff, i0, List.length_eq_zero_iff]
  have hrl : rs = [] ↔ l = [] := by rw [← List.length_eq_zero_iff, i4.length_eq, List.length_eq_zero_iff]
  refine ⟨bs, rs, i1, fun inter => ?_, fun b hb => ⟨hp b hb, by rw [plain_read (hp b hb)]; exact (i2 b hb).2⟩, fun copy others ho => ?_, i4⟩
  · rcases hk with ⟨hk, rfl⟩ | hk
    · left
      refine ⟨by simp [pureConv, Dict.has, hk], ?_⟩
      rw [hlen.2 rfl]; rfl
    · right
      refine ⟨by simp [pureConv, Dict.has, hk], ?_⟩
      show (config, fwd key floop config) = _
      rw [fwd_eq key floop pkg blk hf config l hk, i1]
      show (config, Except.ok _) = _
      unfold pkgData
      by_cases e : bs = []
      · simp [e, interOf]
      · simp [e, interOf]
  · have hsk : ∀ b ∈ bs.map (blockBack reprC), skipBlock types b = false := by
      intro b hb
      obtain ⟨c, hc, rfl⟩ := List.mem_map.1 hb
      exact (i2 c hc).2
    rw [map_plain_read hp]
    refine takes_simple copy hsk ho ?_
    by_cases e : l = []
    · rw [hlen.2 e, hrl.2 e]; rfl
    · have := backFold_section types bloop key back hb (bs.map (blockBack reprC)) rs (by simpa using (fun x => e (hlen.1 x))) hsk i3
      rw [this]
      unfold secData
      rw [if_neg (fun x => e (hrl.1 x))]

/-- Parts of the configuration as lists of objects: LEDs. -/
theorem led_part (env : Env) (config : VDict) (l : List VDict) (hk : ListIn config "led" l) (h : ∀ d ∈ l, LedOK env d) :
    ∃ bs rs, (∀ inter, Makes (ledConv env) config inter (pkgData "system" bs)) ∧
      (∀ b ∈ bs, PlainBlock b ∧ skipBlock (some ["led"]) (blockRead env.reprC b) = false) ∧
      (∀ copy others, (∀ b ∈ others, skipBlock (some ["led"]) b = true) →
        Takes (ledBConv env) copy "system" (bs.map (blockRead env.reprC)) others (secData "led" rs)) ∧ List.Forall₂ SameItems rs l := by
  obtain ⟨bs, rs, _, h1, h2, h3, h4⟩ := list_part SameItems env.reprC "led" "system" (some ["led"]) (ledFwd env) (ledBack env) (fun _ d => ledBlock env d)
    (fun _ b => netjsonLed env b) (fun i d r => rfl) (fun i b r => rfl) config l hk
    (allIdx_of_getElem (fun j d hj => led_item env (1 + j) d (h d (List.mem_of_getElem? hj))))
  exact ⟨bs, rs, h1, h2, h3, h4⟩

theorem routes_part (env : Env) (config : VDict) (l : List VDict) (hk : ListIn config "routes" l)
    (h : ∀ i d, l[i]? = some d → ∃ net, RouteOK env (i + 1) d net) :
    ∃ bs rs, (∀ inter, Makes (routesConv env) config inter (pkgData "network" bs)) ∧
      (∀ b ∈ bs, PlainBlock b ∧ skipBlock (some ["route", "route6"]) (blockRead env.reprC b) = false) ∧
      (∀ copy others, (∀ b ∈ others, skipBlock (some ["route", "route6"]) b = true) →
        Takes (routesBConv env) copy "network" (bs.map (blockRead env.reprC)) others (secData "routes" rs)) ∧ List.Forall₂ SameItems rs l := by
  obtain ⟨bs, rs, _, h1, h2, h3, h4⟩ := list_part SameItems env.reprC "routes" "network" (some ["route", "route6"]) (routeFwd env) (routeBack env)
    (routeBlock env) (netjsonRoute env) (fun i d r => rfl) (fun i b r => rfl) config l hk
    (allIdx_of_getElem (fun j d hj => by
      obtain ⟨net, hnet⟩ := h j d hj
      exact route_item env _ d net (by rw [Nat.add_comm]; exact hnet)))
  exact ⟨bs, rs, h1, h2, h3, h4⟩

theorem rules_part (env : Env) (config : VDict) (l : List VDict) (hk : ListIn config "ip_rules" l)
    (h : ∀ i d, l[i]? = some d → RuleOK env (i + 1) d) :
    ∃ bs rs, (∀ inter, Makes (rulesConv env) config inter (pkgData "network" bs)) ∧
      (∀ b ∈ bs, PlainBlock b ∧ skipBlock (some ["rule", "rule6"]) (blockRead env.reprC b) = false) ∧
      (∀ copy others, (∀ b ∈ others, skipBlock (some ["rule", "rule6"]) b = true) →
        Takes rulesBConv copy "network" (bs.map (blockRead env.reprC)) others (secData "ip_rules" rs)) ∧ List.Forall₂ SameItems rs l := by
  obtain ⟨bs, rs, _, h1, h2, h3, h4⟩ := list_part SameItems env.reprC "ip_rules" "network" (some ["rule", "rule6"]) (ruleFwd env) ruleBack
    (ruleBlock env) netjsonRule (fun i d r => rfl) (fun i b r => rfl) config l hk
    (allIdx_of_getElem (fun j d hj => rule_item env _ d (by rw [Nat.add_comm]; exact h j d hj)))
  exact ⟨bs, rs, h1, h2, h3, h4⟩

/-- a radio and what comes back of it -/
def RadioComesBack (env : Env) (dsa : Bool) (r d : VDict) : Prop :=
  (∀ k, k ≠ "driver" → k ≠ "band" → k ≠ "hwmode" → Dict.get? r k = Dict.get? d k) ∧
    ∃ f p c w, RadioOK env dsa d f p c w ∧ ∀ k, Dict.get? r k = radioReturned dsa d f p c k

theorem radios_part (env : Env) (dsa : Bool) (config : VDict) (l : List VDict) (hk : ListIn config "radios" l)
    (h : ∀ d ∈ l, ∃ f p c w, RadioOK env dsa d f p c w) :
    ∃ bs rs, (∀ inter, Makes (radiosConv env dsa) config inter (pkgData "wireless" bs)) ∧
      (∀ b ∈ bs, PlainBlock b ∧ skipBlock (some ["wifi-device"]) (blockRead env.reprC b) = false) ∧
      (∀ copy others, (∀ b ∈ others, skipBlock (some ["wifi-device"]) b = true) →
        Takes (radiosBConv env dsa) copy "wireless" (bs.map (blockRead env.reprC)) others (secData "radios" rs)) ∧
      List.Forall₂ (RadioComesBack env dsa) rs l := by
  obtain ⟨bs, rs, _, h1, h2, h3, h4⟩ := list_part (RadioComesBack env dsa) env.reprC "radios" "wireless" (some ["wifi-device"]) (radioFwd env dsa)
    (radioBack env dsa) (fun _ d => radioBlock env dsa d) (fun _ b => netjsonRadio env dsa b) (fun i d r => rfl) (fun i b r => rfl) config l hk
    (allIdx_of_getElem (fun j d hj => by
      obtain ⟨f, p, c, w, hd⟩ := h d (List.mem_of_getElem? hj)
      obtain ⟨b, r, b1, b2, b3, b4, b5⟩ := radio_item env dsa d f p c w hd
      refine ⟨b, r, b1, b2, b3, b4, fun k k1 k2 k3 => ?_, f, p, c, w, hd, b5⟩
      rw [b5]
      simp [radioReturned, k1, k2, k3]))
  exact ⟨bs, rs, h1, h2, h3, h4⟩

/-- the type of the section of a peer is of no other converter -/
def isPeerBlock (b : VDict) : Prop := ∃ s, Dict.get? b ".type" = some (txt (wgType s))

theorem peer_foreign {ts : List String} {b : VDict} (h : isPeerBlock b) (ht : ∀ t ∈ ts, ¬ "wireguard_".toList <+: t.toList) : skipBlock (some ts) b = true := by
  obtain ⟨s, hs⟩ := h
  unfold skipBlock
  simp only [Bool.or_eq_true, Bool.not_eq_true']
  right
  rw [List.any_eq_false]
  intro t htm hc
  rw [beq_iff_eq, hs] at hc
  injection hc with hc
  refine ht t htm ?_
  have : t.toList = wgType s := by
    have := txt_inj (a := wgType s) (b := t.toList) (by rw [hc]; simp [txt])
    exact this.symm
  rw [this]
  exact List.prefix_append _ _

theorem peers_part (env : Env) (config : VDict) (l : List VDict) (hk : ListIn config "wireguard_peers" l) (h : ∀ d ∈ l, PeerOK d) :
    ∃ bs rs, (∀ inter, Makes peersConv config inter (pkgData "network" bs)) ∧
      (∀ b ∈ bs, PlainBlock b ∧ isPeerBlock (blockRead env.reprC b)) ∧
      (∀ copy, Takes peersBConv copy "network" (bs.map (blockRead env.reprC)) [] (secData "wireguard_peers" rs)) ∧ List.Forall₂ SameItems rs l := by
  obtain ⟨bs, rs, h0, h1, h2, h3, h4⟩ := list_part SameItems env.reprC "wireguard_peers" "network" none peerFwd peerBack
    peerBlock (fun _ b => netjsonPeer b) (fun i d r => rfl) (fun i b r => rfl) config l hk
    (allIdx_of_getElem (fun j d hj => peer_item _ _ d (h d (List.mem_of_getElem? hj))))
  refine ⟨bs, rs, h1, ?_, fun copy => h3 copy [] (by simp), h4⟩
  have := mapIdxM_forall (R := fun b _ => ∃ s, Dict.get? b ".type" = some (txt (wgType s))) h0 (by
    intro j x y hx hy
    obtain ⟨s, hs, _⟩ := (h x hx).iface
    obtain ⟨b, hb1, _, hb2⟩ := peer_block j x s (h x hx).options.nodup hs
    rw [hy] at hb1
    cases hb1
    refine ⟨s.toList, ?_⟩
    rw [hb2]
    simp [peerItem])
  intro b hb
  obtain ⟨d, _, s, hs⟩ := forall₂_mem this hb
  have hp := (h2 b hb).1
  exact ⟨hp, s, by rw [plain_read hp, get?_blockBack _ hp, if_pos (.inl rfl), hs]⟩

/-- the VPNs -/
theorem vpns_part (env : Env) (config : VDict) (l : List VDict) (hk : ListIn config "openvpn" l) (h : ∀ d ∈ l, UciVpnOK d) :
    ∃ bs rs, (∀ inter, Makes (uciVpnConv env) config inter (pkgData "openvpn" bs)) ∧ (∀ b ∈ bs, PlainBlock b) ∧
      (∀ copy, Takes uciVpnBConv copy "openvpn" (bs.map (blockRead env.reprC)) [] (secData "openvpn" rs)) ∧ List.Forall₂ UciVpnSame rs l := by
  obtain ⟨bs, hbs⟩ : ∃ bs : List VDict, List.Forall₂ (fun c b => uciVpnBlock env c = .ok (b, none) ∧ PlainBlock b ∧
      skipBlock (some ["openvpn"]) (blockBack env.reprC b) = false ∧ ∃ out, uciNetjsonVpn (blockBack env.reprC b) = .ok out ∧ UciVpnSame out c) l bs := by
    apply forall2_of_forall
    intro c hc
    obtain ⟨b, out, h1, h2, h3, h4, h5⟩ := uci_vpn_item env (h c hc)
    exact ⟨b, h1, h2, h3, out, h4, h5⟩
  have hpl : ∀ b ∈ bs, PlainBlock b ∧ skipBlock (some ["openvpn"]) (blockBack env.reprC b) = false := by
    clear hk h
    induction hbs with
    | nil => simp
    | cons h1 _ ih =>
      intro b hb
      rcases List.mem_cons.1 hb with rfl | hb
      · exact ⟨h1.2.1, h1.2.2.1⟩
      · exact ih b hb
  obtain ⟨outs, h1, h2⟩ : ∃ outs : List VDict, List.Forall₂ (fun r o => uciNetjsonVpn r = .ok o) (bs.map (blockBack env.reprC)) outs ∧ List.Forall₂ UciVpnSame outs l := by
    clear hk h hpl
    induction hbs with
    | nil => exact ⟨[], .nil, .nil⟩
    | cons h1 _ ih =>
      obtain ⟨outs, i1, i2⟩ := ih
      obtain ⟨o, j1, j2⟩ := h1.2.2.2
      exact ⟨o :: outs, .cons j1 i1, .cons j2 i2⟩
  have hp : ∀ b ∈ bs, PlainBlock b := fun b hb => (hpl b hb).1
  have hlen : bs = [] ↔ l = [] := by rw [← List.length_eq_zero_iff, ← hbs.length_eq, List.length_eq_zero_iff]
  have hrl : outs = [] ↔ l = [] := by rw [← List.length_eq_zero_iff, h2.length_eq, List.length_eq_zero_iff]
  refine ⟨bs, outs, fun inter => ?_, hp, fun copy => ?_, h2⟩
  · rcases hk with ⟨hk, rfl⟩ | hk
    · left
      refine ⟨by simp [uciVpnConv, vpnConv, Dict.has, hk], ?_⟩
      rw [hlen.2 rfl]; rfl
    · right
      refine ⟨by simp [uciVpnConv, vpnConv, Dict.has, hk], ?_⟩
      show vpnRun (uciVpnBlock env) config inter = _
      unfold vpnRun
      rw [hk]
      simp only [Option.getD_some]
      rw [vpnBlocks_none config (hbs.imp (fun _ _ h => h.1))]
      unfold pkgData
      cases bs with
      | nil => rfl
      | cons => rfl
  · have hsk : ∀ b ∈ bs.map (blockBack env.reprC), skipBlock (some ["openvpn"]) b = false := by
      intro b hb
      obtain ⟨c, hc, rfl⟩ := List.mem_map.1 hb
      exact (hpl c hc).2
    rw [map_plain_read hp]
    refine takes_simple copy hsk (by simp) ?_
    by_cases e : l = []
    · rw [hlen.2 e, hrl.2 e]; rfl
    · rw [backFold_section (some ["openvpn"]) (vpnBack uciNetjsonVpn) "openvpn" (fun _ => uciNetjsonVpn) (fun _ _ _ => rfl)
        (bs.map (blockBack env.reprC)) outs (by simpa using (fun x => e (hlen.1 x))) hsk (mapIdxM_const 1 h1)]
      unfold secData
      rw [if_neg (fun x => e (hrl.1 x))]

end NJ
