import Verif.SchemaOw
import Verif.SchemaSpec

/-!
# C66: a valid configuration is rendered without an internal error

`validate` accepts more than `render` can deal with. `Tame` lists what has to be added to the schema, clause by clause; `C66_render` proves
that nothing else is missing: a configuration that is valid and tame is rendered, or refused by `ValidationError` (two parts of it that
cannot be merged), and no other error comes out. `PropsValidNeeds.lean` shows for each clause that it cannot be left out.
-/

namespace NJ

/-- said of each object in the list under that key -/
def Each (d : VDict) (k : String) (P : VDict → Prop) : Prop := ∀ l x, Dict.get? d k = some (.list l) → Val.dict x ∈ l → P x

/-- said of the object under that key -/
def Inside (d : VDict) (k : String) (P : VDict → Prop) : Prop := ∀ x, Dict.get? d k = some (.dict x) → P x

/-- what the schema leaves open about an encryption -/
structure EncTame (e : VDict) : Prop where
  name : Dict.has e ".name" = false
  network : Dict.has e "network" = false

/-- what the schema leaves open about a `wireless` object -/
structure WifiTame (w : VDict) : Prop where
  id : Opt w "id" IsTxt
  monitor : Dict.get? w "mode" = some (.str "monitor") → Dict.has w "encryption" = false
  encryption : Inside w "encryption" EncTame

/-- what the schema leaves open about an address -/
structure AddrTame (a : VDict) : Prop where
  /-- no mask of an IPv4 address above 32 -/
  mask : Dict.get? a "family" = some (.str "ipv4") → ∀ n, Dict.get? a "mask" = some (.int n) → n ≤ 32
  ipaddr : Dict.has a "ipaddr" = false
  ip6addr : Dict.has a "ip6addr" = false
  name : Dict.has a ".name" = false

/-- what the schema leaves open about an interface -/
structure IfaceTame (d : VDict) : Prop where
  /-- WireGuard interfaces have addresses -/
  wireguard : Dict.get? d "type" = some (.str "wireguard") → Dict.has d "addresses" = true
  /-- modem and VXLAN interfaces have none -/
  free : ∀ t, Dict.get? d "type" = some (.str t) → t = "modem-manager" ∨ t = "vxlan" → Dict.has d "addresses" = false
  addresses : Dict.get? d "type" ≠ some (.str "wireguard") → Each d "addresses" AddrTame
  /-- VLAN filtering is for bridges, and names VLANs -/
  filtering : Dict.has d "vlan_filtering" = true → Dict.get? d "type" = some (.str "bridge")
  vlan : Each d "vlan_filtering" fun x => Dict.has x "vlan" = true
  /-- no dot in the name of a bridge -/
  bridge : Dict.get? d "type" = some (.str "bridge") → ∀ s, Dict.get? d "name" = some (.str s) → '.' ∉ s.toList
  /-- Wi-Fi settings are for Wi-Fi interfaces -/
  wifi : Dict.has d "wireless" = true → Dict.get? d "type" = some (.str "wireless")
  wireless : Inside d "wireless" WifiTame

/-- what the schema leaves open about a configuration -/
structure Tame (ip6 : Ip6) (config : VDict) : Prop where
  /-- names of sections are texts -/
  general : Inside config "general" fun d => Opt d "id" IsTxt ∧ Opt d "globals_id" IsTxt
  ntp : Inside config "ntp" fun d => Opt d "id" IsTxt
  led : Each config "led" fun d => Opt d "id" IsTxt
  switch : Each config "switch" fun d => Opt d "id" IsTxt ∧ Each d "vlan" fun v => Opt v "id" IsTxt
  routes : Each config "routes" fun d => Opt d "name" IsTxt
  rules : Each config "ip_rules" fun d => Opt d "name" IsTxt
  /-- destinations of routes are networks -/
  destination : Each config "routes" fun d => ∀ s, Dict.get? d "destination" = some (.str s) → (ipInterface ip6 s.toList).isSome = true
  interfaces : Each config "interfaces" IfaceTame
  /-- OpenVPN servers have no remotes -/
  openvpn : Each config "openvpn" fun d => Dict.get? d "mode" = some (.str "server") → Dict.has d "remote" = false
  /-- sections of custom packages have texts as names -/
  custom : ∀ k, k ∉ knownKeys → Each config k fun d => Dict.has d "config_name" = true → Opt d "config_value" IsTxt

/-! ## Valid and tame configurations are fit for the converters -/

section
variable {ip6 : Ip6} {config : VDict}

theorem wf_dict {d : VDict} {k : String} {x : VDict} (h : (Val.dict d).WF) (hk : Dict.get? d k = some (.dict x)) : (Val.dict x).WF := h.of_get? hk

theorem wf_each {d : VDict} {k : String} {l : List Val} {x : Val} (h : (Val.dict d).WF) (hk : Dict.get? d k = some (.list l)) (hx : x ∈ l) : x.WF := by
  have := h.of_get? hk
  cases this with
  | list _ hl => exact hl x hx

theorem wf_nodup {d : VDict} (h : (Val.dict d).WF) : (Dict.keys d).Nodup := by
  cases h with
  | dict _ hn _ => exact hn

theorem has_of_get {d : VDict} {k : String} {v : Val} (h : Dict.get? d k = some v) : Dict.has d k = true := by
  unfold Dict.has
  rw [h]
  rfl

theorem lacks_of {d : VDict} {k : String} (h : Dict.has d k = false) : Lacks d k := by
  unfold Lacks
  cases hg : Dict.get? d k with
  | none => rfl
  | some v => rw [has_of_get hg] at h; cases h

/-- from a list of valid objects to a list of fit objects -/
theorem opt_objects {k : String} {P Q : VDict → Prop} (hw : (Val.dict config).WF) (h : Opt config k (IsLst (IsObj P)))
    (hQ : ∀ l d, Dict.get? config k = some (.list l) → Val.dict d ∈ l → (Val.dict d).WF → P d → Q d) : Opt config k (IsLst (IsObj Q)) := by
  intro v hv
  obtain ⟨l, rfl, hl⟩ := h v hv
  refine ⟨l, rfl, fun x hx => ?_⟩
  obtain ⟨d, rfl, hd⟩ := hl x hx
  exact ⟨d, rfl, hQ l d hv hx (wf_each hw hv hx) hd⟩

theorem cidr_net {v : Val} (h : (Fact.and (.isType "string") (.format "cidr")).Holds ip6 v) : ∃ s, v = .str s ∧ (ipNetwork ip6 s.toList).isSome = true := by
  obtain ⟨s, rfl⟩ := holds_txt h.1
  exact ⟨s, rfl, h.2⟩

theorem key_txt {d : VDict} {k : String} (h : (Fact.has k).Holds ip6 (.dict d)) (h' : (Fact.at k (.isType "string")).Holds ip6 (.dict d)) :
    Key d k IsTxt := key_of (holds_has h) (opt_mono (holds_at h') fun _ => holds_txt)

theorem general_fit {env : Env} (hz : ∀ z ∈ timezones.map (·.1), (env.tz z).isSome = true) (hw : (Val.dict config).WF) (hv : OwFacts ip6 config)
    (ht : Tame ip6 config) : Opt config "general" (IsObj (GeneralFit env)) := by
  intro v hg
  obtain ⟨d, rfl, hd⟩ := holds_obj (holds_at hv.general v hg)
  refine ⟨d, rfl, wf_nodup (wf_dict hw hg), (ht.general d hg).1, (ht.general d hg).2, ?_⟩
  intro z hz'
  obtain ⟨s, hs, rfl⟩ := holds_at hd z hz'
  exact ⟨s, rfl, hz s hs⟩

theorem ntp_fit (hw : (Val.dict config).WF) (hv : OwFacts ip6 config) (ht : Tame ip6 config) : Opt config "ntp" (IsObj NtpFit) := by
  intro v hg
  obtain ⟨d, rfl, hd⟩ := holds_obj (holds_at hv.ntp v hg)
  exact ⟨d, rfl, wf_nodup (wf_dict hw hg), ht.ntp d hg⟩

theorem led_fit (hw : (Val.dict config).WF) (hv : OwFacts ip6 config) (ht : Tame ip6 config) : Opt config "led" (IsLst (IsObj LedFit)) :=
  opt_objects hw (holds_objects hv.led) fun l d hg hm hd h => ⟨wf_nodup hd, ht.led l d hg hm, key_txt h.1 h.2⟩

theorem routes_fit {env : Env} (he : env.ip6 = ip6) (hw : (Val.dict config).WF) (hv : OwFacts ip6 config) (ht : Tame ip6 config) :
    Opt config "routes" (IsLst (IsObj (RouteFit env))) := by
  refine opt_objects hw (holds_objects hv.routes) fun l d hg hm hd h => ?_
  obtain ⟨h1, h2, h3, h4, h5⟩ := h
  refine ⟨wf_nodup hd, ht.routes l d hg hm, holds_key h2, holds_key h3, holds_key h4, ?_⟩
  obtain ⟨v, hv, s, rfl⟩ := key_txt h1 h5
  exact ⟨_, hv, s, rfl, by rw [he]; exact ht.destination l d hg hm s hv⟩

theorem rules_fit {env : Env} (he : env.ip6 = ip6) (hw : (Val.dict config).WF) (hv : OwFacts ip6 config) (ht : Tame ip6 config) :
    Opt config "ip_rules" (IsLst (IsObj (RuleFit env))) := by
  refine opt_objects hw (holds_objects hv.rules) fun l d hg hm hd h => ?_
  refine ⟨wf_nodup hd, ht.rules l d hg hm, opt_mono (holds_at h.1) fun v hv => ?_, opt_mono (holds_at h.2) fun v hv => ?_⟩
  · rw [he]; exact cidr_net hv
  · rw [he]; exact cidr_net hv

theorem switch_fit (hw : (Val.dict config).WF) (hv : OwFacts ip6 config) (ht : Tame ip6 config) : Opt config "switch" (IsLst (IsObj SwitchFit)) := by
  refine opt_objects hw (holds_objects hv.switch) fun l d hg hm hd h => ?_
  obtain ⟨h1, h2, h3, h4⟩ := h
  refine ⟨wf_nodup hd, (ht.switch l d hg hm).1, key_txt h1 h2, key_of (holds_has h3) ?_⟩
  exact opt_objects hd (holds_objects h4) fun l' x hg' hm' hx h' => ⟨wf_nodup hx, (ht.switch l d hg hm).2 l' x hg' hm', holds_key h'⟩

theorem radios_fit (hw : (Val.dict config).WF) (hv : OwFacts ip6 config) : Opt config "radios" (IsLst (IsObj RadioFit)) := by
  refine opt_objects hw (holds_objects hv.radios) fun l d hg hm hd h => ?_
  obtain ⟨h1, h2, h3, h4, h5, h6, h7⟩ := h
  exact ⟨wf_nodup hd, key_txt h1 h2, holds_key h3, key_of (holds_has h4) (opt_mono (holds_at h5) fun _ => holds_int), holds_key h6,
    opt_mono (holds_at h7) fun _ => holds_txt⟩

theorem peers_fit (hw : (Val.dict config).WF) (hv : OwFacts ip6 config) : Opt config "wireguard_peers" (IsLst (IsObj PeerFit)) :=
  opt_objects hw (holds_objects hv.peers) fun l d hg hm hd h => ⟨wf_nodup hd, key_txt h.1 h.2⟩

theorem zt_fit (hw : (Val.dict config).WF) (hv : OwFacts ip6 config) : Opt config "zerotier" (IsLst (IsObj ZtFit)) := by
  refine opt_objects hw (holds_objects hv.zt) fun l d hg hm hd h => ?_
  obtain ⟨h1, h2, h3, h4⟩ := h
  refine ⟨wf_nodup hd, key_txt h1 h2, key_of (holds_has h3) ?_⟩
  exact opt_objects hd (holds_objects h4) fun l' x hg' hm' hx h' => ⟨wf_nodup hx, key_txt h'.1 h'.2⟩

/-- three characters or more that are octal digits, or end in a line break: an octal number -/
theorem parseOct_pattern {s : Chars} (h : patternOk "^[0-7]*$" s = true) (hl : 3 ≤ s.length) : ∃ n, parseOct s = .ok n := by
  have h : (Rx.seq (.star (.chr (fun c => '0' ≤ c && c ≤ '7'))) .atEnd).Matches s := by
    rw [← Rx.run_iff]
    exact h
  have hstar : ∀ (r : Rx) (a : Chars), r.Matches a → r = .star (.chr (fun c => '0' ≤ c && c ≤ '7')) → ∀ c ∈ a, '0' ≤ c ∧ c ≤ '7' := by
    intro r a h
    induction h with
    | none => intro _ c hc; cases hc
    | more r s t hs ht _ ih =>
      intro e c hc
      cases e
      rcases List.mem_append.1 hc with hc | hc
      · cases hs with
        | chr _ c' h' => rw [List.mem_singleton] at hc; subst hc; simpa using h'
      · exact ih rfl c hc
    | _ => intro e; cases e
  cases h with
  | seq _ _ a b ha hb =>
    have ha := hstar _ _ ha rfl
    have hb : b = [] ∨ b = ['\n'] := by
      cases hb with
      | left _ _ _ h => cases h; exact .inl rfl
      | right _ _ _ h =>
        cases h with
        | chr _ c h' => right; rw [show c = '\n' from eq_of_beq h']
    have hdig : ∀ c ∈ a, 48 ≤ c.toNat ∧ c.toNat ≤ 55 := fun c hc => ha c hc
    have hst : strip (a ++ b) = a := by
      have h0 : strip a = a := strip_of_no_space fun c hc => by
        have := hdig c hc
        unfold isSpace
        simp only [Bool.or_eq_false_iff, Bool.and_eq_false_iff, beq_eq_false_iff_ne, decide_eq_false_iff_not]
        omega
      rcases hb with rfl | rfl
      · rw [List.append_nil, h0]
      · have := strip_append_breaks a 1
        rw [h0] at this
        exact this
    have hne : a ≠ [] := by
      rintro rfl
      rcases hb with rfl | rfl <;> simp at hl
    have hdrop : dropOctPrefix a = a := by
      unfold dropOctPrefix
      split
      · exact absurd (hdig 'o' (by simp)) (by decide)
      · exact absurd (hdig 'O' (by simp)) (by decide)
      · rfl
    have hoct : ∀ (l : Chars) (n : Nat), (∀ c ∈ l, 48 ≤ c.toNat ∧ c.toNat ≤ 55) → ∃ m, octDigits n l = some m := by
      intro l
      induction l with
      | nil => intro n _; exact ⟨n, rfl⟩
      | cons c l ih =>
        intro n h
        have hc := h c List.mem_cons_self
        obtain ⟨m, hm⟩ := ih (n * 8 + (c.toNat - 48)) fun x hx => h x (List.mem_cons_of_mem _ hx)
        exact ⟨m, by unfold octDigits octDigit?; simp [hc, hm]⟩
    obtain ⟨n, hn⟩ := hoct a 0 hdig
    refine ⟨n, ?_⟩
    unfold parseOct
    rw [hst, hdrop]
    cases a with
    | nil => exact absurd rfl hne
    | cons c l => dsimp only; rw [hn]

/-- files that satisfy the schema -/
theorem files_of_fact (hw : (Val.dict config).WF) (h : filesFact.Holds ip6 (.dict config)) : FilesFit config := by
  refine opt_objects hw (holds_objects h) fun l d hg hm hd h => ?_
  obtain ⟨h1, h2, h3, h4, h5⟩ := h
  refine ⟨key_txt h1 h2, key_txt h3 h4, opt_mono (holds_at h5) fun v hv => ?_⟩
  obtain ⟨s, rfl⟩ := holds_txt hv.1
  exact ⟨s, rfl, parseOct_pattern (hv.2.1 s rfl) (hv.2.2 s rfl)⟩

theorem files_fit (hw : (Val.dict config).WF) (hv : OwFacts ip6 config) : FilesFit config := files_of_fact hw hv.files

theorem texts_fit {k : String} (h : (Fact.at k (.and (.isType "array") (.each (.isType "string")))).Holds ip6 (.dict config)) :
    Opt config k (IsLst IsTxt) := by
  refine opt_mono (holds_at h) fun v hv => ?_
  obtain ⟨l, rfl, hl⟩ := holds_lst hv
  exact ⟨l, rfl, fun x hx => holds_txt (hl x hx)⟩

theorem vpn_fit (hw : (Val.dict config).WF) (hv : OwFacts ip6 config) (ht : Tame ip6 config) : Opt config "openvpn" (IsLst (IsObj VpnFit)) := by
  refine opt_objects hw (holds_objects hv.vpn) fun l d hg hm hd h => ?_
  obtain ⟨h1, h2, h3, h4, h5, h6, h7⟩ := h
  have hone {f : Fact} {g : Fact} {x : Val} (h : (Fact.and f g).Holds ip6 x) : f.Holds ip6 x ∧ g.Holds ip6 x := h
  refine ⟨wf_nodup hd, ?_, ?_, ?_, opt_mono (holds_at h4) fun _ => holds_txt, opt_mono (holds_at h5) fun _ => holds_txt⟩
  · refine key_of (holds_has h1) (opt_mono (holds_at h2) fun v hv => ?_)
    obtain ⟨s, rfl⟩ := holds_txt hv.1
    refine ⟨s, rfl, fun e => ?_⟩
    have := hv.2 s rfl
    rw [e] at this
    exact absurd this (by decide)
  · rcases h7 with h7 | h7
    · obtain ⟨m, hm', -⟩ := holds_key h6
      obtain ⟨s, hs, e⟩ := holds_at h7 m hm'
      rw [List.mem_singleton] at hs
      subst hs e
      have := lacks_of (ht.openvpn l d hg hm hm')
      intro v hv
      rw [this] at hv
      cases hv
    · exact opt_objects hd (holds_objects h7) fun l' x _ _ _ h' => ⟨holds_key h'.1, holds_key h'.2⟩
  · exact opt_objects hd (holds_objects h3) fun l' x _ _ _ h' => ⟨holds_key h'.1, holds_key h'.2⟩

theorem customs_fit (hw : (Val.dict config).WF) (ht : Tame ip6 config) : CustomsFit knownKeys config := by
  intro k l hm hk v hv d hd
  subst hd
  have hg := Dict.get?_of_mem (wf_nodup hw) hm
  exact ⟨wf_nodup (wf_each hw hg hv), ht.custom k hk l d hg hv⟩

/-! ### interfaces -/

theorem iface_in {d : VDict} {t : String} (hd : (Val.dict d).WF) (ht : IfaceTame d) (h1 : ifaceFact.Holds ip6 (.dict d))
    (h2 : ifaceTypeFact.Holds ip6 (.dict d)) (e : Dict.get? d "type" = some (.str t)) : IfaceIn t d := by
  obtain ⟨a1, a2, -, -, a5⟩ := h1
  obtain ⟨b1, b2, b3, b4, b5⟩ := h2
  have same {s : String} (h : t = s) : Dict.get? d "type" = some (.str s) := h ▸ e
  refine ⟨wf_nodup hd, e, opt_mono (holds_at a5) fun _ => holds_txt, ?_, ?_, ?_, ?_, ?_, ?_⟩
  · obtain ⟨v, hv, s, rfl⟩ := key_txt a1 a2
    exact ⟨_, hv, s, rfl, fun hb => ht.bridge (same hb) s hv⟩
  · intro hb
    have h := holds_otherwise b4 (same hb) (by decide)
    exact key_of (holds_has h.1) (texts_fit h.2)
  · intro v hv
    have hb := ht.filtering (has_of_get hv)
    have hbt : t = "bridge" := by rw [e] at hb; exact Val.str.inj (Option.some.inj hb)
    refine ⟨hbt, ?_⟩
    have h := holds_otherwise b5 hb (by decide)
    exact opt_objects hd (holds_objects h) (fun l x hg hm hx h' => ⟨key_of (ht.vlan l x hg hm) fun _ _ => trivial,
      opt_objects hx (holds_objects h') fun _ y _ _ _ hy => holds_key hy⟩) v hv
  · rintro (h | h)
    · exact holds_key (holds_otherwise b2 (same h) (by decide))
    · exact holds_key (holds_otherwise b3 (same h) (by decide))
  · intro h
    exact holds_key (holds_otherwise b1 (same h) (by decide)).1
  · intro h
    exact holds_key (holds_otherwise b1 (same h) (by decide)).2

/-- a static address satisfies the statement -/
theorem static_of {d : VDict} {t : String} {f : Fact} (h : (staticFact f).Holds ip6 (.dict d)) (e : Dict.get? d "type" = some (.str t))
    (hn : t ∉ ["wireguard", "modem-manager", "vxlan"]) {l : List Val} {a : VDict} (hg : Dict.get? d "addresses" = some (.list l)) (ha : Val.dict a ∈ l)
    {p : Val} (hp : Dict.get? a "proto" = some p) (hd : p ≠ .str "dhcp") : f.Holds ip6 (.dict a) := by
  obtain ⟨l', e', hl⟩ := holds_objects (holds_otherwise h e hn) _ hg
  cases e'
  obtain ⟨a', e', h'⟩ := hl _ ha
  cases e'
  rcases h' with h' | h'
  · obtain ⟨s, hs, e'⟩ := holds_at h' p hp
    rw [List.mem_singleton] at hs
    subst hs
    exact absurd e' hd
  · exact h'

theorem iface_addrs {d : VDict} {t : String} (hd : (Val.dict d).WF) (ht : IfaceTame d) (h : ifaceAddrFact.Holds ip6 (.dict d))
    (e : Dict.get? d "type" = some (.str t)) : AddrsFit t d := by
  obtain ⟨b1, b2, b3, b4, b5, b6, b7⟩ := h
  unfold AddrsFit
  split
  · rename_i hw
    subst hw
    exact key_of (ht.wireguard e) (opt_objects hd (holds_objects (holds_otherwise b1 e (by decide))) fun _ a _ _ _ h => holds_key h)
  · rename_i hw
    by_cases hf : t = "modem-manager" ∨ t = "vxlan"
    · intro v hv
      have := lacks_of (ht.free t e hf)
      rw [this] at hv
      cases hv
    · have hn : t ∉ ["wireguard", "modem-manager", "vxlan"] := by
        simp only [List.mem_cons, List.not_mem_nil, or_false]
        tauto
      refine opt_mono (P := IsLst (IsObj AddrFit)) ?_ fun v hv _ => hv
      refine opt_objects hd (holds_objects (holds_otherwise b2 e hn)) fun l a hg hm ha h => ?_
      have hta := ht.addresses (by rw [e]; intro h; exact hw (Val.str.inj (Option.some.inj h))) l a hg hm
      obtain ⟨p, hp, -⟩ := holds_key h
      refine ⟨wf_nodup ha, ⟨p, hp, trivial⟩, ?_, lacks_of hta.ipaddr, lacks_of hta.ip6addr, lacks_of hta.name⟩
      by_cases hpd : p = .str "dhcp"
      · left; rw [hp, hpd]
      · right
        have g3 := static_of b3 e hn hg hm hp hpd
        have g4 := static_of b4 e hn hg hm hp hpd
        have g5 := static_of b5 e hn hg hm hp hpd
        have g6 := static_of b6 e hn hg hm hp hpd
        have g7 := static_of b7 e hn hg hm hp hpd
        refine ⟨holds_key g3.1, holds_key g3.2, fun hfam => ?_⟩
        obtain ⟨v, hv, s, rfl⟩ := key_txt g3.1 g4
        obtain ⟨m, hmk, -⟩ := holds_key g3.2
        obtain ⟨n, rfl⟩ := holds_int (holds_at g5 m hmk)
        refine ⟨s, n, hv, ?_, hmk, holds_at g6 _ hmk n rfl, hta.mask hfam n hmk⟩
        rcases g7 with g7 | g7
        · obtain ⟨x, hx, e'⟩ := holds_at g7 _ hfam
          rw [List.mem_singleton] at hx
          subst hx
          exact absurd (Val.str.inj e') (by decide)
        · have := holds_at g7 _ hv
          exact this

theorem types_uci : ∀ t ∈ allTypes, uciName t.toList ≠ "8021_vlan".toList := by decide +kernel

theorem modes_known : ∀ m ∈ wifiModeNames, (Dict.get? wifiModes m).isSome = true := by decide
theorem modes_ap : ∀ m ∈ wifiModeNames, Dict.get? wifiModes m = some "ap" → m ∉ ["monitor", "station", "adhoc", "802.11s"] := by decide
theorem noWep_wep : ∀ p ∈ noWep, startsWith "wep" p = false := by decide
theorem open_enterprise : ∀ p ∈ openProtocols, isEnterprise p.toList = false := by decide

/-- not one of those modes -/
theorem holds_mode {w : VDict} {ms : List String} {f : Fact} {m : String} (h : (Fact.or (.at "mode" (.among ms)) f).Holds ip6 (.dict w))
    (e : Dict.get? w "mode" = some (.str m)) (hn : m ∉ ms) : f.Holds ip6 (.dict w) := by
  rcases h with h | h
  · obtain ⟨s, hs, e'⟩ := holds_at h _ e
    cases e'
    exact absurd hs hn
  · exact h

theorem iface_wireless {d : VDict} (hd : (Val.dict d).WF) (ht : IfaceTame d) (h1 : ifaceFact.Holds ip6 (.dict d)) (h2 : wifiFact.Holds ip6 (.dict d))
    (h3 : encFact.Holds ip6 (.dict d)) : WirelessFit d := by
  refine ⟨key_txt h1.1 h1.2.1, fun v hv => ?_⟩
  have e := ht.wifi (has_of_get hv)
  obtain ⟨w, rfl, c1, c2, c3, c4, c5, c6⟩ := holds_obj (holds_at (holds_otherwise h2.1 e (by decide)) v hv)
  have c7 := holds_at (holds_otherwise h2.2 e (by decide)) _ hv
  obtain ⟨w', e', d1, d2⟩ := holds_obj (holds_at (holds_otherwise h3 e (by decide)) _ hv)
  cases e'
  have hw := wf_dict hd hv
  have htw := ht.wireless w hv
  have ints {k : String} (h : (Fact.at k (.isType "integer")).Holds ip6 (.dict w)) : Opt w k fun v => ∃ i, v = .int i :=
    opt_mono (holds_at h) fun _ => holds_int
  refine ⟨w, rfl, wf_nodup hw, htw.id, holds_key c1, ?_, ints c4, ints c5, ints c6, texts_fit c7⟩
  obtain ⟨mv, hmv, -⟩ := holds_key c2
  obtain ⟨m, hm, rfl⟩ := holds_at c3 mv hmv
  cases hmm : Dict.get? wifiModes m with
  | none => have := modes_known m hm; rw [hmm] at this; cases this
  | some m' =>
    refine ⟨_, hmv, m, m', rfl, hmm, fun ev hev => ?_⟩
    have hnm : m ∉ ["monitor"] := by
      intro hx
      rw [List.mem_singleton] at hx
      subst hx
      have := lacks_of (htw.monitor hmv)
      rw [this] at hev
      cases hev
    obtain ⟨enc, rfl, f1, f2, f3⟩ := holds_obj (holds_at (holds_mode d1 hmv hnm) ev hev)
    have hte := htw.encryption enc hev
    refine ⟨enc, rfl, wf_nodup (wf_dict hw hev), ?_, lacks_of hte.name, lacks_of hte.network⟩
    obtain ⟨pv, hpv, p, rfl⟩ := key_txt f1 f2
    refine ⟨_, hpv, p, rfl, fun hwep => ?_, fun hap hent => ?_⟩
    · rcases f3 with f3 | f3
      · obtain ⟨q, hq, eq⟩ := holds_at f3 _ hpv
        cases eq
        rw [noWep_wep p hq] at hwep
        cases hwep
      · exact holds_has f3
    · subst hap
      obtain ⟨enc', e', g⟩ := holds_obj (holds_at (holds_mode d2 hmv (modes_ap m hm hmm)) _ hev)
      cases e'
      rcases g with g | g
      · obtain ⟨q, hq, eq⟩ := holds_at g _ hpv
        cases eq
        rw [open_enterprise p hq] at hent
        cases hent
      · exact holds_has g

theorem ifaces_fit (hw : (Val.dict config).WF) (hv : OwFacts ip6 config) (ht : Tame ip6 config) :
    Opt config "interfaces" (IsLst (IsObj fun d => IfaceFit d ∧ WirelessFit d)) := by
  refine opt_objects hw (holds_objects hv.iface) fun l d hg hm hd h1 => ?_
  have hti := ht.interfaces l d hg hm
  have get {f : Fact} (h : (Fact.objects "interfaces" f).Holds ip6 (.dict config)) : f.Holds ip6 (.dict d) := by
    obtain ⟨l', e, hl⟩ := holds_objects h _ hg
    cases e
    obtain ⟨d', e, h'⟩ := hl _ hm
    cases e
    exact h'
  obtain ⟨tv, htv, -⟩ := holds_key h1.2.2.1
  obtain ⟨t, htm, rfl⟩ := holds_at h1.2.2.2.1 tv htv
  exact ⟨⟨t, iface_in hd hti h1 (get hv.ifaceType) htv, iface_addrs hd hti (get hv.ifaceAddr) htv, types_uci t htm⟩,
    iface_wireless hd hti h1 (get hv.wifi) (get hv.enc)⟩

end

theorem config_fit {env : Env} {config : VDict} (hz : ∀ z ∈ timezones.map (·.1), (env.tz z).isSome = true) (hw : (Val.dict config).WF)
    (hv : OwFacts env.ip6 config) (ht : Tame env.ip6 config) : ConfigFit env config where
  general := general_fit hz hw hv ht
  ntp := ntp_fit hw hv ht
  led := led_fit hw hv ht
  ifaces := ifaces_fit hw hv ht
  dnsServers := texts_fit hv.dns.1
  dnsSearch := texts_fit hv.dns.2
  routes := routes_fit rfl hw hv ht
  rules := rules_fit rfl hw hv ht
  switch := switch_fit hw hv ht
  radios := radios_fit hw hv
  openvpn := vpn_fit hw hv ht
  peers := peers_fit hw hv
  zerotier := zt_fit hw hv
  files := files_fit hw hv
  customs := customs_fit hw ht

/-! ## C66 -/

/-- the schema is part of what `validate` checks -/
theorem ow_valid {env : Env} {sh : Val → Bool} {loads : Chars → Option Val} {dsa : Bool} {config : VDict}
    (hv : validate (openwrtClass env (owValidate env.ip6) sh loads dsa) config = .ok ()) : OwFacts env.ip6 config := by
  refine .of_valid ?_
  unfold validate at hv
  obtain ⟨_, _, h1⟩ := bind_ok_iff.1 hv
  obtain ⟨_, h2, _⟩ := bind_ok_iff.1 h1
  change owValidate env.ip6 config = .ok _ at h2
  unfold owValidate at h2
  split at h2
  · assumption
  · cases h2

/-- **C66**: `render` of a valid configuration (which is also `Tame`), with or without the files section, for both network syntaxes, gives
a text or raises `ValidationError`; never `KeyError`, `TypeError`, `ValueError`, `AttributeError` or another error. -/
theorem C66_render (env : Env) (sh : Val → Bool) (loads : Chars → Option Val) (dsa files : Bool) (config : VDict)
    (hz : ∀ z ∈ timezones.map (·.1), (env.tz z).isSome = true) (hw : (Val.dict config).WF)
    (hv : validate (openwrtClass env (owValidate env.ip6) sh loads dsa) config = .ok ()) (ht : Tame env.ip6 config) (e : PyErr)
    (he : (render (openwrtClass env (owValidate env.ip6) sh loads dsa) files ⟨config, none⟩).2 = .error e) : e = .validation := by
  exact safe_error (render_safe hv (config_fit hz hw (ow_valid hv) ht) files) he

/-- **C66**, the archive: `generate` of a valid configuration (which is also `Tame`) gives an archive or raises `ValidationError`. -/
theorem C66_generate (env : Env) (sh : Val → Bool) (loads : Chars → Option Val) (dsa : Bool) (config : VDict)
    (hz : ∀ z ∈ timezones.map (·.1), (env.tz z).isSome = true) (hw : (Val.dict config).WF)
    (hv : validate (openwrtClass env (owValidate env.ip6) sh loads dsa) config = .ok ()) (ht : Tame env.ip6 config) (e : PyErr)
    (he : (generate (openwrtClass env (owValidate env.ip6) sh loads dsa) ⟨config, none⟩).2 = .error e) : e = .validation :=
  safe_error (generate_safe uciSplit_ok (render_safe_files hv (config_fit hz hw (ow_valid hv) ht) false)) he

end NJ
