import Verif.SafeIfaces
import Verif.OpenWrt

/-!
# No internal errors: radios, Wi-Fi interfaces, OpenVPN, ZeroTier
-/

namespace NJ

/-! ## Radios -/

def RadioFit (d : VDict) : Prop :=
  (Dict.keys d).Nodup ∧ Key d "name" IsTxt ∧ Key d "protocol" (fun _ => True) ∧ Key d "channel" (fun v => ∃ i, v = .int i) ∧
  Key d "channel_width" (fun _ => True) ∧ Opt d "country" IsTxt

/-- the radio on its way to UCI -/
structure RadioMid (d : VDict) : Prop where
  block : IsBlock d
  type : Key d "type" fun _ => True
  protocol : Key d "protocol" fun _ => True
  channel : Key d "channel" fun v => ∃ i, v = .int i
  width : Key d "channel_width" fun _ => True
  country : Opt d "country" IsTxt

theorem RadioMid.set {d : VDict} (h : RadioMid d) {k : String} {v : Val} (hk : k ∉ [".name", "type", "protocol", "channel", "channel_width", "country"]) :
    RadioMid (Dict.set d k v) := by
  simp only [List.mem_cons, List.not_mem_nil, not_or, or_false] at hk
  obtain ⟨h0, h1, h2, h3, h4, h5⟩ := hk
  exact ⟨block_set h.block h0, key_set_ne h1 h.type, key_set_ne h2 h.protocol, key_set_ne h3 h.channel, key_set_ne h4 h.width, opt_set_ne h5 h.country⟩

theorem RadioMid.erase {d : VDict} (h : RadioMid d) {k : String} (hk : k ∉ [".name", "type", "protocol", "channel", "channel_width"]) :
    RadioMid (Dict.erase d k) := by
  simp only [List.mem_cons, List.not_mem_nil, not_or, or_false] at hk
  obtain ⟨h0, h1, h2, h3, h4⟩ := hk
  exact ⟨block_erase h.block h0, key_erase h1 h.type, key_erase h2 h.protocol, key_erase h3 h.channel, key_erase h4 h.width, opt_erase h.country⟩

theorem hwmodeFromProtocol_safe {d : VDict} (h : RadioMid d) : Safe (fun _ => True) (hwmodeFromProtocol d) := by
  unfold hwmodeFromProtocol
  refine safe_bind (safe_getKey h.protocol) fun p _ => ?_
  split
  · trivial
  · trivial
  · trivial
  · trivial
  · refine safe_bind (safe_getKey h.channel) ?_
    rintro c ⟨i, rfl⟩
    split
    · trivial
    · trivial

theorem setBand_safe {dsa : Bool} {d : VDict} (h : RadioMid d) : Safe RadioMid (setBand dsa d) := by
  unfold setBand
  split
  · unfold radioBand
    exact ((h.erase (by decide)).erase (by decide)).set (by decide)
  · unfold radioHwmode
    dsimp only [popOr]
    have h2 : RadioMid (Dict.erase (Dict.erase d "hwmode") "band") := (h.erase (by decide)).erase (by decide)
    generalize Dict.erase (Dict.erase d "hwmode") "band" = e at h2
    refine safe_bind (Q := fun r => r.2 = e) ?_ ?_
    · split
      · rfl
      · split
        · exact safe_bind (safe_getKey h2.protocol) fun p _ => rfl
        · split
          · rfl
          · exact safe_bind (hwmodeFromProtocol_safe h2) fun p _ => rfl
    · rintro ⟨w, e2⟩ he
      dsimp only at he
      subst he
      exact h2.set (by decide)

theorem radioBlock_safe {env : Env} {dsa : Bool} {d : VDict} (h : RadioFit d) : Safe IsBlock (radioBlock env dsa d) := by
  obtain ⟨hnd, hname, hproto, hchan, hwidth, hcountry⟩ := h
  unfold radioBlock
  refine safe_bind (safe_popKey hname) ?_
  rintro ⟨name, e⟩ ⟨hn, he⟩
  dsimp only at hn he
  subst he
  have hu : ∀ {k : String} {P : Val → Prop}, k ≠ ".type" → k ≠ ".name" → k ≠ "name" → Key d k P → Key (Dict.update (Dict.erase d "name") [(".type", .str "wifi-device"), (".name", name)]) k P := by
    intro k P k1 k2 k3 hk
    refine key_update (key_erase (Ne.symm k3) hk) ?_
    intro p hp e
    simp only [List.mem_cons, List.not_mem_nil, or_false] at hp
    rcases hp with rfl | rfl
    · exact absurd e.symm k1
    · exact absurd e.symm k2
  have hb : IsBlock (Dict.update (Dict.erase d "name") [(".type", .str "wifi-device"), (".name", name)]) := by
    refine block_update (Dict.nodup_erase hnd _) (by simp [Dict.keys]) ?_
    intro p hp hk
    simp only [List.mem_cons, List.not_mem_nil, or_false] at hp
    rcases hp with rfl | rfl
    · exact absurd hk (by simp)
    · exact hn
  have hc : Opt (Dict.update (Dict.erase d "name") [(".type", .str "wifi-device"), (".name", name)]) "country" IsTxt := by
    refine opt_update (opt_erase hcountry) ?_
    intro p hp hk
    simp only [List.mem_cons, List.not_mem_nil, or_false] at hp
    rcases hp with rfl | rfl
    · exact absurd hk (by simp)
    · exact absurd hk (by simp)
  have hp := hu (by decide) (by decide) (by decide) hproto
  have hch := hu (by decide) (by decide) (by decide) hchan
  have hw := hu (by decide) (by decide) (by decide) hwidth
  dsimp only [popOr]
  generalize Dict.update (Dict.erase d "name") [(".type", .str "wifi-device"), (".name", name)] = r at hb hc hp hch hw
  have hm : ∀ driver : Val, RadioMid (Dict.set (Dict.erase (renameTxPower r) "driver") "type" driver) := by
    intro driver
    have hr : IsBlock (renameTxPower r) ∧ Key (renameTxPower r) "protocol" (fun _ => True) ∧ Key (renameTxPower r) "channel" (fun v => ∃ i, v = .int i) ∧
        Key (renameTxPower r) "channel_width" (fun _ => True) ∧ Opt (renameTxPower r) "country" IsTxt := by
      unfold renameTxPower
      split
      · exact ⟨block_set (block_erase hb (by decide)) (by decide), key_set_ne (by decide) (key_erase (by decide) hp),
          key_set_ne (by decide) (key_erase (by decide) hch), key_set_ne (by decide) (key_erase (by decide) hw), opt_set_ne (by decide) (opt_erase hc)⟩
      · exact ⟨hb, hp, hch, hw, hc⟩
    obtain ⟨r1, r2, r3, r4, r5⟩ := hr
    exact ⟨block_set (block_erase r1 (by decide)) (by decide), key_set_self trivial, key_set_ne (by decide) (key_erase (by decide) r2),
      key_set_ne (by decide) (key_erase (by decide) r3), key_set_ne (by decide) (key_erase (by decide) r4), opt_set_ne (by decide) (opt_erase r5)⟩
  refine safe_bind (setBand_safe (hm _)) fun r1 h1 => ?_
  clear hm hb hc hp hch hw hu
  have h2 : Safe (fun x => IsBlock x ∧ Key x "type" (fun _ => True) ∧ Key x "protocol" (fun _ => True) ∧ Key x "channel_width" (fun _ => True) ∧ Opt x "country" IsTxt) (autoChannel r1) := by
    unfold autoChannel
    refine safe_bind (safe_getKey h1.channel) fun c _ => ?_
    show _ ∧ _
    split
    · exact ⟨block_set h1.block (by decide), key_set_ne (by decide) h1.type, key_set_ne (by decide) h1.protocol, key_set_ne (by decide) h1.width, opt_set_ne (by decide) h1.country⟩
    · exact ⟨h1.block, h1.type, h1.protocol, h1.width, h1.country⟩
  refine safe_bind h2 ?_
  rintro r2 ⟨b1, b2, b3, b4, b5⟩
  have h3 : Safe (fun x => IsBlock x ∧ Opt x "country" IsTxt) (radioWidth env r2) := by
    unfold radioWidth
    refine safe_bind (safe_getKey b2) fun ty _ => ?_
    split
    · unfold setHtmode
      refine safe_bind (safe_popKey b3) ?_
      rintro ⟨p, e⟩ ⟨-, he⟩
      dsimp only at he
      subst he
      refine safe_bind (safe_popKey (key_erase (by decide) b4)) ?_
      rintro ⟨w, e⟩ ⟨-, he⟩
      dsimp only at he
      subst he
      dsimp only
      split
      · exact ⟨block_set (block_erase (block_erase b1 (by decide)) (by decide)) (by decide), opt_set_ne (by decide) (opt_erase (opt_erase b5))⟩
      · exact ⟨block_set (block_erase (block_erase b1 (by decide)) (by decide)) (by decide), opt_set_ne (by decide) (opt_erase (opt_erase b5))⟩
    · refine safe_bind (safe_popKey b3) ?_
      rintro ⟨p, e⟩ ⟨-, he⟩
      dsimp only at he
      subst he
      exact ⟨block_erase b1 (by decide), opt_erase b5⟩
  refine safe_bind h3 ?_
  rintro r3 ⟨c1, c2⟩
  refine safe_bind (Q := IsBlock) ?_ fun x hx => block_sorted hx
  unfold upperCountry
  split
  · rename_i c hc
    exact safe_bind (safe_asText (c2 _ hc)) fun t _ => block_set c1 (by decide)
  · exact c1

theorem radios_safe {env : Env} {dsa : Bool} {config : VDict} (h : Key config "radios" (IsLst (IsObj RadioFit))) :
    Safe IsPkgs (fwd "radios" (radioFwd env dsa) config) := by
  refine safe_fwd_list (fun i v r hv hr => ?_) h
  unfold radioFwd
  refine safe_bind (safe_asDict hv) fun d hd => ?_
  exact safe_bind (radioBlock_safe hd) fun b hb => pkgs_append hr (obj_block hb)

/-! ## Wi-Fi interfaces -/

/-- the encryption of a Wi-Fi interface -/
structure EncFit (mode : String) (enc : VDict) : Prop where
  nodup : (Dict.keys enc).Nodup
  protocol : Key enc "protocol" fun v => ∃ p, v = .str p ∧ (startsWith "wep" p = true → Dict.has enc "key" = true) ∧
    (mode = "ap" → isEnterprise p.toList = true → Dict.has enc "key" = true)
  noName : Lacks enc ".name"
  noNetwork : Lacks enc "network"

/-- the `wireless` object of an interface -/
structure WifiFit (w : VDict) : Prop where
  nodup : (Dict.keys w).Nodup
  id : Opt w "id" IsTxt
  radio : Key w "radio" fun _ => True
  mode : Key w "mode" fun v => ∃ m m', v = .str m ∧ Dict.get? wifiModes m = some m' ∧ Opt w "encryption" (IsObj (EncFit m'))
  ack : Opt w "ack_distance" fun v => ∃ i, v = .int i
  rts : Opt w "rts_threshold" fun v => ∃ i, v = .int i
  frag : Opt w "frag_threshold" fun v => ∃ i, v = .int i
  network : Opt w "network" (IsLst IsTxt)

/-- an interface, for its `wireless` object -/
def WirelessFit (d : VDict) : Prop := Key d "name" IsTxt ∧ Opt d "wireless" (IsObj WifiFit)

theorem wifiOption_safe {k u : String} {w : VDict} (h : Opt w k fun v => ∃ i, v = .int i) :
    Safe (fun r => r = Dict.erase w k ∨ ∃ i, r = Dict.set (Dict.erase w k) u (.int i)) (wifiOption k u w) := by
  unfold wifiOption
  cases hg : Dict.get? w k with
  | none => exact Or.inl rfl
  | some v =>
    obtain ⟨i, rfl⟩ := h v hg
    dsimp only [Option.getD]
    show _ ∨ _
    split
    · exact Or.inr ⟨i, rfl⟩
    · exact Or.inl rfl

/-- the `wireless` object on its way to UCI -/
structure WifiMid (m : String) (w : VDict) : Prop where
  block : IsBlock w
  enc : Opt w "encryption" (IsObj (EncFit m))
  ack : Opt w "ack_distance" fun v => ∃ i, v = .int i
  rts : Opt w "rts_threshold" fun v => ∃ i, v = .int i
  frag : Opt w "frag_threshold" fun v => ∃ i, v = .int i
  network : Opt w "network" (IsLst IsTxt)

theorem WifiMid.set {m : String} {w : VDict} (h : WifiMid m w) {k : String} {v : Val}
    (hk : k ∉ [".name", "encryption", "ack_distance", "rts_threshold", "frag_threshold", "network"]) : WifiMid m (Dict.set w k v) := by
  simp only [List.mem_cons, List.not_mem_nil, not_or, or_false] at hk
  obtain ⟨h0, h1, h2, h3, h4, h5⟩ := hk
  exact ⟨block_set h.block h0, opt_set_ne h1 h.enc, opt_set_ne h2 h.ack, opt_set_ne h3 h.rts, opt_set_ne h4 h.frag, opt_set_ne h5 h.network⟩

theorem WifiMid.erase {m : String} {w : VDict} (h : WifiMid m w) {k : String} (hk : k ≠ ".name") : WifiMid m (Dict.erase w k) :=
  ⟨block_erase h.block hk, opt_erase h.enc, opt_erase h.ack, opt_erase h.rts, opt_erase h.frag, opt_erase h.network⟩

/-- no name and no network among the options -/
def NoNames (uci : VDict) : Prop := (Dict.keys uci).Nodup ∧ Lacks uci ".name" ∧ Lacks uci "network"

theorem NoNames.set {uci : VDict} (h : NoNames uci) {k : String} {v : Val} (h1 : k ≠ ".name") (h2 : k ≠ "network") : NoNames (Dict.set uci k v) :=
  ⟨Dict.nodup_set h.1 _ _, lacks_set h1 h.2.1, lacks_set h2 h.2.2⟩

theorem NoNames.erase {uci : VDict} (h : NoNames uci) {k : String} : NoNames (Dict.erase uci k) :=
  ⟨Dict.nodup_erase h.1 _, lacks_erase h.2.1, lacks_erase h.2.2⟩

theorem NoNames.copy {src uci : VDict} (h : NoNames uci) {k u : String} (h1 : u ≠ ".name") (h2 : u ≠ "network") : NoNames (copyIf src k uci u) := by
  unfold copyIf
  split
  · exact h.set h1 h2
  · exact h

theorem encKeys_safe {env : Env} {mode p : String} {enc uci : VDict} (hw : startsWith "wep" p = true → Dict.has enc "key" = true)
    (he : mode = "ap" → isEnterprise p.toList = true → Dict.has enc "key" = true) (hu : NoNames uci) : Safe NoNames (encKeys env mode p enc uci) := by
  unfold encKeys
  split
  · rename_i h
    refine safe_bind (safe_getKey (key_of (P := fun _ => True) (hw h) fun _ _ => trivial)) fun key _ => ?_
    exact (hu.set (by decide) (by decide)).set (by decide) (by decide)
  · refine safe_bind (Q := NoNames) ?_ fun u hu => hu.copy (by decide) (by decide)
    split
    · rename_i hent
      unfold enterpriseUci
      have hu2 : NoNames (if Dict.get? uci "eap_type" = some (.str "tls") then Dict.erase uci "auth" else uci) := by
        split
        · exact hu.erase
        · exact hu
      dsimp only
      generalize (if Dict.get? uci "eap_type" = some (.str "tls") then Dict.erase uci "auth" else uci) = u at hu2
      split
      · rename_i hm
        unfold radiusUci
        refine safe_bind (safe_getKey (key_of (P := fun _ => True) (he hm hent) fun _ _ => trivial)) fun key _ => ?_
        refine NoNames.copy ?_ (by decide) (by decide)
        have h3 := ((hu2.copy (src := enc) (k := "server") (u := "auth_server") (by decide) (by decide)).copy (src := enc) (k := "port") (u := "auth_port") (by decide) (by decide)).set
          (k := "auth_secret") (v := key) (by decide) (by decide)
        split
        · exact h3
        · exact h3.set (by decide) (by decide)
      · exact hu2
    · exact hu

theorem encryptionUci_safe {env : Env} {mode : String} {enc : VDict} (h : EncFit mode enc) : Safe NoNames (encryptionUci env mode enc) := by
  obtain ⟨v, hv, p, rfl, hw, he⟩ := h.protocol
  have hk : getKey enc "protocol" = .ok (.str p) := by unfold getKey; rw [hv]
  unfold encryptionUci
  refine safe_bind (Q := fun _ => True) ?_ fun off _ => ?_
  · unfold encOff
    split
    · trivial
    · split
      · trivial
      · rw [hk]; trivial
  · split
    · exact ⟨by simp [Dict.keys], rfl, rfl⟩
    · rw [hk]
      refine safe_bind (safe_ok (P := fun x => x = .str p) rfl) fun x hx => ?_
      subst hx
      refine safe_bind (safe_ok (P := fun x => x = p) rfl) fun x hx => ?_
      subst hx
      refine safe_bind (encKeys_safe hw he ?_) fun u hu => hu.set (by decide) (by decide)
      exact ⟨nodup_foldErase h.nodup, lacks_foldErase h.noName, lacks_foldErase h.noNetwork⟩

theorem wifiEncryption_safe {env : Env} {m : String} {w : VDict} (h : WifiMid m w) :
    Safe (fun r => IsBlock r ∧ Opt r "network" (IsLst IsTxt)) (wifiEncryption env m w) := by
  unfold wifiEncryption
  split
  · exact ⟨h.block, h.network⟩
  · rename_i v hv
    refine safe_bind (safe_asDict (h.enc v hv)) fun enc he => ?_
    refine safe_bind (encryptionUci_safe he) fun u hu => ?_
    refine ⟨block_update' (block_erase h.block (by decide)) fun p hp hk => absurd hk (lacks_mem hu.1 hu.2.1 p hp), ?_⟩
    intro x hx
    rw [update_get_lacks hu.1 hu.2.2] at hx
    exact opt_erase h.network x hx

theorem joinSpaces_safe {v : Val} (h : IsLst IsTxt v) : Safe (fun _ => True) (joinSpaces v) := by
  obtain ⟨l, rfl, hl⟩ := h
  refine safe_bind (safe_mapM (P := fun _ => True) fun v hv => ?_) fun _ _ => trivial
  obtain ⟨s, rfl⟩ := hl v hv
  trivial

theorem autoNetwork_texts {bridged : Dict String (List String)} {name : String} {d w : VDict} (h : Opt w "network" (IsLst IsTxt)) :
    IsLst IsTxt (autoNetwork bridged name d w) := by
  unfold autoNetwork
  dsimp only
  split
  · rename_i ht
    cases hg : Dict.get? w "network" with
    | none => rw [hg] at ht; cases ht
    | some v => exact h v hg
  · split
    · rename_i bs _
      refine ⟨_, rfl, fun x hx => ?_⟩
      obtain ⟨b, -, rfl⟩ := List.mem_map.1 hx
      exact isTxt_str _
    · split
      · exact ⟨_, rfl, fun x hx => by rw [List.mem_singleton] at hx; rw [hx]; exact isTxt_str _⟩
      · exact ⟨_, rfl, fun x hx => nomatch hx⟩

theorem WifiMid.option {k u : String} {m : String} {w : VDict} (h : WifiMid m w) (hk : Opt w k fun v => ∃ i, v = .int i) (h1 : k ≠ ".name")
    (h2 : u ∉ [".name", "encryption", "ack_distance", "rts_threshold", "frag_threshold", "network"]) : Safe (WifiMid m) (wifiOption k u w) := by
  refine safe_mono (wifiOption_safe hk) ?_
  rintro r (rfl | ⟨i, rfl⟩)
  · exact h.erase h1
  · exact (h.erase h1).set h2

theorem wifiBlock_safe {env : Env} {bridged : Dict String (List String)} {d w : VDict} (hd : Key d "name" IsTxt) (h : WifiFit w) :
    Safe IsBlock (wifiBlock env bridged d w) := by
  unfold wifiBlock
  refine safe_bind (safe_getKey hd) ?_
  rintro n ⟨name, rfl⟩
  refine safe_bind (safe_ok (P := fun x => x = name) rfl) fun x hx => ?_
  subst hx
  dsimp only
  have hs : ∀ {k : String} {P : Val → Prop} (v v' : Val), k ≠ "disabled" → k ≠ "ifname" → Key w k P → Key (Dict.set (Dict.set w "disabled" v) "ifname" v') k P :=
    fun v v' h1 h2 hk => key_set_ne (Ne.symm h2) (key_set_ne (Ne.symm h1) hk)
  have hso : ∀ {k : String} {P : Val → Prop} (v v' : Val), k ≠ "disabled" → k ≠ "ifname" → Opt w k P → Opt (Dict.set (Dict.set w "disabled" v) "ifname" v') k P :=
    fun v v' h1 h2 hk => opt_set_ne (Ne.symm h2) (opt_set_ne (Ne.symm h1) hk)
  refine safe_bind (safe_popOrElse (P := IsTxt) (hso _ _ (by decide) (by decide) h.id) (safe_ok (isTxt_str _))) ?_
  rintro ⟨id, e⟩ ⟨hid, he⟩
  dsimp only at hid he
  subst he
  obtain ⟨mv, hmg, m, m', rfl, hm', henc⟩ := h.mode
  have hu : ∀ {k : String} {P : Val → Prop} (v v' : Val), k ≠ "disabled" → k ≠ "ifname" → k ≠ "id" → k ≠ ".type" → k ≠ ".name" → Key w k P →
      Key (Dict.update (Dict.erase (Dict.set (Dict.set w "disabled" v) "ifname" v') "id") [(".type", .str "wifi-iface"), (".name", id)]) k P := by
    intro k P v v' h1 h2 h3 h4 h5 hk
    refine key_update (key_erase (Ne.symm h3) (hs v v' h1 h2 hk)) ?_
    intro p hp e
    simp only [List.mem_cons, List.not_mem_nil, or_false] at hp
    rcases hp with rfl | rfl
    · exact absurd e.symm h4
    · exact absurd e.symm h5
  have huo : ∀ {k : String} {P : Val → Prop} (v v' : Val), k ≠ "disabled" → k ≠ "ifname" → k ≠ ".type" → k ≠ ".name" → Opt w k P →
      Opt (Dict.update (Dict.erase (Dict.set (Dict.set w "disabled" v) "ifname" v') "id") [(".type", .str "wifi-iface"), (".name", id)]) k P := by
    intro k P v v' h1 h2 h4 h5 hk
    refine opt_update (opt_erase (hso v v' h1 h2 hk)) ?_
    intro p hp e
    simp only [List.mem_cons, List.not_mem_nil, or_false] at hp
    rcases hp with rfl | rfl
    · exact absurd e.symm h4
    · exact absurd e.symm h5
  have hmid : ∀ v v', WifiMid m' (Dict.update (Dict.erase (Dict.set (Dict.set w "disabled" v) "ifname" v') "id") [(".type", .str "wifi-iface"), (".name", id)]) := by
    intro v v'
    refine ⟨block_update (Dict.nodup_erase (Dict.nodup_set (Dict.nodup_set h.nodup _ _) _ _) _) (by simp [Dict.keys]) ?_,
      huo v v' (by decide) (by decide) (by decide) (by decide) henc, huo v v' (by decide) (by decide) (by decide) (by decide) h.ack,
      huo v v' (by decide) (by decide) (by decide) (by decide) h.rts, huo v v' (by decide) (by decide) (by decide) (by decide) h.frag,
      huo v v' (by decide) (by decide) (by decide) (by decide) h.network⟩
    intro p hp hk
    simp only [List.mem_cons, List.not_mem_nil, or_false] at hp
    rcases hp with rfl | rfl
    · exact absurd hk (by simp)
    · exact hid
  have hmid := hmid ((Dict.get? d "disabled").getD .none) (.str x)
  have hradio := hu ((Dict.get? d "disabled").getD .none) (.str x) (by decide) (by decide) (by decide) (by decide) (by decide) h.radio
  have hmode := hu ((Dict.get? d "disabled").getD .none) (.str x) (k := "mode") (P := fun v => v = .str m) (by decide) (by decide) (by decide) (by decide) (by decide) ⟨_, hmg, rfl⟩
  generalize Dict.update (Dict.erase (Dict.set (Dict.set w "disabled" ((Dict.get? d "disabled").getD .none)) "ifname" (.str x)) "id") [(".type", .str "wifi-iface"), (".name", id)] = u at hmid hradio hmode
  refine safe_bind (safe_popKey hradio) ?_
  rintro ⟨radio, e⟩ ⟨-, he⟩
  dsimp only at he
  subst he
  have hc : ∀ radio, WifiMid m' (copyIf d "mac" (Dict.set (Dict.erase u "radio") "device" radio) "macaddr") ∧
      Key (copyIf d "mac" (Dict.set (Dict.erase u "radio") "device" radio) "macaddr") "mode" (fun v => v = .str m) := by
    intro radio
    have h1 : WifiMid m' (Dict.set (Dict.erase u "radio") "device" radio) := (hmid.erase (by decide)).set (by decide)
    have h2 : Key (Dict.set (Dict.erase u "radio") "device" radio) "mode" (fun v => v = .str m) := key_set_ne (by decide) (key_erase (by decide) hmode)
    unfold copyIf
    split
    · exact ⟨h1.set (by decide), key_set_ne (by decide) h2⟩
    · exact ⟨h1, h2⟩
  obtain ⟨hc1, hc2⟩ := hc radio
  dsimp only
  generalize copyIf d "mac" (Dict.set (Dict.erase u "radio") "device" radio) "macaddr" = c at hc1 hc2
  refine safe_bind (safe_getKey hc2) ?_
  rintro mv rfl
  refine safe_bind (Q := fun x => x = m') ?_ ?_
  · unfold lookupText
    dsimp only
    rw [hm']
    rfl
  rintro mm rfl
  have h0 : WifiMid mm (Dict.set c "mode" (.str mm)) := hc1.set (by decide)
  refine safe_bind (h0.option h0.ack (by decide) (by decide)) fun w1 h1 => ?_
  refine safe_bind (h1.option h1.rts (by decide) (by decide)) fun w2 h2 => ?_
  refine safe_bind (h2.option h2.frag (by decide) (by decide)) fun w3 h3 => ?_
  refine safe_bind (wifiEncryption_safe h3) ?_
  rintro w4 ⟨hb, hn⟩
  have hroam : IsBlock (wifiRoaming w4) ∧ Opt (wifiRoaming w4) "network" (IsLst IsTxt) := by
    unfold wifiRoaming
    split
    · exact ⟨block_foldErase (by decide) hb, opt_foldErase hn⟩
    · exact ⟨hb, hn⟩
  refine safe_bind (joinSpaces_safe (autoNetwork_texts hroam.2)) fun net _ => ?_
  exact block_sorted (block_set hroam.1 (by decide))

theorem trackBridges_safe {dsa : Bool} {inter : VDict} (h : IsPkgs inter) : Safe (fun _ => True) (trackBridges dsa inter) := by
  have one : ∀ m v, IsObj IsBlock v → Safe (fun _ => True) (trackBlock dsa m v) := by
    intro m v hv
    unfold trackBlock
    refine safe_bind (safe_asDict hv) fun d hd => ?_
    split
    · trivial
    · split
      · trivial
      · refine safe_bind (safe_getKey hd.2) fun n hn => ?_
        exact safe_bind (safe_asText hn) fun _ _ => trivial
  unfold trackBridges
  cases hg : Dict.get? inter "network" with
  | none => trivial
  | some w =>
    obtain ⟨l, rfl, hl⟩ := pkgs_get h hg
    exact safe_foldlM (P := fun _ => True) trivial fun a _ b hb => one a b (hl b hb)

theorem wireless_safe {env : Env} {dsa : Bool} {config inter : VDict} (hi : IsPkgs inter) (h : Key config "interfaces" (IsLst (IsObj WirelessFit))) :
    Safe IsPkgs (wirelessRun env dsa config inter) := by
  unfold wirelessRun
  refine safe_bind (trackBridges_safe hi) fun bridged _ => ?_
  refine safe_fwd_list (fun i v r hv hr => ?_) h
  unfold wirelessFwd
  refine safe_bind (safe_asDict hv) fun d hd => ?_
  split
  · exact hr
  · rename_i w hw
    refine safe_bind (safe_asDict (hd.2 w hw)) fun w' hw' => ?_
    exact safe_bind (wifiBlock_safe hd.1 hw') fun b hb => pkgs_append hr (obj_block hb)

/-! ## Additional files -/

/-- a text that is an octal number -/
def IsMode (v : Val) : Prop := ∃ s, v = .str s ∧ ∃ n, parseOct s.toList = .ok n

theorem isMode_txt {v : Val} (h : IsMode v) : IsTxt v := ⟨_, h.choose_spec.1⟩

theorem mode_x509 : IsMode (.str x509Mode) := ⟨_, rfl, 384, by decide⟩
theorem mode_default : IsMode (.str "0644") := ⟨_, rfl, 420, by decide⟩

def FileFit (d : VDict) : Prop := Key d "path" IsTxt ∧ Key d "contents" IsTxt ∧ Opt d "mode" IsMode

/-- the files of the configuration -/
def FilesFit (config : VDict) : Prop := Opt config "files" (IsLst (IsObj FileFit))

/-- what a step that adds files leaves -/
def FilesOnly (config config' : VDict) : Prop :=
  (∀ k, k ≠ "files" → Dict.get? config' k = Dict.get? config k) ∧ ∀ p ∈ config', p.1 ≠ "files" → p ∈ config

theorem FilesOnly.refl (config : VDict) : FilesOnly config config := ⟨fun _ _ => rfl, fun _ hp _ => hp⟩

theorem FilesOnly.trans {a b c : VDict} (h : FilesOnly a b) (h' : FilesOnly b c) : FilesOnly a c :=
  ⟨fun k hk => (h'.1 k hk).trans (h.1 k hk), fun p hp hk => h.2 p (h'.2 p hp hk) hk⟩

theorem mem_set_ne {d : VDict} {k : String} {v : Val} {p : String × Val} (h : p ∈ Dict.set d k v) (hk : p.1 ≠ k) : p ∈ d := by
  induction d with
  | nil => simp only [Dict.set, List.mem_singleton] at h; rw [h] at hk; exact absurd rfl hk
  | cons q r ih =>
    simp only [Dict.set] at h
    split at h
    · rcases List.mem_cons.1 h with rfl | h
      · rename_i e; exact absurd e hk
      · exact List.mem_cons_of_mem _ h
    · rcases List.mem_cons.1 h with rfl | h
      · exact List.mem_cons_self
      · exact List.mem_cons_of_mem _ (ih h)

theorem FilesOnly.set (config : VDict) (v : Val) : FilesOnly config (Dict.set config "files" v) :=
  ⟨fun k hk => by rw [Dict.get?_set, if_neg (Ne.symm hk)], fun p hp hk => mem_set_ne hp hk⟩

theorem addFiles_fit {config : VDict} {l : List Val} (h : FilesFit config) (hl : ∀ v ∈ l, IsObj FileFit v) :
    FilesFit (appendTo config "files" l) ∧ FilesOnly config (appendTo config "files" l) := by
  unfold appendTo
  split
  · rename_i t ht
    obtain ⟨t', e, ht'⟩ := h _ ht
    cases e
    refine ⟨opt_of_key (key_set_self ⟨_, rfl, fun v hv => ?_⟩), FilesOnly.set _ _⟩
    rcases List.mem_append.1 hv with hv | hv
    · exact ht' v hv
    · exact hl v hv
  · exact ⟨opt_of_key (key_set_self ⟨_, rfl, hl⟩), FilesOnly.set _ _⟩

/-! ## OpenVPN -/

structure VpnFit (d : VDict) : Prop where
  nodup : (Dict.keys d).Nodup
  name : Key d "name" fun v => ∃ s, v = .str s ∧ s ≠ ""
  remote : Opt d "remote" (IsLst (IsObj fun r => Key r "host" (fun _ => True) ∧ Key r "port" fun _ => True))
  ciphers : Opt d "data_ciphers" (IsLst (IsObj fun r => Key r "cipher" (fun _ => True) ∧ Key r "optional" fun _ => True))
  tls : Opt d "tls_auth" IsTxt
  ca : Opt d "ca" IsTxt

structure VpnMid (d : VDict) : Prop where
  nodup : (Dict.keys d).Nodup
  name : Key d ".name" fun v => ∃ s, v = .str s ∧ s ≠ ""
  remote : Opt d "remote" (IsLst (IsObj fun r => Key r "host" (fun _ => True) ∧ Key r "port" fun _ => True))
  ciphers : Opt d "data_ciphers" (IsLst (IsObj fun r => Key r "cipher" (fun _ => True) ∧ Key r "optional" fun _ => True))
  tls : Opt d "tls_auth" IsTxt
  ca : Opt d "ca" IsTxt

theorem get_filter {d : VDict} (hd : (Dict.keys d).Nodup) (f : String × Val → Bool) (k : String) :
    Dict.get? (d.filter f) k = (Dict.get? d k).bind fun v => if f (k, v) then some v else none := by
  induction d with
  | nil => rfl
  | cons p r ih =>
    obtain ⟨a, v⟩ := p
    simp only [Dict.keys, List.map_cons, List.nodup_cons] at hd
    have ih := ih hd.2
    have hnone : Dict.get? r a = none := by
      cases hg : Dict.get? r a with
      | none => rfl
      | some x => exact absurd (List.mem_map_of_mem (f := Prod.fst) (Dict.mem_of_get? hg)) hd.1
    rw [List.filter_cons]
    by_cases hak : a = k
    · subst hak
      split
      · rename_i hf
        rw [Dict.get?_cons, if_pos rfl, Dict.get?_cons, if_pos rfl]
        simp [hf]
      · rename_i hf
        rw [Dict.get?_cons, if_pos rfl, ih, hnone]
        simp [hf]
    · split
      · rw [Dict.get?_cons, if_neg hak, Dict.get?_cons, if_neg hak]; exact ih
      · rw [Dict.get?_cons, if_neg hak]; exact ih

theorem opt_filter {d : VDict} (hd : (Dict.keys d).Nodup) {f : String × Val → Bool} {k : String} {P : Val → Prop} (h : Opt d k P) : Opt (d.filter f) k P := by
  intro v hv
  rw [get_filter hd] at hv
  cases hg : Dict.get? d k with
  | none => rw [hg] at hv; cases hv
  | some w =>
    rw [hg] at hv
    simp only [Option.bind_some] at hv
    split at hv
    · have e := Option.some.inj hv
      subst e
      exact h _ hg
    · cases hv

theorem dropRemoved_mid {d : VDict} (h : VpnMid d) : VpnMid (dropRemoved removedUci d) := by
  refine ⟨List.Nodup.sublist (List.Sublist.map _ List.filter_sublist) h.nodup, ?_, opt_filter h.nodup h.remote, opt_filter h.nodup h.ciphers,
    opt_filter h.nodup h.tls, opt_filter h.nodup h.ca⟩
  obtain ⟨v, hv, s, rfl, hs⟩ := h.name
  refine ⟨_, ?_, s, rfl, hs⟩
  unfold dropRemoved
  rw [get_filter h.nodup, hv]
  simp [removedUci, hs]

theorem bareBridge_mid {d : VDict} (h : VpnMid d) : VpnMid (bareBridge d) := by
  unfold bareBridge
  split
  · exact ⟨Dict.nodup_set h.nodup _ _, key_set_ne (by decide) h.name, opt_set_ne (by decide) h.remote, opt_set_ne (by decide) h.ciphers,
      opt_set_ne (by decide) h.tls, opt_set_ne (by decide) h.ca⟩
  · exact h

theorem tlsCipherList_mid {d : VDict} (h : VpnMid d) : VpnMid (tlsCipherList d) := by
  unfold tlsCipherList
  split
  · split
    · exact h
    · exact ⟨Dict.nodup_set h.nodup _ _, key_set_ne (by decide) h.name, opt_set_ne (by decide) h.remote, opt_set_ne (by decide) h.ciphers,
        opt_set_ne (by decide) h.tls, opt_set_ne (by decide) h.ca⟩
  · exact h

theorem vpnBlock_safe {env : Env} {d : VDict} (h : VpnMid d) :
    Safe (fun r => IsBlock r.1 ∧ ∀ f, r.2 = some f → FileFit f) (vpnBlock env removedUci d) := by
  have h := dropRemoved_mid (bareBridge_mid h)
  unfold vpnBlock
  generalize dropRemoved removedUci (bareBridge d) = c at h
  have h1 : Safe (fun c => IsBlock c ∧ Opt c "data_ciphers" (IsLst (IsObj fun r => Key r "cipher" (fun _ => True) ∧ Key r "optional" fun _ => True)) ∧
      Opt c "tls_auth" IsTxt ∧ Opt c "ca" IsTxt) (remotesText env c) := by
    have hb : IsBlock c := ⟨h.nodup, key_mono h.name fun v hv => ⟨_, hv.choose_spec.1⟩⟩
    unfold remotesText
    cases hg : Dict.get? c "remote" with
    | none => exact ⟨hb, h.ciphers, h.tls, h.ca⟩
    | some w =>
      obtain ⟨l, rfl, hl⟩ := h.remote w hg
      refine safe_bind (safe_mapM (P := fun _ => True) fun v hv => ?_) fun ts _ =>
        ⟨block_set hb (by decide), opt_set_ne (by decide) h.ciphers, opt_set_ne (by decide) h.tls, opt_set_ne (by decide) h.ca⟩
      obtain ⟨r, rfl, hh, hp⟩ := hl v hv
      unfold remoteText
      exact safe_bind (safe_getKey hh) fun _ _ => safe_bind (safe_getKey hp) fun _ _ => trivial
  refine safe_bind h1 ?_
  rintro c1 ⟨b, hci, htls, hca⟩
  have hst : IsBlock (statusVersion c1) ∧ Opt (statusVersion c1) "data_ciphers" (IsLst (IsObj fun r => Key r "cipher" (fun _ => True) ∧ Key r "optional" fun _ => True)) ∧
      Opt (statusVersion c1) "tls_auth" IsTxt ∧ Opt (statusVersion c1) "ca" IsTxt := by
    unfold statusVersion
    split
    · exact ⟨b, hci, htls, hca⟩
    · exact ⟨block_erase b (by decide), opt_erase hci, opt_erase htls, opt_erase hca⟩
  generalize statusVersion c1 = c2 at hst
  obtain ⟨b, hci, htls, hca⟩ := hst
  have h2 : Safe (fun c => IsBlock c ∧ Opt c "tls_auth" IsTxt ∧ Opt c "ca" IsTxt) (dataCiphers env c2) := by
    unfold dataCiphers
    dsimp only
    split
    · exact ⟨b, htls, hca⟩
    · rename_i ht
      cases hg : Dict.get? c2 "data_ciphers" with
      | none => rw [hg] at ht; exact absurd rfl ht
      | some w =>
        obtain ⟨l, rfl, hl⟩ := hci w hg
        refine safe_bind (safe_mapM (P := fun _ => True) fun v hv => ?_) fun ts _ => ⟨block_set b (by decide), opt_set_ne (by decide) htls, opt_set_ne (by decide) hca⟩
        obtain ⟨r, rfl, hh, hp⟩ := hl v hv
        unfold cipherText
        exact safe_bind (safe_getKey hh) fun _ _ => safe_bind (safe_getKey hp) fun _ _ => trivial
  refine safe_bind h2 ?_
  rintro c3 ⟨b, htls, hca⟩
  have h3 : Safe (fun r : VDict × Option VDict => IsBlock r.1 ∧ ∀ f, r.2 = some f → FileFit f) (tlsAuth env c3) := by
    unfold tlsAuth
    dsimp only
    split
    · exact ⟨b, fun f hf => nomatch hf⟩
    · rename_i ht
      cases hg : Dict.get? c3 "tls_auth" with
      | none => rw [hg] at ht; exact absurd rfl ht
      | some w =>
        refine safe_bind (safe_asText (htls w hg)) fun t _ => ?_
        split
        · exact ⟨b, fun f hf => nomatch hf⟩
        · refine safe_bind (safe_asText ?_) fun ca _ => ⟨block_set b (by decide), fun f hf => ?_⟩
          · cases hc : Dict.get? c3 "ca" with
            | none => exact isTxt_str _
            | some x => exact hca x hc
          · have e := Option.some.inj hf
            subst e
            exact ⟨⟨_, by simp [Dict.get?_cons]; rfl, isTxt_txt _⟩, ⟨_, by simp [Dict.get?_cons]; rfl, isTxt_txt _⟩,
              opt_of_key ⟨_, by simp [Dict.get?_cons], mode_x509⟩⟩
  refine safe_bind h3 ?_
  rintro ⟨c4, f⟩ ⟨b, hf⟩
  exact ⟨block_sorted b, hf⟩

theorem uciVpnBlock_safe {env : Env} {d : VDict} (h : VpnFit d) :
    Safe (fun r => IsBlock r.1 ∧ ∀ f, r.2 = some f → FileFit f) (uciVpnBlock env d) := by
  unfold uciVpnBlock
  have h1 : VpnFit (if isZero (Dict.get? d "fragment") = true then Dict.erase d "fragment" else d) := by
    split
    · exact ⟨Dict.nodup_erase h.nodup _, key_erase (by decide) h.name, opt_erase h.remote, opt_erase h.ciphers, opt_erase h.tls, opt_erase h.ca⟩
    · exact h
  dsimp only
  generalize (if isZero (Dict.get? d "fragment") = true then Dict.erase d "fragment" else d) = c at h1
  refine safe_bind (safe_popKey h1.name) ?_
  rintro ⟨name, e⟩ ⟨⟨s, hs, hne⟩, he⟩
  dsimp only at hs he
  subst he hs
  refine safe_bind (Q := fun t => t = s.toList) (by rfl) fun t ht => ?_
  subst ht
  dsimp only [popOr]
  refine vpnBlock_safe (tlsCipherList_mid ?_)
  have ho : ∀ {k : String} {P : Val → Prop} (x y z : Val), k ≠ ".name" → k ≠ ".type" → k ≠ "enabled" → Opt c k P →
      Opt (Dict.update (Dict.erase (Dict.erase c "name") "disabled") [(".name", x), (".type", y), ("enabled", z)]) k P := by
    intro k P x y z k1 k2 k3 hk
    refine opt_update (opt_erase (opt_erase hk)) ?_
    intro p hp e
    simp only [List.mem_cons, List.not_mem_nil, or_false] at hp
    rcases hp with rfl | rfl | rfl
    · exact absurd e.symm k1
    · exact absurd e.symm k2
    · exact absurd e.symm k3
  refine ⟨Dict.nodup_update (Dict.nodup_erase (Dict.nodup_erase h1.nodup _) _) _, ?_, ho _ _ _ (by decide) (by decide) (by decide) h1.remote,
    ho _ _ _ (by decide) (by decide) (by decide) h1.ciphers, ho _ _ _ (by decide) (by decide) (by decide) h1.tls, ho _ _ _ (by decide) (by decide) (by decide) h1.ca⟩
  refine key_update_new (by simp [Dict.keys]) ?_
  intro p hp e
  simp only [List.mem_cons, List.not_mem_nil, or_false] at hp
  rcases hp with rfl | rfl | rfl
  · refine ⟨String.ofList (uciName s.toList), rfl, fun e => hne ?_⟩
    have e := congrArg String.toList e
    simp only [String.toList_ofList] at e
    have hl : (uciName s.toList).length = 0 := by rw [e]; rfl
    unfold uciName at hl
    rw [List.length_map] at hl
    exact String.ext (List.length_eq_zero_iff.1 hl)
  · exact absurd e (by simp)
  · exact absurd e (by simp)

theorem vpnBlocks_safe {env : Env} {l : List Val} (hl : ∀ v ∈ l, IsObj VpnFit v) {config : VDict} (hc : FilesFit config) :
    FilesFit (vpnBlocks (uciVpnBlock env) config l).1 ∧ FilesOnly config (vpnBlocks (uciVpnBlock env) config l).1 ∧
      Safe (fun r => ∀ v ∈ r, IsObj IsBlock v) (vpnBlocks (uciVpnBlock env) config l).2 := by
  induction l generalizing config with
  | nil => exact ⟨hc, FilesOnly.refl _, fun v hv => nomatch hv⟩
  | cons v vs ih =>
    have hb : Safe (fun r => IsBlock r.1 ∧ ∀ f, r.2 = some f → FileFit f) (asDict v >>= uciVpnBlock env) :=
      safe_bind (safe_asDict (hl v List.mem_cons_self)) fun d hd => uciVpnBlock_safe hd
    rw [vpnBlocks]
    cases hx : asDict v >>= uciVpnBlock env with
    | error e => rw [hx] at hb; exact ⟨hc, FilesOnly.refl _, hb⟩
    | ok r =>
      rw [hx] at hb
      obtain ⟨b, f⟩ := r
      obtain ⟨hb, hf⟩ := hb
      dsimp only at hb hf ⊢
      have ha : FilesFit (addVpnFile config f) ∧ FilesOnly config (addVpnFile config f) := by
        cases f with
        | none => exact ⟨hc, FilesOnly.refl _⟩
        | some f =>
          exact addFiles_fit hc fun v hv => by rw [List.mem_singleton] at hv; rw [hv]; exact ⟨f, rfl, hf f rfl⟩
      obtain ⟨i1, i2, i3⟩ := ih (fun w hw => hl w (List.mem_cons_of_mem _ hw)) ha.1
      refine ⟨i1, ha.2.trans i2, safe_bind i3 fun bs hbs => ?_⟩
      intro w hw
      rcases List.mem_cons.1 hw with rfl | hw
      · exact ⟨b, rfl, hb⟩
      · exact hbs w hw

theorem pkgs_one {k : String} {l : List Val} (h : ∀ v ∈ l, IsObj IsBlock v) : IsPkgs (if l.isEmpty = true then [] else [(k, .list l)]) := by
  split
  · exact pkgs_nil
  · intro p hp
    rw [List.mem_singleton] at hp
    rw [hp]
    exact ⟨l, rfl, h⟩

theorem vpn_safe {env : Env} {config inter : VDict} (h : Key config "openvpn" (IsLst (IsObj VpnFit))) (hc : FilesFit config) :
    FilesFit ((uciVpnConv env).run config inter).1 ∧ FilesOnly config ((uciVpnConv env).run config inter).1 ∧
      Safe IsPkgs ((uciVpnConv env).run config inter).2 := by
  obtain ⟨v, hv, l, rfl, hl⟩ := h
  show FilesFit (vpnRun (uciVpnBlock env) config inter).1 ∧ FilesOnly config (vpnRun (uciVpnBlock env) config inter).1 ∧
      Safe IsPkgs (vpnRun (uciVpnBlock env) config inter).2
  unfold vpnRun
  rw [hv]
  obtain ⟨i1, i2, i3⟩ := vpnBlocks_safe (env := env) hl hc
  exact ⟨i1, i2, safe_bind i3 fun bs hbs => pkgs_one hbs⟩

/-! ## ZeroTier -/

structure ZtFit (d : VDict) : Prop where
  nodup : (Dict.keys d).Nodup
  name : Key d "name" IsTxt
  networks : Key d "networks" (IsLst (IsObj fun n => (Dict.keys n).Nodup ∧ Key n "ifname" IsTxt))

theorem ztMerge_safe {path : Chars} {l : List Val} (h : ∀ v ∈ l, IsObj FileFit v) :
    Safe (fun r => ∀ v ∈ r.1, IsObj FileFit v) (ztMerge path l) := by
  induction l with
  | nil => exact fun v hv => nomatch hv
  | cons v vs ih =>
    have ih := ih fun w hw => h w (List.mem_cons_of_mem _ hw)
    rw [ztMerge]
    refine safe_bind (safe_asDict (h v List.mem_cons_self)) fun f hf => ?_
    split
    · refine safe_bind (safe_getKey hf.2.1) ?_
      rintro c ⟨s, rfl⟩
      refine safe_bind (safe_ok (P := fun _ => True) trivial) fun t _ => ?_
      exact safe_bind ih fun r hr => hr
    · refine safe_bind ih fun r hr => ?_
      intro w hw
      rcases List.mem_cons.1 hw with rfl | hw
      · exact h _ List.mem_cons_self
      · exact hr w hw

theorem ztConfig_safe {env : Env} {config d : VDict} (h : ZtFit d) (hc : FilesFit config) :
    Safe (fun c => FilesFit c ∧ FilesOnly config c) (ztConfig env config d) := by
  unfold ztConfig
  have h0 : Safe (fun l => ∀ v ∈ l, IsObj FileFit v) (netjsonFiles config) := by
    unfold netjsonFiles
    cases hg : Dict.get? config "files" with
    | none => exact fun v hv => nomatch hv
    | some w =>
      obtain ⟨l, rfl, hl⟩ := hc w hg
      exact hl
  refine safe_bind h0 fun files hf => ?_
  refine safe_bind (Q := fun l => ∀ v ∈ l, IsObj FileFit v) ?_ fun l hl => ⟨opt_of_key (key_set_self ⟨l, rfl, hl⟩), FilesOnly.set _ _⟩
  unfold ztFiles
  obtain ⟨v, hv, l, rfl, hl⟩ := h.networks
  refine safe_bind (Q := fun x => x = l) (by unfold ztNetworks; rw [hv]; rfl) fun x hx => ?_
  subst hx
  refine safe_bind (safe_mapM (P := fun _ => True) fun n hn => ?_) fun lines _ => ?_
  · unfold ztLine
    exact safe_bind (safe_asDict (hl n hn)) fun _ _ => trivial
  · refine safe_bind (ztMerge_safe hf) ?_
    rintro ⟨others, more⟩ ho
    intro w hw
    rcases List.mem_append.1 hw with hw | hw
    · exact ho w hw
    · rw [List.mem_singleton] at hw
      rw [hw]
      refine ⟨_, rfl, ⟨_, by simp [Dict.get?_cons]; rfl, isTxt_txt _⟩, ⟨_, by simp [Dict.get?_cons]; rfl, isTxt_txt _⟩,
              opt_of_key ⟨_, by simp [Dict.get?_cons], mode_default⟩⟩

theorem ztBlocks_safe {d : VDict} (h : ZtFit d) : Safe (fun r => ∀ v ∈ r, IsObj IsBlock v) (ztBlocks d) := by
  obtain ⟨v, hv, l, rfl, hl⟩ := h.networks
  have h1 : Safe (fun r => IsBlock r ∧ Key r "networks" fun v => v = .list l) (ztBlock d) := by
    unfold ztBlock
    refine safe_bind (Q := fun x => x = l) (by unfold ztNetworks; rw [hv]; rfl) fun x hx => ?_
    subst hx
    refine safe_bind (safe_popKey h.name) ?_
    rintro ⟨name, e⟩ ⟨hn, he⟩
    dsimp only at hn he
    subst he
    refine safe_bind (safe_asText hn) fun nm _ => ?_
    dsimp only [popOr]
    refine safe_bind (safe_mapM (P := fun _ => True) fun n hn => ?_) fun ids _ => ?_
    · unfold ztId
      exact safe_bind (safe_asDict (hl n hn)) fun _ _ => trivial
    · have hb : ∀ a b c d' e f : Val, IsTxt a → IsBlock (Dict.update (Dict.erase (Dict.erase d "name") "disabled") [(".name", a), (".type", b), ("config_path", c), ("copy_config_path", d'),
          ("join", e), ("enabled", f)]) ∧ Key (Dict.update (Dict.erase (Dict.erase d "name") "disabled") [(".name", a), (".type", b), ("config_path", c), ("copy_config_path", d'),
          ("join", e), ("enabled", f)]) "networks" fun v => v = .list x := by
        intro a b c d' e f ha
        refine ⟨block_update (Dict.nodup_erase (Dict.nodup_erase h.nodup _) _) (by simp [Dict.keys]) ?_,
          key_update (key_erase (by decide) (key_erase (by decide) ⟨_, hv, rfl⟩)) ?_⟩
        · intro p hp hk
          simp only [List.mem_cons, List.not_mem_nil, or_false] at hp
          rcases hp with rfl | rfl | rfl | rfl | rfl | rfl
          · exact ha
          all_goals exact absurd hk (by simp)
        · intro p hp hk
          simp only [List.mem_cons, List.not_mem_nil, or_false] at hp
          rcases hp with rfl | rfl | rfl | rfl | rfl | rfl
          all_goals exact absurd hk (by simp)
      have hloc : ∀ u : VDict, (IsBlock u ∧ Key u "networks" fun v => v = .list x) →
          IsBlock (sortedDict (Dict.erase (ztLocalConf u) "client_options")) ∧ Key (sortedDict (Dict.erase (ztLocalConf u) "client_options")) "networks" fun v => v = .list x := by
        rintro u ⟨u1, u2⟩
        have hz : IsBlock (ztLocalConf u) ∧ Key (ztLocalConf u) "networks" fun v => v = .list x := by
          unfold ztLocalConf
          dsimp only
          split
          · exact ⟨block_set u1 (by decide), key_set_ne (by decide) u2⟩
          · split
            · exact ⟨block_set u1 (by decide), key_set_ne (by decide) u2⟩
            · exact ⟨u1, u2⟩
        refine ⟨block_sorted (block_erase hz.1 (by decide)), ?_⟩
        unfold Key
        rw [get?_sortedDict (Dict.nodup_erase hz.1.1 _)]
        exact key_erase (by decide) hz.2
      exact hloc _ (hb _ _ _ _ _ _ (isTxt_txt _))
  unfold ztBlocks
  refine safe_bind h1 ?_
  rintro b ⟨hb, hn⟩
  refine safe_bind (safe_popKey hn) ?_
  rintro ⟨ns, e⟩ ⟨hns, he⟩
  dsimp only at hns he
  subst hns he
  refine safe_bind (safe_mapM (P := IsObj IsBlock) fun n hn => ?_) fun bs hbs => ?_
  · unfold ztNetwork
    refine safe_bind (safe_asDict (hl n hn)) ?_
    rintro x ⟨hx, hif⟩
    refine safe_bind (safe_popKey hif) ?_
    rintro ⟨ifn, e⟩ ⟨hifn, he⟩
    dsimp only at hifn he
    subst he
    refine safe_bind (safe_asText hifn) fun t _ => ?_
    refine ⟨_, rfl, block_sorted (block_update (Dict.nodup_erase hx _) (by simp [Dict.keys]) ?_)⟩
    intro p hp hk
    simp only [List.mem_cons, List.not_mem_nil, or_false] at hp
    rcases hp with rfl | rfl
    · exact isTxt_txt _
    · exact absurd hk (by simp)
  · intro w hw
    rcases List.mem_cons.1 hw with rfl | hw
    · exact ⟨_, rfl, block_erase hb (by decide)⟩
    · exact hbs w hw

theorem ztAll_safe {env : Env} {l : List Val} (hl : ∀ v ∈ l, IsObj ZtFit v) {config : VDict} (hc : FilesFit config) :
    FilesFit (ztAll env config l).1 ∧ FilesOnly config (ztAll env config l).1 ∧ Safe (fun r => ∀ v ∈ r, IsObj IsBlock v) (ztAll env config l).2 := by
  induction l generalizing config with
  | nil => exact ⟨hc, FilesOnly.refl _, fun v hv => nomatch hv⟩
  | cons v vs ih =>
    obtain ⟨d, rfl, hd⟩ := hl v List.mem_cons_self
    rw [ztAll]
    have h1 := ztConfig_safe (env := env) hd hc
    dsimp only [asDict]
    cases hx : ztConfig env config d with
    | error e => rw [hx] at h1; exact ⟨hc, FilesOnly.refl _, h1⟩
    | ok c1 =>
      rw [hx] at h1
      obtain ⟨hc1, ho1⟩ := h1
      dsimp only
      have h2 := ztBlocks_safe hd
      cases hy : ztBlocks d with
      | error e => rw [hy] at h2; exact ⟨hc1, ho1, h2⟩
      | ok bs =>
        rw [hy] at h2
        obtain ⟨i1, i2, i3⟩ := ih (fun w hw => hl w (List.mem_cons_of_mem _ hw)) hc1
        refine ⟨i1, ho1.trans i2, safe_bind i3 fun more hm => ?_⟩
        intro w hw
        rcases List.mem_append.1 hw with hw | hw
        · exact h2 w hw
        · exact hm w hw

theorem zt_safe {env : Env} {config inter : VDict} (h : Key config "zerotier" (IsLst (IsObj ZtFit))) (hc : FilesFit config) :
    FilesFit ((ztConv env).run config inter).1 ∧ FilesOnly config ((ztConv env).run config inter).1 ∧ Safe IsPkgs ((ztConv env).run config inter).2 := by
  obtain ⟨v, hv, l, rfl, hl⟩ := h
  show FilesFit (ztRun env config inter).1 ∧ FilesOnly config (ztRun env config inter).1 ∧ Safe IsPkgs (ztRun env config inter).2
  unfold ztRun
  rw [hv]
  obtain ⟨i1, i2, i3⟩ := ztAll_safe (env := env) hl hc
  exact ⟨i1, i2, safe_bind i3 fun bs hbs => pkgs_one hbs⟩

end NJ
