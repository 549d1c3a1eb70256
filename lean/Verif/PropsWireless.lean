import Verif.Wireless
import Verif.PropsConv

/-!
# C49, C50, C51: what the OpenWrt output says about a Wi-Fi interface
-/

namespace NJ

theorem Dict.get?_foldl_erase (ks : List String) (d : VDict) (k : String) :
    Dict.get? (ks.foldl Dict.erase d) k = if k ∈ ks then none else Dict.get? d k := by
  induction ks generalizing d with
  | nil => simp
  | cons x xs ih =>
    rw [List.foldl_cons, ih, Dict.get?_erase']
    by_cases h1 : k ∈ xs <;> by_cases h2 : k = x <;> simp [h1, h2]

theorem Dict.nodup_foldl_erase (ks : List String) (d : VDict) (h : (Dict.keys d).Nodup) : (Dict.keys (ks.foldl Dict.erase d)).Nodup := by
  induction ks generalizing d with
  | nil => exact h
  | cons x xs ih => exact ih _ (Dict.nodup_erase h x)

theorem Dict.get?_update (d e : VDict) (h : (Dict.keys e).Nodup) (k : String) : Dict.get? (Dict.update d e) k = (Dict.get? e k).or (Dict.get? d k) := by
  induction e generalizing d with
  | nil => simp [Dict.update]
  | cons p r ih =>
    obtain ⟨a, v⟩ := p
    rw [Dict.keys_cons, List.nodup_cons] at h
    rw [Dict.update_cons, ih _ h.2, Dict.get?_set', Dict.get?_cons]
    by_cases e : k = a
    · subst e
      have : Dict.get? r k = none := (Dict.get?_eq_none_iff r k).2 h.1
      simp [this]
    · have e' : ¬ a = k := fun x => e x.symm
      simp [e, e']

/-! ## The block of a Wi-Fi interface -/

/-- the numeric options are kept when they are positive -/
def positive : Option Val → Option Val
  | some (.int i) => if 0 < i then some (.int i) else none
  | some (.bool true) => some (.bool true)
  | _ => none

theorem wifiOption_get {k u : String} {w r : VDict} (hku : k ≠ u) (h : wifiOption k u w = .ok r) (x : String) :
    Dict.get? r x = if x = u then (positive (Dict.get? w k)).or (Dict.get? w u) else if x = k then none else Dict.get? w x := by
  unfold wifiOption at h
  cases hg : Dict.get? w k with
  | none =>
    simp only [hg, Option.getD_none, Except.ok.injEq] at h
    subst h
    rw [Dict.get?_erase']
    by_cases e1 : x = k
    · subst e1; simp [hku]
    · by_cases e2 : x = u
      · subst e2; simp [positive, e1]
      · simp [e1, e2]
  | some v =>
    cases v with
    | none =>
      simp only [hg, Option.getD_some, Except.ok.injEq] at h
      subst h
      rw [Dict.get?_erase']
      by_cases e1 : x = k
      · subst e1; simp [hku]
      · by_cases e2 : x = u
        · subst e2; simp [positive, e1]
        · simp [e1, e2]
    | int i =>
      simp only [hg, Option.getD_some, Except.ok.injEq] at h
      subst h
      by_cases hi : 0 < i
      · rw [if_pos hi, Dict.get?_set', Dict.get?_erase']
        by_cases e1 : x = u
        · subst e1; simp [positive, hi]
        · simp [e1]
      · rw [if_neg hi, Dict.get?_erase']
        by_cases e1 : x = k
        · subst e1; simp [hku]
        · by_cases e2 : x = u
          · subst e2; simp [positive, e1, hi]
          · simp [e1, e2]
    | bool b =>
      simp only [hg, Option.getD_some, Except.ok.injEq] at h
      subst h
      cases b with
      | true =>
        rw [if_pos rfl, Dict.get?_set', Dict.get?_erase']
        by_cases e1 : x = u
        · subst e1; simp [positive]
        · simp [e1]
      | false =>
        rw [if_neg (by simp), Dict.get?_erase']
        by_cases e1 : x = k
        · subst e1; simp [hku]
        · by_cases e2 : x = u
          · subst e2; simp [positive, e1]
          · simp [e1, e2]
    | str s => simp [hg] at h
    | list s => simp [hg] at h
    | dict s => simp [hg] at h

theorem wifiOption_nodup {k u : String} {w r : VDict} (h : wifiOption k u w = .ok r) (hn : (Dict.keys w).Nodup) : (Dict.keys r).Nodup := by
  unfold wifiOption at h
  have he := Dict.nodup_erase hn k
  split at h
  · cases h; exact he
  · cases h; split
    · exact Dict.nodup_set he _ _
    · exact he
  · cases h; split
    · exact Dict.nodup_set he _ _
    · exact he
  · cases h

/-- The options of the section before encryption, roaming and networks are dealt with: those of the `wireless` object `w` of the
interface `d`, with these changes. -/
def wifiBase (name mode : String) (d w : VDict) (k : String) : Option Val :=
  if k = ".type" then some (.str "wifi-iface")
  else if k = ".name" then some (if ((Dict.get? w "id").getD .none).truthy then (Dict.get? w "id").getD .none else .str (wifiAutoName name))
  else if k = "ifname" then some (.str name)
  else if k = "disabled" then some ((Dict.get? d "disabled").getD .none)
  else if k = "device" then Dict.get? w "radio"
  else if k = "macaddr" then (Dict.get? d "mac").or (Dict.get? w "macaddr")
  else if k = "mode" then some (.str mode)
  else if k = "distance" then (positive (Dict.get? w "ack_distance")).or (Dict.get? w "distance")
  else if k = "rts" then (positive (Dict.get? w "rts_threshold")).or (Dict.get? w "rts")
  else if k = "frag" then (positive (Dict.get? w "frag_threshold")).or (Dict.get? w "frag")
  else if k = "id" ∨ k = "radio" ∨ k = "ack_distance" ∨ k = "rts_threshold" ∨ k = "frag_threshold" then none
  else Dict.get? w k

/-- the same once the options made from the encryption object are added -/
def wifiMerged (name mode : String) (d w : VDict) (uci : Option VDict) (k : String) : Option Val :=
  match uci with
  | none => wifiBase name mode d w k
  | some u => if k = "encryption" then Dict.get? u k else (Dict.get? u k).or (wifiBase name mode d w k)

/-- the networks before they are joined: explicit ones, or the bridges, or the interface itself -/
def wifiNetworks (bridged : Dict String (List String)) (name : String) (d : VDict) (explicit : Option Val) : Val :=
  if (explicit.getD .none).truthy then explicit.getD .none
  else match Dict.get? bridged name with
    | some bridges => .list (bridges.map .str)
    | none => if ((Dict.get? d "addresses").getD (.list [])).truthy then .list [.str name] else .list []

theorem popOrElse_get {w r : VDict} {k : String} {v def' : Val} (h : popOrElse w k (fun _ => .ok def') = .ok (v, r)) :
    v = (if ((Dict.get? w k).getD .none).truthy then (Dict.get? w k).getD .none else def') ∧ r = Dict.erase w k := by
  unfold popOrElse at h
  cases hg : Dict.get? w k with
  | none =>
    simp only [hg, bind, Except.bind, pure, Except.pure] at h
    cases h; simp [Val.truthy]
  | some x =>
    simp only [hg] at h
    by_cases ht : x.truthy = true
    · rw [if_pos ht] at h; cases h; simp [ht]
    · rw [if_neg ht] at h
      simp only [bind, Except.bind, pure, Except.pure] at h
      cases h; simp [ht]

theorem protocolText_ok {v : Val} {s : String} : protocolText v = .ok s ↔ v = .str s := by
  cases v <;> simp [protocolText]

theorem copyIf_get (src dst : VDict) (k u x : String) :
    Dict.get? (copyIf src k dst u) x = if x = u then (Dict.get? src k).or (Dict.get? dst u) else Dict.get? dst x := by
  unfold copyIf
  cases h : Dict.get? src k with
  | none => by_cases e : x = u <;> simp [e]
  | some v => rw [Dict.get?_set']; by_cases e : x = u <;> simp [e]

theorem copyIf_nodup {src dst : VDict} {k u : String} (h : (Dict.keys dst).Nodup) : (Dict.keys (copyIf src k dst u)).Nodup := by
  unfold copyIf
  split
  · exact Dict.nodup_set h _ _
  · exact h

theorem lookupText_ok {t : Dict String String} {v : Val} {s : String} : lookupText t v = .ok s ↔ ∃ x, v = .str x ∧ Dict.get? t x = some s := by
  cases v with
  | str x =>
    simp only [lookupText]
    cases h : Dict.get? t x <;> simp [h]
  | _ => simp [lookupText]

theorem Dict.set_one {d : VDict} {k : String} {v : Val} : Dict.update d [(k, v)] = Dict.set d k v := rfl

theorem enterpriseUci_nodup {mode : String} {enc uci r : VDict} (h : enterpriseUci mode enc uci = .ok r) (hn : (Dict.keys uci).Nodup) :
    (Dict.keys r).Nodup := by
  unfold enterpriseUci at h
  have hn' : (Dict.keys (if Dict.get? uci "eap_type" = some (.str "tls") then Dict.erase uci "auth" else uci)).Nodup := by
    split
    · exact Dict.nodup_erase hn _
    · exact hn
  generalize (if Dict.get? uci "eap_type" = some (.str "tls") then Dict.erase uci "auth" else uci) = u at h hn'
  dsimp only at h
  split at h
  · unfold radiusUci at h
    obtain ⟨key, _, h⟩ := bind_ok_iff.1 h
    cases h
    apply copyIf_nodup
    split
    · exact Dict.nodup_set (copyIf_nodup (copyIf_nodup hn')) _ _
    · exact Dict.nodup_set (Dict.nodup_set (copyIf_nodup (copyIf_nodup hn')) _ _) _ _
  · cases h; exact hn'

theorem encKeys_nodup {env : Env} {mode p : String} {enc uci r : VDict} (h : encKeys env mode p enc uci = .ok r) (hn : (Dict.keys uci).Nodup) :
    (Dict.keys r).Nodup := by
  unfold encKeys at h
  split at h
  · obtain ⟨key, _, h⟩ := bind_ok_iff.1 h
    cases h
    exact Dict.nodup_set (Dict.nodup_set hn _ _) _ _
  · obtain ⟨u, hu, h⟩ := bind_ok_iff.1 h
    cases h
    apply copyIf_nodup
    split at hu
    · exact enterpriseUci_nodup hu hn
    · cases hu; exact hn

theorem encryptionUci_nodup {env : Env} {mode : String} {enc u : VDict} (h : encryptionUci env mode enc = .ok u) (hn : (Dict.keys enc).Nodup) :
    (Dict.keys u).Nodup := by
  unfold encryptionUci at h
  obtain ⟨off, _, h⟩ := bind_ok_iff.1 h
  split at h
  · cases h; simp [Dict.keys]
  · obtain ⟨p, _, h⟩ := bind_ok_iff.1 h
    obtain ⟨q, _, h⟩ := bind_ok_iff.1 h
    obtain ⟨r, hr, h⟩ := bind_ok_iff.1 h
    cases h
    exact Dict.nodup_set (encKeys_nodup hr (Dict.nodup_foldl_erase _ _ hn)) _ _

theorem getKey_iff {d : VDict} {k : String} {v : Val} : getKey d k = .ok v ↔ Dict.get? d k = some v := by
  unfold getKey
  cases h : Dict.get? d k <;> simp

theorem popKey_iff {d : VDict} {k : String} {v : Val} {r : VDict} : popKey d k = .ok (v, r) ↔ Dict.get? d k = some v ∧ r = Dict.erase d k := by
  unfold popKey
  cases h : Dict.get? d k <;> simp [eq_comm]

/-- Everything a successful conversion of a Wi-Fi interface says, option by option. -/
theorem wifiBlock_spec {env : Env} {bridged : Dict String (List String)} {d w b : VDict} (hn : (Dict.keys w).Nodup)
    (hne : ∀ enc, Dict.get? w "encryption" = some (.dict enc) → (Dict.keys enc).Nodup)
    (h : wifiBlock env bridged d w = .ok b) :
    ∃ (name m mode : String) (uci : Option VDict) (net : Chars),
      Dict.get? d "name" = some (.str name) ∧ Dict.get? w "mode" = some (.str m) ∧ Dict.get? wifiModes m = some mode ∧
      (Dict.get? w "radio").isSome ∧
      ((Dict.get? w "encryption" = none ∧ uci = none) ∨
        ∃ enc u, Dict.get? w "encryption" = some (.dict enc) ∧ encryptionUci env mode enc = .ok u ∧ uci = some u) ∧
      joinSpaces (wifiNetworks bridged name d (wifiMerged name mode d w uci "network")) = .ok net ∧
      (Dict.keys b).Nodup ∧
      ∀ k, Dict.get? b k =
        if k = "network" then some (txt (uciName net))
        else if wifiMerged name mode d w uci "ieee80211r" = some (.bool false) ∧ k ∈ roamingProperties then none
        else wifiMerged name mode d w uci k := by
  unfold wifiBlock at h
  obtain ⟨nv, h1, h⟩ := bind_ok_iff.1 h
  obtain ⟨name, h2, h⟩ := bind_ok_iff.1 h
  dsimp only at h
  rw [protocolText_ok.1 h2] at h1
  have hname := getKey_iff.1 h1
  obtain ⟨⟨idv, w3⟩, h3, h⟩ := bind_ok_iff.1 h
  obtain ⟨e3, e3'⟩ := popOrElse_get h3
  dsimp only at h
  obtain ⟨⟨radio, w5⟩, h5, h⟩ := bind_ok_iff.1 h
  obtain ⟨e5, e5'⟩ := popKey_iff.1 h5
  dsimp only at h
  obtain ⟨mv, h8, h⟩ := bind_ok_iff.1 h
  obtain ⟨mode, h9, h⟩ := bind_ok_iff.1 h
  obtain ⟨m, hm0, hm⟩ := lookupText_ok.1 h9
  rw [hm0] at h8
  have hmv := getKey_iff.1 h8
  obtain ⟨w10, h10, h⟩ := bind_ok_iff.1 h
  obtain ⟨w11, h11, h⟩ := bind_ok_iff.1 h
  obtain ⟨w12, h12, h⟩ := bind_ok_iff.1 h
  obtain ⟨w13, h13, h⟩ := bind_ok_iff.1 h
  obtain ⟨net, h14, h⟩ := bind_ok_iff.1 h
  cases h
  clear * - hn hne hname e3 e3' e5 e5' hmv hm h10 h11 h12 h13 h14
  -- the chain of dictionaries
  subst e3'
  generalize ew1 : Dict.set w "disabled" ((Dict.get? d "disabled").getD Val.none) = w1 at *
  generalize ew2 : Dict.set w1 "ifname" (Val.str name) = w2 at *
  generalize ew3 : Dict.erase w2 "id" = w3 at *
  generalize ew4 : Dict.update w3 [(".type", Val.str "wifi-iface"), (".name", idv)] = w4 at *
  generalize ew6 : Dict.set w5 "device" radio = w6 at *
  generalize ew7 : copyIf d "mac" w6 "macaddr" = w7 at *
  generalize ew8 : Dict.set w7 "mode" (Val.str mode) = w8 at *
  have g1 : ∀ k, Dict.get? w1 k = if k = "disabled" then some ((Dict.get? d "disabled").getD Val.none) else Dict.get? w k := by
    intro k; rw [← ew1, Dict.get?_set']
  have g2 : ∀ k, Dict.get? w2 k = if k = "ifname" then some (.str name) else Dict.get? w1 k := by
    intro k; rw [← ew2, Dict.get?_set']
  have g3 : ∀ k, Dict.get? w3 k = if k = "id" then none else Dict.get? w2 k := by
    intro k; rw [← ew3, Dict.get?_erase']
  have g4 : ∀ k, Dict.get? w4 k = if k = ".name" then some idv else if k = ".type" then some (.str "wifi-iface") else Dict.get? w3 k := by
    intro k; rw [← ew4, Dict.update_cons, Dict.update_cons, Dict.update_nil, Dict.get?_set', Dict.get?_set']
  have g5 : ∀ k, Dict.get? w5 k = if k = "radio" then none else Dict.get? w4 k := by
    intro k; rw [e5', Dict.get?_erase']
  have g6 : ∀ k, Dict.get? w6 k = if k = "device" then some radio else Dict.get? w5 k := by
    intro k; rw [← ew6, Dict.get?_set']
  have g7 : ∀ k, Dict.get? w7 k = if k = "macaddr" then (Dict.get? d "mac").or (Dict.get? w6 "macaddr") else Dict.get? w6 k := by
    intro k; rw [← ew7, copyIf_get]
  have g8 : ∀ k, Dict.get? w8 k = if k = "mode" then some (.str mode) else Dict.get? w7 k := by
    intro k; rw [← ew8, Dict.get?_set']
  have g10 := wifiOption_get (by decide) h10
  have g11 := wifiOption_get (by decide) h11
  have g12 := wifiOption_get (by decide) h12
  have n8 : (Dict.keys w8).Nodup := by
    rw [← ew8]; apply Dict.nodup_set
    rw [← ew7]; apply copyIf_nodup
    rw [← ew6]; apply Dict.nodup_set
    rw [e5']; apply Dict.nodup_erase
    rw [← ew4, Dict.update_cons, Dict.update_cons, Dict.update_nil]; apply Dict.nodup_set; apply Dict.nodup_set
    rw [← ew3]; apply Dict.nodup_erase
    rw [← ew2]; apply Dict.nodup_set
    rw [← ew1]; exact Dict.nodup_set hn _ _
  have n12 : (Dict.keys w12).Nodup := wifiOption_nodup h12 (wifiOption_nodup h11 (wifiOption_nodup h10 n8))
  have hid : idv = if ((Dict.get? w "id").getD .none).truthy then (Dict.get? w "id").getD .none else .str (wifiAutoName name) := by
    rw [e3, g2, g1]; simp
  have hradio : Dict.get? w "radio" = some radio := by
    simpa [g4, g3, g2, g1] using e5
  have hmode : Dict.get? w "mode" = some (.str m) := by
    simpa [g7, g6, g5, g4, g3, g2, g1] using hmv
  have hbase : ∀ k, Dict.get? w12 k = wifiBase name mode d w k := by
    intro k
    unfold wifiBase
    simp only [g12, g11, g10, g8, g7, g6, g5, g4, g3, g2, g1, ← hid, hradio]
    clear g12 g11 g10 g8 g7 g6 g5 g4 g3 g2 g1 hid hradio hmode n12 n8 h14 h13 h12 h11 h10 hmv e5 e3 hname hne ew1 ew2 ew3 ew4 ew6 ew7 ew8
    have hc : k = ".type" ∨ k = ".name" ∨ k = "ifname" ∨ k = "disabled" ∨ k = "device" ∨ k = "macaddr" ∨ k = "mode" ∨ k = "distance" ∨ k = "rts" ∨
        k = "frag" ∨ k = "id" ∨ k = "radio" ∨ k = "ack_distance" ∨ k = "rts_threshold" ∨ k = "frag_threshold" ∨ 
        (k ≠ ".type" ∧ k ≠ ".name" ∧ k ≠ "ifname" ∧ k ≠ "disabled" ∧ k ≠ "device" ∧ k ≠ "macaddr" ∧ k ≠ "mode" ∧ k ≠ "distance" ∧ k ≠ "rts" ∧
        k ≠ "frag" ∧ k ≠ "id" ∧ k ≠ "radio" ∧ k ≠ "ack_distance" ∧ k ≠ "rts_threshold" ∧ k ≠ "frag_threshold") := by tauto
    rcases hc with rfl | rfl | rfl | rfl | rfl | rfl | rfl | rfl | rfl | rfl | rfl | rfl | rfl | rfl | rfl | hc <;> simp [*]
  clear g12 g11 g10 g8 g7 g6 g5 g4 g3 g2 g1 n8 h12 h11 h10 hmv e5 e3 ew1 ew2 ew3 ew4 ew6 ew7 ew8
  have hmerged : ∃ uci : Option VDict, ((Dict.get? w "encryption" = none ∧ uci = none) ∨
        ∃ enc u, Dict.get? w "encryption" = some (.dict enc) ∧ encryptionUci env mode enc = .ok u ∧ uci = some u) ∧
        (∀ k, Dict.get? w13 k = wifiMerged name mode d w uci k) ∧ (Dict.keys w13).Nodup := by
    unfold wifiEncryption at h13
    have he : Dict.get? w12 "encryption" = Dict.get? w "encryption" := by rw [hbase]; simp [wifiBase]
    rw [he] at h13
    cases hq : Dict.get? w "encryption" with
    | none =>
      rw [hq] at h13; cases h13
      exact ⟨none, .inl ⟨rfl, rfl⟩, hbase, n12⟩
    | some v =>
      rw [hq] at h13
      obtain ⟨enc, q1, q2⟩ := bind_ok_iff.1 h13
      obtain ⟨u, q3, q4⟩ := bind_ok_iff.1 q2
      cases q4
      cases v with
      | dict e =>
        cases q1
        refine ⟨some u, .inr ⟨_, u, rfl, q3, rfl⟩, ?_, Dict.nodup_update (Dict.nodup_erase n12 _) u⟩
        intro k
        have hu := encryptionUci_nodup q3 (hne _ hq)
        rw [Dict.get?_update _ _ hu, Dict.get?_erase', hbase]
        unfold wifiMerged
        by_cases e : k = "encryption"
        · subst e; simp
        · simp [e]
      | _ => cases q1
  obtain ⟨uci, m1, m2, m3⟩ := hmerged
  have hroam : ∀ k, Dict.get? (wifiRoaming w13) k =
      if wifiMerged name mode d w uci "ieee80211r" = some (.bool false) ∧ k ∈ roamingProperties then none else wifiMerged name mode d w uci k := by
    intro k
    unfold wifiRoaming
    rw [m2]
    by_cases e : wifiMerged name mode d w uci "ieee80211r" = some (.bool false)
    · rw [if_pos e, Dict.get?_foldl_erase, m2]; simp [e]
    · rw [if_neg e, m2]; simp [e]
  have nroam : (Dict.keys (wifiRoaming w13)).Nodup := by
    unfold wifiRoaming
    split
    · exact Dict.nodup_foldl_erase _ _ m3
    · exact m3
  refine ⟨name, m, mode, uci, net, hname, hmode, hm, by rw [hradio]; rfl, m1, ?_, sortedDict_nodup (Dict.nodup_set nroam _ _), ?_⟩
  · rw [← h14]
    unfold autoNetwork wifiNetworks
    rw [show Dict.get? (wifiRoaming w13) "network" = wifiMerged name mode d w uci "network" from by
      rw [hroam]; exact if_neg (by rintro ⟨_, h⟩; revert h; decide)]
    rfl
  · intro k
    rw [get?_sortedDict (Dict.nodup_set nroam _ _), Dict.get?_set', hroam]

/-! ## C49 -/

/-- encryption is off: the object is empty, or disabled, or of protocol `none` -/
def EncryptionOff (enc : VDict) : Prop :=
  enc = [] ∨ ((Dict.get? enc "disabled").getD .none).truthy = true ∨ Dict.get? enc "protocol" = some (.str "none")

theorem encOff_iff {enc : VDict} (h : EncryptionOff enc) : encOff enc = .ok true := by
  unfold encOff
  by_cases h1 : enc.isEmpty = true
  · rw [if_pos h1]
  · rw [if_neg h1]
    have hd : ((Dict.get? enc "disabled").getD (.bool false)).truthy = ((Dict.get? enc "disabled").getD .none).truthy := by
      cases Dict.get? enc "disabled" <;> rfl
    rw [hd]
    by_cases h2 : ((Dict.get? enc "disabled").getD .none).truthy = true
    · rw [if_pos h2]
    · rw [if_neg h2]
      rcases h with rfl | h | h
      · simp at h1
      · exact absurd h h2
      · rw [getKey_iff.2 h]; rfl

theorem encryptionUci_off {env : Env} {mode : String} {enc : VDict} (h : EncryptionOff enc) :
    encryptionUci env mode enc = .ok [("encryption", .str "none")] := by
  unfold encryptionUci
  rw [encOff_iff h]; rfl

/-- the options that every section has whatever is in the `wireless` object -/
def wifiOwnOptions : List String :=
  [".type", ".name", "ifname", "disabled", "device", "macaddr", "mode", "distance", "rts", "frag", "network", "encryption"]

theorem wifiBase_own {name mode : String} {d w : VDict} {k : String} {v : Val} (h : wifiBase name mode d w k = some v) (hk : k ∉ wifiOwnOptions) :
    Dict.get? w k = some v := by
  simp only [wifiOwnOptions, List.mem_cons, List.not_mem_nil, or_false, not_or] at hk
  unfold wifiBase at h
  simp only [hk, if_false] at h
  split at h
  · cases h
  · exact h

/-- **C49.** When the encryption object is empty, disabled or of protocol `none`, the section says `encryption` is `none`, and
everything else in it was said outside of the encryption object: an option either is one of the options every section has, with a value that is the same
whatever the encryption object, or is an option of the `wireless` object itself. No key and no secret of the encryption
object is in the section. -/
theorem C49_no_leak (env : Env) (bridged : Dict String (List String)) (d w enc b : VDict) (hn : (Dict.keys w).Nodup) (hne : (Dict.keys enc).Nodup)
    (he : Dict.get? w "encryption" = some (.dict enc)) (hoff : EncryptionOff enc) (h : wifiBlock env bridged d w = .ok b) :
    Dict.get? b "encryption" = some (.str "none") ∧
    ∀ k v, k ∉ wifiOwnOptions → Dict.get? b k = some v → Dict.get? w k = some v := by
  obtain ⟨name, m, mode, uci, net, _, _, _, _, h5, _, _, h7⟩ := wifiBlock_spec hn (by
    intro e h; rw [he] at h; cases h; exact hne) h
  rcases h5 with ⟨h5, _⟩ | ⟨e, u, h5, h6, rfl⟩
  · rw [he] at h5; cases h5
  · rw [he] at h5
    cases h5
    rw [encryptionUci_off hoff] at h6
    cases h6
    refine ⟨?_, ?_⟩
    · rw [h7, if_neg (by decide), if_neg (by rintro ⟨_, h⟩; revert h; decide)]
      simp [wifiMerged, Dict.get?]
    · intro k v hk hv
      have hk' := hk
      simp only [wifiOwnOptions, List.mem_cons, List.not_mem_nil, or_false, not_or] at hk'
      rw [h7, if_neg hk'.2.2.2.2.2.2.2.2.2.2.1] at hv
      split at hv
      · cases hv
      · have e : ("encryption" : String) ≠ k := fun e => hk'.2.2.2.2.2.2.2.2.2.2.2 e.symm
        simp only [wifiMerged, if_neg hk'.2.2.2.2.2.2.2.2.2.2.2, Dict.get?_cons, if_neg e, Dict.get?_nil, Option.none_or] at hv
        exact wifiBase_own hv hk

/-- the sections for two Wi-Fi interfaces that differ only in an encryption object that is off are the same -/
theorem C49_same (env : Env) (bridged : Dict String (List String)) (d w enc enc' b b' : VDict) (hn : (Dict.keys w).Nodup)
    (hne : (Dict.keys enc).Nodup) (hne' : (Dict.keys enc').Nodup)
    (he : Dict.get? w "encryption" = some (.dict enc)) (hoff : EncryptionOff enc) (hoff' : EncryptionOff enc')
    (h : wifiBlock env bridged d w = .ok b) (h' : wifiBlock env bridged d (Dict.set w "encryption" (.dict enc')) = .ok b') : SameItems b b' := by
  obtain ⟨name, m, mode, uci, net, a1, a2, a3, _, a5, a6, _, a7⟩ := wifiBlock_spec hn (by
    intro e h; rw [he] at h; cases h; exact hne) h
  obtain ⟨name', m', mode', uci', net', c1, c2, c3, _, c5, c6, _, c7⟩ := wifiBlock_spec (Dict.nodup_set hn _ _) (by
    intro e h; rw [Dict.get?_set_self] at h; cases h; exact hne') h'
  rw [Dict.get?_set', if_neg (by decide), a2] at c2
  rw [a1] at c1
  cases c1; cases c2
  rw [a3] at c3; cases c3
  have hu : uci = some [("encryption", .str "none")] := by
    rcases a5 with ⟨h5, _⟩ | ⟨e, u, h5, h6, rfl⟩
    · rw [he] at h5; cases h5
    · rw [he] at h5; cases h5
      rw [encryptionUci_off hoff] at h6; cases h6; rfl
  have hu' : uci' = some [("encryption", .str "none")] := by
    rcases c5 with ⟨h5, _⟩ | ⟨e, u, h5, h6, rfl⟩
    · rw [Dict.get?_set_self] at h5; cases h5
    · rw [Dict.get?_set_self] at h5; cases h5
      rw [encryptionUci_off hoff'] at h6; cases h6; rfl
  subst hu hu'
  have hm : ∀ k, wifiMerged name mode d (Dict.set w "encryption" (.dict enc')) (some [("encryption", .str "none")]) k =
      wifiMerged name mode d w (some [("encryption", .str "none")]) k := by
    intro k
    unfold wifiMerged
    dsimp only
    split
    · rfl
    · next hk =>
      congr 1
      unfold wifiBase
      simp only [Dict.get?_set', hk, if_false]
      simp
  rw [hm, a6] at c6
  cases c6
  intro k
  rw [a7, c7, hm, hm]

/-! ## The options made from an encryption object -/

/-- the options of the encryption object that are copied -/
def encCopied (enc : VDict) (k : String) : Option Val :=
  if k = "protocol" ∨ k = "key" ∨ k = "cipher" ∨ k = "disabled" ∨ k = "acct_server_port" then none else Dict.get? enc k

/-- the options of an enterprise network -/
def encEnterprise (mode : String) (enc : VDict) (k : String) : Option Val :=
  if k = "auth" ∧ Dict.get? enc "eap_type" = some (.str "tls") then none
  else if mode = "ap" then
    (if k = "auth_server" then (Dict.get? enc "server").or (Dict.get? enc "auth_server")
    else if k = "auth_port" then (Dict.get? enc "port").or (Dict.get? enc "auth_port")
    else if k = "auth_secret" then Dict.get? enc "key"
    else if k = "acct_secret" then (Dict.get? enc "acct_secret").or (Dict.get? enc "key")
    else if k = "acct_port" then (Dict.get? enc "acct_server_port").or (Dict.get? enc "acct_port")
    else encCopied enc k)
  else encCopied enc k

/-- the options made from an encryption object of protocol `p` that is not off -/
def encItem (env : Env) (mode p : String) (enc : VDict) (k : String) : Option Val :=
  if k = "encryption" then some (.str (encValue env p ((Dict.get? enc "cipher").getD .none)))
  else if startsWith "wep" p then
    (if k = "key" then some (.str "1")
    else if k = "key1" then (Dict.get? enc "key").map (fun v => if p = "wep_open" then .str ("s:" ++ pyStr env.reprC v) else v)
    else encCopied enc k)
  else if k = "key" then Dict.get? enc "key"
  else if isEnterprise p.toList then encEnterprise mode enc k
  else encCopied enc k

theorem encStrip_get (enc : VDict) (k : String) : Dict.get? (encStrip enc) k = encCopied enc k := by
  unfold encStrip encCopied
  rw [Dict.get?_foldl_erase]
  simp

theorem get?_has {d : VDict} {k : String} : Dict.has d k = true ↔ ∃ v, Dict.get? d k = some v := by
  unfold Dict.has
  cases Dict.get? d k <;> simp

theorem radiusUci_get {enc uci r : VDict} (h : radiusUci enc uci = .ok r) : (∃ v, Dict.get? enc "key" = some v) ∧ ∀ k, Dict.get? r k =
    if k = "auth_server" then (Dict.get? enc "server").or (Dict.get? uci "auth_server")
    else if k = "auth_port" then (Dict.get? enc "port").or (Dict.get? uci "auth_port")
    else if k = "auth_secret" then Dict.get? enc "key"
    else if k = "acct_secret" then (if Dict.has enc "acct_secret" then Dict.get? uci "acct_secret" else Dict.get? enc "key")
    else if k = "acct_port" then (Dict.get? enc "acct_server_port").or (Dict.get? uci "acct_port")
    else Dict.get? uci k := by
  unfold radiusUci at h
  dsimp only at h
  obtain ⟨key, h1, h⟩ := bind_ok_iff.1 h
  rw [getKey_iff] at h1
  cases h
  refine ⟨⟨key, h1⟩, ?_⟩
  intro k
  rw [copyIf_get]
  have e : ∀ k, Dict.get? (if Dict.has enc "acct_secret" then Dict.set (copyIf enc "port" (copyIf enc "server" uci "auth_server") "auth_port") "auth_secret" key
      else Dict.set (Dict.set (copyIf enc "port" (copyIf enc "server" uci "auth_server") "auth_port") "auth_secret" key) "acct_secret" key) k =
      if k = "acct_secret" then (if Dict.has enc "acct_secret" then Dict.get? uci "acct_secret" else some key)
      else if k = "auth_secret" then some key
      else if k = "auth_port" then (Dict.get? enc "port").or (Dict.get? uci "auth_port")
      else if k = "auth_server" then (Dict.get? enc "server").or (Dict.get? uci "auth_server") else Dict.get? uci k := by
    intro k
    by_cases ha : Dict.has enc "acct_secret" = true
    · rw [if_pos ha, Dict.get?_set', copyIf_get, copyIf_get, copyIf_get]
      by_cases e0 : k = "acct_secret"
      · subst e0; simp [ha]
      · simp only [e0, if_false]
        simp
    · rw [if_neg ha, Dict.get?_set', Dict.get?_set', copyIf_get, copyIf_get, copyIf_get]
      by_cases e0 : k = "acct_secret"
      · subst e0; simp [ha]
      · simp only [e0, if_false]
        simp
  rw [e, e, h1]
  have hc : k = "auth_server" ∨ k = "auth_port" ∨ k = "auth_secret" ∨ k = "acct_secret" ∨ k = "acct_port" ∨
    (k ≠ "auth_server" ∧ k ≠ "auth_port" ∧ k ≠ "auth_secret" ∧ k ≠ "acct_secret" ∧ k ≠ "acct_port") := by tauto
  rcases hc with rfl | rfl | rfl | rfl | rfl | hc <;> simp [*]

theorem enterpriseUci_get {mode : String} {enc r : VDict} (h : enterpriseUci mode enc (encStrip enc) = .ok r) :
    (mode = "ap" → ∃ v, Dict.get? enc "key" = some v) ∧ ∀ k, Dict.get? r k = encEnterprise mode enc k := by
  unfold enterpriseUci at h
  generalize eu : (if Dict.get? (encStrip enc) "eap_type" = some (.str "tls") then Dict.erase (encStrip enc) "auth" else encStrip enc) = u at h
  have gu : ∀ k, Dict.get? u k = if k = "auth" ∧ Dict.get? enc "eap_type" = some (.str "tls") then none else encCopied enc k := by
    intro k
    have he : Dict.get? (encStrip enc) "eap_type" = Dict.get? enc "eap_type" := by rw [encStrip_get]; rfl
    rw [← eu, he]
    by_cases ht : Dict.get? enc "eap_type" = some (.str "tls")
    · rw [if_pos ht, Dict.get?_erase', encStrip_get]; simp [ht]
    · rw [if_neg ht, encStrip_get]; simp [ht]
  dsimp only at h
  clear eu
  by_cases hm : mode = "ap"
  · rw [if_pos hm] at h
    obtain ⟨hk, hg⟩ := radiusUci_get h
    refine ⟨fun _ => hk, fun k => ?_⟩
    rw [hg]
    unfold encEnterprise
    rw [if_pos hm, gu, gu, gu, gu, gu]
    have ha : (if Dict.has enc "acct_secret" = true then encCopied enc "acct_secret" else Dict.get? enc "key") =
        (Dict.get? enc "acct_secret").or (Dict.get? enc "key") := by
      unfold Dict.has
      cases h : Dict.get? enc "acct_secret" <;> simp [encCopied, h]
    have c1 : encCopied enc "auth_server" = Dict.get? enc "auth_server" := by simp [encCopied]
    have c2 : encCopied enc "auth_port" = Dict.get? enc "auth_port" := by simp [encCopied]
    have c3 : encCopied enc "acct_port" = Dict.get? enc "acct_port" := by simp [encCopied]
    clear hg h gu
    have hc : k = "auth_server" ∨ k = "auth_port" ∨ k = "auth_secret" ∨ k = "acct_secret" ∨ k = "acct_port" ∨
      (k ≠ "auth_server" ∧ k ≠ "auth_port" ∧ k ≠ "auth_secret" ∧ k ≠ "acct_secret" ∧ k ≠ "acct_port") := by tauto
    rcases hc with rfl | rfl | rfl | rfl | rfl | hc
    · simp [c1]
    · simp [c2]
    · simp
    · simpa using ha
    · simp [c3]
    · simp only [hc, if_false]
  · rw [if_neg hm] at h
    cases h
    refine ⟨fun h => absurd h hm, fun k => ?_⟩
    rw [gu]
    unfold encEnterprise
    rw [if_neg hm]

theorem encryptionUci_get {env : Env} {mode : String} {enc u : VDict} (h : encryptionUci env mode enc = .ok u) (hoff : ¬ EncryptionOff enc) :
    ∃ p, Dict.get? enc "protocol" = some (.str p) ∧ ∀ k, Dict.get? u k = encItem env mode p enc k := by
  unfold encryptionUci at h
  obtain ⟨off, h0, h⟩ := bind_ok_iff.1 h
  have hof : off = false := by
    cases off with
    | false => rfl
    | true =>
      exfalso
      apply hoff
      unfold encOff at h0
      split at h0
      · next e => exact .inl (by simpa using e)
      · split at h0
        · next e =>
          refine .inr (.inl ?_)
          revert e
          cases Dict.get? enc "disabled" <;> exact id
        · obtain ⟨p, h1, h2⟩ := bind_ok_iff.1 h0
          rw [getKey_iff] at h1
          simp only [pure, Except.pure, Except.ok.injEq, decide_eq_true_eq] at h2
          subst h2
          exact .inr (.inr h1)
  subst hof
  simp only [Bool.false_eq_true, if_false] at h
  obtain ⟨pv, h1, h⟩ := bind_ok_iff.1 h
  obtain ⟨p, h2, h⟩ := bind_ok_iff.1 h
  rw [protocolText_ok] at h2
  rw [h2] at h1
  rw [getKey_iff] at h1
  obtain ⟨r, hr, h⟩ := bind_ok_iff.1 h
  cases h
  refine ⟨p, h1, fun k => ?_⟩
  rw [Dict.get?_set']
  unfold encItem
  by_cases ek : k = "encryption"
  · simp [ek]
  · rw [if_neg ek, if_neg ek]
    unfold encKeys at hr
    by_cases hw : startsWith "wep" p = true
    · rw [if_pos hw] at hr
      rw [if_pos hw]
      obtain ⟨key, q1, q2⟩ := bind_ok_iff.1 hr
      rw [getKey_iff] at q1
      cases q2
      rw [Dict.get?_set', Dict.get?_set', encStrip_get, q1]
      by_cases e1 : k = "key1"
      · subst e1; simp
      · simp [e1]
    · rw [if_neg hw] at hr
      rw [if_neg hw]
      obtain ⟨u, q1, q2⟩ := bind_ok_iff.1 hr
      cases q2
      rw [copyIf_get]
      by_cases hent : isEnterprise p.toList = true
      · rw [if_pos hent] at q1
        obtain ⟨_, q3⟩ := enterpriseUci_get q1
        rw [if_pos hent, q3, q3]
        by_cases e1 : k = "key"
        · subst e1; simp [encEnterprise, encCopied]
        · simp [e1]
      · rw [if_neg hent] at q1
        cases q1
        rw [if_neg hent, encStrip_get, encStrip_get]
        by_cases e1 : k = "key"
        · subst e1; simp [encCopied]
        · simp [e1]

/-- an encryption object that is not off is converted unless a key is missing -/
theorem encryptionUci_ok (env : Env) (mode : String) (enc : VDict) (p : String) (hoff : ¬ EncryptionOff enc) (hp : Dict.get? enc "protocol" = some (.str p))
    (hk : startsWith "wep" p = true ∨ (isEnterprise p.toList = true ∧ mode = "ap") → ∃ v, Dict.get? enc "key" = some v) :
    ∃ u, encryptionUci env mode enc = .ok u := by
  have h0 : encOff enc = .ok false := by
    unfold encOff
    unfold EncryptionOff at hoff
    rw [not_or, not_or] at hoff
    rw [if_neg (by simpa using hoff.1), if_neg, getKey_iff.2 hp]
    · show Except.ok _ = _
      have : p ≠ "none" := fun e => hoff.2.2 (by rw [hp, e])
      simp [this]
    · intro e
      apply hoff.2.1
      revert e
      cases Dict.get? enc "disabled" <;> exact id
  have h1 : ∃ r, encKeys env mode p enc (encStrip enc) = .ok r := by
    unfold encKeys
    by_cases hw : startsWith "wep" p = true
    · rw [if_pos hw]
      obtain ⟨v, hv⟩ := hk (.inl hw)
      exact ⟨_, by rw [getKey_iff.2 hv]; rfl⟩
    · rw [if_neg hw]
      by_cases he : isEnterprise p.toList = true
      · rw [if_pos he]
        by_cases hm : mode = "ap"
        · obtain ⟨v, hv⟩ := hk (.inr ⟨he, hm⟩)
          exact ⟨_, by simp only [enterpriseUci, hm, if_true, radiusUci, getKey_iff.2 hv]; rfl⟩
        · exact ⟨_, by simp only [enterpriseUci, hm, if_false]; rfl⟩
      · rw [if_neg he]
        exact ⟨_, rfl⟩
  obtain ⟨r, hr⟩ := h1
  refine ⟨Dict.set r "encryption" (.str (encValue env p ((Dict.get? enc "cipher").getD .none))), ?_⟩
  unfold encryptionUci
  rw [h0, getKey_iff.2 hp]
  show (encKeys env mode p enc (encStrip enc) >>= _) = _
  rw [hr]; rfl

/-! ## C50 -/

/-- an option that is neither one every section has nor made from the encryption object: that of the encryption object when
it is not off and has it, otherwise that of the wireless object -/
def wifiOption? (w : VDict) (k : String) : Option Val :=
  match Dict.get? w "encryption" with
  | some (.dict enc) => if encOff enc = .ok true then Dict.get? w k else (Dict.get? enc k).or (Dict.get? w k)
  | _ => Dict.get? w k

theorem encOff_true {enc : VDict} : encOff enc = .ok true ↔ EncryptionOff enc := by
  refine ⟨fun h0 => ?_, encOff_iff⟩
  unfold encOff at h0
  split at h0
  · next e => exact .inl (by simpa using e)
  · split at h0
    · next e =>
      refine .inr (.inl ?_)
      revert e
      cases Dict.get? enc "disabled" <;> exact id
    · obtain ⟨p, h1, h2⟩ := bind_ok_iff.1 h0
      rw [getKey_iff] at h1
      simp only [pure, Except.pure, Except.ok.injEq, decide_eq_true_eq] at h2
      subst h2
      exact .inr (.inr h1)

/-- the options made from the encryption object -/
def encMade : List String :=
  ["encryption", "protocol", "key", "key1", "cipher", "disabled", "acct_server_port", "auth", "auth_server", "auth_port", "auth_secret", "acct_secret",
   "acct_port"]

theorem encItem_plain {env : Env} {mode p : String} {enc : VDict} {k : String} (hk : k ∉ encMade) : encItem env mode p enc k = Dict.get? enc k := by
  simp only [encMade, List.mem_cons, List.not_mem_nil, or_false, not_or] at hk
  unfold encItem encEnterprise encCopied
  simp only [hk, if_false, or_self, false_and, ite_self]

theorem wifiMerged_plain {env : Env} {name mode : String} {d w : VDict} {uci : Option VDict} {k : String}
    (h5 : (Dict.get? w "encryption" = none ∧ uci = none) ∨
        ∃ enc u, Dict.get? w "encryption" = some (.dict enc) ∧ encryptionUci env mode enc = .ok u ∧ uci = some u)
    (hk : k = "ieee80211r" ∨ k ∈ roamingProperties) : wifiMerged name mode d w uci k = wifiOption? w k := by
  have hb : wifiBase name mode d w k = Dict.get? w k := by
    rcases hk with rfl | hk
    · simp [wifiBase]
    · simp only [roamingProperties, List.mem_cons, List.not_mem_nil, or_false] at hk
      rcases hk with rfl | rfl | rfl | rfl <;> simp [wifiBase]
  rcases h5 with ⟨h, rfl⟩ | ⟨enc, u, h, h2, rfl⟩
  · simp only [wifiMerged, wifiOption?, h, hb]
  · simp only [wifiMerged, wifiOption?, h, hb]
    rw [if_neg (by rcases hk with rfl | hk; · decide
                   rintro rfl; revert hk; decide)]
    by_cases ho : EncryptionOff enc
    · rw [if_pos (encOff_iff ho)]
      rw [encryptionUci_off ho] at h2
      cases h2
      rcases hk with rfl | hk
      · simp [Dict.get?]
      · simp only [roamingProperties, List.mem_cons, List.not_mem_nil, or_false] at hk
        rcases hk with rfl | rfl | rfl | rfl <;> simp [Dict.get?]
    · rw [if_neg (fun e => ho (encOff_true.1 e))]
      obtain ⟨p, _, hg⟩ := encryptionUci_get h2 ho
      rw [hg]
      congr 1
      apply encItem_plain
      rcases hk with rfl | hk
      · decide
      · simp only [roamingProperties, List.mem_cons, List.not_mem_nil, or_false] at hk
        rcases hk with rfl | rfl | rfl | rfl <;> decide

/-- **C50.** The roaming options are in the section exactly as configured, unless `ieee80211r` is false: then none of them is. -/
theorem C50_roaming (env : Env) (bridged : Dict String (List String)) (d w b : VDict) (hn : (Dict.keys w).Nodup)
    (hne : ∀ enc, Dict.get? w "encryption" = some (.dict enc) → (Dict.keys enc).Nodup) (h : wifiBlock env bridged d w = .ok b) :
    ∀ k ∈ ["ft_over_ds", "ft_psk_generate_local", "nasid", "reassociation_deadline"],
      Dict.get? b k = if wifiOption? w "ieee80211r" = some (.bool false) then none else wifiOption? w k := by
  obtain ⟨name, m, mode, uci, net, _, _, _, _, h5, _, _, h7⟩ := wifiBlock_spec hn hne h
  intro k hk
  have hk' : k ∈ roamingProperties := hk
  rw [h7, if_neg (by rintro rfl; revert hk; decide), wifiMerged_plain h5 (.inl rfl), wifiMerged_plain h5 (.inr hk')]
  simp [hk']

/-! ## C51 -/

/-- the elements of a list in the order of their first occurrence, once each -/
def once : List String → List String
  | [] => []
  | x :: xs => x :: (once xs).filter (fun y => y ≠ x)

theorem mem_once {x : String} {l : List String} : x ∈ once l ↔ x ∈ l := by
  induction l with
  | nil => simp [once]
  | cons y ys ih =>
    simp only [once, List.mem_cons, List.mem_filter, ih, decide_eq_true_eq]
    by_cases e : x = y <;> simp [e]

theorem once_nodup (l : List String) : (once l).Nodup := by
  induction l with
  | nil => simp [once]
  | cons y ys ih =>
    rw [once, List.nodup_cons]
    exact ⟨by simp, ih.filter _⟩

theorem once_sublist (l : List String) : (once l).Sublist l := by
  induction l with
  | nil => simp [once]
  | cons y ys ih => exact (List.filter_sublist.trans ih).cons_cons y

/-- whether a section of the network package is a bridge that lists the interface `n`: in DSA mode among its ports if it has any,
otherwise in its `ifname` -/
def listsMember (dsa : Bool) (b : VDict) (n : String) : Bool :=
  decide (Dict.get? b "type" = some (.str "bridge")) &&
  match dsa, Dict.get? b "ports" with
  | true, some (.list (x :: xs)) => decide (Val.str n ∈ x :: xs)
  | _, _ => match Dict.get? b "ifname" with
    | some (.str s) => decide (n.toList ∈ splitOn ' ' s.toList)
    | _ => false

/-- the name of the bridge a section is about: in DSA mode the devices are named `device_` and the name of the bridge -/
def bridgeOf (dsa : Bool) (b : VDict) : String :=
  match Dict.get? b ".name" with
  | some (.str s) => bridgeName dsa s.toList
  | _ => ""

/-- the bridges that list the interface `n`, in order, once each -/
def bridgesListing (dsa : Bool) (blocks : List VDict) (n : String) : List String :=
  once ((blocks.filter (fun b => listsMember dsa b n)).map (bridgeOf dsa))

/-- what is kept for one interface, as a list -/
def tracked (m : Dict String (List String)) (n : String) : List String := (Dict.get? m n).getD []

theorem addBridge_get (bridge : String) (m : Dict String (List String)) (phys n : String) :
    Dict.get? (addBridge bridge m phys) n =
      if n = phys then some (if bridge ∈ tracked m n then tracked m n else tracked m n ++ [bridge]) else Dict.get? m n := by
  unfold addBridge tracked
  cases h : Dict.get? m phys with
  | none =>
    simp only [Dict.get?_set']
    by_cases e : n = phys
    · subst e; simp [h]
    · simp [e]
  | some l =>
    by_cases hb : bridge ∈ l
    · simp only [hb, if_true]
      by_cases e : n = phys
      · subst e; simp [h, hb]
      · simp [e]
    · simp only [hb, if_false, Dict.get?_set']
      by_cases e : n = phys
      · subst e; simp [h, hb]
      · simp [e]

theorem foldl_addBridge (bridge : String) (members : List String) (m : Dict String (List String)) (n : String) :
    Dict.get? (members.foldl (addBridge bridge) m) n =
      if n ∈ members then some (if bridge ∈ tracked m n then tracked m n else tracked m n ++ [bridge]) else Dict.get? m n := by
  induction members generalizing m with
  | nil => simp
  | cons x xs ih =>
    rw [List.foldl_cons, ih]
    have ht : tracked (addBridge bridge m x) n = if n = x then (if bridge ∈ tracked m n then tracked m n else tracked m n ++ [bridge]) else tracked m n := by
      conv_lhs => unfold tracked
      rw [addBridge_get]
      by_cases e : n = x
      · simp [e]
      · simp [e, tracked]
    rw [ht, addBridge_get]
    by_cases e : n = x
    · subst e
      by_cases hb : bridge ∈ tracked m n <;> by_cases hx : n ∈ xs <;> simp [hb, hx]
    · by_cases hx : n ∈ xs <;> simp [e, hx]

theorem mem_members {dsa : Bool} {b : VDict} {n : String} (hp : ∀ v, Dict.get? b "ports" = some v → ∃ l, v = .list l)
    (ht : Dict.get? b "type" = some (.str "bridge")) :
    listsMember dsa b n = match bridgeMembers dsa b with
      | some l => decide (n ∈ l)
      | none => false := by
  have hs : ∀ s : String, decide (n.toList ∈ splitOn ' ' s.toList) = decide (n ∈ (splitOn ' ' s.toList).map String.ofList) := by
    intro s
    apply decide_eq_decide.2
    rw [List.mem_map]
    exact ⟨fun h => ⟨_, h, String.ofList_toList⟩, by rintro ⟨x, hx, rfl⟩; simpa using hx⟩
  have hif : (match Dict.get? b "ifname" with
    | some (.str s) => decide (n.toList ∈ splitOn ' ' s.toList)
    | _ => false) = match (match Dict.get? b "ifname" with
    | some (.str s) => some ((splitOn ' ' s.toList).map String.ofList)
    | _ => none : Option (List String)) with
      | some l => decide (n ∈ l)
      | none => false := by
    cases h : Dict.get? b "ifname" with
    | none => rfl
    | some v =>
      cases v with
      | str s => exact hs s
      | _ => rfl
  unfold listsMember bridgeMembers
  simp only [ht, decide_true, Bool.true_and]
  cases dsa with
  | false =>
    simp only [Bool.false_and, Bool.false_eq_true, if_false]
    exact hif
  | true =>
    cases hg : Dict.get? b "ports" with
    | none =>
      simp only [Option.getD_none, Val.truthy, List.isEmpty_nil, Bool.not_true, Bool.and_false, Bool.false_eq_true, if_false]
      exact hif
    | some v =>
      obtain ⟨l, rfl⟩ := hp v hg
      cases l with
      | nil =>
        simp only [Option.getD_some, Val.truthy, List.isEmpty_nil, Bool.not_true, Bool.and_false, Bool.false_eq_true, if_false]
        exact hif
      | cons x xs =>
        simp only [Option.getD_some, Val.truthy, List.isEmpty_cons, Bool.not_false, Bool.and_true, if_true, portTexts]
        apply decide_eq_decide.2
        rw [List.mem_filterMap]
        constructor
        · intro h; exact ⟨_, h, rfl⟩
        · rintro ⟨v, hv, e⟩
          cases v with
          | str s => simp only [Option.some.injEq] at e; subst e; exact hv
          | _ => simp at e

theorem trackBlock_get {dsa : Bool} {m m' : Dict String (List String)} {b : VDict} (hp : ∀ v, Dict.get? b "ports" = some v → ∃ l, v = .list l)
    (h : trackBlock dsa m (.dict b) = .ok m') (n : String) :
    Dict.get? m' n = if listsMember dsa b n then some (if bridgeOf dsa b ∈ tracked m n then tracked m n else tracked m n ++ [bridgeOf dsa b])
      else Dict.get? m n := by
  unfold trackBlock at h
  simp only [asDict, bind, Except.bind] at h
  by_cases ht : Dict.get? b "type" = some (.str "bridge")
  · rw [if_neg (by simpa using ht)] at h
    rw [mem_members hp ht]
    cases hm : bridgeMembers dsa b with
    | none => rw [hm] at h; cases h; rfl
    | some l =>
      rw [hm] at h
      dsimp only at h
      cases hn : getKey b ".name" with
      | error e => rw [hn] at h; cases h
      | ok v =>
        rw [hn] at h
        dsimp only at h
        cases v with
        | str s =>
          cases h
          have hb : bridgeOf dsa b = bridgeName dsa s.toList := by
            unfold bridgeOf; rw [getKey_iff.1 hn]
          rw [foldl_addBridge, hb]
          simp
        | _ => cases h
  · rw [if_pos ht] at h
    cases h
    simp [listsMember, ht]

theorem once_snoc (l : List String) (x : String) : once (l ++ [x]) = if x ∈ once l then once l else once l ++ [x] := by
  induction l with
  | nil => simp [once]
  | cons y ys ih =>
    rw [List.cons_append, once, ih, once]
    by_cases h1 : x ∈ once ys
    · rw [if_pos h1]
      rw [if_pos]
      by_cases e : x = y
      · simp [e]
      · simp [h1, e]
    · rw [if_neg h1]
      by_cases e : x = y
      · subst e; simp
      · rw [if_neg (by simp [h1, e]), List.filter_append]
        simp [e]

theorem track_foldl {dsa : Bool} (todo : List VDict) : ∀ (m m' : Dict String (List String)) (done : List VDict),
    (∀ b ∈ todo, ∀ v, Dict.get? b "ports" = some v → ∃ l, v = .list l) →
    (∀ n, Dict.get? m n = if bridgesListing dsa done n = [] then none else some (bridgesListing dsa done n)) →
    (todo.map Val.dict).foldlM (trackBlock dsa) m = .ok m' →
    ∀ n, Dict.get? m' n = if bridgesListing dsa (done ++ todo) n = [] then none else some (bridgesListing dsa (done ++ todo) n) := by
  induction todo with
  | nil =>
    intro m m' done _ hm h n
    cases h
    simpa using hm n
  | cons b bs ih =>
    intro m m' done hp hm h n
    rw [List.map_cons, List.foldlM_cons] at h
    obtain ⟨m1, h1, h2⟩ := bind_ok_iff.1 h
    have := ih m1 m' (done ++ [b]) (fun x hx => hp x (by simp [hx])) (by
      intro n
      rw [trackBlock_get (hp b (by simp)) h1, hm]
      have ht : tracked m n = bridgesListing dsa done n := by
        unfold tracked
        rw [hm]
        split
        · next e => rw [e]; rfl
        · rfl
      rw [ht]
      have hl : bridgesListing dsa (done ++ [b]) n = if listsMember dsa b n then
          (if bridgeOf dsa b ∈ bridgesListing dsa done n then bridgesListing dsa done n else bridgesListing dsa done n ++ [bridgeOf dsa b])
          else bridgesListing dsa done n := by
        unfold bridgesListing
        rw [List.filter_append, List.map_append]
        by_cases hl : listsMember dsa b n = true
        · simp only [hl, if_true, List.filter_cons, List.filter_nil, List.map_cons, List.map_nil]
          exact once_snoc _ _
        · simp [hl]
      rw [hl]
      by_cases hl : listsMember dsa b n = true
      · rw [if_pos hl, if_pos hl]
        by_cases hb : bridgeOf dsa b ∈ bridgesListing dsa done n
        · rw [if_pos hb, if_neg (by intro e; rw [e] at hb; simp at hb)]
        · rw [if_neg hb, if_neg (by simp)]
      · rw [if_neg hl, if_neg hl]) h2 n
    simpa using this

/-- what is tracked: for every interface, the bridges that list it, in order, once each -/
theorem C51_tracked (dsa : Bool) (inter : VDict) (blocks : List VDict) (m : Dict String (List String))
    (hi : Dict.get? inter "network" = some (.list (blocks.map .dict)) ∨ Dict.get? inter "network" = none ∧ blocks = [])
    (hp : ∀ b ∈ blocks, ∀ v, Dict.get? b "ports" = some v → ∃ l, v = .list l) (h : trackBridges dsa inter = .ok m) (n : String) :
    Dict.get? m n = if bridgesListing dsa blocks n = [] then none else some (bridgesListing dsa blocks n) := by
  have h' : (blocks.map Val.dict).foldlM (trackBlock dsa) [] = .ok m := by
    unfold trackBridges at h
    rcases hi with hi | ⟨hi, rfl⟩
    · rw [hi] at h; exact h
    · rw [hi] at h; exact h
  have := track_foldl blocks [] m [] hp (by intro n; simp [bridgesListing, once, Dict.get?]) h' n
  simpa using this

theorem uciName_append (a b : Chars) : uciName (a ++ b) = uciName a ++ uciName b := by simp [uciName]

theorem uciName_join (l : List Chars) : uciName (joinWith [' '] l) = joinWith [' '] (l.map uciName) := by
  induction l with
  | nil => rfl
  | cons x xs ih =>
    cases xs with
    | nil => rfl
    | cons y ys =>
      rw [joinWith, uciName_append, uciName_append, ih]
      rfl

theorem joinSpaces_texts (l : List String) : joinSpaces (.list (l.map .str)) = .ok (joinWith [' '] (l.map String.toList)) := by
  unfold joinSpaces
  have : (l.map Val.str).mapM itemText = .ok (l.map String.toList) := by
    induction l with
    | nil => rfl
    | cons x xs ih =>
      rw [List.map_cons, mapM_ok_cons]
      exact ⟨_, _, rfl, ih, rfl⟩
  simp only [bind, Except.bind]
  rw [this]
  rfl

/-- the option `network` of a Wi-Fi section: the sanitised names separated by spaces -/
def networkText (names : List String) : Val := txt (joinWith [' '] (names.map (fun n => uciName n.toList)))

/-- **C51.** A Wi-Fi interface without explicit networks is attached to exactly the bridges that list it as a member, in order and
once each; if there is none, to itself if it has addresses, otherwise to nothing. -/
theorem C51_bridges (env : Env) (dsa : Bool) (inter : VDict) (blocks : List VDict) (m : Dict String (List String)) (d w b : VDict) (name : String)
    (hi : Dict.get? inter "network" = some (.list (blocks.map .dict)) ∨ Dict.get? inter "network" = none ∧ blocks = [])
    (hp : ∀ b ∈ blocks, ∀ v, Dict.get? b "ports" = some v → ∃ l, v = .list l) (ht : trackBridges dsa inter = .ok m)
    (hn : (Dict.keys w).Nodup) (hname : Dict.get? d "name" = some (.str name))
    (hne : ∀ enc, Dict.get? w "encryption" = some (.dict enc) → (Dict.keys enc).Nodup ∧ Dict.get? enc "network" = none)
    (h : wifiBlock env m d w = .ok b) (hw : ((Dict.get? w "network").getD .none).truthy = false) :
    Dict.get? b "network" = some (networkText (
      if bridgesListing dsa blocks name ≠ [] then bridgesListing dsa blocks name
      else if ((Dict.get? d "addresses").getD .none).truthy then [name] else [])) := by
  obtain ⟨name', mm, mode, uci, net, a1, _, _, _, h5, h6, _, h7⟩ := wifiBlock_spec hn (fun e he => (hne e he).1) h
  rw [hname] at a1
  cases a1
  rw [h7, if_pos rfl]
  have hmerged : wifiMerged name mode d w uci "network" = Dict.get? w "network" := by
    have hb : wifiBase name mode d w "network" = Dict.get? w "network" := by simp [wifiBase]
    rcases h5 with ⟨_, rfl⟩ | ⟨enc, u, q1, q2, rfl⟩
    · exact hb
    · unfold wifiMerged
      dsimp only
      rw [if_neg (by decide), hb]
      by_cases ho : EncryptionOff enc
      · rw [encryptionUci_off ho] at q2; cases q2
        simp [Dict.get?]
      · obtain ⟨p, _, hg⟩ := encryptionUci_get q2 ho
        rw [hg, encItem_plain (by decide), (hne enc q1).2]
        rfl
  rw [hmerged] at h6
  unfold wifiNetworks at h6
  rw [hw, C51_tracked dsa inter blocks m hi hp ht] at h6
  simp only [Bool.false_eq_true, if_false] at h6
  have hfin : ∀ names : List String, net = joinWith [' '] (names.map String.toList) → some (txt (uciName net)) = some (networkText names) := by
    intro names e
    unfold networkText
    rw [e, uciName_join, List.map_map]
    rfl
  apply hfin
  by_cases hbr : bridgesListing dsa blocks name = []
  · rw [if_pos hbr] at h6
    dsimp only at h6
    rw [if_neg (by simpa using hbr)]
    have : ((Dict.get? d "addresses").getD (.list [])).truthy = ((Dict.get? d "addresses").getD .none).truthy := by
      cases Dict.get? d "addresses" <;> rfl
    rw [this] at h6
    by_cases ha : ((Dict.get? d "addresses").getD .none).truthy = true
    · rw [if_pos ha] at h6 ⊢
      exact Except.ok.inj (h6.symm.trans (joinSpaces_texts [name]))
    · rw [if_neg ha] at h6 ⊢
      exact Except.ok.inj (h6.symm.trans (joinSpaces_texts []))
  · rw [if_neg hbr] at h6
    rw [if_pos hbr]
    exact Except.ok.inj (h6.symm.trans (joinSpaces_texts _))

/-- explicit networks are kept, in order, whatever the bridges -/
theorem C51_explicit (env : Env) (m : Dict String (List String)) (d w b : VDict) (names : List String)
    (hn : (Dict.keys w).Nodup) (hnames : names ≠ [])
    (hne : ∀ enc, Dict.get? w "encryption" = some (.dict enc) → (Dict.keys enc).Nodup ∧ Dict.get? enc "network" = none)
    (h : wifiBlock env m d w = .ok b) (hw : Dict.get? w "network" = some (.list (names.map .str))) :
    Dict.get? b "network" = some (networkText names) := by
  obtain ⟨name, mm, mode, uci, net, a1, _, _, _, h5, h6, _, h7⟩ := wifiBlock_spec hn (fun e he => (hne e he).1) h
  rw [h7, if_pos rfl]
  have hmerged : wifiMerged name mode d w uci "network" = Dict.get? w "network" := by
    have hb : wifiBase name mode d w "network" = Dict.get? w "network" := by simp [wifiBase]
    rcases h5 with ⟨_, rfl⟩ | ⟨enc, u, q1, q2, rfl⟩
    · exact hb
    · unfold wifiMerged
      dsimp only
      rw [if_neg (by decide), hb]
      by_cases ho : EncryptionOff enc
      · rw [encryptionUci_off ho] at q2; cases q2
        simp [Dict.get?]
      · obtain ⟨p, _, hg⟩ := encryptionUci_get q2 ho
        rw [hg, encItem_plain (by decide), (hne enc q1).2]
        rfl
  rw [hmerged, hw] at h6
  unfold wifiNetworks at h6
  rw [if_pos (by simp [Val.truthy, hnames]), Option.getD_some, joinSpaces_texts] at h6
  cases h6
  unfold networkText
  rw [uciName_join, List.map_map]
  rfl

/-! ## The whole section -/

/-- the interfaces that have a `wireless` object, with it -/
def wifiOnes (l : List VDict) : List (VDict × VDict) :=
  l.filterMap (fun d : VDict => match Dict.get? d "wireless" with
    | some (.dict w) => some (d, w)
    | _ => none)

theorem wireless_loop (env : Env) (m : Dict String (List String)) (l : List VDict) : ∀ (i : Nat) (r r' : VDict) (done : List VDict),
    (r = [] ∧ done = [] ∨ r = [("wireless", .list (done.map .dict))] ∧ done ≠ []) →
    fwdList (wirelessFwd env m) i r (l.map .dict) = .ok r' →
    ∃ bs : List VDict, List.Forall₂ (fun (x : VDict × VDict) b => wifiBlock env m x.1 x.2 = .ok b) (wifiOnes l) bs ∧
      r' = if done ++ bs = [] then [] else [("wireless", .list ((done ++ bs).map .dict))] := by
  induction l with
  | nil =>
    intro i r r' done hr h
    cases h
    refine ⟨[], .nil, ?_⟩
    rcases hr with ⟨rfl, rfl⟩ | ⟨rfl, hd⟩ <;> simp [*]
  | cons d ds ih =>
    intro i r r' done hr h
    rw [List.map_cons, fwdList] at h
    obtain ⟨r1, h1, h2⟩ := bind_ok_iff.1 h
    unfold wirelessFwd at h1
    simp only [asDict, bind, Except.bind] at h1
    cases hw : Dict.get? d "wireless" with
    | none =>
      rw [hw] at h1
      cases h1
      obtain ⟨bs, b1, b2⟩ := ih (i + 1) r r' done hr h2
      exact ⟨bs, by simpa [wifiOnes, hw] using b1, b2⟩
    | some v =>
      rw [hw] at h1
      cases v with
      | dict w =>
        dsimp only at h1
        cases hb : wifiBlock env m d w with
        | error e => rw [hb] at h1; cases h1
        | ok b =>
          rw [hb] at h1
          cases h1
          have hr' : appendTo r "wireless" [.dict b] = [("wireless", .list ((done ++ [b]).map .dict))] := by
            rcases hr with ⟨rfl, rfl⟩ | ⟨rfl, _⟩
            · rfl
            · rw [appendTo_one]; simp
          obtain ⟨bs, b1, b2⟩ := ih (i + 1) _ r' (done ++ [b]) (.inr ⟨hr', by simp⟩) h2
          refine ⟨b :: bs, ?_, by simpa using b2⟩
          have : wifiOnes (d :: ds) = (d, w) :: wifiOnes ds := by simp [wifiOnes, hw]
          rw [this]
          exact .cons hb b1
      | _ => cases h1

/-- The Wi-Fi sections of the output are those of the interfaces that have a `wireless` object, one each, in order. -/
theorem wireless_sections (env : Env) (dsa : Bool) (config inter r : VDict) (l : List VDict)
    (hk : Dict.get? config "interfaces" = some (.list (l.map .dict))) (h : wirelessRun env dsa config inter = .ok r) :
    ∃ (m : Dict String (List String)) (bs : List VDict), trackBridges dsa inter = .ok m ∧
      List.Forall₂ (fun (x : VDict × VDict) b => wifiBlock env m x.1 x.2 = .ok b) (wifiOnes l) bs ∧
      r = if bs = [] then [] else [("wireless", .list (bs.map .dict))] := by
  unfold wirelessRun at h
  obtain ⟨m, h1, h2⟩ := bind_ok_iff.1 h
  unfold fwd at h2
  rw [hk] at h2
  obtain ⟨bs, b1, b2⟩ := wireless_loop env m l 1 [] r [] (.inl ⟨rfl, rfl⟩) h2
  exact ⟨m, bs, h1, b1, by simpa using b2⟩

/-! ## Concrete cases -/

/-- a mesh interface in two bridges whose encryption is disabled and that has roaming turned off -/
def sampleWifi : VDict :=
  [("name", .str "mesh-0"), ("type", .str "wireless"), ("mac", .str "00:11:22:33:44:55"), ("addresses", .list [.dict [("proto", .str "dhcp")]])]

def sampleWireless : VDict :=
  [("mode", .str "access_point"), ("radio", .str "radio0"), ("ssid", .str "net"), ("ack_distance", .int 300), ("rts_threshold", .int 0),
   ("ieee80211r", .bool false), ("nasid", .str "abc"), ("ft_over_ds", .bool true),
   ("encryption", .dict [("protocol", .str "wpa2_personal"), ("key", .str "topsecret"), ("disabled", .bool true)])]

def sampleBridges : List VDict :=
  [[(".name", .str "device_br0"), (".type", .str "device"), ("type", .str "bridge"), ("ports", .list [.str "eth0", .str "mesh-0"])],
   [(".name", .str "lan"), (".type", .str "interface"), ("ifname", .str "br0")],
   [(".name", .str "device_br1"), (".type", .str "device"), ("type", .str "bridge"), ("ports", .list [.str "mesh-0", .str "mesh-0"])]]

def sampleTracked : Dict String (List String) := [("eth0", ["br0"]), ("mesh-0", ["br0", "br1"])]

def sampleSection : VDict :=
  [(".name", .str "wifi_mesh_0"), (".type", .str "wifi-iface"), ("device", .str "radio0"), ("disabled", .none), ("distance", .int 300),
   ("encryption", .str "none"), ("ieee80211r", .bool false), ("ifname", .str "mesh-0"), ("macaddr", .str "00:11:22:33:44:55"),
   ("mode", .str "ap"), ("network", .str "br0 br1"), ("ssid", .str "net")]

theorem sampleTracked_eq : trackBridges true [("network", .list (sampleBridges.map .dict))] = .ok sampleTracked := by decide +kernel
theorem sampleSection_eq : wifiBlock sampleEnv sampleTracked sampleWifi sampleWireless = .ok sampleSection := by decide +kernel

/-- the hypotheses of C49, C50 and C51 are met by a configuration with something to hide, roaming options and two bridges -/
example : ∀ k v, k ∉ wifiOwnOptions → Dict.get? sampleSection k = some v → Dict.get? sampleWireless k = some v :=
  (C49_no_leak sampleEnv sampleTracked sampleWifi sampleWireless
    [("protocol", .str "wpa2_personal"), ("key", .str "topsecret"), ("disabled", .bool true)] sampleSection (by decide) (by decide) rfl
    (.inr (.inl rfl)) sampleSection_eq).2

example : Dict.get? sampleSection "nasid" = none := by
  have := C50_roaming sampleEnv sampleTracked sampleWifi sampleWireless sampleSection (by decide) (by
    intro enc h; cases h; decide) sampleSection_eq "nasid" (by simp)
  rw [this]; decide +kernel

example : Dict.get? sampleSection "network" = some (networkText ["br0", "br1"]) := by
  have := C51_bridges sampleEnv true [("network", .list (sampleBridges.map .dict))] sampleBridges sampleTracked sampleWifi sampleWireless
    sampleSection "mesh-0" (.inl rfl) (by
      intro b hb v hv
      simp only [sampleBridges, List.mem_cons, List.not_mem_nil, or_false] at hb
      rcases hb with rfl | rfl | rfl <;> simp [Dict.get?] at hv <;> exact ⟨_, hv.symm⟩)
    sampleTracked_eq (by decide) rfl (by
      intro enc h; cases h; decide) sampleSection_eq rfl
  rw [this]; decide +kernel

example : bridgesListing true sampleBridges "mesh-0" = ["br0", "br1"] := by decide +kernel

end NJ
