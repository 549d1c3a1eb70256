import Verif.PropsWireless

/-!
# C48: Wi-Fi interfaces and their encryption through UCI text and back
-/

namespace NJ

/-! ## Encryption -/

/-- the settings of an encryption object that are numbers or booleans -/
def encTypes : Dict String JType :=
  [("port", .integer), ("acct_server_port", .integer), ("dae_port", .integer), ("acct_interval", .integer), ("wps_label", .boolean),
   ("wps_pushbutton", .boolean)]

/-- **Specification.** The encryption settings known to the parser. -/
def encryptionOptions : List String :=
  ["key", "server", "port", "wpa_group_rekey", "auth_server", "auth_port", "auth_secret", "auth_cache", "acct_port", "acct_server",
   "acct_secret", "acct_interval", "nasid", "ownip", "dae_client", "dae_port", "dae_secret", "dynamic_vlan", "vlan_naming",
   "vlan_tagged_interface", "vlan_bridge", "eap_type", "auth", "anonymous_identity", "identity", "password", "ca_cert", "client_cert",
   "ca_cert_usesystem", "subject_match", "altsubject_match", "domain_match", "domain_suffix_match", "priv_key", "priv_key_pwd",
   "wps_config", "wps_device_name", "wps_device_type", "wps_label", "wps_manufacturer", "wps_pushbutton", "wps_pin"]

/-- An encryption object that comes back (`ap`: the interface is an access point). -/
structure EncOK (ap : Bool) (p : String) (enc : VDict) : Prop where
  nodup : (Dict.keys enc).Nodup
  on : ((Dict.get? enc "disabled").getD .none).truthy = false
  protocol : Dict.get? enc "protocol" = some (.str p)
  known : p ∈ Dict.keys encProtocols
  /-- a cipher is only rendered for the WPA protocols, and `auto` is the one read when there is none -/
  cipher : ∀ v, Dict.get? enc "cipher" = some v → ∃ c, v = .str c ∧ IsWord c.toList ∧ (startsWith "wpa" p = true ∨ (c = "auto" ∧ p ≠ "wps"))
  key : ∀ v, Dict.get? enc "key" = some v → ∃ s, v = .str s ∧ s ≠ "" ∧ PlainText s.toList
  /-- WEP and RADIUS need a key -/
  hasKey : startsWith "wep" p = true ∨ (isEnterprise p.toList = true ∧ ap = true) → ∃ v, Dict.get? enc "key" = some v
  /-- `s:` at the beginning of a WEP key is taken off when it is read -/
  wepShared : p = "wep_shared" → ∀ s, Dict.get? enc "key" = some (.str s) → startsWith "s:" s = false
  /-- settings that are moved back to the encryption object when it is read -/
  settings : ∀ k v, Dict.get? enc k = some v → k ∉ ["protocol", "key", "cipher", "disabled"] →
    (k ∈ encryptionOptions ∨ k = "ieee80211w" ∨ k = "acct_server_port") ∧ Survives (Dict.get? encTypes k) v
  acctPort : Dict.get? enc "acct_server_port" ≠ none → isEnterprise p.toList = true ∧ ap = true
  /-- the UCI names of the RADIUS settings -/
  noUci : isEnterprise p.toList = true → ∀ k ∈ ["auth_server", "auth_port", "auth_secret", "acct_port"], Dict.get? enc k = none
  acctSecret : isEnterprise p.toList = true → ∀ v, Dict.get? enc "acct_secret" = some v → Dict.get? enc "key" ≠ some v
  tls : isEnterprise p.toList = true → Dict.get? enc "eap_type" = some (.str "tls") → Dict.get? enc "auth" = none
  /-- what makes WPS recognisable are its settings -/
  wps : p = "wps" ↔ ∃ k ∈ encryptionOptions, startsWith "wps_" k = true ∧ Dict.get? enc k ≠ none

/-- The settings that come back: the same, the cipher being always there (except for WPS), and `disabled` (which was false) never. -/
def encExpected (p : String) (enc : VDict) (k : String) : Option Val :=
  if k = "disabled" then none
  else if k = "cipher" then (if p = "wps" then none else some ((Dict.get? enc "cipher").getD (.str "auto")))
  else Dict.get? enc k

theorem readVal_truthy {v r : Val} (hd : v.isDict = false) (h : readVal v = some r) : r.truthy = true := by
  cases v with
  | none => cases h
  | bool b => simp only [readVal, Option.some.injEq] at h; subst h; cases b <;> rfl
  | int i =>
    simp only [readVal, Option.some.injEq] at h; subst h
    simp only [Val.truthy, bne_iff_ne, ne_eq]
    intro e
    have : showInt i = [] := by simpa using congrArg String.toList e
    cases i with
    | ofNat n => exact showNat_ne_nil _ this
    | negSucc n => simp [showInt] at this
  | str s =>
    by_cases e : s = ""
    · simp [readVal, e] at h
    · simp only [readVal, e, if_false, Option.some.injEq] at h; subst h; simp [Val.truthy, e]
  | list l =>
    cases l with
    | nil => cases h
    | cons x xs => simp only [readVal, Option.some.injEq] at h; subst h; simp [Val.truthy]
  | dict d => simp [Val.isDict] at hd

/-- whether there is a value that counts as true -/
def truthyAt (w : VDict) (k : String) : Bool := ((Dict.get? w k).getD .none).truthy

theorem moveKeys_get (ks : List String) (s w : VDict) (f : Bool) :
    let r := ks.foldl moveKey (s, w, f)
    (∀ k, Dict.get? r.1 k = if k ∈ ks ∧ truthyAt w k = true then Dict.get? w k else Dict.get? s k) ∧
    (∀ k, Dict.get? r.2.1 k = if k ∈ ks ∧ truthyAt w k = true then none else Dict.get? w k) ∧
    r.2.2 = (f || ks.any (fun k => truthyAt w k && startsWith "wps_" k)) := by
  induction ks generalizing s w f with
  | nil => simp
  | cons x xs ih =>
    rw [List.foldl_cons]
    by_cases ht : truthyAt w x = true
    · obtain ⟨v, hv⟩ : ∃ v, Dict.get? w x = some v := by
        unfold truthyAt at ht
        cases h : Dict.get? w x with
        | none => rw [h] at ht; simp [Val.truthy] at ht
        | some v => exact ⟨v, rfl⟩
      have hv' : v.truthy = true := by simpa [truthyAt, hv] using ht
      have hm : moveKey (s, w, f) x = (Dict.set s x v, Dict.erase w x, f || startsWith "wps_" x) := by
        simp [moveKey, hv, hv']
      rw [hm]
      obtain ⟨i1, i2, i3⟩ := ih (Dict.set s x v) (Dict.erase w x) (f || startsWith "wps_" x)
      have hte : ∀ k, truthyAt (Dict.erase w x) k = if k = x then false else truthyAt w k := by
        intro k
        unfold truthyAt
        rw [Dict.get?_erase']
        by_cases e : k = x <;> simp [e, Val.truthy]
      refine ⟨fun k => ?_, fun k => ?_, ?_⟩
      · rw [i1, hte, Dict.get?_set', Dict.get?_erase']
        by_cases e : k = x
        · subst e; simp [ht, hv]
        · simp [e]
      · rw [i2, hte, Dict.get?_erase']
        by_cases e : k = x
        · subst e; simp [ht]
        · simp [e]
      · rw [i3]
        simp only [List.any_cons, ht, Bool.true_and, Bool.or_assoc]
        by_cases hs : startsWith "wps_" x = true
        · simp [hs]
        · have : (fun k => truthyAt (Dict.erase w x) k && startsWith "wps_" k) = fun k => truthyAt w k && startsWith "wps_" k := by
            funext k
            rw [hte]
            by_cases e : k = x
            · subst e; simp [hs]
            · simp [e]
          rw [this]
    · have hm : moveKey (s, w, f) x = (s, w, f) := by
        unfold moveKey
        cases h : Dict.get? w x with
        | none => rfl
        | some v =>
          have : v.truthy = false := by simpa [truthyAt, h] using ht
          simp [this]
      rw [hm]
      obtain ⟨i1, i2, i3⟩ := ih s w f
      refine ⟨fun k => ?_, fun k => ?_, ?_⟩
      · rw [i1]
        by_cases e : k = x
        · subst e; simp [ht]
        · simp [e]
      · rw [i2]
        by_cases e : k = x
        · subst e; simp [ht]
        · simp [e]
      · rw [i3]; simp [ht]

theorem renameIf_get {a b : String} (hab : a ≠ b) (s : VDict) (k : String) :
    Dict.get? (renameIf a b s) k = if k = b then (Dict.get? s a).or (Dict.get? s b) else if k = a then none else Dict.get? s k := by
  unfold renameIf
  cases h : Dict.get? s a with
  | none =>
    by_cases e1 : k = b
    · simp [e1]
    · by_cases e2 : k = a
      · subst e2; simp [h, e1]
      · simp [e1, e2]
  | some v =>
    simp only [Dict.get?_set', Dict.get?_erase', Option.some_or]

theorem dropAcctSecret_get (s : VDict) (k : String) : Dict.get? (dropAcctSecret s) k =
    if k = "acct_secret" ∧ Dict.get? s "acct_secret" = some ((Dict.get? s "key").getD .none) then none else Dict.get? s k := by
  unfold dropAcctSecret
  by_cases h : Dict.get? s "acct_secret" = some ((Dict.get? s "key").getD .none)
  · rw [if_pos ⟨by simp [Dict.has, h], h⟩, Dict.get?_erase']
    simp [h]
  · rw [if_neg (fun x => h x.2), if_neg (fun x => h x.2)]

theorem castBool_get (w : VDict) (k x : String) :
    Dict.get? (castBool w k) x = if x = k then (Dict.get? w k).map (fun v => .bool (decide (v = .str "1"))) else Dict.get? w x := by
  unfold castBool
  cases h : Dict.get? w k with
  | none => by_cases e : x = k <;> simp [e, h]
  | some v => rw [Dict.get?_set']; simp

theorem castBools_get (ks : List String) (hn : ks.Nodup) (w : VDict) (x : String) :
    Dict.get? (ks.foldl castBool w) x = if x ∈ ks then (Dict.get? w x).map (fun v => .bool (decide (v = .str "1"))) else Dict.get? w x := by
  induction ks generalizing w with
  | nil => simp
  | cons k ks ih =>
    rw [List.nodup_cons] at hn
    rw [List.foldl_cons, ih hn.2, castBool_get]
    by_cases e : x = k
    · subst e; simp [hn.1]
    · simp [e]

/-- the number a text is -/
def intOfText : Val → Val
  | .str s => match parseInt s.toList with
    | some i => .int i
    | none => .none
  | _ => .none

theorem castInts_get (ks : List String) (hn : ks.Nodup) (w : VDict)
    (h : ∀ k ∈ ks, ∀ v, Dict.get? w k = some v → ∃ i : Int, v = .str (String.ofList (showInt i))) :
    ∃ r, ks.foldlM castInt w = .ok r ∧ ∀ x, Dict.get? r x = if x ∈ ks then (Dict.get? w x).map intOfText else Dict.get? w x := by
  induction ks generalizing w with
  | nil => exact ⟨w, rfl, by simp⟩
  | cons k ks ih =>
    rw [List.nodup_cons] at hn
    obtain ⟨w1, h1, h2⟩ : ∃ w1, castInt w k = .ok w1 ∧ ∀ x, Dict.get? w1 x = if x = k then (Dict.get? w k).map intOfText else Dict.get? w x := by
      unfold castInt
      cases hg : Dict.get? w k with
      | none => exact ⟨w, rfl, fun x => by by_cases e : x = k <;> simp [e, hg]⟩
      | some v =>
        obtain ⟨i, rfl⟩ := h k (by simp) v hg
        refine ⟨Dict.set w k (.int i), ?_, fun x => ?_⟩
        · simp [toInt, pyInt, parseInt_showInt, bind, Except.bind, pure, Except.pure]
        · rw [Dict.get?_set']; simp [intOfText, parseInt_showInt]
    obtain ⟨r, h3, h4⟩ := ih hn.2 w1 (by
      intro x hx v hv
      rw [h2, if_neg (by rintro rfl; exact hn.1 hx)] at hv
      exact h x (by simp [hx]) v hv)
    refine ⟨r, ?_, fun x => ?_⟩
    · rw [List.foldlM_cons, h1]; exact h3
    · rw [h4, h2]
      by_cases e : x = k
      · subst e; simp [hn.1]
      · simp [e]

theorem encTypes_other {k : String} (h : k ∉ ["port", "acct_server_port", "dae_port", "acct_interval"]) (h1 : k ≠ "wps_label") (h2 : k ≠ "wps_pushbutton") :
    Dict.get? encTypes k = none := by
  rw [Dict.get?_eq_none_iff]
  intro hk
  have : k ∈ ["port", "acct_server_port", "dae_port", "acct_interval"] ++ ["wps_label", "wps_pushbutton"] := hk
  rcases List.mem_append.1 this with x | x
  · exact h x
  · rw [List.mem_cons, List.mem_singleton] at x
    exact x.elim h1 h2

theorem encTypecast_back (s : VDict) (want : String → Option Val) (hs : ∀ k v, want k = some v → Survives (Dict.get? encTypes k) v)
    (hg : ∀ k, Dict.get? s k = (want k).bind readVal) : ∃ e, encTypecast s = .ok e ∧ ∀ k, Dict.get? e k = want k := by
  obtain ⟨r, h1, h2⟩ := castInts_get ["port", "acct_server_port", "dae_port", "acct_interval"] (by decide) s (by
    intro k hk v hv
    rw [hg] at hv
    cases hw : want k with
    | none => rw [hw] at hv; cases hv
    | some x =>
      rw [hw] at hv
      have ht : Dict.get? encTypes k = some .integer := by
        simp only [List.mem_cons, List.not_mem_nil, or_false] at hk
        rcases hk with rfl | rfl | rfl | rfl <;> rfl
      have := hs k x hw
      rw [ht] at this
      cases x with
      | int i => simp only [Option.bind_some, readVal, Option.some.injEq] at hv; exact ⟨i, hv.symm⟩
      | bool b => simp [Survives] at this
      | str s => exact absurd rfl this.2.2.1
      | list l => exact absurd rfl this.2.2.1
      | none => exact absurd this (by simp [Survives])
      | dict d => exact absurd this (by simp [Survives]))
  refine ⟨castBool (castBool r "wps_label") "wps_pushbutton", by unfold encTypecast; rw [h1]; rfl, fun k => ?_⟩
  rw [castBool_get, castBool_get, castBool_get, h2, h2, h2]
  have hint : ∀ k v, want k = some v → Dict.get? encTypes k = some .integer → ((want k).bind readVal).map intOfText = want k := by
    intro k v hv ht
    have := hs k v hv
    rw [ht] at this
    cases v with
    | int i => simp [hv, readVal, intOfText, parseInt_showInt]
    | bool b => simp [Survives] at this
    | str s => exact absurd rfl this.2.2.1
    | list l => exact absurd rfl this.2.2.1
    | none => exact absurd this (by simp [Survives])
    | dict d => exact absurd this (by simp [Survives])
  have hbool : ∀ k v, want k = some v → Dict.get? encTypes k = some .boolean →
      ((want k).bind readVal).map (fun v => Val.bool (decide (v = .str "1"))) = want k := by
    intro k v hv ht
    have := hs k v hv
    rw [ht] at this
    cases v with
    | bool b => cases b <;> simp [hv, readVal]
    | int i => simp [Survives] at this
    | str s => exact absurd rfl this.2.2.2
    | list l => exact absurd rfl this.2.2.2
    | none => exact absurd this (by simp [Survives])
    | dict d => exact absurd this (by simp [Survives])
  have hplain : ∀ k v, want k = some v → Dict.get? encTypes k = none → ((want k).bind readVal) = want k := by
    intro k v hv ht
    have := hs k v hv
    rw [ht] at this
    rw [hv, Option.bind_some, (readVal_of_survives this).1]
  cases hw : want k with
  | none =>
    have : Dict.get? s k = none := by rw [hg, hw]; rfl
    by_cases e1 : k = "wps_pushbutton"
    · subst e1; simp [this]
    · by_cases e2 : k = "wps_label"
      · subst e2; simp [this]
      · simp [e1, e2, this]
  | some v =>
    rw [← hw]
    by_cases e1 : k = "wps_pushbutton"
    · subst e1; simpa [hg] using hbool _ v hw rfl
    · by_cases e2 : k = "wps_label"
      · subst e2; simpa [hg] using hbool _ v hw rfl
      · simp only [e1, e2, if_false]
        by_cases e3 : k ∈ ["port", "acct_server_port", "dae_port", "acct_interval"]
        · rw [if_pos e3, hg]
          refine hint _ v hw ?_
          simp only [List.mem_cons, List.not_mem_nil, or_false] at e3
          rcases e3 with rfl | rfl | rfl | rfl <;> rfl
        · rw [if_neg e3, hg]
          refine hplain _ v hw ?_
          exact encTypes_other e3 e2 e1

theorem splitPlus_none {s : Chars} (h : '+' ∉ s) : splitPlus s = (s, none) := by
  induction s with
  | nil => rfl
  | cons c cs ih =>
    rw [splitPlus, if_neg (by rintro rfl; exact h (by simp)), ih (fun x => h (by simp [x]))]

theorem splitPlus_some {s c : Chars} (h : '+' ∉ s) : splitPlus (s ++ '+' :: c) = (s, some c) := by
  induction s with
  | nil => rfl
  | cons x cs ih =>
    rw [List.cons_append, splitPlus, if_neg (by rintro rfl; exact h (by simp)), ih (fun x => h (by simp [x]))]

/-- what the two tables of protocols say, protocol by protocol -/
theorem protocol_facts : ∀ p ∈ Dict.keys encProtocols, ∃ base, Dict.get? encProtocols p = some base ∧ '+' ∉ base.toList ∧ base ≠ "none" ∧
    (p ≠ "wps" → Dict.get? encProtocolsBack base = some p) ∧ (stripPrefix "wep".toList base.toList).isSome = startsWith "wep" p ∧
    (startsWith "wep" p = true → isEnterprise p.toList = false) ∧ (startsWith "wep" p = true → startsWith "wpa" p = false) ∧ p ≠ "none" ∧
    (startsWith "wep" p = true → p = "wep_open" ∨ p = "wep_shared") ∧ IsWord base.toList := by
  intro p hp
  have : p ∈ ["wep_open", "wep_shared", "wpa_personal", "wpa2_personal", "wpa3_personal", "wpa_personal_mixed", "wpa2_personal_mixed",
    "wpa_enterprise", "wpa2_enterprise", "wpa3_enterprise", "wpa_enterprise_mixed", "wpa2_enterprise_mixed", "wps", "owe"] := hp
  simp only [List.mem_cons, List.not_mem_nil, or_false] at this
  rcases this with rfl | rfl | rfl | rfl | rfl | rfl | rfl | rfl | rfl | rfl | rfl | rfl | rfl | rfl <;>
    exact ⟨_, rfl, by decide, by decide, by decide, by decide, by decide, by decide, by decide, by decide, by decide⟩

theorem encValue_split {env : Env} {ap : Bool} {p : String} {enc : VDict} (h : EncOK ap p enc) {base : String} (hb : Dict.get? encProtocols p = some base)
    (hplus : '+' ∉ base.toList) : ∃ o, splitPlus (encValue env p ((Dict.get? enc "cipher").getD .none)).toList = (base.toList, o) ∧
      (p ≠ "wps" → some (txt (o.getD "auto".toList)) = encExpected p enc "cipher") := by
  have hx : encExpected p enc "cipher" = if p = "wps" then none else some ((Dict.get? enc "cipher").getD (.str "auto")) := by
    unfold encExpected
    rw [if_neg (by decide), if_pos rfl]
  rw [hx]
  clear hx
  unfold encValue
  rw [hb]
  cases hc : Dict.get? enc "cipher" with
  | none =>
    refine ⟨none, ?_, fun e => ?_⟩
    · rw [if_neg (by simp [Val.truthy])]
      exact splitPlus_none hplus
    · rw [if_neg e]; rfl
  | some v =>
    obtain ⟨c, rfl, hw, hq⟩ := h.cipher v hc
    by_cases hwpa : startsWith "wpa" p = true ∧ c ≠ "auto"
    · refine ⟨some c.toList, ?_, fun e => ?_⟩
      · rw [if_pos]
        · simp only [Option.getD_some, pyStr, String.toList_append]
          rw [List.append_assoc]
          exact splitPlus_some hplus
        · have : c ≠ "" := by rintro rfl; exact absurd hw (by decide)
          simp [Val.truthy, hwpa.1, hwpa.2, this]
      · rw [if_neg e]; simp [txt]
    · refine ⟨none, ?_, fun e => ?_⟩
      · rw [if_neg]
        · exact splitPlus_none hplus
        · intro h
          simp only [Bool.and_eq_true, decide_eq_true_eq] at h
          exact hwpa ⟨h.1.2, fun e => h.2 (by rw [e]; rfl)⟩
      · rw [if_neg e]
        have : c = "auto" := by
          rcases hq with hq | hq
          · by_contra hne; exact hwpa ⟨hq, hne⟩
          · exact hq.1
        rw [this]; rfl

theorem isWord_append {a b : Chars} (ha : IsWord a) (hb : ∀ c ∈ b, isSpace c = false ∧ c ≠ '\'' ∧ c ≠ '"') : IsWord (a ++ b) := by
  refine ⟨by simp [ha.1], fun c hc => ?_⟩
  rcases List.mem_append.1 hc with h | h
  · exact ha.2 c h
  · exact hb c h

theorem encValue_word {env : Env} {ap : Bool} {p : String} {enc : VDict} (h : EncOK ap p enc) :
    IsWord (encValue env p ((Dict.get? enc "cipher").getD .none)).toList := by
  obtain ⟨base, hb, _, _, _, _, _, _, _, _, hw⟩ := protocol_facts p h.known
  unfold encValue
  rw [hb]
  cases hc : Dict.get? enc "cipher" with
  | none => rw [if_neg (by simp [Val.truthy])]; exact hw
  | some v =>
    obtain ⟨c, rfl, hcw, _⟩ := h.cipher v hc
    dsimp only [Option.getD_some]
    split
    · simp only [pyStr, String.toList_append]
      exact isWord_append (isWord_append hw (by decide)) hcw.2
    · exact hw

theorem EncOK.not_off {ap : Bool} {p : String} {enc : VDict} (h : EncOK ap p enc) : ¬ EncryptionOff enc := by
  obtain ⟨_, _, _, _, _, _, _, _, hne, _⟩ := protocol_facts p h.known
  rintro (rfl | h' | h')
  · have := h.protocol; simp [Dict.get?] at this
  · rw [h.on] at h'; cases h'
  · rw [h.protocol] at h'; simp at h'; exact hne h'

/-- where the options made from an encryption object come from -/
theorem encItem_source {env : Env} {mode p : String} {enc : VDict} {k : String} {v : Val} (hv : encItem env mode p enc k = some v) :
    v = .str (encValue env p ((Dict.get? enc "cipher").getD .none)) ∨ v = .str "1" ∨
      (∃ x, Dict.get? enc "key" = some x ∧ v = .str ("s:" ++ pyStr env.reprC x)) ∨ Dict.get? enc "key" = some v ∨
      ∃ k', k' ∉ ["protocol", "key", "cipher", "disabled"] ∧ Dict.get? enc k' = some v := by
  have hcop : ∀ {k : String} {v : Val}, encCopied enc k = some v → ∃ k', k' ∉ ["protocol", "key", "cipher", "disabled"] ∧ Dict.get? enc k' = some v := by
    intro k v h
    unfold encCopied at h
    split at h
    · cases h
    · next hk =>
      refine ⟨k, ?_, h⟩
      simp only [List.mem_cons, List.not_mem_nil, or_false]
      tauto
  unfold encItem at hv
  split at hv
  · cases hv; exact .inl rfl
  · split at hv
    · split at hv
      · cases hv; exact .inr (.inl rfl)
      · split at hv
        · rw [Option.map_eq_some_iff] at hv
          obtain ⟨x, hx, hv⟩ := hv
          split at hv
          · exact .inr (.inr (.inl ⟨x, hx, hv.symm⟩))
          · exact .inr (.inr (.inr (.inl (hv ▸ hx))))
        · exact .inr (.inr (.inr (.inr (hcop hv))))
    · split at hv
      · exact .inr (.inr (.inr (.inl hv)))
      · split at hv
        · unfold encEnterprise at hv
          have hor : ∀ {a b : String}, a ∉ ["protocol", "key", "cipher", "disabled"] → b ∉ ["protocol", "key", "cipher", "disabled"] →
              (Dict.get? enc a).or (Dict.get? enc b) = some v → ∃ k', k' ∉ ["protocol", "key", "cipher", "disabled"] ∧ Dict.get? enc k' = some v := by
            intro a b ha hb h
            cases hx : Dict.get? enc a with
            | none => rw [hx] at h; exact ⟨b, hb, h⟩
            | some x => rw [hx] at h; exact ⟨a, ha, by rw [hx]; exact h⟩
          split at hv
          · cases hv
          · split at hv
            · split at hv
              · exact .inr (.inr (.inr (.inr (hor (by decide) (by decide) hv))))
              · split at hv
                · exact .inr (.inr (.inr (.inr (hor (by decide) (by decide) hv))))
                · split at hv
                  · exact .inr (.inr (.inr (.inl hv)))
                  · split at hv
                    · cases hx : Dict.get? enc "acct_secret" with
                      | none => rw [hx] at hv; exact .inr (.inr (.inr (.inl hv)))
                      | some x => rw [hx] at hv; exact .inr (.inr (.inr (.inr ⟨"acct_secret", by decide, by rw [hx]; exact hv⟩)))
                    · split at hv
                      · exact .inr (.inr (.inr (.inr (hor (by decide) (by decide) hv))))
                      · exact .inr (.inr (.inr (.inr (hcop hv))))
            · exact .inr (.inr (.inr (.inr (hcop hv))))
        · exact .inr (.inr (.inr (.inr (hcop hv))))

/-- what is rendered of an encryption object that comes back can be read back -/
theorem EncOK.item_plain {env : Env} {mode p : String} {enc : VDict} (h : EncOK (mode == "ap") p enc) {k : String} {v : Val}
    (hv : encItem env mode p enc k = some v) : PlainVal v ∧ v.isDict = false ∧ ∃ r, readVal v = some r := by
  rcases encItem_source hv with rfl | rfl | ⟨x, hx, rfl⟩ | hx | ⟨k', hk', hx⟩
  · have hw := encValue_word (env := env) h
    refine ⟨isWord_plain hw, rfl, .str (encValue env p ((Dict.get? enc "cipher").getD .none)), ?_⟩
    generalize encValue env p ((Dict.get? enc "cipher").getD .none) = t at hw
    have : t ≠ "" := by rintro rfl; exact hw.1 rfl
    simp [readVal, this]
  · exact ⟨isWord_plain (by decide), rfl, _, rfl⟩
  · obtain ⟨s, rfl, hs, hp⟩ := h.key x hx
    refine ⟨?_, rfl, .str ("s:" ++ s), ?_⟩
    · refine ⟨fun c hc => ?_, ?_⟩
      · simp only [pyStr, String.toList_append] at hc
        rcases List.mem_append.1 hc with hc | hc
        · exact (by decide : ∀ c ∈ "s:".toList, c ≠ '\n' ∧ c ≠ '\'' ∧ c ≠ '"') c hc
        · exact hp.1 c hc
      · simp only [pyStr, String.toList_append]
        exact noBlanks_sep (a := ['s']) (c := ':') (by decide) (by decide) hp.2
    · have : "s:" ++ s ≠ "" := by
        intro e; have := congrArg String.toList e; simp at this
      simp [readVal, pyStr, this]
  · obtain ⟨s, rfl, hs, hp⟩ := h.key v hx
    exact ⟨hp, rfl, .str s, by simp [readVal, hs]⟩
  · have := (h.settings k' v hx hk').2
    refine ⟨survives_plain this, ?_, (survives_spec this).elim (fun r x => ⟨r, x.1⟩)⟩
    cases v with
    | dict d => exact absurd this (by simp [Survives])
    | _ => rfl

/-- the settings moved out of the section, before they are renamed -/
theorem moved_get {env : Env} {mode p : String} {enc w : VDict} (h : EncOK (mode == "ap") p enc)
    (hw : ∀ k ∈ encryptionKeys, Dict.get? w k = (encItem env mode p enc k).bind readVal) :
    let r := encryptionKeys.foldl moveKey ([], w, false)
    (∀ k, Dict.get? r.1 k = if k ∈ encryptionKeys then (encItem env mode p enc k).bind readVal else none) ∧
    (∀ k, Dict.get? r.2.1 k = if k ∈ encryptionKeys then none else Dict.get? w k) ∧
    r.2.2 = decide (p = "wps") := by
  obtain ⟨m1, m2, m3⟩ := moveKeys_get encryptionKeys [] w false
  have ht : ∀ k ∈ encryptionKeys, truthyAt w k = true ↔ ∃ v, encItem env mode p enc k = some v ∧ ∃ r, readVal v = some r := by
    intro k hk
    unfold truthyAt
    rw [hw k hk]
    cases hi : encItem env mode p enc k with
    | none => simp [Val.truthy]
    | some v =>
      cases hr : readVal v with
      | none => simp [hr, Val.truthy]
      | some r =>
        have := readVal_truthy (h.item_plain hi).2.1 hr
        simp [hr, this]
  have ht' : ∀ k ∈ encryptionKeys, truthyAt w k = false → Dict.get? w k = none := by
    intro k hk hf
    rw [hw k hk]
    cases hi : encItem env mode p enc k with
    | none => rfl
    | some v =>
      cases hr : readVal v with
      | none => exact hr
      | some r => rw [(ht k hk).2 ⟨v, hi, r, hr⟩] at hf; cases hf
  refine ⟨fun k => ?_, fun k => ?_, ?_⟩
  · rw [m1]
    by_cases hk : k ∈ encryptionKeys
    · rw [if_pos hk]
      cases hf : truthyAt w k with
      | true => rw [if_pos ⟨hk, rfl⟩, hw k hk]
      | false => rw [if_neg (by simp), ← hw k hk, ht' k hk hf]; rfl
    · rw [if_neg (fun x => hk x.1), if_neg hk]; rfl
  · rw [m2]
    by_cases hk : k ∈ encryptionKeys
    · rw [if_pos hk]
      cases hf : truthyAt w k with
      | true => rw [if_pos ⟨hk, rfl⟩]
      | false => rw [if_neg (by simp), ht' k hk hf]
    · rw [if_neg (fun x => hk x.1), if_neg hk]
  · rw [m3, Bool.false_or, Bool.eq_iff_iff, List.any_eq_true, decide_eq_true_eq, h.wps]
    have hmade : ∀ k ∈ encMade, startsWith "wps_" k = false := by decide
    refine exists_congr fun k => and_congr_right fun hk => ?_
    rw [Bool.and_eq_true, and_comm, ht k hk]
    refine and_congr_right fun hs => ?_
    rw [encItem_plain (fun hm => by rw [hmade k hm] at hs; cases hs)]
    constructor
    · rintro ⟨v, hv, _⟩; rw [hv]; simp
    · intro hne
      cases hv : Dict.get? enc k with
      | none => exact absurd hv hne
      | some v =>
        refine ⟨v, rfl, ?_⟩
        have hi : encItem env mode p enc k = some v := by
          rw [encItem_plain (fun hm => by rw [hmade k hm] at hs; cases hs), hv]
        exact (h.item_plain hi).2.2

theorem wepBack_spec {env : Env} {mode p base : String} {enc s w : VDict} (h : EncOK (mode == "ap") p enc)
    (hb : (stripPrefix "wep".toList base.toList).isSome = startsWith "wep" p) (hwo : startsWith "wep" p = true → p = "wep_open" ∨ p = "wep_shared")
    (hk : Dict.get? s "key" = (encItem env mode p enc "key").bind readVal)
    (hk1 : Dict.get? w "key1" = (encItem env mode p enc "key1").bind readVal) :
    ∃ s' w', wepBack env base.toList s w = .ok (s', w') ∧
      (∀ k, Dict.get? s' k = if k = "key" then (Dict.get? enc "key").bind readVal else Dict.get? s k) ∧
      ∀ k, Dict.get? w' k = if k = "key1" then none else Dict.get? w k := by
  unfold wepBack
  rw [hb]
  by_cases hwep : startsWith "wep" p = true
  · rw [if_pos hwep]
    obtain ⟨v, hv⟩ := h.hasKey (.inl hwep)
    obtain ⟨t, rfl, ht, hpl⟩ := h.key v hv
    have e1 : encItem env mode p enc "key" = some (.str "1") := by
      unfold encItem
      rw [if_neg (by decide), if_pos hwep, if_pos rfl]
    have e2 : encItem env mode p enc "key1" = some (if p = "wep_open" then .str ("s:" ++ t) else .str t) := by
      unfold encItem
      rw [if_neg (by decide), if_pos hwep, if_neg (by decide), if_pos rfl, hv]
      rfl
    rw [e1] at hk
    have hk' : Dict.get? s "key" = some (.str "1") := hk
    have hdk : ("key" ++ pyStr env.reprC (.str "1")) = "key1" := by rfl
    rw [e2] at hk1
    refine ⟨Dict.set s "key" (.str t), Dict.erase w "key1", ?_, fun k => ?_, fun k => ?_⟩
    · rw [getKey_iff.2 hk']
      simp only [bind, Except.bind]
      rw [hdk, hk1]
      rcases hwo hwep with rfl | rfl
      · have hne : "s:" ++ t ≠ "" := by
          intro e; have := congrArg String.toList e; simp at this
        simp [readVal, hne, asText, pure, Except.pure, stripPrefix, txt]
      · have hsh := h.wepShared rfl t hv
        have : stripPrefix "s:".toList t.toList = none := by
          unfold startsWith at hsh
          simpa using hsh
        rw [if_neg (by decide)]
        simp only [readVal, if_neg ht, Option.bind_some, Option.getD_some, asText, this, Option.getD_none, pure, Except.pure, txt,
          String.ofList_toList]
    · rw [Dict.get?_set', hv]
      by_cases e : k = "key" <;> simp [e, readVal, ht]
    · rw [Dict.get?_erase']
  · rw [if_neg hwep]
    have e1 : encItem env mode p enc "key" = Dict.get? enc "key" := by
      unfold encItem
      rw [if_neg (by decide), if_neg hwep, if_pos rfl]
    have e2 : encItem env mode p enc "key1" = none := by
      cases hx : Dict.get? enc "key1" with
      | none =>
        unfold encItem encEnterprise encCopied
        simp [hwep, hx]
      | some v => exact absurd (h.settings "key1" v hx (by decide)).1 (by decide)
    refine ⟨s, w, rfl, fun k => ?_, fun k => ?_⟩
    · by_cases e : k = "key"
      · subst e; rw [if_pos rfl, hk, e1]
      · rw [if_neg e]
    · by_cases e : k = "key1"
      · subst e; rw [if_pos rfl, hk1, e2]; rfl
      · rw [if_neg e]

/-- an option of the encryption object that is neither the protocol, the key, the cipher nor whether it is disabled -/
theorem EncOK.other {ap : Bool} {p : String} {enc : VDict} (h : EncOK ap p enc) {k : String} (hk : k ∉ ["protocol", "key", "cipher", "disabled"])
    (hk2 : k ∉ encryptionKeys) (hk3 : k ≠ "ieee80211w") (hk4 : k ≠ "acct_server_port") : Dict.get? enc k = none := by
  cases hx : Dict.get? enc k with
  | none => rfl
  | some v => exact absurd (h.settings k v hx hk).1 (by tauto)

theorem EncOK.expected_survives {ap : Bool} {p : String} {enc : VDict} (h : EncOK ap p enc) {k : String} {v : Val}
    (hv : encExpected p enc k = some v) : Survives (Dict.get? encTypes k) v := by
  unfold encExpected at hv
  split at hv
  · cases hv
  · next h1 =>
    split at hv
    · next h2 =>
      subst h2
      split at hv
      · cases hv
      · have hct : Dict.get? encTypes "cipher" = none := by rfl
        rw [hct]
        cases hc : Dict.get? enc "cipher" with
        | none =>
          rw [hc] at hv; cases hv
          exact ⟨by decide, isWord_plain (s := "auto".toList) (by decide), by decide, by decide⟩
        | some c =>
          rw [hc] at hv
          cases hv
          obtain ⟨t, rfl, hw, _⟩ := h.cipher _ hc
          exact ⟨by rintro rfl; exact hw.1 rfl, isWord_plain hw, by decide, by decide⟩
    · next h2 =>
      by_cases h3 : k = "key"
      · subst h3
        obtain ⟨t, rfl, hne, hp⟩ := h.key v hv
        exact ⟨hne, hp, by decide, by decide⟩
      · by_cases h4 : k = "protocol"
        · subst h4
          rw [h.protocol] at hv
          cases hv
          have : IsWord p.toList := by
            have : ∀ p ∈ Dict.keys encProtocols, IsWord p.toList := by decide
            exact this p h.known
          exact ⟨by rintro rfl; exact this.1 rfl, isWord_plain this, by decide, by decide⟩
        · exact (h.settings k v hv (by simp [h1, h2, h3, h4])).2

theorem enterpriseBack_spec {env : Env} {mode p : String} {enc s : VDict} (h : EncOK (mode == "ap") p enc)
    (hwep : startsWith "wep" p = true → isEnterprise p.toList = false)
    (g : ∀ k, Dict.get? s k = if k = "key" then (Dict.get? enc "key").bind readVal else if k = "protocol" then some (.str p)
      else if k = "cipher" then (encExpected p enc "cipher").bind readVal
      else if k ∈ encryptionKeys then (encItem env mode p enc k).bind readVal else none) :
    ∃ s', enterpriseBack s = .ok s' ∧ ∀ k, Dict.get? s' k = (if k = "ieee80211w" then none else encExpected p enc k).bind readVal := by
  have hp : Dict.get? s "protocol" = some (.str p) := by rw [g, if_neg (by decide), if_pos rfl]
  have hpr : readVal (.str p) = some (.str p) := by
    have : ∀ p ∈ Dict.keys encProtocols, p ≠ "" := by decide
    simp [readVal, this p h.known]
  unfold enterpriseBack
  rw [getKey_iff.2 hp]
  refine ⟨_, rfl, ?_⟩
  have hsp : ∀ k, k ∉ ["disabled", "cipher"] → encExpected p enc k = Dict.get? enc k := by
    intro k hk
    simp only [List.mem_cons, List.not_mem_nil, or_false, not_or] at hk
    unfold encExpected
    rw [if_neg hk.1, if_neg hk.2]
  have hdis : encExpected p enc "disabled" = none := by unfold encExpected; rw [if_pos rfl]
  have hcip : ∀ k, k ∈ encryptionKeys → k ∉ ["disabled", "cipher"] ∧ k ≠ "protocol" ∧ k ≠ "ieee80211w" ∧ k ≠ "acct_server_port" ∧ k ≠ "encryption" ∧ k ≠ "key1" := by
    decide
  by_cases hent : isEnterprise p.toList = true
  · have hnw : ¬ startsWith "wep" p = true := fun x => by rw [hwep x] at hent; cases hent
    rw [if_pos hent]
    have hno := h.noUci hent
    have nas := hno "auth_server" (by decide)
    have nap := hno "auth_port" (by decide)
    have nsc := hno "auth_secret" (by decide)
    have nac := hno "acct_port" (by decide)
    generalize hA : (fun k => (Dict.get? enc k).bind readVal) = A
    have hA' : ∀ k, (Dict.get? enc k).bind readVal = A k := fun k => by rw [← hA]
    have hit : ∀ k, k ∈ encryptionKeys → k ≠ "key" → encItem env mode p enc k = encEnterprise mode enc k := by
      intro k hk hk'
      obtain ⟨c1, c2, c3, c4, c5, c6⟩ := hcip k hk
      unfold encItem
      rw [if_neg c5, if_neg hnw, if_neg hk', if_pos hent]
    have hx : ∀ k, k ∈ encryptionKeys → k ≠ "key" → Dict.get? s k = (encEnterprise mode enc k).bind readVal := by
      intro k hk hk'
      obtain ⟨c1, c2, c3, c4, c5, c6⟩ := hcip k hk
      simp only [List.mem_cons, List.not_mem_nil, or_false, not_or] at c1
      rw [g, if_neg hk', if_neg c2, if_neg c1.2, if_pos hk, hit k hk hk']
    have xk : Dict.get? s "key" = A "key" := by rw [g, if_pos rfl, hA']
    have xother : ∀ k, k ∈ encryptionKeys → k ∉ ["key", "auth_server", "auth_port", "auth_secret", "acct_port", "acct_secret"] → Dict.get? s k = A k := by
      intro k hk hk'
      obtain ⟨c1, c2, c3, c4, c5, c6⟩ := hcip k hk
      simp only [List.mem_cons, List.not_mem_nil, or_false, not_or] at c1 hk'
      rw [hx k hk hk'.1, ← hA']
      congr 1
      unfold encEnterprise encCopied
      by_cases ht : k = "auth" ∧ Dict.get? enc "eap_type" = some (.str "tls")
      · rw [if_pos ht, ht.1, h.tls hent ht.2]
      · rw [if_neg ht]
        simp only [hk', if_false, c2, c1, c4, or_self, ite_self]
    have xas : Dict.get? s "auth_secret" = if mode = "ap" then A "key" else none := by
      rw [hx _ (by decide) (by decide)]
      unfold encEnterprise encCopied
      by_cases hm : mode = "ap"
      · simp [hm, hA']
      · simp [hm, nsc]
    have xsv : Dict.get? s "auth_server" = if mode = "ap" then A "server" else none := by
      rw [hx _ (by decide) (by decide)]
      unfold encEnterprise encCopied
      by_cases hm : mode = "ap"
      · simp [hm, hA', nas]
      · simp [hm, nas]
    have xpt : Dict.get? s "auth_port" = if mode = "ap" then A "port" else none := by
      rw [hx _ (by decide) (by decide)]
      unfold encEnterprise encCopied
      by_cases hm : mode = "ap"
      · simp [hm, hA', nap]
      · simp [hm, nap]
    have xac : Dict.get? s "acct_port" = if mode = "ap" then A "acct_server_port" else none := by
      rw [hx _ (by decide) (by decide)]
      unfold encEnterprise encCopied
      by_cases hm : mode = "ap"
      · simp [hm, hA', nac]
      · simp [hm, nac]
    have xsc : Dict.get? s "acct_secret" = if mode = "ap" then ((Dict.get? enc "acct_secret").or (Dict.get? enc "key")).bind readVal else A "acct_secret" := by
      rw [hx _ (by decide) (by decide)]
      unfold encEnterprise encCopied
      by_cases hm : mode = "ap"
      · simp [hm]
      · simp [hm, hA']
    have xno : ∀ k, k ∉ encryptionKeys → k ∉ ["protocol", "cipher"] → Dict.get? s k = none := by
      intro k hk hk'
      simp only [List.mem_cons, List.not_mem_nil, or_false, not_or] at hk'
      rw [g, if_neg (by rintro rfl; exact hk (by decide)), if_neg hk'.1, if_neg hk'.2, if_neg hk]
    have acctA : mode ≠ "ap" → A "acct_server_port" = none := by
      intro hm
      rw [← hA']
      cases hc : Dict.get? enc "acct_server_port" with
      | none => rfl
      | some v =>
        have := (h.acctPort (by rw [hc]; simp)).2
        simp [hm] at this
    have keyA : ∀ v, A "key" = some v → Dict.get? enc "key" = some v := by
      intro v hv
      rw [← hA'] at hv
      cases hc : Dict.get? enc "key" with
      | none => rw [hc] at hv; cases hv
      | some x =>
        obtain ⟨t, rfl, ht, _⟩ := h.key x hc
        rw [hc] at hv
        simpa [readVal, ht] using hv
    -- the secret is dropped exactly when there was none
    have hdrop : (if Dict.get? s "acct_secret" = some ((A "key").getD .none) then none else Dict.get? s "acct_secret") = A "acct_secret" := by
      rw [xsc]
      cases hc : Dict.get? enc "acct_secret" with
      | some v =>
        have hs : Survives none v := (h.settings _ v hc (by decide)).2
        have hr := (readVal_of_survives hs).1
        have e1 : A "acct_secret" = some v := by rw [← hA', hc, Option.bind_some, hr]
        have e2 : (if mode = "ap" then ((some v).or (Dict.get? enc "key")).bind readVal else A "acct_secret") = some v := by
          rw [e1]; simp [hr]
        rw [e2, e1, if_neg]
        intro e
        injection e with e
        cases hk : A "key" with
        | none =>
          rw [hk] at e
          rw [e] at hs
          exact hs
        | some x =>
          rw [hk] at e
          exact h.acctSecret hent v hc (by rw [keyA x hk, e]; rfl)
      | none =>
        have e1 : A "acct_secret" = none := by rw [← hA', hc]; rfl
        rw [e1]
        by_cases hm : mode = "ap"
        · rw [if_pos hm, Option.none_or, hA']
          cases hk : A "key" with
          | none => simp
          | some x => simp
        · rw [if_neg hm]; simp
    have y1 : ∀ k, Dict.get? (renameIf "auth_secret" "key" s) k = if k = "key" then A "key" else if k = "auth_secret" then none else Dict.get? s k := by
      intro k
      rw [renameIf_get (by decide), xas, xk]
      by_cases e : k = "key"
      · rw [if_pos e, if_pos e]
        split
        · cases A "key" <;> rfl
        · rfl
      · rw [if_neg e, if_neg e]
    generalize renameIf "auth_secret" "key" s = s1 at y1
    have y2 : ∀ k, Dict.get? (dropAcctSecret s1) k = if k = "acct_secret" then A "acct_secret" else Dict.get? s1 k := by
      intro k
      rw [dropAcctSecret_get]
      have a1 : Dict.get? s1 "acct_secret" = Dict.get? s "acct_secret" := by rw [y1, if_neg (by decide), if_neg (by decide)]
      have a2 : Dict.get? s1 "key" = A "key" := by rw [y1, if_pos rfl]
      rw [a1, a2]
      by_cases e : k = "acct_secret"
      · subst e
        rw [if_pos rfl, ← hdrop, a1]
        simp
      · rw [if_neg (fun x => e x.1), if_neg e]
    generalize dropAcctSecret s1 = s2 at y2
    have hren : ∀ (a b : String) (d : VDict), a ≠ b → Dict.get? d a = (if mode = "ap" then A b else none) → (Dict.get? d b = A b ∨ Dict.get? d b = none ∧ (mode ≠ "ap" → A b = none)) →
        ∀ k, Dict.get? (renameIf a b d) k = if k = b then A b else if k = a then none else Dict.get? d k := by
      intro a b d hab h1 h2 k
      rw [renameIf_get hab]
      by_cases e : k = b
      · rw [if_pos e, if_pos e, h1]
        by_cases hm : mode = "ap"
        · rw [if_pos hm]
          rcases h2 with h2 | h2
          · rw [h2]; cases A b <;> rfl
          · rw [h2.1]; cases A b <;> rfl
        · rw [if_neg hm]
          rcases h2 with h2 | h2
          · rw [h2]; rfl
          · rw [h2.1, h2.2 hm]; rfl
      · rw [if_neg e, if_neg e]
    have y3 := hren "auth_server" "server" s2 (by decide) (by rw [y2, if_neg (by decide), y1, if_neg (by decide), if_neg (by decide), xsv])
      (.inl (by rw [y2, if_neg (by decide), y1, if_neg (by decide), if_neg (by decide), xother _ (by decide) (by decide)]))
    generalize renameIf "auth_server" "server" s2 = s3 at y3
    have y4 := hren "auth_port" "port" s3 (by decide)
      (by rw [y3, if_neg (by decide), if_neg (by decide), y2, if_neg (by decide), y1, if_neg (by decide), if_neg (by decide), xpt])
      (.inl (by rw [y3, if_neg (by decide), if_neg (by decide), y2, if_neg (by decide), y1, if_neg (by decide), if_neg (by decide), xother _ (by decide) (by decide)]))
    generalize renameIf "auth_port" "port" s3 = s4 at y4
    have y5 := hren "acct_port" "acct_server_port" s4 (by decide)
      (by rw [y4, if_neg (by decide), if_neg (by decide), y3, if_neg (by decide), if_neg (by decide), y2, if_neg (by decide), y1, if_neg (by decide),
            if_neg (by decide), xac])
      (.inr ⟨by rw [y4, if_neg (by decide), if_neg (by decide), y3, if_neg (by decide), if_neg (by decide), y2, if_neg (by decide), y1, if_neg (by decide),
            if_neg (by decide), xno _ (by decide) (by decide)], acctA⟩)
    generalize renameIf "acct_port" "acct_server_port" s4 = s5 at y5
    intro k
    simp only [y5, y4, y3, y2, y1]
    by_cases e1 : k = "cipher"
    · subst e1
      have : Dict.get? s "cipher" = (encExpected p enc "cipher").bind readVal := by rw [g, if_neg (by decide), if_neg (by decide), if_pos rfl]
      simp [this]
    by_cases e2 : k = "disabled"
    · subst e2
      rw [hdis]
      have : Dict.get? s "disabled" = none := xno _ (by decide) (by decide)
      simp [this]
    rw [hsp k (by simp [e1, e2])]
    by_cases e3 : k = "protocol"
    · subst e3
      simp [hp, h.protocol, hpr]
    by_cases e4 : k = "ieee80211w"
    · subst e4
      have : Dict.get? s "ieee80211w" = none := xno _ (by decide) (by decide)
      simp [this]
    rw [if_neg e4, hA']
    by_cases e5 : k ∈ ["acct_server_port", "port", "server", "acct_secret", "key"]
    · simp only [List.mem_cons, List.not_mem_nil, or_false] at e5
      rcases e5 with rfl | rfl | rfl | rfl | rfl <;> simp
    by_cases e6 : k ∈ ["auth_server", "auth_port", "auth_secret", "acct_port"]
    · have : A k = none := by rw [← hA', hno k e6]; rfl
      rw [this]
      simp only [List.mem_cons, List.not_mem_nil, or_false] at e6
      rcases e6 with rfl | rfl | rfl | rfl <;> simp
    simp only [List.mem_cons, List.not_mem_nil, or_false, not_or] at e5 e6
    simp only [e5, e6, if_false]
    by_cases e7 : k ∈ encryptionKeys
    · exact xother k e7 (by simp [e5, e6])
    · rw [xno k e7 (by simp [e1, e3]), ← hA', h.other (by simp [e1, e2, e3, e5]) e7 e4 e5.1]; rfl
  · rw [if_neg hent]
    have hacct : Dict.get? enc "acct_server_port" = none := by
      by_contra hne
      exact hent (h.acctPort hne).1
    have hitem : ∀ k, k ∈ encryptionKeys → k ≠ "key" → encItem env mode p enc k = Dict.get? enc k := by
      intro k hk hk'
      obtain ⟨c1, c2, c3, c4, c5, c6⟩ := hcip k hk
      simp only [List.mem_cons, List.not_mem_nil, or_false, not_or] at c1
      unfold encItem encCopied
      simp [hent, hk', c1, c2, c4, c5, c6]
    intro k
    rw [g]
    by_cases e1 : k = "key"
    · subst e1; rw [if_pos rfl, if_neg (by decide), hsp _ (by decide)]
    rw [if_neg e1]
    by_cases e2 : k = "protocol"
    · subst e2; rw [if_pos rfl, if_neg (by decide), hsp _ (by decide), h.protocol, Option.bind_some, hpr]
    rw [if_neg e2]
    by_cases e3 : k = "cipher"
    · subst e3; rw [if_pos rfl, if_neg (by decide)]
    rw [if_neg e3]
    by_cases e4 : k ∈ encryptionKeys
    · rw [if_pos e4, if_neg (hcip k e4).2.2.1, hsp k (hcip k e4).1, hitem k e4 e1]
    · rw [if_neg e4]
      by_cases e5 : k = "ieee80211w"
      · rw [if_pos e5]; rfl
      · rw [if_neg e5]
        by_cases e6 : k = "disabled"
        · rw [e6, hdis]; rfl
        · rw [hsp k (by simp [e3, e6])]
          by_cases e7 : k = "acct_server_port"
          · rw [e7, hacct]; rfl
          · rw [h.other (by simp [e1, e2, e3, e6]) e4 e5 e7]; rfl

/-- An encryption object comes back from the options made of it; the other options are left alone. -/
theorem encBack_spec {env : Env} {mode p : String} {enc w : VDict} (h : EncOK (mode == "ap") p enc)
    (hw : ∀ k, k ∈ encryptionKeys ∨ k = "encryption" ∨ k = "ieee80211w" ∨ k = "key1" → Dict.get? w k = (encItem env mode p enc k).bind readVal) :
    ∃ w' e, wifiEncryptionBack env w = .ok w' ∧ (∀ k, Dict.get? e k = encExpected p enc k) ∧
      ∀ k, Dict.get? w' k = if k = "encryption" then some (.dict e)
        else if k ∈ encryptionKeys ∨ k = "ieee80211w" ∨ k = "key1" then none else Dict.get? w k := by
  obtain ⟨base, hb, hplus, hnone, hback, hwep, hnent, _, _, hwo, hword⟩ := protocol_facts p h.known
  obtain ⟨m1, m2, m3⟩ := moved_get h (fun k hk => hw k (.inl hk))
  obtain ⟨o, ho1, ho2⟩ := encValue_split (env := env) h hb hplus
  have hvw := encValue_word (env := env) h
  have hencr : Dict.get? w "encryption" = some (.str (encValue env p ((Dict.get? enc "cipher").getD .none))) := by
    have e : encItem env mode p enc "encryption" = some (.str (encValue env p ((Dict.get? enc "cipher").getD .none))) := by
      unfold encItem; rw [if_pos rfl]
    have hne : encValue env p ((Dict.get? enc "cipher").getD .none) ≠ "" := by
      intro e; rw [e] at hvw; exact hvw.1 rfl
    rw [hw _ (.inr (.inl rfl)), e, Option.bind_some, readVal, if_neg hne]
  generalize encValue env p ((Dict.get? enc "cipher").getD .none) = val at hencr ho1 hvw
  unfold wifiEncryptionBack
  rw [if_pos (get?_has.2 ⟨_, hencr⟩)]
  generalize encryptionKeys.foldl moveKey ([], w, false) = r at m1 m2 m3
  obtain ⟨s0, w0, f⟩ := r
  dsimp only at m1 m2 m3
  have hp0 : Dict.get? w0 "encryption" = some (.str val) := by rw [m2, if_neg (by decide), hencr]
  dsimp only
  rw [popKey_iff.2 ⟨hp0, rfl⟩]
  have hvn : (Val.str val) ≠ .str "none" := by
    intro e
    injection e with e
    rw [e] at ho1
    have := splitPlus_none (s := "none".toList) (by decide)
    rw [this] at ho1
    exact hnone (by
      have := congrArg Prod.fst ho1
      dsimp only at this
      have := congrArg String.ofList this
      simpa using this.symm)
  simp only [bind, Except.bind]
  rw [if_neg hvn]
  simp only [asText]
  generalize hw1 : Dict.erase w0 "encryption" = w1
  have k1 : ∀ k, Dict.get? w1 k = if k = "encryption" ∨ k ∈ encryptionKeys then none else Dict.get? w k := by
    intro k
    rw [← hw1, Dict.get?_erase', m2]
    by_cases e : k = "encryption" <;> simp [e]
  unfold encryptionBack
  rw [ho1]
  dsimp only
  -- protocol and cipher
  obtain ⟨s1, hs1, g1⟩ : ∃ s1, protocolSettings f base.toList (o.getD "auto".toList) s0 = .ok s1 ∧
      ∀ k, Dict.get? s1 k = if k = "protocol" then some (.str p) else if k = "cipher" then (encExpected p enc "cipher").bind readVal else Dict.get? s0 k := by
    have hcr : ∀ v, encExpected p enc "cipher" = some v → readVal v = some v := by
      intro v hv
      have := h.expected_survives hv
      exact (readVal_of_survives this).1
    unfold protocolSettings
    by_cases hwps : p = "wps"
    · rw [m3, if_pos (by simpa using hwps)]
      refine ⟨_, rfl, fun k => ?_⟩
      rw [Dict.get?_set', hwps]
      by_cases e : k = "cipher"
      · subst e
        rw [m1]
        have : encExpected "wps" enc "cipher" = none := by unfold encExpected; rw [if_neg (by decide), if_pos rfl, if_pos rfl]
        rw [this, if_neg (by decide), if_neg (by decide)]
        simp
      · rw [if_neg e]
    · rw [m3, if_neg (by simpa using hwps)]
      have : lookupText encProtocolsBack (txt base.toList) = .ok p := lookupText_ok.2 ⟨base, by simp [txt], hback hwps⟩
      rw [this]
      refine ⟨_, rfl, fun k => ?_⟩
      rw [Dict.get?_set', Dict.get?_set', ← ho2 hwps, Option.bind_some, hcr _ (ho2 hwps).symm]
      by_cases e : k = "cipher"
      · subst e; simp
      · rw [if_neg e, if_neg e]
  rw [hs1]
  simp only [bind, Except.bind]
  obtain ⟨s2, w2, hs2, g2, k2⟩ := wepBack_spec (base := base) (env := env) (s := s1) (w := w1) h hwep hwo
    (by rw [g1, if_neg (by decide), if_neg (by decide), m1, if_pos (by decide)])
    (by rw [k1, if_neg (by decide), hw _ (.inr (.inr (.inr rfl)))])
  rw [hs2]
  dsimp only
  obtain ⟨s3, hs3, g3⟩ := enterpriseBack_spec (env := env) (s := s2) h hnent (by
    intro k
    rw [g2, g1, m1])
  rw [hs3]
  dsimp only
  have hie : encItem env mode p enc "ieee80211w" = Dict.get? enc "ieee80211w" := encItem_plain (by decide)
  obtain ⟨e, he, ge⟩ := encTypecast_back (copyIf w2 "ieee80211w" s3 "ieee80211w") (encExpected p enc) (fun k v hv => h.expected_survives hv) (by
    intro k
    have ew : Dict.get? w2 "ieee80211w" = (Dict.get? enc "ieee80211w").bind readVal := by
      rw [k2, if_neg (by decide), k1, if_neg (by decide), hw _ (.inr (.inr (.inl rfl))), hie]
    rw [copyIf_get, ew, g3, g3]
    by_cases e : k = "ieee80211w"
    · subst e
      rw [if_pos rfl, if_pos rfl]
      unfold encExpected
      rw [if_neg (by decide), if_neg (by decide)]
      simp
    · rw [if_neg e, if_neg e])
  rw [he]
  refine ⟨_, e, rfl, ge, fun k => ?_⟩
  rw [Dict.get?_set', Dict.get?_erase', k2, k1]
  by_cases e1 : k = "encryption"
  · rw [if_pos e1, if_pos e1]
  · rw [if_neg e1, if_neg e1]
    by_cases e2 : k = "ieee80211w"
    · simp [e2]
    · by_cases e3 : k = "key1"
      · simp [e3]
      · by_cases e4 : k ∈ encryptionKeys <;> simp [e1, e2, e3, e4]

/-! ## Interfaces -/

/-- the options of a `wireless` object that are booleans or numbers -/
def wifiType (k : String) : Option JType :=
  if k ∈ wifiBooleans then some .boolean else if k = "reassociation_deadline" then some .integer else none

/-- A Wi-Fi interface `d` with its `wireless` object `w` that comes back. -/
structure WifiOK (name m : String) (d w : VDict) : Prop where
  hname : Dict.get? d "name" = some (.str name)
  word : IsWord name.toList
  mac : ∀ v, Dict.get? d "mac" = some v → Survives none v
  disabled : ∀ v, Dict.get? d "disabled" = some v → ∃ b, v = .bool b
  nodup : (Dict.keys w).Nodup
  mode : Dict.get? w "mode" = some (.str m)
  known : m ∈ Dict.keys wifiModes
  radio : ∃ v, Dict.get? w "radio" = some v ∧ Survives none v
  /-- an id like the automatic name is left out when it is read -/
  id : ∀ v, Dict.get? w "id" = some v → ∃ s, v = .str s ∧ IsWord s.toList ∧ s ≠ wifiAutoName name
  numbers : ∀ k ∈ ["ack_distance", "rts_threshold", "frag_threshold"], ∀ v, Dict.get? w k = some v → ∃ i : Int, v = .int i
  /-- either no network (and, if the interface has addresses, a name that sanitising keeps), or a list of networks with names that sanitising
  keeps, other than the interface alone -/
  network : (Dict.get? w "network" = none ∧ (((Dict.get? d "addresses").getD .none).truthy = true → uciName name.toList = name.toList)) ∨
    ∃ names : List String, names ≠ [] ∧ names ≠ [name] ∧ Dict.get? w "network" = some (.list (names.map .str)) ∧
      ∀ n ∈ names, IsWord n.toList ∧ uciName n.toList = n.toList
  others : ∀ k v, Dict.get? w k = some v → k ∉ ["mode", "radio", "id", "ack_distance", "rts_threshold", "frag_threshold", "network", "encryption"] →
    IsWord k.toList ∧ k.toList.head? ≠ some '.' ∧ k ∉ ["device", "ifname", "macaddr", "disabled", "distance", "rts", "frag"] ∧ Survives (wifiType k) v
  /-- the encryption object is off or comes back; no option of the same name as one of its settings is in the `wireless` object -/
  encryption : ∀ v, Dict.get? w "encryption" = some v → ∃ enc, v = .dict enc ∧ (Dict.keys enc).Nodup ∧
    (EncryptionOff enc ∨ ∃ p, EncOK (m == "access_point") p enc ∧ (Dict.get? w "ieee80211r" = some (.bool false) → Dict.get? enc "nasid" = none)) ∧
    ∀ k, k ∈ encryptionKeys ∨ k = "ieee80211w" ∨ k = "key1" → Dict.get? w k = none

theorem wifiOption_ok {k u : String} {w : VDict} (h : ∀ v, Dict.get? w k = some v → ∃ i : Int, v = .int i) : ∃ r, wifiOption k u w = .ok r := by
  unfold wifiOption
  cases hg : Dict.get? w k with
  | none => exact ⟨_, rfl⟩
  | some v => obtain ⟨i, rfl⟩ := h v hg; exact ⟨_, rfl⟩

theorem ap_mode {m mode : String} (h : Dict.get? wifiModes m = some mode) : (m == "access_point") = (mode == "ap") ∧ Dict.get? wifiModesBack mode = some m ∧ IsWord mode.toList := by
  have hm : m ∈ ["access_point", "station", "adhoc", "monitor", "802.11s"] := by
    have : m ∈ Dict.keys wifiModes := by
      by_contra hn
      rw [(Dict.get?_eq_none_iff _ _).2 hn] at h; cases h
    exact this
  simp only [List.mem_cons, List.not_mem_nil, or_false] at hm
  rcases hm with rfl | rfl | rfl | rfl | rfl <;> (cases h; exact ⟨by decide, by decide, by decide⟩)

theorem joinSpaces_ok {name m : String} {d w : VDict} (h : WifiOK name m d w) :
    ∃ names : List String, wifiNetworks [] name d (Dict.get? w "network") = .list (names.map .str) ∧
      ((Dict.get? w "network" = none ∧ (names = [] ∨ names = [name] ∧ uciName name.toList = name.toList)) ∨
        (Dict.get? w "network" = some (.list (names.map .str)) ∧ names ≠ [] ∧ names ≠ [name] ∧ ∀ n ∈ names, IsWord n.toList ∧ uciName n.toList = n.toList)) := by
  unfold wifiNetworks
  rcases h.network with ⟨hn, ha⟩ | ⟨names, hne, hne', hn, hw⟩
  · rw [hn, if_neg (by simp [Val.truthy])]
    have e : ((Dict.get? d "addresses").getD (.list [])).truthy = ((Dict.get? d "addresses").getD .none).truthy := by
      cases Dict.get? d "addresses" <;> rfl
    simp only [Dict.get?_nil, e]
    by_cases ht : ((Dict.get? d "addresses").getD .none).truthy = true
    · rw [if_pos ht]; exact ⟨[name], rfl, .inl ⟨trivial, .inr ⟨rfl, ha ht⟩⟩⟩
    · rw [if_neg ht]; exact ⟨[], rfl, .inl ⟨trivial, .inl rfl⟩⟩
  · rw [hn]
    refine ⟨names, ?_, .inr ⟨rfl, hne, hne', hw⟩⟩
    rw [if_pos (by simp [Val.truthy, hne])]
    rfl

theorem wifiBlock_ok_at (env : Env) {bridged : Dict String (List String)} {names : List String} {name m : String} {d w : VDict} (h : WifiOK name m d w)
    (hnames : wifiNetworks bridged name d (Dict.get? w "network") = .list (names.map .str)) : ∃ b, wifiBlock env bridged d w = .ok b := by
  obtain ⟨radio, hr, _⟩ := h.radio
  obtain ⟨mode, hmode⟩ : ∃ mode, Dict.get? wifiModes m = some mode := by
    cases hg : Dict.get? wifiModes m with
    | none => exact absurd h.known ((Dict.get?_eq_none_iff _ _).1 hg)
    | some x => exact ⟨x, rfl⟩
  unfold wifiBlock
  rw [getKey_iff.2 h.hname]
  simp only [bind, Except.bind, protocolText]
  generalize ew1 : Dict.set w "disabled" ((Dict.get? d "disabled").getD Val.none) = w1
  generalize ew2 : Dict.set w1 "ifname" (Val.str name) = w2
  have g2 : ∀ k, k ≠ "disabled" → k ≠ "ifname" → Dict.get? w2 k = Dict.get? w k := by
    intro k h1 h2
    rw [← ew2, ← ew1, Dict.get?_set', if_neg h2, Dict.get?_set', if_neg h1]
  obtain ⟨idv, hid⟩ : ∃ idv, popOrElse w2 "id" (fun _ => .ok (.str (wifiAutoName name))) = .ok (idv, Dict.erase w2 "id") := by
    unfold popOrElse
    split
    · split
      · exact ⟨_, rfl⟩
      · exact ⟨_, rfl⟩
    · exact ⟨_, rfl⟩
  rw [hid]
  dsimp only
  generalize ew4 : Dict.update (Dict.erase w2 "id") [(".type", Val.str "wifi-iface"), (".name", idv)] = w4
  have g4 : ∀ k, k ∉ ["disabled", "ifname", "id", ".type", ".name"] → Dict.get? w4 k = Dict.get? w k := by
    intro k hk
    simp only [List.mem_cons, List.not_mem_nil, or_false, not_or] at hk
    rw [← ew4, Dict.update_cons, Dict.update_cons, Dict.update_nil, Dict.get?_set', if_neg hk.2.2.2.2, Dict.get?_set', if_neg hk.2.2.2.1,
      Dict.get?_erase', if_neg hk.2.2.1, g2 k hk.1 hk.2.1]
  rw [popKey_iff.2 ⟨(g4 "radio" (by decide)).trans hr, rfl⟩]
  dsimp only
  generalize ew6 : Dict.set (Dict.erase w4 "radio") "device" radio = w6
  generalize ew7 : copyIf d "mac" w6 "macaddr" = w7
  have g7 : ∀ k, k ∉ ["disabled", "ifname", "id", ".type", ".name", "radio", "device", "macaddr"] → Dict.get? w7 k = Dict.get? w k := by
    intro k hk
    simp only [List.mem_cons, List.not_mem_nil, or_false, not_or] at hk
    rw [← ew7, copyIf_get, if_neg hk.2.2.2.2.2.2.2, ← ew6, Dict.get?_set', if_neg hk.2.2.2.2.2.2.1, Dict.get?_erase', if_neg hk.2.2.2.2.2.1,
      g4 k (by simp [hk])]
  rw [getKey_iff.2 ((g7 "mode" (by decide)).trans h.mode)]
  dsimp only
  rw [lookupText_ok.2 ⟨m, rfl, hmode⟩]
  dsimp only
  generalize ew8 : Dict.set w7 "mode" (Val.str mode) = w8
  have g8 : ∀ k, k ≠ "mode" → Dict.get? w8 k = Dict.get? w7 k := by
    intro k hk; rw [← ew8, Dict.get?_set', if_neg hk]
  obtain ⟨w9, h9⟩ := wifiOption_ok (k := "ack_distance") (u := "distance") (w := w8) (by
    rw [g8 _ (by decide), g7 _ (by decide)]; exact h.numbers _ (by decide))
  rw [h9]
  dsimp only
  have g9 := wifiOption_get (by decide) h9
  obtain ⟨w10, h10⟩ := wifiOption_ok (k := "rts_threshold") (u := "rts") (w := w9) (by
    rw [g9, if_neg (by decide), if_neg (by decide), g8 _ (by decide), g7 _ (by decide)]; exact h.numbers _ (by decide))
  rw [h10]
  dsimp only
  have g10 := wifiOption_get (by decide) h10
  obtain ⟨w11, h11⟩ := wifiOption_ok (k := "frag_threshold") (u := "frag") (w := w10) (by
    rw [g10, if_neg (by decide), if_neg (by decide), g9, if_neg (by decide), if_neg (by decide), g8 _ (by decide), g7 _ (by decide)]
    exact h.numbers _ (by decide))
  rw [h11]
  dsimp only
  have g11 := wifiOption_get (by decide) h11
  have gl : ∀ k, k ∈ ["encryption", "network"] → Dict.get? w11 k = Dict.get? w k := by
    intro k hk
    simp only [List.mem_cons, List.not_mem_nil, or_false] at hk
    rcases hk with rfl | rfl
    · rw [g11, if_neg (by decide), if_neg (by decide), g10, if_neg (by decide), if_neg (by decide), g9, if_neg (by decide), if_neg (by decide),
        g8 _ (by decide), g7 _ (by decide)]
    · rw [g11, if_neg (by decide), if_neg (by decide), g10, if_neg (by decide), if_neg (by decide), g9, if_neg (by decide), if_neg (by decide),
        g8 _ (by decide), g7 _ (by decide)]
  obtain ⟨w12, h12, hnet⟩ : ∃ w12, wifiEncryption env mode w11 = .ok w12 ∧ Dict.get? w12 "network" = Dict.get? w "network" := by
    unfold wifiEncryption
    rw [gl _ (by simp)]
    cases he : Dict.get? w "encryption" with
    | none => exact ⟨w11, rfl, gl _ (by simp)⟩
    | some v =>
      obtain ⟨enc, rfl, hnd, henc, _⟩ := h.encryption v he
      obtain ⟨u, hu, hun⟩ : ∃ u, encryptionUci env mode enc = .ok u ∧ Dict.get? u "network" = none := by
        rcases henc with ho | ⟨p, hok, _⟩
        · exact ⟨_, encryptionUci_off ho, by simp [Dict.get?]⟩
        · rw [(ap_mode hmode).1] at hok
          obtain ⟨u, hu⟩ := encryptionUci_ok env mode enc p hok.not_off hok.protocol (by
            intro hx; exact hok.hasKey (by simpa using hx))
          refine ⟨u, hu, ?_⟩
          obtain ⟨q, _, hg⟩ := encryptionUci_get hu hok.not_off
          rw [hg, encItem_plain (by decide), hok.other (by decide) (by decide) (by decide) (by decide)]
      refine ⟨Dict.update (Dict.erase w11 "encryption") u, ?_, ?_⟩
      · simp only [asDict, bind, Except.bind, hu]
        rfl
      · rw [Dict.get?_update _ _ (encryptionUci_nodup hu hnd), hun, Option.none_or, Dict.get?_erase', if_neg (by decide), gl _ (by simp)]
  rw [h12]
  dsimp only
  have : autoNetwork bridged name d (wifiRoaming w12) = .list (names.map .str) := by
    rw [← hnames]
    unfold autoNetwork wifiNetworks
    have : Dict.get? (wifiRoaming w12) "network" = Dict.get? w "network" := by
      unfold wifiRoaming
      split
      · rw [Dict.get?_foldl_erase, if_neg (by decide), hnet]
      · exact hnet
    rw [this]
    rfl
  rw [this, joinSpaces_texts]
  exact ⟨_, rfl⟩

theorem wifiBlock_ok (env : Env) {name m : String} {d w : VDict} (h : WifiOK name m d w) : ∃ b, wifiBlock env [] d w = .ok b := by
  obtain ⟨names, hnames, _⟩ := joinSpaces_ok h
  exact wifiBlock_ok_at env h hnames

theorem encItem_keys {env : Env} {mode p : String} {enc : VDict} (h : EncOK (mode == "ap") p enc) {k : String} {v : Val}
    (hv : encItem env mode p enc k = some v) : k ∈ encryptionKeys ∨ k = "encryption" ∨ k = "ieee80211w" ∨ k = "key1" := by
  by_cases hm : k ∈ encMade
  · by_cases hk : k ∈ encryptionKeys ∨ k = "encryption" ∨ k = "ieee80211w" ∨ k = "key1"
    · exact hk
    · exfalso
      have : ∀ k ∈ encMade, ¬ (k ∈ encryptionKeys ∨ k = "encryption" ∨ k = "ieee80211w" ∨ k = "key1") →
          k ∈ ["protocol", "cipher", "disabled", "acct_server_port"] := by decide
      have hk' := this k hm hk
      have : encItem env mode p enc k = none := by
        have hall : ∀ k ∈ ["protocol", "cipher", "disabled", "acct_server_port"], (k ∈ ["protocol", "key", "cipher", "disabled", "acct_server_port"]) ∧
            k ∉ ["encryption", "key", "key1", "auth", "auth_server", "auth_port", "auth_secret", "acct_secret", "acct_port"] := by decide
        obtain ⟨i1, i2⟩ := hall k hk'
        clear hk hk' hm this hall hv h
        simp only [List.mem_cons, List.not_mem_nil, or_false, not_or] at i1 i2
        unfold encItem encEnterprise encCopied
        simp only [i2, if_false, false_and, ite_self]
        exact if_pos (by tauto)
      rw [this] at hv; cases hv
  · rw [encItem_plain hm] at hv
    have := (h.settings k v hv (by
      intro hx
      have : ∀ k ∈ ["protocol", "key", "cipher", "disabled"], k ∈ encMade := by decide
      exact hm (this k hx))).1
    rcases this with h1 | h1 | h1
    · exact .inl h1
    · exact .inr (.inr (.inl h1))
    · subst h1; exact absurd (by decide) hm

/-- the option as it is in the section (apart from `network`) -/
def wifiShown (env : Env) (name mode : String) (d w : VDict) (k : String) : Option Val :=
  if Dict.get? w "ieee80211r" = some (.bool false) ∧ k ∈ roamingProperties then none
  else match Dict.get? w "encryption" with
    | some (.dict enc) =>
      if k ∈ encryptionKeys ∨ k = "encryption" ∨ k = "ieee80211w" ∨ k = "key1" then
        (if encOff enc = .ok true then (if k = "encryption" then some (.str "none") else none)
        else match Dict.get? enc "protocol" with
          | some (.str p) => encItem env mode p enc k
          | _ => none)
      else wifiBase name mode d w k
    | _ => wifiBase name mode d w k

/-- the section, for interfaces of which the bridges are known -/
theorem wifi_section_at (env : Env) {bridged : Dict String (List String)} {name m : String} {d w b : VDict} (h : WifiOK name m d w)
    (hb : wifiBlock env bridged d w = .ok b) :
    ∃ (mode : String) (net : Chars), Dict.get? wifiModes m = some mode ∧ (Dict.keys b).Nodup ∧
      joinSpaces (wifiNetworks bridged name d (Dict.get? w "network")) = .ok net ∧
      ∀ k, Dict.get? b k = if k = "network" then some (txt (uciName net)) else wifiShown env name mode d w k := by
  have hne : ∀ enc, Dict.get? w "encryption" = some (.dict enc) → (Dict.keys enc).Nodup := by
    intro enc he
    obtain ⟨e, h1, h2, _⟩ := h.encryption _ he
    cases h1; exact h2
  obtain ⟨name', m', mode, uci, net, a1, a2, a3, _, a5, a6, a7, a8⟩ := wifiBlock_spec h.nodup hne hb
  rw [h.hname] at a1; cases a1
  rw [h.mode] at a2; cases a2
  have hbnet : ∀ k, k ∈ ["network", "ieee80211r"] → wifiBase name mode d w k = Dict.get? w k := by
    intro k hk
    simp only [List.mem_cons, List.not_mem_nil, or_false] at hk
    rcases hk with rfl | rfl <;> simp [wifiBase]
  have hgrp : ∀ k, k ∈ encryptionKeys ∨ k = "ieee80211w" ∨ k = "key1" → wifiBase name mode d w k = Dict.get? w k ∧ k ≠ "encryption" := by
    have : ∀ k ∈ encryptionKeys ++ ["ieee80211w", "key1"], k ∉ [".type", ".name", "ifname", "disabled", "device", "macaddr", "mode", "distance", "rts", "frag", "id",
      "radio", "ack_distance", "rts_threshold", "frag_threshold", "encryption"] := by decide
    intro k hk
    have hk' := this k (by simp; tauto)
    simp only [List.mem_cons, List.not_mem_nil, or_false, not_or] at hk'
    unfold wifiBase
    simp only [hk', if_false, or_self, not_false_iff, ne_eq, and_self]
  -- what is merged
  have hmer : ∀ k, wifiMerged name mode d w uci k = match Dict.get? w "encryption" with
      | some (.dict enc) =>
        if k ∈ encryptionKeys ∨ k = "encryption" ∨ k = "ieee80211w" ∨ k = "key1" then
          (if encOff enc = .ok true then (if k = "encryption" then some (.str "none") else none)
          else match Dict.get? enc "protocol" with
            | some (.str p) => encItem env mode p enc k
            | _ => none)
        else wifiBase name mode d w k
      | _ => wifiBase name mode d w k := by
    intro k
    rcases a5 with ⟨q1, rfl⟩ | ⟨enc, u, q1, q2, rfl⟩
    · rw [q1]; rfl
    · rw [q1]
      dsimp only [wifiMerged]
      obtain ⟨e', r1, _, r2, r3⟩ := h.encryption _ q1
      cases r1
      rcases r2 with ho | ⟨p, hok, _⟩
      · rw [encryptionUci_off ho] at q2
        cases q2
        rw [if_pos (encOff_iff ho)]
        by_cases e : k = "encryption"
        · subst e; simp [Dict.get?]
        · rw [if_neg e, if_neg e, Dict.get?_cons, if_neg (Ne.symm e), Dict.get?_nil, Option.none_or]
          by_cases e' : k ∈ encryptionKeys ∨ k = "encryption" ∨ k = "ieee80211w" ∨ k = "key1"
          · rw [if_pos e', (hgrp k (by tauto)).1, r3 k (by tauto)]
          · rw [if_neg e']
      · rw [(ap_mode a3).1] at hok
        rw [if_neg (fun x => hok.not_off (encOff_true.1 x)), hok.protocol]
        obtain ⟨q, hq, hg⟩ := encryptionUci_get q2 hok.not_off
        rw [hok.protocol] at hq
        cases hq
        dsimp only
        by_cases e : k = "encryption"
        · subst e; rw [if_pos rfl, hg, if_pos (.inr (.inl rfl))]
        · rw [if_neg e, hg]
          by_cases e' : k ∈ encryptionKeys ∨ k = "encryption" ∨ k = "ieee80211w" ∨ k = "key1"
          · rw [if_pos e', (hgrp k (by tauto)).1, r3 k (by tauto), Option.or_none]
          · rw [if_neg e']
            cases hi : encItem env mode _ enc k with
            | none => rfl
            | some v => exact absurd (encItem_keys hok hi) e'
  have hother : ∀ k, k ∈ ["network", "ieee80211r"] → wifiMerged name mode d w uci k = Dict.get? w k := by
    intro k hk
    have : ¬ (k ∈ encryptionKeys ∨ k = "encryption" ∨ k = "ieee80211w" ∨ k = "key1") := by
      have : ∀ k ∈ ["network", "ieee80211r"], ¬ (k ∈ encryptionKeys ∨ k = "encryption" ∨ k = "ieee80211w" ∨ k = "key1") := by decide
      exact this k hk
    rw [hmer]
    split
    · rw [if_neg this, hbnet k hk]
    · exact hbnet k hk
  rw [hother _ (by simp)] at a6
  refine ⟨mode, net, a3, a7, a6, fun k => ?_⟩
  rw [a8, hother "ieee80211r" (by simp), hmer]
  unfold wifiShown
  rfl

theorem networkText_join (names : List String) : networkText names = txt (uciName (joinWith [' '] (names.map String.toList))) := by
  unfold networkText
  rw [uciName_join, List.map_map]
  rfl

theorem wifi_section (env : Env) {name m : String} {d w : VDict} (h : WifiOK name m d w) :
    ∃ (b : VDict) (mode : String) (names : List String), wifiBlock env [] d w = .ok b ∧ Dict.get? wifiModes m = some mode ∧ (Dict.keys b).Nodup ∧
      ((Dict.get? w "network" = none ∧ (names = [] ∨ names = [name] ∧ uciName name.toList = name.toList)) ∨
        (Dict.get? w "network" = some (.list (names.map .str)) ∧ names ≠ [] ∧ names ≠ [name] ∧ ∀ n ∈ names, IsWord n.toList ∧ uciName n.toList = n.toList)) ∧
      ∀ k, Dict.get? b k = if k = "network" then some (networkText names) else wifiShown env name mode d w k := by
  obtain ⟨b, hb⟩ := wifiBlock_ok env h
  obtain ⟨mode, net, a3, a7, a6, a8⟩ := wifi_section_at env h hb
  obtain ⟨names, n1, n2⟩ := joinSpaces_ok h
  rw [n1, joinSpaces_texts] at a6
  cases a6
  refine ⟨b, mode, names, hb, a3, a7, n2, fun k => ?_⟩
  rw [a8, networkText_join]

theorem uciName_word {s : Chars} (h : IsWord s) : IsWord (uciName s) := by
  refine ⟨by simp [uciName, h.1], fun c hc => ?_⟩
  obtain ⟨x, hx, rfl⟩ := List.mem_map.1 hc
  split
  · decide
  · split
    · decide
    · exact h.2 x hx

theorem wifiAutoName_word {name : String} (h : IsWord name.toList) : IsWord (wifiAutoName name).toList := by
  unfold wifiAutoName
  rw [String.toList_ofList]
  exact isWord_append (by decide) (uciName_word h).2

theorem word_nospace {s : Chars} (h : IsWord s) : ' ' ∉ s := fun hc => by
  have := (h.2 ' ' hc).1
  exact absurd this (by decide)

theorem twoSpaces {a b : Chars} (ha : ' ' ∉ a) (hb : ¬ [' ', ' '] <:+: b) (hh : b.head? ≠ some ' ') : ¬ [' ', ' '] <:+: a ++ ' ' :: b := by
  induction a with
  | nil =>
    rw [List.nil_append, List.infix_cons_iff]
    rintro (h | h)
    · obtain ⟨t, ht⟩ := h
      simp at ht
      rw [← ht] at hh
      exact hh rfl
    · exact hb h
  | cons c cs ih =>
    rw [List.cons_append, List.infix_cons_iff]
    rintro (h | h)
    · obtain ⟨t, ht⟩ := h
      simp at ht
      exact ha (List.mem_cons.2 (.inl ht.1))
    · exact ih (fun x => ha (by simp [x])) h

theorem joinWords_spaces (l : List Chars) (h : ∀ s ∈ l, IsWord s) : ¬ [' ', ' '] <:+: joinWith [' '] l ∧ (joinWith [' '] l).head? ≠ some ' ' := by
  induction l with
  | nil => exact ⟨by decide, by decide⟩
  | cons x r ih =>
    have hx := word_nospace (h x (by simp))
    have hh : ∀ t : Chars, (x ++ t).head? ≠ some ' ' := by
      intro t e
      cases x with
      | nil => exact (h [] (by simp)).1 rfl
      | cons c cs => simp at e; exact hx (by simp [e])
    cases r with
    | nil =>
      refine ⟨fun e => hx (e.subset (by simp)), ?_⟩
      simpa [joinWith] using hh []
    | cons y r =>
      obtain ⟨i1, i2⟩ := ih (fun s hs => h s (by simp [hs]))
      rw [joinWith, List.append_assoc]
      exact ⟨twoSpaces hx i1 i2, hh _⟩

theorem joinWords_plain (l : List Chars) (h : ∀ s ∈ l, IsWord s) : PlainText (joinWith [' '] l) := by
  refine ⟨?_, fun e => (joinWords_spaces l h).1 (List.IsInfix.trans (by exact ⟨[], [' ', ' '], rfl⟩) e)⟩
  induction l with
  | nil => simp [joinWith]
  | cons x r ih =>
    have hx := (isWord_plain (h x (by simp))).1
    cases r with
    | nil => simpa [joinWith] using hx
    | cons y r =>
      rw [joinWith]
      intro c hc
      rcases List.mem_append.1 hc with hc | hc
      · rcases List.mem_append.1 hc with hc | hc
        · exact hx c hc
        · simp only [List.mem_singleton] at hc; subst hc; decide
      · exact ih (fun s hs => h s (by simp [hs])) c hc

theorem words_join (l : List Chars) (h : ∀ s ∈ l, IsWord s) : words (joinWith [' '] l) = l := by
  induction l with
  | nil => rfl
  | cons x r ih =>
    have hx := h x (by simp)
    cases r with
    | nil => exact words_one hx.1 (fun c hc => (hx.2 c hc).1)
    | cons y r =>
      have i1 := ih (fun s hs => h s (by simp [hs]))
      rw [joinWith, List.append_assoc]
      unfold words at i1 ⊢
      rw [wordsAux_word (fun c hc => (hx.2 c hc).1), List.nil_append, List.singleton_append, wordsAux, if_pos (by decide), if_neg (by simpa using hx.1), i1]

/-- values of the options before encryption can be read back -/
theorem wifiBase_plain {name mode m : String} {d w : VDict} (h : WifiOK name m d w) (hm : Dict.get? wifiModes m = some mode) {k : String} {v : Val}
    (hk : k ∉ [".type", ".name", "network", "encryption"]) (hv : wifiBase name mode d w k = some v) :
    IsWord k.toList ∧ k.toList.head? ≠ some '.' ∧ PlainVal v ∧ v.isDict = false := by
  have hsurv : ∀ {t : Option JType} {v : Val}, Survives t v → PlainVal v ∧ v.isDict = false := by
    intro t v hs
    refine ⟨survives_plain hs, ?_⟩
    cases v with
    | dict d => exact absurd hs (by simp [Survives])
    | _ => rfl
  have hpos : ∀ (q u : String), q ∈ ["ack_distance", "rts_threshold", "frag_threshold"] → u ∈ ["distance", "rts", "frag"] →
      ∀ v, (positive (Dict.get? w q)).or (Dict.get? w u) = some v → PlainVal v ∧ v.isDict = false := by
    intro q u hq hu v hv
    have hun : Dict.get? w u = none := by
      cases hx : Dict.get? w u with
      | none => rfl
      | some x =>
        have hd : ∀ u ∈ ["distance", "rts", "frag"], u ∈ ["device", "ifname", "macaddr", "disabled", "distance", "rts", "frag"] ∧
          u ∉ ["mode", "radio", "id", "ack_distance", "rts_threshold", "frag_threshold", "network", "encryption"] := by decide
        exact absurd (hd u hu).1 (h.others u x hx (hd u hu).2).2.2.1
    rw [hun, Option.or_none] at hv
    cases hx : Dict.get? w q with
    | none => rw [hx] at hv; cases hv
    | some x =>
      obtain ⟨i, rfl⟩ := h.numbers q hq x hx
      rw [hx] at hv
      simp only [positive] at hv
      split at hv
      · cases hv; exact ⟨trivial, rfl⟩
      · cases hv
  simp only [List.mem_cons, List.not_mem_nil, or_false, not_or] at hk
  unfold wifiBase at hv
  rw [if_neg hk.1, if_neg hk.2.1] at hv
  split at hv
  · next e => subst e; cases hv; exact ⟨by decide, by decide, isWord_plain h.word, rfl⟩
  split at hv
  · next e =>
    subst e
    refine ⟨by decide, by decide, ?_⟩
    cases hx : Dict.get? d "disabled" with
    | none => rw [hx] at hv; cases hv; exact ⟨trivial, rfl⟩
    | some x => obtain ⟨b, rfl⟩ := h.disabled x hx; rw [hx] at hv; cases hv; exact ⟨trivial, rfl⟩
  split at hv
  · next e =>
    subst e
    refine ⟨by decide, by decide, ?_⟩
    obtain ⟨r, h1, h2⟩ := h.radio
    rw [h1] at hv; cases hv; exact hsurv h2
  split at hv
  · next e =>
    subst e
    refine ⟨by decide, by decide, ?_⟩
    have hun : Dict.get? w "macaddr" = none := by
      cases hx : Dict.get? w "macaddr" with
      | none => rfl
      | some x => exact absurd (by decide) (h.others _ x hx (by decide)).2.2.1
    rw [hun, Option.or_none] at hv
    exact hsurv (h.mac v hv)
  split at hv
  · next e => subst e; cases hv; exact ⟨by decide, by decide, isWord_plain (ap_mode hm).2.2, rfl⟩
  split at hv
  · next e => subst e; exact ⟨by decide, by decide, hpos _ _ (by decide) (by decide) v hv⟩
  split at hv
  · next e => subst e; exact ⟨by decide, by decide, hpos _ _ (by decide) (by decide) v hv⟩
  split at hv
  · next e => subst e; exact ⟨by decide, by decide, hpos _ _ (by decide) (by decide) v hv⟩
  split at hv
  · cases hv
  · next h1 h2 h3 h4 h5 h6 h7 h8 h9 =>
    have := h.others k v hv (by simp only [List.mem_cons, List.not_mem_nil, or_false]; tauto)
    exact ⟨this.1, this.2.1, hsurv this.2.2.2⟩

theorem wifi_plain (env : Env) {name m mode : String} {d w b : VDict} {names : List String} (h : WifiOK name m d w) (hm : Dict.get? wifiModes m = some mode)
    (hn : (Dict.keys b).Nodup)
    (hnames : (names = [] ∨ names = [name]) ∨ ∀ n ∈ names, IsWord n.toList ∧ uciName n.toList = n.toList)
    (hb : ∀ k, Dict.get? b k = if k = "network" then some (networkText names) else wifiShown env name mode d w k) :
    PlainBlock b ∧ Dict.get? b ".type" = some (.str "wifi-iface") ∧
      Dict.get? b ".name" = some (if Dict.get? w "id" = none then .str (wifiAutoName name) else (Dict.get? w "id").getD .none) := by
  have hbase : ∀ k, k = ".type" ∨ k = ".name" → Dict.get? b k = wifiBase name mode d w k := by
    have hd : ∀ k ∈ [".type", ".name"], k ∉ roamingProperties ∧ ¬ (k ∈ encryptionKeys ∨ k = "encryption" ∨ k = "ieee80211w" ∨ k = "key1") ∧ k ≠ "network" := by decide
    intro k hk
    obtain ⟨h1, h2, h3⟩ := hd k (by simpa using hk)
    rw [hb, if_neg h3]
    unfold wifiShown
    rw [if_neg (fun x => h1 x.2)]
    split
    · rw [if_neg h2]
    · rfl
  have ht : Dict.get? b ".type" = some (.str "wifi-iface") := by
    rw [hbase _ (.inl rfl)]; unfold wifiBase; rw [if_pos rfl]
  have hnm : Dict.get? b ".name" = some (if Dict.get? w "id" = none then .str (wifiAutoName name) else (Dict.get? w "id").getD .none) := by
    rw [hbase _ (.inr rfl)]; unfold wifiBase; rw [if_neg (by decide), if_pos rfl]
    cases hx : Dict.get? w "id" with
    | none => simp [Val.truthy]
    | some v =>
      obtain ⟨s, rfl, hs, _⟩ := h.id v hx
      have : s ≠ "" := by rintro rfl; exact hs.1 rfl
      simp [Val.truthy, this]
  refine ⟨⟨hn, ⟨_, ht, by decide, by decide, by decide⟩, ?_, ?_⟩, ht, hnm⟩
  · cases hx : Dict.get? w "id" with
    | none => rw [hx] at hnm; exact ⟨_, hnm, wifiAutoName_word h.word⟩
    | some v =>
      obtain ⟨s, rfl, hs, _⟩ := h.id v hx
      rw [hx] at hnm; exact ⟨s, hnm, hs⟩
  · intro k v hv h1 h2
    rw [hb] at hv
    split at hv
    · next e =>
      subst e
      cases hv
      refine ⟨by decide, by decide, ?_⟩
      show PlainText _
      rw [String.toList_ofList]
      apply joinWords_plain
      intro s hs
      obtain ⟨n, hn', rfl⟩ := List.mem_map.1 hs
      apply uciName_word
      rcases hnames with (rfl | rfl) | hw
      · cases hn'
      · simp only [List.mem_singleton] at hn'; rw [hn']; exact h.word
      · exact (hw n hn').1
    · next e =>
      unfold wifiShown at hv
      split at hv
      · cases hv
      · split at hv
        · next enc he =>
          split at hv
          · next hg =>
            have hgw : IsWord k.toList ∧ k.toList.head? ≠ some '.' := by
              have : ∀ k ∈ encryptionKeys ++ ["encryption", "ieee80211w", "key1"], IsWord k.toList ∧ k.toList.head? ≠ some '.' := by decide
              exact this k (by simp only [List.mem_append, List.mem_cons, List.not_mem_nil, or_false]; tauto)
            refine ⟨hgw.1, hgw.2, ?_⟩
            split at hv
            · split at hv
              · cases hv; exact isWord_plain (s := "none".toList) (by decide)
              · cases hv
            · next hoff =>
              obtain ⟨e', r1, _, r2, _⟩ := h.encryption _ he
              cases r1
              rcases r2 with ho | ⟨p, hok, _⟩
              · exact absurd (encOff_iff ho) hoff
              · rw [(ap_mode hm).1] at hok
                rw [hok.protocol] at hv
                exact (hok.item_plain hv).1
          · next hg =>
            have := wifiBase_plain h hm (by simp only [List.mem_cons, List.not_mem_nil, or_false]; tauto) hv
            exact ⟨this.1, this.2.1, this.2.2.1⟩
        · next he =>
          by_cases e2 : k = "encryption"
          · subst e2
            have : Dict.get? w "encryption" = some v := by
              rw [← hv]; simp [wifiBase]
            obtain ⟨enc, rfl, _⟩ := h.encryption v this
            exact absurd this (he enc)
          · have := wifiBase_plain h hm (by simp only [List.mem_cons, List.not_mem_nil, or_false]; tauto) hv
            exact ⟨this.1, this.2.1, this.2.2.1⟩

/-! ## Back -/

theorem wifiOptionBack_spec {u k : String} (huk : k ≠ u) {x : VDict} {q : Option Val} (hq : ∀ v, q = some v → ∃ i : Int, v = .int i)
    (hx : Dict.get? x u = (positive q).bind readVal) (hk : Dict.get? x k = none) :
    ∃ r, wifiOptionBack u k x = .ok r ∧ ∀ y, Dict.get? r y = if y = k then positive q else if y = u then none else Dict.get? x y := by
  unfold wifiOptionBack
  have hnone : positive q = none → ∃ r, (match Dict.get? x u with | none => Except.ok x | some v => do let i ← toInt v; pure (Dict.set (Dict.erase x u) k i)) = .ok r ∧
      ∀ y, Dict.get? r y = if y = k then positive q else if y = u then none else Dict.get? x y := by
    intro hp
    rw [hx, hp]
    refine ⟨x, rfl, fun y => ?_⟩
    by_cases e : y = k
    · rw [if_pos e, e, hk]
    · rw [if_neg e]
      by_cases e' : y = u
      · rw [if_pos e', e', hx, hp]; rfl
      · rw [if_neg e']
  cases q with
  | none => exact hnone rfl
  | some v =>
    obtain ⟨i, rfl⟩ := hq v rfl
    by_cases hi : 0 < i
    · have hp : positive (some (.int i)) = some (.int i) := by simp [positive, hi]
      rw [hx, hp]
      refine ⟨Dict.set (Dict.erase x u) k (.int i), ?_, fun y => ?_⟩
      · simp [readVal, toInt, pyInt, parseInt_showInt, bind, Except.bind, pure, Except.pure]
      · rw [Dict.get?_set', Dict.get?_erase']
    · exact hnone (by simp [positive, hi])

theorem wifiTypecast_spec {x : VDict} (h : ∀ v, Dict.get? x "reassociation_deadline" = some v → ∃ i : Int, v = .str (String.ofList (showInt i))) :
    ∃ r, wifiTypecast x = .ok r ∧ ∀ k, Dict.get? r k = if k ∈ wifiBooleans then (Dict.get? x k).map (fun v => .bool (decide (v = .str "1")))
      else if k = "reassociation_deadline" then (Dict.get? x k).map intOfText else Dict.get? x k := by
  unfold wifiTypecast deadlineBack
  have hg := castBools_get wifiBooleans (by decide) x
  generalize wifiBooleans.foldl castBool x = y at hg
  have hd : Dict.get? y "reassociation_deadline" = Dict.get? x "reassociation_deadline" := by rw [hg, if_neg (by decide)]
  rw [hd]
  cases hx : Dict.get? x "reassociation_deadline" with
  | none =>
    refine ⟨y, rfl, fun k => ?_⟩
    rw [hg]
    by_cases e : k = "reassociation_deadline"
    · subst e; rw [if_neg (by decide), if_neg (by decide), if_pos rfl, hx]; rfl
    · rw [if_neg e]
  | some v =>
    obtain ⟨i, rfl⟩ := h v hx
    refine ⟨Dict.set y "reassociation_deadline" (.int i), ?_, fun k => ?_⟩
    · simp [toInt, pyInt, parseInt_showInt]
    · rw [Dict.get?_set', hg]
      by_cases e : k = "reassociation_deadline"
      · subst e; rw [if_pos rfl, if_neg (by decide), if_pos rfl, hx]; simp [intOfText, parseInt_showInt]
      · rw [if_neg e, if_neg e]

theorem networkBack_spec {name : String} {interface x w : VDict} {names : List String} (hname : IsWord name.toList) (hi : Dict.get? interface "network" = none)
    (hx : Dict.get? x "network" = (some (networkText names)).bind readVal)
    (hn : (Dict.get? w "network" = none ∧ (names = [] ∨ names = [name] ∧ uciName name.toList = name.toList)) ∨
        (Dict.get? w "network" = some (.list (names.map .str)) ∧ names ≠ [] ∧ names ≠ [name] ∧ ∀ n ∈ names, IsWord n.toList ∧ uciName n.toList = n.toList)) :
    ∃ r, networkBack (.str name) interface x = .ok r ∧ ∀ y, Dict.get? r y = if y = "network" then Dict.get? w "network" else Dict.get? x y := by
  have hnn : name ≠ "" := by rintro rfl; exact hname.1 rfl
  unfold networkBack
  rcases hn with ⟨h1, h2⟩ | ⟨h1, h2, h3, h4⟩
  · rw [h1]
    rcases h2 with rfl | ⟨rfl, h2⟩
    · have : Dict.get? x "network" = none := by rw [hx]; rfl
      rw [this]
      exact ⟨x, rfl, fun y => by by_cases e : y = "network" <;> simp [e, this]⟩
    · have : Dict.get? x "network" = some (.str name) := by
        rw [hx, Option.bind_some]; simp [networkText, joinWith, h2, txt, readVal, hnn]
      rw [this]
      dsimp only
      rw [if_pos (.inl rfl)]
      exact ⟨_, rfl, fun y => by rw [Dict.get?_erase']⟩
  · have e0 : names.map (fun n => uciName n.toList) = names.map String.toList := List.map_congr_left (fun n hn => (h4 n hn).2)
    have hwords : ∀ s ∈ names.map String.toList, IsWord s := by
      intro s hs; obtain ⟨n, hn, rfl⟩ := List.mem_map.1 hs; exact (h4 n hn).1
    have hw := words_join _ hwords
    have hne : joinWith [' '] (names.map String.toList) ≠ [] := by
      intro e
      rw [e] at hw
      have : names = [] := by simpa [words, wordsAux] using hw.symm
      exact h2 this
    have hne' : String.ofList (joinWith [' '] (names.map String.toList)) ≠ "" := by
      intro e; apply hne; simpa using congrArg String.toList e
    have : Dict.get? x "network" = some (txt (joinWith [' '] (names.map String.toList))) := by
      rw [hx, Option.bind_some, networkText, e0, txt, readVal, if_neg hne']
    rw [this]
    dsimp only
    have hcond : ¬ (txt (joinWith [' '] (names.map String.toList)) = .str name ∨ txt (joinWith [' '] (names.map String.toList)) = (Dict.get? interface "network").getD .none) := by
      rw [hi]
      rintro (e | e)
      · have e' : joinWith [' '] (names.map String.toList) = name.toList := by
          unfold txt at e; injection e with e; rw [← e]; simp
        rw [e', words_one hname.1 (fun c hc => (hname.2 c hc).1)] at hw
        apply h3
        cases names with
        | nil => exact absurd rfl h2
        | cons n r =>
          simp only [List.map_cons, List.cons.injEq] at hw
          have : r = [] := by simpa using hw.2.symm
          rw [this, String.toList_inj.1 hw.1]
      · cases e
    rw [if_neg hcond, h1]
    refine ⟨Dict.set x "network" (.list (names.map .str)), ?_, fun y => by rw [Dict.get?_set']⟩
    simp only [txt, asText, bind, Except.bind, String.toList_ofList, hw, List.map_map, pure, Except.pure]
    congr 4
    funext n
    simp [txt]

/-- The options of the `wireless` object that come back: the same, except that thresholds that are not positive and, with 802.11r off, the
roaming options are left out. -/
def wifiExpected (w : VDict) (k : String) : Option Val :=
  if k ∈ ["ack_distance", "rts_threshold", "frag_threshold"] then positive (Dict.get? w k)
  else if Dict.get? w "ieee80211r" = some (.bool false) ∧ k ∈ roamingProperties then none
  else Dict.get? w k

/-- What comes back of an encryption object. -/
def encComesBack (enc e : VDict) : Prop :=
  (EncryptionOff enc ∧ e = [("protocol", .str "none")]) ∨
  ∃ p, Dict.get? enc "protocol" = some (.str p) ∧ ∀ k, Dict.get? e k = encExpected p enc k

/-- What comes back of a Wi-Fi interface. -/
def wifiComesBack (r d : VDict) : Prop :=
  (∀ k, k ≠ "wireless" → Dict.get? r k = if k = "type" then some (.str "wireless") else if k ∈ ["name", "mac", "disabled"] then Dict.get? d k else none) ∧
  ∃ w w', Dict.get? d "wireless" = some (.dict w) ∧ Dict.get? r "wireless" = some (.dict w') ∧
    (∀ k, k ≠ "encryption" → Dict.get? w' k = wifiExpected w k) ∧
    match Dict.get? w "encryption" with
    | some (.dict enc) => ∃ e, Dict.get? w' "encryption" = some (.dict e) ∧ encComesBack enc e
    | _ => Dict.get? w' "encryption" = none

/-- options that are neither in the group of the encryption nor special come through unchanged -/
theorem wifiShown_plain {env : Env} {name mode : String} {d w : VDict} {k : String}
    (hk : ¬ (k ∈ encryptionKeys ∨ k = "encryption" ∨ k = "ieee80211w" ∨ k = "key1")) (hr : k ∉ roamingProperties) :
    wifiShown env name mode d w k = wifiBase name mode d w k := by
  unfold wifiShown
  rw [if_neg (fun x => hr x.2)]
  split
  · rw [if_neg hk]
  · rfl

/-- the options the conversion of a Wi-Fi section deals with itself -/
def wifiSpecial : List String :=
  ["mode", "radio", "device", ".type", ".name", "id", "distance", "ack_distance", "rts", "rts_threshold", "frag", "frag_threshold", "ifname", "network",
   "macaddr", "disabled"]

theorem popOr_pair (d : VDict) (k : String) (v : Val) : popOr d k v = ((Dict.get? d k).getD v, Dict.erase d k) := rfl

theorem netjsonWifi_pre (env : Env) {name m mode : String} {d w b x : VDict} {names : List String} (h : WifiOK name m d w) (hm : Dict.get? wifiModes m = some mode)
    (hn : (Dict.get? w "network" = none ∧ (names = [] ∨ names = [name] ∧ uciName name.toList = name.toList)) ∨
        (Dict.get? w "network" = some (.list (names.map .str)) ∧ names ≠ [] ∧ names ≠ [name] ∧ ∀ n ∈ names, IsWord n.toList ∧ uciName n.toList = n.toList))
    (hb : ∀ k, Dict.get? b k = if k = "network" then some (networkText names) else wifiShown env name mode d w k)
    (hx : ∀ k, Dict.get? x k = if k = ".type" ∨ k = ".name" then Dict.get? b k else (Dict.get? b k).bind readVal)
    (ht : Dict.get? b ".type" = some (.str "wifi-iface"))
    (hnm : Dict.get? b ".name" = some (if Dict.get? w "id" = none then .str (wifiAutoName name) else (Dict.get? w "id").getD .none)) :
    ∃ v i', netjsonWifi env x [("name", .str name), ("type", .str "wireless")] =
        (do let w ← wifiTypecast v; let w ← wifiEncryptionBack env w; pure (w, i')) ∧
      (∀ k, Dict.get? i' k = if k = "type" then some (.str "wireless") else if k ∈ ["name", "mac", "disabled"] then Dict.get? d k else none) ∧
      (∀ k, k ∉ wifiSpecial → Dict.get? v k = (wifiShown env name mode d w k).bind readVal) ∧
      (∀ k, k ∈ wifiSpecial → Dict.get? v k = if k ∈ ["ack_distance", "rts_threshold", "frag_threshold"] then positive (Dict.get? w k) else Dict.get? w k) := by
  have hnn : name ≠ "" := by rintro rfl; exact h.word.1 rfl
  have hrd : readVal (.str name) = some (.str name) := by simp [readVal, hnn]
  -- the options that are read
  have xo : ∀ k, k ≠ ".type" → k ≠ ".name" → k ≠ "network" → Dict.get? x k = (wifiShown env name mode d w k).bind readVal := by
    intro k h1 h2 h3
    rw [hx, if_neg (by tauto), hb, if_neg h3]
  have hspecial : ∀ k ∈ ["ifname", "disabled", "device", "macaddr", "mode", "distance", "rts", "frag", "id", "radio", "ack_distance", "rts_threshold", "frag_threshold"],
      ¬ (k ∈ encryptionKeys ∨ k = "encryption" ∨ k = "ieee80211w" ∨ k = "key1") ∧ k ∉ roamingProperties ∧ k ≠ ".type" ∧ k ≠ ".name" ∧ k ≠ "network" := by decide
  have xs : ∀ k ∈ ["ifname", "disabled", "device", "macaddr", "mode", "distance", "rts", "frag", "id", "radio", "ack_distance", "rts_threshold", "frag_threshold"],
      Dict.get? x k = (wifiBase name mode d w k).bind readVal := by
    intro k hk
    obtain ⟨h1, h2, h3, h4, h5⟩ := hspecial k hk
    rw [xo k h3 h4 h5, wifiShown_plain h1 h2]
  have noown : ∀ k ∈ ["device", "ifname", "macaddr", "disabled", "distance", "rts", "frag"], Dict.get? w k = none := by
    intro k hk
    cases hv : Dict.get? w k with
    | none => rfl
    | some v =>
      have hd : ∀ k ∈ ["device", "ifname", "macaddr", "disabled", "distance", "rts", "frag"],
        k ∉ ["mode", "radio", "id", "ack_distance", "rts_threshold", "frag_threshold", "network", "encryption"] := by decide
      exact absurd hk (h.others k v hv (hd k hk)).2.2.1
  have nodot : ∀ k ∈ [".type", ".name"], Dict.get? w k = none := by
    intro k hk
    cases hv : Dict.get? w k with
    | none => rfl
    | some v =>
      have hd : ∀ k ∈ [".type", ".name"], k ∉ ["mode", "radio", "id", "ack_distance", "rts_threshold", "frag_threshold", "network", "encryption"] ∧
        k.toList.head? = some '.' := by decide
      exact absurd (hd k hk).2 (h.others k v hv (hd k hk).1).2.1
  obtain ⟨radio, hradio, hrs⟩ := h.radio
  have x_if : Dict.get? x "ifname" = some (.str name) := by
    rw [xs _ (by simp)]; simp [wifiBase, hrd]
  have x_dis : Dict.get? x "disabled" = (Dict.get? d "disabled").bind readVal := by
    rw [xs _ (by simp)]
    have : wifiBase name mode d w "disabled" = some ((Dict.get? d "disabled").getD .none) := by simp [wifiBase]
    rw [this]
    cases Dict.get? d "disabled" <;> rfl
  have x_dev : Dict.get? x "device" = some radio := by
    rw [xs _ (by simp)]
    have : wifiBase name mode d w "device" = some radio := by simp [wifiBase, hradio]
    rw [this, Option.bind_some, (readVal_of_survives hrs).1]
  have x_mac : Dict.get? x "macaddr" = Dict.get? d "mac" := by
    rw [xs _ (by simp)]
    have : wifiBase name mode d w "macaddr" = Dict.get? d "mac" := by simp [wifiBase, noown "macaddr" (by simp)]
    rw [this]
    cases hv : Dict.get? d "mac" with
    | none => rfl
    | some v => rw [Option.bind_some, (readVal_of_survives (h.mac v hv)).1]
  have x_mode : Dict.get? x "mode" = some (.str mode) := by
    rw [xs _ (by simp)]
    have : wifiBase name mode d w "mode" = some (.str mode) := by simp [wifiBase]
    have hne : mode ≠ "" := by rintro rfl; exact (ap_mode hm).2.2.1 rfl
    rw [this, Option.bind_some, readVal, if_neg hne]
  have x_dist : Dict.get? x "distance" = (positive (Dict.get? w "ack_distance")).bind readVal := by
    rw [xs _ (by simp)]; simp [wifiBase, noown "distance" (by simp)]
  have x_rts : Dict.get? x "rts" = (positive (Dict.get? w "rts_threshold")).bind readVal := by
    rw [xs _ (by simp)]; simp [wifiBase, noown "rts" (by simp)]
  have x_frag : Dict.get? x "frag" = (positive (Dict.get? w "frag_threshold")).bind readVal := by
    rw [xs _ (by simp)]; simp [wifiBase, noown "frag" (by simp)]
  have x_none : ∀ k ∈ ["id", "radio", "ack_distance", "rts_threshold", "frag_threshold"], Dict.get? x k = none := by
    intro k hk
    rw [xs k (by simp only [List.mem_cons, List.not_mem_nil, or_false] at hk ⊢; tauto)]
    have : wifiBase name mode d w k = none := by
      simp only [List.mem_cons, List.not_mem_nil, or_false] at hk
      rcases hk with rfl | rfl | rfl | rfl | rfl <;> simp [wifiBase]
    rw [this]; rfl
  have x_net : Dict.get? x "network" = (some (networkText names)).bind readVal := by
    rw [hx, if_neg (by decide), hb, if_pos rfl]
  have x_name : Dict.get? x ".name" = some (if Dict.get? w "id" = none then .str (wifiAutoName name) else (Dict.get? w "id").getD .none) := by
    rw [hx, if_pos (.inr rfl), hnm]
  have x_type : Dict.get? x ".type" = some (.str "wifi-iface") := by rw [hx, if_pos (.inl rfl), ht]
  unfold netjsonWifi
  rw [popKey_iff.2 ⟨x_name, rfl⟩]
  simp only [bind, Except.bind]
  rw [getKey_iff.2 (by rfl : Dict.get? ([("name", Val.str name), ("type", Val.str "wireless")] : VDict) "name" = some (.str name))]
  simp only [protocolText]
  generalize ev1 : (if (if Dict.get? w "id" = none then Val.str (wifiAutoName name) else (Dict.get? w "id").getD .none) = .str (wifiAutoName name)
    then Dict.erase x ".name" else Dict.set (Dict.erase x ".name") "id" (if Dict.get? w "id" = none then Val.str (wifiAutoName name) else (Dict.get? w "id").getD .none)) = v1
  have g1 : ∀ k, Dict.get? v1 k = if k = "id" then Dict.get? w "id" else if k = ".name" then none else Dict.get? x k := by
    intro k
    rw [← ev1]
    cases hid : Dict.get? w "id" with
    | none =>
      rw [if_pos rfl, if_pos rfl, Dict.get?_erase']
      by_cases e : k = "id"
      · subst e; rw [if_neg (by decide), if_pos rfl, x_none _ (by simp)]
      · rw [if_neg e]
    | some v =>
      obtain ⟨s, rfl, _, hs⟩ := h.id v hid
      have e0 : (if some (Val.str s) = none then Val.str (wifiAutoName name) else (some (Val.str s)).getD .none) = .str s := by simp
      rw [e0, if_neg (fun e => hs (Val.str.inj e)), Dict.get?_set', Dict.get?_erase']
  rw [popKey_iff.2 ⟨(by rw [g1, if_neg (by decide), if_neg (by decide), x_type] : Dict.get? v1 ".type" = some (.str "wifi-iface")), rfl⟩]
  dsimp only
  generalize ev2 : Dict.erase v1 ".type" = v2
  have g2 : ∀ k, Dict.get? v2 k = if k = ".type" then none else Dict.get? v1 k := by intro k; rw [← ev2, Dict.get?_erase']
  rw [popKey_iff.2 ⟨(by rw [g2, if_neg (by decide), g1, if_neg (by decide), if_neg (by decide), x_dev] : Dict.get? v2 "device" = some radio), rfl⟩]
  dsimp only
  generalize ev3 : Dict.set (Dict.erase v2 "device") "radio" radio = v3
  have g3 : ∀ k, Dict.get? v3 k = if k = "radio" then some radio else if k = "device" then none else Dict.get? v2 k := by
    intro k; rw [← ev3, Dict.get?_set', Dict.get?_erase']
  rw [getKey_iff.2 (by rw [g3, if_neg (by decide), if_neg (by decide), g2, if_neg (by decide), g1, if_neg (by decide), if_neg (by decide), x_mode] :
    Dict.get? v3 "mode" = some (.str mode))]
  dsimp only
  rw [lookupText_ok.2 ⟨mode, rfl, (ap_mode hm).2.1⟩]
  dsimp only
  generalize ev4 : Dict.set v3 "mode" (Val.str m) = v4
  have g4 : ∀ k, Dict.get? v4 k = if k = "mode" then some (.str m) else Dict.get? v3 k := by intro k; rw [← ev4, Dict.get?_set']
  have g4x : ∀ k, k ∉ ["mode", "radio", "device", ".type", ".name", "id"] → Dict.get? v4 k = Dict.get? x k := by
    intro k hk
    simp only [List.mem_cons, List.not_mem_nil, or_false, not_or] at hk
    rw [g4, if_neg hk.1, g3, if_neg hk.2.1, if_neg hk.2.2.1, g2, if_neg hk.2.2.2.1, g1, if_neg hk.2.2.2.2.2, if_neg hk.2.2.2.2.1]
  obtain ⟨v5, h5, g5⟩ := wifiOptionBack_spec (u := "distance") (k := "ack_distance") (by decide) (x := v4) (q := Dict.get? w "ack_distance")
    (h.numbers _ (by simp)) (by rw [g4x _ (by decide), x_dist]) (by rw [g4x _ (by decide), x_none _ (by simp)])
  rw [h5]
  dsimp only
  obtain ⟨v6, h6, g6⟩ := wifiOptionBack_spec (u := "rts") (k := "rts_threshold") (by decide) (x := v5) (q := Dict.get? w "rts_threshold")
    (h.numbers _ (by simp)) (by rw [g5, if_neg (by decide), if_neg (by decide), g4x _ (by decide), x_rts])
    (by rw [g5, if_neg (by decide), if_neg (by decide), g4x _ (by decide), x_none _ (by simp)])
  rw [h6]
  dsimp only
  obtain ⟨v7, h7, g7⟩ := wifiOptionBack_spec (u := "frag") (k := "frag_threshold") (by decide) (x := v6) (q := Dict.get? w "frag_threshold")
    (h.numbers _ (by simp)) (by rw [g6, if_neg (by decide), if_neg (by decide), g5, if_neg (by decide), if_neg (by decide), g4x _ (by decide), x_frag])
    (by rw [g6, if_neg (by decide), if_neg (by decide), g5, if_neg (by decide), if_neg (by decide), g4x _ (by decide), x_none _ (by simp)])
  rw [h7]
  dsimp only
  have g7x : ∀ k, k ∉ ["mode", "radio", "device", ".type", ".name", "id", "distance", "ack_distance", "rts", "rts_threshold", "frag", "frag_threshold"] →
      Dict.get? v7 k = Dict.get? x k := by
    intro k hk
    simp only [List.mem_cons, List.not_mem_nil, or_false, not_or] at hk
    rw [g7, if_neg hk.2.2.2.2.2.2.2.2.2.2.2, if_neg hk.2.2.2.2.2.2.2.2.2.2.1, g6, if_neg hk.2.2.2.2.2.2.2.2.2.1, if_neg hk.2.2.2.2.2.2.2.2.1,
      g5, if_neg hk.2.2.2.2.2.2.2.1, if_neg hk.2.2.2.2.2.2.1, g4x k (by simp only [List.mem_cons, List.not_mem_nil, or_false]; tauto)]
  rw [popOr_pair, g7x _ (by decide), x_if]
  dsimp only [Option.getD_some]
  generalize ev8 : Dict.erase v7 "ifname" = v8
  have g8 : ∀ k, Dict.get? v8 k = if k = "ifname" then none else Dict.get? v7 k := by intro k; rw [← ev8, Dict.get?_erase']
  obtain ⟨v9, h9, g9⟩ := networkBack_spec (interface := [("name", .str name), ("type", .str "wireless")]) (x := v8) h.word (by rfl)
    (by rw [g8, if_neg (by decide), g7x _ (by decide), x_net]) hn
  rw [h9]
  dsimp only
  have g9x : ∀ k, k ∉ ["mode", "radio", "device", ".type", ".name", "id", "distance", "ack_distance", "rts", "rts_threshold", "frag", "frag_threshold", "ifname", "network"] →
      Dict.get? v9 k = Dict.get? x k := by
    intro k hk
    have hsub : ∀ k ∈ ["mode", "radio", "device", ".type", ".name", "id", "distance", "ack_distance", "rts", "rts_threshold", "frag", "frag_threshold"],
      k ∈ ["mode", "radio", "device", ".type", ".name", "id", "distance", "ack_distance", "rts", "rts_threshold", "frag", "frag_threshold", "ifname", "network"] := by decide
    rw [g9, if_neg (by rintro rfl; exact hk (by decide)), g8, if_neg (by rintro rfl; exact hk (by decide)), g7x k (fun hm => hk (hsub k hm))]
  generalize ei1 : macBack [("name", Val.str name), ("type", Val.str "wireless")] v9 = i1
  have gi1 : ∀ k, Dict.get? i1 k = if k = "mac" then Dict.get? d "mac" else if k = "name" then some (.str name) else if k = "type" then some (.str "wireless") else none := by
    intro k
    rw [← ei1, macBack, copyIf_get, g9x _ (by decide), x_mac]
    simp only [Dict.get?_cons, Dict.get?_nil]
    by_cases e1 : k = "mac"
    · subst e1; simp
    · rw [if_neg e1, if_neg e1]
      by_cases e2 : k = "name"
      · subst e2; simp
      · rw [if_neg e2, if_neg (Ne.symm e2)]
        by_cases e3 : k = "type"
        · subst e3; simp
        · rw [if_neg e3, if_neg (Ne.symm e3)]
  generalize ev10 : Dict.erase v9 "macaddr" = v10
  have g10 : ∀ k, Dict.get? v10 k = if k = "macaddr" then none else Dict.get? v9 k := by intro k; rw [← ev10, Dict.get?_erase']
  generalize ei2 : wifiDisabledBack i1 v10 = i2
  have gi2 : ∀ k, Dict.get? i2 k = if k = "type" then some (.str "wireless") else if k ∈ ["name", "mac", "disabled"] then Dict.get? d k else none := by
    intro k
    rw [← ei2, wifiDisabledBack, g10, if_neg (by decide), g9x _ (by decide), x_dis]
    have key : ∀ i3 : VDict, (∀ k, Dict.get? i3 k = if k = "disabled" then Dict.get? d "disabled" else Dict.get? i1 k) →
        Dict.get? i3 k = if k = "type" then some (.str "wireless") else if k ∈ ["name", "mac", "disabled"] then Dict.get? d k else none := by
      intro i3 hi3
      rw [hi3, gi1]
      by_cases e1 : k = "disabled"
      · subst e1; simp
      · rw [if_neg e1]
        by_cases e2 : k = "mac"
        · subst e2; simp
        · rw [if_neg e2]
          by_cases e3 : k = "name"
          · subst e3; simp [h.hname]
          · rw [if_neg e3]
            by_cases e4 : k = "type"
            · rw [if_pos e4, if_pos e4]
            · rw [if_neg e4, if_neg e4]; simp [e1, e2, e3]
    cases hv : Dict.get? d "disabled" with
    | none =>
      refine key i1 (fun k => ?_)
      by_cases e : k = "disabled"
      · subst e; rw [if_pos rfl, hv, gi1]; simp
      · rw [if_neg e]
    | some v =>
      obtain ⟨bb, rfl⟩ := h.disabled v hv
      refine key _ (fun k => ?_)
      rw [hv]
      dsimp only [Option.bind_some, readVal]
      rw [Dict.get?_set']
      cases bb <;> simp
  generalize ev11 : Dict.erase v10 "disabled" = v11
  have g11 : ∀ k, Dict.get? v11 k = if k = "disabled" then none else Dict.get? v10 k := by intro k; rw [← ev11, Dict.get?_erase']
  have g11x : ∀ k, k ∉ ["mode", "radio", "device", ".type", ".name", "id", "distance", "ack_distance", "rts", "rts_threshold", "frag", "frag_threshold", "ifname", "network",
      "macaddr", "disabled"] → Dict.get? v11 k = Dict.get? x k := by
    intro k hk
    have hsub : ∀ k ∈ ["mode", "radio", "device", ".type", ".name", "id", "distance", "ack_distance", "rts", "rts_threshold", "frag", "frag_threshold", "ifname", "network"],
      k ∈ ["mode", "radio", "device", ".type", ".name", "id", "distance", "ack_distance", "rts", "rts_threshold", "frag", "frag_threshold", "ifname", "network",
      "macaddr", "disabled"] := by decide
    rw [g11, if_neg (by rintro rfl; exact hk (by decide)), g10, if_neg (by rintro rfl; exact hk (by decide)), g9x k (fun hm => hk (hsub k hm))]
  refine ⟨v11, i2, rfl, gi2, fun k hk => ?_, fun k hk => ?_⟩
  · rw [g11x k hk]
    have hdot : k ≠ ".type" ∧ k ≠ ".name" ∧ k ≠ "network" := ⟨by rintro rfl; exact hk (by decide), by rintro rfl; exact hk (by decide), by rintro rfl; exact hk (by decide)⟩
    exact xo k hdot.1 hdot.2.1 hdot.2.2
  · have e11 : ∀ k, k ≠ "disabled" → k ≠ "macaddr" → Dict.get? v11 k = Dict.get? v9 k := by
      intro k h1 h2
      rw [g11, if_neg h1, g10, if_neg h2]
    simp only [wifiSpecial, List.mem_cons, List.not_mem_nil, or_false] at hk
    rcases hk with rfl | rfl | rfl | rfl | rfl | rfl | rfl | rfl | rfl | rfl | rfl | rfl | rfl | rfl | rfl | rfl
    · rw [e11 _ (by decide) (by decide), g9, if_neg (by decide), g8, if_neg (by decide), g7, if_neg (by decide), if_neg (by decide), g6, if_neg (by decide), if_neg (by decide),
        g5, if_neg (by decide), if_neg (by decide), g4, if_pos rfl, h.mode]
      rfl
    · rw [e11 _ (by decide) (by decide), g9, if_neg (by decide), g8, if_neg (by decide), g7, if_neg (by decide), if_neg (by decide), g6, if_neg (by decide), if_neg (by decide),
        g5, if_neg (by decide), if_neg (by decide), g4, if_neg (by decide), g3, if_pos rfl, hradio]
      rfl
    · rw [e11 _ (by decide) (by decide), g9, if_neg (by decide), g8, if_neg (by decide), g7, if_neg (by decide), if_neg (by decide), g6, if_neg (by decide), if_neg (by decide),
        g5, if_neg (by decide), if_neg (by decide), g4, if_neg (by decide), g3, if_neg (by decide), if_pos rfl, noown _ (by decide)]
      rfl
    · rw [e11 _ (by decide) (by decide), g9, if_neg (by decide), g8, if_neg (by decide), g7, if_neg (by decide), if_neg (by decide), g6, if_neg (by decide), if_neg (by decide),
        g5, if_neg (by decide), if_neg (by decide), g4, if_neg (by decide), g3, if_neg (by decide), if_neg (by decide), g2, if_pos rfl, nodot _ (by decide)]
      rfl
    · rw [e11 _ (by decide) (by decide), g9, if_neg (by decide), g8, if_neg (by decide), g7, if_neg (by decide), if_neg (by decide), g6, if_neg (by decide), if_neg (by decide),
        g5, if_neg (by decide), if_neg (by decide), g4, if_neg (by decide), g3, if_neg (by decide), if_neg (by decide), g2, if_neg (by decide), g1, if_neg (by decide), if_pos rfl,
        nodot _ (by decide)]
      rfl
    · rw [e11 _ (by decide) (by decide), g9, if_neg (by decide), g8, if_neg (by decide), g7, if_neg (by decide), if_neg (by decide), g6, if_neg (by decide), if_neg (by decide),
        g5, if_neg (by decide), if_neg (by decide), g4, if_neg (by decide), g3, if_neg (by decide), if_neg (by decide), g2, if_neg (by decide), g1, if_pos rfl]
      rfl
    · rw [e11 _ (by decide) (by decide), g9, if_neg (by decide), g8, if_neg (by decide), g7, if_neg (by decide), if_neg (by decide), g6, if_neg (by decide), if_neg (by decide),
        g5, if_neg (by decide), if_pos rfl, noown _ (by decide)]
      rfl
    · rw [e11 _ (by decide) (by decide), g9, if_neg (by decide), g8, if_neg (by decide), g7, if_neg (by decide), if_neg (by decide), g6, if_neg (by decide), if_neg (by decide),
        g5, if_pos rfl]
      rfl
    · rw [e11 _ (by decide) (by decide), g9, if_neg (by decide), g8, if_neg (by decide), g7, if_neg (by decide), if_neg (by decide), g6, if_neg (by decide), if_pos rfl, noown _ (by decide)]
      rfl
    · rw [e11 _ (by decide) (by decide), g9, if_neg (by decide), g8, if_neg (by decide), g7, if_neg (by decide), if_neg (by decide), g6, if_pos rfl]
      rfl
    · rw [e11 _ (by decide) (by decide), g9, if_neg (by decide), g8, if_neg (by decide), g7, if_neg (by decide), if_pos rfl, noown _ (by decide)]
      rfl
    · rw [e11 _ (by decide) (by decide), g9, if_neg (by decide), g8, if_neg (by decide), g7, if_pos rfl]
      rfl
    · rw [e11 _ (by decide) (by decide), g9, if_neg (by decide), g8, if_pos rfl, noown _ (by decide)]
      rfl
    · rw [e11 _ (by decide) (by decide), g9, if_pos rfl]
      rfl
    · rw [g11, if_neg (by decide), g10, if_pos rfl, noown _ (by decide)]
      rfl
    · rw [g11, if_pos rfl, noown _ (by decide)]
      rfl

theorem wifiShown_other {env : Env} {name mode : String} {d w : VDict} {k : String} (hs : k ∉ wifiSpecial)
    (hg : (∃ enc, Dict.get? w "encryption" = some (.dict enc)) → ¬ (k ∈ encryptionKeys ∨ k = "encryption" ∨ k = "ieee80211w" ∨ k = "key1")) :
    wifiShown env name mode d w k = if Dict.get? w "ieee80211r" = some (.bool false) ∧ k ∈ roamingProperties then none else Dict.get? w k := by
  have hb : wifiBase name mode d w k = Dict.get? w k := by
    simp only [wifiSpecial, List.mem_cons, List.not_mem_nil, or_false, not_or] at hs
    unfold wifiBase
    simp only [hs, if_false, or_self]
  unfold wifiShown
  by_cases hc : Dict.get? w "ieee80211r" = some (.bool false) ∧ k ∈ roamingProperties
  · rw [if_pos hc, if_pos hc]
  · rw [if_neg hc, if_neg hc]
    split
    · next enc he => rw [if_neg (hg ⟨enc, he⟩), hb]
    · exact hb

/-- casting what was read of a value that survives gives the value -/
theorem wifiCast {k : String} {v : Val} (h : Survives (wifiType k) v) :
    (if k ∈ wifiBooleans then (readVal v).map (fun v => .bool (decide (v = .str "1"))) else if k = "reassociation_deadline" then (readVal v).map intOfText else readVal v) =
      some v := by
  unfold wifiType at h
  by_cases h1 : k ∈ wifiBooleans
  · rw [if_pos h1] at h ⊢
    cases v with
    | bool b => cases b <;> simp [readVal]
    | int i => simp [Survives] at h
    | str s => exact absurd rfl h.2.2.2
    | list l => exact absurd rfl h.2.2.2
    | none => exact absurd h (by simp [Survives])
    | dict d => exact absurd h (by simp [Survives])
  · rw [if_neg h1] at h ⊢
    by_cases h2 : k = "reassociation_deadline"
    · rw [if_pos h2] at h ⊢
      cases v with
      | int i => simp [readVal, intOfText, parseInt_showInt]
      | bool b => simp [Survives] at h
      | str s => exact absurd rfl h.2.2.1
      | list l => exact absurd rfl h.2.2.1
      | none => exact absurd h (by simp [Survives])
      | dict d => exact absurd h (by simp [Survives])
    · rw [if_neg h2] at h ⊢
      exact (readVal_of_survives h).1

theorem netjsonWifi_back (env : Env) {name m mode : String} {d w b x : VDict} {names : List String} (h : WifiOK name m d w) (hm : Dict.get? wifiModes m = some mode)
    (hn : (Dict.get? w "network" = none ∧ (names = [] ∨ names = [name] ∧ uciName name.toList = name.toList)) ∨
        (Dict.get? w "network" = some (.list (names.map .str)) ∧ names ≠ [] ∧ names ≠ [name] ∧ ∀ n ∈ names, IsWord n.toList ∧ uciName n.toList = n.toList))
    (hb : ∀ k, Dict.get? b k = if k = "network" then some (networkText names) else wifiShown env name mode d w k)
    (hx : ∀ k, Dict.get? x k = if k = ".type" ∨ k = ".name" then Dict.get? b k else (Dict.get? b k).bind readVal)
    (ht : Dict.get? b ".type" = some (.str "wifi-iface"))
    (hnm : Dict.get? b ".name" = some (if Dict.get? w "id" = none then .str (wifiAutoName name) else (Dict.get? w "id").getD .none)) :
    ∃ w' i', netjsonWifi env x [("name", .str name), ("type", .str "wireless")] = .ok (w', i') ∧
      (∀ k, Dict.get? i' k = if k = "type" then some (.str "wireless") else if k ∈ ["name", "mac", "disabled"] then Dict.get? d k else none) ∧
      (∀ k, k ≠ "encryption" → Dict.get? w' k = wifiExpected w k) ∧
      match Dict.get? w "encryption" with
      | some (.dict enc) => ∃ e, Dict.get? w' "encryption" = some (.dict e) ∧ encComesBack enc e
      | _ => Dict.get? w' "encryption" = none := by
  obtain ⟨v, i', hrun, gi, gv, gs⟩ := netjsonWifi_pre env h hm hn hb hx ht hnm
  rw [hrun]
  clear hrun hn hb hx ht hnm
  have hcasts : ∀ k ∈ wifiBooleans ++ ["reassociation_deadline"], k ∉ wifiSpecial ∧ k ≠ "mode" ∧
      k ∉ ["mode", "radio", "id", "ack_distance", "rts_threshold", "frag_threshold", "network", "encryption"] ∧
      ¬ (k ∈ encryptionKeys ∨ k = "encryption" ∨ k = "ieee80211w" ∨ k = "key1") := by decide
  have hgrp : ∀ k ∈ encryptionKeys ++ ["encryption", "ieee80211w", "key1"], k ∉ wifiSpecial ∧ k ∉ wifiBooleans ∧ k ≠ "reassociation_deadline" ∧
      (k ∈ roamingProperties → k = "nasid") ∧ (k ≠ "encryption" → k ∉ ["ack_distance", "rts_threshold", "frag_threshold"]) := by decide
  have hgrp' : ∀ k, (k ∈ encryptionKeys ∨ k = "encryption" ∨ k = "ieee80211w" ∨ k = "key1") → k ∈ encryptionKeys ++ ["encryption", "ieee80211w", "key1"] := by
    intro k hk; simp only [List.mem_append, List.mem_cons, List.not_mem_nil, or_false]; exact hk
  have hnorm : ∀ k, k ∉ wifiSpecial → k ∉ ["ack_distance", "rts_threshold", "frag_threshold"] ∧
      (k ≠ "encryption" → k ∉ ["mode", "radio", "id", "ack_distance", "rts_threshold", "frag_threshold", "network", "encryption"]) := by
    have h1 : ∀ k ∈ ["ack_distance", "rts_threshold", "frag_threshold"], k ∈ wifiSpecial := by decide
    have h2 : ∀ k ∈ ["mode", "radio", "id", "ack_distance", "rts_threshold", "frag_threshold", "network", "encryption"], k ≠ "encryption" → k ∈ wifiSpecial := by decide
    intro k hk
    exact ⟨fun hm => hk (h1 k hm), fun hne hm => hk (h2 k hm hne)⟩
  have hsproam : ∀ k ∈ wifiSpecial, k ∉ roamingProperties ∧ k ∉ wifiBooleans ∧ k ≠ "reassociation_deadline" := by decide
  -- types
  obtain ⟨t, htc, gt⟩ := wifiTypecast_spec (x := v) (by
    intro u hu
    rw [gv _ (by decide), wifiShown_other (by decide) (fun _ => by decide)] at hu
    split at hu
    · cases hu
    · cases hv : Dict.get? w "reassociation_deadline" with
      | none => rw [hv] at hu; cases hu
      | some y =>
        have hs := (h.others _ y hv (by decide)).2.2.2
        have e : wifiType "reassociation_deadline" = some .integer := by rfl
        rw [e] at hs
        rw [hv] at hu
        cases y with
        | int i => simp only [Option.bind_some, readVal, Option.some.injEq] at hu; exact ⟨i, hu.symm⟩
        | bool b => simp [Survives] at hs
        | str s => exact absurd rfl hs.2.2.1
        | list l => exact absurd rfl hs.2.2.1
        | none => exact absurd hs (by simp [Survives])
        | dict d => exact absurd hs (by simp [Survives]))
  rw [htc]
  simp only [bind, Except.bind]
  -- the options that have nothing to do with encryption
  have tplain : ∀ k, k ≠ "encryption" → ((∃ enc, Dict.get? w "encryption" = some (.dict enc)) → ¬ (k ∈ encryptionKeys ∨ k = "encryption" ∨ k = "ieee80211w" ∨ k = "key1")) →
      Dict.get? t k = wifiExpected w k := by
    intro k hke hk
    rw [gt]
    unfold wifiExpected
    by_cases hsp : k ∈ wifiSpecial
    · obtain ⟨r1, r2, r3⟩ := hsproam k hsp
      rw [if_neg r2, if_neg r3, gs k hsp]
      split
      · rfl
      · rw [if_neg (fun x => r1 x.2)]
    · rw [gv k hsp, wifiShown_other hsp hk, if_neg (hnorm k hsp).1]
      by_cases hc : Dict.get? w "ieee80211r" = some (.bool false) ∧ k ∈ roamingProperties
      · rw [if_pos hc]; simp
      · rw [if_neg hc]
        cases hv : Dict.get? w k with
        | none => simp
        | some y => exact wifiCast (h.others k y hv ((hnorm k hsp).2 hke)).2.2.2
  -- those made from the encryption object
  have tgrp : ∀ k, (k ∈ encryptionKeys ∨ k = "encryption" ∨ k = "ieee80211w" ∨ k = "key1") → Dict.get? t k = (wifiShown env name mode d w k).bind readVal := by
    intro k hk
    obtain ⟨r1, r2, r3, _⟩ := hgrp k (hgrp' k hk)
    rw [gt, if_neg r2, if_neg r3, gv k r1]
  have expgrp : ∀ k, (k ∈ encryptionKeys ∨ k = "ieee80211w" ∨ k = "key1") → k ≠ "encryption" → Dict.get? w k = none → wifiExpected w k = none := by
    intro k hk hne hw
    unfold wifiExpected
    rw [if_neg ((hgrp k (hgrp' k (hk.imp_right .inr))).2.2.2.2 hne), hw]
    simp
  have hnenc : ∀ k, (k ∈ encryptionKeys ∨ k = "ieee80211w" ∨ k = "key1") → k ≠ "encryption" := by
    have : ∀ k ∈ encryptionKeys ++ ["ieee80211w", "key1"], k ≠ "encryption" := by decide
    intro k hk
    exact this k (by simp only [List.mem_append, List.mem_cons, List.not_mem_nil, or_false]; exact hk)
  cases henc : Dict.get? w "encryption" with
  | none =>
    have htn : Dict.get? t "encryption" = none := by
      rw [tgrp _ (.inr (.inl rfl))]
      rw [wifiShown_other (by decide) (by rintro ⟨e, he⟩; rw [henc] at he; cases he), henc]
      simp
    have : wifiEncryptionBack env t = .ok t := by
      unfold wifiEncryptionBack
      rw [if_neg]
      rw [get?_has]
      rintro ⟨y, hy⟩
      rw [htn] at hy; cases hy
    rw [this]
    refine ⟨t, i', rfl, gi, fun k hk => tplain k hk (by rintro ⟨e, he⟩; rw [henc] at he; cases he), htn⟩
  | some ev =>
    obtain ⟨enc, rfl, _, hoff, hnone⟩ := h.encryption ev henc
    dsimp only
    rcases hoff with ho | ⟨p, hok, hnas⟩
    · -- off
      have tg : ∀ k, (k ∈ encryptionKeys ∨ k = "encryption" ∨ k = "ieee80211w" ∨ k = "key1") → Dict.get? t k = if k = "encryption" then some (.str "none") else none := by
        intro k hk
        rw [tgrp k hk]
        unfold wifiShown
        rw [henc]
        dsimp only
        rw [if_pos hk, if_pos (encOff_iff ho)]
        by_cases e : k = "encryption"
        · subst e; rw [if_neg (fun x => absurd x.2 (by decide)), if_pos rfl]; rfl
        · rw [if_neg e]; simp
      obtain ⟨m1, m2, m3⟩ := moveKeys_get encryptionKeys [] t false
      have hfalse : ∀ k ∈ encryptionKeys, truthyAt t k = false := by
        intro k hk
        unfold truthyAt
        rw [tg k (.inl hk), if_neg (hnenc k (.inl hk))]
        rfl
      have m2' : ∀ k, Dict.get? (encryptionKeys.foldl moveKey ([], t, false)).2.1 k = Dict.get? t k := by
        intro k
        rw [m2]
        by_cases e : k ∈ encryptionKeys ∧ truthyAt t k = true
        · rw [hfalse k e.1] at e; cases e.2
        · rw [if_neg e]
      unfold wifiEncryptionBack
      rw [if_pos (get?_has.2 ⟨_, tg _ (.inr (.inl rfl))⟩)]
      generalize encryptionKeys.foldl moveKey ([], t, false) = r at m2'
      obtain ⟨s0, w0, f⟩ := r
      dsimp only at m2'
      dsimp only
      rw [popKey_iff.2 ⟨(by rw [m2', tg _ (.inr (.inl rfl)), if_pos rfl] : Dict.get? w0 "encryption" = some (.str "none")), rfl⟩]
      simp only [bind, Except.bind, if_true]
      refine ⟨_, i', rfl, gi, fun k hk => ?_, _, ?_, .inl ⟨ho, rfl⟩⟩
      · rw [Dict.get?_set', if_neg hk, Dict.get?_erase', if_neg hk, m2']
        by_cases hg : k ∈ encryptionKeys ∨ k = "ieee80211w" ∨ k = "key1"
        · rw [tg k (hg.imp_right .inr), if_neg hk, expgrp k hg hk (hnone k hg)]
        · exact tplain k hk (fun _ x => x.elim (fun a => hg (.inl a)) (fun y => y.elim hk (fun z => hg (.inr z))))
      · rw [Dict.get?_set', if_pos rfl]
    · rw [(ap_mode hm).1] at hok
      have hitem : ∀ k, (k ∈ encryptionKeys ∨ k = "encryption" ∨ k = "ieee80211w" ∨ k = "key1") → Dict.get? t k = (encItem env mode p enc k).bind readVal := by
        intro k hk
        rw [tgrp k hk]
        unfold wifiShown
        rw [henc]
        dsimp only
        rw [if_pos hk, if_neg (fun x => hok.not_off (encOff_true.1 x)), hok.protocol]
        dsimp only
        by_cases hc : Dict.get? w "ieee80211r" = some (.bool false) ∧ k ∈ roamingProperties
        · rw [if_pos hc, (hgrp k (hgrp' k hk)).2.2.2.1 hc.2, encItem_plain (by decide), hnas hc.1]
        · rw [if_neg hc]
      obtain ⟨w', e, hw', ge, gw⟩ := encBack_spec hok hitem
      rw [hw']
      refine ⟨w', i', rfl, gi, fun k hk => ?_, e, ?_, .inr ⟨p, hok.protocol, ge⟩⟩
      · rw [gw, if_neg hk]
        by_cases hg : k ∈ encryptionKeys ∨ k = "ieee80211w" ∨ k = "key1"
        · rw [if_pos hg, expgrp k hg hk (hnone k hg)]
        · rw [if_neg hg]
          exact tplain k hk (fun _ x => x.elim (fun a => hg (.inl a)) (fun y => y.elim hk (fun z => hg (.inr z))))
      · rw [gw, if_pos rfl]

/-- the interfaces that have a `wireless` object -/
def isWifi (d : VDict) : Bool := Dict.has d "wireless"

theorem wifi_items (env : Env) (l : List VDict)
    (h : ∀ d ∈ l, isWifi d = true → ∃ name m w, Dict.get? d "wireless" = some (.dict w) ∧ WifiOK name m d w) :
    ∃ (bs rs : List VDict), (∀ (i : Nat) (r : VDict) (done : List VDict), (r = [] ∧ done = [] ∨ r = [("wireless", .list (done.map .dict))] ∧ done ≠ []) →
        fwdList (wirelessFwd env []) i r (l.map .dict) = .ok (if bs = [] then r else [("wireless", .list ((done ++ bs).map .dict))])) ∧
      (∀ b ∈ bs, PlainBlock b ∧ skipBlock (some ["wifi-iface"]) (blockBack env.reprC b) = false) ∧
      (∀ (i : Nat) (r : VDict) (done : List VDict), (r = [] ∧ done = [] ∨ r = [("interfaces", .list (done.map .dict))] ∧ done ≠ []) →
        backFold (some ["wifi-iface"]) (wirelessBack env) i (bs.map (blockBack env.reprC)) ([], r) =
          .ok ([], if rs = [] then r else [("interfaces", .list ((done ++ rs).map .dict))])) ∧
      bs.length = rs.length ∧ List.Forall₂ wifiComesBack rs (l.filter isWifi) := by
  induction l with
  | nil =>
    refine ⟨[], [], fun i r done hr => by simp [fwdList], by simp, fun i r done hr => by simp [backFold], rfl, .nil⟩
  | cons d ds ih =>
    obtain ⟨bs, rs, i1, i2, i3, i4, i5⟩ := ih (fun x hx => h x (by simp [hx]))
    cases hw : isWifi d with
    | false =>
      have hn : Dict.get? d "wireless" = none := by
        cases hg : Dict.get? d "wireless" with
        | none => rfl
        | some v => simp [isWifi, Dict.has, hg] at hw
      refine ⟨bs, rs, fun i r done hr => ?_, i2, i3, i4, by simpa [hw] using i5⟩
      rw [List.map_cons, fwdList]
      have : wirelessFwd env [] (some i) (.dict d) r = .ok r := by
        simp [wirelessFwd, asDict, hn, bind, Except.bind, pure, Except.pure]
      rw [this]
      exact i1 (i + 1) r done hr
    | true =>
      obtain ⟨name, m, w, hg, hok⟩ := h d (by simp) hw
      obtain ⟨b, mode, names, hb, hm, hnd, hnames, hget⟩ := wifi_section env hok
      obtain ⟨hpl, ht, hnm⟩ := wifi_plain env hok hm hnd (by
        rcases hnames with ⟨_, x | x⟩ | x
        · exact .inl (.inl x)
        · exact .inl (.inr x.1)
        · exact .inr x.2.2.2) hget
      have hx := get?_blockBack env.reprC hpl
      obtain ⟨w', i', hrun, gi, gw, ge⟩ := netjsonWifi_back env hok hm hnames hget hx ht hnm
      have hif : wifiIfname (blockBack env.reprC b) = .ok (.str name) := by
        have hne : name ≠ "" := by rintro rfl; exact hok.word.1 rfl
        have e1 : Dict.get? (blockBack env.reprC b) "ifname" = some (.str name) := by
          rw [hx, if_neg (by decide), hget, if_neg (by decide), wifiShown_plain (by decide) (by decide)]
          have : wifiBase name mode d w "ifname" = some (.str name) := by simp [wifiBase]
          rw [this, Option.bind_some, readVal, if_neg hne]
        obtain ⟨n, hn1, _⟩ := hpl.name
        have e2 : Dict.get? (blockBack env.reprC b) ".name" = some (.str n) := by rw [hx, if_pos (.inr rfl), hn1]
        unfold wifiIfname
        rw [getKey_iff.2 e2, e1]
        rfl
      have hback : ∀ (i : Nat) (r : VDict), wirelessBack env i (blockBack env.reprC b) ([], r) =
          .ok ([], appendTo r "interfaces" [.dict (Dict.set i' "wireless" (.dict w'))]) := by
        intro i r
        unfold wirelessBack
        rw [hif]
        simp only [bind, Except.bind, interfacesOf, Dict.get?_nil, findInterface, hrun]
        rfl
      have hfwd : ∀ (i : Nat) (r : VDict), wirelessFwd env [] (some i) (.dict d) r = .ok (appendTo r "wireless" [.dict b]) := by
        intro i r
        unfold wirelessFwd
        simp only [asDict, bind, Except.bind, hg, hb]
        rfl
      have hskip : skipBlock (some ["wifi-iface"]) (blockBack env.reprC b) = false :=
        skip_of_type (t := "wifi-iface") (by rw [hx, if_pos (.inl rfl), ht]) (by simp)
      have happ : ∀ (key : String) (r : VDict) (done : List VDict) (x : VDict),
          (r = [] ∧ done = [] ∨ r = [(key, .list (done.map .dict))] ∧ done ≠ []) →
          appendTo r key [.dict x] = [(key, .list ((done ++ [x]).map .dict))] := by
        intro key r done x hr
        rcases hr with ⟨rfl, rfl⟩ | ⟨rfl, _⟩
        · rw [appendTo_nil]; rfl
        · rw [appendTo_one]; simp
      refine ⟨b :: bs, Dict.set i' "wireless" (.dict w') :: rs, fun i r done hr => ?_, ?_, fun i r done hr => ?_, by simp [i4], ?_⟩
      · rw [List.map_cons, fwdList, hfwd, happ _ _ _ _ hr]
        show fwdList _ _ _ _ = _
        rw [i1 (i + 1) _ (done ++ [b]) (.inr ⟨rfl, by simp⟩)]
        by_cases e : bs = [] <;> simp [e]
      · intro c hc
        rcases List.mem_cons.1 hc with rfl | hc
        · exact ⟨hpl, hskip⟩
        · exact i2 c hc
      · rw [List.map_cons, backFold, if_neg (by rw [hskip]; simp), hback, happ _ _ _ _ hr]
        show backFold _ _ _ _ _ = _
        rw [i3 (i + 1) _ (done ++ [Dict.set i' "wireless" (.dict w')]) (.inr ⟨rfl, by simp⟩)]
        by_cases e : rs = [] <;> simp [e]
      · rw [List.filter_cons, if_pos hw]
        refine .cons ⟨fun k hk => ?_, w, w', hg, ?_, gw, ge⟩ i5
        · rw [Dict.get?_set', if_neg hk, gi]
        · rw [Dict.get?_set', if_pos rfl]

theorem fixNetwork_nil (v : Val) : fixNetwork [] v = .ok v := by
  unfold fixNetwork
  split
  · split
    · rfl
    · rfl
  · rfl

/-- **C48.** Wi-Fi interfaces converted to UCI text and back come back with the same mode, radio, options, networks, MAC address and
state, and their encryption object with the same protocol, cipher, key and settings. -/
theorem C48_round_trip (env : Env) (dsa : Bool) (config : VDict) (l : List VDict) (hk : Dict.get? config "interfaces" = some (.list (l.map .dict)))
    (hsome : l.filter isWifi ≠ [])
    (h : ∀ d ∈ l, isWifi d = true → ∃ name m w, Dict.get? d "wireless" = some (.dict w) ∧ WifiOK name m d w) :
    ∃ rs, viaText env.reprC (wirelessConv env dsa) (wirelessBConv env dsa) config = .ok [("interfaces", .list (rs.map .dict))] ∧
      List.Forall₂ wifiComesBack rs (l.filter isWifi) := by
  obtain ⟨bs, rs, i1, i2, i3, i4, i5⟩ := wifi_items env l h
  have hrne : rs ≠ [] := by
    rintro rfl
    cases hl : l.filter isWifi with
    | nil => exact hsome hl
    | cons x xs => rw [hl] at i5; cases i5
  have hbne : bs ≠ [] := by
    rintro rfl
    cases rs with
    | nil => exact hrne rfl
    | cons x xs => simp at i4
  refine ⟨rs, ?_, i5⟩
  obtain ⟨t, ht1, ht2⟩ := text_back env.reprC [("wireless", bs)] (by simp) (by
    intro p hp; simp only [List.mem_singleton] at hp; subst hp; exact (by decide : IsWord "wireless".toList)) (by
    intro p hp b hb
    simp only [List.mem_singleton] at hp
    subst hp
    exact (i2 b hb).1)
  have htrack : trackBridges dsa ([("wireless", .list ((bs.map (blockBack env.reprC)).map .dict))] : VDict) = .ok [] := rfl
  have hrun : ((wirelessBConv env dsa).run [] [("wireless", .list ((bs.map (blockBack env.reprC)).map .dict))]
      [("wireless", .list ((bs.map (blockBack env.reprC)).map .dict))]).2 = .ok [("interfaces", .list (rs.map .dict))] := by
    unfold wirelessBConv bwdG
    have hg : Dict.get? ([("wireless", .list ((bs.map (blockBack env.reprC)).map .dict))] : VDict) "wireless" =
      some (.list ((bs.map (blockBack env.reprC)).map .dict)) := by simp [Dict.get?]
    have hclean : wirelessClean dsa [("wireless", .list ((bs.map (blockBack env.reprC)).map .dict))] ((bs.map (blockBack env.reprC)).map .dict) =
        .ok ((bs.map (blockBack env.reprC)).map .dict, (bs.map (blockBack env.reprC)).map .dict) := by
      unfold wirelessClean
      rw [htrack]
      have hmap : ∀ l : List Val, l.mapM (fixNetwork []) = .ok l := by
        intro l
        induction l with
        | nil => rfl
        | cons x xs ih => rw [mapM_ok_cons]; exact ⟨x, xs, fixNetwork_nil x, ih, rfl⟩
      simp only [bind, Except.bind, hmap]
      rfl
    simp only [hg, Option.getD_some, hclean]
    rw [bwdLoop_eq _ _ _ _ _ _ _ (i3 1 [] [] (.inl ⟨rfl, rfl⟩))]
    simp [bwdEnd, hrne]
  refine viaText_eq (inter := [("wireless", .list (bs.map .dict))]) (inter' := [("wireless", .list ((bs.map (blockBack env.reprC)).map .dict))]) (text := t) ?_ ?_ ht1 ht2 ?_ hrun
  · simp [wirelessConv, pureConv, Dict.has, hk]
  · show wirelessRun env dsa config [] = _
    unfold wirelessRun
    have : trackBridges dsa [] = .ok [] := rfl
    rw [this]
    show fwd _ _ _ = _
    unfold fwd
    simp only [hk, Option.getD_some]
    rw [i1 1 [] [] (.inl ⟨rfl, rfl⟩)]
    simp [hbne]
  · simp [wirelessBConv, bwdG, Dict.has]

/-! ## Concrete cases -/

def sampleEnc : VDict :=
  [("protocol", .str "wpa2_enterprise"), ("key", .str "secret"), ("server", .str "1.2.3.4"), ("port", .int 1812), ("acct_server_port", .int 1813),
   ("cipher", .str "tkip+ccmp"), ("ieee80211w", .str "1")]

def sampleAp : VDict :=
  [("mode", .str "access_point"), ("radio", .str "radio0"), ("ssid", .str "my net"), ("ack_distance", .int 300), ("hidden", .bool true),
   ("network", .list [.str "lan", .str "guest"]), ("encryption", .dict sampleEnc)]

def sampleApInterface : VDict :=
  [("name", .str "wlan0"), ("type", .str "wireless"), ("mac", .str "aa:bb"), ("disabled", .bool true), ("wireless", .dict sampleAp)]

theorem sampleEnc_settings : ∀ p ∈ sampleEnc, p.1 ∈ ["protocol", "key", "cipher", "disabled"] ∨
    ((p.1 ∈ encryptionKeys ∨ p.1 = "ieee80211w" ∨ p.1 = "acct_server_port") ∧ survivesB (Dict.get? encTypes p.1) p.2 = true) := by
  decide +kernel

theorem sampleEnc_ok : EncOK true "wpa2_enterprise" sampleEnc where
  nodup := by decide
  on := by decide
  protocol := by rfl
  known := by decide
  cipher := by intro v h; cases h; exact ⟨_, rfl, by decide, .inl (by decide)⟩
  key := by intro v h; cases h; exact ⟨_, rfl, by decide, isWord_plain (by decide)⟩
  hasKey := fun _ => ⟨_, rfl⟩
  wepShared := fun h => absurd h (by decide)
  settings := by
    intro k v h hk
    have hall := sampleEnc_settings (k, v) (Dict.mem_of_get? h)
    rcases hall with h1 | ⟨h1, h2⟩
    · exact absurd h1 hk
    · exact ⟨h1, survivesB_sound h2⟩
  acctPort := fun _ => ⟨by decide, rfl⟩
  noUci := by decide
  acctSecret := by intro _ v h; cases h
  tls := by intro _ h; cases h
  wps := ⟨fun h => absurd h (by decide), by decide⟩

theorem sampleAp_ok : WifiOK "wlan0" "access_point" sampleApInterface sampleAp where
  hname := rfl
  word := by decide
  mac := by intro v h; cases h; exact survivesB_sound (by decide)
  disabled := by intro v h; cases h; exact ⟨_, rfl⟩
  nodup := by decide
  mode := rfl
  known := by decide
  radio := ⟨_, rfl, survivesB_sound (by decide)⟩
  id := by intro v h; cases h
  numbers := by
    intro k hk v h
    simp only [List.mem_cons, List.not_mem_nil, or_false] at hk
    rcases hk with rfl | rfl | rfl <;> cases h
    exact ⟨_, rfl⟩
  network := .inr ⟨["lan", "guest"], by decide, by decide, rfl, by decide⟩
  others := by
    intro k v h hk
    have hm := Dict.mem_of_get? h
    simp only [sampleAp, List.mem_cons, Prod.mk.injEq, List.not_mem_nil, or_false] at hm
    rcases hm with ⟨rfl, rfl⟩ | ⟨rfl, rfl⟩ | ⟨rfl, rfl⟩ | ⟨rfl, rfl⟩ | ⟨rfl, rfl⟩ | ⟨rfl, rfl⟩ | ⟨rfl, rfl⟩ <;>
      first | exact absurd (by decide) hk | exact ⟨by decide, by decide, by decide, survivesB_sound (by decide)⟩
  encryption := by
    intro v h; cases h
    exact ⟨_, rfl, by decide, .inr ⟨_, sampleEnc_ok, by intro h; cases h⟩, by
      have : ∀ k ∈ encryptionKeys ++ ["ieee80211w", "key1"], Dict.get? sampleAp k = none := by decide
      intro k hk
      exact this k (by simp only [List.mem_append, List.mem_cons, List.not_mem_nil, or_false]; exact hk)⟩

/-- the hypotheses of C48 are met by an access point with RADIUS, in a list with an interface that is not Wi-Fi -/
example : ∃ rs, viaText sampleEnv.reprC (wirelessConv sampleEnv true) (wirelessBConv sampleEnv true)
      [("interfaces", .list ([[("name", .str "eth0")], sampleApInterface].map .dict))] = .ok [("interfaces", .list (rs.map .dict))] ∧
    List.Forall₂ wifiComesBack rs [sampleApInterface] :=
  C48_round_trip sampleEnv true _ [[("name", .str "eth0")], sampleApInterface] rfl (by decide) (by
    intro d hd hw
    simp only [List.mem_cons, List.not_mem_nil, or_false] at hd
    rcases hd with rfl | rfl
    · exact absurd hw (by decide)
    · exact ⟨_, _, _, rfl, sampleAp_ok⟩)

/-! ## Where C48 does not hold -/

/-- one access point with the given encryption object, through text and back -/
def encTrip (enc : VDict) : Except PyErr VDict :=
  viaText sampleEnv.reprC (wirelessConv sampleEnv true) (wirelessBConv sampleEnv true)
    [("interfaces", .list [.dict [("name", .str "wlan0"), ("wireless", .dict [("mode", .str "access_point"), ("radio", .str "radio0"), ("encryption", .dict enc)])]])]

/-- what comes back of the encryption object -/
def encOut (enc : VDict) : Option Val :=
  match encTrip enc with
  | .ok [("interfaces", .list [.dict i])] => match Dict.get? i "wireless" with
    | some (.dict w) => Dict.get? w "encryption"
    | _ => none
  | _ => none

/-- WPS without any of its settings comes back as WPA personal -/
theorem C48_needs_wps_settings : encOut [("protocol", .str "wps"), ("key", .str "secret")] =
    some (.dict [("key", .str "secret"), ("protocol", .str "wpa_personal"), ("cipher", .str "auto")]) := by decide +kernel

/-- and any other protocol with a WPS setting comes back as WPS -/
theorem C48_needs_no_wps_settings : encOut [("protocol", .str "wpa2_personal"), ("key", .str "secret"), ("wps_pin", .str "1234")] =
    some (.dict [("key", .str "secret"), ("wps_pin", .str "1234"), ("protocol", .str "wps")]) := by decide +kernel

/-- a shared WEP key that begins with `s:` loses it -/
theorem C48_needs_wep_prefix : encOut [("protocol", .str "wep_shared"), ("key", .str "s:abcde")] =
    some (.dict [("key", .str "abcde"), ("protocol", .str "wep_shared"), ("cipher", .str "auto")]) := by decide +kernel

/-- an accounting secret equal to the key is left out -/
theorem C48_needs_acct_secret : encOut [("protocol", .str "wpa2_enterprise"), ("key", .str "k"), ("acct_secret", .str "k")] =
    some (.dict [("key", .str "k"), ("protocol", .str "wpa2_enterprise"), ("cipher", .str "auto")]) := by decide +kernel

/-- a cipher of a protocol that is not WPA is not rendered -/
theorem C48_needs_wpa_cipher : encOut [("protocol", .str "owe"), ("cipher", .str "ccmp")] =
    some (.dict [("protocol", .str "owe"), ("cipher", .str "auto")]) := by decide +kernel

/-! ## C51 on the way back -/

/-- **C51.** On the way back the `network` of a bridged wireless interface is dropped exactly when it names the bridges that the
interface belongs to, in their order, and nothing else; otherwise the block is left alone. -/
theorem C51_back (bridged : Dict String (List String)) (b : VDict) (n net : String) (bs : List String) (hn : Dict.get? b "ifname" = some (.str n))
    (hb : Dict.get? bridged n = some bs) (hnet : Dict.get? b "network" = some (.str net)) (hne : bs ≠ []) (hw : ∀ x ∈ bs, ' ' ∉ x.toList) :
    (net.toList = joinWith [' '] (bs.map String.toList) → fixNetwork bridged (.dict b) = .ok (.dict (Dict.erase b "network"))) ∧
    (net.toList ≠ joinWith [' '] (bs.map String.toList) → fixNetwork bridged (.dict b) = .ok (.dict b)) := by
  have hback : (bs.map String.toList).map String.ofList = bs := by
    rw [List.map_map]
    conv_rhs => rw [← List.map_id bs]
    apply List.map_congr_left
    intro x _
    simp
  have hiff : bs = (splitOn ' ' net.toList).map String.ofList ↔ net.toList = joinWith [' '] (bs.map String.toList) := by
    constructor
    · intro h
      have : bs.map String.toList = splitOn ' ' net.toList := by
        rw [h, List.map_map]
        conv_rhs => rw [← List.map_id (splitOn ' ' net.toList)]
        apply List.map_congr_left
        intro x _
        simp
      rw [this, joinWith_splitOn]
    · intro h
      rw [h, splitOn_joinWith _ (by simpa using hne) (by
        intro w hw'
        obtain ⟨x, hx, rfl⟩ := List.mem_map.1 hw'
        exact hw x hx), hback]
  unfold fixNetwork
  dsimp only
  rw [hn]
  dsimp only
  rw [hb, hnet]
  simp only [Option.getD_some, asText, bind, Except.bind]
  constructor
  · intro h
    rw [if_pos (hiff.2 h), if_pos (by simp [Dict.has, hnet])]
    rfl
  · intro h
    rw [if_neg (fun e => h (hiff.1 e))]
    rfl

/-- an interface in two bridges -/
example : fixNetwork [("wlan0", ["lan", "guest"])] (.dict [("ifname", .str "wlan0"), ("network", .str "lan guest")]) = .ok (.dict [("ifname", .str "wlan0")]) :=
  (C51_back _ _ "wlan0" "lan guest" ["lan", "guest"] rfl rfl rfl (by simp) (by decide)).1 rfl

end NJ
