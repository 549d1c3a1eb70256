import Verif.PropsOpenVpnText
import Verif.PropsConv

/-!
# OpenVPN options: what is rendered (C59), inline TLS keys (C60)
-/

namespace NJ

theorem Dict.get?_filter {κ α : Type} [DecidableEq κ] {d : Dict κ α} (h : (Dict.keys d).Nodup) (p : κ × α → Bool) (k : κ) :
    Dict.get? (List.filter p d) k = (Dict.get? d k).bind (fun v => if p (k, v) then some v else none) := by
  have hf : (Dict.keys (List.filter p d)).Nodup := by
    unfold Dict.keys at h ⊢
    exact h.sublist (List.filter_sublist.map _)
  cases e : Dict.get? d k with
  | none =>
    rw [Option.bind_none, Dict.get?_eq_none_iff]
    intro hm
    obtain ⟨q, hq, rfl⟩ := List.mem_map.1 hm
    have := (Dict.get?_eq_none_iff d q.1).1 e
    exact this (Dict.mem_keys (List.mem_filter.1 hq).1)
  | some v =>
    have hm := Dict.mem_of_get? e
    rw [Option.bind_some]
    split
    · next hp => exact Dict.get?_of_mem hf (List.mem_filter.2 ⟨hm, hp⟩)
    · next hp =>
      rw [Dict.get?_eq_none_iff]
      intro hk
      obtain ⟨⟨k', w⟩, hq, hk⟩ := List.mem_map.1 hk
      obtain ⟨hq1, hq2⟩ := List.mem_filter.1 hq
      simp only at hk
      subst hk
      have := Dict.get?_of_mem h hq1
      rw [e] at this
      cases this
      exact hp hq2

/-! ## Specification -/

/-- `False`, `0` and the empty text -/
def FalsyOption (v : Val) : Prop := v = .bool false ∨ v = .int 0 ∨ v = .str ""

instance (v : Val) : Decidable (FalsyOption v) := by unfold FalsyOption; infer_instance

/-- **Specification.** The value with which an option is rendered, `none` when it is omitted: values that are `falsy` are left
out, except those of `script_security` and `remote`; an empty `server_bridge` is a flag. -/
def vpnKept (falsy : Val → Prop) [DecidablePred falsy] (c : VDict) (k : String) : Option Val :=
  match Dict.get? c k with
  | none => none
  | some v =>
    if k = "server_bridge" ∧ v = .str "" then some (.bool true)
    else if k = "script_security" ∨ k = "remote" then some v
    else if falsy v then none
    else some v

/-- **Specification.** The same, and `status_version` is rendered only with `status`. -/
def vpnShown (falsy : Val → Prop) [DecidablePred falsy] (c : VDict) (k : String) : Option Val :=
  if k = "status_version" ∧ vpnKept falsy c "status" = none then none else vpnKept falsy c k

theorem removedVpn_iff (v : Val) : removedVpn v = true ↔ FalsyOption v := by
  cases v <;> simp [removedVpn, FalsyOption]

theorem removedUci_iff (v : Val) : removedUci v = true ↔ v = .str "" := by
  cases v <;> simp [removedUci]

theorem bareBridge_nodup {c : VDict} (h : (Dict.keys c).Nodup) : (Dict.keys (bareBridge c)).Nodup := by
  unfold bareBridge; split
  · exact Dict.nodup_set h _ _
  · exact h

theorem kept_get {falsy : Val → Prop} [DecidablePred falsy] {remove : Val → Bool} (hr : ∀ v, remove v = true ↔ falsy v)
    (hf : ¬ falsy (.bool true)) {c : VDict} (h : (Dict.keys c).Nodup) (k : String) :
    Dict.get? (dropRemoved remove (bareBridge c)) k = vpnKept falsy c k := by
  unfold dropRemoved
  rw [Dict.get?_filter (bareBridge_nodup h)]
  have hb : Dict.get? (bareBridge c) k = if k = "server_bridge" ∧ Dict.get? c k = some (.str "") then some (.bool true) else Dict.get? c k := by
    unfold bareBridge
    split
    · next e =>
      rw [Dict.get?_set']
      by_cases hk : k = "server_bridge"
      · subst hk; simp [e]
      · simp [hk]
    · next e =>
      by_cases hk : k = "server_bridge"
      · subst hk; simp [e]
      · simp [hk]
  rw [hb]
  unfold vpnKept
  cases e : Dict.get? c k with
  | none => simp
  | some v =>
    by_cases h1 : k = "server_bridge" ∧ v = .str ""
    · obtain ⟨h1, rfl⟩ := h1
      have : remove (.bool true) = false := by
        rw [← Bool.not_eq_true, hr]; exact hf
      simp [h1, this]
    · have h1' : ¬ (k = "server_bridge" ∧ some v = some (.str "")) := by simpa using h1
      dsimp only
      rw [if_neg h1', if_neg h1, Option.bind_some]
      by_cases h2 : k = "script_security" ∨ k = "remote"
      · rw [if_pos h2, if_pos]
        simp [vpnSkipKeys, h2]
      · rw [if_neg h2]
        have h2' : ¬ k ∈ vpnSkipKeys := by simpa [vpnSkipKeys] using h2
        by_cases h3 : falsy v
        · rw [if_pos h3, if_neg]
          simp [h2', (hr v).2 h3]
        · have : remove v = false := by rw [← Bool.not_eq_true, hr]; exact h3
          rw [if_neg h3, if_pos]
          simp [this]

theorem dropRemoved_nodup {c : VDict} (h : (Dict.keys c).Nodup) (remove : Val → Bool) : (Dict.keys (dropRemoved remove (bareBridge c))).Nodup := by
  unfold dropRemoved
  have := bareBridge_nodup h
  unfold Dict.keys at this ⊢
  exact this.sublist (List.filter_sublist.map _)

/-- the key of the path: nothing before the last slash of the CA path changes -/
theorem tlsAuthPath_dir (dir base dev : Chars) (h : '/' ∉ base) :
    tlsAuthPath (dir ++ '/' :: base) dev = dir ++ '/' :: dev ++ "_tls_auth.key".toList := by
  unfold tlsAuthPath
  have e : splitOn '/' (dir ++ '/' :: base) = splitOn '/' dir ++ [base] := by
    have := splitOn_joinWith (sep := '/') (splitOn '/' dir ++ [base]) (by simp) (by
      intro w hw
      rcases List.mem_append.1 hw with hw | hw
      · exact splitOn_no_sep hw
      · simp only [List.mem_singleton] at hw; subst hw; exact h)
    rw [← this]
    congr 1
    have hj := joinWith_splitOn '/' dir
    have hne := splitOn_ne_nil '/' dir
    generalize splitOn '/' dir = ps at hj hne
    subst hj
    clear h this
    induction ps with
    | nil => exact absurd rfl hne
    | cons p ps ih =>
      cases ps with
      | nil => simp [joinWith]
      | cons q ps =>
        have := ih (by simp)
        simp only [joinWith, List.cons_append, List.append_assoc] at this ⊢
        rw [← this]
  rw [e, List.dropLast_concat]
  have hj := joinWith_splitOn '/' dir
  have hne := splitOn_ne_nil '/' dir
  generalize splitOn '/' dir = ps at hj hne
  subst hj
  clear e
  induction ps with
  | nil => exact absurd rfl hne
  | cons p ps ih =>
    cases ps with
    | nil => simp [joinWith]
    | cons q ps =>
      have := ih (by simp)
      simp only [joinWith, List.cons_append, List.append_assoc] at this ⊢
      rw [this]

theorem tlsAuthPath_plain (ca dev : Chars) (h : '/' ∉ ca) : tlsAuthPath ca dev = dev ++ "_tls_auth.key".toList := by
  unfold tlsAuthPath
  rw [splitOn_single _ h]
  rfl

/-! ## C59: the options of the block -/

theorem remotesText_get {env : Env} {c c' : VDict} (h : remotesText env c = .ok c') (hn : (Dict.keys c).Nodup) :
    (Dict.keys c').Nodup ∧ (∀ k, k ≠ "remote" → Dict.get? c' k = Dict.get? c k) ∧ (Dict.get? c' "remote").isSome = (Dict.get? c "remote").isSome := by
  unfold remotesText at h
  split at h
  · cases h; exact ⟨hn, fun _ _ => rfl, rfl⟩
  · next l e =>
    obtain ⟨l', _, h⟩ := bind_ok_iff.1 h
    cases h
    refine ⟨Dict.nodup_set hn _ _, fun k hk => by rw [Dict.get?_set', if_neg hk], ?_⟩
    rw [Dict.get?_set', if_pos rfl, e]; rfl
  · cases h

theorem statusVersion_get (c : VDict) (k : String) :
    Dict.get? (statusVersion c) k = if k = "status_version" ∧ Dict.get? c "status" = none then none else Dict.get? c k := by
  unfold statusVersion
  cases e : Dict.get? c "status" with
  | none =>
    rw [if_neg (by simp [Dict.has, e]), Dict.get?_erase']
    simp
  | some v =>
    rw [if_pos (by simp [Dict.has, e])]
    simp

theorem statusVersion_nodup {c : VDict} (h : (Dict.keys c).Nodup) : (Dict.keys (statusVersion c)).Nodup := by
  unfold statusVersion; split
  · exact h
  · exact Dict.nodup_erase h _

theorem dataCiphers_get {env : Env} {c c' : VDict} (h : dataCiphers env c = .ok c') (hn : (Dict.keys c).Nodup) :
    (Dict.keys c').Nodup ∧ (∀ k, k ≠ "data_ciphers" → Dict.get? c' k = Dict.get? c k) ∧
      (Dict.get? c' "data_ciphers").isSome = (Dict.get? c "data_ciphers").isSome := by
  unfold dataCiphers at h
  dsimp only at h
  split at h
  · cases h; exact ⟨hn, fun _ _ => rfl, rfl⟩
  · next ht =>
    split at h
    · next l e =>
      obtain ⟨l', _, h⟩ := bind_ok_iff.1 h
      cases h
      refine ⟨Dict.nodup_set hn _ _, fun k hk => by rw [Dict.get?_set', if_neg hk], ?_⟩
      rw [Dict.get?_set', if_pos rfl]
      cases e' : Dict.get? c "data_ciphers" with
      | none => rw [e'] at e; cases e
      | some v => rfl
    · cases h

/-- the options before the TLS key is looked at -/
theorem vpnBlock_split {falsy : Val → Prop} [DecidablePred falsy] {remove : Val → Bool} (hr : ∀ v, remove v = true ↔ falsy v)
    (hf : ¬ falsy (.bool true)) {env : Env} {c b : VDict} {f : Option VDict} (hn : (Dict.keys c).Nodup) (h : vpnBlock env remove c = .ok (b, f)) :
    ∃ c1 c2, (Dict.keys c1).Nodup ∧ (∀ k, k ≠ "remote" → k ≠ "data_ciphers" → Dict.get? c1 k = vpnShown falsy c k) ∧
      (∀ k, k = "remote" ∨ k = "data_ciphers" → (Dict.get? c1 k).isSome = (vpnShown falsy c k).isSome) ∧
      tlsAuth env c1 = .ok (c2, f) ∧ b = sortedDict c2 := by
  unfold vpnBlock at h
  obtain ⟨r1, h1, h⟩ := bind_ok_iff.1 h
  obtain ⟨r2, h2, h⟩ := bind_ok_iff.1 h
  obtain ⟨⟨r3, f'⟩, h3, h⟩ := bind_ok_iff.1 h
  cases h
  obtain ⟨n1, g1, s1⟩ := remotesText_get h1 (dropRemoved_nodup hn remove)
  obtain ⟨n2, g2, s2⟩ := dataCiphers_get h2 (statusVersion_nodup n1)
  have e : ∀ k, k ≠ "remote" → Dict.get? (statusVersion r1) k = vpnShown falsy c k := by
    intro k hk
    rw [statusVersion_get, g1 "status" (by decide), g1 k hk, kept_get hr hf hn, kept_get hr hf hn]
    rfl
  refine ⟨r2, r3, n2, ?_, ?_, h3, rfl⟩
  · intro k hk1 hk2
    rw [g2 k hk2, e k hk1]
  · rintro k (rfl | rfl)
    · rw [g2 _ (by decide), statusVersion_get, if_neg (by simp), s1, kept_get hr hf hn]
      unfold vpnShown
      rw [if_neg (by simp)]
    · rw [s2, e _ (by decide)]

theorem tlsAuth_get {env : Env} {c c' : VDict} {f : Option VDict} (h : tlsAuth env c = .ok (c', f)) (hn : (Dict.keys c).Nodup) :
    (Dict.keys c').Nodup ∧ (∀ k, k ≠ "tls_auth" → Dict.get? c' k = Dict.get? c k) ∧ (Dict.get? c' "tls_auth").isSome = (Dict.get? c "tls_auth").isSome := by
  unfold tlsAuth at h
  dsimp only at h
  split at h
  · cases h; exact ⟨hn, fun _ _ => rfl, rfl⟩
  · next ht =>
    obtain ⟨t, h1, h⟩ := bind_ok_iff.1 h
    split at h
    · cases h; exact ⟨hn, fun _ _ => rfl, rfl⟩
    · obtain ⟨ca, h2, h⟩ := bind_ok_iff.1 h
      cases h
      refine ⟨Dict.nodup_set hn _ _, fun k hk => by rw [Dict.get?_set', if_neg hk], ?_⟩
      rw [Dict.get?_set', if_pos rfl]
      cases e' : Dict.get? c "tls_auth" with
      | none => rw [e'] at h1; cases h1
      | some v => rfl

/-- the block in general -/
theorem vpn_options {falsy : Val → Prop} [DecidablePred falsy] {remove : Val → Bool} (hr : ∀ v, remove v = true ↔ falsy v)
    (hf : ¬ falsy (.bool true)) {env : Env} {c b : VDict} {f : Option VDict} (hn : (Dict.keys c).Nodup) (h : vpnBlock env remove c = .ok (b, f)) :
    (Dict.keys b).Nodup ∧ ∀ k, (Dict.get? b k).isSome = (vpnShown falsy c k).isSome ∧
      (k ≠ "remote" → k ≠ "data_ciphers" → k ≠ "tls_auth" → Dict.get? b k = vpnShown falsy c k) := by
  obtain ⟨c1, c2, n1, g1, s1, h2, rfl⟩ := vpnBlock_split hr hf hn h
  obtain ⟨n2, g2, s2⟩ := tlsAuth_get h2 n1
  refine ⟨sortedDict_nodup n2, ?_⟩
  intro k
  rw [get?_sortedDict n2]
  refine ⟨?_, fun k1 k2 k3 => by rw [g2 k k3, g1 k k1 k2]⟩
  by_cases k3 : k = "tls_auth"
  · subst k3; rw [s2, g1 _ (by decide) (by decide)]
  · rw [g2 k k3]
    by_cases k1 : k = "remote"
    · exact s1 k (.inl k1)
    · by_cases k2 : k = "data_ciphers"
      · exact s1 k (.inr k2)
      · rw [g1 k k1 k2]

/-- **C59.** For every OpenVPN configuration: the options of the block handed to the template are exactly those of the
configuration that are not false, 0 or empty; `script_security` and `remote` are always there, an empty `server_bridge` is
a flag and `status_version` is there only with `status`. Values are unchanged (`remote`, `data_ciphers` and `tls_auth` have
a form of their own: C57, C58, C60). -/
theorem C59_options (env : Env) (c b : VDict) (f : Option VDict) (hn : (Dict.keys c).Nodup) (h : vpnBlock env removedVpn c = .ok (b, f)) (k : String) :
    (Dict.get? b k).isSome = (vpnShown FalsyOption c k).isSome ∧
      (k ∉ ["remote", "data_ciphers", "tls_auth"] → Dict.get? b k = vpnShown FalsyOption c k) := by
  have := (vpn_options removedVpn_iff (by decide) hn h).2 k
  refine ⟨this.1, fun hk => ?_⟩
  simp only [List.mem_cons, List.not_mem_nil, or_false, not_or] at hk
  exact this.2 hk.1 hk.2.1 hk.2.2

/-! ## C60: inline TLS keys -/

/-- the text of a value, the empty text when there is none -/
def optionText (v : Option Val) : Chars :=
  match v with
  | some (.str s) => s.toList
  | _ => []

/-- **C60.** An inline key: the value of `tls_auth` is not of the form "path direction". The block then refers to a file named
after the device in the directory of the CA, with direction 0 on servers and 1 elsewhere, and the file, readable by its
owner only, holds the key without the white space around it. -/
theorem C60_inline (env : Env) (c b : VDict) (f : Option VDict) (hn : (Dict.keys c).Nodup) (h : vpnBlock env removedVpn c = .ok (b, f))
    (key : String) (hk : Dict.get? c "tls_auth" = some (.str key)) (hne : key ≠ "") (hkey : (splitOn ' ' (strip key.toList)).length ≠ 2)
    (dev : String) (hdev : (Dict.get? c "dev").getD (.str "") = .str dev) :
    ∃ path, f = some [("path", txt path), ("mode", .str "0600"), ("contents", txt (strip key.toList))] ∧
      Dict.get? b "tls_auth" = some (txt (path ++ (if Dict.get? c "mode" = some (.str "server") then " 0".toList else " 1".toList))) ∧
      (∀ dir base, optionText (Dict.get? c "ca") = dir ++ '/' :: base → '/' ∉ base → path = dir ++ '/' :: dev.toList ++ "_tls_auth.key".toList) ∧
      ('/' ∉ optionText (Dict.get? c "ca") → path = dev.toList ++ "_tls_auth.key".toList) := by
  obtain ⟨c1, c2, n1, g1, s1, h2, rfl⟩ := vpnBlock_split removedVpn_iff (by decide) hn h
  have ht : vpnShown FalsyOption c "tls_auth" = some (.str key) := by
    unfold vpnShown vpnKept
    rw [if_neg (by simp), hk]
    simp [FalsyOption, hne]
  have hm : (Dict.get? c1 "mode" = some (.str "server")) ↔ (Dict.get? c "mode" = some (.str "server")) := by
    rw [g1 _ (by decide) (by decide)]
    unfold vpnShown vpnKept
    rw [if_neg (by simp)]
    cases e : Dict.get? c "mode" with
    | none => simp
    | some v =>
      by_cases hv : FalsyOption v
      · have : v ≠ .str "server" := by rintro rfl; exact absurd hv (by decide)
        simp [hv, this]
      · simp [hv]
  have hd : (Dict.get? c1 "dev").getD (.str "") = .str dev := by
    rw [g1 _ (by decide) (by decide)]
    unfold vpnShown vpnKept
    rw [if_neg (by simp)]
    cases e : Dict.get? c "dev" with
    | none => rw [e] at hdev; exact hdev
    | some v =>
      rw [e] at hdev
      simp only [Option.getD_some] at hdev
      subst hdev
      by_cases hv : FalsyOption (.str dev)
      · have : dev = "" := by simpa [FalsyOption] using hv
        subst this
        simp [hv]
      · simp [hv]
  have hca : ∀ ca, asText ((Dict.get? c1 "ca").getD (.str "")) = .ok ca → ca = optionText (Dict.get? c "ca") := by
    intro ca
    rw [g1 _ (by decide) (by decide)]
    unfold vpnShown vpnKept
    rw [if_neg (by simp)]
    cases e : Dict.get? c "ca" with
    | none => intro h; cases h; rfl
    | some v =>
      by_cases hv : FalsyOption v
      · rcases hv with rfl | rfl | rfl <;> (intro h; cases h; rfl)
      · simp only [hv]
        cases v <;> intro h <;> cases h
        rfl
  unfold tlsAuth at h2
  dsimp only at h2
  rw [g1 _ (by decide) (by decide), ht] at h2
  simp only [Option.getD_some] at h2
  rw [if_neg (by simp [Val.truthy, hne])] at h2
  simp only [asText, bind, Except.bind] at h2
  rw [if_neg hkey] at h2
  split at h2
  · cases h2
  · next ca hc =>
    have hc := hca ca hc
    cases h2
    refine ⟨tlsAuthPath ca (pyStr env.reprC ((Dict.get? c1 "dev").getD (.str ""))).toList, rfl, ?_, ?_, ?_⟩
    · rw [get?_sortedDict (Dict.nodup_set n1 _ _), Dict.get?_set', if_pos rfl]
      by_cases e : Dict.get? c "mode" = some (.str "server")
      · rw [if_pos (hm.2 e), if_pos e]; rfl
      · rw [if_neg (fun h => e (hm.1 h)), if_neg e]; rfl
    · intro dir base h1 h2
      rw [hd, hc, h1, tlsAuthPath_dir _ _ _ h2]; rfl
    · intro h1
      rw [hd, hc, tlsAuthPath_plain _ _ h1]; rfl

/-- **C60.** A value of the form "path direction" is left alone and makes no file; neither does a configuration without key. -/
theorem C60_reference (env : Env) (c b : VDict) (f : Option VDict) (hn : (Dict.keys c).Nodup) (h : vpnBlock env removedVpn c = .ok (b, f)) :
    (∀ key : String, Dict.get? c "tls_auth" = some (.str key) → (splitOn ' ' (strip key.toList)).length = 2 →
      f = none ∧ Dict.get? b "tls_auth" = some (.str key)) ∧
    (Dict.get? c "tls_auth" = none → f = none ∧ Dict.get? b "tls_auth" = none) := by
  obtain ⟨c1, c2, n1, g1, s1, h2, rfl⟩ := vpnBlock_split removedVpn_iff (by decide) hn h
  unfold tlsAuth at h2
  dsimp only at h2
  rw [g1 _ (by decide) (by decide)] at h2
  constructor
  · intro key hk h2'
    have hne : key ≠ "" := by rintro rfl; exact absurd h2' (by decide)
    have ht : vpnShown FalsyOption c "tls_auth" = some (.str key) := by
      unfold vpnShown vpnKept
      rw [if_neg (by simp), hk]
      simp [FalsyOption, hne]
    rw [ht] at h2
    simp only [Option.getD_some] at h2
    rw [if_neg (by simp [Val.truthy, hne])] at h2
    simp only [asText, bind, Except.bind] at h2
    rw [if_pos h2'] at h2
    cases h2
    exact ⟨rfl, by rw [get?_sortedDict n1, g1 _ (by decide) (by decide), ht]⟩
  · intro hk
    have ht : vpnShown FalsyOption c "tls_auth" = none := by
      unfold vpnShown vpnKept
      rw [if_neg (by simp), hk]
    rw [ht, if_pos (by decide)] at h2
    cases h2
    exact ⟨rfl, by rw [get?_sortedDict n1, g1 _ (by decide) (by decide), ht]⟩

/-- the files of a configuration, none when there is no such list -/
def filesList (config : VDict) : List Val :=
  match Dict.get? config "files" with
  | some (.list l) => l
  | _ => []

theorem addVpnFile_get (config : VDict) (f : Option VDict) :
    filesList (addVpnFile config f) = filesList config ++ (f.toList.map Val.dict) ∧
      ∀ k, k ≠ "files" → Dict.get? (addVpnFile config f) k = Dict.get? config k := by
  cases f with
  | none => exact ⟨by simp [addVpnFile], fun _ _ => rfl⟩
  | some f =>
    have hset : ∀ l, filesList (Dict.set config "files" (.list l)) = l := by
      intro l; unfold filesList; rw [Dict.get?_set', if_pos rfl]
    show filesList (appendTo config "files" [.dict f]) = _ ∧ ∀ k, k ≠ "files" → Dict.get? (appendTo config "files" [.dict f]) k = _
    by_cases h : ∃ l, Dict.get? config "files" = some (.list l)
    · obtain ⟨l, e⟩ := h
      have e1 : appendTo config "files" [.dict f] = Dict.set config "files" (.list (l ++ [.dict f])) := by unfold appendTo; rw [e]
      rw [e1]
      exact ⟨by rw [hset, filesList, e]; rfl, fun k hk => by rw [Dict.get?_set', if_neg hk]⟩
    · have e1 : appendTo config "files" [.dict f] = Dict.set config "files" (.list [.dict f]) := by
        unfold appendTo
        split
        · next l e => exact absurd ⟨l, e⟩ h
        · rfl
      have e2 : filesList config = [] := by
        unfold filesList
        split
        · next l e => exact absurd ⟨l, e⟩ h
        · rfl
      rw [e1]
      exact ⟨by rw [hset, e2]; rfl, fun k hk => by rw [Dict.get?_set', if_neg hk]⟩

theorem vpnBlocks_ok {conv1 : VDict → Except PyErr (VDict × Option VDict)} {config config' : VDict} {l : List VDict} {bs : List Val}
    (h : vpnBlocks conv1 config (l.map .dict) = (config', .ok bs)) :
    ∃ rs, l.mapM conv1 = .ok rs ∧ bs = rs.map (fun r => Val.dict r.1) ∧
      filesList config' = filesList config ++ rs.flatMap (fun r => r.2.toList.map Val.dict) ∧
      ∀ k, k ≠ "files" → Dict.get? config' k = Dict.get? config k := by
  induction l generalizing config bs with
  | nil => cases h; exact ⟨[], rfl, rfl, by simp, fun _ _ => rfl⟩
  | cons d l ih =>
    rw [List.map_cons, vpnBlocks] at h
    split at h
    · cases h
    · next b f e =>
      dsimp only at h
      have e : conv1 d = .ok (b, f) := e
      obtain ⟨h1, h2⟩ := Prod.mk.injEq _ _ _ _ ▸ h
      obtain ⟨bs', h3, h4⟩ := bind_ok_iff.1 h2
      cases h4
      obtain ⟨rs, i1, i2, i3, i4⟩ := ih (config := addVpnFile config f) (bs := bs') (by rw [← h1, ← h3])
      refine ⟨(b, f) :: rs, ?_, by rw [i2]; rfl, ?_, ?_⟩
      · rw [mapM_ok_cons]; exact ⟨_, _, e, i1, rfl⟩
      · rw [i3, (addVpnFile_get config f).1]; simp
      · intro k hk; rw [i4 k hk, (addVpnFile_get config f).2 k hk]

/-- **C60.** Converting the OpenVPN section adds the key files of its VPNs, in their order, after the files of the
configuration, and changes nothing else in it. -/
theorem C60_files (env : Env) (config config' inter out : VDict) (l : List VDict) (hk : Dict.get? config "openvpn" = some (.list (l.map .dict)))
    (h : (openvpnConv env).run config inter = (config', .ok out)) :
    ∃ rs, l.mapM (vpnBlock env removedVpn) = .ok rs ∧ filesList config' = filesList config ++ rs.flatMap (fun r => r.2.toList.map Val.dict) ∧
      ∀ k, k ≠ "files" → Dict.get? config' k = Dict.get? config k := by
  have h : vpnRun (vpnBlock env removedVpn) config inter = (config', .ok out) := h
  unfold vpnRun at h
  rw [hk] at h
  simp only [Option.getD_some, Prod.mk.injEq] at h
  obtain ⟨h1, h2⟩ := h
  obtain ⟨bs, h3, _⟩ := bind_ok_iff.1 h2
  obtain ⟨rs, i1, _, i3, i4⟩ := vpnBlocks_ok (config := config) (config' := config') (l := l) (bs := bs) (by rw [← h1, ← h3])
  exact ⟨rs, i1, i3, i4⟩

end NJ
