import Verif.PropsNames
import Verif.PropsConstructed
import Verif.PropsValidNeeds
import Verif.PropsSchema

/-!
# C70 and C82: examples, and what happens without the hypotheses
-/

namespace NJ

/-! ## A check of the hypotheses -/

mutual
def Val.allB (f : Char → Bool) : Val → Bool
  | .str s => s.toList.all f
  | .list l => Val.allLB f l
  | .dict d => Val.allDB f d
  | _ => true
  termination_by structural v => v
def Val.allLB (f : Char → Bool) : List Val → Bool
  | [] => true
  | v :: r => Val.allB f v && Val.allLB f r
  termination_by structural v => v
def Val.allDB (f : Char → Bool) : List (String × Val) → Bool
  | [] => true
  | (k, v) :: r => k.toList.all f && Val.allB f v && Val.allDB f r
  termination_by structural v => v
end

section
variable {A : Char → Prop} {f : Char → Bool}

mutual
theorem allB_sound (hf : ∀ c, f c = true → A c) : (v : Val) → Val.allB f v = true → Val.overV A v
  | .str s, h => fun c hc => hf c (List.all_eq_true.1 (by rw [Val.allB] at h; exact h) c hc)
  | .list l, h => allLB_sound hf l (by rw [Val.allB] at h; exact h)
  | .dict d, h => allDB_sound hf d (by rw [Val.allB] at h; exact h)
  | .none, _ => trivial
  | .bool _, _ => trivial
  | .int _, _ => trivial
  termination_by structural v => v
theorem allLB_sound (hf : ∀ c, f c = true → A c) : (l : List Val) → Val.allLB f l = true → Val.overL A l
  | [], _ => trivial
  | v :: r, h => by
    rw [Val.allLB, Bool.and_eq_true] at h
    exact ⟨allB_sound hf v h.1, allLB_sound hf r h.2⟩
  termination_by structural l => l
theorem allDB_sound (hf : ∀ c, f c = true → A c) : (d : List (String × Val)) → Val.allDB f d = true → Val.overD A d
  | [], _ => trivial
  | (k, v) :: r, h => by
    rw [Val.allDB, Bool.and_eq_true, Bool.and_eq_true] at h
    exact ⟨⟨fun c hc => hf c (List.all_eq_true.1 h.1.1 c hc), allB_sound hf v h.1.2⟩, allDB_sound hf r h.2⟩
  termination_by structural d => d
end

/-- a check that a TLS key is given as text -/
def inlineB : Val → Bool
  | .str s => (splitOn ' ' (strip s.toList)).length != 2
  | _ => false

theorem inlineB_sound {v : Val} (h : inlineB v = true) : InlineKey v := by
  cases v with
  | str s => exact ⟨s, rfl, by simpa [inlineB] using h⟩
  | _ => cases h

def cleanVpnB (f : Char → Bool) (d : VDict) : Bool :=
  decide (Dict.keys d).Nodup && d.all (fun p => p.1 == "tls_auth" || (p.1.toList.all f && Val.allB f p.2)) &&
    (match Dict.get? d "tls_auth" with | none => true | some v => Val.allB f v || inlineB v)

theorem cleanVpnB_sound (hf : ∀ c, f c = true → A c) {d : VDict} (h : cleanVpnB f d = true) : CleanVpn A d := by
  unfold cleanVpnB at h
  rw [Bool.and_eq_true, Bool.and_eq_true] at h
  obtain ⟨⟨h1, h2⟩, h3⟩ := h
  refine ⟨of_decide_eq_true h1, fun p hp hne => ?_, fun v hv => ?_⟩
  · have := List.all_eq_true.1 h2 p hp
    rw [Bool.or_eq_true, Bool.and_eq_true] at this
    rcases this with e | ⟨e1, e2⟩
    · exact absurd (by simpa using e) hne
    · exact ⟨fun c hc => hf c (List.all_eq_true.1 e1 c hc), allB_sound hf _ e2⟩
  · rw [hv] at h3
    dsimp only at h3
    rw [Bool.or_eq_true] at h3
    exact h3.imp (allB_sound hf v) inlineB_sound

def cleanB (f : Char → Bool) (config : VDict) : Bool :=
  config.all (fun p => p.1 == "files" || (p.1.toList.all f && (if p.1 = "openvpn" then
    (match p.2 with | .list l => l.all (fun v => match v with | .dict d => cleanVpnB f d | _ => true) | _ => true) else Val.allB f p.2)))

theorem cleanB_sound (hf : ∀ c, f c = true → A c) {config : VDict} (h : cleanB f config = true) : CleanConfig A config := by
  intro k v hk hne
  have := List.all_eq_true.1 h (k, v) hk
  rw [Bool.or_eq_true, Bool.and_eq_true] at this
  rcases this with e | ⟨e1, e2⟩
  · exact absurd (by simpa using e) hne
  · refine ⟨fun c hc => hf c (List.all_eq_true.1 e1 c hc), ?_⟩
    dsimp only at e2
    split at e2
    · rename_i e
      rw [if_pos e]
      intro l hl d hd
      subst hl
      exact cleanVpnB_sound hf (List.all_eq_true.1 e2 _ hd)
    · rename_i e
      rw [if_neg e]
      exact allB_sound hf v e2

end

theorem noBreak_toLower {c : Char} (h : NoBreak c) : NoBreak c.toLower := by
  unfold NoBreak at *
  intro e
  by_cases hu : 65 ≤ c.val ∧ c.val ≤ 90
  · have : ∀ n : Fin 91, 65 ≤ n.val → (Char.ofNat n.val).toLower ≠ '\n' := by decide
    have hc : c = Char.ofNat c.toNat := (Char.ofNat_toNat c).symm
    have h2 : c.toNat ≤ 90 := hu.2
    have h1 : 65 ≤ c.toNat := hu.1
    rw [hc] at e
    exact this ⟨c.toNat, by omega⟩ h1 e
  · have : c.toLower = c := by
      unfold Char.toLower
      rw [dif_neg]
      exact fun h => hu h
    exact h (this ▸ e)

theorem noBreak_toUpper {c : Char} (h : NoBreak c) : NoBreak c.toUpper := by
  unfold NoBreak at *
  intro e
  by_cases hu : 97 ≤ c.val ∧ c.val ≤ 122
  · have : ∀ n : Fin 123, 97 ≤ n.val → (Char.ofNat n.val).toUpper ≠ '\n' := by decide
    have hc : c = Char.ofNat c.toNat := (Char.ofNat_toNat c).symm
    have h2 : c.toNat ≤ 122 := hu.2
    have h1 : 97 ≤ c.toNat := hu.1
    rw [hc] at e
    exact this ⟨c.toNat, by omega⟩ h1 e
  · have : c.toUpper = c := by
      unfold Char.toUpper
      rw [dif_neg]
      exact fun h => hu h
    exact h (this ▸ e)

/-- the environment of the examples is one the theorems are about -/
theorem valid_env_wide : Wide NoBreak validEnv where
  plain := by
    intro c hc e
    subst e
    exact absurd hc (by decide)
  repr := fun _ _ _ hc => nomatch hc
  lower := fun s h c hc => by
    obtain ⟨x, hx, rfl⟩ := List.mem_map.1 hc
    exact noBreak_toLower (h x hx)
  upper := fun s h c hc => by
    obtain ⟨x, hx, rfl⟩ := List.mem_map.1 hc
    exact noBreak_toUpper (h x hx)
  tz := fun z t h c hc e => by
    have hall : timezones.all (fun p => !p.2.toList.contains '\n') = true := by decide +kernel
    have := List.all_eq_true.1 hall _ (Dict.mem_of_get? h)
    subst e
    simp [hc] at this
  ip6 := fun _ => over_nil

/-! ## An example -/

private def o (l : VDict) : Val := .dict l
private def l (l : List Val) : Val := .list l
private def s (x : String) : Val := .str x

/-- a hostname, another package, a file and an OpenVPN instance with its key -/
def namesSample : VDict :=
  [("general", o [("hostname", s "router")]),
   ("firewall", l [o [("config_name", s "zone"), ("name", s "lan's    zone")]]),
   ("openvpn", l [o [("name", s "vpn0"), ("mode", s "server"), ("proto", s "udp"), ("dev", s "tun0"), ("dev_type", s "tun"),
     ("ca", s "/etc/x509/ca.pem"), ("cert", s "/etc/x509/cert.pem"), ("key", s "/etc/x509/key.pem"), ("dh", s "/etc/x509/dh.pem"),
     ("tls_auth", s "-----BEGIN OpenVPN Static key V1-----\npackage x\n-----END OpenVPN Static key V1-----")]]),
   ("files", l [o [("path", s "/etc/motd"), ("mode", s "0644"), ("contents", s "Hi\npackage y\n")]])]

theorem names_sample_clean : CleanConfig NoBreak namesSample := by
  refine cleanB_sound (f := fun c => c != '\n') (fun c hc e => ?_) (by decide +kernel)
  subst e; exact absurd hc (by decide)

/-- names of the members of the archive -/
def archiveMembers (config : VDict) : Except PyErr (List String) :=
  (generate (validClass true) ⟨config, none⟩).2.map (fun ms => ms.map (fun m => String.ofList m.name))

private def vpn (ca tls : String) : Val :=
  o [("name", s "vpn0"), ("mode", s "server"), ("proto", s "udp"), ("dev", s "tun0"), ("dev_type", s "tun"),
     ("ca", s ca), ("cert", s "/etc/x509/cert.pem"), ("key", s "/etc/x509/key.pem"), ("dh", s "/etc/x509/dh.pem"), ("tls_auth", s tls)]

/-- a configuration accepted by `validate`, and the names of the members of its archive -/
def Archived (config : VDict) (names : List String) : Prop :=
  validate (validClass true) config = .ok () ∧ archiveMembers config = .ok names

instance {config : VDict} {names : List String} : Decidable (Archived config names) := inferInstanceAs (Decidable (_ ∧ _))

/-- the example: the keys and files, though they have lines like those of packages, add nothing to the members -/
theorem names_sample_archived : Archived namesSample
    ["etc/config/system", "etc/config/openvpn", "etc/config/firewall", "etc/motd", "etc/x509/tun0_tls_auth.key"] := by
  decide +kernel

/-- the example meets the hypotheses of C70 and C82 -/
example : ∀ st ms, generate (validClass true) ⟨namesSample, none⟩ = (st, .ok ms) →
    ∀ m ∈ ms, m.name.head? ≠ some '/' ∧ ∀ root, ∃ d, d ≠ [] ∧ walk root (splitOn '/' m.name) = some (d ++ root) := by
  intro st ms h
  refine C70_stays_below valid_env_wide names_sample_clean ?_ ?_ h
  · intro k l hl hk
    simp only [namesSample, List.mem_cons, List.not_mem_nil, or_false, Prod.mk.injEq] at hl
    rcases hl with ⟨rfl, _⟩ | ⟨rfl, _⟩ | ⟨rfl, _⟩ | ⟨rfl, _⟩
    · exact absurd (by decide) hk
    · decide
    · exact absurd (by decide) hk
    · exact absurd (by decide) hk
  · rintro p (⟨l, d, hl, hd, _, rfl⟩ | ⟨l, d, hl, _⟩)
    · simp only [namesSample, List.mem_cons, List.not_mem_nil, or_false, Prod.mk.injEq] at hl
      rcases hl with ⟨e, _⟩ | ⟨e, _⟩ | ⟨_, e⟩ | ⟨e, _⟩
      · exact absurd e (by decide)
      · exact absurd e (by decide)
      · cases e
        cases List.mem_singleton.1 hd
        decide +kernel
      · exact absurd e (by decide)
    · simp only [namesSample, List.mem_cons, List.not_mem_nil, or_false, Prod.mk.injEq] at hl
      rcases hl with ⟨e, _⟩ | ⟨e, _⟩ | ⟨e, _⟩ | ⟨e, _⟩ <;> exact absurd e (by decide)

/-! ## What happens without the hypotheses

Each of these configurations is accepted by `validate`. -/

/-- a line break in the description of the device adds a member, outside of the directory -/
theorem C82_needs_unbroken_values : Archived [("general", o [("description", s "a\npackage ../../x")])]
    ["etc/config/system", "etc/config/../../x'"] := by
  decide +kernel

/-- and lines to the text -/
theorem C82_needs_unbroken_lines : (render (validClass true) false ⟨[("general", o [("description", s "a'\n\toption root '1")])], none⟩).2 =
    .ok "package system\n\nconfig system 'system'\n\toption description 'a'\n\toption root '1'\n\toption hostname 'OpenWRT'\n".toList := by
  decide +kernel

/-- and so does a TLS key that is taken for a file and a direction, because it has exactly one blank -/
theorem C82_needs_unbroken_key : Archived [("openvpn", l [vpn "/etc/ca.pem" "/etc/a 0'\npackage\tx"])]
    ["etc/config/openvpn", "etc/config/x'"] := by
  decide +kernel

/-- the name of another package is not checked -/
theorem C70_needs_package_names : Archived [("../../x", l [o [("config_name", s "a"), ("x", s "1")]])] ["etc/config/../../x"] := by
  decide +kernel

/-- the path of a TLS key, which comes from that of the certificate of the authority, is not checked either -/
theorem C70_needs_key_path : Archived [("openvpn", l [vpn "/../../x/ca.pem" "KEY"])] ["etc/config/openvpn", "../../x/tun0_tls_auth.key"] ∧
    Archived [("openvpn", l [vpn "//x/ca.pem" "KEY"])] ["etc/config/openvpn", "/x/tun0_tls_auth.key"] := by
  decide +kernel

/-- nor is that of the map of the interfaces of ZeroTier -/
theorem C70_needs_map_path : Archived
    [("zerotier", l [o [("name", s "zt"), ("networks", l [o [("id", s "9536600adf654321"), ("ifname", s "owzt654321")]]), ("config_path", s "/../../etc")]])]
    ["etc/config/zerotier", "../../etc/devicemap"] := by
  decide +kernel

/-! ## From the constructor -/

/-- names of the members of the archive of an object made from a configuration, templates and variables -/
def memberNamesOf (config : VDict) (templates : List VDict) (context : VDict) : Except PyErr (List String) := do
  let st ← construct (validClass true) (some (.val (.dict config))) none (.list (templates.map (fun t => .val (.dict t)))) (some context)
  validate (validClass true) st.config
  let ms ← (generate (validClass true) st).2
  pure (ms.map (fun m => String.ofList m.name))

/-- a configuration, a template and a variable -/
def topSample : VDict := [("general", o [("description", s "{{ who }}'s router"), ("hostname", s "router")])]
def topTemplate : VDict := [("firewall", l [o [("config_name", s "zone"), ("name", s "{{who}}")]]), ("files", l [o [("path", s "/etc/motd"), ("mode", s "0644"), ("contents", s "Hi\npackage y\n")]])]
def topContext : VDict := [("who", s "package mine")]

theorem top_clean (d : VDict) (h : d = topSample ∨ d = topTemplate) : CleanTop NoBreak d := by
  have hf : ∀ c, (fun c => c != '\n') c = true → NoBreak c := fun c hc e => by subst e; exact absurd hc (by decide)
  have hall : ∀ d : VDict, d.all (fun p => p.1 == "files" || (p.1.toList.all (· != '\n') && Val.allB (· != '\n') p.2)) = true →
      ∀ k v, (k, v) ∈ d → k ≠ "files" → Over NoBreak k ∧ Over NoBreak v := by
    intro d hd k v hk hne
    have := List.all_eq_true.1 hd _ hk
    rw [Bool.or_eq_true, Bool.and_eq_true] at this
    rcases this with e | ⟨e1, e2⟩
    · exact absurd (by simpa using e) hne
    · exact ⟨fun c hc => hf c (List.all_eq_true.1 e1 c hc), allB_sound hf v e2⟩
  rcases h with rfl | rfl
  · exact ⟨wf_of (n := 10) (by decide +kernel), hall _ (by decide +kernel)⟩
  · exact ⟨wf_of (n := 10) (by decide +kernel), hall _ (by decide +kernel)⟩

/-- the example meets the hypotheses of `C82_constructed` -/
example (st : BState) (h : construct (validClass true) (some (.val (.dict topSample))) none (.list [.val (.dict topTemplate)]) (some topContext) = .ok st) :
    st.inter = none ∧ CleanConfig NoBreak st.config := by
  refine C82_constructed (fun d hd => ?_) (fun l t d e ht hd => ?_) (fun c e => ?_) h
  · cases hd; exact top_clean _ (.inl rfl)
  · cases e
    rw [List.mem_singleton.1 ht] at hd
    cases hd; exact top_clean _ (.inr rfl)
  · cases e
    intro k v hv
    simp only [topContext, Dict.get?] at hv
    split at hv
    · cases hv
      refine ⟨fun c hc e => ?_, by decide⟩
      subst e
      exact absurd hc (by decide)
    · cases hv

/-- the word `package` in a value and in a file does no harm -/
theorem top_sample_archived : memberNamesOf topSample [topTemplate] topContext = .ok ["etc/config/system", "etc/config/firewall", "etc/motd"] := by
  decide +kernel

/-- a backslash in the value of a variable makes a line break, hence a file, although there is no line break in what was given -/
theorem C82_needs_no_backslash : memberNamesOf topSample [topTemplate] [("who", s "a\\npackage ../../x")] =
    .ok ["etc/config/system", "etc/config/../../x's router'", "etc/config/firewall", "etc/config/../../x'", "etc/motd"] := by
  decide +kernel

end NJ
