import Verif.PropsVpnSays
import Verif.PropsNames
import Verif.PropsValidVpnSample
import Verif.SchemaSpec

/-!
# C88: where the files of a valid OpenVPN configuration are
-/

namespace NJ

/-- what the name of a VPN consists of -/
def nameChar (c : Char) : Bool := isDigit c || isUpper c || isLower c || c == '_' || c == '-'

theorem star_chars {p : Char → Bool} {s : Chars} (h : Rx.Matches (.star (.chr p)) s) : ∀ c ∈ s, p c = true := by
  generalize hr : Rx.star (.chr p) = r at h
  induction h with
  | none a => intro c hc; cases hc
  | more a s t h1 _ _ ih =>
    cases hr
    intro c hc
    rcases List.mem_append.1 hc with hc | hc
    · cases h1 with
      | chr _ d hd =>
        rw [List.mem_singleton] at hc
        rw [hc]
        exact hd
    · exact ih rfl c hc
  | _ => cases hr

theorem name_pattern {s : Chars} (h : patternOk "^[0-9A-Za-z_-]*$" s = true) (hn : '\n' ∉ s) : ∀ c ∈ s, nameChar c = true := by
  have e : patternOk "^[0-9A-Za-z_-]*$" s = (Rx.seq (.star (.chr nameChar)) Rx.atEnd).run s := rfl
  rw [e, Rx.run_iff] at h
  cases h with
  | seq _ _ a b h1 h2 =>
    have : b = [] := by
      unfold Rx.atEnd at h2
      cases h2 with
      | left _ _ _ h => cases h; rfl
      | right _ _ _ h =>
        cases h with
        | chr _ c hc =>
          have : c = '\n' := by simpa using hc
          exact absurd (List.mem_append_right _ (by rw [this]; exact List.mem_singleton.2 rfl)) hn
    subst this
    rw [List.append_nil]
    exact star_chars h1

def vpnNameFact : Fact := .objects "openvpn" (.and (.has "name") (.at "name" (.and (.isType "string") (.and (.minLength 2) (.pattern "^[0-9A-Za-z_-]*$")))))

theorem openvpn_names {ip6 : Ip6} {config : VDict} (h : valid ip6 openvpnSchema schemaDepth (.dict openvpnSchema) (.dict config) = true) :
    vpnNameFact.Holds ip6 (.dict config) := implies_sound (n := 24) (by decide +kernel) h

theorem name_no_suffix {s : Chars} (h : ∀ c ∈ s, nameChar c = true) : ¬ ".conf".toList <:+: s := by
  rintro ⟨a, b, e⟩
  have : nameChar '.' = true := h '.' (by rw [← e]; simp)
  exact absurd this (by decide)

/-- a path of the archive that stays below the directory it is unpacked in -/
def Below (p : Chars) : Prop := p.head? ≠ some '/' ∧ ∀ root, ∃ d, d ≠ [] ∧ walk root (splitOn '/' p) = some (d ++ root)

theorem below_valid {p : Chars} (hp : validPath p = true) : Below (memberName p) := by
  refine ⟨(C19_path_stays_below p hp []).2.2, fun root => ?_⟩
  obtain ⟨h1, h2, _⟩ := C19_path_stays_below p hp root
  exact ⟨_, by simpa using h2, h1⟩

theorem below_plain {p : Chars} (h : '/' ∉ p) (h2 : 2 < p.length) : Below p := by
  refine ⟨?_, fun root => ⟨[p], by simp, ?_⟩⟩
  · intro hh
    cases p with
    | nil => cases hh
    | cons c r => cases Option.some.inj hh; exact h List.mem_cons_self
  · have : splitOn '/' p = [p] := by
      have := splitOn_joinWith (sep := '/') [p] (by simp) (by simpa using h)
      simpa [joinWith] using this
    rw [this]
    simp only [walk]
    rw [if_neg, if_neg]
    · rfl
    · rintro rfl; exact absurd h2 (by decide)
    · rintro (rfl | rfl) <;> exact absurd h2 (by decide)

/-- **C88.** The archive of a configuration the schema accepts: the file of a VPN is named after it, and the whole archive stays below the directory
it is unpacked in, when the files for the TLS keys do (that is decided by the path of the certificate of the authority). -/
theorem C88_valid (env : Env) (sh : Val → Bool) (loads : Chars → Option Val) (config : VDict) (l : List VDict)
    (hne : l ≠ []) (hk : Dict.get? config "openvpn" = some (.list (l.map .dict))) (hl : ∀ c ∈ l, FileFits env.reprC c)
    (hp : ∀ c ∈ l, keyFiles env.reprC c ≠ [] → validPath (keyPath env.reprC c) = true) (st : BState) (ms : List Member)
    (h : generate (openvpnReal env sh loads) ⟨config, none⟩ = (st, .ok ms)) :
    (∃ gs fs, List.Forall₂ (fun c g => Dict.get? c "name" = some (txt g.1) ∧ Says env.reprC c g.2) l gs ∧
      ms = gs.map (vpnFileOf ".conf".toList) ++ fs ∧ processFiles st.config = .ok fs) ∧ ∀ m ∈ ms, Below m.name := by
  obtain ⟨gs, fs, h1, h2, h3, config', h4, h5, h6⟩ := C88_archive env _ sh loads config l hne hk hl st ms h
  have hv : validate (openvpnReal env sh loads) config = .ok () := by
    unfold generate at h
    split at h
    · cases h
    · rename_i st1 text hr
      exact (render_ok hr).1
  have hfp : validateFilePaths config = .ok () := by
    have := hv
    unfold validate at this
    obtain ⟨_, _, this⟩ := bind_ok_iff.1 this
    obtain ⟨_, _, this⟩ := bind_ok_iff.1 this
    obtain ⟨_, h3, this⟩ := bind_ok_iff.1 this
    exact h3
  have hname : ∀ c ∈ l, ∃ s : String, Dict.get? c "name" = some (.str s) ∧ 2 ≤ s.toList.length ∧ shownText env.reprC c "name" = s.toList ∧
      ∀ x ∈ s.toList, nameChar x = true := by
    intro c hc
    obtain ⟨l', e, H⟩ := holds_objects (openvpn_names (schema_valid (ip6 := env.ip6) rfl hv)) _ hk
    cases e
    obtain ⟨d, e, n1, n2⟩ := H (.dict c) (List.mem_map.2 ⟨c, hc, rfl⟩)
    cases e
    obtain ⟨v, hv, -⟩ := holds_key n1
    obtain ⟨t1, t2, t3⟩ := holds_at n2 v hv
    obtain ⟨s, rfl⟩ := holds_txt t1
    have len := t2 _ rfl
    have hsh : shownText env.reprC c "name" = s.toList := by
      unfold shownText vpnShown vpnKept
      rw [if_neg (fun h => absurd h.1 (by decide)), hv]
      dsimp only
      rw [if_neg (fun h => absurd h.1 (by decide)), if_neg (by decide), if_neg]
      · rfl
      · rintro (e | e | e)
        · cases e
        · cases e
        · have e : s = "" := by injection e
          rw [e] at len
          exact absurd len (by decide)
    refine ⟨s, hv, len, hsh, name_pattern (t3 _ rfl) fun hm => ?_⟩
    exact (hl c hc).name.1 (List.mem_append_right _ (by rw [hsh]; exact hm))
  have hgs : List.Forall₂ (fun c g => Dict.get? c "name" = some (txt g.1) ∧ Says env.reprC c g.2) l gs ∧
      ∀ g ∈ gs, (∀ x ∈ g.1, nameChar x = true) := by
    clear hne hk hl hp h h2 h4
    induction h1 with
    | nil => exact ⟨.nil, fun g hg => nomatch hg⟩
    | cons h1 _ ih =>
      obtain ⟨i1, i2⟩ := ih fun c hc => hname c (List.mem_cons_of_mem _ hc)
      obtain ⟨s, e1, _, e2, e3⟩ := hname _ List.mem_cons_self
      obtain ⟨n, hs⟩ := h1
      have n := n.trans e2
      refine ⟨.cons ⟨by rw [e1, n, txt, String.ofList_toList], hs⟩ i1, fun g hg => ?_⟩
      rcases List.mem_cons.1 hg with rfl | hg
      · rw [n]; exact e3
      · exact i2 g hg
  have hms : ms = gs.map (vpnFileOf ".conf".toList) ++ fs := by
    rw [h2]
    congr 1
    apply List.map_congr_left
    intro g hg
    unfold vpnFileAt vpnFileOf
    rw [beforeText_self (name_no_suffix (hgs.2 g hg))]
  refine ⟨⟨gs, fs, hgs.1, hms, h3⟩, fun m hm => ?_⟩
  rw [hms] at hm
  rcases List.mem_append.1 hm with hm | hm
  · obtain ⟨g, hg, rfl⟩ := List.mem_map.1 hm
    refine below_plain (fun hs => ?_) ?_
    · rcases List.mem_append.1 hs with hs | hs
      · exact absurd (hgs.2 g hg _ hs) (by decide)
      · exact absurd hs (by decide)
    · show 2 < (g.1 ++ ".conf".toList).length
      rw [List.length_append]
      have : (".conf".toList).length = 5 := by decide
      omega
  · obtain ⟨f, hf, p, hfp', e⟩ := processFiles_names h3 m hm
    rw [e]
    obtain ⟨_, _, _, hmem, _⟩ := C21_one_file_per_path _ _ h6
    obtain ⟨p', _, hlast⟩ := hmem f hf
    have hf' : f ∈ filesOf config' := by unfold lastFile at hlast; simpa using List.mem_of_find?_eq_some hlast
    have hf' : f ∈ filesList config' := hf'
    rw [h4] at hf'
    rcases List.mem_append.1 hf' with hf' | hf'
    · obtain ⟨q, hq, hvq⟩ := validateFilePaths_ok.1 hfp f hf'
      rw [hfp'] at hq
      cases hq
      exact below_valid hvq
    · obtain ⟨c, hc, hf'⟩ := List.mem_flatMap.1 hf'
      have hv := hp c hc (List.ne_nil_of_mem hf')
      unfold keyFiles at hf'
      split at hf'
      · split at hf'
        · cases hf'
        · rw [List.mem_singleton] at hf'
          subst hf'
          have : ∀ v, filePath (.dict [("path", txt (keyPath env.reprC c)), ("mode", .str "0600"), ("contents", v)]) = .ok (keyPath env.reprC c) := by
            intro v
            unfold filePath reqStr
            dsimp only
            rw [Dict.get?_cons_self]
            dsimp only [txt]
            rw [String.toList_ofList]
          rw [this] at hfp'
          cases hfp'
          exact below_valid hv
      · cases hf'

/-! ## An example, and what happens without the hypotheses -/

theorem says_none (reprC : Val → String) {c : VDict} {k : String} (h : k ∉ Dict.keys c) : optionSays reprC c k = [] := by
  unfold optionSays
  cases hs : vpnShown FalsyOption c k with
  | none => rfl
  | some v => exact absurd (shown_key (by rw [hs]; rfl)) h

instance decCleanLineVpn (l : Chars) : Decidable (CleanLine l) := by unfold CleanLine; infer_instance

/-- all the hypotheses on a VPN at once -/
theorem fileFits_of {reprC : Val → String} {c : VDict} (h : (Dict.keys c).Nodup ∧ CleanLine ("# openvpn config: ".toList ++ shownText reprC c "name") ∧
    (∃ k ∈ Dict.keys c, optionSays reprC c k ≠ []) ∧
    ∀ k ∈ Dict.keys c, ∀ l ∈ optionSays reprC c k, CleanLine l ∧ l ≠ [] ∧ l.head? ≠ some '#' ∧ ∀ x ∈ l, x.toNat < 128) : FileFits reprC c := by
  have H : ∀ k, ∀ l ∈ optionSays reprC c k, CleanLine l ∧ l ≠ [] ∧ l.head? ≠ some '#' ∧ ∀ x ∈ l, x.toNat < 128 := by
    intro k l hl
    by_cases hk : k ∈ Dict.keys c
    · exact h.2.2.2 k hk l hl
    · rw [says_none reprC hk] at hl
      cases hl
  exact { nodup := h.1, name := h.2.1, lines := fun k l hl => (H k l hl).1, nonempty := h.2.2.1, plain := fun k l hl => (H k l hl).2 }

/-- the example: the configuration of C81, a server with a key of its own and a client, meets the hypotheses -/
theorem ovpn_fits : ∀ c ∈ [ovpnServer [], ovpnClient], FileFits sampleEnv.reprC c := by
  intro c hc
  apply fileFits_of
  simp only [List.mem_cons, List.not_mem_nil, or_false] at hc
  rcases hc with rfl | rfl
  · decide +kernel
  · decide +kernel

example (st : BState) (ms : List Member) (h : generate ovpnSample ⟨ovpnConfig, none⟩ = (st, .ok ms)) : ∀ m ∈ ms, Below m.name :=
  (C88_valid _ _ _ _ [ovpnServer [], ovpnClient] (by simp) (by decide +kernel) ovpn_fits
    (by intro c hc; simp only [List.mem_cons, List.not_mem_nil, or_false] at hc; rcases hc with rfl | rfl <;> decide +kernel) st ms h).2

/-- what the example says, option by option -/
example : (["tls_auth", "data_ciphers", "tls_server", "ca"].flatMap (optionSays sampleEnv.reprC (ovpnServer []))).map String.ofList =
    ["tls-auth /etc/x509/tun0_tls_auth.key 0", "data-ciphers ?AES-128-GCM", "tls-server", "ca /etc/x509/ca.pem"] ∧
    (["remote", "nobind", "dev_type"].flatMap (optionSays sampleEnv.reprC ovpnClient)).map String.ofList =
    ["remote vpn.org 1195", "nobind", "dev-type tun"] := by decide +kernel

/-- The path of the key is not validated: with the certificate of the authority in `/../..` the archive of a valid configuration has a member outside
of the directory it is unpacked in. -/
theorem C88_needs_key_path :
    validate ovpnSample [("openvpn", .list [.dict (Dict.set (ovpnServer []) "ca" (.str "/../../ca.pem"))])] = .ok () ∧
    ((generate ovpnSample ⟨[("openvpn", .list [.dict (Dict.set (ovpnServer []) "ca" (.str "/../../ca.pem"))])], none⟩).2.map
      fun ms => ms.map (fun m => String.ofList m.name)) = .ok ["ab.conf", "../../tun0_tls_auth.key"] := by
  constructor <;> decide +kernel

/-- The names of WireGuard tunnels may contain slashes: the archive of a valid configuration has a member outside of the directory it is unpacked in. -/
theorem C88_wireguard_escapes :
    validate wgSample [("wireguard", .list [.dict (Dict.set (wgTunnel [("address", .str "10.0.0.1/24")]) "name" (.str "../../etc/wg"))])] = .ok () ∧
    ((generate wgSample ⟨[("wireguard", .list [.dict (Dict.set (wgTunnel [("address", .str "10.0.0.1/24")]) "name" (.str "../../etc/wg"))])], none⟩).2.map
      fun ms => ms.map (fun m => String.ofList m.name)) = .ok ["../../etc/wg.conf"] := by
  constructor <;> decide +kernel

end NJ
