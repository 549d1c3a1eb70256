import Verif.PropsLocal
import Verif.PropsNamesSamples

/-!
# C85: an example, and sections that look unrelated but are not
-/

namespace NJ

/-- the example: the configuration of C70, and one with another name, other packages and other files -/
def elsewhereSample : VDict :=
  [("files", .list [.dict [("path", .str "/etc/banner"), ("mode", .str "0644"), ("contents", .str "other")]]), ("general", .dict [("hostname", .str "other")])] ++
    (namesSample.filter fun p => p.1 = "openvpn") ++ [("ntp", .dict [("enabled", .bool false)])]

theorem elsewhere_agree : AgreeOn (sectionsOf "openvpn") namesSample elsewhereSample := by
  unfold AgreeOn
  decide +kernel

theorem elsewhere_archived : Archived elsewhereSample ["etc/config/system", "etc/config/openvpn", "etc/banner", "etc/x509/tun0_tls_auth.key"] := by
  decide +kernel

theorem noBlank_of {c : VDict} (h : c.all (fun p => !(' ' ∈ p.1.toList)) = true) : NoBlankNames c := by
  intro k l hl _ hm
  have := List.all_eq_true.1 h _ hl
  simp [hm] at this

theorem clean_of {c : VDict} (h : cleanB (fun c => c != '\n') c = true) : CleanConfig NoBreak c :=
  cleanB_sound (f := fun c => c != '\n') (fun c hc e => by subst e; exact absurd hc (by decide)) h

/-- the hypotheses of C85 are met, the two archives being made (`names_sample_archived`, `elsewhere_archived`) -/
example (st st' : BState) (ms ms' : List Member) (h1 : generate (validClass true) ⟨namesSample, none⟩ = (st, .ok ms))
    (h2 : generate (validClass true) ⟨elsewhereSample, none⟩ = (st', .ok ms')) :
    ∃ ps fs ps' fs', ms = ps ++ fs ∧ ms' = ps' ++ fs' ∧ processFiles st.config = .ok fs ∧ processFiles st'.config = .ok fs' ∧
      (∀ m ∈ ps, m.name = packageFile "openvpn" → ∃ m' ∈ ps', m'.name = packageFile "openvpn" ∧ SameButEnd m m') ∧
      ∀ m' ∈ ps', m'.name = packageFile "openvpn" → ∃ m ∈ ps, m.name = packageFile "openvpn" ∧ SameButEnd m m' :=
  C85_file valid_env_wide "openvpn" names_sample_clean (clean_of (by decide +kernel)) (noBlank_of (by decide +kernel)) (noBlank_of (by decide +kernel))
    (by decide +kernel) (by decide +kernel) elsewhere_agree h1 h2

/-- a bridge with a Wi-Fi interface, and routes -/
def routedSample (routes : List Val) : VDict :=
  [("interfaces", .list [
      .dict [("name", .str "lan"), ("type", .str "bridge"), ("bridge_members", .list [.str "eth1", .str "wlan0"])],
      .dict [("name", .str "wlan0"), ("type", .str "wireless"), ("wireless", .dict [("radio", .str "radio0"), ("mode", .str "access_point"), ("ssid", .str "x")])]]),
   ("routes", .list routes)]

/-- a route with a name -/
def namedRoute (name : String) : Val :=
  .dict [("name", .str name), ("type", .str "unicast"), ("device", .str "eth0"), ("destination", .str "192.168.3.1/24"), ("next", .str "192.168.2.1"), ("cost", .int 0)]

/-- the types of the sections of the package, and those options of the wireless package that name a network -/
def sectionTypes (config : VDict) : Except PyErr (List (Option Val) × List (Option Val)) :=
  match (render (validClass true) true ⟨config, none⟩) with
  | (_, .error e) => .error e
  | (st, .ok _) => do
    let data ← packagesOf (st.inter.getD [])
    pure ((data.filter (·.1 = "network")).flatMap fun p => p.2.map fun b => Dict.get? b ".type", (data.filter (·.1 = "wireless")).flatMap fun p => p.2.map fun b => Dict.get? b "network")

/-- The wireless package depends on the routes: blocks with the same name are merged, and a route with the name of the device of a bridge turns it into a route, so
that the Wi-Fi interface is in no network. (`validate` accepts all this.) -/
theorem C85_needs_routes :
    sectionTypes (routedSample []) = .ok ([some (.str "device"), some (.str "interface")], [some (.str "lan")]) ∧
    sectionTypes (routedSample [namedRoute "r1"]) = .ok ([some (.str "device"), some (.str "interface"), some (.str "route")], [some (.str "lan")]) ∧
    sectionTypes (routedSample [namedRoute "device_lan"]) = .ok ([some (.str "route"), some (.str "interface")], [some (.str "")]) ∧
    sectionTypes (routedSample [namedRoute "lan"]) = .ok ([some (.str "device"), some (.str "route")], [some (.str "lan")]) := by
  decide +kernel

end NJ
