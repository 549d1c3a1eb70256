import Verif.PropsAutoRender
import Verif.PropsValidVpnSample

/-!
# C92 on a server, and why it asks for what it asks
-/

namespace NJ

/-- a routed server with a log, a key of its own and certificates -/
def autoServer : VDict :=
  [("name", .str "ab"), ("mode", .str "server"), ("proto", .str "tcp-server"), ("dev", .str "tun0"), ("ca", .str "/etc/x509/ca.pem"), ("cert", .str "c.pem"),
   ("server", .str "10.8.0.0 255.255.255.0"), ("port", .int 1194), ("tls_server", .bool true), ("tls_auth", .str "KEY OF MANY WORDS"),
   ("ns_cert_type", .str "client"), ("log", .str "/var/log/openvpn/vpn.log"), ("script_security", .int 3), ("cipher", .str "AES-128-GCM"),
   ("topology", .str "subnet"), ("keepalive", .str "10 60")]

def autoCa : Val × Val := (.str "/etc/x509/ca2.pem", .str "CA of\nthe client\n")
def autoCert : Val × Val := (.str "/etc/x509/cert.pem", .str "CERT\n")
def autoKey : Val × Val := (.none, .str "unused")

theorem autoServer_valid : validate (openvpnReal sampleEnv (fun _ => false) (fun _ => none)) [("openvpn", .list [.dict autoServer])] = .ok () := by
  decide +kernel

theorem autoHost_ok : HostOk (.str "vpn.org") := ⟨_, rfl, by decide, by decide, by decide +kernel⟩

theorem auto_pairs : PairOk autoCa ∧ PairOk autoCert ∧ PairOk autoKey :=
  ⟨fun _ _ => ⟨_, _, rfl, by decide +kernel, by decide, by decide +kernel⟩, fun _ _ => ⟨_, _, rfl, by decide +kernel, by decide, by decide +kernel⟩,
   fun h => by cases h⟩

theorem auto_distinct : (givenPaths autoCa autoCert autoKey).Nodup := by
  have e : givenPaths autoCa autoCert autoKey = [.str "/etc/x509/ca2.pem", .str "/etc/x509/cert.pem"] := by decide +kernel
  rw [e]
  simp

/-- the client of the sample is valid for both backends -/
theorem C92_sample : ∃ r, vpnAutoClient (.str "vpn.org") autoServer autoCa autoCert autoKey = .ok r ∧
    validate (openvpnReal sampleEnv (fun _ => false) (fun _ => none)) r = .ok () ∧
    validate (openwrtClass sampleEnv (owValidate sampleEnv.ip6) (fun _ => false) (fun _ => none) true) r = .ok () :=
  C92_auto_client sampleEnv (fun _ => false) (fun _ => none) true _ _ _ _ _ autoServer_valid (by decide) autoHost_ok
    auto_pairs.1 auto_pairs.2.1 auto_pairs.2.2 auto_distinct

/-- and rendered -/
theorem C92_sample_renders : ∃ r, vpnAutoClient (.str "vpn.org") autoServer autoCa autoCert autoKey = .ok r ∧
    (∀ files, ∃ t, (render (openvpnReal sampleEnv (fun _ => false) (fun _ => none)) files ⟨r, none⟩).2 = .ok t) ∧
    ∃ ms, (generate (openvpnReal sampleEnv (fun _ => false) (fun _ => none)) ⟨r, none⟩).2 = .ok ms :=
  C92_renders sampleEnv (fun _ => false) (fun _ => none) _ _ _ _ _ (wf_of (n := 9) (by decide +kernel)) autoServer_valid (by decide) autoHost_ok
    auto_pairs.1 auto_pairs.2.1 auto_pairs.2.2 auto_distinct (by
      intro pc h
      simp only [List.mem_cons, List.not_mem_nil, or_false] at h
      rcases h with rfl | rfl | rfl <;> constructor <;> constructor)

/-- whether the client is accepted -/
def autoOutcome (host : Val) (server : VDict) (ca cert key : Val × Val) : Except PyErr Unit :=
  vpnAutoClient host server ca cert key >>= fun r => validate (openvpnReal sampleEnv (fun _ => false) (fun _ => none)) r

/-- the same file twice is refused -/
theorem C92_needs_distinct : autoOutcome (.str "vpn.org") autoServer autoCa autoCa autoKey = .error .validation := by decide +kernel

/-- a host that is no host name is refused -/
theorem C92_needs_host : autoOutcome (.str "my_vpn") autoServer autoCa autoCert autoKey = .error .validation := by decide +kernel

/-- so is a path with white space -/
theorem C92_needs_path : autoOutcome (.str "vpn.org") autoServer (.str "/etc/my ca.pem", .str "CA") autoCert autoKey = .error .validation := by decide +kernel

/-- a server that asks for another certificate type is not valid, and `auto_client` raises -/
theorem C92_needs_valid : autoOutcome (.str "vpn.org") (Dict.set autoServer "ns_cert_type" (.str "server")) autoCa autoCert autoKey = .error .keyError := by
  decide +kernel

end NJ
