import Verif.PropsVpnMore

/-!
# OpenVPN: cases, and where the round trip stops
-/

namespace NJ

/-- the OpenVPN class with a schema that accepts everything -/
def anyVpnClass : Class := openvpnClass sampleEnv (fun _ => .ok ()) (fun _ => false) (fun _ => none)

/-- render, then parse the text -/
def vpnThere (config : VDict) : Except PyErr VDict :=
  match render anyVpnClass false ⟨config, none⟩ with
  | (_, .error e) => .error e
  | (_, .ok t) => do
    let st ← parse anyVpnClass t
    pure st.config

def sampleVpn : VDict :=
  [("name", .str "test"), ("mode", .str "server"), ("proto", .str "udp"), ("port", .int 1195), ("tls_server", .bool true), ("nobind", .bool false),
   ("server_bridge", .str ""), ("script_security", .int 0), ("fragment", .int 0), ("status", .str "/var/status 10"), ("status_version", .int 2),
   ("user", .str ""), ("tls_auth", .str "/etc/x509/ta.key 0"),
   ("data_ciphers", .list [.dict [("cipher", .str "AES-128-GCM"), ("optional", .bool false)], .dict [("cipher", .str "BF-CBC"), ("optional", .bool true)]])]

theorem vpnText_of {s : Chars} {c d : Char} (h1 : s.head? = some c) (h2 : isSpace c = false) (h3 : s.getLast? = some d) (h4 : isSpace d = false)
    (h5 : '\n' ∉ s) (h6 : ¬ [' ', ' ', ' ', ' '] <:+: s) : VpnText s := ⟨⟨c, d, h1, h2, h3, h4⟩, h5, h6⟩

theorem sampleVpn_ok : VpnOK sampleVpn := by
  refine ⟨by decide +kernel, ⟨"test", rfl, vpnText_of rfl (by decide) rfl (by decide) (by decide) (by decide +kernel)⟩, rfl, ?_⟩
  intro k v h hn
  have hm := Dict.mem_of_get? h
  simp only [sampleVpn, List.mem_cons, List.not_mem_nil, or_false, Prod.mk.injEq] at hm
  have hkey : ∀ k ∈ Dict.keys sampleVpn, VpnKey k := by
    have : ∀ k ∈ Dict.keys sampleVpn, k ≠ "" ∧ (∀ c ∈ k.toList, isSpace c = false ∧ c ≠ '-') ∧ k.toList.head? ≠ some '#' := by decide +kernel
    exact this
  refine ⟨hkey k (Dict.mem_keys (Dict.mem_of_get? h)), ?_⟩
  rcases hm with ⟨rfl, rfl⟩ | ⟨rfl, rfl⟩ | ⟨rfl, rfl⟩ | ⟨rfl, rfl⟩ | ⟨rfl, rfl⟩ | ⟨rfl, rfl⟩ | ⟨rfl, rfl⟩ | ⟨rfl, rfl⟩ | ⟨rfl, rfl⟩ | ⟨rfl, rfl⟩ | ⟨rfl, rfl⟩ | ⟨rfl, rfl⟩ | ⟨rfl, rfl⟩ | ⟨rfl, rfl⟩
  · exact absurd rfl hn
  · exact .inr (.inr ⟨"server", rfl, vpnText_of rfl (by decide) rfl (by decide) (by decide) (by decide +kernel)⟩)
  · exact .inr (.inr ⟨"udp", rfl, vpnText_of rfl (by decide) rfl (by decide) (by decide) (by decide +kernel)⟩)
  · exact .inr ⟨1195, rfl⟩
  · exact .inr rfl
  · exact .inl ⟨by decide, .inl rfl⟩
  · exact .inr ⟨"", rfl, .inl rfl⟩
  · exact .inr ⟨0, rfl⟩
  · exact .inl ⟨by decide, .inr (.inl rfl)⟩
  · exact .inr (.inr ⟨"/var/status 10", rfl, vpnText_of rfl (by decide) rfl (by decide) (by decide +kernel) (by decide +kernel)⟩)
  · exact .inr ⟨2, rfl⟩
  · exact .inl ⟨by decide, .inr (.inr rfl)⟩
  · exact .inr ⟨"/etc/x509/ta.key 0", rfl, vpnText_of rfl (by decide) rfl (by decide) (by decide +kernel) (by decide +kernel), by decide +kernel⟩
  · refine .inr ⟨_, rfl, by simp, ?_⟩
    intro x hx
    simp only [List.mem_cons, List.not_mem_nil, or_false] at hx
    rcases hx with rfl | rfl
    · exact ⟨_, "AES-128-GCM", false, rfl, fun _ => rfl, by decide, by decide +kernel, by decide +kernel⟩
    · exact ⟨_, "BF-CBC", true, rfl, fun _ => rfl, by decide, by decide +kernel, by decide +kernel⟩

/-- the sample meets the hypotheses of `C57_round_trip`, and this is what comes back -/
example : ∃ st text inter outs, render anyVpnClass false ⟨[("openvpn", .list [.dict sampleVpn])], none⟩ = (st, .ok text) ∧
    st.config = [("openvpn", .list [.dict sampleVpn])] ∧ List.Forall₂ VpnSame outs [sampleVpn] ∧
      parse anyVpnClass text = (do
        validate anyVpnClass [("openvpn", .list (outs.map .dict))]
        pure ⟨[("openvpn", .list (outs.map .dict))], some inter⟩) :=
  C57_round_trip sampleEnv _ _ _ _ _ [sampleVpn] (by simp) rfl (by simpa using sampleVpn_ok) rfl rfl

example : vpnThere [("openvpn", .list [.dict sampleVpn])] = .ok [("openvpn", .list [.dict
    [("data_ciphers", .list [.dict [("cipher", .str "AES-128-GCM"), ("optional", .bool false)], .dict [("cipher", .str "BF-CBC"), ("optional", .bool true)]]),
     ("mode", .str "server"), ("name", .str "test"), ("port", .int 1195), ("proto", .str "udp"), ("script_security", .int 0), ("server_bridge", .str ""),
     ("status", .str "/var/status 10"), ("status_version", .int 2), ("tls_auth", .str "/etc/x509/ta.key 0"), ("tls_server", .bool true)]])] := by decide +kernel

/-- **C57, limit.** A client configuration, which has `remote`, is rendered but the text cannot be parsed: IndexError. -/
theorem C57_needs_no_remote : vpnThere [("openvpn", .list [.dict [("name", .str "test"), ("mode", .str "p2p"), ("tls_client", .bool true),
    ("remote", .list [.dict [("host", .str "vpn.com"), ("port", .int 1195)]])]])] = .error .indexError := by decide +kernel

/-- **C57, limit.** A cipher without name is rendered but the text cannot be parsed: AttributeError. -/
theorem C57_needs_cipher_name : vpnThere [("openvpn", .list [.dict [("name", .str "test"),
    ("data_ciphers", .list [.dict [("cipher", .str ""), ("optional", .bool false)]])]])] = .error .attributeError := by decide +kernel

/-- **C57, limit.** A line break in a value makes another option of the rest. -/
theorem C57_needs_one_line : vpnThere [("openvpn", .list [.dict [("name", .str "test"), ("user", .str "nobody\nup /tmp/run.sh")]])] =
    .ok [("openvpn", .list [.dict [("name", .str "test"), ("up", .str "/tmp/run.sh"), ("user", .str "nobody")]])] := by decide +kernel

/-- **C57, limit.** Four blanks in a row are removed. -/
theorem C57_needs_no_blanks : vpnThere [("openvpn", .list [.dict [("name", .str "test"), ("up", .str "/tmp/run.sh a    b")]])] =
    .ok [("openvpn", .list [.dict [("name", .str "test"), ("up", .str "/tmp/run.sh ab")]])] := by decide +kernel

/-- **C60.** Two VPNs with the same device name and CA directory share the file of the key: only the later key is left, and
the first VPN uses it. -/
theorem C60_needs_distinct_paths : (match generate anyVpnClass ⟨[("openvpn", .list [
      .dict [("name", .str "a"), ("dev", .str "tun0"), ("ca", .str "/etc/x509/ca1.pem"), ("tls_auth", .str "KEY1"), ("mode", .str "server")],
      .dict [("name", .str "b"), ("dev", .str "tun0"), ("ca", .str "/etc/x509/ca2.pem"), ("tls_auth", .str "KEY2")]])], none⟩ with
    | (_, .ok ms) => ms.map (fun m => (String.ofList m.name, m.data, m.mode))
    | _ => []) =
  [("a.conf", "ca /etc/x509/ca1.pem\ndev tun0\nmode server\ntls-auth /etc/x509/tun0_tls_auth.key 0\n".toUTF8.data.toList, 420),
   ("b.conf", "ca /etc/x509/ca2.pem\ndev tun0\ntls-auth /etc/x509/tun0_tls_auth.key 1\n".toUTF8.data.toList, 420),
   ("etc/x509/tun0_tls_auth.key", "KEY2".toUTF8.data.toList, 384)] := by decide +kernel

/-- the sample key meets the hypotheses of `C60_inline` -/
example : ∃ path, some [("path", txt "/etc/x509/tun0_tls_auth.key".toList), ("mode", .str "0600"), ("contents", .str "KEY1")] =
      some [("path", txt path), ("mode", .str "0600"), ("contents", txt (strip "KEY1".toList))] ∧
    Dict.get? [("ca", .str "/etc/x509/ca1.pem"), ("dev", .str "tun0"), ("mode", .str "server"), ("name", .str "a"),
      ("tls_auth", .str "/etc/x509/tun0_tls_auth.key 0")] "tls_auth" = some (txt (path ++ " 0".toList)) := by
  obtain ⟨path, h1, h2, h3, _⟩ := C60_inline sampleEnv
    [("name", .str "a"), ("dev", .str "tun0"), ("ca", .str "/etc/x509/ca1.pem"), ("tls_auth", .str "KEY1"), ("mode", .str "server")]
    [("ca", .str "/etc/x509/ca1.pem"), ("dev", .str "tun0"), ("mode", .str "server"), ("name", .str "a"), ("tls_auth", .str "/etc/x509/tun0_tls_auth.key 0")]
    (some [("path", txt "/etc/x509/tun0_tls_auth.key".toList), ("mode", .str "0600"), ("contents", .str "KEY1")]) (by decide +kernel) (by decide +kernel)
    "KEY1" rfl (by decide) (by decide +kernel) "tun0" rfl
  exact ⟨path, h1, h2⟩

def sampleServer : VDict :=
  [("name", .str "srv"), ("mode", .str "server"), ("proto", .str "tcp-server"), ("port", .int 1194), ("tls_server", .bool true), ("server", .str "10.8.0.0 255.255.0.0"),
   ("ns_cert_type", .str "client"), ("remote_cert_tls", .str ""), ("script_security", .int 3), ("log", .str "/var/log/openvpn/tun0.log"), ("ca", .str "old"),
   ("tls_auth", .str "KEY"), ("dh", .str "dh.pem"), ("verb", .int 3)]

example : ∃ r, vpnAutoClient (.str "vpn.com") sampleServer (.str "/ca.pem", .str "CA") (.str "/cert.pem", .none) (.none, .none) = .ok r :=
  C61_returns _ _ _ _ _ (by rintro k (rfl | rfl) <;> decide +kernel) (by
    rintro k (rfl | rfl) v h
    · cases h; exact ⟨_, rfl⟩
    · cases h; exact ⟨_, rfl⟩)

example : vpnAutoClient (.str "vpn.com") sampleServer (.str "/ca.pem", .str "CA") (.str "/cert.pem", .none) (.none, .none) =
  .ok [("openvpn", .list [.dict [("mode", .str "p2p"), ("nobind", .bool true), ("resolv_retry", .str "infinite"), ("tls_client", .bool true),
    ("remote", .list [.dict [("host", .str "vpn.com"), ("port", .int 1194)]]), ("proto", .str "tcp-client"), ("pull", .bool true), ("ns_cert_type", .str "server"),
    ("remote_cert_tls", .str ""), ("tls_auth", .str "KEY"), ("name", .str "srv"), ("ca", .str "/ca.pem"), ("verb", .int 3), ("script_security", .int 2),
    ("log", .str "/var/log/tun0.log")]]), ("files", .list [.dict [("path", .str "/ca.pem"), ("contents", .str "CA"), ("mode", .str "0600")]])] := by decide +kernel

/-- **C61, limit.** A server that asks for another certificate type ("server") makes `auto_client` fail: KeyError. -/
theorem C61_needs_cert_type : vpnAutoClient (.str "h") [("ns_cert_type", .str "server")] (.none, .none) (.none, .none) (.none, .none) = .error .keyError := by
  decide +kernel

end NJ
