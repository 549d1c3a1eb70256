import Verif.PropsValidVpn
import Verif.PropsSchema
import Verif.PropsConv

/-!
# C81: examples, and what the schemas let through
-/

namespace NJ

private def o (l : VDict) : Val := .dict l
private def l (l : List Val) : Val := .list l
private def s (x : String) : Val := .str x

abbrev ovpnSample : Class := openvpnReal sampleEnv (fun _ => false) (fun _ => none)
abbrev wgSample : Class := wireguardReal sampleEnv (fun _ => false) (fun _ => none)
abbrev vxSample : Class := vxlanReal sampleEnv (fun _ => false) (fun _ => none)
abbrev ztSample : Class := zerotierReal sampleEnv (fun _ => false)

def ovpnServer (more : VDict) : VDict :=
  [("name", s "ab"), ("mode", s "server"), ("proto", s "udp"), ("dev", s "tun0"), ("dev_type", s "tun"), ("ca", s "/etc/x509/ca.pem"), ("cert", s "c.pem"), ("key", s "k.pem"),
   ("dh", s "dh.pem"), ("tls_server", .bool true), ("tls_auth", s "SECRET KEY OF MANY WORDS"), ("data_ciphers", l [o [("cipher", s "AES-128-GCM"), ("optional", .bool true)]])] ++ more

def ovpnClient : VDict :=
  [("name", s "client"), ("mode", s "p2p"), ("proto", s "tcp-client"), ("dev", s "tun1"), ("dev_type", s "tun"), ("tls_client", .bool true),
   ("remote", l [o [("host", s "vpn.org"), ("port", .int 1195)]]), ("ca", s "ca.pem"), ("cert", s "c.pem"), ("key", s "k.pem"), ("nobind", .bool true)]

def ovpnConfig : VDict :=
  [("openvpn", l [o (ovpnServer []), o ovpnClient]), ("files", l [o [("path", s "/etc/x"), ("mode", s "755\n"), ("contents", s "hello")]])]

def wgTunnel (more : VDict) : VDict :=
  [("name", s "wg0"), ("port", .int 51820), ("private_key", s "QFdbnuYr7rrF4eONCAs7FhZwP7BXX/jD/jq2LXCpaXI="), ("dns", l [s "10.0.0.1", s "10.0.0.2"]),
   ("peers", l [o [("public_key", s "QFdbnuYr7rrF4eONCAs7FhZwP7BXX/jD/jq2LXCpaXI="), ("allowed_ips", s "10.0.0.2/32"), ("endpoint_host", s "wg.org"), ("endpoint_port", .int 51820)]])] ++ more

def wgConfig : VDict := [("wireguard", l [o (wgTunnel [("address", s "10.0.0.1/24")])])]
def vxConfig : VDict := Dict.set wgConfig "vxlan" (l [o [("name", s "vxlan"), ("vni", .int 1)]])
def ztConfig81 : VDict := [("zerotier", l [o [("name", s "ow"), ("nwid", s "79vsyvc"), ("private", .bool true), ("client_options", o [])]])]

/-- the statement of `Each` for a decidable property -/
theorem each_of {d : VDict} {k : String} {P : VDict → Prop} [DecidablePred P]
    (h : (match Dict.get? d k with
      | some (.list l) => l.all (fun v => match v with | .dict x => decide (P x) | _ => true)
      | _ => true) = true) : Each d k P := by
  intro l x hl hx
  rw [hl] at h
  have := List.all_eq_true.1 h _ hx
  exact of_decide_eq_true this

/-- two tunnels, one of them a server with a key of its own, and a file whose mode ends in a line break -/
example : (∀ files, ∃ t, (render ovpnSample files ⟨ovpnConfig, none⟩).2 = .ok t) ∧ ∃ ms, (generate ovpnSample ⟨ovpnConfig, none⟩).2 = .ok ms :=
  C81_openvpn _ _ _ _ (wf_of (n := 9) (by decide +kernel)) (by decide +kernel) (each_of (by decide +kernel))

example : (∀ files, ∃ t, (render wgSample files ⟨wgConfig, none⟩).2 = .ok t) ∧ ∃ ms, (generate wgSample ⟨wgConfig, none⟩).2 = .ok ms :=
  C81_wireguard _ _ _ _ (wf_of (n := 9) (by decide +kernel)) (by decide +kernel) (each_of (by decide +kernel))

example : (∀ files, ∃ t, (render vxSample files ⟨vxConfig, none⟩).2 = .ok t) ∧ ∃ ms, (generate vxSample ⟨vxConfig, none⟩).2 = .ok ms :=
  C81_vxlan _ _ _ _ (wf_of (n := 9) (by decide +kernel)) (by decide +kernel) (each_of (by decide +kernel))

example : (∀ files, ∃ t, (render ztSample files ⟨ztConfig81, none⟩).2 = .ok t) ∧ ∃ ms, (generate ztSample ⟨ztConfig81, none⟩).2 = .ok ms :=
  C81_zerotier _ _ _ (wf_of (n := 9) (by decide +kernel)) (by decide +kernel)

/-- the texts are what one expects -/
example : (render wgSample true ⟨wgConfig, none⟩).2.map String.ofList = .ok
    "# wireguard config: wg0\n\n[Interface]\nAddress = 10.0.0.1/24\nDNS = 10.0.0.1,10.0.0.2\nListenPort = 51820\nPrivateKey = QFdbnuYr7rrF4eONCAs7FhZwP7BXX/jD/jq2LXCpaXI=\n\n[Peer]\nAllowedIPs = 10.0.0.2/32\nEndpoint = wg.org:51820\nPublicKey = QFdbnuYr7rrF4eONCAs7FhZwP7BXX/jD/jq2LXCpaXI=\n" := by
  decide +kernel

/-- A server with a remote: the schema describes remotes of clients only. `validate` accepts it, `render` raises `KeyError`. -/
theorem C81_needs_remote : validate ovpnSample [("openvpn", l [o (ovpnServer [("remote", l [o []])])])] = .ok () ∧
    (render ovpnSample true ⟨[("openvpn", l [o (ovpnServer [("remote", l [o []])])])], none⟩).2 = .error .keyError := by
  constructor <;> decide +kernel

/-- A tunnel without address: `validate` accepts it, `render` raises `KeyError`, for WireGuard and for VXLAN. -/
theorem C81_needs_address : validate wgSample [("wireguard", l [o (wgTunnel [])])] = .ok () ∧
    (render wgSample true ⟨[("wireguard", l [o (wgTunnel [])])], none⟩).2 = .error .keyError ∧
    validate vxSample [("wireguard", l [o (wgTunnel [])])] = .ok () ∧
    (render vxSample true ⟨[("wireguard", l [o (wgTunnel [])])], none⟩).2 = .error .keyError := by
  refine ⟨?_, ?_, ?_, ?_⟩ <;> decide +kernel

end NJ
