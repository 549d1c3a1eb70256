import Verif.PropsValidOwisp
import Verif.PropsValidSample

/-!
# C87: a sample, and what is refused without `ValidationError`
-/

namespace NJ

/-- **C87**, the exception: radios that are no objects are not refused by the schema, but by an `AttributeError` before it is consulted. -/
theorem C87_radios (cls : Class) (config : VDict) (l : List Val) (hl : Dict.get? config "radios" = some (.list l))
    (hx : ∃ v ∈ l, ∀ d, v ≠ .dict d) : (owispValidate cls config).2 = .error .attributeError := by
  have h : (owRadios l).2 = .error .attributeError := by
    clear hl
    induction l with
    | nil => obtain ⟨v, hv, -⟩ := hx; cases hv
    | cons r rs ih =>
      rw [owRadios]
      cases r with
      | dict d =>
        refine ih ?_
        obtain ⟨v, hv, hn⟩ := hx
        rcases List.mem_cons.1 hv with e | hv
        · exact absurd e (hn d)
        · exact ⟨v, hv, hn⟩
      | _ => rfl
  unfold owispValidate owSanitize
  rw [hl]
  dsimp only
  rw [h]

private def o (l : VDict) : Val := .dict l
private def s (x : String) : Val := .str x

/-- a configuration with a VPN of layer 2 and its hook, a bridge with an address, and limits -/
def owispSample : VDict :=
  (validSample.filter fun p => p.1 ≠ "openvpn") ++
  [("openvpn", .list [o [("name", s "tap0"), ("mode", s "p2p"), ("proto", s "udp"), ("dev", s "tap0"), ("dev_type", s "tap"), ("ca", s "ca.pem"),
     ("cert", s "cert.pem"), ("key", s "key.pem"), ("remote", .list [o [("host", s "vpn.example.org"), ("port", .int 1194)]]), ("tls_client", .bool true),
     ("up", s "/tmp/openvpn/up.sh")]]),
   ("tc_options", .list [o [("name", s "tap0"), ("input_bandwidth", .int 2048), ("output_bandwidth", .int 1025)], o [("name", s "eth0")]])]

def owispTest : Class := owispBackend validEnv (fun _ => false) (fun _ => none) false

theorem owispSample_tame : Tame validEnv.ip6 owispSample := by decide +kernel
theorem owispSample_wf : (Val.dict owispSample).WF := wfB_sound _ (by decide +kernel)
theorem owispSample_valid : (owispValidate owispTest owispSample).2 = .ok () := by decide +kernel
/-- the hypotheses of `C87_generate` are met by it -/
example (burst : Int → Int) (e : PyErr) (he : (owGenerate owispTest (owScripts validEnv.reprC burst) ⟨owispSample, none⟩).2 = .error e) :
    e = .validation :=
  C87_generate validEnv _ _ _ _ validEnv_tz owispSample_wf owispSample_valid owispSample_tame burst e he
/-- and the archive is made -/
theorem C87_sample : ((owGenerate owispTest (owScripts validEnv.reprC (fun x => x)) ⟨owispSample, none⟩).2.map fun ms => ms.map fun m => m.name) =
    .ok (["uci/system.conf", "uci/network.conf", "uci/wireless.conf", "uci/openvpn.conf", "uci/zerotier.conf", "uci/luci.conf", "etc/motd",
      "etc/openwisp/zerotier/devicemap", "install.sh", "uninstall.sh", "openvpn/up.sh", "tc_script.sh"].map String.toList) := by
  decide +kernel

end NJ
