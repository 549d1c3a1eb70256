import Verif.PropsVpnOrder
import Verif.PropsOrderSample
import Verif.PropsValidVpnSample

/-!
# C89: examples
-/

namespace NJ

instance (c : VDict) : Decidable (TidyOpenvpn c) := by unfold TidyOpenvpn; infer_instance
instance (c : VDict) : Decidable (TidyWireguard c) := by unfold TidyWireguard; infer_instance
instance (c : VDict) : Decidable (TidyZerotier c) := by unfold TidyZerotier; infer_instance

/-- a controller with dictionaries in dictionaries -/
def ztConfig89 : VDict :=
  [("zerotier", .list [.dict [("name", .str "ow"), ("nwid", .str "79vsyvc"), ("dns", .dict [("servers", .list [.str "10.0.0.1"]), ("domain", .str "ow.test")]),
     ("routes", .list [.dict [("via", .str "10.0.0.1"), ("target", .str "10.1.0.0/16")]]), ("private", .bool true)]]),
   ("files", .list [.dict [("path", .str "/etc/x"), ("mode", .str "0644"), ("contents", .str "hello")]])]

theorem vpn_flipped {c : VDict} (h1 : wfB (.dict c) = true) (h2 : wfB (.dict (flippedD c)) = true) (h : Val.jsEq (.dict c) (.dict (flippedD c)) = true) :
    SameJson (.dict c) (.dict (flippedD c)) := (jsEq_iff (wfB_sound _ h1) (wfB_sound _ h2)).1 h

/-- the examples: two tunnels and a file, a tunnel with a peer, a controller, all valid, with all keys in another order -/
theorem C89_samples : (ovpnConfig ≠ flippedD ovpnConfig ∧ TidyOpenvpn ovpnConfig ∧ validate ovpnSample ovpnConfig = .ok ()) ∧
    (wgConfig ≠ flippedD wgConfig ∧ TidyWireguard wgConfig ∧ validate wgSample wgConfig = .ok ()) ∧
    (ztConfig89 ≠ flippedD ztConfig89 ∧ TidyZerotier ztConfig89 ∧ validate ztSample ztConfig89 = .ok ()) := by decide +kernel

example : SameBackend ovpnSample ovpnConfig (flippedD ovpnConfig) :=
  C89_openvpn (vpn_flipped (by decide +kernel) (by decide +kernel) (by decide +kernel)) (wfB_sound _ (by decide +kernel)) (wfB_sound _ (by decide +kernel)) C89_samples.1.2.1

example : SameBackend wgSample wgConfig (flippedD wgConfig) ∧ SameBackend vxSample wgConfig (flippedD wgConfig) :=
  C89_wireguard (vpn_flipped (by decide +kernel) (by decide +kernel) (by decide +kernel)) (wfB_sound _ (by decide +kernel)) (wfB_sound _ (by decide +kernel)) C89_samples.2.1.2.1

example : SameBackend ztSample ztConfig89 (flippedD ztConfig89) :=
  C89_zerotier (vpn_flipped (by decide +kernel) (by decide +kernel) (by decide +kernel)) (wfB_sound _ (by decide +kernel)) (wfB_sound _ (by decide +kernel)) C89_samples.2.2.2.1

/-- the texts are not errors -/
example : (render ovpnSample true ⟨flippedD ovpnConfig, none⟩).2.isOk = true ∧ (render wgSample true ⟨flippedD wgConfig, none⟩).2.isOk = true ∧
    (render ztSample true ⟨flippedD ztConfig89, none⟩).2.isOk = true := by decide +kernel

end NJ
