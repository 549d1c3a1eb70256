import Verif.PropsAutoWg
import Verif.PropsValidVpnSample

/-!
# C93 on tunnels, and why it asks for what it asks
-/

namespace NJ

def autoWgArgs : WgArgs := ⟨some (.str "vpn.org"), some (.str "PUBLICKEY="), some (wgTunnel [("address", .str "10.0.0.1/24")]), some (.int 40842), none,
  some (.str "10.0.0.2"), some (.str "10.0.0.0/24")⟩

theorem autoWgArgs_ok : WgArgsOk autoWgArgs where
  host := fun v h => by cases h; exact ⟨_, rfl⟩
  publicKey := ⟨_, rfl, _, rfl, by decide, by decide, by decide +kernel⟩
  port := fun v h => by cases h; exact ⟨_, rfl, by decide, by decide⟩
  privateKey := fun v h => by cases h
  ipAddress := fun v h => by cases h; exact Or.inr ⟨_, rfl, Or.inr (by decide)⟩
  network := ⟨_, rfl, by decide⟩

def autoVxArgs : VxlanArgs := ⟨some (.int 7), some (.str "10.0.0.1"), none⟩

theorem autoVxArgs_ok : VxlanArgsOk autoVxArgs where
  ip := fun v h => by cases h; exact ⟨_, rfl⟩
  vni := ⟨_, rfl, Or.inr ⟨_, rfl, by decide, by decide⟩⟩
  name := fun d v h => by cases h

/-- the tunnel of the samples of C81 -/
theorem C93_sample : ∃ r, wireguardAutoClient autoWgArgs = .ok r ∧
    validate (openwrtClass sampleEnv (owValidate sampleEnv.ip6) (fun _ => false) (fun _ => none) true) r = .ok () :=
  C93_wireguard sampleEnv (fun _ => false) (fun _ => none) true _ _ autoWgArgs_ok rfl (by decide +kernel)

theorem C93_sample_vxlan : ∃ r, vxlanWireguardAutoClient autoWgArgs autoVxArgs = .ok r ∧
    validate (openwrtClass sampleEnv (owValidate sampleEnv.ip6) (fun _ => false) (fun _ => none) true) r = .ok () :=
  C93_vxlan sampleEnv (fun _ => false) (fun _ => none) true _ _ _ autoWgArgs_ok autoVxArgs_ok rfl (by decide +kernel)

/-- whether OpenWrt accepts what is made -/
def wgOutcome (a : WgArgs) : Except PyErr Unit :=
  wireguardAutoClient a >>= fun r => validate (openwrtClass sampleEnv (owValidate sampleEnv.ip6) (fun _ => false) (fun _ => none) true) r

def vxOutcome (a : WgArgs) (x : VxlanArgs) : Except PyErr Unit :=
  vxlanWireguardAutoClient a x >>= fun r => validate (openwrtClass sampleEnv (owValidate sampleEnv.ip6) (fun _ => false) (fun _ => none) true) r

/-- the defaults of the public key, of the network of the server and of the server are refused -/
theorem C93_needs_args : wgOutcome { autoWgArgs with publicKey := none } = .error .validation ∧
    wgOutcome { autoWgArgs with serverIpNetwork := none } = .error .validation ∧ wgOutcome { autoWgArgs with server := none } = .error .validation := by
  refine ⟨?_, ?_, ?_⟩ <;> decide +kernel

/-- the default VNI, which the VXLAN backend accepts, is refused by OpenWrt -/
theorem C93_needs_vni : vxOutcome autoWgArgs { autoVxArgs with vni := none } = .error .validation ∧
    validate (vxlanReal sampleEnv (fun _ => false) (fun _ => none)) (Dict.set [("wireguard", .list [.dict (wgTunnel [("address", .str "10.0.0.1/24")])])] "vxlan"
      (.list [.dict [("name", .str "vxlan"), ("vni", .int 0)]])) = .ok () := by
  refine ⟨?_, ?_⟩ <;> decide +kernel

end NJ
