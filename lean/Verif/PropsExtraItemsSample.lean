import Verif.PropsExtraItems
import Verif.PropsValidNeeds
import Verif.PropsSchema

/-!
# C102, C103, C104: an example
-/

namespace NJ

/-- the example: an OpenVPN client, a ZeroTier VPN with a network and an additional package with two objects that have a type and one that has none -/
def extraItemsSample : VDict :=
  [("openvpn", .list [.dict [("name", .str "test-vpn"), ("ca", .str "/etc/ca.pem"), ("cert", .str "/etc/cert.pem"), ("key", .str "/etc/key.pem"), ("mode", .str "p2p"),
      ("proto", .str "udp"), ("dev", .str "tun0"), ("dev_type", .str "tun"), ("tls_client", .bool true), ("fragment", .int 0), ("nobind", .bool true),
      ("tls_auth", .str "the key"), ("remote", .list [.dict [("host", .str "vpn.test"), ("port", .int 1194)]])]]),
   ("zerotier", .list [.dict [("name", .str "ow"), ("networks", .list [.dict [("id", .str "9536600adf654322"), ("ifname", .str "owzt654322")]])]]),
   ("dhcp", .list [.dict [("config_name", .str "dnsmasq"), ("authoritative", .bool true)], .dict [("option", .str "lost")],
      .dict [("config_name", .str "dhcp"), ("config_value", .str "lan"), ("start", .int 100)]])]

theorem extra_sample_wf : (Val.dict extraItemsSample).WF := wf_of (n := 8) (by decide +kernel)

/-- the names and types of the sections of a package -/
def extraSections (p : String) (config : VDict) : Option (List (Option Val × Option Val)) :=
  (toIntermediate (validClass true) ⟨config, none⟩).1.inter.map fun (j : VDict) => match Dict.get? j p with
    | some (Val.list l) => l.map fun v => match v with
      | Val.dict b => (Dict.get? b ".name", Dict.get? b ".type")
      | _ => (none, none)
    | _ => []

/-- what the intermediate form holds for the example -/
theorem extra_sample_made : validate (validClass true) extraItemsSample = .ok () ∧ (toIntermediate (validClass true) ⟨extraItemsSample, none⟩).2 = .ok () ∧
    extraSections "openvpn" extraItemsSample = some [(some (.str "test_vpn"), some (.str "openvpn"))] ∧
    extraSections "zerotier" extraItemsSample = some [(some (.str "ow"), some (.str "zerotier")), (some (.str "owzt654322"), some (.str "network"))] ∧
    extraSections "dhcp" extraItemsSample = some [(some (.str "dnsmasq_1"), some (.str "dnsmasq")), (some (.str "lan"), some (.str "dhcp"))] ∧
    extraSections "interfaces" extraItemsSample = some [] := by
  decide +kernel

/-- the hypotheses of C102, C103 and C104 are met -/
example : ∃ (st : BState) (j : VDict) (vs : List VDict) (gs : List (List VDict)) (bs : List VDict),
    toIntermediate (validClass true) ⟨extraItemsSample, none⟩ = (st, .ok ()) ∧ st.inter = some j ∧
    List.Forall₂ (VpnSays validEnv) (objectsAt extraItemsSample "openvpn") vs ∧ Dict.get? j "openvpn" = stored vs ∧
    List.Forall₂ ZtGroup (objectsAt extraItemsSample "zerotier") gs ∧ Dict.get? j "zerotier" = stored gs.flatten ∧
    Forall2Idx (ListedSays validEnv) 1 [[("config_name", .str "dnsmasq"), ("authoritative", .bool true)],
      [("config_name", .str "dhcp"), ("config_value", .str "lan"), ("start", .int 100)]] bs ∧ Dict.get? j "dhcp" = stored bs ∧
    Dict.get? j "interfaces" = none := by
  obtain ⟨_, h1, h2, _⟩ := extra_sample_made
  have e : toIntermediate (validClass true) ⟨extraItemsSample, none⟩ = ((toIntermediate (validClass true) ⟨extraItemsSample, none⟩).1, .ok ()) := by
    rw [← h1]
  obtain ⟨j, hj⟩ : ∃ j, (toIntermediate (validClass true) ⟨extraItemsSample, none⟩).1.inter = some j := by
    unfold extraSections at h2
    cases hh : (toIntermediate (validClass true) ⟨extraItemsSample, none⟩).1.inter with
    | none => rw [hh] at h2; cases h2
    | some j => exact ⟨j, rfl⟩
  obtain ⟨vs, v1, v2⟩ := C102_openvpn validEnv validEnv.ip6 (fun _ => false) (fun _ => Option.none) true extraItemsSample extra_sample_wf e hj
  obtain ⟨gs, z1, z2⟩ := C103_zerotier validEnv validEnv.ip6 (fun _ => false) (fun _ => Option.none) true extraItemsSample extra_sample_wf e hj
  obtain ⟨_, p2⟩ := C104_packages validEnv validEnv.ip6 (fun _ => false) (fun _ => Option.none) true extraItemsSample extra_sample_wf e hj (p := "dhcp") (by decide)
  obtain ⟨p1, _⟩ := C104_packages validEnv validEnv.ip6 (fun _ => false) (fun _ => Option.none) true extraItemsSample extra_sample_wf e hj (p := "interfaces") (by decide)
  obtain ⟨bs, b1, b2⟩ := (p2 (by decide)).1 _ rfl
  exact ⟨_, j, vs, gs, bs, e, hj, v1, v2, z1, z2, b1, b2, p1 (by decide)⟩

end NJ
