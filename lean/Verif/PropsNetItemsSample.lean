import Verif.PropsNetItems
import Verif.PropsValidNeeds
import Verif.PropsSchema

/-!
# C100: an example, and why the names must differ
-/

namespace NJ

/-- a route -/
def netRoute (extra : VDict) : VDict :=
  [("type", .str "unicast"), ("device", .str "eth0"), ("destination", .str "192.168.3.1/24"), ("next", .str "192.168.2.1"), ("cost", .int 0)] ++ extra

/-- the example: something of everything -/
def netItemsSample : VDict :=
  [("general", .dict [("ula_prefix", .str "fd8e:f40a:6701::/48")]),
   ("interfaces", .list [
      .dict [("name", .str "eth0"), ("type", .str "ethernet"), ("addresses", .list [
        .dict [("proto", .str "static"), ("family", .str "ipv4"), ("address", .str "192.168.1.1"), ("mask", .int 24)]])]]),
   ("routes", .list [.dict (netRoute [])]),
   ("ip_rules", .list [.dict [("in", .str "eth0"), ("src", .str "192.168.1.0/24")]]),
   ("switch", .list [.dict [("name", .str "switch0"), ("reset", .bool true), ("enable_vlan", .bool true), ("vlan", .list [
      .dict [("device", .str "switch0"), ("vlan", .int 1), ("ports", .str "0t 2")]])]]),
   ("wireguard_peers", .list [.dict [("interface", .str "wg0"), ("public_key", .str "94a+MnZSdzHCzOy5y2K+0+Xe7lQzaa4v7lEiBZ7elVE="), ("allowed_ips", .list [.str "10.0.0.1/32"])]])]

theorem net_sample_wf : (Val.dict netItemsSample).WF := wf_of (n := 8) (by decide +kernel)

/-- the names and types of the sections of the network package -/
def netSections (config : VDict) : Option (List (Option Val × Option Val)) :=
  (toIntermediate (validClass true) ⟨config, none⟩).1.inter.map fun (j : VDict) => match Dict.get? j "network" with
    | some (Val.list l) => l.map fun v => match v with
      | Val.dict b => (Dict.get? b ".name", Dict.get? b ".type")
      | _ => (none, none)
    | _ => []

/-- what the intermediate form holds for the example -/
theorem net_sample_made : (toIntermediate (validClass true) ⟨netItemsSample, none⟩).2 = .ok () ∧ netSections netItemsSample = some [
    (some (.str "globals"), some (.str "globals")), (some (.str "eth0"), some (.str "interface")),
    (some (.str "route1"), some (.str "route")), (some (.str "rule1"), some (.str "rule")), (some (.str "switch0"), some (.str "switch")),
    (some (.str "switch0_vlan1"), some (.str "switch_vlan")), (some (.str "wgpeer_wg0"), some (.str "wireguard_wg0"))] := by
  decide +kernel

/-- the hypotheses of C100 are met -/
example : ∃ (st : BState) (j : VDict) (gs : List VDict) (outs : List (List VDict × List VDict)) (rts rls : List VDict) (sws : List (List VDict)) (prs : List VDict),
    toIntermediate (validClass true) ⟨netItemsSample, none⟩ = (st, .ok ()) ∧ st.inter = some j ∧ GlobalsSays netItemsSample gs ∧
    Forall2Idx (RouteSays validEnv) 1 (objectsAt netItemsSample "routes") rts ∧
    (DistinctNames (gs ++ outs.flatMap (fun o => o.1 ++ o.2) ++ rts ++ rls ++ sws.flatten ++ prs) →
      Dict.get? j "network" = stored (gs ++ outs.flatMap (fun o => o.1 ++ o.2) ++ rts ++ rls ++ sws.flatten ++ prs)) := by
  obtain ⟨h1, h2⟩ := net_sample_made
  have e : toIntermediate (validClass true) ⟨netItemsSample, none⟩ = ((toIntermediate (validClass true) ⟨netItemsSample, none⟩).1, .ok ()) := by
    rw [← h1]
  obtain ⟨j, hj⟩ : ∃ j, (toIntermediate (validClass true) ⟨netItemsSample, none⟩).1.inter = some j := by
    unfold netSections at h2
    cases hh : (toIntermediate (validClass true) ⟨netItemsSample, none⟩).1.inter with
    | none => rw [hh] at h2; cases h2
    | some j => exact ⟨j, rfl⟩
  obtain ⟨gs, outs, rts, rls, sws, prs, r1, _, r3, _, _, _, r7⟩ := C100_network validEnv validEnv.ip6 (fun _ => false) (fun _ => Option.none) true netItemsSample net_sample_wf
    (by decide +kernel) (by
      have hl : objectsAt netItemsSample "interfaces" = [
          [("name", .str "eth0"), ("type", .str "ethernet"), ("addresses", .list [
            .dict [("proto", .str "static"), ("family", .str "ipv4"), ("address", .str "192.168.1.1"), ("mask", .int 24)]])]] := by
        decide +kernel
      rw [hl]
      intro b hb
      simp only [List.mem_cons, List.not_mem_nil, or_false] at hb
      subst hb
      refine ⟨?_, by intro v hv; cases hv⟩
      intro a ha
      have : a = [("proto", .str "static"), ("family", .str "ipv4"), ("address", .str "192.168.1.1"), ("mask", .int 24)] := by simpa [addressList, Dict.get?, asDict?] using ha
      subst this
      decide) e hj
  exact ⟨_, j, gs, outs, rts, rls, sws, prs, e, hj, r1, r3, r7⟩

/-- Two sections of the same name become one: a route called like an interface takes its place. (`validate` accepts this.) -/
theorem C100_needs_names :
    validate (validClass true) [("interfaces", .list [.dict [("name", .str "eth0"), ("type", .str "ethernet")]]), ("routes", .list [.dict (netRoute [("name", .str "eth0")])])] = .ok () ∧
    netSections [("interfaces", .list [.dict [("name", .str "eth0"), ("type", .str "ethernet")]]), ("routes", .list [.dict (netRoute [("name", .str "eth0")])])] =
      some [(some (.str "eth0"), some (.str "route"))] := by
  decide +kernel

end NJ
