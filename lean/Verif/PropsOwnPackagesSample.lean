import Verif.PropsOwnPackages
import Verif.PropsValidNeeds
import Verif.PropsSchema

/-!
# C105: an example
-/

namespace NJ

/-- a section the configuration lists itself -/
def ownSection (type name : String) : Val := .dict [("config_name", .str type), ("config_value", .str name), ("x", .int 1)]

/-- the example: a route, a LED and a radio, and additional sections for the same packages -/
def ownSample (extra : String) : VDict :=
  [("routes", .list [.dict [("type", .str "unicast"), ("device", .str "eth0"), ("destination", .str "192.168.3.1/24"), ("next", .str "192.168.2.1"), ("cost", .int 0)]]),
   ("led", .list [.dict [("name", .str "USB1"), ("sysfs", .str "tp-link:green:usb1"), ("trigger", .str "usbdev")]]),
   ("radios", .list [.dict sampleRadio1]),
   ("network", .list [ownSection "interface" extra, .str "not a section"]), ("system", .list [ownSection "button" "b1"]), ("wireless", .list [ownSection "wifi-vlan" "v1"])]

theorem own_sample_wf : (Val.dict (ownSample "mesh")).WF := wf_of (n := 8) (by decide +kernel)

/-- the names and types of the sections of a package -/
def ownListed (p : String) (config : VDict) : Option (List (Option Val × Option Val)) :=
  (toIntermediate (validClass true) ⟨config, none⟩).1.inter.map fun (j : VDict) => match Dict.get? j p with
    | some (Val.list l) => l.map fun v => match v with
      | Val.dict b => (Dict.get? b ".name", Dict.get? b ".type")
      | _ => (none, none)
    | _ => []

/-- what the intermediate form holds for the example -/
theorem own_sample_made : validate (validClass true) (ownSample "mesh") = .ok () ∧ (toIntermediate (validClass true) ⟨ownSample "mesh", none⟩).2 = .ok () ∧
    ownListed "network" (ownSample "mesh") = some [(some (.str "route1"), some (.str "route")), (some (.str "mesh"), some (.str "interface"))] ∧
    ownListed "system" (ownSample "mesh") = some [(some (.str "led_usb1"), some (.str "led")), (some (.str "b1"), some (.str "button"))] ∧
    ownListed "wireless" (ownSample "mesh") = some [(some (.str "radio0"), some (.str "wifi-device")), (some (.str "v1"), some (.str "wifi-vlan"))] := by
  decide +kernel

/-- the hypotheses of C105 are met -/
example : ∃ (st : BState) (j : VDict) (rts os : List VDict), toIntermediate (validClass true) ⟨ownSample "mesh", none⟩ = (st, .ok ()) ∧ st.inter = some j ∧
    Forall2Idx (RouteSays validEnv) 1 (objectsAt (ownSample "mesh") "routes") rts ∧ OwnSections validEnv (ownSample "mesh") "network" os ∧
    (∃ ss ns ls os', OwnSections validEnv (ownSample "mesh") "system" os' ∧ List.Forall₂ (LedSays validEnv) (objectsAt (ownSample "mesh") "led") ls ∧
      (DistinctNames (ss ++ ns ++ ls ++ os') → Dict.get? j "system" = stored (ss ++ ns ++ ls ++ os'))) ∧
    (∃ ss ws os', OwnSections validEnv (ownSample "mesh") "wireless" os' ∧ List.Forall₂ (RadioSays validEnv true) [sampleRadio1] ss ∧
      (DistinctNames (ss ++ ws ++ os') → Dict.get? j "wireless" = stored (ss ++ ws ++ os'))) := by
  obtain ⟨_, h1, h2, _⟩ := own_sample_made
  have e : toIntermediate (validClass true) ⟨ownSample "mesh", none⟩ = ((toIntermediate (validClass true) ⟨ownSample "mesh", none⟩).1, .ok ()) := by
    rw [← h1]
  obtain ⟨j, hj⟩ : ∃ j, (toIntermediate (validClass true) ⟨ownSample "mesh", none⟩).1.inter = some j := by
    unfold ownListed at h2
    cases hh : (toIntermediate (validClass true) ⟨ownSample "mesh", none⟩).1.inter with
    | none => rw [hh] at h2; cases h2
    | some j => exact ⟨j, rfl⟩
  have hi : objectsAt (ownSample "mesh") "interfaces" = [] := by decide +kernel
  obtain ⟨_, _, rts, _, _, _, os, _, _, n1, _, _, _, n2, _⟩ := C105_network validEnv validEnv.ip6 (fun _ => false) (fun _ => Option.none) true (ownSample "mesh") own_sample_wf
    (by rw [hi]; intro b hb; cases hb) e hj
  obtain ⟨ss, ns, ls, os', _, _, s1, s2, s3⟩ := C105_system validEnv validEnv.ip6 (fun _ => false) (fun _ => Option.none) true (ownSample "mesh") own_sample_wf e hj
  obtain ⟨_, rs, ws, os'', w1, _, w2, w3⟩ := C105_wireless validEnv validEnv.ip6 (fun _ => false) (fun _ => Option.none) true (ownSample "mesh") own_sample_wf
    (by rw [hi]; intro x hx; cases hx) (by decide +kernel) e hj
  exact ⟨_, j, rts, os, e, hj, n1, n2, ⟨ss, ns, ls, os', s2, s1, s3⟩, ⟨rs, ws, os'', w2, w1, w3⟩⟩

/-- A section that is listed with the name of one of the converters' takes its place (its options are added to those of the other). -/
theorem C105_needs_names : validate (validClass true) (ownSample "route1") = .ok () ∧ (toIntermediate (validClass true) ⟨ownSample "route1", none⟩).2 = .ok () ∧
    ownListed "network" (ownSample "route1") = some [(some (.str "route1"), some (.str "interface"))] := by
  decide +kernel

end NJ
