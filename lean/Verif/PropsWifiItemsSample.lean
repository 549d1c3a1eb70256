import Verif.PropsWifiItems
import Verif.PropsValidNeeds
import Verif.PropsSchema

/-!
# C99: an example, and why the names must differ
-/

namespace NJ

/-- a Wi-Fi interface -/
def wifiOne (name : String) (w : VDict) : VDict :=
  [("name", .str name), ("type", .str "wireless"), ("wireless", .dict ([("radio", .str "radio0"), ("mode", .str "access_point"), ("ssid", .str "x")] ++ w))]

/-- the example: two radios, an encrypted Wi-Fi interface in a bridge, and an open one -/
def wifiItemsSample : VDict :=
  [("radios", .list [.dict sampleRadio1, .dict sampleRadio2]),
   ("interfaces", .list [
      .dict [("name", .str "lan"), ("type", .str "bridge"), ("bridge_members", .list [.str "eth1", .str "wlan0"])],
      .dict (wifiOne "wlan0" [("encryption", .dict [("protocol", .str "wpa2_personal"), ("key", .str "passphrase012345")])]),
      .dict (wifiOne "wlan1" [("id", .str "guests")])])]

theorem wifi_sample_wf : (Val.dict wifiItemsSample).WF := wf_of (n := 8) (by decide +kernel)

/-- what the intermediate form holds for the example -/
theorem wifi_sample_made : (toIntermediate (validClass true) ⟨wifiItemsSample, none⟩).2 = .ok () ∧
    ((toIntermediate (validClass true) ⟨wifiItemsSample, none⟩).1.inter.map fun (j : VDict) => match Dict.get? j "wireless" with
      | some (Val.list l) => l.map fun v => match v with
        | .dict b => [Dict.get? b ".name", Dict.get? b "band", Dict.get? b "device", Dict.get? b "network", Dict.get? b "encryption"]
        | _ => []
      | _ => []) = some [
        [some (.str "radio0"), some (.str "2g"), none, none, none],
        [some (.str "radio1"), some (.str "5g"), none, none, none],
        [some (.str "wifi_wlan0"), none, some (.str "radio0"), some (.str "lan"), some (.str "psk2")],
        [some (.str "guests"), none, some (.str "radio0"), some (.str ""), none]] := by
  decide +kernel

/-- the hypotheses of C99 are met -/
example : ∃ (st : BState) (j : VDict) (m : Dict String (List String)) (ss ws : List VDict),
    toIntermediate (validClass true) ⟨wifiItemsSample, none⟩ = (st, .ok ()) ∧ st.inter = some j ∧
    List.Forall₂ (RadioSays validEnv true) [sampleRadio1, sampleRadio2] ss ∧
    List.Forall₂ (fun x b => WifiSays validEnv m x.1 x.2 b) (wifiOnes (objectsAt wifiItemsSample "interfaces")) ws ∧
    Dict.get? j "wireless" = some (.list ((ss ++ ws).map .dict)) ∧ ss.length = 2 ∧ ws.length = 2 ∧ trackBridges true j = .ok m := by
  obtain ⟨h1, h2⟩ := wifi_sample_made
  have e : toIntermediate (validClass true) ⟨wifiItemsSample, none⟩ = ((toIntermediate (validClass true) ⟨wifiItemsSample, none⟩).1, .ok ()) := by
    rw [← h1]
  obtain ⟨j, hj⟩ : ∃ j, (toIntermediate (validClass true) ⟨wifiItemsSample, none⟩).1.inter = some j := by
    cases hh : (toIntermediate (validClass true) ⟨wifiItemsSample, none⟩).1.inter with
    | none => rw [hh] at h2; cases h2
    | some j => exact ⟨j, rfl⟩
  obtain ⟨m, ss, ws, r1, r2, r3, r4⟩ := C99_wireless validEnv validEnv.ip6 (fun _ => false) (fun _ => Option.none) true wifiItemsSample wifi_sample_wf (by decide +kernel) (by
    intro x hx
    have hl : wifiOnes (objectsAt wifiItemsSample "interfaces") =
        [(wifiOne "wlan0" [("encryption", .dict [("protocol", .str "wpa2_personal"), ("key", .str "passphrase012345")])],
          [("radio", .str "radio0"), ("mode", .str "access_point"), ("ssid", .str "x"), ("encryption", .dict [("protocol", .str "wpa2_personal"), ("key", .str "passphrase012345")])]),
         (wifiOne "wlan1" [("id", .str "guests")], [("radio", .str "radio0"), ("mode", .str "access_point"), ("ssid", .str "x"), ("id", .str "guests")])] := by decide +kernel
    rw [hl] at hx
    simp only [List.mem_cons, List.not_mem_nil, or_false] at hx
    rcases hx with rfl | rfl
    · exact ⟨⟨"wifi_wlan0", by decide +kernel⟩, by
        intro enc he
        cases he
        decide +kernel⟩
    · exact ⟨⟨"guests", by decide +kernel⟩, by
        intro enc he
        cases he⟩) (by decide +kernel) e hj
  have l1 := r1.length_eq
  have l2 := r2.length_eq
  have k1 : (objectsAt wifiItemsSample "radios").length = 2 := by decide +kernel
  have k2 : (wifiOnes (objectsAt wifiItemsSample "interfaces")).length = 2 := by decide +kernel
  refine ⟨_, j, m, ss, ws, e, hj, r1, r2, ?_, by rw [← l1]; rfl, by rw [← l2]; exact k2, r4 (by decide +kernel) (by decide +kernel) (by
    intro hh
    rw [hh] at k2
    cases k2)⟩
  rw [r3, stored, if_neg]
  intro hh
  have := congrArg List.length hh
  rw [List.length_append, ← l1, k1] at this
  simp at this

/-- the names and types of the sections of the wireless package -/
def wifiSections (config : VDict) : Option (List (Option Val × Option Val)) :=
  (toIntermediate (validClass true) ⟨config, none⟩).1.inter.map fun (j : VDict) => match Dict.get? j "wireless" with
    | some (Val.list l) => l.map fun v => match v with
      | Val.dict b => (Dict.get? b ".name", Dict.get? b ".type")
      | _ => (none, none)
    | _ => []

/-- Two sections of the same name become one: an interface whose `id` is the name of a radio takes its place. (`validate` accepts this.) -/
theorem C99_needs_names : validate (validClass true) [("radios", .list [.dict sampleRadio2]), ("interfaces", .list [.dict (wifiOne "wlan0" [("id", .str "radio1")])])] = .ok () ∧
    wifiSections [("radios", .list [.dict sampleRadio2]), ("interfaces", .list [.dict (wifiOne "wlan0" [("id", .str "radio1")])])] =
      some [(some (.str "radio1"), some (.str "wifi-iface"))] := by
  decide +kernel

end NJ
