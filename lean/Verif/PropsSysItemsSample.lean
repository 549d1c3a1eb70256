import Verif.PropsSysItems
import Verif.PropsValidNeeds
import Verif.PropsSchema

/-!
# C101: an example, and why the names must differ
-/

namespace NJ

/-- the example: general settings, NTP and a LED -/
def sysItemsSample : VDict :=
  [("general", .dict [("hostname", .str "ap1"), ("timezone", .str "UTC")]),
   ("ntp", .dict [("enabled", .bool true), ("server", .list [.str "0.pool.ntp.org"])]),
   ("led", .list [.dict [("name", .str "USB1"), ("sysfs", .str "tp-link:green:usb1"), ("trigger", .str "usbdev")]])]

theorem sys_sample_wf : (Val.dict sysItemsSample).WF := wf_of (n := 8) (by decide +kernel)

/-- the sections of the system package -/
def sysSections (config : VDict) : Option (Option Val) :=
  (toIntermediate (validClass true) ⟨config, none⟩).1.inter.map fun (j : VDict) => Dict.get? j "system"

/-- what the intermediate form holds for the example -/
theorem sys_sample_made : (toIntermediate (validClass true) ⟨sysItemsSample, none⟩).2 = .ok () ∧
    ((sysSections sysItemsSample).bind id).map (fun v => match v with | .list l => l.length | _ => 0) = some 3 := by
  decide +kernel

/-- the hypotheses of C101 are met -/
example : ∃ (st : BState) (j : VDict) (ss ns ls : List VDict), toIntermediate (validClass true) ⟨sysItemsSample, none⟩ = (st, .ok ()) ∧ st.inter = some j ∧
    GeneralSays validEnv sysItemsSample ss ∧ NtpSays sysItemsSample ns ∧ List.Forall₂ (LedSays validEnv) (objectsAt sysItemsSample "led") ls ∧
    (DistinctNames (ss ++ ns ++ ls) → Dict.get? j "system" = stored (ss ++ ns ++ ls)) := by
  obtain ⟨h1, h2⟩ := sys_sample_made
  have e : toIntermediate (validClass true) ⟨sysItemsSample, none⟩ = ((toIntermediate (validClass true) ⟨sysItemsSample, none⟩).1, .ok ()) := by
    rw [← h1]
  obtain ⟨j, hj⟩ : ∃ j, (toIntermediate (validClass true) ⟨sysItemsSample, none⟩).1.inter = some j := by
    unfold sysSections at h2
    cases hh : (toIntermediate (validClass true) ⟨sysItemsSample, none⟩).1.inter with
    | none => rw [hh] at h2; cases h2
    | some j => exact ⟨j, rfl⟩
  obtain ⟨ss, ns, ls, r⟩ := C101_system validEnv validEnv.ip6 (fun _ => false) (fun _ => Option.none) true sysItemsSample sys_sample_wf (by decide +kernel) e hj
  exact ⟨_, j, ss, ns, ls, e, hj, r⟩

/-- a LED called like the section of the NTP settings -/
def sysClash : VDict :=
  [("ntp", .dict [("enabled", .bool true)]), ("led", .list [.dict [("id", .str "ntp"), ("name", .str "USB1"), ("sysfs", .str "x"), ("trigger", .str "none")]])]

/-- Two sections of the same name become one: a LED called like the NTP section takes its place. (`validate` accepts this.) -/
theorem C101_needs_names : validate (validClass true) sysClash = .ok () ∧
    ((sysSections sysClash).bind id).map (fun v => match v with | .list l => l.length | _ => 0) = some 1 := by
  decide +kernel

end NJ
