import Verif.PropsFileLayers
import Verif.PropsCli

/-!
# C98: three files with the same path
-/

namespace NJ

def banner (text : String) : Val := .dict [("path", .str "/etc/banner"), ("mode", .str "0644"), ("contents", .str text)]

/-- templates and a configuration with a banner each, beside a tunnel with an inline key -/
def bannerOf (texts : List String) (text : String) : Except PyErr BState :=
  construct cliClass (some (.val (.dict [("openvpn", .list [.dict [("name", .str "t"), ("dev", .str "tun0"), ("ca", .str "/etc/ca.crt"), ("tls_auth", .str "k")]]), ("files", .list [banner text])]))) none
    (.list ((texts.map fun t => [("files", Val.list [banner t])]).map fun t => .val (.dict t))) none

/-- the text of the banner in the archive -/
def bannerIn (st : Except PyErr BState) : Option (List UInt8) :=
  match st with
  | .ok st => match (generate cliClass st).2 with
    | .ok l => (l.find? fun m => m.name = "etc/banner".toList).map (·.data)
    | .error _ => none
  | .error _ => none

def bannerVpn : Val := .list [.dict [("name", .str "t"), ("dev", .str "tun0"), ("ca", .str "/etc/ca.crt"), ("tls_auth", .str "k")]]
def bannerState : BState := ⟨[("files", .list [banner "1", banner "2", banner "3"]), ("openvpn", bannerVpn)], none⟩

/-- the last one wins -/
theorem C98_sample : bannerOf ["1", "2"] "3" = .ok bannerState ∧ lastFile "/etc/banner".toList (filesOf bannerState.config) = some (banner "3") := by
  have h : bannerOf ["1", "2"] "3" = .ok bannerState := by decide +kernel
  refine ⟨h, C98_last_wins cliClass _ _ ?_ h (before := [[("files", .list [banner "1"])], [("files", .list [banner "2"])]])
      (layer := [("openvpn", bannerVpn), ("files", .list [banner "3"])]) (after := []) rfl (by decide +kernel) (by simp) (by decide +kernel)⟩
  intro d hd
  have hw : ∀ t, (banner t).WF := by
    intro t
    refine .dict _ (by simp [Dict.keys]) ?_
    intro p hp
    simp only [List.mem_cons, List.not_mem_nil, or_false] at hp
    rcases hp with rfl | rfl | rfl <;> exact .str _
  simp only [List.map_cons, List.map_nil, List.cons_append, List.nil_append, List.mem_cons, List.not_mem_nil, or_false] at hd
  have one : ∀ (d : VDict) t, filesOf d = [banner t] → ∀ f ∈ filesOf d, f.WF ∧ identOf cliClass.ids f = none ∧ cliClass.sh f = false := by
    intro d t he f hf
    rw [he, List.mem_singleton] at hf
    subst hf
    exact ⟨hw t, rfl, rfl⟩
  rcases hd with rfl | rfl | rfl
  · exact ⟨.inr ⟨_, rfl⟩, one _ "1" rfl, by decide +kernel⟩
  · exact ⟨.inr ⟨_, rfl⟩, one _ "2" rfl, by decide +kernel⟩
  · exact ⟨.inr ⟨[banner "3"], by decide +kernel⟩, one _ "3" (by decide +kernel), by decide +kernel⟩

/-- the archive holds it, although the converter adds the file of the inline key -/
theorem C98_sample_archive : ∃ l m, (generate cliClass bannerState).2 = .ok l ∧ m ∈ l ∧ m.name = "etc/banner".toList ∧ m.data = [51] := by
  have hg : ∃ st' l, generate cliClass bannerState = (st', .ok l) := by
    have : (match (generate cliClass bannerState).2 with
      | .ok _ => true
      | .error _ => false) = true := by decide +kernel
    cases h : generate cliClass bannerState with
    | mk st' r =>
      rw [h] at this
      cases r with
      | ok l => exact ⟨st', l, rfl⟩
      | error e => cases this
  obtain ⟨st', l, h⟩ := hg
  obtain ⟨item, m, h1, h2, h3, _⟩ := C98_archive cliClass h C98_sample.2 (by decide +kernel)
  have e1 : fileItem (banner "3") = .ok ⟨"/etc/banner".toList, "0644".toList, "3".toList⟩ := by decide +kernel
  rw [e1] at h1
  cases h1
  have e2 : addFile (memberName "/etc/banner".toList) "3".toList "0644".toList = .ok ⟨"etc/banner".toList, 420, [51]⟩ := by decide +kernel
  rw [e2] at h2
  cases h2
  exact ⟨l, _, by rw [h], h3, rfl, rfl⟩

/-- **finding**: a configuration whose file equals the one of the first template does not override the second template -/
theorem C98_needs_new : bannerIn (bannerOf ["1", "2"] "1") = some [50] ∧ bannerIn (bannerOf ["1", "2"] "3") = some [51] := by
  constructor <;> decide +kernel

end NJ
