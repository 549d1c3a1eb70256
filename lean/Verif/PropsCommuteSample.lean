import Verif.PropsCommute
import Verif.PropsOrderSample

/-!
# C84: an example, and what happens without the hypothesis
-/

namespace NJ

def tplGeneral : VDict := [("general", .dict [("hostname", .str "{{ name }}"), ("timezone", .str "UTC")])]
def tplNtp : VDict := [("ntp", .dict [("enabled", .bool true), ("server", .list [.str "{{ ntp }}"])]), ("dns_servers", .list [.str "10.0.0.1"])]
def tplIface : VDict := [("interfaces", .list [.dict [("name", .str "eth0"), ("type", .str "ethernet"), ("mtu", .int 1400)]])]
def ownConfig : VDict := [("interfaces", .list [.dict [("name", .str "eth0"), ("type", .str "ethernet"), ("mtu", .int 1500)]]), ("dns_servers", .list [.str "10.0.0.2"])]
def tplContext : VDict := [("name", .str "box"), ("ntp", .str "0.pool.ntp.org")]

/-- the three templates have no section in common (the configuration of the device has sections in common with two of them) -/
theorem tpl_reordered : Reordered [tplGeneral, tplNtp, tplIface] [tplIface, tplGeneral, tplNtp] := by
  refine C84_any_order (List.Perm.trans (.cons _ (.swap tplIface tplNtp [])) (.swap tplIface tplGeneral [tplNtp])) ?_
  have dis : ∀ a b : VDict, (∀ k ∈ Dict.keys a, Dict.has b k = false) → Disjoint' a b := by
    intro a b h k q
    have : k ∈ Dict.keys a := Classical.byContradiction fun n => by
      have := (Dict.get?_eq_none_iff a k).2 n
      rw [Dict.has_eq, this] at q
      exact Bool.false_ne_true q.1
    rw [h k this] at q
    exact Bool.false_ne_true q.2
  refine .cons (fun x hx => dis _ _ ?_) (.cons (fun x hx => dis _ _ ?_) (.cons (fun x hx => nomatch hx) .nil))
  · rcases List.mem_cons.1 hx with rfl | hx
    · decide
    · rw [List.mem_singleton.1 hx]; decide
  · rw [List.mem_singleton.1 hx]; decide

/-- the objects differ, in the order of the keys … -/
theorem tpl_constructed : ∃ st st', construct (validClass true) (some (.val (.dict ownConfig))) none (givenTemplates [tplGeneral, tplNtp, tplIface]) (some tplContext) = .ok st ∧
    construct (validClass true) (some (.val (.dict ownConfig))) none (givenTemplates [tplIface, tplGeneral, tplNtp]) (some tplContext) = .ok st' ∧
    st.config ≠ st'.config ∧ Tidy true st.config := by
  refine ⟨_, _, rfl, rfl, ?_⟩
  decide +kernel

/-- … and are rendered to the same text. -/
example : ∃ st st', construct (validClass true) (some (.val (.dict ownConfig))) none (givenTemplates [tplGeneral, tplNtp, tplIface]) (some tplContext) = .ok st ∧
    construct (validClass true) (some (.val (.dict ownConfig))) none (givenTemplates [tplIface, tplGeneral, tplNtp]) (some tplContext) = .ok st' ∧
    SameOutcome (render (validClass true) true st).2 (render (validClass true) true st').2 := by
  obtain ⟨st, _, h, _, _, ht⟩ := tpl_constructed
  obtain ⟨st', h1, _, h2, _⟩ := C84_render validEnv validEnv.ip6 (fun _ => false) (fun _ => none) true ownConfig (some tplContext) tpl_reordered
    (fun t q => by
      rcases List.mem_cons.1 q with rfl | q
      · exact wfB_sound _ (by decide)
      rcases List.mem_cons.1 q with rfl | q
      · exact wfB_sound _ (by decide)
      rw [List.mem_singleton.1 q]
      exact wfB_sound _ (by decide)) (wfB_sound _ (by decide)) h ht
  exact ⟨st, st', h, h1, h2 true⟩

/-- Without the hypothesis: two templates with a host name. -/
theorem C84_needs_disjoint : ∃ st st', construct (validClass true) (some (.val (.dict []))) none
      (givenTemplates [[("general", .dict [("hostname", .str "a1")])], [("general", .dict [("hostname", .str "b1")])]]) none = .ok st ∧
    construct (validClass true) (some (.val (.dict []))) none
      (givenTemplates [[("general", .dict [("hostname", .str "b1")])], [("general", .dict [("hostname", .str "a1")])]]) none = .ok st' ∧
    Dict.get? st.config "general" ≠ Dict.get? st'.config "general" := by
  refine ⟨_, _, rfl, rfl, ?_⟩
  decide +kernel

end NJ
