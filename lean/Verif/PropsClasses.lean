import Verif.PropsJson
import Verif.OpenWisp
import Verif.ZtBackend
import Verif.WireGuard

/-!
# C75 for the classes of the project
-/

namespace NJ

/-- the backends, reading JSON texts -/
def allClasses (env : Env) (schema : VDict → Except PyErr Unit) (sh : Val → Bool) (dsa : Bool) : List Class :=
  [openwrtClass env schema sh jsonLoads dsa, openwispClass env schema sh jsonLoads dsa, openvpnClass env schema sh jsonLoads,
   wireguardClass env schema sh jsonLoads, zerotierClass env schema sh]

/-- C75. For every backend: the text `json()` makes, given to the constructor, makes an object of the same configuration. -/
theorem C75_backends (env : Env) (schema : VDict → Except PyErr Unit) (sh : Val → Bool) (dsa : Bool) (cls : Class) (hc : cls ∈ allClasses env schema sh dsa)
    (st : BState) (hw : (Val.dict st.config).WF) (doc : VDict) (h : jsonDoc cls st = .ok doc) :
    construct cls (some (.text (jsonDumps (.dict doc)))) none .falsy none = .ok ⟨doc, none⟩ ∧
    Dict.get? doc "type" = some (.str "DeviceConfiguration") ∧ ∀ k, k ≠ "type" → Dict.get? doc k = Dict.get? st.config k := by
  refine C75_constructor cls ?_ st hw doc h
  simp only [allClasses, List.mem_cons, List.not_mem_nil, or_false] at hc
  rcases hc with rfl | rfl | rfl | rfl | rfl <;> rfl

end NJ
