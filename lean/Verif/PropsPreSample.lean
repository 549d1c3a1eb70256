import Verif.PropsPre
import Verif.PropsCli

/-!
# C97: tunnels with a variable as name
-/

namespace NJ

def preCtx : VDict := [("N", .str "a"), ("who", .str "me")]
def preTemplate : VDict := [("owner", .str "{{who}}"), ("openvpn", .list [.dict [("name", .str "{{N}}"), ("proto", .str "udp")]])]
def preTemplate' : VDict := [("owner", .str "me"), ("openvpn", .list [.dict [("name", .str "a"), ("proto", .str "udp")]])]
def preConfig (name : String) : VDict := [("openvpn", .list [.dict [("name", .str name), ("mode", .str "server")]])]

/-- a tunnel called b is added to the one of the template, whether the variables are replaced before or after -/
theorem C97_sample :
    construct cliClass (some (.val (.dict (preConfig "b")))) none (.list ([preTemplate].map fun t => .val (.dict t))) (some preCtx) =
      construct cliClass (some (.val (.dict (preConfig "b")))) none (.list ([preTemplate'].map fun t => .val (.dict t))) none ∧
    construct cliClass (some (.val (.dict (preConfig "b")))) none (.list ([preTemplate'].map fun t => .val (.dict t))) none =
      .ok ⟨[("owner", .str "me"), ("openvpn", .list [.dict [("name", .str "a"), ("proto", .str "udp")], .dict [("name", .str "b"), ("mode", .str "server")]])], none⟩ := by
  constructor
  · refine C97_beforehand cliClass preCtx (preConfig "b") (preConfig "b") [preTemplate] [preTemplate'] (by decide +kernel)
      (.cons (by decide +kernel) .nil) (by decide +kernel) (fun v v' _ _ => rfl)
  · decide +kernel

/-- the same in one object: the template's variable stands for the name used in the configuration, and the two tunnels are not merged -/
theorem C97_needs_different :
    construct cliClass (some (.val (.dict (preConfig "a")))) none (.list ([preTemplate].map fun t => .val (.dict t))) (some preCtx) =
      .ok ⟨[("owner", .str "me"), ("openvpn", .list [.dict [("name", .str "a"), ("proto", .str "udp")], .dict [("name", .str "a"), ("mode", .str "server")]])], none⟩ ∧
    construct cliClass (some (.val (.dict (preConfig "a")))) none (.list ([preTemplate'].map fun t => .val (.dict t))) none =
      .ok ⟨[("owner", .str "me"), ("openvpn", .list [.dict [("name", .str "a"), ("proto", .str "udp"), ("mode", .str "server")]])], none⟩ := by
  constructor <;> decide +kernel

end NJ
