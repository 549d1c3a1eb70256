import Verif.PropsErrors
import Verif.PropsWgSamples

/-!
# C94 on configurations of OpenWrt
-/

namespace NJ

/-- messages that tell the keyword and the first text of its argument -/
def keywordMsg (k : String) (arg _v : Val) : Chars :=
  k.toList ++ ' ' :: match arg with
    | .str s => s.toList
    | .list (.str s :: _) => s.toList
    | _ => []

def strangeIface : VDict := [("name", .str "eth0"), ("type", .str "strange")]

def strangeConfig : VDict := [("interfaces", .list [.dict strangeIface])]

def refTo (s : String) : Val := .dict [("$ref", .str ("#/definitions/" ++ s))]

/-- whether two labels are the same text -/
def isRef (r : String) (v : Val) : Bool := Val.jsEq v (.dict [("$ref", .str r)])

def strangeDetails : JErr := ((schemaDetails keywordMsg owSchema sampleEnv.ip6 strangeConfig).getD (.mk [] [] []))

/-- An interface of an unknown type: nine alternatives, which fail for 21 reasons. What is told of VXLAN interfaces is that they need a user name - a reason why the interface is
no modem -, and their own reasons are not told. -/
theorem C94_needs_one_reason : strangeDetails.schemas.length = 9 ∧ strangeDetails.context.length = 21 ∧ (listErrors strangeDetails).length = 9 ∧
    (((listErrors strangeDetails)[5]?).any fun y => isRef "#/definitions/vxlan_interface" y.1 && y.2 == "required username".toList) = true ∧
    (errors keywordMsg sampleEnv.ip6 owSchema 21 (.dict [("$ref", .str "#/definitions/vxlan_interface")]) (.dict strangeIface)).map (fun e => String.ofList e.message) =
      ["required vtep", "required port", "required vni", "required tunlink", "enum vxlan"] := by
  decide +kernel

def strangeVni : VDict := [("wireguard", .list []), ("vxlan", .list [.dict [("name", .str "vx"), ("vni", .str "x")]])]

/-- A VNI that is another text: two alternatives, each with one reason, which is told -/
theorem C94_sample_own : ((schemaDetails keywordMsg vxlanSchema sampleEnv.ip6 strangeVni).map fun e => (String.ofList e.message, e.schemas.length, e.context.length,
    (listErrors e).map fun y => String.ofList y.2)) = some ("oneOf ", 2, 2, ["enum ", "type integer"]) := by
  decide +kernel

theorem C94_sample : validate (openwrtClass sampleEnv (owValidate sampleEnv.ip6) (fun _ => false) (fun _ => none) true) strangeConfig = .error .validation ∧
    (schemaDetails keywordMsg owSchema sampleEnv.ip6 strangeConfig).isSome = true := by
  refine ⟨?_, ?_⟩ <;> decide +kernel

end NJ
