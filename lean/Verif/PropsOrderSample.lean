import Verif.PropsOrder
import Verif.PropsValidSample

/-!
# C83: an example, and what happens without the hypothesis
-/

namespace NJ

set_option linter.unusedVariables false

instance (v : Val) : Decidable (NoDict v) := inferInstanceAs (Decidable (_ = _))
instance (special : List String) (d : VDict) : Decidable (Options special d) := inferInstanceAs (Decidable (∀ p ∈ d, _))
instance (d : VDict) : Decidable (Simple d) := inferInstanceAs (Decidable (Options _ _))
instance (d : VDict) (k : String) (P : Val → Prop) [DecidablePred P] : Decidable (At d k P) := by
  unfold At
  split <;> infer_instance
instance blocksDecidable (P : VDict → Prop) [DecidablePred P] : DecidablePred (Blocks P) := fun v => by
  cases v <;> unfold Blocks
  case list l =>
    refine @List.decidableBAll _ _ (fun x => ?_) l
    split <;> infer_instance
  all_goals infer_instance
instance nestedDecidable (keys : List String) : DecidablePred (Nested keys) := fun d => inferInstanceAs (Decidable (_ ∧ ∀ k ∈ keys, _))
instance (dsa : Bool) (d : VDict) : Decidable (FiltersVlans dsa d) := by
  unfold FiltersVlans
  refine @instDecidableAnd _ _ _ (@instDecidableAnd _ _ _ (@instDecidableAnd _ _ _ ?_))
  split <;> infer_instance
instance tidyIfaceDecidable (dsa : Bool) : DecidablePred (TidyIface dsa) := fun d => inferInstanceAs (Decidable (_ ∧ _ ∧ _ ∧ _))
instance (dsa : Bool) (k : String) : DecidablePred (TidyAt dsa k) := fun v => by
  unfold TidyAt
  repeat' split
  all_goals infer_instance
instance (dsa : Bool) (c : VDict) : Decidable (Tidy dsa c) := inferInstanceAs (Decidable (∀ p ∈ c, _))

mutual
/-- every object the other way round -/
def flipped : Val → Val
  | .dict d => .dict (flippedD d)
  | .list l => .list (flippedL l)
  | v => v
  termination_by structural v => v
def flippedL : List Val → List Val
  | [] => []
  | v :: vs => flipped v :: flippedL vs
  termination_by structural v => v
def flippedD : List (String × Val) → List (String × Val)
  | [] => []
  | (k, v) :: r => flippedD r ++ [(k, flipped v)]
  termination_by structural v => v
end

def flippedSample : VDict := flippedD validSample

theorem flipped_wf : (Val.dict flippedSample).WF := wfB_sound _ (by decide +kernel)

theorem flipped_same : SameJson (.dict validSample) (.dict flippedSample) := (jsEq_iff validSample_wf flipped_wf).1 (by decide +kernel)

/-- the example: a configuration with an object of every kind, and all keys in another order -/
theorem flipped_other : validSample ≠ flippedSample ∧ Tidy true validSample := by decide +kernel

/-- the text is the same -/
example : (render (validClass true) true ⟨validSample, none⟩).2 = (render (validClass true) true ⟨flippedSample, none⟩).2 ∧
    ∃ t, (render (validClass true) true ⟨flippedSample, none⟩).2 = .ok t ∧ t.length > 2000 := by
  have h := C83_render (env := validEnv) (ip6 := validEnv.ip6) (sh := fun _ => false) (loads := fun _ => none) flipped_same validSample_wf flipped_wf flipped_other.2 true
  have hr := validSample_renders
  change SameOutcome (render (validClass true) true ⟨validSample, none⟩).2 (render (validClass true) true ⟨flippedSample, none⟩).2 at h
  generalize (render (validClass true) true ⟨validSample, none⟩).2 = x at h hr
  generalize (render (validClass true) true ⟨flippedSample, none⟩).2 = y at h
  rcases h with ⟨r, rfl, rfl⟩ | ⟨e, e', rfl, rfl⟩
  · exact ⟨rfl, r, rfl, of_decide_eq_true (Except.ok.inj hr)⟩
  · cases hr

/-- an interface with an option that is a dictionary, which the schema allows: the order of its keys is shown -/
def untidySample (d : VDict) : VDict := [("interfaces", .list [.dict [("name", .str "eth0"), ("type", .str "ethernet"), ("extra", .dict d)]])]

/-- `str()` of a dictionary shows the keys in order (here: the first one) -/
def shownEnv : Env := { validEnv with reprC := fun v => match v with
  | .dict ((k, _) :: _) => k
  | v => validEnv.reprC v }

theorem C83_needs_tidy :
    SameJson (.dict (untidySample [("a", .int 1), ("b", .int 2)])) (.dict (untidySample [("b", .int 2), ("a", .int 1)])) ∧
    (render (openwrtClass shownEnv (owValidate validEnv.ip6) (fun _ => false) (fun _ => none) true) true ⟨untidySample [("a", .int 1), ("b", .int 2)], none⟩).2 ≠
      (render (openwrtClass shownEnv (owValidate validEnv.ip6) (fun _ => false) (fun _ => none) true) true ⟨untidySample [("b", .int 2), ("a", .int 1)], none⟩).2 ∧
    (render (openwrtClass shownEnv (owValidate validEnv.ip6) (fun _ => false) (fun _ => none) true) true ⟨untidySample [("a", .int 1), ("b", .int 2)], none⟩).2.isOk = true := by
  refine ⟨(jsEq_iff (wfB_sound _ (by decide +kernel)) (wfB_sound _ (by decide +kernel))).1 (by decide +kernel), ?_, ?_⟩ <;> decide +kernel

end NJ
