import Lean.LabelAttribute

/-!
# The label of the rules of the tactic `over`
-/

/-- rules of the tactic `over` -/
register_label_attr over_rule
