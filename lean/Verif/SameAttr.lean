import Lean.LabelAttribute

/-!
# The label of the rules of the tactic `same`
-/

/-- rules of the tactic `same` -/
register_label_attr same_rule
