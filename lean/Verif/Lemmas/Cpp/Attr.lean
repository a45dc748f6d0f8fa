import Lean.LabelAttribute

/-! # Marks of the rules that are used by the tactic `run` -/

register_label_attr cpp_rule
register_label_attr cpp_sealed
register_label_attr cpp_split
register_label_attr cpp_unfold
register_label_attr cpp_keep
