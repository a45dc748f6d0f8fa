import Lean.Meta.Tactic.Simp.RegisterCommand

/-- What a call of the text of the library returns, in terms of the model. -/
register_simp_attr text_iff
