import Lean.Meta.Tactic.Simp.RegisterCommand
/-
The simp set `attr_eval`: reading an attribute of a given block by name.
-/

/-- Equations that read an attribute of a block by name. -/
register_simp_attr attr_eval
