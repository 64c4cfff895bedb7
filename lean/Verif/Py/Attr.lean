import Lean.Meta.Tactic.Simp.RegisterCommand
/-
The set of rewrite rules that run a program of `Verif/Py/Source.lean` symbolically.
-/
/-- the definitions of `Verif/Py/Semantics.lean` -/
register_simp_attr py
