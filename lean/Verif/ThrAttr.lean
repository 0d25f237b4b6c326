import Lean.Meta.Tactic.Simp.RegisterCommand

/-- Simplification rules that push the sequential meaning of a thread program through its text. -/
register_simp_attr thr
