import Lean.Meta.Tactic.Simp.RegisterCommand

/-! Simp set that turns `Arith ℝ` operations into the ordinary ones. -/

register_simp_attr areal

register_simp_attr axr
