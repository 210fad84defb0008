import Mathlib.Analysis.SpecialFunctions.Log.Basic
import Mathlib.MeasureTheory.Integral.IntervalIntegral.Basic

/-!
# Specification: functions of the frequency that vary slowly

Real functions only.
-/

namespace Opac.Spec

/-- `f` changes on `[a, b]` by at most the factor `e^(m t)` when the frequency changes by the factor `e^t`: its slope in a
double logarithmic plot is between `-m` and `m`.  The power `ν^p` has `m = |p|`. -/
def SlopeAtMost (m a b : ℝ) (f : ℝ → ℝ) : Prop :=
  ∀ x ∈ Set.Icc a b, ∀ y ∈ Set.Icc a b, f x ≤ Real.exp (m * |Real.log x - Real.log y|) * f y

/-- **Planck mean** per density of the coefficient `α` over the frequencies from `a` to `b`, weighted with the spectrum `B` -/
noncomputable def windowPlanckMean (ρ a b : ℝ) (B α : ℝ → ℝ) : ℝ := (∫ ν in a..b, α ν / ρ * B ν) / ∫ ν in a..b, B ν

/-- **Rosseland mean** per density of the coefficient `α` over the frequencies from `a` to `b`, weighted with `D`, the change of the
spectrum with temperature -/
noncomputable def windowRosselandMean (ρ a b : ℝ) (D α : ℝ → ℝ) : ℝ := (∫ ν in a..b, D ν) / ∫ ν in a..b, ρ / α ν * D ν

end Opac.Spec
