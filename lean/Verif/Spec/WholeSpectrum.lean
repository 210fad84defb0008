import Verif.Spec.MeanLimits

/-!
# Specification: means over the whole spectrum
-/

namespace Opac.Spec
open MeasureTheory

/-- **Planck mean over all frequencies** of the absorption coefficient `α` at density `ρ` -/
noncomputable def wholePlanckMean (h k c ρ T : ℝ) (α : ℝ → ℝ) : ℝ :=
  (∫ ν in Set.Ioi (0 : ℝ), α ν / ρ * planckLaw h k c T ν) / ∫ ν in Set.Ioi (0 : ℝ), planckLaw h k c T ν

/-- **Rosseland mean over all frequencies** of the absorption coefficient `α` at density `ρ` -/
noncomputable def wholeRosselandMean (h k c ρ T : ℝ) (α : ℝ → ℝ) : ℝ :=
  (∫ ν in Set.Ioi (0 : ℝ), planckLawDT h k c T ν) / ∫ ν in Set.Ioi (0 : ℝ), ρ / α ν * planckLawDT h k c T ν

/-- **mean over all frequencies** of the coefficient `α` at density `ρ`, with the weight `B` -/
noncomputable def wholeMean (ρ : ℝ) (B α : ℝ → ℝ) : ℝ :=
  (∫ ν in Set.Ioi (0 : ℝ), α ν / ρ * B ν) / ∫ ν in Set.Ioi (0 : ℝ), B ν

/-- thermal intensity in the group from `lo` to `up` (`none`: no upper bound) -/
noncomputable def groupIntensity (h k c T lo : ℝ) (up : Option ℝ) : ℝ :=
  ∫ ν in {ν : ℝ | lo < ν ∧ ∀ x ∈ up, ν ≤ x}, planckLaw h k c T ν

/-- the number `S` is negligible against thermal radiation of temperature `T`: against its frequency scale `kT/h`, its
intensity scale `(kT)³/(hc)²` and the product of the two -/
structure Negligible (S h k c T : ℝ) : Prop where
  frequency : S ≤ 1e-6 * (k * T / h)
  intensity : S ≤ 1e-60 * ((k * T) ^ 3 / (h ^ 2 * c ^ 2))
  total : S ≤ 1e-11 * ((k * T) ^ 4 / (h ^ 3 * c ^ 2))

end Opac.Spec
