import Verif.Spec.Means
import Mathlib.MeasureTheory.Integral.IntervalIntegral.Basic

/-!
# Specification: group means as integrals

What the sums of `Spec/Means.lean` should tend to when the number of frequencies per group grows.  Real functions only.
-/

namespace Opac.Spec
open MeasureTheory

/-- **Planck mean** of the absorption coefficient `α` at density `ρ` over the frequencies from `a` to `b` -/
noncomputable def planckMeanOf (h k c ρ T a b : ℝ) (α : ℝ → ℝ) : ℝ :=
  (∫ ν in a..b, α ν / ρ * planckLaw h k c T ν) / ∫ ν in a..b, planckLaw h k c T ν

/-- **Rosseland mean** of the absorption coefficient `α` at density `ρ` over the frequencies from `a` to `b` -/
noncomputable def rosselandMeanOf (h k c ρ T a b : ℝ) (α : ℝ → ℝ) : ℝ :=
  (∫ ν in a..b, planckLawDT h k c T ν) / ∫ ν in a..b, ρ / α ν * planckLawDT h k c T ν

/-- the sampled part of the group `[lo, hi]`: its lower end -/
noncomputable def groupFrom (S h k T lo : ℝ) (hi : Option ℝ) : ℝ := (groupWindow h k T lo hi).1 + S

/-- the sampled part of the group `[lo, hi]`: its upper end -/
noncomputable def groupTo (S h k T lo : ℝ) (hi : Option ℝ) : ℝ := (groupWindow h k T lo hi).2 + S

/-- the Planck mean over the sampled part of a group, with the library's weights and floor -/
noncomputable def planckIntegralMean (S h k c ρ T lo : ℝ) (hi : Option ℝ) (α : ℝ → ℝ) : ℝ :=
  (∫ ν in groupFrom S h k T lo hi..groupTo S h k T lo hi, α ν / ρ * planckWeight h k c T ν) /
    ((∫ ν in groupFrom S h k T lo hi..groupTo S h k T lo hi, planckWeight h k c T ν) + S * Real.log 10)

/-- the Rosseland mean over the sampled part of a group, with the library's weights and floor -/
noncomputable def rosselandIntegralMean (S h k c ρ T lo : ℝ) (hi : Option ℝ) (α : ℝ → ℝ) : ℝ :=
  (∫ ν in groupFrom S h k T lo hi..groupTo S h k T lo hi, rosselandWeight h k c T ν) /
    ((∫ ν in groupFrom S h k T lo hi..groupTo S h k T lo hi, ρ / (α ν + S) * rosselandWeight h k c T ν) + S * Real.log 10)

/-- `f` is bounded on `[a, b]` and continuous inside, except at countably many points -/
def Tame (a b : ℝ) (f : ℝ → ℝ) : Prop :=
  (∃ M, ∀ x ∈ Set.Icc a b, |f x| ≤ M) ∧ ∃ s : Set ℝ, s.Countable ∧ ∀ x ∈ Set.Ioo a b, x ∉ s → ContinuousAt f x

/-- Planck mean of `α` over `[a, b]` with weight `B` and floor `S` -/
noncomputable def planckLimit (S ρ a b : ℝ) (B α : ℝ → ℝ) : ℝ :=
  (∫ ν in a..b, α ν / ρ * B ν) / ((∫ ν in a..b, B ν) + S * Real.log 10)

/-- Rosseland mean of `α` over `[a, b]` with weight `D` and floor `S` -/
noncomputable def rosselandLimit (S ρ a b : ℝ) (D α : ℝ → ℝ) : ℝ :=
  (∫ ν in a..b, D ν) / ((∫ ν in a..b, ρ / (α ν + S) * D ν) + S * Real.log 10)

end Opac.Spec
