import Verif.Spec.Means

/-!
# Specification: means of a neutrino opacity

Real functions only; nothing here refers to the model.  The Planck mean is that of `Spec/Means.lean`.
-/

namespace Opac.Spec
open Finset

open Classical in
/-- sum of the weights of the Rosseland mean, over the samples with `S < α` -/
noncomputable def openWeight (S : ℝ) (N : ℕ) (dν D α : ℕ → ℝ) : ℝ :=
  ∑ i ∈ range N, if S < α i then D i * dν i else 0

open Classical in
/-- weighted sum of the mean free paths, over the samples with `S < α` -/
noncomputable def openPath (S ρ : ℝ) (N : ℕ) (dν D α : ℕ → ℝ) : ℝ :=
  ∑ i ∈ range N, if S < α i then ρ / (α i + S) * D i * dν i else 0

open Classical in
/-- Rosseland mean over the samples with `S < α`; zero if the Planck mean `P` is below the floor or nothing is left -/
noncomputable def openRosselandMean (S ρ : ℝ) (N : ℕ) (dν D α : ℕ → ℝ) (P : ℝ) : ℝ :=
  if S < P ∧ S < openPath S ρ N dν D α then openWeight S N dν D α / (openPath S ρ N dν D α + S) else 0

/-- sum of the weights of the Planck mean -/
noncomputable def weight (N : ℕ) (dν B : ℕ → ℝ) : ℝ := ∑ i ∈ range N, B i * dν i

/-- width in frequency (up to the constant factor `ln 10`) of the `i`-th of `N` logarithmic bins of `[a, b]` -/
noncomputable def binDNu (a b : ℝ) (N i : ℕ) : ℝ := binCentre a b N i * binWidth a b N

end Opac.Spec
