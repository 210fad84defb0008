import Verif.Spec.MeanAccuracy
import Verif.Spec.NeutrinoMeans

/-!
# When rounding does not change which samples enter a neutrino mean

Samples, Planck means and sums of mean free paths are compared with a floor, and treated as zero when they do not exceed it.
-/

namespace Opac.Spec

/-- zero, or clearly above the floor `S` -/
def Decided (S x : ℝ) : Prop := x = 0 ∨ 2 * S ≤ x

/-- no comparison with the floor `S` is undecided in the Rosseland mean of the samples `α` -/
structure ClearMean (S ρ : ℝ) (N : ℕ) (dν B D α : ℕ → ℝ) : Prop where
  opacity : ∀ i < N, Decided S (α i)
  planck : Decided S (planckMean S ρ N dν B α)
  path : Decided S (openPath S ρ N dν D α)

/-- The arguments of the constructor of a mean opacity of neutrinos: grids with ends at most `X` and spacing at least `s`, a
quadrature with at least two points, frequencies from `10^lNuMin` to `10^lNuMax`, at least `W` decades, within `L` decades of
one, and `K ν/T` at most `Q` for all of them. -/
structure WellPosedN {rd : ℝ → ℝ} (lRhoMin lRhoMax : Fl rd) (NRho : ℤ) (lTMin lTMax : Fl rd) (NT : ℤ)
    (YeMin YeMax : Fl rd) (NYe : ℤ) (lNuMin lNuMax : ℝ) (N : ℤ) (K X s L W Q : ℝ) : Prop where
  rho : Axis ⟨lRhoMin, lRhoMax, NRho⟩ X s
  temp : Axis ⟨lTMin, lTMax, NT⟩ X s
  Ye : Axis ⟨YeMin, YeMax, NYe⟩ X s
  ends : 1 ≤ X ∧ X ≤ L
  window : |lNuMin| ≤ L ∧ |lNuMax| ≤ L
  width : 0 < W ∧ W ≤ lNuMax - lNuMin
  quad : 2 ≤ N ∧ N ≤ 2 ^ 24
  wien : 0 ≤ Q ∧ K * 10 ^ lNuMax ≤ Q * 10 ^ lTMin.val

/-- A bound for the number of rounding errors in an average over `N` frequencies when each opacity and each weight has `C`. -/
noncomputable def BudgetN (C L W : ℝ) (N : ℤ) : ℝ := 3 * C + L * (340 + 76 / W) + 2 * N + 20

/-- A bound for the number of rounding errors in a coefficient or a thermal weight: `n` unit wrappers, and temperatures and
frequencies with up to `150 L` rounding errors. -/
noncomputable def neutrinoCost (n : ℕ) (L Q : ℝ) : ℝ := 64 * (1 + Q) * (150 * L + 11 * n + 1)

/-- the relative error of a neutrino mean with `P` rounding errors in the averages -/
noncomputable def MeanErrN (u X s M D P : ℝ) : ℝ := u * (1800 * (X / s) * D + 185 * M + 5 * P)

end Opac.Spec
