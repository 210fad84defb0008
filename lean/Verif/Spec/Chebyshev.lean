import Mathlib.Analysis.SpecialFunctions.Trigonometric.Chebyshev.Basic
import Mathlib.Analysis.SpecialFunctions.Trigonometric.Basic

/-!
# Chebyshev interpolation (independent of the model)

`Polynomial.Chebyshev.T ℝ k` is Mathlib's Chebyshev polynomial of the first kind.
-/

namespace Opac.Spec
open Finset

/-- the Chebyshev polynomial of order `k` at `x` -/
noncomputable def cheb (k : ℕ) (x : ℝ) : ℝ := (Polynomial.Chebyshev.T ℝ k).eval x

/-- the `k`-th of the `n` Chebyshev points of `(-1, 1)`, from the left, `k = 0, …, n - 1` -/
noncomputable def chebPoint (n k : ℕ) : ℝ := -Real.cos ((2 * k + 1) * Real.pi / (2 * n))

/-- the same point mapped to the interval `(lo, hi)` -/
noncomputable def chebNode (lo hi : ℝ) (n k : ℕ) : ℝ := lo + (hi - lo) * ((chebPoint n k + 1) / 2)

/-- position of `x` in the interval `[lo, hi]`, rescaled to `[-1, 1]` -/
noncomputable def unitCell (lo hi x : ℝ) : ℝ := -1 + 2 * ((x - lo) / (hi - lo))

/-- the function with Chebyshev coefficients `c 0, …, c (n - 1)` -/
noncomputable def chebSum (n : ℕ) (c : ℕ → ℝ) (t : ℝ) : ℝ := ∑ k ∈ range n, c k * cheb k t

/-- `a` turns values at the `n` Chebyshev points into Chebyshev coefficients: it is the inverse of the matrix
`T_j(t_k)` -/
def IsVandermondeInverse (n : ℕ) (a : ℕ → ℕ → ℝ) : Prop :=
  ∀ i j, i < n → j < n → ∑ k ∈ range n, a i k * cheb j (chebPoint n k) = if i = j then 1 else 0

end Opac.Spec
