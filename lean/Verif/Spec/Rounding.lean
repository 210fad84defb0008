import Mathlib.Algebra.Order.Archimedean.Real.Basic
import Mathlib.Algebra.Order.Round
import Mathlib.Data.Int.Log

/-!
# Rounding

What is assumed of the rounding of floating-point operations when no overflow or underflow occurs.
-/

namespace Opac

/-- rounding with relative error at most `u`, exact on 1 -/
structure Rounding (rd : ℝ → ℝ) (u : ℝ) : Prop where
  nonneg : 0 ≤ u
  lt_one : u < 1
  err : ∀ x, |rd x - x| ≤ u * |x|
  one : rd 1 = 1

/-- a binary format with at least 24 significant bits: whole numbers up to `2^24` and 1/4 are exact -/
structure BinaryRounding (rd : ℝ → ℝ) (u : ℝ) : Prop extends Rounding rd u where
  ints : ∀ k : ℕ, k ≤ 2 ^ 24 → rd k = k
  quarter : rd (1 / 4) = 1 / 4

/-- rounding to the nearest number with a 53-bit significand (no overflow or underflow; ties upward) -/
noncomputable def rn53 (x : ℝ) : ℝ := round (x * 2 ^ (52 - Int.log 2 |x|)) * 2 ^ (Int.log 2 |x| - 52)

end Opac
