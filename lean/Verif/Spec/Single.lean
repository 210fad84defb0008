import Verif.Model.Indexers
import Verif.Model.Binary

/-!
# What single precision guarantees
-/

namespace Opac.BDMath

/-- rounding and `logf` keep the order of positive numbers -/
structure Single.Ordered (sp : Single ℝ) : Prop where
  mono : ∀ x y, x ≤ y → sp.toFloat x ≤ sp.toFloat y
  log_mono : ∀ x y, 0 < x → x ≤ y → sp.logf x ≤ sp.logf y
  pos : ∀ x, 2 ^ (-126 : ℤ) ≤ x → 0 < sp.toFloat x

/-- rounding and `logf` are off by at most the relative error `u` (an absolute `u · 2⁻¹²⁶` close to zero) for
numbers in the range of single precision -/
structure Single.Rounds (sp : Single ℝ) (u : ℝ) : Prop where
  near : ∀ x, |x| ≤ 2 ^ (127 : ℤ) → |sp.toFloat x - x| ≤ u * (|x| + 2 ^ (-126 : ℤ))
  log_near : ∀ x, 0 < x → |sp.logf x - Real.log x| ≤ u * (|Real.log x| + 2 ^ (-126 : ℤ))

end Opac.BDMath

namespace Opac

/-- the parameters of `float` -/
def float32 : BinaryParams := ⟨24, -149, 128, by norm_num, by norm_num, by norm_num⟩

/-- IEEE-754 `float` with a correctly rounded `logf` -/
noncomputable def binary32 : BDMath.Single ℝ := ⟨float32.near, fun x => float32.near (Real.log x)⟩

/-- the same with the special values of IEEE-754: numbers too large for a `float` become infinite -/
noncomputable def binary32X : BDMath.Single XR where
  toFloat
    | .fin x => float32.rd x
    | x => x
  logf
    | .fin x => if 0 < x then float32.rd (Real.log x) else if x = 0 then .ninf else .nan
    | .pinf => .pinf
    | _ => .nan

end Opac
