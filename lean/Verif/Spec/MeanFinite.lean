import Verif.Spec.MeanDoubles
import Verif.Model.Base

/-! # Opacities that are nowhere transparent, and finite tables, in double precision -/

namespace Opac

/-- a coefficient that is between 1e-81 and 1e60, never 0, at every ordinary density, temperature and frequency -/
def OpaqueCoefficient (coef : IE binary64 → IE binary64 → IE binary64 → IE binary64) : Prop :=
  ∀ ρ T ν : ℝ, Bits (-60) 60 ρ → Bits (-20) 45 T → Bits (-20) 101 ν →
    ∃ x, coef (dbl ρ) (dbl T) (dbl ν) = dbl x ∧ Bits (-270) 200 x

/-- a finite number from 0 to `2^h` -/
def FiniteUpTo (h : ℤ) (a : IE binary64) : Prop := ∃ x, a = dbl x ∧ 0 ≤ x ∧ x ≤ 2 ^ h

/-- a call that returns a finite number from 0 to `2^h` -/
def ReturnsFinite (h : ℤ) (f : Outcome (IE binary64)) : Prop := ∃ a, f.Returns a ∧ FiniteUpTo h a

end Opac
