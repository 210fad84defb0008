import Verif.Spec.Doubles
import Verif.Model.Base

/-!
# Ordinary inputs of the mean opacity constructors, in double precision

Sizes are powers of two (see Spec/Doubles): densities from 1e-18 to 1e18, temperatures from 1e-6 to 3e13, frequencies from
1e-6 to 2e30.
-/

namespace Opac
open Arith

/-- a logarithmic axis from `lo` to `hi` with `N` nodes -/
structure OrdinaryAxis (smallest largest lo hi : ℝ) (N : ℤ) : Prop where
  lower : smallest ≤ lo
  order : lo ≤ hi
  upper : hi ≤ largest
  two : 2 ≤ N
  fits : N ≤ 2 ^ 31

/-- 0, or between 1e-81 and 1e60 -/
def OrdinaryOpacity (a : IE binary64) : Prop := ∃ x, a = dbl x ∧ (x = 0 ∨ Bits (-270) 200 x)

/-- a coefficient is ordinary at every ordinary density, temperature and frequency -/
def OrdinaryCoefficient (coef : IE binary64 → IE binary64 → IE binary64 → IE binary64) : Prop :=
  ∀ ρ T ν : ℝ, Bits (-60) 60 ρ → Bits (-20) 45 T → Bits (-20) 101 ν → OrdinaryOpacity (coef (dbl ρ) (dbl T) (dbl ν))

/-- every group ends at infinity or at a frequency from 4e-6 to 6e29 -/
def OrdinaryBounds (b : List (IE binary64)) : Prop :=
  ∀ a ∈ b.tail, a = infinity ∨ ∃ x, a = dbl x ∧ Bits (-18) 99 x

/-- from 0 to 1e150 -/
def OrdinaryWeight (a : IE binary64) : Prop := ∃ x, a = dbl x ∧ 0 ≤ x ∧ x ≤ 2 ^ (500 : ℤ)

/-- the coefficient and the spectra a neutrino mean is made of are ordinary at ordinary states -/
structure OrdinarySource (YeMin YeMax : ℝ)
    (coef : IE binary64 → IE binary64 → IE binary64 → RadiationType → IE binary64 → Outcome (IE binary64))
    (B dBdT : IE binary64 → RadiationType → IE binary64 → IE binary64) : Prop where
  coef : ∀ (ρ T Ye : ℝ) (s : RadiationType) (ν : ℝ), Bits (-60) 60 ρ → Bits (-20) 45 T → YeMin - 1e-9 ≤ Ye →
    Ye ≤ YeMax + 1e-9 → Bits (-20) 101 ν → ∃ a, (coef (dbl ρ) (dbl T) (dbl Ye) s (dbl ν)).Returns a ∧ OrdinaryOpacity a
  spectrum : ∀ (T : ℝ) (s : RadiationType) (ν : ℝ), Bits (-20) 45 T → Bits (-20) 101 ν → OrdinaryWeight (B (dbl T) s (dbl ν))
  derivative : ∀ (T : ℝ) (s : RadiationType) (ν : ℝ), Bits (-20) 45 T → Bits (-20) 101 ν →
    OrdinaryWeight (dBdT (dbl T) s (dbl ν))

end Opac
