import Mathlib.Analysis.SpecialFunctions.Log.Base
import Mathlib.Analysis.SpecialFunctions.Pow.Real
import Mathlib.Analysis.SpecialFunctions.Trigonometric.Basic
import Mathlib.Data.Rat.Cast.Order

/-!
# Arithmetic carriers

`Real` in the C++ sources (`ports-of-call`'s alias for `double` or `float`) is modelled by an arbitrary
type `R` with the operations the sources use.  Every model function is written once over `Arith R`.

Instances:
* `ℝ`  : exact real arithmetic (no rounding, no NaN/inf);
* `XR` : exact reals extended with NaN and ±inf and the IEEE-754 special-value rules;
* `Fl rd` : reals with an arbitrary rounding function applied after every basic operation.
-/

namespace Opac

/-- The operations of `Real` and `<cmath>` used by the sources.  `lit` is a decimal literal of the
source text; comparison operators return the C++ `bool`. -/
class Arith (R : Type) extends Add R, Sub R, Mul R, Div R, Neg R where
  /-- a numeric literal -/
  lit : ℚ → R
  /-- `M_PI` -/
  pi : R
  /-- `std::numeric_limits<Real>::infinity()` -/
  infinity : R
  /-- `std::numeric_limits<Real>::min()` (smallest normal) -/
  dmin : R
  /-- `std::numeric_limits<Real>::epsilon()` -/
  deps : R
  /-- `a < b` -/
  lt : R → R → Bool
  /-- `a <= b` -/
  le : R → R → Bool
  /-- `a == b` -/
  eqb : R → R → Bool
  /-- `std::isnan` -/
  isNaN : R → Bool
  /-- `std::isinf` -/
  isInf : R → Bool
  /-- `std::abs` / `std::fabs` -/
  abs : R → R
  /-- `std::exp` -/
  exp : R → R
  /-- `std::expm1` -/
  expm1 : R → R
  /-- `std::log` -/
  log : R → R
  /-- `std::log10` -/
  log10 : R → R
  /-- `std::sqrt` -/
  sqrt : R → R
  /-- `std::cos` -/
  cos : R → R
  /-- `std::pow` -/
  pow : R → R → R
  /-- conversion to `int` by truncation toward zero (`static_cast<int>`).  Values outside the range of
  `int` are undefined behaviour in C++; the model returns the mathematical truncation (or 0 for
  NaN/inf). -/
  toInt : R → ℤ

namespace Arith
variable {R : Type} [Arith R]

/-- `a > b` -/
abbrev gt (a b : R) : Bool := lt b a
/-- `a >= b` -/
abbrev ge (a b : R) : Bool := le b a
/-- `std::max(a,b)`: returns `b` if `a < b`, else `a` (so a NaN in `b` is dropped). -/
def stdMax (a b : R) : R := if lt a b then b else a
/-- `std::min(a,b)`: returns `b` if `b < a`, else `a`. -/
def stdMin (a b : R) : R := if lt b a then b else a
end Arith

/-! ## ℝ -/

open Classical in
/-- Exact real arithmetic.  `pow` is `Real.rpow` (which agrees with C `pow` for positive bases and for
integer exponents); `infinity` has no meaning here and is the junk value `0` — no theorem at `ℝ`
mentions it. -/
noncomputable instance instArithReal : Arith ℝ where
  lit q := (q : ℝ)
  pi := Real.pi
  infinity := 0
  dmin := 2 ^ (-1022 : ℤ)
  deps := 2 ^ (-52 : ℤ)
  lt a b := decide (a < b)
  le a b := decide (a ≤ b)
  eqb a b := decide (a = b)
  isNaN _ := false
  isInf _ := false
  abs x := |x|
  exp := Real.exp
  expm1 x := Real.exp x - 1
  log := Real.log
  log10 x := Real.logb 10 x
  sqrt := Real.sqrt
  cos := Real.cos
  pow := fun a b => a ^ b
  toInt x := if 0 ≤ x then ⌊x⌋ else ⌈x⌉

/-! ## XR: IEEE special values -/

/-- Extended reals with NaN.  There is a single zero (signed zeros are not modelled; `x / 0` has the sign
of `x`, as for a positive zero) and finite values neither round nor overflow. -/
inductive XR where
  | nan
  | ninf
  | pinf
  | fin (x : ℝ)

namespace XR

/-- IEEE addition on special values -/
noncomputable def add : XR → XR → XR
  | nan, _ => nan
  | _, nan => nan
  | fin a, fin b => fin (a + b)
  | fin _, ninf => ninf
  | fin _, pinf => pinf
  | ninf, fin _ => ninf
  | pinf, fin _ => pinf
  | ninf, ninf => ninf
  | pinf, pinf => pinf
  | ninf, pinf => nan
  | pinf, ninf => nan

/-- IEEE negation -/
noncomputable def neg : XR → XR
  | nan => nan
  | ninf => pinf
  | pinf => ninf
  | fin a => fin (-a)

open Classical in
/-- infinity with the sign of `a`; `0 * inf` is NaN -/
noncomputable def signInf (a : ℝ) : XR := if 0 < a then pinf else if a < 0 then ninf else nan

/-- IEEE multiplication -/
noncomputable def mul : XR → XR → XR
  | nan, _ => nan
  | _, nan => nan
  | fin a, fin b => fin (a * b)
  | fin a, pinf => signInf a
  | fin a, ninf => signInf (-a)
  | pinf, fin b => signInf b
  | ninf, fin b => signInf (-b)
  | pinf, pinf => pinf
  | ninf, ninf => pinf
  | pinf, ninf => ninf
  | ninf, pinf => ninf

open Classical in
/-- IEEE division (zero divisor treated as +0) -/
noncomputable def div : XR → XR → XR
  | nan, _ => nan
  | _, nan => nan
  | fin a, fin b => if b = 0 then signInf a else fin (a / b)
  | fin _, pinf => fin 0
  | fin _, ninf => fin 0
  | pinf, fin b => if b = 0 then pinf else signInf b
  | ninf, fin b => if b = 0 then ninf else signInf (-b)
  | pinf, pinf => nan
  | pinf, ninf => nan
  | ninf, pinf => nan
  | ninf, ninf => nan

open Classical in
/-- IEEE `<` (false when an operand is NaN) -/
noncomputable def lt : XR → XR → Bool
  | fin a, fin b => decide (a < b)
  | ninf, fin _ => true
  | ninf, pinf => true
  | fin _, pinf => true
  | _, _ => false

open Classical in
/-- IEEE `<=` -/
noncomputable def le : XR → XR → Bool
  | fin a, fin b => decide (a ≤ b)
  | ninf, fin _ => true
  | ninf, pinf => true
  | ninf, ninf => true
  | fin _, pinf => true
  | pinf, pinf => true
  | _, _ => false

open Classical in
/-- IEEE `==` -/
noncomputable def eqb : XR → XR → Bool
  | fin a, fin b => decide (a = b)
  | ninf, ninf => true
  | pinf, pinf => true
  | _, _ => false

open Classical in
/-- C99 `pow` on special values (for infinite base and finite exponent the base's sign is dropped when
the exponent is not an odd integer; odd negative-infinite cases keep it). -/
noncomputable def pow : XR → XR → XR
  | nan, fin b => if b = 0 then fin 1 else nan
  | nan, _ => nan
  | fin a, nan => if a = 1 then fin 1 else nan
  | _, nan => nan
  | fin a, fin b =>
      if b = 0 then fin 1
      else if 0 < a then fin (a ^ b)
      else if a = 0 then (if 0 < b then fin 0 else pinf)
      else if (∃ n : ℤ, (n : ℝ) = b) then fin (a ^ b) else nan
  | fin a, pinf => if |a| < 1 then fin 0 else if |a| = 1 then fin 1 else pinf
  | fin a, ninf => if |a| < 1 then pinf else if |a| = 1 then fin 1 else fin 0
  | pinf, fin b => if b = 0 then fin 1 else if 0 < b then pinf else fin 0
  | ninf, fin b =>
      if b = 0 then fin 1
      else if 0 < b then (if (∃ n : ℤ, ((2 * n + 1 : ℤ) : ℝ) = b) then ninf else pinf) else fin 0
  | pinf, pinf => pinf
  | ninf, pinf => pinf
  | pinf, ninf => fin 0
  | ninf, ninf => fin 0

/-- lift a function on finite values, with given values at -inf and +inf -/
noncomputable def lift (f : ℝ → XR) (atNinf atPinf : XR) : XR → XR
  | nan => nan
  | ninf => atNinf
  | pinf => atPinf
  | fin x => f x

end XR

open Classical in
/-- Exact arithmetic with IEEE special values. -/
noncomputable instance instArithXR : Arith XR where
  add := XR.add
  sub a b := XR.add a (XR.neg b)
  mul := XR.mul
  div := XR.div
  neg := XR.neg
  lit q := .fin (q : ℝ)
  pi := .fin Real.pi
  infinity := .pinf
  dmin := .fin (2 ^ (-1022 : ℤ))
  deps := .fin (2 ^ (-52 : ℤ))
  lt := XR.lt
  le := XR.le
  eqb := XR.eqb
  isNaN | .nan => true | _ => false
  isInf | .ninf => true | .pinf => true | _ => false
  abs := XR.lift (fun x => .fin |x|) .pinf .pinf
  exp := XR.lift (fun x => .fin (Real.exp x)) (.fin 0) .pinf
  expm1 := XR.lift (fun x => .fin (Real.exp x - 1)) (.fin (-1)) .pinf
  log := XR.lift (fun x => if 0 < x then .fin (Real.log x) else if x = 0 then .ninf else .nan) .nan .pinf
  log10 := XR.lift (fun x => if 0 < x then .fin (Real.logb 10 x) else if x = 0 then .ninf else .nan)
    .nan .pinf
  sqrt := XR.lift (fun x => if 0 ≤ x then .fin (Real.sqrt x) else .nan) .nan .pinf
  cos := XR.lift (fun x => .fin (Real.cos x)) .nan .nan
  pow := XR.pow
  toInt | .fin x => if 0 ≤ x then ⌊x⌋ else ⌈x⌉ | _ => 0

/-! ## Fl: rounded arithmetic -/

/-- Reals on which every basic operation is followed by the rounding function `rd`. -/
structure Fl (rd : ℝ → ℝ) where
  val : ℝ

open Classical in
/-- Rounded arithmetic: each operation (and each decimal literal) is the exact one followed by `rd`.
No overflow, underflow or special values. -/
noncomputable instance instArithFl (rd : ℝ → ℝ) : Arith (Fl rd) where
  add a b := ⟨rd (a.val + b.val)⟩
  sub a b := ⟨rd (a.val - b.val)⟩
  mul a b := ⟨rd (a.val * b.val)⟩
  div a b := ⟨rd (a.val / b.val)⟩
  neg a := ⟨-a.val⟩
  lit q := ⟨rd (q : ℝ)⟩
  pi := ⟨rd Real.pi⟩
  infinity := ⟨0⟩
  dmin := ⟨2 ^ (-1022 : ℤ)⟩
  deps := ⟨2 ^ (-52 : ℤ)⟩
  lt a b := decide (a.val < b.val)
  le a b := decide (a.val ≤ b.val)
  eqb a b := decide (a.val = b.val)
  isNaN _ := false
  isInf _ := false
  abs x := ⟨|x.val|⟩
  exp x := ⟨rd (Real.exp x.val)⟩
  expm1 x := ⟨rd (Real.exp x.val - 1)⟩
  log x := ⟨rd (Real.log x.val)⟩
  log10 x := ⟨rd (Real.logb 10 x.val)⟩
  sqrt x := ⟨rd (Real.sqrt x.val)⟩
  cos x := ⟨rd (Real.cos x.val)⟩
  pow a b := ⟨rd (a.val ^ b.val)⟩
  toInt x := if 0 ≤ x.val then ⌊x.val⌋ else ⌈x.val⌉

/-! ## IEEE comparison laws -/

/-- The laws of IEEE-754 comparisons: comparisons with NaN are false, the other values are totally
ordered.  `double` and `float` satisfy them (comparisons are exact); so do `ℝ`, `XR` and `Fl rd`. -/
class LawfulCmp (R : Type) [Arith R] : Prop where
  lt_nan_left : ∀ a b : R, Arith.isNaN a = true → Arith.lt a b = false
  lt_nan_right : ∀ a b : R, Arith.isNaN b = true → Arith.lt a b = false
  le_nan_left : ∀ a b : R, Arith.isNaN a = true → Arith.le a b = false
  le_nan_right : ∀ a b : R, Arith.isNaN b = true → Arith.le a b = false
  le_iff : ∀ a b : R, Arith.isNaN a = false → Arith.isNaN b = false →
    (Arith.le a b = true ↔ Arith.lt b a = false)
  lt_irrefl : ∀ a : R, Arith.lt a a = false
  lt_trans : ∀ a b c : R, Arith.lt a b = true → Arith.lt b c = true → Arith.lt a c = true
  le_trans : ∀ a b c : R, Arith.le a b = true → Arith.le b c = true → Arith.le a c = true
  le_of_lt : ∀ a b : R, Arith.lt a b = true → Arith.le a b = true

end Opac
