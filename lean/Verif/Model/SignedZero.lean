import Verif.Model.Ieee

/-!
# Floating point with signed zeros

`SZ F` is the arithmetic of `IE F` (`Model/Ieee`) in which a zero carries its sign, by the rules of IEEE-754 for
rounding to nearest: a product or quotient has the sign of its operands' signs, an exact sum of zero is `+0` unless both
operands are `-0`, a result that underflows keeps its sign, and dividing by `-0` gives the opposite infinity to dividing
by `+0`.  Library functions follow Annex F of the C standard: `expm1`, `sqrt` and odd integer powers keep the sign of
zero, the other functions do not see it.
-/

namespace Opac
open Classical

/-- a value of the format `F`; `minus` is the sign of a zero and is not looked at otherwise -/
structure SZ (F : FloatFormat) where
  val : XR
  minus : Bool

namespace SZ
variable {F : FloatFormat}

/-- the sign bit (that of a NaN counts as clear) -/
noncomputable def sign (a : SZ F) : Bool :=
  match a.val with
  | .fin x => decide (x < 0) || (decide (x = 0) && a.minus)
  | .ninf => true
  | _ => false

/-- the sign of a sum that rounds to zero: that of the exact sum, or `s` if the exact sum is zero -/
noncomputable def sumSign (v : XR) (s : Bool) : Bool :=
  match v with
  | .fin x => if x = 0 then s else decide (x < 0)
  | _ => false

/-- negative zero -/
noncomputable def isMinusZero (a : SZ F) : Bool :=
  match a.val with
  | .fin x => decide (x = 0) && a.minus
  | _ => false

/-- an odd integer -/
noncomputable def odd : XR → Bool
  | .fin y => decide (∃ n : ℤ, ((2 * n + 1 : ℤ) : ℝ) = y)
  | _ => false

/-- the same value with a single zero -/
def forget (a : SZ F) : IE F := ⟨a.val⟩

/-- IEEE-754 arithmetic with signed zeros in the format `F`; comparisons and conversions do not see the sign of zero -/
noncomputable instance instArith : Arith (SZ F) where
  add a b := ⟨IE.round F (XR.add a.val b.val), sumSign (XR.add a.val b.val) (sign a && sign b)⟩
  sub a b := ⟨IE.round F (XR.add a.val (XR.neg b.val)), sumSign (XR.add a.val (XR.neg b.val)) (sign a && !sign b)⟩
  mul a b := ⟨IE.round F (XR.mul a.val b.val), Bool.xor (sign a) (sign b)⟩
  div a b := ⟨if isMinusZero b then XR.neg (IE.round F (XR.div a.val b.val)) else IE.round F (XR.div a.val b.val),
    Bool.xor (sign a) (sign b)⟩
  neg a := ⟨XR.neg a.val, !a.minus⟩
  lit q := ⟨F.rd (q : ℝ), decide (q < 0)⟩
  pi := ⟨F.rd Real.pi, false⟩
  infinity := ⟨.pinf, false⟩
  dmin := ⟨F.rd (2 ^ (-1022 : ℤ)), false⟩
  deps := ⟨F.rd (2 ^ (-52 : ℤ)), false⟩
  lt a b := XR.lt a.val b.val
  le a b := XR.le a.val b.val
  eqb a b := XR.eqb a.val b.val
  isNaN a := match a.val with | .nan => true | _ => false
  isInf a := match a.val with | .ninf => true | .pinf => true | _ => false
  abs a := ⟨XR.lift (fun x => .fin |x|) .pinf .pinf a.val, false⟩
  exp a := ⟨XR.lift F.exp (.fin 0) .pinf a.val, false⟩
  expm1 a := ⟨XR.lift F.expm1 (.fin (-1)) .pinf a.val, sign a⟩
  log a := ⟨XR.lift (fun x => if 0 < x then F.log x else if x = 0 then .ninf else .nan) .nan .pinf a.val, false⟩
  log10 a := ⟨XR.lift (fun x => if 0 < x then F.log10 x else if x = 0 then .ninf else .nan) .nan .pinf a.val, false⟩
  sqrt a := ⟨IE.round F (XR.lift (fun x => if 0 ≤ x then .fin (Real.sqrt x) else .nan) .nan .pinf a.val), sign a⟩
  cos a := ⟨XR.lift F.cos .nan .nan a.val, false⟩
  pow a b := ⟨if isMinusZero a && odd b.val && XR.lt b.val (.fin 0) then .ninf else (Arith.pow a.forget b.forget).val,
    sign a && odd b.val⟩
  toInt a := Arith.toInt a.forget

end SZ
end Opac
