import Verif.Model.Arith

/-!
# Floating point with overflow, underflow and special values

`IE F` instantiates the arithmetic interface for a floating-point format `F` with its mathematical library.  Every
operation is the IEEE-754 one: the special-value rules of `XR`, and on finite operands the exact result rounded by
`F.rd`, which may underflow to zero or overflow to an infinity.  Properties proved for every `F` hold for `double` and
`float` and for every library whose functions have the listed signs.  Zero has no sign here; `Model/SignedZero`
adds it.
-/

namespace Opac
open Classical

/-- What is assumed of a floating-point format (rounding `rd` of reals) and of its mathematical library on finite
arguments.  `representable` arguments are the fixed points of `rd`. -/
structure FloatFormat where
  rd : ℝ → XR
  rd_zero : rd 0 = .fin 0
  rd_nonneg : ∀ x, 0 ≤ x → rd x = .pinf ∨ ∃ y, 0 ≤ y ∧ rd x = .fin y
  rd_neg : ∀ x, rd (-x) = (rd x).neg
  rd_idem : ∀ x y, rd x = .fin y → rd y = .fin y
  rd_one : rd 1 = .fin 1
  rd_mono : ∀ x y, x ≤ y → XR.le (rd x) (rd y) = true
  exp : ℝ → XR
  exp_zero : exp 0 = .fin 1
  exp_pos : ∀ x, 0 ≤ x → exp x = .pinf ∨ ∃ y, 1 ≤ y ∧ exp x = .fin y
  exp_neg : ∀ x, x ≤ 0 → ∃ y, 0 ≤ y ∧ y ≤ 1 ∧ exp x = .fin y
  expm1 : ℝ → XR
  expm1_zero : expm1 0 = .fin 0
  expm1_pos : ∀ x, 0 < x → rd x = .fin x → expm1 x = .pinf ∨ ∃ y, 0 < y ∧ expm1 x = .fin y
  expm1_neg : ∀ x, x < 0 → rd x = .fin x → ∃ y, -1 ≤ y ∧ y < 0 ∧ expm1 x = .fin y
  log : ℝ → XR
  log_nonneg : ∀ x, 1 ≤ x → log x = .pinf ∨ ∃ y, 0 ≤ y ∧ log x = .fin y
  log10 : ℝ → XR
  cos : ℝ → XR
  /-- positive base, finite exponent -/
  pow : ℝ → ℝ → XR
  pow_nonneg : ∀ x y, 0 < x → pow x y = .pinf ∨ ∃ z, 0 ≤ z ∧ pow x y = .fin z

/-- a value of the format `F` -/
structure IE (F : FloatFormat) where
  val : XR

namespace IE
variable {F : FloatFormat}

/-- round a finite exact result; special values stay -/
noncomputable def round (F : FloatFormat) : XR → XR
  | .fin x => F.rd x
  | v => v

/-- IEEE-754 arithmetic in the format `F`.  The smallest normal number and the spacing at one are rounded like
literals. -/
noncomputable instance instArith : Arith (IE F) where
  add a b := ⟨round F (XR.add a.val b.val)⟩
  sub a b := ⟨round F (XR.add a.val (XR.neg b.val))⟩
  mul a b := ⟨round F (XR.mul a.val b.val)⟩
  div a b := ⟨round F (XR.div a.val b.val)⟩
  neg a := ⟨XR.neg a.val⟩
  lit q := ⟨F.rd (q : ℝ)⟩
  pi := ⟨F.rd Real.pi⟩
  infinity := ⟨.pinf⟩
  dmin := ⟨F.rd (2 ^ (-1022 : ℤ))⟩
  deps := ⟨F.rd (2 ^ (-52 : ℤ))⟩
  lt a b := XR.lt a.val b.val
  le a b := XR.le a.val b.val
  eqb a b := XR.eqb a.val b.val
  isNaN a := match a.val with | .nan => true | _ => false
  isInf a := match a.val with | .ninf => true | .pinf => true | _ => false
  abs a := ⟨XR.lift (fun x => .fin |x|) .pinf .pinf a.val⟩
  exp a := ⟨XR.lift F.exp (.fin 0) .pinf a.val⟩
  expm1 a := ⟨XR.lift F.expm1 (.fin (-1)) .pinf a.val⟩
  log a := ⟨XR.lift (fun x => if 0 < x then F.log x else if x = 0 then .ninf else .nan) .nan .pinf a.val⟩
  log10 a := ⟨XR.lift (fun x => if 0 < x then F.log10 x else if x = 0 then .ninf else .nan) .nan .pinf a.val⟩
  sqrt a := ⟨round F (XR.lift (fun x => if 0 ≤ x then .fin (Real.sqrt x) else .nan) .nan .pinf a.val)⟩
  cos a := ⟨XR.lift F.cos .nan .nan a.val⟩
  pow a b := ⟨match a.val, b.val with
    | .fin x, .fin y => if 0 < x ∧ y ≠ 0 then F.pow x y else round F (XR.pow (.fin x) (.fin y))
    | v, w => XR.pow v w⟩
  toInt a := match a.val with | .fin x => if 0 ≤ x then ⌊x⌋ else ⌈x⌉ | _ => 0

end IE
end Opac
