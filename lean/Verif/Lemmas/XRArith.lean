import Verif.Lemmas.RealAttr
import Verif.Model.Constants
import Verif.Lemmas.RealArith
import Mathlib.Tactic.Positivity
import Mathlib.Analysis.SpecialFunctions.Log.Base

/-!
# Finite values of `XR` compute like the reals
-/

namespace Opac.XR
open Arith

@[axr] theorem fin_add (a b : ℝ) : (XR.fin a + XR.fin b : XR) = .fin (a + b) := rfl
@[axr] theorem fin_sub (a b : ℝ) : (XR.fin a - XR.fin b : XR) = .fin (a - b) := by
  show XR.fin (a + -b) = _; rw [sub_eq_add_neg]
@[axr] theorem fin_mul (a b : ℝ) : (XR.fin a * XR.fin b : XR) = .fin (a * b) := rfl
@[axr] theorem fin_neg (a : ℝ) : (-XR.fin a : XR) = .fin (-a) := rfl
@[axr] theorem fin_div {a b : ℝ} (hb : b ≠ 0) : (XR.fin a / XR.fin b : XR) = .fin (a / b) := by
  show XR.div (.fin a) (.fin b) = _
  simp only [XR.div, if_neg hb]
@[axr] theorem fin_lit (q : ℚ) : (lit q : XR) = .fin (q : ℝ) := rfl
@[axr] theorem fin_pi : (Arith.pi : XR) = .fin Real.pi := rfl
@[axr] theorem fin_infinity : (Arith.infinity : XR) = .pinf := rfl
@[axr] theorem fin_dmin : (Arith.dmin : XR) = .fin (2 ^ (-1022 : ℤ)) := rfl
@[axr] theorem fin_abs (a : ℝ) : (Arith.abs (XR.fin a) : XR) = .fin |a| := rfl
@[axr] theorem fin_exp (a : ℝ) : (Arith.exp (XR.fin a) : XR) = .fin (Real.exp a) := rfl
@[axr] theorem fin_expm1 (a : ℝ) : (Arith.expm1 (XR.fin a) : XR) = .fin (Real.exp a - 1) := rfl
@[axr] theorem fin_log10 {a : ℝ} (h : 0 < a) : (Arith.log10 (XR.fin a) : XR) = .fin (Real.logb 10 a) := by
  show (if 0 < a then XR.fin (Real.logb 10 a) else if a = 0 then .ninf else .nan) = _
  rw [if_pos h]
theorem fin_pow {a b : ℝ} (h : 0 < a) : (Arith.pow (XR.fin a) (XR.fin b) : XR) = .fin (a ^ b) := by
  show XR.pow (.fin a) (.fin b) = _
  by_cases hb : b = 0
  · simp [XR.pow, hb]
  · simp [XR.pow, hb, h]
@[axr] theorem fin_lt (a b : ℝ) : (Arith.lt (XR.fin a) (XR.fin b) = true) = (a < b) := by
  show (XR.lt _ _ = true) = _; simp [XR.lt]
@[axr] theorem fin_le (a b : ℝ) : (Arith.le (XR.fin a) (XR.fin b) = true) = (a ≤ b) := by
  show (XR.le _ _ = true) = _; simp [XR.le]
@[axr] theorem fin_gt (a b : ℝ) : (Arith.gt (XR.fin a) (XR.fin b) = true) = (b < a) := fin_lt b a
@[axr] theorem fin_ge (a b : ℝ) : (Arith.ge (XR.fin a) (XR.fin b) = true) = (b ≤ a) := fin_le b a
@[axr] theorem fin_eqb (a b : ℝ) : (Arith.eqb (XR.fin a) (XR.fin b) = true) = (a = b) := by
  show (XR.eqb _ _ = true) = _; simp [XR.eqb]
@[axr] theorem fin_isNaN (a : ℝ) : Arith.isNaN (XR.fin a) = false := rfl
@[axr] theorem fin_isInf (a : ℝ) : Arith.isInf (XR.fin a) = false := rfl

@[axr] theorem fin_SMALL : (Robust.SMALL : XR) = .fin Robust.SMALL := by
  rw [real_SMALL]
  simp only [Robust.SMALL, axr]
  norm_num

theorem fin_ratio {a b : ℝ} (hb : 0 ≤ b) : (Robust.ratio (XR.fin a) (XR.fin b) : XR) = .fin (a / (b + Robust.SMALL)) := by
  have := SMALL_pos
  have hs : Robust.sgn (XR.fin b) = 1 := by
    have h1 : Arith.le (lit 0) (XR.fin b) = true := by simpa only [axr, Rat.cast_zero] using hb
    have h2 : ¬ Arith.lt (XR.fin b) (lit 0) = true := by
      simp only [axr, Rat.cast_zero]; exact not_lt.2 hb
    unfold Robust.sgn
    rw [if_pos h1, if_neg h2]; rfl
  unfold Robust.ratio
  rw [hs]
  simp only [axr]
  push_cast
  rw [fin_div (by positivity), one_mul]

end Opac.XR
