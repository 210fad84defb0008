import Verif.Lemmas.RealAttr
import Verif.Model.Base
import Verif.Model.Constants
import Mathlib.Tactic.NormNum
import Mathlib.Tactic.Ring
import Mathlib.Tactic.FieldSimp
import Mathlib.Tactic.Positivity

/-! The operations of `Arith ℝ` are the ordinary ones. -/

namespace Opac
open Arith

@[areal] theorem real_add (a b : ℝ) : @HAdd.hAdd ℝ ℝ ℝ (@instHAdd ℝ (Arith.toAdd)) a b = a + b := rfl
@[areal] theorem real_sub (a b : ℝ) : @HSub.hSub ℝ ℝ ℝ (@instHSub ℝ (Arith.toSub)) a b = a - b := rfl
@[areal] theorem real_mul (a b : ℝ) : @HMul.hMul ℝ ℝ ℝ (@instHMul ℝ (Arith.toMul)) a b = a * b := rfl
@[areal] theorem real_div (a b : ℝ) : @HDiv.hDiv ℝ ℝ ℝ (@instHDiv ℝ (Arith.toDiv)) a b = a / b := rfl
@[areal] theorem real_neg (a : ℝ) : @Neg.neg ℝ (Arith.toNeg) a = -a := rfl
@[areal] theorem real_lit (q : ℚ) : (lit q : ℝ) = (q : ℝ) := rfl
@[areal] theorem real_pi : (Arith.pi : ℝ) = Real.pi := rfl
@[areal] theorem real_dmin : (dmin : ℝ) = 2 ^ (-1022 : ℤ) := rfl
@[areal] theorem real_deps : (deps : ℝ) = 2 ^ (-52 : ℤ) := rfl
@[areal] theorem real_lt (a b : ℝ) : (Arith.lt a b = true) ↔ a < b := by simp [Arith.lt]
@[areal] theorem real_le (a b : ℝ) : (Arith.le a b = true) ↔ a ≤ b := by simp [Arith.le]
@[areal] theorem real_eqb (a b : ℝ) : (Arith.eqb a b = true) ↔ a = b := by simp [Arith.eqb]
@[areal] theorem real_isNaN (a : ℝ) : Arith.isNaN a = false := rfl
@[areal] theorem real_isInf (a : ℝ) : Arith.isInf a = false := rfl
@[areal] theorem real_abs (a : ℝ) : Arith.abs a = |a| := rfl
@[areal] theorem real_exp (a : ℝ) : Arith.exp a = Real.exp a := rfl
@[areal] theorem real_expm1 (a : ℝ) : Arith.expm1 a = Real.exp a - 1 := rfl
@[areal] theorem real_log (a : ℝ) : Arith.log a = Real.log a := rfl
@[areal] theorem real_log10 (a : ℝ) : Arith.log10 a = Real.logb 10 a := rfl
@[areal] theorem real_sqrt (a : ℝ) : Arith.sqrt a = Real.sqrt a := rfl
@[areal] theorem real_cos (a : ℝ) : Arith.cos a = Real.cos a := rfl
@[areal] theorem real_pow (a b : ℝ) : Arith.pow a b = a ^ b := rfl
@[areal] theorem real_stdMax (a b : ℝ) : stdMax a b = max a b := by
  unfold stdMax
  by_cases h : a < b
  · rw [if_pos ((real_lt a b).2 h), max_eq_right h.le]
  · rw [if_neg (by rw [real_lt]; exact h), max_eq_left (not_lt.1 h)]
@[areal] theorem real_stdMin (a b : ℝ) : stdMin a b = min a b := by
  unfold stdMin
  by_cases h : b < a
  · rw [if_pos ((real_lt b a).2 h), min_eq_right h.le]
  · rw [if_neg (by rw [real_lt]; exact h), min_eq_left (not_lt.1 h)]

theorem dmin_pos : (0 : ℝ) < 2 ^ (-1022 : ℤ) := by positivity
theorem deps_pos : (0 : ℝ) < 2 ^ (-52 : ℤ) := by positivity

/-- `robust::SMALL` at ℝ -/
theorem real_SMALL : (Robust.SMALL : ℝ) = 10 * 2 ^ (-1022 : ℤ) := by
  simp [Robust.SMALL, areal]
theorem real_EPS : (Robust.EPS : ℝ) = 10 * 2 ^ (-52 : ℤ) := by
  simp [Robust.EPS, areal]

theorem SMALL_pos : (0 : ℝ) < Robust.SMALL := by rw [real_SMALL]; positivity
theorem EPS_pos : (0 : ℝ) < Robust.EPS := by rw [real_EPS]; positivity

theorem sgn_nonneg {b : ℝ} (h : 0 ≤ b) : Robust.sgn b = 1 := by
  unfold Robust.sgn
  have h1 : Arith.le (lit 0) b = true := by rw [real_le]; simpa [areal] using h
  have h2 : Arith.lt b (lit 0) = false := by
    rw [Bool.eq_false_iff, ne_eq, real_lt]; simpa [areal] using h
  simp [h1, h2]

theorem sgn_neg {b : ℝ} (h : b < 0) : Robust.sgn b = -1 := by
  unfold Robust.sgn
  have h1 : Arith.le (lit 0) b = false := by
    rw [Bool.eq_false_iff, ne_eq, real_le]; simpa [areal] using h
  have h2 : Arith.lt b (lit 0) = true := by rw [real_lt]; simpa [areal] using h
  simp [h1, h2]

/-- `robust::ratio` at ℝ for a nonnegative denominator -/
theorem ratio_nonneg {a b : ℝ} (h : 0 ≤ b) : Robust.ratio a b = a / (b + Robust.SMALL) := by
  unfold Robust.ratio; rw [sgn_nonneg h]; simp [areal]

theorem ratio_neg {a b : ℝ} (h : b < 0) : Robust.ratio a b = a / (b - Robust.SMALL) := by
  unfold Robust.ratio; rw [sgn_neg h]; simp [areal]; ring

end Opac
