import Verif.Lemmas.Single
import Verif.Lemmas.XRArith

/-!
# C63: the fast logarithm behind the frequency indexers
-/

namespace Opac.Props
open BDMath

/-- C63: the logarithm never decreases. -/
theorem C63_monotone {sp : Single ℝ} (h : sp.Ordered) {x y : ℝ} (hx : 2 ^ (-126 : ℤ) ≤ x) (hxy : x ≤ y) :
    log10 sp x ≤ log10 sp y := log10_mono h hx hxy

/-- C63: for every number in the normal range of single precision, the logarithm is within `10 u (1 + |log10 x|)` —
and `10⁻⁸ |log10 x|`, for the constant of the code — of `log10 x`, where `u` is the rounding unit of the platform. -/
theorem C63_accuracy {sp : Single ℝ} {u : ℝ} (h : sp.Rounds u) (hu0 : 0 ≤ u) (hu : u ≤ 1 / 16) {x : ℝ}
    (hx : 2 ^ (-126 : ℤ) ≤ x) (hx' : x ≤ 2 ^ (127 : ℤ)) :
    |log10 sp x - Real.logb 10 x| ≤ 10 * u * (1 + |Real.logb 10 x|) + 1 / 10 ^ 8 * |Real.logb 10 x| := by
  have h1 := log10_near h hu0 hu hx hx'
  have hl := c10_log
  have l10 : 0 < Real.log 10 := Real.log_pos (by norm_num)
  have e : Real.log x = Real.log 10 * Real.logb 10 x := by rw [Real.logb]; field_simp
  set b := Real.logb 10 x with hb
  have hb0 := abs_nonneg b
  have l10' : Real.log 10 ≤ 5 / 2 := by
    rw [abs_le] at hl
    have := c10_lo
    nlinarith [hl.2]
  have s : log10 sp x - b = (log10 sp x - c10 * Real.log x) + (c10 * Real.log 10 - 1) * b := by rw [e]; ring
  rw [s]
  refine (abs_add_le _ _).trans (add_le_add (h1.trans ?_) ?_)
  · rw [e, abs_mul, abs_of_pos l10]
    have : Real.log 10 * |b| ≤ 5 / 2 * |b| := mul_le_mul_of_nonneg_right l10' hb0
    nlinarith
  · rw [abs_mul]
    exact mul_le_mul_of_nonneg_right hl hb0

/-- C63: in IEEE single precision with a correctly rounded `logf`, six digits are right over the whole normal range. -/
theorem C63_float {x : ℝ} (hx : 2 ^ (-126 : ℤ) ≤ x) (hx' : x ≤ 2 ^ (127 : ℤ)) :
    |log10 binary32 x - Real.logb 10 x| ≤ 7 / 10 ^ 7 * (1 + |Real.logb 10 x|) := by
  refine (C63_accuracy binary32_rounds (by positivity) (by norm_num) hx hx').trans ?_
  have := abs_nonneg (Real.logb 10 x)
  have e : (2 : ℝ) ^ (-24 : ℤ) = 1 / 16777216 := by norm_num
  rw [e]
  nlinarith

/-- C63: the logarithm of one is zero. -/
theorem C63_one : log10 binary32 1 = 0 := by
  rw [log10_def]
  show float32.near (float32.near (Real.log (float32.near 1)) * c10) = 0
  rw [float32.near_one, Real.log_one, float32.near_zero, zero_mul, float32.near_zero]

example : |log10 binary32 1000 - 3| ≤ 7 / 10 ^ 7 * 4 := by
  have := C63_float (x := 1000) (by norm_num) (by norm_num)
  rw [show (1000 : ℝ) = 10 ^ (3 : ℝ) by norm_num, Real.logb_rpow (by norm_num) (by norm_num)] at this
  rw [show (1000 : ℝ) = 10 ^ (3 : ℝ) by norm_num]
  refine this.trans ?_
  rw [abs_of_pos (by norm_num : (0 : ℝ) < 3)]; norm_num

/-- C63 fails in double precision: all the (infinitely many) numbers of a short interval have the same logarithm … -/
theorem C63_distinguishes_false : ∃ a b : ℝ, 0 < a ∧ a < b ∧ ∀ x, a ≤ x → x ≤ b → log10 binary32 x = log10 binary32 a := by
  refine ⟨1, 1 + 2 ^ (-25 : ℤ), by norm_num, by norm_num, fun x h0 h1 => ?_⟩
  rw [log10_def, log10_def]
  show float32.near (float32.near (Real.log (float32.near x)) * c10) =
    float32.near (float32.near (Real.log (float32.near 1)) * c10)
  rw [float32_near_above_one h0 h1, float32.near_one]

/-- … and positive finite numbers too large or too small for single precision have an infinite one. -/
theorem C63_range_false :
    (∀ x : ℝ, 2 ^ (128 : ℤ) ≤ x → log10 binary32X (.fin x) = .pinf) ∧
    ∀ x : ℝ, 0 < x → x ≤ 2 ^ (-150 : ℤ) → log10 binary32X (.fin x) = .ninf := by
  constructor
  · intro x h
    have e1 : binary32X.toFloat (.fin x) = .pinf := float32_rd_big h
    unfold log10
    rw [e1]
    show binary32X.toFloat (XR.mul .pinf _) = _
    have e : XR.signInf (43429448190325176 / 10 ^ 17) = .pinf := by norm_num [XR.signInf]
    simp [XR.mul, Arith.lit, binary32X, e]
  · intro x h0 h
    have e1 : binary32X.toFloat (.fin x) = .fin 0 := float32_rd_small h0.le h
    have e2 : binary32X.logf (.fin 0) = .ninf := by simp [binary32X]
    unfold log10
    rw [e1, e2]
    show binary32X.toFloat (XR.mul .ninf _) = _
    have e : XR.signInf (-(43429448190325176 / 10 ^ 17)) = .ninf := by norm_num [XR.signInf]
    simp [XR.mul, Arith.lit, binary32X, e]

end Opac.Props
