import Verif.Lemmas.LogSlope
import Mathlib.Analysis.Convex.SpecificFunctions.Basic
import Mathlib.Analysis.Convex.Slope

/-!
# The weights of mean opacities vary slowly
-/

namespace Opac.Slopes
open Spec Real

/-- `x / (e^x - 1)` decreases -/
theorem phi1 {x y : ℝ} (hx : 0 < x) (hxy : x ≤ y) : y * (exp x - 1) ≤ x * (exp y - 1) := by
  have := convexOn_exp.secant_mono (a := 0) (x := x) (y := y) trivial trivial trivial hx.ne' (by linarith) hxy
  rw [exp_zero, sub_zero, sub_zero, div_le_div_iff₀ hx (by linarith)] at this
  linarith

/-- `x / (1 - e^-x)` increases -/
theorem phi2 {x y : ℝ} (hx : 0 < x) (hxy : x ≤ y) : x * (1 - exp (-y)) ≤ y * (1 - exp (-x)) := by
  have := convexOn_exp.secant_mono (a := 0) (x := -y) (y := -x) trivial trivial trivial (by linarith) (by linarith) (by linarith)
  rw [exp_zero, sub_zero, sub_zero, ← neg_div_neg_eq, ← neg_div_neg_eq (exp (-x) - 1), div_le_div_iff₀ (by linarith) (by linarith)] at this
  linarith

theorem log_step {x y : ℝ} (hx : 0 < x) (hxy : x ≤ y) : y - x ≤ y * (log y - log x) := by
  have hy : 0 < y := by linarith
  have := one_sub_inv_le_log_of_pos (div_pos hy hx)
  rw [inv_div, log_div hy.ne' hx.ne'] at this
  have := mul_le_mul_of_nonneg_left this hy.le
  rw [mul_sub, mul_one, mul_div_cancel₀ _ hy.ne'] at this
  exact this

/-- in the variable `x = hν / kT` -/
theorem exp_step {b x y m M : ℝ} (hb : 0 < b) (hx : 0 < x) (hxy : x ≤ y) (hM : y ≤ M) (hm : b * M ≤ m) :
    exp (b * y - b * x) ≤ exp (m * (log y - log x)) := by
  refine exp_le_exp.2 ?_
  have h1 := log_step hx hxy
  have h2 : 0 ≤ log y - log x := sub_nonneg.2 (log_le_log hx hxy)
  calc b * y - b * x = b * (y - x) := by ring
    _ ≤ b * (y * (log y - log x)) := mul_le_mul_of_nonneg_left h1 hb.le
    _ = b * y * (log y - log x) := by ring
    _ ≤ m * (log y - log x) := mul_le_mul_of_nonneg_right ((mul_le_mul_of_nonneg_left hM hb.le).trans hm) h2

theorem pow_step {x y m : ℝ} (n : ℕ) (hx : 0 < x) (hxy : x ≤ y) (hm : n ≤ m) : (y / x) ^ n ≤ exp (m * (log y - log x)) := by
  have hy : 0 < y := by linarith
  have h2 : 0 ≤ log y - log x := sub_nonneg.2 (log_le_log hx hxy)
  rw [← exp_log (div_pos hy hx), ← exp_nat_mul, log_div hy.ne' hx.ne']
  exact exp_le_exp.2 (mul_le_mul_of_nonneg_right hm h2)

/-- Planck's law -/
theorem planck_core {b A B C : ℝ} (hb : 0 < b) (hA : 0 < A) (hC : 0 ≤ C) :
    SlopeAtMost (max 4 (b * B)) A B fun ν => C * (ν ^ 4 / (exp (b * ν) - 1)) := by
  refine const_mul ?_ hC
  have e0 : ∀ {x}, 0 < x → 0 < exp (b * x) - 1 := fun {x} hx => by
    have := add_one_lt_exp (mul_pos hb hx).ne'
    have := mul_pos hb hx
    linarith
  refine of_le hA (fun x hx y hy hxy => ?_) (fun x hx y hy hxy => ?_)
  · have x0 : 0 < x := hA.trans_le hx.1
    have y0 : 0 < y := x0.trans_le hxy
    have k := phi1 (mul_pos hb x0) (mul_le_mul_of_nonneg_left hxy hb.le)
    refine le_trans ?_ (mul_le_mul_of_nonneg_right (pow_step (m := max 4 (b * B)) 3 x0 hxy (le_trans (by norm_num) (le_max_left _ _)))
      (div_nonneg (by positivity) (e0 x0).le))
    rw [div_pow, ← mul_div_assoc, div_le_div_iff₀ (e0 y0) (e0 x0)]
    have e : y ^ 3 / x ^ 3 * x ^ 4 = y ^ 3 * x := by field_simp
    rw [e]
    have : y * (exp (b * x) - 1) ≤ x * (exp (b * y) - 1) := by
      have : b * (y * (exp (b * x) - 1)) ≤ b * (x * (exp (b * y) - 1)) := by linarith
      exact le_of_mul_le_mul_left this hb
    nlinarith [pow_pos y0 3]
  · have x0 : 0 < x := hA.trans_le hx.1
    have y0 : 0 < y := x0.trans_le hxy
    refine le_trans ?_ (mul_le_mul_of_nonneg_right (exp_step hb x0 hxy hy.2 (le_max_right 4 (b * B)))
      (div_nonneg (by positivity) (e0 y0).le))
    have k := phi2 (mul_pos hb x0) (mul_le_mul_of_nonneg_left hxy hb.le)
    rw [← mul_div_assoc, div_le_div_iff₀ (e0 x0) (e0 y0), show exp (b * y - b * x) = exp (b * y) * (exp (b * x))⁻¹ by rw [← exp_neg, ← exp_add]; rfl]
    rw [exp_neg, exp_neg] at k
    have hex := exp_pos (b * x)
    have hey := exp_pos (b * y)
    have k' : x * (1 - (exp (b * y))⁻¹) ≤ y * (1 - (exp (b * x))⁻¹) := by
      have : b * (x * (1 - (exp (b * y))⁻¹)) ≤ b * (y * (1 - (exp (b * x))⁻¹)) := by linarith
      exact le_of_mul_le_mul_left this hb
    have h3 : x ^ 3 ≤ y ^ 3 := pow_le_pow_left₀ x0.le hxy 3
    have h1 : 0 ≤ 1 - (exp (b * y))⁻¹ := by
      rw [sub_nonneg]; exact inv_le_one_of_one_le₀ (one_le_exp (by positivity))
    calc x ^ 4 * (exp (b * y) - 1) = x ^ 3 * (x * (1 - (exp (b * y))⁻¹)) * exp (b * y) := by field_simp
      _ ≤ y ^ 3 * (y * (1 - (exp (b * x))⁻¹)) * exp (b * y) := by gcongr
      _ = _ := by field_simp

/-- its temperature derivative -/
theorem rosseland_core {b A B C : ℝ} (hb : 0 < b) (hA : 0 < A) (hC : 0 ≤ C) :
    SlopeAtMost (max 4 (b * B)) A B fun ν => C * (ν ^ 5 * exp (-(b * ν)) / (1 - exp (-(b * ν))) ^ 2) := by
  refine const_mul ?_ hC
  have e0 : ∀ {x}, 0 < x → 0 < 1 - exp (-(b * x)) := fun {x} hx => by
    have : exp (-(b * x)) < 1 := by rw [← exp_zero]; exact exp_lt_exp.2 (by have := mul_pos hb hx; linarith)
    linarith
  refine of_le hA (fun x hx y hy hxy => ?_) (fun x hx y hy hxy => ?_)
  · have x0 : 0 < x := hA.trans_le hx.1
    have y0 : 0 < y := x0.trans_le hxy
    refine le_trans ?_ (mul_le_mul_of_nonneg_right (pow_step (m := max 4 (b * B)) 4 x0 hxy (le_max_left _ _))
      (div_nonneg (mul_nonneg (by positivity) (exp_pos _).le) (by positivity)))
    have k := phi1 (mul_pos hb x0) (mul_le_mul_of_nonneg_left hxy hb.le)
    have k' : y * (exp (b * x) - 1) ≤ x * (exp (b * y) - 1) := by
      have : b * (y * (exp (b * x) - 1)) ≤ b * (x * (exp (b * y) - 1)) := by linarith
      exact le_of_mul_le_mul_left this hb
    have hex := exp_pos (b * x)
    have hey := exp_pos (b * y)
    have e1 : exp (b * x) - 1 = exp (b * x) * (1 - exp (-(b * x))) := by rw [exp_neg]; field_simp
    have e2 : exp (b * y) - 1 = exp (b * y) * (1 - exp (-(b * y))) := by rw [exp_neg]; field_simp
    rw [e1, e2] at k'
    have k2 : y * exp (-(b * y)) * (1 - exp (-(b * x))) ≤ x * exp (-(b * x)) * (1 - exp (-(b * y))) := by
      have := mul_le_mul_of_nonneg_left k' (mul_pos (inv_pos.2 hex) (inv_pos.2 hey)).le
      rw [exp_neg (b * x), exp_neg (b * y)] at *
      calc _ = (exp (b * x))⁻¹ * (exp (b * y))⁻¹ * (y * (exp (b * x) * (1 - (exp (b * x))⁻¹))) := by field_simp
        _ ≤ _ := this
        _ = _ := by field_simp
    have k3 : 1 - exp (-(b * x)) ≤ 1 - exp (-(b * y)) := by
      have : exp (-(b * y)) ≤ exp (-(b * x)) := exp_le_exp.2 (by nlinarith)
      linarith
    have ux := e0 x0
    have uy := e0 y0
    have vx := exp_pos (-(b * x))
    have vy := exp_pos (-(b * y))
    rw [div_pow, ← mul_div_assoc, div_le_div_iff₀ (by positivity) (by positivity)]
    have e : y ^ 4 / x ^ 4 * (x ^ 5 * exp (-(b * x))) = y ^ 4 * (x * exp (-(b * x))) := by field_simp
    rw [e]
    calc y ^ 5 * exp (-(b * y)) * (1 - exp (-(b * x))) ^ 2 =
          y ^ 4 * (y * exp (-(b * y)) * (1 - exp (-(b * x)))) * (1 - exp (-(b * x))) := by ring
      _ ≤ y ^ 4 * (x * exp (-(b * x)) * (1 - exp (-(b * y)))) * (1 - exp (-(b * y))) := by gcongr
      _ = _ := by ring
  · have x0 : 0 < x := hA.trans_le hx.1
    have y0 : 0 < y := x0.trans_le hxy
    refine le_trans ?_ (mul_le_mul_of_nonneg_right (exp_step hb x0 hxy hy.2 (le_max_right 4 (b * B)))
      (div_nonneg (mul_nonneg (by positivity) (exp_pos _).le) (by positivity)))
    have k := phi2 (mul_pos hb x0) (mul_le_mul_of_nonneg_left hxy hb.le)
    have k' : x * (1 - exp (-(b * y))) ≤ y * (1 - exp (-(b * x))) := by
      have : b * (x * (1 - exp (-(b * y)))) ≤ b * (y * (1 - exp (-(b * x)))) := by linarith
      exact le_of_mul_le_mul_left this hb
    have ux := e0 x0
    have uy := e0 y0
    have vx := exp_pos (-(b * x))
    have vy := exp_pos (-(b * y))
    rw [← mul_div_assoc, div_le_div_iff₀ (by positivity) (by positivity)]
    have ee : exp (b * y - b * x) * exp (-(b * y)) = exp (-(b * x)) := by rw [← exp_add]; congr 1; ring
    have h3 : x ^ 3 ≤ y ^ 3 := pow_le_pow_left₀ x0.le hxy 3
    calc x ^ 5 * exp (-(b * x)) * (1 - exp (-(b * y))) ^ 2 = x ^ 3 * exp (-(b * x)) * (x * (1 - exp (-(b * y)))) ^ 2 := by ring
      _ ≤ y ^ 3 * exp (-(b * x)) * (y * (1 - exp (-(b * x)))) ^ 2 := by gcongr
      _ = _ := by rw [← ee]; ring

/-- the Fermi-Dirac law -/
theorem fermi_core {b A B C : ℝ} (hb : 0 < b) (hA : 0 < A) (hC : 0 ≤ C) :
    SlopeAtMost (max 4 (b * B)) A B fun ν => C * (ν ^ 4 / (exp (b * ν) + 1)) := by
  refine const_mul ?_ hC
  have e0 : ∀ {x}, 0 < exp (b * x) + 1 := fun {x} => by have := exp_pos (b * x); linarith
  refine of_le hA (fun x hx y hy hxy => ?_) (fun x hx y hy hxy => ?_)
  · have x0 : 0 < x := hA.trans_le hx.1
    have y0 : 0 < y := x0.trans_le hxy
    refine le_trans ?_ (mul_le_mul_of_nonneg_right (pow_step (m := max 4 (b * B)) 4 x0 hxy (le_max_left _ _))
      (div_nonneg (by positivity) e0.le))
    rw [div_pow, ← mul_div_assoc, div_mul_cancel₀ _ (by positivity)]
    have : exp (b * x) ≤ exp (b * y) := exp_le_exp.2 (mul_le_mul_of_nonneg_left hxy hb.le)
    gcongr
  · have x0 : 0 < x := hA.trans_le hx.1
    have y0 : 0 < y := x0.trans_le hxy
    refine le_trans ?_ (mul_le_mul_of_nonneg_right (exp_step hb x0 hxy hy.2 (le_max_right 4 (b * B)))
      (div_nonneg (by positivity) e0.le))
    rw [← mul_div_assoc, div_le_div_iff₀ e0 e0]
    have h4 : x ^ 4 ≤ y ^ 4 := pow_le_pow_left₀ x0.le hxy 4
    have hle : exp (b * x) ≤ exp (b * y) := exp_le_exp.2 (mul_le_mul_of_nonneg_left hxy hb.le)
    have ee : exp (b * y) = exp (b * y - b * x) * exp (b * x) := by rw [← exp_add]; congr 1; ring
    have h1 : 1 ≤ exp (b * y - b * x) := one_le_exp (by nlinarith)
    have : exp (b * y) + 1 ≤ exp (b * y - b * x) * (exp (b * x) + 1) := by rw [mul_add, ← ee]; linarith
    calc x ^ 4 * (exp (b * y) + 1) ≤ y ^ 4 * (exp (b * y - b * x) * (exp (b * x) + 1)) := by gcongr
      _ = _ := by ring

section
variable {h k c T A B : ℝ} (hh : 0 < h) (hk : 0 < k) (hc : 0 < c) (hT : 0 < T) (hA : 0 < A)
include hh hk hc hT hA

theorem planckLaw_slope : SlopeAtMost (max 4 (h * B / (k * T))) A B fun ν => ν * planckLaw h k c T ν := by
  have := planck_core (b := h / (k * T)) (A := A) (B := B) (C := 2 * h / c ^ 2) (by positivity) hA (by positivity)
  rw [div_mul_eq_mul_div] at this
  convert this using 1
  funext ν
  unfold planckLaw
  rw [div_mul_eq_mul_div h]
  ring

theorem planckLawDT_slope : SlopeAtMost (max 4 (h * B / (k * T))) A B fun ν => ν * planckLawDT h k c T ν := by
  have := rosseland_core (b := h / (k * T)) (A := A) (B := B) (C := 2 * h ^ 2 / (T ^ 2 * c ^ 2 * k)) (by positivity) hA (by positivity)
  rw [div_mul_eq_mul_div] at this
  convert this using 1
  funext ν
  unfold planckLawDT
  rw [div_mul_eq_mul_div h]
  ring

end

end Opac.Slopes
