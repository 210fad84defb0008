import Verif.Lemmas.Midpoint
import Verif.Lemmas.WholeFermi

/-!
# Thermal spectra per logarithmic frequency interval, and how they bend
-/

namespace Opac.ThermalCurves
open Opac Spec MeasureTheory Real Midpoint

/-- `σ = 1`: Fermi-Dirac, `σ = -1`: Planck -/
noncomputable def curve (C b σ u : ℝ) : ℝ := C * exp (4 * u) / (exp (b * exp u) + σ)

/-- minus the logarithmic slope, plus 4 -/
noncomputable def drop (b σ u : ℝ) : ℝ := b * exp u * exp (b * exp u) / (exp (b * exp u) + σ)

structure Statistics (σ : ℝ) : Prop where
  pos : ∀ X, 0 < X → 0 < exp X + σ
  low : ∀ X, 0 < X → -(exp X + σ) ≤ σ * X
  high : ∀ X, 0 < X → 2 * (σ * X) ≤ exp X + σ

theorem fermi_statistics : Statistics 1 := by
  refine ⟨fun X _ => by positivity, fun X hX => ?_, fun X hX => ?_⟩
  · have := exp_pos X; linarith
  · have := quadratic_le_exp_of_nonneg hX.le
    nlinarith [sq_nonneg (X - 1)]

theorem planck_statistics : Statistics (-1) := by
  refine ⟨fun X hX => ?_, fun X hX => ?_, fun X hX => ?_⟩ <;>
  · have := add_one_lt_exp hX.ne'
    linarith

section
variable {C b σ : ℝ} (S : Statistics σ) (hC : 0 < C) (hb : 0 < b)
include S hC hb

theorem curve_pos (u : ℝ) : 0 < curve C b σ u := by
  have := S.pos (b * exp u) (by positivity)
  unfold curve
  positivity

omit hC in
theorem drop_pos (u : ℝ) : 0 < drop b σ u := by
  have := S.pos (b * exp u) (by positivity)
  unfold drop
  positivity

omit hC in
theorem drop_deriv (u : ℝ) : HasDerivAt (drop b σ) (drop b σ u * (1 + b * exp u - drop b σ u)) u := by
  have hD := S.pos (b * exp u) (by positivity)
  have hX : HasDerivAt (fun u => b * exp u) (b * exp u) u := (Real.hasDerivAt_exp u).const_mul b
  have hE : HasDerivAt (fun u => exp (b * exp u)) (exp (b * exp u) * (b * exp u)) u := hX.exp
  refine ((hX.mul hE).div (hE.add_const σ) hD.ne').congr_deriv ?_
  simp only [Pi.mul_apply]
  unfold drop
  field_simp

omit hC in
theorem curve_deriv (u : ℝ) : HasDerivAt (curve C b σ) (curve C b σ u * (4 - drop b σ u)) u := by
  have hD := S.pos (b * exp u) (by positivity)
  have hX : HasDerivAt (fun u => b * exp u) (b * exp u) u := (Real.hasDerivAt_exp u).const_mul b
  have hE : HasDerivAt (fun u => exp (b * exp u)) (exp (b * exp u) * (b * exp u)) u := hX.exp
  have h4 : HasDerivAt (fun u => C * exp (4 * u)) (C * (exp (4 * u) * 4)) u := by
    have : HasDerivAt (fun u : ℝ => 4 * u) 4 u := by simpa using (hasDerivAt_id u).const_mul (4 : ℝ)
    exact this.exp.const_mul C
  refine (h4.div (hE.add_const σ) hD.ne').congr_deriv ?_
  unfold curve drop
  field_simp

theorem curve_bends : Bends (curve C b σ) (fun u => curve C b σ u * (4 - drop b σ u))
    (fun u => curve C b σ u * (4 - drop b σ u) ^ 2 - curve C b σ u * (drop b σ u * (1 + b * exp u - drop b σ u)))
    (fun u => 12 * (∫ w in (0 : ℝ)..u, curve C b σ w) + curve C b σ u - curve C b σ u * drop b σ u)
    (fun u => 12 * curve C b σ u + curve C b σ u * (4 - drop b σ u) -
      (curve C b σ u * (4 - drop b σ u) * drop b σ u + curve C b σ u * (drop b σ u * (1 + b * exp u - drop b σ u)))) := by
  have hc : Continuous (curve C b σ) := continuous_iff_continuousAt.2 fun u => (curve_deriv S hb u).continuousAt
  refine ⟨curve_deriv S hb, fun u => ?_, fun u => ?_, fun u => ?_⟩
  · refine ((curve_deriv S hb u).mul ((drop_deriv S hb u).const_sub 4)).congr_deriv ?_
    ring
  · exact ((((hc.integral_hasStrictDerivAt 0 u).hasDerivAt).const_mul 12).add (curve_deriv S hb u)).sub
      ((curve_deriv S hb u).mul (drop_deriv S hb u))
  · have hD := S.pos (b * exp u) (by positivity)
    have hf := curve_pos S hC hb u
    have hy := drop_pos S hb u
    have e : b * exp u - drop b σ u = σ * (b * exp u) / (exp (b * exp u) + σ) := by
      unfold drop; field_simp; ring
    have s1 : -1 ≤ b * exp u - drop b σ u := by
      rw [e, le_div_iff₀ hD]
      have := S.low (b * exp u) (by positivity)
      linarith
    have s2 : b * exp u - drop b σ u ≤ 1 / 2 := by
      rw [e, div_le_iff₀ hD]
      have := S.high (b * exp u) (by positivity)
      linarith
    generalize curve C b σ u = f at *
    generalize drop b σ u = y at *
    generalize b * exp u = X at *
    have hY : 0 ≤ y * (1 + X - y) := mul_nonneg hy.le (by linarith)
    have hY' : y * (1 + X - y) ≤ 3 / 2 * y := by nlinarith
    have hfY : 0 ≤ f * (y * (1 + X - y)) := mul_nonneg hf.le hY
    have hfY' : f * (y * (1 + X - y)) ≤ f * (3 / 2 * y) := mul_le_mul_of_nonneg_left hY' hf.le
    have hsq : 0 ≤ f * (4 - y) ^ 2 := by positivity
    generalize y * (1 + X - y) = Y at *
    rw [abs_le]
    constructor <;> nlinarith

/-- the bound of the midpoint rule on the window from `A` to `B` -/
theorem curve_variation (A B : ℝ) :
    (12 * (∫ w in (0 : ℝ)..B, curve C b σ w) + curve C b σ B - curve C b σ B * drop b σ B) -
      (12 * (∫ w in (0 : ℝ)..A, curve C b σ w) + curve C b σ A - curve C b σ A * drop b σ A) ≤
    12 * (∫ w in A..B, curve C b σ w) + curve C b σ B + curve C b σ A * drop b σ A := by
  have hc : Continuous (curve C b σ) := continuous_iff_continuousAt.2 fun u => (curve_deriv S hb u).continuousAt
  have e := intervalIntegral.integral_interval_sub_left (μ := volume) (hc.intervalIntegrable 0 B) (hc.intervalIntegrable 0 A)
  have h1 := curve_pos S hC hb A
  have h2 := mul_pos (curve_pos S hC hb B) (drop_pos S hb B)
  linarith

end

/-- integrals over the logarithm of the frequency -/
theorem integral_log (w : ℝ → ℝ) {A B : ℝ} (hA : 0 < A) (hAB : A ≤ B) :
    ∫ u in Real.log A..Real.log B, w (exp u) * exp u = ∫ ν in A..B, w ν := by
  have h := Convergence.integral_log10 w hA hAB
  have hl : (0 : ℝ) < Real.log 10 := Real.log_pos (by norm_num)
  have e : ∀ t : ℝ, w (10 ^ t) * 10 ^ t = (fun u => w (exp u) * exp u) (t * Real.log 10) := by
    intro t
    simp only
    rw [Real.rpow_def_of_pos (by norm_num), mul_comm (Real.log 10) t]
  simp only [e] at h
  rw [intervalIntegral.integral_comp_mul_right (fun u => w (exp u) * exp u) hl.ne', Real.logb, Real.logb, div_mul_cancel₀ _ hl.ne',
    div_mul_cancel₀ _ hl.ne', smul_eq_mul] at h
  field_simp at h
  exact h

theorem fermi_curve (g h k c T u : ℝ) :
    fermiDiracLaw g h k c T (exp u) * exp u = curve (g * (2 * h / c ^ 2)) (h / (k * T)) 1 u := by
  unfold fermiDiracLaw curve
  rw [show h * exp u / (k * T) = h / (k * T) * exp u by ring, show 4 * u = 3 * u + u by ring, exp_add,
    show exp (3 * u) = exp u ^ 3 by rw [← exp_nat_mul]; norm_num]
  ring

theorem planck_curve (h k c T u : ℝ) :
    planckLaw h k c T (exp u) * exp u = curve (2 * h / c ^ 2) (h / (k * T)) (-1) u := by
  unfold planckLaw curve
  rw [show h * exp u / (k * T) = h / (k * T) * exp u by ring, show 4 * u = 3 * u + u by ring, exp_add,
    show exp (3 * u) = exp u ^ 3 by rw [← exp_nat_mul]; norm_num]
  ring

/-- both ends of a window that covers the thermal range -/
theorem curve_edges {C b σ : ℝ} (S : Statistics σ) (hC : 0 < C) (hb : 0 < b) (hσ : -1 ≤ σ) {A B : ℝ}
    (hA : b * exp A ≤ 1.001e-3) (hB : 1e3 ≤ b * exp B) :
    curve C b σ B + curve C b σ A * drop b σ A ≤ 0.25 * (C / b ^ 4) := by
  have hq : 0 < C / b ^ 4 := by positivity
  have ec : ∀ u, curve C b σ u = C / b ^ 4 * ((b * exp u) ^ 4 / (exp (b * exp u) + σ)) := by
    intro u
    unfold curve
    rw [show exp (4 * u) = exp u ^ 4 by rw [← exp_nat_mul]; norm_num]
    field_simp
  have pA : 0 < b * exp A := by positivity
  rw [ec, ec]
  unfold drop
  generalize b * exp A = X at *
  generalize b * exp B = Y at *
  norm_num at hA hB
  have hY : 0 < Y := by linarith
  have h1 : Y ^ 4 / (exp Y + σ) ≤ 0.24 := by
    have h5 : Y ^ 5 / (5 : ℕ).factorial ≤ exp Y := Real.pow_div_factorial_le_exp _ hY.le 5
    norm_num [Nat.factorial] at h5
    have hD := S.pos Y hY
    rw [div_le_iff₀ hD]
    have h6 : (1000 : ℝ) ^ 4 ≤ Y ^ 4 := pow_le_pow_left₀ (by norm_num) hB 4
    have h7 : 1000 * Y ^ 4 ≤ Y ^ 5 := by
      rw [pow_succ Y 4, mul_comm]
      exact mul_le_mul_of_nonneg_left hB (by positivity)
    norm_num at h6 ⊢
    linarith
  have h2 : X ^ 4 / (exp X + σ) * (X * exp X / (exp X + σ)) ≤ 0.01 := by
    have hD : X ≤ exp X + σ := by have := add_one_le_exp X; linarith
    have hD' := S.pos X pA
    have he : exp X ≤ 3 := (exp_le_exp.2 (by linarith : X ≤ 1)).trans (by have := exp_one_lt_d9; linarith)
    have a1 : X ^ 4 / (exp X + σ) ≤ X ^ 3 := by
      rw [div_le_iff₀ hD', pow_succ]
      exact mul_le_mul_of_nonneg_left hD (by positivity)
    have a2 : X * exp X / (exp X + σ) ≤ 3 := by
      rw [div_le_iff₀ hD', mul_comm]
      exact mul_le_mul he hD pA.le (by norm_num)
    have a3 : X ^ 3 ≤ (1.001e-3) ^ 3 := pow_le_pow_left₀ pA.le (by norm_num; linarith) 3
    calc _ ≤ X ^ 3 * 3 := mul_le_mul a1 a2 (by positivity) (by positivity)
      _ ≤ _ := by norm_num at a3 ⊢; linarith
  have m1 := mul_le_mul_of_nonneg_left h1 hq.le
  have m2 := mul_le_mul_of_nonneg_left h2 hq.le
  rw [mul_assoc]
  norm_num at m1 m2 ⊢
  linarith

end Opac.ThermalCurves
