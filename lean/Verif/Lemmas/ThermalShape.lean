import Mathlib.Analysis.Calculus.ParametricIntegral
import Mathlib.Analysis.Convex.SpecificFunctions.Basic
import Mathlib.Analysis.Calculus.Deriv.MeanValue
import Verif.Lemmas.ThermalNF

/-! Lemmas on the shape of thermal spectra: scaling, the peak, and the integral of the temperature derivative. -/

namespace Opac
open Spec Real Set MeasureTheory

/-! ## Scaling -/

theorem planckLaw_scale {h k c s : ℝ} (hs : s ≠ 0) (T ν : ℝ) :
    planckLaw h k c (s * T) (s * ν) = s ^ 3 * planckLaw h k c T ν := by
  unfold planckLaw
  rw [show h * (s * ν) / (k * (s * T)) = h * ν / (k * T) by
    rw [show h * (s * ν) = s * (h * ν) by ring, show k * (s * T) = s * (k * T) by ring, mul_div_mul_left _ _ hs]]
  ring

theorem fermiLaw_scale {g h k c s : ℝ} (hs : s ≠ 0) (T ν : ℝ) :
    fermiDiracLaw g h k c (s * T) (s * ν) = s ^ 3 * fermiDiracLaw g h k c T ν := by
  unfold fermiDiracLaw
  rw [show h * (s * ν) / (k * (s * T)) = h * ν / (k * T) by
    rw [show h * (s * ν) = s * (h * ν) by ring, show k * (s * T) = s * (k * T) by ring, mul_div_mul_left _ _ hs]]
  ring

/-! ## The peak -/

/-- `x ↦ 3(1 - e^{-x}) - x` changes sign once, between 2.82 and 2.83 -/
theorem bose_peak : ∃ X : ℝ, 2.82 < X ∧ X < 2.83 ∧ 3 * (1 - exp (-X)) = X ∧ (∀ x, 0 < x → x < X → x < 3 * (1 - exp (-x))) ∧
    ∀ x, X < x → 3 * (1 - exp (-x)) < x := by
  have hconc : StrictConcaveOn ℝ univ (fun x : ℝ => 3 * (1 - exp (-x)) - x) := by
    refine ⟨convex_univ, fun x _ y _ hxy a b ha hb hab => ?_⟩
    have := strictConvexOn_exp.2 (mem_univ (-x)) (mem_univ (-y)) (by simpa using hxy) ha hb hab
    simp only [smul_eq_mul] at this ⊢
    rw [show a * -x + b * -y = -(a * x + b * y) by ring] at this
    nlinarith
  have hcont : Continuous (fun x : ℝ => 3 * (1 - exp (-x)) - x) := by fun_prop
  have h1 : 0 < 3 * (1 - exp (-(2.82 : ℝ))) - 2.82 := by
    have : (50 / 3 : ℝ) < exp 2.82 := by
      refine lt_of_pow_lt_pow_left₀ 50 (exp_pos _).le ?_
      rw [← exp_nat_mul, show ((50 : ℕ) : ℝ) * 2.82 = (141 : ℕ) * 1 by norm_num, exp_nat_mul]
      exact lt_of_lt_of_le (by norm_num) (pow_le_pow_left₀ (by norm_num) exp_one_gt_d9.le 141)
    have h2 : exp (-(2.82 : ℝ)) < 3 / 50 := by
      rw [exp_neg, inv_lt_comm₀ (exp_pos _) (by norm_num)]
      norm_num at this ⊢
      exact this
    linarith
  have h2 : 3 * (1 - exp (-(2.83 : ℝ))) - 2.83 < 0 := by
    have : exp (2.83 : ℝ) < 300 / 17 := by
      refine lt_of_pow_lt_pow_left₀ 100 (by norm_num) ?_
      rw [← exp_nat_mul, show ((100 : ℕ) : ℝ) * 2.83 = (283 : ℕ) * 1 by norm_num, exp_nat_mul]
      refine lt_of_le_of_lt (pow_le_pow_left₀ (exp_pos _).le exp_one_lt_d9.le 283) ?_
      rw [show (283 : ℕ) = 141 + 142 by norm_num, pow_add]
      norm_num
    have h2 : 17 / 300 < exp (-(2.83 : ℝ)) := by
      rw [exp_neg, lt_inv_comm₀ (by norm_num) (exp_pos _)]
      norm_num at this ⊢
      exact this
    linarith
  obtain ⟨X, ⟨hX1, hX2⟩, hX⟩ := intermediate_value_Icc' (show (2.82 : ℝ) ≤ 2.83 by norm_num) hcont.continuousOn
    (show (0 : ℝ) ∈ Icc _ _ from ⟨h2.le, h1.le⟩)
  simp only at hX
  have hX1' : 2.82 < X := lt_of_le_of_ne hX1 (by rintro rfl; linarith)
  have hX2' : X < 2.83 := lt_of_le_of_ne hX2 (by rintro rfl; linarith)
  have X0 : 0 < X := by linarith
  refine ⟨X, hX1', hX2', by linarith, fun x x0 hx => ?_, fun x hx => ?_⟩
  · have := hconc.2 (mem_univ 0) (mem_univ X) X0.ne (show 0 < 1 - x / X by rw [sub_pos, div_lt_one X0]; exact hx)
      (show 0 < x / X by positivity) (by ring)
    simp only [smul_eq_mul, hX, mul_zero, neg_zero, exp_zero, sub_self, add_zero, zero_add] at this
    rw [div_mul_cancel₀ _ X0.ne'] at this
    linarith
  · have x0 : 0 < x := X0.trans hx
    have := hconc.2 (mem_univ 0) (mem_univ x) x0.ne (show 0 < 1 - X / x by rw [sub_pos, div_lt_one x0]; exact hx)
      (show 0 < X / x by positivity) (by ring)
    simp only [smul_eq_mul, mul_zero, neg_zero, exp_zero, sub_self, zero_add] at this
    rw [div_mul_cancel₀ _ x0.ne', hX] at this
    by_contra hc
    push Not at hc
    have : 0 ≤ X / x * (3 * (1 - exp (-x)) - x) := mul_nonneg (by positivity) (by linarith)
    linarith

/-- `x ↦ 3(1 + e^{-x}) - x` changes sign once, between 3.13 and 3.14 -/
theorem fermi_peak : ∃ X : ℝ, 3.13 < X ∧ X < 3.14 ∧ 3 * (1 + exp (-X)) = X ∧ (∀ x, x < X → x < 3 * (1 + exp (-x))) ∧
    ∀ x, X < x → 3 * (1 + exp (-x)) < x := by
  have hcont : Continuous (fun x : ℝ => 3 * (1 + exp (-x)) - x) := by fun_prop
  have h1 : 0 < 3 * (1 + exp (-(3.13 : ℝ))) - 3.13 := by
    have : exp (3.13 : ℝ) < 300 / 13 := by
      refine lt_of_pow_lt_pow_left₀ 100 (by norm_num) ?_
      rw [← exp_nat_mul, show ((100 : ℕ) : ℝ) * 3.13 = (313 : ℕ) * 1 by norm_num, exp_nat_mul]
      refine lt_of_le_of_lt (pow_le_pow_left₀ (exp_pos _).le exp_one_lt_d9.le 313) ?_
      rw [show (313 : ℕ) = 156 + 157 by norm_num, pow_add]
      norm_num
    have h2 : 13 / 300 < exp (-(3.13 : ℝ)) := by
      rw [exp_neg, lt_inv_comm₀ (by norm_num) (exp_pos _)]
      norm_num at this ⊢
      exact this
    linarith
  have h2 : 3 * (1 + exp (-(3.14 : ℝ))) - 3.14 < 0 := by
    have : (300 / 14 : ℝ) < exp 3.14 := by
      refine lt_of_pow_lt_pow_left₀ 50 (exp_pos _).le ?_
      rw [← exp_nat_mul, show ((50 : ℕ) : ℝ) * 3.14 = (157 : ℕ) * 1 by norm_num, exp_nat_mul]
      exact lt_of_lt_of_le (by norm_num) (pow_le_pow_left₀ (by norm_num) exp_one_gt_d9.le 157)
    have h2 : exp (-(3.14 : ℝ)) < 14 / 300 := by
      rw [exp_neg, inv_lt_comm₀ (exp_pos _) (by norm_num)]
      norm_num at this ⊢
      exact this
    linarith
  obtain ⟨X, ⟨hX1, hX2⟩, hX⟩ := intermediate_value_Icc' (show (3.13 : ℝ) ≤ 3.14 by norm_num) hcont.continuousOn
    (show (0 : ℝ) ∈ Icc _ _ from ⟨h2.le, h1.le⟩)
  simp only at hX
  refine ⟨X, lt_of_le_of_ne hX1 (by rintro rfl; linarith), lt_of_le_of_ne hX2 (by rintro rfl; linarith), by linarith,
    fun x hx => ?_, fun x hx => ?_⟩
  · have := exp_lt_exp.2 (neg_lt_neg hx); linarith
  · have := exp_lt_exp.2 (neg_lt_neg hx); linarith

theorem cube_hasDerivAt (e : ℝ) {x : ℝ} (hx : exp x + e ≠ 0) :
    HasDerivAt (fun x : ℝ => x ^ 3 / (exp x + e)) (x ^ 2 * exp x * (3 * (1 + e * exp (-x)) - x) / (exp x + e) ^ 2) x := by
  have h := (hasDerivAt_pow 3 x).div ((Real.hasDerivAt_exp x).add_const e) hx
  have e' : x ^ 2 * exp x * (3 * (1 + e * exp (-x)) - x) / (exp x + e) ^ 2 =
      (((3 : ℕ) : ℝ) * x ^ (3 - 1) * (exp x + e) - x ^ 3 * exp x) / (exp x + e) ^ 2 := by
    rw [exp_neg]
    field_simp
    norm_num
    ring
  rw [e']
  exact h

/-- `x³/(e^x + e)` rises up to the point where `3(1 + e e^{-x}) = x` and falls beyond it -/
theorem cube_shape {e X : ℝ} (he : -1 ≤ e) (X0 : 0 < X) (h1 : ∀ x, 0 < x → x < X → x < 3 * (1 + e * exp (-x)))
    (h2 : ∀ x, X < x → 3 * (1 + e * exp (-x)) < x) :
    StrictMonoOn (fun x : ℝ => x ^ 3 / (exp x + e)) (Ioc 0 X) ∧ StrictAntiOn (fun x : ℝ => x ^ 3 / (exp x + e)) (Ici X) := by
  have hp : ∀ x : ℝ, 0 < x → 0 < exp x + e := fun x hx => by have := Real.add_one_lt_exp hx.ne'; linarith
  have hd := fun x (hx : 0 < x) => cube_hasDerivAt e (hp x hx).ne'
  constructor
  · refine strictMonoOn_of_deriv_pos (convex_Ioc 0 X) (fun x hx => (hd x hx.1).continuousAt.continuousWithinAt) fun x hx => ?_
    rw [interior_Ioc] at hx
    rw [(hd x hx.1).deriv]
    have := hp x hx.1; have := h1 x hx.1 hx.2; have x0 : 0 < x := hx.1
    exact div_pos (mul_pos (by positivity) (by linarith)) (by positivity)
  · refine strictAntiOn_of_deriv_neg (convex_Ici X)
      (fun x hx => (hd x (X0.trans_le hx)).continuousAt.continuousWithinAt) fun x hx => ?_
    rw [interior_Ici] at hx
    have x0 : 0 < x := X0.trans hx
    rw [(hd x x0).deriv]
    have := hp x x0; have := h2 x hx
    exact div_neg_of_neg_of_pos (mul_neg_of_pos_of_neg (by positivity) (by linarith)) (by positivity)

/-- a spectrum `A f(b ν)` inherits the shape of `f` -/
theorem shape_scaled {f : ℝ → ℝ} {X A b : ℝ} (hA : 0 < A) (hb : 0 < b)
    (h : StrictMonoOn f (Ioc 0 X) ∧ StrictAntiOn f (Ici X)) :
    StrictMonoOn (fun ν => A * f (b * ν)) (Ioc 0 (X / b)) ∧ StrictAntiOn (fun ν => A * f (b * ν)) (Ici (X / b)) := by
  constructor
  · intro x hx y hy hxy
    refine mul_lt_mul_of_pos_left (h.1 ⟨mul_pos hb hx.1, ?_⟩ ⟨mul_pos hb hy.1, ?_⟩ (mul_lt_mul_of_pos_left hxy hb)) hA
    · have := (le_div_iff₀ hb).1 hx.2; linarith
    · have := (le_div_iff₀ hb).1 hy.2; linarith
  · intro x hx y hy hxy
    refine mul_lt_mul_of_pos_left (h.2 ?_ ?_ (mul_lt_mul_of_pos_left hxy hb)) hA
    · have := (div_le_iff₀ hb).1 hx; rw [mem_Ici]; linarith
    · have := (div_le_iff₀ hb).1 hy; rw [mem_Ici]; linarith

variable {pc : PC ℝ} (P : PosPC pc)
include P

theorem planck_shape {X : ℝ} (h : StrictMonoOn (fun x : ℝ => x ^ 3 / (exp x + -1)) (Ioc 0 X) ∧
    StrictAntiOn (fun x : ℝ => x ^ 3 / (exp x + -1)) (Ici X)) {T : ℝ} (hT : 0 < T) :
    StrictMonoOn (planckLaw pc.h pc.kb pc.c T) (Ioc 0 (X * pc.kb / pc.h * T)) ∧
    StrictAntiOn (planckLaw pc.h pc.kb pc.c T) (Ici (X * pc.kb / pc.h * T)) := by
  obtain ⟨h1, h2, h3, -⟩ := P
  have := shape_scaled (A := 2 * (pc.kb * T) ^ 3 / (pc.h ^ 2 * pc.c ^ 2)) (b := pc.h / (pc.kb * T)) (by positivity)
    (by positivity) h
  rw [show X / (pc.h / (pc.kb * T)) = X * pc.kb / pc.h * T by field_simp] at this
  have e : (fun ν => 2 * (pc.kb * T) ^ 3 / (pc.h ^ 2 * pc.c ^ 2) *
      ((pc.h / (pc.kb * T) * ν) ^ 3 / (exp (pc.h / (pc.kb * T) * ν) + -1))) = planckLaw pc.h pc.kb pc.c T := by
    funext ν
    unfold planckLaw
    rw [show pc.h / (pc.kb * T) * ν = pc.h * ν / (pc.kb * T) by ring, ← sub_eq_add_neg]
    rw [← mul_div_assoc]
    congr 1
    field_simp
  rw [e] at this
  exact this

theorem fermi_shape {X g : ℝ} (hg : 0 < g) (h : StrictMonoOn (fun x : ℝ => x ^ 3 / (exp x + 1)) (Ioc 0 X) ∧
    StrictAntiOn (fun x : ℝ => x ^ 3 / (exp x + 1)) (Ici X)) {T : ℝ} (hT : 0 < T) :
    StrictMonoOn (fermiDiracLaw g pc.h pc.kb pc.c T) (Ioc 0 (X * pc.kb / pc.h * T)) ∧
    StrictAntiOn (fermiDiracLaw g pc.h pc.kb pc.c T) (Ici (X * pc.kb / pc.h * T)) := by
  obtain ⟨h1, h2, h3, -⟩ := P
  have := shape_scaled (A := g * (2 * (pc.kb * T) ^ 3 / (pc.h ^ 2 * pc.c ^ 2))) (b := pc.h / (pc.kb * T)) (by positivity)
    (by positivity) h
  rw [show X / (pc.h / (pc.kb * T)) = X * pc.kb / pc.h * T by field_simp] at this
  have e : (fun ν => g * (2 * (pc.kb * T) ^ 3 / (pc.h ^ 2 * pc.c ^ 2)) *
      ((pc.h / (pc.kb * T) * ν) ^ 3 / (exp (pc.h / (pc.kb * T) * ν) + 1))) = fermiDiracLaw g pc.h pc.kb pc.c T := by
    funext ν
    unfold fermiDiracLaw
    rw [show pc.h / (pc.kb * T) * ν = pc.h * ν / (pc.kb * T) by ring]
    rw [← mul_div_assoc]
    congr 1
    field_simp
  rw [e] at this
  exact this

/-! ## The integral of the temperature derivative -/

/-- the temperature derivative is at most `2/T` times the spectrum at twice the temperature -/
theorem planckDT_le {T ν : ℝ} (hT : 0 < T) (hν : 0 < ν) :
    0 ≤ Planck.DThermalDistributionOfTNuDT pc T ν ∧
    Planck.DThermalDistributionOfTNuDT pc T ν ≤ 2 / T * planckLaw pc.h pc.kb pc.c (2 * T) ν := by
  obtain ⟨h1, h2, h3, -⟩ := P
  obtain ⟨y, hy⟩ : ∃ y, y = pc.h * ν / (pc.kb * (2 * T)) := ⟨_, rfl⟩
  have y0 : 0 < y := by rw [hy]; positivity
  have ey : y + 1 < exp y := Real.add_one_lt_exp y0.ne'
  have e2 : pc.h * ν / (pc.kb * T) = 2 * y := by rw [hy]; field_simp
  have hD : Planck.DThermalDistributionOfTNuDT pc T ν =
      2 * pc.h ^ 2 * ν ^ 4 / (T ^ 2 * pc.c ^ 2 * pc.kb) * (exp y / (exp y ^ 2 - 1)) ^ 2 := by
    simp only [Planck.DThermalDistributionOfTNuDT, areal]
    rw [e2]
    have : exp (-(2 * y)) = (exp y ^ 2)⁻¹ := by rw [exp_neg, ← exp_nat_mul]; norm_num
    rw [this]
    have hp : exp y ^ 2 - 1 ≠ 0 := by nlinarith
    have hp' : (1 : ℝ) - exp y ^ 2 ≠ 0 := by intro h; apply hp; linarith
    have := (exp_pos y).ne'
    norm_num
    field_simp
    try ring
  have hB : planckLaw pc.h pc.kb pc.c (2 * T) ν = 2 * pc.h * ν ^ 3 / pc.c ^ 2 / (exp y - 1) := by
    unfold planckLaw; rw [← hy]
  have hq : 0 ≤ exp y / (exp y ^ 2 - 1) := div_nonneg (exp_pos y).le (by nlinarith)
  have hq' : exp y / (exp y ^ 2 - 1) ≤ 1 / (exp y - 1) := by
    rw [div_le_div_iff₀ (by nlinarith) (by linarith)]
    nlinarith
  have hq2 : (exp y / (exp y ^ 2 - 1)) ^ 2 ≤ 1 / (y * (exp y - 1)) := by
    calc (exp y / (exp y ^ 2 - 1)) ^ 2 ≤ (1 / (exp y - 1)) ^ 2 := pow_le_pow_left₀ hq hq' 2
      _ ≤ 1 / (y * (exp y - 1)) := by
        rw [one_div, inv_pow, one_div]
        refine inv_anti₀ (mul_pos y0 (by linarith)) ?_
        rw [sq]
        exact mul_le_mul_of_nonneg_right (by linarith) (by linarith)
  rw [hD, hB]
  refine ⟨by positivity, ?_⟩
  refine le_trans (mul_le_mul_of_nonneg_left hq2 (by positivity)) (le_of_eq ?_)
  have : exp y - 1 ≠ 0 := by linarith
  have hν' : ν = y * (pc.kb * (2 * T)) / pc.h := by rw [hy]; field_simp
  rw [hν']
  field_simp
  try ring

theorem fermiDT_le {d : Neutrinos.FermiDirac ℝ} (hd : d.pc = pc) (hg : 0 < d.NSPECIES) {T ν : ℝ} (hT : 0 < T) (hν : 0 < ν) :
    0 ≤ d.DThermalDistributionOfTNuDT T ν ∧
    d.DThermalDistributionOfTNuDT T ν ≤ 2 / T * fermiDiracLaw d.NSPECIES pc.h pc.kb pc.c (2 * T) ν := by
  subst hd
  obtain ⟨h1, h2, h3, -⟩ := P
  have g0 : (0 : ℝ) < d.NSPECIES := by exact_mod_cast hg
  obtain ⟨y, hy⟩ : ∃ y, y = d.pc.h * ν / (d.pc.kb * (2 * T)) := ⟨_, rfl⟩
  have y0 : 0 < y := by rw [hy]; positivity
  have ey : y + 1 < exp y := Real.add_one_lt_exp y0.ne'
  have e2 : d.pc.h * ν / (d.pc.kb * T) = 2 * y := by rw [hy]; field_simp
  have hD : d.DThermalDistributionOfTNuDT T ν =
      d.NSPECIES * (2 * d.pc.h ^ 2 * ν ^ 4 / (T ^ 2 * d.pc.c ^ 2 * d.pc.kb)) * (exp y / (exp y ^ 2 + 1)) ^ 2 := by
    simp only [Neutrinos.FermiDirac.DThermalDistributionOfTNuDT, areal]
    rw [e2]
    have : exp (-(2 * y)) = (exp y ^ 2)⁻¹ := by rw [exp_neg, ← exp_nat_mul]; norm_num
    rw [this]
    have := (exp_pos y).ne'
    norm_num
    field_simp
    try ring
  have hB : fermiDiracLaw d.NSPECIES d.pc.h d.pc.kb d.pc.c (2 * T) ν =
      d.NSPECIES * (2 * d.pc.h * ν ^ 3 / d.pc.c ^ 2) / (exp y + 1) := by
    unfold fermiDiracLaw; rw [← hy]
  have hq2 : (exp y / (exp y ^ 2 + 1)) ^ 2 ≤ 1 / (y * (exp y + 1)) := by
    rw [div_pow, div_le_div_iff₀ (by positivity) (by positivity)]
    have a1 : y * (exp y + 1) ≤ exp y ^ 2 + 1 := by nlinarith
    have a2 : exp y ^ 2 * (y * (exp y + 1)) ≤ exp y ^ 2 * (exp y ^ 2 + 1) := mul_le_mul_of_nonneg_left a1 (by positivity)
    nlinarith [sq_nonneg (exp y)]
  rw [hD, hB]
  refine ⟨by positivity, ?_⟩
  refine le_trans (mul_le_mul_of_nonneg_left hq2 (by positivity)) (le_of_eq ?_)
  have hν' : ν = y * (d.pc.kb * (2 * T)) / d.pc.h := by rw [hy]; field_simp
  rw [hν']
  field_simp
  try ring

omit P in
/-- differentiation under the integral sign, for a spectrum with the bound above -/
theorem integral_deriv {B D : ℝ → ℝ → ℝ} (hi : ∀ T, 0 < T → IntegrableOn (B T) (Ioi 0))
    (hm : ∀ ν, 0 < ν → StrictMonoOn (fun T => B T ν) (Ioi 0)) (hB : ∀ T ν, 0 < T → 0 < ν → 0 < B T ν)
    (hD : ∀ T ν, 0 < T → 0 < ν → HasDerivAt (fun T => B T ν) (D T ν) T)
    (hDm : ∀ T, 0 < T → AEStronglyMeasurable (D T) (volume.restrict (Ioi 0)))
    (hb : ∀ T ν, 0 < T → 0 < ν → 0 ≤ D T ν ∧ D T ν ≤ 2 / T * B (2 * T) ν) {T : ℝ} (hT : 0 < T) :
    IntegrableOn (D T) (Ioi 0) ∧ HasDerivAt (fun T => ∫ ν in Ioi (0 : ℝ), B T ν) (∫ ν in Ioi (0 : ℝ), D T ν) T := by
  have hball : ∀ x ∈ Metric.ball T (T / 2), T / 2 < x ∧ x < 3 / 2 * T := by
    intro x hx
    rw [Metric.mem_ball, Real.dist_eq, abs_lt] at hx
    exact ⟨by linarith [hx.1], by linarith [hx.2]⟩
  refine hasDerivAt_integral_of_dominated_loc_of_deriv_le (F := B) (F' := D) (bound := fun ν => 4 / T * B (3 * T) ν)
    (Metric.ball_mem_nhds T (by positivity : 0 < T / 2)) ?_ (hi T hT) (hDm T hT) ?_ ?_ ?_
  · filter_upwards [Ioi_mem_nhds hT] with x hx
    exact (hi x hx).aestronglyMeasurable
  · refine (ae_restrict_iff' measurableSet_Ioi).2 (.of_forall fun ν hν x hx => ?_)
    obtain ⟨a1, a2⟩ := hball x hx
    have x0 : 0 < x := by linarith
    have hν0 : (0 : ℝ) < ν := hν
    obtain ⟨b1, b2⟩ := hb x ν x0 hν
    rw [Real.norm_eq_abs, abs_of_nonneg b1]
    refine b2.trans (mul_le_mul ?_ ?_ (hB _ _ (by positivity) hν).le (by positivity))
    · rw [div_le_div_iff₀ x0 hT]; linarith
    · exact (hm ν hν).monotoneOn (show (0 : ℝ) < 2 * x by positivity) (show (0 : ℝ) < 3 * T by positivity) (by linarith)
  · exact (hi (3 * T) (by positivity)).const_mul _
  · refine (ae_restrict_iff' measurableSet_Ioi).2 (.of_forall fun ν hν x hx => ?_)
    obtain ⟨a1, a2⟩ := hball x hx
    exact hD x ν (by linarith) hν

end Opac
