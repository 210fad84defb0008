import Verif.Lemmas.BoseFermi
import Verif.Lemmas.RealArith
import Verif.Spec.Thermal
import Verif.Model.PhotonThermal
import Verif.Model.NeutrinoThermal
import Verif.Model.MeanUtils
import Mathlib.Analysis.SpecialFunctions.ExpDeriv
import Mathlib.Analysis.Complex.ExponentialBounds

/-! Facts about the thermal distributions over ℝ. -/

set_option linter.unusedSimpArgs false

namespace Opac
open MeasureTheory Set Real Spec

theorem rpow_lit (x : ℝ) (n : ℕ) : x ^ ((n : ℚ) : ℝ) = x ^ n := by
  have : (((n : ℚ) : ℝ)) = (n : ℝ) := by push_cast; rfl
  rw [this, rpow_natCast]

theorem rpow2 (x : ℝ) : x ^ (2 : ℝ) = x ^ 2 := by exact_mod_cast rpow_natCast x 2
theorem rpow3 (x : ℝ) : x ^ (3 : ℝ) = x ^ 3 := by exact_mod_cast rpow_natCast x 3
theorem rpow4 (x : ℝ) : x ^ (4 : ℝ) = x ^ 4 := by exact_mod_cast rpow_natCast x 4
theorem rpow5 (x : ℝ) : x ^ (5 : ℝ) = x ^ 5 := by exact_mod_cast rpow_natCast x 5
theorem rpow6 (x : ℝ) : x ^ (6 : ℝ) = x ^ 6 := by exact_mod_cast rpow_natCast x 6

theorem planck_eq (pc : PC ℝ) (T ν : ℝ) :
    Planck.ThermalDistributionOfTNu pc T ν = planckLaw pc.h pc.kb pc.c T ν := by
  simp only [Planck.ThermalDistributionOfTNu, planckLaw, areal]
  push_cast; ring

theorem fermi_eq (d : Neutrinos.FermiDirac ℝ) (T ν : ℝ) :
    d.ThermalDistributionOfTNu T ν = fermiDiracLaw d.NSPECIES d.pc.h d.pc.kb d.pc.c T ν := by
  simp only [Neutrinos.FermiDirac.ThermalDistributionOfTNu, fermiDiracLaw, areal]
  push_cast; ring

theorem planckT_eq (pc : PC ℝ) (T : ℝ) : Planck.ThermalDistributionOfT pc T =
    8 * π ^ 5 * pc.kb ^ 4 * T ^ 4 / (15 * pc.c ^ 2 * pc.h ^ 3) := by
  simp only [Planck.ThermalDistributionOfT, areal]
  push_cast; simp only [rpow2, rpow3, rpow4, rpow5]

theorem planckN_eq (pc : PC ℝ) (T : ℝ) : Planck.ThermalNumberDistributionOfT pc T =
    16 * pc.kb ^ 3 * π * T ^ 3 * 1.20206 / (pc.c ^ 2 * pc.h ^ 3) := by
  simp only [Planck.ThermalNumberDistributionOfT, areal]
  push_cast; simp only [rpow2, rpow3, rpow4, rpow5]

theorem fermiT_eq (d : Neutrinos.FermiDirac ℝ) (T : ℝ) : d.ThermalDistributionOfT T =
    7 * π ^ 5 * d.pc.kb ^ 4 * d.NSPECIES * T ^ 4 / (15 * d.pc.c ^ 2 * d.pc.h ^ 3) := by
  simp only [Neutrinos.FermiDirac.ThermalDistributionOfT, areal]
  push_cast; simp only [rpow2, rpow3, rpow4, rpow5]

theorem fermiN_eq (d : Neutrinos.FermiDirac ℝ) (T : ℝ) : d.ThermalNumberDistributionOfT T =
    12 * d.pc.kb ^ 3 * π * d.NSPECIES * T ^ 3 * 1.20206 / (d.pc.c ^ 2 * d.pc.h ^ 3) := by
  simp only [Neutrinos.FermiDirac.ThermalNumberDistributionOfT, areal]
  push_cast; simp only [rpow2, rpow3, rpow4, rpow5]

/-- `∫ ν^n/(e^{bν} - 1)` -/
theorem bose_integral_scaled {n : ℕ} (hn : 1 ≤ n) {b : ℝ} (hb : 0 < b) :
    IntegrableOn (fun ν : ℝ => ν ^ n / (exp (b * ν) - 1)) (Ioi 0) ∧
    ∫ ν in Ioi (0 : ℝ), ν ^ n / (exp (b * ν) - 1) = n.factorial * zetaR (n + 1) / b ^ (n + 1) := by
  have e : (fun ν : ℝ => ν ^ n / (exp (b * ν) - 1)) =
      fun ν => (1 / b ^ n) * ((fun x => x ^ n / (exp x - 1)) (b * ν)) := by
    funext ν; simp only [mul_pow]; field_simp
  rw [e]
  refine ⟨(integrableOn_Ioi_scale hb (bose_integrable hn)).const_mul _, ?_⟩
  rw [integral_const_mul, integral_Ioi_scale (fun x => x ^ n / (exp x - 1)) hb, bose_integral hn]
  field_simp
  ring

/-- `∫ ν^n/(e^{bν} + 1)` -/
theorem fermi_integral_scaled {n : ℕ} (hn : 1 ≤ n) {b : ℝ} (hb : 0 < b) :
    IntegrableOn (fun ν : ℝ => ν ^ n / (exp (b * ν) + 1)) (Ioi 0) ∧
    ∫ ν in Ioi (0 : ℝ), ν ^ n / (exp (b * ν) + 1) =
      (1 - 1 / 2 ^ n) * (n.factorial * zetaR (n + 1)) / b ^ (n + 1) := by
  have e : (fun ν : ℝ => ν ^ n / (exp (b * ν) + 1)) =
      fun ν => (1 / b ^ n) * ((fun x => x ^ n / (exp x + 1)) (b * ν)) := by
    funext ν; simp only [mul_pow]; field_simp
  rw [e]
  refine ⟨(integrableOn_Ioi_scale hb (fermi_integrable n)).const_mul _, ?_⟩
  rw [integral_const_mul, integral_Ioi_scale (fun x => x ^ n / (exp x + 1)) hb, fermi_integral hn]
  field_simp
  ring

section
variable {pc : PC ℝ} (P : PosPC pc)
include P

theorem planck_integral {T : ℝ} (hT : 0 < T) :
    IntegrableOn (planckLaw pc.h pc.kb pc.c T) (Ioi 0) ∧
    4 * π * ∫ ν in Ioi (0 : ℝ), planckLaw pc.h pc.kb pc.c T ν =
      8 * π ^ 5 * pc.kb ^ 4 * T ^ 4 / (15 * pc.c ^ 2 * pc.h ^ 3) := by
  obtain ⟨h1, h2, h3, -⟩ := P
  have hb : 0 < pc.h / (pc.kb * T) := by positivity
  obtain ⟨i, e⟩ := bose_integral_scaled (n := 3) (by norm_num) hb
  have : planckLaw pc.h pc.kb pc.c T =
      fun ν => (2 * pc.h / pc.c ^ 2) * (ν ^ 3 / (exp (pc.h / (pc.kb * T) * ν) - 1)) := by
    funext ν
    simp only [planckLaw, show pc.h / (pc.kb * T) * ν = pc.h * ν / (pc.kb * T) by ring]; ring
  rw [this]
  refine ⟨i.const_mul _, ?_⟩
  rw [integral_const_mul, e]
  simp only [Nat.reduceAdd, zetaR_four, Nat.factorial]
  push_cast
  field_simp; try ring

theorem planck_number_integral {T : ℝ} (hT : 0 < T) :
    IntegrableOn (fun ν => planckLaw pc.h pc.kb pc.c T ν / (pc.h * ν)) (Ioi 0) ∧
    4 * π * ∫ ν in Ioi (0 : ℝ), planckLaw pc.h pc.kb pc.c T ν / (pc.h * ν) =
      16 * pc.kb ^ 3 * π * T ^ 3 * zetaR 3 / (pc.c ^ 2 * pc.h ^ 3) := by
  obtain ⟨h1, h2, h3, -⟩ := P
  have hb : 0 < pc.h / (pc.kb * T) := by positivity
  obtain ⟨i, e⟩ := bose_integral_scaled (n := 2) (by norm_num) hb
  have h : ∀ ν ∈ Ioi (0 : ℝ), (2 / pc.c ^ 2) * (ν ^ 2 / (exp (pc.h / (pc.kb * T) * ν) - 1)) =
      planckLaw pc.h pc.kb pc.c T ν / (pc.h * ν) := by
    intro ν hν
    have hν' : (0 : ℝ) < ν := hν
    simp only [planckLaw, show pc.h / (pc.kb * T) * ν = pc.h * ν / (pc.kb * T) by ring]
    have : exp (pc.h * ν / (pc.kb * T)) - 1 ≠ 0 := (exp_sub_one_pos (by positivity)).ne'
    field_simp
  refine ⟨IntegrableOn.congr_fun (i.const_mul (2 / pc.c ^ 2)) h measurableSet_Ioi, ?_⟩
  rw [← setIntegral_congr_fun measurableSet_Ioi h, integral_const_mul, e]
  simp only [Nat.reduceAdd, Nat.factorial]
  push_cast
  field_simp; try ring

theorem fermi_law_integral (g : ℝ) {T : ℝ} (hT : 0 < T) :
    IntegrableOn (fermiDiracLaw g pc.h pc.kb pc.c T) (Ioi 0) ∧
    4 * π * ∫ ν in Ioi (0 : ℝ), fermiDiracLaw g pc.h pc.kb pc.c T ν =
      7 * π ^ 5 * pc.kb ^ 4 * g * T ^ 4 / (15 * pc.c ^ 2 * pc.h ^ 3) := by
  obtain ⟨h1, h2, h3, -⟩ := P
  have hb : 0 < pc.h / (pc.kb * T) := by positivity
  obtain ⟨i, e⟩ := fermi_integral_scaled (n := 3) (by norm_num) hb
  have : fermiDiracLaw g pc.h pc.kb pc.c T =
      fun ν => (g * (2 * pc.h / pc.c ^ 2)) * (ν ^ 3 / (exp (pc.h / (pc.kb * T) * ν) + 1)) := by
    funext ν
    simp only [fermiDiracLaw, show pc.h / (pc.kb * T) * ν = pc.h * ν / (pc.kb * T) by ring]; ring
  rw [this]
  refine ⟨i.const_mul _, ?_⟩
  rw [integral_const_mul, e]
  simp only [Nat.reduceAdd, zetaR_four, Nat.factorial]
  push_cast
  field_simp; try ring

theorem fermi_number_integral (g : ℝ) {T : ℝ} (hT : 0 < T) :
    IntegrableOn (fun ν => fermiDiracLaw g pc.h pc.kb pc.c T ν / (pc.h * ν)) (Ioi 0) ∧
    4 * π * ∫ ν in Ioi (0 : ℝ), fermiDiracLaw g pc.h pc.kb pc.c T ν / (pc.h * ν) =
      12 * pc.kb ^ 3 * π * g * T ^ 3 * zetaR 3 / (pc.c ^ 2 * pc.h ^ 3) := by
  obtain ⟨h1, h2, h3, -⟩ := P
  have hb : 0 < pc.h / (pc.kb * T) := by positivity
  obtain ⟨i, e⟩ := fermi_integral_scaled (n := 2) (by norm_num) hb
  have h : ∀ ν ∈ Ioi (0 : ℝ), (g * (2 / pc.c ^ 2)) * (ν ^ 2 / (exp (pc.h / (pc.kb * T) * ν) + 1)) =
      fermiDiracLaw g pc.h pc.kb pc.c T ν / (pc.h * ν) := by
    intro ν hν
    have hν' : (0 : ℝ) < ν := hν
    simp only [fermiDiracLaw, show pc.h / (pc.kb * T) * ν = pc.h * ν / (pc.kb * T) by ring]
    field_simp
  refine ⟨IntegrableOn.congr_fun (i.const_mul (g * (2 / pc.c ^ 2))) h measurableSet_Ioi, ?_⟩
  rw [← setIntegral_congr_fun measurableSet_Ioi h, integral_const_mul, e]
  simp only [Nat.reduceAdd, Nat.factorial]
  push_cast
  field_simp; try ring

theorem planck_pos {T ν : ℝ} (hT : 0 < T) (hν : 0 < ν) : 0 < planckLaw pc.h pc.kb pc.c T ν := by
  obtain ⟨h1, h2, h3, -⟩ := P
  have := exp_sub_one_pos (x := pc.h * ν / (pc.kb * T)) (by positivity)
  unfold planckLaw; positivity

theorem planck_nonneg {T ν : ℝ} (hT : 0 < T) (hν : 0 ≤ ν) : 0 ≤ planckLaw pc.h pc.kb pc.c T ν := by
  rcases hν.eq_or_lt with rfl | h
  · simp [planckLaw]
  · exact (planck_pos P hT h).le

theorem fermi_pos {g T ν : ℝ} (hg : 0 < g) (hν : 0 < ν) :
    0 < fermiDiracLaw g pc.h pc.kb pc.c T ν := by
  obtain ⟨h1, h2, h3, -⟩ := P
  unfold fermiDiracLaw; positivity

theorem planck_strictMono {ν : ℝ} (hν : 0 < ν) :
    StrictMonoOn (fun T => planckLaw pc.h pc.kb pc.c T ν) (Ioi 0) := by
  intro T hT T' hT' hlt
  have hT0 : (0 : ℝ) < T := hT
  have hT0' : (0 : ℝ) < T' := hT'
  obtain ⟨h1, h2, h3, -⟩ := P
  simp only [planckLaw]
  refine div_lt_div_of_pos_left (by positivity) (exp_sub_one_pos (by positivity)) ?_
  refine sub_lt_sub_right (exp_lt_exp.2 ?_) 1
  exact div_lt_div_of_pos_left (by positivity) (by positivity) (by nlinarith)

theorem fermi_strictMono {g ν : ℝ} (hg : 0 < g) (hν : 0 < ν) :
    StrictMonoOn (fun T => fermiDiracLaw g pc.h pc.kb pc.c T ν) (Ioi 0) := by
  intro T hT T' hT' hlt
  have hT0 : (0 : ℝ) < T := hT
  have hT0' : (0 : ℝ) < T' := hT'
  obtain ⟨h1, h2, h3, -⟩ := P
  simp only [fermiDiracLaw]
  refine div_lt_div_of_pos_left (by positivity) (by positivity) ?_
  refine add_lt_add_left (exp_lt_exp.2 ?_) 1
  exact div_lt_div_of_pos_left (by positivity) (by positivity) (by nlinarith)

theorem planck_lt_rayleigh_jeans {T ν : ℝ} (hT : 0 < T) (hν : 0 < ν) :
    planckLaw pc.h pc.kb pc.c T ν < 2 * ν ^ 2 * pc.kb * T / pc.c ^ 2 := by
  obtain ⟨h1, h2, h3, -⟩ := P
  have hx : 0 < pc.h * ν / (pc.kb * T) := by positivity
  have hlt := Real.add_one_lt_exp hx.ne'
  have hp := exp_sub_one_pos hx
  have : planckLaw pc.h pc.kb pc.c T ν < 2 * pc.h * ν ^ 3 / pc.c ^ 2 / (pc.h * ν / (pc.kb * T)) :=
    div_lt_div_of_pos_left (by positivity) hx (by linarith)
  refine this.trans_eq ?_
  field_simp

theorem hasDerivAt_arg {T ν : ℝ} (hT : T ≠ 0) :
    HasDerivAt (fun T => pc.h * ν / (pc.kb * T)) (-(pc.h * ν / (pc.kb * T ^ 2))) T := by
  obtain ⟨h1, h2, h3, -⟩ := P
  have h := (hasDerivAt_inv hT).const_mul (pc.h * ν / pc.kb)
  have e : (fun T => pc.h * ν / (pc.kb * T)) = fun T => pc.h * ν / pc.kb * T⁻¹ := by
    funext t; rw [← div_div]; rfl
  rw [e]
  refine h.congr_deriv ?_
  field_simp

theorem planck_hasDerivAt {T ν : ℝ} (hT : 0 < T) (hν : 0 < ν) :
    HasDerivAt (fun T => planckLaw pc.h pc.kb pc.c T ν) (Planck.DThermalDistributionOfTNuDT pc T ν) T := by
  have h := hasDerivAt_arg P (ν := ν) hT.ne'
  obtain ⟨h1, h2, h3, -⟩ := P
  have hx : 0 < pc.h * ν / (pc.kb * T) := by positivity
  have hp := (exp_sub_one_pos hx).ne'
  have hd := ((h.exp.sub_const 1).inv hp).const_mul (2 * pc.h * ν ^ 3 / pc.c ^ 2)
  refine HasDerivAt.congr_deriv (show HasDerivAt (fun T => planckLaw pc.h pc.kb pc.c T ν) _ T from hd) ?_
  simp only [Planck.DThermalDistributionOfTNuDT, areal]
  push_cast
  have hlt : exp (-(pc.h * ν / (pc.kb * T))) < 1 := by rw [exp_lt_one_iff]; linarith
  set E := exp (pc.h * ν / (pc.kb * T)) with hE
  have hE0 : E ≠ 0 := (exp_pos _).ne'
  have en : exp (-(pc.h * ν / (pc.kb * T))) = E⁻¹ := exp_neg _
  rw [en] at hlt ⊢
  have h4 : E⁻¹ - 1 ≠ 0 := by linarith
  have h5 : 1 - E ≠ 0 := by intro h; apply hp; linarith
  have h6 : E⁻¹ - 1 = (1 - E) / E := by field_simp
  rw [h6]
  have h7 : (E - 1) ^ 2 = (1 - E) ^ 2 := by ring
  rw [h7]
  field_simp

theorem fermi_hasDerivAt {d : Neutrinos.FermiDirac ℝ} (hd : d.pc = pc) {T ν : ℝ} (hT : 0 < T) :
    HasDerivAt (fun T => fermiDiracLaw d.NSPECIES pc.h pc.kb pc.c T ν) (d.DThermalDistributionOfTNuDT T ν) T := by
  have h := hasDerivAt_arg P (ν := ν) hT.ne'
  obtain ⟨h1, h2, h3, -⟩ := P
  have hp : exp (pc.h * ν / (pc.kb * T)) + 1 ≠ 0 := by positivity
  have hdd := ((h.exp.add_const 1).inv hp).const_mul ((d.NSPECIES : ℝ) * (2 * pc.h * ν ^ 3 / pc.c ^ 2))
  refine HasDerivAt.congr_deriv (show HasDerivAt (fun T => fermiDiracLaw d.NSPECIES pc.h pc.kb pc.c T ν) _ T from hdd) ?_
  simp only [Neutrinos.FermiDirac.DThermalDistributionOfTNuDT, areal, hd]
  push_cast
  set E := exp (pc.h * ν / (pc.kb * T)) with hE
  have hE0 : 0 < E := exp_pos _
  have en : exp (-(pc.h * ν / (pc.kb * T))) = E⁻¹ := exp_neg _
  rw [en]
  have h6 : 1 + E⁻¹ = (E + 1) / E := by field_simp
  rw [h6]
  field_simp
end

/-- `(e^x - 1) e^{-x}` differs from one by less than `1e-34` beyond `x = 80` -/
theorem exp_neg_80 : exp (-80 : ℝ) < 1e-34 := by
  have h := Real.exp_one_gt_d9
  have e : exp (-80 : ℝ) = (exp 1 ^ 80)⁻¹ := by
    rw [exp_neg, ← Real.exp_nat_mul]; norm_num
  rw [e, inv_lt_comm₀ (by positivity) (by norm_num)]
  calc (1e-34 : ℝ)⁻¹ < 2.7182818283 ^ 80 := by norm_num
    _ < _ := pow_lt_pow_left₀ h (by norm_num) (by norm_num)

end Opac
