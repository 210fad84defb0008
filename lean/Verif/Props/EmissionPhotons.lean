import Verif.Lemmas.Emission
import Verif.Lemmas.Thermal
import Mathlib.Analysis.SpecialFunctions.ImproperIntegrals
import Mathlib.Analysis.SpecialFunctions.Integrals.Basic
import Mathlib.Analysis.Real.Pi.Bounds

/-! # C20–C24, C53: emission and absorption of photon opacities -/

set_option linter.unusedSimpArgs false

namespace Opac
open Spec Real Set MeasureTheory Outcome

namespace Photons
section
variable {O : Type} {inst : PhotonAPI ℝ O} {o : O} {n : ℕ} {us : List Spec.Units}

/-! ## C20, C24 -/

theorem vectorRel_of_scalar (H : ConstructedIn ℝ (fun x => 0 < x) O inst o n) {r : ℝ → ℝ → Prop} {f g : VFn}
    (h : ∀ rho T ν, r (scalarFn inst o f rho T ν) (scalarFn inst o g rho T ν)) : VectorRel inst o r f g := by
  intro rho T nb co n m hs k hk
  have e1 := (VectorWith.elementwise (H.vectorOK_real f rho T)) nb co n m hs
  have e2 := (VectorWith.elementwise (H.vectorOK_real g rho T)) nb co n m hs
  rw [e1.results k hk, e2.results k hk]
  exact h _ _ _

/-- **C20** for every photon opacity, in every unit system, scalar and vectorised -/
theorem C20_four_pi (H : ConstructedIn ℝ (fun x => 0 < x) O inst o n) : FourPi inst o := by
  have hs : ∀ rho T ν, inst.EmissivityPerNu o rho T ν = 4 * π * inst.EmissivityPerNuOmega o rho T ν := by
    induction H with
    | gray o => intros; simp [PhotonAPI.EmissivityPerNu, PhotonAPI.EmissivityPerNuOmega, GrayOpacity.EmissivityPerNu, areal]
    | epbremss o =>
      intros; simp [PhotonAPI.EmissivityPerNu, PhotonAPI.EmissivityPerNuOmega, EPBremsstrahlungOpacity.EmissivityPerNu, areal]
    | powerLaw o =>
      intros; simp [PhotonAPI.EmissivityPerNu, PhotonAPI.EmissivityPerNuOmega, PowerLawOpacity.EmissivityPerNu, areal]
    | nonCGS time mass length temp h1 h2 h3 h4 h ih =>
      intro rho T ν
      have hw := C25_units_partial h (u := ⟨time, mass, length, temp⟩) ⟨h1, h2, h3, h4⟩
      refine (hw.J rho T ν).trans (.trans ?_ (congrArg (4 * π * ·) (hw.j rho T ν).symm))
      rw [ih, Units.toCode, Units.toCode]; ring
    | vScaleFree _ ih | vGray _ ih | vPowerLawScaleFree _ ih | vPowerLaw _ ih | vEPBremss _ ih | vNonCGSGray _ ih
    | vNonCGSPowerLaw _ ih | vNonCGSEPBremss _ ih => exact ih
  exact ⟨hs, vectorRel_of_scalar H hs⟩

/-- **C20 in every arithmetic** (in particular bit for bit in IEEE doubles) for every shipped model without a unit
wrapper: the code computes `4 * pi * j` -/
theorem C20_bitwise {R : Type} [Arith R] {P : R → Prop} {O : Type} {inst : PhotonAPI R O} {o : O}
    (H : ConstructedIn R P O inst o 0) (rho T ν : R) :
    inst.EmissivityPerNu o rho T ν = Arith.lit 4 * Arith.pi * inst.EmissivityPerNuOmega o rho T ν := by
  generalize hm : (0 : ℕ) = m at H
  induction H with
  | gray o | epbremss o | powerLaw o => rfl
  | nonCGS => omega
  | vScaleFree _ ih | vGray _ ih | vPowerLawScaleFree _ ih | vPowerLaw _ ih | vEPBremss _ ih | vNonCGSGray _ ih
  | vNonCGSPowerLaw _ ih | vNonCGSEPBremss _ ih => exact ih hm

/-- **C24** for every photon opacity, in every unit system, scalar and vectorised -/
theorem C24_isotropic (H : ConstructedIn ℝ (fun x => 0 < x) O inst o n) : Isotropic inst o := by
  have hs : ∀ rho T ν, inst.AngleAveragedAbsorptionCoefficient o rho T ν = inst.AbsorptionCoefficient o rho T ν := by
    induction H with
    | gray o => intros; rfl
    | epbremss o =>
      intro rho T ν
      simp only [PhotonAPI.AngleAveragedAbsorptionCoefficient, PhotonAPI.AbsorptionCoefficient,
        EPBremsstrahlungOpacity.AngleAveragedAbsorptionCoefficient, EPBremsstrahlungOpacity.AbsorptionCoefficient,
        Planck.AngleAveragedAbsorptionCoefficientFromKirchhoff, Planck.AbsorptionCoefficientFromKirchhoff,
        EPBremsstrahlungOpacity.EmissivityPerNu, areal]
      push_cast
      rw [mul_div_cancel_left₀ _ (by positivity : (4 : ℝ) * π ≠ 0)]
    | powerLaw o => intros; rfl
    | nonCGS time mass length temp h1 h2 h3 h4 h ih =>
      intro rho T ν
      have hw := C25_units_partial h (u := ⟨time, mass, length, temp⟩) ⟨h1, h2, h3, h4⟩
      refine (hw.alphaA rho T ν).trans (.trans ?_ (hw.alpha rho T ν).symm)
      rw [ih]
    | vScaleFree _ ih | vGray _ ih | vPowerLawScaleFree _ ih | vPowerLaw _ ih | vEPBremss _ ih | vNonCGSGray _ ih
    | vNonCGSPowerLaw _ ih | vNonCGSEPBremss _ ih => exact ih
  exact ⟨hs, vectorRel_of_scalar H hs⟩

/-! ## C23 -/

theorem gray_kirchhoff (g : GrayOpacity ℝ) : Kirchhoff inferInstance g := fun rho T ν => by
  simp only [PhotonAPI.EmissivityPerNuOmega, PhotonAPI.AbsorptionCoefficient, PhotonAPI.ThermalDistributionOfTNu,
    GrayOpacity.EmissivityPerNuOmega, GrayOpacity.AbsorptionCoefficient, areal]

/-- **C23** for gray opacities in every unit system -/
theorem C23_gray (g : GrayOpacity ℝ) (H : Behind g O inst o us) : Kirchhoff inst o :=
  (gray_kirchhoff g).code H.pos (H.inUnits (.gray g))

/-- **C23** for power-law opacities in every unit system -/
theorem C23_powerLaw (p : PowerLawOpacity ℝ) (H : Behind p O inst o us) : Kirchhoff inst o := by
  refine Kirchhoff.code H.pos (H.inUnits (.powerLaw p)) fun rho T ν => ?_
  simp only [PhotonAPI.EmissivityPerNuOmega, PhotonAPI.AbsorptionCoefficient, PhotonAPI.ThermalDistributionOfTNu,
    PowerLawOpacity.EmissivityPerNuOmega, PowerLawOpacity.AbsorptionCoefficient, areal]

/-- **C23 for bremsstrahlung**: the coefficient is `j_ν / (B_ν + δ)` where `δ` is the smallest normal double times 10
(`2.2e-307`) in CGS units of specific intensity.  (Exact equality with `j_ν / B_ν` does not hold: the code guards the
division.) -/
theorem C23_bremsstrahlung_partial (e : EPBremsstrahlungOpacity ℝ) (P : PosPC e.pc) (H : Behind e O inst o us) :
    KirchhoffFloor ((Spec.Units.total us).toCode .intensityPerNu (10 * 2 ^ (-1022 : ℤ))) inst o := by
  refine KirchhoffFloor.code H.pos (H.inUnits (.epbremss e)) fun rho T ν hT hν => ?_
  have hB := planck_pos P hT hν
  simp only [PhotonAPI.EmissivityPerNuOmega, PhotonAPI.AbsorptionCoefficient, PhotonAPI.ThermalDistributionOfTNu,
    EPBremsstrahlungOpacity.AbsorptionCoefficient, Planck.AbsorptionCoefficientFromKirchhoff]
  rw [planck_eq, ratio_nonneg hB.le, ← real_SMALL, div_mul_cancel₀]
  have := SMALL_pos
  positivity

/-- the relative departure from Kirchhoff's law: `|j - αB| ≤ (δ/B) j`, for nonnegative density -/
theorem C23_bremsstrahlung_error (e : EPBremsstrahlungOpacity ℝ) (P : PosPC e.pc) {rho T ν : ℝ} (hT : 0 < T)
    (hν : 0 < ν) :
    let j := PhotonAPI.EmissivityPerNuOmega e rho T ν
    let B := PhotonAPI.ThermalDistributionOfTNu (R := ℝ) e T ν
    |j - PhotonAPI.AbsorptionCoefficient e rho T ν * B| ≤ (10 * 2 ^ (-1022 : ℤ)) / B * |j| := by
  intro j B
  have hB : 0 < B := by
    show 0 < Planck.ThermalDistributionOfTNu e.pc T ν
    rw [planck_eq]; exact planck_pos P hT hν
  have k := C23_bremsstrahlung_partial e P Behind.self rho T ν hT hν
  have hd : (0 : ℝ) < 10 * 2 ^ (-1022 : ℤ) := by positivity
  generalize (10 * 2 ^ (-1022 : ℤ) : ℝ) = δ at *
  simp only [Spec.Units.total, toCode_cgs, id] at k
  set α := PhotonAPI.AbsorptionCoefficient e rho T ν
  have k' : j = α * (B + δ) := k
  rw [k', show α * (B + δ) - α * B = α * δ by ring, abs_mul, abs_mul, abs_of_pos hd,
    abs_of_pos (by positivity : 0 < B + δ), div_mul_eq_mul_div, le_div_iff₀ hB]
  have := abs_nonneg α
  nlinarith [mul_nonneg (mul_nonneg this hd.le) hd.le]

/-! ## C21 -/

/-- **C21** for gray opacities in every unit system -/
theorem C21_gray (g : GrayOpacity ℝ) (P : PosPC g.pc) (H : Behind g O inst o us) : TotalIsIntegral inst o := by
  refine TotalIsIntegral.code H.pos (H.inUnits (.gray g)) fun rho T J hT hJ => ?_
  obtain ⟨i1, i2⟩ := planck_integral P hT
  have e : ∀ ν, PhotonAPI.EmissivityPerNu g rho T ν = (4 * π * (rho * g.kappa_)) * planckLaw g.pc.h g.pc.kb g.pc.c T ν := by
    intro ν
    simp only [PhotonAPI.EmissivityPerNu, GrayOpacity.EmissivityPerNu, GrayOpacity.EmissivityPerNuOmega, areal, planck_eq]
    push_cast; ring
  simp only [e]
  refine ⟨i1.const_mul _, ?_⟩
  rw [integral_const_mul]
  simp only [PhotonAPI.Emissivity, GrayOpacity.Emissivity, planckT_eq, ← i2, areal] at hJ
  injection hJ with hJ
  rw [← hJ]; ring

/-- **C21** for bremsstrahlung in every unit system -/
theorem C21_bremsstrahlung (b : EPBremsstrahlungOpacity ℝ) (P : PosPC b.pc) (H : Behind b O inst o us) :
    TotalIsIntegral inst o := by
  refine TotalIsIntegral.code H.pos (H.inUnits (.epbremss b)) fun rho T J hT hJ => ?_
  obtain ⟨h1, h2, h3, -⟩ := P
  have hb : -(b.pc.h / (b.pc.kb * T)) < 0 := by
    have : 0 < b.pc.h / (b.pc.kb * T) := by positivity
    linarith
  have e : ∀ ν, PhotonAPI.EmissivityPerNu b rho T ν =
      (4 * π * (b.prefac_ / √(b.pc.kb * T / (b.pc.me * b.pc.c * b.pc.c)) * (rho / b.mmw_ / 2) * (rho / b.mmw_ / 2) *
        1.2)) * exp (-(b.pc.h / (b.pc.kb * T)) * ν) := by
    intro ν
    simp only [PhotonAPI.EmissivityPerNu, EPBremsstrahlungOpacity.EmissivityPerNu,
      EPBremsstrahlungOpacity.EmissivityPerNuOmega, EPBremsstrahlungOpacity.gff_, areal]
    push_cast
    rw [show -(b.pc.h * ν / (b.pc.kb * T)) = -(b.pc.h / (b.pc.kb * T)) * ν by ring]
    ring
  simp only [e]
  refine ⟨(integrableOn_exp_mul_Ioi hb 0).const_mul _, ?_⟩
  rw [integral_const_mul, integral_exp_mul_Ioi hb 0]
  simp only [PhotonAPI.Emissivity, EPBremsstrahlungOpacity.Emissivity, EPBremsstrahlungOpacity.gff_, areal] at hJ
  injection hJ with hJ
  rw [← hJ, mul_zero, exp_zero]
  push_cast
  field_simp

/-- **C21** for power laws without stimulated emission, in every unit system.  (Power laws whose frequency exponent is
not zero abort, which C21 excludes.)  What is missing is `do_stim_emit = true`, for which C21 is false
(`C21_stimulated_false`). -/
theorem C21_powerLaw_partial (p : PowerLawOpacity ℝ) (P : PosPC p.pc) (hs : p.do_stim_emit_ = false)
    (H : Behind p O inst o us) : TotalIsIntegral inst o := by
  refine TotalIsIntegral.code H.pos (H.inUnits (.powerLaw p)) fun rho T J hT hJ => ?_
  obtain ⟨i1, i2⟩ := planck_integral P hT
  have hJ : PowerLawOpacity.Emissivity p rho T = .ok J := hJ
  unfold PowerLawOpacity.Emissivity at hJ
  split_ifs at hJ with h0
  have h0 : p.nu_exp_ = 0 := by
    rw [Bool.not_eq_true, Bool.not_eq_false', real_eqb] at h0; rw [h0]; simp [areal]
  have e : ∀ ν, PhotonAPI.EmissivityPerNu p rho T ν =
      (4 * π * (rho * p.OpacityPrefactor_ rho T)) * planckLaw p.pc.h p.pc.kb p.pc.c T ν := by
    intro ν
    simp only [PhotonAPI.EmissivityPerNu, PowerLawOpacity.EmissivityPerNu, PowerLawOpacity.EmissivityPerNuOmega,
      PowerLawOpacity.OpacityScale_, areal, planck_eq, hs, h0, rpow_zero]
    push_cast; simp; ring
  simp only [e]
  refine ⟨i1.const_mul _, ?_⟩
  rw [integral_const_mul]
  injection hJ with hJ
  rw [← hJ]
  simp only [areal, planckT_eq, ← i2]; ring

/-- the abort is not vacuous: a frequency exponent of zero returns, any other aborts -/
theorem C21_powerLaw_returns (p : PowerLawOpacity ℝ) (rho T : ℝ) :
    (∃ J, PhotonAPI.Emissivity p rho T = .ok J) ↔ p.nu_exp_ = 0 := by
  show (∃ J, PowerLawOpacity.Emissivity p rho T = .ok J) ↔ _
  unfold PowerLawOpacity.Emissivity
  split_ifs with h
  · have h' : p.nu_exp_ ≠ 0 := by rintro h0; simp [areal, h0, Arith.eqb] at h
    simp [h']
  · have h' : p.nu_exp_ = 0 := by
      rw [Bool.not_eq_true, Bool.not_eq_false', real_eqb] at h; rw [h]; simp [areal]
    simp [h']

/-- integral of the spectrum with the stimulated-emission factor -/
theorem wien_integral {pc : PC ℝ} (P : PosPC pc) {T : ℝ} (hT : 0 < T) :
    IntegrableOn (fun ν => planckLaw pc.h pc.kb pc.c T ν * (1 - exp (-(pc.h * ν / (pc.kb * T))))) (Ioi 0) ∧
    ∫ ν in Ioi (0 : ℝ), planckLaw pc.h pc.kb pc.c T ν * (1 - exp (-(pc.h * ν / (pc.kb * T)))) =
      12 * pc.kb ^ 4 * T ^ 4 / (pc.h ^ 3 * pc.c ^ 2) := by
  obtain ⟨h1, h2, h3, -⟩ := P
  have hb : 0 < pc.h / (pc.kb * T) := by positivity
  have e : ∀ ν ∈ Ioi (0 : ℝ), (2 * pc.h / pc.c ^ 2) * (ν ^ ((4 : ℝ) - 1) * exp (-(pc.h / (pc.kb * T) * ν))) =
      planckLaw pc.h pc.kb pc.c T ν * (1 - exp (-(pc.h * ν / (pc.kb * T)))) := by
    intro ν hν
    have hν : 0 < ν := hν
    have hx : exp (pc.h * ν / (pc.kb * T)) - 1 ≠ 0 := (exp_sub_one_pos (by positivity)).ne'
    rw [show (4 : ℝ) - 1 = 3 by norm_num, rpow3, planckLaw,
      show pc.h / (pc.kb * T) * ν = pc.h * ν / (pc.kb * T) by ring, exp_neg]
    have := exp_pos (pc.h * ν / (pc.kb * T))
    field_simp
  have i : IntegrableOn (fun ν : ℝ => ν ^ ((4 : ℝ) - 1) * exp (-(pc.h / (pc.kb * T) * ν))) (Ioi 0) := by
    by_contra hc
    have h := integral_rpow_mul_exp_neg_mul_Ioi (a := 4) (r := pc.h / (pc.kb * T)) (by norm_num) hb
    rw [integral_undef hc] at h
    have : (0 : ℝ) < (1 / (pc.h / (pc.kb * T))) ^ (4 : ℝ) * Gamma 4 :=
      mul_pos (by positivity) (Gamma_pos_of_pos (by norm_num))
    linarith
  refine ⟨IntegrableOn.congr_fun (i.const_mul _) e measurableSet_Ioi, ?_⟩
  rw [← setIntegral_congr_fun measurableSet_Ioi e, integral_const_mul,
    integral_rpow_mul_exp_neg_mul_Ioi (a := 4) (by norm_num) hb, rpow4,
    show Gamma 4 = 6 by
      rw [show (4 : ℝ) = (3 : ℕ) + 1 by norm_num, Gamma_nat_eq_factorial]; norm_num [Nat.factorial]]
  field_simp
  norm_num

/-- **C21 is false for power laws with stimulated emission**: total emissivity leaves the factor `1 - e^{-hν/kT}` out.
This holds for every such power law with a nonzero opacity at any positive density and temperature: the integral of
the spectral emissivity is `90/π⁴ = 0.924` of the returned value. -/
theorem C21_stimulated_false (p : PowerLawOpacity ℝ) (P : PosPC p.pc) (hs : p.do_stim_emit_ = true)
    (h0 : p.nu_exp_ = 0) {rho T : ℝ} (hT : 0 < T) (hr : rho * p.OpacityPrefactor_ rho T ≠ 0) :
    ¬ TotalIsIntegral inferInstance p ∧
    ∃ J, PhotonAPI.Emissivity p rho T = .ok J ∧
      ∫ ν in Ioi (0 : ℝ), PhotonAPI.EmissivityPerNu p rho T ν = 90 / π ^ 4 * J := by
  obtain ⟨i1, i2⟩ := planck_integral P hT
  obtain ⟨w1, w2⟩ := wien_integral P hT
  have e : ∀ ν, PhotonAPI.EmissivityPerNu p rho T ν = (4 * π * (rho * p.OpacityPrefactor_ rho T)) *
      (planckLaw p.pc.h p.pc.kb p.pc.c T ν * (1 - exp (-(p.pc.h * ν / (p.pc.kb * T))))) := by
    intro ν
    simp only [PhotonAPI.EmissivityPerNu, PowerLawOpacity.EmissivityPerNu, PowerLawOpacity.EmissivityPerNuOmega,
      PowerLawOpacity.OpacityScale_, areal, planck_eq, hs, h0, rpow_zero]
    push_cast; simp; ring
  have hJ : PhotonAPI.Emissivity p rho T = .ok (rho * p.OpacityPrefactor_ rho T *
      (8 * π ^ 5 * p.pc.kb ^ 4 * T ^ 4 / (15 * p.pc.c ^ 2 * p.pc.h ^ 3))) := by
    show PowerLawOpacity.Emissivity p rho T = _
    unfold PowerLawOpacity.Emissivity
    rw [if_neg (by simp [areal, h0])]
    simp only [areal, planckT_eq]
  have hI : ∫ ν in Ioi (0 : ℝ), PhotonAPI.EmissivityPerNu p rho T ν = 90 / π ^ 4 *
      (rho * p.OpacityPrefactor_ rho T * (8 * π ^ 5 * p.pc.kb ^ 4 * T ^ 4 / (15 * p.pc.c ^ 2 * p.pc.h ^ 3))) := by
    simp only [e]
    rw [integral_const_mul, w2]
    obtain ⟨h1, h2, h3, -⟩ := P
    field_simp
    ring
  refine ⟨fun k => ?_, _, hJ, hI⟩
  obtain ⟨-, k2⟩ := k rho T _ hT hJ
  rw [hI] at k2
  obtain ⟨h1, h2, h3, -⟩ := P
  have hne : rho * p.OpacityPrefactor_ rho T * (8 * π ^ 5 * p.pc.kb ^ 4 * T ^ 4 / (15 * p.pc.c ^ 2 * p.pc.h ^ 3)) ≠ 0 :=
    mul_ne_zero hr (by positivity)
  have : 90 / π ^ 4 = 1 := by
    have := mul_right_cancel₀ hne ((one_mul _).trans k2)
    exact this.symm
  have hp : (3.14 : ℝ) < π := pi_gt_d2
  rw [div_eq_one_iff_eq (by positivity)] at this
  have h4 : (3.14 : ℝ) ^ 4 < π ^ 4 := by gcongr
  norm_num at h4
  linarith

/-- such a power law: `κ₀ = 1`, exponents 0, references 1, offsets 0, stimulated emission on, CGS constants -/
example : ∃ p : PowerLawOpacity ℝ, PowerLawOpacity.construct PhysicalConstantsCGS 1 0 0 0 1 0 1 0 1 0 true = .ok p ∧
    PosPC p.pc ∧ p.do_stim_emit_ = true ∧ p.nu_exp_ = 0 ∧ (2 : ℝ) * p.OpacityPrefactor_ 2 3 ≠ 0 := by
  refine ⟨⟨PhysicalConstantsCGS, 1, 0, 0, 1, 0, 1, 0, 0, 1, 0, true⟩, ?_, PosPC_CGS, rfl, rfl, ?_⟩
  · simp [PowerLawOpacity.construct, areal, Arith.gt, Arith.lt]
  · simp [PowerLawOpacity.OpacityPrefactor_, areal]

/-- hypotheses of the C21–C23 theorems: a gray opacity behind two wrappers, the outer one in the variant -/
example (κ : ℝ) : let g := GrayOpacity.mk PhysicalConstantsCGS κ
    PosPC g.pc ∧ Behind g (Opacity ℝ) inferInstance (.NonCGSGray (NonCGSUnits.construct g 2 3 5 7))
      [⟨2, 3, 5, 7⟩] :=
  ⟨PosPC_CGS, .variant (.NonCGSGray _) (.nonCGS ⟨2, 3, 5, 7⟩ units_pos_ex .self)⟩

/-! ## C22 -/

/-- number emissivity of thermal emitters `j_ν = ρ κ B_ν`, when the code returns `κ` times the thermal number -/
theorem number_of_thermal {pc : PC ℝ} (P : PosPC pc) {T : ℝ} (hT : 0 < T) (k : ℝ) :
    IntegrableOn (fun ν => 4 * π * k * planckLaw pc.h pc.kb pc.c T ν / (pc.h * ν)) (Ioi 0) ∧
    ∃ I : ℝ, 0 < I ∧ ∫ ν in Ioi (0 : ℝ), 4 * π * k * planckLaw pc.h pc.kb pc.c T ν / (pc.h * ν) = k * I ∧
      |Planck.ThermalNumberDistributionOfT pc T - I| ≤ 4e-6 * I := by
  have c := C15_number (Built.gray ⟨pc, 0⟩ P) (by norm_num) hT
  obtain ⟨c1, c2, c3⟩ := c
  have e : ∀ ν, 4 * π * k * planckLaw pc.h pc.kb pc.c T ν / (pc.h * ν) =
      (4 * π * k) * (planckLaw pc.h pc.kb pc.c T ν / (pc.h * ν)) := fun ν => by ring
  simp only [e]
  have eB : ∀ ν, PhotonAPI.ThermalDistributionOfTNu (R := ℝ) (GrayOpacity.mk pc 0) T ν =
      planckLaw pc.h pc.kb pc.c T ν := fun ν => planck_eq pc T ν
  have eh : (PhotonAPI.GetRuntimePhysicalConstants (R := ℝ) (GrayOpacity.mk pc 0)).pc.h = pc.h := rfl
  simp only [eB, eh] at c1 c2 c3
  refine ⟨c1.const_mul _, _, c2, ?_, c3⟩
  rw [integral_const_mul]; ring

theorem numberTimesDensity_of_thermal {pc : PC ℝ} (P : PosPC pc) {T N rho k : ℝ} (hT : 0 < T)
    (hN : N = k * Planck.ThermalNumberDistributionOfT pc T) :
    IntegrableOn (fun ν => 4 * π * (rho * k) * planckLaw pc.h pc.kb pc.c T ν / (pc.h * ν)) (Ioi 0) ∧
    |N * (rho / 1) - ∫ ν in Ioi (0 : ℝ), 4 * π * (rho * k) * planckLaw pc.h pc.kb pc.c T ν / (pc.h * ν)| ≤
      4e-6 * |∫ ν in Ioi (0 : ℝ), 4 * π * (rho * k) * planckLaw pc.h pc.kb pc.c T ν / (pc.h * ν)| := by
  obtain ⟨c1, I, c2, c3, c4⟩ := number_of_thermal P hT (rho * k)
  refine ⟨c1, ?_⟩
  rw [c3, hN, div_one, show k * Planck.ThermalNumberDistributionOfT pc T * rho - rho * k * I =
    (rho * k) * (Planck.ThermalNumberDistributionOfT pc T - I) by ring, abs_mul (rho * k), abs_mul (rho * k) I,
    abs_of_pos c2]
  nlinarith [mul_le_mul_of_nonneg_left c4 (abs_nonneg (rho * k))]

/-- **C22 for gray opacities, up to a missing factor of the density**: the returned value times the density in g/cm³ is
the integral, to 4 parts in a million (the code's zeta(3) is rounded).  What is missing is that factor: C22 itself is
false (`C22_gray_false`). -/
theorem C22_gray_partial (g : GrayOpacity ℝ) (P : PosPC g.pc) (H : Behind g O inst o us) :
    NumberTimesDensityIsIntegral 4e-6 ((Spec.Units.total us).toCode .action g.pc.h)
      ((Spec.Units.total us).toCode .density 1) inst o := by
  refine NumberTimesDensityIsIntegral.code H.pos (H.inUnits (.gray g)) fun rho T N hT hN => ?_
  have e : ∀ ν, numberSpectrum g.pc.h inferInstance g rho T ν =
      4 * π * (rho * g.kappa_) * planckLaw g.pc.h g.pc.kb g.pc.c T ν / (g.pc.h * ν) := by
    intro ν
    simp only [numberSpectrum, PhotonAPI.EmissivityPerNu, GrayOpacity.EmissivityPerNu, GrayOpacity.EmissivityPerNuOmega,
      areal, planck_eq]
    push_cast; ring
  rw [show numberSpectrum g.pc.h inferInstance g rho T = _ from funext e]
  refine numberTimesDensity_of_thermal P hT ?_
  injection hN with hN
  exact hN.symm

/-- **C22 for power laws without stimulated emission, up to a missing factor of the density** -/
theorem C22_powerLaw_partial (p : PowerLawOpacity ℝ) (P : PosPC p.pc) (hs : p.do_stim_emit_ = false)
    (H : Behind p O inst o us) :
    NumberTimesDensityIsIntegral 4e-6 ((Spec.Units.total us).toCode .action p.pc.h)
      ((Spec.Units.total us).toCode .density 1) inst o := by
  refine NumberTimesDensityIsIntegral.code H.pos (H.inUnits (.powerLaw p)) fun rho T N hT hN => ?_
  have hN : PowerLawOpacity.NumberEmissivity p rho T = .ok N := hN
  unfold PowerLawOpacity.NumberEmissivity at hN
  split_ifs at hN with h0
  have h0 : p.nu_exp_ = 0 := by
    rw [Bool.not_eq_true, Bool.not_eq_false', real_eqb] at h0; rw [h0]; simp [areal]
  have e : ∀ ν, numberSpectrum p.pc.h inferInstance p rho T ν =
      4 * π * (rho * p.OpacityPrefactor_ rho T) * planckLaw p.pc.h p.pc.kb p.pc.c T ν / (p.pc.h * ν) := by
    intro ν
    simp only [numberSpectrum, PhotonAPI.EmissivityPerNu, PowerLawOpacity.EmissivityPerNu,
      PowerLawOpacity.EmissivityPerNuOmega, PowerLawOpacity.OpacityScale_, areal, planck_eq, hs, h0, rpow_zero]
    push_cast; simp; ring
  rw [show numberSpectrum p.pc.h inferInstance p rho T = _ from funext e]
  refine numberTimesDensity_of_thermal P hT ?_
  injection hN with hN
  exact hN.symm

/-- **C22 is false of every gray opacity with a nonzero coefficient**: number emissivity leaves the density out.  At
2 g/cm³ it is wrong by a factor 2. -/
theorem C22_gray_false (g : GrayOpacity ℝ) (P : PosPC g.pc) (hκ : g.kappa_ ≠ 0) :
    ¬ NumberIsIntegral 0.49 g.pc.h inferInstance g := by
  intro k
  obtain ⟨k1, k2⟩ := k 2 1 _ one_pos rfl
  have e : ∀ ν, numberSpectrum g.pc.h inferInstance g 2 1 ν =
      4 * π * (2 * g.kappa_) * planckLaw g.pc.h g.pc.kb g.pc.c 1 ν / (g.pc.h * ν) := by
    intro ν
    simp only [numberSpectrum, PhotonAPI.EmissivityPerNu, GrayOpacity.EmissivityPerNu, GrayOpacity.EmissivityPerNuOmega,
      areal, planck_eq]
    push_cast; ring
  obtain ⟨c1, I, c2, c3, c4⟩ := number_of_thermal P one_pos (2 * g.kappa_)
  simp only [e] at k2
  rw [c3] at k2
  simp only [GrayOpacity.NumberEmissivity, areal] at k2
  rw [show g.kappa_ * Planck.ThermalNumberDistributionOfT g.pc 1 - 2 * g.kappa_ * I =
    g.kappa_ * (Planck.ThermalNumberDistributionOfT g.pc 1 - 2 * I) by ring, abs_mul,
    show 2 * g.kappa_ * I = g.kappa_ * (2 * I) by ring, abs_mul, abs_of_pos (by positivity : 0 < 2 * I)] at k2
  have hk : 0 < |g.kappa_| := abs_pos.2 hκ
  have k3 : |Planck.ThermalNumberDistributionOfT g.pc 1 - 2 * I| ≤ 0.49 * (2 * I) := by
    have : |g.kappa_| * |Planck.ThermalNumberDistributionOfT g.pc 1 - 2 * I| ≤ |g.kappa_| * (0.49 * (2 * I)) := by
      linarith
    exact le_of_mul_le_mul_left this hk
  rw [abs_le] at k3 c4
  linarith

/-- **C22 is true of a gray opacity of any coefficient at a density of 1 g/cm³** (so the failure above is the density
factor, not the spectrum) -/
theorem C22_gray_unit_density (g : GrayOpacity ℝ) (P : PosPC g.pc) {T N : ℝ} (hT : 0 < T)
    (hN : PhotonAPI.NumberEmissivity g 1 T = .ok N) :
    |N - ∫ ν in Ioi (0 : ℝ), numberSpectrum g.pc.h inferInstance g 1 T ν| ≤
      4e-6 * |∫ ν in Ioi (0 : ℝ), numberSpectrum g.pc.h inferInstance g 1 T ν| := by
  have := (C22_gray_partial g P .self 1 T N hT hN).2
  simpa [Spec.Units.total, toCode_cgs] using this
end
end Photons
end Opac
