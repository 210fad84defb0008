import Verif.Lemmas.ThermalNF
import Verif.Props.Constants

/-! # C14–C19: thermal radiation -/

set_option linter.unusedSimpArgs false

namespace Opac
open Spec Real Set MeasureTheory

/-- every set of constants defined by the template, with positive base values and units, is admissible -/
theorem PosPC_of_base (B : BaseConsts ℝ) (U : UnitConv ℝ) (h1 : 0 < B.planck) (h2 : 0 < B.boltzmann)
    (h3 : 0 < B.speed_of_light) (u1 : 0 < U.length) (u2 : 0 < U.mass) (u3 : 0 < U.time)
    (u4 : 0 < U.temperature) : PosPC (PhysicalConstants B U) := by
  have e1 : 0 < (PhysicalConstants B U).h := by simp only [PhysicalConstants, areal]; positivity
  have e2 : 0 < (PhysicalConstants B U).kb := by simp only [PhysicalConstants, areal]; positivity
  have e3 : 0 < (PhysicalConstants B U).c := by simp only [PhysicalConstants, areal]; positivity
  refine ⟨e1, e2, e3, ?_⟩
  obtain ⟨r1, r2, -, -⟩ := C44_relations B U
  rw [r1, r2]; field_simp; ring

theorem PosPC_CGS : PosPC PhysicalConstantsCGS := by
  apply PosPC_of_base <;> simp only [BaseSICODATA2010, UnitConversionSIToCGS, areal] <;> push_cast <;> norm_num
theorem PosPC_SI : PosPC PhysicalConstantsSI := by
  apply PosPC_of_base <;> simp only [BaseSICODATA2010, UnitConversionDefault, areal] <;> push_cast <;> norm_num
theorem PosPC_Unity : PosPC PhysicalConstantsUnity := by
  apply PosPC_of_base <;> simp only [BaseUnity, UnitConversionDefault, areal] <;> push_cast <;> norm_num

/-! Instances of the hypotheses: CGS gray opacity, wrapped twice, in the variant. -/

namespace Photons
theorem built_gray_cgs (κ : ℝ) : Built _ inferInstance (GrayOpacity.mk PhysicalConstantsCGS κ) 0 :=
  .gray _ PosPC_CGS
theorem units_pos_ex : (Spec.Units.mk 2 3 5 7).Pos := ⟨by norm_num, by norm_num, by norm_num, by norm_num⟩
example (κ : ℝ) : ∃ w, Built (Opacity ℝ) inferInstance (.NonCGSGray w) 1 :=
  ⟨_, .vNonCGSGray (.nonCGS ⟨2, 3, 5, 7⟩ units_pos_ex (built_gray_cgs κ))⟩
example (κ : ℝ) : ∃ w, Built (NonCGSUnits ℝ (NonCGSUnits ℝ (GrayOpacity ℝ))) inferInstance w 2 :=
  ⟨_, .nonCGS ⟨2, 3, 5, 7⟩ units_pos_ex (.nonCGS ⟨2, 3, 5, 7⟩ units_pos_ex (built_gray_cgs κ))⟩

variable {O : Type} [inst : PhotonAPI ℝ O] {o : O} {n : ℕ}

/-- **C14 (the spectrum)** the spectrum of every photon opacity is Planck's law with the reported constants -/
theorem C14_spectrum (H : Built O inst o n) (hn : n ≤ 1) (T ν : ℝ) :
    PhotonAPI.ThermalDistributionOfTNu o T ν =
      planckLaw (PhotonAPI.GetRuntimePhysicalConstants (R := ℝ) o).pc.h
        (PhotonAPI.GetRuntimePhysicalConstants (R := ℝ) o).pc.kb
        (PhotonAPI.GetRuntimePhysicalConstants (R := ℝ) o).pc.c T ν := by
  obtain ⟨pc, h, -, hr⟩ := H.nf
  have r := hr hn
  rw [r.h, r.kb, r.c, h.BTNu, planck_eq]

/-- **C14** for every photon opacity (any model, any units, bare or in the variant) and every temperature, the
total thermal emission is `4π` times the integral of the spectrum, which is integrable. -/
theorem C14_total (H : Built O inst o n) {T : ℝ} (hT : 0 < T) :
    IntegrableOn (fun ν => PhotonAPI.ThermalDistributionOfTNu o T ν) (Ioi 0) ∧
    PhotonAPI.ThermalDistributionOfT o T =
      4 * π * ∫ ν in Ioi (0 : ℝ), PhotonAPI.ThermalDistributionOfTNu o T ν := by
  obtain ⟨pc, h, -⟩ := H.nf
  simp only [h.BTNu, h.BT, planck_eq, planckT_eq]
  obtain ⟨i, e⟩ := planck_integral h.pos hT
  exact ⟨i, e.symm⟩

/-- **C15** the number emission is `4π ∫ B_ν/(hν) dν` to relative accuracy `4e-6`, with the reported Planck
constant. -/
theorem C15_number (H : Built O inst o n) (hn : n ≤ 1) {T : ℝ} (hT : 0 < T) :
    let I := 4 * π * ∫ ν in Ioi (0 : ℝ), PhotonAPI.ThermalDistributionOfTNu o T ν /
      ((PhotonAPI.GetRuntimePhysicalConstants (R := ℝ) o).pc.h * ν)
    IntegrableOn (fun ν => PhotonAPI.ThermalDistributionOfTNu o T ν /
      ((PhotonAPI.GetRuntimePhysicalConstants (R := ℝ) o).pc.h * ν)) (Ioi 0) ∧
    0 < I ∧ |PhotonAPI.ThermalNumberDistributionOfT o T - I| ≤ 4e-6 * I := by
  obtain ⟨pc, h, -, hr⟩ := H.nf
  have r := hr hn
  intro I
  simp only [I, r.h, h.BTNu, h.NT, planck_eq, planckN_eq]
  obtain ⟨i, e⟩ := planck_number_integral h.pos hT
  obtain ⟨p1, p2, p3, -⟩ := h.pos
  have hz := zetaR_three_bounds
  have hzp : 0 < zetaR 3 := zetaR_pos (by norm_num)
  refine ⟨i, ?_, ?_⟩
  · rw [e]; positivity
  · rw [e]
    set A := 16 * pc.kb ^ 3 * π * T ^ 3 / (pc.c ^ 2 * pc.h ^ 3) with hA
    have hA0 : 0 < A := by positivity
    have e1 : 16 * pc.kb ^ 3 * π * T ^ 3 * 1.20206 / (pc.c ^ 2 * pc.h ^ 3) = A * 1.20206 := by rw [hA]; ring
    have e2 : 16 * pc.kb ^ 3 * π * T ^ 3 * zetaR 3 / (pc.c ^ 2 * pc.h ^ 3) = A * zetaR 3 := by rw [hA]; ring
    rw [e1, e2, ← mul_sub, abs_mul, abs_of_pos hA0, mul_left_comm]
    refine mul_le_mul_of_nonneg_left ?_ hA0.le
    rw [abs_of_pos (by linarith [hz.2])]
    nlinarith [hz.1]

/-- **C18** temperature ↔ energy density: inverse on `[0, ∞)`, strictly increasing; the energy density is
`a T⁴` with the reported radiation constant. -/
theorem C18_inverse (H : Built O inst o n) :
    (∀ T : ℝ, 0 ≤ T → PhotonAPI.TemperatureFromEnergyDensity o (PhotonAPI.EnergyDensityFromTemperature o T) = T) ∧
    (∀ e : ℝ, 0 ≤ e → PhotonAPI.EnergyDensityFromTemperature o (PhotonAPI.TemperatureFromEnergyDensity o e) = e) ∧
    StrictMonoOn (fun T : ℝ => PhotonAPI.EnergyDensityFromTemperature o T) (Ici 0) ∧
    StrictMonoOn (fun e : ℝ => PhotonAPI.TemperatureFromEnergyDensity o e) (Ici 0) ∧
    (n ≤ 1 → ∀ T : ℝ, PhotonAPI.EnergyDensityFromTemperature o T =
      (PhotonAPI.GetRuntimePhysicalConstants (R := ℝ) o).pc.ar * T ^ 4) := by
  obtain ⟨pc, h, -, hr⟩ := H.nf
  obtain ⟨p1, p2, p3, p4⟩ := h.pos
  refine ⟨?_, ?_, ?_, ?_, ?_⟩
  · intro T hT
    rw [h.E, planckE_eq, h.TE _ (by positivity), planckTE_eq]
    have : 15 * pc.c ^ 3 * pc.h ^ 3 * (8 * π ^ 5 * pc.kb ^ 4 * T ^ 4 / (15 * pc.c ^ 2 * pc.h ^ 3) / pc.c) /
        (8 * π ^ 5 * pc.kb ^ 4) = T ^ 4 := by field_simp
    rw [this, ← rpow_natCast, ← rpow_mul hT]; norm_num
  · intro e he
    rw [h.TE _ he, h.E, planckE_eq, planckTE_eq]
    have hx : 0 ≤ 15 * pc.c ^ 3 * pc.h ^ 3 * e / (8 * π ^ 5 * pc.kb ^ 4) := by positivity
    have : ((15 * pc.c ^ 3 * pc.h ^ 3 * e / (8 * π ^ 5 * pc.kb ^ 4)) ^ (1 / 4 : ℝ)) ^ 4 =
        15 * pc.c ^ 3 * pc.h ^ 3 * e / (8 * π ^ 5 * pc.kb ^ 4) := by
      rw [← rpow_natCast, ← rpow_mul hx]; norm_num
    rw [this]; field_simp
  · intro a ha b _ hab
    have ha' : (0 : ℝ) ≤ a := ha
    simp only [h.E, planckE_eq]
    have : a ^ 4 < b ^ 4 := pow_lt_pow_left₀ hab ha' (by norm_num)
    gcongr
  · intro a ha b hb hab
    have ha' : (0 : ℝ) ≤ a := ha
    simp only [h.TE _ ha', h.TE _ (show (0:ℝ) ≤ b from hb), planckTE_eq]
    refine rpow_lt_rpow (by positivity) ?_ (by norm_num)
    gcongr
  · intro hn T
    rw [(hr hn).ar, p4, h.E, planckE_eq]; field_simp

/-- **C19** positive, strictly increasing in temperature, below Rayleigh–Jeans (`2ν²kT/c²` with the reported
constants). -/
theorem C19_spectrum (H : Built O inst o n) {ν : ℝ} (hν : 0 < ν) :
    (∀ T : ℝ, 0 < T → 0 < PhotonAPI.ThermalDistributionOfTNu o T ν) ∧
    StrictMonoOn (fun T : ℝ => PhotonAPI.ThermalDistributionOfTNu o T ν) (Ioi 0) ∧
    (n ≤ 1 → ∀ T : ℝ, 0 < T → PhotonAPI.ThermalDistributionOfTNu o T ν <
      2 * ν ^ 2 * (PhotonAPI.GetRuntimePhysicalConstants (R := ℝ) o).pc.kb * T /
        (PhotonAPI.GetRuntimePhysicalConstants (R := ℝ) o).pc.c ^ 2) := by
  obtain ⟨pc, h, -, hr⟩ := H.nf
  simp only [h.BTNu, planck_eq]
  refine ⟨fun T hT => planck_pos h.pos hT hν, planck_strictMono h.pos hν, fun hn T hT => ?_⟩
  rw [(hr hn).kb, (hr hn).c]
  exact planck_lt_rayleigh_jeans h.pos hT hν

/-- **C17** for opacities that are not wrapped in units -/
theorem C17_derivative_partial (H : Built O inst o 0) {T ν : ℝ} (hT : 0 < T) (hν : 0 < ν) :
    HasDerivAt (fun T : ℝ => PhotonAPI.ThermalDistributionOfTNu o T ν)
      (PhotonAPI.DThermalDistributionOfTNuDT o T ν) T := by
  generalize hm : (0 : ℕ) = m at H
  induction H with
  | gray o P | epbremss o P | powerLaw o P =>
    have := planck_hasDerivAt P hT hν
    simp only [← planck_eq] at this
    exact this
  | nonCGS u hu _ ih => omega
  | vScaleFree _ ih | vGray _ ih | vPowerLawScaleFree _ ih | vPowerLaw _ ih | vEPBremss _ ih
  | vNonCGSGray _ ih | vNonCGSPowerLaw _ ih | vNonCGSEPBremss _ ih => exact ih hm

/-- **C17 is false in code units**: for every photon gray opacity wrapped with a temperature unit of 2, at every
temperature and frequency, the returned value is not the derivative of the returned spectrum (the wrapper
forgets to convert the temperature and the frequency). -/
theorem C17_false (g : GrayOpacity ℝ) (P : PosPC g.pc) {T ν : ℝ} (hT : 0 < T) (hν : 0 < ν) :
    ¬ HasDerivAt (fun T : ℝ => PhotonAPI.ThermalDistributionOfTNu (NonCGSUnits.construct (R := ℝ) g 1 1 1 2) T ν)
      (PhotonAPI.DThermalDistributionOfTNuDT (NonCGSUnits.construct (R := ℝ) g 1 1 1 2) T ν) T := by
  have h2 : 0 < T * 2 := by positivity
  have hd : HasDerivAt (fun T : ℝ => PhotonAPI.ThermalDistributionOfTNu (NonCGSUnits.construct (R := ℝ) g 1 1 1 2) T ν)
      (Planck.DThermalDistributionOfTNuDT g.pc (T * 2) ν * 2) T := by
    have h := planck_hasDerivAt P h2 hν
    have hc := h.comp T ((hasDerivAt_id T).mul_const 2)
    simp only [one_mul] at hc
    have e : (fun T : ℝ => PhotonAPI.ThermalDistributionOfTNu (NonCGSUnits.construct (R := ℝ) g 1 1 1 2) T ν) =
        (fun T => planckLaw g.pc.h g.pc.kb g.pc.c T ν) ∘ fun T => id T * 2 := by
      funext t
      show Planck.ThermalDistributionOfTNu g.pc (t * 2) (ν * (Arith.lit 1 / 1)) * (1 * 1 / 1) = _
      rw [planck_eq]; simp [areal]
    rw [e]; exact hc
  intro hbad
  have heq := hbad.unique hd
  have e : (PhotonAPI.DThermalDistributionOfTNuDT (NonCGSUnits.construct (R := ℝ) g 1 1 1 2) T ν : ℝ) =
      Planck.DThermalDistributionOfTNuDT g.pc T ν * (1 * 1 / 1) * 2 := rfl
  rw [e] at heq
  obtain ⟨p1, p2, p3, -⟩ := P
  simp only [Planck.DThermalDistributionOfTNuDT, areal] at heq
  push_cast at heq
  set y := exp (-(g.pc.h * ν / (g.pc.kb * (T * 2)))) with hy
  have hx : 0 < g.pc.h * ν / (g.pc.kb * (T * 2)) := by positivity
  have hy0 : 0 < y := exp_pos _
  have hy1 : y < 1 := by rw [hy, exp_lt_one_iff]; linarith
  have hsq : exp (-(g.pc.h * ν / (g.pc.kb * T))) = y * y := by
    rw [hy, ← exp_add]; congr 1; field_simp; ring
  rw [hsq] at heq
  have hne : y * y - 1 ≠ 0 := by nlinarith
  have hne1 : y - 1 ≠ 0 := by linarith
  field_simp at heq
  have hne2 : (y ^ 2 - 1) ^ 2 ≠ 0 := pow_ne_zero 2 (by nlinarith)
  rw [div_eq_one_iff_eq hne2] at heq
  have h4 : (y - 1) ^ 4 = 0 := by linear_combination -heq
  exact hne1 (pow_eq_zero_iff (by norm_num) |>.1 h4)

/-- **C19 (Wien tail)** the thermal weights used by the mean opacities, which switch to the Wien form at
`hν/kT = 80`, agree with the exact spectrum and its exact temperature derivative to relative accuracy `1e-33`. -/
theorem C19_wien_tail {pc : PC ℝ} (P : PosPC pc) {T ν : ℝ} (hT : 0 < T) (hν : 0 < ν) :
    |(ThermalWeightsAtNu pc T ν).1 - planckLaw pc.h pc.kb pc.c T ν| ≤ 1e-33 * planckLaw pc.h pc.kb pc.c T ν ∧
    0 < deriv (fun T => planckLaw pc.h pc.kb pc.c T ν) T ∧
    |(ThermalWeightsAtNu pc T ν).2 - deriv (fun T => planckLaw pc.h pc.kb pc.c T ν) T| ≤
      1e-33 * deriv (fun T => planckLaw pc.h pc.kb pc.c T ν) T := by
  have hB := planck_pos P hT hν
  have hD := (planck_hasDerivAt P hT hν).deriv
  rw [hD]
  obtain ⟨p1, p2, p3, -⟩ := P
  have hx : 0 < pc.h * ν / (pc.kb * T) := by positivity
  set y := exp (-(pc.h * ν / (pc.kb * T))) with hy
  have hy0 : 0 < y := exp_pos _
  have hy1 : y < 1 := by rw [hy, exp_lt_one_iff]; linarith
  have hE : exp (pc.h * ν / (pc.kb * T)) = y⁻¹ := by rw [hy, exp_neg, inv_inv]
  have hDe : Planck.DThermalDistributionOfTNuDT pc T ν =
      2 * pc.h * pc.h * ν * ν * ν * ν * y / (T * T * pc.c * pc.c * pc.kb) / (1 - y) ^ 2 := by
    simp only [Planck.DThermalDistributionOfTNuDT, areal, ← hy]; push_cast
    have : (-(y - 1)) * (-(y - 1)) = (1 - y) ^ 2 := by ring
    rw [this]; ring
  have h1y : 0 < 1 - y := by linarith
  have hDpos : 0 < Planck.DThermalDistributionOfTNuDT pc T ν := by rw [hDe]; positivity
  by_cases hlt : pc.h * ν / (pc.kb * T) < 80
  · have : ThermalWeightsAtNu pc T ν =
        (Planck.ThermalDistributionOfTNu pc T ν, Planck.DThermalDistributionOfTNuDT pc T ν) := by
      unfold ThermalWeightsAtNu
      have hc : Arith.lt (pc.h * ν / (pc.kb * T)) (wien_tail_x : ℝ) = true := by
        rw [real_lt]; simpa [wien_tail_x, areal] using hlt
      exact if_pos hc
    rw [this]
    simp only [planck_eq, sub_self, abs_zero]
    exact ⟨by positivity, hDpos, by positivity⟩
  · have hge : 80 ≤ pc.h * ν / (pc.kb * T) := not_lt.1 hlt
    have hy80 : y < 1e-34 := lt_of_le_of_lt (exp_le_exp.2 (by linarith)) exp_neg_80
    have : ThermalWeightsAtNu pc T ν =
        ((2 * pc.h * ν * ν * ν / (pc.c * pc.c)) * y,
         2 * pc.h * pc.h * ν * ν * ν * ν * y / (T * T * pc.c * pc.c * pc.kb)) := by
      unfold ThermalWeightsAtNu
      have hc : ¬ Arith.lt (pc.h * ν / (pc.kb * T)) (wien_tail_x : ℝ) = true := by
        rw [real_lt]; simpa [wien_tail_x, areal] using hlt
      refine (if_neg hc).trans ?_
      simp only [areal, ← hy]; push_cast; rfl
    rw [this]
    refine ⟨?_, hDpos, ?_⟩
    · have hBe : (2 * pc.h * ν * ν * ν / (pc.c * pc.c)) * y = planckLaw pc.h pc.kb pc.c T ν * (1 - y) := by
        simp only [planckLaw, hE]
        have : y⁻¹ - 1 = (1 - y) / y := by field_simp
        rw [this]; field_simp
      rw [hBe]
      have : planckLaw pc.h pc.kb pc.c T ν * (1 - y) - planckLaw pc.h pc.kb pc.c T ν =
        -(y * planckLaw pc.h pc.kb pc.c T ν) := by ring
      rw [this, abs_neg, abs_of_pos (by positivity)]
      exact mul_le_mul_of_nonneg_right (by linarith) hB.le
    · have hDe' : 2 * pc.h * pc.h * ν * ν * ν * ν * y / (T * T * pc.c * pc.c * pc.kb) =
          Planck.DThermalDistributionOfTNuDT pc T ν * (1 - y) ^ 2 := by
        rw [hDe]; field_simp
      rw [hDe']
      have : Planck.DThermalDistributionOfTNuDT pc T ν * (1 - y) ^ 2 - Planck.DThermalDistributionOfTNuDT pc T ν =
        -((y * (2 - y)) * Planck.DThermalDistributionOfTNuDT pc T ν) := by ring
      have h2 : 0 < y * (2 - y) := mul_pos hy0 (by linarith)
      rw [this, abs_neg, abs_of_pos (mul_pos h2 hDpos)]
      exact mul_le_mul_of_nonneg_right (by nlinarith) hDpos.le

/-- both sides of the switch occur -/
example : ∃ T ν : ℝ, 0 < T ∧ 0 < ν ∧ (PhysicalConstantsUnity : PC ℝ).h * ν / ((PhysicalConstantsUnity : PC ℝ).kb * T) = 81 :=
  ⟨1, 81, by norm_num, by norm_num, by
    simp only [PhysicalConstantsUnity, PhysicalConstants, BaseUnity, UnitConversionDefault, areal]; push_cast; norm_num⟩

end Photons

namespace Neutrinos

/-- the distribution used by the shipped neutrino opacities -/
theorem posDist_cgs : PosDist (FermiDirac.mk 3 PhysicalConstantsCGS) := ⟨by norm_num, PosPC_CGS⟩
theorem built_brt_cgs : Built _ inferInstance
    (BRTOpacity.mk (FermiDirac.mk 3 PhysicalConstantsCGS) PhysicalConstantsCGS : BRTOpacity ℝ) 0 :=
  .brt _ posDist_cgs rfl
example : ∃ w, Built (Opacity ℝ) inferInstance (.NonCGSBRT w) 1 :=
  ⟨_, .vNonCGSBRT (.nonCGS ⟨2, 3, 5, 7⟩ Photons.units_pos_ex built_brt_cgs)⟩

variable {O : Type} [inst : NeutrinoAPI ℝ O] {o : O} {n : ℕ}

/-- **C16 (spectrum)** the spectrum of every neutrino opacity is the Fermi–Dirac law with some positive number of
species (the same for all temperatures, frequencies and types) and the reported constants -/
theorem C16_spectrum (H : Built O inst o n) (hn : n ≤ 1) :
    ∃ g : ℤ, 0 < g ∧ ∀ (T : ℝ) (type : RadiationType) (ν : ℝ), NeutrinoAPI.ThermalDistributionOfTNu o T type ν =
      fermiDiracLaw g (NeutrinoAPI.GetRuntimePhysicalConstants (R := ℝ) o).pc.h
        (NeutrinoAPI.GetRuntimePhysicalConstants (R := ℝ) o).pc.kb
        (NeutrinoAPI.GetRuntimePhysicalConstants (R := ℝ) o).pc.c T ν := by
  obtain ⟨d, h, -, hr⟩ := H.nf
  have r := hr hn
  exact ⟨d.NSPECIES, h.pos.species, fun T type ν => by rw [r.h, r.kb, r.c, h.BTNu, fermi_eq]⟩

/-- **C16 (energy)** total thermal emission is `4π` times the integral of the spectrum -/
theorem C16_total (H : Built O inst o n) {T : ℝ} (hT : 0 < T) (type : RadiationType) :
    IntegrableOn (fun ν => NeutrinoAPI.ThermalDistributionOfTNu o T type ν) (Ioi 0) ∧
    NeutrinoAPI.ThermalDistributionOfT o T type =
      4 * π * ∫ ν in Ioi (0 : ℝ), NeutrinoAPI.ThermalDistributionOfTNu o T type ν := by
  obtain ⟨d, h, -⟩ := H.nf
  simp only [h.BTNu, h.BT, fermi_eq, fermiT_eq]
  obtain ⟨i, e⟩ := fermi_law_integral h.pos.pc d.NSPECIES hT
  exact ⟨i, e.symm⟩

/-- **C16 (number)** -/
theorem C16_number (H : Built O inst o n) (hn : n ≤ 1) {T : ℝ} (hT : 0 < T) (type : RadiationType) :
    let I := 4 * π * ∫ ν in Ioi (0 : ℝ), NeutrinoAPI.ThermalDistributionOfTNu o T type ν /
      ((NeutrinoAPI.GetRuntimePhysicalConstants (R := ℝ) o).pc.h * ν)
    IntegrableOn (fun ν => NeutrinoAPI.ThermalDistributionOfTNu o T type ν /
      ((NeutrinoAPI.GetRuntimePhysicalConstants (R := ℝ) o).pc.h * ν)) (Ioi 0) ∧
    0 < I ∧ |NeutrinoAPI.ThermalNumberDistributionOfT o T type - I| ≤ 4e-6 * I := by
  obtain ⟨d, h, -, hr⟩ := H.nf
  have r := hr hn
  intro I
  simp only [I, r.h, h.BTNu, h.NT, fermi_eq, fermiN_eq]
  obtain ⟨i, e⟩ := fermi_number_integral h.pos.pc d.NSPECIES hT
  obtain ⟨p1, p2, p3, -⟩ := h.pos.pc
  have hs : (0 : ℝ) < d.NSPECIES := by exact_mod_cast h.pos.species
  have hz := zetaR_three_bounds
  have hzp : 0 < zetaR 3 := zetaR_pos (by norm_num)
  refine ⟨i, ?_, ?_⟩
  · rw [e]; positivity
  · rw [e]
    set A := 12 * d.pc.kb ^ 3 * π * d.NSPECIES * T ^ 3 / (d.pc.c ^ 2 * d.pc.h ^ 3) with hA
    have hA0 : 0 < A := by positivity
    have e1 : 12 * d.pc.kb ^ 3 * π * d.NSPECIES * T ^ 3 * 1.20206 / (d.pc.c ^ 2 * d.pc.h ^ 3) = A * 1.20206 := by
      rw [hA]; ring
    have e2 : 12 * d.pc.kb ^ 3 * π * d.NSPECIES * T ^ 3 * zetaR 3 / (d.pc.c ^ 2 * d.pc.h ^ 3) = A * zetaR 3 := by
      rw [hA]; ring
    rw [e1, e2, ← mul_sub, abs_mul, abs_of_pos hA0, mul_left_comm]
    refine mul_le_mul_of_nonneg_left ?_ hA0.le
    rw [abs_of_pos (by linarith [hz.2])]
    nlinarith [hz.1]

/-- **C18** for neutrinos -/
theorem C18_inverse (H : Built O inst o n) (type : RadiationType) :
    (∀ T : ℝ, 0 ≤ T →
      NeutrinoAPI.TemperatureFromEnergyDensity o (NeutrinoAPI.EnergyDensityFromTemperature o T type) type = T) ∧
    (∀ e : ℝ, 0 ≤ e →
      NeutrinoAPI.EnergyDensityFromTemperature o (NeutrinoAPI.TemperatureFromEnergyDensity o e type) type = e) ∧
    StrictMonoOn (fun T : ℝ => NeutrinoAPI.EnergyDensityFromTemperature o T type) (Ici 0) ∧
    StrictMonoOn (fun e : ℝ => NeutrinoAPI.TemperatureFromEnergyDensity o e type) (Ici 0) := by
  obtain ⟨d, h, -, hr⟩ := H.nf
  obtain ⟨p1, p2, p3, -⟩ := h.pos.pc
  have hs : (0 : ℝ) < d.NSPECIES := by exact_mod_cast h.pos.species
  refine ⟨?_, ?_, ?_, ?_⟩
  · intro T hT
    rw [h.E, fermiE_eq, h.TE _ _ (by positivity), fermiTE_eq]
    have : 15 * d.pc.c ^ 3 * d.pc.h ^ 3 *
        (7 * π ^ 5 * d.pc.kb ^ 4 * d.NSPECIES * T ^ 4 / (15 * d.pc.c ^ 2 * d.pc.h ^ 3) / d.pc.c) /
        (7 * π ^ 5 * d.pc.kb ^ 4 * d.NSPECIES) = T ^ 4 := by field_simp
    rw [this, ← rpow_natCast, ← rpow_mul hT]; norm_num
  · intro e he
    rw [h.TE _ _ he, h.E, fermiE_eq, fermiTE_eq]
    have hx : 0 ≤ 15 * d.pc.c ^ 3 * d.pc.h ^ 3 * e / (7 * π ^ 5 * d.pc.kb ^ 4 * d.NSPECIES) := by positivity
    have : ((15 * d.pc.c ^ 3 * d.pc.h ^ 3 * e / (7 * π ^ 5 * d.pc.kb ^ 4 * d.NSPECIES)) ^ (1 / 4 : ℝ)) ^ 4 =
        15 * d.pc.c ^ 3 * d.pc.h ^ 3 * e / (7 * π ^ 5 * d.pc.kb ^ 4 * d.NSPECIES) := by
      rw [← rpow_natCast, ← rpow_mul hx]; norm_num
    rw [this]; field_simp
  · intro a ha b _ hab
    have ha' : (0 : ℝ) ≤ a := ha
    simp only [h.E, fermiE_eq]
    have : a ^ 4 < b ^ 4 := pow_lt_pow_left₀ hab ha' (by norm_num)
    gcongr
  · intro a ha b hb hab
    have ha' : (0 : ℝ) ≤ a := ha
    simp only [h.TE _ _ ha', h.TE _ _ (show (0:ℝ) ≤ b from hb), fermiTE_eq]
    refine rpow_lt_rpow (by positivity) ?_ (by norm_num)
    gcongr

/-- **C19** for neutrinos -/
theorem C19_spectrum (H : Built O inst o n) (type : RadiationType) {ν : ℝ} (hν : 0 < ν) :
    (∀ T : ℝ, 0 < T → 0 < NeutrinoAPI.ThermalDistributionOfTNu o T type ν) ∧
    StrictMonoOn (fun T : ℝ => NeutrinoAPI.ThermalDistributionOfTNu o T type ν) (Ioi 0) := by
  obtain ⟨d, h, -⟩ := H.nf
  have hs : (0 : ℝ) < d.NSPECIES := by exact_mod_cast h.pos.species
  simp only [h.BTNu, fermi_eq]
  exact ⟨fun T _ => fermi_pos h.pos.pc hs hν, fermi_strictMono h.pos.pc hs hν⟩

/-- **C17** for neutrino opacities that are not wrapped in units -/
theorem C17_derivative_partial (H : Built O inst o 0) (type : RadiationType) {T ν : ℝ} (hT : 0 < T) :
    HasDerivAt (fun T : ℝ => NeutrinoAPI.ThermalDistributionOfTNu o T type ν)
      (NeutrinoAPI.DThermalDistributionOfTNuDT o T type ν) T := by
  generalize hm : (0 : ℕ) = m at H
  induction H with
  | gray o P | tophat o P | brt o P | spiner o P =>
    have := fermi_hasDerivAt P.pc (d := o.dist) rfl (ν := ν) hT
    simp only [← fermi_eq] at this
    exact this
  | nonCGS u hu _ ih => omega
  | vScaleFree _ ih | vBRTOpac _ ih | vGray _ ih | vTophat _ ih | vSpinerOpac _ ih
  | vNonCGSBRT _ ih | vNonCGSGray _ ih | vNonCGSTophat _ ih | vNonCGSSpiner _ ih => exact ih hm

/-- **C17 is false in code units** for neutrinos too: with a temperature unit of 2, at every temperature there is
a frequency where the returned value is not the derivative of the returned spectrum. -/
theorem C17_false (g : GrayOpacity ℝ) (P : PosDist g.dist) {T : ℝ} (hT : 0 < T) (type : RadiationType) :
    ∃ ν : ℝ, 0 < ν ∧
    ¬ HasDerivAt (fun T : ℝ => NeutrinoAPI.ThermalDistributionOfTNu (NonCGSUnits.construct (R := ℝ) g 1 1 1 2)
        T type ν)
      (NeutrinoAPI.DThermalDistributionOfTNuDT (NonCGSUnits.construct (R := ℝ) g 1 1 1 2) T type ν) T := by
  have hs : (0 : ℝ) < g.dist.NSPECIES := by exact_mod_cast P.species
  have P' := P.pc
  obtain ⟨p1, p2, p3, -⟩ := P'
  have hl : 0 < Real.log 2 := Real.log_pos (by norm_num)
  refine ⟨2 * Real.log 2 * (g.dist.pc.kb * T) / g.dist.pc.h, by positivity, ?_⟩
  set ν := 2 * Real.log 2 * (g.dist.pc.kb * T) / g.dist.pc.h with hν
  have hν0 : 0 < ν := by positivity
  have h2 : 0 < T * 2 := by positivity
  have hd : HasDerivAt (fun T : ℝ => NeutrinoAPI.ThermalDistributionOfTNu
      (NonCGSUnits.construct (R := ℝ) g 1 1 1 2) T type ν)
      (g.dist.DThermalDistributionOfTNuDT (T * 2) ν * 2) T := by
    have h := fermi_hasDerivAt P.pc (d := g.dist) rfl (ν := ν) h2
    have hc := h.comp T ((hasDerivAt_id T).mul_const 2)
    simp only [one_mul] at hc
    have e : (fun T : ℝ => NeutrinoAPI.ThermalDistributionOfTNu
        (NonCGSUnits.construct (R := ℝ) g 1 1 1 2) T type ν) =
        (fun T => fermiDiracLaw g.dist.NSPECIES g.dist.pc.h g.dist.pc.kb g.dist.pc.c T ν) ∘ fun T => id T * 2 := by
      funext t
      show g.dist.ThermalDistributionOfTNu (t * 2) (ν * (Arith.lit 1 / 1)) * (1 * 1 / 1) = _
      rw [fermi_eq]; simp [areal]
    rw [e]; exact hc
  intro hbad
  have heq := hbad.unique hd
  have e : (NeutrinoAPI.DThermalDistributionOfTNuDT (NonCGSUnits.construct (R := ℝ) g 1 1 1 2) T type ν : ℝ) =
      g.dist.DThermalDistributionOfTNuDT T ν * (1 * 1 / 1) * 2 := rfl
  rw [e] at heq
  have x1 : g.dist.pc.h * ν / (g.dist.pc.kb * T) = 2 * Real.log 2 := by rw [hν]; field_simp
  have x2 : g.dist.pc.h * ν / (g.dist.pc.kb * (T * 2)) = Real.log 2 := by rw [hν]; field_simp
  have e1 : exp (-(2 * Real.log 2)) = 1 / 4 := by
    rw [show -(2 * Real.log 2) = -Real.log 2 + -Real.log 2 by ring, exp_add, exp_neg, exp_log (by norm_num)]
    norm_num
  have e2 : exp (-Real.log 2) = 1 / 2 := by rw [exp_neg, exp_log (by norm_num)]; norm_num
  simp only [FermiDirac.DThermalDistributionOfTNuDT, areal, x1, x2, e1, e2] at heq
  push_cast at heq
  field_simp at heq
  norm_num at heq

end Neutrinos
end Opac
