import Verif.Spec.Scattering
import Verif.Props.Units
import Verif.Props.UnitsNeutrino
import Verif.Props.Thermal
import Mathlib.MeasureTheory.Integral.IntervalIntegral.FundThmCalculus
import Mathlib.Analysis.Real.Pi.Bounds

/-! # C37, C38: scattering -/

set_option linter.unusedSimpArgs false

namespace Opac
open Spec Real Outcome

namespace Photons
variable {O : Type} {inst : PhotonSAPI ℝ O} {o : O} {n : ℕ} {m : ℝ}

theorem sphere_const (σ : ℝ) : IntervalIntegrable (fun _ : ℝ => σ / (4 * π)) MeasureTheory.volume (-1) 1 ∧
    σ = 2 * π * ∫ _ in (-1 : ℝ)..1, σ / (4 * π) := by
  refine ⟨intervalIntegrable_const, ?_⟩
  have := pi_pos
  rw [intervalIntegral.integral_const, smul_eq_mul]
  field_simp; ring

/-- **C37 (sphere)** for every photon scattering opacity, in every unit system -/
theorem C37_sphere (H : ConstructedSIn ℝ (fun x => 0 < x) O inst o n) : SphereTotal inst o := by
  induction H with
  | gray o | thomson o | powerLaw o =>
    intro rho T ν
    simp only [PhotonSAPI.TotalCrossSection, PhotonSAPI.DifferentialCrossSection, areal]
    push_cast
    exact sphere_const _
  | @nonCGS O' inst' o' n' time mass length temp h1 h2 h3 h4 h ih =>
    intro rho T ν
    have hw := C27_scattering (inst := inst') (o := o') (u := ⟨time, mass, length, temp⟩)
    rw [hw.TotalCrossSection]
    simp only [hw.DifferentialCrossSection, code_area]
    obtain ⟨i1, i2⟩ := ih (Units.toCGS ⟨time, mass, length, temp⟩ .density rho)
      (Units.toCGS ⟨time, mass, length, temp⟩ .temperature T) (Units.toCGS ⟨time, mass, length, temp⟩ .frequency ν)
    refine ⟨i1.div_const _, ?_⟩
    rw [intervalIntegral.integral_div, i2, mul_div_assoc]
  | vScaleFreeS _ ih | vGrayS _ ih | vThomsonS _ ih | vPowerLawS _ ih | vNonCGSGrayS _ ih | vNonCGSThomsonS _ ih
  | vNonCGSPowerLawS _ ih => exact ih

/-- **C37 (coefficient)** for every photon scattering opacity, in every unit system -/
theorem C37_coefficient (H : ScattererMass O inst o m) : PerScatterer m inst o := by
  induction H with
  | gray σ apm => intro rho T ν; rfl
  | thomson pc apm =>
    intro rho T ν
    simp only [PhotonSAPI.TotalScatteringCoefficient, PhotonSAPI.TotalCrossSection, ThomsonSOpacity.construct, areal]
    push_cast
    rw [div_div, mul_comm apm 2]
  | powerLaw hp =>
    intro rho T ν
    have e : ∀ {k re te ne nr no rr ro tr tf apm : ℝ} {p : PowerLawSOpacity ℝ},
        PowerLawSOpacity.construct k re te ne nr no rr ro tr tf apm = .ok p → p.apm_ = apm := by
      intro k re te ne nr no rr ro tr tf apm p hp
      unfold PowerLawSOpacity.construct at hp
      split_ifs at hp
      injection hp with hp
      rw [← hp]
    simp only [PhotonSAPI.TotalScatteringCoefficient, PhotonSAPI.TotalCrossSection, e hp]
  | @nonCGS O' inst' o' m' u hu h ih =>
    intro rho T ν
    have hw := C27_scattering (inst := inst') (o := o') (u := u)
    rw [hw.TotalCrossSection, hw.TotalScatteringCoefficient, ih, code_area, code_inverseLength, cgs_density]
    have := hu.length; have := hu.mass
    rw [div_div_eq_mul_div]
    field_simp
  | vScaleFreeS _ ih | vGrayS _ ih | vThomsonS _ ih | vPowerLawS _ ih | vNonCGSGrayS _ ih | vNonCGSThomsonS _ ih
  | vNonCGSPowerLawS _ ih => exact ih

/-- **C37 (Thomson)**: the cross section is `(8π/3) r_e²` with the classical electron radius `r_e = α ħ / (m_e c)`; with
the shipped CGS constants that is `6.6524·10⁻²⁵ cm²` -/
theorem C37_thomson (pc : PC ℝ) (apm rho T ν : ℝ) :
    PhotonSAPI.TotalCrossSection (ThomsonSOpacity.construct pc apm) rho T ν =
      8 * π / 3 * (pc.alpha * pc.hbar / (pc.me * pc.c)) ^ 2 := by
  simp only [PhotonSAPI.TotalCrossSection, ThomsonSOpacity.construct, areal]
  push_cast
  rw [rpow2]

/-! ## C38 -/

/-- the parameters the documentation allows -/
def MeaningfulS (nr no rr ro tr tf : ℝ) : Prop := 0 < rr ∧ 0 < tr ∧ 0 < nr ∧ 0 ≤ ro ∧ 0 ≤ tf ∧ 0 ≤ no

/-- **C38 except for the reference density**: construction succeeds exactly if the reference temperature and frequency
are positive and all offsets nonnegative.  Missing: the check of the reference density (`C38_false`). -/
theorem C38_validation_partial (k re te ne nr no rr ro tr tf apm : ℝ) :
    ((∃ p, PowerLawSOpacity.construct k re te ne nr no rr ro tr tf apm = .ok p) ↔
      0 < tr ∧ 0 < nr ∧ 0 ≤ ro ∧ 0 ≤ tf ∧ 0 ≤ no) ∧
    ((∃ p, PowerLawSOpacity.construct k re te ne nr no rr ro tr tf apm = .ok p) ∨
      ∃ msg, PowerLawSOpacity.construct k re te ne nr no rr ro tr tf apm = .abort msg) := by
  constructor
  · unfold PowerLawSOpacity.construct
    simp only [Arith.gt, Bool.not_eq_true', ← Bool.not_eq_true, areal, Rat.cast_zero]
    split_ifs <;> simp_all
  · unfold PowerLawSOpacity.construct
    split_ifs <;> first | exact .inl ⟨_, rfl⟩ | exact .inr ⟨_, rfl⟩

/-- meaningful parameters are accepted and give the power law -/
theorem C38_accepts {k re te ne nr no rr ro tr tf : ℝ} (apm : ℝ) (h : MeaningfulS nr no rr ro tr tf) :
    ∃ p, PowerLawSOpacity.construct k re te ne nr no rr ro tr tf apm = .ok p ∧
      ∀ rho T ν, PhotonSAPI.TotalCrossSection p rho T ν =
        k * ((rho + ro) / rr) ^ re * ((T + tf) / tr) ^ te * ((ν + no) / nr) ^ ne := by
  obtain ⟨p, hp⟩ := (C38_validation_partial k re te ne nr no rr ro tr tf apm).1.2 h.2
  refine ⟨p, hp, fun rho T ν => ?_⟩
  unfold PowerLawSOpacity.construct at hp
  split_ifs at hp
  injection hp with hp
  rw [← hp]
  simp only [PhotonSAPI.TotalCrossSection, PowerLawSOpacity.OpacityScale_, PowerLawSOpacity.OpacityPrefactor_, areal]

/-- **C38 is false**: every reference density is accepted, among them negative ones and zero -/
theorem C38_false (k re te ne rr apm : ℝ) :
    ∃ p, PowerLawSOpacity.construct k re te ne 1 0 rr 0 1 0 apm = .ok p :=
  (C38_validation_partial k re te ne 1 0 rr 0 1 0 apm).1.2 (by norm_num)

/-- with IEEE special values: a NaN reference temperature or frequency is rejected -/
theorem C38_nan_reference (k re te ne nr no rr ro tr tf apm : XR) (h : tr = .nan ∨ nr = .nan) :
    ∃ msg, PowerLawSOpacity.construct k re te ne nr no rr ro tr tf apm = .abort msg := by
  have hn : ∀ x : XR, x = .nan → Arith.gt x (Arith.lit 0) = false := by rintro _ rfl; rfl
  unfold PowerLawSOpacity.construct
  rcases h with h | h
  · rw [hn _ h]; split_ifs <;> first | exact ⟨_, rfl⟩ | simp_all
  · rw [hn _ h]; exact ⟨_, rfl⟩

/-- ... but a NaN reference density and NaN offsets are accepted, and poison every result -/
theorem C38_nan_false (k re te ne apm : XR) :
    ∃ p, PowerLawSOpacity.construct k re te ne (.fin 1) .nan .nan .nan (.fin 1) .nan apm = .ok p := by
  have h1 : Arith.gt (XR.fin 1) (Arith.lit 0 : XR) = true := by
    show XR.lt (XR.fin ((0 : ℚ) : ℝ)) (XR.fin 1) = true
    simp [XR.lt]
  have h2 : Arith.lt XR.nan (Arith.lit 0 : XR) = false := rfl
  unfold PowerLawSOpacity.construct
  simp only [h1, h2]
  exact ⟨_, rfl⟩

example : MeaningfulS 4 5 6 7 8 9 := by unfold MeaningfulS; norm_num

/-- the hypotheses are met: power-law scattering behind a unit wrapper in the variant -/
example : ∃ p : PowerLawSOpacity ℝ, ScattererMass (SOpacity ℝ) inferInstance
    (.NonCGSPowerLawS (NonCGSUnitsS.construct p 2 3 5 7)) (11 / 3) := by
  obtain ⟨p, hp, -⟩ := C38_accepts (k := 1) (re := 2) (te := 3) (ne := 4) 11
    (show MeaningfulS 4 5 6 7 8 9 by unfold MeaningfulS; norm_num)
  exact ⟨p, .vNonCGSPowerLawS (.nonCGS ⟨2, 3, 5, 7⟩ units_pos_ex (.powerLaw hp))⟩
end Photons

namespace Neutrinos
variable {O : Type} {inst : NeutrinoSAPI ℝ O} {o : O} {n : ℕ} {m : ℝ}

/-- **C37 (sphere)** for every neutrino scattering opacity, in every unit system -/
theorem C37_sphere (H : ConstructedSIn ℝ (fun x => 0 < x) O inst o n) : SphereTotal inst o := by
  induction H with
  | gray o =>
    intro rho T Ye s ν
    simp only [NeutrinoSAPI.TotalCrossSection, NeutrinoSAPI.DifferentialCrossSection, areal]
    push_cast
    exact Photons.sphere_const _
  | @nonCGS O' inst' o' n' time mass length temp h1 h2 h3 h4 h ih =>
    intro rho T Ye s ν
    have hw := C27_scattering (inst := inst') (o := o') (u := ⟨time, mass, length, temp⟩)
    rw [hw.TotalCrossSection]
    simp only [hw.DifferentialCrossSection, code_area]
    obtain ⟨i1, i2⟩ := ih (Units.toCGS ⟨time, mass, length, temp⟩ .density rho)
      (Units.toCGS ⟨time, mass, length, temp⟩ .temperature T) Ye s (Units.toCGS ⟨time, mass, length, temp⟩ .frequency ν)
    refine ⟨i1.div_const _, ?_⟩
    rw [intervalIntegral.integral_div, i2, mul_div_assoc]
  | vScaleFreeS _ ih | vGrayS _ ih | vNonCGSGrayS _ ih => exact ih

/-- **C37 (coefficient)** for every neutrino scattering opacity, in every unit system -/
theorem C37_coefficient (H : ScattererMass O inst o m) : PerScatterer m inst o := by
  induction H with
  | gray σ apm => intro rho T Ye s ν; rfl
  | @nonCGS O' inst' o' m' u hu h ih =>
    intro rho T Ye s ν
    have hw := C27_scattering (inst := inst') (o := o') (u := u)
    rw [hw.TotalCrossSection, hw.TotalScatteringCoefficient, ih, code_area, code_inverseLength, cgs_density]
    have := hu.length; have := hu.mass
    rw [div_div_eq_mul_div]
    field_simp
  | vScaleFreeS _ ih | vGrayS _ ih | vNonCGSGrayS _ ih => exact ih

example : ScattererMass (SOpacity ℝ) inferInstance
    (.NonCGSGrayS (NonCGSUnitsS.construct (.mk 13 11) 2 3 5 7)) (11 / 3) :=
  .vNonCGSGrayS (.nonCGS ⟨2, 3, 5, 7⟩ Photons.units_pos_ex (.gray 13 11))
end Neutrinos
end Opac
