import Verif.Spec.Emission
import Verif.Lemmas.Behind

/-! The laws of emission do not depend on the units in which they are stated. -/

namespace Opac
open Spec Real Set MeasureTheory Outcome

section
variable {u : Spec.Units} (hu : u.Pos)
include hu

theorem unit_jnu : u.unit .emissivityPerNu = u.unit .inverseLength * u.unit .intensityPerNu := by
  have := hu.time; have := hu.length
  rw [unit_emissivityPerNu, unit_inverseLength, unit_intensityPerNu]; field_simp

theorem unit_J : u.unit .emissivity = u.unit .emissivityPerNu * u.unit .frequency := by
  have := hu.time; have := hu.length
  rw [unit_emissivityPerNu, unit_emissivity, unit_frequency]; field_simp

theorem unit_action : u.unit .action = u.mass * u.length ^ 2 / u.time := by
  rw [show u.unit .action = u.unit ⟨((-1 : ℤ) : ℝ), ((1 : ℤ) : ℝ), ((2 : ℤ) : ℝ), ((0 : ℤ) : ℝ)⟩ by simp [Dim.action],
    unit_zpow]
  have := hu.time
  simp [zpow_neg]; field_simp

theorem unit_N : u.unit .numberEmissivity * u.unit .action = u.unit .emissivityPerNu := by
  have := hu.time; have := hu.length
  rw [unit_emissivityPerNu, unit_numberEmissivity, unit_action hu]; field_simp

/-- change of variable to code units -/
theorem integral_code (f : ℝ → ℝ) (d : Dim) (hf : IntegrableOn f (Ioi 0)) :
    IntegrableOn (fun ν => u.toCode d (f (u.toCGS .frequency ν))) (Ioi 0) ∧
    ∫ ν in Ioi (0 : ℝ), u.toCode d (f (u.toCGS .frequency ν)) =
      (∫ ν in Ioi (0 : ℝ), f ν) / (u.unit d * u.unit .frequency) := by
  have hF := unit_pos hu .frequency
  have hd := unit_pos hu d
  simp only [Units.toCode, Units.toCGS]
  constructor
  · have := (integrableOn_Ioi_comp_mul_right_iff f 0 hF).2 (by simpa using hf)
    exact this.div_const _
  · rw [integral_div, integral_comp_mul_right_Ioi f 0 hF, zero_mul, smul_eq_mul]
    field_simp

/-- change of variable to code units in a number integral -/
theorem integral_code_number (f : ℝ → ℝ) (h : ℝ) (hf : IntegrableOn (fun ν => f ν / (h * ν)) (Ioi 0)) :
    IntegrableOn (fun ν => u.toCode .emissivityPerNu (f (u.toCGS .frequency ν)) / (u.toCode .action h * ν)) (Ioi 0) ∧
    ∫ ν in Ioi (0 : ℝ), u.toCode .emissivityPerNu (f (u.toCGS .frequency ν)) / (u.toCode .action h * ν) =
      u.toCode .numberEmissivity (∫ ν in Ioi (0 : ℝ), f ν / (h * ν)) := by
  have hF := unit_pos hu .frequency
  have hA := unit_pos hu .action
  have hN := unit_pos hu .numberEmissivity
  have e : ∀ ν, u.toCode .emissivityPerNu (f (u.toCGS .frequency ν)) / (u.toCode .action h * ν) =
      (u.unit .frequency / u.unit .numberEmissivity) *
        ((fun ν => f ν / (h * ν)) (ν * u.unit .frequency)) := by
    intro ν
    simp only [Units.toCode, Units.toCGS, ← unit_N hu]
    rcases eq_or_ne ν 0 with rfl | hν
    · simp
    rcases eq_or_ne h 0 with rfl | hh
    · simp
    field_simp
  simp only [e]
  constructor
  · have := (integrableOn_Ioi_comp_mul_right_iff (fun ν => f ν / (h * ν)) 0 hF).2 (by simpa using hf)
    exact this.const_mul _
  · rw [integral_const_mul, integral_comp_mul_right_Ioi (fun ν => f ν / (h * ν)) 0 hF, zero_mul, smul_eq_mul,
      Units.toCode]
    field_simp
end

namespace Photons
variable {O₀ O : Type} {i₀ : PhotonAPI ℝ O₀} {o₀ : O₀} {i : PhotonAPI ℝ O} {o : O} {u : Spec.Units}

theorem InUnitsMain.alpha (h : InUnitsMain u i₀ o₀ i o) (rho T ν : ℝ) : i.AbsorptionCoefficient o rho T ν =
    u.toCode .inverseLength (i₀.AbsorptionCoefficient o₀ (u.toCGS .density rho) (u.toCGS .temperature T)
      (u.toCGS .frequency ν)) := h.scalar .AbsorptionCoefficient rho T ν
theorem InUnitsMain.alphaA (h : InUnitsMain u i₀ o₀ i o) (rho T ν : ℝ) : i.AngleAveragedAbsorptionCoefficient o rho T ν =
    u.toCode .inverseLength (i₀.AngleAveragedAbsorptionCoefficient o₀ (u.toCGS .density rho) (u.toCGS .temperature T)
      (u.toCGS .frequency ν)) := h.scalar .AngleAveragedAbsorptionCoefficient rho T ν
theorem InUnitsMain.j (h : InUnitsMain u i₀ o₀ i o) (rho T ν : ℝ) : i.EmissivityPerNuOmega o rho T ν =
    u.toCode .emissivityPerNu (i₀.EmissivityPerNuOmega o₀ (u.toCGS .density rho) (u.toCGS .temperature T)
      (u.toCGS .frequency ν)) := h.scalar .EmissivityPerNuOmega rho T ν
theorem InUnitsMain.J (h : InUnitsMain u i₀ o₀ i o) (rho T ν : ℝ) : i.EmissivityPerNu o rho T ν =
    u.toCode .emissivityPerNu (i₀.EmissivityPerNu o₀ (u.toCGS .density rho) (u.toCGS .temperature T)
      (u.toCGS .frequency ν)) := h.scalar .EmissivityPerNu rho T ν

variable (hu : u.Pos) (h : InUnitsMain u i₀ o₀ i o)
include hu h

theorem Kirchhoff.code (k : Kirchhoff i₀ o₀) : Kirchhoff i o := by
  intro rho T ν
  rw [h.alpha, h.j, h.ThermalDistributionOfTNu, k]
  simp only [Units.toCode, unit_jnu hu]
  rw [mul_div_mul_comm]

theorem KirchhoffFloor.code {δ : ℝ} (k : KirchhoffFloor δ i₀ o₀) :
    KirchhoffFloor (u.toCode .intensityPerNu δ) i o := by
  intro rho T ν hT hν
  rw [h.alpha, h.j, h.ThermalDistributionOfTNu, k _ _ _ (toCGS_pos hu _ hT) (toCGS_pos hu _ hν)]
  simp only [Units.toCode, unit_jnu hu]
  rw [mul_div_mul_comm, ← add_div]

theorem NoSpuriousAbsorption.code (k : NoSpuriousAbsorption i₀ o₀) : NoSpuriousAbsorption i o := by
  intro rho T ν hT hν hj
  rw [h.j, Units.toCode, div_eq_zero_iff, or_iff_left (unit_pos hu _).ne'] at hj
  rw [h.alpha, k _ _ _ (toCGS_pos hu _ hT) (toCGS_pos hu _ hν) hj, Units.toCode, zero_div]

theorem TotalIsIntegral.code (k : TotalIsIntegral i₀ o₀) : TotalIsIntegral i o := by
  intro rho T J hT hJ
  rw [h.Emissivity] at hJ
  obtain ⟨J₀, h1, h2⟩ := map'_eq_ok.1 hJ
  obtain ⟨k1, k2⟩ := k _ _ _ (toCGS_pos hu _ hT) h1
  obtain ⟨g1, g2⟩ := integral_code hu _ .emissivityPerNu k1
  simp only [← h.J] at g1 g2
  refine ⟨g1, ?_⟩
  rw [g2, ← k2, ← h2, Units.toCode, unit_J hu]

theorem NumberIsIntegral.code {ε hp : ℝ} (k : NumberIsIntegral ε hp i₀ o₀) :
    NumberIsIntegral ε (u.toCode .action hp) i o := by
  intro rho T N hT hN
  rw [h.NumberEmissivity] at hN
  obtain ⟨N₀, h1, h2⟩ := map'_eq_ok.1 hN
  obtain ⟨k1, k2⟩ := k _ _ _ (toCGS_pos hu _ hT) h1
  obtain ⟨g1, g2⟩ := integral_code_number hu _ hp k1
  simp only [← h.J] at g1 g2
  refine ⟨g1, ?_⟩
  unfold numberSpectrum at k2 ⊢
  have hN := unit_pos hu .numberEmissivity
  rw [g2, ← h2]
  simp only [Units.toCode]
  rw [← sub_div, abs_div, abs_div, abs_of_pos hN, ← mul_div_assoc]
  gcongr

theorem NumberTimesDensityIsIntegral.code {ε hp ρ₁ : ℝ} (k : NumberTimesDensityIsIntegral ε hp ρ₁ i₀ o₀) :
    NumberTimesDensityIsIntegral ε (u.toCode .action hp) (u.toCode .density ρ₁) i o := by
  intro rho T N hT hN
  rw [h.NumberEmissivity] at hN
  obtain ⟨N₀, h1, h2⟩ := map'_eq_ok.1 hN
  obtain ⟨k1, k2⟩ := k _ _ _ (toCGS_pos hu _ hT) h1
  obtain ⟨g1, g2⟩ := integral_code_number hu _ hp k1
  simp only [← h.J] at g1 g2
  refine ⟨g1, ?_⟩
  unfold numberSpectrum at k2 ⊢
  have hN := unit_pos hu .numberEmissivity
  rw [g2, ← h2]
  simp only [Units.toCode]
  have e : N₀ / u.unit .numberEmissivity * (rho / (ρ₁ / u.unit .density)) =
      N₀ * (u.toCGS .density rho / ρ₁) / u.unit .numberEmissivity := by
    rw [Units.toCGS, div_div_eq_mul_div]; ring
  rw [e, ← sub_div, abs_div, abs_div, abs_of_pos hN, ← mul_div_assoc ε]
  exact div_le_div_of_nonneg_right k2 hN.le

end Photons

namespace Neutrinos
variable {O₀ O : Type} {i₀ : NeutrinoAPI ℝ O₀} {o₀ : O₀} {i : NeutrinoAPI ℝ O} {o : O} {u : Spec.Units}

theorem InUnitsMain.alpha (h : InUnitsMain u i₀ o₀ i o) (rho T Ye : ℝ) (s : RadiationType) (ν : ℝ) :
    i.AbsorptionCoefficient o rho T Ye s ν = (i₀.AbsorptionCoefficient o₀ (u.toCGS .density rho)
      (u.toCGS .temperature T) Ye s (u.toCGS .frequency ν)).map' (u.toCode .inverseLength) :=
  h.scalar .AbsorptionCoefficient rho T Ye s ν
theorem InUnitsMain.alphaA (h : InUnitsMain u i₀ o₀ i o) (rho T Ye : ℝ) (s : RadiationType) (ν : ℝ) :
    i.AngleAveragedAbsorptionCoefficient o rho T Ye s ν = (i₀.AngleAveragedAbsorptionCoefficient o₀
      (u.toCGS .density rho) (u.toCGS .temperature T) Ye s (u.toCGS .frequency ν)).map' (u.toCode .inverseLength) :=
  h.scalar .AngleAveragedAbsorptionCoefficient rho T Ye s ν
theorem InUnitsMain.j (h : InUnitsMain u i₀ o₀ i o) (rho T Ye : ℝ) (s : RadiationType) (ν : ℝ) :
    i.EmissivityPerNuOmega o rho T Ye s ν = (i₀.EmissivityPerNuOmega o₀ (u.toCGS .density rho)
      (u.toCGS .temperature T) Ye s (u.toCGS .frequency ν)).map' (u.toCode .emissivityPerNu) :=
  h.scalar .EmissivityPerNuOmega rho T Ye s ν
theorem InUnitsMain.J (h : InUnitsMain u i₀ o₀ i o) (rho T Ye : ℝ) (s : RadiationType) (ν : ℝ) :
    i.EmissivityPerNu o rho T Ye s ν = (i₀.EmissivityPerNu o₀ (u.toCGS .density rho)
      (u.toCGS .temperature T) Ye s (u.toCGS .frequency ν)).map' (u.toCode .emissivityPerNu) :=
  h.scalar .EmissivityPerNu rho T Ye s ν

variable (hu : u.Pos) (h : InUnitsMain u i₀ o₀ i o)
include hu h

theorem Kirchhoff.code (k : Kirchhoff i₀ o₀) : Kirchhoff i o := by
  intro rho T Ye s ν j α hj hα
  rw [h.j] at hj
  rw [h.alpha] at hα
  obtain ⟨j₀, j1, j2⟩ := map'_eq_ok.1 hj
  obtain ⟨α₀, a1, a2⟩ := map'_eq_ok.1 hα
  rw [h.ThermalDistributionOfTNu, ← j2, ← a2, k _ _ _ _ _ _ _ j1 a1]
  simp only [Units.toCode, unit_jnu hu]
  rw [mul_div_mul_comm]

theorem NoSpuriousAbsorption.code (k : NoSpuriousAbsorption i₀ o₀) : NoSpuriousAbsorption i o := by
  intro rho T Ye s ν hT hν hj
  rw [h.j] at hj
  obtain ⟨j₀, j1, j2⟩ := map'_eq_ok.1 hj
  rw [Units.toCode, div_eq_zero_iff, or_iff_left (unit_pos hu _).ne'] at j2
  rw [j2] at j1
  rw [h.alpha, k _ _ _ _ _ (toCGS_pos hu _ hT) (toCGS_pos hu _ hν) j1]
  show Outcome.ok (0 / _) = _
  rw [zero_div]

/-- the spectral emissivity in CGS units -/
theorem spectrum_cgs {rho T Ye : ℝ} {s : RadiationType} {Jν : ℝ → ℝ}
    (hJ : ∀ ν, 0 < ν → i.EmissivityPerNu o rho T Ye s ν = .ok (Jν ν)) :
    ∃ J₀ : ℝ → ℝ, (∀ ν, 0 < ν → i₀.EmissivityPerNu o₀ (u.toCGS .density rho) (u.toCGS .temperature T) Ye s ν =
      .ok (J₀ ν)) ∧ ∀ ν, Jν ν = u.toCode .emissivityPerNu (J₀ (u.toCGS .frequency ν)) := by
  have hF := unit_pos hu .frequency
  have hE := unit_pos hu .emissivityPerNu
  refine ⟨fun ν => u.toCGS .emissivityPerNu (Jν (u.toCode .frequency ν)), fun ν hν => ?_, fun ν => ?_⟩
  · have := hJ _ (toCode_pos hu .frequency hν)
    rw [h.J] at this
    obtain ⟨x, h1, h2⟩ := map'_eq_ok.1 this
    rw [show u.toCGS .frequency (u.toCode .frequency ν) = ν by
      simp only [Units.toCGS, Units.toCode]; field_simp] at h1
    rw [h1]
    simp only [← h2]
    congr 1
    simp only [Units.toCGS, Units.toCode]; field_simp
  · simp only [Units.toCGS, Units.toCode]; field_simp

theorem TotalIsIntegral.code (k : TotalIsIntegral i₀ o₀) : TotalIsIntegral i o := by
  intro rho T Ye s J Jν hT hJ hJν
  obtain ⟨f, f1, f2⟩ := spectrum_cgs hu h hJν
  rw [h.Emissivity] at hJ
  obtain ⟨J₀, h1, h2⟩ := map'_eq_ok.1 hJ
  obtain ⟨k1, k2⟩ := k _ _ _ _ _ f (toCGS_pos hu _ hT) h1 f1
  obtain ⟨g1, g2⟩ := integral_code hu _ .emissivityPerNu k1
  simp only [← f2] at g1 g2
  refine ⟨g1, ?_⟩
  rw [g2, ← k2, ← h2, Units.toCode, unit_J hu]

theorem TotalTimesIsIntegral.code {S : RadiationType → Prop} {q ε : ℝ} (k : TotalTimesIsIntegral S q ε i₀ o₀) :
    TotalTimesIsIntegral S q ε i o := by
  intro rho T Ye s J Jν hS hT hJ hJν
  obtain ⟨f, f1, f2⟩ := spectrum_cgs hu h hJν
  rw [h.Emissivity] at hJ
  obtain ⟨J₀, h1, h2⟩ := map'_eq_ok.1 hJ
  obtain ⟨k1, k2⟩ := k _ _ _ _ _ f hS (toCGS_pos hu _ hT) h1 f1
  obtain ⟨g1, g2⟩ := integral_code hu _ .emissivityPerNu k1
  simp only [← f2] at g1 g2
  refine ⟨g1, ?_⟩
  have hU := unit_pos hu .emissivity
  rw [g2, ← h2, Units.toCode, ← unit_J hu, ← mul_div_assoc, ← sub_div, abs_div, abs_div, abs_of_pos hU,
    ← mul_div_assoc ε]
  exact div_le_div_of_nonneg_right k2 hU.le

theorem NumberTimesIsIntegral.code {S : RadiationType → Prop} {q ε hp : ℝ}
    (k : NumberTimesIsIntegral S q ε hp i₀ o₀) : NumberTimesIsIntegral S q ε (u.toCode .action hp) i o := by
  intro rho T Ye s N Jν hS hr hT hN hJν
  obtain ⟨f, f1, f2⟩ := spectrum_cgs hu h hJν
  rw [h.NumberEmissivity] at hN
  obtain ⟨N₀, h1, h2⟩ := map'_eq_ok.1 hN
  obtain ⟨k1, k2⟩ := k _ _ _ _ _ f hS (toCGS_pos hu _ hr) (toCGS_pos hu _ hT) h1 f1
  obtain ⟨g1, g2⟩ := integral_code_number hu _ hp k1
  simp only [← f2] at g1 g2
  refine ⟨g1, ?_⟩
  have hU := unit_pos hu .numberEmissivity
  rw [g2, ← h2]
  unfold Units.toCode
  rw [← mul_div_assoc, ← sub_div, abs_div, abs_div, abs_of_pos hU, ← mul_div_assoc ε]
  exact div_le_div_of_nonneg_right k2 hU.le

theorem NumberIsIntegral.code {ε hp : ℝ} (k : NumberIsIntegral ε hp i₀ o₀) :
    NumberIsIntegral ε (u.toCode .action hp) i o := by
  intro rho T Ye s N Jν hr hT hN hJν
  have := NumberTimesIsIntegral.code (S := fun _ => True) (q := 1) hu h
    (fun rho T Ye s N Jν _ hr hT hN hJν => by simpa using k rho T Ye s N Jν hr hT hN hJν) rho T Ye s N Jν trivial hr hT
    hN hJν
  simpa using this

theorem NumberTimesDensityIsIntegral.code {ε hp ρ₁ : ℝ} (k : NumberTimesDensityIsIntegral ε hp ρ₁ i₀ o₀) :
    NumberTimesDensityIsIntegral ε (u.toCode .action hp) (u.toCode .density ρ₁) i o := by
  intro rho T Ye s N Jν hT hN hJν
  obtain ⟨f, f1, f2⟩ := spectrum_cgs hu h hJν
  rw [h.NumberEmissivity] at hN
  obtain ⟨N₀, h1, h2⟩ := map'_eq_ok.1 hN
  obtain ⟨k1, k2⟩ := k _ _ _ _ _ f (toCGS_pos hu _ hT) h1 f1
  obtain ⟨g1, g2⟩ := integral_code_number hu _ hp k1
  simp only [← f2] at g1 g2
  refine ⟨g1, ?_⟩
  have hU := unit_pos hu .numberEmissivity
  rw [g2, ← h2]
  simp only [Units.toCode]
  have e : N₀ / u.unit .numberEmissivity * (rho / (ρ₁ / u.unit .density)) =
      N₀ * (u.toCGS .density rho / ρ₁) / u.unit .numberEmissivity := by
    rw [Units.toCGS, div_div_eq_mul_div]; ring
  rw [e, ← sub_div, abs_div, abs_div, abs_of_pos hU, ← mul_div_assoc ε]
  exact div_le_div_of_nonneg_right k2 hU.le

end Neutrinos
end Opac
