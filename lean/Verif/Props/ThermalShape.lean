import Verif.Lemmas.ThermalShape
import Verif.Props.Thermal

/-! # C78: the shape of thermal spectra: scaling, Wien's displacement law, and the weights of the Rosseland mean -/

namespace Opac
open Spec Real Set MeasureTheory

namespace Photons
variable {O : Type} [inst : PhotonAPI ℝ O] {o : O} {n : ℕ}

/-- **C78, scaling**: raising temperature and frequency by the same factor `s` multiplies the spectrum by `s³`, the total by
`s⁴`, the number by `s³`; a factor `s⁴` in energy density is a factor `s` in temperature. For every opacity, in any units. -/
theorem C78_scaling (H : Built O inst o n) {s : ℝ} (hs : 0 < s) :
    (∀ T ν : ℝ, PhotonAPI.ThermalDistributionOfTNu o (s * T) (s * ν) = s ^ 3 * PhotonAPI.ThermalDistributionOfTNu o T ν) ∧
    (∀ T : ℝ, PhotonAPI.ThermalDistributionOfT o (s * T) = s ^ 4 * PhotonAPI.ThermalDistributionOfT o T) ∧
    (∀ T : ℝ, PhotonAPI.ThermalNumberDistributionOfT o (s * T) = s ^ 3 * PhotonAPI.ThermalNumberDistributionOfT o T) ∧
    (∀ T : ℝ, PhotonAPI.EnergyDensityFromTemperature o (s * T) = s ^ 4 * PhotonAPI.EnergyDensityFromTemperature o T) ∧
    (∀ T : ℝ, PhotonAPI.NumberDensityFromTemperature o (s * T) = s ^ 3 * PhotonAPI.NumberDensityFromTemperature o T) ∧
    (∀ e : ℝ, 0 ≤ e → PhotonAPI.TemperatureFromEnergyDensity o (s ^ 4 * e) = s * PhotonAPI.TemperatureFromEnergyDensity o e) := by
  have hinv := C18_inverse H
  obtain ⟨pc, h, -⟩ := H.nf
  have hE : ∀ T : ℝ, PhotonAPI.EnergyDensityFromTemperature o (s * T) = s ^ 4 * PhotonAPI.EnergyDensityFromTemperature o T := by
    intro T
    simp only [h.E, Planck.EnergyDensityFromTemperature, planckT_eq, areal]
    ring
  refine ⟨fun T ν => ?_, fun T => ?_, fun T => ?_, hE, fun T => ?_, fun e he => ?_⟩
  · simp only [h.BTNu, planck_eq]; exact planckLaw_scale hs.ne' T ν
  · simp only [h.BT, planckT_eq]; ring
  · simp only [h.NT, planckN_eq]; ring
  · simp only [h.N, Planck.NumberDensityFromTemperature, planckN_eq, areal]
    ring
  · have h0 : 0 ≤ PhotonAPI.TemperatureFromEnergyDensity o e := by
      rw [h.TE e he]
      simp only [Planck.TemperatureFromEnergyDensity, areal]
      obtain ⟨h1, h2, h3, -⟩ := h.pos
      positivity
    have := hinv.1 (s * PhotonAPI.TemperatureFromEnergyDensity o e) (by positivity)
    rwa [hE, hinv.2.1 e he] at this

/-- **C78, Wien's displacement law**: at every temperature the spectrum rises up to one frequency, proportional to the
temperature, and falls beyond it; in units of `kT/h` that frequency lies between 2.82 and 2.83. -/
theorem C78_peak (H : Built O inst o n) :
    ∃ w : ℝ, 0 < w ∧
      (n ≤ 1 → 2.82 < w * (PhotonAPI.GetRuntimePhysicalConstants (R := ℝ) o).pc.h / (PhotonAPI.GetRuntimePhysicalConstants (R := ℝ) o).pc.kb ∧
        w * (PhotonAPI.GetRuntimePhysicalConstants (R := ℝ) o).pc.h / (PhotonAPI.GetRuntimePhysicalConstants (R := ℝ) o).pc.kb < 2.83) ∧
      ∀ T : ℝ, 0 < T →
        StrictMonoOn (fun ν : ℝ => PhotonAPI.ThermalDistributionOfTNu o T ν) (Ioc 0 (w * T)) ∧
        StrictAntiOn (fun ν : ℝ => PhotonAPI.ThermalDistributionOfTNu o T ν) (Ici (w * T)) := by
  obtain ⟨pc, h, -, hr⟩ := H.nf
  obtain ⟨X, x1, x2, -, x3, x4⟩ := bose_peak
  have hX := cube_shape (e := -1) (X := X) le_rfl (by linarith)
    (fun x h0 hx => by have := x3 x h0 hx; linarith) (fun x hx => by have := x4 x hx; linarith)
  obtain ⟨p1, p2, p3, -⟩ := id h.pos
  refine ⟨X * pc.kb / pc.h, by have : 0 < X := (by linarith); positivity, fun hn => ?_, fun T hT => ?_⟩
  · have r := hr hn
    have e1 : (PhotonAPI.GetRuntimePhysicalConstants (R := ℝ) o).pc.h = pc.h := r.h
    have e2 : (PhotonAPI.GetRuntimePhysicalConstants (R := ℝ) o).pc.kb = pc.kb := r.kb
    rw [e1, e2, show X * pc.kb / pc.h * pc.h / pc.kb = X by field_simp]
    exact ⟨x1, x2⟩
  · simp only [h.BTNu, planck_eq]
    exact planck_shape h.pos hX hT

/-- **C78, weights of the Rosseland mean**: the temperature derivative of the spectrum is integrable over all frequencies, and
`4π` times its integral is the temperature derivative of the total (which is `4/T` times the total). Without unit wrapper,
whose derivative is wrong (C17_false). -/
theorem C78_weights (H : Built O inst o 0) {T : ℝ} (hT : 0 < T) :
    IntegrableOn (fun ν : ℝ => PhotonAPI.DThermalDistributionOfTNuDT o T ν) (Ioi 0) ∧
    HasDerivAt (fun T : ℝ => PhotonAPI.ThermalDistributionOfT o T)
      (4 * π * ∫ ν in Ioi (0 : ℝ), PhotonAPI.DThermalDistributionOfTNuDT o T ν) T ∧
    4 * π * ∫ ν in Ioi (0 : ℝ), PhotonAPI.DThermalDistributionOfTNuDT o T ν = 4 / T * PhotonAPI.ThermalDistributionOfT o T := by
  have hder := fun {T ν : ℝ} (hT : 0 < T) (hν : 0 < ν) => C17_derivative_partial H hT hν
  obtain ⟨pc, h, -⟩ := H.nf
  have hD : ∀ T ν : ℝ, 0 < T → 0 < ν → PhotonAPI.DThermalDistributionOfTNuDT o T ν = Planck.DThermalDistributionOfTNuDT pc T ν := by
    intro T ν hT hν
    have h1 := hder hT hν
    simp only [h.BTNu, planck_eq] at h1
    exact h1.unique (planck_hasDerivAt h.pos hT hν)
  have hm : ∀ T : ℝ, Measurable (Planck.DThermalDistributionOfTNuDT pc T) := by
    intro T
    unfold Planck.DThermalDistributionOfTNuDT
    simp only [areal]
    fun_prop
  obtain ⟨i, d⟩ := integral_deriv (B := fun T => planckLaw pc.h pc.kb pc.c T) (D := Planck.DThermalDistributionOfTNuDT pc)
    (fun T hT => (planck_integral h.pos hT).1) (fun ν hν => planck_strictMono h.pos hν)
    (fun T ν hT hν => planck_pos h.pos hT hν) (fun T ν hT hν => planck_hasDerivAt h.pos hT hν)
    (fun T _ => (hm T).aestronglyMeasurable) (fun T ν hT hν => planckDT_le h.pos hT hν) hT
  have hcongr : EqOn (fun ν : ℝ => PhotonAPI.DThermalDistributionOfTNuDT o T ν) (Planck.DThermalDistributionOfTNuDT pc T) (Ioi 0) :=
    fun ν hν => hD T ν hT hν
  have d' : HasDerivAt (fun T : ℝ => PhotonAPI.ThermalDistributionOfT o T)
      (4 * π * ∫ ν in Ioi (0 : ℝ), PhotonAPI.DThermalDistributionOfTNuDT o T ν) T := by
    rw [setIntegral_congr_fun measurableSet_Ioi hcongr]
    refine (d.const_mul (4 * π)).congr_of_eventuallyEq ?_
    filter_upwards [Ioi_mem_nhds hT] with x hx
    rw [h.BT, planckT_eq]
    exact (planck_integral h.pos hx).2.symm
  refine ⟨(integrableOn_congr_fun hcongr measurableSet_Ioi).2 i, d', d'.unique ?_⟩
  simp only [h.BT, planckT_eq]
  have := ((hasDerivAt_pow 4 T).const_mul (8 * π ^ 5 * pc.kb ^ 4 / (15 * pc.c ^ 2 * pc.h ^ 3)))
  refine (this.congr_of_eventuallyEq (.of_forall fun x => ?_)).congr_deriv ?_
  · ring
  · norm_num
    field_simp

/-- the hypotheses are met by a gray opacity in CGS units, and by the same in other units -/
example (κ : ℝ) {T : ℝ} (hT : 0 < T) :
    HasDerivAt (fun T : ℝ => PhotonAPI.ThermalDistributionOfT (GrayOpacity.mk PhysicalConstantsCGS κ) T)
      (4 * π * ∫ ν in Ioi (0 : ℝ), PhotonAPI.DThermalDistributionOfTNuDT (GrayOpacity.mk PhysicalConstantsCGS κ) T ν) T :=
  (C78_weights (built_gray_cgs κ) hT).2.1
example (κ : ℝ) : ∃ w : ℝ, 0 < w ∧ ∀ T : ℝ, 0 < T → StrictMonoOn (fun ν : ℝ => PhotonAPI.ThermalDistributionOfTNu
    (NonCGSUnits.construct (R := ℝ) (GrayOpacity.mk PhysicalConstantsCGS κ) 2 3 5 7) T ν) (Ioc 0 (w * T)) := by
  obtain ⟨w, h1, -, h2⟩ := C78_peak (Built.nonCGS ⟨2, 3, 5, 7⟩ units_pos_ex (built_gray_cgs κ))
  exact ⟨w, h1, fun T hT => (h2 T hT).1⟩

end Photons

namespace Neutrinos
variable {O : Type} [inst : NeutrinoAPI ℝ O] {o : O} {n : ℕ}

/-- **C78 for neutrinos, scaling**: raising temperature and frequency by the same factor `s` multiplies the spectrum by `s³`, the total by
`s⁴`, the number by `s³`; a factor `s⁴` in energy density is a factor `s` in temperature. For every opacity, in any units. -/
theorem C78_scaling (H : Built O inst o n) (type : RadiationType) {s : ℝ} (hs : 0 < s) :
    (∀ T ν : ℝ, NeutrinoAPI.ThermalDistributionOfTNu o (s * T) type (s * ν) = s ^ 3 * NeutrinoAPI.ThermalDistributionOfTNu o T type ν) ∧
    (∀ T : ℝ, NeutrinoAPI.ThermalDistributionOfT o (s * T) type = s ^ 4 * NeutrinoAPI.ThermalDistributionOfT o T type) ∧
    (∀ T : ℝ, NeutrinoAPI.ThermalNumberDistributionOfT o (s * T) type = s ^ 3 * NeutrinoAPI.ThermalNumberDistributionOfT o T type) ∧
    (∀ T : ℝ, NeutrinoAPI.EnergyDensityFromTemperature o (s * T) type = s ^ 4 * NeutrinoAPI.EnergyDensityFromTemperature o T type) ∧
    (∀ T : ℝ, NeutrinoAPI.NumberDensityFromTemperature o (s * T) type = s ^ 3 * NeutrinoAPI.NumberDensityFromTemperature o T type) ∧
    (∀ e : ℝ, 0 ≤ e → NeutrinoAPI.TemperatureFromEnergyDensity o (s ^ 4 * e) type = s * NeutrinoAPI.TemperatureFromEnergyDensity o e type) := by
  have hinv := C18_inverse H type
  obtain ⟨d, h, -⟩ := H.nf
  have g0 : (0 : ℝ) < d.NSPECIES := by exact_mod_cast h.pos.species
  have hE : ∀ T : ℝ, NeutrinoAPI.EnergyDensityFromTemperature o (s * T) type = s ^ 4 * NeutrinoAPI.EnergyDensityFromTemperature o T type := by
    intro T
    simp only [h.E, FermiDirac.EnergyDensityFromTemperature, fermiT_eq, areal]
    ring
  refine ⟨fun T ν => ?_, fun T => ?_, fun T => ?_, hE, fun T => ?_, fun e he => ?_⟩
  · simp only [h.BTNu, fermi_eq]; exact fermiLaw_scale hs.ne' T ν
  · simp only [h.BT, fermiT_eq]; ring
  · simp only [h.NT, fermiN_eq]; ring
  · simp only [h.N, FermiDirac.NumberDensityFromTemperature, fermiN_eq, areal]
    ring
  · have h0 : 0 ≤ NeutrinoAPI.TemperatureFromEnergyDensity o e type := by
      rw [h.TE e type he]
      simp only [FermiDirac.TemperatureFromEnergyDensity, areal]
      obtain ⟨h1, h2, h3, -⟩ := h.pos.pc
      positivity
    have := hinv.1 (s * NeutrinoAPI.TemperatureFromEnergyDensity o e type) (by positivity)
    rwa [hE, hinv.2.1 e he] at this

/-- **C78 for neutrinos, Wien's displacement law**: at every temperature the spectrum rises up to one frequency, proportional to the
temperature, and falls beyond it; in units of `kT/h` that frequency lies between 3.13 and 3.14. -/
theorem C78_peak (H : Built O inst o n) (type : RadiationType) :
    ∃ w : ℝ, 0 < w ∧
      (n ≤ 1 → 3.13 < w * (NeutrinoAPI.GetRuntimePhysicalConstants (R := ℝ) o).pc.h / (NeutrinoAPI.GetRuntimePhysicalConstants (R := ℝ) o).pc.kb ∧
        w * (NeutrinoAPI.GetRuntimePhysicalConstants (R := ℝ) o).pc.h / (NeutrinoAPI.GetRuntimePhysicalConstants (R := ℝ) o).pc.kb < 3.14) ∧
      ∀ T : ℝ, 0 < T →
        StrictMonoOn (fun ν : ℝ => NeutrinoAPI.ThermalDistributionOfTNu o T type ν) (Ioc 0 (w * T)) ∧
        StrictAntiOn (fun ν : ℝ => NeutrinoAPI.ThermalDistributionOfTNu o T type ν) (Ici (w * T)) := by
  obtain ⟨d, h, -, hr⟩ := H.nf
  have g0 : (0 : ℝ) < d.NSPECIES := by exact_mod_cast h.pos.species
  obtain ⟨X, x1, x2, -, x3, x4⟩ := fermi_peak
  have hX := cube_shape (e := 1) (X := X) (by norm_num) (by linarith)
    (fun x h0 hx => by have := x3 x hx; linarith) (fun x hx => by have := x4 x hx; linarith)
  obtain ⟨p1, p2, p3, -⟩ := id h.pos.pc
  refine ⟨X * d.pc.kb / d.pc.h, by have : 0 < X := (by linarith); positivity, fun hn => ?_, fun T hT => ?_⟩
  · have r := hr hn
    have e1 : (NeutrinoAPI.GetRuntimePhysicalConstants (R := ℝ) o).pc.h = d.pc.h := r.h
    have e2 : (NeutrinoAPI.GetRuntimePhysicalConstants (R := ℝ) o).pc.kb = d.pc.kb := r.kb
    rw [e1, e2, show X * d.pc.kb / d.pc.h * d.pc.h / d.pc.kb = X by field_simp]
    exact ⟨x1, x2⟩
  · simp only [h.BTNu, fermi_eq]
    exact fermi_shape h.pos.pc g0 hX hT

/-- **C78 for neutrinos, weights of the Rosseland mean**: the temperature derivative of the spectrum is integrable over all frequencies, and
`4π` times its integral is the temperature derivative of the total (which is `4/T` times the total). Without unit wrapper,
whose derivative is wrong (C17_false). -/
theorem C78_weights (H : Built O inst o 0) (type : RadiationType) {T : ℝ} (hT : 0 < T) :
    IntegrableOn (fun ν : ℝ => NeutrinoAPI.DThermalDistributionOfTNuDT o T type ν) (Ioi 0) ∧
    HasDerivAt (fun T : ℝ => NeutrinoAPI.ThermalDistributionOfT o T type)
      (4 * π * ∫ ν in Ioi (0 : ℝ), NeutrinoAPI.DThermalDistributionOfTNuDT o T type ν) T ∧
    4 * π * ∫ ν in Ioi (0 : ℝ), NeutrinoAPI.DThermalDistributionOfTNuDT o T type ν = 4 / T * NeutrinoAPI.ThermalDistributionOfT o T type := by
  have hder := fun {T ν : ℝ} (hT : 0 < T) (hν : 0 < ν) => C17_derivative_partial H type (ν := ν) hT
  obtain ⟨d, h, -⟩ := H.nf
  have g0 : (0 : ℝ) < d.NSPECIES := by exact_mod_cast h.pos.species
  have hD : ∀ T ν : ℝ, 0 < T → 0 < ν → NeutrinoAPI.DThermalDistributionOfTNuDT o T type ν = d.DThermalDistributionOfTNuDT T ν := by
    intro T ν hT hν
    have h1 := hder hT hν
    simp only [h.BTNu, fermi_eq] at h1
    exact h1.unique (fermi_hasDerivAt h.pos.pc rfl hT)
  have hm : ∀ T : ℝ, Measurable (d.DThermalDistributionOfTNuDT T) := by
    intro T
    unfold FermiDirac.DThermalDistributionOfTNuDT
    simp only [areal]
    fun_prop
  obtain ⟨i, dd⟩ := integral_deriv (B := fun T => fermiDiracLaw d.NSPECIES d.pc.h d.pc.kb d.pc.c T) (D := d.DThermalDistributionOfTNuDT)
    (fun T hT => (fermi_law_integral h.pos.pc d.NSPECIES hT).1) (fun ν hν => fermi_strictMono h.pos.pc g0 hν)
    (fun T ν hT hν => fermi_pos h.pos.pc g0 hν) (fun T ν hT hν => fermi_hasDerivAt h.pos.pc rfl hT)
    (fun T _ => (hm T).aestronglyMeasurable) (fun T ν hT hν => fermiDT_le h.pos.pc rfl h.pos.species hT hν) hT
  have hcongr : EqOn (fun ν : ℝ => NeutrinoAPI.DThermalDistributionOfTNuDT o T type ν) (d.DThermalDistributionOfTNuDT T) (Ioi 0) :=
    fun ν hν => hD T ν hT hν
  have d' : HasDerivAt (fun T : ℝ => NeutrinoAPI.ThermalDistributionOfT o T type)
      (4 * π * ∫ ν in Ioi (0 : ℝ), NeutrinoAPI.DThermalDistributionOfTNuDT o T type ν) T := by
    rw [setIntegral_congr_fun measurableSet_Ioi hcongr]
    refine (dd.const_mul (4 * π)).congr_of_eventuallyEq ?_
    filter_upwards [Ioi_mem_nhds hT] with x hx
    rw [h.BT, fermiT_eq]
    exact (fermi_law_integral h.pos.pc d.NSPECIES hx).2.symm
  refine ⟨(integrableOn_congr_fun hcongr measurableSet_Ioi).2 i, d', d'.unique ?_⟩
  simp only [h.BT, fermiT_eq]
  have := ((hasDerivAt_pow 4 T).const_mul (7 * π ^ 5 * d.pc.kb ^ 4 * d.NSPECIES / (15 * d.pc.c ^ 2 * d.pc.h ^ 3)))
  refine (this.congr_of_eventuallyEq (.of_forall fun x => ?_)).congr_deriv ?_
  · ring
  · norm_num
    field_simp

/-- the hypotheses are met by the shipped Burrows–Reddy–Thompson opacity -/
example {T : ℝ} (hT : 0 < T) (type : RadiationType) :
    HasDerivAt (fun T : ℝ => NeutrinoAPI.ThermalDistributionOfT
        (BRTOpacity.mk (FermiDirac.mk 3 PhysicalConstantsCGS) PhysicalConstantsCGS : BRTOpacity ℝ) T type)
      (4 * π * ∫ ν in Ioi (0 : ℝ), NeutrinoAPI.DThermalDistributionOfTNuDT
        (BRTOpacity.mk (FermiDirac.mk 3 PhysicalConstantsCGS) PhysicalConstantsCGS : BRTOpacity ℝ) T type ν) T :=
  (C78_weights built_brt_cgs type hT).2.1

end Neutrinos
end Opac
