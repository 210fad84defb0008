import Verif.Lemmas.Units
import Verif.Props.Thermal

/-! # C25–C28: opacities in code units -/

set_option linter.unusedSimpArgs false

namespace Opac
open Spec Real Outcome

/-! ## Photons -/

namespace Photons

/-- **C25** for every photon opacity and every positive unit system, every function but the temperature derivative of
the spectrum (and the reported constants, C29).  What is missing from C25 is `DThermalDistributionOfTNuDT`, for which
it is false (`C25_false`). -/
theorem C25_units_partial {O : Type} {inst : PhotonAPI ℝ O} {o : O} {n : ℕ}
    (H : ConstructedIn ℝ (fun x => 0 < x) O inst o n) {u : Units} (hu : u.Pos) :
    InUnitsMain u inst o inferInstance (NonCGSUnits.construct o u.time u.mass u.length u.temp) := by
  have hs : ∀ fn rho T ν, scalarFn inferInstance (NonCGSUnits.construct o u.time u.mass u.length u.temp) fn rho T ν =
      u.toCode fn.dim (scalarFn inst o fn (u.toCGS .density rho) (u.toCGS .temperature T) (u.toCGS .frequency ν)) := by
    intro fn rho T ν
    rw [cgs_density, cgs_temperature, cgs_frequency]
    cases fn
    · rw [VFn.dim, code_inverseLength, mul_comm rho, mul_comm T]; rfl
    · rw [VFn.dim, code_inverseLength]; rfl
    · rw [VFn.dim, code_emissivityPerNu hu]; rfl
    · rw [VFn.dim, code_emissivityPerNu hu]; rfl
  refine ⟨rfl, hs, fun fn rho T => ?_, fun rho T => ?_, fun rho T => ?_, fun T ν => ?_, fun T => ?_, fun T => ?_,
    fun T => ?_, fun er => ?_, fun T => ?_⟩
  · have := (ConstructedIn.nonCGS u.time u.mass u.length u.temp hu.time hu.mass hu.length hu.temp H).vectorOK_real
    have := VectorWith.elementwise (this fn rho T)
    rw [show scalarFn inferInstance (NonCGSUnits.construct o u.time u.mass u.length u.temp) fn rho T = _ from
      funext fun ν => hs fn rho T ν] at this
    exact this
  · rw [cgs_density, cgs_temperature]; exact map'_congr _ fun x => (code_emissivity hu x).symm
  · rw [cgs_density, cgs_temperature]; exact map'_congr _ fun x => (code_numberEmissivity hu x).symm
  · rw [cgs_temperature, cgs_frequency, code_intensityPerNu hu]; rfl
  · rw [cgs_temperature, code_intensity hu]; rfl
  · rw [cgs_temperature, code_numberFlux hu]; rfl
  · rw [cgs_temperature, code_energyDensity hu]; rfl
  · rw [cgs_energyDensity, code_temperature]; rfl
  · rw [cgs_temperature, code_numberDensity hu]; rfl

/-- the hypotheses are met by a power law in the variant, wrapped twice before -/
example (o : PowerLawOpacity ℝ) : ConstructedIn ℝ (fun x => 0 < x) (Opacity ℝ) inferInstance
    (.NonCGSPowerLaw (NonCGSUnits.construct o 2 3 5 7)) 1 :=
  .vNonCGSPowerLaw (.nonCGS _ _ _ _ (by norm_num) (by norm_num) (by norm_num) (by norm_num) (.powerLaw o))

/-- **C25 is false** for the temperature derivative: with a temperature unit of 2, no gray opacity with positive
constants is seen correctly. -/
theorem C25_false (g : GrayOpacity ℝ) (P : PosPC g.pc) :
    ¬ InUnits ⟨1, 1, 1, 2⟩ inferInstance g inferInstance (NonCGSUnits.construct (R := ℝ) g 1 1 1 2) := by
  intro h
  have hu : (Spec.Units.mk 1 1 1 2).Pos := ⟨one_pos, one_pos, one_pos, two_pos⟩
  refine C17_false g P one_pos one_pos ?_
  have hd := C17_derivative_partial (Built.gray g P) (T := 1 * 2) (ν := 1) (by norm_num) one_pos
  have hc := hd.comp 1 ((hasDerivAt_id (1 : ℝ)).mul_const 2)
  have e : (fun T : ℝ => PhotonAPI.ThermalDistributionOfTNu (NonCGSUnits.construct (R := ℝ) g 1 1 1 2) T 1) =
      (fun T : ℝ => PhotonAPI.ThermalDistributionOfTNu g T 1) ∘ fun T => id T * 2 := by
    funext T
    rw [h.main.ThermalDistributionOfTNu, cgs_temperature, cgs_frequency, code_intensityPerNu hu]
    simp [areal]
  rw [e, h.DThermalDistributionOfTNuDT, cgs_temperature, cgs_frequency]
  rw [Units.toCode, unit_intensityPerNuTemp]
  simp only [areal]
  push_cast
  simp only [one_mul, mul_one, div_one, one_div, div_inv_eq_mul] at hc ⊢
  exact hc

/-- every other positive choice of units for which the arguments need no conversion is seen correctly -/
theorem C25_derivative_partial {O : Type} {inst : PhotonAPI ℝ O} {o : O} {n : ℕ}
    (H : ConstructedIn ℝ (fun x => 0 < x) O inst o n) {u : Units} (hu : u.Pos) (h1 : u.time = 1) (h2 : u.temp = 1) :
    InUnits u inst o inferInstance (NonCGSUnits.construct o u.time u.mass u.length u.temp) := by
  refine ⟨C25_units_partial H hu, fun T ν => ?_⟩
  rw [cgs_temperature, cgs_frequency, h1, h2, Units.toCode, unit_intensityPerNuTemp, h1, h2]
  show inst.DThermalDistributionOfTNuDT o T ν * (1 * 1 / u.mass) * 1 = _
  have := hu.mass
  simp [areal]; rfl

/-- **C25 (mean opacities)** every mean photon opacity in every positive unit system: all the coefficients, by group
and by frequency, and the group lookup.  Holds for whatever is wrapped. -/
theorem C25_mean {O : Type} [inst : MeanPhotonAPI ℝ O] (hP : ∀ (o : O) rho T g,
      inst.PlanckGroupAbsorptionCoefficient o rho T g = inst.AbsorptionCoefficient o rho T g gmodePlanck)
    (hR : ∀ (o : O) rho T g,
      inst.RosselandGroupAbsorptionCoefficient o rho T g = inst.AbsorptionCoefficient o rho T g gmodeRosseland)
    (hPν : ∀ (o : O) rho T ν, inst.PlanckGroupAbsorptionCoefficientFromNu o rho T ν =
      inst.AbsorptionCoefficientFromNu o rho T ν gmodePlanck)
    (hRν : ∀ (o : O) rho T ν, inst.RosselandGroupAbsorptionCoefficientFromNu o rho T ν =
      inst.AbsorptionCoefficientFromNu o rho T ν gmodeRosseland) (o : O) (u : Units) :
    InUnitsMean u inst o inferInstance (MeanNonCGSUnits.construct o u.time u.mass u.length u.temp) := by
  refine ⟨rfl, rfl, fun rho T g gm => ?_, fun rho T g => ?_, fun rho T g => ?_, fun ν => ?_, fun rho T ν gm => ?_,
    fun rho T ν => ?_, fun rho T ν => ?_⟩
  all_goals (try rw [hP]); (try rw [hR]); (try rw [hPν]); (try rw [hRν])
  all_goals (try rw [cgs_density, cgs_temperature, mul_comm rho, mul_comm T])
  all_goals (try rw [cgs_frequency])
  all_goals first
    | exact map'_congr _ fun x => (code_inverseLength x).symm
    | rfl

/-- the mean opacity the library ships, and the same already in code units -/
theorem C25_mean_base (o : MeanOpacityBase ℝ) (u : Units) :
    InUnitsMean u inferInstance o inferInstance (MeanNonCGSUnits.construct o u.time u.mass u.length u.temp) :=
  C25_mean (fun _ _ _ _ => rfl) (fun _ _ _ _ => rfl) (fun _ _ _ _ => rfl) (fun _ _ _ _ => rfl) o u
example (o : MeanOpacityBase ℝ) (u v : Units) : InUnitsMean v inferInstance
    (MeanNonCGSUnits.construct o u.time u.mass u.length u.temp) inferInstance
    (MeanNonCGSUnits.construct (MeanNonCGSUnits.construct o u.time u.mass u.length u.temp) v.time v.mass v.length v.temp) :=
  C25_mean (fun _ _ _ _ => rfl) (fun _ _ _ _ => rfl) (fun _ _ _ _ => rfl) (fun _ _ _ _ => rfl) _ v

/-- **C25 is false** for the constants a wrapped mean opacity reports: they are those of CGS whatever the units -/
theorem C25_mean_constants_false (o : MeanOpacityBase ℝ) {u : Units} (hm : 1 < u.mass) (hme : 0 < o.pc.me) :
    (MeanPhotonAPI.GetRuntimePhysicalConstants
      (MeanNonCGSUnits.construct o u.time u.mass u.length u.temp) : RPC ℝ).pc.me ≠
    u.toCode .mass ((MeanPhotonAPI.GetRuntimePhysicalConstants o : RPC ℝ).pc.me) := by
  show o.pc.me ≠ u.toCode .mass o.pc.me
  have e : u.unit .mass = u.mass := by
    have := unit_zpow u 0 1 0 0; push_cast at this; unfold Dim.mass; rw [this]; simp
  rw [Units.toCode, e]
  intro h
  have : o.pc.me * u.mass = o.pc.me := by rw [eq_div_iff (by linarith)] at h; exact h
  nlinarith
example : (1 : ℝ) < (Spec.Units.mk 1 1e33 1 1).mass ∧ 0 < (PhysicalConstantsSI : PC ℝ).me := by
  constructor
  · norm_num
  · simp only [PhysicalConstantsSI, PhysicalConstants, BaseSICODATA2010, UnitConversionDefault, areal]; norm_num

/-- **C27** every photon scattering opacity in every unit system (the identity is exact even for degenerate units) -/
theorem C27_scattering {O : Type} [inst : PhotonSAPI ℝ O] (o : O) (u : Units) :
    InUnitsS u inst o inferInstance (NonCGSUnitsS.construct o u.time u.mass u.length u.temp) := by
  refine ⟨rfl, fun rho T ν => ?_, fun rho T ν μ => ?_, fun rho T ν => ?_⟩ <;>
    rw [cgs_density, cgs_temperature, cgs_frequency, mul_comm rho, mul_comm T]
  · rw [code_area]; rfl
  · rw [code_area]; rfl
  · rw [code_inverseLength]; rfl

/-- **C27 (means)** -/
theorem C27_mean_scattering {O : Type} [inst : MeanPhotonSTotalAPI ℝ O] (o : O) (u : Units) :
    InUnitsMeanS u inst o inferInstance (MeanNonCGSUnitsS.construct o u.time u.mass u.length u.temp) := by
  refine ⟨rfl, fun rho T => ?_, fun rho T => ?_⟩ <;>
    (rw [cgs_density, cgs_temperature, mul_comm rho, mul_comm T, code_inverseLength]; rfl)

end Photons

/-! ## Neutrinos -/

namespace Neutrinos

/-- **C26** for every neutrino opacity and every positive unit system, every function but the temperature derivative of
the spectrum (and the reported constants, C29).  What is missing from C26 is `DThermalDistributionOfTNuDT`, for which
it is false (`C26_false`). -/
theorem C26_units_partial {O : Type} {inst : NeutrinoAPI ℝ O} {o : O} {n : ℕ}
    (H : ConstructedIn ℝ (fun x => 0 < x) O inst o n) {u : Units} (hu : u.Pos) :
    InUnitsMain u inst o inferInstance (NonCGSUnits.construct o u.time u.mass u.length u.temp) := by
  have hs : ∀ fn rho T Ye s ν,
      scalarFn inferInstance (NonCGSUnits.construct o u.time u.mass u.length u.temp) fn rho T Ye s ν =
      (scalarFn inst o fn (u.toCGS .density rho) (u.toCGS .temperature T) Ye s (u.toCGS .frequency ν)).map'
        (u.toCode fn.dim) := by
    intro fn rho T Ye s ν
    rw [cgs_density, cgs_temperature, cgs_frequency]
    cases fn
    · rw [mul_comm rho, mul_comm T]; exact map'_congr _ fun x => (code_inverseLength x).symm
    · exact map'_congr _ fun x => (code_inverseLength x).symm
    · exact map'_congr _ fun x => (code_emissivityPerNu hu x).symm
    · exact map'_congr _ fun x => (code_emissivityPerNu hu x).symm
  refine ⟨rfl, hs, fun fn rho T Ye s => ?_, fun rho T Ye s => ?_, fun rho T Ye s => ?_, fun T s ν => ?_, fun T s => ?_,
    fun T s => ?_, fun T s => ?_, fun er s => ?_, fun T s => ?_⟩
  · have := (ConstructedIn.nonCGS u.time u.mass u.length u.temp hu.time hu.mass hu.length hu.temp H).vectorOK_real
    have := VectorWithM.elementwise (this fn rho T Ye s)
    rw [show scalarFn inferInstance (NonCGSUnits.construct o u.time u.mass u.length u.temp) fn rho T Ye s = _ from
      funext fun ν => hs fn rho T Ye s ν] at this
    exact this
  · rw [cgs_density, cgs_temperature]; exact map'_congr _ fun x => (code_emissivity hu x).symm
  · rw [cgs_density, cgs_temperature]; exact map'_congr _ fun x => (code_numberEmissivity hu x).symm
  · rw [cgs_temperature, cgs_frequency, code_intensityPerNu hu]; rfl
  · rw [cgs_temperature, code_intensity hu]; rfl
  · rw [cgs_temperature, code_numberFlux hu]; rfl
  · rw [cgs_temperature, code_energyDensity hu]; rfl
  · rw [cgs_energyDensity, code_temperature]; rfl
  · rw [cgs_temperature, code_numberDensity hu]; rfl

example (o : SpinerOpacity ℝ) : ConstructedIn ℝ (fun x => 0 < x) (Opacity ℝ) inferInstance
    (.NonCGSSpiner (NonCGSUnits.construct o 2 3 5 7)) 1 :=
  .vNonCGSSpiner (.nonCGS _ _ _ _ (by norm_num) (by norm_num) (by norm_num) (by norm_num) (.spiner o))

/-- **C26 is false** for the temperature derivative: with a temperature unit of 2, no gray opacity with positive
constants is seen correctly. -/
theorem C26_false (g : GrayOpacity ℝ) (P : PosDist g.dist) (hp : g.dist.pc = g.pc) :
    ¬ InUnits ⟨1, 1, 1, 2⟩ inferInstance g inferInstance (NonCGSUnits.construct (R := ℝ) g 1 1 1 2) := by
  intro h
  have hu : (Spec.Units.mk 1 1 1 2).Pos := ⟨one_pos, one_pos, one_pos, two_pos⟩
  obtain ⟨ν, hν, hn⟩ := C17_false g P one_pos RadiationType.NU_ELECTRON
  refine hn ?_
  have hd := C17_derivative_partial (Built.gray g P hp) RadiationType.NU_ELECTRON (T := 1 * 2) (ν := ν) (by norm_num)
  have hc := hd.comp 1 ((hasDerivAt_id (1 : ℝ)).mul_const 2)
  have e : (fun T : ℝ => NeutrinoAPI.ThermalDistributionOfTNu (NonCGSUnits.construct (R := ℝ) g 1 1 1 2) T
      RadiationType.NU_ELECTRON ν) =
      (fun T : ℝ => NeutrinoAPI.ThermalDistributionOfTNu g T RadiationType.NU_ELECTRON ν) ∘ fun T => id T * 2 := by
    funext T
    rw [h.main.ThermalDistributionOfTNu, cgs_temperature, cgs_frequency, code_intensityPerNu hu]
    simp [areal]
  rw [e, h.DThermalDistributionOfTNuDT, cgs_temperature, cgs_frequency]
  rw [Units.toCode, unit_intensityPerNuTemp]
  simp only [areal]
  push_cast
  simp only [one_mul, mul_one, div_one, one_div, div_inv_eq_mul] at hc ⊢
  exact hc

/-- units in which the arguments need no conversion are seen correctly -/
theorem C26_derivative_partial {O : Type} {inst : NeutrinoAPI ℝ O} {o : O} {n : ℕ}
    (H : ConstructedIn ℝ (fun x => 0 < x) O inst o n) {u : Units} (hu : u.Pos) (h1 : u.time = 1) (h2 : u.temp = 1) :
    InUnits u inst o inferInstance (NonCGSUnits.construct o u.time u.mass u.length u.temp) := by
  refine ⟨C26_units_partial H hu, fun T s ν => ?_⟩
  rw [cgs_temperature, cgs_frequency, h1, h2, Units.toCode, unit_intensityPerNuTemp, h1, h2]
  show inst.DThermalDistributionOfTNuDT o T s ν * (1 * 1 / u.mass) * 1 = _
  have := hu.mass
  simp [areal]; rfl

/-- **C26 (mean opacities)** whatever is wrapped -/
theorem C26_mean {O : Type} [inst : MeanNeutrinoAPI ℝ O] (o : O) (u : Units) :
    InUnitsMean u inst o inferInstance (MeanNonCGSUnits.construct o u.time u.mass u.length u.temp) := by
  refine ⟨fun rho T Ye s => ?_, fun rho T Ye s => ?_⟩ <;>
    (rw [cgs_density, cgs_temperature, mul_comm rho, mul_comm T]
     exact map'_congr _ fun x => (code_inverseLength x).symm)

/-- **C27** every neutrino scattering opacity in every unit system -/
theorem C27_scattering {O : Type} [inst : NeutrinoSAPI ℝ O] (o : O) (u : Units) :
    InUnitsS u inst o inferInstance (NonCGSUnitsS.construct o u.time u.mass u.length u.temp) := by
  refine ⟨rfl, fun rho T Ye s ν => ?_, fun rho T Ye s ν μ => ?_, fun rho T Ye s ν => ?_⟩ <;>
    rw [cgs_density, cgs_temperature, cgs_frequency, mul_comm rho, mul_comm T]
  · rw [code_area]; rfl
  · rw [code_area]; rfl
  · rw [code_inverseLength]; rfl

/-- **C27 (means)** -/
theorem C27_mean_scattering {O : Type} [inst : MeanNeutrinoSAPI ℝ O] (o : O) (u : Units) :
    InUnitsMeanS u inst o inferInstance (MeanNonCGSUnitsS.construct o u.time u.mass u.length u.temp) := by
  refine ⟨fun rho T Ye s => ?_, fun rho T Ye s => ?_⟩ <;>
    (rw [cgs_density, cgs_temperature, mul_comm rho, mul_comm T]
     exact map'_congr _ fun x => (code_inverseLength x).symm)

end Neutrinos

/-! ## C28: unit wrappers are an action -/

theorem ofUnits_one (pc : PC ℝ) : RPC.ofUnits pc 1 1 1 1 = RPC.ofPC pc := by
  simp [RPC.ofUnits, RPC.ofPC, areal]

/-- factors of nested wrappers -/
theorem rho_mul (m l m' l' : ℝ) : m / (l * l * l) * (m' / (l' * l' * l')) =
    m * m' / ((l * l') * (l * l') * (l * l')) := by
  rw [div_mul_div_comm]; congr 1; ring
theorem freq_mul (t t' : ℝ) : (Arith.lit 1 / t' : ℝ) * (Arith.lit 1 / t) = Arith.lit 1 / (t * t') := by
  simp only [areal]; push_cast; rw [div_mul_div_comm]; congr 1 <;> ring
theorem lit_one : (Arith.lit 1 : ℝ) = 1 := by simp only [areal]; push_cast; rfl
theorem lit_one_div_one : (Arith.lit 1 / 1 : ℝ) = 1 := by simp only [areal]; push_cast; norm_num

namespace Photons

/-- **C28 (identity)** units of 1 change no result of any photon opacity, whatever it is -/
theorem C28_one {O : Type} [inst : PhotonAPI ℝ O] (o : O) :
    SameValues (R := ℝ) inferInstance (NonCGSUnits.construct (R := ℝ) o 1 1 1 1) inst o := by
  constructor
  case nlambda => rfl
  case AbsorptionCoefficientV =>
    funext rho T
    show nonCGSVector (inst.AbsorptionCoefficientV o (rho * (1 / (1 * 1 * 1))) (T * 1)) (Arith.lit 1 / 1) 1 1 = _
    rw [lit_one_div_one, nonCGSVector_one]; simp only [mul_one, div_one]
  case AngleAveragedAbsorptionCoefficientV =>
    funext rho T
    show nonCGSVector (inst.AngleAveragedAbsorptionCoefficientV o (rho * (1 / (1 * 1 * 1))) (T * 1))
      (Arith.lit 1 / 1) 1 1 = _
    rw [lit_one_div_one, nonCGSVector_one]; simp only [mul_one, div_one]
  case EmissivityPerNuOmegaV =>
    funext rho T
    show nonCGSVector (inst.EmissivityPerNuOmegaV o (rho * (1 / (1 * 1 * 1))) (T * 1))
      (Arith.lit 1 / 1) 1 (1 * 1 * 1 / 1) = _
    simp only [mul_one, div_one, lit_one, nonCGSVector_one]
  case EmissivityPerNuV =>
    funext rho T
    show nonCGSVector (inst.EmissivityPerNuV o (rho * (1 / (1 * 1 * 1))) (T * 1))
      (Arith.lit 1 / 1) 1 (1 * 1 * 1 / 1) = _
    simp only [mul_one, div_one, lit_one, nonCGSVector_one]
  case AbsorptionCoefficient =>
    funext rho T ν
    show inst.AbsorptionCoefficient o (1 / (1 * 1 * 1) * rho) (1 * T) (ν * (Arith.lit 1 / 1)) * 1 = _
    simp only [mul_one, one_mul, div_one, lit_one]
  case AngleAveragedAbsorptionCoefficient =>
    funext rho T ν
    show inst.AngleAveragedAbsorptionCoefficient o (rho * (1 / (1 * 1 * 1))) (T * 1) (ν * (Arith.lit 1 / 1)) * 1 = _
    simp only [mul_one, one_mul, div_one, lit_one]
  case EmissivityPerNuOmega =>
    funext rho T ν
    show inst.EmissivityPerNuOmega o (rho * (1 / (1 * 1 * 1))) (T * 1) (ν * (Arith.lit 1 / 1)) * (1 * 1 * 1 / 1) = _
    simp only [mul_one, one_mul, div_one, lit_one]
  case EmissivityPerNu =>
    funext rho T ν
    show inst.EmissivityPerNu o (rho * (1 / (1 * 1 * 1))) (T * 1) (ν * (Arith.lit 1 / 1)) * (1 * 1 * 1 / 1) = _
    simp only [mul_one, one_mul, div_one, lit_one]
  case Emissivity =>
    funext rho T
    show (inst.Emissivity o (rho * (1 / (1 * 1 * 1))) (T * 1)).map' (fun J => J * (1 * 1 * 1 / 1) * 1) = _
    simp only [mul_one, one_mul, div_one, map'_id]
  case NumberEmissivity =>
    funext rho T
    show (inst.NumberEmissivity o (rho * (1 / (1 * 1 * 1))) (T * 1)).map' (fun J => J * (1 * 1 * 1 * 1)) = _
    simp only [mul_one, one_mul, div_one, map'_id]
  case ThermalDistributionOfTNu =>
    funext T ν
    show inst.ThermalDistributionOfTNu o (T * 1) (ν * (Arith.lit 1 / 1)) * (1 * 1 / 1) = _
    simp only [mul_one, one_mul, div_one, lit_one]
  case DThermalDistributionOfTNuDT =>
    funext T ν
    show inst.DThermalDistributionOfTNuDT o T ν * (1 * 1 / 1) * 1 = _
    simp only [mul_one, one_mul, div_one]
  case ThermalDistributionOfT =>
    funext T
    show inst.ThermalDistributionOfT o (T * 1) * (1 * 1 * 1 / 1) * 1 / 1 = _
    simp only [mul_one, one_mul, div_one]
  case ThermalNumberDistributionOfT =>
    funext T
    show inst.ThermalNumberDistributionOfT o (T * 1) * 1 / (1 / (1 * 1 * 1)) * 1 / 1 = _
    simp only [mul_one, one_mul, div_one]
  case EnergyDensityFromTemperature =>
    funext T
    show inst.EnergyDensityFromTemperature o (T * 1) * (1 * 1 * 1 / 1) = _
    simp only [mul_one, one_mul, div_one]
  case TemperatureFromEnergyDensity =>
    funext T
    show inst.TemperatureFromEnergyDensity o (T / (1 * 1 * 1 / 1)) / 1 = _
    simp only [mul_one, one_mul, div_one]
  case NumberDensityFromTemperature =>
    funext T
    show inst.NumberDensityFromTemperature o (T * 1) * 1 / (1 / (1 * 1 * 1)) = _
    simp only [mul_one, one_mul, div_one]

/-- **C28 (identity, constants)** for an opacity that is not wrapped, the reported constants are unchanged too -/
theorem C28_one_constants {O : Type} {inst : PhotonAPI ℝ O} {o : O} (H : ConstructedIn ℝ (fun x => 0 < x) O inst o 0) :
    SameResults (R := ℝ) inferInstance (NonCGSUnits.construct (R := ℝ) o 1 1 1 1) inst o := by
  refine (C28_one o).withRPC ?_
  generalize hm : (0 : ℕ) = m at H
  induction H with
  | gray o | epbremss o | powerLaw o => exact ofUnits_one _
  | nonCGS => omega
  | vScaleFree _ ih | vGray _ ih | vPowerLawScaleFree _ ih | vPowerLaw _ ih | vEPBremss _ ih
  | vNonCGSGray _ ih | vNonCGSPowerLaw _ ih | vNonCGSEPBremss _ ih => exact ih hm

/-- **C28 (composition)** wrapping a wrapped opacity multiplies the units, for every function (also the temperature
derivative of the spectrum) and, for the vectorised ones, every memory layout -/
theorem C28_mul {O : Type} [inst : PhotonAPI ℝ O] (o : O) {u v : Spec.Units} (hu : u.Pos) (hv : v.Pos) :
    SameValues (R := ℝ) inferInstance (NonCGSUnits.construct (NonCGSUnits.construct o u.time u.mass u.length u.temp)
        v.time v.mass v.length v.temp)
      inferInstance (NonCGSUnits.construct o (u.mul v).time (u.mul v).mass (u.mul v).length (u.mul v).temp) := by
  obtain ⟨t, m, l, θ⟩ := u
  obtain ⟨t', m', l', θ'⟩ := v
  obtain ⟨h1, h2, h3, h4⟩ := hu
  obtain ⟨k1, k2, k3, k4⟩ := hv
  simp only at h1 h2 h3 h4 k1 k2 k3 k4
  simp only [Spec.Units.mul]
  have eR : ∀ x : ℝ, x * (m' / (l' * l' * l')) * (m / (l * l * l)) = x * (m * m' / ((l * l') * (l * l') * (l * l'))) := by
    intro x; rw [← rho_mul]; ring
  have eR' : ∀ x : ℝ, (m / (l * l * l)) * ((m' / (l' * l' * l')) * x) = m * m' / ((l * l') * (l * l') * (l * l')) * x := by
    intro x; rw [← rho_mul]; ring
  have eT : ∀ x : ℝ, x * θ' * θ = x * (θ * θ') := by intro x; ring
  have eT' : ∀ x : ℝ, θ * (θ' * x) = θ * θ' * x := by intro x; ring
  have eF : ∀ x : ℝ, x * (Arith.lit 1 / t') * (Arith.lit 1 / t) = x * (Arith.lit 1 / (t * t')) := by
    intro x; rw [← freq_mul, mul_assoc]
  have eE : l * t * t / m * (l' * t' * t' / m') = l * l' * (t * t') * (t * t') / (m * m') := by
    field_simp
  constructor
  case nlambda => rfl
  case AbsorptionCoefficientV =>
    funext rho T
    show nonCGSVector (nonCGSVector (inst.AbsorptionCoefficientV o (rho * (m' / (l' * l' * l')) * (m / (l * l * l)))
      (T * θ' * θ)) (Arith.lit 1 / t) t l) (Arith.lit 1 / t') t' l' = _
    rw [nonCGSVector_mul, freq_mul, eR, eT]; rfl
  case AngleAveragedAbsorptionCoefficientV =>
    funext rho T
    show nonCGSVector (nonCGSVector (inst.AngleAveragedAbsorptionCoefficientV o
      (rho * (m' / (l' * l' * l')) * (m / (l * l * l)))
      (T * θ' * θ)) (Arith.lit 1 / t) t l) (Arith.lit 1 / t') t' l' = _
    rw [nonCGSVector_mul, freq_mul, eR, eT]; rfl
  case EmissivityPerNuOmegaV =>
    funext rho T
    show nonCGSVector (nonCGSVector (inst.EmissivityPerNuOmegaV o (rho * (m' / (l' * l' * l')) * (m / (l * l * l)))
      (T * θ' * θ)) (Arith.lit 1 / t) t (l * t * t / m)) (Arith.lit 1 / t') t' (l' * t' * t' / m') = _
    rw [nonCGSVector_mul, freq_mul, eR, eT, eE]; rfl
  case EmissivityPerNuV =>
    funext rho T
    show nonCGSVector (nonCGSVector (inst.EmissivityPerNuV o (rho * (m' / (l' * l' * l')) * (m / (l * l * l)))
      (T * θ' * θ)) (Arith.lit 1 / t) t (l * t * t / m)) (Arith.lit 1 / t') t' (l' * t' * t' / m') = _
    rw [nonCGSVector_mul, freq_mul, eR, eT, eE]; rfl
  case AbsorptionCoefficient =>
    funext rho T ν
    show inst.AbsorptionCoefficient o ((m / (l * l * l)) * ((m' / (l' * l' * l')) * rho)) (θ * (θ' * T))
      (ν * (Arith.lit 1 / t') * (Arith.lit 1 / t)) * l * l' = _
    rw [eR', eT', eF, mul_assoc]; rfl
  case AngleAveragedAbsorptionCoefficient =>
    funext rho T ν
    show inst.AngleAveragedAbsorptionCoefficient o (rho * (m' / (l' * l' * l')) * (m / (l * l * l))) (T * θ' * θ)
      (ν * (Arith.lit 1 / t') * (Arith.lit 1 / t)) * l * l' = _
    rw [eR, eT, eF, mul_assoc]; rfl
  case EmissivityPerNuOmega =>
    funext rho T ν
    show inst.EmissivityPerNuOmega o (rho * (m' / (l' * l' * l')) * (m / (l * l * l))) (T * θ' * θ)
      (ν * (Arith.lit 1 / t') * (Arith.lit 1 / t)) * (l * t * t / m) * (l' * t' * t' / m') = _
    rw [eR, eT, eF, mul_assoc, eE]; rfl
  case EmissivityPerNu =>
    funext rho T ν
    show inst.EmissivityPerNu o (rho * (m' / (l' * l' * l')) * (m / (l * l * l))) (T * θ' * θ)
      (ν * (Arith.lit 1 / t') * (Arith.lit 1 / t)) * (l * t * t / m) * (l' * t' * t' / m') = _
    rw [eR, eT, eF, mul_assoc, eE]; rfl
  case Emissivity =>
    funext rho T
    show ((inst.Emissivity o (rho * (m' / (l' * l' * l')) * (m / (l * l * l))) (T * θ' * θ)).map' _).map' _ = _
    rw [eR, eT, map'_map']
    refine map'_congr _ fun x => ?_
    show x * (l * t * t / m) * t * (l' * t' * t' / m') * t' = x * (l * l' * (t * t') * (t * t') / (m * m')) * (t * t')
    rw [← eE]; ring
  case NumberEmissivity =>
    funext rho T
    show ((inst.NumberEmissivity o (rho * (m' / (l' * l' * l')) * (m / (l * l * l))) (T * θ' * θ)).map' _).map' _ = _
    rw [eR, eT, map'_map']
    refine map'_congr _ fun x => ?_
    show x * (l * l * l * t) * (l' * l' * l' * t') = x * ((l * l') * (l * l') * (l * l') * (t * t'))
    ring
  case ThermalDistributionOfTNu =>
    funext T ν
    show inst.ThermalDistributionOfTNu o (T * θ' * θ) (ν * (Arith.lit 1 / t') * (Arith.lit 1 / t)) * (t * t / m) *
      (t' * t' / m') = inst.ThermalDistributionOfTNu o (T * (θ * θ')) (ν * (Arith.lit 1 / (t * t'))) *
      ((t * t') * (t * t') / (m * m'))
    rw [eT, eF]; field_simp
  case DThermalDistributionOfTNuDT =>
    funext T ν
    show inst.DThermalDistributionOfTNuDT o T ν * (t * t / m) * θ * (t' * t' / m') * θ' =
      inst.DThermalDistributionOfTNuDT o T ν * ((t * t') * (t * t') / (m * m')) * (θ * θ')
    field_simp
  case ThermalDistributionOfT =>
    funext T
    show inst.ThermalDistributionOfT o (T * θ' * θ) * (t * t * l / m) * t / l * (t' * t' * l' / m') * t' / l' =
      inst.ThermalDistributionOfT o (T * (θ * θ')) * ((t * t') * (t * t') * (l * l') / (m * m')) * (t * t') / (l * l')
    rw [eT]; field_simp
  case ThermalNumberDistributionOfT =>
    funext T
    show inst.ThermalNumberDistributionOfT o (T * θ' * θ) * m / (m / (l * l * l)) * t / l * m' / (m' / (l' * l' * l')) *
      t' / l' = inst.ThermalNumberDistributionOfT o (T * (θ * θ')) * (m * m') / (m * m' / ((l * l') * (l * l') * (l * l'))) *
      (t * t') / (l * l')
    rw [eT]; field_simp
  case EnergyDensityFromTemperature =>
    funext T
    show inst.EnergyDensityFromTemperature o (T * θ' * θ) * (t * t * l / m) * (t' * t' * l' / m') =
      inst.EnergyDensityFromTemperature o (T * (θ * θ')) * ((t * t') * (t * t') * (l * l') / (m * m'))
    rw [eT]; field_simp
  case TemperatureFromEnergyDensity =>
    funext er
    show inst.TemperatureFromEnergyDensity o (er / (t' * t' * l' / m') / (t * t * l / m)) / θ / θ' =
      inst.TemperatureFromEnergyDensity o (er / ((t * t') * (t * t') * (l * l') / (m * m'))) / (θ * θ')
    rw [show er / (t' * t' * l' / m') / (t * t * l / m) = er / ((t * t') * (t * t') * (l * l') / (m * m')) by field_simp,
      div_div]
  case NumberDensityFromTemperature =>
    funext T
    show inst.NumberDensityFromTemperature o (T * θ' * θ) * m / (m / (l * l * l)) * m' / (m' / (l' * l' * l')) =
      inst.NumberDensityFromTemperature o (T * (θ * θ')) * (m * m') / (m * m' / ((l * l') * (l * l') * (l * l')))
    rw [eT]; field_simp

/-- **C28 is false for the reported constants**: a doubly wrapped opacity reports the constants in the outer units
only.  With a mass unit of 2 each, the electron mass is reported as half, not a quarter, of the CGS value. -/
theorem C28_constants_false (g : GrayOpacity ℝ) (h : 0 < g.pc.me) :
    PhotonAPI.GetRuntimePhysicalConstants (R := ℝ)
      (NonCGSUnits.construct (R := ℝ) (NonCGSUnits.construct (R := ℝ) g 1 2 1 1) 1 2 1 1) ≠
    PhotonAPI.GetRuntimePhysicalConstants (R := ℝ) (NonCGSUnits.construct (R := ℝ) g 1 (2 * 2) 1 1) := by
  intro e
  have e' := congrArg (fun r : RPC ℝ => r.pc.me) e
  have e2 : g.pc.me / 2 = g.pc.me / (2 * 2) := e'
  linarith

/-- **C28** scattering: identity and composition -/
theorem C28_scattering {O : Type} [inst : PhotonSAPI ℝ O] (o : O) (u v : Spec.Units) :
    SameResultsS (R := ℝ) inferInstance (NonCGSUnitsS.construct (R := ℝ) o 1 1 1 1) inst o ∧
    SameResultsS (R := ℝ) inferInstance (NonCGSUnitsS.construct (NonCGSUnitsS.construct o u.time u.mass u.length u.temp)
        v.time v.mass v.length v.temp)
      inferInstance (NonCGSUnitsS.construct o (u.mul v).time (u.mul v).mass (u.mul v).length (u.mul v).temp) := by
  obtain ⟨t, m, l, θ⟩ := u
  obtain ⟨t', m', l', θ'⟩ := v
  have eR' : ∀ x : ℝ, (m / (l * l * l)) * ((m' / (l' * l' * l')) * x) = m * m' / ((l * l') * (l * l') * (l * l')) * x := by
    intro x; rw [← rho_mul]; ring
  have eT' : ∀ x : ℝ, θ * (θ' * x) = θ * θ' * x := by intro x; ring
  have eF : ∀ x : ℝ, x * (Arith.lit 1 / t') * (Arith.lit 1 / t) = x * (Arith.lit 1 / (t * t')) := by
    intro x; rw [← freq_mul, mul_assoc]
  refine ⟨⟨rfl, ?_, ?_, ?_⟩, ⟨rfl, ?_, ?_, ?_⟩⟩
  · funext rho T ν
    show inst.TotalCrossSection o (1 / (1 * 1 * 1) * rho) (1 * T) (ν * (Arith.lit 1 / 1)) / (1 * 1) = _
    simp only [mul_one, one_mul, div_one, lit_one]
  · funext rho T ν μ
    show inst.DifferentialCrossSection o (1 / (1 * 1 * 1) * rho) (1 * T) (ν * (Arith.lit 1 / 1)) μ / (1 * 1) = _
    simp only [mul_one, one_mul, div_one, lit_one]
  · funext rho T ν
    show inst.TotalScatteringCoefficient o (1 / (1 * 1 * 1) * rho) (1 * T) (ν * (Arith.lit 1 / 1)) * 1 = _
    simp only [mul_one, one_mul, div_one, lit_one]
  · funext rho T ν
    show inst.TotalCrossSection o ((m / (l * l * l)) * ((m' / (l' * l' * l')) * rho)) (θ * (θ' * T))
      (ν * (Arith.lit 1 / t') * (Arith.lit 1 / t)) / (l * l) / (l' * l') = _
    rw [eR', eT', eF, div_div, show l * l * (l' * l') = l * l' * (l * l') by ring]; rfl
  · funext rho T ν μ
    show inst.DifferentialCrossSection o ((m / (l * l * l)) * ((m' / (l' * l' * l')) * rho)) (θ * (θ' * T))
      (ν * (Arith.lit 1 / t') * (Arith.lit 1 / t)) μ / (l * l) / (l' * l') = _
    rw [eR', eT', eF, div_div, show l * l * (l' * l') = l * l' * (l * l') by ring]; rfl
  · funext rho T ν
    show inst.TotalScatteringCoefficient o ((m / (l * l * l)) * ((m' / (l' * l' * l')) * rho)) (θ * (θ' * T))
      (ν * (Arith.lit 1 / t') * (Arith.lit 1 / t)) * l * l' = _
    rw [eR', eT', eF, mul_assoc]; rfl

/-- **C28** mean opacities: composition, for whatever is wrapped (saved files and reported constants included) -/
theorem C28_mean_mul {O : Type} [inst : MeanPhotonAPI ℝ O] (o : O) (u v : Spec.Units) :
    SameResultsMean (R := ℝ) inferInstance (MeanNonCGSUnits.construct (MeanNonCGSUnits.construct o u.time u.mass u.length u.temp)
        v.time v.mass v.length v.temp)
      inferInstance (MeanNonCGSUnits.construct o (u.mul v).time (u.mul v).mass (u.mul v).length (u.mul v).temp) := by
  obtain ⟨t, m, l, θ⟩ := u
  obtain ⟨t', m', l', θ'⟩ := v
  have eR' : ∀ x : ℝ, (m / (l * l * l)) * ((m' / (l' * l' * l')) * x) = m * m' / ((l * l') * (l * l') * (l * l')) * x := by
    intro x; rw [← rho_mul]; ring
  have eT' : ∀ x : ℝ, θ * (θ' * x) = θ * θ' * x := by intro x; ring
  have eF : ∀ x : ℝ, x * (Arith.lit 1 / t') * (Arith.lit 1 / t) = x * (Arith.lit 1 / (t * t')) := by
    intro x; rw [← freq_mul, mul_assoc]
  have hA : ∀ rho T g gm, ((inst.AbsorptionCoefficient o ((m / (l * l * l)) * ((m' / (l' * l' * l')) * rho))
      (θ * (θ' * T)) g gm).map' (fun a => a * l)).map' (fun a => a * l') =
      (inst.AbsorptionCoefficient o (m * m' / ((l * l') * (l * l') * (l * l')) * rho) (θ * θ' * T) g gm).map'
        fun a => a * (l * l') := by
    intro rho T g gm
    rw [eR', eT', map'_map']; exact map'_congr _ fun x => mul_assoc _ _ _
  have hN : ∀ rho T ν gm, ((inst.AbsorptionCoefficientFromNu o ((m / (l * l * l)) * ((m' / (l' * l' * l')) * rho))
      (θ * (θ' * T)) (ν * (Arith.lit 1 / t') * (Arith.lit 1 / t)) gm).map' (fun a => a * l)).map' (fun a => a * l') =
      (inst.AbsorptionCoefficientFromNu o (m * m' / ((l * l') * (l * l') * (l * l')) * rho) (θ * θ' * T)
        (ν * (Arith.lit 1 / (t * t'))) gm).map' fun a => a * (l * l') := by
    intro rho T ν gm
    rw [eR', eT', eF, map'_map']; exact map'_congr _ fun x => mul_assoc _ _ _
  exact ⟨rfl, rfl, rfl, by funext rho T g gm; exact hA rho T g gm, by funext rho T g; exact hA rho T g _,
    by funext rho T g; exact hA rho T g _, by funext ν; exact congrArg _ (eF ν),
    by funext rho T ν gm; exact hN rho T ν gm, by funext rho T ν; exact hN rho T ν _,
    by funext rho T ν; exact hN rho T ν _, rfl⟩

/-- **C28** mean opacities: identity -/
theorem C28_mean_one (o : MeanOpacityBase ℝ) :
    SameResultsMean (R := ℝ) inferInstance (MeanNonCGSUnits.construct (R := ℝ) o 1 1 1 1) inferInstance o := by
  have hA : ∀ rho T g gm, (o.t.Coefficient (1 / (1 * 1 * 1) * rho) (1 * T) g gm).map' (fun a => a * 1) =
      o.t.Coefficient rho T g gm := by
    intro rho T g gm; simp only [mul_one, one_mul, div_one, map'_id]
  have hN : ∀ rho T ν gm, (o.t.CoefficientFromNu (1 / (1 * 1 * 1) * rho) (1 * T) (ν * (Arith.lit 1 / 1)) gm).map'
      (fun a => a * 1) = o.t.CoefficientFromNu rho T ν gm := by
    intro rho T ν gm; simp only [mul_one, one_mul, div_one, map'_id, lit_one]
  exact ⟨rfl, rfl, rfl, by funext rho T g gm; exact hA rho T g gm, by funext rho T g; exact hA rho T g _,
    by funext rho T g; exact hA rho T g _,
    by funext ν; show o.t.GroupOfNu (ν * (Arith.lit 1 / 1)) = _; rw [lit_one_div_one, mul_one]; rfl,
    by funext rho T ν gm; exact hN rho T ν gm, by funext rho T ν; exact hN rho T ν _,
    by funext rho T ν; exact hN rho T ν _, rfl⟩

/-- **C28** mean scattering opacities -/
theorem C28_mean_scattering {O : Type} [inst : MeanPhotonSTotalAPI ℝ O] (o : O) (u v : Spec.Units) :
    SameResultsMeanS (R := ℝ) inferInstance (MeanNonCGSUnitsS.construct (R := ℝ) o 1 1 1 1) inst o ∧
    SameResultsMeanS (R := ℝ) inferInstance (MeanNonCGSUnitsS.construct (MeanNonCGSUnitsS.construct o u.time u.mass u.length u.temp)
        v.time v.mass v.length v.temp)
      inferInstance (MeanNonCGSUnitsS.construct o (u.mul v).time (u.mul v).mass (u.mul v).length (u.mul v).temp) := by
  obtain ⟨t, m, l, θ⟩ := u
  obtain ⟨t', m', l', θ'⟩ := v
  have eR' : ∀ x : ℝ, (m / (l * l * l)) * ((m' / (l' * l' * l')) * x) = m * m' / ((l * l') * (l * l') * (l * l')) * x := by
    intro x; rw [← rho_mul]; ring
  have eT' : ∀ x : ℝ, θ * (θ' * x) = θ * θ' * x := by intro x; ring
  refine ⟨⟨rfl, ?_, ?_⟩, ⟨rfl, ?_, ?_⟩⟩
  · funext rho T
    show inst.PlanckMeanTotalScatteringCoefficient o (1 / (1 * 1 * 1) * rho) (1 * T) * 1 = _
    simp only [mul_one, one_mul, div_one]
  · funext rho T
    show inst.RosselandMeanTotalScatteringCoefficient o (1 / (1 * 1 * 1) * rho) (1 * T) * 1 = _
    simp only [mul_one, one_mul, div_one]
  · funext rho T
    show inst.PlanckMeanTotalScatteringCoefficient o ((m / (l * l * l)) * ((m' / (l' * l' * l')) * rho)) (θ * (θ' * T))
      * l * l' = _
    rw [eR', eT', mul_assoc]; rfl
  · funext rho T
    show inst.RosselandMeanTotalScatteringCoefficient o ((m / (l * l * l)) * ((m' / (l' * l' * l')) * rho)) (θ * (θ' * T))
      * l * l' = _
    rw [eR', eT', mul_assoc]; rfl

end Photons

end Opac
