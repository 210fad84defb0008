import Verif.Props.Units

/-! # C28 for neutrinos -/

set_option linter.unusedSimpArgs false

namespace Opac
open Spec Real Outcome

namespace Neutrinos

/-- **C28 (identity)** units of 1 change no result of any neutrino opacity, whatever it is -/
theorem C28_one {O : Type} [inst : NeutrinoAPI ℝ O] (o : O) :
    SameValues (R := ℝ) inferInstance (NonCGSUnits.construct (R := ℝ) o 1 1 1 1) inst o := by
  constructor
  case nlambda => rfl
  case AbsorptionCoefficientV =>
    funext rho T Ye s
    show nonCGSVectorM (inst.AbsorptionCoefficientV o (rho * (1 / (1 * 1 * 1))) (T * 1) Ye s) (Arith.lit 1 / 1) 1 1 = _
    simp only [mul_one, one_mul, div_one, lit_one, map'_id, nonCGSVectorM_one]
  case AbsorptionCoefficient =>
    funext rho T Ye s ν
    show (inst.AbsorptionCoefficient o (1 / (1 * 1 * 1) * rho) (1 * T) Ye s (ν * (Arith.lit 1 / 1))).map' (fun x => x * 1) = _
    simp only [mul_one, one_mul, div_one, lit_one, map'_id, nonCGSVectorM_one]
  case AngleAveragedAbsorptionCoefficientV =>
    funext rho T Ye s
    show nonCGSVectorM (inst.AngleAveragedAbsorptionCoefficientV o (rho * (1 / (1 * 1 * 1))) (T * 1) Ye s) (Arith.lit 1 / 1) 1 1 = _
    simp only [mul_one, one_mul, div_one, lit_one, map'_id, nonCGSVectorM_one]
  case AngleAveragedAbsorptionCoefficient =>
    funext rho T Ye s ν
    show (inst.AngleAveragedAbsorptionCoefficient o (rho * (1 / (1 * 1 * 1))) (T * 1) Ye s (ν * (Arith.lit 1 / 1))).map' (fun x => x * 1) = _
    simp only [mul_one, one_mul, div_one, lit_one, map'_id, nonCGSVectorM_one]
  case EmissivityPerNuOmegaV =>
    funext rho T Ye s
    show nonCGSVectorM (inst.EmissivityPerNuOmegaV o (rho * (1 / (1 * 1 * 1))) (T * 1) Ye s) (Arith.lit 1 / 1) 1 (1 * 1 * 1 / 1) = _
    simp only [mul_one, one_mul, div_one, lit_one, map'_id, nonCGSVectorM_one]
  case EmissivityPerNuOmega =>
    funext rho T Ye s ν
    show (inst.EmissivityPerNuOmega o (rho * (1 / (1 * 1 * 1))) (T * 1) Ye s (ν * (Arith.lit 1 / 1))).map' (fun x => x * (1 * 1 * 1 / 1)) = _
    simp only [mul_one, one_mul, div_one, lit_one, map'_id, nonCGSVectorM_one]
  case EmissivityPerNuV =>
    funext rho T Ye s
    show nonCGSVectorM (inst.EmissivityPerNuV o (rho * (1 / (1 * 1 * 1))) (T * 1) Ye s) (Arith.lit 1 / 1) 1 (1 * 1 * 1 / 1) = _
    simp only [mul_one, one_mul, div_one, lit_one, map'_id, nonCGSVectorM_one]
  case EmissivityPerNu =>
    funext rho T Ye s ν
    show (inst.EmissivityPerNu o (rho * (1 / (1 * 1 * 1))) (T * 1) Ye s (ν * (Arith.lit 1 / 1))).map' (fun x => x * (1 * 1 * 1 / 1)) = _
    simp only [mul_one, one_mul, div_one, lit_one, map'_id, nonCGSVectorM_one]
  case Emissivity =>
    funext rho T Ye s
    show (inst.Emissivity o (rho * (1 / (1 * 1 * 1))) (T * 1) Ye s).map' (fun x => x * (1 * 1 * 1 / 1) * 1) = _
    simp only [mul_one, one_mul, div_one, lit_one, map'_id, nonCGSVectorM_one]
  case NumberEmissivity =>
    funext rho T Ye s
    show (inst.NumberEmissivity o (rho * (1 / (1 * 1 * 1))) (T * 1) Ye s).map' (fun x => x * (1 * 1 * 1 * 1)) = _
    simp only [mul_one, one_mul, div_one, lit_one, map'_id, nonCGSVectorM_one]
  case ThermalDistributionOfTNu =>
    funext T s ν
    show inst.ThermalDistributionOfTNu o (T * 1) s (ν * (Arith.lit 1 / 1)) * (1 * 1 / 1) = _
    simp only [mul_one, one_mul, div_one, lit_one, map'_id, nonCGSVectorM_one]
  case DThermalDistributionOfTNuDT =>
    funext T s ν
    show inst.DThermalDistributionOfTNuDT o T s ν * (1 * 1 / 1) * 1 = _
    simp only [mul_one, one_mul, div_one, lit_one, map'_id, nonCGSVectorM_one]
  case ThermalDistributionOfT =>
    funext T s
    show inst.ThermalDistributionOfT o (T * 1) s * (1 * 1 * 1 / 1) * 1 / 1 = _
    simp only [mul_one, one_mul, div_one, lit_one, map'_id, nonCGSVectorM_one]
  case ThermalNumberDistributionOfT =>
    funext T s
    show inst.ThermalNumberDistributionOfT o (T * 1) s * 1 / (1 / (1 * 1 * 1)) * 1 / 1 = _
    simp only [mul_one, one_mul, div_one, lit_one, map'_id, nonCGSVectorM_one]
  case EnergyDensityFromTemperature =>
    funext T s
    show inst.EnergyDensityFromTemperature o (T * 1) s * (1 * 1 * 1 / 1) = _
    simp only [mul_one, one_mul, div_one, lit_one, map'_id, nonCGSVectorM_one]
  case TemperatureFromEnergyDensity =>
    funext T s
    show inst.TemperatureFromEnergyDensity o (T / (1 * 1 * 1 / 1)) s / 1 = _
    simp only [mul_one, one_mul, div_one, lit_one, map'_id, nonCGSVectorM_one]
  case NumberDensityFromTemperature =>
    funext T s
    show inst.NumberDensityFromTemperature o (T * 1) s * 1 / (1 / (1 * 1 * 1)) = _
    simp only [mul_one, one_mul, div_one, lit_one, map'_id, nonCGSVectorM_one]

/-- **C28 (identity, constants)** for an opacity that is not wrapped, the reported constants are unchanged too -/
theorem C28_one_constants {O : Type} {inst : NeutrinoAPI ℝ O} {o : O} (H : ConstructedIn ℝ (fun x => 0 < x) O inst o 0) :
    SameResults (R := ℝ) inferInstance (NonCGSUnits.construct (R := ℝ) o 1 1 1 1) inst o := by
  refine (C28_one o).withRPC ?_
  generalize hm : (0 : ℕ) = m at H
  induction H with
  | gray o | tophat o | brt o | spiner o => exact ofUnits_one _
  | nonCGS => omega
  | vScaleFree _ ih | vBRTOpac _ ih | vGray _ ih | vTophat _ ih | vSpinerOpac _ ih | vNonCGSBRT _ ih
  | vNonCGSGray _ ih | vNonCGSTophat _ ih | vNonCGSSpiner _ ih => exact ih hm

/-- **C28 (composition)** wrapping a wrapped opacity multiplies the units, for every function (also the temperature
derivative of the spectrum) and, for the vectorised ones, every memory layout -/
theorem C28_mul {O : Type} [inst : NeutrinoAPI ℝ O] (o : O) {u v : Spec.Units} (hu : u.Pos) (hv : v.Pos) :
    SameValues (R := ℝ) inferInstance (NonCGSUnits.construct (NonCGSUnits.construct o u.time u.mass u.length u.temp)
        v.time v.mass v.length v.temp)
      inferInstance (NonCGSUnits.construct o (u.mul v).time (u.mul v).mass (u.mul v).length (u.mul v).temp) := by
  obtain ⟨t, m, l, θ⟩ := u
  obtain ⟨t', m', l', θ'⟩ := v
  obtain ⟨h1, h2, h3, h4⟩ := hu
  obtain ⟨k1, k2, k3, k4⟩ := hv
  simp only at h1 h2 h3 h4 k1 k2 k3 k4
  simp only [Spec.Units.mul]
  have eR : ∀ x : ℝ, x * (m' / (l' * l' * l')) * (m / (l * l * l)) = x * (m * m' / ((l * l') * (l * l') * (l * l'))) := by
    intro x; rw [← rho_mul]; ring
  have eR' : ∀ x : ℝ, (m / (l * l * l)) * ((m' / (l' * l' * l')) * x) = m * m' / ((l * l') * (l * l') * (l * l')) * x := by
    intro x; rw [← rho_mul]; ring
  have eT : ∀ x : ℝ, x * θ' * θ = x * (θ * θ') := by intro x; ring
  have eT' : ∀ x : ℝ, θ * (θ' * x) = θ * θ' * x := by intro x; ring
  have eF : ∀ x : ℝ, x * (Arith.lit 1 / t') * (Arith.lit 1 / t) = x * (Arith.lit 1 / (t * t')) := by
    intro x; rw [← freq_mul, mul_assoc]
  have eE : l * t * t / m * (l' * t' * t' / m') = l * l' * (t * t') * (t * t') / (m * m') := by
    field_simp
  constructor
  case nlambda => rfl
  case AbsorptionCoefficientV =>
    funext rho T Ye s
    show nonCGSVectorM (nonCGSVectorM (inst.AbsorptionCoefficientV o (rho * (m' / (l' * l' * l')) * (m / (l * l * l))) (T * θ' * θ) Ye s)
      (Arith.lit 1 / t) t l) (Arith.lit 1 / t') t' l' = _
    rw [nonCGSVectorM_mul, freq_mul, eR, eT]; rfl
  case AbsorptionCoefficient =>
    funext rho T Ye s ν
    show ((inst.AbsorptionCoefficient o ((m / (l * l * l)) * ((m' / (l' * l' * l')) * rho)) (θ * (θ' * T)) Ye s
      (ν * (Arith.lit 1 / t') * (Arith.lit 1 / t))).map' (fun x => x * l)).map' (fun x => x * l') = _
    rw [eR', eT', eF, map'_map']
    exact map'_congr _ fun x => mul_assoc _ _ _
  case AngleAveragedAbsorptionCoefficientV =>
    funext rho T Ye s
    show nonCGSVectorM (nonCGSVectorM (inst.AngleAveragedAbsorptionCoefficientV o (rho * (m' / (l' * l' * l')) * (m / (l * l * l))) (T * θ' * θ) Ye s)
      (Arith.lit 1 / t) t l) (Arith.lit 1 / t') t' l' = _
    rw [nonCGSVectorM_mul, freq_mul, eR, eT]; rfl
  case AngleAveragedAbsorptionCoefficient =>
    funext rho T Ye s ν
    show ((inst.AngleAveragedAbsorptionCoefficient o (rho * (m' / (l' * l' * l')) * (m / (l * l * l))) (T * θ' * θ) Ye s
      (ν * (Arith.lit 1 / t') * (Arith.lit 1 / t))).map' (fun x => x * l)).map' (fun x => x * l') = _
    rw [eR, eT, eF, map'_map']
    exact map'_congr _ fun x => mul_assoc _ _ _
  case EmissivityPerNuOmegaV =>
    funext rho T Ye s
    show nonCGSVectorM (nonCGSVectorM (inst.EmissivityPerNuOmegaV o (rho * (m' / (l' * l' * l')) * (m / (l * l * l))) (T * θ' * θ) Ye s)
      (Arith.lit 1 / t) t (l * t * t / m)) (Arith.lit 1 / t') t' (l' * t' * t' / m') = _
    rw [nonCGSVectorM_mul, freq_mul, eR, eT, eE]; rfl
  case EmissivityPerNuOmega =>
    funext rho T Ye s ν
    show ((inst.EmissivityPerNuOmega o (rho * (m' / (l' * l' * l')) * (m / (l * l * l))) (T * θ' * θ) Ye s
      (ν * (Arith.lit 1 / t') * (Arith.lit 1 / t))).map' (fun x => x * (l * t * t / m))).map' (fun x => x * (l' * t' * t' / m')) = _
    rw [eR, eT, eF, map'_map']
    exact map'_congr _ fun x => by rw [mul_assoc, eE]; rfl
  case EmissivityPerNuV =>
    funext rho T Ye s
    show nonCGSVectorM (nonCGSVectorM (inst.EmissivityPerNuV o (rho * (m' / (l' * l' * l')) * (m / (l * l * l))) (T * θ' * θ) Ye s)
      (Arith.lit 1 / t) t (l * t * t / m)) (Arith.lit 1 / t') t' (l' * t' * t' / m') = _
    rw [nonCGSVectorM_mul, freq_mul, eR, eT, eE]; rfl
  case EmissivityPerNu =>
    funext rho T Ye s ν
    show ((inst.EmissivityPerNu o (rho * (m' / (l' * l' * l')) * (m / (l * l * l))) (T * θ' * θ) Ye s
      (ν * (Arith.lit 1 / t') * (Arith.lit 1 / t))).map' (fun x => x * (l * t * t / m))).map' (fun x => x * (l' * t' * t' / m')) = _
    rw [eR, eT, eF, map'_map']
    exact map'_congr _ fun x => by rw [mul_assoc, eE]; rfl
  case Emissivity =>
    funext rho T Ye s
    show ((inst.Emissivity o (rho * (m' / (l' * l' * l')) * (m / (l * l * l))) (T * θ' * θ) Ye s).map' _).map' _ = _
    rw [eR, eT, map'_map']
    refine map'_congr _ fun x => ?_
    show x * (l * t * t / m) * t * (l' * t' * t' / m') * t' = x * (l * l' * (t * t') * (t * t') / (m * m')) * (t * t')
    rw [← eE]; ring
  case NumberEmissivity =>
    funext rho T Ye s
    show ((inst.NumberEmissivity o (rho * (m' / (l' * l' * l')) * (m / (l * l * l))) (T * θ' * θ) Ye s).map' _).map' _ = _
    rw [eR, eT, map'_map']
    refine map'_congr _ fun x => ?_
    show x * (l * l * l * t) * (l' * l' * l' * t') = x * ((l * l') * (l * l') * (l * l') * (t * t'))
    ring
  case ThermalDistributionOfTNu =>
    funext T s ν
    show inst.ThermalDistributionOfTNu o (T * θ' * θ) s (ν * (Arith.lit 1 / t') * (Arith.lit 1 / t)) * (t * t / m) *
      (t' * t' / m') = inst.ThermalDistributionOfTNu o (T * (θ * θ')) s (ν * (Arith.lit 1 / (t * t'))) *
      ((t * t') * (t * t') / (m * m'))
    rw [eT, eF]; field_simp
  case DThermalDistributionOfTNuDT =>
    funext T s ν
    show inst.DThermalDistributionOfTNuDT o T s ν * (t * t / m) * θ * (t' * t' / m') * θ' =
      inst.DThermalDistributionOfTNuDT o T s ν * ((t * t') * (t * t') / (m * m')) * (θ * θ')
    field_simp
  case ThermalDistributionOfT =>
    funext T s
    show inst.ThermalDistributionOfT o (T * θ' * θ) s * (t * t * l / m) * t / l * (t' * t' * l' / m') * t' / l' =
      inst.ThermalDistributionOfT o (T * (θ * θ')) s * ((t * t') * (t * t') * (l * l') / (m * m')) * (t * t') / (l * l')
    rw [eT]; field_simp
  case ThermalNumberDistributionOfT =>
    funext T s
    show inst.ThermalNumberDistributionOfT o (T * θ' * θ) s * m / (m / (l * l * l)) * t / l * m' /
      (m' / (l' * l' * l')) * t' / l' = inst.ThermalNumberDistributionOfT o (T * (θ * θ')) s * (m * m') /
      (m * m' / ((l * l') * (l * l') * (l * l'))) * (t * t') / (l * l')
    rw [eT]; field_simp
  case EnergyDensityFromTemperature =>
    funext T s
    show inst.EnergyDensityFromTemperature o (T * θ' * θ) s * (t * t * l / m) * (t' * t' * l' / m') =
      inst.EnergyDensityFromTemperature o (T * (θ * θ')) s * ((t * t') * (t * t') * (l * l') / (m * m'))
    rw [eT]; field_simp
  case TemperatureFromEnergyDensity =>
    funext er s
    show inst.TemperatureFromEnergyDensity o (er / (t' * t' * l' / m') / (t * t * l / m)) s / θ / θ' =
      inst.TemperatureFromEnergyDensity o (er / ((t * t') * (t * t') * (l * l') / (m * m'))) s / (θ * θ')
    rw [show er / (t' * t' * l' / m') / (t * t * l / m) = er / ((t * t') * (t * t') * (l * l') / (m * m')) by field_simp,
      div_div]
  case NumberDensityFromTemperature =>
    funext T s
    show inst.NumberDensityFromTemperature o (T * θ' * θ) s * m / (m / (l * l * l)) * m' / (m' / (l' * l' * l')) =
      inst.NumberDensityFromTemperature o (T * (θ * θ')) s * (m * m') / (m * m' / ((l * l') * (l * l') * (l * l')))
    rw [eT]; field_simp

/-- **C28 is false for the reported constants**: a doubly wrapped opacity reports the constants in the outer units
only. -/
theorem C28_constants_false (g : GrayOpacity ℝ) (h : 0 < g.pc.me) :
    NeutrinoAPI.GetRuntimePhysicalConstants (R := ℝ)
      (NonCGSUnits.construct (R := ℝ) (NonCGSUnits.construct (R := ℝ) g 1 2 1 1) 1 2 1 1) ≠
    NeutrinoAPI.GetRuntimePhysicalConstants (R := ℝ) (NonCGSUnits.construct (R := ℝ) g 1 (2 * 2) 1 1) := by
  intro e
  have e' := congrArg (fun r : RPC ℝ => r.pc.me) e
  have e2 : g.pc.me / 2 = g.pc.me / (2 * 2) := e'
  linarith

/-- **C28** scattering: identity and composition -/
theorem C28_scattering {O : Type} [inst : NeutrinoSAPI ℝ O] (o : O) (u v : Spec.Units) :
    SameResultsS (R := ℝ) inferInstance (NonCGSUnitsS.construct (R := ℝ) o 1 1 1 1) inst o ∧
    SameResultsS (R := ℝ) inferInstance (NonCGSUnitsS.construct (NonCGSUnitsS.construct o u.time u.mass u.length u.temp)
        v.time v.mass v.length v.temp)
      inferInstance (NonCGSUnitsS.construct o (u.mul v).time (u.mul v).mass (u.mul v).length (u.mul v).temp) := by
  obtain ⟨t, m, l, θ⟩ := u
  obtain ⟨t', m', l', θ'⟩ := v
  have eR' : ∀ x : ℝ, (m / (l * l * l)) * ((m' / (l' * l' * l')) * x) = m * m' / ((l * l') * (l * l') * (l * l')) * x := by
    intro x; rw [← rho_mul]; ring
  have eT' : ∀ x : ℝ, θ * (θ' * x) = θ * θ' * x := by intro x; ring
  have eF : ∀ x : ℝ, x * (Arith.lit 1 / t') * (Arith.lit 1 / t) = x * (Arith.lit 1 / (t * t')) := by
    intro x; rw [← freq_mul, mul_assoc]
  refine ⟨⟨rfl, ?_, ?_, ?_⟩, ⟨rfl, ?_, ?_, ?_⟩⟩
  · funext rho T Ye s ν
    show inst.TotalCrossSection o (1 / (1 * 1 * 1) * rho) (1 * T) Ye s (ν * (Arith.lit 1 / 1)) / (1 * 1) = _
    simp only [mul_one, one_mul, div_one, lit_one]
  · funext rho T Ye s ν μ
    show inst.DifferentialCrossSection o (1 / (1 * 1 * 1) * rho) (1 * T) Ye s (ν * (Arith.lit 1 / 1)) μ / (1 * 1) = _
    simp only [mul_one, one_mul, div_one, lit_one]
  · funext rho T Ye s ν
    show inst.TotalScatteringCoefficient o (1 / (1 * 1 * 1) * rho) (1 * T) Ye s (ν * (Arith.lit 1 / 1)) * 1 = _
    simp only [mul_one, one_mul, div_one, lit_one]
  · funext rho T Ye s ν
    show inst.TotalCrossSection o ((m / (l * l * l)) * ((m' / (l' * l' * l')) * rho)) (θ * (θ' * T)) Ye s
      (ν * (Arith.lit 1 / t') * (Arith.lit 1 / t)) / (l * l) / (l' * l') = _
    rw [eR', eT', eF, div_div, show l * l * (l' * l') = l * l' * (l * l') by ring]; rfl
  · funext rho T Ye s ν μ
    show inst.DifferentialCrossSection o ((m / (l * l * l)) * ((m' / (l' * l' * l')) * rho)) (θ * (θ' * T)) Ye s
      (ν * (Arith.lit 1 / t') * (Arith.lit 1 / t)) μ / (l * l) / (l' * l') = _
    rw [eR', eT', eF, div_div, show l * l * (l' * l') = l * l' * (l * l') by ring]; rfl
  · funext rho T Ye s ν
    show inst.TotalScatteringCoefficient o ((m / (l * l * l)) * ((m' / (l' * l' * l')) * rho)) (θ * (θ' * T)) Ye s
      (ν * (Arith.lit 1 / t') * (Arith.lit 1 / t)) * l * l' = _
    rw [eR', eT', eF, mul_assoc]; rfl

/-- **C28** mean opacities (the reported constants are in CGS times the outer units) -/
theorem C28_mean {O : Type} [inst : MeanNeutrinoAPI ℝ O] (o : O) (u v : Spec.Units) :
    SameValuesMean (R := ℝ) inferInstance (MeanNonCGSUnits.construct (R := ℝ) o 1 1 1 1) inst o ∧
    SameValuesMean (R := ℝ) inferInstance (MeanNonCGSUnits.construct (MeanNonCGSUnits.construct o u.time u.mass u.length u.temp)
        v.time v.mass v.length v.temp)
      inferInstance (MeanNonCGSUnits.construct o (u.mul v).time (u.mul v).mass (u.mul v).length (u.mul v).temp) := by
  obtain ⟨t, m, l, θ⟩ := u
  obtain ⟨t', m', l', θ'⟩ := v
  have eR' : ∀ x : ℝ, (m / (l * l * l)) * ((m' / (l' * l' * l')) * x) = m * m' / ((l * l') * (l * l') * (l * l')) * x := by
    intro x; rw [← rho_mul]; ring
  have eT' : ∀ x : ℝ, θ * (θ' * x) = θ * θ' * x := by intro x; ring
  refine ⟨⟨?_, ?_, rfl⟩, ⟨?_, ?_, rfl⟩⟩
  · funext rho T Ye s
    show (inst.PlanckMeanAbsorptionCoefficient o (1 / (1 * 1 * 1) * rho) (1 * T) Ye s).map' (fun x => x * 1) = _
    simp only [mul_one, one_mul, div_one, map'_id]
  · funext rho T Ye s
    show (inst.RosselandMeanAbsorptionCoefficient o (1 / (1 * 1 * 1) * rho) (1 * T) Ye s).map' (fun x => x * 1) = _
    simp only [mul_one, one_mul, div_one, map'_id]
  · funext rho T Ye s
    show ((inst.PlanckMeanAbsorptionCoefficient o ((m / (l * l * l)) * ((m' / (l' * l' * l')) * rho)) (θ * (θ' * T)) Ye s).map'
      (fun x => x * l)).map' (fun x => x * l') = _
    rw [eR', eT', map'_map']; exact map'_congr _ fun x => mul_assoc _ _ _
  · funext rho T Ye s
    show ((inst.RosselandMeanAbsorptionCoefficient o ((m / (l * l * l)) * ((m' / (l' * l' * l')) * rho)) (θ * (θ' * T)) Ye s).map'
      (fun x => x * l)).map' (fun x => x * l') = _
    rw [eR', eT', map'_map']; exact map'_congr _ fun x => mul_assoc _ _ _

/-- **C28** mean scattering opacities -/
theorem C28_mean_scattering {O : Type} [inst : MeanNeutrinoSAPI ℝ O] (o : O) (u v : Spec.Units) :
    SameResultsMeanS (R := ℝ) inferInstance (MeanNonCGSUnitsS.construct (R := ℝ) o 1 1 1 1) inst o ∧
    SameResultsMeanS (R := ℝ) inferInstance (MeanNonCGSUnitsS.construct (MeanNonCGSUnitsS.construct o u.time u.mass u.length u.temp)
        v.time v.mass v.length v.temp)
      inferInstance (MeanNonCGSUnitsS.construct o (u.mul v).time (u.mul v).mass (u.mul v).length (u.mul v).temp) := by
  obtain ⟨t, m, l, θ⟩ := u
  obtain ⟨t', m', l', θ'⟩ := v
  have eR' : ∀ x : ℝ, (m / (l * l * l)) * ((m' / (l' * l' * l')) * x) = m * m' / ((l * l') * (l * l') * (l * l')) * x := by
    intro x; rw [← rho_mul]; ring
  have eT' : ∀ x : ℝ, θ * (θ' * x) = θ * θ' * x := by intro x; ring
  refine ⟨⟨?_, ?_⟩, ⟨?_, ?_⟩⟩
  · funext rho T Ye s
    show (inst.PlanckMeanTotalScatteringCoefficient o (1 / (1 * 1 * 1) * rho) (1 * T) Ye s).map' (fun x => x * 1) = _
    simp only [mul_one, one_mul, div_one, map'_id]
  · funext rho T Ye s
    show (inst.RosselandMeanTotalScatteringCoefficient o (1 / (1 * 1 * 1) * rho) (1 * T) Ye s).map' (fun x => x * 1) = _
    simp only [mul_one, one_mul, div_one, map'_id]
  · funext rho T Ye s
    show ((inst.PlanckMeanTotalScatteringCoefficient o ((m / (l * l * l)) * ((m' / (l' * l' * l')) * rho)) (θ * (θ' * T)) Ye s).map'
      (fun x => x * l)).map' (fun x => x * l') = _
    rw [eR', eT', map'_map']; exact map'_congr _ fun x => mul_assoc _ _ _
  · funext rho T Ye s
    show ((inst.RosselandMeanTotalScatteringCoefficient o ((m / (l * l * l)) * ((m' / (l' * l' * l')) * rho)) (θ * (θ' * T)) Ye s).map'
      (fun x => x * l)).map' (fun x => x * l') = _
    rw [eR', eT', map'_map']; exact map'_congr _ fun x => mul_assoc _ _ _

end Neutrinos
end Opac
