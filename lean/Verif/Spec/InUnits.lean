import Verif.Spec.Calls
import Verif.Model.MeanPhoton
import Verif.Model.MeanNeutrino

/-!
# An opacity seen in other units

`w` is the opacity `o` seen in the unit system `u`: every function of `w`, called with arguments in code units,
returns the CGS result of `o` at the same physical arguments, expressed in code units.
-/

namespace Opac
open Spec

/-- product of unit systems: `u` measured in units `v` -/
def Spec.Units.mul (u v : Units) : Units := ⟨u.time * v.time, u.mass * v.mass, u.length * v.length, u.temp * v.temp⟩
/-- the CGS units themselves -/
def Spec.Units.cgs : Units := ⟨1, 1, 1, 1⟩

/-- dimension of the result of each vectorised function -/
def VFn.dim : VFn → Dim
  | .AbsorptionCoefficient => .inverseLength
  | .AngleAveragedAbsorptionCoefficient => .inverseLength
  | .EmissivityPerNuOmega => .emissivityPerNu
  | .EmissivityPerNu => .emissivityPerNu

namespace Photons

/-- every function except the temperature derivative of the spectrum and the reported constants -/
structure InUnitsMain (u : Units) {O O' : Type} (i : PhotonAPI ℝ O) (o : O) (i' : PhotonAPI ℝ O') (w : O') : Prop where
  nlambda : i'.nlambda w = i.nlambda o
  scalar : ∀ fn rho T ν, scalarFn i' w fn rho T ν =
    u.toCode fn.dim (scalarFn i o fn (u.toCGS .density rho) (u.toCGS .temperature T) (u.toCGS .frequency ν))
  vector : ∀ fn rho T, Elementwise
    (fun ν => u.toCode fn.dim (scalarFn i o fn (u.toCGS .density rho) (u.toCGS .temperature T) (u.toCGS .frequency ν)))
    (vectorFn i' w fn rho T)
  Emissivity : ∀ rho T, i'.Emissivity w rho T =
    (i.Emissivity o (u.toCGS .density rho) (u.toCGS .temperature T)).map' (u.toCode .emissivity)
  NumberEmissivity : ∀ rho T, i'.NumberEmissivity w rho T =
    (i.NumberEmissivity o (u.toCGS .density rho) (u.toCGS .temperature T)).map' (u.toCode .numberEmissivity)
  ThermalDistributionOfTNu : ∀ T ν, i'.ThermalDistributionOfTNu w T ν =
    u.toCode .intensityPerNu (i.ThermalDistributionOfTNu o (u.toCGS .temperature T) (u.toCGS .frequency ν))
  ThermalDistributionOfT : ∀ T, i'.ThermalDistributionOfT w T =
    u.toCode .intensity (i.ThermalDistributionOfT o (u.toCGS .temperature T))
  ThermalNumberDistributionOfT : ∀ T, i'.ThermalNumberDistributionOfT w T =
    u.toCode .numberFlux (i.ThermalNumberDistributionOfT o (u.toCGS .temperature T))
  EnergyDensityFromTemperature : ∀ T, i'.EnergyDensityFromTemperature w T =
    u.toCode .energyDensity (i.EnergyDensityFromTemperature o (u.toCGS .temperature T))
  TemperatureFromEnergyDensity : ∀ er, i'.TemperatureFromEnergyDensity w er =
    u.toCode .temperature (i.TemperatureFromEnergyDensity o (u.toCGS .energyDensity er))
  NumberDensityFromTemperature : ∀ T, i'.NumberDensityFromTemperature w T =
    u.toCode .numberDensity (i.NumberDensityFromTemperature o (u.toCGS .temperature T))

/-- every function (the reported constants are property C29) -/
structure InUnits (u : Units) {O O' : Type} (i : PhotonAPI ℝ O) (o : O) (i' : PhotonAPI ℝ O') (w : O') : Prop where
  main : InUnitsMain u i o i' w
  DThermalDistributionOfTNuDT : ∀ T ν, i'.DThermalDistributionOfTNuDT w T ν =
    u.toCode .intensityPerNuTemp (i.DThermalDistributionOfTNuDT o (u.toCGS .temperature T) (u.toCGS .frequency ν))

/-- scattering opacities -/
structure InUnitsS (u : Units) {O O' : Type} (i : PhotonSAPI ℝ O) (o : O) (i' : PhotonSAPI ℝ O') (w : O') : Prop where
  nlambda : i'.nlambda w = i.nlambda o
  TotalCrossSection : ∀ rho T ν, i'.TotalCrossSection w rho T ν = u.toCode .area
    (i.TotalCrossSection o (u.toCGS .density rho) (u.toCGS .temperature T) (u.toCGS .frequency ν))
  DifferentialCrossSection : ∀ rho T ν μ, i'.DifferentialCrossSection w rho T ν μ = u.toCode .area
    (i.DifferentialCrossSection o (u.toCGS .density rho) (u.toCGS .temperature T) (u.toCGS .frequency ν) μ)
  TotalScatteringCoefficient : ∀ rho T ν, i'.TotalScatteringCoefficient w rho T ν = u.toCode .inverseLength
    (i.TotalScatteringCoefficient o (u.toCGS .density rho) (u.toCGS .temperature T) (u.toCGS .frequency ν))

/-- mean opacities: coefficients and group lookups (the reported constants are separate) -/
structure InUnitsMean (u : Units) {O O' : Type} (i : MeanPhotonAPI ℝ O) (o : O) (i' : MeanPhotonAPI ℝ O') (w : O') :
    Prop where
  ngroups : i'.ngroups w = i.ngroups o
  HasGroupBounds : i'.HasGroupBounds w = i.HasGroupBounds o
  AbsorptionCoefficient : ∀ rho T g gmode, i'.AbsorptionCoefficient w rho T g gmode =
    (i.AbsorptionCoefficient o (u.toCGS .density rho) (u.toCGS .temperature T) g gmode).map' (u.toCode .inverseLength)
  PlanckGroupAbsorptionCoefficient : ∀ rho T g, i'.PlanckGroupAbsorptionCoefficient w rho T g =
    (i.PlanckGroupAbsorptionCoefficient o (u.toCGS .density rho) (u.toCGS .temperature T) g).map'
      (u.toCode .inverseLength)
  RosselandGroupAbsorptionCoefficient : ∀ rho T g, i'.RosselandGroupAbsorptionCoefficient w rho T g =
    (i.RosselandGroupAbsorptionCoefficient o (u.toCGS .density rho) (u.toCGS .temperature T) g).map'
      (u.toCode .inverseLength)
  GroupOfNu : ∀ ν, i'.GroupOfNu w ν = i.GroupOfNu o (u.toCGS .frequency ν)
  AbsorptionCoefficientFromNu : ∀ rho T ν gmode, i'.AbsorptionCoefficientFromNu w rho T ν gmode =
    (i.AbsorptionCoefficientFromNu o (u.toCGS .density rho) (u.toCGS .temperature T) (u.toCGS .frequency ν) gmode).map'
      (u.toCode .inverseLength)
  PlanckGroupAbsorptionCoefficientFromNu : ∀ rho T ν, i'.PlanckGroupAbsorptionCoefficientFromNu w rho T ν =
    (i.PlanckGroupAbsorptionCoefficientFromNu o (u.toCGS .density rho) (u.toCGS .temperature T)
      (u.toCGS .frequency ν)).map' (u.toCode .inverseLength)
  RosselandGroupAbsorptionCoefficientFromNu : ∀ rho T ν, i'.RosselandGroupAbsorptionCoefficientFromNu w rho T ν =
    (i.RosselandGroupAbsorptionCoefficientFromNu o (u.toCGS .density rho) (u.toCGS .temperature T)
      (u.toCGS .frequency ν)).map' (u.toCode .inverseLength)

/-- mean scattering opacities -/
structure InUnitsMeanS (u : Units) {O O' : Type} (i : MeanPhotonSTotalAPI ℝ O) (o : O) (i' : MeanPhotonSTotalAPI ℝ O')
    (w : O') : Prop where
  nlambda : i'.nlambda w = i.nlambda o
  PlanckMeanTotalScatteringCoefficient : ∀ rho T, i'.PlanckMeanTotalScatteringCoefficient w rho T =
    u.toCode .inverseLength
      (i.PlanckMeanTotalScatteringCoefficient o (u.toCGS .density rho) (u.toCGS .temperature T))
  RosselandMeanTotalScatteringCoefficient : ∀ rho T, i'.RosselandMeanTotalScatteringCoefficient w rho T =
    u.toCode .inverseLength
      (i.RosselandMeanTotalScatteringCoefficient o (u.toCGS .density rho) (u.toCGS .temperature T))

end Photons

namespace Neutrinos

/-- every function except the temperature derivative of the spectrum and the reported constants -/
structure InUnitsMain (u : Units) {O O' : Type} (i : NeutrinoAPI ℝ O) (o : O) (i' : NeutrinoAPI ℝ O') (w : O') :
    Prop where
  nlambda : i'.nlambda w = i.nlambda o
  scalar : ∀ fn rho T Ye s ν, scalarFn i' w fn rho T Ye s ν =
    (scalarFn i o fn (u.toCGS .density rho) (u.toCGS .temperature T) Ye s (u.toCGS .frequency ν)).map' (u.toCode fn.dim)
  vector : ∀ fn rho T Ye s, ElementwiseM
    (fun ν => (scalarFn i o fn (u.toCGS .density rho) (u.toCGS .temperature T) Ye s
      (u.toCGS .frequency ν)).map' (u.toCode fn.dim))
    (vectorFn i' w fn rho T Ye s)
  Emissivity : ∀ rho T Ye s, i'.Emissivity w rho T Ye s =
    (i.Emissivity o (u.toCGS .density rho) (u.toCGS .temperature T) Ye s).map' (u.toCode .emissivity)
  NumberEmissivity : ∀ rho T Ye s, i'.NumberEmissivity w rho T Ye s =
    (i.NumberEmissivity o (u.toCGS .density rho) (u.toCGS .temperature T) Ye s).map' (u.toCode .numberEmissivity)
  ThermalDistributionOfTNu : ∀ T s ν, i'.ThermalDistributionOfTNu w T s ν =
    u.toCode .intensityPerNu (i.ThermalDistributionOfTNu o (u.toCGS .temperature T) s (u.toCGS .frequency ν))
  ThermalDistributionOfT : ∀ T s, i'.ThermalDistributionOfT w T s =
    u.toCode .intensity (i.ThermalDistributionOfT o (u.toCGS .temperature T) s)
  ThermalNumberDistributionOfT : ∀ T s, i'.ThermalNumberDistributionOfT w T s =
    u.toCode .numberFlux (i.ThermalNumberDistributionOfT o (u.toCGS .temperature T) s)
  EnergyDensityFromTemperature : ∀ T s, i'.EnergyDensityFromTemperature w T s =
    u.toCode .energyDensity (i.EnergyDensityFromTemperature o (u.toCGS .temperature T) s)
  TemperatureFromEnergyDensity : ∀ er s, i'.TemperatureFromEnergyDensity w er s =
    u.toCode .temperature (i.TemperatureFromEnergyDensity o (u.toCGS .energyDensity er) s)
  NumberDensityFromTemperature : ∀ T s, i'.NumberDensityFromTemperature w T s =
    u.toCode .numberDensity (i.NumberDensityFromTemperature o (u.toCGS .temperature T) s)

/-- every function (the reported constants are property C29) -/
structure InUnits (u : Units) {O O' : Type} (i : NeutrinoAPI ℝ O) (o : O) (i' : NeutrinoAPI ℝ O') (w : O') : Prop where
  main : InUnitsMain u i o i' w
  DThermalDistributionOfTNuDT : ∀ T s ν, i'.DThermalDistributionOfTNuDT w T s ν =
    u.toCode .intensityPerNuTemp (i.DThermalDistributionOfTNuDT o (u.toCGS .temperature T) s (u.toCGS .frequency ν))

/-- scattering opacities -/
structure InUnitsS (u : Units) {O O' : Type} (i : NeutrinoSAPI ℝ O) (o : O) (i' : NeutrinoSAPI ℝ O') (w : O') :
    Prop where
  nlambda : i'.nlambda w = i.nlambda o
  TotalCrossSection : ∀ rho T Ye s ν, i'.TotalCrossSection w rho T Ye s ν = u.toCode .area
    (i.TotalCrossSection o (u.toCGS .density rho) (u.toCGS .temperature T) Ye s (u.toCGS .frequency ν))
  DifferentialCrossSection : ∀ rho T Ye s ν μ, i'.DifferentialCrossSection w rho T Ye s ν μ = u.toCode .area
    (i.DifferentialCrossSection o (u.toCGS .density rho) (u.toCGS .temperature T) Ye s (u.toCGS .frequency ν) μ)
  TotalScatteringCoefficient : ∀ rho T Ye s ν, i'.TotalScatteringCoefficient w rho T Ye s ν = u.toCode .inverseLength
    (i.TotalScatteringCoefficient o (u.toCGS .density rho) (u.toCGS .temperature T) Ye s (u.toCGS .frequency ν))

/-- mean opacities -/
structure InUnitsMean (u : Units) {O O' : Type} (i : MeanNeutrinoAPI ℝ O) (o : O) (i' : MeanNeutrinoAPI ℝ O') (w : O') :
    Prop where
  PlanckMeanAbsorptionCoefficient : ∀ rho T Ye s, i'.PlanckMeanAbsorptionCoefficient w rho T Ye s =
    (i.PlanckMeanAbsorptionCoefficient o (u.toCGS .density rho) (u.toCGS .temperature T) Ye s).map'
      (u.toCode .inverseLength)
  RosselandMeanAbsorptionCoefficient : ∀ rho T Ye s, i'.RosselandMeanAbsorptionCoefficient w rho T Ye s =
    (i.RosselandMeanAbsorptionCoefficient o (u.toCGS .density rho) (u.toCGS .temperature T) Ye s).map'
      (u.toCode .inverseLength)

/-- mean scattering opacities -/
structure InUnitsMeanS (u : Units) {O O' : Type} (i : MeanNeutrinoSAPI ℝ O) (o : O) (i' : MeanNeutrinoSAPI ℝ O')
    (w : O') : Prop where
  PlanckMeanTotalScatteringCoefficient : ∀ rho T Ye s, i'.PlanckMeanTotalScatteringCoefficient w rho T Ye s =
    (i.PlanckMeanTotalScatteringCoefficient o (u.toCGS .density rho) (u.toCGS .temperature T) Ye s).map'
      (u.toCode .inverseLength)
  RosselandMeanTotalScatteringCoefficient : ∀ rho T Ye s, i'.RosselandMeanTotalScatteringCoefficient w rho T Ye s =
    (i.RosselandMeanTotalScatteringCoefficient o (u.toCGS .density rho) (u.toCGS .temperature T) Ye s).map'
      (u.toCode .inverseLength)

end Neutrinos
end Opac
