import Verif.Model.Photons
import Verif.Model.Neutrinos
import Verif.Model.PhotonsS
import Verif.Model.NeutrinosS
import Verif.Model.MeanPhoton
import Verif.Model.MeanNeutrino

/-! # Two objects of the API answer every call alike -/

namespace Opac

namespace Photons
/-- two photon opacities return the same result for every function of the API and every argument (and leave the
same memory behind, for the vectorised ones) -/
structure SameResults {R O O' : Type} (i : PhotonAPI R O) (o : O) (i' : PhotonAPI R O') (o' : O') : Prop where
  nlambda : i.nlambda o = i'.nlambda o'
  AbsorptionCoefficient : i.AbsorptionCoefficient o = i'.AbsorptionCoefficient o'
  AbsorptionCoefficientV : i.AbsorptionCoefficientV o = i'.AbsorptionCoefficientV o'
  AngleAveragedAbsorptionCoefficient : i.AngleAveragedAbsorptionCoefficient o = i'.AngleAveragedAbsorptionCoefficient o'
  AngleAveragedAbsorptionCoefficientV : i.AngleAveragedAbsorptionCoefficientV o = i'.AngleAveragedAbsorptionCoefficientV o'
  EmissivityPerNuOmega : i.EmissivityPerNuOmega o = i'.EmissivityPerNuOmega o'
  EmissivityPerNuOmegaV : i.EmissivityPerNuOmegaV o = i'.EmissivityPerNuOmegaV o'
  EmissivityPerNu : i.EmissivityPerNu o = i'.EmissivityPerNu o'
  EmissivityPerNuV : i.EmissivityPerNuV o = i'.EmissivityPerNuV o'
  Emissivity : i.Emissivity o = i'.Emissivity o'
  NumberEmissivity : i.NumberEmissivity o = i'.NumberEmissivity o'
  ThermalDistributionOfTNu : i.ThermalDistributionOfTNu o = i'.ThermalDistributionOfTNu o'
  DThermalDistributionOfTNuDT : i.DThermalDistributionOfTNuDT o = i'.DThermalDistributionOfTNuDT o'
  ThermalDistributionOfT : i.ThermalDistributionOfT o = i'.ThermalDistributionOfT o'
  ThermalNumberDistributionOfT : i.ThermalNumberDistributionOfT o = i'.ThermalNumberDistributionOfT o'
  EnergyDensityFromTemperature : i.EnergyDensityFromTemperature o = i'.EnergyDensityFromTemperature o'
  TemperatureFromEnergyDensity : i.TemperatureFromEnergyDensity o = i'.TemperatureFromEnergyDensity o'
  NumberDensityFromTemperature : i.NumberDensityFromTemperature o = i'.NumberDensityFromTemperature o'
  GetRuntimePhysicalConstants : i.GetRuntimePhysicalConstants o = i'.GetRuntimePhysicalConstants o'

/-- as `SameResults`, except for the reported physical constants -/
structure SameValues {R O O' : Type} (i : PhotonAPI R O) (o : O) (i' : PhotonAPI R O') (o' : O') : Prop where
  nlambda : i.nlambda o = i'.nlambda o'
  AbsorptionCoefficient : i.AbsorptionCoefficient o = i'.AbsorptionCoefficient o'
  AbsorptionCoefficientV : i.AbsorptionCoefficientV o = i'.AbsorptionCoefficientV o'
  AngleAveragedAbsorptionCoefficient : i.AngleAveragedAbsorptionCoefficient o = i'.AngleAveragedAbsorptionCoefficient o'
  AngleAveragedAbsorptionCoefficientV : i.AngleAveragedAbsorptionCoefficientV o = i'.AngleAveragedAbsorptionCoefficientV o'
  EmissivityPerNuOmega : i.EmissivityPerNuOmega o = i'.EmissivityPerNuOmega o'
  EmissivityPerNuOmegaV : i.EmissivityPerNuOmegaV o = i'.EmissivityPerNuOmegaV o'
  EmissivityPerNu : i.EmissivityPerNu o = i'.EmissivityPerNu o'
  EmissivityPerNuV : i.EmissivityPerNuV o = i'.EmissivityPerNuV o'
  Emissivity : i.Emissivity o = i'.Emissivity o'
  NumberEmissivity : i.NumberEmissivity o = i'.NumberEmissivity o'
  ThermalDistributionOfTNu : i.ThermalDistributionOfTNu o = i'.ThermalDistributionOfTNu o'
  DThermalDistributionOfTNuDT : i.DThermalDistributionOfTNuDT o = i'.DThermalDistributionOfTNuDT o'
  ThermalDistributionOfT : i.ThermalDistributionOfT o = i'.ThermalDistributionOfT o'
  ThermalNumberDistributionOfT : i.ThermalNumberDistributionOfT o = i'.ThermalNumberDistributionOfT o'
  EnergyDensityFromTemperature : i.EnergyDensityFromTemperature o = i'.EnergyDensityFromTemperature o'
  TemperatureFromEnergyDensity : i.TemperatureFromEnergyDensity o = i'.TemperatureFromEnergyDensity o'
  NumberDensityFromTemperature : i.NumberDensityFromTemperature o = i'.NumberDensityFromTemperature o'

theorem SameValues.withRPC {R O O' : Type} {i : PhotonAPI R O} {o : O} {i' : PhotonAPI R O'} {o' : O'}
    (h : SameValues i o i' o') (h' : i.GetRuntimePhysicalConstants o = i'.GetRuntimePhysicalConstants o') :
    SameResults i o i' o' :=
  ⟨h.nlambda, h.AbsorptionCoefficient, h.AbsorptionCoefficientV, h.AngleAveragedAbsorptionCoefficient, h.AngleAveragedAbsorptionCoefficientV, h.EmissivityPerNuOmega, h.EmissivityPerNuOmegaV, h.EmissivityPerNu, h.EmissivityPerNuV, h.Emissivity, h.NumberEmissivity, h.ThermalDistributionOfTNu, h.DThermalDistributionOfTNuDT, h.ThermalDistributionOfT, h.ThermalNumberDistributionOfT, h.EnergyDensityFromTemperature, h.TemperatureFromEnergyDensity, h.NumberDensityFromTemperature, h'⟩

theorem SameResults.refl {R O : Type} (i : PhotonAPI R O) (o : O) : SameResults i o i o := by constructor <;> rfl

theorem SameResults.trans {R O₁ O₂ O₃ : Type} {i₁ : PhotonAPI R O₁} {o₁ : O₁} {i₂ : PhotonAPI R O₂} {o₂ : O₂}
    {i₃ : PhotonAPI R O₃} {o₃ : O₃} (h : SameResults i₁ o₁ i₂ o₂) (h' : SameResults i₂ o₂ i₃ o₃) : SameResults i₁ o₁ i₃ o₃ where
  nlambda := h.nlambda.trans h'.nlambda
  AbsorptionCoefficient := h.AbsorptionCoefficient.trans h'.AbsorptionCoefficient
  AbsorptionCoefficientV := h.AbsorptionCoefficientV.trans h'.AbsorptionCoefficientV
  AngleAveragedAbsorptionCoefficient := h.AngleAveragedAbsorptionCoefficient.trans h'.AngleAveragedAbsorptionCoefficient
  AngleAveragedAbsorptionCoefficientV := h.AngleAveragedAbsorptionCoefficientV.trans h'.AngleAveragedAbsorptionCoefficientV
  EmissivityPerNuOmega := h.EmissivityPerNuOmega.trans h'.EmissivityPerNuOmega
  EmissivityPerNuOmegaV := h.EmissivityPerNuOmegaV.trans h'.EmissivityPerNuOmegaV
  EmissivityPerNu := h.EmissivityPerNu.trans h'.EmissivityPerNu
  EmissivityPerNuV := h.EmissivityPerNuV.trans h'.EmissivityPerNuV
  Emissivity := h.Emissivity.trans h'.Emissivity
  NumberEmissivity := h.NumberEmissivity.trans h'.NumberEmissivity
  ThermalDistributionOfTNu := h.ThermalDistributionOfTNu.trans h'.ThermalDistributionOfTNu
  DThermalDistributionOfTNuDT := h.DThermalDistributionOfTNuDT.trans h'.DThermalDistributionOfTNuDT
  ThermalDistributionOfT := h.ThermalDistributionOfT.trans h'.ThermalDistributionOfT
  ThermalNumberDistributionOfT := h.ThermalNumberDistributionOfT.trans h'.ThermalNumberDistributionOfT
  EnergyDensityFromTemperature := h.EnergyDensityFromTemperature.trans h'.EnergyDensityFromTemperature
  TemperatureFromEnergyDensity := h.TemperatureFromEnergyDensity.trans h'.TemperatureFromEnergyDensity
  NumberDensityFromTemperature := h.NumberDensityFromTemperature.trans h'.NumberDensityFromTemperature
  GetRuntimePhysicalConstants := h.GetRuntimePhysicalConstants.trans h'.GetRuntimePhysicalConstants

/-- two photon scattering opacities return the same result for every function and argument -/
structure SameResultsS {R O O' : Type} (i : PhotonSAPI R O) (o : O) (i' : PhotonSAPI R O') (o' : O') : Prop where
  nlambda : i.nlambda o = i'.nlambda o'
  TotalCrossSection : i.TotalCrossSection o = i'.TotalCrossSection o'
  DifferentialCrossSection : i.DifferentialCrossSection o = i'.DifferentialCrossSection o'
  TotalScatteringCoefficient : i.TotalScatteringCoefficient o = i'.TotalScatteringCoefficient o'

theorem SameResultsS.refl {R O : Type} (i : PhotonSAPI R O) (o : O) : SameResultsS i o i o := by constructor <;> rfl

theorem SameResultsS.trans {R O₁ O₂ O₃ : Type} {i₁ : PhotonSAPI R O₁} {o₁ : O₁} {i₂ : PhotonSAPI R O₂} {o₂ : O₂}
    {i₃ : PhotonSAPI R O₃} {o₃ : O₃} (h : SameResultsS i₁ o₁ i₂ o₂) (h' : SameResultsS i₂ o₂ i₃ o₃) : SameResultsS i₁ o₁ i₃ o₃ where
  nlambda := h.nlambda.trans h'.nlambda
  TotalCrossSection := h.TotalCrossSection.trans h'.TotalCrossSection
  DifferentialCrossSection := h.DifferentialCrossSection.trans h'.DifferentialCrossSection
  TotalScatteringCoefficient := h.TotalScatteringCoefficient.trans h'.TotalScatteringCoefficient

/-- two photon mean opacities answer every call alike -/
structure SameResultsMean {R O O' : Type} (i : MeanPhotonAPI R O) (o : O) (i' : MeanPhotonAPI R O') (o' : O') : Prop where
  GetRuntimePhysicalConstants : i.GetRuntimePhysicalConstants o = i'.GetRuntimePhysicalConstants o'
  ngroups : i.ngroups o = i'.ngroups o'
  HasGroupBounds : i.HasGroupBounds o = i'.HasGroupBounds o'
  AbsorptionCoefficient : i.AbsorptionCoefficient o = i'.AbsorptionCoefficient o'
  PlanckGroupAbsorptionCoefficient : i.PlanckGroupAbsorptionCoefficient o = i'.PlanckGroupAbsorptionCoefficient o'
  RosselandGroupAbsorptionCoefficient : i.RosselandGroupAbsorptionCoefficient o = i'.RosselandGroupAbsorptionCoefficient o'
  GroupOfNu : i.GroupOfNu o = i'.GroupOfNu o'
  AbsorptionCoefficientFromNu : i.AbsorptionCoefficientFromNu o = i'.AbsorptionCoefficientFromNu o'
  PlanckGroupAbsorptionCoefficientFromNu : i.PlanckGroupAbsorptionCoefficientFromNu o = i'.PlanckGroupAbsorptionCoefficientFromNu o'
  RosselandGroupAbsorptionCoefficientFromNu : i.RosselandGroupAbsorptionCoefficientFromNu o = i'.RosselandGroupAbsorptionCoefficientFromNu o'
  Save : i.Save o = i'.Save o'

theorem SameResultsMean.refl {R O : Type} (i : MeanPhotonAPI R O) (o : O) : SameResultsMean i o i o := by constructor <;> rfl

/-- two photon mean scattering opacities (as the unit wrapper sees them) answer every call alike -/
structure SameResultsMeanS {R O O' : Type} (i : MeanPhotonSTotalAPI R O) (o : O) (i' : MeanPhotonSTotalAPI R O') (o' : O') : Prop where
  nlambda : i.nlambda o = i'.nlambda o'
  PlanckMeanTotalScatteringCoefficient : i.PlanckMeanTotalScatteringCoefficient o = i'.PlanckMeanTotalScatteringCoefficient o'
  RosselandMeanTotalScatteringCoefficient : i.RosselandMeanTotalScatteringCoefficient o = i'.RosselandMeanTotalScatteringCoefficient o'

end Photons

namespace Neutrinos
/-- two neutrino opacities return the same result for every function of the API and every argument -/
structure SameResults {R O O' : Type} (i : NeutrinoAPI R O) (o : O) (i' : NeutrinoAPI R O') (o' : O') : Prop where
  nlambda : i.nlambda o = i'.nlambda o'
  AbsorptionCoefficient : i.AbsorptionCoefficient o = i'.AbsorptionCoefficient o'
  AbsorptionCoefficientV : i.AbsorptionCoefficientV o = i'.AbsorptionCoefficientV o'
  AngleAveragedAbsorptionCoefficient : i.AngleAveragedAbsorptionCoefficient o = i'.AngleAveragedAbsorptionCoefficient o'
  AngleAveragedAbsorptionCoefficientV : i.AngleAveragedAbsorptionCoefficientV o = i'.AngleAveragedAbsorptionCoefficientV o'
  EmissivityPerNuOmega : i.EmissivityPerNuOmega o = i'.EmissivityPerNuOmega o'
  EmissivityPerNuOmegaV : i.EmissivityPerNuOmegaV o = i'.EmissivityPerNuOmegaV o'
  EmissivityPerNu : i.EmissivityPerNu o = i'.EmissivityPerNu o'
  EmissivityPerNuV : i.EmissivityPerNuV o = i'.EmissivityPerNuV o'
  Emissivity : i.Emissivity o = i'.Emissivity o'
  NumberEmissivity : i.NumberEmissivity o = i'.NumberEmissivity o'
  ThermalDistributionOfTNu : i.ThermalDistributionOfTNu o = i'.ThermalDistributionOfTNu o'
  DThermalDistributionOfTNuDT : i.DThermalDistributionOfTNuDT o = i'.DThermalDistributionOfTNuDT o'
  ThermalDistributionOfT : i.ThermalDistributionOfT o = i'.ThermalDistributionOfT o'
  ThermalNumberDistributionOfT : i.ThermalNumberDistributionOfT o = i'.ThermalNumberDistributionOfT o'
  EnergyDensityFromTemperature : i.EnergyDensityFromTemperature o = i'.EnergyDensityFromTemperature o'
  TemperatureFromEnergyDensity : i.TemperatureFromEnergyDensity o = i'.TemperatureFromEnergyDensity o'
  NumberDensityFromTemperature : i.NumberDensityFromTemperature o = i'.NumberDensityFromTemperature o'
  GetRuntimePhysicalConstants : i.GetRuntimePhysicalConstants o = i'.GetRuntimePhysicalConstants o'

/-- as `SameResults`, except for the reported physical constants -/
structure SameValues {R O O' : Type} (i : NeutrinoAPI R O) (o : O) (i' : NeutrinoAPI R O') (o' : O') : Prop where
  nlambda : i.nlambda o = i'.nlambda o'
  AbsorptionCoefficient : i.AbsorptionCoefficient o = i'.AbsorptionCoefficient o'
  AbsorptionCoefficientV : i.AbsorptionCoefficientV o = i'.AbsorptionCoefficientV o'
  AngleAveragedAbsorptionCoefficient : i.AngleAveragedAbsorptionCoefficient o = i'.AngleAveragedAbsorptionCoefficient o'
  AngleAveragedAbsorptionCoefficientV : i.AngleAveragedAbsorptionCoefficientV o = i'.AngleAveragedAbsorptionCoefficientV o'
  EmissivityPerNuOmega : i.EmissivityPerNuOmega o = i'.EmissivityPerNuOmega o'
  EmissivityPerNuOmegaV : i.EmissivityPerNuOmegaV o = i'.EmissivityPerNuOmegaV o'
  EmissivityPerNu : i.EmissivityPerNu o = i'.EmissivityPerNu o'
  EmissivityPerNuV : i.EmissivityPerNuV o = i'.EmissivityPerNuV o'
  Emissivity : i.Emissivity o = i'.Emissivity o'
  NumberEmissivity : i.NumberEmissivity o = i'.NumberEmissivity o'
  ThermalDistributionOfTNu : i.ThermalDistributionOfTNu o = i'.ThermalDistributionOfTNu o'
  DThermalDistributionOfTNuDT : i.DThermalDistributionOfTNuDT o = i'.DThermalDistributionOfTNuDT o'
  ThermalDistributionOfT : i.ThermalDistributionOfT o = i'.ThermalDistributionOfT o'
  ThermalNumberDistributionOfT : i.ThermalNumberDistributionOfT o = i'.ThermalNumberDistributionOfT o'
  EnergyDensityFromTemperature : i.EnergyDensityFromTemperature o = i'.EnergyDensityFromTemperature o'
  TemperatureFromEnergyDensity : i.TemperatureFromEnergyDensity o = i'.TemperatureFromEnergyDensity o'
  NumberDensityFromTemperature : i.NumberDensityFromTemperature o = i'.NumberDensityFromTemperature o'

theorem SameValues.withRPC {R O O' : Type} {i : NeutrinoAPI R O} {o : O} {i' : NeutrinoAPI R O'} {o' : O'}
    (h : SameValues i o i' o') (h' : i.GetRuntimePhysicalConstants o = i'.GetRuntimePhysicalConstants o') :
    SameResults i o i' o' :=
  ⟨h.nlambda, h.AbsorptionCoefficient, h.AbsorptionCoefficientV, h.AngleAveragedAbsorptionCoefficient, h.AngleAveragedAbsorptionCoefficientV, h.EmissivityPerNuOmega, h.EmissivityPerNuOmegaV, h.EmissivityPerNu, h.EmissivityPerNuV, h.Emissivity, h.NumberEmissivity, h.ThermalDistributionOfTNu, h.DThermalDistributionOfTNuDT, h.ThermalDistributionOfT, h.ThermalNumberDistributionOfT, h.EnergyDensityFromTemperature, h.TemperatureFromEnergyDensity, h.NumberDensityFromTemperature, h'⟩

theorem SameResults.refl {R O : Type} (i : NeutrinoAPI R O) (o : O) : SameResults i o i o := by constructor <;> rfl

theorem SameResults.trans {R O₁ O₂ O₃ : Type} {i₁ : NeutrinoAPI R O₁} {o₁ : O₁} {i₂ : NeutrinoAPI R O₂} {o₂ : O₂}
    {i₃ : NeutrinoAPI R O₃} {o₃ : O₃} (h : SameResults i₁ o₁ i₂ o₂) (h' : SameResults i₂ o₂ i₃ o₃) : SameResults i₁ o₁ i₃ o₃ where
  nlambda := h.nlambda.trans h'.nlambda
  AbsorptionCoefficient := h.AbsorptionCoefficient.trans h'.AbsorptionCoefficient
  AbsorptionCoefficientV := h.AbsorptionCoefficientV.trans h'.AbsorptionCoefficientV
  AngleAveragedAbsorptionCoefficient := h.AngleAveragedAbsorptionCoefficient.trans h'.AngleAveragedAbsorptionCoefficient
  AngleAveragedAbsorptionCoefficientV := h.AngleAveragedAbsorptionCoefficientV.trans h'.AngleAveragedAbsorptionCoefficientV
  EmissivityPerNuOmega := h.EmissivityPerNuOmega.trans h'.EmissivityPerNuOmega
  EmissivityPerNuOmegaV := h.EmissivityPerNuOmegaV.trans h'.EmissivityPerNuOmegaV
  EmissivityPerNu := h.EmissivityPerNu.trans h'.EmissivityPerNu
  EmissivityPerNuV := h.EmissivityPerNuV.trans h'.EmissivityPerNuV
  Emissivity := h.Emissivity.trans h'.Emissivity
  NumberEmissivity := h.NumberEmissivity.trans h'.NumberEmissivity
  ThermalDistributionOfTNu := h.ThermalDistributionOfTNu.trans h'.ThermalDistributionOfTNu
  DThermalDistributionOfTNuDT := h.DThermalDistributionOfTNuDT.trans h'.DThermalDistributionOfTNuDT
  ThermalDistributionOfT := h.ThermalDistributionOfT.trans h'.ThermalDistributionOfT
  ThermalNumberDistributionOfT := h.ThermalNumberDistributionOfT.trans h'.ThermalNumberDistributionOfT
  EnergyDensityFromTemperature := h.EnergyDensityFromTemperature.trans h'.EnergyDensityFromTemperature
  TemperatureFromEnergyDensity := h.TemperatureFromEnergyDensity.trans h'.TemperatureFromEnergyDensity
  NumberDensityFromTemperature := h.NumberDensityFromTemperature.trans h'.NumberDensityFromTemperature
  GetRuntimePhysicalConstants := h.GetRuntimePhysicalConstants.trans h'.GetRuntimePhysicalConstants

/-- two neutrino scattering opacities return the same result for every function and argument -/
structure SameResultsS {R O O' : Type} (i : NeutrinoSAPI R O) (o : O) (i' : NeutrinoSAPI R O') (o' : O') : Prop where
  nlambda : i.nlambda o = i'.nlambda o'
  TotalCrossSection : i.TotalCrossSection o = i'.TotalCrossSection o'
  DifferentialCrossSection : i.DifferentialCrossSection o = i'.DifferentialCrossSection o'
  TotalScatteringCoefficient : i.TotalScatteringCoefficient o = i'.TotalScatteringCoefficient o'

theorem SameResultsS.refl {R O : Type} (i : NeutrinoSAPI R O) (o : O) : SameResultsS i o i o := by constructor <;> rfl

theorem SameResultsS.trans {R O₁ O₂ O₃ : Type} {i₁ : NeutrinoSAPI R O₁} {o₁ : O₁} {i₂ : NeutrinoSAPI R O₂} {o₂ : O₂}
    {i₃ : NeutrinoSAPI R O₃} {o₃ : O₃} (h : SameResultsS i₁ o₁ i₂ o₂) (h' : SameResultsS i₂ o₂ i₃ o₃) : SameResultsS i₁ o₁ i₃ o₃ where
  nlambda := h.nlambda.trans h'.nlambda
  TotalCrossSection := h.TotalCrossSection.trans h'.TotalCrossSection
  DifferentialCrossSection := h.DifferentialCrossSection.trans h'.DifferentialCrossSection
  TotalScatteringCoefficient := h.TotalScatteringCoefficient.trans h'.TotalScatteringCoefficient

/-- two neutrino mean opacities answer every call alike -/
structure SameResultsMean {R O O' : Type} (i : MeanNeutrinoAPI R O) (o : O) (i' : MeanNeutrinoAPI R O') (o' : O') : Prop where
  GetRuntimePhysicalConstants : i.GetRuntimePhysicalConstants o = i'.GetRuntimePhysicalConstants o'
  PlanckMeanAbsorptionCoefficient : i.PlanckMeanAbsorptionCoefficient o = i'.PlanckMeanAbsorptionCoefficient o'
  RosselandMeanAbsorptionCoefficient : i.RosselandMeanAbsorptionCoefficient o = i'.RosselandMeanAbsorptionCoefficient o'
  Save : i.Save o = i'.Save o'

theorem SameResultsMean.refl {R O : Type} (i : MeanNeutrinoAPI R O) (o : O) : SameResultsMean i o i o := by constructor <;> rfl

/-- as `SameResultsMean`, except for the reported physical constants -/
structure SameValuesMean {R O O' : Type} (i : MeanNeutrinoAPI R O) (o : O) (i' : MeanNeutrinoAPI R O') (o' : O') : Prop where
  PlanckMeanAbsorptionCoefficient : i.PlanckMeanAbsorptionCoefficient o = i'.PlanckMeanAbsorptionCoefficient o'
  RosselandMeanAbsorptionCoefficient : i.RosselandMeanAbsorptionCoefficient o = i'.RosselandMeanAbsorptionCoefficient o'
  Save : i.Save o = i'.Save o'

/-- two neutrino mean scattering opacities answer every call alike -/
structure SameResultsMeanS {R O O' : Type} (i : MeanNeutrinoSAPI R O) (o : O) (i' : MeanNeutrinoSAPI R O') (o' : O') : Prop where
  PlanckMeanTotalScatteringCoefficient : i.PlanckMeanTotalScatteringCoefficient o = i'.PlanckMeanTotalScatteringCoefficient o'
  RosselandMeanTotalScatteringCoefficient : i.RosselandMeanTotalScatteringCoefficient o = i'.RosselandMeanTotalScatteringCoefficient o'

theorem SameResultsMeanS.refl {R O : Type} (i : MeanNeutrinoSAPI R O) (o : O) : SameResultsMeanS i o i o := by constructor <;> rfl

end Neutrinos

end Opac
