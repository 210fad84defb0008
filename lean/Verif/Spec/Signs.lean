import Verif.Model.Photons
import Verif.Model.PhotonsS
import Verif.Model.Neutrinos
import Verif.Model.NeutrinosS
import Verif.Model.MeanPhoton
import Verif.Model.MeanNeutrino

/-!
# Opacities with physically meaningful parameters

`Physical R N P E tables` are the opacity objects of the library, over any arithmetic `R`, whose constants and units
satisfy `P` ("positive"), whose opacity parameters satisfy `N` ("not negative") and whose exponents satisfy `E`.
Tabulated opacities, with any tables, are included if `tables` holds.
-/

namespace Opac
open Arith

/-- constants of nature with their signs; only the square of the axial coupling matters -/
structure SignedPC {R : Type} [Arith R] (N P : R → Prop) (pc : PC R) : Prop where
  h : P pc.h
  hbar : P pc.hbar
  kb : P pc.kb
  c : P pc.c
  me : P pc.me
  mp : P pc.mp
  qe : P pc.qe
  alpha : P pc.alpha
  nu_sigma0 : P pc.nu_sigma0
  gA : N (lit 3 * pc.gA * pc.gA)

/-- the program's own test `x < 0` fails: `x` is zero, positive, infinite or NaN -/
def NotNegative {R : Type} [Arith R] (x : R) : Prop := lt x (lit 0) = false

/-- a positive number, not infinite and not NaN -/
def FinitePositive (x : XR) : Prop := ∃ y : ℝ, 0 < y ∧ x = .fin y
/-- a number at least zero, not infinite and not NaN -/
def FiniteNonnegative (x : XR) : Prop := ∃ y : ℝ, 0 ≤ y ∧ x = .fin y
/-- a number at least zero, perhaps infinite, not NaN -/
def Nonnegative (x : XR) : Prop := x = .pinf ∨ ∃ y : ℝ, 0 ≤ y ∧ x = .fin y
/-- any number, not infinite and not NaN -/
def Finite (x : XR) : Prop := ∃ y : ℝ, x = .fin y

namespace Photons

/-- photon opacities -/
inductive Physical (R : Type) [Arith R] (N P E : R → Prop) : (O : Type) → PhotonAPI R O → O → Prop
  | gray (o : GrayOpacity R) : SignedPC N P o.pc → N o.kappa_ → Physical R N P E (GrayOpacity R) inferInstance o
  | epbremss (o : EPBremsstrahlungOpacity R) : SignedPC N P o.pc →
      Physical R N P E (EPBremsstrahlungOpacity R) inferInstance o
  | powerLaw {pc : PC R} {k re te ne nr no rr ro tr tf : R} {st : Bool} (o : PowerLawOpacity R) : SignedPC N P pc →
      N k → E re → E te → E ne → P nr → N no → P rr → N ro → P tr → N tf →
      PowerLawOpacity.construct pc k re te ne nr no rr ro tr tf st = .ok o →
      Physical R N P E (PowerLawOpacity R) inferInstance o
  | nonCGS {O : Type} {inst : PhotonAPI R O} {o : O} (time mass length temp : R) : P time → P mass → P length → P temp →
      Physical R N P E O inst o →
      Physical R N P E (NonCGSUnits R O) inferInstance (NonCGSUnits.construct o time mass length temp)
  | vScaleFree {o : GrayOpacity R} : Physical R N P E _ inferInstance o →
      Physical R N P E (Opacity R) inferInstance (.ScaleFree o)
  | vGray {o : GrayOpacity R} : Physical R N P E _ inferInstance o → Physical R N P E (Opacity R) inferInstance (.Gray o)
  | vPowerLawScaleFree {o : PowerLawOpacity R} : Physical R N P E _ inferInstance o →
      Physical R N P E (Opacity R) inferInstance (.PowerLawScaleFree o)
  | vPowerLaw {o : PowerLawOpacity R} : Physical R N P E _ inferInstance o →
      Physical R N P E (Opacity R) inferInstance (.PowerLaw o)
  | vEPBremss {o : EPBremsstrahlungOpacity R} : Physical R N P E _ inferInstance o →
      Physical R N P E (Opacity R) inferInstance (.EPBremss o)
  | vNonCGSGray {o : NonCGSUnits R (GrayOpacity R)} : Physical R N P E _ inferInstance o →
      Physical R N P E (Opacity R) inferInstance (.NonCGSGray o)
  | vNonCGSPowerLaw {o : NonCGSUnits R (PowerLawOpacity R)} : Physical R N P E _ inferInstance o →
      Physical R N P E (Opacity R) inferInstance (.NonCGSPowerLaw o)
  | vNonCGSEPBremss {o : NonCGSUnits R (EPBremsstrahlungOpacity R)} : Physical R N P E _ inferInstance o →
      Physical R N P E (Opacity R) inferInstance (.NonCGSEPBremss o)

/-- photon scattering opacities -/
inductive PhysicalS (R : Type) [Arith R] (N P E : R → Prop) : (O : Type) → PhotonSAPI R O → O → Prop
  | gray (o : GraySOpacity R) : N o.sigma_ → P o.apm_ → PhysicalS R N P E (GraySOpacity R) inferInstance o
  | thomson (pc : PC R) (m : R) : SignedPC N P pc → P m →
      PhysicalS R N P E (ThomsonSOpacity R) inferInstance (ThomsonSOpacity.construct pc m)
  | powerLaw {k re te ne nr no rr ro tr tf m : R} (o : PowerLawSOpacity R) : N k → E re → E te → E ne → P nr → N no →
      P rr → N ro → P tr → N tf → P m → PowerLawSOpacity.construct k re te ne nr no rr ro tr tf m = .ok o →
      PhysicalS R N P E (PowerLawSOpacity R) inferInstance o
  | nonCGS {O : Type} {inst : PhotonSAPI R O} {o : O} (time mass length temp : R) : P time → P mass → P length →
      P temp → PhysicalS R N P E O inst o →
      PhysicalS R N P E (NonCGSUnitsS R O) inferInstance (NonCGSUnitsS.construct o time mass length temp)
  | vScaleFreeS {o : GraySOpacity R} : PhysicalS R N P E _ inferInstance o →
      PhysicalS R N P E (SOpacity R) inferInstance (.ScaleFreeS o)
  | vGrayS {o : GraySOpacity R} : PhysicalS R N P E _ inferInstance o →
      PhysicalS R N P E (SOpacity R) inferInstance (.GrayS o)
  | vThomsonS {o : ThomsonSOpacity R} : PhysicalS R N P E _ inferInstance o →
      PhysicalS R N P E (SOpacity R) inferInstance (.ThomsonS o)
  | vPowerLawS {o : PowerLawSOpacity R} : PhysicalS R N P E _ inferInstance o →
      PhysicalS R N P E (SOpacity R) inferInstance (.PowerLawS o)
  | vNonCGSGrayS {o : NonCGSUnitsS R (GraySOpacity R)} : PhysicalS R N P E _ inferInstance o →
      PhysicalS R N P E (SOpacity R) inferInstance (.NonCGSGrayS o)
  | vNonCGSThomsonS {o : NonCGSUnitsS R (ThomsonSOpacity R)} : PhysicalS R N P E _ inferInstance o →
      PhysicalS R N P E (SOpacity R) inferInstance (.NonCGSThomsonS o)
  | vNonCGSPowerLawS {o : NonCGSUnitsS R (PowerLawSOpacity R)} : PhysicalS R N P E _ inferInstance o →
      PhysicalS R N P E (SOpacity R) inferInstance (.NonCGSPowerLawS o)

/-- every quantity a photon opacity reports satisfies `N`, the number emissivity (which may be infinite) `M` -/
structure Signed {R O : Type} (i : PhotonAPI R O) (o : O) (N P M : R → Prop) : Prop where
  absorption : ∀ rho T ν, P rho → P T → P ν → N (i.AbsorptionCoefficient o rho T ν)
  angleAveraged : ∀ rho T ν, P rho → P T → P ν → N (i.AngleAveragedAbsorptionCoefficient o rho T ν)
  perNuOmega : ∀ rho T ν, P rho → P T → P ν → N (i.EmissivityPerNuOmega o rho T ν)
  perNu : ∀ rho T ν, P rho → P T → P ν → N (i.EmissivityPerNu o rho T ν)
  emissivity : ∀ rho T v, P rho → P T → i.Emissivity o rho T = .ok v → N v
  number : ∀ rho T v, P rho → P T → i.NumberEmissivity o rho T = .ok v → M v
  spectrum : ∀ T ν, P T → P ν → N (i.ThermalDistributionOfTNu o T ν)
  derivative : ∀ T ν, P T → P ν → N (i.DThermalDistributionOfTNuDT o T ν)
  thermal : ∀ T, P T → N (i.ThermalDistributionOfT o T)
  thermalNumber : ∀ T, P T → N (i.ThermalNumberDistributionOfT o T)
  energyDensity : ∀ T, P T → N (i.EnergyDensityFromTemperature o T)
  temperature : ∀ e, P e → N (i.TemperatureFromEnergyDensity o e)
  numberDensity : ∀ T, P T → N (i.NumberDensityFromTemperature o T)

/-- every quantity a photon scattering opacity reports satisfies `N` -/
structure SignedS {R O : Type} (i : PhotonSAPI R O) (o : O) (N P : R → Prop) : Prop where
  total : ∀ rho T ν, P rho → P T → P ν → N (i.TotalCrossSection o rho T ν)
  differential : ∀ rho T ν mu, P rho → P T → P ν → N (i.DifferentialCrossSection o rho T ν mu)
  coefficient : ∀ rho T ν, P rho → P T → P ν → N (i.TotalScatteringCoefficient o rho T ν)

/-- mean opacities: any tables, in any units satisfying `P`, with or without the variant -/
inductive AnyMean (R : Type) [Arith R] (P : R → Prop) : (O : Type) → MeanPhotonAPI R O → O → Prop
  | base (o : MeanOpacityBase R) : AnyMean R P (MeanOpacityBase R) inferInstance o
  | nonCGS {O : Type} {inst : MeanPhotonAPI R O} {o : O} (time mass length temp : R) : P time → P mass → P length →
      P temp → AnyMean R P O inst o →
      AnyMean R P (MeanNonCGSUnits R O) inferInstance (MeanNonCGSUnits.construct o time mass length temp)
  | vBase {o : MeanOpacityBase R} : AnyMean R P (MeanOpacity R) inferInstance (.base o)
  | vNonCGS {o : MeanNonCGSUnits R (MeanOpacityBase R)} : AnyMean R P _ inferInstance o →
      AnyMean R P (MeanOpacity R) inferInstance (.nonCGS o)

end Photons

namespace Neutrinos

/-- thermal distribution with physical constants and at least one species -/
structure SignedDist {R : Type} [Arith R] (N P : R → Prop) (d : FermiDirac R) : Prop where
  pc : SignedPC N P d.pc
  species : 0 < d.NSPECIES

/-- neutrino opacities -/
inductive Physical (R : Type) [Arith R] (N P E : R → Prop) (tables : Prop) : (O : Type) → NeutrinoAPI R O → O → Prop
  | gray (o : GrayOpacity R) : SignedDist N P o.dist → SignedPC N P o.pc → N o.kappa_ →
      Physical R N P E tables (GrayOpacity R) inferInstance o
  | tophat (o : TophatEmissivity R) : SignedDist N P o.dist → SignedPC N P o.pc → N o.C_ → P o.numin_ → P o.numax_ →
      le o.numin_ o.numax_ = true → Physical R N P E tables (TophatEmissivity R) inferInstance o
  | brt (o : BRTOpacity R) : SignedDist N P o.dist → SignedPC N P o.pc →
      Physical R N P E tables (BRTOpacity R) inferInstance o
  | spiner (o : SpinerOpacity R) : tables → SignedDist N P o.dist → SignedPC N P o.pc →
      Physical R N P E tables (SpinerOpacity R) inferInstance o
  | nonCGS {O : Type} {inst : NeutrinoAPI R O} {o : O} (time mass length temp : R) : P time → P mass → P length →
      P temp → Physical R N P E tables O inst o →
      Physical R N P E tables (NonCGSUnits R O) inferInstance (NonCGSUnits.construct o time mass length temp)
  | vScaleFree {o : GrayOpacity R} : Physical R N P E tables _ inferInstance o →
      Physical R N P E tables (Opacity R) inferInstance (.ScaleFree o)
  | vBRTOpac {o : BRTOpacity R} : Physical R N P E tables _ inferInstance o →
      Physical R N P E tables (Opacity R) inferInstance (.BRTOpac o)
  | vGray {o : GrayOpacity R} : Physical R N P E tables _ inferInstance o →
      Physical R N P E tables (Opacity R) inferInstance (.Gray o)
  | vTophat {o : TophatEmissivity R} : Physical R N P E tables _ inferInstance o →
      Physical R N P E tables (Opacity R) inferInstance (.Tophat o)
  | vSpinerOpac {o : SpinerOpacity R} : Physical R N P E tables _ inferInstance o →
      Physical R N P E tables (Opacity R) inferInstance (.SpinerOpac o)
  | vNonCGSBRT {o : NonCGSUnits R (BRTOpacity R)} : Physical R N P E tables _ inferInstance o →
      Physical R N P E tables (Opacity R) inferInstance (.NonCGSBRT o)
  | vNonCGSGray {o : NonCGSUnits R (GrayOpacity R)} : Physical R N P E tables _ inferInstance o →
      Physical R N P E tables (Opacity R) inferInstance (.NonCGSGray o)
  | vNonCGSTophat {o : NonCGSUnits R (TophatEmissivity R)} : Physical R N P E tables _ inferInstance o →
      Physical R N P E tables (Opacity R) inferInstance (.NonCGSTophat o)
  | vNonCGSSpiner {o : NonCGSUnits R (SpinerOpacity R)} : Physical R N P E tables _ inferInstance o →
      Physical R N P E tables (Opacity R) inferInstance (.NonCGSSpiner o)

/-- neutrino scattering opacities -/
inductive PhysicalS (R : Type) [Arith R] (N P : R → Prop) : (O : Type) → NeutrinoSAPI R O → O → Prop
  | gray (o : GraySOpacity R) : N o.sigma_ → P o.apm_ → PhysicalS R N P (GraySOpacity R) inferInstance o
  | nonCGS {O : Type} {inst : NeutrinoSAPI R O} {o : O} (time mass length temp : R) : P time → P mass → P length →
      P temp → PhysicalS R N P O inst o →
      PhysicalS R N P (NonCGSUnitsS R O) inferInstance (NonCGSUnitsS.construct o time mass length temp)
  | vScaleFreeS {o : GraySOpacity R} : PhysicalS R N P _ inferInstance o →
      PhysicalS R N P (SOpacity R) inferInstance (.ScaleFreeS o)
  | vGrayS {o : GraySOpacity R} : PhysicalS R N P _ inferInstance o → PhysicalS R N P (SOpacity R) inferInstance (.GrayS o)
  | vNonCGSGrayS {o : NonCGSUnitsS R (GraySOpacity R)} : PhysicalS R N P _ inferInstance o →
      PhysicalS R N P (SOpacity R) inferInstance (.NonCGSGrayS o)

/-- every quantity a neutrino opacity reports satisfies `N`, in matter whose electron fraction satisfies `N` and is at
most one half -/
structure Signed {R O : Type} [Arith R] (i : NeutrinoAPI R O) (o : O) (N P : R → Prop) : Prop where
  absorption : ∀ rho T Ye s ν v, P rho → P T → N Ye → le (lit 2 * Ye) (lit 1) = true → P ν →
    i.AbsorptionCoefficient o rho T Ye s ν = .ok v → N v
  angleAveraged : ∀ rho T Ye s ν v, P rho → P T → N Ye → le (lit 2 * Ye) (lit 1) = true → P ν →
    i.AngleAveragedAbsorptionCoefficient o rho T Ye s ν = .ok v → N v
  perNuOmega : ∀ rho T Ye s ν v, P rho → P T → N Ye → le (lit 2 * Ye) (lit 1) = true → P ν →
    i.EmissivityPerNuOmega o rho T Ye s ν = .ok v → N v
  perNu : ∀ rho T Ye s ν v, P rho → P T → N Ye → le (lit 2 * Ye) (lit 1) = true → P ν →
    i.EmissivityPerNu o rho T Ye s ν = .ok v → N v
  emissivity : ∀ rho T Ye s v, P rho → P T → N Ye → le (lit 2 * Ye) (lit 1) = true →
    i.Emissivity o rho T Ye s = .ok v → N v
  number : ∀ rho T Ye s v, P rho → P T → N Ye → le (lit 2 * Ye) (lit 1) = true →
    i.NumberEmissivity o rho T Ye s = .ok v → N v
  spectrum : ∀ T s ν, P T → P ν → N (i.ThermalDistributionOfTNu o T s ν)
  derivative : ∀ T s ν, P T → P ν → N (i.DThermalDistributionOfTNuDT o T s ν)
  thermal : ∀ T s, P T → N (i.ThermalDistributionOfT o T s)
  thermalNumber : ∀ T s, P T → N (i.ThermalNumberDistributionOfT o T s)
  energyDensity : ∀ T s, P T → N (i.EnergyDensityFromTemperature o T s)
  temperature : ∀ e s, P e → N (i.TemperatureFromEnergyDensity o e s)
  numberDensity : ∀ T s, P T → N (i.NumberDensityFromTemperature o T s)

/-- every quantity a neutrino scattering opacity reports satisfies `N` -/
structure SignedS {R O : Type} (i : NeutrinoSAPI R O) (o : O) (N P : R → Prop) : Prop where
  total : ∀ rho T Ye s ν, P rho → P T → P ν → N (i.TotalCrossSection o rho T Ye s ν)
  differential : ∀ rho T Ye s ν mu, P rho → P T → P ν → N (i.DifferentialCrossSection o rho T Ye s ν mu)
  coefficient : ∀ rho T Ye s ν, P rho → P T → P ν → N (i.TotalScatteringCoefficient o rho T Ye s ν)

/-- mean opacities: any tables, in any units satisfying `P`, with or without the variant -/
inductive AnyMean (R : Type) [Arith R] (P : R → Prop) : (O : Type) → MeanNeutrinoAPI R O → O → Prop
  | base (o : MeanOpacityBase R) : AnyMean R P (MeanOpacityBase R) inferInstance o
  | nonCGS {O : Type} {inst : MeanNeutrinoAPI R O} {o : O} (time mass length temp : R) : P time → P mass → P length →
      P temp → AnyMean R P O inst o →
      AnyMean R P (MeanNonCGSUnits R O) inferInstance (MeanNonCGSUnits.construct o time mass length temp)
  | vBase {o : MeanOpacityBase R} : AnyMean R P (MeanOpacity R) inferInstance (.base o)
  | vNonCGS {o : MeanNonCGSUnits R (MeanOpacityBase R)} : AnyMean R P _ inferInstance o →
      AnyMean R P (MeanOpacity R) inferInstance (.nonCGS o)

/-- mean scattering opacities: any tables, in any units satisfying `P`, with or without the variant -/
inductive AnyMeanS (R : Type) [Arith R] (P : R → Prop) : (O : Type) → MeanNeutrinoSAPI R O → O → Prop
  | base (o : MeanSOpacityBase R) : AnyMeanS R P (MeanSOpacityBase R) inferInstance o
  | nonCGS {O : Type} {inst : MeanNeutrinoSAPI R O} {o : O} (time mass length temp : R) : P time → P mass →
      P length → P temp → AnyMeanS R P O inst o →
      AnyMeanS R P (MeanNonCGSUnitsS R O) inferInstance (MeanNonCGSUnitsS.construct o time mass length temp)
  | vBase {o : MeanSOpacityBase R} : AnyMeanS R P (MeanSOpacity R) inferInstance (.base o)
  | vNonCGS {o : MeanNonCGSUnitsS R (MeanSOpacityBase R)} : AnyMeanS R P _ inferInstance o →
      AnyMeanS R P (MeanSOpacity R) inferInstance (.nonCGS o)

end Neutrinos
end Opac
