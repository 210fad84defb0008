import Verif.Spec.Built
import Mathlib.MeasureTheory.Integral.IntervalIntegral.Basic

/-! # Scattering totals (independent of the model) -/

namespace Opac
open Spec Real

namespace Photons
/-- integrating the differential cross section over the sphere (`2π ∫ dμ`) gives the total cross section -/
def SphereTotal {O : Type} (i : PhotonSAPI ℝ O) (o : O) : Prop :=
  ∀ rho T ν, IntervalIntegrable (fun μ => i.DifferentialCrossSection o rho T ν μ) MeasureTheory.volume (-1) 1 ∧
    i.TotalCrossSection o rho T ν = 2 * π * ∫ μ in (-1 : ℝ)..1, i.DifferentialCrossSection o rho T ν μ

/-- the coefficient is the number density of scatterers, one per mass `m`, times the cross section -/
def PerScatterer {O : Type} (m : ℝ) (i : PhotonSAPI ℝ O) (o : O) : Prop :=
  ∀ rho T ν, i.TotalScatteringCoefficient o rho T ν = rho / m * i.TotalCrossSection o rho T ν

/-- the mass per scatterer, in the units of the caller: the mean particle mass `apm` given to the constructor, or
twice that for Thomson scattering (half of the particles of ionised hydrogen are electrons) -/
inductive ScattererMass : (O : Type) → PhotonSAPI ℝ O → O → ℝ → Prop
  | gray (σ apm : ℝ) : ScattererMass (GraySOpacity ℝ) inferInstance ⟨σ, apm⟩ apm
  | thomson (pc : PC ℝ) (apm : ℝ) :
      ScattererMass (ThomsonSOpacity ℝ) inferInstance (ThomsonSOpacity.construct pc apm) (2 * apm)
  | powerLaw {k re te ne nr no rr ro tr tf apm : ℝ} {p : PowerLawSOpacity ℝ} :
      PowerLawSOpacity.construct k re te ne nr no rr ro tr tf apm = .ok p →
      ScattererMass (PowerLawSOpacity ℝ) inferInstance p apm
  | nonCGS {O : Type} {inst : PhotonSAPI ℝ O} {o : O} {m : ℝ} (u : Units) : u.Pos → ScattererMass O inst o m →
      ScattererMass (NonCGSUnitsS ℝ O) inferInstance (NonCGSUnitsS.construct o u.time u.mass u.length u.temp)
        (m / u.mass)
  | vScaleFreeS {o : GraySOpacity ℝ} {m : ℝ} : ScattererMass _ inferInstance o m →
      ScattererMass (SOpacity ℝ) inferInstance (.ScaleFreeS o) m
  | vGrayS {o : GraySOpacity ℝ} {m : ℝ} : ScattererMass _ inferInstance o m →
      ScattererMass (SOpacity ℝ) inferInstance (.GrayS o) m
  | vThomsonS {o : ThomsonSOpacity ℝ} {m : ℝ} : ScattererMass _ inferInstance o m →
      ScattererMass (SOpacity ℝ) inferInstance (.ThomsonS o) m
  | vPowerLawS {o : PowerLawSOpacity ℝ} {m : ℝ} : ScattererMass _ inferInstance o m →
      ScattererMass (SOpacity ℝ) inferInstance (.PowerLawS o) m
  | vNonCGSGrayS {o : NonCGSUnitsS ℝ (GraySOpacity ℝ)} {m : ℝ} : ScattererMass _ inferInstance o m →
      ScattererMass (SOpacity ℝ) inferInstance (.NonCGSGrayS o) m
  | vNonCGSThomsonS {o : NonCGSUnitsS ℝ (ThomsonSOpacity ℝ)} {m : ℝ} : ScattererMass _ inferInstance o m →
      ScattererMass (SOpacity ℝ) inferInstance (.NonCGSThomsonS o) m
  | vNonCGSPowerLawS {o : NonCGSUnitsS ℝ (PowerLawSOpacity ℝ)} {m : ℝ} : ScattererMass _ inferInstance o m →
      ScattererMass (SOpacity ℝ) inferInstance (.NonCGSPowerLawS o) m

end Photons

namespace Neutrinos
/-- integrating the differential cross section over the sphere (`2π ∫ dμ`) gives the total cross section -/
def SphereTotal {O : Type} (i : NeutrinoSAPI ℝ O) (o : O) : Prop :=
  ∀ rho T Ye s ν, IntervalIntegrable (fun μ => i.DifferentialCrossSection o rho T Ye s ν μ) MeasureTheory.volume (-1) 1 ∧
    i.TotalCrossSection o rho T Ye s ν = 2 * π * ∫ μ in (-1 : ℝ)..1, i.DifferentialCrossSection o rho T Ye s ν μ

/-- the coefficient is the number density of scatterers, one per mass `m`, times the cross section -/
def PerScatterer {O : Type} (m : ℝ) (i : NeutrinoSAPI ℝ O) (o : O) : Prop :=
  ∀ rho T Ye s ν, i.TotalScatteringCoefficient o rho T Ye s ν = rho / m * i.TotalCrossSection o rho T Ye s ν

/-- the mass per scatterer, in the units of the caller -/
inductive ScattererMass : (O : Type) → NeutrinoSAPI ℝ O → O → ℝ → Prop
  | gray (σ apm : ℝ) : ScattererMass (GraySOpacity ℝ) inferInstance ⟨σ, apm⟩ apm
  | nonCGS {O : Type} {inst : NeutrinoSAPI ℝ O} {o : O} {m : ℝ} (u : Units) : u.Pos → ScattererMass O inst o m →
      ScattererMass (NonCGSUnitsS ℝ O) inferInstance (NonCGSUnitsS.construct o u.time u.mass u.length u.temp)
        (m / u.mass)
  | vScaleFreeS {o : GraySOpacity ℝ} {m : ℝ} : ScattererMass _ inferInstance o m →
      ScattererMass (SOpacity ℝ) inferInstance (.ScaleFreeS o) m
  | vGrayS {o : GraySOpacity ℝ} {m : ℝ} : ScattererMass _ inferInstance o m →
      ScattererMass (SOpacity ℝ) inferInstance (.GrayS o) m
  | vNonCGSGrayS {o : NonCGSUnitsS ℝ (GraySOpacity ℝ)} {m : ℝ} : ScattererMass _ inferInstance o m →
      ScattererMass (SOpacity ℝ) inferInstance (.NonCGSGrayS o) m
end Neutrinos
end Opac
