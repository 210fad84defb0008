import Verif.Spec.Calls
import Verif.Spec.Vector
import Mathlib.MeasureTheory.Integral.IntegralEqImproper

/-!
# Laws of emission and absorption (independent of the model)

Each is a statement about the functions of an opacity object, in whatever units the object works.
-/

namespace Opac
open Spec Real Set MeasureTheory

namespace Photons
variable {O : Type}

/-- two vectorised functions, called on the same arrays, store results related by `r` -/
def VectorRel {O : Type} (i : PhotonAPI ℝ O) (o : O) (r : ℝ → ℝ → Prop) (f g : VFn) : Prop :=
  ∀ rho T nb co n m, Separate nb co n → ∀ k : ℕ, (k : ℤ) < n →
    r (vectorFn i o f rho T nb co n m (co k)) (vectorFn i o g rho T nb co n m (co k))

/-- `j_ν (all directions) = 4π j_ν (per steradian)`, scalar and vectorised -/
structure FourPi (i : PhotonAPI ℝ O) (o : O) : Prop where
  scalar : ∀ rho T ν, i.EmissivityPerNu o rho T ν = 4 * π * i.EmissivityPerNuOmega o rho T ν
  vector : VectorRel i o (fun J j => J = 4 * π * j) .EmissivityPerNu .EmissivityPerNuOmega

/-- the angle average of the absorption coefficient is the absorption coefficient, scalar and vectorised -/
structure Isotropic (i : PhotonAPI ℝ O) (o : O) : Prop where
  scalar : ∀ rho T ν, i.AngleAveragedAbsorptionCoefficient o rho T ν = i.AbsorptionCoefficient o rho T ν
  vector : VectorRel i o (fun a α => a = α) .AngleAveragedAbsorptionCoefficient .AbsorptionCoefficient

/-- Kirchhoff's law with a floor `δ` added to the thermal spectrum: `j_ν = α_ν (B_ν(T) + δ)` -/
def KirchhoffFloor (δ : ℝ) (i : PhotonAPI ℝ O) (o : O) : Prop :=
  ∀ rho T ν, 0 < T → 0 < ν →
    i.EmissivityPerNuOmega o rho T ν = i.AbsorptionCoefficient o rho T ν * (i.ThermalDistributionOfTNu o T ν + δ)

/-- Kirchhoff's law: `j_ν = α_ν B_ν(T)` -/
def Kirchhoff (i : PhotonAPI ℝ O) (o : O) : Prop :=
  ∀ rho T ν, i.EmissivityPerNuOmega o rho T ν = i.AbsorptionCoefficient o rho T ν * i.ThermalDistributionOfTNu o T ν

/-- where total emissivity is returned, it is the integral of the spectral emissivity -/
def TotalIsIntegral (i : PhotonAPI ℝ O) (o : O) : Prop :=
  ∀ rho T J, 0 < T → i.Emissivity o rho T = .ok J →
    IntegrableOn (fun ν => i.EmissivityPerNu o rho T ν) (Ioi 0) ∧ J = ∫ ν in Ioi (0 : ℝ), i.EmissivityPerNu o rho T ν

/-- the spectral photon number emissivity when `h` is Planck's constant -/
noncomputable def numberSpectrum (h : ℝ) (i : PhotonAPI ℝ O) (o : O) (rho T : ℝ) (ν : ℝ) : ℝ :=
  i.EmissivityPerNu o rho T ν / (h * ν)

/-- where number emissivity is returned, it is the integral of the spectral number emissivity, up to the relative
error `ε` -/
def NumberIsIntegral (ε h : ℝ) (i : PhotonAPI ℝ O) (o : O) : Prop :=
  ∀ rho T N, 0 < T → i.NumberEmissivity o rho T = .ok N →
    IntegrableOn (numberSpectrum h i o rho T) (Ioi 0) ∧
    |N - ∫ ν in Ioi (0 : ℝ), numberSpectrum h i o rho T ν| ≤ ε * |∫ ν in Ioi (0 : ℝ), numberSpectrum h i o rho T ν|

/-- the same with the returned number emissivity multiplied by the density in units of `ρ₁` -/
def NumberTimesDensityIsIntegral (ε h ρ₁ : ℝ) (i : PhotonAPI ℝ O) (o : O) : Prop :=
  ∀ rho T N, 0 < T → i.NumberEmissivity o rho T = .ok N →
    IntegrableOn (numberSpectrum h i o rho T) (Ioi 0) ∧
    |N * (rho / ρ₁) - ∫ ν in Ioi (0 : ℝ), numberSpectrum h i o rho T ν| ≤
      ε * |∫ ν in Ioi (0 : ℝ), numberSpectrum h i o rho T ν|

/-- nothing emitted means nothing absorbed -/
def NoSpuriousAbsorption (i : PhotonAPI ℝ O) (o : O) : Prop :=
  ∀ rho T ν, 0 < T → 0 < ν → i.EmissivityPerNuOmega o rho T ν = 0 → i.AbsorptionCoefficient o rho T ν = 0

end Photons

namespace Neutrinos
variable {O : Type}

/-- two vectorised functions, called on the same arrays, both return or both do not, and store results related by `r` -/
def VectorRel {O : Type} (i : NeutrinoAPI ℝ O) (o : O) (r : ℝ → ℝ → Prop) (f g : VFn) : Prop :=
  ∀ rho T Ye s nb co n m, Separate nb co n →
    ((∃ m₁, vectorFn i o f rho T Ye s nb co n m = .ok m₁) ↔ ∃ m₂, vectorFn i o g rho T Ye s nb co n m = .ok m₂) ∧
    ∀ m₁ m₂, vectorFn i o f rho T Ye s nb co n m = .ok m₁ → vectorFn i o g rho T Ye s nb co n m = .ok m₂ →
      ∀ k : ℕ, (k : ℤ) < n → r (m₁ (co k)) (m₂ (co k))

/-- `j_ν (all directions) = 4π j_ν (per steradian)`, scalar and vectorised -/
structure FourPi (i : NeutrinoAPI ℝ O) (o : O) : Prop where
  scalar : ∀ rho T Ye s ν,
    i.EmissivityPerNu o rho T Ye s ν = (i.EmissivityPerNuOmega o rho T Ye s ν).map' fun j => 4 * π * j
  vector : VectorRel i o (fun J j => J = 4 * π * j) .EmissivityPerNu .EmissivityPerNuOmega

/-- the angle average of the absorption coefficient is the absorption coefficient, scalar and vectorised -/
structure Isotropic (i : NeutrinoAPI ℝ O) (o : O) : Prop where
  scalar : ∀ rho T Ye s ν,
    i.AngleAveragedAbsorptionCoefficient o rho T Ye s ν = i.AbsorptionCoefficient o rho T Ye s ν
  vector : VectorRel i o (fun a α => a = α) .AngleAveragedAbsorptionCoefficient .AbsorptionCoefficient

/-- Kirchhoff's law: `j_ν = α_ν B_ν(T)` -/
def Kirchhoff (i : NeutrinoAPI ℝ O) (o : O) : Prop :=
  ∀ rho T Ye s ν j α, i.EmissivityPerNuOmega o rho T Ye s ν = .ok j → i.AbsorptionCoefficient o rho T Ye s ν = .ok α →
    j = α * i.ThermalDistributionOfTNu o T s ν

/-- where total emissivity is returned, it is the integral of the spectral emissivity `J_ν` -/
def TotalIsIntegral (i : NeutrinoAPI ℝ O) (o : O) : Prop :=
  ∀ rho T Ye s J (Jν : ℝ → ℝ), 0 < T → i.Emissivity o rho T Ye s = .ok J →
    (∀ ν, 0 < ν → i.EmissivityPerNu o rho T Ye s ν = .ok (Jν ν)) →
    IntegrableOn Jν (Ioi 0) ∧ J = ∫ ν in Ioi (0 : ℝ), Jν ν

/-- where number emissivity is returned for a positive density, it is the integral of the spectral emissivity
`J_ν / (hν)`, up to the relative error `ε` -/
def NumberIsIntegral (ε h : ℝ) (i : NeutrinoAPI ℝ O) (o : O) : Prop :=
  ∀ rho T Ye s N (Jν : ℝ → ℝ), 0 < rho → 0 < T → i.NumberEmissivity o rho T Ye s = .ok N →
    (∀ ν, 0 < ν → i.EmissivityPerNu o rho T Ye s ν = .ok (Jν ν)) →
    IntegrableOn (fun ν => Jν ν / (h * ν)) (Ioi 0) ∧
    |N - ∫ ν in Ioi (0 : ℝ), Jν ν / (h * ν)| ≤ ε * |∫ ν in Ioi (0 : ℝ), Jν ν / (h * ν)|

/-- the same with the returned number emissivity multiplied by the density in units of `ρ₁` -/
def NumberTimesDensityIsIntegral (ε h ρ₁ : ℝ) (i : NeutrinoAPI ℝ O) (o : O) : Prop :=
  ∀ rho T Ye s N (Jν : ℝ → ℝ), 0 < T → i.NumberEmissivity o rho T Ye s = .ok N →
    (∀ ν, 0 < ν → i.EmissivityPerNu o rho T Ye s ν = .ok (Jν ν)) →
    IntegrableOn (fun ν => Jν ν / (h * ν)) (Ioi 0) ∧
    |N * (rho / ρ₁) - ∫ ν in Ioi (0 : ℝ), Jν ν / (h * ν)| ≤ ε * |∫ ν in Ioi (0 : ℝ), Jν ν / (h * ν)|

/-- for the species in `S`, `k` times the returned total emissivity is the integral of the spectral emissivity `J_ν`, up
to the relative error `ε` -/
def TotalTimesIsIntegral (S : RadiationType → Prop) (k ε : ℝ) (i : NeutrinoAPI ℝ O) (o : O) : Prop :=
  ∀ rho T Ye s J (Jν : ℝ → ℝ), S s → 0 < T → i.Emissivity o rho T Ye s = .ok J →
    (∀ ν, 0 < ν → i.EmissivityPerNu o rho T Ye s ν = .ok (Jν ν)) →
    IntegrableOn Jν (Ioi 0) ∧ |k * J - ∫ ν in Ioi (0 : ℝ), Jν ν| ≤ ε * |∫ ν in Ioi (0 : ℝ), Jν ν|

/-- for the species in `S` and positive densities, `k` times the returned number emissivity is the integral of the spectral emissivity
`J_ν / (hν)`, up to the relative error `ε` -/
def NumberTimesIsIntegral (S : RadiationType → Prop) (k ε h : ℝ) (i : NeutrinoAPI ℝ O) (o : O) : Prop :=
  ∀ rho T Ye s N (Jν : ℝ → ℝ), S s → 0 < rho → 0 < T → i.NumberEmissivity o rho T Ye s = .ok N →
    (∀ ν, 0 < ν → i.EmissivityPerNu o rho T Ye s ν = .ok (Jν ν)) →
    IntegrableOn (fun ν => Jν ν / (h * ν)) (Ioi 0) ∧
    |k * N - ∫ ν in Ioi (0 : ℝ), Jν ν / (h * ν)| ≤ ε * |∫ ν in Ioi (0 : ℝ), Jν ν / (h * ν)|

/-- nothing emitted means nothing absorbed -/
def NoSpuriousAbsorption (i : NeutrinoAPI ℝ O) (o : O) : Prop :=
  ∀ rho T Ye s ν, 0 < T → 0 < ν → i.EmissivityPerNuOmega o rho T Ye s ν = .ok 0 →
    i.AbsorptionCoefficient o rho T Ye s ν = .ok 0

end Neutrinos
end Opac
