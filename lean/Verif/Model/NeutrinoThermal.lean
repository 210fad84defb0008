import Verif.Model.Constants

/-!
# Fermi–Dirac distribution
Models `singularity-opac/neutrinos/thermal_distributions_neutrinos.hpp`.
The template parameters `<NSPECIES, pc>` become the fields of `FermiDirac`.  The arguments `type` and `lambda`
are never read by these functions and are left out here (the API of the opacities keeps `type`).
-/

namespace Opac.Neutrinos
open Arith

variable {R : Type} [Arith R]

/-- `thermal_distributions_neutrinos.hpp:32-33`: the type `FermiDiracDistributionNoMu<NSPECIES, pc>` -/
structure FermiDirac (R : Type) where
  NSPECIES : ℤ
  pc : PC R

namespace FermiDirac

/-- the macro `EPS` of `thermal_distributions_neutrinos.hpp:30` -/
def EPS : R := lit 10.0 * dmin

/-- `thermal_distributions_neutrinos.hpp:34-41` -/
def ThermalDistributionOfTNu (d : FermiDirac R) (temp nu : R) : R :=
  let pc := d.pc
  let x := pc.h * nu / (pc.kb * temp)
  lit d.NSPECIES * (lit 2 * pc.h * nu * nu * nu / (pc.c * pc.c)) * lit 1 / (exp x + lit 1)

/-- `thermal_distributions_neutrinos.hpp:42-53` -/
def DThermalDistributionOfTNuDT (d : FermiDirac R) (temp nu : R) : R :=
  let pc := d.pc
  let x := pc.h * nu / (pc.kb * temp)
  let expmx := exp (-x)
  let denom := lit 1 + expmx
  let prefactor := lit d.NSPECIES *
    (lit 2 * pc.h * pc.h * nu * nu * nu * nu / (temp * temp * pc.c * pc.c * pc.kb))
  prefactor * expmx / (denom * denom)

/-- `thermal_distributions_neutrinos.hpp:54-59` -/
def ThermalDistributionOfT (d : FermiDirac R) (temp : R) : R :=
  let pc := d.pc
  lit 7 * pow pi (lit 5) * pow pc.kb (lit 4) * lit d.NSPECIES * pow temp (lit 4) /
    (lit 15 * pow pc.c (lit 2) * pow pc.h (lit 3))

/-- `thermal_distributions_neutrinos.hpp:60-66` -/
def ThermalNumberDistributionOfT (d : FermiDirac R) (temp : R) : R :=
  let pc := d.pc
  let zeta3 := lit 1.20206
  lit 12 * pow pc.kb (lit 3) * pi * lit d.NSPECIES * pow temp (lit 3) * zeta3 /
    (pow pc.c (lit 2) * pow pc.h (lit 3))

/-- `thermal_distributions_neutrinos.hpp:67-71` -/
def EnergyDensityFromTemperature (d : FermiDirac R) (temp : R) : R :=
  d.ThermalDistributionOfT temp / d.pc.c

/-- `thermal_distributions_neutrinos.hpp:72-79` -/
def TemperatureFromEnergyDensity (d : FermiDirac R) (er : R) : R :=
  let pc := d.pc
  pow (lit 15 * pow pc.c (lit 3) * pow pc.h (lit 3) * er /
    (lit 7 * pow pi (lit 5) * pow pc.kb (lit 4) * lit d.NSPECIES)) (lit 1 / lit 4)

/-- `thermal_distributions_neutrinos.hpp:80-84` -/
def NumberDensityFromTemperature (d : FermiDirac R) (temp : R) : R :=
  d.ThermalNumberDistributionOfT temp / d.pc.c

/-- `thermal_distributions_neutrinos.hpp:85-94`; the emitter `J` enters through the value of its
`EmissivityPerNuOmega(rho, temp, Ye, type, nu)` -/
def AbsorptionCoefficientFromKirchhoff (d : FermiDirac R) (jNuOmega : R) (temp nu : R) : R :=
  let Bnu := stdMax (d.ThermalDistributionOfTNu temp nu) EPS
  let jnu := stdMax jNuOmega EPS
  Robust.ratio jnu Bnu

/-- `thermal_distributions_neutrinos.hpp:95-105`; the emitter enters through its `EmissivityPerNu` -/
def AngleAveragedAbsorptionCoefficientFromKirchhoff (d : FermiDirac R) (jNu : R) (temp nu : R) : R :=
  let Bnu := stdMax (d.ThermalDistributionOfTNu temp nu) EPS
  let jnu := stdMax jNu EPS / (lit 4 * pi)
  Robust.ratio jnu Bnu

end FermiDirac
end Opac.Neutrinos
