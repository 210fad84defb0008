import Verif.Model.Constants

/-!
# Planck distribution
Models `singularity-opac/photons/thermal_distributions_photons.hpp`.
The template parameter `pc` becomes the argument `pc : PC R`.  The `lambda` pointer is never read by any
photon model and is left out everywhere.
-/

namespace Opac.Planck
open Arith

variable {R : Type} [Arith R]

/-- `thermal_distributions_photons.hpp:30-37` -/
def ThermalDistributionOfTNu (pc : PC R) (temp nu : R) : R :=
  let x := pc.h * nu / (pc.kb * temp)
  (lit 2 * pc.h * nu * nu * nu / (pc.c * pc.c)) * lit 1 / expm1 x

/-- `thermal_distributions_photons.hpp:38-48` -/
def DThermalDistributionOfTNuDT (pc : PC R) (temp nu : R) : R :=
  let x := pc.h * nu / (pc.kb * temp)
  let expmx := exp (-x)
  let one_minus_expmx := -(expm1 (-x))
  let prefactor := lit 2 * pc.h * pc.h * nu * nu * nu * nu / (temp * temp * pc.c * pc.c * pc.kb)
  prefactor * expmx / (one_minus_expmx * one_minus_expmx)

/-- `thermal_distributions_photons.hpp:49-55` -/
def ThermalDistributionOfT (pc : PC R) (temp : R) : R :=
  lit 8 * pow pi (lit 5) * pow pc.kb (lit 4) * pow temp (lit 4) /
    (lit 15 * pow pc.c (lit 2) * pow pc.h (lit 3))

/-- `thermal_distributions_photons.hpp:56-62` -/
def ThermalNumberDistributionOfT (pc : PC R) (temp : R) : R :=
  let zeta3 := lit 1.20206
  lit 16 * pow pc.kb (lit 3) * pi * pow temp (lit 3) * zeta3 / (pow pc.c (lit 2) * pow pc.h (lit 3))

/-- `thermal_distributions_photons.hpp:63-67` -/
def EnergyDensityFromTemperature (pc : PC R) (temp : R) : R :=
  ThermalDistributionOfT pc temp / pc.c

/-- `thermal_distributions_photons.hpp:68-74` -/
def TemperatureFromEnergyDensity (pc : PC R) (er : R) : R :=
  pow (lit 15 * pow pc.c (lit 3) * pow pc.h (lit 3) * er / (lit 8 * pow pi (lit 5) * pow pc.kb (lit 4)))
    (lit 1 / lit 4)

/-- `thermal_distributions_photons.hpp:75-79` -/
def NumberDensityFromTemperature (pc : PC R) (temp : R) : R :=
  ThermalNumberDistributionOfT pc temp / pc.c

/-- `thermal_distributions_photons.hpp:80-87`; the emitter `J` enters through its
`EmissivityPerNuOmega(rho, temp, nu)`. -/
def AbsorptionCoefficientFromKirchhoff (pc : PC R) (jNuOmega : R → R → R → R) (rho temp nu : R) : R :=
  let Bnu := ThermalDistributionOfTNu pc temp nu
  let jnu := jNuOmega rho temp nu
  Robust.ratio jnu Bnu

/-- `thermal_distributions_photons.hpp:88-95`; the emitter enters through its `EmissivityPerNu`. -/
def AngleAveragedAbsorptionCoefficientFromKirchhoff (pc : PC R) (jNu : R → R → R → R)
    (rho temp nu : R) : R :=
  let Bnu := ThermalDistributionOfTNu pc temp nu
  let jnu := jNu rho temp nu / (lit 4 * pi)
  Robust.ratio jnu Bnu

end Opac.Planck
