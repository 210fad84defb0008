import Verif.Model.PhotonThermal
import Verif.Model.Heap

/-!
# Photon opacities
Models `singularity-opac/photons/{gray,epbremsstrahlung,powerlaw}_opacity_photons.hpp`,
`non_cgs_photons.hpp` (`NonCGSUnits`) and `photon_variant.hpp` / `opac_photons.hpp`.
-/

namespace Opac.Photons
open Arith

/-- The API every photon opacity offers (`photon_variant.hpp:67-287`; README "photon opacity").
Methods ending in `V` are the vectorised overloads.  `PrintParams` and `Finalize` (a no-op for every photon
opacity of the variant) have no observable effect on results and are left out. -/
class PhotonAPI (R : Type) (O : Type) where
  /-- the static type `O::PC` -/
  PCof : O → PC R
  GetOnDevice : O → O
  nlambda : O → ℤ
  AbsorptionCoefficient : O → (rho temp nu : R) → R
  AbsorptionCoefficientV : O → (rho temp : R) → Indexer → Indexer → ℤ → Heap R → Heap R
  AngleAveragedAbsorptionCoefficient : O → (rho temp nu : R) → R
  AngleAveragedAbsorptionCoefficientV : O → (rho temp : R) → Indexer → Indexer → ℤ → Heap R → Heap R
  EmissivityPerNuOmega : O → (rho temp nu : R) → R
  EmissivityPerNuOmegaV : O → (rho temp : R) → Indexer → Indexer → ℤ → Heap R → Heap R
  EmissivityPerNu : O → (rho temp nu : R) → R
  EmissivityPerNuV : O → (rho temp : R) → Indexer → Indexer → ℤ → Heap R → Heap R
  Emissivity : O → (rho temp : R) → Outcome R
  NumberEmissivity : O → (rho temp : R) → Outcome R
  ThermalDistributionOfTNu : O → (temp nu : R) → R
  DThermalDistributionOfTNuDT : O → (temp nu : R) → R
  ThermalDistributionOfT : O → (temp : R) → R
  ThermalNumberDistributionOfT : O → (temp : R) → R
  EnergyDensityFromTemperature : O → (temp : R) → R
  TemperatureFromEnergyDensity : O → (er : R) → R
  NumberDensityFromTemperature : O → (temp : R) → R
  GetRuntimePhysicalConstants : O → RPC R

variable {R : Type} [Arith R]

/-! ## Gray -/

/-- `gray_opacity_photons.hpp:29-37, 172-175` (the template parameter `pc` is kept as a field) -/
structure GrayOpacity (R : Type) where
  pc : PC R
  kappa_ : R

namespace GrayOpacity
/-- `gray_opacity_photons.hpp:48-52` -/
def AbsorptionCoefficient (o : GrayOpacity R) (rho _temp _nu : R) : R := rho * o.kappa_
/-- `gray_opacity_photons.hpp:64-69` -/
def AngleAveragedAbsorptionCoefficient (o : GrayOpacity R) (rho temp nu : R) : R :=
  o.AbsorptionCoefficient rho temp nu
/-- `gray_opacity_photons.hpp:81-86` -/
def EmissivityPerNuOmega (o : GrayOpacity R) (rho temp nu : R) : R :=
  let Bnu := Planck.ThermalDistributionOfTNu o.pc temp nu
  rho * o.kappa_ * Bnu
/-- `gray_opacity_photons.hpp:98-102` -/
def EmissivityPerNu (o : GrayOpacity R) (rho temp nu : R) : R :=
  lit 4 * pi * o.EmissivityPerNuOmega rho temp nu
/-- `gray_opacity_photons.hpp:114-119` -/
def Emissivity (o : GrayOpacity R) (rho temp : R) : R :=
  let B := Planck.ThermalDistributionOfT o.pc temp
  rho * o.kappa_ * B
/-- `gray_opacity_photons.hpp:121-125` -/
def NumberEmissivity (o : GrayOpacity R) (_rho temp : R) : R :=
  o.kappa_ * Planck.ThermalNumberDistributionOfT o.pc temp
end GrayOpacity

/-- `gray_opacity_photons.hpp:30-175`; vectorised loops at 54-62, 71-79, 88-96, 104-112; thermal
forwarding at 127-165; constants at 167-170 -/
instance : PhotonAPI R (GrayOpacity R) where
  PCof o := o.pc
  GetOnDevice o := o
  nlambda _ := 0
  AbsorptionCoefficient := GrayOpacity.AbsorptionCoefficient
  AbsorptionCoefficientV o rho temp := fillLoop (fun nu => o.AbsorptionCoefficient rho temp nu)
  AngleAveragedAbsorptionCoefficient := GrayOpacity.AngleAveragedAbsorptionCoefficient
  AngleAveragedAbsorptionCoefficientV o rho temp :=
    fillLoop (fun nu => o.AngleAveragedAbsorptionCoefficient rho temp nu)
  EmissivityPerNuOmega := GrayOpacity.EmissivityPerNuOmega
  EmissivityPerNuOmegaV o rho temp := fillLoop (fun nu => o.EmissivityPerNuOmega rho temp nu)
  EmissivityPerNu := GrayOpacity.EmissivityPerNu
  EmissivityPerNuV o rho temp := fillLoop (fun nu => o.EmissivityPerNu rho temp nu)
  Emissivity o rho temp := .ok (o.Emissivity rho temp)
  NumberEmissivity o rho temp := .ok (o.NumberEmissivity rho temp)
  ThermalDistributionOfTNu o := Planck.ThermalDistributionOfTNu o.pc
  DThermalDistributionOfTNuDT o := Planck.DThermalDistributionOfTNuDT o.pc
  ThermalDistributionOfT o := Planck.ThermalDistributionOfT o.pc
  ThermalNumberDistributionOfT o := Planck.ThermalNumberDistributionOfT o.pc
  EnergyDensityFromTemperature o := Planck.EnergyDensityFromTemperature o.pc
  TemperatureFromEnergyDensity o := Planck.TemperatureFromEnergyDensity o.pc
  NumberDensityFromTemperature o := Planck.NumberDensityFromTemperature o.pc
  GetRuntimePhysicalConstants o := RPC.ofPC o.pc

/-! ## Electron-proton bremsstrahlung -/

/-- `epbremsstrahlung_opacity_photons.hpp:31-37, 186-195` (`mass_ion_` is never used) -/
structure EPBremsstrahlungOpacity (R : Type) where
  pc : PC R

namespace EPBremsstrahlungOpacity
/-- `epbremsstrahlung_opacity_photons.hpp:189-190` -/
def mmw_ (o : EPBremsstrahlungOpacity R) : R := (o.pc.mp + o.pc.me) / lit 2
/-- `epbremsstrahlung_opacity_photons.hpp:191` -/
def gff_ : R := lit 1.2
/-- `epbremsstrahlung_opacity_photons.hpp:192-194` -/
def prefac_ (o : EPBremsstrahlungOpacity R) : R :=
  lit 8 * pow o.pc.qe (lit 6) / (lit 3 * pow (o.pc.me * o.pc.c * o.pc.c) (lit 2)) *
    sqrt (lit 2 * pi / lit 3)
/-- `epbremsstrahlung_opacity_photons.hpp:87-95` -/
def EmissivityPerNuOmega (o : EPBremsstrahlungOpacity R) (rho temp nu : R) : R :=
  let thetaE := o.pc.kb * temp / (o.pc.me * o.pc.c * o.pc.c)
  let x := o.pc.h * nu / (o.pc.kb * temp)
  let ne := rho / o.mmw_ / lit 2
  let ni := ne
  o.prefac_ / sqrt thetaE * ne * ni * exp (-x) * gff_
/-- `epbremsstrahlung_opacity_photons.hpp:107-111` -/
def EmissivityPerNu (o : EPBremsstrahlungOpacity R) (rho temp nu : R) : R :=
  lit 4 * pi * o.EmissivityPerNuOmega rho temp nu
/-- `epbremsstrahlung_opacity_photons.hpp:52-57` -/
def AbsorptionCoefficient (o : EPBremsstrahlungOpacity R) (rho temp nu : R) : R :=
  Planck.AbsorptionCoefficientFromKirchhoff o.pc o.EmissivityPerNuOmega rho temp nu
/-- `epbremsstrahlung_opacity_photons.hpp:69-75` -/
def AngleAveragedAbsorptionCoefficient (o : EPBremsstrahlungOpacity R) (rho temp nu : R) : R :=
  Planck.AngleAveragedAbsorptionCoefficientFromKirchhoff o.pc o.EmissivityPerNu rho temp nu
/-- `epbremsstrahlung_opacity_photons.hpp:123-132` -/
def Emissivity (o : EPBremsstrahlungOpacity R) (rho temp : R) : R :=
  let thetaE := o.pc.kb * temp / (o.pc.me * o.pc.c * o.pc.c)
  let ne := rho / o.mmw_ / lit 2
  let ni := ne
  lit 4 * pi * o.pc.kb * temp / o.pc.h * o.prefac_ / sqrt thetaE * ne * ni * gff_
/-- `epbremsstrahlung_opacity_photons.hpp:134-139` -/
def NumberEmissivity (_o : EPBremsstrahlungOpacity R) (_rho _temp : R) : R := infinity
end EPBremsstrahlungOpacity

/-- `epbremsstrahlung_opacity_photons.hpp:32-195`; vectorised loops at 59-67, 77-85, 97-105, 113-121;
thermal forwarding at 141-179; constants at 181-184 -/
instance : PhotonAPI R (EPBremsstrahlungOpacity R) where
  PCof o := o.pc
  GetOnDevice o := o
  nlambda _ := 0
  AbsorptionCoefficient := EPBremsstrahlungOpacity.AbsorptionCoefficient
  AbsorptionCoefficientV o rho temp := fillLoop (fun nu => o.AbsorptionCoefficient rho temp nu)
  AngleAveragedAbsorptionCoefficient := EPBremsstrahlungOpacity.AngleAveragedAbsorptionCoefficient
  AngleAveragedAbsorptionCoefficientV o rho temp :=
    fillLoop (fun nu => o.AngleAveragedAbsorptionCoefficient rho temp nu)
  EmissivityPerNuOmega := EPBremsstrahlungOpacity.EmissivityPerNuOmega
  EmissivityPerNuOmegaV o rho temp := fillLoop (fun nu => o.EmissivityPerNuOmega rho temp nu)
  EmissivityPerNu := EPBremsstrahlungOpacity.EmissivityPerNu
  EmissivityPerNuV o rho temp := fillLoop (fun nu => o.EmissivityPerNu rho temp nu)
  Emissivity o rho temp := .ok (o.Emissivity rho temp)
  NumberEmissivity o rho temp := .ok (o.NumberEmissivity rho temp)
  ThermalDistributionOfTNu o := Planck.ThermalDistributionOfTNu o.pc
  DThermalDistributionOfTNuDT o := Planck.DThermalDistributionOfTNuDT o.pc
  ThermalDistributionOfT o := Planck.ThermalDistributionOfT o.pc
  ThermalNumberDistributionOfT o := Planck.ThermalNumberDistributionOfT o.pc
  EnergyDensityFromTemperature o := Planck.EnergyDensityFromTemperature o.pc
  TemperatureFromEnergyDensity o := Planck.TemperatureFromEnergyDensity o.pc
  NumberDensityFromTemperature o := Planck.NumberDensityFromTemperature o.pc
  GetRuntimePhysicalConstants o := RPC.ofPC o.pc

/-! ## Power law -/

/-- `powerlaw_opacity_photons.hpp:248-259` -/
structure PowerLawOpacity (R : Type) where
  pc : PC R
  kappa0_ : R
  rho_exp_ : R
  temp_exp_ : R
  rho_ref_ : R
  rho_off_ : R
  temp_ref_ : R
  temp_off_ : R
  nu_exp_ : R
  nu_ref_ : R
  nu_off_ : R
  do_stim_emit_ : Bool

namespace PowerLawOpacity
/-- The constructor `powerlaw_opacity_photons.hpp:44-72` (argument order of the source; the overload at
36-43 forwards to it). -/
def construct (pc : PC R) (kappa0 rho_exp temp_exp nu_exp nu_ref nu_off rho_ref rho_off temp_ref
    temp_off : R) (do_stim_emit : Bool) : Outcome (PowerLawOpacity R) :=
  if !(gt rho_ref (lit 0)) then .abort "PowerLawOpacity: rho_ref must be positive"
  else if !(gt temp_ref (lit 0)) then .abort "PowerLawOpacity: temp_ref must be positive"
  else if !(gt nu_ref (lit 0)) then .abort "PowerLawOpacity: nu_ref must be positive"
  else if lt rho_off (lit 0) then .abort "PowerLawOpacity: rho_off must be nonnegative"
  else if lt temp_off (lit 0) then .abort "PowerLawOpacity: temp_off must be nonnegative"
  else if lt nu_off (lit 0) then .abort "PowerLawOpacity: nu_off must be nonnegative"
  else .ok
    { pc := pc, kappa0_ := kappa0, rho_exp_ := rho_exp, temp_exp_ := temp_exp, rho_ref_ := rho_ref,
      rho_off_ := rho_off, temp_ref_ := temp_ref, temp_off_ := temp_off, nu_exp_ := nu_exp,
      nu_ref_ := nu_ref, nu_off_ := nu_off, do_stim_emit_ := do_stim_emit }

/-- `powerlaw_opacity_photons.hpp:241-246` -/
def OpacityPrefactor_ (o : PowerLawOpacity R) (rho temp : R) : R :=
  let rhom := (rho + o.rho_off_) / o.rho_ref_
  let tempm := (temp + o.temp_off_) / o.temp_ref_
  o.kappa0_ * pow rhom o.rho_exp_ * pow tempm o.temp_exp_
/-- `powerlaw_opacity_photons.hpp:233-239` -/
def OpacityScale_ (o : PowerLawOpacity R) (rho temp nu : R) : R :=
  let freq_plaw := pow ((nu + o.nu_off_) / o.nu_ref_) o.nu_exp_
  let stim_fact := if o.do_stim_emit_ then -(expm1 (-(o.pc.h * nu / (o.pc.kb * temp)))) else lit 1
  o.OpacityPrefactor_ rho temp * freq_plaw * stim_fact
/-- `powerlaw_opacity_photons.hpp:87-91` -/
def AbsorptionCoefficient (o : PowerLawOpacity R) (rho temp nu : R) : R :=
  rho * o.OpacityScale_ rho temp nu
/-- `powerlaw_opacity_photons.hpp:103-108` -/
def AngleAveragedAbsorptionCoefficient (o : PowerLawOpacity R) (rho temp nu : R) : R :=
  o.AbsorptionCoefficient rho temp nu
/-- `powerlaw_opacity_photons.hpp:120-125` -/
def EmissivityPerNuOmega (o : PowerLawOpacity R) (rho temp nu : R) : R :=
  let Bnu := Planck.ThermalDistributionOfTNu o.pc temp nu
  rho * o.OpacityScale_ rho temp nu * Bnu
/-- `powerlaw_opacity_photons.hpp:137-141` -/
def EmissivityPerNu (o : PowerLawOpacity R) (rho temp nu : R) : R :=
  lit 4 * pi * o.EmissivityPerNuOmega rho temp nu
/-- `powerlaw_opacity_photons.hpp:153-169` -/
def Emissivity (o : PowerLawOpacity R) (rho temp : R) : Outcome R :=
  if !(eqb o.nu_exp_ (lit 0)) then
    .abort "PowerLawOpacity: total emissivity is only supported for nu_exp = 0."
  else .ok (rho * o.OpacityPrefactor_ rho temp * Planck.ThermalDistributionOfT o.pc temp)
/-- `powerlaw_opacity_photons.hpp:171-185` -/
def NumberEmissivity (o : PowerLawOpacity R) (rho temp : R) : Outcome R :=
  if !(eqb o.nu_exp_ (lit 0)) then
    .abort "PowerLawOpacity: total number emissivity is only supported for nu_exp = 0."
  else .ok (o.OpacityPrefactor_ rho temp * Planck.ThermalNumberDistributionOfT o.pc temp)
end PowerLawOpacity

/-- `powerlaw_opacity_photons.hpp:31-260`; vectorised loops at 93-101, 110-118, 127-135, 143-151; thermal
forwarding at 187-225; constants at 227-230 -/
instance : PhotonAPI R (PowerLawOpacity R) where
  PCof o := o.pc
  GetOnDevice o := o
  nlambda _ := 0
  AbsorptionCoefficient := PowerLawOpacity.AbsorptionCoefficient
  AbsorptionCoefficientV o rho temp := fillLoop (fun nu => o.AbsorptionCoefficient rho temp nu)
  AngleAveragedAbsorptionCoefficient := PowerLawOpacity.AngleAveragedAbsorptionCoefficient
  AngleAveragedAbsorptionCoefficientV o rho temp :=
    fillLoop (fun nu => o.AngleAveragedAbsorptionCoefficient rho temp nu)
  EmissivityPerNuOmega := PowerLawOpacity.EmissivityPerNuOmega
  EmissivityPerNuOmegaV o rho temp := fillLoop (fun nu => o.EmissivityPerNuOmega rho temp nu)
  EmissivityPerNu := PowerLawOpacity.EmissivityPerNu
  EmissivityPerNuV o rho temp := fillLoop (fun nu => o.EmissivityPerNu rho temp nu)
  Emissivity := PowerLawOpacity.Emissivity
  NumberEmissivity := PowerLawOpacity.NumberEmissivity
  ThermalDistributionOfTNu o := Planck.ThermalDistributionOfTNu o.pc
  DThermalDistributionOfTNuDT o := Planck.DThermalDistributionOfTNuDT o.pc
  ThermalDistributionOfT o := Planck.ThermalDistributionOfT o.pc
  ThermalNumberDistributionOfT o := Planck.ThermalNumberDistributionOfT o.pc
  EnergyDensityFromTemperature o := Planck.EnergyDensityFromTemperature o.pc
  TemperatureFromEnergyDensity o := Planck.TemperatureFromEnergyDensity o.pc
  NumberDensityFromTemperature o := Planck.NumberDensityFromTemperature o.pc
  GetRuntimePhysicalConstants o := RPC.ofPC o.pc

/-! ## Unit wrapper -/

/-- `non_cgs_photons.hpp:233-238` -/
structure NonCGSUnits (R : Type) (O : Type) where
  opac_ : O
  time_unit_ : R
  mass_unit_ : R
  length_unit_ : R
  temp_unit_ : R
  rho_unit_ : R
  freq_unit_ : R
  inv_emiss_unit_ : R
  inv_num_emiss_unit_ : R
  inv_intensity_unit_ : R
  inv_energy_dens_unit_ : R

namespace NonCGSUnits
variable {O : Type}

/-- the constructor `non_cgs_photons.hpp:37-48` -/
def construct (opac : O) (time_unit mass_unit length_unit temp_unit : R) : NonCGSUnits R O :=
  { opac_ := opac
    time_unit_ := time_unit
    mass_unit_ := mass_unit
    length_unit_ := length_unit
    temp_unit_ := temp_unit
    rho_unit_ := mass_unit / (length_unit * length_unit * length_unit)
    freq_unit_ := lit 1 / time_unit
    inv_emiss_unit_ := length_unit * time_unit * time_unit / mass_unit
    inv_num_emiss_unit_ := length_unit * length_unit * length_unit * time_unit
    inv_intensity_unit_ := time_unit * time_unit / mass_unit
    inv_energy_dens_unit_ := time_unit * time_unit * length_unit / mass_unit }
end NonCGSUnits

open PhotonAPI in
/-- `non_cgs_photons.hpp:31-238`.  Each field cites its lines. -/
instance {O : Type} [PhotonAPI R O] : PhotonAPI R (NonCGSUnits R O) where
  -- 34
  PCof w := PCof w.opac_
  -- 50-53 (runs the constructor again)
  GetOnDevice w :=
    NonCGSUnits.construct (PhotonAPI.GetOnDevice R w.opac_) w.time_unit_ w.mass_unit_ w.length_unit_
      w.temp_unit_
  -- 56-57
  nlambda w := PhotonAPI.nlambda R w.opac_
  -- 59-69
  AbsorptionCoefficient w rho temp nu :=
    let alpha := AbsorptionCoefficient w.opac_ (w.rho_unit_ * rho) (w.temp_unit_ * temp) (nu * w.freq_unit_)
    alpha * w.length_unit_
  -- 71-85
  AbsorptionCoefficientV w rho temp :=
    nonCGSVector (AbsorptionCoefficientV w.opac_ (rho * w.rho_unit_) (temp * w.temp_unit_))
      w.freq_unit_ w.time_unit_ w.length_unit_
  -- 87-94
  AngleAveragedAbsorptionCoefficient w rho temp nu :=
    let alpha := AngleAveragedAbsorptionCoefficient w.opac_ (rho * w.rho_unit_) (temp * w.temp_unit_)
      (nu * w.freq_unit_)
    alpha * w.length_unit_
  -- 98-111
  AngleAveragedAbsorptionCoefficientV w rho temp :=
    nonCGSVector (AngleAveragedAbsorptionCoefficientV w.opac_ (rho * w.rho_unit_) (temp * w.temp_unit_))
      w.freq_unit_ w.time_unit_ w.length_unit_
  -- 113-119
  EmissivityPerNuOmega w rho temp nu :=
    let jnu := EmissivityPerNuOmega w.opac_ (rho * w.rho_unit_) (temp * w.temp_unit_) (nu * w.freq_unit_)
    jnu * w.inv_emiss_unit_
  -- 121-135
  EmissivityPerNuOmegaV w rho temp :=
    nonCGSVector (EmissivityPerNuOmegaV w.opac_ (rho * w.rho_unit_) (temp * w.temp_unit_))
      w.freq_unit_ w.time_unit_ w.inv_emiss_unit_
  -- 137-143
  EmissivityPerNu w rho temp nu :=
    let Jnu := EmissivityPerNu w.opac_ (rho * w.rho_unit_) (temp * w.temp_unit_) (nu * w.freq_unit_)
    Jnu * w.inv_emiss_unit_
  -- 145-159
  EmissivityPerNuV w rho temp :=
    nonCGSVector (EmissivityPerNuV w.opac_ (rho * w.rho_unit_) (temp * w.temp_unit_))
      w.freq_unit_ w.time_unit_ w.inv_emiss_unit_
  -- 161-167
  Emissivity w rho temp :=
    (Emissivity w.opac_ (rho * w.rho_unit_) (temp * w.temp_unit_)).map'
      (fun J => J * w.inv_emiss_unit_ * w.time_unit_)
  -- 169-175
  NumberEmissivity w rho temp :=
    (NumberEmissivity w.opac_ (rho * w.rho_unit_) (temp * w.temp_unit_)).map'
      (fun JoH => JoH * w.inv_num_emiss_unit_)
  -- 177-183
  ThermalDistributionOfTNu w temp nu :=
    let BoH := ThermalDistributionOfTNu w.opac_ (temp * w.temp_unit_) (nu * w.freq_unit_)
    BoH * w.inv_intensity_unit_
  -- 185-190
  DThermalDistributionOfTNuDT w temp nu :=
    let dBdToH := DThermalDistributionOfTNuDT w.opac_ temp nu
    dBdToH * w.inv_intensity_unit_ * w.temp_unit_
  -- 192-196
  ThermalDistributionOfT w temp :=
    let BoH := ThermalDistributionOfT w.opac_ (temp * w.temp_unit_)
    BoH * w.inv_energy_dens_unit_ * w.time_unit_ / w.length_unit_
  -- 198-203
  ThermalNumberDistributionOfT w temp :=
    let NoH := ThermalNumberDistributionOfT w.opac_ (temp * w.temp_unit_)
    NoH * w.mass_unit_ / w.rho_unit_ * w.time_unit_ / w.length_unit_
  -- 205-210
  EnergyDensityFromTemperature w temp :=
    let BoH := EnergyDensityFromTemperature w.opac_ (temp * w.temp_unit_)
    BoH * w.inv_energy_dens_unit_
  -- 212-218
  TemperatureFromEnergyDensity w er :=
    let BoH := TemperatureFromEnergyDensity w.opac_ (er / w.inv_energy_dens_unit_)
    BoH / w.temp_unit_
  -- 220-225
  NumberDensityFromTemperature w temp :=
    let NoH := NumberDensityFromTemperature w.opac_ (temp * w.temp_unit_)
    NoH * w.mass_unit_ / w.rho_unit_
  -- 227-231
  GetRuntimePhysicalConstants w :=
    RPC.ofUnits (PCof w.opac_) w.time_unit_ w.mass_unit_ w.length_unit_ w.temp_unit_

/-! ## Variant -/

/-- `opac_photons.hpp:30-38`: `Variant<ScaleFree, Gray, PowerLawScaleFree, PowerLaw, EPBremss,
NonCGSUnits<Gray>, NonCGSUnits<PowerLaw>, NonCGSUnits<EPBremss>>`.  The alternatives are distinguished by
the constructor; the fixed template arguments (`PhysicalConstantsUnity`/`PhysicalConstantsCGS`) are carried
by the stored object. -/
inductive Opacity (R : Type) where
  | ScaleFree (o : GrayOpacity R)
  | Gray (o : GrayOpacity R)
  | PowerLawScaleFree (o : PowerLawOpacity R)
  | PowerLaw (o : PowerLawOpacity R)
  | EPBremss (o : EPBremsstrahlungOpacity R)
  | NonCGSGray (o : NonCGSUnits R (GrayOpacity R))
  | NonCGSPowerLaw (o : NonCGSUnits R (PowerLawOpacity R))
  | NonCGSEPBremss (o : NonCGSUnits R (EPBremsstrahlungOpacity R))

namespace Opacity
/-- `PortsOfCall::visit` with a generic lambda (used by every method of `photon_variant.hpp:67-287`): run
the lambda on the held alternative. -/
def visit {α : Type} (f : {O : Type} → [PhotonAPI R O] → O → α) : Opacity R → α
  | ScaleFree o => f o
  | Gray o => f o
  | PowerLawScaleFree o => f o
  | PowerLaw o => f o
  | EPBremss o => f o
  | NonCGSGray o => f o
  | NonCGSPowerLaw o => f o
  | NonCGSEPBremss o => f o

/-- `photon_variant.hpp:67-71`: visit, and wrap the device copy in the same alternative -/
def GetOnDevice : Opacity R → Opacity R
  | ScaleFree o => ScaleFree (PhotonAPI.GetOnDevice R o)
  | Gray o => Gray (PhotonAPI.GetOnDevice R o)
  | PowerLawScaleFree o => PowerLawScaleFree (PhotonAPI.GetOnDevice R o)
  | PowerLaw o => PowerLaw (PhotonAPI.GetOnDevice R o)
  | EPBremss o => EPBremss (PhotonAPI.GetOnDevice R o)
  | NonCGSGray o => NonCGSGray (PhotonAPI.GetOnDevice R o)
  | NonCGSPowerLaw o => NonCGSPowerLaw (PhotonAPI.GetOnDevice R o)
  | NonCGSEPBremss o => NonCGSEPBremss (PhotonAPI.GetOnDevice R o)

/-- index of the held alternative, as tested by `holds_alternative` (`photon_variant.hpp:273-276`) -/
def index : Opacity R → ℕ
  | ScaleFree _ => 0 | Gray _ => 1 | PowerLawScaleFree _ => 2 | PowerLaw _ => 3 | EPBremss _ => 4
  | NonCGSGray _ => 5 | NonCGSPowerLaw _ => 6 | NonCGSEPBremss _ => 7

/-- `operator=(Choice&&)` (`photon_variant.hpp:48-56`): the new value replaces the old one -/
def assign (_old new : Opacity R) : Opacity R := new
end Opacity

/-- `photon_variant.hpp:32-288`: each method visits the held alternative with the call's arguments -/
instance : PhotonAPI R (Opacity R) where
  PCof v := v.visit (fun o => PhotonAPI.PCof o)
  GetOnDevice := Opacity.GetOnDevice                                                       -- 67-71
  nlambda v := v.visit (fun {O} [PhotonAPI R O] (o : O) => PhotonAPI.nlambda R o)          -- 267-271
  AbsorptionCoefficient v rho temp nu :=                                                   -- 82-90
    v.visit (fun o => PhotonAPI.AbsorptionCoefficient o rho temp nu)
  AbsorptionCoefficientV v rho temp nb co n m :=                                           -- 92-102
    v.visit (fun o => PhotonAPI.AbsorptionCoefficientV o rho temp nb co n m)
  AngleAveragedAbsorptionCoefficient v rho temp nu :=                                      -- 107-115
    v.visit (fun o => PhotonAPI.AngleAveragedAbsorptionCoefficient o rho temp nu)
  AngleAveragedAbsorptionCoefficientV v rho temp nb co n m :=                              -- 117-127
    v.visit (fun o => PhotonAPI.AngleAveragedAbsorptionCoefficientV o rho temp nb co n m)
  EmissivityPerNuOmega v rho temp nu :=                                                    -- 131-139
    v.visit (fun o => PhotonAPI.EmissivityPerNuOmega o rho temp nu)
  EmissivityPerNuOmegaV v rho temp nb co n m :=                                            -- 141-152
    v.visit (fun o => PhotonAPI.EmissivityPerNuOmegaV o rho temp nb co n m)
  EmissivityPerNu v rho temp nu :=                                                         -- 155-163
    v.visit (fun o => PhotonAPI.EmissivityPerNu o rho temp nu)
  EmissivityPerNuV v rho temp nb co n m :=                                                 -- 165-176
    v.visit (fun o => PhotonAPI.EmissivityPerNuV o rho temp nb co n m)
  Emissivity v rho temp := v.visit (fun o => PhotonAPI.Emissivity o rho temp)              -- 179-184
  NumberEmissivity v rho temp := v.visit (fun o => PhotonAPI.NumberEmissivity o rho temp)  -- 187-195
  ThermalDistributionOfTNu v temp nu :=                                                    -- 198-205
    v.visit (fun o => PhotonAPI.ThermalDistributionOfTNu o temp nu)
  DThermalDistributionOfTNuDT v temp nu :=                                                 -- 208-215
    v.visit (fun o => PhotonAPI.DThermalDistributionOfTNuDT o temp nu)
  ThermalDistributionOfT v temp := v.visit (fun o => PhotonAPI.ThermalDistributionOfT o temp) -- 218-225
  ThermalNumberDistributionOfT v temp :=                                                   -- 228-235
    v.visit (fun o => PhotonAPI.ThermalNumberDistributionOfT o temp)
  EnergyDensityFromTemperature v temp :=                                                   -- 238-245
    v.visit (fun o => PhotonAPI.EnergyDensityFromTemperature o temp)
  TemperatureFromEnergyDensity v er :=                                                     -- 248-255
    v.visit (fun o => PhotonAPI.TemperatureFromEnergyDensity o er)
  NumberDensityFromTemperature v temp :=                                                   -- 258-265
    v.visit (fun o => PhotonAPI.NumberDensityFromTemperature o temp)
  GetRuntimePhysicalConstants v := v.visit (fun o => PhotonAPI.GetRuntimePhysicalConstants o) -- 73-77

end Opac.Photons
