import Verif.Model.NeutrinoThermal
import Verif.Model.SpinerOpac
import Verif.Model.Heap

/-!
# Neutrino opacities
Models `singularity-opac/neutrinos/{gray_opacity,tophat_emissivity,brt}_neutrinos.hpp`,
`non_cgs_neutrinos.hpp` (`NonCGSUnits`) and `neutrino_variant.hpp` / `opac_neutrinos.hpp`.
-/

namespace Opac
open Arith Spiner

section
variable {R : Type} [Arith R]

/-- `for (int i = 0; i < nbins; ++i) coeffs[i] = f(nu_bins[i]);` where the evaluation may hit UB, e.g.
`neutrinos/spiner_opac_neutrinos.hpp:222-225` -/
def fillLoopM (f : R → Outcome R) (nu_bins coeffs : Indexer) (nbins : ℤ) (m : Heap R) : Outcome (Heap R) :=
  forLoopM nbins (fun i m => (f (m (nu_bins i))).map' (fun v => Function.update m (coeffs i) v)) m

/-- The vectorised methods of the neutrino unit wrapper (`neutrinos/non_cgs_neutrinos.hpp:70-85` and the
three analogous methods) -/
def nonCGSVectorM (inner : Indexer → Indexer → ℤ → Heap R → Outcome (Heap R))
    (freq_unit time_unit out_unit : R) (nu_bins coeffs : Indexer) (nbins : ℤ) (m : Heap R) : Outcome (Heap R) :=
  (inner nu_bins coeffs nbins (scaleLoop nu_bins freq_unit nbins m)).map'
    (scaleLoop2 nu_bins time_unit coeffs out_unit nbins)
end
end Opac

namespace Opac.Neutrinos
open Arith

/-- The API every neutrino opacity offers (`neutrino_variant.hpp:67-289`).  Methods ending in `V` are the
vectorised overloads.  `PrintParams` and `Finalize` are left out. -/
class NeutrinoAPI (R : Type) (O : Type) where
  /-- the static type `O::PC` -/
  PCof : O → PC R
  GetOnDevice : O → O
  nlambda : O → ℤ
  AbsorptionCoefficient : O → (rho temp Ye : R) → RadiationType → (nu : R) → Outcome R
  AbsorptionCoefficientV : O → (rho temp Ye : R) → RadiationType → Indexer → Indexer → ℤ → Heap R →
    Outcome (Heap R)
  AngleAveragedAbsorptionCoefficient : O → (rho temp Ye : R) → RadiationType → (nu : R) → Outcome R
  AngleAveragedAbsorptionCoefficientV : O → (rho temp Ye : R) → RadiationType → Indexer → Indexer → ℤ →
    Heap R → Outcome (Heap R)
  EmissivityPerNuOmega : O → (rho temp Ye : R) → RadiationType → (nu : R) → Outcome R
  EmissivityPerNuOmegaV : O → (rho temp Ye : R) → RadiationType → Indexer → Indexer → ℤ → Heap R →
    Outcome (Heap R)
  EmissivityPerNu : O → (rho temp Ye : R) → RadiationType → (nu : R) → Outcome R
  EmissivityPerNuV : O → (rho temp Ye : R) → RadiationType → Indexer → Indexer → ℤ → Heap R →
    Outcome (Heap R)
  Emissivity : O → (rho temp Ye : R) → RadiationType → Outcome R
  NumberEmissivity : O → (rho temp Ye : R) → RadiationType → Outcome R
  ThermalDistributionOfTNu : O → (temp : R) → RadiationType → (nu : R) → R
  DThermalDistributionOfTNuDT : O → (temp : R) → RadiationType → (nu : R) → R
  ThermalDistributionOfT : O → (temp : R) → RadiationType → R
  ThermalNumberDistributionOfT : O → (temp : R) → RadiationType → R
  EnergyDensityFromTemperature : O → (temp : R) → RadiationType → R
  TemperatureFromEnergyDensity : O → (er : R) → RadiationType → R
  NumberDensityFromTemperature : O → (temp : R) → RadiationType → R
  GetRuntimePhysicalConstants : O → RPC R

variable {R : Type} [Arith R]

/-! ## Gray -/

/-- `gray_opacity_neutrinos.hpp:31-37, 181-184` (the template parameters are kept as fields) -/
structure GrayOpacity (R : Type) where
  dist : FermiDirac R
  pc : PC R
  kappa_ : R

namespace GrayOpacity
/-- `gray_opacity_neutrinos.hpp:48-53` -/
def AbsorptionCoefficient (o : GrayOpacity R) (rho _temp _Ye : R) (_type : RadiationType) (_nu : R) : R :=
  rho * o.kappa_
/-- `gray_opacity_neutrinos.hpp:66-73` -/
def AngleAveragedAbsorptionCoefficient (o : GrayOpacity R) (rho _temp _Ye : R) (_type : RadiationType)
    (_nu : R) : R :=
  rho * o.kappa_
/-- `gray_opacity_neutrinos.hpp:85-91` -/
def EmissivityPerNuOmega (o : GrayOpacity R) (rho temp _Ye : R) (_type : RadiationType) (nu : R) : R :=
  let Bnu := o.dist.ThermalDistributionOfTNu temp nu
  rho * o.kappa_ * Bnu
/-- `gray_opacity_neutrinos.hpp:104-109` -/
def EmissivityPerNu (o : GrayOpacity R) (rho temp Ye : R) (type : RadiationType) (nu : R) : R :=
  lit 4 * pi * o.EmissivityPerNuOmega rho temp Ye type nu
/-- `gray_opacity_neutrinos.hpp:122-127` -/
def Emissivity (o : GrayOpacity R) (rho temp _Ye : R) (_type : RadiationType) : R :=
  let B := o.dist.ThermalDistributionOfT temp
  rho * o.kappa_ * B
/-- `gray_opacity_neutrinos.hpp:129-133` -/
def NumberEmissivity (o : GrayOpacity R) (_rho temp _Ye : R) (_type : RadiationType) : R :=
  o.kappa_ * o.dist.ThermalNumberDistributionOfT temp
end GrayOpacity

/-- `gray_opacity_neutrinos.hpp:30-185`: thermal forwarding at 135-175, vectorised loops in between -/
instance : NeutrinoAPI R (GrayOpacity R) where
  PCof o := o.pc
  GetOnDevice o := o
  nlambda _ := 0
  AbsorptionCoefficient o rho temp Ye type nu := .ok (o.AbsorptionCoefficient rho temp Ye type nu)
  AbsorptionCoefficientV o rho temp Ye type nb co n m :=
    .ok (fillLoop (fun nu => o.AbsorptionCoefficient rho temp Ye type nu) nb co n m)
  AngleAveragedAbsorptionCoefficient o rho temp Ye type nu :=
    .ok (o.AngleAveragedAbsorptionCoefficient rho temp Ye type nu)
  AngleAveragedAbsorptionCoefficientV o rho temp Ye type nb co n m :=
    .ok (fillLoop (fun nu => o.AngleAveragedAbsorptionCoefficient rho temp Ye type nu) nb co n m)
  EmissivityPerNuOmega o rho temp Ye type nu := .ok (o.EmissivityPerNuOmega rho temp Ye type nu)
  EmissivityPerNuOmegaV o rho temp Ye type nb co n m :=
    .ok (fillLoop (fun nu => o.EmissivityPerNuOmega rho temp Ye type nu) nb co n m)
  EmissivityPerNu o rho temp Ye type nu := .ok (o.EmissivityPerNu rho temp Ye type nu)
  EmissivityPerNuV o rho temp Ye type nb co n m :=
    .ok (fillLoop (fun nu => o.EmissivityPerNu rho temp Ye type nu) nb co n m)
  Emissivity o rho temp Ye type := .ok (o.Emissivity rho temp Ye type)
  NumberEmissivity o rho temp Ye type := .ok (o.NumberEmissivity rho temp Ye type)
  ThermalDistributionOfTNu o temp _ nu := o.dist.ThermalDistributionOfTNu temp nu
  DThermalDistributionOfTNuDT o temp _ nu := o.dist.DThermalDistributionOfTNuDT temp nu
  ThermalDistributionOfT o temp _ := o.dist.ThermalDistributionOfT temp
  ThermalNumberDistributionOfT o temp _ := o.dist.ThermalNumberDistributionOfT temp
  EnergyDensityFromTemperature o temp _ := o.dist.EnergyDensityFromTemperature temp
  TemperatureFromEnergyDensity o er _ := o.dist.TemperatureFromEnergyDensity er
  NumberDensityFromTemperature o temp _ := o.dist.NumberDensityFromTemperature temp
  GetRuntimePhysicalConstants o := RPC.ofPC o.pc

/-! ## Tophat emissivity -/

/-- `tophat_emissivity_neutrinos.hpp:31-41, 209-212` -/
structure TophatEmissivity (R : Type) where
  dist : FermiDirac R
  pc : PC R
  C_ : R
  numin_ : R
  numax_ : R

namespace TophatEmissivity
/-- `tophat_emissivity_neutrinos.hpp:199-208` -/
def GetYeF (type : RadiationType) (Ye : R) : R :=
  match type with
  | .NU_ELECTRON => lit 2 * Ye
  | .NU_ELECTRON_ANTI => lit 1 - lit 2 * Ye
  | _ => lit 0
/-- `tophat_emissivity_neutrinos.hpp:95-104` -/
def EmissivityPerNuOmega (o : TophatEmissivity R) (_rho _temp Ye : R) (type : RadiationType) (nu : R) : R :=
  if gt nu o.numin_ && lt nu o.numax_ then o.C_ * GetYeF type Ye else lit 0
/-- `tophat_emissivity_neutrinos.hpp:117-122` -/
def EmissivityPerNu (o : TophatEmissivity R) (rho temp Ye : R) (type : RadiationType) (nu : R) : R :=
  lit 4 * pi * o.EmissivityPerNuOmega rho temp Ye type nu
/-- `tophat_emissivity_neutrinos.hpp:53-60` -/
def AbsorptionCoefficient (o : TophatEmissivity R) (rho temp Ye : R) (type : RadiationType) (nu : R) : R :=
  o.dist.AbsorptionCoefficientFromKirchhoff (o.EmissivityPerNuOmega rho temp Ye type nu) temp nu /
    (lit 4 * pi)
/-- `tophat_emissivity_neutrinos.hpp:74-82` -/
def AngleAveragedAbsorptionCoefficient (o : TophatEmissivity R) (rho temp Ye : R) (type : RadiationType)
    (nu : R) : R :=
  o.dist.AngleAveragedAbsorptionCoefficientFromKirchhoff (o.EmissivityPerNu rho temp Ye type nu) temp nu
/-- `tophat_emissivity_neutrinos.hpp:135-141` -/
def Emissivity (o : TophatEmissivity R) (_rho _temp Ye : R) (type : RadiationType) : R :=
  let Bc := o.C_ * (o.numax_ - o.numin_)
  lit 4 * pi * Bc * GetYeF type Ye
/-- `tophat_emissivity_neutrinos.hpp:143-149` -/
def NumberEmissivity (o : TophatEmissivity R) (rho _temp Ye : R) (type : RadiationType) : R :=
  let Ac := lit 1 / (o.pc.h * rho) * o.C_ * log (o.numax_ / o.numin_)
  lit 4 * pi * rho * Ac * GetYeF type Ye
end TophatEmissivity

/-- `tophat_emissivity_neutrinos.hpp:32-213` -/
instance : NeutrinoAPI R (TophatEmissivity R) where
  PCof o := o.pc
  GetOnDevice o := o
  nlambda _ := 0
  AbsorptionCoefficient o rho temp Ye type nu := .ok (o.AbsorptionCoefficient rho temp Ye type nu)
  AbsorptionCoefficientV o rho temp Ye type nb co n m :=
    .ok (fillLoop (fun nu => o.AbsorptionCoefficient rho temp Ye type nu) nb co n m)
  AngleAveragedAbsorptionCoefficient o rho temp Ye type nu :=
    .ok (o.AngleAveragedAbsorptionCoefficient rho temp Ye type nu)
  AngleAveragedAbsorptionCoefficientV o rho temp Ye type nb co n m :=
    .ok (fillLoop (fun nu => o.AngleAveragedAbsorptionCoefficient rho temp Ye type nu) nb co n m)
  EmissivityPerNuOmega o rho temp Ye type nu := .ok (o.EmissivityPerNuOmega rho temp Ye type nu)
  EmissivityPerNuOmegaV o rho temp Ye type nb co n m :=
    .ok (fillLoop (fun nu => o.EmissivityPerNuOmega rho temp Ye type nu) nb co n m)
  EmissivityPerNu o rho temp Ye type nu := .ok (o.EmissivityPerNu rho temp Ye type nu)
  EmissivityPerNuV o rho temp Ye type nb co n m :=
    .ok (fillLoop (fun nu => o.EmissivityPerNu rho temp Ye type nu) nb co n m)
  Emissivity o rho temp Ye type := .ok (o.Emissivity rho temp Ye type)
  NumberEmissivity o rho temp Ye type := .ok (o.NumberEmissivity rho temp Ye type)
  ThermalDistributionOfTNu o temp _ nu := o.dist.ThermalDistributionOfTNu temp nu
  DThermalDistributionOfTNuDT o temp _ nu := o.dist.DThermalDistributionOfTNuDT temp nu
  ThermalDistributionOfT o temp _ := o.dist.ThermalDistributionOfT temp
  ThermalNumberDistributionOfT o temp _ := o.dist.ThermalNumberDistributionOfT temp
  EnergyDensityFromTemperature o temp _ := o.dist.EnergyDensityFromTemperature temp
  TemperatureFromEnergyDensity o er _ := o.dist.TemperatureFromEnergyDensity er
  NumberDensityFromTemperature o temp _ := o.dist.NumberDensityFromTemperature temp
  GetRuntimePhysicalConstants o := RPC.ofPC o.pc

/-! ## Burrows–Reddy–Thompson -/

/-- `brt_neutrinos.hpp:31-38, 223` -/
structure BRTOpacity (R : Type) where
  dist : FermiDirac R
  pc : PC R

namespace BRTOpacity
/-- `brt_neutrinos.hpp:219` -/
def Deltanp_ : R := lit 2.072126995e-6
/-- `brt_neutrinos.hpp:220` -/
def mu_ (o : BRTOpacity R) : R := o.pc.mp
/-- `brt_neutrinos.hpp:221` -/
def zeta3_ : R := lit 1.2020569031595942853
/-- `brt_neutrinos.hpp:222` -/
def zeta5_ : R := lit 1.0369277551433699263
/-- `brt_neutrinos.hpp:181-189` -/
def GetSigmac (o : BRTOpacity R) (type : RadiationType) (nu : R) : R :=
  match type with
  | .NU_ELECTRON =>
    o.pc.nu_sigma0 * ((lit 1 + lit 3 * o.pc.gA * o.pc.gA) / lit 4) *
      pow ((o.pc.h * nu + Deltanp_) / (o.pc.me * o.pc.c * o.pc.c)) (lit 2)
  | _ => lit 0
/-- `brt_neutrinos.hpp:191-205` -/
def GetAlphac (o : BRTOpacity R) (rho temp : R) (type : RadiationType) : R :=
  match type with
  | .NU_ELECTRON =>
    let retval := (lit 1 + lit 3 * o.pc.gA * o.pc.gA) * pow (o.pc.kb * temp) (lit 4) * rho * o.pc.nu_sigma0
    let retval := retval * (lit 310 * pow (o.pc.kb * temp) (lit 2) * pow pi (lit 6) +
      lit 147 * pow pi (lit 4) * Deltanp_ * Deltanp_ +
      lit 113400 * o.pc.kb * temp * Deltanp_ * zeta5_)
    retval / (lit 5040 * pow o.pc.c (lit 6) * pow o.pc.h (lit 3) * pow o.pc.me (lit 2) * o.mu_)
  | _ => lit 0
/-- `brt_neutrinos.hpp:207-217` (`type` is not read) -/
def GetNAlphac (o : BRTOpacity R) (rho temp : R) (_type : RadiationType) : R :=
  let retval := (lit 1 + lit 3 * o.pc.gA * o.pc.gA) * pow (o.pc.kb * temp) (lit 3) * rho * o.pc.nu_sigma0
  let retval := retval * (lit 7 * o.pc.kb * pow pi (lit 4) * temp * Deltanp_ +
    lit 90 * pow Deltanp_ (lit 2) * zeta3_ +
    lit 1350 * pow (o.pc.kb * temp) (lit 2) * zeta5_)
  retval / (lit 120 * pow o.pc.c (lit 6) * pow o.pc.h (lit 3) * pow o.pc.me (lit 2) * o.mu_)
/-- `brt_neutrinos.hpp:48-53` -/
def AbsorptionCoefficient (o : BRTOpacity R) (rho _temp _Ye : R) (type : RadiationType) (nu : R) : R :=
  rho / o.mu_ * o.GetSigmac type nu
/-- `brt_neutrinos.hpp:65-72` -/
def AngleAveragedAbsorptionCoefficient (o : BRTOpacity R) (rho _temp _Ye : R) (type : RadiationType)
    (nu : R) : R :=
  rho / o.mu_ * o.GetSigmac type nu
/-- `brt_neutrinos.hpp:84-90` -/
def EmissivityPerNuOmega (o : BRTOpacity R) (rho temp _Ye : R) (type : RadiationType) (nu : R) : R :=
  let Bnu := o.dist.ThermalDistributionOfTNu temp nu
  rho / o.mu_ * o.GetSigmac type nu * Bnu
/-- `brt_neutrinos.hpp:103-108` -/
def EmissivityPerNu (o : BRTOpacity R) (rho temp Ye : R) (type : RadiationType) (nu : R) : R :=
  lit 4 * pi * o.EmissivityPerNuOmega rho temp Ye type nu
/-- `brt_neutrinos.hpp:120-125` (the local `B` is unused) -/
def Emissivity (o : BRTOpacity R) (rho temp _Ye : R) (type : RadiationType) : R :=
  lit 4 * pi * o.GetAlphac rho temp type
/-- `brt_neutrinos.hpp:127-131` -/
def NumberEmissivity (o : BRTOpacity R) (rho temp _Ye : R) (type : RadiationType) : R :=
  lit 4 * pi * o.GetNAlphac rho temp type
end BRTOpacity

/-- `brt_neutrinos.hpp:31-224` -/
instance : NeutrinoAPI R (BRTOpacity R) where
  PCof o := o.pc
  GetOnDevice o := o
  nlambda _ := 0
  AbsorptionCoefficient o rho temp Ye type nu := .ok (o.AbsorptionCoefficient rho temp Ye type nu)
  AbsorptionCoefficientV o rho temp Ye type nb co n m :=
    .ok (fillLoop (fun nu => o.AbsorptionCoefficient rho temp Ye type nu) nb co n m)
  AngleAveragedAbsorptionCoefficient o rho temp Ye type nu :=
    .ok (o.AngleAveragedAbsorptionCoefficient rho temp Ye type nu)
  AngleAveragedAbsorptionCoefficientV o rho temp Ye type nb co n m :=
    .ok (fillLoop (fun nu => o.AngleAveragedAbsorptionCoefficient rho temp Ye type nu) nb co n m)
  EmissivityPerNuOmega o rho temp Ye type nu := .ok (o.EmissivityPerNuOmega rho temp Ye type nu)
  EmissivityPerNuOmegaV o rho temp Ye type nb co n m :=
    .ok (fillLoop (fun nu => o.EmissivityPerNuOmega rho temp Ye type nu) nb co n m)
  EmissivityPerNu o rho temp Ye type nu := .ok (o.EmissivityPerNu rho temp Ye type nu)
  EmissivityPerNuV o rho temp Ye type nb co n m :=
    .ok (fillLoop (fun nu => o.EmissivityPerNu rho temp Ye type nu) nb co n m)
  Emissivity o rho temp Ye type := .ok (o.Emissivity rho temp Ye type)
  NumberEmissivity o rho temp Ye type := .ok (o.NumberEmissivity rho temp Ye type)
  ThermalDistributionOfTNu o temp _ nu := o.dist.ThermalDistributionOfTNu temp nu
  DThermalDistributionOfTNuDT o temp _ nu := o.dist.DThermalDistributionOfTNuDT temp nu
  ThermalDistributionOfT o temp _ := o.dist.ThermalDistributionOfT temp
  ThermalNumberDistributionOfT o temp _ := o.dist.ThermalNumberDistributionOfT temp
  EnergyDensityFromTemperature o temp _ := o.dist.EnergyDensityFromTemperature temp
  TemperatureFromEnergyDensity o er _ := o.dist.TemperatureFromEnergyDensity er
  NumberDensityFromTemperature o temp _ := o.dist.NumberDensityFromTemperature temp
  GetRuntimePhysicalConstants o := RPC.ofPC o.pc

/-! ## Tabulated (Spiner) -/

namespace SpinerOpacity
/-- what the fill constructor reads from any opacity with the neutrino API -/
def sampled {O : Type} [NeutrinoAPI R O] (o : O) : Sampled R :=
  { Emissivity := NeutrinoAPI.Emissivity o
    NumberEmissivity := NeutrinoAPI.NumberEmissivity o
    AbsorptionCoefficient := NeutrinoAPI.AbsorptionCoefficient o
    EmissivityPerNuOmega := NeutrinoAPI.EmissivityPerNuOmega o }
end SpinerOpacity

/-- `spiner_opac_neutrinos.hpp:62-562`; vectorised loops at 213-226, 247-259, 273-286, 295-309 (the
logarithms of `rho` and `temp` are computed once before the loop) -/
instance : NeutrinoAPI R (SpinerOpacity R) where
  PCof o := o.pc
  GetOnDevice := SpinerOpacity.GetOnDevice
  nlambda _ := 0
  AbsorptionCoefficient := SpinerOpacity.AbsorptionCoefficient
  AbsorptionCoefficientV o rho temp Ye type := fillLoopM (fun nu => o.AbsorptionCoefficient rho temp Ye type nu)
  AngleAveragedAbsorptionCoefficient := SpinerOpacity.AngleAveragedAbsorptionCoefficient
  AngleAveragedAbsorptionCoefficientV o rho temp Ye type :=
    fillLoopM (fun nu => o.AngleAveragedAbsorptionCoefficient rho temp Ye type nu)
  EmissivityPerNuOmega := SpinerOpacity.EmissivityPerNuOmega
  EmissivityPerNuOmegaV o rho temp Ye type := fillLoopM (fun nu => o.EmissivityPerNuOmega rho temp Ye type nu)
  EmissivityPerNu := SpinerOpacity.EmissivityPerNu
  EmissivityPerNuV o rho temp Ye type := fillLoopM (fun nu => o.EmissivityPerNu rho temp Ye type nu)
  Emissivity := SpinerOpacity.Emissivity
  NumberEmissivity := SpinerOpacity.NumberEmissivity
  ThermalDistributionOfTNu o temp _ nu := o.dist.ThermalDistributionOfTNu temp nu
  DThermalDistributionOfTNuDT o temp _ nu := o.dist.DThermalDistributionOfTNuDT temp nu
  ThermalDistributionOfT o temp _ := o.dist.ThermalDistributionOfT temp
  ThermalNumberDistributionOfT o temp _ := o.dist.ThermalNumberDistributionOfT temp
  EnergyDensityFromTemperature o temp _ := o.dist.EnergyDensityFromTemperature temp
  TemperatureFromEnergyDensity o er _ := o.dist.TemperatureFromEnergyDensity er
  NumberDensityFromTemperature o temp _ := o.dist.NumberDensityFromTemperature temp
  GetRuntimePhysicalConstants o := RPC.ofPC o.pc

/-! ## Unit wrapper -/

/-- `non_cgs_neutrinos.hpp:247-251` -/
structure NonCGSUnits (R : Type) (O : Type) where
  opac_ : O
  time_unit_ : R
  mass_unit_ : R
  length_unit_ : R
  temp_unit_ : R
  rho_unit_ : R
  freq_unit_ : R
  inv_emiss_unit_ : R
  inv_num_emiss_unit_ : R
  inv_intensity_unit_ : R
  inv_energy_dens_unit_ : R

/-- the constructor `non_cgs_neutrinos.hpp:34-45` -/
def NonCGSUnits.construct {O : Type} (opac : O) (time_unit mass_unit length_unit temp_unit : R) :
    NonCGSUnits R O :=
  { opac_ := opac
    time_unit_ := time_unit
    mass_unit_ := mass_unit
    length_unit_ := length_unit
    temp_unit_ := temp_unit
    rho_unit_ := mass_unit / (length_unit * length_unit * length_unit)
    freq_unit_ := lit 1 / time_unit
    inv_emiss_unit_ := length_unit * time_unit * time_unit / mass_unit
    inv_num_emiss_unit_ := length_unit * length_unit * length_unit * time_unit
    inv_intensity_unit_ := time_unit * time_unit / mass_unit
    inv_energy_dens_unit_ := time_unit * time_unit * length_unit / mass_unit }

open NeutrinoAPI in
/-- `non_cgs_neutrinos.hpp:28-252`.  Each field cites its lines. -/
instance {O : Type} [NeutrinoAPI R O] : NeutrinoAPI R (NonCGSUnits R O) where
  -- 31
  PCof w := PCof w.opac_
  -- 47-50 (runs the constructor again)
  GetOnDevice w :=
    NonCGSUnits.construct (NeutrinoAPI.GetOnDevice R w.opac_) w.time_unit_ w.mass_unit_ w.length_unit_
      w.temp_unit_
  -- 54-55
  nlambda w := NeutrinoAPI.nlambda R w.opac_
  -- 57-68
  AbsorptionCoefficient w rho temp Ye type nu :=
    (AbsorptionCoefficient w.opac_ (w.rho_unit_ * rho) (w.temp_unit_ * temp) Ye type
      (nu * w.freq_unit_)).map' (fun alpha => alpha * w.length_unit_)
  -- 70-85
  AbsorptionCoefficientV w rho temp Ye type :=
    nonCGSVectorM (AbsorptionCoefficientV w.opac_ (rho * w.rho_unit_) (temp * w.temp_unit_) Ye type)
      w.freq_unit_ w.time_unit_ w.length_unit_
  -- 87-96
  AngleAveragedAbsorptionCoefficient w rho temp Ye type nu :=
    (AngleAveragedAbsorptionCoefficient w.opac_ (rho * w.rho_unit_) (temp * w.temp_unit_) Ye type
      (nu * w.freq_unit_)).map' (fun alpha => alpha * w.length_unit_)
  -- 100-115
  AngleAveragedAbsorptionCoefficientV w rho temp Ye type :=
    nonCGSVectorM (AngleAveragedAbsorptionCoefficientV w.opac_ (rho * w.rho_unit_) (temp * w.temp_unit_) Ye
      type) w.freq_unit_ w.time_unit_ w.length_unit_
  -- 117-124
  EmissivityPerNuOmega w rho temp Ye type nu :=
    (EmissivityPerNuOmega w.opac_ (rho * w.rho_unit_) (temp * w.temp_unit_) Ye type
      (nu * w.freq_unit_)).map' (fun jnu => jnu * w.inv_emiss_unit_)
  -- 126-141
  EmissivityPerNuOmegaV w rho temp Ye type :=
    nonCGSVectorM (EmissivityPerNuOmegaV w.opac_ (rho * w.rho_unit_) (temp * w.temp_unit_) Ye type)
      w.freq_unit_ w.time_unit_ w.inv_emiss_unit_
  -- 143-150
  EmissivityPerNu w rho temp Ye type nu :=
    (EmissivityPerNu w.opac_ (rho * w.rho_unit_) (temp * w.temp_unit_) Ye type
      (nu * w.freq_unit_)).map' (fun Jnu => Jnu * w.inv_emiss_unit_)
  -- 152-167
  EmissivityPerNuV w rho temp Ye type :=
    nonCGSVectorM (EmissivityPerNuV w.opac_ (rho * w.rho_unit_) (temp * w.temp_unit_) Ye type)
      w.freq_unit_ w.time_unit_ w.inv_emiss_unit_
  -- 169-176
  Emissivity w rho temp Ye type :=
    (Emissivity w.opac_ (rho * w.rho_unit_) (temp * w.temp_unit_) Ye type).map'
      (fun J => J * w.inv_emiss_unit_ * w.time_unit_)
  -- 178-184
  NumberEmissivity w rho temp Ye type :=
    (NumberEmissivity w.opac_ (rho * w.rho_unit_) (temp * w.temp_unit_) Ye type).map'
      (fun JoH => JoH * w.inv_num_emiss_unit_)
  -- 186-192
  ThermalDistributionOfTNu w temp type nu :=
    let BoH := ThermalDistributionOfTNu w.opac_ (temp * w.temp_unit_) type (nu * w.freq_unit_)
    BoH * w.inv_intensity_unit_
  -- 194-200
  DThermalDistributionOfTNuDT w temp type nu :=
    let dBdToH := DThermalDistributionOfTNuDT w.opac_ temp type nu
    dBdToH * w.inv_intensity_unit_ * w.temp_unit_
  -- 202-207
  ThermalDistributionOfT w temp type :=
    let BoH := ThermalDistributionOfT w.opac_ (temp * w.temp_unit_) type
    BoH * w.inv_energy_dens_unit_ * w.time_unit_ / w.length_unit_
  -- 209-215
  ThermalNumberDistributionOfT w temp type :=
    let NoH := ThermalNumberDistributionOfT w.opac_ (temp * w.temp_unit_) type
    NoH * w.mass_unit_ / w.rho_unit_ * w.time_unit_ / w.length_unit_
  -- 217-223
  EnergyDensityFromTemperature w temp type :=
    let BoH := EnergyDensityFromTemperature w.opac_ (temp * w.temp_unit_) type
    BoH * w.inv_energy_dens_unit_
  -- 225-231
  TemperatureFromEnergyDensity w er type :=
    let BoH := TemperatureFromEnergyDensity w.opac_ (er / w.inv_energy_dens_unit_) type
    BoH / w.temp_unit_
  -- 233-239
  NumberDensityFromTemperature w temp type :=
    let NoH := NumberDensityFromTemperature w.opac_ (temp * w.temp_unit_) type
    NoH * w.mass_unit_ / w.rho_unit_
  -- 241-245
  GetRuntimePhysicalConstants w :=
    RPC.ofUnits (PCof w.opac_) w.time_unit_ w.mass_unit_ w.length_unit_ w.temp_unit_

/-! ## Variant -/

/-- `opac_neutrinos.hpp:33-44`: `Variant<ScaleFree, BRTOpac, Gray, Tophat, SpinerOpac, NonCGSUnits<BRTOpac>,
NonCGSUnits<Gray>, NonCGSUnits<Tophat>, NonCGSUnits<SpinerOpac>>` (the last of each only with
`SPINER_USE_HDF`) -/
inductive Opacity (R : Type) where
  | ScaleFree (o : GrayOpacity R)
  | BRTOpac (o : BRTOpacity R)
  | Gray (o : GrayOpacity R)
  | Tophat (o : TophatEmissivity R)
  | SpinerOpac (o : SpinerOpacity R)
  | NonCGSBRT (o : NonCGSUnits R (BRTOpacity R))
  | NonCGSGray (o : NonCGSUnits R (GrayOpacity R))
  | NonCGSTophat (o : NonCGSUnits R (TophatEmissivity R))
  | NonCGSSpiner (o : NonCGSUnits R (SpinerOpacity R))

namespace Opacity
/-- `PortsOfCall::visit` with a generic lambda, as used by every method of `neutrino_variant.hpp:67-289` -/
def visit {α : Type} (f : {O : Type} → [NeutrinoAPI R O] → O → α) : Opacity R → α
  | ScaleFree o => f o
  | BRTOpac o => f o
  | Gray o => f o
  | Tophat o => f o
  | SpinerOpac o => f o
  | NonCGSBRT o => f o
  | NonCGSGray o => f o
  | NonCGSTophat o => f o
  | NonCGSSpiner o => f o

/-- `neutrino_variant.hpp:67-71`: visit, and wrap the device copy in the same alternative -/
def GetOnDevice : Opacity R → Opacity R
  | ScaleFree o => ScaleFree (NeutrinoAPI.GetOnDevice R o)
  | BRTOpac o => BRTOpac (NeutrinoAPI.GetOnDevice R o)
  | Gray o => Gray (NeutrinoAPI.GetOnDevice R o)
  | Tophat o => Tophat (NeutrinoAPI.GetOnDevice R o)
  | SpinerOpac o => SpinerOpac (NeutrinoAPI.GetOnDevice R o)
  | NonCGSBRT o => NonCGSBRT (NeutrinoAPI.GetOnDevice R o)
  | NonCGSGray o => NonCGSGray (NeutrinoAPI.GetOnDevice R o)
  | NonCGSTophat o => NonCGSTophat (NeutrinoAPI.GetOnDevice R o)
  | NonCGSSpiner o => NonCGSSpiner (NeutrinoAPI.GetOnDevice R o)

/-- index of the held alternative, as tested by `holds_alternative` (`neutrino_variant.hpp`) -/
def index : Opacity R → ℕ
  | ScaleFree _ => 0
  | BRTOpac _ => 1
  | Gray _ => 2
  | Tophat _ => 3
  | SpinerOpac _ => 4
  | NonCGSBRT _ => 5
  | NonCGSGray _ => 6
  | NonCGSTophat _ => 7
  | NonCGSSpiner _ => 8

/-- `operator=(Choice&&)` (`neutrino_variant.hpp:48-56`) -/
def assign (_old new : Opacity R) : Opacity R := new
end Opacity

/-- `neutrino_variant.hpp:32-290`: each method visits the held alternative with the call's arguments -/
instance : NeutrinoAPI R (Opacity R) where
  PCof v := v.visit (fun o => NeutrinoAPI.PCof o)
  GetOnDevice := Opacity.GetOnDevice
  nlambda v := v.visit (fun {O} [NeutrinoAPI R O] (o : O) => NeutrinoAPI.nlambda R o)
  AbsorptionCoefficient v rho temp Ye type nu :=
    v.visit (fun o => NeutrinoAPI.AbsorptionCoefficient o rho temp Ye type nu)
  AbsorptionCoefficientV v rho temp Ye type nb co n m :=
    v.visit (fun o => NeutrinoAPI.AbsorptionCoefficientV o rho temp Ye type nb co n m)
  AngleAveragedAbsorptionCoefficient v rho temp Ye type nu :=
    v.visit (fun o => NeutrinoAPI.AngleAveragedAbsorptionCoefficient o rho temp Ye type nu)
  AngleAveragedAbsorptionCoefficientV v rho temp Ye type nb co n m :=
    v.visit (fun o => NeutrinoAPI.AngleAveragedAbsorptionCoefficientV o rho temp Ye type nb co n m)
  EmissivityPerNuOmega v rho temp Ye type nu :=
    v.visit (fun o => NeutrinoAPI.EmissivityPerNuOmega o rho temp Ye type nu)
  EmissivityPerNuOmegaV v rho temp Ye type nb co n m :=
    v.visit (fun o => NeutrinoAPI.EmissivityPerNuOmegaV o rho temp Ye type nb co n m)
  EmissivityPerNu v rho temp Ye type nu :=
    v.visit (fun o => NeutrinoAPI.EmissivityPerNu o rho temp Ye type nu)
  EmissivityPerNuV v rho temp Ye type nb co n m :=
    v.visit (fun o => NeutrinoAPI.EmissivityPerNuV o rho temp Ye type nb co n m)
  Emissivity v rho temp Ye type := v.visit (fun o => NeutrinoAPI.Emissivity o rho temp Ye type)
  NumberEmissivity v rho temp Ye type := v.visit (fun o => NeutrinoAPI.NumberEmissivity o rho temp Ye type)
  ThermalDistributionOfTNu v temp type nu := v.visit (fun o => NeutrinoAPI.ThermalDistributionOfTNu o temp type nu)
  DThermalDistributionOfTNuDT v temp type nu := v.visit (fun o => NeutrinoAPI.DThermalDistributionOfTNuDT o temp type nu)
  ThermalDistributionOfT v x type := v.visit (fun o => NeutrinoAPI.ThermalDistributionOfT o x type)
  ThermalNumberDistributionOfT v x type := v.visit (fun o => NeutrinoAPI.ThermalNumberDistributionOfT o x type)
  EnergyDensityFromTemperature v x type := v.visit (fun o => NeutrinoAPI.EnergyDensityFromTemperature o x type)
  TemperatureFromEnergyDensity v x type := v.visit (fun o => NeutrinoAPI.TemperatureFromEnergyDensity o x type)
  NumberDensityFromTemperature v x type := v.visit (fun o => NeutrinoAPI.NumberDensityFromTemperature o x type)
  GetRuntimePhysicalConstants v := v.visit (fun o => NeutrinoAPI.GetRuntimePhysicalConstants o)

end Opac.Neutrinos
