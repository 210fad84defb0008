import Verif.Model.Constants

/-!
# Neutrino scattering opacities
Models `singularity-opac/neutrinos/gray_s_opacity_neutrinos.hpp`, `non_cgs_s_neutrinos.hpp`
(`NonCGSUnitsS`) and `neutrino_s_variant.hpp` / `s_opac_neutrinos.hpp`.
-/

namespace Opac.Neutrinos
open Arith

/-- The API of every neutrino scattering opacity (`neutrino_s_variant.hpp:67-122`).  `PrintParams` and
`Finalize` (a no-op) are left out. -/
class NeutrinoSAPI (R : Type) (O : Type) where
  GetOnDevice : O → O
  nlambda : O → ℤ
  TotalCrossSection : O → (rho temp Ye : R) → RadiationType → (nu : R) → R
  DifferentialCrossSection : O → (rho temp Ye : R) → RadiationType → (nu mu : R) → R
  TotalScatteringCoefficient : O → (rho temp Ye : R) → RadiationType → (nu : R) → R

variable {R : Type} [Arith R]

/-- `gray_s_opacity_neutrinos.hpp:27-32, 66-68` -/
structure GraySOpacity (R : Type) where
  sigma_ : R
  apm_ : R

/-- `gray_s_opacity_neutrinos.hpp:34-64` -/
instance : NeutrinoSAPI R (GraySOpacity R) where
  GetOnDevice o := o                                                      -- 34
  nlambda _ := 0                                                          -- 36
  TotalCrossSection o _ _ _ _ _ := o.sigma_                               -- 44-49
  DifferentialCrossSection o _ _ _ _ _ _ := o.sigma_ / (lit 4 * pi)       -- 51-56
  TotalScatteringCoefficient o rho _ _ _ _ := (rho / o.apm_) * o.sigma_   -- 58-63

/-- `non_cgs_s_neutrinos.hpp:83-86` -/
structure NonCGSUnitsS (R : Type) (O : Type) where
  s_opac_ : O
  time_unit_ : R
  mass_unit_ : R
  length_unit_ : R
  temp_unit_ : R
  rho_unit_ : R
  freq_unit_ : R

/-- the constructor `non_cgs_s_neutrinos.hpp:32-37` -/
def NonCGSUnitsS.construct {O : Type} (s_opac : O) (time_unit mass_unit length_unit temp_unit : R) :
    NonCGSUnitsS R O :=
  { s_opac_ := s_opac
    time_unit_ := time_unit
    mass_unit_ := mass_unit
    length_unit_ := length_unit
    temp_unit_ := temp_unit
    rho_unit_ := mass_unit / (length_unit * length_unit * length_unit)
    freq_unit_ := lit 1 / time_unit }

open NeutrinoSAPI in
/-- `non_cgs_s_neutrinos.hpp:28-86` -/
instance {O : Type} [NeutrinoSAPI R O] : NeutrinoSAPI R (NonCGSUnitsS R O) where
  GetOnDevice w :=                                                                            -- 39-42
    NonCGSUnitsS.construct (NeutrinoSAPI.GetOnDevice R w.s_opac_) w.time_unit_ w.mass_unit_ w.length_unit_
      w.temp_unit_
  nlambda w := NeutrinoSAPI.nlambda R w.s_opac_                                               -- 45-46
  TotalCrossSection w rho temp Ye type nu :=                                                  -- 48-55
    let sigma := TotalCrossSection w.s_opac_ (w.rho_unit_ * rho) (w.temp_unit_ * temp) Ye type
      (nu * w.freq_unit_)
    sigma / (w.length_unit_ * w.length_unit_)
  DifferentialCrossSection w rho temp Ye type nu mu :=                                        -- 57-65
    let dsigma := DifferentialCrossSection w.s_opac_ (w.rho_unit_ * rho) (w.temp_unit_ * temp) Ye type
      (nu * w.freq_unit_) mu
    dsigma / (w.length_unit_ * w.length_unit_)
  TotalScatteringCoefficient w rho temp Ye type nu :=                                         -- 67-78
    let alpha := TotalScatteringCoefficient w.s_opac_ (w.rho_unit_ * rho) (w.temp_unit_ * temp) Ye type
      (nu * w.freq_unit_)
    alpha * w.length_unit_

/-- `s_opac_neutrinos.hpp:27-30`: `S_Variant<ScaleFreeS, GrayS, NonCGSUnitsS<GrayS>>` -/
inductive SOpacity (R : Type) where
  | ScaleFreeS (o : GraySOpacity R)
  | GrayS (o : GraySOpacity R)
  | NonCGSGrayS (o : NonCGSUnitsS R (GraySOpacity R))

namespace SOpacity
/-- `PortsOfCall::visit` with a generic lambda, as used by `neutrino_s_variant.hpp:67-122` -/
def visit {α : Type} (f : {O : Type} → [NeutrinoSAPI R O] → O → α) : SOpacity R → α
  | ScaleFreeS o => f o
  | GrayS o => f o
  | NonCGSGrayS o => f o

/-- `neutrino_s_variant.hpp:67-73` -/
def GetOnDevice : SOpacity R → SOpacity R
  | ScaleFreeS o => ScaleFreeS (NeutrinoSAPI.GetOnDevice R o)
  | GrayS o => GrayS (NeutrinoSAPI.GetOnDevice R o)
  | NonCGSGrayS o => NonCGSGrayS (NeutrinoSAPI.GetOnDevice R o)

/-- index of the held alternative, as tested by `IsType` (`neutrino_s_variant.hpp:124-127`) -/
def index : SOpacity R → ℕ
  | ScaleFreeS _ => 0 | GrayS _ => 1 | NonCGSGrayS _ => 2
end SOpacity

/-- `neutrino_s_variant.hpp:32-130` -/
instance : NeutrinoSAPI R (SOpacity R) where
  GetOnDevice := SOpacity.GetOnDevice                                                         -- 67-73
  nlambda v := v.visit (fun {O} [NeutrinoSAPI R O] (o : O) => NeutrinoSAPI.nlambda R o)       -- 118-122
  TotalCrossSection v rho temp Ye type nu :=                                                  -- 78-86
    v.visit (fun o => NeutrinoSAPI.TotalCrossSection o rho temp Ye type nu)
  DifferentialCrossSection v rho temp Ye type nu mu :=                                        -- 91-100
    v.visit (fun o => NeutrinoSAPI.DifferentialCrossSection o rho temp Ye type nu mu)
  TotalScatteringCoefficient v rho temp Ye type nu :=                                         -- 105-115
    v.visit (fun o => NeutrinoSAPI.TotalScatteringCoefficient o rho temp Ye type nu)

end Opac.Neutrinos
