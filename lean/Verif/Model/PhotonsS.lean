import Verif.Model.Constants

/-!
# Photon scattering opacities
Models `singularity-opac/photons/{gray,thomson,powerlaw}_s_opacity_photons.hpp`, `non_cgs_s_photons.hpp`
(`NonCGSUnitsS`) and `photon_s_variant.hpp` / `s_opac_photons.hpp`.
-/

namespace Opac.Photons
open Arith

/-- The API of every photon scattering opacity (`photon_s_variant.hpp:67-118`).  `PrintParams` and
`Finalize` (a no-op) are left out. -/
class PhotonSAPI (R : Type) (O : Type) where
  GetOnDevice : O → O
  nlambda : O → ℤ
  TotalCrossSection : O → (rho temp nu : R) → R
  DifferentialCrossSection : O → (rho temp nu mu : R) → R
  TotalScatteringCoefficient : O → (rho temp nu : R) → R

variable {R : Type} [Arith R]

/-- `gray_s_opacity_photons.hpp:30-35, 65-68` -/
structure GraySOpacity (R : Type) where
  sigma_ : R
  apm_ : R

/-- `gray_s_opacity_photons.hpp:37-63` -/
instance : PhotonSAPI R (GraySOpacity R) where
  GetOnDevice o := o                                                    -- 37
  nlambda _ := 0                                                        -- 39
  TotalCrossSection o _ _ _ := o.sigma_                                 -- 48-51
  DifferentialCrossSection o _ _ _ _ := o.sigma_ / (lit 4 * pi)         -- 54-57
  TotalScatteringCoefficient o rho _ _ := (rho / o.apm_) * o.sigma_     -- 60-63

/-- `thomson_s_opacity_photons.hpp:28-35, 65-68` -/
structure ThomsonSOpacity (R : Type) where
  sigmaT_ : R
  apm_ : R

/-- the constructor `thomson_s_opacity_photons.hpp:32-35` -/
def ThomsonSOpacity.construct (pc : PC R) (avg_particle_mass : R) : ThomsonSOpacity R :=
  { sigmaT_ := lit 8 * pi / lit 3 * pow (pc.alpha * pc.hbar / (pc.me * pc.c)) (lit 2)
    apm_ := avg_particle_mass }

/-- `thomson_s_opacity_photons.hpp:37-63` -/
instance : PhotonSAPI R (ThomsonSOpacity R) where
  GetOnDevice o := o                                                    -- 37
  nlambda _ := 0                                                        -- 39
  TotalCrossSection o _ _ _ := o.sigmaT_                                -- 47-50
  DifferentialCrossSection o _ _ _ _ := o.sigmaT_ / (lit 4 * pi)        -- 53-56
  TotalScatteringCoefficient o rho _ _ :=                               -- 59-63
    let ne := (rho / o.apm_) / lit 2
    ne * o.sigmaT_

/-- `powerlaw_s_opacity_photons.hpp:109-119` -/
structure PowerLawSOpacity (R : Type) where
  kappa0_ : R
  rho_exp_ : R
  temp_exp_ : R
  rho_ref_ : R
  rho_off_ : R
  temp_ref_ : R
  temp_off_ : R
  nu_exp_ : R
  nu_ref_ : R
  nu_off_ : R
  apm_ : R

namespace PowerLawSOpacity
/-- the constructor `powerlaw_s_opacity_photons.hpp:33-60` (argument order of the source) -/
def construct (kappa0 rho_exp temp_exp nu_exp nu_ref nu_off rho_ref rho_off temp_ref temp_off
    avg_particle_mass : R) : Outcome (PowerLawSOpacity R) :=
  if !(gt nu_ref (lit 0)) then .abort "PowerLawSOpacity: nu_ref must be positive"
  else if !(gt temp_ref (lit 0)) then .abort "PowerLawSOpacity: temp_ref must be positive"
  else if !(gt nu_ref (lit 0)) then .abort "PowerLawSOpacity: nu_ref must be positive"
  else if lt rho_off (lit 0) then .abort "PowerLawSOpacity: rho_off must be nonnegative"
  else if lt temp_off (lit 0) then .abort "PowerLawSOpacity: temp_off must be nonnegative"
  else if lt nu_off (lit 0) then .abort "PowerLawSOpacity: nu_off must be nonnegative"
  else .ok
    { kappa0_ := kappa0, rho_exp_ := rho_exp, temp_exp_ := temp_exp, rho_ref_ := rho_ref,
      rho_off_ := rho_off, temp_ref_ := temp_ref, temp_off_ := temp_off, nu_exp_ := nu_exp,
      nu_ref_ := nu_ref, nu_off_ := nu_off, apm_ := avg_particle_mass }
/-- `powerlaw_s_opacity_photons.hpp:103-107` -/
def OpacityPrefactor_ (o : PowerLawSOpacity R) (rho temp : R) : R :=
  let rhom := (rho + o.rho_off_) / o.rho_ref_
  let tempm := (temp + o.temp_off_) / o.temp_ref_
  o.kappa0_ * pow rhom o.rho_exp_ * pow tempm o.temp_exp_
/-- `powerlaw_s_opacity_photons.hpp:97-100` -/
def OpacityScale_ (o : PowerLawSOpacity R) (rho temp nu : R) : R :=
  o.OpacityPrefactor_ rho temp * pow ((nu + o.nu_off_) / o.nu_ref_) o.nu_exp_
end PowerLawSOpacity

/-- `powerlaw_s_opacity_photons.hpp:62-93` -/
instance : PhotonSAPI R (PowerLawSOpacity R) where
  GetOnDevice o := o                                                                          -- 62
  nlambda _ := 0                                                                              -- 64
  TotalCrossSection o rho temp nu := o.OpacityScale_ rho temp nu                              -- 77-80
  DifferentialCrossSection o rho temp nu _ := o.OpacityScale_ rho temp nu / (lit 4 * pi)      -- 83-87
  TotalScatteringCoefficient o rho temp nu := (rho / o.apm_) * o.OpacityScale_ rho temp nu    -- 90-93

/-- `non_cgs_s_photons.hpp:76-80` -/
structure NonCGSUnitsS (R : Type) (O : Type) where
  s_opac_ : O
  time_unit_ : R
  mass_unit_ : R
  length_unit_ : R
  temp_unit_ : R
  rho_unit_ : R
  freq_unit_ : R

/-- the constructor `non_cgs_s_photons.hpp:32-37` -/
def NonCGSUnitsS.construct {O : Type} (s_opac : O) (time_unit mass_unit length_unit temp_unit : R) :
    NonCGSUnitsS R O :=
  { s_opac_ := s_opac
    time_unit_ := time_unit
    mass_unit_ := mass_unit
    length_unit_ := length_unit
    temp_unit_ := temp_unit
    rho_unit_ := mass_unit / (length_unit * length_unit * length_unit)
    freq_unit_ := lit 1 / time_unit }

open PhotonSAPI in
/-- `non_cgs_s_photons.hpp:28-80` -/
instance {O : Type} [PhotonSAPI R O] : PhotonSAPI R (NonCGSUnitsS R O) where
  GetOnDevice w :=                                                                            -- 39-42
    NonCGSUnitsS.construct (PhotonSAPI.GetOnDevice R w.s_opac_) w.time_unit_ w.mass_unit_ w.length_unit_
      w.temp_unit_
  nlambda w := PhotonSAPI.nlambda R w.s_opac_                                                 -- 46
  TotalCrossSection w rho temp nu :=                                                          -- 49-54
    let sigma := TotalCrossSection w.s_opac_ (w.rho_unit_ * rho) (w.temp_unit_ * temp) (nu * w.freq_unit_)
    sigma / (w.length_unit_ * w.length_unit_)
  DifferentialCrossSection w rho temp nu mu :=                                                -- 57-62
    let dsigma := DifferentialCrossSection w.s_opac_ (w.rho_unit_ * rho) (w.temp_unit_ * temp)
      (nu * w.freq_unit_) mu
    dsigma / (w.length_unit_ * w.length_unit_)
  TotalScatteringCoefficient w rho temp nu :=                                                 -- 65-74
    let alpha := TotalScatteringCoefficient w.s_opac_ (w.rho_unit_ * rho) (w.temp_unit_ * temp)
      (nu * w.freq_unit_)
    alpha * w.length_unit_

/-- `s_opac_photons.hpp:29-36`: `S_Variant<ScaleFreeS, GrayS, ThomsonS, PowerLawS, NonCGSUnitsS<GrayS>,
NonCGSUnitsS<ThomsonS>, NonCGSUnitsS<PowerLawS>>` -/
inductive SOpacity (R : Type) where
  | ScaleFreeS (o : GraySOpacity R)
  | GrayS (o : GraySOpacity R)
  | ThomsonS (o : ThomsonSOpacity R)
  | PowerLawS (o : PowerLawSOpacity R)
  | NonCGSGrayS (o : NonCGSUnitsS R (GraySOpacity R))
  | NonCGSThomsonS (o : NonCGSUnitsS R (ThomsonSOpacity R))
  | NonCGSPowerLawS (o : NonCGSUnitsS R (PowerLawSOpacity R))

namespace SOpacity
/-- `PortsOfCall::visit` with a generic lambda, as used by `photon_s_variant.hpp:67-118` -/
def visit {α : Type} (f : {O : Type} → [PhotonSAPI R O] → O → α) : SOpacity R → α
  | ScaleFreeS o => f o
  | GrayS o => f o
  | ThomsonS o => f o
  | PowerLawS o => f o
  | NonCGSGrayS o => f o
  | NonCGSThomsonS o => f o
  | NonCGSPowerLawS o => f o

/-- `photon_s_variant.hpp:67-73` -/
def GetOnDevice : SOpacity R → SOpacity R
  | ScaleFreeS o => ScaleFreeS (PhotonSAPI.GetOnDevice R o)
  | GrayS o => GrayS (PhotonSAPI.GetOnDevice R o)
  | ThomsonS o => ThomsonS (PhotonSAPI.GetOnDevice R o)
  | PowerLawS o => PowerLawS (PhotonSAPI.GetOnDevice R o)
  | NonCGSGrayS o => NonCGSGrayS (PhotonSAPI.GetOnDevice R o)
  | NonCGSThomsonS o => NonCGSThomsonS (PhotonSAPI.GetOnDevice R o)
  | NonCGSPowerLawS o => NonCGSPowerLawS (PhotonSAPI.GetOnDevice R o)

/-- index of the held alternative, as tested by `IsType` (`photon_s_variant.hpp:120-123`) -/
def index : SOpacity R → ℕ
  | ScaleFreeS _ => 0 | GrayS _ => 1 | ThomsonS _ => 2 | PowerLawS _ => 3 | NonCGSGrayS _ => 4
  | NonCGSThomsonS _ => 5 | NonCGSPowerLawS _ => 6
end SOpacity

/-- `photon_s_variant.hpp:32-130` -/
instance : PhotonSAPI R (SOpacity R) where
  GetOnDevice := SOpacity.GetOnDevice                                                         -- 67-73
  nlambda v := v.visit (fun {O} [PhotonSAPI R O] (o : O) => PhotonSAPI.nlambda R o)           -- 115-118
  TotalCrossSection v rho temp nu :=                                                          -- 78-86
    v.visit (fun o => PhotonSAPI.TotalCrossSection o rho temp nu)
  DifferentialCrossSection v rho temp nu mu :=                                                -- 91-99
    v.visit (fun o => PhotonSAPI.DifferentialCrossSection o rho temp nu mu)
  TotalScatteringCoefficient v rho temp nu :=                                                 -- 104-112
    v.visit (fun o => PhotonSAPI.TotalScatteringCoefficient o rho temp nu)

end Opac.Photons
