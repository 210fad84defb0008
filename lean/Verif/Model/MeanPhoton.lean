import Verif.Model.MeanUtils
import Verif.Model.Hdf
import Verif.Model.Photons
import Verif.Model.PhotonsS

/-!
# Multigroup mean opacities of photons

Models `photons/mean_opacity_photons.hpp`, `photons/mean_s_opacity_photons.hpp`,
`photons/mean_photon_variant.hpp`, `photons/mean_photon_s_variant.hpp` and the `MeanNonCGSUnits` part of
`photons/non_cgs_photons.hpp`.

`MeanOpacity` and `MeanSOpacity` are the same code up to the names of members, datasets and of the
averaged coefficient, so the shared part is modelled once, on `MGTables`.

`assert` on the physical constants (`mean_opacity_photons.hpp:316-320`) is active in debug builds only and
not modelled.  `PORTABLE_REQUIRE` is active in debug builds only: the accessors that use it take the flag
`debug`.
-/

namespace Opac.Photons
open Arith Spiner Hdf

variable {R : Type} [Arith R]

/-- members `mean_opacity_photons.hpp:404-407`, `mean_s_opacity_photons.hpp:346-349`.
(`ngroups_` is never negative after a constructor returned.) -/
structure MGTables (R : Type) where
  lPlanck : DataBox R
  lRosseland : DataBox R
  groupBounds : List R
  ngroups : ℕ

namespace MGTables

/-- Sums of `B·dnu` and `dBdT·dnu` over one group: `mean_opacity_photons.hpp:342-358`,
`mean_s_opacity_photons.hpp:284-300` -/
def GroupDenominators (pc : PC R) (T nuMin nuMax : R) (NNuPerGroup : ℤ) : R × R :=
  (GroupFrequencySamples pc T nuMin nuMax NNuPerGroup).foldl
    (fun acc s =>
      let w := ThermalWeightsAtNu pc T s.1
      (acc.1 + w.1 * s.2, acc.2 + w.2 * s.2)) (lit 0, lit 0)

/-- Numerators of the Planck and Rosseland means of one group; `coef` is `opac.AbsorptionCoefficient` or
`s_opac.TotalScatteringCoefficient`: `mean_opacity_photons.hpp:365-382`,
`mean_s_opacity_photons.hpp:307-324` -/
def GroupNumerators (pc : PC R) (coef : R → R → R → R) (rho T nuMin nuMax : R) (NNuPerGroup : ℤ) : R × R :=
  (GroupFrequencySamples pc T nuMin nuMax NNuPerGroup).foldl
    (fun acc s =>
      let alpha := coef rho T s.1
      let w := ThermalWeightsAtNu pc T s.1
      (acc.1 + alpha / rho * w.1 * s.2,
       if gt alpha Robust.SMALL then acc.2 + Robust.ratio rho alpha * w.2 * s.2 else acc.2))
    (lit 0, lit 0)

/-- `mean_opacity_photons.hpp:384-391`, `mean_s_opacity_photons.hpp:326-333`: the pair
(Planck mean, Rosseland mean) -/
def MeansOfSums (num den : R × R) : R × R :=
  (Robust.ratio num.1 den.1,
   if gt den.2 Robust.SMALL && gt num.2 Robust.SMALL then Robust.ratio den.2 num.2 else lit 0)

/-- The group means at one table node: `mean_opacity_photons.hpp:364-391`.  (The source computes the
denominators of all groups before the loop over densities; they depend on `T` and the group only, so the
model computes them in place.) -/
def GroupMeans (pc : PC R) (coef : R → R → R → R) (rho T nuMin nuMax : R) (NNuPerGroup : ℤ) : R × R :=
  MeansOfSums (GroupNumerators pc coef rho T nuMin nuMax NNuPerGroup)
    (GroupDenominators pc T nuMin nuMax NNuPerGroup)

/-- one iteration of the innermost loop, `mean_opacity_photons.hpp:364-399`,
`mean_s_opacity_photons.hpp:306-341`.  (The NaN check reads back the value just written; the model checks
that value.) -/
def FillCell (pc : PC R) (coef : R → R → R → R) (group_bounds : List R) (NNuPerGroup : ℤ)
    (iT iRho group : ℕ) (s : DataBox R × DataBox R) : Outcome (DataBox R × DataBox R) := do
  let T := FromLog ((s.1.range 1).x iT)
  let rho := FromLog ((s.1.range 2).x iRho)
  let nuMin ← GroupBoundAt group_bounds group
  let nuMax ← GroupBoundAt group_bounds (group + 1)
  let k := GroupMeans pc coef rho T nuMin nuMax NNuPerGroup
  let lP ← s.1.write [(iRho : ℤ), (iT : ℤ), (group : ℤ)] (ToLog k.1)
  let lR ← s.2.write [(iRho : ℤ), (iT : ℤ), (group : ℤ)] (ToLog k.2)
  if isNaN (ToLog k.1) || isNaN (ToLog k.2) then
    (Outcome.abort "NAN in opacity evaluations" : Outcome Unit)
  return (lP, lR)

/-- `MeanOpacityImpl_` (`mean_opacity_photons.hpp:310-402`) and `MeanSOpacityImpl_`
(`mean_s_opacity_photons.hpp:252-344`).  `junk` is the unspecified content of freshly allocated tables. -/
def Impl_ (pc : PC R) (junk : ℕ → R) (coef : R → R → R → R) (lRhoMin lRhoMax : R) (NRho : ℤ)
    (lTMin lTMax : R) (NT : ℤ) (group_bounds : List R) (ngroups : ℤ) (NNuPerGroup : ℤ) :
    Outcome (MGTables R) := do
  if NNuPerGroup < 2 then (Outcome.abort "NNuPerGroup must be at least 2" : Outcome Unit)
  ValidateGroupBounds group_bounds ngroups
  let ng := ngroups.toNat
  let gb ← SetGroupBounds group_bounds ng
  let lP := ((DataBox.resize [NRho, NT, (ng : ℤ)] junk (fun _ => Grid.none)).setRange 1 lTMin lTMax NT).setRange
    2 lRhoMin lRhoMax NRho
  let lR := lP.copyMetadata junk
  let s ← forLoopM NT (fun iT s =>
    forLoopM NRho (fun iRho s =>
      forLoopM (ng : ℤ) (fun group s => FillCell pc coef group_bounds NNuPerGroup iT iRho group s) s) s)
    (lP, lR)
  return { lPlanck := s.1, lRosseland := s.2, groupBounds := gb, ngroups := ng }

/-- `ValidateOpacityTables_` (`mean_opacity_photons.hpp:264-281`), `ValidateScatteringTables_`
(`mean_s_opacity_photons.hpp:206-223`) -/
def ValidateTables_ (kP kR : DataBox R) : Outcome Unit := do
  if kP.rank ≠ 3 ∨ kR.rank ≠ 3 then (Outcome.abort "opacity tables must be rank 3" : Outcome Unit)
  if kP.dim 1 ≠ kR.dim 1 ∨ kP.dim 2 ≠ kR.dim 2 ∨ kP.dim 3 ≠ kR.dim 3 then
    (Outcome.abort "table dimensions do not match" : Outcome Unit)
  if kP.dim 1 ≤ 0 then (Outcome.abort "ngroups must be positive" : Outcome Unit)
  if !((kP.range 1).beq (kR.range 1)) || !((kP.range 2).beq (kR.range 2)) then
    (Outcome.abort "table ranges do not match" : Outcome Unit)

/-- `LoadOpacityTables_` (`mean_opacity_photons.hpp:283-297`), `LoadScatteringTables_`
(`mean_s_opacity_photons.hpp:225-239`): the constructor from tables (lines 62-69 / 60-64) -/
def LoadTables_ (junk : ℕ → R) (kP kR : DataBox R) (group_bounds : List R) : Outcome (MGTables R) := do
  ValidateTables_ kP kR
  let ng := kP.dim 1
  ValidateGroupBounds group_bounds ng
  let gb ← SetGroupBounds group_bounds ng.toNat
  return { lPlanck := kP.mapData ToLog kP.size junk
           lRosseland := kR.mapData ToLog kP.size junk
           groupBounds := gb
           ngroups := ng.toNat }

/-- `ExportOpacityTables_` (`mean_opacity_photons.hpp:299-307`), `ExportScatteringTables_`
(`mean_s_opacity_photons.hpp:241-249`) -/
def ExportTables_ (t : MGTables R) (junk : ℕ → R) : DataBox R × DataBox R :=
  (t.lPlanck.mapData FromLog t.lPlanck.size junk, t.lRosseland.mapData FromLog t.lPlanck.size junk)

/-- dataset names of a multigroup file, `base/sp5.hpp:39-49` -/
structure Names where
  planck : String
  rosseland : String
  bounds : String

/-- `base/sp5.hpp:39-43` -/
def opacNames : Names :=
  { planck := "Planck group opacity", rosseland := "Rosseland group opacity", bounds := "group bounds" }
/-- `base/sp5.hpp:45-49` -/
def sopacNames : Names :=
  { planck := "Planck group scattering opacity", rosseland := "Rosseland group scattering opacity",
    bounds := "group bounds" }

/-- The HDF5 calls of `Save`: `mean_opacity_photons.hpp:98-113`, `mean_s_opacity_photons.hpp:90-105` -/
def SaveOps (nm : Names) (t : MGTables R) (junk : ℕ → R) : Outcome (List (Op R)) := do
  let k := t.ExportTables_ junk
  let gb ← ExportGroupBounds t.groupBounds t.ngroups
  return [.create, .save nm.planck k.1, .save nm.rosseland k.2,
          .save nm.bounds (DataBox.ofList gb (lit 0)), .close]

/-- `Save`: `mean_opacity_photons.hpp:98-122`, `mean_s_opacity_photons.hpp:90-114`, on a file with contents
`f`, with HDF5 failures given by `fails`; returns the new contents. -/
def Save (nm : Names) (t : MGTables R) (junk : ℕ → R) (fails : ℕ → Bool) (f : Option (H5File R)) :
    Outcome (Option (H5File R)) := do
  let ops ← t.SaveOps nm junk
  let r := runSave ops fails 0 false f
  if r.1 ≠ 0 then (Outcome.abort "HDF5 error" : Outcome Unit)
  return r.2

/-- The constructor from a file name: `mean_opacity_photons.hpp:72-96`, `mean_s_opacity_photons.hpp:67-88`.
A missing file or dataset makes a status nonzero.  `ioFail` is any other HDF5 failure. -/
def LoadFile (nm : Names) (junk : ℕ → R) (ioFail : Bool) (f : Option (H5File R)) :
    Outcome (MGTables R) :=
  match f with
  | none => .abort "HDF5 error"
  | some f =>
    match f.get nm.planck, f.get nm.rosseland, f.get nm.bounds with
    | some kP, some kR, some gb =>
        if ioFail then .abort "HDF5 error" else LoadTables_ junk kP kR gb.toList
    | _, _, _ => .abort "HDF5 error"

/-- `GroupAbsorptionCoefficient_` (`mean_opacity_photons.hpp:256-262`), `GroupScatteringCoefficient_`
(`mean_s_opacity_photons.hpp:198-204`) -/
def GroupCoefficient_ (lk : DataBox R) (rho temp : R) (group : ℤ) : Outcome R :=
  (lk.interp3 (ToLog rho) (ToLog temp) group).map' (fun l => rho * FromLog l)

/-- `PlanckGroup{Absorption,Scattering}Coefficient`: `mean_opacity_photons.hpp:192-196`,
`mean_s_opacity_photons.hpp:148-152` -/
def PlanckGroupCoefficient (t : MGTables R) (rho temp : R) (group : ℤ) : Outcome R :=
  GroupCoefficient_ t.lPlanck rho temp group
/-- `RosselandGroup{Absorption,Scattering}Coefficient`: `mean_opacity_photons.hpp:198-202`,
`mean_s_opacity_photons.hpp:154-158` -/
def RosselandGroupCoefficient (t : MGTables R) (rho temp : R) (group : ℤ) : Outcome R :=
  GroupCoefficient_ t.lRosseland rho temp group
/-- `{Absorption,Scattering}Coefficient(rho, temp, group, gmode)`: `mean_opacity_photons.hpp:204-210`,
`mean_s_opacity_photons.hpp:160-166` -/
def Coefficient (t : MGTables R) (rho temp : R) (group : ℤ) (gmode : ℤ) : Outcome R :=
  if gmode = gmodePlanck then t.PlanckGroupCoefficient rho temp group
  else t.RosselandGroupCoefficient rho temp group

/-- `GroupOfNu`: `mean_opacity_photons.hpp:226-233`, `mean_s_opacity_photons.hpp:168-175` -/
def GroupOfNu (t : MGTables R) (nu : R) : Outcome ℕ := do
  let b0 ← GroupBoundAt t.groupBounds 0
  if !(ge nu b0) then (Outcome.abort "frequency is outside group bounds" : Outcome Unit)
  let bN ← GroupBoundAt t.groupBounds t.ngroups
  if !(le nu bN) then (Outcome.abort "frequency is outside group bounds" : Outcome Unit)
  GroupOfNuImpl t.groupBounds t.ngroups nu

/-- `{Absorption,Scattering}CoefficientFromNu`: `mean_opacity_photons.hpp:248-253`,
`mean_s_opacity_photons.hpp:190-195` -/
def CoefficientFromNu (t : MGTables R) (rho temp nu : R) (gmode : ℤ) : Outcome R := do
  let g ← t.GroupOfNu nu
  t.Coefficient rho temp (g : ℤ) gmode
/-- `PlanckGroup…FromNu`: `mean_opacity_photons.hpp:235-239`, `mean_s_opacity_photons.hpp:177-181` -/
def PlanckGroupCoefficientFromNu (t : MGTables R) (rho temp nu : R) : Outcome R :=
  t.CoefficientFromNu rho temp nu gmodePlanck
/-- `RosselandGroup…FromNu`: `mean_opacity_photons.hpp:241-246`, `mean_s_opacity_photons.hpp:183-188` -/
def RosselandGroupCoefficientFromNu (t : MGTables R) (rho temp nu : R) : Outcome R :=
  t.CoefficientFromNu rho temp nu gmodeRosseland

/-- `GetGroupBounds`: `mean_opacity_photons.hpp:156-162` -/
def GetGroupBounds (t : MGTables R) : Outcome (List R) :=
  (List.range (t.ngroups + 1)).mapM (fun group => GroupBoundAt t.groupBounds group)

/-- `Spiner::getOnDeviceDataBox` copies the table to device memory (external); the copy has the same
contents.  `GetOnDevice`: `mean_opacity_photons.hpp:130-137`, `mean_s_opacity_photons.hpp:122-129` -/
def GetOnDevice (t : MGTables R) : MGTables R :=
  { lPlanck := t.lPlanck, lRosseland := t.lRosseland, groupBounds := t.groupBounds, ngroups := t.ngroups }

end MGTables

/-- `impl::MeanOpacity<pc>`, `mean_opacity_photons.hpp:45-408` -/
structure MeanOpacityBase (R : Type) where
  pc : PC R
  t : MGTables R

namespace MeanOpacityBase

/-- constructor from an opacity, `mean_opacity_photons.hpp:53-60` -/
def construct {O : Type} [PhotonAPI R O] (pc : PC R) (junk : ℕ → R) (opac : O) (lRhoMin lRhoMax : R)
    (NRho : ℤ) (lTMin lTMax : R) (NT : ℤ) (group_bounds : List R) (ngroups : ℤ) (NNuPerGroup : ℤ := 64) :
    Outcome (MeanOpacityBase R) :=
  (MGTables.Impl_ pc junk (PhotonAPI.AbsorptionCoefficient opac) lRhoMin lRhoMax NRho lTMin lTMax NT
    group_bounds ngroups NNuPerGroup).map' (fun t => { pc := pc, t := t })

/-- constructor from tables, `mean_opacity_photons.hpp:62-69` -/
def ofTables (pc : PC R) (junk : ℕ → R) (kP kR : DataBox R) (group_bounds : List R) :
    Outcome (MeanOpacityBase R) :=
  (MGTables.LoadTables_ junk kP kR group_bounds).map' (fun t => { pc := pc, t := t })

/-- constructor from a file, `mean_opacity_photons.hpp:72-96` -/
def ofFile (pc : PC R) (junk : ℕ → R) (ioFail : Bool) (f : Option (H5File R)) : Outcome (MeanOpacityBase R) :=
  (MGTables.LoadFile MGTables.opacNames junk ioFail f).map' (fun t => { pc := pc, t := t })

/-- `mean_opacity_photons.hpp:170-178`; `PORTABLE_REQUIRE` is checked in debug builds only -/
def PlanckMeanAbsorptionCoefficient (debug : Bool) (o : MeanOpacityBase R) (rho temp : R) : Outcome R := do
  if debug && !(o.t.ngroups == 1) then
    (Outcome.abort "PlanckMeanAbsorptionCoefficient only valid for ngroups==1" : Outcome Unit)
  o.t.PlanckGroupCoefficient rho temp 0

/-- `mean_opacity_photons.hpp:181-190` -/
def RosselandMeanAbsorptionCoefficient (debug : Bool) (o : MeanOpacityBase R) (rho temp : R) :
    Outcome R := do
  if debug && !(o.t.ngroups == 1) then
    (Outcome.abort "RosselandMeanAbsorptionCoefficient only valid for ngroups==1" : Outcome Unit)
  o.t.RosselandGroupCoefficient rho temp 0

/-- `mean_opacity_photons.hpp:215-224` -/
def Emissivity (o : MeanOpacityBase R) (rho temp : R) (gmode : ℤ := gmodeRosseland) : Outcome R := do
  if o.t.ngroups ≠ 1 then (Outcome.abort "Emissivity only valid for ngroups==1" : Outcome Unit)
  let B := Planck.ThermalDistributionOfT o.pc temp
  let a ← o.t.Coefficient rho temp 0 gmode
  return a * B

end MeanOpacityBase

/-- `impl::MeanSOpacity<pc>`, `mean_s_opacity_photons.hpp:43-350` -/
structure MeanSOpacityBase (R : Type) where
  pc : PC R
  t : MGTables R

namespace MeanSOpacityBase
/-- constructor from a scattering opacity, `mean_s_opacity_photons.hpp:51-58` -/
def construct {O : Type} [PhotonSAPI R O] (pc : PC R) (junk : ℕ → R) (opac : O) (lRhoMin lRhoMax : R)
    (NRho : ℤ) (lTMin lTMax : R) (NT : ℤ) (group_bounds : List R) (ngroups : ℤ) (NNuPerGroup : ℤ := 64) :
    Outcome (MeanSOpacityBase R) :=
  (MGTables.Impl_ pc junk (PhotonSAPI.TotalScatteringCoefficient opac) lRhoMin lRhoMax NRho lTMin lTMax NT
    group_bounds ngroups NNuPerGroup).map' (fun t => { pc := pc, t := t })
/-- constructor from tables, `mean_s_opacity_photons.hpp:60-64` -/
def ofTables (pc : PC R) (junk : ℕ → R) (sP sR : DataBox R) (group_bounds : List R) :
    Outcome (MeanSOpacityBase R) :=
  (MGTables.LoadTables_ junk sP sR group_bounds).map' (fun t => { pc := pc, t := t })
/-- `mean_s_opacity_photons.hpp:90-114` -/
def Save (o : MeanSOpacityBase R) (junk : ℕ → R) (fails : ℕ → Bool) (f : Option (H5File R)) :
    Outcome (Option (H5File R)) :=
  o.t.Save MGTables.sopacNames junk fails f
/-- constructor from a file, `mean_s_opacity_photons.hpp:67-88` -/
def ofFile (pc : PC R) (junk : ℕ → R) (ioFail : Bool) (f : Option (H5File R)) :
    Outcome (MeanSOpacityBase R) :=
  (MGTables.LoadFile MGTables.sopacNames junk ioFail f).map' (fun t => { pc := pc, t := t })
end MeanSOpacityBase

/-- the group methods of `impl::MeanSOpacity` (`mean_s_opacity_photons.hpp:122-195`), which `MeanSVariant` forwards to
(`mean_photon_s_variant.hpp:66-148`) -/
class MeanPhotonSAPI (R : Type) (O : Type) where
  GetOnDevice : O → O
  ngroups : O → ℕ
  HasGroupBounds : O → Bool
  ScatteringCoefficient : O → R → R → ℤ → ℤ → Outcome R
  PlanckGroupScatteringCoefficient : O → R → R → ℤ → Outcome R
  RosselandGroupScatteringCoefficient : O → R → R → ℤ → Outcome R
  GroupOfNu : O → R → Outcome ℕ
  ScatteringCoefficientFromNu : O → R → R → R → ℤ → Outcome R
  PlanckGroupScatteringCoefficientFromNu : O → R → R → R → Outcome R
  RosselandGroupScatteringCoefficientFromNu : O → R → R → R → Outcome R

/-- `mean_s_opacity_photons.hpp:122-195` -/
instance : MeanPhotonSAPI R (MeanSOpacityBase R) where
  GetOnDevice o := { pc := o.pc, t := o.t.GetOnDevice }                                            -- 122-129
  ngroups o := o.t.ngroups                                                                         -- 142-143
  HasGroupBounds _ := true                                                                         -- 145-146
  ScatteringCoefficient o rho temp group gmode := o.t.Coefficient rho temp group gmode             -- 160-166
  PlanckGroupScatteringCoefficient o rho temp group := o.t.PlanckGroupCoefficient rho temp group   -- 148-152
  RosselandGroupScatteringCoefficient o rho temp group := o.t.RosselandGroupCoefficient rho temp group  -- 154-158
  GroupOfNu o nu := o.t.GroupOfNu nu                                                               -- 168-175
  ScatteringCoefficientFromNu o rho temp nu gmode := o.t.CoefficientFromNu rho temp nu gmode       -- 190-195
  PlanckGroupScatteringCoefficientFromNu o rho temp nu := o.t.PlanckGroupCoefficientFromNu rho temp nu  -- 177-181
  RosselandGroupScatteringCoefficientFromNu o rho temp nu := o.t.RosselandGroupCoefficientFromNu rho temp nu  -- 183-188

/-- what the template `MeanNonCGSUnitsS` calls on the object it wraps (`non_cgs_s_photons.hpp:98-127`).  No class of
the library offers these two methods: `MeanSOpacity` has the group methods above only, so
`MeanNonCGSUnitsS<MeanSOpacityBase>` cannot be used.  The template is modelled for any class a user supplies. -/
class MeanPhotonSTotalAPI (R : Type) (O : Type) where
  GetOnDevice : O → O
  nlambda : O → ℤ
  PlanckMeanTotalScatteringCoefficient : O → R → R → R
  RosselandMeanTotalScatteringCoefficient : O → R → R → R

/-- `non_cgs_s_photons.hpp:130-133` -/
structure MeanNonCGSUnitsS (R : Type) (O : Type) where
  mean_s_opac_ : O
  time_unit_ : R
  mass_unit_ : R
  length_unit_ : R
  temp_unit_ : R
  rho_unit_ : R

/-- `non_cgs_s_photons.hpp:86-92` -/
def MeanNonCGSUnitsS.construct {O : Type} (mean_s_opac : O) (time_unit mass_unit length_unit temp_unit : R) :
    MeanNonCGSUnitsS R O :=
  { mean_s_opac_ := mean_s_opac, time_unit_ := time_unit, mass_unit_ := mass_unit, length_unit_ := length_unit
    temp_unit_ := temp_unit
    rho_unit_ := mass_unit / (length_unit * length_unit * length_unit) }

/-- `non_cgs_s_photons.hpp:94-127` -/
instance {O : Type} [MeanPhotonSTotalAPI R O] : MeanPhotonSTotalAPI R (MeanNonCGSUnitsS R O) where
  GetOnDevice w := MeanNonCGSUnitsS.construct (MeanPhotonSTotalAPI.GetOnDevice R w.mean_s_opac_) w.time_unit_
    w.mass_unit_ w.length_unit_ w.temp_unit_                                                       -- 94-97
  nlambda w := MeanPhotonSTotalAPI.nlambda R w.mean_s_opac_                                        -- 101
  PlanckMeanTotalScatteringCoefficient w rho temp :=                                               -- 103-113
    let alpha := MeanPhotonSTotalAPI.PlanckMeanTotalScatteringCoefficient w.mean_s_opac_ (w.rho_unit_ * rho)
      (w.temp_unit_ * temp)
    alpha * w.length_unit_
  RosselandMeanTotalScatteringCoefficient w rho temp :=                                            -- 115-125
    let alpha := MeanPhotonSTotalAPI.RosselandMeanTotalScatteringCoefficient w.mean_s_opac_ (w.rho_unit_ * rho)
      (w.temp_unit_ * temp)
    alpha * w.length_unit_

/-- The methods common to `MeanOpacity` and `MeanNonCGSUnits`, which `MeanVariant` forwards to
(`mean_photon_variant.hpp:67-172`).  `PlanckMeanAbsorptionCoefficient`,
`RosselandMeanAbsorptionCoefficient` and `Emissivity` are missing from `MeanNonCGSUnits`, so these
`MeanVariant` members do not compile for the shipped alternatives and are left out. -/
class MeanPhotonAPI (R : Type) (O : Type) where
  GetOnDevice : O → O
  GetRuntimePhysicalConstants : O → RPC R
  ngroups : O → ℕ
  HasGroupBounds : O → Bool
  AbsorptionCoefficient : O → R → R → ℤ → ℤ → Outcome R
  PlanckGroupAbsorptionCoefficient : O → R → R → ℤ → Outcome R
  RosselandGroupAbsorptionCoefficient : O → R → R → ℤ → Outcome R
  GroupOfNu : O → R → Outcome ℕ
  AbsorptionCoefficientFromNu : O → R → R → R → ℤ → Outcome R
  PlanckGroupAbsorptionCoefficientFromNu : O → R → R → R → Outcome R
  RosselandGroupAbsorptionCoefficientFromNu : O → R → R → R → Outcome R
  Save : O → (ℕ → R) → (ℕ → Bool) → Option (H5File R) → Outcome (Option (H5File R))

/-- `mean_opacity_photons.hpp:130-253` -/
instance : MeanPhotonAPI R (MeanOpacityBase R) where
  GetOnDevice o := { pc := o.pc, t := o.t.GetOnDevice }
  GetRuntimePhysicalConstants o := RPC.ofPC o.pc
  ngroups o := o.t.ngroups
  HasGroupBounds _ := true
  AbsorptionCoefficient o rho temp group gmode := o.t.Coefficient rho temp group gmode
  PlanckGroupAbsorptionCoefficient o rho temp group := o.t.PlanckGroupCoefficient rho temp group
  RosselandGroupAbsorptionCoefficient o rho temp group := o.t.RosselandGroupCoefficient rho temp group
  GroupOfNu o nu := o.t.GroupOfNu nu
  AbsorptionCoefficientFromNu o rho temp nu gmode := o.t.CoefficientFromNu rho temp nu gmode
  PlanckGroupAbsorptionCoefficientFromNu o rho temp nu := o.t.PlanckGroupCoefficientFromNu rho temp nu
  RosselandGroupAbsorptionCoefficientFromNu o rho temp nu := o.t.RosselandGroupCoefficientFromNu rho temp nu
  Save o junk fails f := o.t.Save MGTables.opacNames junk fails f

/-- `MeanNonCGSUnits<MeanOpac>`, `non_cgs_photons.hpp:240-331` -/
structure MeanNonCGSUnits (R : Type) (O : Type) where
  opac : O
  time_unit : R
  mass_unit : R
  length_unit : R
  temp_unit : R
  rho_unit : R
  freq_unit : R

/-- `non_cgs_photons.hpp:246-253` -/
def MeanNonCGSUnits.construct {O : Type} (opac : O) (time_unit mass_unit length_unit temp_unit : R) :
    MeanNonCGSUnits R O :=
  { opac := opac, time_unit := time_unit, mass_unit := mass_unit, length_unit := length_unit
    temp_unit := temp_unit
    rho_unit := mass_unit / (length_unit * length_unit * length_unit)
    freq_unit := lit 1 / time_unit }

namespace MeanNonCGSUnits
variable {O : Type} [MeanPhotonAPI R O]

/-- `non_cgs_photons.hpp:292-298` -/
def AbsorptionCoefficient (o : MeanNonCGSUnits R O) (rho temp : R) (group : ℤ) (gmode : ℤ) : Outcome R :=
  (MeanPhotonAPI.AbsorptionCoefficient o.opac (o.rho_unit * rho) (o.temp_unit * temp) group gmode).map'
    (fun alpha => alpha * o.length_unit)

/-- `non_cgs_photons.hpp:318-325` -/
def AbsorptionCoefficientFromNu (o : MeanNonCGSUnits R O) (rho temp nu : R) (gmode : ℤ) : Outcome R :=
  (MeanPhotonAPI.AbsorptionCoefficientFromNu o.opac (o.rho_unit * rho) (o.temp_unit * temp)
    (nu * o.freq_unit) gmode).map' (fun alpha => alpha * o.length_unit)

end MeanNonCGSUnits

/-- `non_cgs_photons.hpp:255-325` -/
instance {O : Type} [MeanPhotonAPI R O] : MeanPhotonAPI R (MeanNonCGSUnits R O) where
  GetOnDevice o := MeanNonCGSUnits.construct (MeanPhotonAPI.GetOnDevice R o.opac) o.time_unit o.mass_unit
    o.length_unit o.temp_unit
  GetRuntimePhysicalConstants o := MeanPhotonAPI.GetRuntimePhysicalConstants o.opac
  ngroups o := MeanPhotonAPI.ngroups R o.opac
  HasGroupBounds o := MeanPhotonAPI.HasGroupBounds R o.opac
  AbsorptionCoefficient o rho temp group gmode := o.AbsorptionCoefficient rho temp group gmode
  PlanckGroupAbsorptionCoefficient o rho temp group := o.AbsorptionCoefficient rho temp group gmodePlanck
  RosselandGroupAbsorptionCoefficient o rho temp group :=
    o.AbsorptionCoefficient rho temp group gmodeRosseland
  GroupOfNu o nu := MeanPhotonAPI.GroupOfNu o.opac (nu * o.freq_unit)
  AbsorptionCoefficientFromNu o rho temp nu gmode := o.AbsorptionCoefficientFromNu rho temp nu gmode
  PlanckGroupAbsorptionCoefficientFromNu o rho temp nu :=
    o.AbsorptionCoefficientFromNu rho temp nu gmodePlanck
  RosselandGroupAbsorptionCoefficientFromNu o rho temp nu :=
    o.AbsorptionCoefficientFromNu rho temp nu gmodeRosseland
  Save o junk fails f := MeanPhotonAPI.Save o.opac junk fails f

/-- `MeanOpacity = MeanVariant<MeanOpacityBase, MeanNonCGSUnits<MeanOpacityBase>>`,
`mean_opacity_photons.hpp:412-414`, `mean_photon_variant.hpp:32-35` -/
inductive MeanOpacity (R : Type) where
  | base (o : MeanOpacityBase R)
  | nonCGS (o : MeanNonCGSUnits R (MeanOpacityBase R))

namespace MeanOpacity

/-- `PortsOfCall::visit` with a generic lambda -/
def visit {α : Type} (f : (O : Type) → [MeanPhotonAPI R O] → O → α) : MeanOpacity R → α
  | base o => f _ o
  | nonCGS o => f _ o

/-- `mean_photon_variant.hpp:67-71` -/
def GetOnDevice : MeanOpacity R → MeanOpacity R
  | base o => base (MeanPhotonAPI.GetOnDevice R o)
  | nonCGS o => nonCGS (MeanPhotonAPI.GetOnDevice R o)

/-- `mean_photon_variant.hpp:134-142` -/
def AbsorptionCoefficient (v : MeanOpacity R) (rho temp : R) (group gmode : ℤ) : Outcome R :=
  v.visit (fun _ _ o => MeanPhotonAPI.AbsorptionCoefficient o rho temp group gmode)

/-- `mean_photon_variant.hpp:96-100`: the overload without a group -/
def AbsorptionCoefficientNoGroup (v : MeanOpacity R) (rho temp : R) (gmode : ℤ := gmodeRosseland) :
    Outcome R :=
  v.AbsorptionCoefficient rho temp 0 gmode

/-- `mean_photon_variant.hpp:163-172` -/
def AbsorptionCoefficientFromNu (v : MeanOpacity R) (rho temp nu : R) (gmode : ℤ) : Outcome R :=
  v.visit (fun _ _ o => MeanPhotonAPI.AbsorptionCoefficientFromNu o rho temp nu gmode)

end MeanOpacity

/-- `mean_photon_variant.hpp:67-183` -/
instance : MeanPhotonAPI R (MeanOpacity R) where
  GetOnDevice := MeanOpacity.GetOnDevice
  GetRuntimePhysicalConstants v := v.visit (fun _ _ o => MeanPhotonAPI.GetRuntimePhysicalConstants o)
  ngroups v := v.visit (fun _ _ o => MeanPhotonAPI.ngroups R o)
  HasGroupBounds v := v.visit (fun _ _ o => MeanPhotonAPI.HasGroupBounds R o)
  AbsorptionCoefficient v rho temp group gmode := v.AbsorptionCoefficient rho temp group gmode
  PlanckGroupAbsorptionCoefficient v rho temp group := v.AbsorptionCoefficient rho temp group gmodePlanck
  RosselandGroupAbsorptionCoefficient v rho temp group :=
    v.AbsorptionCoefficient rho temp group gmodeRosseland
  GroupOfNu v nu := v.visit (fun _ _ o => MeanPhotonAPI.GroupOfNu o nu)
  AbsorptionCoefficientFromNu v rho temp nu gmode := v.AbsorptionCoefficientFromNu rho temp nu gmode
  PlanckGroupAbsorptionCoefficientFromNu v rho temp nu :=
    v.AbsorptionCoefficientFromNu rho temp nu gmodePlanck
  RosselandGroupAbsorptionCoefficientFromNu v rho temp nu :=
    v.AbsorptionCoefficientFromNu rho temp nu gmodeRosseland
  Save v junk fails f := v.visit (fun _ _ o => MeanPhotonAPI.Save o junk fails f)

end Opac.Photons
