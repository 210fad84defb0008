import Verif.Model.Neutrinos
import Verif.Model.NeutrinosS

/-!
# Mean opacities of neutrinos
Models `neutrinos/mean_opacity_neutrinos.hpp`, `neutrinos/mean_s_opacity_neutrinos.hpp`,
`neutrinos/mean_neutrino_variant.hpp`, `neutrinos/mean_neutrino_s_variant.hpp` and the mean wrappers of
`neutrinos/non_cgs_neutrinos.hpp` / `non_cgs_s_neutrinos.hpp`.
-/

namespace Opac.Neutrinos
open Arith Spiner Hdf

variable {R : Type} [Arith R]

/-- the two tables `lkappaPlanck_`, `lkappaRosseland_`: `mean_opacity_neutrinos.hpp:224-225`,
`mean_s_opacity_neutrinos.hpp:214-215` -/
structure MeanTables (R : Type) where
  lPlanck : DataBox R
  lRosseland : DataBox R

namespace MeanTables

/-- `mean_opacity_neutrinos.hpp:218-220`, `mean_s_opacity_neutrinos.hpp:208-210` -/
def toLog_ (x : R) : R := log10 (abs x + lit 10.0 * dmin)
/-- `mean_opacity_neutrinos.hpp:221-223`, `mean_s_opacity_neutrinos.hpp:211-213` -/
def fromLog_ (lx : R) : R := pow (lit 10) lx

/-- the four running sums of `mean_opacity_neutrinos.hpp:164-167` -/
structure Sums (R : Type) where
  planckNum : R
  planckDenom : R
  rosselandNum : R
  rosselandDenom : R

/-- `mean_opacity_neutrinos.hpp:164-167` -/
def Sums.zero : Sums R := ⟨lit 0, lit 0, lit 0, lit 0⟩

/-- one step of the midpoint rule: `mean_opacity_neutrinos.hpp:177-194`,
`mean_s_opacity_neutrinos.hpp:173-189`.  `alpha`, `B`, `dBdT` are the values at `nu`. -/
def addSample (rho alpha B dBdT nu dlnu : R) (s : Sums R) : Sums R :=
  { planckNum := s.planckNum + alpha / rho * B * nu * dlnu
    planckDenom := s.planckDenom + B * nu * dlnu
    rosselandNum :=
      if gt alpha Robust.SMALL then s.rosselandNum + Robust.ratio rho alpha * dBdT * nu * dlnu
      else s.rosselandNum
    rosselandDenom := if gt alpha Robust.SMALL then s.rosselandDenom + dBdT * nu * dlnu
      else s.rosselandDenom }

/-- `mean_opacity_neutrinos.hpp:197-204`, `mean_s_opacity_neutrinos.hpp:191-198`: (Planck, Rosseland) -/
def means (s : Sums R) : R × R :=
  let kappaPlanck := Robust.ratio s.planckNum s.planckDenom
  (kappaPlanck,
   if gt kappaPlanck Robust.SMALL && gt s.rosselandNum Robust.SMALL then
     Robust.ratio s.rosselandDenom s.rosselandNum
   else lit 0)

/-- the midpoint frequencies: `mean_opacity_neutrinos.hpp:174-179`, `mean_s_opacity_neutrinos.hpp:167-172` -/
def sampleNu (lNuMin lNuMax : R) (NNu : ℤ) (inu : ℕ) : R :=
  let dlnu := (lNuMax - lNuMin) / lit NNu
  let lnu := lNuMin + (lit inu + lit 0.5) * dlnu
  fromLog_ lnu

/-- frequency window when none is given: `mean_opacity_neutrinos.hpp:170-173`,
`mean_s_opacity_neutrinos.hpp:163-166` (it uses the ends of the temperature table, not the temperature) -/
def autoWindow (pc : PC R) (lTMin lTMax : R) : R × R :=
  (toLog_ (lit 1.e-3 * pc.kb * fromLog_ lTMin / pc.h), toLog_ (lit 1.e3 * pc.kb * fromLog_ lTMax / pc.h))

/-- store the two means, checking for NaN: `mean_opacity_neutrinos.hpp:206-211`,
`mean_s_opacity_neutrinos.hpp:199-205` -/
def store (iRho iT iYe idx : ℕ) (k : R × R) (t : MeanTables R) : Outcome (MeanTables R) := do
  let lP ← t.lPlanck.write [(iRho : ℤ), iT, iYe, idx] (toLog_ k.1)
  let lR ← t.lRosseland.write [(iRho : ℤ), iT, iYe, idx] (toLog_ k.2)
  if isNaN (toLog_ k.1) || isNaN (toLog_ k.2) then
    (Outcome.abort "NAN in opacity evaluations" : Outcome Unit)
  return { lPlanck := lP, lRosseland := lR }

/-- shape and grids: `mean_opacity_neutrinos.hpp:145-150`, `mean_s_opacity_neutrinos.hpp:140-145` -/
def setup (junk : ℕ → ℕ → R) (lRhoMin lRhoMax : R) (NRho : ℤ) (lTMin lTMax : R) (NT : ℤ) (YeMin YeMax : R)
    (NYe : ℤ) : MeanTables R :=
  let d := DataBox.resize [NRho, NT, NYe, NEUTRINO_NTYPES] (junk 0) (fun _ => Grid.none)
  let d := d.setRange 1 YeMin YeMax NYe
  let d := d.setRange 2 lTMin lTMax NT
  let d := d.setRange 3 lRhoMin lRhoMax NRho
  { lPlanck := d, lRosseland := d.copyMetadata (junk 1) }

/-- what the constructor samples: the coefficient and the thermal weights at `(rho, T, Ye, type, nu)` -/
structure Sampler (R : Type) where
  coef : R → R → R → RadiationType → R → Outcome R
  B : R → RadiationType → R → R
  dBdT : R → RadiationType → R → R

/-- the sums over all frequencies at one node: `mean_opacity_neutrinos.hpp:176-195` -/
def cellSums (o : Sampler R) (rho T Ye : R) (type : RadiationType) (lNuMin lNuMax : R) (NNu : ℤ) :
    Outcome (Sums R) :=
  forLoopM NNu (fun inu s =>
    let nu := sampleNu lNuMin lNuMax NNu inu
    (o.coef rho T Ye type nu).map' (fun alpha =>
      addSample rho alpha (o.B T type nu) (o.dBdT T type nu) nu ((lNuMax - lNuMin) / lit NNu) s)) Sums.zero

/-- one node of `MeanOpacityImpl_`: `mean_opacity_neutrinos.hpp:162-212` -/
def fillCell (o : Sampler R) (lNuMin lNuMax : R) (NNu : ℤ) (iRho iT iYe : ℕ) (idx : ℕ) (t : MeanTables R) :
    Outcome (MeanTables R) := do
  let rho := fromLog_ ((t.lPlanck.range 3).x iRho)
  let T := fromLog_ ((t.lPlanck.range 2).x iT)
  let Ye := (t.lPlanck.range 1).x iYe
  let type ← Idx2RadType idx
  let s ← cellSums o rho T Ye type lNuMin lNuMax NNu
  store iRho iT iYe idx (means s) t

/-- one node of `MeanSOpacityImpl_`: `mean_s_opacity_neutrinos.hpp:155-206`: the means so far are stored
after every frequency -/
def fillCellS (o : Sampler R) (lNuMin lNuMax : R) (NNu : ℤ) (iRho iT iYe : ℕ) (idx : ℕ) (t : MeanTables R) :
    Outcome (MeanTables R) := do
  let rho := fromLog_ ((t.lPlanck.range 3).x iRho)
  let T := fromLog_ ((t.lPlanck.range 2).x iT)
  let Ye := (t.lPlanck.range 1).x iYe
  let type ← Idx2RadType idx
  let r ← forLoopM NNu (fun inu (st : Sums R × MeanTables R) => do
    let nu := sampleNu lNuMin lNuMax NNu inu
    let alpha ← o.coef rho T Ye type nu
    let s := addSample rho alpha (o.B T type nu) (o.dBdT T type nu) nu ((lNuMax - lNuMin) / lit NNu) st.1
    let t ← store iRho iT iYe idx (means s) st.2
    return (s, t)) (Sums.zero, t)
  return r.2

/-- the loop nest: `mean_opacity_neutrinos.hpp:152-216`, `mean_s_opacity_neutrinos.hpp:147-207` -/
def loops (NRho NT NYe : ℤ) (cell : ℕ → ℕ → ℕ → ℕ → MeanTables R → Outcome (MeanTables R))
    (t : MeanTables R) : Outcome (MeanTables R) :=
  forLoopM NRho (fun iRho t => forLoopM NT (fun iT t => forLoopM NYe (fun iYe t =>
    forLoopM NEUTRINO_NTYPES (fun idx t => cell iRho iT iYe idx t) t) t) t) t

/-- the two HDF5 dataset names: `base/sp5.hpp:31-39` -/
structure Names where
  planck : String
  rosseland : String
/-- `base/sp5.hpp:31-34` -/
def opacNames : Names := { planck := "Planck mean opacity", rosseland := "Rosseland mean opacity" }
/-- `base/sp5.hpp:36-39` -/
def sopacNames : Names :=
  { planck := "Planck mean scattering opacity", rosseland := "Rosseland mean scattering opacity" }

/-- HDF5 calls of `Save`: `mean_opacity_neutrinos.hpp:80-92`, `mean_s_opacity_neutrinos.hpp:80-92` -/
def SaveOps (nm : Names) (t : MeanTables R) : List (Op R) :=
  [.create, .save nm.planck t.lPlanck, .save nm.rosseland t.lRosseland, .close]

/-- `Save`: the outcome and the file's contents afterwards -/
def Save (nm : Names) (t : MeanTables R) (fails : ℕ → Bool) (f : Option (H5File R)) :
    Outcome Unit × Option (H5File R) :=
  let r := runSave (t.SaveOps nm) fails 0 false f
  (if r.1 ≠ 0 then .abort "HDF5 error" else .ok (), r.2)

/-- constructor from a file name: `mean_opacity_neutrinos.hpp:66-78`, `mean_s_opacity_neutrinos.hpp:66-78` -/
def LoadFile (nm : Names) (ioFail : Bool) (f : Option (H5File R)) : Outcome (MeanTables R) :=
  match f with
  | none => .abort "HDF5 error"
  | some f =>
    match f.get nm.planck, f.get nm.rosseland with
    | some kP, some kR =>
        if ioFail then .abort "HDF5 error" else .ok { lPlanck := kP, lRosseland := kR }
    | _, _ => .abort "HDF5 error"

/-- lookup: `mean_opacity_neutrinos.hpp:117-134`, `mean_s_opacity_neutrinos.hpp:112-130` -/
def lookup (lk : DataBox R) (rho temp Ye : R) (type : RadiationType) : Outcome R :=
  let lRho := toLog_ rho
  let lT := toLog_ temp
  let idx := RadType2Idx type
  (lk.interp4 lRho lT Ye idx).map' (fun l => rho * fromLog_ l)

end MeanTables

/-- `impl::MeanOpacity<pc>`, `mean_opacity_neutrinos.hpp:39-227` -/
structure MeanOpacityBase (R : Type) where
  pc : PC R
  t : MeanTables R

namespace MeanOpacityBase
open MeanTables

/-- `MeanOpacityImpl_<Opacity, AUTOFREQ>`: `mean_opacity_neutrinos.hpp:137-217`; the `assert` on the
constants is active in debug builds only (flag `debug`) -/
def Impl_ {O : Type} [NeutrinoAPI R O] (debug AUTOFREQ : Bool) (pc : PC R) (junk : ℕ → ℕ → R) (opac : O)
    (lRhoMin lRhoMax : R) (NRho : ℤ) (lTMin lTMax : R) (NT : ℤ) (YeMin YeMax : R) (NYe : ℤ)
    (lNuMin lNuMax : R) (NNu : ℤ) : Outcome (MeanOpacityBase R) := do
  if debug && !(RPC.beq (RPC.ofPC pc) (NeutrinoAPI.GetRuntimePhysicalConstants opac)) then
    (Outcome.abort "Physical constants are the same" : Outcome Unit)
  let t := setup junk lRhoMin lRhoMax NRho lTMin lTMax NT YeMin YeMax NYe
  let w := if AUTOFREQ then autoWindow pc lTMin lTMax else (lNuMin, lNuMax)
  let o : Sampler R :=
    { coef := NeutrinoAPI.AbsorptionCoefficient opac
      B := NeutrinoAPI.ThermalDistributionOfTNu opac
      dBdT := NeutrinoAPI.DThermalDistributionOfTNuDT opac }
  let t ← loops NRho NT NYe (fillCell o w.1 w.2 NNu) t
  return { pc := pc, t := t }

/-- constructor without a frequency window: `mean_opacity_neutrinos.hpp:44-53` -/
def constructAuto {O : Type} [NeutrinoAPI R O] (debug : Bool) (pc : PC R) (junk : ℕ → ℕ → R) (opac : O)
    (lRhoMin lRhoMax : R) (NRho : ℤ) (lTMin lTMax : R) (NT : ℤ) (YeMin YeMax : R) (NYe : ℤ) :
    Outcome (MeanOpacityBase R) :=
  Impl_ debug true pc junk opac lRhoMin lRhoMax NRho lTMin lTMax NT YeMin YeMax NYe (-(lit 1)) (-(lit 1)) 100

/-- constructor with a frequency window: `mean_opacity_neutrinos.hpp:55-64` -/
def construct {O : Type} [NeutrinoAPI R O] (debug : Bool) (pc : PC R) (junk : ℕ → ℕ → R) (opac : O)
    (lRhoMin lRhoMax : R) (NRho : ℤ) (lTMin lTMax : R) (NT : ℤ) (YeMin YeMax : R) (NYe : ℤ)
    (lNuMin lNuMax : R) (NNu : ℤ) : Outcome (MeanOpacityBase R) :=
  Impl_ debug false pc junk opac lRhoMin lRhoMax NRho lTMin lTMax NT YeMin YeMax NYe lNuMin lNuMax NNu

/-- constructor from a file: `mean_opacity_neutrinos.hpp:66-78` -/
def ofFile (pc : PC R) (ioFail : Bool) (f : Option (H5File R)) : Outcome (MeanOpacityBase R) :=
  (LoadFile opacNames ioFail f).map' (fun t => { pc := pc, t := t })

end MeanOpacityBase

/-- API of the mean neutrino opacities (`mean_neutrino_variant.hpp:64-105`) -/
class MeanNeutrinoAPI (R : Type) (O : Type) where
  GetOnDevice : O → O
  GetRuntimePhysicalConstants : O → RPC R
  PlanckMeanAbsorptionCoefficient : O → (rho temp Ye : R) → RadiationType → Outcome R
  RosselandMeanAbsorptionCoefficient : O → (rho temp Ye : R) → RadiationType → Outcome R
  Save : O → (ℕ → Bool) → Option (H5File R) → Outcome Unit × Option (H5File R)

/-- `mean_opacity_neutrinos.hpp:80-134` -/
instance : MeanNeutrinoAPI R (MeanOpacityBase R) where
  GetOnDevice o := o
  GetRuntimePhysicalConstants o := RPC.ofPC o.pc
  PlanckMeanAbsorptionCoefficient o rho temp Ye type := MeanTables.lookup o.t.lPlanck rho temp Ye type
  RosselandMeanAbsorptionCoefficient o rho temp Ye type := MeanTables.lookup o.t.lRosseland rho temp Ye type
  Save o fails f := o.t.Save MeanTables.opacNames fails f

/-- `MeanNonCGSUnits<MeanOpac>`: `non_cgs_neutrinos.hpp:254-318` -/
structure MeanNonCGSUnits (R : Type) (O : Type) where
  mean_opac_ : O
  time_unit_ : R
  mass_unit_ : R
  length_unit_ : R
  temp_unit_ : R
  rho_unit_ : R

/-- `non_cgs_neutrinos.hpp:260-265` -/
def MeanNonCGSUnits.construct {O : Type} (o : O) (time_unit mass_unit length_unit temp_unit : R) :
    MeanNonCGSUnits R O :=
  { mean_opac_ := o, time_unit_ := time_unit, mass_unit_ := mass_unit, length_unit_ := length_unit
    temp_unit_ := temp_unit, rho_unit_ := mass_unit / (length_unit * length_unit * length_unit) }

open MeanNeutrinoAPI in
/-- `non_cgs_neutrinos.hpp:267-312` -/
instance {O : Type} [MeanNeutrinoAPI R O] : MeanNeutrinoAPI R (MeanNonCGSUnits R O) where
  GetOnDevice w := MeanNonCGSUnits.construct (MeanNeutrinoAPI.GetOnDevice R w.mean_opac_) w.time_unit_
    w.mass_unit_ w.length_unit_ w.temp_unit_                                                   -- 267-270
  GetRuntimePhysicalConstants w :=                                                             -- 308-312
    RPC.ofUnits PhysicalConstantsCGS w.time_unit_ w.mass_unit_ w.length_unit_ w.temp_unit_
  PlanckMeanAbsorptionCoefficient w rho temp Ye type :=                                        -- 282-293
    (PlanckMeanAbsorptionCoefficient w.mean_opac_ (w.rho_unit_ * rho) (w.temp_unit_ * temp) Ye type).map'
      (fun alpha => alpha * w.length_unit_)
  RosselandMeanAbsorptionCoefficient w rho temp Ye type :=                                     -- 295-306
    (RosselandMeanAbsorptionCoefficient w.mean_opac_ (w.rho_unit_ * rho) (w.temp_unit_ * temp) Ye type).map'
      (fun alpha => alpha * w.length_unit_)
  Save w fails f := Save w.mean_opac_ fails f                                                  -- 276-279

/-- `MeanOpacity = MeanVariant<MeanOpacityBase, MeanNonCGSUnits<MeanOpacityBase>>`,
`mean_opacity_neutrinos.hpp:233-235` -/
inductive MeanOpacity (R : Type) where
  | base (o : MeanOpacityBase R)
  | nonCGS (o : MeanNonCGSUnits R (MeanOpacityBase R))

namespace MeanOpacity
/-- `PortsOfCall::visit` with a generic lambda -/
def visit {α : Type} (f : (O : Type) → [MeanNeutrinoAPI R O] → O → α) : MeanOpacity R → α
  | base o => f _ o
  | nonCGS o => f _ o
/-- `mean_neutrino_variant.hpp:64-68` -/
def GetOnDevice : MeanOpacity R → MeanOpacity R
  | base o => base (MeanNeutrinoAPI.GetOnDevice R o)
  | nonCGS o => nonCGS (MeanNeutrinoAPI.GetOnDevice R o)
end MeanOpacity

/-- `mean_neutrino_variant.hpp:64-105` -/
instance : MeanNeutrinoAPI R (MeanOpacity R) where
  GetOnDevice := MeanOpacity.GetOnDevice
  GetRuntimePhysicalConstants v := v.visit (fun _ _ o => MeanNeutrinoAPI.GetRuntimePhysicalConstants o)
  PlanckMeanAbsorptionCoefficient v rho temp Ye type :=
    v.visit (fun _ _ o => MeanNeutrinoAPI.PlanckMeanAbsorptionCoefficient o rho temp Ye type)
  RosselandMeanAbsorptionCoefficient v rho temp Ye type :=
    v.visit (fun _ _ o => MeanNeutrinoAPI.RosselandMeanAbsorptionCoefficient o rho temp Ye type)
  Save v fails f := v.visit (fun _ _ o => MeanNeutrinoAPI.Save o fails f)

/-! ## Scattering -/

/-- `impl::MeanSOpacity<ThermalDistribution, pc>`, `mean_s_opacity_neutrinos.hpp:40-217` -/
structure MeanSOpacityBase (R : Type) where
  dist : FermiDirac R
  pc : PC R
  t : MeanTables R

namespace MeanSOpacityBase
open MeanTables

/-- `MeanSOpacityImpl_<SOpacity, AUTOFREQ>`: `mean_s_opacity_neutrinos.hpp:131-207` -/
def Impl_ {O : Type} [NeutrinoSAPI R O] (AUTOFREQ : Bool) (dist : FermiDirac R) (pc : PC R)
    (junk : ℕ → ℕ → R) (s_opac : O) (lRhoMin lRhoMax : R) (NRho : ℤ) (lTMin lTMax : R) (NT : ℤ)
    (YeMin YeMax : R) (NYe : ℤ) (lNuMin lNuMax : R) (NNu : ℤ) : Outcome (MeanSOpacityBase R) := do
  let t := setup junk lRhoMin lRhoMax NRho lTMin lTMax NT YeMin YeMax NYe
  let w := if AUTOFREQ then autoWindow pc lTMin lTMax else (lNuMin, lNuMax)
  let o : Sampler R :=
    { coef := fun rho T Ye type nu => .ok (NeutrinoSAPI.TotalScatteringCoefficient s_opac rho T Ye type nu)
      B := fun T _ nu => dist.ThermalDistributionOfTNu T nu
      dBdT := fun T _ nu => dist.DThermalDistributionOfTNuDT T nu }
  let t ← loops NRho NT NYe (fillCellS o w.1 w.2 NNu) t
  return { dist := dist, pc := pc, t := t }

/-- constructor without a frequency window: `mean_s_opacity_neutrinos.hpp:44-53` -/
def constructAuto {O : Type} [NeutrinoSAPI R O] (dist : FermiDirac R) (pc : PC R) (junk : ℕ → ℕ → R)
    (s_opac : O) (lRhoMin lRhoMax : R) (NRho : ℤ) (lTMin lTMax : R) (NT : ℤ) (YeMin YeMax : R) (NYe : ℤ) :
    Outcome (MeanSOpacityBase R) :=
  Impl_ true dist pc junk s_opac lRhoMin lRhoMax NRho lTMin lTMax NT YeMin YeMax NYe (-(lit 1)) (-(lit 1)) 100

/-- constructor with a frequency window: `mean_s_opacity_neutrinos.hpp:55-64`; the argument `NNu` is not
passed on, the literal `100` is -/
def construct {O : Type} [NeutrinoSAPI R O] (dist : FermiDirac R) (pc : PC R) (junk : ℕ → ℕ → R) (s_opac : O)
    (lRhoMin lRhoMax : R) (NRho : ℤ) (lTMin lTMax : R) (NT : ℤ) (YeMin YeMax : R) (NYe : ℤ)
    (lNuMin lNuMax : R) (_NNu : ℤ) : Outcome (MeanSOpacityBase R) :=
  Impl_ false dist pc junk s_opac lRhoMin lRhoMax NRho lTMin lTMax NT YeMin YeMax NYe lNuMin lNuMax 100

/-- constructor from a file: `mean_s_opacity_neutrinos.hpp:66-78` -/
def ofFile (dist : FermiDirac R) (pc : PC R) (ioFail : Bool) (f : Option (H5File R)) :
    Outcome (MeanSOpacityBase R) :=
  (LoadFile sopacNames ioFail f).map' (fun t => { dist := dist, pc := pc, t := t })
/-- `mean_s_opacity_neutrinos.hpp:80-92` -/
def Save (o : MeanSOpacityBase R) (fails : ℕ → Bool) (f : Option (H5File R)) :
    Outcome Unit × Option (H5File R) :=
  o.t.Save sopacNames fails f
end MeanSOpacityBase

/-- API of the mean neutrino scattering opacities (`mean_neutrino_s_variant.hpp:60-96`) -/
class MeanNeutrinoSAPI (R : Type) (O : Type) where
  GetOnDevice : O → O
  PlanckMeanTotalScatteringCoefficient : O → (rho temp Ye : R) → RadiationType → Outcome R
  RosselandMeanTotalScatteringCoefficient : O → (rho temp Ye : R) → RadiationType → Outcome R

/-- `mean_s_opacity_neutrinos.hpp:99-130` -/
instance : MeanNeutrinoSAPI R (MeanSOpacityBase R) where
  GetOnDevice o := o
  PlanckMeanTotalScatteringCoefficient o rho temp Ye type := MeanTables.lookup o.t.lPlanck rho temp Ye type
  RosselandMeanTotalScatteringCoefficient o rho temp Ye type :=
    MeanTables.lookup o.t.lRosseland rho temp Ye type

/-- `MeanNonCGSUnitsS<MeanSOpac>`: `non_cgs_s_neutrinos.hpp:88-141` -/
structure MeanNonCGSUnitsS (R : Type) (O : Type) where
  mean_s_opac_ : O
  time_unit_ : R
  mass_unit_ : R
  length_unit_ : R
  temp_unit_ : R
  rho_unit_ : R

/-- `non_cgs_s_neutrinos.hpp:92-98` -/
def MeanNonCGSUnitsS.construct {O : Type} (o : O) (time_unit mass_unit length_unit temp_unit : R) :
    MeanNonCGSUnitsS R O :=
  { mean_s_opac_ := o, time_unit_ := time_unit, mass_unit_ := mass_unit, length_unit_ := length_unit
    temp_unit_ := temp_unit, rho_unit_ := mass_unit / (length_unit * length_unit * length_unit) }

open MeanNeutrinoSAPI in
/-- `non_cgs_s_neutrinos.hpp:100-136` -/
instance {O : Type} [MeanNeutrinoSAPI R O] : MeanNeutrinoSAPI R (MeanNonCGSUnitsS R O) where
  GetOnDevice w := MeanNonCGSUnitsS.construct (MeanNeutrinoSAPI.GetOnDevice R w.mean_s_opac_) w.time_unit_
    w.mass_unit_ w.length_unit_ w.temp_unit_
  PlanckMeanTotalScatteringCoefficient w rho temp Ye type :=
    (PlanckMeanTotalScatteringCoefficient w.mean_s_opac_ (w.rho_unit_ * rho) (w.temp_unit_ * temp) Ye
      type).map' (fun alpha => alpha * w.length_unit_)
  RosselandMeanTotalScatteringCoefficient w rho temp Ye type :=
    (RosselandMeanTotalScatteringCoefficient w.mean_s_opac_ (w.rho_unit_ * rho) (w.temp_unit_ * temp) Ye
      type).map' (fun alpha => alpha * w.length_unit_)

/-- `MeanSOpacity = MeanSVariant<MeanSOpacityBase, MeanNonCGSUnitsS<MeanSOpacityBase>>`,
`mean_s_opacity_neutrinos.hpp:225-228` -/
inductive MeanSOpacity (R : Type) where
  | base (o : MeanSOpacityBase R)
  | nonCGS (o : MeanNonCGSUnitsS R (MeanSOpacityBase R))

namespace MeanSOpacity
/-- `PortsOfCall::visit` with a generic lambda -/
def visit {α : Type} (f : (O : Type) → [MeanNeutrinoSAPI R O] → O → α) : MeanSOpacity R → α
  | base o => f _ o
  | nonCGS o => f _ o
/-- `mean_neutrino_s_variant.hpp:62-68` -/
def GetOnDevice : MeanSOpacity R → MeanSOpacity R
  | base o => base (MeanNeutrinoSAPI.GetOnDevice R o)
  | nonCGS o => nonCGS (MeanNeutrinoSAPI.GetOnDevice R o)
end MeanSOpacity

/-- `mean_neutrino_s_variant.hpp:62-90` -/
instance : MeanNeutrinoSAPI R (MeanSOpacity R) where
  GetOnDevice := MeanSOpacity.GetOnDevice
  PlanckMeanTotalScatteringCoefficient v rho temp Ye type :=
    v.visit (fun _ _ o => MeanNeutrinoSAPI.PlanckMeanTotalScatteringCoefficient o rho temp Ye type)
  RosselandMeanTotalScatteringCoefficient v rho temp Ye type :=
    v.visit (fun _ _ o => MeanNeutrinoSAPI.RosselandMeanTotalScatteringCoefficient o rho temp Ye type)

end Opac.Neutrinos
