import Verif.Model.NeutrinoThermal
import Verif.Model.Spiner
import Verif.Model.Hdf

/-!
# Tabulated neutrino opacity
Models `singularity-opac/neutrinos/spiner_opac_neutrinos.hpp`.
The memory-status flag and the stored file-name pointer are never read and are left out; `Finalize` (frees
the tables) is left out.
-/

namespace Opac.Neutrinos
open Arith Spiner

variable {R : Type} [Arith R]

/-- `spiner_opac_neutrinos.hpp:62-63, 553-561` -/
structure SpinerOpacity (R : Type) where
  dist : FermiDirac R
  pc : PC R
  lalphanu_ : DataBox R
  ljnu_ : DataBox R
  lJ_ : DataBox R
  lJYe_ : DataBox R

namespace SpinerOpacity

/-- `spiner_opac_neutrinos.hpp:68` -/
def MEV (pc : PC R) : R := lit 1e6 * pc.eV
/-- `spiner_opac_neutrinos.hpp:69` -/
def EPS : R := lit 10.0 * dmin
/-- `spiner_opac_neutrinos.hpp:70` -/
def Hz2MeV (pc : PC R) : R := pc.h / (lit 1e6 * pc.eV)
/-- `spiner_opac_neutrinos.hpp:71` -/
def MeV2Hz (pc : PC R) : R := lit 1 / Hz2MeV pc
/-- `spiner_opac_neutrinos.hpp:72` -/
def MeV2GK : R := lit 11.604525006
/-- `spiner_opac_neutrinos.hpp:74` -/
def MeV2K : R := lit 1.e9 * MeV2GK
/-- `spiner_opac_neutrinos.hpp:75` -/
def K2MeV : R := lit 1 / MeV2K

/-- `spiner_opac_neutrinos.hpp:533-538`, both overloads (offset 0; `-0` is `0`) -/
def toLog_ (x : R) : R := log10 (abs (stdMax x (-(lit 0)) + lit 0) + EPS)
/-- `spiner_opac_neutrinos.hpp:539-545`, both overloads (offset 0) -/
def fromLog_ (lx : R) : R := pow (lit 10) lx - lit 0

/-- shape and grids of `lalphanu_`/`ljnu_` (`spiner_opac_neutrinos.hpp:89-96`, and `433-440`) -/
def setup5 (junk : ℕ → R) (NRho NT NYe NTYPE Ne : ℤ) (lRhoMin lRhoMax lTMin lTMax YeMin YeMax leMin leMax : R) :
    DataBox R :=
  let d := DataBox.resize [NRho, NT, NYe, NTYPE, Ne] junk (fun _ => Grid.none)
  let d := d.setRange 0 leMin leMax Ne
  let d := d.setRange 2 YeMin YeMax NYe
  let d := d.setRange 3 lTMin lTMax NT
  d.setRange 4 lRhoMin lRhoMax NRho

/-- shape and grids of `lJ_`/`lJYe_` (`spiner_opac_neutrinos.hpp:98-103`, and `442-447`) -/
def setup4 (junk : ℕ → R) (NRho NT NYe NTYPE : ℤ) (lRhoMin lRhoMax lTMin lTMax YeMin YeMax : R) : DataBox R :=
  let d := DataBox.resize [NRho, NT, NYe, NTYPE] junk (fun _ => Grid.none)
  let d := d.setRange 1 YeMin YeMax NYe
  let d := d.setRange 2 lTMin lTMax NT
  d.setRange 3 lRhoMin lRhoMax NRho

/-- the four quantities the fill constructor reads from the sampled opacity -/
structure Sampled (R : Type) where
  Emissivity : R → R → R → RadiationType → Outcome R
  NumberEmissivity : R → R → R → RadiationType → Outcome R
  AbsorptionCoefficient : R → R → R → RadiationType → R → Outcome R
  EmissivityPerNuOmega : R → R → R → RadiationType → R → Outcome R

/-- innermost loop body of the fill constructor (`spiner_opac_neutrinos.hpp:122-132`): one energy -/
def fillE (pc : PC R) (opac : Sampled R) (rho T Ye : R) (type : RadiationType) (iRho iT iYe idx : ℕ) (ie : ℕ)
    (o : SpinerOpacity R) : Outcome (SpinerOpacity R) := do
  let lE := (o.lalphanu_.range 0).x ie
  let E := fromLog_ lE
  let nu := MeV2Hz pc * E
  let a ← opac.AbsorptionCoefficient rho T Ye type nu
  let alpha := stdMax a (lit 0.0)
  let lalphanu ← o.lalphanu_.write [iRho, iT, iYe, idx, ie] (toLog_ alpha)
  let o := { o with lalphanu_ := lalphanu }
  let j ← opac.EmissivityPerNuOmega rho (T * MeV2K) Ye type nu
  let j := stdMax j (lit 0.0)
  let ljnu ← o.ljnu_.write [iRho, iT, iYe, idx, ie] (toLog_ j)
  pure { o with ljnu_ := ljnu }

/-- loop body over species (`spiner_opac_neutrinos.hpp:114-133`) -/
def fillIdx (pc : PC R) (opac : Sampled R) (Ne : ℤ) (rho T Ye : R) (iRho iT iYe : ℕ) (idx : ℕ)
    (o : SpinerOpacity R) : Outcome (SpinerOpacity R) := do
  let type ← Idx2RadType idx
  let J ← opac.Emissivity rho (T * MeV2K) Ye type
  let lJ := toLog_ (stdMax J (lit 0.0))
  let lJb ← o.lJ_.write [iRho, iT, iYe, idx] lJ
  let o := { o with lJ_ := lJb }
  let JYe ← opac.NumberEmissivity rho (T * MeV2K) Ye type
  let lJYeb ← o.lJYe_.write [iRho, iT, iYe, idx] (toLog_ (stdMax JYe (lit 0.0)))
  let o := { o with lJYe_ := lJYeb }
  forLoopM Ne (fillE pc opac rho T Ye type iRho iT iYe idx) o

/-- the fill constructor `spiner_opac_neutrinos.hpp:83-137` -/
def fill (dist : FermiDirac R) (pc : PC R) (junk : ℕ → ℕ → R) (opac : Sampled R) (lRhoMin lRhoMax : R) (NRho : ℤ)
    (lTMin lTMax : R) (NT : ℤ) (YeMin YeMax : R) (NYe : ℤ) (leMin leMax : R) (Ne : ℤ) :
    Outcome (SpinerOpacity R) :=
  let lTMin := lTMin + log10 K2MeV
  let lTMax := lTMax + log10 K2MeV
  let lalphanu := setup5 (junk 0) NRho NT NYe NEUTRINO_NTYPES Ne lRhoMin lRhoMax lTMin lTMax YeMin YeMax leMin leMax
  let lJ := setup4 (junk 2) NRho NT NYe NEUTRINO_NTYPES lRhoMin lRhoMax lTMin lTMax YeMin YeMax
  let o : SpinerOpacity R :=
    { dist := dist, pc := pc, lalphanu_ := lalphanu, ljnu_ := lalphanu.copyMetadata (junk 1), lJ_ := lJ,
      lJYe_ := lJ.copyMetadata (junk 3) }
  forLoopM NRho (fun iRho o =>
    let rho := fromLog_ ((o.lalphanu_.range 4).x iRho)
    forLoopM NT (fun iT o =>
      let T := fromLog_ ((o.lalphanu_.range 3).x iT)
      forLoopM NYe (fun iYe o =>
        let Ye := (o.lalphanu_.range 2).x iYe
        forLoopM NEUTRINO_NTYPES (fillIdx pc opac Ne rho T Ye iRho iT iYe) o) o) o) o

/-- the DataBox constructor `spiner_opac_neutrinos.hpp:141-144` (shallow copies: same contents) -/
def ofTables (dist : FermiDirac R) (pc : PC R) (lalphanu ljnu lJ lJYe : DataBox R) : SpinerOpacity R :=
  { dist := dist, pc := pc, lalphanu_ := lalphanu, ljnu_ := ljnu, lJ_ := lJ, lJYe_ := lJYe }

/-- `spiner_opac_neutrinos.hpp:181-189`: fresh object with device copies of the tables -/
def GetOnDevice (o : SpinerOpacity R) : SpinerOpacity R := o

/-- table lookup in a rank-5 table: `toLogs_` (546-552), energy in log MeV, interpolation, `fromLog_`
(`spiner_opac_neutrinos.hpp:199-209, 231-243, 262-271`) -/
def lookup5 (o : SpinerOpacity R) (d : DataBox R) (rho temp Ye : R) (type : RadiationType) (nu : R) : Outcome R :=
  let lRho := toLog_ rho
  let lT := toLog_ (temp * K2MeV)
  let idx := RadType2Idx type
  let le := toLog_ (Hz2MeV o.pc * nu)
  (d.interp5 lRho lT Ye idx le).map' fromLog_

/-- table lookup in a rank-4 table (`spiner_opac_neutrinos.hpp:311-329`) -/
def lookup4 (d : DataBox R) (rho temp Ye : R) (type : RadiationType) : Outcome R :=
  let lRho := toLog_ rho
  let lT := toLog_ (temp * K2MeV)
  let idx := RadType2Idx type
  (d.interp4 lRho lT Ye idx).map' fromLog_

/-- `spiner_opac_neutrinos.hpp:198-209` -/
def AbsorptionCoefficient (o : SpinerOpacity R) (rho temp Ye : R) (type : RadiationType) (nu : R) : Outcome R :=
  o.lookup5 o.lalphanu_ rho temp Ye type nu
/-- `spiner_opac_neutrinos.hpp:230-243` -/
def AngleAveragedAbsorptionCoefficient (o : SpinerOpacity R) (rho temp Ye : R) (type : RadiationType) (nu : R) :
    Outcome R :=
  o.lookup5 o.lalphanu_ rho temp Ye type nu
/-- `spiner_opac_neutrinos.hpp:261-271` -/
def EmissivityPerNuOmega (o : SpinerOpacity R) (rho temp Ye : R) (type : RadiationType) (nu : R) : Outcome R :=
  o.lookup5 o.ljnu_ rho temp Ye type nu
/-- `spiner_opac_neutrinos.hpp:288-293` -/
def EmissivityPerNu (o : SpinerOpacity R) (rho temp Ye : R) (type : RadiationType) (nu : R) : Outcome R :=
  (o.EmissivityPerNuOmega rho temp Ye type nu).map' (fun j => lit 4 * pi * j)
/-- `spiner_opac_neutrinos.hpp:311-320` -/
def Emissivity (o : SpinerOpacity R) (rho temp Ye : R) (type : RadiationType) : Outcome R :=
  lookup4 o.lJ_ rho temp Ye type
/-- `spiner_opac_neutrinos.hpp:322-329` -/
def NumberEmissivity (o : SpinerOpacity R) (rho temp Ye : R) (type : RadiationType) : Outcome R :=
  lookup4 o.lJYe_ rho temp Ye type

/-! ### SP5 files -/
open Hdf

/-- the calls of `Save`, `spiner_opac_neutrinos.hpp:159-172` (dataset names from `base/sp5.hpp:21-29`) -/
def SaveOps (o : SpinerOpacity R) : List (Op R) :=
  [.create, .save "absorption coefficient" o.lalphanu_, .save "emissivity per nu" o.ljnu_,
   .save "total emissivity" o.lJ_, .save "number emissivity" o.lJYe_, .close]

/-- `Save`, `spiner_opac_neutrinos.hpp:159-172`: the outcome and the file afterwards -/
def Save (o : SpinerOpacity R) (fails : ℕ → Bool) (f : Option (H5File R)) : Outcome Unit × Option (H5File R) :=
  let r := runSave o.SaveOps fails 0 false f
  (if r.1 ≠ 0 then .abort "neutrinos::SpinerOpacity: HDF5 error" else .ok (), r.2)

/-- `LoadFromSP5_`, `spiner_opac_neutrinos.hpp:380-392`.  Every dataset must be present and every call
succeed, else the summed status is nonzero; `ioFail` says whether any of the HDF5 calls fails for another
reason. -/
def LoadFromSP5_ (dist : FermiDirac R) (pc : PC R) (ioFail : Bool) (f : Option (H5File R)) :
    Outcome (SpinerOpacity R) :=
  match f with
  | none => .abort "neutrinos::SpinerOpacity: HDF5 error"
  | some f =>
    match f.get "absorption coefficient", f.get "emissivity per nu", f.get "total emissivity",
      f.get "number emissivity" with
    | some a, some j, some J, some N =>
        if ioFail then .abort "neutrinos::SpinerOpacity: HDF5 error"
        else .ok { dist := dist, pc := pc, lalphanu_ := a, ljnu_ := j, lJ_ := J, lJYe_ := N }
    | _, _, _, _ => .abort "neutrinos::SpinerOpacity: HDF5 error"

/-! ### NuLib files -/

/-- a NuLib file: the integers and arrays that `LoadFromNuLib_` reads (`none` = dataset missing or
unreadable).  The arrays are in file order (energy, species, Ye, temperature, density), the last index
fastest. -/
structure NuLibFile (R : Type) where
  nrho : Option ℤ
  ntemp : Option ℤ
  nye : Option ℤ
  number_groups : Option ℤ
  number_species : Option ℤ
  rho_points : Option (List R)
  temp_points : Option (List R)
  neutrino_energies : Option (List R)
  ye_points : Option (List R)
  emissivities : Option (ℕ → R)
  absorption_opacity : Option (ℕ → R)

/-- `ReadInt_`, `spiner_opac_neutrinos.hpp:472-479` -/
def ReadInt_ (x : Option ℤ) : Outcome ℤ :=
  match x with
  | some v => .ok v
  | none => .abort "Failed to read dataset!"

/-- `ReadBounds_`, `spiner_opac_neutrinos.hpp:481-492`.  The dataset is read into a vector of `size`
entries; a dataset longer than that overruns it, `table[0]`/`table[size-1]` of an empty vector is out of
range (both UB); a shorter one leaves the zero-initialised rest. -/
def ReadBounds_ (x : Option (List R)) (size : ℤ) : Outcome (R × R) :=
  match x with
  | none => .abort "An HDF5 error ocurred while reading bounds"
  | some l =>
    if size ≤ 0 ∨ size < l.length then .ub "ReadBounds_: vector overrun"
    else .ok (l.getD 0 (lit 0), l.getD (size - 1).toNat (lit 0))

/-- one step of the Riemann sum of `ComputeIntegrals` (`spiner_opac_neutrinos.hpp:509-521`) -/
def integralStep (pc : PC R) (ljnu : DataBox R) (iRho iT iYe itp : ℕ) (ie : ℕ) (s : DataBox R × DataBox R) :
    Outcome (DataBox R × DataBox R) := do
  let le := (ljnu.range 0).x ie
  let e := pow (lit 10) le
  let lj ← ljnu.read [iRho, iT, iYe, itp, ie]
  let j := pow (lit 10) lj * MEV pc / pc.h
  let integrand := lit 4 * pi * j * e
  let a ← s.1.read [iRho, iT, iYe, itp]
  let lJ ← s.1.write [iRho, iT, iYe, itp] (a + integrand)
  let b ← s.2.read [iRho, iT, iYe, itp]
  let lJYe ← s.2.write [iRho, iT, iYe, itp] (b + integrand / (MEV pc * e))
  pure (lJ, lJYe)

/-- body of the species loop of `ComputeIntegrals` (`spiner_opac_neutrinos.hpp:506-525`) -/
def integralCell (pc : PC R) (ljnu : DataBox R) (iRho iT iYe : ℕ) (itp : ℕ) (s : DataBox R × DataBox R) :
    Outcome (DataBox R × DataBox R) := do
  let dle := (ljnu.range 0).dx
  let lJ ← s.1.write [iRho, iT, iYe, itp] (lit 0.0)
  let lJYe ← s.2.write [iRho, iT, iYe, itp] (lit 0.0)
  let s ← forLoopM (ljnu.range 0).N (integralStep pc ljnu iRho iT iYe itp) (lJ, lJYe)
  let a ← s.1.read [iRho, iT, iYe, itp]
  let lJ ← s.1.write [iRho, iT, iYe, itp] (toLog_ (a * dle))
  let b ← s.2.read [iRho, iT, iYe, itp]
  let lJYe ← s.2.write [iRho, iT, iYe, itp] (toLog_ (b * dle))
  pure (lJ, lJYe)

/-- `ComputeIntegrals`, `spiner_opac_neutrinos.hpp:494-529` -/
def ComputeIntegrals (pc : PC R) (ljnu lJ lJYe : DataBox R) (RAD_NUM_TYPES : ℤ) :
    Outcome (DataBox R × DataBox R) :=
  forLoopM (ljnu.range 4).N (fun iRho s =>
    forLoopM (ljnu.range 3).N (fun iT s =>
      forLoopM (ljnu.range 2).N (fun iYe s =>
        forLoopM RAD_NUM_TYPES (integralCell pc ljnu iRho iT iYe) s) s) s) (lJ, lJYe)

/-- one entry of the fill loop of `LoadFromNuLib_` (`spiner_opac_neutrinos.hpp:454-464`).
`kappa_file` was never written: reading it is reading uninitialised storage. -/
def nulibEntry (pc : PC R) (kappa_file : Option (DataBox R)) (jnu_file : DataBox R) (iR iT iY idx : ℕ) (ie : ℕ)
    (s : DataBox R × DataBox R) : Outcome (DataBox R × DataBox R) := do
  let kappa ← match kappa_file with
    | some k => k.read [ie, idx, iY, iT, iR]
    | none => .ub "kappa_file is read but was never written"
  let lalphanu ← s.1.write [iR, iT, iY, idx, ie] (log10 kappa)
  let j ← jnu_file.read [ie, idx, iY, iT, iR]
  let ljnu ← s.2.write [iR, iT, iY, idx, ie] (log10 (pc.h * j / MEV pc))
  pure (lalphanu, ljnu)

/-- an HDF5 array read into a table of the given shape -/
def readArray (x : Option (ℕ → R)) (dims : List ℤ) (msg : String) : Outcome (DataBox R) :=
  match x with
  | some d => .ok { dims := dims, grid := fun _ => Grid.none, data := d }
  | none => .abort msg

/-- `LoadFromNuLib_`, `spiner_opac_neutrinos.hpp:394-470`: both arrays are read into `jnu_file`
(lines 418 and 424), so `kappa_file` stays uninitialised; a failing `H5Fclose` is left out.
`kappa` says what reading `kappa_file` does: `none` is undefined behaviour (what the language says), `some k` is
finding the values `k` in the storage (what a given compiler may do). -/
def LoadFromNuLibWith (kappa : Option (ℕ → R)) (dist : FermiDirac R) (pc : PC R) (junk : ℕ → ℕ → R)
    (f : Option (NuLibFile R)) : Outcome (SpinerOpacity R) :=
  match f with
  | none => .abort "Failed to read dataset!"
  | some f => do
    let NR ← ReadInt_ f.nrho
    let NT ← ReadInt_ f.ntemp
    let NY ← ReadInt_ f.nye
    let NE ← ReadInt_ f.number_groups
    let NTYPE ← ReadInt_ f.number_species
    let (rho_min, rho_max) ← ReadBounds_ f.rho_points NR
    let (T_min, T_max) ← ReadBounds_ f.temp_points NT
    let (emin, emax) ← ReadBounds_ f.neutrino_energies NE
    let (YeMin, YeMax) ← ReadBounds_ f.ye_points NY
    let lRhoMin := log10 rho_min
    let lRhoMax := log10 rho_max
    let lTMin := log10 T_min
    let lTMax := log10 T_max
    let leMin := log10 emin
    let leMax := log10 emax
    let _jnu_file ← readArray f.emissivities [NE, NTYPE, NY, NT, NR]
      "An HDF5 error ocurred while reading emissivities"
    let jnu_file ← readArray f.absorption_opacity [NE, NTYPE, NY, NT, NR]
      "An HDF5 error ocurred while reading absorption opacities"
    let kappa_file := kappa.map (fun k => ({ dims := [NE, NTYPE, NY, NT, NR], grid := fun _ => Grid.none, data := k } :
      DataBox R))
    let lalphanu := setup5 (junk 0) NR NT NY NTYPE NE lRhoMin lRhoMax lTMin lTMax YeMin YeMax leMin leMax
    let ljnu := lalphanu.copyMetadata (junk 1)
    let lJ := setup4 (junk 2) NR NT NY NTYPE lRhoMin lRhoMax lTMin lTMax YeMin YeMax
    let lJYe := lJ.copyMetadata (junk 3)
    let (lalphanu, ljnu) ← forLoopM NR (fun iR s => forLoopM NT (fun iT s => forLoopM NY (fun iY s =>
      forLoopM NTYPE (fun idx s => forLoopM NE (nulibEntry pc kappa_file jnu_file iR iT iY idx) s) s) s) s)
      (lalphanu, ljnu)
    let (lJ, lJYe) ← ComputeIntegrals pc ljnu lJ lJYe NTYPE
    pure { dist := dist, pc := pc, lalphanu_ := lalphanu, ljnu_ := ljnu, lJ_ := lJ, lJYe_ := lJYe }

/-- `LoadFromNuLib_`, `spiner_opac_neutrinos.hpp:394-470`, as the language defines it -/
def LoadFromNuLib_ (dist : FermiDirac R) (pc : PC R) (junk : ℕ → ℕ → R) (f : Option (NuLibFile R)) :
    Outcome (SpinerOpacity R) := LoadFromNuLibWith none dist pc junk f

end SpinerOpacity
end Opac.Neutrinos
