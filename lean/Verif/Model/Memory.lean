import Verif.Model.MeanPhoton
import Verif.Model.MeanNeutrino
import Verif.Model.SpinerOpac

/-!
# Who owns the tables

The tabulated opacities keep their tables in `Spiner::DataBox` members.  The rest of the model treats a table as the
values in it; this file adds the memory the values live in, and what each method does to it.

The contract of `Spiner::DataBox` (external, its source is not in the repository) as the library uses it:
* a default-constructed box is empty; `resize`, `copyMetadata` and `loadHDF` on an empty box allocate a block;
* copying a box copies the pointer, not the block;
* no destructor releases a block, `finalize()` does, and leaves the box empty; on an empty box it does nothing
  (the library calls `finalize()` on its local boxes, `mean_opacity_photons.hpp:93-95`);
* `getOnDeviceDataBox` copies a box into a fresh block; a copy of an empty box is empty.

Host and device memory are not told apart.  A block is never handed out twice (an allocator may reuse a released
address, but a program that notices is already using released memory).
-/

namespace Opac.Memory
open Arith Spiner Hdf

variable {R : Type}

/-- blocks `0 .. next - 1` have been handed out; `cell b` is what block `b` holds, `none` when it is not allocated -/
structure Mem (R : Type) where
  cell : ℕ → Option (DataBox R)
  next : ℕ

/-- nothing allocated yet -/
def Mem.fresh : Mem R := { cell := fun _ => none, next := 0 }

/-- memory after one more block was allocated -/
def Mem.push (m : Mem R) (d : DataBox R) : Mem R :=
  { cell := Function.update m.cell m.next (some d), next := m.next + 1 }

/-- a `DataBox` variable: no block, or a pointer to one -/
inductive Box where
  | empty
  | owner (b : ℕ)

/-- a computation that uses memory.  An error (`OPAC_ERROR`, `base/opac_error.hpp:20-28`) that is thrown and caught
leaves memory as it was at that moment. -/
def MemM (R α : Type) : Type := Mem R → Outcome α × Mem R

/-- sequencing -/
def MemM.bind {α β : Type} (x : MemM R α) (f : α → MemM R β) : MemM R β := fun m =>
  match x m with
  | (.ok a, m') => f a m'
  | (.abort e, m') => (.abort e, m')
  | (.ub w, m') => (.ub w, m')

instance : Monad (MemM R) where
  pure a := fun m => (.ok a, m)
  bind := MemM.bind

/-- a computation that does not touch memory -/
def lift {α : Type} (x : Outcome α) : MemM R α := fun m => (x, m)

/-- `resize`, `copyMetadata`, `loadHDF` on an empty box, and constructing a box of given dimensions -/
def alloc (d : DataBox R) : MemM R Box := fun m => (.ok (.owner m.next), m.push d)

/-- `DataBox::finalize` -/
def finalize : Box → MemM R Box
  | .empty => fun m => (.ok .empty, m)
  | .owner b => fun m =>
    match m.cell b with
    | some _ => (.ok .empty, { m with cell := Function.update m.cell b none })
    | none => (.ub "block released twice", m)

/-- reading a table through its box -/
def read : Box → MemM R (DataBox R)
  | .empty => lift (.ub "table of an empty box read")
  | .owner b => fun m =>
    match m.cell b with
    | some d => (.ok d, m)
    | none => (.ub "released table read", m)

/-- writing a table through its box -/
def write (d : DataBox R) : Box → MemM R Unit
  | .empty => lift (.ub "table of an empty box written")
  | .owner b => fun m =>
    match m.cell b with
    | some _ => (.ok (), { m with cell := Function.update m.cell b (some d) })
    | none => (.ub "released table written", m)

/-- `Spiner::getOnDeviceDataBox` -/
def getOnDevice : Box → MemM R Box
  | .empty => pure .empty
  | .owner b => do
    let d ← read (.owner b)
    alloc d

/-- `box.loadHDF(file, name)` on an empty box: the box and the status -/
def loadHDF (d : Option (DataBox R)) : MemM R (Box × ℤ) :=
  match d with
  | some d => do
    let b ← alloc d
    pure (b, 0)
  | none => pure (.empty, -1)

/-! ### photons: `MeanOpacity`, `MeanSOpacity` -/

/-- members `mean_opacity_photons.hpp:404-407`, `mean_s_opacity_photons.hpp:346-349` -/
structure MGBox where
  lPlanck : Box
  lRosseland : Box
  groupBounds : Box
  ngroups : ℕ

namespace MGBox
open Photons
variable [Arith R]

/-- `Finalize`: `mean_opacity_photons.hpp:139-143`, `mean_s_opacity_photons.hpp:131-135` -/
def Finalize (h : MGBox) : MemM R MGBox := do
  let p ← finalize h.lPlanck
  let r ← finalize h.lRosseland
  let g ← finalize h.groupBounds
  pure { lPlanck := p, lRosseland := r, groupBounds := g, ngroups := h.ngroups }

/-- `GetOnDevice`: `mean_opacity_photons.hpp:130-137`, `mean_s_opacity_photons.hpp:122-129` -/
def GetOnDevice (h : MGBox) : MemM R MGBox := do
  let p ← getOnDevice h.lPlanck
  let r ← getOnDevice h.lRosseland
  let g ← getOnDevice h.groupBounds
  pure { lPlanck := p, lRosseland := r, groupBounds := g, ngroups := h.ngroups }

/-- what a lookup sees.  (Simplification: a lookup is taken to touch every table of the object.) -/
def view (h : MGBox) : MemM R (MGTables R) := do
  let p ← read h.lPlanck
  let r ← read h.lRosseland
  let g ← read h.groupBounds
  pure { lPlanck := p, lRosseland := r, groupBounds := g.toList, ngroups := h.ngroups }

/-- `MeanOpacityImpl_` (`mean_opacity_photons.hpp:310-402`), `MeanSOpacityImpl_`
(`mean_s_opacity_photons.hpp:252-344`).  The tables are filled in place; the model writes them when they are full. -/
def Impl_ (pc : PC R) (junk : ℕ → R) (coef : R → R → R → R) (lRhoMin lRhoMax : R) (NRho : ℤ)
    (lTMin lTMax : R) (NT : ℤ) (group_bounds : List R) (ngroups : ℤ) (NNuPerGroup : ℤ) : MemM R MGBox := do
  lift (if NNuPerGroup < 2 then .abort "NNuPerGroup must be at least 2" else .ok ())
  lift (ValidateGroupBounds group_bounds ngroups)
  let ng := ngroups.toNat
  let gb ← lift (SetGroupBounds group_bounds ng)
  let bG ← alloc (DataBox.ofList gb (lit 0))
  let lP := ((DataBox.resize [NRho, NT, (ng : ℤ)] junk (fun _ => Grid.none)).setRange 1 lTMin lTMax NT).setRange
    2 lRhoMin lRhoMax NRho
  let bP ← alloc lP
  let bR ← alloc (lP.copyMetadata junk)
  let s ← lift (forLoopM NT (fun iT s =>
    forLoopM NRho (fun iRho s =>
      forLoopM (ng : ℤ) (fun group s => MGTables.FillCell pc coef group_bounds NNuPerGroup iT iRho group s) s) s)
    (lP, lP.copyMetadata junk))
  write s.1 bP
  write s.2 bR
  pure { lPlanck := bP, lRosseland := bR, groupBounds := bG, ngroups := ng }

/-- `LoadOpacityTables_` (`mean_opacity_photons.hpp:283-297`), `LoadScatteringTables_`
(`mean_s_opacity_photons.hpp:225-239`): nothing is allocated before the checks have passed -/
def LoadTables_ (junk : ℕ → R) (kP kR : DataBox R) (group_bounds : List R) : MemM R MGBox := do
  let t ← lift (MGTables.LoadTables_ junk kP kR group_bounds)
  let bG ← alloc (DataBox.ofList t.groupBounds (lit 0))
  let bP ← alloc t.lPlanck
  let bR ← alloc t.lRosseland
  pure { lPlanck := bP, lRosseland := bR, groupBounds := bG, ngroups := t.ngroups }

/-- the constructor from a file name: `mean_opacity_photons.hpp:72-96`, `mean_s_opacity_photons.hpp:67-88`; `ioFail`
is a failure of `H5Fclose`.  The three local boxes are finalized at the end. -/
def LoadFile (nm : MGTables.Names) (junk : ℕ → R) (ioFail : Bool) (f : Option (H5File R)) : MemM R MGBox := do
  let f ← lift (match f with | some f => .ok f | none => .abort "HDF5 error")
  let kP ← loadHDF (f.get nm.planck)
  let kR ← loadHDF (f.get nm.rosseland)
  let gb ← loadHDF (f.get nm.bounds)
  lift (if kP.2 + kR.2 + gb.2 + (if ioFail then -1 else 0) ≠ 0 then .abort "HDF5 error" else .ok ())
  let dP ← read kP.1
  let dR ← read kR.1
  let dG ← read gb.1
  let h ← LoadTables_ junk dP dR dG.toList
  let _ ← finalize gb.1
  let _ ← finalize kP.1
  let _ ← finalize kR.1
  pure h

/-- `Save`: `mean_opacity_photons.hpp:98-122`, `mean_s_opacity_photons.hpp:90-114`: the three local boxes are finalized
before the status is looked at -/
def Save (nm : MGTables.Names) (h : MGBox) (junk : ℕ → R) (fails : ℕ → Bool) (f : Option (H5File R)) :
    MemM R (Option (H5File R)) := do
  let t ← h.view
  let k := t.ExportTables_ junk
  let kP ← alloc k.1
  let kR ← alloc k.2
  let gb ← lift (ExportGroupBounds t.groupBounds t.ngroups)
  let gB ← alloc (DataBox.ofList gb (lit 0))
  let dP ← read kP
  let dR ← read kR
  let dG ← read gB
  let r := runSave [.create, .save nm.planck dP, .save nm.rosseland dR, .save nm.bounds dG, .close] fails 0 false f
  let _ ← finalize kP
  let _ ← finalize kR
  let _ ← finalize gB
  lift (if r.1 ≠ 0 then .abort "HDF5 error" else .ok ())
  pure r.2
end MGBox

/-! ### neutrinos: `MeanOpacity`, `MeanSOpacity` -/

/-- members `mean_opacity_neutrinos.hpp:224-225`, `mean_s_opacity_neutrinos.hpp:214-215` -/
structure MeanBox where
  lPlanck : Box
  lRosseland : Box

namespace MeanBox
open Neutrinos
variable [Arith R]

/-- `Finalize`: `mean_opacity_neutrinos.hpp:106-109`, `mean_s_opacity_neutrinos.hpp:106-109` -/
def Finalize (h : MeanBox) : MemM R MeanBox := do
  let p ← finalize h.lPlanck
  let r ← finalize h.lRosseland
  pure { lPlanck := p, lRosseland := r }

/-- `GetOnDevice`: `mean_opacity_neutrinos.hpp:99-104`, `mean_s_opacity_neutrinos.hpp:99-104` -/
def GetOnDevice (h : MeanBox) : MemM R MeanBox := do
  let p ← getOnDevice h.lPlanck
  let r ← getOnDevice h.lRosseland
  pure { lPlanck := p, lRosseland := r }

/-- what a lookup sees -/
def view (h : MeanBox) : MemM R (MeanTables R) := do
  let p ← read h.lPlanck
  let r ← read h.lRosseland
  pure { lPlanck := p, lRosseland := r }

/-- `MeanOpacityImpl_` (`mean_opacity_neutrinos.hpp:145-216`), `MeanSOpacityImpl_`
(`mean_s_opacity_neutrinos.hpp:140-207`): allocate both tables, then run the loop nest `loops` on them -/
def Impl_ (t : MeanTables R) (loops : MeanTables R → Outcome (MeanTables R)) : MemM R MeanBox := do
  let bP ← alloc t.lPlanck
  let bR ← alloc t.lRosseland
  let t' ← lift (loops t)
  write t'.lPlanck bP
  write t'.lRosseland bR
  pure { lPlanck := bP, lRosseland := bR }

/-- the constructor from a file name: `mean_opacity_neutrinos.hpp:66-78`, `mean_s_opacity_neutrinos.hpp:66-78`; the
boxes loaded are the members -/
def LoadFile (nm : MeanTables.Names) (ioFail : Bool) (f : Option (H5File R)) : MemM R MeanBox := do
  let f ← lift (match f with | some f => .ok f | none => .abort "HDF5 error")
  let kP ← loadHDF (f.get nm.planck)
  let kR ← loadHDF (f.get nm.rosseland)
  lift (if kP.2 + kR.2 + (if ioFail then -1 else 0) ≠ 0 then .abort "HDF5 error" else .ok ())
  pure { lPlanck := kP.1, lRosseland := kR.1 }
end MeanBox

/-! ### neutrinos: `SpinerOpacity` -/

/-- members `spiner_opac_neutrinos.hpp:557` -/
structure SpinerBox where
  lalphanu_ : Box
  ljnu_ : Box
  lJ_ : Box
  lJYe_ : Box

namespace SpinerBox
open Neutrinos SpinerOpacity
variable [Arith R]

/-- `Finalize`: `spiner_opac_neutrinos.hpp:191-196` -/
def Finalize (h : SpinerBox) : MemM R SpinerBox := do
  let a ← finalize h.lalphanu_
  let j ← finalize h.ljnu_
  let J ← finalize h.lJ_
  let N ← finalize h.lJYe_
  pure { lalphanu_ := a, ljnu_ := j, lJ_ := J, lJYe_ := N }

/-- `GetOnDevice`: `spiner_opac_neutrinos.hpp:181-189` -/
def GetOnDevice (h : SpinerBox) : MemM R SpinerBox := do
  let a ← getOnDevice h.lalphanu_
  let j ← getOnDevice h.ljnu_
  let J ← getOnDevice h.lJ_
  let N ← getOnDevice h.lJYe_
  pure { lalphanu_ := a, ljnu_ := j, lJ_ := J, lJYe_ := N }

/-- what a lookup sees -/
def view (dist : FermiDirac R) (pc : PC R) (h : SpinerBox) : MemM R (SpinerOpacity R) := do
  let a ← read h.lalphanu_
  let j ← read h.ljnu_
  let J ← read h.lJ_
  let N ← read h.lJYe_
  pure { dist := dist, pc := pc, lalphanu_ := a, ljnu_ := j, lJ_ := J, lJYe_ := N }

/-- the fill constructor, `spiner_opac_neutrinos.hpp:83-137`: allocate the four tables, then fill them.  `fill` is the
value-level constructor; it ends in the state of the tables after the loops. -/
def fill (a j J N : DataBox R) (full : Outcome (SpinerOpacity R)) : MemM R SpinerBox := do
  let ba ← alloc a
  let bj ← alloc j
  let bJ ← alloc J
  let bN ← alloc N
  let o ← lift full
  write o.lalphanu_ ba
  write o.ljnu_ bj
  write o.lJ_ bJ
  write o.lJYe_ bN
  pure { lalphanu_ := ba, ljnu_ := bj, lJ_ := bJ, lJYe_ := bN }

/-- `LoadFromSP5_`, `spiner_opac_neutrinos.hpp:380-392` -/
def LoadFromSP5_ (ioFail : Bool) (f : Option (H5File R)) : MemM R SpinerBox := do
  let f ← lift (match f with | some f => .ok f | none => .abort "neutrinos::SpinerOpacity: HDF5 error")
  let a ← loadHDF (f.get "absorption coefficient")
  let j ← loadHDF (f.get "emissivity per nu")
  let J ← loadHDF (f.get "total emissivity")
  let N ← loadHDF (f.get "number emissivity")
  lift (if a.2 + j.2 + J.2 + N.2 + (if ioFail then -1 else 0) ≠ 0 then
    .abort "neutrinos::SpinerOpacity: HDF5 error" else .ok ())
  pure { lalphanu_ := a.1, ljnu_ := j.1, lJ_ := J.1, lJYe_ := N.1 }

/-- `LoadFromNuLib_`, `spiner_opac_neutrinos.hpp:394-470`, with the choice `kappa` of what reading the uninitialised
`kappa_file` does (see `SpinerOpacity.LoadFromNuLibWith`).  The local boxes `jnu_file` and `kappa_file` (416, 423) are
allocated and never finalized. -/
def LoadFromNuLib_ (kappa : Option (ℕ → R)) (pc : PC R) (junk : ℕ → ℕ → R) (f : Option (NuLibFile R)) :
    MemM R SpinerBox := do
  let f ← lift (match f with | some f => .ok f | none => .abort "Failed to read dataset!")
  let NR ← lift (ReadInt_ f.nrho)
  let NT ← lift (ReadInt_ f.ntemp)
  let NY ← lift (ReadInt_ f.nye)
  let NE ← lift (ReadInt_ f.number_groups)
  let NTYPE ← lift (ReadInt_ f.number_species)
  let rho ← lift (ReadBounds_ f.rho_points NR)
  let T ← lift (ReadBounds_ f.temp_points NT)
  let e ← lift (ReadBounds_ f.neutrino_energies NE)
  let Ye ← lift (ReadBounds_ f.ye_points NY)
  let raw : (ℕ → R) → DataBox R := fun d => { dims := [NE, NTYPE, NY, NT, NR], grid := fun _ => Grid.none, data := d }
  let _jnu ← alloc (raw (junk 4))
  let _ ← lift (readArray f.emissivities [NE, NTYPE, NY, NT, NR] "An HDF5 error ocurred while reading emissivities")
  let _kappa ← alloc (raw (junk 5))
  let jnu_file ← lift (readArray f.absorption_opacity [NE, NTYPE, NY, NT, NR]
    "An HDF5 error ocurred while reading absorption opacities")
  let a := setup5 (junk 0) NR NT NY NTYPE NE (log10 rho.1) (log10 rho.2) (log10 T.1) (log10 T.2) Ye.1 Ye.2
    (log10 e.1) (log10 e.2)
  let J := setup4 (junk 2) NR NT NY NTYPE (log10 rho.1) (log10 rho.2) (log10 T.1) (log10 T.2) Ye.1 Ye.2
  let ba ← alloc a
  let bj ← alloc (a.copyMetadata (junk 1))
  let bJ ← alloc J
  let bN ← alloc (J.copyMetadata (junk 3))
  let s ← lift (forLoopM NR (fun iR s => forLoopM NT (fun iT s => forLoopM NY (fun iY s =>
    forLoopM NTYPE (fun idx s => forLoopM NE (nulibEntry pc (kappa.map raw) jnu_file iR iT iY idx) s) s) s) s)
    (a, a.copyMetadata (junk 1)))
  let i ← lift (ComputeIntegrals pc s.2 J (J.copyMetadata (junk 3)) NTYPE)
  write s.1 ba
  write s.2 bj
  write i.1 bJ
  write i.2 bN
  pure { lalphanu_ := ba, ljnu_ := bj, lJ_ := bJ, lJYe_ := bN }
end SpinerBox

/-! ### objects and programs -/

/-- an object a program holds: one of the table classes, possibly in a unit wrapper (`photons/non_cgs_photons.hpp`,
`neutrinos/non_cgs_neutrinos.hpp`, `neutrinos/non_cgs_s_neutrinos.hpp`) -/
inductive Obj (R : Type) where
  | photons (pc : PC R) (h : MGBox)
  | photonsS (pc : PC R) (h : MGBox)
  | neutrinos (pc : PC R) (h : MeanBox)
  | neutrinosS (dist : Neutrinos.FermiDirac R) (pc : PC R) (h : MeanBox)
  | spiner (dist : Neutrinos.FermiDirac R) (pc : PC R) (h : SpinerBox)
  | wrapped (time_unit mass_unit length_unit temp_unit : R) (o : Obj R)

/-- the same object as a value: its parameters and the contents of its tables -/
inductive Val (R : Type) where
  | photons (o : Photons.MeanOpacityBase R)
  | photonsS (o : Photons.MeanSOpacityBase R)
  | neutrinos (o : Neutrinos.MeanOpacityBase R)
  | neutrinosS (o : Neutrinos.MeanSOpacityBase R)
  | spiner (o : Neutrinos.SpinerOpacity R)
  | wrapped (time_unit mass_unit length_unit temp_unit : R) (v : Val R)

namespace Obj
variable [Arith R]

/-- `Finalize` of the class; of a wrapper: `non_cgs_photons.hpp:259`, `non_cgs_neutrinos.hpp:52, 271`,
`non_cgs_s_neutrinos.hpp:102`; of a variant: `mean_photon_variant.hpp:174-177` and likewise -/
def Finalize : Obj R → MemM R (Obj R)
  | photons pc h => do let h ← h.Finalize; pure (photons pc h)
  | photonsS pc h => do let h ← h.Finalize; pure (photonsS pc h)
  | neutrinos pc h => do let h ← h.Finalize; pure (neutrinos pc h)
  | neutrinosS dist pc h => do let h ← h.Finalize; pure (neutrinosS dist pc h)
  | spiner dist pc h => do let h ← h.Finalize; pure (spiner dist pc h)
  | wrapped t m l k o => do let o ← o.Finalize; pure (wrapped t m l k o)

/-- `GetOnDevice` of the class; of a wrapper: `non_cgs_photons.hpp:255-258`, `non_cgs_neutrinos.hpp:47-50, 267-270` -/
def GetOnDevice : Obj R → MemM R (Obj R)
  | photons pc h => do let h ← h.GetOnDevice; pure (photons pc h)
  | photonsS pc h => do let h ← h.GetOnDevice; pure (photonsS pc h)
  | neutrinos pc h => do let h ← h.GetOnDevice; pure (neutrinos pc h)
  | neutrinosS dist pc h => do let h ← h.GetOnDevice; pure (neutrinosS dist pc h)
  | spiner dist pc h => do let h ← h.GetOnDevice; pure (spiner dist pc h)
  | wrapped t m l k o => do let o ← o.GetOnDevice; pure (wrapped t m l k o)

/-- what a method of the object sees -/
def view : Obj R → MemM R (Val R)
  | photons pc h => do let t ← h.view; pure (.photons { pc := pc, t := t })
  | photonsS pc h => do let t ← h.view; pure (.photonsS { pc := pc, t := t })
  | neutrinos pc h => do let t ← h.view; pure (.neutrinos { pc := pc, t := t })
  | neutrinosS dist pc h => do let t ← h.view; pure (.neutrinosS { dist := dist, pc := pc, t := t })
  | spiner dist pc h => do let o ← h.view dist pc; pure (.spiner o)
  | wrapped t m l k o => do let v ← o.view; pure (.wrapped t m l k v)

/-- `Save` of the class (the neutrino classes write their members, `mean_opacity_neutrinos.hpp:80-92`,
`mean_s_opacity_neutrinos.hpp:80-92`, `spiner_opac_neutrinos.hpp:159-172`); of a wrapper:
`non_cgs_photons.hpp:275-277`, `non_cgs_neutrinos.hpp:277-279` -/
def Save (junk : ℕ → R) (fails : ℕ → Bool) (f : Option (H5File R)) : Obj R → MemM R (Option (H5File R))
  | photons _ h => h.Save Photons.MGTables.opacNames junk fails f
  | photonsS _ h => h.Save Photons.MGTables.sopacNames junk fails f
  | neutrinos _ h => do
    let t ← h.view
    let r := t.Save Neutrinos.MeanTables.opacNames fails f
    lift (r.1.map' fun _ => r.2)
  | neutrinosS _ _ h => do
    let t ← h.view
    let r := t.Save Neutrinos.MeanTables.sopacNames fails f
    lift (r.1.map' fun _ => r.2)
  | spiner dist pc h => do
    let o ← h.view dist pc
    let r := o.Save fails f
    lift (r.1.map' fun _ => r.2)
  | wrapped _ _ _ _ o => o.Save junk fails f
end Obj

/-- a constructor call -/
inductive Ctor (R : Type) : Type 1 where
  /-- `mean_opacity_photons.hpp:53-60` -/
  | photons {O : Type} (inst : Photons.PhotonAPI R O) (pc : PC R) (junk : ℕ → R) (opac : O) (lRhoMin lRhoMax : R)
      (NRho : ℤ) (lTMin lTMax : R) (NT : ℤ) (bounds : List R) (ngroups NNuPerGroup : ℤ)
  /-- `mean_s_opacity_photons.hpp:51-58` -/
  | photonsS {O : Type} (inst : Photons.PhotonSAPI R O) (pc : PC R) (junk : ℕ → R) (opac : O) (lRhoMin lRhoMax : R)
      (NRho : ℤ) (lTMin lTMax : R) (NT : ℤ) (bounds : List R) (ngroups NNuPerGroup : ℤ)
  /-- `mean_opacity_photons.hpp:62-69` -/
  | photonsTables (pc : PC R) (junk : ℕ → R) (kP kR : DataBox R) (bounds : List R)
  /-- `mean_s_opacity_photons.hpp:60-64` -/
  | photonsSTables (pc : PC R) (junk : ℕ → R) (kP kR : DataBox R) (bounds : List R)
  /-- `mean_opacity_photons.hpp:72-96` -/
  | photonsFile (pc : PC R) (junk : ℕ → R) (ioFail : Bool) (f : Option (H5File R))
  /-- `mean_s_opacity_photons.hpp:67-88` -/
  | photonsSFile (pc : PC R) (junk : ℕ → R) (ioFail : Bool) (f : Option (H5File R))
  /-- `mean_opacity_neutrinos.hpp:44-64` -/
  | neutrinos {O : Type} (inst : Neutrinos.NeutrinoAPI R O) (auto : Bool) (pc : PC R) (junk : ℕ → ℕ → R) (opac : O)
      (lRhoMin lRhoMax : R) (NRho : ℤ) (lTMin lTMax : R) (NT : ℤ) (YeMin YeMax : R) (NYe : ℤ) (lNuMin lNuMax : R)
      (NNu : ℤ)
  /-- `mean_s_opacity_neutrinos.hpp:44-64` -/
  | neutrinosS {O : Type} (inst : Neutrinos.NeutrinoSAPI R O) (auto : Bool) (dist : Neutrinos.FermiDirac R) (pc : PC R)
      (junk : ℕ → ℕ → R) (s_opac : O) (lRhoMin lRhoMax : R) (NRho : ℤ) (lTMin lTMax : R) (NT : ℤ) (YeMin YeMax : R)
      (NYe : ℤ) (lNuMin lNuMax : R) (NNu : ℤ)
  /-- `mean_opacity_neutrinos.hpp:66-78` -/
  | neutrinosFile (pc : PC R) (ioFail : Bool) (f : Option (H5File R))
  /-- `mean_s_opacity_neutrinos.hpp:66-78` -/
  | neutrinosSFile (dist : Neutrinos.FermiDirac R) (pc : PC R) (ioFail : Bool) (f : Option (H5File R))
  /-- `spiner_opac_neutrinos.hpp:83-137` -/
  | spinerFill (dist : Neutrinos.FermiDirac R) (pc : PC R) (junk : ℕ → ℕ → R) (opac : Neutrinos.SpinerOpacity.Sampled R)
      (lRhoMin lRhoMax : R) (NRho : ℤ) (lTMin lTMax : R) (NT : ℤ) (YeMin YeMax : R) (NYe : ℤ) (leMin leMax : R) (Ne : ℤ)
  /-- `spiner_opac_neutrinos.hpp:147-157` with `LoadSource::SP5` -/
  | spinerSP5 (dist : Neutrinos.FermiDirac R) (pc : PC R) (ioFail : Bool) (f : Option (H5File R))
  /-- `spiner_opac_neutrinos.hpp:147-157` with `LoadSource::NuLib` -/
  | spinerNuLib (kappa : Option (ℕ → R)) (dist : Neutrinos.FermiDirac R) (pc : PC R) (junk : ℕ → ℕ → R)
      (f : Option (Neutrinos.SpinerOpacity.NuLibFile R))

namespace Ctor
variable [Arith R]
open Photons Neutrinos

/-- the constructor in memory -/
def run : Ctor R → MemM R (Obj R)
  | photons inst pc junk opac a b NRho c d NT bounds ng NNu => do
    let h ← MGBox.Impl_ pc junk (inst.AbsorptionCoefficient opac) a b NRho c d NT bounds ng NNu
    pure (.photons pc h)
  | photonsS inst pc junk opac a b NRho c d NT bounds ng NNu => do
    let h ← MGBox.Impl_ pc junk (inst.TotalScatteringCoefficient opac) a b NRho c d NT bounds ng NNu
    pure (.photonsS pc h)
  | photonsTables pc junk kP kR bounds => do
    let h ← MGBox.LoadTables_ junk kP kR bounds
    pure (.photons pc h)
  | photonsSTables pc junk kP kR bounds => do
    let h ← MGBox.LoadTables_ junk kP kR bounds
    pure (.photonsS pc h)
  | photonsFile pc junk ioFail f => do
    let h ← MGBox.LoadFile MGTables.opacNames junk ioFail f
    pure (.photons pc h)
  | photonsSFile pc junk ioFail f => do
    let h ← MGBox.LoadFile MGTables.sopacNames junk ioFail f
    pure (.photonsS pc h)
  | neutrinos inst auto pc junk opac a b NRho c d NT e f NYe n1 n2 NNu => do
    let w := if auto then MeanTables.autoWindow pc c d else (n1, n2)
    let h ← MeanBox.Impl_ (MeanTables.setup junk a b NRho c d NT e f NYe)
      (MeanTables.loops NRho NT NYe (MeanTables.fillCell
        { coef := inst.AbsorptionCoefficient opac, B := inst.ThermalDistributionOfTNu opac,
          dBdT := inst.DThermalDistributionOfTNuDT opac } w.1 w.2 NNu))
    pure (.neutrinos pc h)
  | neutrinosS inst auto dist pc junk s_opac a b NRho c d NT e f NYe n1 n2 NNu => do
    let w := if auto then MeanTables.autoWindow pc c d else (n1, n2)
    let h ← MeanBox.Impl_ (MeanTables.setup junk a b NRho c d NT e f NYe)
      (MeanTables.loops NRho NT NYe (MeanTables.fillCellS
        { coef := fun rho T Ye type nu => .ok (inst.TotalScatteringCoefficient s_opac rho T Ye type nu),
          B := fun T _ nu => dist.ThermalDistributionOfTNu T nu,
          dBdT := fun T _ nu => dist.DThermalDistributionOfTNuDT T nu } w.1 w.2 NNu))
    pure (.neutrinosS dist pc h)
  | neutrinosFile pc ioFail f => do
    let h ← MeanBox.LoadFile MeanTables.opacNames ioFail f
    pure (.neutrinos pc h)
  | neutrinosSFile dist pc ioFail f => do
    let h ← MeanBox.LoadFile MeanTables.sopacNames ioFail f
    pure (.neutrinosS dist pc h)
  | spinerFill dist pc junk opac a b NRho c d NT e f NYe g i Ne => do
    let t5 := SpinerOpacity.setup5 (junk 0) NRho NT NYe NEUTRINO_NTYPES Ne a b (c + log10 SpinerOpacity.K2MeV)
      (d + log10 SpinerOpacity.K2MeV) e f g i
    let t4 := SpinerOpacity.setup4 (junk 2) NRho NT NYe NEUTRINO_NTYPES a b (c + log10 SpinerOpacity.K2MeV)
      (d + log10 SpinerOpacity.K2MeV) e f
    let h ← SpinerBox.fill t5 (t5.copyMetadata (junk 1)) t4 (t4.copyMetadata (junk 3))
      (SpinerOpacity.fill dist pc junk opac a b NRho c d NT e f NYe g i Ne)
    pure (.spiner dist pc h)
  | spinerSP5 dist pc ioFail f => do
    let h ← SpinerBox.LoadFromSP5_ ioFail f
    pure (.spiner dist pc h)
  | spinerNuLib kappa dist pc junk f => do
    let h ← SpinerBox.LoadFromNuLib_ kappa pc junk f
    pure (.spiner dist pc h)

/-- the constructor as the rest of the model has it: the value it makes.  (The debug-only `assert` of the neutrino
means is left out.) -/
def value : Ctor R → Outcome (Val R)
  | photons inst pc junk opac a b NRho c d NT bounds ng NNu =>
    (@Photons.MeanOpacityBase.construct R _ _ inst pc junk opac a b NRho c d NT bounds ng NNu).map' .photons
  | photonsS inst pc junk opac a b NRho c d NT bounds ng NNu =>
    (@Photons.MeanSOpacityBase.construct R _ _ inst pc junk opac a b NRho c d NT bounds ng NNu).map' .photonsS
  | photonsTables pc junk kP kR bounds => (Photons.MeanOpacityBase.ofTables pc junk kP kR bounds).map' .photons
  | photonsSTables pc junk kP kR bounds => (Photons.MeanSOpacityBase.ofTables pc junk kP kR bounds).map' .photonsS
  | photonsFile pc junk ioFail f => (Photons.MeanOpacityBase.ofFile pc junk ioFail f).map' .photons
  | photonsSFile pc junk ioFail f => (Photons.MeanSOpacityBase.ofFile pc junk ioFail f).map' .photonsS
  | neutrinos inst auto pc junk opac a b NRho c d NT e f NYe n1 n2 NNu =>
    (@Neutrinos.MeanOpacityBase.Impl_ R _ _ inst false auto pc junk opac a b NRho c d NT e f NYe n1 n2 NNu).map' .neutrinos
  | neutrinosS inst auto dist pc junk s_opac a b NRho c d NT e f NYe n1 n2 NNu =>
    (@Neutrinos.MeanSOpacityBase.Impl_ R _ _ inst auto dist pc junk s_opac a b NRho c d NT e f NYe n1 n2 NNu).map'
      .neutrinosS
  | neutrinosFile pc ioFail f => (Neutrinos.MeanOpacityBase.ofFile pc ioFail f).map' .neutrinos
  | neutrinosSFile dist pc ioFail f => (Neutrinos.MeanSOpacityBase.ofFile dist pc ioFail f).map' .neutrinosS
  | spinerFill dist pc junk opac a b NRho c d NT e f NYe g i Ne =>
    (SpinerOpacity.fill dist pc junk opac a b NRho c d NT e f NYe g i Ne).map' .spiner
  | spinerSP5 dist pc ioFail f => (SpinerOpacity.LoadFromSP5_ dist pc ioFail f).map' .spiner
  | spinerNuLib kappa dist pc junk f => (SpinerOpacity.LoadFromNuLibWith kappa dist pc junk f).map' .spiner

end Ctor

/-- `Save` as the rest of the model has it -/
def Val.Save [Arith R] (junk : ℕ → R) (fails : ℕ → Bool) (f : Option (H5File R)) : Val R → Outcome (Option (H5File R))
  | .photons o => o.t.Save Photons.MGTables.opacNames junk fails f
  | .photonsS o => o.t.Save Photons.MGTables.sopacNames junk fails f
  | .neutrinos o => (o.t.Save Neutrinos.MeanTables.opacNames fails f).1.map' fun _ =>
      (o.t.Save Neutrinos.MeanTables.opacNames fails f).2
  | .neutrinosS o => (o.t.Save Neutrinos.MeanTables.sopacNames fails f).1.map' fun _ =>
      (o.t.Save Neutrinos.MeanTables.sopacNames fails f).2
  | .spiner o => (o.Save fails f).1.map' fun _ => (o.Save fails f).2
  | .wrapped _ _ _ _ v => v.Save junk fails f

/-- what a program holds: its objects by name, and memory -/
structure Sys (R : Type) where
  objs : ℕ → Option (Obj R)
  mem : Mem R

/-- a program before its first call -/
def Sys.init : Sys R := { objs := fun _ => none, mem := Mem.fresh }

/-- what the caller gets from a call -/
inductive Obs (R : Type) where
  | nothing
  | number (x : R)
  | file (f : Option (H5File R))

/-- one call of a program -/
inductive Call (R : Type) : Type 1 where
  /-- `k` is constructed -/
  | make (k : ℕ) (c : Ctor R)
  /-- `k' = k.GetOnDevice()` -/
  | getOnDevice (k k' : ℕ)
  /-- `k' = NonCGSUnits(std::move(k), ...)`, or a variant made from `std::move(k)` and then wrapped.  (Moving a box copies
  its pointer; `k` keeps it.) -/
  | wrap (k k' : ℕ) (time_unit mass_unit length_unit temp_unit : R)
  /-- `k' = k`: a copy of the object, `Spiner` copies the pointers -/
  | copy (k k' : ℕ)
  /-- any method that computes a number from the object -/
  | lookup (k : ℕ) (method : Val R → Outcome R)
  /-- `k.Save(name)` on a file with contents `f` -/
  | save (k : ℕ) (junk : ℕ → R) (fails : ℕ → Bool) (f : Option (H5File R))
  /-- `k.Finalize()` -/
  | finalize (k : ℕ)

/-- run a computation on object `k` -/
def Sys.on [Arith R] {α : Type} (s : Sys R) (k : ℕ) (p : Obj R → MemM R α) (next : α → Mem R → Outcome (Obs R) × Sys R) :
    Outcome (Obs R) × Sys R :=
  match s.objs k with
  | none => (.ub "no such object", s)
  | some o =>
    match p o s.mem with
    | (.ok a, m) => next a m
    | (.abort e, m) => (.abort e, { s with mem := m })
    | (.ub w, m) => (.ub w, { s with mem := m })

/-- what a call does -/
def Call.exec [Arith R] (s : Sys R) : Call R → Outcome (Obs R) × Sys R
  | make k c =>
    match c.run s.mem with
    | (.ok o, m) => (.ok .nothing, { objs := Function.update s.objs k (some o), mem := m })
    | (.abort e, m) => (.abort e, { s with mem := m })
    | (.ub w, m) => (.ub w, { s with mem := m })
  | getOnDevice k k' => s.on k Obj.GetOnDevice fun o m =>
      (.ok .nothing, { objs := Function.update s.objs k' (some o), mem := m })
  | wrap k k' t ms l te => s.on k (fun o => pure (Obj.wrapped t ms l te o)) fun o m =>
      (.ok .nothing, { objs := Function.update s.objs k' (some o), mem := m })
  | copy k k' => s.on k (fun o => pure o) fun o m =>
      (.ok .nothing, { objs := Function.update s.objs k' (some o), mem := m })
  | lookup k q => s.on k (fun o => do let v ← o.view; lift (q v)) fun x m => (.ok (.number x), { s with mem := m })
  | save k junk fails f => s.on k (Obj.Save junk fails f) fun x m => (.ok (.file x), { s with mem := m })
  | finalize k => s.on k Obj.Finalize fun o m =>
      (.ok .nothing, { objs := Function.update s.objs k (some o), mem := m })

/-- a program: what each call returned and the state at the end.  An error is caught and the program goes on; it stops
at undefined behaviour. -/
def runAll [Arith R] : List (Call R) → Sys R → List (Outcome (Obs R)) × Sys R
  | [], s => ([], s)
  | c :: cs, s =>
    match c.exec s with
    | (.ub w, s') => ([.ub w], s')
    | (x, s') => let r := runAll cs s'; (x :: r.1, r.2)

end Opac.Memory
