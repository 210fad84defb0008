import Verif.Props.MeanFiles
import Verif.Props.MeanLookup
import Verif.Model.MeanPhoton

/-!
# C01, C04, C05, C11, C12, C13 for the mean opacity objects of the API

`Props/Groups.lean`, `Props/MeanLookup.lean` and `Props/MeanFiles.lean` prove these properties of the tables
(`MGTables`) inside a mean opacity.  Here they are stated for the objects, through the methods of the class alone:
absorption (`MeanOpacityBase`) and scattering (`MeanSOpacityBase`), from any of their three constructors.
-/

namespace Opac.Photons
open Arith Outcome Spec Spiner Hdf

set_option linter.unusedSectionVars false

variable {R : Type} [Arith R]

/-- a photon mean opacity object of either class -/
inductive MeanObject (R : Type) where
  | absorption (o : MeanOpacityBase R)
  | scattering (o : MeanSOpacityBase R)

namespace MeanObject
/-- `ngroups()` -/
def ngroups : MeanObject R → ℕ
  | absorption o => MeanPhotonAPI.ngroups R o
  | scattering o => MeanPhotonSAPI.ngroups R o
/-- `GroupOfNu(nu)` -/
def GroupOfNu : MeanObject R → R → Outcome ℕ
  | absorption o => MeanPhotonAPI.GroupOfNu o
  | scattering o => MeanPhotonSAPI.GroupOfNu o
/-- `{Absorption,Scattering}Coefficient(rho, temp, group, gmode)` -/
def Coefficient : MeanObject R → R → R → ℤ → ℤ → Outcome R
  | absorption o => MeanPhotonAPI.AbsorptionCoefficient o
  | scattering o => MeanPhotonSAPI.ScatteringCoefficient o
/-- `PlanckGroup{Absorption,Scattering}Coefficient(rho, temp, group)` -/
def Planck : MeanObject R → R → R → ℤ → Outcome R
  | absorption o => MeanPhotonAPI.PlanckGroupAbsorptionCoefficient o
  | scattering o => MeanPhotonSAPI.PlanckGroupScatteringCoefficient o
/-- `RosselandGroup{Absorption,Scattering}Coefficient(rho, temp, group)` -/
def Rosseland : MeanObject R → R → R → ℤ → Outcome R
  | absorption o => MeanPhotonAPI.RosselandGroupAbsorptionCoefficient o
  | scattering o => MeanPhotonSAPI.RosselandGroupScatteringCoefficient o
/-- `{Absorption,Scattering}CoefficientFromNu(rho, temp, nu, gmode)` -/
def CoefficientFromNu : MeanObject R → R → R → R → ℤ → Outcome R
  | absorption o => MeanPhotonAPI.AbsorptionCoefficientFromNu o
  | scattering o => MeanPhotonSAPI.ScatteringCoefficientFromNu o
/-- `PlanckGroup{Absorption,Scattering}CoefficientFromNu(rho, temp, nu)` -/
def PlanckFromNu : MeanObject R → R → R → R → Outcome R
  | absorption o => MeanPhotonAPI.PlanckGroupAbsorptionCoefficientFromNu o
  | scattering o => MeanPhotonSAPI.PlanckGroupScatteringCoefficientFromNu o
/-- `RosselandGroup{Absorption,Scattering}CoefficientFromNu(rho, temp, nu)` -/
def RosselandFromNu : MeanObject R → R → R → R → Outcome R
  | absorption o => MeanPhotonAPI.RosselandGroupAbsorptionCoefficientFromNu o
  | scattering o => MeanPhotonSAPI.RosselandGroupScatteringCoefficientFromNu o
/-- `GetOnDevice()` -/
def GetOnDevice : MeanObject R → MeanObject R
  | absorption o => absorption (MeanPhotonAPI.GetOnDevice R o)
  | scattering o => scattering (MeanPhotonSAPI.GetOnDevice R o)
/-- the HDF5 calls of `Save(filename)` in order: what a crash interrupts -/
def SaveOps (o : MeanObject R) (junk : ℕ → R) : Outcome (List (Op R)) :=
  match o with
  | absorption o => o.t.SaveOps MGTables.opacNames junk
  | scattering o => o.t.SaveOps MGTables.sopacNames junk
/-- `Save(filename)` -/
def Save : MeanObject R → (ℕ → R) → (ℕ → Bool) → Option (H5File R) → Outcome (Option (H5File R))
  | absorption o => MeanPhotonAPI.Save o
  | scattering o => o.Save
/-- the constructor from a file of the class of the given object -/
def Load (pc : PC R) (junk : ℕ → R) (ioFail : Bool) (f : Option (H5File R)) : MeanObject R → Outcome (MeanObject R)
  | absorption _ => (MeanOpacityBase.ofFile pc junk ioFail f).map' absorption
  | scattering _ => (MeanSOpacityBase.ofFile pc junk ioFail f).map' scattering

/-- the table inside, for the proofs -/
def table : MeanObject R → MGTables R
  | absorption o => o.t
  | scattering o => o.t
/-- the dataset names of the class, for the proofs -/
def names : MeanObject R → MGTables.Names
  | absorption _ => MGTables.opacNames
  | scattering _ => MGTables.sopacNames

theorem names_ok (o : MeanObject R) : FileNames o.names := by
  cases o
  · exact .inl rfl
  · exact .inr rfl
theorem Save_eq (o : MeanObject R) : o.Save = o.table.Save o.names := by cases o <;> rfl
theorem Load_ok {o o' : MeanObject R} {pc : PC R} {junk : ℕ → R} {io : Bool} {f : Option (H5File R)} :
    o.Load pc junk io f = ok o' → MGTables.LoadFile o.names junk io f = ok o'.table ∧ o'.names = o.names := by
  intro h
  cases o <;>
    simp only [Load, MeanOpacityBase.ofFile, MeanSOpacityBase.ofFile, map'_eq_ok] at h <;>
    obtain ⟨x, ⟨t, h1, rfl⟩, rfl⟩ := h <;> exact ⟨h1, rfl⟩
theorem Load_of {o : MeanObject R} {pc : PC R} {junk : ℕ → R} {io : Bool} {f : Option (H5File R)} {t : MGTables R}
    (h : MGTables.LoadFile o.names junk io f = ok t) : ∃ o', o.Load pc junk io f = ok o' ∧ o'.table = t := by
  cases o <;> simp only [names] at h <;>
    simp only [Load, MeanOpacityBase.ofFile, MeanSOpacityBase.ofFile, h, map'_ok]
  · exact ⟨_, rfl, rfl⟩
  · exact ⟨_, rfl, rfl⟩
theorem Load_aborts {o : MeanObject R} {pc : PC R} {junk : ℕ → R} {io : Bool} {f : Option (H5File R)}
    (h : (MGTables.LoadFile o.names junk io f).Aborts) : (o.Load pc junk io f).Aborts := by
  obtain ⟨m, h⟩ := h
  cases o <;> simp only [names] at h <;>
    exact ⟨m, by simp only [Load, MeanOpacityBase.ofFile, MeanSOpacityBase.ofFile, h]; rfl⟩
end MeanObject
open MeanObject

/-- `o` was returned by a constructor of its class, called with group bounds `b` (read from the third dataset of the
file by the constructor from a file) -/
inductive ConstructedMean : MeanObject R → List R → Prop
  | opacity {O : Type} [PhotonAPI R O] (opac : O) {pc : PC R} {junk : ℕ → R} {l1 l2 l3 l4 : R} {N1 N2 n N : ℤ}
      {b : List R} {o : MeanOpacityBase R} :
      MeanOpacityBase.construct pc junk opac l1 l2 N1 l3 l4 N2 b n N = ok o → ConstructedMean (absorption o) b
  | scatterer {O : Type} [PhotonSAPI R O] (opac : O) {pc : PC R} {junk : ℕ → R} {l1 l2 l3 l4 : R} {N1 N2 n N : ℤ}
      {b : List R} {o : MeanSOpacityBase R} :
      MeanSOpacityBase.construct pc junk opac l1 l2 N1 l3 l4 N2 b n N = ok o → ConstructedMean (scattering o) b
  | tables {pc : PC R} {junk : ℕ → R} {kP kR : DataBox R} {b : List R} {o : MeanOpacityBase R} :
      MeanOpacityBase.ofTables pc junk kP kR b = ok o → ConstructedMean (absorption o) b
  | scatteringTables {pc : PC R} {junk : ℕ → R} {kP kR : DataBox R} {b : List R} {o : MeanSOpacityBase R} :
      MeanSOpacityBase.ofTables pc junk kP kR b = ok o → ConstructedMean (scattering o) b
  | file {pc : PC R} {junk : ℕ → R} {io : Bool} {f : H5File R} {d : DataBox R} {o : MeanOpacityBase R} :
      MeanOpacityBase.ofFile pc junk io (some f) = ok o → f.get MGTables.opacNames.bounds = some d →
      ConstructedMean (absorption o) d.toList
  | scatteringFile {pc : PC R} {junk : ℕ → R} {io : Bool} {f : H5File R} {d : DataBox R} {o : MeanSOpacityBase R} :
      MeanSOpacityBase.ofFile pc junk io (some f) = ok o → f.get MGTables.sopacNames.bounds = some d →
      ConstructedMean (scattering o) d.toList

theorem LoadFile_built {nm : MGTables.Names} {junk : ℕ → R} {io : Bool} {f : H5File R} {d : DataBox R}
    {t : MGTables R} (h : MGTables.LoadFile nm junk io (some f) = ok t) (hd : f.get nm.bounds = some d) :
    BuiltFrom t d.toList := by
  unfold MGTables.LoadFile at h
  simp only at h
  split at h
  · next kP kR gb _ _ h3 =>
    rw [hd] at h3
    cases h3
    split at h
    · simp at h
    · exact .inr ⟨_, _, _, h⟩
  · simp at h

theorem ConstructedMean.built {o : MeanObject R} {b : List R} (h : ConstructedMean o b) : BuiltFrom o.table b := by
  cases h with
  | opacity opac h =>
    simp only [MeanOpacityBase.construct, map'_eq_ok] at h
    obtain ⟨t, h, rfl⟩ := h
    exact .inl ⟨_, _, _, _, _, _, _, _, _, _, _, h⟩
  | scatterer opac h =>
    simp only [MeanSOpacityBase.construct, map'_eq_ok] at h
    obtain ⟨t, h, rfl⟩ := h
    exact .inl ⟨_, _, _, _, _, _, _, _, _, _, _, h⟩
  | tables h =>
    simp only [MeanOpacityBase.ofTables, map'_eq_ok] at h
    obtain ⟨t, h, rfl⟩ := h
    exact .inr ⟨_, _, _, h⟩
  | scatteringTables h =>
    simp only [MeanSOpacityBase.ofTables, map'_eq_ok] at h
    obtain ⟨t, h, rfl⟩ := h
    exact .inr ⟨_, _, _, h⟩
  | file h hd =>
    simp only [MeanOpacityBase.ofFile, map'_eq_ok] at h
    obtain ⟨t, h, rfl⟩ := h
    exact LoadFile_built h hd
  | scatteringFile h hd =>
    simp only [MeanSOpacityBase.ofFile, map'_eq_ok] at h
    obtain ⟨t, h, rfl⟩ := h
    exact LoadFile_built h hd

variable [LawfulCmp R]

/-- the ranges of both tables agree and hold no NaN; see `SameRanges` -/
def PlainRanges (o : MeanObject R) : Prop := SameRanges o.table

/-- **C01** for the objects of the API: `GroupOfNu` returns exactly the group of `nu` among the bounds the constructor
was given, and aborts if there is none -/
theorem C01_objects {o : MeanObject R} {b : List R} (h : ConstructedMean o b) (hsize : o.ngroups ≤ 2 ^ 30) (nu : R) :
    (∀ g, (o.GroupOfNu nu).Returns g ↔ InGroup b o.ngroups g nu) ∧
    ((¬ ∃ g, InGroup b o.ngroups g nu) → (o.GroupOfNu nu).Aborts) := by
  have hn : o.ngroups = o.table.ngroups := by cases o <;> rfl
  have hg : o.GroupOfNu nu = o.table.GroupOfNu nu := by cases o <;> rfl
  rw [hn] at hsize ⊢
  rw [hg]
  obtain ⟨h1, -, -, h4⟩ := C01_group_lookup o.table b h.built hsize nu
  exact ⟨h1, h4⟩

/-- **C05** for the objects: each query by frequency is the query by group for the group of that frequency, in both
averages and through either spelling; without a group it aborts -/
theorem C05_objects {o : MeanObject R} {b : List R} (h : ConstructedMean o b) (hsize : o.ngroups ≤ 2 ^ 30)
    (rho T nu : R) :
    (∀ g, InGroup b o.ngroups g nu →
      o.PlanckFromNu rho T nu = o.Planck rho T g ∧ o.RosselandFromNu rho T nu = o.Rosseland rho T g ∧
      ∀ gmode, o.CoefficientFromNu rho T nu gmode = o.Coefficient rho T g gmode) ∧
    ((¬ ∃ g, InGroup b o.ngroups g nu) →
      (o.PlanckFromNu rho T nu).Aborts ∧ (o.RosselandFromNu rho T nu).Aborts ∧
      ∀ gmode, (o.CoefficientFromNu rho T nu gmode).Aborts) := by
  obtain ⟨h1, h2⟩ := C01_objects h hsize nu
  have hg : o.GroupOfNu nu = o.table.GroupOfNu nu := by cases o <;> rfl
  rw [hg] at h1 h2
  have e1 : o.PlanckFromNu rho T nu = o.table.PlanckGroupCoefficientFromNu rho T nu := by cases o <;> rfl
  have e2 : o.RosselandFromNu rho T nu = o.table.RosselandGroupCoefficientFromNu rho T nu := by cases o <;> rfl
  have e3 : ∀ gm, o.CoefficientFromNu rho T nu gm = o.table.CoefficientFromNu rho T nu gm := by
    intro gm; cases o <;> rfl
  have e4 : ∀ g, o.Planck rho T g = o.table.PlanckGroupCoefficient rho T g := by intro g; cases o <;> rfl
  have e5 : ∀ g, o.Rosseland rho T g = o.table.RosselandGroupCoefficient rho T g := by intro g; cases o <;> rfl
  have e6 : ∀ g gm, o.Coefficient rho T g gm = o.table.Coefficient rho T g gm := by intro g gm; cases o <;> rfl
  constructor
  · intro g hgr
    have hret : o.table.GroupOfNu nu = ok g := (h1 g).2 hgr
    simp only [e1, e2, e3, e4, e5, e6, MGTables.PlanckGroupCoefficientFromNu,
      MGTables.RosselandGroupCoefficientFromNu, MGTables.CoefficientFromNu, hret, ok_bind]
    exact ⟨rfl, rfl, fun _ => trivial⟩
  · intro hno
    obtain ⟨m, hm⟩ := h2 hno
    simp only [e1, e2, e3, MGTables.PlanckGroupCoefficientFromNu, MGTables.RosselandGroupCoefficientFromNu,
      MGTables.CoefficientFromNu, hm]
    exact ⟨⟨m, rfl⟩, ⟨m, rfl⟩, fun _ => ⟨m, rfl⟩⟩

/-- **C34** for the objects: a copy of a copy (… `k` times) answers every query like the original -/
theorem C34_objects (o : MeanObject R) (k : ℕ) :
    let c := MeanObject.GetOnDevice^[k] o
    c.ngroups = o.ngroups ∧ (∀ nu, c.GroupOfNu nu = o.GroupOfNu nu) ∧
    (∀ rho T g gmode, c.Coefficient rho T g gmode = o.Coefficient rho T g gmode) ∧
    (∀ rho T g, c.Planck rho T g = o.Planck rho T g) ∧ (∀ rho T g, c.Rosseland rho T g = o.Rosseland rho T g) ∧
    (∀ rho T nu gmode, c.CoefficientFromNu rho T nu gmode = o.CoefficientFromNu rho T nu gmode) ∧
    (∀ rho T nu, c.PlanckFromNu rho T nu = o.PlanckFromNu rho T nu) ∧
    (∀ rho T nu, c.RosselandFromNu rho T nu = o.RosselandFromNu rho T nu) := by
  have h : MeanObject.GetOnDevice o = o := by cases o <;> rfl
  intro c
  have hc : c = o := Function.iterate_fixed h k
  rw [hc]
  simp

/-- `o'` was loaded from a file to which `o` was saved, whatever the file held before -/
def Reloaded (o o' : MeanObject R) : Prop :=
  ∃ pc junk junk' f f', o.Save junk (fun _ => false) f = ok f' ∧ o.Load pc junk' false f' = ok o'

/-- `n` cycles of saving and loading lead from `o` to `o'` -/
inductive ReloadedTimes (o : MeanObject R) : ℕ → MeanObject R → Prop
  | zero : ReloadedTimes o 0 o
  | succ {n : ℕ} {o₁ o₂ : MeanObject R} : ReloadedTimes o n o₁ → Reloaded o₁ o₂ → ReloadedTimes o (n + 1) o₂

theorem Reloaded.tables {o o' : MeanObject R} (h : Reloaded o o') :
    SavedThenLoaded o.names o.table o'.table ∧ o'.names = o.names := by
  obtain ⟨pc, junk, junk', f, f', h1, h2⟩ := h
  rw [Save_eq] at h1
  have := Load_ok h2
  exact ⟨⟨junk, junk', f, f', h1, this.1⟩, this.2⟩

theorem ReloadedTimes.tables {o o' : MeanObject R} {n : ℕ} (h : ReloadedTimes o n o') :
    Cycles o.names o.table n o'.table ∧ o'.names = o.names := by
  induction h with
  | zero => exact ⟨.zero, rfl⟩
  | succ _ h ih =>
    obtain ⟨h1, h2⟩ := h.tables
    rw [ih.2] at h1 h2
    exact ⟨.succ ih.1 h1, h2⟩

/-- **C12** for the objects: any number of cycles can be run, and none changes the number of groups or the group of
any frequency -/
theorem C12_objects {o : MeanObject R} {b : List R} (h : ConstructedMean o b) (hr : PlainRanges o) :
    (∀ n, ∃ o', ReloadedTimes o n o') ∧
    ∀ n o', ReloadedTimes o n o' → o'.ngroups = o.ngroups ∧ ∀ nu, o'.GroupOfNu nu = o.GroupOfNu nu := by
  have hn : ∀ o : MeanObject R, o.ngroups = o.table.ngroups := by intro o; cases o <;> rfl
  have hg : ∀ (o : MeanObject R) nu, o.GroupOfNu nu = o.table.GroupOfNu nu := by intro o nu; cases o <;> rfl
  constructor
  · intro n
    suffices H : ∃ o', ReloadedTimes o n o' ∧ WF o'.table ∧ SameRanges o'.table from ⟨H.choose, H.choose_spec.1⟩
    induction n with
    | zero => exact ⟨o, .zero, h.built.wf, hr⟩
    | succ n ih =>
      obtain ⟨o₁, h1, h2, h3⟩ := ih
      have hs := Save_ok (nm := o₁.names) h2 (fun _ => lit 0) none
      have hl := Load_saved (names_ok o₁) h2 h3 (fun _ => lit 0) (fun _ => lit 0)
      obtain ⟨o', ho', het⟩ := Load_of (pc := PhysicalConstantsSI) hl
      have hre : Reloaded o₁ o' := ⟨_, _, _, _, _, by rw [Save_eq]; exact hs, ho'⟩
      have := cycle_step (names_ok o₁) h2 h3 hre.tables.1
      exact ⟨o', .succ h1 hre, this.1, this.2.1⟩
  · intro n o' hc
    obtain ⟨e1, e2, -⟩ := C12_cycles_any (names_ok o) h.built hr hc.tables.1
    refine ⟨by rw [hn, hn, e1], fun nu => ?_⟩
    rw [hg, hg]
    simp only [MGTables.GroupOfNu, e1, e2]

/-- **C12** for the objects, over the reals: after `n` cycles the opacity that a query at a node of the table returns
has grown by exactly `n` times the floor `SMALL = 10·2^-1022`, in both averages and every group -/
theorem C12_objects_values {o o' : MeanObject ℝ} {b : List ℝ} (h : ConstructedMean o b) (hr : PlainRanges o)
    (ht : OnGrids o.table) {n : ℕ} (hc : ReloadedTimes o n o') {g : ℕ} (hg : g < o.ngroups) {i j : ℕ} {rho T : ℝ} :
    (∀ G1 G2, G1 = o.table.lPlanck.grid 1 → G2 = o.table.lPlanck.grid 2 → (i : ℤ) < G2.N → (j : ℤ) < G1.N →
      coordinate rho = node G2 i → coordinate T = node G1 j →
      ∃ k, o.Planck rho T g = ok (rho * k) ∧ o'.Planck rho T g = ok (rho * (k + n * Robust.SMALL))) ∧
    (∀ G1 G2, G1 = o.table.lRosseland.grid 1 → G2 = o.table.lRosseland.grid 2 → (i : ℤ) < G2.N → (j : ℤ) < G1.N →
      coordinate rho = node G2 i → coordinate T = node G1 j →
      ∃ k, o.Rosseland rho T g = ok (rho * k) ∧ o'.Rosseland rho T g = ok (rho * (k + n * Robust.SMALL))) := by
  have hn : o.ngroups = o.table.ngroups := by cases o <;> rfl
  have e4 : ∀ (o : MeanObject ℝ) rho T g, o.Planck rho T g = o.table.PlanckGroupCoefficient rho T g := by
    intro o _ _ _; cases o <;> rfl
  have e5 : ∀ (o : MeanObject ℝ) rho T g, o.Rosseland rho T g = o.table.RosselandGroupCoefficient rho T g := by
    intro o _ _ _; cases o <;> rfl
  rw [hn] at hg
  have hcy := hc.tables.1
  obtain ⟨q1, -, ⟨-, q4⟩, ⟨-, q6⟩, -, -⟩ := C12_cycles_any (names_ok o) h.built hr hcy
  have ht' := C11_reloaded (names_ok o) h.built hr hcy ht
  constructor
  · rintro _ _ rfl rfl hi hj h1 h2
    obtain ⟨k, hk, hq⟩ := C11_nodes ht (.inl ⟨rfl, .inl rfl⟩) hg hi hj h1 h2
    obtain ⟨k', hk', hq'⟩ := C11_nodes ht' (.inl ⟨rfl, .inl rfl⟩) (by rw [q1]; exact hg) (by rw [q4]; exact hi)
      (by rw [q4]; exact hj) (by rw [q4]; exact h1) (by rw [q4]; exact h2)
    have := (C12_cycles (names_ok o) h.built hr hcy _ _).1 hk
    have hkk : k' = k + n * Robust.SMALL := by
      unfold Tabulated at this hk'
      rw [this] at hk'
      exact (Outcome.ok.inj hk').symm
    refine ⟨k, by rw [e4]; exact hq, by rw [e4, ← hkk]; exact hq'⟩
  · rintro _ _ rfl rfl hi hj h1 h2
    obtain ⟨k, hk, hq⟩ := C11_nodes ht (.inr ⟨rfl, .inl rfl⟩) hg hi hj h1 h2
    obtain ⟨k', hk', hq'⟩ := C11_nodes ht' (.inr ⟨rfl, .inl rfl⟩) (by rw [q1]; exact hg) (by rw [q6]; exact hi)
      (by rw [q6]; exact hj) (by rw [q6]; exact h1) (by rw [q6]; exact h2)
    have := (C12_cycles (names_ok o) h.built hr hcy _ _).2 hk
    have hkk : k' = k + n * Robust.SMALL := by
      unfold Tabulated at this hk'
      rw [this] at hk'
      exact (Outcome.ok.inj hk').symm
    refine ⟨k, by rw [e5]; exact hq, by rw [e5, ← hkk]; exact hq'⟩

/-- **C13** for the objects: the process dies at any point of saving `o` over a file written by `o₀`.  Then loading
aborts, or returns what loading after a complete save of `o₀`, or of `o`, returns. -/
theorem C13_objects {o o₀ : MeanObject R} {b b₀ : List R} (hclass : o₀.names = o.names) (h : ConstructedMean o b)
    (h₀ : ConstructedMean o₀ b₀) (hr : PlainRanges o) (hr₀ : PlainRanges o₀) {junk junk₀ : ℕ → R} {ops : List (Op R)}
    (hops : o.SaveOps junk = ok ops) {first before after : Option (H5File R)}
    (hs : o₀.Save junk₀ (fun _ => false) first = ok before) (hc : CrashState ops before after) (ioFail : Bool)
    (pc : PC R) (junk' : ℕ → R) :
    (o.Load pc junk' ioFail after).Aborts ∨
    ∃ o', o.Load pc junk' ioFail after = ok o' ∧
      ∃ o'', (Reloaded o₀ o'' ∨ Reloaded o o'') ∧ o''.ngroups = o'.ngroups ∧
        (∀ nu, o''.GroupOfNu nu = o'.GroupOfNu nu) ∧
        (∀ rho T g gmode, o''.Coefficient rho T g gmode = o'.Coefficient rho T g gmode) ∧
        (∀ rho T g, o''.Planck rho T g = o'.Planck rho T g) ∧
        (∀ rho T g, o''.Rosseland rho T g = o'.Rosseland rho T g) := by
  have hn : ∀ o : MeanObject R, o.ngroups = o.table.ngroups := by intro o; cases o <;> rfl
  have hg : ∀ (o : MeanObject R) nu, o.GroupOfNu nu = o.table.GroupOfNu nu := by intro o nu; cases o <;> rfl
  have e4 : ∀ (o : MeanObject R) rho T g, o.Planck rho T g = o.table.PlanckGroupCoefficient rho T g := by
    intro o _ _ _; cases o <;> rfl
  have e5 : ∀ (o : MeanObject R) rho T g, o.Rosseland rho T g = o.table.RosselandGroupCoefficient rho T g := by
    intro o _ _ _; cases o <;> rfl
  have e6 : ∀ (o : MeanObject R) rho T g gm, o.Coefficient rho T g gm = o.table.Coefficient rho T g gm := by
    intro o _ _ _ _; cases o <;> rfl
  have hops' : o.table.SaveOps o.names junk = ok ops := by rw [← hops]; cases o <;> rfl
  rw [Save_eq, hclass] at hs
  rcases C13_no_mixing (names_ok o) h.built h₀.built hr hr₀ junk junk₀ hops' hs hc ioFail junk' with ha | ⟨t', ht', hor⟩
  · exact .inl (Load_aborts ha)
  · right
    obtain ⟨o', ho', rfl⟩ := Load_of (pc := pc) ht'
    refine ⟨o', ho', ?_⟩
    have key : ∀ o₁ : MeanObject R, o₁.names = o.names → SavedThenLoaded o.names o₁.table o'.table →
        ∃ o'', Reloaded o₁ o'' ∧ o''.table = o'.table := by
      rintro o₁ hnm ⟨j, j', f, f', h1, h2⟩
      rw [← hnm] at h1 h2
      obtain ⟨o'', h3, h4⟩ := Load_of (pc := pc) h2
      exact ⟨o'', ⟨pc, j, j', f, f', by rw [Save_eq]; exact h1, h3⟩, h4⟩
    have : ∃ o'', (Reloaded o₀ o'' ∨ Reloaded o o'') ∧ o''.table = o'.table := by
      rcases hor with hor | hor
      · obtain ⟨o'', h1, h2⟩ := key o₀ hclass hor
        exact ⟨o'', .inl h1, h2⟩
      · obtain ⟨o'', h1, h2⟩ := key o rfl hor
        exact ⟨o'', .inr h1, h2⟩
    obtain ⟨o'', h1, h2⟩ := this
    refine ⟨o'', h1, ?_, ?_, ?_, ?_, ?_⟩ <;> intros <;> simp only [hn, hg, e4, e5, e6, h2]

/-- the objects of both classes that the examples of `Props/Groups.lean` build -/
example (pc : PC XR) : ∃ o s, ConstructedMean (absorption o) exBounds ∧ ConstructedMean (scattering s) exBounds ∧
    PlainRanges (absorption o) ∧ PlainRanges (scattering s) := by
  have hs : SameRanges exTables := by
    have m := mapData_dims ToLog exBox.size exBox (fun _ => XR.fin 0)
    unfold SameRanges
    simp only [exTables, DataBox.range, m.2]
    simp [exBox, SameAxis, eqb, XR.eqb]
  refine ⟨⟨pc, exTables⟩, ⟨pc, exTables⟩, .tables (pc := pc) (junk := fun _ => .fin 0) (kP := exBox) (kR := exBox) ?_,
    .scatteringTables (pc := pc) (junk := fun _ => .fin 0) (kP := exBox) (kR := exBox) ?_, hs, hs⟩
  · simp only [MeanOpacityBase.ofTables, exTables_load, map'_ok]
  · simp only [MeanSOpacityBase.ofTables, exTables_load, map'_ok]

/-- three cycles -/
example (o : MeanOpacityBase XR) (h : ConstructedMean (absorption o) exBounds)
    (hr : PlainRanges (absorption o)) : ∃ o', ReloadedTimes (absorption o) 3 o' ∧ o'.ngroups = o.t.ngroups := by
  obtain ⟨h1, h2⟩ := C12_objects h hr
  obtain ⟨o', ho'⟩ := h1 3
  exact ⟨o', ho', (h2 3 o' ho').1⟩

end Opac.Photons
