import Verif.Lemmas.MeanFill
import Verif.Lemmas.RealArith
import Verif.Props.Groups
import Mathlib.Analysis.SpecialFunctions.Log.Base
import Mathlib.Tactic.IntervalCases

/-!
# C12, C13: photon mean opacities in files

`CrashState` (in `Model/Hdf.lean`) says what may be on disk after a crash.
-/

namespace Opac.Photons
open Arith Outcome Spec Spiner Hdf

set_option linter.unusedSectionVars false

variable {R : Type} [Arith R]

/-- the dataset names of absorption and of scattering tables -/
def FileNames (nm : MGTables.Names) : Prop := nm = MGTables.opacNames ∨ nm = MGTables.sopacNames

/-- `t'` was loaded from a file to which `t` was saved, whatever the file held before -/
def SavedThenLoaded (nm : MGTables.Names) (t t' : MGTables R) : Prop :=
  ∃ junk junk' f f', t.Save nm junk (fun _ => false) f = ok f' ∧ MGTables.LoadFile nm junk' false f' = ok t'

/-- `n` save/load cycles lead from `t` to `t'` -/
inductive Cycles (nm : MGTables.Names) (t : MGTables R) : ℕ → MGTables R → Prop
  | zero : Cycles nm t 0 t
  | succ {n : ℕ} {t₁ t₂ : MGTables R} : Cycles nm t n t₁ → SavedThenLoaded nm t₁ t₂ → Cycles nm t (n + 1) t₂

/-- the opacity tabulated at an index tuple (density, temperature, group), for the Planck and Rosseland means -/
def Tabulated (lk : DataBox R) (is : List ℤ) (v : R) : Prop := (lk.read is).map' FromLog = ok v

/-- the two tables of `t` have the same ranges (none of them NaN) -/
def SameRanges (t : MGTables R) : Prop :=
  SameAxis (t.lPlanck.range 1) (t.lRosseland.range 1) ∧ SameAxis (t.lPlanck.range 2) (t.lRosseland.range 2)

/-- what every constructor guarantees -/
structure WF (t : MGTables R) : Prop where
  shape : ∃ a b : ℤ, t.lPlanck.dims = [a, b, (t.ngroups : ℤ)] ∧ t.lRosseland.dims = [a, b, (t.ngroups : ℤ)]
  bounds : AcceptableBounds t.groupBounds (t.ngroups : ℤ)
  length : t.groupBounds.length = t.ngroups + 1

theorem ValidateTables_ok {kP kR : DataBox R} (h : MGTables.ValidateTables_ kP kR = ok ()) :
    (∃ a b c : ℤ, 0 < c ∧ kP.dims = [a, b, c] ∧ kR.dims = [a, b, c]) ∧
    SameAxis (kP.range 1) (kR.range 1) ∧ SameAxis (kP.range 2) (kR.range 2) := by
  have hm := (ValidateTables_iff kP kR).1 h
  exact ⟨hm.shape, hm.temperature, hm.density⟩

theorem ValidateTables_of {kP kR : DataBox R} {a b c : ℤ} (hc : 0 < c) (h1 : kP.dims = [a, b, c])
    (h2 : kR.dims = [a, b, c]) (r1 : SameAxis (kP.range 1) (kR.range 1))
    (r2 : SameAxis (kP.range 2) (kR.range 2)) : MGTables.ValidateTables_ kP kR = ok () :=
  (ValidateTables_iff kP kR).2 ⟨⟨a, b, c, hc, h1, h2⟩, r1, r2⟩

theorem mapData_read' {f : R → R} {n : ℤ} {d : DataBox R} {init : ℕ → R} {is : List ℤ} (hn : n = d.size) :
    (d.mapData f n init).read is = (d.read is).map' f := by subst hn; exact mapData_read ..

variable [LawfulCmp R]

theorem BuiltFrom.wf {t : MGTables R} {b : List R} (h : BuiltFrom t b) : WF t := by
  obtain ⟨ha, hgb⟩ := h.spec
  have hl := ha.enough
  refine ⟨?_, hgb ▸ acceptable_take ha, by rw [hgb]; simp; omega⟩
  rcases h with ⟨pc, junk, coef, l1, l2, NRho, l3, l4, NT, n, NNu, h⟩ | ⟨junk, kP, kR, h⟩
  · have hf := Impl_filled (lit 0) h
    have hn := (Impl_ok h).2.2.2
    exact ⟨NRho, NT, by rw [hf.dims1, hn], by rw [hf.dims2, hn]⟩
  · obtain ⟨h1, -, -, h3, h4, h5⟩ := LoadTables_ok h
    obtain ⟨⟨a, b, c, hc, e1, e2⟩, -⟩ := ValidateTables_ok h1
    have hd : kP.dim 1 = c := by simp [DataBox.dim, e1]
    have : (t.ngroups : ℤ) = c := by rw [h3, hd]; omega
    refine ⟨a, b, ?_, ?_⟩
    · rw [h4, (mapData_dims _ _ _ _).1, e1, this]
    · rw [h5, (mapData_dims _ _ _ _).1, e2, this]

/-- the contents of a file after a successful save -/
theorem Save_ok {nm : MGTables.Names} {t : MGTables R} (h : WF t) (junk : ℕ → R) (f : Option (H5File R)) :
    t.Save nm junk (fun _ => false) f =
      ok (some [(nm.bounds, DataBox.ofList t.groupBounds (lit 0)),
        (nm.rosseland, t.lRosseland.mapData FromLog t.lPlanck.size junk),
        (nm.planck, t.lPlanck.mapData FromLog t.lPlanck.size junk)]) := by
  have hg : ExportGroupBounds t.groupBounds t.ngroups = ok t.groupBounds := by
    have := copyBounds_ok t.groupBounds t.ngroups (by rw [h.length]; omega)
    rwa [List.take_of_length_le (by rw [h.length])] at this
  unfold MGTables.Save MGTables.SaveOps
  simp only [hg, ok_bind, pure_def, MGTables.ExportTables_]
  simp [runSave, Op.exec]

theorem toList_ofList (l : List R) (x : R) : (DataBox.ofList l x).toList = l := by
  apply List.ext_getElem?
  intro i
  simp only [DataBox.toList, DataBox.ofList, DataBox.size, List.prod_cons, List.prod_nil, mul_one, Int.toNat_natCast,
    List.getElem?_map]
  by_cases hi : i < l.length
  · simp [List.getElem?_range hi, List.getElem?_eq_getElem hi]
  · rw [List.getElem?_eq_none (by simpa using hi), List.getElem?_eq_none (by omega)]; rfl

theorem get_saved {nm : MGTables.Names} (hnm : FileNames nm) (a b c : DataBox R) :
    H5File.get [(nm.bounds, a), (nm.rosseland, b), (nm.planck, c)] nm.planck = some c ∧
    H5File.get [(nm.bounds, a), (nm.rosseland, b), (nm.planck, c)] nm.rosseland = some b ∧
    H5File.get [(nm.bounds, a), (nm.rosseland, b), (nm.planck, c)] nm.bounds = some a := by
  rcases hnm with rfl | rfl <;> (simp [H5File.get, MGTables.opacNames, MGTables.sopacNames, List.find?])

/-- what loading returns after saving `t` -/
theorem Load_saved {nm : MGTables.Names} (hnm : FileNames nm) {t : MGTables R} (h : WF t) (hr : SameRanges t)
    (junk junk' : ℕ → R) :
    MGTables.LoadFile nm junk' false (some [(nm.bounds, DataBox.ofList t.groupBounds (lit 0)),
        (nm.rosseland, t.lRosseland.mapData FromLog t.lPlanck.size junk),
        (nm.planck, t.lPlanck.mapData FromLog t.lPlanck.size junk)]) =
      ok { lPlanck := (t.lPlanck.mapData FromLog t.lPlanck.size junk).mapData ToLog t.lPlanck.size junk'
           lRosseland := (t.lRosseland.mapData FromLog t.lPlanck.size junk).mapData ToLog t.lPlanck.size junk'
           groupBounds := t.groupBounds
           ngroups := t.ngroups } := by
  obtain ⟨a, b, e1, e2⟩ := h.shape
  have hpos := h.bounds.some_group
  obtain ⟨g1, g2, g3⟩ := get_saved hnm (DataBox.ofList t.groupBounds (lit 0))
    (t.lRosseland.mapData FromLog t.lPlanck.size junk) (t.lPlanck.mapData FromLog t.lPlanck.size junk)
  have m1 := mapData_dims FromLog t.lPlanck.size t.lPlanck junk
  have m2 := mapData_dims FromLog t.lPlanck.size t.lRosseland junk
  unfold MGTables.LoadFile
  simp only [g1, g2, g3, toList_ofList, Bool.false_eq_true, if_false]
  have hv : MGTables.ValidateTables_ (t.lPlanck.mapData FromLog t.lPlanck.size junk)
      (t.lRosseland.mapData FromLog t.lPlanck.size junk) = ok () := by
    refine ValidateTables_of (a := a) (b := b) (c := (t.ngroups : ℤ)) (by omega) (m1.1.trans e1) (m2.1.trans e2) ?_ ?_
    · simp only [DataBox.range, m1.2, m2.2]; exact hr.1
    · simp only [DataBox.range, m1.2, m2.2]; exact hr.2
  have hd : (t.lPlanck.mapData FromLog t.lPlanck.size junk).dim 1 = t.ngroups := by
    simp [DataBox.dim, m1.1, e1]
  have hs : (t.lPlanck.mapData FromLog t.lPlanck.size junk).size = t.lPlanck.size := by
    show List.prod _ = List.prod _
    rw [m1.1]
  have hg : SetGroupBounds t.groupBounds t.ngroups = ok t.groupBounds := by
    have := copyBounds_ok t.groupBounds t.ngroups (by rw [h.length]; omega)
    rwa [List.take_of_length_le (by rw [h.length])] at this
  rw [LoadTables_eq, hv, hd, (Validate_ok_iff _ _).2 h.bounds, Int.toNat_natCast, hg, hs]
  rfl

/-- **C12 (saving and loading returns)**: every constructed table without NaN in its ranges can be saved, over any
previous file contents, and loaded again -/
theorem C12_returns {nm : MGTables.Names} (hnm : FileNames nm) {t : MGTables R} {b : List R} (hb : BuiltFrom t b)
    (hr : SameRanges t) (junk junk' : ℕ → R) (f : Option (H5File R)) :
    ∃ f' t', t.Save nm junk (fun _ => false) f = ok (some f') ∧ MGTables.LoadFile nm junk' false (some f') = ok t' :=
  ⟨_, _, Save_ok hb.wf junk f, Load_saved hnm hb.wf hr junk junk'⟩

/-- one cycle -/
theorem cycle_step {nm : MGTables.Names} (hnm : FileNames nm) {t t' : MGTables R} (h : WF t) (hr : SameRanges t)
    (hs : SavedThenLoaded nm t t') :
    WF t' ∧ SameRanges t' ∧ t'.ngroups = t.ngroups ∧ t'.groupBounds = t.groupBounds ∧
    (t'.lPlanck.dims = t.lPlanck.dims ∧ t'.lPlanck.grid = t.lPlanck.grid) ∧
    (t'.lRosseland.dims = t.lRosseland.dims ∧ t'.lRosseland.grid = t.lRosseland.grid) ∧
    (∀ is, t'.lPlanck.read is = (t.lPlanck.read is).map' (fun l => ToLog (FromLog l))) ∧
    (∀ is, t'.lRosseland.read is = (t.lRosseland.read is).map' (fun l => ToLog (FromLog l))) := by
  obtain ⟨junk, junk', f, f', e1, e2⟩ := hs
  rw [Save_ok h] at e1
  cases e1
  rw [Load_saved hnm h hr] at e2
  cases e2
  obtain ⟨a, b, s1, s2⟩ := h.shape
  have m1 := mapData_dims FromLog t.lPlanck.size t.lPlanck junk
  have m2 := mapData_dims FromLog t.lPlanck.size t.lRosseland junk
  have n1 := mapData_dims ToLog t.lPlanck.size (t.lPlanck.mapData FromLog t.lPlanck.size junk) junk'
  have n2 := mapData_dims ToLog t.lPlanck.size (t.lRosseland.mapData FromLog t.lPlanck.size junk) junk'
  have hsz : t.lPlanck.size = t.lRosseland.size := by simp [DataBox.size, s1, s2]
  have z1 : t.lPlanck.size = (t.lPlanck.mapData FromLog t.lPlanck.size junk).size := by
    show List.prod _ = List.prod _
    rw [m1.1]
  have z2 : t.lPlanck.size = (t.lRosseland.mapData FromLog t.lPlanck.size junk).size := by
    show List.prod _ = List.prod _
    rw [m2.1, s1, s2]
  have mm : ∀ (x : Outcome R), (x.map' FromLog).map' ToLog = x.map' (fun l => ToLog (FromLog l)) := by
    intro x; cases x <;> rfl
  refine ⟨⟨⟨a, b, ?_, ?_⟩, h.bounds, h.length⟩, ⟨?_, ?_⟩, rfl, rfl, ⟨?_, ?_⟩, ⟨?_, ?_⟩, fun is => ?_, fun is => ?_⟩
  · exact n1.1.trans (m1.1.trans s1)
  · exact n2.1.trans (m2.1.trans s2)
  · simp only [DataBox.range, n1.2, n2.2, m1.2, m2.2]; exact hr.1
  · simp only [DataBox.range, n1.2, n2.2, m1.2, m2.2]; exact hr.2
  · exact n1.1.trans m1.1
  · exact n1.2.trans m1.2
  · exact n2.1.trans m2.1
  · exact n2.2.trans m2.2
  · show ((t.lPlanck.mapData FromLog t.lPlanck.size junk).mapData ToLog t.lPlanck.size junk').read is = _
    rw [mapData_read' z1, mapData_read' rfl, mm]
  · show ((t.lRosseland.mapData FromLog t.lPlanck.size junk).mapData ToLog t.lPlanck.size junk').read is = _
    rw [mapData_read' z2, mapData_read' hsz, mm]

/-- **C12 (grids and groups)**, for every arithmetic: after any number of cycles the group bounds and the grids are
those of the original table, and each entry went through `ToLog(FromLog(·))` once per cycle -/
theorem C12_cycles_any {nm : MGTables.Names} (hnm : FileNames nm) {t t' : MGTables R} {b : List R}
    (hb : BuiltFrom t b) (hr : SameRanges t) {n : ℕ} (h : Cycles nm t n t') :
    t'.ngroups = t.ngroups ∧ t'.groupBounds = t.groupBounds ∧
    (t'.lPlanck.dims = t.lPlanck.dims ∧ t'.lPlanck.grid = t.lPlanck.grid) ∧
    (t'.lRosseland.dims = t.lRosseland.dims ∧ t'.lRosseland.grid = t.lRosseland.grid) ∧
    (∀ is, t'.lPlanck.read is = (t.lPlanck.read is).map' (fun l => ToLog (FromLog l))^[n]) ∧
    (∀ is, t'.lRosseland.read is = (t.lRosseland.read is).map' (fun l => ToLog (FromLog l))^[n]) := by
  suffices H : WF t' ∧ SameRanges t' ∧ _ from H.2.2
  induction h with
  | zero =>
    exact ⟨hb.wf, hr, rfl, rfl, ⟨rfl, rfl⟩, ⟨rfl, rfl⟩, fun is => by cases t.lPlanck.read is <;> rfl,
      fun is => by cases t.lRosseland.read is <;> rfl⟩
  | succ _ hs ih =>
    obtain ⟨w, r, i1, i2, i3, i4, i5, i6⟩ := ih
    obtain ⟨w', r', j1, j2, j3, j4, j5, j6⟩ := cycle_step hnm w r hs
    refine ⟨w', r', j1.trans i1, j2.trans i2, ⟨j3.1.trans i3.1, j3.2.trans i3.2⟩, ⟨j4.1.trans i4.1, j4.2.trans i4.2⟩,
      fun is => ?_, fun is => ?_⟩
    · rw [j5, i5]; cases t.lPlanck.read is <;> simp only [map'_ok, map'_abort, map'_ub, Function.iterate_succ_apply']
    · rw [j6, i6]; cases t.lRosseland.read is <;> simp only [map'_ok, map'_abort, map'_ub, Function.iterate_succ_apply']

/-- over the reals, a cycle adds the floor to the opacity -/
theorem fromLog_toLog (v : ℝ) : FromLog (ToLog v) = |v| + Robust.SMALL := by
  have h : (0 : ℝ) < |v| + Robust.SMALL := by have := SMALL_pos; positivity
  have e : (ToLog v : ℝ) = Real.logb 10 (|v| + Robust.SMALL) := by
    simp [ToLog, areal, real_SMALL]
  rw [e]
  simp only [FromLog, areal]
  push_cast
  exact Real.rpow_logb (by norm_num) (by norm_num) h

/-- **C12 (opacities)**: after `n` save/load cycles every tabulated opacity is the original one plus `n` times the
floor `SMALL = 10·2^-1022` -/
theorem C12_cycles {nm : MGTables.Names} (hnm : FileNames nm) {t t' : MGTables ℝ} {b : List ℝ} (hb : BuiltFrom t b)
    (hr : SameRanges t) {n : ℕ} (h : Cycles nm t n t') (is : List ℤ) (v : ℝ) :
    (Tabulated t.lPlanck is v → Tabulated t'.lPlanck is (v + n * Robust.SMALL)) ∧
    (Tabulated t.lRosseland is v → Tabulated t'.lRosseland is (v + n * Robust.SMALL)) := by
  obtain ⟨-, -, -, -, h1, h2⟩ := C12_cycles_any hnm hb hr h
  have key : ∀ (n : ℕ) (l : ℝ), FromLog ((fun l => ToLog (FromLog l))^[n] l) = FromLog l + n * Robust.SMALL := by
    intro n l
    induction n with
    | zero => simp
    | succ n ih =>
      rw [Function.iterate_succ_apply', fromLog_toLog, ih, abs_of_nonneg]
      · push_cast; ring
      · have : (0 : ℝ) ≤ FromLog l := by
          simp only [FromLog, areal]; positivity
        have := SMALL_pos
        positivity
  unfold Tabulated
  rw [h1, h2]
  constructor
  · intro e
    cases hl : t.lPlanck.read is with
    | ok l => rw [hl] at e; injection e with e; simp only [map'_ok, key, e]
    | abort m => rw [hl] at e; simp at e
    | ub m => rw [hl] at e; simp at e
  · intro e
    cases hl : t.lRosseland.read is with
    | ok l => rw [hl] at e; injection e with e; simp only [map'_ok, key, e]
    | abort m => rw [hl] at e; simp at e
    | ub m => rw [hl] at e; simp at e

/-! ## C13 -/

/-- **C13 (new contents)**: a process dies at any point while saving `t` over a file with any previous contents.  Then
loading the file aborts, or the file still holds exactly its previous contents, or loading returns what it would have
returned after a complete save of `t`. -/
theorem C13_crash {nm : MGTables.Names} (hnm : FileNames nm) {t : MGTables R} {b : List R} (hb : BuiltFrom t b)
    (junk junk' : ℕ → R) {ops : List (Op R)} (hops : t.SaveOps nm junk = ok ops) {before after : Option (H5File R)}
    (hc : CrashState ops before after) (ioFail : Bool) :
    (MGTables.LoadFile nm junk' ioFail after).Aborts ∨ after = before ∨
    ∃ complete, t.Save nm junk (fun _ => false) before = ok complete ∧
      MGTables.LoadFile nm junk' ioFail after = MGTables.LoadFile nm junk' ioFail complete := by
  have h := hb.wf
  have hg : ExportGroupBounds t.groupBounds t.ngroups = ok t.groupBounds := by
    have := copyBounds_ok t.groupBounds t.ngroups (by rw [h.length]; omega)
    rwa [List.take_of_length_le (by rw [h.length])] at this
  unfold MGTables.SaveOps at hops
  simp only [hg, ok_bind, pure_def, MGTables.ExportTables_] at hops
  cases hops
  obtain ⟨k, hk, hc⟩ := hc
  rcases hc with ⟨-, rfl⟩ | ⟨hcr, rfl | ⟨f, part, hf, hsub, rfl⟩⟩
  · exact .inr (.inl rfl)
  · exact .inl ⟨_, rfl⟩
  · -- either a dataset is missing, or all are there
    set D1 := t.lPlanck.mapData FromLog t.lPlanck.size junk
    set D2 := t.lRosseland.mapData FromLog t.lPlanck.size junk
    set D3 := DataBox.ofList t.groupBounds (lit 0 : R)
    have hsub3 : f.Sublist [(nm.bounds, D3), (nm.rosseland, D2), (nm.planck, D1)] := by
      simp only [List.length_cons, List.length_nil] at hk
      have hk' : k = 0 ∨ k = 1 ∨ k = 2 ∨ k = 3 ∨ k = 4 ∨ k = 5 := by omega
      rcases hk' with rfl | rfl | rfl | rfl | rfl | rfl
      · simp at hcr
      all_goals (simp [execAll, Op.exec] at hf; subst hf)
      · exact List.nil_sublist _
      · exact ((List.Sublist.refl [(nm.planck, D1)]).cons _).cons _
      · exact (List.Sublist.refl [(nm.rosseland, D2), (nm.planck, D1)]).cons _
      · exact List.Sublist.refl _
      · exact List.Sublist.refl _
    have hs := hsub.trans hsub3
    by_cases hlen : part.length = 3
    · have hp : part = [(nm.bounds, D3), (nm.rosseland, D2), (nm.planck, D1)] :=
        hs.eq_of_length (by simp [hlen])
      refine .inr (.inr ⟨_, Save_ok h junk before, by rw [hp]⟩)
    · left
      -- some name is not found
      have hmem : ∀ e ∈ part, e = (nm.bounds, D3) ∨ e = (nm.rosseland, D2) ∨ e = (nm.planck, D1) := by
        intro e he
        have := hs.subset he
        simpa using this
      have hnone : ∀ name, (∀ e ∈ part, e.1 ≠ name) → H5File.get part name = none := by
        intro name hn
        unfold H5File.get
        rw [List.find?_eq_none.2]
        · rfl
        · intro e he; simpa using hn e he
      have hne : nm.bounds ≠ nm.rosseland ∧ nm.bounds ≠ nm.planck ∧ nm.rosseland ≠ nm.planck := by
        rcases hnm with rfl | rfl <;> decide
      have hmiss : (∀ e ∈ part, e.1 ≠ nm.planck) ∨ (∀ e ∈ part, e.1 ≠ nm.rosseland) ∨ (∀ e ∈ part, e.1 ≠ nm.bounds) := by
        by_contra hcon
        push Not at hcon
        obtain ⟨⟨e1, m1, x1⟩, ⟨e2, m2, x2⟩, ⟨e3, m3, x3⟩⟩ := hcon
        have nd : part.Nodup := by
          refine hs.nodup ?_
          simp [hne.1, hne.2.1, hne.2.2]
        have d12 : e1 ≠ e2 := fun h => hne.2.2 (by rw [← x2, ← h, x1])
        have d13 : e1 ≠ e3 := fun h => hne.2.1 (by rw [← x3, ← h, x1])
        have d23 : e2 ≠ e3 := fun h => hne.1 (by rw [← x3, ← h, x2])
        have hsubset : [e1, e2, e3] ⊆ part := by
          intro e he
          simp at he
          rcases he with rfl | rfl | rfl <;> assumption
        have hnd3 : [e1, e2, e3].Nodup := by simp [d12, d13, d23]
        have := (hnd3.subperm hsubset).length_le
        have h3 := hs.length_le
        simp at this h3
        omega
      show (MGTables.LoadFile nm junk' ioFail (some part)).Aborts
      unfold MGTables.LoadFile
      rcases hmiss with hm | hm | hm
      · simp only [hnone _ hm]; exact ⟨_, rfl⟩
      · simp only [hnone _ hm]
        split
        · simp_all
        · exact ⟨_, rfl⟩
      · simp only [hnone _ hm]
        split
        · simp_all
        · exact ⟨_, rfl⟩

/-- **C13 (no mixing)**: with the previous contents those of a complete save of another table `t₀` (or no file), loading
after the crash aborts or returns exactly the table that a complete save of `t₀` or of `t` gives. -/
theorem C13_no_mixing {nm : MGTables.Names} (hnm : FileNames nm) {t t₀ : MGTables R} {b b₀ : List R}
    (hb : BuiltFrom t b) (hb₀ : BuiltFrom t₀ b₀) (hr : SameRanges t) (hr₀ : SameRanges t₀) (junk junk₀ : ℕ → R)
    {ops : List (Op R)} (hops : t.SaveOps nm junk = ok ops) {first before after : Option (H5File R)}
    (h₀ : t₀.Save nm junk₀ (fun _ => false) first = ok before) (hc : CrashState ops before after) (ioFail : Bool)
    (junk' : ℕ → R) :
    (MGTables.LoadFile nm junk' ioFail after).Aborts ∨
    ∃ t', MGTables.LoadFile nm junk' ioFail after = ok t' ∧ (SavedThenLoaded nm t₀ t' ∨ SavedThenLoaded nm t t') := by
  cases ioFail with
  | true =>
    left
    unfold MGTables.LoadFile
    split
    · exact ⟨_, rfl⟩
    · split
      · exact ⟨_, rfl⟩
      · exact ⟨_, rfl⟩
  | false =>
    rcases C13_crash hnm hb junk junk' hops hc false with h | rfl | ⟨comp, h1, h2⟩
    · exact .inl h
    · right
      have hs := h₀
      rw [Save_ok hb₀.wf] at hs
      cases hs
      exact ⟨_, Load_saved hnm hb₀.wf hr₀ _ _, .inl ⟨junk₀, junk', first, _, h₀, Load_saved hnm hb₀.wf hr₀ _ _⟩⟩
    · right
      have hs := h1
      rw [Save_ok hb.wf] at hs
      cases hs
      refine ⟨_, h2.trans (Load_saved hnm hb.wf hr _ _), .inr ⟨junk, junk', before, _, h1, Load_saved hnm hb.wf hr _ _⟩⟩

/-- **C13 (reported failures)**: whichever HDF5 calls fail, `Save` aborts, or none of its calls failed and the file is
the complete one -/
theorem C13_failures {nm : MGTables.Names} {t : MGTables R} {b : List R} (hb : BuiltFrom t b) (junk : ℕ → R)
    (fails : ℕ → Bool) (before : Option (H5File R)) :
    (t.Save nm junk fails before).Aborts ∨
      ((∀ i < 5, fails i = false) ∧ t.Save nm junk fails before = t.Save nm junk (fun _ => false) before) := by
  have h := hb.wf
  have hg : ExportGroupBounds t.groupBounds t.ngroups = ok t.groupBounds := by
    have := copyBounds_ok t.groupBounds t.ngroups (by rw [h.length]; omega)
    rwa [List.take_of_length_le (by rw [h.length])] at this
  by_cases hf : ∀ i < 5, fails i = false
  · right
    refine ⟨hf, ?_⟩
    unfold MGTables.Save MGTables.SaveOps
    simp only [hg, ok_bind, pure_def, MGTables.ExportTables_]
    simp [runSave, hf]
  · left
    unfold MGTables.Save MGTables.SaveOps
    simp only [hg, ok_bind, pure_def, MGTables.ExportTables_]
    have hne : ∀ a b c d e : Bool, ¬(a = false ∧ b = false ∧ c = false ∧ d = false ∧ e = false) →
        fails 0 = a → fails 1 = b → fails 2 = c → fails 3 = d → fails 4 = e →
        (runSave [Op.create, Op.save nm.planck (t.lPlanck.mapData FromLog t.lPlanck.size junk),
          Op.save nm.rosseland (t.lRosseland.mapData FromLog t.lPlanck.size junk),
          Op.save nm.bounds (DataBox.ofList t.groupBounds (lit 0)), Op.close] fails 0 false before).1 ≠ 0 := by
      intro a b c d e hn h0 h1 h2 h3 h4
      cases a <;> cases b <;> cases c <;> cases d <;> cases e <;> simp_all [runSave]
    have := hne _ _ _ _ _ (fun hh => hf (by
      intro i hi
      interval_cases i
      exacts [hh.1, hh.2.1, hh.2.2.1, hh.2.2.2.1, hh.2.2.2.2])) rfl rfl rfl rfl rfl
    split
    · exact ⟨_, rfl⟩
    · simp_all

/-- the hypotheses are met -/
example : SameRanges exTables := by
  have m := mapData_dims ToLog exBox.size exBox (fun _ => XR.fin 0)
  unfold SameRanges
  simp only [exTables, DataBox.range, m.2]
  simp [exBox, SameAxis, eqb, XR.eqb]

/-- a crash right after the first dataset was written -/
example : ∃ ops, exTables.SaveOps MGTables.opacNames (fun _ => .fin 0) = ok ops ∧ ∃ f,
    CrashState ops none (some f) ∧ f.length = 1 := by
  have h := exTables_built.wf
  have hg : ExportGroupBounds exTables.groupBounds exTables.ngroups = ok exTables.groupBounds := by
    have := copyBounds_ok exTables.groupBounds exTables.ngroups (by rw [h.length]; omega)
    rwa [List.take_of_length_le (by rw [h.length])] at this
  refine ⟨[Op.create, Op.save MGTables.opacNames.planck (exTables.ExportTables_ fun _ => .fin 0).1,
    Op.save MGTables.opacNames.rosseland (exTables.ExportTables_ fun _ => .fin 0).2,
    Op.save MGTables.opacNames.bounds (DataBox.ofList exTables.groupBounds (lit 0)), Op.close],
    by simp only [MGTables.SaveOps, hg, ok_bind, pure_def], ?_⟩
  exact ⟨[(MGTables.opacNames.planck, (exTables.ExportTables_ fun _ => .fin 0).1)],
    ⟨2, by simp, .inr ⟨by simp, .inr ⟨_, _, rfl, List.Sublist.refl _, rfl⟩⟩⟩, rfl⟩

end Opac.Photons
