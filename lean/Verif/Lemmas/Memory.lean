import Verif.Spec.Lifetimes
import Verif.Props.MeanFiles

/-! Lemmas about the memory the tables live in: what constructors, `GetOnDevice`, `Save` and `Finalize` do to it. -/

namespace Opac.Memory
open Arith Spiner Hdf

variable {R : Type}

/-! ### running programs -/

theorem bind_apply {α β : Type} (x : MemM R α) (f : α → MemM R β) (m : Mem R) :
    (x >>= f) m = match x m with
      | (.ok a, m') => f a m'
      | (.abort e, m') => (.abort e, m')
      | (.ub w, m') => (.ub w, m') := rfl

theorem pure_apply {α : Type} (a : α) (m : Mem R) : (pure a : MemM R α) m = (.ok a, m) := rfl

theorem alloc_bind {β : Type} (d : DataBox R) (f : Box → MemM R β) (m : Mem R) :
    (alloc d >>= f) m = f (.owner m.next) (m.push d) := rfl

theorem lift_bind_ok {α β : Type} {x : Outcome α} {a : α} (h : x = .ok a) (f : α → MemM R β) (m : Mem R) :
    (lift x >>= f) m = f a m := by rw [h]; rfl

theorem pure_bind' {α β : Type} (a : α) (f : α → MemM R β) (m : Mem R) : ((pure a : MemM R α) >>= f) m = f a m := rfl

theorem read_bind {β : Type} {b : ℕ} {d : DataBox R} {m : Mem R} (h : m.cell b = some d) (f : DataBox R → MemM R β) :
    (read (.owner b) >>= f) m = f d m := by
  rw [bind_apply]; simp [read, h]

theorem read_ok {b : ℕ} {d : DataBox R} {m : Mem R} (h : m.cell b = some d) : read (.owner b) m = (.ok d, m) := by
  simp [read, h]

/-- memory with another table in block `b` -/
def Mem.set (m : Mem R) (b : ℕ) (d : Option (DataBox R)) : Mem R := { m with cell := Function.update m.cell b d }

theorem write_bind {β : Type} {b : ℕ} {d : DataBox R} (e : DataBox R) {m : Mem R} (h : m.cell b = some d)
    (f : Unit → MemM R β) : (write e (.owner b) >>= f) m = f () (m.set b (some e)) := by
  rw [bind_apply]; simp [write, h, Mem.set]

theorem finalize_bind {β : Type} {b : ℕ} {d : DataBox R} {m : Mem R} (h : m.cell b = some d) (f : Box → MemM R β) :
    (finalize (.owner b) >>= f) m = f .empty (m.set b none) := by
  rw [bind_apply]; simp [finalize, h, Mem.set]

theorem finalize_empty_bind {β : Type} (m : Mem R) (f : Box → MemM R β) :
    (finalize .empty >>= f) m = f .empty m := rfl

@[simp] theorem push_next (m : Mem R) (d : DataBox R) : (m.push d).next = m.next + 1 := rfl
theorem push_cell (m : Mem R) (d : DataBox R) (b : ℕ) :
    (m.push d).cell b = if b = m.next then some d else m.cell b := by
  simp [Mem.push, Function.update_apply]
@[simp] theorem set_next (m : Mem R) (b : ℕ) (d : Option (DataBox R)) : (m.set b d).next = m.next := rfl
theorem set_cell (m : Mem R) (b : ℕ) (d : Option (DataBox R)) (c : ℕ) :
    (m.set b d).cell c = if c = b then d else m.cell c := by
  simp [Mem.set, Function.update_apply]

/-! ### growing memory -/

/-- blocks not handed out hold nothing -/
def Good (m : Mem R) : Prop := ∀ b, m.next ≤ b → m.cell b = none

/-- `m'` is `m` with more blocks; the blocks of `m` are untouched -/
structure Ext (m m' : Mem R) : Prop where
  next : m.next ≤ m'.next
  old : ∀ b, b < m.next → m'.cell b = m.cell b
  good : Good m'

theorem Ext.refl {m : Mem R} (h : Good m) : Ext m m := ⟨le_rfl, fun _ _ => rfl, h⟩

theorem Ext.push {m m1 : Mem R} (h : Ext m m1) (d : DataBox R) : Ext m (m1.push d) where
  next := by simpa using h.next.trans (Nat.le_succ _)
  old b hb := by
    rw [push_cell, if_neg (by have := h.next; omega)]; exact h.old b hb
  good b hb := by
    simp only [push_next] at hb
    rw [push_cell, if_neg (by omega)]; exact h.good b (by omega)

theorem Ext.set {m m1 : Mem R} (h : Ext m m1) {b : ℕ} (d : Option (DataBox R)) (hb : m.next ≤ b) (hb' : b < m1.next) :
    Ext m (m1.set b d) where
  next := h.next
  old c hc := by rw [set_cell, if_neg (by omega)]; exact h.old c hc
  good c hc := by
    simp only [set_next] at hc
    rw [set_cell, if_neg (by omega)]; exact h.good c hc

/-! ### constructors -/

/-- the computation `r`, started in `m`, made what the value `x` says: on success the object made reads as `x`, its
blocks are new and distinct, and (`clean`) nothing else is left behind -/
def Made {H V : Type} (view : H → MemM R V) (blocks : H → List ℕ) (clean : Prop) (m : Mem R)
    (r : Outcome H × Mem R) (x : Outcome V) : Prop :=
  Ext m r.2 ∧
  match r.1, x with
  | .ok h, .ok v => view h r.2 = (.ok v, r.2) ∧ (blocks h).Nodup ∧ (∀ b ∈ blocks h, m.next ≤ b) ∧
      (clean → ∀ b, m.next ≤ b → r.2.cell b ≠ none → b ∈ blocks h)
  | .abort e, .abort e' => e = e'
  | .ub w, .ub w' => w = w'
  | _, _ => False

section made
variable {H V : Type} {view : H → MemM R V} {blocks : H → List ℕ} {clean : Prop} {m m1 : Mem R}

theorem Made.lift {α : Type} {x : Outcome α} {f : α → MemM R H} {g : α → Outcome V} (he : Ext m m1)
    (h : ∀ a, x = .ok a → Made view blocks clean m (f a m1) (g a)) :
    Made view blocks clean m ((lift x >>= f) m1) (x.bind g) := by
  cases hx : x with
  | ok a => exact h a hx
  | abort e => exact ⟨he, rfl⟩
  | ub w => exact ⟨he, rfl⟩

theorem Made.alloc {d : DataBox R} {f : Box → MemM R H} {x : Outcome V}
    (h : Made view blocks clean m (f (.owner m1.next) (m1.push d)) x) :
    Made view blocks clean m ((alloc d >>= f) m1) x := h

theorem Made.done {h : H} {v : V} (he : Ext m m1) (hv : view h m1 = (.ok v, m1)) (hn : (blocks h).Nodup)
    (hb : ∀ b ∈ blocks h, m.next ≤ b) (hc : clean → ∀ b, m.next ≤ b → m1.cell b ≠ none → b ∈ blocks h) :
    Made view blocks clean m ((pure h : MemM R H) m1) (.ok v) := ⟨he, hv, hn, hb, hc⟩

/-- a computation on top of a made object that only renames it -/
theorem Made.map {H' V' : Type} {view' : H' → MemM R V'} {blocks' : H' → List ℕ} {r : MemM R H} {x : Outcome V}
    {fH : H → H'} {fV : V → V'} (h : Made view blocks clean m (r m1) x)
    (hv : ∀ a v m', view a m' = (.ok v, m') → view' (fH a) m' = (.ok (fV v), m'))
    (hb : ∀ a, blocks' (fH a) = blocks a) :
    Made view' blocks' clean m ((r >>= fun a => pure (fH a)) m1) (x.map' fV) := by
  rw [bind_apply]
  revert h
  rcases hr : r m1 with ⟨o, m'⟩
  cases o <;> cases x <;> simp only [Made, pure_apply, Outcome.map', and_false, false_imp_iff]
  · rintro ⟨he, h1, h2, h3, h4⟩
    exact ⟨he, hv _ _ _ h1, by rw [hb]; exact h2, by rw [hb]; exact h3, by rw [hb]; exact h4⟩
  · exact id
  · exact id
end made

/-- the block of a box -/
def Box.blocks : Box → List ℕ
  | .empty => []
  | .owner b => [b]

/-- the blocks of an object -/
def MGBox.blocks (h : MGBox) : List ℕ := h.lPlanck.blocks ++ h.lRosseland.blocks ++ h.groupBounds.blocks
/-- the blocks of an object -/
def MeanBox.blocks (h : MeanBox) : List ℕ := h.lPlanck.blocks ++ h.lRosseland.blocks
/-- the blocks of an object -/
def SpinerBox.blocks (h : SpinerBox) : List ℕ :=
  h.lalphanu_.blocks ++ h.ljnu_.blocks ++ h.lJ_.blocks ++ h.lJYe_.blocks
/-- the blocks of an object -/
def Obj.blocks : Obj R → List ℕ
  | .photons _ h => h.blocks
  | .photonsS _ h => h.blocks
  | .neutrinos _ h => h.blocks
  | .neutrinosS _ _ h => h.blocks
  | .spiner _ _ h => h.blocks
  | .wrapped _ _ _ _ o => o.blocks

/-- evaluate the contents of a block after allocations and writes -/
macro "cells" : tactic => `(tactic| simp [set_cell, push_cell, Nat.add_assoc])

section
variable [Arith R]
open Photons Neutrinos

theorem MGBox.view_ok {p r g n : ℕ} {dP dR dG : DataBox R} {m : Mem R} (hp : m.cell p = some dP)
    (hr : m.cell r = some dR) (hg : m.cell g = some dG) :
    MGBox.view ⟨.owner p, .owner r, .owner g, n⟩ m = (.ok ⟨dP, dR, dG.toList, n⟩, m) := by
  simp only [MGBox.view, read_bind hp, read_bind hr, read_bind hg, pure_apply]

theorem MeanBox.view_ok {p r : ℕ} {dP dR : DataBox R} {m : Mem R} (hp : m.cell p = some dP)
    (hr : m.cell r = some dR) :
    MeanBox.view ⟨.owner p, .owner r⟩ m = (.ok ⟨dP, dR⟩, m) := by
  simp only [MeanBox.view, read_bind hp, read_bind hr, pure_apply]

theorem SpinerBox.view_ok {dist : FermiDirac R} {pc : PC R} {a j J N : ℕ} {da dj dJ dN : DataBox R} {m : Mem R}
    (ha : m.cell a = some da) (hj : m.cell j = some dj) (hJ : m.cell J = some dJ) (hN : m.cell N = some dN) :
    SpinerBox.view dist pc ⟨.owner a, .owner j, .owner J, .owner N⟩ m = (.ok ⟨dist, pc, da, dj, dJ, dN⟩, m) := by
  simp only [SpinerBox.view, read_bind ha, read_bind hj, read_bind hJ, read_bind hN, pure_apply]

theorem toList_ofList (l : List R) (x : R) : (DataBox.ofList l x).toList = l := by
  apply List.ext_getElem
  · simp [DataBox.toList, DataBox.ofList, DataBox.size]
  · intro i h1 h2
    simp only [DataBox.toList, DataBox.ofList, DataBox.size, List.prod_cons, List.prod_nil, mul_one, Int.toNat_natCast,
      List.getElem_map, List.getElem_range]
    rw [List.getD_eq_getElem?_getD, List.getElem?_eq_getElem h2]; rfl

theorem MGBox.Impl_made {m : Mem R} (hm : Good m) (pc : PC R) (junk : ℕ → R) (coef : R → R → R → R) (a b : R) (NRho : ℤ)
    (c d : R) (NT : ℤ) (bounds : List R) (ng NNu : ℤ) :
    Made MGBox.view MGBox.blocks True m (MGBox.Impl_ pc junk coef a b NRho c d NT bounds ng NNu m)
      (MGTables.Impl_ pc junk coef a b NRho c d NT bounds ng NNu) := by
  have hval : MGTables.Impl_ pc junk coef a b NRho c d NT bounds ng NNu =
      (if NNu < 2 then Outcome.abort "NNuPerGroup must be at least 2" else .ok ()).bind fun _ =>
        (ValidateGroupBounds bounds ng).bind fun _ => (SetGroupBounds bounds ng.toNat).bind fun gb =>
        (forLoopM NT (fun iT s => forLoopM NRho (fun iRho s => forLoopM (ng.toNat : ℤ)
          (fun group s => MGTables.FillCell pc coef bounds NNu iT iRho group s) s) s)
          (((DataBox.resize [NRho, NT, (ng.toNat : ℤ)] junk (fun _ => Grid.none)).setRange 1 c d NT).setRange 2 a b NRho,
           (((DataBox.resize [NRho, NT, (ng.toNat : ℤ)] junk (fun _ => Grid.none)).setRange 1 c d NT).setRange 2 a b
             NRho).copyMetadata junk)).bind fun s =>
        .ok { lPlanck := s.1, lRosseland := s.2, groupBounds := gb, ngroups := ng.toNat } := by
    unfold MGTables.Impl_
    split_ifs <;> rfl
  rw [hval]
  unfold MGBox.Impl_
  clear hval
  have e0 := Ext.refl hm
  refine Made.lift e0 fun _ _ => Made.lift e0 fun _ _ => Made.lift e0 fun gb _ => ?_
  refine Made.alloc (Made.alloc (Made.alloc ?_))
  generalize (((DataBox.resize [NRho, NT, (ng.toNat : ℤ)] junk
    (fun _ => Grid.none)).setRange 1 c d NT).setRange 2 a b NRho) = lP
  have e1 := ((e0.push (DataBox.ofList gb (lit 0))).push lP).push (lP.copyMetadata junk)
  refine Made.lift e1 fun s _ => ?_
  have c1 : ((((m.push (DataBox.ofList gb (lit 0))).push lP).push (lP.copyMetadata junk)).cell (m.next + 1)) = some lP := by
    simp [push_cell]
  have c2 : (((((m.push (DataBox.ofList gb (lit 0))).push lP).push (lP.copyMetadata junk)).set (m.next + 1)
      (some s.1)).cell (m.next + 1 + 1)) = some (lP.copyMetadata junk) := by
    simp [push_cell, set_cell]
  simp only [push_next]
  rw [write_bind s.1 c1, write_bind s.2 c2]
  refine ⟨?_, ?_, ?_, ?_, ?_⟩
  · exact (e1.set _ (by omega) (by simp)).set _ (by omega) (by simp)
  · have := MGBox.view_ok (p := m.next + 1) (r := m.next + 1 + 1) (g := m.next) (n := ng.toNat) (dP := s.1) (dR := s.2)
      (dG := DataBox.ofList gb (lit 0)) (m := ((((m.push (DataBox.ofList gb (lit 0))).push lP).push
        (lP.copyMetadata junk)).set (m.next + 1) (some s.1)).set (m.next + 1 + 1) (some s.2))
      (by cells) (by cells) (by cells)
    rw [toList_ofList] at this
    exact this
  · simp [MGBox.blocks, Box.blocks, Nat.add_assoc]
  · simp [MGBox.blocks, Box.blocks, Nat.add_assoc]
  · intro _ b hb
    have := hm b hb
    simp only [pure_apply, set_cell, push_cell, push_next, MGBox.blocks, Box.blocks]
    intro h
    simp only [List.cons_append, List.nil_append, List.mem_cons, List.not_mem_nil, or_false]
    by_contra hne
    simp only [not_or] at hne
    simp [hne.1, hne.2.1, hne.2.2, this] at h

theorem MGBox.LoadTables_made {m m1 : Mem R} (he : Ext m m1) (junk : ℕ → R) (kP kR : DataBox R) (bounds : List R)
    {f : MGBox → MemM R MGBox}
    (h : ∀ t, MGTables.LoadTables_ junk kP kR bounds = .ok t →
      Made MGBox.view MGBox.blocks True m (f ⟨.owner (m1.next + 1), .owner (m1.next + 2), .owner m1.next, t.ngroups⟩
        (((m1.push (DataBox.ofList t.groupBounds (lit 0))).push t.lPlanck).push t.lRosseland)) (.ok t)) :
    Made MGBox.view MGBox.blocks True m ((MGBox.LoadTables_ junk kP kR bounds >>= f) m1)
      (MGTables.LoadTables_ junk kP kR bounds) := by
  unfold MGBox.LoadTables_
  rw [bind_apply, bind_apply]
  cases hx : MGTables.LoadTables_ junk kP kR bounds with
  | ok t => exact h t hx
  | abort e => exact ⟨he, rfl⟩
  | ub w => exact ⟨he, rfl⟩

theorem MGBox.LoadTables_made' {m : Mem R} (hm : Good m) (junk : ℕ → R) (kP kR : DataBox R) (bounds : List R) :
    Made MGBox.view MGBox.blocks True m (MGBox.LoadTables_ junk kP kR bounds m)
      (MGTables.LoadTables_ junk kP kR bounds) := by
  have e0 := Ext.refl hm
  have := MGBox.LoadTables_made e0 junk kP kR bounds (f := pure) (fun t _ => by
    refine ⟨((e0.push _).push _).push _, ?_, ?_, ?_, ?_⟩
    · have := MGBox.view_ok (p := m.next + 1) (r := m.next + 2) (g := m.next) (n := t.ngroups) (dP := t.lPlanck)
        (dR := t.lRosseland) (dG := DataBox.ofList t.groupBounds (lit 0))
        (m := ((m.push (DataBox.ofList t.groupBounds (lit 0))).push t.lPlanck).push t.lRosseland)
        (by cells) (by cells) (by cells)
      rw [toList_ofList] at this
      exact this
    · simp [MGBox.blocks, Box.blocks]
    · simp [MGBox.blocks, Box.blocks]
    · intro _ b hb
      have := hm b hb
      simp only [pure_apply, set_cell, push_cell, push_next, MGBox.blocks, Box.blocks]
      intro h
      simp only [List.cons_append, List.nil_append, List.mem_cons, List.not_mem_nil, or_false]
      by_contra hne
      simp only [not_or] at hne
      simp [hne.1, hne.2.1, hne.2.2, this] at h)
  have hp : (MGBox.LoadTables_ junk kP kR bounds >>= (pure : MGBox → MemM R MGBox)) m =
      MGBox.LoadTables_ junk kP kR bounds m := by
    rw [bind_apply]
    rcases MGBox.LoadTables_ junk kP kR bounds m with ⟨o, m'⟩
    cases o <;> rfl
  rw [hp] at this
  exact this

/-- a dataset that is there is loaded into a fresh block, a missing one leaves the box empty -/
theorem loadHDF_bind {β : Type} (d : Option (DataBox R)) (f : Box × ℤ → MemM R β) (m : Mem R) :
    (loadHDF d >>= f) m = match d with
      | some d => f (.owner m.next, 0) (m.push d)
      | none => f (.empty, -1) m := by
  cases d <;> rfl

theorem MGBox.LoadFile_made {m : Mem R} (hm : Good m) (nm : MGTables.Names) (junk : ℕ → R) (ioFail : Bool)
    (f : Option (H5File R)) :
    Made MGBox.view MGBox.blocks True m (MGBox.LoadFile nm junk ioFail f m) (MGTables.LoadFile nm junk ioFail f) := by
  have e0 := Ext.refl hm
  unfold MGBox.LoadFile MGTables.LoadFile
  cases f with
  | none => exact ⟨e0, rfl⟩
  | some f =>
    rw [lift_bind_ok rfl]
    simp only [loadHDF_bind]
    cases hP : f.get nm.planck <;> cases hR : f.get nm.rosseland <;> cases hG : f.get nm.bounds <;> cases ioFail
    case some.some.some.false kP kR gb =>
      simp only [Bool.false_eq_true, if_false]
      rw [lift_bind_ok (by simp; rfl), read_bind (d := kP) (by cells), read_bind (d := kR) (by cells),
        read_bind (d := gb) (by cells)]
      refine MGBox.LoadTables_made (((e0.push _).push _).push _) _ _ _ _ fun t _ => ?_
      simp only [push_next]
      rw [finalize_bind (d := gb) (by cells), finalize_bind (d := kP) (by cells), finalize_bind (d := kR) (by cells)]
      refine ⟨?_, ?_, ?_, ?_, ?_⟩
      · exact (((((((((e0.push _).push _).push _).push _).push _).push _).set _ (by omega) (by simp <;> omega)).set _
          (by omega) (by simp <;> omega)).set _ (by omega) (by simp <;> omega))
      · have := MGBox.view_ok (p := m.next + 1 + 1 + 1 + 1) (r := m.next + 1 + 1 + 1 + 2) (g := m.next + 1 + 1 + 1)
          (n := t.ngroups) (dP := t.lPlanck) (dR := t.lRosseland) (dG := DataBox.ofList t.groupBounds (lit 0))
          (m := (((((((m.push kP).push kR).push gb).push (DataBox.ofList t.groupBounds (lit 0))).push t.lPlanck).push
            t.lRosseland).set (m.next + 1 + 1) none |>.set m.next none).set (m.next + 1) none)
          (by cells) (by cells) (by cells)
        rw [toList_ofList] at this
        exact this
      · simp [MGBox.blocks, Box.blocks]
      · simp [MGBox.blocks, Box.blocks]; omega
      · intro _ b hb
        have := hm b hb
        simp only [pure_apply, set_cell, push_cell, push_next, MGBox.blocks, Box.blocks]
        intro h
        simp only [List.cons_append, List.nil_append, List.mem_cons, List.not_mem_nil, or_false]
        by_contra hne
        simp only [not_or] at hne
        obtain ⟨h1, h2, h3⟩ := hne
        by_cases g1 : b = m.next <;> by_cases g2 : b = m.next + 1 <;> by_cases g3 : b = m.next + 1 + 1 <;>
          simp_all
    all_goals
      simp only
      rw [bind_apply]
      refine ⟨?_, ?_⟩
      · simp only [lift]
        simp
        first
          | exact ((e0.push _).push _).push _
          | exact (e0.push _).push _
          | exact e0.push _
          | exact e0
      · simp [lift]

theorem MeanBox.Impl_made {m : Mem R} (hm : Good m) (t : MeanTables R) (loops : MeanTables R → Outcome (MeanTables R)) :
    Made MeanBox.view MeanBox.blocks True m (MeanBox.Impl_ t loops m) (loops t) := by
  have e0 := Ext.refl hm
  have hval : loops t = (loops t).bind fun t' => .ok t' := by cases loops t <;> rfl
  rw [hval]
  unfold MeanBox.Impl_
  refine Made.alloc (Made.alloc ?_)
  have e1 := (e0.push t.lPlanck).push t.lRosseland
  refine Made.lift e1 fun t' _ => ?_
  simp only [push_next]
  rw [write_bind t'.lPlanck (d := t.lPlanck) (by cells), write_bind t'.lRosseland (d := t.lRosseland) (by cells)]
  refine Made.done ((e1.set _ (by omega) (by simp)).set _ (by omega) (by simp)) ?_ ?_ ?_ ?_
  · exact MeanBox.view_ok (by cells) (by cells)
  · simp [MeanBox.blocks, Box.blocks]
  · simp [MeanBox.blocks, Box.blocks]
  · intro _ b hb
    have := hm b hb
    simp only [set_cell, push_cell, push_next, MeanBox.blocks, Box.blocks]
    intro h
    simp only [List.cons_append, List.nil_append, List.mem_cons, List.not_mem_nil, or_false]
    by_contra hne
    simp only [not_or] at hne
    simp [hne.1, hne.2, this] at h

theorem MeanBox.LoadFile_made {m : Mem R} (hm : Good m) (nm : MeanTables.Names) (ioFail : Bool) (f : Option (H5File R)) :
    Made MeanBox.view MeanBox.blocks True m (MeanBox.LoadFile nm ioFail f m) (MeanTables.LoadFile nm ioFail f) := by
  have e0 := Ext.refl hm
  unfold MeanBox.LoadFile MeanTables.LoadFile
  cases f with
  | none => exact ⟨e0, rfl⟩
  | some f =>
    rw [lift_bind_ok rfl]
    simp only [loadHDF_bind]
    cases hP : f.get nm.planck <;> cases hR : f.get nm.rosseland <;> cases ioFail
    case some.some.false kP kR =>
      simp only [Bool.false_eq_true, if_false]
      rw [lift_bind_ok (by simp; rfl)]
      refine Made.done ((e0.push _).push _) ?_ ?_ ?_ ?_
      · exact MeanBox.view_ok (by cells) (by cells)
      · simp [MeanBox.blocks, Box.blocks]
      · simp [MeanBox.blocks, Box.blocks]
      · intro _ b hb
        have := hm b hb
        simp only [set_cell, push_cell, push_next, MeanBox.blocks, Box.blocks]
        intro h
        simp only [List.cons_append, List.nil_append, List.mem_cons, List.not_mem_nil, or_false]
        by_contra hne
        simp only [not_or] at hne
        simp [hne.1, hne.2, this] at h
    all_goals
      simp only
      rw [bind_apply]
      refine ⟨?_, ?_⟩
      · simp only [lift]
        simp
        first
          | exact (e0.push _).push _
          | exact e0.push _
          | exact e0
      · simp [lift]

theorem SpinerBox.fill_made {m : Mem R} (hm : Good m) {dist : FermiDirac R} {pc : PC R} (a j J N : DataBox R)
    (full : Outcome (SpinerOpacity R)) (hfull : ∀ o, full = .ok o → o.dist = dist ∧ o.pc = pc) :
    Made (SpinerBox.view dist pc) SpinerBox.blocks True m (SpinerBox.fill a j J N full m) full := by
  have e0 := Ext.refl hm
  have hval : full = full.bind fun t' => .ok t' := by cases full <;> rfl
  unfold SpinerBox.fill
  refine Made.alloc (Made.alloc (Made.alloc (Made.alloc ?_)))
  conv => rhs; rw [hval]
  have e1 := (((e0.push a).push j).push J).push N
  refine Made.lift (g := fun t' => .ok t') e1 fun o ho => ?_
  simp only [push_next]
  rw [write_bind o.lalphanu_ (d := a) (by cells), write_bind o.ljnu_ (d := j) (by cells),
    write_bind o.lJ_ (d := J) (by cells), write_bind o.lJYe_ (d := N) (by cells)]
  refine Made.done ((((e1.set _ (by omega) (by simp <;> omega)).set _ (by omega) (by simp <;> omega)).set _ (by omega)
    (by simp <;> omega)).set _ (by omega) (by simp <;> omega)) ?_ ?_ ?_ ?_
  · obtain ⟨rfl, rfl⟩ := hfull o ho
    exact SpinerBox.view_ok (by cells) (by cells) (by cells) (by cells)
  · simp [SpinerBox.blocks, Box.blocks, Nat.add_assoc]
  · simp [SpinerBox.blocks, Box.blocks, Nat.add_assoc]
  · intro _ b hb
    have := hm b hb
    simp only [set_cell, push_cell, push_next, SpinerBox.blocks, Box.blocks]
    intro h
    simp only [List.cons_append, List.nil_append, List.mem_cons, List.not_mem_nil, or_false]
    by_contra hne
    simp only [not_or] at hne
    simp [hne.1, hne.2.1, hne.2.2.1, hne.2.2.2, this] at h

theorem SpinerBox.LoadFromSP5_made {m : Mem R} (hm : Good m) (dist : FermiDirac R) (pc : PC R) (ioFail : Bool)
    (f : Option (H5File R)) :
    Made (SpinerBox.view dist pc) SpinerBox.blocks True m (SpinerBox.LoadFromSP5_ ioFail f m)
      (SpinerOpacity.LoadFromSP5_ dist pc ioFail f) := by
  have e0 := Ext.refl hm
  unfold SpinerBox.LoadFromSP5_ SpinerOpacity.LoadFromSP5_
  cases f with
  | none => exact ⟨e0, rfl⟩
  | some f =>
    rw [lift_bind_ok rfl]
    simp only [loadHDF_bind]
    cases h1 : f.get "absorption coefficient" <;> cases h2 : f.get "emissivity per nu" <;>
      cases h3 : f.get "total emissivity" <;> cases h4 : f.get "number emissivity" <;> cases ioFail
    case some.some.some.some.false a j J N =>
      simp only [Bool.false_eq_true, if_false]
      rw [lift_bind_ok (by simp; rfl)]
      refine Made.done ((((e0.push _).push _).push _).push _) ?_ ?_ ?_ ?_
      · exact SpinerBox.view_ok (by cells) (by cells) (by cells) (by cells)
      · simp [SpinerBox.blocks, Box.blocks, Nat.add_assoc]
      · simp [SpinerBox.blocks, Box.blocks, Nat.add_assoc]
      · intro _ b hb
        have := hm b hb
        simp only [set_cell, push_cell, push_next, SpinerBox.blocks, Box.blocks]
        intro h
        simp only [List.cons_append, List.nil_append, List.mem_cons, List.not_mem_nil, or_false]
        by_contra hne
        simp only [not_or] at hne
        simp [hne.1, hne.2.1, hne.2.2.1, hne.2.2.2, this] at h
    all_goals
      simp only
      rw [bind_apply]
      refine ⟨?_, ?_⟩
      · simp only [lift]
        simp
        first
          | exact (((e0.push _).push _).push _).push _
          | exact ((e0.push _).push _).push _
          | exact (e0.push _).push _
          | exact e0.push _
          | exact e0
      · simp [lift]

theorem SpinerBox.LoadFromNuLib_made {m : Mem R} (hm : Good m) (kappa : Option (ℕ → R)) (dist : FermiDirac R) (pc : PC R)
    (junk : ℕ → ℕ → R) (f : Option (SpinerOpacity.NuLibFile R)) :
    Made (SpinerBox.view dist pc) SpinerBox.blocks False m (SpinerBox.LoadFromNuLib_ kappa pc junk f m)
      (SpinerOpacity.LoadFromNuLibWith kappa dist pc junk f) := by
  have e0 := Ext.refl hm
  unfold SpinerBox.LoadFromNuLib_ SpinerOpacity.LoadFromNuLibWith
  cases f with
  | none => exact ⟨e0, rfl⟩
  | some f =>
    rw [lift_bind_ok rfl]
    refine Made.lift e0 fun NR _ => Made.lift e0 fun NT _ => Made.lift e0 fun NY _ => Made.lift e0 fun NE _ =>
      Made.lift e0 fun NTYPE _ => Made.lift e0 fun rho _ => Made.lift e0 fun T _ => Made.lift e0 fun e _ =>
      Made.lift e0 fun Ye _ => ?_
    refine Made.alloc ?_
    refine Made.lift (e0.push _) fun _ _ => ?_
    refine Made.alloc ?_
    refine Made.lift ((e0.push _).push _) fun jnu _ => ?_
    refine Made.alloc (Made.alloc (Made.alloc (Made.alloc ?_)))
    have e1 := (((((e0.push ⟨[NE, NTYPE, NY, NT, NR], fun _ => Grid.none, junk 4⟩).push
      ⟨[NE, NTYPE, NY, NT, NR], fun _ => Grid.none, junk 5⟩).push
      (SpinerOpacity.setup5 (junk 0) NR NT NY NTYPE NE (log10 rho.1) (log10 rho.2) (log10 T.1) (log10 T.2) Ye.1 Ye.2
        (log10 e.1) (log10 e.2))).push
      ((SpinerOpacity.setup5 (junk 0) NR NT NY NTYPE NE (log10 rho.1) (log10 rho.2) (log10 T.1) (log10 T.2) Ye.1 Ye.2
        (log10 e.1) (log10 e.2)).copyMetadata (junk 1))).push
      (SpinerOpacity.setup4 (junk 2) NR NT NY NTYPE (log10 rho.1) (log10 rho.2) (log10 T.1) (log10 T.2) Ye.1 Ye.2)).push
      ((SpinerOpacity.setup4 (junk 2) NR NT NY NTYPE (log10 rho.1) (log10 rho.2) (log10 T.1) (log10 T.2) Ye.1 Ye.2
        ).copyMetadata (junk 3))
    refine Made.lift e1 fun s _ => ?_
    refine Made.lift e1 fun i _ => ?_
    revert e1
    generalize (SpinerOpacity.setup5 (junk 0) NR NT NY NTYPE NE (log10 rho.1) (log10 rho.2) (log10 T.1) (log10 T.2) Ye.1
      Ye.2 (log10 e.1) (log10 e.2)) = t5
    generalize (SpinerOpacity.setup4 (junk 2) NR NT NY NTYPE (log10 rho.1) (log10 rho.2) (log10 T.1) (log10 T.2) Ye.1
      Ye.2) = t4
    intro e1
    simp only [push_next]
    rw [write_bind s.1 (d := t5) (by cells), write_bind s.2 (d := t5.copyMetadata (junk 1)) (by cells),
      write_bind i.1 (d := t4) (by cells), write_bind i.2 (d := t4.copyMetadata (junk 3)) (by cells)]
    refine Made.done ((((e1.set _ (by omega) (by simp <;> omega)).set _ (by omega) (by simp <;> omega)).set _ (by omega)
      (by simp <;> omega)).set _ (by omega) (by simp <;> omega)) ?_ ?_ ?_ ?_
    · exact SpinerBox.view_ok (by cells) (by cells) (by cells) (by cells)
    · simp [SpinerBox.blocks, Box.blocks, Nat.add_assoc]
    · simp [SpinerBox.blocks, Box.blocks, Nat.add_assoc]
    · exact False.elim

/-! ### all constructors -/

theorem forLoopM_keeps {S : Type} {n : ℤ} {body : ℕ → S → Outcome S} {s t : S} (P : S → Prop) (h0 : P s)
    (hb : ∀ i a b, P a → body i a = .ok b → P b) (h : forLoopM n body s = .ok t) : P t := by
  unfold forLoopM at h
  generalize List.range n.toNat = l at h
  induction l generalizing s with
  | nil => simp only [List.foldlM_nil] at h; cases h; exact h0
  | cons i l ih =>
    rw [List.foldlM_cons] at h
    cases hi : body i s with
    | ok a => rw [hi] at h; exact ih (hb i s a h0 hi) h
    | abort e => rw [hi] at h; cases h
    | ub w => rw [hi] at h; cases h

theorem fill_keeps {dist : FermiDirac R} {pc : PC R} {junk : ℕ → ℕ → R} {opac : SpinerOpacity.Sampled R}
    {a b : R} {NRho : ℤ} {c d : R} {NT : ℤ} {e f : R} {NYe : ℤ} {g i : R} {Ne : ℤ} {o : SpinerOpacity R}
    (h : SpinerOpacity.fill dist pc junk opac a b NRho c d NT e f NYe g i Ne = .ok o) : o.dist = dist ∧ o.pc = pc := by
  unfold SpinerOpacity.fill at h
  refine forLoopM_keeps (fun o => o.dist = dist ∧ o.pc = pc) ⟨rfl, rfl⟩ (fun _ s1 s2 h1 h2 => ?_) h
  refine forLoopM_keeps (fun o => o.dist = dist ∧ o.pc = pc) h1 (fun _ s1 s2 h1 h2 => ?_) h2
  refine forLoopM_keeps (fun o => o.dist = dist ∧ o.pc = pc) h1 (fun _ s1 s2 h1 h2 => ?_) h2
  refine forLoopM_keeps (fun o => o.dist = dist ∧ o.pc = pc) h1 (fun _ s1 s2 h1 h2 => ?_) h2
  simp only [SpinerOpacity.fillIdx, Outcome.bind_eq_ok] at h2
  obtain ⟨_, -, _, -, _, -, _, -, _, -, h2⟩ := h2
  refine forLoopM_keeps (fun o => o.dist = dist ∧ o.pc = pc) ⟨h1.1, h1.2⟩ (fun _ s1 s2 h1 h2 => ?_) h2
  simp only [SpinerOpacity.fillE, Outcome.bind_eq_ok] at h2
  obtain ⟨_, -, _, -, _, -, _, -, h2⟩ := h2
  cases h2
  exact h1

/-- the call does not load a NuLib file -/
def Ctor.Clean : Ctor R → Prop
  | .spinerNuLib _ _ _ _ _ => False
  | _ => True

theorem view_photons {pc : PC R} {h : MGBox} {t : MGTables R} {m : Mem R} (hv : h.view m = (.ok t, m)) :
    (Obj.photons pc h).view m = (.ok (.photons ⟨pc, t⟩), m) := by
  simp only [Obj.view, bind_apply, hv, pure_apply]
theorem view_photonsS {pc : PC R} {h : MGBox} {t : MGTables R} {m : Mem R} (hv : h.view m = (.ok t, m)) :
    (Obj.photonsS pc h).view m = (.ok (.photonsS ⟨pc, t⟩), m) := by
  simp only [Obj.view, bind_apply, hv, pure_apply]
theorem view_neutrinos {pc : PC R} {h : MeanBox} {t : MeanTables R} {m : Mem R} (hv : h.view m = (.ok t, m)) :
    (Obj.neutrinos pc h).view m = (.ok (.neutrinos ⟨pc, t⟩), m) := by
  simp only [Obj.view, bind_apply, hv, pure_apply]
theorem view_neutrinosS {dist : FermiDirac R} {pc : PC R} {h : MeanBox} {t : MeanTables R} {m : Mem R}
    (hv : h.view m = (.ok t, m)) : (Obj.neutrinosS dist pc h).view m = (.ok (.neutrinosS ⟨dist, pc, t⟩), m) := by
  simp only [Obj.view, bind_apply, hv, pure_apply]
theorem view_spiner {dist : FermiDirac R} {pc : PC R} {h : SpinerBox} {o : SpinerOpacity R} {m : Mem R}
    (hv : h.view dist pc m = (.ok o, m)) : (Obj.spiner dist pc h).view m = (.ok (.spiner o), m) := by
  simp only [Obj.view, bind_apply, hv, pure_apply]

theorem map'_map' {α β γ : Type} (x : Outcome α) (f : α → β) (g : β → γ) : (x.map' f).map' g = x.map' (g ∘ f) := by
  cases x <;> rfl

theorem Ctor.made (c : Ctor R) {m : Mem R} (hm : Good m) : Made Obj.view Obj.blocks c.Clean m (c.run m) c.value := by
  cases c with
  | photons inst pc junk opac a b NRho cc d NT bounds ng NNu =>
    refine (congrArg _ (map'_map' _ _ _)).mpr ((MGBox.Impl_made hm pc junk (inst.AbsorptionCoefficient opac) a b NRho cc d NT
      bounds ng NNu).map (fun a v m' => view_photons) (fun _ => rfl))
  | photonsS inst pc junk opac a b NRho cc d NT bounds ng NNu =>
    refine (congrArg _ (map'_map' _ _ _)).mpr ((MGBox.Impl_made hm pc junk (inst.TotalScatteringCoefficient opac) a b NRho cc
      d NT bounds ng NNu).map (fun a v m' => view_photonsS) (fun _ => rfl))
  | photonsTables pc junk kP kR bounds =>
    exact (congrArg _ (map'_map' _ _ _)).mpr ((MGBox.LoadTables_made' hm junk kP kR bounds).map
      (fun a v m' => view_photons) (fun _ => rfl))
  | photonsSTables pc junk kP kR bounds =>
    exact (congrArg _ (map'_map' _ _ _)).mpr ((MGBox.LoadTables_made' hm junk kP kR bounds).map
      (fun a v m' => view_photonsS) (fun _ => rfl))
  | photonsFile pc junk ioFail f =>
    exact (congrArg _ (map'_map' _ _ _)).mpr ((MGBox.LoadFile_made hm _ junk ioFail f).map
      (fun a v m' => view_photons) (fun _ => rfl))
  | photonsSFile pc junk ioFail f =>
    exact (congrArg _ (map'_map' _ _ _)).mpr ((MGBox.LoadFile_made hm _ junk ioFail f).map
      (fun a v m' => view_photonsS) (fun _ => rfl))
  | neutrinos inst auto pc junk opac a b NRho cc d NT e f NYe n1 n2 NNu =>
    have hval : (Ctor.neutrinos inst auto pc junk opac a b NRho cc d NT e f NYe n1 n2 NNu).value =
        (MeanTables.loops NRho NT NYe (MeanTables.fillCell
          { coef := inst.AbsorptionCoefficient opac, B := inst.ThermalDistributionOfTNu opac,
            dBdT := inst.DThermalDistributionOfTNuDT opac }
          (if auto then MeanTables.autoWindow pc cc d else (n1, n2)).1
          (if auto then MeanTables.autoWindow pc cc d else (n1, n2)).2 NNu)
          (MeanTables.setup junk a b NRho cc d NT e f NYe)).map' fun t => Val.neutrinos ⟨pc, t⟩ := by
      simp only [Ctor.value, Neutrinos.MeanOpacityBase.Impl_, Bool.false_and, Bool.false_eq_true, if_false]
      generalize MeanTables.loops _ _ _ _ _ = x
      cases x <;> rfl
    rw [hval]
    exact (MeanBox.Impl_made hm _ _).map (fun a v m' => view_neutrinos) (fun _ => rfl)
  | neutrinosS inst auto dist pc junk s a b NRho cc d NT e f NYe n1 n2 NNu =>
    have hval : (Ctor.neutrinosS inst auto dist pc junk s a b NRho cc d NT e f NYe n1 n2 NNu).value =
        (MeanTables.loops NRho NT NYe (MeanTables.fillCellS
          { coef := fun rho T Ye type nu => .ok (inst.TotalScatteringCoefficient s rho T Ye type nu),
            B := fun T _ nu => dist.ThermalDistributionOfTNu T nu,
            dBdT := fun T _ nu => dist.DThermalDistributionOfTNuDT T nu }
          (if auto then MeanTables.autoWindow pc cc d else (n1, n2)).1
          (if auto then MeanTables.autoWindow pc cc d else (n1, n2)).2 NNu)
          (MeanTables.setup junk a b NRho cc d NT e f NYe)).map' fun t => Val.neutrinosS ⟨dist, pc, t⟩ := by
      simp only [Ctor.value, Neutrinos.MeanSOpacityBase.Impl_]
      generalize MeanTables.loops _ _ _ _ _ = x
      cases x <;> rfl
    rw [hval]
    exact (MeanBox.Impl_made hm _ _).map (fun a v m' => view_neutrinosS) (fun _ => rfl)
  | neutrinosFile pc ioFail f =>
    exact (congrArg _ (map'_map' _ _ _)).mpr ((MeanBox.LoadFile_made hm _ ioFail f).map
      (fun a v m' => view_neutrinos) (fun _ => rfl))
  | neutrinosSFile dist pc ioFail f =>
    exact (congrArg _ (map'_map' _ _ _)).mpr ((MeanBox.LoadFile_made hm _ ioFail f).map
      (fun a v m' => view_neutrinosS) (fun _ => rfl))
  | spinerFill dist pc junk opac a b NRho cc d NT e f NYe g i Ne =>
    exact (SpinerBox.fill_made hm _ _ _ _ _ fun o => fill_keeps).map (fun a v m' => view_spiner) (fun _ => rfl)
  | spinerSP5 dist pc ioFail f =>
    exact (SpinerBox.LoadFromSP5_made hm dist pc ioFail f).map (fun a v m' => view_spiner) (fun _ => rfl)
  | spinerNuLib kappa dist pc junk f =>
    exact (SpinerBox.LoadFromNuLib_made hm kappa dist pc junk f).map (fun a v m' => view_spiner) (fun _ => rfl)

end
end Opac.Memory
