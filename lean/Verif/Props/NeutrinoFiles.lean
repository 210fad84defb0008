import Verif.Lemmas.Hdf
import Verif.Lemmas.RealArith
import Verif.Model.SpinerOpac
import Verif.Model.MeanNeutrino

/-!
# C13, C49: neutrino tables in files

`CrashState` (in `Model/Hdf.lean`) says what may be on disk after a crash.  All statements hold bit for bit: they are
about any arithmetic `R`.
-/

namespace Opac.Neutrinos
open Arith Outcome Spiner Hdf

set_option linter.unusedSectionVars false

variable {R : Type} [Arith R]

/-! ## Tabulated opacities -/

namespace SpinerOpacity

/-- `o'` was loaded from a file to which `o` was saved without a failing call, whatever the file held before -/
def SavedThenLoaded (o o' : SpinerOpacity R) : Prop :=
  ∃ f f', o.Save (fun _ => false) f = (ok (), f') ∧ LoadFromSP5_ o.dist o.pc false f' = ok o'

/-- `n` save/load cycles lead from `o` to `o'` -/
inductive Cycles (o : SpinerOpacity R) : ℕ → SpinerOpacity R → Prop
  | zero : Cycles o 0 o
  | succ {n : ℕ} {o₁ o₂ : SpinerOpacity R} : Cycles o n o₁ → SavedThenLoaded o₁ o₂ → Cycles o (n + 1) o₂

/-- the datasets `Save` writes -/
def datasets (o : SpinerOpacity R) : List (String × DataBox R) :=
  [("absorption coefficient", o.lalphanu_), ("emissivity per nu", o.ljnu_), ("total emissivity", o.lJ_),
   ("number emissivity", o.lJYe_)]

theorem saveOps_eq (o : SpinerOpacity R) : o.SaveOps = saveList o.datasets := rfl

theorem datasets_nodup (o : SpinerOpacity R) : (o.datasets.map Prod.fst).Nodup := by
  simp [datasets]

/-- loading from any part of the datasets aborts or returns `o` -/
theorem load_part (o : SpinerOpacity R) {part : H5File R} (hs : part.Sublist o.datasets.reverse) (ioFail : Bool) :
    (LoadFromSP5_ o.dist o.pc ioFail (some part)).Aborts ∨ LoadFromSP5_ o.dist o.pc ioFail (some part) = ok o := by
  simp only [LoadFromSP5_]
  split
  · rename_i a j J N ha hj hJ hN
    split_ifs with hio
    · exact .inl ⟨_, rfl⟩
    · right
      rw [get_part o.datasets_nodup hs ha (c := o.lalphanu_) (by simp [datasets]),
        get_part o.datasets_nodup hs hj (c := o.ljnu_) (by simp [datasets]),
        get_part o.datasets_nodup hs hJ (c := o.lJ_) (by simp [datasets]),
        get_part o.datasets_nodup hs hN (c := o.lJYe_) (by simp [datasets])]
  · exact .inl ⟨_, rfl⟩

theorem load_complete (o : SpinerOpacity R) :
    LoadFromSP5_ o.dist o.pc false (some o.datasets.reverse) = ok o := by
  simp only [LoadFromSP5_]
  rw [get_complete o.datasets_nodup (c := o.lalphanu_) (by simp [datasets]),
    get_complete o.datasets_nodup (c := o.ljnu_) (by simp [datasets]),
    get_complete o.datasets_nodup (c := o.lJ_) (by simp [datasets]),
    get_complete o.datasets_nodup (c := o.lJYe_) (by simp [datasets])]
  rfl

/-- **C49 (one cycle)**: saving to any file without a failing call succeeds, and loading gives back the same object:
the same tables, bit for bit, hence the same answers. -/
theorem C49_cycle (o : SpinerOpacity R) (f : Option (H5File R)) :
    ∃ f', o.Save (fun _ => false) f = (ok (), f') ∧ LoadFromSP5_ o.dist o.pc false f' = ok o := by
  refine ⟨some o.datasets.reverse, ?_, o.load_complete⟩
  unfold Save
  rw [saveOps_eq, (runSave_saveList o.datasets (fun _ => false) f).2 (fun _ _ => rfl)]
  rfl

/-- **C49**: any number of save/load cycles, through files with any previous contents, gives back the same object -/
theorem C49 (o : SpinerOpacity R) {n : ℕ} {o' : SpinerOpacity R} (h : Cycles o n o') : o' = o := by
  induction h with
  | zero => rfl
  | succ _ hs ih =>
    subst ih
    obtain ⟨f, f', h1, h2⟩ := hs
    obtain ⟨g, h3, h4⟩ := C49_cycle _ f
    rw [h3] at h1
    cases h1
    rw [h4] at h2
    cases h2
    rfl

/-- **C13 (tabulated neutrino opacities, crash)**: a process dies at any point while saving `o` over a file with any
previous contents.  Then loading the file aborts, or the file still holds exactly its previous contents, or loading
returns exactly `o`. -/
theorem C13_spiner_crash (o : SpinerOpacity R) {before after : Option (H5File R)}
    (hc : CrashState o.SaveOps before after) (ioFail : Bool) :
    (LoadFromSP5_ o.dist o.pc ioFail after).Aborts ∨ after = before ∨
      LoadFromSP5_ o.dist o.pc ioFail after = ok o := by
  rcases crash_saveList (l := o.datasets) hc with rfl | rfl | ⟨part, rfl, hs⟩
  · exact .inr (.inl rfl)
  · exact .inl ⟨_, rfl⟩
  · rcases o.load_part hs ioFail with h | h
    · exact .inl h
    · exact .inr (.inr h)

/-- **C13 (tabulated neutrino opacities, no mixing)**: with the previous contents those of a complete save of `o₀`,
loading after the crash aborts or returns exactly `o₀` or exactly `o`. -/
theorem C13_spiner_no_mixing (o o₀ : SpinerOpacity R) (hd : o.dist = o₀.dist) (hp : o.pc = o₀.pc)
    {first before after : Option (H5File R)} (h₀ : o₀.Save (fun _ => false) first = (ok (), before))
    (hc : CrashState o.SaveOps before after) (ioFail : Bool) :
    (LoadFromSP5_ o.dist o.pc ioFail after).Aborts ∨ LoadFromSP5_ o.dist o.pc ioFail after = ok o₀ ∨
      LoadFromSP5_ o.dist o.pc ioFail after = ok o := by
  rcases C13_spiner_crash o hc ioFail with h | rfl | h
  · exact .inl h
  · obtain ⟨g, h1, h2⟩ := C49_cycle o₀ first
    rw [h1] at h₀
    cases h₀
    cases ioFail with
    | false => rw [hd, hp]; exact .inr (.inl h2)
    | true =>
      left
      unfold LoadFromSP5_
      split
      · exact ⟨_, rfl⟩
      · split <;> exact ⟨_, rfl⟩
  · exact .inr (.inr h)

/-- **C13 (tabulated neutrino opacities, reported failures)**: whichever HDF5 calls fail, `Save` aborts, or none of its
six calls failed and the file can be loaded back to `o`. -/
theorem C13_spiner_failures (o : SpinerOpacity R) (fails : ℕ → Bool) (before : Option (H5File R)) :
    (o.Save fails before).1.Aborts ∨
      ((∀ i < 6, fails i = false) ∧ (o.Save fails before).1 = ok () ∧
        LoadFromSP5_ o.dist o.pc false (o.Save fails before).2 = ok o) := by
  obtain ⟨h1, h2⟩ := runSave_saveList o.datasets fails before
  by_cases hf : ∀ i < 6, fails i = false
  · right
    have h3 := h2 hf
    unfold Save
    simp only [saveOps_eq, h3]
    exact ⟨hf, rfl, o.load_complete⟩
  · left
    unfold Save
    simp only
    split
    · exact ⟨_, rfl⟩
    · rename_i h
      exact absurd (h1 (not_not.1 h)) hf

/-- a concrete crash: the old file is intact when the process dies before the file is recreated; and it is a part of
the new one afterwards (here without the last dataset, so that loading aborts) -/
example (o : SpinerOpacity R) (before : Option (H5File R)) :
    CrashState o.SaveOps before before ∧
    ∃ part, CrashState o.SaveOps before (some part) ∧ (LoadFromSP5_ o.dist o.pc false (some part)).Aborts := by
  refine ⟨⟨0, by simp, .inl (by simp)⟩, ?_⟩
  refine ⟨[("total emissivity", o.lJ_), ("emissivity per nu", o.ljnu_), ("absorption coefficient", o.lalphanu_)],
    ⟨4, by simp [SaveOps], .inr ⟨by simp [SaveOps], .inr ⟨_, _, rfl, List.Sublist.refl _, rfl⟩⟩⟩, ?_⟩
  simp [LoadFromSP5_, H5File.get, Outcome.Aborts]

/-- two cycles through the same file -/
example (o : SpinerOpacity R) : Cycles o 2 o := by
  have h : SavedThenLoaded o o := by
    obtain ⟨f', h1, h2⟩ := C49_cycle o none
    exact ⟨none, f', h1, h2⟩
  exact .succ (.succ .zero h) h

end SpinerOpacity

/-! ## Mean opacities -/

namespace MeanTables

/-- `t'` was loaded from a file to which `t` was saved without a failing call, whatever the file held before -/
def SavedThenLoaded (nm : Names) (t t' : MeanTables R) : Prop :=
  ∃ f f', t.Save nm (fun _ => false) f = (ok (), f') ∧ LoadFile nm false f' = ok t'

/-- `n` save/load cycles lead from `t` to `t'` -/
inductive Cycles (nm : Names) (t : MeanTables R) : ℕ → MeanTables R → Prop
  | zero : Cycles nm t 0 t
  | succ {n : ℕ} {t₁ t₂ : MeanTables R} : Cycles nm t n t₁ → SavedThenLoaded nm t₁ t₂ → Cycles nm t (n + 1) t₂

/-- the dataset names of absorption and of scattering means -/
def FileNames (nm : Names) : Prop := nm = opacNames ∨ nm = sopacNames

/-- the datasets `Save` writes -/
def datasets (nm : Names) (t : MeanTables R) : List (String × DataBox R) :=
  [(nm.planck, t.lPlanck), (nm.rosseland, t.lRosseland)]

theorem saveOps_eq (nm : Names) (t : MeanTables R) : t.SaveOps nm = saveList (t.datasets nm) := rfl

theorem datasets_nodup {nm : Names} (hnm : FileNames nm) (t : MeanTables R) :
    ((t.datasets nm).map Prod.fst).Nodup := by
  rcases hnm with rfl | rfl <;> simp [datasets, opacNames, sopacNames]

theorem load_part {nm : Names} (hnm : FileNames nm) (t : MeanTables R) {part : H5File R}
    (hs : part.Sublist (t.datasets nm).reverse) (ioFail : Bool) :
    (LoadFile nm ioFail (some part)).Aborts ∨ LoadFile nm ioFail (some part) = ok t := by
  simp only [LoadFile]
  split
  · rename_i a j ha hj
    split_ifs with hio
    · exact .inl ⟨_, rfl⟩
    · right
      rw [get_part (datasets_nodup hnm t) hs ha (c := t.lPlanck) (by simp [datasets]),
        get_part (datasets_nodup hnm t) hs hj (c := t.lRosseland) (by simp [datasets])]
  · exact .inl ⟨_, rfl⟩

theorem load_complete {nm : Names} (hnm : FileNames nm) (t : MeanTables R) :
    LoadFile nm false (some (t.datasets nm).reverse) = ok t := by
  simp only [LoadFile]
  rw [get_complete (datasets_nodup hnm t) (c := t.lPlanck) (by simp [datasets]),
    get_complete (datasets_nodup hnm t) (c := t.lRosseland) (by simp [datasets])]
  rfl

theorem save_complete (nm : Names) (t : MeanTables R) (f : Option (H5File R)) :
    t.Save nm (fun _ => false) f = (ok (), some (t.datasets nm).reverse) := by
  unfold Save
  rw [saveOps_eq, (runSave_saveList (t.datasets nm) (fun _ => false) f).2 (fun _ _ => rfl)]
  rfl

/-- **C49 (neutrino means)**: any number of save/load cycles, through files with any previous contents, gives back the
same tables -/
theorem C49_means {nm : Names} (hnm : FileNames nm) (t : MeanTables R) {n : ℕ} {t' : MeanTables R}
    (h : Cycles nm t n t') : t' = t := by
  induction h with
  | zero => rfl
  | succ _ hs ih =>
    subst ih
    obtain ⟨f, f', h1, h2⟩ := hs
    rw [save_complete] at h1
    cases h1
    rw [load_complete hnm] at h2
    cases h2
    rfl

/-- **C13 (neutrino means, crash)**: a process dies at any point while saving `t` over a file with any previous
contents.  Then loading the file aborts, or the file still holds exactly its previous contents, or loading returns
exactly `t`. -/
theorem C13_means_crash {nm : Names} (hnm : FileNames nm) (t : MeanTables R) {before after : Option (H5File R)}
    (hc : CrashState (t.SaveOps nm) before after) (ioFail : Bool) :
    (LoadFile nm ioFail after : Outcome (MeanTables R)).Aborts ∨ after = before ∨
      LoadFile nm ioFail after = ok t := by
  rcases crash_saveList (l := t.datasets nm) hc with rfl | rfl | ⟨part, rfl, hs⟩
  · exact .inr (.inl rfl)
  · exact .inl ⟨_, rfl⟩
  · rcases load_part hnm t hs ioFail with h | h
    · exact .inl h
    · exact .inr (.inr h)

/-- **C13 (neutrino means, no mixing)**: with the previous contents those of a complete save of `t₀`, loading after the
crash aborts or returns exactly `t₀` or exactly `t`. -/
theorem C13_means_no_mixing {nm : Names} (hnm : FileNames nm) (t t₀ : MeanTables R)
    {first before after : Option (H5File R)} (h₀ : t₀.Save nm (fun _ => false) first = (ok (), before))
    (hc : CrashState (t.SaveOps nm) before after) (ioFail : Bool) :
    (LoadFile nm ioFail after : Outcome (MeanTables R)).Aborts ∨ LoadFile nm ioFail after = ok t₀ ∨
      LoadFile nm ioFail after = ok t := by
  rcases C13_means_crash hnm t hc ioFail with h | rfl | h
  · exact .inl h
  · rw [save_complete] at h₀
    cases h₀
    cases ioFail with
    | false => exact .inr (.inl (load_complete hnm t₀))
    | true =>
      left
      simp only [LoadFile]
      split <;> exact ⟨_, rfl⟩
  · exact .inr (.inr h)

/-- **C13 (neutrino means, reported failures)**: whichever HDF5 calls fail, `Save` aborts, or none of its four calls
failed and the file can be loaded back to `t`. -/
theorem C13_means_failures {nm : Names} (hnm : FileNames nm) (t : MeanTables R) (fails : ℕ → Bool)
    (before : Option (H5File R)) :
    (t.Save nm fails before).1.Aborts ∨
      ((∀ i < 4, fails i = false) ∧ (t.Save nm fails before).1 = ok () ∧
        LoadFile nm false (t.Save nm fails before).2 = ok t) := by
  obtain ⟨h1, h2⟩ := runSave_saveList (t.datasets nm) fails before
  by_cases hf : ∀ i < 4, fails i = false
  · right
    have h3 := h2 hf
    unfold Save
    simp only [saveOps_eq, h3]
    exact ⟨hf, rfl, load_complete hnm t⟩
  · left
    unfold Save
    simp only
    split
    · exact ⟨_, rfl⟩
    · rename_i h
      exact absurd (h1 (not_not.1 h)) hf

/-- a scattering table saved over an absorption table, with a crash in between: loading it as absorption aborts -/
example (t : MeanTables R) (before : Option (H5File R)) :
    ∃ part, CrashState (t.SaveOps sopacNames) before (some part) ∧
      (LoadFile opacNames false (some part) : Outcome (MeanTables R)).Aborts := by
  refine ⟨[(sopacNames.planck, t.lPlanck)], ⟨2, by simp [SaveOps], .inr ⟨by simp [SaveOps],
    .inr ⟨_, _, rfl, List.Sublist.refl _, rfl⟩⟩⟩, ?_⟩
  simp [LoadFile, H5File.get, Outcome.Aborts, opacNames, sopacNames]

end MeanTables
end Opac.Neutrinos
