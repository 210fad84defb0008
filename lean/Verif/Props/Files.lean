import Verif.Props.MeanObjects
import Verif.Props.NeutrinoFiles
import Verif.Model.MeanNeutrino

/-!
# C60: what a file can be loaded as, after any history of saves

The library has five classes of objects with files: photon mean (multigroup) absorption and scattering opacities,
neutrino mean absorption and scattering opacities, and tabulated neutrino opacities.  A disk holds any number of files.
Objects of any of the classes are saved to it in any order, under any names; HDF5 calls fail, and processes die while
saving.  Then a file is opened as an object of any of the classes.
-/

namespace Opac.Files
open Arith Outcome Spec Spiner Hdf

set_option linter.unusedSectionVars false

variable {R : Type} [Arith R]

/-- an object that can be saved -/
inductive Stored (R : Type) where
  | photonMean (o : Photons.MeanObject R)
  | neutrinoMean (o : Neutrinos.MeanOpacityBase R)
  | neutrinoMeanS (o : Neutrinos.MeanSOpacityBase R)
  | neutrinoTable (o : Neutrinos.SpinerOpacity R)

/-- the five classes -/
inductive FileClass where
  | photonAbsorption | photonScattering | neutrinoAbsorption | neutrinoScattering | neutrinoTable

def Stored.class : Stored R → FileClass
  | photonMean (.absorption _) => .photonAbsorption
  | photonMean (.scattering _) => .photonScattering
  | neutrinoMean _ => .neutrinoAbsorption
  | neutrinoMeanS _ => .neutrinoScattering
  | neutrinoTable _ => .neutrinoTable

/-- the object came out of a constructor (matters only where saving copies group bounds) -/
def Stored.Valid : Stored R → Prop
  | photonMean o => (∃ b, Photons.ConstructedMean o b) ∧ Photons.PlainRanges o
  | _ => True

/-- the HDF5 calls of `Save(filename)` in order.  `junk`: contents of fresh memory. -/
def Stored.calls (junk : ℕ → R) : Stored R → Outcome (List (Op R))
  | photonMean o => o.SaveOps junk
  | neutrinoMean o => ok (o.t.SaveOps Neutrinos.MeanTables.opacNames)
  | neutrinoMeanS o => ok (o.t.SaveOps Neutrinos.MeanTables.sopacNames)
  | neutrinoTable o => ok o.SaveOps

/-- `Save(filename)`, if none of its calls fails, leaves the file `f` (whatever was in it) -/
def Stored.SavesAs (x : Stored R) (f : Option (H5File R)) : Prop :=
  match x with
  | photonMean o => ∃ junk, ∀ f₀, o.Save junk (fun _ => false) f₀ = ok f
  | neutrinoMean o => ∀ f₀, Neutrinos.MeanNeutrinoAPI.Save o (fun _ => false) f₀ = (ok (), f)
  | neutrinoMeanS o => ∀ f₀, o.Save (fun _ => false) f₀ = (ok (), f)
  | neutrinoTable o => ∀ f₀, o.Save (fun _ => false) f₀ = (ok (), f)

/-- the constructor from a file name, for each class; `pc` and `dist` come from the template arguments -/
def load (pc : PC R) (dist : Neutrinos.FermiDirac R) (junk : ℕ → R) (ioFail : Bool) (f : Option (H5File R)) :
    FileClass → Outcome (Stored R)
  | .photonAbsorption => (Photons.MeanOpacityBase.ofFile pc junk ioFail f).map' fun o => .photonMean (.absorption o)
  | .photonScattering => (Photons.MeanSOpacityBase.ofFile pc junk ioFail f).map' fun o => .photonMean (.scattering o)
  | .neutrinoAbsorption => (Neutrinos.MeanOpacityBase.ofFile pc ioFail f).map' .neutrinoMean
  | .neutrinoScattering => (Neutrinos.MeanSOpacityBase.ofFile dist pc ioFail f).map' .neutrinoMeanS
  | .neutrinoTable => (Neutrinos.SpinerOpacity.LoadFromSP5_ dist pc ioFail f).map' .neutrinoTable

/-- an attempt to save -/
structure Attempt (R : Type) where
  /-- file name -/
  name : String
  object : Stored R
  /-- `Save` returned (did not die, and reported no error) -/
  returned : Bool

/-- contents of the files after attempts to save, the latest attempt first -/
inductive After : List (Attempt R) → Disk R → Prop
  | nothing : After [] (fun _ => none)
  /-- `Save` ran to its end, with some of its HDF5 calls failing or none -/
  | ran {log : List (Attempt R)} {d : Disk R} {x : Stored R} {junk : ℕ → R} {ops : List (Op R)} (name : String)
      (fails : ℕ → Bool) : After log d → x.Valid → x.calls junk = ok ops →
      After (⟨name, x, (runSave ops fails 0 false (d name)).1 = 0⟩ :: log)
        (Function.update d name (runSave ops fails 0 false (d name)).2)
  /-- the process died in `Save` -/
  | died {log : List (Attempt R)} {d : Disk R} {x : Stored R} {junk : ℕ → R} {ops : List (Op R)} (name : String)
      {after : Option (H5File R)} : After log d → x.Valid → x.calls junk = ok ops → CrashState ops (d name) after →
      After (⟨name, x, false⟩ :: log) (Function.update d name after)

/-! ## Helpers -/

/-- the datasets of an object -/
def Stored.sets (junk : ℕ → R) : Stored R → List (String × DataBox R)
  | photonMean o =>
      [(o.names.planck, o.table.lPlanck.mapData Photons.FromLog o.table.lPlanck.size junk),
       (o.names.rosseland, o.table.lRosseland.mapData Photons.FromLog o.table.lPlanck.size junk),
       (o.names.bounds, DataBox.ofList o.table.groupBounds (lit 0))]
  | neutrinoMean o => o.t.datasets Neutrinos.MeanTables.opacNames
  | neutrinoMeanS o => o.t.datasets Neutrinos.MeanTables.sopacNames
  | neutrinoTable o => o.datasets

theorem sets_nodup (junk : ℕ → R) (x : Stored R) : ((x.sets junk).map Prod.fst).Nodup := by
  cases x with
  | photonMean o =>
    cases o <;> simp [Stored.sets, Photons.MeanObject.names, Photons.MGTables.opacNames, Photons.MGTables.sopacNames]
  | neutrinoMean o => exact Neutrinos.MeanTables.datasets_nodup (.inl rfl) _
  | neutrinoMeanS o => exact Neutrinos.MeanTables.datasets_nodup (.inr rfl) _
  | neutrinoTable o => exact o.datasets_nodup

variable [LawfulCmp R]

theorem export_ok {o : Photons.MeanObject R} {b : List R} (h : Photons.ConstructedMean o b) :
    Photons.ExportGroupBounds o.table.groupBounds o.table.ngroups = ok o.table.groupBounds := by
  have hw := h.built.wf
  have := Photons.copyBounds_ok o.table.groupBounds o.table.ngroups (by rw [hw.length]; omega)
  rwa [List.take_of_length_le (by rw [hw.length])] at this

theorem calls_eq {junk : ℕ → R} {x : Stored R} (hx : x.Valid) : x.calls junk = ok (saveList (x.sets junk)) := by
  cases x with
  | photonMean o =>
    obtain ⟨⟨b, hb⟩, hr⟩ := hx
    have hg := export_ok hb
    have e : (Stored.photonMean o).calls junk = o.table.SaveOps o.names junk := by cases o <;> rfl
    rw [e]
    unfold Photons.MGTables.SaveOps
    simp only [hg, ok_bind, pure_def, Photons.MGTables.ExportTables_]
    rfl
  | neutrinoMean o => rfl
  | neutrinoMeanS o => rfl
  | neutrinoTable o => rfl

/-- a file left by a `Save`, whichever calls failed -/
theorem runSave_part (l : List (String × DataBox R)) (fails : ℕ → Bool) (before : Option (H5File R)) :
    (runSave (saveList l) fails 0 false before).2 = before ∨
      ∃ part : H5File R, (runSave (saveList l) fails 0 false before).2 = some part ∧ part.Sublist l.reverse := by
  have key : ∀ (l : List (String × DataBox R)) (i : ℕ) (f : H5File R), ∃ part : H5File R,
      (runSave (l.map (fun e => Op.save e.1 e.2) ++ [.close]) fails i true (some f)).2 = some (part ++ f) ∧
        part.Sublist l.reverse := by
    intro l
    induction l with
    | nil =>
      intro i f
      refine ⟨[], ?_, List.nil_sublist _⟩
      cases hi : fails i <;> simp [runSave, hi]
    | cons e l ih =>
      intro i f
      rw [List.map_cons, List.cons_append]
      cases hi : fails i with
      | true =>
        obtain ⟨p, h1, h2⟩ := ih (i + 1) f
        refine ⟨p, ?_, ?_⟩
        · simp only [runSave, hi, Bool.true_or, if_true, h1]
        · rw [List.reverse_cons]
          exact h2.trans (List.sublist_append_left _ _)
      | false =>
        obtain ⟨p, h1, h2⟩ := ih (i + 1) (e :: f)
        refine ⟨p ++ [e], ?_, ?_⟩
        · simp only [runSave, hi, Bool.not_true, Bool.or_self, Bool.false_eq_true, if_false, Op.exec, h1]
          simp
        · rw [List.reverse_cons]
          exact List.Sublist.append h2 (List.Sublist.refl _)
  unfold saveList
  cases h0 : fails 0 with
  | true =>
    left
    have inv : ∀ (l : List (String × DataBox R)) (i : ℕ),
        (runSave (l.map (fun e => Op.save e.1 e.2) ++ [.close]) fails i false before).2 = before := by
      intro l
      induction l with
      | nil => intro i; simp [runSave]
      | cons e l ih => intro i; simp [runSave, ih]
    simp only [runSave, h0, if_true, inv]
  | false =>
    right
    obtain ⟨p, h1, h2⟩ := key l 1 []
    refine ⟨p, ?_, h2⟩
    simp only [runSave, h0, Bool.false_eq_true, if_false, Op.exec]
    rw [h1, List.append_nil]

/-- every file is a part of what one object saves: an object after which no `Save` to the file returned -/
theorem contents {log : List (Attempt R)} {d : Disk R} (h : After log d) (name : String) :
    d name = none ∨ ∃ pre a post junk part, log = pre ++ a :: post ∧ a.name = name ∧ a.object.Valid ∧
      (∀ a' ∈ pre, a'.name = name → a'.returned = false) ∧ d name = some part ∧
      part.Sublist (a.object.sets junk).reverse := by
  induction h with
  | nothing => exact .inl rfl
  | @ran log d x junk ops n fails _ hx hc ih =>
    rw [calls_eq hx] at hc
    cases hc
    by_cases hn : name = n
    · subst hn
      simp only [Function.update_self]
      rcases runSave_part (x.sets junk) fails (d name) with he | ⟨part, he, hs⟩
      · rw [he]
        by_cases hret : (runSave (saveList (x.sets junk)) fails 0 false (d name)).1 = 0
        · right
          have h2 := (runSave_saveList (x.sets junk) fails (d name)).2
            ((runSave_saveList (x.sets junk) fails (d name)).1 hret)
          rw [h2] at he
          exact ⟨[], _, log, junk, _, rfl, rfl, hx, by simp, he.symm, List.Sublist.refl _⟩
        · rcases ih with ih | ⟨pre, a, post, j, part, rfl, h2, h3, h4, h5, h6⟩
          · exact .inl ih
          · right
            refine ⟨_ :: pre, a, post, j, part, rfl, h2, h3, ?_, h5, h6⟩
            intro a' ha' hn
            rcases List.mem_cons.1 ha' with rfl | ha'
            · simpa using hret
            · exact h4 a' ha' hn
      · exact .inr ⟨[], _, log, junk, part, rfl, rfl, hx, by simp, he, hs⟩
    · rw [Function.update_of_ne hn]
      rcases ih with ih | ⟨pre, a, post, j, part, rfl, h2, h3, h4, h5, h6⟩
      · exact .inl ih
      · right
        refine ⟨_ :: pre, a, post, j, part, rfl, h2, h3, ?_, h5, h6⟩
        intro a' ha' hn'
        rcases List.mem_cons.1 ha' with rfl | ha'
        · exact absurd hn'.symm hn
        · exact h4 a' ha' hn'
  | @died log d x junk ops n after _ hx hc hcr ih =>
    rw [calls_eq hx] at hc
    cases hc
    have older : ∀ after, d name = after → (after = none ∨ ∃ pre a post junk part, (⟨n, x, false⟩ :: log : List (Attempt R)) =
        pre ++ a :: post ∧ a.name = name ∧ a.object.Valid ∧ (∀ a' ∈ pre, a'.name = name → a'.returned = false) ∧
        after = some part ∧ part.Sublist (a.object.sets junk).reverse) := by
      rintro _ rfl
      rcases ih with ih | ⟨pre, a, post, j, part, rfl, h2, h3, h4, h5, h6⟩
      · exact .inl ih
      · right
        refine ⟨_ :: pre, a, post, j, part, rfl, h2, h3, ?_, h5, h6⟩
        intro a' ha' hn'
        rcases List.mem_cons.1 ha' with rfl | ha'
        · rfl
        · exact h4 a' ha' hn'
    by_cases hn : name = n
    · subst hn
      simp only [Function.update_self]
      rcases crash_saveList hcr with rfl | rfl | ⟨part, rfl, hs⟩
      · exact older _ rfl
      · exact .inl rfl
      · exact .inr ⟨[], _, log, junk, part, rfl, rfl, hx, by simp, rfl, hs⟩
    · rw [Function.update_of_ne hn]
      exact older _ rfl

/-- the complete file -/
theorem savesAs {x : Stored R} (hx : x.Valid) (junk : ℕ → R) : x.SavesAs (some (x.sets junk).reverse) := by
  cases x with
  | photonMean o =>
    obtain ⟨⟨b, hb⟩, hr⟩ := hx
    refine ⟨junk, fun f₀ => ?_⟩
    rw [Photons.MeanObject.Save_eq, Photons.Save_ok hb.built.wf]
    rfl
  | neutrinoMean o => exact fun f₀ => Neutrinos.MeanTables.save_complete _ _ _
  | neutrinoMeanS o => exact fun f₀ => Neutrinos.MeanTables.save_complete _ _ _
  | neutrinoTable o =>
    intro f₀
    unfold Neutrinos.SpinerOpacity.Save
    rw [o.saveOps_eq, (runSave_saveList o.datasets (fun _ => false) f₀).2 (fun _ _ => rfl)]
    rfl

/-- loading a part of an object's datasets as an object of its class: aborts, or is loading all of them -/
theorem load_own {x : Stored R} {junk : ℕ → R} {part : H5File R} (hs : part.Sublist (x.sets junk).reverse)
    (pc : PC R) (dist : Neutrinos.FermiDirac R) (junk' : ℕ → R) (ioFail : Bool) :
    (load pc dist junk' ioFail (some part) x.class).Aborts ∨
      load pc dist junk' ioFail (some part) x.class = load pc dist junk' false (some (x.sets junk).reverse) x.class := by
  have hn := sets_nodup junk x
  cases x with
  | photonMean o =>
    have key : (Photons.MGTables.LoadFile o.names junk' ioFail (some part)).Aborts ∨
        Photons.MGTables.LoadFile o.names junk' ioFail (some part) =
          Photons.MGTables.LoadFile o.names junk' false (some ((Stored.photonMean o).sets junk).reverse) := by
      simp only [Photons.MGTables.LoadFile]
      split
      · rename_i a j k ha hj hk
        cases ioFail with
        | true => exact .inl ⟨_, rfl⟩
        | false =>
          right
          rw [get_part hn hs ha (c := o.table.lPlanck.mapData Photons.FromLog o.table.lPlanck.size junk) (by simp [Stored.sets]),
            get_part hn hs hj (c := o.table.lRosseland.mapData Photons.FromLog o.table.lPlanck.size junk) (by simp [Stored.sets]),
            get_part hn hs hk (c := DataBox.ofList o.table.groupBounds (lit 0)) (by simp [Stored.sets]),
            get_complete hn (c := o.table.lPlanck.mapData Photons.FromLog o.table.lPlanck.size junk) (by simp [Stored.sets]),
            get_complete hn (c := o.table.lRosseland.mapData Photons.FromLog o.table.lPlanck.size junk) (by simp [Stored.sets]),
            get_complete hn (c := DataBox.ofList o.table.groupBounds (lit 0)) (by simp [Stored.sets])]
      · exact .inl ⟨_, rfl⟩
    rcases key with ⟨m, h⟩ | h
    · left
      cases o <;> simp only [Photons.MeanObject.names] at h <;>
        exact ⟨m, by simp only [load, Stored.class, Photons.MeanOpacityBase.ofFile, Photons.MeanSOpacityBase.ofFile, h]; rfl⟩
    · right
      cases o <;> simp only [Photons.MeanObject.names] at h <;>
        simp only [load, Stored.class, Photons.MeanOpacityBase.ofFile, Photons.MeanSOpacityBase.ofFile, h]
  | neutrinoMean o =>
    rcases Neutrinos.MeanTables.load_part (.inl rfl) o.t hs ioFail with ⟨m, h⟩ | h
    · exact .inl ⟨m, by simp only [load, Stored.class, Neutrinos.MeanOpacityBase.ofFile, h]; rfl⟩
    · right
      simp only [load, Stored.class, Neutrinos.MeanOpacityBase.ofFile, h, Stored.sets,
        Neutrinos.MeanTables.load_complete (.inl rfl)]
  | neutrinoMeanS o =>
    rcases Neutrinos.MeanTables.load_part (.inr rfl) o.t hs ioFail with ⟨m, h⟩ | h
    · exact .inl ⟨m, by simp only [load, Stored.class, Neutrinos.MeanSOpacityBase.ofFile, h]; rfl⟩
    · right
      simp only [load, Stored.class, Neutrinos.MeanSOpacityBase.ofFile, h, Stored.sets,
        Neutrinos.MeanTables.load_complete (.inr rfl)]
  | neutrinoTable o =>
    let o' : Neutrinos.SpinerOpacity R := { o with pc := pc, dist := dist }
    rcases o'.load_part (part := part) hs ioFail with ⟨m, h⟩ | h
    · exact .inl ⟨m, by simp only [load, Stored.class]; rw [show Neutrinos.SpinerOpacity.LoadFromSP5_ dist pc ioFail _ = _ from h]; rfl⟩
    · right
      simp only [load, Stored.class]
      rw [show Neutrinos.SpinerOpacity.LoadFromSP5_ dist pc ioFail _ = _ from h,
        show Neutrinos.SpinerOpacity.LoadFromSP5_ dist pc false (some ((Stored.neutrinoTable o).sets junk).reverse) = _
          from o'.load_complete]

theorem load_complete {x : Stored R} (hx : x.Valid) (pc : PC R) (dist : Neutrinos.FermiDirac R) (junk junk' : ℕ → R) :
    ∃ y, load pc dist junk' false (some (x.sets junk).reverse) x.class = ok y ∧ y.class = x.class := by
  cases x with
  | photonMean o =>
    obtain ⟨⟨b, hb⟩, hr⟩ := hx
    have h := Photons.Load_saved (Photons.MeanObject.names_ok o) hb.built.wf hr junk junk'
    have e : ∀ t, Photons.MGTables.LoadFile o.names junk' false (some ((Stored.photonMean o).sets junk).reverse) = ok t →
        ∃ y, load pc dist junk' false (some ((Stored.photonMean o).sets junk).reverse) (Stored.photonMean o).class = ok y ∧
          y.class = (Stored.photonMean o).class := by
      intro t ht
      cases o <;> simp only [Photons.MeanObject.names] at ht
      · exact ⟨.photonMean (.absorption ⟨pc, t⟩),
          by simp only [load, Stored.class, Photons.MeanOpacityBase.ofFile, ht, map'_ok], rfl⟩
      · exact ⟨.photonMean (.scattering ⟨pc, t⟩),
          by simp only [load, Stored.class, Photons.MeanSOpacityBase.ofFile, ht, map'_ok], rfl⟩
    exact e _ h
  | neutrinoMean o =>
    exact ⟨.neutrinoMean ⟨pc, o.t⟩, by simp only [load, Stored.class, Neutrinos.MeanOpacityBase.ofFile, Stored.sets,
        Neutrinos.MeanTables.load_complete (.inl rfl), map'_ok], rfl⟩
  | neutrinoMeanS o =>
    exact ⟨.neutrinoMeanS ⟨dist, pc, o.t⟩, by simp only [load, Stored.class, Neutrinos.MeanSOpacityBase.ofFile, Stored.sets,
        Neutrinos.MeanTables.load_complete (.inr rfl), map'_ok], rfl⟩
  | neutrinoTable o =>
    let o' : Neutrinos.SpinerOpacity R := { o with pc := pc, dist := dist }
    refine ⟨.neutrinoTable o', ?_, rfl⟩
    simp only [load, Stored.class]
    rw [show Neutrinos.SpinerOpacity.LoadFromSP5_ dist pc false (some ((Stored.neutrinoTable o).sets junk).reverse) = _
          from o'.load_complete]
    rfl

/-- the first dataset that the constructor from a file reads -/
def key : FileClass → String
  | .photonAbsorption => "Planck group opacity"
  | .photonScattering => "Planck group scattering opacity"
  | .neutrinoAbsorption => "Planck mean opacity"
  | .neutrinoScattering => "Planck mean scattering opacity"
  | .neutrinoTable => "absorption coefficient"

theorem load_absent {part : H5File R} {c : FileClass} (h : H5File.get part (key c) = none) (pc : PC R)
    (dist : Neutrinos.FermiDirac R) (junk : ℕ → R) (ioFail : Bool) : (load pc dist junk ioFail (some part) c).Aborts := by
  cases c <;> simp only [key] at h
  · exact ⟨"HDF5 error", by simp only [load, Photons.MeanOpacityBase.ofFile, Photons.MGTables.LoadFile,
      Photons.MGTables.opacNames, h]; rfl⟩
  · exact ⟨"HDF5 error", by simp only [load, Photons.MeanSOpacityBase.ofFile, Photons.MGTables.LoadFile,
      Photons.MGTables.sopacNames, h]; rfl⟩
  · exact ⟨"HDF5 error", by simp only [load, Neutrinos.MeanOpacityBase.ofFile, Neutrinos.MeanTables.LoadFile,
      Neutrinos.MeanTables.opacNames, h]; rfl⟩
  · exact ⟨"HDF5 error", by simp only [load, Neutrinos.MeanSOpacityBase.ofFile, Neutrinos.MeanTables.LoadFile,
      Neutrinos.MeanTables.sopacNames, h]; rfl⟩
  · exact ⟨_, by simp only [load, Neutrinos.SpinerOpacity.LoadFromSP5_, h]; rfl⟩

/-- loading a part of an object's datasets as an object of another class aborts -/
theorem load_other {x : Stored R} {junk : ℕ → R} {part : H5File R} (hs : part.Sublist (x.sets junk).reverse)
    (pc : PC R) (dist : Neutrinos.FermiDirac R) (junk' : ℕ → R) (ioFail : Bool) {c : FileClass} (hc : c ≠ x.class) :
    (load pc dist junk' ioFail (some part) c).Aborts := by
  apply load_absent
  by_contra h
  obtain ⟨b, hb⟩ := Option.ne_none_iff_exists'.1 h
  have hm : key c ∈ (x.sets junk).map Prod.fst := List.mem_map.2 ⟨_, by simpa using hs.subset (get_mem hb), rfl⟩
  rcases x with (o | o) | o | o | o <;> cases c <;> first
    | exact absurd rfl hc
    | simp [key, Stored.sets, Photons.MeanObject.names, Photons.MGTables.opacNames, Photons.MGTables.sopacNames,
        Neutrinos.MeanTables.datasets, Neutrinos.SpinerOpacity.datasets, Neutrinos.MeanTables.opacNames,
        Neutrinos.MeanTables.sopacNames] at hm

/-! ## C60 -/

/-- **C60**: after any history of saves, failed saves and crashes, opening a file as an object of class `c` aborts, or
returns what opening a complete save of one object gives: an object of class `c` that was saved under this name, after
which no `Save` to this name returned. -/
theorem C60_origin {log : List (Attempt R)} {d : Disk R} (h : After log d) (name : String) (c : FileClass) (pc : PC R)
    (dist : Neutrinos.FermiDirac R) (junk : ℕ → R) (ioFail : Bool) :
    (load pc dist junk ioFail (d name) c).Aborts ∨
    ∃ pre a post f, log = pre ++ a :: post ∧ a.name = name ∧ a.object.class = c ∧
      (∀ a' ∈ pre, a'.name = name → a'.returned = false) ∧ a.object.SavesAs f ∧
      load pc dist junk ioFail (d name) c = load pc dist junk false f c := by
  rcases contents h name with hn | ⟨pre, a, post, j, part, h1, h2, h3, h4, h5, h6⟩
  · left
    rw [hn]
    cases c <;> exact ⟨_, rfl⟩
  · rw [h5]
    by_cases hc : c = a.object.class
    · subst hc
      rcases load_own h6 pc dist junk ioFail with ha | he
      · exact .inl ha
      · exact .inr ⟨pre, a, post, _, h1, h2, rfl, h4, savesAs h3 j, he⟩
    · exact .inl (load_other h6 pc dist junk ioFail hc)

/-- **C60 (the last save counts)**: if the latest attempt to save under a name returned, then the file holds exactly that
object: opening it as an object of its class succeeds, and opening it as an object of any other
class aborts -/
theorem C60_latest {pre post : List (Attempt R)} {a : Attempt R} {d : Disk R} (h : After (pre ++ a :: post) d)
    (hlast : ∀ a' ∈ pre, a'.name ≠ a.name) (hret : a.returned = true) (pc : PC R) (dist : Neutrinos.FermiDirac R)
    (junk : ℕ → R) :
    a.object.SavesAs (d a.name) ∧
    (∃ y, load pc dist junk false (d a.name) a.object.class = ok y ∧ y.class = a.object.class) ∧
    ∀ c ioFail, c ≠ a.object.class → (load pc dist junk ioFail (d a.name) c).Aborts := by
  have key : ∃ junk, a.object.Valid ∧ d a.name = some (a.object.sets junk).reverse := by
    clear pc dist junk
    induction pre generalizing d with
    | nil =>
      rw [List.nil_append] at h
      cases h with
      | @ran _ d x junk ops n fails h' hx hc =>
        rw [calls_eq hx] at hc
        cases hc
        simp only [decide_eq_true_eq] at hret
        have h2 := (runSave_saveList (x.sets junk) fails (d n)).2
          ((runSave_saveList (x.sets junk) fails (d n)).1 hret)
        exact ⟨junk, hx, by simp only [Function.update_self, h2]⟩
      | died _ _ _ _ _ => simp at hret
    | cons b pre ih =>
      rw [List.cons_append] at h
      have hb := hlast b (List.mem_cons_self)
      have hl : ∀ a' ∈ pre, a'.name ≠ a.name := fun a' ha' => hlast a' (List.mem_cons_of_mem _ ha')
      cases h with
      | ran n fails h' hx hc =>
        rw [Function.update_of_ne (Ne.symm hb)]
        exact ih h' hl
      | died n h' hx hc hcr =>
        rw [Function.update_of_ne (Ne.symm hb)]
        exact ih h' hl
  obtain ⟨j, hv, he⟩ := key
  rw [he]
  exact ⟨savesAs hv j, load_complete hv pc dist j junk, fun c io hc => load_other (List.Sublist.refl _) pc dist junk io hc⟩

/-- a neutrino mean opacity is saved over a tabulated opacity; the process dies in a third save -/
example (o : Neutrinos.SpinerOpacity R) (m : Neutrinos.MeanOpacityBase R) (s : Neutrinos.MeanSOpacityBase R) :
    ∃ d : Disk R, After [⟨"b", .neutrinoMeanS s, false⟩, ⟨"a", .neutrinoMean m, true⟩, ⟨"a", .neutrinoTable o, true⟩] d ∧
      d "b" = some [] := by
  have h1 := After.ran (R := R) (x := .neutrinoTable o) (junk := fun _ => lit 0) "a" (fun _ => false) .nothing trivial rfl
  have h2 := After.ran (R := R) (x := .neutrinoMean m) (junk := fun _ => lit 0) "a" (fun _ => false) h1 trivial rfl
  have h3 := After.died (R := R) (x := .neutrinoMeanS s) (junk := fun _ => lit 0) "b" (after := some []) h2 trivial rfl
    ⟨1, by simp [Neutrinos.MeanTables.SaveOps], .inr ⟨by simp [Neutrinos.MeanTables.SaveOps], .inr
      ⟨[], [], rfl, List.Sublist.refl _, rfl⟩⟩⟩
  have e1 : ∀ f, (runSave (o.SaveOps) (fun _ => false) 0 false f).1 = 0 := fun f => rfl
  have e2 : ∀ f, (runSave (m.t.SaveOps Neutrinos.MeanTables.opacNames) (fun _ => false) 0 false f).1 = 0 := fun f => rfl
  simp only [e1, e2, decide_true] at h3
  exact ⟨_, h3, by simp⟩

end Opac.Files
