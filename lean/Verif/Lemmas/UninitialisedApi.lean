import Verif.Lemmas.UninitialisedFill

/-! Lemmas: tables that hold the same numbers give the same lookups, exports and files. -/

namespace Opac
open Arith Spiner Outcome Hdf
variable {R : Type} [Arith R]
set_option linter.unusedSectionVars false

namespace Spiner.DataBox
variable {d d' : DataBox R}

theorem Alike.range (h : d.Alike d') (i : ℕ) : d.range i = d'.range i := congrFun h.grid i
theorem Alike.interp3 (h : d.Alike d') (a b : R) (i : ℤ) : d.interp3 a b i = d'.interp3 a b i := by
  unfold DataBox.interp3; rw [h.grid]; simp only [h.read]
theorem Alike.interp4 (h : d.Alike d') (a b c : R) (i : ℤ) : d.interp4 a b c i = d'.interp4 a b c i := by
  unfold DataBox.interp4; rw [h.grid]; simp only [h.read]
theorem Alike.interp5 (h : d.Alike d') (a b c : R) (i : ℤ) (e : R) : d.interp5 a b c i e = d'.interp5 a b c i e := by
  unfold DataBox.interp5; rw [h.grid]; simp only [h.read]
theorem Alike.rank (h : d.Alike d') : d.rank = d'.rank := by unfold DataBox.rank; rw [h.dims]
theorem Alike.dim (h : d.Alike d') (i : ℕ) : d.dim i = d'.dim i := by unfold DataBox.dim; rw [h.dims]
theorem Alike.size (h : d.Alike d') : d.size = d'.size := by unfold DataBox.size; rw [h.dims]

theorem Alike.mapData (h : d.Alike d') (f : R → R) (junk junk' : ℕ → R) :
    (d.mapData f d.size junk).Alike (d'.mapData f d'.size junk') :=
  ⟨by rw [(mapData_dims ..).1, (mapData_dims ..).1, h.dims], by rw [(mapData_dims ..).2, (mapData_dims ..).2, h.grid],
    fun is => by rw [mapData_read, mapData_read, h.read]⟩

theorem Alike.toList (h : d.Alike d') (h1 : d.dims.length = 1) : d.toList = d'.toList := by
  unfold DataBox.toList
  rw [h.size]
  refine List.map_congr_left fun i hi => ?_
  obtain ⟨n, hn⟩ := List.length_eq_one_iff.1 h1
  have hs : d'.size = n := by rw [← h.size, DataBox.size, hn]; simp
  rw [hs, List.mem_range] at hi
  have hr := h.read [(i : ℤ)]
  have e : DataBox.offset [n] [(i : ℤ)] = ok (i : ℤ) := by
    have h1 : (i : ℤ) < n := by omega
    simp [DataBox.offset, h1]
  unfold DataBox.read at hr
  rw [← h.dims, hn, e] at hr
  simpa [bind_def] using hr

end Spiner.DataBox

namespace Hdf

theorem Alike.refl (f : Option (H5File R)) : Hdf.Alike f f := by
  cases f with
  | none => exact .none
  | some f => exact .some (List.forall₂_same.2 fun e _ => ⟨rfl, .refl _⟩)

/-- calls with the same names and tables that hold the same numbers -/
inductive OpAlike : Op R → Op R → Prop
  | create : OpAlike .create .create
  | save (n : String) {b b' : DataBox R} (h : b.Alike b') : OpAlike (.save n b) (.save n b')
  | close : OpAlike .close .close

theorem runSave_alike {ops ops' : List (Op R)} (h : List.Forall₂ OpAlike ops ops') (fails : ℕ → Bool) (i : ℕ)
    (valid : Bool) {f f' : Option (H5File R)} (hf : Hdf.Alike f f') :
    (runSave ops fails i valid f).1 = (runSave ops' fails i valid f').1 ∧
      Hdf.Alike (runSave ops fails i valid f).2 (runSave ops' fails i valid f').2 := by
  induction h generalizing i valid f f' with
  | nil => exact ⟨rfl, hf⟩
  | cons h _ ih =>
    cases h with
    | create =>
      unfold runSave
      split_ifs
      · exact ih _ _ hf
      · exact ih _ _ (.some .nil)
    | save n hb =>
      unfold runSave
      split_ifs
      · exact ⟨by dsimp only; rw [(ih _ _ hf).1], (ih _ _ hf).2⟩
      · refine ih _ _ ?_
        cases hf with
        | none => exact .none
        | some hf => exact .some (.cons ⟨rfl, hb⟩ hf)
    | close =>
      unfold runSave
      split_ifs
      · exact ⟨by dsimp only; rw [(ih _ _ hf).1], (ih _ _ hf).2⟩
      · exact ih _ _ hf

theorem get_alike {f f' : H5File R} (h : Hdf.Alike (some f) (some f')) (n : String) :
    Option.Rel DataBox.Alike (f.get n) (f'.get n) := by
  cases h with
  | some h =>
  unfold H5File.get
  induction h with
  | nil => exact .none
  | @cons e e' l l' he _ ih =>
    rw [List.find?_cons, List.find?_cons, ← he.1]
    cases e.1 == n with
    | true => exact .some he.2
    | false => exact ih

end Hdf

namespace Photons.MGTables

theorem validate_alike {kP kR kP' kR' : DataBox R} (hP : kP.Alike kP') (hR : kR.Alike kR') :
    ValidateTables_ kP kR = ValidateTables_ kP' kR' := by
  unfold ValidateTables_
  simp only [hP.rank, hR.rank, hP.dim, hR.dim, hP.range, hR.range]

theorem validate_dims {kP kR : DataBox R} (h : ValidateTables_ kP kR = ok ()) : kP.size = kR.size := by
  unfold ValidateTables_ at h
  by_cases h1 : kP.rank ≠ 3 ∨ kR.rank ≠ 3
  · rw [if_pos h1] at h; exact nomatch h
  rw [if_neg h1] at h
  by_cases h2 : kP.dim 1 ≠ kR.dim 1 ∨ kP.dim 2 ≠ kR.dim 2 ∨ kP.dim 3 ≠ kR.dim 3
  · simp only [if_pos h2] at h; exact nomatch h
  push Not at h1 h2
  unfold DataBox.rank at h1
  obtain ⟨a, b, c, e⟩ := List.length_eq_three.1 h1.1
  obtain ⟨a', b', c', e'⟩ := List.length_eq_three.1 h1.2
  simp only [DataBox.dim, e, e'] at h2
  simp at h2
  simp [DataBox.size, e, e', h2]

theorem LoadTables_alike {kP kR kP' kR' : DataBox R} (hP : kP.Alike kP') (hR : kR.Alike kR') (junk junk' : ℕ → R)
    (b : List R) : SameOutcome MGTables.Alike (LoadTables_ junk kP kR b) (LoadTables_ junk' kP' kR' b) := by
  unfold LoadTables_
  rw [← validate_alike hP hR]
  cases hv : ValidateTables_ kP kR with
  | abort m => rfl
  | ub m => rfl
  | ok u =>
  rw [ok_bind, ok_bind]
  have hs := validate_dims hv
  have hs' := validate_dims ((validate_alike hP hR).symm.trans hv)
  dsimp only
  rw [← hP.dim]
  refine .same _ fun _ => .same _ fun gb => ⟨hP.mapData _ _ _, ?_, rfl, rfl⟩
  dsimp only
  rw [hs, hs']
  exact hR.mapData _ _ _

theorem LoadFile_alike (nm : Names) {f f' : Option (H5File R)} (hf : Hdf.Alike f f') (junk junk' : ℕ → R) (ioFail : Bool)
    (h1 : ∀ g d, f = some g → g.get nm.bounds = some d → d.dims.length = 1) :
    SameOutcome MGTables.Alike (LoadFile nm junk ioFail f) (LoadFile nm junk' ioFail f') := by
  cases f with
  | none => cases hf; rfl
  | some f =>
  cases f' with
  | none => exact nomatch hf
  | some f' =>
  have hp := get_alike hf nm.planck
  have hr := get_alike hf nm.rosseland
  have hb := get_alike hf nm.bounds
  replace h1 := fun d => h1 f d rfl
  unfold LoadFile
  dsimp only
  revert h1
  generalize f.get nm.planck = p at *
  generalize f'.get nm.planck = p' at *
  generalize f.get nm.rosseland = r at *
  generalize f'.get nm.rosseland = r' at *
  generalize f.get nm.bounds = b at *
  generalize f'.get nm.bounds = b' at *
  intro h1
  cases hp <;> cases hr <;> cases hb <;> try rfl
  rename_i hp _ _ hr _ _ hb
  dsimp only
  rw [← hb.toList (h1 _ rfl)]
  split_ifs
  · rfl
  · exact LoadTables_alike hp hr junk junk' _

variable {t t' : MGTables R}

theorem Save_alike (nm : Names) (h : t.Alike t') (junk junk' : ℕ → R) (fails : ℕ → Bool) {f f' : Option (H5File R)}
    (hf : Hdf.Alike f f') (hd : t.lPlanck.size = t.lRosseland.size) :
    SameOutcome Hdf.Alike (t.Save nm junk fails f) (t'.Save nm junk' fails f') := by
  have hd' : t'.lPlanck.size = t'.lRosseland.size := by rw [← h.planck.size, ← h.rosseland.size, hd]
  unfold Save SaveOps ExportTables_
  rw [h.groupBounds, h.ngroups]
  cases ExportGroupBounds t'.groupBounds t'.ngroups with
  | abort m => rfl
  | ub m => rfl
  | ok gb =>
  simp only [ok_bind, pure_def]
  have key := runSave_alike (R := R) (ops := [.create, .save nm.planck (t.lPlanck.mapData FromLog t.lPlanck.size junk),
      .save nm.rosseland (t.lRosseland.mapData FromLog t.lPlanck.size junk), .save nm.bounds (DataBox.ofList gb (lit 0)), .close])
    (ops' := [.create, .save nm.planck (t'.lPlanck.mapData FromLog t'.lPlanck.size junk'),
      .save nm.rosseland (t'.lRosseland.mapData FromLog t'.lPlanck.size junk'), .save nm.bounds (DataBox.ofList gb (lit 0)), .close])
    (.cons .create (.cons (.save _ (h.planck.mapData _ _ _)) (.cons (.save _ (by
      rw [hd, hd']; exact h.rosseland.mapData _ _ _)) (.cons (.save _ (.refl _)) (.cons .close .nil))))) fails 0 false hf
  rw [← key.1]
  split_ifs
  · rfl
  · exact key.2

end Photons.MGTables

namespace Neutrinos.MeanTables
variable {t t' : MeanTables R}

theorem lookup_alike {d d' : DataBox R} (h : d.Alike d') : lookup d = lookup d' := by
  funext rho temp Ye type
  unfold lookup
  dsimp only
  rw [h.interp4]

theorem Save_alike (nm : Names) (h : t.Alike t') (fails : ℕ → Bool) {f f' : Option (H5File R)} (hf : Hdf.Alike f f') :
    (t.Save nm fails f).1 = (t'.Save nm fails f').1 ∧ Hdf.Alike (t.Save nm fails f).2 (t'.Save nm fails f').2 := by
  have key := runSave_alike (R := R) (ops := t.SaveOps nm) (ops' := t'.SaveOps nm)
    (.cons .create (.cons (.save _ h.planck) (.cons (.save _ h.rosseland) (.cons .close .nil)))) fails 0 false hf
  unfold Save
  dsimp only
  rw [key.1]
  exact ⟨rfl, key.2⟩

theorem LoadFile_alike (nm : Names) {f f' : Option (H5File R)} (hf : Hdf.Alike f f') (ioFail : Bool) :
    SameOutcome MeanTables.Alike (LoadFile nm ioFail f) (LoadFile nm ioFail f') := by
  cases f with
  | none => cases hf; rfl
  | some f =>
  cases f' with
  | none => exact nomatch hf
  | some f' =>
  have hp := get_alike hf nm.planck
  have hr := get_alike hf nm.rosseland
  unfold LoadFile
  dsimp only
  generalize f.get nm.planck = p at *
  generalize f'.get nm.planck = p' at *
  generalize f.get nm.rosseland = r at *
  generalize f'.get nm.rosseland = r' at *
  cases hp <;> cases hr <;> try rfl
  rename_i hp _ _ hr
  dsimp only
  split_ifs
  · rfl
  · exact ⟨hp, hr⟩

end Neutrinos.MeanTables

namespace Neutrinos.SpinerOpacity
variable {o o' : SpinerOpacity R}

theorem Save_alike (h : o.Alike o') (fails : ℕ → Bool) {f f' : Option (H5File R)} (hf : Hdf.Alike f f') :
    (o.Save fails f).1 = (o'.Save fails f').1 ∧ Hdf.Alike (o.Save fails f).2 (o'.Save fails f').2 := by
  have key := runSave_alike (R := R) (ops := o.SaveOps) (ops' := o'.SaveOps)
    (.cons .create (.cons (.save _ h.lalphanu_) (.cons (.save _ h.ljnu_) (.cons (.save _ h.lJ_)
      (.cons (.save _ h.lJYe_) (.cons .close .nil)))))) fails 0 false hf
  unfold Save
  dsimp only
  rw [key.1]
  exact ⟨rfl, key.2⟩

theorem Load_alike (dist : FermiDirac R) (pc : PC R) {f f' : Option (H5File R)} (hf : Hdf.Alike f f') (ioFail : Bool) :
    SameOutcome SpinerOpacity.Alike (LoadFromSP5_ dist pc ioFail f) (LoadFromSP5_ dist pc ioFail f') := by
  cases f with
  | none => cases hf; rfl
  | some f =>
  cases f' with
  | none => exact nomatch hf
  | some f' =>
  have ha := get_alike hf "absorption coefficient"
  have hj := get_alike hf "emissivity per nu"
  have hJ := get_alike hf "total emissivity"
  have hN := get_alike hf "number emissivity"
  unfold LoadFromSP5_
  dsimp only
  generalize f.get "absorption coefficient" = a at *
  generalize f'.get "absorption coefficient" = a' at *
  generalize f.get "emissivity per nu" = b at *
  generalize f'.get "emissivity per nu" = b' at *
  generalize f.get "total emissivity" = c at *
  generalize f'.get "total emissivity" = c' at *
  generalize f.get "number emissivity" = e at *
  generalize f'.get "number emissivity" = e' at *
  cases ha <;> cases hj <;> cases hJ <;> cases hN <;> try rfl
  rename_i ha _ _ hj _ _ hJ _ _ hN
  dsimp only
  split_ifs
  · rfl
  · exact ⟨rfl, rfl, ha, hj, hJ, hN⟩

end Neutrinos.SpinerOpacity
end Opac
