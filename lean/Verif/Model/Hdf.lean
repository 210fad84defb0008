import Verif.Model.Spiner

/-!
# HDF5 files (external)

A file is a list of named datasets.  `H5Fcreate(H5F_ACC_TRUNC)` empties the file, `saveHDF` adds a dataset,
`loadHDF` fetches one; every call reports success (`0`) or failure (`-1`).  A failed call leaves the disk
as it was.  Numbers are stored exactly (native `double`).

The library adds the returned statuses and reports an error if the sum is not `H5_SUCCESS` (= 0).  The
handle returned by `H5Fcreate`/`H5Fopen` is not part of the sum; with an invalid handle all later calls
fail.
-/

namespace Opac.Hdf
open Spiner

variable {R : Type}

/-- datasets of one file, latest first -/
abbrev H5File (R : Type) := List (String × DataBox R)
/-- file name ↦ contents (`none`: absent or not a readable HDF5 file) -/
abbrev Disk (R : Type) := String → Option (H5File R)

/-- one dataset by name -/
def H5File.get (f : H5File R) (name : String) : Option (DataBox R) :=
  (f.find? (fun e => e.1 == name)).map Prod.snd

/-- the HDF5 calls made by a `Save` method, in order -/
inductive Op (R : Type) where
  /-- `H5Fcreate(fname, H5F_ACC_TRUNC, ...)` -/
  | create
  /-- `box.saveHDF(file, name)` -/
  | save (name : String) (box : DataBox R)
  /-- `H5Fclose(file)` -/
  | close

/-- effect of one successful call on the file's contents -/
def Op.exec : Op R → Option (H5File R) → Option (H5File R)
  | .create, _ => some []
  | .save n b, some f => some ((n, b) :: f)
  | .save _ _, none => none
  | .close, f => f

/-- effect of a sequence of successful calls -/
def execAll (ops : List (Op R)) (f : Option (H5File R)) : Option (H5File R) :=
  ops.foldl (fun f op => op.exec f) f

/-- Running a `Save` whose `i`-th HDF5 call fails iff `fails i`.  If `create` fails the handle is invalid
and all later calls fail too.  Returns the summed status and the file's contents. -/
def runSave : List (Op R) → (ℕ → Bool) → ℕ → Bool → Option (H5File R) → ℤ × Option (H5File R)
  | [], _, _, _, f => (0, f)
  | .create :: ops, fails, i, _, f =>
      if fails i then runSave ops fails (i + 1) false f
      else runSave ops fails (i + 1) true (Op.create.exec f)
  | .save n b :: ops, fails, i, valid, f =>
      if fails i || !valid then
        let r := runSave ops fails (i + 1) valid f
        (r.1 + (-1), r.2)
      else runSave ops fails (i + 1) valid ((Op.save n b).exec f)
  | .close :: ops, fails, i, valid, f =>
      if fails i || !valid then
        let r := runSave ops fails (i + 1) valid f
        (r.1 + (-1), r.2)
      else runSave ops fails (i + 1) valid f

/-- What can be on disk after the process died while executing `ops` on a file with contents `before`:
either the file was not yet created anew and is unchanged, or it was, and it now is unreadable or holds an
arbitrary part of the datasets whose `saveHDF` had been called (HDF5 buffers writes until the file is
closed; each dataset is assumed to be either fully there or absent). -/
def CrashState (ops : List (Op R)) (before after : Option (H5File R)) : Prop :=
  ∃ k, k ≤ ops.length ∧
    ((Op.create ∉ ops.take k ∧ after = before) ∨
     (Op.create ∈ ops.take k ∧
       (after = none ∨ ∃ f part, execAll (ops.take k) before = some f ∧ part.Sublist f ∧
          after = some part)))

end Opac.Hdf
