import Verif.Model.Chebyshev

/-!
# Frequency indexers

`singularity-opac/base/indexers.hpp` and the single-precision logarithm of `utils/fast-math/logs.hpp` it uses.
-/

namespace Opac.BDMath
open Arith

variable {R : Type} [Arith R]

/-- what the platform's single precision does to a `Real`: the conversion to `float` (and back, which is exact) and
`logf` on floats — `fmath::log` instead when `BD_USE_FMATH` is defined (`utils/fast-math/logs.hpp:45-49`).  Both are
given by the platform, so the model is written for every choice of them; `Verif.Spec.Single` says what single
precision proper does. -/
structure Single (R : Type) where
  toFloat : R → R
  logf : R → R

/-- `BDMath::log10(const float x)` (`utils/fast-math/logs.hpp:40-50`): the argument is converted to `float`, the
logarithm is a `float`, the product with `ILOG10` is taken in double precision and converted to `float` on return. -/
def log10 (sp : Single R) (x : R) : R := sp.toFloat (sp.logf (sp.toFloat x) * lit (43429448190325176 / 10 ^ 17))
end Opac.BDMath

namespace Opac.Indexers
open Arith Spiner
open BDMath (Single)

variable {R : Type} [Arith R]

/-- one-dimensional `interpToReal(x)` (Spiner, external) -/
def interp1 (d : DataBox R) (x : R) : Outcome R := DataBox.lerp (d.grid 0) x fun i => d.read [i]

/-- `indexers::Identity<T>` (`base/indexers.hpp:33-45`): whatever is accessed through `operator[]` -/
structure Identity (T : Type) where
  data_ : T

namespace Identity
variable {T : Type}
/-- `base/indexers.hpp:39-42` as a read; `rd` is `T`'s own `operator[]` -/
def get (rd : T → ℤ → Outcome R) (l : Identity T) (i : ℤ) : Outcome R := rd l.data_ i
/-- `base/indexers.hpp:39-42` as an assignment -/
def set (wr : T → ℤ → R → Outcome T) (l : Identity T) (i : ℤ) (v : R) : Outcome (Identity T) :=
  (wr l.data_ i v).bind fun d => .ok { data_ := d }
end Identity

/-- `indexers::Linear` (`base/indexers.hpp:46-83`) -/
structure Linear (R : Type) where
  data_ : DataBox R

namespace Linear
/-- `base/indexers.hpp:61-65` with `SetRange_` (78-81) -/
def ofBox (data : DataBox R) (numin numax : R) (N : ℤ) : Linear R :=
  { data_ := data.setRange 0 numin numax N }
/-- `base/indexers.hpp:51-54`: a view of `N` values -/
def ofData (data : ℕ → R) (numin numax : R) (N : ℤ) : Linear R :=
  ofBox { dims := [N], grid := fun _ => Grid.none, data := data } numin numax N
/-- `base/indexers.hpp:56-59`: freshly allocated, contents `init` unspecified -/
def alloc (init : ℕ → R) (numin numax : R) (N : ℤ) : Linear R := ofData init numin numax N
/-- `base/indexers.hpp:69-72` as a read -/
def get (l : Linear R) (i : ℤ) : Outcome R := l.data_.read [i]
/-- `base/indexers.hpp:69-72` as an assignment -/
def set (l : Linear R) (i : ℤ) (v : R) : Outcome (Linear R) :=
  (l.data_.write [i] v).bind fun d => .ok { data_ := d }
/-- `base/indexers.hpp:74-75` -/
def eval (l : Linear R) (nu : R) : Outcome R := interp1 l.data_ nu
end Linear

/-- `indexers::LogLinear` (`base/indexers.hpp:85-123`) -/
structure LogLinear (R : Type) where
  data_ : DataBox R

namespace LogLinear
/-- `base/indexers.hpp:100-103` with `SetRange_` (118-121) -/
def ofBox (sp : Single R) (data : DataBox R) (numin numax : R) (N : ℤ) : LogLinear R :=
  { data_ := data.setRange 0 (BDMath.log10 sp numin) (BDMath.log10 sp numax) N }
/-- `base/indexers.hpp:90-93` -/
def ofData (sp : Single R) (data : ℕ → R) (numin numax : R) (N : ℤ) : LogLinear R :=
  ofBox sp { dims := [N], grid := fun _ => Grid.none, data := data } numin numax N
/-- `base/indexers.hpp:95-98` -/
def alloc (sp : Single R) (init : ℕ → R) (numin numax : R) (N : ℤ) : LogLinear R := ofData sp init numin numax N
/-- `base/indexers.hpp:107-110` as a read -/
def get (l : LogLinear R) (i : ℤ) : Outcome R := l.data_.read [i]
/-- `base/indexers.hpp:107-110` as an assignment -/
def set (l : LogLinear R) (i : ℤ) (v : R) : Outcome (LogLinear R) :=
  (l.data_.write [i] v).bind fun d => .ok { data_ := d }
/-- `base/indexers.hpp:112-115` -/
def eval (sp : Single R) (l : LogLinear R) (nu : R) : Outcome R := interp1 l.data_ (BDMath.log10 sp nu)
end LogLinear

/-- `indexers::LogCheb<N, Data_t>` (`base/indexers.hpp:125-159`); the three arrays live in memory.
`numin_`, `numax_` are stored but never read. -/
structure LogCheb (R : Type) where
  N : ℤ
  lnumin_ : R
  lnumax_ : R
  data_ : Indexer
  logdata_ : Indexer
  coeffs_ : Indexer

namespace LogCheb
/-- `base/indexers.hpp:129-133` -/
def mk' (sp : Single R) (N : ℤ) (data logdata coeffs : Indexer) (numin numax : R) : LogCheb R :=
  { N := N, lnumin_ := BDMath.log10 sp numin, lnumax_ := BDMath.log10 sp numax,
    data_ := data, logdata_ := logdata, coeffs_ := coeffs }
/-- `base/indexers.hpp:140-146` -/
def SetInterpCoeffs (sp : Single R) (l : LogCheb R) (v : ℕ → ℕ → R) (m : Heap R) : Heap R :=
  let m := forLoop l.N (fun i m =>
    Function.update m (l.logdata_ i) (BDMath.log10 sp (Arith.abs (m (l.data_ i)) + lit (1 / 10 ^ 20)))) m
  Chebyshev.MatMultiply v l.logdata_ l.coeffs_ l.N m
/-- `base/indexers.hpp:148-153` -/
def eval (sp : Single R) (debug : Bool) (l : LogCheb R) (nu : R) (m : Heap R) : Outcome R :=
  (Chebyshev.InterpFromCoeffs debug (BDMath.log10 sp nu) l.lnumin_ l.lnumax_ l.coeffs_ l.N m).bind fun e =>
    .ok (pow (lit 10) e)
end LogCheb
end Opac.Indexers
