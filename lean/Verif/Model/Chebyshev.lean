import Verif.Model.Heap
import Verif.Model.Spiner

/-!
# Chebyshev interpolation

`singularity-opac/chebyshev/chebyshev.hpp`.  Arrays are indexers into memory (`Model/Heap.lean`), so that
aliasing between arguments is part of the model.  `debug` says whether `assert` is compiled in
(`NDEBUG` not defined).
-/

namespace Opac.Chebyshev
open Arith

variable {R : Type} [Arith R]

/-- largest `int` -/
@[irreducible] def INT_MAX : ℤ := 2147483647

/-- `chebyshev/chebyshev.hpp:31-41`; the matrix is any object with a pure `operator()(i,j)` -/
def MatMultiply (a : ℕ → ℕ → R) (x y : Indexer) (npoints : ℤ) : Heap R → Heap R :=
  forLoop npoints fun i m =>
    let m := Function.update m (y i) (lit 0)
    forLoop npoints (fun j m => Function.update m (y i) (m (y i) + a i j * m (x j))) m

/-- `chebyshev/chebyshev.hpp:44-47` -/
def ToUnitCell (debug : Bool) (x xmin xmax : R) : Outcome R :=
  if debug && !(gt xmax xmin) then .abort "xmax > xmin"
  else .ok (lit 2 * (x - xmin) / (xmax - xmin) - lit 1)

/-- `chebyshev/chebyshev.hpp:48-52` -/
def FromUnitCell (debug : Bool) (x xmin xmax : R) : Outcome R :=
  if debug && !(gt xmax xmin) then .abort "xmax > xmin"
  else .ok ((x + lit 1) * (xmax - xmin) / lit 2 + xmin)

/-- `chebyshev/chebyshev.hpp:54-61`; `k = i + 1`.  `2 * npoints` is an `int` product, so from
`npoints = 2^30` on it overflows. -/
def GetPoints (debug : Bool) (xmin xmax : R) (npoints : ℤ) (points : Indexer) (m : Heap R) :
    Outcome (Heap R) :=
  forLoopM npoints (fun i m =>
    if INT_MAX < 2 * npoints then .ub "signed overflow"
    else
      let k : ℤ := i + 1
      let tk := -(cos (lit ((2 * k - 1 : ℤ) : ℚ) * pi / lit ((2 * npoints : ℤ) : ℚ)))
      (FromUnitCell debug tk xmin xmax).bind fun p => .ok (Function.update m (points (k - 1).toNat) p)) m

/-- `chebyshev/chebyshev.hpp:69-82`.  `Ti[i]` with a negative `i` is out of range; with `i = INT_MAX` the
loop counter overflows. -/
def T (i : ℤ) (x : R) : Outcome R :=
  let t0 := lit 1
  let t1 := x
  let t2 := lit 2 * x * t1 - t0
  if i < 3 then
    if i = 0 then .ok t0 else if i = 1 then .ok t1 else if i = 2 then .ok t2
    else .ub "Ti[i] with negative i"
  else if INT_MAX ≤ i then .ub "signed overflow"
  else
    let t := forLoop (i - 2)
      (fun _ (t : R × R × R) => (t.2.1, t.2.2, lit 2 * x * t.2.2 - t.2.1)) (t0, t1, t2)
    .ok t.2.2

/-- `chebyshev/chebyshev.hpp:85-96` -/
def InterpFromCoeffs (debug : Bool) (x xmin xmax : R) (coeffs : Indexer) (ncoeffs : ℤ) (m : Heap R) :
    Outcome R :=
  (ToUnitCell debug x xmin xmax).bind fun x =>
    forLoopM ncoeffs (fun i out => (T i x).bind fun t => .ok (out + m (coeffs i) * t)) (lit 0)

end Opac.Chebyshev
