import Verif.Model.Base
import Mathlib.Logic.Function.Basic
import Mathlib.Algebra.BigOperators.Group.List.Defs

/-!
# Spiner tables (external)

`spiner` is a submodule whose sources are not in `/repo`; this file models the part of its documented
interface that the library uses: `RegularGrid1D`, `DataBox::resize/setRange/operator()/interpToReal`.
It is part of the trusted base.

Data is stored flat, row-major, the last index fastest, as in Spiner.  Indices out of the allocated range
are undefined behaviour (`Outcome.ub`).
-/

namespace Opac
open Arith

/-- `for (int i = 0; i < n; ++i)` around a body that may not return -/
def forLoopM {S : Type} (n : ℤ) (body : ℕ → S → Outcome S) (s : S) : Outcome S :=
  (List.range n.toNat).foldlM (fun s i => body i s) s

namespace Spiner
variable {R : Type} [Arith R]

/-- `Spiner::RegularGrid1D` (external): `min_`, `max_`, `N_`; `dx_ = (max_-min_)/(N_-1)` -/
structure Grid (R : Type) where
  min : R
  max : R
  N : ℤ

/-- `RegularGrid1D()` (external): the grid of an index without a range; its contents are never used by
the library -/
def Grid.none : Grid R := { min := lit 0, max := lit 0, N := 0 }

/-- `RegularGrid1D::operator==` (external); `dx_` is a function of the compared fields -/
def Grid.beq (a b : Grid R) : Bool := eqb a.min b.min && eqb a.max b.max && (a.N == b.N)

/-- `RegularGrid1D::dx` (external) -/
def Grid.dx (g : Grid R) : R := (g.max - g.min) / lit (g.N - 1)
/-- `RegularGrid1D::inv_dx_` (external), computed once by the constructor -/
def Grid.inv_dx (g : Grid R) : R := lit 1 / g.dx
/-- `RegularGrid1D::x(i)` (external) -/
def Grid.x (g : Grid R) (i : ℕ) : R := lit i * g.dx + g.min
/-- `RegularGrid1D::bound` (external): clamps so that `ix` and `ix+1` are nodes -/
def Grid.bound (g : Grid R) (ix : ℤ) : ℤ :=
  let ix := if ix < 0 then 0 else ix
  if g.N - 1 ≤ ix then g.N - 2 else ix
/-- `RegularGrid1D::index(x)` (external): truncate `inv_dx_ * (x - min_)`, then clamp -/
def Grid.index (g : Grid R) (x : R) : ℤ := g.bound (toInt (g.inv_dx * (x - g.min)))
/-- upper weight of `RegularGrid1D::weights` (external); the lower weight is `1 - w1` -/
def Grid.w1 (g : Grid R) (x : R) : R := g.inv_dx * (x - (lit (g.index x) * g.dx + g.min))

/-- `Spiner::DataBox<Real>` (external): `dims` slowest first, one grid per index (0 = fastest), flat data -/
structure DataBox (R : Type) where
  dims : List ℤ
  grid : ℕ → Grid R
  data : ℕ → R

namespace DataBox

/-- row-major offset of an index tuple (given slowest first); out-of-range indices count as UB, although those of the
faster indices may hit an entry of another row -/
def offset : List ℤ → List ℤ → Outcome ℤ
  | [], [] => .ok 0
  | d :: ds, i :: is =>
      if 0 ≤ i ∧ i < d then
        (offset ds is).bind fun r => .ok (i * ds.prod + r)
      else .ub "DataBox index out of range"
  | _, _ => .ub "DataBox rank mismatch"

/-- `operator()(i_n, ..., i_1)` as a read (external) -/
def read (d : DataBox R) (is : List ℤ) : Outcome R :=
  (offset d.dims is).bind fun o => .ok (d.data o.toNat)

/-- `operator()(i_n, ..., i_1) = v` (external) -/
def write (d : DataBox R) (is : List ℤ) (v : R) : Outcome (DataBox R) :=
  (offset d.dims is).bind fun o => .ok { d with data := Function.update d.data o.toNat v }

/-- `rank()` (external) -/
def rank (d : DataBox R) : ℕ := d.dims.length
/-- `dim(i)`, `i = 1` the fastest index (external) -/
def dim (d : DataBox R) (i : ℕ) : ℤ := d.dims.getD (d.dims.length - i) 0
/-- `size()` (external) -/
def size (d : DataBox R) : ℤ := d.dims.prod
/-- `range(i)` (external) -/
def range (d : DataBox R) (i : ℕ) : Grid R := d.grid i
/-- `setRange(i, min, max, N)` (external) -/
def setRange (d : DataBox R) (i : ℕ) (min max : R) (N : ℤ) : DataBox R :=
  { d with grid := Function.update d.grid i { min := min, max := max, N := N } }
/-- `resize(dims...)` (external): the contents are unspecified; `init` is whatever the allocation holds -/
def resize (dims : List ℤ) (init : ℕ → R) (grid : ℕ → Grid R) : DataBox R :=
  { dims := dims, grid := grid, data := init }
/-- `copyMetadata(other)` (external): shape and grids of `other`, unspecified contents -/
def copyMetadata (other : DataBox R) (init : ℕ → R) : DataBox R := { other with data := init }

/-- one linear interpolation step along grid `k`: `w0 * f(ix) + w1 * f(ix+1)` (external) -/
def lerp (g : Grid R) (x : R) (f : ℤ → Outcome R) : Outcome R :=
  (f (g.index x)).bind fun a => (f (g.index x + 1)).bind fun b =>
    .ok ((lit 1 - g.w1 x) * a + g.w1 x * b)

/-- `interpToReal(x3, x2, i1)` (external): bilinear in the two slow indices, fixed fastest index -/
def interp3 (d : DataBox R) (x3 x2 : R) (i1 : ℤ) : Outcome R :=
  lerp (d.grid 2) x3 fun i3 => lerp (d.grid 1) x2 fun i2 => d.read [i3, i2, i1]

/-- `interpToReal(x4, x3, x2, i1)` (external) -/
def interp4 (d : DataBox R) (x4 x3 x2 : R) (i1 : ℤ) : Outcome R :=
  lerp (d.grid 3) x4 fun i4 => lerp (d.grid 2) x3 fun i3 => lerp (d.grid 1) x2 fun i2 =>
    d.read [i4, i3, i2, i1]

/-- `interpToReal(x5, x4, x3, i2, x1)` (external) -/
def interp5 (d : DataBox R) (x5 x4 x3 : R) (i2 : ℤ) (x1 : R) : Outcome R :=
  lerp (d.grid 4) x5 fun i5 => lerp (d.grid 3) x4 fun i4 => lerp (d.grid 2) x3 fun i3 =>
    lerp (d.grid 0) x1 fun i1 => d.read [i5, i4, i3, i2, i1]

/-- `out.copyMetadata(d); for (int i = 0; i < n; ++i) out(i) = f(d(i));` with flat indexing.
(Callers pass a table of at least `n` entries.) -/
def mapData (f : R → R) (n : ℤ) (d : DataBox R) (init : ℕ → R) : DataBox R :=
  forLoop n (fun i (out : DataBox R) => { out with data := Function.update out.data i (f (d.data i)) })
    (d.copyMetadata init)

/-- entries of a flat table in order, as a list (`size()` entries) -/
def toList (d : DataBox R) : List R := (List.range d.size.toNat).map d.data

/-- a rank-1 table holding the list `l` (grid unused) -/
def ofList (l : List R) (pad : R) : DataBox R :=
  { dims := [(l.length : ℤ)], grid := fun _ => Grid.none, data := fun i => l.getD i pad }

end DataBox
end Spiner
end Opac
