import Verif.Spec.Doubles
import Verif.Model.MeanPhoton
import Verif.Model.MeanNeutrino
import Verif.Model.SpinerOpac

/-!
# Table lookups in IEEE double precision

The same table, with the same numbers at the same places on the same grids, is looked up in double precision and exactly.
-/

namespace Opac
open Arith

/-- the same grid in double precision -/
def Spiner.Grid.dbl (g : Spiner.Grid ℝ) : Spiner.Grid (IE binary64) := ⟨Opac.dbl g.min, Opac.dbl g.max, g.N⟩

/-- the same table in double precision -/
def Spiner.DataBox.dbl (d : Spiner.DataBox ℝ) : Spiner.DataBox (IE binary64) :=
  ⟨d.dims, fun i => (d.grid i).dbl, fun i => Opac.dbl (d.data i)⟩

/-- the same multigroup tables in double precision -/
def Photons.MGTables.dbl (t : Photons.MGTables ℝ) : Photons.MGTables (IE binary64) :=
  ⟨t.lPlanck.dbl, t.lRosseland.dbl, t.groupBounds.map Opac.dbl, t.ngroups⟩

/-- the same mean opacity in double precision -/
def Photons.MeanOpacityBase.dbl (o : Photons.MeanOpacityBase ℝ) : Photons.MeanOpacityBase (IE binary64) :=
  ⟨o.pc.dbl, o.t.dbl⟩

/-- the same mean scattering opacity in double precision -/
def Photons.MeanSOpacityBase.dbl (o : Photons.MeanSOpacityBase ℝ) : Photons.MeanSOpacityBase (IE binary64) :=
  ⟨o.pc.dbl, o.t.dbl⟩

/-- the same neutrino mean tables in double precision -/
def Neutrinos.MeanTables.dbl (t : Neutrinos.MeanTables ℝ) : Neutrinos.MeanTables (IE binary64) :=
  ⟨t.lPlanck.dbl, t.lRosseland.dbl⟩

/-- the same neutrino mean opacity in double precision -/
def Neutrinos.MeanOpacityBase.dbl (o : Neutrinos.MeanOpacityBase ℝ) : Neutrinos.MeanOpacityBase (IE binary64) :=
  ⟨o.pc.dbl, o.t.dbl⟩

/-- the same neutrino mean scattering opacity in double precision -/
def Neutrinos.MeanSOpacityBase.dbl (o : Neutrinos.MeanSOpacityBase ℝ) : Neutrinos.MeanSOpacityBase (IE binary64) :=
  ⟨o.dist.dbl, o.pc.dbl, o.t.dbl⟩

/-- the same tabulated neutrino opacity in double precision -/
def Neutrinos.SpinerOpacity.dbl (o : Neutrinos.SpinerOpacity ℝ) : Neutrinos.SpinerOpacity (IE binary64) :=
  ⟨o.dist.dbl, o.pc.dbl, o.lalphanu_.dbl, o.ljnu_.dbl, o.lJ_.dbl, o.lJYe_.dbl⟩

/-- A double that is zero or at least `2^-60` (about 1e-18) in size.  (The logarithm of a double other than one is never
smaller.) -/
def TableNumber (x : ℝ) : Prop := binary64.rd x = .fin x ∧ (x = 0 ∨ 2 ^ (-60 : ℤ) ≤ |x|)

/-- A grid of at least two and at most `2^24` increasing nodes, with ends of size at most 40 and spacing at least 1/100.
(The coordinates are logarithms to base ten, except for the electron fraction.) -/
structure DoubleAxis (g : Spiner.Grid ℝ) : Prop where
  two : 2 ≤ g.N
  many : g.N ≤ 2 ^ 24
  low : |g.min| ≤ 40
  high : |g.max| ≤ 40
  spacing : (g.N - 1) / 100 ≤ g.max - g.min
  ends : TableNumber g.min ∧ TableNumber g.max

/-- A table interpolated along the axes with the given numbers (0 is the fastest index, as in Spiner): entries are
logarithms of size at most 200, and neighbours along these axes differ by at most one. -/
structure DoubleTable (d : Spiner.DataBox ℝ) (axes : List ℕ) : Prop where
  grid : ∀ k ∈ axes, DoubleAxis (d.grid k) ∧ d.dim (k + 1) = (d.grid k).N
  entry : ∀ is v, d.read is = .ok v → TableNumber v ∧ |v| ≤ 200
  step : ∀ k ∈ axes, ∀ is v v', d.read is = .ok v → d.read (is.modify (d.rank - 1 - k) (· + 1)) = .ok v' → |v' - v| ≤ 1

/-- The number that a lookup converts to `int` to find the cell of `x`.  In C++ the conversion is undefined behaviour unless
it is finite and its integral part fits an `int`. -/
noncomputable def Spiner.Grid.cell (g : Spiner.Grid (IE binary64)) (x : IE binary64) : IE binary64 :=
  g.inv_dx * (x - g.min)

/-- a conversion to a 32-bit `int` that is defined -/
def Convertible (a : IE binary64) : Prop := ∃ v : ℝ, a.val = .fin v ∧ -(2 ^ 31 : ℝ) - 1 < v ∧ v < 2 ^ 31

end Opac
