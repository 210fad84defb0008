import Verif.Spec.Accuracy
import Verif.Model.MeanPhoton
import Verif.Model.MeanNeutrino
import Verif.Model.SpinerOpac

/-!
# Looking up the same table with rounded and with exact arithmetic

Both runs use the same table: the same numbers at the same places on the same grids.
-/

namespace Opac
open Arith

variable {rd : ℝ → ℝ}

/-- the same grid over the real numbers -/
def Spiner.Grid.exact (g : Spiner.Grid (Fl rd)) : Spiner.Grid ℝ := ⟨g.min.val, g.max.val, g.N⟩

/-- the same table over the real numbers -/
def Spiner.DataBox.exact (d : Spiner.DataBox (Fl rd)) : Spiner.DataBox ℝ :=
  ⟨d.dims, fun i => (d.grid i).exact, fun i => (d.data i).val⟩

/-- the same multigroup tables over the real numbers -/
def Photons.MGTables.exact (t : Photons.MGTables (Fl rd)) : Photons.MGTables ℝ :=
  ⟨t.lPlanck.exact, t.lRosseland.exact, t.groupBounds.map Fl.val, t.ngroups⟩

/-- the same mean opacity over the real numbers -/
def Photons.MeanOpacityBase.exact (o : Photons.MeanOpacityBase (Fl rd)) : Photons.MeanOpacityBase ℝ :=
  ⟨o.pc.exact, o.t.exact⟩

/-- the same mean scattering opacity over the real numbers -/
def Photons.MeanSOpacityBase.exact (o : Photons.MeanSOpacityBase (Fl rd)) : Photons.MeanSOpacityBase ℝ :=
  ⟨o.pc.exact, o.t.exact⟩

/-- the same neutrino mean tables over the real numbers -/
def Neutrinos.MeanTables.exact (t : Neutrinos.MeanTables (Fl rd)) : Neutrinos.MeanTables ℝ :=
  ⟨t.lPlanck.exact, t.lRosseland.exact⟩

/-- the same neutrino mean opacity over the real numbers -/
def Neutrinos.MeanOpacityBase.exact (o : Neutrinos.MeanOpacityBase (Fl rd)) : Neutrinos.MeanOpacityBase ℝ :=
  ⟨o.pc.exact, o.t.exact⟩

/-- the same neutrino mean scattering opacity over the real numbers -/
def Neutrinos.MeanSOpacityBase.exact (o : Neutrinos.MeanSOpacityBase (Fl rd)) : Neutrinos.MeanSOpacityBase ℝ :=
  ⟨o.dist.exact, o.pc.exact, o.t.exact⟩

/-- the same tabulated neutrino opacity over the real numbers -/
def Neutrinos.SpinerOpacity.exact (o : Neutrinos.SpinerOpacity (Fl rd)) : Neutrinos.SpinerOpacity ℝ :=
  ⟨o.dist.exact, o.pc.exact, o.lalphanu_.exact, o.ljnu_.exact, o.lJ_.exact, o.lJYe_.exact⟩

/-- A grid of at least two and at most `2^24` increasing nodes, with ends of size at most `X` and spacing at least `s`.
(The coordinates are logarithms, except for the electron fraction.) -/
structure Axis (g : Spiner.Grid (Fl rd)) (X s : ℝ) : Prop where
  two : 2 ≤ g.N
  many : g.N ≤ 2 ^ 24
  low : |g.min.val| ≤ X
  high : |g.max.val| ≤ X
  spacing : 0 < s ∧ s * (g.N - 1) ≤ g.max.val - g.min.val

/-- A table interpolated along the axes with the given numbers (0 is the fastest index, as in Spiner): entries are
logarithms of size at most `M`, and neighbours along these axes differ by at most `D`. -/
structure Smooth (d : Spiner.DataBox (Fl rd)) (axes : List ℕ) (X s M D : ℝ) : Prop where
  grid : ∀ k ∈ axes, Axis (d.grid k) X s ∧ d.dim (k + 1) = (d.grid k).N
  size : ∀ is v, d.exact.read is = .ok v → |v| ≤ M
  step : ∀ k ∈ axes, ∀ is v v', d.exact.read is = .ok v → d.exact.read (is.modify (d.rank - 1 - k) (· + 1)) = .ok v' →
    |v' - v| ≤ D

end Opac
