import Verif.Model.Spiner

/-!
# Specification: which tables make a mean opacity, and which lookups are defined
-/

namespace Opac.Spec
open Arith Spiner

variable {R : Type} [Arith R]

/-- two axes of tables have equal ends and the same number of nodes; `==` on the carrier, so no end is NaN -/
def SameAxis (g h : Grid R) : Prop := eqb g.min h.min = true ∧ eqb g.max h.max = true ∧ g.N = h.N

/-- the Planck and the Rosseland tables `p` and `r` fit together: density × temperature × group, at least one
group, equal shapes, equal temperature axes and equal density axes -/
structure MatchingTables (p r : DataBox R) : Prop where
  shape : ∃ nRho nT n : ℤ, 0 < n ∧ p.dims = [nRho, nT, n] ∧ r.dims = [nRho, nT, n]
  temperature : SameAxis (p.range 1) (r.range 1)
  density : SameAxis (p.range 2) (r.range 2)

/-- the call returns a value if `c` holds, and is undefined behaviour otherwise -/
def _root_.Opac.Outcome.DefinedIff {α : Type} (x : Outcome α) (c : Prop) : Prop :=
  (c → ∃ v, x.Returns v) ∧ (¬ c → x.IsUB)

/-- one of the three neutrino species that tables have room for -/
def NeutrinoSpecies (s : RadiationType) : Prop := s = .NU_ELECTRON ∨ s = .NU_ELECTRON_ANTI ∨ s = .NU_HEAVY

end Opac.Spec
