import Verif.Model.MeanPhoton
import Verif.Model.MeanNeutrino
import Verif.Model.SpinerOpac

/-!
# Results that do not depend on what fresh memory happened to hold

A freshly allocated table holds whatever the memory held before.  The model takes these contents as an argument
(`junk`).  Two runs of the library that differ only in them are compared here.
-/

namespace Opac
open Spiner Hdf

/-- two runs end in the same way: both return, with results related by `P`, or both stop with the same error, or both
make the same step that the language does not define -/
def SameOutcome {α β : Type} (P : α → β → Prop) : Outcome α → Outcome β → Prop
  | .ok a, .ok b => P a b
  | .abort s, .abort t => s = t
  | .ub s, .ub t => s = t
  | _, _ => False

/-- two tables of the same shape, with the same axes, that hold the same number at every place: reading either at any
index gives the same -/
structure Spiner.DataBox.Alike {R : Type} (d d' : DataBox R) : Prop where
  dims : d.dims = d'.dims
  grid : d.grid = d'.grid
  read : ∀ is, d.read is = d'.read is

/-- two files with the same dataset names, in the same order, and tables that hold the same numbers -/
def Hdf.Alike {R : Type} : Option (H5File R) → Option (H5File R) → Prop :=
  Option.Rel (List.Forall₂ fun e e' => e.1 = e'.1 ∧ e.2.Alike e'.2)

/-- group means with the same groups and tables that hold the same numbers -/
structure Photons.MGTables.Alike {R : Type} (t t' : Photons.MGTables R) : Prop where
  planck : t.lPlanck.Alike t'.lPlanck
  rosseland : t.lRosseland.Alike t'.lRosseland
  groupBounds : t.groupBounds = t'.groupBounds
  ngroups : t.ngroups = t'.ngroups

/-- mean neutrino tables that hold the same numbers -/
structure Neutrinos.MeanTables.Alike {R : Type} (t t' : Neutrinos.MeanTables R) : Prop where
  planck : t.lPlanck.Alike t'.lPlanck
  rosseland : t.lRosseland.Alike t'.lRosseland

/-- tabulated neutrino opacities with the same constants and tables that hold the same numbers -/
structure Neutrinos.SpinerOpacity.Alike {R : Type} (o o' : Neutrinos.SpinerOpacity R) : Prop where
  dist : o.dist = o'.dist
  pc : o.pc = o'.pc
  lalphanu_ : o.lalphanu_.Alike o'.lalphanu_
  ljnu_ : o.ljnu_.Alike o'.ljnu_
  lJ_ : o.lJ_.Alike o'.lJ_
  lJYe_ : o.lJYe_.Alike o'.lJYe_

end Opac
