import Mathlib.Analysis.SpecialFunctions.Exp
import Mathlib.Analysis.SpecialFunctions.Trigonometric.Basic
import Verif.Model.Constants

/-! # Thermal radiation (independent of the model's formulas) -/

namespace Opac.Spec

/-- Planck's law: `B_ν(T) = (2hν³/c²) / (e^{hν/kT} - 1)` -/
noncomputable def planckLaw (h k c T ν : ℝ) : ℝ := 2 * h * ν ^ 3 / c ^ 2 / (Real.exp (h * ν / (k * T)) - 1)

/-- Fermi–Dirac spectrum at zero chemical potential with `g` species:
`B_ν(T) = g (2hν³/c²) / (e^{hν/kT} + 1)` -/
noncomputable def fermiDiracLaw (g h k c T ν : ℝ) : ℝ :=
  g * (2 * h * ν ^ 3 / c ^ 2) / (Real.exp (h * ν / (k * T)) + 1)

/-- admissible physical constants: those that enter thermal radiation are positive, and the radiation constant
is `8π⁵k⁴/(15 h³c³)` (every set of constants the library defines qualifies, see `PosPC_of_base`) -/
structure PosPC (pc : PC ℝ) : Prop where
  h : 0 < pc.h
  kb : 0 < pc.kb
  c : 0 < pc.c
  ar : pc.ar = 8 * Real.pi ^ 5 * pc.kb ^ 4 / (15 * pc.h ^ 3 * pc.c ^ 3)

/-- the constants of matter that enter opacities are positive -/
structure PosMatter (pc : PC ℝ) : Prop where
  me : 0 < pc.me
  mp : 0 < pc.mp
  qe : 0 < pc.qe
  nu_sigma0 : 0 < pc.nu_sigma0

end Opac.Spec
