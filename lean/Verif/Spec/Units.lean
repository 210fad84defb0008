import Mathlib.Analysis.SpecialFunctions.Pow.Real

/-!
# Dimensional analysis (independent of the model)

A unit system is given by the CGS value of its units of time, mass, length and temperature.  A quantity
whose dimension is `s^t g^m cm^l K^θ` and whose value in CGS is `x` has the value
`x / (time^t · mass^m · length^l · temp^θ)` in code units.
-/

namespace Opac.Spec

/-- exponents of time, mass, length and temperature -/
structure Dim where
  t : ℝ
  m : ℝ
  l : ℝ
  θ : ℝ

/-- the CGS values of the code units -/
structure Units where
  time : ℝ
  mass : ℝ
  length : ℝ
  temp : ℝ

/-- all units are positive -/
structure Units.Pos (u : Units) : Prop where
  time : 0 < u.time
  mass : 0 < u.mass
  length : 0 < u.length
  temp : 0 < u.temp

/-- CGS value of the code unit of dimension `d` -/
noncomputable def Units.unit (u : Units) (d : Dim) : ℝ :=
  u.time ^ d.t * u.mass ^ d.m * u.length ^ d.l * u.temp ^ d.θ

/-- the value in code units of a quantity of dimension `d` with CGS value `x` -/
noncomputable def Units.toCode (u : Units) (d : Dim) (x : ℝ) : ℝ := x / u.unit d

/-- the CGS value of a quantity of dimension `d` with value `x` in code units -/
noncomputable def Units.toCGS (u : Units) (d : Dim) (x : ℝ) : ℝ := x * u.unit d

namespace Dim
/-- pure number -/
def one : Dim := ⟨0, 0, 0, 0⟩
/-- product of dimensions -/
noncomputable def mul (a b : Dim) : Dim := ⟨a.t + b.t, a.m + b.m, a.l + b.l, a.θ + b.θ⟩
/-- quotient of dimensions -/
noncomputable def div (a b : Dim) : Dim := ⟨a.t - b.t, a.m - b.m, a.l - b.l, a.θ - b.θ⟩
/-- power of a dimension -/
noncomputable def pow (a : Dim) (r : ℝ) : Dim := ⟨r * a.t, r * a.m, r * a.l, r * a.θ⟩
def time : Dim := ⟨1, 0, 0, 0⟩
def mass : Dim := ⟨0, 1, 0, 0⟩
def length : Dim := ⟨0, 0, 1, 0⟩
def temperature : Dim := ⟨0, 0, 0, 1⟩
def frequency : Dim := ⟨-1, 0, 0, 0⟩
def density : Dim := ⟨0, 1, -3, 0⟩
def velocity : Dim := ⟨-1, 0, 1, 0⟩
/-- erg = g cm² s⁻² -/
def energy : Dim := ⟨-2, 1, 2, 0⟩
/-- cm² -/
def area : Dim := ⟨0, 0, 2, 0⟩
/-- erg s -/
def action : Dim := ⟨-1, 1, 2, 0⟩
/-- erg K⁻¹ -/
def entropy : Dim := ⟨-2, 1, 2, -1⟩
/-- cm⁻¹ -/
def inverseLength : Dim := ⟨0, 0, -1, 0⟩
/-- erg cm⁻³ -/
def energyDensity : Dim := ⟨-2, 1, -1, 0⟩
/-- cm⁻³ -/
def numberDensity : Dim := ⟨0, 0, -3, 0⟩
/-- erg cm⁻³ s⁻¹ -/
def emissivity : Dim := ⟨-3, 1, -1, 0⟩
/-- erg cm⁻³ s⁻¹ Hz⁻¹ -/
def emissivityPerNu : Dim := ⟨-2, 1, -1, 0⟩
/-- cm⁻³ s⁻¹ -/
def numberEmissivity : Dim := ⟨-1, 0, -3, 0⟩
/-- erg cm⁻² s⁻¹ Hz⁻¹ -/
def intensityPerNu : Dim := ⟨-2, 1, 0, 0⟩
/-- erg cm⁻² s⁻¹ -/
def intensity : Dim := ⟨-3, 1, 0, 0⟩
/-- erg cm⁻² s⁻¹ Hz⁻¹ K⁻¹ -/
def intensityPerNuTemp : Dim := ⟨-2, 1, 0, -1⟩
/-- cm⁻² s⁻¹ -/
def numberFlux : Dim := ⟨-1, 0, -2, 0⟩
/-- esu = g^½ cm^{3/2} s⁻¹ -/
noncomputable def charge : Dim := ⟨-1, 1 / 2, 3 / 2, 0⟩
/-- cm³ g⁻¹ s⁻² -/
def gravity : Dim := ⟨-2, -1, 3, 0⟩
/-- erg⁻² -/
def inverseEnergySq : Dim := ⟨4, -2, -4, 0⟩
/-- erg cm⁻² s⁻¹ K⁻⁴ -/
def stefanBoltzmann : Dim := ⟨-3, 1, 0, -4⟩
/-- erg cm⁻³ K⁻⁴ -/
def radiationConstant : Dim := ⟨-2, 1, -1, -4⟩
end Dim

end Opac.Spec
