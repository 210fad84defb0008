import Verif.Spec.LookupAccuracy
import Verif.Spec.Means
import Verif.Spec.Accuracy

/-!
# When rounding does not change which frequencies are sampled

Group bounds far outside the thermal range of a temperature are replaced by its ends, so the sampled window jumps when the
temperature passes certain values.  Averages computed with rounding can be compared with exact averages only away from
these values.
-/

namespace Opac.Spec

/-- at least one part in a thousand apart -/
def Apart (x y : ℝ) : Prop := x ≤ 0.999 * y ∨ y ≤ 0.999 * x

open Classical in
/-- ends of the window before the test that something is left: group bounds, or ends `ν₁`, `ν₂` of the thermal range -/
noncomputable def windowEnds (ν₁ ν₂ lo hi : ℝ) : ℝ × ℝ :=
  (if lo = 0 ∨ lo < 0.1 * ν₁ then ν₁ else lo, if 10 * ν₂ < hi then ν₂ else hi)

/-- The group `[lo, hi]` at temperature `T`: no test of the window is undecided, and the window `w` spans at least `W`
decades between `10^-L` and `10^L`, with `hν/kT` at most `Q`.  (`tiny` is what the code adds to a frequency before it takes
the logarithm.) -/
structure ClearWindow (tiny h k T lo hi L W Q : ℝ) : Prop where
  lower : lo = 0 ∨ Apart lo (0.1 * (1e-3 * k * T / h))
  upper : Apart (10 * (1e3 * k * T / h)) hi
  order : Apart (windowEnds (1e-3 * k * T / h) (1e3 * k * T / h) lo hi).1
    (windowEnds (1e-3 * k * T / h) (1e3 * k * T / h) lo hi).2
  low : 10 ^ (-L) ≤ (groupWindow h k T lo (some hi)).1
  high : (groupWindow h k T lo (some hi)).2 + tiny ≤ 10 ^ L
  wide : 10 ^ W * ((groupWindow h k T lo (some hi)).1 + tiny) ≤ (groupWindow h k T lo (some hi)).2 + tiny
  wien : h * ((groupWindow h k T lo (some hi)).2 + tiny) ≤ Q * (k * T)

/-- a table of exact logarithms: entries of size at most `M`, neighbours along the given axes differing by at most `D` -/
structure SmoothTable (d : Spiner.DataBox ℝ) (axes : List ℕ) (M D : ℝ) : Prop where
  size : ∀ is v, d.read is = .ok v → |v| ≤ M
  step : ∀ k ∈ axes, ∀ is v v', d.read is = .ok v → d.read (is.modify (d.rank - 1 - k) (· + 1)) = .ok v' → |v' - v| ≤ D

/-- A bound for the number of rounding errors in an average over `N` frequencies when each opacity has `C`. -/
noncomputable def Budget (C L W Q : ℝ) (N : ℤ) : ℝ := C + L * (3400 + 1212 * Q + 76 / W) + 2 * N

/-- A bound for the number of rounding errors in an absorption coefficient: `n` unit wrappers, exponents of total size `S`,
`hν/kT = K ν/T` in the units of the opacity, and temperatures and frequencies with up to `150 L` rounding errors. -/
noncomputable def absorptionCost (n : ℕ) (S K Q h k L : ℝ) : ℝ := 64 * (1 + S) * (1 + K * (Q * k / h)) * (150 * L + 11 * n + 1)

/-- The same for a scattering coefficient. -/
noncomputable def scatteringCost (n : ℕ) (S L : ℝ) : ℝ := 16 * (1 + S) * (150 * L + 5 * n + 1)

/-- the relative error of a mean with `P` rounding errors in the averages -/
noncomputable def MeanErr (u X s M D P : ℝ) : ℝ := u * (1800 * (X / s) * D + 184 * M + 4 * P)

/-- the `i`-th of `N` equally spaced numbers from `a` to `b` -/
noncomputable def nodeAt (a b : ℝ) (N : ℤ) (i : ℕ) : ℝ := i * ((b - a) / (N - 1)) + a

/-- The arguments of the constructor of a group mean: grids with ends at most `X` and spacing at least `s` (in decades), a
quadrature with at least two points, and clear windows at all temperatures of the grid. -/
structure WellPosed {rd : ℝ → ℝ} (pc : PC (Fl rd)) (lRhoMin lRhoMax : Fl rd) (NRho : ℤ) (lTMin lTMax : Fl rd) (NT : ℤ)
    (b : List (Fl rd)) (n N : ℤ) (X s L W Q : ℝ) : Prop where
  consts : PosConsts pc.exact
  rho : Axis ⟨lRhoMin, lRhoMax, NRho⟩ X s
  temp : Axis ⟨lTMin, lTMax, NT⟩ X s
  ends : 1 ≤ X ∧ X ≤ L
  width : 0 < W
  wien : 0 ≤ Q
  quad : 2 ≤ N ∧ N ≤ 2 ^ 24
  window : ∀ i g : ℕ, (i : ℤ) < NT → (g : ℤ) < n → ∀ lo hi, b[g]? = some lo → b[g + 1]? = some hi →
    ClearWindow (10 * 2 ^ (-1022 : ℤ)) pc.h.val pc.kb.val (10 ^ nodeAt lTMin.val lTMax.val NT i) lo.val hi.val L W Q

/-- The Rosseland mean of the group `[lo, hi]` is computed from all samples: opacities and sums are twice as large as the
floor `S`. -/
structure ClearRosseland (S h k c ρ T lo hi : ℝ) (N : ℕ) (α : ℝ → ℝ) : Prop where
  opacity : ∀ i < N, 2 * S ≤ α (groupNu S h k T lo (some hi) N i)
  weights : 2 * S ≤ rosselandTotal S h k c T lo (some hi) N
  sum : 2 * S ≤ ∑ i ∈ Finset.range N, ρ / (α (groupNu S h k T lo (some hi) N i) + S) *
    rosselandWeight h k c T (groupNu S h k T lo (some hi) N i) * groupDNu S h k T lo (some hi) N i

end Opac.Spec
