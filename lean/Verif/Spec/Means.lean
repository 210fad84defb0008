import Verif.Spec.Thermal
import Mathlib.Algebra.BigOperators.Group.Finset.Basic
import Mathlib.Algebra.Order.Ring.Rat
import Mathlib.Analysis.SpecialFunctions.Log.Base

/-!
# Specification: group means of a photon opacity

Real functions only; nothing here refers to the model.  `S` is the floor added by the library (`10·2^-1022`).
-/

namespace Opac.Spec
open Finset

/-- `dB/dT` of Planck's law -/
noncomputable def planckLawDT (h k c T ν : ℝ) : ℝ :=
  2 * h ^ 2 * ν ^ 4 / (T ^ 2 * c ^ 2 * k) * Real.exp (-(h * ν / (k * T))) / (1 - Real.exp (-(h * ν / (k * T)))) ^ 2

open Classical in
/-- weight of the Planck mean: Planck's law, or its Wien tail from `hν = 80 kT` on -/
noncomputable def planckWeight (h k c T ν : ℝ) : ℝ :=
  if h * ν / (k * T) < 80 then planckLaw h k c T ν
  else 2 * h * ν ^ 3 / c ^ 2 * Real.exp (-(h * ν / (k * T)))

open Classical in
/-- weight of the Rosseland mean: `dB/dT`, or its Wien tail from `hν = 80 kT` on -/
noncomputable def rosselandWeight (h k c T ν : ℝ) : ℝ :=
  if h * ν / (k * T) < 80 then planckLawDT h k c T ν
  else 2 * h ^ 2 * ν ^ 4 / (T ^ 2 * c ^ 2 * k) * Real.exp (-(h * ν / (k * T)))

/-- width of one of `N` logarithmic bins of `[a, b]` -/
noncomputable def binWidth (a b : ℝ) (N : ℕ) : ℝ := (Real.logb 10 b - Real.logb 10 a) / N

/-- centre of the `i`-th of `N` logarithmic bins of `[a, b]` -/
noncomputable def binCentre (a b : ℝ) (N i : ℕ) : ℝ := 10 ^ (Real.logb 10 a + (i + 1 / 2) * binWidth a b N)

open Classical in
/-- the frequency window sampled for the group `[lo, hi]` (`hi = none`: no upper bound) when `ν₁, ν₂` bound the thermal
range: group bounds far outside the thermal range are replaced by its ends; if nothing is left, half of the group below
its upper bound, or the last decade of the thermal range -/
noncomputable def window (ν₁ ν₂ lo : ℝ) (hi : Option ℝ) : ℝ × ℝ :=
  let a := if lo = 0 ∨ lo < 0.1 * ν₁ then ν₁ else lo
  let b := match hi with
    | none => ν₂
    | some hi => if 10 * ν₂ < hi then ν₂ else hi
  if b ≤ a then
    match hi with
    | some hi => (0.5 * hi, hi)
    | none => (0.1 * ν₂, ν₂)
  else (a, b)

/-- Planck mean of the absorption coefficients `α` at density `ρ`, with weights `B` and bin widths `dν` -/
noncomputable def planckMean (S ρ : ℝ) (N : ℕ) (dν B α : ℕ → ℝ) : ℝ :=
  (∑ i ∈ range N, α i / ρ * B i * dν i) / (∑ i ∈ range N, B i * dν i + S)

open Classical in
/-- Rosseland mean; samples with `α ≤ S` do not enter the numerator -/
noncomputable def rosselandMean (S ρ : ℝ) (N : ℕ) (dν D α : ℕ → ℝ) : ℝ :=
  let den := ∑ i ∈ range N, D i * dν i
  let num := ∑ i ∈ range N, if S < α i then ρ / (α i + S) * D i * dν i else 0
  if S < den ∧ S < num then den / (num + S) else 0

/-- thermal range: `10^-3 kT/h` to `10^3 kT/h` -/
noncomputable def groupWindow (h k T lo : ℝ) (hi : Option ℝ) : ℝ × ℝ :=
  window (1e-3 * k * T / h) (1e3 * k * T / h) lo hi

/-- `i`-th frequency at which the group `[lo, hi]` is sampled -/
noncomputable def groupNu (S h k T lo : ℝ) (hi : Option ℝ) (N i : ℕ) : ℝ :=
  binCentre ((groupWindow h k T lo hi).1 + S) ((groupWindow h k T lo hi).2 + S) N i

/-- its bin width in frequency (up to the constant factor `ln 10`) -/
noncomputable def groupDNu (S h k T lo : ℝ) (hi : Option ℝ) (N i : ℕ) : ℝ :=
  groupNu S h k T lo hi N i * binWidth ((groupWindow h k T lo hi).1 + S) ((groupWindow h k T lo hi).2 + S) N

/-- Planck mean of `α` over the group -/
noncomputable def groupPlanckMean (S h k c ρ T lo : ℝ) (hi : Option ℝ) (N : ℕ) (α : ℝ → ℝ) : ℝ :=
  planckMean S ρ N (groupDNu S h k T lo hi N) (fun i => planckWeight h k c T (groupNu S h k T lo hi N i))
    (fun i => α (groupNu S h k T lo hi N i))

/-- Rosseland mean of `α` over the group -/
noncomputable def groupRosselandMean (S h k c ρ T lo : ℝ) (hi : Option ℝ) (N : ℕ) (α : ℝ → ℝ) : ℝ :=
  rosselandMean S ρ N (groupDNu S h k T lo hi N) (fun i => rosselandWeight h k c T (groupNu S h k T lo hi N i))
    (fun i => α (groupNu S h k T lo hi N i))

/-- sum of the weights of the Planck mean -/
noncomputable def planckTotal (S h k c T lo : ℝ) (hi : Option ℝ) (N : ℕ) : ℝ :=
  ∑ i ∈ range N, planckWeight h k c T (groupNu S h k T lo hi N i) * groupDNu S h k T lo hi N i

/-- sum of the weights of the Rosseland mean -/
noncomputable def rosselandTotal (S h k c T lo : ℝ) (hi : Option ℝ) (N : ℕ) : ℝ :=
  ∑ i ∈ range N, rosselandWeight h k c T (groupNu S h k T lo hi N i) * groupDNu S h k T lo hi N i

end Opac.Spec
