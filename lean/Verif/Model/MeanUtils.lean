import Verif.Model.PhotonThermal
import Verif.Model.Spiner

/-!
# Multigroup helpers
Models `singularity-opac/photons/mean_photon_utils.hpp`.

A user-provided bounds indexer is the list of values it holds; reading past its end is undefined
behaviour.  The stored rank-1 `DataBox` of bounds is likewise the list of its entries.
-/

namespace Opac.Photons
open Arith

variable {R : Type} [Arith R]

/-- `mean_photon_types.hpp:25` -/
def gmodeRosseland : ℤ := 0
/-- `mean_photon_types.hpp:25` -/
def gmodePlanck : ℤ := 1

/-- `std::isfinite` -/
def isFinite (x : R) : Bool := !(isNaN x) && !(isInf x)

/-- `mean_photon_utils.hpp:36-40` -/
def ToLog (x : R) : R := log10 (abs x + lit 10 * dmin)
/-- `mean_photon_utils.hpp:42-43` -/
def FromLog (lx : R) : R := pow (lit 10) lx

/-- `mean_photon_utils.hpp:47-56` -/
def GroupBoundAt (group_bounds : List R) (group : ℕ) : Outcome R :=
  match group_bounds[group]? with
  | some b => .ok b
  | none => .ub "group bound index out of range"

/-- largest value of a 32-bit `int` -/
def INT_MAX : ℕ := 2147483647

/-- The loop `mean_photon_utils.hpp:75-83`.  `reads` counts the bounds read so far (ghost).
`lower + upper` beyond `INT_MAX` is signed overflow. -/
def GroupOfNuLoop (groupBounds : List R) (nu : R) (lower upper : ℕ) (reads : ℕ) : Outcome (ℕ × ℕ) :=
  if upper - lower > 1 then
    if lower + upper > INT_MAX then .ub "signed overflow in lower + upper"
    else
      let middle := (lower + upper) / 2
      match GroupBoundAt groupBounds middle with
      | .ok b =>
          if lt nu b then GroupOfNuLoop groupBounds nu lower middle (reads + 1)
          else GroupOfNuLoop groupBounds nu middle upper (reads + 1)
      | .abort m => .abort m
      | .ub w => .ub w
  else .ok (lower, reads)
termination_by upper - lower
decreasing_by all_goals omega

/-- `mean_photon_utils.hpp:62-84`, with the number of bounds read (ghost second component) -/
def GroupOfNuImplR (groupBounds : List R) (ngroups : ℕ) (nu : R) : Outcome (ℕ × ℕ) := do
  let b0 ← GroupBoundAt groupBounds 0
  if le nu b0 then return (0, 1)
  let bN ← GroupBoundAt groupBounds ngroups
  if ge nu bN then return (ngroups - 1, 2)
  GroupOfNuLoop groupBounds nu 0 ngroups 2

/-- `mean_photon_utils.hpp:62-84` -/
def GroupOfNuImpl (groupBounds : List R) (ngroups : ℕ) (nu : R) : Outcome ℕ :=
  (GroupOfNuImplR groupBounds ngroups nu).map' Prod.fst

/-- `mean_photon_utils.hpp:87-94` (and `ExportGroupBounds`, 97-104): copy entries `0..ngroups` -/
def SetGroupBounds (group_bounds : List R) (ngroups : ℕ) : Outcome (List R) :=
  (List.range (ngroups + 1)).mapM (fun group => GroupBoundAt group_bounds group)

/-- `mean_photon_utils.hpp:97-104` -/
def ExportGroupBounds (storedBounds : List R) (ngroups : ℕ) : Outcome (List R) :=
  (List.range (ngroups + 1)).mapM (fun group => GroupBoundAt storedBounds group)

/-- one iteration of the loop of `ValidateGroupBounds`, `mean_photon_utils.hpp:115-135` -/
def ValidateOne (group_bounds : List R) (ngroups : ℕ) (group : ℕ) : Outcome Unit := do
  let bound ← GroupBoundAt group_bounds group
  if isNaN bound then
    (Outcome.abort "photons multigroup: group bounds must be finite or IEEE +infinity" : Outcome Unit)
  if isInf bound && lt bound (lit 0) then
    (Outcome.abort "photons multigroup: group bounds may not be -infinity" : Outcome Unit)
  if group = 0 then
    if !(ge bound (lit 0)) then
      (Outcome.abort "photons multigroup: first group bound must be nonnegative" : Outcome Unit)
  else
    let prev ← GroupBoundAt group_bounds (group - 1)
    if !(gt bound prev) then
      (Outcome.abort "photons multigroup: group bounds must be strictly increasing" : Outcome Unit)
  if !(isFinite bound) && group != ngroups then
    (Outcome.abort "photons multigroup: only the final group bound may be IEEE +infinity" : Outcome Unit)

/-- `mean_photon_utils.hpp:108-137` -/
def ValidateGroupBounds (group_bounds : List R) (ngroups : ℤ) : Outcome Unit :=
  if ngroups ≤ 0 then .abort "photons multigroup: ngroups must be positive"
  else forLoopM (ngroups + 1) (fun group _ => ValidateOne group_bounds ngroups.toNat group) ()

/-- integration window of `ForEachGroupFrequencySample`, `mean_photon_utils.hpp:149-173` -/
def SampleWindow (pc : PC R) (temp nuMin nuMax : R) : R × R :=
  let nu_thermal_min := lit 1.e-3 * pc.kb * temp / pc.h
  let nu_thermal_max := lit 1.e3 * pc.kb * temp / pc.h
  let is_lower_extreme := eqb nuMin (lit 0) || lt nuMin (lit 0.1 * nu_thermal_min)
  let is_upper_extreme := !(isFinite nuMax) || gt nuMax (lit 10 * nu_thermal_max)
  let nu_sample_min := if is_lower_extreme then nu_thermal_min else nuMin
  let nu_sample_max := if is_upper_extreme then nu_thermal_max else nuMax
  if ge nu_sample_min nu_sample_max then
    if isFinite nuMax && gt nuMax (lit 0) then (lit 0.5 * nuMax, nuMax)
    else (lit 0.1 * nu_thermal_max, nu_thermal_max)
  else (nu_sample_min, nu_sample_max)

/-- The `(nu, weight)` pairs passed to `sample_op`, in call order: `mean_photon_utils.hpp:143-184` -/
def GroupFrequencySamples (pc : PC R) (temp nuMin nuMax : R) (NNuPerGroup : ℤ) : List (R × R) :=
  let w := SampleWindow pc temp nuMin nuMax
  let lNuMin := ToLog w.1
  let lNuMax := ToLog w.2
  let dlnu := (lNuMax - lNuMin) / lit NNuPerGroup
  (List.range NNuPerGroup.toNat).map fun (inu : ℕ) =>
    let lnu := lNuMin + (lit inu + lit 0.5) * dlnu
    let nu := FromLog lnu
    (nu, nu * dlnu)

/-- `mean_photon_types.hpp:32` -/
def wien_tail_x : R := lit 80

/-- `mean_photon_utils.hpp:188-202`: the pair `(B, dBdT)` -/
def ThermalWeightsAtNu (pc : PC R) (temp nu : R) : R × R :=
  let x := pc.h * nu / (pc.kb * temp)
  if lt x wien_tail_x then
    (Planck.ThermalDistributionOfTNu pc temp nu, Planck.DThermalDistributionOfTNuDT pc temp nu)
  else
    let expMinusX := exp (-x)
    ((lit 2 * pc.h * nu * nu * nu / (pc.c * pc.c)) * expMinusX,
     lit 2 * pc.h * pc.h * nu * nu * nu * nu * expMinusX / (temp * temp * pc.c * pc.c * pc.kb))

end Opac.Photons
