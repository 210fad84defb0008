import Verif.Model.Arith

/-!
# Base: control outcomes, robust utilities, radiation types
-/

namespace Opac
open Arith

/-- How a call can end.
* `ok v`     : returns `v`;
* `abort m`  : `OPAC_ERROR`, `PORTABLE_REQUIRE`/`PORTABLE_ALWAYS_REQUIRE` or `assert` failure;
* `ub why`   : undefined behaviour (out-of-range access, uninitialised read, signed overflow).
Models `singularity-opac/base/opac_error.hpp:20-28` (both the throwing and the exiting variant: the caller
never receives a value). -/
inductive Outcome (α : Type) where
  | ok (v : α)
  | abort (msg : String)
  | ub (why : String)

namespace Outcome
/-- sequencing: the continuation runs only after a normal return -/
def bind {α β : Type} (x : Outcome α) (f : α → Outcome β) : Outcome β :=
  match x with
  | ok v => f v
  | abort m => abort m
  | ub w => ub w

instance : Monad Outcome where
  pure := ok
  bind := bind

/-- apply a function to the returned value -/
def map' {α β : Type} (f : α → β) : Outcome α → Outcome β
  | ok v => ok (f v)
  | abort m => abort m
  | ub w => ub w

/-- the call returned `v` -/
def Returns {α : Type} (x : Outcome α) (v : α) : Prop := x = ok v
/-- the call stopped with a reported error -/
def Aborts {α : Type} (x : Outcome α) : Prop := ∃ m, x = abort m
/-- the call ran into undefined behaviour -/
def IsUB {α : Type} (x : Outcome α) : Prop := ∃ w, x = ub w

/-- `PORTABLE_ALWAYS_REQUIRE(c, m)` -/
def require (c : Bool) (m : String) : Outcome Unit := if c then ok () else abort m
end Outcome

namespace Robust
variable {R : Type} [Arith R]

/-- `singularity-opac/base/robust_utils.hpp:23-26` -/
def SMALL : R := lit 10 * dmin
/-- `singularity-opac/base/robust_utils.hpp:28-31` -/
def EPS : R := lit 10 * deps
/-- `singularity-opac/base/robust_utils.hpp:33-36` -/
def make_positive (val : R) : R := stdMax val EPS
/-- `singularity-opac/base/robust_utils.hpp:38-41` -/
def make_bounded (val vmin vmax : R) : R := stdMin (stdMax val (vmin + EPS)) (vmax * (lit 1 - EPS))
/-- `singularity-opac/base/robust_utils.hpp:43-46`: `(T(0) <= val) - (val < T(0))`, an `int` -/
def sgn (val : R) : ℤ := (if le (lit 0) val then 1 else 0) - (if lt val (lit 0) then 1 else 0)
/-- `singularity-opac/base/robust_utils.hpp:48-51` (the `int` sign is converted to `Real`) -/
def ratio (a b : R) : R := a / (b + lit (sgn b) * SMALL)
end Robust

/-- `singularity-opac/base/radiation_types.hpp:24-30` -/
inductive RadiationType where
  | TRACER | NU_ELECTRON | NU_ELECTRON_ANTI | NU_HEAVY | PHOTON
  deriving DecidableEq, Repr

/-- `singularity-opac/base/radiation_types.hpp:23` -/
def NEUTRINO_NTYPES : ℤ := 3

/-- `singularity-opac/base/radiation_types.hpp:24-33` -/
def RadType2Idx : RadiationType → ℤ
  | .TRACER => -1
  | .NU_ELECTRON => 0
  | .NU_ELECTRON_ANTI => 1
  | .NU_HEAVY => 2
  | .PHOTON => 3

/-- `singularity-opac/base/radiation_types.hpp:35-51` -/
def Idx2RadType (i : ℤ) : Outcome RadiationType :=
  if i = -1 then .ok .TRACER
  else if i = 0 then .ok .NU_ELECTRON
  else if i = 1 then .ok .NU_ELECTRON_ANTI
  else if i = 2 then .ok .NU_HEAVY
  else if i = 3 then .ok .PHOTON
  else .abort "Unknown radiation type"

/-- `for (int i = 0; i < n; ++i) s = body(i, s)`; a negative `n` runs no iteration. -/
def forLoop {S : Type} (n : ℤ) (body : ℕ → S → S) (s : S) : S :=
  (List.range n.toNat).foldl (fun s i => body i s) s

end Opac
