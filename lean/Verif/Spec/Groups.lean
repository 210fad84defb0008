import Verif.Model.Arith

/-!
# Specification: frequency groups

Only the order on the carrier is used; nothing here refers to the model.
-/

namespace Opac.Spec
open Arith

variable {R : Type} [Arith R]

/-- `b` holds at least the `n + 1` bounds of a partition of the nonnegative axis into `n ≥ 1` groups:
no NaN, first bound `≥ 0`, strictly increasing, and only the last may be infinite. -/
structure AcceptableBounds (b : List R) (n : ℤ) : Prop where
  some_group : 1 ≤ n
  enough : n < b.length
  not_nan : ∀ (i : ℕ) (x : R), (i : ℤ) ≤ n → b[i]? = some x → isNaN x = false
  first_nonneg : ∀ x : R, b[0]? = some x → le (lit 0) x = true
  increasing : ∀ (i : ℕ) (x y : R), (i : ℤ) < n → b[i]? = some x → b[i + 1]? = some y → lt x y = true
  finite_inside : ∀ (i : ℕ) (x : R), (i : ℤ) < n → b[i]? = some x → isInf x = false

/-- `nu` lies in group `g` of the `n` groups bounded by `b`: half-open, the last group closed. -/
def InGroup (b : List R) (n g : ℕ) (nu : R) : Prop :=
  g < n ∧ ∃ lo hi : R, b[g]? = some lo ∧ b[g + 1]? = some hi ∧
    le lo nu = true ∧ (lt nu hi = true ∨ (g + 1 = n ∧ le nu hi = true))

end Opac.Spec
