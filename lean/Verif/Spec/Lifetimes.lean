import Verif.Model.Memory

/-!
# What a program may expect of objects that hold tables

Every object is a value of its own: a method returns what the value determines, whatever happened to other objects in
the meantime, and `GetOnDevice` gives a second object with the same value.  The program must follow the rules of
`Allowed`: use an object after it was constructed and before it was finalized or moved from, do not overwrite an object
that was not finalized, and do not make plain copies.
-/

namespace Opac.Lifetimes
open Memory Hdf

variable {R : Type}

/-- what the program knows about a variable -/
inductive Slot (R : Type) where
  /-- not constructed -/
  | unused
  /-- holds an object with this value -/
  | live (v : Val R)
  /-- its `Finalize()` was called -/
  | finalized
  /-- it was moved from -/
  | moved

/-- the variable holds an object that has not been finalized -/
def Slot.IsLive : Slot R → Prop
  | live _ => True
  | _ => False

/-- the rules for one call -/
def Allowed (s : ℕ → Slot R) : Call R → Prop
  | .make k _ => ¬ (s k).IsLive
  | .getOnDevice k k' => (s k).IsLive ∧ ¬ (s k').IsLive
  | .wrap k k' _ _ _ _ => (s k).IsLive ∧ ¬ (s k').IsLive
  | .copy _ _ => False
  | .lookup k _ => (s k).IsLive
  | .save k _ _ _ => (s k).IsLive
  | .finalize k => (s k).IsLive ∨ s k = .finalized

/-- with the value of `k` -/
def withLive {α : Type} (s : ℕ → Slot R) (k : ℕ) (f : Val R → Outcome α) : Outcome α :=
  match s k with
  | .live v => f v
  | _ => .ub "not live"

/-- what the caller of a call gets -/
def result [Arith R] (s : ℕ → Slot R) : Call R → Outcome (Obs R)
  | .make _ c => c.value.map' fun _ => .nothing
  | .lookup k q => withLive s k fun v => (q v).map' .number
  | .save k junk fails f => withLive s k fun v => (v.Save junk fails f).map' .file
  | _ => .ok .nothing

/-- the variables after a call -/
def after [Arith R] (s : ℕ → Slot R) : Call R → ℕ → Slot R
  | .make k c =>
    match c.value with
    | .ok v => Function.update s k (.live v)
    | _ => s
  | .getOnDevice k k' => Function.update s k' (s k)
  | .wrap k k' t m l te =>
    match s k with
    | .live v => Function.update (Function.update s k .moved) k' (.live (.wrapped t m l te v))
    | _ => s
  | .finalize k => Function.update s k .finalized
  | _ => s

/-- every call of the program follows the rules -/
def Follows [Arith R] : List (Call R) → (ℕ → Slot R) → Prop
  | [], _ => True
  | c :: cs, s => Allowed s c ∧ Follows cs (after s c)

/-- what the calls of a program return; it ends at undefined behaviour -/
def results [Arith R] : List (Call R) → (ℕ → Slot R) → List (Outcome (Obs R))
  | [], _ => []
  | c :: cs, s =>
    match result s c with
    | .ub w => [.ub w]
    | x => x :: results cs (after s c)

/-- the variables at the end of a program -/
def atEnd [Arith R] : List (Call R) → (ℕ → Slot R) → ℕ → Slot R
  | [], s => s
  | c :: cs, s =>
    match result s c with
    | .ub _ => after s c
    | _ => atEnd cs (after s c)

/-- a program before its first call: no variable is in use -/
def start : ℕ → Slot R := fun _ => .unused

/-- the call completes: it returns, or it is a lookup that ends in an error.  (A constructor or a `Save` that ends in an
error has not completed.) -/
def Completes [Arith R] (s : ℕ → Slot R) : Call R → Prop
  | .lookup k q => ∀ w, result s (.lookup k q) ≠ .ub w
  | c => ∃ x, result s c = .ok x

/-- every call of the program completes -/
def AllComplete [Arith R] : List (Call R) → (ℕ → Slot R) → Prop
  | [], _ => True
  | c :: cs, s => Completes s c ∧ AllComplete cs (after s c)

/-- the call loads a NuLib file -/
def IsNuLib : Call R → Prop
  | .make _ (.spinerNuLib _ _ _ _ _) => True
  | _ => False

end Opac.Lifetimes
