import Verif.Model.Heap

/-!
# Vectorised calls (independent of the model)

A vectorised call reads `nbins` frequencies through one indexer and stores `nbins` results through another.
-/

namespace Opac.Spec

/-- result slots are distinct, and no frequency slot is a result slot written earlier (in-place use of one
array, `nu_bins = coeffs`, is allowed) -/
structure Ordered (nb co : Indexer) (n : ℤ) : Prop where
  distinct : ∀ i j : ℕ, (i : ℤ) < n → (j : ℤ) < n → co i = co j → i = j
  ordered : ∀ i j : ℕ, (i : ℤ) < n → j < i → nb i ≠ co j

/-- frequency slots and result slots are all distinct -/
structure Separate (nb co : Indexer) (n : ℤ) : Prop where
  distinct : ∀ i j : ℕ, (i : ℤ) < n → (j : ℤ) < n → co i = co j → i = j
  freqDistinct : ∀ i j : ℕ, (i : ℤ) < n → (j : ℤ) < n → nb i = nb j → i = j
  apart : ∀ i j : ℕ, (i : ℤ) < n → (j : ℤ) < n → nb i ≠ co j

/-- `m'` is `m` with slot `i` of `co` set to `f (frequency i)` for every `i < n` and nothing else changed -/
structure Filled {R : Type} (f : R → R) (nb co : Indexer) (n : ℤ) (m m' : Heap R) : Prop where
  results : ∀ i : ℕ, (i : ℤ) < n → m' (co i) = f (m (nb i))
  frame : ∀ a, (∀ i : ℕ, (i : ℤ) < n → a ≠ co i) → m' a = m a

/-- frequencies are untouched when they are not result slots -/
theorem Filled.frequencies {R : Type} {f : R → R} {nb co : Indexer} {n : ℤ} {m m' : Heap R}
    (h : Filled f nb co n m m') (s : Separate nb co n) (i : ℕ) (hi : (i : ℤ) < n) : m' (nb i) = m (nb i) :=
  h.frame _ fun j hj => s.apart i j hi hj

theorem Separate.ordered {nb co : Indexer} {n : ℤ} (s : Separate nb co n) : Ordered nb co n :=
  ⟨s.distinct, fun i j hi hj => s.apart i j hi (by omega)⟩

/-- the memory after the call is determined -/
theorem Filled.unique {R : Type} {f : R → R} {nb co : Indexer} {n : ℤ} {m m₁ m₂ : Heap R}
    (h₁ : Filled f nb co n m m₁) (h₂ : Filled f nb co n m m₂) : m₁ = m₂ := by
  funext a
  by_cases ha : ∃ i : ℕ, (i : ℤ) < n ∧ a = co i
  · obtain ⟨i, hi, rfl⟩ := ha
    rw [h₁.results i hi, h₂.results i hi]
  · have ha' : ∀ i : ℕ, (i : ℤ) < n → a ≠ co i := fun i hi h => ha ⟨i, hi, h⟩
    rw [h₁.frame a ha', h₂.frame a ha']

/-- a vectorised method agrees with the scalar one on every memory and every non-aliased pair of arrays of every
length -/
def Elementwise {R : Type} (f : R → R) (V : Indexer → Indexer → ℤ → Heap R → Heap R) : Prop :=
  ∀ nb co n m, Separate nb co n → Filled f nb co n m (V nb co n m)

/-- a vectorised method whose scalar version may abort or hit undefined behaviour: it returns exactly when every
scalar call does, and then stores the scalar results -/
def ElementwiseM {R : Type} (f : R → Outcome R) (V : Indexer → Indexer → ℤ → Heap R → Outcome (Heap R)) : Prop :=
  ∀ nb co n m, Separate nb co n →
    (∀ g : R → R, (∀ i : ℕ, (i : ℤ) < n → f (m (nb i)) = .ok (g (m (nb i)))) →
      ∃ m', V nb co n m = .ok m' ∧ Filled g nb co n m m') ∧
    (∀ m', V nb co n m = .ok m' → ∀ i : ℕ, (i : ℤ) < n → ∃ v, f (m (nb i)) = .ok v)

/-- `m'` is `m` with slot `i` of `co` set to `r i`, every frequency `ν` replaced by `g ν`, and nothing else changed -/
structure FilledUpTo {R : Type} (r : ℕ → R) (g : R → R) (nb co : Indexer) (n : ℤ) (m m' : Heap R) : Prop where
  results : ∀ i : ℕ, (i : ℤ) < n → m' (co i) = r i
  frequencies : ∀ i : ℕ, (i : ℤ) < n → m' (nb i) = g (m (nb i))
  frame : ∀ a, (∀ i : ℕ, (i : ℤ) < n → a ≠ nb i ∧ a ≠ co i) → m' a = m a

/-- a vectorised method that stores the scalar results and leaves `g ν` in place of each frequency `ν` -/
def VectorWith {R : Type} (f g : R → R) (V : Indexer → Indexer → ℤ → Heap R → Heap R) : Prop :=
  ∀ nb co n m, Separate nb co n → FilledUpTo (fun i => f (m (nb i))) g nb co n m (V nb co n m)

/-- the same when the scalar call may abort or hit undefined behaviour: the vectorised call returns exactly when
every scalar call does -/
def VectorWithM {R : Type} (f : R → Outcome R) (g : R → R)
    (V : Indexer → Indexer → ℤ → Heap R → Outcome (Heap R)) : Prop :=
  ∀ nb co n m, Separate nb co n →
    (∀ r : ℕ → R, (∀ i : ℕ, (i : ℤ) < n → f (m (nb i)) = .ok (r i)) →
      ∃ m', V nb co n m = .ok m' ∧ FilledUpTo r g nb co n m m') ∧
    (∀ m', V nb co n m = .ok m' → ∀ i : ℕ, (i : ℤ) < n → ∃ v, f (m (nb i)) = .ok v)

/-- non-aliased arrays exist: frequencies at the even addresses, results at the odd ones -/
theorem separate_example (n : ℤ) : Separate (fun i => 2 * i) (fun i => 2 * i + 1) n :=
  ⟨fun i j _ _ h => by have h' : 2 * i + 1 = 2 * j + 1 := h; omega, fun i j _ _ h => by
    have h' : 2 * i = 2 * j := h; omega, fun i j _ _ => by show 2 * i ≠ 2 * j + 1; omega⟩

end Opac.Spec
