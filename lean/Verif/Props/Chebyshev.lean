import Verif.Model.Chebyshev
import Verif.Model.Vandermonde
import Verif.Lemmas.Outcome
import Verif.Lemmas.RealArith
import Verif.Lemmas.Chebyshev
import Verif.Lemmas.CosBounds

/-!
# C40–C42: Chebyshev polynomials, points and interpolation
-/

namespace Opac.Props
open Opac.Spec Arith Outcome Finset
open Opac.Chebyshev (INT_MAX MatMultiply ToUnitCell FromUnitCell GetPoints InterpFromCoeffs Table
  Vandermonde3 Vandermonde5 Vandermonde7 Vandermonde9 Vandermonde11 Vandermonde13 Vandermonde15 Vandermonde21
  get_vmbox)

theorem INT_MAX_eq : INT_MAX = 2147483647 := by unfold INT_MAX; rfl

theorem forLoopM_ub {S : Type} (q : ℕ) (body : ℕ → S → Outcome S) (s : S) (h : (body 0 s).IsUB) :
    (forLoopM ((q + 1 : ℕ) : ℤ) body s).IsUB := by
  induction q with
  | zero => rw [forLoopM_succ, forLoopM_nonpos (by norm_num)]; exact h
  | succ q ih =>
    obtain ⟨w, hw⟩ := ih
    rw [forLoopM_succ, hw]
    exact ⟨w, rfl⟩

/-! ## C40 -/

theorem T_loop (x : ℝ) (k : ℕ) :
    forLoop (k : ℤ) (fun _ (t : ℝ × ℝ × ℝ) => (t.2.1, t.2.2, lit 2 * x * t.2.2 - t.2.1))
      ((lit 1 : ℝ), x, lit 2 * x * x - lit 1) = (cheb k x, cheb (k + 1) x, cheb (k + 2) x) := by
  induction k with
  | zero =>
    rw [forLoop_nonpos (by norm_num)]
    simp only [cheb, areal]
    simp [Polynomial.Chebyshev.T_two]
    ring
  | succ k ih =>
    rw [forLoop_succ, ih]
    have := congrArg (fun p : Polynomial ℝ => p.eval x) (Polynomial.Chebyshev.T_add_two ℝ (k + 1 : ℤ))
    simp only [cheb, areal, Prod.mk.injEq, true_and]
    rw [show ((k + 1 + 2 : ℕ) : ℤ) = (k + 1 : ℤ) + 2 by push_cast; ring, this]
    simp [add_assoc]

/-- C40: `T(n, x)` is the Chebyshev polynomial of order `n` at `x`, for every order the loop counter can hold. -/
theorem C40_polynomial (n : ℕ) (hn : (n : ℤ) < INT_MAX) (x : ℝ) :
    Chebyshev.T (n : ℤ) x = ok ((Polynomial.Chebyshev.T ℝ n).eval x) := by
  unfold Chebyshev.T
  have h := T_loop x
  rcases n with _ | _ | _ | n
  · simp [areal]
  · simp
  · simp [areal, Polynomial.Chebyshev.T_two]; ring
  · have e : ((n + 3 : ℕ) : ℤ) - 2 = ((n + 1 : ℕ) : ℤ) := by push_cast; ring
    simp only [show n + 1 + 1 + 1 = n + 3 from rfl] at hn ⊢
    rw [if_neg (by push_cast; omega), if_neg (by omega)]
    simp only [e, h]
    rfl

/-- C40: on the unit interval it is `cos (n t)`. -/
theorem C40_cos (n : ℕ) (hn : (n : ℤ) < INT_MAX) (t : ℝ) :
    Chebyshev.T (n : ℤ) (Real.cos t) = ok (Real.cos (n * t)) := by
  rw [C40_polynomial n hn, ← cheb_cos]; rfl

/-- C40: negative orders (and the largest `int`) are undefined behaviour, in every arithmetic. -/
theorem C40_undefined {R : Type} [Arith R] (n : ℤ) (hn : n < 0 ∨ INT_MAX ≤ n) (x : R) :
    (Chebyshev.T n x).IsUB := by
  unfold Chebyshev.T
  have hI := INT_MAX_eq
  rcases hn with h | h
  · rw [if_pos (by omega), if_neg (by omega), if_neg (by omega), if_neg (by omega)]
    exact ⟨_, rfl⟩
  · rw [if_neg (by omega), if_pos h]
    exact ⟨_, rfl⟩

/-- C40: in every arithmetic, `T` follows the three-term recurrence bit for bit: orders 0 and 1 are `1` and `x`,
and order `n+2` is `2*x*T(n+1) - T(n)` evaluated in that order. -/
theorem C40_recurrence {R : Type} [Arith R] (x : R) :
    Chebyshev.T 0 x = ok (lit 1) ∧ Chebyshev.T 1 x = ok x ∧
    ∀ n : ℕ, (n : ℤ) + 2 < INT_MAX → ∃ a b, Chebyshev.T (n : ℤ) x = ok a ∧ Chebyshev.T (n + 1 : ℤ) x = ok b ∧
      Chebyshev.T (n + 2 : ℤ) x = ok (lit 2 * x * b - a) := by
  refine ⟨by simp [Chebyshev.T], by simp [Chebyshev.T], fun n hn => ?_⟩
  let step : ℕ → R × R × R → R × R × R := fun _ t => (t.2.1, t.2.2, lit 2 * x * t.2.2 - t.2.1)
  let s0 : R × R × R := (lit 1, x, lit 2 * x * x - lit 1)
  have key : ∀ m : ℕ, (m : ℤ) + 2 < INT_MAX →
      Chebyshev.T (m : ℤ) x = ok (forLoop (m : ℤ) step s0).1 ∧
      Chebyshev.T (m + 1 : ℤ) x = ok (forLoop (m : ℤ) step s0).2.1 ∧
      Chebyshev.T (m + 2 : ℤ) x = ok (forLoop (m : ℤ) step s0).2.2 := by
    intro m
    induction m with
    | zero =>
      intro _
      have : forLoop ((0 : ℕ) : ℤ) step s0 = s0 := forLoop_nonpos (by norm_num) _ _
      rw [this]
      simp [Chebyshev.T, s0]
    | succ m ih =>
      intro hm
      obtain ⟨_, h2, h3⟩ := ih (by push_cast at hm; omega)
      rw [forLoop_succ]
      refine ⟨by push_cast; exact h2, by push_cast; rw [add_assoc]; exact h3, ?_⟩
      unfold Chebyshev.T
      rw [if_neg (by push_cast; omega), if_neg (by omega)]
      rw [show ((m + 1 : ℕ) : ℤ) + 2 - 2 = ((m + 1 : ℕ) : ℤ) by ring]
      show ok (forLoop ((m + 1 : ℕ) : ℤ) step s0).2.2 = _
      rw [forLoop_succ]
  obtain ⟨h1, h2, h3⟩ := key n hn
  refine ⟨_, _, h1, h2, ?_⟩
  rw [h3]
  congr 1
  clear h1 h2 h3 key hn
  rcases n with _ | n
  · rw [forLoop_nonpos (by norm_num)]
  · rw [forLoop_succ]

example : Chebyshev.T 5 (1 / 2 : ℝ) = ok (1 / 2) := by
  have := C40_cos 5 (by norm_num [INT_MAX_eq]) (Real.pi / 3)
  rw [Real.cos_pi_div_three] at this
  rw [show ((5 : ℕ) : ℤ) = 5 by norm_num] at this
  rw [this]
  congr 1
  rw [show ((5 : ℕ) : ℝ) * (Real.pi / 3) = 2 * Real.pi - Real.pi / 3 by push_cast; ring,
    Real.cos_two_pi_sub, Real.cos_pi_div_three]

/-! ## C41 -/

theorem toUnit_ok (debug : Bool) (x : ℝ) {lo hi : ℝ} (h : lo < hi) :
    ToUnitCell debug x lo hi = ok (unitCell lo hi x) := by
  have hg : gt hi lo = true := by simp [areal, h]
  have hne : hi - lo ≠ 0 := by linarith [sub_pos.2 h]
  simp only [ToUnitCell, hg, Bool.not_true, Bool.and_false, Bool.false_eq_true, if_false, unitCell, areal]
  congr 1
  push_cast
  ring

theorem fromUnit_ok (debug : Bool) (t : ℝ) {lo hi : ℝ} (h : lo < hi) :
    FromUnitCell debug t lo hi = ok (lo + (hi - lo) * ((t + 1) / 2)) := by
  have hg : gt hi lo = true := by simp [areal, h]
  simp only [FromUnitCell, hg, Bool.not_true, Bool.and_false, Bool.false_eq_true, if_false, areal]
  congr 1
  push_cast
  ring

/-- C41: `ToUnitCell` and `FromUnitCell` are mutually inverse on every proper interval and map its ends to ∓1. -/
theorem C41_cells (debug : Bool) (x : ℝ) {lo hi : ℝ} (h : lo < hi) :
    (∃ t, ToUnitCell debug x lo hi = ok t ∧ FromUnitCell debug t lo hi = ok x ∧
      (lo ≤ x → x ≤ hi → -1 ≤ t ∧ t ≤ 1)) ∧
    (∃ y, FromUnitCell debug x lo hi = ok y ∧ ToUnitCell debug y lo hi = ok x) ∧
    ToUnitCell debug lo lo hi = ok (-1) ∧ ToUnitCell debug hi lo hi = ok 1 := by
  have hne : hi - lo ≠ 0 := by linarith [sub_pos.2 h]
  have hpos : 0 < hi - lo := sub_pos.2 h
  refine ⟨⟨_, toUnit_ok debug x h, ?_, ?_⟩, ⟨_, fromUnit_ok debug x h, ?_⟩, ?_, ?_⟩
  · rw [fromUnit_ok debug _ h]
    congr 1
    unfold unitCell
    field_simp
    ring
  · intro h1 h2
    unfold unitCell
    have a : 0 ≤ (x - lo) / (hi - lo) := div_nonneg (by linarith) hpos.le
    have b : (x - lo) / (hi - lo) ≤ 1 := by rw [div_le_one hpos]; linarith
    constructor <;> linarith
  · rw [toUnit_ok debug _ h]
    congr 1
    unfold unitCell
    field_simp
    ring
  · rw [toUnit_ok debug _ h]; simp [unitCell]
  · rw [toUnit_ok debug _ h]; congr 1; unfold unitCell; field_simp; ring

/-- C41: `assert`s reject empty intervals when compiled in. -/
theorem C41_asserts {R : Type} [Arith R] (x lo hi : R) (h : gt hi lo = false) :
    (ToUnitCell true x lo hi).Aborts ∧ (FromUnitCell true x lo hi).Aborts := by
  simp [ToUnitCell, FromUnitCell, h, Aborts]

/-- C41: `GetPoints` returns for every interval and every `n` whose double fits an `int`; it stores into the `n`
slots of the caller's array, and nowhere else, `n` strictly increasing points strictly inside the interval, and the
positions of these points in the unit cell are exactly the zeros of `T_n`. -/
theorem C41 (debug : Bool) {lo hi : ℝ} (h : lo < hi) (n : ℕ) (hn : 2 * (n : ℤ) ≤ INT_MAX) (points : Indexer)
    (hp : ∀ i j, i < n → j < n → points i = points j → i = j) (m : Heap ℝ) :
    ∃ m', GetPoints debug lo hi n points m = ok m' ∧
      (∀ k, k < n → lo < m' (points k) ∧ m' (points k) < hi) ∧
      (∀ k l, k < l → l < n → m' (points k) < m' (points l)) ∧
      (∀ t, (Polynomial.Chebyshev.T ℝ n).eval t = 0 ↔
        ∃ k, k < n ∧ ToUnitCell debug (m' (points k)) lo hi = ok t) ∧
      (∀ a, (∀ k, k < n → a ≠ points k) → m' a = m a) ∧
      ∀ k, k < n → m' (points k) = chebNode lo hi n k := by
  have L := forLoopM_inv n (fun i (m : Heap ℝ) =>
      if INT_MAX < 2 * (n : ℤ) then (.ub "signed overflow" : Outcome (Heap ℝ))
      else
        let k : ℤ := i + 1
        let tk := -(Arith.cos (lit ((2 * k - 1 : ℤ) : ℚ) * Arith.pi / lit ((2 * (n : ℤ) : ℤ) : ℚ)))
        (FromUnitCell debug tk lo hi).bind fun p => .ok (Function.update m (points (k - 1).toNat) p))
    (fun q (m' : Heap ℝ) =>
      (∀ k, k < q → m' (points k) = chebNode lo hi n k) ∧ ∀ a, (∀ k, k < q → a ≠ points k) → m' a = m a)
    m ⟨fun k hk => absurd hk (Nat.not_lt_zero k), fun _ _ => rfl⟩ (by
      rintro q hq s ⟨s1, s2⟩
      rw [if_neg (by omega)]
      simp only [fromUnit_ok debug _ h, bind_def, ok_bind]
      refine ⟨_, rfl, ?_, ?_⟩
      · intro k hk
        have e : ((q : ℤ) + 1 - 1).toNat = q := by omega
        rw [e]
        by_cases hkq : k = q
        · subst hkq
          rw [Function.update_self, chebNode, chebPoint]
          simp only [areal]
          congr 4
          push_cast
          ring_nf
        · rw [Function.update_of_ne fun hc => hkq (hp k q (by omega) hq hc), s1 k (by omega)]
      · intro a ha
        have e : ((q : ℤ) + 1 - 1).toNat = q := by omega
        rw [e, Function.update_of_ne (ha q (by omega)), s2 a fun k hk => ha k (by omega)])
  obtain ⟨m', h1, h2, h3⟩ := L
  have hpos : 0 < hi - lo := sub_pos.2 h
  refine ⟨m', h1, ?_, ?_, ?_, h3, h2⟩
  · intro k hk
    rw [h2 k hk, chebNode]
    obtain ⟨b1, b2⟩ := chebPoint_bounds hk
    constructor <;> nlinarith
  · intro k l hkl hl
    rw [h2 k (by omega), h2 l hl, chebNode, chebNode]
    have := chebPoint_lt hkl hl
    nlinarith
  · intro t
    have z := cheb_zero_iff (n := n) t
    rw [cheb] at z
    rw [z]
    have e : ∀ k, k < n → ToUnitCell debug (m' (points k)) lo hi = ok (chebPoint n k) := fun k hk => by
      rw [toUnit_ok debug _ h, h2 k hk]
      congr 1
      unfold unitCell chebNode
      field_simp
      ring
    constructor
    · rintro ⟨k, hk, rfl⟩; exact ⟨k, hk, e k hk⟩
    · rintro ⟨k, hk, hk'⟩
      rw [e k hk] at hk'
      exact ⟨k, hk, by injection hk' with h; exact h.symm⟩

/-- C41: from `n = 2^30` on the `int` product `2 * npoints` overflows, in every arithmetic. -/
theorem C41_overflow {R : Type} [Arith R] (debug : Bool) (lo hi : R) (n : ℤ) (hn : INT_MAX < 2 * n)
    (points : Indexer) (m : Heap R) : (GetPoints debug lo hi n points m).IsUB := by
  have hI := INT_MAX_eq
  obtain ⟨k, rfl⟩ : ∃ k : ℕ, n = ((k + 1 : ℕ) : ℤ) := ⟨(n - 1).toNat, by omega⟩
  unfold GetPoints
  refine forLoopM_ub k _ m ?_
  rw [if_pos hn]
  exact ⟨_, rfl⟩

example : ∃ m', GetPoints true (-1 : ℝ) 1 9 (fun i => i) (fun _ => 0) = ok m' ∧ m' 4 = 0 := by
  obtain ⟨m', h, _, _, _, _, h2⟩ := C41 true (show (-1 : ℝ) < 1 by norm_num) 9 (by norm_num [INT_MAX_eq])
    (fun i => i) (fun i j _ _ h => h) (fun _ => 0)
  refine ⟨m', h, ?_⟩
  have := h2 4 (by norm_num)
  rw [this, chebNode, chebPoint]
  rw [show (2 * ((4 : ℕ) : ℝ) + 1) * Real.pi / (2 * ((9 : ℕ) : ℝ)) = Real.pi / 2 by push_cast; ring,
    Real.cos_pi_div_two]
  norm_num

end Opac.Props
