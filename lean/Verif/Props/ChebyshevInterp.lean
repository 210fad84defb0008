import Verif.Props.Chebyshev

/-!
# C42: Chebyshev interpolation reproduces its data
-/

namespace Opac.Props
open Opac.Spec Outcome Finset
open Arith (lit)
open Opac.Chebyshev (INT_MAX MatMultiply ToUnitCell FromUnitCell GetPoints InterpFromCoeffs Table
  Vandermonde3 Vandermonde5 Vandermonde7 Vandermonde9 Vandermonde11 Vandermonde13 Vandermonde15 Vandermonde21
  get_vmbox)

/-- slots of the result array are distinct and none is an input slot -/
structure OutputApart (x y : Indexer) (n : ℕ) : Prop where
  distinct : ∀ i j, i < n → j < n → y i = y j → i = j
  apart : ∀ i j, i < n → j < n → x i ≠ y j

theorem mat_row {a : ℕ → ℕ → ℝ} {x y : Indexer} {n : ℕ} (h : OutputApart x y n) {i : ℕ} (hi : i < n)
    (m : Heap ℝ) (q : ℕ) (hq : q ≤ n) :
    let m' := forLoop (q : ℤ) (fun j (m : Heap ℝ) => Function.update m (y i) (m (y i) + a i j * m (x j)))
      (Function.update m (y i) (lit 0))
    m' (y i) = ∑ j ∈ range q, a i j * m (x j) ∧ ∀ b, b ≠ y i → m' b = m b := by
  induction q with
  | zero =>
    rw [forLoop_nonpos (by norm_num)]
    refine ⟨by simp [areal], fun b hb => Function.update_of_ne hb _ _⟩
  | succ q ih =>
    obtain ⟨h1, h2⟩ := ih (by omega)
    simp only
    rw [forLoop_succ]
    refine ⟨?_, fun b hb => ?_⟩
    · rw [Function.update_self, sum_range_succ, h1, h2 _ (h.apart q i (by omega) hi)]
    · rw [Function.update_of_ne hb, h2 b hb]

/-- C42: `MatMultiply` stores the matrix–vector product, and changes nothing but the result array. -/
theorem C42_product (a : ℕ → ℕ → ℝ) {x y : Indexer} {n : ℕ} (h : OutputApart x y n) (m : Heap ℝ) :
    (∀ i, i < n → MatMultiply a x y n m (y i) = ∑ j ∈ range n, a i j * m (x j)) ∧
    ∀ b, (∀ i, i < n → b ≠ y i) → MatMultiply a x y n m b = m b := by
  unfold MatMultiply
  refine forLoop_inv n _ (fun q (m' : Heap ℝ) => (∀ i, i < q → m' (y i) = ∑ j ∈ range n, a i j * m (x j)) ∧
    ∀ b, (∀ i, i < q → b ≠ y i) → m' b = m b) m
    ⟨fun i hi => absurd hi (Nat.not_lt_zero i), fun _ _ => rfl⟩ ?_
  rintro q hq m' ⟨h1, h2⟩
  obtain ⟨r1, r2⟩ := mat_row (a := a) h hq m' n le_rfl
  refine ⟨fun i hi => ?_, fun b hb => ?_⟩
  · by_cases hiq : i = q
    · subst hiq
      simp only at r1 ⊢
      rw [r1]
      refine sum_congr rfl fun j hj => ?_
      rw [h2 _ fun k hk => h.apart j k (mem_range.1 hj) (by omega)]
    · have := r2 (y i) fun hc => hiq (h.distinct i q (by omega) hq hc)
      simp only at this ⊢
      rw [this, h1 i (by omega)]
  · have := r2 b (hb q (by omega))
    simp only at this ⊢
    rw [this, h2 b fun i hi => hb i (by omega)]

/-- evaluation of the interpolant -/
theorem interp_ok (debug : Bool) {lo hi : ℝ} (h : lo < hi) (x : ℝ) (co : Indexer) (n : ℕ)
    (hn : (n : ℤ) ≤ INT_MAX) (m : Heap ℝ) :
    InterpFromCoeffs debug x lo hi co n m = ok (chebSum n (fun i => m (co i)) (unitCell lo hi x)) := by
  unfold InterpFromCoeffs
  rw [toUnit_ok debug x h, bind_def, ok_bind]
  obtain ⟨s, h1, h2⟩ := forLoopM_inv n
    (fun (i : ℕ) (out : ℝ) => (Chebyshev.T (i : ℤ) (unitCell lo hi x)).bind fun t => .ok (out + m (co i) * t))
    (fun q s => s = chebSum q (fun i => m (co i)) (unitCell lo hi x)) (lit 0) (by simp [chebSum, areal]) (by
      rintro i hi s rfl
      refine ⟨_, by rw [C40_polynomial i (by omega), bind_def, ok_bind], ?_⟩
      rw [chebSum, chebSum, sum_range_succ]
      rfl)
  rw [← h2]
  exact h1

theorem unit_node {lo hi : ℝ} (h : lo < hi) (n k : ℕ) : unitCell lo hi (chebNode lo hi n k) = chebPoint n k := by
  have hne : hi - lo ≠ 0 := by linarith [sub_pos.2 h]
  unfold unitCell chebNode
  field_simp
  ring

/-- C42: with the inverse Vandermonde matrix of the right size, computing coefficients from data and evaluating the
interpolant at the `j`-th Chebyshev point returns the `j`-th datum — for every size, interval, data and memory
layout. -/
theorem C42_nodes (debug : Bool) {lo hi : ℝ} (h : lo < hi) (n : ℕ) (hn : (n : ℤ) ≤ INT_MAX) {a : ℕ → ℕ → ℝ}
    (ha : IsVandermondeInverse n a) {x y : Indexer} (hxy : OutputApart x y n) (m : Heap ℝ) (j : ℕ) (hj : j < n) :
    InterpFromCoeffs debug (chebNode lo hi n j) lo hi y n (MatMultiply a x y n m) = ok (m (x j)) := by
  rw [interp_ok debug h _ y n hn, unit_node h]
  congr 1
  rw [← chebSum_node ha (fun k => m (x k)) hj]
  exact sum_congr rfl fun i hi => by beta_reduce; rw [(C42_product a hxy m).1 i (mem_range.1 hi)]

/-- C42: if the data are the values of a polynomial of degree below `n`, the interpolant is that polynomial
everywhere, also outside the interval. -/
theorem C42_polynomials (debug : Bool) {lo hi : ℝ} (h : lo < hi) (n : ℕ) (hn : (n : ℤ) ≤ INT_MAX)
    {a : ℕ → ℕ → ℝ} (ha : IsVandermondeInverse n a) {x y : Indexer} (hxy : OutputApart x y n) (m : Heap ℝ)
    (p : Polynomial ℝ) (hp : p.degree < n) (hdata : ∀ j, j < n → m (x j) = p.eval (chebNode lo hi n j)) (z : ℝ) :
    InterpFromCoeffs debug z lo hi y n (MatMultiply a x y n m) = ok (p.eval z) := by
  rw [interp_ok debug h _ y n hn]
  congr 1
  -- the polynomial in unit-cell coordinates
  have hne : hi - lo ≠ 0 := by linarith [sub_pos.2 h]
  let A : Polynomial ℝ := Polynomial.C ((hi - lo) / 2) * Polynomial.X + Polynomial.C ((hi + lo) / 2)
  have hA : ∀ t, A.eval t = lo + (hi - lo) * ((t + 1) / 2) := fun t => by simp [A]; ring
  have hdeg : (p.comp A).degree < n := by
    by_cases h0 : p.comp A = 0
    · rw [h0, Polynomial.degree_zero]; exact WithBot.bot_lt_coe n
    have hp0 : p ≠ 0 := fun h => h0 (by rw [h, Polynomial.zero_comp])
    rw [Polynomial.degree_eq_natDegree h0]
    rw [Polynomial.degree_eq_natDegree hp0] at hp
    refine lt_of_le_of_lt ?_ hp
    have hA1 : A.natDegree ≤ 1 := by
      refine (Polynomial.natDegree_add_le _ _).trans ?_
      simp only [Polynomial.natDegree_C, zero_le, sup_of_le_left]
      exact (Polynomial.natDegree_mul_le).trans (by simp)
    have := Polynomial.natDegree_comp_le (p := p) (q := A)
    exact_mod_cast this.trans (by nlinarith)
  have hev : ∀ t, (p.comp A).eval t = p.eval (lo + (hi - lo) * ((t + 1) / 2)) := fun t => by
    rw [Polynomial.eval_comp, hA]
  have e := chebSum_exact ha (p.comp A) hdeg (unitCell lo hi z)
  rw [hev] at e
  rw [show lo + (hi - lo) * ((unitCell lo hi z + 1) / 2) = z by unfold unitCell; field_simp; ring] at e
  rw [← e]
  refine sum_congr rfl fun i hi => ?_
  beta_reduce
  rw [(C42_product a hxy m).1 i (mem_range.1 hi)]
  congr 1
  refine sum_congr rfl fun k hk => ?_
  rw [hdata k (mem_range.1 hk), hev]
  rfl

/-- C42: such a matrix exists for every size and is unique: entry `(i,j)` is `T_i(t_j)/n`, doubled for `i > 0`. -/
theorem C42_inverse (n : ℕ) (a : ℕ → ℕ → ℝ) :
    IsVandermondeInverse n a ↔ ∀ i j, i < n → j < n →
      a i j = (if i = 0 then 1 else 2) / n * cheb i (chebPoint n j) := by
  constructor
  · intro h i j hi hj
    exact h.unique (chebInverse_inverse n) i j hi hj
  · intro h i j hi hj
    rw [← chebInverse_inverse n i j hi hj]
    exact sum_congr rfl fun k hk => by rw [h i k hi (mem_range.1 hk)]; rfl

/-! ### The shipped tables -/

/-- exact rational check of a table against certified cosines -/
def tableCheck (n : ℕ) (t : Table) (tol : ℚ) : Bool :=
  (List.range n).all fun i => (List.range n).all fun j =>
    let r := CosBounds.reduce n (i * (2 * j + 1))
    let e := t.entry i j -
      (if i = 0 then 1 else 2) / n * ((-1) ^ i * (r.1 * CosBounds.cosP (r.2 * CosBounds.piQ / (2 * n))))
    decide (-tol ≤ e) && decide (e ≤ tol)

theorem tableCheck_sound {n : ℕ} {t : Table} {tol : ℚ} (h : tableCheck n t tol = true) (i j : ℕ) (hi : i < n)
    (hj : j < n) : |(t.at i j : ℝ) - chebInverse n i j| ≤ tol + 4 / 10 ^ 20 := by
  have hn : 0 < n := by omega
  simp only [tableCheck, List.all_eq_true, List.mem_range, Bool.and_eq_true, decide_eq_true_eq] at h
  obtain ⟨h1, h2⟩ := h i hi j hj
  have hn' : (1 : ℝ) ≤ n := by exact_mod_cast hn
  set r := CosBounds.reduce n (i * (2 * j + 1)) with hr
  have hc := CosBounds.cos_near (CosBounds.reduce_le (M := i * (2 * j + 1)) hn)
  rw [← hr] at hc
  have hs : |(r.1 : ℝ)| = 1 := by
    rw [hr]; simp only [CosBounds.reduce]; split_ifs <;> simp
  have hw0 : (0 : ℝ) ≤ (if i = 0 then 1 else 2) / n := by split_ifs <;> positivity
  have hw2 : (if i = 0 then 1 else 2) / (n : ℝ) ≤ 2 := by
    rw [div_le_iff₀ (by linarith)]; split_ifs <;> linarith
  have e1 : |((t.entry i j - (if i = 0 then 1 else 2) / n * ((-1) ^ i *
      (r.1 * CosBounds.cosP (r.2 * CosBounds.piQ / (2 * n)))) : ℚ) : ℝ)| ≤ tol := by
    rw [abs_le]
    exact ⟨by exact_mod_cast h1, by exact_mod_cast h2⟩
  rw [chebInverse, cheb_point, CosBounds.reduce_cos hn, ← hr]
  simp only [Table.at, areal]
  set w : ℝ := (if i = 0 then 1 else 2) / n with hw
  have e2 : (t.entry i j : ℝ) - w * ((-1) ^ i * (r.1 * Real.cos (r.2 * Real.pi / (2 * n)))) =
      ((t.entry i j - (if i = 0 then 1 else 2) / n * ((-1) ^ i *
        (r.1 * CosBounds.cosP (r.2 * CosBounds.piQ / (2 * n)))) : ℚ) : ℝ) +
      (-(w * ((-1) ^ i * (r.1 * (Real.cos (r.2 * Real.pi / (2 * n)) -
        CosBounds.cosP (r.2 * CosBounds.piQ / (2 * n))))))) := by
    rw [hw]
    push_cast
    split_ifs <;> ring
  rw [e2]
  refine (abs_add_le _ _).trans (add_le_add e1 ?_)
  rw [abs_neg, abs_mul, abs_mul, abs_mul, abs_pow, abs_neg, abs_one, one_pow, one_mul, hs, one_mul,
    abs_of_nonneg hw0]
  calc w * _ ≤ 2 * (2 / 10 ^ 20) := mul_le_mul hw2 hc (abs_nonneg _) (by norm_num)
    _ = 4 / 10 ^ 20 := by norm_num

set_option maxRecDepth 100000

/-- the tables of `vandermonde.hpp` and their sizes -/
def shipped : List (ℕ × Table) :=
  [(3, Vandermonde3), (5, Vandermonde5), (7, Vandermonde7), (9, Vandermonde9), (11, Vandermonde11),
   (13, Vandermonde13), (15, Vandermonde15), (21, Vandermonde21)]

theorem check_shipped : ∀ e ∈ shipped, tableCheck e.1 e.2 (49 / 10 ^ 16) = true := by
  decide +kernel

theorem check_fine : tableCheck 15 Vandermonde15 (1 / 10 ^ 20) = true ∧
    tableCheck 21 Vandermonde21 (1 / 10 ^ 20) = true := by
  decide +kernel

/-- C42: every entry of every shipped table is within `5·10⁻¹⁵` of the exact inverse. -/
theorem C42_tables (n : ℕ) (t : Table) (ht : (n, t) ∈ shipped) (a : ℕ → ℕ → ℝ) (ha : IsVandermondeInverse n a)
    (i j : ℕ) (hi : i < n) (hj : j < n) : |(t.at i j : ℝ) - a i j| ≤ 5 / 10 ^ 15 := by
  rw [ha.unique (chebInverse_inverse n) i j hi hj]
  refine (tableCheck_sound (check_shipped (n, t) ht) i j hi hj).trans ?_
  push_cast
  norm_num

/-- C42: the two tables printed with many digits are within `10⁻¹⁹`. -/
theorem C42_fine_tables (n : ℕ) (t : Table) (ht : (n, t) = (15, Vandermonde15) ∨ (n, t) = (21, Vandermonde21))
    (a : ℕ → ℕ → ℝ) (ha : IsVandermondeInverse n a) (i j : ℕ) (hi : i < n) (hj : j < n) :
    |(t.at i j : ℝ) - a i j| ≤ 1 / 10 ^ 19 := by
  rw [ha.unique (chebInverse_inverse n) i j hi hj]
  have hc : tableCheck n t (1 / 10 ^ 20) = true := by
    rcases ht with h | h <;> obtain ⟨rfl, rfl⟩ := Prod.mk.inj h
    · exact check_fine.1
    · exact check_fine.2
  refine (tableCheck_sound hc i j hi hj).trans ?_
  push_cast
  norm_num

theorem chebSum_perturb {n : ℕ} {c d : ℕ → ℝ} {ε t : ℝ} (ht : |t| ≤ 1) (h : ∀ i, i < n → |c i - d i| ≤ ε) :
    |chebSum n c t - chebSum n d t| ≤ n * ε := by
  unfold chebSum
  rw [← sum_sub_distrib]
  refine (abs_sum_le_sum_abs _ _).trans ?_
  rw [← card_range n, ← nsmul_eq_mul, card_range]
  conv_rhs => rw [← card_range n]
  refine sum_le_card_nsmul _ _ _ fun i hi => ?_
  rw [← sub_mul, abs_mul]
  have a1 := h i (mem_range.1 hi)
  have a2 := abs_cheb_le i ht
  nlinarith [abs_nonneg (c i - d i), abs_nonneg (cheb i t)]

/-- C42: with a shipped table, evaluation at a node returns the datum up to `n · 5·10⁻¹⁵ · Σ|data|`, and evaluation
anywhere in the interval returns the polynomial that generated the data, up to the same error. -/
theorem C42_shipped (debug : Bool) {lo hi : ℝ} (h : lo < hi) (n : ℕ) (t : Table) (ht : (n, t) ∈ shipped)
    {x y : Indexer} (hxy : OutputApart x y n) (m : Heap ℝ) (z : ℝ) (hz : lo ≤ z ∧ z ≤ hi) (p : Polynomial ℝ)
    (hp : p.degree < n) (hdata : ∀ j, j < n → m (x j) = p.eval (chebNode lo hi n j)) :
    ∃ v, InterpFromCoeffs debug z lo hi y n (MatMultiply t.at x y n m) = ok v ∧
      |v - p.eval z| ≤ n * (5 / 10 ^ 15 * ∑ j ∈ range n, |m (x j)|) := by
  have hI := INT_MAX_eq
  have hn : (n : ℤ) ≤ INT_MAX := by
    simp only [shipped, List.mem_cons, Prod.mk.injEq, List.not_mem_nil, or_false] at ht
    omega
  refine ⟨_, interp_ok debug h z y n hn _, ?_⟩
  have e := C42_polynomials debug h n hn (chebInverse_inverse n) hxy m p hp hdata z
  rw [interp_ok debug h z y n hn] at e
  have e' := Outcome.ok.inj e
  rw [← e']
  obtain ⟨t', ht1, _, hb⟩ := (C41_cells debug z h).1
  rw [toUnit_ok debug z h] at ht1
  have ht1 := Outcome.ok.inj ht1
  refine chebSum_perturb (by rw [ht1, abs_le]; exact hb hz.1 hz.2) fun i hi => ?_
  rw [(C42_product _ hxy m).1 i hi, (C42_product _ hxy m).1 i hi, ← sum_sub_distrib, mul_sum]
  refine (abs_sum_le_sum_abs _ _).trans (sum_le_sum fun j hj => ?_)
  rw [← sub_mul, abs_mul]
  exact mul_le_mul_of_nonneg_right (C42_tables n t ht _ (chebInverse_inverse n) i j hi (mem_range.1 hj))
    (abs_nonneg _)

/-- C42: `get_vmbox` fills a 9×9 row-major array with the size-9 table and changes nothing else, in every
arithmetic. -/
theorem C42_vmbox {R : Type} [Arith R] (r : Indexer) (hr : ∀ i j, i < 81 → j < 81 → r i = r j → i = j)
    (m : Heap R) :
    (∀ i j, i < 9 → j < 9 → get_vmbox r m (r (i * 9 + j)) = Vandermonde9.at i j) ∧
    ∀ b, (∀ k, k < 81 → b ≠ r k) → get_vmbox r m b = m b := by
  unfold get_vmbox
  have inner : ∀ (i : ℕ), i < 9 → ∀ (m : Heap R) (q : ℕ), q ≤ 9 →
      (∀ j, j < q → forLoop (q : ℤ) (fun j (m : Heap R) =>
        Function.update m (r (j + i * 9)) (Vandermonde9.at i j)) m (r (j + i * 9)) = Vandermonde9.at i j) ∧
      ∀ b, (∀ j, j < q → b ≠ r (j + i * 9)) → forLoop (q : ℤ) (fun j (m : Heap R) =>
        Function.update m (r (j + i * 9)) (Vandermonde9.at i j)) m b = m b := by
    intro i hi m q
    induction q with
    | zero => intro _; exact ⟨fun j hj => absurd hj (Nat.not_lt_zero j), fun b _ => by
        rw [forLoop_nonpos (by norm_num)]⟩
    | succ q ih =>
      intro hq
      obtain ⟨h1, h2⟩ := ih (by omega)
      rw [forLoop_succ]
      refine ⟨fun j hj => ?_, fun b hb => ?_⟩
      · by_cases hjq : j = q
        · subst hjq; rw [Function.update_self]
        · rw [Function.update_of_ne fun hc => hjq (by have := hr _ _ (by omega) (by omega) hc; omega),
            h1 j (by omega)]
      · rw [Function.update_of_ne (hb q (by omega)), h2 b fun j hj => hb j (by omega)]
  have L := forLoop_inv 9 (fun i (m : Heap R) => forLoop 9 (fun j m =>
      Function.update m (r (j + i * 9)) (Vandermonde9.at i j)) m)
    (fun q (m' : Heap R) => (∀ i j, i < q → j < 9 → m' (r (i * 9 + j)) = Vandermonde9.at i j) ∧
      ∀ b, (∀ k, k < q * 9 → b ≠ r k) → m' b = m b) m
    ⟨fun i j hi => absurd hi (Nat.not_lt_zero i), fun _ _ => rfl⟩ (by
      rintro q hq m' ⟨h1, h2⟩
      obtain ⟨r1, r2⟩ := inner q hq m' 9 le_rfl
      refine ⟨fun i j hi hj => ?_, fun b hb => ?_⟩
      · by_cases hiq : i = q
        · subst hiq
          rw [add_comm (i * 9) j]
          exact r1 j hj
        · refine (r2 _ fun k hk hc => ?_).trans (h1 i j (by omega) hj)
          have := hr _ _ (by omega) (by omega) hc
          omega
      · exact (r2 b fun j hj => hb _ (by omega)).trans (h2 b fun k hk => hb k (by omega)))
  exact ⟨fun i j hi hj => L.1 i j hi hj, fun b hb => L.2 b hb⟩

/-- C42 is false for in-place use (`x = y`): the product overwrites its own input. -/
theorem C42_inplace_false : ∃ (a : ℕ → ℕ → ℝ) (m : Heap ℝ),
    IsVandermondeInverse 2 a ∧ MatMultiply a (fun i => i) (fun i => i) 2 m 1 ≠ ∑ j ∈ range 2, a 1 j * m j := by
  refine ⟨chebInverse 2, fun _ => 1, chebInverse_inverse 2, ?_⟩
  have hs := Real.sqrt_pos.2 (show (0 : ℝ) < 2 by norm_num)
  have hp0 : chebPoint 2 0 = -(√2 / 2) := by
    rw [chebPoint, ← Real.cos_pi_div_four]; congr 2; push_cast; ring
  have hp1 : chebPoint 2 1 = √2 / 2 := by
    rw [chebPoint, ← Real.cos_pi_div_four, ← Real.cos_pi_sub]; congr 1; push_cast; ring
  have h10 : chebInverse 2 1 0 = -(√2 / 2) := by
    simp [chebInverse, cheb, hp0]
  have h11 : chebInverse 2 1 1 = √2 / 2 := by
    simp [chebInverse, cheb, hp1]
  have h00 : chebInverse 2 0 0 = 1 / 2 := by simp [chebInverse, cheb]
  have h01 : chebInverse 2 0 1 = 1 / 2 := by simp [chebInverse, cheb]
  have l : (List.range (2 : ℤ).toNat) = [0, 1] := rfl
  simp only [MatMultiply, forLoop, l, List.foldl_cons, List.foldl_nil, sum_range_succ, range_zero, sum_empty]
  simp [areal, h10, h11, h00, h01]
  intro h
  nlinarith [mul_pos hs hs]

example : ∃ v, InterpFromCoeffs true (chebNode 1 3 9 4 : ℝ) 1 3 (fun i => 100 + i) 9
    (MatMultiply Vandermonde9.at (fun i => i) (fun i => 100 + i) 9
      (fun b => (chebNode 1 3 9 b) ^ 2)) = ok v ∧ |v - 4| ≤ 9 * (5 / 10 ^ 15 * 81) := by
  have hn : ∀ j, j < 9 → |(chebNode (1 : ℝ) 3 9 j) ^ 2| ≤ 9 := fun j hj => by
    obtain ⟨b1, b2⟩ := chebPoint_bounds hj
    rw [abs_of_nonneg (sq_nonneg _), chebNode]
    nlinarith
  have hc : chebNode (1 : ℝ) 3 9 4 = 2 := by
    rw [chebNode, chebPoint, show (2 * ((4 : ℕ) : ℝ) + 1) * Real.pi / (2 * ((9 : ℕ) : ℝ)) = Real.pi / 2 by
      push_cast; ring, Real.cos_pi_div_two]
    norm_num
  obtain ⟨v, h1, h2⟩ := C42_shipped true (show (1 : ℝ) < 3 by norm_num) 9 Vandermonde9 (by simp [shipped])
    (x := fun i => i) (y := fun i => 100 + i)
    ⟨fun i j _ _ h => by simpa using h, fun i j hi hj h => by omega⟩
    (fun b => (chebNode 1 3 9 b) ^ 2) (chebNode 1 3 9 4) (by rw [hc]; norm_num) (Polynomial.X ^ 2)
    (by rw [Polynomial.degree_X_pow]; norm_cast) (fun j hj => by simp)
  refine ⟨v, h1, ?_⟩
  have e : (Polynomial.X ^ 2 : Polynomial ℝ).eval (chebNode 1 3 9 4) = 4 := by rw [hc]; norm_num
  rw [e] at h2
  refine h2.trans ?_
  have s : ∑ j ∈ range 9, |(chebNode (1 : ℝ) 3 9 j) ^ 2| ≤ 81 := by
    refine (sum_le_card_nsmul _ _ 9 fun j hj => hn j (mem_range.1 hj)).trans ?_
    simp; norm_num
  push_cast
  nlinarith

end Opac.Props
