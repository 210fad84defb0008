import Verif.Spec.Chebyshev
import Mathlib.Analysis.SpecialFunctions.Trigonometric.Chebyshev.ChebyshevGauss
import Mathlib.Analysis.SpecialFunctions.Trigonometric.Chebyshev.RootsExtrema
import Mathlib.LinearAlgebra.Matrix.NonsingularInverse
import Mathlib.LinearAlgebra.Lagrange

/-! Discrete orthogonality of the Chebyshev polynomials, and interpolation at the Chebyshev points. -/

namespace Opac.Spec
open Finset Polynomial

theorem cheb_cos (k : ℕ) (t : ℝ) : cheb k (Real.cos t) = Real.cos (k * t) := by
  simp [cheb]

theorem abs_cheb_le (k : ℕ) {x : ℝ} (h : |x| ≤ 1) : |cheb k x| ≤ 1 :=
  Polynomial.Chebyshev.abs_eval_T_real_le_one k h

theorem cheb_neg (k : ℕ) (x : ℝ) : cheb k (-x) = (-1) ^ k * cheb k x := by
  simp [cheb, Int.negOnePow_def]

/-- `T_k` at the Chebyshev points -/
theorem cheb_point (n k j : ℕ) :
    cheb k (chebPoint n j) = (-1) ^ k * Real.cos ((k * (2 * j + 1) : ℕ) * Real.pi / (2 * n)) := by
  rw [chebPoint, cheb_neg, cheb_cos]
  congr 2
  push_cast
  ring

theorem sum_T {n : ℕ} (hn : 0 < n) (m : ℤ) :
    ∑ j ∈ range n, (Chebyshev.T ℝ m).eval (Real.cos ((2 * j + 1) * Real.pi / (2 * n))) =
      if m = 0 then (n : ℝ) else if (2 * n : ℤ) ∣ m then
        ∑ j ∈ range n, (Chebyshev.T ℝ m).eval (Real.cos ((2 * j + 1) * Real.pi / (2 * n))) else 0 := by
  split_ifs with h0 h1
  · subst h0; simp
  · rfl
  · have z := Chebyshev.sumZeroes_T_of_not_dvd (n := n) h1
    rw [Chebyshev.sumZeroes, mul_eq_zero] at z
    have hne : Real.pi / n ≠ 0 := by have := Real.pi_pos; positivity
    rw [← z.resolve_left hne]
    refine sum_congr rfl fun j _ => ?_
    rw [show (2 * (j : ℝ) + 1) * Real.pi / (2 * n) = (2 * j + 1) / (2 * n) * Real.pi by ring]

/-- discrete orthogonality -/
theorem cheb_orthogonal {n k l : ℕ} (hk : k < n) (hl : l < n) :
    ∑ j ∈ range n, cheb k (chebPoint n j) * cheb l (chebPoint n j) =
      if k = l then (if k = 0 then (n : ℝ) else n / 2) else 0 := by
  have hn : 0 < n := by omega
  have e : ∀ j : ℕ, cheb k (chebPoint n j) * cheb l (chebPoint n j) =
      (-1) ^ (k + l) / 2 * ((Chebyshev.T ℝ (k + l)).eval (Real.cos ((2 * j + 1) * Real.pi / (2 * n))) +
        (Chebyshev.T ℝ (k - l)).eval (Real.cos ((2 * j + 1) * Real.pi / (2 * n)))) := by
    intro j
    have := congrArg (fun p : ℝ[X] => p.eval (Real.cos ((2 * j + 1) * Real.pi / (2 * n))))
      (Chebyshev.T_mul_T (R := ℝ) k l)
    simp only [eval_mul, eval_add, eval_ofNat] at this
    rw [chebPoint, cheb_neg, cheb_neg, ← this, pow_add, cheb, cheb]
    ring
  simp only [e]
  rw [← mul_sum, sum_add_distrib, sum_T hn (k + l), sum_T hn (k - l)]
  have d1 : ¬ ((k : ℤ) + l ≠ 0 ∧ (2 * n : ℤ) ∣ k + l) := by
    rintro ⟨h, c, hc⟩
    have : c = 0 := by
      rcases lt_trichotomy c 0 with h | h | h
      · nlinarith
      · exact h
      · nlinarith
    subst this; omega
  have d2 : ¬ ((k : ℤ) - l ≠ 0 ∧ (2 * n : ℤ) ∣ k - l) := by
    rintro ⟨h, c, hc⟩
    have : c = 0 := by
      rcases lt_trichotomy c 0 with h | h | h
      · nlinarith
      · exact h
      · nlinarith
    subst this; omega
  by_cases hkl : k = l
  · subst hkl
    by_cases h0 : k = 0
    · subst h0; simp; ring
    · rw [if_neg (by omega), if_neg fun h => d1 ⟨by omega, h⟩, if_pos (by omega), if_pos rfl, if_neg h0,
        ← two_mul, pow_mul]
      norm_num
      ring
  · rw [if_neg (by omega), if_neg fun h => d1 ⟨by omega, h⟩, if_neg (by omega),
      if_neg fun h => d2 ⟨by omega, h⟩, if_neg hkl]
    simp

/-- the exact inverse -/
noncomputable def chebInverse (n i j : ℕ) : ℝ := (if i = 0 then 1 else 2) / n * cheb i (chebPoint n j)

theorem chebInverse_inverse (n : ℕ) : IsVandermondeInverse n (chebInverse n) := by
  intro i j hi hj
  have hn : (n : ℝ) ≠ 0 := by have : 0 < n := by omega
                              positivity
  simp only [chebInverse, mul_assoc]
  rw [← mul_sum, cheb_orthogonal hi hj]
  by_cases h : i = j
  · subst h
    by_cases h0 : i = 0
    · simp [h0, hn]
    · simp [h0, hn]
  · simp [h]

/-- the left inverse is a right inverse -/
theorem IsVandermondeInverse.right {n : ℕ} {a : ℕ → ℕ → ℝ} (h : IsVandermondeInverse n a) (i j : ℕ)
    (hi : i < n) (hj : j < n) :
    ∑ k ∈ range n, cheb k (chebPoint n i) * a k j = if i = j then 1 else 0 := by
  let A : Matrix (Fin n) (Fin n) ℝ := Matrix.of fun p q => a p q
  let S : Matrix (Fin n) (Fin n) ℝ := Matrix.of fun p q => cheb q (chebPoint n p)
  have hAS : A * S = 1 := by
    ext p q
    have e := h p q p.2 q.2
    rw [← Fin.sum_univ_eq_sum_range (fun k => a p k * cheb q (chebPoint n k)) n] at e
    simp only [Matrix.mul_apply, Matrix.one_apply, A, S, Matrix.of_apply, e, Fin.ext_iff]
  have hSA : S * A = 1 := mul_eq_one_comm.1 hAS
  have := congrFun (congrFun hSA ⟨i, hi⟩) ⟨j, hj⟩
  rw [Matrix.mul_apply, Matrix.one_apply] at this
  rw [← Fin.sum_univ_eq_sum_range (fun k => cheb k (chebPoint n i) * a k j) n]
  simpa [S, A, Fin.ext_iff] using this

theorem IsVandermondeInverse.unique {n : ℕ} {a b : ℕ → ℕ → ℝ} (ha : IsVandermondeInverse n a)
    (hb : IsVandermondeInverse n b) (i j : ℕ) (hi : i < n) (hj : j < n) : a i j = b i j := by
  have e : ∑ k ∈ range n, a i k * (∑ l ∈ range n, cheb l (chebPoint n k) * b l j) = a i j := by
    rw [sum_eq_single_of_mem j (mem_range.2 hj) fun k hk hkj => by
      rw [hb.right k j (mem_range.1 hk) hj, if_neg hkj, mul_zero]]
    rw [hb.right j j hj hj, if_pos rfl, mul_one]
  rw [← e]
  simp only [mul_sum]
  rw [sum_comm]
  rw [sum_eq_single_of_mem i (mem_range.2 hi) fun l hl hli => by
    have := ha i l hi (mem_range.1 hl)
    rw [if_neg (Ne.symm hli)] at this
    rw [show (∑ x ∈ range n, a i x * (cheb l (chebPoint n x) * b l j)) =
      (∑ x ∈ range n, a i x * cheb l (chebPoint n x)) * b l j by
        rw [sum_mul]; exact sum_congr rfl fun x _ => by ring, this, zero_mul]]
  have := ha i i hi hi
  rw [if_pos rfl] at this
  rw [show (∑ x ∈ range n, a i x * (cheb i (chebPoint n x) * b i j)) =
    (∑ x ∈ range n, a i x * cheb i (chebPoint n x)) * b i j by
      rw [sum_mul]; exact sum_congr rfl fun x _ => by ring, this, one_mul]

theorem chebPoint_bounds {n k : ℕ} (hk : k < n) : -1 < chebPoint n k ∧ chebPoint n k < 1 := by
  have hn : (0 : ℝ) < n := by exact_mod_cast (by omega : 0 < n)
  have hk' : (k : ℝ) + 1 ≤ n := by exact_mod_cast hk
  have hk0 : (0 : ℝ) ≤ k := by positivity
  have hp := Real.pi_pos
  have h0 : 0 < (2 * (k : ℝ) + 1) * Real.pi / (2 * n) := by positivity
  have h1 : (2 * (k : ℝ) + 1) * Real.pi / (2 * n) < Real.pi := by
    rw [div_lt_iff₀ (by positivity)]; nlinarith
  have c0 := Real.strictAntiOn_cos ⟨le_rfl, hp.le⟩ ⟨h0.le, h1.le⟩ h0
  have c1 := Real.strictAntiOn_cos ⟨h0.le, h1.le⟩ ⟨hp.le, le_rfl⟩ h1
  rw [Real.cos_zero] at c0
  rw [Real.cos_pi] at c1
  unfold chebPoint
  constructor <;> linarith

theorem chebPoint_lt {n k l : ℕ} (hkl : k < l) (hl : l < n) : chebPoint n k < chebPoint n l := by
  have hn : (0 : ℝ) < n := by exact_mod_cast (by omega : 0 < n)
  have hl' : (l : ℝ) + 1 ≤ n := by exact_mod_cast hl
  have hk0 : (0 : ℝ) ≤ k := by positivity
  have hkl' : (k : ℝ) < l := by exact_mod_cast hkl
  have hp := Real.pi_pos
  have h0 : 0 ≤ (2 * (k : ℝ) + 1) * Real.pi / (2 * n) := by positivity
  have h1 : (2 * (l : ℝ) + 1) * Real.pi / (2 * n) ≤ Real.pi := by
    rw [div_le_iff₀ (by positivity)]; nlinarith
  have h2 : (2 * (k : ℝ) + 1) * Real.pi / (2 * n) < (2 * (l : ℝ) + 1) * Real.pi / (2 * n) := by
    gcongr
  have := Real.strictAntiOn_cos ⟨h0, h2.le.trans h1⟩ ⟨h0.trans h2.le, h1⟩ h2
  unfold chebPoint
  linarith

theorem cheb_chebPoint_zero {n k : ℕ} (hk : k < n) : cheb n (chebPoint n k) = 0 := by
  have hn : (n : ℝ) ≠ 0 := by have : 0 < n := by omega
                              positivity
  rw [cheb_point]
  have : ((n * (2 * k + 1) : ℕ) : ℝ) * Real.pi / (2 * n) = Real.pi / 2 + k * Real.pi := by
    push_cast; field_simp; ring
  rw [this, Real.cos_add_nat_mul_pi, Real.cos_pi_div_two]
  simp

theorem chebPoint_inj {n k l : ℕ} (hk : k < n) (hl : l < n) (h : chebPoint n k = chebPoint n l) : k = l := by
  rcases lt_trichotomy k l with c | c | c
  · exact absurd h (chebPoint_lt c hl).ne
  · exact c
  · exact absurd h (chebPoint_lt c hk).ne'

/-- every zero of `T_n` is a Chebyshev point -/
theorem cheb_zero_iff {n : ℕ} (t : ℝ) : cheb n t = 0 ↔ ∃ k, k < n ∧ t = chebPoint n k := by
  constructor
  · intro h
    have hne : (Chebyshev.T ℝ (n : ℤ)) ≠ 0 := Chebyshev.T_ne_zero ℝ (n : ℤ)
    let Z : Finset ℝ := (range n).image (chebPoint n)
    have hcard : Z.card = n := by
      rw [card_image_of_injOn fun a ha b hb hab =>
        chebPoint_inj (mem_range.1 ha) (mem_range.1 hb) hab, card_range]
    by_contra hc
    push Not at hc
    have hsub : insert t Z ⊆ (Chebyshev.T ℝ (n : ℤ)).roots.toFinset := by
      intro z hz
      rw [Multiset.mem_toFinset, mem_roots hne, IsRoot.def]
      rcases mem_insert.1 hz with rfl | hz
      · exact h
      · obtain ⟨k, hk, rfl⟩ := mem_image.1 hz
        exact cheb_chebPoint_zero (mem_range.1 hk)
    have c1 := card_le_card hsub
    have ht : t ∉ Z := fun hz => by
      obtain ⟨k, hk, e⟩ := mem_image.1 hz
      exact hc k (mem_range.1 hk) e.symm
    rw [card_insert_of_notMem ht, hcard] at c1
    have c2 := (Multiset.toFinset_card_le (Chebyshev.T ℝ (n : ℤ)).roots).trans (card_roots' _)
    have c3 : (Chebyshev.T ℝ (n : ℤ)).natDegree = n := by simp
    omega
  · rintro ⟨k, hk, rfl⟩
    exact cheb_chebPoint_zero hk

/-- interpolation at the nodes -/
theorem chebSum_node {n : ℕ} {a : ℕ → ℕ → ℝ} (h : IsVandermondeInverse n a) (d : ℕ → ℝ) {j : ℕ} (hj : j < n) :
    chebSum n (fun i => ∑ k ∈ range n, a i k * d k) (chebPoint n j) = d j := by
  simp only [chebSum, sum_mul]
  rw [sum_comm]
  have e : ∀ k ∈ range n, (∑ i ∈ range n, a i k * d k * cheb i (chebPoint n j)) =
      (if j = k then 1 else 0) * d k := fun k hk => by
    rw [← h.right j k hj (mem_range.1 hk), sum_mul]
    exact sum_congr rfl fun i _ => by ring
  rw [sum_congr rfl e]
  simp [hj]

/-- the Chebyshev sum as a polynomial -/
theorem chebSum_poly (n : ℕ) (c : ℕ → ℝ) :
    ∃ q : ℝ[X], q.degree < n ∧ ∀ t, q.eval t = chebSum n c t := by
  refine ⟨∑ k ∈ range n, Polynomial.C (c k) * Chebyshev.T ℝ (k : ℤ), ?_, fun t => ?_⟩
  · rw [← mem_degreeLT]
    refine Submodule.sum_mem _ fun k hk => ?_
    rw [mem_degreeLT]
    have hdeg : (Chebyshev.T ℝ (k : ℤ)).degree = k := by
      rw [degree_eq_natDegree (Chebyshev.T_ne_zero ℝ (k : ℤ))]; simp
    refine lt_of_le_of_lt (degree_mul_le_of_le degree_C_le le_rfl) ?_
    rw [zero_add]
    rw [hdeg]
    exact_mod_cast mem_range.1 hk
  · simp [eval_finsetSum, chebSum, cheb]

/-- polynomials of degree below `n` are reproduced everywhere -/
theorem chebSum_exact {n : ℕ} {a : ℕ → ℕ → ℝ} (h : IsVandermondeInverse n a) (p : ℝ[X]) (hp : p.degree < n)
    (t : ℝ) :
    chebSum n (fun i => ∑ k ∈ range n, a i k * p.eval (chebPoint n k)) t = p.eval t := by
  obtain ⟨q, hq, hqe⟩ := chebSum_poly n (fun i => ∑ k ∈ range n, a i k * p.eval (chebPoint n k))
  have : q = p := by
    refine Polynomial.eq_of_degrees_lt_of_eval_finset_eq ((range n).image (chebPoint n)) ?_ ?_ ?_
    · rw [card_image_of_injOn fun a ha b hb hab =>
        chebPoint_inj (mem_range.1 ha) (mem_range.1 hb) hab, card_range]; exact hq
    · rw [card_image_of_injOn fun a ha b hb hab =>
        chebPoint_inj (mem_range.1 ha) (mem_range.1 hb) hab, card_range]; exact hp
    · intro x hx
      obtain ⟨k, hk, rfl⟩ := mem_image.1 hx
      rw [hqe, chebSum_node h (fun k => p.eval (chebPoint n k)) (mem_range.1 hk)]
  rw [← hqe, this]

end Opac.Spec
