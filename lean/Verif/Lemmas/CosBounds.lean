import Mathlib.Analysis.Complex.Exponential
import Mathlib.Analysis.Complex.Trigonometric
import Mathlib.Analysis.Real.Pi.Bounds
import Mathlib.Analysis.SpecialFunctions.Trigonometric.Bounds
import Mathlib.Analysis.SpecialFunctions.Trigonometric.Deriv

/-! Certified rational approximations of `cos (m π / (2 n))`. -/

namespace Opac.CosBounds
open Finset

theorem re_series (x : ℝ) (N : ℕ) :
    (∑ m ∈ range (2 * N), ((x : ℂ) * Complex.I) ^ m / (m.factorial : ℂ)).re =
      ∑ k ∈ range N, (-1) ^ k * x ^ (2 * k) / ((2 * k).factorial : ℝ) := by
  induction N with
  | zero => simp
  | succ N ih =>
    have e1 : ((x : ℂ) * Complex.I) ^ (2 * N) / ((2 * N).factorial : ℂ) =
        (((-1) ^ N * x ^ (2 * N) / ((2 * N).factorial : ℝ) : ℝ) : ℂ) := by
      push_cast
      rw [mul_pow, pow_mul Complex.I, Complex.I_sq]; ring
    have e2 : ((x : ℂ) * Complex.I) ^ (2 * N + 1) / ((2 * N + 1).factorial : ℂ) =
        (((-1) ^ N * x ^ (2 * N + 1) / ((2 * N + 1).factorial : ℝ) : ℝ) : ℂ) * Complex.I := by
      push_cast
      rw [mul_pow, pow_succ Complex.I, pow_mul Complex.I, Complex.I_sq]; ring
    rw [show 2 * (N + 1) = 2 * N + 1 + 1 by ring, sum_range_succ, sum_range_succ, Complex.add_re,
      Complex.add_re, ih, e1, e2, sum_range_succ, Complex.ofReal_re, Complex.re_ofReal_mul, Complex.I_re]
    ring

theorem cos_series_bound {x : ℝ} (N : ℕ) (h : |x| / ((2 * N).succ : ℕ) ≤ 1 / 2) :
    |Real.cos x - ∑ k ∈ range N, (-1) ^ k * x ^ (2 * k) / ((2 * k).factorial : ℝ)| ≤
      |x| ^ (2 * N) / ((2 * N).factorial : ℝ) * 2 := by
  have hn : ‖(x : ℂ) * Complex.I‖ = |x| := by simp
  have b := Complex.exp_bound' (x := (x : ℂ) * Complex.I) (n := 2 * N) (by rw [hn]; exact_mod_cast h)
  rw [hn] at b
  refine le_trans ?_ b
  have r := Complex.abs_re_le_norm (Complex.exp ((x : ℂ) * Complex.I) -
    ∑ m ∈ range (2 * N), ((x : ℂ) * Complex.I) ^ m / (m.factorial : ℂ))
  rwa [Complex.sub_re, re_series, Complex.exp_ofReal_mul_I_re] at r

/-- Taylor polynomial of `cos` of degree 28 -/
def cosP (q : ℚ) : ℚ :=
  (List.range 15).foldl (fun s k => s + (-1) ^ k * q ^ (2 * k) / ((2 * k).factorial : ℚ)) 0

theorem cosP_cast (q : ℚ) :
    ((cosP q : ℚ) : ℝ) = ∑ k ∈ range 15, (-1) ^ k * (q : ℝ) ^ (2 * k) / ((2 * k).factorial : ℝ) := by
  simp only [cosP, List.range_succ, List.range_zero, List.nil_append, List.foldl_cons,
    List.foldl_nil, List.cons_append, sum_range_succ, range_zero, sum_empty]
  push_cast
  ring

/-- `π` to 20 decimals -/
def piQ : ℚ := 314159265358979323846 / 10 ^ 20

theorem pi_near : |Real.pi - piQ| ≤ 1 / 10 ^ 20 := by
  have h1 := Real.pi_gt_d20
  have h2 := Real.pi_lt_d20
  rw [abs_le]
  simp only [piQ]
  push_cast
  constructor
  · norm_num at h1 ⊢; linarith
  · norm_num at h2 ⊢; linarith

theorem cos_near {n m : ℕ} (hm : m ≤ n) :
    |Real.cos (m * Real.pi / (2 * n)) - cosP (m * piQ / (2 * n))| ≤ 2 / 10 ^ 20 := by
  have hr0 : (0 : ℝ) ≤ (m : ℝ) / (2 * n) := by positivity
  have hr1 : (m : ℝ) / (2 * n) ≤ 1 / 2 := by
    rcases Nat.eq_zero_or_pos n with rfl | hn
    · simp
    · rw [div_le_iff₀ (by positivity)]
      have : (m : ℝ) ≤ n := by exact_mod_cast hm
      linarith
  set q : ℚ := m * piQ / (2 * n) with hq
  have hqr : (q : ℝ) = (m : ℝ) / (2 * n) * (piQ : ℝ) := by
    rw [hq]; push_cast; ring
  have hp0 : (0 : ℝ) ≤ (piQ : ℝ) := by simp only [piQ]; push_cast; norm_num
  have hp1 : (piQ : ℝ) ≤ 16 / 5 := by simp only [piQ]; push_cast; norm_num
  have hq0 : (0 : ℝ) ≤ q := by rw [hqr]; positivity
  have hq1 : (q : ℝ) ≤ 8 / 5 := by
    rw [hqr]
    nlinarith
  have a1 : |Real.cos (m * Real.pi / (2 * n)) - Real.cos q| ≤ 1 / 10 ^ 20 := by
    refine le_trans (Real.abs_cos_sub_cos_le _ _) ?_
    rw [hqr, show (m : ℝ) * Real.pi / (2 * n) - m / (2 * n) * piQ = m / (2 * n) * (Real.pi - piQ) by ring,
      abs_mul, abs_of_nonneg hr0]
    have := pi_near
    have h0 := abs_nonneg (Real.pi - (piQ : ℝ))
    nlinarith
  have a2 : |Real.cos q - cosP q| ≤ 1 / 10 ^ 20 := by
    rw [cosP_cast]
    have habs : |(q : ℝ)| ≤ 8 / 5 := by rw [abs_of_nonneg hq0]; exact hq1
    refine le_trans (cos_series_bound 15 ?_) ?_
    · rw [div_le_iff₀ (by positivity)]
      push_cast
      linarith
    · have : |(q : ℝ)| ^ (2 * 15) ≤ (8 / 5) ^ (2 * 15) := by gcongr
      have hf : ((2 * 15).factorial : ℝ) = 265252859812191058636308480000000 := by
        norm_num [Nat.factorial]
      rw [hf]
      rw [div_mul_eq_mul_div, div_le_iff₀ (by norm_num)]
      refine le_trans (mul_le_mul_of_nonneg_right this (by norm_num)) ?_
      norm_num
  calc _ = |(Real.cos (m * Real.pi / (2 * n)) - Real.cos q) + (Real.cos q - cosP q)| := by ring_nf
    _ ≤ _ := abs_add_le _ _
    _ ≤ 1 / 10 ^ 20 + 1 / 10 ^ 20 := add_le_add a1 a2
    _ = 2 / 10 ^ 20 := by ring

/-- quadrant reduction of the angle `M π / (2 n)` -/
def reduce (n M : ℕ) : ℤ × ℕ :=
  let r := M % (4 * n)
  if r ≤ n then (1, r) else if r ≤ 2 * n then (-1, 2 * n - r)
  else if r ≤ 3 * n then (-1, r - 2 * n) else (1, 4 * n - r)

theorem reduce_le {n M : ℕ} (hn : 0 < n) : (reduce n M).2 ≤ n := by
  have := Nat.mod_lt M (show 0 < 4 * n by omega)
  simp only [reduce]
  split_ifs <;> simp only <;> omega

theorem reduce_cos {n M : ℕ} (hn : 0 < n) :
    Real.cos (M * Real.pi / (2 * n)) =
      (reduce n M).1 * Real.cos ((reduce n M).2 * Real.pi / (2 * n)) := by
  have hn' : (n : ℝ) ≠ 0 := by positivity
  have hr : Real.cos (M * Real.pi / (2 * n)) =
      Real.cos ((M % (4 * n) : ℕ) * Real.pi / (2 * n)) := by
    have e : (M : ℝ) = (M % (4 * n) : ℕ) + 4 * n * (M / (4 * n) : ℕ) := by
      exact_mod_cast (Nat.mod_add_div M (4 * n)).symm
    rw [← Real.cos_add_nat_mul_two_pi ((M % (4 * n) : ℕ) * Real.pi / (2 * n)) (M / (4 * n))]
    generalize M % (4 * n) = r at e ⊢
    generalize M / (4 * n) = d at e ⊢
    rw [e]
    congr 1
    field_simp
    ring
  rw [hr]
  have hlt := Nat.mod_lt M (show 0 < 4 * n by omega)
  simp only [reduce]
  generalize M % (4 * n) = r at hlt ⊢
  split_ifs with h1 h2 h3
  · simp
  · simp only
    push_cast [h2]
    rw [show (2 * (n : ℝ) - r) * Real.pi / (2 * n) = Real.pi - r * Real.pi / (2 * n) by field_simp,
      Real.cos_pi_sub]
    ring
  · simp only
    push_cast [show 2 * n ≤ r by omega]
    rw [show ((r : ℝ) - 2 * n) * Real.pi / (2 * n) = r * Real.pi / (2 * n) - Real.pi by field_simp,
      Real.cos_sub_pi]
    ring
  · simp only
    push_cast [show r ≤ 4 * n by omega]
    rw [show (4 * (n : ℝ) - r) * Real.pi / (2 * n) = 2 * Real.pi - r * Real.pi / (2 * n) by
      field_simp; ring, Real.cos_two_pi_sub]
    ring

end Opac.CosBounds
