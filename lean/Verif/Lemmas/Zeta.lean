import Verif.Lemmas.BoseFermi

/-! # Two more zeta values -/

namespace Opac
open Real

theorem bernoulli'_five : bernoulli' 5 = 0 := by
  have : bernoulli' 5 = _ := bernoulli'_def 5
  rw [this]
  norm_num [Finset.sum_range_succ, Nat.choose]

theorem bernoulli'_six : bernoulli' 6 = 1 / 42 := by
  rw [bernoulli'_def]
  norm_num [Finset.sum_range_succ, Nat.choose, bernoulli'_five]

theorem zetaR_six : zetaR 6 = π ^ 6 / 945 := by
  have h := hasSum_zeta_nat (k := 3) (by norm_num)
  rw [bernoulli_eq_bernoulli'_of_ne_one (by norm_num), show 2 * 3 = 6 from rfl, bernoulli'_six] at h
  have e : (-1 : ℝ) ^ (3 + 1) * 2 ^ (6 - 1) * π ^ 6 * ((1 / 42 : ℚ) : ℝ) / (Nat.factorial 6 : ℕ) = π ^ 6 / 945 := by
    simp [Nat.factorial]; ring
  rw [e] at h
  have h1 := (hasSum_nat_add_iff 1).2 (by simpa using h : HasSum (fun n : ℕ => (1 : ℝ) / (n : ℝ) ^ 6)
    (π ^ 6 / 945 + ∑ i ∈ Finset.range 1, (1:ℝ) / (i : ℝ) ^ 6))
  rw [zetaR, ← h1.tsum_eq]
  simp

/-- `ζ(5)` to seven digits -/
theorem zetaR_five_bounds : 1.0369276 < zetaR 5 ∧ zetaR 5 < 1.0369279 := by
  have hs := summable_zetaR (k := 5) (by norm_num)
  have hsplit := hs.sum_add_tsum_nat_add 40
  have hts := (summable_nat_add_iff 40).2 hs
  have up : ∑' n : ℕ, 1 / (((n + 40 : ℕ) : ℝ) + 1) ^ 5 ≤ 1 / (4 * 39 * 40 * 41 * 42) := by
    refine hts.tsum_le_of_sum_range_le fun N => ?_
    have : ∑ n ∈ Finset.range N, 1 / (((n + 40 : ℕ) : ℝ) + 1) ^ 5 ≤
        1 / (4 * 39 * 40 * 41 * 42) - 1 / (4 * ((N : ℝ) + 39) * (N + 40) * (N + 41) * (N + 42)) := by
      induction N with
      | zero => norm_num
      | succ N ih =>
        rw [Finset.sum_range_succ]
        have key : 1 / (((N + 40 : ℕ) : ℝ) + 1) ^ 5 ≤ 1 / (4 * ((N : ℝ) + 39) * (N + 40) * (N + 41) * (N + 42)) -
            1 / (4 * (((N + 1 : ℕ) : ℝ) + 39) * ((N + 1 : ℕ) + 40) * ((N + 1 : ℕ) + 41) * ((N + 1 : ℕ) + 42)) := by
          push_cast
          have e : 1 / (4 * ((N : ℝ) + 39) * (N + 40) * (N + 41) * (N + 42)) -
              1 / (4 * ((N : ℝ) + 1 + 39) * (N + 1 + 40) * (N + 1 + 41) * (N + 1 + 42)) =
              1 / (((N : ℝ) + 39) * (N + 40) * (N + 41) * (N + 42) * (N + 43)) := by
            field_simp; ring
          rw [e]
          apply one_div_le_one_div_of_le (by positivity)
          have h0 : (0:ℝ) ≤ N := Nat.cast_nonneg N
          have a1 : ((N:ℝ) + 39) * (N + 43) ≤ (N + 41) ^ 2 := by nlinarith
          have a2 : ((N:ℝ) + 40) * (N + 42) ≤ (N + 41) ^ 2 := by nlinarith
          calc ((N : ℝ) + 39) * (N + 40) * (N + 41) * (N + 42) * (N + 43)
              = (((N:ℝ) + 39) * (N + 43)) * (((N:ℝ) + 40) * (N + 42)) * (N + 41) := by ring
            _ ≤ ((N:ℝ) + 41) ^ 2 * (N + 41) ^ 2 * (N + 41) := by gcongr
            _ = _ := by ring
        linarith
    have h2 : 0 ≤ 1 / (4 * ((N : ℝ) + 39) * (N + 40) * (N + 41) * (N + 42)) := by positivity
    linarith
  have lo : 0 ≤ ∑' n : ℕ, 1 / (((n + 40 : ℕ) : ℝ) + 1) ^ 5 := tsum_nonneg fun n => by positivity
  have hz : zetaR 5 = ∑ n ∈ Finset.range 40, 1 / ((n : ℝ) + 1) ^ 5 +
      ∑' n : ℕ, 1 / (((n + 40 : ℕ) : ℝ) + 1) ^ 5 := hsplit.symm
  have hfin1 : (1.0369276 : ℝ) < ∑ n ∈ Finset.range 40, 1 / ((n : ℝ) + 1) ^ 5 := by
    norm_num [Finset.sum_range_succ]
  have hfin2 : ∑ n ∈ Finset.range 40, 1 / ((n : ℝ) + 1) ^ 5 < (1.0369279 : ℝ) - 1 / (4 * 39 * 40 * 41 * 42) := by
    norm_num [Finset.sum_range_succ]
  rw [hz]
  constructor <;> linarith

end Opac
