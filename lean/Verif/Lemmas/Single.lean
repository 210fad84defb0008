import Verif.Spec.Single
import Verif.Lemmas.RealArith
import Mathlib.Analysis.SpecialFunctions.Log.Deriv
import Mathlib.Analysis.Complex.ExponentialBounds

/-!
# The single-precision logarithm
-/

namespace Opac

theorem rne_dist (z : ℝ) : |(rne z : ℝ) - z| ≤ 1 / 2 := by
  have h0 := Int.floor_le z
  have h1 := Int.lt_floor_add_one z
  unfold rne
  rw [abs_le]
  split_ifs <;> push_cast <;> constructor <;> linarith

theorem BinaryParams.near_dist (B : BinaryParams) (x : ℝ) : |B.near x - x| ≤ 2 ^ B.ue x / 2 := by
  have hp := u_pos (B.ue x)
  have h := rne_dist (x / 2 ^ B.ue x)
  have e : B.near x - x = ((rne (x / 2 ^ B.ue x) : ℝ) - x / 2 ^ B.ue x) * 2 ^ B.ue x := by
    rw [near, sub_mul, div_mul_cancel₀ _ hp.ne']
  rw [e, abs_mul, abs_of_pos hp]
  nlinarith

theorem float32_near_dist (x : ℝ) : |float32.near x - x| ≤ 2 ^ (-24 : ℤ) * (|x| + 2 ^ (-126 : ℤ)) := by
  rcases eq_or_ne x 0 with rfl | hne
  · rw [float32.near_zero, sub_zero, abs_zero]; positivity
  refine (float32.near_dist x).trans ?_
  have hx := abs_nonneg x
  have hq : (0 : ℝ) < 2 ^ (-126 : ℤ) := by positivity
  rcases le_total (Int.log 2 |x| - (float32.p : ℤ) + 1) float32.emin with h | h
  · rw [BinaryParams.ue, max_eq_right h]
    show (2 : ℝ) ^ (-149 : ℤ) / 2 ≤ _
    have : (2 : ℝ) ^ (-149 : ℤ) / 2 = 2 ^ (-24 : ℤ) * 2 ^ (-126 : ℤ) := by norm_num
    rw [this]
    have : (0 : ℝ) < 2 ^ (-24 : ℤ) := by positivity
    nlinarith
  · rw [BinaryParams.ue, max_eq_left h]
    have h0 : 0 < |x| := abs_pos.2 hne
    have h1 : (2 : ℝ) ^ Int.log 2 |x| ≤ |x| := Int.zpow_log_le_self (b := 2) (by norm_num) h0
    have : (2 : ℝ) ^ (Int.log 2 |x| - (float32.p : ℤ) + 1) / 2 = 2 ^ (-24 : ℤ) * 2 ^ Int.log 2 |x| := by
      rw [show (Int.log 2 |x| - (float32.p : ℤ) + 1) = Int.log 2 |x| + (-24) + 1 by
        show Int.log 2 |x| - (24 : ℤ) + 1 = _; ring, zpow_add₀ (by norm_num), zpow_add₀ (by norm_num)]
      rw [zpow_one]; ring
    rw [this]
    have : (0 : ℝ) < 2 ^ (-24 : ℤ) := by positivity
    nlinarith

theorem binary32_rounds : binary32.Rounds (2 ^ (-24 : ℤ)) where
  near x _ := float32_near_dist x
  log_near x _ := float32_near_dist (Real.log x)

theorem binary32_ordered : binary32.Ordered where
  mono _ _ h := float32.near_mono h
  log_mono _ _ h0 h := float32.near_mono (Real.log_le_log h0 h)
  pos x h := by
    have h0 : (0 : ℝ) < 2 ^ (-126 : ℤ) := by positivity
    have h5 := float32_near_dist x
    rw [abs_of_pos (h0.trans_le h), abs_le] at h5
    have h3 : (2 : ℝ) ^ (-24 : ℤ) ≤ 1 / 4 := by norm_num
    have h4 : (0 : ℝ) < 2 ^ (-24 : ℤ) := by positivity
    show 0 < float32.near x
    have : (2 : ℝ) ^ (-24 : ℤ) * (x + 2 ^ (-126 : ℤ)) ≤ 1 / 4 * (2 * x) := by
      apply mul_le_mul h3 (by linarith) (by linarith) (by norm_num)
    have hx := h0.trans_le h
    have h6 := h5.1
    generalize (2 : ℝ) ^ (-24 : ℤ) * (x + 2 ^ (-126 : ℤ)) = e at this h6
    linarith
end Opac

namespace Opac.BDMath

/-- `ILOG10` -/
noncomputable def c10 : ℝ := 43429448190325176 / 10 ^ 17

theorem log10_def (sp : Single ℝ) (x : ℝ) : log10 sp x = sp.toFloat (sp.logf (sp.toFloat x) * c10) := by
  unfold log10 c10
  simp only [areal]
  push_cast
  rfl

theorem c10_lo : 43 / 100 < c10 := by norm_num [c10]
theorem c10_hi : c10 < 44 / 100 := by norm_num [c10]

variable {sp : Single ℝ}

theorem log10_mono (h : sp.Ordered) {x y : ℝ} (hx : 2 ^ (-126 : ℤ) ≤ x) (hxy : x ≤ y) : log10 sp x ≤ log10 sp y := by
  rw [log10_def, log10_def]
  apply h.mono
  have := c10_lo
  exact mul_le_mul_of_nonneg_right (h.log_mono _ _ (h.pos x hx) (h.mono _ _ hxy)) (by linarith)

theorem log1_bound {d : ℝ} (h : |d| ≤ 1 / 2) : |Real.log (1 + d)| ≤ 2 * |d| := by
  rw [abs_le] at h
  have h1 : 0 < 1 + d := by linarith
  have up := Real.log_le_sub_one_of_pos h1
  have lo := Real.one_sub_inv_le_log_of_pos h1
  have e : 1 - (1 + d)⁻¹ = d / (1 + d) := by field_simp; ring
  rw [e] at lo
  rw [abs_le]
  rcases abs_cases d with ⟨e, _⟩ | ⟨e, _⟩ <;> rw [e]
  · constructor
    · have : 0 ≤ d / (1 + d) := by positivity
      linarith
    · linarith
  · constructor
    · have : 2 * d ≤ d / (1 + d) := by rw [le_div_iff₀ h1]; nlinarith
      linarith
    · linarith

/-- how far the single-precision logarithm is from the exact logarithm times `ILOG10` -/
theorem log10_near {u : ℝ} (h : sp.Rounds u) (hu0 : 0 ≤ u) (hu : u ≤ 1 / 16) {x : ℝ} (hx : 2 ^ (-126 : ℤ) ≤ x)
    (hx' : x ≤ 2 ^ (127 : ℤ)) : |log10 sp x - c10 * Real.log x| ≤ 4 * u * (1 + |Real.log x|) := by
  have hL88 : |Real.log x| ≤ 100 := by
    have hq : (0 : ℝ) < 2 ^ (-126 : ℤ) := by positivity
    have l2 := Real.log_two_lt_d9
    have l2' : 0 < Real.log 2 := Real.log_pos (by norm_num)
    rw [abs_le]
    constructor
    · have := Real.log_le_log hq hx
      rw [Real.log_zpow] at this
      push_cast at this
      linarith
    · have := Real.log_le_log (hq.trans_le hx) hx'
      rw [Real.log_zpow] at this
      push_cast at this
      linarith
  have big : (101 : ℝ) ≤ 2 ^ (127 : ℤ) := by norm_num
  have near := h.near
  have log_near := h.log_near
  obtain ⟨q, hqe⟩ : ∃ q : ℝ, q = 2 ^ (-126 : ℤ) := ⟨_, rfl⟩
  have hq : 0 < q := by rw [hqe]; positivity
  have hq1 : q ≤ 1 / 1000 := by rw [hqe]; norm_num
  rw [← hqe] at hx near log_near
  clear hqe
  generalize (2 : ℝ) ^ (127 : ℤ) = Q at hx' big near
  have hx0 : 0 < x := hq.trans_le hx
  set y := sp.toFloat x with hy
  have h1 := near x (by rw [abs_of_pos hx0]; exact hx')
  rw [abs_of_pos hx0] at h1
  have h2 : |y - x| ≤ 2 * u * x := h1.trans (by nlinarith)
  set d := (y - x) / x with hd
  have hyd : y = x * (1 + d) := by rw [hd]; field_simp; ring
  have hdu : |d| ≤ 2 * u := by rw [hd, abs_div, abs_of_pos hx0, div_le_iff₀ hx0]; exact h2
  have hd2 : |d| ≤ 1 / 2 := by linarith
  have h1d : 0 < 1 + d := by rw [abs_le] at hd2; linarith
  have hlog : Real.log y = Real.log x + Real.log (1 + d) := by rw [hyd, Real.log_mul hx0.ne' h1d.ne']
  have hl1 := (log1_bound hd2).trans (mul_le_mul_of_nonneg_left hdu (by norm_num : (0 : ℝ) ≤ 2))
  set L := |Real.log x| with hL
  have hL0 : 0 ≤ L := abs_nonneg _
  have hyL : |Real.log y| ≤ L + 4 * u := by
    rw [hlog]; exact (abs_add_le _ _).trans (by linarith)
  have h3 := log_near y (by rw [hyd]; positivity)
  set g := sp.logf y with hg
  have h4 : |g - Real.log x| ≤ u * (L + 5) := by
    have : g - Real.log x = (g - Real.log y) + Real.log (1 + d) := by rw [hlog]; ring
    rw [this]
    refine (abs_add_le _ _).trans ?_
    have : u * (|Real.log y| + q) ≤ u * (L + 1) := mul_le_mul_of_nonneg_left (by linarith) hu0
    nlinarith
  have c0 := c10_lo
  have c1 := c10_hi
  have h5 : |g * c10 - c10 * Real.log x| ≤ 44 / 100 * (u * (L + 5)) := by
    rw [show g * c10 - c10 * Real.log x = c10 * (g - Real.log x) by ring, abs_mul, abs_of_pos (by linarith : 0 < c10)]
    exact mul_le_mul c1.le h4 (abs_nonneg _) (by norm_num)
  have hcl : |c10 * Real.log x| ≤ 44 / 100 * L := by
    rw [abs_mul, abs_of_pos (by linarith : 0 < c10)]
    exact mul_le_mul_of_nonneg_right c1.le hL0
  have h6 : |g * c10| ≤ L + 1 := by
    have : g * c10 = (g * c10 - c10 * Real.log x) + c10 * Real.log x := by ring
    rw [this]
    refine (abs_add_le _ _).trans ?_
    have : u * (L + 5) ≤ 1 / 16 * (L + 5) := mul_le_mul_of_nonneg_right hu (by linarith)
    linarith
  have h7 := near (g * c10) (h6.trans (by linarith))
  rw [log10_def]
  have : sp.toFloat (g * c10) - c10 * Real.log x =
      (sp.toFloat (g * c10) - g * c10) + (g * c10 - c10 * Real.log x) := by ring
  rw [this]
  refine (abs_add_le _ _).trans ?_
  have h8 : |g * c10| ≤ 44 / 100 * L + 44 / 100 * (u * (L + 5)) := by
    have : g * c10 = (g * c10 - c10 * Real.log x) + c10 * Real.log x := by ring
    rw [this]
    exact (abs_add_le _ _).trans (by linarith)
  have h9 : u * (L + 5) ≤ 1 / 16 * (L + 5) := mul_le_mul_of_nonneg_right hu (by linarith)
  have h10 : u * (|g * c10| + q) ≤ u * (3 / 4 * L + 1) := mul_le_mul_of_nonneg_left (by linarith) hu0
  nlinarith

/-- `ILOG10` is the reciprocal of `ln 10` -/
theorem c10_log : |c10 * Real.log 10 - 1| ≤ 1 / 10 ^ 8 := by
  have e : Real.log 10 = 3 * Real.log 2 - Real.log (1 - 1 / 5) := by
    rw [show (1 - 1 / 5 : ℝ) = 2 ^ 3 / 10 by norm_num, Real.log_div (by norm_num) (by norm_num), Real.log_pow]
    push_cast; ring
  have s := Real.abs_log_sub_add_sum_range_le (x := 1 / 5) (by rw [abs_of_pos] <;> norm_num) 13
  rw [abs_of_pos (by norm_num : (0 : ℝ) < 1 / 5)] at s
  simp only [Finset.sum_range_succ, Finset.sum_range_zero] at s
  rw [abs_le] at s
  have l1 := Real.log_two_gt_d9
  have l2 := Real.log_two_lt_d9
  rw [e, abs_le]
  unfold c10
  norm_num at s ⊢
  constructor <;> linarith [s.1, s.2]

end Opac.BDMath

namespace Opac

theorem float32_near_above_one {x : ℝ} (h0 : 1 ≤ x) (h1 : x ≤ 1 + 2 ^ (-25 : ℤ)) : float32.near x = 1 := by
  refine le_antisymm ?_ (by rw [← float32.near_one]; exact float32.near_mono h0)
  refine (float32.near_mono h1).trans (le_of_eq ?_)
  have hl : Int.log 2 |(1 + 2 ^ (-25 : ℤ) : ℝ)| = 0 := by
    rw [abs_of_pos (by positivity)]
    refine le_antisymm (Int.lt_add_one_iff.1 ?_) ?_
    · rw [← Int.lt_zpow_iff_log_lt (by norm_num) (by positivity)]
      norm_num
    · rw [← Int.zpow_le_iff_le_log (by norm_num) (by positivity)]
      norm_num
  have hu : float32.ue (1 + 2 ^ (-25 : ℤ)) = -23 := by
    rw [BinaryParams.ue, hl]
    rfl
  rw [BinaryParams.near, hu]
  have e : ((1 : ℝ) + 2 ^ (-25 : ℤ)) / 2 ^ (-23 : ℤ) = ((8388608 : ℤ) : ℝ) + 1 / 4 := by norm_num
  have hf : ⌊((8388608 : ℤ) : ℝ) + 1 / 4⌋ = 8388608 := by
    rw [Int.floor_eq_iff]; norm_num
  have hr : rne (((8388608 : ℤ) : ℝ) + 1 / 4) = 8388608 := by
    unfold rne
    rw [hf, if_pos (by norm_num)]
  rw [e, hr]
  norm_num

theorem float32_rd_big {x : ℝ} (h : 2 ^ (128 : ℤ) ≤ x) : float32.rd x = .pinf := by
  have := float32.near_mono h
  have e := float32.near_fix (e := 128) (k := 1) (by show (-149 : ℤ) ≤ 128; norm_num)
    (by show |(1 : ℤ)| ≤ 2 ^ 24; norm_num)
  rw [Int.cast_one, one_mul] at e
  rw [e] at this
  exact if_pos this

theorem float32_rd_small {x : ℝ} (h0 : 0 ≤ x) (h : x ≤ 2 ^ (-150 : ℤ)) : float32.rd x = .fin 0 := by
  have hl : float32.near x = 0 := by
    refine le_antisymm ((float32.near_mono h).trans (le_of_eq ?_)) (float32.near_nonneg h0)
    have hl : Int.log 2 |(2 ^ (-150 : ℤ) : ℝ)| = -150 := by
      rw [abs_of_pos (by positivity)]
      exact_mod_cast Int.log_zpow (R := ℝ) (b := 2) (by norm_num) (-150)
    have hu : float32.ue (2 ^ (-150 : ℤ)) = -149 := by
      rw [BinaryParams.ue, hl]; rfl
    rw [BinaryParams.near, hu]
    have e : (2 : ℝ) ^ (-150 : ℤ) / 2 ^ (-149 : ℤ) = 1 / 2 := by norm_num
    have hf : ⌊(1 / 2 : ℝ)⌋ = 0 := by rw [Int.floor_eq_iff]; norm_num
    have hr : rne (1 / 2 : ℝ) = 0 := by
      unfold rne
      rw [hf, if_neg (by norm_num), if_neg (by norm_num), if_pos (by norm_num)]
    rw [e, hr]; norm_num
  rw [float32.rd_of_lt (by rw [hl, abs_zero]; positivity), hl]
end Opac
