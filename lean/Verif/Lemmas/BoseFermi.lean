import Mathlib.Analysis.SpecialFunctions.Gamma.Basic
import Mathlib.Analysis.SpecialFunctions.Gaussian.GaussianIntegral
import Mathlib.Analysis.SpecialFunctions.Trigonometric.DerivHyp
import Mathlib.MeasureTheory.Integral.DominatedConvergence
import Mathlib.NumberTheory.ZetaValues
import Mathlib.Analysis.PSeries

/-! # Bose–Einstein and Fermi–Dirac integrals -/

namespace Opac
open MeasureTheory Set Real

/-- `ζ(k) = Σ 1/n^k` over the reals -/
noncomputable def zetaR (k : ℕ) : ℝ := ∑' n : ℕ, 1 / ((n : ℝ) + 1) ^ k

theorem exp_sub_one_ge {x : ℝ} (hx : 0 ≤ x) : x * exp (x / 2) ≤ exp x - 1 := by
  have h := self_le_sinh_iff.2 (by linarith : 0 ≤ x / 2)
  rw [sinh_eq] at h
  have h1 : exp (x / 2) * exp (x / 2) = exp x := by rw [← exp_add]; congr 1; ring
  have h2 : exp (x / 2) * exp (-(x / 2)) = 1 := by rw [← exp_add]; simp
  nlinarith [exp_pos (x / 2)]

theorem exp_sub_one_pos {x : ℝ} (hx : 0 < x) : 0 < exp x - 1 := by
  have := Real.add_one_lt_exp hx.ne'
  linarith

theorem integrableOn_pow_mul_exp (n : ℕ) {r : ℝ} (hr : 0 < r) :
    IntegrableOn (fun x : ℝ => x ^ n * exp (-(r * x))) (Ioi 0) := by
  have h := integrableOn_rpow_mul_exp_neg_mul_rpow (p := 1) (s := n) (b := r)
    (lt_of_lt_of_le (by norm_num) (Nat.cast_nonneg n)) one_pos hr
  refine h.congr_fun (fun x _ => ?_) measurableSet_Ioi
  simp

theorem integral_pow_mul_exp (n : ℕ) {r : ℝ} (hr : 0 < r) :
    ∫ x in Ioi (0 : ℝ), x ^ n * exp (-(r * x)) = n.factorial / r ^ (n + 1) := by
  have h := integral_rpow_mul_exp_neg_mul_Ioi (a := (n : ℝ) + 1) (by positivity) hr
  rw [Gamma_nat_eq_factorial] at h
  have e : ((n : ℝ) + 1 - 1) = n := by ring
  rw [e] at h
  simp only [rpow_natCast] at h
  rw [h, show ((n : ℝ) + 1) = ((n + 1 : ℕ) : ℝ) by push_cast; ring, rpow_natCast]
  rw [one_div, inv_pow]; field_simp

theorem bose_integrable {n : ℕ} (hn : 1 ≤ n) :
    IntegrableOn (fun x : ℝ => x ^ n / (exp x - 1)) (Ioi 0) := by
  obtain ⟨m, rfl⟩ : ∃ m, n = m + 1 := ⟨n - 1, by omega⟩
  refine Integrable.mono' (integrableOn_pow_mul_exp m (r := 1 / 2) (by norm_num)) ?_ ?_
  · refine (ContinuousOn.div (by fun_prop) (by fun_prop) fun x hx => ?_).aestronglyMeasurable measurableSet_Ioi
    exact (exp_sub_one_pos hx).ne'
  · refine (ae_restrict_iff' measurableSet_Ioi).2 (Filter.Eventually.of_forall fun x hx => ?_)
    have hx' : (0 : ℝ) < x := hx
    have h1 := exp_sub_one_pos hx'
    rw [norm_of_nonneg (by positivity), div_le_iff₀ h1]
    calc x ^ (m + 1) = x ^ m * exp (-(1 / 2 * x)) * (x * exp (x / 2)) := by
          have : exp (-(1 / 2 * x)) * exp (x / 2) = 1 := by
            rw [← exp_add]; simp only [exp_eq_one_iff]; ring
          calc x ^ (m + 1) = x ^ m * x * 1 := by ring
            _ = x ^ m * x * (exp (-(1 / 2 * x)) * exp (x / 2)) := by rw [this]
            _ = _ := by ring
      _ ≤ _ := mul_le_mul_of_nonneg_left (exp_sub_one_ge hx'.le) (by positivity)

theorem summable_zetaR {k : ℕ} (hk : 2 ≤ k) : Summable (fun n : ℕ => 1 / ((n : ℝ) + 1) ^ k) := by
  have h := (summable_nat_add_iff 1).2 (Real.summable_one_div_nat_pow.2 (by omega : 1 < k))
  simpa using h

theorem bose_integral {n : ℕ} (hn : 1 ≤ n) :
    ∫ x in Ioi (0 : ℝ), x ^ n / (exp x - 1) = n.factorial * zetaR (n + 1) := by
  have hF : ∀ i : ℕ, IntegrableOn (fun x : ℝ => x ^ n * exp (-(((i : ℝ) + 1) * x))) (Ioi 0) :=
    fun i => integrableOn_pow_mul_exp n (by positivity)
  have hnorm : ∀ i : ℕ, ∫ x in Ioi (0 : ℝ), ‖x ^ n * exp (-(((i : ℝ) + 1) * x))‖ =
      n.factorial * (1 / ((i : ℝ) + 1) ^ (n + 1)) := by
    intro i
    rw [mul_one_div, ← integral_pow_mul_exp n (by positivity : (0:ℝ) < (i : ℝ) + 1)]
    refine setIntegral_congr_fun measurableSet_Ioi fun x hx => ?_
    have hx' : (0 : ℝ) < x := hx
    exact norm_of_nonneg (by positivity)
  have hs : Summable fun i : ℕ => ∫ x in Ioi (0 : ℝ), ‖x ^ n * exp (-(((i : ℝ) + 1) * x))‖ := by
    simp only [hnorm]
    exact (summable_zetaR (by omega)).mul_left _
  have h := hasSum_integral_of_summable_integral_norm hF hs
  have h2 : ∫ x in Ioi (0 : ℝ), (∑' i : ℕ, x ^ n * exp (-(((i : ℝ) + 1) * x))) =
      ∫ x in Ioi (0 : ℝ), x ^ n / (exp x - 1) := by
    refine setIntegral_congr_fun measurableSet_Ioi fun x hx => ?_
    have hx' : (0 : ℝ) < x := hx
    show (∑' i : ℕ, x ^ n * exp (-(((i : ℝ) + 1) * x))) = _
    rw [tsum_mul_left]
    have e : ∀ i : ℕ, exp (-(((i : ℝ) + 1) * x)) = exp (-x) * exp (-x) ^ i := by
      intro i; rw [← exp_nat_mul, ← exp_add]; congr 1; ring
    simp only [e]
    have hlt : exp (-x) < 1 := by rw [exp_lt_one_iff]; linarith
    rw [tsum_mul_left, tsum_geometric_of_lt_one (exp_pos _).le hlt]
    have h1 := exp_sub_one_pos hx'
    rw [exp_neg] at hlt ⊢
    have : 1 - (exp x)⁻¹ ≠ 0 := by linarith
    have h3 : exp x ≠ 0 := (exp_pos x).ne'
    field_simp
  rw [h2] at h
  rw [← h.tsum_eq]
  have : ∀ i : ℕ, ∫ x in Ioi (0 : ℝ), x ^ n * exp (-(((i : ℝ) + 1) * x)) =
      n.factorial * (1 / ((i : ℝ) + 1) ^ (n + 1)) := by
    intro i
    rw [integral_pow_mul_exp n (by positivity)]; ring
  simp only [this]
  rw [tsum_mul_left]; rfl

theorem fermi_integrable (n : ℕ) : IntegrableOn (fun x : ℝ => x ^ n / (exp x + 1)) (Ioi 0) := by
  refine Integrable.mono' (integrableOn_pow_mul_exp n (r := 1) one_pos) ?_ ?_
  · refine (ContinuousOn.div (by fun_prop) (by fun_prop) fun x hx => ?_).aestronglyMeasurable measurableSet_Ioi
    positivity
  · refine (ae_restrict_iff' measurableSet_Ioi).2 (Filter.Eventually.of_forall fun x hx => ?_)
    have hx' : (0 : ℝ) < x := hx
    rw [norm_of_nonneg (by positivity), div_le_iff₀ (by positivity), one_mul, mul_assoc]
    have : 1 ≤ exp (-x) * (exp x + 1) := by
      rw [mul_add, ← exp_add]; simp; positivity
    exact le_mul_of_one_le_right (by positivity) this

/-- scaling an integral over the half-line -/
theorem integral_Ioi_scale (f : ℝ → ℝ) {b : ℝ} (hb : 0 < b) :
    ∫ x in Ioi (0 : ℝ), f (b * x) = b⁻¹ * ∫ x in Ioi (0 : ℝ), f x := by
  have := integral_comp_mul_left_Ioi f 0 hb
  simpa using this

theorem integrableOn_Ioi_scale {f : ℝ → ℝ} {b : ℝ} (hb : 0 < b) (h : IntegrableOn f (Ioi 0)) :
    IntegrableOn (fun x => f (b * x)) (Ioi 0) := by
  have := (integrableOn_Ioi_comp_mul_left_iff f 0 hb).2 (by simpa using h)
  simpa using this

theorem fermi_integral {n : ℕ} (hn : 1 ≤ n) :
    ∫ x in Ioi (0 : ℝ), x ^ n / (exp x + 1) = (1 - 1 / 2 ^ n) * (n.factorial * zetaR (n + 1)) := by
  have hB := bose_integrable hn
  have h2 : IntegrableOn (fun x : ℝ => 2 * ((1 / 2 ^ n) * ((2 * x) ^ n / (exp (2 * x) - 1)))) (Ioi 0) :=
    ((integrableOn_Ioi_scale two_pos hB).const_mul _).const_mul _
  have e : ∫ x in Ioi (0 : ℝ), x ^ n / (exp x + 1) =
      ∫ x in Ioi (0 : ℝ), (x ^ n / (exp x - 1) - 2 * ((1 / 2 ^ n) * ((2 * x) ^ n / (exp (2 * x) - 1)))) := by
    refine setIntegral_congr_fun measurableSet_Ioi fun x hx => ?_
    have hx' : (0 : ℝ) < x := hx
    have h1 := (exp_sub_one_pos hx').ne'
    have h3 : exp (2 * x) - 1 = (exp x - 1) * (exp x + 1) := by
      rw [two_mul, exp_add]; ring
    have h4 : exp x + 1 ≠ 0 := by positivity
    show x ^ n / (exp x + 1) = _
    rw [h3, mul_pow]
    field_simp
    ring
  rw [e, integral_sub hB h2, integral_const_mul, integral_const_mul,
    integral_Ioi_scale (fun x => x ^ n / (exp x - 1)) two_pos, bose_integral hn]
  ring

theorem zetaR_four : zetaR 4 = π ^ 4 / 90 := by
  have h := hasSum_zeta_four
  have h1 := (hasSum_nat_add_iff 1).2 (by simpa using h : HasSum (fun n : ℕ => (1 : ℝ) / (n : ℝ) ^ 4)
    (π ^ 4 / 90 + ∑ i ∈ Finset.range 1, (1:ℝ) / (i : ℝ) ^ 4))
  rw [zetaR, ← h1.tsum_eq]
  simp

theorem zetaR_pos {k : ℕ} (hk : 2 ≤ k) : 0 < zetaR k :=
  (summable_zetaR hk).tsum_pos (fun n => by positivity) 0 (by positivity)

/-- Apéry's constant to seven digits -/
theorem zetaR_three_bounds : 1.2020565 < zetaR 3 ∧ zetaR 3 < 1.2020573 := by
  have hs := summable_zetaR (k := 3) (by norm_num)
  have hsplit := hs.sum_add_tsum_nat_add 40
  have hts := (summable_nat_add_iff 40).2 hs
  have up : ∑' n : ℕ, 1 / (((n + 40 : ℕ) : ℝ) + 1) ^ 3 ≤ 1 / (2 * 40 * 41) := by
    refine hts.tsum_le_of_sum_range_le fun N => ?_
    have : ∑ n ∈ Finset.range N, 1 / (((n + 40 : ℕ) : ℝ) + 1) ^ 3 ≤
        1 / (2 * 40 * 41) - 1 / (2 * ((N : ℝ) + 40) * (N + 41)) := by
      induction N with
      | zero => norm_num
      | succ N ih =>
        rw [Finset.sum_range_succ]
        have key : 1 / (((N + 40 : ℕ) : ℝ) + 1) ^ 3 ≤ 1 / (2 * ((N : ℝ) + 40) * (N + 41)) -
            1 / (2 * (((N + 1 : ℕ) : ℝ) + 40) * ((N + 1 : ℕ) + 41)) := by
          push_cast
          have e : 1 / (2 * ((N : ℝ) + 40) * (N + 41)) - 1 / (2 * ((N : ℝ) + 1 + 40) * (N + 1 + 41)) =
              1 / (((N : ℝ) + 40) * (N + 41) * (N + 42)) := by
            field_simp; ring
          rw [e]
          apply one_div_le_one_div_of_le (by positivity)
          nlinarith [(Nat.cast_nonneg N : (0:ℝ) ≤ N)]
        linarith
    have h2 : 0 ≤ 1 / (2 * ((N : ℝ) + 40) * (N + 41)) := by positivity
    linarith
  have lo : ∀ N : ℕ, 1 / (2 * 40 * 41 + 1) - 1 / (2 * ((N : ℝ) + 40) * (N + 41) + 1) ≤
      ∑ n ∈ Finset.range N, 1 / (((n + 40 : ℕ) : ℝ) + 1) ^ 3 := by
    intro N
    induction N with
    | zero => norm_num
    | succ N ih =>
      rw [Finset.sum_range_succ]
      have key : 1 / (2 * ((N : ℝ) + 40) * (N + 41) + 1) -
          1 / (2 * (((N + 1 : ℕ) : ℝ) + 40) * ((N + 1 : ℕ) + 41) + 1) ≤ 1 / (((N + 40 : ℕ) : ℝ) + 1) ^ 3 := by
        push_cast
        rw [div_sub_div _ _ (by positivity) (by positivity), div_le_div_iff₀ (by positivity) (by positivity)]
        nlinarith [(Nat.cast_nonneg N : (0:ℝ) ≤ N)]
      linarith
  have lo' : 1 / (2 * 40 * 41 + 1) ≤ ∑' n : ℕ, 1 / (((n + 40 : ℕ) : ℝ) + 1) ^ 3 := by
    have hlim : Filter.Tendsto (fun N : ℕ => (1 : ℝ) / (2 * 40 * 41 + 1) -
        1 / (2 * ((N : ℝ) + 40) * (N + 41) + 1)) Filter.atTop (nhds (1 / (2 * 40 * 41 + 1) - 0)) := by
      refine Filter.Tendsto.sub tendsto_const_nhds ?_
      refine squeeze_zero (fun N => by positivity) (fun N => ?_) tendsto_one_div_add_atTop_nhds_zero_nat
      apply one_div_le_one_div_of_le (by positivity)
      nlinarith [(Nat.cast_nonneg N : (0:ℝ) ≤ N)]
    rw [sub_zero] at hlim
    exact le_of_tendsto_of_tendsto hlim hts.hasSum.tendsto_sum_nat (Filter.Eventually.of_forall lo)
  have hz : zetaR 3 = ∑ n ∈ Finset.range 40, 1 / ((n : ℝ) + 1) ^ 3 +
      ∑' n : ℕ, 1 / (((n + 40 : ℕ) : ℝ) + 1) ^ 3 := hsplit.symm
  have hfin1 : (1.2020565 : ℝ) - 1 / (2 * 40 * 41 + 1) < ∑ n ∈ Finset.range 40, 1 / ((n : ℝ) + 1) ^ 3 := by
    norm_num [Finset.sum_range_succ]
  have hfin2 : ∑ n ∈ Finset.range 40, 1 / ((n : ℝ) + 1) ^ 3 < (1.2020573 : ℝ) - 1 / (2 * 40 * 41) := by
    norm_num [Finset.sum_range_succ]
  rw [hz]
  constructor <;> linarith

end Opac
