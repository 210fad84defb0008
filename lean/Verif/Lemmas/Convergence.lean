import Mathlib.MeasureTheory.Integral.DominatedConvergence
import Mathlib.MeasureTheory.Constructions.BorelSpace.Order
import Mathlib.MeasureTheory.Function.Floor
import Mathlib.MeasureTheory.Function.Jacobian
import Mathlib.MeasureTheory.Function.JacobianOneDim
import Mathlib.MeasureTheory.Integral.IntervalIntegral.Basic
import Mathlib.MeasureTheory.Integral.IntegralEqImproper
import Mathlib.Analysis.SpecialFunctions.Pow.Deriv
import Mathlib.Analysis.SpecialFunctions.Log.Base

/-!
# The midpoint rule

Sums over the centres of `N` equal bins tend to the integral, for bounded functions that are continuous up to a countable
set; then the same for bins that are equal in the decimal logarithm.
-/

namespace Opac.Convergence
open MeasureTheory Filter Topology Finset

/-- the centre of the bin that contains `x` -/
noncomputable def centreOf (a δ x : ℝ) : ℝ := a + (⌊(x - a) / δ⌋ + 1 / 2) * δ

theorem centreOf_near {a δ x : ℝ} (hδ : 0 < δ) : |centreOf a δ x - x| ≤ δ := by
  have h1 := Int.floor_le ((x - a) / δ)
  have h2 := (Int.lt_floor_add_one ((x - a) / δ)).le
  rw [le_div_iff₀ hδ] at h1
  rw [div_le_iff₀ hδ] at h2
  unfold centreOf
  rw [abs_le]
  constructor <;> linarith

theorem centreOf_bin {a δ x : ℝ} (hδ : 0 < δ) {i : ℕ} (h1 : a + i * δ < x) (h2 : x < a + (i + 1) * δ) :
    centreOf a δ x = a + (i + 1 / 2) * δ := by
  have : ⌊(x - a) / δ⌋ = (i : ℤ) := by
    rw [Int.floor_eq_iff]
    constructor
    · rw [le_div_iff₀ hδ]; push_cast; linarith
    · rw [div_lt_iff₀ hδ]; push_cast; linarith
  unfold centreOf
  rw [this]
  push_cast
  ring

theorem measurable_centre (f : ℝ → ℝ) (a δ : ℝ) : Measurable fun x => f (centreOf a δ x) := by
  have h : Measurable fun x : ℝ => ⌊(x - a) / δ⌋ := ((measurable_id.sub_const a).div_const δ).floor
  exact (measurable_from_top (f := fun m : ℤ => f (a + ((m : ℝ) + 1 / 2) * δ))).comp h

/-- the midpoint sums converge -/
theorem midpoint_tendsto {f : ℝ → ℝ} {a b M : ℝ} (hab : a < b) (hb : ∀ x ∈ Set.Icc a b, |f x| ≤ M) {s : Set ℝ}
    (hs : s.Countable) (hc : ∀ x ∈ Set.Ioo a b, x ∉ s → ContinuousAt f x) :
    Tendsto (fun N : ℕ => ∑ i ∈ range N, f (a + (i + 1 / 2) * ((b - a) / N)) * ((b - a) / N)) atTop
      (𝓝 (∫ x in a..b, f x)) := by
  have hδ : ∀ N : ℕ, 0 < N → 0 < (b - a) / N := fun N hN => div_pos (by linarith) (by exact_mod_cast hN)
  have hae : ∀ᵐ x ∂volume, x ≠ b ∧ x ∉ s := by
    have h1 : ∀ᵐ x ∂(volume : Measure ℝ), x ≠ b := by simp [ae_iff]
    have h2 : ∀ᵐ x ∂(volume : Measure ℝ), x ∉ s := by
      rw [ae_iff]; simpa using hs.measure_zero volume
    filter_upwards [h1, h2] with x p q using ⟨p, q⟩
  have key : Tendsto (fun N : ℕ => ∫ x in a..b, f (centreOf a ((b - a) / N) x)) atTop (𝓝 (∫ x in a..b, f x)) := by
    apply intervalIntegral.tendsto_integral_filter_of_dominated_convergence (fun _ => M)
    · exact Eventually.of_forall fun N => (measurable_centre f a _).aestronglyMeasurable
    · filter_upwards [eventually_gt_atTop 0] with N hN
      filter_upwards [hae] with x hx hxI
      rw [Set.uIoc_of_le hab.le] at hxI
      have hxb : x < b := lt_of_le_of_ne hxI.2 hx.1
      rw [Real.norm_eq_abs]
      apply hb
      have hd := hδ N hN
      have hN' : (0 : ℝ) < N := by exact_mod_cast hN
      have f0 : 0 ≤ ⌊(x - a) / ((b - a) / N)⌋ := Int.floor_nonneg.2 (div_nonneg (by linarith [hxI.1]) hd.le)
      have f1 : ⌊(x - a) / ((b - a) / N)⌋ < N := by
        rw [Int.floor_lt, div_lt_iff₀ hd]
        push_cast
        rw [mul_div_cancel₀ _ hN'.ne']
        linarith
      have f0' : (0 : ℝ) ≤ ⌊(x - a) / ((b - a) / N)⌋ := by exact_mod_cast f0
      have f1' : (⌊(x - a) / ((b - a) / N)⌋ : ℝ) + 1 ≤ N := by exact_mod_cast f1
      unfold centreOf
      constructor
      · have : 0 ≤ ((⌊(x - a) / ((b - a) / N)⌋ : ℝ) + 1 / 2) * ((b - a) / N) := by positivity
        linarith
      · have h1 : ((⌊(x - a) / ((b - a) / N)⌋ : ℝ) + 1 / 2) * ((b - a) / N) ≤ N * ((b - a) / N) :=
          mul_le_mul_of_nonneg_right (by linarith) hd.le
        rw [mul_div_cancel₀ _ hN'.ne'] at h1
        linarith
    · exact intervalIntegrable_const
    · filter_upwards [hae] with x hx hxI
      rw [Set.uIoc_of_le hab.le] at hxI
      have hxb : x < b := lt_of_le_of_ne hxI.2 hx.1
      apply (hc x ⟨hxI.1, hxb⟩ hx.2).tendsto.comp
      rw [tendsto_iff_dist_tendsto_zero]
      refine squeeze_zero' (Eventually.of_forall fun _ => dist_nonneg) ?_ (tendsto_const_div_atTop_nhds_zero_nat (b - a))
      filter_upwards [eventually_gt_atTop 0] with N hN
      rw [Real.dist_eq]
      exact centreOf_near (hδ N hN)
  refine key.congr' ?_
  filter_upwards [eventually_gt_atTop 0] with N hN
  have hd := hδ N hN
  have hN' : (0 : ℝ) < N := by exact_mod_cast hN
  obtain ⟨δ, hδe⟩ : ∃ δ, δ = (b - a) / N := ⟨_, rfl⟩
  rw [← hδe] at hd ⊢
  have hend : a + (N : ℝ) * δ = b := by rw [hδe, mul_div_cancel₀ _ hN'.ne']; ring
  have hcell : ∀ i : ℕ, ∀ x ∈ Set.Ioo (a + (i : ℝ) * δ) (a + ((i + 1 : ℕ) : ℝ) * δ),
      f (centreOf a δ x) = f (a + (i + 1 / 2) * δ) := by
    intro i x hx
    rw [centreOf_bin hd hx.1 (by have := hx.2; push_cast at this; exact this)]
  have hle : ∀ i : ℕ, a + (i : ℝ) * δ ≤ a + ((i + 1 : ℕ) : ℝ) * δ := by intro i; push_cast; nlinarith
  have hne : ∀ i : ℕ, ∀ᵐ x ∂(volume : Measure ℝ), x ∈ Set.uIoc (a + (i : ℝ) * δ) (a + ((i + 1 : ℕ) : ℝ) * δ) →
      f (centreOf a δ x) = f (a + (i + 1 / 2) * δ) := by
    intro i
    have h1 : ∀ᵐ x ∂(volume : Measure ℝ), x ≠ a + ((i + 1 : ℕ) : ℝ) * δ := by simp [ae_iff]
    filter_upwards [h1] with x hx hxI
    rw [Set.uIoc_of_le (hle i)] at hxI
    exact hcell i x ⟨hxI.1, lt_of_le_of_ne hxI.2 hx⟩
  have hint : ∀ i < N, IntervalIntegrable (fun x => f (centreOf a δ x)) volume (a + (i : ℝ) * δ) (a + ((i + 1 : ℕ) : ℝ) * δ) := by
    intro i _
    refine (intervalIntegrable_const (c := f (a + (i + 1 / 2) * δ))).congr_ae ?_
    rw [Filter.EventuallyEq, ae_restrict_iff' measurableSet_uIoc]
    filter_upwards [hne i] with x hx hxI using (hx hxI).symm
  have hsum := intervalIntegral.sum_integral_adjacent_intervals (μ := volume) (f := fun x => f (centreOf a δ x))
    (a := fun i : ℕ => a + (i : ℝ) * δ) (n := N) hint
  simp only [Nat.cast_zero, zero_mul, add_zero, hend] at hsum
  rw [← hsum]
  apply Finset.sum_congr rfl
  intro i _
  rw [intervalIntegral.integral_congr_ae (hne i), intervalIntegral.integral_const]
  push_cast
  rw [smul_eq_mul]
  ring

/-- integration in the decimal logarithm -/
theorem integral_log10 (w : ℝ → ℝ) {A B : ℝ} (hA : 0 < A) (hAB : A ≤ B) :
    ∫ t in Real.logb 10 A..Real.logb 10 B, w (10 ^ t) * 10 ^ t = (∫ ν in A..B, w ν) / Real.log 10 := by
  have hl10 : 0 < Real.log 10 := Real.log_pos (by norm_num)
  have hlog : Real.logb 10 A ≤ Real.logb 10 B := Real.logb_le_logb_of_le (by norm_num) hA hAB
  have himg : (fun t : ℝ => (10 : ℝ) ^ t) '' Set.Icc (Real.logb 10 A) (Real.logb 10 B) = Set.Icc A B := by
    ext x
    constructor
    · rintro ⟨t, ht, rfl⟩
      constructor
      · calc A = 10 ^ Real.logb 10 A := (Real.rpow_logb (by norm_num) (by norm_num) hA).symm
          _ ≤ _ := Real.rpow_le_rpow_of_exponent_le (by norm_num) ht.1
      · calc _ ≤ (10 : ℝ) ^ Real.logb 10 B := Real.rpow_le_rpow_of_exponent_le (by norm_num) ht.2
          _ = B := Real.rpow_logb (by norm_num) (by norm_num) (by linarith)
    · intro hx
      have hx0 : 0 < x := lt_of_lt_of_le hA hx.1
      exact ⟨Real.logb 10 x, ⟨Real.logb_le_logb_of_le (by norm_num) hA hx.1,
        Real.logb_le_logb_of_le (by norm_num) hx0 hx.2⟩, Real.rpow_logb (by norm_num) (by norm_num) hx0⟩
  have hderiv : ∀ t ∈ Set.Icc (Real.logb 10 A) (Real.logb 10 B),
      HasDerivWithinAt (fun t : ℝ => (10 : ℝ) ^ t) (10 ^ t * Real.log 10) (Set.Icc (Real.logb 10 A) (Real.logb 10 B)) t := by
    intro t _
    have := (hasDerivAt_id t).const_rpow (a := 10) (by norm_num)
    simp only [id, mul_one] at this
    refine HasDerivAt.hasDerivWithinAt ?_
    rw [mul_comm]
    exact this
  have hinj : Set.InjOn (fun t : ℝ => (10 : ℝ) ^ t) (Set.Icc (Real.logb 10 A) (Real.logb 10 B)) := by
    intro x _ y _ hxy
    exact (Real.strictMono_rpow_of_base_gt_one (by norm_num)).injective hxy
  have h := integral_image_eq_integral_abs_deriv_smul measurableSet_Icc hderiv hinj w
  rw [himg] at h
  rw [intervalIntegral.integral_of_le hlog, intervalIntegral.integral_of_le hAB, ← integral_Icc_eq_integral_Ioc,
    ← integral_Icc_eq_integral_Ioc, h, eq_div_iff hl10.ne', ← integral_mul_const]
  apply integral_congr_ae
  refine Eventually.of_forall fun t => ?_
  have hp : (0 : ℝ) < 10 ^ t := by positivity
  simp only [smul_eq_mul]
  rw [abs_of_pos (by positivity)]
  ring

/-- sums over bins that are equal in the decimal logarithm -/
theorem logMidpoint_tendsto {w : ℝ → ℝ} {A B M : ℝ} (hA : 0 < A) (hAB : A < B) (hb : ∀ x ∈ Set.Icc A B, |w x| ≤ M)
    {s : Set ℝ} (hs : s.Countable) (hc : ∀ x ∈ Set.Ioo A B, x ∉ s → ContinuousAt w x) :
    Tendsto (fun N : ℕ => ∑ i ∈ range N,
        w (10 ^ (Real.logb 10 A + (i + 1 / 2) * ((Real.logb 10 B - Real.logb 10 A) / N))) *
          (10 ^ (Real.logb 10 A + (i + 1 / 2) * ((Real.logb 10 B - Real.logb 10 A) / N)) *
            ((Real.logb 10 B - Real.logb 10 A) / N))) atTop
      (𝓝 ((∫ ν in A..B, w ν) / Real.log 10)) := by
  have hB : 0 < B := hA.trans hAB
  have hlog : Real.logb 10 A < Real.logb 10 B := Real.logb_lt_logb (by norm_num) hA hAB
  have rA : (10 : ℝ) ^ Real.logb 10 A = A := Real.rpow_logb (by norm_num) (by norm_num) hA
  have rB : (10 : ℝ) ^ Real.logb 10 B = B := Real.rpow_logb (by norm_num) (by norm_num) hB
  have hM : 0 ≤ M := le_trans (abs_nonneg _) (hb A ⟨le_refl _, hAB.le⟩)
  have h := midpoint_tendsto (f := fun t => w (10 ^ t) * 10 ^ t) (M := M * B) hlog (s := {t | (10 : ℝ) ^ t ∈ s}) ?_ ?_ ?_
  · rw [integral_log10 w hA hAB.le] at h
    simp only [mul_assoc] at h
    exact h
  · intro t ht
    have h1 : A ≤ 10 ^ t := by rw [← rA]; exact Real.rpow_le_rpow_of_exponent_le (by norm_num) ht.1
    have h2 : (10 : ℝ) ^ t ≤ B := by rw [← rB]; exact Real.rpow_le_rpow_of_exponent_le (by norm_num) ht.2
    rw [abs_mul, abs_of_pos (show (0 : ℝ) < 10 ^ t by positivity)]
    exact mul_le_mul (hb _ ⟨h1, h2⟩) h2 (by positivity) hM
  · exact hs.preimage (Real.strictMono_rpow_of_base_gt_one (by norm_num)).injective
  · intro t ht hts
    have h1 : A < 10 ^ t := by rw [← rA]; exact Real.rpow_lt_rpow_of_exponent_lt (by norm_num) ht.1
    have h2 : (10 : ℝ) ^ t < B := by rw [← rB]; exact Real.rpow_lt_rpow_of_exponent_lt (by norm_num) ht.2
    have hp : ContinuousAt (fun t : ℝ => (10 : ℝ) ^ t) t := (Real.continuous_const_rpow (by norm_num)).continuousAt
    exact (ContinuousAt.comp (f := fun t : ℝ => (10 : ℝ) ^ t) (hc _ ⟨h1, h2⟩ hts) hp).mul hp

end Opac.Convergence
