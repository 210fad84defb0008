import Verif.Spec.LogSlope
import Verif.Lemmas.ThermalCurves
import Verif.Lemmas.Midpoint
import Verif.Lemmas.MeanLimits

/-!
# Midpoint rules for functions that vary slowly
-/

namespace Opac.Slopes
open Spec MeasureTheory Finset Midpoint Real

variable {m n A B : ℝ} {f g : ℝ → ℝ}

theorem mul (hf : SlopeAtMost m A B f) (hg : SlopeAtMost n A B g) (f0 : ∀ x ∈ Set.Icc A B, 0 ≤ f x) (g0 : ∀ x ∈ Set.Icc A B, 0 ≤ g x) :
    SlopeAtMost (m + n) A B fun x => f x * g x := by
  intro x hx y hy
  calc f x * g x ≤ (exp (m * |log x - log y|) * f y) * (exp (n * |log x - log y|) * g y) :=
        mul_le_mul (hf x hx y hy) (hg x hx y hy) (g0 x hx) (mul_nonneg (exp_pos _).le (f0 y hy))
    _ = _ := by rw [add_mul, exp_add]; ring

theorem inv (hf : SlopeAtMost m A B f) (f0 : ∀ x ∈ Set.Icc A B, 0 < f x) : SlopeAtMost m A B fun x => (f x)⁻¹ := by
  intro x hx y hy
  have h := hf y hy x hx
  rw [abs_sub_comm] at h
  have := f0 x hx
  have := f0 y hy
  rw [inv_le_iff_one_le_mul₀ (f0 x hx), mul_assoc, ← div_eq_inv_mul, mul_div_assoc']
  rw [one_le_div (f0 y hy)]
  exact h

theorem add_const (hf : SlopeAtMost m A B f) (hm : 0 ≤ m) {c : ℝ} (hc : 0 ≤ c) : SlopeAtMost m A B fun x => f x + c := by
  intro x hx y hy
  have h1 : 1 ≤ exp (m * |log x - log y|) := one_le_exp (mul_nonneg hm (abs_nonneg _))
  have := hf x hx y hy
  nlinarith

theorem const_mul (hf : SlopeAtMost m A B f) {c : ℝ} (hc : 0 ≤ c) : SlopeAtMost m A B fun x => c * f x := by
  intro x hx y hy
  have := mul_le_mul_of_nonneg_left (hf x hx y hy) hc
  calc c * f x ≤ _ := this
    _ = _ := by ring

theorem mono (hf : SlopeAtMost m A B f) (hmn : m ≤ n) (f0 : ∀ x ∈ Set.Icc A B, 0 ≤ f x) : SlopeAtMost n A B f := by
  intro x hx y hy
  refine (hf x hx y hy).trans (mul_le_mul_of_nonneg_right (exp_le_exp.2 ?_) (f0 y hy))
  exact mul_le_mul_of_nonneg_right hmn (abs_nonneg _)

/-- bounds in one direction each -/
theorem of_le (hA : 0 < A) (h1 : ∀ x ∈ Set.Icc A B, ∀ y ∈ Set.Icc A B, x ≤ y → f y ≤ exp (m * (log y - log x)) * f x)
    (h2 : ∀ x ∈ Set.Icc A B, ∀ y ∈ Set.Icc A B, x ≤ y → f x ≤ exp (m * (log y - log x)) * f y) : SlopeAtMost m A B f := by
  intro x hx y hy
  rcases le_total x y with h | h
  · have := log_le_log (hA.trans_le hx.1) h
    rw [abs_sub_comm, abs_of_nonneg (by linarith)]
    exact h2 x hx y hy h
  · have := log_le_log (hA.trans_le hy.1) h
    rw [abs_of_nonneg (by linarith)]
    exact h1 y hy x hx h

/-- **the midpoint rule in the logarithm**: for a function such that `ν f(ν)` has slope at most `m`, the sum is off by at most
the factor `e^(m δ / 2)` -/
theorem quad (hA : 0 < A) (hAB : A < B) {N : ℕ} (hN : 0 < N) {δ : ℝ} (hδ : δ = log (B / A) / N) (hm : 0 ≤ m)
    (hf : SlopeAtMost m A B fun x => x * f x) (f0 : ∀ x ∈ Set.Icc A B, 0 ≤ f x) (hc : ContinuousOn f (Set.Icc A B)) :
    exp (-(m * δ / 2)) * (∫ ν in A..B, f ν) ≤ (∑ i ∈ range N, f (binCentre A B N i) * (binCentre A B N i * binWidth A B N)) * log 10 ∧
    (∑ i ∈ range N, f (binCentre A B N i) * (binCentre A B N i * binWidth A B N)) * log 10 ≤ exp (m * δ / 2) * ∫ ν in A..B, f ν := by
  have hB : 0 < B := hA.trans hAB
  have hl : (0 : ℝ) < log 10 := log_pos (by norm_num)
  have hN0 : (0 : ℝ) < N := by exact_mod_cast hN
  have hδ0 : 0 < δ := by rw [hδ]; exact div_pos (log_pos ((one_lt_div hA).2 hAB)) hN0
  have ew : δ = binWidth A B N * log 10 := by
    rw [hδ, binWidth, logb, logb, log_div hB.ne' hA.ne']
    field_simp
  have ec : ∀ i : ℕ, binCentre A B N i = exp (centre (log A) δ i) := by
    intro i
    rw [binCentre, centre, rpow_def_of_pos (by norm_num), ew, logb]
    congr 1
    field_simp
  have eB : log A + N * δ = log B := by
    rw [hδ, log_div hB.ne' hA.ne']
    field_simp
    ring
  -- the integrand in the logarithm
  obtain ⟨G, hG⟩ : ∃ G : ℝ → ℝ, G = fun u => f (exp u) * exp u := ⟨_, rfl⟩
  have mem : ∀ u, log A ≤ u → u ≤ log B → exp u ∈ Set.Icc A B := by
    intro u h1 h2
    exact ⟨(log_le_iff_le_exp hA).1 h1, (le_log_iff_exp_le hB).1 h2⟩
  have hGc : ContinuousOn G (Set.Icc (log A) (log B)) := by
    rw [hG]
    refine ContinuousOn.mul (hc.comp continuous_exp.continuousOn ?_) continuous_exp.continuousOn
    intro u hu
    exact mem u hu.1 hu.2
  have hs : (∑ i ∈ range N, f (binCentre A B N i) * (binCentre A B N i * binWidth A B N)) * log 10 =
      ∑ i ∈ range N, G (centre (log A) δ i) * δ := by
    rw [sum_mul]
    refine sum_congr rfl fun i _ => ?_
    rw [ec, hG]
    simp only
    rw [ew]
    ring
  have hI : ∫ ν in A..B, f ν = ∑ i ∈ range N, ∫ u in log A + i * δ..log A + (i + 1 : ℕ) * δ, G u := by
    rw [← ThermalCurves.integral_log f hA hAB.le, intervalIntegral.sum_integral_adjacent_intervals, ← eB, hG]
    · simp
    · intro i hi
      refine (hGc.mono ?_).intervalIntegrable
      have h1 : (i : ℝ) * δ ≤ (i + 1 : ℕ) * δ := by push_cast; nlinarith
      rw [Set.uIcc_of_le (by linarith)]
      have h2 : ((i + 1 : ℕ) : ℝ) * δ ≤ N * δ := mul_le_mul_of_nonneg_right (by exact_mod_cast hi) hδ0.le
      have h3 : 0 ≤ (i : ℝ) * δ := by positivity
      exact Set.Icc_subset_Icc (by linarith) (by rw [← eB]; linarith)
  -- one cell
  have cell : ∀ i ∈ range N, exp (-(m * δ / 2)) * (∫ u in log A + i * δ..log A + (i + 1 : ℕ) * δ, G u) ≤ G (centre (log A) δ i) * δ ∧
      G (centre (log A) δ i) * δ ≤ exp (m * δ / 2) * ∫ u in log A + i * δ..log A + (i + 1 : ℕ) * δ, G u := by
    intro i hi
    have hi' : i < N := mem_range.1 hi
    have h1 : (i : ℝ) * δ ≤ (i + 1 : ℕ) * δ := by push_cast; nlinarith
    have h2 : ((i + 1 : ℕ) : ℝ) * δ ≤ N * δ := mul_le_mul_of_nonneg_right (by exact_mod_cast hi') hδ0.le
    have h3 : 0 ≤ (i : ℝ) * δ := by positivity
    have hcm : exp (centre (log A) δ i) ∈ Set.Icc A B := by
      refine mem _ ?_ ?_ <;> unfold centre
      · nlinarith
      · rw [← eB]; push_cast at h2; nlinarith
    have hint : IntervalIntegrable G volume (log A + i * δ) (log A + (i + 1 : ℕ) * δ) := by
      refine (hGc.mono ?_).intervalIntegrable
      rw [Set.uIcc_of_le (by linarith)]
      exact Set.Icc_subset_Icc (by linarith) (by rw [← eB]; linarith)
    have hpt : ∀ u ∈ Set.Icc (log A + i * δ) (log A + (i + 1 : ℕ) * δ),
        exp (-(m * δ / 2)) * G u ≤ G (centre (log A) δ i) ∧ G (centre (log A) δ i) ≤ exp (m * δ / 2) * G u := by
      intro u hu
      have hum := mem u (by linarith [hu.1]) (by rw [← eB]; linarith [hu.2])
      have hd : |u - centre (log A) δ i| ≤ δ / 2 := by
        unfold centre
        have a1 := hu.1
        have a2 := hu.2
        push_cast at a2
        rw [abs_le]
        constructor <;> linarith
      have k1 := hf _ hum _ hcm
      have k2 := hf _ hcm _ hum
      simp only [log_exp] at k1 k2
      have e1 : exp (m * |u - centre (log A) δ i|) ≤ exp (m * δ / 2) := exp_le_exp.2 (by nlinarith)
      rw [abs_sub_comm] at k2
      have p1 : 0 ≤ exp u * f (exp u) := mul_nonneg (exp_pos _).le (f0 _ hum)
      have p2 : 0 ≤ exp (centre (log A) δ i) * f (exp (centre (log A) δ i)) := mul_nonneg (exp_pos _).le (f0 _ hcm)
      rw [hG]
      simp only
      rw [mul_comm (f (exp u)), mul_comm (f (exp (centre _ _ _)))]
      refine ⟨?_, k2.trans (mul_le_mul_of_nonneg_right e1 p1)⟩
      rw [exp_neg, inv_mul_le_iff₀ (exp_pos _)]
      exact k1.trans (mul_le_mul_of_nonneg_right e1 p2)
    have hconst : ∫ _u in log A + i * δ..log A + (i + 1 : ℕ) * δ, G (centre (log A) δ i) = G (centre (log A) δ i) * δ := by
      rw [intervalIntegral.integral_const, smul_eq_mul]
      push_cast
      ring
    rw [← hconst, ← intervalIntegral.integral_const_mul, ← intervalIntegral.integral_const_mul]
    exact ⟨intervalIntegral.integral_mono_on (by linarith) (hint.const_mul _) intervalIntegrable_const fun u hu => (hpt u hu).1,
      intervalIntegral.integral_mono_on (by linarith) intervalIntegrable_const (hint.const_mul _) fun u hu => (hpt u hu).2⟩
  rw [hs, hI, mul_sum, mul_sum]
  exact ⟨sum_le_sum fun i hi => (cell i hi).1, sum_le_sum fun i hi => (cell i hi).2⟩

end Opac.Slopes
