import Verif.Lemmas.MeanLimits
import Verif.Lemmas.Thermal
import Verif.Spec.WholeSpectrum
import Mathlib.Analysis.Real.Pi.Bounds

/-!
# How much of the thermal spectrum lies outside of the range that is sampled
-/

namespace Opac.WholeSpectrum
open Opac Spec MeasureTheory Set Real

variable {h k c T : ℝ}

/-- Planck's law over all frequencies -/
theorem law_integral (hh : 0 < h) (hk : 0 < k) (hc : 0 < c) (hT : 0 < T) :
    IntegrableOn (planckLaw h k c T) (Ioi 0) ∧
    ∫ ν in Ioi (0 : ℝ), planckLaw h k c T ν = 2 * π ^ 4 / 15 * ((k * T) ^ 4 / (h ^ 3 * c ^ 2)) := by
  have hb : 0 < h / (k * T) := by positivity
  obtain ⟨i, e⟩ := bose_integral_scaled (n := 3) (by norm_num) hb
  have : planckLaw h k c T = fun ν => (2 * h / c ^ 2) * (ν ^ 3 / (exp (h / (k * T) * ν) - 1)) := by
    funext ν
    rw [planckLaw, show h * ν / (k * T) = h / (k * T) * ν by ring]
    ring
  rw [this]
  refine ⟨i.const_mul _, ?_⟩
  rw [integral_const_mul, e, zetaR_four]
  simp only [Nat.reduceAdd, Nat.factorial]
  push_cast
  field_simp
  norm_num

theorem law_nonneg (hh : 0 < h) (hk : 0 < k) (hc : 0 < c) (hT : 0 < T) {ν : ℝ} (hν : 0 < ν) : 0 ≤ planckLaw h k c T ν :=
  (Convergence.planckWeight_near hh hk hc hT hν).2.2.le

/-- low frequencies -/
theorem law_head (hh : 0 < h) (hk : 0 < k) (hc : 0 < c) (hT : 0 < T) {a : ℝ} (ha : 0 ≤ a) :
    ∫ ν in Ioc 0 a, planckLaw h k c T ν ≤ 2 / 3 * (k * T * a ^ 3 / c ^ 2) := by
  have hle : ∀ ν ∈ Ioc 0 a, planckLaw h k c T ν ≤ 2 * (k * T) / c ^ 2 * ν ^ 2 := by
    intro ν hν
    have hν0 : 0 < ν := hν.1
    have hx : 0 < h * ν / (k * T) := by positivity
    have := Real.add_one_le_exp (h * ν / (k * T))
    unfold planckLaw
    calc 2 * h * ν ^ 3 / c ^ 2 / (exp (h * ν / (k * T)) - 1) ≤ 2 * h * ν ^ 3 / c ^ 2 / (h * ν / (k * T)) := by
          gcongr; linarith
      _ = _ := by field_simp
  have hi : IntegrableOn (fun ν : ℝ => 2 * (k * T) / c ^ 2 * ν ^ 2) (Ioc 0 a) := by
    rw [← intervalIntegrable_iff_integrableOn_Ioc_of_le ha]
    exact (by fun_prop : Continuous fun ν : ℝ => 2 * (k * T) / c ^ 2 * ν ^ 2).intervalIntegrable _ _
  calc _ ≤ ∫ ν in Ioc 0 a, 2 * (k * T) / c ^ 2 * ν ^ 2 :=
        setIntegral_mono_on ((law_integral hh hk hc hT).1.mono_set Ioc_subset_Ioi_self) hi measurableSet_Ioc hle
    _ = _ := by
      rw [← intervalIntegral.integral_of_le ha, intervalIntegral.integral_const_mul, integral_pow]
      norm_num
      ring

/-- high frequencies -/
theorem law_tail (hh : 0 < h) (hk : 0 < k) (hc : 0 < c) (hT : 0 < T) {a : ℝ} (ha : k * T / h ≤ a) :
    ∫ ν in Ioi a, planckLaw h k c T ν ≤ 384 * ((k * T) ^ 4 / (h ^ 3 * c ^ 2)) * exp (-(h * a / (k * T)) / 2) := by
  have ha0 : 0 < a := lt_of_lt_of_le (by positivity) ha
  have hb : -(h / (k * T) / 2) < 0 := by have : 0 < h / (k * T) / 2 := by positivity
                                         linarith
  have hle : ∀ ν ∈ Ioi a, planckLaw h k c T ν ≤
      192 * ((k * T) ^ 3 / (h ^ 2 * c ^ 2)) * exp (-(h / (k * T) / 2) * ν) := by
    intro ν hν
    have hν0 : 0 < ν := ha0.trans hν
    obtain ⟨x, hx⟩ : ∃ x, x = h * ν / (k * T) := ⟨_, rfl⟩
    have hx0 : 0 < x := by rw [hx]; positivity
    have hx1 : 1 ≤ x := by
      rw [hx, le_div_iff₀ (by positivity), one_mul]
      have := ha.trans (le_of_lt hν)
      rw [div_le_iff₀ hh] at this
      linarith
    have eν : ν = k * T / h * x := by rw [hx]; field_simp
    have e1 : exp (-(h / (k * T) / 2) * ν) = exp (-(x / 2)) := by rw [eν]; congr 1; field_simp
    have e2 : (x / 2) ^ 3 / (3 : ℕ).factorial ≤ exp (x / 2) := Real.pow_div_factorial_le_exp _ (by positivity) 3
    have e3 : exp x = exp (x / 2) * exp (x / 2) := by rw [← Real.exp_add]; congr 1; ring
    have e4 : 2 ≤ exp x := by have := Real.add_one_le_exp x; linarith
    have hp := Real.exp_pos (x / 2)
    unfold planckLaw
    rw [← hx, e1, Real.exp_neg, eν, div_le_iff₀ (by linarith)]
    have e5 : x ^ 3 ≤ 48 * exp (x / 2) := by
      simp only [Nat.factorial] at e2
      push_cast at e2
      norm_num at e2
      linarith
    have e6 : x ^ 3 ≤ 96 * ((exp (x / 2))⁻¹ * (exp x - 1)) := by
      have : exp x / 2 ≤ exp x - 1 := by linarith
      calc x ^ 3 ≤ 96 * ((exp (x / 2))⁻¹ * (exp x / 2)) := by
            rw [e3]; field_simp; linarith
        _ ≤ _ := by gcongr
    calc 2 * h * (k * T / h * x) ^ 3 / c ^ 2 = 2 * ((k * T) ^ 3 / (h ^ 2 * c ^ 2)) * x ^ 3 := by field_simp
      _ ≤ 2 * ((k * T) ^ 3 / (h ^ 2 * c ^ 2)) * (96 * ((exp (x / 2))⁻¹ * (exp x - 1))) := by gcongr
      _ = _ := by ring
  calc _ ≤ ∫ ν in Ioi a, 192 * ((k * T) ^ 3 / (h ^ 2 * c ^ 2)) * exp (-(h / (k * T) / 2) * ν) :=
        setIntegral_mono_on ((law_integral hh hk hc hT).1.mono_set (Ioi_subset_Ioi ha0.le))
          ((integrableOn_exp_mul_Ioi hb a).const_mul _) measurableSet_Ioi hle
    _ = _ := by
      rw [integral_const_mul, integral_exp_mul_Ioi hb a]
      rw [show -(h / (k * T) / 2) * a = -(h * a / (k * T)) / 2 by ring]
      field_simp
      norm_num

/-- the three parts of an integral over all frequencies -/
theorem split3 {f : ℝ → ℝ} (hf : IntegrableOn f (Ioi 0)) {a b : ℝ} (ha : 0 ≤ a) (hab : a ≤ b) :
    ∫ ν in Ioi (0 : ℝ), f ν = (∫ ν in Ioc 0 a, f ν) + (∫ ν in a..b, f ν) + ∫ ν in Ioi b, f ν := by
  have e1 : Ioi (0 : ℝ) = Ioc 0 a ∪ Ioi a := (Ioc_union_Ioi_eq_Ioi ha).symm
  have e2 : Ioi a = Ioc a b ∪ Ioi b := (Ioc_union_Ioi_eq_Ioi hab).symm
  have i1 : IntegrableOn f (Ioi a) := hf.mono_set (Ioi_subset_Ioi ha)
  rw [e1, setIntegral_union (by rw [Set.disjoint_left]; intro x hx hx'; exact absurd hx.2 (not_le.2 hx')) measurableSet_Ioi
    (hf.mono_set Ioc_subset_Ioi_self) i1]
  rw [e2, setIntegral_union (by rw [Set.disjoint_left]; intro x hx hx'; exact absurd hx.2 (not_le.2 hx')) measurableSet_Ioi
    (i1.mono_set Ioc_subset_Ioi_self) (i1.mono_set (Ioi_subset_Ioi hab)), intervalIntegral.integral_of_le hab]
  ring

theorem exp_neg_500 : exp (-500) ≤ 1 / 10 ^ 100 := by
  rw [Real.exp_neg, ← one_div]
  refine one_div_le_one_div_of_le (by positivity) ?_
  have h1 : (10 : ℝ) ≤ exp 5 := by
    have h2 : exp 5 = exp 1 ^ (5 : ℕ) := by rw [← Real.exp_nat_mul]; norm_num
    have h3 : (2 : ℝ) ^ 5 ≤ exp 1 ^ (5 : ℕ) := pow_le_pow_left₀ (by norm_num) (by linarith [Real.exp_one_gt_d9]) 5
    rw [h2]; linarith
  have h4 : exp 500 = exp 5 ^ (100 : ℕ) := by rw [← Real.exp_nat_mul]; norm_num
  rw [h4]
  exact pow_le_pow_left₀ (by norm_num) h1 100

theorem exp_neg_80 : exp (-80) ≤ 1 / 10 ^ 16 := by
  rw [Real.exp_neg, ← one_div]
  refine one_div_le_one_div_of_le (by positivity) ?_
  have h1 : (10 : ℝ) ≤ exp 5 := by
    have h2 : exp 5 = exp 1 ^ (5 : ℕ) := by rw [← Real.exp_nat_mul]; norm_num
    have h3 : (2 : ℝ) ^ 5 ≤ exp 1 ^ (5 : ℕ) := pow_le_pow_left₀ (by norm_num) (by linarith [Real.exp_one_gt_d9]) 5
    rw [h2]; linarith
  have h4 : exp 80 = exp 5 ^ (16 : ℕ) := by rw [← Real.exp_nat_mul]; norm_num
  rw [h4]
  exact pow_le_pow_left₀ (by norm_num) h1 16

/-- less than `6·10⁻¹¹` of the thermal radiation is outside of the range from `10⁻³` to `10³` times `kT/h` -/
theorem lost (hh : 0 < h) (hk : 0 < k) (hc : 0 < c) (hT : 0 < T) {a b : ℝ} (ha : 0 ≤ a) (ha' : a ≤ 1.001e-3 * (k * T / h))
    (hb : 1e3 * (k * T / h) ≤ b) :
    (∫ ν in Ioc 0 a, planckLaw h k c T ν) + (∫ ν in Ioi b, planckLaw h k c T ν) ≤
      6e-11 * ∫ ν in Ioi (0 : ℝ), planckLaw h k c T ν := by
  have hq : 0 < k * T / h := by positivity
  have hQ : 0 < (k * T) ^ 4 / (h ^ 3 * c ^ 2) := by positivity
  have h1 := law_head hh hk hc hT ha
  have h2 := law_tail hh hk hc hT (a := b) (by linarith)
  rw [(law_integral hh hk hc hT).2]
  have h3 : k * T * a ^ 3 / c ^ 2 ≤ 1.003004e-9 * ((k * T) ^ 4 / (h ^ 3 * c ^ 2)) := by
    have : a ^ 3 ≤ (1.001e-3 * (k * T / h)) ^ 3 := pow_le_pow_left₀ ha ha' 3
    calc _ ≤ k * T * (1.001e-3 * (k * T / h)) ^ 3 / c ^ 2 := by gcongr
      _ = 1.003003001e-9 * ((k * T) ^ 4 / (h ^ 3 * c ^ 2)) := by field_simp; norm_num
      _ ≤ _ := by gcongr; norm_num
  have h4 : exp (-(h * b / (k * T)) / 2) ≤ 1 / 10 ^ 100 := by
    refine le_trans (Real.exp_le_exp.2 ?_) exp_neg_500
    have : 1e3 ≤ h * b / (k * T) := by
      rw [le_div_iff₀ (by positivity)]
      have := mul_le_mul_of_nonneg_left hb hh.le
      calc _ = h * (1e3 * (k * T / h)) := by field_simp
        _ ≤ _ := this
    norm_num at this ⊢
    linarith
  have h5 : 384 * ((k * T) ^ 4 / (h ^ 3 * c ^ 2)) * exp (-(h * b / (k * T)) / 2) ≤
      384 * ((k * T) ^ 4 / (h ^ 3 * c ^ 2)) * (1 / 10 ^ 100) := by gcongr
  have hpi : (97 : ℝ) ≤ π ^ 4 := by
    have : (3.1415 : ℝ) ^ 4 ≤ π ^ 4 := pow_le_pow_left₀ (by norm_num) (by linarith [Real.pi_gt_d4]) 4
    norm_num at this ⊢; linarith
  generalize (k * T) ^ 4 / (h ^ 3 * c ^ 2) = Q at *
  have h6 : 97 * Q ≤ π ^ 4 * Q := by gcongr
  norm_num at h1 h2 h3 h5 ⊢
  linarith


/-- the part of a group over the whole spectrum that is sampled -/
theorem whole_window (hh : 0 < h) (hk : 0 < k) (hT : 0 < T) (S : ℝ) :
    groupFrom S h k T 0 none = 1e-3 * (k * T / h) + S ∧ groupTo S h k T 0 none = 1e3 * (k * T / h) + S := by
  have hq : 0 < k * T / h := by positivity
  have e1 : 1e-3 * k * T / h = 1e-3 * (k * T / h) := by ring
  have e2 : 1e3 * k * T / h = 1e3 * (k * T / h) := by ring
  unfold groupFrom groupTo groupWindow window
  simp only [e1, e2, true_or, if_true]
  rw [if_neg (by norm_num; linarith)]
  exact ⟨rfl, rfl⟩

/-- what is known about the sums of weights over the sampled range `[A, B]` -/
theorem weights (hh : 0 < h) (hk : 0 < k) (hc : 0 < c) (hT : 0 < T) {S A B : ℝ} (hS : 0 < S) (hn : Negligible S h k c T)
    (hA : A = groupFrom S h k T 0 none) (hB : B = groupTo S h k T 0 none) :
    0 < A ∧ A < B ∧ A ≤ 1.001e-3 * (k * T / h) ∧ 1e-3 * (k * T / h) ≤ A ∧ 1e3 * (k * T / h) ≤ B ∧
    (∫ ν in A..B, planckWeight h k c T ν) ≤ (∫ ν in Ioi (0 : ℝ), planckLaw h k c T ν) ∧
    (1 - 6.1e-11) * (∫ ν in Ioi (0 : ℝ), planckLaw h k c T ν) ≤ (∫ ν in A..B, planckWeight h k c T ν) ∧
    S * Real.log 10 ≤ 2e-12 * (∫ ν in Ioi (0 : ℝ), planckLaw h k c T ν) ∧
    0 < ∫ ν in Ioi (0 : ℝ), planckLaw h k c T ν := by
  have hq : 0 < k * T / h := by positivity
  obtain ⟨w1, w2⟩ := whole_window hh hk hT S
  rw [w1] at hA
  rw [w2] at hB
  have n1 := hn.frequency
  have n3 := hn.total
  have hA0 : 0 < A := by rw [hA]; positivity
  have hAB : A < B := by rw [hA, hB]; norm_num; linarith
  have hA1 : A ≤ 1.001e-3 * (k * T / h) := by rw [hA]; norm_num at n1 ⊢; linarith
  have hA2 : 1e-3 * (k * T / h) ≤ A := by rw [hA]; linarith
  have hB1 : 1e3 * (k * T / h) ≤ B := by rw [hB]; linarith
  obtain ⟨i1, e1⟩ := law_integral hh hk hc hT
  have hl := lost hh hk hc hT hA0.le hA1 hB1
  have hs := split3 i1 hA0.le hAB.le
  have hp1 : 0 ≤ ∫ ν in Ioc 0 A, planckLaw h k c T ν :=
    setIntegral_nonneg measurableSet_Ioc fun ν hν => law_nonneg hh hk hc hT hν.1
  have hp2 : 0 ≤ ∫ ν in Ioi B, planckLaw h k c T ν :=
    setIntegral_nonneg measurableSet_Ioi fun ν hν => law_nonneg hh hk hc hT (hA0.trans (hAB.trans hν))
  have hI : 0 < ∫ ν in Ioi (0 : ℝ), planckLaw h k c T ν := by rw [e1]; positivity
  have iW := (Convergence.planck_pieces hh hk hc hT (f := fun _ => 1) continuousOn_const (A := A) (B := B) hA0).2 hAB.le
  simp only [one_mul] at iW
  have iP : IntervalIntegrable (planckLaw h k c T) volume A B := by
    rw [intervalIntegrable_iff_integrableOn_Ioc_of_le hAB.le]
    exact i1.mono_set (fun x hx => hA0.trans hx.1)
  have m1 : ∫ ν in A..B, planckWeight h k c T ν ≤ ∫ ν in A..B, planckLaw h k c T ν :=
    intervalIntegral.integral_mono_on hAB.le iW iP fun ν hν =>
      (Convergence.planckWeight_near hh hk hc hT (lt_of_lt_of_le hA0 hν.1)).2.1
  have m2 : (1 - exp (-80)) * ∫ ν in A..B, planckLaw h k c T ν ≤ ∫ ν in A..B, planckWeight h k c T ν := by
    rw [← intervalIntegral.integral_const_mul]
    exact intervalIntegral.integral_mono_on hAB.le (iP.const_mul _) iW fun ν hν =>
      (Convergence.planckWeight_near hh hk hc hT (lt_of_lt_of_le hA0 hν.1)).1
  have h80 := exp_neg_80
  have hlog : Real.log 10 ≤ 2.4 := by
    have h1 : Real.log 10 = Real.log (10 / exp 2) + 2 := by
      rw [Real.log_div (by norm_num) (Real.exp_pos 2).ne', Real.log_exp]; ring
    have h2 : Real.log (10 / exp 2) ≤ 10 / exp 2 - 1 := Real.log_le_sub_one_of_pos (by positivity)
    have h3 : 10 / exp 2 ≤ 1.4 := by
      rw [div_le_iff₀ (Real.exp_pos 2)]
      have h4 : exp 2 = exp 1 ^ (2 : ℕ) := by rw [← Real.exp_nat_mul]; norm_num
      have h5 : (2.7182 : ℝ) ^ 2 ≤ exp 1 ^ (2 : ℕ) := pow_le_pow_left₀ (by norm_num) (by linarith [Real.exp_one_gt_d9]) 2
      rw [h4]; norm_num at h5 ⊢; linarith
    norm_num at h3 ⊢; linarith
  have hpi : (97 : ℝ) ≤ π ^ 4 := by
    have : (3.1415 : ℝ) ^ 4 ≤ π ^ 4 := pow_le_pow_left₀ (by norm_num) (by linarith [Real.pi_gt_d4]) 4
    norm_num at this ⊢; linarith
  refine ⟨hA0, hAB, hA1, hA2, hB1, by linarith, ?_, ?_, hI⟩
  · have : 0 ≤ ∫ ν in A..B, planckLaw h k c T ν := intervalIntegral.integral_nonneg hAB.le fun ν hν =>
      law_nonneg hh hk hc hT (lt_of_lt_of_le hA0 hν.1)
    generalize (∫ ν in A..B, planckLaw h k c T ν) = Iab at *
    generalize (∫ ν in Ioi (0 : ℝ), planckLaw h k c T ν) = I at *
    have h81 : exp (-80) * Iab ≤ 1 / 10 ^ 16 * Iab := by gcongr
    norm_num at *
    nlinarith
  · rw [e1]
    have hQ : 0 < (k * T) ^ 4 / (h ^ 3 * c ^ 2) := by positivity
    generalize (k * T) ^ 4 / (h ^ 3 * c ^ 2) = Q at *
    have h6 : 97 * Q ≤ π ^ 4 * Q := by gcongr
    have h7 : S * Real.log 10 ≤ S * 2.4 := by gcongr
    norm_num at *
    linarith

/-- a bounded coefficient: the mean over the sampled range is the mean over the whole spectrum, up to `10⁻¹⁰` of the
bound -/
theorem planck_near (hh : 0 < h) (hk : 0 < k) (hc : 0 < c) (hT : 0 < T) {S ρ : ℝ} (hS : 0 < S) (hρ : 0 < ρ)
    (hn : Negligible S h k c T) {α : ℝ → ℝ} {K : ℝ} (hα : ContinuousOn α (Ioi 0)) (h0 : ∀ ν, 0 < ν → 0 ≤ α ν)
    (hK : ∀ ν, 0 < ν → α ν ≤ K) :
    |planckIntegralMean S h k c ρ T 0 none α - wholePlanckMean h k c ρ T α| ≤ 1e-10 * (K / ρ) := by
  obtain ⟨A, hA⟩ : ∃ A, A = groupFrom S h k T 0 none := ⟨_, rfl⟩
  obtain ⟨B, hB⟩ : ∃ B, B = groupTo S h k T 0 none := ⟨_, rfl⟩
  obtain ⟨hA0, hAB, hA1, hA2, hB1, w1, w2, w3, hI⟩ := weights hh hk hc hT hS hn hA hB
  unfold planckIntegralMean wholePlanckMean
  rw [← hA, ← hB]
  obtain ⟨i1, e1⟩ := law_integral hh hk hc hT
  have hl := lost hh hk hc hT hA0.le hA1 hB1
  have hf : ContinuousOn (fun ν => α ν / ρ) (Ioi 0) := hα.div_const ρ
  have f0 : ∀ ν, 0 < ν → 0 ≤ α ν / ρ := fun ν hν => div_nonneg (h0 ν hν) hρ.le
  have fK : ∀ ν, 0 < ν → α ν / ρ ≤ K / ρ := fun ν hν => by have := hK ν hν; gcongr
  have hK0 : 0 ≤ K / ρ := (f0 1 one_pos).trans (fK 1 one_pos)
  generalize K / ρ = K at *
  obtain ⟨f, ef⟩ : ∃ f : ℝ → ℝ, f = fun ν => α ν / ρ := ⟨_, rfl⟩
  rw [← ef] at hf
  have e2 : ∀ ν, α ν / ρ = f ν := fun ν => by rw [ef]
  simp only [e2] at f0 fK ⊢
  -- integrability
  have iJ : IntegrableOn (fun ν => f ν * planckLaw h k c T ν) (Ioi 0) := by
    refine Integrable.mono' (i1.const_mul K) ?_ ?_
    · exact (hf.mul (Convergence.cont_planckLaw hh hk hc hT)).aestronglyMeasurable measurableSet_Ioi
    · rw [ae_restrict_iff' measurableSet_Ioi]
      refine Filter.Eventually.of_forall fun ν hν => ?_
      have hp := law_nonneg hh hk hc hT hν
      rw [Real.norm_of_nonneg (mul_nonneg (f0 ν hν) hp)]
      exact mul_le_mul_of_nonneg_right (fK ν hν) hp
  have iN := (Convergence.planck_pieces hh hk hc hT hf (A := A) (B := B) hA0).2 hAB.le
  have iW := (Convergence.planck_pieces hh hk hc hT (f := fun _ => 1) continuousOn_const (A := A) (B := B) hA0).2 hAB.le
  simp only [one_mul] at iW
  have sub : Ioc A B ⊆ Ioi 0 := fun x hx => hA0.trans hx.1
  have iFP : IntervalIntegrable (fun ν => f ν * planckLaw h k c T ν) volume A B := by
    rw [intervalIntegrable_iff_integrableOn_Ioc_of_le hAB.le]; exact iJ.mono_set sub
  have iP : IntervalIntegrable (planckLaw h k c T) volume A B := by
    rw [intervalIntegrable_iff_integrableOn_Ioc_of_le hAB.le]; exact i1.mono_set sub
  have near := fun ν (hν : 0 < ν) => Convergence.planckWeight_near hh hk hc hT hν
  -- numerators
  have n0 : 0 ≤ ∫ ν in A..B, f ν * planckWeight h k c T ν := intervalIntegral.integral_nonneg hAB.le fun ν hν => by
    have hν0 := lt_of_lt_of_le hA0 hν.1
    have h80 : exp (-80) ≤ 1 := by rw [← Real.exp_zero]; exact Real.exp_le_exp.2 (by norm_num)
    have := near ν hν0
    exact mul_nonneg (f0 ν hν0) (le_trans (mul_nonneg (by linarith) this.2.2.le) this.1)
  have n1 : ∫ ν in A..B, f ν * planckWeight h k c T ν ≤ ∫ ν in A..B, f ν * planckLaw h k c T ν :=
    intervalIntegral.integral_mono_on hAB.le iN iFP fun ν hν =>
      mul_le_mul_of_nonneg_left (near ν (lt_of_lt_of_le hA0 hν.1)).2.1 (f0 ν (lt_of_lt_of_le hA0 hν.1))
  have n2 : ∫ ν in A..B, f ν * planckWeight h k c T ν ≤ K * ∫ ν in A..B, planckWeight h k c T ν := by
    rw [← intervalIntegral.integral_const_mul]
    refine intervalIntegral.integral_mono_on hAB.le iN (iW.const_mul _) fun ν hν => ?_
    have hν0 := lt_of_lt_of_le hA0 hν.1
    have h80 : exp (-80) ≤ 1 := by rw [← Real.exp_zero]; exact Real.exp_le_exp.2 (by norm_num)
    have := near ν hν0
    exact mul_le_mul_of_nonneg_right (fK ν hν0) (le_trans (mul_nonneg (by linarith) this.2.2.le) this.1)
  have n3 : (∫ ν in A..B, f ν * planckLaw h k c T ν) - (∫ ν in A..B, f ν * planckWeight h k c T ν) ≤
      K * exp (-80) * ∫ ν in A..B, planckLaw h k c T ν := by
    rw [← intervalIntegral.integral_sub iFP iN, ← intervalIntegral.integral_const_mul]
    refine intervalIntegral.integral_mono_on hAB.le (iFP.sub iN) (iP.const_mul _) fun ν hν => ?_
    have hν0 := lt_of_lt_of_le hA0 hν.1
    have hw := near ν hν0
    calc f ν * planckLaw h k c T ν - f ν * planckWeight h k c T ν = f ν * (planckLaw h k c T ν - planckWeight h k c T ν) := by ring
      _ ≤ f ν * (exp (-80) * planckLaw h k c T ν) := mul_le_mul_of_nonneg_left (by linarith [hw.1]) (f0 ν hν0)
      _ ≤ K * (exp (-80) * planckLaw h k c T ν) :=
        mul_le_mul_of_nonneg_right (fK ν hν0) (mul_nonneg (Real.exp_pos _).le hw.2.2.le)
      _ = _ := by ring
  have s1 := split3 iJ hA0.le hAB.le
  have s2 := split3 i1 hA0.le hAB.le
  have q1 : ∫ ν in Ioc 0 A, f ν * planckLaw h k c T ν ≤ K * ∫ ν in Ioc 0 A, planckLaw h k c T ν := by
    rw [← integral_const_mul]
    exact setIntegral_mono_on (iJ.mono_set Ioc_subset_Ioi_self) ((i1.mono_set Ioc_subset_Ioi_self).const_mul _) measurableSet_Ioc
      fun ν hν => mul_le_mul_of_nonneg_right (fK ν hν.1) (law_nonneg hh hk hc hT hν.1)
  have sB : Ioi B ⊆ Ioi (0 : ℝ) := Ioi_subset_Ioi (by linarith)
  have q2 : ∫ ν in Ioi B, f ν * planckLaw h k c T ν ≤ K * ∫ ν in Ioi B, planckLaw h k c T ν := by
    rw [← integral_const_mul]
    exact setIntegral_mono_on (iJ.mono_set sB) ((i1.mono_set sB).const_mul _) measurableSet_Ioi
      fun ν hν => mul_le_mul_of_nonneg_right (fK ν (sB hν)) (law_nonneg hh hk hc hT (sB hν))
  have q3 : 0 ≤ ∫ ν in Ioc 0 A, f ν * planckLaw h k c T ν :=
    setIntegral_nonneg measurableSet_Ioc fun ν hν => mul_nonneg (f0 ν hν.1) (law_nonneg hh hk hc hT hν.1)
  have q4 : 0 ≤ ∫ ν in Ioi B, f ν * planckLaw h k c T ν :=
    setIntegral_nonneg measurableSet_Ioi fun ν hν => mul_nonneg (f0 ν (sB hν)) (law_nonneg hh hk hc hT (sB hν))
  have q5 : 0 ≤ ∫ ν in Ioc 0 A, planckLaw h k c T ν :=
    setIntegral_nonneg measurableSet_Ioc fun ν hν => law_nonneg hh hk hc hT hν.1
  have q6 : 0 ≤ ∫ ν in Ioi B, planckLaw h k c T ν :=
    setIntegral_nonneg measurableSet_Ioi fun ν hν => law_nonneg hh hk hc hT (sB hν)
  have hσ : 0 ≤ S * Real.log 10 := mul_nonneg hS.le (Real.log_nonneg (by norm_num))
  have h80 := exp_neg_80
  have h80' := Real.exp_pos (-80)
  generalize (∫ ν in Ioi (0 : ℝ), f ν * planckLaw h k c T ν) = J at *
  generalize (∫ ν in Ioi (0 : ℝ), planckLaw h k c T ν) = I at *
  generalize (∫ ν in A..B, f ν * planckWeight h k c T ν) = N at *
  generalize (∫ ν in A..B, planckWeight h k c T ν) = Iw at *
  generalize (∫ ν in A..B, f ν * planckLaw h k c T ν) = Jab at *
  generalize (∫ ν in A..B, planckLaw h k c T ν) = Iab at *
  generalize (∫ ν in Ioc 0 A, f ν * planckLaw h k c T ν) = J0 at *
  generalize (∫ ν in Ioc 0 A, planckLaw h k c T ν) = I0 at *
  generalize (∫ ν in Ioi B, f ν * planckLaw h k c T ν) = J1 at *
  generalize (∫ ν in Ioi B, planckLaw h k c T ν) = I1 at *
  generalize S * Real.log 10 = σ at *
  have hIw : 0 < Iw := lt_of_lt_of_le (by norm_num; linarith) w2
  have hJN : N ≤ J := by linarith
  have hKI : 0 ≤ K * I := by positivity
  have hIab : Iab ≤ I := by linarith
  have t1 : K * exp (-80) * Iab ≤ 1e-16 * (K * I) := by
    calc K * exp (-80) * Iab ≤ K * exp (-80) * I := by gcongr
      _ ≤ K * (1 / 10 ^ 16) * I := by gcongr
      _ = _ := by norm_num; ring
  have t2 : K * I0 + K * I1 ≤ 6e-11 * (K * I) := by
    calc K * I0 + K * I1 = K * (I0 + I1) := by ring
      _ ≤ K * (6e-11 * I) := by gcongr
      _ = _ := by ring
  have hJN' : J - N ≤ 6.1e-11 * (K * I) := by norm_num at *; linarith
  have hNK : N ≤ K * I := n2.trans (by gcongr)
  have hup : N / (Iw + σ) - J / I ≤ 1e-10 * K := by
    have a1 : N / (Iw + σ) ≤ N / Iw := by gcongr; linarith
    have a2 : N / I ≤ J / I := by gcongr
    have a3 : N / Iw - N / I = N / Iw * ((I - Iw) / I) := by field_simp
    have a4 : N / Iw ≤ K := by rw [div_le_iff₀ hIw]; linarith
    have a5 : (I - Iw) / I ≤ 6.1e-11 := by rw [div_le_iff₀ hI]; linarith
    have a6 : 0 ≤ (I - Iw) / I := div_nonneg (by linarith) hI.le
    have a7 : N / Iw * ((I - Iw) / I) ≤ K * 6.1e-11 := mul_le_mul a4 a5 a6 hK0
    norm_num at *
    linarith
  have hdn : J / I - N / (Iw + σ) ≤ 1e-10 * K := by
    have a1 : N / (I + σ) ≤ N / (Iw + σ) := by gcongr
    have a2 : J / I - N / (I + σ) = (J - N) / I + N / I * (σ / (I + σ)) := by field_simp; ring
    have a3 : (J - N) / I ≤ 6.1e-11 * K := by rw [div_le_iff₀ hI]; linarith
    have a4 : N / I ≤ K := by rw [div_le_iff₀ hI]; exact hNK
    have a5 : σ / (I + σ) ≤ 2e-12 := by
      rw [div_le_iff₀ (by linarith)]; norm_num at *; linarith
    have a6 : N / I * (σ / (I + σ)) ≤ K * 2e-12 := mul_le_mul a4 a5 (by positivity) hK0
    norm_num at *
    linarith
  rw [abs_le]
  exact ⟨by linarith, hup⟩

/-- Planck's law up to `x = 100` is far above a negligible number -/
theorem law_above (hh : 0 < h) (hk : 0 < k) (hc : 0 < c) (hT : 0 < T) {S ν : ℝ} (hn : Negligible S h k c T)
    (h1 : 1e-3 * (k * T / h) ≤ ν) (h2 : ν ≤ 100 * (k * T / h)) : S ≤ 1e-6 * planckLaw h k c T ν := by
  have hq : 0 < k * T / h := by positivity
  have hν : 0 < ν := lt_of_lt_of_le (by positivity) h1
  obtain ⟨x, hx⟩ : ∃ x, x = h * ν / (k * T) := ⟨_, rfl⟩
  have eν : ν = k * T / h * x := by rw [hx]; field_simp
  have x1 : 1e-3 ≤ x := by
    rw [eν] at h1; exact le_of_mul_le_mul_left (by linarith) hq
  have x2 : x ≤ 100 := by
    rw [eν] at h2; exact le_of_mul_le_mul_left (by linarith) hq
  have hR : 0 < (k * T) ^ 3 / (h ^ 2 * c ^ 2) := by positivity
  have x0 : 0 < x := lt_of_lt_of_le (by norm_num) x1
  have e1 : planckLaw h k c T ν = 2 * ((k * T) ^ 3 / (h ^ 2 * c ^ 2)) * (x ^ 3 / (exp x - 1)) := by
    unfold planckLaw
    rw [← hx, eν]
    field_simp
  have hE : 0 < exp x - 1 := by have := Real.add_one_lt_exp x0.ne'; linarith
  have e2 : 1e-53 ≤ x ^ 3 / (exp x - 1) := by
    rw [le_div_iff₀ hE]
    have : exp x ≤ exp 100 := Real.exp_le_exp.2 x2
    have e100 : exp 100 ≤ 3 ^ 100 := by
      have h4 : exp 100 = exp 1 ^ (100 : ℕ) := by rw [← Real.exp_nat_mul]; norm_num
      rw [h4]
      exact pow_le_pow_left₀ (Real.exp_pos 1).le (by linarith [Real.exp_one_lt_d9]) 100
    rcases le_total x 1 with hx1 | hx1
    · have b : exp x ≤ 3 := (Real.exp_le_exp.2 hx1).trans (by linarith [Real.exp_one_lt_d9])
      have : (1e-3 : ℝ) ^ 3 ≤ x ^ 3 := pow_le_pow_left₀ (by norm_num) x1 3
      norm_num at this ⊢
      linarith
    · have : 1 ≤ x ^ 3 := one_le_pow₀ hx1
      norm_num at e100 ⊢
      linarith
  rw [e1]
  have := hn.intensity
  generalize (k * T) ^ 3 / (h ^ 2 * c ^ 2) = R at *
  have : R * 1e-53 ≤ R * (x ^ 3 / (exp x - 1)) := by gcongr
  generalize x ^ 3 / (exp x - 1) = y at *
  norm_num at *
  nlinarith

/-- an emissivity `C e^{-hν/kT}`: the mean over the sampled range gives a thousandth less than the total emission -/
theorem exponential_near (hh : 0 < h) (hk : 0 < k) (hc : 0 < c) (hT : 0 < T) {S ρ C : ℝ} (hS : 0 < S) (hρ : 0 < ρ) (hC : 0 < C)
    (hn : Negligible S h k c T) {α : ℝ → ℝ}
    (hα : ∀ ν, 0 < ν → α ν = C * exp (-(h * ν / (k * T))) / (planckLaw h k c T ν + S)) {M : ℝ}
    (hM : M = C * (k * T / h) / (ρ * ∫ ν in Ioi (0 : ℝ), planckLaw h k c T ν)) :
    0.99895 * M ≤ planckIntegralMean S h k c ρ T 0 none α ∧ planckIntegralMean S h k c ρ T 0 none α ≤ 0.99905 * M := by
  obtain ⟨A, hA⟩ : ∃ A, A = groupFrom S h k T 0 none := ⟨_, rfl⟩
  obtain ⟨B, hB⟩ : ∃ B, B = groupTo S h k T 0 none := ⟨_, rfl⟩
  obtain ⟨hA0, hAB, hA1, hA2, hB1, w1, w2, w3, hI⟩ := weights hh hk hc hT hS hn hA hB
  unfold planckIntegralMean
  rw [← hA, ← hB]
  have hq : 0 < k * T / h := by positivity
  have near := fun ν (hν : 0 < ν) => Convergence.planckWeight_near hh hk hc hT hν
  have hb : -(h / (k * T)) < 0 := by
    have : 0 < h / (k * T) := by positivity
    linarith
  -- the coefficient is continuous
  have hcα : ContinuousOn (fun ν => α ν / ρ) (Ioi 0) := by
    refine ContinuousOn.div_const (ContinuousOn.congr (f := fun ν => C * exp (-(h * ν / (k * T))) / (planckLaw h k c T ν + S)) ?_
      fun ν hν => hα ν hν) ρ
    refine ContinuousOn.div (by fun_prop) ((Convergence.cont_planckLaw hh hk hc hT).add_const _) fun ν hν => ?_
    have := (near ν hν).2.2
    linarith
  have iN := (Convergence.planck_pieces hh hk hc hT hcα (A := A) (B := B) hA0).2 hAB.le
  obtain ⟨D, hD⟩ : ∃ D, D = 100 * (k * T / h) := ⟨_, rfl⟩
  have hAD : A ≤ D := by rw [hD]; norm_num at hA1 ⊢; linarith
  have hDB : D ≤ B := by rw [hD]; norm_num at hB1 ⊢; linarith
  have iE : ∀ a b : ℝ, IntervalIntegrable (fun ν => C / ρ * exp (-(h / (k * T)) * ν)) volume a b := fun a b =>
    (by fun_prop : Continuous fun ν => C / ρ * exp (-(h / (k * T)) * ν)).intervalIntegrable _ _
  have eE : ∀ a b : ℝ, ∫ ν in a..b, C / ρ * exp (-(h / (k * T)) * ν) =
      C / ρ * (k * T / h) * (exp (-(h / (k * T)) * a) - exp (-(h / (k * T)) * b)) := by
    intro a b
    rw [intervalIntegral.integral_const_mul, intervalIntegral.integral_comp_mul_left _ hb.ne, integral_exp, smul_eq_mul]
    field_simp
    ring
  have e1 : ∀ ν, exp (-(h * ν / (k * T))) = exp (-(h / (k * T)) * ν) := fun ν => by congr 1; ring
  have up : ∫ ν in A..B, α ν / ρ * planckWeight h k c T ν ≤ C / ρ * (k * T / h) * exp (-(h / (k * T)) * A) := by
    calc _ ≤ ∫ ν in A..B, C / ρ * exp (-(h / (k * T)) * ν) := by
          refine intervalIntegral.integral_mono_on hAB.le iN (iE _ _) fun ν hν => ?_
          have hν0 := lt_of_lt_of_le hA0 hν.1
          have hw := near ν hν0
          have hp := hw.2.2
          rw [hα ν hν0, e1]
          have : planckWeight h k c T ν / (planckLaw h k c T ν + S) ≤ 1 := by
            rw [div_le_one (by linarith)]; linarith [hw.2.1]
          calc _ = C / ρ * exp (-(h / (k * T)) * ν) * (planckWeight h k c T ν / (planckLaw h k c T ν + S)) := by
                field_simp
            _ ≤ C / ρ * exp (-(h / (k * T)) * ν) * 1 := by gcongr
            _ = _ := mul_one _
      _ = _ := eE A B
      _ ≤ _ := by
        have := Real.exp_pos (-(h / (k * T)) * B)
        gcongr
        linarith
  have dn : C / ρ * (k * T / h) * ((1 - 2e-6) * (exp (-(h / (k * T)) * A) - exp (-(h / (k * T)) * D))) ≤
      ∫ ν in A..B, α ν / ρ * planckWeight h k c T ν := by
    have h80 : exp (-80) ≤ 1 / 10 ^ 16 := exp_neg_80
    have hpos : ∀ ν, 0 < ν → 0 ≤ α ν / ρ * planckWeight h k c T ν := by
      intro ν hν
      have hw := near ν hν
      have hp := hw.2.2
      have hw0 : 0 ≤ planckWeight h k c T ν := by
        refine le_trans (mul_nonneg ?_ hp.le) hw.1
        norm_num
      rw [hα ν hν]
      positivity
    have iAD : IntervalIntegrable (fun ν => α ν / ρ * planckWeight h k c T ν) volume A D :=
      iN.mono_set (by rw [uIcc_of_le hAD, uIcc_of_le hAB.le]; exact Icc_subset_Icc_right hDB)
    have iDB : IntervalIntegrable (fun ν => α ν / ρ * planckWeight h k c T ν) volume D B :=
      iN.mono_set (by rw [uIcc_of_le hDB, uIcc_of_le hAB.le]; exact Icc_subset_Icc_left hAD)
    have hD0 : 0 < D := lt_of_lt_of_le hA0 hAD
    rw [← intervalIntegral.integral_add_adjacent_intervals iAD iDB]
    have t2 : 0 ≤ ∫ ν in D..B, α ν / ρ * planckWeight h k c T ν := intervalIntegral.integral_nonneg hDB fun ν hν =>
      hpos ν (lt_of_lt_of_le hD0 hν.1)
    have t1 : (1 - 2e-6) * ∫ ν in A..D, C / ρ * exp (-(h / (k * T)) * ν) ≤
        ∫ ν in A..D, α ν / ρ * planckWeight h k c T ν := by
      rw [← intervalIntegral.integral_const_mul]
      refine intervalIntegral.integral_mono_on hAD ((iE _ _).const_mul _) iAD fun ν hν => ?_
      have hν0 := lt_of_lt_of_le hA0 hν.1
      have hw := near ν hν0
      have hp := hw.2.2
      have hfl := law_above hh hk hc hT hn (hA2.trans hν.1) (by rw [← hD]; exact hν.2)
      rw [hα ν hν0, e1]
      have : 1 - 2e-6 ≤ planckWeight h k c T ν / (planckLaw h k c T ν + S) := by
        rw [le_div_iff₀ (by linarith)]
        have h81 : exp (-80) * planckLaw h k c T ν ≤ 1 / 10 ^ 16 * planckLaw h k c T ν := by gcongr
        have := hw.1
        generalize planckLaw h k c T ν = P at *
        norm_num at *
        nlinarith
      calc (1 - 2e-6) * (C / ρ * exp (-(h / (k * T)) * ν)) = C / ρ * exp (-(h / (k * T)) * ν) * (1 - 2e-6) := by ring
        _ ≤ C / ρ * exp (-(h / (k * T)) * ν) * (planckWeight h k c T ν / (planckLaw h k c T ν + S)) := by gcongr
        _ = _ := by field_simp
    rw [eE] at t1
    calc _ = (1 - 2e-6) * (C / ρ * (k * T / h) * (exp (-(h / (k * T)) * A) - exp (-(h / (k * T)) * D))) := by ring
      _ ≤ _ := by linarith
  have xA : h / (k * T) * A ≤ 1.001e-3 ∧ 1e-3 ≤ h / (k * T) * A := by
    have hβ : 0 < h / (k * T) := by positivity
    have a1 := mul_le_mul_of_nonneg_left hA1 hβ.le
    have a2 := mul_le_mul_of_nonneg_left hA2 hβ.le
    have e : ∀ y : ℝ, h / (k * T) * (y * (k * T / h)) = y := fun y => by field_simp
    rw [e] at a1 a2
    exact ⟨a1, a2⟩
  have xD : h / (k * T) * D = 100 := by rw [hD]; field_simp
  have g1 : exp (-(h / (k * T)) * A) ≤ 0.999001 := by
    refine (Real.exp_le_exp.2 (show -(h / (k * T)) * A ≤ -(1e-3) by linarith [xA.2])).trans ?_
    rw [Real.exp_neg, inv_le_comm₀ (Real.exp_pos _) (by norm_num)]
    have := Real.quadratic_le_exp_of_nonneg (x := 1e-3) (by norm_num)
    norm_num at this ⊢
    linarith
  have g2 : 0.998999 ≤ exp (-(h / (k * T)) * A) := by
    have := Real.add_one_le_exp (-(h / (k * T)) * A)
    have := xA.1
    norm_num at *
    linarith
  have g3 : exp (-(h / (k * T)) * D) ≤ 1 / 10 ^ 16 := by
    refine (Real.exp_le_exp.2 (show -(h / (k * T)) * D ≤ -80 by linarith [xD])).trans exp_neg_80
  have eM : C / ρ * (k * T / h) = M * ∫ ν in Ioi (0 : ℝ), planckLaw h k c T ν := by
    rw [hM]; field_simp
  rw [eM] at up dn
  have hM0 : 0 < M := by rw [hM]; positivity
  have hσ : 0 ≤ S * Real.log 10 := mul_nonneg hS.le (Real.log_nonneg (by norm_num))
  generalize (∫ ν in Ioi (0 : ℝ), planckLaw h k c T ν) = I at *
  generalize (∫ ν in A..B, α ν / ρ * planckWeight h k c T ν) = N at *
  generalize (∫ ν in A..B, planckWeight h k c T ν) = Iw at *
  generalize S * Real.log 10 = σ at *
  generalize exp (-(h / (k * T)) * A) = a at *
  generalize exp (-(h / (k * T)) * D) = d at *
  have hIw : 0 < Iw := lt_of_lt_of_le (by norm_num; linarith) w2
  have hMI : 0 < M * I := by positivity
  constructor
  · rw [le_div_iff₀ (by linarith)]
    have b1 : Iw + σ ≤ (1 + 2e-12) * I := by linarith
    have b2 : 0.99899 ≤ (1 - 2e-6) * (a - d) := by norm_num at *; linarith
    calc 0.99895 * M * (Iw + σ) ≤ 0.99895 * M * ((1 + 2e-12) * I) := by gcongr
      _ = M * I * (0.99895 * (1 + 2e-12)) := by ring
      _ ≤ M * I * ((1 - 2e-6) * (a - d)) := by
        refine mul_le_mul_of_nonneg_left (le_trans ?_ b2) hMI.le
        norm_num
      _ ≤ N := dn
  · rw [div_le_iff₀ (by linarith)]
    calc N ≤ M * I * a := up
      _ ≤ M * I * 0.999001 := by gcongr
      _ ≤ M * I * (0.99905 * (1 - 6.1e-11)) := by
        refine mul_le_mul_of_nonneg_left ?_ hMI.le
        norm_num
      _ = 0.99905 * M * ((1 - 6.1e-11) * I) := by ring
      _ ≤ 0.99905 * M * (Iw + σ) := by
        refine mul_le_mul_of_nonneg_left (by linarith) (by positivity)

end Opac.WholeSpectrum
