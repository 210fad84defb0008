import Verif.Lemmas.WeightSlopes
import Verif.Lemmas.WholeSpectrum

/-!
# Group means from finitely many frequencies
-/

namespace Opac.Slopes
open Spec MeasureTheory Finset Real

/-- slowly varying functions are continuous -/
theorem continuousOn {m A B : ℝ} {f : ℝ → ℝ} (hA : 0 < A) (hf : SlopeAtMost m A B f) : ContinuousOn f (Set.Icc A B) := by
  intro y hy
  have y0 : 0 < y := hA.trans_le hy.1
  have hl : Filter.Tendsto (fun x => m * |log x - log y|) (nhdsWithin y (Set.Icc A B)) (nhds 0) := by
    have : ContinuousAt (fun x => m * |log x - log y|) y :=
      continuousAt_const.mul (((continuousAt_log y0.ne').sub continuousAt_const).abs)
    have h := this.tendsto
    simp only [sub_self, abs_zero, mul_zero] at h
    exact h.mono_left nhdsWithin_le_nhds
  have h1 : Filter.Tendsto (fun x => exp (m * |log x - log y|) * f y) (nhdsWithin y (Set.Icc A B)) (nhds (f y)) := by
    have := ((continuous_exp.tendsto 0).comp hl).mul_const (f y)
    simpa using this
  have h2 : Filter.Tendsto (fun x => exp (-(m * |log x - log y|)) * f y) (nhdsWithin y (Set.Icc A B)) (nhds (f y)) := by
    have := ((continuous_exp.tendsto (-0)).comp hl.neg).mul_const (f y)
    simpa using this
  refine tendsto_of_tendsto_of_tendsto_of_le_of_le' h2 h1 ?_ ?_
  · filter_upwards [self_mem_nhdsWithin] with x hx
    rw [exp_neg, inv_mul_le_iff₀ (exp_pos _), abs_sub_comm]
    exact hf y hy x hx
  · filter_upwards [self_mem_nhdsWithin] with x hx
    exact hf x hx y hy

theorem q_bounds : exp (-(1e-15)) ≤ 1 - exp (-80) ∧ exp (-(1e-14)) ≤ (1 - exp (-80)) ^ 2 ∧ 0 < 1 - exp (-80) ∧ 1 - exp (-80) ≤ 1 ∧
    (9 / 10 : ℝ) ≤ (1 - exp (-80)) ^ 2 := by
  have h80 := WholeSpectrum.exp_neg_80
  have h0 := exp_pos (-80)
  have q0 : 1 - 1 / 10 ^ 16 ≤ 1 - exp (-80) := by linarith
  have g1 : exp (-(1e-15)) ≤ 1 - 1 / 10 ^ 16 := by
    rw [exp_neg]
    refine inv_le_of_inv_le₀ (by norm_num) ?_
    refine le_trans ?_ (add_one_le_exp (1e-15))
    norm_num
  have g2 : exp (-(1e-14)) ≤ (1 - 1 / 10 ^ 16) ^ 2 := by
    rw [exp_neg]
    refine inv_le_of_inv_le₀ (by norm_num) ?_
    refine le_trans ?_ (add_one_le_exp (1e-14))
    norm_num
  have p : (0 : ℝ) ≤ 1 - 1 / 10 ^ 16 := by norm_num
  have q2 := pow_le_pow_left₀ p q0 2
  exact ⟨g1.trans q0, g2.trans q2, by norm_num at q0; linarith, by linarith, le_trans (by norm_num) q2⟩

theorem width_pos {A B : ℝ} {N : ℕ} (hA : 0 < A) (hAB : A < B) (hN : 0 < N) : 0 < binWidth A B N :=
  div_pos (by have := logb_lt_logb (b := 10) (by norm_num) hA hAB; linarith) (by exact_mod_cast hN)

/-- midpoints lie in the interval -/
theorem centre_mem {A B : ℝ} {N i : ℕ} (hA : 0 < A) (hAB : A < B) (hi : i < N) : binCentre A B N i ∈ Set.Icc A B := by
  have hN0 : (0 : ℝ) < N := by exact_mod_cast (Nat.zero_le i).trans_lt hi
  have hi2 : (i : ℝ) + 1 ≤ N := by exact_mod_cast hi
  have hw := width_pos hA hAB ((Nat.zero_le i).trans_lt hi)
  have hwN : N * binWidth A B N = logb 10 B - logb 10 A := by unfold binWidth; field_simp
  have e1 := rpow_logb (b := 10) (by norm_num) (by norm_num) hA
  have e2 := rpow_logb (b := 10) (by norm_num) (by norm_num) (hA.trans hAB)
  unfold binCentre
  constructor
  · refine e1.symm.le.trans (rpow_le_rpow_of_exponent_le (by norm_num) ?_)
    nlinarith [(Nat.cast_nonneg i : (0 : ℝ) ≤ i)]
  · refine le_trans (rpow_le_rpow_of_exponent_le (by norm_num) ?_) e2.le
    nlinarith

/-- quotients of two quantities that are each off by a factor -/
theorem quotient {num den t X0 X1 a b p q ε : ℝ} (hX0 : 0 < X0) (hX1 : 0 ≤ X1) (ht : 0 ≤ t) (htε : t ≤ ε * X0) (hp : 0 < p)
    (hn0 : p * exp (-b) * X1 ≤ num) (hn1 : num ≤ exp b * X1) (hd0 : q * exp (-a) * X0 ≤ den) (hd1 : den ≤ exp a * X0) (hq : 0 < q)
    (ha : 0 ≤ a) (hε : 0 ≤ ε) :
    p / (1 + ε) * exp (-(a + b)) * (X1 / X0) ≤ num / (den + t) ∧ num / (den + t) ≤ 1 / q * exp (a + b) * (X1 / X0) := by
  have hea := exp_pos a
  have heb := exp_pos b
  have hd : 0 < den := lt_of_lt_of_le (by positivity) hd0
  constructor
  · have h1 : den + t ≤ (1 + ε) * exp a * X0 := by
      have : 1 ≤ exp a := one_le_exp ha
      have : ε * X0 ≤ ε * (exp a * X0) := mul_le_mul_of_nonneg_left (by nlinarith) hε
      nlinarith
    have h0 : 0 ≤ p * exp (-b) * X1 := by positivity
    calc p / (1 + ε) * exp (-(a + b)) * (X1 / X0) = p * exp (-b) * X1 / ((1 + ε) * exp a * X0) := by
          rw [neg_add, exp_add, exp_neg a]; field_simp
      _ ≤ num / (den + t) := div_le_div₀ (h0.trans hn0) hn0 (by linarith) h1
  · calc num / (den + t) ≤ exp b * X1 / (q * exp (-a) * X0) :=
          div_le_div₀ (by positivity) hn1 (by positivity) (by linarith)
      _ = _ := by rw [exp_add, exp_neg]; field_simp

section
variable {h k c T ρ S A B Λ δ ε m : ℝ} {lo : ℝ} {up : Option ℝ} {N : ℕ} {α : ℝ → ℝ}

/-- **Planck mean of a group** -/
theorem planck_error (hh : 0 < h) (hk : 0 < k) (hc : 0 < c) (hT : 0 < T) (hρ : 0 < ρ) (hS : 0 < S)
    (eA : A = groupFrom S h k T lo up) (eB : B = groupTo S h k T lo up) (hA : 0 < A) (hAB : A < B) (hN : 0 < N)
    (hδ : δ = log (B / A) / N) (hm : m = max 4 (h * B / (k * T))) (hΛ : 0 ≤ Λ) (hα0 : ∀ ν ∈ Set.Icc A B, 0 < α ν)
    (hα : SlopeAtMost Λ A B α) (hε : S * log 10 ≤ ε * ∫ ν in A..B, planckLaw h k c T ν) :
    exp (-((m + Λ / 2) * δ + ε + 1e-14)) * planckMeanOf h k c ρ T A B α ≤ groupPlanckMean S h k c ρ T lo up N α ∧
    groupPlanckMean S h k c ρ T lo up N α ≤ exp ((m + Λ / 2) * δ + ε + 1e-14) * planckMeanOf h k c ρ T A B α := by
  have hl : (0 : ℝ) < log 10 := log_pos (by norm_num)
  have hN0 : (0 : ℝ) < N := by exact_mod_cast hN
  have hδ0 : 0 < δ := by rw [hδ]; exact div_pos (log_pos ((one_lt_div hA).2 hAB)) hN0
  have hm4 : 4 ≤ m := by rw [hm]; exact le_max_left _ _
  have hsub : Set.Icc A B ⊆ Set.Ioi 0 := fun x hx => hA.trans_le hx.1
  have hlaw := (Convergence.cont_planckLaw hh hk hc hT).mono hsub
  have hlp : ∀ x ∈ Set.Icc A B, 0 < planckLaw h k c T x := fun x hx => (Convergence.planckWeight_near hh hk hc hT (hsub hx)).2.2
  have sl := planckLaw_slope (B := B) hh hk hc hT hA
  rw [← hm] at sl
  have hac := continuousOn hA hα
  have sa : SlopeAtMost (m + Λ) A B fun x => x * (α x / ρ * planckLaw h k c T x) := by
    have := const_mul (mul sl hα (fun x hx => (mul_pos (hsub hx) (hlp x hx)).le) fun x hx => (hα0 x hx).le) (inv_pos.2 hρ).le
    convert this using 1
    funext x
    field_simp
  obtain ⟨d0, d1⟩ := quad hA hAB hN hδ (by linarith) sl (fun x hx => (hlp x hx).le) hlaw
  obtain ⟨n0, n1⟩ := quad hA hAB hN hδ (by linarith) sa (fun x hx => mul_nonneg (div_nonneg (hα0 x hx).le hρ.le) (hlp x hx).le)
    ((hac.div_const ρ).mul hlaw)
  have X0 := Convergence.pos_integral hA hAB (Convergence.cont_planckLaw hh hk hc hT)
    (fun x hx => (Convergence.planckWeight_near hh hk hc hT hx).2.2)
  have X1 : 0 ≤ ∫ ν in A..B, α ν / ρ * planckLaw h k c T ν :=
    intervalIntegral.integral_nonneg hAB.le fun x hx => mul_nonneg (div_nonneg (hα0 x hx).le hρ.le) (hlp x hx).le
  obtain ⟨q1, -, q3, q4, -⟩ := q_bounds
  -- the library's weights
  have hcen : ∀ i ∈ range N, binCentre A B N i ∈ Set.Icc A B := fun i hi => centre_mem hA hAB (mem_range.1 hi)
  have hdn : ∀ i ∈ range N, 0 ≤ binCentre A B N i * binWidth A B N := fun i hi =>
    (mul_pos (hsub (hcen i hi)) (width_pos hA hAB hN)).le
  have hg : groupPlanckMean S h k c ρ T lo up N α =
      (∑ i ∈ range N, α (binCentre A B N i) / ρ * planckWeight h k c T (binCentre A B N i) * (binCentre A B N i * binWidth A B N)) /
      (∑ i ∈ range N, planckWeight h k c T (binCentre A B N i) * (binCentre A B N i * binWidth A B N) + S) := by
    rw [eA, eB]; rfl
  have hnear : ∀ i ∈ range N, (1 - exp (-80)) * planckLaw h k c T (binCentre A B N i) ≤ planckWeight h k c T (binCentre A B N i) ∧
      planckWeight h k c T (binCentre A B N i) ≤ planckLaw h k c T (binCentre A B N i) := fun i hi =>
    ⟨(Convergence.planckWeight_near hh hk hc hT (hsub (hcen i hi))).1, (Convergence.planckWeight_near hh hk hc hT (hsub (hcen i hi))).2.1⟩
  obtain ⟨r0, r1⟩ := quotient (a := m * δ / 2) (b := (m + Λ) * δ / 2) (p := 1 - exp (-80)) (q := 1 - exp (-80)) (ε := ε)
    (t := S * log 10) X0 X1 (mul_pos hS hl).le hε q3
    (num := (∑ i ∈ range N, α (binCentre A B N i) / ρ * planckWeight h k c T (binCentre A B N i) * (binCentre A B N i * binWidth A B N)) * log 10)
    (den := (∑ i ∈ range N, planckWeight h k c T (binCentre A B N i) * (binCentre A B N i * binWidth A B N)) * log 10)
    (by
      rw [mul_assoc]
      refine (mul_le_mul_of_nonneg_left n0 q3.le).trans ?_
      rw [← mul_assoc, mul_sum]
      refine mul_le_mul_of_nonneg_right (sum_le_sum fun i hi => ?_) hl.le
      have ha : 0 ≤ α (binCentre A B N i) / ρ := div_nonneg (hα0 _ (hcen i hi)).le hρ.le
      have := mul_le_mul_of_nonneg_right (mul_le_mul_of_nonneg_left (hnear i hi).1 ha) (hdn i hi)
      calc _ = _ := by ring
        _ ≤ _ := this)
    (by
      refine le_trans (mul_le_mul_of_nonneg_right (sum_le_sum fun i hi => ?_) hl.le) n1
      have ha : 0 ≤ α (binCentre A B N i) / ρ := div_nonneg (hα0 _ (hcen i hi)).le hρ.le
      exact mul_le_mul_of_nonneg_right (mul_le_mul_of_nonneg_left (hnear i hi).2 ha) (hdn i hi))
    (by
      rw [mul_assoc]
      refine (mul_le_mul_of_nonneg_left d0 q3.le).trans ?_
      rw [← mul_assoc, mul_sum]
      refine mul_le_mul_of_nonneg_right (sum_le_sum fun i hi => ?_) hl.le
      have := mul_le_mul_of_nonneg_right (hnear i hi).1 (hdn i hi)
      calc _ = _ := by ring
        _ ≤ _ := this)
    (by
      refine le_trans (mul_le_mul_of_nonneg_right (sum_le_sum fun i hi => ?_) hl.le) d1
      exact mul_le_mul_of_nonneg_right (hnear i hi).2 (hdn i hi))
    q3 (by positivity)
    (by
      by_contra hn
      have : ε * (∫ ν in A..B, planckLaw h k c T ν) < 0 := mul_neg_of_neg_of_pos (by linarith) X0
      have := mul_pos hS hl
      linarith)
  rw [← add_mul, mul_div_mul_right _ _ hl.ne', ← hg] at r0 r1
  have hε0 : 0 ≤ ε := by
    by_contra hn
    have : ε * (∫ ν in A..B, planckLaw h k c T ν) < 0 := mul_neg_of_neg_of_pos (by linarith) X0
    have := mul_pos hS hl
    linarith
  have hM : 0 ≤ planckMeanOf h k c ρ T A B α := div_nonneg X1 X0.le
  have hee : m * δ / 2 + (m + Λ) * δ / 2 = (m + Λ / 2) * δ := by ring
  rw [hee] at r0 r1
  have q15 : exp (-(1e-14)) ≤ 1 - exp (-80) := (exp_le_exp.2 (by norm_num)).trans q1
  refine ⟨le_trans (mul_le_mul_of_nonneg_right ?_ hM) r0, r1.trans (mul_le_mul_of_nonneg_right ?_ hM)⟩
  · rw [show -((m + Λ / 2) * δ + ε + 1e-14) = -(1e-14) + -ε + -((m + Λ / 2) * δ) by ring, exp_add, exp_add]
    refine mul_le_mul_of_nonneg_right ?_ (exp_pos _).le
    rw [div_eq_mul_inv]
    refine mul_le_mul q15 ?_ (exp_pos _).le q3.le
    rw [exp_neg]
    exact inv_anti₀ (by linarith) (by linarith [add_one_le_exp ε])
  · rw [show (m + Λ / 2) * δ + ε + 1e-14 = 1e-14 + ε + (m + Λ / 2) * δ by ring, exp_add, exp_add]
    refine mul_le_mul_of_nonneg_right ?_ (exp_pos _).le
    have h1 : 1 / (1 - exp (-80)) ≤ exp (1e-14) := by
      rw [one_div]
      refine inv_le_of_inv_le₀ (exp_pos _) ?_
      rw [← exp_neg]
      exact q15
    exact h1.trans (le_mul_of_one_le_right (exp_pos _).le (one_le_exp hε0))

set_option maxHeartbeats 1000000 in
/-- **Rosseland mean of a group** -/
theorem rosseland_error (hh : 0 < h) (hk : 0 < k) (hc : 0 < c) (hT : 0 < T) (hρ : 0 < ρ) (hS : 0 < S)
    (eA : A = groupFrom S h k T lo up) (eB : B = groupTo S h k T lo up) (hA : 0 < A) (hAB : A < B) (hN : 0 < N)
    (hδ : δ = log (B / A) / N) (hm : m = max 4 (h * B / (k * T))) (hΛ : 0 ≤ Λ) (hαS : ∀ ν ∈ Set.Icc A B, S ≤ ε * α ν)
    (hα : SlopeAtMost Λ A B α) (hε : ε * exp ((m + Λ / 2) * δ) ≤ 1 / 4)
    (hd : S * log 10 ≤ ε * ∫ ν in A..B, planckLawDT h k c T ν)
    (hn : S * log 10 ≤ ε * ∫ ν in A..B, ρ / α ν * planckLawDT h k c T ν) (hα0 : ∀ ν ∈ Set.Icc A B, 0 < α ν) :
    exp (-((m + Λ / 2) * δ + ε + 1e-14)) * rosselandMeanOf h k c ρ T A B α ≤ groupRosselandMean S h k c ρ T lo up N α ∧
    groupRosselandMean S h k c ρ T lo up N α ≤ exp ((m + Λ / 2) * δ + ε + 1e-14) * rosselandMeanOf h k c ρ T A B α := by
  have hl : (0 : ℝ) < log 10 := log_pos (by norm_num)
  have hN0 : (0 : ℝ) < N := by exact_mod_cast hN
  have hδ0 : 0 < δ := by rw [hδ]; exact div_pos (log_pos ((one_lt_div hA).2 hAB)) hN0
  have hm4 : 4 ≤ m := by rw [hm]; exact le_max_left _ _
  have hsub : Set.Icc A B ⊆ Set.Ioi 0 := fun x hx => hA.trans_le hx.1
  have hlaw := (Convergence.cont_planckLawDT hh hk hc hT).mono hsub
  have hlp : ∀ x ∈ Set.Icc A B, 0 < planckLawDT h k c T x := fun x hx => (Convergence.rosselandWeight_near hh hk hc hT (hsub hx)).2.2
  have sl := planckLawDT_slope (B := B) hh hk hc hT hA
  rw [← hm] at sl
  have hac := continuousOn hA hα
  have hic : ContinuousOn (fun x => ρ / α x * planckLawDT h k c T x) (Set.Icc A B) :=
    (continuousOn_const.div hac fun x hx => (hα0 x hx).ne').mul hlaw
  have hip : ∀ x ∈ Set.Icc A B, 0 < ρ / α x * planckLawDT h k c T x := fun x hx => mul_pos (div_pos hρ (hα0 x hx)) (hlp x hx)
  have sa : SlopeAtMost (m + Λ) A B fun x => x * (ρ / α x * planckLawDT h k c T x) := by
    have := const_mul (mul sl (inv hα hα0) (fun x hx => (mul_pos (hsub hx) (hlp x hx)).le) fun x hx => (inv_pos.2 (hα0 x hx)).le) hρ.le
    convert this using 1
    funext x
    rw [div_eq_mul_inv]
    ring
  obtain ⟨d0, d1⟩ := quad hA hAB hN hδ (by linarith) sl (fun x hx => (hlp x hx).le) hlaw
  obtain ⟨n0, n1⟩ := quad hA hAB hN hδ (by linarith) sa (fun x hx => (hip x hx).le) hic
  have Y0 : 0 < ∫ ν in A..B, planckLawDT h k c T ν := Convergence.pos_integral hA hAB (Convergence.cont_planckLawDT hh hk hc hT)
    (fun x hx => (Convergence.rosselandWeight_near hh hk hc hT hx).2.2)
  have Y1 : 0 < ∫ ν in A..B, ρ / α ν * planckLawDT h k c T ν :=
    intervalIntegral.intervalIntegral_pos_of_pos_on (hic.mono (by rw [Set.uIcc_of_le hAB.le])).intervalIntegrable
      (fun x hx => hip x ⟨hx.1.le, hx.2.le⟩) hAB
  obtain ⟨-, q2, q3, q4, q5⟩ := q_bounds
  generalize hQ : (1 - exp (-80)) ^ 2 = Q at *
  have Q0 : 0 < Q := by linarith
  have hε0 : 0 < ε := by
    by_contra hneg
    have : ε * (∫ ν in A..B, planckLawDT h k c T ν) ≤ 0 := mul_nonpos_of_nonpos_of_nonneg (by linarith) Y0.le
    have := mul_pos hS hl
    linarith
  have hcen : ∀ i ∈ range N, binCentre A B N i ∈ Set.Icc A B := fun i hi => centre_mem hA hAB (mem_range.1 hi)
  have hdn : ∀ i ∈ range N, 0 ≤ binCentre A B N i * binWidth A B N := fun i hi =>
    (mul_pos (hsub (hcen i hi)) (width_pos hA hAB hN)).le
  have hnear : ∀ i ∈ range N, Q * planckLawDT h k c T (binCentre A B N i) ≤ rosselandWeight h k c T (binCentre A B N i) ∧
      rosselandWeight h k c T (binCentre A B N i) ≤ planckLawDT h k c T (binCentre A B N i) := fun i hi => by
    rw [← hQ]
    exact ⟨(Convergence.rosselandWeight_near hh hk hc hT (hsub (hcen i hi))).1,
      (Convergence.rosselandWeight_near hh hk hc hT (hsub (hcen i hi))).2.1⟩
  have hE1 : 1 ≤ exp ((m + Λ / 2) * δ) := one_le_exp (by positivity)
  have hε4 : ε ≤ 1 / 4 := le_trans (le_mul_of_one_le_right hε0.le hE1) hε
  have hSα : ∀ i ∈ range N, S < α (binCentre A B N i) := fun i hi => by
    have h1 := hαS _ (hcen i hi)
    have h2 := hα0 _ (hcen i hi)
    nlinarith
  obtain ⟨den, hden⟩ : ∃ den, den = ∑ i ∈ range N, rosselandWeight h k c T (binCentre A B N i) * (binCentre A B N i * binWidth A B N) :=
    ⟨_, rfl⟩
  obtain ⟨num, hnum⟩ : ∃ num, num = ∑ i ∈ range N, ρ / (α (binCentre A B N i) + S) * rosselandWeight h k c T (binCentre A B N i) *
      (binCentre A B N i * binWidth A B N) := ⟨_, rfl⟩
  have hg : groupRosselandMean S h k c ρ T lo up N α = if S < den ∧ S < num then den / (num + S) else 0 := by
    have : num = ∑ i ∈ range N, if S < α (binCentre A B N i) then ρ / (α (binCentre A B N i) + S) *
        rosselandWeight h k c T (binCentre A B N i) * (binCentre A B N i * binWidth A B N) else 0 := by
      rw [hnum]
      exact sum_congr rfl fun i hi => by rw [if_pos (hSα i hi)]
    rw [this, hden, eA, eB]
    rfl
  -- each sum is off by a factor
  have b0 : Q * exp (-(m * δ / 2)) * (∫ ν in A..B, planckLawDT h k c T ν) ≤ den * log 10 := by
    rw [mul_assoc]
    refine (mul_le_mul_of_nonneg_left d0 Q0.le).trans ?_
    rw [← mul_assoc, mul_sum, hden]
    refine mul_le_mul_of_nonneg_right (sum_le_sum fun i hi => ?_) hl.le
    have := mul_le_mul_of_nonneg_right (hnear i hi).1 (hdn i hi)
    calc _ = _ := by ring
      _ ≤ _ := this
  have b1 : den * log 10 ≤ exp (m * δ / 2) * ∫ ν in A..B, planckLawDT h k c T ν := by
    rw [hden]
    refine le_trans (mul_le_mul_of_nonneg_right (sum_le_sum fun i hi => ?_) hl.le) d1
    exact mul_le_mul_of_nonneg_right (hnear i hi).2 (hdn i hi)
  have c0 : Q / (1 + ε) * exp (-((m + Λ) * δ / 2)) * (∫ ν in A..B, ρ / α ν * planckLawDT h k c T ν) ≤ num * log 10 := by
    rw [mul_assoc]
    refine (mul_le_mul_of_nonneg_left n0 (by positivity)).trans ?_
    rw [← mul_assoc, mul_sum, hnum]
    refine mul_le_mul_of_nonneg_right (sum_le_sum fun i hi => ?_) hl.le
    have ha := hα0 _ (hcen i hi)
    have h1 : 1 / (1 + ε) * (ρ / α (binCentre A B N i)) ≤ ρ / (α (binCentre A B N i) + S) := by
      rw [div_mul_div_comm, one_mul]
      exact div_le_div_of_nonneg_left hρ.le (by positivity) (by have := hαS _ (hcen i hi); linarith)
    have h2 := mul_le_mul_of_nonneg_right (mul_le_mul h1 (hnear i hi).1 (mul_pos Q0 (hlp _ (hcen i hi))).le (by positivity)) (hdn i hi)
    calc _ = _ := by ring
      _ ≤ _ := h2
  have c1 : num * log 10 ≤ exp ((m + Λ) * δ / 2) * ∫ ν in A..B, ρ / α ν * planckLawDT h k c T ν := by
    rw [hnum]
    refine le_trans (mul_le_mul_of_nonneg_right (sum_le_sum fun i hi => ?_) hl.le) n1
    have ha := hα0 _ (hcen i hi)
    have hw : 0 ≤ rosselandWeight h k c T (binCentre A B N i) := (mul_pos Q0 (hlp _ (hcen i hi))).le.trans (hnear i hi).1
    exact mul_le_mul_of_nonneg_right (mul_le_mul (div_le_div_of_nonneg_left hρ.le ha (by linarith)) (hnear i hi).2 hw (by positivity))
      (hdn i hi)
  -- neither guard is hit
  have guard : ∀ {e p X : ℝ}, e ≤ (m + Λ / 2) * δ → 7 / 10 ≤ p → 0 < X → S * log 10 ≤ ε * X → S * log 10 < p * exp (-e) * X := by
    intro e p X he hp hX hs
    have h1 : ε * exp e ≤ 1 / 4 := le_trans (mul_le_mul_of_nonneg_left (exp_le_exp.2 he) hε0.le) hε
    have h2 : ε ≤ 1 / 4 * exp (-e) := by
      rw [exp_neg, ← div_eq_mul_inv, le_div_iff₀ (exp_pos _)]
      exact h1
    have h3 := exp_pos (-e)
    refine hs.trans_lt (mul_lt_mul_of_pos_right ?_ hX)
    nlinarith
  have hQε : 7 / 10 ≤ Q / (1 + ε) := by
    rw [le_div_iff₀ (by linarith)]
    linarith
  have e1 : m * δ / 2 ≤ (m + Λ / 2) * δ := by nlinarith [mul_nonneg hΛ hδ0.le, mul_pos (by linarith : 0 < m) hδ0]
  have e2 : (m + Λ) * δ / 2 ≤ (m + Λ / 2) * δ := by nlinarith [mul_nonneg hΛ hδ0.le, mul_pos (by linarith : 0 < m) hδ0]
  have g1 : S < den := lt_of_mul_lt_mul_right ((guard e1 (by linarith) Y0 hd).trans_le b0) hl.le
  have g2 : S < num := lt_of_mul_lt_mul_right ((guard e2 hQε Y1 hn).trans_le c0) hl.le
  rw [hg, if_pos ⟨g1, g2⟩]
  obtain ⟨r0, r1⟩ := quotient (a := (m + Λ) * δ / 2) (b := m * δ / 2) (p := Q) (q := Q / (1 + ε)) (ε := ε)
    Y1 Y0.le (mul_pos hS hl).le hn Q0 b0 b1 c0 c1 (by positivity) (by positivity) hε0.le
  rw [← add_mul, mul_div_mul_right _ _ hl.ne'] at r0 r1
  have hM : 0 ≤ rosselandMeanOf h k c ρ T A B α := div_nonneg Y0.le Y1.le
  have hee : (m + Λ) * δ / 2 + m * δ / 2 = (m + Λ / 2) * δ := by ring
  rw [hee] at r0 r1
  refine ⟨le_trans (mul_le_mul_of_nonneg_right ?_ hM) r0, r1.trans (mul_le_mul_of_nonneg_right ?_ hM)⟩
  · rw [show -((m + Λ / 2) * δ + ε + 1e-14) = -(1e-14) + -ε + -((m + Λ / 2) * δ) by ring, exp_add, exp_add]
    refine mul_le_mul_of_nonneg_right ?_ (exp_pos _).le
    rw [div_eq_mul_inv]
    refine mul_le_mul q2 ?_ (exp_pos _).le Q0.le
    rw [exp_neg]
    exact inv_anti₀ (by linarith) (by linarith [add_one_le_exp ε])
  · rw [show (m + Λ / 2) * δ + ε + 1e-14 = 1e-14 + ε + (m + Λ / 2) * δ by ring, exp_add, exp_add]
    refine mul_le_mul_of_nonneg_right ?_ (exp_pos _).le
    rw [one_div_div, div_eq_mul_inv, mul_comm]
    refine mul_le_mul ?_ (by linarith [add_one_le_exp ε]) (by linarith) (exp_pos _).le
    refine inv_le_of_inv_le₀ (exp_pos _) ?_
    rw [← exp_neg]
    exact q2

end

end Opac.Slopes
