import Verif.Lemmas.GroupError
import Verif.Spec.NeutrinoMeans

/-!
# Means over a window from finitely many frequencies
-/

namespace Opac.Slopes
open Spec MeasureTheory Finset Real

/-- the temperature derivative of the Fermi-Dirac law -/
theorem fermiDT_core {b A B C : ℝ} (hb : 0 < b) (hA : 0 < A) (hC : 0 ≤ C) :
    SlopeAtMost (max 5 (b * B)) A B fun ν => C * (ν ^ 5 * exp (-(b * ν)) / (1 + exp (-(b * ν))) ^ 2) := by
  refine const_mul ?_ hC
  refine of_le hA (fun x hx y hy hxy => ?_) (fun x hx y hy hxy => ?_)
  · have x0 : 0 < x := hA.trans_le hx.1
    have y0 : 0 < y := x0.trans_le hxy
    refine le_trans ?_ (mul_le_mul_of_nonneg_right (pow_step (m := max 5 (b * B)) 5 x0 hxy (le_max_left _ _))
      (div_nonneg (mul_nonneg (by positivity) (exp_pos _).le) (by positivity)))
    have vx := exp_pos (-(b * x))
    have vy := exp_pos (-(b * y))
    have vyx : exp (-(b * y)) ≤ exp (-(b * x)) := exp_le_exp.2 (by nlinarith)
    have v1 : exp (-(b * x)) ≤ 1 := exp_le_one_iff.2 (by have := mul_pos hb x0; linarith)
    rw [div_pow, ← mul_div_assoc, div_le_div_iff₀ (by positivity) (by positivity)]
    have e : y ^ 5 / x ^ 5 * (x ^ 5 * exp (-(b * x))) = y ^ 5 * exp (-(b * x)) := by field_simp
    rw [e, mul_assoc, mul_assoc]
    refine mul_le_mul_of_nonneg_left ?_ (by positivity)
    generalize exp (-(b * x)) = t at *
    generalize exp (-(b * y)) = s at *
    have : s * t ≤ 1 := by nlinarith
    nlinarith [mul_nonneg (sub_nonneg.2 vyx) (sub_nonneg.2 this)]
  · have x0 : 0 < x := hA.trans_le hx.1
    have y0 : 0 < y := x0.trans_le hxy
    refine le_trans ?_ (mul_le_mul_of_nonneg_right (exp_step hb x0 hxy hy.2 (le_max_right 5 (b * B)))
      (div_nonneg (mul_nonneg (by positivity) (exp_pos _).le) (by positivity)))
    have vx := exp_pos (-(b * x))
    have vy := exp_pos (-(b * y))
    have vyx : exp (-(b * y)) ≤ exp (-(b * x)) := exp_le_exp.2 (by nlinarith)
    have ee : exp (b * y - b * x) * exp (-(b * y)) = exp (-(b * x)) := by rw [← exp_add]; congr 1; ring
    rw [← mul_div_assoc, show exp (b * y - b * x) * (y ^ 5 * exp (-(b * y))) = y ^ 5 * exp (-(b * x)) by rw [← ee]; ring]
    refine div_le_div₀ (by positivity) ?_ (by positivity) (pow_le_pow_left₀ (by positivity) (by linarith) 2)
    exact mul_le_mul_of_nonneg_right (pow_le_pow_left₀ x0.le hxy 5) vx.le

section
variable {ρ S A B Λ δ ε m : ℝ} {N : ℕ} {α W : ℝ → ℝ}

/-- Planck mean over a window -/
theorem planck_window (hρ : 0 < ρ) (hS : 0 < S) (hA : 0 < A) (hAB : A < B) (hN : 0 < N) (hδ : δ = log (B / A) / N) (hm : 0 ≤ m)
    (sl : SlopeAtMost m A B fun x => x * W x) (hlp : ∀ x ∈ Set.Icc A B, 0 < W x) (hlaw : ContinuousOn W (Set.Icc A B))
    (hΛ : 0 ≤ Λ) (hα0 : ∀ ν ∈ Set.Icc A B, 0 < α ν) (hα : SlopeAtMost Λ A B α) (hε : S * log 10 ≤ ε * ∫ ν in A..B, W ν) :
    0 < ε ∧ 0 < (∫ ν in A..B, W ν) ∧
    exp (-((m + Λ / 2) * δ + ε)) * ((∫ ν in A..B, α ν / ρ * W ν) / ∫ ν in A..B, W ν) ≤
      planckMean S ρ N (binDNu A B N) (fun i => W (binCentre A B N i)) (fun i => α (binCentre A B N i)) ∧
    planckMean S ρ N (binDNu A B N) (fun i => W (binCentre A B N i)) (fun i => α (binCentre A B N i)) ≤
      exp ((m + Λ / 2) * δ + ε) * ((∫ ν in A..B, α ν / ρ * W ν) / ∫ ν in A..B, W ν) := by
  have hl : (0 : ℝ) < log 10 := log_pos (by norm_num)
  have hN0 : (0 : ℝ) < N := by exact_mod_cast hN
  have hδ0 : 0 < δ := by rw [hδ]; exact div_pos (log_pos ((one_lt_div hA).2 hAB)) hN0
  have hsub : Set.Icc A B ⊆ Set.Ioi 0 := fun x hx => hA.trans_le hx.1
  have hac := continuousOn hA hα
  have sa : SlopeAtMost (m + Λ) A B fun x => x * (α x / ρ * W x) := by
    have := const_mul (mul sl hα (fun x hx => (mul_pos (hsub hx) (hlp x hx)).le) fun x hx => (hα0 x hx).le) (inv_pos.2 hρ).le
    convert this using 1
    funext x
    field_simp
  obtain ⟨d0, d1⟩ := quad hA hAB hN hδ hm sl (fun x hx => (hlp x hx).le) hlaw
  obtain ⟨n0, n1⟩ := quad hA hAB hN hδ (by linarith) sa (fun x hx => mul_nonneg (div_nonneg (hα0 x hx).le hρ.le) (hlp x hx).le)
    ((hac.div_const ρ).mul hlaw)
  have X0 : 0 < ∫ ν in A..B, W ν :=
    intervalIntegral.intervalIntegral_pos_of_pos_on (hlaw.mono (by rw [Set.uIcc_of_le hAB.le])).intervalIntegrable
      (fun x hx => hlp x ⟨hx.1.le, hx.2.le⟩) hAB
  have X1 : 0 ≤ ∫ ν in A..B, α ν / ρ * W ν :=
    intervalIntegral.integral_nonneg hAB.le fun x hx => mul_nonneg (div_nonneg (hα0 x hx).le hρ.le) (hlp x hx).le
  have hε0 : 0 < ε := by
    by_contra hneg
    have : ε * (∫ ν in A..B, W ν) ≤ 0 := mul_nonpos_of_nonpos_of_nonneg (by linarith) X0.le
    have := mul_pos hS hl
    linarith
  refine ⟨hε0, X0, ?_⟩
  obtain ⟨r0, r1⟩ := quotient (a := m * δ / 2) (b := (m + Λ) * δ / 2) (p := 1) (q := 1) (ε := ε)
    (t := S * log 10) X0 X1 (mul_pos hS hl).le hε one_pos (by rw [one_mul]; exact n0) n1 (by rw [one_mul]; exact d0) d1 one_pos
    (by positivity) hε0.le
  rw [← add_mul, mul_div_mul_right _ _ hl.ne', show m * δ / 2 + (m + Λ) * δ / 2 = (m + Λ / 2) * δ by ring] at r0 r1
  have hM : 0 ≤ (∫ ν in A..B, α ν / ρ * W ν) / ∫ ν in A..B, W ν := div_nonneg X1 X0.le
  refine ⟨le_trans (mul_le_mul_of_nonneg_right ?_ hM) r0, r1.trans (mul_le_mul_of_nonneg_right ?_ hM)⟩
  · rw [neg_add, add_comm, exp_add, one_div]
    refine mul_le_mul_of_nonneg_right ?_ (exp_pos _).le
    rw [exp_neg]
    exact inv_anti₀ (by linarith) (by linarith [add_one_le_exp ε])
  · rw [one_div_one, one_mul, exp_add]
    exact le_mul_of_one_le_right (exp_pos _).le (one_le_exp hε0.le)

set_option maxHeartbeats 1000000 in
/-- Rosseland mean over a window -/
theorem rosseland_window {P : ℝ} (hρ : 0 < ρ) (hS : 0 < S) (hA : 0 < A) (hAB : A < B) (hN : 0 < N) (hδ : δ = log (B / A) / N)
    (hm : 0 ≤ m) (sl : SlopeAtMost m A B fun x => x * W x) (hlp : ∀ x ∈ Set.Icc A B, 0 < W x) (hlaw : ContinuousOn W (Set.Icc A B))
    (hΛ : 0 ≤ Λ) (hα0 : ∀ ν ∈ Set.Icc A B, 0 < α ν) (hα : SlopeAtMost Λ A B α) (hαS : ∀ ν ∈ Set.Icc A B, S ≤ ε * α ν)
    (hε : ε * exp ((m + Λ / 2) * δ) ≤ 1 / 4) (hn : S * log 10 ≤ ε * ∫ ν in A..B, ρ / α ν * W ν) (hP : S < P) :
    exp (-((m + Λ / 2) * δ + ε)) * ((∫ ν in A..B, W ν) / ∫ ν in A..B, ρ / α ν * W ν) ≤
      openRosselandMean S ρ N (binDNu A B N) (fun i => W (binCentre A B N i)) (fun i => α (binCentre A B N i)) P ∧
    openRosselandMean S ρ N (binDNu A B N) (fun i => W (binCentre A B N i)) (fun i => α (binCentre A B N i)) P ≤
      exp ((m + Λ / 2) * δ + ε) * ((∫ ν in A..B, W ν) / ∫ ν in A..B, ρ / α ν * W ν) := by
  have hl : (0 : ℝ) < log 10 := log_pos (by norm_num)
  have hN0 : (0 : ℝ) < N := by exact_mod_cast hN
  have hδ0 : 0 < δ := by rw [hδ]; exact div_pos (log_pos ((one_lt_div hA).2 hAB)) hN0
  have hsub : Set.Icc A B ⊆ Set.Ioi 0 := fun x hx => hA.trans_le hx.1
  have hac := continuousOn hA hα
  have hic : ContinuousOn (fun x => ρ / α x * W x) (Set.Icc A B) :=
    (continuousOn_const.div hac fun x hx => (hα0 x hx).ne').mul hlaw
  have hip : ∀ x ∈ Set.Icc A B, 0 < ρ / α x * W x := fun x hx => mul_pos (div_pos hρ (hα0 x hx)) (hlp x hx)
  have sa : SlopeAtMost (m + Λ) A B fun x => x * (ρ / α x * W x) := by
    have := const_mul (mul sl (inv hα hα0) (fun x hx => (mul_pos (hsub hx) (hlp x hx)).le) fun x hx => (inv_pos.2 (hα0 x hx)).le) hρ.le
    convert this using 1
    funext x
    rw [div_eq_mul_inv]
    ring
  obtain ⟨d0, d1⟩ := quad hA hAB hN hδ hm sl (fun x hx => (hlp x hx).le) hlaw
  obtain ⟨n0, n1⟩ := quad hA hAB hN hδ (by linarith) sa (fun x hx => (hip x hx).le) hic
  have Y0 : 0 < ∫ ν in A..B, W ν :=
    intervalIntegral.intervalIntegral_pos_of_pos_on (hlaw.mono (by rw [Set.uIcc_of_le hAB.le])).intervalIntegrable
      (fun x hx => hlp x ⟨hx.1.le, hx.2.le⟩) hAB
  have Y1 : 0 < ∫ ν in A..B, ρ / α ν * W ν :=
    intervalIntegral.intervalIntegral_pos_of_pos_on (hic.mono (by rw [Set.uIcc_of_le hAB.le])).intervalIntegrable
      (fun x hx => hip x ⟨hx.1.le, hx.2.le⟩) hAB
  have hε0 : 0 < ε := by
    by_contra hneg
    have : ε * (∫ ν in A..B, ρ / α ν * W ν) ≤ 0 := mul_nonpos_of_nonpos_of_nonneg (by linarith) Y1.le
    have := mul_pos hS hl
    linarith
  have hcen : ∀ i ∈ range N, binCentre A B N i ∈ Set.Icc A B := fun i hi => centre_mem hA hAB (mem_range.1 hi)
  have hdn : ∀ i ∈ range N, 0 ≤ binCentre A B N i * binWidth A B N := fun i hi =>
    (mul_pos (hsub (hcen i hi)) (width_pos hA hAB hN)).le
  have hE1 : 1 ≤ exp ((m + Λ / 2) * δ) := one_le_exp (by positivity)
  have hε4 : ε ≤ 1 / 4 := le_trans (le_mul_of_one_le_right hε0.le hE1) hε
  have hSα : ∀ i ∈ range N, S < α (binCentre A B N i) := fun i hi => by
    have h1 := hαS _ (hcen i hi)
    have h2 := hα0 _ (hcen i hi)
    nlinarith
  obtain ⟨den, hden⟩ : ∃ den, den = ∑ i ∈ range N, W (binCentre A B N i) * (binCentre A B N i * binWidth A B N) := ⟨_, rfl⟩
  obtain ⟨num, hnum⟩ : ∃ num, num = ∑ i ∈ range N, ρ / (α (binCentre A B N i) + S) * W (binCentre A B N i) *
      (binCentre A B N i * binWidth A B N) := ⟨_, rfl⟩
  have hg : openRosselandMean S ρ N (binDNu A B N) (fun i => W (binCentre A B N i)) (fun i => α (binCentre A B N i)) P =
      if S < P ∧ S < num then den / (num + S) else 0 := by
    have h1 : openPath S ρ N (binDNu A B N) (fun i => W (binCentre A B N i)) (fun i => α (binCentre A B N i)) = num := by
      rw [hnum]
      exact sum_congr rfl fun i hi => by rw [if_pos (hSα i hi)]; rfl
    have h2 : openWeight S N (binDNu A B N) (fun i => W (binCentre A B N i)) (fun i => α (binCentre A B N i)) = den := by
      rw [hden]
      exact sum_congr rfl fun i hi => by rw [if_pos (hSα i hi)]; rfl
    unfold openRosselandMean
    rw [h1, h2]
  rw [← hden] at d0 d1
  have c0 : 1 / (1 + ε) * exp (-((m + Λ) * δ / 2)) * (∫ ν in A..B, ρ / α ν * W ν) ≤ num * log 10 := by
    rw [mul_assoc]
    refine (mul_le_mul_of_nonneg_left n0 (by positivity)).trans ?_
    rw [← mul_assoc, mul_sum, hnum]
    refine mul_le_mul_of_nonneg_right (sum_le_sum fun i hi => ?_) hl.le
    have ha := hα0 _ (hcen i hi)
    have h1 : 1 / (1 + ε) * (ρ / α (binCentre A B N i)) ≤ ρ / (α (binCentre A B N i) + S) := by
      rw [div_mul_div_comm, one_mul]
      exact div_le_div_of_nonneg_left hρ.le (by positivity) (by have := hαS _ (hcen i hi); linarith)
    have h2 := mul_le_mul_of_nonneg_right (mul_le_mul_of_nonneg_right h1 (hlp _ (hcen i hi)).le) (hdn i hi)
    calc _ = _ := by ring
      _ ≤ _ := h2
  have c1 : num * log 10 ≤ exp ((m + Λ) * δ / 2) * ∫ ν in A..B, ρ / α ν * W ν := by
    rw [hnum]
    refine le_trans (mul_le_mul_of_nonneg_right (sum_le_sum fun i hi => ?_) hl.le) n1
    have ha := hα0 _ (hcen i hi)
    exact mul_le_mul_of_nonneg_right (mul_le_mul_of_nonneg_right (div_le_div_of_nonneg_left hρ.le ha (by linarith))
      (hlp _ (hcen i hi)).le) (hdn i hi)
  have e2 : (m + Λ) * δ / 2 ≤ (m + Λ / 2) * δ := by nlinarith [mul_nonneg hΛ hδ0.le, mul_nonneg hm hδ0.le]
  have g2 : S < num := by
    refine lt_of_mul_lt_mul_right (lt_of_lt_of_le ?_ c0) hl.le
    have h1 : ε * exp ((m + Λ) * δ / 2) ≤ 1 / 4 := le_trans (mul_le_mul_of_nonneg_left (exp_le_exp.2 e2) hε0.le) hε
    have h2 : ε ≤ 1 / 4 * exp (-((m + Λ) * δ / 2)) := by
      rw [exp_neg, ← div_eq_mul_inv, le_div_iff₀ (exp_pos _)]
      exact h1
    have h3 := exp_pos (-((m + Λ) * δ / 2))
    have h4 : 7 / 10 ≤ 1 / (1 + ε) := by rw [le_div_iff₀ (by linarith)]; linarith
    refine hn.trans_lt (mul_lt_mul_of_pos_right ?_ Y1)
    nlinarith
  rw [hg, if_pos ⟨hP, g2⟩]
  obtain ⟨r0, r1⟩ := quotient (a := (m + Λ) * δ / 2) (b := m * δ / 2) (p := 1) (q := 1 / (1 + ε)) (ε := ε)
    Y1 Y0.le (mul_pos hS hl).le hn one_pos (by rw [one_mul]; exact d0) d1 c0 c1 (by positivity) (by positivity) hε0.le
  rw [← add_mul, mul_div_mul_right _ _ hl.ne', show (m + Λ) * δ / 2 + m * δ / 2 = (m + Λ / 2) * δ by ring] at r0 r1
  have hM : 0 ≤ (∫ ν in A..B, W ν) / ∫ ν in A..B, ρ / α ν * W ν := div_nonneg Y0.le Y1.le
  refine ⟨le_trans (mul_le_mul_of_nonneg_right ?_ hM) r0, r1.trans (mul_le_mul_of_nonneg_right ?_ hM)⟩
  · rw [neg_add, add_comm, exp_add, one_div]
    refine mul_le_mul_of_nonneg_right ?_ (exp_pos _).le
    rw [exp_neg]
    exact inv_anti₀ (by linarith) (by linarith [add_one_le_exp ε])
  · rw [one_div_one_div, add_comm ((m + Λ / 2) * δ), exp_add]
    exact mul_le_mul_of_nonneg_right (by linarith [add_one_le_exp ε]) (exp_pos _).le

end

end Opac.Slopes
