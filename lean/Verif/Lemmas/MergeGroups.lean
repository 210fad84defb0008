import Verif.Lemmas.WholeSpectrum

/-!
# Adjacent groups and their union
-/

namespace Opac.WholeSpectrum
open Opac Spec MeasureTheory Set Real Filter Topology

variable {h k c T : ℝ}

/-- two adjacent groups whose common bound is within the thermal range share out the sampled range of their union -/
theorem merged_window (hh : 0 < h) (hk : 0 < k) (hT : 0 < T) (S : ℝ) {lo b : ℝ} {up : Option ℝ} (hb : lo < b) (hup : ∀ x ∈ up, b < x)
    (h1 : 1e-3 * (k * T / h) < b) (h2 : b < 1e3 * (k * T / h)) :
    groupFrom S h k T lo (some b) = groupFrom S h k T lo up ∧ groupTo S h k T lo (some b) = b + S ∧
    groupFrom S h k T b up = b + S ∧ groupTo S h k T b up = groupTo S h k T lo up ∧
    groupFrom S h k T lo up < b + S ∧ b + S < groupTo S h k T lo up := by
  have hq : 0 < k * T / h := by positivity
  have e1 : 1e-3 * k * T / h = 1e-3 * (k * T / h) := by ring
  have e2 : 1e3 * k * T / h = 1e3 * (k * T / h) := by ring
  have hb0 : 0 < b := lt_trans (by positivity) h1
  obtain ⟨a, ha⟩ : ∃ a, a = (if lo = 0 ∨ lo < 0.1 * (1e-3 * (k * T / h)) then 1e-3 * (k * T / h) else lo) := ⟨_, rfl⟩
  have hab : a < b := by
    rw [ha]; split_ifs
    · exact h1
    · exact hb
  have nb : ¬ (b = 0 ∨ b < 0.1 * (1e-3 * (k * T / h))) := by
    rintro (h | h)
    · exact hb0.ne' h
    · norm_num at h h1; linarith
  have nb' : ¬ 10 * (1e3 * (k * T / h)) < b := by norm_num at *; linarith
  unfold groupFrom groupTo groupWindow window
  simp only [e1, e2]
  rw [if_neg nb, if_neg nb', ← ha, if_neg (not_le.2 hab)]
  rcases up with _ | u
  · simp only
    rw [if_neg (not_le.2 (hab.trans h2)), if_neg (not_le.2 h2)]
    exact ⟨by trivial, by trivial, by trivial, by trivial, by simpa using hab, by simpa using h2⟩
  · have hbu := hup u rfl
    have hu : b < (if 10 * (1e3 * (k * T / h)) < u then 1e3 * (k * T / h) else u) := by split_ifs <;> assumption
    simp only
    rw [if_neg (not_le.2 (hab.trans hu)), if_neg (not_le.2 hu)]
    exact ⟨by trivial, by trivial, by trivial, by trivial, by simpa using hab, by simpa using hu⟩

/-- the Planck mean of the union lies between those of the parts -/
theorem planck_merged (hh : 0 < h) (hk : 0 < k) (hc : 0 < c) (hT : 0 < T) {S ρ lo b ε : ℝ} {up : Option ℝ} (hS : 0 < S) (hρ : 0 < ρ)
    (hA : 0 < groupFrom S h k T lo up) (hb : lo < b) (hup : ∀ x ∈ up, b < x) (h1 : 1e-3 * (k * T / h) < b) (h2 : b < 1e3 * (k * T / h))
    {α : ℝ → ℝ} (hα : ContinuousOn α (Ioi 0)) (h0 : ∀ ν, 0 < ν → 0 ≤ α ν)
    (hε : S * Real.log 10 ≤ ε * ∫ ν in groupFrom S h k T lo up..groupTo S h k T lo up, planckWeight h k c T ν) :
    min (planckIntegralMean S h k c ρ T lo (some b) α) (planckIntegralMean S h k c ρ T b up α) ≤ planckIntegralMean S h k c ρ T lo up α ∧
    planckIntegralMean S h k c ρ T lo up α ≤
      (1 + ε) * max (planckIntegralMean S h k c ρ T lo (some b) α) (planckIntegralMean S h k c ρ T b up α) := by
  obtain ⟨w1, w2, w3, w4, w5, w6⟩ := merged_window hh hk hT S hb hup h1 h2
  have hl10 : 0 < Real.log 10 := Real.log_pos (by norm_num)
  unfold planckIntegralMean
  rw [w1, w2, w3, w4]
  clear w1 w2 w3 w4
  generalize groupFrom S h k T lo up = A at *
  generalize groupTo S h k T lo up = B at *
  generalize b + S = m at *
  have hm : 0 < m := hA.trans w5
  have hf : ContinuousOn (fun ν => α ν / ρ) (Ioi 0) := hα.div_const ρ
  have i1 := (Convergence.planck_pieces hh hk hc hT hf (B := m) hA).2 w5.le
  have i2 := (Convergence.planck_pieces hh hk hc hT hf (B := B) hm).2 w6.le
  have j1 := (Convergence.planck_pieces hh hk hc hT (f := fun _ => 1) continuousOn_const (B := m) hA).2 w5.le
  have j2 := (Convergence.planck_pieces hh hk hc hT (f := fun _ => 1) continuousOn_const (B := B) hm).2 w6.le
  simp only [one_mul] at j1 j2
  have hw : ∀ ν, 0 < ν → 0 ≤ planckWeight h k c T ν := fun ν hν => by
    have hn := Convergence.planckWeight_near hh hk hc hT hν
    have h80 : exp (-80) < 1 := by rw [← Real.exp_zero]; exact Real.exp_lt_exp.2 (by norm_num)
    exact le_trans (mul_nonneg (by linarith) hn.2.2.le) hn.1
  have P1 : 0 ≤ ∫ ν in A..m, α ν / ρ * planckWeight h k c T ν := intervalIntegral.integral_nonneg w5.le fun ν hν =>
    mul_nonneg (div_nonneg (h0 ν (hA.trans_le hν.1)) hρ.le) (hw ν (hA.trans_le hν.1))
  have P2 : 0 ≤ ∫ ν in m..B, α ν / ρ * planckWeight h k c T ν := intervalIntegral.integral_nonneg w6.le fun ν hν =>
    mul_nonneg (div_nonneg (h0 ν (hm.trans_le hν.1)) hρ.le) (hw ν (hm.trans_le hν.1))
  have W1 : 0 ≤ ∫ ν in A..m, planckWeight h k c T ν := intervalIntegral.integral_nonneg w5.le fun ν hν => hw ν (hA.trans_le hν.1)
  have W2 : 0 ≤ ∫ ν in m..B, planckWeight h k c T ν := intervalIntegral.integral_nonneg w6.le fun ν hν => hw ν (hm.trans_le hν.1)
  rw [← intervalIntegral.integral_add_adjacent_intervals i1 i2, ← intervalIntegral.integral_add_adjacent_intervals j1 j2]
  rw [← intervalIntegral.integral_add_adjacent_intervals j1 j2] at hε
  generalize (∫ ν in A..m, α ν / ρ * planckWeight h k c T ν) = p at *
  generalize (∫ ν in m..B, α ν / ρ * planckWeight h k c T ν) = q at *
  generalize (∫ ν in A..m, planckWeight h k c T ν) = u at *
  generalize (∫ ν in m..B, planckWeight h k c T ν) = v at *
  have hσ : 0 < S * Real.log 10 := by positivity
  generalize S * Real.log 10 = σ at *
  have ep : p = p / (u + σ) * (u + σ) := by field_simp
  have eq : q = q / (v + σ) * (v + σ) := by field_simp
  have M1 : 0 ≤ p / (u + σ) := by positivity
  have M2 : 0 ≤ q / (v + σ) := by positivity
  generalize p / (u + σ) = x at *
  generalize q / (v + σ) = y at *
  constructor
  · rw [le_div_iff₀ (by positivity), ep, eq]
    have l1 := min_le_left x y
    have l2 := min_le_right x y
    have l3 : 0 ≤ min x y := le_min M1 M2
    generalize min x y = z at *
    nlinarith
  · rw [div_le_iff₀ (by positivity), ep, eq]
    have l1 := le_max_left x y
    have l2 := le_max_right x y
    generalize max x y = z at *
    have hz : 0 ≤ z := M1.trans l1
    have t1 : x * (u + σ) + y * (v + σ) ≤ z * (u + v + 2 * σ) := by nlinarith
    have hε0 : 0 ≤ ε * σ := by
      have : 0 < ε := by
        by_contra hneg
        have := mul_nonpos_of_nonpos_of_nonneg (not_lt.1 hneg) (add_nonneg W1 W2)
        linarith
      positivity
    have t2 : z * (u + v + 2 * σ) ≤ z * ((1 + ε) * (u + v + σ)) := by gcongr; linarith
    linarith

/-- the Rosseland mean of the union lies between those of the parts -/
theorem rosseland_merged (hh : 0 < h) (hk : 0 < k) (hc : 0 < c) (hT : 0 < T) {S ρ lo b ε : ℝ} {up : Option ℝ} (hS : 0 < S) (hρ : 0 < ρ)
    (hA : 0 < groupFrom S h k T lo up) (hb : lo < b) (hup : ∀ x ∈ up, b < x) (h1 : 1e-3 * (k * T / h) < b) (h2 : b < 1e3 * (k * T / h))
    {α : ℝ → ℝ} (hα : ContinuousOn α (Ioi 0)) (h0 : ∀ ν, 0 < ν → 0 ≤ α ν)
    (hε : S * Real.log 10 ≤ ε * ∫ ν in groupFrom S h k T lo up..groupTo S h k T lo up, ρ / (α ν + S) * rosselandWeight h k c T ν) :
    min (rosselandIntegralMean S h k c ρ T lo (some b) α) (rosselandIntegralMean S h k c ρ T b up α) ≤
      rosselandIntegralMean S h k c ρ T lo up α ∧
    rosselandIntegralMean S h k c ρ T lo up α ≤
      (1 + ε) * max (rosselandIntegralMean S h k c ρ T lo (some b) α) (rosselandIntegralMean S h k c ρ T b up α) := by
  obtain ⟨w1, w2, w3, w4, w5, w6⟩ := merged_window hh hk hT S hb hup h1 h2
  have hl10 : 0 < Real.log 10 := Real.log_pos (by norm_num)
  unfold rosselandIntegralMean
  rw [w1, w2, w3, w4]
  clear w1 w2 w3 w4
  generalize groupFrom S h k T lo up = A at *
  generalize groupTo S h k T lo up = B at *
  generalize b + S = m at *
  have hm : 0 < m := hA.trans w5
  have hf : ContinuousOn (fun ν => ρ / (α ν + S)) (Ioi 0) :=
    continuousOn_const.div (hα.add_const S) fun ν hν => by have := h0 ν hν; linarith
  have i1 := (Convergence.rosseland_pieces hh hk hc hT hf (B := m) hA).2 w5.le
  have i2 := (Convergence.rosseland_pieces hh hk hc hT hf (B := B) hm).2 w6.le
  have j1 := (Convergence.rosseland_pieces hh hk hc hT (f := fun _ => 1) continuousOn_const (B := m) hA).2 w5.le
  have j2 := (Convergence.rosseland_pieces hh hk hc hT (f := fun _ => 1) continuousOn_const (B := B) hm).2 w6.le
  simp only [one_mul] at j1 j2
  have hw : ∀ ν, 0 < ν → 0 ≤ rosselandWeight h k c T ν := fun ν hν => by
    have hn := Convergence.rosselandWeight_near hh hk hc hT hν
    exact le_trans (mul_nonneg (sq_nonneg _) hn.2.2.le) hn.1
  have hg : ∀ ν, 0 < ν → 0 ≤ ρ / (α ν + S) := fun ν hν => by have := h0 ν hν; positivity
  have P1 : 0 ≤ ∫ ν in A..m, ρ / (α ν + S) * rosselandWeight h k c T ν := intervalIntegral.integral_nonneg w5.le fun ν hν =>
    mul_nonneg (hg ν (hA.trans_le hν.1)) (hw ν (hA.trans_le hν.1))
  have P2 : 0 ≤ ∫ ν in m..B, ρ / (α ν + S) * rosselandWeight h k c T ν := intervalIntegral.integral_nonneg w6.le fun ν hν =>
    mul_nonneg (hg ν (hm.trans_le hν.1)) (hw ν (hm.trans_le hν.1))
  have W1 : 0 ≤ ∫ ν in A..m, rosselandWeight h k c T ν := intervalIntegral.integral_nonneg w5.le fun ν hν => hw ν (hA.trans_le hν.1)
  have W2 : 0 ≤ ∫ ν in m..B, rosselandWeight h k c T ν := intervalIntegral.integral_nonneg w6.le fun ν hν => hw ν (hm.trans_le hν.1)
  rw [← intervalIntegral.integral_add_adjacent_intervals i1 i2, ← intervalIntegral.integral_add_adjacent_intervals j1 j2]
  rw [← intervalIntegral.integral_add_adjacent_intervals i1 i2] at hε
  generalize (∫ ν in A..m, ρ / (α ν + S) * rosselandWeight h k c T ν) = p at *
  generalize (∫ ν in m..B, ρ / (α ν + S) * rosselandWeight h k c T ν) = q at *
  generalize (∫ ν in A..m, rosselandWeight h k c T ν) = u at *
  generalize (∫ ν in m..B, rosselandWeight h k c T ν) = v at *
  have hσ : 0 < S * Real.log 10 := by positivity
  generalize S * Real.log 10 = σ at *
  have eu : u = u / (p + σ) * (p + σ) := by field_simp
  have ev : v = v / (q + σ) * (q + σ) := by field_simp
  have M1 : 0 ≤ u / (p + σ) := by positivity
  have M2 : 0 ≤ v / (q + σ) := by positivity
  generalize u / (p + σ) = x at *
  generalize v / (q + σ) = y at *
  constructor
  · rw [le_div_iff₀ (by positivity), eu, ev]
    have l1 := min_le_left x y
    have l2 := min_le_right x y
    have l3 : 0 ≤ min x y := le_min M1 M2
    generalize min x y = z at *
    nlinarith
  · rw [div_le_iff₀ (by positivity), eu, ev]
    have l1 := le_max_left x y
    have l2 := le_max_right x y
    generalize max x y = z at *
    have hz : 0 ≤ z := M1.trans l1
    have t1 : x * (p + σ) + y * (q + σ) ≤ z * (p + q + 2 * σ) := by nlinarith
    have hε0 : 0 ≤ ε * σ := by
      have : 0 < ε := by
        by_contra hneg
        have := mul_nonpos_of_nonpos_of_nonneg (not_lt.1 hneg) (add_nonneg P1 P2)
        linarith
      positivity
    have t2 : z * (p + q + 2 * σ) ≤ z * ((1 + ε) * (p + q + σ)) := by gcongr; linarith
    linarith

/-- `x³ / (1 - e⁻ˣ)` grows at least like `x²` -/
theorem cube_ratio {x y : ℝ} (hx : 0 < x) (hxy : x ≤ y) :
    (y / x) ^ 2 * (x ^ 3 / (1 - exp (-x))) ≤ y ^ 3 / (1 - exp (-y)) := by
  have hy : 0 < y := hx.trans_le hxy
  have e1 : 0 < 1 - exp (-x) := by
    have : exp (-x) < 1 := by rw [← Real.exp_zero]; exact Real.exp_lt_exp.2 (by linarith)
    linarith
  have e2 : 0 < 1 - exp (-y) := by
    have : exp (-y) < 1 := by rw [← Real.exp_zero]; exact Real.exp_lt_exp.2 (by linarith)
    linarith
  have hc := convexOn_exp.2 (Set.mem_univ (-y)) (Set.mem_univ (0 : ℝ)) (show 0 ≤ x / y by positivity)
    (show 0 ≤ 1 - x / y by rw [sub_nonneg, div_le_one hy]; exact hxy) (by ring)
  simp only [smul_eq_mul, mul_zero, add_zero, Real.exp_zero, mul_one] at hc
  rw [show x / y * -y = -x by field_simp] at hc
  have key : (1 - exp (-y)) * x ≤ (1 - exp (-x)) * y := by
    have := mul_le_mul_of_nonneg_right hc hy.le
    have e : (x / y * exp (-y) + (1 - x / y)) * y = x * exp (-y) + (y - x) := by field_simp
    rw [e] at this
    linarith
  rw [show (y / x) ^ 2 * (x ^ 3 / (1 - exp (-x))) = y ^ 2 * x / (1 - exp (-x)) by field_simp, div_le_div_iff₀ e1 e2]
  have := mul_le_mul_of_nonneg_left key (sq_nonneg y)
  nlinarith

/-- reciprocal of the bremsstrahlung coefficient in units of `kT/h`, with the floor `S` in its divisor -/
theorem brems_inv {C S x : ℝ} (hC : 0 < C) (hS : 0 < S) (hx : 0 < x) :
    0 < C * exp (-x) / (planckLaw 1 1 1 1 x + S) ∧
    1 / (C * exp (-x) / (planckLaw 1 1 1 1 x + S)) = (2 * (x ^ 3 / (1 - exp (-x))) + S * exp x) / C := by
  have e1 : 0 < 1 - exp (-x) := by
    have : exp (-x) < 1 := by rw [← Real.exp_zero]; exact Real.exp_lt_exp.2 (by linarith)
    linarith
  have e2 : exp x * exp (-x) = 1 := by rw [← Real.exp_add]; simp
  have e0 := Real.exp_pos x
  have e3 : planckLaw 1 1 1 1 x * exp x = 2 * (x ^ 3 / (1 - exp (-x))) := by
    unfold planckLaw
    have e4 : exp x - 1 = exp x * (1 - exp (-x)) := by rw [mul_sub, e2]; ring
    simp only [one_mul, mul_one, div_one, one_pow]
    rw [e4]
    field_simp
  have hp : 0 < planckLaw 1 1 1 1 x := (Convergence.planckWeight_near one_pos one_pos one_pos one_pos hx).2.2
  refine ⟨by positivity, ?_⟩
  rw [← e3, one_div, inv_div, ← add_mul, Real.exp_neg]
  field_simp

/-- the coefficient decreases, and at half the frequency it is at least twice as large -/
theorem brems_decreasing {C S x y : ℝ} (hC : 0 < C) (hS : 0 < S) (hx : 0 < x) (hxy : x ≤ y) :
    C * exp (-y) / (planckLaw 1 1 1 1 y + S) ≤ C * exp (-x) / (planckLaw 1 1 1 1 x + S) := by
  obtain ⟨p1, i1⟩ := brems_inv hC hS hx
  obtain ⟨p2, i2⟩ := brems_inv hC hS (hx.trans_le hxy)
  have h1 := cube_ratio hx hxy
  have hq : 1 ≤ (y / x) ^ 2 := one_le_pow₀ ((one_le_div hx).2 hxy)
  have e1 : 0 < 1 - exp (-x) := by
    have : exp (-x) < 1 := by rw [← Real.exp_zero]; exact Real.exp_lt_exp.2 (by linarith)
    linarith
  have h2 : x ^ 3 / (1 - exp (-x)) ≤ y ^ 3 / (1 - exp (-y)) :=
    (le_mul_of_one_le_left (by positivity) hq).trans h1
  rw [← one_div_le_one_div p1 p2, i1, i2]
  have := Real.exp_le_exp.2 hxy
  gcongr

theorem brems_twice {C S x y : ℝ} (hC : 0 < C) (hS : 0 < S) (hx : 0 < x) (hx1 : x ≤ 1) (hxy : x ≤ y) (hy : 3 ≤ (y / x) ^ 2)
    (hf : S * 3 ≤ x ^ 2) :
    2 * (C * exp (-y) / (planckLaw 1 1 1 1 y + S)) ≤ C * exp (-x) / (planckLaw 1 1 1 1 x + S) := by
  obtain ⟨p1, i1⟩ := brems_inv hC hS hx
  obtain ⟨p2, i2⟩ := brems_inv hC hS (hx.trans_le hxy)
  have h1 := cube_ratio hx hxy
  have e1 : 0 < 1 - exp (-x) := by
    have : exp (-x) < 1 := by rw [← Real.exp_zero]; exact Real.exp_lt_exp.2 (by linarith)
    linarith
  have e2 : 1 - exp (-x) ≤ x := by have := Real.add_one_le_exp (-x); linarith
  have h3 : x ^ 2 ≤ x ^ 3 / (1 - exp (-x)) := by
    rw [le_div_iff₀ e1]
    have := mul_le_mul_of_nonneg_left e2 (sq_nonneg x)
    nlinarith
  have h4 : exp x ≤ 3 := (Real.exp_le_exp.2 hx1).trans (by have := Real.exp_one_lt_d9; linarith)
  have h5 : 3 * (x ^ 3 / (1 - exp (-x))) ≤ y ^ 3 / (1 - exp (-y)) := le_trans (by gcongr) h1
  have h6 : S * exp x ≤ S * 3 := by gcongr
  have h7 : 0 < S * exp y := mul_pos hS (Real.exp_pos y)
  generalize C * exp (-y) / (planckLaw 1 1 1 1 y + S) = v at *
  generalize C * exp (-x) / (planckLaw 1 1 1 1 x + S) = u at *
  have : 2 * (1 / u) ≤ 1 / v := by
    rw [i1, i2, ← mul_div_assoc]
    gcongr
    linarith
  rw [← mul_div_assoc, mul_one, div_le_div_iff₀ p1 p2] at this
  linarith

/-- the sampled ranges of `[0, ∞)`, of `[0, 5·10⁻⁴]` and of `[5·10⁻⁴, ∞)`, in units of `kT/h` -/
theorem below_windows (S : ℝ) :
    groupFrom S 1 1 1 0 none = 1e-3 + S ∧ groupTo S 1 1 1 0 none = 1e3 + S ∧
    groupFrom S 1 1 1 0 (some 5e-4) = 2.5e-4 + S ∧ groupTo S 1 1 1 0 (some 5e-4) = 5e-4 + S ∧
    groupFrom S 1 1 1 5e-4 none = 5e-4 + S ∧ groupTo S 1 1 1 5e-4 none = 1e3 + S := by
  unfold groupFrom groupTo groupWindow window
  norm_num

/-- the Planck mean of bremsstrahlung over the union is below those of both parts, when the bound is below the thermal range -/
theorem brems_below {C S : ℝ} (hC : 0 < C) (hS : 0 < S) (hS' : S < 1e-80) {α : ℝ → ℝ}
    (hα : ∀ ν, α ν = C * exp (-ν) / (planckLaw 1 1 1 1 ν + S)) (hc : ContinuousOn α (Ioi 0)) :
    planckIntegralMean S 1 1 1 1 1 0 none α < planckIntegralMean S 1 1 1 1 1 0 (some 5e-4) α ∧
    planckIntegralMean S 1 1 1 1 1 0 none α < planckIntegralMean S 1 1 1 1 1 5e-4 none α := by
  obtain ⟨w1, w2, w3, w4, w5, w6⟩ := below_windows S
  norm_num at hS'
  have hl : Real.log 10 ≤ 9 := by have := Real.log_le_sub_one_of_pos (show (0 : ℝ) < 10 by norm_num); linarith
  have hl0 : 0 < Real.log 10 := Real.log_pos (by norm_num)
  have hσ : 0 < S * Real.log 10 := by positivity
  have hσ' : S * Real.log 10 ≤ 1e-15 := by
    calc S * Real.log 10 ≤ 1e-80 * 9 := mul_le_mul (by norm_num; linarith) hl hl0.le (by norm_num)
      _ ≤ 1e-15 := by norm_num
  have h80 : exp (-80) ≤ 1 / 2 := by
    have : exp (-80) ≤ exp (-1) := Real.exp_le_exp.2 (by norm_num)
    have := Real.exp_neg_one_lt_d9
    linarith
  have hw : ∀ ν, 0 < ν → 1 / 2 * planckLaw 1 1 1 1 ν ≤ planckWeight 1 1 1 1 ν ∧ 0 < planckLaw 1 1 1 1 ν := fun ν hν => by
    obtain ⟨n1, -, n3⟩ := Convergence.planckWeight_near (h := 1) (k := 1) (c := 1) one_pos one_pos one_pos (one_pos (α := ℝ)) hν
    exact ⟨le_trans (by gcongr; linarith) n1, n3⟩
  have hw0 : ∀ ν, 0 < ν → 0 ≤ planckWeight 1 1 1 1 ν := fun ν hν => le_trans (by have := (hw ν hν).2; positivity) (hw ν hν).1
  have hlow : ∀ a b : ℝ, 2e-4 ≤ a → a + 2e-4 ≤ b → b ≤ 1 → 1e-12 ≤ ∫ ν in a..b, planckWeight 1 1 1 1 ν := by
    intro a b ha hab hb1
    norm_num at ha hab
    have ha0 : 0 < a := by linarith
    have j := (Convergence.planck_pieces one_pos one_pos one_pos one_pos (h := 1) (k := 1) (c := 1) (T := 1) (f := fun _ => 1)
      continuousOn_const (B := b) ha0).2 (by linarith)
    simp only [one_mul] at j
    have hmono : ∫ ν in a..b, (1e-8 : ℝ) ≤ ∫ ν in a..b, planckWeight 1 1 1 1 ν := by
      refine intervalIntegral.integral_mono_on (by linarith) (by simp) j fun ν hν => ?_
      have hν0 : 0 < ν := ha0.trans_le hν.1
      refine le_trans ?_ (hw ν hν0).1
      have he : exp ν - 1 ≤ 2 * ν := by
        have hb := hν.2
        have := Real.abs_exp_sub_one_le (x := ν) (by rw [abs_of_pos hν0]; linarith)
        rw [abs_of_pos hν0] at this
        exact (le_abs_self _).trans this
      have he0 : 0 < exp ν - 1 := by have := Real.add_one_lt_exp hν0.ne'; linarith
      unfold planckLaw
      simp only [one_mul, mul_one, div_one, one_pow]
      rw [← mul_div_assoc, le_div_iff₀ he0]
      have := hν.1
      have h2 : 1e-8 * (exp ν - 1) ≤ 1e-8 * (2 * ν) := by gcongr
      have h3 : (2e-4) ^ 2 * ν ≤ ν ^ 2 * ν := by gcongr; norm_num; linarith
      norm_num at h2 h3 ⊢
      nlinarith
    refine le_trans ?_ hmono
    simp only [intervalIntegral.integral_const, smul_eq_mul]
    norm_num
    linarith
  -- the two frequencies at which the coefficient is compared
  have hp : ∀ ν, 0 < ν → 0 < α ν := fun ν hν => by rw [hα]; exact (brems_inv hC hS hν).1
  have hdec : ∀ x y, 0 < x → x ≤ y → α y ≤ α x := fun x y hx hxy => by rw [hα, hα]; exact brems_decreasing hC hS hx hxy
  have htw : 2 * α (1e-3 + S) ≤ α (5e-4 + S) := by
    rw [hα, hα]
    refine brems_twice hC hS (by positivity) (by norm_num; linarith) (by norm_num) ?_ ?_
    · rw [← sq_sqrt (show (0 : ℝ) ≤ 3 by norm_num)]
      have : Real.sqrt 3 ≤ 1.8 := by
        rw [Real.sqrt_le_left (by norm_num)]; norm_num
      refine pow_le_pow_left₀ (Real.sqrt_nonneg 3) ?_ 2
      rw [le_div_iff₀ (by positivity)]
      have h4 : Real.sqrt 3 * (5e-4 + S) ≤ 1.8 * (5e-4 + S) := by gcongr
      norm_num at h4 ⊢
      linarith
    · have : (5e-4 : ℝ) ^ 2 ≤ (5e-4 + S) ^ 2 := by gcongr; linarith
      norm_num at this ⊢
      linarith
  unfold planckIntegralMean
  rw [w1, w2, w3, w4, w5, w6]
  simp only [div_one]
  have n1 : (0 : ℝ) < 2.5e-4 + S := by positivity
  have n2 : (0 : ℝ) < 5e-4 + S := by positivity
  have n3 : (0 : ℝ) < 1e-3 + S := by positivity
  have l12 : (2.5e-4 + S : ℝ) ≤ 5e-4 + S := by norm_num
  have l23 : (5e-4 + S : ℝ) ≤ 1e-3 + S := by norm_num
  have l34 : (1e-3 + S : ℝ) ≤ 1e3 + S := by norm_num
  have pw : ∀ {a b : ℝ}, 0 < a → a ≤ b → IntervalIntegrable (planckWeight 1 1 1 1) volume a b := by
    intro a b ha hab
    have := (Convergence.planck_pieces one_pos one_pos one_pos one_pos (h := 1) (k := 1) (c := 1) (T := 1) (f := fun _ => 1)
      continuousOn_const (B := b) ha).2 hab
    simpa only [one_mul] using this
  have pa : ∀ {a b : ℝ}, 0 < a → a ≤ b → IntervalIntegrable (fun ν => α ν * planckWeight 1 1 1 1 ν) volume a b := by
    intro a b ha hab
    exact (Convergence.planck_pieces one_pos one_pos one_pos one_pos (h := 1) (k := 1) (c := 1) (T := 1) hc (B := b) ha).2 hab
  have above : ∀ a b : ℝ, 0 < a → a ≤ b → α b * ∫ ν in a..b, planckWeight 1 1 1 1 ν ≤ ∫ ν in a..b, α ν * planckWeight 1 1 1 1 ν := by
    intro a b ha hab
    rw [← intervalIntegral.integral_const_mul]
    refine intervalIntegral.integral_mono_on hab ((pw ha hab).const_mul _) (pa ha hab) fun ν hν => ?_
    exact mul_le_mul_of_nonneg_right (hdec ν b (ha.trans_le hν.1) hν.2) (hw0 ν (ha.trans_le hν.1))
  have below : ∀ a b : ℝ, 0 < a → a ≤ b → ∫ ν in a..b, α ν * planckWeight 1 1 1 1 ν ≤ α a * ∫ ν in a..b, planckWeight 1 1 1 1 ν := by
    intro a b ha hab
    rw [← intervalIntegral.integral_const_mul]
    refine intervalIntegral.integral_mono_on hab (pa ha hab) ((pw ha hab).const_mul _) fun ν hν => ?_
    exact mul_le_mul_of_nonneg_right (hdec a ν ha hν.1) (hw0 ν (ha.trans_le hν.1))
  have A1 := above _ _ n1 l12
  have A2 := above _ _ n2 l23
  have A3 := below _ _ n3 l34
  have Wa := hlow (2.5e-4 + S) (5e-4 + S) (by norm_num; linarith) (by norm_num; linarith) (by norm_num; linarith)
  have Wb := hlow (5e-4 + S) (1e-3 + S) (by norm_num; linarith) (by norm_num; linarith) (by norm_num; linarith)
  have Wc : 0 ≤ ∫ ν in (1e-3 + S)..(1e3 + S), planckWeight 1 1 1 1 ν :=
    intervalIntegral.integral_nonneg l34 fun ν hν => hw0 ν (n3.trans_le hν.1)
  have hq := hp _ n3
  rw [← intervalIntegral.integral_add_adjacent_intervals (pa n2 l23) (pa n3 l34),
    ← intervalIntegral.integral_add_adjacent_intervals (pw n2 l23) (pw n3 l34)]
  generalize (∫ ν in (1e-3 + S)..(1e3 + S), planckWeight 1 1 1 1 ν) = W at *
  generalize (∫ ν in (1e-3 + S)..(1e3 + S), α ν * planckWeight 1 1 1 1 ν) = P at *
  generalize (∫ ν in (5e-4 + S)..(1e-3 + S), planckWeight 1 1 1 1 ν) = W2 at *
  generalize (∫ ν in (5e-4 + S)..(1e-3 + S), α ν * planckWeight 1 1 1 1 ν) = P2 at *
  generalize (∫ ν in (2.5e-4 + S)..(5e-4 + S), planckWeight 1 1 1 1 ν) = W1 at *
  generalize (∫ ν in (2.5e-4 + S)..(5e-4 + S), α ν * planckWeight 1 1 1 1 ν) = P1 at *
  generalize α (1e-3 + S) = a at *
  generalize α (5e-4 + S) = a' at *
  generalize S * Real.log 10 = σ at *
  norm_num at hσ' Wa Wb
  have hlt : P / (W + σ) < a := by
    rw [div_lt_iff₀ (by positivity)]
    have := mul_pos hq hσ
    linarith
  constructor
  · refine hlt.trans_le ?_
    rw [le_div_iff₀ (by linarith)]
    have h1 : 2 * a * W1 ≤ a' * W1 := by gcongr
    have h2 : a * σ ≤ a * W1 := by gcongr; linarith
    linarith
  · have hW2 : 0 < W2 := by linarith
    rw [div_lt_div_iff₀ (by positivity) (by positivity)]
    rw [div_lt_iff₀ (by positivity)] at hlt
    have h1 : P * W2 < a * (W + σ) * W2 := by gcongr
    have h2 : a * W2 * (W + σ) ≤ P2 * (W + σ) := by gcongr
    nlinarith

/-- weight of a range that includes half of `[1/2, 2]` -/
theorem rosseland_part {a b x : ℝ} (ha : 0 < a) (hax : a ≤ x) (hx : 0.5 ≤ x) (hx' : x + 0.5 ≤ 2) (hxb : x + 0.5 ≤ b) :
    1e-3 ≤ ∫ ν in a..b, rosselandWeight 1 1 1 1 ν := by
  norm_num at hx hx' hxb
  have pw : ∀ {a b : ℝ}, 0 < a → a ≤ b → IntervalIntegrable (rosselandWeight 1 1 1 1) volume a b := by
    intro a b ha hab
    have := (Convergence.rosseland_pieces one_pos one_pos one_pos one_pos (h := 1) (k := 1) (c := 1) (T := 1) (f := fun _ => 1)
      continuousOn_const (B := b) ha).2 hab
    simpa only [one_mul] using this
  have hw : ∀ ν, 0 < ν → 0 ≤ rosselandWeight 1 1 1 1 ν := fun ν hν => by
    have hn := Convergence.rosselandWeight_near (h := 1) (k := 1) (c := 1) one_pos one_pos one_pos (one_pos (α := ℝ)) hν
    exact le_trans (mul_nonneg (sq_nonneg _) hn.2.2.le) hn.1
  have h1 : ∫ ν in x..(x + 1 / 2), (1e-2 : ℝ) ≤ ∫ ν in x..(x + 1 / 2), rosselandWeight 1 1 1 1 ν := by
    refine intervalIntegral.integral_mono_on (by linarith) (by simp) (pw (by linarith) (by linarith)) fun ν hν => ?_
    have hν1 : 1 / 2 ≤ ν := hx.trans hν.1
    have hν2 : ν ≤ 2 := hν.2.trans hx'
    have e1 : 0.36 ^ 2 ≤ exp (-ν) := by
      have h1 : (0.36 : ℝ) ≤ exp (-1) := by have := Real.exp_neg_one_gt_d9; linarith
      calc (0.36 : ℝ) ^ 2 ≤ exp (-1) ^ 2 := by gcongr
        _ = exp (-2) := by rw [← Real.exp_nat_mul]; norm_num
        _ ≤ exp (-ν) := Real.exp_le_exp.2 (by linarith)
    have e2 : exp (-ν) < 1 := by rw [← Real.exp_zero]; exact Real.exp_lt_exp.2 (by linarith)
    have e3 : (1 - exp (-ν)) ^ 2 ≤ 1 := pow_le_one₀ (by linarith) (by have := Real.exp_pos (-ν); linarith)
    have e4 : 0 < (1 - exp (-ν)) ^ 2 := by have : 0 < 1 - exp (-ν) := by linarith
                                           positivity
    unfold rosselandWeight planckLawDT
    simp only [one_mul, mul_one, div_one, one_pow]
    rw [if_pos (by linarith), le_div_iff₀ e4]
    have e5 : (1 / 2 : ℝ) ^ 4 ≤ ν ^ 4 := by gcongr
    calc (1e-2 : ℝ) * (1 - exp (-ν)) ^ 2 ≤ 1e-2 * 1 := by gcongr
      _ ≤ 2 * (1 / 2) ^ 4 * 0.36 ^ 2 := by norm_num
      _ ≤ 2 * ν ^ 4 * exp (-ν) := by gcongr
  have h2 : ∫ ν in x..(x + 1 / 2), rosselandWeight 1 1 1 1 ν ≤ ∫ ν in a..b, rosselandWeight 1 1 1 1 ν := by
    refine intervalIntegral.integral_mono_interval hax (by linarith) hxb ?_ (pw ha (by linarith))
    exact (ae_restrict_iff' measurableSet_Ioc).2 (Eventually.of_forall fun ν hν => hw ν (ha.trans hν.1))
  rw [intervalIntegral.integral_const, smul_eq_mul] at h1
  norm_num at h1 ⊢
  linarith

end Opac.WholeSpectrum
