import Verif.Lemmas.WholeSpectrum

/-!
# Sums over groups
-/

namespace Opac.WholeSpectrum
open Opac Spec MeasureTheory Set Real Filter Topology Finset

variable {h k c T : ℝ}

/-- bound of the thermal intensity -/
theorem law_le (hh : 0 < h) (hk : 0 < k) (hc : 0 < c) (hT : 0 < T) {ν : ℝ} (hν : 0 < ν) :
    planckLaw h k c T ν ≤ h / (k * T) * ∫ ν in Ioi (0 : ℝ), planckLaw h k c T ν := by
  rw [(law_integral hh hk hc hT).2]
  obtain ⟨x, hx⟩ : ∃ x, x = h * ν / (k * T) := ⟨_, rfl⟩
  have eν : ν = k * T / h * x := by rw [hx]; field_simp
  have hx0 : 0 < x := by rw [hx]; positivity
  have he : x ^ 3 / 6 ≤ exp x - 1 := by
    have := Real.sum_le_exp_of_nonneg hx0.le 4
    simp [Finset.sum_range_succ, Nat.factorial] at this
    have h2 : 0 < x ^ 2 := by positivity
    linarith
  have h6 : x ^ 3 / (exp x - 1) ≤ 6 := by
    rw [div_le_iff₀ (lt_of_lt_of_le (by positivity) he)]
    linarith
  have hπ : (97 : ℝ) ≤ π ^ 4 := by
    have : (3.14 : ℝ) ^ 4 ≤ π ^ 4 := pow_le_pow_left₀ (by norm_num) Real.pi_gt_d2.le 4
    norm_num at this
    linarith
  have e1 : planckLaw h k c T ν = 2 * ((k * T) ^ 3 / (h ^ 2 * c ^ 2)) * (x ^ 3 / (exp x - 1)) := by
    unfold planckLaw
    rw [← hx]
    nth_rw 1 [eν]
    field_simp
  have e2 : h / (k * T) * (2 * π ^ 4 / 15 * ((k * T) ^ 4 / (h ^ 3 * c ^ 2))) =
      2 * ((k * T) ^ 3 / (h ^ 2 * c ^ 2)) * (π ^ 4 / 15) := by field_simp
  rw [e1, e2]
  exact mul_le_mul_of_nonneg_left (by linarith) (by positivity)

/-- a step of length `S` holds at most `S` times the bound -/
theorem law_step (hh : 0 < h) (hk : 0 < k) (hc : 0 < c) (hT : 0 < T) {x S : ℝ} (hx : 0 ≤ x) (hS : 0 < S) :
    ∫ ν in Ioc x (x + S), planckLaw h k c T ν ≤ S * (h / (k * T) * ∫ ν in Ioi (0 : ℝ), planckLaw h k c T ν) := by
  obtain ⟨i, -⟩ := law_integral hh hk hc hT
  have := setIntegral_mono_on (i.mono_set fun y hy => lt_of_le_of_lt hx hy.1)
    (integrableOn_const (C := h / (k * T) * ∫ ν in Ioi (0 : ℝ), planckLaw h k c T ν) (by simp)) measurableSet_Ioc
    (fun ν (hν : ν ∈ Ioc x (x + S)) => law_le hh hk hc hT (lt_of_le_of_lt hx hν.1))
  refine this.trans (le_of_eq ?_)
  rw [setIntegral_const, smul_eq_mul, Measure.real, Real.volume_Ioc, ENNReal.toReal_ofReal (by linarith)]
  ring

/-- the frequencies of a group -/
def groupSet (lo : ℝ) (up : Option ℝ) : Set ℝ := {ν | lo < ν ∧ ∀ x ∈ up, ν ≤ x}

theorem groupSet_measurable (lo : ℝ) (up : Option ℝ) : MeasurableSet (groupSet lo up) := by
  rcases up with _ | x
  · have : groupSet lo none = Ioi lo := by ext ν; simp [groupSet]
    rw [this]; exact measurableSet_Ioi
  · have : groupSet lo (some x) = Ioc lo x := by ext ν; simp [groupSet]
    rw [this]; exact measurableSet_Ioc

theorem groupSet_pos {lo : ℝ} {up : Option ℝ} (hlo : 0 ≤ lo) : groupSet lo up ⊆ Ioi 0 := fun _ hν => lt_of_le_of_lt hlo hν.1

/-- two integrals over different sets -/
theorem diff_sets {f : ℝ → ℝ} {G D : Set ℝ} (hf : IntegrableOn f (Ioi 0)) (hf0 : ∀ ν, 0 < ν → 0 ≤ f ν) (hG : MeasurableSet G)
    (hD : MeasurableSet D) (hG0 : G ⊆ Ioi 0) (hD0 : D ⊆ Ioi 0) :
    |(∫ ν in G, f ν) - ∫ ν in D, f ν| ≤ (∫ ν in G \ D, f ν) + ∫ ν in D \ G, f ν := by
  have e1 := integral_inter_add_diff hD (hf.mono_set hG0)
  have e2 := integral_inter_add_diff hG (hf.mono_set hD0)
  rw [Set.inter_comm] at e2
  have n1 : 0 ≤ ∫ ν in G \ D, f ν := setIntegral_nonneg (hG.diff hD) fun ν hν => hf0 ν (hG0 hν.1)
  have n2 : 0 ≤ ∫ ν in D \ G, f ν := setIntegral_nonneg (hD.diff hG) fun ν hν => hf0 ν (hD0 hν.1)
  rw [← e1, ← e2, abs_le]
  constructor <;> linarith

/-- the range sampled for a group, without the offset: the part of the group within the thermal range, or the group is outside
of the thermal range -/
theorem range_cases (hh : 0 < h) (hk : 0 < k) (hT : 0 < T) (S : ℝ) {lo : ℝ} {up : Option ℝ} (hup : ∀ x ∈ up, lo < x) :
    (∃ a b, groupFrom S h k T lo up = a + S ∧ groupTo S h k T lo up = b + S ∧ a < b ∧ lo ≤ a ∧ (∀ x ∈ up, b ≤ x) ∧
      (a = lo ∨ a = 1e-3 * (k * T / h)) ∧ (up = some b ∨ b = 1e3 * (k * T / h))) ∨
    (∀ x ∈ groupSet lo up, x ≤ 1e-3 * (k * T / h)) ∨ 1e3 * (k * T / h) ≤ lo := by
  have hq : 0 < k * T / h := by positivity
  have e1 : 1e-3 * k * T / h = 1e-3 * (k * T / h) := by ring
  have e2 : 1e3 * k * T / h = 1e3 * (k * T / h) := by ring
  unfold groupFrom groupTo groupWindow window
  simp only [e1, e2]
  obtain ⟨a, ha⟩ : ∃ a, a = (if lo = 0 ∨ lo < 0.1 * (1e-3 * (k * T / h)) then 1e-3 * (k * T / h) else lo) := ⟨_, rfl⟩
  have ha1 : lo ≤ a := by
    rw [ha]; split_ifs with hc
    · rcases hc with hc | hc
      · rw [hc]; positivity
      · norm_num at hc ⊢; linarith
    · exact le_refl lo
  have ha2 : a = lo ∨ a = 1e-3 * (k * T / h) := by rw [ha]; split_ifs <;> simp
  rw [← ha]
  rcases up with _ | x
  · simp only
    by_cases hab : 1e3 * (k * T / h) ≤ a
    · right; right
      rcases ha2 with e | e
      · rwa [← e]
      · rw [e] at hab; norm_num at hab; linarith
    · left
      rw [if_neg hab]
      exact ⟨a, _, rfl, rfl, not_le.1 hab, ha1, by simp, ha2, Or.inr rfl⟩
  · simp only
    have hx := hup x rfl
    obtain ⟨b, hb⟩ : ∃ b, b = (if 10 * (1e3 * (k * T / h)) < x then 1e3 * (k * T / h) else x) := ⟨_, rfl⟩
    have hb1 : b ≤ x := by
      rw [hb]; split_ifs with hc
      · norm_num at hc ⊢; linarith
      · exact le_refl x
    have hb2 : some x = some b ∨ b = 1e3 * (k * T / h) := by rw [hb]; split_ifs <;> simp
    rw [← hb]
    by_cases hab : b ≤ a
    · right
      rcases hb2 with e | e
      · obtain rfl : x = b := by simpa using e
        left
        rcases ha2 with e' | e'
        · rw [e'] at hab; linarith
        · intro y hy
          exact (hy.2 x rfl).trans (e' ▸ hab)
      · right
        rcases ha2 with e' | e'
        · rw [e, e'] at hab; exact hab
        · rw [e, e'] at hab; norm_num at hab; linarith
    · left
      rw [if_neg hab]
      exact ⟨a, b, rfl, rfl, not_le.1 hab, ha1, by simpa using hb1, ha2, hb2⟩

/-- thermal intensity outside of the thermal range, in the group -/
noncomputable def outside (h k c T : ℝ) (lo : ℝ) (up : Option ℝ) : ℝ :=
  ∫ ν in groupSet lo up, (Iic (1e-3 * (k * T / h)) ∪ Ioi (1e3 * (k * T / h))).indicator (planckLaw h k c T) ν

set_option maxHeartbeats 1000000 in
/-- the mean of a group times the intensity of the group is the weighted integral over the group -/
theorem group_emission (hh : 0 < h) (hk : 0 < k) (hc : 0 < c) (hT : 0 < T) {S ρ : ℝ} (hS : 0 < S) (hρ : 0 < ρ) {α : ℝ → ℝ}
    {K : ℝ} (hα : ContinuousOn α (Ioi 0)) (h0 : ∀ ν, 0 < ν → 0 ≤ α ν) (hK : ∀ ν, 0 < ν → α ν ≤ K) {lo : ℝ} {up : Option ℝ}
    (hlo : 0 ≤ lo) (hup : ∀ x ∈ up, lo < x)
    (hA : 0 < groupFrom S h k T lo up) (hAB : groupFrom S h k T lo up < groupTo S h k T lo up) {δ : ℝ}
    (hδ : δ = S * (h / (k * T) * ∫ ν in Ioi (0 : ℝ), planckLaw h k c T ν)) :
    |planckIntegralMean S h k c ρ T lo up α * (∫ ν in groupSet lo up, planckLaw h k c T ν) -
      ∫ ν in groupSet lo up, α ν / ρ * planckLaw h k c T ν| ≤
    K / ρ * (2.1 * (outside h k c T lo up + 2 * δ) + 2 * exp (-80) * (∫ ν in groupSet lo up, planckLaw h k c T ν) +
      S * Real.log 10) := by
  have hq : 0 < k * T / h := by positivity
  obtain ⟨i, -⟩ := law_integral hh hk hc hT
  have hL : ∀ ν, 0 < ν → 0 ≤ planckLaw h k c T ν := fun ν hν => law_nonneg hh hk hc hT hν
  have hl10 : 0 < Real.log 10 := Real.log_pos (by norm_num)
  have hK0 : 0 ≤ K := (h0 1 one_pos).trans (hK 1 one_pos)
  have h80 := exp_neg_80
  have h80' := Real.exp_pos (-80)
  obtain ⟨f, hf⟩ : ∃ f : ℝ → ℝ, f = fun ν => α ν / ρ * planckLaw h k c T ν := ⟨_, rfl⟩
  have hf0 : ∀ ν, 0 < ν → 0 ≤ f ν := fun ν hν => by rw [hf]; exact mul_nonneg (div_nonneg (h0 ν hν) hρ.le) (hL ν hν)
  have hfK : ∀ ν, 0 < ν → f ν ≤ K / ρ * planckLaw h k c T ν := fun ν hν => by
    rw [hf]; exact mul_le_mul_of_nonneg_right (by have := hK ν hν; gcongr) (hL ν hν)
  have hfi : IntegrableOn f (Ioi 0) := by
    refine (i.const_mul (K / ρ)).mono' ?_ ?_
    · rw [hf]
      exact ((hα.div_const ρ).mul (Convergence.cont_planckLaw hh hk hc hT)).aestronglyMeasurable measurableSet_Ioi
    · refine (ae_restrict_iff' measurableSet_Ioi).2 (Eventually.of_forall fun ν hν => ?_)
      rw [Real.norm_of_nonneg (hf0 ν hν)]
      exact hfK ν hν
  obtain ⟨G, hG⟩ : ∃ G, G = groupSet lo up := ⟨_, rfl⟩
  have mG : MeasurableSet G := hG ▸ groupSet_measurable lo up
  have G0 : G ⊆ Ioi 0 := hG ▸ groupSet_pos hlo
  have le_of_sub : ∀ {X : Set ℝ}, MeasurableSet X → X ⊆ Ioi 0 → 0 ≤ (∫ ν in X, f ν) ∧
      (∫ ν in X, f ν) ≤ K / ρ * ∫ ν in X, planckLaw h k c T ν := by
    intro X mX hX
    refine ⟨setIntegral_nonneg mX fun ν hν => hf0 ν (hX hν), ?_⟩
    rw [← integral_const_mul]
    exact setIntegral_mono_on (hfi.mono_set hX) ((i.mono_set hX).const_mul _) mX fun ν hν => hfK ν (hX hν)
  have hB0 : 0 ≤ ∫ ν in G, planckLaw h k c T ν := setIntegral_nonneg mG fun ν hν => hL ν (G0 hν)
  have hI : 0 ≤ ∫ ν in Ioi (0 : ℝ), planckLaw h k c T ν := setIntegral_nonneg measurableSet_Ioi fun ν hν => hL ν hν
  have hδ0 : 0 ≤ δ := by rw [hδ]; positivity
  have mO : MeasurableSet (Iic (1e-3 * (k * T / h)) ∪ Ioi (1e3 * (k * T / h))) := measurableSet_Iic.union measurableSet_Ioi
  have eO : outside h k c T lo up = ∫ ν in G ∩ (Iic (1e-3 * (k * T / h)) ∪ Ioi (1e3 * (k * T / h))), planckLaw h k c T ν := by
    unfold outside
    rw [setIntegral_indicator mO, hG]
  have hO0 : 0 ≤ outside h k c T lo up := by
    rw [eO]; exact setIntegral_nonneg (mG.inter mO) fun ν hν => hL ν (G0 hν.1)
  -- the weighted integrals over the sampled range
  obtain ⟨W, hW⟩ : ∃ W, W = ∫ ν in groupFrom S h k T lo up..groupTo S h k T lo up, planckWeight h k c T ν := ⟨_, rfl⟩
  obtain ⟨P, hP⟩ : ∃ P, P = ∫ ν in groupFrom S h k T lo up..groupTo S h k T lo up, α ν / ρ * planckWeight h k c T ν := ⟨_, rfl⟩
  obtain ⟨V, hV⟩ : ∃ V, V = ∫ ν in groupFrom S h k T lo up..groupTo S h k T lo up, planckLaw h k c T ν := ⟨_, rfl⟩
  obtain ⟨Q, hQ⟩ : ∃ Q, Q = ∫ ν in groupFrom S h k T lo up..groupTo S h k T lo up, f ν := ⟨_, rfl⟩
  have near := fun ν (hν : 0 < ν) => Convergence.planckWeight_near hh hk hc hT hν
  have hw0 : ∀ ν, 0 < ν → 0 ≤ planckWeight h k c T ν := fun ν hν =>
    le_trans (mul_nonneg (by norm_num at h80; linarith) (near ν hν).2.2.le) (near ν hν).1
  have pa := (Convergence.planck_pieces hh hk hc hT (hα.div_const ρ) hA).2 hAB.le
  have pw := (Convergence.planck_pieces hh hk hc hT (f := fun _ => 1) continuousOn_const hA).2 hAB.le
  simp only [one_mul] at pw
  have sub : Ioc (groupFrom S h k T lo up) (groupTo S h k T lo up) ⊆ Ioi 0 := fun ν hν => hA.trans hν.1
  have pl : IntervalIntegrable (planckLaw h k c T) volume (groupFrom S h k T lo up) (groupTo S h k T lo up) :=
    (intervalIntegrable_iff_integrableOn_Ioc_of_le hAB.le).2 (i.mono_set sub)
  have pf : IntervalIntegrable f volume (groupFrom S h k T lo up) (groupTo S h k T lo up) :=
    (intervalIntegrable_iff_integrableOn_Ioc_of_le hAB.le).2 (hfi.mono_set sub)
  have W1 : (1 - exp (-80)) * V ≤ W := by
    rw [hW, hV, ← intervalIntegral.integral_const_mul]
    exact intervalIntegral.integral_mono_on hAB.le (pl.const_mul _) pw fun ν hν => (near ν (hA.trans_le hν.1)).1
  have W2 : W ≤ V := by
    rw [hW, hV]
    exact intervalIntegral.integral_mono_on hAB.le pw pl fun ν hν => (near ν (hA.trans_le hν.1)).2.1
  have W0 : 0 ≤ W := by rw [hW]; exact intervalIntegral.integral_nonneg hAB.le fun ν hν => hw0 ν (hA.trans_le hν.1)
  have V0 : 0 ≤ V := W0.trans W2
  have P1 : (1 - exp (-80)) * Q ≤ P := by
    rw [hP, hQ, ← intervalIntegral.integral_const_mul]
    refine intervalIntegral.integral_mono_on hAB.le (pf.const_mul _) pa fun ν hν => ?_
    have hν0 := hA.trans_le hν.1
    rw [hf]
    have := mul_le_mul_of_nonneg_left (near ν hν0).1 (div_nonneg (h0 ν hν0) hρ.le)
    simp only
    linarith
  have P2 : P ≤ Q := by
    rw [hP, hQ]
    refine intervalIntegral.integral_mono_on hAB.le pa pf fun ν hν => ?_
    have hν0 := hA.trans_le hν.1
    rw [hf]
    exact mul_le_mul_of_nonneg_left (near ν hν0).2.1 (div_nonneg (h0 ν hν0) hρ.le)
  have P3 : 0 ≤ P ∧ P ≤ K / ρ * W := by
    rw [hP, hW, ← intervalIntegral.integral_const_mul]
    constructor
    · exact intervalIntegral.integral_nonneg hAB.le fun ν hν =>
        mul_nonneg (div_nonneg (h0 ν (hA.trans_le hν.1)) hρ.le) (hw0 ν (hA.trans_le hν.1))
    · refine intervalIntegral.integral_mono_on hAB.le pa (pw.const_mul _) fun ν hν => ?_
      have hν0 := hA.trans_le hν.1
      exact mul_le_mul_of_nonneg_right (by have := hK ν hν0; gcongr) (hw0 ν hν0)
  have Q1 : Q ≤ K / ρ * V := by
    have := (le_of_sub measurableSet_Ioc sub).2
    rwa [← intervalIntegral.integral_of_le hAB.le, ← intervalIntegral.integral_of_le hAB.le, ← hQ, ← hV] at this
  obtain ⟨σ, hσ⟩ : ∃ σ, σ = S * Real.log 10 := ⟨_, rfl⟩
  have hσ0 : 0 < σ := by rw [hσ]; positivity
  obtain ⟨M, hM⟩ : ∃ M, M = planckIntegralMean S h k c ρ T lo up α := ⟨_, rfl⟩
  have eM : M * (W + σ) = P := by
    rw [hM, hσ]
    unfold planckIntegralMean
    rw [← hP, ← hW]
    have : 0 < S * Real.log 10 := by positivity
    field_simp
  have M0 : 0 ≤ M := by
    have : 0 ≤ M * (W + σ) := eM ▸ P3.1
    exact nonneg_of_mul_nonneg_left this (by linarith)
  have MK : M ≤ K / ρ := by
    have : M * (W + σ) ≤ K / ρ * (W + σ) := by
      rw [eM]; refine P3.2.trans ?_
      have : 0 ≤ K / ρ * σ := by positivity
      linarith
    exact le_of_mul_le_mul_right this (by linarith)
  rw [← hG, ← hσ, ← hM, ← hf]
  obtain ⟨B, hB⟩ : ∃ B, B = ∫ ν in G, planckLaw h k c T ν := ⟨_, rfl⟩
  obtain ⟨J, hJ⟩ : ∃ J, J = ∫ ν in G, f ν := ⟨_, rfl⟩
  obtain ⟨j0, j1⟩ := le_of_sub mG G0
  rw [← hB] at hB0 j1 ⊢
  rw [← hJ] at j0 j1 ⊢
  have hKρ : 0 ≤ K / ρ := by positivity
  have MB : M * B ≤ K / ρ * B := mul_le_mul_of_nonneg_right MK hB0
  have MB0 : 0 ≤ M * B := mul_nonneg M0 hB0
  -- a group outside of the thermal range
  have fallback : B ≤ outside h k c T lo up → |M * B - J| ≤
      K / ρ * (2.1 * (outside h k c T lo up + 2 * δ) + 2 * exp (-80) * B + σ) := by
    intro hle
    have : K / ρ * B ≤ K / ρ * (2.1 * (outside h k c T lo up + 2 * δ) + 2 * exp (-80) * B + σ) := by
      refine mul_le_mul_of_nonneg_left ?_ hKρ
      have : 0 ≤ 2 * exp (-80) * B := by positivity
      norm_num
      linarith
    rw [abs_le]
    constructor <;> linarith
  rcases range_cases hh hk hT S hup with ⟨a, b, ea, eb, hab, hla, hbu, ca, cb⟩ | hh1 | hh2
  · have mD : MeasurableSet (Ioc (a + S) (b + S)) := measurableSet_Ioc
    rw [ea, eb] at sub hQ hV
    rw [intervalIntegral.integral_of_le (by linarith)] at hQ hV
    have a0 : 0 ≤ a := hlo.trans hla
    have hout : (∫ ν in G \ Ioc (a + S) (b + S), planckLaw h k c T ν) + (∫ ν in Ioc (a + S) (b + S) \ G, planckLaw h k c T ν) ≤
        outside h k c T lo up + 2 * δ := by
      have s1 : G \ Ioc (a + S) (b + S) ⊆ (G ∩ (Iic (1e-3 * (k * T / h)) ∪ Ioi (1e3 * (k * T / h)))) ∪ Ioc a (a + S) := by
        rintro ν ⟨hν, hn⟩
        by_cases c1 : ν ≤ a
        · left
          refine ⟨hν, Or.inl ?_⟩
          rcases ca with e | e
          · rw [hG] at hν; rw [e] at c1; exact absurd hν.1 (not_lt.2 c1)
          · rw [← e]; exact c1
        · by_cases c2 : ν ≤ a + S
          · right; exact ⟨not_le.1 c1, c2⟩
          · have c3 : b + S < ν := by
              by_contra hneg
              exact hn ⟨not_le.1 c2, not_lt.1 hneg⟩
            left
            refine ⟨hν, Or.inr ?_⟩
            rcases cb with e | e
            · rw [hG] at hν
              have := hν.2 b e
              linarith
            · rw [← e]; show b < ν; linarith
      have s2 : Ioc (a + S) (b + S) \ G ⊆ Ioc b (b + S) := by
        rintro ν ⟨hν, hn⟩
        refine ⟨?_, hν.2⟩
        by_contra hneg
        refine hn ?_
        rw [hG]
        exact ⟨by linarith [hν.1], fun x hx => (not_lt.1 hneg).trans (hbu x hx)⟩
      have n0 : ∀ {X : Set ℝ}, MeasurableSet X → X ⊆ Ioi 0 → 0 ≤ᵐ[volume.restrict X] planckLaw h k c T := fun mX hX =>
        (ae_restrict_iff' mX).2 (Eventually.of_forall fun ν hν => hL ν (hX hν))
      have x1 : G ∩ (Iic (1e-3 * (k * T / h)) ∪ Ioi (1e3 * (k * T / h))) ⊆ Ioi 0 := fun ν hν => G0 hν.1
      have x2 : Ioc a (a + S) ⊆ Ioi 0 := fun ν hν => lt_of_le_of_lt a0 hν.1
      have x3 : Ioc b (b + S) ⊆ Ioi 0 := fun ν hν => lt_of_le_of_lt (a0.trans hab.le) hν.1
      have t1 : ∫ ν in G \ Ioc (a + S) (b + S), planckLaw h k c T ν ≤ outside h k c T lo up + δ := by
        have hm := setIntegral_mono_set (i.mono_set (Set.union_subset x1 x2)) (n0 ((mG.inter mO).union measurableSet_Ioc)
          (Set.union_subset x1 x2)) s1.eventuallyLE
        refine hm.trans ?_
        have e3 := Set.union_sdiff_self (s := G ∩ (Iic (1e-3 * (k * T / h)) ∪ Ioi (1e3 * (k * T / h)))) (t := Ioc a (a + S))
        rw [← e3, setIntegral_union Set.disjoint_sdiff_right (measurableSet_Ioc.diff (mG.inter mO)) (i.mono_set x1)
          (i.mono_set (Set.sdiff_subset.trans x2)), ← eO]
        have := setIntegral_mono_set (i.mono_set x2) (n0 measurableSet_Ioc x2)
          (Set.sdiff_subset (s := Ioc a (a + S)) (t := G ∩ (Iic (1e-3 * (k * T / h)) ∪ Ioi (1e3 * (k * T / h))))).eventuallyLE
        have := law_step hh hk hc hT a0 hS
        rw [← hδ] at this
        linarith
      have t2 : ∫ ν in Ioc (a + S) (b + S) \ G, planckLaw h k c T ν ≤ δ := by
        have := setIntegral_mono_set (i.mono_set x3) (n0 measurableSet_Ioc x3) s2.eventuallyLE
        have h3 := law_step hh hk hc hT (a0.trans hab.le) hS
        rw [← hδ] at h3
        linarith
      linarith
    have d1 := diff_sets i hL mG mD G0 sub
    have d2 := diff_sets hfi hf0 mG mD G0 sub
    rw [← hB, ← hV] at d1
    rw [← hJ, ← hQ] at d2
    have f1 := (le_of_sub (mG.diff mD) (Set.sdiff_subset.trans G0)).2
    have f2 := (le_of_sub (mD.diff mG) (Set.sdiff_subset.trans sub)).2
    obtain ⟨η, hη⟩ : ∃ η, η = outside h k c T lo up + 2 * δ := ⟨_, rfl⟩
    rw [← hη] at hout ⊢
    have d1' : |B - V| ≤ η := d1.trans hout
    have d2' : |J - Q| ≤ K / ρ * η := by
      refine d2.trans ((add_le_add f1 f2).trans ?_)
      rw [← mul_add]
      exact mul_le_mul_of_nonneg_left hout hKρ
    have η0 : 0 ≤ η := (abs_nonneg _).trans d1'
    have VB : V ≤ B + η := by have := abs_le.1 d1'; linarith
    have e80 : exp (-80) * V ≤ exp (-80) * (B + η) := mul_le_mul_of_nonneg_left VB h80'.le
    have e80' : exp (-80) * η ≤ 1 / 10 ^ 16 * η := mul_le_mul_of_nonneg_right h80 η0
    have y1 : |B - (W + σ)| ≤ η + exp (-80) * V + σ := by
      have := abs_le.1 d1'
      have : 0 ≤ exp (-80) * V := by positivity
      rw [abs_le]
      constructor <;> linarith
    have y2 : |M * B - P| ≤ K / ρ * (η + exp (-80) * V + σ) := by
      rw [← eM, ← mul_sub, abs_mul, abs_of_nonneg M0]
      exact mul_le_mul MK y1 (abs_nonneg _) hKρ
    have y3 : |P - J| ≤ K / ρ * (η + exp (-80) * V) := by
      have := abs_le.1 d2'
      have hq1 : exp (-80) * Q ≤ exp (-80) * (K / ρ * V) := mul_le_mul_of_nonneg_left Q1 h80'.le
      have : 0 ≤ K / ρ * (exp (-80) * V) := by positivity
      rw [abs_le, mul_add]
      constructor <;> linarith
    have y4 : K / ρ * (η + exp (-80) * V + σ) + K / ρ * (η + exp (-80) * V) ≤ K / ρ * (2.1 * η + 2 * exp (-80) * B + σ) := by
      rw [← mul_add]
      refine mul_le_mul_of_nonneg_left ?_ hKρ
      norm_num at e80' ⊢
      linarith
    have a1 := abs_le.1 y2
    have a2 := abs_le.1 y3
    rw [abs_le]
    constructor <;> linarith
  · refine fallback (le_of_eq ?_)
    have : G ∩ (Iic (1e-3 * (k * T / h)) ∪ Ioi (1e3 * (k * T / h))) = G :=
      Set.inter_eq_left.2 fun ν hν => Or.inl (hh1 ν (hG ▸ hν))
    rw [eO, hB, this]
  · refine fallback (le_of_eq ?_)
    have : G ∩ (Iic (1e-3 * (k * T / h)) ∪ Ioi (1e3 * (k * T / h))) = G :=
      Set.inter_eq_left.2 fun ν hν => Or.inr (lt_of_le_of_lt hh2 ((hG ▸ hν : ν ∈ groupSet lo up)).1)
    rw [eO, hB, this]

section
variable {n : ℕ} {β : ℕ → ℝ} {ub : ℕ → Option ℝ}

/-- integrals over adjacent groups add up -/
theorem groups_add (hβ : ∀ g, g < n → 0 ≤ β g) (hub : ∀ g, g + 1 < n → ub g = some (β (g + 1)))
    (hup : ∀ g, g < n → ∀ x ∈ ub g, β g < x) {f : ℝ → ℝ} (hf : IntegrableOn f (Ioi 0)) :
    ∀ m, m < n → ∑ g ∈ range (m + 1), ∫ ν in groupSet (β g) (ub g), f ν = ∫ ν in groupSet (β 0) (ub m), f ν := by
  have hle : ∀ m, m < n → β 0 ≤ β m := by
    intro m
    induction m with
    | zero => intro _; exact le_refl _
    | succ m ih =>
      intro hm
      exact (ih (by omega)).trans (hup m (by omega) _ (by rw [hub m hm]; rfl)).le
  intro m
  induction m with
  | zero => intro _; simp
  | succ m ih =>
    intro hm
    have e : groupSet (β 0) (ub (m + 1)) = groupSet (β 0) (ub m) ∪ groupSet (β (m + 1)) (ub (m + 1)) := by
      rw [hub m hm]
      ext ν
      constructor
      · rintro ⟨h1, h2⟩
        rcases le_or_gt ν (β (m + 1)) with hle' | hgt
        · exact Or.inl ⟨h1, by simpa using hle'⟩
        · exact Or.inr ⟨hgt, h2⟩
      · rintro (⟨h1, h2⟩ | ⟨h1, h2⟩)
        · exact ⟨h1, fun x hx => (h2 _ rfl).trans (hup (m + 1) hm x hx).le⟩
        · exact ⟨lt_of_le_of_lt (hle (m + 1) hm) h1, h2⟩
    rw [Finset.sum_range_succ, ih (by omega), e, setIntegral_union _ (groupSet_measurable _ _)
      (hf.mono_set (groupSet_pos (hβ 0 (by omega)))) (hf.mono_set (groupSet_pos (hβ _ hm)))]
    rw [hub m hm, Set.disjoint_left]
    intro ν h1 h2
    exact absurd (h1.2 _ rfl) (not_le.2 h2.1)

/-- the group means, weighted by the intensities of their groups, add up to the weighted integral over all of the groups -/
theorem group_sum (hh : 0 < h) (hk : 0 < k) (hc : 0 < c) (hT : 0 < T) {S ρ : ℝ} (hS : 0 < S) (hρ : 0 < ρ) {α : ℝ → ℝ} {K : ℝ}
    (hα : ContinuousOn α (Ioi 0)) (h0 : ∀ ν, 0 < ν → 0 ≤ α ν) (hK : ∀ ν, 0 < ν → α ν ≤ K) (hn : 0 < n)
    (hβ : ∀ g, g < n → 0 ≤ β g) (hub : ∀ g, g + 1 < n → ub g = some (β (g + 1))) (hup : ∀ g, g < n → ∀ x ∈ ub g, β g < x)
    (hAB : ∀ g, g < n → 0 < groupFrom S h k T (β g) (ub g) ∧ groupFrom S h k T (β g) (ub g) < groupTo S h k T (β g) (ub g))
    (n1 : n * S ≤ 1e-12 * (k * T / h)) (n2 : n * S ≤ 1e-12 * ∫ ν in Ioi (0 : ℝ), planckLaw h k c T ν) :
    |(∑ g ∈ range n, planckIntegralMean S h k c ρ T (β g) (ub g) α * groupIntensity h k c T (β g) (ub g)) -
      ∫ ν in {ν : ℝ | β 0 < ν ∧ ∀ x ∈ ub (n - 1), ν ≤ x}, α ν / ρ * planckLaw h k c T ν| ≤
    2e-10 * (K / ρ) * ∫ ν in Ioi (0 : ℝ), planckLaw h k c T ν := by
  have hq : 0 < k * T / h := by positivity
  obtain ⟨i, -⟩ := law_integral hh hk hc hT
  have hL : ∀ ν, 0 < ν → 0 ≤ planckLaw h k c T ν := fun ν hν => law_nonneg hh hk hc hT hν
  have hK0 : 0 ≤ K := (h0 1 one_pos).trans (hK 1 one_pos)
  have hKρ : 0 ≤ K / ρ := by positivity
  have h80 := exp_neg_80
  have hl10 : 0 < Real.log 10 := Real.log_pos (by norm_num)
  have hl9 : Real.log 10 ≤ 9 := by have := Real.log_le_sub_one_of_pos (show (0 : ℝ) < 10 by norm_num); linarith
  have hfi : IntegrableOn (fun ν => α ν / ρ * planckLaw h k c T ν) (Ioi 0) := by
    refine (i.const_mul (K / ρ)).mono' ?_ ?_
    · exact ((hα.div_const ρ).mul (Convergence.cont_planckLaw hh hk hc hT)).aestronglyMeasurable measurableSet_Ioi
    · refine (ae_restrict_iff' measurableSet_Ioi).2 (Eventually.of_forall fun ν hν => ?_)
      rw [Real.norm_of_nonneg (mul_nonneg (div_nonneg (h0 ν hν) hρ.le) (hL ν hν))]
      exact mul_le_mul_of_nonneg_right (by have := hK ν hν; gcongr) (hL ν hν)
  have mO : MeasurableSet (Iic (1e-3 * (k * T / h)) ∪ Ioi (1e3 * (k * T / h))) := measurableSet_Iic.union measurableSet_Ioi
  have e1 := groups_add hβ hub hup hfi (n - 1) (by omega)
  have e2 := groups_add hβ hub hup i (n - 1) (by omega)
  have e3 := groups_add hβ hub hup (i.indicator mO) (n - 1) (by omega)
  rw [show n - 1 + 1 = n by omega] at e1 e2 e3
  obtain ⟨I, eI⟩ : ∃ I, I = ∫ ν in Ioi (0 : ℝ), planckLaw h k c T ν := ⟨_, rfl⟩
  have hI : 0 ≤ I := eI ▸ setIntegral_nonneg measurableSet_Ioi fun ν hν => hL ν hν
  have sub : groupSet (β 0) (ub (n - 1)) ⊆ Ioi 0 := groupSet_pos (hβ 0 hn)
  have t2 : ∑ g ∈ range n, ∫ ν in groupSet (β g) (ub g), planckLaw h k c T ν ≤ I := by
    rw [e2, eI]
    exact setIntegral_mono_set i ((ae_restrict_iff' measurableSet_Ioi).2 (Eventually.of_forall fun ν hν => hL ν hν)) sub.eventuallyLE
  have t3 : ∑ g ∈ range n, outside h k c T (β g) (ub g) ≤ 6e-11 * I := by
    unfold outside
    rw [e3, eI]
    refine le_trans ?_ (lost hh hk hc hT (a := 1e-3 * (k * T / h)) (b := 1e3 * (k * T / h)) (by positivity)
      (by norm_num; linarith) (le_refl _))
    have hlt : 1e-3 * (k * T / h) ≤ 1e3 * (k * T / h) := by norm_num; linarith
    have x0 : Ioi (1e3 * (k * T / h)) ⊆ Ioi (0 : ℝ) := Ioi_subset_Ioi (by positivity)
    rw [setIntegral_indicator mO, ← setIntegral_union (by
        rw [Set.disjoint_left]; intro y hy hy'; exact absurd (hy.2.trans hlt) (not_le.2 hy')) measurableSet_Ioi
      (i.mono_set Ioc_subset_Ioi_self) (i.mono_set x0)]
    refine setIntegral_mono_set (i.mono_set (Set.union_subset Ioc_subset_Ioi_self x0)) ((ae_restrict_iff'
      (measurableSet_Ioc.union measurableSet_Ioi)).2 (Eventually.of_forall fun ν hν => hL ν ?_)) (HasSubset.Subset.eventuallyLE ?_)
    · exact Set.union_subset Set.Ioc_subset_Ioi_self x0 hν
    · rintro ν ⟨h1, h2 | h2⟩
      · exact Or.inl ⟨sub h1, h2⟩
      · exact Or.inr h2
  obtain ⟨δ, hδ⟩ : ∃ δ, δ = S * (h / (k * T) * I) := ⟨_, rfl⟩
  have hnδ : n * δ ≤ 1e-12 * I := by
    rw [hδ, show (n : ℝ) * (S * (h / (k * T) * I)) = n * S * (h / (k * T)) * I by ring]
    refine mul_le_mul_of_nonneg_right ?_ hI
    calc n * S * (h / (k * T)) ≤ 1e-12 * (k * T / h) * (h / (k * T)) := mul_le_mul_of_nonneg_right n1 (by positivity)
      _ = 1e-12 := by field_simp
  have hnσ : n * (S * Real.log 10) ≤ 9e-12 * I := by
    rw [← mul_assoc]
    calc n * S * Real.log 10 ≤ 1e-12 * I * 9 := mul_le_mul (eI ▸ n2) hl9 hl10.le (by positivity)
      _ = 9e-12 * I := by ring
  have h80I : 2 * exp (-80) * (∑ g ∈ range n, ∫ ν in groupSet (β g) (ub g), planckLaw h k c T ν) ≤ 2 * (1 / 10 ^ 16) * I := by
    refine mul_le_mul (by linarith) t2 (Finset.sum_nonneg fun g hg => ?_) (by positivity)
    exact setIntegral_nonneg (groupSet_measurable _ _) fun ν hν => hL ν (groupSet_pos (hβ g (Finset.mem_range.1 hg)) hν)
  have key : ∀ g ∈ range n, |planckIntegralMean S h k c ρ T (β g) (ub g) α * groupIntensity h k c T (β g) (ub g) -
      ∫ ν in groupSet (β g) (ub g), α ν / ρ * planckLaw h k c T ν| ≤
      K / ρ * (2.1 * (outside h k c T (β g) (ub g) + 2 * δ) +
        2 * exp (-80) * (∫ ν in groupSet (β g) (ub g), planckLaw h k c T ν) + S * Real.log 10) := fun g hg => by
    have hg := Finset.mem_range.1 hg
    exact group_emission hh hk hc hT hS hρ hα h0 hK (hβ g hg) (hup g hg) (hAB g hg).1 (hAB g hg).2 (by rw [hδ, eI])
  rw [show {ν : ℝ | β 0 < ν ∧ ∀ x ∈ ub (n - 1), ν ≤ x} = groupSet (β 0) (ub (n - 1)) from rfl, ← e1, ← Finset.sum_sub_distrib, ← eI]
  refine (Finset.abs_sum_le_sum_abs _ _).trans ((Finset.sum_le_sum key).trans ?_)
  rw [← Finset.mul_sum, show 2e-10 * (K / ρ) * I = K / ρ * (2e-10 * I) by ring]
  refine mul_le_mul_of_nonneg_left ?_ hKρ
  simp only [Finset.sum_add_distrib, ← Finset.mul_sum, Finset.sum_const, Finset.card_range, nsmul_eq_mul]
  norm_num at t3 hnδ hnσ h80I ⊢
  linarith

end

end Opac.WholeSpectrum
