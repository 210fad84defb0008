import Verif.Spec.MeanLimits
import Verif.Lemmas.Convergence
import Verif.Props.Means

/-!
# Limits of the sums behind the group means
-/

namespace Opac.Convergence
open MeasureTheory Filter Topology Finset Spec Photons

variable {h k c : ℝ}

/-- a function that is given by two continuous pieces, joined at `x₀` -/
theorem pieces {f f₁ f₂ : ℝ → ℝ} {x₀ A B : ℝ} (h1 : ContinuousOn f₁ (Set.Ioi 0)) (h2 : ContinuousOn f₂ (Set.Ioi 0))
    (hf : ∀ x, f x = if x < x₀ then f₁ x else f₂ x) (hA : 0 < A) :
    ((∃ M, ∀ x ∈ Set.Icc A B, |f x| ≤ M) ∧ ∀ x ∈ Set.Ioo A B, x ∉ ({x₀} : Set ℝ) → ContinuousAt f x) ∧
      (A ≤ B → IntervalIntegrable f volume A B) := by
  have hsub : Set.Icc A B ⊆ Set.Ioi 0 := fun x hx => lt_of_lt_of_le hA hx.1
  obtain ⟨M₁, hM₁⟩ := isCompact_Icc.exists_bound_of_continuousOn (h1.mono hsub)
  obtain ⟨M₂, hM₂⟩ := isCompact_Icc.exists_bound_of_continuousOn (h2.mono hsub)
  refine ⟨⟨⟨max M₁ M₂, ?_⟩, ?_⟩, ?_⟩
  · intro x hx
    rw [hf]
    split_ifs
    · exact (hM₁ x hx).trans (le_max_left _ _)
    · exact (hM₂ x hx).trans (le_max_right _ _)
  · intro x hx hne
    have hx0 : (0 : ℝ) < x := hA.trans hx.1
    rcases lt_or_gt_of_ne (show x ≠ x₀ from hne) with hlt | hgt
    · refine (h1.continuousAt (Ioi_mem_nhds hx0)).congr ?_
      filter_upwards [Iio_mem_nhds hlt] with y hy
      rw [hf, if_pos (show y < x₀ from hy)]
    · refine (h2.continuousAt (Ioi_mem_nhds hx0)).congr ?_
      filter_upwards [Ioi_mem_nhds hgt] with y hy
      rw [hf, if_neg (not_lt.2 (le_of_lt hy))]
  · intro hAB
    have i1 := ((h1.mono hsub).integrableOn_Icc (μ := volume)).mono_set Set.Ioc_subset_Icc_self
    have i2 := ((h2.mono hsub).integrableOn_Icc (μ := volume)).mono_set Set.Ioc_subset_Icc_self
    have e : f = (Set.Iio x₀).indicator f₁ + ((Set.Iio x₀)ᶜ).indicator f₂ := by
      funext x
      rw [hf]
      by_cases hx : x < x₀
      · simp [hx]
      · have := not_lt.1 hx
        simp [hx, this]
    rw [intervalIntegrable_iff_integrableOn_Ioc_of_le hAB, e]
    exact (i1.indicator measurableSet_Iio).add (i2.indicator measurableSet_Iio.compl)

theorem lt80_iff {h k T ν : ℝ} (hh : 0 < h) (hk : 0 < k) (hT : 0 < T) : h * ν / (k * T) < 80 ↔ ν < 80 * (k * T) / h := by
  have : 0 < k * T := by positivity
  rw [div_lt_iff₀ this, lt_div_iff₀ hh, mul_comm h ν]

theorem cont_planckLaw (hh : 0 < h) (hk : 0 < k) (hc : 0 < c) {T : ℝ} (hT : 0 < T) :
    ContinuousOn (planckLaw h k c T) (Set.Ioi 0) := by
  unfold planckLaw
  refine ContinuousOn.div (by fun_prop) (by fun_prop) ?_
  intro x hx
  have hx0 : (0 : ℝ) < x := hx
  have : 0 < h * x / (k * T) := by positivity
  have := Real.add_one_lt_exp this.ne'
  linarith

theorem cont_planckLawDT (hh : 0 < h) (hk : 0 < k) (hc : 0 < c) {T : ℝ} (hT : 0 < T) :
    ContinuousOn (planckLawDT h k c T) (Set.Ioi 0) := by
  unfold planckLawDT
  refine ContinuousOn.div (by fun_prop) (by fun_prop) ?_
  intro x hx
  have hx0 : (0 : ℝ) < x := hx
  have : 0 < h * x / (k * T) := by positivity
  have : Real.exp (-(h * x / (k * T))) < 1 := by rw [← Real.exp_zero]; exact Real.exp_lt_exp.2 (by linarith)
  have : 0 < 1 - Real.exp (-(h * x / (k * T))) := by linarith
  positivity

/-- the weights of the Planck mean times a continuous function -/
theorem planck_pieces (hh : 0 < h) (hk : 0 < k) (hc : 0 < c) {T : ℝ} (hT : 0 < T) {f : ℝ → ℝ}
    (hf : ContinuousOn f (Set.Ioi 0)) {A B : ℝ} (hA : 0 < A) :
    ((∃ M, ∀ x ∈ Set.Icc A B, |f x * planckWeight h k c T x| ≤ M) ∧
      ∀ x ∈ Set.Ioo A B, x ∉ ({80 * (k * T) / h} : Set ℝ) → ContinuousAt (fun x => f x * planckWeight h k c T x) x) ∧
      (A ≤ B → IntervalIntegrable (fun x => f x * planckWeight h k c T x) volume A B) := by
  refine pieces (f₁ := fun x => f x * planckLaw h k c T x)
    (f₂ := fun x => f x * (2 * h * x ^ 3 / c ^ 2 * Real.exp (-(h * x / (k * T)))))
    (hf.mul (cont_planckLaw hh hk hc hT)) (hf.mul (by fun_prop)) ?_ hA
  intro x
  unfold planckWeight
  simp only [lt80_iff hh hk hT]
  split_ifs <;> rfl

theorem rosseland_pieces (hh : 0 < h) (hk : 0 < k) (hc : 0 < c) {T : ℝ} (hT : 0 < T) {f : ℝ → ℝ}
    (hf : ContinuousOn f (Set.Ioi 0)) {A B : ℝ} (hA : 0 < A) :
    ((∃ M, ∀ x ∈ Set.Icc A B, |f x * rosselandWeight h k c T x| ≤ M) ∧
      ∀ x ∈ Set.Ioo A B, x ∉ ({80 * (k * T) / h} : Set ℝ) → ContinuousAt (fun x => f x * rosselandWeight h k c T x) x) ∧
      (A ≤ B → IntervalIntegrable (fun x => f x * rosselandWeight h k c T x) volume A B) := by
  refine pieces (f₁ := fun x => f x * planckLawDT h k c T x)
    (f₂ := fun x => f x * (2 * h ^ 2 * x ^ 4 / (T ^ 2 * c ^ 2 * k) * Real.exp (-(h * x / (k * T)))))
    (hf.mul (cont_planckLawDT hh hk hc hT)) (hf.mul (by fun_prop)) ?_ hA
  intro x
  unfold rosselandWeight
  simp only [lt80_iff hh hk hT]
  split_ifs <;> rfl

/-- sums of a weight over the samples of a group -/
theorem group_tendsto {S h k T lo : ℝ} {up : Option ℝ} (hA : 0 < groupFrom S h k T lo up)
    (hAB : groupFrom S h k T lo up < groupTo S h k T lo up) {w : ℝ → ℝ} {x₀ : ℝ}
    (hw : (∃ M, ∀ x ∈ Set.Icc (groupFrom S h k T lo up) (groupTo S h k T lo up), |w x| ≤ M) ∧
      ∀ x ∈ Set.Ioo (groupFrom S h k T lo up) (groupTo S h k T lo up), x ∉ ({x₀} : Set ℝ) → ContinuousAt w x) :
    Tendsto (fun N : ℕ => ∑ i ∈ range N, w (groupNu S h k T lo up N i) * groupDNu S h k T lo up N i) atTop
      (𝓝 ((∫ ν in groupFrom S h k T lo up..groupTo S h k T lo up, w ν) / Real.log 10)) := by
  obtain ⟨⟨M, hM⟩, hc⟩ := hw
  exact logMidpoint_tendsto hA hAB hM (Set.countable_singleton x₀) hc

theorem groupPlanck_tendsto (hh : 0 < h) (hk : 0 < k) (hc : 0 < c) {S ρ T lo : ℝ} {up : Option ℝ} (hS : 0 < S)
    (hT : 0 < T) (hA : 0 < groupFrom S h k T lo up)
    (hAB : groupFrom S h k T lo up < groupTo S h k T lo up) {α : ℝ → ℝ} (hα : ContinuousOn α (Set.Ioi 0)) :
    Tendsto (fun N : ℕ => groupPlanckMean S h k c ρ T lo up N α) atTop (𝓝 (planckIntegralMean S h k c ρ T lo up α)) := by
  have hl10 : 0 < Real.log 10 := Real.log_pos (by norm_num)
  have t1 := group_tendsto hA hAB (planck_pieces hh hk hc hT (f := fun x => α x / ρ) (hα.div_const ρ) (B := groupTo S h k T lo up) hA).1
  have t2 := group_tendsto hA hAB (planck_pieces hh hk hc hT (f := fun _ => 1) continuousOn_const (B := groupTo S h k T lo up) hA).1
  simp only [one_mul] at t2
  have hpos : 0 ≤ ∫ ν in groupFrom S h k T lo up..groupTo S h k T lo up, planckWeight h k c T ν := by
    apply intervalIntegral.integral_nonneg hAB.le
    intro u hu
    exact (planckWeight_pos hh hk hc hT (lt_of_lt_of_le hA hu.1)).le
  have h3 := t1.div (t2.add_const S) (by
    have : 0 ≤ (∫ ν in groupFrom S h k T lo up..groupTo S h k T lo up, planckWeight h k c T ν) / Real.log 10 := by positivity
    linarith)
  have e : planckIntegralMean S h k c ρ T lo up α =
      ((∫ ν in groupFrom S h k T lo up..groupTo S h k T lo up, α ν / ρ * planckWeight h k c T ν) / Real.log 10) /
      ((∫ ν in groupFrom S h k T lo up..groupTo S h k T lo up, planckWeight h k c T ν) / Real.log 10 + S) := by
    unfold planckIntegralMean
    have : 0 < S * Real.log 10 := by positivity
    rw [div_add' _ _ _ hl10.ne', div_div_div_cancel_right₀ hl10.ne']
  rw [e]
  exact h3

theorem groupRosseland_tendsto (hh : 0 < h) (hk : 0 < k) (hc : 0 < c) {S ρ T lo : ℝ} {up : Option ℝ} (hS : 0 < S)
    (hT : 0 < T) (hA : 0 < groupFrom S h k T lo up)
    (hAB : groupFrom S h k T lo up < groupTo S h k T lo up) {α : ℝ → ℝ} (hα : ContinuousOn α (Set.Ioi 0))
    (hα0 : ∀ ν, 0 < ν → 0 ≤ α ν)
    (hop : ∀ ν, groupFrom S h k T lo up < ν → ν < groupTo S h k T lo up → S < α ν)
    (hden : S * Real.log 10 < ∫ ν in groupFrom S h k T lo up..groupTo S h k T lo up, rosselandWeight h k c T ν)
    (hnum : S * Real.log 10 <
      ∫ ν in groupFrom S h k T lo up..groupTo S h k T lo up, ρ / (α ν + S) * rosselandWeight h k c T ν) :
    Tendsto (fun N : ℕ => groupRosselandMean S h k c ρ T lo up N α) atTop (𝓝 (rosselandIntegralMean S h k c ρ T lo up α)) := by
  have hl10 : 0 < Real.log 10 := Real.log_pos (by norm_num)
  have hcont : ContinuousOn (fun x => ρ / (α x + S)) (Set.Ioi 0) := by
    refine ContinuousOn.div continuousOn_const (hα.add_const S) ?_
    intro x hx
    have := hα0 x hx
    linarith
  have t1 := group_tendsto hA hAB (rosseland_pieces hh hk hc hT (f := fun x => ρ / (α x + S)) hcont (B := groupTo S h k T lo up) hA).1
  have t2 := group_tendsto hA hAB (rosseland_pieces hh hk hc hT (f := fun _ => 1) continuousOn_const (B := groupTo S h k T lo up) hA).1
  simp only [one_mul] at t2
  have d1 : S < (∫ ν in groupFrom S h k T lo up..groupTo S h k T lo up, rosselandWeight h k c T ν) / Real.log 10 := by
    rwa [lt_div_iff₀ hl10]
  have d2 : S < (∫ ν in groupFrom S h k T lo up..groupTo S h k T lo up, ρ / (α ν + S) * rosselandWeight h k c T ν) /
      Real.log 10 := by
    rwa [lt_div_iff₀ hl10]
  have h3 := t2.div (t1.add_const S) (by linarith)
  have e : rosselandIntegralMean S h k c ρ T lo up α =
      ((∫ ν in groupFrom S h k T lo up..groupTo S h k T lo up, rosselandWeight h k c T ν) / Real.log 10) /
      ((∫ ν in groupFrom S h k T lo up..groupTo S h k T lo up, ρ / (α ν + S) * rosselandWeight h k c T ν) / Real.log 10 + S) := by
    unfold rosselandIntegralMean
    rw [div_add' _ _ _ hl10.ne', div_div_div_cancel_right₀ hl10.ne']
  rw [e]
  refine h3.congr' ?_
  filter_upwards [t1.eventually_const_lt d2, t2.eventually_const_lt d1, eventually_gt_atTop 0] with N e1 e2 hN
  unfold groupRosselandMean rosselandMean
  have hs : ∀ i ∈ range N, (if S < α (groupNu S h k T lo up N i) then
      ρ / (α (groupNu S h k T lo up N i) + S) * rosselandWeight h k c T (groupNu S h k T lo up N i) * groupDNu S h k T lo up N i
      else 0) = ρ / (α (groupNu S h k T lo up N i) + S) * rosselandWeight h k c T (groupNu S h k T lo up N i) *
        groupDNu S h k T lo up N i := by
    intro i hi
    have hb := binCentre_bounds (N := N) hA hAB (Finset.mem_range.1 hi)
    exact if_pos (hop (groupNu S h k T lo up N i) hb.1 hb.2)
  simp only
  rw [Finset.sum_congr rfl hs]
  exact (if_pos ⟨e2, e1⟩).symm

/-- the Wien tail is below Planck's law by a factor `1 - e^{-80}` at most -/
theorem planckWeight_near (hh : 0 < h) (hk : 0 < k) (hc : 0 < c) {T ν : ℝ} (hT : 0 < T) (hν : 0 < ν) :
    (1 - Real.exp (-80)) * planckLaw h k c T ν ≤ planckWeight h k c T ν ∧ planckWeight h k c T ν ≤ planckLaw h k c T ν ∧
      0 < planckLaw h k c T ν := by
  have hx : 0 < h * ν / (k * T) := by positivity
  have he : 0 < Real.exp (h * ν / (k * T)) - 1 := by
    have := Real.add_one_lt_exp hx.ne'
    linarith
  have hp : 0 < planckLaw h k c T ν := by unfold planckLaw; positivity
  have h80 : Real.exp (-80) < 1 := by rw [← Real.exp_zero]; exact Real.exp_lt_exp.2 (by norm_num)
  have h80' := Real.exp_pos (-80)
  unfold planckWeight
  split_ifs with hlt
  · exact ⟨by nlinarith, le_refl _, hp⟩
  · have hx80 : Real.exp (-(h * ν / (k * T))) ≤ Real.exp (-80) := Real.exp_le_exp.2 (by linarith [not_lt.1 hlt])
    have hx0 := Real.exp_pos (-(h * ν / (k * T)))
    have e : 2 * h * ν ^ 3 / c ^ 2 * Real.exp (-(h * ν / (k * T))) =
        (1 - Real.exp (-(h * ν / (k * T)))) * planckLaw h k c T ν := by
      unfold planckLaw
      rw [mul_div_assoc', eq_div_iff he.ne', mul_assoc (2 * h * ν ^ 3 / c ^ 2)]
      have : Real.exp (-(h * ν / (k * T))) * (Real.exp (h * ν / (k * T)) - 1) = 1 - Real.exp (-(h * ν / (k * T))) := by
        rw [mul_sub, ← Real.exp_add]; simp
      rw [this]; ring
    rw [e]
    exact ⟨by nlinarith, by nlinarith, hp⟩

theorem rosselandWeight_near (hh : 0 < h) (hk : 0 < k) (hc : 0 < c) {T ν : ℝ} (hT : 0 < T) (hν : 0 < ν) :
    (1 - Real.exp (-80)) ^ 2 * planckLawDT h k c T ν ≤ rosselandWeight h k c T ν ∧
      rosselandWeight h k c T ν ≤ planckLawDT h k c T ν ∧ 0 < planckLawDT h k c T ν := by
  have hx : 0 < h * ν / (k * T) := by positivity
  have he : 0 < 1 - Real.exp (-(h * ν / (k * T))) := by
    have : Real.exp (-(h * ν / (k * T))) < 1 := by rw [← Real.exp_zero]; exact Real.exp_lt_exp.2 (by linarith)
    linarith
  have hp : 0 < planckLawDT h k c T ν := by unfold planckLawDT; positivity
  have h80 : Real.exp (-80) < 1 := by rw [← Real.exp_zero]; exact Real.exp_lt_exp.2 (by norm_num)
  have h80' := Real.exp_pos (-80)
  unfold rosselandWeight
  split_ifs with hlt
  · exact ⟨by nlinarith [pow_le_one₀ (n := 2) (by linarith : 0 ≤ 1 - Real.exp (-80)) (by linarith)], le_refl _, hp⟩
  · have hx80 : Real.exp (-(h * ν / (k * T))) ≤ Real.exp (-80) := Real.exp_le_exp.2 (by linarith [not_lt.1 hlt])
    have hx0 := Real.exp_pos (-(h * ν / (k * T)))
    have e : 2 * h ^ 2 * ν ^ 4 / (T ^ 2 * c ^ 2 * k) * Real.exp (-(h * ν / (k * T))) =
        (1 - Real.exp (-(h * ν / (k * T)))) ^ 2 * planckLawDT h k c T ν := by
      unfold planckLawDT
      rw [mul_div_cancel₀ _ (by positivity)]
    rw [e]
    have q1 : (1 - Real.exp (-80)) ^ 2 ≤ (1 - Real.exp (-(h * ν / (k * T)))) ^ 2 :=
      pow_le_pow_left₀ (by linarith) (by linarith) 2
    have q2 : (1 - Real.exp (-(h * ν / (k * T)))) ^ 2 ≤ 1 := pow_le_one₀ he.le (by linarith)
    exact ⟨mul_le_mul_of_nonneg_right q1 hp.le, by nlinarith, hp⟩

/-- integrals of close functions -/
theorem integral_near {w W f g : ℝ → ℝ} {A B p q : ℝ} (hAB : A ≤ B)
    (hw : IntervalIntegrable (fun x => f x * w x) volume A B) (hW : IntervalIntegrable (fun x => g x * W x) volume A B)
    (h : ∀ x ∈ Set.Icc A B, p * (g x * W x) ≤ f x * w x ∧ f x * w x ≤ q * (g x * W x)) :
    p * ∫ x in A..B, g x * W x ≤ ∫ x in A..B, f x * w x ∧ ∫ x in A..B, f x * w x ≤ q * ∫ x in A..B, g x * W x := by
  rw [← intervalIntegral.integral_const_mul, ← intervalIntegral.integral_const_mul]
  exact ⟨intervalIntegral.integral_mono_on hAB (hW.const_mul p) hw fun x hx => (h x hx).1,
    intervalIntegral.integral_mono_on hAB hw (hW.const_mul q) fun x hx => (h x hx).2⟩

theorem pos_integral {W : ℝ → ℝ} {A B : ℝ} (hA : 0 < A) (hAB : A < B) (hW : ContinuousOn W (Set.Ioi 0))
    (hp : ∀ x, 0 < x → 0 < W x) : 0 < ∫ x in A..B, W x := by
  have hsub : Set.Icc A B ⊆ Set.Ioi 0 := fun x hx => lt_of_lt_of_le hA hx.1
  refine intervalIntegral.intervalIntegral_pos_of_pos_on ?_ (fun x hx => hp x (hA.trans hx.1)) hAB
  exact (hW.mono hsub).intervalIntegrable_of_Icc hAB.le

/-- the integral mean with the library's weights against the exact one -/
theorem planckIntegral_near (hh : 0 < h) (hk : 0 < k) (hc : 0 < c) {S ρ T lo : ℝ} {up : Option ℝ} (hS : 0 < S)
    (hρ : 0 < ρ) (hT : 0 < T) (hA : 0 < groupFrom S h k T lo up)
    (hAB : groupFrom S h k T lo up < groupTo S h k T lo up) {α : ℝ → ℝ} (hα : ContinuousOn α (Set.Ioi 0))
    (hα0 : ∀ ν, 0 < ν → 0 ≤ α ν) {ε : ℝ}
    (hε : S * Real.log 10 ≤ ε * ∫ ν in groupFrom S h k T lo up..groupTo S h k T lo up, planckLaw h k c T ν) :
    (1 - Real.exp (-80)) / (1 + ε) *
        planckMeanOf h k c ρ T (groupFrom S h k T lo up) (groupTo S h k T lo up) α ≤
      planckIntegralMean S h k c ρ T lo up α ∧
    planckIntegralMean S h k c ρ T lo up α ≤
      1 / (1 - Real.exp (-80)) * planckMeanOf h k c ρ T (groupFrom S h k T lo up) (groupTo S h k T lo up) α := by
  have hl10 : 0 < Real.log 10 := Real.log_pos (by norm_num)
  have h80 : Real.exp (-80) < 1 := by rw [← Real.exp_zero]; exact Real.exp_lt_exp.2 (by norm_num)
  have h80' := Real.exp_pos (-80)
  unfold planckMeanOf planckIntegralMean
  generalize groupFrom S h k T lo up = A at *
  generalize groupTo S h k T lo up = B at *
  have hsub : Set.Icc A B ⊆ Set.Ioi 0 := fun x hx => lt_of_lt_of_le hA hx.1
  have c1 := cont_planckLaw hh hk hc hT
  have hD := pos_integral hA hAB c1 (fun x hx => (planckWeight_near hh hk hc hT hx).2.2)
  have n1 := integral_near (f := fun x => α x / ρ) (g := fun x => α x / ρ) (p := 1 - Real.exp (-80)) (q := 1) hAB.le
    ((planck_pieces hh hk hc hT (hα.div_const ρ) hA).2 hAB.le)
    ((((hα.div_const ρ).mul c1).mono hsub).intervalIntegrable_of_Icc hAB.le) (by
      intro x hx
      have := planckWeight_near hh hk hc hT (hsub hx)
      have h0 : 0 ≤ α x / ρ := div_nonneg (hα0 x (hsub hx)) hρ.le
      constructor
      · nlinarith [mul_le_mul_of_nonneg_left this.1 h0]
      · nlinarith [mul_le_mul_of_nonneg_left this.2.1 h0])
  have n2 := integral_near (f := fun x => 1) (g := fun x => 1) (p := 1 - Real.exp (-80)) (q := 1) hAB.le
    ((planck_pieces hh hk hc hT continuousOn_const hA).2 hAB.le)
    (((continuousOn_const.mul c1).mono hsub).intervalIntegrable_of_Icc hAB.le) (by
      intro x hx
      have := planckWeight_near hh hk hc hT (hsub hx)
      simp only [one_mul]
      exact ⟨this.1, this.2.1⟩)
  simp only [one_mul] at n1 n2
  have hN : 0 ≤ ∫ x in A..B, α x / ρ * planckLaw h k c T x := by
    apply intervalIntegral.integral_nonneg hAB.le
    intro u hu
    exact mul_nonneg (div_nonneg (hα0 u (hsub hu)) hρ.le) (planckWeight_near hh hk hc hT (hsub hu)).2.2.le
  generalize (∫ x in A..B, α x / ρ * planckLaw h k c T x) = A' at *
  generalize (∫ x in A..B, α x / ρ * planckWeight h k c T x) = a' at *
  generalize (∫ x in A..B, planckLaw h k c T x) = D at *
  generalize (∫ x in A..B, planckWeight h k c T x) = d at *
  generalize Real.exp (-80) = e at *
  have hσ : 0 < S * Real.log 10 := by positivity
  generalize S * Real.log 10 = σ at *
  have he : 0 < 1 - e := by linarith
  have hd : 0 < d := lt_of_lt_of_le (by positivity) n2.1
  have hε0 : 0 < ε := by
    by_contra hcon
    have : ε * D ≤ 0 := mul_nonpos_of_nonpos_of_nonneg (not_lt.1 hcon) hD.le
    linarith
  constructor
  · rw [div_mul_div_comm]
    exact div_le_div₀ (by nlinarith) n1.1 (by positivity) (by nlinarith)
  · rw [div_mul_div_comm, one_mul]
    exact div_le_div₀ hN n1.2 (by positivity) (by nlinarith)

theorem rosselandIntegral_near (hh : 0 < h) (hk : 0 < k) (hc : 0 < c) {S ρ T lo : ℝ} {up : Option ℝ} (hS : 0 < S)
    (hρ : 0 < ρ) (hT : 0 < T) (hA : 0 < groupFrom S h k T lo up)
    (hAB : groupFrom S h k T lo up < groupTo S h k T lo up) {α : ℝ → ℝ} (hα : ContinuousOn α (Set.Ioi 0))
    (hα0 : ∀ ν, 0 < ν → 0 < α ν) {ε : ℝ}
    (hop : ∀ ν ∈ Set.Icc (groupFrom S h k T lo up) (groupTo S h k T lo up), S ≤ ε * α ν)
    (hε : S * Real.log 10 ≤
      ε * ∫ ν in groupFrom S h k T lo up..groupTo S h k T lo up, ρ / α ν * planckLawDT h k c T ν) :
    (1 - Real.exp (-80)) ^ 2 / (1 + ε) *
        rosselandMeanOf h k c ρ T (groupFrom S h k T lo up) (groupTo S h k T lo up) α ≤
      rosselandIntegralMean S h k c ρ T lo up α ∧
    rosselandIntegralMean S h k c ρ T lo up α ≤
      (1 + ε) / (1 - Real.exp (-80)) ^ 2 *
        rosselandMeanOf h k c ρ T (groupFrom S h k T lo up) (groupTo S h k T lo up) α := by
  have hl10 : 0 < Real.log 10 := Real.log_pos (by norm_num)
  have h80 : Real.exp (-80) < 1 := by rw [← Real.exp_zero]; exact Real.exp_lt_exp.2 (by norm_num)
  have h80' := Real.exp_pos (-80)
  unfold rosselandMeanOf rosselandIntegralMean
  generalize groupFrom S h k T lo up = A at *
  generalize groupTo S h k T lo up = B at *
  have hsub : Set.Icc A B ⊆ Set.Ioi 0 := fun x hx => lt_of_lt_of_le hA hx.1
  have c1 := cont_planckLawDT hh hk hc hT
  have c2 : ContinuousOn (fun x => ρ / α x) (Set.Ioi 0) := continuousOn_const.div hα fun x hx => (hα0 x hx).ne'
  have c3 : ContinuousOn (fun x => ρ / (α x + S)) (Set.Ioi 0) :=
    continuousOn_const.div (hα.add_const S) fun x hx => by have := hα0 x hx; linarith
  have hD := pos_integral hA hAB c1 (fun x hx => (rosselandWeight_near hh hk hc hT hx).2.2)
  have hN := pos_integral hA hAB (c2.mul c1) (fun x hx => mul_pos (div_pos hρ (hα0 x hx)) (rosselandWeight_near hh hk hc hT hx).2.2)
  have hσ : 0 < S * Real.log 10 := by positivity
  have hε0 : 0 < ε := by
    by_contra hcon
    have : ε * (∫ x in A..B, ρ / α x * planckLawDT h k c T x) ≤ 0 := mul_nonpos_of_nonpos_of_nonneg (not_lt.1 hcon) hN.le
    linarith
  have n1 := integral_near (f := fun x => ρ / (α x + S)) (g := fun x => ρ / α x) (p := (1 - Real.exp (-80)) ^ 2 / (1 + ε)) (q := 1)
    hAB.le ((rosseland_pieces hh hk hc hT c3 hA).2 hAB.le)
    (((c2.mul c1).mono hsub).intervalIntegrable_of_Icc hAB.le) (by
      intro x hx
      have hw := rosselandWeight_near hh hk hc hT (hsub hx)
      have ha := hα0 x (hsub hx)
      have ho := hop x hx
      have r1 : ρ / α x / (1 + ε) ≤ ρ / (α x + S) := by
        rw [div_div]
        exact div_le_div_of_nonneg_left hρ.le (by positivity) (by nlinarith)
      have r2 : ρ / (α x + S) ≤ ρ / α x := div_le_div_of_nonneg_left hρ.le ha (by linarith)
      have r0 : 0 ≤ ρ / α x / (1 + ε) := by positivity
      constructor
      · calc (1 - Real.exp (-80)) ^ 2 / (1 + ε) * (ρ / α x * planckLawDT h k c T x) =
            ρ / α x / (1 + ε) * ((1 - Real.exp (-80)) ^ 2 * planckLawDT h k c T x) := by ring
          _ ≤ ρ / (α x + S) * rosselandWeight h k c T x :=
            mul_le_mul r1 hw.1 (mul_nonneg (by positivity) hw.2.2.le) (r0.trans r1)
      · rw [one_mul]
        exact mul_le_mul r2 hw.2.1 (le_trans (mul_nonneg (by positivity) hw.2.2.le) hw.1) (by positivity))
  have n2 := integral_near (f := fun x => 1) (g := fun x => 1) (p := (1 - Real.exp (-80)) ^ 2) (q := 1) hAB.le
    ((rosseland_pieces hh hk hc hT continuousOn_const hA).2 hAB.le)
    (((continuousOn_const.mul c1).mono hsub).intervalIntegrable_of_Icc hAB.le) (by
      intro x hx
      have := rosselandWeight_near hh hk hc hT (hsub hx)
      simp only [one_mul]
      exact ⟨this.1, this.2.1⟩)
  simp only [one_mul] at n1 n2
  generalize (∫ x in A..B, ρ / α x * planckLawDT h k c T x) = A' at *
  generalize (∫ x in A..B, ρ / (α x + S) * rosselandWeight h k c T x) = a' at *
  generalize (∫ x in A..B, planckLawDT h k c T x) = D at *
  generalize (∫ x in A..B, rosselandWeight h k c T x) = d at *
  have he : 0 < (1 - Real.exp (-80)) ^ 2 := by have : 0 < 1 - Real.exp (-80) := by linarith
                                               positivity
  generalize (1 - Real.exp (-80)) ^ 2 = e at *
  generalize S * Real.log 10 = σ at *
  have ha' : 0 < a' := lt_of_lt_of_le (by positivity) n1.1
  constructor
  · rw [div_mul_div_comm]
    exact div_le_div₀ (le_trans (by positivity) n2.1) n2.1 (by positivity) (by nlinarith)
  · have : (1 + ε) / e * (D / A') = D / (e / (1 + ε) * A') := by field_simp
    rw [this]
    exact div_le_div₀ hD.le n2.2 (by positivity) (by linarith)

end Opac.Convergence
