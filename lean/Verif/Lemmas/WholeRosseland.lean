import Verif.Lemmas.WholeSpectrum

/-!
# Rosseland means over all frequencies
-/

namespace Opac.WholeSpectrum
open Opac Spec MeasureTheory Set Real Filter Topology

variable {h k c T : ℝ}

/-- `T dB/dT` and `B` -/
theorem lawDT_eq (hh : 0 < h) (hk : 0 < k) (hc : 0 < c) (hT : 0 < T) {ν x : ℝ} (hν : 0 < ν) (hx : x = h * ν / (k * T)) :
    T * planckLawDT h k c T ν = planckLaw h k c T ν * (x / (1 - exp (-x))) ∧ 0 < x ∧ 0 < 1 - exp (-x) ∧
      planckLaw h k c T ν ≤ T * planckLawDT h k c T ν ∧ T * planckLawDT h k c T ν ≤ planckLaw h k c T ν * (1 + x) := by
  have hx0 : 0 < x := by rw [hx]; positivity
  have he : 0 < 1 - exp (-x) := by
    have : exp (-x) < 1 := by rw [← Real.exp_zero]; exact Real.exp_lt_exp.2 (by linarith)
    linarith
  have hL := law_nonneg hh hk hc hT hν
  have e : T * planckLawDT h k c T ν = planckLaw h k c T ν * (x / (1 - exp (-x))) := by
    have hE : 0 < exp x - 1 := by linarith [Real.add_one_lt_exp hx0.ne']
    have eν : ν = k * T / h * x := by rw [hx]; field_simp
    unfold planckLawDT planckLaw
    rw [← hx, Real.exp_neg, eν]
    have h0 := Real.exp_pos x
    generalize exp x = E at *
    have e1 : 1 - E⁻¹ = (E - 1) / E := by field_simp
    rw [e1]
    have : E - 1 ≠ 0 := hE.ne'
    field_simp
  refine ⟨e, hx0, he, ?_, ?_⟩
  · rw [e]
    refine le_mul_of_one_le_right hL ?_
    rw [one_le_div he]
    linarith [Real.add_one_le_exp (-x)]
  · rw [e]
    refine mul_le_mul_of_nonneg_left ?_ hL
    rw [div_le_iff₀ he]
    have h1 : exp (-x) * (1 + x) ≤ 1 := by
      rw [Real.exp_neg, inv_mul_le_iff₀ (Real.exp_pos x)]
      linarith [Real.add_one_le_exp x]
    nlinarith

/-- high frequencies -/
theorem lawDT_tail (hh : 0 < h) (hk : 0 < k) (hc : 0 < c) (hT : 0 < T) {a : ℝ} (ha : k * T / h ≤ a) :
    IntegrableOn (planckLawDT h k c T) (Ioi a) ∧
    T * ∫ ν in Ioi a, planckLawDT h k c T ν ≤ 6144 * ((k * T) ^ 4 / (h ^ 3 * c ^ 2)) * exp (-(h * a / (k * T)) / 2) := by
  have ha0 : 0 < a := lt_of_lt_of_le (by positivity) ha
  have hb : -(h / (k * T) / 2) < 0 := by have : 0 < h / (k * T) / 2 := by positivity
                                         linarith
  have hle : ∀ ν ∈ Ioi a, T * planckLawDT h k c T ν ≤
      3072 * ((k * T) ^ 3 / (h ^ 2 * c ^ 2)) * exp (-(h / (k * T) / 2) * ν) := by
    intro ν hν
    have hν0 : 0 < ν := ha0.trans hν
    obtain ⟨x, hx⟩ : ∃ x, x = h * ν / (k * T) := ⟨_, rfl⟩
    have hx0 : 0 < x := by rw [hx]; positivity
    have hx1 : 1 ≤ x := by
      rw [hx, le_div_iff₀ (by positivity), one_mul]
      have := ha.trans (le_of_lt hν)
      rw [div_le_iff₀ hh] at this
      linarith
    have eν : ν = k * T / h * x := by rw [hx]; field_simp
    have e1 : exp (-(h / (k * T) / 2) * ν) = exp (-(x / 2)) := by rw [eν]; congr 1; field_simp
    have e2 : (x / 2) ^ 4 / (4 : ℕ).factorial ≤ exp (x / 2) := Real.pow_div_factorial_le_exp _ (by positivity) 4
    have e3 : exp x = exp (x / 2) * exp (x / 2) := by rw [← Real.exp_add]; congr 1; ring
    have e4 : 2 ≤ exp x := by have := Real.add_one_le_exp x; linarith
    have hp := Real.exp_pos (x / 2)
    have e5 : x ^ 4 ≤ 384 * exp (x / 2) := by
      simp only [Nat.factorial] at e2
      push_cast at e2
      norm_num at e2
      linarith
    have eD : T * planckLawDT h k c T ν = 2 * ((k * T) ^ 3 / (h ^ 2 * c ^ 2)) * (x ^ 4 * (exp x / (exp x - 1) ^ 2)) := by
      have : exp x - 1 ≠ 0 := by linarith
      unfold planckLawDT
      rw [← hx, Real.exp_neg, eν]
      have e : 1 - (exp x)⁻¹ = (exp x - 1) / exp x := by field_simp
      rw [e]
      field_simp
    have e6 : exp x / (exp x - 1) ^ 2 ≤ 4 * (exp x)⁻¹ := by
      rw [← div_eq_mul_inv, div_le_div_iff₀ (by have : 0 < exp x - 1 := by linarith
                                                positivity) (Real.exp_pos x)]
      nlinarith
    have e7 : x ^ 4 * (exp x / (exp x - 1) ^ 2) ≤ 1536 * (exp (x / 2))⁻¹ := by
      calc x ^ 4 * (exp x / (exp x - 1) ^ 2) ≤ 384 * exp (x / 2) * (4 * (exp x)⁻¹) := by gcongr
        _ = 1536 * (exp (x / 2))⁻¹ := by rw [e3]; field_simp; norm_num
    rw [eD, e1, Real.exp_neg]
    calc _ ≤ 2 * ((k * T) ^ 3 / (h ^ 2 * c ^ 2)) * (1536 * (exp (x / 2))⁻¹) := by gcongr
      _ = _ := by ring
  have hi := (integrableOn_exp_mul_Ioi hb a).const_mul (3072 * ((k * T) ^ 3 / (h ^ 2 * c ^ 2)))
  have hiT : IntegrableOn (fun ν => T * planckLawDT h k c T ν) (Ioi a) := by
    refine Integrable.mono' hi ?_ ?_
    · exact (((Convergence.cont_planckLawDT hh hk hc hT).mono (Ioi_subset_Ioi ha0.le)).const_smul T).aestronglyMeasurable measurableSet_Ioi
    · refine (ae_restrict_iff' measurableSet_Ioi).2 (.of_forall fun ν hν => ?_)
      rw [Real.norm_of_nonneg (mul_nonneg hT.le (Convergence.rosselandWeight_near hh hk hc hT (ha0.trans hν)).2.2.le)]
      exact hle ν hν
  constructor
  · have := hiT.const_mul T⁻¹
    refine this.congr (.of_forall fun ν => ?_)
    simp only
    field_simp
  · rw [← integral_const_mul]
    calc _ ≤ ∫ ν in Ioi a, 3072 * ((k * T) ^ 3 / (h ^ 2 * c ^ 2)) * exp (-(h / (k * T) / 2) * ν) :=
          setIntegral_mono_on hiT hi measurableSet_Ioi hle
      _ = _ := by
        rw [integral_const_mul, integral_exp_mul_Ioi hb a]
        rw [show -(h / (k * T) / 2) * a = -(h * a / (k * T)) / 2 by ring]
        field_simp
        norm_num

/-- low frequencies -/
theorem lawDT_head (hh : 0 < h) (hk : 0 < k) (hc : 0 < c) (hT : 0 < T) (a : ℝ) {y : ℝ} (ha : h * a / (k * T) ≤ y) :
    IntegrableOn (planckLawDT h k c T) (Ioc 0 a) ∧
    T * ∫ ν in Ioc 0 a, planckLawDT h k c T ν ≤ (1 + y) * ∫ ν in Ioc 0 a, planckLaw h k c T ν := by
  have i := (law_integral hh hk hc hT).1.mono_set (Ioc_subset_Ioi_self : Ioc 0 a ⊆ Ioi 0)
  have hle : ∀ ν ∈ Ioc 0 a, T * planckLawDT h k c T ν ≤ (1 + y) * planckLaw h k c T ν := by
    intro ν hν
    have hx : h * ν / (k * T) ≤ y := le_trans (by have := hν.2; gcongr) ha
    have := (lawDT_eq hh hk hc hT hν.1 rfl).2.2.2.2
    have hL := law_nonneg hh hk hc hT hν.1
    nlinarith
  have hi := i.const_mul (1 + y)
  have hiT : IntegrableOn (fun ν => T * planckLawDT h k c T ν) (Ioc 0 a) := by
    refine Integrable.mono' hi ?_ ?_
    · exact (((Convergence.cont_planckLawDT hh hk hc hT).mono Ioc_subset_Ioi_self).const_smul T).aestronglyMeasurable measurableSet_Ioc
    · refine (ae_restrict_iff' measurableSet_Ioc).2 (.of_forall fun ν hν => ?_)
      rw [Real.norm_of_nonneg (mul_nonneg hT.le (Convergence.rosselandWeight_near hh hk hc hT hν.1).2.2.le)]
      exact hle ν hν
  constructor
  · have := hiT.const_mul T⁻¹
    refine this.congr (.of_forall fun ν => ?_)
    simp only
    field_simp
  · rw [← integral_const_mul, ← integral_const_mul]
    exact setIntegral_mono_on hiT hi measurableSet_Ioc hle

/-- less than `7·10⁻¹¹` of the weights of the Rosseland mean is outside of the range from `10⁻³` to `10³` times `kT/h` -/
theorem lostDT (hh : 0 < h) (hk : 0 < k) (hc : 0 < c) (hT : 0 < T) {a b : ℝ} (ha : 0 ≤ a) (ha' : a ≤ 1.001e-3 * (k * T / h))
    (hb : 1e3 * (k * T / h) ≤ b) :
    IntegrableOn (planckLawDT h k c T) (Ioi 0) ∧
    (∫ ν in Ioi (0 : ℝ), planckLaw h k c T ν) ≤ T * ∫ ν in Ioi (0 : ℝ), planckLawDT h k c T ν ∧
    (∫ ν in Ioc 0 a, planckLawDT h k c T ν) + (∫ ν in Ioi b, planckLawDT h k c T ν) ≤
      7e-11 * ∫ ν in Ioi (0 : ℝ), planckLawDT h k c T ν := by
  have hq : 0 < k * T / h := by positivity
  have hQ : 0 < (k * T) ^ 4 / (h ^ 3 * c ^ 2) := by positivity
  have i1 := (lawDT_head hh hk hc hT (k * T / h) (le_refl _)).1
  have i2 := (lawDT_tail hh hk hc hT (le_refl (k * T / h))).1
  have i : IntegrableOn (planckLawDT h k c T) (Ioi 0) := by
    rw [← Ioc_union_Ioi_eq_Ioi hq.le]
    exact i1.union i2
  obtain ⟨iL, eI⟩ := law_integral hh hk hc hT
  have hge : (∫ ν in Ioi (0 : ℝ), planckLaw h k c T ν) ≤ T * ∫ ν in Ioi (0 : ℝ), planckLawDT h k c T ν := by
    rw [← integral_const_mul]
    exact setIntegral_mono_on iL (i.const_mul T) measurableSet_Ioi fun ν hν => (lawDT_eq hh hk hc hT hν rfl).2.2.2.1
  refine ⟨i, hge, ?_⟩
  have hx : h * a / (k * T) ≤ 1.001e-3 := by
    rw [div_le_iff₀ (by positivity)]
    calc h * a ≤ h * (1.001e-3 * (k * T / h)) := by gcongr
      _ = _ := by field_simp
  have h1 := (lawDT_head hh hk hc hT a hx).2
  have h2 := (lawDT_tail hh hk hc hT (a := b) (by linarith)).2
  have h3 := lost hh hk hc hT ha ha' hb
  have h3' : 0 ≤ ∫ ν in Ioi b, planckLaw h k c T ν := setIntegral_nonneg measurableSet_Ioi fun ν hν =>
    law_nonneg hh hk hc hT (lt_trans (by linarith : 0 < b) hν)
  have h4 : exp (-(h * b / (k * T)) / 2) ≤ 1 / 10 ^ 100 := by
    refine le_trans (Real.exp_le_exp.2 ?_) exp_neg_500
    have : 1e3 ≤ h * b / (k * T) := by
      rw [le_div_iff₀ (by positivity)]
      calc _ = h * (1e3 * (k * T / h)) := by field_simp
        _ ≤ _ := by gcongr
    norm_num at this ⊢
    linarith
  have h5 : 6144 * ((k * T) ^ 4 / (h ^ 3 * c ^ 2)) * exp (-(h * b / (k * T)) / 2) ≤
      6144 * ((k * T) ^ 4 / (h ^ 3 * c ^ 2)) * (1 / 10 ^ 100) := by gcongr
  have hpi : 81 ≤ π ^ 4 := by
    calc (81 : ℝ) = 3 ^ 4 := by norm_num
      _ ≤ π ^ 4 := pow_le_pow_left₀ (by norm_num) pi_gt_three.le 4
  have h6 : 10 * ((k * T) ^ 4 / (h ^ 3 * c ^ 2)) ≤ ∫ ν in Ioi (0 : ℝ), planckLaw h k c T ν := by
    rw [eI]; gcongr; linarith
  have h7 : T * ((∫ ν in Ioc 0 a, planckLawDT h k c T ν) + ∫ ν in Ioi b, planckLawDT h k c T ν) ≤
      T * (7e-11 * ∫ ν in Ioi (0 : ℝ), planckLawDT h k c T ν) := by
    norm_num at h1 h2 h3 h5 hge ⊢
    linarith
  exact le_of_mul_le_mul_left h7 hT

set_option maxHeartbeats 1000000 in
/-- the Rosseland mean over the sampled part of the spectrum and over all of it -/
theorem rosseland_near (hh : 0 < h) (hk : 0 < k) (hc : 0 < c) (hT : 0 < T) {S ρ κ₀ K : ℝ} (hS : 0 < S) (hρ : 0 < ρ)
    (hn : Negligible S h k c T) {α : ℝ → ℝ} (hα : ContinuousOn α (Ioi 0)) (hκ : 0 < κ₀) (h0 : ∀ ν, 0 < ν → κ₀ ≤ α ν)
    (hK : ∀ ν, 0 < ν → α ν ≤ K) (s1 : S ≤ 1e-12 * κ₀) (s2 : S * T ≤ 1e-13 * ∫ ν in Ioi (0 : ℝ), planckLaw h k c T ν)
    (s3 : S * (K * T) ≤ 1e-13 * (ρ * ∫ ν in Ioi (0 : ℝ), planckLaw h k c T ν)) :
    Tendsto (fun N : ℕ => groupRosselandMean S h k c ρ T 0 none N α) atTop (𝓝 (rosselandIntegralMean S h k c ρ T 0 none α)) ∧
    0 < rosselandIntegralMean S h k c ρ T 0 none α ∧ 0 < wholeRosselandMean h k c ρ T α ∧
    |1 / rosselandIntegralMean S h k c ρ T 0 none α - 1 / wholeRosselandMean h k c ρ T α| ≤ 1e-10 * (ρ / κ₀) := by
  obtain ⟨A, hA⟩ : ∃ A, A = groupFrom S h k T 0 none := ⟨_, rfl⟩
  obtain ⟨B, hB⟩ : ∃ B, B = groupTo S h k T 0 none := ⟨_, rfl⟩
  obtain ⟨hA0, hAB, hA1, hA2, hB1, -, -, -, hI⟩ := weights hh hk hc hT hS hn hA hB
  obtain ⟨i, hD, hlost⟩ := lostDT hh hk hc hT hA0.le hA1 hB1
  obtain ⟨I, eI⟩ : ∃ I, I = ∫ ν in Ioi (0 : ℝ), planckLaw h k c T ν := ⟨_, rfl⟩
  rw [← eI] at hI hD s2 s3
  have h80 := exp_neg_80
  have h80' := Real.exp_pos (-80)
  have hl10 : 0 < Real.log 10 := Real.log_pos (by norm_num)
  have hl10' : Real.log 10 ≤ 2.4 := by
    have : Real.log 10 ≤ Real.log (exp 2.4) := Real.log_le_log (by norm_num) (by
      have e : exp 2.4 = exp 1 ^ (2.4 : ℝ) := by rw [Real.exp_one_rpow]
      have e2 : exp 2.4 = exp 1.2 * exp 1.2 := by rw [← Real.exp_add]; norm_num
      have e3 : (3.2 : ℝ) ≤ exp 1.2 := by
        have := Real.sum_le_exp_of_nonneg (x := 1.2) (by norm_num) 5
        norm_num [Finset.sum_range_succ, Nat.factorial] at this
        norm_num
        linarith
      rw [e2]
      nlinarith)
    rwa [Real.log_exp] at this
  have hKpos : 0 < K := lt_of_lt_of_le hκ ((h0 1 one_pos).trans (hK 1 one_pos))
  have hκK : κ₀ ≤ K := (h0 1 one_pos).trans (hK 1 one_pos)
  have hαp : ∀ ν, 0 < ν → 0 < α ν := fun ν hν => hκ.trans_le (h0 ν hν)
  -- the mean free paths
  have hcont : ContinuousOn (fun ν => ρ / α ν) (Ioi 0) := continuousOn_const.div hα fun ν hν => (hαp ν hν).ne'
  have hcontS : ContinuousOn (fun ν => ρ / (α ν + S)) (Ioi 0) :=
    continuousOn_const.div (hα.add_const S) fun ν hν => by have := hαp ν hν; linarith
  have hR0 : 0 < ρ / κ₀ := by positivity
  have hpath : ∀ ν, 0 < ν → 0 < ρ / α ν ∧ ρ / α ν ≤ ρ / κ₀ := fun ν hν =>
    ⟨div_pos hρ (hαp ν hν), by have := h0 ν hν; gcongr⟩
  have hDT : ∀ ν, 0 < ν → 0 < planckLawDT h k c T ν := fun ν hν => (Convergence.rosselandWeight_near hh hk hc hT hν).2.2
  have iP : IntegrableOn (fun ν => ρ / α ν * planckLawDT h k c T ν) (Ioi 0) := by
    refine Integrable.mono' (i.const_mul (ρ / κ₀)) ?_ ?_
    · exact (hcont.mul (Convergence.cont_planckLawDT hh hk hc hT)).aestronglyMeasurable measurableSet_Ioi
    · refine (ae_restrict_iff' measurableSet_Ioi).2 (.of_forall fun ν hν => ?_)
      rw [Real.norm_of_nonneg (mul_nonneg (hpath ν hν).1.le (hDT ν hν).le)]
      exact mul_le_mul_of_nonneg_right (hpath ν hν).2 (hDT ν hν).le
  have eD := split3 i hA0.le hAB.le
  have eP := split3 iP hA0.le hAB.le
  have hB0 : 0 < B := hA0.trans hAB
  have hsub : uIcc A B ⊆ Ioi 0 := by
    rw [uIcc_of_le hAB.le]; exact fun x hx => lt_of_lt_of_le hA0 hx.1
  have iD : IntervalIntegrable (planckLawDT h k c T) volume A B :=
    ((Convergence.cont_planckLawDT hh hk hc hT).mono hsub).intervalIntegrable
  have iPm : IntervalIntegrable (fun ν => ρ / α ν * planckLawDT h k c T ν) volume A B :=
    ((hcont.mul (Convergence.cont_planckLawDT hh hk hc hT)).mono hsub).intervalIntegrable
  have iW : IntervalIntegrable (rosselandWeight h k c T) volume A B := by
    have := (Convergence.rosseland_pieces hh hk hc hT (f := fun _ => 1) continuousOn_const (B := B) hA0).2 hAB.le
    simpa using this
  have iS : IntervalIntegrable (fun ν => ρ / (α ν + S) * rosselandWeight h k c T ν) volume A B :=
    (Convergence.rosseland_pieces hh hk hc hT hcontS (B := B) hA0).2 hAB.le
  -- heads and tails
  have d1 : 0 ≤ ∫ ν in Ioc 0 A, planckLawDT h k c T ν := setIntegral_nonneg measurableSet_Ioc fun ν hν => (hDT ν hν.1).le
  have d2 : 0 ≤ ∫ ν in Ioi B, planckLawDT h k c T ν := setIntegral_nonneg measurableSet_Ioi fun ν hν => (hDT ν (hB0.trans hν)).le
  have p1 : ∫ ν in Ioc 0 A, ρ / α ν * planckLawDT h k c T ν ≤ ρ / κ₀ * ∫ ν in Ioc 0 A, planckLawDT h k c T ν := by
    rw [← integral_const_mul]
    exact setIntegral_mono_on (iP.mono_set Ioc_subset_Ioi_self) ((i.mono_set Ioc_subset_Ioi_self).const_mul _) measurableSet_Ioc
      fun ν hν => mul_le_mul_of_nonneg_right (hpath ν hν.1).2 (hDT ν hν.1).le
  have p2 : ∫ ν in Ioi B, ρ / α ν * planckLawDT h k c T ν ≤ ρ / κ₀ * ∫ ν in Ioi B, planckLawDT h k c T ν := by
    rw [← integral_const_mul]
    exact setIntegral_mono_on (iP.mono_set (Ioi_subset_Ioi hB0.le)) ((i.mono_set (Ioi_subset_Ioi hB0.le)).const_mul _) measurableSet_Ioi
      fun ν hν => mul_le_mul_of_nonneg_right (hpath ν (hB0.trans hν)).2 (hDT ν (hB0.trans hν)).le
  have p3 : 0 ≤ ∫ ν in Ioc 0 A, ρ / α ν * planckLawDT h k c T ν :=
    setIntegral_nonneg measurableSet_Ioc fun ν hν => mul_nonneg (hpath ν hν.1).1.le (hDT ν hν.1).le
  have p4 : 0 ≤ ∫ ν in Ioi B, ρ / α ν * planckLawDT h k c T ν :=
    setIntegral_nonneg measurableSet_Ioi fun ν hν => mul_nonneg (hpath ν (hB0.trans hν)).1.le (hDT ν (hB0.trans hν)).le
  have p5 : ∫ ν in Ioi (0 : ℝ), ρ / α ν * planckLawDT h k c T ν ≤ ρ / κ₀ * ∫ ν in Ioi (0 : ℝ), planckLawDT h k c T ν := by
    rw [← integral_const_mul]
    exact setIntegral_mono_on iP (i.const_mul _) measurableSet_Ioi
      fun ν hν => mul_le_mul_of_nonneg_right (hpath ν hν).2 (hDT ν hν).le
  have p6 : ρ / K * ∫ ν in Ioi (0 : ℝ), planckLawDT h k c T ν ≤ ∫ ν in Ioi (0 : ℝ), ρ / α ν * planckLawDT h k c T ν := by
    rw [← integral_const_mul]
    refine setIntegral_mono_on (i.const_mul _) iP measurableSet_Ioi fun ν hν => mul_le_mul_of_nonneg_right ?_ (hDT ν hν).le
    have := hK ν hν; have := hαp ν hν
    gcongr
  -- the sampled part
  have w1 : (∫ ν in A..B, rosselandWeight h k c T ν) ≤ ∫ ν in A..B, planckLawDT h k c T ν :=
    intervalIntegral.integral_mono_on hAB.le iW iD fun ν hν => (Convergence.rosselandWeight_near hh hk hc hT (hA0.trans_le hν.1)).2.1
  have hsq : 1 - 3e-16 ≤ (1 - exp (-80)) ^ 2 := by norm_num at h80 ⊢; nlinarith
  have w2 : (1 - 3e-16) * (∫ ν in A..B, planckLawDT h k c T ν) ≤ ∫ ν in A..B, rosselandWeight h k c T ν := by
    rw [← intervalIntegral.integral_const_mul]
    refine intervalIntegral.integral_mono_on hAB.le (iD.const_mul _) iW fun ν hν => ?_
    have hν0 := hA0.trans_le hν.1
    exact (mul_le_mul_of_nonneg_right hsq (hDT ν hν0).le).trans (Convergence.rosselandWeight_near hh hk hc hT hν0).1
  have hrw : ∀ ν, 0 < ν → 0 ≤ rosselandWeight h k c T ν := fun ν hν =>
    le_trans (mul_nonneg (sq_nonneg _) (hDT ν hν).le) (Convergence.rosselandWeight_near hh hk hc hT hν).1
  have q1 : (∫ ν in A..B, ρ / (α ν + S) * rosselandWeight h k c T ν) ≤ ∫ ν in A..B, ρ / α ν * planckLawDT h k c T ν := by
    refine intervalIntegral.integral_mono_on hAB.le iS iPm fun ν hν => ?_
    have hν0 := hA0.trans_le hν.1
    have := hαp ν hν0
    refine mul_le_mul ?_ (Convergence.rosselandWeight_near hh hk hc hT hν0).2.1 (hrw ν hν0) (by positivity)
    gcongr
    linarith
  have q2 : (1 - 2e-12) * (∫ ν in A..B, ρ / α ν * planckLawDT h k c T ν) ≤
      ∫ ν in A..B, ρ / (α ν + S) * rosselandWeight h k c T ν := by
    rw [← intervalIntegral.integral_const_mul]
    refine intervalIntegral.integral_mono_on hAB.le (iPm.const_mul _) iS fun ν hν => ?_
    have hν0 := hA0.trans_le hν.1
    have hαν := hαp ν hν0
    have h1 : (1 - 1e-12) * (ρ / α ν) ≤ ρ / (α ν + S) := by
      rw [← mul_div_assoc, div_le_div_iff₀ hαν (by linarith)]
      have : S ≤ 1e-12 * α ν := s1.trans (by have := h0 ν hν0; gcongr)
      have : 0 < ρ * α ν := by positivity
      have e : (1 - 1e-12) * ρ * (α ν + S) = ρ * ((1 - 1e-12) * (α ν + S)) := by ring
      rw [e]
      gcongr
      norm_num at *
      linarith
    have h2 : (1 - 3e-16) * planckLawDT h k c T ν ≤ rosselandWeight h k c T ν :=
      (mul_le_mul_of_nonneg_right hsq (hDT ν hν0).le).trans (Convergence.rosselandWeight_near hh hk hc hT hν0).1
    have h3 : 0 < ρ / α ν * planckLawDT h k c T ν := mul_pos (hpath ν hν0).1 (hDT ν hν0)
    calc (1 - 2e-12) * (ρ / α ν * planckLawDT h k c T ν)
        ≤ ((1 - 1e-12) * (1 - 3e-16)) * (ρ / α ν * planckLawDT h k c T ν) := by
          refine mul_le_mul_of_nonneg_right ?_ h3.le; norm_num
      _ = ((1 - 1e-12) * (ρ / α ν)) * ((1 - 3e-16) * planckLawDT h k c T ν) := by ring
      _ ≤ _ := mul_le_mul h1 h2 (mul_nonneg (by norm_num) (hDT ν hν0).le) (by positivity)
  have m0 : 0 ≤ ∫ ν in A..B, ρ / α ν * planckLawDT h k c T ν := intervalIntegral.integral_nonneg hAB.le fun ν hν =>
    mul_nonneg (hpath ν (hA0.trans_le hν.1)).1.le (hDT ν (hA0.trans_le hν.1)).le
  have p7 : ρ / K * (∫ ν in A..B, planckLawDT h k c T ν) ≤ ∫ ν in A..B, ρ / α ν * planckLawDT h k c T ν := by
    rw [← intervalIntegral.integral_const_mul]
    refine intervalIntegral.integral_mono_on hAB.le (iD.const_mul _) iPm fun ν hν => ?_
    have hν0 := hA0.trans_le hν.1
    refine mul_le_mul_of_nonneg_right ?_ (hDT ν hν0).le
    have := hK ν hν0; have := hαp ν hν0
    gcongr
  have key := @Convergence.groupRosseland_tendsto h k c hh hk hc S ρ T 0 none hS hT (hA ▸ hA0) (hA ▸ hB ▸ hAB) α hα
    (fun ν hν => (hαp ν hν).le) (fun ν hν _ => by
      have := h0 ν (lt_trans (hA ▸ hA0) hν)
      norm_num at s1
      linarith)
  unfold rosselandIntegralMean wholeRosselandMean
  unfold rosselandIntegralMean at key
  rw [← hA, ← hB] at key ⊢
  -- numbers only
  generalize (∫ ν in Ioi (0 : ℝ), planckLawDT h k c T ν) = D at *
  generalize (∫ ν in Ioi (0 : ℝ), ρ / α ν * planckLawDT h k c T ν) = P at *
  generalize (∫ ν in Ioc 0 A, planckLawDT h k c T ν) = Dh at *
  generalize (∫ ν in Ioi B, planckLawDT h k c T ν) = Dt at *
  generalize (∫ ν in Ioc 0 A, ρ / α ν * planckLawDT h k c T ν) = Ph at *
  generalize (∫ ν in Ioi B, ρ / α ν * planckLawDT h k c T ν) = Pt at *
  generalize (∫ ν in A..B, planckLawDT h k c T ν) = Dm at *
  generalize (∫ ν in A..B, ρ / α ν * planckLawDT h k c T ν) = Pm at *
  generalize (∫ ν in A..B, rosselandWeight h k c T ν) = W at *
  generalize (∫ ν in A..B, ρ / (α ν + S) * rosselandWeight h k c T ν) = Q at *
  obtain ⟨R, hR⟩ : ∃ R, R = ρ / κ₀ := ⟨_, rfl⟩
  obtain ⟨R', hR'⟩ : ∃ R', R' = ρ / K := ⟨_, rfl⟩
  have hRR : R' ≤ R := by rw [hR, hR']; gcongr
  have hR'0 : 0 < R' := by rw [hR']; positivity
  rw [← hR] at p1 p2 p5 hR0 ⊢
  rw [← hR'] at p6 p7
  have hD0 : 0 < D := by
    have : 0 < T * D := hI.trans_le hD
    exact (mul_pos_iff_of_pos_left hT).1 this
  have hσ1 : S ≤ 1e-13 * D := by
    refine le_of_mul_le_mul_right (le_trans s2 ?_) hT
    norm_num
    linarith
  have hσ2 : S ≤ 1e-13 * (R' * D) := by
    have e : S * (K * T) ≤ 1e-13 * (R' * D) * (K * T) := by
      refine le_trans s3 ?_
      have e2 : 1e-13 * (R' * D) * (K * T) = 1e-13 * (ρ * (T * D)) := by rw [hR']; field_simp
      rw [e2]
      gcongr
    exact le_of_mul_le_mul_right e (by positivity)
  have hlS : S * Real.log 10 ≤ 2.4 * S := by nlinarith
  have hlS0 : 0 < S * Real.log 10 := by positivity
  generalize S * Real.log 10 = σ at *
  -- everything relative to `D` and `R D`
  have hRD : 0 < R' * D := by positivity
  have hRD' : R' * D ≤ R * D := by gcongr
  have hlostR : R * Dh + R * Dt ≤ 7e-11 * (R * D) := by
    have := mul_le_mul_of_nonneg_left hlost hR0.le
    linarith
  have W1 : W ≤ D := by linarith
  have W2 : (1 - 7.1e-11) * D ≤ W := by norm_num at *; linarith
  have W0 : 0 < W := by norm_num at W2; linarith
  have P0 : 0 < P := by linarith
  have Q1 : Q ≤ P := by linarith
  have Q2 : P - 7.3e-11 * (R * D) ≤ Q := by norm_num at *; linarith
  have Q3 : σ < Q := by
    have e : R' * ((1 - 7.1e-11) * D) ≤ R' * Dm := by gcongr; norm_num at *; linarith
    norm_num at *
    linarith
  have Qσ : 0 < Q + σ := by linarith
  refine ⟨key (by norm_num at *; linarith) Q3, by positivity, by positivity, ?_⟩
  rw [one_div_div, one_div_div, abs_le]
  constructor
  · have : P / D - 7.3e-11 * R ≤ (Q + σ) / W := by
      calc P / D - 7.3e-11 * R = (P - 7.3e-11 * (R * D)) / D := by field_simp
        _ ≤ (Q + σ) / D := div_le_div_of_nonneg_right (by linarith) hD0.le
        _ ≤ (Q + σ) / W := div_le_div_of_nonneg_left Qσ.le W0 W1
    norm_num at *
    linarith
  · have hσ3 : σ ≤ 2.4e-13 * (R * D) := by norm_num at *; linarith
    have : (Q + σ) / W ≤ P / D + 1e-10 * R := by
      rw [div_le_iff₀ W0]
      have e1 : P / D * D = P := by field_simp
      have hPD : P / D ≤ R := by rw [div_le_iff₀ hD0]; exact p5
      have hPD0 : 0 < P / D := by positivity
      have e2 : (P / D + 1e-10 * R) * ((1 - 7.1e-11) * D) ≤ (P / D + 1e-10 * R) * W := by gcongr
      refine le_trans ?_ e2
      have e3 : (P / D + 1e-10 * R) * ((1 - 7.1e-11) * D) = (1 - 7.1e-11) * P + 1e-10 * (1 - 7.1e-11) * (R * D) := by
        field_simp
      rw [e3]
      norm_num at *
      linarith
    linarith

end Opac.WholeSpectrum
