import Verif.Lemmas.WholeSpectrum

/-!
# The Rosseland mean of a coefficient `∝ e^{-hν/kT} / B`
-/

namespace Opac.WholeSpectrum
open Opac Spec MeasureTheory Set Real Filter Topology

variable {h k c T : ℝ}

/-- `ν B` and the two spectra -/
theorem law_hasDeriv (hh : 0 < h) (hk : 0 < k) (hc : 0 < c) (hT : 0 < T) {ν : ℝ} (hν : 0 < ν) :
    HasDerivAt (fun ν => ν * planckLaw h k c T ν) (4 * planckLaw h k c T ν - T * planckLawDT h k c T ν) ν := by
  have hx : 0 < h * ν / (k * T) := by positivity
  have hE : 0 < exp (h * ν / (k * T)) - 1 := by linarith [Real.add_one_lt_exp hx.ne']
  have d1 : HasDerivAt (fun ν : ℝ => exp (h * ν / (k * T)) - 1) (exp (h * ν / (k * T)) * (h * 1 / (k * T))) ν :=
    ((((hasDerivAt_id' ν).const_mul h).div_const (k * T)).exp).sub_const 1
  have d2 : HasDerivAt (fun ν : ℝ => 2 * h * ν ^ 3 / c ^ 2) (2 * h * (3 * ν ^ 2) / c ^ 2) ν := by
    have := ((hasDerivAt_pow 3 ν).const_mul (2 * h)).div_const (c ^ 2)
    simpa using this
  have d3 := (hasDerivAt_id' ν).mul (d2.div d1 hE.ne')
  refine d3.congr_deriv ?_
  simp only [Pi.div_apply]
  have hexp : exp (-(h * ν / (k * T))) = (exp (h * ν / (k * T)))⁻¹ := Real.exp_neg _
  unfold planckLaw planckLawDT
  rw [hexp]
  have h0 := Real.exp_pos (h * ν / (k * T))
  generalize exp (h * ν / (k * T)) = E at *
  have hE' : E - 1 ≠ 0 := hE.ne'
  have e : 1 - E⁻¹ = (E - 1) / E := by field_simp
  rw [e]
  field_simp
  ring

/-- the weights of the Rosseland mean over a part of the spectrum -/
theorem lawDT_integral (hh : 0 < h) (hk : 0 < k) (hc : 0 < c) (hT : 0 < T) {A B : ℝ} (hA : 0 < A) (hAB : A ≤ B)
    (hA' : A ≤ 1.001e-3 * (k * T / h)) :
    T * ∫ ν in A..B, planckLawDT h k c T ν ≤ (4 + 1e-9) * ∫ ν in Ioi (0 : ℝ), planckLaw h k c T ν := by
  have hsub : uIcc A B ⊆ Ioi 0 := by
    rw [uIcc_of_le hAB]; exact fun x hx => lt_of_lt_of_le hA hx.1
  have i1 : IntervalIntegrable (planckLaw h k c T) volume A B :=
    ((Convergence.cont_planckLaw hh hk hc hT).mono hsub).intervalIntegrable
  have i2 : IntervalIntegrable (planckLawDT h k c T) volume A B :=
    ((Convergence.cont_planckLawDT hh hk hc hT).mono hsub).intervalIntegrable
  have e := intervalIntegral.integral_eq_sub_of_hasDerivAt (fun ν hν => law_hasDeriv hh hk hc hT (hsub hν))
    ((i1.const_mul 4).sub (i2.const_mul T))
  rw [intervalIntegral.integral_sub (i1.const_mul 4) (i2.const_mul T), intervalIntegral.integral_const_mul,
    intervalIntegral.integral_const_mul] at e
  have hB : 0 ≤ B * planckLaw h k c T B := mul_nonneg (hA.le.trans hAB) (law_nonneg hh hk hc hT (hA.trans_le hAB))
  obtain ⟨i, eI⟩ := law_integral hh hk hc hT
  have hle : ∫ ν in A..B, planckLaw h k c T ν ≤ ∫ ν in Ioi (0 : ℝ), planckLaw h k c T ν := by
    rw [intervalIntegral.integral_of_le hAB]
    refine setIntegral_mono_set i ?_ (Ioc_subset_Ioi_self.trans (Ioi_subset_Ioi hA.le)).eventuallyLE
    exact (ae_restrict_iff' measurableSet_Ioi).2 (.of_forall fun ν hν => law_nonneg hh hk hc hT hν)
  have hx : 0 < h * A / (k * T) := by positivity
  have h1 : A * planckLaw h k c T A ≤ 2 * (k * T) / c ^ 2 * A ^ 3 := by
    have := Real.add_one_le_exp (h * A / (k * T))
    unfold planckLaw
    calc A * (2 * h * A ^ 3 / c ^ 2 / (exp (h * A / (k * T)) - 1)) ≤ A * (2 * h * A ^ 3 / c ^ 2 / (h * A / (k * T))) := by
          gcongr; linarith
      _ = _ := by field_simp
  have h2 : A ^ 3 ≤ (1.001e-3 * (k * T / h)) ^ 3 := pow_le_pow_left₀ hA.le hA' 3
  have h3 : 2 * (k * T) / c ^ 2 * (1.001e-3 * (k * T / h)) ^ 3 = 2 * 1.001e-3 ^ 3 * ((k * T) ^ 4 / (h ^ 3 * c ^ 2)) := by
    field_simp
  have h4 : 2 * (k * T) / c ^ 2 * A ^ 3 ≤ 2 * (k * T) / c ^ 2 * (1.001e-3 * (k * T / h)) ^ 3 := by gcongr
  have hQ : 0 < (k * T) ^ 4 / (h ^ 3 * c ^ 2) := by positivity
  have hpi : 81 ≤ π ^ 4 := by
    calc (81 : ℝ) = 3 ^ 4 := by norm_num
      _ ≤ π ^ 4 := pow_le_pow_left₀ (by norm_num) pi_gt_three.le 4
  have h5 : 10 * ((k * T) ^ 4 / (h ^ 3 * c ^ 2)) ≤ ∫ ν in Ioi (0 : ℝ), planckLaw h k c T ν := by
    rw [eI]; gcongr; linarith
  norm_num at h3 ⊢
  linarith

/-- `x⁷ e⁻ˣ` from 5 to 9 -/
theorem seventh {x : ℝ} (h1 : 5 ≤ x) (h2 : x ≤ 9) : 520 * exp x ≤ x ^ 7 := by
  have hc : ConcaveOn ℝ (Ioi 0) (fun x : ℝ => 7 * Real.log x - x) := by
    have := (strictConcaveOn_log_Ioi.concaveOn.smul (by norm_num : (0 : ℝ) ≤ 7)).sub (convexOn_id (convex_Ioi (0 : ℝ)))
    exact this
  have hm := hc.min_le_of_mem_Icc (x := 5) (y := 9) (z := x) (by norm_num) (by norm_num) ⟨h1, h2⟩
  have e5 : 520 * exp 5 ≤ 5 ^ 7 := by
    have : exp 5 = exp 1 ^ (5 : ℕ) := by rw [← Real.exp_nat_mul]; norm_num
    rw [this]
    have := pow_le_pow_left₀ (Real.exp_pos 1).le Real.exp_one_lt_d9.le 5
    norm_num at this ⊢
    linarith
  have e9 : 520 * exp 9 ≤ 9 ^ 7 := by
    have : exp 9 = exp 1 ^ (9 : ℕ) := by rw [← Real.exp_nat_mul]; norm_num
    rw [this]
    have := pow_le_pow_left₀ (Real.exp_pos 1).le Real.exp_one_lt_d9.le 9
    norm_num at this ⊢
    linarith
  have key : ∀ y : ℝ, 0 < y → (520 * exp y ≤ y ^ 7 ↔ Real.log 520 ≤ 7 * Real.log y - y) := by
    intro y hy
    rw [← Real.log_le_log_iff (by positivity) (by positivity), Real.log_mul (by norm_num) (Real.exp_pos y).ne', Real.log_exp,
      Real.log_pow]
    push_cast
    constructor <;> intro h <;> linarith
  rw [key x (by linarith)]
  refine le_trans (le_min ?_ ?_) hm
  · exact (key 5 (by norm_num)).1 e5
  · exact (key 9 (by norm_num)).1 e9

/-- sums over the samples between two frequencies -/
theorem part_tendsto {A B a b w : ℝ} (hA : 0 < A) (h1 : A < a) (h2 : a < b) (h3 : b < B) :
    Tendsto (fun N : ℕ => ∑ i ∈ Finset.range N, (Ioc a b).indicator (fun _ => w) (binCentre A B N i) *
      (binCentre A B N i * binWidth A B N)) atTop (𝓝 (w * (b - a) / Real.log 10)) := by
  have ht := Convergence.logMidpoint_tendsto (w := (Ioc a b).indicator (fun _ => w)) (M := |w|) hA (by linarith : A < B)
    (fun x _ => by
      by_cases hx : x ∈ Ioc a b
      · rw [indicator_of_mem hx]
      · rw [indicator_of_notMem hx, abs_zero]; exact abs_nonneg w)
    (s := {a, b}) ((Set.finite_singleton b).insert a).countable (fun x _ hx => by
      have hxa : x ≠ a := fun h => hx (by simp [h])
      have hxb : x ≠ b := fun h => hx (by simp [h])
      by_cases hin : x ∈ Ioo a b
      · refine (continuousAt_const (y := w)).congr ?_
        filter_upwards [isOpen_Ioo.mem_nhds hin] with y hy
        rw [indicator_of_mem (Ioo_subset_Ioc_self hy)]
      · have hout : x ∈ (Icc a b)ᶜ := by
          intro h
          exact hin ⟨lt_of_le_of_ne h.1 hxa.symm, lt_of_le_of_ne h.2 hxb⟩
        refine (continuousAt_const (y := (0 : ℝ))).congr ?_
        filter_upwards [isClosed_Icc.isOpen_compl.mem_nhds hout] with y hy
        rw [indicator_of_notMem (fun h => hy (Ioc_subset_Icc_self h))])
  have e : ∫ ν in A..B, (Ioc a b).indicator (fun _ => w) ν = w * (b - a) := by
    rw [intervalIntegral.integral_of_le (by linarith), setIntegral_indicator measurableSet_Ioc,
      inter_eq_self_of_subset_right (Ioc_subset_Ioc h1.le h3.le), setIntegral_const]
    simp [h2.le, mul_comm]
  rw [e] at ht
  exact ht

set_option maxHeartbeats 1000000 in
/-- the Rosseland mean of `C e^{-hν/kT} / B` is less than a twelfth of its Planck mean over all frequencies -/
theorem rosseland_small (hh : 0 < h) (hk : 0 < k) (hc : 0 < c) (hT : 0 < T) {S ρ C I : ℝ} (hS : 0 < S) (hρ : 0 < ρ) (hC : 0 < C)
    (hn : Negligible S h k c T) (hI : I = ∫ ν in Ioi (0 : ℝ), planckLaw h k c T ν) (hSC : S ≤ 1e-12 * (C * (k * T / h) / I))
    {α : ℝ → ℝ} (hα : ∀ ν, 0 < ν → α ν = C * exp (-(h * ν / (k * T))) / (planckLaw h k c T ν + S)) :
    ∀ᶠ N : ℕ in atTop, groupRosselandMean S h k c ρ T 0 none N α ≤ 1 / 12 * (C * (k * T / h) / (ρ * I)) := by
  obtain ⟨A, hA⟩ : ∃ A, A = groupFrom S h k T 0 none := ⟨_, rfl⟩
  obtain ⟨B, hB⟩ : ∃ B, B = groupTo S h k T 0 none := ⟨_, rfl⟩
  obtain ⟨hA0, hAB, hA1, hA2, hB1, -, -, -, hI0⟩ := weights hh hk hc hT hS hn hA hB
  obtain ⟨-, eI⟩ := law_integral hh hk hc hT
  rw [← hI] at hI0 eI
  obtain ⟨q, hq⟩ : ∃ q, q = k * T / h := ⟨_, rfl⟩
  have hq0 : 0 < q := by rw [hq]; positivity
  obtain ⟨b0, hb0⟩ : ∃ b0, b0 = 2 * (k * T) ^ 3 / (h ^ 2 * c ^ 2) := ⟨_, rfl⟩
  have hb : 0 < b0 := by rw [hb0]; positivity
  have eI' : I = b0 * q * (π ^ 4 / 15) := by rw [eI, hb0, hq]; field_simp
  rw [← hq] at hA1 hA2 hB1 hSC ⊢
  have hpi1 : 97 ≤ π ^ 4 := by
    calc (97 : ℝ) ≤ 3.1415 ^ 4 := by norm_num
      _ ≤ π ^ 4 := pow_le_pow_left₀ (by norm_num) pi_gt_d4.le 4
  have hpi2 : π ^ 4 ≤ 97.5 := by
    calc π ^ 4 ≤ 3.1416 ^ 4 := pow_le_pow_left₀ pi_pos.le pi_lt_d4.le 4
      _ ≤ 97.5 := by norm_num
  -- the weight of one sample between `5 kT/h` and `9 kT/h`
  obtain ⟨w, hw⟩ : ∃ w, w = 519 * (ρ * b0 ^ 2 / (C * T)) := ⟨_, rfl⟩
  have hw0 : 0 < w := by rw [hw]; positivity
  have hterm : ∀ ν, 5 * q < ν → ν ≤ 9 * q → S < α ν ∧ w ≤ ρ / (α ν + S) * rosselandWeight h k c T ν := by
    intro ν h1 h2
    have hν : 0 < ν := by linarith
    obtain ⟨x, hx⟩ : ∃ x, x = h * ν / (k * T) := ⟨_, rfl⟩
    have eν : ν = q * x := by rw [hx, hq]; field_simp
    have x1 : 5 ≤ x := by rw [eν] at h1; exact (le_of_mul_le_mul_left (by linarith) hq0)
    have x2 : x ≤ 9 := by rw [eν] at h2; exact (le_of_mul_le_mul_left (by linarith) hq0)
    have habove := law_above hh hk hc hT hn (ν := ν) (by rw [← hq]; linarith) (by rw [← hq]; linarith)
    have hα' := hα ν hν
    rw [← hx] at hα'
    have hL0 : 0 < planckLaw h k c T ν := (Convergence.planckWeight_near hh hk hc hT hν).2.2
    have h7 := seventh x1 x2
    have hE := Real.exp_pos x
    have hE1 : 100 ≤ exp x := by
      have : exp 5 ≤ exp x := Real.exp_le_exp.2 x1
      have h5 : exp 5 = exp 1 ^ (5 : ℕ) := by rw [← Real.exp_nat_mul]; norm_num
      have h3 : (2.7 : ℝ) ^ 5 ≤ exp 1 ^ (5 : ℕ) := pow_le_pow_left₀ (by norm_num) (by linarith [Real.exp_one_gt_d9]) 5
      norm_num at h3
      linarith
    have eL : planckLaw h k c T ν = b0 * x ^ 3 / (exp x - 1) := by
      unfold planckLaw
      rw [← hx, eν, hb0, hq]
      congr 1
      field_simp
    have eD : rosselandWeight h k c T ν = b0 * x ^ 4 / T * (exp x / (exp x - 1) ^ 2) := by
      unfold rosselandWeight planckLawDT
      rw [← hx, if_pos (by linarith), Real.exp_neg, eν, hb0, hq]
      have : exp x - 1 ≠ 0 := by linarith
      have e : 1 - (exp x)⁻¹ = (exp x - 1) / exp x := by field_simp
      rw [e]
      field_simp
    rw [Real.exp_neg] at hα'
    generalize exp x = E at *
    have hE2 : 0 < E - 1 := by linarith
    -- the coefficient
    obtain ⟨β, hβ⟩ : ∃ β, β = C * (E - 1) / (E * b0 * x ^ 3) := ⟨_, rfl⟩
    have hx0 : 0 < x := by linarith
    have hβ0 : 0 < β := by rw [hβ]; positivity
    have hup : α ν ≤ β := by
      rw [hα', hβ]
      calc C * E⁻¹ / (planckLaw h k c T ν + S) ≤ C * E⁻¹ / planckLaw h k c T ν := by gcongr; linarith
        _ = _ := by rw [eL]; field_simp
    have hdn : 0.999 * β ≤ α ν := by
      rw [hα', hβ]
      have : 0.999 * (C * (E - 1) / (E * b0 * x ^ 3)) = 0.999 * (C * E⁻¹) / planckLaw h k c T ν := by rw [eL]; field_simp
      rw [this, div_le_div_iff₀ hL0 (by linarith)]
      have : 0 < C * E⁻¹ := by positivity
      nlinarith
    have hSβ : S ≤ 1e-6 * β := by
      have h3 : C / b0 * (1 / 1000) ≤ β := by
        have hx3 : x ^ 3 ≤ 729 := by
          calc x ^ 3 ≤ 9 ^ 3 := pow_le_pow_left₀ hx0.le x2 3
            _ = 729 := by norm_num
        rw [hβ, show C / b0 * (1 / 1000) = C / (b0 * 1000) by field_simp, div_le_div_iff₀ (by positivity) (by positivity)]
        have : 0 < C * b0 := by positivity
        have : E * x ^ 3 ≤ (E - 1) * 1000 := by nlinarith
        nlinarith
      have h4 : C * q / I = C / b0 * (15 / π ^ 4) := by rw [eI']; field_simp
      have h5 : 15 / π ^ 4 ≤ 1 := by rw [div_le_one (by positivity)]; linarith
      have h6 : 0 < C / b0 := by positivity
      rw [h4] at hSC
      have : C / b0 * (15 / π ^ 4) ≤ C / b0 := by nlinarith
      norm_num at hSC ⊢
      linarith
    constructor
    · norm_num at hSβ hdn; linarith
    · have h8 : α ν + S ≤ 1.000001 * β := by norm_num at hSβ ⊢; linarith
      have hα0 : 0 < α ν + S := by norm_num at hdn; linarith
      rw [hw, eD]
      have e1 : ρ / (1.000001 * β) * (b0 * x ^ 4 / T * (E / (E - 1) ^ 2)) =
          ρ * b0 ^ 2 / (C * T) * (x ^ 7 * E ^ 2 / (1.000001 * (E - 1) ^ 3)) := by
        rw [hβ]; field_simp
      have e2 : 519 ≤ x ^ 7 * E ^ 2 / (1.000001 * (E - 1) ^ 3) := by
        rw [le_div_iff₀ (by positivity)]
        have h9 : (E - 1) ^ 3 ≤ E ^ 3 := pow_le_pow_left₀ hE2.le (by linarith) 3
        have h10 : 520 * E * E ^ 2 ≤ x ^ 7 * E ^ 2 := by gcongr
        have h11 : 0 < E ^ 3 := by positivity
        nlinarith
      calc 519 * (ρ * b0 ^ 2 / (C * T)) = ρ * b0 ^ 2 / (C * T) * 519 := by ring
        _ ≤ ρ * b0 ^ 2 / (C * T) * (x ^ 7 * E ^ 2 / (1.000001 * (E - 1) ^ 3)) := by gcongr
        _ = ρ / (1.000001 * β) * (b0 * x ^ 4 / T * (E / (E - 1) ^ 2)) := e1.symm
        _ ≤ _ := by gcongr
  -- the two sums
  have hl10 : 0 < Real.log 10 := Real.log_pos (by norm_num)
  have t1 := part_tendsto (w := w) hA0 (a := 5 * q) (b := 9 * q) (B := B) (by linarith) (by linarith) (by linarith)
  have t2 := Convergence.group_tendsto (hA ▸ hA0) (hA ▸ hB ▸ hAB)
    (Convergence.rosseland_pieces hh hk hc hT (f := fun _ => 1) continuousOn_const (B := groupTo S h k T 0 none) (hA ▸ hA0)).1
  simp only [one_mul] at t2
  rw [← hA, ← hB] at t2
  have hD : T * ∫ ν in A..B, rosselandWeight h k c T ν ≤ (4 + 1e-9) * I := by
    rw [hI]
    refine le_trans ?_ (lawDT_integral hh hk hc hT hA0 hAB.le (by rw [← hq]; exact hA1))
    have hmono : ∫ ν in A..B, rosselandWeight h k c T ν ≤ ∫ ν in A..B, planckLawDT h k c T ν := by
      refine intervalIntegral.integral_mono_on hAB.le ?_ ?_ ?_
      · have := (Convergence.rosseland_pieces hh hk hc hT (f := fun _ => 1) continuousOn_const (B := B) hA0).2
        simpa using this hAB.le
      · exact ((Convergence.cont_planckLawDT hh hk hc hT).mono (by
          rw [uIcc_of_le hAB.le]; exact fun x hx => lt_of_lt_of_le hA0 hx.1)).intervalIntegrable
      · intro x hx
        exact (Convergence.rosselandWeight_near hh hk hc hT (hA0.trans_le hx.1)).2.1
    gcongr
  have hD' : (∫ ν in A..B, rosselandWeight h k c T ν) / Real.log 10 < 4.001 * I / T / Real.log 10 := by
    rw [div_lt_div_iff_of_pos_right hl10, lt_div_iff₀ hT]
    norm_num at hD ⊢
    linarith
  have hP' : 518 / 519 * w * (4 * q) / Real.log 10 < w * (9 * q - 5 * q) / Real.log 10 := by
    rw [div_lt_div_iff_of_pos_right hl10]
    have : 0 < w * q := by positivity
    nlinarith
  filter_upwards [t1.eventually_const_lt hP', t2.eventually_lt_const hD'] with N e1 e2
  have hM : 0 ≤ 1 / 12 * (C * q / (ρ * I)) := by positivity
  unfold groupRosselandMean rosselandMean
  simp only
  split_ifs with hcond
  · -- the denominator
    have hpath : 518 / 519 * w * (4 * q) / Real.log 10 < ∑ i ∈ Finset.range N, (if S < α (groupNu S h k T 0 none N i) then
        ρ / (α (groupNu S h k T 0 none N i) + S) * rosselandWeight h k c T (groupNu S h k T 0 none N i) *
          groupDNu S h k T 0 none N i else 0) := by
      refine lt_of_lt_of_le e1 (Finset.sum_le_sum fun i hi => ?_)
      have hNpos : 0 < N := lt_of_le_of_lt (Nat.zero_le i) (Finset.mem_range.1 hi)
      have eν : groupNu S h k T 0 none N i = binCentre A B N i := by rw [hA, hB]; rfl
      have ed : groupDNu S h k T 0 none N i = binCentre A B N i * binWidth A B N := by rw [hA, hB]; rfl
      have hc0 : 0 < binCentre A B N i := by unfold binCentre; positivity
      have hw1 : 0 < binWidth A B N := by
        unfold binWidth
        have : Real.logb 10 A < Real.logb 10 B := Real.logb_lt_logb (by norm_num) hA0 hAB
        have : (0 : ℝ) < N := by exact_mod_cast hNpos
        apply div_pos <;> linarith
      rw [eν, ed]
      by_cases hin : binCentre A B N i ∈ Ioc (5 * q) (9 * q)
      · obtain ⟨p1, p2⟩ := hterm _ hin.1 hin.2
        rw [indicator_of_mem hin, if_pos p1]
        exact mul_le_mul_of_nonneg_right p2 (by positivity)
      · rw [indicator_of_notMem hin, zero_mul]
        split_ifs with hp
        · have hr := (Convergence.rosselandWeight_near hh hk hc hT hc0)
          have h80 : Real.exp (-80) < 1 := by rw [← Real.exp_zero]; exact Real.exp_lt_exp.2 (by norm_num)
          have : 0 ≤ rosselandWeight h k c T (binCentre A B N i) :=
            le_trans (mul_nonneg (sq_nonneg _) hr.2.2.le) hr.1
          have : 0 < α (binCentre A B N i) + S := by linarith
          positivity
        · exact le_rfl
    have hpos : 0 < 518 / 519 * w * (4 * q) / Real.log 10 := by positivity
    have hfin : 4.001 * I / T / Real.log 10 / (518 / 519 * w * (4 * q) / Real.log 10) ≤ 1 / 12 * (C * q / (ρ * I)) := by
      rw [hw, eI']
      have e3 : 4.001 * (b0 * q * (π ^ 4 / 15)) / T / Real.log 10 /
          (518 / 519 * (519 * (ρ * b0 ^ 2 / (C * T))) * (4 * q) / Real.log 10) =
          C / (ρ * b0) * (4.001 / (4 * 518) * (π ^ 4 / 15)) := by field_simp
      have e4 : 1 / 12 * (C * q / (ρ * (b0 * q * (π ^ 4 / 15)))) = C / (ρ * b0) * (1 / 12 * (15 / π ^ 4)) := by field_simp
      rw [e3, e4]
      have : 4.001 / (4 * 518) * (π ^ 4 / 15) ≤ 1 / 12 * (15 / π ^ 4) := by
        rw [show 1 / 12 * (15 / π ^ 4) = 15 / 12 / π ^ 4 by field_simp, le_div_iff₀ (by positivity)]
        have : π ^ 4 * π ^ 4 ≤ 97.5 * 97.5 := by gcongr
        norm_num at this ⊢
        linarith
      gcongr
    refine le_trans ?_ hfin
    have hden0 : 0 ≤ ∑ i ∈ Finset.range N, rosselandWeight h k c T (groupNu S h k T 0 none N i) * groupDNu S h k T 0 none N i := by
      linarith [hcond.1]
    exact div_le_div₀ (by positivity) e2.le hpos (by linarith)
  · exact hM

end Opac.WholeSpectrum
