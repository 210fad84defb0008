import Verif.Props.BetweenNodes
import Verif.Props.NeutrinoMeanRates
import Verif.Lemmas.WeightSlopes

/-!
# C88 for photons: how fast group means change

The bound for states between nodes needs to know how fast the exact group mean changes with the state.  For a group within the
thermal range at every temperature of the table it follows from how fast the source's coefficient per mass changes, at fixed
frequency: the spectrum in the mean adds twice `1 + h b / (k T)` to the power of the temperature, where `b` is the highest
frequency and `T` the lowest temperature (the larger of `h b / (k T)` and 2, for Rosseland means).
-/

namespace Opac.Photons
open Arith Outcome Spec Spiner MeasureTheory Slopes
open Tables (planck_ratio rosseland_ratio integral_positive)

/-- for densities from `ρ0` to `ρ1`, temperatures from `T0` to `T1` and frequencies from `A` to `B`, the coefficient `α` is positive,
continuous in the frequency, and per mass changes at most by the powers `σ` of the density and `τ` of the temperature -/
structure CoefficientSlope (σ τ ρ0 ρ1 T0 T1 A B : ℝ) (α : ℝ → ℝ → ℝ → ℝ) : Prop where
  continuous : ∀ ρ ∈ Set.Icc ρ0 ρ1, ∀ T ∈ Set.Icc T0 T1, ContinuousOn (α ρ T) (Set.Icc A B)
  pos : ∀ ρ ∈ Set.Icc ρ0 ρ1, ∀ T ∈ Set.Icc T0 T1, ∀ ν ∈ Set.Icc A B, 0 < α ρ T ν
  rate : ∀ ρ ∈ Set.Icc ρ0 ρ1, ∀ ρ' ∈ Set.Icc ρ0 ρ1, ∀ T ∈ Set.Icc T0 T1, ∀ T' ∈ Set.Icc T0 T1, ∀ ν ∈ Set.Icc A B,
    α ρ T ν / ρ ≤ Real.exp (σ * |Real.log ρ - Real.log ρ'| + τ * |Real.log T - Real.log T'|) * (α ρ' T' ν / ρ')

/-- a group from `lo` to `hi` which the code does not clip at any temperature from `T0` to `T1` -/
structure Unclipped (h k T0 T1 lo hi : ℝ) : Prop where
  low : 1e-4 * k * T1 / h ≤ lo
  order : lo < hi
  high : hi ≤ 1e4 * k * T0 / h

/-! ## Helpers -/

theorem unclipped_window {h k T0 T1 lo hi S T : ℝ} (hh : 0 < h) (hk : 0 < k) (hT0 : 0 < T0) (H : Unclipped h k T0 T1 lo hi) (hT : T ∈ Set.Icc T0 T1) :
    groupFrom S h k T lo (some hi) = lo + S ∧ groupTo S h k T lo (some hi) = hi + S ∧ 0 < lo := by
  have t0 : 0 < T := hT0.trans_le hT.1
  have m1 : 1e-4 * k * T / h ≤ 1e-4 * k * T1 / h := by
    have := hT.2
    gcongr
  have m2 : 1e4 * k * T0 / h ≤ 1e4 * k * T / h := by
    have := hT.1
    gcongr
  have l0 : 0 < lo := lt_of_lt_of_le (by positivity) (m1.trans H.low)
  have a1 : ¬ (lo = 0 ∨ lo < 0.1 * (1e-3 * k * T / h)) := by
    push Not
    refine ⟨l0.ne', le_trans (le_of_eq ?_) (m1.trans H.low)⟩
    ring
  have a2 : ¬ 10 * (1e3 * k * T / h) < hi := by
    push Not
    refine (H.high.trans m2).trans (le_of_eq ?_)
    ring
  have a3 : ¬ hi ≤ lo := not_le.2 H.order
  have w : groupWindow h k T lo (some hi) = (lo, hi) := by
    unfold groupWindow window
    simp only [a1, a2, a3, if_false]
  refine ⟨?_, ?_, l0⟩
  · unfold groupFrom; rw [w]
  · unfold groupTo; rw [w]

section
variable {u X T T' : ℝ}

theorem log_ratio (hu : 0 < u) (hT : 0 < T) (hT' : 0 < T') : Real.log (u / T') - Real.log (u / T) = Real.log T - Real.log T' := by
  rw [Real.log_div hu.ne' hT'.ne', Real.log_div hu.ne' hT.ne']
  ring

theorem bose_change (hu : 0 < u) (hT : 0 < T) (hT' : 0 < T') (hX' : u / T' ≤ X) (hX0 : 0 ≤ X) :
    Real.exp (u / T') - 1 ≤ Real.exp ((1 + X) * |Real.log T - Real.log T'|) * (Real.exp (u / T) - 1) := by
  have x0 : 0 < u / T := by positivity
  have x0' : 0 < u / T' := by positivity
  have p : 0 < Real.exp (u / T) - 1 := by have := Real.add_one_lt_exp x0.ne'; linarith
  rcases le_total T T' with h | h
  · have : Real.exp (u / T') ≤ Real.exp (u / T) := Real.exp_le_exp.2 (div_le_div_of_nonneg_left hu.le hT h)
    have : 1 ≤ Real.exp ((1 + X) * |Real.log T - Real.log T'|) := Real.one_le_exp (by positivity)
    nlinarith
  · have hx : u / T ≤ u / T' := div_le_div_of_nonneg_left hu.le hT' h
    have L0 : 0 ≤ Real.log T - Real.log T' := sub_nonneg.2 (Real.log_le_log hT' h)
    have e1 := exp_step (b := 1) (m := X) one_pos x0 hx hX' (by rw [one_mul])
    have e2 := phi2 x0 hx
    rw [one_mul, one_mul, log_ratio hu hT hT'] at e1
    have r : u / T' = Real.exp (Real.log T - Real.log T') * (u / T) := by
      rw [← log_ratio hu hT hT', ← Real.log_div x0'.ne' x0.ne', Real.exp_log (by positivity)]
      field_simp
    rw [abs_of_nonneg L0, add_mul, one_mul, Real.exp_add]
    generalize Real.exp (Real.log T - Real.log T') = R at *
    generalize Real.exp (X * (Real.log T - Real.log T')) = W at *
    generalize u / T' = y at *
    generalize u / T = x at *
    have k1 : 1 - Real.exp (-y) ≤ R * (1 - Real.exp (-x)) := by
      have e3 : x * (1 - Real.exp (-y)) ≤ R * x * (1 - Real.exp (-x)) := by rw [← r]; exact e2
      refine le_of_mul_le_mul_left ?_ x0
      linarith
    have k2 : Real.exp y - 1 = Real.exp y * (1 - Real.exp (-y)) := by rw [mul_sub, ← Real.exp_add]; simp
    have k3 : Real.exp x - 1 = Real.exp x * (1 - Real.exp (-x)) := by rw [mul_sub, ← Real.exp_add]; simp
    have k4 : Real.exp y = Real.exp (y - x) * Real.exp x := by rw [← Real.exp_add]; ring_nf
    have R0 : 0 < R := by
      by_contra hR
      push Not at hR
      nlinarith
    have q : 0 ≤ 1 - Real.exp (-x) := by have := Real.exp_le_one_iff.2 (show -x ≤ 0 by linarith); linarith
    calc Real.exp y - 1 = Real.exp y * (1 - Real.exp (-y)) := k2
      _ ≤ Real.exp y * (R * (1 - Real.exp (-x))) := mul_le_mul_of_nonneg_left k1 (Real.exp_pos y).le
      _ = Real.exp (y - x) * (R * (Real.exp x * (1 - Real.exp (-x)))) := by rw [k4]; ring
      _ ≤ W * (R * (Real.exp x * (1 - Real.exp (-x)))) := mul_le_mul_of_nonneg_right e1 (by positivity)
      _ = _ := by rw [k3]; ring

theorem boseDT_change (hu : 0 < u) (hT : 0 < T) (hT' : 0 < T') (hX' : u / T' ≤ X) :
    (T ^ 2)⁻¹ * (Real.exp (-(u / T)) / (1 - Real.exp (-(u / T))) ^ 2) ≤
      Real.exp (max 2 X * |Real.log T - Real.log T'|) * ((T' ^ 2)⁻¹ * (Real.exp (-(u / T')) / (1 - Real.exp (-(u / T'))) ^ 2)) := by
  have x0 : 0 < u / T := by positivity
  have x0' : 0 < u / T' := by positivity
  have p : ∀ {x : ℝ}, 0 < x → 0 < 1 - Real.exp (-x) := fun {x} h => by
    have := Real.exp_lt_exp.2 (show -x < 0 by linarith)
    rw [Real.exp_zero] at this
    linarith
  rcases le_total T T' with h | h
  · have hx : u / T' ≤ u / T := div_le_div_of_nonneg_left hu.le hT h
    have b1 : Real.exp (-(u / T)) ≤ Real.exp (-(u / T')) := Real.exp_le_exp.2 (by linarith)
    have b2 := pow_step (m := max 2 X) 2 hT h (le_max_left _ _)
    rw [abs_sub_comm, abs_of_nonneg (sub_nonneg.2 (Real.log_le_log hT h))]
    generalize Real.exp (max 2 X * (Real.log T' - Real.log T)) = W at *
    have p1 := p x0
    have p2 := p x0'
    have b3 : Real.exp (-(u / T)) / (1 - Real.exp (-(u / T))) ^ 2 ≤ Real.exp (-(u / T')) / (1 - Real.exp (-(u / T'))) ^ 2 :=
      div_le_div₀ (Real.exp_pos _).le b1 (by positivity) (pow_le_pow_left₀ p2.le (by linarith) 2)
    calc _ ≤ (T ^ 2)⁻¹ * (Real.exp (-(u / T')) / (1 - Real.exp (-(u / T'))) ^ 2) := mul_le_mul_of_nonneg_left b3 (by positivity)
      _ = (T' / T) ^ 2 * ((T' ^ 2)⁻¹ * (Real.exp (-(u / T')) / (1 - Real.exp (-(u / T'))) ^ 2)) := by
        generalize Real.exp (-(u / T')) / (1 - Real.exp (-(u / T'))) ^ 2 = z
        field_simp
      _ ≤ _ := mul_le_mul_of_nonneg_right b2 (by positivity)
  · have hx : u / T ≤ u / T' := div_le_div_of_nonneg_left hu.le hT' h
    have e1 := exp_step (b := 1) (m := max 2 X) one_pos x0 hx hX' (by rw [one_mul]; exact le_max_right _ _)
    have e2 := phi2 x0 hx
    rw [one_mul, one_mul, log_ratio hu hT hT'] at e1
    rw [abs_of_nonneg (sub_nonneg.2 (Real.log_le_log hT' h))]
    have f1 : (T ^ 2)⁻¹ = (u ^ 2)⁻¹ * (u / T) ^ 2 := by field_simp
    have f2 : (T' ^ 2)⁻¹ = (u ^ 2)⁻¹ * (u / T') ^ 2 := by field_simp
    rw [f1, f2]
    generalize Real.exp (max 2 X * (Real.log T - Real.log T')) = W at *
    have p1 := p x0
    have p2 := p x0'
    generalize u / T' = y at *
    generalize u / T = x at *
    have k : Real.exp (-x) = Real.exp (y - x) * Real.exp (-y) := by rw [← Real.exp_add]; ring_nf
    have sq : x / (1 - Real.exp (-x)) ≤ y / (1 - Real.exp (-y)) := by rw [div_le_div_iff₀ p1 p2]; exact e2
    calc _ = (u ^ 2)⁻¹ * (Real.exp (-x) * (x / (1 - Real.exp (-x))) ^ 2) := by rw [div_pow]; ring
      _ ≤ (u ^ 2)⁻¹ * (W * Real.exp (-y) * (y / (1 - Real.exp (-y))) ^ 2) := by
        refine mul_le_mul_of_nonneg_left ?_ (by positivity)
        refine mul_le_mul ?_ (pow_le_pow_left₀ (by positivity) sq 2) (by positivity) ?_
        · rw [k]; exact mul_le_mul_of_nonneg_right e1 (Real.exp_pos _).le
        · have : 0 ≤ W := (Real.exp_pos _).le.trans e1
          positivity
      _ = _ := by rw [div_pow]; ring

end

section
variable {h k c T T' ν X : ℝ}

theorem planckLaw_change (hh : 0 < h) (hk : 0 < k) (hc : 0 < c) (hT : 0 < T) (hT' : 0 < T') (hν : 0 < ν) (hX' : h * ν / (k * T') ≤ X) :
    planckLaw h k c T ν ≤ Real.exp ((1 + X) * |Real.log T - Real.log T'|) * planckLaw h k c T' ν := by
  have X0 : 0 ≤ X := le_trans (by positivity) hX'
  have ea : ∀ T, h * ν / (k * T) = h * ν / k / T := fun T => by rw [div_div]
  rw [ea] at hX'
  unfold planckLaw
  rw [ea, ea]
  have hu : 0 < h * ν / k := by positivity
  generalize h * ν / k = u at *
  have key := bose_change hu hT hT' hX' X0
  have pos : ∀ {T : ℝ}, 0 < T → 0 < Real.exp (u / T) - 1 := fun {T} hT => by
    have := Real.add_one_lt_exp (show u / T ≠ 0 by positivity)
    have : 0 < u / T := by positivity
    linarith
  have q1 := pos hT
  have q2 := pos hT'
  rw [mul_div_assoc', div_le_div_iff₀ q1 q2]
  have hC : 0 ≤ 2 * h * ν ^ 3 / c ^ 2 := by positivity
  calc _ ≤ 2 * h * ν ^ 3 / c ^ 2 * (Real.exp ((1 + X) * |Real.log T - Real.log T'|) * (Real.exp (u / T) - 1)) := mul_le_mul_of_nonneg_left key hC
    _ = _ := by ring

theorem planckLawDT_change (hh : 0 < h) (hk : 0 < k) (hc : 0 < c) (hT : 0 < T) (hT' : 0 < T') (hν : 0 < ν) (hX' : h * ν / (k * T') ≤ X) :
    planckLawDT h k c T ν ≤ Real.exp (max 2 X * |Real.log T - Real.log T'|) * planckLawDT h k c T' ν := by
  have ea : ∀ T, h * ν / (k * T) = h * ν / k / T := fun T => by rw [div_div]
  rw [ea] at hX'
  have form : ∀ T, planckLawDT h k c T ν = 2 * h ^ 2 * ν ^ 4 / (c ^ 2 * k) *
      ((T ^ 2)⁻¹ * (Real.exp (-(h * ν / k / T)) / (1 - Real.exp (-(h * ν / k / T))) ^ 2)) := by
    intro T
    unfold planckLawDT
    rw [ea]
    ring
  rw [form, form]
  have hu : 0 < h * ν / k := by positivity
  generalize h * ν / k = u at *
  have := mul_le_mul_of_nonneg_left (boseDT_change hu hT hT' hX') (show 0 ≤ 2 * h ^ 2 * ν ^ 4 / (c ^ 2 * k) by positivity)
  refine this.trans_eq (by ring)

end

/-! ## The theorems -/

section
variable {h k c : ℝ} {α : ℝ → ℝ → ℝ → ℝ} {σ τ ρ0 ρ1 T0 T1 lo hi A B X : ℝ}

/-- **C88 (rate of Planck group means)** -/
theorem C88_group_planck_rate (hh : 0 < h) (hk : 0 < k) (hc : 0 < c) (hρ0 : 0 < ρ0) (hT0 : 0 < T0) (hu : Unclipped h k T0 T1 lo hi)
    (hA : A = lo + Robust.SMALL) (hB : B = hi + Robust.SMALL) (hα : CoefficientSlope σ τ ρ0 ρ1 T0 T1 A B α) (hX : X = h * B / (k * T0)) :
    MeanSlope σ (τ + 2 * (1 + X)) ρ0 ρ1 T0 T1 (exactPlanck h k c lo (some hi) α) := by
  intro ρ hρ ρ' hρ' T hT T' hT'
  have hS := SMALL_pos
  obtain ⟨w1, w2, l0⟩ := unclipped_window (S := Robust.SMALL) hh hk hT0 hu hT
  obtain ⟨w1', w2', -⟩ := unclipped_window (S := Robust.SMALL) hh hk hT0 hu hT'
  rw [← hA] at w1 w1'
  rw [← hB] at w2 w2'
  have r0 := hρ0.trans_le hρ.1
  have r0' := hρ0.trans_le hρ'.1
  have t0 := hT0.trans_le hT.1
  have t0' := hT0.trans_le hT'.1
  have A0 : 0 < A := by linarith
  have hAB : A < B := by have := hu.order; linarith
  have sub : Set.Icc A B ⊆ Set.Ioi 0 := fun x hx => lt_of_lt_of_le A0 hx.1
  have cB : ∀ {T}, 0 < T → ContinuousOn (planckLaw h k c T) (Set.Icc A B) := fun hT => (Convergence.cont_planckLaw hh hk hc hT).mono sub
  have pB : ∀ {T}, 0 < T → ∀ ν ∈ Set.Icc A B, 0 < planckLaw h k c T ν := fun {T} hT ν hν => by
    have v0 : 0 < ν := sub hν
    have : 0 < h * ν / (k * T) := by positivity
    have := Real.add_one_lt_exp this.ne'
    unfold planckLaw
    have : 0 < Real.exp (h * ν / (k * T)) - 1 := by linarith
    positivity
  have arg : ∀ {T}, T ∈ Set.Icc T0 T1 → ∀ ν ∈ Set.Icc A B, h * ν / (k * T) ≤ X := fun {T} hT ν hν => by
    rw [hX]
    exact div_le_div₀ (mul_nonneg hh.le (A0.trans hAB).le) (mul_le_mul_of_nonneg_left hν.2 hh.le) (by positivity) (mul_le_mul_of_nonneg_left hT.1 hk.le)
  unfold exactPlanck planckMeanOf
  rw [w1, w2, w1', w2']
  have := planck_ratio (c := Real.exp (σ * |Real.log ρ - Real.log ρ'| + τ * |Real.log T - Real.log T'|))
    (w := Real.exp ((1 + X) * |Real.log T - Real.log T'|)) hAB ((hα.continuous ρ hρ T hT).div_const ρ) ((hα.continuous ρ' hρ' T' hT').div_const ρ')
    (cB t0) (cB t0') (Real.exp_pos _).le (Real.exp_pos _).le (fun ν hν => div_pos (hα.pos ρ' hρ' T' hT' ν hν) r0') (pB t0) (pB t0')
    (hα.rate ρ hρ ρ' hρ' T hT T' hT')
    (fun ν hν => planckLaw_change hh hk hc t0 t0' (sub hν) (arg hT' ν hν))
    (fun ν hν => by rw [abs_sub_comm]; exact planckLaw_change hh hk hc t0' t0 (sub hν) (arg hT ν hν))
  refine this.trans_eq ?_
  rw [← Real.exp_nat_mul, ← Real.exp_add]
  congr 2
  push_cast
  ring

/-- **C88 (rate of Rosseland group means)** -/
theorem C88_group_rosseland_rate (hh : 0 < h) (hk : 0 < k) (hc : 0 < c) (hρ0 : 0 < ρ0) (hT0 : 0 < T0) (hu : Unclipped h k T0 T1 lo hi)
    (hA : A = lo + Robust.SMALL) (hB : B = hi + Robust.SMALL) (hα : CoefficientSlope σ τ ρ0 ρ1 T0 T1 A B α) (hX : X = h * B / (k * T0)) :
    MeanSlope σ (τ + 2 * max 2 X) ρ0 ρ1 T0 T1 (exactRosseland h k c lo (some hi) α) := by
  intro ρ hρ ρ' hρ' T hT T' hT'
  have hS := SMALL_pos
  obtain ⟨w1, w2, l0⟩ := unclipped_window (S := Robust.SMALL) hh hk hT0 hu hT
  obtain ⟨w1', w2', -⟩ := unclipped_window (S := Robust.SMALL) hh hk hT0 hu hT'
  rw [← hA] at w1 w1'
  rw [← hB] at w2 w2'
  have r0 := hρ0.trans_le hρ.1
  have r0' := hρ0.trans_le hρ'.1
  have t0 := hT0.trans_le hT.1
  have t0' := hT0.trans_le hT'.1
  have A0 : 0 < A := by linarith
  have hAB : A < B := by have := hu.order; linarith
  have sub : Set.Icc A B ⊆ Set.Ioi 0 := fun x hx => lt_of_lt_of_le A0 hx.1
  have cB : ∀ {T}, 0 < T → ContinuousOn (planckLawDT h k c T) (Set.Icc A B) := fun hT => (Convergence.cont_planckLawDT hh hk hc hT).mono sub
  have pB : ∀ {T}, 0 < T → ∀ ν ∈ Set.Icc A B, 0 < planckLawDT h k c T ν := fun {T} hT ν hν => by
    have v0 : 0 < ν := sub hν
    have : 0 < h * ν / (k * T) := by positivity
    have := Real.exp_lt_exp.2 (show -(h * ν / (k * T)) < 0 by linarith)
    rw [Real.exp_zero] at this
    unfold planckLawDT
    have : 0 < 1 - Real.exp (-(h * ν / (k * T))) := by linarith
    positivity
  have arg : ∀ {T}, T ∈ Set.Icc T0 T1 → ∀ ν ∈ Set.Icc A B, h * ν / (k * T) ≤ X := fun {T} hT ν hν => by
    rw [hX]
    exact div_le_div₀ (mul_nonneg hh.le (A0.trans hAB).le) (mul_le_mul_of_nonneg_left hν.2 hh.le) (by positivity) (mul_le_mul_of_nonneg_left hT.1 hk.le)
  have cf : ∀ {ρ T}, ρ ∈ Set.Icc ρ0 ρ1 → T ∈ Set.Icc T0 T1 → ContinuousOn (fun ν => ρ / α ρ T ν) (Set.Icc A B) := fun hρ hT =>
    continuousOn_const.div (hα.continuous _ hρ _ hT) fun ν hν => (hα.pos _ hρ _ hT ν hν).ne'
  unfold exactRosseland rosselandMeanOf
  rw [w1, w2, w1', w2']
  have := rosseland_ratio (c := Real.exp (σ * |Real.log ρ - Real.log ρ'| + τ * |Real.log T - Real.log T'|))
    (w := Real.exp (max 2 X * |Real.log T - Real.log T'|)) hAB (cf hρ hT) (cf hρ' hT') (cB t0) (cB t0') (Real.exp_pos _).le (Real.exp_pos _).le
    (fun ν hν => div_pos r0 (hα.pos ρ hρ T hT ν hν)) (fun ν hν => div_pos r0' (hα.pos ρ' hρ' T' hT' ν hν)) (pB t0) (pB t0')
    (fun ν hν => by
      have q := hα.rate ρ hρ ρ' hρ' T hT T' hT' ν hν
      have q1 := hα.pos ρ hρ T hT ν hν
      have q2 := hα.pos ρ' hρ' T' hT' ν hν
      generalize Real.exp (σ * |Real.log ρ - Real.log ρ'| + τ * |Real.log T - Real.log T'|) = W at *
      rw [mul_div_assoc', div_le_div_iff₀ r0 r0'] at q
      rw [mul_div_assoc', div_le_div_iff₀ q2 q1]
      linarith)
    (fun ν hν => planckLawDT_change hh hk hc t0 t0' (sub hν) (arg hT' ν hν))
    (fun ν hν => by rw [abs_sub_comm]; exact planckLawDT_change hh hk hc t0' t0 (sub hν) (arg hT ν hν))
  refine this.trans_eq ?_
  rw [← Real.exp_nat_mul, ← Real.exp_add]
  congr 2
  push_cast
  ring

end

/-! ## An example: absorption `ρ² ν` per volume, on the group from 1 to 2 -/

example : MeanSlope 1 (2 * (1 + (2 + Robust.SMALL))) 1 10 1 10 (exactPlanck 1 1 1 1 (some 2) fun ρ _ ν => ρ ^ 2 * ν) ∧
    MeanSlope 1 (2 * max 2 (2 + Robust.SMALL)) 1 10 1 10 (exactRosseland 1 1 1 1 (some 2) fun ρ _ ν => ρ ^ 2 * ν) := by
  have hS := SMALL_pos
  have hα : CoefficientSlope 1 0 1 10 1 10 (1 + Robust.SMALL) (2 + Robust.SMALL) fun ρ _ ν => ρ ^ 2 * ν := by
    refine ⟨fun _ _ _ _ => by fun_prop, fun ρ hρ T _ ν hν => ?_, fun ρ hρ ρ' hρ' T _ T' _ ν hν => ?_⟩
    · have : 0 < ρ := by have := hρ.1; linarith
      have : 0 < ν := by have := hν.1; linarith
      positivity
    · have h1 : 0 < ρ := by have := hρ.1; linarith
      have h2 : 0 < ρ' := by have := hρ'.1; linarith
      have h3 : 0 < ν := by have := hν.1; linarith
      have e1 : ρ ^ 2 * ν / ρ = ρ * ν := by field_simp
      have e2 : ρ' ^ 2 * ν / ρ' = ρ' * ν := by field_simp
      simp only [e1, e2]
      rw [← mul_assoc]
      refine mul_le_mul_of_nonneg_right ?_ h3.le
      have : ρ = Real.exp (Real.log ρ - Real.log ρ') * ρ' := by
        rw [Real.exp_sub, Real.exp_log h1, Real.exp_log h2]
        field_simp
      calc ρ = Real.exp (Real.log ρ - Real.log ρ') * ρ' := this
        _ ≤ _ := mul_le_mul_of_nonneg_right (Real.exp_le_exp.2 (by have := le_abs_self (Real.log ρ - Real.log ρ'); linarith)) h2.le
  have hu : Unclipped 1 1 1 10 1 2 := ⟨by norm_num, by norm_num, by norm_num⟩
  have q1 := C88_group_planck_rate (h := 1) (k := 1) (c := 1) one_pos one_pos one_pos one_pos one_pos hu rfl rfl hα rfl
  have q2 := C88_group_rosseland_rate (h := 1) (k := 1) (c := 1) one_pos one_pos one_pos one_pos one_pos hu rfl rfl hα rfl
  simp only [one_mul, mul_one, div_one, zero_add] at q1 q2
  exact ⟨q1, q2⟩

end Opac.Photons
