import Verif.Props.GroupSumBetween

/-!
# C91 for Rosseland means: the mean free paths of the groups add up at every state inside the table

At `XR`, like `GroupSumBetween`.
-/

namespace Opac.Photons
open Arith Outcome Spec Spiner MeasureTheory Slopes
open Tables (integral_positive)

section
variable {h k c : ℝ} {α : ℝ → ℝ → ℝ → ℝ} {lRhoMin lRhoMax lTMin lTMax : ℝ} {NRho NT : ℤ} {b : List XR} {n N : ℕ}
  {qP qR : XR → XR → ℤ → Outcome XR}

theorem law_pos (hh : 0 < h) (hk : 0 < k) (hc : 0 < c) {T ν : ℝ} (hT : 0 < T) (hν : 0 < ν) : 0 < planckLawDT h k c T ν := by
  have : 0 < h * ν / (k * T) := by positivity
  have := Real.exp_lt_exp.2 (show -(h * ν / (k * T)) < 0 by linarith)
  rw [Real.exp_zero] at this
  unfold planckLawDT
  have : 0 < 1 - Real.exp (-(h * ν / (k * T))) := by linarith
  positivity

theorem rosseland_nonneg {σ τ ρ0 ρ1 T0 T1 lo hi ρ T : ℝ} (hh : 0 < h) (hk : 0 < k) (hc : 0 < c) (hρ0 : 0 < ρ0) (hT0 : 0 < T0)
    (hu : Unclipped h k T0 T1 lo hi) (hα : CoefficientSlope σ τ ρ0 ρ1 T0 T1 (lo + Robust.SMALL) (hi + Robust.SMALL) α)
    (hρ : ρ ∈ Set.Icc ρ0 ρ1) (hT : T ∈ Set.Icc T0 T1) : 0 ≤ exactRosseland h k c lo (some hi) α ρ T := by
  have hS := SMALL_pos
  obtain ⟨w1, w2, l0⟩ := unclipped_window (S := Robust.SMALL) hh hk hT0 hu hT
  unfold exactRosseland rosselandMeanOf
  rw [w1, w2]
  have le : lo + Robust.SMALL ≤ hi + Robust.SMALL := by linarith [hu.order]
  have p : ∀ ν ∈ Set.Icc (lo + Robust.SMALL) (hi + Robust.SMALL), 0 ≤ planckLawDT h k c T ν := fun ν hν =>
    (law_pos hh hk hc (hT0.trans_le hT.1) (by linarith [hν.1])).le
  exact div_nonneg (intervalIntegral.integral_nonneg le p) (intervalIntegral.integral_nonneg le fun ν hν =>
      mul_nonneg (div_nonneg (hρ0.trans_le hρ.1).le (hα.pos ρ hρ T hT ν hν).le) (p ν hν))

/-- **C91 (Rosseland)**: the inverses of the Rosseland group opacities, weighted by the temperature derivatives of the thermal intensities of their
groups, add up to the integral of the inverse opacity times the derivative of the intensity between the first and the last bound, within the
factor `exp(F)`, at every state inside the table.  The conditions are those of `C91_groups_add_up`, and that the opacity and its
mean free path exceed the floor by the factor `1/ε`. -/
theorem C91_rosseland_groups_add_up (hm : MeansOf h k c α lRhoMin lRhoMax NRho lTMin lTMax NT b n N qP qR)
    (hα : ∀ ρ T ν, 0 < ρ → 0 < T → 0 < ν → 0 ≤ α ρ T ν) (hNR : 2 ≤ NRho) (hNT : 2 ≤ NT)
    (hlR : lRhoMin < lRhoMax) (hlT : lTMin < lTMax) {ℓ : ℕ → ℝ} (hn : 0 < n)
    (hgr : ∀ g, g < n → GroupIs b g (ℓ g) (some (ℓ (g + 1)))) {a z : ℝ} (ha : a = ℓ 0 + Robust.SMALL) (hz : z = ℓ n + Robust.SMALL)
    (hclip : 1e-4 * k * 10 ^ lTMax / h ≤ ℓ 0 ∧ ℓ n ≤ 1e4 * k * 10 ^ lTMin / h)
    {Λ ε E σ τ X : ℝ} (hΛ : 0 ≤ Λ) (hσ : 0 ≤ σ) (hτ : 0 ≤ τ) (hε0 : 0 ≤ ε)
    (hc : CoefficientSlope σ τ (10 ^ lRhoMin) (10 ^ lRhoMax) (10 ^ lTMin) (10 ^ lTMax) a z α)
    (hs : ∀ ρ ∈ Set.Icc ((10 : ℝ) ^ lRhoMin) (10 ^ lRhoMax), ∀ T ∈ Set.Icc ((10 : ℝ) ^ lTMin) (10 ^ lTMax), SlopeAtMost Λ a z (α ρ T))
    (hfl : ∀ ρ ∈ Set.Icc ((10 : ℝ) ^ lRhoMin) (10 ^ lRhoMax), ∀ T ∈ Set.Icc ((10 : ℝ) ^ lTMin) (10 ^ lTMax), ∀ ν ∈ Set.Icc a z,
      Robust.SMALL ≤ ε * α ρ T ν ∧ Robust.SMALL * ρ ≤ ε * α ρ T ν)
    (hε : ∀ g, g < n → ∀ ρ ∈ Set.Icc ((10 : ℝ) ^ lRhoMin) (10 ^ lRhoMax), ∀ T ∈ Set.Icc ((10 : ℝ) ^ lTMin) (10 ^ lTMax),
      Robust.SMALL * Real.log 10 ≤ ε * (∫ ν in ℓ g + Robust.SMALL..ℓ (g + 1) + Robust.SMALL, planckLawDT h k c T ν) ∧
      Robust.SMALL * Real.log 10 ≤ ε * ∫ ν in ℓ g + Robust.SMALL..ℓ (g + 1) + Robust.SMALL, ρ / α ρ T ν * planckLawDT h k c T ν)
    (hεE : ε * Real.exp E ≤ 1 / 4) (hX : X = h * z / (k * 10 ^ lTMin))
    (hE : ∀ g, g < n → (max 4 X + Λ / 2) * (Real.log ((ℓ (g + 1) + Robust.SMALL) / (ℓ g + Robust.SMALL)) / N) + ε + 1e-14 ≤ E)
    {rho T : ℝ} (hin : Inside lRhoMin lRhoMax lTMin lTMax rho T) {F ρ' T' : ℝ}
    (hF : F = E + ε + (σ * nodeDistance lRhoMin lRhoMax NRho + (τ + 2 * max 2 X) * nodeDistance lTMin lTMax NT) / 2)
    (hρ' : ρ' = |rho| + Robust.SMALL) (hT' : T' = |T| + Robust.SMALL) :
    ∃ κ : ℕ → ℝ, (∀ g, g < n → qR (.fin rho) (.fin T) g = ok (.fin (rho * κ g)) ∧ 0 < κ g) ∧
      Real.exp (-F) * (∫ ν in a..z, ρ' / α ρ' T' ν * planckLawDT h k c T' ν) ≤
        ∑ g ∈ Finset.range n, 1 / κ g * ∫ ν in ℓ g + Robust.SMALL..ℓ (g + 1) + Robust.SMALL, planckLawDT h k c T' ν ∧
      ∑ g ∈ Finset.range n, 1 / κ g * (∫ ν in ℓ g + Robust.SMALL..ℓ (g + 1) + Robust.SMALL, planckLawDT h k c T' ν) ≤
        Real.exp F * ∫ ν in a..z, ρ' / α ρ' T' ν * planckLawDT h k c T' ν := by
  obtain ⟨G, hG⟩ : ∃ G, G = E + (σ * nodeDistance lRhoMin lRhoMax NRho + (τ + 2 * max 2 X) * nodeDistance lTMin lTMax NT) / 2 := ⟨_, rfl⟩
  obtain ⟨t, A, -⟩ := hm.averaged hα hNR hNT
  obtain ⟨-, hN, hh, hk, hc0⟩ := A.bounds
  have hS := SMALL_pos
  have R0 : (0 : ℝ) < 10 ^ lRhoMin := by positivity
  have T0 : (0 : ℝ) < 10 ^ lTMin := by positivity
  have step : ∀ g, g < n → ℓ g < ℓ (g + 1) := fun g hg => (hgr g hg).2.2.2 _ rfl
  have mono : ∀ g g', g ≤ g' → g' ≤ n → ℓ g ≤ ℓ g' := by
    intro g g' hg
    induction hg with
    | refl => exact fun _ => le_refl _
    | step _ ih => exact fun h => (ih (by omega)).trans (step _ (by omega)).le
  have l0 : 0 < ℓ 0 := lt_of_lt_of_le (by positivity) hclip.1
  have un : ∀ g, g < n → Unclipped h k (10 ^ lTMin) (10 ^ lTMax) (ℓ g) (ℓ (g + 1)) := fun g hg =>
    ⟨hclip.1.trans (mono 0 g (by omega) (by omega)), step g hg, (mono (g + 1) n (by omega) (le_refl _)).trans hclip.2⟩
  have sub : ∀ g, g < n → Set.Icc (ℓ g + Robust.SMALL) (ℓ (g + 1) + Robust.SMALL) ⊆ Set.Icc a z := fun g hg x hx => by
    have := mono 0 g (by omega) (by omega)
    have := mono (g + 1) n (by omega) (le_refl _)
    exact ⟨by linarith [hx.1], by linarith [hx.2]⟩
  have az : a < z := by
    have := mono 1 n (by omega) (le_refl _)
    have := step 0 hn
    simp only [zero_add] at this
    linarith
  have X0 : 0 ≤ X := by rw [hX]; have : 0 < z := by linarith
                        positivity
  have pos : Set.Icc a z ⊆ Set.Ioi 0 := fun x hx => by
    have := hx.1
    exact Set.mem_Ioi.2 (by linarith)
  have inR : ρ' ∈ Set.Icc ((10 : ℝ) ^ lRhoMin) (10 ^ lRhoMax) := by rw [hρ']; exact state_mem hin.1 hin.2
  have inT : T' ∈ Set.Icc ((10 : ℝ) ^ lTMin) (10 ^ lTMax) := by rw [hT']; exact state_mem hin.3 hin.4
  have t0 := T0.trans_le inT.1
  have r0 := R0.trans_le inR.1
  have cB : ContinuousOn (planckLawDT h k c T') (Set.Icc a z) := (Convergence.cont_planckLawDT hh hk hc0 t0).mono pos
  have pB : ∀ ν ∈ Set.Icc a z, 0 < planckLawDT h k c T' ν := fun ν hν => by
    have v0 : 0 < ν := pos hν
    exact law_pos hh hk hc0 t0 v0
  have pa : ∀ ν ∈ Set.Icc a z, 0 < α ρ' T' ν := hc.pos ρ' inR T' inT
  have ca : ContinuousOn (fun ν => ρ' / α ρ' T' ν) (Set.Icc a z) := continuousOn_const.div (hc.continuous ρ' inR T' inT) fun ν hν => (pa ν hν).ne'
  -- the group means
  have each : ∀ g, ∃ κ : ℝ, g < n → qR (.fin rho) (.fin T) g = ok (.fin (rho * κ)) ∧
      Real.exp (-G) * (exactRosseland h k c (ℓ g) (some (ℓ (g + 1))) α ρ' T' + Robust.SMALL) ≤ κ ∧
      κ ≤ Real.exp G * (exactRosseland h k c (ℓ g) (some (ℓ (g + 1))) α ρ' T' + Robust.SMALL) := by
    intro g
    by_cases hg : g < n
    · have cg : CoefficientSlope σ τ (10 ^ lRhoMin) (10 ^ lRhoMax) (10 ^ lTMin) (10 ^ lTMax) (ℓ g + Robust.SMALL) (ℓ (g + 1) + Robust.SMALL) α :=
        ⟨fun ρ h1 T h2 => (hc.continuous ρ h1 T h2).mono (sub g hg), fun ρ h1 T h2 ν hν => hc.pos ρ h1 T h2 ν (sub g hg hν),
          fun ρ h1 ρ' h1' T h2 T' h2' ν hν => hc.rate ρ h1 ρ' h1' T h2 T' h2' ν (sub g hg hν)⟩
      have zle : ℓ (g + 1) + Robust.SMALL ≤ z := by have := mono (g + 1) n (by omega) (le_refl _); linarith
      have ale : a ≤ ℓ g + Robust.SMALL := by have := mono 0 g (by omega) (by omega); linarith
      have gpos : 0 < ℓ g + Robust.SMALL := by linarith
      have hx : h * (ℓ (g + 1) + Robust.SMALL) / (k * 10 ^ lTMin) ≤ X := by
        rw [hX]
        gcongr
      have rate : MeanSlope σ (τ + 2 * max 2 X) (10 ^ lRhoMin) (10 ^ lRhoMax) (10 ^ lTMin) (10 ^ lTMax)
          (exactRosseland h k c (ℓ g) (some (ℓ (g + 1))) α) := by
        have := C88_group_rosseland_rate hh hk hc0 R0 T0 (un g hg) rfl rfl cg rfl
        intro ρ h1 ρ2 h1' T h2 T2 h2'
        refine (this ρ h1 ρ2 h1' T h2 T2 h2').trans (mul_le_mul_of_nonneg_right (Real.exp_le_exp.2 ?_) ?_)
        · have := mul_le_mul_of_nonneg_right (max_le_max (le_refl (2 : ℝ)) hx) (abs_nonneg (Real.log T - Real.log T2))
          linarith
        · exact rosseland_nonneg hh hk hc0 R0 T0 (un g hg) cg h1' h2'
      obtain ⟨κ, q⟩ := C88_rosseland hm hα hNR hNT hlR hlT hg (hgr g hg) (E := E) (ε := ε) hΛ hε0 hσ (by have := le_max_left 2 X; linarith : 0 ≤ τ + 2 * max 2 X) (by
        intro i j hi hj ρ1 T1 A1 B1 δ m e1 e2 e3 e4 e5 e6
        have m1 : ρ1 ∈ Set.Icc ((10 : ℝ) ^ lRhoMin) (10 ^ lRhoMax) := by rw [e1]; exact nodeValue_mem hNR hlR hi
        have m2 : T1 ∈ Set.Icc ((10 : ℝ) ^ lTMin) (10 ^ lTMax) := by rw [e2]; exact nodeValue_mem hNT hlT hj
        obtain ⟨w1, w2, -⟩ := unclipped_window (S := Robust.SMALL) hh hk T0 (un g hg) m2
        rw [w1] at e3
        rw [w2] at e4
        rw [e3, e4] at e5
        rw [e4] at e6
        have t1 := T0.trans_le m2.1
        have hx1 : h * (ℓ (g + 1) + Robust.SMALL) / (k * T1) ≤ X := le_trans (by
          have := step g hg
          have : 0 < ℓ (g + 1) + Robust.SMALL := by linarith
          have := m2.1
          gcongr) hx
        have lg : 0 ≤ Real.log ((ℓ (g + 1) + Robust.SMALL) / (ℓ g + Robust.SMALL)) / N := by
          refine div_nonneg (Real.log_nonneg ?_) (by positivity)
          rw [le_div_iff₀ gpos]
          have := step g hg
          linarith
        have mm := mul_le_mul_of_nonneg_right (max_le_max (le_refl (4 : ℝ)) hx1) lg
        have le := hE g hg
        have ee : (m + Λ / 2) * δ + ε + 1e-14 ≤ E := by rw [e5, e6]; linarith
        rw [e3, e4]
        refine ⟨fun ν hν => ⟨cg.pos ρ1 m1 T1 m2 ν hν, (hfl ρ1 m1 T1 m2 ν (sub g hg hν)).1⟩, (hs ρ1 m1 T1 m2).mono_set ale zle, (hε g hg ρ1 m1 T1 m2).1,
          (hε g hg ρ1 m1 T1 m2).2, le_trans (mul_le_mul_of_nonneg_left (Real.exp_le_exp.2 ?_) hε0) hεE, ee⟩
        have : (0 : ℝ) ≤ 1e-14 := by norm_num
        linarith) rate (fun ρ h1 T h2 => rosseland_nonneg hh hk hc0 R0 T0 (un g hg) cg h1 h2) hin hG
      rw [hρ', hT']
      exact ⟨κ, fun _ => q⟩
    · exact ⟨0, fun h => absurd h hg⟩
  choose κ hκ using each
  -- the integrals over a group
  have gi : ∀ g, g < n → ∃ D I : ℝ, 0 < D ∧ 0 < I ∧ Robust.SMALL * I ≤ ε * D ∧
      D = (∫ ν in ℓ g + Robust.SMALL..ℓ (g + 1) + Robust.SMALL, planckLawDT h k c T' ν) ∧
      I = (∫ ν in ℓ g + Robust.SMALL..ℓ (g + 1) + Robust.SMALL, ρ' / α ρ' T' ν * planckLawDT h k c T' ν) ∧
      exactRosseland h k c (ℓ g) (some (ℓ (g + 1))) α ρ' T' = D / I := by
    intro g hg
    have lt : ℓ g + Robust.SMALL < ℓ (g + 1) + Robust.SMALL := by linarith [step g hg]
    obtain ⟨w1, w2, -⟩ := unclipped_window (S := Robust.SMALL) hh hk T0 (un g hg) inT
    have c1 := cB.mono (sub g hg)
    have c2 := (ca.mul cB).mono (sub g hg)
    refine ⟨_, _, integral_positive lt c1 fun ν hν => pB ν (sub g hg hν), integral_positive lt c2 fun ν hν =>
      mul_pos (div_pos r0 (pa ν (sub g hg hν))) (pB ν (sub g hg hν)), ?_, rfl, rfl, ?_⟩
    · rw [← intervalIntegral.integral_const_mul, ← intervalIntegral.integral_const_mul]
      refine intervalIntegral.integral_mono_on lt.le ?_ ?_ fun ν hν => ?_
      · exact ContinuousOn.intervalIntegrable (by rw [Set.uIcc_of_le lt.le]; exact continuousOn_const.mul c2)
      · exact ContinuousOn.intervalIntegrable (by rw [Set.uIcc_of_le lt.le]; exact continuousOn_const.mul c1)
      · have p1 := pa ν (sub g hg hν)
        have p2 := pB ν (sub g hg hν)
        have := (hfl ρ' inR T' inT ν (sub g hg hν)).2
        have : Robust.SMALL * (ρ' / α ρ' T' ν) ≤ ε := by rw [← mul_div_assoc, div_le_iff₀ p1]; exact this
        calc Robust.SMALL * (ρ' / α ρ' T' ν * planckLawDT h k c T' ν) = Robust.SMALL * (ρ' / α ρ' T' ν) * planckLawDT h k c T' ν := by ring
          _ ≤ _ := mul_le_mul_of_nonneg_right this p2.le
    · unfold exactRosseland rosselandMeanOf
      rw [w1, w2]
      rfl
  have fin : ∀ g, g < n → 0 < κ g ∧
      Real.exp (-F) * (∫ ν in ℓ g + Robust.SMALL..ℓ (g + 1) + Robust.SMALL, ρ' / α ρ' T' ν * planckLawDT h k c T' ν) ≤
        1 / κ g * (∫ ν in ℓ g + Robust.SMALL..ℓ (g + 1) + Robust.SMALL, planckLawDT h k c T' ν) ∧
      1 / κ g * (∫ ν in ℓ g + Robust.SMALL..ℓ (g + 1) + Robust.SMALL, planckLawDT h k c T' ν) ≤
        Real.exp F * (∫ ν in ℓ g + Robust.SMALL..ℓ (g + 1) + Robust.SMALL, ρ' / α ρ' T' ν * planckLawDT h k c T' ν) := by
    intro g hg
    obtain ⟨D, I, D0, I0, hDI, e1, e2, e3⟩ := gi g hg
    obtain ⟨-, q1, q2⟩ := hκ g hg
    rw [← e1, ← e2]
    rw [e3] at q1 q2
    generalize κ g = K at *
    have hFG : F = G + ε := by rw [hF, hG]; ring
    have DI : 0 < D / I := by positivity
    have K0 : 0 < K := lt_of_lt_of_le (by positivity) q1
    refine ⟨K0, ?_, ?_⟩
    · rw [one_div_mul_eq_div, le_div_iff₀ K0]
      have s1 : (D / I + Robust.SMALL) * I ≤ Real.exp ε * D := by
        rw [add_mul, div_mul_cancel₀ _ I0.ne']
        have := mul_le_mul_of_nonneg_right (Real.add_one_le_exp ε) D0.le
        linarith
      calc Real.exp (-F) * I * K ≤ Real.exp (-F) * I * (Real.exp G * (D / I + Robust.SMALL)) := mul_le_mul_of_nonneg_left q2 (by positivity)
        _ = Real.exp (-F) * Real.exp G * ((D / I + Robust.SMALL) * I) := by ring
        _ ≤ Real.exp (-F) * Real.exp G * (Real.exp ε * D) := mul_le_mul_of_nonneg_left s1 (by positivity)
        _ = D := by
          rw [← mul_assoc, ← Real.exp_add, ← Real.exp_add, hFG, show -(G + ε) + G + ε = 0 by ring, Real.exp_zero, one_mul]
    · rw [one_div_mul_eq_div, div_le_iff₀ K0]
      have s1 : D ≤ (D / I + Robust.SMALL) * I := by
        rw [add_mul, div_mul_cancel₀ _ I0.ne']
        have := mul_pos hS I0
        linarith
      have s2 : 1 ≤ Real.exp F * Real.exp (-G) := by
        rw [← Real.exp_add, hFG, show G + ε + -G = ε by ring]
        exact Real.one_le_exp hε0
      calc D ≤ 1 * ((D / I + Robust.SMALL) * I) := by rw [one_mul]; exact s1
        _ ≤ Real.exp F * Real.exp (-G) * ((D / I + Robust.SMALL) * I) := mul_le_mul_of_nonneg_right s2 (by positivity)
        _ = Real.exp F * I * (Real.exp (-G) * (D / I + Robust.SMALL)) := by ring
        _ ≤ Real.exp F * I * K := mul_le_mul_of_nonneg_left q1 (by positivity)
  refine ⟨κ, fun g hg => ⟨(hκ g hg).1, (fin g hg).1⟩, ?_⟩
  have sum : ∑ g ∈ Finset.range n, ∫ ν in ℓ g + Robust.SMALL..ℓ (g + 1) + Robust.SMALL, ρ' / α ρ' T' ν * planckLawDT h k c T' ν =
      ∫ ν in a..z, ρ' / α ρ' T' ν * planckLawDT h k c T' ν := by
    rw [ha, hz]
    refine intervalIntegral.sum_integral_adjacent_intervals (a := fun g => ℓ g + Robust.SMALL) fun g hg => ?_
    have lt : ℓ g + Robust.SMALL < ℓ (g + 1) + Robust.SMALL := by linarith [step g hg]
    exact ContinuousOn.intervalIntegrable (by
      rw [Set.uIcc_of_le lt.le]
      exact (ca.mul cB).mono (sub g hg))
  rw [← sum, Finset.mul_sum, Finset.mul_sum]
  exact ⟨Finset.sum_le_sum fun g hg => (fin g (Finset.mem_range.1 hg)).2.1, Finset.sum_le_sum fun g hg => (fin g (Finset.mem_range.1 hg)).2.2⟩

end

/-! ## An example: gray opacity, groups `[1, 2]` and `[2, 3]`, densities and temperatures from 1 to 10, 1001 temperatures -/

example : ∃ (qP qR : XR → XR → ℤ → Outcome XR) (κ : ℕ → ℝ) (F T : ℝ),
    MeansOf 1 1 1 (fun ρ _ _ => ρ * 1) 0 1 2 0 1 1001 [.fin 1, .fin 2, .fin 3] 2 1000 qP qR ∧
    qR (.fin 2) (.fin 3) 0 = ok (.fin (2 * κ 0)) ∧ qR (.fin 2) (.fin 3) 1 = ok (.fin (2 * κ 1)) ∧ F ≤ 0.05 ∧ T = 3 + Robust.SMALL ∧
    Real.exp (-F) * (∫ ν in (1 : ℝ) + Robust.SMALL..3 + Robust.SMALL, planckLawDT 1 1 1 T ν) ≤
      1 / κ 0 * (∫ ν in (1 : ℝ) + Robust.SMALL..2 + Robust.SMALL, planckLawDT 1 1 1 T ν) +
        1 / κ 1 * (∫ ν in (2 : ℝ) + Robust.SMALL..3 + Robust.SMALL, planckLawDT 1 1 1 T ν) ∧
    1 / κ 0 * (∫ ν in (1 : ℝ) + Robust.SMALL..2 + Robust.SMALL, planckLawDT 1 1 1 T ν) +
      1 / κ 1 * (∫ ν in (2 : ℝ) + Robust.SMALL..3 + Robust.SMALL, planckLawDT 1 1 1 T ν) ≤
      Real.exp F * (∫ ν in (1 : ℝ) + Robust.SMALL..3 + Robust.SMALL, planckLawDT 1 1 1 T ν) := by
  obtain ⟨hb, hgr⟩ := bounds123
  obtain ⟨o, ho, -⟩ := C07_gray_exists onesPC_finite (κ := 1) one_pos 0 1 (NRho := 2) (by norm_num) 0 1 (NT := 1001)
    (by norm_num) hb (N := 1000) (by norm_num) (fun _ => .fin 0)
  have hm : MeansOf 1 1 1 (fun ρ _ _ => ρ * 1) 0 1 2 0 1 1001 [.fin 1, .fin 2, .fin 3] 2 1000
      (MeanPhotonAPI.PlanckGroupAbsorptionCoefficient o) (MeanPhotonAPI.RosselandGroupAbsorptionCoefficient o) :=
    .absorption (GrayOpacity.mk onesPC (.fin 1)) onesPC _ o onesPC_finite (fun ρ T ν _ _ _ => gray_coef onesPC 1 ρ T ν) ho
  have hS := SMALL_pos
  have hS' := SMALL_lt
  have hS2 : (Robust.SMALL : ℝ) ≤ 1 / 10 ^ 9 := hS'.le.trans (by norm_num)
  have hl10 : Real.log 10 ≤ 9 := by have := Real.log_le_sub_one_of_pos (x := 10) (by norm_num); linarith
  have hl0 : 0 < Real.log 10 := Real.log_pos (by norm_num)
  have e10 : (10 : ℝ) ^ (1 : ℝ) = 10 := Real.rpow_one 10
  have e1 : (10 : ℝ) ^ (0 : ℝ) = 1 := Real.rpow_zero 10
  -- lower bound of the intensity of a group
  have low : ∀ g : ℕ, g < 2 → ∀ T ∈ Set.Icc ((10 : ℝ) ^ (0 : ℝ)) (10 ^ (1 : ℝ)),
      (2 / 8100 : ℝ) ≤ ∫ ν in (g : ℝ) + 1 + Robust.SMALL..((g + 1 : ℕ) : ℝ) + 1 + Robust.SMALL, planckLawDT 1 1 1 T ν := by
    intro g hg T hT
    rw [e1, e10] at hT
    have t0 : 0 < T := by linarith [hT.1]
    have g0 : (0 : ℝ) ≤ g := by positivity
    have g1 : (g : ℝ) ≤ 1 := by exact_mod_cast (by omega : g ≤ 1)
    have le : (g : ℝ) + 1 + Robust.SMALL ≤ ((g + 1 : ℕ) : ℝ) + 1 + Robust.SMALL := by push_cast; linarith
    have hi := intervalIntegral.integral_mono_on le (μ := volume) (f := fun _ => (2 / 8100 : ℝ)) intervalIntegrable_const
      (((Convergence.cont_planckLawDT (T := T) one_pos one_pos one_pos t0).mono
        (by rw [Set.uIcc_of_le le]; exact fun x hx => Set.mem_Ioi.2 (by linarith [hx.1]))).intervalIntegrable) (fun x hx => by
      have x1 : 1 ≤ x := by linarith [hx.1]
      have x3 : x ≤ 4 := by have := hx.2; push_cast at this; linarith
      have a0 : 0 < 1 * x / (1 * T) := by positivity
      have a4 : 1 * x / (1 * T) ≤ 4 := by rw [div_le_iff₀ (by linarith)]; nlinarith [hT.1]
      have e4 : Real.exp 4 ≤ 81 := by
        rw [show (4 : ℝ) = 1 + 1 + 1 + 1 by norm_num, Real.exp_add, Real.exp_add, Real.exp_add]
        have h3 := Real.exp_one_lt_three
        have p := Real.exp_pos 1
        nlinarith [mul_pos p p, mul_pos (mul_pos p p) p, mul_le_mul h3.le h3.le p.le (by norm_num)]
      have e1 : 1 / 81 ≤ Real.exp (-(1 * x / (1 * T))) := by
        rw [Real.exp_neg, one_div]
        exact inv_anti₀ (Real.exp_pos _) (le_trans (Real.exp_le_exp.2 a4) e4)
      have e0 : Real.exp (-(1 * x / (1 * T))) < 1 := Real.exp_lt_one_iff.2 (by linarith)
      unfold planckLawDT
      have : 1 ≤ x ^ 4 := one_le_pow₀ x1
      rw [le_div_iff₀ (pow_pos (by linarith) 2)]
      have h2 : (1 - Real.exp (-(1 * x / (1 * T)))) ^ 2 ≤ 1 := by
        have := Real.exp_pos (-(1 * x / (1 * T)))
        nlinarith
      have h3 : 2 / 100 ≤ 2 * (1 : ℝ) ^ 2 * x ^ 4 / (T ^ 2 * 1 ^ 2 * 1) := by
        rw [le_div_iff₀ (by positivity)]
        nlinarith [hT.1, hT.2]
      generalize Real.exp (-(1 * x / (1 * T))) = y at *
      calc 2 / 8100 * (1 - y) ^ 2 ≤ 2 / 8100 * 1 := by linarith
        _ = 2 / 100 * (1 / 81) := by norm_num
        _ ≤ _ := mul_le_mul h3 e1 (by norm_num) (by linarith))
    rw [intervalIntegral.integral_const, smul_eq_mul] at hi
    push_cast at hi ⊢
    linarith
  have hnd : nodeDistance 0 1 1001 = Real.log 10 / 1000 := by unfold nodeDistance; norm_num; ring
  have hin : Inside 0 1 0 1 2 3 := by
    have c : ∀ {x : ℝ}, 2 ≤ x → x ≤ 3 → 0 ≤ coordinate x ∧ coordinate x ≤ 1 := by
      intro x h2 h3
      have p : 0 < |x| + Robust.SMALL := by positivity
      have ax : |x| = x := abs_of_pos (by linarith)
      unfold coordinate
      constructor
      · rw [Real.le_logb_iff_rpow_le (by norm_num) p, e1, ax]; linarith
      · rw [Real.logb_le_iff_le_rpow (by norm_num) p, e10, ax]; linarith
    exact ⟨(c (le_refl _) (by norm_num)).1, (c (le_refl _) (by norm_num)).2, (c (by norm_num) (le_refl _)).1, (c (by norm_num) (le_refl _)).2⟩
  obtain ⟨F, hF⟩ : ∃ F : ℝ, F = 5e-3 + 1e-70 + (0 * nodeDistance 0 1 2 + (0 + 2 * max 2 (1 * (((2 : ℕ) : ℝ) + 1 + Robust.SMALL) / (1 * 10 ^ (0 : ℝ)))) *
    nodeDistance 0 1 1001) / 2 := ⟨_, rfl⟩
  have hF5 : F ≤ 0.05 := by
    rw [hF, hnd, e1, max_eq_right (by push_cast; norm_num; linarith)]
    norm_num at hS2 ⊢
    nlinarith
  obtain ⟨κ, q1, q2, q3⟩ := C91_rosseland_groups_add_up hm (fun ρ _ _ h _ _ => by positivity) (by norm_num) (by norm_num) (by norm_num) (by norm_num)
    (ℓ := fun g => (g : ℝ) + 1) (by norm_num) hgr rfl rfl (by simp only [e1, e10]; norm_num) (Λ := 0) (ε := 1e-70) (E := 5e-3) (σ := 0) (τ := 0)
    (le_refl _) (le_refl _) (le_refl _) (by norm_num)
    ⟨fun _ _ _ _ => by fun_prop, fun ρ hρ _ _ _ _ => by
      have := hρ.1
      rw [e1] at this
      linarith, fun ρ hρ ρ' hρ' _ _ _ _ _ _ => by
      have h1 := hρ.1
      have h2 := hρ'.1
      rw [e1] at h1 h2
      rw [mul_one, mul_one, div_self (by linarith), div_self (by linarith)]
      simp⟩
    (fun ρ _ T _ x _ y _ => by simp) (fun ρ hρ T hT ν hν => by
      have h1 := hρ.1
      have h2 := hρ.2
      rw [e1] at h1
      rw [e10] at h2
      norm_num at hS' ⊢
      constructor <;> nlinarith) (fun g hg ρ hρ T hT => by
      have h1 := low g hg T hT
      have : Robust.SMALL * Real.log 10 ≤ 1e-80 * 9 := mul_le_mul hS'.le hl10 hl0.le (by norm_num)
      have h2 := this.trans (le_trans (by norm_num) (mul_le_mul_of_nonneg_left h1 (by norm_num : (0 : ℝ) ≤ 1e-70)))
      have h3 := hρ.1
      rw [e1] at h3
      have r0 : ρ ≠ 0 := by linarith
      refine ⟨h2, ?_⟩
      simp only [mul_one, div_self r0, one_mul]
      exact h2) (by
      have h1 : Real.exp 5e-3 ≤ Real.exp 1 := Real.exp_le_exp.2 (by norm_num)
      have h2 := Real.exp_one_lt_three
      have h3 : Real.exp 5e-3 ≤ 3 := by linarith
      generalize Real.exp 5e-3 = y at *
      norm_num
      linarith) rfl
    (fun g hg => by
      have g0 : (0 : ℝ) ≤ g := by positivity
      have h1 : Real.log ((((g + 1 : ℕ) : ℝ) + 1 + Robust.SMALL) / ((g : ℝ) + 1 + Robust.SMALL)) ≤ 1 := by
        have := Real.log_le_sub_one_of_pos (x := (((g + 1 : ℕ) : ℝ) + 1 + Robust.SMALL) / ((g : ℝ) + 1 + Robust.SMALL)) (by positivity)
        have h2 : (((g + 1 : ℕ) : ℝ) + 1 + Robust.SMALL) / ((g : ℝ) + 1 + Robust.SMALL) ≤ 2 := by
          rw [div_le_iff₀ (by positivity)]
          push_cast
          linarith
        linarith
      have h0 : max 4 (1 * (((2 : ℕ) : ℝ) + 1 + Robust.SMALL) / (1 * 10 ^ (0 : ℝ))) = 4 := by
        rw [e1, max_eq_left]
        push_cast
        norm_num at hS2 ⊢
        linarith
      show (max 4 (1 * (((2 : ℕ) : ℝ) + 1 + Robust.SMALL) / (1 * 10 ^ (0 : ℝ))) + 0 / 2) *
        (Real.log ((((g + 1 : ℕ) : ℝ) + 1 + Robust.SMALL) / ((g : ℝ) + 1 + Robust.SMALL)) / ((1000 : ℕ) : ℝ)) + 1e-70 + 1e-14 ≤ 5e-3
      rw [h0]
      generalize Real.log ((((g + 1 : ℕ) : ℝ) + 1 + Robust.SMALL) / ((g : ℝ) + 1 + Robust.SMALL)) = L at *
      norm_num
      linarith) hin hF rfl rfl
  refine ⟨_, _, κ, F, 3 + Robust.SMALL, hm, (q1 0 (by norm_num)).1, (q1 1 (by norm_num)).1, hF5, rfl, ?_⟩
  have a2 : |(2 : ℝ)| = 2 := by norm_num
  have a3 : |(3 : ℝ)| = 3 := by norm_num
  have r : (2 + Robust.SMALL : ℝ) / ((2 + Robust.SMALL) * 1) = 1 := by rw [mul_one]; exact div_self (by linarith)
  simp only [a2, a3, r, Finset.sum_range_succ, Finset.sum_range_zero] at q2 q3
  have c1 : ((1 : ℕ) : ℝ) + 1 = 2 := by norm_num
  have c2 : ((2 : ℕ) : ℝ) + 1 = 3 := by norm_num
  have c0 : ((0 : ℕ) : ℝ) + 1 = 1 := by norm_num
  simp only [zero_add, Nat.reduceAdd, c0, c1, c2, one_mul] at q2 q3
  exact ⟨q2, q3⟩

end Opac.Photons
