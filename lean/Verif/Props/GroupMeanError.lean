import Verif.Props.PhotonMeanError
import Verif.Lemmas.GroupError

/-!
# C87: how accurate the means of a photon group are

At `XR`, the extended reals with NaN.  The sampled part of a group is the part of it that lies between `10⁻³ kT/h` and `10³ kT/h`
(`groupFrom`, `groupTo` of `Spec.MeanLimits`); `planckMeanOf`, `rosselandMeanOf` are the means over it, as integrals.
-/

namespace Opac.Photons
open Arith Outcome Spec Spiner MeasureTheory

section
variable {h k c : ℝ} {α : ℝ → ℝ → ℝ → ℝ} {lRhoMin lRhoMax lTMin lTMax : ℝ} {NRho NT : ℤ} {b : List XR} {n N : ℕ}
  {qP qR : XR → XR → ℤ → Outcome XR}

/-- **C87 (Planck)**: let an absorption or scattering coefficient be positive and vary like a power of the frequency of order at most
`Λ` in either direction, at a node of the table and in the sampled part `[A, B]` of a group.  With `N` frequencies, `δ = ln(B/A)/N`
their logarithmic distance and `m = max(4, hB/kT)`, the Planck group opacity at that node is within a factor `exp((m + Λ/2) δ)`
of the Planck mean over `[A, B]`, up to the guard `SMALL` of the denominator. -/
theorem C87_planck (hm : MeansOf h k c α lRhoMin lRhoMax NRho lTMin lTMax NT b n N qP qR)
    (hα : ∀ ρ T ν, 0 < ρ → 0 < T → 0 < ν → 0 ≤ α ρ T ν) (hNR : 2 ≤ NRho) (hNT : 2 ≤ NT)
    (hlR : lRhoMin < lRhoMax) (hlT : lTMin < lTMax) {g : ℕ} (hg : g < n) {lo : ℝ} {up : Option ℝ} (hgr : GroupIs b g lo up)
    {rho T : ℝ} (hin : Inside lRhoMin lRhoMax lTMin lTMax rho T) {i j : ℕ} (hi : (i : ℤ) < NRho) (hj : (j : ℤ) < NT)
    {ρ' T' A B Λ δ ε m : ℝ} (hρ' : ρ' = nodeValue lRhoMin lRhoMax NRho i) (hT' : T' = nodeValue lTMin lTMax NT j)
    (hr : coordinate rho = Real.logb 10 ρ') (ht : coordinate T = Real.logb 10 T')
    (eA : A = groupFrom Robust.SMALL h k T' lo up) (eB : B = groupTo Robust.SMALL h k T' lo up)
    (hδ : δ = Real.log (B / A) / N) (hm' : m = max 4 (h * B / (k * T')))
    (hα0 : ∀ ν ∈ Set.Icc A B, 0 < α ρ' T' ν) (hΛ : 0 ≤ Λ) (hs : SlopeAtMost Λ A B (α ρ' T'))
    (hε : Robust.SMALL * Real.log 10 ≤ ε * ∫ ν in A..B, planckLaw h k c T' ν) :
    ∃ κ, qP (.fin rho) (.fin T) g = ok (.fin (rho * (κ + Robust.SMALL))) ∧
      Real.exp (-((m + Λ / 2) * δ + ε + 1e-14)) * planckMeanOf h k c ρ' T' A B (α ρ' T') ≤ κ ∧
      κ ≤ Real.exp ((m + Λ / 2) * δ + ε + 1e-14) * planckMeanOf h k c ρ' T' A B (α ρ' T') := by
  obtain ⟨t, M, e, -, g2, g1, -, -⟩ := hm.averaged hα hNR hNT
  obtain ⟨-, hN, hh, hk, hc⟩ := M.bounds
  have p1 : 0 < ρ' := hρ' ▸ nodeValue_pos _ _ _ _
  have p2 : 0 < T' := hT' ▸ nodeValue_pos _ _ _ _
  have hv := lookup_node_value (lk := t.lPlanck) (gR := ⟨lRhoMin, lRhoMax, NRho⟩) (gT := ⟨lTMin, lTMax, NT⟩) g2 g1 hNR hNT hlR hlT
    (g := g) (K := fun i j => groupPlanckMean Robust.SMALL h k c (nodeValue lRhoMin lRhoMax NRho i) (nodeValue lTMin lTMax NT j) lo up N
      (α (nodeValue lRhoMin lRhoMax NRho i) (nodeValue lTMin lTMax NT j)) + Robust.SMALL)
    (fun i j hi hj => (M.read hi hj hgr hg rfl rfl).1)
    (fun i j hi hj => by have := (M.read hi hj hgr hg rfl rfl).2.2.1; linarith [SMALL_pos]) hin.1 hin.2 hin.3 hin.4 hi hj
    (by rw [hr, hρ']; unfold nodeValue node; exact Real.logb_rpow (by norm_num) (by norm_num))
    (by rw [ht, hT']; unfold nodeValue node; exact Real.logb_rpow (by norm_num) (by norm_num))
  rw [← hρ', ← hT'] at hv
  obtain ⟨hA, hAB⟩ := sampled_part hh hk p2 hgr.2.2.1 hgr.2.2.2
  rw [← eA] at hA hAB
  rw [← eB] at hAB
  exact ⟨_, by rw [e]; exact hv, Slopes.planck_error hh hk hc p2 p1 SMALL_pos eA eB hA hAB (by omega) hδ hm' hΛ hα0 hs hε⟩

/-- **C87 (Rosseland)**: the same for the Rosseland group opacity.  The code leaves out frequencies at which the coefficient is
at most `SMALL`, and returns `SMALL` if a sum is at most `SMALL`; `ε` measures how far the coefficient and both integrals
are above that. -/
theorem C87_rosseland (hm : MeansOf h k c α lRhoMin lRhoMax NRho lTMin lTMax NT b n N qP qR)
    (hα : ∀ ρ T ν, 0 < ρ → 0 < T → 0 < ν → 0 ≤ α ρ T ν) (hNR : 2 ≤ NRho) (hNT : 2 ≤ NT)
    (hlR : lRhoMin < lRhoMax) (hlT : lTMin < lTMax) {g : ℕ} (hg : g < n) {lo : ℝ} {up : Option ℝ} (hgr : GroupIs b g lo up)
    {rho T : ℝ} (hin : Inside lRhoMin lRhoMax lTMin lTMax rho T) {i j : ℕ} (hi : (i : ℤ) < NRho) (hj : (j : ℤ) < NT)
    {ρ' T' A B Λ δ ε m : ℝ} (hρ' : ρ' = nodeValue lRhoMin lRhoMax NRho i) (hT' : T' = nodeValue lTMin lTMax NT j)
    (hr : coordinate rho = Real.logb 10 ρ') (ht : coordinate T = Real.logb 10 T')
    (eA : A = groupFrom Robust.SMALL h k T' lo up) (eB : B = groupTo Robust.SMALL h k T' lo up)
    (hδ : δ = Real.log (B / A) / N) (hm' : m = max 4 (h * B / (k * T')))
    (hα0 : ∀ ν ∈ Set.Icc A B, 0 < α ρ' T' ν) (hΛ : 0 ≤ Λ) (hs : SlopeAtMost Λ A B (α ρ' T'))
    (hαS : ∀ ν ∈ Set.Icc A B, Robust.SMALL ≤ ε * α ρ' T' ν)
    (hd : Robust.SMALL * Real.log 10 ≤ ε * ∫ ν in A..B, planckLawDT h k c T' ν)
    (hn : Robust.SMALL * Real.log 10 ≤ ε * ∫ ν in A..B, ρ' / α ρ' T' ν * planckLawDT h k c T' ν)
    (hε : ε * Real.exp ((m + Λ / 2) * δ) ≤ 1 / 4) :
    ∃ κ, qR (.fin rho) (.fin T) g = ok (.fin (rho * (κ + Robust.SMALL))) ∧
      Real.exp (-((m + Λ / 2) * δ + ε + 1e-14)) * rosselandMeanOf h k c ρ' T' A B (α ρ' T') ≤ κ ∧
      κ ≤ Real.exp ((m + Λ / 2) * δ + ε + 1e-14) * rosselandMeanOf h k c ρ' T' A B (α ρ' T') := by
  obtain ⟨t, M, -, e, -, -, g2, g1⟩ := hm.averaged hα hNR hNT
  obtain ⟨-, hN, hh, hk, hc⟩ := M.bounds
  have p1 : 0 < ρ' := hρ' ▸ nodeValue_pos _ _ _ _
  have p2 : 0 < T' := hT' ▸ nodeValue_pos _ _ _ _
  have hv := lookup_node_value (lk := t.lRosseland) (gR := ⟨lRhoMin, lRhoMax, NRho⟩) (gT := ⟨lTMin, lTMax, NT⟩) g2 g1 hNR hNT hlR hlT
    (g := g) (K := fun i j => groupRosselandMean Robust.SMALL h k c (nodeValue lRhoMin lRhoMax NRho i) (nodeValue lTMin lTMax NT j) lo up N
      (α (nodeValue lRhoMin lRhoMax NRho i) (nodeValue lTMin lTMax NT j)) + Robust.SMALL)
    (fun i j hi hj => (M.read hi hj hgr hg rfl rfl).2.1)
    (fun i j hi hj => by have := (M.read hi hj hgr hg rfl rfl).2.2.2; linarith [SMALL_pos]) hin.1 hin.2 hin.3 hin.4 hi hj
    (by rw [hr, hρ']; unfold nodeValue node; exact Real.logb_rpow (by norm_num) (by norm_num))
    (by rw [ht, hT']; unfold nodeValue node; exact Real.logb_rpow (by norm_num) (by norm_num))
  rw [← hρ', ← hT'] at hv
  obtain ⟨hA, hAB⟩ := sampled_part hh hk p2 hgr.2.2.1 hgr.2.2.2
  rw [← eA] at hA hAB
  rw [← eB] at hAB
  exact ⟨_, by rw [e]; exact hv,
    Slopes.rosseland_error hh hk hc p2 p1 SMALL_pos eA eB hA hAB (by omega) hδ hm' hΛ hαS hs hε hd hn hα0⟩

end

/-- group `[1, 2]` at temperature 1 in units in which the constants are 1 -/
theorem group12 : groupFrom Robust.SMALL 1 1 1 1 (some 2) = 1 + Robust.SMALL ∧ groupTo Robust.SMALL 1 1 1 1 (some 2) = 2 + Robust.SMALL := by
  unfold groupFrom groupTo groupWindow window
  norm_num

theorem group12_law : (2 / 27 : ℝ) ≤ ∫ ν in (1 + Robust.SMALL : ℝ)..(2 + Robust.SMALL), planckLaw 1 1 1 1 ν := by
  have hS := SMALL_pos
  have hS' := SMALL_tiny
  norm_num at hS'
  have hAB : (1 + Robust.SMALL : ℝ) ≤ 2 + Robust.SMALL := by linarith
  have e3 : Real.exp 3 ≤ 27 := by
    rw [show (3 : ℝ) = 1 + 1 + 1 by norm_num, Real.exp_add, Real.exp_add]
    have := Real.exp_one_lt_three
    have := Real.exp_pos 1
    nlinarith [mul_pos this this]
  have hi := intervalIntegral.integral_mono_on hAB (μ := volume) (f := fun _ => (2 / 27 : ℝ)) intervalIntegrable_const
    (((Convergence.cont_planckLaw (T := 1) one_pos one_pos one_pos one_pos).mono
      (by rw [Set.uIcc_of_le hAB]; exact fun x hx => Set.mem_Ioi.2 (by linarith [hx.1]))).intervalIntegrable) (fun x hx => by
    unfold planckLaw
    have x1 : 1 ≤ x := by linarith [hx.1]
    have e1 : Real.exp (1 * x / (1 * 1)) ≤ 27 := le_trans (Real.exp_le_exp.2 (by linarith [hx.2])) e3
    have e0 : 0 < Real.exp (1 * x / (1 * 1)) - 1 := by
      have := Real.add_one_lt_exp (x := 1 * x / (1 * 1)) (by positivity)
      norm_num at this ⊢; linarith
    have : 1 ≤ x ^ 3 := one_le_pow₀ x1
    exact div_le_div₀ (by positivity) (by linarith) e0 (by linarith))
  rw [intervalIntegral.integral_const] at hi
  norm_num at hi
  norm_num
  exact hi

theorem group12_lawDT : (2 / 27 : ℝ) ≤ ∫ ν in (1 + Robust.SMALL : ℝ)..(2 + Robust.SMALL), planckLawDT 1 1 1 1 ν := by
  have hS := SMALL_pos
  have hS' := SMALL_tiny
  norm_num at hS'
  have hAB : (1 + Robust.SMALL : ℝ) ≤ 2 + Robust.SMALL := by linarith
  have e3 : 1 / 27 ≤ Real.exp (-3) := by
    rw [Real.exp_neg, one_div]
    refine inv_anti₀ (Real.exp_pos _) ?_
    rw [show (3 : ℝ) = 1 + 1 + 1 by norm_num, Real.exp_add, Real.exp_add]
    have := Real.exp_one_lt_three
    have := Real.exp_pos 1
    nlinarith [mul_pos this this]
  have hi := intervalIntegral.integral_mono_on hAB (μ := volume) (f := fun _ => (2 / 27 : ℝ)) intervalIntegrable_const
    (((Convergence.cont_planckLawDT (T := 1) one_pos one_pos one_pos one_pos).mono
      (by rw [Set.uIcc_of_le hAB]; exact fun x hx => Set.mem_Ioi.2 (by linarith [hx.1]))).intervalIntegrable) (fun x hx => by
    unfold planckLawDT
    have x1 : 1 ≤ x := by linarith [hx.1]
    have e1 : 1 / 27 ≤ Real.exp (-(1 * x / (1 * 1))) := e3.trans (Real.exp_le_exp.2 (by linarith [hx.2]))
    have e0 : Real.exp (-(1 * x / (1 * 1))) < 1 := Real.exp_lt_one_iff.2 (by norm_num; linarith)
    have : 1 ≤ x ^ 4 := one_le_pow₀ x1
    rw [le_div_iff₀ (pow_pos (by linarith) 2)]
    have h2 : (1 - Real.exp (-(1 * x / (1 * 1)))) ^ 2 ≤ 1 := by
      have := Real.exp_pos (-(1 * x / (1 * 1)))
      nlinarith
    generalize Real.exp (-(1 * x / (1 * 1))) = y at *
    norm_num
    nlinarith)
  rw [intervalIntegral.integral_const] at hi
  norm_num at hi
  norm_num
  exact hi

/-- the hypotheses of `C87_planck` and `C87_rosseland` are met by a gray opacity in the group `[1, 2]` with 1000 frequencies -/
example : ∃ qP qR : XR → XR → ℤ → Outcome XR,
    MeansOf 1 1 1 (fun ρ _ _ => ρ * 1) 0 1 2 0 1 2 [.fin 1, .fin 2] 1 1000 qP qR ∧
    (∃ κ : ℝ, qP (.fin (1 - Robust.SMALL)) (.fin (1 - Robust.SMALL)) 0 = ok (.fin ((1 - Robust.SMALL) * (κ + Robust.SMALL))) ∧
      0.99 ≤ κ ∧ κ ≤ 1.01) ∧
    ∃ κ : ℝ, qR (.fin (1 - Robust.SMALL)) (.fin (1 - Robust.SMALL)) 0 = ok (.fin ((1 - Robust.SMALL) * (κ + Robust.SMALL))) ∧
      0.99 ≤ κ ∧ κ ≤ 1.01 := by
  obtain ⟨hb, hgr⟩ := oneGroup (lo := 1) (hi := 2) (by norm_num) (by norm_num)
  obtain ⟨o, ho, -⟩ := C07_gray_exists onesPC_finite (κ := 1) one_pos 0 1 (NRho := 2) (by norm_num) 0 1 (NT := 2)
    (by norm_num) hb (N := 1000) (by norm_num) (fun _ => .fin 0)
  have hm : MeansOf 1 1 1 (fun ρ _ _ => ρ * 1) 0 1 2 0 1 2 [.fin 1, .fin 2] 1 1000
      (MeanPhotonAPI.PlanckGroupAbsorptionCoefficient o) (MeanPhotonAPI.RosselandGroupAbsorptionCoefficient o) :=
    .absorption (GrayOpacity.mk onesPC (.fin 1)) onesPC _ o onesPC_finite (fun ρ T ν _ _ _ => gray_coef onesPC 1 ρ T ν) ho
  have hnode : (1 : ℝ) = nodeValue 0 1 2 0 := by rw [node0]; simp
  have hS := SMALL_pos
  have hS' := SMALL_lt
  have hl10 : Real.log 10 ≤ 9 := by have := Real.log_le_sub_one_of_pos (x := 10) (by norm_num); linarith
  have hl0 : 0 < Real.log 10 := Real.log_pos (by norm_num)
  obtain ⟨δ, hδ⟩ : ∃ δ, δ = Real.log ((2 + Robust.SMALL) / (1 + Robust.SMALL)) / ((1000 : ℕ) : ℝ) := ⟨_, rfl⟩
  have hδ1 : 0 ≤ δ ∧ δ ≤ 1e-3 := by
    rw [hδ]
    have h1 : 1 ≤ (2 + Robust.SMALL : ℝ) / (1 + Robust.SMALL) := by rw [le_div_iff₀ (by linarith)]; linarith
    have h2 := Real.log_le_sub_one_of_pos (x := (2 + Robust.SMALL : ℝ) / (1 + Robust.SMALL)) (by linarith)
    have h3 : (2 + Robust.SMALL : ℝ) / (1 + Robust.SMALL) ≤ 2 := by rw [div_le_iff₀ (by linarith)]; linarith
    have h4 := Real.log_nonneg h1
    constructor
    · positivity
    · rw [div_le_iff₀ (by norm_num)]; norm_num; linarith
  have hm' : (4 : ℝ) = max 4 (1 * (2 + Robust.SMALL) / (1 * 1)) := by
    rw [max_eq_left]; norm_num at hS' ⊢; linarith
  have hsl : Robust.SMALL * Real.log 10 ≤ 1e-70 * (2 / 27 : ℝ) := by
    have : Robust.SMALL * Real.log 10 ≤ 1e-80 * 9 := mul_le_mul hS'.le hl10 hl0.le (by norm_num)
    refine this.trans (by norm_num)
  have hslope : SlopeAtMost 0 (1 + Robust.SMALL) (2 + Robust.SMALL) fun _ => (1 : ℝ) * 1 := fun x _ y _ => by simp
  have hE : (4 + (0 : ℝ) / 2) * δ + 1e-70 + 1e-14 ≤ 5e-3 := by norm_num at hδ1 ⊢; linarith
  have lo99 : 0.99 ≤ Real.exp (-((4 + (0 : ℝ) / 2) * δ + 1e-70 + 1e-14)) := by
    have := Real.add_one_le_exp (-((4 + (0 : ℝ) / 2) * δ + 1e-70 + 1e-14))
    norm_num at hE this ⊢
    linarith
  have up101 : Real.exp ((4 + (0 : ℝ) / 2) * δ + 1e-70 + 1e-14) ≤ 1.01 := by
    refine (Real.exp_le_exp.2 hE).trans ?_
    have h1 := Real.add_one_le_exp (-(5e-3 : ℝ))
    have h2 : Real.exp (5e-3) * Real.exp (-(5e-3 : ℝ)) = 1 := by rw [← Real.exp_add]; simp
    have h3 := Real.exp_pos (5e-3)
    norm_num at h1 h2 h3 ⊢
    nlinarith
  have l1 := group12_law
  have l2 := group12_lawDT
  have mP : planckMeanOf 1 1 1 1 1 (1 + Robust.SMALL) (2 + Robust.SMALL) (fun _ => (1 : ℝ) * 1) = 1 := by
    unfold planckMeanOf
    simp only [mul_one, div_one, one_mul]
    exact div_self (by linarith)
  have mR : rosselandMeanOf 1 1 1 1 1 (1 + Robust.SMALL) (2 + Robust.SMALL) (fun _ => (1 : ℝ) * 1) = 1 := by
    unfold rosselandMeanOf
    simp only [mul_one, div_one, one_mul]
    exact div_self (by linarith)
  refine ⟨_, _, hm, ?_, ?_⟩
  · obtain ⟨κ, e, a, b⟩ := C87_planck hm (fun ρ _ _ h _ _ => by positivity) (by norm_num) (by norm_num) (by norm_num) (by norm_num)
      (g := 0) (by norm_num) hgr first_node.1 (i := 0) (j := 0) (by norm_num) (by norm_num) hnode hnode first_node.2 first_node.2
      group12.1.symm group12.2.symm hδ hm' (fun _ _ => by norm_num) (le_refl 0) hslope (ε := 1e-70)
      (hsl.trans (mul_le_mul_of_nonneg_left l1 (by norm_num)))
    rw [mP, mul_one] at a b
    exact ⟨κ, e, lo99.trans a, b.trans up101⟩
  · obtain ⟨κ, e, a, b⟩ := C87_rosseland hm (fun ρ _ _ h _ _ => by positivity) (by norm_num) (by norm_num) (by norm_num) (by norm_num)
      (g := 0) (by norm_num) hgr first_node.1 (i := 0) (j := 0) (by norm_num) (by norm_num) hnode hnode first_node.2 first_node.2
      group12.1.symm group12.2.symm hδ hm' (fun _ _ => by norm_num) (le_refl 0) hslope (ε := 1e-70)
      (fun _ _ => by norm_num at hS' ⊢; linarith)
      (hsl.trans (mul_le_mul_of_nonneg_left l2 (by norm_num)))
      (by simp only [mul_one, div_one, one_mul]; exact hsl.trans (mul_le_mul_of_nonneg_left l2 (by norm_num)))
      (by
        have : Real.exp ((4 + (0 : ℝ) / 2) * δ) ≤ 1.01 := le_trans (Real.exp_le_exp.2 (by
          have : (0 : ℝ) ≤ 1e-70 + 1e-14 := by norm_num
          linarith)) up101
        refine (mul_le_mul_of_nonneg_left this (by norm_num)).trans (by norm_num))
    rw [mR, mul_one] at a b
    exact ⟨κ, e, lo99.trans a, b.trans up101⟩

end Opac.Photons
