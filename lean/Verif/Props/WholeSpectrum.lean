import Verif.Lemmas.WholeSpectrum
import Verif.Props.MeanLimits

/-!
# C79: mean opacities over the whole spectrum
-/

namespace Opac.Photons
open Arith Outcome Spec Spiner Finset Filter Topology

section
variable {h k c : ℝ} {α : ℝ → ℝ → ℝ → ℝ} {lRhoMin lRhoMax lTMin lTMax : ℝ} {NRho NT : ℤ} {b : List XR} {n : ℕ}
  {qP qR : ℕ → XR → XR → ℤ → Outcome XR}

/-- **C79 (bounded coefficients)**: a group from 0 to infinity is sampled from `10⁻³ kT/h` to `10³ kT/h` only.  Still, at
the nodes of the table the Planck mean of a continuous coefficient bounded by `K` tends to the Planck mean over *all*
frequencies, up to `10⁻¹⁰ K/ρ` and the floor, as the number of frequencies grows. -/
theorem C79_planck (hm : ∀ N, 2 ≤ N → MeansOf h k c α lRhoMin lRhoMax NRho lTMin lTMax NT b n N (qP N) (qR N))
    (hα : ∀ ρ T ν, 0 < ρ → 0 < T → 0 < ν → 0 ≤ α ρ T ν)
    (hcont : ∀ ρ T, 0 < ρ → 0 < T → ContinuousOn (α ρ T) (Set.Ioi 0)) (hNR : 2 ≤ NRho) (hNT : 2 ≤ NT)
    (hlR : lRhoMin < lRhoMax) (hlT : lTMin < lTMax) {g : ℕ} (hg : g < n) (hgr : GroupIs b g 0 none)
    {rho T : ℝ} (hin : Inside lRhoMin lRhoMax lTMin lTMax rho T) {i j : ℕ} (hi : (i : ℤ) < NRho) (hj : (j : ℤ) < NT)
    {ρ' T' K : ℝ} (hρ' : ρ' = nodeValue lRhoMin lRhoMax NRho i) (hT' : T' = nodeValue lTMin lTMax NT j)
    (hr : coordinate rho = Real.logb 10 ρ') (ht : coordinate T = Real.logb 10 T')
    (hn : Negligible Robust.SMALL h k c T') (hK : ∀ ν, 0 < ν → α ρ' T' ν ≤ K) :
    ∃ (κ : ℕ → ℝ) (L : ℝ), (∀ N, 2 ≤ N → qP N (.fin rho) (.fin T) g = ok (.fin (rho * κ N))) ∧ Tendsto κ atTop (𝓝 L) ∧
      |L - (wholePlanckMean h k c ρ' T' (α ρ' T') + Robust.SMALL)| ≤ 1e-10 * (K / ρ') := by
  obtain ⟨κ, L, h1, h2, -, h4⟩ := C66_planck hm hα hcont hNR hNT hlR hlT hg hgr hin
  refine ⟨κ, L, h1, h2, ?_⟩
  obtain ⟨t, A, -⟩ := (hm 2 (le_refl 2)).averaged hα hNR hNT
  obtain ⟨-, -, hh, hk, hc⟩ := A.bounds
  have p1 : 0 < ρ' := hρ' ▸ nodeValue_pos _ _ _ _
  have p2 : 0 < T' := hT' ▸ nodeValue_pos _ _ _ _
  rw [h4 i j hi hj ρ' T' hρ' hT' hr ht, add_sub_add_right_eq_sub]
  exact WholeSpectrum.planck_near hh hk hc p2 SMALL_pos p1 hn (hcont _ _ p1 p2) (fun ν hν => hα _ _ _ p1 p2 hν) hK

end

/-- **C79 (bremsstrahlung)**: the coefficient of bremsstrahlung grows without bound towards low frequencies, where it is not
sampled.  The emission computed from its Planck mean over the whole spectrum, `ρ κ` times the emission of a black body,
tends to a limit that is a thousandth below the emission of the opacity itself: between 0.99895 and 0.99905 times
`Emissivity(ρ, T)`, at the nodes of the table and up to the floor. -/
theorem C79_bremsstrahlung {pc : PC XR} {h k c me mp qe : ℝ} (hpc : FinitePC pc h k c) (h1 : pc.me = .fin me)
    (h2 : pc.mp = .fin mp) (h3 : pc.qe = .fin qe) (hme : 0 < me) (hmp : 0 < mp) (hqe : 0 < qe)
    {lRhoMin lRhoMax lTMin lTMax : ℝ} {NRho NT : ℤ} {b : List XR} {n : ℕ} (hNR : 2 ≤ NRho) (hNT : 2 ≤ NT)
    (hlR : lRhoMin < lRhoMax) (hlT : lTMin < lTMax) {junk : ℕ → ℕ → XR} {o : ℕ → MeanOpacityBase XR}
    (ho : ∀ N : ℕ, 2 ≤ N → MeanOpacityBase.construct pc (junk N) (EPBremsstrahlungOpacity.mk pc) (.fin lRhoMin) (.fin lRhoMax) NRho
      (.fin lTMin) (.fin lTMax) NT b n N = ok (o N))
    {g : ℕ} (hg : g < n) (hgr : GroupIs b g 0 none)
    {rho T : ℝ} (hin : Inside lRhoMin lRhoMax lTMin lTMax rho T) {i j : ℕ} (hi : (i : ℤ) < NRho) (hj : (j : ℤ) < NT)
    {ρ' T' : ℝ} (hρ' : ρ' = nodeValue lRhoMin lRhoMax NRho i) (hT' : T' = nodeValue lTMin lTMax NT j)
    (hr : coordinate rho = Real.logb 10 ρ') (ht : coordinate T = Real.logb 10 T')
    (hn : Negligible Robust.SMALL h k c T') :
    ∃ (κ : ℕ → ℝ) (L J B : ℝ),
      (∀ N, 2 ≤ N → MeanPhotonAPI.PlanckGroupAbsorptionCoefficient (o N) (XR.fin rho) (XR.fin T) g = ok (XR.fin (rho * κ N))) ∧
      Tendsto κ atTop (𝓝 L) ∧
      PhotonAPI.Emissivity (EPBremsstrahlungOpacity.mk pc) (XR.fin ρ') (XR.fin T') = ok (XR.fin J) ∧
      PhotonAPI.ThermalDistributionOfT (EPBremsstrahlungOpacity.mk pc) (XR.fin T') = XR.fin B ∧ 0 < J ∧
      0.99895 * J ≤ ρ' * (L - Robust.SMALL) * B ∧ ρ' * (L - Robust.SMALL) * B ≤ 0.99905 * J := by
  obtain ⟨α, a1, a2, a3, a4⟩ := bremsstrahlung_coef hpc h1 h2 h3 hme hmp hqe
  have hh := hpc.h_pos; have hk := hpc.k_pos; have hc := hpc.c_pos
  have p1 : 0 < ρ' := hρ' ▸ nodeValue_pos _ _ _ _
  have p2 : 0 < T' := hT' ▸ nodeValue_pos _ _ _ _
  obtain ⟨κ, L, q1, q2, -, q4⟩ := C66_planck (qP := fun N => MeanPhotonAPI.PlanckGroupAbsorptionCoefficient (o N))
    (qR := fun N => MeanPhotonAPI.RosselandGroupAbsorptionCoefficient (o N))
    (fun N hN => .absorption (EPBremsstrahlungOpacity.mk pc) pc _ (o N) hpc a1 (ho N hN))
    (fun ρ T ν x1 x2 x3 => (a2 ρ T ν x1 x2 x3).le) a3 hNR hNT hlR hlT hg hgr hin
  obtain ⟨C, hC, eα, eJ⟩ := a4 ρ' T' p1 p2
  obtain ⟨-, eI⟩ := WholeSpectrum.law_integral hh hk hc p2
  have hI : 0 < ∫ ν in Set.Ioi (0 : ℝ), planckLaw h k c T' ν := by rw [eI]; positivity
  have hB : PhotonAPI.ThermalDistributionOfT (EPBremsstrahlungOpacity.mk pc) (XR.fin T') =
      XR.fin (4 * Real.pi * ∫ ν in Set.Ioi (0 : ℝ), planckLaw h k c T' ν) := by
    show Planck.ThermalDistributionOfT pc (XR.fin T') = _
    unfold Planck.ThermalDistributionOfT
    simp only [hpc.h_eq, hpc.k_eq, hpc.c_eq, axr]
    rw [XR.fin_pow Real.pi_pos, XR.fin_pow hk, XR.fin_pow p2, XR.fin_pow hc, XR.fin_pow hh]
    simp only [axr]
    rw [XR.fin_div (by positivity), eI]
    congr 1
    push_cast
    simp only [rpow2, rpow3, rpow4, rpow5]
    field_simp
    ring
  obtain ⟨l1, l2⟩ := WholeSpectrum.exponential_near hh hk hc p2 SMALL_pos p1 hC hn (fun ν _ => eα ν) rfl
  refine ⟨κ, L, _, _, q1, q2, eJ, hB, by positivity, ?_, ?_⟩
  all_goals
    rw [q4 i j hi hj ρ' T' hρ' hT' hr ht, add_sub_cancel_right]
    have e : 4 * Real.pi * C * (k * T' / h) = ρ' * (C * (k * T' / h) / (ρ' * ∫ ν in Set.Ioi (0 : ℝ), planckLaw h k c T' ν)) *
        (4 * Real.pi * ∫ ν in Set.Ioi (0 : ℝ), planckLaw h k c T' ν) := by field_simp
    rw [e]
    generalize C * (k * T' / h) / (ρ' * ∫ ν in Set.Ioi (0 : ℝ), planckLaw h k c T' ν) = M at *
    generalize (∫ ν in Set.Ioi (0 : ℝ), planckLaw h k c T' ν) = I at *
    have hp : 0 < ρ' * (4 * Real.pi * I) := by positivity
  · have := mul_le_mul_of_nonneg_left l1 hp.le
    linarith
  · have := mul_le_mul_of_nonneg_left l2 hp.le
    linarith

/-- one group over the whole spectrum -/
theorem wholeGroup : AcceptableBounds [XR.fin 0, .pinf] ((1 : ℕ) : ℤ) ∧ GroupIs [XR.fin 0, .pinf] 0 0 none := by
  refine ⟨⟨by norm_num, by simp, ?_, ?_, ?_, ?_⟩, rfl, rfl, le_refl 0, by simp⟩
  · intro i x hi hx
    rcases i with _ | _ | i
    · simp at hx; subst hx; rfl
    · simp at hx; subst hx; rfl
    · push_cast at hi; omega
  · intro x hx
    simp at hx
    subst hx
    simp only [axr]; norm_num
  · intro i x y hi hx hy
    have : i = 0 := by push_cast at hi; omega
    subst this
    simp at hx hy
    subst hx hy
    rfl
  · intro i x hi hx
    have : i = 0 := by push_cast at hi; omega
    subst this
    simp at hx
    subst hx
    rfl

theorem SMALL_lt : (Robust.SMALL : ℝ) < 1e-80 := by
  rw [real_SMALL]
  have e : (2 : ℝ) ^ (-1022 : ℤ) = 2 ^ (-200 : ℤ) * 2 ^ (-200 : ℤ) * 2 ^ (-622 : ℤ) := by
    rw [← zpow_add₀ (by norm_num), ← zpow_add₀ (by norm_num)]; norm_num
  have h1 : (2 : ℝ) ^ (-622 : ℤ) ≤ 1 := zpow_le_one_of_nonpos₀ (by norm_num) (by norm_num)
  rw [e]
  calc (10 : ℝ) * (2 ^ (-200 : ℤ) * 2 ^ (-200 : ℤ) * 2 ^ (-622 : ℤ)) ≤ 10 * (2 ^ (-200 : ℤ) * 2 ^ (-200 : ℤ) * 1) := by gcongr
    _ < 1e-80 := by norm_num

/-- the floor of the library is negligible for the CGS values of the constants from 1 K to 10¹⁰ K, say -/
example : ∀ T : ℝ, 1 ≤ T → T ≤ 1e10 → Negligible Robust.SMALL 6.62607015e-27 1.380649e-16 2.99792458e10 T := by
  intro T h1 h2
  have hS := SMALL_lt
  have p3 : 1 ≤ T ^ 3 := one_le_pow₀ h1
  have p4 : 1 ≤ T ^ 4 := one_le_pow₀ h1
  constructor
  · refine hS.le.trans ?_
    calc (1e-80 : ℝ) ≤ 1e-6 * (1.380649e-16 * 1 / 6.62607015e-27) := by norm_num
      _ ≤ _ := by gcongr
  · refine hS.le.trans ?_
    calc (1e-80 : ℝ) ≤ 1e-60 * ((1.380649e-16 * 1) ^ 3 / (6.62607015e-27 ^ 2 * 2.99792458e10 ^ 2)) := by norm_num
      _ ≤ _ := by gcongr
  · refine hS.le.trans ?_
    calc (1e-80 : ℝ) ≤ 1e-11 * ((1.380649e-16 * 1) ^ 4 / (6.62607015e-27 ^ 3 * 2.99792458e10 ^ 2)) := by norm_num
      _ ≤ _ := by gcongr

theorem negligible_ones : Negligible Robust.SMALL 1 1 1 1 := by
  have hS := SMALL_lt
  constructor <;> norm_num at * <;> linarith

/-- a state at the first node of a table that starts at density and temperature 1 -/
theorem first_node : Inside 0 1 0 1 (1 - Robust.SMALL) (1 - Robust.SMALL) ∧ coordinate (1 - Robust.SMALL) = Real.logb 10 1 := by
  have hS := SMALL_lt
  have hS0 := SMALL_pos
  norm_num at hS
  have e : coordinate (1 - Robust.SMALL) = 0 := by
    unfold coordinate
    rw [abs_of_pos (by linarith), sub_add_cancel, Real.logb_one]
  rw [e]
  exact ⟨⟨by rw [e], by rw [e]; norm_num, by rw [e], by rw [e]; norm_num⟩, by simp⟩

/-- the hypotheses of `C79_bremsstrahlung` are met: unit constants, densities and temperatures from 1 to 10, one group over
the whole spectrum, first node of the table -/
example : ∃ o : ℕ → MeanOpacityBase XR, (∀ N : ℕ, 2 ≤ N → MeanOpacityBase.construct onesPC (fun _ => XR.fin 0)
      (EPBremsstrahlungOpacity.mk onesPC) (.fin 0) (.fin 1) 2 (.fin 0) (.fin 1) 2 [.fin 0, .pinf] (1 : ℕ) N = ok (o N)) ∧
    ∃ (κ : ℕ → ℝ) (L J B : ℝ),
      (∀ N, 2 ≤ N → MeanPhotonAPI.PlanckGroupAbsorptionCoefficient (o N) (XR.fin (1 - Robust.SMALL)) (XR.fin (1 - Robust.SMALL)) 0 =
        ok (XR.fin ((1 - Robust.SMALL) * κ N))) ∧ Tendsto κ atTop (𝓝 L) ∧
      0 < J ∧ 0.99895 * J ≤ 1 * (L - Robust.SMALL) * B ∧ 1 * (L - Robust.SMALL) * B ≤ 0.99905 * J := by
  obtain ⟨hb, hgr⟩ := wholeGroup
  obtain ⟨α, a1, a2, a3, -⟩ := bremsstrahlung_coef (pc := onesPC) (me := 1) (mp := 1) (qe := 1) onesPC_finite rfl rfl rfl one_pos
    one_pos one_pos
  have ht : ∀ N : ℕ, 2 ≤ N → ∃ o, MeanOpacityBase.construct onesPC (fun _ => XR.fin 0) (EPBremsstrahlungOpacity.mk onesPC)
      (.fin 0) (.fin 1) 2 (.fin 0) (.fin 1) 2 [.fin 0, .pinf] (1 : ℕ) N = ok o := by
    intro N hN
    obtain ⟨t, e, -⟩ := averaged_exists onesPC_finite (α := α)
      (coef := PhotonAPI.AbsorptionCoefficient (EPBremsstrahlungOpacity.mk onesPC))
      (fun ρ T ν h1 h2 h3 => (a2 ρ T ν h1 h2 h3).le) a1 0 1 (NRho := 2) (by norm_num) 0 1 (NT := 2) (by norm_num) hb hN
      (fun _ => .fin 0)
    exact ⟨⟨onesPC, t⟩, by unfold MeanOpacityBase.construct; rw [e]; rfl⟩
  haveI : Nonempty (MeanOpacityBase XR) := ⟨(ht 2 (le_refl 2)).choose⟩
  choose! o ho using ht
  have hnode : (1 : ℝ) = nodeValue 0 1 2 0 := by rw [node0]; simp
  obtain ⟨κ, L, J, B, q1, q2, -, -, q5, q6, q7⟩ := C79_bremsstrahlung onesPC_finite (me := 1) (mp := 1) (qe := 1) rfl rfl rfl
    one_pos one_pos one_pos (NRho := 2) (NT := 2) (by norm_num) (by norm_num) (by norm_num) (by norm_num) (o := o) ho (g := 0)
    (by norm_num) hgr first_node.1 (i := 0) (j := 0) (by norm_num) (by norm_num) hnode hnode first_node.2 first_node.2 negligible_ones
  exact ⟨o, ho, κ, L, J, B, q1, q2, q5, q6, q7⟩

/-- the hypotheses of `C79_planck` are met by a gray opacity, with the same table -/
example : ∃ qP qR : ℕ → XR → XR → ℤ → Outcome XR,
    (∀ N, 2 ≤ N → MeansOf 1 1 1 (fun ρ _ _ => ρ * 1) 0 1 2 0 1 2 [.fin 0, .pinf] 1 N (qP N) (qR N)) ∧
    ∃ (κ : ℕ → ℝ) (L : ℝ), (∀ N, 2 ≤ N → qP N (.fin (1 - Robust.SMALL)) (.fin (1 - Robust.SMALL)) 0 =
      ok (.fin ((1 - Robust.SMALL) * κ N))) ∧ Tendsto κ atTop (𝓝 L) ∧
      |L - (wholePlanckMean 1 1 1 1 1 (fun _ => 1 * 1) + Robust.SMALL)| ≤ 1e-10 * (1 / 1) := by
  obtain ⟨hb, hgr⟩ := wholeGroup
  have ht : ∀ N : ℕ, 2 ≤ N → ∃ o, MeanOpacityBase.construct onesPC (fun _ => XR.fin 0) (GrayOpacity.mk onesPC (.fin 1))
      (.fin 0) (.fin 1) 2 (.fin 0) (.fin 1) 2 [.fin 0, .pinf] (1 : ℕ) N = ok o := by
    intro N hN
    obtain ⟨o, ho, -⟩ := C07_gray_exists onesPC_finite (κ := 1) one_pos 0 1 (NRho := 2) (by norm_num) 0 1 (NT := 2)
      (by norm_num) hb hN (fun _ => .fin 0)
    exact ⟨o, ho⟩
  haveI : Nonempty (MeanOpacityBase XR) := ⟨(ht 2 (le_refl 2)).choose⟩
  choose! o ho using ht
  have hm : ∀ N, 2 ≤ N → MeansOf 1 1 1 (fun ρ _ _ => ρ * 1) 0 1 2 0 1 2 [.fin 0, .pinf] 1 N
      (MeanPhotonAPI.PlanckGroupAbsorptionCoefficient (o N)) (MeanPhotonAPI.RosselandGroupAbsorptionCoefficient (o N)) :=
    fun N hN => .absorption (GrayOpacity.mk onesPC (.fin 1)) onesPC _ (o N) onesPC_finite
      (fun ρ T ν _ _ _ => gray_coef onesPC 1 ρ T ν) (ho N hN)
  have hnode : (1 : ℝ) = nodeValue 0 1 2 0 := by rw [node0]; simp
  exact ⟨_, _, hm, C79_planck (qP := fun N => MeanPhotonAPI.PlanckGroupAbsorptionCoefficient (o N))
    (qR := fun N => MeanPhotonAPI.RosselandGroupAbsorptionCoefficient (o N)) hm
    (fun ρ _ _ h _ _ => by positivity) (fun _ _ _ _ => continuousOn_const) (by norm_num) (by norm_num) (by norm_num) (by norm_num)
    (g := 0) (by norm_num) hgr first_node.1 (i := 0) (j := 0) (by norm_num) (by norm_num) hnode hnode first_node.2 first_node.2
    negligible_ones (fun _ _ => by norm_num)⟩

end Opac.Photons
