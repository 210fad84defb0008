import Verif.Lemmas.MeanEmission
import Verif.Props.WholeRosseland

/-!
# C81: the emissivity of a mean opacity over the whole spectrum
-/

namespace Opac.Photons
open Arith Outcome Spec Spiner Finset Filter Topology

/-- `ThermalDistributionOfT` is Planck's law over all directions and frequencies -/
theorem thermal_whole {pc : PC XR} {h k c : ℝ} (hpc : FinitePC pc h k c) {T : ℝ} (hT : 0 < T) :
    Planck.ThermalDistributionOfT pc (XR.fin T) = XR.fin (4 * Real.pi * ∫ ν in Set.Ioi (0 : ℝ), planckLaw h k c T ν) := by
  have hh := hpc.h_pos; have hk := hpc.k_pos; have hc := hpc.c_pos
  obtain ⟨-, eI⟩ := WholeSpectrum.law_integral hh hk hc hT
  unfold Planck.ThermalDistributionOfT
  simp only [hpc.h_eq, hpc.k_eq, hpc.c_eq, axr]
  rw [XR.fin_pow Real.pi_pos, XR.fin_pow hk, XR.fin_pow hT, XR.fin_pow hc, XR.fin_pow hh]
  simp only [axr]
  rw [XR.fin_div (by positivity), eI]
  congr 1
  push_cast
  simp only [rpow2, rpow3, rpow4, rpow5]
  field_simp
  ring

theorem construct_parts {O : Type} [PhotonAPI XR O] {pc : PC XR} {junk : ℕ → XR} {opac : O} {l1 l2 l3 l4 : XR} {NRho NT : ℤ}
    {b : List XR} {N : ℤ} {o : MeanOpacityBase XR}
    (ho : MeanOpacityBase.construct pc junk opac l1 l2 NRho l3 l4 NT b (1 : ℕ) N = ok o) : o.pc = pc ∧ o.t.ngroups = 1 := by
  unfold MeanOpacityBase.construct at ho
  obtain ⟨t, e, rfl⟩ := map'_eq_ok.1 ho
  exact ⟨rfl, (Impl_ok e).2.2.2⟩

/-- the emissivity of a mean opacity with one group, from its coefficient -/
theorem emissivity_of {o : MeanOpacityBase XR} {pc : PC XR} {h k c : ℝ} (hpc : FinitePC pc h k c) (h1 : o.pc = pc)
    (h2 : o.t.ngroups = 1) {rho T a : ℝ} (hT : 0 < T) {gmode : ℤ} (ha : o.t.Coefficient (.fin rho) (.fin T) 0 gmode = ok (.fin a)) :
    o.Emissivity (.fin rho) (.fin T) gmode = ok (.fin (a * (4 * Real.pi * ∫ ν in Set.Ioi (0 : ℝ), planckLaw h k c T ν))) := by
  unfold MeanOpacityBase.Emissivity
  rw [h1, thermal_whole hpc hT, ha]
  simp [h2, axr, Outcome.pure_def]

/-- a state at a node is the node, less the floor -/
theorem at_node {x x' : ℝ} (hx : 0 < x) (hx' : 0 < x') (h : coordinate x = Real.logb 10 x') : x + Robust.SMALL = x' := by
  have hS := SMALL_pos
  unfold coordinate at h
  rw [abs_of_pos hx] at h
  exact Real.logb_injOn_pos (by norm_num) (show 0 < x + Robust.SMALL by linarith) hx' h

/-- what the floor takes from density and temperature -/
theorem node_emission {h k c : ℝ} (hh : 0 < h) (hk : 0 < k) (hc : 0 < c) {rho T ρ' T' ε : ℝ} (hρ : 0 < rho) (hT : 0 < T)
    (hr : rho + Robust.SMALL = ρ') (ht : T + Robust.SMALL = T') (hε : ε ≤ 1) (h1 : Robust.SMALL ≤ ε * ρ') (h2 : Robust.SMALL ≤ ε * T') :
    ∃ f : ℝ, 0 ≤ f ∧ 1 - 5 * ε ≤ f ∧ f ≤ 1 ∧ ∀ x : ℝ,
      rho * x * (4 * Real.pi * ∫ ν in Set.Ioi (0 : ℝ), planckLaw h k c T ν) =
        f * (ρ' * x * (4 * Real.pi * ∫ ν in Set.Ioi (0 : ℝ), planckLaw h k c T' ν)) := by
  have hS := SMALL_pos
  have p1 : 0 < ρ' := by linarith
  have p2 : 0 < T' := by linarith
  obtain ⟨-, e1⟩ := WholeSpectrum.law_integral hh hk hc hT
  obtain ⟨-, e2⟩ := WholeSpectrum.law_integral hh hk hc p2
  have a1 : 1 - ε ≤ rho / ρ' := by rw [le_div_iff₀ p1]; linarith
  have a2 : 1 - ε ≤ T / T' := by rw [le_div_iff₀ p2]; linarith
  have a3 : rho / ρ' ≤ 1 := by rw [div_le_one p1]; linarith
  have a4 : T / T' ≤ 1 := by rw [div_le_one p2]; linarith
  refine ⟨rho / ρ' * (T / T') ^ 4, by positivity, ?_, ?_, ?_⟩
  · have b1 : 1 + (5 : ℕ) * (-ε) ≤ (1 + -ε) ^ 5 := one_add_mul_le_pow (by linarith) 5
    have b2 : (1 - ε) ^ 4 ≤ (T / T') ^ 4 := pow_le_pow_left₀ (by linarith) a2 4
    have b3 : (1 - ε) * (1 - ε) ^ 4 ≤ rho / ρ' * (T / T') ^ 4 :=
      mul_le_mul a1 b2 (pow_nonneg (by linarith) 4) (by positivity)
    have b4 : (1 + -ε) ^ 5 = (1 - ε) * (1 - ε) ^ 4 := by ring
    push_cast at b1
    linarith
  · exact mul_le_one₀ a3 (by positivity) (pow_le_one₀ (by positivity) a4)
  · intro x
    rw [e1, e2]
    field_simp

/-- **C81 (Planck means)**: asked for the Planck mean, `Emissivity` of a mean opacity with one group over the whole spectrum
tends, as the number of frequencies grows, to the thermal emission `4π ∫ α B dν` of the opacity it was made from, over all
frequencies and directions: at the nodes of the table, for a continuous coefficient bounded by `K`, up to `10⁻¹⁰ K` times the
emission of a black body and what the floor adds. -/
theorem C81_planck {O : Type} [PhotonAPI XR O] {opac : O} {pc : PC XR} {h k c : ℝ} (hpc : FinitePC pc h k c) {α : ℝ → ℝ → ℝ → ℝ}
    (hcoef : ∀ ρ T ν : ℝ, 0 < ρ → 0 < T → 0 < ν →
      PhotonAPI.AbsorptionCoefficient opac (XR.fin ρ) (XR.fin T) (XR.fin ν) = XR.fin (α ρ T ν))
    (hα : ∀ ρ T ν, 0 < ρ → 0 < T → 0 < ν → 0 ≤ α ρ T ν)
    (hcont : ∀ ρ T, 0 < ρ → 0 < T → ContinuousOn (α ρ T) (Set.Ioi 0))
    {lRhoMin lRhoMax lTMin lTMax : ℝ} {NRho NT : ℤ} {b : List XR} (hNR : 2 ≤ NRho) (hNT : 2 ≤ NT)
    (hlR : lRhoMin < lRhoMax) (hlT : lTMin < lTMax) {junk : ℕ → ℕ → XR} {o : ℕ → MeanOpacityBase XR}
    (ho : ∀ N : ℕ, 2 ≤ N → MeanOpacityBase.construct pc (junk N) opac (.fin lRhoMin) (.fin lRhoMax) NRho
      (.fin lTMin) (.fin lTMax) NT b (1 : ℕ) N = ok (o N)) (hgr : GroupIs b 0 0 none)
    {rho T : ℝ} (hρ : 0 < rho) (hT : 0 < T) (hin : Inside lRhoMin lRhoMax lTMin lTMax rho T) {i j : ℕ} (hi : (i : ℤ) < NRho)
    (hj : (j : ℤ) < NT) {ρ' T' K ε : ℝ} (hρ' : ρ' = nodeValue lRhoMin lRhoMax NRho i) (hT' : T' = nodeValue lTMin lTMax NT j)
    (hr : coordinate rho = Real.logb 10 ρ') (ht : coordinate T = Real.logb 10 T')
    (hn : Negligible Robust.SMALL h k c T') (hε : ε ≤ 1) (s1 : Robust.SMALL ≤ ε * ρ') (s2 : Robust.SMALL ≤ ε * T')
    (hK : ∀ ν, 0 < ν → α ρ' T' ν ≤ K) :
    ∃ (e : ℕ → ℝ) (E J B : ℝ), (∀ N, 2 ≤ N → (o N).Emissivity (.fin rho) (.fin T) gmodePlanck = ok (.fin (e N))) ∧
      Tendsto e atTop (𝓝 E) ∧ J = 4 * Real.pi * ∫ ν in Set.Ioi (0 : ℝ), α ρ' T' ν * planckLaw h k c T' ν ∧
      B = 4 * Real.pi * ∫ ν in Set.Ioi (0 : ℝ), planckLaw h k c T' ν ∧
      |E - J| ≤ 5 * ε * J + (1e-10 * K + Robust.SMALL * ρ') * B := by
  have hh := hpc.h_pos; have hk := hpc.k_pos; have hc := hpc.c_pos
  have p1 : 0 < ρ' := hρ' ▸ nodeValue_pos _ _ _ _
  have p2 : 0 < T' := hT' ▸ nodeValue_pos _ _ _ _
  obtain ⟨κ, L, q1, q2, q3⟩ := C79_planck (qP := fun N => MeanPhotonAPI.PlanckGroupAbsorptionCoefficient (o N))
    (qR := fun N => MeanPhotonAPI.RosselandGroupAbsorptionCoefficient (o N))
    (fun N hN => .absorption opac pc _ (o N) hpc hcoef (ho N hN)) hα hcont hNR hNT hlR hlT (g := 0) (by norm_num) hgr hin hi hj
    hρ' hT' hr ht hn hK
  obtain ⟨f, f0, f1, f2, hf⟩ := node_emission hh hk hc hρ hT (at_node hρ p1 hr) (at_node hT p2 ht) hε s1 s2
  obtain ⟨-, eI⟩ := WholeSpectrum.law_integral hh hk hc p2
  have hI : 0 < ∫ ν in Set.Ioi (0 : ℝ), planckLaw h k c T' ν := by rw [eI]; positivity
  refine ⟨_, _, _, _, fun N hN => emissivity_of hpc (construct_parts (ho N hN)).1 (construct_parts (ho N hN)).2 hT (q1 N hN),
    (q2.const_mul rho).mul_const _, rfl, rfl, ?_⟩
  have hJ : 0 ≤ ∫ ν in Set.Ioi (0 : ℝ), α ρ' T' ν * planckLaw h k c T' ν :=
    MeasureTheory.setIntegral_nonneg measurableSet_Ioi fun ν hν =>
      mul_nonneg (hα _ _ _ p1 p2 hν) (WholeSpectrum.law_nonneg hh hk hc p2 hν)
  have eJ : ρ' * wholePlanckMean h k c ρ' T' (α ρ' T') * (4 * Real.pi * ∫ ν in Set.Ioi (0 : ℝ), planckLaw h k c T' ν) =
      4 * Real.pi * ∫ ν in Set.Ioi (0 : ℝ), α ρ' T' ν * planckLaw h k c T' ν := by
    unfold wholePlanckMean
    have : ∫ ν in Set.Ioi (0 : ℝ), α ρ' T' ν / ρ' * planckLaw h k c T' ν =
        (∫ ν in Set.Ioi (0 : ℝ), α ρ' T' ν * planckLaw h k c T' ν) / ρ' := by
      rw [← MeasureTheory.integral_div]; congr 1; funext ν; ring
    rw [this]
    field_simp
  rw [hf, ← eJ]
  have hM : 0 ≤ wholePlanckMean h k c ρ' T' (α ρ' T') := by
    by_contra hneg
    have : ρ' * wholePlanckMean h k c ρ' T' (α ρ' T') * (4 * Real.pi * ∫ ν in Set.Ioi (0 : ℝ), planckLaw h k c T' ν) < 0 :=
      mul_neg_of_neg_of_pos (mul_neg_of_pos_of_neg p1 (not_le.1 hneg)) (by positivity)
    have : 0 ≤ 4 * Real.pi * ∫ ν in Set.Ioi (0 : ℝ), α ρ' T' ν * planckLaw h k c T' ν := by positivity
    linarith
  generalize wholePlanckMean h k c ρ' T' (α ρ' T') = M at *
  have hB : 0 < 4 * Real.pi * ∫ ν in Set.Ioi (0 : ℝ), planckLaw h k c T' ν := by positivity
  generalize (4 * Real.pi * ∫ ν in Set.Ioi (0 : ℝ), planckLaw h k c T' ν) = B at *
  have hS := SMALL_pos
  have hd : |L - M| ≤ 1e-10 * (K / ρ') + Robust.SMALL := by
    rw [abs_le] at q3 ⊢
    constructor <;> linarith [q3.1, q3.2]
  have hd' : |ρ' * L * B - ρ' * M * B| ≤ (1e-10 * K + Robust.SMALL * ρ') * B := by
    have e : ρ' * L * B - ρ' * M * B = ρ' * B * (L - M) := by ring
    rw [e, abs_mul, abs_of_pos (by positivity : 0 < ρ' * B)]
    calc ρ' * B * |L - M| ≤ ρ' * B * (1e-10 * (K / ρ') + Robust.SMALL) := by gcongr
      _ = _ := by field_simp
  have hX : 0 ≤ ρ' * M * B := by positivity
  generalize ρ' * L * B = X at *
  generalize ρ' * M * B = Y at *
  have e : f * X - Y = f * (X - Y) - (1 - f) * Y := by ring
  rw [e]
  have t1 : |f * (X - Y)| ≤ |X - Y| := by
    rw [abs_mul, abs_of_nonneg f0]
    exact mul_le_of_le_one_left (abs_nonneg _) f2
  have t2 : |(1 - f) * Y| ≤ 5 * ε * Y := by
    rw [abs_of_nonneg (mul_nonneg (by linarith) hX)]
    exact mul_le_mul_of_nonneg_right (by linarith) hX
  calc |f * (X - Y) - (1 - f) * Y| ≤ |f * (X - Y)| + |(1 - f) * Y| := abs_sub _ _
    _ ≤ _ := by linarith

section
variable {pc : PC XR} {h k c me mp qe : ℝ} {lRhoMin lRhoMax lTMin lTMax : ℝ} {NRho NT : ℤ} {b : List XR} {junk : ℕ → ℕ → XR}
  {o : ℕ → MeanOpacityBase XR}

/-- **C81 (bremsstrahlung, Planck mean)**: the coefficient of bremsstrahlung is not bounded.  Asked for the Planck mean,
`Emissivity` of its mean opacity over the whole spectrum tends to a limit that is a thousandth below `Emissivity` of the
opacity it was made from. -/
theorem C81_bremsstrahlung (hpc : FinitePC pc h k c) (h1 : pc.me = .fin me)
    (h2 : pc.mp = .fin mp) (h3 : pc.qe = .fin qe) (hme : 0 < me) (hmp : 0 < mp) (hqe : 0 < qe) (hNR : 2 ≤ NRho) (hNT : 2 ≤ NT)
    (hlR : lRhoMin < lRhoMax) (hlT : lTMin < lTMax)
    (ho : ∀ N : ℕ, 2 ≤ N → MeanOpacityBase.construct pc (junk N) (EPBremsstrahlungOpacity.mk pc) (.fin lRhoMin) (.fin lRhoMax) NRho
      (.fin lTMin) (.fin lTMax) NT b (1 : ℕ) N = ok (o N)) (hgr : GroupIs b 0 0 none)
    {rho T : ℝ} (hρ : 0 < rho) (hT : 0 < T) (hin : Inside lRhoMin lRhoMax lTMin lTMax rho T) {i j : ℕ} (hi : (i : ℤ) < NRho)
    (hj : (j : ℤ) < NT) {ρ' T' J B : ℝ} (hρ' : ρ' = nodeValue lRhoMin lRhoMax NRho i) (hT' : T' = nodeValue lTMin lTMax NT j)
    (hr : coordinate rho = Real.logb 10 ρ') (ht : coordinate T = Real.logb 10 T')
    (hJ : PhotonAPI.Emissivity (EPBremsstrahlungOpacity.mk pc) (XR.fin ρ') (XR.fin T') = ok (XR.fin J))
    (hB : PhotonAPI.ThermalDistributionOfT (EPBremsstrahlungOpacity.mk pc) (XR.fin T') = XR.fin B)
    (hn : Negligible Robust.SMALL h k c T') (s1 : Robust.SMALL ≤ 1e-6 * ρ') (s2 : Robust.SMALL ≤ 1e-6 * T')
    (s3 : Robust.SMALL * ρ' * B ≤ 1e-6 * J) :
    ∃ (e : ℕ → ℝ) (E : ℝ), (∀ N, 2 ≤ N → (o N).Emissivity (.fin rho) (.fin T) gmodePlanck = ok (.fin (e N))) ∧
      Tendsto e atTop (𝓝 E) ∧ 0 < J ∧ 0.9989 * J ≤ E ∧ E ≤ 0.9991 * J := by
  have hh := hpc.h_pos; have hk := hpc.k_pos; have hc := hpc.c_pos
  have p1 : 0 < ρ' := hρ' ▸ nodeValue_pos _ _ _ _
  have p2 : 0 < T' := hT' ▸ nodeValue_pos _ _ _ _
  obtain ⟨κ, L, J', B', q1, q2, q3, q4, q5, q6, q7⟩ := C79_bremsstrahlung hpc h1 h2 h3 hme hmp hqe hNR hNT hlR hlT ho (g := 0)
    (by norm_num) hgr hin hi hj hρ' hT' hr ht hn
  obtain rfl : J' = J := XR.fin.inj (Outcome.ok.inj (q3.symm.trans hJ))
  obtain rfl : B' = B := XR.fin.inj (q4.symm.trans hB)
  have eB : B' = 4 * Real.pi * ∫ ν in Set.Ioi (0 : ℝ), planckLaw h k c T' ν := XR.fin.inj (q4.symm.trans (thermal_whole hpc p2))
  obtain ⟨f, f0, f1, f2, hf⟩ := node_emission hh hk hc hρ hT (at_node hρ p1 hr) (at_node hT p2 ht) (ε := 1e-6) (by norm_num) s1 s2
  refine ⟨_, _, fun N hN => emissivity_of hpc (construct_parts (ho N hN)).1 (construct_parts (ho N hN)).2 hT (q1 N hN),
    (q2.const_mul rho).mul_const _, q5, ?_, ?_⟩
  all_goals
    rw [hf, ← eB]
    have hS := SMALL_pos
    have hS' : 0 < Robust.SMALL * ρ' * B' := by
      obtain ⟨-, eI⟩ := WholeSpectrum.law_integral hh hk hc p2
      rw [eB, eI]; positivity
    have e : ρ' * (L - Robust.SMALL) * B' = ρ' * L * B' - Robust.SMALL * ρ' * B' := by ring
    rw [e] at q6 q7
    generalize ρ' * L * B' = X at *
    have hX : 0 ≤ X := by norm_num at q6; linarith
    norm_num at *
  · nlinarith
  · nlinarith

/-- **C81 is false by default**: `Emissivity` averages with the Rosseland mean unless told otherwise, which is the mean for
transport and not for emission.  For bremsstrahlung the emissivity of the mean opacity over the whole spectrum is then less
than an eleventh of `Emissivity` of the opacity it was made from, for any number of frequencies from some number on. -/
theorem C81_default_false (hpc : FinitePC pc h k c) (h1 : pc.me = .fin me)
    (h2 : pc.mp = .fin mp) (h3 : pc.qe = .fin qe) (hme : 0 < me) (hmp : 0 < mp) (hqe : 0 < qe) (hNR : 2 ≤ NRho) (hNT : 2 ≤ NT)
    (hlR : lRhoMin < lRhoMax) (hlT : lTMin < lTMax)
    (ho : ∀ N : ℕ, 2 ≤ N → MeanOpacityBase.construct pc (junk N) (EPBremsstrahlungOpacity.mk pc) (.fin lRhoMin) (.fin lRhoMax) NRho
      (.fin lTMin) (.fin lTMax) NT b (1 : ℕ) N = ok (o N)) (hgr : GroupIs b 0 0 none)
    {rho T : ℝ} (hρ : 0 < rho) (hT : 0 < T) (hin : Inside lRhoMin lRhoMax lTMin lTMax rho T) {i j : ℕ} (hi : (i : ℤ) < NRho)
    (hj : (j : ℤ) < NT) {ρ' T' J B : ℝ} (hρ' : ρ' = nodeValue lRhoMin lRhoMax NRho i) (hT' : T' = nodeValue lTMin lTMax NT j)
    (hr : coordinate rho = Real.logb 10 ρ') (ht : coordinate T = Real.logb 10 T')
    (hJ : PhotonAPI.Emissivity (EPBremsstrahlungOpacity.mk pc) (XR.fin ρ') (XR.fin T') = ok (XR.fin J))
    (hB : PhotonAPI.ThermalDistributionOfT (EPBremsstrahlungOpacity.mk pc) (XR.fin T') = XR.fin B)
    (hn : Negligible Robust.SMALL h k c T') (s1 : Robust.SMALL ≤ 1e-6 * ρ') (s2 : Robust.SMALL ≤ 1e-6 * T')
    (s3 : Robust.SMALL * ρ' * B ≤ 1e-6 * J) (s4 : Robust.SMALL * B ≤ 1e-12 * J) :
    ∃ e : ℕ → ℝ, (∀ N, 2 ≤ N → (o N).Emissivity (.fin rho) (.fin T) = ok (.fin (e N))) ∧ 0 < J ∧ ∀ᶠ N in atTop, e N ≤ J / 11 := by
  have hh := hpc.h_pos; have hk := hpc.k_pos; have hc := hpc.c_pos
  have hS := SMALL_pos
  have p1 : 0 < ρ' := hρ' ▸ nodeValue_pos _ _ _ _
  have p2 : 0 < T' := hT' ▸ nodeValue_pos _ _ _ _
  obtain ⟨α, a1, a2, a3, a4⟩ := bremsstrahlung_coef hpc h1 h2 h3 hme hmp hqe
  obtain ⟨C, hC, eα, eJ⟩ := a4 ρ' T' p1 p2
  obtain ⟨I, hI⟩ : ∃ I, I = ∫ ν in Set.Ioi (0 : ℝ), planckLaw h k c T' ν := ⟨_, rfl⟩
  have hI0 : 0 < I := by
    obtain ⟨-, eI⟩ := WholeSpectrum.law_integral hh hk hc p2
    rw [hI, eI]; positivity
  have eB : B = 4 * Real.pi * I := by rw [hI]; exact XR.fin.inj (hB.symm.trans (thermal_whole hpc p2))
  have eJ' : J = 4 * Real.pi * C * (k * T' / h) := XR.fin.inj (Outcome.ok.inj (hJ.symm.trans eJ))
  have hJ0 : 0 < J := by rw [eJ']; positivity
  -- the coefficient at the node
  have hval : ∀ N : ℕ, 2 ≤ N → (o N).t.Coefficient (.fin rho) (.fin T) 0 gmodeRosseland =
      ok (.fin (rho * (groupRosselandMean Robust.SMALL h k c ρ' T' 0 none N (α ρ' T') + Robust.SMALL))) := by
    intro N hN
    exact rosseland_node (MeansOf.absorption (EPBremsstrahlungOpacity.mk pc) pc _ (o N) hpc a1 (ho N hN))
      (fun ρ T ν x1 x2 x3 => (a2 ρ T ν x1 x2 x3).le) hNR hNT hlR hlT (g := 0) (by norm_num) hgr hρ.ne' hin hi hj hρ' hT' hr ht
  have hsmall := WholeSpectrum.rosseland_small hh hk hc p2 hS p1 hC hn hI (by
    have e : C * (k * T' / h) / I = J / B := by rw [eJ', eB]; field_simp
    have hB0 : 0 < B := by rw [eB]; positivity
    rw [e, ← mul_div_assoc, le_div_iff₀ hB0]
    exact s4) (fun ν _ => eα ν)
  obtain ⟨f, f0, f1, f2, hf⟩ := node_emission hh hk hc hρ hT (at_node hρ p1 hr) (at_node hT p2 ht) (ε := 1e-6) (by norm_num) s1 s2
  refine ⟨_, fun N hN => emissivity_of hpc (construct_parts (ho N hN)).1 (construct_parts (ho N hN)).2 hT (hval N hN), hJ0, ?_⟩
  filter_upwards [hsmall] with N hN
  rw [hf, ← hI, ← eB]
  have hB0 : 0 < B := by rw [eB]; positivity
  have l1 : ρ' * (groupRosselandMean Robust.SMALL h k c ρ' T' 0 none N (α ρ' T') + Robust.SMALL) * B ≤ J / 12 + 1e-6 * J := by
    have e : ρ' * (1 / 12 * (C * (k * T' / h) / (ρ' * I))) * B = J / 12 := by rw [eJ', eB]; field_simp
    have := mul_le_mul_of_nonneg_right (mul_le_mul_of_nonneg_left hN p1.le) hB0.le
    rw [e] at this
    linarith
  generalize ρ' * (groupRosselandMean Robust.SMALL h k c ρ' T' 0 none N (α ρ' T') + Robust.SMALL) * B = X at *
  norm_num at l1
  rcases le_total 0 X with hX | hX
  · have := mul_le_of_le_one_left hX f2
    linarith
  · have := mul_nonpos_of_nonneg_of_nonpos f0 hX
    linarith

end

/-- emission of bremsstrahlung for unit constants, at density and temperature 1 -/
theorem ones_emission : ∃ J : ℝ,
    PhotonAPI.Emissivity (EPBremsstrahlungOpacity.mk onesPC) (XR.fin 1) (XR.fin 1) = ok (XR.fin J) ∧ 1 ≤ J := by
  have eP : (EPBremsstrahlungOpacity.mk onesPC).prefac_ = XR.fin (8 / 3 * Real.sqrt (2 * Real.pi / 3)) := by
    unfold EPBremsstrahlungOpacity.prefac_
    simp only [onesPC, axr]
    rw [XR.fin_pow one_pos, XR.fin_pow (by norm_num)]
    simp only [axr]
    have e1 : Arith.sqrt (XR.fin (((2 : ℚ) : ℝ) * Real.pi) / XR.fin ((3 : ℚ) : ℝ) : XR) = XR.fin (Real.sqrt (2 * Real.pi / 3)) := by
      rw [XR.fin_div (by norm_num)]
      show (if 0 ≤ _ then _ else _) = _
      rw [if_pos (by positivity)]
      norm_num
    rw [e1, XR.fin_div (by norm_num)]
    simp only [axr]
    norm_num
  refine ⟨4 * Real.pi * (8 / 3 * Real.sqrt (2 * Real.pi / 3) * (1 / 4) * (6 / 5)), ?_, ?_⟩
  · show ok (EPBremsstrahlungOpacity.Emissivity _ _ _) = _
    unfold EPBremsstrahlungOpacity.Emissivity EPBremsstrahlungOpacity.mmw_ EPBremsstrahlungOpacity.gff_
    rw [eP]
    simp only [onesPC, axr]
    have q1 : Arith.sqrt (XR.fin (1 * 1) / XR.fin (1 * 1 * 1) : XR) = XR.fin 1 := by
      rw [XR.fin_div (by norm_num)]
      show (if 0 ≤ _ then _ else _) = _
      rw [if_pos (by norm_num)]
      norm_num
    have q2 : (XR.fin 1 / (XR.fin (1 + 1) / XR.fin ((2 : ℚ) : ℝ)) / XR.fin ((2 : ℚ) : ℝ) : XR) = XR.fin (1 / 2) := by
      rw [XR.fin_div (by norm_num), XR.fin_div (by norm_num), XR.fin_div (by norm_num)]
      norm_num
    rw [q1, q2, XR.fin_div one_ne_zero]
    simp only [axr]
    rw [XR.fin_div one_ne_zero]
    simp only [axr]
    congr 2
    push_cast
    ring
  · have h1 : 1 ≤ Real.sqrt (2 * Real.pi / 3) := Real.one_le_sqrt.2 (by linarith [Real.pi_gt_three])
    nlinarith [Real.pi_gt_three]

/-- the floor is negligible for unit constants, at density and temperature 1 -/
theorem ones_floor : ∃ J B : ℝ,
    PhotonAPI.Emissivity (EPBremsstrahlungOpacity.mk onesPC) (XR.fin 1) (XR.fin 1) = ok (XR.fin J) ∧
    PhotonAPI.ThermalDistributionOfT (EPBremsstrahlungOpacity.mk onesPC) (XR.fin 1) = XR.fin B ∧
    Robust.SMALL ≤ 1e-6 * (1 : ℝ) ∧ Robust.SMALL * 1 * B ≤ 1e-6 * J ∧ Robust.SMALL * B ≤ 1e-12 * J := by
  obtain ⟨J, hJ, h1⟩ := ones_emission
  obtain ⟨-, eI⟩ := WholeSpectrum.law_integral one_pos one_pos one_pos (one_pos (α := ℝ))
  refine ⟨J, _, hJ, thermal_whole onesPC_finite one_pos, ?_⟩
  have hS := SMALL_lt
  have hS0 := SMALL_pos
  have hB : 4 * Real.pi * (∫ ν in Set.Ioi (0 : ℝ), planckLaw 1 1 1 1 ν) ≤ 1000 := by
    rw [eI]
    have : Real.pi ^ 5 ≤ 3.15 ^ 5 := pow_le_pow_left₀ Real.pi_pos.le Real.pi_lt_d2.le 5
    norm_num at this ⊢
    nlinarith
  generalize (4 * Real.pi * ∫ ν in Set.Ioi (0 : ℝ), planckLaw 1 1 1 1 ν) = B at *
  have : Robust.SMALL * B ≤ Robust.SMALL * 1000 := by gcongr
  norm_num at *
  exact ⟨by linarith, by linarith, by linarith⟩

theorem first_node_pos : 0 < 1 - (Robust.SMALL : ℝ) := by
  have hS := SMALL_lt
  norm_num at hS
  linarith

/-- the hypotheses of `C81_bremsstrahlung` and of `C81_default_false` are met: unit constants, densities and temperatures from 1
to 10, one group over the whole spectrum, first node of the table.  There, the emissivity of one and the same object is
right with one mean and wrong with the other. -/
example : ∃ (o : ℕ → MeanOpacityBase XR) (e e' : ℕ → ℝ) (E J : ℝ),
    (∀ N : ℕ, 2 ≤ N → MeanOpacityBase.construct onesPC (fun _ => XR.fin 0)
      (EPBremsstrahlungOpacity.mk onesPC) (.fin 0) (.fin 1) 2 (.fin 0) (.fin 1) 2 [.fin 0, .pinf] (1 : ℕ) N = ok (o N)) ∧
    (∀ N, 2 ≤ N → (o N).Emissivity (.fin (1 - Robust.SMALL)) (.fin (1 - Robust.SMALL)) gmodePlanck = ok (.fin (e N))) ∧
    Tendsto e atTop (𝓝 E) ∧ 0 < J ∧ 0.9989 * J ≤ E ∧ E ≤ 0.9991 * J ∧
    (∀ N, 2 ≤ N → (o N).Emissivity (.fin (1 - Robust.SMALL)) (.fin (1 - Robust.SMALL)) = ok (.fin (e' N))) ∧
    ∀ᶠ N in atTop, e' N ≤ J / 11 := by
  obtain ⟨hb, hgr⟩ := wholeGroup
  obtain ⟨α, a1, a2, a3, -⟩ := bremsstrahlung_coef (pc := onesPC) (me := 1) (mp := 1) (qe := 1) onesPC_finite rfl rfl rfl one_pos
    one_pos one_pos
  have ht : ∀ N : ℕ, 2 ≤ N → ∃ o, MeanOpacityBase.construct onesPC (fun _ => XR.fin 0) (EPBremsstrahlungOpacity.mk onesPC)
      (.fin 0) (.fin 1) 2 (.fin 0) (.fin 1) 2 [.fin 0, .pinf] (1 : ℕ) N = ok o := by
    intro N hN
    obtain ⟨t, e, -⟩ := averaged_exists onesPC_finite (α := α)
      (coef := PhotonAPI.AbsorptionCoefficient (EPBremsstrahlungOpacity.mk onesPC))
      (fun ρ T ν h1 h2 h3 => (a2 ρ T ν h1 h2 h3).le) a1 0 1 (NRho := 2) (by norm_num) 0 1 (NT := 2) (by norm_num) hb hN
      (fun _ => .fin 0)
    exact ⟨⟨onesPC, t⟩, by unfold MeanOpacityBase.construct; rw [e]; rfl⟩
  haveI : Nonempty (MeanOpacityBase XR) := ⟨(ht 2 (le_refl 2)).choose⟩
  choose! o ho using ht
  have hnode : (1 : ℝ) = nodeValue 0 1 2 0 := by rw [node0]; simp
  obtain ⟨J, B, hJ, hB, s1, s3, s4⟩ := ones_floor
  obtain ⟨e, E, r1, r2, r3, r4, r5⟩ := C81_bremsstrahlung onesPC_finite (me := 1) (mp := 1) (qe := 1) rfl rfl rfl
    one_pos one_pos one_pos (NRho := 2) (NT := 2) (by norm_num) (by norm_num) (by norm_num) (by norm_num) (o := o) ho hgr
    first_node_pos first_node_pos first_node.1 (i := 0) (j := 0) (by norm_num) (by norm_num) hnode hnode first_node.2 first_node.2
    hJ hB negligible_ones s1 s1 s3
  obtain ⟨e', t1, -, t3⟩ := C81_default_false onesPC_finite (me := 1) (mp := 1) (qe := 1) rfl rfl rfl
    one_pos one_pos one_pos (NRho := 2) (NT := 2) (by norm_num) (by norm_num) (by norm_num) (by norm_num) (o := o) ho hgr
    first_node_pos first_node_pos first_node.1 (i := 0) (j := 0) (by norm_num) (by norm_num) hnode hnode first_node.2 first_node.2
    hJ hB negligible_ones s1 s1 s3 s4
  exact ⟨o, e, e', E, J, ho, r1, r2, r3, r4, r5, t1, t3⟩

/-- the hypotheses of `C81_planck` are met by a gray opacity, with the same table -/
example : ∃ (o : ℕ → MeanOpacityBase XR) (e : ℕ → ℝ) (E J B : ℝ),
    (∀ N, 2 ≤ N → (o N).Emissivity (.fin (1 - Robust.SMALL)) (.fin (1 - Robust.SMALL)) gmodePlanck = ok (.fin (e N))) ∧
    Tendsto e atTop (𝓝 E) ∧ |E - J| ≤ 5 * 1e-6 * J + (1e-10 * 1 + Robust.SMALL * 1) * B := by
  obtain ⟨hb, hgr⟩ := wholeGroup
  have ht : ∀ N : ℕ, 2 ≤ N → ∃ o, MeanOpacityBase.construct onesPC (fun _ => XR.fin 0) (GrayOpacity.mk onesPC (.fin 1))
      (.fin 0) (.fin 1) 2 (.fin 0) (.fin 1) 2 [.fin 0, .pinf] (1 : ℕ) N = ok o := by
    intro N hN
    obtain ⟨o, ho, -⟩ := C07_gray_exists onesPC_finite (κ := 1) one_pos 0 1 (NRho := 2) (by norm_num) 0 1 (NT := 2)
      (by norm_num) hb hN (fun _ => .fin 0)
    exact ⟨o, ho⟩
  haveI : Nonempty (MeanOpacityBase XR) := ⟨(ht 2 (le_refl 2)).choose⟩
  choose! o ho using ht
  have hnode : (1 : ℝ) = nodeValue 0 1 2 0 := by rw [node0]; simp
  obtain ⟨-, -, -, -, s1, -⟩ := ones_floor
  obtain ⟨e, E, J, B, r1, r2, -, -, r5⟩ := C81_planck onesPC_finite (α := fun ρ _ _ => ρ * 1)
    (fun ρ T ν _ _ _ => gray_coef onesPC 1 ρ T ν) (fun ρ _ _ h _ _ => by positivity) (fun _ _ _ _ => continuousOn_const)
    (NRho := 2) (NT := 2) (by norm_num) (by norm_num) (by norm_num) (by norm_num) (o := o) ho hgr
    first_node_pos first_node_pos first_node.1 (i := 0) (j := 0) (by norm_num) (by norm_num) hnode hnode first_node.2 first_node.2
    negligible_ones (ε := 1e-6) (by norm_num) s1 s1 (K := 1) (fun _ _ => by norm_num)
  exact ⟨o, e, E, J, B, r1, r2, r5⟩

end Opac.Photons
