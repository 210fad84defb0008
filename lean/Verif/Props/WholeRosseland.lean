import Verif.Lemmas.WholeRosseland
import Verif.Props.WholeSpectrum

/-!
# C79: Rosseland means over the whole spectrum
-/

namespace Opac.Photons
open Arith Outcome Spec Spiner Finset Filter Topology

section
variable {h k c : ℝ} {α : ℝ → ℝ → ℝ → ℝ} {lRhoMin lRhoMax lTMin lTMax : ℝ} {NRho NT : ℤ} {b : List XR} {n : ℕ}

/-- the Rosseland lookup at a node of the table is the mean computed for it, for every number of frequencies -/
theorem rosseland_node {N : ℕ} {qP qR : XR → XR → ℤ → Outcome XR}
    (hm : MeansOf h k c α lRhoMin lRhoMax NRho lTMin lTMax NT b n N qP qR)
    (hα : ∀ ρ T ν, 0 < ρ → 0 < T → 0 < ν → 0 ≤ α ρ T ν) (hNR : 2 ≤ NRho) (hNT : 2 ≤ NT)
    (hlR : lRhoMin < lRhoMax) (hlT : lTMin < lTMax) {g : ℕ} (hg : g < n) {lo : ℝ} {up : Option ℝ} (hgr : GroupIs b g lo up)
    {rho T : ℝ} (hρ : rho ≠ 0) (hin : Inside lRhoMin lRhoMax lTMin lTMax rho T) {i j : ℕ} (hi : (i : ℤ) < NRho) (hj : (j : ℤ) < NT)
    {ρ' T' : ℝ} (hρ' : ρ' = nodeValue lRhoMin lRhoMax NRho i) (hT' : T' = nodeValue lTMin lTMax NT j)
    (hr : coordinate rho = Real.logb 10 ρ') (ht : coordinate T = Real.logb 10 T') :
    qR (.fin rho) (.fin T) g = ok (.fin (rho * (groupRosselandMean Robust.SMALL h k c ρ' T' lo up N (α ρ' T') + Robust.SMALL))) := by
  have hS := SMALL_pos
  obtain ⟨t, A, -, e, -, -, g2, g1⟩ := hm.averaged hα hNR hNT
  obtain ⟨κ, L, c1, c2, -, c4⟩ := lookup_tendsto (lk := fun _ => t.lRosseland) (gR := ⟨lRhoMin, lRhoMax, NRho⟩)
    (gT := ⟨lTMin, lTMax, NT⟩) (fun _ _ => g2) (fun _ _ => g1) hNR hNT hlR hlT (g := g)
    (K := fun _ i j => groupRosselandMean Robust.SMALL h k c (nodeValue lRhoMin lRhoMax NRho i) (nodeValue lTMin lTMax NT j) lo up N
      (α (nodeValue lRhoMin lRhoMax NRho i) (nodeValue lTMin lTMax NT j)) + Robust.SMALL)
    (KL := fun i j => groupRosselandMean Robust.SMALL h k c (nodeValue lRhoMin lRhoMax NRho i) (nodeValue lTMin lTMax NT j) lo up N
      (α (nodeValue lRhoMin lRhoMax NRho i) (nodeValue lTMin lTMax NT j)) + Robust.SMALL)
    (fun _ _ i j hi hj => (A.read hi hj hgr hg rfl rfl).2.1)
    (fun i j hi hj => ⟨tendsto_const_nhds, by
      have := (A.read hi hj hgr hg rfl rfl).2.2.2
      linarith⟩) hin.1 hin.2 hin.3 hin.4
  have eL := c4 i j hi hj (by rw [hr, hρ']; unfold nodeValue node; exact Real.logb_rpow (by norm_num) (by norm_num))
    (by rw [ht, hT']; unfold nodeValue node; exact Real.logb_rpow (by norm_num) (by norm_num))
  have hκ : ∀ m, 2 ≤ m → κ m = κ 2 := fun m hm =>
    mul_left_cancel₀ hρ (XR.fin.inj (Outcome.ok.inj ((c1 m hm).symm.trans (c1 2 (le_refl 2)))))
  have eκ : κ 2 = L := tendsto_nhds_unique (tendsto_const_nhds.congr' (by
    filter_upwards [eventually_ge_atTop 2] with m hm using (hκ m hm).symm)) c2
  rw [e]
  have := c1 2 (le_refl 2)
  rw [eκ, eL, ← hρ', ← hT'] at this
  exact this

/-- **C79 (Rosseland means)**: a group from 0 to infinity is sampled from `10⁻³ kT/h` to `10³ kT/h` only.  Still, at the nodes
of the table the Rosseland mean of a continuous coefficient between `κ₀ > 0` and `K` tends, as the number of frequencies
grows, to the Rosseland mean over *all* frequencies: the mean free paths of the two differ by at most `10⁻¹⁰` of the longest
mean free path, up to the floor that is added to every stored mean. -/
theorem C79_rosseland {qP qR : ℕ → XR → XR → ℤ → Outcome XR}
    (hm : ∀ N, 2 ≤ N → MeansOf h k c α lRhoMin lRhoMax NRho lTMin lTMax NT b n N (qP N) (qR N))
    (hα : ∀ ρ T ν, 0 < ρ → 0 < T → 0 < ν → 0 ≤ α ρ T ν)
    (hcont : ∀ ρ T, 0 < ρ → 0 < T → ContinuousOn (α ρ T) (Set.Ioi 0)) (hNR : 2 ≤ NRho) (hNT : 2 ≤ NT)
    (hlR : lRhoMin < lRhoMax) (hlT : lTMin < lTMax) {g : ℕ} (hg : g < n) (hgr : GroupIs b g 0 none)
    {rho T : ℝ} (hρ : rho ≠ 0) (hin : Inside lRhoMin lRhoMax lTMin lTMax rho T) {i j : ℕ} (hi : (i : ℤ) < NRho) (hj : (j : ℤ) < NT)
    {ρ' T' κ₀ K : ℝ} (hρ' : ρ' = nodeValue lRhoMin lRhoMax NRho i) (hT' : T' = nodeValue lTMin lTMax NT j)
    (hr : coordinate rho = Real.logb 10 ρ') (ht : coordinate T = Real.logb 10 T')
    (hn : Negligible Robust.SMALL h k c T') (hκ : 0 < κ₀) (h0 : ∀ ν, 0 < ν → κ₀ ≤ α ρ' T' ν) (hK : ∀ ν, 0 < ν → α ρ' T' ν ≤ K)
    (s1 : Robust.SMALL ≤ 1e-12 * κ₀) (s2 : Robust.SMALL * T' ≤ 1e-13 * ∫ ν in Set.Ioi (0 : ℝ), planckLaw h k c T' ν)
    (s3 : Robust.SMALL * (K * T') ≤ 1e-13 * (ρ' * ∫ ν in Set.Ioi (0 : ℝ), planckLaw h k c T' ν)) :
    ∃ (κ : ℕ → ℝ) (L : ℝ), (∀ N, 2 ≤ N → qR N (.fin rho) (.fin T) g = ok (.fin (rho * κ N))) ∧ Tendsto κ atTop (𝓝 L) ∧
      0 < L - Robust.SMALL ∧ 0 < wholeRosselandMean h k c ρ' T' (α ρ' T') ∧
      |1 / (L - Robust.SMALL) - 1 / wholeRosselandMean h k c ρ' T' (α ρ' T')| ≤ 1e-10 * (ρ' / κ₀) := by
  obtain ⟨t, A, -⟩ := (hm 2 (le_refl 2)).averaged hα hNR hNT
  obtain ⟨-, -, hh, hk, hc⟩ := A.bounds
  have p1 : 0 < ρ' := hρ' ▸ nodeValue_pos _ _ _ _
  have p2 : 0 < T' := hT' ▸ nodeValue_pos _ _ _ _
  obtain ⟨r1, r2, r3, r4⟩ := WholeSpectrum.rosseland_near hh hk hc p2 SMALL_pos p1 hn (hcont _ _ p1 p2) hκ h0 hK s1 s2 s3
  refine ⟨_, _, fun N hN => rosseland_node (hm N hN) hα hNR hNT hlR hlT hg hgr hρ hin hi hj hρ' hT' hr ht,
    r1.add_const _, ?_, r3, ?_⟩
  · rw [add_sub_cancel_right]; exact r2
  · rw [add_sub_cancel_right]; exact r4

end

/-- the hypotheses of `C79_rosseland` are met by a gray opacity: unit constants, densities and temperatures from 1 to 10, one
group over the whole spectrum, first node of the table -/
example : ∃ qP qR : ℕ → XR → XR → ℤ → Outcome XR,
    (∀ N, 2 ≤ N → MeansOf 1 1 1 (fun ρ _ _ => ρ * 1) 0 1 2 0 1 2 [.fin 0, .pinf] 1 N (qP N) (qR N)) ∧
    ∃ (κ : ℕ → ℝ) (L : ℝ), (∀ N, 2 ≤ N → qR N (.fin (1 - Robust.SMALL)) (.fin (1 - Robust.SMALL)) 0 =
      ok (.fin ((1 - Robust.SMALL) * κ N))) ∧ Tendsto κ atTop (𝓝 L) ∧
      |1 / (L - Robust.SMALL) - 1 / wholeRosselandMean 1 1 1 1 1 (fun _ => 1 * 1)| ≤ 1e-10 * (1 / 1) := by
  obtain ⟨hb, hgr⟩ := wholeGroup
  have ht : ∀ N : ℕ, 2 ≤ N → ∃ o, MeanOpacityBase.construct onesPC (fun _ => XR.fin 0) (GrayOpacity.mk onesPC (.fin 1))
      (.fin 0) (.fin 1) 2 (.fin 0) (.fin 1) 2 [.fin 0, .pinf] (1 : ℕ) N = ok o := by
    intro N hN
    obtain ⟨o, ho, -⟩ := C07_gray_exists onesPC_finite (κ := 1) one_pos 0 1 (NRho := 2) (by norm_num) 0 1 (NT := 2)
      (by norm_num) hb hN (fun _ => .fin 0)
    exact ⟨o, ho⟩
  haveI : Nonempty (MeanOpacityBase XR) := ⟨(ht 2 (le_refl 2)).choose⟩
  choose! o ho using ht
  have hm : ∀ N, 2 ≤ N → MeansOf 1 1 1 (fun ρ _ _ => ρ * 1) 0 1 2 0 1 2 [.fin 0, .pinf] 1 N
      (MeanPhotonAPI.PlanckGroupAbsorptionCoefficient (o N)) (MeanPhotonAPI.RosselandGroupAbsorptionCoefficient (o N)) :=
    fun N hN => .absorption (GrayOpacity.mk onesPC (.fin 1)) onesPC _ (o N) onesPC_finite
      (fun ρ T ν _ _ _ => gray_coef onesPC 1 ρ T ν) (ho N hN)
  have hnode : (1 : ℝ) = nodeValue 0 1 2 0 := by rw [node0]; simp
  have hS := SMALL_lt
  have hI : 1 ≤ ∫ ν in Set.Ioi (0 : ℝ), planckLaw 1 1 1 1 ν := by
    rw [(WholeSpectrum.law_integral one_pos one_pos one_pos (one_pos (α := ℝ))).2]
    have : (3 : ℝ) ^ 4 ≤ Real.pi ^ 4 := pow_le_pow_left₀ (by norm_num) Real.pi_gt_three.le 4
    norm_num at this ⊢
    linarith
  obtain ⟨κ, L, r1, r2, -, -, r5⟩ := C79_rosseland (qP := fun N => MeanPhotonAPI.PlanckGroupAbsorptionCoefficient (o N))
    (qR := fun N => MeanPhotonAPI.RosselandGroupAbsorptionCoefficient (o N)) hm
    (fun ρ _ _ h _ _ => by positivity) (fun _ _ _ _ => continuousOn_const) (by norm_num) (by norm_num) (by norm_num) (by norm_num)
    (g := 0) (by norm_num) hgr (by norm_num at hS; linarith) first_node.1 (i := 0) (j := 0) (by norm_num) (by norm_num) hnode hnode
    first_node.2 first_node.2 negligible_ones (κ₀ := 1) (K := 1) one_pos (fun _ _ => by norm_num) (fun _ _ => by norm_num)
    (by norm_num at hS ⊢; linarith) (by norm_num at hS ⊢; linarith) (by norm_num at hS ⊢; linarith)
  exact ⟨_, _, hm, κ, L, r1, r2, r5⟩

end Opac.Photons
