import Verif.Lemmas.GroupSum
import Verif.Props.MergeGroups

/-!
# C83: the groups of a mean opacity add up
-/

namespace Opac.Photons
open Opac Spec Outcome Arith Filter Topology Convergence

section
variable {h k c : ℝ} {α : ℝ → ℝ → ℝ → ℝ} {lRhoMin lRhoMax lTMin lTMax : ℝ} {NRho NT : ℤ} {b : List XR} {n : ℕ}
  {qP qR : ℕ → XR → XR → ℤ → Outcome XR}

/-- **C83**: the Planck means of all groups, weighted by the thermal intensities of their groups, add up to the emission of the
opacity between the first and the last bound, `∫ αB dν`.  This holds for every acceptable list of bounds, inside or outside of the
range that is sampled, at the nodes of the table, in the limit of many frequencies, up to `2·10⁻¹⁰` of the emission that the largest
coefficient `K` would give, and up to the floor that is added to every stored mean. -/
theorem C83_planck (hm : ∀ N, 2 ≤ N → MeansOf h k c α lRhoMin lRhoMax NRho lTMin lTMax NT b n N (qP N) (qR N))
    (hα : ∀ ρ T ν, 0 < ρ → 0 < T → 0 < ν → 0 ≤ α ρ T ν)
    (hcont : ∀ ρ T, 0 < ρ → 0 < T → ContinuousOn (α ρ T) (Set.Ioi 0)) (hNR : 2 ≤ NRho) (hNT : 2 ≤ NT)
    (hlR : lRhoMin < lRhoMax) (hlT : lTMin < lTMax) (hn : 0 < n) {lo : ℕ → ℝ} {up : ℕ → Option ℝ}
    (hgr : ∀ g, g < n → GroupIs b g (lo g) (up g))
    {rho T : ℝ} (hin : Inside lRhoMin lRhoMax lTMin lTMax rho T) {i j : ℕ} (hi : (i : ℤ) < NRho) (hj : (j : ℤ) < NT)
    {ρ' T' K : ℝ} (hρ' : ρ' = nodeValue lRhoMin lRhoMax NRho i) (hT' : T' = nodeValue lTMin lTMax NT j)
    (hr : coordinate rho = Real.logb 10 ρ') (ht : coordinate T = Real.logb 10 T') (hK : ∀ ν, 0 < ν → α ρ' T' ν ≤ K)
    (n1 : n * Robust.SMALL ≤ 1e-12 * (k * T' / h))
    (n2 : n * Robust.SMALL ≤ 1e-12 * ∫ ν in Set.Ioi (0 : ℝ), planckLaw h k c T' ν) :
    ∃ (κ : ℕ → ℕ → ℝ) (L : ℝ),
      (∀ g, g < n → ∀ N, 2 ≤ N → qP N (.fin rho) (.fin T) g = ok (.fin (rho * κ g N))) ∧
      Tendsto (fun N => ∑ g ∈ Finset.range n, κ g N * groupIntensity h k c T' (lo g) (up g)) atTop (𝓝 L) ∧
      |L - ∫ ν in {ν : ℝ | lo 0 < ν ∧ ∀ x ∈ up (n - 1), ν ≤ x}, α ρ' T' ν / ρ' * planckLaw h k c T' ν| ≤
        (2e-10 * (K / ρ') + Robust.SMALL) * ∫ ν in Set.Ioi (0 : ℝ), planckLaw h k c T' ν := by
  have hS := SMALL_pos
  obtain ⟨t, A, -⟩ := (hm 2 (le_refl 2)).averaged hα hNR hNT
  obtain ⟨-, -, hh, hk, hc⟩ := A.bounds
  have p1 : 0 < ρ' := hρ' ▸ nodeValue_pos _ _ _ _
  have p2 : 0 < T' := hT' ▸ nodeValue_pos _ _ _ _
  have hlim : ∀ g, ∃ κ : ℕ → ℝ, g < n → (∀ N, 2 ≤ N → qP N (.fin rho) (.fin T) g = ok (.fin (rho * κ N))) ∧
      Tendsto κ atTop (𝓝 (planckIntegralMean Robust.SMALL h k c ρ' T' (lo g) (up g) (α ρ' T') + Robust.SMALL)) := by
    intro g
    by_cases hg : g < n
    · obtain ⟨κ, L, u1, u2, -, u3⟩ := C66_planck hm hα hcont hNR hNT hlR hlT hg (hgr g hg) hin
      exact ⟨κ, fun _ => ⟨u1, u3 i j hi hj _ _ hρ' hT' hr ht ▸ u2⟩⟩
    · exact ⟨fun _ => 0, fun h => absurd h hg⟩
  choose κ hκ using hlim
  refine ⟨κ, _, fun g hg => (hκ g hg).1, tendsto_finset_sum _ fun g hg =>
    ((hκ g (Finset.mem_range.1 hg)).2.mul_const _), ?_⟩
  have hub : ∀ g, g + 1 < n → up g = some (lo (g + 1)) := by
    intro g hg
    have e1 := (hgr g (by omega)).2.1
    have e2 := (hgr (g + 1) hg).1
    rw [e2] at e1
    rcases hu : up g with _ | x
    · rw [hu] at e1; simp [upper] at e1
    · rw [hu] at e1; simp [upper] at e1; rw [e1]
  have hβ : ∀ g, g < n → 0 ≤ lo g := fun g hg => (hgr g hg).2.2.1
  have hup : ∀ g, g < n → ∀ x ∈ up g, lo g < x := fun g hg => (hgr g hg).2.2.2
  have main := WholeSpectrum.group_sum hh hk hc p2 hS p1 (hcont _ _ p1 p2) (fun ν hν => hα _ _ ν p1 p2 hν) hK hn hβ hub hup
    (fun g hg => sampled_part hh hk p2 (hβ g hg) (hup g hg)) n1 n2
  obtain ⟨int, -⟩ := WholeSpectrum.law_integral hh hk hc p2
  have hL : ∀ ν, 0 < ν → 0 ≤ planckLaw h k c T' ν := fun ν hν => WholeSpectrum.law_nonneg hh hk hc p2 hν
  have e2 := WholeSpectrum.groups_add hβ hub hup int (n - 1) (by omega)
  rw [show n - 1 + 1 = n by omega] at e2
  have hsum : ∑ g ∈ Finset.range n, groupIntensity h k c T' (lo g) (up g) ≤ ∫ ν in Set.Ioi (0 : ℝ), planckLaw h k c T' ν := by
    refine le_trans (le_of_eq e2) ?_
    exact MeasureTheory.setIntegral_mono_set int ((MeasureTheory.ae_restrict_iff' measurableSet_Ioi).2
      (Eventually.of_forall fun ν hν => hL ν hν)) (WholeSpectrum.groupSet_pos (hβ 0 hn)).eventuallyLE
  have hsum0 : 0 ≤ ∑ g ∈ Finset.range n, groupIntensity h k c T' (lo g) (up g) := Finset.sum_nonneg fun g hg =>
    MeasureTheory.setIntegral_nonneg (WholeSpectrum.groupSet_measurable _ _) fun ν hν =>
      hL ν (WholeSpectrum.groupSet_pos (hβ g (Finset.mem_range.1 hg)) hν)
  have hs1 := mul_le_mul_of_nonneg_left hsum hS.le
  have hs0 := mul_nonneg hS.le hsum0
  simp only [add_mul, Finset.sum_add_distrib, ← Finset.mul_sum]
  have := abs_le.1 main
  rw [abs_le]
  constructor <;> linarith

end

/-- the hypotheses of `C83_planck` are met by a gray opacity: unit constants, densities and temperatures from 1 to 10, groups
`[0, 10⁻⁵]` (below the thermal range) and `[10⁻⁵, ∞)`, first node of the table -/
example : ∃ qP qR : ℕ → XR → XR → ℤ → Outcome XR,
    (∀ N, 2 ≤ N → MeansOf 1 1 1 (fun ρ _ _ => ρ * 1) 0 1 2 0 1 2 [.fin 0, .fin 1e-5, .pinf] 2 N (qP N) (qR N)) ∧
    ∃ (κ : ℕ → ℕ → ℝ) (L : ℝ),
      (∀ g : ℕ, g < 2 → ∀ N, 2 ≤ N → qP N (.fin (1 - Robust.SMALL)) (.fin (1 - Robust.SMALL)) g =
        ok (.fin ((1 - Robust.SMALL) * κ g N))) ∧
      Tendsto (fun N => κ 0 N * groupIntensity 1 1 1 1 0 (some 1e-5) + κ 1 N * groupIntensity 1 1 1 1 1e-5 none) atTop (𝓝 L) ∧
      |L - ∫ ν in Set.Ioi (0 : ℝ), planckLaw 1 1 1 1 ν| ≤
        (2e-10 + Robust.SMALL) * ∫ ν in Set.Ioi (0 : ℝ), planckLaw 1 1 1 1 ν := by
  obtain ⟨hb, g1, g2⟩ := splitSpectrum (m := 1e-5) (by norm_num)
  have ht : ∀ N : ℕ, 2 ≤ N → ∃ o, MeanOpacityBase.construct onesPC (fun _ => XR.fin 0) (GrayOpacity.mk onesPC (.fin 1))
      (.fin 0) (.fin 1) 2 (.fin 0) (.fin 1) 2 [.fin 0, .fin 1e-5, .pinf] (2 : ℕ) N = ok o := by
    intro N hN
    obtain ⟨o, ho, -⟩ := C07_gray_exists onesPC_finite (κ := 1) one_pos 0 1 (NRho := 2) (by norm_num) 0 1 (NT := 2)
      (by norm_num) hb hN (fun _ => .fin 0)
    exact ⟨o, ho⟩
  have : Nonempty (MeanOpacityBase XR) := ⟨(ht 2 (le_refl 2)).choose⟩
  choose! o ho using ht
  have hm : ∀ N, 2 ≤ N → MeansOf 1 1 1 (fun ρ _ _ => ρ * 1) 0 1 2 0 1 2 [.fin 0, .fin 1e-5, .pinf] 2 N
      (MeanPhotonAPI.PlanckGroupAbsorptionCoefficient (o N)) (MeanPhotonAPI.RosselandGroupAbsorptionCoefficient (o N)) :=
    fun N hN => .absorption (GrayOpacity.mk onesPC (.fin 1)) onesPC _ (o N) onesPC_finite
      (fun ρ T ν _ _ _ => gray_coef onesPC 1 ρ T ν) (ho N hN)
  have hnode : (1 : ℝ) = nodeValue 0 1 2 0 := by rw [node0]; simp
  have hS := SMALL_lt
  have hI : 1 ≤ ∫ ν in Set.Ioi (0 : ℝ), planckLaw 1 1 1 1 ν := by
    rw [(WholeSpectrum.law_integral one_pos one_pos one_pos (one_pos (α := ℝ))).2]
    have : (3 : ℝ) ^ 4 ≤ Real.pi ^ 4 := pow_le_pow_left₀ (by norm_num) Real.pi_gt_three.le 4
    norm_num at this ⊢
    linarith
  obtain ⟨κ, L, r1, r2, r3⟩ := C83_planck (qP := fun N => MeanPhotonAPI.PlanckGroupAbsorptionCoefficient (o N))
    (qR := fun N => MeanPhotonAPI.RosselandGroupAbsorptionCoefficient (o N)) hm
    (fun ρ _ _ h _ _ => by positivity) (fun _ _ _ _ => continuousOn_const) (by norm_num) (by norm_num) (by norm_num) (by norm_num)
    (by norm_num) (lo := fun g => if g = 0 then 0 else 1e-5) (up := fun g => if g = 0 then some 1e-5 else none)
    (fun g hg => by
      rcases g with _ | _ | g
      · exact g1
      · exact g2
      · omega)
    first_node.1 (i := 0) (j := 0) (by norm_num) (by norm_num) hnode hnode first_node.2 first_node.2 (K := 1)
    (fun _ _ => by norm_num) (by norm_num at hS ⊢; linarith) (by norm_num at hS ⊢; linarith)
  refine ⟨_, _, hm, κ, L, r1, ?_, ?_⟩
  · simpa [Finset.sum_range_succ] using r2
  · have e : {ν : ℝ | (if (0 : ℕ) = 0 then (0 : ℝ) else 1e-5) < ν ∧ ∀ x ∈ (if 2 - 1 = 0 then some (1e-5 : ℝ) else none), ν ≤ x} =
        Set.Ioi 0 := by ext ν; simp
    rw [e] at r3
    simpa only [mul_one, div_one, one_mul] using r3

end Opac.Photons
