import Verif.Lemmas.MergeGroups
import Verif.Props.WholeRosseland

/-!
# C82: two adjacent groups and their union
-/

namespace Opac.Photons
open Opac Spec Outcome Arith Filter Topology Convergence

section
variable {h k c : ℝ} {α : ℝ → ℝ → ℝ → ℝ} {lRhoMin lRhoMax lTMin lTMax : ℝ} {NRho NT : ℤ} {b b' : List XR} {n n' : ℕ}
  {qP qR qP' qR' : ℕ → XR → XR → ℤ → Outcome XR}

/-- **C82 (Planck means)**: of two sets of means of the same coefficient on the same nodes, the second merges two adjacent
groups `[lo, m]` and `[m, up]` of the first into one.  If the common bound `m` is between `10⁻³ kT/h` and `10³ kT/h`, then at
the nodes of the table the limit of the merged mean lies between the limits of the two parts, up to the floor of the divisor. -/
theorem C82_planck_partial (hm : ∀ N, 2 ≤ N → MeansOf h k c α lRhoMin lRhoMax NRho lTMin lTMax NT b n N (qP N) (qR N))
    (hm' : ∀ N, 2 ≤ N → MeansOf h k c α lRhoMin lRhoMax NRho lTMin lTMax NT b' n' N (qP' N) (qR' N))
    (hα : ∀ ρ T ν, 0 < ρ → 0 < T → 0 < ν → 0 ≤ α ρ T ν)
    (hcont : ∀ ρ T, 0 < ρ → 0 < T → ContinuousOn (α ρ T) (Set.Ioi 0)) (hNR : 2 ≤ NRho) (hNT : 2 ≤ NT)
    (hlR : lRhoMin < lRhoMax) (hlT : lTMin < lTMax) {g g' : ℕ} (hg : g + 1 < n) (hg' : g' < n') {lo m : ℝ} {up : Option ℝ}
    (gr₁ : GroupIs b g lo (some m)) (gr₂ : GroupIs b (g + 1) m up) (gr : GroupIs b' g' lo up)
    {rho T : ℝ} (hin : Inside lRhoMin lRhoMax lTMin lTMax rho T) {i j : ℕ} (hi : (i : ℤ) < NRho) (hj : (j : ℤ) < NT)
    {ρ' T' ε : ℝ} (hρ' : ρ' = nodeValue lRhoMin lRhoMax NRho i) (hT' : T' = nodeValue lTMin lTMax NT j)
    (hr : coordinate rho = Real.logb 10 ρ') (ht : coordinate T = Real.logb 10 T')
    (b1 : 1e-3 * (k * T' / h) < m) (b2 : m < 1e3 * (k * T' / h))
    (hε : Robust.SMALL * Real.log 10 ≤ ε * ∫ ν in groupFrom Robust.SMALL h k T' lo up..groupTo Robust.SMALL h k T' lo up,
      planckWeight h k c T' ν) :
    ∃ (κ₁ κ₂ κ : ℕ → ℝ) (L₁ L₂ L : ℝ),
      (∀ N, 2 ≤ N → qP N (.fin rho) (.fin T) g = ok (.fin (rho * κ₁ N)) ∧
        qP N (.fin rho) (.fin T) (g + 1 : ℕ) = ok (.fin (rho * κ₂ N)) ∧ qP' N (.fin rho) (.fin T) g' = ok (.fin (rho * κ N))) ∧
      Tendsto κ₁ atTop (𝓝 L₁) ∧ Tendsto κ₂ atTop (𝓝 L₂) ∧ Tendsto κ atTop (𝓝 L) ∧
      min L₁ L₂ ≤ L ∧ L ≤ (1 + ε) * max L₁ L₂ := by
  have hS := SMALL_pos
  obtain ⟨t, A, -⟩ := (hm 2 (le_refl 2)).averaged hα hNR hNT
  obtain ⟨-, -, hh, hk, hc⟩ := A.bounds
  have p1 : 0 < ρ' := hρ' ▸ nodeValue_pos _ _ _ _
  have p2 : 0 < T' := hT' ▸ nodeValue_pos _ _ _ _
  obtain ⟨w1, w2⟩ := sampled_part hh hk p2 gr.2.2.1 gr.2.2.2
  obtain ⟨κ₁, L₁, u1, u2, -, u3⟩ := C66_planck hm hα hcont hNR hNT hlR hlT (by omega : g < n) gr₁ hin
  obtain ⟨κ₂, L₂, v1, v2, -, v3⟩ := C66_planck hm hα hcont hNR hNT hlR hlT hg gr₂ hin
  obtain ⟨κ, L, x1, x2, -, x3⟩ := C66_planck hm' hα hcont hNR hNT hlR hlT hg' gr hin
  refine ⟨κ₁, κ₂, κ, L₁, L₂, L, fun N hN => ⟨u1 N hN, v1 N hN, x1 N hN⟩, u2, v2, x2, ?_⟩
  obtain ⟨r1, r2⟩ := WholeSpectrum.planck_merged hh hk hc p2 hS p1 w1 (gr₁.2.2.2 m rfl) gr₂.2.2.2 b1 b2 (hcont _ _ p1 p2)
    (fun ν hν => hα _ _ ν p1 p2 hν) hε
  rw [u3 i j hi hj _ _ hρ' hT' hr ht, v3 i j hi hj _ _ hρ' hT' hr ht, x3 i j hi hj _ _ hρ' hT' hr ht, min_add_add_right,
    max_add_add_right]
  have hε0 : 0 ≤ ε := by
    by_contra hneg
    have hI : 0 ≤ ∫ ν in groupFrom Robust.SMALL h k T' lo up..groupTo Robust.SMALL h k T' lo up, planckWeight h k c T' ν :=
      intervalIntegral.integral_nonneg w2.le fun ν hν => by
        have hn := planckWeight_near hh hk hc p2 (w1.trans_le hν.1)
        have h80 : Real.exp (-80) < 1 := by rw [← Real.exp_zero]; exact Real.exp_lt_exp.2 (by norm_num)
        exact le_trans (mul_nonneg (by linarith) hn.2.2.le) hn.1
    have := mul_nonpos_of_nonpos_of_nonneg (not_le.1 hneg).le hI
    have : 0 < (Robust.SMALL : ℝ) * Real.log 10 := mul_pos hS (Real.log_pos (by norm_num))
    linarith
  constructor
  · linarith
  · have := mul_nonneg hε0 hS.le
    linarith

/-- **C82 (Rosseland means)**: the same for Rosseland means, of a coefficient above the floor. -/
theorem C82_rosseland_partial (hm : ∀ N, 2 ≤ N → MeansOf h k c α lRhoMin lRhoMax NRho lTMin lTMax NT b n N (qP N) (qR N))
    (hm' : ∀ N, 2 ≤ N → MeansOf h k c α lRhoMin lRhoMax NRho lTMin lTMax NT b' n' N (qP' N) (qR' N))
    (hα : ∀ ρ T ν, 0 < ρ → 0 < T → 0 < ν → 0 ≤ α ρ T ν)
    (hcont : ∀ ρ T, 0 < ρ → 0 < T → ContinuousOn (α ρ T) (Set.Ioi 0)) (hNR : 2 ≤ NRho) (hNT : 2 ≤ NT)
    (hlR : lRhoMin < lRhoMax) (hlT : lTMin < lTMax) {g g' : ℕ} (hg : g + 1 < n) (hg' : g' < n') {lo m : ℝ} {up : Option ℝ}
    (gr₁ : GroupIs b g lo (some m)) (gr₂ : GroupIs b (g + 1) m up) (gr : GroupIs b' g' lo up)
    {rho T : ℝ} (hρ : rho ≠ 0) (hin : Inside lRhoMin lRhoMax lTMin lTMax rho T) {i j : ℕ} (hi : (i : ℤ) < NRho) (hj : (j : ℤ) < NT)
    {ρ' T' A B ε : ℝ} (hρ' : ρ' = nodeValue lRhoMin lRhoMax NRho i) (hT' : T' = nodeValue lTMin lTMax NT j)
    (hr : coordinate rho = Real.logb 10 ρ') (ht : coordinate T = Real.logb 10 T')
    (b1 : 1e-3 * (k * T' / h) < m) (b2 : m < 1e3 * (k * T' / h))
    (hA : A = groupFrom Robust.SMALL h k T' lo up) (hB : B = groupTo Robust.SMALL h k T' lo up)
    (hfloor : ∀ ν, A < ν → ν < B → Robust.SMALL < α ρ' T' ν)
    (d1 : Robust.SMALL * Real.log 10 < ∫ ν in A..m + Robust.SMALL, rosselandWeight h k c T' ν)
    (d2 : Robust.SMALL * Real.log 10 < ∫ ν in m + Robust.SMALL..B, rosselandWeight h k c T' ν)
    (e1 : Robust.SMALL * Real.log 10 < ∫ ν in A..m + Robust.SMALL, ρ' / (α ρ' T' ν + Robust.SMALL) * rosselandWeight h k c T' ν)
    (e2 : Robust.SMALL * Real.log 10 < ∫ ν in m + Robust.SMALL..B, ρ' / (α ρ' T' ν + Robust.SMALL) * rosselandWeight h k c T' ν)
    (hε : Robust.SMALL * Real.log 10 ≤ ε * ∫ ν in A..B, ρ' / (α ρ' T' ν + Robust.SMALL) * rosselandWeight h k c T' ν) :
    ∃ (κ₁ κ₂ κ : ℕ → ℝ) (L₁ L₂ L : ℝ),
      (∀ N, 2 ≤ N → qR N (.fin rho) (.fin T) g = ok (.fin (rho * κ₁ N)) ∧
        qR N (.fin rho) (.fin T) (g + 1 : ℕ) = ok (.fin (rho * κ₂ N)) ∧ qR' N (.fin rho) (.fin T) g' = ok (.fin (rho * κ N))) ∧
      Tendsto κ₁ atTop (𝓝 L₁) ∧ Tendsto κ₂ atTop (𝓝 L₂) ∧ Tendsto κ atTop (𝓝 L) ∧
      min L₁ L₂ ≤ L ∧ L ≤ (1 + ε) * max L₁ L₂ := by
  have hS := SMALL_pos
  obtain ⟨t, At, -⟩ := (hm 2 (le_refl 2)).averaged hα hNR hNT
  obtain ⟨-, -, hh, hk, hc⟩ := At.bounds
  have p1 : 0 < ρ' := hρ' ▸ nodeValue_pos _ _ _ _
  have p2 : 0 < T' := hT' ▸ nodeValue_pos _ _ _ _
  obtain ⟨w1, w2⟩ := sampled_part hh hk p2 gr.2.2.1 gr.2.2.2
  obtain ⟨y1, y2, y3, y4, y5, y6⟩ := WholeSpectrum.merged_window hh hk p2 Robust.SMALL (gr₁.2.2.2 m rfl) gr₂.2.2.2 b1 b2
  have hσ : 0 < (Robust.SMALL : ℝ) * Real.log 10 := mul_pos hS (Real.log_pos (by norm_num))
  have hm0 : 0 < m + Robust.SMALL := w1.trans y5
  have hf : ContinuousOn (fun ν => ρ' / (α ρ' T' ν + Robust.SMALL)) (Set.Ioi 0) :=
    continuousOn_const.div ((hcont _ _ p1 p2).add_const _) fun ν hν => by have := hα ρ' T' ν p1 p2 hν; linarith
  have i1 := (rosseland_pieces hh hk hc p2 hf (B := m + Robust.SMALL) w1).2 y5.le
  have i2 := (rosseland_pieces hh hk hc p2 hf (B := groupTo Robust.SMALL h k T' lo up) hm0).2 y6.le
  have j1 := (rosseland_pieces hh hk hc p2 (f := fun _ => 1) continuousOn_const (B := m + Robust.SMALL) w1).2 y5.le
  have j2 := (rosseland_pieces hh hk hc p2 (f := fun _ => 1) continuousOn_const (B := groupTo Robust.SMALL h k T' lo up) hm0).2 y6.le
  simp only [one_mul] at j1 j2
  subst hA hB
  obtain ⟨r1, r2⟩ := WholeSpectrum.rosseland_merged hh hk hc p2 hS p1 w1 (gr₁.2.2.2 m rfl) gr₂.2.2.2 b1 b2 (hcont _ _ p1 p2)
    (fun ν hν => hα _ _ ν p1 p2 hν) hε
  have hε0 : 0 ≤ ε := by
    by_contra hneg
    have hI := intervalIntegral.integral_add_adjacent_intervals i1 i2
    have := mul_nonpos_of_nonpos_of_nonneg (not_le.1 hneg).le (by linarith : 0 ≤
      ∫ ν in groupFrom Robust.SMALL h k T' lo up..groupTo Robust.SMALL h k T' lo up,
        ρ' / (α ρ' T' ν + Robust.SMALL) * rosselandWeight h k c T' ν)
    linarith
  refine ⟨_, _, _, _, _, _, fun N hN => ⟨
    rosseland_node (hm N hN) hα hNR hNT hlR hlT (by omega : g < n) gr₁ hρ hin hi hj hρ' hT' hr ht,
    rosseland_node (hm N hN) hα hNR hNT hlR hlT hg gr₂ hρ hin hi hj hρ' hT' hr ht,
    rosseland_node (hm' N hN) hα hNR hNT hlR hlT hg' gr hρ hin hi hj hρ' hT' hr ht⟩,
    (groupRosseland_tendsto hh hk hc hS p2 (y1 ▸ w1) (by rw [y1, y2]; exact y5) (hcont _ _ p1 p2)
      (fun ν hν => hα _ _ ν p1 p2 hν) (by rw [y1, y2]; exact fun ν h1 h2 => hfloor ν h1 (h2.trans y6))
      (by rw [y1, y2]; exact d1) (by rw [y1, y2]; exact e1)).add_const _,
    (groupRosseland_tendsto hh hk hc hS p2 (y3 ▸ hm0) (by rw [y3, y4]; exact y6) (hcont _ _ p1 p2)
      (fun ν hν => hα _ _ ν p1 p2 hν) (by rw [y3, y4]; exact fun ν h1 h2 => hfloor ν (y5.trans h1) h2)
      (by rw [y3, y4]; exact d2) (by rw [y3, y4]; exact e2)).add_const _,
    (groupRosseland_tendsto hh hk hc hS p2 w1 w2 (hcont _ _ p1 p2)
      (fun ν hν => hα _ _ ν p1 p2 hν) hfloor
      (by rw [← intervalIntegral.integral_add_adjacent_intervals j1 j2]; linarith)
      (by rw [← intervalIntegral.integral_add_adjacent_intervals i1 i2]; linarith)).add_const _, ?_⟩
  rw [min_add_add_right, max_add_add_right]
  constructor
  · linarith
  · have := mul_nonneg hε0 hS.le
    linarith

end

/-- two groups that meet at `m` and cover the whole spectrum -/
theorem splitSpectrum {m : ℝ} (hm : 0 < m) : AcceptableBounds [XR.fin 0, .fin m, .pinf] ((2 : ℕ) : ℤ) ∧
    GroupIs [XR.fin 0, .fin m, .pinf] 0 0 (some m) ∧ GroupIs [XR.fin 0, .fin m, .pinf] (0 + 1) m none := by
  refine ⟨⟨by norm_num, by simp, ?_, ?_, ?_, ?_⟩, ⟨rfl, rfl, le_refl 0, by simpa using hm⟩, ⟨rfl, rfl, hm.le, by simp⟩⟩
  · intro i x hi hx
    rcases i with _ | _ | _ | i
    · simp at hx; subst hx; rfl
    · simp at hx; subst hx; rfl
    · simp at hx; subst hx; rfl
    · push_cast at hi; omega
  · intro x hx
    simp at hx
    subst hx
    simp only [axr]; norm_num
  · intro i x y hi hx hy
    rcases i with _ | _ | i
    · simp at hx hy
      subst hx hy
      simp only [axr]; exact_mod_cast hm
    · simp at hx hy
      subst hx hy
      rfl
    · push_cast at hi; omega
  · intro i x hi hx
    rcases i with _ | _ | i
    · simp at hx; subst hx; rfl
    · simp at hx; subst hx; rfl
    · push_cast at hi; omega

/-- means of bremsstrahlung exist for all acceptable bounds -/
theorem ones_brems {b : List XR} {n : ℕ} (hb : AcceptableBounds b (n : ℤ)) : ∃ o : ℕ → MeanOpacityBase XR, ∀ N : ℕ, 2 ≤ N →
    MeanOpacityBase.construct onesPC (fun _ => XR.fin 0) (EPBremsstrahlungOpacity.mk onesPC) (.fin 0) (.fin 1) 2 (.fin 0) (.fin 1)
      2 b n N = ok (o N) := by
  obtain ⟨α, a1, a2, -⟩ := bremsstrahlung_coef (pc := onesPC) (me := 1) (mp := 1) (qe := 1) onesPC_finite rfl rfl rfl one_pos
    one_pos one_pos
  have ht : ∀ N : ℕ, 2 ≤ N → ∃ o, MeanOpacityBase.construct onesPC (fun _ => XR.fin 0) (EPBremsstrahlungOpacity.mk onesPC)
      (.fin 0) (.fin 1) 2 (.fin 0) (.fin 1) 2 b n N = ok o := by
    intro N hN
    obtain ⟨t, e, -⟩ := averaged_exists onesPC_finite (α := α)
      (coef := PhotonAPI.AbsorptionCoefficient (EPBremsstrahlungOpacity.mk onesPC))
      (fun ρ T ν h1 h2 h3 => (a2 ρ T ν h1 h2 h3).le) a1 0 1 (NRho := 2) (by norm_num) 0 1 (NT := 2) (by norm_num) hb hN
      (fun _ => .fin 0)
    exact ⟨⟨onesPC, t⟩, by unfold MeanOpacityBase.construct; rw [e]; rfl⟩
  haveI : Nonempty (MeanOpacityBase XR) := ⟨(ht 2 (le_refl 2)).choose⟩
  choose! o ho using ht
  exact ⟨o, ho⟩

/-- **C82 is false for bounds below the thermal range**: bremsstrahlung (unit constants, density and temperature 1), averaged
over the groups `[0, 5·10⁻⁴]` and `[5·10⁻⁴, ∞)`, and over their union `[0, ∞)`.  From some number of frequencies on, the Planck
mean of the union is below the means of *both* parts: the union is not sampled below `10⁻³`, its parts are. -/
theorem C82_false : ∃ o o' : ℕ → MeanOpacityBase XR,
    (∀ N : ℕ, 2 ≤ N → MeanOpacityBase.construct onesPC (fun _ => XR.fin 0) (EPBremsstrahlungOpacity.mk onesPC)
      (.fin 0) (.fin 1) 2 (.fin 0) (.fin 1) 2 [.fin 0, .fin 5e-4, .pinf] (2 : ℕ) N = ok (o N)) ∧
    (∀ N : ℕ, 2 ≤ N → MeanOpacityBase.construct onesPC (fun _ => XR.fin 0) (EPBremsstrahlungOpacity.mk onesPC)
      (.fin 0) (.fin 1) 2 (.fin 0) (.fin 1) 2 [.fin 0, .pinf] (1 : ℕ) N = ok (o' N)) ∧
    ∃ (x : ℝ) (K₁ K₂ K : ℕ → ℝ), (∀ N, 2 ≤ N →
        MeanPhotonAPI.PlanckGroupAbsorptionCoefficient (o N) (XR.fin x) (XR.fin x) 0 = ok (XR.fin (K₁ N)) ∧
        MeanPhotonAPI.PlanckGroupAbsorptionCoefficient (o N) (XR.fin x) (XR.fin x) 1 = ok (XR.fin (K₂ N)) ∧
        MeanPhotonAPI.PlanckGroupAbsorptionCoefficient (o' N) (XR.fin x) (XR.fin x) 0 = ok (XR.fin (K N))) ∧
      ∃ N₀, ∀ N ≥ N₀, K N < K₁ N ∧ K N < K₂ N := by
  obtain ⟨hb, g1, g2⟩ := splitSpectrum (m := 5e-4) (by norm_num)
  obtain ⟨hb', g'⟩ := wholeGroup
  obtain ⟨o, ho⟩ := ones_brems hb
  obtain ⟨o', ho'⟩ := ones_brems hb'
  obtain ⟨α, a1, a2, a3, a4⟩ := bremsstrahlung_coef (pc := onesPC) (me := 1) (mp := 1) (qe := 1) onesPC_finite rfl rfl rfl one_pos
    one_pos one_pos
  have hα : ∀ ρ T ν, 0 < ρ → 0 < T → 0 < ν → 0 ≤ α ρ T ν := fun ρ T ν h1 h2 h3 => (a2 ρ T ν h1 h2 h3).le
  have hm : ∀ N, 2 ≤ N → MeansOf 1 1 1 α 0 1 2 0 1 2 [.fin 0, .fin 5e-4, .pinf] 2 N
      (MeanPhotonAPI.PlanckGroupAbsorptionCoefficient (o N)) (MeanPhotonAPI.RosselandGroupAbsorptionCoefficient (o N)) :=
    fun N hN => .absorption (EPBremsstrahlungOpacity.mk onesPC) onesPC _ (o N) onesPC_finite a1 (ho N hN)
  have hm' : ∀ N, 2 ≤ N → MeansOf 1 1 1 α 0 1 2 0 1 2 [.fin 0, .pinf] 1 N
      (MeanPhotonAPI.PlanckGroupAbsorptionCoefficient (o' N)) (MeanPhotonAPI.RosselandGroupAbsorptionCoefficient (o' N)) :=
    fun N hN => .absorption (EPBremsstrahlungOpacity.mk onesPC) onesPC _ (o' N) onesPC_finite a1 (ho' N hN)
  have hnode : (1 : ℝ) = nodeValue 0 1 2 0 := by rw [node0]; simp
  obtain ⟨κ₁, L₁, u1, u2, -, u3⟩ := C66_planck (qP := fun N => MeanPhotonAPI.PlanckGroupAbsorptionCoefficient (o N)) hm hα a3
    (by norm_num) (by norm_num) (by norm_num) (by norm_num) (g := 0) (by norm_num) g1 first_node.1
  obtain ⟨κ₂, L₂, v1, v2, -, v3⟩ := C66_planck (qP := fun N => MeanPhotonAPI.PlanckGroupAbsorptionCoefficient (o N)) hm hα a3
    (by norm_num) (by norm_num) (by norm_num) (by norm_num) (g := 0 + 1) (by norm_num) g2 first_node.1
  obtain ⟨κ, L, x1, x2, -, x3⟩ := C66_planck (qP := fun N => MeanPhotonAPI.PlanckGroupAbsorptionCoefficient (o' N)) hm' hα a3
    (by norm_num) (by norm_num) (by norm_num) (by norm_num) (g := 0) (by norm_num) g' first_node.1
  obtain ⟨C, hC, eC, -⟩ := a4 1 1 one_pos one_pos
  obtain ⟨r1, r2⟩ := WholeSpectrum.brems_below hC SMALL_pos SMALL_lt (α := α 1 1)
    (fun ν => by rw [eC]; simp only [one_mul, div_one, mul_one]) (a3 1 1 one_pos one_pos)
  have e1 := u3 0 0 (by norm_num) (by norm_num) 1 1 hnode hnode first_node.2 first_node.2
  have e2 := v3 0 0 (by norm_num) (by norm_num) 1 1 hnode hnode first_node.2 first_node.2
  have e3 := x3 0 0 (by norm_num) (by norm_num) 1 1 hnode hnode first_node.2 first_node.2
  have l1 : L < L₁ := by rw [e1, e3]; linarith
  have l2 : L < L₂ := by rw [e2, e3]; linarith
  obtain ⟨N₀, hN⟩ := eventually_atTop.1 ((x2.eventually_lt u2 l1).and (x2.eventually_lt v2 l2))
  have hpos : 0 < 1 - (Robust.SMALL : ℝ) := by have hS := SMALL_lt; norm_num at hS; linarith
  exact ⟨o, o', ho, ho', 1 - Robust.SMALL, fun N => (1 - Robust.SMALL) * κ₁ N, fun N => (1 - Robust.SMALL) * κ₂ N,
    fun N => (1 - Robust.SMALL) * κ N, fun N hN => ⟨u1 N hN, v1 N hN, x1 N hN⟩, N₀, fun N h =>
    ⟨mul_lt_mul_of_pos_left (hN N h).1 hpos, mul_lt_mul_of_pos_left (hN N h).2 hpos⟩⟩

/-- the hypotheses of `C82_planck_partial` are met by bremsstrahlung: unit constants, densities and temperatures from 1 to 10,
groups `[0, 1]` and `[1, ∞)`, first node of the table -/
example : ∃ o o' : ℕ → MeanOpacityBase XR,
    (∀ N : ℕ, 2 ≤ N → MeanOpacityBase.construct onesPC (fun _ => XR.fin 0) (EPBremsstrahlungOpacity.mk onesPC)
      (.fin 0) (.fin 1) 2 (.fin 0) (.fin 1) 2 [.fin 0, .fin 1, .pinf] (2 : ℕ) N = ok (o N)) ∧
    (∀ N : ℕ, 2 ≤ N → MeanOpacityBase.construct onesPC (fun _ => XR.fin 0) (EPBremsstrahlungOpacity.mk onesPC)
      (.fin 0) (.fin 1) 2 (.fin 0) (.fin 1) 2 [.fin 0, .pinf] (1 : ℕ) N = ok (o' N)) ∧
    ∃ (κ₁ κ₂ κ : ℕ → ℝ) (L₁ L₂ L : ℝ),
      (∀ N, 2 ≤ N →
        MeanPhotonAPI.PlanckGroupAbsorptionCoefficient (o N) (XR.fin (1 - Robust.SMALL)) (XR.fin (1 - Robust.SMALL)) (0 : ℕ) =
          ok (XR.fin ((1 - Robust.SMALL) * κ₁ N)) ∧
        MeanPhotonAPI.PlanckGroupAbsorptionCoefficient (o N) (XR.fin (1 - Robust.SMALL)) (XR.fin (1 - Robust.SMALL)) (0 + 1 : ℕ) =
          ok (XR.fin ((1 - Robust.SMALL) * κ₂ N)) ∧
        MeanPhotonAPI.PlanckGroupAbsorptionCoefficient (o' N) (XR.fin (1 - Robust.SMALL)) (XR.fin (1 - Robust.SMALL)) (0 : ℕ) =
          ok (XR.fin ((1 - Robust.SMALL) * κ N))) ∧
      Tendsto κ₁ atTop (𝓝 L₁) ∧ Tendsto κ₂ atTop (𝓝 L₂) ∧ Tendsto κ atTop (𝓝 L) ∧
      min L₁ L₂ ≤ L ∧ L ≤ (1 + 1e-11) * max L₁ L₂ := by
  obtain ⟨hb, g1, g2⟩ := splitSpectrum (m := 1) one_pos
  obtain ⟨hb', g'⟩ := wholeGroup
  obtain ⟨o, ho⟩ := ones_brems hb
  obtain ⟨o', ho'⟩ := ones_brems hb'
  obtain ⟨α, a1, a2, a3, -⟩ := bremsstrahlung_coef (pc := onesPC) (me := 1) (mp := 1) (qe := 1) onesPC_finite rfl rfl rfl one_pos
    one_pos one_pos
  have hnode : (1 : ℝ) = nodeValue 0 1 2 0 := by rw [node0]; simp
  obtain ⟨-, -, -, -, -, -, w1, w2, w3⟩ := WholeSpectrum.weights one_pos one_pos one_pos one_pos SMALL_pos negligible_ones rfl rfl
  exact ⟨o, o', ho, ho', C82_planck_partial (b := [.fin 0, .fin 1, .pinf]) (b' := [.fin 0, .pinf]) (n := 2) (n' := 1) (g := 0) (g' := 0)
    (qP := fun N => MeanPhotonAPI.PlanckGroupAbsorptionCoefficient (o N)) (qP' := fun N => MeanPhotonAPI.PlanckGroupAbsorptionCoefficient (o' N))
    (fun N hN => .absorption (EPBremsstrahlungOpacity.mk onesPC) onesPC _ (o N) onesPC_finite a1 (ho N hN))
    (fun N hN => .absorption (EPBremsstrahlungOpacity.mk onesPC) onesPC _ (o' N) onesPC_finite a1 (ho' N hN))
    (fun ρ T ν h1 h2 h3 => (a2 ρ T ν h1 h2 h3).le) a3 (by norm_num) (by norm_num) (by norm_num) (by norm_num)
    (by norm_num) (by norm_num) g1 g2 g' first_node.1 (i := 0) (j := 0) (by norm_num) (by norm_num) hnode hnode first_node.2
    first_node.2 (by norm_num) (by norm_num) (by norm_num at w1 w2 w3 ⊢; linarith)⟩

/-- the hypotheses of `C82_rosseland_partial` are met by a gray opacity, with the same groups and table -/
example : ∃ o o' : ℕ → MeanOpacityBase XR,
    (∀ N : ℕ, 2 ≤ N → MeanOpacityBase.construct onesPC (fun _ => XR.fin 0) (GrayOpacity.mk onesPC (.fin 1))
      (.fin 0) (.fin 1) 2 (.fin 0) (.fin 1) 2 [.fin 0, .fin 1, .pinf] (2 : ℕ) N = ok (o N)) ∧
    (∀ N : ℕ, 2 ≤ N → MeanOpacityBase.construct onesPC (fun _ => XR.fin 0) (GrayOpacity.mk onesPC (.fin 1))
      (.fin 0) (.fin 1) 2 (.fin 0) (.fin 1) 2 [.fin 0, .pinf] (1 : ℕ) N = ok (o' N)) ∧
    ∃ (κ₁ κ₂ κ : ℕ → ℝ) (L₁ L₂ L : ℝ),
      (∀ N, 2 ≤ N →
        MeanPhotonAPI.RosselandGroupAbsorptionCoefficient (o N) (XR.fin (1 - Robust.SMALL)) (XR.fin (1 - Robust.SMALL)) (0 : ℕ) =
          ok (XR.fin ((1 - Robust.SMALL) * κ₁ N)) ∧
        MeanPhotonAPI.RosselandGroupAbsorptionCoefficient (o N) (XR.fin (1 - Robust.SMALL)) (XR.fin (1 - Robust.SMALL)) (0 + 1 : ℕ) =
          ok (XR.fin ((1 - Robust.SMALL) * κ₂ N)) ∧
        MeanPhotonAPI.RosselandGroupAbsorptionCoefficient (o' N) (XR.fin (1 - Robust.SMALL)) (XR.fin (1 - Robust.SMALL)) (0 : ℕ) =
          ok (XR.fin ((1 - Robust.SMALL) * κ N))) ∧
      Tendsto κ₁ atTop (𝓝 L₁) ∧ Tendsto κ₂ atTop (𝓝 L₂) ∧ Tendsto κ atTop (𝓝 L) ∧
      min L₁ L₂ ≤ L ∧ L ≤ (1 + 1e-11) * max L₁ L₂ := by
  obtain ⟨hb, g1, g2⟩ := splitSpectrum (m := 1) one_pos
  obtain ⟨hb', g'⟩ := wholeGroup
  have ht : ∀ {b : List XR} {n : ℕ}, AcceptableBounds b (n : ℤ) → ∃ o : ℕ → MeanOpacityBase XR, ∀ N : ℕ, 2 ≤ N →
      MeanOpacityBase.construct onesPC (fun _ => XR.fin 0) (GrayOpacity.mk onesPC (.fin 1))
        (.fin 0) (.fin 1) 2 (.fin 0) (.fin 1) 2 b n N = ok (o N) := by
    intro b n hb
    have ht : ∀ N : ℕ, 2 ≤ N → ∃ o, MeanOpacityBase.construct onesPC (fun _ => XR.fin 0) (GrayOpacity.mk onesPC (.fin 1))
        (.fin 0) (.fin 1) 2 (.fin 0) (.fin 1) 2 b n N = ok o := by
      intro N hN
      obtain ⟨o, ho, -⟩ := C07_gray_exists onesPC_finite (κ := 1) one_pos 0 1 (NRho := 2) (by norm_num) 0 1 (NT := 2)
        (by norm_num) hb hN (fun _ => .fin 0)
      exact ⟨o, ho⟩
    haveI : Nonempty (MeanOpacityBase XR) := ⟨(ht 2 (le_refl 2)).choose⟩
    choose! o ho using ht
    exact ⟨o, ho⟩
  obtain ⟨o, ho⟩ := ht hb
  obtain ⟨o', ho'⟩ := ht hb'
  have hnode : (1 : ℝ) = nodeValue 0 1 2 0 := by rw [node0]; simp
  have hS := SMALL_lt
  have hS0 := SMALL_pos
  obtain ⟨w1, w2, -⟩ := WholeSpectrum.below_windows Robust.SMALL
  have hl : Real.log 10 ≤ 9 := by have := Real.log_le_sub_one_of_pos (show (0 : ℝ) < 10 by norm_num); linarith
  have hl0 : 0 < Real.log 10 := Real.log_pos (by norm_num)
  norm_num at hS
  have hσ : (Robust.SMALL : ℝ) * Real.log 10 ≤ 1e-20 := by
    calc (Robust.SMALL : ℝ) * Real.log 10 ≤ 1e-80 * 9 := mul_le_mul (by norm_num; linarith) hl hl0.le (by norm_num)
      _ ≤ 1e-20 := by norm_num
  have d1 := WholeSpectrum.rosseland_part (a := 1e-3 + Robust.SMALL) (b := 1 + Robust.SMALL) (x := 0.5) (by positivity)
    (by norm_num; linarith) (by norm_num) (by norm_num) (by norm_num; linarith)
  have d2 := WholeSpectrum.rosseland_part (a := 1 + Robust.SMALL) (b := 1e3 + Robust.SMALL) (x := 1.5) (by positivity)
    (by norm_num; linarith) (by norm_num) (by norm_num) (by norm_num; linarith)
  have d3 := WholeSpectrum.rosseland_part (a := 1e-3 + Robust.SMALL) (b := 1e3 + Robust.SMALL) (x := 0.5) (by positivity)
    (by norm_num; linarith) (by norm_num) (by norm_num) (by norm_num; linarith)
  have hhalf : 1 / 2 ≤ 1 / (1 * 1 + (Robust.SMALL : ℝ)) := by
    rw [div_le_div_iff₀ (by norm_num) (by positivity)]; linarith
  have half : ∀ {a b : ℝ}, 1e-3 ≤ (∫ ν in a..b, rosselandWeight 1 1 1 1 ν) →
      5e-4 ≤ ∫ ν in a..b, 1 / (1 * 1 + Robust.SMALL) * rosselandWeight 1 1 1 1 ν := by
    intro a b hab
    rw [intervalIntegral.integral_const_mul]
    calc (5e-4 : ℝ) = 1 / 2 * 1e-3 := by norm_num
      _ ≤ _ := mul_le_mul hhalf hab (by norm_num) (by linarith)
  have f1 := half d1
  have f2 := half d2
  have f3 := half d3
  norm_num at hσ
  refine ⟨o, o', ho, ho', C82_rosseland_partial (b := [.fin 0, .fin 1, .pinf]) (b' := [.fin 0, .pinf]) (n := 2) (n' := 1) (g := 0)
    (g' := 0) (α := fun ρ _ _ => ρ * 1) (qR := fun N => MeanPhotonAPI.RosselandGroupAbsorptionCoefficient (o N))
    (qR' := fun N => MeanPhotonAPI.RosselandGroupAbsorptionCoefficient (o' N))
    (fun N hN => .absorption (GrayOpacity.mk onesPC (.fin 1)) onesPC _ (o N) onesPC_finite
      (fun ρ T ν _ _ _ => gray_coef onesPC 1 ρ T ν) (ho N hN))
    (fun N hN => .absorption (GrayOpacity.mk onesPC (.fin 1)) onesPC _ (o' N) onesPC_finite
      (fun ρ T ν _ _ _ => gray_coef onesPC 1 ρ T ν) (ho' N hN))
    (fun ρ _ _ h _ _ => by positivity) (fun _ _ _ _ => continuousOn_const) (by norm_num) (by norm_num) (by norm_num) (by norm_num)
    (by norm_num) (by norm_num) g1 g2 g' (by linarith) first_node.1 (i := 0) (j := 0) (by norm_num) (by norm_num) hnode hnode
    first_node.2 first_node.2 (by norm_num) (by norm_num) w1.symm w2.symm (fun _ _ _ => by linarith) ?_ ?_ ?_ ?_ ?_⟩
  · norm_num at d1 ⊢; linarith
  · norm_num at d2 ⊢; linarith
  · norm_num at f1 ⊢; linarith
  · norm_num at f2 ⊢; linarith
  · norm_num at f3 ⊢; linarith

end Opac.Photons
