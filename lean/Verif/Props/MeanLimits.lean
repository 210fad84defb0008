import Verif.Lemmas.MeanLimits
import Verif.Props.MeansApi

/-!
# C66: the means converge as the number of frequencies per group grows
-/

namespace Opac.Photons
open Arith Outcome Spec Spiner Finset Filter Topology

section
variable {h k c : ℝ} {α : ℝ → ℝ → ℝ → ℝ} {lRhoMin lRhoMax lTMin lTMax : ℝ} {NRho NT : ℤ} {b : List XR} {n : ℕ}
  {qP qR : ℕ → XR → XR → ℤ → Outcome XR}

/-- opacities that are interpolated in tables whose cells converge -/
theorem lookup_tendsto {lk : ℕ → DataBox XR} {gR gT : Grid ℝ} (h2 : ∀ N, 2 ≤ N → (lk N).grid 2 = xrGrid gR)
    (h1 : ∀ N, 2 ≤ N → (lk N).grid 1 = xrGrid gT)
    (hNR : 2 ≤ gR.N) (hNT : 2 ≤ gT.N) (hR : gR.min < gR.max) (hT : gT.min < gT.max) {g : ℕ} {K : ℕ → ℕ → ℕ → ℝ} {KL : ℕ → ℕ → ℝ}
    (hread : ∀ N, 2 ≤ N → ∀ i j : ℕ, (i : ℤ) < gR.N → (j : ℤ) < gT.N →
      (lk N).read [i, j, g] = ok (.fin (Real.logb 10 (K N i j))))
    (hlim : ∀ i j : ℕ, (i : ℤ) < gR.N → (j : ℤ) < gT.N → Tendsto (fun N => K N i j) atTop (𝓝 (KL i j)) ∧ 0 < KL i j)
    {rho T : ℝ} (r0 : gR.min ≤ coordinate rho) (r1 : coordinate rho ≤ gR.max)
    (t0 : gT.min ≤ coordinate T) (t1 : coordinate T ≤ gT.max) :
    ∃ (κ : ℕ → ℝ) (L : ℝ),
      (∀ N, 2 ≤ N → MGTables.GroupCoefficient_ (lk N) (.fin rho) (.fin T) g = ok (.fin (rho * κ N))) ∧
      Tendsto κ atTop (𝓝 L) ∧
      (∀ lo hi : ℝ, 0 < lo → (∀ i j : ℕ, (i : ℤ) < gR.N → (j : ℤ) < gT.N → lo ≤ KL i j ∧ KL i j ≤ hi) → lo ≤ L ∧ L ≤ hi) ∧
      (∀ i j : ℕ, (i : ℤ) < gR.N → (j : ℤ) < gT.N → coordinate rho = node gR i → coordinate T = node gT j → L = KL i j) := by
  obtain ⟨i, hi', a0, a1⟩ := cell_exists gR hNR hR r0 r1
  obtain ⟨j, hj', b0, b1⟩ := cell_exists gT hNT hT t0 t1
  obtain ⟨s, u, s0, s1, u0, u1, hs, hu, e⟩ := lookup_value hNR hNT hR hT hi' hj' a0 a1 b0 b1
  refine ⟨fun N => 10 ^ bilinear s u (fun i j => Real.logb 10 (K N i j)) i j,
    10 ^ bilinear s u (fun i j => Real.logb 10 (KL i j)) i j,
    fun N hN => e (lk N) g (K N) (h2 N hN) (h1 N hN) (hread N hN), ?_, ?_, ?_⟩
  · have hl : ∀ a b : ℕ, (a : ℤ) < gR.N → (b : ℤ) < gT.N →
        Tendsto (fun N => Real.logb 10 (K N a b)) atTop (𝓝 (Real.logb 10 (KL a b))) := by
      intro a b ha hb
      obtain ⟨h3, h4⟩ := hlim a b ha hb
      exact (h3.log h4.ne').div_const _
    have hbil : Tendsto (fun N => bilinear s u (fun i j => Real.logb 10 (K N i j)) i j) atTop
        (𝓝 (bilinear s u (fun i j => Real.logb 10 (KL i j)) i j)) := by
      unfold bilinear
      exact ((((hl i j (by omega) (by omega)).const_mul _).add ((hl i (j + 1) (by omega) (by omega)).const_mul _)).const_mul _).add
        ((((hl (i + 1) j (by omega) (by omega)).const_mul _).add ((hl (i + 1) (j + 1) (by omega) (by omega)).const_mul _)).const_mul _)
    exact ((Real.continuous_const_rpow (by norm_num)).tendsto _).comp hbil
  · intro lo hi hlo hK
    have hb := bilinear_bounds s0 s1 u0 u1 (L := fun i j => Real.logb 10 (KL i j)) (i := i) (j := j)
      (lo := Real.logb 10 lo) (hi := Real.logb 10 hi) (by
        intro a b ha hb
        have := hK a b (by omega) (by omega)
        exact ⟨Real.logb_le_logb_of_le (by norm_num) hlo this.1,
          Real.logb_le_logb_of_le (by norm_num) (by linarith [this.1]) this.2⟩)
    have hhi : 0 < hi := by have := hK i j (by omega) (by omega); linarith [this.1, this.2]
    constructor
    · calc lo = 10 ^ Real.logb 10 lo := (Real.rpow_logb (by norm_num) (by norm_num) hlo).symm
        _ ≤ _ := Real.rpow_le_rpow_of_exponent_le (by norm_num) hb.1
    · calc _ ≤ (10 : ℝ) ^ Real.logb 10 hi := Real.rpow_le_rpow_of_exponent_le (by norm_num) hb.2
        _ = hi := Real.rpow_logb (by norm_num) (by norm_num) hhi
  · -- at a node, the position in the cell is a corner
    intro i' j' hi2 hj2 hri hTj
    have corner : ∀ (G : Grid ℝ) (m m' : ℕ) (x s : ℝ), 2 ≤ G.N → G.min < G.max → node G m ≤ x → x ≤ node G (m + 1) →
        s = (x - node G m) / G.dx → x = node G m' → (s = 0 ∧ m' = m) ∨ (s = 1 ∧ m' = m + 1) := by
      intro G m m' x s hN hlt x0 x1 hs hx
      have hdx := dx_pos G hN hlt
      have en : ∀ m : ℕ, node G m = G.min + m * G.dx := by intro m; rw [dx_eq]; rfl
      have h3 : m ≤ m' := by
        rw [hx, en, en] at x0
        by_contra hcon
        have : (m' : ℝ) + 1 ≤ m := by exact_mod_cast (by omega : m' + 1 ≤ m)
        nlinarith
      have h4 : m' ≤ m + 1 := by
        rw [hx, en, en] at x1
        by_contra hcon
        have : ((m + 1 : ℕ) : ℝ) + 1 ≤ m' := by exact_mod_cast (by omega : m + 1 + 1 ≤ m')
        nlinarith
      rcases (by omega : m' = m ∨ m' = m + 1) with rfl | rfl
      · left
        exact ⟨by rw [hs, hx, sub_self, zero_div], rfl⟩
      · right
        refine ⟨?_, rfl⟩
        rw [hs, hx, en, en, div_eq_one_iff_eq hdx.ne']
        push_cast; ring
    have fin : bilinear s u (fun i j => Real.logb 10 (KL i j)) i j = Real.logb 10 (KL i' j') := by
      unfold bilinear
      rcases corner gR i i' _ s hNR hR a0 a1 hs hri with ⟨rfl, rfl⟩ | ⟨rfl, rfl⟩ <;>
      rcases corner gT j j' _ u hNT hT b0 b1 hu hTj with ⟨rfl, rfl⟩ | ⟨rfl, rfl⟩ <;> ring
    rw [fin]
    exact Real.rpow_logb (by norm_num) (by norm_num) (hlim i' j' hi2 hj2).2

/-- the sampled part of a group -/
theorem sampled_part (hh : 0 < h) (hk : 0 < k) {T lo : ℝ} {up : Option ℝ} (hT : 0 < T) (hlo : 0 ≤ lo)
    (hup : ∀ x ∈ up, lo < x) :
    0 < groupFrom Robust.SMALL h k T lo up ∧ groupFrom Robust.SMALL h k T lo up < groupTo Robust.SMALL h k T lo up := by
  have hS := SMALL_pos
  have := group_pos (N := 1) hh hk hT hlo hup one_pos
  unfold groupFrom groupTo
  exact ⟨by linarith [this.1], by linarith [this.2.1]⟩

/-- **C66 (what part of a group is sampled)**: the whole group, if its bounds are within a factor ten of the thermal range
from `10⁻³ kT/h` to `10³ kT/h`.  (Both ends are shifted by the floor `SMALL`.) -/
theorem C66_whole_group {T lo hi : ℝ} (h1 : 0 < lo) (h2 : lo < hi) (h3 : 0.1 * (1e-3 * k * T / h) ≤ lo)
    (h4 : hi ≤ 10 * (1e3 * k * T / h)) :
    groupFrom Robust.SMALL h k T lo (some hi) = lo + Robust.SMALL ∧
    groupTo Robust.SMALL h k T lo (some hi) = hi + Robust.SMALL := by
  unfold groupFrom groupTo groupWindow window
  simp only
  have e1 : ¬ (lo = 0 ∨ lo < 0.1 * (1e-3 * k * T / h)) := by rintro (h | h) <;> linarith
  have e2 : ¬ 10 * (1e3 * k * T / h) < hi := by linarith
  rw [if_neg e1, if_neg e2, if_neg (by linarith)]
  exact ⟨rfl, rfl⟩

/-- **C66 (Planck mean)**: let the absorption or scattering coefficient depend continuously on the frequency.  At every
state inside the table, the Planck group opacity tends to a limit as the number of frequencies per group grows.  At a node
of the table the limit is the quotient of the integrals over the sampled part of the group, up to the floor.  Between the
nodes, bounds on these quotients bound the limit. -/
theorem C66_planck (hm : ∀ N, 2 ≤ N → MeansOf h k c α lRhoMin lRhoMax NRho lTMin lTMax NT b n N (qP N) (qR N))
    (hα : ∀ ρ T ν, 0 < ρ → 0 < T → 0 < ν → 0 ≤ α ρ T ν)
    (hcont : ∀ ρ T, 0 < ρ → 0 < T → ContinuousOn (α ρ T) (Set.Ioi 0)) (hNR : 2 ≤ NRho) (hNT : 2 ≤ NT)
    (hlR : lRhoMin < lRhoMax) (hlT : lTMin < lTMax) {g : ℕ} (hg : g < n) {lo : ℝ} {up : Option ℝ} (hgr : GroupIs b g lo up)
    {rho T : ℝ} (hin : Inside lRhoMin lRhoMax lTMin lTMax rho T) :
    ∃ (κ : ℕ → ℝ) (L : ℝ), (∀ N, 2 ≤ N → qP N (.fin rho) (.fin T) g = ok (.fin (rho * κ N))) ∧ Tendsto κ atTop (𝓝 L) ∧
      (∀ κmin κmax : ℝ, 0 ≤ κmin → (∀ i j : ℕ, (i : ℤ) < NRho → (j : ℤ) < NT → ∀ ρ' T' : ℝ, ρ' = nodeValue lRhoMin lRhoMax NRho i →
          T' = nodeValue lTMin lTMax NT j →
          κmin ≤ planckIntegralMean Robust.SMALL h k c ρ' T' lo up (α ρ' T') ∧
            planckIntegralMean Robust.SMALL h k c ρ' T' lo up (α ρ' T') ≤ κmax) →
        κmin + Robust.SMALL ≤ L ∧ L ≤ κmax + Robust.SMALL) ∧
      (∀ i j : ℕ, (i : ℤ) < NRho → (j : ℤ) < NT → ∀ ρ' T' : ℝ, ρ' = nodeValue lRhoMin lRhoMax NRho i →
          T' = nodeValue lTMin lTMax NT j → coordinate rho = Real.logb 10 ρ' → coordinate T = Real.logb 10 T' →
        L = planckIntegralMean Robust.SMALL h k c ρ' T' lo up (α ρ' T') + Robust.SMALL) := by
  have hS := SMALL_pos
  have hav : ∀ N, 2 ≤ N → ∃ t, Averaged h k c α lRhoMin lRhoMax NRho lTMin lTMax NT b n N t ∧ qP N = t.PlanckGroupCoefficient ∧
      t.lPlanck.grid 2 = xrGrid ⟨lRhoMin, lRhoMax, NRho⟩ ∧ t.lPlanck.grid 1 = xrGrid ⟨lTMin, lTMax, NT⟩ := by
    intro N hN
    obtain ⟨t, A, e, -, g2, g1, -, -⟩ := (hm N hN).averaged hα hNR hNT
    exact ⟨t, A, e, g2, g1⟩
  haveI : Nonempty (MGTables XR) := ⟨(hav 2 (le_refl 2)).choose⟩
  choose! t A e g2 g1 using hav
  obtain ⟨-, -, hh, hk, hc⟩ := (A 2 (le_refl 2)).bounds
  have hpos : ∀ i j : ℕ, 0 ≤ planckIntegralMean Robust.SMALL h k c (nodeValue lRhoMin lRhoMax NRho i) (nodeValue lTMin lTMax NT j)
      lo up (α (nodeValue lRhoMin lRhoMax NRho i) (nodeValue lTMin lTMax NT j)) := by
    intro i j
    have hρ0 := nodeValue_pos lRhoMin lRhoMax NRho i
    have hT0 := nodeValue_pos lTMin lTMax NT j
    obtain ⟨p1, p2⟩ := sampled_part hh hk hT0 hgr.2.2.1 hgr.2.2.2
    have hl10 : 0 < Real.log 10 := Real.log_pos (by norm_num)
    unfold planckIntegralMean
    refine div_nonneg (intervalIntegral.integral_nonneg p2.le ?_) (add_nonneg (intervalIntegral.integral_nonneg p2.le ?_) (by positivity))
    · intro u hu
      have hu0 := lt_of_lt_of_le p1 hu.1
      exact mul_nonneg (div_nonneg (hα _ _ _ hρ0 hT0 hu0) hρ0.le) (planckWeight_pos hh hk hc hT0 hu0).le
    · intro u hu
      exact (planckWeight_pos hh hk hc hT0 (lt_of_lt_of_le p1 hu.1)).le
  obtain ⟨κ, L, h1, h2, h3, h4⟩ := lookup_tendsto (lk := fun N => (t N).lPlanck) (gR := ⟨lRhoMin, lRhoMax, NRho⟩)
    (gT := ⟨lTMin, lTMax, NT⟩) g2 g1 hNR hNT hlR hlT (g := g)
    (K := fun N i j => groupPlanckMean Robust.SMALL h k c (nodeValue lRhoMin lRhoMax NRho i) (nodeValue lTMin lTMax NT j) lo up N
      (α (nodeValue lRhoMin lRhoMax NRho i) (nodeValue lTMin lTMax NT j)) + Robust.SMALL)
    (KL := fun i j => planckIntegralMean Robust.SMALL h k c (nodeValue lRhoMin lRhoMax NRho i) (nodeValue lTMin lTMax NT j) lo up
      (α (nodeValue lRhoMin lRhoMax NRho i) (nodeValue lTMin lTMax NT j)) + Robust.SMALL)
    (fun N hN i j hi hj => ((A N hN).read hi hj hgr hg rfl rfl).1)
    (fun i j _ _ => by
      obtain ⟨p1, p2⟩ := sampled_part hh hk (nodeValue_pos lTMin lTMax NT j) hgr.2.2.1 hgr.2.2.2
      refine ⟨(Convergence.groupPlanck_tendsto hh hk hc hS (nodeValue_pos _ _ _ _) p1 p2
        (hcont _ _ (nodeValue_pos _ _ _ _) (nodeValue_pos _ _ _ _))).add_const _, ?_⟩
      have := hpos i j
      linarith) hin.1 hin.2 hin.3 hin.4
  refine ⟨κ, L, fun N hN => by rw [e N hN]; exact h1 N hN, h2, ?_, ?_⟩
  · intro κmin κmax h0 hb
    exact h3 _ _ (by linarith) fun i j hi hj => by have := hb i j hi hj _ _ rfl rfl; exact ⟨by linarith, by linarith⟩
  · rintro i j hi hj ρ' T' rfl rfl hr hT'
    refine h4 i j hi hj ?_ ?_
    · rw [hr]; unfold nodeValue node; exact Real.logb_rpow (by norm_num) (by norm_num)
    · rw [hT']; unfold nodeValue node; exact Real.logb_rpow (by norm_num) (by norm_num)

/-- **C66 (Rosseland mean)**: the same for the Rosseland group opacity of a continuous coefficient that is above the floor
on the sampled part of the group, if the two integrals are above the floor as well -/
theorem C66_rosseland (hm : ∀ N, 2 ≤ N → MeansOf h k c α lRhoMin lRhoMax NRho lTMin lTMax NT b n N (qP N) (qR N))
    (hα : ∀ ρ T ν, 0 < ρ → 0 < T → 0 < ν → 0 ≤ α ρ T ν)
    (hcont : ∀ ρ T, 0 < ρ → 0 < T → ContinuousOn (α ρ T) (Set.Ioi 0)) (hNR : 2 ≤ NRho) (hNT : 2 ≤ NT)
    (hlR : lRhoMin < lRhoMax) (hlT : lTMin < lTMax) {g : ℕ} (hg : g < n) {lo : ℝ} {up : Option ℝ} (hgr : GroupIs b g lo up)
    (habove : ∀ i j : ℕ, (i : ℤ) < NRho → (j : ℤ) < NT → ∀ ρ' T' A B : ℝ, ρ' = nodeValue lRhoMin lRhoMax NRho i →
      T' = nodeValue lTMin lTMax NT j → A = groupFrom Robust.SMALL h k T' lo up → B = groupTo Robust.SMALL h k T' lo up →
      (∀ ν, A < ν → ν < B → Robust.SMALL < α ρ' T' ν) ∧
      Robust.SMALL * Real.log 10 < ∫ ν in A..B, rosselandWeight h k c T' ν ∧
      Robust.SMALL * Real.log 10 < ∫ ν in A..B, ρ' / (α ρ' T' ν + Robust.SMALL) * rosselandWeight h k c T' ν)
    {rho T : ℝ} (hin : Inside lRhoMin lRhoMax lTMin lTMax rho T) :
    ∃ (κ : ℕ → ℝ) (L : ℝ), (∀ N, 2 ≤ N → qR N (.fin rho) (.fin T) g = ok (.fin (rho * κ N))) ∧ Tendsto κ atTop (𝓝 L) ∧
      (∀ κmin κmax : ℝ, 0 ≤ κmin → (∀ i j : ℕ, (i : ℤ) < NRho → (j : ℤ) < NT → ∀ ρ' T' : ℝ, ρ' = nodeValue lRhoMin lRhoMax NRho i →
          T' = nodeValue lTMin lTMax NT j →
          κmin ≤ rosselandIntegralMean Robust.SMALL h k c ρ' T' lo up (α ρ' T') ∧
            rosselandIntegralMean Robust.SMALL h k c ρ' T' lo up (α ρ' T') ≤ κmax) →
        κmin + Robust.SMALL ≤ L ∧ L ≤ κmax + Robust.SMALL) ∧
      (∀ i j : ℕ, (i : ℤ) < NRho → (j : ℤ) < NT → ∀ ρ' T' : ℝ, ρ' = nodeValue lRhoMin lRhoMax NRho i →
          T' = nodeValue lTMin lTMax NT j → coordinate rho = Real.logb 10 ρ' → coordinate T = Real.logb 10 T' →
        L = rosselandIntegralMean Robust.SMALL h k c ρ' T' lo up (α ρ' T') + Robust.SMALL) := by
  have hS := SMALL_pos
  have hl10 : 0 < Real.log 10 := Real.log_pos (by norm_num)
  have hav : ∀ N, 2 ≤ N → ∃ t, Averaged h k c α lRhoMin lRhoMax NRho lTMin lTMax NT b n N t ∧
      qR N = t.RosselandGroupCoefficient ∧
      t.lRosseland.grid 2 = xrGrid ⟨lRhoMin, lRhoMax, NRho⟩ ∧ t.lRosseland.grid 1 = xrGrid ⟨lTMin, lTMax, NT⟩ := by
    intro N hN
    obtain ⟨t, A, -, e, -, -, g2, g1⟩ := (hm N hN).averaged hα hNR hNT
    exact ⟨t, A, e, g2, g1⟩
  haveI : Nonempty (MGTables XR) := ⟨(hav 2 (le_refl 2)).choose⟩
  choose! t A e g2 g1 using hav
  obtain ⟨-, -, hh, hk, hc⟩ := (A 2 (le_refl 2)).bounds
  obtain ⟨κ, L, h1, h2, h3, h4⟩ := lookup_tendsto (lk := fun N => (t N).lRosseland) (gR := ⟨lRhoMin, lRhoMax, NRho⟩)
    (gT := ⟨lTMin, lTMax, NT⟩) g2 g1 hNR hNT hlR hlT (g := g)
    (K := fun N i j => groupRosselandMean Robust.SMALL h k c (nodeValue lRhoMin lRhoMax NRho i) (nodeValue lTMin lTMax NT j) lo up N
      (α (nodeValue lRhoMin lRhoMax NRho i) (nodeValue lTMin lTMax NT j)) + Robust.SMALL)
    (KL := fun i j => rosselandIntegralMean Robust.SMALL h k c (nodeValue lRhoMin lRhoMax NRho i) (nodeValue lTMin lTMax NT j) lo up
      (α (nodeValue lRhoMin lRhoMax NRho i) (nodeValue lTMin lTMax NT j)) + Robust.SMALL)
    (fun N hN i j hi hj => ((A N hN).read hi hj hgr hg rfl rfl).2.1)
    (fun i j hi hj => by
      obtain ⟨p1, p2⟩ := sampled_part hh hk (nodeValue_pos lTMin lTMax NT j) hgr.2.2.1 hgr.2.2.2
      obtain ⟨q1, q2, q3⟩ := habove i j hi hj _ _ _ _ rfl rfl rfl rfl
      refine ⟨(Convergence.groupRosseland_tendsto hh hk hc hS (nodeValue_pos _ _ _ _) p1 p2
        (hcont _ _ (nodeValue_pos _ _ _ _) (nodeValue_pos _ _ _ _))
        (fun ν hν => hα _ _ ν (nodeValue_pos _ _ _ _) (nodeValue_pos _ _ _ _) hν) q1 q2 q3).add_const _, ?_⟩
      have hσ : 0 < Robust.SMALL * Real.log 10 := by positivity
      have : 0 ≤ rosselandIntegralMean Robust.SMALL h k c (nodeValue lRhoMin lRhoMax NRho i) (nodeValue lTMin lTMax NT j) lo up
          (α (nodeValue lRhoMin lRhoMax NRho i) (nodeValue lTMin lTMax NT j)) := by
        unfold rosselandIntegralMean
        exact div_nonneg (by linarith) (by linarith)
      linarith) hin.1 hin.2 hin.3 hin.4
  refine ⟨κ, L, fun N hN => by rw [e N hN]; exact h1 N hN, h2, ?_, ?_⟩
  · intro κmin κmax h0 hb
    exact h3 _ _ (by linarith) fun i j hi hj => by have := hb i j hi hj _ _ rfl rfl; exact ⟨by linarith, by linarith⟩
  · rintro i j hi hj ρ' T' rfl rfl hr hT'
    refine h4 i j hi hj ?_ ?_
    · rw [hr]; unfold nodeValue node; exact Real.logb_rpow (by norm_num) (by norm_num)
    · rw [hT']; unfold nodeValue node; exact Real.logb_rpow (by norm_num) (by norm_num)

/-- **C66 (against the exact means)**: the quotients of integrals in `C66_planck` and `C66_rosseland` are the Planck and
Rosseland means with Planck's law over the sampled part of the group, up to a factor between
`(1 - e⁻⁸⁰)² / (1 + ε)` and `(1 + ε) / (1 - e⁻⁸⁰)²`, where `ε` bounds the floor relative to the integrals and to the
coefficient -/
theorem C66_exact (hh : 0 < h) (hk : 0 < k) (hc : 0 < c) {ρ T lo : ℝ} {up : Option ℝ} (hρ : 0 < ρ) (hT : 0 < T)
    (hlo : 0 ≤ lo) (hup : ∀ x ∈ up, lo < x) {κ : ℝ → ℝ} (hκ : ContinuousOn κ (Set.Ioi 0)) (hpos : ∀ ν, 0 < ν → 0 < κ ν)
    {A B ε : ℝ} (hA : A = groupFrom Robust.SMALL h k T lo up) (hB : B = groupTo Robust.SMALL h k T lo up)
    (h1 : Robust.SMALL * Real.log 10 ≤ ε * ∫ ν in A..B, planckLaw h k c T ν)
    (h2 : Robust.SMALL * Real.log 10 ≤ ε * ∫ ν in A..B, ρ / κ ν * planckLawDT h k c T ν)
    (h3 : ∀ ν ∈ Set.Icc A B, Robust.SMALL ≤ ε * κ ν) :
    ((1 - Real.exp (-80)) / (1 + ε) * planckMeanOf h k c ρ T A B κ ≤ planckIntegralMean Robust.SMALL h k c ρ T lo up κ ∧
      planckIntegralMean Robust.SMALL h k c ρ T lo up κ ≤ 1 / (1 - Real.exp (-80)) * planckMeanOf h k c ρ T A B κ) ∧
    ((1 - Real.exp (-80)) ^ 2 / (1 + ε) * rosselandMeanOf h k c ρ T A B κ ≤
        rosselandIntegralMean Robust.SMALL h k c ρ T lo up κ ∧
      rosselandIntegralMean Robust.SMALL h k c ρ T lo up κ ≤
        (1 + ε) / (1 - Real.exp (-80)) ^ 2 * rosselandMeanOf h k c ρ T A B κ) := by
  have hS := SMALL_pos
  obtain ⟨p1, p2⟩ := sampled_part hh hk hT hlo hup
  subst hA hB
  exact ⟨Convergence.planckIntegral_near hh hk hc hS hρ hT p1 p2 hκ (fun ν hν => (hpos ν hν).le) h1,
    Convergence.rosselandIntegral_near hh hk hc hS hρ hT p1 p2 hκ hpos h3 h2⟩

end

/-- the coefficient of electron–proton bremsstrahlung as a function of the state, and its total emission -/
theorem bremsstrahlung_law {pc : PC XR} {h k c me mp qe : ℝ} (hpc : FinitePC pc h k c) (h1 : pc.me = .fin me)
    (h2 : pc.mp = .fin mp) (h3 : pc.qe = .fin qe) (hme : 0 < me) (hmp : 0 < mp) (hqe : 0 < qe) :
    ∃ α : ℝ → ℝ → ℝ → ℝ,
      (∃ K : ℝ, 0 < K ∧ ∀ ρ T ν, 0 < T → α ρ T ν = K * ρ ^ 2 / Real.sqrt T * Real.exp (-(h * ν / (k * T))) /
        (planckLaw h k c T ν + Robust.SMALL)) ∧
      (∀ ρ T ν : ℝ, 0 < ρ → 0 < T → 0 < ν → PhotonAPI.AbsorptionCoefficient (EPBremsstrahlungOpacity.mk pc) (XR.fin ρ) (XR.fin T)
        (XR.fin ν) = XR.fin (α ρ T ν)) ∧
      (∀ ρ T ν, 0 < ρ → 0 < T → 0 < ν → 0 < α ρ T ν) ∧
      (∀ ρ T, 0 < ρ → 0 < T → ContinuousOn (α ρ T) (Set.Ioi 0)) ∧
      ∀ ρ T, 0 < ρ → 0 < T → ∃ C : ℝ, 0 < C ∧
        (∀ ν, α ρ T ν = C * Real.exp (-(h * ν / (k * T))) / (planckLaw h k c T ν + Robust.SMALL)) ∧
        PhotonAPI.Emissivity (EPBremsstrahlungOpacity.mk pc) (XR.fin ρ) (XR.fin T) =
          ok (XR.fin (4 * Real.pi * C * (k * T / h))) := by
  have hh := hpc.h_pos; have hk := hpc.k_pos; have hc := hpc.c_pos
  have hS := SMALL_pos
  obtain ⟨P, hP⟩ : ∃ P : ℝ, P = 8 * qe ^ (6 : ℝ) / (3 * (me * c * c) ^ (2 : ℝ)) * Real.sqrt (2 * Real.pi / 3) := ⟨_, rfl⟩
  have hP0 : 0 < P := by rw [hP]; positivity
  have eP : (EPBremsstrahlungOpacity.mk pc).prefac_ = XR.fin P := by
    unfold EPBremsstrahlungOpacity.prefac_
    simp only [hpc.c_eq, h1, h3, axr]
    rw [XR.fin_pow hqe, XR.fin_pow (by positivity)]
    simp only [axr]
    have e1 : Arith.sqrt (XR.fin (((2 : ℚ) : ℝ) * Real.pi) / XR.fin ((3 : ℚ) : ℝ) : XR) = XR.fin (Real.sqrt (2 * Real.pi / 3)) := by
      rw [XR.fin_div (by norm_num)]
      show (if 0 ≤ _ then _ else _) = _
      rw [if_pos (by positivity)]
      norm_num
    rw [e1, XR.fin_div (by push_cast; positivity), hP]
    simp only [axr]
    norm_num
  refine ⟨fun ρ T ν => P / Real.sqrt (k * T / (me * c * c)) * (ρ / ((mp + me) / 2) / 2) * (ρ / ((mp + me) / 2) / 2) *
    Real.exp (-(h * ν / (k * T))) * (6 / 5) / (planckLaw h k c T ν + Robust.SMALL), ?_, ?_, ?_, ?_, ?_⟩
  · refine ⟨P / Real.sqrt (k / (me * c * c)) * (1 / ((mp + me) / 2) / 2) ^ 2 * (6 / 5), by positivity, fun ρ T ν hT => ?_⟩
    beta_reduce
    rw [show k * T / (me * c * c) = k / (me * c * c) * T by ring, Real.sqrt_mul (by positivity)]
    have h1 : Real.sqrt (k / (me * c * c)) ≠ 0 := by positivity
    have h2 : Real.sqrt T ≠ 0 := by positivity
    congr 1
    field_simp
  · intro ρ T ν hρ hT hν
    have hx : 0 < h * ν / (k * T) := by positivity
    have ex : (XR.fin h * XR.fin ν / (XR.fin k * XR.fin T) : XR) = .fin (h * ν / (k * T)) := by
      simp only [axr]; rw [XR.fin_div (by positivity)]
    have hB : Planck.ThermalDistributionOfTNu pc (.fin T) (.fin ν) = XR.fin (planckLaw h k c T ν) := by
      have hE : Real.exp (h * ν / (k * T)) - 1 ≠ 0 := by
        have := Real.add_one_lt_exp hx.ne'
        linarith
      unfold Planck.ThermalDistributionOfTNu planckLaw
      simp only [hpc.h_eq, hpc.k_eq, hpc.c_eq, ex]
      simp only [axr]
      rw [XR.fin_div (by positivity)]
      simp only [axr]
      rw [XR.fin_div hE]
      congr 1
      push_cast
      ring
    have hj : (EPBremsstrahlungOpacity.mk pc).EmissivityPerNuOmega (.fin ρ) (.fin T) (.fin ν) =
        XR.fin (P / Real.sqrt (k * T / (me * c * c)) * (ρ / ((mp + me) / 2) / 2) * (ρ / ((mp + me) / 2) / 2) *
          Real.exp (-(h * ν / (k * T))) * (6 / 5)) := by
      unfold EPBremsstrahlungOpacity.EmissivityPerNuOmega EPBremsstrahlungOpacity.mmw_ EPBremsstrahlungOpacity.gff_
      rw [eP]
      simp only [hpc.h_eq, hpc.k_eq, hpc.c_eq, h1, h2, ex]
      simp only [axr]
      have q1 : Arith.sqrt (XR.fin (k * T) / XR.fin (me * c * c) : XR) = XR.fin (Real.sqrt (k * T / (me * c * c))) := by
        rw [XR.fin_div (by positivity)]
        show (if 0 ≤ _ then _ else _) = _
        rw [if_pos (by positivity)]
      have q2 : (XR.fin ρ / (XR.fin (mp + me) / XR.fin ((2 : ℚ) : ℝ)) / XR.fin ((2 : ℚ) : ℝ) : XR) =
          XR.fin (ρ / ((mp + me) / 2) / 2) := by
        rw [XR.fin_div (by norm_num), XR.fin_div (by push_cast; positivity), XR.fin_div (by norm_num)]
        norm_num
      rw [q1, q2, XR.fin_div (Real.sqrt_pos.2 (by positivity)).ne']
      simp only [axr]
      norm_num
    show Planck.AbsorptionCoefficientFromKirchhoff pc _ _ _ _ = _
    unfold Planck.AbsorptionCoefficientFromKirchhoff
    simp only
    rw [hB, hj, XR.fin_ratio (Convergence.planckWeight_near hh hk hc hT hν).2.2.le]
  · intro ρ T ν hρ hT hν
    have := (Convergence.planckWeight_near hh hk hc hT hν).2.2
    have := Real.sqrt_pos.2 (show 0 < k * T / (me * c * c) by positivity)
    positivity
  · intro ρ T hρ hT
    refine ContinuousOn.div (by fun_prop) ((Convergence.cont_planckLaw hh hk hc hT).add_const _) ?_
    intro ν hν
    have := (Convergence.planckWeight_near hh hk hc hT (show 0 < ν from hν)).2.2
    linarith
  · intro ρ T hρ hT
    have hs := Real.sqrt_pos.2 (show 0 < k * T / (me * c * c) by positivity)
    refine ⟨P / Real.sqrt (k * T / (me * c * c)) * (ρ / ((mp + me) / 2) / 2) * (ρ / ((mp + me) / 2) / 2) * (6 / 5),
      by positivity, fun ν => by ring, ?_⟩
    show ok (EPBremsstrahlungOpacity.Emissivity _ _ _) = _
    unfold EPBremsstrahlungOpacity.Emissivity EPBremsstrahlungOpacity.mmw_ EPBremsstrahlungOpacity.gff_
    rw [eP]
    simp only [hpc.h_eq, hpc.k_eq, hpc.c_eq, h1, h2]
    simp only [axr]
    have q1 : Arith.sqrt (XR.fin (k * T) / XR.fin (me * c * c) : XR) = XR.fin (Real.sqrt (k * T / (me * c * c))) := by
      rw [XR.fin_div (by positivity)]
      show (if 0 ≤ _ then _ else _) = _
      rw [if_pos (by positivity)]
    have q2 : (XR.fin ρ / (XR.fin (mp + me) / XR.fin ((2 : ℚ) : ℝ)) / XR.fin ((2 : ℚ) : ℝ) : XR) =
        XR.fin (ρ / ((mp + me) / 2) / 2) := by
      rw [XR.fin_div (by norm_num), XR.fin_div (by push_cast; positivity), XR.fin_div (by norm_num)]
      norm_num
    rw [q1, q2, XR.fin_div hh.ne']
    simp only [axr]
    rw [XR.fin_div hs.ne']
    simp only [axr]
    congr 2
    push_cast
    field_simp
    norm_num

/-- the coefficient of electron–proton bremsstrahlung, and its total emission -/
theorem bremsstrahlung_coef {pc : PC XR} {h k c me mp qe : ℝ} (hpc : FinitePC pc h k c) (h1 : pc.me = .fin me)
    (h2 : pc.mp = .fin mp) (h3 : pc.qe = .fin qe) (hme : 0 < me) (hmp : 0 < mp) (hqe : 0 < qe) :
    ∃ α : ℝ → ℝ → ℝ → ℝ,
      (∀ ρ T ν : ℝ, 0 < ρ → 0 < T → 0 < ν → PhotonAPI.AbsorptionCoefficient (EPBremsstrahlungOpacity.mk pc) (XR.fin ρ) (XR.fin T)
        (XR.fin ν) = XR.fin (α ρ T ν)) ∧
      (∀ ρ T ν, 0 < ρ → 0 < T → 0 < ν → 0 < α ρ T ν) ∧
      (∀ ρ T, 0 < ρ → 0 < T → ContinuousOn (α ρ T) (Set.Ioi 0)) ∧
      ∀ ρ T, 0 < ρ → 0 < T → ∃ C : ℝ, 0 < C ∧
        (∀ ν, α ρ T ν = C * Real.exp (-(h * ν / (k * T))) / (planckLaw h k c T ν + Robust.SMALL)) ∧
        PhotonAPI.Emissivity (EPBremsstrahlungOpacity.mk pc) (XR.fin ρ) (XR.fin T) =
          ok (XR.fin (4 * Real.pi * C * (k * T / h))) := by
  obtain ⟨α, -, h⟩ := bremsstrahlung_law hpc h1 h2 h3 hme hmp hqe
  exact ⟨α, h⟩

/-- electron–proton bremsstrahlung has a continuous coefficient, so that C66 holds for its tables -/
theorem C66_bremsstrahlung {pc : PC XR} {h k c me mp qe : ℝ} (hpc : FinitePC pc h k c) (h1 : pc.me = .fin me)
    (h2 : pc.mp = .fin mp) (h3 : pc.qe = .fin qe) (hme : 0 < me) (hmp : 0 < mp) (hqe : 0 < qe) :
    ∃ α : ℝ → ℝ → ℝ → ℝ,
      (∀ ρ T ν : ℝ, 0 < ρ → 0 < T → 0 < ν → PhotonAPI.AbsorptionCoefficient (EPBremsstrahlungOpacity.mk pc) (XR.fin ρ) (XR.fin T)
        (XR.fin ν) = XR.fin (α ρ T ν)) ∧
      (∀ ρ T ν, 0 < ρ → 0 < T → 0 < ν → 0 < α ρ T ν) ∧
      ∀ ρ T, 0 < ρ → 0 < T → ContinuousOn (α ρ T) (Set.Ioi 0) := by
  obtain ⟨α, a1, a2, a3, -⟩ := bremsstrahlung_coef hpc h1 h2 h3 hme hmp hqe
  exact ⟨α, a1, a2, a3⟩

theorem inside_example : Inside 0 1 0 1 2 3 := by
  have hS := SMALL_pos
  have hS' := SMALL_tiny
  norm_num at hS'
  have l : ∀ x : ℝ, 1 ≤ x → x ≤ 10 → 0 ≤ Real.logb 10 x ∧ Real.logb 10 x ≤ 1 := by
    intro x h1 h2
    exact ⟨Real.logb_nonneg (by norm_num) h1, by
      calc Real.logb 10 x ≤ Real.logb 10 10 := Real.logb_le_logb_of_le (by norm_num) (by linarith) h2
        _ = 1 := by norm_num⟩
  have l2 := l (|2| + Robust.SMALL) (by norm_num; linarith) (by norm_num; linarith)
  have l3 := l (|3| + Robust.SMALL) (by norm_num; linarith) (by norm_num; linarith)
  exact ⟨l2.1, l2.2, l3.1, l3.2⟩

/-- the hypotheses of `C66_planck` are met by bremsstrahlung tables with unit constants, densities and temperatures from 1
to 10 and the group `[1, 2]`, at the state `(2, 3)` -/
example : ∃ (α : ℝ → ℝ → ℝ → ℝ) (qP qR : ℕ → XR → XR → ℤ → Outcome XR),
    (∀ N, 2 ≤ N → MeansOf 1 1 1 α 0 1 2 0 1 2 [.fin 1, .fin 2] 1 N (qP N) (qR N)) ∧
    (∀ ρ T ν, 0 < ρ → 0 < T → 0 < ν → 0 ≤ α ρ T ν) ∧ (∀ ρ T, 0 < ρ → 0 < T → ContinuousOn (α ρ T) (Set.Ioi 0)) ∧
    GroupIs [.fin 1, .fin 2] 0 1 (some 2) ∧ Inside 0 1 0 1 2 3 := by
  obtain ⟨hb, hgr⟩ := oneGroup (lo := 1) (hi := 2) (by norm_num) (by norm_num)
  obtain ⟨α, a1, a2, a3⟩ := C66_bremsstrahlung (pc := onesPC) (me := 1) (mp := 1) (qe := 1) onesPC_finite rfl rfl rfl one_pos
    one_pos one_pos
  have ht : ∀ N : ℕ, 2 ≤ N → ∃ o, MeanOpacityBase.construct onesPC (fun _ => XR.fin 0) (EPBremsstrahlungOpacity.mk onesPC)
      (.fin 0) (.fin 1) 2 (.fin 0) (.fin 1) 2 [.fin 1, .fin 2] (1 : ℕ) N = ok o := by
    intro N hN
    obtain ⟨t, e, -⟩ := averaged_exists onesPC_finite (α := α)
      (coef := PhotonAPI.AbsorptionCoefficient (EPBremsstrahlungOpacity.mk onesPC))
      (fun ρ T ν h1 h2 h3 => (a2 ρ T ν h1 h2 h3).le) a1 0 1 (NRho := 2) (by norm_num) 0 1 (NT := 2) (by norm_num) hb hN
      (fun _ => .fin 0)
    exact ⟨⟨onesPC, t⟩, by unfold MeanOpacityBase.construct; rw [e]; rfl⟩
  haveI : Nonempty (MeanOpacityBase XR) := ⟨(ht 2 (le_refl 2)).choose⟩
  choose! o ho using ht
  exact ⟨α, fun N => MeanPhotonAPI.PlanckGroupAbsorptionCoefficient (o N),
    fun N => MeanPhotonAPI.RosselandGroupAbsorptionCoefficient (o N),
    fun N hN => .absorption (EPBremsstrahlungOpacity.mk onesPC) onesPC _ (o N) onesPC_finite a1 (ho N hN),
    fun ρ T ν h1 h2 h3 => (a2 ρ T ν h1 h2 h3).le, a3, hgr, inside_example⟩

/-- weights of the Rosseland mean on the group `[1, 2]` with unit constants, at temperatures from 1 to 10 -/
theorem rosseland_lower {T ν : ℝ} (h1 : 1 ≤ T) (h2 : T ≤ 10) (h3 : 1 ≤ ν) (h4 : ν ≤ 3) :
    1 / 2000 ≤ rosselandWeight 1 1 1 T ν := by
  have ex : 1 * ν / (1 * T) = ν / T := by rw [one_mul, one_mul]
  have hx0 : 0 < ν / T := by positivity
  have hx3 : ν / T ≤ 3 := by rw [div_le_iff₀ (by linarith)]; nlinarith
  unfold rosselandWeight planckLawDT
  rw [ex, if_pos (by linarith)]
  generalize ν / T = x at *
  have hexp3 : Real.exp 3 ≤ 27 := by
    have h2 : Real.exp 3 = Real.exp 1 ^ (3 : ℕ) := by rw [← Real.exp_nat_mul]; norm_num
    have h3 : Real.exp 1 ^ (3 : ℕ) ≤ 3 ^ 3 := pow_le_pow_left₀ (Real.exp_pos 1).le (by linarith [Real.exp_one_lt_d9]) 3
    rw [h2]; linarith
  have e1 : 1 / 27 ≤ Real.exp (-x) := by
    rw [Real.exp_neg, one_div]
    exact inv_anti₀ (Real.exp_pos _) ((Real.exp_le_exp.2 hx3).trans hexp3)
  have e2 : Real.exp (-x) < 1 := by rw [← Real.exp_zero]; exact Real.exp_lt_exp.2 (by linarith)
  have p4 : 1 ≤ ν ^ 4 := one_le_pow₀ h3
  have pT : T ^ 2 ≤ 100 := by nlinarith
  have d : 0 < 1 - Real.exp (-x) := by linarith
  have d2 : (1 - Real.exp (-x)) ^ 2 ≤ 1 := pow_le_one₀ d.le (by linarith)
  rw [le_div_iff₀ (by positivity)]
  have a1 : (1 : ℝ) / 50 ≤ 2 * 1 ^ 2 * ν ^ 4 / (T ^ 2 * 1 ^ 2 * 1) := by
    rw [le_div_iff₀ (by positivity)]; nlinarith
  calc 1 / 2000 * (1 - Real.exp (-x)) ^ 2 ≤ 1 / 2000 * 1 := by gcongr
    _ ≤ 1 / 50 * (1 / 27) := by norm_num
    _ ≤ _ := by gcongr

/-- the hypotheses of `C66_rosseland` are met by gray tables with unit constants, densities and temperatures from 1 to 10
and the group `[1, 2]`, at the state `(2, 3)` -/
example : ∃ qP qR : ℕ → XR → XR → ℤ → Outcome XR,
    (∀ N, 2 ≤ N → MeansOf 1 1 1 (fun ρ _ _ => ρ * 1) 0 1 2 0 1 2 [.fin 1, .fin 2] 1 N (qP N) (qR N)) ∧
    ∃ (κ : ℕ → ℝ) (L : ℝ), (∀ N, 2 ≤ N → qR N (.fin 2) (.fin 3) 0 = ok (.fin (2 * κ N))) ∧ Tendsto κ atTop (𝓝 L) := by
  have hS := SMALL_pos
  have hS' := SMALL_tiny
  norm_num at hS'
  obtain ⟨hb, hgr⟩ := oneGroup (lo := 1) (hi := 2) (by norm_num) (by norm_num)
  have ht : ∀ N : ℕ, 2 ≤ N → ∃ o, MeanOpacityBase.construct onesPC (fun _ => XR.fin 0) (GrayOpacity.mk onesPC (.fin 1))
      (.fin 0) (.fin 1) 2 (.fin 0) (.fin 1) 2 [.fin 1, .fin 2] (1 : ℕ) N = ok o := by
    intro N hN
    obtain ⟨o, ho, -⟩ := C07_gray_exists onesPC_finite (κ := 1) one_pos 0 1 (NRho := 2) (by norm_num) 0 1 (NT := 2)
      (by norm_num) hb hN (fun _ => .fin 0)
    exact ⟨o, ho⟩
  haveI : Nonempty (MeanOpacityBase XR) := ⟨(ht 2 (le_refl 2)).choose⟩
  choose! o ho using ht
  have hm : ∀ N, 2 ≤ N → MeansOf 1 1 1 (fun ρ _ _ => ρ * 1) 0 1 2 0 1 2 [.fin 1, .fin 2] 1 N
      (MeanPhotonAPI.PlanckGroupAbsorptionCoefficient (o N)) (MeanPhotonAPI.RosselandGroupAbsorptionCoefficient (o N)) :=
    fun N hN => .absorption (GrayOpacity.mk onesPC (.fin 1)) onesPC _ (o N) onesPC_finite
      (fun ρ T ν _ _ _ => gray_coef onesPC 1 ρ T ν) (ho N hN)
  obtain ⟨κ, L, h1, h2, -⟩ := C66_rosseland (qP := fun N => MeanPhotonAPI.PlanckGroupAbsorptionCoefficient (o N))
    (qR := fun N => MeanPhotonAPI.RosselandGroupAbsorptionCoefficient (o N)) hm
    (fun ρ _ _ h _ _ => by positivity) (fun _ _ _ _ => continuousOn_const) (by norm_num) (by norm_num) (by norm_num) (by norm_num)
    (g := 0) (by norm_num) hgr (by
      rintro i j hi hj ρ' T' A B hρ' hT' hA hB
      have hn : ∀ m : ℕ, (m : ℤ) < 2 → 1 ≤ nodeValue 0 1 2 m ∧ nodeValue 0 1 2 m ≤ 10 := by
        intro m hm
        have hn : nodeValue 0 1 2 m = 10 ^ (m : ℝ) := by unfold nodeValue; norm_num
        rw [hn, Real.rpow_natCast]
        have : m = 0 ∨ m = 1 := by omega
        rcases this with rfl | rfl <;> norm_num
      have r := hn i hi
      have t := hn j hj
      rw [← hρ'] at r
      rw [← hT'] at t
      obtain ⟨wA, wB⟩ := C66_whole_group (h := 1) (k := 1) (T := T') (lo := 1) (hi := 2) (by norm_num) (by norm_num)
        (by norm_num; linarith) (by norm_num; linarith)
      rw [wA] at hA
      rw [wB] at hB
      have hAB : A ≤ B := by rw [hA, hB]; linarith
      have hA0 : 0 < A := by rw [hA]; linarith
      have hl10 : Real.log 10 ≤ 10 := (Real.log_le_sub_one_of_pos (by norm_num)).trans (by norm_num)
      have hw : ∀ ν ∈ Set.Icc A B, 1 / 2000 ≤ rosselandWeight 1 1 1 T' ν := by
        intro ν hν
        exact rosseland_lower t.1 t.2 (by have := hν.1; linarith) (by have := hν.2; linarith)
      have hT0 : 0 < T' := by linarith
      have i1 := (Convergence.rosseland_pieces one_pos one_pos one_pos hT0 (f := fun _ => 1) continuousOn_const (A := A) (B := B) hA0).2 hAB
      have i2 := (Convergence.rosseland_pieces one_pos one_pos one_pos hT0 (f := fun _ => ρ' / (ρ' * 1 + Robust.SMALL))
        continuousOn_const (A := A) (B := B) hA0).2 hAB
      simp only [one_mul] at i1
      have half : 1 / 2 ≤ ρ' / (ρ' * 1 + Robust.SMALL) := by
        rw [le_div_iff₀ (by linarith)]; linarith
      have b1 : ∫ _ in A..B, (1 / 2000 : ℝ) ≤ ∫ ν in A..B, rosselandWeight 1 1 1 T' ν :=
        intervalIntegral.integral_mono_on hAB intervalIntegrable_const i1 hw
      have b2 : ∫ _ in A..B, (1 / 4000 : ℝ) ≤ ∫ ν in A..B, ρ' / (ρ' * 1 + Robust.SMALL) * rosselandWeight 1 1 1 T' ν := by
        refine intervalIntegral.integral_mono_on hAB intervalIntegrable_const i2 fun ν hν => ?_
        have := hw ν hν
        nlinarith
      rw [intervalIntegral.integral_const, smul_eq_mul] at b1 b2
      have hBA : B - A = 1 := by rw [hA, hB]; ring
      rw [hBA] at b1 b2
      have hSl : Robust.SMALL * Real.log 10 ≤ Robust.SMALL * 10 := mul_le_mul_of_nonneg_left hl10 hS.le
      exact ⟨fun ν _ _ => by linarith, by linarith, by linarith⟩) inside_example
  exact ⟨_, _, hm, κ, L, h1, h2⟩

/-- the hypotheses of `C66_exact` are met: gray opacity 1 cm²/g, group `[1, 2]`, unit constants, `ε = 1/2` -/
example : ∃ ε : ℝ, ε = 1 / 2 ∧ ∀ A B, A = groupFrom Robust.SMALL 1 1 1 1 (some 2) → B = groupTo Robust.SMALL 1 1 1 1 (some 2) →
    Robust.SMALL * Real.log 10 ≤ ε * (∫ ν in A..B, planckLaw 1 1 1 1 ν) ∧
    Robust.SMALL * Real.log 10 ≤ ε * (∫ ν in A..B, 1 / 1 * planckLawDT 1 1 1 1 ν) ∧
    ∀ ν ∈ Set.Icc A B, Robust.SMALL ≤ ε * (1 : ℝ) := by
  have hS := SMALL_pos
  have hS' := SMALL_tiny
  norm_num at hS'
  refine ⟨_, rfl, ?_⟩
  intro A B hA hB
  obtain ⟨wA, wB⟩ := C66_whole_group (h := 1) (k := 1) (T := 1) (lo := 1) (hi := 2) (by norm_num) (by norm_num)
    (by norm_num) (by norm_num)
  rw [wA] at hA
  rw [wB] at hB
  have hAB : A ≤ B := by rw [hA, hB]; linarith
  have hl10 : Real.log 10 ≤ 10 := (Real.log_le_sub_one_of_pos (by norm_num)).trans (by norm_num)
  have hsub : Set.Icc A B ⊆ Set.Ioi 0 := fun x hx => by have := hx.1; show 0 < x; linarith
  have i1 := ((Convergence.cont_planckLaw (h := 1) (k := 1) (c := 1) one_pos one_pos one_pos (T := 1) one_pos).mono hsub).intervalIntegrable_of_Icc
    (μ := MeasureTheory.volume) hAB
  have b1 : ∫ _ in A..B, (1 / 27 : ℝ) ≤ ∫ ν in A..B, planckLaw 1 1 1 1 ν := by
    refine intervalIntegral.integral_mono_on hAB intervalIntegrable_const i1 fun ν hν => ?_
    have n1 : 1 ≤ ν := by have := hν.1; linarith
    have n3 : ν ≤ 3 := by have := hν.2; linarith
    unfold planckLaw
    have hexp3 : Real.exp 3 ≤ 27 := by
      have h2 : Real.exp 3 = Real.exp 1 ^ (3 : ℕ) := by rw [← Real.exp_nat_mul]; norm_num
      have h3 : Real.exp 1 ^ (3 : ℕ) ≤ 3 ^ 3 := pow_le_pow_left₀ (Real.exp_pos 1).le (by linarith [Real.exp_one_lt_d9]) 3
      rw [h2]; linarith
    have e1 : Real.exp ν ≤ 27 := (Real.exp_le_exp.2 n3).trans hexp3
    have e2 : 1 < Real.exp ν := by rw [← Real.exp_zero]; exact Real.exp_lt_exp.2 (by linarith)
    have p3 : 1 ≤ ν ^ 3 := one_le_pow₀ n1
    simp only [one_mul, mul_one, one_pow, div_one]
    rw [div_le_div_iff₀ (by norm_num) (by linarith)]
    nlinarith
  have i2 := ((Convergence.cont_planckLawDT (h := 1) (k := 1) (c := 1) one_pos one_pos one_pos (T := 1) one_pos).mono hsub).intervalIntegrable_of_Icc
    (μ := MeasureTheory.volume) hAB
  have b2 : ∫ _ in A..B, (1 / 2000 : ℝ) ≤ ∫ ν in A..B, planckLawDT 1 1 1 1 ν := by
    refine intervalIntegral.integral_mono_on hAB intervalIntegrable_const i2 fun ν hν => ?_
    have n1 : 1 ≤ ν := by have := hν.1; linarith
    have n3 : ν ≤ 3 := by have := hν.2; linarith
    exact (rosseland_lower (le_refl 1) (by norm_num) n1 n3).trans
      (Convergence.rosselandWeight_near one_pos one_pos one_pos one_pos (by linarith)).2.1
  rw [intervalIntegral.integral_const, smul_eq_mul] at b1 b2
  have hBA : B - A = 1 := by rw [hA, hB]; ring
  rw [hBA] at b1 b2
  have hSl : Robust.SMALL * Real.log 10 ≤ Robust.SMALL * 10 := mul_le_mul_of_nonneg_left hl10 hS.le
  simp only [div_one, one_mul]
  exact ⟨by linarith, by linarith, fun _ _ => by linarith⟩

end Opac.Photons
