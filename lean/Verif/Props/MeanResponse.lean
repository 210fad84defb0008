import Verif.Props.MeansApi
import Verif.Props.MeansFalse
import Verif.Lemmas.Interp

/-!
# C61: mean opacities follow the opacity they are computed from

Two mean opacities on the same table, with the same groups and samples, of the opacities `α` and `α'`.
-/

namespace Opac.Photons
open Arith Outcome Spec Spiner Finset

set_option linter.unusedSectionVars false

section
variable {h k c : ℝ} {α α' : ℝ → ℝ → ℝ → ℝ} {lRhoMin lRhoMax lTMin lTMax : ℝ} {NRho NT : ℤ} {b : List XR} {n N : ℕ}
  {qP qR qP' qR' : XR → XR → ℤ → Outcome XR}

/-- the lookup in closed form -/
theorem lookup_lin {lk : DataBox XR} {gR gT : Grid ℝ} (h2 : lk.grid 2 = xrGrid gR) (h1 : lk.grid 1 = xrGrid gT)
    (hNR : 2 ≤ gR.N) (hNT : 2 ≤ gT.N) (hR : gR.min < gR.max) (hT : gT.min < gT.max) {g : ℕ} {L : ℤ → ℤ → ℝ}
    (hread : ∀ a b : ℤ, 0 ≤ a → a < gR.N → 0 ≤ b → b < gT.N → lk.read [a, b, g] = ok (.fin (L a b))) (rho T : ℝ) :
    MGTables.GroupCoefficient_ lk (.fin rho) (.fin T) g =
      ok (.fin (rho * 10 ^ lin gR (fun a => lin gT (L a) (coordinate T)) (coordinate rho))) := by
  have hin : ∀ a : ℤ, 0 ≤ a → a < gR.N →
      DataBox.lerp (xrGrid gT) (.fin (coordinate T)) (fun b => lk.read [a, b, g]) =
        ok (.fin (lin gT (L a) (coordinate T))) := by
    intro a a0 a1
    rw [xr_lerp gT hNT hT _ _ (L a) (fun b b0 b1 => hread a b a0 a1 b0 b1),
      lerp_lin gT hNT hT _ _ (L a) (fun _ _ _ => rfl)]
    rfl
  have hlerp : lk.interp3 (ToLog (.fin rho)) (ToLog (.fin T)) g =
      ok (.fin (lin gR (fun a => lin gT (L a) (coordinate T)) (coordinate rho))) := by
    unfold DataBox.interp3
    rw [h2, h1, xr_toLog, xr_toLog]
    show DataBox.lerp (xrGrid gR) (.fin (coordinate rho))
      (fun a => DataBox.lerp (xrGrid gT) (.fin (coordinate T)) (fun b => lk.read [a, b, g])) = _
    rw [xr_lerp gR hNR hR _ _ (fun a => lin gT (L a) (coordinate T)) (fun a a0 a1 => hin a a0 a1),
      lerp_lin gR hNR hR _ _ (fun a => lin gT (L a) (coordinate T)) (fun _ _ _ => rfl)]
    rfl
  unfold MGTables.GroupCoefficient_
  rw [hlerp, map'_ok, xr_fromLog]
  simp only [axr]

/-- two tables whose entries are ordered -/
theorem lookup_mono {lk lk' : DataBox XR} {gR gT : Grid ℝ} (h2 : lk.grid 2 = xrGrid gR) (h1 : lk.grid 1 = xrGrid gT)
    (h2' : lk'.grid 2 = xrGrid gR) (h1' : lk'.grid 1 = xrGrid gT)
    (hNR : 2 ≤ gR.N) (hNT : 2 ≤ gT.N) (hR : gR.min < gR.max) (hT : gT.min < gT.max) {g : ℕ} {K K' : ℕ → ℕ → ℝ}
    (hread : ∀ i j : ℕ, (i : ℤ) < gR.N → (j : ℤ) < gT.N → lk.read [i, j, g] = ok (.fin (Real.logb 10 (K i j))))
    (hread' : ∀ i j : ℕ, (i : ℤ) < gR.N → (j : ℤ) < gT.N → lk'.read [i, j, g] = ok (.fin (Real.logb 10 (K' i j))))
    (hK : ∀ i j : ℕ, (i : ℤ) < gR.N → (j : ℤ) < gT.N → 0 < K i j ∧ K i j ≤ K' i j)
    {rho T : ℝ} (hin : Inside gR.min gR.max gT.min gT.max rho T) :
    ∃ κ κ', MGTables.GroupCoefficient_ lk (.fin rho) (.fin T) g = ok (.fin (rho * κ)) ∧
      MGTables.GroupCoefficient_ lk' (.fin rho) (.fin T) g = ok (.fin (rho * κ')) ∧ 0 < κ ∧ κ ≤ κ' := by
  have key : ∀ {lk : DataBox XR} {K : ℕ → ℕ → ℝ},
      (∀ i j : ℕ, (i : ℤ) < gR.N → (j : ℤ) < gT.N → lk.read [i, j, g] = ok (.fin (Real.logb 10 (K i j)))) →
      ∀ a b : ℤ, 0 ≤ a → a < gR.N → 0 ≤ b → b < gT.N → lk.read [a, b, g] = ok (.fin (Real.logb 10 (K a.toNat b.toNat))) := by
    intro lk K hr a b ha ha' hb hb'
    obtain ⟨a, rfl⟩ := Int.eq_ofNat_of_zero_le ha
    obtain ⟨b, rfl⟩ := Int.eq_ofNat_of_zero_le hb
    rw [hr a b ha' hb']
    simp
  have e := lookup_lin h2 h1 hNR hNT hR hT (L := fun a b => Real.logb 10 (K a.toNat b.toNat)) (key hread) rho T
  have e' := lookup_lin h2' h1' hNR hNT hR hT (L := fun a b => Real.logb 10 (K' a.toNat b.toNat)) (key hread') rho T
  refine ⟨_, _, e, e', by positivity, ?_⟩
  apply Real.rpow_le_rpow_of_exponent_le (by norm_num)
  refine lin_mono_v gR hNR hR (fun a a0 a1 => ?_) hin.1 hin.2
  refine lin_mono_v gT hNT hT (fun b b0 b1 => ?_) hin.3 hin.4
  have := hK a.toNat b.toNat (by omega) (by omega)
  exact Real.logb_le_logb_of_le (by norm_num) this.1 this.2

/-- **C61 (Planck means are monotone)**: if `α ≤ α'` for all densities, temperatures and frequencies, then everywhere
inside the table, in every group, the Planck coefficient of `α` is at most that of `α'` -/
theorem C61_planck_monotone (hm : MeansOf h k c α lRhoMin lRhoMax NRho lTMin lTMax NT b n N qP qR)
    (hm' : MeansOf h k c α' lRhoMin lRhoMax NRho lTMin lTMax NT b n N qP' qR')
    (hα : ∀ ρ T ν, 0 < ρ → 0 < T → 0 < ν → 0 ≤ α ρ T ν)
    (hle : ∀ ρ T ν, 0 < ρ → 0 < T → 0 < ν → α ρ T ν ≤ α' ρ T ν) (hNR : 2 ≤ NRho) (hNT : 2 ≤ NT) (hlR : lRhoMin < lRhoMax)
    (hlT : lTMin < lTMax) {g : ℕ} (hg : g < n) {rho T : ℝ} (hin : Inside lRhoMin lRhoMax lTMin lTMax rho T) :
    ∃ κ κ', qP (.fin rho) (.fin T) g = ok (.fin (rho * κ)) ∧ qP' (.fin rho) (.fin T) g = ok (.fin (rho * κ')) ∧
      0 < κ ∧ κ ≤ κ' := by
  have hS := SMALL_pos
  have hα' : ∀ ρ T ν, 0 < ρ → 0 < T → 0 < ν → 0 ≤ α' ρ T ν := fun ρ T ν h1 h2 h3 =>
    (hα ρ T ν h1 h2 h3).trans (hle ρ T ν h1 h2 h3)
  obtain ⟨t, A, rfl, -, g2, g1, -, -⟩ := hm.averaged hα hNR hNT
  obtain ⟨t', A', rfl, -, g2', g1', -, -⟩ := hm'.averaged hα' hNR hNT
  obtain ⟨hb, hN, hh, hk, hc⟩ := A.bounds
  obtain ⟨lo, up, hgr⟩ : ∃ lo up, GroupIs b g lo up := groupIs_exists hb hg
  refine lookup_mono (gR := ⟨lRhoMin, lRhoMax, NRho⟩) (gT := ⟨lTMin, lTMax, NT⟩) g2 g1 g2' g1' hNR hNT hlR hlT
    (fun i j hi hj => (A.read hi hj hgr hg rfl rfl).1) (fun i j hi hj => (A'.read hi hj hgr hg rfl rfl).1) ?_ hin
  intro i j hi hj
  have h0 := (A.read hi hj hgr hg rfl rfl).2.2.1
  refine ⟨by linarith, ?_⟩
  have hρ := nodeValue_pos lRhoMin lRhoMax NRho i
  have hT := nodeValue_pos lTMin lTMax NT j
  obtain ⟨-, -, hlo, hup⟩ := hgr
  obtain ⟨p1, p2, p3, p4, p5⟩ := group_pos (N := N) hh hk hT hlo hup (by omega)
  gcongr ?_ + _
  have hw : ∀ m, 0 < planckWeight h k c (nodeValue lTMin lTMax NT j)
      (groupNu Robust.SMALL h k (nodeValue lTMin lTMax NT j) lo up N m) *
        groupDNu Robust.SMALL h k (nodeValue lTMin lTMax NT j) lo up N m :=
    fun m => mul_pos (planckWeight_pos hh hk hc hT (p3 m)) (p4 m)
  unfold groupPlanckMean planckMean
  have hden : 0 ≤ ∑ m ∈ range N, planckWeight h k c (nodeValue lTMin lTMax NT j)
      (groupNu Robust.SMALL h k (nodeValue lTMin lTMax NT j) lo up N m) *
        groupDNu Robust.SMALL h k (nodeValue lTMin lTMax NT j) lo up N m := sum_nonneg fun m _ => (hw m).le
  refine div_le_div_of_nonneg_right (sum_le_sum fun m _ => ?_) (by linarith)
  rw [mul_assoc, mul_assoc]
  refine mul_le_mul_of_nonneg_right (div_le_div_of_nonneg_right ?_ hρ.le) (hw m).le
  exact hle _ _ _ hρ hT (p3 m)

/-- **C61 (Rosseland means, partial)**: if `α ≤ α'`, `α` is above the floor at every sample, and `α'` is nowhere so large
that the sum over the samples drops below the floor, then everywhere inside the table, in that group, the Rosseland
coefficient of `α` is at most that of `α'` -/
theorem C61_rosseland_partial (hm : MeansOf h k c α lRhoMin lRhoMax NRho lTMin lTMax NT b n N qP qR)
    (hm' : MeansOf h k c α' lRhoMin lRhoMax NRho lTMin lTMax NT b n N qP' qR')
    (hα : ∀ ρ T ν, 0 < ρ → 0 < T → 0 < ν → 0 ≤ α ρ T ν)
    (hle : ∀ ρ T ν, 0 < ρ → 0 < T → 0 < ν → α ρ T ν ≤ α' ρ T ν) (hNR : 2 ≤ NRho) (hNT : 2 ≤ NT) (hlR : lRhoMin < lRhoMax)
    (hlT : lTMin < lTMax) {g : ℕ} (hg : g < n) {lo : ℝ} {up : Option ℝ} (hgr : GroupIs b g lo up)
    (hopaque : ∀ i j m : ℕ, (i : ℤ) < NRho → (j : ℤ) < NT → m < N →
      Robust.SMALL < α (nodeValue lRhoMin lRhoMax NRho i) (nodeValue lTMin lTMax NT j)
        (groupNu Robust.SMALL h k (nodeValue lTMin lTMax NT j) lo up N m))
    {M : ℝ} (hM : ∀ i j m : ℕ, (i : ℤ) < NRho → (j : ℤ) < NT → m < N →
      α' (nodeValue lRhoMin lRhoMax NRho i) (nodeValue lTMin lTMax NT j)
        (groupNu Robust.SMALL h k (nodeValue lTMin lTMax NT j) lo up N m) + Robust.SMALL ≤ M * nodeValue lRhoMin lRhoMax NRho i)
    (hMD : ∀ j : ℕ, (j : ℤ) < NT →
      Robust.SMALL * M < rosselandTotal Robust.SMALL h k c (nodeValue lTMin lTMax NT j) lo up N)
    {rho T : ℝ} (hin : Inside lRhoMin lRhoMax lTMin lTMax rho T) :
    ∃ κ κ', qR (.fin rho) (.fin T) g = ok (.fin (rho * κ)) ∧ qR' (.fin rho) (.fin T) g = ok (.fin (rho * κ')) ∧
      0 < κ ∧ κ ≤ κ' := by
  have hS := SMALL_pos
  have hα' : ∀ ρ T ν, 0 < ρ → 0 < T → 0 < ν → 0 ≤ α' ρ T ν := fun ρ T ν h1 h2 h3 =>
    (hα ρ T ν h1 h2 h3).trans (hle ρ T ν h1 h2 h3)
  obtain ⟨t, A, -, rfl, -, -, g2, g1⟩ := hm.averaged hα hNR hNT
  obtain ⟨t', A', -, rfl, -, -, g2', g1'⟩ := hm'.averaged hα' hNR hNT
  obtain ⟨hb, hN, hh, hk, hc⟩ := A.bounds
  refine lookup_mono (gR := ⟨lRhoMin, lRhoMax, NRho⟩) (gT := ⟨lTMin, lTMax, NT⟩) g2 g1 g2' g1' hNR hNT hlR hlT
    (fun i j hi hj => (A.read hi hj hgr hg rfl rfl).2.1) (fun i j hi hj => (A'.read hi hj hgr hg rfl rfl).2.1) ?_ hin
  intro i j hi hj
  have h0 := (A.read hi hj hgr hg rfl rfl).2.2.2
  have h0' := (A'.read hi hj hgr hg rfl rfl).2.2.2
  refine ⟨by linarith, ?_⟩
  have hρ := nodeValue_pos lRhoMin lRhoMax NRho i
  have hT := nodeValue_pos lTMin lTMax NT j
  have hop := fun m hm => hopaque i j m hi hj hm
  have hMm := fun m hm => hM i j m hi hj hm
  have hD := hMD j hj
  obtain ⟨-, -, hlo, hup⟩ := hgr
  obtain ⟨p1, p2, p3, p4, p5⟩ := group_pos (N := N) hh hk hT hlo hup (by omega)
  have hlev := fun m => hle _ _ _ hρ hT (p3 m)
  have hw : ∀ m, 0 < rosselandWeight h k c (nodeValue lTMin lTMax NT j)
      (groupNu Robust.SMALL h k (nodeValue lTMin lTMax NT j) lo up N m) *
        groupDNu Robust.SMALL h k (nodeValue lTMin lTMax NT j) lo up N m :=
    fun m => mul_pos (rosselandWeight_pos hh hk hc hT (p3 m)) (p4 m)
  gcongr ?_ + _
  unfold groupRosselandMean rosselandMean at h0 h0' ⊢
  unfold rosselandTotal at hD
  simp only at h0 h0' ⊢
  -- name the samples
  generalize hρe : nodeValue lRhoMin lRhoMax NRho i = ρ at *
  generalize hTe : nodeValue lTMin lTMax NT j = T at *
  generalize hwe : (fun m => rosselandWeight h k c T (groupNu Robust.SMALL h k T lo up N m)) = w at *
  generalize hde : groupDNu Robust.SMALL h k T lo up N = d at *
  generalize hae : (fun m => α ρ T (groupNu Robust.SMALL h k T lo up N m)) = a at *
  generalize hae' : (fun m => α' ρ T (groupNu Robust.SMALL h k T lo up N m)) = a' at *
  have ew := fun m => congrFun hwe m
  have ea := fun m => congrFun hae m
  have ea' := fun m => congrFun hae' m
  simp only [ew, ea, ea'] at *
  have hMpos : 0 < M := by
    have h1 := hMm 0 (by omega)
    have h2 := hop 0 (by omega)
    have h3 := hlev 0
    by_contra hneg
    push Not at hneg
    nlinarith
  have hsum : ∑ m ∈ range N, (if Robust.SMALL < a' m then ρ / (a' m + Robust.SMALL) * w m * d m else 0) ≤
      ∑ m ∈ range N, (if Robust.SMALL < a m then ρ / (a m + Robust.SMALL) * w m * d m else 0) := by
    refine sum_le_sum fun m hm => ?_
    have h1 := hop m (mem_range.1 hm)
    have h2 := hlev m
    rw [if_pos h1, if_pos (h1.trans_le h2), mul_assoc, mul_assoc]
    refine mul_le_mul_of_nonneg_right ?_ (hw m).le
    exact div_le_div_of_nonneg_left hρ.le (by linarith) (by linarith)
  have hnum : Robust.SMALL < ∑ m ∈ range N, (if Robust.SMALL < a' m then ρ / (a' m + Robust.SMALL) * w m * d m else 0) := by
    have h3 : (∑ m ∈ range N, w m * d m) / M ≤
        ∑ m ∈ range N, (if Robust.SMALL < a' m then ρ / (a' m + Robust.SMALL) * w m * d m else 0) := by
      rw [sum_div]
      refine sum_le_sum fun m hm => ?_
      have h1 := hop m (mem_range.1 hm)
      have h2 := hlev m
      have h3 := hMm m (mem_range.1 hm)
      rw [if_pos (h1.trans_le h2), mul_assoc, div_eq_mul_one_div, mul_comm]
      refine mul_le_mul_of_nonneg_right ?_ (hw m).le
      rw [div_le_div_iff₀ hMpos (by linarith)]
      linarith
    refine lt_of_lt_of_le ?_ h3
    rw [lt_div_iff₀ hMpos]
    exact hD
  by_cases hDS : Robust.SMALL < ∑ m ∈ range N, w m * d m
  · rw [if_pos ⟨hDS, hnum.trans_le hsum⟩, if_pos ⟨hDS, hnum⟩]
    exact div_le_div_of_nonneg_left (by linarith) (by linarith) (by linarith)
  · rw [if_neg (fun h => hDS h.1), if_neg (fun h => hDS h.1)]

/-- interpolation at a node -/
theorem lin_node (g : Grid ℝ) (hN : 2 ≤ g.N) (hlt : g.min < g.max) (v : ℤ → ℝ) {i : ℕ} (hi : (i : ℤ) < g.N) :
    lin g v (node g i) = v i := by
  have hdx := dx_pos g hN hlt
  have hd : (g.max - g.min) / (g.N - 1) = g.dx := (dx_eq g).symm
  rcases Nat.eq_zero_or_pos i with rfl | hpos
  · have h1 := lerp_lin g hN hlt (node g 0) (fun k => ok (v k)) v (fun _ _ _ => rfl)
    obtain ⟨s, -, -, hs, e⟩ := lerp_eq g hN hlt 0 (by push_cast; omega) (node g 0) le_rfl
      (by unfold node; rw [hd]; push_cast; linarith) (fun k => ok (v k)) v (fun _ _ _ => rfl)
    rw [sub_self, zero_div] at hs
    rw [h1, hs] at e
    have := Outcome.ok.inj e
    simpa using this
  · obtain ⟨i, rfl⟩ : ∃ k, i = k + 1 := ⟨i - 1, by omega⟩
    have h1 := lerp_lin g hN hlt (node g (i + 1)) (fun k => ok (v k)) v (fun _ _ _ => rfl)
    have hn : node g (i + 1) - node g i = g.dx := by unfold node; rw [hd]; push_cast; ring
    obtain ⟨s, -, -, hs, e⟩ := lerp_eq g hN hlt i (by push_cast at hi; omega) (node g (i + 1)) (by linarith) le_rfl
      (fun k => ok (v k)) v (fun _ _ _ => rfl)
    rw [hn, div_self hdx.ne'] at hs
    rw [h1, hs] at e
    have := Outcome.ok.inj e
    push_cast
    simpa using this

/-- lookup at a node of the table -/
theorem lookup_node {lk : DataBox XR} {gR gT : Grid ℝ} (h2 : lk.grid 2 = xrGrid gR) (h1 : lk.grid 1 = xrGrid gT)
    (hNR : 2 ≤ gR.N) (hNT : 2 ≤ gT.N) (hR : gR.min < gR.max) (hT : gT.min < gT.max) {g : ℕ} {K : ℕ → ℕ → ℝ}
    (hread : ∀ i j : ℕ, (i : ℤ) < gR.N → (j : ℤ) < gT.N → lk.read [i, j, g] = ok (.fin (Real.logb 10 (K i j))))
    {i j : ℕ} (hi : (i : ℤ) < gR.N) (hj : (j : ℤ) < gT.N) (hK : 0 < K i j) {rho T : ℝ}
    (hr : coordinate rho = node gR i) (ht : coordinate T = node gT j) :
    MGTables.GroupCoefficient_ lk (.fin rho) (.fin T) g = ok (.fin (rho * K i j)) := by
  rw [lookup_lin h2 h1 hNR hNT hR hT (L := fun a b => Real.logb 10 (K a.toNat b.toNat)) ?_ rho T, hr, ht,
    lin_node gR hNR hR _ hi, lin_node gT hNT hT _ hj]
  · simp only [Int.toNat_natCast]
    rw [Real.rpow_logb (by norm_num) (by norm_num) hK]
  · intro a b ha ha' hb hb'
    obtain ⟨a, rfl⟩ := Int.eq_ofNat_of_zero_le ha
    obtain ⟨b, rfl⟩ := Int.eq_ofNat_of_zero_le hb
    rw [hread a b ha' hb']
    simp

/-- **C61 (Planck means are linear)**: at the nodes of the table, the Planck opacity of `x α + y β` is `x` times that of
`α` plus `y` times that of `β`, when the floor `SMALL` is taken off all of them -/
theorem C61_planck_linear {β : ℝ → ℝ → ℝ → ℝ} {qP'' qR'' : XR → XR → ℤ → Outcome XR} {x y : ℝ} (hx : 0 ≤ x) (hy : 0 ≤ y)
    (hm : MeansOf h k c α lRhoMin lRhoMax NRho lTMin lTMax NT b n N qP qR)
    (hm' : MeansOf h k c β lRhoMin lRhoMax NRho lTMin lTMax NT b n N qP' qR')
    (hm'' : MeansOf h k c (fun ρ T ν => x * α ρ T ν + y * β ρ T ν) lRhoMin lRhoMax NRho lTMin lTMax NT b n N qP'' qR'')
    (hα : ∀ ρ T ν, 0 < ρ → 0 < T → 0 < ν → 0 ≤ α ρ T ν) (hβ : ∀ ρ T ν, 0 < ρ → 0 < T → 0 < ν → 0 ≤ β ρ T ν)
    (hNR : 2 ≤ NRho) (hNT : 2 ≤ NT) (hlR : lRhoMin < lRhoMax) (hlT : lTMin < lTMax) {g : ℕ} (hg : g < n)
    {i j : ℕ} (hi : (i : ℤ) < NRho) (hj : (j : ℤ) < NT) {rho T : ℝ}
    (hr : coordinate rho = node ⟨lRhoMin, lRhoMax, NRho⟩ i) (ht : coordinate T = node ⟨lTMin, lTMax, NT⟩ j) :
    ∃ κα κβ κ : ℝ, qP (.fin rho) (.fin T) g = ok (.fin (rho * (κα + Robust.SMALL))) ∧
      qP' (.fin rho) (.fin T) g = ok (.fin (rho * (κβ + Robust.SMALL))) ∧
      qP'' (.fin rho) (.fin T) g = ok (.fin (rho * (κ + Robust.SMALL))) ∧ κ = x * κα + y * κβ := by
  have hS := SMALL_pos
  have hαβ : ∀ ρ T ν, 0 < ρ → 0 < T → 0 < ν → 0 ≤ x * α ρ T ν + y * β ρ T ν := fun ρ T ν h1 h2 h3 =>
    add_nonneg (mul_nonneg hx (hα ρ T ν h1 h2 h3)) (mul_nonneg hy (hβ ρ T ν h1 h2 h3))
  obtain ⟨t, A, rfl, -, g2, g1, -, -⟩ := hm.averaged hα hNR hNT
  obtain ⟨t', A', rfl, -, g2', g1', -, -⟩ := hm'.averaged hβ hNR hNT
  obtain ⟨t'', A'', rfl, -, g2'', g1'', -, -⟩ := hm''.averaged hαβ hNR hNT
  obtain ⟨hb, hN, hh, hk, hc⟩ := A.bounds
  obtain ⟨lo, up, hgr⟩ : ∃ lo up, GroupIs b g lo up := groupIs_exists hb hg
  have r1 := A.read hi hj hgr hg rfl rfl
  have r2 := A'.read hi hj hgr hg rfl rfl
  have r3 := A''.read hi hj hgr hg rfl rfl
  refine ⟨_, _, _,
    lookup_node (gR := ⟨lRhoMin, lRhoMax, NRho⟩) (gT := ⟨lTMin, lTMax, NT⟩) g2 g1 hNR hNT hlR hlT
      (fun i j hi hj => (A.read hi hj hgr hg rfl rfl).1) hi hj (by linarith [r1.2.2.1]) hr ht,
    lookup_node (gR := ⟨lRhoMin, lRhoMax, NRho⟩) (gT := ⟨lTMin, lTMax, NT⟩) g2' g1' hNR hNT hlR hlT
      (fun i j hi hj => (A'.read hi hj hgr hg rfl rfl).1) hi hj (by linarith [r2.2.2.1]) hr ht,
    lookup_node (gR := ⟨lRhoMin, lRhoMax, NRho⟩) (gT := ⟨lTMin, lTMax, NT⟩) g2'' g1'' hNR hNT hlR hlT
      (fun i j hi hj => (A''.read hi hj hgr hg rfl rfl).1) hi hj (by linarith [r3.2.2.1]) hr ht, ?_⟩
  unfold groupPlanckMean planckMean
  rw [← mul_div_assoc, ← mul_div_assoc, ← add_div, mul_sum, mul_sum, ← sum_add_distrib]
  congr 1
  refine sum_congr rfl fun m _ => ?_
  ring
end

/-- **C61 is false for Rosseland means**: raising the opacity can lower the Rosseland mean.  Unit constants, density 1,
temperature 1, the group `[1, 2]` with two samples, at one of which the opacity is 1 and at the other 0: the tabulated mean
is above 1.4; with opacity 1 at both samples it is below 1.1. -/
theorem C61_rosseland_false : ∃ (α α' : ℝ → ℝ → ℝ → ℝ) (t t' : MGTables XR) (K K' : ℝ),
    Averaged 1 1 1 α 0 1 2 0 1 2 [.fin 1, .fin 2] 1 2 t ∧ Averaged 1 1 1 α' 0 1 2 0 1 2 [.fin 1, .fin 2] 1 2 t' ∧
    (∀ ρ T ν, 0 < ρ → α ρ T ν ≤ α' ρ T ν) ∧
    Tabulated t.lRosseland [0, 0, 0] (.fin (K + Robust.SMALL)) ∧
    Tabulated t'.lRosseland [0, 0, 0] (.fin (K' + Robust.SMALL)) ∧ K' < 1.1 ∧ 1.4 < K := by
  have hS := SMALL_pos
  have hS' := SMALL_tiny
  obtain ⟨α, t, K, A, h1, hle, hT, hK⟩ := C09_false
  obtain ⟨hb, hgr⟩ := oneGroup (lo := 1) (hi := 2) (by norm_num) (by norm_num)
  obtain ⟨t', -, A'⟩ := averaged_exists onesPC_finite (α := fun ρ _ _ => ρ) (coef := realCoef (fun ρ _ _ => ρ))
    (fun ρ _ ν h _ _ => h.le) (fun _ _ _ _ _ _ => rfl) 0 1 (NRho := 2) (by norm_num) 0 1 (NT := 2) (by norm_num)
    hb (N := 2) (by norm_num) (fun _ => .fin 0)
  obtain ⟨K', D, hT', -, -, -, hM⟩ := C09_partial A' (i := 0) (j := 0) (by norm_num) (by norm_num) (by norm_num) hgr
    (ρ := 1) (T := 1) h1.symm h1.symm (fun m hm => by norm_num at hS'; linarith)
  have := (hM 1 (fun m hm => by norm_num)).1
  refine ⟨α, fun ρ _ _ => ρ, t, t', K, K', A, A', ?_, hT, hT', ?_, hK⟩
  · intro ρ T ν hρ
    have := hle ρ T ν hρ
    rwa [div_le_one hρ] at this
  · norm_num at hS' this ⊢
    linarith

/-- the hypotheses are met: gray opacities 1 and 2, compared at density 2 and temperature 3 -/
example : ∃ qP qR qP' qR' : XR → XR → ℤ → Outcome XR,
    MeansOf 1 1 1 (fun ρ _ _ => ρ * 1) 0 1 2 0 1 2 [.fin 1, .fin 2] 1 2 qP qR ∧
    MeansOf 1 1 1 (fun ρ _ _ => ρ * 2) 0 1 2 0 1 2 [.fin 1, .fin 2] 1 2 qP' qR' ∧
    (∃ κ κ', qP (.fin 2) (.fin 3) 0 = ok (.fin (2 * κ)) ∧ qP' (.fin 2) (.fin 3) 0 = ok (.fin (2 * κ')) ∧ 0 < κ ∧ κ ≤ κ') ∧
    ∃ κ κ', qR (.fin 2) (.fin 3) 0 = ok (.fin (2 * κ)) ∧ qR' (.fin 2) (.fin 3) 0 = ok (.fin (2 * κ')) ∧ 0 < κ ∧ κ ≤ κ' := by
  have hS := SMALL_pos
  have hS' := SMALL_tiny
  norm_num at hS'
  obtain ⟨hb, hgr⟩ := oneGroup (lo := 1) (hi := 2) (by norm_num) (by norm_num)
  obtain ⟨o, ho, -⟩ := C07_gray_exists onesPC_finite (κ := 1) one_pos 0 1 (NRho := 2) (by norm_num) 0 1 (NT := 2)
    (by norm_num) hb (N := 2) (by norm_num) (fun _ => .fin 0)
  obtain ⟨o', ho', -⟩ := C07_gray_exists onesPC_finite (κ := 2) two_pos 0 1 (NRho := 2) (by norm_num) 0 1 (NT := 2)
    (by norm_num) hb (N := 2) (by norm_num) (fun _ => .fin 0)
  have m1 := MeansOf.absorption (α := fun ρ _ _ => ρ * 1) (GrayOpacity.mk onesPC (.fin 1)) onesPC (fun _ => .fin 0) o
    onesPC_finite (fun ρ T ν _ _ _ => gray_coef onesPC 1 ρ T ν) ho
  have m2 := MeansOf.absorption (α := fun ρ _ _ => ρ * 2) (GrayOpacity.mk onesPC (.fin 2)) onesPC (fun _ => .fin 0) o'
    onesPC_finite (fun ρ T ν _ _ _ => gray_coef onesPC 2 ρ T ν) ho'
  have hin : Inside 0 1 0 1 2 3 := by
    constructor
    all_goals unfold coordinate
    all_goals first
      | (rw [Real.le_logb_iff_rpow_le (by norm_num) (by norm_num; linarith)]; norm_num; linarith)
      | (rw [Real.logb_le_iff_le_rpow (by norm_num) (by norm_num; linarith)]; norm_num; linarith)
  have nv : ∀ i : ℕ, (i : ℤ) < 2 → 1 ≤ nodeValue 0 1 2 i ∧ nodeValue 0 1 2 i ≤ 10 := by
    intro i hi
    have : i = 0 ∨ i = 1 := by omega
    rcases this with rfl | rfl <;> unfold nodeValue <;> norm_num
  refine ⟨_, _, _, _, m1, m2, ?_, ?_⟩
  · exact C61_planck_monotone m1 m2 (fun ρ T ν h _ _ => by positivity) (fun ρ T ν h _ _ => by linarith) le_rfl le_rfl
      one_pos one_pos (g := 0) one_pos hin
  · refine C61_rosseland_partial m1 m2 (fun ρ T ν h _ _ => by positivity) (fun ρ T ν h _ _ => by linarith) le_rfl le_rfl
      one_pos one_pos (g := 0) one_pos hgr ?_ (M := 3) ?_ ?_ hin
    · intro i j m hi hj hm
      have := nv i hi
      linarith
    · intro i j m hi hj hm
      have := nv i hi
      linarith
    · intro j hj
      have := (weights_lower (nv j hj).1 (nv j hj).2).2
      linarith

end Opac.Photons
