import Verif.Lemmas.Means
import Verif.Props.MeanFiles

/-!
# C07–C10: photon group means

Exact arithmetic with special values (`XR`), so that the last group may be unbounded.  The averaged opacity is any
function with real nonnegative values `α ρ T ν`.
-/

namespace Opac.Photons
open Arith Outcome Spec Spiner Finset

/-- `t` is the table computed from a coefficient with the real values `α`, with constants `h, k, c`, on a grid of
`NRho × NT` nodes with the given decimal logarithms, for `n` groups with bounds `b` and `N` samples per group -/
structure Averaged (h k c : ℝ) (α : ℝ → ℝ → ℝ → ℝ) (lRhoMin lRhoMax : ℝ) (NRho : ℤ) (lTMin lTMax : ℝ) (NT : ℤ)
    (b : List XR) (n N : ℕ) (t : MGTables XR) : Prop where
  nonneg : ∀ ρ T ν, 0 < ρ → 0 < T → 0 < ν → 0 ≤ α ρ T ν
  nRho : 2 ≤ NRho
  nT : 2 ≤ NT
  built : ∃ pc junk coef, FinitePC pc h k c ∧
    (∀ ρ T ν, 0 < ρ → 0 < T → 0 < ν → coef (.fin ρ) (.fin T) (.fin ν) = .fin (α ρ T ν)) ∧
    MGTables.Impl_ pc junk coef (.fin lRhoMin) (.fin lRhoMax) NRho (.fin lTMin) (.fin lTMax) NT b n N = ok t

/-- density or temperature of a node -/
noncomputable def nodeValue (lmin lmax : ℝ) (N : ℤ) (i : ℕ) : ℝ := 10 ^ (lmin + i * ((lmax - lmin) / (N - 1)))

theorem nodeValue_pos (lmin lmax : ℝ) (N : ℤ) (i : ℕ) : 0 < nodeValue lmin lmax N i := by
  unfold nodeValue; positivity

theorem xr_node {lmin lmax : ℝ} {N : ℤ} (hN : 2 ≤ N) (i : ℕ) :
    FromLog ((⟨.fin lmin, .fin lmax, N⟩ : Grid XR).x i) = .fin (nodeValue lmin lmax N i) := by
  have h2 : (2 : ℝ) ≤ N := by exact_mod_cast hN
  have hne : ((((N - 1 : ℤ) : ℚ)) : ℝ) ≠ 0 := by push_cast; linarith
  unfold Grid.x Grid.dx
  simp only [axr]
  have e : (lit ((N : ℚ) - 1) : XR) = lit (((N - 1 : ℤ) : ℚ)) := by push_cast; rfl
  first
    | rw [XR.fin_div hne]
    | rw [XR.fin_div (by push_cast; linarith)]
  simp only [axr]
  rw [xr_fromLog]
  unfold nodeValue
  push_cast
  ring_nf

/-- `lo` and `hi` bound group `g` -/
def GroupIs (b : List XR) (g : ℕ) (lo : ℝ) (hi : Option ℝ) : Prop :=
  b[g]? = some (.fin lo) ∧ b[g + 1]? = some (upper hi) ∧ 0 ≤ lo ∧ ∀ x ∈ hi, lo < x

/-- every group has a finite nonnegative lower bound and a larger, possibly infinite, upper bound -/
theorem groupIs_exists {b : List XR} {n : ℕ} (hb : AcceptableBounds b (n : ℤ)) {g : ℕ} (hg : g < n) :
    ∃ lo hi, GroupIs b g lo hi := by
  have hl := hb.enough
  -- the lower bound is finite
  have hfin : ∀ m, m < n → ∃ lo, b[m]? = some (XR.fin lo) ∧ 0 ≤ lo := by
    intro m
    induction m with
    | zero =>
      intro hm
      have h0 : b[0]? = some (b[0]'(by omega)) := List.getElem?_eq_getElem _
      have h1 := hb.not_nan 0 _ (by omega) h0
      have h2 := hb.finite_inside 0 _ (by omega) h0
      have h3 := hb.first_nonneg _ h0
      rw [h0]
      generalize b[0]'(by omega) = x at *
      cases x with
      | fin x => exact ⟨x, rfl, by simpa only [axr, Rat.cast_zero] using h3⟩
      | nan => simp [isNaN] at h1
      | pinf => simp [isInf] at h2
      | ninf => simp [isInf] at h2
    | succ m ih =>
      intro hm
      obtain ⟨lo, e, hlo⟩ := ih (by omega)
      have h0 : b[m + 1]? = some (b[m + 1]'(by omega)) := List.getElem?_eq_getElem _
      have h1 := hb.not_nan (m + 1) _ (by omega) h0
      have h2 := hb.finite_inside (m + 1) _ (by omega) h0
      have h3 := hb.increasing m _ _ (by omega) e h0
      rw [h0]
      generalize b[m + 1]'(by omega) = x at *
      cases x with
      | fin x => exact ⟨x, rfl, by simp only [axr] at h3; linarith⟩
      | nan => simp [isNaN] at h1
      | pinf => simp [isInf] at h2
      | ninf => simp [isInf] at h2
  obtain ⟨lo, e, hlo⟩ := hfin g hg
  have h0 : b[g + 1]? = some (b[g + 1]'(by omega)) := List.getElem?_eq_getElem _
  have h1 := hb.not_nan (g + 1) _ (by omega) h0
  have h3 := hb.increasing g _ _ (by omega) e h0
  unfold GroupIs
  rw [h0, e]
  generalize b[g + 1]'(by omega) = x at *
  cases x with
  | fin x => exact ⟨lo, some x, rfl, rfl, hlo, by simpa only [axr, Option.mem_some_iff, forall_eq'] using h3⟩
  | nan => simp [isNaN] at h1
  | pinf => exact ⟨lo, none, rfl, rfl, hlo, by simp⟩
  | ninf => cases h3

section
variable {h k c : ℝ} {α : ℝ → ℝ → ℝ → ℝ} {lRhoMin lRhoMax lTMin lTMax : ℝ} {NRho NT : ℤ} {b : List XR} {n N : ℕ}
  {t : MGTables XR}

theorem Averaged.bounds (A : Averaged h k c α lRhoMin lRhoMax NRho lTMin lTMax NT b n N t) :
    AcceptableBounds b (n : ℤ) ∧ 2 ≤ N ∧ 0 < h ∧ 0 < k ∧ 0 < c := by
  obtain ⟨pc, junk, coef, hpc, -, hb⟩ := A.built
  have := Impl_ok hb
  exact ⟨(Validate_ok_iff _ _).1 this.2.1, by have := this.1; omega, hpc.h_pos, hpc.k_pos, hpc.c_pos⟩

/-- what the cells of the table hold -/
theorem Averaged.read (A : Averaged h k c α lRhoMin lRhoMax NRho lTMin lTMax NT b n N t) {i j g : ℕ} (hi : (i : ℤ) < NRho)
    (hj : (j : ℤ) < NT) {lo : ℝ} {up : Option ℝ} (hgr : GroupIs b g lo up) (hg : g < n)
    {ρ T : ℝ} (hρ : ρ = nodeValue lRhoMin lRhoMax NRho i) (hT : T = nodeValue lTMin lTMax NT j) :
    t.lPlanck.read [i, j, g] =
      ok (.fin (Real.logb 10 (groupPlanckMean Robust.SMALL h k c ρ T lo up N (α ρ T) + Robust.SMALL))) ∧
    t.lRosseland.read [i, j, g] =
      ok (.fin (Real.logb 10 (groupRosselandMean Robust.SMALL h k c ρ T lo up N (α ρ T) + Robust.SMALL))) ∧
    0 ≤ groupPlanckMean Robust.SMALL h k c ρ T lo up N (α ρ T) ∧
    0 ≤ groupRosselandMean Robust.SMALL h k c ρ T lo up N (α ρ T) := by
  have hS := SMALL_pos
  obtain ⟨-, hN, hh, hk, hc⟩ := A.bounds
  obtain ⟨pc, junk, coef, hpc, hcoef, hb⟩ := A.built
  have hρ0 : 0 < ρ := hρ ▸ nodeValue_pos _ _ _ _
  have hT0 : 0 < T := hT ▸ nodeValue_pos _ _ _ _
  have hf := Impl_filled (lit 0) hb
  have hcell := hf.cell j i g hj hi (by simpa using hg) trivial
  obtain ⟨e1, e2, hlo, hhi⟩ := hgr
  have hm : cellMeans pc coef b N (freshGrid (.fin lRhoMin) (.fin lRhoMax) NRho (.fin lTMin) (.fin lTMax) NT) (lit 0) j i g =
      (.fin (groupPlanckMean Robust.SMALL h k c ρ T lo up N (α ρ T)),
       .fin (groupRosselandMean Robust.SMALL h k c ρ T lo up N (α ρ T))) := by
    unfold cellMeans
    rw [show (freshGrid (XR.fin lRhoMin) (.fin lRhoMax) NRho (.fin lTMin) (.fin lTMax) NT) 2 =
        ⟨.fin lRhoMin, .fin lRhoMax, NRho⟩ from rfl,
      show (freshGrid (XR.fin lRhoMin) (.fin lRhoMax) NRho (.fin lTMin) (.fin lTMax) NT) 1 =
        ⟨.fin lTMin, .fin lTMax, NT⟩ from rfl, xr_node A.nRho, xr_node A.nT, ← hρ, ← hT]
    rw [List.getD_eq_getElem?_getD, List.getD_eq_getElem?_getD, e1, e2]
    exact xr_groupMeans hpc hρ0 hT0 hlo hhi (by omega) (fun ν hν => hcoef ρ T ν hρ0 hT0 hν)
      (fun ν hν => A.nonneg ρ T ν hρ0 hT0 hν) rfl rfl
  have hw : ∀ m, 0 < groupNu Robust.SMALL h k T lo up N m ∧ 0 ≤ groupDNu Robust.SMALL h k T lo up N m := by
    intro m
    have hν : 1e-3 * k * T / h < 1e3 * k * T / h := by
      apply div_lt_div_of_pos_right _ hh
      have : 0 < k * T := by positivity
      nlinarith
    have hw := window_pos (lo := lo) (hi := up) (ν₁ := 1e-3 * k * T / h) (ν₂ := 1e3 * k * T / h) (by positivity) hν hlo hhi
    have hp : 0 < groupNu Robust.SMALL h k T lo up N m := binCentre_pos _ _ _ _
    refine ⟨hp, ?_⟩
    have := binWidth_pos (N := N) (a := (groupWindow h k T lo up).1 + Robust.SMALL)
      (b := (groupWindow h k T lo up).2 + Robust.SMALL) (by unfold groupWindow; linarith) (by unfold groupWindow; linarith) (by omega)
    unfold groupDNu
    positivity
  have hP : 0 ≤ groupPlanckMean Robust.SMALL h k c ρ T lo up N (α ρ T) := by
    unfold groupPlanckMean planckMean
    apply div_nonneg
    · apply sum_nonneg
      intro m _
      have := planckWeight_pos hh hk hc hT0 (hw m).1
      have := A.nonneg ρ T _ hρ0 hT0 (hw m).1
      have := (hw m).2
      positivity
    · apply add_nonneg _ hS.le
      apply sum_nonneg
      intro m _
      have := planckWeight_pos hh hk hc hT0 (hw m).1
      have := (hw m).2
      positivity
  have hR : 0 ≤ groupRosselandMean Robust.SMALL h k c ρ T lo up N (α ρ T) := by
    unfold groupRosselandMean rosselandMean
    dsimp only
    split_ifs with hg
    · exact div_nonneg (by linarith [hg.1]) (by linarith [hg.2])
    · exact le_refl _
  rw [hm] at hcell
  refine ⟨?_, ?_, hP, hR⟩
  · rw [hcell.1, xr_toLog, abs_of_nonneg hP]
  · rw [hcell.2, xr_toLog, abs_of_nonneg hR]

/-- **The tabulated means**: at every node and for every group, the table holds the Planck and the Rosseland mean of
the specification, plus the floor -/
theorem C08_table (A : Averaged h k c α lRhoMin lRhoMax NRho lTMin lTMax NT b n N t) {i j g : ℕ} (hi : (i : ℤ) < NRho)
    (hj : (j : ℤ) < NT) {lo : ℝ} {up : Option ℝ} (hgr : GroupIs b g lo up) (hg : g < n)
    {ρ T : ℝ} (hρ : ρ = nodeValue lRhoMin lRhoMax NRho i) (hT : T = nodeValue lTMin lTMax NT j) :
    Tabulated t.lPlanck [i, j, g] (.fin (groupPlanckMean Robust.SMALL h k c ρ T lo up N (α ρ T) + Robust.SMALL)) ∧
    Tabulated t.lRosseland [i, j, g]
      (.fin (groupRosselandMean Robust.SMALL h k c ρ T lo up N (α ρ T) + Robust.SMALL)) ∧
    0 ≤ groupPlanckMean Robust.SMALL h k c ρ T lo up N (α ρ T) ∧
    0 ≤ groupRosselandMean Robust.SMALL h k c ρ T lo up N (α ρ T) := by
  have hS := SMALL_pos
  obtain ⟨h1, h2, hP, hR⟩ := A.read hi hj hgr hg hρ hT
  refine ⟨?_, ?_, hP, hR⟩
  · unfold Tabulated
    rw [h1, map'_ok, xr_fromLog, Real.rpow_logb (by norm_num) (by norm_num) (by positivity)]
  · unfold Tabulated
    rw [h2, map'_ok, xr_fromLog, Real.rpow_logb (by norm_num) (by norm_num) (by positivity)]

/-- the sampled frequencies increase and have positive weights -/
theorem group_pos (hh : 0 < h) (hk : 0 < k) {T lo : ℝ} {up : Option ℝ} (hT : 0 < T) (hlo : 0 ≤ lo)
    (hup : ∀ x ∈ up, lo < x) (hN : 0 < N) :
    0 < (groupWindow h k T lo up).1 ∧ (groupWindow h k T lo up).1 < (groupWindow h k T lo up).2 ∧
    (∀ m, 0 < groupNu Robust.SMALL h k T lo up N m) ∧ (∀ m, 0 < groupDNu Robust.SMALL h k T lo up N m) ∧
    0 < binWidth ((groupWindow h k T lo up).1 + Robust.SMALL) ((groupWindow h k T lo up).2 + Robust.SMALL) N := by
  have hS := SMALL_pos
  have hν : 1e-3 * k * T / h < 1e3 * k * T / h := by
    apply div_lt_div_of_pos_right _ hh
    have : 0 < k * T := by positivity
    nlinarith
  have hw := window_pos (lo := lo) (hi := up) (ν₁ := 1e-3 * k * T / h) (ν₂ := 1e3 * k * T / h) (by positivity) hν hlo hup
  have hΔ := binWidth_pos (N := N) (a := (groupWindow h k T lo up).1 + Robust.SMALL)
      (b := (groupWindow h k T lo up).2 + Robust.SMALL) (by unfold groupWindow; linarith) (by unfold groupWindow; linarith) (by omega)
  have hp : ∀ m, 0 < groupNu Robust.SMALL h k T lo up N m := fun m => binCentre_pos _ _ _ _
  exact ⟨hw.1, hw.2, hp, fun m => mul_pos (hp m) hΔ, hΔ⟩

theorem binCentre_bounds {a b : ℝ} (ha : 0 < a) (hab : a < b) {m : ℕ} (hm : m < N) :
    a < binCentre a b N m ∧ binCentre a b N m < b := by
  have hN : (0 : ℝ) < N := by exact_mod_cast (by omega : 0 < N)
  have hΔ : 0 < binWidth a b N := binWidth_pos ha hab (by omega)
  have hm' : (m : ℝ) + 1 ≤ N := by exact_mod_cast hm
  have hb : 0 < b := ha.trans hab
  have e : binWidth a b N * N = Real.logb 10 b - Real.logb 10 a := by
    unfold binWidth; field_simp
  constructor
  · calc a = 10 ^ Real.logb 10 a := (Real.rpow_logb (by norm_num) (by norm_num) ha).symm
      _ < _ := by
        unfold binCentre
        apply Real.rpow_lt_rpow_of_exponent_lt (by norm_num)
        have : 0 < ((m : ℝ) + 1 / 2) * binWidth a b N := by positivity
        linarith
  · calc binCentre a b N m < 10 ^ Real.logb 10 b := by
          unfold binCentre
          apply Real.rpow_lt_rpow_of_exponent_lt (by norm_num)
          have : ((m : ℝ) + 1 / 2) * binWidth a b N < binWidth a b N * N := by nlinarith
          linarith
      _ = b := Real.rpow_logb (by norm_num) (by norm_num) hb

/-! ## C08 -/

/-- **C08**: every tabulated Planck mean is `K + SMALL` where `K ≥ 0` is at most the largest sampled opacity, and at
least the smallest one times `D/(D + SMALL)`, with `D` the sum of the thermal weights -/
theorem C08_planck (A : Averaged h k c α lRhoMin lRhoMax NRho lTMin lTMax NT b n N t) {i j g : ℕ} (hi : (i : ℤ) < NRho)
    (hj : (j : ℤ) < NT) (hg : g < n) {lo : ℝ} {up : Option ℝ} (hgr : GroupIs b g lo up)
    {ρ T : ℝ} (hρ : ρ = nodeValue lRhoMin lRhoMax NRho i) (hT : T = nodeValue lTMin lTMax NT j) :
    ∃ K D, Tabulated t.lPlanck [i, j, g] (.fin (K + Robust.SMALL)) ∧ 0 ≤ K ∧ 0 < D ∧
      D = planckTotal Robust.SMALL h k c T lo up N ∧
      (∀ M, (∀ m < N, α ρ T (groupNu Robust.SMALL h k T lo up N m) / ρ ≤ M) → K ≤ M) ∧
      (∀ M, (∀ m < N, M ≤ α ρ T (groupNu Robust.SMALL h k T lo up N m) / ρ) → M * (D / (D + Robust.SMALL)) ≤ K) := by
  have hS := SMALL_pos
  obtain ⟨-, hN, hh, hk, hc⟩ := A.bounds
  have hρ0 : 0 < ρ := hρ ▸ nodeValue_pos _ _ _ _
  have hT0 : 0 < T := hT ▸ nodeValue_pos _ _ _ _
  obtain ⟨-, -, p1, p2, -⟩ := group_pos (N := N) hh hk hT0 hgr.2.2.1 hgr.2.2.2 (by omega)
  obtain ⟨h1, -, h2, -⟩ := C08_table A hi hj hgr hg hρ hT
  have hw : ∀ m, 0 < planckWeight h k c T (groupNu Robust.SMALL h k T lo up N m) * groupDNu Robust.SMALL h k T lo up N m :=
    fun m => mul_pos (planckWeight_pos hh hk hc hT0 (p1 m)) (p2 m)
  have hD : 0 < planckTotal Robust.SMALL h k c T lo up N := by
    unfold planckTotal
    exact sum_pos (fun m _ => hw m) ⟨0, by simp; omega⟩
  refine ⟨_, _, h1, h2, hD, rfl, fun M hM => ?_, fun M hM => ?_⟩
  · have hM0 : 0 ≤ M := le_trans (div_nonneg (A.nonneg ρ T _ hρ0 hT0 (p1 0)) hρ0.le) (hM 0 (by omega))
    unfold groupPlanckMean planckMean
    rw [div_le_iff₀ (by have := hD; unfold planckTotal at this; linarith)]
    have : ∑ m ∈ range N, α ρ T (groupNu Robust.SMALL h k T lo up N m) / ρ *
        planckWeight h k c T (groupNu Robust.SMALL h k T lo up N m) * groupDNu Robust.SMALL h k T lo up N m ≤
        M * ∑ m ∈ range N, planckWeight h k c T (groupNu Robust.SMALL h k T lo up N m) * groupDNu Robust.SMALL h k T lo up N m := by
      rw [mul_sum]
      apply sum_le_sum
      intro m hm
      rw [mul_assoc]
      exact mul_le_mul_of_nonneg_right (hM m (mem_range.1 hm)) (hw m).le
    nlinarith
  · unfold groupPlanckMean planckMean
    rw [← mul_div_assoc]
    show M * planckTotal Robust.SMALL h k c T lo up N / (planckTotal Robust.SMALL h k c T lo up N + Robust.SMALL) ≤
      _ / (planckTotal Robust.SMALL h k c T lo up N + Robust.SMALL)
    apply div_le_div_of_nonneg_right _ (by linarith)
    unfold planckTotal
    rw [mul_sum]
    apply sum_le_sum
    intro m hm
    rw [mul_assoc]
    exact mul_le_mul_of_nonneg_right (hM m (mem_range.1 hm)) (hw m).le

/-! ## C09 -/

/-- **C09, partial**: if the opacity is above the floor at every sample, the tabulated Rosseland mean is `K + SMALL`
with `K` at most the largest sampled opacity (plus `SMALL/ρ`), and — unless the thermal weights `D` are comparable to the
floor — at least the smallest sampled opacity, up to the relative error `ε`. -/
theorem C09_partial (A : Averaged h k c α lRhoMin lRhoMax NRho lTMin lTMax NT b n N t) {i j g : ℕ} (hi : (i : ℤ) < NRho)
    (hj : (j : ℤ) < NT) (hg : g < n) {lo : ℝ} {up : Option ℝ} (hgr : GroupIs b g lo up)
    {ρ T : ℝ} (hρ : ρ = nodeValue lRhoMin lRhoMax NRho i) (hT : T = nodeValue lTMin lTMax NT j)
    (hopaque : ∀ m < N, Robust.SMALL < α ρ T (groupNu Robust.SMALL h k T lo up N m)) :
    ∃ K D, Tabulated t.lRosseland [i, j, g] (.fin (K + Robust.SMALL)) ∧ 0 ≤ K ∧ 0 < D ∧
      D = rosselandTotal Robust.SMALL h k c T lo up N ∧
      ∀ M, (∀ m < N, α ρ T (groupNu Robust.SMALL h k T lo up N m) / ρ ≤ M) → K ≤ M + Robust.SMALL / ρ ∧
        ∀ ε M', 0 ≤ ε → ε < 1 → Robust.SMALL < D → Robust.SMALL * (M + Robust.SMALL / ρ) ≤ ε * D → 0 ≤ M' →
          (∀ m < N, M' ≤ α ρ T (groupNu Robust.SMALL h k T lo up N m) / ρ) → M' * (1 - ε) ≤ K := by
  have hS := SMALL_pos
  obtain ⟨-, hN, hh, hk, hc⟩ := A.bounds
  have hρ0 : 0 < ρ := hρ ▸ nodeValue_pos _ _ _ _
  have hT0 : 0 < T := hT ▸ nodeValue_pos _ _ _ _
  obtain ⟨-, -, p1, p2, -⟩ := group_pos (N := N) hh hk hT0 hgr.2.2.1 hgr.2.2.2 (by omega)
  obtain ⟨-, h1, -, h2⟩ := C08_table A hi hj hgr hg hρ hT
  have hw : ∀ m, 0 < rosselandWeight h k c T (groupNu Robust.SMALL h k T lo up N m) * groupDNu Robust.SMALL h k T lo up N m :=
    fun m => mul_pos (rosselandWeight_pos hh hk hc hT0 (p1 m)) (p2 m)
  have hD : 0 < rosselandTotal Robust.SMALL h k c T lo up N := by
    unfold rosselandTotal
    exact sum_pos (fun m _ => hw m) ⟨0, by simp; omega⟩
  -- the numerator
  obtain ⟨num, hnum⟩ : ∃ num, num = ∑ m ∈ range N, ρ / (α ρ T (groupNu Robust.SMALL h k T lo up N m) + Robust.SMALL) *
      (rosselandWeight h k c T (groupNu Robust.SMALL h k T lo up N m) * groupDNu Robust.SMALL h k T lo up N m) := ⟨_, rfl⟩
  have hnum0 : 0 < num := by
    rw [hnum]
    refine sum_pos (fun m hm => mul_pos (div_pos hρ0 ?_) (hw m)) ⟨0, by simp; omega⟩
    have := hopaque m (mem_range.1 hm)
    linarith
  have hK : groupRosselandMean Robust.SMALL h k c ρ T lo up N (α ρ T) =
      if Robust.SMALL < rosselandTotal Robust.SMALL h k c T lo up N ∧ Robust.SMALL < num then
        rosselandTotal Robust.SMALL h k c T lo up N / (num + Robust.SMALL) else 0 := by
    have : (∑ m ∈ range N, if Robust.SMALL < α ρ T (groupNu Robust.SMALL h k T lo up N m) then
        ρ / (α ρ T (groupNu Robust.SMALL h k T lo up N m) + Robust.SMALL) *
          rosselandWeight h k c T (groupNu Robust.SMALL h k T lo up N m) * groupDNu Robust.SMALL h k T lo up N m else 0) = num := by
      rw [hnum]
      apply sum_congr rfl
      intro m hm
      rw [if_pos (hopaque m (mem_range.1 hm)), mul_assoc]
    unfold groupRosselandMean rosselandMean
    simp only [this]
    rfl
  refine ⟨_, _, h1, h2, hD, rfl, fun M hM => ?_⟩
  have hM0 : 0 ≤ M := le_trans (div_nonneg (A.nonneg ρ T _ hρ0 hT0 (p1 0)) hρ0.le) (hM 0 (by omega))
  -- D ≤ (M + SMALL/ρ) num
  have hup : rosselandTotal Robust.SMALL h k c T lo up N ≤ (M + Robust.SMALL / ρ) * num := by
    rw [hnum, mul_sum, rosselandTotal]
    apply sum_le_sum
    intro m hm
    have ha := hopaque m (mem_range.1 hm)
    have hq : 1 ≤ (M + Robust.SMALL / ρ) * (ρ / (α ρ T (groupNu Robust.SMALL h k T lo up N m) + Robust.SMALL)) := by
      rw [← mul_div_assoc, le_div_iff₀ (by linarith), add_mul, div_mul_cancel₀ _ hρ0.ne']
      have := hM m (mem_range.1 hm)
      rw [div_le_iff₀ hρ0] at this
      linarith
    calc _ = 1 * (rosselandWeight h k c T (groupNu Robust.SMALL h k T lo up N m) * groupDNu Robust.SMALL h k T lo up N m) := by ring
      _ ≤ _ := by
        rw [← mul_assoc (M + Robust.SMALL / ρ)]
        exact mul_le_mul_of_nonneg_right hq (hw m).le
  have hMS : 0 < M + Robust.SMALL / ρ := by positivity
  constructor
  · rw [hK]
    split_ifs with hg
    · rw [div_le_iff₀ (by linarith)]
      nlinarith
    · exact hMS.le
  · intro ε M' hε hε1 hgate hsmall hM'0 hM'
    have hlow : M' * num ≤ rosselandTotal Robust.SMALL h k c T lo up N := by
      rw [hnum, mul_sum, rosselandTotal]
      apply sum_le_sum
      intro m hm
      have ha := hopaque m (mem_range.1 hm)
      have hq : M' * (ρ / (α ρ T (groupNu Robust.SMALL h k T lo up N m) + Robust.SMALL)) ≤ 1 := by
        rw [← mul_div_assoc, div_le_iff₀ (by linarith)]
        have := hM' m (mem_range.1 hm)
        rw [le_div_iff₀ hρ0] at this
        linarith
      rw [← mul_assoc]
      calc _ ≤ 1 * (rosselandWeight h k c T (groupNu Robust.SMALL h k T lo up N m) * groupDNu Robust.SMALL h k T lo up N m) :=
            mul_le_mul_of_nonneg_right hq (hw m).le
        _ = _ := by ring
    have hn : Robust.SMALL ≤ ε * num := by
      have h3 : Robust.SMALL * (M + Robust.SMALL / ρ) ≤ ε * num * (M + Robust.SMALL / ρ) := by
        calc _ ≤ ε * rosselandTotal Robust.SMALL h k c T lo up N := hsmall
          _ ≤ ε * ((M + Robust.SMALL / ρ) * num) := mul_le_mul_of_nonneg_left hup hε
          _ = _ := by ring
      exact le_of_mul_le_mul_right h3 hMS
    have hn1 : Robust.SMALL < num := by nlinarith
    rw [hK, if_pos ⟨hgate, hn1⟩, le_div_iff₀ (by linarith)]
    have e1 : (1 - ε) * (num + Robust.SMALL) ≤ num := by nlinarith
    calc M' * (1 - ε) * (num + Robust.SMALL) = M' * ((1 - ε) * (num + Robust.SMALL)) := by ring
      _ ≤ M' * num := mul_le_mul_of_nonneg_left e1 hM'0
      _ ≤ _ := hlow

/-! ## C07 -/

/-- **C07, partial**: for a gray opacity `α = ρκ` above the floor, both tabulated means are `κ` up to the relative error
`ε` and the floor, in every group whose thermal weights are at least `SMALL/ε` (and `SMALL κ/ε`). -/
theorem C07_partial {κ : ℝ} (hκ : 0 < κ)
    (A : Averaged h k c (fun ρ _ _ => ρ * κ) lRhoMin lRhoMax NRho lTMin lTMax NT b n N t) {i j g : ℕ} (hi : (i : ℤ) < NRho)
    (hj : (j : ℤ) < NT) (hg : g < n) {lo : ℝ} {up : Option ℝ} (hgr : GroupIs b g lo up)
    {ρ T : ℝ} (hρ : ρ = nodeValue lRhoMin lRhoMax NRho i) (hT : T = nodeValue lTMin lTMax NT j)
    {ε : ℝ} (hε : 0 ≤ ε) (hε1 : ε < 1) (hopaque : Robust.SMALL < ρ * κ)
    (hD1 : Robust.SMALL ≤ ε * planckTotal Robust.SMALL h k c T lo up N)
    (hD2 : Robust.SMALL < rosselandTotal Robust.SMALL h k c T lo up N)
    (hD3 : Robust.SMALL * (κ + Robust.SMALL / ρ) ≤ ε * rosselandTotal Robust.SMALL h k c T lo up N) :
    ∃ KP KR, Tabulated t.lPlanck [i, j, g] (.fin (KP + Robust.SMALL)) ∧
      Tabulated t.lRosseland [i, j, g] (.fin (KR + Robust.SMALL)) ∧
      κ * (1 - ε) ≤ KP ∧ KP ≤ κ ∧ κ * (1 - ε) ≤ KR ∧ KR ≤ κ + Robust.SMALL / ρ := by
  have hS := SMALL_pos
  have hρ0 : 0 < ρ := hρ ▸ nodeValue_pos _ _ _ _
  have e : ρ * κ / ρ = κ := by field_simp
  obtain ⟨KP, D, a1, a2, a3, a4, a5, a6⟩ := C08_planck A hi hj hg hgr hρ hT
  obtain ⟨KR, D', b1, b2, b3, b4, b5⟩ := C09_partial A hi hj hg hgr hρ hT (fun _ _ => hopaque)
  have b6 := b5 κ (fun m _ => by rw [e])
  refine ⟨KP, KR, a1, b1, le_trans ?_ (a6 κ (fun m _ => by rw [e])), a5 κ (fun m _ => by rw [e]),
    b6.2 ε κ hε hε1 (by rw [b4]; exact hD2) (by rw [b4]; exact hD3) hκ.le (fun m _ => by rw [e]), b6.1⟩
  apply mul_le_mul_of_nonneg_left _ hκ.le
  rw [le_div_iff₀ (by linarith)]
  rw [← a4] at hD1
  nlinarith

/-! ## C10 -/

/-- a group that is not far from the thermal range `[ν₁, ν₂]`, or reaches down to half of its upper bound -/
def NearThermal (ν₁ ν₂ lo : ℝ) (up : Option ℝ) : Prop :=
  (lo < ν₂ ∧ ∀ x ∈ up, ν₁ < x) ∨ (0.1 * ν₁ ≤ lo ∧ ∃ x ∈ up, x ≤ 10 * ν₂) ∨ ∃ x ∈ up, lo ≤ x / 2

theorem window_inside {ν₁ ν₂ lo : ℝ} {up : Option ℝ} (h1 : 0 < ν₁) (h2 : ν₁ < ν₂) (hup : ∀ x ∈ up, lo < x)
    (hn : NearThermal ν₁ ν₂ lo up) : lo ≤ (window ν₁ ν₂ lo up).1 ∧ ∀ x ∈ up, (window ν₁ ν₂ lo up).2 ≤ x := by
  unfold window NearThermal at *
  cases up with
  | none =>
    simp only [Option.not_mem_none, false_implies, implies_true, and_true, false_and, exists_false, and_false, or_false] at *
    split_ifs with ha hb hb
    · linarith
    · rcases ha with ha | ha <;> simp only <;> nlinarith
    · simp only; push Not at ha; linarith
    · simp only; linarith
  | some x =>
    simp only [Option.mem_some_iff, forall_eq', exists_eq_left'] at *
    have hc : lo = 0 ∨ lo ≠ 0 := em _
    split_ifs <;> refine ⟨?_, ?_⟩ <;> (try push Not at *) <;>
      rcases hn with ⟨n1, n2⟩ | ⟨n1, n2⟩ | n1 <;>
      rcases hc with hz | hz <;> simp_all <;> linarith

/-- **C10, partial**: while averaging over a group, the opacity is evaluated exactly `N` times, at strictly increasing
positive frequencies, with positive weights; and — if the group is not far from the thermal range — inside the group (up
to the floor at its upper end) -/
theorem C10_partial {pc : PC XR} (hpc : FinitePC pc h k c) {T lo : ℝ} {up : Option ℝ} (hT : 0 < T) (hlo : 0 ≤ lo)
    (hup : ∀ x ∈ up, lo < x) {N : ℕ} (hN : 0 < N) :
    ∃ ν w : ℕ → ℝ, GroupFrequencySamples pc (.fin T) (.fin lo) (upper up) N =
        (List.range N).map (fun i => (XR.fin (ν i), XR.fin (w i))) ∧
      (∀ i j, i < j → ν i < ν j) ∧ (∀ i, 0 < ν i ∧ 0 < w i) ∧
      (NearThermal (1e-3 * k * T / h) (1e3 * k * T / h) lo up →
        ∀ i < N, lo < ν i ∧ ∀ x ∈ up, ν i < x + Robust.SMALL) := by
  have hS := SMALL_pos
  have hh := hpc.h_pos; have hk := hpc.k_pos
  obtain ⟨w1, w2, p1, p2, p3⟩ := group_pos (N := N) hh hk hT hlo hup hN
  refine ⟨groupNu Robust.SMALL h k T lo up N, groupDNu Robust.SMALL h k T lo up N,
    xr_samples hpc hT hlo hup hN rfl rfl, ?_, fun i => ⟨p1 i, p2 i⟩, ?_⟩
  · intro i j hij
    unfold groupNu binCentre
    apply Real.rpow_lt_rpow_of_exponent_lt (by norm_num)
    have : (i : ℝ) < j := by exact_mod_cast hij
    nlinarith
  · intro hnear i hi
    have hν : 1e-3 * k * T / h < 1e3 * k * T / h := by
      apply div_lt_div_of_pos_right _ hh
      have : 0 < k * T := by positivity
      nlinarith
    obtain ⟨i1, i2⟩ := window_inside (by positivity) hν hup hnear
    obtain ⟨b1, b2⟩ := binCentre_bounds (N := N) (a := (groupWindow h k T lo up).1 + Robust.SMALL)
      (b := (groupWindow h k T lo up).2 + Robust.SMALL) (by linarith) (by linarith) hi
    refine ⟨?_, fun x hx => ?_⟩
    · exact lt_of_le_of_lt i1 (lt_trans (by show (groupWindow h k T lo up).1 < _; linarith) b1)
    · exact lt_of_lt_of_le b2 (by have : (groupWindow h k T lo up).2 ≤ x := i2 x hx; linarith)

end
end Opac.Photons
