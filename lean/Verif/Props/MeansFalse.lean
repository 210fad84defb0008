import Mathlib.Analysis.Complex.ExponentialBounds
import Verif.Props.Means
import Verif.Props.MeanLookup

/-!
# C07, C09, C10: where they fail, and that the hypotheses of `Props/Means.lean` are met
-/

namespace Opac.Photons
open Arith Outcome Spec Spiner Finset

/-- an opacity given by real numbers -/
noncomputable def realCoef (α : ℝ → ℝ → ℝ → ℝ) : XR → XR → XR → XR
  | .fin ρ, .fin T, .fin ν => .fin (α ρ T ν)
  | _, _, _ => .nan

/-- constants that are all 1 -/
noncomputable def onesPC : PC XR where
  na := .fin 1
  alpha := .fin 1
  h := .fin 1
  hbar := .fin 1
  kb := .fin 1
  r_gas := .fin 1
  qe := .fin 1
  c := .fin 1
  g_newt := .fin 1
  me := .fin 1
  mp := .fin 1
  mn := .fin 1
  amu := .fin 1
  sb := .fin 1
  ar := .fin 1
  eV := .fin 1
  Fc := .fin 1
  nu_sigma0 := .fin 1
  gA := .fin 1

theorem onesPC_finite : FinitePC onesPC 1 1 1 := ⟨rfl, rfl, rfl, one_pos, one_pos, one_pos⟩

/-- for every nonnegative opacity, finite grid with at least 2×2 nodes, acceptable bounds and at least two samples per
group, the table is computed: the hypotheses of C07–C09 are met -/
theorem averaged_exists {pc : PC XR} {h k c : ℝ} (hpc : FinitePC pc h k c) {coef : XR → XR → XR → XR}
    {α : ℝ → ℝ → ℝ → ℝ} (hα : ∀ ρ T ν, 0 < ρ → 0 < T → 0 < ν → 0 ≤ α ρ T ν)
    (hcoef : ∀ ρ T ν, 0 < ρ → 0 < T → 0 < ν → coef (.fin ρ) (.fin T) (.fin ν) = .fin (α ρ T ν))
    (lRhoMin lRhoMax : ℝ) {NRho : ℤ} (h1 : 2 ≤ NRho) (lTMin lTMax : ℝ) {NT : ℤ} (h2 : 2 ≤ NT) {b : List XR} {n : ℕ}
    (hb : AcceptableBounds b (n : ℤ)) {N : ℕ} (hN : 2 ≤ N) (junk : ℕ → XR) :
    ∃ t, MGTables.Impl_ pc junk coef (.fin lRhoMin) (.fin lRhoMax) NRho (.fin lTMin) (.fin lTMax) NT b n N = ok t ∧
      Averaged h k c α lRhoMin lRhoMax NRho lTMin lTMax NT b n N t := by
  obtain ⟨t, ht⟩ := Impl_returns (pc := pc) (coef := coef) (junk := junk) (lRhoMin := .fin lRhoMin)
    (lRhoMax := .fin lRhoMax) (NRho := NRho) (lTMin := .fin lTMin) (lTMax := .fin lTMax) (NT := NT) (NNu := (N : ℤ))
    (dflt := lit 0) (by omega) hb (by
      intro j i g _ _ hg
      obtain ⟨lo, up, e1, e2, hlo, hup⟩ := groupIs_exists hb (g := g) (by simpa using hg)
      have hm : cellMeans pc coef b N (freshGrid (.fin lRhoMin) (.fin lRhoMax) NRho (.fin lTMin) (.fin lTMax) NT) (lit 0) j i g =
          (.fin (groupPlanckMean Robust.SMALL h k c (nodeValue lRhoMin lRhoMax NRho i) (nodeValue lTMin lTMax NT j) lo up N
              (α (nodeValue lRhoMin lRhoMax NRho i) (nodeValue lTMin lTMax NT j))),
           .fin (groupRosselandMean Robust.SMALL h k c (nodeValue lRhoMin lRhoMax NRho i) (nodeValue lTMin lTMax NT j) lo up N
              (α (nodeValue lRhoMin lRhoMax NRho i) (nodeValue lTMin lTMax NT j)))) := by
        unfold cellMeans
        rw [show (freshGrid (XR.fin lRhoMin) (.fin lRhoMax) NRho (.fin lTMin) (.fin lTMax) NT) 2 =
            ⟨.fin lRhoMin, .fin lRhoMax, NRho⟩ from rfl,
          show (freshGrid (XR.fin lRhoMin) (.fin lRhoMax) NRho (.fin lTMin) (.fin lTMax) NT) 1 =
            ⟨.fin lTMin, .fin lTMax, NT⟩ from rfl, xr_node h1, xr_node h2]
        rw [List.getD_eq_getElem?_getD, List.getD_eq_getElem?_getD, e1, e2]
        have p1 := nodeValue_pos lRhoMin lRhoMax NRho i
        have p2 := nodeValue_pos lTMin lTMax NT j
        exact xr_groupMeans hpc p1 p2 hlo hup (by omega) (fun ν hν => hcoef _ _ ν p1 p2 hν)
          (fun ν hν => hα _ _ ν p1 p2 hν) rfl rfl
      rw [hm]
      simp only [xr_toLog]
      exact ⟨rfl, rfl⟩)
  exact ⟨t, ht, ⟨hα, h1, h2, pc, junk, coef, hpc, hcoef, ht⟩⟩

/-- the gray opacity has such values -/
theorem gray_coef (pc : PC XR) (κ ρ T ν : ℝ) :
    PhotonAPI.AbsorptionCoefficient (R := XR) (GrayOpacity.mk pc (.fin κ)) (.fin ρ) (.fin T) (.fin ν) = .fin (ρ * κ) := rfl

/-- **C07–C09 are about the API**: the constructor of a mean opacity from a gray opacity returns such a table -/
theorem C07_gray_exists {pc : PC XR} {h k c : ℝ} (hpc : FinitePC pc h k c) {κ : ℝ} (hκ : 0 < κ)
    (lRhoMin lRhoMax : ℝ) {NRho : ℤ} (h1 : 2 ≤ NRho) (lTMin lTMax : ℝ) {NT : ℤ} (h2 : 2 ≤ NT) {b : List XR} {n : ℕ}
    (hb : AcceptableBounds b (n : ℤ)) {N : ℕ} (hN : 2 ≤ N) (junk : ℕ → XR) :
    ∃ o, MeanOpacityBase.construct pc junk (GrayOpacity.mk pc (.fin κ)) (.fin lRhoMin) (.fin lRhoMax) NRho (.fin lTMin)
        (.fin lTMax) NT b n N = ok o ∧
      Averaged h k c (fun ρ _ _ => ρ * κ) lRhoMin lRhoMax NRho lTMin lTMax NT b n N o.t := by
  obtain ⟨t, e, A⟩ := averaged_exists hpc (α := fun ρ _ _ => ρ * κ)
    (coef := PhotonAPI.AbsorptionCoefficient (GrayOpacity.mk pc (.fin κ)))
    (fun ρ _ _ h _ _ => by positivity) (fun ρ T ν _ _ _ => gray_coef pc κ ρ T ν) lRhoMin lRhoMax h1 lTMin lTMax h2 hb hN junk
  exact ⟨⟨pc, t⟩, by unfold MeanOpacityBase.construct; rw [e]; rfl, A⟩

/-- one group `[lo, hi]` -/
theorem oneGroup {lo hi : ℝ} (h0 : 0 ≤ lo) (h1 : lo < hi) :
    AcceptableBounds [XR.fin lo, .fin hi] ((1 : ℕ) : ℤ) ∧ GroupIs [XR.fin lo, .fin hi] 0 lo (some hi) := by
  refine ⟨⟨by norm_num, by simp, ?_, ?_, ?_, ?_⟩, rfl, rfl, h0, by simpa using h1⟩
  · intro i x hi hx
    rcases i with _ | _ | i
    · simp at hx; subst hx; rfl
    · simp at hx; subst hx; rfl
    · push_cast at hi; omega
  · intro x hx
    simp at hx
    subst hx
    simp only [axr]; exact_mod_cast h0
  · intro i x y hi hx hy
    have : i = 0 := by push_cast at hi; omega
    subst this
    simp at hx hy
    subst hx hy
    simpa only [axr] using h1
  · intro i x hi hx
    have : i = 0 := by push_cast at hi; omega
    subst this
    simp at hx
    subst hx
    rfl

theorem node0 (l l' : ℝ) (N : ℤ) : nodeValue l l' N 0 = 10 ^ l := by simp [nodeValue]

theorem SMALL_tiny : (Robust.SMALL : ℝ) < 1e-6 := by
  rw [real_SMALL]
  have h : (2 : ℝ) ^ (-1022 : ℤ) ≤ (2 : ℝ) ^ (-30 : ℤ) := zpow_le_zpow_right₀ (by norm_num) (by norm_num)
  have e : (2 : ℝ) ^ (-30 : ℤ) = 1 / 1073741824 := by norm_num
  rw [e] at h
  generalize (2 : ℝ) ^ (-1022 : ℤ) = A at *
  norm_num
  linarith

/-- **C07 is false** far in the Wien tail: for `κ = 1`, unit constants, density 1, temperature 1 and the single group
`[2000, 3000]`, both tabulated means are below `2^-900`, not 1: the floor in the denominator exceeds the thermal weights. -/
theorem C07_false : ∃ (t : MGTables XR) (KP KR : ℝ),
    Averaged 1 1 1 (fun ρ _ _ => ρ * 1) 0 1 2 0 1 2 [.fin 2000, .fin 3000] 1 2 t ∧
    nodeValue 0 1 2 0 = 1 ∧
    Tabulated t.lPlanck [0, 0, 0] (.fin (KP + Robust.SMALL)) ∧ KP ≤ 2 ^ (-900 : ℤ) ∧
    Tabulated t.lRosseland [0, 0, 0] (.fin (KR + Robust.SMALL)) ∧ KR = 0 := by
  have hS := SMALL_pos
  have hS' := SMALL_tiny
  obtain ⟨hb, hgr⟩ := oneGroup (lo := 2000) (hi := 3000) (by norm_num) (by norm_num)
  obtain ⟨t, -, A⟩ := averaged_exists onesPC_finite (α := fun ρ _ _ => ρ * 1) (coef := realCoef (fun ρ _ _ => ρ * 1))
    (fun ρ _ _ h _ _ => by positivity) (fun _ _ _ _ _ _ => rfl) 0 1 (NRho := 2) (by norm_num) 0 1 (NT := 2) (by norm_num)
    hb (N := 2) (by norm_num) (fun _ => .fin 0)
  have h1 : nodeValue 0 1 2 0 = 1 := by rw [node0]; norm_num
  have htab := C08_table A (i := 0) (j := 0) (by norm_num) (by norm_num) hgr (by norm_num) (ρ := 1) (T := 1) h1.symm h1.symm
  have hw : groupWindow 1 1 1 2000 (some 3000) = (2000, 3000) := by
    unfold groupWindow window; norm_num
  have hbnd : ∀ m < 2, 2000 < groupNu Robust.SMALL 1 1 1 2000 (some 3000) 2 m ∧
      groupNu Robust.SMALL 1 1 1 2000 (some 3000) 2 m < 4000 := by
    intro m hm
    have := binCentre_bounds (N := 2) (a := 2000 + Robust.SMALL) (b := 3000 + Robust.SMALL) (by linarith) (by linarith) hm
    unfold groupNu
    rw [hw]
    exact ⟨by linarith [this.1], by linarith [this.2]⟩
  have hΔ : 0 < binWidth (2000 + Robust.SMALL) (3000 + Robust.SMALL) 2 ∧
      binWidth (2000 + Robust.SMALL) (3000 + Robust.SMALL) 2 ≤ 1 := by
    refine ⟨binWidth_pos (by linarith) (by linarith) (by norm_num), ?_⟩
    unfold binWidth
    have : Real.logb 10 (3000 + Robust.SMALL) ≤ Real.logb 10 (10 * (2000 + Robust.SMALL)) :=
      Real.logb_le_logb_of_le (by norm_num) (by linarith) (by linarith)
    rw [Real.logb_mul (by norm_num) (by linarith), Real.logb_self_eq_one (by norm_num)] at this
    push_cast
    linarith
  have hexp : ∀ x : ℝ, 2000 < x → Real.exp (-x) ≤ 2 ^ (-2000 : ℤ) := by
    intro x hx
    have e2 : (2 : ℝ) ≤ Real.exp 1 := by have := Real.add_one_le_exp (1 : ℝ); linarith
    have : Real.exp (-x) ≤ Real.exp (-2000) := Real.exp_le_exp.2 (by linarith)
    refine this.trans ?_
    rw [Real.exp_neg, zpow_neg]
    apply inv_anti₀ (by positivity)
    have e3 : Real.exp 2000 = Real.exp 1 ^ (2000 : ℕ) := by rw [← Real.exp_nat_mul]; norm_num
    rw [e3]
    exact pow_le_pow_left₀ (by norm_num) e2 2000
  -- each weight
  have hterm : ∀ m < 2, planckWeight 1 1 1 1 (groupNu Robust.SMALL 1 1 1 2000 (some 3000) 2 m) *
        groupDNu Robust.SMALL 1 1 1 2000 (some 3000) 2 m ≤ 2 ^ (60 : ℤ) * 2 ^ (-2000 : ℤ) ∧
      0 ≤ planckWeight 1 1 1 1 (groupNu Robust.SMALL 1 1 1 2000 (some 3000) 2 m) *
        groupDNu Robust.SMALL 1 1 1 2000 (some 3000) 2 m ∧
      rosselandWeight 1 1 1 1 (groupNu Robust.SMALL 1 1 1 2000 (some 3000) 2 m) *
        groupDNu Robust.SMALL 1 1 1 2000 (some 3000) 2 m ≤ 2 ^ (70 : ℤ) * 2 ^ (-2000 : ℤ) := by
    intro m hm
    obtain ⟨b1, b2⟩ := hbnd m hm
    unfold groupDNu
    rw [hw]
    generalize groupNu Robust.SMALL 1 1 1 2000 (some 3000) 2 m = ν at *
    have e := hexp ν b1
    have e0 := Real.exp_pos (-ν)
    have n80 : ¬ (1 * ν / (1 * 1) < 80) := by norm_num; linarith
    unfold planckWeight rosselandWeight
    rw [if_neg n80, if_neg n80]
    have ex : 1 * ν / (1 * 1) = ν := by norm_num
    rw [ex]
    simp only
    generalize binWidth (2000 + Robust.SMALL) (3000 + Robust.SMALL) 2 = Δ at *
    generalize Real.exp (-ν) = E at *
    generalize (2 : ℝ) ^ (-2000 : ℤ) = X at *
    have ν0 : 0 < ν := by linarith
    have X0 : 0 ≤ X := e0.le.trans e
    have c3 : ν ^ 3 ≤ 4000 ^ 3 := pow_le_pow_left₀ ν0.le b2.le 3
    have c4 : ν ^ 4 ≤ 4000 ^ 4 := pow_le_pow_left₀ ν0.le b2.le 4
    have d : ν * Δ ≤ 4000 * 1 := mul_le_mul b2.le hΔ.2 hΔ.1.le (by norm_num)
    have d0 : 0 ≤ ν * Δ := by have := hΔ.1; positivity
    refine ⟨?_, ?_, ?_⟩
    · calc 2 * 1 * ν ^ 3 / 1 ^ 2 * E * (ν * Δ) = (2 * ν ^ 3) * E * (ν * Δ) := by ring
        _ ≤ (2 * 4000 ^ 3) * X * (4000 * 1) := by gcongr
        _ ≤ _ := by
          have : (2 : ℝ) ^ (60 : ℤ) = 1152921504606846976 := by norm_num
          rw [this]
          nlinarith
    · have := hΔ.1; positivity
    · calc 2 * 1 ^ 2 * ν ^ 4 / (1 ^ 2 * 1 ^ 2 * 1) * E * (ν * Δ) = (2 * ν ^ 4) * E * (ν * Δ) := by ring
        _ ≤ (2 * 4000 ^ 4) * X * (4000 * 1) := by gcongr
        _ ≤ _ := by
          have : (2 : ℝ) ^ (70 : ℤ) = 1180591620717411303424 := by norm_num
          rw [this]
          nlinarith
  have hD1 : planckTotal Robust.SMALL 1 1 1 1 2000 (some 3000) 2 ≤ 2 ^ (-1930 : ℤ) ∧
      0 ≤ planckTotal Robust.SMALL 1 1 1 1 2000 (some 3000) 2 := by
    unfold planckTotal
    rw [sum_range_succ, sum_range_succ, sum_range_zero]
    have a := hterm 0 (by norm_num); have b := hterm 1 (by norm_num)
    rw [← zpow_add₀ (by norm_num)] at a b
    have e : (2 : ℝ) ^ (-1930 : ℤ) = 2 ^ (10 : ℕ) * 2 ^ ((60 : ℤ) + -2000) := by
      rw [← zpow_natCast, ← zpow_add₀ (by norm_num)]; norm_num
    have p : (0 : ℝ) < 2 ^ ((60 : ℤ) + -2000) := by positivity
    rw [e]
    generalize (2 : ℝ) ^ ((60 : ℤ) + -2000) = Y at *
    exact ⟨by norm_num; linarith [a.1, b.1], by linarith [a.2.1, b.2.1]⟩
  have hD2 : rosselandTotal Robust.SMALL 1 1 1 1 2000 (some 3000) 2 ≤ 2 ^ (-1920 : ℤ) := by
    unfold rosselandTotal
    rw [sum_range_succ, sum_range_succ, sum_range_zero]
    have a := (hterm 0 (by norm_num)).2.2; have b := (hterm 1 (by norm_num)).2.2
    rw [← zpow_add₀ (by norm_num)] at a b
    have e : (2 : ℝ) ^ (-1920 : ℤ) = 2 ^ (10 : ℕ) * 2 ^ ((70 : ℤ) + -2000) := by
      rw [← zpow_natCast, ← zpow_add₀ (by norm_num)]; norm_num
    have p : (0 : ℝ) < 2 ^ ((70 : ℤ) + -2000) := by positivity
    rw [e]
    generalize (2 : ℝ) ^ ((70 : ℤ) + -2000) = Y at *
    norm_num; linarith [a, b]
  have hSge : (2 : ℝ) ^ (-1022 : ℤ) ≤ Robust.SMALL := by
    rw [real_SMALL]
    have : (0 : ℝ) < 2 ^ (-1022 : ℤ) := by positivity
    generalize (2 : ℝ) ^ (-1022 : ℤ) = Y at *
    linarith
  refine ⟨t, _, _, A, h1, htab.1, ?_, htab.2.1, ?_⟩
  · unfold groupPlanckMean planckMean
    show (∑ i ∈ range 2, 1 * 1 / 1 * _ * _) / (planckTotal Robust.SMALL 1 1 1 1 2000 (some 3000) 2 + Robust.SMALL) ≤ _
    have : (∑ i ∈ range 2, (1 : ℝ) * 1 / 1 * planckWeight 1 1 1 1 (groupNu Robust.SMALL 1 1 1 2000 (some 3000) 2 i) *
        groupDNu Robust.SMALL 1 1 1 2000 (some 3000) 2 i) = planckTotal Robust.SMALL 1 1 1 1 2000 (some 3000) 2 := by
      unfold planckTotal
      apply sum_congr rfl
      intro i _
      ring
    rw [this, div_le_iff₀ (by linarith [hD1.2])]
    have q : (2 : ℝ) ^ (-1930 : ℤ) ≤ 2 ^ (-900 : ℤ) * 2 ^ (-1022 : ℤ) := by
      rw [← zpow_add₀ (by norm_num)]
      exact zpow_le_zpow_right₀ (by norm_num) (by norm_num)
    have q0 : (0 : ℝ) < 2 ^ (-900 : ℤ) := by positivity
    have q1 := hD1.1; have q2 := hD1.2
    generalize (2 : ℝ) ^ (-900 : ℤ) = X at *
    generalize (2 : ℝ) ^ (-1930 : ℤ) = Z at *
    generalize (2 : ℝ) ^ (-1022 : ℤ) = Y at *
    nlinarith
  · unfold groupRosselandMean rosselandMean
    dsimp only
    rw [if_neg]
    rintro ⟨hh, -⟩
    have hh' : Robust.SMALL < rosselandTotal Robust.SMALL 1 1 1 1 2000 (some 3000) 2 := hh
    have q : (2 : ℝ) ^ (-1920 : ℤ) ≤ 2 ^ (-1022 : ℤ) := zpow_le_zpow_right₀ (by norm_num) (by norm_num)
    generalize (2 : ℝ) ^ (-1920 : ℤ) = Z at *
    generalize (2 : ℝ) ^ (-1022 : ℤ) = Y at *
    linarith

/-- the Rosseland weights of the two samples of the group `[1, 2]`, with unit constants and temperature 1 -/
theorem weight_lower {m : ℕ} (hm : m < 2) :
    1 / 1000 ≤ rosselandWeight 1 1 1 1 (groupNu Robust.SMALL 1 1 1 1 (some 2) 2 m) *
      groupDNu Robust.SMALL 1 1 1 1 (some 2) 2 m ∧
    1 < groupNu Robust.SMALL 1 1 1 1 (some 2) 2 m ∧ groupNu Robust.SMALL 1 1 1 1 (some 2) 2 m < 3 := by
  have hS := SMALL_pos
  have hS' := SMALL_tiny
  have hw : groupWindow 1 1 1 1 (some 2) = (1, 2) := by unfold groupWindow window; norm_num
  have hb := binCentre_bounds (N := 2) (a := 1 + Robust.SMALL) (b := 2 + Robust.SMALL) (by linarith) (by linarith) hm
  have hΔ : 1 / 20 ≤ binWidth (1 + Robust.SMALL) (2 + Robust.SMALL) 2 := by
    have h1 : Real.logb 10 (3 / 2 * (1 + Robust.SMALL)) ≤ Real.logb 10 (2 + Robust.SMALL) :=
      Real.logb_le_logb_of_le (by norm_num) (by linarith) (by linarith)
    rw [Real.logb_mul (by norm_num) (by linarith)] at h1
    have h2 : (1 : ℝ) / 10 ≤ Real.logb 10 (3 / 2) := by
      rw [Real.le_logb_iff_rpow_le (by norm_num) (by norm_num)]
      have h3 : ((10 : ℝ) ^ ((1 : ℝ) / 10)) ^ (10 : ℕ) ≤ (3 / 2) ^ (10 : ℕ) := by
        rw [← Real.rpow_natCast, ← Real.rpow_mul (by norm_num)]
        norm_num
      exact le_of_pow_le_pow_left₀ (by norm_num) (by norm_num) h3
    unfold binWidth
    push_cast
    linarith
  unfold groupDNu
  unfold groupNu
  rw [hw]
  simp only
  generalize binCentre (1 + Robust.SMALL) (2 + Robust.SMALL) 2 m = ν at *
  generalize binWidth (1 + Robust.SMALL) (2 + Robust.SMALL) 2 = Δ at *
  have ν1 : 1 < ν := by linarith [hb.1]
  have ν3 : ν < 3 := by linarith [hb.2]
  refine ⟨?_, ν1, ν3⟩
  unfold rosselandWeight planckLawDT
  have ex : 1 * ν / (1 * 1) = ν := by norm_num
  rw [ex, if_pos (by linarith)]
  have e1 : 1 / 27 ≤ Real.exp (-ν) := by
    have h1 : Real.exp (-3) ≤ Real.exp (-ν) := Real.exp_le_exp.2 (by linarith)
    have h2 : Real.exp 3 = Real.exp 1 ^ (3 : ℕ) := by rw [← Real.exp_nat_mul]; norm_num
    have h3 : Real.exp 1 ^ (3 : ℕ) ≤ 3 ^ 3 := pow_le_pow_left₀ (Real.exp_pos 1).le (by linarith [Real.exp_one_lt_d9]) 3
    have h4 : (1 : ℝ) / 27 ≤ Real.exp (-3) := by
      rw [Real.exp_neg, h2, one_div]
      exact inv_anti₀ (by positivity) (by linarith)
    linarith
  have e2 : Real.exp (-ν) < 1 := by rw [← Real.exp_zero]; exact Real.exp_lt_exp.2 (by linarith)
  generalize Real.exp (-ν) = E at *
  have q0 : 0 < (1 - E) ^ 2 := by have : 0 < 1 - E := by linarith
                                  positivity
  have q1 : (1 - E) ^ 2 ≤ 1 := by nlinarith
  have w1 : E ≤ E / (1 - E) ^ 2 := by
    rw [le_div_iff₀ q0]; nlinarith
  have p4 : 1 ≤ ν ^ 4 := one_le_pow₀ ν1.le
  calc (1 : ℝ) / 1000 ≤ 2 * 1 * (1 / 27) * (1 * (1 / 20)) := by norm_num
    _ ≤ 2 * ν ^ 4 * (E / (1 - E) ^ 2) * (ν * Δ) := by
      have : (1 : ℝ) / 27 ≤ E / (1 - E) ^ 2 := e1.trans w1
      gcongr
    _ = _ := by ring

/-- **C09 is false**: with a transparent sample, the Rosseland mean can exceed every sampled opacity.  Unit constants,
density 1, temperature 1, the group `[1, 2]` with two samples, at one of which the opacity is 1 and at the other 0: the
tabulated mean is above 1.4. -/
theorem C09_false : ∃ (α : ℝ → ℝ → ℝ → ℝ) (t : MGTables XR) (K : ℝ),
    Averaged 1 1 1 α 0 1 2 0 1 2 [.fin 1, .fin 2] 1 2 t ∧
    nodeValue 0 1 2 0 = 1 ∧ (∀ ρ T ν, 0 < ρ → α ρ T ν / ρ ≤ 1) ∧
    Tabulated t.lRosseland [0, 0, 0] (.fin (K + Robust.SMALL)) ∧ 1.4 < K := by
  have hS := SMALL_pos
  have hS' := SMALL_tiny
  obtain ⟨hb, hgr⟩ := oneGroup (lo := 1) (hi := 2) (by norm_num) (by norm_num)
  have h1 : nodeValue 0 1 2 0 = 1 := by rw [node0]; norm_num
  have w0 := (weight_lower (m := 0) (by norm_num)).1
  have w1 := (weight_lower (m := 1) (by norm_num)).1
  -- any split of the two samples into an opaque and a transparent one
  have key : ∀ (f : ℝ → ℝ), (∀ x, f x = 0 ∨ f x = 1) →
      (let S := (Robust.SMALL : ℝ)
       let d m := rosselandWeight 1 1 1 1 (groupNu S 1 1 1 1 (some 2) 2 m) * groupDNu S 1 1 1 1 (some 2) 2 m
       let ν m := groupNu S 1 1 1 1 (some 2) 2 m
       (f (ν 0) = 1 ∧ f (ν 1) = 0 ∧ d 0 ≤ d 1) ∨ (f (ν 0) = 0 ∧ f (ν 1) = 1 ∧ d 1 ≤ d 0)) →
      ∃ (α : ℝ → ℝ → ℝ → ℝ) (t : MGTables XR) (K : ℝ),
        Averaged 1 1 1 α 0 1 2 0 1 2 [.fin 1, .fin 2] 1 2 t ∧
        nodeValue 0 1 2 0 = 1 ∧ (∀ ρ T ν, 0 < ρ → α ρ T ν / ρ ≤ 1) ∧
        Tabulated t.lRosseland [0, 0, 0] (.fin (K + Robust.SMALL)) ∧ 1.4 < K := by
    intro f hf hcase
    obtain ⟨t, -, A⟩ := averaged_exists onesPC_finite (α := fun ρ _ ν => ρ * f ν) (coef := realCoef (fun ρ _ ν => ρ * f ν))
      (fun ρ _ ν h _ _ => by rcases hf ν with e | e <;> rw [e] <;> linarith)
      (fun _ _ _ _ _ _ => rfl) 0 1 (NRho := 2) (by norm_num) 0 1 (NT := 2) (by norm_num)
      hb (N := 2) (by norm_num) (fun _ => .fin 0)
    have htab := C08_table A (i := 0) (j := 0) (by norm_num) (by norm_num) hgr (by norm_num) (ρ := 1) (T := 1) h1.symm h1.symm
    refine ⟨_, t, _, A, h1, ?_, htab.2.1, ?_⟩
    · intro ρ T ν hρ
      rw [div_le_one hρ]
      rcases hf ν with e | e <;> rw [e] <;> linarith
    · unfold groupRosselandMean rosselandMean
      simp only [sum_range_succ, sum_range_zero, zero_add, one_mul]
      simp only at hcase
      generalize rosselandWeight 1 1 1 1 (groupNu Robust.SMALL 1 1 1 1 (some 2) 2 0) = a0 at *
      generalize rosselandWeight 1 1 1 1 (groupNu Robust.SMALL 1 1 1 1 (some 2) 2 1) = a1 at *
      generalize groupDNu Robust.SMALL 1 1 1 1 (some 2) 2 0 = b0 at *
      generalize groupDNu Robust.SMALL 1 1 1 1 (some 2) 2 1 = b1 at *
      generalize (Robust.SMALL : ℝ) = S at *
      have fin : ∀ d D : ℝ, 1 / 1000 ≤ d → d ≤ D → (S < d + D ∧ S < 1 / (1 + S) * d) ∧
          1.4 < (d + D) / (1 / (1 + S) * d + S) := by
        intro d D hd hD
        have p1 : 0 < 1 / (1 + S) := by positivity
        have p2 : 1 / (1 + S) ≤ 1 := by rw [div_le_one (by linarith)]; linarith
        have p3 : 1 / 2 ≤ 1 / (1 + S) := by
          apply one_div_le_one_div_of_le (by linarith)
          norm_num at hS'; linarith
        generalize 1 / (1 + S) = q at *
        norm_num at hS'
        refine ⟨⟨by linarith, by nlinarith⟩, ?_⟩
        rw [lt_div_iff₀ (by nlinarith)]
        norm_num
        nlinarith
      rcases hcase with ⟨f0, f1, hd⟩ | ⟨f0, f1, hd⟩
      · rw [f0, f1, if_pos (by norm_num at hS'; linarith : S < 1), if_neg (by linarith : ¬ S < 0)]
        have := fin _ _ w0 hd
        rw [mul_assoc, add_zero, if_pos this.1]
        exact this.2
      · rw [f0, f1, if_pos (by norm_num at hS'; linarith : S < 1), if_neg (by linarith : ¬ S < 0)]
        have := fin _ _ w1 hd
        rw [add_comm (a1 * b1)] at this
        rw [mul_assoc, zero_add, if_pos this.1]
        exact this.2
  have hlt : groupNu Robust.SMALL 1 1 1 1 (some 2) 2 0 < groupNu Robust.SMALL 1 1 1 1 (some 2) 2 1 := by
    obtain ⟨-, -, -, -, p⟩ := group_pos (h := 1) (k := 1) (N := 2) one_pos one_pos (T := 1) one_pos (lo := 1) (up := some 2)
      (by norm_num) (by norm_num) (by norm_num)
    unfold groupNu binCentre
    apply Real.rpow_lt_rpow_of_exponent_lt (by norm_num)
    push_cast
    linarith
  classical
  rcases le_total (rosselandWeight 1 1 1 1 (groupNu Robust.SMALL 1 1 1 1 (some 2) 2 0) * groupDNu Robust.SMALL 1 1 1 1 (some 2) 2 0)
    (rosselandWeight 1 1 1 1 (groupNu Robust.SMALL 1 1 1 1 (some 2) 2 1) * groupDNu Robust.SMALL 1 1 1 1 (some 2) 2 1) with hd | hd
  · refine key (fun x => if x = groupNu Robust.SMALL 1 1 1 1 (some 2) 2 0 then 1 else 0) (fun x => by split_ifs <;> simp)
      (.inl ⟨by simp, by simp [hlt.ne'], hd⟩)
  · refine key (fun x => if x = groupNu Robust.SMALL 1 1 1 1 (some 2) 2 1 then 1 else 0) (fun x => by split_ifs <;> simp)
      (.inr ⟨by simp [hlt.ne], by simp, hd⟩)

/-- **C10 is false** for an unbounded group far above the thermal range: the group `[2000, ∞)` at `kT = h` is sampled
below 1001 only, with any number of samples -/
theorem C10_false (N : ℕ) (hN : 0 < N) : ∃ ν w : ℕ → ℝ,
    GroupFrequencySamples onesPC (.fin 1) (.fin 2000) .pinf N = (List.range N).map (fun i => (XR.fin (ν i), XR.fin (w i))) ∧
    ∀ i < N, ν i < 1001 := by
  have hS := SMALL_pos
  have hS' := SMALL_tiny
  refine ⟨_, _, xr_samples onesPC_finite (T := 1) (lo := 2000) (hi := none) one_pos (by norm_num) (by simp) hN rfl rfl, ?_⟩
  have hw : window (1e-3 * 1 * 1 / 1) (1e3 * 1 * 1 / 1) 2000 none = (100, 1000) := by unfold window; norm_num
  intro i hi
  rw [hw]
  have := (binCentre_bounds (N := N) (a := 100 + Robust.SMALL) (b := 1000 + Robust.SMALL) (by linarith) (by linarith) hi).2
  norm_num at hS'
  exact this.trans (by linarith)

/-- **C10 is false** for a narrow bounded group far below the thermal range: the group `[5·10^-5, 8·10^-5]` at `kT = h`
is sampled below its lower bound, with any number (at least 2) of samples -/
theorem C10_narrow_false (N : ℕ) (hN : 2 ≤ N) : ∃ ν w : ℕ → ℝ,
    GroupFrequencySamples onesPC (.fin 1) (.fin 0.00005) (.fin 0.00008) N =
      (List.range N).map (fun i => (XR.fin (ν i), XR.fin (w i))) ∧ ν 0 < 0.00005 := by
  have hS := SMALL_pos
  have hS' : (Robust.SMALL : ℝ) < 1e-6 / 1e6 := by
    rw [real_SMALL]
    have h : (2 : ℝ) ^ (-1022 : ℤ) ≤ (2 : ℝ) ^ (-50 : ℤ) := zpow_le_zpow_right₀ (by norm_num) (by norm_num)
    have e : (2 : ℝ) ^ (-50 : ℤ) = 1 / 1125899906842624 := by norm_num
    rw [e] at h
    generalize (2 : ℝ) ^ (-1022 : ℤ) = A at *
    norm_num
    linarith
  refine ⟨_, _, xr_samples onesPC_finite (T := 1) (lo := 0.00005) (hi := some 0.00008) one_pos (by norm_num)
    (by simp; norm_num) (by omega) rfl rfl, ?_⟩
  have hw : window (1e-3 * 1 * 1 / 1) (1e3 * 1 * 1 / 1) 0.00005 (some 0.00008) = (0.00004, 0.00008) := by
    unfold window; norm_num
  rw [hw]
  simp only
  norm_num at hS'
  -- first bin centre: a (b/a)^(1/2N) ≤ a 2^(1/4)
  have ha : (0 : ℝ) < 0.00004 + Robust.SMALL := by linarith
  have hb : (0 : ℝ) < 0.00008 + Robust.SMALL := by linarith
  have hN' : (2 : ℝ) ≤ N := by exact_mod_cast hN
  have hlog : Real.logb 10 (0.00008 + Robust.SMALL) - Real.logb 10 (0.00004 + Robust.SMALL) ≤ Real.logb 10 2 := by
    rw [← Real.logb_div hb.ne' ha.ne']
    apply Real.logb_le_logb_of_le (by norm_num) (by positivity)
    rw [div_le_iff₀ ha]
    linarith
  have hl2 : 0 < Real.logb 10 2 := Real.logb_pos (by norm_num) (by norm_num)
  have hΔ : binWidth (0.00004 + Robust.SMALL) (0.00008 + Robust.SMALL) N ≤ Real.logb 10 2 / 2 := by
    unfold binWidth
    rw [div_le_iff₀ (by linarith)]
    nlinarith
  have hc : binCentre (0.00004 + Robust.SMALL) (0.00008 + Robust.SMALL) N 0 ≤ (0.00004 + Robust.SMALL) * 2 ^ ((1 : ℝ) / 4) := by
    unfold binCentre
    have e : (0.00004 + Robust.SMALL) * (2 : ℝ) ^ ((1 : ℝ) / 4) =
        10 ^ (Real.logb 10 (0.00004 + Robust.SMALL) + 1 / 4 * Real.logb 10 2) := by
      rw [Real.rpow_add (by norm_num), Real.rpow_logb (by norm_num) (by norm_num) ha, mul_comm (1 / 4 : ℝ),
        Real.rpow_mul (by norm_num), Real.rpow_logb (by norm_num) (by norm_num) (by norm_num)]
    rw [e]
    apply Real.rpow_le_rpow_of_exponent_le (by norm_num)
    push_cast
    linarith
  have h2 : (2 : ℝ) ^ ((1 : ℝ) / 4) ≤ 1.2 := by
    have h3 : ((2 : ℝ) ^ ((1 : ℝ) / 4)) ^ (4 : ℕ) ≤ 1.2 ^ (4 : ℕ) := by
      rw [← Real.rpow_natCast, ← Real.rpow_mul (by norm_num)]
      norm_num
    exact le_of_pow_le_pow_left₀ (by norm_num) (by norm_num) h3
  refine lt_of_le_of_lt hc ?_
  calc (0.00004 + Robust.SMALL) * (2 : ℝ) ^ ((1 : ℝ) / 4) ≤ (0.00004 + Robust.SMALL) * 1.2 := by gcongr
    _ < _ := by norm_num; linarith

/-- the hypotheses of C07 are met: `κ = 1`, unit constants, the group `[1, 2]` -/
example : ∃ t : MGTables XR, Averaged 1 1 1 (fun ρ _ _ => ρ * 1) 0 1 2 0 1 2 [.fin 1, .fin 2] 1 2 t ∧
    GroupIs [XR.fin 1, .fin 2] 0 1 (some 2) ∧
    (Robust.SMALL : ℝ) < rosselandTotal Robust.SMALL 1 1 1 1 1 (some 2) 2 := by
  obtain ⟨hb, hgr⟩ := oneGroup (lo := 1) (hi := 2) (by norm_num) (by norm_num)
  obtain ⟨t, -, A⟩ := averaged_exists onesPC_finite (α := fun ρ _ _ => ρ * 1) (coef := realCoef (fun ρ _ _ => ρ * 1))
    (fun ρ _ _ h _ _ => by positivity) (fun _ _ _ _ _ _ => rfl) 0 1 (NRho := 2) (by norm_num) 0 1 (NT := 2) (by norm_num)
    hb (N := 2) (by norm_num) (fun _ => .fin 0)
  refine ⟨t, A, hgr, ?_⟩
  have hS' := SMALL_tiny
  norm_num at hS'
  unfold rosselandTotal
  rw [sum_range_succ, sum_range_succ, sum_range_zero]
  linarith [(weight_lower (m := 0) (by norm_num)).1, (weight_lower (m := 1) (by norm_num)).1]

end Opac.Photons
