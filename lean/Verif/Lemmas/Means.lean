import Verif.Lemmas.XRArith
import Verif.Lemmas.MeanFill
import Verif.Spec.Means
import Mathlib.Algebra.Order.BigOperators.Group.Finset

/-!
# The group means computed by the library, as real numbers
-/

namespace Opac.Photons
open Arith Outcome Spec Spiner Finset

/-- the upper bound of a group: `none` is `+inf` -/
def upper : Option ℝ → XR
  | none => .pinf
  | some x => .fin x

/-- the constants used by the averages are the finite numbers `h, k, c > 0` -/
structure FinitePC (pc : PC XR) (h k c : ℝ) : Prop where
  h_eq : pc.h = .fin h
  k_eq : pc.kb = .fin k
  c_eq : pc.c = .fin c
  h_pos : 0 < h
  k_pos : 0 < k
  c_pos : 0 < c

variable {pc : PC XR} {h k c : ℝ}

theorem xr_toLog (x : ℝ) : ToLog (XR.fin x) = .fin (Real.logb 10 (|x| + Robust.SMALL)) := by
  have := SMALL_pos
  have e : Robust.SMALL = (10 : ℝ) * 2 ^ (-1022 : ℤ) := real_SMALL
  unfold ToLog
  simp only [axr]
  push_cast
  rw [← e, XR.fin_log10 (by positivity)]

theorem xr_fromLog (x : ℝ) : FromLog (XR.fin x) = .fin (10 ^ x) := by
  unfold FromLog
  simp only [axr]
  rw [XR.fin_pow (by norm_num)]
  norm_num

/-- the window -/
theorem xr_window (hpc : FinitePC pc h k c) {T lo : ℝ} {hi : Option ℝ} (hlo : 0 ≤ lo) (hhi : ∀ x ∈ hi, lo < x) :
    SampleWindow pc (.fin T) (.fin lo) (upper hi) =
      (.fin (window (1e-3 * k * T / h) (1e3 * k * T / h) lo hi).1,
       .fin (window (1e-3 * k * T / h) (1e3 * k * T / h) lo hi).2) := by
  have hh := hpc.h_pos.ne'
  have e1 : (lit 1.e-3 * pc.kb * XR.fin T / pc.h : XR) = .fin (1e-3 * k * T / h) := by
    rw [hpc.h_eq, hpc.k_eq]; simp only [axr]; rw [XR.fin_div hh]; norm_num
  have e2 : (lit 1.e3 * pc.kb * XR.fin T / pc.h : XR) = .fin (1e3 * k * T / h) := by
    rw [hpc.h_eq, hpc.k_eq]; simp only [axr]; rw [XR.fin_div hh]; norm_num
  unfold SampleWindow
  simp only [e1, e2]
  generalize (1e-3 * k * T / h) = ν₁
  generalize (1e3 * k * T / h) = ν₂
  have ea : (if (eqb (XR.fin lo) (lit 0) || lt (XR.fin lo) (lit 0.1 * XR.fin ν₁)) = true then XR.fin ν₁ else XR.fin lo) =
      XR.fin (if lo = 0 ∨ lo < 0.1 * ν₁ then ν₁ else lo) := by
    simp only [Bool.or_eq_true, axr]
    norm_num
    split_ifs <;> rfl
  cases hi with
  | none =>
    have hf : isFinite (upper none) = false := rfl
    simp only [hf, Bool.not_false, Bool.true_or, if_true, ea, Bool.false_and]
    simp only [axr, window]
    norm_num
    split_ifs <;> rfl
  | some x =>
    have hx : 0 < x := lt_of_le_of_lt hlo (hhi x rfl)
    have hf : isFinite (upper (some x)) = true := rfl
    have eb : (if (false || gt (upper (some x)) (lit 10 * XR.fin ν₂)) = true then XR.fin ν₂ else upper (some x)) =
        XR.fin (if 10 * ν₂ < x then ν₂ else x) := by
      simp only [Bool.false_or, upper, axr]
      norm_num
      split_ifs <;> rfl
    have hg : gt (upper (some x)) (lit 0) = true := by
      simp only [upper, axr]; exact_mod_cast hx
    simp only [hf, Bool.not_true, ea, eb, hg, Bool.and_self, if_true]
    simp only [upper, axr, window]
    norm_num
    split_ifs <;> rfl

/-- the window is a nonempty interval of positive frequencies -/
theorem window_pos {ν₁ ν₂ lo : ℝ} {hi : Option ℝ} (h1 : 0 < ν₁) (h2 : ν₁ < ν₂) (hlo : 0 ≤ lo) (hhi : ∀ x ∈ hi, lo < x) :
    0 < (window ν₁ ν₂ lo hi).1 ∧ (window ν₁ ν₂ lo hi).1 < (window ν₁ ν₂ lo hi).2 := by
  unfold window
  have ha : 0 < (if lo = 0 ∨ lo < 0.1 * ν₁ then ν₁ else lo) := by
    split_ifs with h
    · exact h1
    · push Not at h
      exact lt_of_le_of_ne hlo (Ne.symm h.1)
  cases hi with
  | none =>
    dsimp only
    split_ifs <;> simp_all
    all_goals (constructor <;> norm_num <;> linarith)
  | some x =>
    have hx : 0 < x := lt_of_le_of_lt hlo (hhi x rfl)
    dsimp only
    split_ifs <;> simp_all
    all_goals first | linarith | (constructor <;> norm_num)

/-- `sample_op` is called with these frequencies and weights -/
theorem xr_samples (hpc : FinitePC pc h k c) {T lo : ℝ} {hi : Option ℝ} (hT : 0 < T) (hlo : 0 ≤ lo)
    (hhi : ∀ x ∈ hi, lo < x) {N : ℕ} (hN : 0 < N) {a b : ℝ}
    (ha : a = (window (1e-3 * k * T / h) (1e3 * k * T / h) lo hi).1 + Robust.SMALL)
    (hb : b = (window (1e-3 * k * T / h) (1e3 * k * T / h) lo hi).2 + Robust.SMALL) :
    GroupFrequencySamples pc (.fin T) (.fin lo) (upper hi) N =
      (List.range N).map (fun i => (XR.fin (binCentre a b N i), XR.fin (binCentre a b N i * binWidth a b N))) := by
  have hh := hpc.h_pos; have hk := hpc.k_pos
  have hν : 1e-3 * k * T / h < 1e3 * k * T / h := by
    apply div_lt_div_of_pos_right _ hh
    have : 0 < k * T := by positivity
    nlinarith
  have hw := window_pos (lo := lo) (hi := hi) (ν₁ := 1e-3 * k * T / h) (ν₂ := 1e3 * k * T / h) (by positivity) hν hlo hhi
  unfold GroupFrequencySamples
  simp only [xr_window hpc (T := T) hlo hhi, xr_toLog, abs_of_pos hw.1, abs_of_pos (hw.1.trans hw.2), ← ha, ← hb,
    Int.toNat_natCast]
  apply List.map_congr_left
  intro i _
  have hN' : ((((N : ℤ) : ℚ)) : ℝ) ≠ 0 := by
    have : (N : ℝ) ≠ 0 := by exact_mod_cast hN.ne'
    exact_mod_cast this
  have e : (XR.fin (Real.logb 10 b) - XR.fin (Real.logb 10 a)) / lit ((N : ℤ) : ℚ) = (XR.fin (binWidth a b N) : XR) := by
    simp only [axr]
    rw [XR.fin_div hN']
    simp [binWidth]
  rw [e]
  simp only [axr]
  rw [xr_fromLog]
  simp only [axr]
  have e2 : Real.logb 10 a + (((i : ℚ) : ℝ) + ((0.5 : ℚ) : ℝ)) * binWidth a b N =
      Real.logb 10 a + (i + 1 / 2) * binWidth a b N := by
    push_cast; norm_num
  rw [e2]
  rfl

/-- the thermal weights -/
theorem xr_weights (hpc : FinitePC pc h k c) {T ν : ℝ} (hT : 0 < T) (hν : 0 < ν) :
    ThermalWeightsAtNu pc (.fin T) (.fin ν) =
      (.fin (planckWeight h k c T ν), .fin (rosselandWeight h k c T ν)) := by
  have hh := hpc.h_pos; have hk := hpc.k_pos; have hc := hpc.c_pos
  have hx : 0 < h * ν / (k * T) := by positivity
  have ex : (XR.fin h * XR.fin ν / (XR.fin k * XR.fin T) : XR) = .fin (h * ν / (k * T)) := by
    simp only [axr]; rw [XR.fin_div (by positivity)]
  have hE : Real.exp (h * ν / (k * T)) - 1 ≠ 0 := by
    have := Real.add_one_lt_exp hx.ne'
    linarith
  have hE' : 0 < 1 - Real.exp (-(h * ν / (k * T))) := by
    have : Real.exp (-(h * ν / (k * T))) < 1 := (by rw [← Real.exp_zero]; exact Real.exp_lt_exp.2 (by linarith))
    linarith
  unfold ThermalWeightsAtNu Planck.ThermalDistributionOfTNu Planck.DThermalDistributionOfTNuDT planckWeight rosselandWeight
  simp only [wien_tail_x, hpc.h_eq, hpc.k_eq, hpc.c_eq, ex]
  generalize hX : h * ν / (k * T) = x at *
  have hc2 : c * c ≠ 0 := by positivity
  have hc3 : T * T * c * c * k ≠ 0 := by positivity
  have hE2 : -(Real.exp (-x) - 1) * -(Real.exp (-x) - 1) ≠ 0 := by
    have : -(Real.exp (-x) - 1) = 1 - Real.exp (-x) := by ring
    rw [this]; positivity
  have hlt : (lt (XR.fin x) (lit 80) = true) = (x < 80) := by simp only [axr]; norm_num
  by_cases h80 : x < 80
  · rw [if_pos (by rw [hlt]; exact h80), if_pos h80, if_pos h80]
    simp only [axr, XR.fin_div hc2, XR.fin_div hc3, XR.fin_div hE, XR.fin_div hE2]
    rw [planckLaw, planckLawDT, hX]
    push_cast
    rw [Prod.mk.injEq]
    constructor
    · congr 1
      ring
    · have : (-(Real.exp (-x) - 1) * -(Real.exp (-x) - 1)) = (1 - Real.exp (-x)) ^ 2 := by ring
      rw [this]
      congr 1
      congr 1
      congr 1
      congr 1 <;> ring
  · rw [if_neg (by rw [hlt]; exact h80), if_neg h80, if_neg h80]
    simp only [axr, XR.fin_div hc2, XR.fin_div hc3]
    push_cast
    rw [Prod.mk.injEq]
    constructor
    · congr 1
      ring
    · congr 1
      rw [show T * T * c * c * k = T ^ 2 * c ^ 2 * k by ring]
      ring

theorem planckWeight_pos {T ν : ℝ} (hh : 0 < h) (hk : 0 < k) (hc : 0 < c) (hT : 0 < T) (hν : 0 < ν) :
    0 < planckWeight h k c T ν := by
  have hx : 0 < h * ν / (k * T) := by positivity
  unfold planckWeight planckLaw
  split_ifs
  · have : 0 < Real.exp (h * ν / (k * T)) - 1 := by
      have := Real.add_one_lt_exp hx.ne'
      linarith
    positivity
  · positivity

theorem rosselandWeight_pos {T ν : ℝ} (hh : 0 < h) (hk : 0 < k) (hc : 0 < c) (hT : 0 < T) (hν : 0 < ν) :
    0 < rosselandWeight h k c T ν := by
  have hx : 0 < h * ν / (k * T) := by positivity
  unfold rosselandWeight planckLawDT
  split_ifs
  · have : 0 < 1 - Real.exp (-(h * ν / (k * T))) := by
      have : Real.exp (-(h * ν / (k * T))) < 1 := (by rw [← Real.exp_zero]; exact Real.exp_lt_exp.2 (by linarith))
      linarith
    positivity
  · positivity

theorem binCentre_pos (a b : ℝ) (N i : ℕ) : 0 < binCentre a b N i := by unfold binCentre; positivity

theorem binWidth_pos {a b : ℝ} (ha : 0 < a) (hab : a < b) {N : ℕ} (hN : 0 < N) : 0 < binWidth a b N := by
  unfold binWidth
  have := Real.logb_lt_logb (b := 10) (by norm_num) ha hab
  have : (0 : ℝ) < N := by exact_mod_cast hN
  apply div_pos <;> linarith

/-- a fold that adds up finite numbers -/
theorem xr_foldl (N : ℕ) (f : ℕ → XR × XR) (p q : ℕ → ℝ) (step : XR × XR → XR × XR → XR × XR)
    (hs : ∀ i < N, ∀ x y : ℝ, step (.fin x, .fin y) (f i) = (.fin (x + p i), .fin (y + q i))) :
    ((List.range N).map f).foldl step (lit 0, lit 0) =
      (.fin (∑ i ∈ range N, p i), .fin (∑ i ∈ range N, q i)) := by
  induction N with
  | zero => simp [axr]
  | succ n ih =>
    rw [List.range_succ, List.map_append, List.foldl_append, ih (fun i hi => hs i (by omega))]
    simp only [List.map_cons, List.map_nil, List.foldl_cons, List.foldl_nil]
    rw [hs n (by omega), sum_range_succ, sum_range_succ]

/-- the means of one group at one node -/
theorem xr_groupMeans (hpc : FinitePC pc h k c) {coef : XR → XR → XR → XR} {α : ℝ → ℝ} {ρ T lo : ℝ} {hi : Option ℝ}
    (hρ : 0 < ρ) (hT : 0 < T) (hlo : 0 ≤ lo) (hhi : ∀ x ∈ hi, lo < x) {N : ℕ} (hN : 0 < N)
    (hcoef : ∀ ν, 0 < ν → coef (.fin ρ) (.fin T) (.fin ν) = .fin (α ν)) (hα : ∀ ν, 0 < ν → 0 ≤ α ν) {a b : ℝ}
    (ha : a = (window (1e-3 * k * T / h) (1e3 * k * T / h) lo hi).1 + Robust.SMALL)
    (hb : b = (window (1e-3 * k * T / h) (1e3 * k * T / h) lo hi).2 + Robust.SMALL) :
    MGTables.GroupMeans pc coef (.fin ρ) (.fin T) (.fin lo) (upper hi) N =
      (.fin (planckMean Robust.SMALL ρ N (fun i => binCentre a b N i * binWidth a b N)
          (fun i => planckWeight h k c T (binCentre a b N i)) (fun i => α (binCentre a b N i))),
       .fin (rosselandMean Robust.SMALL ρ N (fun i => binCentre a b N i * binWidth a b N)
          (fun i => rosselandWeight h k c T (binCentre a b N i)) (fun i => α (binCentre a b N i)))) := by
  have hS := SMALL_pos
  have hh := hpc.h_pos; have hk := hpc.k_pos; have hc := hpc.c_pos
  have hν : 1e-3 * k * T / h < 1e3 * k * T / h := by
    apply div_lt_div_of_pos_right _ hh
    have : 0 < k * T := by positivity
    nlinarith
  have hw := window_pos (lo := lo) (hi := hi) (ν₁ := 1e-3 * k * T / h) (ν₂ := 1e3 * k * T / h) (by positivity) hν hlo hhi
  have hΔ : 0 < binWidth a b N := binWidth_pos (by rw [ha]; linarith) (by rw [ha, hb]; linarith) hN
  have hden : MGTables.GroupDenominators pc (.fin T) (.fin lo) (upper hi) N =
      (.fin (∑ i ∈ range N, planckWeight h k c T (binCentre a b N i) * (binCentre a b N i * binWidth a b N)),
       .fin (∑ i ∈ range N, rosselandWeight h k c T (binCentre a b N i) * (binCentre a b N i * binWidth a b N))) := by
    unfold MGTables.GroupDenominators
    rw [xr_samples hpc hT hlo hhi hN ha hb]
    apply xr_foldl
    intro i _ x y
    simp only [xr_weights hpc hT (binCentre_pos a b N i), axr]
  have hnum : MGTables.GroupNumerators pc coef (.fin ρ) (.fin T) (.fin lo) (upper hi) N =
      (.fin (∑ i ∈ range N, α (binCentre a b N i) / ρ * planckWeight h k c T (binCentre a b N i) *
          (binCentre a b N i * binWidth a b N)),
       .fin (∑ i ∈ range N, if Robust.SMALL < α (binCentre a b N i) then
          ρ / (α (binCentre a b N i) + Robust.SMALL) * rosselandWeight h k c T (binCentre a b N i) *
          (binCentre a b N i * binWidth a b N) else 0)) := by
    unfold MGTables.GroupNumerators
    rw [xr_samples hpc hT hlo hhi hN ha hb]
    apply xr_foldl
    intro i _ x y
    have hp := binCentre_pos a b N i
    simp only [hcoef _ hp, xr_weights hpc hT hp, XR.fin_ratio (hα _ hp), axr, XR.fin_div hρ.ne']
    split_ifs
    · rfl
    · simp
  unfold MGTables.GroupMeans
  rw [hden, hnum]
  unfold MGTables.MeansOfSums planckMean rosselandMean
  have hD1 : 0 ≤ ∑ i ∈ range N, planckWeight h k c T (binCentre a b N i) * (binCentre a b N i * binWidth a b N) := by
    apply sum_nonneg
    intro i _
    have := planckWeight_pos hh hk hc hT (binCentre_pos a b N i)
    have := binCentre_pos a b N i
    positivity
  simp only [Bool.and_eq_true, axr]
  rw [XR.fin_ratio hD1]
  congr 1
  split_ifs with hg
  · rw [XR.fin_ratio (by linarith [hg.2])]
  · simp [axr]

end Opac.Photons
