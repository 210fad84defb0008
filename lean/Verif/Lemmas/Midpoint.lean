import Verif.Lemmas.Convergence
import Mathlib.Analysis.Calculus.MeanValue
import Mathlib.Analysis.SpecialFunctions.Integrals.Basic
import Mathlib.MeasureTheory.Integral.IntervalIntegral.FundThmCalculus

/-!
# The error of the midpoint rule, and of weighted means computed with it
-/

namespace Opac.Midpoint
open MeasureTheory Finset

/-- `Φ` bounds how fast the slope of `f` changes -/
structure Bends (f f₁ f₂ Φ φ : ℝ → ℝ) : Prop where
  d1 : ∀ u, HasDerivAt f (f₁ u) u
  d2 : ∀ u, HasDerivAt f₁ (f₂ u) u
  d3 : ∀ u, HasDerivAt Φ (φ u) u
  le : ∀ u, |f₂ u| ≤ φ u

variable {f f₁ f₂ Φ φ : ℝ → ℝ}

theorem Bends.cont (h : Bends f f₁ f₂ Φ φ) : Continuous f :=
  continuous_iff_continuousAt.2 fun u => (h.d1 u).continuousAt

theorem Bends.slope (h : Bends f f₁ f₂ Φ φ) {u v : ℝ} (huv : u ≤ v) : |f₁ v - f₁ u| ≤ Φ v - Φ u := by
  have p : Monotone fun u => Φ u - f₁ u :=
    monotone_of_hasDerivAt_nonneg (fun u => (h.d3 u).sub (h.d2 u)) fun u => by
      have := (abs_le.1 (h.le u)).2; simp only [Pi.zero_apply]; linarith
  have q : Monotone fun u => Φ u + f₁ u :=
    monotone_of_hasDerivAt_nonneg (fun u => (h.d3 u).add (h.d2 u)) fun u => by
      have := (abs_le.1 (h.le u)).1; simp only [Pi.zero_apply]; linarith
  have h1 := p huv
  have h2 := q huv
  simp only at h1 h2
  rw [abs_le]
  constructor <;> linarith

theorem Bends.mono (h : Bends f f₁ f₂ Φ φ) : Monotone Φ := fun _ _ huv => by
  have := (abs_nonneg _).trans (h.slope huv)
  linarith

/-- the right half of a cell -/
theorem Bends.half (h : Bends f f₁ f₂ Φ φ) (m : ℝ) {d : ℝ} (hd : 0 ≤ d) :
    |(∫ u in m..m + d, f u) - d * f m - d ^ 2 / 2 * f₁ m| ≤ d ^ 2 / 2 * (Φ (m + d) - Φ m) := by
  have hg : ∀ u ∈ Set.Icc m (m + d), |f u - f m - f₁ m * (u - m)| ≤ (Φ (m + d) - Φ m) * (u - m) := by
    intro u hu
    have hder : ∀ x ∈ Set.Icc m (m + d), HasDerivWithinAt (fun u => f u - f₁ m * u) (f₁ x - f₁ m) (Set.Icc m (m + d)) x := by
      intro x _
      exact (((h.d1 x).sub ((hasDerivAt_id x).const_mul (f₁ m))).congr_deriv (by ring)).hasDerivWithinAt
    have hbd : ∀ x ∈ Set.Icc m (m + d), ‖f₁ x - f₁ m‖ ≤ Φ (m + d) - Φ m := by
      intro x hx
      have := h.slope hx.1
      have := h.mono hx.2
      rw [Real.norm_eq_abs]
      linarith
    have := (convex_Icc m (m + d)).norm_image_sub_le_of_norm_hasDerivWithin_le hder hbd
      (Set.left_mem_Icc.2 (by linarith)) hu
    rw [Real.norm_eq_abs, Real.norm_eq_abs, abs_of_nonneg (by linarith [hu.1] : 0 ≤ u - m)] at this
    rwa [show f u - f m - f₁ m * (u - m) = f u - f₁ m * u - (f m - f₁ m * m) by ring]
  have hle : m ≤ m + d := by linarith
  have c := h.cont
  have e : (∫ u in m..m + d, f u) - d * f m - d ^ 2 / 2 * f₁ m = ∫ u in m..m + d, (f u - f m - f₁ m * (u - m)) := by
    rw [intervalIntegral.integral_sub ((by fun_prop : Continuous fun u : ℝ => f u - f m).intervalIntegrable _ _)
      ((by fun_prop : Continuous fun u : ℝ => f₁ m * (u - m)).intervalIntegrable _ _),
      intervalIntegral.integral_sub (c.intervalIntegrable _ _) intervalIntegrable_const, intervalIntegral.integral_const,
      intervalIntegral.integral_const_mul, intervalIntegral.integral_sub (continuous_id'.intervalIntegrable _ _)
      intervalIntegrable_const, integral_id, intervalIntegral.integral_const]
    simp only [smul_eq_mul]
    ring
  rw [e, ← Real.norm_eq_abs]
  calc ‖∫ u in m..m + d, (f u - f m - f₁ m * (u - m))‖ ≤ ∫ u in m..m + d, (Φ (m + d) - Φ m) * (u - m) := by
        refine intervalIntegral.norm_integral_le_of_norm_le hle ?_
          ((by fun_prop : Continuous fun u : ℝ => (Φ (m + d) - Φ m) * (u - m)).intervalIntegrable _ _)
        refine Filter.Eventually.of_forall fun u hu => ?_
        rw [Real.norm_eq_abs]
        exact hg u ⟨hu.1.le, hu.2⟩
    _ = _ := by
      rw [intervalIntegral.integral_const_mul, intervalIntegral.integral_sub (continuous_id'.intervalIntegrable _ _)
        intervalIntegrable_const, integral_id, intervalIntegral.integral_const]
      simp only [smul_eq_mul]
      ring

theorem Bends.neg (h : Bends f f₁ f₂ Φ φ) :
    Bends (fun u => f (-u)) (fun u => -f₁ (-u)) (fun u => f₂ (-u)) (fun u => -Φ (-u)) (fun u => φ (-u)) := by
  refine ⟨fun u => ?_, fun u => ?_, fun u => ?_, fun u => h.le _⟩
  · exact ((h.d1 (-u)).comp u (hasDerivAt_neg u)).congr_deriv (by ring)
  · exact (((h.d2 (-u)).comp u (hasDerivAt_neg u)).neg).congr_deriv (by ring)
  · exact (((h.d3 (-u)).comp u (hasDerivAt_neg u)).neg).congr_deriv (by ring)

/-- one cell of the midpoint rule -/
theorem Bends.cell (h : Bends f f₁ f₂ Φ φ) (m : ℝ) {d : ℝ} (hd : 0 ≤ d) :
    |(∫ u in m - d..m + d, f u) - 2 * d * f m| ≤ d ^ 2 / 2 * (Φ (m + d) - Φ (m - d)) := by
  have h1 := h.half m hd
  have h2 := h.neg.half (-m) hd
  have c := h.cont
  rw [intervalIntegral.integral_comp_neg (fun u => f u)] at h2
  simp only [neg_neg, show -(-m + d) = m - d by ring] at h2
  rw [← intervalIntegral.integral_add_adjacent_intervals (c.intervalIntegrable (m - d) m) (c.intervalIntegrable m (m + d))]
  rw [abs_le] at *
  constructor <;> linarith [h1.1, h1.2, h2.1, h2.2]

/-- centre of the `i`-th cell -/
noncomputable def centre (A δ : ℝ) (i : ℕ) : ℝ := A + (i + 1 / 2) * δ

/-- **the midpoint rule**: the errors of the cells -/
theorem Bends.rule (h : Bends f f₁ f₂ Φ φ) (A : ℝ) {δ : ℝ} (hδ : 0 ≤ δ) (N : ℕ) :
    ∑ i ∈ range N, |f (centre A δ i) * δ - ∫ u in A + i * δ..A + (i + 1 : ℕ) * δ, f u| ≤ δ ^ 2 / 8 * (Φ (A + N * δ) - Φ A) := by
  have hcell : ∀ i ∈ range N, |f (centre A δ i) * δ - ∫ u in A + i * δ..A + (i + 1 : ℕ) * δ, f u| ≤
      δ ^ 2 / 8 * (Φ (A + (i + 1 : ℕ) * δ) - Φ (A + i * δ)) := by
    intro i _
    have := h.cell (centre A δ i) (d := δ / 2) (by linarith)
    rw [show centre A δ i - δ / 2 = A + i * δ by unfold centre; ring,
      show centre A δ i + δ / 2 = A + (i + 1 : ℕ) * δ by unfold centre; push_cast; ring] at this
    rw [abs_sub_comm, show f (centre A δ i) * δ = 2 * (δ / 2) * f (centre A δ i) by ring]
    calc _ ≤ _ := this
      _ = _ := by ring
  refine (sum_le_sum hcell).trans ?_
  rw [← mul_sum, sum_range_sub fun i : ℕ => Φ (A + (i : ℕ) * δ)]
  simp

/-- **weighted means**: the mean of `a` with weights `f` by the midpoint rule, and by integrals -/
theorem Bends.mean (h : Bends f f₁ f₂ Φ φ) {A B δ t κ lam : ℝ} {N : ℕ} {a : ℝ → ℝ} (hf : ∀ u, 0 ≤ f u) (hδ : 0 < δ)
    (hB : B = A + N * δ) (ht : 0 < t) (hlam : 0 ≤ lam) (h0 : ∀ u ∈ Set.Icc A B, 0 ≤ a u) (hκ : ∀ u ∈ Set.Icc A B, a u ≤ κ)
    (hκ0 : 0 ≤ κ) (hlip : ∀ u ∈ Set.Icc A B, ∀ v ∈ Set.Icc A B, |a u - a v| ≤ lam * |u - v|) {η : ℝ}
    (hη0 : 0 ≤ η) (hη : δ ^ 2 / 8 * (Φ B - Φ A) ≤ η * ∫ u in A..B, f u) :
    |(∑ i ∈ range N, a (centre A δ i) * f (centre A δ i) * δ) / (∑ i ∈ range N, f (centre A δ i) * δ + t) -
      (∫ u in A..B, a u * f u) / ((∫ u in A..B, f u) + t)| ≤ lam * δ / 2 + η * κ := by
  have c := h.cont
  have hAB : A ≤ B := by rw [hB]; have : (0 : ℝ) ≤ N * δ := by positivity
                         linarith
  have ca : ContinuousOn a (Set.Icc A B) := by
    have : LipschitzOnWith (Real.toNNReal lam) a (Set.Icc A B) := by
      refine LipschitzOnWith.of_dist_le_mul fun u hu v hv => ?_
      rw [Real.dist_eq, Real.dist_eq, Real.coe_toNNReal _ hlam]
      exact hlip u hu v hv
    exact this.continuousOn
  have caf : ContinuousOn (fun u => a u * f u) (Set.Icc A B) := ca.mul c.continuousOn
  -- points of the cells
  have hpt : ∀ i : ℕ, i ≤ N → A + i * δ ∈ Set.Icc A B := by
    intro i hi
    have : (i : ℝ) * δ ≤ N * δ := mul_le_mul_of_nonneg_right (by exact_mod_cast hi) hδ.le
    have : (0 : ℝ) ≤ i * δ := by positivity
    exact ⟨by linarith, by rw [hB]; linarith⟩
  have hsub : ∀ i < N, Set.uIcc (A + i * δ) (A + (i + 1 : ℕ) * δ) ⊆ Set.Icc A B := by
    intro i hi
    rw [Set.uIcc_of_le (by push_cast; linarith)]
    exact Set.Icc_subset_Icc (hpt i hi.le).1 (hpt (i + 1) hi).2
  have hcen : ∀ i < N, centre A δ i ∈ Set.Icc A B := by
    intro i hi
    have h1 := (hpt i hi.le).1
    have h2 := (hpt (i + 1) hi).2
    push_cast at h2
    unfold centre
    exact ⟨by linarith, by linarith⟩
  have iaf : ∀ i < N, IntervalIntegrable (fun u => a u * f u) volume (A + i * δ) (A + (i + 1 : ℕ) * δ) :=
    fun i hi => (caf.mono (hsub i hi)).intervalIntegrable
  have sumI : ∑ i ∈ range N, (∫ u in A + i * δ..A + (i + 1 : ℕ) * δ, f u) = ∫ u in A..B, f u := by
    rw [intervalIntegral.sum_integral_adjacent_intervals (a := fun i : ℕ => A + (i : ℕ) * δ)
      fun i _ => c.intervalIntegrable _ _, hB]
    simp
  have sumaf : ∑ i ∈ range N, (∫ u in A + i * δ..A + (i + 1 : ℕ) * δ, a u * f u) = ∫ u in A..B, a u * f u := by
    rw [intervalIntegral.sum_integral_adjacent_intervals (a := fun i : ℕ => A + (i : ℕ) * δ)
      fun i hi => iaf i hi, hB]
    simp
  have hI0 : 0 ≤ ∫ u in A..B, f u := intervalIntegral.integral_nonneg hAB fun u _ => hf u
  -- variation of `a` over the cells
  have hvar : ∀ i ∈ range N, |a (centre A δ i) * (∫ u in A + i * δ..A + (i + 1 : ℕ) * δ, f u) -
      ∫ u in A + i * δ..A + (i + 1 : ℕ) * δ, a u * f u| ≤ lam * (δ / 2) * ∫ u in A + i * δ..A + (i + 1 : ℕ) * δ, f u := by
    intro i hi
    rw [mem_range] at hi
    have hle : A + i * δ ≤ A + (i + 1 : ℕ) * δ := by push_cast; linarith
    rw [← intervalIntegral.integral_const_mul, ← intervalIntegral.integral_sub
      ((by fun_prop : Continuous fun u => a (centre A δ i) * f u).intervalIntegrable _ _) (iaf i hi), ← Real.norm_eq_abs, ← intervalIntegral.integral_const_mul]
    refine intervalIntegral.norm_integral_le_of_norm_le hle ?_ ((continuous_const.mul c).intervalIntegrable _ _)
    refine Filter.Eventually.of_forall fun u hu => ?_
    have hu' : u ∈ Set.Icc A B := hsub i hi (by rw [Set.uIcc_of_le hle]; exact ⟨hu.1.le, hu.2⟩)
    rw [Real.norm_eq_abs, ← sub_mul, abs_mul, abs_of_nonneg (hf u)]
    refine mul_le_mul_of_nonneg_right ((hlip _ (hcen i hi) _ hu').trans ?_) (hf u)
    refine mul_le_mul_of_nonneg_left ?_ hlam
    have h1 := hu.1
    have h2 := hu.2
    push_cast at h2
    unfold centre
    rw [abs_le]
    constructor <;> linarith
  have hV : |∑ i ∈ range N, a (centre A δ i) * (∫ u in A + i * δ..A + (i + 1 : ℕ) * δ, f u) - ∫ u in A..B, a u * f u| ≤
      lam * (δ / 2) * ∫ u in A..B, f u := by
    rw [← sumaf, ← sum_sub_distrib, ← sumI, mul_sum]
    exact (abs_sum_le_sum_abs _ _).trans (sum_le_sum hvar)
  have hE := h.rule A hδ.le N
  rw [← hB] at hE
  replace hE := hE.trans hη
  have hD : 0 ≤ ∑ i ∈ range N, f (centre A δ i) * δ := sum_nonneg fun i _ => mul_nonneg (hf _) hδ.le
  -- the computed mean
  obtain ⟨M, hM⟩ : ∃ M, M = (∑ i ∈ range N, a (centre A δ i) * f (centre A δ i) * δ) /
    (∑ i ∈ range N, f (centre A δ i) * δ + t) := ⟨_, rfl⟩
  have hMe : M * (∑ i ∈ range N, f (centre A δ i) * δ + t) = ∑ i ∈ range N, a (centre A δ i) * f (centre A δ i) * δ := by
    rw [hM]; exact div_mul_cancel₀ _ (by linarith)
  have hM0 : 0 ≤ M := by
    rw [hM]
    refine div_nonneg (sum_nonneg fun i hi => ?_) (by linarith)
    exact mul_nonneg (mul_nonneg (h0 _ (hcen i (mem_range.1 hi))) (hf _)) hδ.le
  have hMκ : M ≤ κ := by
    rw [hM, div_le_iff₀ (by linarith), mul_add, mul_sum]
    have : ∑ i ∈ range N, a (centre A δ i) * f (centre A δ i) * δ ≤ ∑ i ∈ range N, κ * (f (centre A δ i) * δ) := by
      refine sum_le_sum fun i hi => ?_
      rw [mul_assoc]
      exact mul_le_mul_of_nonneg_right (hκ _ (hcen i (mem_range.1 hi))) (mul_nonneg (hf _) hδ.le)
    have : 0 ≤ κ * t := by positivity
    linarith
  have hW : |∑ i ∈ range N, (a (centre A δ i) - M) * (f (centre A δ i) * δ - ∫ u in A + i * δ..A + (i + 1 : ℕ) * δ, f u)| ≤
      κ * (η * ∫ u in A..B, f u) := by
    refine (abs_sum_le_sum_abs _ _).trans (le_trans (sum_le_sum fun i hi => ?_)
      (by rw [← mul_sum]; exact mul_le_mul_of_nonneg_left hE hκ0))
    rw [abs_mul]
    refine mul_le_mul_of_nonneg_right ?_ (abs_nonneg _)
    have := h0 _ (hcen i (mem_range.1 hi))
    have := hκ _ (hcen i (mem_range.1 hi))
    rw [abs_le]
    constructor <;> linarith
  have key : ∑ i ∈ range N, (a (centre A δ i) - M) * (f (centre A δ i) * δ - ∫ u in A + i * δ..A + (i + 1 : ℕ) * δ, f u) =
      M * ((∫ u in A..B, f u) + t) - ∑ i ∈ range N, a (centre A δ i) * (∫ u in A + i * δ..A + (i + 1 : ℕ) * δ, f u) := by
    have e1 : ∀ i ∈ range N, (a (centre A δ i) - M) * (f (centre A δ i) * δ - ∫ u in A + i * δ..A + (i + 1 : ℕ) * δ, f u) =
        a (centre A δ i) * f (centre A δ i) * δ - a (centre A δ i) * (∫ u in A + i * δ..A + (i + 1 : ℕ) * δ, f u) -
          (M * (f (centre A δ i) * δ) - M * ∫ u in A + i * δ..A + (i + 1 : ℕ) * δ, f u) := fun i _ => by ring
    rw [sum_congr rfl e1, sum_sub_distrib, sum_sub_distrib, sum_sub_distrib, ← mul_sum, ← mul_sum, sumI, ← hMe]
    ring
  rw [key] at hW
  rw [← hM]
  generalize (∫ u in A..B, f u) = I at *
  generalize (∫ u in A..B, a u * f u) = P at *
  generalize (∑ i ∈ range N, a (centre A δ i) * (∫ u in A + i * δ..A + (i + 1 : ℕ) * δ, f u)) = Q at *
  have hIt : 0 < I + t := by linarith
  rw [show M - P / (I + t) = (M * (I + t) - P) / (I + t) by field_simp, abs_div, abs_of_pos hIt, div_le_iff₀ hIt]
  have h1 : 0 ≤ lam * δ / 2 * t := by positivity
  have h2 : 0 ≤ η * κ * t := by positivity
  rw [show M * (I + t) - P = (M * (I + t) - Q) + (Q - P) by ring]
  refine (abs_add_le _ _).trans ?_
  linarith

end Opac.Midpoint
