import Verif.Props.WholeSpectrum
import Verif.Props.MeanError

/-!
# C85 for photons

At `XR`, the extended reals with NaN.
-/

namespace Opac.Photons
open Arith Outcome Spec Spiner MeasureTheory Finset Filter Topology ThermalCurves Midpoint

/-- a lookup at a node -/
theorem lookup_node_value {lk : DataBox XR} {gR gT : Grid ℝ} (h2 : lk.grid 2 = xrGrid gR) (h1 : lk.grid 1 = xrGrid gT)
    (hNR : 2 ≤ gR.N) (hNT : 2 ≤ gT.N) (hR : gR.min < gR.max) (hT : gT.min < gT.max) {g : ℕ} {K : ℕ → ℕ → ℝ}
    (hread : ∀ i j : ℕ, (i : ℤ) < gR.N → (j : ℤ) < gT.N → lk.read [i, j, g] = ok (.fin (Real.logb 10 (K i j))))
    (hpos : ∀ i j : ℕ, (i : ℤ) < gR.N → (j : ℤ) < gT.N → 0 < K i j)
    {rho T : ℝ} (r0 : gR.min ≤ coordinate rho) (r1 : coordinate rho ≤ gR.max)
    (t0 : gT.min ≤ coordinate T) (t1 : coordinate T ≤ gT.max) {i j : ℕ} (hi : (i : ℤ) < gR.N) (hj : (j : ℤ) < gT.N)
    (er : coordinate rho = node gR i) (et : coordinate T = node gT j) :
    MGTables.GroupCoefficient_ lk (.fin rho) (.fin T) g = ok (.fin (rho * K i j)) := by
  obtain ⟨κ, L, e1, e2, -, e4⟩ := lookup_tendsto (lk := fun _ => lk) (fun _ _ => h2) (fun _ _ => h1) hNR hNT hR hT (g := g)
    (K := fun _ => K) (KL := K) (fun _ _ => hread) (fun i j hi hj => ⟨tendsto_const_nhds, hpos i j hi hj⟩) r0 r1 t0 t1
  have eL := e4 i j hi hj er et
  have h3 : ∀ N, 2 ≤ N → rho * κ N = rho * κ 2 := by
    intro N hN
    have := (e1 N hN).symm.trans (e1 2 (le_refl 2))
    exact XR.fin.inj (Outcome.ok.inj this)
  have h4 : Tendsto (fun N => rho * κ N) atTop (𝓝 (rho * κ 2)) :=
    tendsto_const_nhds.congr' (by filter_upwards [eventually_ge_atTop 2] with N hN using (h3 N hN).symm)
  have h5 := tendsto_nhds_unique (e2.const_mul rho) h4
  rw [e1 2 (le_refl 2), ← h5, eL]

/-- weights that are smaller by at most the part `ε` -/
theorem mean_weights {N : ℕ} {a p w : ℕ → ℝ} {t κ ε : ℝ} (ht : 0 < t) (h0 : ∀ i < N, 0 ≤ a i) (hκ : ∀ i < N, a i ≤ κ) (hκ0 : 0 ≤ κ)
    (hp : ∀ i < N, 0 ≤ p i) (hw : ∀ i < N, (1 - ε) * p i ≤ w i ∧ w i ≤ p i) (hε0 : 0 ≤ ε) (hε : ε ≤ 1 / 2) :
    |(∑ i ∈ range N, a i * w i) / (∑ i ∈ range N, w i + t) - (∑ i ∈ range N, a i * p i) / (∑ i ∈ range N, p i + t)| ≤
      2 * ε * κ := by
  have hw0 : ∀ i < N, 0 ≤ w i := fun i hi => (mul_nonneg (by linarith) (hp i hi)).trans (hw i hi).1
  have sp : 0 ≤ ∑ i ∈ range N, p i := sum_nonneg fun i hi => hp i (mem_range.1 hi)
  have sw : 0 ≤ ∑ i ∈ range N, w i := sum_nonneg fun i hi => hw0 i (mem_range.1 hi)
  have swp : (1 - ε) * ∑ i ∈ range N, p i ≤ ∑ i ∈ range N, w i := by
    rw [mul_sum]
    exact sum_le_sum fun i hi => (hw i (mem_range.1 hi)).1
  obtain ⟨M, hM⟩ : ∃ M, M = (∑ i ∈ range N, a i * p i) / (∑ i ∈ range N, p i + t) := ⟨_, rfl⟩
  have hMe : M * (∑ i ∈ range N, p i + t) = ∑ i ∈ range N, a i * p i := by
    rw [hM]; exact div_mul_cancel₀ _ (by linarith)
  have hM0 : 0 ≤ M := by
    rw [hM]
    exact div_nonneg (sum_nonneg fun i hi => mul_nonneg (h0 i (mem_range.1 hi)) (hp i (mem_range.1 hi))) (by linarith)
  have hMκ : M ≤ κ := by
    rw [hM, div_le_iff₀ (by linarith), mul_add, mul_sum]
    have : ∑ i ∈ range N, a i * p i ≤ ∑ i ∈ range N, κ * p i :=
      sum_le_sum fun i hi => mul_le_mul_of_nonneg_right (hκ i (mem_range.1 hi)) (hp i (mem_range.1 hi))
    have : 0 ≤ κ * t := by positivity
    linarith
  have hdiff : |∑ i ∈ range N, (a i - M) * (w i - p i)| ≤ κ * (ε * ∑ i ∈ range N, p i) := by
    rw [mul_sum, mul_sum]
    refine (abs_sum_le_sum_abs _ _).trans (sum_le_sum fun i hi => ?_)
    rw [mem_range] at hi
    have q1 := h0 i hi
    have q2 := hκ i hi
    have q3 := hw i hi
    rw [abs_mul]
    refine mul_le_mul ?_ ?_ (abs_nonneg _) hκ0
    · rw [abs_le]; constructor <;> linarith
    · rw [abs_le]; constructor <;> linarith [mul_nonneg hε0 (hp i hi)]
  have key : ∑ i ∈ range N, (a i - M) * (w i - p i) = ∑ i ∈ range N, a i * w i - M * (∑ i ∈ range N, w i + t) := by
    have e1 : ∀ i ∈ range N, (a i - M) * (w i - p i) = a i * w i - a i * p i - (M * w i - M * p i) := fun i _ => by ring
    rw [sum_congr rfl e1, sum_sub_distrib, sum_sub_distrib, sum_sub_distrib, ← mul_sum, ← mul_sum, ← hMe]
    ring
  rw [key] at hdiff
  rw [← hM]
  generalize ∑ i ∈ range N, w i = W at *
  generalize ∑ i ∈ range N, p i = P at *
  generalize ∑ i ∈ range N, a i * w i = Q at *
  have hWt : 0 < W + t := by linarith
  rw [show Q / (W + t) - M = (Q - M * (W + t)) / (W + t) by field_simp, abs_div, abs_of_pos hWt, div_le_iff₀ hWt]
  refine hdiff.trans ?_
  have : P ≤ 2 * (W + t) := by nlinarith
  calc κ * (ε * P) ≤ κ * (ε * (2 * (W + t))) := by gcongr
    _ = _ := by ring

/-- coefficients that vary by at most `Λ` per unit of the logarithm of the frequency are measurable -/
theorem measurable_of_slope {α : ℝ → ℝ} {Λ : ℝ} (hΛ : 0 ≤ Λ)
    (hlip : ∀ ν ν', 0 < ν → 0 < ν' → |α ν - α ν'| ≤ Λ * |Real.log ν - Real.log ν'|) :
    AEStronglyMeasurable α (volume.restrict (Set.Ioi 0)) := by
  refine ContinuousOn.aestronglyMeasurable ?_ measurableSet_Ioi
  intro x hx
  rw [Metric.continuousWithinAt_iff]
  intro ε hε
  have hc := (Real.continuousAt_log (ne_of_gt hx))
  rw [Metric.continuousAt_iff] at hc
  obtain ⟨d, hd0, hd⟩ := hc (ε / (Λ + 1)) (by positivity)
  refine ⟨d, hd0, fun {y} hy hxy => ?_⟩
  have h1 := hd hxy
  rw [Real.dist_eq] at h1 ⊢
  rw [lt_div_iff₀ (by linarith)] at h1
  have h2 := hlip y x hy hx
  nlinarith [abs_nonneg (Real.log y - Real.log x)]

section
variable {h k c : ℝ} {α : ℝ → ℝ → ℝ → ℝ} {lRhoMin lRhoMax : ℝ} {NRho : ℤ} {lTMin lTMax : ℝ} {NT : ℤ} {b : List XR} {n N : ℕ}
  {qP qR : XR → XR → ℤ → Outcome XR}

/-- the Planck mean over the sampled range, with finitely many frequencies -/
theorem whole_error (hh : 0 < h) (hk : 0 < k) (hc : 0 < c) {ρ T S K Λ δ : ℝ} (hρ : 0 < ρ) (hT : 0 < T) (hS : 0 < S)
    (hn : Negligible S h k c T) (hN : 0 < N) {α : ℝ → ℝ} (h0 : ∀ ν, 0 < ν → 0 ≤ α ν) (hK : ∀ ν, 0 < ν → α ν ≤ K) (hΛ : 0 ≤ Λ)
    (hlip : ∀ ν ν', 0 < ν → 0 < ν' → |α ν - α ν'| ≤ Λ * |Real.log ν - Real.log ν'|) (hδ : δ = 6 * Real.log 10 / N) :
    |groupPlanckMean S h k c ρ T 0 none N α - wholePlanckMean h k c ρ T α| ≤ (Λ * δ / 2 + (1.6 * δ ^ 2 + 2e-10) * K) / ρ := by
  obtain ⟨A, hA⟩ : ∃ A, A = groupFrom S h k T 0 none := ⟨_, rfl⟩
  obtain ⟨B, hB⟩ : ∃ B, B = groupTo S h k T 0 none := ⟨_, rfl⟩
  obtain ⟨hA0, hAB, hA1, hA2, hB1, -, -, w3, hI⟩ := WholeSpectrum.weights hh hk hc hT hS hn hA hB
  obtain ⟨ww1, ww2⟩ := WholeSpectrum.whole_window hh hk hT S
  have hB0 : 0 < B := hA0.trans hAB
  have hq : 0 < k * T / h := by positivity
  have hK0 : 0 ≤ K := (h0 1 one_pos).trans (hK 1 one_pos)
  have hN' : (0 : ℝ) < N := by exact_mod_cast hN
  obtain ⟨δ', hδ'⟩ : ∃ x, x = Real.log (B / A) / N := ⟨_, rfl⟩
  have hδ0 : 0 < δ' := by
    rw [hδ']
    exact div_pos (Real.log_pos ((one_lt_div hA0).2 hAB)) hN'
  have hδle : δ' ≤ δ := by
    rw [hδ, hδ']
    refine div_le_div_of_nonneg_right ?_ hN'.le
    rw [show 6 * Real.log 10 = Real.log (10 ^ 6) by rw [Real.log_pow]; norm_num]
    refine Real.log_le_log (by positivity) ?_
    rw [div_le_iff₀ hA0]
    rw [hA, hB, ww1, ww2]
    norm_num
    linarith
  have hlog0 : 0 < Real.log 10 := Real.log_pos (by norm_num)
  have hg : ∀ i, groupNu S h k T 0 none N i = binCentre A B N i := by intro i; rw [hA, hB]; rfl
  have hd : groupDNu S h k T 0 none N = binDNu A B N := by
    funext i
    unfold groupDNu binDNu
    rw [hg, hA, hB]
    rfl
  -- weights
  have hpos : ∀ i, 0 < binCentre A B N i := fun i => by unfold binCentre; positivity
  have hW : 0 < binWidth A B N := by
    unfold binWidth
    exact div_pos (by have := Real.logb_lt_logb (b := 10) (by norm_num) hA0 hAB; linarith) hN'
  obtain ⟨X, hX⟩ : ∃ X, X = 2 * Real.exp (-80) * (K / ρ) := ⟨_, rfl⟩
  have step1 : |groupPlanckMean S h k c ρ T 0 none N α - planckMean S ρ N (binDNu A B N)
      (fun m => planckLaw h k c T (binCentre A B N m)) (fun m => α (binCentre A B N m))| ≤ X := by
    unfold groupPlanckMean planckMean
    rw [hd]
    simp only [hg, mul_assoc]
    rw [hX]
    have h80 := WholeSpectrum.exp_neg_80
    refine mean_weights (a := fun i => α (binCentre A B N i) / ρ) (w := fun i => planckWeight h k c T (binCentre A B N i) * binDNu A B N i)
      (p := fun i => planckLaw h k c T (binCentre A B N i) * binDNu A B N i) hS (fun i _ => div_nonneg (h0 _ (hpos i)) hρ.le)
      (fun i _ => div_le_div_of_nonneg_right (hK _ (hpos i)) hρ.le) (div_nonneg hK0 hρ.le)
      (fun i _ => mul_nonneg (WholeSpectrum.law_nonneg hh hk hc hT (hpos i)) (mul_pos (hpos i) hW).le)
      (fun i _ => ?_) (Real.exp_pos _).le (h80.trans (by norm_num))
    obtain ⟨n1, n2, -⟩ := Convergence.planckWeight_near hh hk hc hT (hpos i)
    have hdn : 0 ≤ binDNu A B N i := (mul_pos (hpos i) hW).le
    exact ⟨by rw [← mul_assoc]; exact mul_le_mul_of_nonneg_right n1 hdn, mul_le_mul_of_nonneg_right n2 hdn⟩
  -- midpoint rule
  have hC : (0 : ℝ) < 2 * h / c ^ 2 := by positivity
  have hbb : 0 < h / (k * T) := by positivity
  obtain ⟨i1, i2⟩ := WholeSpectrum.law_integral hh hk hc hT
  have hl := WholeSpectrum.lost hh hk hc hT hA0.le hA1 hB1
  have hs := WholeSpectrum.split3 i1 hA0.le hAB.le
  have hQ : 0 < (k * T) ^ 4 / (h ^ 3 * c ^ 2) := by positivity
  have hpi : (81 : ℝ) ≤ Real.pi ^ 4 := by
    have := pow_le_pow_left₀ (by norm_num) Real.pi_gt_three.le 4
    norm_num at this
    linarith
  have hwindow : 4 * (2 * ((k * T) ^ 4 / (h ^ 3 * c ^ 2))) ≤ ∫ ν in A..B, planckLaw h k c T ν := by
    have m3 : 81 * ((k * T) ^ 4 / (h ^ 3 * c ^ 2)) ≤ Real.pi ^ 4 * ((k * T) ^ 4 / (h ^ 3 * c ^ 2)) :=
      mul_le_mul_of_nonneg_right hpi hQ.le
    have hlow : 10 * ((k * T) ^ 4 / (h ^ 3 * c ^ 2)) ≤ ∫ ν in Set.Ioi (0 : ℝ), planckLaw h k c T ν := by rw [i2]; linarith
    norm_num at hl
    linarith
  have eC : 2 * h / c ^ 2 / (h / (k * T)) ^ 4 = 2 * ((k * T) ^ 4 / (h ^ 3 * c ^ 2)) := by field_simp
  have eδ : Real.log B = Real.log A + N * δ' := by
    rw [hδ', Real.log_div hB0.ne' hA0.ne']
    field_simp
    ring
  have eW := integral_log (planckLaw h k c T) hA0 hAB.le
  have eA := integral_log (fun ν => α ν / ρ * planckLaw h k c T ν) hA0 hAB.le
  have e3 := Neutrinos.MeanTables.planckMean_log (S := S) (ρ := ρ) hA0 hB0 hN (planckLaw h k c T) α hδ'
  simp only [mul_assoc] at eA
  simp only [planck_curve] at eW eA e3
  have hwin' := hwindow
  rw [← eW] at hwin'
  have hedge := curve_edges planck_statistics hC hbb (le_refl _) (A := Real.log A) (B := Real.log B)
    (by
      rw [Real.exp_log hA0]
      calc h / (k * T) * A ≤ h / (k * T) * (1.001e-3 * (k * T / h)) := mul_le_mul_of_nonneg_left hA1 hbb.le
        _ = 1.001e-3 := by field_simp)
    (by
      rw [Real.exp_log hB0]
      calc 1e3 = h / (k * T) * (1e3 * (k * T / h)) := by field_simp
        _ ≤ _ := mul_le_mul_of_nonneg_left hB1 hbb.le)
  rw [eC] at hedge
  have hvar := curve_variation planck_statistics hC hbb (Real.log A) (Real.log B)
  have hmain := (curve_bends planck_statistics hC hbb).mean (A := Real.log A) (B := Real.log B) (δ := δ') (t := S * Real.log 10)
    (κ := K / ρ) (lam := Λ / ρ) (N := N) (a := fun u => α (Real.exp u) / ρ) (η := 1.6 * δ' ^ 2)
    (fun u => (curve_pos planck_statistics hC hbb u).le) hδ0 eδ (mul_pos hS hlog0) (div_nonneg hΛ hρ.le)
    (fun u _ => div_nonneg (h0 _ (Real.exp_pos u)) hρ.le)
    (fun u _ => div_le_div_of_nonneg_right (hK _ (Real.exp_pos u)) hρ.le) (div_nonneg hK0 hρ.le)
    (fun u _ v _ => by
      rw [← sub_div, abs_div, abs_of_pos hρ, div_mul_eq_mul_div]
      refine div_le_div_of_nonneg_right ?_ hρ.le
      have := hlip _ _ (Real.exp_pos u) (Real.exp_pos v)
      rwa [Real.log_exp, Real.log_exp] at this)
    (by positivity)
    (by
      have hδ2 : 0 < δ' ^ 2 := by positivity
      refine (mul_le_mul_of_nonneg_left hvar (by positivity)).trans ?_
      generalize (∫ w in Real.log A..Real.log B, curve (2 * h / c ^ 2) (h / (k * T)) (-1) w) = I at *
      generalize curve (2 * h / c ^ 2) (h / (k * T)) (-1) (Real.log B) = x at *
      generalize curve (2 * h / c ^ 2) (h / (k * T)) (-1) (Real.log A) * drop (h / (k * T)) (-1) (Real.log A) = y at *
      have : 12 * I + x + y ≤ 12.8 * I := by norm_num at hedge ⊢; linarith
      calc δ' ^ 2 / 8 * (12 * I + x + y) ≤ δ' ^ 2 / 8 * (12.8 * I) := mul_le_mul_of_nonneg_left this (by positivity)
        _ = _ := by ring)
  rw [← e3, eA, eW] at hmain
  -- the whole spectrum
  have hmeas := measurable_of_slope hΛ hlip
  have near := WholeFermi.mean_near (α := α) i1 (fun ν hν => WholeSpectrum.law_nonneg hh hk hc hT hν) hA0.le hAB.le hρ
    hmeas h0 hK rfl hI hl hS.le (δ := 2e-12) w3 (by norm_num) (by norm_num) (by norm_num)
  have hP : (∫ ν in A..B, α ν / ρ * planckLaw h k c T ν) / ((∫ ν in A..B, planckLaw h k c T ν) + S * Real.log 10) =
      planckLimit S ρ A B (planckLaw h k c T) α := rfl
  rw [hP] at hmain
  have hwh : wholeMean ρ (planckLaw h k c T) α = wholePlanckMean h k c ρ T α := rfl
  rw [hwh] at near
  refine (abs_sub_le _ _ _).trans ((add_le_add step1 ((abs_sub_le _ _ _).trans (add_le_add hmain near))).trans ?_)
  have hκ : 0 ≤ K / ρ := div_nonneg hK0 hρ.le
  have h80 := WholeSpectrum.exp_neg_80
  have m1 : Real.exp (-80) * (K / ρ) ≤ 1 / 10 ^ 16 * (K / ρ) := mul_le_mul_of_nonneg_right h80 hκ
  have m2 : Λ / ρ * δ' ≤ Λ / ρ * δ := mul_le_mul_of_nonneg_left hδle (div_nonneg hΛ hρ.le)
  have m3 : δ' ^ 2 * (K / ρ) ≤ δ ^ 2 * (K / ρ) := mul_le_mul_of_nonneg_right (pow_le_pow_left₀ hδ0.le hδle 2) hκ
  rw [hX, add_div, mul_div_assoc (1.6 * δ ^ 2 + 2e-10) K ρ, show Λ * δ / 2 / ρ = Λ / ρ * δ / 2 by ring]
  norm_num at m1 ⊢
  linarith

/-- **C85 (photons)**: let an absorption or scattering coefficient be bounded by `K` and vary by at most `Λ` per unit of the logarithm
of the frequency.  In a group over the whole spectrum, with `N` frequencies, the Planck group opacity at every node differs
from the mean over all frequencies by at most `Λ δ / 2 + 1.6 K δ²` per density, up to `2·10⁻¹⁰ K`, where `δ = 6 ln 10 / N` is
the distance of the frequencies. -/
theorem C85_photon (hm : MeansOf h k c α lRhoMin lRhoMax NRho lTMin lTMax NT b n N qP qR)
    (hα : ∀ ρ T ν, 0 < ρ → 0 < T → 0 < ν → 0 ≤ α ρ T ν) (hNR : 2 ≤ NRho) (hNT : 2 ≤ NT)
    (hlR : lRhoMin < lRhoMax) (hlT : lTMin < lTMax) {g : ℕ} (hg : g < n) (hgr : GroupIs b g 0 none)
    {rho T : ℝ} (hin : Inside lRhoMin lRhoMax lTMin lTMax rho T) {i j : ℕ} (hi : (i : ℤ) < NRho) (hj : (j : ℤ) < NT)
    {ρ' T' K Λ δ : ℝ} (hρ' : ρ' = nodeValue lRhoMin lRhoMax NRho i) (hT' : T' = nodeValue lTMin lTMax NT j)
    (hr : coordinate rho = Real.logb 10 ρ') (ht : coordinate T = Real.logb 10 T')
    (hn : Negligible Robust.SMALL h k c T') (hK : ∀ ν, 0 < ν → α ρ' T' ν ≤ K) (hΛ : 0 ≤ Λ)
    (hlip : ∀ ν ν', 0 < ν → 0 < ν' → |α ρ' T' ν - α ρ' T' ν'| ≤ Λ * |Real.log ν - Real.log ν'|)
    (hδ : δ = 6 * Real.log 10 / N) :
    ∃ κ, qP (.fin rho) (.fin T) g = ok (.fin (rho * κ)) ∧
      |κ - (wholePlanckMean h k c ρ' T' (α ρ' T') + Robust.SMALL)| ≤ (Λ * δ / 2 + (1.6 * δ ^ 2 + 2e-10) * K) / ρ' := by
  obtain ⟨t, A, e, -, g2, g1, -, -⟩ := hm.averaged hα hNR hNT
  obtain ⟨-, hN, hh, hk, hc⟩ := A.bounds
  have hS := SMALL_pos
  have p1 : 0 < ρ' := hρ' ▸ nodeValue_pos _ _ _ _
  have p2 : 0 < T' := hT' ▸ nodeValue_pos _ _ _ _
  have hv := lookup_node_value (lk := t.lPlanck) (gR := ⟨lRhoMin, lRhoMax, NRho⟩) (gT := ⟨lTMin, lTMax, NT⟩) g2 g1 hNR hNT hlR hlT
    (g := g) (K := fun i j => groupPlanckMean Robust.SMALL h k c (nodeValue lRhoMin lRhoMax NRho i) (nodeValue lTMin lTMax NT j) 0 none N
      (α (nodeValue lRhoMin lRhoMax NRho i) (nodeValue lTMin lTMax NT j)) + Robust.SMALL)
    (fun i j hi hj => (A.read hi hj hgr hg rfl rfl).1)
    (fun i j hi hj => by have := (A.read hi hj hgr hg rfl rfl).2.2.1; linarith) hin.1 hin.2 hin.3 hin.4 hi hj
    (by rw [hr, hρ']; unfold nodeValue node; exact Real.logb_rpow (by norm_num) (by norm_num))
    (by rw [ht, hT']; unfold nodeValue node; exact Real.logb_rpow (by norm_num) (by norm_num))
  rw [← hρ', ← hT'] at hv
  refine ⟨_, by rw [e]; exact hv, ?_⟩
  rw [add_sub_add_right_eq_sub]
  exact whole_error hh hk hc p1 p2 hS hn (by omega) (fun ν hν => hα _ _ _ p1 p2 hν) hK hΛ hlip hδ

end

/-- the hypotheses of `C85_photon` are met by a gray opacity, averaged over 1000 frequencies -/
example : ∃ qP qR : XR → XR → ℤ → Outcome XR,
    MeansOf 1 1 1 (fun ρ _ _ => ρ * 1) 0 1 2 0 1 2 [.fin 0, .pinf] 1 1000 qP qR ∧
    ∃ κ : ℝ, qP (.fin (1 - Robust.SMALL)) (.fin (1 - Robust.SMALL)) 0 = ok (.fin ((1 - Robust.SMALL) * κ)) ∧
      |κ - (wholePlanckMean 1 1 1 1 1 (fun _ => 1 * 1) + Robust.SMALL)| ≤
        (0 * (6 * Real.log 10 / (1000 : ℕ)) / 2 + (1.6 * (6 * Real.log 10 / (1000 : ℕ)) ^ 2 + 2e-10) * 1) / 1 := by
  obtain ⟨hb, hgr⟩ := wholeGroup
  obtain ⟨o, ho, -⟩ := C07_gray_exists onesPC_finite (κ := 1) one_pos 0 1 (NRho := 2) (by norm_num) 0 1 (NT := 2)
    (by norm_num) hb (N := 1000) (by norm_num) (fun _ => .fin 0)
  have hm : MeansOf 1 1 1 (fun ρ _ _ => ρ * 1) 0 1 2 0 1 2 [.fin 0, .pinf] 1 1000
      (MeanPhotonAPI.PlanckGroupAbsorptionCoefficient o) (MeanPhotonAPI.RosselandGroupAbsorptionCoefficient o) :=
    .absorption (GrayOpacity.mk onesPC (.fin 1)) onesPC _ o onesPC_finite (fun ρ T ν _ _ _ => gray_coef onesPC 1 ρ T ν) ho
  have hnode : (1 : ℝ) = nodeValue 0 1 2 0 := by rw [node0]; simp
  exact ⟨_, _, hm, C85_photon hm (fun ρ _ _ h _ _ => by positivity) (by norm_num) (by norm_num) (by norm_num) (by norm_num)
    (g := 0) (by norm_num) hgr first_node.1 (i := 0) (j := 0) (by norm_num) (by norm_num) hnode hnode first_node.2 first_node.2
    negligible_ones (fun _ _ => by norm_num) (le_refl 0) (fun _ _ _ _ => by simp) rfl⟩

end Opac.Photons
