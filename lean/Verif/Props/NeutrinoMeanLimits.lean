import Verif.Props.NeutrinoMeans
import Verif.Lemmas.Convergence
import Verif.Spec.MeanLimits

/-!
# C66 for neutrinos: the means converge as the number of frequencies grows

Over the reals.  True for absorption.  False for scattering, where the requested number of frequencies is ignored.
-/

namespace Opac.Neutrinos.MeanTables
open Arith Outcome Spiner Photons Spec Finset Filter Topology MeasureTheory
open SpinerOpacity (equi tiny Tabulated species tiny_pos)

/-! ## Helpers -/

theorem tame_mul {a b : ℝ} {f g : ℝ → ℝ} (hf : Tame a b f) (hg : Tame a b g) : Tame a b fun x => f x * g x := by
  obtain ⟨⟨M, hM⟩, s, hs, hc⟩ := hf
  obtain ⟨⟨M', hM'⟩, s', hs', hc'⟩ := hg
  refine ⟨⟨M * M', fun x hx => ?_⟩, s ∪ s', hs.union hs', fun x hx hn => ?_⟩
  · rw [abs_mul]
    exact mul_le_mul (hM x hx) (hM' x hx) (abs_nonneg _) ((abs_nonneg _).trans (hM x hx))
  · rw [Set.mem_union, not_or] at hn
    exact (hc x hx hn.1).mul (hc' x hx hn.2)

theorem tame_of_continuous {a b : ℝ} (ha : 0 < a) {f : ℝ → ℝ} (hf : ContinuousOn f (Set.Ioi 0)) : Tame a b f := by
  have hsub : Set.Icc a b ⊆ Set.Ioi 0 := fun x hx => lt_of_lt_of_le ha hx.1
  obtain ⟨M, hM⟩ := isCompact_Icc.exists_bound_of_continuousOn (hf.mono hsub)
  exact ⟨⟨M, hM⟩, ∅, Set.countable_empty, fun x hx _ => hf.continuousAt (Ioi_mem_nhds (ha.trans hx.1))⟩

/-- sums over the bins of `[a, b]` -/
theorem bins_tendsto {a b : ℝ} (ha : 0 < a) (hab : a < b) {w : ℝ → ℝ} (hw : Tame a b w) :
    Tendsto (fun N : ℕ => ∑ i ∈ range N, w (binCentre a b N i) * binDNu a b N i) atTop
      (𝓝 ((∫ ν in a..b, w ν) / Real.log 10)) := by
  obtain ⟨⟨M, hM⟩, s, hs, hc⟩ := hw
  exact Convergence.logMidpoint_tendsto ha hab hM hs hc

theorem planck_limit {S ρ a b : ℝ} (hS : 0 < S) (ha : 0 < a) (hab : a < b) {B α : ℝ → ℝ} (hB : Tame a b B) (hα : Tame a b α)
    (hpos : ∀ ν, 0 < ν → 0 < B ν) :
    Tendsto (fun N : ℕ => planckMean S ρ N (binDNu a b N) (fun m => B (binCentre a b N m)) (fun m => α (binCentre a b N m)))
      atTop (𝓝 (planckLimit S ρ a b B α)) := by
  have hl10 : 0 < Real.log 10 := Real.log_pos (by norm_num)
  have hαρ : Tame a b fun x => α x / ρ := by
    have : Tame a b fun _ => ρ⁻¹ := tame_of_continuous ha continuousOn_const
    exact tame_mul hα this
  have t1 := bins_tendsto ha hab (tame_mul hαρ hB)
  have t2 := bins_tendsto ha hab hB
  have h0 : 0 ≤ ∫ ν in a..b, B ν :=
    intervalIntegral.integral_nonneg hab.le fun u hu => (hpos u (lt_of_lt_of_le ha hu.1)).le
  have h3 := t1.div (t2.add_const S) (by
    have : 0 ≤ (∫ ν in a..b, B ν) / Real.log 10 := by positivity
    linarith)
  have e : planckLimit S ρ a b B α = ((∫ ν in a..b, α ν / ρ * B ν) / Real.log 10) / ((∫ ν in a..b, B ν) / Real.log 10 + S) := by
    unfold planckLimit
    rw [div_add' _ _ _ hl10.ne', div_div_div_cancel_right₀ hl10.ne']
  rw [e]
  exact h3

theorem rosseland_limit {S ρ a b : ℝ} (hS : 0 < S) (ha : 0 < a) (hab : a < b) {D α : ℝ → ℝ} {P : ℕ → ℝ} {P' : ℝ}
    (hD : Tame a b D) (hα : Tame a b α) (hop : ∀ ν, a < ν → ν < b → S < α ν) (hP : Tendsto P atTop (𝓝 P')) (hP' : S < P')
    (hpath : S * Real.log 10 < ∫ ν in a..b, ρ / (α ν + S) * D ν) :
    Tendsto (fun N : ℕ => openRosselandMean S ρ N (binDNu a b N) (fun m => D (binCentre a b N m))
      (fun m => α (binCentre a b N m)) (P N)) atTop (𝓝 (rosselandLimit S ρ a b D α)) := by
  have hl10 : 0 < Real.log 10 := Real.log_pos (by norm_num)
  -- the mean free path is bounded, where it enters
  obtain ⟨α', hα'⟩ : ∃ α' : ℝ → ℝ, α' = fun x => max (α x) 0 := ⟨_, rfl⟩
  have hsame : ∀ x ∈ Set.Ioo a b, α' x = α x := by
    intro x hx
    rw [hα']
    exact max_eq_left (by have := hop x hx.1 hx.2; linarith)
  have hq : Tame a b fun x => ρ / (α' x + S) := by
    obtain ⟨-, s, hs, hc⟩ := hα
    refine ⟨⟨|ρ| / S, fun x hx => ?_⟩, s, hs, fun x hx hn => ?_⟩
    · have h0 : 0 ≤ α' x := by rw [hα']; exact le_max_right _ _
      rw [abs_div, abs_of_pos (show 0 < α' x + S by linarith)]
      exact div_le_div_of_nonneg_left (abs_nonneg _) hS (by linarith)
    · have h1 : ContinuousAt α' x := by
        rw [hα']
        exact (hc x hx hn).max continuousAt_const
      have h0 : 0 ≤ α' x := by rw [hα']; exact le_max_right _ _
      exact continuousAt_const.div (h1.add continuousAt_const) (by linarith)
  have eint : ∫ ν in a..b, ρ / (α' ν + S) * D ν = ∫ ν in a..b, ρ / (α ν + S) * D ν := by
    apply intervalIntegral.integral_congr_ae
    have h1 : ∀ᵐ x ∂(volume : Measure ℝ), x ≠ b := by simp [ae_iff]
    filter_upwards [h1] with x hx hxI
    rw [Set.uIoc_of_le hab.le] at hxI
    rw [hsame x ⟨hxI.1, lt_of_le_of_ne hxI.2 hx⟩]
  have t1 := bins_tendsto ha hab (tame_mul hq hD)
  rw [eint] at t1
  have t2 := bins_tendsto ha hab hD
  have d2 : S < (∫ ν in a..b, ρ / (α ν + S) * D ν) / Real.log 10 := by rwa [lt_div_iff₀ hl10]
  have h3 := t2.div (t1.add_const S) (by linarith)
  have e : rosselandLimit S ρ a b D α =
      ((∫ ν in a..b, D ν) / Real.log 10) / ((∫ ν in a..b, ρ / (α ν + S) * D ν) / Real.log 10 + S) := by
    unfold rosselandLimit
    rw [div_add' _ _ _ hl10.ne', div_div_div_cancel_right₀ hl10.ne']
  rw [e]
  refine h3.congr' ?_
  filter_upwards [t1.eventually_const_lt d2, hP.eventually_const_lt hP'] with N e1 e2
  have hs : ∀ i ∈ range N, a < binCentre a b N i ∧ binCentre a b N i < b := by
    intro i hi
    have hN : 0 < N := by have := mem_range.1 hi; omega
    have hW := binWidth_pos ha hab hN
    have hi' : (i : ℝ) + 1 ≤ N := by exact_mod_cast mem_range.1 hi
    have hNW : N * binWidth a b N = Real.logb 10 b - Real.logb 10 a := by
      unfold binWidth
      rw [mul_div_cancel₀ _ (by positivity)]
    unfold binCentre
    constructor
    · calc a = 10 ^ Real.logb 10 a := (Real.rpow_logb (by norm_num) (by norm_num) ha).symm
        _ < _ := Real.rpow_lt_rpow_of_exponent_lt (by norm_num) (by
          have : 0 < ((i : ℝ) + 1 / 2) * binWidth a b N := by positivity
          linarith)
    · calc _ < (10 : ℝ) ^ Real.logb 10 b := Real.rpow_lt_rpow_of_exponent_lt (by norm_num) (by nlinarith)
        _ = b := Real.rpow_logb (by norm_num) (by norm_num) (ha.trans hab)
  have w1 : openWeight S N (binDNu a b N) (fun m => D (binCentre a b N m)) (fun m => α (binCentre a b N m)) =
      ∑ i ∈ range N, D (binCentre a b N i) * binDNu a b N i := by
    unfold openWeight
    exact sum_congr rfl fun i hi => if_pos (hop _ (hs i hi).1 (hs i hi).2)
  have w2 : openPath S ρ N (binDNu a b N) (fun m => D (binCentre a b N m)) (fun m => α (binCentre a b N m)) =
      ∑ i ∈ range N, ρ / (α' (binCentre a b N i) + S) * D (binCentre a b N i) * binDNu a b N i := by
    unfold openPath
    refine sum_congr rfl fun i hi => ?_
    rw [hsame _ (hs i hi)]
    exact if_pos (hop _ (hs i hi).1 (hs i hi).2)
  unfold openRosselandMean
  rw [w1, w2]
  exact (if_pos ⟨e2, e1⟩).symm

/-! ## Absorption -/

/-- **C66 (neutrino absorption)**: let the coefficient and the thermal weights be bounded and continuous in the window up to
countably many frequencies.  At every node and for every species, the Planck mean tends to the quotient of the integrals over
the window as the number of frequencies grows, and so does the Rosseland mean, if the coefficient, the limit of the Planck
mean and the integral over the mean free path are above the floor. -/
theorem C66_absorption {O : Type} {inst : NeutrinoAPI ℝ O} {opac : O} {r : MeanRanges} {a b : ℝ} {m : ℕ → MeanOpacityBase ℝ}
    (h : ∀ N, 0 < N → AbsorptionMeans inst opac r a b N (m N)) (hr : r.Proper) (ha : 0 < a) (hab : a < b)
    (hw : PositiveWeights (inst.ThermalDistributionOfTNu opac) (inst.DThermalDistributionOfTNuDT opac))
    {α : ℝ → ℝ → ℝ → RadiationType → ℝ → ℝ}
    (hα : ∀ rho T Ye s ν, 0 < rho → 0 < T → 0 < ν → inst.AbsorptionCoefficient opac rho T Ye s ν = ok (α rho T Ye s ν) ∧
      0 ≤ α rho T Ye s ν)
    {i j k : ℕ} {rho temp Ye : ℝ} (hn : AtNode r i j k rho temp Ye) {s : RadiationType} (hs : Tabulated s)
    {ρ T : ℝ} (hρ : ρ = r.rhoNode i) (hT : T = r.TNode j)
    (h1 : Tame a b (α ρ T Ye s)) (h2 : Tame a b (inst.ThermalDistributionOfTNu opac T s))
    (h3 : Tame a b (inst.DThermalDistributionOfTNuDT opac T s)) :
    ∃ κP κR : ℕ → ℝ,
      (∀ N, 0 < N → MeanNeutrinoAPI.PlanckMeanAbsorptionCoefficient (m N) rho temp Ye s = ok (rho * κP N) ∧
        MeanNeutrinoAPI.RosselandMeanAbsorptionCoefficient (m N) rho temp Ye s = ok (rho * κR N)) ∧
      Tendsto κP atTop (𝓝 (planckLimit tiny ρ a b (inst.ThermalDistributionOfTNu opac T s) (α ρ T Ye s) + tiny)) ∧
      ((∀ ν, a < ν → ν < b → tiny < α ρ T Ye s ν) →
        tiny < planckLimit tiny ρ a b (inst.ThermalDistributionOfTNu opac T s) (α ρ T Ye s) →
        tiny * Real.log 10 < (∫ ν in a..b, ρ / (α ρ T Ye s ν + tiny) * inst.DThermalDistributionOfTNuDT opac T s ν) →
        Tendsto κR atTop
          (𝓝 (rosselandLimit tiny ρ a b (inst.DThermalDistributionOfTNuDT opac T s) (α ρ T Ye s) + tiny))) := by
  have hρ0 : 0 < ρ := hρ ▸ (node_pos r i).1
  have hT0 : 0 < T := hT ▸ (node_pos r j).2
  have hnn : NonnegCoefficients inst opac := by
    intro rho T Ye s ν v p1 p2 p3 hv
    obtain ⟨e, e0⟩ := hα rho T Ye s ν p1 p2 p3
    rw [e] at hv
    cases hv
    exact e0
  have key : ∀ N, 0 < N → ∃ KP KR,
      KP = planckMean tiny ρ N (binDNu a b N) (fun m => inst.ThermalDistributionOfTNu opac T s (binCentre a b N m))
        (fun m => α ρ T Ye s (binCentre a b N m)) ∧
      KR = openRosselandMean tiny ρ N (binDNu a b N) (fun m => inst.DThermalDistributionOfTNuDT opac T s (binCentre a b N m))
        (fun m => α ρ T Ye s (binCentre a b N m)) KP ∧
      MeanNeutrinoAPI.PlanckMeanAbsorptionCoefficient (m N) rho temp Ye s = ok (rho * (KP + tiny)) ∧
      MeanNeutrinoAPI.RosselandMeanAbsorptionCoefficient (m N) rho temp Ye s = ok (rho * (KR + tiny)) := by
    intro N hN
    obtain ⟨α', KP, KR, e1, e2, e3, e4, e5⟩ := C52_absorption (h N hN) hr hab hN hw hnn hn hs
    rw [← hρ, ← hT, ← hn.Ye] at e1
    rw [← hρ, ← hT] at e2 e3
    have hsame : ∀ m < N, α' m = α ρ T Ye s (binCentre a b N m) := by
      intro m hm
      have := e1 m hm
      rw [(hα _ _ _ _ _ hρ0 hT0 (binCentre_pos _ _ _ _)).1] at this
      exact (Outcome.ok.inj this).symm
    refine ⟨KP, KR, ?_, ?_, e4, e5⟩
    · rw [e2]
      unfold planckMean
      congr 1
      exact sum_congr rfl fun m hm => by rw [hsame m (mem_range.1 hm)]
    · rw [e3]
      have w1 : openPath tiny ρ N (binDNu a b N) (fun m => inst.DThermalDistributionOfTNuDT opac T s (binCentre a b N m)) α' =
          openPath tiny ρ N (binDNu a b N) (fun m => inst.DThermalDistributionOfTNuDT opac T s (binCentre a b N m))
            (fun m => α ρ T Ye s (binCentre a b N m)) := by
        unfold openPath
        exact sum_congr rfl fun m hm => by rw [hsame m (mem_range.1 hm)]
      have w2 : openWeight tiny N (binDNu a b N) (fun m => inst.DThermalDistributionOfTNuDT opac T s (binCentre a b N m)) α' =
          openWeight tiny N (binDNu a b N) (fun m => inst.DThermalDistributionOfTNuDT opac T s (binCentre a b N m))
            (fun m => α ρ T Ye s (binCentre a b N m)) := by
        unfold openWeight
        exact sum_congr rfl fun m hm => by rw [hsame m (mem_range.1 hm)]
      unfold openRosselandMean
      rw [w1, w2]
  have tP := planck_limit (ρ := ρ) tiny_pos ha hab h2 h1 (fun ν hν => (hw T s ν hT0 hν).1)
  refine ⟨fun N => planckMean tiny ρ N (binDNu a b N) (fun m => inst.ThermalDistributionOfTNu opac T s (binCentre a b N m))
      (fun m => α ρ T Ye s (binCentre a b N m)) + tiny,
    fun N => openRosselandMean tiny ρ N (binDNu a b N) (fun m => inst.DThermalDistributionOfTNuDT opac T s (binCentre a b N m))
      (fun m => α ρ T Ye s (binCentre a b N m)) (planckMean tiny ρ N (binDNu a b N)
        (fun m => inst.ThermalDistributionOfTNu opac T s (binCentre a b N m)) (fun m => α ρ T Ye s (binCentre a b N m))) + tiny,
    fun N hN => ?_, tP.add_const _, fun q1 q2 q3 => ?_⟩
  · obtain ⟨KP, KR, rfl, rfl, e4, e5⟩ := key N hN
    exact ⟨e4, e5⟩
  · exact (rosseland_limit tiny_pos ha hab h3 h1 q1 tP q2 q3).add_const _

/-- the thermal weights of the library are continuous -/
theorem fermi_continuous {d : FermiDirac ℝ} (hpc : PosPC d.pc) (T : ℝ) :
    ContinuousOn (d.ThermalDistributionOfTNu T) (Set.Ioi 0) ∧ ContinuousOn (d.DThermalDistributionOfTNuDT T) (Set.Ioi 0) := by
  obtain ⟨p1, p2, p3, -⟩ := hpc
  constructor
  · have e : d.ThermalDistributionOfTNu T = fermiDiracLaw d.NSPECIES d.pc.h d.pc.kb d.pc.c T := funext fun ν => fermi_eq d T ν
    rw [e]
    unfold fermiDiracLaw
    refine ContinuousOn.div (by fun_prop) (by fun_prop) fun x _ => ?_
    positivity
  · unfold FermiDirac.DThermalDistributionOfTNuDT
    simp only [areal]
    refine ContinuousOn.div (by fun_prop) (by fun_prop) fun x _ => ?_
    positivity

theorem tophat_formula {o : TophatEmissivity ℝ} (rho T Ye : ℝ) (s : RadiationType) (ν : ℝ) {J : ℝ}
    (hJ : J = o.C_ * TophatEmissivity.GetYeF s Ye) :
    o.AbsorptionCoefficient rho T Ye s ν =
      max (if o.numin_ < ν ∧ ν < o.numax_ then J else 0) FermiDirac.EPS /
        (max (o.dist.ThermalDistributionOfTNu T ν) FermiDirac.EPS + Robust.SMALL) / (4 * Real.pi) := by
  have hE : (0 : ℝ) < FermiDirac.EPS := by unfold FermiDirac.EPS; simp only [areal]; positivity
  unfold TophatEmissivity.AbsorptionCoefficient FermiDirac.AbsorptionCoefficientFromKirchhoff TophatEmissivity.EmissivityPerNuOmega
  simp only
  have hm : ∀ x y : ℝ, stdMax x y = max x y := by
    intro x y
    unfold stdMax
    simp only [areal]
    split_ifs with h
    · exact (max_eq_right h.le).symm
    · exact (max_eq_left (not_lt.1 h)).symm
  rw [hm, hm, ratio_nonneg (le_trans hE.le (le_max_right _ _))]
  rw [← hJ]
  simp only [areal, Bool.and_eq_true]
  norm_num

/-- the coefficient of the tophat emissivity has two jumps, but is otherwise continuous: C66 holds for its tables -/
theorem C66_tophat {o : TophatEmissivity ℝ} (hpc : PosPC o.dist.pc) {a b : ℝ} (ha : 0 < a) (rho : ℝ) (T : ℝ)
    (Ye : ℝ) (s : RadiationType) :
    Tame a b (o.AbsorptionCoefficient rho T Ye s) ∧ ∀ ν, 0 ≤ o.AbsorptionCoefficient rho T Ye s ν := by
  have hE : (0 : ℝ) < FermiDirac.EPS := by unfold FermiDirac.EPS; simp only [areal]; positivity
  have hS := SMALL_pos
  obtain ⟨J, hJ⟩ : ∃ J : ℝ, J = o.C_ * TophatEmissivity.GetYeF s Ye := ⟨_, rfl⟩
  have e := fun ν => tophat_formula (o := o) rho T Ye s ν hJ
  refine ⟨⟨⟨max |J| FermiDirac.EPS / FermiDirac.EPS / (4 * Real.pi), fun x _ => ?_⟩, {o.numin_, o.numax_}, (Set.countable_singleton _).insert _,
    fun x hx hn => ?_⟩, fun ν => ?_⟩
  · rw [e, abs_div, abs_div, abs_of_pos (show 0 < 4 * Real.pi by positivity),
      abs_of_pos (show 0 < max (o.dist.ThermalDistributionOfTNu T x) FermiDirac.EPS + Robust.SMALL by
        have := le_max_right (o.dist.ThermalDistributionOfTNu T x) FermiDirac.EPS; linarith),
      abs_of_pos (show 0 < max (if o.numin_ < x ∧ x < o.numax_ then J else 0) FermiDirac.EPS from lt_of_lt_of_le hE (le_max_right _ _))]
    have h1 : max (if o.numin_ < x ∧ x < o.numax_ then J else 0) FermiDirac.EPS ≤ max |J| FermiDirac.EPS := by
      apply max_le_max _ (le_refl _)
      split_ifs
      · exact le_abs_self J
      · exact abs_nonneg J
    have h2 : FermiDirac.EPS ≤ max (o.dist.ThermalDistributionOfTNu T x) FermiDirac.EPS + Robust.SMALL := by
      have := le_max_right (o.dist.ThermalDistributionOfTNu T x) FermiDirac.EPS; linarith
    have h3 : 0 ≤ max |J| FermiDirac.EPS := le_trans hE.le (le_max_right _ _)
    exact div_le_div_of_nonneg_right (div_le_div₀ h3 h1 hE h2) (by positivity)
  · simp only [Set.mem_insert_iff, Set.mem_singleton_iff, not_or] at hn
    have hx0 : 0 < x := ha.trans hx.1
    have hB : ContinuousAt (o.dist.ThermalDistributionOfTNu T) x := (fermi_continuous hpc T).1.continuousAt (Ioi_mem_nhds hx0)
    have hj : ContinuousAt (fun ν => if o.numin_ < ν ∧ ν < o.numax_ then J else 0) x := by
      by_cases hin : o.numin_ < x ∧ x < o.numax_
      · refine (continuousAt_const (y := J)).congr ?_
        filter_upwards [Ioo_mem_nhds hin.1 hin.2] with y hy
        exact (if_pos ⟨hy.1, hy.2⟩).symm
      · refine (continuousAt_const (y := (0 : ℝ))).congr ?_
        rw [not_and_or, not_lt, not_lt] at hin
        rcases hin with h | h
        · filter_upwards [Iio_mem_nhds (lt_of_le_of_ne h hn.1)] with y hy
          exact (if_neg fun hc => absurd hc.1 (not_lt.2 (le_of_lt hy))).symm
        · filter_upwards [Ioi_mem_nhds (lt_of_le_of_ne h (Ne.symm hn.2))] with y hy
          exact (if_neg fun hc => absurd hc.2 (not_lt.2 (le_of_lt hy))).symm
    have hfun : o.AbsorptionCoefficient rho T Ye s = fun ν => max (if o.numin_ < ν ∧ ν < o.numax_ then J else 0) FermiDirac.EPS /
        (max (o.dist.ThermalDistributionOfTNu T ν) FermiDirac.EPS + Robust.SMALL) / (4 * Real.pi) := funext e
    rw [hfun]
    exact ((hj.max continuousAt_const).div ((hB.max continuousAt_const).add continuousAt_const) (by
      have := le_max_right (o.dist.ThermalDistributionOfTNu T x) FermiDirac.EPS; linarith)).div_const _
  · rw [e]
    have h1 : 0 ≤ max (if o.numin_ < ν ∧ ν < o.numax_ then J else 0) FermiDirac.EPS := le_trans hE.le (le_max_right _ _)
    have h2 : 0 ≤ max (o.dist.ThermalDistributionOfTNu T ν) FermiDirac.EPS := le_trans hE.le (le_max_right _ _)
    positivity

/-- the hypotheses of `C66_absorption` are met: tables of a tophat emissivity at the last of two nodes in each direction -/
example (d : FermiDirac ℝ) (pc : PC ℝ) (hd : 0 < d.NSPECIES) (hpc : PosPC d.pc) :
    ∃ (m : ℕ → MeanOpacityBase ℝ) (κP : ℕ → ℝ) (L : ℝ),
      (∀ N, 0 < N → AbsorptionMeans (inferInstance : NeutrinoAPI ℝ (TophatEmissivity ℝ)) ⟨d, pc, 1, 2, 5⟩ twoNodes
        ((10 : ℝ) ^ (0 : ℝ)) ((10 : ℝ) ^ (1 : ℝ)) N (m N)) ∧
      (∀ N, 0 < N → MeanNeutrinoAPI.PlanckMeanAbsorptionCoefficient (m N) (10 - tiny) (10 - tiny) 1 .NU_ELECTRON =
        ok ((10 - tiny) * κP N)) ∧ Tendsto κP atTop (𝓝 L) := by
  have ht : ∀ N : ℕ, ∃ m, MeanOpacityBase.construct false pc (fun _ _ => 0) (⟨d, pc, 1, 2, 5⟩ : TophatEmissivity ℝ)
      twoNodes.lRhoMin twoNodes.lRhoMax twoNodes.NRho twoNodes.lTMin twoNodes.lTMax twoNodes.NT twoNodes.YeMin twoNodes.YeMax
      twoNodes.NYe 0 1 (N : ℤ) = ok m := fun N => absorption_returns (fun _ _ _ _ _ => ⟨_, rfl⟩)
  choose m hm using ht
  have hA := fun N (_ : 0 < N) => AbsorptionMeans.window (inst := inferInstance) (r := twoNodes) (hm N)
  have hp : (0 : ℝ) < (10 : ℝ) ^ (0 : ℝ) := by norm_num
  obtain ⟨κP, κR, h1, h2, -⟩ := C66_absorption hA twoNodes_proper hp (by norm_num)
    (fun T s ν hT hν => ⟨by
      show 0 < d.ThermalDistributionOfTNu T ν
      rw [fermi_eq]
      exact fermi_pos hpc (by exact_mod_cast hd) hν, fermiDT_pos hd hpc hT hν⟩)
    (α := fun rho T Ye s ν => (⟨d, pc, 1, 2, 5⟩ : TophatEmissivity ℝ).AbsorptionCoefficient rho T Ye s ν)
    (fun rho T Ye s ν _ _ _ => ⟨rfl, (C66_tophat (o := ⟨d, pc, 1, 2, 5⟩) (b := 1) hpc one_pos rho T Ye s).2 ν⟩)
    twoNodes_at (s := .NU_ELECTRON) (.inl rfl) rfl rfl
    (C66_tophat (o := ⟨d, pc, 1, 2, 5⟩) hpc hp _ _ _ _).1
    (tame_of_continuous hp (fermi_continuous hpc _).1) (tame_of_continuous hp (fermi_continuous hpc _).2)
  exact ⟨m, κP, _, hA, fun N hN => (h1 N hN).1, h2⟩

theorem tiny_small : tiny ≤ 1 / 10000 := by
  unfold tiny
  have h : (2 : ℝ) ^ (-1022 : ℤ) ≤ 2 ^ (-20 : ℤ) := zpow_le_zpow_right₀ (by norm_num) (by norm_num)
  have h2 : (2 : ℝ) ^ (-20 : ℤ) ≤ 1 / 1000000 + 1 / 1000000 := by norm_num
  have h3 := h.trans h2
  generalize (2 : ℝ) ^ (-1022 : ℤ) = x at *
  linarith

/-- thermal weights at 10 degrees, in units where the constants are 1 -/
theorem fermi_lower {d : FermiDirac ℝ} (h1 : d.pc.h = 1) (h2 : d.pc.kb = 1) (h3 : d.pc.c = 1) (hd : d.NSPECIES = 1) {ν : ℝ}
    (n1 : 1 ≤ ν) (n2 : ν ≤ 10) :
    1 / 2 ≤ d.ThermalDistributionOfTNu 10 ν ∧ 1 / 600 ≤ d.DThermalDistributionOfTNuDT 10 ν := by
  have he : Real.exp (ν / 10) ≤ 3 := by
    have : Real.exp (ν / 10) ≤ Real.exp 1 := Real.exp_le_exp.2 (by linarith)
    linarith [Real.exp_one_lt_d9]
  have p3 : 1 ≤ ν ^ 3 := one_le_pow₀ n1
  have p4 : 1 ≤ ν ^ 4 := one_le_pow₀ n1
  constructor
  · rw [fermi_eq]
    unfold fermiDiracLaw
    rw [h1, h2, h3, hd, le_div_iff₀ (by positivity)]
    norm_num
    linarith
  · unfold FermiDirac.DThermalDistributionOfTNuDT
    simp only [areal]
    rw [h1, h2, h3, hd]
    have hneg : 1 / 3 ≤ Real.exp (-(1 * ν / (1 * 10))) := by
      rw [Real.exp_neg, one_div, one_mul, one_mul]
      exact inv_anti₀ (Real.exp_pos _) he
    have hle : Real.exp (-(1 * ν / (1 * 10))) ≤ 1 := by
      have : 0 ≤ 1 * ν / (1 * 10) := by positivity
      exact Real.exp_le_one_iff.2 (by linarith)
    generalize Real.exp (-(1 * ν / (1 * 10))) = x at *
    have hx : 0 < x := by linarith
    rw [le_div_iff₀ (by positivity)]
    have a1 : (1 : ℝ) / 50 ≤ ν ^ 4 / 50 := by linarith
    have e : 1 / 600 * ((1 + x) * (1 + x)) ≤ 1 / 50 * x := by nlinarith
    have e2 : 1 / 50 * x ≤ ν ^ 4 / 50 * x := mul_le_mul_of_nonneg_right a1 hx.le
    norm_num
    nlinarith

/-- the hypotheses of `C66_absorption` on the Rosseland mean are met, by gray absorption -/
example (d : FermiDirac ℝ) (pc : PC ℝ) (h1 : d.pc.h = 1) (h2 : d.pc.kb = 1) (h3 : d.pc.c = 1) (hd : d.NSPECIES = 1)
    (hpc : PosPC d.pc) :
    ∃ (m : ℕ → MeanOpacityBase ℝ) (κR : ℕ → ℝ) (L : ℝ),
      (∀ N, 0 < N → AbsorptionMeans (inferInstance : NeutrinoAPI ℝ (GrayOpacity ℝ)) ⟨d, pc, 2⟩ twoNodes
        ((10 : ℝ) ^ (0 : ℝ)) ((10 : ℝ) ^ (1 : ℝ)) N (m N)) ∧
      (∀ N, 0 < N → MeanNeutrinoAPI.RosselandMeanAbsorptionCoefficient (m N) (10 - tiny) (10 - tiny) 1 .NU_HEAVY =
        ok ((10 - tiny) * κR N)) ∧ Tendsto κR atTop (𝓝 L) := by
  have ht : ∀ N : ℕ, ∃ m, MeanOpacityBase.construct false pc (fun _ _ => 0) (⟨d, pc, 2⟩ : GrayOpacity ℝ)
      twoNodes.lRhoMin twoNodes.lRhoMax twoNodes.NRho twoNodes.lTMin twoNodes.lTMax twoNodes.NT twoNodes.YeMin twoNodes.YeMax
      twoNodes.NYe 0 1 (N : ℤ) = ok m := fun N => absorption_returns (fun _ _ _ _ _ => ⟨_, rfl⟩)
  choose m hm using ht
  have hA := fun N (_ : 0 < N) => AbsorptionMeans.window (inst := inferInstance) (r := twoNodes) (hm N)
  have hp : (0 : ℝ) < (10 : ℝ) ^ (0 : ℝ) := by norm_num
  have c1 := (fermi_continuous hpc 10).1
  have c2 := (fermi_continuous hpc 10).2
  have htiny := tiny_pos
  have hsmall := tiny_small
  have hl10 : Real.log 10 ≤ 10 := by have := Real.log_le_sub_one_of_pos (show (0 : ℝ) < 10 by norm_num); linarith
  have hl0 : 0 < Real.log 10 := Real.log_pos (by norm_num)
  have hSl : tiny * Real.log 10 ≤ tiny * 10 := mul_le_mul_of_nonneg_left hl10 htiny.le
  have hSl0 : 0 < tiny * Real.log 10 := by positivity
  have hsub : Set.uIcc (1 : ℝ) 10 ⊆ Set.Ioi 0 := by
    rw [Set.uIcc_of_le (by norm_num)]
    exact fun x hx => lt_of_lt_of_le one_pos hx.1
  obtain ⟨κP, κR, e1, -, e2⟩ := C66_absorption hA twoNodes_proper hp (by norm_num)
    (fun T s ν hT hν => ⟨by
      show 0 < d.ThermalDistributionOfTNu T ν
      rw [fermi_eq]
      exact fermi_pos hpc (by rw [hd]; norm_num) hν, fermiDT_pos (by omega) hpc hT hν⟩)
    (α := fun rho _ _ _ _ => rho * 2) (fun rho T Ye s ν hr _ _ => ⟨rfl, by positivity⟩)
    twoNodes_at (s := .NU_HEAVY) (.inr (.inr rfl)) (ρ := 10) (T := 10) twoNodes_eq.1.symm twoNodes_eq.2.1.symm
    (tame_of_continuous hp continuousOn_const) (tame_of_continuous hp c1) (tame_of_continuous hp c2)
  refine ⟨m, κR, _, hA, fun N hN => (e1 N hN).2, e2 (fun ν _ _ => by linarith) ?_ ?_⟩
  · show tiny < planckLimit tiny 10 _ _ (d.ThermalDistributionOfTNu 10) _
    unfold planckLimit
    rw [Real.rpow_zero, Real.rpow_one]
    have b : ∫ _ in (1 : ℝ)..10, (1 / 2 : ℝ) ≤ ∫ ν in (1 : ℝ)..10, d.ThermalDistributionOfTNu 10 ν :=
      intervalIntegral.integral_mono_on (by norm_num) intervalIntegrable_const (c1.mono hsub).intervalIntegrable
        fun ν hν => (fermi_lower h1 h2 h3 hd hν.1 hν.2).1
    rw [intervalIntegral.integral_const, smul_eq_mul] at b
    rw [intervalIntegral.integral_const_mul, lt_div_iff₀ (by linarith)]
    generalize (∫ ν in (1 : ℝ)..10, d.ThermalDistributionOfTNu 10 ν) = I at *
    generalize tiny * Real.log 10 = q at *
    have : tiny * (I + q) ≤ 1 * (I + q) := mul_le_mul_of_nonneg_right (by linarith) (by linarith)
    linarith
  · show tiny * Real.log 10 < ∫ ν in (10 : ℝ) ^ (0 : ℝ)..(10 : ℝ) ^ (1 : ℝ), 10 / (10 * 2 + tiny) * d.DThermalDistributionOfTNuDT 10 ν
    rw [Real.rpow_zero, Real.rpow_one]
    have b : ∫ _ in (1 : ℝ)..10, (1 / 600 : ℝ) ≤ ∫ ν in (1 : ℝ)..10, d.DThermalDistributionOfTNuDT 10 ν :=
      intervalIntegral.integral_mono_on (by norm_num) intervalIntegrable_const (c2.mono hsub).intervalIntegrable
        fun ν hν => (fermi_lower h1 h2 h3 hd hν.1 hν.2).2
    rw [intervalIntegral.integral_const, smul_eq_mul] at b
    rw [intervalIntegral.integral_const_mul]
    have q : 1 / 3 ≤ 10 / (10 * 2 + tiny) := by rw [le_div_iff₀ (by linarith)]; linarith
    generalize (∫ ν in (1 : ℝ)..10, d.DThermalDistributionOfTNuDT 10 ν) = I at *
    have : 1 / 3 * I ≤ 10 / (10 * 2 + tiny) * I := mul_le_mul_of_nonneg_right q (by linarith)
    linarith

/-! ## Scattering -/

/-- a source whose scattering coefficient oscillates with the logarithm of the frequency -/
structure Comb where
  teeth : ℝ

noncomputable instance : NeutrinoSAPI ℝ Comb where
  GetOnDevice o := o
  nlambda _ := 0
  TotalCrossSection o _ _ _ _ nu := Real.cos (o.teeth * Real.pi * Real.logb 10 nu) ^ 2
  DifferentialCrossSection o _ _ _ _ nu _ := Real.cos (o.teeth * Real.pi * Real.logb 10 nu) ^ 2 / (4 * Real.pi)
  TotalScatteringCoefficient o rho _ _ _ nu := rho * Real.cos (o.teeth * Real.pi * Real.logb 10 nu) ^ 2

theorem comb_centre (m : ℕ) :
    Real.cos (100 * Real.pi * Real.logb 10 (binCentre ((10 : ℝ) ^ (0 : ℝ)) ((10 : ℝ) ^ (1 : ℝ)) 100 m)) = 0 := by
  have : Real.logb 10 (binCentre ((10 : ℝ) ^ (0 : ℝ)) ((10 : ℝ) ^ (1 : ℝ)) 100 m) = (m + 1 / 2) / 100 := by
    simp only [binCentre, binWidth, logb_ten]
    norm_num
    ring
  rw [this, Real.cos_eq_zero_iff]
  exact ⟨m, by push_cast; ring⟩

/-- **C66 is false for neutrino scattering**: however many frequencies are asked for, the tabulated mean is the same, and it
is not the limit, for a scattering coefficient that depends continuously on the frequency -/
theorem C66_scattering_false (dist : FermiDirac ℝ) (pc : PC ℝ) (hd : 0 < dist.NSPECIES) (hpc : PosPC dist.pc) :
    ∃ (opac : Comb) (r : MeanRanges) (a b : ℝ) (m : ℕ → MeanSOpacityBase ℝ) (rho temp Ye : ℝ),
      (∀ N : ℕ, 0 < N → ScatteringMeans inferInstance dist opac r a b N (m N)) ∧ r.Proper ∧ 0 < a ∧ a < b ∧
      AtNode r 1 1 1 rho temp Ye ∧
      ContinuousOn (NeutrinoSAPI.TotalScatteringCoefficient opac (r.rhoNode 1) (r.TNode 1) (r.YeNode 1) .NU_ELECTRON) (Set.Ioi 0) ∧
      ¬ ∃ κ : ℕ → ℝ,
        (∀ N, 0 < N → MeanNeutrinoSAPI.PlanckMeanTotalScatteringCoefficient (m N) rho temp Ye .NU_ELECTRON = ok (rho * κ N)) ∧
        Tendsto κ atTop (𝓝 (planckLimit tiny (r.rhoNode 1) a b (dist.ThermalDistributionOfTNu (r.TNode 1))
          (NeutrinoSAPI.TotalScatteringCoefficient opac (r.rhoNode 1) (r.TNode 1) (r.YeNode 1) .NU_ELECTRON) + tiny)) := by
  have ht : ∀ N : ℕ, ∃ m, MeanSOpacityBase.construct dist pc (fun _ _ => 0) (⟨100⟩ : Comb) twoNodes.lRhoMin twoNodes.lRhoMax
      twoNodes.NRho twoNodes.lTMin twoNodes.lTMax twoNodes.NT twoNodes.YeMin twoNodes.YeMax twoNodes.NYe 0 1 (N : ℤ) = ok m :=
    fun N => scattering_returns
  choose m hm using ht
  have hA := fun N => ScatteringMeans.window (inst := inferInstance) (r := twoNodes) (hm N)
  have htiny := tiny_pos
  have h1 := SpinerOpacity.tiny_le_one
  have hlt : (10 : ℝ) ^ (0 : ℝ) < (10 : ℝ) ^ (1 : ℝ) := by norm_num
  have hpos : (0 : ℝ) < (10 : ℝ) ^ (0 : ℝ) := by norm_num
  have hρ : 0 < twoNodes.rhoNode 1 := (node_pos _ _).1
  have hcont : ContinuousOn (NeutrinoSAPI.TotalScatteringCoefficient (⟨100⟩ : Comb) (twoNodes.rhoNode 1) (twoNodes.TNode 1)
      (twoNodes.YeNode 1) .NU_ELECTRON) (Set.Ioi 0) := by
    show ContinuousOn (fun nu => twoNodes.rhoNode 1 * Real.cos (100 * Real.pi * Real.logb 10 nu) ^ 2) (Set.Ioi 0)
    have hl : ContinuousOn (fun nu : ℝ => Real.logb 10 nu) (Set.Ioi 0) := by
      unfold Real.logb
      exact (Real.continuousOn_log.mono fun x hx => (show (0 : ℝ) < x from hx).ne').div_const _
    exact continuousOn_const.mul ((Real.continuous_cos.comp_continuousOn (continuousOn_const.mul hl)).pow 2)
  refine ⟨⟨100⟩, twoNodes, _, _, m, _, _, _, fun N _ => hA N, twoNodes_proper, hpos, hlt, twoNodes_at, hcont, ?_⟩
  rintro ⟨κ, hκ, hlim⟩
  have hconst : ∀ N, 0 < N → κ N = tiny := by
    intro N hN
    obtain ⟨α, KP, KR, e1, e2, -, e4, -⟩ := C52_scattering_partial (hA N) twoNodes_proper hlt hd hpc
      (fun rho T Ye s ν h1 _ _ => by
        show 0 ≤ rho * Real.cos (100 * Real.pi * Real.logb 10 ν) ^ 2
        positivity) twoNodes_at (s := .NU_ELECTRON) (.inl rfl)
    have hα : ∀ m < 100, α m = 0 := by
      intro m hm
      have := Outcome.ok.inj (e1 m hm)
      rw [← this]
      show twoNodes.rhoNode 1 * Real.cos (100 * Real.pi * Real.logb 10 _) ^ 2 = 0
      rw [comb_centre m]
      ring
    have hK : KP = 0 := by
      rw [e2]
      unfold planckMean
      rw [sum_eq_zero, zero_div]
      intro m hm
      rw [hα m (mem_range.1 hm)]
      ring
    rw [hκ N hN] at e4
    have := Outcome.ok.inj e4
    rw [hK, zero_add] at this
    exact mul_left_cancel₀ (by linarith) this
  have hlim' : Tendsto κ atTop (𝓝 tiny) := by
    refine tendsto_const_nhds.congr' ?_
    filter_upwards [eventually_gt_atTop 0] with N hN
    exact (hconst N hN).symm
  have heq := tendsto_nhds_unique hlim hlim'
  have hzero : planckLimit tiny (twoNodes.rhoNode 1) ((10 : ℝ) ^ (0 : ℝ)) ((10 : ℝ) ^ (1 : ℝ))
      (dist.ThermalDistributionOfTNu (twoNodes.TNode 1)) (NeutrinoSAPI.TotalScatteringCoefficient (⟨100⟩ : Comb) (twoNodes.rhoNode 1)
        (twoNodes.TNode 1) (twoNodes.YeNode 1) .NU_ELECTRON) = 0 := by linarith
  have hB : ∀ ν, 0 < ν → 0 < dist.ThermalDistributionOfTNu (twoNodes.TNode 1) ν := by
    intro ν hν
    rw [fermi_eq]
    exact fermi_pos hpc (by exact_mod_cast hd) hν
  have hBc := (fermi_continuous (d := dist) hpc (twoNodes.TNode 1)).1
  have hsub : Set.Icc ((10 : ℝ) ^ (0 : ℝ)) ((10 : ℝ) ^ (1 : ℝ)) ⊆ Set.Ioi 0 := fun x hx => lt_of_lt_of_le hpos hx.1
  have hnum : 0 < ∫ ν in (10 : ℝ) ^ (0 : ℝ)..(10 : ℝ) ^ (1 : ℝ), NeutrinoSAPI.TotalScatteringCoefficient (⟨100⟩ : Comb)
      (twoNodes.rhoNode 1) (twoNodes.TNode 1) (twoNodes.YeNode 1) .NU_ELECTRON ν / twoNodes.rhoNode 1 *
        dist.ThermalDistributionOfTNu (twoNodes.TNode 1) ν := by
    refine intervalIntegral.integral_pos hlt (((hcont.div_const _).mul hBc).mono hsub) ?_ ⟨(10 : ℝ) ^ (0 : ℝ), ⟨le_refl _, hlt.le⟩, ?_⟩
    · intro x hx
      have hx0 : 0 < x := hpos.trans hx.1
      have : 0 ≤ twoNodes.rhoNode 1 * Real.cos (100 * Real.pi * Real.logb 10 x) ^ 2 := by positivity
      exact mul_nonneg (div_nonneg this hρ.le) (hB x hx0).le
    · refine mul_pos (div_pos ?_ hρ) (hB _ hpos)
      show 0 < twoNodes.rhoNode 1 * Real.cos (100 * Real.pi * Real.logb 10 ((10 : ℝ) ^ (0 : ℝ))) ^ 2
      rw [logb_ten, mul_zero, Real.cos_zero]
      linarith
  have hden : 0 ≤ ∫ ν in (10 : ℝ) ^ (0 : ℝ)..(10 : ℝ) ^ (1 : ℝ), dist.ThermalDistributionOfTNu (twoNodes.TNode 1) ν :=
    intervalIntegral.integral_nonneg hlt.le fun u hu => (hB u (lt_of_lt_of_le hpos hu.1)).le
  have hl10 : 0 < Real.log 10 := Real.log_pos (by norm_num)
  unfold planckLimit at hzero
  have := div_pos hnum (show 0 < (∫ ν in (10 : ℝ) ^ (0 : ℝ)..(10 : ℝ) ^ (1 : ℝ),
    dist.ThermalDistributionOfTNu (twoNodes.TNode 1) ν) + tiny * Real.log 10 by positivity)
  linarith

end Opac.Neutrinos.MeanTables
