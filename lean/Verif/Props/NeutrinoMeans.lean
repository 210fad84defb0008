import Verif.Lemmas.NeutrinoMeans
import Verif.Lemmas.Means
import Verif.Props.SpinerFill

/-!
# C52: means of neutrino opacities

Over the reals.  Means are tabulated on `NRho` densities and `NT` temperatures, equidistant in the decimal logarithm, and
`NYe` electron fractions; frequencies are the centres of `N` logarithmic bins of a window `[a, b]`.
-/

namespace Opac.Neutrinos.MeanTables
open Arith Outcome Spiner Photons Spec Finset
open SpinerOpacity (equi tiny Tabulated species tiny_pos)

/-! ## Specification -/

/-- the requested ranges of a table -/
structure MeanRanges where
  lRhoMin : ℝ
  lRhoMax : ℝ
  NRho : ℤ
  lTMin : ℝ
  lTMax : ℝ
  NT : ℤ
  YeMin : ℝ
  YeMax : ℝ
  NYe : ℤ

/-- at least two points in each direction, in increasing order -/
structure MeanRanges.Proper (r : MeanRanges) : Prop where
  rho : 2 ≤ r.NRho ∧ r.lRhoMin < r.lRhoMax
  T : 2 ≤ r.NT ∧ r.lTMin < r.lTMax
  Ye : 2 ≤ r.NYe ∧ r.YeMin < r.YeMax

/-- density of node `i` -/
noncomputable def MeanRanges.rhoNode (r : MeanRanges) (i : ℕ) : ℝ := (10 : ℝ) ^ equi r.lRhoMin r.lRhoMax r.NRho i
/-- temperature of node `j` -/
noncomputable def MeanRanges.TNode (r : MeanRanges) (j : ℕ) : ℝ := (10 : ℝ) ^ equi r.lTMin r.lTMax r.NT j
/-- electron fraction of node `k` -/
noncomputable def MeanRanges.YeNode (r : MeanRanges) (k : ℕ) : ℝ := equi r.YeMin r.YeMax r.NYe k

/-- `(rho, temp, Ye)` is, up to the floor, node `(i, j, k)` -/
structure AtNode (r : MeanRanges) (i j k : ℕ) (rho temp Ye : ℝ) : Prop where
  rho0 : 0 ≤ rho
  temp0 : 0 ≤ temp
  rhoI : (i : ℤ) < r.NRho
  tempJ : (j : ℤ) < r.NT
  YeK : (k : ℤ) < r.NYe
  rho : rho + tiny = r.rhoNode i
  temp : temp + tiny = r.TNode j
  Ye : Ye = r.YeNode k

/-- thermal weights are positive at positive temperature and frequency -/
def PositiveWeights (B D : ℝ → RadiationType → ℝ → ℝ) : Prop :=
  ∀ T s ν, 0 < T → 0 < ν → 0 < B T s ν ∧ 0 < D T s ν

/-- the answers `P`, `Q` of a mean table at node `(i, j, k)`: `α` are the coefficients of the source `coef` at the
centres of exactly `N` logarithmic bins of `[a, b]`, and `P`, `Q` are their Planck and Rosseland means (each plus the floor)
times the density -/
structure MeansAt (coef : ℝ → ℝ → ℝ → RadiationType → ℝ → Outcome ℝ) (B D : ℝ → RadiationType → ℝ → ℝ) (a b : ℝ) (N : ℕ)
    (r : MeanRanges) (i j k : ℕ) (s : RadiationType) (rho : ℝ) (P Q : Outcome ℝ) (α : ℕ → ℝ) (KP KR : ℝ) : Prop where
  samples : ∀ m < N, coef (r.rhoNode i) (r.TNode j) (r.YeNode k) s (binCentre a b N m) = ok (α m)
  planck : KP = planckMean tiny (r.rhoNode i) N (binDNu a b N) (fun m => B (r.TNode j) s (binCentre a b N m)) α
  rosseland : KR = openRosselandMean tiny (r.rhoNode i) N (binDNu a b N)
    (fun m => D (r.TNode j) s (binCentre a b N m)) α KP
  P : P = ok (rho * (KP + tiny))
  Q : Q = ok (rho * (KR + tiny))

/-! ## Helpers -/

theorem SMALL_tiny' : (Robust.SMALL : ℝ) = tiny := real_SMALL

theorem toLog_eq (x : ℝ) : toLog_ x = Real.logb 10 (|x| + tiny) := by
  simp only [toLog_, tiny, areal]
  norm_num

theorem fromLog_eq (x : ℝ) : fromLog_ x = (10 : ℝ) ^ x := by simp [fromLog_, areal]

theorem fromLog_toLog {x : ℝ} (hx : 0 ≤ x) : fromLog_ (toLog_ x) = x + tiny := by
  have := tiny_pos
  rw [fromLog_eq, toLog_eq, abs_of_nonneg hx, Real.rpow_logb (by norm_num) (by norm_num) (by linarith)]

theorem toLog_node {x l : ℝ} (hx : 0 ≤ x) (h : x + tiny = (10 : ℝ) ^ l) : toLog_ x = l := by
  rw [toLog_eq, abs_of_nonneg hx, h, Real.logb_rpow (by norm_num) (by norm_num)]

theorem sampleNu_eq {a b : ℝ} (N m : ℕ) :
    sampleNu (Real.logb 10 a) (Real.logb 10 b) (N : ℤ) m = binCentre a b N m := by
  simp only [sampleNu, fromLog_eq, binCentre, binWidth, areal]
  norm_num

variable {o : Sampler ℝ} {a b : ℝ} {N : ℕ} {r : MeanRanges} {junk : ℕ → ℕ → ℝ} {t : MeanTables ℝ}

/-- the empty tables on the ranges `r` -/
noncomputable def empty (junk : ℕ → ℕ → ℝ) (r : MeanRanges) : MeanTables ℝ :=
  setup junk r.lRhoMin r.lRhoMax r.NRho r.lTMin r.lTMax r.NT r.YeMin r.YeMax r.NYe

theorem planckMean_nonneg {S ρ : ℝ} {N : ℕ} {dν B α : ℕ → ℝ} (hS : 0 < S) (hρ : 0 < ρ) (hd : ∀ i, 0 < dν i)
    (hB : ∀ i, 0 < B i) (hα : ∀ i < N, 0 ≤ α i) : 0 ≤ planckMean S ρ N dν B α := by
  unfold planckMean
  refine div_nonneg (sum_nonneg fun i hi => ?_)
    (add_nonneg (sum_nonneg fun i _ => (mul_pos (hB i) (hd i)).le) hS.le)
  exact mul_nonneg (mul_nonneg (div_nonneg (hα i (mem_range.1 hi)) hρ.le) (hB i).le) (hd i).le

theorem openRosselandMean_nonneg {S ρ P : ℝ} {N : ℕ} {dν D α : ℕ → ℝ} (hS : 0 < S) (hd : ∀ i, 0 < dν i)
    (hD : ∀ i, 0 < D i) : 0 ≤ openRosselandMean S ρ N dν D α P := by
  unfold openRosselandMean
  split_ifs with h
  · refine div_nonneg (sum_nonneg fun i _ => ?_) (by linarith [h.2])
    split_ifs
    · exact (mul_pos (hD i) (hd i)).le
    · exact le_refl _
  · exact le_refl _

theorem means_of_sums (ha : 0 < a) (hab : a < b) (hN : 0 < N) (hw : PositiveWeights o.B o.dBdT) {ρ T Ye : ℝ}
    {s : RadiationType} (hρ : 0 < ρ) (hT : 0 < T) {k : Sums ℝ}
    (h : cellSums o ρ T Ye s (Real.logb 10 a) (Real.logb 10 b) (N : ℤ) = ok k) :
    ∃ α : ℕ → ℝ, (∀ m < N, o.coef ρ T Ye s (binCentre a b N m) = ok (α m)) ∧
      (means k).1 = planckMean tiny ρ N (binDNu a b N) (fun m => o.B T s (binCentre a b N m)) α ∧
      (means k).2 = openRosselandMean tiny ρ N (binDNu a b N) (fun m => o.dBdT T s (binCentre a b N m)) α (means k).1 := by
  unfold cellSums at h
  simp only [sampleNu_eq] at h
  obtain ⟨α, h1, h2⟩ := loop_sums N k h
  have hdl : (Real.logb 10 b - Real.logb 10 a) / (lit (N : ℤ) : ℝ) = binWidth a b N := by
    simp [binWidth, areal]
  rw [hdl] at h2
  have hW := binWidth_pos ha hab hN
  have hc := fun m => binCentre_pos a b N m
  have := means_eq (α := α) (n := N) hρ hW hc (fun m => (hw T s _ hT (hc m)).1) (fun m => (hw T s _ hT (hc m)).2)
  rw [← h2] at this
  refine ⟨α, h1, ?_, ?_⟩
  · rw [this, SMALL_tiny']; rfl
  · rw [this, SMALL_tiny']; rfl

theorem lookup_node (hr : r.Proper) {d : DataBox ℝ} (hd : d.dims = [r.NRho, r.NT, r.NYe, 3])
    (hg : d.grid 1 = ⟨r.YeMin, r.YeMax, r.NYe⟩ ∧ d.grid 2 = ⟨r.lTMin, r.lTMax, r.NT⟩ ∧
      d.grid 3 = ⟨r.lRhoMin, r.lRhoMax, r.NRho⟩) {i j k n : ℕ} {rho temp Ye : ℝ} (h : AtNode r i j k rho temp Ye)
    {s : RadiationType} (hn : n < 3) (hs : RadType2Idx s = (n : ℤ)) {v : ℝ} (hv0 : 0 ≤ v)
    (hv : d.read [(i : ℤ), j, k, n] = ok (toLog_ v)) :
    lookup d rho temp Ye s = ok (rho * (v + tiny)) := by
  obtain ⟨g1, g2, g3⟩ := hg
  have := interp4_node hd (by rw [g1]) (by rw [g2]) (by rw [g3]) (by rw [g1]; exact hr.Ye)
    (by rw [g2]; exact hr.T) (by rw [g3]; exact hr.rho) h.rhoI h.tempJ h.YeK
    (l := n) ⟨by omega, by omega⟩ hv
  rw [g1, g2, g3] at this
  simp only [SpinerOpacity.node_equi] at this
  simp only [lookup, toLog_node h.rho0 h.rho, toLog_node h.temp0 h.temp, hs]
  rw [h.Ye, show r.YeNode k = equi r.YeMin r.YeMax r.NYe k from rfl, this]
  simp only [map'_ok, fromLog_toLog hv0]

theorem node_pos (r : MeanRanges) (i : ℕ) : 0 < r.rhoNode i ∧ 0 < r.TNode i := by
  unfold MeanRanges.rhoNode MeanRanges.TNode
  constructor <;> positivity

/-- the two lookups at a node -/
theorem meansAt {cell : ℕ → ℕ → ℕ → ℕ → MeanTables ℝ → Outcome (MeanTables ℝ)}
    (hcell : ∀ i j k d t t', Same (empty junk r) t → cell i j k d t = ok t' →
      Fills Cell.val (Same (empty junk r)) (Entry o (Real.logb 10 a) (Real.logb 10 b) N (empty junk r))
        {Cell.planck i j k d, Cell.rosseland i j k d} t t')
    (h : loops r.NRho r.NT r.NYe cell (empty junk r) = ok t) (hr : r.Proper) (ha : 0 < a) (hab : a < b) (hN : 0 < N)
    (hw : PositiveWeights o.B o.dBdT) (hα : ∀ ρ T Ye s ν v, 0 < ρ → 0 < T → 0 < ν → o.coef ρ T Ye s ν = ok v → 0 ≤ v)
    {i j k : ℕ} {rho temp Ye : ℝ} (hn : AtNode r i j k rho temp Ye) {s : RadiationType} (hs : Tabulated s) :
    ∃ α KP KR, MeansAt o.coef o.B o.dBdT a b N r i j k s rho (lookup t.lPlanck rho temp Ye s)
      (lookup t.lRosseland rho temp Ye s) α KP KR := by
  obtain ⟨d, hd, h1, h2⟩ := species hs
  obtain ⟨hS, hE⟩ := loops_fills hcell h
  obtain ⟨K, ⟨s', hs', hK⟩, e1, e2⟩ := hE i j k d hn.rhoI hn.tempJ hn.YeK hd
  rw [h2] at hs'; cases hs'
  have x3 : fromLog_ (((empty junk r).lPlanck.range 3).x i) = r.rhoNode i := by rw [x_eq, fromLog_eq]; rfl
  have x2 : fromLog_ (((empty junk r).lPlanck.range 2).x j) = r.TNode j := by rw [x_eq, fromLog_eq]; rfl
  have x1 : ((empty junk r).lPlanck.range 1).x k = r.YeNode k := by rw [x_eq]; rfl
  rw [x3, x2, x1] at hK
  have hρ := (node_pos r i).1
  have hT := (node_pos r j).2
  obtain ⟨α, hα', hP, hR⟩ := means_of_sums ha hab hN hw hρ hT hK
  have hW := binWidth_pos ha hab hN
  have hc := fun m => binCentre_pos a b N m
  have hd' : ∀ m, 0 < binDNu a b N m := fun m => mul_pos (hc m) hW
  refine ⟨α, (means K).1, (means K).2, hα', hP, hR, ?_, ?_⟩
  · refine lookup_node hr hS.p1 (by rw [hS.p2]; exact ⟨rfl, rfl, rfl⟩) hn hd h1 ?_ e1
    rw [hP]
    exact planckMean_nonneg tiny_pos hρ hd' (fun m => (hw _ s _ hT (hc m)).1) (fun m hm => hα _ _ _ _ _ _ hρ hT (hc m) (hα' m hm))
  · refine lookup_node hr hS.r1 (by rw [hS.r2]; exact ⟨rfl, rfl, rfl⟩) hn hd h1 ?_ e2
    rw [hR]
    exact openRosselandMean_nonneg tiny_pos hd' (fun m => (hw _ s _ hT (hc m)).2)

/-! ## Sources -/

/-- the coefficients of an absorption opacity are not negative at positive density, temperature and frequency -/
def NonnegCoefficients {O : Type} (inst : NeutrinoAPI ℝ O) (opac : O) : Prop :=
  ∀ rho T Ye s ν v, 0 < rho → 0 < T → 0 < ν → inst.AbsorptionCoefficient opac rho T Ye s ν = ok v → 0 ≤ v

/-- window of the constructors that are given none -/
noncomputable def thermalWindow (pc : PC ℝ) (r : MeanRanges) : ℝ × ℝ :=
  (1e-3 * pc.kb * (10 : ℝ) ^ r.lTMin / pc.h + tiny, 1e3 * pc.kb * (10 : ℝ) ^ r.lTMax / pc.h + tiny)

/-- `m` is the mean opacity the library builds from `opac` on the ranges `r` with `N` frequencies in `[a, b]` -/
inductive AbsorptionMeans {O : Type} (inst : NeutrinoAPI ℝ O) (opac : O) (r : MeanRanges) :
    (a b : ℝ) → (N : ℕ) → MeanOpacityBase ℝ → Prop
  /-- constructor with a window `[10^lNuMin, 10^lNuMax]` and a number of frequencies -/
  | window {debug pc junk lNuMin lNuMax m} {N : ℕ} (h : MeanOpacityBase.construct debug pc junk opac r.lRhoMin r.lRhoMax r.NRho
      r.lTMin r.lTMax r.NT r.YeMin r.YeMax r.NYe lNuMin lNuMax (N : ℤ) = ok m) :
      AbsorptionMeans inst opac r ((10 : ℝ) ^ lNuMin) ((10 : ℝ) ^ lNuMax) N m
  /-- constructor without: 100 frequencies from `10^-3 k T_min / h` to `10^3 k T_max / h` -/
  | auto {debug junk m} {pc : PC ℝ} (hk : 0 < pc.kb) (hh : 0 < pc.h)
      (h : MeanOpacityBase.constructAuto debug pc junk opac r.lRhoMin r.lRhoMax r.NRho
        r.lTMin r.lTMax r.NT r.YeMin r.YeMax r.NYe = ok m) :
      AbsorptionMeans inst opac r (thermalWindow pc r).1 (thermalWindow pc r).2 100 m

/-- `m` is the mean scattering opacity the library builds from `opac` on the ranges `r` when asked for `NNu` frequencies
in `[a, b]` -/
inductive ScatteringMeans {O : Type} (inst : NeutrinoSAPI ℝ O) (dist : FermiDirac ℝ) (opac : O) (r : MeanRanges) :
    (a b : ℝ) → (NNu : ℤ) → MeanSOpacityBase ℝ → Prop
  | window {pc junk lNuMin lNuMax NNu m} (h : MeanSOpacityBase.construct dist pc junk opac r.lRhoMin r.lRhoMax r.NRho
      r.lTMin r.lTMax r.NT r.YeMin r.YeMax r.NYe lNuMin lNuMax NNu = ok m) :
      ScatteringMeans inst dist opac r ((10 : ℝ) ^ lNuMin) ((10 : ℝ) ^ lNuMax) NNu m
  | auto {junk m} {pc : PC ℝ} (hk : 0 < pc.kb) (hh : 0 < pc.h)
      (h : MeanSOpacityBase.constructAuto dist pc junk opac r.lRhoMin r.lRhoMax r.NRho
        r.lTMin r.lTMax r.NT r.YeMin r.YeMax r.NYe = ok m) :
      ScatteringMeans inst dist opac r (thermalWindow pc r).1 (thermalWindow pc r).2 100 m

theorem autoWindow_eq {pc : PC ℝ} (hk : 0 < pc.kb) (hh : 0 < pc.h) :
    autoWindow pc r.lTMin r.lTMax = (Real.logb 10 (thermalWindow pc r).1, Real.logb 10 (thermalWindow pc r).2) ∧
      0 < (thermalWindow pc r).1 := by
  have := tiny_pos
  refine ⟨?_, ?_⟩
  · unfold autoWindow thermalWindow
    simp only [toLog_eq, fromLog_eq, areal]
    rw [abs_of_nonneg (by positivity), abs_of_nonneg (by positivity)]
    norm_num
  · unfold thermalWindow
    positivity

theorem logb_ten (x : ℝ) : Real.logb 10 ((10 : ℝ) ^ x) = x := Real.logb_rpow (by norm_num) (by norm_num)

/-! ## C52: the quadrature -/

/-- **C52 (absorption)**: at every node and for every species, the mean table returns the density times the Planck and
Rosseland means of the source's absorption coefficients at exactly the requested number of frequencies, the centres of
logarithmic bins of the requested window -/
theorem C52_absorption {O : Type} {inst : NeutrinoAPI ℝ O} {opac : O} {m : MeanOpacityBase ℝ}
    (h : AbsorptionMeans inst opac r a b N m) (hr : r.Proper) (hab : a < b) (hN : 0 < N)
    (hw : PositiveWeights (inst.ThermalDistributionOfTNu opac) (inst.DThermalDistributionOfTNuDT opac))
    (hα : NonnegCoefficients inst opac) {i j k : ℕ} {rho temp Ye : ℝ} (hn : AtNode r i j k rho temp Ye)
    {s : RadiationType} (hs : Tabulated s) :
    ∃ α KP KR, MeansAt (inst.AbsorptionCoefficient opac) (inst.ThermalDistributionOfTNu opac)
      (inst.DThermalDistributionOfTNuDT opac) a b N r i j k s rho
      (MeanNeutrinoAPI.PlanckMeanAbsorptionCoefficient m rho temp Ye s)
      (MeanNeutrinoAPI.RosselandMeanAbsorptionCoefficient m rho temp Ye s) α KP KR := by
  cases h with
  | window h =>
    rename_i debug pc junk lNuMin lNuMax
    unfold MeanOpacityBase.construct MeanOpacityBase.Impl_ at h
    simp only [Bool.false_eq_true, if_false] at h
    split at h
    · simp at h
    simp only [bind_eq_ok] at h
    obtain ⟨t, h, h'⟩ := h
    cases h'
    refine meansAt (o := ⟨inst.AbsorptionCoefficient opac, inst.ThermalDistributionOfTNu opac,
      inst.DThermalDistributionOfTNuDT opac⟩) (junk := junk) (fun i j k d t t' ht h => fillCell_fills i j k d t t' ht ?_)
      h hr (by positivity) hab hN hw hα hn hs
    rw [logb_ten, logb_ten]
    exact h
  | auto hk hh h =>
    rename_i debug junk pc
    unfold MeanOpacityBase.constructAuto MeanOpacityBase.Impl_ at h
    simp only [if_true] at h
    split at h
    · simp at h
    simp only [bind_eq_ok] at h
    obtain ⟨t, h, h'⟩ := h
    cases h'
    obtain ⟨w1, w2⟩ := autoWindow_eq (r := r) hk hh
    refine meansAt (o := ⟨inst.AbsorptionCoefficient opac, inst.ThermalDistributionOfTNu opac,
      inst.DThermalDistributionOfTNuDT opac⟩) (junk := junk) (fun i j k d t t' ht h => fillCell_fills i j k d t t' ht ?_)
      h hr w2 hab hN hw hα hn hs
    rw [w1] at h
    exact h

/-- **C52 (scattering), partial**: as for absorption, but with 100 frequencies, whatever number was asked for.  Missing:
the requested number. -/
theorem C52_scattering_partial {O : Type} {inst : NeutrinoSAPI ℝ O} {dist : FermiDirac ℝ} {opac : O} {NNu : ℤ}
    {m : MeanSOpacityBase ℝ} (h : ScatteringMeans inst dist opac r a b NNu m) (hr : r.Proper) (hab : a < b)
    (hd : 0 < dist.NSPECIES) (hpc : PosPC dist.pc)
    (hα : ∀ rho T Ye s ν, 0 < rho → 0 < T → 0 < ν → 0 ≤ inst.TotalScatteringCoefficient opac rho T Ye s ν)
    {i j k : ℕ} {rho temp Ye : ℝ} (hn : AtNode r i j k rho temp Ye)
    {s : RadiationType} (hs : Tabulated s) :
    ∃ α KP KR, MeansAt (fun rho T Ye s ν => ok (inst.TotalScatteringCoefficient opac rho T Ye s ν))
      (fun T _ ν => dist.ThermalDistributionOfTNu T ν) (fun T _ ν => dist.DThermalDistributionOfTNuDT T ν)
      a b 100 r i j k s rho
      (MeanNeutrinoSAPI.PlanckMeanTotalScatteringCoefficient m rho temp Ye s)
      (MeanNeutrinoSAPI.RosselandMeanTotalScatteringCoefficient m rho temp Ye s) α KP KR := by
  have hw : PositiveWeights (fun T (_ : RadiationType) ν => dist.ThermalDistributionOfTNu T ν)
      (fun T _ ν => dist.DThermalDistributionOfTNuDT T ν) := by
    intro T s ν hT hν
    refine ⟨?_, fermiDT_pos hd hpc hT hν⟩
    show 0 < dist.ThermalDistributionOfTNu T ν
    rw [fermi_eq]
    exact fermi_pos hpc (by exact_mod_cast hd) hν
  have hα' : ∀ ρ T Ye s ν v, 0 < ρ → 0 < T → 0 < ν → ok (inst.TotalScatteringCoefficient opac ρ T Ye s ν) = ok v → 0 ≤ v := by
    intro ρ T Ye s ν v h1 h2 h3 hv
    cases hv
    exact hα _ _ _ _ _ h1 h2 h3
  cases h with
  | window h =>
    rename_i pc junk lNuMin lNuMax
    unfold MeanSOpacityBase.construct MeanSOpacityBase.Impl_ at h
    simp only [bind_eq_ok] at h
    obtain ⟨t, h, h'⟩ := h
    cases h'
    refine meansAt (N := 100) (junk := junk) (o := ⟨fun rho T Ye s ν => ok (inst.TotalScatteringCoefficient opac rho T Ye s ν),
      fun T _ ν => dist.ThermalDistributionOfTNu T ν, fun T _ ν => dist.DThermalDistributionOfTNuDT T ν⟩)
      (fun i j k d t t' ht h => fillCellS_fills (by norm_num) i j k d t t' ht ?_)
      h hr (by positivity) hab (by norm_num) hw hα' hn hs
    rw [logb_ten, logb_ten]
    exact h
  | auto hk hh h =>
    rename_i junk pc
    unfold MeanSOpacityBase.constructAuto MeanSOpacityBase.Impl_ at h
    simp only [bind_eq_ok, if_true] at h
    obtain ⟨t, h, h'⟩ := h
    cases h'
    obtain ⟨w1, w2⟩ := autoWindow_eq (r := r) hk hh
    refine meansAt (N := 100) (junk := junk) (o := ⟨fun rho T Ye s ν => ok (inst.TotalScatteringCoefficient opac rho T Ye s ν),
      fun T _ ν => dist.ThermalDistributionOfTNu T ν, fun T _ ν => dist.DThermalDistributionOfTNuDT T ν⟩)
      (fun i j k d t t' ht h => fillCellS_fills (by norm_num) i j k d t t' ht ?_)
      h hr w2 hab (by norm_num) hw hα' hn hs
    rw [w1] at h
    exact h

/-! ## C52: means lie between the extreme samples -/

/-- the mean `K` of samples `κ` with total weight `W` lies between any bounds on the samples; the lower bound is reduced
by the regularisation -/
structure PlanckBetween (N : ℕ) (κ : ℕ → ℝ) (W K : ℝ) : Prop where
  weight : 0 < W
  upper : ∀ M, (∀ m < N, κ m ≤ M) → K ≤ M
  lower : ∀ M, (∀ m < N, M ≤ κ m) → M * (W / (W + tiny)) ≤ K

/-- the Rosseland mean `K` of the samples `κ` for which the coefficient `α` exceeds the floor, with total weight `W`, lies
between any bounds on these samples, up to the regularisation; unless the Planck mean `KP` or the weighted mean free path is
below the floor, where it is zero -/
structure RosselandBetween (N : ℕ) (α κ : ℕ → ℝ) (ρ KP W path K : ℝ) : Prop where
  nonneg : 0 ≤ K
  upper : ∀ M, 0 ≤ M → (∀ m < N, tiny < α m → κ m ≤ M) → K ≤ M + tiny / ρ
  lower : tiny < KP → tiny < path → ∀ M, 0 < M → (∀ m < N, tiny < α m → M ≤ κ m) → M * (W / (W + M * tiny)) ≤ K
  zero : ¬ (tiny < KP ∧ tiny < path) → K = 0

theorem planck_between {S ρ : ℝ} {N : ℕ} {dν B α : ℕ → ℝ} (hS : S = tiny) (hN : 0 < N) (hρ : 0 < ρ) (hd : ∀ i, 0 < dν i)
    (hB : ∀ i, 0 < B i) (hα : ∀ i < N, 0 ≤ α i) :
    PlanckBetween N (fun m => α m / ρ) (weight N dν B) (planckMean S ρ N dν B α) := by
  subst hS
  have ht := tiny_pos
  have hW : 0 < weight N dν B := sum_pos (fun m _ => mul_pos (hB m) (hd m)) ⟨0, by simp; omega⟩
  refine ⟨hW, fun M hM => ?_, fun M hM => ?_⟩
  · have hM0 : 0 ≤ M := le_trans (div_nonneg (hα 0 hN) hρ.le) (hM 0 hN)
    unfold planckMean
    rw [div_le_iff₀ (by unfold weight at hW; linarith)]
    have : ∑ m ∈ range N, α m / ρ * B m * dν m ≤ M * ∑ m ∈ range N, B m * dν m := by
      rw [mul_sum]
      refine sum_le_sum fun m hm => ?_
      rw [mul_assoc]
      exact mul_le_mul_of_nonneg_right (hM m (mem_range.1 hm)) (mul_pos (hB m) (hd m)).le
    nlinarith
  · unfold planckMean
    rw [← mul_div_assoc]
    show M * weight N dν B / (weight N dν B + tiny) ≤ _ / (weight N dν B + tiny)
    refine div_le_div_of_nonneg_right ?_ (by linarith)
    unfold weight
    rw [mul_sum]
    refine sum_le_sum fun m hm => ?_
    rw [mul_assoc]
    exact mul_le_mul_of_nonneg_right (hM m (mem_range.1 hm)) (mul_pos (hB m) (hd m)).le

theorem rosseland_between {ρ P : ℝ} {N : ℕ} {dν D α : ℕ → ℝ} (hρ : 0 < ρ) (hd : ∀ i, 0 < dν i) (hD : ∀ i, 0 < D i) :
    RosselandBetween N α (fun m => α m / ρ) ρ P (openWeight tiny N dν D α) (openPath tiny ρ N dν D α)
      (openRosselandMean tiny ρ N dν D α P) := by
  have ht := tiny_pos
  have h0 : 0 ≤ openWeight tiny N dν D α := sum_nonneg fun i _ => by
    split_ifs
    · exact (mul_pos (hD i) (hd i)).le
    · exact le_refl _
  refine ⟨openRosselandMean_nonneg ht hd hD, fun M hM h => ?_, fun h1 h2 M hM h => ?_, fun h => ?_⟩
  · unfold openRosselandMean
    have hq : 0 < ρ / (M * ρ + tiny) := div_pos hρ (by positivity)
    split_ifs with hc
    · rw [div_le_iff₀ (by linarith)]
      have key : ρ / (M * ρ + tiny) * openWeight tiny N dν D α ≤ openPath tiny ρ N dν D α := by
        unfold openWeight openPath
        rw [mul_sum]
        refine sum_le_sum fun i hi => ?_
        split_ifs with hi'
        · rw [← mul_assoc]
          refine mul_le_mul_of_nonneg_right (mul_le_mul_of_nonneg_right ?_ (hD i).le) (hd i).le
          refine div_le_div_of_nonneg_left hρ.le (by linarith) ?_
          have := h i (mem_range.1 hi) hi'
          rw [div_le_iff₀ hρ] at this
          linarith
        · simp
      have e : M + tiny / ρ = 1 / (ρ / (M * ρ + tiny)) := by field_simp
      have hm := mul_le_mul_of_nonneg_left key (one_div_pos.2 hq).le
      rw [← mul_assoc, one_div_mul_cancel hq.ne', one_mul] at hm
      rw [e]
      have : 0 ≤ 1 / (ρ / (M * ρ + tiny)) * tiny := mul_nonneg (one_div_pos.2 hq).le ht.le
      linarith
    · positivity
  · unfold openRosselandMean
    rw [if_pos ⟨h1, h2⟩]
    have key : M * openPath tiny ρ N dν D α ≤ openWeight tiny N dν D α := by
      unfold openWeight openPath
      rw [mul_sum]
      refine sum_le_sum fun i hi => ?_
      split_ifs with hi'
      · rw [mul_assoc, ← mul_assoc M]
        have := h i (mem_range.1 hi) hi'
        rw [le_div_iff₀ hρ] at this
        have h3 : M * (ρ / (α i + tiny)) ≤ 1 := by
          rw [← mul_div_assoc, div_le_one (by linarith)]
          linarith
        have := mul_le_mul_of_nonneg_right h3 (mul_pos (hD i) (hd i)).le
        linarith
      · simp
    have hMt : 0 < M * tiny := mul_pos hM ht
    have hp : 0 < openPath tiny ρ N dν D α + tiny := by linarith
    rw [← mul_div_assoc, div_le_div_iff₀ (by linarith) hp]
    nlinarith
  · unfold openRosselandMean
    rw [if_neg h]

/-- **C52 (absorption between)**: at every node and for every species, the mean absorption coefficients per density lie
between the extreme sampled opacities, up to regularisation -/
theorem C52_absorption_between {O : Type} {inst : NeutrinoAPI ℝ O} {opac : O} {m : MeanOpacityBase ℝ}
    (h : AbsorptionMeans inst opac r a b N m) (hr : r.Proper) (ha : 0 < a) (hab : a < b) (hN : 0 < N)
    (hw : PositiveWeights (inst.ThermalDistributionOfTNu opac) (inst.DThermalDistributionOfTNuDT opac))
    (hα : NonnegCoefficients inst opac) {i j k : ℕ} {rho temp Ye : ℝ} (hn : AtNode r i j k rho temp Ye)
    {s : RadiationType} (hs : Tabulated s) :
    ∃ (α : ℕ → ℝ) (KP KR : ℝ),
      (∀ m < N, inst.AbsorptionCoefficient opac (r.rhoNode i) (r.TNode j) (r.YeNode k) s (binCentre a b N m) = ok (α m)) ∧
      MeanNeutrinoAPI.PlanckMeanAbsorptionCoefficient m rho temp Ye s = ok (rho * (KP + tiny)) ∧
      MeanNeutrinoAPI.RosselandMeanAbsorptionCoefficient m rho temp Ye s = ok (rho * (KR + tiny)) ∧
      PlanckBetween N (fun m => α m / r.rhoNode i)
        (weight N (binDNu a b N) fun m => inst.ThermalDistributionOfTNu opac (r.TNode j) s (binCentre a b N m)) KP ∧
      RosselandBetween N α (fun m => α m / r.rhoNode i) (r.rhoNode i) KP
        (openWeight tiny N (binDNu a b N)
          (fun m => inst.DThermalDistributionOfTNuDT opac (r.TNode j) s (binCentre a b N m)) α)
        (openPath tiny (r.rhoNode i) N (binDNu a b N)
          (fun m => inst.DThermalDistributionOfTNuDT opac (r.TNode j) s (binCentre a b N m)) α) KR := by
  obtain ⟨α, KP, KR, h1, h2, h3, h4, h5⟩ := C52_absorption h hr hab hN hw hα hn hs
  have hW := binWidth_pos ha hab hN
  have hc := fun m => binCentre_pos a b N m
  have hd' : ∀ m, 0 < binDNu a b N m := fun m => mul_pos (hc m) hW
  have hρ := (node_pos r i).1
  have hT := (node_pos r j).2
  refine ⟨α, KP, KR, h1, h4, h5, ?_, ?_⟩
  rotate_left
  · rw [h3]
    exact rosseland_between hρ hd' (fun m => (hw _ s _ hT (hc m)).2)
  · rw [h2]
    exact planck_between rfl hN hρ hd' (fun m => (hw _ s _ hT (hc m)).1) (fun m hm => hα _ _ _ _ _ _ hρ hT (hc m) (h1 m hm))

/-- **C52 (scattering between)**, with the samples at the centres of 100 bins -/
theorem C52_scattering_between {O : Type} {inst : NeutrinoSAPI ℝ O} {dist : FermiDirac ℝ} {opac : O} {NNu : ℤ}
    {m : MeanSOpacityBase ℝ} (h : ScatteringMeans inst dist opac r a b NNu m) (hr : r.Proper) (ha : 0 < a) (hab : a < b)
    (hd : 0 < dist.NSPECIES) (hpc : PosPC dist.pc)
    (hα : ∀ rho T Ye s ν, 0 < rho → 0 < T → 0 < ν → 0 ≤ inst.TotalScatteringCoefficient opac rho T Ye s ν)
    {i j k : ℕ} {rho temp Ye : ℝ} (hn : AtNode r i j k rho temp Ye)
    {s : RadiationType} (hs : Tabulated s) :
    ∃ (α : ℕ → ℝ) (KP KR : ℝ),
      (∀ m < 100, inst.TotalScatteringCoefficient opac (r.rhoNode i) (r.TNode j) (r.YeNode k) s
        (binCentre a b 100 m) = α m) ∧
      MeanNeutrinoSAPI.PlanckMeanTotalScatteringCoefficient m rho temp Ye s = ok (rho * (KP + tiny)) ∧
      MeanNeutrinoSAPI.RosselandMeanTotalScatteringCoefficient m rho temp Ye s = ok (rho * (KR + tiny)) ∧
      PlanckBetween 100 (fun m => α m / r.rhoNode i)
        (weight 100 (binDNu a b 100) fun m => dist.ThermalDistributionOfTNu (r.TNode j) (binCentre a b 100 m)) KP ∧
      RosselandBetween 100 α (fun m => α m / r.rhoNode i) (r.rhoNode i) KP
        (openWeight tiny 100 (binDNu a b 100)
          (fun m => dist.DThermalDistributionOfTNuDT (r.TNode j) (binCentre a b 100 m)) α)
        (openPath tiny (r.rhoNode i) 100 (binDNu a b 100)
          (fun m => dist.DThermalDistributionOfTNuDT (r.TNode j) (binCentre a b 100 m)) α) KR := by
  obtain ⟨α, KP, KR, h1, h2, h3, h4, h5⟩ := C52_scattering_partial h hr hab hd hpc hα hn hs
  have hW := binWidth_pos ha hab (N := 100) (by norm_num)
  have hc := fun m => binCentre_pos a b 100 m
  have hd' : ∀ m, 0 < binDNu a b 100 m := fun m => mul_pos (hc m) hW
  have hρ := (node_pos r i).1
  have hT := (node_pos r j).2
  have h1' : ∀ m < 100, inst.TotalScatteringCoefficient opac (r.rhoNode i) (r.TNode j) (r.YeNode k) s
        (binCentre a b 100 m) = α m := fun m hm => Outcome.ok.inj (h1 m hm)
  refine ⟨α, KP, KR, h1', h4, h5, ?_, ?_⟩
  rotate_left
  · rw [h3]
    exact rosseland_between hρ hd' (fun m => fermiDT_pos hd hpc hT (hc m))
  · rw [h2]
    refine planck_between rfl (by norm_num) hρ hd' (fun m => ?_) (fun m hm => h1' m hm ▸ hα _ _ _ _ _ hρ hT (hc m))
    show 0 < dist.ThermalDistributionOfTNu _ _
    rw [fermi_eq]
    exact fermi_pos hpc (by exact_mod_cast hd) (hc m)

/-! ## C52: gray opacities -/

/-- `K` is `κ` up to regularisation by the floor, relative to the total weight `W` -/
def PlanckGray (κ W K : ℝ) : Prop := 0 < W ∧ κ * (W / (W + tiny)) ≤ K ∧ K ≤ κ

/-- `K` is `κ` up to regularisation by the floor, relative to the total weight `W`, or zero for negligible opacities -/
def RosselandGray (κ ρ KP W path K : ℝ) : Prop :=
  if tiny < KP ∧ tiny < path then κ * (W / (W + κ * tiny)) ≤ K ∧ K ≤ κ + tiny / ρ else K = 0

theorem gray_of_between {N : ℕ} {α : ℕ → ℝ} {ρ κ KP KR WP WR path : ℝ} (hκ : 0 < κ) (hρ : 0 < ρ)
    (hα : ∀ m < N, α m = ρ * κ)
    (hP : PlanckBetween N (fun m => α m / ρ) WP KP) (hR : RosselandBetween N α (fun m => α m / ρ) ρ KP WR path KR) :
    PlanckGray κ WP KP ∧ RosselandGray κ ρ KP WR path KR := by
  have e : ∀ m < N, α m / ρ = κ := fun m hm => by rw [hα m hm]; field_simp
  refine ⟨⟨hP.weight, hP.lower κ fun m hm => (e m hm).ge, hP.upper κ fun m hm => (e m hm).le⟩, ?_⟩
  unfold RosselandGray
  split_ifs with h
  · exact ⟨hR.lower h.1 h.2 κ hκ fun m hm _ => (e m hm).ge, hR.upper κ hκ.le fun m hm _ => (e m hm).le⟩
  · exact hR.zero h

/-- **C52 (gray absorption)**: if, for the species `s`, the source absorbs like a gray opacity `κ`, both means are `κ` up
to regularisation -/
theorem C52_gray_absorption {O : Type} {inst : NeutrinoAPI ℝ O} {opac : O} {m : MeanOpacityBase ℝ}
    (h : AbsorptionMeans inst opac r a b N m) (hr : r.Proper) (ha : 0 < a) (hab : a < b) (hN : 0 < N)
    (hw : PositiveWeights (inst.ThermalDistributionOfTNu opac) (inst.DThermalDistributionOfTNuDT opac))
    (hα : NonnegCoefficients inst opac) {i j k : ℕ} {rho temp Ye : ℝ} (hn : AtNode r i j k rho temp Ye)
    {s : RadiationType} (hs : Tabulated s) {κ : ℝ} (hκ : 0 < κ)
    (hg : ∀ ρ T Ye ν, inst.AbsorptionCoefficient opac ρ T Ye s ν = ok (ρ * κ)) :
    ∃ KP KR : ℝ,
      MeanNeutrinoAPI.PlanckMeanAbsorptionCoefficient m rho temp Ye s = ok (rho * (KP + tiny)) ∧
      MeanNeutrinoAPI.RosselandMeanAbsorptionCoefficient m rho temp Ye s = ok (rho * (KR + tiny)) ∧
      PlanckGray κ
        (weight N (binDNu a b N) fun m => inst.ThermalDistributionOfTNu opac (r.TNode j) s (binCentre a b N m)) KP ∧
      RosselandGray κ (r.rhoNode i) KP
        (openWeight tiny N (binDNu a b N)
          (fun m => inst.DThermalDistributionOfTNuDT opac (r.TNode j) s (binCentre a b N m)) (fun _ => r.rhoNode i * κ))
        (openPath tiny (r.rhoNode i) N (binDNu a b N)
          (fun m => inst.DThermalDistributionOfTNuDT opac (r.TNode j) s (binCentre a b N m)) (fun _ => r.rhoNode i * κ))
        KR := by
  obtain ⟨α, KP, KR, h1, h2, h3, h4, h5⟩ := C52_absorption_between h hr ha hab hN hw hα hn hs
  have e : ∀ m < N, α m = r.rhoNode i * κ := by
    intro m hm
    have := h1 m hm
    rw [hg] at this
    exact (Outcome.ok.inj this).symm
  have e1 : ∀ D, openWeight tiny N (binDNu a b N) D α = openWeight tiny N (binDNu a b N) D (fun _ => r.rhoNode i * κ) :=
    fun D => sum_congr rfl fun i hi => by rw [e i (mem_range.1 hi)]
  have e2 : ∀ D, openPath tiny (r.rhoNode i) N (binDNu a b N) D α =
      openPath tiny (r.rhoNode i) N (binDNu a b N) D (fun _ => r.rhoNode i * κ) :=
    fun D => sum_congr rfl fun i hi => by rw [e i (mem_range.1 hi)]
  rw [e1, e2] at h5
  exact ⟨KP, KR, h2, h3, gray_of_between hκ (node_pos r i).1 e h4 h5⟩

/-- **C52 (gray scattering)** -/
theorem C52_gray_scattering {O : Type} {inst : NeutrinoSAPI ℝ O} {dist : FermiDirac ℝ} {opac : O} {NNu : ℤ}
    {m : MeanSOpacityBase ℝ} (h : ScatteringMeans inst dist opac r a b NNu m) (hr : r.Proper) (ha : 0 < a) (hab : a < b)
    (hd : 0 < dist.NSPECIES) (hpc : PosPC dist.pc)
    (hα : ∀ rho T Ye s ν, 0 < rho → 0 < T → 0 < ν → 0 ≤ inst.TotalScatteringCoefficient opac rho T Ye s ν)
    {i j k : ℕ} {rho temp Ye : ℝ} (hn : AtNode r i j k rho temp Ye)
    {s : RadiationType} (hs : Tabulated s) {κ : ℝ} (hκ : 0 < κ)
    (hg : ∀ ρ T Ye ν, inst.TotalScatteringCoefficient opac ρ T Ye s ν = ρ * κ) :
    ∃ KP KR : ℝ,
      MeanNeutrinoSAPI.PlanckMeanTotalScatteringCoefficient m rho temp Ye s = ok (rho * (KP + tiny)) ∧
      MeanNeutrinoSAPI.RosselandMeanTotalScatteringCoefficient m rho temp Ye s = ok (rho * (KR + tiny)) ∧
      PlanckGray κ
        (weight 100 (binDNu a b 100) fun m => dist.ThermalDistributionOfTNu (r.TNode j) (binCentre a b 100 m)) KP ∧
      RosselandGray κ (r.rhoNode i) KP
        (openWeight tiny 100 (binDNu a b 100)
          (fun m => dist.DThermalDistributionOfTNuDT (r.TNode j) (binCentre a b 100 m)) (fun _ => r.rhoNode i * κ))
        (openPath tiny (r.rhoNode i) 100 (binDNu a b 100)
          (fun m => dist.DThermalDistributionOfTNuDT (r.TNode j) (binCentre a b 100 m)) (fun _ => r.rhoNode i * κ))
        KR := by
  obtain ⟨α, KP, KR, h1, h2, h3, h4, h5⟩ := C52_scattering_between h hr ha hab hd hpc hα hn hs
  have e : ∀ m < 100, α m = r.rhoNode i * κ := by
    intro m hm
    rw [← h1 m hm, hg]
  have e1 : ∀ D, openWeight tiny 100 (binDNu a b 100) D α = openWeight tiny 100 (binDNu a b 100) D (fun _ => r.rhoNode i * κ) :=
    fun D => sum_congr rfl fun i hi => by rw [e i (mem_range.1 hi)]
  have e2 : ∀ D, openPath tiny (r.rhoNode i) 100 (binDNu a b 100) D α =
      openPath tiny (r.rhoNode i) 100 (binDNu a b 100) D (fun _ => r.rhoNode i * κ) :=
    fun D => sum_congr rfl fun i hi => by rw [e i (mem_range.1 hi)]
  rw [e1, e2] at h5
  exact ⟨KP, KR, h2, h3, gray_of_between hκ (node_pos r i).1 e h4 h5⟩

/-! ## The constructors return -/

theorem fillCell_returns {l1 l2 : ℝ} {NNu : ℤ} (hc : ∀ ρ T Ye s ν, ∃ v, o.coef ρ T Ye s ν = ok v) {i j k d : ℕ}
    (hi : (i : ℤ) < r.NRho) (hj : (j : ℤ) < r.NT) (hk : (k : ℤ) < r.NYe) (hd : d < 3) (ht : Same (empty junk r) t) :
    ∃ t', fillCell o l1 l2 NNu i j k d t = ok t' ∧ Same (empty junk r) t' := by
  choose f hf using hc
  obtain ⟨s, hs⟩ : ∃ s, Idx2RadType d = ok s := by
    have : d = 0 ∨ d = 1 ∨ d = 2 := by omega
    rcases this with rfl | rfl | rfl
    · exact ⟨_, rfl⟩
    · exact ⟨_, rfl⟩
    · exact ⟨_, rfl⟩
  have hsum : ∀ ρ T Ye, ∃ k, cellSums o ρ T Ye s l1 l2 NNu = ok k := by
    intro ρ T Ye
    unfold cellSums
    simp only [hf, map'_ok]
    obtain ⟨k, hk, -⟩ := loop_ok (I := fun _ => True) NNu (fun inu s' => ok (addSample ρ (f ρ T Ye s (sampleNu l1 l2 NNu inu))
      (o.B T s (sampleNu l1 l2 NNu inu)) (o.dBdT T s (sampleNu l1 l2 NNu inu)) (sampleNu l1 l2 NNu inu)
      ((l2 - l1) / lit NNu) s')) (fun i _ s _ => ⟨_, rfl, trivial⟩) (s := Sums.zero) trivial
    exact ⟨k, hk⟩
  choose g hg using hsum
  have hst : ∀ K : ℝ × ℝ, ∃ t', store i j k d K t = ok t' := fun K =>
    store_returns (ht.p1) (ht.r1) hi hj hk hd (by simp [areal]) (by simp [areal])
  choose w hw using hst
  simp only [fillCell, hs, ok_bind, hg, hw]
  exact ⟨_, rfl, (store_effect ht (hw _)).1⟩

theorem fillCellS_returns {l1 l2 : ℝ} {NNu : ℤ} (hc : ∀ ρ T Ye s ν, ∃ v, o.coef ρ T Ye s ν = ok v) {i j k d : ℕ}
    (hi : (i : ℤ) < r.NRho) (hj : (j : ℤ) < r.NT) (hk : (k : ℤ) < r.NYe) (hd : d < 3) (ht : Same (empty junk r) t) :
    ∃ t', fillCellS o l1 l2 NNu i j k d t = ok t' ∧ Same (empty junk r) t' := by
  choose f hf using hc
  obtain ⟨s, hs⟩ : ∃ s, Idx2RadType d = ok s := by
    have : d = 0 ∨ d = 1 ∨ d = 2 := by omega
    rcases this with rfl | rfl | rfl
    · exact ⟨_, rfl⟩
    · exact ⟨_, rfl⟩
    · exact ⟨_, rfl⟩
  simp only [fillCellS, hs, ok_bind, hf]
  obtain ⟨st, h1, h2⟩ := loop_ok (I := fun st : Sums ℝ × MeanTables ℝ => Same (empty junk r) st.2) NNu (fun inu st => do
    let t1 ← store i j k d (means (addSample (fromLog_ ((t.lPlanck.range 3).x i)) (f (fromLog_ ((t.lPlanck.range 3).x i))
      (fromLog_ ((t.lPlanck.range 2).x j)) ((t.lPlanck.range 1).x k) s (sampleNu l1 l2 NNu inu))
      (o.B (fromLog_ ((t.lPlanck.range 2).x j)) s (sampleNu l1 l2 NNu inu))
      (o.dBdT (fromLog_ ((t.lPlanck.range 2).x j)) s (sampleNu l1 l2 NNu inu)) (sampleNu l1 l2 NNu inu)
      ((l2 - l1) / lit NNu) st.1)) st.2
    return (addSample (fromLog_ ((t.lPlanck.range 3).x i)) (f (fromLog_ ((t.lPlanck.range 3).x i))
      (fromLog_ ((t.lPlanck.range 2).x j)) ((t.lPlanck.range 1).x k) s (sampleNu l1 l2 NNu inu))
      (o.B (fromLog_ ((t.lPlanck.range 2).x j)) s (sampleNu l1 l2 NNu inu))
      (o.dBdT (fromLog_ ((t.lPlanck.range 2).x j)) s (sampleNu l1 l2 NNu inu)) (sampleNu l1 l2 NNu inu)
      ((l2 - l1) / lit NNu) st.1, t1)) (by
    intro inu _ st hst
    have hw : ∀ K : ℝ × ℝ, ∃ t', store i j k d K st.2 = ok t' := fun K =>
      store_returns (hst.p1) (hst.r1) hi hj hk hd (by simp [areal]) (by simp [areal])
    choose w hw using hw
    simp only [hw, ok_bind]
    exact ⟨_, rfl, (store_effect hst (hw _)).1⟩) (s := (Sums.zero, t)) ht
  refine ⟨st.2, ?_, h2⟩
  simp only [h1, ok_bind]
  rfl

/-- densities from 1 to 10, temperatures from 1 to 10 -/
def twoNodes : MeanRanges := ⟨0, 1, 2, 0, 1, 2, 0, 1, 2⟩

theorem twoNodes_proper : twoNodes.Proper := by
  constructor <;> simp [twoNodes]

theorem twoNodes_eq : twoNodes.rhoNode 1 = 10 ∧ twoNodes.TNode 1 = 10 ∧ twoNodes.YeNode 1 = 1 := by
  simp only [MeanRanges.rhoNode, MeanRanges.TNode, MeanRanges.YeNode, equi, twoNodes]
  norm_num

theorem twoNodes_at : AtNode twoNodes 1 1 1 (10 - tiny) (10 - tiny) 1 := by
  have := SpinerOpacity.tiny_le_one
  obtain ⟨h1, h2, h3⟩ := twoNodes_eq
  exact ⟨by linarith, by linarith, by simp [twoNodes], by simp [twoNodes], by simp [twoNodes], by rw [h1]; ring,
    by rw [h2]; ring, h3.symm⟩

theorem absorption_returns {O : Type} {inst : NeutrinoAPI ℝ O} {opac : O} {pc : PC ℝ} {junk : ℕ → ℕ → ℝ} {l1 l2 : ℝ} {NNu : ℤ}
    (hc : ∀ ρ T Ye s ν, ∃ v, inst.AbsorptionCoefficient opac ρ T Ye s ν = ok v) :
    ∃ m, MeanOpacityBase.construct false pc junk opac r.lRhoMin r.lRhoMax r.NRho r.lTMin r.lTMax r.NT r.YeMin r.YeMax r.NYe
      l1 l2 NNu = ok m := by
  obtain ⟨t, ht⟩ := loops_returns (NRho := r.NRho) (NT := r.NT) (NYe := r.NYe) (t₀ := empty junk r)
    (cell := fillCell ⟨inst.AbsorptionCoefficient opac, inst.ThermalDistributionOfTNu opac,
      inst.DThermalDistributionOfTNuDT opac⟩ l1 l2 NNu)
    (fun i j k d hi hj hk hd t ht => fillCell_returns hc hi hj hk hd ht)
  refine ⟨⟨pc, t⟩, ?_⟩
  unfold MeanOpacityBase.construct MeanOpacityBase.Impl_
  simp only [Bool.false_and, Bool.false_eq_true, if_false]
  unfold empty at ht
  rw [ht]
  rfl

theorem scattering_returns {O : Type} {inst : NeutrinoSAPI ℝ O} {dist : FermiDirac ℝ} {opac : O} {pc : PC ℝ}
    {junk : ℕ → ℕ → ℝ} {l1 l2 : ℝ} {NNu : ℤ} :
    ∃ m, MeanSOpacityBase.construct dist pc junk opac r.lRhoMin r.lRhoMax r.NRho r.lTMin r.lTMax r.NT r.YeMin r.YeMax r.NYe
      l1 l2 NNu = ok m := by
  obtain ⟨t, ht⟩ := loops_returns (NRho := r.NRho) (NT := r.NT) (NYe := r.NYe) (t₀ := empty junk r)
    (cell := fillCellS ⟨fun rho T Ye s ν => ok (inst.TotalScatteringCoefficient opac rho T Ye s ν),
      fun T _ ν => dist.ThermalDistributionOfTNu T ν, fun T _ ν => dist.DThermalDistributionOfTNuDT T ν⟩ l1 l2 100)
    (fun i j k d hi hj hk hd t ht => fillCellS_returns (fun _ _ _ _ _ => ⟨_, rfl⟩) hi hj hk hd ht)
  refine ⟨⟨dist, pc, t⟩, ?_⟩
  unfold MeanSOpacityBase.construct MeanSOpacityBase.Impl_
  simp only [Bool.false_eq_true, if_false]
  unfold empty at ht
  rw [ht]
  rfl

/-- gray absorption by all species: the hypotheses of the theorems above are met, by the library's own gray opacity -/
example (d : FermiDirac ℝ) (pc : PC ℝ) (hd : 0 < d.NSPECIES) (hpc : PosPC d.pc) :
    ∃ m KP KR, AbsorptionMeans (inferInstance : NeutrinoAPI ℝ (GrayOpacity ℝ)) ⟨d, pc, 2⟩ twoNodes ((10 : ℝ) ^ (0 : ℝ))
        ((10 : ℝ) ^ (1 : ℝ)) 7 m ∧
      MeanNeutrinoAPI.PlanckMeanAbsorptionCoefficient m (10 - tiny) (10 - tiny) 1 .NU_HEAVY =
        ok ((10 - tiny) * (KP + tiny)) ∧
      MeanNeutrinoAPI.RosselandMeanAbsorptionCoefficient m (10 - tiny) (10 - tiny) 1 .NU_HEAVY =
        ok ((10 - tiny) * (KR + tiny)) ∧ KP ≤ 2 := by
  obtain ⟨m, hm⟩ := absorption_returns (inst := inferInstance) (opac := (⟨d, pc, 2⟩ : GrayOpacity ℝ)) (pc := pc)
    (junk := fun _ _ => 0) (r := twoNodes) (l1 := 0) (l2 := 1) (NNu := ((7 : ℕ) : ℤ)) (fun _ _ _ _ _ => ⟨_, rfl⟩)
  have hA := AbsorptionMeans.window hm
  obtain ⟨KP, KR, h1, h2, h3, -⟩ := C52_gray_absorption hA twoNodes_proper (by positivity) (by norm_num) (by norm_num)
    (fun T s ν hT hν => ⟨by
      show 0 < d.ThermalDistributionOfTNu T ν
      rw [fermi_eq]
      exact fermi_pos hpc (by exact_mod_cast hd) hν, fermiDT_pos hd hpc hT hν⟩)
    (fun ρ T Ye s ν v h1 _ _ hv => by
      have e : ρ * 2 = v := Outcome.ok.inj hv
      linarith) twoNodes_at (s := .NU_HEAVY) (.inr (.inr rfl)) (κ := 2) (by norm_num)
    (fun _ _ _ _ => rfl)
  exact ⟨m, KP, KR, hA, h1, h2, h3.2.2⟩

/-! ## C52 is false for scattering -/

/-- a source that scatters at one frequency only -/
structure Line where
  nu0 : ℝ

open Classical in
noncomputable instance : NeutrinoSAPI ℝ Line where
  GetOnDevice o := o
  nlambda _ := 0
  TotalCrossSection o _ _ _ _ nu := if nu = o.nu0 then 1 else 0
  DifferentialCrossSection o _ _ _ _ nu _ := if nu = o.nu0 then 1 / (4 * Real.pi) else 0
  TotalScatteringCoefficient o rho _ _ _ nu := if nu = o.nu0 then rho else 0

theorem centre_one : binCentre ((10 : ℝ) ^ (0 : ℝ)) ((10 : ℝ) ^ (1 : ℝ)) 1 0 = (10 : ℝ) ^ (1 / 2 : ℝ) := by
  simp only [binCentre, binWidth, logb_ten]
  norm_num

theorem centre_hundred (m : ℕ) :
    binCentre ((10 : ℝ) ^ (0 : ℝ)) ((10 : ℝ) ^ (1 : ℝ)) 100 m ≠ (10 : ℝ) ^ (1 / 2 : ℝ) := by
  simp only [binCentre, binWidth, logb_ten]
  intro h
  have h' := congrArg (Real.logb 10) h
  rw [logb_ten, logb_ten] at h'
  have : (2 * m + 1 : ℝ) = 100 := by push_cast at h'; linarith
  have h2 : 2 * m + 1 = 100 := by exact_mod_cast this
  omega

/-- **C52 is false for scattering**: asked for one frequency, the constructor averages over 100: the mean scattering
coefficient it tabulates is not the one-point mean, although the ranges are proper and the weights positive. -/
theorem C52_false (dist : FermiDirac ℝ) (pc : PC ℝ) (hd : 0 < dist.NSPECIES) (hpc : PosPC dist.pc) :
    ∃ (opac : Line) (r : MeanRanges) (a b : ℝ) (m : MeanSOpacityBase ℝ) (rho temp Ye : ℝ) (v : ℝ),
      ScatteringMeans inferInstance dist opac r a b 1 m ∧ r.Proper ∧ 0 < a ∧ a < b ∧ AtNode r 1 1 1 rho temp Ye ∧
      MeanNeutrinoSAPI.PlanckMeanTotalScatteringCoefficient m rho temp Ye .NU_ELECTRON = ok v ∧
      v < rho * (planckMean tiny (r.rhoNode 1) 1 (binDNu a b 1)
        (fun m => dist.ThermalDistributionOfTNu (r.TNode 1) (binCentre a b 1 m))
        (fun m => NeutrinoSAPI.TotalScatteringCoefficient opac (r.rhoNode 1) (r.TNode 1) (r.YeNode 1) .NU_ELECTRON
          (binCentre a b 1 m)) + tiny) := by
  obtain ⟨m, hm⟩ := scattering_returns (inst := inferInstance) (dist := dist) (opac := (⟨(10 : ℝ) ^ (1 / 2 : ℝ)⟩ : Line))
    (pc := pc) (junk := fun _ _ => 0) (r := twoNodes) (l1 := 0) (l2 := 1) (NNu := 1)
  have hA := ScatteringMeans.window hm
  have ht := tiny_pos
  have h1 := SpinerOpacity.tiny_le_one
  have hlt : (10 : ℝ) ^ (0 : ℝ) < (10 : ℝ) ^ (1 : ℝ) := by norm_num
  have hpos : (0 : ℝ) < (10 : ℝ) ^ (0 : ℝ) := by norm_num
  obtain ⟨α, KP, KR, e1, e2, -, e4, -⟩ := C52_scattering_partial hA twoNodes_proper hlt hd hpc
    (fun rho T Ye s ν h1 _ _ => by
      show 0 ≤ if ν = _ then rho else 0
      split_ifs
      · exact h1.le
      · exact le_refl _) twoNodes_at (s := .NU_ELECTRON) (.inl rfl)
  refine ⟨_, twoNodes, _, _, m, _, _, _, _, hA, twoNodes_proper, hpos, hlt, twoNodes_at, e4, ?_⟩
  have hα : ∀ m < 100, α m = 0 := by
    intro m hm
    have := Outcome.ok.inj (e1 m hm)
    rw [← this]
    exact if_neg (centre_hundred m)
  have hK : KP = 0 := by
    rw [e2]
    unfold planckMean
    rw [sum_eq_zero, zero_div]
    intro m hm
    rw [hα m (mem_range.1 hm)]
    ring
  have hρ : 0 < twoNodes.rhoNode 1 := (node_pos _ _).1
  rw [hK]
  refine mul_lt_mul_of_pos_left ?_ (by linarith)
  rw [add_lt_add_iff_right]
  unfold planckMean
  rw [sum_range_one, sum_range_one]
  have hW : 0 < binDNu ((10 : ℝ) ^ (0 : ℝ)) ((10 : ℝ) ^ (1 : ℝ)) 1 0 :=
    mul_pos (binCentre_pos _ _ _ _) (binWidth_pos hpos hlt one_pos)
  have hB : 0 < dist.ThermalDistributionOfTNu (twoNodes.TNode 1) (binCentre ((10 : ℝ) ^ (0 : ℝ)) ((10 : ℝ) ^ (1 : ℝ)) 1 0) := by
    rw [fermi_eq]
    exact fermi_pos hpc (by exact_mod_cast hd) (binCentre_pos _ _ _ _)
  have hS : NeutrinoSAPI.TotalScatteringCoefficient (⟨(10 : ℝ) ^ (1 / 2 : ℝ)⟩ : Line) (twoNodes.rhoNode 1) (twoNodes.TNode 1)
      (twoNodes.YeNode 1) .NU_ELECTRON (binCentre ((10 : ℝ) ^ (0 : ℝ)) ((10 : ℝ) ^ (1 : ℝ)) 1 0) = twoNodes.rhoNode 1 :=
    if_pos centre_one
  beta_reduce
  rw [hS]
  positivity

end Opac.Neutrinos.MeanTables
