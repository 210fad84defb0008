import Verif.Props.TableLimits

/-!
# C61 for neutrinos: how mean opacities respond to the opacity they are computed from

Absorption and scattering, over the reals.
-/

namespace Opac.Tables
open Arith Outcome Spiner Photons Finset
open Neutrinos MeanTables
open SpinerOpacity (tiny tiny_pos equi Tabulated)
open Opac.Spec

/-- `P`, `Q` are the Planck and Rosseland means the library computes on the ranges `r` from a source with coefficients `α` and
thermal weights `B`, `D`, at `N` frequencies in the window `[a, b]` -/
inductive NeutrinoMeans (α : ℝ → ℝ → ℝ → RadiationType → ℝ → ℝ) (B D : ℝ → RadiationType → ℝ → ℝ) (r : MeanRanges) (a b : ℝ) :
    (N : ℕ) → (P Q : State → RadiationType → Outcome ℝ) → Prop
  | absorption {O : Type} {inst : NeutrinoAPI ℝ O} {opac : O} {N : ℕ} {m : Neutrinos.MeanOpacityBase ℝ}
      (h : AbsorptionMeans inst opac r a b N m)
      (hα : ∀ rho T Ye s ν, 0 < rho → 0 < T → 0 < ν → inst.AbsorptionCoefficient opac rho T Ye s ν = ok (α rho T Ye s ν))
      (hB : inst.ThermalDistributionOfTNu opac = B) (hD : inst.DThermalDistributionOfTNuDT opac = D)
      (hw : PositiveWeights B D) :
      NeutrinoMeans α B D r a b N (fun p s => MeanNeutrinoAPI.PlanckMeanAbsorptionCoefficient m p.rho p.T p.Ye s)
        (fun p s => MeanNeutrinoAPI.RosselandMeanAbsorptionCoefficient m p.rho p.T p.Ye s)
  | scattering {O : Type} {inst : NeutrinoSAPI ℝ O} {dist : FermiDirac ℝ} {opac : O} {NNu : ℤ}
      {m : Neutrinos.MeanSOpacityBase ℝ} (h : ScatteringMeans inst dist opac r a b NNu m)
      (hα : ∀ rho T Ye s ν, 0 < rho → 0 < T → 0 < ν → inst.TotalScatteringCoefficient opac rho T Ye s ν = α rho T Ye s ν)
      (hB : (fun T _ ν => dist.ThermalDistributionOfTNu T ν) = B) (hD : (fun T _ ν => dist.DThermalDistributionOfTNuDT T ν) = D)
      (hd : 0 < dist.NSPECIES) (hpc : PosPC dist.pc) :
      NeutrinoMeans α B D r a b 100 (fun p s => MeanNeutrinoSAPI.PlanckMeanTotalScatteringCoefficient m p.rho p.T p.Ye s)
        (fun p s => MeanNeutrinoSAPI.RosselandMeanTotalScatteringCoefficient m p.rho p.T p.Ye s)

/-- density, temperature and electron fraction inside the table -/
def InRanges (r : MeanRanges) (p : State) : Prop :=
  (r.lRhoMin ≤ meanCoord p.rho ∧ meanCoord p.rho ≤ r.lRhoMax) ∧ (r.lTMin ≤ meanCoord p.T ∧ meanCoord p.T ≤ r.lTMax) ∧
    r.YeMin ≤ p.Ye ∧ p.Ye ≤ r.YeMax

theorem InRanges.inside {r : MeanRanges} {p : State} (h : InRanges r p) : InsideGrids (rangeAxes r) (rangeCoords p) :=
  .cons h.1 (.cons h.2.1 (.cons h.2.2 .nil))

/-- the coefficients at the samples of a node -/
noncomputable def samples (α : ℝ → ℝ → ℝ → RadiationType → ℝ → ℝ) (r : MeanRanges) (a b : ℝ) (N : ℕ) (s : RadiationType)
    (i j k m : ℕ) : ℝ :=
  α (r.rhoNode i) (r.TNode j) (r.YeNode k) s (binCentre a b N m)

/-- Planck mean of the samples of a node -/
noncomputable def nodePlanck (α : ℝ → ℝ → ℝ → RadiationType → ℝ → ℝ) (B : ℝ → RadiationType → ℝ → ℝ) (r : MeanRanges) (a b : ℝ)
    (N : ℕ) (s : RadiationType) (i j k : ℕ) : ℝ :=
  planckMean tiny (r.rhoNode i) N (binDNu a b N) (fun m => B (r.TNode j) s (binCentre a b N m)) (samples α r a b N s i j k)

/-- mean free path of the samples of a node, summed with the Rosseland weights -/
noncomputable def nodePath (α : ℝ → ℝ → ℝ → RadiationType → ℝ → ℝ) (D : ℝ → RadiationType → ℝ → ℝ) (r : MeanRanges) (a b : ℝ)
    (N : ℕ) (s : RadiationType) (i j k : ℕ) : ℝ :=
  openPath tiny (r.rhoNode i) N (binDNu a b N) (fun m => D (r.TNode j) s (binCentre a b N m)) (samples α r a b N s i j k)

/-- Rosseland mean of the samples of a node -/
noncomputable def nodeRosseland (α : ℝ → ℝ → ℝ → RadiationType → ℝ → ℝ) (B D : ℝ → RadiationType → ℝ → ℝ) (r : MeanRanges)
    (a b : ℝ) (N : ℕ) (s : RadiationType) (i j k : ℕ) : ℝ :=
  openRosselandMean tiny (r.rhoNode i) N (binDNu a b N) (fun m => D (r.TNode j) s (binCentre a b N m)) (samples α r a b N s i j k)
    (nodePlanck α B r a b N s i j k)

section
variable {α α' : ℝ → ℝ → ℝ → RadiationType → ℝ → ℝ} {B D : ℝ → RadiationType → ℝ → ℝ} {r : MeanRanges} {a b : ℝ} {N : ℕ}
  {P Q P' Q' : State → RadiationType → Outcome ℝ} {s : RadiationType}

theorem sums_congr {ρ P : ℝ} {dν B α α' : ℕ → ℝ} (h : ∀ m < N, α m = α' m) :
    planckMean tiny ρ N dν B α = planckMean tiny ρ N dν B α' ∧
    openRosselandMean tiny ρ N dν B α P = openRosselandMean tiny ρ N dν B α' P := by
  have w1 : openPath tiny ρ N dν B α = openPath tiny ρ N dν B α' := by
    unfold openPath
    exact sum_congr rfl fun m hm => by rw [h m (mem_range.1 hm)]
  have w2 : openWeight tiny N dν B α = openWeight tiny N dν B α' := by
    unfold openWeight
    exact sum_congr rfl fun m hm => by rw [h m (mem_range.1 hm)]
  refine ⟨?_, ?_⟩
  · unfold planckMean
    congr 1
    exact sum_congr rfl fun m hm => by rw [h m (mem_range.1 hm)]
  · unfold openRosselandMean
    rw [w1, w2]

/-- the answers at the nodes, and that they come from tables -/
theorem NeutrinoMeans.spec (h : NeutrinoMeans α B D r a b N P Q) (hr : r.Proper) (ha : 0 < a) (hab : a < b) (hN : 0 < N)
    (hα : ∀ rho T Ye s ν, 0 < rho → 0 < T → 0 < ν → 0 ≤ α rho T Ye s ν) (hs : Tabulated s) :
    PositiveWeights B D ∧
    (∃ q q' : Query, (FromTable q ∧ q.axes = rangeAxes r ∧ (∀ p, q.at p = rangeCoords p) ∧ q.factor = State.rho ∧
        q.answer = fun p => P p s) ∧
      (FromTable q' ∧ q'.axes = rangeAxes r ∧ (∀ p, q'.at p = rangeCoords p) ∧ q'.factor = State.rho ∧
        q'.answer = fun p => Q p s)) ∧
    ∀ (i j k : ℕ) (p : State), AtNode r i j k p.rho p.T p.Ye →
      P p s = ok (p.rho * (nodePlanck α B r a b N s i j k + tiny)) ∧
      Q p s = ok (p.rho * (nodeRosseland α B D r a b N s i j k + tiny)) := by
  obtain ⟨d, hd'⟩ := species_index hs
  cases h with
  | absorption h hc hB hD hw =>
    rename_i O inst opac m
    subst hB hD
    obtain ⟨⟨g1, g2⟩, g3, g4⟩ := means_grids h hr
    refine ⟨hw, ⟨_, _, ⟨.planck m g1 hd', g2, fun _ => rfl, rfl, rfl⟩, ⟨.rosseland m g3 hd', g4, fun _ => rfl, rfl, rfl⟩⟩, ?_⟩
    intro i j k p hn
    obtain ⟨α', KP, KR, e1, e2, e3, e4, e5⟩ := C52_absorption h hr hab hN hw (by
      intro rho T Ye s ν v p1 p2 p3 hv
      rw [hc _ _ _ _ _ p1 p2 p3] at hv
      cases hv
      exact hα _ _ _ _ _ p1 p2 p3) hn hs
    have hsame : ∀ m < N, α' m = samples α r a b N s i j k m := by
      intro m hm
      have := e1 m hm
      rw [hc _ _ _ _ _ (node_pos r i).1 (node_pos r j).2 (binCentre_pos _ _ _ _)] at this
      exact (Outcome.ok.inj this).symm
    rw [(sums_congr (P := 0) hsame).1] at e2
    rw [(sums_congr hsame).2] at e3
    subst e2 e3
    exact ⟨e4, e5⟩
  | scattering h hc hB hD hd hpc =>
    rename_i O inst dist opac NNu m
    subst hB hD
    obtain ⟨g1, g3⟩ := scattering_means_proper h hr
    have hw : PositiveWeights (fun T (_ : RadiationType) ν => dist.ThermalDistributionOfTNu T ν)
        (fun T _ ν => dist.DThermalDistributionOfTNuDT T ν) := by
      intro T s ν hT hν
      refine ⟨?_, fermiDT_pos hd hpc hT hν⟩
      show 0 < dist.ThermalDistributionOfTNu T ν
      rw [fermi_eq]
      exact fermi_pos hpc (by exact_mod_cast hd) hν
    have gr : [m.t.lPlanck.grid 3, m.t.lPlanck.grid 2, m.t.lPlanck.grid 1] = rangeAxes r ∧
        [m.t.lRosseland.grid 3, m.t.lRosseland.grid 2, m.t.lRosseland.grid 1] = rangeAxes r := by
      cases h with
      | window h =>
        rename_i pc junk lNuMin lNuMax
        unfold Neutrinos.MeanSOpacityBase.construct Neutrinos.MeanSOpacityBase.Impl_ at h
        simp only [bind_eq_ok] at h
        obtain ⟨t, h, h'⟩ := h
        cases h'
        obtain ⟨hS, -⟩ := loops_fills (t₀ := empty junk r)
          (fun i j k d t t' ht h => fillCellS_fills (by norm_num) i j k d t t' ht h) h
        exact ⟨by rw [hS.p2]; rfl, by rw [hS.r2]; rfl⟩
      | auto hk hh h =>
        rename_i junk pc
        unfold Neutrinos.MeanSOpacityBase.constructAuto Neutrinos.MeanSOpacityBase.Impl_ at h
        simp only [bind_eq_ok, if_true] at h
        obtain ⟨t, h, h'⟩ := h
        cases h'
        obtain ⟨hS, -⟩ := loops_fills (t₀ := empty junk r)
          (fun i j k d t t' ht h => fillCellS_fills (by norm_num) i j k d t t' ht h) h
        exact ⟨by rw [hS.p2]; rfl, by rw [hS.r2]; rfl⟩
    refine ⟨hw, ⟨_, _, ⟨.planckScattering m g1 hd', gr.1, fun _ => rfl, rfl, rfl⟩,
      ⟨.rosselandScattering m g3 hd', gr.2, fun _ => rfl, rfl, rfl⟩⟩, ?_⟩
    intro i j k p hn
    obtain ⟨α', KP, KR, e1, e2, e3, e4, e5⟩ := C52_scattering_partial h hr hab hd hpc (by
      intro rho T Ye s ν p1 p2 p3
      rw [hc _ _ _ _ _ p1 p2 p3]
      exact hα _ _ _ _ _ p1 p2 p3) hn hs
    have hsame : ∀ m < 100, α' m = samples α r a b 100 s i j k m := by
      intro m hm
      have := e1 m hm
      rw [hc _ _ _ _ _ (node_pos r i).1 (node_pos r j).2 (binCentre_pos _ _ _ _)] at this
      exact (Outcome.ok.inj this).symm
    rw [(sums_congr (P := 0) hsame).1] at e2
    rw [(sums_congr hsame).2] at e3
    subst e2 e3
    exact ⟨e4, e5⟩

/-- lookups in a table with larger entries are larger -/
theorem lookup_mono {q q' : Query} (h : FromTable q) (h' : FromTable q') (hax : q'.axes = q.axes) (hat : ∀ p, q'.at p = q.at p)
    (hf : q'.factor = q.factor) (he : ∀ is v v', Indexes q.axes is → q.Entry is v → q'.Entry is v' → v ≤ v') {p : State}
    (hin : InsideGrids q.axes (q.at p)) :
    ∃ κ κ', q.answer p = ok (q.factor p * κ) ∧ q'.answer p = ok (q.factor p * κ') ∧ 0 < κ ∧ κ ≤ κ' := by
  obtain ⟨v, hv, hc⟩ := h.good.closed
  obtain ⟨v', hv', hc'⟩ := h'.good.closed
  refine ⟨_, _, hc p, hf ▸ hc' p, by positivity, ?_⟩
  rw [hax, hat]
  refine Real.rpow_le_rpow_of_exponent_le (by norm_num) (mlin_mono_v h.good.proper hin fun is his => ?_)
  have := he is _ _ his ⟨_, hv is his, rfl⟩ ⟨_, hv' is (hax ▸ his), rfl⟩
  exact (Real.rpow_le_rpow_left_iff (by norm_num)).1 this

/-- an entry is what the answer at its node shows -/
theorem entry_eq {q : Query} (h : FromTable q) (hax : q.axes = rangeAxes r) (hat : ∀ p, q.at p = rangeCoords p)
    (hf : q.factor = State.rho) (hr : r.Proper) (hlo : tiny < (10 : ℝ) ^ r.lRhoMin ∧ tiny < (10 : ℝ) ^ r.lTMin)
    {A : State → Outcome ℝ} (hA : q.answer = A) {i j k : ℕ} (hi : (i : ℤ) < r.NRho) (hj : (j : ℤ) < r.NT) (hk : (k : ℤ) < r.NYe)
    {K v : ℝ} (hK : ∀ p : State, AtNode r i j k p.rho p.T p.Ye → A p = ok (p.rho * K))
    (hv : q.Entry (([i, j, k] : List ℕ).map fun i => (i : ℤ)) v) : v = K := by
  obtain ⟨p, p0, pn, pc⟩ := node_state hr hlo hi hj hk
  obtain ⟨l, e1, e2⟩ := entry_of_answer h (p := p) (is := [i, j, k])
    (by rw [hax]; exact ⟨⟨Int.natCast_nonneg _, hi⟩, ⟨Int.natCast_nonneg _, hj⟩, ⟨Int.natCast_nonneg _, hk⟩, trivial⟩)
    (by rw [hat, hax, pc]) (by rw [hf]; exact p0.ne') (K := K) (by rw [hA, hf]; exact hK p pn)
  obtain ⟨l', e1', e2'⟩ := hv
  rw [e1] at e1'
  cases e1'
  rw [e2', e2]

/-- **C61 (neutrinos, Planck)**: if one opacity is at least the other everywhere, its Planck means on the same ranges and window
are at least those of the other at every density, temperature and electron fraction inside the table -/
theorem C61_neutrino_planck_monotone (h : NeutrinoMeans α B D r a b N P Q) (h' : NeutrinoMeans α' B D r a b N P' Q')
    (hr : r.Proper) (ha : 0 < a) (hab : a < b) (hN : 0 < N) (hlo : tiny < (10 : ℝ) ^ r.lRhoMin ∧ tiny < (10 : ℝ) ^ r.lTMin)
    (hα : ∀ rho T Ye s ν, 0 < rho → 0 < T → 0 < ν → 0 ≤ α rho T Ye s ν)
    (hle : ∀ rho T Ye s ν, 0 < rho → 0 < T → 0 < ν → α rho T Ye s ν ≤ α' rho T Ye s ν) (hs : Tabulated s) {p : State}
    (hp : InRanges r p) :
    ∃ κ κ', P p s = ok (p.rho * κ) ∧ P' p s = ok (p.rho * κ') ∧ 0 < κ ∧ κ ≤ κ' := by
  have hα' : ∀ rho T Ye s ν, 0 < rho → 0 < T → 0 < ν → 0 ≤ α' rho T Ye s ν := fun rho T Ye s ν h1 h2 h3 =>
    (hα rho T Ye s ν h1 h2 h3).trans (hle rho T Ye s ν h1 h2 h3)
  obtain ⟨hw, ⟨q, -, ⟨f1, f2, f3, f4, f5⟩, -⟩, v⟩ := h.spec hr ha hab hN hα hs
  obtain ⟨-, ⟨q', -, ⟨f1', f2', f3', f4', f5'⟩, -⟩, v'⟩ := h'.spec hr ha hab hN hα' hs
  have := lookup_mono f1 f1' (by rw [f2, f2']) (fun p => by rw [f3, f3']) (by rw [f4, f4']) (p := p) (fun is x x' his hx hx' => by
    rw [f2] at his
    obtain ⟨i, j, k, hi, hj, hk, rfl⟩ := range_indexes his
    rw [entry_eq f1 f2 f3 f4 hr hlo f5 hi hj hk (fun p hn => (v i j k p hn).1) hx,
      entry_eq f1' f2' f3' f4' hr hlo f5' hi hj hk (fun p hn => (v' i j k p hn).1) hx']
    have hW := binWidth_pos ha hab hN
    have hc := fun m => binCentre_pos a b N m
    have hρ := (node_pos r i).1
    have hT := (node_pos r j).2
    have hwt : ∀ m, 0 < B (r.TNode j) s (binCentre a b N m) * binDNu a b N m := fun m =>
      mul_pos (hw _ s _ hT (hc m)).1 (mul_pos (hc m) hW)
    have hS := tiny_pos
    gcongr ?_ + _
    unfold nodePlanck planckMean
    have hden : 0 ≤ ∑ m ∈ range N, B (r.TNode j) s (binCentre a b N m) * binDNu a b N m := sum_nonneg fun m _ => (hwt m).le
    refine div_le_div_of_nonneg_right (sum_le_sum fun m _ => ?_) (by linarith)
    rw [mul_assoc, mul_assoc]
    refine mul_le_mul_of_nonneg_right (div_le_div_of_nonneg_right ?_ hρ.le) (hwt m).le
    exact hle _ _ _ _ _ hρ hT (hc m)) (by rw [f2, f3]; exact hp.inside)
  rw [f4, f5, f5'] at this
  exact this

/-- **C61 (neutrinos, Rosseland), partial**: the same for Rosseland means, if at every node all samples of the smaller opacity
are above the floor, and so are its Planck mean and the summed mean free path of the larger one.  Missing: samples at or below
the floor, which are left out of the mean, so that making them opaque can lower it. -/
theorem C61_neutrino_rosseland_partial (h : NeutrinoMeans α B D r a b N P Q) (h' : NeutrinoMeans α' B D r a b N P' Q')
    (hr : r.Proper) (ha : 0 < a) (hab : a < b) (hN : 0 < N) (hlo : tiny < (10 : ℝ) ^ r.lRhoMin ∧ tiny < (10 : ℝ) ^ r.lTMin)
    (hα : ∀ rho T Ye s ν, 0 < rho → 0 < T → 0 < ν → 0 ≤ α rho T Ye s ν)
    (hle : ∀ rho T Ye s ν, 0 < rho → 0 < T → 0 < ν → α rho T Ye s ν ≤ α' rho T Ye s ν) (hs : Tabulated s)
    (hop : ∀ i j k, IsNode r i j k → ∀ m < N, tiny < samples α r a b N s i j k m)
    (hpl : ∀ i j k, IsNode r i j k → tiny < nodePlanck α B r a b N s i j k)
    (hpa : ∀ i j k, IsNode r i j k → tiny < nodePath α' D r a b N s i j k) {p : State} (hp : InRanges r p) :
    ∃ κ κ', Q p s = ok (p.rho * κ) ∧ Q' p s = ok (p.rho * κ') ∧ 0 < κ ∧ κ ≤ κ' := by
  have hα' : ∀ rho T Ye s ν, 0 < rho → 0 < T → 0 < ν → 0 ≤ α' rho T Ye s ν := fun rho T Ye s ν h1 h2 h3 =>
    (hα rho T Ye s ν h1 h2 h3).trans (hle rho T Ye s ν h1 h2 h3)
  obtain ⟨hw, ⟨-, q, -, ⟨f1, f2, f3, f4, f5⟩⟩, v⟩ := h.spec hr ha hab hN hα hs
  obtain ⟨-, ⟨-, q', -, ⟨f1', f2', f3', f4', f5'⟩⟩, v'⟩ := h'.spec hr ha hab hN hα' hs
  have := lookup_mono f1 f1' (by rw [f2, f2']) (fun p => by rw [f3, f3']) (by rw [f4, f4']) (p := p) (fun is x x' his hx hx' => by
    rw [f2] at his
    obtain ⟨i, j, k, hi, hj, hk, rfl⟩ := range_indexes his
    rw [entry_eq f1 f2 f3 f4 hr hlo f5 hi hj hk (fun p hn => (v i j k p hn).2) hx,
      entry_eq f1' f2' f3' f4' hr hlo f5' hi hj hk (fun p hn => (v' i j k p hn).2) hx']
    have hn : IsNode r i j k := ⟨hi, hj, hk⟩
    have hW := binWidth_pos ha hab hN
    have hc := fun m => binCentre_pos a b N m
    have hρ := (node_pos r i).1
    have hT := (node_pos r j).2
    have hS := tiny_pos
    have hwB : ∀ m, 0 < B (r.TNode j) s (binCentre a b N m) * binDNu a b N m := fun m =>
      mul_pos (hw _ s _ hT (hc m)).1 (mul_pos (hc m) hW)
    have hwD : ∀ m, 0 < D (r.TNode j) s (binCentre a b N m) * binDNu a b N m := fun m =>
      mul_pos (hw _ s _ hT (hc m)).2 (mul_pos (hc m) hW)
    have hsam : ∀ m, samples α r a b N s i j k m ≤ samples α' r a b N s i j k m := fun m => hle _ _ _ _ _ hρ hT (hc m)
    have hpl' : nodePlanck α B r a b N s i j k ≤ nodePlanck α' B r a b N s i j k := by
      unfold nodePlanck planckMean
      have hden : 0 ≤ ∑ m ∈ range N, B (r.TNode j) s (binCentre a b N m) * binDNu a b N m := sum_nonneg fun m _ => (hwB m).le
      refine div_le_div_of_nonneg_right (sum_le_sum fun m _ => ?_) (by linarith)
      rw [mul_assoc, mul_assoc]
      exact mul_le_mul_of_nonneg_right (div_le_div_of_nonneg_right (hsam m) hρ.le) (hwB m).le
    have hpath : nodePath α' D r a b N s i j k ≤ nodePath α D r a b N s i j k := by
      unfold nodePath openPath
      refine sum_le_sum fun m hm => ?_
      have h1 := hop i j k hn m (mem_range.1 hm)
      rw [if_pos h1, if_pos (h1.trans_le (hsam m)), mul_assoc, mul_assoc]
      refine mul_le_mul_of_nonneg_right ?_ (hwD m).le
      exact div_le_div_of_nonneg_left hρ.le (by linarith) (by have := hsam m; linarith)
    have hweight : openWeight tiny N (binDNu a b N) (fun m => D (r.TNode j) s (binCentre a b N m)) (samples α r a b N s i j k) =
        openWeight tiny N (binDNu a b N) (fun m => D (r.TNode j) s (binCentre a b N m)) (samples α' r a b N s i j k) := by
      unfold openWeight
      refine sum_congr rfl fun m hm => ?_
      have h1 := hop i j k hn m (mem_range.1 hm)
      rw [if_pos h1, if_pos (h1.trans_le (hsam m))]
    have c1 := hpl i j k hn
    have c2 := hpa i j k hn
    gcongr ?_ + _
    unfold nodeRosseland openRosselandMean
    unfold nodePath at hpath c2
    rw [if_pos ⟨c1, c2.trans_le hpath⟩, if_pos ⟨c1.trans_le hpl', c2⟩, hweight]
    refine div_le_div_of_nonneg_left ?_ (by linarith) (by linarith)
    unfold openWeight
    refine sum_nonneg fun m _ => ?_
    split_ifs
    · exact (hwD m).le
    · exact le_refl _) (by rw [f2, f3]; exact hp.inside)
  rw [f4, f5, f5'] at this
  exact this

/-- **C61 (neutrinos, linear)**: at the nodes, the Planck mean of a combination of opacities is the combination of their Planck
means -/
theorem C61_neutrino_planck_linear {β : ℝ → ℝ → ℝ → RadiationType → ℝ → ℝ} {P'' Q'' : State → RadiationType → Outcome ℝ}
    {x y : ℝ} (hx : 0 ≤ x) (hy : 0 ≤ y) (h : NeutrinoMeans α B D r a b N P Q) (h' : NeutrinoMeans β B D r a b N P' Q')
    (h'' : NeutrinoMeans (fun rho T Ye s ν => x * α rho T Ye s ν + y * β rho T Ye s ν) B D r a b N P'' Q'')
    (hr : r.Proper) (ha : 0 < a) (hab : a < b) (hN : 0 < N)
    (hα : ∀ rho T Ye s ν, 0 < rho → 0 < T → 0 < ν → 0 ≤ α rho T Ye s ν)
    (hβ : ∀ rho T Ye s ν, 0 < rho → 0 < T → 0 < ν → 0 ≤ β rho T Ye s ν) (hs : Tabulated s) {p : State} {i j k : ℕ}
    (hn : AtNode r i j k p.rho p.T p.Ye) :
    ∃ κα κβ κ, P p s = ok (p.rho * (κα + tiny)) ∧ P' p s = ok (p.rho * (κβ + tiny)) ∧ P'' p s = ok (p.rho * (κ + tiny)) ∧
      κ = x * κα + y * κβ := by
  obtain ⟨-, -, v⟩ := h.spec hr ha hab hN hα hs
  obtain ⟨-, -, v'⟩ := h'.spec hr ha hab hN hβ hs
  obtain ⟨-, -, v''⟩ := h''.spec hr ha hab hN (fun rho T Ye s ν h1 h2 h3 =>
    add_nonneg (mul_nonneg hx (hα rho T Ye s ν h1 h2 h3)) (mul_nonneg hy (hβ rho T Ye s ν h1 h2 h3))) hs
  refine ⟨_, _, _, (v i j k p hn).1, (v' i j k p hn).1, (v'' i j k p hn).1, ?_⟩
  unfold nodePlanck planckMean
  rw [← mul_div_assoc, ← mul_div_assoc, ← add_div, mul_sum, mul_sum, ← sum_add_distrib]
  congr 1
  refine sum_congr rfl fun m _ => ?_
  unfold samples
  ring

end
/-! ## Hypotheses are met -/

/-- means of a coefficient `ρ κ` -/
abbrev GrayMeans (d : FermiDirac ℝ) (κ : ℝ) (N : ℕ) (P Q : State → RadiationType → Outcome ℝ) : Prop :=
  NeutrinoMeans (fun rho _ _ _ _ => rho * κ) (fun T _ ν => d.ThermalDistributionOfTNu T ν)
    (fun T _ ν => d.DThermalDistributionOfTNuDT T ν) twoNodes ((10 : ℝ) ^ (0 : ℝ)) ((10 : ℝ) ^ (1 : ℝ)) N P Q

/-- the library's gray absorption has such means -/
theorem grayMeans (d : FermiDirac ℝ) (pc : PC ℝ) (hd : 0 < d.NSPECIES) (hpc : PosPC d.pc) (κ : ℝ) (N : ℕ) :
    ∃ P Q, GrayMeans d κ N P Q := by
  obtain ⟨m, hm⟩ := absorption_returns (inst := inferInstance) (opac := (⟨d, pc, κ⟩ : Neutrinos.GrayOpacity ℝ)) (pc := pc)
    (junk := fun _ _ => 0) (r := twoNodes) (l1 := 0) (l2 := 1) (NNu := (N : ℤ)) (fun _ _ _ _ _ => ⟨_, rfl⟩)
  exact ⟨_, _, .absorption (AbsorptionMeans.window hm) (fun _ _ _ _ _ _ _ _ => rfl) rfl rfl
    (fun T s ν hT hν => ⟨by
      show 0 < d.ThermalDistributionOfTNu T ν
      rw [fermi_eq]
      exact fermi_pos hpc (by exact_mod_cast hd) hν, fermiDT_pos hd hpc hT hν⟩)⟩

/-- and so has its gray scattering -/
theorem grayScatteringMeans (d : FermiDirac ℝ) (pc : PC ℝ) (hd : 0 < d.NSPECIES) (hpc : PosPC d.pc) (κ : ℝ) :
    ∃ P Q, GrayMeans d κ 100 P Q := by
  obtain ⟨m, hm⟩ := scattering_returns (inst := inferInstance) (dist := d) (opac := (⟨κ, 1⟩ : Neutrinos.GraySOpacity ℝ))
    (pc := pc) (junk := fun _ _ => 0) (r := twoNodes) (l1 := 0) (l2 := 1) (NNu := 7)
  exact ⟨_, _, .scattering (ScatteringMeans.window hm) (fun rho _ _ _ _ _ _ _ => by
    show rho / 1 * κ = rho * κ
    rw [div_one]) rfl rfl hd hpc⟩

theorem twoNodes_low : tiny < (10 : ℝ) ^ twoNodes.lRhoMin ∧ tiny < (10 : ℝ) ^ twoNodes.lTMin := by
  have := tiny_small
  constructor <;> (norm_num [twoNodes]; linarith)

theorem twoNodes_inside : InRanges twoNodes ⟨3, 5, 1 / 4, 1⟩ := by
  have h0 := tiny_pos
  have h1 := tiny_small
  have key : ∀ x : ℝ, 1 ≤ x → x ≤ 9 → 0 ≤ meanCoord x ∧ meanCoord x ≤ 1 := by
    intro x hx hx'
    unfold meanCoord
    rw [abs_of_pos (by linarith)]
    refine ⟨Real.logb_nonneg (by norm_num) (by linarith), ?_⟩
    rw [Real.logb_le_iff_le_rpow (by norm_num) (by linarith), Real.rpow_one]
    linarith
  exact ⟨key 3 (by norm_num) (by norm_num), key 5 (by norm_num) (by norm_num), by norm_num [twoNodes], by norm_num [twoNodes]⟩

/-- Planck means of gray absorption and of larger gray scattering, at a state between the nodes -/
example (d : FermiDirac ℝ) (pc : PC ℝ) (hd : 0 < d.NSPECIES) (hpc : PosPC d.pc) :
    ∃ P Q P' Q', GrayMeans d 2 100 P Q ∧ GrayMeans d 3 100 P' Q' ∧ ∃ κ κ', P ⟨3, 5, 1 / 4, 1⟩ .NU_HEAVY = ok (3 * κ) ∧
      P' ⟨3, 5, 1 / 4, 1⟩ .NU_HEAVY = ok (3 * κ') ∧ 0 < κ ∧ κ ≤ κ' := by
  obtain ⟨P, Q, h⟩ := grayMeans d pc hd hpc 2 100
  obtain ⟨P', Q', h'⟩ := grayScatteringMeans d pc hd hpc 3
  exact ⟨P, Q, P', Q', h, h', C61_neutrino_planck_monotone h h' twoNodes_proper (by positivity) (by norm_num) (by norm_num) twoNodes_low
    (fun _ _ _ _ _ p _ _ => by positivity) (fun _ _ _ _ _ p _ _ => by linarith) (.inr (.inr rfl)) twoNodes_inside⟩

/-- Planck mean of a combination of gray absorptions -/
example (d : FermiDirac ℝ) (pc : PC ℝ) (hd : 0 < d.NSPECIES) (hpc : PosPC d.pc) :
    ∃ P Q P' Q' P'' Q'', GrayMeans d 2 7 P Q ∧ GrayMeans d 3 7 P' Q' ∧ GrayMeans d 8 7 P'' Q'' ∧ ∃ κα κβ κ,
      P ⟨10 - tiny, 10 - tiny, 1, 1⟩ .NU_HEAVY = ok ((10 - tiny) * (κα + tiny)) ∧
      P' ⟨10 - tiny, 10 - tiny, 1, 1⟩ .NU_HEAVY = ok ((10 - tiny) * (κβ + tiny)) ∧
      P'' ⟨10 - tiny, 10 - tiny, 1, 1⟩ .NU_HEAVY = ok ((10 - tiny) * (κ + tiny)) ∧ κ = 1 * κα + 2 * κβ := by
  obtain ⟨P, Q, h⟩ := grayMeans d pc hd hpc 2 7
  obtain ⟨P', Q', h'⟩ := grayMeans d pc hd hpc 3 7
  obtain ⟨P'', Q'', h''⟩ := grayMeans d pc hd hpc 8 7
  have h8 := h''
  have e : (fun (rho _ _ : ℝ) (_ : RadiationType) (_ : ℝ) => rho * 8) = fun rho _ _ _ _ => 1 * (rho * 2) + 2 * (rho * 3) := by
    funext rho _ _ _ _
    ring
  rw [GrayMeans, e] at h''
  exact ⟨P, Q, P', Q', P'', Q'', h, h', h8, C61_neutrino_planck_linear (by norm_num) (by norm_num) h h' h'' twoNodes_proper (by positivity)
    (by norm_num) (by norm_num) (fun _ _ _ _ _ p _ _ => by positivity) (fun _ _ _ _ _ p _ _ => by positivity)
    (.inr (.inr rfl)) twoNodes_at⟩

/-- Rosseland means of gray absorption, in units where the constants are 1 -/
example (d : FermiDirac ℝ) (pc : PC ℝ) (h1 : d.pc.h = 1) (h2 : d.pc.kb = 1) (h3 : d.pc.c = 1) (hd : d.NSPECIES = 1)
    (hpc : PosPC d.pc) :
    ∃ P Q P' Q', GrayMeans d 2 1 P Q ∧ GrayMeans d 3 1 P' Q' ∧ ∃ κ κ', Q ⟨3, 5, 1 / 4, 1⟩ .NU_HEAVY = ok (3 * κ) ∧
      Q' ⟨3, 5, 1 / 4, 1⟩ .NU_HEAVY = ok (3 * κ') ∧ 0 < κ ∧ κ ≤ κ' := by
  have hd' : 0 < d.NSPECIES := by omega
  obtain ⟨P, Q, h⟩ := grayMeans d pc hd' hpc 2 1
  obtain ⟨P', Q', h'⟩ := grayMeans d pc hd' hpc 3 1
  have htiny := tiny_pos
  have hsmall := tiny_tiny
  norm_num at hsmall
  have hc := centre_one
  have hW : binWidth ((10 : ℝ) ^ (0 : ℝ)) ((10 : ℝ) ^ (1 : ℝ)) 1 = 1 := by
    simp only [binWidth, logb_ten]
    norm_num
  have c1 : 1 ≤ (10 : ℝ) ^ (1 / 2 : ℝ) := Real.one_le_rpow (by norm_num) (by norm_num)
  have c2 : (10 : ℝ) ^ (1 / 2 : ℝ) ≤ 10 := by
    have := Real.rpow_le_rpow_of_exponent_le (x := 10) (by norm_num) (show (1 / 2 : ℝ) ≤ 1 by norm_num)
    rwa [Real.rpow_one] at this
  refine ⟨P, Q, P', Q', h, h', C61_neutrino_rosseland_partial h h' twoNodes_proper (by positivity) (by norm_num) (by norm_num) twoNodes_low
    (fun _ _ _ _ _ p _ _ => by positivity) (fun _ _ _ _ _ p _ _ => by linarith) (.inr (.inr rfl))
    (fun i j k hn m _ => ?_) (fun i j k hn => ?_) (fun i j k hn => ?_) twoNodes_inside⟩
  · have := (twoNodes_values hn.1).1.1
    show tiny < twoNodes.rhoNode i * 2
    linarith
  · obtain ⟨⟨r1, r2⟩, -⟩ := twoNodes_values hn.1
    obtain ⟨-, t1, t2⟩ := twoNodes_values hn.2.1
    simp only [nodePlanck, planckMean, samples, sum_range_one, binDNu, hc, hW]
    have w := (weights_lower h1 h2 h3 hd t1 t2 c1 c2).1
    generalize d.ThermalDistributionOfTNu _ _ = I at *
    generalize (10 : ℝ) ^ (1 / 2 : ℝ) = c at *
    generalize twoNodes.rhoNode i = ρ at *
    have hI : 1 / 10 ^ 6 ≤ I * (c * 1) := by nlinarith
    norm_num at hI
    rw [lt_div_iff₀ (by linarith), mul_div_cancel_left₀ _ (by linarith)]
    nlinarith
  · obtain ⟨⟨r1, r2⟩, -⟩ := twoNodes_values hn.1
    obtain ⟨-, t1, t2⟩ := twoNodes_values hn.2.1
    simp only [nodePath, openPath, samples, sum_range_one, binDNu, hc, hW]
    have w := (weights_lower h1 h2 h3 hd t1 t2 c1 c2).2
    generalize d.DThermalDistributionOfTNuDT _ _ = I at *
    generalize (10 : ℝ) ^ (1 / 2 : ℝ) = c at *
    generalize twoNodes.rhoNode i = ρ at *
    have hI : 1 / 10 ^ 9 ≤ I * (c * 1) := by nlinarith
    norm_num at hI
    rw [if_pos (by linarith)]
    have q : 1 / 4 ≤ ρ / (ρ * 3 + tiny) := by rw [le_div_iff₀ (by linarith)]; linarith
    have : 1 / 4 * (I * (c * 1)) ≤ ρ / (ρ * 3 + tiny) * (I * (c * 1)) := mul_le_mul_of_nonneg_right q (by linarith)
    rw [mul_assoc]
    linarith

end Opac.Tables
