import Verif.Props.TableLookup
import Verif.Props.NeutrinoMeanLimits

/-!
# C66: convergence between the nodes

If the entries of a family of tables converge, so does everything that is looked up in them, at every state; in particular
the mean opacities of neutrinos.
-/

namespace Opac.Tables
open Arith Outcome Spiner Photons Filter Topology
open Neutrinos MeanTables
open SpinerOpacity (tiny tiny_pos equi Tabulated)
open Opac.Spec

/-- the point at an index tuple of the grids -/
noncomputable def nodes : List (Grid ℝ) → List ℕ → List ℝ
  | g :: gs, i :: is => node g i :: nodes gs is
  | _, _ => []

theorem mlin_node : ∀ {gs : List (Grid ℝ)} {is : List ℕ} {v : List ℤ → ℝ}, (∀ g ∈ gs, Proper g) →
    Indexes gs (is.map fun i => (i : ℤ)) → mlin gs v (nodes gs is) = v (is.map fun i => (i : ℤ))
  | [], [], _, _, _ => rfl
  | g :: gs, i :: is, v, hg, hi => by
    have hp := hg g (by simp)
    have h1 : (i : ℤ) < g.N := hi.1.2
    have h := lerp_node (g := g) hp h1 (f := fun k => ok (mlin gs (fun is => v (k :: is)) (nodes gs is)))
      (fun k _ _ => ⟨_, rfl⟩) rfl
    rw [lerp_lin g hp.1 hp.2 _ _ (fun k => mlin gs (fun is => v (k :: is)) (nodes gs is)) (fun _ _ _ => rfl)] at h
    show lin g _ (node g i) = _
    rw [Outcome.ok.inj h]
    exact mlin_node (fun g' h' => hg g' (by simp [h'])) hi.2
  | [], _ :: _, _, _, h => nomatch h
  | _ :: _, [], _, _, h => nomatch h

/-- **C66 (lookups)**: let the tables behind a family of queries have the same axes, and let each entry converge to a positive
number.  Then the answers converge at every state, inside the table or not, to a continuous function of the state, which lies
between the limits at the corners of each cell and equals the limit of the entry at each node. -/
theorem C66_lookup {q : ℕ → Query} {axes : List (Grid ℝ)} {coords : List (State → ℝ)} {factor : State → ℝ}
    (h : ∀ N, 0 < N → FromTable (q N)) (hax : ∀ N, 0 < N → (q N).axes = axes) (hco : ∀ N, 0 < N → (q N).coords = coords)
    (hfa : ∀ N, 0 < N → (q N).factor = factor) {e : ℕ → List ℤ → ℝ} {L : List ℤ → ℝ}
    (he : ∀ N, 0 < N → ∀ is, Indexes axes is → (q N).Entry is (e N is))
    (hL : ∀ is, Indexes axes is → 0 < L is ∧ Tendsto (fun N => e N is) atTop (𝓝 (L is))) :
    ∃ F : State → ℝ, Continuous F ∧
      (∀ p, ∃ κ : ℕ → ℝ, (∀ N, 0 < N → (q N).answer p = ok (factor p * κ N)) ∧ Tendsto κ atTop (𝓝 (F p))) ∧
      (∀ p cell lo hi, InCell axes cell (coords.map fun c => c p) → 0 < lo →
        (∀ is, Corner cell is → lo ≤ L is ∧ L is ≤ hi) → lo ≤ F p ∧ F p ≤ hi) ∧
      (∀ p (is : List ℕ), Indexes axes (is.map fun i => (i : ℤ)) → (coords.map fun c => c p) = nodes axes is →
        F p = L (is.map fun i => (i : ℤ))) := by
  classical
  have g1 := (h 1 one_pos).good
  have hp : ∀ g ∈ axes, Proper g := hax 1 one_pos ▸ g1.proper
  have hcc : ∀ c ∈ coords, Continuous c := hco 1 one_pos ▸ g1.coords
  set y : ℕ → List ℤ → ℝ := fun N is => if Indexes axes is then Real.logb 10 (e N is) else 0 with hy
  set z : List ℤ → ℝ := fun is => if Indexes axes is then Real.logb 10 (L is) else 0 with hz
  have hyz : Tendsto y atTop (𝓝 z) := by
    rw [tendsto_pi_nhds]
    intro is
    by_cases hi : Indexes axes is
    · simp only [hy, hz, hi, if_true]
      exact ((hL is hi).2.log (hL is hi).1.ne').div_const _
    · simp only [hy, hz, hi, if_false]
      exact tendsto_const_nhds
  have hzL : ∀ is, Indexes axes is → (10 : ℝ) ^ z is = L is := by
    intro is hi
    simp only [hz, hi, if_true]
    exact Real.rpow_logb (by norm_num) (by norm_num) (hL is hi).1
  refine ⟨fun p => 10 ^ mlin axes z (coords.map fun c => c p), ?_, fun p => ?_, ?_, ?_⟩
  · exact Continuous.rpow continuous_const (continuous_mlin axes (fun _ => z) coords (fun _ => continuous_const) hcc)
      fun _ => .inl (by norm_num)
  · refine ⟨fun N => 10 ^ mlin axes (y N) (coords.map fun c => c p), fun N hN => ?_, ?_⟩
    · have gN := (h N hN).good
      rw [gN.answer, hax N hN, hfa N hN]
      unfold Query.at
      rw [hco N hN, mlerp_mlin axes _ _ (y N) hp (by rw [List.length_map, ← hco N hN, ← hax N hN]; exact gN.length) ?_, map'_ok]
      intro is hi
      obtain ⟨l, e1, e2⟩ := he N hN is hi
      rw [e1]
      simp only [hy, hi, if_true]
      rw [e2, Real.logb_rpow (by norm_num) (by norm_num)]
    · have hm : Continuous fun v : List ℤ → ℝ => mlin axes v (coords.map fun c => c p) := by
        have := continuous_mlin (X := List ℤ → ℝ) axes (fun v => v) (coords.map fun c => fun _ => c p)
          (fun is => continuous_apply is) (by
            intro x hx
            obtain ⟨c, -, rfl⟩ := List.mem_map.1 hx
            exact continuous_const)
        simpa [List.map_map, Function.comp_def] using this
      exact ((Real.continuous_const_rpow (by norm_num)).tendsto _).comp ((hm.tendsto z).comp hyz)
  · intro p cell lo hi hc hlo hb
    have hb' : ∀ is, Corner cell is → Real.logb 10 lo ≤ z is ∧ z is ≤ Real.logb 10 hi := by
      intro is his
      have hi' := corner_indexes _ _ _ _ hc his
      obtain ⟨b1, b2⟩ := hb is his
      simp only [hz, hi', if_true]
      exact ⟨Real.logb_le_logb_of_le (by norm_num) hlo b1, Real.logb_le_logb_of_le (by norm_num) (hL is hi').1 b2⟩
    obtain ⟨h1, h2⟩ := mlin_cell hp hc hb'
    have hhi : 0 < hi := by
      obtain ⟨is, his⟩ : ∃ is, Corner cell is := by
        clear hc hb hb' h1 h2
        induction cell with
        | nil => exact ⟨[], trivial⟩
        | cons c cs ih =>
          obtain ⟨is, his⟩ := ih
          exact ⟨(c : ℤ) :: is, .inl rfl, his⟩
      have := hb is his
      linarith
    exact ⟨by rwa [← Real.logb_le_iff_le_rpow (by norm_num) hlo], by rwa [← Real.le_logb_iff_rpow_le (by norm_num) hhi]⟩
  · intro p is hi hn
    show (10 : ℝ) ^ mlin axes z (coords.map fun c => c p) = _
    rw [hn, mlin_node hp hi]
    exact hzL _ hi

/-- at a node of positive density the answer shows the entry -/
theorem entry_of_answer {q : Query} (h : FromTable q) {p : State} {is : List ℕ} (hi : Indexes q.axes (is.map fun i => (i : ℤ)))
    (hn : q.at p = nodes q.axes is) (hf : q.factor p ≠ 0) {K : ℝ} (ha : q.answer p = ok (q.factor p * K)) :
    q.Entry (is.map fun i => (i : ℤ)) K := by
  obtain ⟨v, hv, hc⟩ := h.good.closed
  refine ⟨_, hv _ hi, ?_⟩
  rw [hc p, hn, mlin_node h.good.proper hi] at ha
  exact (mul_left_cancel₀ hf (Outcome.ok.inj ha)).symm

/-! ## Mean opacities of neutrinos -/

/-- the axes of a mean opacity on the ranges `r` -/
def rangeAxes (r : MeanRanges) : List (Grid ℝ) :=
  [⟨r.lRhoMin, r.lRhoMax, r.NRho⟩, ⟨r.lTMin, r.lTMax, r.NT⟩, ⟨r.YeMin, r.YeMax, r.NYe⟩]

/-- the coordinates of a state on them -/
noncomputable def rangeCoords (p : State) : List ℝ := [meanCoord p.rho, meanCoord p.T, p.Ye]

theorem means_grids {O : Type} {inst : NeutrinoAPI ℝ O} {opac : O} {r : MeanRanges} {a b : ℝ} {N : ℕ}
    {m : Neutrinos.MeanOpacityBase ℝ} (h : AbsorptionMeans inst opac r a b N m) (hr : r.Proper) :
    (Proper4 m.t.lPlanck ∧ [m.t.lPlanck.grid 3, m.t.lPlanck.grid 2, m.t.lPlanck.grid 1] = rangeAxes r) ∧
    (Proper4 m.t.lRosseland ∧ [m.t.lRosseland.grid 3, m.t.lRosseland.grid 2, m.t.lRosseland.grid 1] = rangeAxes r) := by
  have hp := means_proper h hr
  refine ⟨⟨hp.1, ?_⟩, hp.2, ?_⟩
  all_goals
    clear hp
    cases h with
    | window h =>
      rename_i debug pc junk lNuMin lNuMax
      unfold Neutrinos.MeanOpacityBase.construct Neutrinos.MeanOpacityBase.Impl_ at h
      simp only [Bool.false_eq_true, if_false] at h
      split at h
      · simp at h
      simp only [bind_eq_ok] at h
      obtain ⟨t, h, h'⟩ := h
      cases h'
      obtain ⟨hS, -⟩ := loops_fills (t₀ := empty junk r) (fun i j k d t t' ht h => fillCell_fills i j k d t t' ht h) h
      first
        | rw [hS.p2]; rfl
        | rw [hS.r2]; rfl
    | auto hk hh h =>
      rename_i debug junk pc
      unfold Neutrinos.MeanOpacityBase.constructAuto Neutrinos.MeanOpacityBase.Impl_ at h
      simp only [if_true] at h
      split at h
      · simp at h
      simp only [bind_eq_ok] at h
      obtain ⟨t, h, h'⟩ := h
      cases h'
      obtain ⟨hS, -⟩ := loops_fills (t₀ := empty junk r) (fun i j k d t t' ht h => fillCell_fills i j k d t t' ht h) h
      first
        | rw [hS.p2]; rfl
        | rw [hS.r2]; rfl

/-- every node is met by a state of positive density -/
theorem node_state {r : MeanRanges} (hr : r.Proper) (hlo : tiny < (10 : ℝ) ^ r.lRhoMin ∧ tiny < (10 : ℝ) ^ r.lTMin)
    {i j k : ℕ} (hi : (i : ℤ) < r.NRho) (hj : (j : ℤ) < r.NT) (hk : (k : ℤ) < r.NYe) :
    ∃ p : State, 0 < p.rho ∧ AtNode r i j k p.rho p.T p.Ye ∧ rangeCoords p = nodes (rangeAxes r) [i, j, k] := by
  have up : ∀ {lo hi : ℝ} {n : ℤ} (m : ℕ), 2 ≤ n → lo < hi → lo ≤ equi lo hi n m := by
    intro lo hi n m hn h
    rw [← SpinerOpacity.node_equi]
    unfold node
    have : (0 : ℝ) < (n : ℝ) - 1 := by
      have : (2 : ℝ) ≤ n := by exact_mod_cast hn
      linarith
    have : 0 ≤ (m : ℝ) * ((hi - lo) / ((n : ℝ) - 1)) := by
      have := sub_pos.2 h
      positivity
    show lo ≤ lo + _
    linarith
  have h1 : tiny < r.rhoNode i := hlo.1.trans_le (Real.rpow_le_rpow_of_exponent_le (by norm_num) (up i hr.rho.1 hr.rho.2))
  have h2 : tiny < r.TNode j := hlo.2.trans_le (Real.rpow_le_rpow_of_exponent_le (by norm_num) (up j hr.T.1 hr.T.2))
  have e1 : meanCoord (r.rhoNode i - tiny) = equi r.lRhoMin r.lRhoMax r.NRho i := by
    unfold meanCoord
    rw [abs_of_pos (by linarith), sub_add_cancel]
    exact Real.logb_rpow (by norm_num) (by norm_num)
  have e2 : meanCoord (r.TNode j - tiny) = equi r.lTMin r.lTMax r.NT j := by
    unfold meanCoord
    rw [abs_of_pos (by linarith), sub_add_cancel]
    exact Real.logb_rpow (by norm_num) (by norm_num)
  refine ⟨⟨r.rhoNode i - tiny, r.TNode j - tiny, r.YeNode k, 0⟩, by simp only; linarith, ⟨by simp only; linarith,
    by simp only; linarith, hi, hj, hk, by simp only; ring, by simp only; ring, rfl⟩, ?_⟩
  simp only [rangeCoords, e1, e2]
  rfl

/-- index tuples of the ranges -/
theorem range_indexes {r : MeanRanges} {is : List ℤ} (h : Indexes (rangeAxes r) is) :
    ∃ i j k : ℕ, (i : ℤ) < r.NRho ∧ (j : ℤ) < r.NT ∧ (k : ℤ) < r.NYe ∧ is = ([i, j, k] : List ℕ).map fun i => (i : ℤ) := by
  match is, h with
  | [i, j, k], ⟨h1, h2, h3, _⟩ =>
    refine ⟨i.toNat, j.toNat, k.toNat, ?_, ?_, ?_, ?_⟩
    · rw [Int.toNat_of_nonneg h1.1]; exact h1.2
    · rw [Int.toNat_of_nonneg h2.1]; exact h2.2
    · rw [Int.toNat_of_nonneg h3.1]; exact h3.2
    · show [i, j, k] = [(i.toNat : ℤ), j.toNat, k.toNat]
      rw [Int.toNat_of_nonneg h1.1, Int.toNat_of_nonneg h2.1, Int.toNat_of_nonneg h3.1]

theorem species_index {s : RadiationType} (hs : Tabulated s) : ∃ d, SpeciesIndex s d := by
  rcases hs with rfl | rfl | rfl
  · exact ⟨0, .e⟩
  · exact ⟨1, .ebar⟩
  · exact ⟨2, .x⟩

/-- a node of the ranges -/
def IsNode (r : MeanRanges) (i j k : ℕ) : Prop := (i : ℤ) < r.NRho ∧ (j : ℤ) < r.NT ∧ (k : ℤ) < r.NYe

/-- the answers (per density) converge at every state, inside the table or not, to a continuous function of the state, which at
node `(i, j, k)` is `V i j k` and in every cell lies between its values at the corners -/
def ConvergeTo (r : MeanRanges) (answer : ℕ → State → Outcome ℝ) (V : ℕ → ℕ → ℕ → ℝ) : Prop :=
  ∃ F : State → ℝ, Continuous F ∧
    (∀ p : State, ∃ κ : ℕ → ℝ, (∀ N, 0 < N → answer N p = ok (p.rho * κ N)) ∧ Tendsto κ atTop (𝓝 (F p))) ∧
    (∀ p i j k, IsNode r i j k → rangeCoords p = nodes (rangeAxes r) [i, j, k] → F p = V i j k) ∧
    (∀ p (i j k : ℕ) (lo hi : ℝ), InCell (rangeAxes r) [i, j, k] (rangeCoords p) → 0 < lo →
      (∀ i' j' k', (i' = i ∨ i' = i + 1) → (j' = j ∨ j' = j + 1) → (k' = k ∨ k' = k + 1) →
        lo ≤ V i' j' k' ∧ V i' j' k' ≤ hi) → lo ≤ F p ∧ F p ≤ hi)

theorem converge_of_nodes {r : MeanRanges} (hr : r.Proper) (hlo : tiny < (10 : ℝ) ^ r.lRhoMin ∧ tiny < (10 : ℝ) ^ r.lTMin)
    {q : ℕ → Query} (h : ∀ N, 0 < N → FromTable (q N)) (hax : ∀ N, 0 < N → (q N).axes = rangeAxes r)
    (hco : ∀ N, 0 < N → (q N).coords = [fun p => meanCoord p.rho, fun p => meanCoord p.T, State.Ye])
    (hfa : ∀ N, 0 < N → (q N).factor = State.rho) {V : ℕ → ℕ → ℕ → ℝ} (hV : ∀ i j k, IsNode r i j k → 0 < V i j k)
    (hn : ∀ (i j k : ℕ) (p : State), AtNode r i j k p.rho p.T p.Ye → ∃ κ : ℕ → ℝ,
      (∀ N, 0 < N → (q N).answer p = ok (p.rho * κ N)) ∧ Tendsto κ atTop (𝓝 (V i j k))) :
    ConvergeTo r (fun N => (q N).answer) V := by
  have nodeVal : ∀ i j k : ℕ, (i : ℤ) < r.NRho → (j : ℤ) < r.NT → (k : ℤ) < r.NYe → ∃ κ : ℕ → ℝ,
      (∀ N, 0 < N → (q N).Entry (([i, j, k] : List ℕ).map fun i => (i : ℤ)) (κ N)) ∧ Tendsto κ atTop (𝓝 (V i j k)) := by
    intro i j k hi hj hk
    obtain ⟨p, p0, pn, pc⟩ := node_state hr hlo hi hj hk
    obtain ⟨κ, e, t⟩ := hn i j k p pn
    refine ⟨κ, fun N hN => ?_, t⟩
    refine entry_of_answer (h N hN) (p := p) ?_ ?_ ?_ ?_
    · rw [hax N hN]
      exact ⟨⟨Int.natCast_nonneg _, hi⟩, ⟨Int.natCast_nonneg _, hj⟩, ⟨Int.natCast_nonneg _, hk⟩, trivial⟩
    · rw [hax N hN, ← pc]
      unfold Query.at
      rw [hco N hN]
      rfl
    · rw [hfa N hN]; exact p0.ne'
    · rw [hfa N hN]; exact e N hN
  choose! κ hκ using nodeVal
  obtain ⟨F, f1, f2, f3, f4⟩ := C66_lookup h hax hco hfa
    (e := fun N is => κ (is[0]!).toNat (is[1]!).toNat (is[2]!).toNat N)
    (L := fun is => V (is[0]!).toNat (is[1]!).toNat (is[2]!).toNat)
    (fun N hN is his => by
      obtain ⟨i, j, k, hi, hj, hk, rfl⟩ := range_indexes his
      exact (hκ i j k hi hj hk).1 N hN)
    (fun is his => by
      obtain ⟨i, j, k, hi, hj, hk, rfl⟩ := range_indexes his
      exact ⟨hV _ _ _ ⟨hi, hj, hk⟩, (hκ i j k hi hj hk).2⟩)
  refine ⟨F, f1, f2, fun p i j k ⟨hi, hj, hk⟩ hn => ?_, fun p i j k lo hi hc h0 hb => ?_⟩
  · exact f4 p [i, j, k] ⟨⟨Int.natCast_nonneg _, hi⟩, ⟨Int.natCast_nonneg _, hj⟩, ⟨Int.natCast_nonneg _, hk⟩, trivial⟩ hn
  · refine f3 p [i, j, k] lo hi hc h0 fun is his => ?_
    match is, his with
    | [x, y, z], ⟨e1, e2, e3, _⟩ => exact hb x.toNat y.toNat z.toNat (by omega) (by omega) (by omega)

section
variable {O : Type} {inst : NeutrinoAPI ℝ O} {opac : O} {r : MeanRanges} {a b : ℝ} {m : ℕ → Neutrinos.MeanOpacityBase ℝ}
  {α : ℝ → ℝ → ℝ → RadiationType → ℝ → ℝ} {s : RadiationType}

/-- **C66 (neutrino absorption, every state)**: let the coefficient and the thermal weights at every node be bounded and
continuous in the window up to countably many frequencies.  Then the Planck means of every species converge at every density,
temperature and electron fraction, inside the table or not, to a continuous function, which at the nodes is the quotient of the
integrals and in every cell lies between its values at the corners. -/
theorem C66_planck_everywhere (h : ∀ N, 0 < N → AbsorptionMeans inst opac r a b N (m N)) (hr : r.Proper) (ha : 0 < a)
    (hab : a < b) (hlo : tiny < (10 : ℝ) ^ r.lRhoMin ∧ tiny < (10 : ℝ) ^ r.lTMin)
    (hw : PositiveWeights (inst.ThermalDistributionOfTNu opac) (inst.DThermalDistributionOfTNuDT opac))
    (hα : ∀ rho T Ye s ν, 0 < rho → 0 < T → 0 < ν → inst.AbsorptionCoefficient opac rho T Ye s ν = ok (α rho T Ye s ν) ∧
      0 ≤ α rho T Ye s ν) (hs : Tabulated s)
    (h1 : ∀ i j k, IsNode r i j k → Tame a b (α (r.rhoNode i) (r.TNode j) (r.YeNode k) s))
    (h2 : ∀ j : ℕ, (j : ℤ) < r.NT → Tame a b (inst.ThermalDistributionOfTNu opac (r.TNode j) s))
    (h3 : ∀ j : ℕ, (j : ℤ) < r.NT → Tame a b (inst.DThermalDistributionOfTNuDT opac (r.TNode j) s)) :
    ConvergeTo r (fun N p => MeanNeutrinoAPI.PlanckMeanAbsorptionCoefficient (m N) p.rho p.T p.Ye s) fun i j k =>
      planckLimit tiny (r.rhoNode i) a b (inst.ThermalDistributionOfTNu opac (r.TNode j) s)
        (α (r.rhoNode i) (r.TNode j) (r.YeNode k) s) + tiny := by
  obtain ⟨d, hd⟩ := species_index hs
  refine converge_of_nodes hr hlo (q := fun N => meanQuery (m N).t.lPlanck d fun p =>
      MeanNeutrinoAPI.PlanckMeanAbsorptionCoefficient (m N) p.rho p.T p.Ye s)
    (fun N hN => .planck _ (means_grids (h N hN) hr).1.1 hd) (fun N hN => (means_grids (h N hN) hr).1.2)
    (fun N hN => rfl) (fun N hN => rfl) (fun i j k hi => ?_) (fun i j k p pn => ?_)
  · have : 0 ≤ planckLimit tiny (r.rhoNode i) a b (inst.ThermalDistributionOfTNu opac (r.TNode j) s)
        (α (r.rhoNode i) (r.TNode j) (r.YeNode k) s) := by
      unfold planckLimit
      have := tiny_pos
      refine div_nonneg (intervalIntegral.integral_nonneg hab.le fun ν hν => ?_)
        (add_nonneg (intervalIntegral.integral_nonneg hab.le fun ν hν => ?_) (by positivity))
      · have hν0 : 0 < ν := ha.trans_le hν.1
        exact mul_nonneg (div_nonneg (hα _ _ _ _ _ (node_pos r i).1 (node_pos r j).2 hν0).2 (node_pos r i).1.le)
          (hw _ _ _ (node_pos r j).2 hν0).1.le
      · exact (hw _ _ _ (node_pos r j).2 (ha.trans_le hν.1)).1.le
    have := tiny_pos
    linarith
  · obtain ⟨κP, κR, e, t, -⟩ := C66_absorption h hr ha hab hw hα pn hs rfl rfl (by rw [pn.Ye]; exact h1 i j k ⟨pn.rhoI, pn.tempJ, pn.YeK⟩) (h2 j pn.tempJ)
      (h3 j pn.tempJ)
    exact ⟨κP, fun N hN => (e N hN).1, by rw [pn.Ye] at t; exact t⟩

/-- **C66 (neutrino absorption, every state)**: and so do the Rosseland means, if at every node the coefficient, the limit of the
Planck mean and the integral over the mean free path are above the floor -/
theorem C66_rosseland_everywhere (h : ∀ N, 0 < N → AbsorptionMeans inst opac r a b N (m N)) (hr : r.Proper) (ha : 0 < a)
    (hab : a < b) (hlo : tiny < (10 : ℝ) ^ r.lRhoMin ∧ tiny < (10 : ℝ) ^ r.lTMin)
    (hw : PositiveWeights (inst.ThermalDistributionOfTNu opac) (inst.DThermalDistributionOfTNuDT opac))
    (hα : ∀ rho T Ye s ν, 0 < rho → 0 < T → 0 < ν → inst.AbsorptionCoefficient opac rho T Ye s ν = ok (α rho T Ye s ν) ∧
      0 ≤ α rho T Ye s ν) (hs : Tabulated s)
    (h1 : ∀ i j k, IsNode r i j k → Tame a b (α (r.rhoNode i) (r.TNode j) (r.YeNode k) s))
    (h2 : ∀ j : ℕ, (j : ℤ) < r.NT → Tame a b (inst.ThermalDistributionOfTNu opac (r.TNode j) s))
    (h3 : ∀ j : ℕ, (j : ℤ) < r.NT → Tame a b (inst.DThermalDistributionOfTNuDT opac (r.TNode j) s))
    (q1 : ∀ i j k, IsNode r i j k → ∀ ν, a < ν → ν < b → tiny < α (r.rhoNode i) (r.TNode j) (r.YeNode k) s ν)
    (q2 : ∀ i j k, IsNode r i j k → tiny < planckLimit tiny (r.rhoNode i) a b (inst.ThermalDistributionOfTNu opac (r.TNode j) s)
      (α (r.rhoNode i) (r.TNode j) (r.YeNode k) s))
    (q3 : ∀ i j k, IsNode r i j k → tiny * Real.log 10 < ∫ ν in a..b, r.rhoNode i / (α (r.rhoNode i) (r.TNode j) (r.YeNode k) s ν + tiny) *
      inst.DThermalDistributionOfTNuDT opac (r.TNode j) s ν) :
    ConvergeTo r (fun N p => MeanNeutrinoAPI.RosselandMeanAbsorptionCoefficient (m N) p.rho p.T p.Ye s) fun i j k =>
      rosselandLimit tiny (r.rhoNode i) a b (inst.DThermalDistributionOfTNuDT opac (r.TNode j) s)
        (α (r.rhoNode i) (r.TNode j) (r.YeNode k) s) + tiny := by
  obtain ⟨d, hd⟩ := species_index hs
  refine converge_of_nodes hr hlo (q := fun N => meanQuery (m N).t.lRosseland d fun p =>
      MeanNeutrinoAPI.RosselandMeanAbsorptionCoefficient (m N) p.rho p.T p.Ye s)
    (fun N hN => .rosseland _ (means_grids (h N hN) hr).2.1 hd) (fun N hN => (means_grids (h N hN) hr).2.2)
    (fun N hN => rfl) (fun N hN => rfl) (fun i j k hi => ?_) (fun i j k p pn => ?_)
  · have : 0 ≤ rosselandLimit tiny (r.rhoNode i) a b (inst.DThermalDistributionOfTNuDT opac (r.TNode j) s)
        (α (r.rhoNode i) (r.TNode j) (r.YeNode k) s) := by
      unfold rosselandLimit
      have := tiny_pos
      have := q3 i j k hi
      have l10 : 0 < Real.log 10 := Real.log_pos (by norm_num)
      refine div_nonneg (intervalIntegral.integral_nonneg hab.le fun ν hν => ?_) (by nlinarith)
      exact (hw _ _ _ (node_pos r j).2 (ha.trans_le hν.1)).2.le
    have := tiny_pos
    linarith
  · obtain ⟨κP, κR, e, -, t⟩ := C66_absorption h hr ha hab hw hα pn hs rfl rfl (by rw [pn.Ye]; exact h1 i j k ⟨pn.rhoI, pn.tempJ, pn.YeK⟩) (h2 j pn.tempJ)
      (h3 j pn.tempJ)
    refine ⟨κR, fun N hN => (e N hN).2, ?_⟩
    rw [pn.Ye] at t
    have hi : IsNode r i j k := ⟨pn.rhoI, pn.tempJ, pn.YeK⟩
    exact t (q1 i j k hi) (q2 i j k hi) (q3 i j k hi)

/-- the hypotheses of `C66_planck_everywhere` are met: tables of a tophat emissivity -/
example (d : FermiDirac ℝ) (pc : PC ℝ) (hd : 0 < d.NSPECIES) (hpc : PosPC d.pc) :
    ∃ (m : ℕ → Neutrinos.MeanOpacityBase ℝ) (V : ℕ → ℕ → ℕ → ℝ),
      (∀ N, 0 < N → AbsorptionMeans (inferInstance : NeutrinoAPI ℝ (TophatEmissivity ℝ)) ⟨d, pc, 1, 2, 5⟩ twoNodes
        ((10 : ℝ) ^ (0 : ℝ)) ((10 : ℝ) ^ (1 : ℝ)) N (m N)) ∧
      ConvergeTo twoNodes (fun N p => MeanNeutrinoAPI.PlanckMeanAbsorptionCoefficient (m N) p.rho p.T p.Ye .NU_ELECTRON) V := by
  have ht : ∀ N : ℕ, ∃ m, Neutrinos.MeanOpacityBase.construct false pc (fun _ _ => 0) (⟨d, pc, 1, 2, 5⟩ : TophatEmissivity ℝ)
      twoNodes.lRhoMin twoNodes.lRhoMax twoNodes.NRho twoNodes.lTMin twoNodes.lTMax twoNodes.NT twoNodes.YeMin twoNodes.YeMax
      twoNodes.NYe 0 1 (N : ℤ) = ok m := fun N => absorption_returns (fun _ _ _ _ _ => ⟨_, rfl⟩)
  choose m hm using ht
  have hA := fun N (_ : 0 < N) => AbsorptionMeans.window (inst := inferInstance) (r := twoNodes) (hm N)
  have hp : (0 : ℝ) < (10 : ℝ) ^ (0 : ℝ) := by norm_num
  exact ⟨m, _, hA, C66_planck_everywhere hA twoNodes_proper hp (by norm_num)
    ⟨by have := tiny_small; norm_num [twoNodes]; linarith, by have := tiny_small; norm_num [twoNodes]; linarith⟩
    (fun T s ν hT hν => ⟨by
      show 0 < d.ThermalDistributionOfTNu T ν
      rw [fermi_eq]
      exact fermi_pos hpc (by exact_mod_cast hd) hν, fermiDT_pos hd hpc hT hν⟩)
    (α := fun rho T Ye s ν => (⟨d, pc, 1, 2, 5⟩ : TophatEmissivity ℝ).AbsorptionCoefficient rho T Ye s ν)
    (fun rho T Ye s ν _ _ _ => ⟨rfl, (C66_tophat (o := ⟨d, pc, 1, 2, 5⟩) (b := 1) hpc one_pos rho T Ye s).2 ν⟩)
    (s := .NU_ELECTRON) (.inl rfl) (fun _ _ _ _ => (C66_tophat (o := ⟨d, pc, 1, 2, 5⟩) hpc hp _ _ _ _).1)
    (fun _ _ => tame_of_continuous hp (fermi_continuous hpc _).1) (fun _ _ => tame_of_continuous hp (fermi_continuous hpc _).2)⟩

theorem tiny_tiny : tiny ≤ 1 / 10 ^ 20 := by
  unfold tiny
  have h : (2 : ℝ) ^ (-1022 : ℤ) ≤ 2 ^ (-80 : ℤ) := zpow_le_zpow_right₀ (by norm_num) (by norm_num)
  have h2 : (2 : ℝ) ^ (-80 : ℤ) ≤ 1 / 10 ^ 23 := by norm_num
  have h3 := h.trans h2
  generalize (2 : ℝ) ^ (-1022 : ℤ) = x at *
  norm_num at h3 ⊢
  linarith

/-- thermal weights from 1 to 10 degrees, in units where the constants are 1 -/
theorem weights_lower {d : FermiDirac ℝ} (h1 : d.pc.h = 1) (h2 : d.pc.kb = 1) (h3 : d.pc.c = 1) (hd : d.NSPECIES = 1) {T ν : ℝ}
    (t1 : 1 ≤ T) (t2 : T ≤ 10) (n1 : 1 ≤ ν) (n2 : ν ≤ 10) :
    1 / 10 ^ 6 ≤ d.ThermalDistributionOfTNu T ν ∧ 1 / 10 ^ 9 ≤ d.DThermalDistributionOfTNuDT T ν := by
  have he : Real.exp (ν / T) ≤ 59049 := by
    have h10 : ν / T ≤ 10 := by rw [div_le_iff₀ (by linarith)]; nlinarith
    have : Real.exp (ν / T) ≤ Real.exp 1 ^ 10 := by
      rw [← Real.exp_nat_mul]
      exact Real.exp_le_exp.2 (by push_cast; linarith)
    have h3 : Real.exp 1 ≤ 3 := by linarith [Real.exp_one_lt_d9]
    have h4 : Real.exp 1 ^ 10 ≤ 3 ^ 10 := pow_le_pow_left₀ (Real.exp_pos _).le h3 10
    have h5 : (3 : ℝ) ^ 10 = 59049 := by norm_num
    linarith
  have p3 : 1 ≤ ν ^ 3 := one_le_pow₀ n1
  have p4 : 1 ≤ ν ^ 4 := one_le_pow₀ n1
  have hT : 0 < T := by linarith
  constructor
  · rw [fermi_eq]
    unfold fermiDiracLaw
    rw [h1, h2, h3, hd, le_div_iff₀ (by positivity)]
    norm_num
    linarith
  · unfold FermiDirac.DThermalDistributionOfTNuDT
    simp only [areal]
    rw [h1, h2, h3, hd]
    have hneg : 1 / 59049 ≤ Real.exp (-(1 * ν / (1 * T))) := by
      rw [Real.exp_neg, one_div, one_mul, one_mul]
      exact inv_anti₀ (Real.exp_pos _) he
    have hle : Real.exp (-(1 * ν / (1 * T))) ≤ 1 := by
      have : 0 ≤ 1 * ν / (1 * T) := by positivity
      exact Real.exp_le_one_iff.2 (by linarith)
    generalize Real.exp (-(1 * ν / (1 * T))) = x at *
    have hx : 0 < x := by linarith
    rw [le_div_iff₀ (by positivity)]
    have hTT : T ^ 2 ≤ 100 := by nlinarith
    have a1 : (1 : ℝ) / 1000 ≤ ν ^ 4 / T ^ 2 := by rw [le_div_iff₀ (by positivity)]; linarith
    have e : 1 / 10 ^ 9 * ((1 + x) * (1 + x)) ≤ 1 / 1000 * x := by nlinarith
    have e2 : 1 / 1000 * x ≤ ν ^ 4 / T ^ 2 * x := mul_le_mul_of_nonneg_right a1 hx.le
    have e3 : ν ^ 4 / T ^ 2 * x ≤ 2 * (ν ^ 4 / T ^ 2 * x) := by
      have : 0 ≤ ν ^ 4 / T ^ 2 * x := by positivity
      linarith
    refine le_trans (le_of_eq ?_) ((e.trans (e2.trans e3)).trans (le_of_eq ?_))
    · norm_num
    · push_cast
      field_simp

theorem twoNodes_values {i : ℕ} (hi : (i : ℤ) < 2) :
    (1 ≤ twoNodes.rhoNode i ∧ twoNodes.rhoNode i ≤ 10) ∧ 1 ≤ twoNodes.TNode i ∧ twoNodes.TNode i ≤ 10 := by
  rcases (by omega : i = 0 ∨ i = 1) with rfl | rfl <;>
    norm_num [MeanRanges.rhoNode, MeanRanges.TNode, equi, twoNodes]

/-- the hypotheses of `C66_rosseland_everywhere` are met, by gray absorption -/
example (d : FermiDirac ℝ) (pc : PC ℝ) (h1 : d.pc.h = 1) (h2 : d.pc.kb = 1) (h3 : d.pc.c = 1) (hd : d.NSPECIES = 1)
    (hpc : PosPC d.pc) :
    ∃ (m : ℕ → Neutrinos.MeanOpacityBase ℝ) (V : ℕ → ℕ → ℕ → ℝ),
      (∀ N, 0 < N → AbsorptionMeans (inferInstance : NeutrinoAPI ℝ (Neutrinos.GrayOpacity ℝ)) ⟨d, pc, 2⟩ twoNodes
        ((10 : ℝ) ^ (0 : ℝ)) ((10 : ℝ) ^ (1 : ℝ)) N (m N)) ∧
      ConvergeTo twoNodes (fun N p => MeanNeutrinoAPI.RosselandMeanAbsorptionCoefficient (m N) p.rho p.T p.Ye .NU_HEAVY) V := by
  have ht : ∀ N : ℕ, ∃ m, Neutrinos.MeanOpacityBase.construct false pc (fun _ _ => 0) (⟨d, pc, 2⟩ : Neutrinos.GrayOpacity ℝ)
      twoNodes.lRhoMin twoNodes.lRhoMax twoNodes.NRho twoNodes.lTMin twoNodes.lTMax twoNodes.NT twoNodes.YeMin twoNodes.YeMax
      twoNodes.NYe 0 1 (N : ℤ) = ok m := fun N => absorption_returns (fun _ _ _ _ _ => ⟨_, rfl⟩)
  choose m hm using ht
  have hA := fun N (_ : 0 < N) => AbsorptionMeans.window (inst := inferInstance) (r := twoNodes) (hm N)
  have hp : (0 : ℝ) < (10 : ℝ) ^ (0 : ℝ) := by norm_num
  have htiny := tiny_pos
  have hsmall := tiny_tiny
  have hl10 : Real.log 10 ≤ 10 := by have := Real.log_le_sub_one_of_pos (show (0 : ℝ) < 10 by norm_num); linarith
  have hl0 : 0 < Real.log 10 := Real.log_pos (by norm_num)
  have hSl : tiny * Real.log 10 ≤ tiny * 10 := mul_le_mul_of_nonneg_left hl10 htiny.le
  have hSl0 : 0 < tiny * Real.log 10 := by positivity
  have hsub : Set.uIcc (1 : ℝ) 10 ⊆ Set.Ioi 0 := by
    rw [Set.uIcc_of_le (by norm_num)]
    exact fun x hx => lt_of_lt_of_le one_pos hx.1
  norm_num at hsmall
  refine ⟨m, _, hA, C66_rosseland_everywhere hA twoNodes_proper hp (by norm_num)
    ⟨by norm_num [twoNodes]; linarith, by norm_num [twoNodes]; linarith⟩
    (fun T s ν hT hν => ⟨by
      show 0 < d.ThermalDistributionOfTNu T ν
      rw [fermi_eq]
      exact fermi_pos hpc (by rw [hd]; norm_num) hν, fermiDT_pos (by omega) hpc hT hν⟩)
    (α := fun rho _ _ _ _ => rho * 2) (fun rho T Ye s ν hr _ _ => ⟨rfl, by positivity⟩)
    (s := .NU_HEAVY) (.inr (.inr rfl)) (fun _ _ _ _ => tame_of_continuous hp continuousOn_const)
    (fun _ _ => tame_of_continuous hp (fermi_continuous hpc _).1) (fun _ _ => tame_of_continuous hp (fermi_continuous hpc _).2)
    (fun i j k hn ν _ _ => ?_) (fun i j k hn => ?_) (fun i j k hn => ?_)⟩
  · have := (twoNodes_values hn.1).1.1
    linarith
  · obtain ⟨⟨r1, r2⟩, -⟩ := twoNodes_values hn.1
    obtain ⟨-, t1, t2⟩ := twoNodes_values hn.2.1
    show tiny < planckLimit tiny (twoNodes.rhoNode i) _ _ (d.ThermalDistributionOfTNu (twoNodes.TNode j)) _
    generalize twoNodes.rhoNode i = ρ at *
    generalize twoNodes.TNode j = T at *
    unfold planckLimit
    rw [Real.rpow_zero, Real.rpow_one]
    have b : ∫ _ in (1 : ℝ)..10, (1 / 10 ^ 6 : ℝ) ≤ ∫ ν in (1 : ℝ)..10, d.ThermalDistributionOfTNu T ν :=
      intervalIntegral.integral_mono_on (by norm_num) intervalIntegrable_const
        ((fermi_continuous hpc T).1.mono hsub).intervalIntegrable
        fun ν hν => (weights_lower h1 h2 h3 hd t1 t2 hν.1 hν.2).1
    rw [intervalIntegral.integral_const, smul_eq_mul] at b
    rw [intervalIntegral.integral_const_mul, lt_div_iff₀ (by linarith)]
    rw [mul_div_cancel_left₀ _ (by linarith)]
    generalize (∫ ν in (1 : ℝ)..10, d.ThermalDistributionOfTNu T ν) = I at *
    generalize tiny * Real.log 10 = q at *
    norm_num at b
    have : tiny * (I + q) ≤ 1 * (I + q) := mul_le_mul_of_nonneg_right (by linarith) (by linarith)
    linarith
  · obtain ⟨⟨r1, r2⟩, -⟩ := twoNodes_values hn.1
    obtain ⟨-, t1, t2⟩ := twoNodes_values hn.2.1
    show tiny * Real.log 10 < ∫ ν in (10 : ℝ) ^ (0 : ℝ)..(10 : ℝ) ^ (1 : ℝ), twoNodes.rhoNode i / (twoNodes.rhoNode i * 2 + tiny) *
      d.DThermalDistributionOfTNuDT (twoNodes.TNode j) ν
    generalize twoNodes.rhoNode i = ρ at *
    generalize twoNodes.TNode j = T at *
    rw [Real.rpow_zero, Real.rpow_one]
    have b : ∫ _ in (1 : ℝ)..10, (1 / 10 ^ 9 : ℝ) ≤ ∫ ν in (1 : ℝ)..10, d.DThermalDistributionOfTNuDT T ν :=
      intervalIntegral.integral_mono_on (by norm_num) intervalIntegrable_const
        ((fermi_continuous hpc T).2.mono hsub).intervalIntegrable
        fun ν hν => (weights_lower h1 h2 h3 hd t1 t2 hν.1 hν.2).2
    rw [intervalIntegral.integral_const, smul_eq_mul] at b
    rw [intervalIntegral.integral_const_mul]
    have q : 1 / 3 ≤ ρ / (ρ * 2 + tiny) := by rw [le_div_iff₀ (by linarith)]; linarith
    generalize (∫ ν in (1 : ℝ)..10, d.DThermalDistributionOfTNuDT T ν) = I at *
    norm_num at b
    have : 1 / 3 * I ≤ ρ / (ρ * 2 + tiny) * I := mul_le_mul_of_nonneg_right q (by linarith)
    linarith

end

end Opac.Tables
