import Verif.Props.MeanFiles

/-!
# C11: looking up photon mean opacities

Over the reals.  `Tabulated lk [i, j, g] k`: the opacity stored for density node `i`, temperature node `j` and group
`g` is `k`.
-/

namespace Opac.Photons
open Arith Outcome Spec Spiner

/-- the tables of `t` are allocated on their grids, with at least two nodes in each direction, in increasing order -/
structure OnGrids (t : MGTables ℝ) : Prop where
  dims : ∀ lk, lk = t.lPlanck ∨ lk = t.lRosseland → lk.dims = [(lk.grid 2).N, (lk.grid 1).N, (t.ngroups : ℤ)]
  nodes : ∀ lk, lk = t.lPlanck ∨ lk = t.lRosseland → ∀ k, k = 1 ∨ k = 2 → 2 ≤ (lk.grid k).N
  increasing : ∀ lk, lk = t.lPlanck ∨ lk = t.lRosseland → ∀ k, k = 1 ∨ k = 2 → (lk.grid k).min < (lk.grid k).max

/-- the value of node `i` of a grid: equidistant between `min` and `max` -/
noncomputable def node (g : Grid ℝ) (i : ℕ) : ℝ := g.min + i * ((g.max - g.min) / (g.N - 1))

/-- the coordinate in which densities and temperatures are tabulated -/
noncomputable def coordinate (x : ℝ) : ℝ := Real.logb 10 (|x| + Robust.SMALL)

theorem toLog_coordinate (x : ℝ) : ToLog x = coordinate x := by
  simp [ToLog, coordinate, areal, real_SMALL]

theorem dx_eq (g : Grid ℝ) : g.dx = (g.max - g.min) / (g.N - 1) := by simp [Grid.dx, areal]

theorem dx_pos (g : Grid ℝ) (hN : 2 ≤ g.N) (h : g.min < g.max) : 0 < g.dx := by
  have : (2 : ℝ) ≤ g.N := by exact_mod_cast hN
  rw [dx_eq]
  apply div_pos <;> linarith

theorem x_eq (g : Grid ℝ) (i : ℕ) : g.x i = node g i := by
  simp [Grid.x, node, dx_eq, areal]; ring

/-- interpolation along a grid, in any cell that contains the point -/
theorem lerp_eq (g : Grid ℝ) (hN : 2 ≤ g.N) (hlt : g.min < g.max) (i : ℕ) (hi : (i : ℤ) + 1 < g.N) (x : ℝ)
    (h0 : node g i ≤ x) (h1 : x ≤ node g (i + 1)) (f : ℤ → Outcome ℝ) (v : ℤ → ℝ)
    (hf : ∀ k : ℤ, 0 ≤ k → k < g.N → f k = ok (v k)) :
    ∃ s : ℝ, 0 ≤ s ∧ s ≤ 1 ∧ s = (x - node g i) / g.dx ∧
      DataBox.lerp g x f = ok ((1 - s) * v i + s * v (i + 1)) := by
  have hdx := dx_pos g hN hlt
  have e0 : node g i = g.min + i * g.dx := by rw [dx_eq]; rfl
  have e1 : node g (i + 1) = g.min + (i + 1) * g.dx := by rw [dx_eq]; unfold node; push_cast; ring
  have q0 : (i : ℝ) ≤ (x - g.min) / g.dx := by rw [le_div_iff₀ hdx]; linarith
  have q1 : (x - g.min) / g.dx ≤ (i : ℝ) + 1 := by rw [div_le_iff₀ hdx]; linarith
  have hs1 : (x - node g i) / g.dx ≤ 1 := by rw [div_le_iff₀ hdx, e0]; linarith
  refine ⟨(x - node g i) / g.dx, div_nonneg (by linarith) hdx.le, hs1, rfl, ?_⟩
  have hti : toInt ((x - g.min) / g.dx) = ⌊(x - g.min) / g.dx⌋ := by
    show (if 0 ≤ (x - g.min) / g.dx then _ else _) = _
    rw [if_pos (le_trans (by positivity) q0)]
  have hidx : g.index x = g.bound ⌊(x - g.min) / g.dx⌋ := by rw [index_real, hti]
  have hl : DataBox.lerp g x f = ok ((1 - g.w1 x) * v (g.index x) + g.w1 x * v (g.index x + 1)) := by
    have hr := Grid.index_range g x hN
    unfold DataBox.lerp
    rw [hf _ hr.1 (by omega), hf _ (by omega) (by omega)]
    simp [areal]
  rw [hl]
  have hw : g.w1 x = (x - (g.min + g.index x * g.dx)) / g.dx := by
    rw [w1_real]; ring
  rcases lt_or_eq_of_le q1 with hq | hq
  · have hfl : ⌊(x - g.min) / g.dx⌋ = (i : ℤ) := by
      rw [Int.floor_eq_iff]; exact ⟨by exact_mod_cast q0, by exact_mod_cast hq⟩
    have hix : g.index x = (i : ℤ) := by
      rw [hidx, hfl]
      simp only [Grid.bound]
      split_ifs <;> omega
    rw [hw, hix, e0]
    push_cast
    rfl
  · have hx : x = g.min + (i + 1) * g.dx := by
      rw [div_eq_iff hdx.ne'] at hq; linarith
    have hfl : ⌊(x - g.min) / g.dx⌋ = (i : ℤ) + 1 := by
      rw [hq, Int.floor_eq_iff]; push_cast; exact ⟨le_refl _, by linarith⟩
    have hs : (x - node g i) / g.dx = 1 := by
      rw [hx, e0, div_eq_one_iff_eq hdx.ne']; ring
    by_cases hlast : g.N - 1 ≤ (i : ℤ) + 1
    · have hix : g.index x = (i : ℤ) := by
        rw [hidx, hfl]
        simp only [Grid.bound]
        split_ifs <;> omega
      rw [hw, hix, e0]
      push_cast
      rfl
    · have hix : g.index x = (i : ℤ) + 1 := by
        rw [hidx, hfl]
        simp only [Grid.bound]
        split_ifs <;> omega
      have hw0 : g.w1 x = 0 := by
        rw [hw, hix, hx, div_eq_zero_iff]; left; push_cast; ring
      rw [hw0, hs, hix]
      ring_nf

variable {t : MGTables ℝ}

/-- the two group lookups: Planck and Rosseland -/
def Lookup (t : MGTables ℝ) (lk : DataBox ℝ) (q : ℝ → ℝ → ℤ → Outcome ℝ) : Prop :=
  (lk = t.lPlanck ∧ (q = t.PlanckGroupCoefficient ∨ q = fun rho T g => t.Coefficient rho T g gmodePlanck)) ∨
  (lk = t.lRosseland ∧ (q = t.RosselandGroupCoefficient ∨ q = fun rho T g => t.Coefficient rho T g gmodeRosseland))

theorem Lookup.eq {lk : DataBox ℝ} {q : ℝ → ℝ → ℤ → Outcome ℝ} (h : Lookup t lk q) (rho T : ℝ) (g : ℤ) :
    (lk = t.lPlanck ∨ lk = t.lRosseland) ∧ q rho T g = MGTables.GroupCoefficient_ lk rho T g := by
  rcases h with ⟨rfl, rfl | rfl⟩ | ⟨rfl, rfl | rfl⟩
  exacts [⟨.inl rfl, rfl⟩, ⟨.inl rfl, rfl⟩, ⟨.inr rfl, rfl⟩, ⟨.inr rfl, rfl⟩]

/-- lookup in any cell that contains the state -/
theorem lookup_cell (ht : OnGrids t) {lk : DataBox ℝ} (hlk : lk = t.lPlanck ∨ lk = t.lRosseland) {g : ℕ} (hg : g < t.ngroups)
    {i j : ℕ} (hi : (i : ℤ) + 1 < (lk.grid 2).N) (hj : (j : ℤ) + 1 < (lk.grid 1).N) {rho T : ℝ}
    (r0 : node (lk.grid 2) i ≤ coordinate rho) (r1 : coordinate rho ≤ node (lk.grid 2) (i + 1))
    (t0 : node (lk.grid 1) j ≤ coordinate T) (t1 : coordinate T ≤ node (lk.grid 1) (j + 1)) :
    ∃ (v : ℤ → ℤ → ℝ) (s u : ℝ), 0 ≤ s ∧ s ≤ 1 ∧ 0 ≤ u ∧ u ≤ 1 ∧
      s = (coordinate rho - node (lk.grid 2) i) / (lk.grid 2).dx ∧
      u = (coordinate T - node (lk.grid 1) j) / (lk.grid 1).dx ∧
      (∀ a b : ℤ, 0 ≤ a → a < (lk.grid 2).N → 0 ≤ b → b < (lk.grid 1).N → lk.read [a, b, g] = ok (v a b)) ∧
      MGTables.GroupCoefficient_ lk rho T g =
        ok (rho * FromLog ((1 - s) * ((1 - u) * v i j + u * v i (j + 1)) +
          s * ((1 - u) * v (i + 1) j + u * v (i + 1) (j + 1)))) := by
  have hread : ∀ a b : ℤ, ∃ x : ℝ, 0 ≤ a → a < (lk.grid 2).N → 0 ≤ b → b < (lk.grid 1).N →
      lk.read [a, b, g] = ok x := by
    intro a b
    by_cases hh : 0 ≤ a ∧ a < (lk.grid 2).N ∧ 0 ≤ b ∧ b < (lk.grid 1).N
    · obtain ⟨x, hx⟩ := read_ok lk [a, b, g] (by
        rw [ht.dims lk hlk]
        exact ⟨⟨hh.1, hh.2.1⟩, ⟨hh.2.2.1, hh.2.2.2⟩, ⟨by omega, by omega⟩, trivial⟩)
      exact ⟨x, fun _ _ _ _ => hx⟩
    · exact ⟨0, fun h1 h2 h3 h4 => absurd ⟨h1, h2, h3, h4⟩ hh⟩
  choose v hv using hread
  have n2 := ht.nodes lk hlk 2 (.inr rfl)
  have n1 := ht.nodes lk hlk 1 (.inl rfl)
  have i2 := ht.increasing lk hlk 2 (.inr rfl)
  have i1 := ht.increasing lk hlk 1 (.inl rfl)
  have hin : ∀ a : ℤ, 0 ≤ a → a < (lk.grid 2).N →
      DataBox.lerp (lk.grid 1) (coordinate T) (fun b => lk.read [a, b, g]) =
        ok ((1 - (coordinate T - node (lk.grid 1) j) / (lk.grid 1).dx) * v a j +
          (coordinate T - node (lk.grid 1) j) / (lk.grid 1).dx * v a (j + 1)) := by
    intro a a0 a1
    obtain ⟨u, -, -, hu, e⟩ := lerp_eq (lk.grid 1) n1 i1 j hj (coordinate T) t0 t1 (fun b => lk.read [a, b, g]) (v a)
      (fun b b0 b1 => hv a b a0 a1 b0 b1)
    rw [e, hu]
  obtain ⟨s, s0, s1, hs, e⟩ := lerp_eq (lk.grid 2) n2 i2 i hi (coordinate rho) r0 r1 _ _ hin
  obtain ⟨u, u0, u1, hu, -⟩ := lerp_eq (lk.grid 1) n1 i1 j hj (coordinate T) t0 t1 (fun b => lk.read [i, b, g]) (v i)
      (fun b b0 b1 => hv i b (by omega) (by omega) b0 b1)
  refine ⟨v, s, u, s0, s1, u0, u1, hs, hu, hv, ?_⟩
  unfold MGTables.GroupCoefficient_ DataBox.interp3
  rw [toLog_coordinate, toLog_coordinate, e, hu]
  rfl

theorem fromLog_pos (l : ℝ) : 0 < FromLog l := by
  simp only [FromLog, areal]; positivity

theorem fromLog_mono {a b : ℝ} (h : a ≤ b) : FromLog a ≤ FromLog b := by
  simp only [FromLog, areal]; push_cast
  exact Real.rpow_le_rpow_of_exponent_le (by norm_num) h

theorem tabulated_of_read {lk : DataBox ℝ} {is : List ℤ} {l : ℝ} (h : lk.read is = ok l) :
    Tabulated lk is (FromLog l) := by unfold Tabulated; rw [h]; rfl

theorem tabulated_unique {lk : DataBox ℝ} {is : List ℤ} {x y : ℝ} (h : Tabulated lk is x) (h' : Tabulated lk is y) :
    x = y := by unfold Tabulated at *; rw [h] at h'; injection h'

/-- **C11 (nodes)**: at a density and temperature that are nodes of the table, the returned coefficient is the density
times the opacity stored at that node -/
theorem C11_nodes (ht : OnGrids t) {lk : DataBox ℝ} {q : ℝ → ℝ → ℤ → Outcome ℝ} (hq : Lookup t lk q) {g : ℕ}
    (hg : g < t.ngroups) {i j : ℕ} (hi : (i : ℤ) < (lk.grid 2).N) (hj : (j : ℤ) < (lk.grid 1).N) {rho T : ℝ}
    (hr : coordinate rho = node (lk.grid 2) i) (hT : coordinate T = node (lk.grid 1) j) :
    ∃ k, Tabulated lk [i, j, g] k ∧ q rho T g = ok (rho * k) := by
  obtain ⟨hlk, hq'⟩ := hq.eq rho T g
  rw [hq']
  have n2 := ht.nodes lk hlk 2 (.inr rfl)
  have n1 := ht.nodes lk hlk 1 (.inl rfl)
  have d2 := dx_pos _ n2 (ht.increasing lk hlk 2 (.inr rfl))
  have d1 := dx_pos _ n1 (ht.increasing lk hlk 1 (.inl rfl))
  -- a cell with the node as a corner
  have cell : ∀ (G : Grid ℝ) (k : ℕ), 2 ≤ G.N → 0 < G.dx → (k : ℤ) < G.N →
      ∃ (k' : ℕ) (δ : ℕ), (δ = 0 ∨ δ = 1) ∧ k = k' + δ ∧ (k' : ℤ) + 1 < G.N ∧ node G k' ≤ node G k ∧
        node G k ≤ node G (k' + 1) ∧ (node G k - node G k') / G.dx = δ := by
    intro G k hN hdx hk
    have st : ∀ m : ℕ, node G (m + 1) = node G m + G.dx := by
      intro m; rw [dx_eq]; unfold node; push_cast; ring
    by_cases h : (k : ℤ) + 1 < G.N
    · refine ⟨k, 0, .inl rfl, rfl, h, le_refl _, by rw [st]; linarith, by simp⟩
    · obtain ⟨m, rfl⟩ : ∃ m, k = m + 1 := ⟨k - 1, by omega⟩
      refine ⟨m, 1, .inr rfl, rfl, by push_cast at hk; omega, by rw [st]; linarith, le_refl _, ?_⟩
      rw [st]; field_simp; simp
  obtain ⟨i', δ, hδ, rfl, hi', a0, a1, as⟩ := cell _ i n2 d2 hi
  obtain ⟨j', ε, hε, rfl, hj', b0, b1, bs⟩ := cell _ j n1 d1 hj
  obtain ⟨v, s, u, -, -, -, -, hs, hu, hv, e⟩ := lookup_cell ht hlk hg hi' hj' (rho := rho) (T := T)
    (by rw [hr]; exact a0) (by rw [hr]; exact a1) (by rw [hT]; exact b0) (by rw [hT]; exact b1)
  rw [hr, as] at hs
  rw [hT, bs] at hu
  refine ⟨_, tabulated_of_read (hv _ _ (by omega) hi (by omega) hj), ?_⟩
  rw [e, hs, hu]
  rcases hδ with rfl | rfl <;> rcases hε with rfl | rfl <;> simp

/-- **C11 (between nodes)**: for a state in the cell of the nodes `i, i+1` and `j, j+1`, the returned coefficient is the
density times an opacity between the smallest and the largest stored at the four corners of the cell -/
theorem C11_between (ht : OnGrids t) {lk : DataBox ℝ} {q : ℝ → ℝ → ℤ → Outcome ℝ} (hq : Lookup t lk q) {g : ℕ}
    (hg : g < t.ngroups) {i j : ℕ} (hi : (i : ℤ) + 1 < (lk.grid 2).N) (hj : (j : ℤ) + 1 < (lk.grid 1).N) {rho T : ℝ}
    (r0 : node (lk.grid 2) i ≤ coordinate rho) (r1 : coordinate rho ≤ node (lk.grid 2) (i + 1))
    (t0 : node (lk.grid 1) j ≤ coordinate T) (t1 : coordinate T ≤ node (lk.grid 1) (j + 1)) :
    ∃ k k00 k01 k10 k11, q rho T g = ok (rho * k) ∧
      Tabulated lk [i, j, g] k00 ∧ Tabulated lk [i, j + 1, g] k01 ∧
      Tabulated lk [i + 1, j, g] k10 ∧ Tabulated lk [i + 1, j + 1, g] k11 ∧
      min (min k00 k01) (min k10 k11) ≤ k ∧ k ≤ max (max k00 k01) (max k10 k11) := by
  obtain ⟨hlk, hq'⟩ := hq.eq rho T g
  obtain ⟨v, s, u, s0, s1, u0, u1, -, -, hv, e⟩ := lookup_cell ht hlk hg hi hj r0 r1 t0 t1
  rw [hq', e]
  refine ⟨_, _, _, _, _, rfl, tabulated_of_read (hv i j (by omega) (by omega) (by omega) (by omega)),
    tabulated_of_read (hv i (j + 1) (by omega) (by omega) (by omega) (by omega)),
    tabulated_of_read (hv (i + 1) j (by omega) (by omega) (by omega) (by omega)),
    tabulated_of_read (hv (i + 1) (j + 1) (by omega) (by omega) (by omega) (by omega)), ?_, ?_⟩
  · have hmono : Monotone (FromLog : ℝ → ℝ) := fun _ _ h => fromLog_mono h
    rw [← hmono.map_min, ← hmono.map_min, ← hmono.map_min]
    apply fromLog_mono
    set m := min (min (v i j) (v i (j + 1))) (min (v (i + 1) j) (v (i + 1) (j + 1)))
    have m1 : m ≤ v i j := (min_le_left _ _).trans (min_le_left _ _)
    have m2 : m ≤ v i (j + 1) := (min_le_left _ _).trans (min_le_right _ _)
    have m3 : m ≤ v (i + 1) j := (min_le_right _ _).trans (min_le_left _ _)
    have m4 : m ≤ v (i + 1) (j + 1) := (min_le_right _ _).trans (min_le_right _ _)
    have c1 : m ≤ (1 - u) * v i j + u * v i (j + 1) := by nlinarith
    have c2 : m ≤ (1 - u) * v (i + 1) j + u * v (i + 1) (j + 1) := by nlinarith
    nlinarith
  · have hmono : Monotone (FromLog : ℝ → ℝ) := fun _ _ h => fromLog_mono h
    rw [← hmono.map_max, ← hmono.map_max, ← hmono.map_max]
    apply fromLog_mono
    set m := max (max (v i j) (v i (j + 1))) (max (v (i + 1) j) (v (i + 1) (j + 1)))
    have m1 : v i j ≤ m := (le_max_left _ _).trans (le_max_left _ _)
    have m2 : v i (j + 1) ≤ m := (le_max_right _ _).trans (le_max_left _ _)
    have m3 : v (i + 1) j ≤ m := (le_max_left _ _).trans (le_max_right _ _)
    have m4 : v (i + 1) (j + 1) ≤ m := (le_max_right _ _).trans (le_max_right _ _)
    have c1 : (1 - u) * v i j + u * v i (j + 1) ≤ m := by nlinarith
    have c2 : (1 - u) * v (i + 1) j + u * v (i + 1) (j + 1) ≤ m := by nlinarith
    nlinarith

/-- **C11 (positive)**: inside and outside the table, coefficients are positive for positive density -/
theorem C11_positive (ht : OnGrids t) {lk : DataBox ℝ} {q : ℝ → ℝ → ℤ → Outcome ℝ} (hq : Lookup t lk q) {g : ℕ}
    (hg : g < t.ngroups) {rho : ℝ} (hrho : 0 < rho) (T : ℝ) : ∃ a, q rho T g = ok a ∧ 0 < a := by
  obtain ⟨hlk, hq'⟩ := hq.eq rho T g
  obtain ⟨l, hl⟩ := interp3_ok lk _ _ _ (ht.dims lk hlk) rfl rfl (ht.nodes lk hlk 2 (.inr rfl))
    (ht.nodes lk hlk 1 (.inl rfl)) (ToLog rho) (ToLog T) (g : ℤ) ⟨by omega, by omega⟩
  refine ⟨rho * FromLog l, ?_, mul_pos hrho (fromLog_pos l)⟩
  rw [hq', MGTables.GroupCoefficient_, hl]
  rfl

/-- **C11 (constructed tables)**: the hypothesis of the theorems above holds for every table computed from an opacity on
grids with at least two nodes, and is preserved by saving and loading -/
theorem C11_constructed {pc : PC ℝ} {junk : ℕ → ℝ} {coef : ℝ → ℝ → ℝ → ℝ} {lRhoMin lRhoMax : ℝ} {NRho : ℤ}
    {lTMin lTMax : ℝ} {NT : ℤ} {b : List ℝ} {n NNu : ℤ}
    (h : MGTables.Impl_ pc junk coef lRhoMin lRhoMax NRho lTMin lTMax NT b n NNu = ok t) (h1 : 2 ≤ NRho) (h2 : 2 ≤ NT)
    (h3 : lRhoMin < lRhoMax) (h4 : lTMin < lTMax) :
    OnGrids t ∧ ∀ lk, lk = t.lPlanck ∨ lk = t.lRosseland → lk.grid 2 = ⟨lRhoMin, lRhoMax, NRho⟩ ∧
      lk.grid 1 = ⟨lTMin, lTMax, NT⟩ := by
  have hf := Impl_filled (lit 0) h
  have hn := (Impl_ok h).2.2.2
  have hg : ∀ lk, lk = t.lPlanck ∨ lk = t.lRosseland → lk.grid 2 = ⟨lRhoMin, lRhoMax, NRho⟩ ∧
      lk.grid 1 = ⟨lTMin, lTMax, NT⟩ := by
    rintro lk (rfl | rfl)
    · rw [hf.grid1]; exact ⟨rfl, rfl⟩
    · rw [hf.grid2]; exact ⟨rfl, rfl⟩
  refine ⟨⟨?_, ?_, ?_⟩, hg⟩
  · rintro lk hlk
    rw [(hg lk hlk).1, (hg lk hlk).2]
    rcases hlk with rfl | rfl
    · rw [hf.dims1, hn]
    · rw [hf.dims2, hn]
  · rintro lk hlk k (rfl | rfl)
    · rw [(hg lk hlk).2]; exact h2
    · rw [(hg lk hlk).1]; exact h1
  · rintro lk hlk k (rfl | rfl)
    · rw [(hg lk hlk).2]; exact h4
    · rw [(hg lk hlk).1]; exact h3

theorem C11_reloaded {nm : MGTables.Names} (hnm : FileNames nm) {t' : MGTables ℝ} {b : List ℝ}
    (hb : BuiltFrom t b) (hr : SameRanges t) {n : ℕ} (h : Cycles nm t n t') (ht : OnGrids t) : OnGrids t' := by
  obtain ⟨e1, -, ⟨e3, e4⟩, ⟨e5, e6⟩, -, -⟩ := C12_cycles_any hnm hb hr h
  refine ⟨?_, ?_, ?_⟩
  · rintro lk (rfl | rfl)
    · rw [e3, e4, e1]; exact ht.dims _ (.inl rfl)
    · rw [e5, e6, e1]; exact ht.dims _ (.inr rfl)
  · rintro lk (rfl | rfl)
    · rw [e4]; exact ht.nodes _ (.inl rfl)
    · rw [e6]; exact ht.nodes _ (.inr rfl)
  · rintro lk (rfl | rfl)
    · rw [e4]; exact ht.increasing _ (.inl rfl)
    · rw [e6]; exact ht.increasing _ (.inr rfl)

theorem SMALL_lt_one : (Robust.SMALL : ℝ) < 1 := by
  rw [real_SMALL]
  have h : (2 : ℝ) ^ (-1022 : ℤ) ≤ (2 : ℝ) ^ (-4 : ℤ) := zpow_le_zpow_right₀ (by norm_num) (by norm_num)
  norm_num at h ⊢
  linarith

/-- a table computed from a gray opacity, and a density and temperature on its first and on its last node -/
example (pc : PC ℝ) : ∃ (t : MGTables ℝ) (rho T : ℝ), OnGrids t ∧ 0 < t.ngroups ∧ 0 < rho ∧ 0 < T ∧
    coordinate rho = node (t.lPlanck.grid 2) 0 ∧ coordinate T = node (t.lPlanck.grid 1) 2 := by
  have hb : AcceptableBounds [(1 : ℝ), 2] 1 := by
    refine ⟨le_refl _, by simp, fun _ _ _ _ => rfl, ?_, ?_, fun _ _ _ _ => rfl⟩
    · intro x hx
      simp at hx
      subst hx
      simp [areal]
    · intro i x y hi hx hy
      have : i = 0 := by omega
      subst this
      simp at hx hy
      subst hx hy
      simp [areal]
  obtain ⟨t, ht⟩ := Impl_returns (pc := pc) (coef := fun rho _ _ => rho) (junk := fun _ => 0) (lRhoMin := 0)
    (lRhoMax := 1) (NRho := 2) (lTMin := 0) (lTMax := 1) (NT := 3) (NNu := 2) (dflt := 0) (by norm_num) hb
    (fun _ _ _ _ _ _ => ⟨rfl, rfl⟩)
  obtain ⟨h1, h2⟩ := C11_constructed ht (by norm_num) (by norm_num) (by norm_num) (by norm_num)
  have h2 := h2 _ (.inl rfl)
  have hs := SMALL_lt_one
  have hn := (Impl_ok ht).2.2.2
  refine ⟨t, 1 - Robust.SMALL, 10 - Robust.SMALL, h1, by rw [hn]; decide, by linarith, by linarith, ?_, ?_⟩
  · rw [h2.1, coordinate, abs_of_pos (by linarith)]
    simp [node]
  · rw [h2.2, coordinate, abs_of_pos (by linarith)]
    norm_num [node]

end Opac.Photons
