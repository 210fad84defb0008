import Verif.Lemmas.InterpError
import Verif.Props.MeansApi
import Verif.Props.TableKirchhoff

/-!
# C89: tabulated neutrino opacities are close to the source between the nodes, too

Over the reals.  A table is filled from a source whose quantity changes at most by given powers of density, temperature and
frequency, and at most by a given number of decades per unit of the electron fraction.  A state inside the table lies in
a cell, at most half a node distance from the nearer corner along each axis; the answer is within the change over half a
node distance per axis of the source's value at that state.
-/

namespace Opac.Tables
open Arith Outcome Spec Spiner Photons Neutrinos
open SpinerOpacity (tiny tiny_pos kelvinPerMeV hzPerMeV FilledFrom Tabulated Ranges sampledFrom)

/-! ## Specification -/

/-- the states inside a table on the ranges `r` -/
structure Covered (r : Ranges) (pc : PC ℝ) (x : State) : Prop where
  rho : x.rho ∈ Set.Icc ((10 : ℝ) ^ r.lRhoMin) (10 ^ r.lRhoMax)
  T : x.T ∈ Set.Icc ((10 : ℝ) ^ r.lTMin) (10 ^ r.lTMax)
  Ye : x.Ye ∈ Set.Icc r.YeMin r.YeMax
  nu : x.nu ∈ Set.Icc (hzPerMeV pc * 10 ^ r.leMin) (hzPerMeV pc * 10 ^ r.leMax)

/-- between any two states inside the table, `M` changes at most by the powers `σ` of the density, `τ` of the temperature and `θ`
of the frequency, and by `η` decades per unit of the electron fraction -/
def ChangesAtMost (σ τ η θ : ℝ) (r : Ranges) (pc : PC ℝ) (M : State → ℝ) : Prop :=
  ∀ x y, Covered r pc x → Covered r pc y →
    M x ≤ 10 ^ (σ * |Real.logb 10 x.rho - Real.logb 10 y.rho| + τ * |Real.logb 10 x.T - Real.logb 10 y.T| +
      η * |x.Ye - y.Ye| + θ * |Real.logb 10 x.nu - Real.logb 10 y.nu|) * M y

/-- a state with the floors that tables add to density, temperature and frequency -/
noncomputable def floored (pc : PC ℝ) (p : State) : State :=
  ⟨p.rho + tiny, p.T + tiny * kelvinPerMeV, p.Ye, p.nu + tiny * hzPerMeV pc⟩

/-- the caller asks for the state `p`; with its floors it is inside the table -/
structure Asked (r : Ranges) (pc : PC ℝ) (p : State) : Prop where
  rho : 0 ≤ p.rho
  T : 0 ≤ p.T
  nu : 0 ≤ p.nu
  covered : Covered r pc (floored pc p)

/-- decades by which such a quantity changes over half a node distance along every axis -/
noncomputable def factorExponent (σ τ η θ : ℝ) (r : Ranges) : ℝ :=
  (σ * ((r.lRhoMax - r.lRhoMin) / (r.NRho - 1)) + τ * ((r.lTMax - r.lTMin) / (r.NT - 1)) +
    η * ((r.YeMax - r.YeMin) / (r.NYe - 1)) + θ * ((r.leMax - r.leMin) / (r.Ne - 1))) / 2

/-! ## Helpers -/

theorem inCell_of_inside : ∀ {gs : List (Grid ℝ)} {xs : List ℝ}, (∀ g ∈ gs, Proper g) → InsideGrids gs xs →
    ∃ cs, InCell gs cs xs
  | [], [], _, _ => ⟨[], trivial⟩
  | g :: gs, x :: xs, hg, h => by
    unfold InsideGrids at h
    rw [List.forall₂_cons] at h
    have hp := hg g (by simp)
    obtain ⟨c, hc⟩ := cell_exists g hp.1 hp.2 h.1.1 h.1.2
    obtain ⟨cs, hcs⟩ := inCell_of_inside (fun g' h' => hg g' (by simp [h'])) h.2
    exact ⟨c :: cs, hc, hcs⟩
  | [], _ :: _, _, h => by cases h
  | _ :: _, [], _, h => by cases h

/-- every function that answers from a table -/
theorem near {q : Query} (h : FromTable q) {p : State} (hin : InsideGrids q.axes (q.at p)) {Ps : List ℝ}
    (hl : Ps.length = q.axes.length) (hP : ∀ P ∈ Ps, 0 ≤ P) {V E : ℝ} (hV : 0 < V)
    (hn : ∀ is e, Indexes q.axes is → q.Entry is e → |Real.logb 10 e - Real.logb 10 V| ≤ E + travel Ps q.axes is (q.at p)) :
    ∃ k, q.answer p = ok (q.factor p * k) ∧ 10 ^ (-(E + halfSteps Ps q.axes)) * V ≤ k ∧ k ≤ 10 ^ (E + halfSteps Ps q.axes) * V := by
  obtain ⟨v, hv, he⟩ := h.good.closed
  obtain ⟨cs, hc⟩ := inCell_of_inside h.good.proper hin
  have := mlin_near h.good.proper hl hP hc (v := v) (a := Real.logb 10 V) (E := E) fun is his => by
    have hi := corner_indexes _ _ _ _ hc his
    have := hn is _ hi ⟨_, hv is hi, rfl⟩
    rwa [Real.logb_rpow (by norm_num) (by norm_num)] at this
  rw [abs_le] at this
  refine ⟨_, he p, ?_, ?_⟩
  · calc _ = (10 : ℝ) ^ (-(E + halfSteps Ps q.axes) + Real.logb 10 V) := by
          rw [Real.rpow_add (by norm_num), Real.rpow_logb (by norm_num) (by norm_num) hV]
      _ ≤ _ := Real.rpow_le_rpow_of_exponent_le (by norm_num) (by linarith [this.1])
  · calc _ ≤ (10 : ℝ) ^ (E + halfSteps Ps q.axes + Real.logb 10 V) :=
          Real.rpow_le_rpow_of_exponent_le (by norm_num) (by linarith [this.2])
      _ = _ := by rw [Real.rpow_add (by norm_num), Real.rpow_logb (by norm_num) (by norm_num) hV]

section
variable {d : FermiDirac ℝ} {pc : PC ℝ} {r : Ranges} {o : SpinerOpacity ℝ} {O : Type} [inst : NeutrinoAPI ℝ O] {src : O}

theorem logb_nu (hpc : 0 < hzPerMeV pc) {x : ℝ} (hx : 0 < x) : Real.logb 10 (hzPerMeV pc * x) = Real.logb 10 (hzPerMeV pc) + Real.logb 10 x :=
  Real.logb_mul hpc.ne' hx.ne'

/-- coordinates of a state the caller asks for -/
theorem asked_coords (hpc : 0 < hzPerMeV pc) {p : State} (h : Asked r pc p) :
    tableCoord p.rho = Real.logb 10 (floored pc p).rho ∧
    tableCoord (p.T / kelvinPerMeV) = Real.logb 10 (floored pc p).T - Real.logb 10 kelvinPerMeV ∧
    tableCoord (p.nu / hzPerMeV pc) = Real.logb 10 (floored pc p).nu - Real.logb 10 (hzPerMeV pc) := by
  have hS := tiny_pos
  have hK := SpinerOpacity.kelvin_pos
  have h1 := h.rho
  have h2 := h.T
  have h3 := h.nu
  unfold tableCoord floored
  refine ⟨by rw [max_eq_left h1], ?_, ?_⟩
  · rw [max_eq_left (by positivity), ← Real.logb_div (by positivity) hK.ne']
    congr 1
    field_simp
  · rw [max_eq_left (by positivity), ← Real.logb_div (by positivity) hpc.ne']
    congr 1
    field_simp

theorem logb_mem {a b x : ℝ} (h : x ∈ Set.Icc ((10 : ℝ) ^ a) (10 ^ b)) : a ≤ Real.logb 10 x ∧ Real.logb 10 x ≤ b := by
  have hx : 0 < x := lt_of_lt_of_le (by positivity) h.1
  exact ⟨(Real.le_logb_iff_rpow_le (by norm_num) hx).2 h.1, (Real.logb_le_iff_le_rpow (by norm_num) hx).2 h.2⟩

theorem asked_inside (hpc : 0 < hzPerMeV pc) {p : State} (h : Asked r pc p) : InsideGrids (spectralAxes r) (spectralCoords pc p) := by
  obtain ⟨e1, e2, e3⟩ := asked_coords hpc h
  have c := h.covered
  have r1 := logb_mem c.rho
  have r2 := logb_mem c.T
  have r3 : r.leMin ≤ Real.logb 10 (floored pc p).nu - Real.logb 10 (hzPerMeV pc) ∧
      Real.logb 10 (floored pc p).nu - Real.logb 10 (hzPerMeV pc) ≤ r.leMax := by
    have hx : 0 < (floored pc p).nu := lt_of_lt_of_le (by positivity) c.nu.1
    rw [← Real.logb_div hx.ne' hpc.ne']
    refine logb_mem ⟨?_, ?_⟩
    · rw [le_div_iff₀ hpc, mul_comm]; exact c.nu.1
    · rw [div_le_iff₀ hpc, mul_comm]; exact c.nu.2
  unfold spectralAxes spectralCoords InsideGrids
  rw [e1, e2, e3]
  refine .cons r1 (.cons ⟨?_, ?_⟩ (.cons c.Ye (.cons r3 .nil)))
  · show _ - _ ≤ _; linarith [r2.1]
  · show _ ≤ _ - _; linarith [r2.2]

theorem equi_mem {lo hi : ℝ} {n : ℤ} (hn : 2 ≤ n) (h : lo < hi) {i : ℕ} (hi' : (i : ℤ) < n) :
    SpinerOpacity.equi lo hi n i ∈ Set.Icc lo hi := by
  have h2 : (0 : ℝ) < (n : ℝ) - 1 := by
    have : (2 : ℝ) ≤ n := by exact_mod_cast hn
    linarith
  have h3 : (i : ℝ) ≤ n - 1 := by
    have : (i : ℤ) + 1 ≤ n := hi'
    have : (i : ℝ) + 1 ≤ n := by exact_mod_cast this
    linarith
  have hd : 0 < (hi - lo) / ((n : ℝ) - 1) := div_pos (by linarith) h2
  have he : ((n : ℝ) - 1) * ((hi - lo) / (n - 1)) = hi - lo := by field_simp
  unfold SpinerOpacity.equi
  constructor
  · have : 0 ≤ (i : ℝ) * ((hi - lo) / (n - 1)) := by positivity
    linarith
  · have := mul_le_mul_of_nonneg_right h3 hd.le
    linarith

/-- the state of a node -/
noncomputable def nodeState (r : Ranges) (pc : PC ℝ) (i j k m : ℕ) : State := ⟨r.rhoNode i, r.TNode j, r.YeNode k, r.nuNode pc m⟩

theorem node_covered (hr : r.Proper) (hpc : 0 < hzPerMeV pc) {i j k m : ℕ} (hi : (i : ℤ) < r.NRho) (hj : (j : ℤ) < r.NT) (hk : (k : ℤ) < r.NYe)
    (hm : (m : ℤ) < r.Ne) : Covered r pc (nodeState r pc i j k m) := by
  have a1 := equi_mem hr.rho.1 hr.rho.2 hi
  have a2 := equi_mem hr.T.1 hr.T.2 hj
  have a4 := equi_mem hr.e.1 hr.e.2 hm
  have up : ∀ {a b : ℝ}, a ≤ b → (10 : ℝ) ^ a ≤ 10 ^ b := fun h => Real.rpow_le_rpow_of_exponent_le (by norm_num) h
  exact ⟨⟨up a1.1, up a1.2⟩, ⟨up a2.1, up a2.2⟩, equi_mem hr.Ye.1 hr.Ye.2 hk,
    mul_le_mul_of_nonneg_left (up a4.1) hpc.le, mul_le_mul_of_nonneg_left (up a4.2) hpc.le⟩

theorem logb_nodes (hpc : 0 < hzPerMeV pc) (i j m : ℕ) : Real.logb 10 (r.rhoNode i) = SpinerOpacity.equi r.lRhoMin r.lRhoMax r.NRho i ∧
    Real.logb 10 (r.TNode j) = SpinerOpacity.equi r.lTMin r.lTMax r.NT j ∧
    Real.logb 10 (r.nuNode pc m) = Real.logb 10 (hzPerMeV pc) + SpinerOpacity.equi r.leMin r.leMax r.Ne m := by
  unfold SpinerOpacity.Ranges.rhoNode SpinerOpacity.Ranges.TNode SpinerOpacity.Ranges.nuNode
  rw [logb_nu hpc (by positivity)]
  simp only [Real.logb_rpow (show (0 : ℝ) < 10 by norm_num) (show (10 : ℝ) ≠ 1 by norm_num)]
  simp

/-- adding a floor does not make a quantity change faster -/
theorem ChangesAtMost.add_tiny {σ τ η θ : ℝ} (hσ : 0 ≤ σ) (hτ : 0 ≤ τ) (hη : 0 ≤ η) (hθ : 0 ≤ θ) {M : State → ℝ}
    (h : ChangesAtMost σ τ η θ r pc M) : ChangesAtMost σ τ η θ r pc fun x => M x + tiny := by
  intro x y hx hy
  have h1 := h x y hx hy
  have h2 : (1 : ℝ) ≤ 10 ^ (σ * |Real.logb 10 x.rho - Real.logb 10 y.rho| + τ * |Real.logb 10 x.T - Real.logb 10 y.T| +
      η * |x.Ye - y.Ye| + θ * |Real.logb 10 x.nu - Real.logb 10 y.nu|) := Real.one_le_rpow (by norm_num) (by positivity)
  have hS := tiny_pos
  show M x + tiny ≤ _ * (M y + tiny)
  nlinarith

theorem ChangesAtMost.logs {σ τ η θ : ℝ} {M : State → ℝ} (h : ChangesAtMost σ τ η θ r pc M) {x y : State} (hx : Covered r pc x)
    (hy : Covered r pc y) (px : 0 < M x) (py : 0 < M y) :
    |Real.logb 10 (M x) - Real.logb 10 (M y)| ≤ σ * |Real.logb 10 x.rho - Real.logb 10 y.rho| + τ * |Real.logb 10 x.T - Real.logb 10 y.T| +
      η * |x.Ye - y.Ye| + θ * |Real.logb 10 x.nu - Real.logb 10 y.nu| := by
  have h1 := h x y hx hy
  have h2 := h y x hy hx
  rw [abs_sub_comm y.Ye, abs_sub_comm (Real.logb 10 y.rho), abs_sub_comm (Real.logb 10 y.T), abs_sub_comm (Real.logb 10 y.nu)] at h2
  generalize σ * |Real.logb 10 x.rho - Real.logb 10 y.rho| + τ * |Real.logb 10 x.T - Real.logb 10 y.T| +
      η * |x.Ye - y.Ye| + θ * |Real.logb 10 x.nu - Real.logb 10 y.nu| = D at *
  have g1 := Real.logb_le_logb_of_le (b := 10) (by norm_num) px h1
  have g2 := Real.logb_le_logb_of_le (b := 10) (by norm_num) py h2
  rw [Real.logb_mul (by positivity) (by positivity), Real.logb_rpow (by norm_num) (by norm_num)] at g1 g2
  rw [abs_le]
  constructor <;> linarith

theorem pow_toLog {x : ℝ} (hx : 0 ≤ x) : (10 : ℝ) ^ SpinerOpacity.toLog_ (stdMax x (lit 0.0)) = x + tiny := by
  rw [← SpinerOpacity.fromLog_eq, SpinerOpacity.fromLog_toLog, max_eq_left hx]

/-- how far a node is from the state asked for -/
theorem node_travel (hpc : 0 < hzPerMeV pc) {p : State} (hp : Asked r pc p) (σ τ η θ : ℝ) (i j k m : ℕ) :
    σ * |Real.logb 10 (nodeState r pc i j k m).rho - Real.logb 10 (floored pc p).rho| +
      τ * |Real.logb 10 (nodeState r pc i j k m).T - Real.logb 10 (floored pc p).T| +
      η * |(nodeState r pc i j k m).Ye - (floored pc p).Ye| + θ * |Real.logb 10 (nodeState r pc i j k m).nu - Real.logb 10 (floored pc p).nu| =
      0 + travel [σ, τ, η, θ] (spectralAxes r) [(i : ℤ), j, k, m] (spectralCoords pc p) := by
  obtain ⟨e1, e2, e3⟩ := asked_coords hpc hp
  obtain ⟨f1, f2, f3⟩ := logb_nodes (r := r) hpc i j m
  unfold spectralAxes spectralCoords nodeState
  have sh : SpinerOpacity.equi (r.lTMin - Real.logb 10 kelvinPerMeV) (r.lTMax - Real.logb 10 kelvinPerMeV) r.NT j =
      SpinerOpacity.equi r.lTMin r.lTMax r.NT j - Real.logb 10 kelvinPerMeV := by
    rw [sub_eq_add_neg, sub_eq_add_neg, SpinerOpacity.equi_shift, sub_eq_add_neg]
  have ey : (floored pc p).Ye = p.Ye := rfl
  simp only [travel, Int.toNat_natCast, SpinerOpacity.node_equi, e1, e2, e3, f1, f2, f3, sh, ey]
  rw [abs_sub_comm (SpinerOpacity.equi r.lRhoMin r.lRhoMax r.NRho i), abs_sub_comm (SpinerOpacity.equi r.lTMin r.lTMax r.NT j),
    abs_sub_comm (r.YeNode k), abs_sub_comm (Real.logb 10 (hzPerMeV pc) + SpinerOpacity.equi r.leMin r.leMax r.Ne m)]
  have a1 : Real.logb 10 (floored pc p).T - Real.logb 10 kelvinPerMeV - (SpinerOpacity.equi r.lTMin r.lTMax r.NT j - Real.logb 10 kelvinPerMeV) =
      Real.logb 10 (floored pc p).T - SpinerOpacity.equi r.lTMin r.lTMax r.NT j := by ring
  have a2 : Real.logb 10 (floored pc p).nu - (Real.logb 10 (hzPerMeV pc) + SpinerOpacity.equi r.leMin r.leMax r.Ne m) =
      Real.logb 10 (floored pc p).nu - Real.logb 10 (hzPerMeV pc) - SpinerOpacity.equi r.leMin r.leMax r.Ne m := by ring
  rw [a1, a2]
  unfold SpinerOpacity.Ranges.YeNode
  ring

/-- the change of a quantity from a node to the state asked for -/
theorem node_change (hr : r.Proper) (hpc : 0 < hzPerMeV pc) {M : State → ℝ} (hM0 : ∀ x, Covered r pc x → 0 ≤ M x) {σ τ η θ : ℝ}
    (hσ : 0 ≤ σ) (hτ : 0 ≤ τ) (hη : 0 ≤ η) (hθ : 0 ≤ θ) (hM : ChangesAtMost σ τ η θ r pc M) {p : State} (hp : Asked r pc p)
    {i j k m : ℕ} (hi : (i : ℤ) < r.NRho) (hj : (j : ℤ) < r.NT) (hk : (k : ℤ) < r.NYe) (hm : (m : ℤ) < r.Ne) :
    |Real.logb 10 (M (nodeState r pc i j k m) + tiny) - Real.logb 10 (M (floored pc p) + tiny)| ≤
      0 + travel [σ, τ, η, θ] (spectralAxes r) [(i : ℤ), j, k, m] (spectralCoords pc p) := by
  have hS := tiny_pos
  have cx := node_covered (pc := pc) hr hpc hi hj hk hm
  have := (hM.add_tiny hσ hτ hη hθ).logs cx hp.covered (by have := hM0 _ cx; linarith) (by have := hM0 _ hp.covered; linarith)
  exact this.trans (le_of_eq (node_travel hpc hp _ _ _ _ _ _ _ _))

/-- steps of the axes -/
theorem halfSteps_eq (σ τ η θ : ℝ) : halfSteps [σ, τ, η, θ] (spectralAxes r) = factorExponent σ τ η θ r := by
  simp only [halfSteps, spectralAxes, factorExponent]
  ring

theorem tabulated_index {s : RadiationType} (hs : Tabulated s) : ∃ n, SpeciesIndex s n := by
  rcases hs with rfl | rfl | rfl
  exacts [⟨_, .e⟩, ⟨_, .ebar⟩, ⟨_, .x⟩]

/-- index tuples of the axes -/
theorem indexes_four {is : List ℤ} (h : Indexes (spectralAxes r) is) : ∃ i j k m : ℕ, is = [(i : ℤ), j, k, m] ∧ (i : ℤ) < r.NRho ∧
    (j : ℤ) < r.NT ∧ (k : ℤ) < r.NYe ∧ (m : ℤ) < r.Ne := by
  unfold spectralAxes at h
  rcases is with _ | ⟨i, _ | ⟨j, _ | ⟨k, _ | ⟨m, _ | ⟨_, is⟩⟩⟩⟩⟩ <;> simp only [Indexes, and_false] at h
  obtain ⟨⟨i0, i1⟩, ⟨j0, j1⟩, ⟨k0, k1⟩, ⟨m0, m1⟩, -⟩ := h
  lift i to ℕ using i0
  lift j to ℕ using j0
  lift k to ℕ using k0
  lift m to ℕ using m0
  exact ⟨i, j, k, m, rfl, i1, j1, k1, m1⟩

/-- spectral tables -/
theorem spectral_near (h : FilledFrom d pc (sampledFrom src) r o) (hr : r.Proper) (hpc : 0 < hzPerMeV pc) {lk : DataBox ℝ}
    (hlk : lk = o.lalphanu_ ∨ lk = o.ljnu_) {n : ℕ} {f : ℝ} {answer : State → Outcome ℝ}
    (hq : FromTable (spectralQuery o.pc lk n f answer)) {M : State → ℝ} (hM0 : ∀ x, Covered r pc x → 0 ≤ M x) {σ τ η θ : ℝ}
    (hσ : 0 ≤ σ) (hτ : 0 ≤ τ) (hη : 0 ≤ η) (hθ : 0 ≤ θ) (hM : ChangesAtMost σ τ η θ r pc M)
    (hread : ∀ i j k m : ℕ, (i : ℤ) < r.NRho → (j : ℤ) < r.NT → (k : ℤ) < r.NYe → (m : ℤ) < r.Ne →
      lk.read [(i : ℤ), j, k, n, m] = ok (SpinerOpacity.toLog_ (stdMax (M (nodeState r pc i j k m)) (lit 0.0))))
    {p : State} (hp : Asked r pc p) {F : ℝ} (hF : F = factorExponent σ τ η θ r) :
    ∃ k, answer p = ok (f * k) ∧ 10 ^ (-F) * (M (floored pc p) + tiny) ≤ k ∧ k ≤ 10 ^ F * (M (floored pc p) + tiny) := by
  have ho := (SpinerOpacity.filled_cells h).1
  have ax : (spectralQuery o.pc lk n f answer).axes = spectralAxes r := spectral_axes h lk hlk
  have at' : (spectralQuery o.pc lk n f answer).at p = spectralCoords pc p := by rw [← ho]; rfl
  have hS := tiny_pos
  have := near hq (p := p) (Ps := [σ, τ, η, θ]) (V := M (floored pc p) + tiny) (E := 0) (by rw [ax, at']; exact asked_inside hpc hp)
    (by rw [ax]; rfl) (by simp [hσ, hτ, hη, hθ]) (by have := hM0 _ hp.covered; linarith) (by
      intro is e hi he
      rw [ax] at hi
      obtain ⟨i, j, k, m, rfl, h1, h2, h3, h4⟩ := indexes_four hi
      obtain ⟨l, hl, rfl⟩ := he
      have hl' : lk.read [(i : ℤ), j, k, n, m] = ok l := hl
      rw [hread i j k m h1 h2 h3 h4] at hl'
      rw [← Outcome.ok.inj hl', pow_toLog (hM0 _ (node_covered hr hpc h1 h2 h3 h4)), ax, at']
      exact node_change hr hpc hM0 hσ hτ hη hθ hM hp h1 h2 h3 h4)
  rw [ax, halfSteps_eq, zero_add, ← hF] at this
  exact this

/-- tables of totals -/
theorem total_near (h : FilledFrom d pc (sampledFrom src) r o) (hr : r.Proper) (hpc : 0 < hzPerMeV pc) {lk : DataBox ℝ}
    (hlk : lk = o.lJ_ ∨ lk = o.lJYe_) {n : ℕ} {answer : State → Outcome ℝ}
    (hq : FromTable (totalQuery lk n answer)) {M : State → ℝ} (hM0 : ∀ x, Covered r pc x → 0 ≤ M x) {σ τ η : ℝ}
    (hσ : 0 ≤ σ) (hτ : 0 ≤ τ) (hη : 0 ≤ η) (hM : ChangesAtMost σ τ η 0 r pc M)
    (hread : ∀ i j k : ℕ, (i : ℤ) < r.NRho → (j : ℤ) < r.NT → (k : ℤ) < r.NYe →
      lk.read [(i : ℤ), j, k, n] = ok (SpinerOpacity.toLog_ (stdMax (M (nodeState r pc i j k 0)) (lit 0.0))))
    {p : State} (hp : Asked r pc p) {F : ℝ} (hF : F = factorExponent σ τ η 0 r) :
    ∃ k, answer p = ok (1 * k) ∧ 10 ^ (-F) * (M (floored pc p) + tiny) ≤ k ∧ k ≤ 10 ^ F * (M (floored pc p) + tiny) := by
  obtain ⟨-, -, hg, -, -⟩ := SpinerOpacity.filled_cells h
  have e : log10 (SpinerOpacity.K2MeV : ℝ) = - Real.logb 10 kelvinPerMeV := by
    rw [SpinerOpacity.K2MeV_eq]
    simp only [areal]
    rw [one_div, Real.logb_inv]
  have ax : (totalQuery lk n answer).axes = (spectralAxes r).take 3 := by
    obtain ⟨g1, g2, g3⟩ := hg lk hlk
    show [lk.grid 3, lk.grid 2, lk.grid 1] = _
    rw [g1, g2, g3, e]
    rfl
  have at' : (totalQuery lk n answer).at p = (spectralCoords pc p).take 3 := rfl
  have hS := tiny_pos
  have hin : InsideGrids ((spectralAxes r).take 3) ((spectralCoords pc p).take 3) := by
    have := asked_inside hpc hp
    unfold InsideGrids at this ⊢
    exact List.forall₂_take 3 this
  have hm : (0 : ℕ) < r.Ne := by have := hr.e.1; push_cast; omega
  have := near hq (p := p) (Ps := [σ, τ, η]) (V := M (floored pc p) + tiny) (E := 0) (by rw [ax, at']; exact hin)
    (by rw [ax]; rfl) (by simp [hσ, hτ, hη]) (by have := hM0 _ hp.covered; linarith) (by
      intro is e hi he
      rw [ax] at hi
      obtain ⟨i, j, k, m, e4, h1, h2, h3, h4⟩ := indexes_four (r := r) (is := is ++ [0]) (by
        unfold spectralAxes at hi ⊢
        rcases is with _ | ⟨i, _ | ⟨j, _ | ⟨k, _ | ⟨_, is⟩⟩⟩⟩ <;> simp only [List.take, Indexes, and_false] at hi
        simp only [List.cons_append, List.nil_append, Indexes]
        exact ⟨hi.1, hi.2.1, hi.2.2.1, ⟨le_refl _, by exact_mod_cast hm⟩, trivial⟩)
      obtain ⟨rfl, -⟩ : is = [(i : ℤ), j, k] ∧ (0 : ℤ) = m := by
        have := List.append_inj (s₁ := is) (t₁ := [(0 : ℤ)]) (s₂ := [(i : ℤ), j, k]) (t₂ := [(m : ℤ)]) (by simpa using e4) (by
          have := congrArg List.length e4
          simpa using this)
        simpa using this
      obtain ⟨l, hl, rfl⟩ := he
      have hl' : lk.read [(i : ℤ), j, k, n] = ok l := hl
      rw [hread i j k h1 h2 h3] at hl'
      rw [← Outcome.ok.inj hl', pow_toLog (hM0 _ (node_covered hr hpc h1 h2 h3 hm)), ax, at']
      have := node_change hr hpc hM0 hσ hτ hη (le_refl 0) hM hp h1 h2 h3 hm
      refine this.trans (le_of_eq ?_)
      simp only [spectralAxes, spectralCoords, List.take, travel]
      ring)
  have hs : halfSteps [σ, τ, η] ((spectralAxes r).take 3) = factorExponent σ τ η 0 r := by
    simp only [halfSteps, spectralAxes, factorExponent, List.take]
    ring
  rw [ax, hs, zero_add, ← hF] at this
  exact this

/-! ## C89 -/

/-- **C89 (absorption)**: the tabulated absorption coefficient, and its angle average, at every state inside the table.  (The source
is sampled with the temperature in MeV instead of Kelvin, see `C48_absorption_false`.) -/
theorem C89_absorption (h : FilledFrom d pc (sampledFrom src) r o) (hr : r.Proper) (hpc : 0 < hzPerMeV pc) {s : RadiationType} (hs : Tabulated s)
    {M : State → ℝ} (hM : ∀ x, Covered r pc x → inst.AbsorptionCoefficient src x.rho (x.T / kelvinPerMeV) x.Ye s x.nu = ok (M x) ∧ 0 ≤ M x)
    {σ τ η θ : ℝ} (hσ : 0 ≤ σ) (hτ : 0 ≤ τ) (hη : 0 ≤ η) (hθ : 0 ≤ θ) (hc : ChangesAtMost σ τ η θ r pc M)
    {p : State} (hp : Asked r pc p) {F : ℝ} (hF : F = factorExponent σ τ η θ r) :
    ∃ v, NeutrinoAPI.AbsorptionCoefficient o p.rho p.T p.Ye s p.nu = ok v ∧
      NeutrinoAPI.AngleAveragedAbsorptionCoefficient o p.rho p.T p.Ye s p.nu = ok v ∧
      10 ^ (-F) * (M (floored pc p) + tiny) ≤ v ∧ v ≤ 10 ^ F * (M (floored pc p) + tiny) := by
  obtain ⟨-, -, p1, p2⟩ := filled_proper h hr
  obtain ⟨n, hn⟩ := tabulated_index hs
  have read : ∀ i j k m : ℕ, (i : ℤ) < r.NRho → (j : ℤ) < r.NT → (k : ℤ) < r.NYe → (m : ℤ) < r.Ne →
      o.lalphanu_.read [(i : ℤ), j, k, n, m] = ok (SpinerOpacity.toLog_ (stdMax (M (nodeState r pc i j k m)) (lit 0.0))) := by
    intro i j k m hi hj hk hm
    obtain ⟨-, -, -, -, hcl⟩ := SpinerOpacity.filled_cells h
    obtain ⟨-, -, h3⟩ := hcl i j k n hi hj hk hn.spec.1 s (by cases hn <;> rfl)
    obtain ⟨-, w, hw, hw'⟩ := h3 m hm
    have := (hM _ (node_covered hr hpc hi hj hk hm)).1
    have hw2 : inst.AbsorptionCoefficient src (r.rhoNode i) (r.TNode j / kelvinPerMeV) (r.YeNode k) s (r.nuNode pc m) = ok w := hw
    have this2 : inst.AbsorptionCoefficient src (r.rhoNode i) (r.TNode j / kelvinPerMeV) (r.YeNode k) s (r.nuNode pc m) =
      ok (M (nodeState r pc i j k m)) := this
    rw [this2] at hw2
    rw [Outcome.ok.inj hw2]
    exact hw'
  obtain ⟨k, e, b⟩ := spectral_near h hr hpc (.inl rfl) (.absorption o p1 hn) (fun x hx => (hM x hx).2) hσ hτ hη hθ hc read hp hF
  obtain ⟨k', e', b'⟩ := spectral_near h hr hpc (.inl rfl) (.angleAveraged o p1 hn) (fun x hx => (hM x hx).2) hσ hτ hη hθ hc read hp hF
  rw [one_mul] at e e'
  refine ⟨k, e, ?_, b⟩
  have : k = k' := by
    have e1 : o.AbsorptionCoefficient p.rho p.T p.Ye s p.nu = ok k := e
    have e2 : o.AngleAveragedAbsorptionCoefficient p.rho p.T p.Ye s p.nu = ok k' := e'
    have : o.AngleAveragedAbsorptionCoefficient p.rho p.T p.Ye s p.nu = o.AbsorptionCoefficient p.rho p.T p.Ye s p.nu := rfl
    rw [this, e1] at e2
    exact Outcome.ok.inj e2
  rw [this]
  exact e'

/-- **C89 (spectral emissivity)**: per frequency and solid angle, and per frequency, at every state inside the table -/
theorem C89_spectral (h : FilledFrom d pc (sampledFrom src) r o) (hr : r.Proper) (hpc : 0 < hzPerMeV pc) {s : RadiationType} (hs : Tabulated s)
    {M : State → ℝ} (hM : ∀ x, Covered r pc x → inst.EmissivityPerNuOmega src x.rho x.T x.Ye s x.nu = ok (M x) ∧ 0 ≤ M x)
    {σ τ η θ : ℝ} (hσ : 0 ≤ σ) (hτ : 0 ≤ τ) (hη : 0 ≤ η) (hθ : 0 ≤ θ) (hc : ChangesAtMost σ τ η θ r pc M)
    {p : State} (hp : Asked r pc p) {F : ℝ} (hF : F = factorExponent σ τ η θ r) :
    (∃ v, NeutrinoAPI.EmissivityPerNuOmega o p.rho p.T p.Ye s p.nu = ok v ∧
      10 ^ (-F) * (M (floored pc p) + tiny) ≤ v ∧ v ≤ 10 ^ F * (M (floored pc p) + tiny)) ∧
    ∃ v, NeutrinoAPI.EmissivityPerNu o p.rho p.T p.Ye s p.nu = ok (4 * Real.pi * v) ∧
      10 ^ (-F) * (M (floored pc p) + tiny) ≤ v ∧ v ≤ 10 ^ F * (M (floored pc p) + tiny) := by
  obtain ⟨-, -, p1, p2⟩ := filled_proper h hr
  obtain ⟨n, hn⟩ := tabulated_index hs
  have read : ∀ i j k m : ℕ, (i : ℤ) < r.NRho → (j : ℤ) < r.NT → (k : ℤ) < r.NYe → (m : ℤ) < r.Ne →
      o.ljnu_.read [(i : ℤ), j, k, n, m] = ok (SpinerOpacity.toLog_ (stdMax (M (nodeState r pc i j k m)) (lit 0.0))) := by
    intro i j k m hi hj hk hm
    obtain ⟨-, -, -, -, hcl⟩ := SpinerOpacity.filled_cells h
    obtain ⟨-, -, h3⟩ := hcl i j k n hi hj hk hn.spec.1 s (by cases hn <;> rfl)
    obtain ⟨⟨w, hw, hw'⟩, -⟩ := h3 m hm
    have := (hM _ (node_covered hr hpc hi hj hk hm)).1
    have hw2 : inst.EmissivityPerNuOmega src (r.rhoNode i) (r.TNode j) (r.YeNode k) s (r.nuNode pc m) = ok w := hw
    have this2 : inst.EmissivityPerNuOmega src (r.rhoNode i) (r.TNode j) (r.YeNode k) s (r.nuNode pc m) =
      ok (M (nodeState r pc i j k m)) := this
    rw [this2] at hw2
    rw [Outcome.ok.inj hw2]
    exact hw'
  obtain ⟨k, e, b⟩ := spectral_near h hr hpc (.inr rfl) (.perNuOmega o p2 hn) (fun x hx => (hM x hx).2) hσ hτ hη hθ hc read hp hF
  obtain ⟨k', e', b'⟩ := spectral_near h hr hpc (.inr rfl) (.perNu o p2 hn) (fun x hx => (hM x hx).2) hσ hτ hη hθ hc read hp hF
  rw [one_mul] at e
  exact ⟨⟨k, e, b⟩, k', e', b'⟩

/-- **C89 (totals)**: the total emissivity and the number emissivity at every state inside the table -/
theorem C89_total (h : FilledFrom d pc (sampledFrom src) r o) (hr : r.Proper) (hpc : 0 < hzPerMeV pc) {s : RadiationType} (hs : Tabulated s)
    {J N : State → ℝ} (hJ : ∀ x, Covered r pc x → inst.Emissivity src x.rho x.T x.Ye s = ok (J x) ∧ 0 ≤ J x)
    (hN : ∀ x, Covered r pc x → inst.NumberEmissivity src x.rho x.T x.Ye s = ok (N x) ∧ 0 ≤ N x)
    {σ τ η : ℝ} (hσ : 0 ≤ σ) (hτ : 0 ≤ τ) (hη : 0 ≤ η) {p : State} (hp : Asked r pc p) {F : ℝ} (hF : F = factorExponent σ τ η 0 r) :
    (ChangesAtMost σ τ η 0 r pc J → ∃ v, NeutrinoAPI.Emissivity o p.rho p.T p.Ye s = ok v ∧
      10 ^ (-F) * (J (floored pc p) + tiny) ≤ v ∧ v ≤ 10 ^ F * (J (floored pc p) + tiny)) ∧
    (ChangesAtMost σ τ η 0 r pc N → ∃ v, NeutrinoAPI.NumberEmissivity o p.rho p.T p.Ye s = ok v ∧
      10 ^ (-F) * (N (floored pc p) + tiny) ≤ v ∧ v ≤ 10 ^ F * (N (floored pc p) + tiny)) := by
  obtain ⟨p1, p2, -, -⟩ := filled_proper h hr
  obtain ⟨n, hn⟩ := tabulated_index hs
  obtain ⟨-, -, -, -, hcl⟩ := SpinerOpacity.filled_cells h
  have hm : ((0 : ℕ) : ℤ) < r.Ne := by have := hr.e.1; push_cast; omega
  constructor
  · intro hc
    obtain ⟨k, e, b⟩ := total_near h hr hpc (.inl rfl) (.emissivity o p1 hn) (fun x hx => (hJ x hx).2) hσ hτ hη hc (by
      intro i j k hi hj hk
      obtain ⟨⟨w, hw, hw'⟩, -, -⟩ := hcl i j k n hi hj hk hn.spec.1 s (by cases hn <;> rfl)
      have this2 : inst.Emissivity src (r.rhoNode i) (r.TNode j) (r.YeNode k) s = ok (J (nodeState r pc i j k 0)) :=
        (hJ _ (node_covered hr hpc hi hj hk hm)).1
      have hw2 : inst.Emissivity src (r.rhoNode i) (r.TNode j) (r.YeNode k) s = ok w := hw
      rw [this2] at hw2
      rw [Outcome.ok.inj hw2]
      exact hw') hp hF
    rw [one_mul] at e
    exact ⟨k, e, b⟩
  · intro hc
    obtain ⟨k, e, b⟩ := total_near h hr hpc (.inr rfl) (.numberEmissivity o p2 hn) (fun x hx => (hN x hx).2) hσ hτ hη hc (by
      intro i j k hi hj hk
      obtain ⟨-, ⟨w, hw, hw'⟩, -⟩ := hcl i j k n hi hj hk hn.spec.1 s (by cases hn <;> rfl)
      have this2 : inst.NumberEmissivity src (r.rhoNode i) (r.TNode j) (r.YeNode k) s = ok (N (nodeState r pc i j k 0)) :=
        (hN _ (node_covered hr hpc hi hj hk hm)).1
      have hw2 : inst.NumberEmissivity src (r.rhoNode i) (r.TNode j) (r.YeNode k) s = ok w := hw
      rw [this2] at hw2
      rw [Outcome.ok.inj hw2]
      exact hw') hp hF
    rw [one_mul] at e
    exact ⟨k, e, b⟩

end

/-! ## Tables of gray opacities -/

theorem power_change {a b : ℝ} (ha : 0 < a) (hb : 0 < b) (n : ℕ) : a ^ n ≤ 10 ^ (n * |Real.logb 10 a - Real.logb 10 b|) * b ^ n := by
  have h1 : a ≤ 10 ^ |Real.logb 10 a - Real.logb 10 b| * b := by
    calc a = (10 : ℝ) ^ (Real.logb 10 a - Real.logb 10 b + Real.logb 10 b) := by
          rw [sub_add_cancel, Real.rpow_logb (by norm_num) (by norm_num) ha]
      _ ≤ (10 : ℝ) ^ (|Real.logb 10 a - Real.logb 10 b| + Real.logb 10 b) :=
          Real.rpow_le_rpow_of_exponent_le (by norm_num) (by linarith [le_abs_self (Real.logb 10 a - Real.logb 10 b)])
      _ = _ := by rw [Real.rpow_add (by norm_num), Real.rpow_logb (by norm_num) (by norm_num) hb]
  calc a ^ n ≤ (10 ^ |Real.logb 10 a - Real.logb 10 b| * b) ^ n := pow_le_pow_left₀ ha.le h1 n
    _ = _ := by rw [mul_pow, ← Real.rpow_natCast, ← Real.rpow_mul (by norm_num), mul_comm (n : ℝ)]

/-- the Fermi-Dirac factor, as a power of its argument -/
theorem fermi_change {x y X : ℝ} (hx : 0 < x) (hy : 0 < y) (hyX : y ≤ X) :
    1 / (Real.exp x + 1) ≤ 10 ^ (X * |Real.logb 10 x - Real.logb 10 y|) * (1 / (Real.exp y + 1)) := by
  have ex := Real.exp_pos x
  have ey := Real.exp_pos y
  have hl : (0 : ℝ) < Real.log 10 := Real.log_pos (by norm_num)
  have hX : 0 < X := lt_of_lt_of_le hy hyX
  rw [div_le_iff₀ (by linarith), mul_assoc, one_div_mul_eq_div, ← mul_div_assoc, le_div_iff₀ (by linarith), one_mul]
  rcases le_or_gt y x with h | h
  · have h1 : (1 : ℝ) ≤ 10 ^ (X * |Real.logb 10 x - Real.logb 10 y|) := Real.one_le_rpow (by norm_num) (by positivity)
    have := Real.exp_le_exp.2 h
    nlinarith
  · have h1 : y - x ≤ X * (|Real.logb 10 x - Real.logb 10 y| * Real.log 10) := by
      have e : |Real.logb 10 x - Real.logb 10 y| * Real.log 10 = Real.log (y / x) := by
        rw [abs_sub_comm, abs_of_nonneg (sub_nonneg.2 (Real.logb_le_logb_of_le (by norm_num) hx h.le)), Real.log_div hy.ne' hx.ne']
        unfold Real.logb
        field_simp
      rw [e]
      have h2 := Real.one_sub_inv_le_log_of_pos (div_pos hy hx)
      rw [inv_div] at h2
      have h3 : 0 ≤ Real.log (y / x) := Real.log_nonneg ((one_le_div hx).2 h.le)
      calc y - x = y * (1 - x / y) := by field_simp
        _ ≤ y * Real.log (y / x) := mul_le_mul_of_nonneg_left h2 hy.le
        _ ≤ X * Real.log (y / x) := mul_le_mul_of_nonneg_right hyX h3
    have h2 : (10 : ℝ) ^ (X * |Real.logb 10 x - Real.logb 10 y|) = Real.exp (X * (|Real.logb 10 x - Real.logb 10 y| * Real.log 10)) := by
      rw [Real.rpow_def_of_pos (by norm_num)]
      congr 1
      ring
    have h3 : Real.exp (y - x) ≤ 10 ^ (X * |Real.logb 10 x - Real.logb 10 y|) := by rw [h2]; exact Real.exp_le_exp.2 h1
    have h4 : Real.exp y = Real.exp (y - x) * Real.exp x := by rw [← Real.exp_add]; congr 1; ring
    have h5 : 1 ≤ Real.exp (y - x) := Real.one_le_exp (by linarith)
    rw [h4]
    nlinarith

section
variable {d : FermiDirac ℝ} {pc : PC ℝ} {r : Ranges}

theorem covered_pos (hpc : 0 < hzPerMeV pc) {x : State} (h : Covered r pc x) : 0 < x.rho ∧ 0 < x.T ∧ 0 < x.nu :=
  ⟨lt_of_lt_of_le (by positivity) h.rho.1, lt_of_lt_of_le (by positivity) h.T.1, lt_of_lt_of_le (by positivity) h.nu.1⟩

/-- thermal totals of neutrinos are powers of the temperature -/
theorem fermi_totals (hd : 0 < d.NSPECIES ∧ PosPC d.pc) : ∃ CJ CN : ℝ, 0 ≤ CJ ∧ 0 ≤ CN ∧ (∀ T, d.ThermalDistributionOfT T = CJ * T ^ 4) ∧
    ∀ T, d.ThermalNumberDistributionOfT T = CN * T ^ 3 := by
  have hh := hd.2.h
  have hk := hd.2.kb
  have hc := hd.2.c
  have hg : (0 : ℝ) < d.NSPECIES := by exact_mod_cast hd.1
  refine ⟨7 * Real.pi ^ 5 * d.pc.kb ^ 4 * d.NSPECIES / (15 * d.pc.c ^ 2 * d.pc.h ^ 3),
    12 * d.pc.kb ^ 3 * Real.pi * d.NSPECIES * 1.20206 / (d.pc.c ^ 2 * d.pc.h ^ 3), ?_, ?_, fun T => ?_, fun T => ?_⟩
  · have := Real.pi_pos; positivity
  · have := Real.pi_pos
    norm_num
    positivity
  · rw [fermiT_eq]; ring
  · rw [fermiN_eq]; ring

/-- how fast the spectral emissivity of gray opacities changes -/
theorem gray_spectral_changes (hd : 0 < d.NSPECIES ∧ PosPC d.pc) (hpc : 0 < hzPerMeV pc) {κ : ℝ} (hκ : 0 ≤ κ) {X : ℝ}
    (hX : X = d.pc.h * (hzPerMeV pc * 10 ^ r.leMax) / (d.pc.kb * 10 ^ r.lTMin)) :
    ChangesAtMost 1 X 0 (3 + X) r pc fun x => x.rho * κ * d.ThermalDistributionOfTNu x.T x.nu := by
  have hh := hd.2.h
  have hk := hd.2.kb
  have hX0 : 0 ≤ X := by rw [hX]; positivity
  intro x y hx hy
  obtain ⟨x1, x2, x3⟩ := covered_pos hpc hx
  obtain ⟨y1, y2, y3⟩ := covered_pos hpc hy
  have q1 := power_change x1 y1 1
  rw [pow_one, pow_one, Nat.cast_one] at q1
  have q2 := power_change x3 y3 3
  have q3 := fermi_change (x := d.pc.h * x.nu / (d.pc.kb * x.T)) (y := d.pc.h * y.nu / (d.pc.kb * y.T)) (X := X)
    (by positivity) (by positivity) (by
      rw [hX]
      have := hy.nu.2
      have := hy.T.1
      gcongr)
  have q4 : |Real.logb 10 (d.pc.h * x.nu / (d.pc.kb * x.T)) - Real.logb 10 (d.pc.h * y.nu / (d.pc.kb * y.T))| ≤
      |Real.logb 10 x.nu - Real.logb 10 y.nu| + |Real.logb 10 x.T - Real.logb 10 y.T| := by
    rw [Real.logb_div (by positivity) (by positivity), Real.logb_div (by positivity) (by positivity),
      Real.logb_mul hh.ne' x3.ne', Real.logb_mul hh.ne' y3.ne', Real.logb_mul hk.ne' x2.ne', Real.logb_mul hk.ne' y2.ne']
    have := abs_sub (Real.logb 10 x.nu - Real.logb 10 y.nu) (Real.logb 10 x.T - Real.logb 10 y.T)
    refine le_trans (le_of_eq ?_) this
    congr 1
    ring
  have q5 := q3.trans (mul_le_mul_of_nonneg_right (Real.rpow_le_rpow_of_exponent_le (by norm_num : (1 : ℝ) ≤ 10)
    (mul_le_mul_of_nonneg_left q4 hX0)) (by positivity))
  show x.rho * κ * d.ThermalDistributionOfTNu x.T x.nu ≤ _ * (y.rho * κ * d.ThermalDistributionOfTNu y.T y.nu)
  rw [fermi_eq, fermi_eq]
  unfold fermiDiracLaw
  have hg : (0 : ℝ) < d.NSPECIES := by exact_mod_cast hd.1
  have hc2 : 0 ≤ κ * (d.NSPECIES * (2 * d.pc.h / d.pc.c ^ 2)) := by positivity
  have q6 := mul_le_mul_of_nonneg_left (mul_le_mul (mul_le_mul q1 q2 (by positivity) (by positivity)) q5 (by positivity) (by positivity)) hc2
  have e10 : (10 : ℝ) ^ (1 * |Real.logb 10 x.rho - Real.logb 10 y.rho| + X * |Real.logb 10 x.T - Real.logb 10 y.T| + 0 * |x.Ye - y.Ye| +
      (3 + X) * |Real.logb 10 x.nu - Real.logb 10 y.nu|) = 10 ^ (1 * |Real.logb 10 x.rho - Real.logb 10 y.rho|) *
      10 ^ (((3 : ℕ) : ℝ) * |Real.logb 10 x.nu - Real.logb 10 y.nu|) *
      10 ^ (X * (|Real.logb 10 x.nu - Real.logb 10 y.nu| + |Real.logb 10 x.T - Real.logb 10 y.T|)) := by
    rw [← Real.rpow_add (by norm_num), ← Real.rpow_add (by norm_num)]
    congr 1
    push_cast
    ring
  rw [e10]
  refine le_trans (le_of_eq ?_) (q6.trans (le_of_eq ?_)) <;> ring

/-- how fast the total emissivity of gray opacities changes -/
theorem gray_total_changes (hd : 0 < d.NSPECIES ∧ PosPC d.pc) (hpc : 0 < hzPerMeV pc) {κ : ℝ} (hκ : 0 ≤ κ) :
    ChangesAtMost 1 4 0 0 r pc fun x => x.rho * κ * d.ThermalDistributionOfT x.T := by
  obtain ⟨CJ, CN, c1, c2, eJ, eN⟩ := fermi_totals hd
  intro x y hx hy
  obtain ⟨x1, x2, x3⟩ := covered_pos hpc hx
  obtain ⟨y1, y2, y3⟩ := covered_pos hpc hy
  have q1 := power_change x1 y1 1
  rw [pow_one, pow_one, Nat.cast_one] at q1
  have q2 := power_change x2 y2 4
  have q6 := mul_le_mul_of_nonneg_left (mul_le_mul q1 q2 (by positivity) (by positivity)) (mul_nonneg hκ c1)
  have e10 : (10 : ℝ) ^ (1 * |Real.logb 10 x.rho - Real.logb 10 y.rho| + 4 * |Real.logb 10 x.T - Real.logb 10 y.T| + 0 * |x.Ye - y.Ye| +
      0 * |Real.logb 10 x.nu - Real.logb 10 y.nu|) = 10 ^ (1 * |Real.logb 10 x.rho - Real.logb 10 y.rho|) *
      10 ^ (((4 : ℕ) : ℝ) * |Real.logb 10 x.T - Real.logb 10 y.T|) := by
    rw [← Real.rpow_add (by norm_num)]
    congr 1
    push_cast
    ring
  rw [e10]
  simp only [eJ]
  refine le_trans (le_of_eq ?_) (q6.trans (le_of_eq ?_)) <;> ring

/-- **C89 for gray opacities**: a table filled from a gray opacity, at every state inside it.  The total emissivities follow powers of
density and temperature; the spectral emissivity has the Fermi-Dirac factor, which changes at most as fast as the power `X` of
frequency and temperature, `X` being the largest `hν/kT` of the table. -/
theorem C89_gray (hd : 0 < d.NSPECIES ∧ PosPC d.pc) (hr : r.Proper) (hpc : 0 < hzPerMeV pc) {κ : ℝ} (hκ : 0 ≤ κ) :
    ∃ o, FilledFrom d pc (sampledFrom (⟨d, pc, κ⟩ : Neutrinos.GrayOpacity ℝ)) r o ∧
    ∀ s p, Tabulated s → Asked r pc p → ∀ ρ T ν, ρ = p.rho + tiny → T = p.T + tiny * kelvinPerMeV → ν = p.nu + tiny * hzPerMeV pc →
      (∀ F, F = factorExponent 1 0 0 0 r → ∃ v, NeutrinoAPI.AbsorptionCoefficient o p.rho p.T p.Ye s p.nu = ok v ∧
        10 ^ (-F) * (ρ * κ + tiny) ≤ v ∧ v ≤ 10 ^ F * (ρ * κ + tiny)) ∧
      (∀ F X, X = d.pc.h * (hzPerMeV pc * 10 ^ r.leMax) / (d.pc.kb * 10 ^ r.lTMin) → F = factorExponent 1 X 0 (3 + X) r →
        ∃ v, NeutrinoAPI.EmissivityPerNuOmega o p.rho p.T p.Ye s p.nu = ok v ∧
        10 ^ (-F) * (ρ * κ * d.ThermalDistributionOfTNu T ν + tiny) ≤ v ∧ v ≤ 10 ^ F * (ρ * κ * d.ThermalDistributionOfTNu T ν + tiny)) ∧
      ∀ F, F = factorExponent 1 4 0 0 r →
        (∃ v, NeutrinoAPI.Emissivity o p.rho p.T p.Ye s = ok v ∧
          10 ^ (-F) * (ρ * κ * d.ThermalDistributionOfT T + tiny) ≤ v ∧ v ≤ 10 ^ F * (ρ * κ * d.ThermalDistributionOfT T + tiny)) ∧
        ∃ v, NeutrinoAPI.NumberEmissivity o p.rho p.T p.Ye s = ok v ∧
          10 ^ (-F) * (κ * d.ThermalNumberDistributionOfT T + tiny) ≤ v ∧ v ≤ 10 ^ F * (κ * d.ThermalNumberDistributionOfT T + tiny) := by
  obtain ⟨o, ho⟩ := gray_filled d pc κ r
  refine ⟨o, ho, fun s p hs hp ρ T ν eρ eT eν => ⟨?_, ?_, ?_⟩⟩
  · intro F hF
    obtain ⟨v, h1, -, h2⟩ := C89_absorption ho hr hpc hs (M := fun x => x.rho * κ)
      (fun x hx => ⟨rfl, mul_nonneg (covered_pos hpc hx).1.le hκ⟩) zero_le_one (le_refl 0) (le_refl 0) (le_refl 0) (by
        intro x y hx hy
        have := power_change (covered_pos hpc hx).1 (covered_pos hpc hy).1 1
        rw [pow_one, pow_one, Nat.cast_one] at this
        simp only [zero_mul, add_zero]
        rw [← mul_assoc]
        exact mul_le_mul_of_nonneg_right this hκ) hp hF
    rw [eρ]
    exact ⟨v, h1, h2⟩
  · intro F X hX hF
    have hh := hd.2.h
    have hk := hd.2.kb
    have hX0 : 0 ≤ X := by rw [hX]; positivity
    obtain ⟨⟨v, h1, h2⟩, -⟩ := C89_spectral ho hr hpc hs (M := fun x => x.rho * κ * d.ThermalDistributionOfTNu x.T x.nu)
      (fun x hx => ⟨rfl, mul_nonneg (mul_nonneg (covered_pos hpc hx).1.le hκ) (spectrum_pos hd (covered_pos hpc hx).2.2).le⟩)
      zero_le_one hX0 (le_refl 0) (by linarith : 0 ≤ 3 + X) (gray_spectral_changes hd hpc hκ hX) hp hF
    rw [eρ, eT, eν]
    exact ⟨v, h1, h2⟩
  · intro F hF
    obtain ⟨CJ, CN, c1, c2, eJ, eN⟩ := fermi_totals hd
    have up : ∀ {a b : ℝ}, a ≤ b → (10 : ℝ) ^ a ≤ 10 ^ b := fun h => Real.rpow_le_rpow_of_exponent_le (by norm_num) h
    obtain ⟨h1, h2⟩ := C89_total ho hr hpc hs (J := fun x => x.rho * κ * d.ThermalDistributionOfT x.T)
      (N := fun x => κ * d.ThermalNumberDistributionOfT x.T)
      (fun x hx => ⟨rfl, by
        obtain ⟨x1, x2, x3⟩ := covered_pos hpc hx
        simp only [eJ]
        positivity⟩)
      (fun x hx => ⟨rfl, by
        obtain ⟨x1, x2, x3⟩ := covered_pos hpc hx
        simp only [eN]
        positivity⟩) zero_le_one (by norm_num : (0 : ℝ) ≤ 4) (le_refl 0) hp hF
    rw [eρ, eT]
    refine ⟨h1 ?_, h2 ?_⟩
    · exact gray_total_changes hd hpc hκ
    · intro x y hx hy
      obtain ⟨x1, x2, x3⟩ := covered_pos hpc hx
      obtain ⟨y1, y2, y3⟩ := covered_pos hpc hy
      have q2 := power_change x2 y2 3
      have q3 : (10 : ℝ) ^ (((3 : ℕ) : ℝ) * |Real.logb 10 x.T - Real.logb 10 y.T|) ≤ 10 ^ (1 * |Real.logb 10 x.rho - Real.logb 10 y.rho| +
          4 * |Real.logb 10 x.T - Real.logb 10 y.T| + 0 * |x.Ye - y.Ye| + 0 * |Real.logb 10 x.nu - Real.logb 10 y.nu|) := by
        apply up
        push_cast
        have a1 := abs_nonneg (Real.logb 10 x.rho - Real.logb 10 y.rho)
        have a2 := abs_nonneg (Real.logb 10 x.T - Real.logb 10 y.T)
        linarith
      have q4 := q2.trans (mul_le_mul_of_nonneg_right q3 (by positivity))
      simp only [eN]
      have q6 := mul_le_mul_of_nonneg_left q4 (mul_nonneg hκ c2)
      refine le_trans (le_of_eq ?_) (q6.trans (le_of_eq ?_)) <;> ring

/-- a state that callers can ask for: density 3, temperature 5, electron fraction 1/2 and 2 MeV, in a table on the first decade -/
theorem asked_example (pc : PC ℝ) (hpc : 0 < hzPerMeV pc) : Asked SpinerOpacity.twoNodes pc ⟨3, 5, 1 / 2, 2 * hzPerMeV pc⟩ := by
  have hS := tiny_pos
  have hK := SpinerOpacity.kelvin_pos
  have hSK := SpinerOpacity.tiny_small
  have hS1 := SpinerOpacity.tiny_le_one
  have := mul_pos hS hK
  refine ⟨by norm_num, by norm_num, by positivity, ⟨?_, ?_, ?_, ?_⟩⟩
  · simp only [floored, SpinerOpacity.twoNodes, Real.rpow_zero, Real.rpow_one]
    constructor <;> linarith
  · simp only [floored, SpinerOpacity.twoNodes, Real.rpow_zero, Real.rpow_one]
    constructor <;> linarith
  · simp only [floored, SpinerOpacity.twoNodes]
    constructor <;> norm_num
  · simp only [floored, SpinerOpacity.twoNodes, Real.rpow_zero, Real.rpow_one]
    constructor <;> nlinarith

/-- the hypotheses of C89 are met: gray opacity 2, two nodes per axis, that state; the factor is the square root of ten -/
example (d : FermiDirac ℝ) (pc : PC ℝ) (hpc : 0 < hzPerMeV pc) (hd : 0 < d.NSPECIES ∧ PosPC d.pc) :
    ∃ o v, FilledFrom d pc (sampledFrom (⟨d, pc, 2⟩ : Neutrinos.GrayOpacity ℝ)) SpinerOpacity.twoNodes o ∧
      NeutrinoAPI.AbsorptionCoefficient o 3 5 (1 / 2) .NU_ELECTRON (2 * hzPerMeV pc) = ok v ∧
      10 ^ (-(1 / 2 : ℝ)) * ((3 + tiny) * 2 + tiny) ≤ v ∧ v ≤ 10 ^ (1 / 2 : ℝ) * ((3 + tiny) * 2 + tiny) := by
  obtain ⟨o, ho, h⟩ := C89_gray hd SpinerOpacity.twoNodes_proper hpc (κ := 2) (by norm_num)
  obtain ⟨v, h1, h2⟩ := (h .NU_ELECTRON _ (.inl rfl) (asked_example pc hpc) _ _ _ rfl rfl rfl).1 (1 / 2) (by
    simp [factorExponent, SpinerOpacity.twoNodes]
    norm_num)
  exact ⟨o, v, ho, h1, h2⟩

end

end Opac.Tables
