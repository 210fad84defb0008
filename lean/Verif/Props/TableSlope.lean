import Verif.Lemmas.InterpSlope
import Verif.Props.TableAccuracy

/-!
# C93: looking up a table does not make an opacity change faster or slower

Over the reals.

* `C93_slope`, for every function that answers from a table: if from each entry to the next one along an axis the value grows at
  least like the power `a` and at most like the power `b`, so do the answers between any two states that differ along that axis.
* `C93_absorption`, `C93_spectral` and `C93_total`: a table filled from a source that changes at most at given rates changes at most at the
  same rates, between any two states inside the table.
-/

namespace Opac.Tables
open Arith Outcome Spec Spiner Photons Neutrinos
open SpinerOpacity (tiny tiny_pos kelvinPerMeV hzPerMeV FilledFrom Tabulated Ranges sampledFrom)

/-! ## Helpers -/

theorem set_at {xs ys : List ℝ} {m : ℕ} {x : ℝ} (hl : xs.length = ys.length) (hsame : ∀ k, k ≠ m → xs[k]? = ys[k]?)
    (hx : ys[m]? = some x) : xs.set m x = ys := by
  apply List.ext_getElem?
  intro k
  rw [List.getElem?_set]
  split_ifs with a b
  · subst a; exact hx.symm
  · subst a; rw [List.getElem?_eq_none (by omega)]
  · exact hsame k (Ne.symm a)

/-! ## C93 -/

/-- **C93 (slopes)**: along one axis, inside or beyond its ends, with the state inside the table along the other axes -/
theorem C93_slope {q : Query} (h : FromTable q) {m : ℕ} {g : Grid ℝ} (hg : q.axes[m]? = some g) {a b D : ℝ}
    (hD : D = (g.max - g.min) / (g.N - 1))
    (hstep : ∀ is i v w, is[m]? = some i → q.Entry is v → q.Entry (is.set m (i + 1)) w → Indexes q.axes is →
      Indexes q.axes (is.set m (i + 1)) → 10 ^ (a * D) * v ≤ w ∧ w ≤ 10 ^ (b * D) * v)
    {p p' : State} (hsame : ∀ k, k ≠ m → (q.at p)[k]? = (q.at p')[k]?)
    (hin : ∀ k g z, k ≠ m → q.axes[k]? = some g → (q.at p)[k]? = some z → g.min ≤ z ∧ z ≤ g.max)
    {x x' : ℝ} (hx : (q.at p)[m]? = some x) (hx' : (q.at p')[m]? = some x') (hle : x ≤ x') :
    ∃ k k', q.answer p = ok (q.factor p * k) ∧ q.answer p' = ok (q.factor p' * k') ∧ 0 < k ∧
      10 ^ (a * (x' - x)) * k ≤ k' ∧ k' ≤ 10 ^ (b * (x' - x)) * k := by
  obtain ⟨v, hv, he⟩ := h.good.closed
  have hm : m < q.axes.length := (List.getElem?_eq_some_iff.1 hg).1
  have hlen : (q.at p).length = q.axes.length := by simp [Query.at, h.good.length]
  have hlen' : (q.at p').length = q.axes.length := by simp [Query.at, h.good.length]
  have ten : ∀ s t : ℝ, (10 : ℝ) ^ s ≤ 10 ^ t ↔ s ≤ t := fun s t => Real.rpow_le_rpow_left_iff (by norm_num)
  have st : ∀ is i, is[m]? = some i → Indexes q.axes is → Indexes q.axes (is.set m (i + 1)) →
      a * D + v is ≤ v (is.set m (i + 1)) ∧ v (is.set m (i + 1)) ≤ b * D + v is := by
    intro is i hi h1 h2
    have := hstep is i _ _ hi ⟨_, hv is h1, rfl⟩ ⟨_, hv _ h2, rfl⟩ h1 h2
    rwa [← Real.rpow_add (by norm_num), ← Real.rpow_add (by norm_num), ten, ten] at this
  have k1 := mlin_slope (v := v) (a := a) h.good.proper hlen hin hm (by
    intro is i g' hi hg' h1 h2
    rw [hg] at hg'
    rw [← Option.some.inj hg', stepOf, ← hD]
    have := (st is i hi h1 h2).1
    linarith) hle
  have k2 := mlin_slope (v := fun is => -v is) (a := -b) h.good.proper hlen hin hm (by
    intro is i g' hi hg' h1 h2
    rw [hg] at hg'
    rw [← Option.some.inj hg', stepOf, ← hD]
    have := (st is i hi h1 h2).2
    linarith) hle
  rw [mlin_neg _ _ _ (by simp [hlen]), mlin_neg _ _ _ (by simp [hlen])] at k2
  rw [set_at rfl (fun _ _ => rfl) hx, set_at (hlen.trans hlen'.symm) hsame hx'] at k1 k2
  refine ⟨_, _, he p, he p', by positivity, ?_, ?_⟩ <;> rw [← Real.rpow_add (by norm_num), ten] <;> linarith

/-- every function that answers from a table -/
theorem rates {q : Query} (h : FromTable q) {p p' : State} (hin : InsideGrids q.axes (q.at p)) (hin' : InsideGrids q.axes (q.at p'))
    {Ps : List ℝ} (hl : Ps.length = q.axes.length)
    (hn : ∀ m is i g P v w, is[m]? = some i → q.axes[m]? = some g → Ps[m]? = some P → Indexes q.axes is → Indexes q.axes (is.set m (i + 1)) →
      q.Entry is v → q.Entry (is.set m (i + 1)) w → |Real.logb 10 w - Real.logb 10 v| ≤ P * stepOf g) :
    ∃ k k', q.answer p = ok (q.factor p * k) ∧ q.answer p' = ok (q.factor p' * k') ∧ 0 < k' ∧
      k ≤ 10 ^ distanceOf Ps (q.at p) (q.at p') * k' := by
  obtain ⟨v, hv, he⟩ := h.good.closed
  have := mlin_lipschitz (v := v) h.good.proper hl hin hin' fun m is i g P hi hg hP h1 h2 => by
    have := hn m is i g P _ _ hi hg hP h1 h2 ⟨_, hv is h1, rfl⟩ ⟨_, hv _ h2, rfl⟩
    rwa [Real.logb_rpow (by norm_num) (by norm_num), Real.logb_rpow (by norm_num) (by norm_num)] at this
  refine ⟨_, _, he p, he p', by positivity, ?_⟩
  rw [← Real.rpow_add (by norm_num)]
  exact Real.rpow_le_rpow_of_exponent_le (by norm_num) (by linarith)

section
variable {d : FermiDirac ℝ} {pc : PC ℝ} {r : Ranges} {o : SpinerOpacity ℝ} {O : Type} [inst : NeutrinoAPI ℝ O] {src : O}

theorem equi_succ {lo hi : ℝ} {n : ℤ} (hn : 2 ≤ n) (h : lo < hi) (i : ℕ) :
    |SpinerOpacity.equi lo hi n (i + 1) - SpinerOpacity.equi lo hi n i| = (hi - lo) / (n - 1) := by
  have : (2 : ℝ) ≤ n := by exact_mod_cast hn
  have e : SpinerOpacity.equi lo hi n (i + 1) - SpinerOpacity.equi lo hi n i = (hi - lo) / (n - 1) := by
    unfold SpinerOpacity.equi
    push_cast
    ring
  rw [e, abs_of_nonneg (div_nonneg (by linarith) (by linarith))]

/-- from a node to the next -/
theorem node_step (hr : r.Proper) (hpc : 0 < hzPerMeV pc) {M : State → ℝ} (hM0 : ∀ x, Covered r pc x → 0 ≤ M x) {σ τ η θ : ℝ}
    (hσ : 0 ≤ σ) (hτ : 0 ≤ τ) (hη : 0 ≤ η) (hθ : 0 ≤ θ) (hM : ChangesAtMost σ τ η θ r pc M) {i j k m i' j' k' m' : ℕ}
    (hi : (i : ℤ) < r.NRho) (hj : (j : ℤ) < r.NT) (hk : (k : ℤ) < r.NYe) (hm : (m : ℤ) < r.Ne)
    (hi' : (i' : ℤ) < r.NRho) (hj' : (j' : ℤ) < r.NT) (hk' : (k' : ℤ) < r.NYe) (hm' : (m' : ℤ) < r.Ne) :
    |Real.logb 10 (M (nodeState r pc i' j' k' m') + tiny) - Real.logb 10 (M (nodeState r pc i j k m) + tiny)| ≤
      σ * |SpinerOpacity.equi r.lRhoMin r.lRhoMax r.NRho i' - SpinerOpacity.equi r.lRhoMin r.lRhoMax r.NRho i| +
      τ * |SpinerOpacity.equi r.lTMin r.lTMax r.NT j' - SpinerOpacity.equi r.lTMin r.lTMax r.NT j| +
      η * |SpinerOpacity.equi r.YeMin r.YeMax r.NYe k' - SpinerOpacity.equi r.YeMin r.YeMax r.NYe k| +
      θ * |SpinerOpacity.equi r.leMin r.leMax r.Ne m' - SpinerOpacity.equi r.leMin r.leMax r.Ne m| := by
  have hS := tiny_pos
  have c := node_covered (pc := pc) hr hpc hi hj hk hm
  have c' := node_covered (pc := pc) hr hpc hi' hj' hk' hm'
  have := (hM.add_tiny hσ hτ hη hθ).logs c' c (by have := hM0 _ c'; linarith) (by have := hM0 _ c; linarith)
  obtain ⟨f1, f2, f3⟩ := logb_nodes (r := r) hpc i j m
  obtain ⟨f1', f2', f3'⟩ := logb_nodes (r := r) hpc i' j' m'
  simp only [nodeState, f1, f2, f3, f1', f2', f3', add_sub_add_left_eq_sub] at this
  exact this

/-- distance of two states the caller asks for -/
theorem asked_distance (hpc : 0 < hzPerMeV pc) {p p' : State} (hp : Asked r pc p) (hp' : Asked r pc p') (σ τ η θ : ℝ) :
    distanceOf [σ, τ, η, θ] (spectralCoords pc p) (spectralCoords pc p') =
      σ * |Real.logb 10 (floored pc p).rho - Real.logb 10 (floored pc p').rho| +
      τ * |Real.logb 10 (floored pc p).T - Real.logb 10 (floored pc p').T| + η * |(floored pc p).Ye - (floored pc p').Ye| +
      θ * |Real.logb 10 (floored pc p).nu - Real.logb 10 (floored pc p').nu| := by
  obtain ⟨e1, e2, e3⟩ := asked_coords hpc hp
  obtain ⟨f1, f2, f3⟩ := asked_coords hpc hp'
  unfold spectralCoords
  simp only [distanceOf, e1, e2, e3, f1, f2, f3, sub_sub_sub_cancel_right]
  simp only [floored]
  ring

/-- spectral tables -/
theorem spectral_rates (h : FilledFrom d pc (sampledFrom src) r o) (hr : r.Proper) (hpc : 0 < hzPerMeV pc) {lk : DataBox ℝ}
    (hlk : lk = o.lalphanu_ ∨ lk = o.ljnu_) {n : ℕ} {f : ℝ} {answer : State → Outcome ℝ}
    (hq : FromTable (spectralQuery o.pc lk n f answer)) {M : State → ℝ} (hM0 : ∀ x, Covered r pc x → 0 ≤ M x) {σ τ η θ : ℝ}
    (hσ : 0 ≤ σ) (hτ : 0 ≤ τ) (hη : 0 ≤ η) (hθ : 0 ≤ θ) (hM : ChangesAtMost σ τ η θ r pc M)
    (hread : ∀ i j k m : ℕ, (i : ℤ) < r.NRho → (j : ℤ) < r.NT → (k : ℤ) < r.NYe → (m : ℤ) < r.Ne →
      lk.read [(i : ℤ), j, k, n, m] = ok (SpinerOpacity.toLog_ (stdMax (M (nodeState r pc i j k m)) (lit 0.0))))
    {p p' : State} (hp : Asked r pc p) (hp' : Asked r pc p') :
    ∃ k k', answer p = ok (f * k) ∧ answer p' = ok (f * k') ∧ 0 < k' ∧
      k ≤ 10 ^ (σ * |Real.logb 10 (floored pc p).rho - Real.logb 10 (floored pc p').rho| +
        τ * |Real.logb 10 (floored pc p).T - Real.logb 10 (floored pc p').T| + η * |(floored pc p).Ye - (floored pc p').Ye| +
        θ * |Real.logb 10 (floored pc p).nu - Real.logb 10 (floored pc p').nu|) * k' := by
  have ho := (SpinerOpacity.filled_cells h).1
  have ax : (spectralQuery o.pc lk n f answer).axes = spectralAxes r := spectral_axes h lk hlk
  have at' : ∀ p, (spectralQuery o.pc lk n f answer).at p = spectralCoords pc p := fun p => by rw [← ho]; rfl
  have := rates hq (p := p) (p' := p') (Ps := [σ, τ, η, θ]) (by rw [ax, at']; exact asked_inside hpc hp)
    (by rw [ax, at']; exact asked_inside hpc hp') (by rw [ax]; rfl) (by
      intro a is i g P v w hi hg hP h1 h2 hv hw
      rw [ax] at hg h1 h2
      obtain ⟨i1, j1, k1, m1, rfl, a1, a2, a3, a4⟩ := indexes_four h1
      obtain ⟨i2, j2, k2, m2, e2, b1, b2, b3, b4⟩ := indexes_four h2
      rw [e2] at hw
      obtain ⟨l, hl, rfl⟩ := hv
      obtain ⟨l', hl', rfl⟩ := hw
      have hl1 : lk.read [(i1 : ℤ), j1, k1, n, m1] = ok l := hl
      have hl2 : lk.read [(i2 : ℤ), j2, k2, n, m2] = ok l' := hl'
      rw [hread _ _ _ _ a1 a2 a3 a4] at hl1
      rw [hread _ _ _ _ b1 b2 b3 b4] at hl2
      rw [← Outcome.ok.inj hl1, ← Outcome.ok.inj hl2, pow_toLog (hM0 _ (node_covered hr hpc a1 a2 a3 a4)),
        pow_toLog (hM0 _ (node_covered hr hpc b1 b2 b3 b4))]
      refine (node_step hr hpc hM0 hσ hτ hη hθ hM a1 a2 a3 a4 b1 b2 b3 b4).trans (le_of_eq ?_)
      unfold spectralAxes at hg
      rcases a with _ | _ | _ | _ | a
      · simp only [List.getElem?_cons_zero, Option.some.injEq, List.set_cons_zero, List.cons.injEq, Nat.cast_inj, and_true] at hi hg hP e2
        subst hi hg hP
        obtain ⟨q1, rfl, rfl, rfl⟩ := e2
        obtain rfl : i2 = i1 + 1 := by omega
        simp only [sub_self, abs_zero, mul_zero, add_zero, equi_succ hr.rho.1 hr.rho.2, stepOf]
      · simp only [List.getElem?_cons_succ, List.getElem?_cons_zero, Option.some.injEq, List.set_cons_succ, List.set_cons_zero, List.cons.injEq, Nat.cast_inj, and_true, zero_add] at hi hg hP e2
        subst hi hg hP
        obtain ⟨rfl, q1, rfl, rfl⟩ := e2
        obtain rfl : j2 = j1 + 1 := by omega
        simp only [sub_self, abs_zero, mul_zero, add_zero, zero_add, equi_succ hr.T.1 hr.T.2, stepOf, sub_sub_sub_cancel_right]
      · simp only [List.getElem?_cons_succ, List.getElem?_cons_zero, Option.some.injEq, List.set_cons_succ, List.set_cons_zero, List.cons.injEq, Nat.cast_inj, and_true, zero_add] at hi hg hP e2
        subst hi hg hP
        obtain ⟨rfl, rfl, q1, rfl⟩ := e2
        obtain rfl : k2 = k1 + 1 := by omega
        simp only [sub_self, abs_zero, mul_zero, add_zero, zero_add, equi_succ hr.Ye.1 hr.Ye.2, stepOf]
      · simp only [List.getElem?_cons_succ, List.getElem?_cons_zero, Option.some.injEq, List.set_cons_succ, List.set_cons_zero, List.cons.injEq, Nat.cast_inj, and_true, zero_add] at hi hg hP e2
        subst hi hg hP
        obtain ⟨rfl, rfl, rfl, q1⟩ := e2
        obtain rfl : m2 = m1 + 1 := by omega
        simp only [sub_self, abs_zero, mul_zero, zero_add, equi_succ hr.e.1 hr.e.2, stepOf]
      · simp at hi)
  rw [at', at', asked_distance hpc hp hp'] at this
  exact this

/-- what the table of absorption coefficients holds -/
theorem absorption_read (h : FilledFrom d pc (sampledFrom src) r o) (hr : r.Proper) (hpc : 0 < hzPerMeV pc) {s : RadiationType} {n : ℕ}
    (hn : SpeciesIndex s n) {M : State → ℝ} (hM : ∀ x, Covered r pc x → inst.AbsorptionCoefficient src x.rho (x.T / kelvinPerMeV) x.Ye s x.nu = ok (M x))
    (i j k m : ℕ) (hi : (i : ℤ) < r.NRho) (hj : (j : ℤ) < r.NT) (hk : (k : ℤ) < r.NYe) (hm : (m : ℤ) < r.Ne) :
    o.lalphanu_.read [(i : ℤ), j, k, n, m] = ok (SpinerOpacity.toLog_ (stdMax (M (nodeState r pc i j k m)) (lit 0.0))) := by
  obtain ⟨-, -, -, -, hcl⟩ := SpinerOpacity.filled_cells h
  obtain ⟨-, -, h3⟩ := hcl i j k n hi hj hk hn.spec.1 s (by cases hn <;> rfl)
  obtain ⟨-, w, hw, hw'⟩ := h3 m hm
  have hw2 : inst.AbsorptionCoefficient src (r.rhoNode i) (r.TNode j / kelvinPerMeV) (r.YeNode k) s (r.nuNode pc m) = ok w := hw
  have this2 : inst.AbsorptionCoefficient src (r.rhoNode i) (r.TNode j / kelvinPerMeV) (r.YeNode k) s (r.nuNode pc m) =
    ok (M (nodeState r pc i j k m)) := hM _ (node_covered hr hpc hi hj hk hm)
  rw [this2] at hw2
  rw [Outcome.ok.inj hw2]
  exact hw'

/-- what the table of emissivities holds -/
theorem emission_read (h : FilledFrom d pc (sampledFrom src) r o) (hr : r.Proper) (hpc : 0 < hzPerMeV pc) {s : RadiationType} {n : ℕ}
    (hn : SpeciesIndex s n) {M : State → ℝ} (hM : ∀ x, Covered r pc x → inst.EmissivityPerNuOmega src x.rho x.T x.Ye s x.nu = ok (M x))
    (i j k m : ℕ) (hi : (i : ℤ) < r.NRho) (hj : (j : ℤ) < r.NT) (hk : (k : ℤ) < r.NYe) (hm : (m : ℤ) < r.Ne) :
    o.ljnu_.read [(i : ℤ), j, k, n, m] = ok (SpinerOpacity.toLog_ (stdMax (M (nodeState r pc i j k m)) (lit 0.0))) := by
  obtain ⟨-, -, -, -, hcl⟩ := SpinerOpacity.filled_cells h
  obtain ⟨-, -, h3⟩ := hcl i j k n hi hj hk hn.spec.1 s (by cases hn <;> rfl)
  obtain ⟨⟨w, hw, hw'⟩, -⟩ := h3 m hm
  have hw2 : inst.EmissivityPerNuOmega src (r.rhoNode i) (r.TNode j) (r.YeNode k) s (r.nuNode pc m) = ok w := hw
  have this2 : inst.EmissivityPerNuOmega src (r.rhoNode i) (r.TNode j) (r.YeNode k) s (r.nuNode pc m) =
    ok (M (nodeState r pc i j k m)) := hM _ (node_covered hr hpc hi hj hk hm)
  rw [this2] at hw2
  rw [Outcome.ok.inj hw2]
  exact hw'

/-- **C93 (absorption)**: between any two states inside the table, the tabulated absorption coefficient changes at most at the
rates of the source -/
theorem C93_absorption (h : FilledFrom d pc (sampledFrom src) r o) (hr : r.Proper) (hpc : 0 < hzPerMeV pc) {s : RadiationType} (hs : Tabulated s)
    {M : State → ℝ} (hM : ∀ x, Covered r pc x → inst.AbsorptionCoefficient src x.rho (x.T / kelvinPerMeV) x.Ye s x.nu = ok (M x) ∧ 0 ≤ M x)
    {σ τ η θ : ℝ} (hσ : 0 ≤ σ) (hτ : 0 ≤ τ) (hη : 0 ≤ η) (hθ : 0 ≤ θ) (hc : ChangesAtMost σ τ η θ r pc M)
    {p p' x x' : State} (hp : Asked r pc p) (hp' : Asked r pc p') (hx : x = floored pc p) (hx' : x' = floored pc p') :
    ∃ v v', NeutrinoAPI.AbsorptionCoefficient o p.rho p.T p.Ye s p.nu = ok v ∧
      NeutrinoAPI.AbsorptionCoefficient o p'.rho p'.T p'.Ye s p'.nu = ok v' ∧ 0 < v' ∧
      v ≤ 10 ^ (σ * |Real.logb 10 x.rho - Real.logb 10 x'.rho| + τ * |Real.logb 10 x.T - Real.logb 10 x'.T| +
        η * |x.Ye - x'.Ye| + θ * |Real.logb 10 x.nu - Real.logb 10 x'.nu|) * v' := by
  obtain ⟨-, -, p1, p2⟩ := filled_proper h hr
  obtain ⟨n, hn⟩ := tabulated_index hs
  have := spectral_rates h hr hpc (.inl rfl) (.absorption o p1 hn) (fun x hx => (hM x hx).2) hσ hτ hη hθ hc
    (absorption_read h hr hpc hn fun x hx => (hM x hx).1) hp hp'
  simp only [one_mul] at this
  rw [hx, hx']
  exact this

/-- **C93 (spectral emissivity)**: the same for the emissivity per frequency and solid angle -/
theorem C93_spectral (h : FilledFrom d pc (sampledFrom src) r o) (hr : r.Proper) (hpc : 0 < hzPerMeV pc) {s : RadiationType} (hs : Tabulated s)
    {M : State → ℝ} (hM : ∀ x, Covered r pc x → inst.EmissivityPerNuOmega src x.rho x.T x.Ye s x.nu = ok (M x) ∧ 0 ≤ M x)
    {σ τ η θ : ℝ} (hσ : 0 ≤ σ) (hτ : 0 ≤ τ) (hη : 0 ≤ η) (hθ : 0 ≤ θ) (hc : ChangesAtMost σ τ η θ r pc M)
    {p p' x x' : State} (hp : Asked r pc p) (hp' : Asked r pc p') (hx : x = floored pc p) (hx' : x' = floored pc p') :
    ∃ v v', NeutrinoAPI.EmissivityPerNuOmega o p.rho p.T p.Ye s p.nu = ok v ∧
      NeutrinoAPI.EmissivityPerNuOmega o p'.rho p'.T p'.Ye s p'.nu = ok v' ∧ 0 < v' ∧
      v ≤ 10 ^ (σ * |Real.logb 10 x.rho - Real.logb 10 x'.rho| + τ * |Real.logb 10 x.T - Real.logb 10 x'.T| +
        η * |x.Ye - x'.Ye| + θ * |Real.logb 10 x.nu - Real.logb 10 x'.nu|) * v' := by
  obtain ⟨-, -, p1, p2⟩ := filled_proper h hr
  obtain ⟨n, hn⟩ := tabulated_index hs
  have := spectral_rates h hr hpc (.inr rfl) (.perNuOmega o p2 hn) (fun x hx => (hM x hx).2) hσ hτ hη hθ hc
    (emission_read h hr hpc hn fun x hx => (hM x hx).1) hp hp'
  simp only [one_mul] at this
  rw [hx, hx']
  exact this

/-- tables of totals -/
theorem total_rates (h : FilledFrom d pc (sampledFrom src) r o) (hr : r.Proper) (hpc : 0 < hzPerMeV pc) {lk : DataBox ℝ}
    (hlk : lk = o.lJ_ ∨ lk = o.lJYe_) {n : ℕ} {answer : State → Outcome ℝ}
    (hq : FromTable (totalQuery lk n answer)) {M : State → ℝ} (hM0 : ∀ x, Covered r pc x → 0 ≤ M x) {σ τ η : ℝ}
    (hσ : 0 ≤ σ) (hτ : 0 ≤ τ) (hη : 0 ≤ η) (hM : ChangesAtMost σ τ η 0 r pc M)
    (hread : ∀ i j k : ℕ, (i : ℤ) < r.NRho → (j : ℤ) < r.NT → (k : ℤ) < r.NYe →
      lk.read [(i : ℤ), j, k, n] = ok (SpinerOpacity.toLog_ (stdMax (M (nodeState r pc i j k 0)) (lit 0.0))))
    {p p' : State} (hp : Asked r pc p) (hp' : Asked r pc p') :
    ∃ k k', answer p = ok (1 * k) ∧ answer p' = ok (1 * k') ∧ 0 < k' ∧
      k ≤ 10 ^ (σ * |Real.logb 10 (floored pc p).rho - Real.logb 10 (floored pc p').rho| +
        τ * |Real.logb 10 (floored pc p).T - Real.logb 10 (floored pc p').T| + η * |(floored pc p).Ye - (floored pc p').Ye|) * k' := by
  obtain ⟨-, -, hg, -, -⟩ := SpinerOpacity.filled_cells h
  have e : log10 (SpinerOpacity.K2MeV : ℝ) = - Real.logb 10 kelvinPerMeV := by
    rw [SpinerOpacity.K2MeV_eq]
    simp only [areal]
    rw [one_div, Real.logb_inv]
  have ax : (totalQuery lk n answer).axes = (spectralAxes r).take 3 := by
    obtain ⟨g1, g2, g3⟩ := hg lk hlk
    show [lk.grid 3, lk.grid 2, lk.grid 1] = _
    rw [g1, g2, g3, e]
    rfl
  have at' : ∀ p, (totalQuery lk n answer).at p = (spectralCoords pc p).take 3 := fun _ => rfl
  have hin : ∀ p, Asked r pc p → InsideGrids ((spectralAxes r).take 3) ((spectralCoords pc p).take 3) := fun p hp =>
    List.forall₂_take 3 (asked_inside hpc hp)
  have hm : ((0 : ℕ) : ℤ) < r.Ne := by have := hr.e.1; push_cast; omega
  have three : ∀ is, Indexes ((spectralAxes r).take 3) is → ∃ i j k : ℕ, is = [(i : ℤ), j, k] ∧ (i : ℤ) < r.NRho ∧ (j : ℤ) < r.NT ∧ (k : ℤ) < r.NYe := by
    intro is hi
    unfold spectralAxes at hi
    rcases is with _ | ⟨i, _ | ⟨j, _ | ⟨k, _ | ⟨_, is⟩⟩⟩⟩ <;> simp only [List.take, Indexes, and_false] at hi
    obtain ⟨⟨i0, i1⟩, ⟨j0, j1⟩, ⟨k0, k1⟩, -⟩ := hi
    lift i to ℕ using i0
    lift j to ℕ using j0
    lift k to ℕ using k0
    exact ⟨i, j, k, rfl, i1, j1, k1⟩
  have := rates hq (p := p) (p' := p') (Ps := [σ, τ, η]) (by rw [ax, at']; exact hin p hp)
    (by rw [ax, at']; exact hin p' hp') (by rw [ax]; rfl) (by
      intro a is i g P v w hi hg hP h1 h2 hv hw
      rw [ax] at hg h1 h2
      obtain ⟨i1, j1, k1, rfl, a1, a2, a3⟩ := three _ h1
      obtain ⟨i2, j2, k2, e2, b1, b2, b3⟩ := three _ h2
      rw [e2] at hw
      obtain ⟨l, hl, rfl⟩ := hv
      obtain ⟨l', hl', rfl⟩ := hw
      have hl1 : lk.read [(i1 : ℤ), j1, k1, n] = ok l := hl
      have hl2 : lk.read [(i2 : ℤ), j2, k2, n] = ok l' := hl'
      rw [hread _ _ _ a1 a2 a3] at hl1
      rw [hread _ _ _ b1 b2 b3] at hl2
      rw [← Outcome.ok.inj hl1, ← Outcome.ok.inj hl2, pow_toLog (hM0 _ (node_covered hr hpc a1 a2 a3 hm)),
        pow_toLog (hM0 _ (node_covered hr hpc b1 b2 b3 hm))]
      refine (node_step hr hpc hM0 hσ hτ hη (le_refl 0) hM a1 a2 a3 hm b1 b2 b3 hm).trans (le_of_eq ?_)
      simp only [spectralAxes, List.take] at hg
      rcases a with _ | _ | _ | a
      · simp only [List.getElem?_cons_zero, Option.some.injEq, List.set_cons_zero, List.cons.injEq, Nat.cast_inj, and_true] at hi hg hP e2
        subst hi hg hP
        obtain ⟨q1, rfl, rfl⟩ := e2
        obtain rfl : i2 = i1 + 1 := by omega
        simp only [sub_self, abs_zero, mul_zero, add_zero, equi_succ hr.rho.1 hr.rho.2, stepOf]
      · simp only [List.getElem?_cons_succ, List.getElem?_cons_zero, Option.some.injEq, List.set_cons_succ, List.set_cons_zero, List.cons.injEq, Nat.cast_inj, and_true, zero_add] at hi hg hP e2
        subst hi hg hP
        obtain ⟨rfl, q1, rfl⟩ := e2
        obtain rfl : j2 = j1 + 1 := by omega
        simp only [sub_self, abs_zero, mul_zero, add_zero, zero_add, equi_succ hr.T.1 hr.T.2, stepOf, sub_sub_sub_cancel_right]
      · simp only [List.getElem?_cons_succ, List.getElem?_cons_zero, Option.some.injEq, List.set_cons_succ, List.set_cons_zero, List.cons.injEq, Nat.cast_inj, and_true, zero_add] at hi hg hP e2
        subst hi hg hP
        obtain ⟨rfl, rfl, q1⟩ := e2
        obtain rfl : k2 = k1 + 1 := by omega
        simp only [sub_self, abs_zero, mul_zero, add_zero, zero_add, equi_succ hr.Ye.1 hr.Ye.2, stepOf]
      · simp at hi)
  have dist : distanceOf [σ, τ, η] ((spectralCoords pc p).take 3) ((spectralCoords pc p').take 3) =
      σ * |Real.logb 10 (floored pc p).rho - Real.logb 10 (floored pc p').rho| +
        τ * |Real.logb 10 (floored pc p).T - Real.logb 10 (floored pc p').T| + η * |(floored pc p).Ye - (floored pc p').Ye| := by
    obtain ⟨e1, e2, -⟩ := asked_coords hpc hp
    obtain ⟨f1, f2, -⟩ := asked_coords hpc hp'
    unfold spectralCoords
    simp only [List.take, distanceOf, e1, e2, f1, f2, sub_sub_sub_cancel_right]
    simp only [floored]
    ring
  rw [at', at', dist] at this
  exact this

/-- **C93 (totals)**: the same for the total emissivity and the number emissivity -/
theorem C93_total (h : FilledFrom d pc (sampledFrom src) r o) (hr : r.Proper) (hpc : 0 < hzPerMeV pc) {s : RadiationType} (hs : Tabulated s)
    {J N : State → ℝ} (hJ : ∀ x, Covered r pc x → inst.Emissivity src x.rho x.T x.Ye s = ok (J x) ∧ 0 ≤ J x)
    (hN : ∀ x, Covered r pc x → inst.NumberEmissivity src x.rho x.T x.Ye s = ok (N x) ∧ 0 ≤ N x)
    {σ τ η : ℝ} (hσ : 0 ≤ σ) (hτ : 0 ≤ τ) (hη : 0 ≤ η)
    {p p' x x' : State} (hp : Asked r pc p) (hp' : Asked r pc p') (hx : x = floored pc p) (hx' : x' = floored pc p')
    {E : ℝ} (hE : E = σ * |Real.logb 10 x.rho - Real.logb 10 x'.rho| + τ * |Real.logb 10 x.T - Real.logb 10 x'.T| + η * |x.Ye - x'.Ye|) :
    (ChangesAtMost σ τ η 0 r pc J → ∃ v v', NeutrinoAPI.Emissivity o p.rho p.T p.Ye s = ok v ∧
      NeutrinoAPI.Emissivity o p'.rho p'.T p'.Ye s = ok v' ∧ 0 < v' ∧ v ≤ 10 ^ E * v') ∧
    (ChangesAtMost σ τ η 0 r pc N → ∃ v v', NeutrinoAPI.NumberEmissivity o p.rho p.T p.Ye s = ok v ∧
      NeutrinoAPI.NumberEmissivity o p'.rho p'.T p'.Ye s = ok v' ∧ 0 < v' ∧ v ≤ 10 ^ E * v') := by
  obtain ⟨p1, p2, -, -⟩ := filled_proper h hr
  obtain ⟨n, hn⟩ := tabulated_index hs
  obtain ⟨-, -, -, -, hcl⟩ := SpinerOpacity.filled_cells h
  have hm : ((0 : ℕ) : ℤ) < r.Ne := by have := hr.e.1; push_cast; omega
  rw [hE, hx, hx']
  constructor
  · intro hc
    have := total_rates h hr hpc (.inl rfl) (.emissivity o p1 hn) (fun x hx => (hJ x hx).2) hσ hτ hη hc (by
      intro i j k hi hj hk
      obtain ⟨⟨w, hw, hw'⟩, -, -⟩ := hcl i j k n hi hj hk hn.spec.1 s (by cases hn <;> rfl)
      have this2 : inst.Emissivity src (r.rhoNode i) (r.TNode j) (r.YeNode k) s = ok (J (nodeState r pc i j k 0)) :=
        (hJ _ (node_covered hr hpc hi hj hk hm)).1
      have hw2 : inst.Emissivity src (r.rhoNode i) (r.TNode j) (r.YeNode k) s = ok w := hw
      rw [this2] at hw2
      rw [Outcome.ok.inj hw2]
      exact hw') hp hp'
    simp only [one_mul] at this
    exact this
  · intro hc
    have := total_rates h hr hpc (.inr rfl) (.numberEmissivity o p2 hn) (fun x hx => (hN x hx).2) hσ hτ hη hc (by
      intro i j k hi hj hk
      obtain ⟨-, ⟨w, hw, hw'⟩, -⟩ := hcl i j k n hi hj hk hn.spec.1 s (by cases hn <;> rfl)
      have this2 : inst.NumberEmissivity src (r.rhoNode i) (r.TNode j) (r.YeNode k) s = ok (N (nodeState r pc i j k 0)) :=
        (hN _ (node_covered hr hpc hi hj hk hm)).1
      have hw2 : inst.NumberEmissivity src (r.rhoNode i) (r.TNode j) (r.YeNode k) s = ok w := hw
      rw [this2] at hw2
      rw [Outcome.ok.inj hw2]
      exact hw') hp hp'
    simp only [one_mul] at this
    exact this

/-- a second state inside that table: density 6, temperature 4 -/
theorem asked_example' (pc : PC ℝ) (hpc : 0 < hzPerMeV pc) : Asked SpinerOpacity.twoNodes pc ⟨6, 4, 1 / 2, 2 * hzPerMeV pc⟩ := by
  have hS := tiny_pos
  have hK := SpinerOpacity.kelvin_pos
  have hSK := SpinerOpacity.tiny_small
  have hS1 := SpinerOpacity.tiny_le_one
  have := mul_pos hS hK
  refine ⟨by norm_num, by norm_num, by positivity, ⟨?_, ?_, ?_, ?_⟩⟩
  · simp only [floored, SpinerOpacity.twoNodes, Real.rpow_zero, Real.rpow_one]
    constructor <;> linarith
  · simp only [floored, SpinerOpacity.twoNodes, Real.rpow_zero, Real.rpow_one]
    constructor <;> linarith
  · simp only [floored, SpinerOpacity.twoNodes]
    constructor <;> norm_num
  · simp only [floored, SpinerOpacity.twoNodes, Real.rpow_zero, Real.rpow_one]
    constructor <;> nlinarith

theorem gray_changes (hpc : 0 < hzPerMeV pc) : ChangesAtMost 1 0 0 0 r pc fun x => x.rho * 2 := by
  intro x y hx hy
  have := power_change (covered_pos hpc hx).1 (covered_pos hpc hy).1 1
  rw [pow_one, pow_one, Nat.cast_one] at this
  simp only [zero_mul, add_zero]
  rw [← mul_assoc]
  exact mul_le_mul_of_nonneg_right this (by norm_num)

/-- gray opacity 2, two nodes per axis, two states that differ in density and temperature: the answers differ at most like the densities -/
example (d : FermiDirac ℝ) (pc : PC ℝ) (hpc : 0 < hzPerMeV pc) :
    ∃ o v v', FilledFrom d pc (sampledFrom (⟨d, pc, 2⟩ : Neutrinos.GrayOpacity ℝ)) SpinerOpacity.twoNodes o ∧
      NeutrinoAPI.AbsorptionCoefficient o 6 4 (1 / 2) .NU_ELECTRON (2 * hzPerMeV pc) = ok v ∧
      NeutrinoAPI.AbsorptionCoefficient o 3 5 (1 / 2) .NU_ELECTRON (2 * hzPerMeV pc) = ok v' ∧ v ≤ 2 * v' := by
  obtain ⟨o, ho⟩ := gray_filled d pc 2 SpinerOpacity.twoNodes
  obtain ⟨v, v', h1, h2, h3, h4⟩ := C93_absorption ho SpinerOpacity.twoNodes_proper hpc (.inl rfl) (M := fun x => x.rho * 2)
    (fun x hx => ⟨rfl, mul_nonneg (covered_pos hpc hx).1.le (by norm_num)⟩) zero_le_one (le_refl 0) (le_refl 0) (le_refl 0) (gray_changes hpc)
    (asked_example' pc hpc) (asked_example pc hpc) rfl rfl
  refine ⟨o, v, v', ho, h1, h2, h4.trans (mul_le_mul_of_nonneg_right ?_ h3.le)⟩
  have hS := tiny_pos
  simp only [floored, zero_mul, add_zero, one_mul]
  rw [← Real.logb_div (by positivity) (by positivity), abs_of_nonneg (Real.logb_nonneg (by norm_num) (by rw [le_div_iff₀ (by positivity)]; linarith)),
    Real.rpow_logb (by norm_num) (by norm_num) (by positivity), div_le_iff₀ (by positivity)]
  linarith

/-- the same for the spectral emissivity of that table -/
example (d : FermiDirac ℝ) (pc : PC ℝ) (hpc : 0 < hzPerMeV pc) (hd : 0 < d.NSPECIES ∧ PosPC d.pc) :
    ∃ (o : SpinerOpacity ℝ) (v v' E : ℝ), FilledFrom d pc (sampledFrom (⟨d, pc, 2⟩ : Neutrinos.GrayOpacity ℝ)) SpinerOpacity.twoNodes o ∧
      NeutrinoAPI.EmissivityPerNuOmega o 6 4 (1 / 2) .NU_ELECTRON (2 * hzPerMeV pc) = ok v ∧
      NeutrinoAPI.EmissivityPerNuOmega o 3 5 (1 / 2) .NU_ELECTRON (2 * hzPerMeV pc) = ok v' ∧ 0 < v' ∧ v ≤ 10 ^ E * v' := by
  obtain ⟨o, ho⟩ := gray_filled d pc 2 SpinerOpacity.twoNodes
  have hh := hd.2.h
  have hk := hd.2.kb
  have hX0 : 0 ≤ d.pc.h * (hzPerMeV pc * 10 ^ SpinerOpacity.twoNodes.leMax) / (d.pc.kb * 10 ^ SpinerOpacity.twoNodes.lTMin) := by positivity
  obtain ⟨v, v', h1, h2, h3, h4⟩ := C93_spectral ho SpinerOpacity.twoNodes_proper hpc (s := .NU_ELECTRON) (.inl rfl)
    (M := fun x => x.rho * 2 * d.ThermalDistributionOfTNu x.T x.nu)
    (fun x hx => ⟨rfl, mul_nonneg (mul_nonneg (covered_pos hpc hx).1.le (by norm_num)) (spectrum_pos hd (covered_pos hpc hx).2.2).le⟩)
    zero_le_one hX0 (le_refl 0) (by linarith) (gray_spectral_changes hd hpc (by norm_num) rfl) (asked_example' pc hpc) (asked_example pc hpc) rfl rfl
  exact ⟨o, v, v', _, ho, h1, h2, h3, h4⟩

/-- the same for the totals of that table -/
example (d : FermiDirac ℝ) (pc : PC ℝ) (hpc : 0 < hzPerMeV pc) (hd : 0 < d.NSPECIES ∧ PosPC d.pc) :
    ∃ (o : SpinerOpacity ℝ) (v v' E : ℝ), FilledFrom d pc (sampledFrom (⟨d, pc, 2⟩ : Neutrinos.GrayOpacity ℝ)) SpinerOpacity.twoNodes o ∧
      NeutrinoAPI.Emissivity o 6 4 (1 / 2) .NU_ELECTRON = ok v ∧ NeutrinoAPI.Emissivity o 3 5 (1 / 2) .NU_ELECTRON = ok v' ∧
      0 < v' ∧ v ≤ 10 ^ E * v' := by
  obtain ⟨o, ho⟩ := gray_filled d pc 2 SpinerOpacity.twoNodes
  obtain ⟨CJ, CN, c1, c2, eJ, eN⟩ := fermi_totals hd
  obtain ⟨v, v', h1, h2, h3, h4⟩ := (C93_total ho SpinerOpacity.twoNodes_proper hpc (s := .NU_ELECTRON) (.inl rfl)
    (J := fun x => x.rho * 2 * d.ThermalDistributionOfT x.T) (N := fun x => 2 * d.ThermalNumberDistributionOfT x.T)
    (fun x hx => ⟨rfl, by
      obtain ⟨x1, x2, x3⟩ := covered_pos hpc hx
      simp only [eJ]
      positivity⟩)
    (fun x hx => ⟨rfl, by
      obtain ⟨x1, x2, x3⟩ := covered_pos hpc hx
      simp only [eN]
      positivity⟩) zero_le_one (by norm_num : (0 : ℝ) ≤ 4) (le_refl 0) (asked_example' pc hpc) (asked_example pc hpc) rfl rfl rfl).1
    (gray_total_changes hd hpc (by norm_num))
  exact ⟨o, v, v', _, ho, h1, h2, h3, h4⟩

/-- the hypotheses of `C93_slope` are met: the same table along the density, at least the power 0 and at most the power 1 -/
example (d : FermiDirac ℝ) (pc : PC ℝ) (hpc : 0 < hzPerMeV pc) :
    ∃ (q : Query) (p p' : State) (g : Grid ℝ) (x x' : ℝ), FromTable q ∧ q.axes[0]? = some g ∧
      (∀ is i v w, is[0]? = some i → q.Entry is v → q.Entry (is.set 0 (i + 1)) w → Indexes q.axes is →
        Indexes q.axes (is.set 0 (i + 1)) → 10 ^ ((0 : ℝ) * ((g.max - g.min) / (g.N - 1))) * v ≤ w ∧
          w ≤ 10 ^ ((1 : ℝ) * ((g.max - g.min) / (g.N - 1))) * v) ∧
      (∀ k, k ≠ 0 → (q.at p)[k]? = (q.at p')[k]?) ∧
      (∀ k g z, k ≠ 0 → q.axes[k]? = some g → (q.at p)[k]? = some z → g.min ≤ z ∧ z ≤ g.max) ∧
      (q.at p)[0]? = some x ∧ (q.at p')[0]? = some x' ∧ x < x' := by
  obtain ⟨o, ho⟩ := gray_filled d pc 2 SpinerOpacity.twoNodes
  obtain ⟨-, -, p1, -⟩ := filled_proper ho SpinerOpacity.twoNodes_proper
  have hpo := (SpinerOpacity.filled_cells ho).1
  have hr := SpinerOpacity.twoNodes_proper
  have hS := tiny_pos
  obtain ⟨q, hq⟩ : ∃ q, q = spectralQuery o.pc o.lalphanu_ 0 1 fun p => o.AbsorptionCoefficient p.rho p.T p.Ye .NU_ELECTRON p.nu := ⟨_, rfl⟩
  have ax : q.axes = spectralAxes SpinerOpacity.twoNodes := by rw [hq]; exact spectral_axes ho _ (.inl rfl)
  have at' : ∀ p, q.at p = spectralCoords pc p := fun p => by rw [hq, ← hpo]; rfl
  have hin := asked_inside hpc (asked_example pc hpc)
  refine ⟨q, ⟨3, 5, 1 / 2, 2 * hzPerMeV pc⟩, ⟨6, 5, 1 / 2, 2 * hzPerMeV pc⟩, _, tableCoord 3, tableCoord 6, hq ▸ .absorption o p1 .e,
    by rw [ax]; rfl, ?_, ?_, ?_, by rw [at']; rfl, by rw [at']; rfl, ?_⟩
  · intro is i v w hi hv hw h1 h2
    rw [ax] at h1 h2
    obtain ⟨i1, j1, k1, m1, rfl, a1, a2, a3, a4⟩ := indexes_four h1
    obtain ⟨i2, j2, k2, m2, e2, b1, b2, b3, b4⟩ := indexes_four h2
    rw [e2] at hw
    simp only [List.getElem?_cons_zero, Option.some.injEq, List.set_cons_zero, List.cons.injEq, Nat.cast_inj, and_true] at hi e2
    subst hi
    obtain ⟨q1, rfl, rfl, rfl⟩ := e2
    obtain rfl : i2 = i1 + 1 := by omega
    subst hq
    obtain ⟨l, hl, rfl⟩ := hv
    obtain ⟨l', hl', rfl⟩ := hw
    have rd := absorption_read (s := .NU_ELECTRON) (n := 0) ho hr hpc .e (M := fun x => x.rho * 2) fun _ _ => rfl
    have hl1 : o.lalphanu_.read [(i1 : ℤ), j1, k1, (0 : ℕ), m1] = ok l := hl
    have hl2 : o.lalphanu_.read [((i1 + 1 : ℕ) : ℤ), j1, k1, (0 : ℕ), m1] = ok l' := hl'
    rw [rd _ _ _ _ a1 a2 a3 a4] at hl1
    rw [rd _ _ _ _ b1 b2 b3 b4] at hl2
    have n1 : i1 = 0 := by have : SpinerOpacity.twoNodes.NRho = 2 := rfl; omega
    subst n1
    have z : SpinerOpacity.twoNodes.rhoNode 0 = 1 ∧ SpinerOpacity.twoNodes.rhoNode (0 + 1) = 10 := by
      unfold SpinerOpacity.Ranges.rhoNode SpinerOpacity.equi SpinerOpacity.twoNodes
      norm_num
    rw [← Outcome.ok.inj hl1, ← Outcome.ok.inj hl2]
    simp only [nodeState, z.1, z.2]
    rw [pow_toLog (by norm_num), pow_toLog (by norm_num)]
    simp only [SpinerOpacity.twoNodes]
    norm_num
    linarith
  · intro k hk
    rw [at', at']
    rcases k with _ | k
    · exact absurd rfl hk
    · rfl
  · intro k g z _ hg hz
    rw [ax] at hg
    rw [at'] at hz
    obtain ⟨hl, hf⟩ := List.forall₂_iff_get.1 hin
    obtain ⟨c1, e1⟩ := List.getElem?_eq_some_iff.1 hg
    obtain ⟨c2, e2⟩ := List.getElem?_eq_some_iff.1 hz
    have := hf k c1 c2
    simp only [List.get_eq_getElem, e1, e2] at this
    exact this
  · unfold tableCoord
    rw [max_eq_left (by norm_num), max_eq_left (by norm_num)]
    exact Real.logb_lt_logb (by norm_num) (by positivity) (by linarith)

end

end Opac.Tables
