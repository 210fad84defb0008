import Verif.Props.NeutrinoMeanRates
import Verif.Props.TableKirchhoff

/-!
# C90: tabulated emission and absorption balance up to a known factor

Over the reals.  At the nodes a table keeps Kirchhoff's law (`C23_tabulated_partial`), between them it does not
(`C23_tabulated_false`).  Emissivity and absorption are interpolated with the same weights, so that their ratio is off only by how
much the thermal spectrum deviates from a power law between neighbouring nodes: the source does not matter.
-/

namespace Opac.Tables
open Arith Outcome Spec Spiner Photons Neutrinos
open SpinerOpacity (tiny tiny_pos Tabulated hzPerMeV kelvinPerMeV Ranges FilledFrom sampledFrom)

/-! ## Helpers -/

/-- the ratio of two answers of tables on the same axes -/
theorem near_ratio {q q' : Query} (h : FromTable q) (h' : FromTable q') (hax : q'.axes = q.axes) {p : State} (hat : q'.at p = q.at p)
    (hin : InsideGrids q.axes (q.at p)) {Ps : List ℝ} (hl : Ps.length = q.axes.length) (hP : ∀ P ∈ Ps, 0 ≤ P) {V E : ℝ} (hV : 0 < V)
    (hn : ∀ is e e', Indexes q.axes is → q.Entry is e → q'.Entry is e' →
      |Real.logb 10 e' - Real.logb 10 e - Real.logb 10 V| ≤ E + travel Ps q.axes is (q.at p)) :
    ∃ k k', q.answer p = ok (q.factor p * k) ∧ q'.answer p = ok (q'.factor p * k') ∧ 0 < k ∧
      10 ^ (-(E + halfSteps Ps q.axes)) * V * k ≤ k' ∧ k' ≤ 10 ^ (E + halfSteps Ps q.axes) * V * k := by
  obtain ⟨v, hv, he⟩ := h.good.closed
  obtain ⟨v', hv', he'⟩ := h'.good.closed
  obtain ⟨cs, hc⟩ := inCell_of_inside h.good.proper hin
  have := mlin_near h.good.proper hl hP hc (v := fun is => v' is - v is) (a := Real.logb 10 V) (E := E) fun is his => by
    have hi := corner_indexes _ _ _ _ hc his
    have := hn is _ _ hi ⟨_, hv is hi, rfl⟩ ⟨_, hv' is (hax ▸ hi), rfl⟩
    rwa [Real.logb_rpow (by norm_num) (by norm_num), Real.logb_rpow (by norm_num) (by norm_num)] at this
  rw [← mlin_sub, abs_le] at this
  refine ⟨_, _, he p, he' p, by positivity, ?_, ?_⟩ <;> rw [hax, hat]
  · calc _ = (10 : ℝ) ^ (-(E + halfSteps Ps q.axes) + Real.logb 10 V + mlin q.axes v (q.at p)) := by
          rw [Real.rpow_add (by norm_num), Real.rpow_add (by norm_num), Real.rpow_logb (by norm_num) (by norm_num) hV]
      _ ≤ _ := Real.rpow_le_rpow_of_exponent_le (by norm_num) (by linarith [this.1])
  · calc _ ≤ (10 : ℝ) ^ (E + halfSteps Ps q.axes + Real.logb 10 V + mlin q.axes v (q.at p)) :=
          Real.rpow_le_rpow_of_exponent_le (by norm_num) (by linarith [this.2])
      _ = _ := by rw [Real.rpow_add (by norm_num), Real.rpow_add (by norm_num), Real.rpow_logb (by norm_num) (by norm_num) hV]

section
variable {d : FermiDirac ℝ} {pc : PC ℝ} {r : Ranges} {o : SpinerOpacity ℝ} {O : Type} [inst : NeutrinoAPI ℝ O] {src : O}

/-- the thermal spectrum inside a table, with `X` the largest `hν/kT` in it -/
theorem spectrum_changes (hd : 0 < d.NSPECIES ∧ PosPC d.pc) (hpc : 0 < hzPerMeV pc) {X : ℝ}
    (hX : X = d.pc.h * (hzPerMeV pc * 10 ^ r.leMax) / (d.pc.kb * 10 ^ r.lTMin)) :
    ChangesAtMost 0 X 0 (max 3 X) r pc fun x => d.ThermalDistributionOfTNu x.T x.nu := by
  intro x y hx hy
  obtain ⟨x1, x2, x3⟩ := covered_pos hpc hx
  obtain ⟨y1, y2, y3⟩ := covered_pos hpc hy
  have hh := hd.2.h
  have hk := hd.2.kb
  have hcc := hd.2.c
  have hg : (0 : ℝ) < d.NSPECIES := by exact_mod_cast hd.1
  have arg : ∀ {T ν : ℝ}, 10 ^ r.lTMin ≤ T → ν ≤ hzPerMeV pc * 10 ^ r.leMax → d.pc.h * ν / (d.pc.kb * T) ≤ X := by
    intro T ν h1 h2
    rw [hX]
    have : 0 ≤ hzPerMeV pc * (10 : ℝ) ^ r.leMax := by positivity
    exact div_le_div₀ (by positivity) (mul_le_mul_of_nonneg_left h2 hh.le) (by positivity) (mul_le_mul_of_nonneg_left h1 hk.le)
  have a1 := arg hx.T.1 hy.nu.2
  have a2 := arg hy.T.1 hy.nu.2
  have s1 := fermiLaw_change hd.2 hd.1 x2 y2 y3 a1 a2
  have s2 : fermiDiracLaw d.NSPECIES d.pc.h d.pc.kb d.pc.c x.T x.nu ≤
      10 ^ (max 3 X * |Real.logb 10 x.nu - Real.logb 10 y.nu|) * fermiDiracLaw d.NSPECIES d.pc.h d.pc.kb d.pc.c x.T y.nu := by
    have up : ∀ {m : ℝ}, m ≤ max 3 X → (10 : ℝ) ^ (m * |Real.logb 10 x.nu - Real.logb 10 y.nu|) ≤
        10 ^ (max 3 X * |Real.logb 10 x.nu - Real.logb 10 y.nu|) := fun h =>
      Real.rpow_le_rpow_of_exponent_le (by norm_num) (mul_le_mul_of_nonneg_right h (abs_nonneg _))
    have key : x.nu ^ 3 * (1 / (Real.exp (d.pc.h * x.nu / (d.pc.kb * x.T)) + 1)) ≤
        10 ^ (max 3 X * |Real.logb 10 x.nu - Real.logb 10 y.nu|) * (y.nu ^ 3 * (1 / (Real.exp (d.pc.h * y.nu / (d.pc.kb * x.T)) + 1))) := by
      rcases le_total y.nu x.nu with h | h
      · have e1 := (power_change x3 y3 3).trans (mul_le_mul_of_nonneg_right (up (by push_cast; exact le_max_left _ _)) (by positivity))
        have e2 : 1 / (Real.exp (d.pc.h * x.nu / (d.pc.kb * x.T)) + 1) ≤ 1 / (Real.exp (d.pc.h * y.nu / (d.pc.kb * x.T)) + 1) := by
          gcongr
        have := mul_le_mul e1 e2 (by positivity) (by positivity)
        linarith
      · have e1 := fermi_change (x := d.pc.h * x.nu / (d.pc.kb * x.T)) (y := d.pc.h * y.nu / (d.pc.kb * x.T)) (by positivity) (by positivity) a1
        have e3 : Real.logb 10 (d.pc.h * x.nu / (d.pc.kb * x.T)) - Real.logb 10 (d.pc.h * y.nu / (d.pc.kb * x.T)) =
            Real.logb 10 x.nu - Real.logb 10 y.nu := by
          rw [Real.logb_div (by positivity) (by positivity), Real.logb_div (by positivity) (by positivity),
            Real.logb_mul hh.ne' x3.ne', Real.logb_mul hh.ne' y3.ne']
          ring
        rw [e3] at e1
        have e4 := e1.trans (mul_le_mul_of_nonneg_right (up (le_max_right _ _)) (by positivity))
        have e2 : x.nu ^ 3 ≤ y.nu ^ 3 := pow_le_pow_left₀ x3.le h 3
        have := mul_le_mul e2 e4 (by positivity) (by positivity)
        linarith
    unfold fermiDiracLaw
    have := mul_le_mul_of_nonneg_left key (show 0 ≤ (d.NSPECIES : ℝ) * (2 * d.pc.h / d.pc.c ^ 2) by positivity)
    refine le_trans (le_of_eq ?_) (this.trans (le_of_eq ?_)) <;> ring
  show d.ThermalDistributionOfTNu x.T x.nu ≤ _ * d.ThermalDistributionOfTNu y.T y.nu
  rw [fermi_eq, fermi_eq]
  refine s2.trans ((mul_le_mul_of_nonneg_left s1 (by positivity)).trans (le_of_eq ?_))
  rw [← mul_assoc, ← Real.rpow_add (by norm_num)]
  congr 2
  ring

/-- **C90**: a table filled from a source that obeys Kirchhoff's law, with absorption that does not depend on the temperature, whose
absorption and emissivity exceed the floor of the table by a factor `1/ε` at the nodes.  At every state inside the table,
emissivity over absorption is within a factor `(1 + ε) 10^F` of the thermal spectrum at that state.  `F` does not depend on
the source. -/
theorem C90_balance (h : FilledFrom d pc (sampledFrom src) r o) (hr : r.Proper) (hpc : 0 < hzPerMeV pc)
    (hk : SteadyKirchhoff d inst src) {s : RadiationType} (hs : Tabulated s) {ε : ℝ}
    (hε : ∀ i j k m : ℕ, (i : ℤ) < r.NRho → (j : ℤ) < r.NT → (k : ℤ) < r.NYe → (m : ℤ) < r.Ne → ∀ α,
      inst.AbsorptionCoefficient src (r.rhoNode i) (r.TNode j) (r.YeNode k) s (r.nuNode pc m) = ok α →
      tiny ≤ ε * α ∧ tiny ≤ ε * (α * d.ThermalDistributionOfTNu (r.TNode j) (r.nuNode pc m)))
    {p : State} (hp : Asked r pc p) {F X B : ℝ} (hX : X = d.pc.h * (hzPerMeV pc * 10 ^ r.leMax) / (d.pc.kb * 10 ^ r.lTMin))
    (hF : F = factorExponent 0 X 0 (max 3 X) r)
    (hB : B = d.ThermalDistributionOfTNu (p.T + tiny * kelvinPerMeV) (p.nu + tiny * hzPerMeV pc)) :
    ∃ α j, NeutrinoAPI.AbsorptionCoefficient o p.rho p.T p.Ye s p.nu = ok α ∧
      NeutrinoAPI.EmissivityPerNuOmega o p.rho p.T p.Ye s p.nu = ok j ∧ 0 < α ∧
      10 ^ (-F) / (1 + ε) * (B * α) ≤ j ∧ j ≤ (1 + ε) * 10 ^ F * (B * α) := by
  obtain ⟨-, -, p1, p2⟩ := filled_proper h hr
  obtain ⟨n, hn⟩ := tabulated_index hs
  have ho := (SpinerOpacity.filled_cells h).1
  have ax1 := spectral_axes h o.lalphanu_ (.inl rfl)
  have ax2 := spectral_axes h o.ljnu_ (.inr rfl)
  have hS := tiny_pos
  have hd := hk.positive
  have hX0 : 0 ≤ X := by
    have := hd.2.h
    have := hd.2.kb
    rw [hX]
    positivity
  have hB' : B = d.ThermalDistributionOfTNu (floored pc p).T (floored pc p).nu := hB
  have pB : 0 < B := by rw [hB']; exact spectrum_pos hd (covered_pos hpc hp.covered).2.2
  -- some node
  have ε0 : 0 < ε := by
    have c0 : ∀ {N : ℤ}, 2 ≤ N → ((0 : ℕ) : ℤ) < N := fun h => by push_cast; omega
    obtain ⟨α, -, -, q0, q1, -⟩ := kirchhoff_entries h hpc hk hn (c0 hr.rho.1) (c0 hr.T.1) (c0 hr.Ye.1) (c0 hr.e.1)
    have := (hε 0 0 0 0 (c0 hr.rho.1) (c0 hr.T.1) (c0 hr.Ye.1) (c0 hr.e.1) α q1).1
    by_contra hne
    push Not at hne
    have := mul_nonpos_of_nonpos_of_nonneg hne q0
    linarith
  have axq : [o.lalphanu_.grid 4, o.lalphanu_.grid 3, o.lalphanu_.grid 2, o.lalphanu_.grid 0] = spectralAxes r := ax1
  obtain ⟨α, j, h1, h2, h3, h4, h5⟩ := near_ratio (.absorption o p1 hn) (.perNuOmega o p2 hn) (ax2.trans ax1.symm) (p := p) rfl
    (Ps := [0, X, 0, max 3 X]) (V := B) (E := Real.logb 10 (1 + ε)) (by
      show InsideGrids [o.lalphanu_.grid 4, _, _, _] [_, _, _, _]
      rw [ax1, ho]
      exact asked_inside hpc hp) rfl (by simp [hX0]) pB (by
      intro is e e' hi he he'
      change Indexes [o.lalphanu_.grid 4, o.lalphanu_.grid 3, o.lalphanu_.grid 2, o.lalphanu_.grid 0] is at hi
      rw [ax1] at hi
      obtain ⟨i, j, k, m, rfl, i1, i2, i3, i4⟩ := indexes_four hi
      obtain ⟨α, la, lj, q0, q1, q2, q3, q4, q5⟩ := kirchhoff_entries h hpc hk hn i1 i2 i3 i4
      obtain ⟨la', r1, rfl⟩ := he
      obtain ⟨lj', r2, rfl⟩ := he'
      change o.lalphanu_.read [(i : ℤ), j, k, n, m] = ok la' at r1
      change o.ljnu_.read [(i : ℤ), j, k, n, m] = ok lj' at r2
      rw [q2] at r1
      rw [q3] at r2
      cases r1
      cases r2
      obtain ⟨e1, e2⟩ := hε i j k m i1 i2 i3 i4 α q1
      have cn := node_covered (pc := pc) hr hpc i1 i2 i3 i4
      have nB := spectrum_pos hd (covered_pos hpc cn).2.2 (T := r.TNode j)
      have t1 := (spectrum_changes (r := r) hd hpc hX).logs cn hp.covered nB (by rw [← hB']; exact pB)
      rw [node_travel hpc hp, zero_add, ← hB'] at t1
      show _ ≤ _ + travel _ [o.lalphanu_.grid 4, o.lalphanu_.grid 3, o.lalphanu_.grid 2, o.lalphanu_.grid 0] _ [_, _, _, _]
      rw [ax1, ho]
      change |Real.logb 10 (d.ThermalDistributionOfTNu (r.TNode j) (r.nuNode pc m)) - _| ≤ travel _ _ _ [_, _, _, _] at t1
      rw [q4, q5]
      change 0 < d.ThermalDistributionOfTNu (r.TNode j) (r.nuNode pc m) at nB
      generalize d.ThermalDistributionOfTNu (r.TNode j) (r.nuNode pc m) = b at *
      have α0 : 0 < α := by
        by_contra hne
        push Not at hne
        have := mul_nonpos_of_nonneg_of_nonpos ε0.le hne
        linarith
      have g1 := Real.logb_le_logb_of_le (b := 10) (by norm_num) (show 0 < α * b + tiny by positivity)
        (show α * b + tiny ≤ (1 + ε) * (b * (α + tiny)) by nlinarith [mul_pos nB hS])
      have g2 := Real.logb_le_logb_of_le (b := 10) (by norm_num) (show 0 < b * (α + tiny) by positivity)
        (show b * (α + tiny) ≤ (1 + ε) * (α * b + tiny) by nlinarith [mul_le_mul_of_nonneg_left e1 nB.le])
      rw [Real.logb_mul (by positivity) (by positivity), Real.logb_mul (by positivity) (by positivity)] at g1 g2
      refine le_trans ?_ (add_le_add (le_refl _) t1)
      rw [abs_le]
      have t2 := neg_abs_le (Real.logb 10 b - Real.logb 10 B)
      have t3 := le_abs_self (Real.logb 10 b - Real.logb 10 B)
      constructor <;> linarith)
  change _ * B * α ≤ j at h4
  have hs' : halfSteps [0, X, 0, max 3 X] [o.lalphanu_.grid 4, o.lalphanu_.grid 3, o.lalphanu_.grid 2, o.lalphanu_.grid 0] = F := by
    rw [ax1, halfSteps_eq, hF]
  have e1 : (10 : ℝ) ^ (Real.logb 10 (1 + ε) + F) = (1 + ε) * 10 ^ F := by
    rw [Real.rpow_add (by norm_num), Real.rpow_logb (by norm_num) (by norm_num) (by positivity)]
  have e2 : (10 : ℝ) ^ (-(Real.logb 10 (1 + ε) + F)) = 10 ^ (-F) / (1 + ε) := by
    rw [Real.rpow_neg (by norm_num), e1, mul_inv, Real.rpow_neg (by norm_num)]
    ring
  refine ⟨α, j, h1.trans (congrArg ok (one_mul _)), h2.trans (congrArg ok (one_mul _)), h3, ?_, ?_⟩
  · change 10 ^ (-(_ + halfSteps _ [o.lalphanu_.grid 4, o.lalphanu_.grid 3, o.lalphanu_.grid 2, o.lalphanu_.grid 0])) * B * α ≤ j at h4
    rw [hs', e2] at h4
    linarith
  · change j ≤ 10 ^ (_ + halfSteps _ [o.lalphanu_.grid 4, o.lalphanu_.grid 3, o.lalphanu_.grid 2, o.lalphanu_.grid 0]) * B * α at h5
    rw [hs', e1] at h5
    linarith

end

/-- the hypotheses of C90 are met: some gray opacity exceeds the floor by the factor `1/tiny`, on two nodes per axis; the state has
density 3, temperature 5, electron fraction 1/2 and 2 MeV -/
example (d : FermiDirac ℝ) (pc : PC ℝ) (hpc : 0 < hzPerMeV pc) (hd : 0 < d.NSPECIES ∧ PosPC d.pc) :
    ∃ (κ X F : ℝ) (o : SpinerOpacity ℝ) (α j : ℝ), FilledFrom d pc (sampledFrom (⟨d, pc, κ⟩ : Neutrinos.GrayOpacity ℝ)) SpinerOpacity.twoNodes o ∧
      X = d.pc.h * (hzPerMeV pc * 10) / d.pc.kb ∧ F = (X + max 3 X) / 2 ∧
      NeutrinoAPI.AbsorptionCoefficient o 3 5 (1 / 2) .NU_ELECTRON (2 * hzPerMeV pc) = ok α ∧
      NeutrinoAPI.EmissivityPerNuOmega o 3 5 (1 / 2) .NU_ELECTRON (2 * hzPerMeV pc) = ok j ∧ 0 < α ∧
      10 ^ (-F) / (1 + tiny) * (d.ThermalDistributionOfTNu (5 + tiny * kelvinPerMeV) (2 * hzPerMeV pc + tiny * hzPerMeV pc) * α) ≤ j ∧
      j ≤ (1 + tiny) * 10 ^ F * (d.ThermalDistributionOfTNu (5 + tiny * kelvinPerMeV) (2 * hzPerMeV pc + tiny * hzPerMeV pc) * α) := by
  have hS := tiny_pos
  have pos : ∀ j m : ℕ, 0 < d.ThermalDistributionOfTNu (SpinerOpacity.twoNodes.TNode j) (SpinerOpacity.twoNodes.nuNode pc m) := fun j m =>
    spectrum_pos hd (nuNode_pos hpc m)
  obtain ⟨b, b0, hb⟩ : ∃ b > 0, ∀ j < 2, ∀ m < 2, b ≤ d.ThermalDistributionOfTNu (SpinerOpacity.twoNodes.TNode j) (SpinerOpacity.twoNodes.nuNode pc m) := by
    refine ⟨min (min _ _) (min _ _), lt_min (lt_min (pos 0 0) (pos 0 1)) (lt_min (pos 1 0) (pos 1 1)), fun j hj m hm => ?_⟩
    interval_cases j <;> interval_cases m
    · exact (min_le_left _ _).trans (min_le_left _ _)
    · exact (min_le_left _ _).trans (min_le_right _ _)
    · exact (min_le_right _ _).trans (min_le_left _ _)
    · exact (min_le_right _ _).trans (min_le_right _ _)
  have κ0 : 0 ≤ 1 + 1 / b := by positivity
  obtain ⟨o, ho⟩ := gray_filled d pc (1 + 1 / b) SpinerOpacity.twoNodes
  obtain ⟨α, j, q⟩ := C90_balance ho SpinerOpacity.twoNodes_proper hpc (gray_steady d pc hd κ0) (s := .NU_ELECTRON) (.inl rfl) (ε := tiny) (by
    intro i j k m hi hj hk hm α hα
    have e : SpinerOpacity.twoNodes.rhoNode i * (1 + 1 / b) = α := Outcome.ok.inj hα
    have r1 : 1 ≤ SpinerOpacity.twoNodes.rhoNode i := by
      have := (node_covered (pc := pc) SpinerOpacity.twoNodes_proper hpc hi hj hk hm).rho.1
      simpa [nodeState, SpinerOpacity.twoNodes] using this
    have := hb j (by change (j : ℤ) < 2 at hj; omega) m (by change (m : ℤ) < 2 at hm; omega)
    generalize d.ThermalDistributionOfTNu (SpinerOpacity.twoNodes.TNode j) (SpinerOpacity.twoNodes.nuNode pc m) = B at *
    have hb1 : 1 ≤ 1 / b * B := by rw [one_div_mul_eq_div, le_div_iff₀ b0]; linarith
    have b1 : 0 < 1 / b := by positivity
    have B0 : 0 < B := b0.trans_le this
    have a1 : 1 ≤ α := by rw [← e]; nlinarith
    have a2 : 1 ≤ α * B := by
      rw [← e]
      have : 1 / b * B ≤ SpinerOpacity.twoNodes.rhoNode i * (1 + 1 / b) * B := mul_le_mul_of_nonneg_right (by nlinarith) B0.le
      linarith
    constructor <;> nlinarith) (asked_example pc hpc) rfl rfl rfl
  refine ⟨1 + 1 / b, _, _, o, α, j, ho, rfl, rfl, ?_⟩
  have eX : d.pc.h * (hzPerMeV pc * 10 ^ SpinerOpacity.twoNodes.leMax) / (d.pc.kb * 10 ^ SpinerOpacity.twoNodes.lTMin) =
      d.pc.h * (hzPerMeV pc * 10) / d.pc.kb := by
    simp [SpinerOpacity.twoNodes]
  have eF : ∀ X, factorExponent 0 X 0 (max 3 X) SpinerOpacity.twoNodes = (X + max 3 X) / 2 := by
    intro X
    simp only [factorExponent, SpinerOpacity.twoNodes]
    norm_num
  rw [eX, eF] at q
  exact q

end Opac.Tables
