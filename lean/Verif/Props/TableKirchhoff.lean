import Verif.Props.TableLookup
import Verif.Props.EmissionNeutrinos

/-!
# C23 for tabulated neutrino opacities

Over the reals.  A table keeps absorption and emission separately.  Filled from a source that obeys Kirchhoff's law, it obeys it
at its nodes (up to the floors it adds, and if the source's absorption does not depend on the temperature, C48).  Between
the nodes the ratio of emission to absorption lies between its values at the corners of the cell, which can be far from the
thermal spectrum.
-/

namespace Opac.Tables
open Arith Outcome Spec Spiner Photons Neutrinos
open SpinerOpacity (tiny tiny_pos kelvinPerMeV hzPerMeV FilledFrom Tabulated Ranges AtEnergy sampledFrom)

/-! ## Helpers -/

theorem lin_sub (g : Grid ℝ) (v w : ℤ → ℝ) (x : ℝ) : lin g v x - lin g w x = lin g (fun k => v k - w k) x := by
  unfold lin
  rw [add_sub_add_comm, ← Finset.sum_sub_distrib]
  congr 1
  exact Finset.sum_congr rfl fun k _ => by ring

theorem mlin_sub : ∀ (gs : List (Grid ℝ)) (v w : List ℤ → ℝ) (xs : List ℝ),
    mlin gs v xs - mlin gs w xs = mlin gs (fun is => v is - w is) xs
  | [], v, w, xs => by simp [mlin]
  | g :: gs, v, w, [] => by simp [mlin]
  | g :: gs, v, w, x :: xs => by
    simp only [mlin]
    rw [lin_sub]
    congr 1
    funext k
    exact mlin_sub gs _ _ xs

/-- the ratio of two answers lies between the ratios of the entries at the corners -/
theorem ratio_between {q q' : Query} (h : FromTable q) (h' : FromTable q') (hax : q'.axes = q.axes) (hat : ∀ p, q'.at p = q.at p)
    (p : State) {cell : List ℕ} (hc : InCell q.axes cell (q.at p)) {lo hi : ℝ} (hlo : 0 < lo)
    (hb : ∀ is v v', Corner cell is → q.Entry is v → q'.Entry is v' → lo * v ≤ v' ∧ v' ≤ hi * v) :
    ∃ k k', q.answer p = ok (q.factor p * k) ∧ q'.answer p = ok (q'.factor p * k') ∧ 0 < k ∧ lo * k ≤ k' ∧ k' ≤ hi * k := by
  obtain ⟨v, hv, he⟩ := h.good.closed
  obtain ⟨v', hv', he'⟩ := h'.good.closed
  have hhi : 0 < hi := by
    obtain ⟨is, his⟩ : ∃ is, Corner cell is := by
      clear hc hb
      induction cell with
      | nil => exact ⟨[], trivial⟩
      | cons c cs ih =>
        obtain ⟨is, his⟩ := ih
        exact ⟨(c : ℤ) :: is, .inl rfl, his⟩
    have hi' := corner_indexes _ _ _ _ hc his
    obtain ⟨h1, h2⟩ := hb is _ _ his ⟨_, hv is hi', rfl⟩ ⟨_, hv' is (hax ▸ hi'), rfl⟩
    have a : (0 : ℝ) < 10 ^ v is := by positivity
    nlinarith
  have hlog : ∀ is, Corner cell is → Real.logb 10 lo ≤ v' is - v is ∧ v' is - v is ≤ Real.logb 10 hi := by
    intro is his
    have hi' := corner_indexes _ _ _ _ hc his
    obtain ⟨h1, h2⟩ := hb is _ _ his ⟨_, hv is hi', rfl⟩ ⟨_, hv' is (hax ▸ hi'), rfl⟩
    have a : (0 : ℝ) < 10 ^ v is := by positivity
    constructor
    · rw [Real.logb_le_iff_le_rpow (by norm_num) hlo, Real.rpow_sub (by norm_num), le_div_iff₀ a]
      exact h1
    · rw [Real.le_logb_iff_rpow_le (by norm_num) hhi, Real.rpow_sub (by norm_num), div_le_iff₀ a]
      exact h2
  obtain ⟨h1, h2⟩ := mlin_cell h.good.proper hc hlog
  rw [← mlin_sub] at h1 h2
  have a : (0 : ℝ) < 10 ^ mlin q.axes v (q.at p) := by positivity
  refine ⟨_, _, he p, he' p, a, ?_, ?_⟩
  · rw [hax, hat]
    rwa [Real.logb_le_iff_le_rpow (by norm_num) hlo, Real.rpow_sub (by norm_num), le_div_iff₀ a] at h1
  · rw [hax, hat]
    rwa [Real.le_logb_iff_rpow_le (by norm_num) hhi, Real.rpow_sub (by norm_num), div_le_iff₀ a] at h2

/-! ## C23 -/

section
variable {d : FermiDirac ℝ} {pc : PC ℝ} {r : Ranges} {o : SpinerOpacity ℝ} {O : Type} [inst : NeutrinoAPI ℝ O] {src : O}

/-- a source of the library that obeys Kirchhoff's law with the thermal spectrum `d`, whose absorption is not negative and does not
depend on the temperature -/
structure SteadyKirchhoff (d : FermiDirac ℝ) (inst : NeutrinoAPI ℝ O) (src : O) : Prop where
  kirchhoff : Opac.Neutrinos.Kirchhoff inst src
  spectrum : ∀ T s ν, inst.ThermalDistributionOfTNu src T s ν = d.ThermalDistributionOfTNu T ν
  steady : ∀ rho T T' Ye s ν, inst.AbsorptionCoefficient src rho T Ye s ν = inst.AbsorptionCoefficient src rho T' Ye s ν
  nonneg : ∀ rho T Ye s ν α, 0 < rho → 0 < ν → inst.AbsorptionCoefficient src rho T Ye s ν = ok α → 0 ≤ α
  positive : 0 < d.NSPECIES ∧ PosPC d.pc

theorem nuNode_pos (hpc : 0 < hzPerMeV pc) (m : ℕ) : 0 < r.nuNode pc m := by
  unfold SpinerOpacity.Ranges.nuNode
  positivity

theorem rhoNode_pos (i : ℕ) : 0 < r.rhoNode i := by
  unfold SpinerOpacity.Ranges.rhoNode
  positivity

theorem spectrum_pos (h : 0 < d.NSPECIES ∧ PosPC d.pc) {T ν : ℝ} (hν : 0 < ν) : 0 < d.ThermalDistributionOfTNu T ν := by
  rw [fermi_eq]
  exact fermi_pos h.2 (by exact_mod_cast h.1) hν

/-- **C23 (tables, at the nodes), partial**: at the nodes of a table filled from a source that obeys Kirchhoff's law and whose
absorption does not depend on the temperature, the table obeys Kirchhoff's law up to the floor it adds to both.  Missing: states
between the nodes (`C23_tabulated_false`) and sources whose absorption depends on the temperature
(`C48_absorption_false`). -/
theorem C23_tabulated_partial (h : FilledFrom d pc (sampledFrom src) r o) (hr : r.Proper) (hpc : 0 < hzPerMeV pc)
    (hk : SteadyKirchhoff d inst src) {i j k m : ℕ} {rho T ν : ℝ} (hn : SpinerOpacity.AtNode r i j rho T) (hY : (k : ℤ) < r.NYe)
    (hm : AtEnergy r pc m ν) {s : RadiationType} (hs : Tabulated s) :
    ∃ α, 0 ≤ α ∧ NeutrinoAPI.AbsorptionCoefficient o rho T (r.YeNode k) s ν = ok (α + tiny) ∧
      NeutrinoAPI.EmissivityPerNuOmega o rho T (r.YeNode k) s ν =
        ok (α * NeutrinoAPI.ThermalDistributionOfTNu o (r.TNode j) s (r.nuNode pc m) + tiny) := by
  obtain ⟨α, a1, a2, -⟩ := SpinerOpacity.C48_absorption_partial h hr hpc hn hY hm hs hk.steady
  obtain ⟨j', j1, j2, -⟩ := SpinerOpacity.C48_spectral h hr hpc hn hY hm hs
  have hα := hk.nonneg _ _ _ _ _ _ (rhoNode_pos i) (nuNode_pos hpc m) a1
  have e := hk.kirchhoff _ _ _ _ _ _ _ j1 a1
  rw [hk.spectrum] at e
  have hd : o.dist = d := by
    obtain ⟨junk, h⟩ := h
    exact (SpinerOpacity.fill_entries h rfl).1.dist
  have hB := (spectrum_pos hk.positive (T := r.TNode j) (nuNode_pos (r := r) hpc m)).le
  refine ⟨α, hα, ?_, ?_⟩
  · show o.AbsorptionCoefficient _ _ _ _ _ = _
    rw [a2, max_eq_left hα]
  · show o.EmissivityPerNuOmega _ _ _ _ _ = ok (α * o.dist.ThermalDistributionOfTNu _ _ + tiny)
    rw [j2, hd, e, max_eq_left (mul_nonneg hα hB)]

/-- entries of the two spectral tables -/
theorem kirchhoff_entries (h : FilledFrom d pc (sampledFrom src) r o) (hpc : 0 < hzPerMeV pc) (hk : SteadyKirchhoff d inst src)
    {i j k m n : ℕ} {s : RadiationType} (hs : SpeciesIndex s n) (hi : (i : ℤ) < r.NRho) (hj : (j : ℤ) < r.NT)
    (hY : (k : ℤ) < r.NYe) (hm : (m : ℤ) < r.Ne) :
    ∃ α la lj, 0 ≤ α ∧ inst.AbsorptionCoefficient src (r.rhoNode i) (r.TNode j) (r.YeNode k) s (r.nuNode pc m) = ok α ∧
      o.lalphanu_.read [(i : ℤ), j, k, n, m] = ok la ∧ o.ljnu_.read [(i : ℤ), j, k, n, m] = ok lj ∧
      (10 : ℝ) ^ la = α + tiny ∧ (10 : ℝ) ^ lj = α * d.ThermalDistributionOfTNu (r.TNode j) (r.nuNode pc m) + tiny := by
  obtain ⟨-, -, -, -, hc⟩ := SpinerOpacity.filled_cells h
  obtain ⟨-, -, h3⟩ := hc i j k n hi hj hY hs.spec.1 s (by cases hs <;> rfl)
  obtain ⟨⟨v, hv, hv'⟩, w, hw, hw'⟩ := h3 m hm
  have hw2 : inst.AbsorptionCoefficient src (r.rhoNode i) (r.TNode j) (r.YeNode k) s (r.nuNode pc m) = ok w := by
    rw [hk.steady _ _ (r.TNode j / kelvinPerMeV)]
    exact hw
  have hα := hk.nonneg _ _ _ _ _ _ (rhoNode_pos i) (nuNode_pos hpc m) hw2
  have e := hk.kirchhoff _ _ _ _ _ _ _ hv hw2
  rw [hk.spectrum] at e
  have hB := (spectrum_pos hk.positive (T := r.TNode j) (nuNode_pos (r := r) hpc m)).le
  have f : ∀ x : ℝ, 0 ≤ x → (10 : ℝ) ^ SpinerOpacity.toLog_ (stdMax x (lit 0.0)) = x + tiny := by
    intro x hx
    rw [← SpinerOpacity.fromLog_eq, SpinerOpacity.fromLog_toLog, max_eq_left hx]
  refine ⟨w, _, _, hα, hw2, hw', hv', f w hα, ?_⟩
  rw [f v (by rw [e]; positivity), e]

/-- the axes of the spectral tables -/
noncomputable def spectralAxes (r : Ranges) : List (Grid ℝ) :=
  [⟨r.lRhoMin, r.lRhoMax, r.NRho⟩, ⟨r.lTMin - Real.logb 10 kelvinPerMeV, r.lTMax - Real.logb 10 kelvinPerMeV, r.NT⟩,
    ⟨r.YeMin, r.YeMax, r.NYe⟩, ⟨r.leMin, r.leMax, r.Ne⟩]

/-- the coordinates of a state on them: density, temperature and energy in MeV are logarithmic -/
noncomputable def spectralCoords (pc : PC ℝ) (p : State) : List ℝ :=
  [tableCoord p.rho, tableCoord (p.T / kelvinPerMeV), p.Ye, tableCoord (p.nu / hzPerMeV pc)]

theorem spectral_axes (h : FilledFrom d pc (sampledFrom src) r o) (lk : DataBox ℝ) (hl : lk = o.lalphanu_ ∨ lk = o.ljnu_) :
    [lk.grid 4, lk.grid 3, lk.grid 2, lk.grid 0] = spectralAxes r := by
  obtain ⟨-, -, -, hg, -⟩ := SpinerOpacity.filled_cells h
  obtain ⟨g0, g2, g3, g4⟩ := hg lk hl
  have e : log10 (SpinerOpacity.K2MeV : ℝ) = - Real.logb 10 kelvinPerMeV := by
    rw [SpinerOpacity.K2MeV_eq]
    simp only [areal]
    rw [one_div, Real.logb_inv]
  rw [g0, g2, g3, g4, e]
  rfl

/-- **C23 (tables, everywhere)**: in every cell that contains the state, emission over absorption lies between any bounds that hold
for `(α B + floor) / (α + floor)` at the corners of the cell, `α` being the source's absorption and `B` the thermal spectrum there -/
theorem C23_tabulated_between (h : FilledFrom d pc (sampledFrom src) r o) (hr : r.Proper) (hpc : 0 < hzPerMeV pc)
    (hk : SteadyKirchhoff d inst src) {s : RadiationType} (hs : Tabulated s) {p : State} {a b c e : ℕ}
    (hc : InCell (spectralAxes r) [a, b, c, e] (spectralCoords pc p)) {lo hi : ℝ} (hlo : 0 < lo)
    (hb : ∀ i j k m : ℕ, (i = a ∨ i = a + 1) → (j = b ∨ j = b + 1) → (k = c ∨ k = c + 1) → (m = e ∨ m = e + 1) → ∀ α,
      inst.AbsorptionCoefficient src (r.rhoNode i) (r.TNode j) (r.YeNode k) s (r.nuNode pc m) = ok α →
      lo ≤ (α * d.ThermalDistributionOfTNu (r.TNode j) (r.nuNode pc m) + tiny) / (α + tiny) ∧
      (α * d.ThermalDistributionOfTNu (r.TNode j) (r.nuNode pc m) + tiny) / (α + tiny) ≤ hi) :
    ∃ α j, NeutrinoAPI.AbsorptionCoefficient o p.rho p.T p.Ye s p.nu = ok α ∧
      NeutrinoAPI.EmissivityPerNuOmega o p.rho p.T p.Ye s p.nu = ok j ∧ 0 < α ∧ lo * α ≤ j ∧ j ≤ hi * α := by
  obtain ⟨-, -, p1, p2⟩ := filled_proper h hr
  obtain ⟨n, hn⟩ : ∃ n, SpeciesIndex s n := by
    rcases hs with rfl | rfl | rfl
    exacts [⟨_, .e⟩, ⟨_, .ebar⟩, ⟨_, .x⟩]
  have ho := (SpinerOpacity.filled_cells h).1
  have ax1 := spectral_axes h o.lalphanu_ (.inl rfl)
  have ax2 := spectral_axes h o.ljnu_ (.inr rfl)
  have hS := tiny_pos
  obtain ⟨α, j, h1, h2, h3, h4, h5⟩ := ratio_between (.absorption o p1 hn) (.perNuOmega o p2 hn) (ax2.trans ax1.symm)
    (fun _ => rfl) p (cell := [a, b, c, e]) (hi := hi) (by
      show InCell [o.lalphanu_.grid 4, _, _, _] _ _
      rw [ax1]
      show InCell _ _ [_, _, _, _]
      rw [ho]
      exact hc) hlo (by
    intro is v v' his hv hv'
    rcases is with _ | ⟨i, _ | ⟨j, _ | ⟨k, _ | ⟨m, _ | ⟨_, is⟩⟩⟩⟩⟩ <;> simp only [Corner, and_false] at his
    obtain ⟨⟨i0, i1⟩, ⟨j0, j1⟩, ⟨k0, k1⟩, ⟨m0, m1⟩, -⟩ := corner_indexes _ _ _ [i, j, k, m] hc (by simpa [Corner] using his)
    obtain ⟨ci, cj, ck, cm, -⟩ := his
    lift i to ℕ using i0
    lift j to ℕ using j0
    lift k to ℕ using k0
    lift m to ℕ using m0
    obtain ⟨α, la, lj, q0, q1, q2, q3, q4, q5⟩ := kirchhoff_entries h hpc hk hn i1 j1 k1 m1
    obtain ⟨la', r1, rfl⟩ := hv
    obtain ⟨lj', r2, rfl⟩ := hv'
    change o.lalphanu_.read [(i : ℤ), j, k, n, m] = ok la' at r1
    change o.ljnu_.read [(i : ℤ), j, k, n, m] = ok lj' at r2
    rw [q2] at r1
    rw [q3] at r2
    cases r1
    cases r2
    obtain ⟨b1, b2⟩ := hb i j k m (by omega) (by omega) (by omega) (by omega) α q1
    rw [le_div_iff₀ (by linarith)] at b1
    rw [div_le_iff₀ (by linarith)] at b2
    rw [q4, q5]
    exact ⟨b1, b2⟩)
  refine ⟨α, j, ?_, ?_, h3, h4, h5⟩
  · exact h1.trans (congrArg ok (one_mul _))
  · exact h2.trans (congrArg ok (one_mul _))

end

/-! ## Between the nodes -/

/-- gray absorption is such a source -/
theorem gray_steady (d : FermiDirac ℝ) (pc : PC ℝ) (h : 0 < d.NSPECIES ∧ PosPC d.pc) {κ : ℝ} (hκ : 0 ≤ κ) :
    SteadyKirchhoff d (inferInstance : NeutrinoAPI ℝ (Neutrinos.GrayOpacity ℝ)) ⟨d, pc, κ⟩ where
  kirchhoff := Neutrinos.C23_gray _ .self
  spectrum _ _ _ := rfl
  steady _ _ _ _ _ _ := rfl
  nonneg rho T Ye s ν α hρ _ h := by
    have e : rho * κ = α := Outcome.ok.inj h
    rw [← e]
    positivity
  positive := h

theorem gray_filled (d : FermiDirac ℝ) (pc : PC ℝ) (κ : ℝ) (r : Ranges) :
    ∃ o, FilledFrom d pc (sampledFrom (⟨d, pc, κ⟩ : Neutrinos.GrayOpacity ℝ)) r o := by
  obtain ⟨o, ho⟩ := SpinerOpacity.fill_returns (dist := d) (pc := pc)
    (opac := sampledFrom (⟨d, pc, κ⟩ : Neutrinos.GrayOpacity ℝ)) (junk := fun _ _ => (0 : ℝ))
    (lRhoMin := r.lRhoMin) (lRhoMax := r.lRhoMax) (NRho := r.NRho) (lTMin := r.lTMin) (lTMax := r.lTMax) (NT := r.NT)
    (YeMin := r.YeMin) (YeMax := r.YeMax) (NYe := r.NYe) (leMin := r.leMin) (leMax := r.leMax) (Ne := r.Ne)
    (fun _ _ _ _ => ⟨_, rfl⟩) (fun _ _ _ _ => ⟨_, rfl⟩) (fun _ _ _ _ _ => ⟨_, rfl⟩) (fun _ _ _ _ _ => ⟨_, rfl⟩)
  exact ⟨o, _, ho⟩

theorem lin_two (a b : ℝ) (v : ℤ → ℝ) (x : ℝ) :
    lin ⟨a, b, 2⟩ v x = v 0 + (v 1 - v 0) * ((x - a) / (b - a)) := by
  unfold lin
  norm_num [ramp]

/-- halfway between two nodes of the second axis -/
theorem mlin_half (a₁ b₁ a₂ a₃ b₃ a₄ b₄ : ℝ) (v : List ℤ → ℝ) :
    mlin [⟨a₁, b₁, 2⟩, ⟨a₂, a₂ + 2, 2⟩, ⟨a₃, b₃, 2⟩, ⟨a₄, b₄, 2⟩] v [a₁, a₂ + 1, a₃, a₄] = (v [0, 0, 0, 0] + v [0, 1, 0, 0]) / 2 := by
  simp only [mlin, lin_two]
  norm_num
  ring

/-- the spectrum at the middle temperature against those at the ends -/
theorem spectrum_mid (d : FermiDirac ℝ) (h : 0 < d.NSPECIES ∧ PosPC d.pc) {T₀ ν₀ T ν : ℝ} (hT : 0 < T₀)
    (he : d.pc.h * ν₀ = 100 * (d.pc.kb * T₀)) (t1 : 9 * T₀ ≤ T) (n1 : 9 / 10 * ν₀ ≤ ν) (n2 : ν ≤ ν₀) :
    4000000 * d.ThermalDistributionOfTNu T₀ ν₀ * d.ThermalDistributionOfTNu (100 * T₀) ν₀ < d.ThermalDistributionOfTNu T ν ^ 2 := by
  obtain ⟨hd, P1, P2, P3, -⟩ := h
  have hν₀ : 0 < ν₀ := by
    have : 0 < d.pc.h * ν₀ := by rw [he]; positivity
    exact pos_of_mul_pos_right this P1.le
  have hg : (0 : ℝ) < d.NSPECIES := by exact_mod_cast hd
  have hν : 0 < ν := by linarith
  have hT' : 0 < T := by linarith
  simp only [fermi_eq]
  unfold fermiDiracLaw
  have e1 : d.pc.h * ν₀ / (d.pc.kb * T₀) = 100 := by rw [he]; field_simp
  have e2 : d.pc.h * ν₀ / (d.pc.kb * (100 * T₀)) = 1 := by rw [he]; field_simp
  have e3 : d.pc.h * ν / (d.pc.kb * T) ≤ 12 := by
    rw [div_le_iff₀ (by positivity)]
    have a1 : d.pc.h * ν ≤ d.pc.h * ν₀ := mul_le_mul_of_nonneg_left n2 P1.le
    have a2 : d.pc.kb * (9 * T₀) ≤ d.pc.kb * T := mul_le_mul_of_nonneg_left t1 P2.le
    have a3 : 0 < d.pc.kb * T₀ := by positivity
    linarith
  rw [e1, e2]
  set C := (d.NSPECIES : ℝ) * (2 * d.pc.h / d.pc.c ^ 2) with hC
  have hCp : 0 < C := by positivity
  have c1 : (d.NSPECIES : ℝ) * (2 * d.pc.h * ν₀ ^ 3 / d.pc.c ^ 2) = C * ν₀ ^ 3 := by rw [hC]; ring
  have c2 : (d.NSPECIES : ℝ) * (2 * d.pc.h * ν ^ 3 / d.pc.c ^ 2) = C * ν ^ 3 := by rw [hC]; ring
  rw [c1, c2]
  have hE := Real.exp_le_exp.2 e3
  set E := Real.exp (d.pc.h * ν / (d.pc.kb * T))
  set E12 := Real.exp 12 with h12
  have p12 : 1 ≤ E12 := Real.one_le_exp (by norm_num)
  have e100 : Real.exp 100 = E12 ^ 2 * Real.exp 76 := by
    rw [h12, ← Real.exp_nat_mul, ← Real.exp_add]
    norm_num
  have e76 : (10 : ℝ) ^ 9 ≤ Real.exp 76 := by
    have : Real.exp 76 = Real.exp 1 ^ 76 := by rw [← Real.exp_nat_mul]; norm_num
    rw [this]
    have h2 : (2 : ℝ) ≤ Real.exp 1 := by have := Real.add_one_le_exp (1 : ℝ); linarith
    have h3 : (2 : ℝ) ^ 76 ≤ Real.exp 1 ^ 76 := pow_le_pow_left₀ (by norm_num) h2 76
    have h4 : (10 : ℝ) ^ 9 ≤ 2 ^ 76 := by norm_num
    exact h4.trans h3
  have hEp : 0 < E := Real.exp_pos _
  have v3 : (9 / 10 * ν₀) ^ 3 ≤ ν ^ 3 := pow_le_pow_left₀ (by positivity) n1 3
  -- lower bound of the middle
  have low : C * ν₀ ^ 3 * (7 / 10) / (2 * E12) ≤ C * ν ^ 3 / (E + 1) := by
    have : ν₀ ^ 3 * (7 / 10) ≤ ν ^ 3 := by
      have q : 0 < ν₀ ^ 3 := by positivity
      nlinarith
    rw [mul_assoc]
    exact div_le_div₀ (by positivity) (mul_le_mul_of_nonneg_left this hCp.le) (by positivity) (by linarith)
  have low2 : (C * ν₀ ^ 3 * (7 / 10) / (2 * E12)) ^ 2 ≤ (C * ν ^ 3 / (E + 1)) ^ 2 := pow_le_pow_left₀ (by positivity) low 2
  refine lt_of_lt_of_le ?_ low2
  -- upper bound of the ends
  have up1 : C * ν₀ ^ 3 / (Real.exp 100 + 1) ≤ C * ν₀ ^ 3 / (E12 ^ 2 * 10 ^ 9) := by
    apply div_le_div_of_nonneg_left (by positivity) (by positivity)
    rw [e100]
    have := mul_le_mul_of_nonneg_left e76 (sq_nonneg E12)
    linarith
  have up2 : C * ν₀ ^ 3 / (Real.exp 1 + 1) ≤ C * ν₀ ^ 3 := by
    apply div_le_self (by positivity)
    have := Real.exp_pos 1
    linarith
  have up : 4000000 * (C * ν₀ ^ 3 / (Real.exp 100 + 1)) * (C * ν₀ ^ 3 / (Real.exp 1 + 1)) ≤
      4000000 * (C * ν₀ ^ 3 / (E12 ^ 2 * 10 ^ 9)) * (C * ν₀ ^ 3) :=
    mul_le_mul (mul_le_mul_of_nonneg_left up1 (by norm_num)) up2 (by positivity) (by positivity)
  refine lt_of_le_of_lt up ?_
  have q : 0 < C * ν₀ ^ 3 := by positivity
  generalize C * ν₀ ^ 3 = X at *
  have l : 4000000 * (X / (E12 ^ 2 * 10 ^ 9)) * X = X ^ 2 / E12 ^ 2 * (4 / 1000) := by field_simp; norm_num
  have r' : (X * (7 / 10) / (2 * E12)) ^ 2 = X ^ 2 / E12 ^ 2 * (49 / 400) := by field_simp; norm_num
  rw [l, r']
  have : 0 < X ^ 2 / E12 ^ 2 := by positivity
  linarith

/-- **C23 is false of tables between the nodes**: whatever the thermal spectrum, some table filled on proper ranges from a gray
opacity emits, at a state inside the table, less than a thousandth of what Kirchhoff's law demands of its absorption -/
theorem C23_tabulated_false (d : FermiDirac ℝ) (pc : PC ℝ) (hpc : 0 < hzPerMeV pc) (hd : 0 < d.NSPECIES ∧ PosPC d.pc) :
    ∃ (κ : ℝ) (r : Ranges) (o : SpinerOpacity ℝ) (p : State) (α j : ℝ),
      FilledFrom d pc (sampledFrom (⟨d, pc, κ⟩ : Neutrinos.GrayOpacity ℝ)) r o ∧ r.Proper ∧
      InCell (spectralAxes r) [0, 0, 0, 0] (spectralCoords pc p) ∧ 0 < p.rho ∧ 0 < p.T ∧ 0 < p.nu ∧
      NeutrinoAPI.AbsorptionCoefficient o p.rho p.T p.Ye .NU_HEAVY p.nu = ok α ∧
      NeutrinoAPI.EmissivityPerNuOmega o p.rho p.T p.Ye .NU_HEAVY p.nu = ok j ∧ 0 < α ∧
      j < α * NeutrinoAPI.ThermalDistributionOfTNu o p.T .NU_HEAVY p.nu / 1000 := by
  obtain ⟨hd1, P⟩ := id hd
  have hS := tiny_pos
  have hK := SpinerOpacity.kelvin_pos
  have hSK := SpinerOpacity.tiny_small
  have P1 := P.h
  have P2 := P.kb
  set hz := hzPerMeV pc with hhz
  set ν₀ := max (100 * d.pc.kb / d.pc.h) hz with hν₀
  have nz : hz ≤ ν₀ := le_max_right _ _
  have hνp : 0 < ν₀ := by linarith
  set T₀ := d.pc.h * ν₀ / (100 * d.pc.kb) with hT₀
  have hT1 : 1 ≤ T₀ := by
    rw [hT₀, le_div_iff₀ (by positivity), one_mul]
    have := le_max_left (100 * d.pc.kb / d.pc.h) hz
    rw [← hν₀, div_le_iff₀ P1] at this
    linarith
  have hT0 : 0 < T₀ := by linarith
  have hrel : d.pc.h * ν₀ = 100 * (d.pc.kb * T₀) := by rw [hT₀]; field_simp
  have hS1 : tiny ≤ 1 / 10 := by
    have : tiny * 100 ≤ tiny * kelvinPerMeV := mul_le_mul_of_nonneg_left (by unfold kelvinPerMeV; norm_num) hS.le
    linarith
  set r : Ranges := ⟨0, 1, 2, Real.logb 10 T₀, Real.logb 10 T₀ + 2, 2, 0, 1, 2, Real.logb 10 (ν₀ / hz), Real.logb 10 (ν₀ / hz) + 1, 2⟩ with hr
  have hprop : r.Proper := by constructor <;> simp [hr]
  have ten : (0 : ℝ) < 10 := by norm_num
  have ten1 : (10 : ℝ) ≠ 1 := by norm_num
  have eρ : r.rhoNode 0 = 1 := by simp [SpinerOpacity.Ranges.rhoNode, SpinerOpacity.equi, hr]
  have eT0 : r.TNode 0 = T₀ := by
    simp only [SpinerOpacity.Ranges.TNode, SpinerOpacity.equi, hr]
    norm_num
    exact Real.rpow_logb ten ten1 hT0
  have eT1 : r.TNode 1 = 100 * T₀ := by
    simp only [SpinerOpacity.Ranges.TNode, SpinerOpacity.equi, hr]
    norm_num
    rw [Real.rpow_add ten, Real.rpow_logb ten ten1 hT0]
    norm_num
    ring
  have eν : r.nuNode pc 0 = ν₀ := by
    simp only [SpinerOpacity.Ranges.nuNode, SpinerOpacity.equi, hr]
    norm_num
    rw [Real.rpow_logb ten ten1 (by positivity), ← hhz]
    field_simp
  have B1 := spectrum_pos hd (T := T₀) hνp
  have B2 := spectrum_pos hd (T := 100 * T₀) hνp
  set κ := tiny / d.ThermalDistributionOfTNu T₀ ν₀ with hκ
  have κp : 0 < κ := by positivity
  obtain ⟨o, ho⟩ := gray_filled d pc κ r
  have hk := gray_steady d pc hd κp.le
  set p : State := ⟨1 - tiny, 10 * T₀ - tiny * kelvinPerMeV, 0, ν₀ - tiny * hz⟩ with hp
  have sz : tiny * hz ≤ 1 / 10 * ν₀ := by
    have := mul_le_mul hS1 nz hpc.le (by norm_num)
    exact this
  have hpT : 9 * T₀ ≤ p.T := by simp only [hp]; linarith
  have hpν : 9 / 10 * ν₀ ≤ p.nu := by simp only [hp]; linarith
  have hpν' : p.nu ≤ ν₀ := by
    simp only [hp]
    have : 0 < tiny * hz := by positivity
    linarith
  have hpρ : 0 < p.rho := by simp only [hp]; linarith
  have hpT0 : 0 < p.T := by linarith
  have hpν0 : 0 < p.nu := by linarith
  have c1 : tableCoord p.rho = 0 := by
    unfold tableCoord
    rw [max_eq_left hpρ.le]
    simp [hp]
  have c2 : tableCoord (p.T / kelvinPerMeV) = Real.logb 10 T₀ - Real.logb 10 kelvinPerMeV + 1 := by
    unfold tableCoord
    rw [max_eq_left (by positivity), show p.T / kelvinPerMeV + tiny = T₀ * 10 / kelvinPerMeV by simp only [hp]; field_simp; ring,
      Real.logb_div (by positivity) hK.ne', Real.logb_mul hT0.ne' (by norm_num), Real.logb_self_eq_one (by norm_num)]
    ring
  have c4 : tableCoord (p.nu / hz) = Real.logb 10 (ν₀ / hz) := by
    unfold tableCoord
    rw [max_eq_left (by positivity)]
    congr 1
    simp only [hp]
    field_simp
    ring
  have hcoord : spectralCoords pc p = [0, Real.logb 10 T₀ - Real.logb 10 kelvinPerMeV + 1, 0, Real.logb 10 (ν₀ / hz)] := by
    unfold spectralCoords
    rw [c1, c2, ← hhz, c4]
  have hax : spectralAxes r = [⟨0, 1, 2⟩, ⟨Real.logb 10 T₀ - Real.logb 10 kelvinPerMeV,
      Real.logb 10 T₀ - Real.logb 10 kelvinPerMeV + 2, 2⟩, ⟨0, 1, 2⟩, ⟨Real.logb 10 (ν₀ / hz), Real.logb 10 (ν₀ / hz) + 1, 2⟩] := by
    simp only [spectralAxes, hr]
    congr 3
    ring
  obtain ⟨-, -, p1, p2⟩ := filled_proper ho hprop
  have hpc' := (SpinerOpacity.filled_cells ho).1
  have hdist : o.dist = d := by
    obtain ⟨junk, h⟩ := ho
    exact (SpinerOpacity.fill_entries h rfl).1.dist
  obtain ⟨v, v1, v2⟩ := (FromTable.absorption o p1 .x).good.closed
  obtain ⟨w, w1, w2⟩ := (FromTable.perNuOmega o p2 .x).good.closed
  have a1 : ∀ l : ℝ, (1 : ℝ) * l = l := one_mul
  have v2' := v2 p
  have w2' := w2 p
  change o.AbsorptionCoefficient p.rho p.T p.Ye .NU_HEAVY p.nu =
    ok (1 * (10 : ℝ) ^ mlin [o.lalphanu_.grid 4, o.lalphanu_.grid 3, o.lalphanu_.grid 2, o.lalphanu_.grid 0] v (spectralCoords o.pc p)) at v2'
  change o.EmissivityPerNuOmega p.rho p.T p.Ye .NU_HEAVY p.nu =
    ok (1 * (10 : ℝ) ^ mlin [o.ljnu_.grid 4, o.ljnu_.grid 3, o.ljnu_.grid 2, o.ljnu_.grid 0] w (spectralCoords o.pc p)) at w2'
  rw [spectral_axes ho _ (.inl rfl), hpc', hax, hcoord, mlin_half, one_mul] at v2'
  rw [spectral_axes ho _ (.inr rfl), hpc', hax, hcoord, mlin_half, one_mul] at w2'
  have key : ∀ j : ℕ, j < 2 → (10 : ℝ) ^ v [0, (j : ℤ), 0, 0] = κ + tiny ∧
      (10 : ℝ) ^ w [0, (j : ℤ), 0, 0] = κ * d.ThermalDistributionOfTNu (r.TNode j) ν₀ + tiny := by
    intro j hj
    obtain ⟨α, la, lj, q0, q1, q2, q3, q4, q5⟩ := kirchhoff_entries ho hpc hk (i := 0) (j := j) (k := 0) (m := 0) (n := 2)
      (s := .NU_HEAVY) .x (by simp [hr]) (by simp [hr]; omega) (by simp [hr]) (by simp [hr])
    have q1' : r.rhoNode 0 * κ = α := Outcome.ok.inj q1
    rw [eρ, one_mul] at q1'
    subst q1'
    rw [eν] at q5
    have idx : Indexes (spectralAxes r) [0, (j : ℤ), 0, 0] := by
      rw [hax]
      exact ⟨⟨by norm_num, by norm_num⟩, ⟨by omega, by simp only; omega⟩, ⟨by norm_num, by norm_num⟩, ⟨by norm_num, by norm_num⟩, trivial⟩
    have r1 := v1 [0, (j : ℤ), 0, 0] (by
      show Indexes [o.lalphanu_.grid 4, _, _, _] _
      rw [spectral_axes ho _ (.inl rfl)]
      exact idx)
    have r2 := w1 [0, (j : ℤ), 0, 0] (by
      show Indexes [o.ljnu_.grid 4, _, _, _] _
      rw [spectral_axes ho _ (.inr rfl)]
      exact idx)
    change o.lalphanu_.read [(0 : ℤ), (j : ℤ), 0, 2, 0] = _ at r1
    change o.ljnu_.read [(0 : ℤ), (j : ℤ), 0, 2, 0] = _ at r2
    have e1 := q2.symm.trans r1
    have e2 := q3.symm.trans r2
    rw [← Outcome.ok.inj e1, ← Outcome.ok.inj e2]
    exact ⟨q4, q5⟩
  have sq : ∀ a b : ℝ, ((10 : ℝ) ^ ((a + b) / 2)) ^ 2 = (10 : ℝ) ^ a * (10 : ℝ) ^ b := by
    intro a b
    rw [← Real.rpow_add ten, ← Real.rpow_natCast, ← Real.rpow_mul ten.le]
    congr 1
    push_cast
    ring
  obtain ⟨k0, l0⟩ := key 0 (by norm_num)
  obtain ⟨k1, l1⟩ := key 1 (by norm_num)
  rw [eT0] at l0
  rw [eT1] at l1
  have sα := sq (v [0, 0, 0, 0]) (v [0, 1, 0, 0])
  have sj := sq (w [0, 0, 0, 0]) (w [0, 1, 0, 0])
  have hmid := spectrum_mid d hd hT0 hrel hpT hpν hpν'
  have hB := spectrum_pos hd (T := p.T) hpν0
  refine ⟨κ, r, o, p, _, _, ho, hprop, ?_, hpρ, hpT0, hpν0, v2', w2', by positivity, ?_⟩
  · rw [hax, hcoord]
    simp only [InCell, node]
    norm_num
  show _ < _ * o.dist.ThermalDistributionOfTNu p.T p.nu / 1000
  rw [hdist]
  change (10 : ℝ) ^ v [0, 0, 0, 0] = _ at k0
  change (10 : ℝ) ^ v [0, 1, 0, 0] = _ at k1
  change (10 : ℝ) ^ w [0, 0, 0, 0] = _ at l0
  change (10 : ℝ) ^ w [0, 1, 0, 0] = _ at l1
  rw [k0, k1] at sα
  rw [l0, l1] at sj
  have hα : κ < (10 : ℝ) ^ ((v [0, 0, 0, 0] + v [0, 1, 0, 0]) / 2) := by
    have h0 : (0 : ℝ) < (10 : ℝ) ^ ((v [0, 0, 0, 0] + v [0, 1, 0, 0]) / 2) := by positivity
    nlinarith
  have hB12 : d.ThermalDistributionOfTNu T₀ ν₀ ≤ d.ThermalDistributionOfTNu (100 * T₀) ν₀ := by
    rw [fermi_eq, fermi_eq]
    unfold fermiDiracLaw
    have P3 := P.c
    have hg : (0 : ℝ) < d.NSPECIES := by exact_mod_cast hd1
    refine div_le_div_of_nonneg_left (by positivity) (by positivity) ?_
    gcongr
    linarith
  have κ1 : κ * d.ThermalDistributionOfTNu T₀ ν₀ = tiny := by rw [hκ]; field_simp
  have hj0 : (0 : ℝ) < (10 : ℝ) ^ ((w [0, 0, 0, 0] + w [0, 1, 0, 0]) / 2) := by positivity
  generalize (10 : ℝ) ^ ((v [0, 0, 0, 0] + v [0, 1, 0, 0]) / 2) = α at *
  generalize (10 : ℝ) ^ ((w [0, 0, 0, 0] + w [0, 1, 0, 0]) / 2) = j at *
  generalize d.ThermalDistributionOfTNu T₀ ν₀ = b₁ at *
  generalize d.ThermalDistributionOfTNu (100 * T₀) ν₀ = b₂ at *
  generalize d.ThermalDistributionOfTNu p.T p.nu = b at *
  clear_value κ
  have hj : j ^ 2 ≤ 4 * κ ^ 2 * (b₁ * b₂) := by
    have t2 : tiny ≤ κ * b₂ := by rw [← κ1]; exact mul_le_mul_of_nonneg_left hB12 κp.le
    have q0 : 0 < κ * b₁ := by positivity
    have q : (κ * b₁ + tiny) * (κ * b₂ + tiny) ≤ (2 * (κ * b₁)) * (2 * (κ * b₂)) :=
      mul_le_mul (by linarith) (by linarith) (by positivity) (by linarith)
    rw [sj]
    refine q.trans (le_of_eq (by ring))
  have hlt : j ^ 2 < (κ * b / 1000) ^ 2 := by
    have := mul_lt_mul_of_pos_left hmid (show 0 < κ ^ 2 by positivity)
    calc j ^ 2 ≤ 4 * κ ^ 2 * (b₁ * b₂) := hj
      _ = κ ^ 2 * (4000000 * b₁ * b₂) / 1000000 := by ring
      _ < κ ^ 2 * b ^ 2 / 1000000 := by linarith
      _ = (κ * b / 1000) ^ 2 := by ring
  have h1 : j < κ * b / 1000 := lt_of_pow_lt_pow_left₀ 2 (by positivity) hlt
  have h2 : κ * b ≤ α * b := mul_le_mul_of_nonneg_right hα.le hB.le
  linarith

/-- the hypotheses of `C23_tabulated_partial` are met: gray absorption on two nodes per axis -/
example (d : FermiDirac ℝ) (pc : PC ℝ) (hpc : 0 < hzPerMeV pc) (hd : 0 < d.NSPECIES ∧ PosPC d.pc) :
    ∃ o rho T ν α, FilledFrom d pc (sampledFrom (⟨d, pc, 2⟩ : Neutrinos.GrayOpacity ℝ)) SpinerOpacity.twoNodes o ∧
      NeutrinoAPI.AbsorptionCoefficient o rho T (SpinerOpacity.twoNodes.YeNode 1) .NU_ELECTRON ν = ok (α + tiny) ∧
      NeutrinoAPI.EmissivityPerNuOmega o rho T (SpinerOpacity.twoNodes.YeNode 1) .NU_ELECTRON ν =
        ok (α * NeutrinoAPI.ThermalDistributionOfTNu o (SpinerOpacity.twoNodes.TNode 0) .NU_ELECTRON
          (SpinerOpacity.twoNodes.nuNode pc 0) + tiny) := by
  obtain ⟨o, ho⟩ := gray_filled d pc 2 SpinerOpacity.twoNodes
  have hS1 := SpinerOpacity.tiny_le_one
  have hn := SpinerOpacity.atNode_exists (r := SpinerOpacity.twoNodes) (i := 0) (j := 0) (by simp [SpinerOpacity.twoNodes])
    (by simp [SpinerOpacity.twoNodes]) (by simpa [SpinerOpacity.Ranges.rhoNode, SpinerOpacity.equi, SpinerOpacity.twoNodes] using hS1)
    (by simpa [SpinerOpacity.Ranges.TNode, SpinerOpacity.equi, SpinerOpacity.twoNodes] using SpinerOpacity.tiny_small)
  have e3 : SpinerOpacity.twoNodes.nuNode pc 0 = hzPerMeV pc := by
    simp [SpinerOpacity.Ranges.nuNode, SpinerOpacity.equi, SpinerOpacity.twoNodes]
  have hm := SpinerOpacity.atEnergy_exists (r := SpinerOpacity.twoNodes) (pc := pc) (m := 0) (by simp [SpinerOpacity.twoNodes])
    (by rw [e3]; nlinarith)
  obtain ⟨α, -, h1, h2⟩ := C23_tabulated_partial ho SpinerOpacity.twoNodes_proper hpc (gray_steady d pc hd (κ := 2) (by norm_num)) hn
    (k := 1) (by simp [SpinerOpacity.twoNodes]) hm (s := .NU_ELECTRON) (.inl rfl)
  exact ⟨o, _, _, _, α, ho, h1, h2⟩

/-- emission over absorption at the nodes, for gray absorption -/
noncomputable def grayRatio (d : FermiDirac ℝ) (pc : PC ℝ) (x : ℕ × ℕ × ℕ) : ℝ :=
  (SpinerOpacity.twoNodes.rhoNode x.1 * 2 *
    d.ThermalDistributionOfTNu (SpinerOpacity.twoNodes.TNode x.2.1) (SpinerOpacity.twoNodes.nuNode pc x.2.2) + tiny) /
      (SpinerOpacity.twoNodes.rhoNode x.1 * 2 + tiny)

theorem grayRatio_pos (d : FermiDirac ℝ) (pc : PC ℝ) (hpc : 0 < hzPerMeV pc) (hd : 0 < d.NSPECIES ∧ PosPC d.pc)
    (x : ℕ × ℕ × ℕ) : 0 < grayRatio d pc x := by
  have h1 := rhoNode_pos (r := SpinerOpacity.twoNodes) x.1
  have h2 := spectrum_pos hd (T := SpinerOpacity.twoNodes.TNode x.2.1) (nuNode_pos (r := SpinerOpacity.twoNodes) hpc x.2.2)
  have hS := tiny_pos
  unfold grayRatio
  positivity

theorem twoNodes_cell (pc : PC ℝ) (hpc : 0 < hzPerMeV pc) :
    InCell (spectralAxes SpinerOpacity.twoNodes) [0, 0, 0, 0] (spectralCoords pc ⟨3, 5, 1 / 2, 2 * hzPerMeV pc⟩) := by
  have hS := tiny_pos
  have hK := SpinerOpacity.kelvin_pos
  have hSK := SpinerOpacity.tiny_small
  have hS1 := SpinerOpacity.tiny_le_one
  have hlog : ∀ u : ℝ, 1 ≤ u → u ≤ 10 → 0 ≤ Real.logb 10 u ∧ Real.logb 10 u ≤ 1 := by
    intro u h1 h2
    refine ⟨Real.logb_nonneg (by norm_num) h1, ?_⟩
    rw [Real.logb_le_iff_le_rpow (by norm_num) (by linarith), Real.rpow_one]
    exact h2
  have k1 := hlog (3 + tiny) (by linarith) (by linarith)
  have k2 := hlog (5 + tiny * kelvinPerMeV) (by have := mul_pos hS hK; linarith) (by linarith)
  have k3 := hlog (2 + tiny) (by linarith) (by linarith)
  have c1 : tableCoord 3 = Real.logb 10 (3 + tiny) := by unfold tableCoord; rw [max_eq_left (by norm_num)]
  have c2 : tableCoord (5 / kelvinPerMeV) = Real.logb 10 (5 + tiny * kelvinPerMeV) - Real.logb 10 kelvinPerMeV := by
    unfold tableCoord
    rw [max_eq_left (by positivity), ← Real.logb_div (by positivity) hK.ne']
    congr 1
    field_simp
  have c3 : tableCoord (2 * hzPerMeV pc / hzPerMeV pc) = Real.logb 10 (2 + tiny) := by
    rw [mul_div_cancel_right₀ _ hpc.ne']
    unfold tableCoord
    rw [max_eq_left (by norm_num)]
  unfold spectralAxes spectralCoords
  simp only [c1, c2, c3, InCell, node, SpinerOpacity.twoNodes]
  norm_num
  exact ⟨k1, k2, k3⟩

/-- the hypotheses of `C23_tabulated_between` are met: gray absorption on two nodes per axis -/
example (d : FermiDirac ℝ) (pc : PC ℝ) (hpc : 0 < hzPerMeV pc) (hd : 0 < d.NSPECIES ∧ PosPC d.pc) :
    ∃ o α j lo hi, FilledFrom d pc (sampledFrom (⟨d, pc, 2⟩ : Neutrinos.GrayOpacity ℝ)) SpinerOpacity.twoNodes o ∧
      NeutrinoAPI.AbsorptionCoefficient o 3 5 (1 / 2) .NU_ELECTRON (2 * hzPerMeV pc) = ok α ∧
      NeutrinoAPI.EmissivityPerNuOmega o 3 5 (1 / 2) .NU_ELECTRON (2 * hzPerMeV pc) = ok j ∧ 0 < lo ∧ lo * α ≤ j ∧ j ≤ hi * α := by
  obtain ⟨o, ho⟩ := gray_filled d pc 2 SpinerOpacity.twoNodes
  have hk := gray_steady d pc hd (κ := 2) (by norm_num)
  have hne : (Finset.range 2 ×ˢ Finset.range 2 ×ˢ Finset.range 2).Nonempty := ⟨(0, 0, 0), by simp⟩
  obtain ⟨x, -, hx⟩ := Finset.exists_min_image _ (grayRatio d pc) hne
  obtain ⟨y, -, hy⟩ := Finset.exists_max_image _ (grayRatio d pc) hne
  have hb : ∀ i j k m : ℕ, (i = 0 ∨ i = 0 + 1) → (j = 0 ∨ j = 0 + 1) → (k = 0 ∨ k = 0 + 1) → (m = 0 ∨ m = 0 + 1) → ∀ α,
      NeutrinoAPI.AbsorptionCoefficient (⟨d, pc, 2⟩ : Neutrinos.GrayOpacity ℝ) (SpinerOpacity.twoNodes.rhoNode i)
        (SpinerOpacity.twoNodes.TNode j) (SpinerOpacity.twoNodes.YeNode k) .NU_ELECTRON (SpinerOpacity.twoNodes.nuNode pc m) = ok α →
      grayRatio d pc x ≤ (α * d.ThermalDistributionOfTNu (SpinerOpacity.twoNodes.TNode j) (SpinerOpacity.twoNodes.nuNode pc m) + tiny) /
        (α + tiny) ∧
      (α * d.ThermalDistributionOfTNu (SpinerOpacity.twoNodes.TNode j) (SpinerOpacity.twoNodes.nuNode pc m) + tiny) / (α + tiny) ≤
        grayRatio d pc y := by
    intro i j k m hi hj _ hm α hα
    have e : SpinerOpacity.twoNodes.rhoNode i * 2 = α := Outcome.ok.inj hα
    have hmem : (i, j, m) ∈ Finset.range 2 ×ˢ Finset.range 2 ×ˢ Finset.range 2 := by
      simp only [Finset.mem_product, Finset.mem_range]
      omega
    rw [← e]
    exact ⟨hx (i, j, m) hmem, hy (i, j, m) hmem⟩
  have key := C23_tabulated_between ho SpinerOpacity.twoNodes_proper hpc hk (s := .NU_ELECTRON) (.inl rfl) (twoNodes_cell pc hpc)
    (grayRatio_pos d pc hpc hd x) hb
  obtain ⟨α, j, h1, h2, -, h3, h4⟩ := key
  exact ⟨o, α, j, _, _, ho, h1, h2, grayRatio_pos d pc hpc hd x, h3, h4⟩

end Opac.Tables
