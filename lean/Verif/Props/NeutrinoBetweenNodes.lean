import Verif.Props.TableAccuracy
import Verif.Props.TableLimits
import Verif.Props.NeutrinoWindowError

/-!
# C88 for neutrinos: looked-up means are close to the mean at the state asked for

Over the reals.  The nodes hold the mean over the window up to a factor `exp(E)` (C87).  Between the nodes the exact mean
changes at most by given powers of density and temperature, and at most by a given number of decades per unit of the
electron fraction.
-/

namespace Opac.Tables
open Arith Outcome Spec Spiner Photons Neutrinos MeanTables
open SpinerOpacity (tiny tiny_pos Tabulated equi)

/-! ## Specification -/

/-- the states inside a mean opacity on the ranges `r` -/
structure Within (r : MeanRanges) (ρ T Ye : ℝ) : Prop where
  rho : ρ ∈ Set.Icc ((10 : ℝ) ^ r.lRhoMin) (10 ^ r.lRhoMax)
  T : T ∈ Set.Icc ((10 : ℝ) ^ r.lTMin) (10 ^ r.lTMax)
  Ye : Ye ∈ Set.Icc r.YeMin r.YeMax

/-- between any two states inside, `M` is not negative and changes at most by the powers `σ` of the density and `τ` of the
temperature, and by `η` decades per unit of the electron fraction -/
def MeanChangesAtMost (σ τ η : ℝ) (r : MeanRanges) (M : ℝ → ℝ → ℝ → ℝ) : Prop :=
  ∀ ρ T Ye ρ' T' Ye', Within r ρ T Ye → Within r ρ' T' Ye' → 0 ≤ M ρ T Ye ∧
    M ρ T Ye ≤ 10 ^ (σ * |Real.logb 10 ρ - Real.logb 10 ρ'| + τ * |Real.logb 10 T - Real.logb 10 T'| + η * |Ye - Ye'|) * M ρ' T' Ye'

/-- decades by which such a mean changes over half a node distance along every axis -/
noncomputable def meanExponent (σ τ η : ℝ) (r : MeanRanges) : ℝ :=
  (σ * ((r.lRhoMax - r.lRhoMin) / (r.NRho - 1)) + τ * ((r.lTMax - r.lTMin) / (r.NT - 1)) + η * ((r.YeMax - r.YeMin) / (r.NYe - 1))) / 2

/-! ## Helpers -/

theorem node_within {r : MeanRanges} (hr : r.Proper) {i j k : ℕ} (hi : (i : ℤ) < r.NRho) (hj : (j : ℤ) < r.NT) (hk : (k : ℤ) < r.NYe) :
    Within r (r.rhoNode i) (r.TNode j) (r.YeNode k) := by
  have a1 := equi_mem hr.rho.1 hr.rho.2 hi
  have a2 := equi_mem hr.T.1 hr.T.2 hj
  have up : ∀ {a b : ℝ}, a ≤ b → (10 : ℝ) ^ a ≤ 10 ^ b := fun h => Real.rpow_le_rpow_of_exponent_le (by norm_num) h
  exact ⟨⟨up a1.1, up a1.2⟩, ⟨up a2.1, up a2.2⟩, equi_mem hr.Ye.1 hr.Ye.2 hk⟩

theorem within_inside {r : MeanRanges} {p : State} (h : Within r (|p.rho| + tiny) (|p.T| + tiny) p.Ye) :
    InsideGrids (rangeAxes r) (rangeCoords p) :=
  .cons (logb_mem h.rho) (.cons (logb_mem h.T) (.cons h.Ye .nil))

theorem means_between {r : MeanRanges} (hr : r.Proper) (hlo : tiny < (10 : ℝ) ^ r.lRhoMin ∧ tiny < (10 : ℝ) ^ r.lTMin)
    {q : Query} (h : FromTable q) (hax : q.axes = rangeAxes r)
    (hco : q.coords = [fun p => meanCoord p.rho, fun p => meanCoord p.T, State.Ye]) (hfa : q.factor = State.rho)
    {M : ℝ → ℝ → ℝ → ℝ} {σ τ η E : ℝ} (hσ : 0 ≤ σ) (hτ : 0 ≤ τ) (hη : 0 ≤ η) (hE : 0 ≤ E) (hM : MeanChangesAtMost σ τ η r M)
    (hn : ∀ (i j k : ℕ) (p : State), AtNode r i j k p.rho p.T p.Ye → ∃ κ, q.answer p = ok (p.rho * (κ + tiny)) ∧
      Real.exp (-E) * M (r.rhoNode i) (r.TNode j) (r.YeNode k) ≤ κ ∧ κ ≤ Real.exp E * M (r.rhoNode i) (r.TNode j) (r.YeNode k))
    {p : State} (hp : Within r (|p.rho| + tiny) (|p.T| + tiny) p.Ye) {F : ℝ} (hF : F = meanExponent σ τ η r) :
    ∃ κ, q.answer p = ok (p.rho * κ) ∧
      Real.exp (-E) * 10 ^ (-F) * (M (|p.rho| + tiny) (|p.T| + tiny) p.Ye + tiny) ≤ κ ∧
      κ ≤ Real.exp E * 10 ^ F * (M (|p.rho| + tiny) (|p.T| + tiny) p.Ye + tiny) := by
  have hS := tiny_pos
  have hl : (0 : ℝ) < Real.log 10 := Real.log_pos (by norm_num)
  have at' : q.at p = rangeCoords p := by unfold Query.at; rw [hco]; rfl
  have V0 : 0 < M (|p.rho| + tiny) (|p.T| + tiny) p.Ye + tiny := by
    have := (hM _ _ _ _ _ _ hp hp).1
    linarith
  have ex : ∀ x : ℝ, Real.exp x = 10 ^ (x / Real.log 10) := by
    intro x
    rw [Real.rpow_def_of_pos (by norm_num)]
    congr 1
    field_simp
  have := near h (p := p) (Ps := [σ, τ, η]) (E := E / Real.log 10) (by rw [hax, at']; exact within_inside hp) (by rw [hax]; rfl)
    (by simp [hσ, hτ, hη]) V0 (by
      intro is e his he
      rw [hax] at his
      obtain ⟨i, j, k, hi, hj, hk, rfl⟩ := range_indexes his
      obtain ⟨p', p0, pn, pc⟩ := node_state hr hlo hi hj hk
      obtain ⟨κ, e', k1, k2⟩ := hn i j k p' pn
      have he' : q.Entry (([i, j, k] : List ℕ).map fun i => (i : ℤ)) (κ + tiny) := by
        refine entry_of_answer h (p := p') (by rw [hax]; exact his) ?_ ?_ ?_
        · rw [hax, ← pc]
          unfold Query.at
          rw [hco]
          rfl
        · rw [hfa]; exact p0.ne'
        · rw [hfa]; exact e'
      have : e = κ + tiny := by
        obtain ⟨l, h1, rfl⟩ := he
        obtain ⟨l', h2, h3⟩ := he'
        rw [h1] at h2
        rw [h3, Outcome.ok.inj h2]
      rw [this, hax, at']
      have nw := node_within hr hi hj hk
      have m0 := (hM _ _ _ _ _ _ nw nw).1
      have c1 := (hM _ _ _ _ _ _ nw hp).2
      have c2 := (hM _ _ _ _ _ _ hp nw).2
      have ge1 : (1 : ℝ) ≤ 10 ^ (travel [σ, τ, η] (rangeAxes r) [(i : ℤ), j, k] (rangeCoords p)) := by
        refine Real.one_le_rpow (by norm_num) ?_
        simp only [travel, rangeAxes, rangeCoords]
        positivity
      have lr : Real.logb 10 (r.rhoNode i) = equi r.lRhoMin r.lRhoMax r.NRho i := Real.logb_rpow (by norm_num) (by norm_num)
      have lT : Real.logb 10 (r.TNode j) = equi r.lTMin r.lTMax r.NT j := Real.logb_rpow (by norm_num) (by norm_num)
      have et : σ * |Real.logb 10 (|p.rho| + tiny) - Real.logb 10 (r.rhoNode i)| +
          τ * |Real.logb 10 (|p.T| + tiny) - Real.logb 10 (r.TNode j)| + η * |p.Ye - r.YeNode k| =
          travel [σ, τ, η] (rangeAxes r) [(i : ℤ), j, k] (rangeCoords p) := by
        rw [lr, lT]
        simp only [travel, rangeAxes, rangeCoords, Int.toNat_natCast, SpinerOpacity.node_equi, meanCoord, MeanRanges.YeNode]
        ring
      rw [abs_sub_comm (Real.logb 10 (r.rhoNode i)), abs_sub_comm (Real.logb 10 (r.TNode j)), abs_sub_comm (r.YeNode k), et] at c1
      rw [et] at c2
      show _ ≤ E / Real.log 10 + travel [σ, τ, η] (rangeAxes r) [(i : ℤ), j, k] (rangeCoords p)
      generalize travel [σ, τ, η] (rangeAxes r) [(i : ℤ), j, k] (rangeCoords p) = D at *
      have hexp : 1 ≤ Real.exp E := Real.one_le_exp hE
      have hexp' : Real.exp (-E) ≤ 1 := Real.exp_le_one_iff.2 (by linarith)
      have hexp0 := Real.exp_pos (-E)
      generalize M (r.rhoNode i) (r.TNode j) (r.YeNode k) = m at *
      generalize M (|p.rho| + tiny) (|p.T| + tiny) p.Ye = V at *
      have kp : 0 < κ + tiny := by
        have : 0 ≤ Real.exp (-E) * m := by positivity
        linarith
      have b1 : κ + tiny ≤ Real.exp E * 10 ^ D * (V + tiny) := by
        have h1 : m + tiny ≤ 10 ^ D * (V + tiny) := by nlinarith
        have h2 : κ + tiny ≤ Real.exp E * (m + tiny) := by nlinarith
        calc _ ≤ _ := h2
          _ ≤ Real.exp E * (10 ^ D * (V + tiny)) := mul_le_mul_of_nonneg_left h1 (by linarith)
          _ = _ := by ring
      have b2 : V + tiny ≤ Real.exp E * 10 ^ D * (κ + tiny) := by
        have h1 : V + tiny ≤ 10 ^ D * (m + tiny) := by nlinarith
        have h3 : Real.exp E * Real.exp (-E) = 1 := by rw [← Real.exp_add]; simp
        have h2 : m + tiny ≤ Real.exp E * (κ + tiny) := by
          have h4 : Real.exp (-E) * (m + tiny) ≤ κ + tiny := by nlinarith
          calc m + tiny = Real.exp E * Real.exp (-E) * (m + tiny) := by rw [h3, one_mul]
            _ = Real.exp E * (Real.exp (-E) * (m + tiny)) := by ring
            _ ≤ _ := mul_le_mul_of_nonneg_left h4 (by linarith)
        have := mul_le_mul_of_nonneg_left h2 (show (0 : ℝ) ≤ 10 ^ D by positivity)
        nlinarith
      have g1 := Real.logb_le_logb_of_le (b := 10) (by norm_num) kp b1
      have g2 := Real.logb_le_logb_of_le (b := 10) (by norm_num) V0 b2
      rw [ex E, ← Real.rpow_add (by norm_num), Real.logb_mul (by positivity) (by positivity), Real.logb_rpow (by norm_num) (by norm_num)] at g1 g2
      rw [abs_le]
      constructor <;> linarith)
  rw [hax] at this
  have hs : halfSteps [σ, τ, η] (rangeAxes r) = F := by
    rw [hF]
    simp only [halfSteps, rangeAxes, meanExponent]
    ring
  rw [hs, hfa] at this
  obtain ⟨κ, e, h1, h2⟩ := this
  refine ⟨κ, e, ?_, ?_⟩
  · rw [ex (-E), ← Real.rpow_add (by norm_num)]
    rw [show -E / Real.log 10 + -F = -(E / Real.log 10 + F) by ring]
    exact h1
  · rw [ex E, ← Real.rpow_add (by norm_num)]
    exact h2

section
variable {d : FermiDirac ℝ}

/-- the Planck mean over the window `[a, b]`, as a function of the state -/
noncomputable def windowPlanck (d : FermiDirac ℝ) (a b : ℝ) (α : ℝ → ℝ → ℝ → ℝ → ℝ) (ρ T Ye : ℝ) : ℝ :=
  windowPlanckMean ρ a b (fermiDiracLaw d.NSPECIES d.pc.h d.pc.kb d.pc.c T) (α ρ T Ye)

/-- the Rosseland mean over the window `[a, b]`, as a function of the state -/
noncomputable def windowRosseland (d : FermiDirac ℝ) (a b : ℝ) (α : ℝ → ℝ → ℝ → ℝ → ℝ) (ρ T Ye : ℝ) : ℝ :=
  windowRosselandMean ρ a b (fun ν => deriv (fun T => fermiDiracLaw d.NSPECIES d.pc.h d.pc.kb d.pc.c T ν) T) (α ρ T Ye)

/-- the conditions of C87 at a node of temperature `T`, with factor `exp(E)`, for Planck means -/
structure PlanckNode (d : FermiDirac ℝ) (a b : ℝ) (N : ℕ) (α : ℝ → ℝ) (T Λ ε E : ℝ) : Prop where
  pos : ∀ ν ∈ Set.Icc a b, 0 < α ν
  slope : SlopeAtMost Λ a b α
  weight : tiny * Real.log 10 ≤ ε * ∫ ν in a..b, fermiDiracLaw d.NSPECIES d.pc.h d.pc.kb d.pc.c T ν
  factor : (max 4 (d.pc.h * b / (d.pc.kb * T)) + Λ / 2) * (Real.log (b / a) / N) + ε ≤ E

/-- the conditions of C87 at a node of density `ρ` and temperature `T`, with factor `exp(E)`, for Rosseland means -/
structure RosselandNode (d : FermiDirac ℝ) (a b : ℝ) (N : ℕ) (α : ℝ → ℝ) (ρ T Λ ε E : ℝ) : Prop where
  large : ∀ ν ∈ Set.Icc a b, 0 < α ν ∧ tiny ≤ ε * α ν ∧ tiny ≤ ε * (α ν / ρ)
  slope : SlopeAtMost Λ a b α
  weight : tiny * Real.log 10 ≤ ε * ∫ ν in a..b, fermiDiracLaw d.NSPECIES d.pc.h d.pc.kb d.pc.c T ν
  weight' : tiny * Real.log 10 ≤
    ε * ∫ ν in a..b, ρ / α ν * deriv (fun T => fermiDiracLaw d.NSPECIES d.pc.h d.pc.kb d.pc.c T ν) T
  small : ε * Real.exp ((max 5 (d.pc.h * b / (d.pc.kb * T)) + Λ / 2) * (Real.log (b / a) / N)) ≤ 1 / 4
  factor : (max 5 (d.pc.h * b / (d.pc.kb * T)) + Λ / 2) * (Real.log (b / a) / N) + ε ≤ E

/-- **C88 (neutrinos, absorption)**: at every state inside the table the looked-up means are within a factor `exp(E) 10^F` of the means over
the window at that state.  The table's lower ends must exceed the floor. -/
theorem C88_neutrino_absorption {O : Type} {inst : NeutrinoAPI ℝ O} {opac : O} {r : MeanRanges} {a b : ℝ} {N : ℕ} {m : Neutrinos.MeanOpacityBase ℝ}
    (h : AbsorptionMeans inst opac r a b N m) (hN : 0 < N) (hr : r.Proper) (hlo : tiny < (10 : ℝ) ^ r.lRhoMin ∧ tiny < (10 : ℝ) ^ r.lTMin)
    (ha : 0 < a) (hab : a < b) (hpc : PosPC d.pc) (hd : 0 < d.NSPECIES)
    (hB : ∀ T s ν, inst.ThermalDistributionOfTNu opac T s ν = d.ThermalDistributionOfTNu T ν)
    (hD : ∀ T s ν, inst.DThermalDistributionOfTNuDT opac T s ν = d.DThermalDistributionOfTNuDT T ν)
    {α : ℝ → ℝ → ℝ → RadiationType → ℝ → ℝ}
    (hα : ∀ rho T Ye s ν, 0 < rho → 0 < T → 0 < ν → inst.AbsorptionCoefficient opac rho T Ye s ν = ok (α rho T Ye s ν) ∧
      0 ≤ α rho T Ye s ν)
    {s : RadiationType} (hs : Tabulated s) {Λ ε E σ τ η F : ℝ} (hΛ : 0 ≤ Λ) (hE : 0 ≤ E) (hσ : 0 ≤ σ) (hτ : 0 ≤ τ) (hη : 0 ≤ η)
    (hF : F = meanExponent σ τ η r) {p : State} {ρ T : ℝ} (hρ : ρ = |p.rho| + tiny) (hT : T = |p.T| + tiny) (hp : Within r ρ T p.Ye) :
    ((∀ i j k, IsNode r i j k → PlanckNode d a b N (α (r.rhoNode i) (r.TNode j) (r.YeNode k) s) (r.TNode j) Λ ε E) →
      MeanChangesAtMost σ τ η r (windowPlanck d a b fun ρ T Ye => α ρ T Ye s) →
      ∃ κ, MeanNeutrinoAPI.PlanckMeanAbsorptionCoefficient m p.rho p.T p.Ye s = ok (p.rho * κ) ∧
        Real.exp (-E) * 10 ^ (-F) * (windowPlanck d a b (fun ρ T Ye => α ρ T Ye s) ρ T p.Ye + tiny) ≤ κ ∧
        κ ≤ Real.exp E * 10 ^ F * (windowPlanck d a b (fun ρ T Ye => α ρ T Ye s) ρ T p.Ye + tiny)) ∧
    ((∀ i j k, IsNode r i j k →
      RosselandNode d a b N (α (r.rhoNode i) (r.TNode j) (r.YeNode k) s) (r.rhoNode i) (r.TNode j) Λ ε E) →
      MeanChangesAtMost σ τ η r (windowRosseland d a b fun ρ T Ye => α ρ T Ye s) →
      ∃ κ, MeanNeutrinoAPI.RosselandMeanAbsorptionCoefficient m p.rho p.T p.Ye s = ok (p.rho * κ) ∧
        Real.exp (-E) * 10 ^ (-F) * (windowRosseland d a b (fun ρ T Ye => α ρ T Ye s) ρ T p.Ye + tiny) ≤ κ ∧
        κ ≤ Real.exp E * 10 ^ F * (windowRosseland d a b (fun ρ T Ye => α ρ T Ye s) ρ T p.Ye + tiny)) := by
  obtain ⟨⟨g1, g2⟩, g3, g4⟩ := means_grids h hr
  obtain ⟨n, hn⟩ := tabulated_index hs
  subst hρ hT
  have widen : ∀ {E' M κ : ℝ}, E' ≤ E → 0 ≤ M → Real.exp (-E') * M ≤ κ ∧ κ ≤ Real.exp E' * M → Real.exp (-E) * M ≤ κ ∧ κ ≤ Real.exp E * M :=
    fun h1 h2 h3 => ⟨(mul_le_mul_of_nonneg_right (Real.exp_le_exp.2 (by linarith)) h2).trans h3.1,
      h3.2.trans (mul_le_mul_of_nonneg_right (Real.exp_le_exp.2 h1) h2)⟩
  constructor
  · intro hP hM
    refine means_between hr hlo (.planck m g1 hn) g2 rfl rfl hσ hτ hη hE hM (fun i j k p' hn' => ?_) hp hF
    have nw := node_within hr hn'.rhoI hn'.tempJ hn'.YeK
    have c := hP i j k ⟨hn'.rhoI, hn'.tempJ, hn'.YeK⟩
    obtain ⟨q1, -⟩ := C87_neutrino_absorption h hN hr ha hab hpc hd hB hD hα hn' hs (Λ := Λ) (ε := ε) rfl rfl rfl rfl
      (by rw [hn'.Ye]; exact c.pos) hΛ (by rw [hn'.Ye]; exact c.slope) c.weight
    obtain ⟨κ, e, b1, b2⟩ := q1 _ rfl
    rw [hn'.Ye] at b1 b2
    exact ⟨κ, e, widen c.factor (hM _ _ _ _ _ _ nw nw).1 ⟨b1, b2⟩⟩
  · intro hP hM
    refine means_between hr hlo (.rosseland m g3 hn) g4 rfl rfl hσ hτ hη hE hM (fun i j k p' hn' => ?_) hp hF
    have nw := node_within hr hn'.rhoI hn'.tempJ hn'.YeK
    have c := hP i j k ⟨hn'.rhoI, hn'.tempJ, hn'.YeK⟩
    obtain ⟨-, q2⟩ := C87_neutrino_absorption h hN hr ha hab hpc hd hB hD hα hn' hs (Λ := Λ) (ε := ε) rfl rfl rfl rfl
      (by rw [hn'.Ye]; exact fun ν hν => (c.large ν hν).1) hΛ (by rw [hn'.Ye]; exact c.slope) c.weight
    obtain ⟨κ, e, b1, b2⟩ := q2 _ rfl (by rw [hn'.Ye]; exact fun ν hν => (c.large ν hν).2) (by rw [hn'.Ye]; exact c.weight') c.small
    rw [hn'.Ye] at b1 b2
    exact ⟨κ, e, widen c.factor (hM _ _ _ _ _ _ nw nw).1 ⟨b1, b2⟩⟩

theorem scattering_grids {O : Type} {inst : NeutrinoSAPI ℝ O} {opac : O} {r : MeanRanges} {a b : ℝ} {NNu : ℤ}
    {m : Neutrinos.MeanSOpacityBase ℝ} (h : ScatteringMeans inst d opac r a b NNu m) (hr : r.Proper) :
    (Proper4 m.t.lPlanck ∧ [m.t.lPlanck.grid 3, m.t.lPlanck.grid 2, m.t.lPlanck.grid 1] = rangeAxes r) ∧
    (Proper4 m.t.lRosseland ∧ [m.t.lRosseland.grid 3, m.t.lRosseland.grid 2, m.t.lRosseland.grid 1] = rangeAxes r) := by
  have hp := scattering_means_proper h hr
  refine ⟨⟨hp.1, ?_⟩, hp.2, ?_⟩
  all_goals
    clear hp
    cases h with
    | window h =>
      rename_i pc junk lNuMin lNuMax
      unfold Neutrinos.MeanSOpacityBase.construct Neutrinos.MeanSOpacityBase.Impl_ at h
      simp only [bind_eq_ok] at h
      obtain ⟨t, h, h'⟩ := h
      cases h'
      obtain ⟨hS, -⟩ := loops_fills (t₀ := empty junk r) (fun i j k d t t' ht h => fillCellS_fills (by norm_num) i j k d t t' ht h) h
      first
        | rw [hS.p2]; rfl
        | rw [hS.r2]; rfl
    | auto hk hh h =>
      rename_i junk pc
      unfold Neutrinos.MeanSOpacityBase.constructAuto Neutrinos.MeanSOpacityBase.Impl_ at h
      simp only [bind_eq_ok, if_true] at h
      obtain ⟨t, h, h'⟩ := h
      cases h'
      obtain ⟨hS, -⟩ := loops_fills (t₀ := empty junk r) (fun i j k d t t' ht h => fillCellS_fills (by norm_num) i j k d t t' ht h) h
      first
        | rw [hS.p2]; rfl
        | rw [hS.r2]; rfl

/-- **C88 (neutrinos, scattering)**: the same for scattering, with the 100 frequencies that the code uses, whatever number was asked
for. -/
theorem C88_neutrino_scattering {O : Type} {inst : NeutrinoSAPI ℝ O} {opac : O} {r : MeanRanges} {a b : ℝ} {NNu : ℤ}
    {m : Neutrinos.MeanSOpacityBase ℝ} (h : ScatteringMeans inst d opac r a b NNu m) (hr : r.Proper)
    (hlo : tiny < (10 : ℝ) ^ r.lRhoMin ∧ tiny < (10 : ℝ) ^ r.lTMin) (ha : 0 < a) (hab : a < b) (hpc : PosPC d.pc) (hd : 0 < d.NSPECIES)
    {α : ℝ → ℝ → ℝ → RadiationType → ℝ → ℝ} (hα' : α = inst.TotalScatteringCoefficient opac)
    (hα : ∀ rho T Ye s ν, 0 < rho → 0 < T → 0 < ν → 0 ≤ α rho T Ye s ν)
    {s : RadiationType} (hs : Tabulated s) {Λ ε E σ τ η F : ℝ} (hΛ : 0 ≤ Λ) (hE : 0 ≤ E) (hσ : 0 ≤ σ) (hτ : 0 ≤ τ) (hη : 0 ≤ η)
    (hF : F = meanExponent σ τ η r) {p : State} {ρ T : ℝ} (hρ : ρ = |p.rho| + tiny) (hT : T = |p.T| + tiny) (hp : Within r ρ T p.Ye) :
    ((∀ i j k, IsNode r i j k → PlanckNode d a b 100 (α (r.rhoNode i) (r.TNode j) (r.YeNode k) s) (r.TNode j) Λ ε E) →
      MeanChangesAtMost σ τ η r (windowPlanck d a b fun ρ T Ye => α ρ T Ye s) →
      ∃ κ, MeanNeutrinoSAPI.PlanckMeanTotalScatteringCoefficient m p.rho p.T p.Ye s = ok (p.rho * κ) ∧
        Real.exp (-E) * 10 ^ (-F) * (windowPlanck d a b (fun ρ T Ye => α ρ T Ye s) ρ T p.Ye + tiny) ≤ κ ∧
        κ ≤ Real.exp E * 10 ^ F * (windowPlanck d a b (fun ρ T Ye => α ρ T Ye s) ρ T p.Ye + tiny)) ∧
    ((∀ i j k, IsNode r i j k →
      RosselandNode d a b 100 (α (r.rhoNode i) (r.TNode j) (r.YeNode k) s) (r.rhoNode i) (r.TNode j) Λ ε E) →
      MeanChangesAtMost σ τ η r (windowRosseland d a b fun ρ T Ye => α ρ T Ye s) →
      ∃ κ, MeanNeutrinoSAPI.RosselandMeanTotalScatteringCoefficient m p.rho p.T p.Ye s = ok (p.rho * κ) ∧
        Real.exp (-E) * 10 ^ (-F) * (windowRosseland d a b (fun ρ T Ye => α ρ T Ye s) ρ T p.Ye + tiny) ≤ κ ∧
        κ ≤ Real.exp E * 10 ^ F * (windowRosseland d a b (fun ρ T Ye => α ρ T Ye s) ρ T p.Ye + tiny)) := by
  obtain ⟨⟨g1, g2⟩, g3, g4⟩ := scattering_grids h hr
  obtain ⟨n, hn⟩ := tabulated_index hs
  subst hρ hT hα'
  have widen : ∀ {E' M κ : ℝ}, E' ≤ E → 0 ≤ M → Real.exp (-E') * M ≤ κ ∧ κ ≤ Real.exp E' * M → Real.exp (-E) * M ≤ κ ∧ κ ≤ Real.exp E * M :=
    fun h1 h2 h3 => ⟨(mul_le_mul_of_nonneg_right (Real.exp_le_exp.2 (by linarith)) h2).trans h3.1,
      h3.2.trans (mul_le_mul_of_nonneg_right (Real.exp_le_exp.2 h1) h2)⟩
  constructor
  · intro hP hM
    refine means_between hr hlo (.planckScattering m g1 hn) g2 rfl rfl hσ hτ hη hE hM (fun i j k p' hn' => ?_) hp hF
    have nw := node_within hr hn'.rhoI hn'.tempJ hn'.YeK
    have c := hP i j k ⟨hn'.rhoI, hn'.tempJ, hn'.YeK⟩
    obtain ⟨q1, -⟩ := C87_neutrino_scattering h hr ha hab hpc hd hα hn' hs (Λ := Λ) (ε := ε) rfl rfl rfl rfl rfl
      (by rw [hn'.Ye]; exact c.pos) hΛ (by rw [hn'.Ye]; exact c.slope) c.weight
    obtain ⟨κ, e, b1, b2⟩ := q1 _ rfl
    rw [hn'.Ye] at b1 b2
    exact ⟨κ, e, widen c.factor (hM _ _ _ _ _ _ nw nw).1 (by push_cast; exact ⟨b1, b2⟩)⟩
  · intro hP hM
    refine means_between hr hlo (.rosselandScattering m g3 hn) g4 rfl rfl hσ hτ hη hE hM (fun i j k p' hn' => ?_) hp hF
    have nw := node_within hr hn'.rhoI hn'.tempJ hn'.YeK
    have c := hP i j k ⟨hn'.rhoI, hn'.tempJ, hn'.YeK⟩
    obtain ⟨-, q2⟩ := C87_neutrino_scattering h hr ha hab hpc hd hα hn' hs (Λ := Λ) (ε := ε) rfl rfl rfl rfl rfl
      (by rw [hn'.Ye]; exact fun ν hν => (c.large ν hν).1) hΛ (by rw [hn'.Ye]; exact c.slope) c.weight
    obtain ⟨κ, e, b1, b2⟩ := q2 _ rfl (by rw [hn'.Ye]; exact fun ν hν => (c.large ν hν).2) (by rw [hn'.Ye]; exact c.weight')
      (by have := c.small; push_cast at this; exact this)
    rw [hn'.Ye] at b1 b2
    exact ⟨κ, e, widen c.factor (hM _ _ _ _ _ _ nw nw).1 (by push_cast; exact ⟨b1, b2⟩)⟩

end

/-! ## An example: gray opacity 2 on the first decade -/

/-- the hypotheses of `C88_neutrino_absorption` are met, at density 3, temperature 5 and electron fraction 1/2 -/
example (d : FermiDirac ℝ) (pc : PC ℝ) (h1 : d.pc.h = 1) (h2 : d.pc.kb = 1) (h3 : d.pc.c = 1) (hd : d.NSPECIES = 1)
    (hpc : PosPC d.pc) :
    ∃ (m : Neutrinos.MeanOpacityBase ℝ) (κP κR : ℝ),
      AbsorptionMeans (inferInstance : NeutrinoAPI ℝ (Neutrinos.GrayOpacity ℝ)) ⟨d, pc, 2⟩ twoNodes ((10 : ℝ) ^ (0 : ℝ)) ((10 : ℝ) ^ (1 : ℝ)) 1000 m ∧
      MeanNeutrinoAPI.PlanckMeanAbsorptionCoefficient m 3 5 (1 / 2) .NU_HEAVY = ok (3 * κP) ∧
      MeanNeutrinoAPI.RosselandMeanAbsorptionCoefficient m 3 5 (1 / 2) .NU_HEAVY = ok (3 * κR) ∧
      (Real.exp (-0.2) * (2 + tiny) ≤ κP ∧ κP ≤ Real.exp 0.2 * (2 + tiny)) ∧
      Real.exp (-0.2) * (2 + tiny) ≤ κR ∧ κR ≤ Real.exp 0.2 * (2 + tiny) := by
  obtain ⟨m, hm⟩ : ∃ m, Neutrinos.MeanOpacityBase.construct false pc (fun _ _ => 0) (⟨d, pc, 2⟩ : Neutrinos.GrayOpacity ℝ)
      twoNodes.lRhoMin twoNodes.lRhoMax twoNodes.NRho twoNodes.lTMin twoNodes.lTMax twoNodes.NT twoNodes.YeMin twoNodes.YeMax
      twoNodes.NYe 0 1 ((1000 : ℕ) : ℤ) = ok m := absorption_returns (fun _ _ _ _ _ => ⟨_, rfl⟩)
  have hA := AbsorptionMeans.window (inst := inferInstance) (r := twoNodes) hm
  refine ⟨m, ?_⟩
  have e0 : (10 : ℝ) ^ (0 : ℝ) = 1 := Real.rpow_zero 10
  have e1 : (10 : ℝ) ^ (1 : ℝ) = 10 := Real.rpow_one 10
  have ht0 := tiny_pos
  have ht := tiny_tiny
  have hl10 : Real.log 10 ≤ 9 := by have := Real.log_le_sub_one_of_pos (show (0 : ℝ) < 10 by norm_num); linarith
  have hl0 : 0 < Real.log 10 := Real.log_pos (by norm_num)
  have hsub : Set.uIcc (1 : ℝ) 10 ⊆ Set.Ioi 0 := by
    rw [Set.uIcc_of_le (by norm_num)]
    exact fun x hx => lt_of_lt_of_le one_pos hx.1
  have lowers : ∀ {T : ℝ}, 1 ≤ T → T ≤ 10 → 9 / 10 ^ 6 ≤ (∫ ν in (1 : ℝ)..10, fermiDiracLaw d.NSPECIES d.pc.h d.pc.kb d.pc.c T ν) ∧
      9 / 10 ^ 9 ≤ ∫ ν in (1 : ℝ)..10, deriv (fun T => fermiDiracLaw d.NSPECIES d.pc.h d.pc.kb d.pc.c T ν) T := by
    intro T t1 t2
    have c1 := (fermi_continuous hpc T).1
    have c2 := (fermi_continuous hpc T).2
    have b1 : ∫ _ in (1 : ℝ)..10, (1 / 10 ^ 6 : ℝ) ≤ ∫ ν in (1 : ℝ)..10, d.ThermalDistributionOfTNu T ν :=
      intervalIntegral.integral_mono_on (by norm_num) intervalIntegrable_const (c1.mono hsub).intervalIntegrable
        fun ν hν => (weights_lower h1 h2 h3 hd t1 t2 hν.1 hν.2).1
    have b2 : ∫ _ in (1 : ℝ)..10, (1 / 10 ^ 9 : ℝ) ≤ ∫ ν in (1 : ℝ)..10, d.DThermalDistributionOfTNuDT T ν :=
      intervalIntegral.integral_mono_on (by norm_num) intervalIntegrable_const (c2.mono hsub).intervalIntegrable
        fun ν hν => (weights_lower h1 h2 h3 hd t1 t2 hν.1 hν.2).2
    rw [intervalIntegral.integral_const, smul_eq_mul] at b1 b2
    have ef : d.ThermalDistributionOfTNu T = fermiDiracLaw d.NSPECIES d.pc.h d.pc.kb d.pc.c T := funext fun ν => fermi_eq d T ν
    rw [ef] at b1
    rw [fermiDT_deriv hpc (by linarith)] at b2
    constructor
    · norm_num at b1 ⊢; linarith
    · norm_num at b2 ⊢; linarith
  have means : ∀ ρ T Ye, Within twoNodes ρ T Ye → windowPlanck d ((10 : ℝ) ^ (0 : ℝ)) ((10 : ℝ) ^ (1 : ℝ)) (fun ρ _ _ _ => ρ * 2) ρ T Ye = 2 ∧
      windowRosseland d ((10 : ℝ) ^ (0 : ℝ)) ((10 : ℝ) ^ (1 : ℝ)) (fun ρ _ _ _ => ρ * 2) ρ T Ye = 2 := by
    intro ρ T Ye hw
    have w1 := hw.rho
    have w2 := hw.T
    simp only [twoNodes, e0, e1] at w1 w2
    obtain ⟨b1, b2⟩ := lowers w2.1 w2.2
    have hρ : ρ ≠ 0 := by have := w1.1; linarith
    constructor
    · unfold windowPlanck windowPlanckMean
      rw [e0, e1, intervalIntegral.integral_const_mul, mul_div_assoc, div_self (by norm_num at b1; linarith)]
      field_simp
    · unfold windowRosseland windowRosselandMean
      rw [e0, e1, intervalIntegral.integral_const_mul, div_mul_eq_div_div_swap, div_self (by norm_num at b2; linarith)]
      field_simp
  have changes : ∀ M : ℝ → ℝ → ℝ → ℝ, (∀ ρ T Ye, Within twoNodes ρ T Ye → M ρ T Ye = 2) → MeanChangesAtMost 0 0 0 twoNodes M := by
    intro M hM ρ T Ye ρ' T' Ye' hw hw'
    rw [hM _ _ _ hw, hM _ _ _ hw']
    simp
  have hw : Within twoNodes (|3| + tiny) (|5| + tiny) (1 / 2) := by
    norm_num at ht
    refine ⟨⟨?_, ?_⟩, ⟨?_, ?_⟩, ⟨?_, ?_⟩⟩ <;> simp only [twoNodes, e0, e1] <;> norm_num <;> linarith
  have hδ : 0 ≤ Real.log ((10 : ℝ) ^ (1 : ℝ) / (10 : ℝ) ^ (0 : ℝ)) / ((1000 : ℕ) : ℝ) ∧
      Real.log ((10 : ℝ) ^ (1 : ℝ) / (10 : ℝ) ^ (0 : ℝ)) / ((1000 : ℕ) : ℝ) ≤ 1 / 100 := by
    rw [e0, e1, div_one]
    constructor
    · positivity
    · rw [div_le_iff₀ (by norm_num)]; norm_num; linarith
  have hmax : ∀ {T n : ℝ}, 1 ≤ T → n ≤ 10 → 0 ≤ max n (d.pc.h * (10 : ℝ) ^ (1 : ℝ) / (d.pc.kb * T)) ∧
      max n (d.pc.h * (10 : ℝ) ^ (1 : ℝ) / (d.pc.kb * T)) ≤ 10 := by
    intro T n hT hn
    rw [h1, h2, e1, one_mul, one_mul]
    refine ⟨le_max_of_le_right (by positivity), max_le hn ?_⟩
    rw [div_le_iff₀ (by linarith)]
    linarith
  have htl : tiny * Real.log 10 ≤ 1 / 10 ^ 10 * (1 / 10 ^ 9) := by
    have : tiny * Real.log 10 ≤ 1 / 10 ^ 20 * 9 := mul_le_mul ht hl10 hl0.le (by norm_num)
    refine this.trans (by norm_num)
  have hfac : ∀ {T n : ℝ}, 1 ≤ T → n ≤ 10 → (max n (d.pc.h * (10 : ℝ) ^ (1 : ℝ) / (d.pc.kb * T)) + 0 / 2) *
      (Real.log ((10 : ℝ) ^ (1 : ℝ) / (10 : ℝ) ^ (0 : ℝ)) / ((1000 : ℕ) : ℝ)) + 1 / 10 ^ 10 ≤ 0.2 := by
    intro T n hT hn
    obtain ⟨m1, m2⟩ := hmax (n := n) hT hn
    obtain ⟨d1, d2⟩ := hδ
    generalize max n (d.pc.h * (10 : ℝ) ^ (1 : ℝ) / (d.pc.kb * T)) = y at *
    generalize Real.log ((10 : ℝ) ^ (1 : ℝ) / (10 : ℝ) ^ (0 : ℝ)) / ((1000 : ℕ) : ℝ) = δ at *
    norm_num
    nlinarith
  obtain ⟨q1, q2⟩ := C88_neutrino_absorption (d := d) hA (by norm_num) twoNodes_proper
    ⟨by norm_num [twoNodes] at ht ⊢; linarith, by norm_num [twoNodes] at ht ⊢; linarith⟩ (by norm_num) (by norm_num) hpc (by omega)
    (fun _ _ _ => rfl) (fun _ _ _ => rfl) (α := fun rho _ _ _ _ => rho * 2) (fun rho T Ye s ν hr _ _ => ⟨rfl, by positivity⟩)
    (s := .NU_HEAVY) (.inr (.inr rfl)) (Λ := 0) (ε := 1 / 10 ^ 10) (E := 0.2) (σ := 0) (τ := 0) (η := 0) (le_refl _) (by norm_num) (le_refl _) (le_refl _)
    (le_refl _) (F := 0) (by simp [meanExponent]) (p := ⟨3, 5, 1 / 2, 0⟩) rfl rfl hw
  obtain ⟨κP, p1, p2, p3⟩ := q1 (fun i j k hn => by
      obtain ⟨-, t1, t2⟩ := twoNodes_values hn.2.1
      obtain ⟨⟨r1, -⟩, -⟩ := twoNodes_values hn.1
      refine ⟨fun _ _ => by linarith, fun x _ y _ => by simp, ?_, hfac t1 (by norm_num)⟩
      rw [e0, e1]
      refine htl.trans (mul_le_mul_of_nonneg_left ?_ (by norm_num))
      refine le_trans (by norm_num) (lowers t1 t2).1) (changes _ fun ρ T Ye h => (means ρ T Ye h).1)
  obtain ⟨κR, r1, r2, r3⟩ := q2 (fun i j k hn => by
      obtain ⟨-, t1, t2⟩ := twoNodes_values hn.2.1
      obtain ⟨⟨r1, r2⟩, -⟩ := twoNodes_values hn.1
      have hr0 : twoNodes.rhoNode i ≠ 0 := by linarith
      have r12 : twoNodes.rhoNode i / (twoNodes.rhoNode i * 2) = 1 / 2 := by field_simp
      have r21 : twoNodes.rhoNode i * 2 / twoNodes.rhoNode i = 2 := by field_simp
      refine ⟨fun _ _ => ⟨by linarith, ?_, ?_⟩, fun x _ y _ => by simp, ?_, ?_, ?_, hfac t1 (by norm_num)⟩
      · norm_num at ht ⊢
        linarith
      · rw [r21]
        norm_num at ht ⊢
        linarith
      · rw [e0, e1]
        refine htl.trans (mul_le_mul_of_nonneg_left ?_ (by norm_num))
        refine le_trans (by norm_num) (lowers t1 t2).1
      · rw [e0, e1, r12, intervalIntegral.integral_const_mul]
        refine htl.trans (mul_le_mul_of_nonneg_left ?_ (by norm_num))
        have := (lowers t1 t2).2
        norm_num at this ⊢
        linarith
      · have := hfac (T := twoNodes.TNode j) (n := 5) t1 (by norm_num)
        have h1 := Real.exp_le_exp.2 (show (max 5 (d.pc.h * (10 : ℝ) ^ (1 : ℝ) / (d.pc.kb * twoNodes.TNode j)) + 0 / 2) *
          (Real.log ((10 : ℝ) ^ (1 : ℝ) / (10 : ℝ) ^ (0 : ℝ)) / ((1000 : ℕ) : ℝ)) ≤ 1 by norm_num at this ⊢; linarith)
        have h2 := Real.exp_one_lt_three
        generalize Real.exp ((max 5 (d.pc.h * (10 : ℝ) ^ (1 : ℝ) / (d.pc.kb * twoNodes.TNode j)) + 0 / 2) *
          (Real.log ((10 : ℝ) ^ (1 : ℝ) / (10 : ℝ) ^ (0 : ℝ)) / ((1000 : ℕ) : ℝ))) = y at *
        norm_num
        linarith) (changes _ fun ρ T Ye h => (means ρ T Ye h).2)
  rw [(means _ _ _ hw).1, neg_zero, Real.rpow_zero, mul_one] at p2
  rw [(means _ _ _ hw).1, Real.rpow_zero, mul_one] at p3
  rw [(means _ _ _ hw).2, neg_zero, Real.rpow_zero, mul_one] at r2
  rw [(means _ _ _ hw).2, Real.rpow_zero, mul_one] at r3
  exact ⟨κP, κR, hA, p1, r1, ⟨p2, p3⟩, r2, r3⟩

end Opac.Tables
