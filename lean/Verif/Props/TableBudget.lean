import Verif.Props.EmissionNeutrinos
import Verif.Props.TableAccuracy

/-!
# C94: over its frequencies a tabulated spectrum emits no more than the tabulated total

Over the reals.  A table is filled from a source whose total emissivity is the integral of its spectral emissivity (C21).
-/

namespace Opac.Tables
open Arith Outcome Spec Spiner Photons Neutrinos MeasureTheory Set
open SpinerOpacity (tiny tiny_pos kelvinPerMeV hzPerMeV FilledFrom Tabulated Ranges sampledFrom)

section
variable {d : FermiDirac ℝ} {pc : PC ℝ} {r : Ranges} {o : SpinerOpacity ℝ} {O : Type} [inst : NeutrinoAPI ℝ O] {src : O}

/-- states between two states inside the table -/
theorem asked_between {ρ T Ye a b ν : ℝ} (ha : Asked r pc ⟨ρ, T, Ye, a⟩) (hb : Asked r pc ⟨ρ, T, Ye, b⟩) (h : ν ∈ Icc a b) :
    Asked r pc ⟨ρ, T, Ye, ν⟩ := by
  refine ⟨ha.rho, ha.T, le_trans ha.nu h.1, ha.covered.rho, ha.covered.T, ha.covered.Ye, ?_, ?_⟩
  · exact ha.covered.nu.1.trans (by simp only [floored]; linarith [h.1])
  · exact le_trans (by simp only [floored]; linarith [h.2]) hb.covered.nu.2

/-- **C94 (general)**: the same for a source whose spectrum integrates to at most `c` times its total -/
theorem C94_budget_times (h : FilledFrom d pc (sampledFrom src) r o) (hr : r.Proper) (hpc : 0 < hzPerMeV pc) {s : RadiationType} (hs : Tabulated s)
    {c : ℝ} (hc0 : 0 ≤ c)
    (hsrc : ∀ ρ T Ye J (Jν : ℝ → ℝ), 0 < ρ → 0 < T → inst.Emissivity src ρ T Ye s = ok J → 0 ≤ J →
      (∀ ν, 0 < ν → inst.EmissivityPerNu src ρ T Ye s ν = ok (Jν ν)) → IntegrableOn Jν (Ioi 0) ∧ ∫ ν in Ioi (0 : ℝ), Jν ν ≤ c * J)
    {M J : State → ℝ}
    (hM : ∀ x, 0 < x.rho → 0 < x.T → 0 < x.nu → inst.EmissivityPerNuOmega src x.rho x.T x.Ye s x.nu = ok (M x) ∧
      inst.EmissivityPerNu src x.rho x.T x.Ye s x.nu = ok (4 * Real.pi * M x) ∧ 0 ≤ M x)
    (hJ : ∀ x, Covered r pc x → inst.Emissivity src x.rho x.T x.Ye s = ok (J x) ∧ 0 ≤ J x)
    (hN : ∀ x, Covered r pc x → ∃ v, inst.NumberEmissivity src x.rho x.T x.Ye s = ok v ∧ 0 ≤ v)
    {σ τ η θ σ' τ' η' : ℝ} (hσ : 0 ≤ σ) (hτ : 0 ≤ τ) (hη : 0 ≤ η) (hθ : 0 ≤ θ) (hσ' : 0 ≤ σ') (hτ' : 0 ≤ τ') (hη' : 0 ≤ η')
    (hc : ChangesAtMost σ τ η θ r pc M) (hc' : ChangesAtMost σ' τ' η' 0 r pc J)
    {ρ T Ye a b : ℝ} (hab : a ≤ b) (ha : Asked r pc ⟨ρ, T, Ye, a⟩) (hb : Asked r pc ⟨ρ, T, Ye, b⟩)
    {F F' : ℝ} (hF : F = factorExponent σ τ η θ r) (hF' : F' = factorExponent σ' τ' η' 0 r) :
    ∃ (e : ℝ → ℝ) (total : ℝ), ContinuousOn e (Icc a b) ∧ (∀ ν ∈ Icc a b, NeutrinoAPI.EmissivityPerNu o ρ T Ye s ν = ok (e ν)) ∧
      NeutrinoAPI.Emissivity o ρ T Ye s = ok total ∧
      ∫ ν in a..b, e ν ≤ 10 ^ F * (c * (10 ^ F' * total) + 4 * Real.pi * tiny * (b - a)) := by
  have hS := tiny_pos
  have hK := SpinerOpacity.kelvin_pos
  obtain ⟨-, -, p1, p2⟩ := filled_proper h hr
  obtain ⟨n, hn⟩ := tabulated_index hs
  choose! Nf hNf using hN
  obtain ⟨total, t1, t2, -⟩ := (C89_total h hr hpc hs hJ (N := Nf) hNf hσ' hτ' hη' ha hF').1 hc'
  obtain ⟨G, G1, G2⟩ := C56_continuous (FromTable.perNu o p2 hn)
  obtain ⟨ε, hε⟩ : ∃ ε, ε = tiny * hzPerMeV pc := ⟨_, rfl⟩
  have ε0 : 0 < ε := by rw [hε]; positivity
  obtain ⟨ρ', hρ'⟩ : ∃ x, x = ρ + tiny := ⟨_, rfl⟩
  obtain ⟨T', hT'⟩ : ∃ x, x = T + tiny * kelvinPerMeV := ⟨_, rfl⟩
  have ρ0 : 0 < ρ' := by have : 0 ≤ ρ := ha.rho; rw [hρ']; linarith
  have T0 : 0 < T' := by have : 0 ≤ T := ha.T; have := mul_pos hS hK; rw [hT']; linarith
  have a0 : 0 ≤ a := ha.nu
  have fl : ∀ ν, floored pc ⟨ρ, T, Ye, ν⟩ = ⟨ρ', T', Ye, ν + ε⟩ := fun ν => by simp only [floored, hρ', hT', hε]
  have up : ∀ ν ∈ Icc a b, G ⟨ρ, T, Ye, ν⟩ ≤ 10 ^ F * (4 * Real.pi * M ⟨ρ', T', Ye, ν + ε⟩ + 4 * Real.pi * tiny) := by
    intro ν hν
    obtain ⟨-, v, e1, -, e2⟩ := C89_spectral h hr hpc hs (fun x hx => by
      obtain ⟨x1, x2, x3⟩ := covered_pos hpc hx
      exact ⟨(hM x x1 x2 x3).1, (hM x x1 x2 x3).2.2⟩) hσ hτ hη hθ hc (asked_between ha hb hν) hF
    have g : G ⟨ρ, T, Ye, ν⟩ = 4 * Real.pi * v := Outcome.ok.inj ((G2 ⟨ρ, T, Ye, ν⟩).symm.trans e1)
    rw [fl] at e2
    rw [g]
    have := mul_le_mul_of_nonneg_left e2 (by positivity : 0 ≤ 4 * Real.pi)
    linarith
  have Jt : 0 ≤ total ∧ J ⟨ρ', T', Ye, a + ε⟩ ≤ 10 ^ F' * total := by
    rw [fl] at t2
    have j0 : 0 ≤ J ⟨ρ', T', Ye, a + ε⟩ := by rw [← fl]; exact (hJ _ ha.covered).2
    have q : (0 : ℝ) < 10 ^ F' := by positivity
    rw [Real.rpow_neg (by norm_num), inv_mul_le_iff₀ q] at t2
    refine ⟨?_, by linarith⟩
    by_contra hh
    nlinarith
  obtain ⟨i1, i2⟩ := hsrc ρ' T' Ye (J ⟨ρ', T', Ye, a + ε⟩) (fun ν => 4 * Real.pi * M ⟨ρ', T', Ye, ν⟩) ρ0 T0 (by
    have := (hJ _ ha.covered).1
    rw [fl] at this
    exact this) (by rw [← fl]; exact (hJ _ ha.covered).2) fun ν hν => (hM ⟨ρ', T', Ye, ν⟩ ρ0 T0 hν).2.1
  have cont : Continuous fun ν : ℝ => G ⟨ρ, T, Ye, ν⟩ := by
    refine G1.comp ?_
    rw [continuous_induced_rng]
    exact continuous_const.prodMk (continuous_const.prodMk (continuous_const.prodMk continuous_id))
  refine ⟨fun ν => G ⟨ρ, T, Ye, ν⟩, total, cont.continuousOn, fun ν _ => G2 ⟨ρ, T, Ye, ν⟩, t1, ?_⟩
  have sub : Ioc (a + ε) (b + ε) ⊆ Ioi 0 := fun ν hν => lt_trans (by linarith) hν.1
  have I1 : IntervalIntegrable (fun ν => 4 * Real.pi * M ⟨ρ', T', Ye, ν⟩) volume (a + ε) (b + ε) := by
    rw [intervalIntegrable_iff_integrableOn_Ioc_of_le (by linarith)]
    exact i1.mono_set sub
  have I2 : IntervalIntegrable (fun ν => 4 * Real.pi * M ⟨ρ', T', Ye, ν + ε⟩) volume a b := by
    have := I1.comp_add_right ε
    simpa using this
  have step : ∫ ν in a..b, (4 * Real.pi * M ⟨ρ', T', Ye, ν + ε⟩) ≤ c * J ⟨ρ', T', Ye, a + ε⟩ := by
    rw [intervalIntegral.integral_comp_add_right (fun ν => 4 * Real.pi * M ⟨ρ', T', Ye, ν⟩) ε,
      intervalIntegral.integral_of_le (by linarith)]
    refine le_trans ?_ i2
    refine setIntegral_mono_set i1 ?_ (Filter.Eventually.of_forall sub)
    refine (ae_restrict_iff' measurableSet_Ioi).2 (Filter.Eventually.of_forall fun ν hν => ?_)
    exact mul_nonneg (by positivity) (hM ⟨ρ', T', Ye, ν⟩ ρ0 T0 hν).2.2
  calc ∫ ν in a..b, G ⟨ρ, T, Ye, ν⟩
      ≤ ∫ ν in a..b, 10 ^ F * (4 * Real.pi * M ⟨ρ', T', Ye, ν + ε⟩ + 4 * Real.pi * tiny) :=
        intervalIntegral.integral_mono_on hab (cont.intervalIntegrable _ _) ((I2.add intervalIntegrable_const).const_mul _) up
    _ = 10 ^ F * ((∫ ν in a..b, (4 * Real.pi * M ⟨ρ', T', Ye, ν + ε⟩)) + 4 * Real.pi * tiny * (b - a)) := by
        rw [intervalIntegral.integral_const_mul, intervalIntegral.integral_add I2 intervalIntegrable_const, intervalIntegral.integral_const,
          smul_eq_mul, mul_comm (b - a)]
    _ ≤ _ := by
        refine mul_le_mul_of_nonneg_left ?_ (by positivity)
        linarith [mul_le_mul_of_nonneg_left Jt.2 hc0]

/-- **C94**: between any two frequencies of the table, the integral of the tabulated spectral emissivity is at most the tabulated
total, up to the factors by which spectrum and total change over half a node distance, and up to the floor of the table -/
theorem C94_budget (h : FilledFrom d pc (sampledFrom src) r o) (hr : r.Proper) (hpc : 0 < hzPerMeV pc) {s : RadiationType} (hs : Tabulated s)
    (hsrc : TotalIsIntegral inst src) {M J : State → ℝ}
    (hM : ∀ x, 0 < x.rho → 0 < x.T → 0 < x.nu → inst.EmissivityPerNuOmega src x.rho x.T x.Ye s x.nu = ok (M x) ∧
      inst.EmissivityPerNu src x.rho x.T x.Ye s x.nu = ok (4 * Real.pi * M x) ∧ 0 ≤ M x)
    (hJ : ∀ x, Covered r pc x → inst.Emissivity src x.rho x.T x.Ye s = ok (J x) ∧ 0 ≤ J x)
    (hN : ∀ x, Covered r pc x → ∃ v, inst.NumberEmissivity src x.rho x.T x.Ye s = ok v ∧ 0 ≤ v)
    {σ τ η θ σ' τ' η' : ℝ} (hσ : 0 ≤ σ) (hτ : 0 ≤ τ) (hη : 0 ≤ η) (hθ : 0 ≤ θ) (hσ' : 0 ≤ σ') (hτ' : 0 ≤ τ') (hη' : 0 ≤ η')
    (hc : ChangesAtMost σ τ η θ r pc M) (hc' : ChangesAtMost σ' τ' η' 0 r pc J)
    {ρ T Ye a b : ℝ} (hab : a ≤ b) (ha : Asked r pc ⟨ρ, T, Ye, a⟩) (hb : Asked r pc ⟨ρ, T, Ye, b⟩)
    {F F' : ℝ} (hF : F = factorExponent σ τ η θ r) (hF' : F' = factorExponent σ' τ' η' 0 r) :
    ∃ (e : ℝ → ℝ) (total : ℝ), ContinuousOn e (Icc a b) ∧ (∀ ν ∈ Icc a b, NeutrinoAPI.EmissivityPerNu o ρ T Ye s ν = ok (e ν)) ∧
      NeutrinoAPI.Emissivity o ρ T Ye s = ok total ∧
      ∫ ν in a..b, e ν ≤ 10 ^ F * (10 ^ F' * total + 4 * Real.pi * tiny * (b - a)) := by
  have := C94_budget_times h hr hpc hs zero_le_one (fun ρ T Ye J Jν _ hT h1 _ h2 => by
    obtain ⟨i1, i2⟩ := hsrc ρ T Ye s J Jν hT h1 h2
    exact ⟨i1, by rw [one_mul, i2]⟩) hM hJ hN hσ hτ hη hθ hσ' hτ' hη' hc hc' hab ha hb hF hF'
  simpa only [one_mul] using this

/-- **C94 for gray opacities**: every table filled from one -/
theorem C94_gray (hd : 0 < d.NSPECIES ∧ PosPC d.pc) (hr : r.Proper) (hpc : 0 < hzPerMeV pc) {κ : ℝ} (hκ : 0 ≤ κ)
    (h : FilledFrom d pc (sampledFrom (⟨d, pc, κ⟩ : Neutrinos.GrayOpacity ℝ)) r o) {s : RadiationType} (hs : Tabulated s)
    {ρ T Ye a b : ℝ} (hab : a ≤ b) (ha : Asked r pc ⟨ρ, T, Ye, a⟩) (hb : Asked r pc ⟨ρ, T, Ye, b⟩) {F F' X : ℝ}
    (hX : X = d.pc.h * (hzPerMeV pc * 10 ^ r.leMax) / (d.pc.kb * 10 ^ r.lTMin)) (hF : F = factorExponent 1 X 0 (3 + X) r)
    (hF' : F' = factorExponent 1 4 0 0 r) :
    ∃ (e : ℝ → ℝ) (total : ℝ), ContinuousOn e (Icc a b) ∧ (∀ ν ∈ Icc a b, NeutrinoAPI.EmissivityPerNu o ρ T Ye s ν = ok (e ν)) ∧
      NeutrinoAPI.Emissivity o ρ T Ye s = ok total ∧
      ∫ ν in a..b, e ν ≤ 10 ^ F * (10 ^ F' * total + 4 * Real.pi * tiny * (b - a)) := by
  have hh := hd.2.h
  have hk := hd.2.kb
  have hX0 : 0 ≤ X := by rw [hX]; positivity
  obtain ⟨CJ, CN, c1, c2, eJ, eN⟩ := fermi_totals hd
  refine C94_budget h hr hpc hs (Neutrinos.C21_gray ⟨d, pc, κ⟩ hd.2 .self)
    (M := fun x => x.rho * κ * d.ThermalDistributionOfTNu x.T x.nu) (J := fun x => x.rho * κ * d.ThermalDistributionOfT x.T)
    (fun x x1 x2 x3 => ⟨rfl, ?_, mul_nonneg (mul_nonneg x1.le hκ) (spectrum_pos hd x3).le⟩) (fun x hx => ⟨rfl, ?_⟩) (fun x hx => ⟨_, rfl, ?_⟩)
    zero_le_one hX0 (le_refl 0) (by linarith) zero_le_one (by norm_num) (le_refl 0) (gray_spectral_changes hd hpc hκ hX)
    (gray_total_changes hd hpc hκ) hab ha hb hF hF'
  · simp only [NeutrinoAPI.EmissivityPerNu, Neutrinos.GrayOpacity.EmissivityPerNu, Neutrinos.GrayOpacity.EmissivityPerNuOmega, areal]
    norm_num
  · obtain ⟨x1, x2, x3⟩ := covered_pos hpc hx
    simp only [eJ]
    positivity
  · obtain ⟨x1, x2, x3⟩ := covered_pos hpc hx
    show 0 ≤ κ * d.ThermalNumberDistributionOfT x.T
    rw [eN]
    positivity

/-- the hypotheses are met: gray opacity 2, two nodes per axis, density 3, temperature 5, from 2 to 4 MeV -/
example (d : FermiDirac ℝ) (pc : PC ℝ) (hpc : 0 < hzPerMeV pc) (hd : 0 < d.NSPECIES ∧ PosPC d.pc) :
    ∃ (o : SpinerOpacity ℝ) (e : ℝ → ℝ) (total F : ℝ), FilledFrom d pc (sampledFrom (⟨d, pc, 2⟩ : Neutrinos.GrayOpacity ℝ)) SpinerOpacity.twoNodes o ∧
      (∀ ν ∈ Icc (2 * hzPerMeV pc) (4 * hzPerMeV pc), NeutrinoAPI.EmissivityPerNu o 3 5 (1 / 2) .NU_ELECTRON ν = ok (e ν)) ∧
      NeutrinoAPI.Emissivity o 3 5 (1 / 2) .NU_ELECTRON = ok total ∧
      ∫ ν in (2 * hzPerMeV pc)..(4 * hzPerMeV pc), e ν ≤ 10 ^ F * (10 ^ (5 / 2 : ℝ) * total + 4 * Real.pi * tiny * (4 * hzPerMeV pc - 2 * hzPerMeV pc)) := by
  obtain ⟨o, ho⟩ := gray_filled d pc 2 SpinerOpacity.twoNodes
  have a := asked_example pc hpc
  have b : Asked SpinerOpacity.twoNodes pc ⟨3, 5, 1 / 2, 4 * hzPerMeV pc⟩ := by
    refine ⟨a.rho, a.T, by positivity, a.covered.rho, a.covered.T, a.covered.Ye, ?_⟩
    have hS := tiny_pos
    have hS1 := SpinerOpacity.tiny_le_one
    simp only [floored, SpinerOpacity.twoNodes, Real.rpow_zero, Real.rpow_one]
    constructor <;> nlinarith
  obtain ⟨e, t, -, h1, h2, h3⟩ := C94_gray hd SpinerOpacity.twoNodes_proper hpc (by norm_num) ho (s := .NU_ELECTRON) (.inl rfl)
    (by linarith) a b rfl rfl (F' := 5 / 2) (by simp [factorExponent, SpinerOpacity.twoNodes]; norm_num)
  exact ⟨o, e, t, _, ho, h1, h2, h3⟩

end

end Opac.Tables
