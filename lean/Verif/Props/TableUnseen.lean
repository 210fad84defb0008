import Verif.Props.TableSlope

/-!
# C96: a neutrino table knows its source only at its nodes

Over the reals.  What a source does between the nodes leaves no trace in a table: a source that emits nothing (or a negative amount) at
the nodes is tabulated as emitting the floor everywhere, whatever it does in between.  So the accuracy of C89 needs a bound on
how fast the source changes.
-/

namespace Opac.Tables
open Arith Outcome Spec Spiner Photons Neutrinos
open SpinerOpacity (tiny tiny_pos kelvinPerMeV hzPerMeV FilledFrom Tabulated Ranges sampledFrom)

section
variable {O : Type} {inst : NeutrinoAPI ℝ O} {src : O} {d : FermiDirac ℝ} {pc : PC ℝ} {r : Ranges} {o : SpinerOpacity ℝ}

/-! ## Helpers -/

theorem nothing_changes : ChangesAtMost 0 0 0 0 r pc fun _ => 0 := by
  intro x y _ _
  simp

theorem floor_read {w : ℝ} (h : w ≤ 0) : SpinerOpacity.toLog_ (stdMax w (lit 0.0)) = SpinerOpacity.toLog_ (stdMax (0 : ℝ) (lit 0.0)) := by
  have e : stdMax w (lit 0.0) = stdMax (0 : ℝ) (lit 0.0) := by
    simp only [stdMax, areal]
    norm_num
    intro q
    linarith
  rw [e]

/-- a spectral table with the floor at every node -/
theorem floor_everywhere (h : FilledFrom d pc (sampledFrom src) r o) (hr : r.Proper) (hpc : 0 < hzPerMeV pc) {lk : DataBox ℝ}
    (hlk : lk = o.lalphanu_ ∨ lk = o.ljnu_) {n : ℕ} {f : ℝ} {answer : State → Outcome ℝ} (hq : FromTable (spectralQuery o.pc lk n f answer))
    (hread : ∀ i j k m : ℕ, (i : ℤ) < r.NRho → (j : ℤ) < r.NT → (k : ℤ) < r.NYe → (m : ℤ) < r.Ne →
      lk.read [(i : ℤ), j, k, n, m] = ok (SpinerOpacity.toLog_ (stdMax (0 : ℝ) (lit 0.0)))) {p : State} (hp : Asked r pc p) :
    answer p = ok (f * tiny) := by
  obtain ⟨k, e, l, u⟩ := spectral_near h hr hpc hlk hq (M := fun _ => 0) (fun _ _ => le_refl 0) (le_refl 0) (le_refl 0) (le_refl 0) (le_refl 0)
    nothing_changes hread hp (F := 0) (by simp [factorExponent])
  simp only [neg_zero, Real.rpow_zero, one_mul, zero_add] at l u
  rw [e, le_antisymm u l]

/-! ## C96 -/

/-- **C96 (emission)**: a source whose spectral emissivity is zero or negative at every node -/
theorem C96_emission (h : FilledFrom d pc (sampledFrom src) r o) (hr : r.Proper) (hpc : 0 < hzPerMeV pc) {s : RadiationType} (hs : Tabulated s)
    (hz : ∀ i j k m : ℕ, (i : ℤ) < r.NRho → (j : ℤ) < r.NT → (k : ℤ) < r.NYe → (m : ℤ) < r.Ne → ∀ w,
      inst.EmissivityPerNuOmega src (r.rhoNode i) (r.TNode j) (r.YeNode k) s (r.nuNode pc m) = ok w → w ≤ 0)
    {p : State} (hp : Asked r pc p) :
    NeutrinoAPI.EmissivityPerNuOmega o p.rho p.T p.Ye s p.nu = ok tiny ∧
    NeutrinoAPI.EmissivityPerNu o p.rho p.T p.Ye s p.nu = ok (4 * Real.pi * tiny) := by
  obtain ⟨-, -, p1, p2⟩ := filled_proper h hr
  obtain ⟨n, hn⟩ := tabulated_index hs
  obtain ⟨-, -, -, -, hcl⟩ := SpinerOpacity.filled_cells h
  have read : ∀ i j k m : ℕ, (i : ℤ) < r.NRho → (j : ℤ) < r.NT → (k : ℤ) < r.NYe → (m : ℤ) < r.Ne →
      o.ljnu_.read [(i : ℤ), j, k, n, m] = ok (SpinerOpacity.toLog_ (stdMax (0 : ℝ) (lit 0.0))) := by
    intro i j k m hi hj hk hm
    obtain ⟨-, -, h3⟩ := hcl i j k n hi hj hk hn.spec.1 s (by cases hn <;> rfl)
    obtain ⟨⟨w, hw, hw'⟩, -⟩ := h3 m hm
    rw [hw', floor_read (hz i j k m hi hj hk hm w hw)]
  have e1 := floor_everywhere h hr hpc (.inr rfl) (.perNuOmega o p2 hn) read hp
  rw [one_mul] at e1
  exact ⟨e1, floor_everywhere h hr hpc (.inr rfl) (.perNu o p2 hn) read hp⟩

/-- **C96 (absorption)**: the same for the absorption coefficient, which is sampled at the temperature in MeV -/
theorem C96_absorption (h : FilledFrom d pc (sampledFrom src) r o) (hr : r.Proper) (hpc : 0 < hzPerMeV pc) {s : RadiationType} (hs : Tabulated s)
    (hz : ∀ i j k m : ℕ, (i : ℤ) < r.NRho → (j : ℤ) < r.NT → (k : ℤ) < r.NYe → (m : ℤ) < r.Ne → ∀ w,
      inst.AbsorptionCoefficient src (r.rhoNode i) (r.TNode j / kelvinPerMeV) (r.YeNode k) s (r.nuNode pc m) = ok w → w ≤ 0)
    {p : State} (hp : Asked r pc p) : NeutrinoAPI.AbsorptionCoefficient o p.rho p.T p.Ye s p.nu = ok tiny := by
  obtain ⟨-, -, p1, p2⟩ := filled_proper h hr
  obtain ⟨n, hn⟩ := tabulated_index hs
  obtain ⟨-, -, -, -, hcl⟩ := SpinerOpacity.filled_cells h
  have e1 := floor_everywhere h hr hpc (.inl rfl) (.absorption o p1 hn) (fun i j k m hi hj hk hm => by
    obtain ⟨-, -, h3⟩ := hcl i j k n hi hj hk hn.spec.1 s (by cases hn <;> rfl)
    obtain ⟨-, w, hw, hw'⟩ := h3 m hm
    rw [hw', floor_read (hz i j k m hi hj hk hm w hw)]) hp
  rwa [one_mul] at e1

/-- **C96 (tophat)**: a tophat emissivity with no node of the table strictly inside its band is tabulated as emitting the floor,
at every state inside the table -/
theorem C96_tophat {t : TophatEmissivity ℝ} (h : FilledFrom d pc (sampledFrom t) r o) (hr : r.Proper) (hpc : 0 < hzPerMeV pc)
    (hband : ∀ m : ℕ, (m : ℤ) < r.Ne → ¬ (t.numin_ < r.nuNode pc m ∧ r.nuNode pc m < t.numax_)) {s : RadiationType} (hs : Tabulated s)
    {p : State} (hp : Asked r pc p) :
    NeutrinoAPI.EmissivityPerNuOmega o p.rho p.T p.Ye s p.nu = ok tiny ∧
    NeutrinoAPI.EmissivityPerNu o p.rho p.T p.Ye s p.nu = ok (4 * Real.pi * tiny) := by
  refine C96_emission h hr hpc hs (fun i j k m _ _ _ hm w hw => ?_) hp
  have e : t.EmissivityPerNuOmega (r.rhoNode i) (r.TNode j) (r.YeNode k) s (r.nuNode pc m) = w := Outcome.ok.inj hw
  have := hband m hm
  rw [← e]
  simp only [TophatEmissivity.EmissivityPerNuOmega, areal]
  split_ifs with c
  · simp [areal] at c
    exact absurd c this
  · norm_num

theorem tophat_filled (d : FermiDirac ℝ) (pc : PC ℝ) (t : TophatEmissivity ℝ) (r : Ranges) : ∃ o, FilledFrom d pc (sampledFrom t) r o := by
  obtain ⟨o, ho⟩ := SpinerOpacity.fill_returns (dist := d) (pc := pc) (opac := sampledFrom t) (junk := fun _ _ => (0 : ℝ))
    (lRhoMin := r.lRhoMin) (lRhoMax := r.lRhoMax) (NRho := r.NRho) (lTMin := r.lTMin) (lTMax := r.lTMax) (NT := r.NT)
    (YeMin := r.YeMin) (YeMax := r.YeMax) (NYe := r.NYe) (leMin := r.leMin) (leMax := r.leMax) (Ne := r.Ne)
    (fun _ _ _ _ => ⟨_, rfl⟩) (fun _ _ _ _ => ⟨_, rfl⟩) (fun _ _ _ _ _ => ⟨_, rfl⟩) (fun _ _ _ _ _ => ⟨_, rfl⟩)
  exact ⟨o, _, ho⟩

/-- **C96 (why C89 needs rates)**: for every emissivity `C`, however large, there are a source, a table filled from it and a state
inside the table where the source emits `C` and the table says the floor -/
theorem C96_rates_needed (d : FermiDirac ℝ) (pc : PC ℝ) (hpc : 0 < hzPerMeV pc) (C : ℝ) :
    ∃ (t : TophatEmissivity ℝ) (r : Ranges) (o : SpinerOpacity ℝ) (p : State), r.Proper ∧ FilledFrom d pc (sampledFrom t) r o ∧ Asked r pc p ∧
      NeutrinoAPI.EmissivityPerNuOmega t (p.rho + tiny) (p.T + tiny * kelvinPerMeV) p.Ye .NU_ELECTRON (p.nu + tiny * hzPerMeV pc) = ok C ∧
      NeutrinoAPI.EmissivityPerNuOmega t p.rho p.T p.Ye .NU_ELECTRON p.nu = ok C ∧
      NeutrinoAPI.EmissivityPerNuOmega o p.rho p.T p.Ye .NU_ELECTRON p.nu = ok tiny := by
  let t : TophatEmissivity ℝ := ⟨d, pc, C, hzPerMeV pc, 10 * hzPerMeV pc⟩
  obtain ⟨o, ho⟩ := tophat_filled d pc t SpinerOpacity.twoNodes
  have a := asked_example pc hpc
  have hS := tiny_pos
  have hS1 := SpinerOpacity.tiny_le_one
  have inside : ∀ ρ T ν, hzPerMeV pc < ν → ν < 10 * hzPerMeV pc → NeutrinoAPI.EmissivityPerNuOmega t ρ T (1 / 2) .NU_ELECTRON ν = ok C := by
    intro ρ T ν h1 h2
    show ok (t.EmissivityPerNuOmega _ _ _ _ _) = ok C
    simp [TophatEmissivity.EmissivityPerNuOmega, TophatEmissivity.GetYeF, areal, t, h1, h2]
  refine ⟨t, SpinerOpacity.twoNodes, o, _, SpinerOpacity.twoNodes_proper, ho, a, inside _ _ _ ?_ ?_, inside _ _ _ ?_ ?_,
    (C96_tophat ho SpinerOpacity.twoNodes_proper hpc ?_ (.inl rfl) a).1⟩
  · show hzPerMeV pc < 2 * hzPerMeV pc + tiny * hzPerMeV pc
    nlinarith
  · show 2 * hzPerMeV pc + tiny * hzPerMeV pc < 10 * hzPerMeV pc
    nlinarith
  · show hzPerMeV pc < 2 * hzPerMeV pc
    linarith
  · show 2 * hzPerMeV pc < 10 * hzPerMeV pc
    linarith
  · intro m hm
    have hm' : m < 2 := by simpa [SpinerOpacity.twoNodes] using hm
    interval_cases m
    · simp [SpinerOpacity.Ranges.nuNode, SpinerOpacity.twoNodes, SpinerOpacity.equi, t]
    · simp [SpinerOpacity.Ranges.nuNode, SpinerOpacity.twoNodes, SpinerOpacity.equi, t]
      norm_num
      intro
      linarith

/-- a gray opacity of zero, or by mistake negative, absorbs the floor -/
theorem gray_unseen {κ : ℝ} (hκ : κ ≤ 0) (h : FilledFrom d pc (sampledFrom (⟨d, pc, κ⟩ : Neutrinos.GrayOpacity ℝ)) r o) (hr : r.Proper)
    (hpc : 0 < hzPerMeV pc) {s : RadiationType} (hs : Tabulated s) {p : State} (hp : Asked r pc p) :
    NeutrinoAPI.AbsorptionCoefficient o p.rho p.T p.Ye s p.nu = ok tiny := by
  refine C96_absorption h hr hpc hs (fun i j k m _ _ _ _ w hw => ?_) hp
  have e : r.rhoNode i * κ = w := Outcome.ok.inj hw
  rw [← e]
  exact mul_nonpos_of_nonneg_of_nonpos (rhoNode_pos i).le hκ

example (d : FermiDirac ℝ) (pc : PC ℝ) (hpc : 0 < hzPerMeV pc) :
    ∃ o, FilledFrom d pc (sampledFrom (⟨d, pc, -1⟩ : Neutrinos.GrayOpacity ℝ)) SpinerOpacity.twoNodes o ∧
      NeutrinoAPI.AbsorptionCoefficient o 3 5 (1 / 2) .NU_ELECTRON (2 * hzPerMeV pc) = ok tiny := by
  obtain ⟨o, ho⟩ := gray_filled d pc (-1) SpinerOpacity.twoNodes
  have q := gray_unseen (by norm_num) ho SpinerOpacity.twoNodes_proper hpc (s := .NU_ELECTRON) (.inl rfl) (asked_example pc hpc)
  exact ⟨o, ho, q⟩

/-- a tophat of strength 1 whose band lies below the table -/
example (d : FermiDirac ℝ) (pc : PC ℝ) (hpc : 0 < hzPerMeV pc) :
    ∃ o, FilledFrom d pc (sampledFrom (⟨d, pc, 1, 0, hzPerMeV pc⟩ : TophatEmissivity ℝ)) SpinerOpacity.twoNodes o ∧
      NeutrinoAPI.EmissivityPerNuOmega o 3 5 (1 / 2) .NU_ELECTRON (2 * hzPerMeV pc) = ok tiny := by
  obtain ⟨o, ho⟩ := tophat_filled d pc ⟨d, pc, 1, 0, hzPerMeV pc⟩ SpinerOpacity.twoNodes
  refine ⟨o, ho, (C96_tophat ho SpinerOpacity.twoNodes_proper hpc (fun m hm => ?_) (.inl rfl) (asked_example pc hpc)).1⟩
  have hm' : m < 2 := by simpa [SpinerOpacity.twoNodes] using hm
  interval_cases m
  · simp [SpinerOpacity.Ranges.nuNode, SpinerOpacity.twoNodes, SpinerOpacity.equi]
  · simp [SpinerOpacity.Ranges.nuNode, SpinerOpacity.twoNodes, SpinerOpacity.equi]
    norm_num
    intro
    linarith

end

end Opac.Tables
