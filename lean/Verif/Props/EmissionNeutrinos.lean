import Verif.Lemmas.Emission
import Verif.Lemmas.Thermal
import Verif.Lemmas.Zeta
import Verif.Props.Thermal
import Verif.Props.PhotonModels
import Mathlib.Analysis.SpecialFunctions.Integrals.Basic
import Mathlib.Analysis.Real.Pi.Bounds

/-! # C20–C24: emission and absorption of neutrino opacities -/

set_option linter.unusedSimpArgs false

namespace Opac
open Spec Real Set MeasureTheory Outcome

namespace Neutrinos
section
variable {O : Type} {inst : NeutrinoAPI ℝ O} {o : O} {n : ℕ} {us : List Spec.Units}

/-! ## C20, C24 -/

theorem vectorRel_of_scalar (H : ConstructedIn ℝ (fun x => 0 < x) O inst o n) {φ : ℝ → ℝ} {f g : VFn}
    (h : ∀ rho T Ye s ν, scalarFn inst o f rho T Ye s ν = (scalarFn inst o g rho T Ye s ν).map' φ) :
    VectorRel inst o (fun a b => a = φ b) f g := by
  intro rho T Ye s nb co n m hs
  obtain ⟨f1, f2⟩ := H.vectorOK_real f rho T Ye s nb co n m hs
  obtain ⟨g1, g2⟩ := H.vectorOK_real g rho T Ye s nb co n m hs
  have toF : ∀ r : ℕ → ℝ, (∀ i : ℕ, (i : ℤ) < n → scalarFn inst o g rho T Ye s (m (nb i)) = .ok (r i)) →
      ∀ i : ℕ, (i : ℤ) < n → scalarFn inst o f rho T Ye s (m (nb i)) = .ok (φ (r i)) := by
    intro r hr i hi
    rw [h, hr i hi]; rfl
  have choice : ∀ k : VFn, (∀ i : ℕ, (i : ℤ) < n → ∃ v, scalarFn inst o k rho T Ye s (m (nb i)) = .ok v) →
      ∃ r : ℕ → ℝ, ∀ i : ℕ, (i : ℤ) < n → scalarFn inst o k rho T Ye s (m (nb i)) = .ok (r i) := by
    intro k hk
    choose! r hr using hk
    exact ⟨r, hr⟩
  refine ⟨⟨fun ⟨m₁, h₁⟩ => ?_, fun ⟨m₂, h₂⟩ => ?_⟩, fun m₁ m₂ h₁ h₂ k hk => ?_⟩
  · obtain ⟨r, hr⟩ := choice g fun i hi => by
      obtain ⟨v, hv⟩ := f2 m₁ h₁ i hi
      rw [h] at hv
      obtain ⟨x, hx, -⟩ := map'_eq_ok.1 hv
      exact ⟨x, hx⟩
    obtain ⟨m', h', -⟩ := g1 r hr
    exact ⟨m', h'⟩
  · obtain ⟨r, hr⟩ := choice g (g2 m₂ h₂)
    obtain ⟨m', h', -⟩ := f1 _ (toF r hr)
    exact ⟨m', h'⟩
  · obtain ⟨r, hr⟩ := choice g (g2 m₂ h₂)
    obtain ⟨m', h', e'⟩ := f1 _ (toF r hr)
    obtain ⟨m'', h'', e''⟩ := g1 r hr
    rw [h₁] at h'
    rw [h₂] at h''
    injection h' with h'
    injection h'' with h''
    rw [h', h'', e'.results k hk, e''.results k hk]

theorem four_pi_scalar {R : Type} [Arith R] {P : R → Prop} {O : Type} {inst : NeutrinoAPI R O} {o : O}
    (H : ConstructedIn R P O inst o 0) (rho T Ye : R) (s : RadiationType) (ν : R) :
    inst.EmissivityPerNu o rho T Ye s ν =
      (inst.EmissivityPerNuOmega o rho T Ye s ν).map' fun j => Arith.lit 4 * Arith.pi * j := by
  generalize hm : (0 : ℕ) = m at H
  induction H with
  | gray o | tophat o | brt o | spiner o => rfl
  | nonCGS => omega
  | vScaleFree _ ih | vBRTOpac _ ih | vGray _ ih | vTophat _ ih | vSpinerOpac _ ih | vNonCGSBRT _ ih
  | vNonCGSGray _ ih | vNonCGSTophat _ ih | vNonCGSSpiner _ ih => exact ih hm

/-- **C20 in every arithmetic** (in particular bit for bit in IEEE doubles) for every shipped model without a unit
wrapper: the code computes `4 * pi * j` -/
theorem C20_bitwise {R : Type} [Arith R] {P : R → Prop} {O : Type} {inst : NeutrinoAPI R O} {o : O}
    (H : ConstructedIn R P O inst o 0) (rho T Ye : R) (s : RadiationType) (ν : R) :
    inst.EmissivityPerNu o rho T Ye s ν =
      (inst.EmissivityPerNuOmega o rho T Ye s ν).map' fun j => Arith.lit 4 * Arith.pi * j :=
  four_pi_scalar H rho T Ye s ν

theorem map'_map' {α β γ : Type} (f : α → β) (g : β → γ) (x : Outcome α) : (x.map' f).map' g = x.map' (g ∘ f) := by
  cases x <;> rfl

/-- **C20** for every neutrino opacity, in every unit system, scalar and vectorised -/
theorem C20_four_pi (H : ConstructedIn ℝ (fun x => 0 < x) O inst o n) : FourPi inst o := by
  have hs : ∀ rho T Ye s ν, inst.EmissivityPerNu o rho T Ye s ν =
      (inst.EmissivityPerNuOmega o rho T Ye s ν).map' fun j => 4 * π * j := by
    induction H with
    | gray o => intros; simp [NeutrinoAPI.EmissivityPerNu, NeutrinoAPI.EmissivityPerNuOmega,
        GrayOpacity.EmissivityPerNu, areal, map']
    | tophat o => intros; simp [NeutrinoAPI.EmissivityPerNu, NeutrinoAPI.EmissivityPerNuOmega,
        TophatEmissivity.EmissivityPerNu, areal, map']
    | brt o => intros; simp [NeutrinoAPI.EmissivityPerNu, NeutrinoAPI.EmissivityPerNuOmega,
        BRTOpacity.EmissivityPerNu, areal, map']
    | spiner o => intros; simp [NeutrinoAPI.EmissivityPerNu, NeutrinoAPI.EmissivityPerNuOmega,
        SpinerOpacity.EmissivityPerNu, areal, map']
    | nonCGS time mass length temp h1 h2 h3 h4 h ih =>
      intro rho T Ye s ν
      have hw := C26_units_partial h (u := ⟨time, mass, length, temp⟩) ⟨h1, h2, h3, h4⟩
      refine (hw.J rho T Ye s ν).trans (.trans ?_ (congrArg (·.map' fun j => 4 * π * j) (hw.j rho T Ye s ν).symm))
      rw [ih, map'_map', map'_map']
      congr 1
      funext j
      simp only [Function.comp, Units.toCode]; ring
    | vScaleFree _ ih | vBRTOpac _ ih | vGray _ ih | vTophat _ ih | vSpinerOpac _ ih | vNonCGSBRT _ ih
    | vNonCGSGray _ ih | vNonCGSTophat _ ih | vNonCGSSpiner _ ih => exact ih
  exact ⟨hs, vectorRel_of_scalar H hs⟩

/-- all shipped opacities but the top hat -/
inductive NotTophat : (O : Type) → NeutrinoAPI ℝ O → O → Prop
  | gray (o : GrayOpacity ℝ) : NotTophat _ inferInstance o
  | brt (o : BRTOpacity ℝ) : NotTophat _ inferInstance o
  | spiner (o : SpinerOpacity ℝ) : NotTophat _ inferInstance o

/-- **C24** for the gray, Burrows–Reddy–Thompson and tabulated opacities, in every unit system, scalar and vectorised.
Missing: the top hat, for which C24 is false (`C24_tophat_false`). -/
theorem C24_isotropic_partial {O₀ : Type} {i₀ : NeutrinoAPI ℝ O₀} {o₀ : O₀} (h₀ : NotTophat O₀ i₀ o₀)
    (H : Behind o₀ O inst o us) : Isotropic inst o := by
  have hc : ConstructedIn ℝ (fun x => 0 < x) O₀ i₀ o₀ 0 := by
    cases h₀ with
    | gray => exact .gray _
    | brt => exact .brt _
    | spiner => exact .spiner _
  have hb : ∀ rho T Ye s ν, i₀.AngleAveragedAbsorptionCoefficient o₀ rho T Ye s ν =
      i₀.AbsorptionCoefficient o₀ rho T Ye s ν := by
    cases h₀ <;> intros <;> rfl
  have h := H.inUnits hc
  have hs : ∀ rho T Ye s ν, inst.AngleAveragedAbsorptionCoefficient o rho T Ye s ν =
      inst.AbsorptionCoefficient o rho T Ye s ν := fun rho T Ye s ν => by rw [h.alphaA, h.alpha, hb]
  refine ⟨hs, vectorRel_of_scalar (φ := id) (H.constructed hc) fun rho T Ye s ν => ?_⟩
  refine (hs rho T Ye s ν).trans ?_
  show _ = Outcome.map' id _
  cases h : inst.AbsorptionCoefficient o rho T Ye s ν <;> simp [scalarFn, h, map']

/-! ### The top hat: absorption -/

theorem fd_EPS : (FermiDirac.EPS : ℝ) = 10 * (2 : ℝ) ^ (-1022 : ℤ) := by
  simp only [FermiDirac.EPS, areal]; push_cast; norm_num

theorem fd_EPS_eq : (FermiDirac.EPS : ℝ) = Robust.SMALL := by
  rw [fd_EPS, real_SMALL]

theorem fd_EPS_pos : (0 : ℝ) < FermiDirac.EPS := by rw [fd_EPS_eq]; exact SMALL_pos

theorem tophat_alpha (t : TophatEmissivity ℝ) (rho T Ye : ℝ) (s : RadiationType) (ν : ℝ) :
    t.AbsorptionCoefficient rho T Ye s ν = max (t.EmissivityPerNuOmega rho T Ye s ν) FermiDirac.EPS /
      (max (t.dist.ThermalDistributionOfTNu T ν) FermiDirac.EPS + FermiDirac.EPS) / (4 * π) := by
  simp only [TophatEmissivity.AbsorptionCoefficient, FermiDirac.AbsorptionCoefficientFromKirchhoff, areal]
  rw [ratio_nonneg (le_max_of_le_right fd_EPS_pos.le), fd_EPS_eq]
  push_cast; rfl

theorem tophat_alphaA (t : TophatEmissivity ℝ) (rho T Ye : ℝ) (s : RadiationType) (ν : ℝ) :
    t.AngleAveragedAbsorptionCoefficient rho T Ye s ν =
      max (4 * π * t.EmissivityPerNuOmega rho T Ye s ν) FermiDirac.EPS / (4 * π) /
      (max (t.dist.ThermalDistributionOfTNu T ν) FermiDirac.EPS + FermiDirac.EPS) := by
  simp only [TophatEmissivity.AngleAveragedAbsorptionCoefficient, TophatEmissivity.EmissivityPerNu,
    FermiDirac.AngleAveragedAbsorptionCoefficientFromKirchhoff, areal]
  rw [ratio_nonneg (le_max_of_le_right fd_EPS_pos.le), fd_EPS_eq]
  push_cast; rfl

/-- **C24 for the top hat, as far as it is true**: wherever the top hat emits at least the floor `10·2⁻¹⁰²²` (in CGS
units), the angle-averaged coefficient is `4π` times the absorption coefficient.  Missing: the two should be equal. -/
theorem C24_tophat_partial (t : TophatEmissivity ℝ) (H : Behind t O inst o us) {rho T Ye ν j α : ℝ} {s : RadiationType}
    (hj : inst.EmissivityPerNuOmega o rho T Ye s ν = .ok j)
    (h0 : (Spec.Units.total us).toCode .emissivityPerNu FermiDirac.EPS ≤ j)
    (hα : inst.AbsorptionCoefficient o rho T Ye s ν = .ok α) :
    inst.AngleAveragedAbsorptionCoefficient o rho T Ye s ν = .ok (4 * π * α) := by
  have h := H.inUnits (.tophat t)
  have hu := H.pos
  set u := Spec.Units.total us
  rw [h.j] at hj
  rw [h.alpha] at hα
  obtain ⟨j₀, j1, j2⟩ := map'_eq_ok.1 hj
  obtain ⟨α₀, a1, a2⟩ := map'_eq_ok.1 hα
  injection j1 with j1
  injection a1 with a1
  have hE : FermiDirac.EPS ≤ j₀ := by
    rw [← j2] at h0
    exact (div_le_div_iff_of_pos_right (unit_pos hu _)).1 h0
  rw [h.alphaA]
  show Outcome.ok (u.toCode _ (t.AngleAveragedAbsorptionCoefficient _ _ _ _ _)) = _
  rw [← a2, ← a1, tophat_alphaA, tophat_alpha, j1]
  have h4 : FermiDirac.EPS ≤ 4 * π * j₀ := by
    have := pi_gt_three
    have := fd_EPS_pos
    nlinarith
  rw [max_eq_left hE, max_eq_left h4]
  congr 1
  simp only [Units.toCode]
  have := pi_pos
  field_simp

/-- **C24 is false of every top hat that emits**: the absorption coefficient is divided by `4π` once too often -/
theorem C24_tophat_false (t : TophatEmissivity ℝ) {rho T Ye ν : ℝ} {s : RadiationType}
    (h : FermiDirac.EPS ≤ t.EmissivityPerNuOmega rho T Ye s ν) : ¬ Isotropic inferInstance t := by
  intro k
  have h1 := C24_tophat_partial t .self (rho := rho) (T := T) (Ye := Ye) (s := s) (ν := ν) rfl
    (by simpa [Spec.Units.total, toCode_cgs] using h) rfl
  have h2 := k.scalar rho T Ye s ν
  rw [h1] at h2
  injection h2 with h2
  have hp : 0 < t.AbsorptionCoefficient rho T Ye s ν := by
    rw [tophat_alpha]
    have := fd_EPS_pos
    have hm : 0 < max (t.EmissivityPerNuOmega rho T Ye s ν) FermiDirac.EPS := lt_max_of_lt_right fd_EPS_pos
    have hm' : 0 < max (t.dist.ThermalDistributionOfTNu T ν) FermiDirac.EPS := lt_max_of_lt_right fd_EPS_pos
    positivity
  have := pi_gt_three
  nlinarith

/-- a top hat, with unit amplitude between 1 and 2 Hz -/
noncomputable def exTophat : TophatEmissivity ℝ := ⟨⟨3, PhysicalConstantsCGS⟩, PhysicalConstantsCGS, 1, 1, 2⟩

theorem exTophat_emits (rho T : ℝ) : exTophat.EmissivityPerNuOmega rho T (1 / 2) .NU_ELECTRON (3 / 2) = 1 := by
  simp only [TophatEmissivity.EmissivityPerNuOmega, TophatEmissivity.GetYeF, exTophat, areal]
  norm_num [Arith.gt, Arith.lt]

theorem fd_EPS_lt_one : (FermiDirac.EPS : ℝ) < 1 := by
  rw [fd_EPS, show (-1022 : ℤ) = -(1022 : ℕ) from rfl, zpow_neg, zpow_natCast]
  have : (2 : ℝ) ^ 4 ≤ 2 ^ 1022 := pow_le_pow_right₀ (by norm_num) (by norm_num)
  rw [← div_eq_mul_inv, div_lt_one (by positivity)]
  exact lt_of_lt_of_le (by norm_num) this

/-- the hypotheses of the two top-hat theorems are met -/
example : ¬ Isotropic inferInstance exTophat :=
  C24_tophat_false exTophat (rho := 1) (T := 1) (Ye := 1 / 2) (ν := 3 / 2) (s := .NU_ELECTRON)
    (by rw [exTophat_emits]; exact fd_EPS_lt_one.le)
example : NotTophat _ inferInstance (BRTOpacity.mk ⟨3, PhysicalConstantsCGS⟩ (PhysicalConstantsCGS (R := ℝ))) ∧
    Behind (BRTOpacity.mk ⟨3, PhysicalConstantsCGS⟩ (PhysicalConstantsCGS (R := ℝ))) (Opacity ℝ) inferInstance
      (.NonCGSBRT (NonCGSUnits.construct (.mk ⟨3, PhysicalConstantsCGS⟩ PhysicalConstantsCGS) 2 3 5 7))
      [⟨2, 3, 5, 7⟩] :=
  ⟨.brt _, .variant (.NonCGSBRT _) (.nonCGS ⟨2, 3, 5, 7⟩ Photons.units_pos_ex .self)⟩

/-! ## C23 -/

/-- **C23** for gray neutrino opacities, in every unit system -/
theorem C23_gray (g : GrayOpacity ℝ) (H : Behind g O inst o us) : Kirchhoff inst o := by
  refine Kirchhoff.code H.pos (H.inUnits (.gray g)) fun rho T Ye s ν j α hj hα => ?_
  injection hj with hj
  injection hα with hα
  rw [← hj, ← hα]; rfl

/-- **C23** for the Burrows–Reddy–Thompson opacity, in every unit system -/
theorem C23_brt (b : BRTOpacity ℝ) (H : Behind b O inst o us) : Kirchhoff inst o := by
  refine Kirchhoff.code H.pos (H.inUnits (.brt b)) fun rho T Ye s ν j α hj hα => ?_
  injection hj with hj
  injection hα with hα
  rw [← hj, ← hα]; rfl

/-- **C23 for the top hat, as far as it is true**: where both the emissivity and the thermal spectrum are above the
floor `δ = 10·2⁻¹⁰²²` (in CGS units), `j_ν = 4π α_ν (B_ν + δ)`.  Missing: the factor `4π` should not be there. -/
theorem C23_tophat_partial (t : TophatEmissivity ℝ) (H : Behind t O inst o us) {rho T Ye ν j α : ℝ} {s : RadiationType}
    (hj : inst.EmissivityPerNuOmega o rho T Ye s ν = .ok j)
    (hα : inst.AbsorptionCoefficient o rho T Ye s ν = .ok α)
    (h0 : (Spec.Units.total us).toCode .emissivityPerNu FermiDirac.EPS ≤ j)
    (hB : (Spec.Units.total us).toCode .intensityPerNu FermiDirac.EPS ≤ inst.ThermalDistributionOfTNu o T s ν) :
    j = 4 * π * α * (inst.ThermalDistributionOfTNu o T s ν +
      (Spec.Units.total us).toCode .intensityPerNu FermiDirac.EPS) := by
  have h := H.inUnits (.tophat t)
  have hu := H.pos
  set u := Spec.Units.total us
  rw [h.j] at hj
  rw [h.alpha] at hα
  rw [h.ThermalDistributionOfTNu] at hB ⊢
  obtain ⟨j₀, j1, j2⟩ := map'_eq_ok.1 hj
  obtain ⟨α₀, a1, a2⟩ := map'_eq_ok.1 hα
  injection j1 with j1
  injection a1 with a1
  have hE : FermiDirac.EPS ≤ j₀ := by
    rw [← j2] at h0
    exact (div_le_div_iff_of_pos_right (unit_pos hu _)).1 h0
  have hB' := (div_le_div_iff_of_pos_right (unit_pos hu _)).1 hB
  have hB' : FermiDirac.EPS ≤ t.dist.ThermalDistributionOfTNu (u.toCGS .temperature T) (u.toCGS .frequency ν) := hB'
  rw [tophat_alpha, j1, max_eq_left hE, max_eq_left hB'] at a1
  show j = 4 * π * α * (u.toCode _ (t.dist.ThermalDistributionOfTNu (u.toCGS .temperature T) (u.toCGS .frequency ν)) + _)
  generalize t.dist.ThermalDistributionOfTNu (u.toCGS .temperature T) (u.toCGS .frequency ν) = B at *
  have hp := fd_EPS_pos
  have hB0 : 0 < B + FermiDirac.EPS := by linarith
  have := pi_pos
  have hi := unit_pos hu .inverseLength
  have hn := unit_pos hu .intensityPerNu
  rw [← j2, ← a2, ← a1]
  simp only [Units.toCode, unit_jnu hu]
  rw [← add_div]
  field_simp

/-- **C23 is false of every top hat that emits**: absorption is at least `4π` times too small -/
theorem C23_tophat_false (t : TophatEmissivity ℝ) {rho T Ye ν : ℝ} {s : RadiationType}
    (h : FermiDirac.EPS ≤ t.EmissivityPerNuOmega rho T Ye s ν) : ¬ Kirchhoff inferInstance t := by
  intro k
  have k1 := k rho T Ye s ν _ _ rfl rfl
  have k1 : t.EmissivityPerNuOmega rho T Ye s ν = t.AbsorptionCoefficient rho T Ye s ν *
    t.dist.ThermalDistributionOfTNu T ν := k1
  rw [tophat_alpha, max_eq_left h] at k1
  have hp := fd_EPS_pos
  have hj : 0 < t.EmissivityPerNuOmega rho T Ye s ν := lt_of_lt_of_le hp h
  have hb := le_max_left (t.dist.ThermalDistributionOfTNu T ν) FermiDirac.EPS
  have hb' : 0 < max (t.dist.ThermalDistributionOfTNu T ν) FermiDirac.EPS := lt_max_of_lt_right hp
  generalize t.EmissivityPerNuOmega rho T Ye s ν = j at *
  generalize t.dist.ThermalDistributionOfTNu T ν = B at *
  generalize max B FermiDirac.EPS = M at *
  have := pi_gt_three
  have k2 : j * ((M + FermiDirac.EPS) * (4 * π)) = j * B := by
    have : M + FermiDirac.EPS ≠ 0 := by positivity
    field_simp at k1
    linear_combination j * k1
  have k3 := mul_left_cancel₀ hj.ne' k2
  nlinarith

example : ¬ Kirchhoff inferInstance exTophat :=
  C23_tophat_false exTophat (rho := 1) (T := 1) (Ye := 1 / 2) (ν := 3 / 2) (s := .NU_ELECTRON)
    (by rw [exTophat_emits]; exact fd_EPS_lt_one.le)

/-! ## C21 -/

/-- **C21** for gray neutrino opacities, in every unit system -/
theorem C21_gray (g : GrayOpacity ℝ) (P : PosPC g.dist.pc) (H : Behind g O inst o us) : TotalIsIntegral inst o := by
  refine TotalIsIntegral.code H.pos (H.inUnits (.gray g)) fun rho T Ye s J Jν hT hJ hJν => ?_
  obtain ⟨c1, c2⟩ := fermi_law_integral P g.dist.NSPECIES hT
  have e : EqOn (fun ν => 4 * π * (rho * g.kappa_) * fermiDiracLaw g.dist.NSPECIES g.dist.pc.h g.dist.pc.kb g.dist.pc.c
      T ν) Jν (Ioi 0) := by
    intro ν hν
    have := hJν ν hν
    injection this with this
    rw [← this]
    simp only [GrayOpacity.EmissivityPerNu, GrayOpacity.EmissivityPerNuOmega, areal, fermi_eq]
    push_cast; ring
  refine ⟨IntegrableOn.congr_fun (c1.const_mul _) e measurableSet_Ioi, ?_⟩
  rw [← setIntegral_congr_fun measurableSet_Ioi e, integral_const_mul]
  injection hJ with hJ
  rw [← hJ]
  simp only [GrayOpacity.Emissivity, areal, fermiT_eq, ← c2]
  ring

/-- **C21** for the top hat, in every unit system: any amplitude, any band with `0 ≤ numin ≤ numax` -/
theorem C21_tophat (t : TophatEmissivity ℝ) (h0 : 0 ≤ t.numin_) (h1 : t.numin_ ≤ t.numax_)
    (H : Behind t O inst o us) : TotalIsIntegral inst o := by
  refine TotalIsIntegral.code H.pos (H.inUnits (.tophat t)) fun rho T Ye s J Jν hT hJ hJν => ?_
  have e : EqOn ((Ioo t.numin_ t.numax_).indicator fun _ => 4 * π * (t.C_ * TophatEmissivity.GetYeF s Ye)) Jν
      (Ioi 0) := by
    intro ν hν
    have := hJν ν hν
    injection this with this
    rw [← this]
    simp only [TophatEmissivity.EmissivityPerNu, TophatEmissivity.EmissivityPerNuOmega, areal]
    by_cases hb : ν ∈ Ioo t.numin_ t.numax_
    · rw [indicator_of_mem hb, if_pos (by simpa [areal, Arith.gt] using hb)]; push_cast; ring
    · rw [indicator_of_notMem hb, if_neg (by simpa [areal, Arith.gt] using hb)]; simp
  have i1 : IntegrableOn ((Ioo t.numin_ t.numax_).indicator fun _ => 4 * π * (t.C_ * TophatEmissivity.GetYeF s Ye))
      (Ioi 0) := by
    refine ((integrable_indicator_iff measurableSet_Ioo).2 ?_).integrableOn
    exact integrableOn_const (by simp)
  refine ⟨i1.congr_fun e measurableSet_Ioi, ?_⟩
  rw [← setIntegral_congr_fun measurableSet_Ioi e, setIntegral_indicator measurableSet_Ioo,
    inter_eq_right.2 (show Ioo t.numin_ t.numax_ ⊆ Ioi 0 from fun x hx => lt_of_le_of_lt h0 hx.1), setIntegral_const]
  injection hJ with hJ
  rw [← hJ]
  simp [TophatEmissivity.Emissivity, areal, Real.volume_real_Ioo_of_le h1]
  ring

/-- the constant factor of the Burrows–Reddy–Thompson spectrum -/
noncomputable def brtK (pc : PC ℝ) (rho : ℝ) : ℝ :=
  4 * π * (rho / pc.mp) * (pc.nu_sigma0 * ((1 + 3 * pc.gA * pc.gA) / 4) / (pc.me * pc.c * pc.c) ^ 2) *
    (2 * pc.h / pc.c ^ 2)

theorem brt_J (b : BRTOpacity ℝ) (hpc : b.dist.pc = b.pc) (rho T Ye ν : ℝ) :
    b.EmissivityPerNu rho T Ye .NU_ELECTRON ν = b.dist.NSPECIES * brtK b.pc rho *
      ((b.pc.h * ν + BRTOpacity.Deltanp_) ^ 2 * ν ^ 3 / (exp (b.pc.h / (b.pc.kb * T) * ν) + 1)) := by
  have ex : b.pc.h * ν / (b.pc.kb * T) = b.pc.h / (b.pc.kb * T) * ν := by ring
  simp only [BRTOpacity.EmissivityPerNu, BRTOpacity.EmissivityPerNuOmega, BRTOpacity.GetSigmac, BRTOpacity.mu_, brtK,
    fermi_eq, fermiDiracLaw, hpc, areal, ex]
  push_cast
  rw [rpow2]
  ring

theorem Deltanp_pos : (0 : ℝ) < BRTOpacity.Deltanp_ := by
  simp only [BRTOpacity.Deltanp_, areal]; norm_num

/-- `∫ J_ν` of the Burrows–Reddy–Thompson opacity -/
theorem brt_integral {pc : PC ℝ} (P : PosPC pc) {T : ℝ} (hT : 0 < T) (d : ℝ) :
    IntegrableOn (fun ν => (pc.h * ν + d) ^ 2 * ν ^ 3 / (exp (pc.h / (pc.kb * T) * ν) + 1)) (Ioi 0) ∧
    ∫ ν in Ioi (0 : ℝ), (pc.h * ν + d) ^ 2 * ν ^ 3 / (exp (pc.h / (pc.kb * T) * ν) + 1) =
      (pc.kb * T) ^ 4 / pc.h ^ 4 * (31 * π ^ 6 / 252 * (pc.kb * T) ^ 2 + 45 * d * (pc.kb * T) * zetaR 5 +
        7 * π ^ 4 / 120 * d ^ 2) := by
  obtain ⟨h1, h2, h3, -⟩ := P
  have hb : 0 < pc.h / (pc.kb * T) := by positivity
  obtain ⟨i5, e5⟩ := fermi_integral_scaled (n := 5) (by norm_num) hb
  obtain ⟨i4, e4⟩ := fermi_integral_scaled (n := 4) (by norm_num) hb
  obtain ⟨i3, e3⟩ := fermi_integral_scaled (n := 3) (by norm_num) hb
  have e : ∀ ν : ℝ, (pc.h * ν + d) ^ 2 * ν ^ 3 / (exp (pc.h / (pc.kb * T) * ν) + 1) =
      pc.h ^ 2 * (ν ^ 5 / (exp (pc.h / (pc.kb * T) * ν) + 1)) +
      2 * pc.h * d * (ν ^ 4 / (exp (pc.h / (pc.kb * T) * ν) + 1)) +
      d ^ 2 * (ν ^ 3 / (exp (pc.h / (pc.kb * T) * ν) + 1)) := fun ν => by ring
  simp only [e]
  have j5 := i5.const_mul (pc.h ^ 2)
  have j4 := i4.const_mul (2 * pc.h * d)
  have j3 := i3.const_mul (d ^ 2)
  refine ⟨(j5.add j4).add j3, ?_⟩
  have s1 := integral_add (j5.add j4) j3
  have s2 := integral_add j5 j4
  simp only [Pi.add_apply] at s1
  rw [s1, s2, integral_const_mul, integral_const_mul, integral_const_mul, e5, e4, e3, zetaR_four, zetaR_six]
  norm_num [Nat.factorial]
  field_simp
  ring

theorem brt_number_integral {pc : PC ℝ} (P : PosPC pc) {T : ℝ} (hT : 0 < T) (d : ℝ) :
    IntegrableOn (fun ν => (pc.h * ν + d) ^ 2 * ν ^ 2 / (exp (pc.h / (pc.kb * T) * ν) + 1)) (Ioi 0) ∧
    ∫ ν in Ioi (0 : ℝ), (pc.h * ν + d) ^ 2 * ν ^ 2 / (exp (pc.h / (pc.kb * T) * ν) + 1) =
      (pc.kb * T) ^ 3 / pc.h ^ 3 * (45 / 2 * zetaR 5 * (pc.kb * T) ^ 2 + 7 * π ^ 4 / 60 * d * (pc.kb * T) +
        3 / 2 * zetaR 3 * d ^ 2) := by
  obtain ⟨h1, h2, h3, -⟩ := P
  have hb : 0 < pc.h / (pc.kb * T) := by positivity
  obtain ⟨i5, e5⟩ := fermi_integral_scaled (n := 4) (by norm_num) hb
  obtain ⟨i4, e4⟩ := fermi_integral_scaled (n := 3) (by norm_num) hb
  obtain ⟨i3, e3⟩ := fermi_integral_scaled (n := 2) (by norm_num) hb
  have e : ∀ ν : ℝ, (pc.h * ν + d) ^ 2 * ν ^ 2 / (exp (pc.h / (pc.kb * T) * ν) + 1) =
      pc.h ^ 2 * (ν ^ 4 / (exp (pc.h / (pc.kb * T) * ν) + 1)) +
      2 * pc.h * d * (ν ^ 3 / (exp (pc.h / (pc.kb * T) * ν) + 1)) +
      d ^ 2 * (ν ^ 2 / (exp (pc.h / (pc.kb * T) * ν) + 1)) := fun ν => by ring
  simp only [e]
  have j5 := i5.const_mul (pc.h ^ 2)
  have j4 := i4.const_mul (2 * pc.h * d)
  have j3 := i3.const_mul (d ^ 2)
  refine ⟨(j5.add j4).add j3, ?_⟩
  have s1 := integral_add (j5.add j4) j3
  have s2 := integral_add j5 j4
  simp only [Pi.add_apply] at s1
  rw [s1, s2, integral_const_mul, integral_const_mul, integral_const_mul, e5, e4, e3, zetaR_four]
  norm_num [Nat.factorial]
  field_simp
  ring

theorem brt_total (b : BRTOpacity ℝ) (P : PosPC b.pc) (M : PosMatter b.pc) (rho T Ye : ℝ) :
    b.Emissivity rho T Ye .NU_ELECTRON = brtK b.pc rho * ((b.pc.kb * T) ^ 4 / b.pc.h ^ 4 *
      (31 * π ^ 6 / 252 * (b.pc.kb * T) ^ 2 + 45 * BRTOpacity.Deltanp_ * (b.pc.kb * T) * BRTOpacity.zeta5_ +
        7 * π ^ 4 / 120 * BRTOpacity.Deltanp_ ^ 2)) := by
  obtain ⟨h1, h2, h3, -⟩ := P
  have hm := M.me
  have hp := M.mp
  simp only [BRTOpacity.Emissivity, BRTOpacity.GetAlphac, BRTOpacity.mu_, brtK, areal]
  push_cast
  simp only [rpow2, rpow3, rpow4, rpow6]
  field_simp
  ring

theorem brt_number (b : BRTOpacity ℝ) (P : PosPC b.pc) (M : PosMatter b.pc) (rho T Ye : ℝ) (s : RadiationType) :
    b.NumberEmissivity rho T Ye s = brtK b.pc rho / b.pc.h * ((b.pc.kb * T) ^ 3 / b.pc.h ^ 3 *
      (45 / 2 * BRTOpacity.zeta5_ * (b.pc.kb * T) ^ 2 + 7 * π ^ 4 / 60 * BRTOpacity.Deltanp_ * (b.pc.kb * T) +
        3 / 2 * BRTOpacity.zeta3_ * BRTOpacity.Deltanp_ ^ 2)) := by
  obtain ⟨h1, h2, h3, -⟩ := P
  have hm := M.me
  have hp := M.mp
  simp only [BRTOpacity.NumberEmissivity, BRTOpacity.GetNAlphac, BRTOpacity.mu_, brtK, areal]
  push_cast
  simp only [rpow2, rpow3, rpow4, rpow6]
  field_simp
  ring

theorem zeta5_err : |BRTOpacity.zeta5_ - zetaR 5| ≤ 1e-6 * zetaR 5 ∧ (0 : ℝ) < BRTOpacity.zeta5_ := by
  obtain ⟨h1, h2⟩ := zetaR_five_bounds
  simp only [BRTOpacity.zeta5_, areal]
  refine ⟨?_, by norm_num⟩
  rw [abs_le]
  constructor <;> push_cast <;> linarith

theorem zeta3_err : |BRTOpacity.zeta3_ - zetaR 3| ≤ 1e-6 * zetaR 3 ∧ (0 : ℝ) < BRTOpacity.zeta3_ := by
  obtain ⟨h1, h2⟩ := zetaR_three_bounds
  simp only [BRTOpacity.zeta3_, areal]
  refine ⟨?_, by norm_num⟩
  rw [abs_le]
  constructor <;> push_cast <;> linarith

/-- the integrated spectrum and the returned total of electron neutrinos, side by side -/
theorem brt_total_close (b : BRTOpacity ℝ) (hpc : b.dist.pc = b.pc) (P : PosPC b.pc) (M : PosMatter b.pc)
    {rho T Ye : ℝ} (hT : 0 < T) {Jν : ℝ → ℝ}
    (hJν : ∀ ν, 0 < ν → NeutrinoAPI.EmissivityPerNu b rho T Ye .NU_ELECTRON ν = .ok (Jν ν)) :
    IntegrableOn Jν (Ioi 0) ∧ ∃ A : ℝ, 0 < A ∧ ∫ ν in Ioi (0 : ℝ), Jν ν = b.dist.NSPECIES * (brtK b.pc rho * A) ∧
      ∃ A', |A' - A| ≤ 1e-6 * A ∧ b.Emissivity rho T Ye .NU_ELECTRON = brtK b.pc rho * A' := by
  have e : EqOn (fun ν => b.dist.NSPECIES * brtK b.pc rho * ((b.pc.h * ν + BRTOpacity.Deltanp_) ^ 2 * ν ^ 3 /
      (exp (b.pc.h / (b.pc.kb * T) * ν) + 1))) Jν (Ioi 0) := by
    intro ν hν
    have := hJν ν hν
    injection this with this
    exact (brt_J b hpc rho T Ye ν).symm.trans this
  obtain ⟨c1, c2⟩ := brt_integral P hT BRTOpacity.Deltanp_
  refine ⟨IntegrableOn.congr_fun (c1.const_mul _) e measurableSet_Ioi, _, ?_,
    by rw [← setIntegral_congr_fun measurableSet_Ioi e, integral_const_mul, c2, mul_assoc], _, ?_,
    brt_total b P M rho T Ye⟩
  rotate_left
  all_goals
    obtain ⟨h1, h2, h3, -⟩ := P
    have hd := Deltanp_pos
    have z0 := zetaR_pos (k := 5) (by norm_num)
    have hp := pi_pos
  · obtain ⟨z1, -⟩ := zeta5_err
    have hF : 0 < (b.pc.kb * T) ^ 4 / b.pc.h ^ 4 := by positivity
    rw [← mul_sub, abs_mul, abs_of_pos hF, mul_left_comm (1e-6 : ℝ)]
    refine mul_le_mul_of_nonneg_left ?_ hF.le
    rw [show ∀ x y z w v : ℝ, x + y * w + z - (x + y * v + z) = y * (w - v) by intros; ring, abs_mul,
      abs_of_pos (by positivity : 0 < 45 * BRTOpacity.Deltanp_ * (b.pc.kb * T))]
    have q : 0 < 45 * BRTOpacity.Deltanp_ * (b.pc.kb * T) := by positivity
    have q1 : 0 ≤ 31 * π ^ 6 / 252 * (b.pc.kb * T) ^ 2 + 7 * π ^ 4 / 120 * BRTOpacity.Deltanp_ ^ 2 := by positivity
    nlinarith [mul_le_mul_of_nonneg_left z1 q.le]
  · positivity

/-- the same for the number emissivity -/
theorem brt_number_close (b : BRTOpacity ℝ) (hpc : b.dist.pc = b.pc) (P : PosPC b.pc) (M : PosMatter b.pc)
    {rho T Ye : ℝ} (hT : 0 < T) {Jν : ℝ → ℝ}
    (hJν : ∀ ν, 0 < ν → NeutrinoAPI.EmissivityPerNu b rho T Ye .NU_ELECTRON ν = .ok (Jν ν)) :
    IntegrableOn (fun ν => Jν ν / (b.pc.h * ν)) (Ioi 0) ∧ ∃ A : ℝ, 0 < A ∧
      ∫ ν in Ioi (0 : ℝ), Jν ν / (b.pc.h * ν) = b.dist.NSPECIES * (brtK b.pc rho / b.pc.h * A) ∧
      ∃ A', |A' - A| ≤ 1e-6 * A ∧ ∀ s, b.NumberEmissivity rho T Ye s = brtK b.pc rho / b.pc.h * A' := by
  have hh := P.h
  have e : EqOn (fun ν => b.dist.NSPECIES * (brtK b.pc rho / b.pc.h) * ((b.pc.h * ν + BRTOpacity.Deltanp_) ^ 2 * ν ^ 2 /
      (exp (b.pc.h / (b.pc.kb * T) * ν) + 1))) (fun ν => Jν ν / (b.pc.h * ν)) (Ioi 0) := by
    intro ν hν
    have hν0 : ν ≠ 0 := ne_of_gt hν
    have := hJν ν hν
    injection this with this
    have := (brt_J b hpc rho T Ye ν).symm.trans this
    simp only [← this]
    field_simp
  obtain ⟨c1, c2⟩ := brt_number_integral P hT BRTOpacity.Deltanp_
  refine ⟨IntegrableOn.congr_fun (c1.const_mul _) e measurableSet_Ioi, _, ?_,
    by rw [← setIntegral_congr_fun measurableSet_Ioi e, integral_const_mul, c2, mul_assoc], _, ?_,
    fun s => brt_number b P M rho T Ye s⟩
  rotate_left
  all_goals
    obtain ⟨h1, h2, h3, -⟩ := P
    have hd := Deltanp_pos
    have z0 := zetaR_pos (k := 5) (by norm_num)
    have z0' := zetaR_pos (k := 3) (by norm_num)
    have hp := pi_pos
  · obtain ⟨z1, -⟩ := zeta5_err
    obtain ⟨z2, -⟩ := zeta3_err
    have hF : 0 < (b.pc.kb * T) ^ 3 / b.pc.h ^ 3 := by positivity
    rw [← mul_sub, abs_mul, abs_of_pos hF, mul_left_comm (1e-6 : ℝ)]
    refine mul_le_mul_of_nonneg_left ?_ hF.le
    rw [abs_le] at *
    have q : 0 < 45 / 2 * (b.pc.kb * T) ^ 2 := by positivity
    have q1 : (0 : ℝ) < 3 / 2 * BRTOpacity.Deltanp_ ^ 2 := by positivity
    have q2 : 0 ≤ 7 * π ^ 4 / 60 * BRTOpacity.Deltanp_ * (b.pc.kb * T) := by positivity
    constructor <;> nlinarith [mul_le_mul_of_nonneg_left z1.1 q.le, mul_le_mul_of_nonneg_left z1.2 q.le,
      mul_le_mul_of_nonneg_left z2.1 q1.le, mul_le_mul_of_nonneg_left z2.2 q1.le]
  · positivity

/-- **C21 for the Burrows–Reddy–Thompson opacity, up to the number of species**: in every unit system the total times
`NSPECIES` is the integral, to one part in a million (the code's `ζ(5)` is rounded; the tolerance covers it).  Missing:
the factor `NSPECIES` (3 in every shipped type), see `C21_brt_false`. -/
theorem C21_brt_partial (b : BRTOpacity ℝ) (hpc : b.dist.pc = b.pc) (P : PosPC b.pc) (M : PosMatter b.pc)
    (H : Behind b O inst o us) : TotalTimesIsIntegral (fun _ => True) b.dist.NSPECIES 1e-6 inst o := by
  refine TotalTimesIsIntegral.code H.pos (H.inUnits (.brt b)) fun rho T Ye s J Jν _ hT hJ hJν => ?_
  injection hJ with hJ
  by_cases hs : s = .NU_ELECTRON
  · subst hs
    obtain ⟨c1, A, hA, c2, A', c3, c4⟩ := brt_total_close b hpc P M hT hJν
    refine ⟨c1, ?_⟩
    rw [← hJ, c2, c4, ← mul_sub, ← mul_sub, abs_mul, abs_mul, abs_mul (b.dist.NSPECIES : ℝ), abs_mul (brtK b.pc rho) A,
      abs_of_pos hA]
    have h1 := mul_le_mul_of_nonneg_left c3 (abs_nonneg (brtK b.pc rho))
    have h2 := mul_le_mul_of_nonneg_left h1 (abs_nonneg (b.dist.NSPECIES : ℝ))
    linarith
  · have e : EqOn (fun _ => (0 : ℝ)) Jν (Ioi 0) := by
      intro ν hν
      have := hJν ν hν
      injection this with this
      rw [← this]
      cases s <;> simp [BRTOpacity.EmissivityPerNu, BRTOpacity.EmissivityPerNuOmega, BRTOpacity.GetSigmac, areal] at hs ⊢
    have hJ0 : J = 0 := by
      rw [← hJ]
      cases s <;> simp [BRTOpacity.Emissivity, BRTOpacity.GetAlphac, areal] at hs ⊢
    refine ⟨IntegrableOn.congr_fun (integrable_zero _ _ _) e measurableSet_Ioi, ?_⟩
    rw [← setIntegral_congr_fun measurableSet_Ioi e, hJ0]
    simp

theorem brtK_pos {pc : PC ℝ} (P : PosPC pc) (M : PosMatter pc) {rho : ℝ} (h : 0 < rho) : 0 < brtK pc rho := by
  obtain ⟨h1, h2, h3, -⟩ := P
  obtain ⟨m1, m2, m3, m4⟩ := M
  have := pi_pos
  have : 0 < 1 + 3 * pc.gA * pc.gA := by nlinarith [mul_self_nonneg pc.gA]
  unfold brtK; positivity

/-- **C21 is false of the Burrows–Reddy–Thompson opacity whenever the spectrum is that of more than one species**: the
total is that of a single one.  With `NSPECIES ≥ 2` it is off by a factor of at least two. -/
theorem C21_brt_false (b : BRTOpacity ℝ) (hpc : b.dist.pc = b.pc) (P : PosPC b.pc) (M : PosMatter b.pc)
    (hg : 2 ≤ b.dist.NSPECIES) :
    ¬ TotalTimesIsIntegral (· = .NU_ELECTRON) 1 0.49 inferInstance b ∧ ¬ TotalIsIntegral inferInstance b := by
  have h1 : ¬ TotalTimesIsIntegral (· = .NU_ELECTRON) 1 0.49 inferInstance b := by
    intro k
    obtain ⟨k1, k2⟩ := k 1 1 0 .NU_ELECTRON _ _ rfl one_pos rfl fun ν _ => rfl
    obtain ⟨c1, A, hA, c2, A', c3, c4⟩ := brt_total_close b hpc P M (rho := 1) (Ye := 0) one_pos fun ν _ => rfl
    rw [c2, c4, one_mul, mul_left_comm, ← mul_sub, abs_mul, abs_mul (brtK b.pc 1)] at k2
    have hK := brtK_pos P M one_pos
    have hg' : (2 : ℝ) ≤ b.dist.NSPECIES := by exact_mod_cast hg
    rw [abs_of_pos hK, abs_of_pos (by positivity : 0 < b.dist.NSPECIES * A), mul_left_comm] at k2
    have k3 := le_of_mul_le_mul_left k2 hK
    rw [abs_le] at k3 c3
    nlinarith
  refine ⟨h1, fun k => h1 fun rho T Ye s J Jν _ hT hJ hJν => ?_⟩
  obtain ⟨k1, k2⟩ := k rho T Ye s J Jν hT hJ hJν
  refine ⟨k1, ?_⟩
  rw [k2, one_mul, sub_self, abs_zero]
  positivity

/-! ## C22 -/

/-- the thermal number spectrum -/
theorem number_of_thermal (d : FermiDirac ℝ) (hg : 0 < d.NSPECIES) (P : PosPC d.pc) {T : ℝ} (hT : 0 < T) :
    IntegrableOn (fun ν => d.ThermalDistributionOfTNu T ν / (d.pc.h * ν)) (Ioi 0) ∧
    ∃ I : ℝ, 0 < I ∧ 4 * π * ∫ ν in Ioi (0 : ℝ), d.ThermalDistributionOfTNu T ν / (d.pc.h * ν) = I ∧
      |d.ThermalNumberDistributionOfT T - I| ≤ 4e-6 * I := by
  obtain ⟨c1, c2, c3⟩ := C16_number (Built.gray ⟨d, d.pc, 0⟩ ⟨hg, P⟩ rfl) (by norm_num) hT .NU_ELECTRON
  exact ⟨c1, _, c2, rfl, c3⟩

/-- **C22 for gray neutrino opacities, up to a missing factor of the density**: the returned value times the density in
g/cm³ is the integral, to 4 parts in a million (the code's `ζ(3)` is rounded).  What is missing is that factor: C22
itself is false (`C22_gray_false`). -/
theorem C22_gray_partial (g : GrayOpacity ℝ) (hg : 0 < g.dist.NSPECIES) (P : PosPC g.dist.pc) (H : Behind g O inst o us) :
    NumberTimesDensityIsIntegral 4e-6 ((Spec.Units.total us).toCode .action g.dist.pc.h)
      ((Spec.Units.total us).toCode .density 1) inst o := by
  refine NumberTimesDensityIsIntegral.code H.pos (H.inUnits (.gray g)) fun rho T Ye s N Jν hT hN hJν => ?_
  obtain ⟨c1, I, hI, c2, c3⟩ := number_of_thermal g.dist hg P hT
  have e : EqOn (fun ν => 4 * π * (rho * g.kappa_) * (g.dist.ThermalDistributionOfTNu T ν / (g.dist.pc.h * ν)))
      (fun ν => Jν ν / (g.dist.pc.h * ν)) (Ioi 0) := by
    intro ν hν
    have := hJν ν hν
    injection this with this
    simp only [← this, GrayOpacity.EmissivityPerNu, GrayOpacity.EmissivityPerNuOmega, areal]
    push_cast; ring
  refine ⟨IntegrableOn.congr_fun (c1.const_mul _) e measurableSet_Ioi, ?_⟩
  rw [← setIntegral_congr_fun measurableSet_Ioi e, integral_const_mul]
  injection hN with hN
  rw [← hN]
  simp only [GrayOpacity.NumberEmissivity]
  rw [show 4 * π * (rho * g.kappa_) * ∫ ν in Ioi (0 : ℝ), g.dist.ThermalDistributionOfTNu T ν / (g.dist.pc.h * ν) =
    (rho * g.kappa_) * I by rw [← c2]; ring, div_one,
    show g.kappa_ * g.dist.ThermalNumberDistributionOfT T * rho - rho * g.kappa_ * I =
    (rho * g.kappa_) * (g.dist.ThermalNumberDistributionOfT T - I) by ring, abs_mul (rho * g.kappa_),
    abs_mul (rho * g.kappa_) I, abs_of_pos hI]
  nlinarith [mul_le_mul_of_nonneg_left c3 (abs_nonneg (rho * g.kappa_))]

/-- **C22 is false of every gray neutrino opacity with a nonzero coefficient**: number emissivity leaves the density out.
At 2 g/cm³ it is wrong by a factor 2. -/
theorem C22_gray_false (g : GrayOpacity ℝ) (hg : 0 < g.dist.NSPECIES) (P : PosPC g.dist.pc) (hκ : g.kappa_ ≠ 0) :
    ¬ NumberIsIntegral 0.49 g.dist.pc.h inferInstance g := by
  intro k
  obtain ⟨k1, k2⟩ := k 2 1 0 .NU_ELECTRON _ _ two_pos one_pos rfl fun ν _ => rfl
  obtain ⟨c1, I, hI, c2, c3⟩ := number_of_thermal g.dist hg P (T := 1) one_pos
  have e : ∀ ν, g.EmissivityPerNu 2 1 0 .NU_ELECTRON ν / (g.dist.pc.h * ν) =
      4 * π * (2 * g.kappa_) * (g.dist.ThermalDistributionOfTNu 1 ν / (g.dist.pc.h * ν)) := by
    intro ν
    simp only [GrayOpacity.EmissivityPerNu, GrayOpacity.EmissivityPerNuOmega, areal]
    push_cast; ring
  simp only [e] at k2
  rw [integral_const_mul, show 4 * π * (2 * g.kappa_) * ∫ ν in Ioi (0 : ℝ), g.dist.ThermalDistributionOfTNu 1 ν /
    (g.dist.pc.h * ν) = g.kappa_ * (2 * I) by rw [← c2]; ring] at k2
  simp only [GrayOpacity.NumberEmissivity] at k2
  rw [← mul_sub, abs_mul, abs_mul g.kappa_, abs_of_pos (by positivity : 0 < 2 * I), mul_left_comm] at k2
  have k3 := le_of_mul_le_mul_left k2 (abs_pos.2 hκ)
  rw [abs_le] at k3 c3
  linarith

/-- **C22** for the top hat, in every unit system: any amplitude, any band with `0 < numin ≤ numax`, any positive
density -/
theorem C22_tophat (t : TophatEmissivity ℝ) (hh : 0 < t.pc.h) (h0 : 0 < t.numin_) (h1 : t.numin_ ≤ t.numax_)
    (H : Behind t O inst o us) : NumberIsIntegral 0 ((Spec.Units.total us).toCode .action t.pc.h) inst o := by
  refine NumberIsIntegral.code H.pos (H.inUnits (.tophat t)) fun rho T Ye s N Jν hr hT hN hJν => ?_
  have e : EqOn ((Ioo t.numin_ t.numax_).indicator fun ν => 4 * π * (t.C_ * TophatEmissivity.GetYeF s Ye) / t.pc.h *
      ν⁻¹) (fun ν => Jν ν / (t.pc.h * ν)) (Ioi 0) := by
    intro ν hν
    have := hJν ν hν
    injection this with this
    simp only [← this]
    simp only [TophatEmissivity.EmissivityPerNu, TophatEmissivity.EmissivityPerNuOmega, areal]
    by_cases hb : ν ∈ Ioo t.numin_ t.numax_
    · rw [indicator_of_mem hb, if_pos (by simpa [areal, Arith.gt] using hb)]
      have : ν ≠ 0 := ne_of_gt hν
      push_cast; field_simp
    · rw [indicator_of_notMem hb, if_neg (by simpa [areal, Arith.gt] using hb)]; simp
  have i0 : IntervalIntegrable (fun ν : ℝ => ν⁻¹) volume t.numin_ t.numax_ := by
    refine intervalIntegral.intervalIntegrable_inv (fun x hx => ?_) continuousOn_id
    rw [uIcc_of_le h1] at hx
    exact ne_of_gt (lt_of_lt_of_le h0 hx.1)
  have i1 : IntegrableOn ((Ioo t.numin_ t.numax_).indicator fun ν => 4 * π * (t.C_ * TophatEmissivity.GetYeF s Ye) /
      t.pc.h * ν⁻¹) (Ioi 0) := by
    refine ((integrable_indicator_iff measurableSet_Ioo).2 ?_).integrableOn
    exact (((intervalIntegrable_iff_integrableOn_Ioo_of_le h1).1 i0).const_mul _)
  refine ⟨i1.congr_fun e measurableSet_Ioi, ?_⟩
  rw [← setIntegral_congr_fun measurableSet_Ioi e, setIntegral_indicator measurableSet_Ioo,
    inter_eq_right.2 (show Ioo t.numin_ t.numax_ ⊆ Ioi 0 from fun x hx => lt_trans h0 hx.1), integral_const_mul,
    ← integral_Ioc_eq_integral_Ioo, ← intervalIntegral.integral_of_le h1,
    integral_inv_of_pos h0 (lt_of_lt_of_le h0 h1)]
  injection hN with hN
  rw [← hN]
  have e2 : t.NumberEmissivity rho T Ye s = 4 * π * (t.C_ * TophatEmissivity.GetYeF s Ye) / t.pc.h *
      Real.log (t.numax_ / t.numin_) := by
    simp only [TophatEmissivity.NumberEmissivity, areal]
    push_cast
    field_simp
  rw [e2]
  simp

/-- **C22 for electron neutrinos of the Burrows–Reddy–Thompson opacity, up to the number of species**.  Missing: the
factor `NSPECIES`, and the other species (`C22_brt_false`). -/
theorem C22_brt_partial (b : BRTOpacity ℝ) (hpc : b.dist.pc = b.pc) (P : PosPC b.pc) (M : PosMatter b.pc)
    (H : Behind b O inst o us) : NumberTimesIsIntegral (· = .NU_ELECTRON) b.dist.NSPECIES 1e-6
      ((Spec.Units.total us).toCode .action b.pc.h) inst o := by
  refine NumberTimesIsIntegral.code H.pos (H.inUnits (.brt b)) fun rho T Ye s N Jν hs hr hT hN hJν => ?_
  subst hs
  injection hN with hN
  obtain ⟨c1, A, hA, c2, A', c3, c4⟩ := brt_number_close b hpc P M hT hJν
  refine ⟨c1, ?_⟩
  rw [← hN, c2, c4, ← mul_sub, ← mul_sub, abs_mul, abs_mul, abs_mul (b.dist.NSPECIES : ℝ),
    abs_mul (brtK b.pc rho / b.pc.h) A, abs_of_pos hA]
  have h1 := mul_le_mul_of_nonneg_left c3 (abs_nonneg (brtK b.pc rho / b.pc.h))
  have h2 := mul_le_mul_of_nonneg_left h1 (abs_nonneg (b.dist.NSPECIES : ℝ))
  linarith

/-- **C22 is false of the Burrows–Reddy–Thompson opacity**, for electron neutrinos whenever the spectrum is that of more
than one species, and for every other species (which emit nothing, but are given a positive number emissivity) -/
theorem C22_brt_false (b : BRTOpacity ℝ) (hpc : b.dist.pc = b.pc) (P : PosPC b.pc) (M : PosMatter b.pc)
    (hg : 2 ≤ b.dist.NSPECIES) :
    ¬ NumberTimesIsIntegral (· = .NU_ELECTRON) 1 0.49 b.pc.h inferInstance b ∧
    ∀ s, s ≠ .NU_ELECTRON → ∀ rho T Ye : ℝ, 0 < rho → 0 < T →
      (∀ ν : ℝ, NeutrinoAPI.EmissivityPerNu b rho T Ye s ν = .ok 0) ∧
      ∃ N, 0 < N ∧ NeutrinoAPI.NumberEmissivity b rho T Ye s = .ok N := by
  refine ⟨?_, fun s hs rho T Ye hr hT => ⟨fun ν => ?_, _, ?_, rfl⟩⟩
  · intro k
    obtain ⟨k1, k2⟩ := k 1 1 0 .NU_ELECTRON _ _ rfl one_pos one_pos rfl fun ν _ => rfl
    obtain ⟨c1, A, hA, c2, A', c3, c4⟩ := brt_number_close b hpc P M (rho := 1) (Ye := 0) one_pos fun ν _ => rfl
    have hK : 0 < brtK b.pc 1 / b.pc.h := div_pos (brtK_pos P M one_pos) P.h
    rw [c2, c4, one_mul, mul_left_comm, ← mul_sub, abs_mul, abs_mul (brtK b.pc 1 / b.pc.h)] at k2
    have hg' : (2 : ℝ) ≤ b.dist.NSPECIES := by exact_mod_cast hg
    rw [abs_of_pos hK, abs_of_pos (by positivity : 0 < b.dist.NSPECIES * A), mul_left_comm] at k2
    have k3 := le_of_mul_le_mul_left k2 hK
    rw [abs_le] at k3 c3
    nlinarith
  · show Outcome.ok _ = _
    congr 1
    cases s <;> simp [BRTOpacity.EmissivityPerNu, BRTOpacity.EmissivityPerNuOmega, BRTOpacity.GetSigmac, areal] at hs ⊢
  · rw [brt_number b P M]
    have hK := brtK_pos P M hr
    obtain ⟨h1, h2, h3, -⟩ := P
    have hd := Deltanp_pos
    obtain ⟨-, z0⟩ := zeta5_err
    obtain ⟨-, z1⟩ := zeta3_err
    have hp := pi_pos
    positivity

/-- the hypotheses of the theorems above are met by the shipped types -/
example : let b : BRTOpacity ℝ := ⟨⟨3, PhysicalConstantsCGS⟩, PhysicalConstantsCGS⟩
    b.dist.pc = b.pc ∧ PosPC b.pc ∧ PosMatter b.pc ∧ 2 ≤ b.dist.NSPECIES ∧ Behind b (Opacity ℝ) inferInstance
      (.NonCGSBRT (NonCGSUnits.construct b 2 3 5 7)) [⟨2, 3, 5, 7⟩] :=
  ⟨rfl, PosPC_CGS, PosMatter_CGS, by norm_num, .variant (.NonCGSBRT _)
    (.nonCGS ⟨2, 3, 5, 7⟩ Photons.units_pos_ex .self)⟩
example : PosPC exTophat.dist.pc ∧ 0 < exTophat.pc.h ∧ 0 < exTophat.numin_ ∧ exTophat.numin_ ≤ exTophat.numax_ ∧
    Behind exTophat (NonCGSUnits ℝ (TophatEmissivity ℝ)) inferInstance (NonCGSUnits.construct exTophat 2 3 5 7)
      [⟨2, 3, 5, 7⟩] :=
  ⟨PosPC_CGS, PosPC_CGS.h, by norm_num [exTophat], by norm_num [exTophat],
    .nonCGS ⟨2, 3, 5, 7⟩ Photons.units_pos_ex .self⟩
end
end Neutrinos
end Opac
