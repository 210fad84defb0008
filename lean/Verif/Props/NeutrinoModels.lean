import Verif.Props.EmissionNeutrinos

/-! # C46, C47, C53: the neutrino models -/

set_option linter.unusedSimpArgs false

namespace Opac
open Spec Real Set MeasureTheory Outcome

namespace Neutrinos
section
variable {O : Type} {inst : NeutrinoAPI ℝ O} {o : O} {us : List Spec.Units}

/-! ## C46 -/

/-- the electron-fraction factor of the top hat: linear in `Ye`, and nonzero only for electron (anti)neutrinos -/
def yeFactor (Ye : ℝ) : RadiationType → ℝ
  | .NU_ELECTRON => 2 * Ye
  | .NU_ELECTRON_ANTI => 1 - 2 * Ye
  | _ => 0

/-- what the top hat with amplitude `C` between the frequencies `f1` and `f2` emits -/
structure TophatLaw (C f1 f2 : ℝ) (i : NeutrinoAPI ℝ O) (o : O) : Prop where
  /-- inside the band: independent of density, temperature and frequency -/
  inside : ∀ rho T Ye s ν, f1 < ν → ν < f2 → i.EmissivityPerNuOmega o rho T Ye s ν = .ok (C * yeFactor Ye s)
  /-- at the edges and outside: nothing -/
  outside : ∀ rho T Ye s ν, ν ≤ f1 ∨ f2 ≤ ν → i.EmissivityPerNuOmega o rho T Ye s ν = .ok 0
  /-- other species: nothing at all -/
  species : ∀ rho T Ye s, s ≠ .NU_ELECTRON → s ≠ .NU_ELECTRON_ANTI →
    (∀ ν, i.EmissivityPerNuOmega o rho T Ye s ν = .ok 0) ∧ (∀ ν, i.EmissivityPerNu o rho T Ye s ν = .ok 0) ∧
    i.Emissivity o rho T Ye s = .ok 0 ∧ i.NumberEmissivity o rho T Ye s = .ok 0

theorem GetYeF_eq (s : RadiationType) (Ye : ℝ) : TophatEmissivity.GetYeF s Ye = yeFactor Ye s := by
  cases s <;> simp [TophatEmissivity.GetYeF, yeFactor, areal]

theorem tophat_j (t : TophatEmissivity ℝ) (rho T Ye : ℝ) (s : RadiationType) (ν : ℝ) :
    t.EmissivityPerNuOmega rho T Ye s ν = if t.numin_ < ν ∧ ν < t.numax_ then t.C_ * yeFactor Ye s else 0 := by
  simp only [TophatEmissivity.EmissivityPerNuOmega, GetYeF_eq, areal]
  by_cases h : t.numin_ < ν ∧ ν < t.numax_
  · rw [if_pos h, if_pos (by simpa [areal, Arith.gt] using h)]
  · rw [if_neg h, if_neg (by simpa [areal, Arith.gt] using h)]; simp

/-- **C46** for every top hat, in every unit system -/
theorem C46_tophat (t : TophatEmissivity ℝ) (H : Behind t O inst o us) :
    TophatLaw ((Spec.Units.total us).toCode .emissivityPerNu t.C_) ((Spec.Units.total us).toCode .frequency t.numin_)
      ((Spec.Units.total us).toCode .frequency t.numax_) inst o := by
  have h := H.inUnits (.tophat t)
  have hu := H.pos
  set u := Spec.Units.total us
  have hf := unit_pos hu .frequency
  refine ⟨fun rho T Ye s ν h1 h2 => ?_, fun rho T Ye s ν h1 => ?_, fun rho T Ye s h1 h2 => ⟨fun ν => ?_, fun ν => ?_, ?_, ?_⟩⟩
  · rw [h.j]
    show Outcome.ok (u.toCode _ (t.EmissivityPerNuOmega _ _ _ _ _)) = _
    rw [tophat_j, if_pos ⟨(div_lt_iff₀ hf).1 h1, (lt_div_iff₀ hf).1 h2⟩]
    congr 1
    simp only [Units.toCode]; ring
  · rw [h.j]
    show Outcome.ok (u.toCode _ (t.EmissivityPerNuOmega _ _ _ _ _)) = _
    rw [tophat_j, if_neg]
    · simp [Units.toCode]
    · rintro ⟨a, b⟩
      rcases h1 with h1 | h1
      · exact absurd a (not_lt.2 ((le_div_iff₀ hf).1 h1))
      · exact absurd b (not_lt.2 ((div_le_iff₀ hf).1 h1))
  all_goals have hY : yeFactor Ye s = 0 := by cases s <;> simp_all [yeFactor]
  · rw [h.j]
    show Outcome.ok (u.toCode _ (t.EmissivityPerNuOmega _ _ _ _ _)) = _
    rw [tophat_j, hY]; simp [Units.toCode]
  · rw [h.J]
    show Outcome.ok (u.toCode _ (t.EmissivityPerNu _ _ _ _ _)) = _
    rw [TophatEmissivity.EmissivityPerNu, tophat_j, hY]; simp [Units.toCode]
  · rw [h.Emissivity]
    show Outcome.ok (u.toCode _ (t.Emissivity _ _ _ _)) = _
    rw [TophatEmissivity.Emissivity, GetYeF_eq, hY]; simp [Units.toCode]
  · rw [h.NumberEmissivity]
    show Outcome.ok (u.toCode _ (t.NumberEmissivity _ _ _ _)) = _
    rw [TophatEmissivity.NumberEmissivity, GetYeF_eq, hY]; simp [Units.toCode]

/-- the statement is not empty: this top hat emits -/
example : NeutrinoAPI.EmissivityPerNuOmega exTophat (7 : ℝ) 8 (1 / 2) .NU_ELECTRON (3 / 2) = .ok 1 := by
  have := (C46_tophat exTophat .self).inside 7 8 (1 / 2) .NU_ELECTRON (3 / 2)
    (by simp [Spec.Units.total, toCode_cgs, exTophat]; norm_num) (by simp [Spec.Units.total, toCode_cgs, exTophat]; norm_num)
  rw [this]
  simp [Spec.Units.total, toCode_cgs, exTophat, yeFactor]

/-! ## C47 -/

/-- the value of a call is positive for electron neutrinos and zero for every other species -/
def ElectronOnly (f : RadiationType → Outcome ℝ) : Prop :=
  (∃ v, 0 < v ∧ f .NU_ELECTRON = .ok v) ∧ ∀ s, s ≠ .NU_ELECTRON → f s = .ok 0

theorem ElectronOnly.code {u : Spec.Units} (hu : u.Pos) (d : Dim) {f g : RadiationType → Outcome ℝ}
    (h : ∀ s, g s = (f s).map' (u.toCode d)) (k : ElectronOnly f) : ElectronOnly g := by
  obtain ⟨⟨v, hv, h1⟩, h2⟩ := k
  refine ⟨⟨u.toCode d v, toCode_pos hu d hv, by rw [h, h1]; rfl⟩, fun s hs => ?_⟩
  rw [h, h2 s hs]
  show Outcome.ok (u.toCode d 0) = _
  simp [Units.toCode]

theorem brt_sigma (b : BRTOpacity ℝ) (P : PosPC b.pc) (M : PosMatter b.pc) {ν : ℝ} (hν : 0 < ν) :
    0 < b.GetSigmac .NU_ELECTRON ν ∧ ∀ s, s ≠ .NU_ELECTRON → b.GetSigmac s ν = 0 := by
  constructor
  · obtain ⟨h1, h2, h3, -⟩ := P
    obtain ⟨m1, m2, m3, m4⟩ := M
    have hd := Deltanp_pos
    simp only [BRTOpacity.GetSigmac, areal]
    push_cast
    rw [rpow2]
    have : 0 < 1 + 3 * b.pc.gA * b.pc.gA := by nlinarith [mul_self_nonneg b.pc.gA]
    positivity
  · intro s hs
    cases s <;> simp [BRTOpacity.GetSigmac, areal] at hs ⊢

/-- **C47** for every function but the number emissivity, in every unit system, at positive densities, temperatures and
frequencies.  Missing: the number emissivity, for which it is false (`C47_number_false`). -/
theorem C47_brt_partial (b : BRTOpacity ℝ) (hpc : b.dist.pc = b.pc) (hg : 0 < b.dist.NSPECIES) (P : PosPC b.pc)
    (M : PosMatter b.pc) (H : Behind b O inst o us) {rho T : ℝ} (Ye : ℝ) (hr : 0 < rho) (hT : 0 < T) :
    (∀ ν, 0 < ν → ∀ fn, ElectronOnly fun s => scalarFn inst o fn rho T Ye s ν) ∧
    ElectronOnly (fun s => inst.Emissivity o rho T Ye s) := by
  have h := H.inUnits (.brt b)
  have hu := H.pos
  set u := Spec.Units.total us
  have hr' := toCGS_pos hu .density hr
  have hT' := toCGS_pos hu .temperature hT
  have hm := M.mp
  constructor
  · intro ν hν fn
    have hν' := toCGS_pos hu .frequency hν
    refine ElectronOnly.code hu fn.dim (fun s => h.scalar fn rho T Ye s ν) ?_
    obtain ⟨s1, s2⟩ := brt_sigma b P M hν'
    have hB : 0 < b.dist.ThermalDistributionOfTNu (u.toCGS .temperature T) (u.toCGS .frequency ν) := by
      rw [fermi_eq]
      exact fermi_pos (hpc ▸ P) (by exact_mod_cast hg) hν'
    cases fn
    · exact ⟨⟨_, mul_pos (div_pos hr' hm) s1, rfl⟩, fun s hs =>
        congrArg Outcome.ok (by simp only [BRTOpacity.AbsorptionCoefficient, s2 s hs, mul_zero])⟩
    · exact ⟨⟨_, mul_pos (div_pos hr' hm) s1, rfl⟩, fun s hs =>
        congrArg Outcome.ok (by simp only [BRTOpacity.AngleAveragedAbsorptionCoefficient, s2 s hs, mul_zero])⟩
    · exact ⟨⟨_, mul_pos (mul_pos (div_pos hr' hm) s1) hB, rfl⟩, fun s hs =>
        congrArg Outcome.ok (by simp only [BRTOpacity.EmissivityPerNuOmega, s2 s hs, mul_zero, zero_mul])⟩
    · refine ⟨⟨_, ?_, rfl⟩, fun s hs => congrArg Outcome.ok (by
        simp only [BRTOpacity.EmissivityPerNu, BRTOpacity.EmissivityPerNuOmega, s2 s hs, mul_zero, zero_mul])⟩
      refine mul_pos ?_ (mul_pos (mul_pos (div_pos hr' hm) s1) hB)
      simp only [areal]; push_cast; exact mul_pos (by norm_num) pi_pos
  · refine ElectronOnly.code hu .emissivity (fun s => h.Emissivity rho T Ye s) ⟨⟨_, ?_, rfl⟩, fun s hs => ?_⟩
    · rw [brt_total b P M]
      have hK := brtK_pos P M hr'
      obtain ⟨h1, h2, h3, -⟩ := P
      have hd := Deltanp_pos
      obtain ⟨-, z0⟩ := zeta5_err
      have hp := pi_pos
      positivity
    · refine congrArg Outcome.ok ?_
      cases s <;> simp [BRTOpacity.Emissivity, BRTOpacity.GetAlphac, areal] at hs ⊢

/-- **C47 is false of the number emissivity**: it does not look at the species, so antineutrinos, which emit no energy,
are given a positive number emissivity -/
theorem C47_number_false (b : BRTOpacity ℝ) :
    ¬ ElectronOnly fun s => NeutrinoAPI.NumberEmissivity b 1 1 (0 : ℝ) s := by
  rintro ⟨⟨v, hv, h1⟩, h2⟩
  have h3 := h2 .NU_ELECTRON_ANTI (by decide)
  have h4 : b.NumberEmissivity 1 1 0 .NU_ELECTRON = b.NumberEmissivity 1 1 0 .NU_ELECTRON_ANTI := rfl
  injection h1 with h1
  injection h3 with h3
  linarith

example : let b : BRTOpacity ℝ := ⟨⟨3, PhysicalConstantsCGS⟩, PhysicalConstantsCGS⟩
    b.dist.pc = b.pc ∧ 0 < b.dist.NSPECIES ∧ PosPC b.pc ∧ PosMatter b.pc ∧
    Behind b (Opacity ℝ) inferInstance (.BRTOpac b) [] :=
  ⟨rfl, by norm_num, PosPC_CGS, PosMatter_CGS, .variant (.BRTOpac _) .self⟩

/-! ## C53 -/

/-- **C53** for gray neutrino opacities, in every unit system -/
theorem C53_gray (g : GrayOpacity ℝ) (hg : 0 < g.dist.NSPECIES) (P : PosPC g.dist.pc) (H : Behind g O inst o us) :
    NoSpuriousAbsorption inst o := by
  refine NoSpuriousAbsorption.code H.pos (H.inUnits (.gray g)) fun rho T Ye s ν hT hν hj => ?_
  injection hj with hj
  have hB : 0 < g.dist.ThermalDistributionOfTNu T ν := by
    rw [fermi_eq]; exact fermi_pos P (by exact_mod_cast hg) hν
  exact congrArg Outcome.ok ((mul_eq_zero.1 hj).resolve_right hB.ne')

/-- **C53** for the Burrows–Reddy–Thompson opacity, in every unit system -/
theorem C53_brt (b : BRTOpacity ℝ) (hg : 0 < b.dist.NSPECIES) (P : PosPC b.dist.pc) (H : Behind b O inst o us) :
    NoSpuriousAbsorption inst o := by
  refine NoSpuriousAbsorption.code H.pos (H.inUnits (.brt b)) fun rho T Ye s ν hT hν hj => ?_
  injection hj with hj
  have hB : 0 < b.dist.ThermalDistributionOfTNu T ν := by
    rw [fermi_eq]; exact fermi_pos P (by exact_mod_cast hg) hν
  exact congrArg Outcome.ok ((mul_eq_zero.1 hj).resolve_right hB.ne')

/-- **C53 for the top hat, up to the floor**: where it emits nothing, `α_ν ≤ δ / (4π B_ν)` with the floor
`δ = 10·2⁻¹⁰²²` (CGS).  Missing: this is negligible only as long as `B_ν` is far above the floor (`C53_tophat_false`). -/
theorem C53_tophat_partial (t : TophatEmissivity ℝ) (hg : 0 < t.dist.NSPECIES) (P : PosPC t.dist.pc)
    (H : Behind t O inst o us) {rho T Ye ν α : ℝ} {s : RadiationType} (hν : 0 < ν)
    (hj : inst.EmissivityPerNuOmega o rho T Ye s ν = .ok 0) (hα : inst.AbsorptionCoefficient o rho T Ye s ν = .ok α) :
    0 < α ∧ α ≤ (Spec.Units.total us).toCode .emissivityPerNu FermiDirac.EPS /
      (4 * π * inst.ThermalDistributionOfTNu o T s ν) := by
  have h := H.inUnits (.tophat t)
  have hu := H.pos
  set u := Spec.Units.total us
  rw [h.j] at hj
  rw [h.alpha] at hα
  rw [h.ThermalDistributionOfTNu]
  obtain ⟨j₀, j1, j2⟩ := map'_eq_ok.1 hj
  obtain ⟨α₀, a1, a2⟩ := map'_eq_ok.1 hα
  injection j1 with j1
  injection a1 with a1
  have hB : 0 < t.dist.ThermalDistributionOfTNu (u.toCGS .temperature T) (u.toCGS .frequency ν) := by
    rw [fermi_eq]; exact fermi_pos P (by exact_mod_cast hg) (toCGS_pos hu _ hν)
  have hE := fd_EPS_pos
  rw [Units.toCode, div_eq_zero_iff, or_iff_left (unit_pos hu _).ne'] at j2
  rw [tophat_alpha, j1, j2, max_eq_right hE.le] at a1
  show _ ∧ _ ≤ _ / (4 * π * u.toCode _ (t.dist.ThermalDistributionOfTNu (u.toCGS .temperature T) (u.toCGS .frequency ν)))
  have hm := le_max_left (t.dist.ThermalDistributionOfTNu (u.toCGS .temperature T) (u.toCGS .frequency ν))
    FermiDirac.EPS
  generalize t.dist.ThermalDistributionOfTNu (u.toCGS .temperature T) (u.toCGS .frequency ν) = B at *
  generalize max B FermiDirac.EPS = m at *
  have hm0 : 0 < m := lt_of_lt_of_le hB hm
  have hp := pi_pos
  have hi := unit_pos hu .inverseLength
  have hn := unit_pos hu .intensityPerNu
  rw [← a2, ← a1]
  simp only [Units.toCode, unit_jnu hu]
  refine ⟨by positivity, ?_⟩
  have e : FermiDirac.EPS / (u.unit .inverseLength * u.unit .intensityPerNu) /
      (4 * π * (B / u.unit .intensityPerNu)) = FermiDirac.EPS / B / (4 * π) / u.unit .inverseLength := by
    field_simp
  rw [e]
  gcongr
  linarith

/-- **C53 is false of every top hat**: at every temperature there are frequencies at which nothing is emitted but the
absorption coefficient is `1/(8π) ≈ 0.04 cm⁻¹`, because the thermal spectrum is replaced by the same floor as the
emissivity -/
theorem C53_tophat_false (t : TophatEmissivity ℝ) {T : ℝ} (hT : 0 < T) :
    ¬ NoSpuriousAbsorption inferInstance t ∧ ∃ ν₀ > 0, ∀ ν, 0 < ν → ν ≤ ν₀ → ∀ rho Ye : ℝ,
      NeutrinoAPI.EmissivityPerNuOmega t rho T Ye .NU_HEAVY ν = .ok 0 ∧
      NeutrinoAPI.AbsorptionCoefficient t rho T Ye .NU_HEAVY ν = .ok (1 / (8 * π)) := by
  have key : ∃ ν₀ > 0, ∀ ν, 0 < ν → ν ≤ ν₀ → ∀ rho Ye : ℝ,
      NeutrinoAPI.EmissivityPerNuOmega t rho T Ye .NU_HEAVY ν = .ok 0 ∧
      NeutrinoAPI.AbsorptionCoefficient t rho T Ye .NU_HEAVY ν = .ok (1 / (8 * π)) := by
    have hc : ContinuousAt (fun ν => t.dist.ThermalDistributionOfTNu T ν) 0 := by
      simp only [fermi_eq, fermiDiracLaw]
      refine ContinuousAt.div ?_ ?_ (by positivity) <;> fun_prop
    have h0 : t.dist.ThermalDistributionOfTNu T 0 < FermiDirac.EPS := by
      rw [fermi_eq]; simpa [fermiDiracLaw] using fd_EPS_pos
    obtain ⟨δ, hδ, hb⟩ := Metric.eventually_nhds_iff.1 (hc.eventually_lt continuousAt_const h0)
    refine ⟨δ / 2, by positivity, fun ν hν hle rho Ye => ?_⟩
    have hB := hb (y := ν) (by rw [Real.dist_eq, sub_zero, abs_of_pos hν]; linarith)
    have hj : t.EmissivityPerNuOmega rho T Ye .NU_HEAVY ν = 0 := by rw [tophat_j]; simp [yeFactor]
    refine ⟨congrArg Outcome.ok hj, congrArg Outcome.ok ?_⟩
    rw [tophat_alpha, hj, max_eq_right fd_EPS_pos.le, max_eq_right hB.le]
    have := fd_EPS_pos
    have := pi_pos
    field_simp; norm_num
  refine ⟨fun k => ?_, key⟩
  obtain ⟨ν₀, h1, h2⟩ := key
  obtain ⟨a, b⟩ := h2 ν₀ h1 le_rfl 1 0
  have c := k 1 T 0 .NU_HEAVY ν₀ hT h1 a
  have d : (Outcome.ok (1 / (8 * π)) : Outcome ℝ) = .ok 0 := b.symm.trans c
  injection d with d
  have := pi_pos
  have : 1 / (8 * π) ≠ 0 := by positivity
  exact this d

example : 0 < exTophat.dist.NSPECIES ∧ PosPC exTophat.dist.pc := ⟨by norm_num [exTophat], PosPC_CGS⟩
end
end Neutrinos
end Opac
