import Verif.Props.EmissionPhotons

/-! # C22 (bremsstrahlung), C53 (photons), C55, C36 -/

set_option linter.unusedSimpArgs false

namespace Opac
open Spec Real Set MeasureTheory Outcome

/-- the library's CGS constants of matter are positive -/
theorem PosMatter_CGS : PosMatter PhysicalConstantsCGS := by
  have hh : (0 : ℝ) < (PhysicalConstantsCGS : PC ℝ).h := PosPC_CGS.h
  constructor <;> simp only [PhysicalConstantsCGS, PhysicalConstants, BaseSICODATA2010, UnitConversionSIToCGS, areal] <;>
    push_cast <;> positivity

namespace Photons
variable {O : Type} {inst : PhotonAPI ℝ O} {o : O} {n : ℕ} {us : List Spec.Units}

/-! ## C55 -/

/-- bremsstrahlung in CGS units -/
theorem epb_nf (b : EPBremsstrahlungOpacity ℝ) (P : PosPC b.pc) (M : PosMatter b.pc) :
    ∃ K : ℝ, 0 < K ∧
      (∀ rho T ν, 0 < T → b.EmissivityPerNuOmega rho T ν = K * rho ^ 2 / √T * exp (-(b.pc.h / (b.pc.kb * T) * ν))) ∧
      (∀ rho T, 0 < T → b.Emissivity rho T = 4 * π * b.pc.kb / b.pc.h * K * rho ^ 2 * √T) := by
  obtain ⟨h1, h2, h3, -⟩ := P
  obtain ⟨m1, m2, m3, -⟩ := M
  have hmm : 0 < b.mmw_ := by simp only [EPBremsstrahlungOpacity.mmw_, areal]; push_cast; positivity
  have hpre : 0 < b.prefac_ := by simp only [EPBremsstrahlungOpacity.prefac_, areal]; push_cast; positivity
  have hs : ∀ T : ℝ, 0 < T → √(b.pc.kb * T / (b.pc.me * b.pc.c * b.pc.c)) =
      √(b.pc.kb / (b.pc.me * b.pc.c * b.pc.c)) * √T := by
    intro T hT
    rw [← sqrt_mul (by positivity)]; congr 1; ring
  have hq : 0 < √(b.pc.kb / (b.pc.me * b.pc.c * b.pc.c)) := sqrt_pos.2 (by positivity)
  refine ⟨b.prefac_ / √(b.pc.kb / (b.pc.me * b.pc.c * b.pc.c)) * 1.2 / (2 * b.mmw_) ^ 2, by positivity, ?_, ?_⟩
  · intro rho T ν hT
    have := sqrt_pos.2 hT
    simp only [EPBremsstrahlungOpacity.EmissivityPerNuOmega, EPBremsstrahlungOpacity.gff_, areal, hs T hT]
    push_cast
    rw [show -(b.pc.h * ν / (b.pc.kb * T)) = -(b.pc.h / (b.pc.kb * T) * ν) by ring]
    field_simp
  · intro rho T hT
    have h0 := sqrt_pos.2 hT
    simp only [EPBremsstrahlungOpacity.Emissivity, EPBremsstrahlungOpacity.gff_, areal, hs T hT]
    push_cast
    have : T = √T * √T := (mul_self_sqrt hT.le).symm
    field_simp
    rw [sq_sqrt hT.le]

/-- the properties of bremsstrahlung named in C55 -/
structure BremsstrahlungLaw {O : Type} (i : PhotonAPI ℝ O) (o : O) : Prop where
  square : ∀ s rho T ν, 0 < T → i.EmissivityPerNuOmega o (s * rho) T ν = s ^ 2 * i.EmissivityPerNuOmega o rho T ν
  square_total : ∀ s rho T J, 0 < T → i.Emissivity o rho T = .ok J → i.Emissivity o (s * rho) T = .ok (s ^ 2 * J)
  positive : ∀ rho T ν, 0 < T → rho ≠ 0 → 0 < i.EmissivityPerNuOmega o rho T ν
  positive_total : ∀ rho T, 0 < T → rho ≠ 0 → ∃ J, 0 < J ∧ i.Emissivity o rho T = .ok J
  decreasing : ∀ rho T, 0 < T → rho ≠ 0 → StrictAnti fun ν => i.EmissivityPerNuOmega o rho T ν
  root_total : ∀ s rho T J, 0 < T → 0 < s → i.Emissivity o rho T = .ok J → i.Emissivity o rho (s * T) = .ok (√s * J)

/-- **C55** for bremsstrahlung in every unit system -/
theorem C55_bremsstrahlung (b : EPBremsstrahlungOpacity ℝ) (P : PosPC b.pc) (M : PosMatter b.pc)
    (H : Behind b O inst o us) : BremsstrahlungLaw inst o := by
  obtain ⟨K, hK, hj, hJ⟩ := epb_nf b P M
  have hu := H.pos
  have h := H.inUnits (.epbremss b)
  set u := Spec.Units.total us
  have ud := fun d => unit_pos hu d
  have ej : ∀ rho T ν, 0 < T → inst.EmissivityPerNuOmega o rho T ν =
      u.toCode .emissivityPerNu (K * u.toCGS .density rho ^ 2 / √(u.toCGS .temperature T) *
        exp (-(b.pc.h / (b.pc.kb * u.toCGS .temperature T) * u.toCGS .frequency ν))) := by
    intro rho T ν hT
    rw [h.j]; exact congrArg _ (hj _ _ _ (toCGS_pos hu _ hT))
  have eJ : ∀ rho T, 0 < T → inst.Emissivity o rho T = .ok (u.toCode .emissivity
      (4 * π * b.pc.kb / b.pc.h * K * u.toCGS .density rho ^ 2 * √(u.toCGS .temperature T))) := by
    intro rho T hT
    rw [h.Emissivity]
    exact congrArg _ (congrArg _ (hJ _ _ (toCGS_pos hu _ hT)))
  obtain ⟨h1, h2, h3, -⟩ := P
  have hne : ∀ rho, rho ≠ 0 → 0 < u.toCGS .density rho ^ 2 := fun rho hr => by
    have : u.toCGS .density rho ≠ 0 := mul_ne_zero hr (ud _).ne'
    positivity
  refine ⟨fun s rho T ν hT => ?_, fun s rho T J hT hJ' => ?_, fun rho T ν hT hr => ?_, fun rho T hT hr => ?_,
    fun rho T hT hr ν₁ ν₂ hν => ?_, fun s rho T J hT hs hJ' => ?_⟩
  · rw [ej _ _ _ hT, ej _ _ _ hT]; simp only [Units.toCGS, Units.toCode]; ring
  · rw [eJ _ _ hT] at hJ' ⊢
    injection hJ' with e
    rw [← e]; congr 1
    simp only [Units.toCGS, Units.toCode]; ring
  · rw [ej _ _ _ hT]
    have := hne rho hr; have := toCGS_pos hu .temperature hT; have := ud .emissivityPerNu
    unfold Units.toCode
    positivity
  · have := hne rho hr; have := toCGS_pos hu .temperature hT; have := ud .emissivity
    exact ⟨_, by unfold Units.toCode; positivity, eJ _ _ hT⟩
  · show inst.EmissivityPerNuOmega o rho T ν₂ < inst.EmissivityPerNuOmega o rho T ν₁
    rw [ej _ _ _ hT, ej _ _ _ hT]
    have := hne rho hr; have := toCGS_pos hu .temperature hT; have := ud .emissivityPerNu; have := ud .frequency
    unfold Units.toCode
    gcongr
    unfold Units.toCGS
    gcongr
  · rw [eJ _ _ (by positivity)]
    rw [eJ _ _ hT] at hJ'
    injection hJ' with e
    rw [← e]; congr 1
    have : u.toCGS .temperature (s * T) = s * u.toCGS .temperature T := by simp only [Units.toCGS]; ring
    rw [this, sqrt_mul hs.le]
    simp only [Units.toCode]; ring

/-- bremsstrahlung with the library's CGS constants, in the variant, in other units -/
example : ∃ w, PosPC (EPBremsstrahlungOpacity.mk (PhysicalConstantsCGS : PC ℝ)).pc ∧
    PosMatter (EPBremsstrahlungOpacity.mk (PhysicalConstantsCGS : PC ℝ)).pc ∧
    Behind (EPBremsstrahlungOpacity.mk (PhysicalConstantsCGS : PC ℝ)) (Opacity ℝ) inferInstance w [⟨2, 3, 5, 7⟩] :=
  ⟨_, PosPC_CGS, PosMatter_CGS, .variant (.NonCGSEPBremss _) (.nonCGS ⟨2, 3, 5, 7⟩ units_pos_ex .self)⟩

/-! ## C22: bremsstrahlung -/

theorem inv_exp_diverges {A b : ℝ} (hA : 0 < A) (hb : 0 < b) :
    ∫⁻ ν in Ioi (0 : ℝ), ENNReal.ofReal (A * exp (-(b * ν)) / ν) = ⊤ := by
  by_contra hc
  have hi : IntegrableOn (fun ν : ℝ => A * exp (-(b * ν)) / ν) (Ioi 0) := by
    refine ⟨(by fun_prop : Measurable fun ν : ℝ => A * exp (-(b * ν)) / ν).aestronglyMeasurable, ?_⟩
    rw [hasFiniteIntegral_iff_ofReal]
    · exact lt_top_iff_ne_top.2 hc
    · filter_upwards [ae_restrict_mem measurableSet_Ioi] with ν hν
      have : (0 : ℝ) < ν := hν
      show 0 ≤ A * exp (-(b * ν)) / ν
      positivity
  have hi1 : IntegrableOn (fun ν : ℝ => A * exp (-(b * ν)) / ν) (Ioc 0 1) := hi.mono_set Ioc_subset_Ioi_self
  have : IntervalIntegrable (fun ν : ℝ => ν⁻¹) volume 0 1 := by
    rw [intervalIntegrable_iff_integrableOn_Ioc_of_le zero_le_one]
    have hi2 := hi1.const_mul (exp b / A)
    refine Integrable.mono' hi2 (by fun_prop : Measurable fun ν : ℝ => ν⁻¹).aestronglyMeasurable ?_
    filter_upwards [ae_restrict_mem measurableSet_Ioc] with ν hν
    obtain ⟨h0, h1⟩ := hν
    rw [norm_inv, norm_of_nonneg h0.le]
    have : 1 ≤ exp b * exp (-(b * ν)) := by
      rw [← exp_add]; exact one_le_exp (by nlinarith)
    calc ν⁻¹ = 1 / ν := (one_div ν).symm
      _ ≤ (exp b * exp (-(b * ν))) / ν := by gcongr
      _ = _ := by field_simp
  rw [intervalIntegrable_inv_iff] at this
  rcases this with h | h
  · norm_num at h
  · exact h (by simp)

/-- **C22 for bremsstrahlung (the integral)**: it diverges, in every unit system and whatever positive value Planck's
constant has in it -/
theorem C22_bremsstrahlung_diverges (b : EPBremsstrahlungOpacity ℝ) (P : PosPC b.pc) (M : PosMatter b.pc)
    (H : Behind b O inst o us) {hp rho T : ℝ} (hh : 0 < hp) (hT : 0 < T) (hr : rho ≠ 0) :
    ∫⁻ ν in Ioi (0 : ℝ), ENNReal.ofReal (numberSpectrum hp inst o rho T ν) = ⊤ := by
  obtain ⟨K, hK, hj, -⟩ := epb_nf b P M
  have hu := H.pos
  have h := H.inUnits (.epbremss b)
  set u := Spec.Units.total us
  obtain ⟨h1, h2, h3, -⟩ := P
  have hT' := toCGS_pos hu .temperature hT
  have hr' : 0 < u.toCGS .density rho ^ 2 := by
    have : u.toCGS .density rho ≠ 0 := mul_ne_zero hr (unit_pos hu _).ne'
    positivity
  have h4 := unit_pos hu .emissivityPerNu
  have h5 := unit_pos hu .frequency
  rw [← inv_exp_diverges (A := 4 * π * (K * u.toCGS .density rho ^ 2 / √(u.toCGS .temperature T) /
      u.unit .emissivityPerNu) / hp) (b := b.pc.h / (b.pc.kb * u.toCGS .temperature T) * u.unit .frequency)
      (by positivity) (by positivity)]
  congr 1
  funext ν
  rw [numberSpectrum, (C20_four_pi (H.constructed (.epbremss b))).scalar, h.j]
  rw [show PhotonAPI.EmissivityPerNuOmega b (u.toCGS .density rho) (u.toCGS .temperature T) (u.toCGS .frequency ν) =
    _ from hj _ _ _ hT']
  congr 1
  rw [show b.pc.h / (b.pc.kb * u.toCGS .temperature T) * u.unit .frequency * ν =
    b.pc.h / (b.pc.kb * u.toCGS .temperature T) * u.toCGS .frequency ν by simp only [Units.toCGS]; ring]
  unfold Units.toCode
  rcases eq_or_ne ν 0 with rfl | hν
  · simp
  field_simp

/-- **C22 for bremsstrahlung (the code)**: the code returns the arithmetic's infinity, whatever the arithmetic, state
and constants -/
theorem C22_bremsstrahlung_infinity {R : Type} [Arith R] (b : EPBremsstrahlungOpacity R) (rho T : R) :
    PhotonAPI.NumberEmissivity b rho T = .ok Arith.infinity := rfl

/-- **C22 for bremsstrahlung (IEEE values)**: `+inf` is returned, and a unit wrapper with positive finite units around
anything that returns `+inf` returns `+inf`; so `+inf` is returned through any number of wrappers -/
theorem C22_infinity_wrapped {O : Type} [PhotonAPI XR O] (o : O)
    (ho : ∀ rho T : XR, PhotonAPI.NumberEmissivity o rho T = .ok XR.pinf) {t m l θ : ℝ} (ht : 0 < t) (hl : 0 < l) :
    ∀ rho T : XR, PhotonAPI.NumberEmissivity
      (NonCGSUnits.construct o (XR.fin t) (XR.fin m) (XR.fin l) (XR.fin θ)) rho T = .ok XR.pinf := by
  intro rho T
  show Outcome.map' _ (PhotonAPI.NumberEmissivity o _ _) = _
  rw [ho]
  show Outcome.ok (XR.pinf * (XR.fin l * XR.fin l * XR.fin l * XR.fin t)) = _
  have : XR.pinf * (XR.fin l * XR.fin l * XR.fin l * XR.fin t) = XR.signInf (l * l * l * t) := rfl
  rw [this, XR.signInf, if_pos (by positivity)]

example (b : EPBremsstrahlungOpacity XR) (rho T : XR) : PhotonAPI.NumberEmissivity
    (NonCGSUnits.construct b (XR.fin 2) (XR.fin 3) (XR.fin 5) (XR.fin 7)) rho T = .ok XR.pinf :=
  C22_infinity_wrapped b (fun _ _ => rfl) (by norm_num) (by norm_num) rho T

/-! ## C53 -/

/-- **C53** for every photon opacity in every unit system: where the emissivity is zero the absorption coefficient is
zero -/
theorem C53_photons (H : Built O inst o n) : NoSpuriousAbsorption inst o := by
  induction H with
  | gray g P =>
    intro rho T ν hT hν hj
    have hB := planck_pos P hT hν
    rw [gray_kirchhoff g rho T ν, show PhotonAPI.ThermalDistributionOfTNu (R := ℝ) g T ν = _ from planck_eq g.pc T ν,
      mul_eq_zero, or_iff_left hB.ne'] at hj
    exact hj
  | epbremss b P =>
    intro rho T ν hT hν hj
    have hj : b.EmissivityPerNuOmega rho T ν = 0 := hj
    show b.AbsorptionCoefficient rho T ν = 0
    simp only [EPBremsstrahlungOpacity.AbsorptionCoefficient, Planck.AbsorptionCoefficientFromKirchhoff, hj]
    rw [planck_eq, ratio_nonneg (planck_pos P hT hν).le, zero_div]
  | powerLaw p P =>
    intro rho T ν hT hν hj
    have hB := planck_pos P hT hν
    rw [C23_powerLaw p .self rho T ν, show PhotonAPI.ThermalDistributionOfTNu (R := ℝ) p T ν = _ from planck_eq p.pc T ν,
      mul_eq_zero, or_iff_left hB.ne'] at hj
    exact hj
  | nonCGS u hu h ih => exact ih.code hu (C25_units_partial h.constructedIn hu)
  | vScaleFree _ ih | vGray _ ih | vPowerLawScaleFree _ ih | vPowerLaw _ ih | vEPBremss _ ih | vNonCGSGray _ ih
  | vNonCGSPowerLaw _ ih | vNonCGSEPBremss _ ih => exact ih

/-- the premise of C53 is met by a gray opacity of coefficient zero -/
example : PhotonAPI.EmissivityPerNuOmega (GrayOpacity.mk (PhysicalConstantsCGS : PC ℝ) 0) (1 : ℝ) 1 1 = 0 := by
  simp [PhotonAPI.EmissivityPerNuOmega, GrayOpacity.EmissivityPerNuOmega, areal]

/-! ## C36 -/

/-- **C36 (validation)** over the reals: the constructor accepts exactly the meaningful parameters -/
theorem C36_validation (pc : PC ℝ) (k re te ne nr no rr ro tr tf : ℝ) (st : Bool) :
    (∃ p, PowerLawOpacity.construct pc k re te ne nr no rr ro tr tf st = .ok p) ↔
      0 < rr ∧ 0 < tr ∧ 0 < nr ∧ 0 ≤ ro ∧ 0 ≤ tf ∧ 0 ≤ no := by
  unfold PowerLawOpacity.construct
  simp only [Arith.gt, Bool.not_eq_true', ← Bool.not_eq_true, areal, Rat.cast_zero]
  split_ifs <;> simp_all

/-- rejection is an abort with a message, not undefined behaviour -/
theorem C36_rejects (pc : PC ℝ) (k re te ne nr no rr ro tr tf : ℝ) (st : Bool)
    (h : ¬ (0 < rr ∧ 0 < tr ∧ 0 < nr ∧ 0 ≤ ro ∧ 0 ≤ tf ∧ 0 ≤ no)) :
    ∃ msg, PowerLawOpacity.construct pc k re te ne nr no rr ro tr tf st = .abort msg := by
  rw [← C36_validation pc k re te ne nr no rr ro tr tf st] at h
  unfold PowerLawOpacity.construct at h ⊢
  split_ifs at h ⊢ <;> first | exact ⟨_, rfl⟩ | exact absurd ⟨_, rfl⟩ h

/-- **C36 (law)** for every accepted power law without stimulated emission: `κ₀` at the reference point, scaling with
the offset density, temperature and frequency -/
theorem C36_law {pc : PC ℝ} {k re te ne nr no rr ro tr tf : ℝ} {p : PowerLawOpacity ℝ}
    (hp : PowerLawOpacity.construct pc k re te ne nr no rr ro tr tf false = .ok p) :
    let κ := fun rho T ν => PhotonAPI.AbsorptionCoefficient p rho T ν / rho
    -- at the reference point
    (∀ rho T ν, rho ≠ 0 → rho + ro = rr → T + tf = tr → ν + no = nr → κ rho T ν = k) ∧
    -- scaling
    (∀ s rho rho' T ν, 0 < s → 0 < rho → 0 < rho' → rho' + ro = s * (rho + ro) → κ rho' T ν = s ^ re * κ rho T ν) ∧
    (∀ s rho T T' ν, 0 < s → 0 ≤ T → T' + tf = s * (T + tf) → κ rho T' ν = s ^ te * κ rho T ν) ∧
    (∀ s rho T ν ν', 0 < s → 0 ≤ ν → ν' + no = s * (ν + no) → κ rho T ν' = s ^ ne * κ rho T ν) := by
  obtain ⟨h1, h2, h3, h4, h5, h6⟩ := (C36_validation pc k re te ne nr no rr ro tr tf false).1 ⟨p, hp⟩
  have e : p = ⟨pc, k, re, te, rr, ro, tr, tf, ne, nr, no, false⟩ := by
    unfold PowerLawOpacity.construct at hp
    split_ifs at hp
    injection hp with hp
    exact hp.symm
  intro κ
  have eκ : ∀ rho T ν, rho ≠ 0 → κ rho T ν =
      k * ((rho + ro) / rr) ^ re * ((T + tf) / tr) ^ te * ((ν + no) / nr) ^ ne := by
    intro rho T ν hr
    simp only [κ, PhotonAPI.AbsorptionCoefficient, PowerLawOpacity.AbsorptionCoefficient, PowerLawOpacity.OpacityScale_,
      PowerLawOpacity.OpacityPrefactor_, e, areal]
    push_cast; simp; field_simp
  have eκ0 : ∀ T ν, κ 0 T ν = 0 := by intro T ν; simp [κ]
  refine ⟨fun rho T ν hr a b c => ?_, fun s rho rho' T ν hs hr hr' a => ?_, fun s rho T T' ν hs hT a => ?_,
    fun s rho T ν ν' hs hν a => ?_⟩
  · rw [eκ _ _ _ hr, a, b, c, div_self h1.ne', div_self h2.ne', div_self h3.ne']; simp
  · rw [eκ _ _ _ hr.ne', eκ _ _ _ hr'.ne', a, mul_div_assoc, mul_rpow hs.le (by positivity)]; ring
  · rcases eq_or_ne rho 0 with rfl | hr
    · rw [eκ0, eκ0, mul_zero]
    rw [eκ _ _ _ hr, eκ _ _ _ hr, a, mul_div_assoc, mul_rpow hs.le (by positivity)]; ring
  · rcases eq_or_ne rho 0 with rfl | hr
    · rw [eκ0, eκ0, mul_zero]
    rw [eκ _ _ _ hr, eκ _ _ _ hr, a, mul_div_assoc, mul_rpow hs.le (by positivity)]; ring

/-- **C36 (stimulated emission)** turning stimulated emission on multiplies absorption and emission by a factor
strictly between 0 and 1 -/
theorem C36_stimulated {pc : PC ℝ} (P : PosPC pc) {k re te ne nr no rr ro tr tf : ℝ} {p q : PowerLawOpacity ℝ}
    (hp : PowerLawOpacity.construct pc k re te ne nr no rr ro tr tf false = .ok p)
    (hq : PowerLawOpacity.construct pc k re te ne nr no rr ro tr tf true = .ok q) {T ν : ℝ} (hT : 0 < T) (hν : 0 < ν) :
    ∃ f, 0 < f ∧ f < 1 ∧ ∀ fn rho, scalarFn inferInstance q fn rho T ν = f * scalarFn inferInstance p fn rho T ν := by
  have ep : p = ⟨pc, k, re, te, rr, ro, tr, tf, ne, nr, no, false⟩ := by
    unfold PowerLawOpacity.construct at hp
    split_ifs at hp
    injection hp with hp
    exact hp.symm
  have eq : q = ⟨pc, k, re, te, rr, ro, tr, tf, ne, nr, no, true⟩ := by
    unfold PowerLawOpacity.construct at hq
    split_ifs at hq
    injection hq with hq
    exact hq.symm
  obtain ⟨h1, h2, h3, -⟩ := P
  refine ⟨1 - exp (-(pc.h * ν / (pc.kb * T))), ?_, ?_, fun fn rho => ?_⟩
  · have : exp (-(pc.h * ν / (pc.kb * T))) < 1 := by
      rw [exp_lt_one_iff]
      have : 0 < pc.h * ν / (pc.kb * T) := by positivity
      linarith
    linarith
  · have := exp_pos (-(pc.h * ν / (pc.kb * T))); linarith
  · subst ep eq
    cases fn <;>
      simp only [scalarFn, PhotonAPI.AbsorptionCoefficient, PhotonAPI.AngleAveragedAbsorptionCoefficient,
        PhotonAPI.EmissivityPerNuOmega, PhotonAPI.EmissivityPerNu, PowerLawOpacity.AbsorptionCoefficient,
        PowerLawOpacity.AngleAveragedAbsorptionCoefficient, PowerLawOpacity.EmissivityPerNuOmega,
        PowerLawOpacity.EmissivityPerNu, PowerLawOpacity.OpacityScale_, PowerLawOpacity.OpacityPrefactor_, areal] <;>
      push_cast <;> simp <;> ring

/-- **C36 (gray limit)** a power law with zero exponents is the gray opacity: every coefficient and emissivity agrees -/
theorem C36_gray {pc : PC ℝ} {k nr no rr ro tr tf : ℝ} {p : PowerLawOpacity ℝ}
    (hp : PowerLawOpacity.construct pc k 0 0 0 nr no rr ro tr tf false = .ok p) :
    (∀ fn (rho T ν : ℝ), scalarFn inferInstance p fn rho T ν =
      scalarFn inferInstance (GrayOpacity.mk pc k) fn rho T ν) ∧
    (∀ rho T : ℝ, PhotonAPI.Emissivity p rho T = PhotonAPI.Emissivity (GrayOpacity.mk pc k) rho T) ∧
    (∀ rho T : ℝ, PhotonAPI.NumberEmissivity p rho T = PhotonAPI.NumberEmissivity (GrayOpacity.mk pc k) rho T) := by
  have ep : p = ⟨pc, k, 0, 0, rr, ro, tr, tf, 0, nr, no, false⟩ := by
    unfold PowerLawOpacity.construct at hp
    split_ifs at hp
    injection hp with hp
    exact hp.symm
  subst ep
  refine ⟨fun fn rho T ν => ?_, fun rho T => ?_, fun rho T => ?_⟩
  · cases fn <;>
      simp only [scalarFn, PhotonAPI.AbsorptionCoefficient, PhotonAPI.AngleAveragedAbsorptionCoefficient,
        PhotonAPI.EmissivityPerNuOmega, PhotonAPI.EmissivityPerNu, PowerLawOpacity.AbsorptionCoefficient,
        PowerLawOpacity.AngleAveragedAbsorptionCoefficient, PowerLawOpacity.EmissivityPerNuOmega,
        PowerLawOpacity.EmissivityPerNu, PowerLawOpacity.OpacityScale_, PowerLawOpacity.OpacityPrefactor_,
        GrayOpacity.AbsorptionCoefficient, GrayOpacity.AngleAveragedAbsorptionCoefficient,
        GrayOpacity.EmissivityPerNuOmega, GrayOpacity.EmissivityPerNu, areal] <;>
      push_cast <;> simp
  · show PowerLawOpacity.Emissivity _ _ _ = .ok (GrayOpacity.Emissivity _ _ _)
    unfold PowerLawOpacity.Emissivity
    rw [if_neg (by simp [areal, Arith.eqb])]
    simp [GrayOpacity.Emissivity, PowerLawOpacity.OpacityPrefactor_, areal]
  · show PowerLawOpacity.NumberEmissivity _ _ _ = .ok (GrayOpacity.NumberEmissivity _ _ _)
    unfold PowerLawOpacity.NumberEmissivity
    rw [if_neg (by simp [areal, Arith.eqb])]
    simp [GrayOpacity.NumberEmissivity, PowerLawOpacity.OpacityPrefactor_, areal]

/-- an accepted power law with nonzero exponents and offsets -/
example (st : Bool) : ∃ p, PowerLawOpacity.construct (PhysicalConstantsCGS : PC ℝ) 3 1 (-3.5) (-2) 4 5 6 7 8 9 st = .ok p :=
  (C36_validation ..).2 (by norm_num)

/-- **C36 with IEEE special values (partial)**: a NaN reference value is rejected -/
theorem C36_nan_reference (pc : PC XR) (k re te ne nr no rr ro tr tf : XR) (st : Bool)
    (h : rr = .nan ∨ tr = .nan ∨ nr = .nan) :
    ∃ msg, PowerLawOpacity.construct pc k re te ne nr no rr ro tr tf st = .abort msg := by
  have hn : ∀ x : XR, x = .nan → Arith.gt x (Arith.lit 0) = false := by rintro _ rfl; rfl
  unfold PowerLawOpacity.construct
  rcases h with h | h | h
  · rw [if_pos (by rw [hn _ h]; rfl)]; exact ⟨_, rfl⟩
  · split_ifs <;> first | exact ⟨_, rfl⟩ | (rename_i h1 _ _ _ _; rw [hn _ h] at h1; exact absurd rfl h1)
  · split_ifs <;> first | exact ⟨_, rfl⟩ | (rename_i h1 _ _ _; rw [hn _ h] at h1; exact absurd rfl h1)

/-- **C36 is false for a NaN offset**: the constructor accepts it (`NaN < 0` is false) -/
theorem C36_nan_offset_false (pc : PC XR) (k re te ne : XR) (st : Bool) :
    ∃ p, PowerLawOpacity.construct pc k re te ne (.fin 1) .nan (.fin 1) .nan (.fin 1) .nan st = .ok p := by
  have h1 : Arith.gt (XR.fin 1) (Arith.lit 0 : XR) = true := by
    show XR.lt (XR.fin ((0 : ℚ) : ℝ)) (XR.fin 1) = true
    simp [XR.lt]
  have h2 : Arith.lt XR.nan (Arith.lit 0 : XR) = false := rfl
  unfold PowerLawOpacity.construct
  simp only [h1, h2]
  exact ⟨_, rfl⟩

end Photons
end Opac
