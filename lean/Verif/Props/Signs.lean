import Verif.Lemmas.SignsIE
import Verif.Lemmas.RealArith
import Verif.Model.Binary

/-!
# C62: opacities, emissivities and thermal quantities are never negative

In every floating-point format: whatever the inputs, tables, overflows and underflows, no query about an opacity with
nonnegative parameters answers a number below zero.  In exact arithmetic, moreover, the answers are finite.  The
exception is the tophat emissivity of electron antineutrinos, which is negative whenever the electron fraction exceeds
one half.
-/

namespace Opac
open Arith

/-! ## the constants of nature of the library meet the hypotheses -/

theorem XR.neg_mul_neg (a b : XR) : XR.mul (XR.neg a) (XR.neg b) = XR.mul a b := by
  cases a <;> cases b <;> simp [XR.mul, XR.neg]

theorem XR.mul_neg (a b : XR) : XR.mul a (XR.neg b) = XR.neg (XR.mul a b) := by
  have s : ∀ x : ℝ, XR.signInf (-x) = XR.neg (XR.signInf x) := by
    intro x
    unfold XR.signInf
    rcases lt_trichotomy x 0 with h | h | h
    · rw [if_pos (by linarith), if_neg (by linarith), if_pos h]; rfl
    · subst h; simp [XR.neg]
    · rw [if_neg (by linarith), if_pos (by linarith), if_pos h]; rfl
  have n : ∀ v : XR, XR.neg (XR.neg v) = v := by
    intro v
    cases v <;> simp [XR.neg]
  cases a <;> cases b <;> first
    | rfl
    | simp [XR.mul, XR.neg]; done
    | (show XR.signInf _ = XR.neg (XR.signInf (-_)); rw [s, n])
    | (show XR.signInf _ = XR.neg (XR.signInf _); rw [s])

theorem IE.square_nonneg (F : FloatFormat) (q : ℚ) (hq : 0 ≤ q) :
    NotNegative (lit 3 * lit (-q) * lit (-q) : IE F) := by
  have L := signLaws_float F
  have e : (lit 3 * lit (-q) * lit (-q) : IE F) = lit 3 * lit q * lit q := by
    have n : (lit (-q) : IE F).val = XR.neg (lit q : IE F).val := by
      show F.rd ((-q : ℚ) : ℝ) = XR.neg (F.rd (q : ℝ))
      rw [Rat.cast_neg, F.rd_neg]
    have rn : ∀ v, IE.round F (XR.neg v) = XR.neg (IE.round F v) := by
      intro v
      cases v <;> simp [IE.round, XR.neg, F.rd_neg]
    show (⟨IE.round F (XR.mul (IE.round F (XR.mul (lit 3 : IE F).val (lit (-q) : IE F).val)) (lit (-q) : IE F).val)⟩ : IE F)
      = ⟨IE.round F (XR.mul (IE.round F (XR.mul (lit 3 : IE F).val (lit q : IE F).val)) (lit q : IE F).val)⟩
    rw [n, XR.mul_neg (lit 3 : IE F).val, rn, XR.neg_mul_neg]
  have h : NotNegative (lit q : IE F) := by
    rcases hq.eq_or_lt with rfl | h
    · exact L.lit_zero
    · exact L.lit_pos h
  rw [e]
  exact L.mul (L.mul (L.lit_pos (by norm_num)) h) h

/-- the constants of the library, in CGS units, in every floating-point format -/
theorem signedPC_float (F : FloatFormat) : SignedPC NotNegative NotNegative (PhysicalConstantsCGS : PC (IE F)) := by
  have L := signLaws_float F
  constructor <;> simp only [PhysicalConstantsCGS, PhysicalConstants, BaseSICODATA2010, UnitConversionSIToCGS]
  case gA => exact IE.square_nonneg F 1.23 (by norm_num)
  all_goals (unfold NotNegative; signs L)

/-- the constants of the library, in CGS units, in exact arithmetic -/
theorem signedPC_exact : SignedPC FiniteNonnegative FinitePositive (PhysicalConstantsCGS : PC XR) := by
  have L := signLaws_exact
  constructor <;> simp only [PhysicalConstantsCGS, PhysicalConstants, BaseSICODATA2010, UnitConversionSIToCGS]
  case gA => exact ⟨_, by norm_num, rfl⟩
  all_goals (unfold FinitePositive; signs L)

namespace Photons
variable {O : Type}

/-- C62, photons, every floating-point format: no query answers a number below zero -/
theorem C62_float (F : FloatFormat) {i : PhotonAPI (IE F) O} {o : O}
    (H : Physical (IE F) NotNegative NotNegative (fun _ => True) O i o) :
    Signed i o NotNegative NotNegative NotNegative := signed (signLaws_float F) H

/-- C62, photons, exact arithmetic: for positive finite inputs every answer is nonnegative and finite, but for the
number emissivity, which may be infinite -/
theorem C62_exact {i : PhotonAPI XR O} {o : O} (H : Physical XR FiniteNonnegative FinitePositive Finite O i o) :
    Signed i o FiniteNonnegative FinitePositive Nonnegative := signed signLaws_exact H

/-- C62, photon scattering, every floating-point format -/
theorem C62_scattering_float (F : FloatFormat) {i : PhotonSAPI (IE F) O} {o : O}
    (H : PhysicalS (IE F) NotNegative NotNegative (fun _ => True) O i o) :
    SignedS i o NotNegative NotNegative := signedS (signLaws_float F) H

/-- C62, photon scattering, exact arithmetic -/
theorem C62_scattering_exact {i : PhotonSAPI XR O} {o : O}
    (H : PhysicalS XR FiniteNonnegative FinitePositive Finite O i o) :
    SignedS i o FiniteNonnegative FinitePositive := signedS signLaws_exact H

/-- C62, photon mean opacities, every floating-point format: whatever the tables hold -/
theorem C62_mean_float (F : FloatFormat) {i : MeanPhotonAPI (IE F) O} {o : O} (H : AnyMean (IE F) NotNegative O i o)
    (rho T : IE F) (hr : NotNegative rho) :
    (∀ g m v, i.AbsorptionCoefficient o rho T g m = .ok v → NotNegative v) ∧
    (∀ g v, i.PlanckGroupAbsorptionCoefficient o rho T g = .ok v → NotNegative v) ∧
    (∀ g v, i.RosselandGroupAbsorptionCoefficient o rho T g = .ok v → NotNegative v) ∧
    (∀ ν m v, i.AbsorptionCoefficientFromNu o rho T ν m = .ok v → NotNegative v) ∧
    (∀ ν v, i.PlanckGroupAbsorptionCoefficientFromNu o rho T ν = .ok v → NotNegative v) ∧
    (∀ ν v, i.RosselandGroupAbsorptionCoefficientFromNu o rho T ν = .ok v → NotNegative v) :=
  mean_signs (signLaws_float F) trivial H hr

/-- C62, photon mean scattering opacities, every floating-point format: whatever the tables hold -/
theorem C62_mean_scattering_float (F : FloatFormat) (o : MeanSOpacityBase (IE F)) (rho T : IE F) (hr : NotNegative rho) :
    (∀ g m v, MeanPhotonSAPI.ScatteringCoefficient o rho T g m = .ok v → NotNegative v) ∧
    (∀ g v, MeanPhotonSAPI.PlanckGroupScatteringCoefficient o rho T g = .ok v → NotNegative v) ∧
    (∀ g v, MeanPhotonSAPI.RosselandGroupScatteringCoefficient o rho T g = .ok v → NotNegative v) ∧
    (∀ ν m v, MeanPhotonSAPI.ScatteringCoefficientFromNu o rho T ν m = .ok v → NotNegative v) ∧
    (∀ ν v, MeanPhotonSAPI.PlanckGroupScatteringCoefficientFromNu o rho T ν = .ok v → NotNegative v) ∧
    (∀ ν v, MeanPhotonSAPI.RosselandGroupScatteringCoefficientFromNu o rho T ν = .ok v → NotNegative v) :=
  mean_signs (signLaws_float F) trivial (.base ⟨o.pc, o.t⟩) hr

/-- non-vacuity: an opacity of any opacity parameter `k > 0`, with the library's constants, wrapped in other units -/
example (F : FloatFormat) (k : ℚ) (hk : 0 < k) : Physical (IE F) NotNegative NotNegative (fun _ => True) _ inferInstance
    (Opacity.NonCGSGray (NonCGSUnits.construct (GrayOpacity.mk PhysicalConstantsCGS (lit k : IE F)) (lit 2) (lit 3) (lit 5) (lit 7))) :=
  have L := signLaws_float F
  .vNonCGSGray (.nonCGS _ _ _ _ (L.lit_pos (by norm_num)) (L.lit_pos (by norm_num)) (L.lit_pos (by norm_num))
    (L.lit_pos (by norm_num)) (.gray _ (signedPC_float F) (L.lit_pos hk)))

/-- non-vacuity in exact arithmetic, with a power law of negative exponents -/
example : ∃ o : PowerLawOpacity XR, Physical XR FiniteNonnegative FinitePositive Finite _ inferInstance o := by
  have p : ∀ q : ℚ, 0 < q → FinitePositive (lit q : XR) := fun q h => signLaws_exact.lit_pos h
  have z : FiniteNonnegative (lit 0 : XR) := signLaws_exact.lit_zero
  have f : ∀ q : ℚ, Finite (lit q : XR) := fun q => ⟨_, rfl⟩
  have c : ∀ q : ℚ, 0 < q → lt (lit 0 : XR) (lit q) = true := by
    intro q h
    show XR.lt (.fin _) (.fin _) = true
    simpa [XR.lt] using h
  have c0 : lt (lit 0 : XR) (lit 0) = false := by
    show XR.lt (.fin _) (.fin _) = false
    simp [XR.lt]
  exact ⟨_, .powerLaw (st := true) (k := lit 4) (re := lit 1) (te := lit (-3.5)) (ne := lit (-2)) (nr := lit 4) (no := lit 0)
    (rr := lit 6) (ro := lit 0) (tr := lit 8) (tf := lit 0) _ signedPC_exact (signLaws_exact.nonneg (p 4 (by norm_num)))
    (f _) (f _) (f _) (p _ (by norm_num)) z (p _ (by norm_num)) z (p _ (by norm_num)) z
    (by simp only [PowerLawOpacity.construct, gt, c _ (show (0 : ℚ) < 6 by norm_num), c _ (show (0 : ℚ) < 8 by norm_num),
      c _ (show (0 : ℚ) < 4 by norm_num), c0]; rfl)⟩

end Photons

namespace Neutrinos
variable {O : Type}

/-- C62, neutrinos, every floating-point format: no query about matter with an electron fraction of at most one half
answers a number below zero, whatever the tables hold -/
theorem C62_float_partial (F : FloatFormat) {i : NeutrinoAPI (IE F) O} {o : O}
    (H : Physical (IE F) NotNegative NotNegative (fun _ => True) True O i o) :
    Signed i o NotNegative NotNegative := signed (signLaws_float F) H

/-- C62, neutrinos, exact arithmetic: for positive finite inputs and an electron fraction of at most one half every
answer is nonnegative and finite (tabulated opacities are left out: their tables may hold infinities) -/
theorem C62_exact_partial {i : NeutrinoAPI XR O} {o : O}
    (H : Physical XR FiniteNonnegative FinitePositive Finite False O i o) :
    Signed i o FiniteNonnegative FinitePositive := signed signLaws_exact H

/-- C62, neutrino scattering, every floating-point format -/
theorem C62_scattering_float (F : FloatFormat) {i : NeutrinoSAPI (IE F) O} {o : O}
    (H : PhysicalS (IE F) NotNegative NotNegative O i o) : SignedS i o NotNegative NotNegative :=
  signedS (signLaws_float F) H

/-- C62, neutrino scattering, exact arithmetic -/
theorem C62_scattering_exact {i : NeutrinoSAPI XR O} {o : O} (H : PhysicalS XR FiniteNonnegative FinitePositive O i o) :
    SignedS i o FiniteNonnegative FinitePositive := signedS signLaws_exact H

/-- C62, neutrino mean opacities, every floating-point format: whatever the tables hold -/
theorem C62_mean_float (F : FloatFormat) {i : MeanNeutrinoAPI (IE F) O} {o : O}
    (H : AnyMean (IE F) NotNegative O i o) (rho T Ye : IE F) (s : RadiationType) (hr : NotNegative rho) :
    (∀ v, i.PlanckMeanAbsorptionCoefficient o rho T Ye s = .ok v → NotNegative v) ∧
    (∀ v, i.RosselandMeanAbsorptionCoefficient o rho T Ye s = .ok v → NotNegative v) :=
  mean_signs (signLaws_float F) trivial H hr

/-- C62, neutrino mean scattering opacities, every floating-point format: whatever the tables hold -/
theorem C62_mean_scattering_float (F : FloatFormat) {i : MeanNeutrinoSAPI (IE F) O} {o : O}
    (H : AnyMeanS (IE F) NotNegative O i o) (rho T Ye : IE F) (s : RadiationType) (hr : NotNegative rho) :
    (∀ v, i.PlanckMeanTotalScatteringCoefficient o rho T Ye s = .ok v → NotNegative v) ∧
    (∀ v, i.RosselandMeanTotalScatteringCoefficient o rho T Ye s = .ok v → NotNegative v) :=
  meanS_signs (signLaws_float F) trivial H hr

/-- C62 fails for the tophat emissivity: at every electron fraction above one half the electron antineutrinos have
negative emissivities (per frequency and angle, per frequency, total and by number), while their absorption
coefficients stay positive -/
theorem C62_tophat_false (o : TophatEmissivity ℝ) (hp : 0 < o.pc.h) (hC : 0 < o.C_) (h0 : 0 < o.numin_)
    (rho T Ye ν : ℝ) (hr : 0 < rho) (hYe : 1 / 2 < Ye) (hν : o.numin_ < ν) (hν' : ν < o.numax_) :
    (∃ v, NeutrinoAPI.EmissivityPerNuOmega o rho T Ye .NU_ELECTRON_ANTI ν = .ok v ∧ v < 0) ∧
    (∃ v, NeutrinoAPI.EmissivityPerNu o rho T Ye .NU_ELECTRON_ANTI ν = .ok v ∧ v < 0) ∧
    (∃ v, NeutrinoAPI.Emissivity o rho T Ye .NU_ELECTRON_ANTI = .ok v ∧ v < 0) ∧
    (∃ v, NeutrinoAPI.NumberEmissivity o rho T Ye .NU_ELECTRON_ANTI = .ok v ∧ v < 0) ∧
    (∃ v, NeutrinoAPI.AbsorptionCoefficient o rho T Ye .NU_ELECTRON_ANTI ν = .ok v ∧ 0 < v) ∧
    (∃ v, NeutrinoAPI.AngleAveragedAbsorptionCoefficient o rho T Ye .NU_ELECTRON_ANTI ν = .ok v ∧ 0 < v) := by
  have hy : (1 : ℝ) - 2 * Ye < 0 := by linarith
  have hj : o.EmissivityPerNuOmega rho T Ye .NU_ELECTRON_ANTI ν = o.C_ * (1 - 2 * Ye) := by
    simp [TophatEmissivity.EmissivityPerNuOmega, TophatEmissivity.GetYeF, areal, hν, hν']
  have hj0 : o.C_ * (1 - 2 * Ye) < 0 := mul_neg_of_pos_of_neg hC hy
  have hpi := Real.pi_pos
  have hm : ∀ a : ℝ, 0 < stdMax a (FermiDirac.EPS : ℝ) := by
    intro a
    have hE : (0 : ℝ) < FermiDirac.EPS := by
      simp only [FermiDirac.EPS, areal]
      positivity
    unfold stdMax
    split_ifs with h
    · exact hE
    · have h : ¬ (decide (a < FermiDirac.EPS) = true) := h
      simp only [decide_eq_true_eq, not_lt] at h
      linarith
  have hR : ∀ a b : ℝ, 0 < a → 0 < b → 0 < Robust.ratio a b := by
    intro a b ha hb
    have hsg : Robust.sgn b = 1 := by
      simp only [Robust.sgn, areal]
      simp [hb.le, not_lt.2 hb.le]
    unfold Robust.ratio
    rw [hsg]
    show 0 < a / (b + (((1 : ℤ) : ℚ) : ℝ) * (((10 : ℚ) : ℝ) * 2 ^ (-1022 : ℤ)))
    positivity
  refine ⟨⟨_, rfl, ?_⟩, ⟨_, rfl, ?_⟩, ⟨_, rfl, ?_⟩, ⟨_, rfl, ?_⟩, ⟨_, rfl, ?_⟩, ⟨_, rfl, ?_⟩⟩
  · rw [hj]; exact hj0
  · unfold TophatEmissivity.EmissivityPerNu
    rw [hj]
    simp only [areal]
    exact mul_neg_of_pos_of_neg (by positivity) hj0
  · simp only [TophatEmissivity.Emissivity, TophatEmissivity.GetYeF, areal]
    have : 0 < o.numax_ - o.numin_ := by linarith
    push_cast
    exact mul_neg_of_pos_of_neg (by positivity) hy
  · simp only [TophatEmissivity.NumberEmissivity, TophatEmissivity.GetYeF, areal]
    have : 0 < Real.log (o.numax_ / o.numin_) := Real.log_pos (by rw [lt_div_iff₀ h0]; linarith)
    push_cast
    exact mul_neg_of_pos_of_neg (by positivity) hy
  · simp only [TophatEmissivity.AbsorptionCoefficient, FermiDirac.AbsorptionCoefficientFromKirchhoff]
    have := hR _ _ (hm (o.EmissivityPerNuOmega rho T Ye .NU_ELECTRON_ANTI ν)) (hm (o.dist.ThermalDistributionOfTNu T ν))
    show 0 < _ / (((4 : ℚ) : ℝ) * Real.pi)
    positivity
  · simp only [TophatEmissivity.AngleAveragedAbsorptionCoefficient,
      FermiDirac.AngleAveragedAbsorptionCoefficientFromKirchhoff]
    refine hR _ _ ?_ (hm _)
    show 0 < _ / (((4 : ℚ) : ℝ) * Real.pi)
    have := hm (o.EmissivityPerNu rho T Ye .NU_ELECTRON_ANTI ν)
    positivity

/-- non-vacuity: an emissivity tabulated in arbitrary tables, with the library's constants, in other units -/
example (F : FloatFormat) (a b c d : Spiner.DataBox (IE F)) :
    Physical (IE F) NotNegative NotNegative (fun _ => True) True _ inferInstance
      (Opacity.NonCGSSpiner (NonCGSUnits.construct (SpinerOpacity.ofTables ⟨3, PhysicalConstantsCGS⟩ PhysicalConstantsCGS a b c d)
        (lit 2) (lit 3) (lit 5) (lit 7))) :=
  have L := signLaws_float F
  .vNonCGSSpiner (.nonCGS _ _ _ _ (L.lit_pos (by norm_num)) (L.lit_pos (by norm_num)) (L.lit_pos (by norm_num))
    (L.lit_pos (by norm_num)) (.spiner _ trivial ⟨signedPC_float F, (by norm_num : (0 : ℤ) < 3)⟩ (signedPC_float F)))

/-- non-vacuity in exact arithmetic: the charged-current opacity with the library's constants -/
example : Physical XR FiniteNonnegative FinitePositive Finite False _ inferInstance
    (Opacity.BRTOpac (R := XR) ⟨⟨3, PhysicalConstantsCGS⟩, PhysicalConstantsCGS⟩) :=
  .vBRTOpac (.brt _ ⟨signedPC_exact, by norm_num⟩ signedPC_exact)

/-- the tophat hypotheses can be met -/
example : let o : TophatEmissivity ℝ := ⟨⟨3, PhysicalConstantsUnity⟩, PhysicalConstantsUnity, 1, 1, 3⟩
    ∃ v, NeutrinoAPI.Emissivity o (1 : ℝ) 1 (3 / 4) .NU_ELECTRON_ANTI = .ok v ∧ v < 0 :=
  (C62_tophat_false ⟨⟨3, PhysicalConstantsUnity⟩, PhysicalConstantsUnity, 1, 1, 3⟩
    (by simp [PhysicalConstantsUnity, PhysicalConstants, BaseUnity, UnitConversionDefault, areal])
    (by norm_num) (by norm_num) 1 1 (3 / 4) 2 (by norm_num) (by norm_num) (by norm_num) (by norm_num)).2.2.1

end Neutrinos
end Opac
