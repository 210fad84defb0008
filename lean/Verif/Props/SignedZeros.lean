import Verif.Props.Signs
import Verif.Lemmas.SignsSZ
import Verif.Lemmas.Cmp

/-!
# C62 with signed zeros

In floating-point arithmetic in which zeros carry a sign, no query answers a number with its sign bit set: neither a
negative number nor `-0` nor `-inf`.  In particular no division by `-0` turns a quantity into `-inf`.
-/

namespace Opac
open Arith

/-- the sign bit is clear: `+0`, a positive number, `+inf` or NaN -/
def SignClear {F : FloatFormat} (x : SZ F) : Prop :=
  (x.val = .fin 0 ∧ x.minus = false) ∨ (∃ y : ℝ, 0 < y ∧ x.val = .fin y) ∨ x.val = .pinf ∨ x.val = .nan

namespace SZ
variable {F : FloatFormat}

theorem signClear_iff {x : SZ F} : SignClear x ↔ sign x = false := by
  rw [clear_iff]
  constructor
  · rintro (⟨h, h'⟩ | ⟨y, hy, h⟩ | h | h) <;> rw [h]
    · exact ⟨NN.fin le_rfl, fun _ => h'⟩
    · exact ⟨NN.fin hy.le, fun h => absurd (XR.fin.inj h) hy.ne'⟩
    · exact ⟨NN.pinf, fun h => by cases h⟩
    · exact ⟨NN.nan, fun h => by cases h⟩
  · rintro ⟨h, h'⟩
    rcases h.cases with e | e | ⟨y, hy, e⟩
    · exact .inr (.inr (.inr e))
    · exact .inr (.inr (.inl e))
    · rcases hy.eq_or_lt with rfl | hy
      · exact .inl ⟨e, h' e⟩
      · exact .inr (.inl ⟨y, hy, e⟩)

theorem laws (F : FloatFormat) : SignLaws (SZ F) SignClear SignClear SignClear (fun _ => True) True := by
  have e : (SignClear : SZ F → Prop) = fun x => sign x = false := funext fun x => propext signClear_iff
  rw [e]
  exact signLaws F

/-- comparisons do not see the sign of zero, so they are lawful -/
instance (F : FloatFormat) : LawfulCmp (SZ F) where
  lt_nan_left a b := LawfulCmp.lt_nan_left a.forget b.forget
  lt_nan_right a b := LawfulCmp.lt_nan_right a.forget b.forget
  le_nan_left a b := LawfulCmp.le_nan_left a.forget b.forget
  le_nan_right a b := LawfulCmp.le_nan_right a.forget b.forget
  le_iff a b := LawfulCmp.le_iff a.forget b.forget
  lt_irrefl a := LawfulCmp.lt_irrefl a.forget
  lt_trans a b c := LawfulCmp.lt_trans a.forget b.forget c.forget
  le_trans a b c := LawfulCmp.le_trans a.forget b.forget c.forget
  le_of_lt a b := LawfulCmp.le_of_lt a.forget b.forget

/-- Arithmetic with signed zeros is arithmetic with a single zero, but for divisions by `-0` and powers of `-0`. -/
theorem C62_agrees (a b : SZ F) :
    (a + b).forget = a.forget + b.forget ∧ (a - b).forget = a.forget - b.forget ∧
    (a * b).forget = a.forget * b.forget ∧ (-a).forget = -a.forget ∧
    (SignClear b → (a / b).forget = a.forget / b.forget) ∧
    (SignClear a → (Arith.pow a b).forget = Arith.pow a.forget b.forget) ∧
    (Arith.exp a).forget = Arith.exp a.forget ∧ (Arith.expm1 a).forget = Arith.expm1 a.forget ∧
    (Arith.log a).forget = Arith.log a.forget ∧ (Arith.log10 a).forget = Arith.log10 a.forget ∧
    (Arith.sqrt a).forget = Arith.sqrt a.forget ∧ (Arith.abs a).forget = Arith.abs a.forget ∧
    lt a b = lt a.forget b.forget ∧ le a b = le a.forget b.forget ∧ eqb a b = eqb a.forget b.forget := by
  refine ⟨rfl, rfl, rfl, rfl, fun h => ?_, fun h => ?_, rfl, rfl, rfl, rfl, rfl, rfl, rfl, rfl, rfl⟩
  · exact congrArg IE.mk (div_val (isMinusZero_clear (signClear_iff.1 h)))
  · exact congrArg IE.mk (pow_val (isMinusZero_clear (signClear_iff.1 h)))

/-- the exceptions are real: `1 / -0` is `-inf`, while `1 / +0` is `+inf` -/
example : (lit 1 / (-lit 0) : SZ F).val = .ninf ∧ (lit 1 / lit 0 : SZ F).val = .pinf := by
  have z : F.rd ((0 : ℚ) : ℝ) = .fin 0 := by rw [Rat.cast_zero, F.rd_zero]
  have o : F.rd ((1 : ℚ) : ℝ) = .fin 1 := by rw [Rat.cast_one, F.rd_one]
  constructor
  · show (if isMinusZero (⟨XR.neg (F.rd ((0 : ℚ) : ℝ)), !decide ((0 : ℚ) < 0)⟩ : SZ F) = true then
      XR.neg (IE.round F (XR.div (F.rd ((1 : ℚ) : ℝ)) (XR.neg (F.rd ((0 : ℚ) : ℝ))))) else _) = _
    rw [z, o]
    simp [isMinusZero, XR.neg, XR.div, XR.signInf, IE.round]
  · show (if isMinusZero (⟨F.rd ((0 : ℚ) : ℝ), decide ((0 : ℚ) < 0)⟩ : SZ F) = true then _ else
      IE.round F (XR.div (F.rd ((1 : ℚ) : ℝ)) (F.rd ((0 : ℚ) : ℝ)))) = _
    rw [z, o]
    simp [isMinusZero, XR.div, XR.signInf, IE.round]

theorem sign_of_le {a : SZ F} (h : XR.le a.val (.fin (-1)) = true) : sign a = true := by
  obtain ⟨v, m⟩ := a
  cases v with
  | nan => simp [XR.le] at h
  | pinf => simp [XR.le] at h
  | ninf => rfl
  | fin x =>
    have : x ≤ -1 := by simpa [XR.le] using h
    simp only [sign, Bool.or_eq_true, decide_eq_true_eq]
    exact .inl (by linarith)

theorem lit_large {q : ℚ} (h : 1 ≤ q) : (lit q : SZ F).val = .pinf ∨ ∃ x, 1 ≤ x ∧ (lit q : SZ F).val = .fin x := by
  have m := F.rd_mono 1 (q : ℝ) (by exact_mod_cast h)
  rw [F.rd_one] at m
  rcases F.rd_nonneg (q : ℝ) (by exact_mod_cast (by linarith : (0 : ℚ) ≤ q)) with e | ⟨y, _, e⟩
  · exact .inl e
  · rw [e] at m
    exact .inr ⟨y, by simpa [XR.le] using m, e⟩

theorem square_clear {p q : ℚ} (hp : 1 ≤ p) (hq : 1 ≤ q) : SignClear (lit p * lit (-q) * lit (-q) : SZ F) := by
  have n : (lit (-q) : SZ F).val = XR.neg (lit q : SZ F).val := by
    show F.rd ((-q : ℚ) : ℝ) = XR.neg (F.rd (q : ℝ))
    rw [Rat.cast_neg, F.rd_neg]
  have down : ∀ v, XR.le v (.fin (-1)) = true → XR.le (IE.round F v) (.fin (-1)) = true := by
    intro v hv
    cases v with
    | nan => exact hv
    | pinf => exact hv
    | ninf => exact hv
    | fin x =>
      have := F.rd_mono x (-1) (by simpa [XR.le] using hv)
      rwa [F.rd_neg, F.rd_one] at this
  have s1 : sign (lit (-q) : SZ F) = true := by
    refine sign_of_le ?_
    rw [n]
    rcases lit_large (F := F) hq with e | ⟨x, hx, e⟩ <;> rw [e]
    · rfl
    · simpa [XR.neg, XR.le] using hx
  have v2 : XR.le (lit p * lit (-q) : SZ F).val (.fin (-1)) = true := by
    refine down _ ?_
    rw [n]
    rcases lit_large (F := F) hp with e | ⟨x, hx, e⟩ <;> rcases lit_large (F := F) hq with e' | ⟨y, hy, e'⟩ <;> rw [e, e']
    · rfl
    · simp only [XR.neg, XR.mul, XR.signInf]
      rw [if_neg (by linarith), if_pos (by linarith)]
      rfl
    · simp only [XR.neg, XR.mul, XR.signInf]
      rw [if_neg (by linarith), if_pos (by linarith)]
      rfl
    · simp only [XR.neg, XR.mul, XR.le, decide_eq_true_eq]
      nlinarith
  have s2 := sign_of_le v2
  rw [signClear_iff, clear_iff]
  refine ⟨?_, fun _ => ?_⟩
  · refine NN.round ?_
    generalize (lit p * lit (-q) : SZ F).val = v at v2
    rw [n]
    rcases lit_large (F := F) hq with e' | ⟨y, hy, e'⟩ <;> rw [e'] <;> cases v with
    | nan => simp [XR.le] at v2
    | pinf => simp [XR.le] at v2
    | ninf =>
      first
      | exact NN.pinf
      | (simp only [XR.neg, XR.mul, neg_neg]; exact NN.signInf (by linarith))
    | fin x =>
      have : x ≤ -1 := by simpa [XR.le] using v2
      first
      | (simp only [XR.neg, XR.mul]; exact NN.signInf (by linarith))
      | (simp only [XR.neg, XR.mul]; exact NN.fin (by nlinarith))
  · show Bool.xor (sign (lit p * lit (-q) : SZ F)) (sign (lit (-q) : SZ F)) = false
    rw [s1, s2]; rfl

end SZ

/-- the constants of the library, in CGS units, in every floating-point format with signed zeros -/
theorem signedPC_signed (F : FloatFormat) : SignedPC SignClear SignClear (PhysicalConstantsCGS : PC (SZ F)) := by
  have L := SZ.laws F
  constructor <;> simp only [PhysicalConstantsCGS, PhysicalConstants, BaseSICODATA2010, UnitConversionSIToCGS]
  case gA => exact SZ.square_clear (F := F) (p := 3) (q := 1.23) (by norm_num) (by norm_num)
  all_goals (signs L)

namespace Photons
variable {O : Type}

/-- C62, photons, every floating-point format with signed zeros: no answer has its sign bit set -/
theorem C62_signed (F : FloatFormat) {i : PhotonAPI (SZ F) O} {o : O}
    (H : Physical (SZ F) SignClear SignClear (fun _ => True) O i o) : Signed i o SignClear SignClear SignClear :=
  signed (SZ.laws F) H

/-- C62, photon scattering, with signed zeros -/
theorem C62_scattering_signed (F : FloatFormat) {i : PhotonSAPI (SZ F) O} {o : O}
    (H : PhysicalS (SZ F) SignClear SignClear (fun _ => True) O i o) : SignedS i o SignClear SignClear :=
  signedS (SZ.laws F) H

/-- C62, photon mean opacities, with signed zeros: whatever the tables hold -/
theorem C62_mean_signed (F : FloatFormat) {i : MeanPhotonAPI (SZ F) O} {o : O} (H : AnyMean (SZ F) SignClear O i o)
    (rho T : SZ F) (hr : SignClear rho) :
    (∀ g m v, i.AbsorptionCoefficient o rho T g m = .ok v → SignClear v) ∧
    (∀ g v, i.PlanckGroupAbsorptionCoefficient o rho T g = .ok v → SignClear v) ∧
    (∀ g v, i.RosselandGroupAbsorptionCoefficient o rho T g = .ok v → SignClear v) ∧
    (∀ ν m v, i.AbsorptionCoefficientFromNu o rho T ν m = .ok v → SignClear v) ∧
    (∀ ν v, i.PlanckGroupAbsorptionCoefficientFromNu o rho T ν = .ok v → SignClear v) ∧
    (∀ ν v, i.RosselandGroupAbsorptionCoefficientFromNu o rho T ν = .ok v → SignClear v) :=
  mean_signs (SZ.laws F) trivial H hr

/-- C62, photon mean scattering opacities, with signed zeros: whatever the tables hold -/
theorem C62_mean_scattering_signed (F : FloatFormat) (o : MeanSOpacityBase (SZ F)) (rho T : SZ F) (hr : SignClear rho) :
    (∀ g m v, MeanPhotonSAPI.ScatteringCoefficient o rho T g m = .ok v → SignClear v) ∧
    (∀ g v, MeanPhotonSAPI.PlanckGroupScatteringCoefficient o rho T g = .ok v → SignClear v) ∧
    (∀ g v, MeanPhotonSAPI.RosselandGroupScatteringCoefficient o rho T g = .ok v → SignClear v) ∧
    (∀ ν m v, MeanPhotonSAPI.ScatteringCoefficientFromNu o rho T ν m = .ok v → SignClear v) ∧
    (∀ ν v, MeanPhotonSAPI.PlanckGroupScatteringCoefficientFromNu o rho T ν = .ok v → SignClear v) ∧
    (∀ ν v, MeanPhotonSAPI.RosselandGroupScatteringCoefficientFromNu o rho T ν = .ok v → SignClear v) :=
  mean_signs (SZ.laws F) trivial (.base ⟨o.pc, o.t⟩) hr

/-- non-vacuity: a gray opacity with the library's constants in other units -/
example (F : FloatFormat) (k : ℚ) (hk : 0 < k) : Physical (SZ F) SignClear SignClear (fun _ => True) _ inferInstance
    (Opacity.NonCGSGray (NonCGSUnits.construct (GrayOpacity.mk PhysicalConstantsCGS (lit k : SZ F)) (lit 2) (lit 3) (lit 5) (lit 7))) :=
  have L := SZ.laws F
  .vNonCGSGray (.nonCGS _ _ _ _ (L.lit_pos (by norm_num)) (L.lit_pos (by norm_num)) (L.lit_pos (by norm_num))
    (L.lit_pos (by norm_num)) (.gray _ (signedPC_signed F) (L.lit_pos hk)))

end Photons

namespace Neutrinos
variable {O : Type}

/-- C62, neutrinos, with signed zeros: no answer about matter with an electron fraction of at most one half has its sign
bit set, whatever the tables hold -/
theorem C62_signed_partial (F : FloatFormat) {i : NeutrinoAPI (SZ F) O} {o : O}
    (H : Physical (SZ F) SignClear SignClear (fun _ => True) True O i o) : Signed i o SignClear SignClear :=
  signed (SZ.laws F) H

/-- C62, neutrino scattering, with signed zeros -/
theorem C62_scattering_signed (F : FloatFormat) {i : NeutrinoSAPI (SZ F) O} {o : O}
    (H : PhysicalS (SZ F) SignClear SignClear O i o) : SignedS i o SignClear SignClear :=
  signedS (SZ.laws F) H

/-- C62, neutrino mean opacities, with signed zeros: whatever the tables hold -/
theorem C62_mean_signed (F : FloatFormat) {i : MeanNeutrinoAPI (SZ F) O} {o : O}
    (H : AnyMean (SZ F) SignClear O i o) (rho T Ye : SZ F) (s : RadiationType) (hr : SignClear rho) :
    (∀ v, i.PlanckMeanAbsorptionCoefficient o rho T Ye s = .ok v → SignClear v) ∧
    (∀ v, i.RosselandMeanAbsorptionCoefficient o rho T Ye s = .ok v → SignClear v) :=
  mean_signs (SZ.laws F) trivial H hr

/-- C62, neutrino mean scattering opacities, with signed zeros: whatever the tables hold -/
theorem C62_mean_scattering_signed (F : FloatFormat) {i : MeanNeutrinoSAPI (SZ F) O} {o : O}
    (H : AnyMeanS (SZ F) SignClear O i o) (rho T Ye : SZ F) (s : RadiationType) (hr : SignClear rho) :
    (∀ v, i.PlanckMeanTotalScatteringCoefficient o rho T Ye s = .ok v → SignClear v) ∧
    (∀ v, i.RosselandMeanTotalScatteringCoefficient o rho T Ye s = .ok v → SignClear v) :=
  meanS_signs (SZ.laws F) trivial H hr

/-- non-vacuity: an emissivity tabulated in arbitrary tables, with the library's constants, in other units -/
example (F : FloatFormat) (a b c d : Spiner.DataBox (SZ F)) :
    Physical (SZ F) SignClear SignClear (fun _ => True) True _ inferInstance
      (Opacity.NonCGSSpiner (NonCGSUnits.construct (SpinerOpacity.ofTables ⟨3, PhysicalConstantsCGS⟩ PhysicalConstantsCGS a b c d)
        (lit 2) (lit 3) (lit 5) (lit 7))) :=
  have L := SZ.laws F
  .vNonCGSSpiner (.nonCGS _ _ _ _ (L.lit_pos (by norm_num)) (L.lit_pos (by norm_num)) (L.lit_pos (by norm_num))
    (L.lit_pos (by norm_num)) (.spiner _ trivial ⟨signedPC_signed F, (by norm_num : (0 : ℤ) < 3)⟩ (signedPC_signed F)))

end Neutrinos
end Opac
