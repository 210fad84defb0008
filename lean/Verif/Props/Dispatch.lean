import Verif.Spec.SameResults
import Verif.Spec.Built
import Verif.Lemmas.RealArith

/-!
# C33 (variants are transparent) and C34 (device copies behave like the original)

All theorems hold for every arithmetic `R`, hence bit for bit for IEEE doubles.
-/

namespace Opac
set_option linter.unusedSectionVars false

variable {R : Type} [Arith R]

namespace Photons

/-- C33: a call through the variant `Opacity` answers exactly as the held opacity, for every alternative, every function and
every argument, in every arithmetic. -/
theorem C33_transparent :
    (∀ o, SameResults (inferInstance : PhotonAPI R (Opacity R)) (Opacity.ScaleFree o) inferInstance o) ∧
    (∀ o, SameResults (inferInstance : PhotonAPI R (Opacity R)) (Opacity.Gray o) inferInstance o) ∧
    (∀ o, SameResults (inferInstance : PhotonAPI R (Opacity R)) (Opacity.PowerLawScaleFree o) inferInstance o) ∧
    (∀ o, SameResults (inferInstance : PhotonAPI R (Opacity R)) (Opacity.PowerLaw o) inferInstance o) ∧
    (∀ o, SameResults (inferInstance : PhotonAPI R (Opacity R)) (Opacity.EPBremss o) inferInstance o) ∧
    (∀ o, SameResults (inferInstance : PhotonAPI R (Opacity R)) (Opacity.NonCGSGray o) inferInstance o) ∧
    (∀ o, SameResults (inferInstance : PhotonAPI R (Opacity R)) (Opacity.NonCGSPowerLaw o) inferInstance o) ∧
    (∀ o, SameResults (inferInstance : PhotonAPI R (Opacity R)) (Opacity.NonCGSEPBremss o) inferInstance o) := by
  refine ⟨?_, ?_, ?_, ?_, ?_, ?_, ?_, ?_⟩ <;> intro o <;> constructor <;> rfl

/-- C33, assignments: after any history of assignments the variant answers like the object assigned last and reports
its type, and no other. -/
theorem C33_history (v : Opacity R) (hist : List (Opacity R)) (last : Opacity R) :
    SameResults (inferInstance : PhotonAPI R (Opacity R)) ((hist ++ [last]).foldl Opacity.assign v) inferInstance last ∧
    ∀ k, ((hist ++ [last]).foldl Opacity.assign v).index = k ↔ last.index = k := by
  rw [List.foldl_append]
  exact ⟨SameResults.refl _ _, fun k => Iff.rfl⟩

/-- C33, types: the reported types of the alternatives are pairwise different -/
theorem C33_types (v w : Opacity R) : v.index = w.index ↔
    ((∃ o, v = .ScaleFree o) ∧ ∃ o, w = .ScaleFree o) ∨
    ((∃ o, v = .Gray o) ∧ ∃ o, w = .Gray o) ∨
    ((∃ o, v = .PowerLawScaleFree o) ∧ ∃ o, w = .PowerLawScaleFree o) ∨
    ((∃ o, v = .PowerLaw o) ∧ ∃ o, w = .PowerLaw o) ∨
    ((∃ o, v = .EPBremss o) ∧ ∃ o, w = .EPBremss o) ∨
    ((∃ o, v = .NonCGSGray o) ∧ ∃ o, w = .NonCGSGray o) ∨
    ((∃ o, v = .NonCGSPowerLaw o) ∧ ∃ o, w = .NonCGSPowerLaw o) ∨
    ((∃ o, v = .NonCGSEPBremss o) ∧ ∃ o, w = .NonCGSEPBremss o) := by
  cases v <;> cases w <;> simp [Opacity.index]

/-- C33, types of scattering opacities: the reported types of the alternatives are pairwise different -/
theorem C33_scattering_types (v w : SOpacity R) : v.index = w.index ↔
    ((∃ o, v = .ScaleFreeS o) ∧ ∃ o, w = .ScaleFreeS o) ∨
    ((∃ o, v = .GrayS o) ∧ ∃ o, w = .GrayS o) ∨
    ((∃ o, v = .ThomsonS o) ∧ ∃ o, w = .ThomsonS o) ∨
    ((∃ o, v = .PowerLawS o) ∧ ∃ o, w = .PowerLawS o) ∨
    ((∃ o, v = .NonCGSGrayS o) ∧ ∃ o, w = .NonCGSGrayS o) ∨
    ((∃ o, v = .NonCGSThomsonS o) ∧ ∃ o, w = .NonCGSThomsonS o) ∨
    ((∃ o, v = .NonCGSPowerLawS o) ∧ ∃ o, w = .NonCGSPowerLawS o) := by
  cases v <;> cases w <;> simp [SOpacity.index]

/-- C33: a call through the variant `SOpacity` answers exactly as the held opacity, for every alternative, every function and
every argument, in every arithmetic. -/
theorem C33_scattering_transparent :
    (∀ o, SameResultsS (inferInstance : PhotonSAPI R (SOpacity R)) (SOpacity.ScaleFreeS o) inferInstance o) ∧
    (∀ o, SameResultsS (inferInstance : PhotonSAPI R (SOpacity R)) (SOpacity.GrayS o) inferInstance o) ∧
    (∀ o, SameResultsS (inferInstance : PhotonSAPI R (SOpacity R)) (SOpacity.ThomsonS o) inferInstance o) ∧
    (∀ o, SameResultsS (inferInstance : PhotonSAPI R (SOpacity R)) (SOpacity.PowerLawS o) inferInstance o) ∧
    (∀ o, SameResultsS (inferInstance : PhotonSAPI R (SOpacity R)) (SOpacity.NonCGSGrayS o) inferInstance o) ∧
    (∀ o, SameResultsS (inferInstance : PhotonSAPI R (SOpacity R)) (SOpacity.NonCGSThomsonS o) inferInstance o) ∧
    (∀ o, SameResultsS (inferInstance : PhotonSAPI R (SOpacity R)) (SOpacity.NonCGSPowerLawS o) inferInstance o) := by
  refine ⟨?_, ?_, ?_, ?_, ?_, ?_, ?_⟩ <;> intro o <;> constructor <;> rfl

/-- C33 for the mean opacities of photons -/
theorem C33_mean_transparent :
    (∀ o, SameResultsMean (inferInstance : MeanPhotonAPI R (MeanOpacity R)) (MeanOpacity.base o) inferInstance o) ∧
    (∀ o, SameResultsMean (inferInstance : MeanPhotonAPI R (MeanOpacity R)) (MeanOpacity.nonCGS o) inferInstance o) := by
  refine ⟨?_, ?_⟩ <;> intro o <;> constructor <;> rfl

/-- C33: the group-less accessor of the mean variant is the group accessor at group 0 -/
theorem C33_mean_noGroup (v : MeanOpacity R) (rho temp : R) (gmode : ℤ) :
    v.AbsorptionCoefficientNoGroup rho temp gmode = MeanPhotonAPI.AbsorptionCoefficient v rho temp 0 gmode := rfl

/-- the device copy of anything that can be constructed is the same object -/
theorem Constructed.onDevice {O : Type} {inst : PhotonAPI R O} {o : O} {n : ℕ} (H : Constructed R O inst o n) :
    inst.GetOnDevice o = o := by
  induction H with
  | gray o | epbremss o | powerLaw o => rfl
  | nonCGS time mass length temp _ _ _ _ _ ih => exact congrArg (fun x => NonCGSUnits.construct x time mass length temp) ih
  | vScaleFree _ ih => exact congrArg Opacity.ScaleFree ih
  | vGray _ ih => exact congrArg Opacity.Gray ih
  | vPowerLawScaleFree _ ih => exact congrArg Opacity.PowerLawScaleFree ih
  | vPowerLaw _ ih => exact congrArg Opacity.PowerLaw ih
  | vEPBremss _ ih => exact congrArg Opacity.EPBremss ih
  | vNonCGSGray _ ih => exact congrArg Opacity.NonCGSGray ih
  | vNonCGSPowerLaw _ ih => exact congrArg Opacity.NonCGSPowerLaw ih
  | vNonCGSEPBremss _ ih => exact congrArg Opacity.NonCGSEPBremss ih

/-- C34: the device copy of every photon opacity, wrapped in units any number of times and possibly held by the variant,
answers every call like the original, and so does a device copy of the device copy, to any depth. -/
theorem C34_device {O : Type} [inst : PhotonAPI R O] {o : O} {n : ℕ} (H : Constructed R O inst o n) (k : ℕ) :
    SameResults inst ((PhotonAPI.GetOnDevice R)^[k] o) inst o := by
  have : (PhotonAPI.GetOnDevice R)^[k] o = o := Function.iterate_fixed H.onDevice k
  rw [this]
  exact SameResults.refl _ _

theorem ConstructedS.onDevice {O : Type} {inst : PhotonSAPI R O} {o : O} {n : ℕ} (H : ConstructedS R O inst o n) :
    inst.GetOnDevice o = o := by
  induction H with
  | gray o | thomson o | powerLaw o => rfl
  | nonCGS time mass length temp _ _ _ _ _ ih => exact congrArg (fun x => NonCGSUnitsS.construct x time mass length temp) ih
  | vScaleFreeS _ ih => exact congrArg SOpacity.ScaleFreeS ih
  | vGrayS _ ih => exact congrArg SOpacity.GrayS ih
  | vThomsonS _ ih => exact congrArg SOpacity.ThomsonS ih
  | vPowerLawS _ ih => exact congrArg SOpacity.PowerLawS ih
  | vNonCGSGrayS _ ih => exact congrArg SOpacity.NonCGSGrayS ih
  | vNonCGSThomsonS _ ih => exact congrArg SOpacity.NonCGSThomsonS ih
  | vNonCGSPowerLawS _ ih => exact congrArg SOpacity.NonCGSPowerLawS ih

/-- C34 for scattering opacities of photons -/
theorem C34_scattering_device {O : Type} [inst : PhotonSAPI R O] {o : O} {n : ℕ} (H : ConstructedS R O inst o n)
    (k : ℕ) : SameResultsS inst ((PhotonSAPI.GetOnDevice R)^[k] o) inst o := by
  have : (PhotonSAPI.GetOnDevice R)^[k] o = o := Function.iterate_fixed H.onDevice k
  rw [this]
  exact SameResultsS.refl _ _

/-- C34 for the mean opacities of photons (plain, in code units, and through the variant) -/
theorem C34_mean_device (o : MeanOpacityBase R) (time mass length temp : R) :
    SameResultsMean (R := R) inferInstance (MeanPhotonAPI.GetOnDevice R o) inferInstance o ∧
    SameResultsMean (R := R) inferInstance
      (MeanPhotonAPI.GetOnDevice R (MeanNonCGSUnits.construct o time mass length temp)) inferInstance
      (MeanNonCGSUnits.construct o time mass length temp) ∧
    SameResultsMean (R := R) inferInstance (MeanPhotonAPI.GetOnDevice R (MeanOpacity.base o)) inferInstance
      (MeanOpacity.base o) ∧
    SameResultsMean (R := R) inferInstance
      (MeanPhotonAPI.GetOnDevice R (MeanOpacity.nonCGS (MeanNonCGSUnits.construct o time mass length temp)))
      inferInstance (MeanOpacity.nonCGS (MeanNonCGSUnits.construct o time mass length temp)) := by
  refine ⟨?_, ?_, ?_, ?_⟩ <;> constructor <;> rfl

/-- the hypotheses of C34 are met: bremsstrahlung, twice wrapped; and a wrapped power law in the variant -/
example (pc : PC R) (a b : R) : Constructed R _ inferInstance
    (NonCGSUnits.construct (NonCGSUnits.construct (⟨pc⟩ : EPBremsstrahlungOpacity R) a b a b) b b a a) 2 :=
  .nonCGS _ _ _ _ trivial trivial trivial trivial (.nonCGS _ _ _ _ trivial trivial trivial trivial (.epbremss _))
example (p : PowerLawOpacity R) (a b : R) : Constructed R _ inferInstance
    (Opacity.NonCGSPowerLaw (NonCGSUnits.construct p a b a b)) 1 := .vNonCGSPowerLaw (.nonCGS _ _ _ _ trivial trivial trivial trivial (.powerLaw _))

end Photons

namespace Neutrinos

/-- C33: a call through the variant `Opacity` answers exactly as the held opacity, for every alternative, every function and
every argument, in every arithmetic. -/
theorem C33_transparent :
    (∀ o, SameResults (inferInstance : NeutrinoAPI R (Opacity R)) (Opacity.ScaleFree o) inferInstance o) ∧
    (∀ o, SameResults (inferInstance : NeutrinoAPI R (Opacity R)) (Opacity.BRTOpac o) inferInstance o) ∧
    (∀ o, SameResults (inferInstance : NeutrinoAPI R (Opacity R)) (Opacity.Gray o) inferInstance o) ∧
    (∀ o, SameResults (inferInstance : NeutrinoAPI R (Opacity R)) (Opacity.Tophat o) inferInstance o) ∧
    (∀ o, SameResults (inferInstance : NeutrinoAPI R (Opacity R)) (Opacity.SpinerOpac o) inferInstance o) ∧
    (∀ o, SameResults (inferInstance : NeutrinoAPI R (Opacity R)) (Opacity.NonCGSBRT o) inferInstance o) ∧
    (∀ o, SameResults (inferInstance : NeutrinoAPI R (Opacity R)) (Opacity.NonCGSGray o) inferInstance o) ∧
    (∀ o, SameResults (inferInstance : NeutrinoAPI R (Opacity R)) (Opacity.NonCGSTophat o) inferInstance o) ∧
    (∀ o, SameResults (inferInstance : NeutrinoAPI R (Opacity R)) (Opacity.NonCGSSpiner o) inferInstance o) := by
  refine ⟨?_, ?_, ?_, ?_, ?_, ?_, ?_, ?_, ?_⟩ <;> intro o <;> constructor <;> rfl

/-- C33, assignments: after any history of assignments the variant answers like the object assigned last and reports
its type, and no other. -/
theorem C33_history (v : Opacity R) (hist : List (Opacity R)) (last : Opacity R) :
    SameResults (inferInstance : NeutrinoAPI R (Opacity R)) ((hist ++ [last]).foldl Opacity.assign v) inferInstance last ∧
    ∀ k, ((hist ++ [last]).foldl Opacity.assign v).index = k ↔ last.index = k := by
  rw [List.foldl_append]
  exact ⟨SameResults.refl _ _, fun k => Iff.rfl⟩

/-- C33, types: the reported types of the alternatives are pairwise different -/
theorem C33_types (v w : Opacity R) : v.index = w.index ↔
    ((∃ o, v = .ScaleFree o) ∧ ∃ o, w = .ScaleFree o) ∨
    ((∃ o, v = .BRTOpac o) ∧ ∃ o, w = .BRTOpac o) ∨
    ((∃ o, v = .Gray o) ∧ ∃ o, w = .Gray o) ∨
    ((∃ o, v = .Tophat o) ∧ ∃ o, w = .Tophat o) ∨
    ((∃ o, v = .SpinerOpac o) ∧ ∃ o, w = .SpinerOpac o) ∨
    ((∃ o, v = .NonCGSBRT o) ∧ ∃ o, w = .NonCGSBRT o) ∨
    ((∃ o, v = .NonCGSGray o) ∧ ∃ o, w = .NonCGSGray o) ∨
    ((∃ o, v = .NonCGSTophat o) ∧ ∃ o, w = .NonCGSTophat o) ∨
    ((∃ o, v = .NonCGSSpiner o) ∧ ∃ o, w = .NonCGSSpiner o) := by
  cases v <;> cases w <;> simp [Opacity.index]

/-- C33, types of scattering opacities: the reported types of the alternatives are pairwise different -/
theorem C33_scattering_types (v w : SOpacity R) : v.index = w.index ↔
    ((∃ o, v = .ScaleFreeS o) ∧ ∃ o, w = .ScaleFreeS o) ∨
    ((∃ o, v = .GrayS o) ∧ ∃ o, w = .GrayS o) ∨
    ((∃ o, v = .NonCGSGrayS o) ∧ ∃ o, w = .NonCGSGrayS o) := by
  cases v <;> cases w <;> simp [SOpacity.index]

/-- C33: a call through the variant `SOpacity` answers exactly as the held opacity, for every alternative, every function and
every argument, in every arithmetic. -/
theorem C33_scattering_transparent :
    (∀ o, SameResultsS (inferInstance : NeutrinoSAPI R (SOpacity R)) (SOpacity.ScaleFreeS o) inferInstance o) ∧
    (∀ o, SameResultsS (inferInstance : NeutrinoSAPI R (SOpacity R)) (SOpacity.GrayS o) inferInstance o) ∧
    (∀ o, SameResultsS (inferInstance : NeutrinoSAPI R (SOpacity R)) (SOpacity.NonCGSGrayS o) inferInstance o) := by
  refine ⟨?_, ?_, ?_⟩ <;> intro o <;> constructor <;> rfl

/-- C33 for the mean opacities of neutrinos -/
theorem C33_mean_transparent :
    (∀ o, SameResultsMean (inferInstance : MeanNeutrinoAPI R (MeanOpacity R)) (MeanOpacity.base o) inferInstance o) ∧
    (∀ o, SameResultsMean (inferInstance : MeanNeutrinoAPI R (MeanOpacity R)) (MeanOpacity.nonCGS o) inferInstance o) ∧
    (∀ o, SameResultsMeanS (inferInstance : MeanNeutrinoSAPI R (MeanSOpacity R)) (MeanSOpacity.base o) inferInstance o) ∧
    (∀ o, SameResultsMeanS (inferInstance : MeanNeutrinoSAPI R (MeanSOpacity R)) (MeanSOpacity.nonCGS o) inferInstance
      o) := by
  refine ⟨?_, ?_, ?_, ?_⟩ <;> intro o <;> constructor <;> rfl

/-- the device copy of anything that can be constructed is the same object -/
theorem Constructed.onDevice {O : Type} {inst : NeutrinoAPI R O} {o : O} {n : ℕ} (H : Constructed R O inst o n) :
    inst.GetOnDevice o = o := by
  induction H with
  | gray o | tophat o | brt o | spiner o => rfl
  | nonCGS time mass length temp _ _ _ _ _ ih => exact congrArg (fun x => NonCGSUnits.construct x time mass length temp) ih
  | vScaleFree _ ih => exact congrArg Opacity.ScaleFree ih
  | vBRTOpac _ ih => exact congrArg Opacity.BRTOpac ih
  | vGray _ ih => exact congrArg Opacity.Gray ih
  | vTophat _ ih => exact congrArg Opacity.Tophat ih
  | vSpinerOpac _ ih => exact congrArg Opacity.SpinerOpac ih
  | vNonCGSBRT _ ih => exact congrArg Opacity.NonCGSBRT ih
  | vNonCGSGray _ ih => exact congrArg Opacity.NonCGSGray ih
  | vNonCGSTophat _ ih => exact congrArg Opacity.NonCGSTophat ih
  | vNonCGSSpiner _ ih => exact congrArg Opacity.NonCGSSpiner ih

/-- C34: the device copy of every neutrino opacity, wrapped in units any number of times and possibly held by the
variant, answers every call like the original. -/
theorem C34_device {O : Type} [inst : NeutrinoAPI R O] {o : O} {n : ℕ} (H : Constructed R O inst o n) (k : ℕ) :
    SameResults inst ((NeutrinoAPI.GetOnDevice R)^[k] o) inst o := by
  have : (NeutrinoAPI.GetOnDevice R)^[k] o = o := Function.iterate_fixed H.onDevice k
  rw [this]
  exact SameResults.refl _ _

theorem ConstructedS.onDevice {O : Type} {inst : NeutrinoSAPI R O} {o : O} {n : ℕ} (H : ConstructedS R O inst o n) :
    inst.GetOnDevice o = o := by
  induction H with
  | gray o => rfl
  | nonCGS time mass length temp _ _ _ _ _ ih => exact congrArg (fun x => NonCGSUnitsS.construct x time mass length temp) ih
  | vScaleFreeS _ ih => exact congrArg SOpacity.ScaleFreeS ih
  | vGrayS _ ih => exact congrArg SOpacity.GrayS ih
  | vNonCGSGrayS _ ih => exact congrArg SOpacity.NonCGSGrayS ih

/-- C34 for scattering opacities of neutrinos -/
theorem C34_scattering_device {O : Type} [inst : NeutrinoSAPI R O] {o : O} {n : ℕ} (H : ConstructedS R O inst o n)
    (k : ℕ) : SameResultsS inst ((NeutrinoSAPI.GetOnDevice R)^[k] o) inst o := by
  have : (NeutrinoSAPI.GetOnDevice R)^[k] o = o := Function.iterate_fixed H.onDevice k
  rw [this]
  exact SameResultsS.refl _ _

/-- C34 for the mean opacities of neutrinos (plain, in code units, and through the variant) -/
theorem C34_mean_device (o : MeanOpacityBase R) (s : MeanSOpacityBase R) (time mass length temp : R) :
    SameResultsMean (R := R) inferInstance (MeanNeutrinoAPI.GetOnDevice R o) inferInstance o ∧
    SameResultsMean (R := R) inferInstance
      (MeanNeutrinoAPI.GetOnDevice R (MeanNonCGSUnits.construct o time mass length temp)) inferInstance
      (MeanNonCGSUnits.construct o time mass length temp) ∧
    SameResultsMean (R := R) inferInstance
      (MeanNeutrinoAPI.GetOnDevice R (MeanOpacity.nonCGS (MeanNonCGSUnits.construct o time mass length temp)))
      inferInstance (MeanOpacity.nonCGS (MeanNonCGSUnits.construct o time mass length temp)) ∧
    SameResultsMeanS (R := R) inferInstance (MeanNeutrinoSAPI.GetOnDevice R s) inferInstance s ∧
    SameResultsMeanS (R := R) inferInstance
      (MeanNeutrinoSAPI.GetOnDevice R (MeanSOpacity.nonCGS (MeanNonCGSUnitsS.construct s time mass length temp)))
      inferInstance (MeanSOpacity.nonCGS (MeanNonCGSUnitsS.construct s time mass length temp)) := by
  refine ⟨?_, ?_, ?_, ?_, ?_⟩ <;> constructor <;> rfl

/-- the hypotheses of C34 are met: a tabulated opacity, wrapped, in the variant -/
example (t : SpinerOpacity R) (a b : R) : Constructed R _ inferInstance
    (Opacity.NonCGSSpiner (NonCGSUnits.construct t a b a b)) 1 := .vNonCGSSpiner (.nonCGS _ _ _ _ trivial trivial trivial trivial (.spiner _))

end Neutrinos

end Opac
