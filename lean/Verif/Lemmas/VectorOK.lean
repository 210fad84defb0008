import Verif.Spec.Calls
import Verif.Lemmas.Vector

/-! The vectorised methods of every opacity. -/

namespace Opac
open Spec Outcome
set_option linter.unusedSectionVars false

/-- what happens to a frequency on the way through one wrapper around `g` -/
def throughWrapper {R : Type} [Arith R] (t : R) (g : R → R) (ν : R) : R := g (ν * (Arith.lit 1 / t)) * t

namespace Photons
section
variable {R : Type} [Arith R]

/-- all four vectorised methods store scalar results and leave `g ν` in place of `ν` -/
def VectorOK {O : Type} (i : PhotonAPI R O) (o : O) (g : R → R) : Prop :=
  ∀ fn rho temp, VectorWith (scalarFn i o fn rho temp) g (vectorFn i o fn rho temp)

theorem VectorOK.wrap (hc : ∀ a b : R, a * b = b * a) {O : Type} [i : PhotonAPI R O] {o : O} {g : R → R}
    (h : VectorOK i o g) (time mass length temp : R) :
    VectorOK inferInstance (NonCGSUnits.construct o time mass length temp) (throughWrapper time g) := by
  intro fn rho T
  cases fn
  · have := nonCGSVector_vectorWith (h .AbsorptionCoefficient (rho * (mass / (length * length * length))) (T * temp))
      (Arith.lit 1 / time) time length
    rw [hc rho, hc T] at this
    show VectorWith _ _ (nonCGSVector (PhotonAPI.AbsorptionCoefficientV _ (rho * _) (T * _)) _ _ _)
    rw [hc rho, hc T]
    exact this
  · exact nonCGSVector_vectorWith (h .AngleAveragedAbsorptionCoefficient _ _) _ _ _
  · exact nonCGSVector_vectorWith (h .EmissivityPerNuOmega _ _) _ _ _
  · exact nonCGSVector_vectorWith (h .EmissivityPerNu _ _) _ _ _

theorem ConstructedIn.vectorOK {P : R → Prop} (hc : ∀ a b : R, a * b = b * a) {Q : ℕ → (R → R) → Prop} (h0 : Q 0 id)
    (hs : ∀ n g t, P t → Q n g → Q (n + 1) (throughWrapper t g)) {O : Type} {inst : PhotonAPI R O} {o : O} {n : ℕ}
    (H : ConstructedIn R P O inst o n) : ∃ g, Q n g ∧ VectorOK inst o g := by
  induction H with
  | gray o | epbremss o | powerLaw o =>
    exact ⟨id, h0, fun fn rho temp => by cases fn <;> exact fillLoop_vectorWith _⟩
  | nonCGS time mass length temp ht _ _ _ _ ih =>
    obtain ⟨g, hq, hg⟩ := ih
    exact ⟨_, hs _ g time ht hq, hg.wrap hc time mass length temp⟩
  | vScaleFree _ ih | vGray _ ih | vPowerLawScaleFree _ ih | vPowerLaw _ ih | vEPBremss _ ih | vNonCGSGray _ ih
  | vNonCGSPowerLaw _ ih | vNonCGSEPBremss _ ih =>
    obtain ⟨g, hq, hg⟩ := ih
    exact ⟨g, hq, fun fn rho temp => by
      have := hg fn rho temp
      cases fn <;> exact this⟩
end

theorem Built.constructedIn {O : Type} {inst : PhotonAPI ℝ O} {o : O} {n : ℕ} (H : Built O inst o n) :
    ConstructedIn ℝ (fun x => 0 < x) O inst o n := by
  induction H with
  | gray o _ => exact .gray o
  | epbremss o _ => exact .epbremss o
  | powerLaw o _ => exact .powerLaw o
  | nonCGS u hu _ ih => exact .nonCGS _ _ _ _ hu.time hu.mass hu.length hu.temp ih
  | vScaleFree _ ih => exact .vScaleFree ih
  | vGray _ ih => exact .vGray ih
  | vPowerLawScaleFree _ ih => exact .vPowerLawScaleFree ih
  | vPowerLaw _ ih => exact .vPowerLaw ih
  | vEPBremss _ ih => exact .vEPBremss ih
  | vNonCGSGray _ ih => exact .vNonCGSGray ih
  | vNonCGSPowerLaw _ ih => exact .vNonCGSPowerLaw ih
  | vNonCGSEPBremss _ ih => exact .vNonCGSEPBremss ih

end Photons

theorem throughWrapper_real {t : ℝ} (ht : 0 < t) : throughWrapper t (id : ℝ → ℝ) = id := by
  funext ν
  simp only [throughWrapper, id, areal]; push_cast; field_simp

theorem Photons.ConstructedIn.vectorOK_real {O : Type} {inst : PhotonAPI ℝ O} {o : O} {n : ℕ}
    (H : ConstructedIn ℝ (fun x => 0 < x) O inst o n) : VectorOK inst o id := by
  obtain ⟨g, rfl, h⟩ := H.vectorOK (fun a b => mul_comm a b) (Q := fun _ g => g = id) rfl
    fun n g t ht hg => by subst hg; exact throughWrapper_real ht
  exact h

namespace Neutrinos
section
variable {R : Type} [Arith R]

/-- all four vectorised methods store scalar results and leave `g ν` in place of `ν` -/
def VectorOK {O : Type} (i : NeutrinoAPI R O) (o : O) (g : R → R) : Prop :=
  ∀ fn rho temp Ye type, VectorWithM (scalarFn i o fn rho temp Ye type) g (vectorFn i o fn rho temp Ye type)

theorem VectorOK.wrap (hc : ∀ a b : R, a * b = b * a) {O : Type} [i : NeutrinoAPI R O] {o : O} {g : R → R}
    (h : VectorOK i o g) (time mass length temp : R) :
    VectorOK inferInstance (NonCGSUnits.construct o time mass length temp) (throughWrapper time g) := by
  intro fn rho T Ye type
  cases fn
  · have := nonCGSVectorM_vectorWith
      (h .AbsorptionCoefficient (rho * (mass / (length * length * length))) (T * temp) Ye type)
      (Arith.lit 1 / time) time length
    rw [hc rho, hc T] at this
    show VectorWithM _ _ (nonCGSVectorM (NeutrinoAPI.AbsorptionCoefficientV _ (rho * _) (T * _) _ _) _ _ _)
    rw [hc rho, hc T]
    exact this
  · exact nonCGSVectorM_vectorWith (h .AngleAveragedAbsorptionCoefficient _ _ _ _) _ _ _
  · exact nonCGSVectorM_vectorWith (h .EmissivityPerNuOmega _ _ _ _) _ _ _
  · exact nonCGSVectorM_vectorWith (h .EmissivityPerNu _ _ _ _) _ _ _

theorem ConstructedIn.vectorOK {P : R → Prop} (hc : ∀ a b : R, a * b = b * a) {Q : ℕ → (R → R) → Prop} (h0 : Q 0 id)
    (hs : ∀ n g t, P t → Q n g → Q (n + 1) (throughWrapper t g)) {O : Type} {inst : NeutrinoAPI R O} {o : O} {n : ℕ}
    (H : ConstructedIn R P O inst o n) : ∃ g, Q n g ∧ VectorOK inst o g := by
  induction H with
  | gray o | tophat o | brt o =>
    exact ⟨id, h0, fun fn rho temp Ye type => by cases fn <;> exact VectorWith.pureM (fillLoop_vectorWith _)⟩
  | spiner o => exact ⟨id, h0, fun fn rho temp Ye type => by cases fn <;> exact fillLoopM_vectorWith _⟩
  | nonCGS time mass length temp ht _ _ _ _ ih =>
    obtain ⟨g, hq, hg⟩ := ih
    exact ⟨_, hs _ g time ht hq, hg.wrap hc time mass length temp⟩
  | vScaleFree _ ih | vBRTOpac _ ih | vGray _ ih | vTophat _ ih | vSpinerOpac _ ih | vNonCGSBRT _ ih
  | vNonCGSGray _ ih | vNonCGSTophat _ ih | vNonCGSSpiner _ ih =>
    obtain ⟨g, hq, hg⟩ := ih
    exact ⟨g, hq, fun fn rho temp Ye type => by
      have := hg fn rho temp Ye type
      cases fn <;> exact this⟩
end

theorem Built.constructedIn {O : Type} {inst : NeutrinoAPI ℝ O} {o : O} {n : ℕ} (H : Built O inst o n) :
    ConstructedIn ℝ (fun x => 0 < x) O inst o n := by
  induction H with
  | gray o _ => exact .gray o
  | tophat o _ => exact .tophat o
  | brt o _ => exact .brt o
  | spiner o _ => exact .spiner o
  | nonCGS u hu _ ih => exact .nonCGS _ _ _ _ hu.time hu.mass hu.length hu.temp ih
  | vScaleFree _ ih => exact .vScaleFree ih
  | vBRTOpac _ ih => exact .vBRTOpac ih
  | vGray _ ih => exact .vGray ih
  | vTophat _ ih => exact .vTophat ih
  | vSpinerOpac _ ih => exact .vSpinerOpac ih
  | vNonCGSBRT _ ih => exact .vNonCGSBRT ih
  | vNonCGSGray _ ih => exact .vNonCGSGray ih
  | vNonCGSTophat _ ih => exact .vNonCGSTophat ih
  | vNonCGSSpiner _ ih => exact .vNonCGSSpiner ih

theorem ConstructedIn.vectorOK_real {O : Type} {inst : NeutrinoAPI ℝ O} {o : O} {n : ℕ}
    (H : ConstructedIn ℝ (fun x => 0 < x) O inst o n) : VectorOK inst o id := by
  obtain ⟨g, rfl, h⟩ := H.vectorOK (fun a b => mul_comm a b) (Q := fun _ g => g = id) rfl
    fun n g t ht hg => by subst hg; exact throughWrapper_real ht
  exact h

end Neutrinos
end Opac
