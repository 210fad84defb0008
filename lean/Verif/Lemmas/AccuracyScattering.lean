import Verif.Lemmas.AccuracyPhotons

/-! Rounding errors of the scattering opacities. -/

namespace Opac.Accuracy
open Arith

variable {rd : ℝ → ℝ} {u : ℝ}

section photons
open Photons

/-- what is claimed of a pair of scattering opacities, for inputs that already carry `a` errors -/
structure AccS (u : ℝ) {O O' : Type} (i : PhotonSAPI (Fl rd) O) (i' : PhotonSAPI ℝ O') (o : O) (o' : O') (n : ℕ)
    (S : ℝ) : Prop where
  S_nonneg : 0 ≤ S
  all : ∀ (a : ℝ) (rho temp nu mu : Fl rd) (rho' temp' nu' mu' : ℝ), 0 ≤ a → PF u a rho rho' → PF u a temp temp' →
    PF u a nu nu' →
    PF u (16 * (1 + S) * (a + 5 * n + 1)) (i.TotalCrossSection o rho temp nu) (i'.TotalCrossSection o' rho' temp' nu') ∧
    PF u (16 * (1 + S) * (a + 5 * n + 1)) (i.DifferentialCrossSection o rho temp nu mu)
      (i'.DifferentialCrossSection o' rho' temp' nu' mu') ∧
    PF u (16 * (1 + S) * (a + 5 * n + 1)) (i.TotalScatteringCoefficient o rho temp nu)
      (i'.TotalScatteringCoefficient o' rho' temp' nu')

theorem powerLawS_inv {R : Type} [Arith R] {k re te ne nr no rr ro tr tof apm : R}
    {o : PowerLawSOpacity R} (h : PowerLawSOpacity.construct k re te ne nr no rr ro tr tof apm = .ok o) :
    gt nr (lit 0) = true ∧ gt tr (lit 0) = true ∧ lt ro (lit 0) = false ∧
    lt tof (lit 0) = false ∧ lt no (lit 0) = false ∧
    o = { kappa0_ := k, rho_exp_ := re, temp_exp_ := te, rho_ref_ := rr, rho_off_ := ro, temp_ref_ := tr,
          temp_off_ := tof, nu_exp_ := ne, nu_ref_ := nr, nu_off_ := no, apm_ := apm } := by
  unfold PowerLawSOpacity.construct at h
  split at h
  · cases h
  split at h
  · cases h
  split at h
  · cases h
  split at h
  · cases h
  split at h
  · cases h
  cases h
  simp_all

theorem nonCGS_accS (hr : BinaryRounding rd u) {O O' : Type} {i : PhotonSAPI (Fl rd) O} {i' : PhotonSAPI ℝ O'} {o : O}
    {o' : O'} {n : ℕ} {S : ℝ} (ih : AccS u i i' o o' n S) {t m l te : Fl rd} (h1 : 0 < t.val) (h2 : 0 < m.val)
    (h3 : 0 < l.val) (h4 : 0 < te.val) :
    AccS u (inferInstance : PhotonSAPI (Fl rd) (NonCGSUnitsS (Fl rd) O)) (inferInstance : PhotonSAPI ℝ (NonCGSUnitsS ℝ O'))
      (NonCGSUnitsS.construct o t m l te) (NonCGSUnitsS.construct o' t.val m.val l.val te.val) (n + 1) S := by
  have hS := ih.S_nonneg
  refine ⟨hS, fun a rho temp nu mu rho' temp' nu' mu' ha hρ hT hν => ?_⟩
  have ht := PF.exact (u := u) t h1
  have hm := PF.exact (u := u) m h2
  have hl := PF.exact (u := u) l h3
  have hte := PF.exact (u := u) te h4
  have hrho := hm.div hr ((hl.mul hr hl).mul hr hl)
  have hfreq := (PF.int hr 1 1 (by norm_num) (by norm_num) (by norm_num)).div hr ht
  have a1 := (hrho.mul hr hρ).mono (m := a + 4) hr (by linarith)
  have a2 := (hte.mul hr hT).mono (m := a + 4) hr (by linarith)
  have a3 := (hν.mul hr hfreq).mono (m := a + 4) hr (by linarith)
  obtain ⟨b1, b2, b3⟩ := ih.all (a + 4) _ _ _ mu _ _ _ mu' (by linarith) a1 a2 a3
  refine ⟨(b1.div hr (hl.mul hr hl)).mono hr ?_, (b2.div hr (hl.mul hr hl)).mono hr ?_, (b3.mul hr hl).mono hr ?_⟩
  all_goals push_cast; linarith

theorem twinS_acc (hr : BinaryRounding rd u) {O O' : Type} {i : PhotonSAPI (Fl rd) O} {i' : PhotonSAPI ℝ O'} {o : O}
    {o' : O'} {n : ℕ} {S : ℝ} (H : TwinS rd O O' i i' o o' n S) : AccS u i i' o o' n S := by
  induction H with
  | gray sigma apm h1 h2 =>
    refine ⟨le_rfl, fun a rho temp nu mu rho' temp' nu' mu' ha hρ hT hν => ?_⟩
    have hs := PF.exact (u := u) sigma h1
    refine ⟨hs.mono hr ?_, (hs.div hr (four_pi hr)).mono hr ?_, ((hρ.div hr (PF.exact apm h2)).mul hr hs).mono hr ?_⟩
    all_goals push_cast; linarith
  | thomson pc apm hpc h2 =>
    refine ⟨le_rfl, fun a rho temp nu mu rho' temp' nu' mu' ha hρ hT hν => ?_⟩
    have hs := (((PF.int hr 8 8 (by norm_num) (by norm_num) (by norm_num)).mul hr (PF.pi hr)).div hr
      (PF.int hr 3 3 (by norm_num) (by norm_num) (by norm_num))).mul hr
      ((((PF.exact (u := u) pc.alpha hpc.alpha).mul hr (PF.exact pc.hbar hpc.hbar)).div hr
      ((PF.exact pc.me hpc.me).mul hr (PF.exact pc.c hpc.c))).powInt hr 2 2 (by norm_num) (by norm_num))
    refine ⟨hs.mono hr ?_, (hs.div hr (four_pi hr)).mono hr ?_, (((hρ.div hr (PF.exact apm h2)).div hr
      (PF.int hr 2 2 (by norm_num) (by norm_num) (by norm_num))).mul hr hs).mono hr ?_⟩
    all_goals push_cast; linarith
  | powerLaw k re te ne nr no rr ro tr tof apm o o' hk h1 h2 ho ho' =>
    obtain ⟨-, -, -, -, -, rfl⟩ := powerLawS_inv ho
    obtain ⟨g1, g2, g3, g4, g5, rfl⟩ := powerLawS_inv ho'
    have z : (lit 0 : ℝ) = 0 := by simp [areal]
    rw [gt, real_lt, z] at g1 g2
    rw [Bool.eq_false_iff, Ne, real_lt, z, not_lt] at g3 g4 g5
    have hS : 0 ≤ |re.val| + |te.val| + |ne.val| := by positivity
    refine ⟨hS, fun a rho temp nu mu rho' temp' nu' mu' ha hρ hT hν => ?_⟩
    have hs := (((PF.exact (u := u) k hk).mul hr (factor_acc (e := re) hr ha hρ g3 h1)).mul hr
      (factor_acc (e := te) hr ha hT g4 g2)).mul hr (factor_acc (e := ne) hr ha hν g5 g1)
    have h := mul_nonneg hS ha
    refine ⟨hs.mono hr ?_, (hs.div hr (four_pi hr)).mono hr ?_, ((hρ.div hr (PF.exact apm h2)).mul hr hs).mono hr ?_⟩
    all_goals push_cast; linarith
  | nonCGS t m l te h1 h2 h3 h4 _ ih => exact nonCGS_accS hr ih h1 h2 h3 h4
  | vScaleFreeS _ ih | vGrayS _ ih | vThomsonS _ ih | vPowerLawS _ ih | vNonCGSGrayS _ ih | vNonCGSThomsonS _ ih
  | vNonCGSPowerLawS _ ih => exact ⟨ih.S_nonneg, ih.all⟩

end photons

section neutrinos
open Neutrinos

/-- what is claimed of a pair of neutrino scattering opacities, for inputs that already carry `a` errors -/
def AccSN (u : ℝ) {O O' : Type} (i : NeutrinoSAPI (Fl rd) O) (i' : NeutrinoSAPI ℝ O') (o : O) (o' : O') (n : ℕ) : Prop :=
  ∀ (a : ℝ) (rho temp Ye nu mu : Fl rd) (type : RadiationType) (rho' temp' Ye' nu' mu' : ℝ), 0 ≤ a →
    PF u a rho rho' → PF u a temp temp' → PF u a nu nu' →
    PF u (16 * (a + 5 * n + 1)) (i.TotalCrossSection o rho temp Ye type nu)
      (i'.TotalCrossSection o' rho' temp' Ye' type nu') ∧
    PF u (16 * (a + 5 * n + 1)) (i.DifferentialCrossSection o rho temp Ye type nu mu)
      (i'.DifferentialCrossSection o' rho' temp' Ye' type nu' mu') ∧
    PF u (16 * (a + 5 * n + 1)) (i.TotalScatteringCoefficient o rho temp Ye type nu)
      (i'.TotalScatteringCoefficient o' rho' temp' Ye' type nu')

theorem nonCGS_accSN (hr : BinaryRounding rd u) {O O' : Type} {i : NeutrinoSAPI (Fl rd) O} {i' : NeutrinoSAPI ℝ O'} {o : O}
    {o' : O'} {n : ℕ} (ih : AccSN u i i' o o' n) {t m l te : Fl rd} (h1 : 0 < t.val) (h2 : 0 < m.val)
    (h3 : 0 < l.val) (h4 : 0 < te.val) :
    AccSN u (inferInstance : NeutrinoSAPI (Fl rd) (NonCGSUnitsS (Fl rd) O))
      (inferInstance : NeutrinoSAPI ℝ (NonCGSUnitsS ℝ O'))
      (NonCGSUnitsS.construct o t m l te) (NonCGSUnitsS.construct o' t.val m.val l.val te.val) (n + 1) := by
  intro a rho temp Ye nu mu type rho' temp' Ye' nu' mu' ha hρ hT hν
  have ht := PF.exact (u := u) t h1
  have hm := PF.exact (u := u) m h2
  have hl := PF.exact (u := u) l h3
  have hte := PF.exact (u := u) te h4
  have hrho := hm.div hr ((hl.mul hr hl).mul hr hl)
  have hfreq := (PF.int hr 1 1 (by norm_num) (by norm_num) (by norm_num)).div hr ht
  have a1 := (hrho.mul hr hρ).mono (m := a + 4) hr (by linarith)
  have a2 := (hte.mul hr hT).mono (m := a + 4) hr (by linarith)
  have a3 := (hν.mul hr hfreq).mono (m := a + 4) hr (by linarith)
  obtain ⟨b1, b2, b3⟩ := ih (a + 4) _ _ Ye _ mu type _ _ Ye' _ mu' (by linarith) a1 a2 a3
  refine ⟨(b1.div hr (hl.mul hr hl)).mono hr ?_, (b2.div hr (hl.mul hr hl)).mono hr ?_, (b3.mul hr hl).mono hr ?_⟩
  all_goals push_cast; linarith

theorem twinSN_acc (hr : BinaryRounding rd u) {O O' : Type} {i : NeutrinoSAPI (Fl rd) O} {i' : NeutrinoSAPI ℝ O'}
    {o : O} {o' : O'} {n : ℕ} (H : TwinS rd O O' i i' o o' n) :
    AccSN u i i' o o' n := by
  induction H with
  | gray sigma apm h1 h2 =>
    intro a rho temp Ye nu mu type rho' temp' Ye' nu' mu' ha hρ hT hν
    have hs := PF.exact (u := u) sigma h1
    refine ⟨hs.mono hr ?_, (hs.div hr (four_pi hr)).mono hr ?_, ((hρ.div hr (PF.exact apm h2)).mul hr hs).mono hr ?_⟩
    all_goals push_cast; linarith
  | nonCGS t m l te h1 h2 h3 h4 _ ih => exact nonCGS_accSN hr ih h1 h2 h3 h4
  | vScaleFreeS _ ih | vGrayS _ ih | vNonCGSGrayS _ ih => exact ih

end neutrinos
end Opac.Accuracy
