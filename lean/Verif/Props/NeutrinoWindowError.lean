import Verif.Props.NeutrinoMeanLimits
import Verif.Lemmas.WindowError

/-!
# C87 for neutrinos

At `ℝ`.  `fermiDiracLaw` is the Fermi-Dirac spectrum of `Spec.Thermal`; the weight of the Rosseland mean is its derivative with
respect to temperature.
-/

namespace Opac.Neutrinos.MeanTables
open Outcome Spec MeasureTheory Slopes SpinerOpacity Real

section
variable {d : FermiDirac ℝ}

theorem fermi_slope (hpc : PosPC d.pc) (hd : 0 < d.NSPECIES) {T A B : ℝ} (hT : 0 < T) (hA : 0 < A) :
    SlopeAtMost (max 4 (d.pc.h * B / (d.pc.kb * T))) A B fun ν => ν * d.ThermalDistributionOfTNu T ν := by
  have h1 := hpc.h; have h2 := hpc.kb; have h3 := hpc.c
  have hg : (0 : ℝ) < d.NSPECIES := by exact_mod_cast hd
  have := fermi_core (b := d.pc.h / (d.pc.kb * T)) (A := A) (B := B) (C := d.NSPECIES * (2 * d.pc.h / d.pc.c ^ 2)) (by positivity) hA
    (by positivity)
  rw [div_mul_eq_mul_div] at this
  convert this using 1
  funext ν
  rw [fermi_eq]
  unfold fermiDiracLaw
  rw [div_mul_eq_mul_div d.pc.h]
  ring

theorem fermiDT_slope (hpc : PosPC d.pc) (hd : 0 < d.NSPECIES) {T A B : ℝ} (hT : 0 < T) (hA : 0 < A) :
    SlopeAtMost (max 5 (d.pc.h * B / (d.pc.kb * T))) A B fun ν => ν * d.DThermalDistributionOfTNuDT T ν := by
  have h1 := hpc.h; have h2 := hpc.kb; have h3 := hpc.c
  have hg : (0 : ℝ) < d.NSPECIES := by exact_mod_cast hd
  have := fermiDT_core (b := d.pc.h / (d.pc.kb * T)) (A := A) (B := B)
    (C := d.NSPECIES * (2 * d.pc.h ^ 2 / (T ^ 2 * d.pc.c ^ 2 * d.pc.kb))) (by positivity) hA (by positivity)
  rw [div_mul_eq_mul_div] at this
  convert this using 1
  funext ν
  simp only [FermiDirac.DThermalDistributionOfTNuDT, areal]
  rw [div_mul_eq_mul_div d.pc.h]
  push_cast
  ring

theorem fermiDT_deriv (hpc : PosPC d.pc) {T : ℝ} (hT : 0 < T) :
    d.DThermalDistributionOfTNuDT T = fun ν => deriv (fun T => fermiDiracLaw d.NSPECIES d.pc.h d.pc.kb d.pc.c T ν) T :=
  funext fun _ => (fermi_hasDerivAt hpc rfl hT).deriv.symm

/-- what the tables hold, for both means -/
theorem meansAt_error (hpc : PosPC d.pc) (hd : 0 < d.NSPECIES) {coef : ℝ → ℝ → ℝ → RadiationType → ℝ → Outcome ℝ} {a b : ℝ} {N : ℕ}
    {r : MeanRanges} {i j k : ℕ} {s : RadiationType} {rho : ℝ} {P Q : Outcome ℝ} {α' : ℕ → ℝ} {KP KR : ℝ}
    (h : MeansAt coef (fun T _ ν => d.ThermalDistributionOfTNu T ν) (fun T _ ν => d.DThermalDistributionOfTNuDT T ν) a b N r i j k s
      rho P Q α' KP KR) (ha : 0 < a) (hab : a < b) (hN : 0 < N) {ρ T Λ δ : ℝ} {α : ℝ → ℝ} (hρ : ρ = r.rhoNode i) (hT : T = r.TNode j)
    (hsame : ∀ m < N, α' m = α (binCentre a b N m)) (hδ : δ = log (b / a) / N)
    (hα0 : ∀ ν ∈ Set.Icc a b, 0 < α ν) (hΛ : 0 ≤ Λ) (hs : SlopeAtMost Λ a b α) :
    (∀ {ε m : ℝ}, m = max 4 (d.pc.h * b / (d.pc.kb * T)) →
      tiny * log 10 ≤ ε * (∫ ν in a..b, fermiDiracLaw d.NSPECIES d.pc.h d.pc.kb d.pc.c T ν) →
      exp (-((m + Λ / 2) * δ + ε)) * windowPlanckMean ρ a b (fermiDiracLaw d.NSPECIES d.pc.h d.pc.kb d.pc.c T) α ≤ KP ∧
      KP ≤ exp ((m + Λ / 2) * δ + ε) * windowPlanckMean ρ a b (fermiDiracLaw d.NSPECIES d.pc.h d.pc.kb d.pc.c T) α) ∧
    ∀ {ε m : ℝ} {D : ℝ → ℝ}, m = max 5 (d.pc.h * b / (d.pc.kb * T)) →
      (D = fun ν => deriv (fun T => fermiDiracLaw d.NSPECIES d.pc.h d.pc.kb d.pc.c T ν) T) →
      (∀ ν ∈ Set.Icc a b, tiny ≤ ε * α ν ∧ tiny ≤ ε * (α ν / ρ)) →
      tiny * log 10 ≤ ε * (∫ ν in a..b, fermiDiracLaw d.NSPECIES d.pc.h d.pc.kb d.pc.c T ν) →
      tiny * log 10 ≤ ε * (∫ ν in a..b, ρ / α ν * D ν) → ε * exp ((m + Λ / 2) * δ) ≤ 1 / 4 →
      exp (-((m + Λ / 2) * δ + ε)) * windowRosselandMean ρ a b D α ≤ KR ∧
      KR ≤ exp ((m + Λ / 2) * δ + ε) * windowRosselandMean ρ a b D α := by
  have hρ0 : 0 < ρ := hρ ▸ (node_pos r i).1
  have hT0 : 0 < T := hT ▸ (node_pos r j).2
  have ef : d.ThermalDistributionOfTNu T = fermiDiracLaw d.NSPECIES d.pc.h d.pc.kb d.pc.c T := funext fun ν => fermi_eq d T ν
  have hsub : Set.Icc a b ⊆ Set.Ioi 0 := fun x hx => ha.trans_le hx.1
  have c1 := (fermi_continuous hpc T).1.mono hsub
  have c2 := (fermi_continuous hpc T).2.mono hsub
  have hg : (0 : ℝ) < d.NSPECIES := by exact_mod_cast hd
  have w1 : ∀ x ∈ Set.Icc a b, 0 < d.ThermalDistributionOfTNu T x := fun x hx => by rw [fermi_eq]; exact fermi_pos hpc hg (hsub hx)
  have w2 : ∀ x ∈ Set.Icc a b, 0 < d.DThermalDistributionOfTNuDT T x := fun x hx => fermiDT_pos hd hpc hT0 (hsub hx)
  have e1 : KP = planckMean tiny ρ N (binDNu a b N) (fun m => d.ThermalDistributionOfTNu T (binCentre a b N m))
      (fun m => α (binCentre a b N m)) := by
    rw [h.planck, ← hρ, ← hT]
    unfold planckMean
    congr 1
    exact Finset.sum_congr rfl fun m hm => by rw [hsame m (Finset.mem_range.1 hm)]
  have e2 : KR = openRosselandMean tiny ρ N (binDNu a b N) (fun m => d.DThermalDistributionOfTNuDT T (binCentre a b N m))
      (fun m => α (binCentre a b N m)) KP := by
    rw [h.rosseland, ← hρ, ← hT]
    unfold openRosselandMean
    have k1 : ∀ D, openPath tiny ρ N (binDNu a b N) D α' = openPath tiny ρ N (binDNu a b N) D (fun m => α (binCentre a b N m)) :=
      fun D => Finset.sum_congr rfl fun m hm => by rw [hsame m (Finset.mem_range.1 hm)]
    have k2 : ∀ D, openWeight tiny N (binDNu a b N) D α' = openWeight tiny N (binDNu a b N) D (fun m => α (binCentre a b N m)) :=
      fun D => Finset.sum_congr rfl fun m hm => by rw [hsame m (Finset.mem_range.1 hm)]
    rw [k1, k2]
  constructor
  · intro ε m hm hε
    rw [← ef] at hε
    have := planck_window (W := d.ThermalDistributionOfTNu T) hρ0 tiny_pos ha hab hN hδ
      (by rw [hm]; exact le_trans (by norm_num) (le_max_left 4 _)) (hm ▸ fermi_slope hpc hd hT0 ha) w1 c1 hΛ hα0 hs hε
    rw [e1, ← ef]
    exact this.2.2
  · intro ε m D hm hD hαS hε hn hE
    rw [← fermiDT_deriv hpc hT0] at hD
    subst hD
    rw [← ef] at hε
    have hm5 : 5 ≤ m := by rw [hm]; exact le_max_left 5 _
    have hδ0 : 0 < δ := by rw [hδ]; exact div_pos (log_pos ((one_lt_div ha).2 hab)) (by exact_mod_cast hN)
    have sl : SlopeAtMost m a b fun ν => ν * d.ThermalDistributionOfTNu T ν :=
      mono (fermi_slope hpc hd hT0 ha) (by rw [hm]; exact max_le_max_right _ (by norm_num)) (fun x hx => (mul_pos (hsub hx) (w1 x hx)).le)
    obtain ⟨ε0, X0, p1, -⟩ := planck_window (W := d.ThermalDistributionOfTNu T) hρ0 tiny_pos ha hab hN hδ (by linarith) sl w1 c1 hΛ hα0 hs hε
    rw [← e1] at p1
    have hP : tiny < KP := by
      have hM : tiny / ε ≤ (∫ ν in a..b, α ν / ρ * d.ThermalDistributionOfTNu T ν) / ∫ ν in a..b, d.ThermalDistributionOfTNu T ν := by
        rw [le_div_iff₀ X0, ← intervalIntegral.integral_const_mul]
        have hu : Set.uIcc a b = Set.Icc a b := Set.uIcc_of_le hab.le
        refine intervalIntegral.integral_mono_on hab.le ((c1.mono hu.le).intervalIntegrable.const_mul _)
          ((((continuousOn ha hs).div_const ρ).mul c1).mono hu.le).intervalIntegrable fun ν hν => ?_
        refine mul_le_mul_of_nonneg_right ?_ (w1 ν hν).le
        rw [div_le_iff₀ ε0, mul_comm]
        exact (hαS ν hν).2
      refine lt_of_lt_of_le ?_ ((mul_le_mul_of_nonneg_left hM (exp_pos _).le).trans p1)
      rw [neg_add, exp_add, ← mul_div_assoc, lt_div_iff₀ ε0, mul_comm tiny]
      refine mul_lt_mul_of_pos_right ?_ tiny_pos
      have h1 : ε ≤ 1 / 4 * exp (-((m + Λ / 2) * δ)) := by
        rw [exp_neg, ← div_eq_mul_inv, le_div_iff₀ (exp_pos _)]
        exact hE
      have h2 : 1 - ε ≤ exp (-ε) := by linarith [add_one_le_exp (-ε)]
      have h3 : exp (-((m + Λ / 2) * δ)) ≤ 1 := exp_le_one_iff.2 (by have : 0 ≤ (m + Λ / 2) * δ := by positivity
                                                                     linarith)
      have h4 := exp_pos (-((m + Λ / 2) * δ))
      nlinarith
    rw [e2]
    exact rosseland_window (W := d.DThermalDistributionOfTNuDT T) hρ0 tiny_pos ha hab hN hδ (by linarith) (hm ▸ fermiDT_slope hpc hd hT0 ha) w2 c2
      hΛ hα0 hs (fun ν hν => (hαS ν hν).1) hE hn hP

/-- **C87 (neutrinos, absorption)**: let a source have the thermal distribution of neutrinos and, at a node of the table and in the
window `[a, b]`, a positive absorption coefficient that varies like a power of the frequency of order at most `Λ` in either
direction.  With `N` frequencies at the logarithmic distance `δ`, the Planck mean is within a factor `exp((m + Λ/2) δ)` of the
Planck mean over the window with `m = max(4, hb/kT)`, and the Rosseland mean of the Rosseland mean over the window with
`m = max(5, hb/kT)`, up to the guards: `ε` measures how far the coefficient and the integrals are above them. -/
theorem C87_neutrino_absorption {O : Type} {inst : NeutrinoAPI ℝ O} {opac : O} {r : MeanRanges} {a b : ℝ} {N : ℕ} {m : MeanOpacityBase ℝ}
    (h : AbsorptionMeans inst opac r a b N m) (hN : 0 < N) (hr : r.Proper) (ha : 0 < a) (hab : a < b)
    (hpc : PosPC d.pc) (hd : 0 < d.NSPECIES)
    (hB : ∀ T s ν, inst.ThermalDistributionOfTNu opac T s ν = d.ThermalDistributionOfTNu T ν)
    (hD : ∀ T s ν, inst.DThermalDistributionOfTNuDT opac T s ν = d.DThermalDistributionOfTNuDT T ν)
    {α : ℝ → ℝ → ℝ → RadiationType → ℝ → ℝ}
    (hα : ∀ rho T Ye s ν, 0 < rho → 0 < T → 0 < ν → inst.AbsorptionCoefficient opac rho T Ye s ν = ok (α rho T Ye s ν) ∧
      0 ≤ α rho T Ye s ν)
    {i j k : ℕ} {rho temp Ye : ℝ} (hn : AtNode r i j k rho temp Ye) {s : RadiationType} (hs : Tabulated s)
    {ρ T Λ δ ε : ℝ} {D : ℝ → ℝ} (hρ : ρ = r.rhoNode i) (hT : T = r.TNode j)
    (hD' : D = fun ν => deriv (fun T => fermiDiracLaw d.NSPECIES d.pc.h d.pc.kb d.pc.c T ν) T)
    (hδ : δ = log (b / a) / N)
    (hα0 : ∀ ν ∈ Set.Icc a b, 0 < α ρ T Ye s ν) (hΛ : 0 ≤ Λ) (hslope : SlopeAtMost Λ a b (α ρ T Ye s))
    (hε : tiny * log 10 ≤ ε * ∫ ν in a..b, fermiDiracLaw d.NSPECIES d.pc.h d.pc.kb d.pc.c T ν) :
    (∀ n, n = max 4 (d.pc.h * b / (d.pc.kb * T)) →
      ∃ κ, MeanNeutrinoAPI.PlanckMeanAbsorptionCoefficient m rho temp Ye s = ok (rho * (κ + tiny)) ∧
      exp (-((n + Λ / 2) * δ + ε)) * windowPlanckMean ρ a b (fermiDiracLaw d.NSPECIES d.pc.h d.pc.kb d.pc.c T) (α ρ T Ye s) ≤ κ ∧
      κ ≤ exp ((n + Λ / 2) * δ + ε) * windowPlanckMean ρ a b (fermiDiracLaw d.NSPECIES d.pc.h d.pc.kb d.pc.c T) (α ρ T Ye s)) ∧
    ∀ n, n = max 5 (d.pc.h * b / (d.pc.kb * T)) →
      (∀ ν ∈ Set.Icc a b, tiny ≤ ε * α ρ T Ye s ν ∧ tiny ≤ ε * (α ρ T Ye s ν / ρ)) →
      tiny * log 10 ≤ ε * (∫ ν in a..b, ρ / α ρ T Ye s ν * D ν) → ε * exp ((n + Λ / 2) * δ) ≤ 1 / 4 →
      ∃ κ, MeanNeutrinoAPI.RosselandMeanAbsorptionCoefficient m rho temp Ye s = ok (rho * (κ + tiny)) ∧
      exp (-((n + Λ / 2) * δ + ε)) * windowRosselandMean ρ a b D (α ρ T Ye s) ≤ κ ∧
      κ ≤ exp ((n + Λ / 2) * δ + ε) * windowRosselandMean ρ a b D (α ρ T Ye s) := by
  have hρ0 : 0 < ρ := hρ ▸ (node_pos r i).1
  have hT0 : 0 < T := hT ▸ (node_pos r j).2
  have eB : inst.ThermalDistributionOfTNu opac = fun T _ ν => d.ThermalDistributionOfTNu T ν :=
    funext fun T => funext fun s => funext fun ν => hB T s ν
  have eD : inst.DThermalDistributionOfTNuDT opac = fun T _ ν => d.DThermalDistributionOfTNuDT T ν :=
    funext fun T => funext fun s => funext fun ν => hD T s ν
  have hg : (0 : ℝ) < d.NSPECIES := by exact_mod_cast hd
  have hnn : NonnegCoefficients inst opac := by
    intro rho T Ye s ν v p1 p2 p3 hv
    obtain ⟨e, e0⟩ := hα rho T Ye s ν p1 p2 p3
    rw [e] at hv
    cases hv
    exact e0
  obtain ⟨α', KP, KR, hM⟩ := C52_absorption h hr hab hN
    (fun T s ν hT hν => ⟨by rw [eB]; show 0 < d.ThermalDistributionOfTNu T ν; rw [fermi_eq]; exact fermi_pos hpc hg hν,
      by rw [eD]; exact fermiDT_pos hd hpc hT hν⟩) hnn hn hs
  have hsame : ∀ m < N, α' m = α ρ T Ye s (binCentre a b N m) := by
    intro m hm
    have := hM.samples m hm
    rw [← hρ, ← hT, ← hn.Ye, (hα ρ T Ye s _ hρ0 hT0 (Photons.binCentre_pos a b N m)).1] at this
    exact (Outcome.ok.inj this).symm
  rw [eB, eD] at hM
  obtain ⟨q1, q2⟩ := meansAt_error hpc hd hM ha hab hN hρ hT hsame hδ hα0 hΛ hslope
  exact ⟨fun n hm => ⟨KP, hM.P, q1 hm hε⟩, fun n hm a1 a2 a3 => ⟨KR, hM.Q, q2 hm hD' a1 hε a2 a3⟩⟩

/-- **C87 (neutrinos, scattering)**: the same for scattering, with the 100 frequencies that the code uses, whatever number was asked
for. -/
theorem C87_neutrino_scattering {O : Type} {inst : NeutrinoSAPI ℝ O} {opac : O} {r : MeanRanges} {a b : ℝ} {NNu : ℤ}
    {m : MeanSOpacityBase ℝ} (h : ScatteringMeans inst d opac r a b NNu m) (hr : r.Proper) (ha : 0 < a) (hab : a < b)
    (hpc : PosPC d.pc) (hd : 0 < d.NSPECIES)
    (hα : ∀ rho T Ye s ν, 0 < rho → 0 < T → 0 < ν → 0 ≤ inst.TotalScatteringCoefficient opac rho T Ye s ν)
    {i j k : ℕ} {rho temp Ye : ℝ} (hn : AtNode r i j k rho temp Ye) {s : RadiationType} (hs : Tabulated s)
    {ρ T Λ δ ε : ℝ} {D α : ℝ → ℝ} (hρ : ρ = r.rhoNode i) (hT : T = r.TNode j)
    (hD' : D = fun ν => deriv (fun T => fermiDiracLaw d.NSPECIES d.pc.h d.pc.kb d.pc.c T ν) T)
    (hδ : δ = log (b / a) / 100) (hα' : α = inst.TotalScatteringCoefficient opac ρ T Ye s)
    (hα0 : ∀ ν ∈ Set.Icc a b, 0 < α ν) (hΛ : 0 ≤ Λ) (hslope : SlopeAtMost Λ a b α)
    (hε : tiny * log 10 ≤ ε * ∫ ν in a..b, fermiDiracLaw d.NSPECIES d.pc.h d.pc.kb d.pc.c T ν) :
    (∀ n, n = max 4 (d.pc.h * b / (d.pc.kb * T)) →
      ∃ κ, MeanNeutrinoSAPI.PlanckMeanTotalScatteringCoefficient m rho temp Ye s = ok (rho * (κ + tiny)) ∧
      exp (-((n + Λ / 2) * δ + ε)) * windowPlanckMean ρ a b (fermiDiracLaw d.NSPECIES d.pc.h d.pc.kb d.pc.c T) α ≤ κ ∧
      κ ≤ exp ((n + Λ / 2) * δ + ε) * windowPlanckMean ρ a b (fermiDiracLaw d.NSPECIES d.pc.h d.pc.kb d.pc.c T) α) ∧
    ∀ n, n = max 5 (d.pc.h * b / (d.pc.kb * T)) →
      (∀ ν ∈ Set.Icc a b, tiny ≤ ε * α ν ∧ tiny ≤ ε * (α ν / ρ)) →
      tiny * log 10 ≤ ε * (∫ ν in a..b, ρ / α ν * D ν) → ε * exp ((n + Λ / 2) * δ) ≤ 1 / 4 →
      ∃ κ, MeanNeutrinoSAPI.RosselandMeanTotalScatteringCoefficient m rho temp Ye s = ok (rho * (κ + tiny)) ∧
      exp (-((n + Λ / 2) * δ + ε)) * windowRosselandMean ρ a b D α ≤ κ ∧
      κ ≤ exp ((n + Λ / 2) * δ + ε) * windowRosselandMean ρ a b D α := by
  obtain ⟨α', KP, KR, hM⟩ := C52_scattering_partial h hr hab hd hpc hα hn hs
  have hsame : ∀ m < 100, α' m = α (binCentre a b 100 m) := by
    intro m hm
    have := hM.samples m hm
    rw [← hρ, ← hT, ← hn.Ye] at this
    rw [hα']
    exact (Outcome.ok.inj this).symm
  obtain ⟨q1, q2⟩ := meansAt_error hpc hd hM ha hab (by norm_num) hρ hT hsame (δ := δ) (by rw [hδ]; norm_num) hα0 hΛ hslope
  exact ⟨fun n hm => ⟨KP, hM.P, q1 hm hε⟩, fun n hm a1 a2 a3 => ⟨KR, hM.Q, q2 hm hD' a1 hε a2 a3⟩⟩

end

/-- the hypotheses of `C87_neutrino_absorption` are met by gray absorption between the frequencies 1 and 10 -/
example (d : FermiDirac ℝ) (pc : PC ℝ) (h1 : d.pc.h = 1) (h2 : d.pc.kb = 1) (h3 : d.pc.c = 1) (hd : d.NSPECIES = 1)
    (hpc : PosPC d.pc) :
    ∃ (m : MeanOpacityBase ℝ) (κP κR : ℝ),
      AbsorptionMeans (inferInstance : NeutrinoAPI ℝ (GrayOpacity ℝ)) ⟨d, pc, 2⟩ twoNodes ((10 : ℝ) ^ (0 : ℝ)) ((10 : ℝ) ^ (1 : ℝ)) 1000 m ∧
      MeanNeutrinoAPI.PlanckMeanAbsorptionCoefficient m (10 - tiny) (10 - tiny) 1 .NU_HEAVY = ok ((10 - tiny) * (κP + tiny)) ∧
      MeanNeutrinoAPI.RosselandMeanAbsorptionCoefficient m (10 - tiny) (10 - tiny) 1 .NU_HEAVY = ok ((10 - tiny) * (κR + tiny)) ∧
      (1.88 ≤ κP ∧ κP ≤ 2.13) ∧ 1.88 ≤ κR ∧ κR ≤ 2.13 := by
  obtain ⟨m, hm⟩ : ∃ m, MeanOpacityBase.construct false pc (fun _ _ => 0) (⟨d, pc, 2⟩ : GrayOpacity ℝ)
      twoNodes.lRhoMin twoNodes.lRhoMax twoNodes.NRho twoNodes.lTMin twoNodes.lTMax twoNodes.NT twoNodes.YeMin twoNodes.YeMax
      twoNodes.NYe 0 1 ((1000 : ℕ) : ℤ) = ok m := absorption_returns (fun _ _ _ _ _ => ⟨_, rfl⟩)
  have hA := AbsorptionMeans.window (inst := inferInstance) (r := twoNodes) hm
  refine ⟨m, ?_⟩
  have e0 : (10 : ℝ) ^ (0 : ℝ) = 1 := Real.rpow_zero 10
  have e1 : (10 : ℝ) ^ (1 : ℝ) = 10 := Real.rpow_one 10
  have htiny := tiny_pos
  have hsmall : tiny ≤ 1e-20 := by
    unfold tiny
    have h := zpow_le_zpow_right₀ (show (1 : ℝ) ≤ 2 by norm_num) (show (-1022 : ℤ) ≤ -80 by norm_num)
    have h2 : (2 : ℝ) ^ (-80 : ℤ) ≤ 1e-23 := by norm_num
    have h3 := h.trans h2
    generalize (2 : ℝ) ^ (-1022 : ℤ) = x at *
    norm_num at h3 ⊢
    linarith
  have hl10 : log 10 ≤ 10 := by have := Real.log_le_sub_one_of_pos (show (0 : ℝ) < 10 by norm_num); linarith
  have hl0 : 0 < log 10 := Real.log_pos (by norm_num)
  have hsub : Set.uIcc (1 : ℝ) 10 ⊆ Set.Ioi 0 := by
    rw [Set.uIcc_of_le (by norm_num)]
    exact fun x hx => lt_of_lt_of_le one_pos hx.1
  have c1 := (fermi_continuous hpc 10).1
  have c2 := (fermi_continuous hpc 10).2
  have b1 : ∫ _ in (1 : ℝ)..10, (1 / 2 : ℝ) ≤ ∫ ν in (1 : ℝ)..10, d.ThermalDistributionOfTNu 10 ν :=
    intervalIntegral.integral_mono_on (by norm_num) intervalIntegrable_const (c1.mono hsub).intervalIntegrable
      fun ν hν => (fermi_lower h1 h2 h3 hd hν.1 hν.2).1
  have b2 : ∫ _ in (1 : ℝ)..10, (1 / 600 : ℝ) ≤ ∫ ν in (1 : ℝ)..10, d.DThermalDistributionOfTNuDT 10 ν :=
    intervalIntegral.integral_mono_on (by norm_num) intervalIntegrable_const (c2.mono hsub).intervalIntegrable
      fun ν hν => (fermi_lower h1 h2 h3 hd hν.1 hν.2).2
  rw [intervalIntegral.integral_const, smul_eq_mul] at b1 b2
  have ef : d.ThermalDistributionOfTNu 10 = fermiDiracLaw d.NSPECIES d.pc.h d.pc.kb d.pc.c 10 := funext fun ν => fermi_eq d 10 ν
  have hsl : tiny * log 10 ≤ 1e-7 * (1 / 600) := by
    have : tiny * log 10 ≤ 1e-20 * 10 := mul_le_mul hsmall hl10 hl0.le (by norm_num)
    exact this.trans (by norm_num)
  obtain ⟨δ, hδ⟩ : ∃ δ, δ = log ((10 : ℝ) ^ (1 : ℝ) / (10 : ℝ) ^ (0 : ℝ)) / ((1000 : ℕ) : ℝ) := ⟨_, rfl⟩
  have hδ1 : 0 ≤ δ ∧ δ ≤ 1e-2 := by
    rw [hδ, e0, e1, div_one]
    constructor
    · positivity
    · rw [div_le_iff₀ (by norm_num)]; norm_num; linarith
  have hlow : ∀ n : ℝ, n ≤ 5 → 0.94 ≤ exp (-((n + (0 : ℝ) / 2) * δ + 1e-7)) := by
    intro n hn
    have := Real.add_one_le_exp (-((n + (0 : ℝ) / 2) * δ + 1e-7))
    norm_num at hδ1 this ⊢
    nlinarith
  have hup : ∀ n : ℝ, n ≤ 5 → exp ((n + (0 : ℝ) / 2) * δ + 1e-7) ≤ 1.064 := by
    intro n hn
    have h1 := hlow n hn
    generalize (n + (0 : ℝ) / 2) * δ + 1e-7 = E at *
    have h2 : exp E * exp (-E) = 1 := by rw [← Real.exp_add]; simp
    have h3 := Real.exp_pos E
    norm_num at h1 ⊢
    nlinarith
  have m4 : (4 : ℝ) = max 4 (d.pc.h * (10 : ℝ) ^ (1 : ℝ) / (d.pc.kb * 10)) := by rw [h1, h2, e1]; norm_num
  have m5 : (5 : ℝ) = max 5 (d.pc.h * (10 : ℝ) ^ (1 : ℝ) / (d.pc.kb * 10)) := by rw [h1, h2, e1]; norm_num
  obtain ⟨q1, q2⟩ := C87_neutrino_absorption (d := d) hA (by norm_num) twoNodes_proper (by norm_num) (by norm_num) hpc (by omega)
    (fun _ _ _ => rfl) (fun _ _ _ => rfl) (α := fun rho _ _ _ _ => rho * 2) (fun rho T Ye s ν hr _ _ => ⟨rfl, by positivity⟩)
    twoNodes_at (s := .NU_HEAVY) (.inr (.inr rfl)) (ρ := 10) (T := 10) (Λ := 0) (ε := 1e-7) twoNodes_eq.1.symm twoNodes_eq.2.1.symm
    rfl hδ (fun _ _ => by norm_num) (le_refl _) (fun x _ y _ => by simp)
    (by
      rw [← ef, e0, e1]
      refine hsl.trans (mul_le_mul_of_nonneg_left ?_ (by norm_num))
      norm_num at b1 ⊢
      linarith)
  have mP : windowPlanckMean 10 ((10 : ℝ) ^ (0 : ℝ)) ((10 : ℝ) ^ (1 : ℝ)) (fermiDiracLaw d.NSPECIES d.pc.h d.pc.kb d.pc.c 10)
      (fun _ => (10 : ℝ) * 2) = 2 := by
    unfold windowPlanckMean
    rw [← ef, e0, e1, intervalIntegral.integral_const_mul, mul_div_assoc, div_self (by norm_num at b1; linarith)]
    norm_num
  have mR : windowRosselandMean 10 ((10 : ℝ) ^ (0 : ℝ)) ((10 : ℝ) ^ (1 : ℝ))
      (fun ν => deriv (fun T => fermiDiracLaw d.NSPECIES d.pc.h d.pc.kb d.pc.c T ν) 10) (fun _ => (10 : ℝ) * 2) = 2 := by
    unfold windowRosselandMean
    rw [← fermiDT_deriv hpc (by norm_num), e0, e1, intervalIntegral.integral_const_mul, div_mul_eq_div_div_swap,
      div_self (by norm_num at b2; linarith)]
    norm_num
  obtain ⟨κP, p1, p2, p3⟩ := q1 4 m4
  obtain ⟨κR, r1, r2, r3⟩ := q2 5 m5 (fun _ _ => by norm_num at hsmall ⊢; constructor <;> linarith)
    (by
      rw [intervalIntegral.integral_const_mul, ← fermiDT_deriv hpc (by norm_num), e0, e1]
      have : tiny * log 10 ≤ 1e-20 * 10 := mul_le_mul hsmall hl10 hl0.le (by norm_num)
      norm_num at b2 this ⊢
      linarith)
    (by
      have : exp ((5 + (0 : ℝ) / 2) * δ) ≤ 1.064 := le_trans (Real.exp_le_exp.2 (by norm_num)) (hup 5 (le_refl _))
      refine (mul_le_mul_of_nonneg_left this (by norm_num)).trans (by norm_num))
  rw [mP] at p2 p3
  rw [mR] at r2 r3
  have l4 := hlow 4 (by norm_num); have l5 := hlow 5 (le_refl _)
  have u4 := hup 4 (by norm_num); have u5 := hup 5 (le_refl _)
  norm_num at l4 l5 u4 u5
  refine ⟨κP, κR, hA, p1, r1, ⟨?_, ?_⟩, ?_, ?_⟩ <;> norm_num at * <;> linarith

/-- the hypotheses of `C87_neutrino_scattering` are met by gray scattering -/
example (d : FermiDirac ℝ) (h1 : d.pc.h = 1) (h2 : d.pc.kb = 1) (h3 : d.pc.c = 1) (hd : d.NSPECIES = 1) (hpc : PosPC d.pc) :
    ∃ (m : MeanSOpacityBase ℝ) (κ δ : ℝ),
      ScatteringMeans (inferInstance : NeutrinoSAPI ℝ (GraySOpacity ℝ)) d ⟨1, 1⟩ twoNodes ((10 : ℝ) ^ (0 : ℝ)) ((10 : ℝ) ^ (1 : ℝ)) 7 m ∧
      δ = log ((10 : ℝ) ^ (1 : ℝ) / (10 : ℝ) ^ (0 : ℝ)) / 100 ∧
      MeanNeutrinoSAPI.PlanckMeanTotalScatteringCoefficient m (10 - tiny) (10 - tiny) 1 .NU_HEAVY = ok ((10 - tiny) * (κ + tiny)) ∧
      exp (-((4 + (0 : ℝ) / 2) * δ + 1)) * windowPlanckMean 10 ((10 : ℝ) ^ (0 : ℝ)) ((10 : ℝ) ^ (1 : ℝ))
        (fermiDiracLaw d.NSPECIES d.pc.h d.pc.kb d.pc.c 10) (fun _ => (10 / 1) * 1) ≤ κ := by
  obtain ⟨m, hm⟩ := scattering_returns (inst := inferInstance) (dist := d) (opac := (⟨1, 1⟩ : GraySOpacity ℝ)) (pc := d.pc)
    (junk := fun _ _ => 0) (r := twoNodes) (l1 := 0) (l2 := 1) (NNu := 7)
  have hA := ScatteringMeans.window (inst := inferInstance) (r := twoNodes) hm
  have e0 : (10 : ℝ) ^ (0 : ℝ) = 1 := Real.rpow_zero 10
  have e1 : (10 : ℝ) ^ (1 : ℝ) = 10 := Real.rpow_one 10
  have htiny := tiny_pos
  have hl10 : log 10 ≤ 10 := by have := Real.log_le_sub_one_of_pos (show (0 : ℝ) < 10 by norm_num); linarith
  have hl0 : 0 < log 10 := Real.log_pos (by norm_num)
  have hsub : Set.uIcc (1 : ℝ) 10 ⊆ Set.Ioi 0 := by
    rw [Set.uIcc_of_le (by norm_num)]
    exact fun x hx => lt_of_lt_of_le one_pos hx.1
  have b1 : ∫ _ in (1 : ℝ)..10, (1 / 2 : ℝ) ≤ ∫ ν in (1 : ℝ)..10, d.ThermalDistributionOfTNu 10 ν :=
    intervalIntegral.integral_mono_on (by norm_num) intervalIntegrable_const ((fermi_continuous hpc 10).1.mono hsub).intervalIntegrable
      fun ν hν => (fermi_lower h1 h2 h3 hd hν.1 hν.2).1
  rw [intervalIntegral.integral_const, smul_eq_mul] at b1
  have ef : d.ThermalDistributionOfTNu 10 = fermiDiracLaw d.NSPECIES d.pc.h d.pc.kb d.pc.c 10 := funext fun ν => fermi_eq d 10 ν
  obtain ⟨κ, k1, k2, -⟩ := (C87_neutrino_scattering hA twoNodes_proper (by norm_num) (by norm_num) hpc (by omega)
    (fun rho T Ye s ν hr _ _ => by show 0 ≤ rho / 1 * 1; positivity)
    twoNodes_at (s := .NU_HEAVY) (.inr (.inr rfl)) (ρ := 10) (T := 10) (Λ := 0) (ε := 1) (α := fun _ => (10 / 1) * 1)
    twoNodes_eq.1.symm twoNodes_eq.2.1.symm
    rfl rfl rfl (fun _ _ => by norm_num) (le_refl _) (fun x _ y _ => by simp)
    (by
      rw [← ef, e0, e1]
      have := tiny_small
      norm_num at b1 ⊢
      nlinarith)).1 4 (by rw [h1, h2, e1]; norm_num)
  exact ⟨m, κ, _, hA, rfl, k1, k2⟩

end Opac.Neutrinos.MeanTables
