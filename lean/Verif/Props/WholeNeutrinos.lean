import Verif.Props.NeutrinoMeanLimits
import Verif.Lemmas.WholeFermi

/-!
# C84: how much the default frequency window of neutrino means loses

Over the reals.  The window that the constructors choose when they are given none reaches from `10⁻³ k T_min / h` to
`10³ k T_max / h`.
-/

namespace Opac.Neutrinos.MeanTables
open Arith Outcome Spiner Photons Spec Filter Topology MeasureTheory
open SpinerOpacity (equi tiny Tabulated tiny_pos)

theorem TNode_between {r : MeanRanges} (hr : r.Proper) {j : ℕ} (hj : (j : ℤ) < r.NT) :
    (10 : ℝ) ^ r.lTMin ≤ r.TNode j ∧ r.TNode j ≤ (10 : ℝ) ^ r.lTMax := by
  obtain ⟨hN, hl⟩ := hr.T
  have hN' : (2 : ℝ) ≤ r.NT := by exact_mod_cast hN
  have hj' : (j : ℝ) ≤ r.NT - 1 := by
    have : (j : ℤ) ≤ r.NT - 1 := by omega
    exact_mod_cast this
  have hd : 0 < (r.lTMax - r.lTMin) / (r.NT - 1) := div_pos (by linarith) (by linarith)
  have hj0 : (0 : ℝ) ≤ j := Nat.cast_nonneg j
  have e : ((r.NT : ℝ) - 1) * ((r.lTMax - r.lTMin) / (r.NT - 1)) = r.lTMax - r.lTMin := by
    have : (r.NT : ℝ) - 1 ≠ 0 := by linarith
    field_simp
  have h1 := mul_nonneg hj0 hd.le
  have h2 := mul_le_mul_of_nonneg_right hj' hd.le
  unfold MeanRanges.TNode equi
  exact ⟨Real.rpow_le_rpow_of_exponent_le (by norm_num) (by linarith), Real.rpow_le_rpow_of_exponent_le (by norm_num) (by linarith)⟩

/-- **C84 (window)**: the default window reaches, at every temperature of the table, from at most `1.001·10⁻³ kT/h` to at least
`10³ kT/h` -/
theorem C84_window {pc : PC ℝ} (hk : 0 < pc.kb) (hh : 0 < pc.h) {r : MeanRanges} (hr : r.Proper) {j : ℕ} (hj : (j : ℤ) < r.NT)
    {T : ℝ} (hT : T = r.TNode j) (hsmall : tiny ≤ 1e-6 * (pc.kb * T / pc.h)) :
    (thermalWindow pc r).1 ≤ 1.001e-3 * (pc.kb * T / pc.h) ∧ 1e3 * (pc.kb * T / pc.h) ≤ (thermalWindow pc r).2 := by
  obtain ⟨h1, h2⟩ := TNode_between hr hj
  rw [← hT] at h1 h2
  have ht := tiny_pos
  have m1 : pc.kb * (10 : ℝ) ^ r.lTMin / pc.h ≤ pc.kb * T / pc.h := by gcongr
  have m2 : pc.kb * T / pc.h ≤ pc.kb * (10 : ℝ) ^ r.lTMax / pc.h := by gcongr
  unfold thermalWindow
  rw [show 1e-3 * pc.kb * (10 : ℝ) ^ r.lTMin / pc.h = 1e-3 * (pc.kb * (10 : ℝ) ^ r.lTMin / pc.h) by ring,
    show 1e3 * pc.kb * (10 : ℝ) ^ r.lTMax / pc.h = 1e3 * (pc.kb * (10 : ℝ) ^ r.lTMax / pc.h) by ring]
  constructor
  · norm_num at hsmall ⊢
    linarith
  · norm_num
    linarith

/-- **C84 (Planck mean)**: let a source have a bounded absorption coefficient and the thermal distribution of neutrinos, and let
its mean be taken over the default window, or over a wider one.  As the number of frequencies grows, the mean at every node and
for every species tends to the mean over all frequencies, up to `10⁻¹³` of the bound. -/
theorem C84_planck {O : Type} {inst : NeutrinoAPI ℝ O} {opac : O} {r : MeanRanges} {a b : ℝ} {m : ℕ → MeanOpacityBase ℝ}
    (h : ∀ N, 0 < N → AbsorptionMeans inst opac r a b N (m N)) (hr : r.Proper) (ha : 0 < a)
    {d : FermiDirac ℝ} (hpc : PosPC d.pc) (hd : 0 < d.NSPECIES)
    (hB : ∀ T s ν, inst.ThermalDistributionOfTNu opac T s ν = d.ThermalDistributionOfTNu T ν)
    (hD : ∀ T s ν, inst.DThermalDistributionOfTNuDT opac T s ν = d.DThermalDistributionOfTNuDT T ν)
    (hwin : a ≤ (thermalWindow d.pc r).1 ∧ (thermalWindow d.pc r).2 ≤ b)
    {α : ℝ → ℝ → ℝ → RadiationType → ℝ → ℝ}
    (hα : ∀ rho T Ye s ν, 0 < rho → 0 < T → 0 < ν → inst.AbsorptionCoefficient opac rho T Ye s ν = ok (α rho T Ye s ν) ∧
      0 ≤ α rho T Ye s ν)
    {i j k : ℕ} {rho temp Ye : ℝ} (hn : AtNode r i j k rho temp Ye) {s : RadiationType} (hs : Tabulated s)
    {ρ T K : ℝ} (hρ : ρ = r.rhoNode i) (hT : T = r.TNode j) (htame : Tame a b (α ρ T Ye s)) (hmeas : Measurable (α ρ T Ye s))
    (hK : ∀ ν, 0 < ν → α ρ T Ye s ν ≤ K) (h1 : tiny ≤ 1e-6 * (d.pc.kb * T / d.pc.h))
    (h2 : tiny ≤ 1e-14 * ((d.pc.kb * T) ^ 4 / (d.pc.h ^ 3 * d.pc.c ^ 2))) :
    ∃ (κ : ℕ → ℝ) (L : ℝ),
      (∀ N, 0 < N → MeanNeutrinoAPI.PlanckMeanAbsorptionCoefficient (m N) rho temp Ye s = ok (rho * κ N)) ∧
      Tendsto κ atTop (𝓝 L) ∧
      |L - (wholeMean ρ (fermiDiracLaw d.NSPECIES d.pc.h d.pc.kb d.pc.c T) (α ρ T Ye s) + tiny)| ≤ 1e-13 * (K / ρ) := by
  have hρ0 : 0 < ρ := hρ ▸ (node_pos r i).1
  have hT0 : 0 < T := hT ▸ (node_pos r j).2
  have eB : ∀ T s, inst.ThermalDistributionOfTNu opac T s = d.ThermalDistributionOfTNu T := fun T s => funext fun ν => hB T s ν
  have eD : ∀ T s, inst.DThermalDistributionOfTNuDT opac T s = d.DThermalDistributionOfTNuDT T := fun T s => funext fun ν => hD T s ν
  obtain ⟨w1, w2⟩ := C84_window hpc.kb hpc.h hr hn.tempJ hT h1
  have hq : 0 < d.pc.kb * T / d.pc.h := div_pos (mul_pos hpc.kb hT0) hpc.h
  have hQ : 0 < (d.pc.kb * T) ^ 4 / (d.pc.h ^ 3 * d.pc.c ^ 2) := by
    have := hpc.kb; have := hpc.h; have := hpc.c
    positivity
  have a1 := hwin.1.trans w1
  have b1 := w2.trans hwin.2
  have hab : a < b := by norm_num at a1 b1; linarith
  have hg : (1 : ℝ) ≤ d.NSPECIES := by exact_mod_cast hd
  obtain ⟨κP, κR, e1, e2, -⟩ := C66_absorption h hr ha hab
    (fun T s ν hT hν => ⟨by rw [eB, fermi_eq]; exact fermi_pos hpc (by linarith) hν, by rw [eD]; exact fermiDT_pos hd hpc hT hν⟩)
    hα hn hs hρ hT htame (by rw [eB]; exact tame_of_continuous ha (fermi_continuous hpc _).1)
    (by rw [eD]; exact tame_of_continuous ha (fermi_continuous hpc _).2)
  refine ⟨κP, _, fun N hN => (e1 N hN).1, e2, ?_⟩
  rw [add_sub_add_right_eq_sub, eB]
  have ef : d.ThermalDistributionOfTNu T = fermiDiracLaw d.NSPECIES d.pc.h d.pc.kb d.pc.c T := funext fun ν => fermi_eq d T ν
  rw [ef]
  obtain ⟨i1, i2⟩ := WholeFermi.fermi_law_integral (g := d.NSPECIES) hpc.h hpc.kb hpc.c hT0
  have hpi : 81 ≤ Real.pi ^ 4 := by
    have := pow_le_pow_left₀ (by norm_num) Real.pi_gt_three.le 4
    norm_num at this
    linarith
  have hlow : 9 * ((d.pc.kb * T) ^ 4 / (d.pc.h ^ 3 * d.pc.c ^ 2)) ≤
      ∫ ν in Set.Ioi (0 : ℝ), fermiDiracLaw d.NSPECIES d.pc.h d.pc.kb d.pc.c T ν := by
    rw [i2]
    generalize (d.pc.kb * T) ^ 4 / (d.pc.h ^ 3 * d.pc.c ^ 2) = Q at *
    have m3 : 9 * Q ≤ 7 * Real.pi ^ 4 / 60 * Q := mul_le_mul_of_nonneg_right (by linarith) hQ.le
    nlinarith
  have hlog : Real.log 10 ≤ 9 := by have := Real.log_le_sub_one_of_pos (show (0 : ℝ) < 10 by norm_num); linarith
  have hlog0 : 0 ≤ Real.log 10 := Real.log_nonneg (by norm_num)
  have ht := tiny_pos
  refine (WholeFermi.mean_near i1 (fun ν hν => WholeFermi.fermi_law_nonneg (by linarith) hpc.h hν) ha.le hab.le hρ0
    hmeas.aestronglyMeasurable (fun ν hν => (hα ρ T Ye s ν hρ0 hT0 hν).2) hK rfl (by linarith)
    (WholeFermi.fermi_lost (by linarith) hpc.h hpc.kb hpc.c hT0 ha.le a1 b1) ht.le (δ := 1e-14) ?_ (by norm_num) (by norm_num)
    (by norm_num)).trans ?_
  · calc tiny * Real.log 10 ≤ tiny * 9 := mul_le_mul_of_nonneg_left hlog ht.le
      _ ≤ 1e-14 * ((d.pc.kb * T) ^ 4 / (d.pc.h ^ 3 * d.pc.c ^ 2)) * 9 := mul_le_mul_of_nonneg_right h2 (by norm_num)
      _ = 1e-14 * (9 * ((d.pc.kb * T) ^ 4 / (d.pc.h ^ 3 * d.pc.c ^ 2))) := by ring
      _ ≤ _ := mul_le_mul_of_nonneg_left hlow (by norm_num)
  · have hK0 : 0 ≤ K := ((hα ρ T Ye s 1 hρ0 hT0 one_pos).2).trans (hK 1 one_pos)
    refine mul_le_mul_of_nonneg_right ?_ (div_nonneg hK0 hρ0.le)
    norm_num

theorem tiny_smaller : tiny ≤ 1e-14 := by
  unfold tiny
  have h : (2 : ℝ) ^ (-1022 : ℤ) ≤ 2 ^ (-80 : ℤ) := zpow_le_zpow_right₀ (by norm_num) (by norm_num)
  have h2 : (2 : ℝ) ^ (-80 : ℤ) ≤ 1e-15 := by norm_num
  have h3 := h.trans h2
  generalize (2 : ℝ) ^ (-1022 : ℤ) = x at *
  norm_num at *
  linarith

/-- the hypotheses of `C84_planck` are met: tables of a tophat emissivity -/
example (d : FermiDirac ℝ) (pc : PC ℝ) (h1 : d.pc.h = 1) (h2 : d.pc.kb = 1) (h3 : d.pc.c = 1) (hd : 0 < d.NSPECIES)
    (hpc : PosPC d.pc) :
    ∃ (m : ℕ → MeanOpacityBase ℝ) (κ : ℕ → ℝ) (L K : ℝ),
      (∀ N, 0 < N → AbsorptionMeans (inferInstance : NeutrinoAPI ℝ (TophatEmissivity ℝ)) ⟨d, pc, 1, 2, 5⟩ twoNodes
        ((10 : ℝ) ^ (-3 : ℝ)) ((10 : ℝ) ^ (5 : ℝ)) N (m N)) ∧
      (∀ N, 0 < N → MeanNeutrinoAPI.PlanckMeanAbsorptionCoefficient (m N) (10 - tiny) (10 - tiny) 1 .NU_HEAVY =
        ok ((10 - tiny) * κ N)) ∧ Tendsto κ atTop (𝓝 L) ∧
      |L - (wholeMean 10 (fermiDiracLaw d.NSPECIES 1 1 1 10)
        ((⟨d, pc, 1, 2, 5⟩ : TophatEmissivity ℝ).AbsorptionCoefficient 10 10 1 .NU_HEAVY) + tiny)| ≤ 1e-13 * (K / 10) := by
  have ht : ∀ N : ℕ, ∃ m, MeanOpacityBase.construct false pc (fun _ _ => 0) (⟨d, pc, 1, 2, 5⟩ : TophatEmissivity ℝ)
      twoNodes.lRhoMin twoNodes.lRhoMax twoNodes.NRho twoNodes.lTMin twoNodes.lTMax twoNodes.NT twoNodes.YeMin twoNodes.YeMax
      twoNodes.NYe (-3) 5 (N : ℤ) = ok m := fun N => absorption_returns (fun _ _ _ _ _ => ⟨_, rfl⟩)
  choose m hm using ht
  have hA := fun N (_ : 0 < N) => AbsorptionMeans.window (inst := inferInstance) (r := twoNodes) (hm N)
  have hp : (0 : ℝ) < (10 : ℝ) ^ (-3 : ℝ) := by positivity
  have hs := tiny_smaller
  have ht0 := tiny_pos
  obtain ⟨J, hJ⟩ : ∃ J : ℝ, J = 1 * TophatEmissivity.GetYeF .NU_HEAVY (1 : ℝ) := ⟨_, rfl⟩
  have e := fun rho T ν => tophat_formula (o := ⟨d, pc, 1, 2, 5⟩) rho T 1 .NU_HEAVY ν hJ
  have hE : (0 : ℝ) < FermiDirac.EPS := by unfold FermiDirac.EPS; simp only [areal]; positivity
  have hS := SMALL_pos
  obtain ⟨κ, L, e1, e2, e3⟩ := C84_planck hA twoNodes_proper hp hpc hd (fun _ _ _ => rfl) (fun _ _ _ => rfl)
    (by
      unfold thermalWindow
      rw [h1, h2]
      simp only [twoNodes]
      constructor
      · rw [show (-3 : ℝ) = ((-3 : ℤ) : ℝ) by norm_num, Real.rpow_intCast]
        norm_num
        exact ht0.le
      · rw [show (5 : ℝ) = ((5 : ℕ) : ℝ) by norm_num, Real.rpow_natCast]
        norm_num at hs ⊢
        linarith)
    (α := fun rho T Ye s ν => (⟨d, pc, 1, 2, 5⟩ : TophatEmissivity ℝ).AbsorptionCoefficient rho T Ye s ν)
    (fun rho T Ye s ν _ _ _ => ⟨rfl, (C66_tophat (o := ⟨d, pc, 1, 2, 5⟩) (b := 1) hpc one_pos rho T Ye s).2 ν⟩)
    twoNodes_at (s := .NU_HEAVY) (.inr (.inr rfl)) (ρ := 10) (T := 10) (K := max |J| FermiDirac.EPS / FermiDirac.EPS / (4 * Real.pi))
    twoNodes_eq.1.symm twoNodes_eq.2.1.symm (C66_tophat (o := ⟨d, pc, 1, 2, 5⟩) hpc hp _ _ _ _).1
    (by
      have hB : Measurable (d.ThermalDistributionOfTNu 10) := by
        have : d.ThermalDistributionOfTNu 10 = fermiDiracLaw d.NSPECIES d.pc.h d.pc.kb d.pc.c 10 := funext fun ν => fermi_eq d 10 ν
        rw [this]
        unfold fermiDiracLaw
        fun_prop
      rw [show (fun ν => (⟨d, pc, 1, 2, 5⟩ : TophatEmissivity ℝ).AbsorptionCoefficient 10 10 1 .NU_HEAVY ν) = _ from funext (e 10 10)]
      exact (((Measurable.ite (measurableSet_lt measurable_const measurable_id |>.inter (measurableSet_lt measurable_id measurable_const))
        measurable_const measurable_const).max measurable_const).div ((hB.max measurable_const).add_const _)).div_const _)
    (by
      intro ν _
      show (⟨d, pc, 1, 2, 5⟩ : TophatEmissivity ℝ).AbsorptionCoefficient 10 10 1 .NU_HEAVY ν ≤ _
      rw [e]
      have q1 : max (if (2 : ℝ) < ν ∧ ν < 5 then J else 0) FermiDirac.EPS ≤ max |J| FermiDirac.EPS := by
        apply max_le_max _ (le_refl _)
        split_ifs
        · exact le_abs_self J
        · exact abs_nonneg J
      have q2 := le_max_right (d.ThermalDistributionOfTNu 10 ν) FermiDirac.EPS
      exact div_le_div_of_nonneg_right (div_le_div₀ (le_trans hE.le (le_max_right _ _)) q1 hE (by linarith)) (by positivity))
    (by rw [h1, h2]; norm_num at hs ⊢; linarith) (by rw [h1, h2, h3]; norm_num at hs ⊢; linarith)
  rw [h1, h2, h3] at e3
  exact ⟨m, κ, L, _, hA, e1, e2, e3⟩

end Opac.Neutrinos.MeanTables
