import Verif.Props.WholeNeutrinos
import Verif.Props.Locality
import Verif.Lemmas.ThermalCurves

/-!
# C85: how far Planck means with finitely many frequencies are from the mean over all frequencies

Over the reals.
-/

namespace Opac.Neutrinos.MeanTables
open Arith Outcome Spiner Photons Spec MeasureTheory Finset ThermalCurves Midpoint
open SpinerOpacity (equi tiny Tabulated tiny_pos)

/-- the sums of the library in terms of natural logarithms -/
theorem planckMean_log {S ρ a b : ℝ} {N : ℕ} (ha : 0 < a) (hb : 0 < b) (hN : 0 < N) (B α : ℝ → ℝ) {δ : ℝ}
    (hδ : δ = Real.log (b / a) / N) :
    planckMean S ρ N (binDNu a b N) (fun m => B (binCentre a b N m)) (fun m => α (binCentre a b N m)) =
      (∑ i ∈ range N, α (Real.exp (centre (Real.log a) δ i)) / ρ *
        (B (Real.exp (centre (Real.log a) δ i)) * Real.exp (centre (Real.log a) δ i)) * δ) /
      (∑ i ∈ range N, B (Real.exp (centre (Real.log a) δ i)) * Real.exp (centre (Real.log a) δ i) * δ + S * Real.log 10) := by
  have hl : (0 : ℝ) < Real.log 10 := Real.log_pos (by norm_num)
  have hN' : (N : ℝ) ≠ 0 := by exact_mod_cast hN.ne'
  have ew : δ = binWidth a b N * Real.log 10 := by
    rw [hδ, binWidth, Real.logb, Real.logb, Real.log_div hb.ne' ha.ne']
    field_simp
  have ec : ∀ i : ℕ, binCentre a b N i = Real.exp (centre (Real.log a) δ i) := by
    intro i
    rw [binCentre, centre, Real.rpow_def_of_pos (by norm_num), ew, Real.logb]
    congr 1
    field_simp
  unfold planckMean binDNu
  simp only [ec]
  rw [← mul_div_mul_right _ _ hl.ne', add_mul, sum_mul, sum_mul]
  congr 1
  · exact sum_congr rfl fun i _ => by rw [ew]; ring
  · congr 1
    exact sum_congr rfl fun i _ => by rw [ew]; ring

/-- **C85 (neutrinos)**: let a source have a bounded absorption coefficient that varies by at most `Λ` per unit of the logarithm of
the frequency, and the thermal distribution of neutrinos, and let its mean be taken over the default window, or over a wider one,
with `N` frequencies.  The Planck mean at every node and for every species differs from the mean over all frequencies by
at most `Λ δ / 2 + 1.6 K δ²` per density, up to rounding, where `K` is the largest coefficient and `δ = ln (b/a) / N` the
distance of the frequencies. -/
theorem C85_neutrino {O : Type} {inst : NeutrinoAPI ℝ O} {opac : O} {r : MeanRanges} {a b : ℝ} {N : ℕ} {m : MeanOpacityBase ℝ}
    (h : AbsorptionMeans inst opac r a b N m) (hN : 0 < N) (hr : r.Proper) (ha : 0 < a)
    {d : FermiDirac ℝ} (hpc : PosPC d.pc) (hd : 0 < d.NSPECIES)
    (hB : ∀ T s ν, inst.ThermalDistributionOfTNu opac T s ν = d.ThermalDistributionOfTNu T ν)
    (hD : ∀ T s ν, inst.DThermalDistributionOfTNuDT opac T s ν = d.DThermalDistributionOfTNuDT T ν)
    (hwin : a ≤ (thermalWindow d.pc r).1 ∧ (thermalWindow d.pc r).2 ≤ b)
    {α : ℝ → ℝ → ℝ → RadiationType → ℝ → ℝ}
    (hα : ∀ rho T Ye s ν, 0 < rho → 0 < T → 0 < ν → inst.AbsorptionCoefficient opac rho T Ye s ν = ok (α rho T Ye s ν) ∧
      0 ≤ α rho T Ye s ν)
    {i j k : ℕ} {rho temp Ye : ℝ} (hn : AtNode r i j k rho temp Ye) {s : RadiationType} (hs : Tabulated s)
    {ρ T K Λ δ : ℝ} (hρ : ρ = r.rhoNode i) (hT : T = r.TNode j) (hmeas : Measurable (α ρ T Ye s))
    (hK : ∀ ν, 0 < ν → α ρ T Ye s ν ≤ K) (hΛ : 0 ≤ Λ)
    (hlip : ∀ ν ν', 0 < ν → 0 < ν' → |α ρ T Ye s ν - α ρ T Ye s ν'| ≤ Λ * |Real.log ν - Real.log ν'|)
    (hδ : δ = Real.log (b / a) / N) (h1 : tiny ≤ 1e-6 * (d.pc.kb * T / d.pc.h))
    (h2 : tiny ≤ 1e-14 * ((d.pc.kb * T) ^ 4 / (d.pc.h ^ 3 * d.pc.c ^ 2))) :
    ∃ κ, MeanNeutrinoAPI.PlanckMeanAbsorptionCoefficient m rho temp Ye s = ok (rho * κ) ∧
      |κ - (wholeMean ρ (fermiDiracLaw d.NSPECIES d.pc.h d.pc.kb d.pc.c T) (α ρ T Ye s) + tiny)| ≤
        (Λ * δ / 2 + (1.6 * δ ^ 2 + 1e-13) * K) / ρ := by
  have hρ0 : 0 < ρ := hρ ▸ (node_pos r i).1
  have hT0 : 0 < T := hT ▸ (node_pos r j).2
  have eB : ∀ T s, inst.ThermalDistributionOfTNu opac T s = d.ThermalDistributionOfTNu T := fun T s => funext fun ν => hB T s ν
  have eD : ∀ T s, inst.DThermalDistributionOfTNuDT opac T s = d.DThermalDistributionOfTNuDT T := fun T s => funext fun ν => hD T s ν
  have ef : d.ThermalDistributionOfTNu T = fermiDiracLaw d.NSPECIES d.pc.h d.pc.kb d.pc.c T := funext fun ν => fermi_eq d T ν
  obtain ⟨w1, w2⟩ := C84_window hpc.kb hpc.h hr hn.tempJ hT h1
  have hq : 0 < d.pc.kb * T / d.pc.h := div_pos (mul_pos hpc.kb hT0) hpc.h
  have hQ : 0 < (d.pc.kb * T) ^ 4 / (d.pc.h ^ 3 * d.pc.c ^ 2) := by
    have := hpc.kb; have := hpc.h; have := hpc.c
    positivity
  have a1 := hwin.1.trans w1
  have b1 := w2.trans hwin.2
  have hab : a < b := by norm_num at a1 b1; linarith
  have hb : 0 < b := ha.trans hab
  have hg : (1 : ℝ) ≤ d.NSPECIES := by exact_mod_cast hd
  have hK0 : 0 ≤ K := ((hα ρ T Ye s 1 hρ0 hT0 one_pos).2).trans (hK 1 one_pos)
  have hnn : NonnegCoefficients inst opac := by
    intro rho T Ye s ν v p1 p2 p3 hv
    obtain ⟨e, e0⟩ := hα rho T Ye s ν p1 p2 p3
    rw [e] at hv
    cases hv
    exact e0
  obtain ⟨α', KP, KR, e1, e2, -, e4, -⟩ := C52_absorption h hr hab hN
    (fun T s ν hT hν => ⟨by rw [eB, fermi_eq]; exact fermi_pos hpc (by linarith) hν, by rw [eD]; exact fermiDT_pos hd hpc hT hν⟩)
    hnn hn hs
  refine ⟨_, e4, ?_⟩
  rw [add_sub_add_right_eq_sub]
  rw [← hρ, ← hT, ← hn.Ye] at e1
  rw [← hρ, ← hT, eB, ef] at e2
  have hsame : ∀ m < N, α' m = α ρ T Ye s (binCentre a b N m) := by
    intro m hm
    have := e1 m hm
    rw [(hα ρ T Ye s _ hρ0 hT0 (binCentre_pos a b N m)).1] at this
    exact (Outcome.ok.inj this).symm
  have e3 : KP = planckMean tiny ρ N (binDNu a b N)
      (fun m => fermiDiracLaw d.NSPECIES d.pc.h d.pc.kb d.pc.c T (binCentre a b N m)) (fun m => α ρ T Ye s (binCentre a b N m)) := by
    rw [e2]
    unfold planckMean
    congr 1
    exact sum_congr rfl fun m hm => by rw [hsame m (mem_range.1 hm)]
  rw [planckMean_log ha hb hN _ _ hδ] at e3
  -- the integral over all frequencies
  obtain ⟨i1, i2⟩ := WholeFermi.fermi_law_integral (g := d.NSPECIES) hpc.h hpc.kb hpc.c hT0
  have hpi : 81 ≤ Real.pi ^ 4 := by
    have := pow_le_pow_left₀ (by norm_num) Real.pi_gt_three.le 4
    norm_num at this
    linarith
  have hlow : 9 * (d.NSPECIES * ((d.pc.kb * T) ^ 4 / (d.pc.h ^ 3 * d.pc.c ^ 2))) ≤
      ∫ ν in Set.Ioi (0 : ℝ), fermiDiracLaw d.NSPECIES d.pc.h d.pc.kb d.pc.c T ν := by
    rw [i2]
    generalize (d.pc.kb * T) ^ 4 / (d.pc.h ^ 3 * d.pc.c ^ 2) = Q at *
    have m3 : 9 * Q ≤ 7 * Real.pi ^ 4 / 60 * Q := mul_le_mul_of_nonneg_right (by linarith) hQ.le
    nlinarith
  have hQ' : (d.pc.kb * T) ^ 4 / (d.pc.h ^ 3 * d.pc.c ^ 2) ≤ d.NSPECIES * ((d.pc.kb * T) ^ 4 / (d.pc.h ^ 3 * d.pc.c ^ 2)) :=
    le_mul_of_one_le_left hQ.le hg
  have hlog : Real.log 10 ≤ 9 := by have := Real.log_le_sub_one_of_pos (show (0 : ℝ) < 10 by norm_num); linarith
  have hlog0 : 0 < Real.log 10 := Real.log_pos (by norm_num)
  have ht := tiny_pos
  have hnon : ∀ ν, 0 < ν → 0 ≤ fermiDiracLaw d.NSPECIES d.pc.h d.pc.kb d.pc.c T ν :=
    fun ν hν => WholeFermi.fermi_law_nonneg (by linarith) hpc.h hν
  have hlost := WholeFermi.fermi_lost (g := d.NSPECIES) (by linarith) hpc.h hpc.kb hpc.c hT0 ha.le a1 b1
  have near := WholeFermi.mean_near (α := α ρ T Ye s) i1 hnon ha.le hab.le hρ0
    hmeas.aestronglyMeasurable (fun ν hν => (hα ρ T Ye s ν hρ0 hT0 hν).2) hK rfl (by linarith)
    hlost ht.le (δ := 1e-14)
    (by calc tiny * Real.log 10 ≤ tiny * 9 := mul_le_mul_of_nonneg_left hlog ht.le
          _ ≤ 1e-14 * ((d.pc.kb * T) ^ 4 / (d.pc.h ^ 3 * d.pc.c ^ 2)) * 9 := mul_le_mul_of_nonneg_right h2 (by norm_num)
          _ = 1e-14 * (9 * ((d.pc.kb * T) ^ 4 / (d.pc.h ^ 3 * d.pc.c ^ 2))) := by ring
          _ ≤ _ := mul_le_mul_of_nonneg_left (by linarith) (by norm_num)) (by norm_num) (by norm_num) (by norm_num)
  -- the integral over the window
  have hsplit := WholeSpectrum.split3 i1 ha.le hab.le
  have hwindow : 4 * (2 * (d.NSPECIES * ((d.pc.kb * T) ^ 4 / (d.pc.h ^ 3 * d.pc.c ^ 2)))) ≤
      ∫ ν in a..b, fermiDiracLaw d.NSPECIES d.pc.h d.pc.kb d.pc.c T ν := by
    norm_num at hlost
    linarith
  -- in terms of the logarithm
  have hC : (0 : ℝ) < d.NSPECIES * (2 * d.pc.h / d.pc.c ^ 2) := by
    have := hpc.h; have := hpc.c
    have : (0 : ℝ) < d.NSPECIES := by linarith
    positivity
  have hbb : 0 < d.pc.h / (d.pc.kb * T) := by have := hpc.h; have := hpc.kb; positivity
  have eC : d.NSPECIES * (2 * d.pc.h / d.pc.c ^ 2) / (d.pc.h / (d.pc.kb * T)) ^ 4 =
      2 * (d.NSPECIES * ((d.pc.kb * T) ^ 4 / (d.pc.h ^ 3 * d.pc.c ^ 2))) := by
    have := hpc.h.ne'; have := hpc.c.ne'; have := hpc.kb.ne'; have := hT0.ne'
    field_simp
  have hLA : Real.log a < Real.log b := Real.log_lt_log ha hab
  have hN' : (0 : ℝ) < N := by exact_mod_cast hN
  have eδ : Real.log b = Real.log a + N * δ := by
    rw [hδ, Real.log_div hb.ne' ha.ne']
    field_simp
    ring
  have hδ0 : 0 < δ := by
    rw [hδ, Real.log_div hb.ne' ha.ne']
    exact div_pos (by linarith) hN'
  have eW := integral_log (fermiDiracLaw d.NSPECIES d.pc.h d.pc.kb d.pc.c T) ha hab.le
  have eA := integral_log (fun ν => α ρ T Ye s ν / ρ * fermiDiracLaw d.NSPECIES d.pc.h d.pc.kb d.pc.c T ν) ha hab.le
  simp only [mul_assoc] at eA
  simp only [fermi_curve] at eW eA e3
  rw [← eW] at hwindow
  have hedge := curve_edges fermi_statistics hC hbb (by norm_num) (A := Real.log a) (B := Real.log b)
    (by
      rw [Real.exp_log ha]
      calc d.pc.h / (d.pc.kb * T) * a ≤ d.pc.h / (d.pc.kb * T) * (1.001e-3 * (d.pc.kb * T / d.pc.h)) :=
            mul_le_mul_of_nonneg_left a1 hbb.le
        _ = 1.001e-3 := by
          have := hpc.h.ne'; have := hpc.kb.ne'; have := hT0.ne'
          field_simp)
    (by
      rw [Real.exp_log hb]
      calc 1e3 = d.pc.h / (d.pc.kb * T) * (1e3 * (d.pc.kb * T / d.pc.h)) := by
            have := hpc.h.ne'; have := hpc.kb.ne'; have := hT0.ne'
            field_simp
        _ ≤ _ := mul_le_mul_of_nonneg_left b1 hbb.le)
  rw [eC] at hedge
  have hvar := curve_variation fermi_statistics hC hbb (Real.log a) (Real.log b)
  have hmain := (curve_bends fermi_statistics hC hbb).mean (A := Real.log a) (B := Real.log b) (δ := δ) (t := tiny * Real.log 10)
    (κ := K / ρ) (lam := Λ / ρ) (N := N) (a := fun u => α ρ T Ye s (Real.exp u) / ρ) (η := 1.6 * δ ^ 2)
    (fun u => (curve_pos fermi_statistics hC hbb u).le) hδ0 eδ (mul_pos ht hlog0) (div_nonneg hΛ hρ0.le)
    (fun u _ => div_nonneg (hα ρ T Ye s _ hρ0 hT0 (Real.exp_pos u)).2 hρ0.le)
    (fun u _ => div_le_div_of_nonneg_right (hK _ (Real.exp_pos u)) hρ0.le) (div_nonneg hK0 hρ0.le)
    (fun u _ v _ => by
      rw [← sub_div, abs_div, abs_of_pos hρ0, div_mul_eq_mul_div]
      refine div_le_div_of_nonneg_right ?_ hρ0.le
      have := hlip _ _ (Real.exp_pos u) (Real.exp_pos v)
      rwa [Real.log_exp, Real.log_exp] at this)
    (by positivity)
    (by
      have hδ2 : 0 < δ ^ 2 := by positivity
      refine (mul_le_mul_of_nonneg_left hvar (by positivity)).trans ?_
      generalize (∫ w in Real.log a..Real.log b, curve (d.NSPECIES * (2 * d.pc.h / d.pc.c ^ 2)) (d.pc.h / (d.pc.kb * T)) 1 w) = I at *
      generalize curve (d.NSPECIES * (2 * d.pc.h / d.pc.c ^ 2)) (d.pc.h / (d.pc.kb * T)) 1 (Real.log b) = x at *
      generalize curve (d.NSPECIES * (2 * d.pc.h / d.pc.c ^ 2)) (d.pc.h / (d.pc.kb * T)) 1 (Real.log a) *
        drop (d.pc.h / (d.pc.kb * T)) 1 (Real.log a) = y at *
      have : 12 * I + x + y ≤ 12.8 * I := by norm_num at hedge ⊢; linarith
      calc δ ^ 2 / 8 * (12 * I + x + y) ≤ δ ^ 2 / 8 * (12.8 * I) := mul_le_mul_of_nonneg_left this (by positivity)
        _ = _ := by ring)
  rw [← e3, eA, eW] at hmain
  have hP : (∫ ν in a..b, α ρ T Ye s ν / ρ * fermiDiracLaw d.NSPECIES d.pc.h d.pc.kb d.pc.c T ν) /
      ((∫ ν in a..b, fermiDiracLaw d.NSPECIES d.pc.h d.pc.kb d.pc.c T ν) + tiny * Real.log 10) =
      planckLimit tiny ρ a b (fermiDiracLaw d.NSPECIES d.pc.h d.pc.kb d.pc.c T) (α ρ T Ye s) := rfl
  rw [hP] at hmain
  refine (abs_sub_le _ _ _).trans ((add_le_add hmain near).trans ?_)
  have hκ : 0 ≤ K / ρ := div_nonneg hK0 hρ0.le
  rw [add_div, mul_div_assoc (1.6 * δ ^ 2 + 1e-13) K ρ, show Λ * δ / 2 / ρ = Λ / ρ * δ / 2 by ring]
  norm_num
  linarith

/-- the hypotheses of `C85_neutrino` are met, for the constructor that chooses the window and 100 frequencies itself -/
example (d : FermiDirac ℝ) (h1 : d.pc.h = 1) (h2 : d.pc.kb = 1) (h3 : d.pc.c = 1) (hd : 0 < d.NSPECIES) (hpc : PosPC d.pc) :
    ∃ (m : MeanOpacityBase ℝ) (κ : ℝ),
      MeanOpacityBase.constructAuto false d.pc (fun _ _ => 0) (⟨d, d.pc, 2⟩ : GrayOpacity ℝ) 0 1 2 0 1 2 0 1 2 = ok m ∧
      MeanNeutrinoAPI.PlanckMeanAbsorptionCoefficient m (10 - tiny) (10 - tiny) 1 .NU_HEAVY = ok ((10 - tiny) * κ) ∧
      |κ - (wholeMean 10 (fermiDiracLaw d.NSPECIES d.pc.h d.pc.kb d.pc.c 10) (fun _ => 10 * 2) + tiny)| ≤
        (0 * (Real.log ((thermalWindow d.pc twoNodes).2 / (thermalWindow d.pc twoNodes).1) / (100 : ℕ)) / 2 +
          (1.6 * (Real.log ((thermalWindow d.pc twoNodes).2 / (thermalWindow d.pc twoNodes).1) / (100 : ℕ)) ^ 2 + 1e-13) *
            (10 * 2)) / 10 := by
  obtain ⟨m, hm⟩ := auto_returns (inst := inferInstance) (opac := (⟨d, d.pc, 2⟩ : GrayOpacity ℝ)) (pc := d.pc)
    (junk := fun _ _ => 0) twoNodes (fun _ _ _ _ _ => ⟨_, rfl⟩)
  have hs := tiny_smaller
  obtain ⟨κ, e1, e2⟩ := C85_neutrino (.auto hpc.kb hpc.h hm) (by norm_num) twoNodes_proper
    (autoWindow_eq hpc.kb hpc.h).2 hpc hd (fun _ _ _ => rfl) (fun _ _ _ => rfl) ⟨le_refl _, le_refl _⟩
    (α := fun rho _ _ _ _ => rho * 2) (fun rho T Ye s ν hr _ _ => ⟨rfl, by positivity⟩)
    twoNodes_at (s := .NU_HEAVY) (.inr (.inr rfl)) (ρ := 10) (T := 10) (K := 10 * 2) (Λ := 0)
    twoNodes_eq.1.symm twoNodes_eq.2.1.symm measurable_const (fun _ _ => le_refl _) (le_refl _)
    (fun _ _ _ _ => by simp) rfl (by rw [h1, h2]; norm_num at hs ⊢; linarith) (by rw [h1, h2, h3]; norm_num at hs ⊢; linarith)
  exact ⟨m, κ, hm, e1, e2⟩

end Opac.Neutrinos.MeanTables
