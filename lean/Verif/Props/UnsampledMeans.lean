import Verif.Props.NeutrinoMeans
import Verif.Model.MeanPhoton

/-!
# C80: means over no frequencies

A request for means over fewer frequencies than can be averaged, or over a window whose upper end is not above its lower
end, should end with an error, not with a table.
-/

namespace Opac
open Arith Outcome

namespace Photons

/-- **C80 (photons, absorption)**: asked for fewer than two frequencies per group, the constructor ends with an error,
whatever the opacity, the axes and the bounds, and in every arithmetic -/
theorem C80_absorption {R : Type} [Arith R] {O : Type} [PhotonAPI R O] (pc : PC R) (junk : ℕ → R) (opac : O)
    (lRhoMin lRhoMax : R) (NRho : ℤ) (lTMin lTMax : R) (NT : ℤ) (b : List R) (ngroups : ℤ) {NNuPerGroup : ℤ}
    (hN : NNuPerGroup < 2) :
    (MeanOpacityBase.construct pc junk opac lRhoMin lRhoMax NRho lTMin lTMax NT b ngroups NNuPerGroup).Aborts := by
  unfold MeanOpacityBase.construct MGTables.Impl_
  simp [hN, Aborts]

/-- **C80 (photons, scattering)** -/
theorem C80_scattering {R : Type} [Arith R] {O : Type} [PhotonSAPI R O] (pc : PC R) (junk : ℕ → R) (opac : O)
    (lRhoMin lRhoMax : R) (NRho : ℤ) (lTMin lTMax : R) (NT : ℤ) (b : List R) (ngroups : ℤ) {NNuPerGroup : ℤ}
    (hN : NNuPerGroup < 2) :
    (MeanSOpacityBase.construct pc junk opac lRhoMin lRhoMax NRho lTMin lTMax NT b ngroups NNuPerGroup).Aborts := by
  unfold MeanSOpacityBase.construct MGTables.Impl_
  simp [hN, Aborts]

/-- one frequency in each of two groups is refused, with infinities and NaN in the arithmetic, for the library's gray opacity -/
example (o : GrayOpacity XR) (pc : PC XR) (junk : ℕ → XR) :
    (MeanOpacityBase.construct pc junk o (.fin 0) (.fin 1) 2 (.fin 0) (.fin 1) 2 [.fin 1, .fin 2, .pinf] 2 1).Aborts :=
  C80_absorption _ _ _ _ _ _ _ _ _ _ _ (by norm_num)

end Photons

namespace Neutrinos.MeanTables
open Spiner Photons Spec Finset
open SpinerOpacity (equi tiny Tabulated species tiny_pos)

variable {O : Type} {inst : NeutrinoAPI ℝ O} {opac : O} {m : MeanOpacityBase ℝ} {r : MeanRanges} {debug : Bool} {pc : PC ℝ}
  {junk : ℕ → ℕ → ℝ} {lNuMin lNuMax : ℝ} {NNu : ℤ}

/-- the two lookups at a node are the stored means of the sums there -/
theorem lookups_of_sums (h : MeanOpacityBase.construct debug pc junk opac r.lRhoMin r.lRhoMax r.NRho r.lTMin r.lTMax r.NT
      r.YeMin r.YeMax r.NYe lNuMin lNuMax NNu = ok m) (hr : r.Proper) {i j k : ℕ} {rho temp Ye : ℝ}
    (hn : AtNode r i j k rho temp Ye) {s : RadiationType} (hs : Tabulated s) :
    ∃ K, cellSums ⟨inst.AbsorptionCoefficient opac, inst.ThermalDistributionOfTNu opac, inst.DThermalDistributionOfTNuDT opac⟩
        (r.rhoNode i) (r.TNode j) (r.YeNode k) s lNuMin lNuMax NNu = ok K ∧
      (0 ≤ (means K).1 → MeanNeutrinoAPI.PlanckMeanAbsorptionCoefficient m rho temp Ye s = ok (rho * ((means K).1 + tiny))) ∧
      (0 ≤ (means K).2 →
        MeanNeutrinoAPI.RosselandMeanAbsorptionCoefficient m rho temp Ye s = ok (rho * ((means K).2 + tiny))) := by
  unfold MeanOpacityBase.construct MeanOpacityBase.Impl_ at h
  simp only [Bool.false_eq_true, if_false] at h
  split at h
  · simp at h
  simp only [bind_eq_ok] at h
  obtain ⟨t, h, h'⟩ := h
  cases h'
  obtain ⟨d, hd, h1, h2⟩ := species hs
  obtain ⟨hS, hE⟩ := loops_fills (t₀ := empty junk r) (fun i j k d t t' ht h => fillCell_fills i j k d t t' ht h) h
  obtain ⟨K, ⟨s', hs', hK⟩, e1, e2⟩ := hE i j k d hn.rhoI hn.tempJ hn.YeK hd
  rw [h2] at hs'; cases hs'
  have x3 : fromLog_ (((empty junk r).lPlanck.range 3).x i) = r.rhoNode i := by rw [x_eq, fromLog_eq]; rfl
  have x2 : fromLog_ (((empty junk r).lPlanck.range 2).x j) = r.TNode j := by rw [x_eq, fromLog_eq]; rfl
  have x1 : ((empty junk r).lPlanck.range 1).x k = r.YeNode k := by rw [x_eq]; rfl
  rw [x3, x2, x1] at hK
  exact ⟨K, hK, fun h0 => lookup_node hr hS.p1 (by rw [hS.p2]; exact ⟨rfl, rfl, rfl⟩) hn hd h1 h0 e1,
    fun h0 => lookup_node hr hS.r1 (by rw [hS.r2]; exact ⟨rfl, rfl, rfl⟩) hn hd h1 h0 e2⟩

/-- **C80 is false for neutrinos (number of frequencies)**: asked for no frequencies, or for a negative number of them, the
constructor returns, whatever the opacity, and at every node and for every species both mean coefficients are the density
times `tiny`, about `2.2e-307`: the source is never looked at, and the table says that matter is transparent -/
theorem C80_count_false (hN : NNu ≤ 0) (hr : r.Proper) :
    ∃ m, (MeanOpacityBase.construct false pc junk opac r.lRhoMin r.lRhoMax r.NRho r.lTMin r.lTMax r.NT
        r.YeMin r.YeMax r.NYe lNuMin lNuMax NNu).Returns m ∧
      ∀ i j k rho temp Ye s, AtNode r i j k rho temp Ye → Tabulated s →
        MeanNeutrinoAPI.PlanckMeanAbsorptionCoefficient m rho temp Ye s = ok (rho * tiny) ∧
        MeanNeutrinoAPI.RosselandMeanAbsorptionCoefficient m rho temp Ye s = ok (rho * tiny) := by
  have hc : ∀ (o : Sampler ℝ) ρ T Ye s, cellSums o ρ T Ye s lNuMin lNuMax NNu = ok Sums.zero := by
    intro o ρ T Ye s
    unfold cellSums
    rw [forLoopM_nonpos hN]
  obtain ⟨t, ht⟩ := loops_returns (NRho := r.NRho) (NT := r.NT) (NYe := r.NYe) (t₀ := empty junk r)
    (cell := fillCell ⟨inst.AbsorptionCoefficient opac, inst.ThermalDistributionOfTNu opac,
      inst.DThermalDistributionOfTNuDT opac⟩ lNuMin lNuMax NNu)
    (fun i j k d hi hj hk hd t ht => by
      obtain ⟨s, hs⟩ : ∃ s, Idx2RadType d = ok s := by
        have : d = 0 ∨ d = 1 ∨ d = 2 := by omega
        rcases this with rfl | rfl | rfl
        · exact ⟨_, rfl⟩
        · exact ⟨_, rfl⟩
        · exact ⟨_, rfl⟩
      obtain ⟨t', ht'⟩ : ∃ t', store i j k d (means (Sums.zero : Sums ℝ)) t = ok t' :=
        store_returns ht.p1 ht.r1 hi hj hk hd (by simp [areal]) (by simp [areal])
      refine ⟨t', ?_, (store_effect ht ht').1⟩
      simp only [fillCell, hs, ok_bind, hc, ht'])
  have hm : MeanOpacityBase.construct false pc junk opac r.lRhoMin r.lRhoMax r.NRho r.lTMin r.lTMax r.NT r.YeMin r.YeMax r.NYe
      lNuMin lNuMax NNu = ok ⟨pc, t⟩ := by
    unfold MeanOpacityBase.construct MeanOpacityBase.Impl_
    simp only [Bool.false_and, Bool.false_eq_true, if_false]
    unfold empty at ht
    rw [ht]
    rfl
  refine ⟨⟨pc, t⟩, hm, fun i j k rho temp Ye s hn hs => ?_⟩
  obtain ⟨K, hK, hP, hR⟩ := lookups_of_sums hm hr hn hs
  rw [hc] at hK
  cases hK
  have e1 : (means (Sums.zero : Sums ℝ)).1 = 0 := by
    simp [means, Sums.zero, Robust.ratio, areal]
  have e2 : (means (Sums.zero : Sums ℝ)).2 = 0 := by
    have := SMALL_pos
    simp [means, Sums.zero, Robust.ratio, areal]
  rw [e1, zero_add] at hP
  rw [e2, zero_add] at hR
  exact ⟨hP le_rfl, hR le_rfl⟩

/-- **C80 is false for neutrinos (window)**: if the upper end of the window is not above its lower end, then at every node
and for every species the Rosseland mean coefficient is the density times `tiny`, whatever the opacity -/
theorem C80_window_false (h : (MeanOpacityBase.construct debug pc junk opac r.lRhoMin r.lRhoMax r.NRho r.lTMin r.lTMax r.NT
      r.YeMin r.YeMax r.NYe lNuMin lNuMax NNu).Returns m) (hr : r.Proper) (hw : lNuMax ≤ lNuMin)
    (hB : PositiveWeights (inst.ThermalDistributionOfTNu opac) (inst.DThermalDistributionOfTNuDT opac))
    {i j k : ℕ} {rho temp Ye : ℝ} (hn : AtNode r i j k rho temp Ye) {s : RadiationType} (hs : Tabulated s) :
    MeanNeutrinoAPI.RosselandMeanAbsorptionCoefficient m rho temp Ye s = ok (rho * tiny) := by
  obtain ⟨K, hK, -, hR⟩ := lookups_of_sums h hr hn hs
  have hS := SMALL_pos
  have hnum : K.rosselandNum ≤ 0 := by
    rcases le_or_gt NNu 0 with h0 | h0
    · unfold cellSums at hK
      rw [forLoopM_nonpos h0] at hK
      cases hK
      simp [Sums.zero, areal]
    · obtain ⟨n, rfl⟩ := Int.eq_ofNat_of_zero_le h0.le
      obtain ⟨α, -, rfl⟩ := loop_sums n K hK
      show ∑ i ∈ range n, _ ≤ 0
      refine sum_nonpos fun a _ => ?_
      split_ifs with hα
      · have hν : 0 < sampleNu lNuMin lNuMax (n : ℤ) a := by
          unfold sampleNu; rw [fromLog_eq]; positivity
        refine mul_nonpos_of_nonneg_of_nonpos (mul_pos (mul_pos (div_pos (node_pos r i).1 (by linarith))
          (hB _ s _ (node_pos r j).2 hν).2) hν).le ?_
        have : (0 : ℝ) < (lit (Int.ofNat n) : ℝ) := by
          simp only [areal]
          exact Int.cast_pos.2 h0
        exact div_nonpos_of_nonpos_of_nonneg (sub_nonpos.2 hw) this.le
      · exact le_rfl
  have e2 : (means K).2 = 0 := by
    unfold means
    have : gt K.rosselandNum (Robust.SMALL : ℝ) = false := by
      show decide ((Robust.SMALL : ℝ) < K.rosselandNum) = false
      exact decide_eq_false (by linarith)
    simp only [this, Bool.and_false, Bool.false_eq_true, if_false]
    simp [areal]
  rw [e2, zero_add] at hR
  exact hR le_rfl

/-- the library's gray opacity, which absorbs at every frequency, on a table of two densities, temperatures and electron
fractions: the means over the reversed window vanish -/
example (d : FermiDirac ℝ) (pc : PC ℝ) (hd : 0 < d.NSPECIES) (hpc : PosPC d.pc) :
    ∃ m, (MeanOpacityBase.construct false pc (fun _ _ => 0) (⟨d, pc, 2⟩ : GrayOpacity ℝ) twoNodes.lRhoMin twoNodes.lRhoMax
        twoNodes.NRho twoNodes.lTMin twoNodes.lTMax twoNodes.NT twoNodes.YeMin twoNodes.YeMax twoNodes.NYe 1 0 7).Returns m ∧
      MeanNeutrinoAPI.RosselandMeanAbsorptionCoefficient m (10 - tiny) (10 - tiny) 1 .NU_HEAVY = ok ((10 - tiny) * tiny) := by
  obtain ⟨m, hm⟩ := absorption_returns (inst := inferInstance) (opac := (⟨d, pc, 2⟩ : GrayOpacity ℝ)) (pc := pc)
    (junk := fun _ _ => 0) (r := twoNodes) (l1 := 1) (l2 := 0) (NNu := 7) (fun _ _ _ _ _ => ⟨_, rfl⟩)
  refine ⟨m, hm, C80_window_false hm twoNodes_proper (by norm_num) (fun T s ν hT hν => ⟨by
      show 0 < d.ThermalDistributionOfTNu T ν
      rw [fermi_eq]
      exact fermi_pos hpc (by exact_mod_cast hd) hν, fermiDT_pos hd hpc hT hν⟩) twoNodes_at (.inr (.inr rfl))⟩

/-- the same opacity over no frequencies -/
example (d : FermiDirac ℝ) (pc : PC ℝ) :
    ∃ m, (MeanOpacityBase.construct false pc (fun _ _ => 0) (⟨d, pc, 2⟩ : GrayOpacity ℝ) twoNodes.lRhoMin twoNodes.lRhoMax
        twoNodes.NRho twoNodes.lTMin twoNodes.lTMax twoNodes.NT twoNodes.YeMin twoNodes.YeMax twoNodes.NYe 0 1 0).Returns m ∧
      MeanNeutrinoAPI.PlanckMeanAbsorptionCoefficient m (10 - tiny) (10 - tiny) 1 .NU_HEAVY = ok ((10 - tiny) * tiny) := by
  obtain ⟨m, h1, h2⟩ := C80_count_false (inst := inferInstance) (opac := (⟨d, pc, 2⟩ : GrayOpacity ℝ)) (pc := pc)
    (junk := fun _ _ => 0) (lNuMin := 0) (lNuMax := 1) (NNu := 0) le_rfl twoNodes_proper
  exact ⟨m, h1, (h2 1 1 1 _ _ _ .NU_HEAVY twoNodes_at (.inr (.inr rfl))).1⟩

end Neutrinos.MeanTables
end Opac
