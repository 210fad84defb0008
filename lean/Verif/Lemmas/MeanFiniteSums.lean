import Verif.Lemmas.MeanFinite
import Verif.Spec.MeanFinite

/-! Means in double precision are finite: the sums of a group and of a cell. -/

namespace Opac.Doubles
open Arith Photons

theorem gt_small {a : IE binary64} {b : Fl rd64} {h : ℤ} (s : Sim (-270) h a b) : gt a Robust.SMALL = true := by
  obtain ⟨c, sc⟩ := small_sim
  show XR.lt (lit 10 * dmin : IE binary64).val a.val = true
  rw [sc.1, s.1]
  simp only [XR.lt, decide_eq_true_eq]
  refine lt_of_le_of_lt sc.2.2 (lt_of_lt_of_le ?_ s.2.1)
  exact zpow_lt_zpow_right₀ (by norm_num) (by norm_num)

theorem opaque_ordinary {coef : IE binary64 → IE binary64 → IE binary64 → IE binary64} (h : OpaqueCoefficient coef) :
    OrdinaryCoefficient coef := by
  intro ρ T ν hρ hT hν
  obtain ⟨x, e, hx⟩ := h ρ T ν hρ hT hν
  exact ⟨x, e, .inr hx⟩

variable {pc : PC ℝ} (hpc : CgsSized pc)

/-- the sums of a group -/
structure PhotonSums (opaq : Prop) (n : ℕ) (num den : IE binary64 × IE binary64) : Prop where
  n1 : Acc 960 n num.1
  n2 : Acc 960 n num.2
  d1 : Acc 960 n den.1
  d2 : Acc 960 n den.2
  planck : SumDom KK AA n num.1 den.1
  rosseland : opaq → SumDom KK AA n den.2 num.2

theorem Acc.nn22 {n : ℕ} {a : IE binary64} (h : Acc 960 n a) (hn : n ≤ 2 ^ 32) : Nn 1022 a := (h.nn hn).mono (by norm_num)

include hpc in
/-- **the means of a group are finite** -/
theorem means_finite {coef : IE binary64 → IE binary64 → IE binary64 → IE binary64} (hc : OrdinaryCoefficient coef)
    {rho T : IE binary64} {rho' T' : Fl rd64} (sr : Sim (-60) 60 rho rho') (sT : Sim (-20) 45 T T') {lo hi : IE binary64}
    (hlo : lo.val ≠ .nan) (hhi : UpperBound hi) {N : ℤ} (hN : 1 ≤ N) (hN' : N ≤ 2 ^ 31) :
    Nn 416 (MGTables.GroupMeans pc.dbl coef rho T lo hi N).1 ∧
      (OpaqueCoefficient coef → Nn 416 (MGTables.GroupMeans pc.dbl coef rho T lo hi N).2) := by
  have hs := samples hpc sT hlo hhi hN hN'
  have hlen : (GroupFrequencySamples pc.dbl T lo hi N).length ≤ 2 ^ 32 := by
    simp [GroupFrequencySamples]; omega
  have := foldl_two (P := PhotonSums (OpaqueCoefficient coef)) (f := fun (acc : IE binary64 × IE binary64) (s : IE binary64 × IE binary64) =>
      let alpha := coef rho T s.1
      let w := ThermalWeightsAtNu pc.dbl T s.1
      (acc.1 + alpha / rho * w.1 * s.2,
       if gt alpha Robust.SMALL then acc.2 + Robust.ratio rho alpha * w.2 * s.2 else acc.2))
      (g := fun (acc : IE binary64 × IE binary64) (s : IE binary64 × IE binary64) =>
        let w := ThermalWeightsAtNu pc.dbl T s.1
        (acc.1 + w.1 * s.2, acc.2 + w.2 * s.2)) (GroupFrequencySamples pc.dbl T lo hi N) 0 (lit 0, lit 0) (lit 0, lit 0) (by omega)
      ⟨Acc.zero, Acc.zero, Acc.zero, Acc.zero, SumDom.zero, fun _ => SumDom.zero⟩ (by
    intro s hmem n num den hn H
    obtain ⟨⟨b, sn⟩, sd⟩ := hs s hmem
    obtain ⟨w1, w2⟩ := weights_nn hpc sT sn
    have hdbl : coef rho T s.1 = coef (dbl rho'.val) (dbl T'.val) (dbl b.val) := by
      rw [dbl_of_val sr.1, dbl_of_val sT.1, dbl_of_val sn.1]
    have ha : OrdinaryOpacity (coef rho T s.1) := by
      rw [hdbl]
      exact hc _ _ _ sr.2 sT.2 sn.2
    have tp := (((ordinary_nn ha).div sr).mul w1).mul sd
    have td1 := w1.mul sd
    have td2 := w2.mul sd
    refine ⟨H.n1.add (tp.mono (by norm_num)) hn (by norm_num) (by norm_num), ?_,
      H.d1.add (td1.mono (by norm_num)) hn (by norm_num) (by norm_num),
      H.d2.add (td2.mono (by norm_num)) hn (by norm_num) (by norm_num), ?_, ?_⟩
    · show Acc 960 (n + 1) (if gt (coef rho T s.1) Robust.SMALL = true then _ else _)
      split_ifs with hg
      · obtain ⟨b', sa⟩ := ordinary_pos ha hg
        exact H.n2.add ((((Nn.sim (ratio_sim sr sa)).mul w2).mul sd).mono (by norm_num)) hn (by norm_num) (by norm_num)
      · exact H.n2.mono (by omega)
    · exact H.planck.add KK_pos.le AA_pos.le (photon_planck sr (ordinary_nn ha) w1 sd) (H.n1.nn22 (by omega)) (tp.mono (by norm_num))
        (H.d1.nn22 (by omega)) (td1.mono (by norm_num))
    · intro ho
      obtain ⟨x, ex, hx⟩ := ho _ _ _ sr.2 sT.2 sn.2
      rw [← hdbl] at ex
      have sa : Sim (-270) 200 (coef rho T s.1) (⟨x⟩ : Fl rd64) := by rw [ex]; exact ⟨rfl, hx⟩
      show SumDom KK AA (n + 1) _ (if gt (coef rho T s.1) Robust.SMALL = true then _ else _)
      rw [if_pos (gt_small sa)]
      exact (H.rosseland ho).add KK_pos.le AA_pos.le (photon_rosseland sr sa w2 sd) (H.d2.nn22 (by omega)) (td2.mono (by norm_num))
        (H.n2.nn22 (by omega)) ((((Nn.sim (ratio_sim sr sa)).mul w2).mul sd).mono (by norm_num)))
  rw [zero_add] at this
  change PhotonSums (OpaqueCoefficient coef) _ (MGTables.GroupNumerators pc.dbl coef rho T lo hi N)
    (MGTables.GroupDenominators pc.dbl T lo hi N) at this
  unfold MGTables.GroupMeans MGTables.MeansOfSums
  refine ⟨ratio_nn (this.d1.nn22 hlen) (by norm_num) (this.planck.total hlen), fun ho => ?_⟩
  show Nn 416 (if _ then _ else _)
  split_ifs
  · exact ratio_nn (this.n2.nn22 hlen) (by norm_num) ((this.rosseland ho).total hlen)
  · exact ⟨0, lit0_ie, le_rfl, by positivity⟩

end Opac.Doubles

namespace Opac.Doubles
open Arith Neutrinos MeanTables

/-- four sums of `i` terms -/
structure FinSums (i : ℕ) (s : Sums (IE binary64)) : Prop where
  acc : AccSums i s
  planck : SumDom KK AA i s.planckNum s.planckDenom
  rosseland : SumDom KK AA i s.rosselandDenom s.rosselandNum

theorem SumDom.mono {i j : ℕ} (hij : i ≤ j) {t s : IE binary64} (h : SumDom KK AA i t s) : SumDom KK AA j t s := by
  have hg : grow i ≤ grow j := pow_le_pow_right₀ (by norm_num) hij
  have p0 : 0 ≤ AA + KK * eps + eps := by
    have := mul_pos KK_pos eps_pos
    linarith [eps_pos, AA_pos]
  refine Dom.mono h (mul_le_mul_of_nonneg_right hg KK_pos.le) ?_
  have hij' : (i : ℝ) ≤ j := by exact_mod_cast hij
  exact mul_le_mul hg (mul_le_mul_of_nonneg_right hij' p0) (by positivity) (by linarith [grow_ge j])

theorem FinSums.zero : FinSums 0 Sums.zero := ⟨AccSums.zero, SumDom.zero, SumDom.zero⟩

theorem FinSums.step {i : ℕ} {s : Sums (IE binary64)} (h : FinSums i s) (hi : i + 1 ≤ 2 ^ 32) {rho alpha B D nu dl : IE binary64}
    {rho' nu' : Fl rd64} (sr : Sim (-60) 60 rho rho') (ha : OrdinaryOpacity alpha) (hB : Nn 500 B) (hD : Nn 500 D)
    (sn : Sim (-20) 101 nu nu') (hd : Nn 10 dl) : FinSums (i + 1) (addSample rho alpha B D nu dl s) := by
  have sn' := Nn.sim sn
  refine ⟨h.acc.step hi sr ha hB hD sn hd, ?_, ?_⟩
  · exact h.planck.add KK_pos.le AA_pos.le (neutrino_planck sr (ordinary_nn ha) hB sn' hd) (h.acc.pn.nn22 (by omega))
      ((((((ordinary_nn ha).div sr).mul hB).mul sn').mul hd).mono (by norm_num)) (h.acc.pd.nn22 (by omega))
      (((hB.mul sn').mul hd).mono (by norm_num))
  · show SumDom KK AA (i + 1) (if gt alpha Robust.SMALL = true then _ else _) (if gt alpha Robust.SMALL = true then _ else _)
    split_ifs with hg
    · obtain ⟨b', sa⟩ := ordinary_pos ha hg
      exact h.rosseland.add KK_pos.le AA_pos.le (neutrino_rosseland sr sa hD sn' hd) (h.acc.rd.nn22 (by omega))
        (((hD.mul sn').mul hd).mono (by norm_num)) (h.acc.rn.nn22 (by omega))
        (((((Nn.sim (ratio_sim sr sa)).mul hD).mul sn').mul hd).mono (by norm_num))
    · exact h.rosseland.mono (by omega)

theorem FinSums.finite {i : ℕ} {s : Sums (IE binary64)} (h : FinSums i s) (hi : i ≤ 2 ^ 32) :
    Nn 416 (means s).1 ∧ Nn 416 (means s).2 := by
  refine ⟨ratio_nn (h.acc.pd.nn22 hi) (by norm_num) (h.planck.total hi), ?_⟩
  show Nn 416 (if _ then _ else _)
  split_ifs
  · exact ratio_nn (h.acc.rn.nn22 hi) (by norm_num) (h.rosseland.total hi)
  · exact ⟨0, lit0_ie, le_rfl, by positivity⟩

end Opac.Doubles
