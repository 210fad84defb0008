import Verif.Lemmas.MeanSamples
import Verif.Lemmas.Cmp
import Verif.Spec.MeanDoubles

/-! Photon means in double precision are never NaN. -/

namespace Opac.Doubles
open Arith Photons Spiner

theorem dbl_of_val {a : IE binary64} {x : ℝ} (h : a.val = .fin x) : a = dbl x := by cases a; subst h; rfl

/-- the value of an ordinary opacity -/
theorem ordinary_cases {a : IE binary64} (h : OrdinaryOpacity a) :
    a.val = .fin 0 ∨ ∃ b, Sim (-270) 200 a b := by
  obtain ⟨x, rfl, rfl | hx⟩ := h
  · exact .inl rfl
  · exact .inr ⟨⟨x⟩, rfl, hx⟩

theorem ordinary_nn {a : IE binary64} (h : OrdinaryOpacity a) : Nn 200 a := by
  rcases ordinary_cases h with e | ⟨b, s⟩
  · exact ⟨0, e, le_rfl, by positivity⟩
  · exact Nn.sim s

theorem ordinary_pos {a : IE binary64} (h : OrdinaryOpacity a) (hg : gt a Robust.SMALL = true) :
    ∃ b, Sim (-270) 200 a b := by
  rcases ordinary_cases h with e | h
  · exfalso
    obtain ⟨b, sb⟩ := small_sim
    have : XR.lt (lit 10 * dmin : IE binary64).val a.val = true := hg
    rw [sb.1, e] at this
    simp only [XR.lt, decide_eq_true_eq] at this
    linarith [sb.pos]
  · exact h

section weights
variable {pc : PC ℝ} (hpc : CgsSized pc) {T nu : IE binary64} {T' nu' : Fl rd64}
include hpc

theorem dB_small (sT : Sim (-20) 45 T T') (sn : Sim (-20) 101 nu nu')
    (hx : ((fl pc).h * nu' / ((fl pc).kb * T')).val ≤ 128) :
    Nn 500 (Planck.DThermalDistributionOfTNuDT pc.dbl T nu) := by
  have sx : Sim (-105) 97 (pc.dbl.h * nu / (pc.dbl.kb * T)) ((fl pc).h * nu' / ((fl pc).kb * T')) :=
    (((sh hpc).mul sn).div ((skb hpc).mul sT)).mono (by norm_num) (by norm_num)
  have s := sx.one_sub_exp
  unfold Planck.DThermalDistributionOfTNuDT
  exact (Nn.sim ((((((((((Sim.lit 2 1 1).mul (sh hpc)).mul (sh hpc)).mul sn).mul sn).mul sn).mul sn).div
    ((((sT.mul sT).mul (sc hpc)).mul (sc hpc)).mul (skb hpc))).mul (sx.exp_neg hx)).div (s.mul s))).mono (by norm_num)

theorem weights_nn (sT : Sim (-20) 45 T T') (sn : Sim (-20) 101 nu nu') :
    Nn 500 (ThermalWeightsAtNu pc.dbl T nu).1 ∧ Nn 500 (ThermalWeightsAtNu pc.dbl T nu).2 := by
  have sT2 : Sim (-21) 61 T T' := sT.mono (by norm_num) (by norm_num)
  have sn2 : Sim (-21) 101 nu nu' := sn.mono (by norm_num) (by norm_num)
  have sx := x_sim hpc sT2 sn2
  unfold ThermalWeightsAtNu
  by_cases h : lt (pc.dbl.h * nu / (pc.dbl.kb * T)) (wien_tail_x : IE binary64) = true
  · have h80 : (wien_tail_x : IE binary64).val = .fin 80 := by
      have := lit_nat (n := 80) (by norm_num)
      simpa [wien_tail_x] using this
    have hx : ((fl pc).h * nu' / ((fl pc).kb * T')).val ≤ 128 := by
      have h2 : XR.lt (pc.dbl.h * nu / (pc.dbl.kb * T)).val (wien_tail_x : IE binary64).val = true := h
      rw [sx.1, h80] at h2
      simp only [XR.lt, decide_eq_true_eq] at h2
      linarith
    simp only [h, if_true]
    exact ⟨(Nn.sim (B_sim hpc sT2 sn2 hx)).mono (by norm_num), dB_small hpc sT sn hx⟩
  · simp only [h, Bool.false_eq_true, if_false]
    have ex := Nn.exp_neg sx
    constructor
    · exact ((Nn.sim (((((Sim.lit 2 1 1).mul (sh hpc)).mul sn).mul sn).mul sn |>.div ((sc hpc).mul (sc hpc)))).mul ex).mono
        (by norm_num)
    · exact (((Nn.sim ((((((Sim.lit 2 1 1).mul (sh hpc)).mul (sh hpc)).mul sn).mul sn).mul sn |>.mul sn)).mul ex).div
        ((((sT.mul sT).mul (sc hpc)).mul (sc hpc)).mul (skb hpc))).mono (by norm_num)

end weights

theorem foldl_acc {α : Type} {k : ℤ} {f : IE binary64 × IE binary64 → α → IE binary64 × IE binary64} :
    ∀ (l : List α) (n : ℕ) (acc : IE binary64 × IE binary64), n + l.length ≤ 2 ^ 32 → Acc k n acc.1 → Acc k n acc.2 →
      (∀ s ∈ l, ∀ (n : ℕ) acc, n + 1 ≤ 2 ^ 32 → Acc k n acc.1 → Acc k n acc.2 →
        Acc k (n + 1) (f acc s).1 ∧ Acc k (n + 1) (f acc s).2) →
      Acc k (n + l.length) (l.foldl f acc).1 ∧ Acc k (n + l.length) (l.foldl f acc).2
  | [], n, acc, _, h1, h2, _ => ⟨h1, h2⟩
  | s :: l, n, acc, hn, h1, h2, hf => by
    simp only [List.length_cons] at hn ⊢
    obtain ⟨g1, g2⟩ := hf s (by simp) n acc (by omega) h1 h2
    have := foldl_acc l (n + 1) (f acc s) (by omega) g1 g2 (fun s hs => hf s (by simp [hs]))
    rwa [show n + (l.length + 1) = n + 1 + l.length by omega]

variable {pc : PC ℝ} (hpc : CgsSized pc)

include hpc in
/-- **the means of a group are nonnegative numbers or infinite** -/
theorem means_number {coef : IE binary64 → IE binary64 → IE binary64 → IE binary64} (hc : OrdinaryCoefficient coef)
    {rho T : IE binary64} {rho' T' : Fl rd64} (sr : Sim (-60) 60 rho rho') (sT : Sim (-20) 45 T T') {lo hi : IE binary64}
    (hlo : lo.val ≠ .nan) (hhi : UpperBound hi) {N : ℤ} (hN : 1 ≤ N) (hN' : N ≤ 2 ^ 31) :
    isNaN (ToLog (MGTables.GroupMeans pc.dbl coef rho T lo hi N).1) = false ∧
      isNaN (ToLog (MGTables.GroupMeans pc.dbl coef rho T lo hi N).2) = false := by
  have hs := samples hpc sT hlo hhi hN hN'
  have hlen : (GroupFrequencySamples pc.dbl T lo hi N).length ≤ 2 ^ 32 := by
    simp [GroupFrequencySamples]; omega
  have hden : Nn 992 (MGTables.GroupDenominators pc.dbl T lo hi N).1 ∧ Nn 992 (MGTables.GroupDenominators pc.dbl T lo hi N).2 := by
    have := foldl_acc (k := 960) (f := fun acc s =>
        let w := ThermalWeightsAtNu pc.dbl T s.1
        (acc.1 + w.1 * s.2, acc.2 + w.2 * s.2)) (GroupFrequencySamples pc.dbl T lo hi N) 0 (lit 0, lit 0) (by omega)
      Acc.zero Acc.zero (by
        intro s hmem n acc hn h1 h2
        obtain ⟨⟨b, sn⟩, sd⟩ := hs s hmem
        obtain ⟨w1, w2⟩ := weights_nn hpc sT sn
        exact ⟨h1.add ((w1.mul sd).mono (by norm_num)) hn (by norm_num) (by norm_num),
          h2.add ((w2.mul sd).mono (by norm_num)) hn (by norm_num) (by norm_num)⟩)
    exact ⟨this.1.nn (by omega), this.2.nn (by omega)⟩
  have hnum : Nn 992 (MGTables.GroupNumerators pc.dbl coef rho T lo hi N).1 ∧
      Nn 992 (MGTables.GroupNumerators pc.dbl coef rho T lo hi N).2 := by
    have := foldl_acc (k := 960) (f := fun acc s =>
      let alpha := coef rho T s.1
      let w := ThermalWeightsAtNu pc.dbl T s.1
      (acc.1 + alpha / rho * w.1 * s.2,
       if gt alpha Robust.SMALL then acc.2 + Robust.ratio rho alpha * w.2 * s.2 else acc.2))
       (GroupFrequencySamples pc.dbl T lo hi N) 0 (lit 0, lit 0) (by omega) Acc.zero Acc.zero (by
        intro s hmem n acc hn h1 h2
        obtain ⟨⟨b, sn⟩, sd⟩ := hs s hmem
        obtain ⟨w1, w2⟩ := weights_nn hpc sT sn
        have ha : OrdinaryOpacity (coef rho T s.1) := by
          rw [dbl_of_val sr.1, dbl_of_val sT.1, dbl_of_val sn.1]
          exact hc _ _ _ sr.2 sT.2 sn.2
        refine ⟨h1.add (((((ordinary_nn ha).div sr).mul w1).mul sd).mono (by norm_num)) hn (by norm_num) (by norm_num), ?_⟩
        show Acc 960 (n + 1) (if gt (coef rho T s.1) Robust.SMALL = true then _ else _)
        split_ifs with hg
        · obtain ⟨b', sa⟩ := ordinary_pos ha hg
          exact h2.add ((((Nn.sim (ratio_sim sr sa)).mul w2).mul sd).mono (by norm_num)) hn (by norm_num) (by norm_num)
        · exact h2.mono (by omega))
    exact ⟨this.1.nn (by omega), this.2.nn (by omega)⟩
  unfold MGTables.GroupMeans MGTables.MeansOfSums
  refine ⟨toLog_number (ratio_number hnum.1 hden.1 (by norm_num)), ?_⟩
  show isNaN (ToLog (if _ then _ else _)) = false
  split_ifs
  · exact toLog_number (ratio_number hden.2 hnum.2 (by norm_num))
  · exact toLog_number (.inr ⟨0, le_rfl, lit0_ie⟩)

/-- nodes of an axis -/
theorem node_sim {A B : ℝ} {lo hi : ℝ} {N : ℤ} (h : OrdinaryAxis A B lo hi N) {l u : ℤ} (hA : -40 ≤ A) (hB : B ≤ 40)
    (hl : l * (31 / 103) ≤ A - 1e-9) (hu : B + 1e-9 ≤ u * (31 / 103)) (l0 : l ≤ 0) (u0 : 0 ≤ u) (hl' : -1022 ≤ l)
    (hu' : u ≤ 1023) {i : ℕ} (hi' : (i : ℤ) < N) : ∃ b, Sim l u (FromLog ((⟨dbl lo, dbl hi, N⟩ : Grid (IE binary64)).x i)) b := by
  have h2 := h.two
  obtain ⟨d, ed, d0, d7, hd⟩ := line h.order (by linarith [h.lower]) (by linarith [h.upper]) (A := dbl lo) (B := dbl hi) rfl rfl
    (N := N - 1) (by omega) (by linarith [h.fits])
  obtain ⟨p, ep, v, ev, v1, v2⟩ := hd (lit_nat (n := i) (by have := h.fits; omega)) (by positivity) (by
    have : (i : ℤ) ≤ N - 1 := by omega
    exact_mod_cast this)
  have ex : ((⟨dbl lo, dbl hi, N⟩ : Grid (IE binary64)).x i).val = .fin v := by
    show (lit (i : ℚ) * ((dbl hi - dbl lo) / lit ((N : ℚ) - 1)) + dbl lo : IE binary64).val = _
    have e1 : ((N : ℚ) - 1) = ((N - 1 : ℤ) : ℚ) := by push_cast; ring
    rw [e1, add_val ep (show (dbl lo).val = .fin lo from rfl), add_comm p lo]
    exact ev
  exact fromLog_sim ex (by linarith [h.lower]) (by linarith [h.upper]) l0 u0 hl' hu'

end Opac.Doubles
