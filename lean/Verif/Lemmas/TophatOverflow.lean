import Verif.Lemmas.MeanOverflow
import Verif.Lemmas.NeutrinoMeanNumbers
import Verif.Model.Neutrinos
import Verif.Spec.MeanOutcome

/-! # Tophat emissivity far above the temperature, in doubles -/

namespace Opac.Doubles
open Arith Neutrinos MeanTables

theorem div_big {l h l' h' : ℤ} {a a' : IE binary64} {b b' : Fl rd64} (s : Sim l h a b) (s' : Sim l' h' a' b')
    (hl : 1024 ≤ l - h') : (a / a').val = .pinf := by
  show IE.round binary64 (XR.div a.val a'.val) = _
  rw [s.1, s'.1]
  have hp := s'.pos
  have : IE.round binary64 (XR.div (.fin b.val) (.fin b'.val)) = binary64.rd (b.val / b'.val) := by
    simp [XR.div, hp.ne', IE.round]
  rw [this]
  apply rd_big
  rw [le_div_iff₀ hp]
  calc (2 : ℝ) ^ (1024 : ℤ) * b'.val ≤ 2 ^ (1024 : ℤ) * 2 ^ h' := by gcongr; exact s'.2.2
    _ = 2 ^ (1024 + h') := by rw [zpow_add₀ (by norm_num)]
    _ ≤ 2 ^ l := zle (by omega)
    _ ≤ _ := s.2.1

theorem exp_big {l h : ℤ} {a : IE binary64} {b : Fl rd64} (s : Sim l h a b) (hl : 10 ≤ l) : (exp a).val = .pinf := by
  show XR.lift _ _ _ a.val = _
  rw [s.1]
  show binary64.rd (Real.exp b.val) = _
  have hb : (1024 : ℝ) ≤ b.val := le_trans (by norm_num) ((zle hl).trans s.2.1)
  apply rd_big
  have h2 : (2 : ℝ) ≤ Real.exp 1 := by linarith [Real.exp_one_gt_d9]
  calc (2 : ℝ) ^ (1024 : ℤ) = 2 ^ (1024 : ℕ) := zpow_natCast 2 1024
    _ ≤ Real.exp 1 ^ (1024 : ℕ) := pow_le_pow_left₀ (by norm_num) h2 _
    _ = Real.exp 1024 := by rw [← Real.exp_nat_mul]; norm_num
    _ ≤ _ := Real.exp_le_exp.2 hb

/-- the spectrum underflows to 0 -/
theorem fermi_zero {n : ℤ} (hn0 : 0 ≤ n) (hn : n ≤ 16) {pc : PC ℝ} (hpc : CgsSized pc) {T nu : IE binary64} {T' nu' : Fl rd64}
    (sT : Sim (-20) 20 T T') (sn : Sim 71 101 nu nu') : (FermiDirac.ThermalDistributionOfTNu ⟨n, pc.dbl⟩ T nu).val = .fin 0 := by
  have sx := ((sh hpc).mul sn).div ((skb hpc).mul sT)
  have he := exp_big sx (by norm_num)
  have sN : Nn 4 (lit (n : ℚ) : IE binary64) := by
    refine ⟨n, lit_int hn0 (by omega), by exact_mod_cast hn0, ?_⟩
    have : (n : ℝ) ≤ 16 := by exact_mod_cast hn
    linarith [show (2 : ℝ) ^ (4 : ℤ) = 16 by norm_num]
  have sA := (sN.mul (Nn.sim (((((Sim.lit 2 1 1).mul (sh hpc)).mul sn).mul sn).mul sn |>.div ((sc hpc).mul (sc hpc))))).mul
    (Nn.sim (Sim.lit 1 0 0))
  show (lit (n : ℚ) * (lit 2 * pc.dbl.h * nu * nu * nu / (pc.dbl.c * pc.dbl.c)) * lit 1 /
      (Arith.exp (pc.dbl.h * nu / (pc.dbl.kb * T)) + lit 1)).val = _
  generalize (lit (n : ℚ) * (lit 2 * pc.dbl.h * nu * nu * nu / (pc.dbl.c * pc.dbl.c)) * lit 1 : IE binary64) = A at sA ⊢
  generalize (Arith.exp (pc.dbl.h * nu / (pc.dbl.kb * T)) : IE binary64) = E at he ⊢
  have h1 : (lit 1 : IE binary64).val = .fin 1 := by
    have := lit_nat (n := 1) (by norm_num); simpa using this
  have hD : (E + lit 1).val = .pinf := by
    show IE.round binary64 (XR.add E.val (lit 1 : IE binary64).val) = _
    rw [he, h1]; rfl
  generalize E + lit 1 = D at hD ⊢
  obtain ⟨x, ex, -, -⟩ := sA
  show IE.round binary64 (XR.div A.val D.val) = _
  rw [ex, hD]
  exact binary64.rd_zero

theorem kirchhoff_big {d : FermiDirac (IE binary64)} {T nu j : IE binary64} {l h : ℤ} {j' : Fl rd64}
    (hB : (d.ThermalDistributionOfTNu T nu).val = .fin 0) (sj : Sim l h j j') (hl : 10 ≤ l) :
    (d.AbsorptionCoefficientFromKirchhoff j T nu).val = .pinf := by
  obtain ⟨c, sc⟩ := small_sim
  unfold FermiDirac.AbsorptionCoefficientFromKirchhoff
  have eE : (FermiDirac.EPS : IE binary64) = lit 10 * dmin := by
    unfold FermiDirac.EPS
    rw [show (10.0 : ℚ) = 10 by norm_num]
  have e1 : stdMax (d.ThermalDistributionOfTNu T nu) (FermiDirac.EPS : IE binary64) = lit 10 * dmin := by
    unfold stdMax
    rw [eE]
    have : lt (d.ThermalDistributionOfTNu T nu) (lit 10 * dmin : IE binary64) = true := by
      show XR.lt (d.ThermalDistributionOfTNu T nu).val (lit 10 * dmin : IE binary64).val = true
      rw [hB, sc.1]
      exact decide_eq_true sc.pos
    rw [this]; rfl
  have e2 : stdMax j (FermiDirac.EPS : IE binary64) = j := by
    unfold stdMax
    rw [eE]
    have : lt j (lit 10 * dmin : IE binary64) = false := by
      show XR.lt j.val (lit 10 * dmin : IE binary64).val = false
      rw [sj.1, sc.1]
      refine decide_eq_false (not_lt.2 (sc.2.2.trans ((zle ?_).trans sj.2.1)))
      omega
    rw [this]; rfl
  simp only [e1, e2]
  unfold Robust.ratio
  rw [(sgn_ie sc).1, Int.cast_one]
  have s1 := sc.add ((Sim.lit 1 0 0).mul sc) (k := -1017)
  exact div_big sj s1 (by omega)

theorem node_zero {lo hi : ℝ} {N : ℤ} (h : OrdinaryAxis (-40) 40 lo hi N) (hlo : binary64.rd lo = .fin lo) :
    (⟨dbl lo, dbl hi, N⟩ : Spiner.Grid (IE binary64)).x 0 = dbl lo := by
  have h2 := h.two
  obtain ⟨d, ed, -, -, -⟩ := line h.order (by linarith [h.lower]) (by linarith [h.upper]) (A := dbl lo) (B := dbl hi) rfl rfl
    (N := N - 1) (by omega) (by linarith [h.fits])
  refine dbl_of_val ?_
  show (lit ((0 : ℕ) : ℚ) * ((dbl hi - dbl lo) / lit ((N : ℚ) - 1)) + dbl lo : IE binary64).val = _
  rw [show ((N : ℚ) - 1) = ((N - 1 : ℤ) : ℚ) by push_cast; ring]
  generalize (dbl hi - dbl lo) / lit ((N - 1 : ℤ) : ℚ) = D at ed ⊢
  have hm : (lit ((0 : ℕ) : ℚ) * D : IE binary64).val = .fin 0 := by
    show IE.round binary64 (XR.mul (lit ((0 : ℕ) : ℚ) : IE binary64).val D.val) = _
    rw [Nat.cast_zero, lit0_ie, ed]
    show binary64.rd (0 * d) = _
    rw [zero_mul]; exact binary64.rd_zero
  rw [add_val hm (show (dbl lo).val = .fin lo from rfl), zero_add, hlo]

/-- one sample of a tophat inside its band and far above the temperature makes the Planck sum NaN -/
theorem tophat_sample {o : TophatEmissivity (IE binary64)} {n : ℤ} {pc : PC ℝ} (hpc : CgsSized pc) (hd : o.dist = ⟨n, pc.dbl⟩)
    (hn0 : 0 ≤ n) (hn : n ≤ 16) {C : Fl rd64} (sC : Sim 20 200 o.C_ C) {rho T Ye nu dlnu D : IE binary64} {rho' T' Ye' nu' : Fl rd64}
    (sr : Sim (-60) 60 rho rho') (sT : Sim (-20) 20 T T') (sY : Sim (-10) 10 Ye Ye') (sn : Sim 71 101 nu nu')
    (h1 : gt nu o.numin_ = true) (h2 : lt nu o.numax_ = true) (s : Sums (IE binary64)) :
    (addSample rho (o.AbsorptionCoefficient rho T Ye .NU_ELECTRON nu) (o.dist.ThermalDistributionOfTNu T nu) D nu dlnu
      s).planckNum.val = .nan := by
  have hB := fermi_zero hn0 hn hpc sT sn
  rw [← hd] at hB
  have ha : (o.AbsorptionCoefficient rho T Ye .NU_ELECTRON nu).val = .pinf := by
    unfold TophatEmissivity.AbsorptionCoefficient
    refine inf_div (kirchhoff_big hB (j' := C * (lit 2 * Ye')) (l := 11) (h := 212) ?_ (by norm_num)) ((Sim.lit 4 2 2).mul Sim.pi)
    unfold TophatEmissivity.EmissivityPerNuOmega
    rw [h1, h2]
    exact (sC.mul ((Sim.lit 2 1 1).mul sY)).mono (by norm_num) (by norm_num)
  exact add_nan (mul_nan' (mul_nan' (inf_mul_zero (inf_div ha sr) hB)))

end Opac.Doubles
