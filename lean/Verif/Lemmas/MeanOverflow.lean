import Verif.Lemmas.MeanNumbers
import Verif.Lemmas.SingleNode

/-! Frequencies so high that their cube overflows. -/

namespace Opac.Doubles
open Arith Photons

theorem rd_big {x : ℝ} (h : 2 ^ (1024 : ℤ) ≤ x) : binary64.rd x = .pinf := by
  have h1 := double64.near_mono h
  rw [near_two (by norm_num)] at h1
  show double64.rd x = _
  unfold BinaryParams.rd
  exact if_pos h1

theorem mul_big {l h l' h' : ℤ} {a a' : IE binary64} {b b' : Fl rd64} (s : Sim l h a b) (s' : Sim l' h' a' b')
    (hl : 1024 ≤ l + l') : (a * a').val = .pinf := by
  show IE.round binary64 (XR.mul a.val a'.val) = _
  rw [s.1, s'.1]
  show binary64.rd (b.val * b'.val) = _
  refine rd_big ((zle hl).trans ?_)
  rw [zpow_add₀ (by norm_num)]
  exact mul_le_mul s.2.1 s'.2.1 (by positivity) s.pos.le

theorem inf_mul {l h : ℤ} {a a' : IE binary64} {b : Fl rd64} (e : a.val = .pinf) (s : Sim l h a' b) : (a * a').val = .pinf := by
  show IE.round binary64 (XR.mul a.val a'.val) = _
  rw [e, s.1]
  have h := s.pos
  simp [XR.mul, XR.signInf, h, h.ne', IE.round]

theorem inf_div {l h : ℤ} {a a' : IE binary64} {b : Fl rd64} (e : a.val = .pinf) (s : Sim l h a' b) : (a / a').val = .pinf := by
  show IE.round binary64 (XR.div a.val a'.val) = _
  rw [e, s.1]
  have h := s.pos
  simp [XR.div, XR.signInf, h, h.ne', h.le, IE.round]

theorem inf_mul_zero {a a' : IE binary64} (e : a.val = .pinf) (e' : a'.val = .fin 0) : (a * a').val = .nan := by
  show IE.round binary64 (XR.mul a.val a'.val) = _
  rw [e, e']
  simp [XR.mul, XR.signInf, IE.round]

theorem near_tiny {x : ℝ} (h0 : 0 ≤ x) (h : x ≤ 2 ^ (-1076 : ℤ)) : double64.near x = 0 := by
  refine le_antisymm ?_ (double64.near_nonneg h0)
  refine (double64.near_mono h).trans (le_of_eq ?_)
  have hl : Int.log 2 |(2 : ℝ) ^ (-1076 : ℤ)| = -1076 := by
    rw [abs_of_pos (by positivity)]
    exact_mod_cast Int.log_zpow (R := ℝ) (b := 2) (by norm_num) (-1076)
  have hu : double64.ue ((2 : ℝ) ^ (-1076 : ℤ)) = -1074 := by
    unfold BinaryParams.ue
    rw [hl]; rfl
  unfold BinaryParams.near
  rw [hu, ← zpow_sub₀ (by norm_num)]
  have : rne ((2 : ℝ) ^ (-1076 - -1074 : ℤ)) = 0 := by
    have e : ((2 : ℝ) ^ (-1076 - -1074 : ℤ)) = 1 / 4 := by norm_num
    have f : ⌊(1 / 4 : ℝ)⌋ = 0 := by norm_num [Int.floor_eq_iff]
    rw [e]; unfold rne; rw [f]; norm_num
  rw [this]; simp

theorem exp_zero {l h : ℤ} {a : IE binary64} {b : Fl rd64} (s : Sim l h a b) (hl : 10 ≤ l) : (exp (-a)).val = .fin 0 := by
  show XR.lift _ _ _ (XR.neg a.val) = _
  rw [s.1]
  show binary64.rd (Real.exp (-b.val)) = _
  have hb : (1024 : ℝ) ≤ b.val := le_trans (by norm_num) ((zle hl).trans s.2.1)
  have h1 : Real.exp (-b.val) ≤ 2 ^ (-1076 : ℤ) := by
    rw [← Real.log_le_log_iff (Real.exp_pos _) (by positivity), Real.log_exp, Real.log_zpow]
    have := Real.log_two_lt_d9
    push_cast
    linarith
  rw [rd_near, near_tiny (Real.exp_pos _).le h1]
  rw [abs_of_pos (Real.exp_pos _)]
  exact h1.trans (zle (by norm_num))

section nan
variable {a b : IE binary64}

theorem add_nan (h : b.val = .nan) : (a + b).val = .nan := by
  show IE.round binary64 (XR.add a.val b.val) = _
  rw [h]; cases a.val <;> rfl

theorem nan_add (h : a.val = .nan) : (a + b).val = .nan := by
  show IE.round binary64 (XR.add a.val b.val) = _
  rw [h]; cases b.val <;> rfl

theorem mul_nan (h : b.val = .nan) : (a * b).val = .nan := by
  show IE.round binary64 (XR.mul a.val b.val) = _
  rw [h]; cases a.val <;> rfl

theorem mul_nan' (h : a.val = .nan) : (a * b).val = .nan := by
  show IE.round binary64 (XR.mul a.val b.val) = _
  rw [h]; cases b.val <;> rfl

theorem ratio_nan (h : a.val = .nan) : (Robust.ratio a b).val = .nan := by
  unfold Robust.ratio
  generalize b + lit (Robust.sgn b) * Robust.SMALL = c
  show IE.round binary64 (XR.div a.val c.val) = _
  rw [h]; cases c.val <;> rfl

theorem log_nan (h : a.val = .nan) : isNaN (ToLog a) = true := by
  have e : ToLog a = log10 (abs a + lit 10 * dmin) := rfl
  have h1 : (abs a : IE binary64).val = .nan := by
    show XR.lift _ _ _ a.val = _
    rw [h]; rfl
  have h2 := nan_add (b := lit 10 * dmin) h1
  rw [e]
  generalize (abs a + lit 10 * dmin : IE binary64) = c at h2
  cases c; subst h2; rfl

theorem fold_nan {α : Type} {f : IE binary64 × IE binary64 → α → IE binary64 × IE binary64} :
    ∀ {l : List α} {a : IE binary64 × IE binary64}, l ≠ [] → (∀ a, ∀ s ∈ l, (f a s).1.val = .nan) → (l.foldl f a).1.val = .nan
  | [s], a, _, h => h a s (by simp)
  | s :: t :: l, a, _, h => fold_nan (l := t :: l) (a := f a s) (by simp) fun a s m => h a s (by simp [m])

end nan

variable {pc : PC ℝ} (hpc : CgsSized pc)
include hpc

theorem weights_big {T nu : IE binary64} {T' nu' : Fl rd64} (sT : Sim (-20) 0 T T') (sn : Sim 690 1002 nu nu') :
    (ThermalWeightsAtNu pc.dbl T nu).1.val = .nan := by
  have sx := ((sh hpc).mul sn).div ((skb hpc).mul sT)
  have h80 : (wien_tail_x : IE binary64).val = .fin 80 := by
    have := lit_nat (n := 80) (by norm_num)
    simpa [wien_tail_x] using this
  have hl : lt (pc.dbl.h * nu / (pc.dbl.kb * T)) (wien_tail_x : IE binary64) = false := by
    show XR.lt (pc.dbl.h * nu / (pc.dbl.kb * T)).val (wien_tail_x : IE binary64).val = false
    rw [sx.1, h80]
    simp only [XR.lt, decide_eq_false_iff_not, not_lt]
    refine le_trans (show (80 : ℝ) ≤ 2 ^ (10 : ℤ) by norm_num) ((zle (by norm_num)).trans sx.2.1)
  unfold ThermalWeightsAtNu
  simp only [hl, Bool.false_eq_true, if_false]
  exact inf_mul_zero (inf_div (inf_mul (mul_big (((Sim.lit 2 1 1).mul (sh hpc)).mul sn) sn (by norm_num)) sn)
    ((sc hpc).mul (sc hpc))) (exp_zero sx (by norm_num))

omit hpc in
theorem toLog_big {a : IE binary64} {b : Fl rd64} {l h : ℤ} (s : Sim l h a b) (hl : 0 ≤ l) (hh : h ≤ 1020) :
    ∃ y, (ToLog a).val = .fin y ∧ l * (31 / 103) - 1e-11 ≤ y := by
  obtain ⟨c, sc⟩ := small_sim
  have lh : l ≤ h := (zpow_le_zpow_iff_right₀ (by norm_num : (1 : ℝ) < 2)).1 (s.2.1.trans s.2.2)
  have l10 : 0 < Real.log 10 := Real.log_pos (by norm_num)
  have sx : Bits l (h + 1) (b.val + c.val) := by
    have e2 : (2 : ℝ) ^ (h + 1) = 2 ^ h + 2 ^ h := by rw [zpow_add₀ (by norm_num)]; ring
    refine ⟨by linarith [s.2.1, sc.pos], ?_⟩
    rw [e2]; exact add_le_add s.2.2 (sc.2.2.trans (zle (by omega)))
  have nb := near_bits (by omega) (by omega) sx
  obtain ⟨y, ey, -⟩ := toLog_sim (l := 0) (h := h) (s.mono hl le_rfl) le_rfl (by omega) (by norm_num) hh
  refine ⟨y, ey, ?_⟩
  have hv : (abs a + lit 10 * dmin : IE binary64).val = .fin (double64.near (b.val + c.val)) := by
    show IE.round binary64 (XR.add (XR.lift _ _ _ a.val) (lit 10 * dmin : IE binary64).val) = _
    rw [s.1, sc.1]
    show binary64.rd (|b.val| + c.val) = _
    rw [abs_of_pos s.pos]
    exact rd_near (by rw [abs_of_pos (add_pos s.pos sc.pos)]; exact sx.2.trans (zle (by omega)))
  have ey' : XR.lift (fun x => if 0 < x then binary64.log10 x else if x = 0 then .ninf else .nan) .nan .pinf
        (abs a + lit 10 * dmin : IE binary64).val = .fin y := ey
  rw [hv] at ey'
  generalize double64.near (b.val + c.val) = x at *
  have hx : 0 < x := lt_of_lt_of_le (by positivity) nb.1
  simp only [XR.lift, hx, if_true] at ey'
  have b1 : (l : ℝ) * Real.log 2 ≤ Real.log x := by
    have := Real.log_le_log (by positivity) nb.1
    rwa [Real.log_zpow] at this
  have b2 : Real.log x ≤ ((h + 1 : ℤ) : ℝ) * Real.log 2 := by
    have := Real.log_le_log hx nb.2
    rwa [Real.log_zpow] at this
  obtain ⟨c1, c2⟩ := log_two_ten
  have l0' : (0 : ℝ) ≤ l := by exact_mod_cast hl
  have h0' : (0 : ℝ) ≤ ((h + 1 : ℤ) : ℝ) := by exact_mod_cast (by omega : 0 ≤ h + 1)
  have hh' : ((h + 1 : ℤ) : ℝ) ≤ 1021 := by exact_mod_cast (by omega : h + 1 ≤ 1021)
  have r1 : l * (31 / 103) ≤ Real.logb 10 x := by
    show _ ≤ Real.log x / Real.log 10
    rw [le_div_iff₀ l10]
    nlinarith
  have r2 : Real.logb 10 x ≤ (h + 1 : ℤ) * (28 / 93) := by
    show Real.log x / Real.log 10 ≤ _
    rw [div_le_iff₀ l10]
    nlinarith
  have r3 : |Real.logb 10 x| ≤ 1000 := by rw [abs_le]; constructor <;> nlinarith
  have ey2 : binary64.rd (Real.logb 10 x) = .fin y := ey'
  rw [rd_mid r3] at ey2
  have := abs_le.1 (near_mid r3)
  rw [XR.fin.inj ey2] at this
  linarith [this.1]

omit hpc in
theorem fromLog_big {a : IE binary64} {y : ℝ} (e : a.val = .fin y) {l h : ℤ} (h1 : l * (28 / 93) ≤ y)
    (h2 : y ≤ h * (31 / 103)) (l0 : 0 ≤ l) (h0 : 0 ≤ h) (hh : h ≤ 1023) : ∃ b, Sim l h (FromLog a) b := by
  have e10 : (lit 10 : Fl rd64).val = 10 := by
    show rd64 ((10 : ℚ) : ℝ) = 10
    have := rd64_binary.ints 10 (by norm_num)
    simpa using this
  have h10 : Real.logb 2 10 = Real.log 10 / Real.log 2 := rfl
  have l2 : 0 < Real.log 2 := Real.log_pos (by norm_num)
  have l10 : 0 < Real.log 10 := Real.log_pos (by norm_num)
  obtain ⟨c, c'⟩ := log_two_ten
  have l0' : (0 : ℝ) ≤ l := by exact_mod_cast l0
  have h0' : (0 : ℝ) ≤ h := by exact_mod_cast h0
  refine ⟨_, Sim.pow (b := lit 10) (q := ⟨y⟩) (Sim.lit 10 3 4) e ?_ ?_ (by omega) hh⟩
  · show (l : ℝ) ≤ y * Real.logb 2 (lit 10 : Fl rd64).val
    rw [e10, h10, mul_div_assoc', le_div_iff₀ l2]
    have := mul_le_mul_of_nonneg_right h1 l10.le
    nlinarith
  · show y * Real.logb 2 (lit 10 : Fl rd64).val ≤ h
    rw [e10, h10, mul_div_assoc', div_le_iff₀ l2]
    have := mul_le_mul_of_nonneg_right h2 l10.le
    nlinarith

/-- a group above the thermal range with a huge upper bound is sampled just below that bound -/
theorem window_big {T : IE binary64} {T' : Fl rd64} (sT : Sim (-20) 0 T T') {lo hi : ℝ} (hlo : Bits 51 1000 lo)
    (hhi : Bits 700 1000 hi) : SampleWindow pc.dbl T (dbl lo) (dbl hi) = (lit 0.5 * dbl hi, dbl hi) := by
  have sm : ∃ b, Sim (-6) 76 (lit 1.e-3 * pc.dbl.kb * T / pc.dbl.h) b :=
    ⟨_, ((((Sim.lit 1.e-3 (-10) (-9)).mul (skb hpc)).mul sT).div (sh hpc)).mono (by norm_num) (by norm_num)⟩
  have sM : ∃ b, Sim 13 50 (lit 1.e3 * pc.dbl.kb * T / pc.dbl.h) b :=
    ⟨_, ((((Sim.lit 1.e3 9 10).mul (skb hpc)).mul sT).div (sh hpc)).mono (by norm_num) (by norm_num)⟩
  have sm' : ∃ b, Sim (-6) 41 (lit 1.e-3 * pc.dbl.kb * T / pc.dbl.h) b :=
    ⟨_, ((((Sim.lit 1.e-3 (-10) (-9)).mul (skb hpc)).mul sT).div (sh hpc)).mono (by norm_num) (by norm_num)⟩
  unfold SampleWindow
  generalize (lit 1.e-3 * pc.dbl.kb * T / pc.dbl.h) = m at sm sm' ⊢
  generalize (lit 1.e3 * pc.dbl.kb * T / pc.dbl.h) = M at sM ⊢
  obtain ⟨mb, sm⟩ := sm'
  obtain ⟨Mb, sM⟩ := sM
  have s10 := (Sim.lit 0.1 (-4) (-3)).mul sm
  have s100 := (Sim.lit 10 3 4).mul sM
  have hlo0 : (0 : ℝ) < lo := lt_of_lt_of_le (by positivity) hlo.1
  have hhi0 : (0 : ℝ) < hi := lt_of_lt_of_le (by positivity) hhi.1
  have c1 : eqb (dbl lo) (lit 0) = false := by
    show XR.eqb (.fin lo) (lit 0 : IE binary64).val = false
    rw [lit0_ie]; simpa [XR.eqb] using hlo0.ne'
  have c2 : lt (dbl lo) (lit 0.1 * m) = false := by
    show XR.lt (.fin lo) (lit 0.1 * m : IE binary64).val = false
    rw [s10.1]
    simp only [XR.lt, decide_eq_false_iff_not, not_lt]
    exact s10.2.2.trans ((zle (by norm_num)).trans hlo.1)
  have c3 : gt (dbl hi) (lit 10 * M) = true := by
    show XR.lt (lit 10 * M : IE binary64).val (.fin hi) = true
    rw [s100.1]
    simp only [XR.lt, decide_eq_true_eq]
    exact lt_of_le_of_lt s100.2.2 (lt_of_lt_of_le (zpow_lt_zpow_right₀ (by norm_num) (show (4 + 50 : ℤ) < 700 by norm_num)) hhi.1)
  have c4 : ge (dbl lo) M = true := by
    show XR.le M.val (.fin lo) = true
    rw [sM.1]
    simp only [XR.le, decide_eq_true_eq]
    exact sM.2.2.trans ((zle (by norm_num)).trans hlo.1)
  have c5 : gt (dbl hi) (lit 0) = true := by
    show XR.lt (lit 0 : IE binary64).val (.fin hi) = true
    rw [lit0_ie]; simpa [XR.lt] using hhi0
  have c6 : isFinite (dbl hi) = true := rfl
  simp [c1, c2, c3, c4, c5, c6]

theorem samples_big {T : IE binary64} {T' : Fl rd64} (sT : Sim (-20) 0 T T') {lo hi : ℝ} (hlo : Bits 51 1000 lo)
    (hhi : Bits 700 1000 hi) {N : ℤ} (hN : 1 ≤ N) (hN' : N ≤ 2 ^ 31) :
    ∀ s ∈ GroupFrequencySamples pc.dbl T (dbl lo) (dbl hi) N, ∃ b, Sim 690 1002 s.1 b := by
  have s2 : Sim 700 1000 (dbl hi) (⟨hi⟩ : Fl rd64) := ⟨rfl, hhi⟩
  have s1 := (Sim.lit 0.5 (-1) (-1)).mul s2
  obtain ⟨y1, e1, l1⟩ := toLog_big s1 (by norm_num) (by norm_num)
  obtain ⟨y1', e1', -, -, hm⟩ := toLog_sim (l := 0) (h := 1000) (s1.mono (by norm_num) (by norm_num))
  obtain ⟨y2, e2, hy⟩ := hm (s2.mono (by norm_num) (by norm_num)) (shrink (Sim.lit 0.5 (-1) (-1)) s2 le_rfl)
  obtain ⟨y2', e2', -, u2, -⟩ := toLog_sim (l := 0) (h := 1000) (s2.mono (by norm_num) (by norm_num))
  have : y2 = y2' := by rw [e2] at e2'; exact XR.fin.inj e2'
  subst this
  have : y1 = y1' := by rw [e1] at e1'; exact XR.fin.inj e1'
  subst this
  norm_num at l1 u2
  intro s hs
  unfold GroupFrequencySamples at hs
  rw [window_big hpc sT hlo hhi] at hs
  simp only [List.mem_map, List.mem_range] at hs
  obtain ⟨i, hi', rfl⟩ := hs
  obtain ⟨d, ed, d0, d7, hd⟩ := line hy (by linarith) (by linarith) e1 e2 hN hN'
  have hiN : (i : ℤ) + 1 ≤ N := by omega
  have hiN' : (i : ℝ) + 1 ≤ N := by exact_mod_cast hiN
  obtain ⟨p, ep, v, ev, v1, v2⟩ := hd (half (i := i) (by omega)) (by positivity) (by linarith)
  exact fromLog_big ((add_val e1 ep).trans ev) (by norm_num; linarith) (by norm_num; linarith) (by norm_num) (by norm_num)
    (by norm_num)

end Opac.Doubles
