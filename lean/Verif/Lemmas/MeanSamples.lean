import Verif.Lemmas.MeanWindow

/-! The frequencies and thermal weights of the photon means in double precision. -/

namespace Opac.Doubles
open Arith Photons

variable {pc : PC ℝ} (hpc : CgsSized pc)

/-- an accepted upper group bound of ordinary size -/
def UpperBound (a : IE binary64) : Prop := a.val = .pinf ∨ ∃ x, a.val = .fin x ∧ Bits (-18) 99 x

theorem add_val {a b : IE binary64} {x y : ℝ} (ha : a.val = .fin x) (hb : b.val = .fin y) : (a + b).val = binary64.rd (x + y) := by
  show IE.round binary64 (XR.add a.val b.val) = _
  rw [ha, hb]; rfl

theorem shrink {l h l' h' : ℤ} {a a' : IE binary64} {b b' : Fl rd64} (s : Sim l h a b) (s' : Sim l' h' a' b') (hh : h ≤ -1) :
    (b * b').val ≤ b'.val := by
  have h1 : b.val ≤ 1 / 2 := s.2.2.trans ((zle hh).trans (by norm_num))
  have hp := s.pos
  have hp' := s'.pos
  have e := abs_le.1 (rd64_binary.err (b.val * b'.val))
  show rd64 (b.val * b'.val) ≤ _
  rw [abs_of_pos (mul_pos hp hp')] at e
  have : b.val * b'.val ≤ 1 / 2 * b'.val := by gcongr
  have hu : (2 : ℝ) ^ (-53 : ℤ) * (b.val * b'.val) ≤ 1 / 2 * (b.val * b'.val) := by
    have : (2 : ℝ) ^ (-53 : ℤ) ≤ 1 / 2 := by norm_num
    have := mul_pos hp hp'
    gcongr
  have e2 := e.2.trans hu
  clear e hu
  linarith

include hpc in
theorem window {T : IE binary64} {T' : Fl rd64} (sT : Sim (-20) 45 T T') {lo hi : IE binary64} (hlo : lo.val ≠ .nan)
    (hhi : UpperBound hi) :
    ∃ b1 b2, Sim (-19) 99 (SampleWindow pc.dbl T lo hi).1 b1 ∧ Sim (-19) 99 (SampleWindow pc.dbl T lo hi).2 b2 ∧
      b1.val ≤ b2.val := by
  have smin : ∃ b, Sim (-6) 76 (lit 1.e-3 * pc.dbl.kb * T / pc.dbl.h) b :=
    ⟨_, ((((Sim.lit 1.e-3 (-10) (-9)).mul (skb hpc)).mul sT).div (sh hpc)).mono (by norm_num) (by norm_num)⟩
  have smax : ∃ b, Sim 13 95 (lit 1.e3 * pc.dbl.kb * T / pc.dbl.h) b :=
    ⟨_, ((((Sim.lit 1.e3 9 10).mul (skb hpc)).mul sT).div (sh hpc)).mono (by norm_num) (by norm_num)⟩
  unfold SampleWindow
  generalize (lit 1.e-3 * pc.dbl.kb * T / pc.dbl.h) = m at smin ⊢
  generalize (lit 1.e3 * pc.dbl.kb * T / pc.dbl.h) = M at smax ⊢
  obtain ⟨mb, sm⟩ := smin
  obtain ⟨Mb, sM⟩ := smax
  have s10 := (Sim.lit 0.1 (-4) (-3)).mul sm
  have s100 := (Sim.lit 10 3 4).mul sM
  have hl : ∃ (c : IE binary64), (if (eqb lo (lit 0) || lt lo (lit 0.1 * m)) = true then m else lo) = c ∧
      (c.val = .pinf ∨ ∃ x, c.val = .fin x ∧ (2 : ℝ) ^ (-10 : ℤ) ≤ x) := by
    refine ⟨_, rfl, ?_⟩
    split_ifs with h
    · exact .inr ⟨_, sm.1, (zle (by norm_num)).trans sm.2.1⟩
    · rw [Bool.or_eq_true, not_or] at h
      have h2 : ¬ XR.lt lo.val (lit 0.1 * m : IE binary64).val = true := h.2
      rw [s10.1] at h2
      cases e : lo.val with
      | nan => exact absurd e hlo
      | pinf => exact .inl rfl
      | ninf => rw [e] at h2; simp [XR.lt] at h2
      | fin x =>
        rw [e] at h2
        simp only [XR.lt, decide_eq_true_eq, not_lt] at h2
        exact .inr ⟨x, rfl, (zle (by norm_num)).trans (s10.2.1.trans h2)⟩
  have hh : ∃ (c : IE binary64) (b : Fl rd64), (if (!(isFinite hi) || gt hi (lit 10 * M)) = true then M else hi) = c ∧
      Sim (-18) 99 c b := by
    split_ifs with h
    · exact ⟨_, _, rfl, sM.mono (by norm_num) (by norm_num)⟩
    · rcases hhi with e | ⟨x, e, hx⟩
      · exfalso; apply h
        have : isFinite hi = false := by cases hi; subst e; rfl
        rw [this]; rfl
      · exact ⟨_, ⟨x⟩, rfl, e, hx⟩
  obtain ⟨c, ec, hc⟩ := hl
  obtain ⟨C, Cb, eC, hC⟩ := hh
  simp only [ec, eC]
  by_cases hge : ge c C = true
  · rw [if_pos hge]
    by_cases hf : (isFinite hi && gt hi (lit 0)) = true
    · rw [if_pos hf]
      rcases hhi with e | ⟨x, e, hx⟩
      · exfalso
        have : isFinite hi = false := by cases hi; subst e; rfl
        rw [this] at hf; simp at hf
      · have s' : Sim (-18) 99 hi (⟨x⟩ : Fl rd64) := ⟨e, hx⟩
        exact ⟨_, _, ((Sim.lit 0.5 (-1) (-1)).mul s').mono (by norm_num) (by norm_num), s'.mono (by norm_num) (by norm_num),
          shrink (Sim.lit 0.5 (-1) (-1)) s' le_rfl⟩
    · rw [if_neg hf]
      exact ⟨_, _, ((Sim.lit 0.1 (-4) (-3)).mul sM).mono (by norm_num) (by norm_num), sM.mono (by norm_num) (by norm_num),
        shrink (Sim.lit 0.1 (-4) (-3)) sM (by norm_num)⟩
  · rw [if_neg hge]
    have h2 : ¬ XR.le C.val c.val = true := hge
    rw [hC.1] at h2
    rcases hc with e | ⟨x, e, hx⟩
    · rw [e] at h2; simp [XR.le] at h2
    · rw [e] at h2
      simp only [XR.le, decide_eq_true_eq, not_le] at h2
      exact ⟨⟨x⟩, Cb, ⟨e, (zle (by norm_num)).trans hx, h2.le.trans hC.2.2⟩, hC.mono (by norm_num) le_rfl, h2.le⟩

/-- the middle of a part -/
theorem half {i : ℕ} (hi : (i : ℤ) < 2 ^ 31) : (lit (i : ℚ) + lit 0.5 : IE binary64).val = .fin ((i : ℝ) + 0.5) := by
  have h05 : (lit 0.5 : IE binary64).val = .fin 0.5 := by
    show binary64.rd ((0.5 : ℚ) : ℝ) = _
    have := near_two (h := -1) (by norm_num)
    rw [show ((0.5 : ℚ) : ℝ) = 2 ^ (-1 : ℤ) by norm_num, rd_mid (by rw [abs_of_pos (by norm_num)]; norm_num), this]
    norm_num
  show IE.round binary64 (XR.add (lit (i : ℚ) : IE binary64).val (lit 0.5 : IE binary64).val) = _
  rw [h05, lit_nat (by omega)]
  show binary64.rd ((i : ℝ) + 0.5) = _
  have hx : ((i : ℝ) + 0.5) = ((2 * i + 1 : ℕ) : ℤ) * 2 ^ (-1 : ℤ) := by push_cast; ring
  have := double64.near_fix (e := -1) (k := ((2 * i + 1 : ℕ) : ℤ)) (by norm_num [double64]) (by
    rw [abs_of_nonneg (by positivity)]
    show (((2 * i + 1 : ℕ) : ℤ)) ≤ 2 ^ 53
    push_cast; omega)
  rw [← hx] at this
  rw [rd_near, this]
  rw [abs_of_nonneg (by positivity)]
  have h3 : (i : ℝ) + 1 ≤ 2 ^ (31 : ℤ) := by exact_mod_cast (by omega : (i : ℤ) + 1 ≤ 2 ^ 31)
  exact (show (i : ℝ) + 0.5 ≤ 2 ^ (31 : ℤ) by linarith).trans (zle (by norm_num))

/-- the frequencies in the middle of the parts of a logarithmic axis, and the width of the parts -/
theorem points {y1 y2 : ℝ} {L1 L2 : IE binary64} (e1 : L1.val = .fin y1) (e2 : L2.val = .fin y2) (hy : y1 ≤ y2) (l1 : -6.01 ≤ y1)
    (u2 : y2 ≤ 30.39) {N : ℤ} (hN : 1 ≤ N) (hN' : N ≤ 2 ^ 31) :
    Nn 10 ((L2 - L1) / lit (N : ℚ) : IE binary64) ∧
    ∀ i : ℕ, (i : ℤ) < N → ∃ b, Sim (-20) 101
      (FromLog (L1 + (lit (i : ℚ) + lit 0.5) * ((L2 - L1) / lit (N : ℚ))) : IE binary64) b := by
  obtain ⟨d, ed, d0, d7, hd⟩ := line hy (by linarith) (by linarith) e1 e2 hN hN'
  refine ⟨⟨d, ed, d0, d7⟩, ?_⟩
  intro i hi
  have hiN : (i : ℤ) + 1 ≤ N := by omega
  have hiN' : (i : ℝ) + 1 ≤ N := by exact_mod_cast hiN
  obtain ⟨p, ep, v, ev, v1, v2⟩ := hd (half (i := i) (by omega)) (by positivity) (by linarith)
  have el := (add_val e1 ep).trans ev
  obtain ⟨nb, sn⟩ := fromLog_sim (l := -20) (h := 101) el (by norm_num; linarith) (by norm_num; linarith)
  exact ⟨nb, sn⟩

include hpc in
/-- the sample frequencies and their widths -/
theorem samples {T : IE binary64} {T' : Fl rd64} (sT : Sim (-20) 45 T T') {lo hi : IE binary64} (hlo : lo.val ≠ .nan)
    (hhi : UpperBound hi) {N : ℤ} (hN : 1 ≤ N) (hN' : N ≤ 2 ^ 31) :
    ∀ s ∈ GroupFrequencySamples pc.dbl T lo hi N, (∃ b, Sim (-20) 101 s.1 b) ∧ Nn 111 s.2 := by
  obtain ⟨b1, b2, s1, s2, hb⟩ := window hpc sT hlo hhi
  obtain ⟨y1, e1, l1, -, hm⟩ := toLog_sim s1
  obtain ⟨y2, e2, hy⟩ := hm s2 hb
  obtain ⟨y2', e2', -, u2, -⟩ := toLog_sim s2
  have : y2 = y2' := by rw [e2] at e2'; exact XR.fin.inj e2'
  subst this
  norm_num at l1 u2
  obtain ⟨h7, hp⟩ := points e1 e2 hy (by linarith) (by linarith) hN hN'
  intro s hs
  unfold GroupFrequencySamples at hs
  simp only [List.mem_map, List.mem_range] at hs
  obtain ⟨i, hi, rfl⟩ := hs
  obtain ⟨nb, sn⟩ := hp i (by omega)
  exact ⟨⟨nb, sn⟩, (Nn.sim sn).mul h7⟩

end Opac.Doubles
