import Verif.Lemmas.NeutrinoMeanNumbers

/-! The default frequency window of the neutrino means in double precision. -/

namespace Opac.Doubles
open Arith Neutrinos MeanTables

theorem rd64_mono {l h : ℤ} {x y : ℝ} (hx : Bits l h x) (hy : Bits l h y) (hl : -1022 ≤ l) (hh : h ≤ 1023) (hxy : x ≤ y) :
    rd64 x ≤ rd64 y := by
  have key : ∀ {z : ℝ}, Bits l h z → rd64 z = double64.near z := by
    intro z hz
    have h0 : 0 < z := lt_of_lt_of_le (by positivity) hz.1
    have e := (rd_eq hl hh hz).1
    rw [rd_near (by rw [abs_of_pos h0]; exact hz.2.trans (zle hh))] at e
    exact (XR.fin.inj e).symm
  rw [key hx, key hy]
  exact double64.near_mono hxy

variable {l h l' h' : ℤ} {a c a₂ c₂ : IE binary64} {b d b₂ d₂ : Fl rd64}

theorem mul_mono (s : Sim l h a b) (s₂ : Sim l h a₂ b₂) (hb : b.val ≤ b₂.val) (t : Sim l' h' c d) (t₂ : Sim l' h' c₂ d₂)
    (hd : d.val ≤ d₂.val) (hl : -1022 ≤ l + l') (hh : h + h' ≤ 1023) : (b * d).val ≤ (b₂ * d₂).val := by
  have bits : ∀ {b d : ℝ}, Bits l h b → Bits l' h' d → Bits (l + l') (h + h') (b * d) := by
    intro b d hb hd
    have h0 : 0 ≤ b := le_trans (by positivity) hb.1
    have h1 : 0 ≤ d := le_trans (by positivity) hd.1
    constructor
    · rw [zpow_add₀ (by norm_num)]; exact mul_le_mul hb.1 hd.1 (by positivity) h0
    · rw [zpow_add₀ (by norm_num)]; exact mul_le_mul hb.2 hd.2 h1 (by positivity)
  exact rd64_mono (bits s.2 t.2) (bits s₂.2 t₂.2) hl hh (mul_le_mul hb hd t.pos.le s₂.pos.le)

theorem div_mono (s : Sim l h a b) (s₂ : Sim l h a₂ b₂) (hb : b.val ≤ b₂.val) (t : Sim l' h' c d) (hl : -1022 ≤ l - h')
    (hh : h - l' ≤ 1023) : (b / d).val ≤ (b₂ / d).val := by
  have bits : ∀ {b : ℝ}, Bits l h b → Bits (l - h') (h - l') (b / d.val) := by
    intro b hb
    have h0 : 0 ≤ b := le_trans (by positivity) hb.1
    have := t.pos
    constructor
    · rw [zpow_sub₀ (by norm_num)]; exact div_le_div₀ h0 hb.1 this t.2.2
    · rw [zpow_sub₀ (by norm_num)]; exact div_le_div₀ (by positivity) hb.2 (by positivity) t.2.1
  exact rd64_mono (bits s.2) (bits s₂.2) hl hh (div_le_div_of_nonneg_right hb t.pos.le)

theorem auto_window {pc : PC ℝ} (hpc : CgsSized pc) {lo hi : ℝ} {N : ℤ} (hT : OrdinaryAxis (-6) 13.5 lo hi N) :
    ∃ y1 y2, (autoWindow pc.dbl (dbl lo) (dbl hi)).1.val = .fin y1 ∧ (autoWindow pc.dbl (dbl lo) (dbl hi)).2.val = .fin y2 ∧
      y1 ≤ y2 ∧ -6.01 ≤ y1 ∧ y2 ≤ 30.39 := by
  have sT : ∀ y : ℝ, lo ≤ y → y ≤ hi → Bits (-20) 45 ((10 : ℝ) ^ y) ∧
      Sim (-20) 45 (fromLog_ (dbl y)) (⟨rd64 (10 ^ y)⟩ : Fl rd64) := by
    intro y h1 h2
    have h3 := hT.lower
    have h4 := hT.upper
    refine ⟨?_, fromLog_val rfl (by norm_num; linarith) (by norm_num; linarith)⟩
    have l2 : 0 < Real.log 2 := Real.log_pos (by norm_num)
    have l10 : 0 < Real.log 10 := Real.log_pos (by norm_num)
    obtain ⟨c, -⟩ := log_two_ten
    constructor
    · refine (Real.log_le_log_iff (by positivity) (by positivity)).1 ?_
      rw [Real.log_zpow, Real.log_rpow (by norm_num)]
      push_cast
      nlinarith
    · refine (Real.log_le_log_iff (by positivity) (by positivity)).1 ?_
      rw [Real.log_zpow, Real.log_rpow (by norm_num)]
      push_cast
      nlinarith
  obtain ⟨B1, s1⟩ := sT lo le_rfl hT.order
  obtain ⟨B2, s2⟩ := sT hi hT.order le_rfl
  have m1 : rd64 ((10 : ℝ) ^ lo) ≤ rd64 ((10 : ℝ) ^ hi) :=
    rd64_mono B1 B2 (by norm_num) (by norm_num) (Real.rpow_le_rpow_of_exponent_le (by norm_num) hT.order)
  have q1 : Sim (-10) 10 (lit 1.e-3 : IE binary64) (lit 1.e-3 : Fl rd64) := (Sim.lit 1.e-3 (-10) (-9)).mono (by norm_num) (by norm_num)
  have q2 : Sim (-10) 10 (lit 1.e3 : IE binary64) (lit 1.e3 : Fl rd64) := (Sim.lit 1.e3 9 10).mono (by norm_num) (by norm_num)
  have mq : (lit 1.e-3 : Fl rd64).val ≤ (lit 1.e3 : Fl rd64).val :=
    (Sim.lit 1.e-3 (-10) (-9)).2.2.trans ((zle (by norm_num)).trans (Sim.lit 1.e3 9 10).2.1)
  have k := skb hpc
  have m2 := mul_mono q1 q2 mq k k le_rfl (by norm_num) (by norm_num)
  have m3 := mul_mono (q1.mul k) (q2.mul k) m2 s1 s2 m1 (by norm_num) (by norm_num)
  have m4 := div_mono ((q1.mul k).mul s1) ((q2.mul k).mul s2) m3 (sh hpc) (by norm_num) (by norm_num)
  have w1 : Sim (-19) 99 (lit 1.e-3 * pc.dbl.kb * fromLog_ (dbl lo) / pc.dbl.h) _ :=
    ((((Sim.lit 1.e-3 (-10) (-9)).mul k).mul s1).div (sh hpc)).mono (by norm_num) (by norm_num)
  have w2 : Sim (-19) 99 (lit 1.e3 * pc.dbl.kb * fromLog_ (dbl hi) / pc.dbl.h) _ :=
    ((((Sim.lit 1.e3 9 10).mul k).mul s2).div (sh hpc)).mono (by norm_num) (by norm_num)
  obtain ⟨y1, e1, l1, -, hm⟩ := toLog_sim w1
  obtain ⟨y2, e2, hy⟩ := hm w2 m4
  obtain ⟨y2', e2', -, u2, -⟩ := toLog_sim w2
  have : y2 = y2' := by rw [e2] at e2'; exact XR.fin.inj e2'
  subst this
  norm_num at l1 u2
  refine ⟨y1, y2, ?_, ?_, hy, by linarith, by linarith⟩
  · rw [← e1, ← toLog_eq]; rfl
  · rw [← e2, ← toLog_eq]; rfl

end Opac.Doubles
