import Verif.Spec.MeanAccuracy
import Verif.Lemmas.LookupAccuracy
import Verif.Lemmas.AccuracyScattering
import Verif.Lemmas.MeanFill

/-! Rounding errors of group means. -/

namespace Opac.Accuracy
open Arith Outcome Spiner Spec Photons

variable {rd : ℝ → ℝ} {u : ℝ}

theorem unit_ge (hr : BinaryRounding rd u) : u ≤ unit u := by
  have := Real.log_le_sub_one_of_pos (show 0 < 1 - u by linarith [hr.lt_one])
  unfold unit
  linarith

/-! ### Decisions -/

theorem apart_lt {x y n m : ℝ} {a b : Fl rd} (h : PF u n a x) (h' : PF u m b y) (hs : (n + m) * unit u ≤ 0.001) :
    (x ≤ 0.999 * y → a.val < b.val) ∧ (y ≤ 0.999 * x → b.val < a.val) := by
  have key : ∀ {x y n m : ℝ} {a b : Fl rd}, PF u n a x → PF u m b y → (n + m) * unit u ≤ 0.001 → x ≤ 0.999 * y →
      a.val < b.val := by
    intro x y n m a b h h' hs hxy
    have h1 := (abs_le.1 h.2.2).2
    have h2 := (abs_le.1 h'.2.2).1
    have h3 : Real.log x ≤ Real.log 0.999 + Real.log y := by
      rw [← Real.log_mul (by norm_num) h'.pos.ne']
      exact Real.log_le_log h.pos hxy
    have h4 := Real.log_lt_sub_one_of_pos (show (0 : ℝ) < 0.999 by norm_num) (by norm_num)
    rw [← Real.log_lt_log_iff h.pos' h'.pos']
    have h5 : Real.log a.val ≤ Real.log x + n * unit u := by linarith
    have h6 : Real.log y - m * unit u ≤ Real.log b.val := by linarith
    norm_num at h4 hs ⊢
    nlinarith
  exact ⟨key h h' hs, key h' h (by rwa [add_comm])⟩

/-- a comparison of numbers that are apart has the same result with rounding -/
theorem same_lt {x y n m : ℝ} {a b : Fl rd} (h : PF u n a x) (h' : PF u m b y) (hs : (n + m) * unit u ≤ 0.001)
    (ha : Apart x y) : Arith.lt a b = Arith.lt x y ∧ Arith.le a b = Arith.le x y ∧ Arith.lt b a = Arith.lt y x ∧
      Arith.le b a = Arith.le y x := by
  have hx := h.pos
  have hy := h'.pos
  obtain ⟨k1, k2⟩ := apart_lt h h' hs
  have d1 : ∀ p q : Fl rd, Arith.lt p q = decide (p.val < q.val) := fun _ _ => rfl
  have d2 : ∀ p q : Fl rd, Arith.le p q = decide (p.val ≤ q.val) := fun _ _ => rfl
  have d3 : ∀ p q : ℝ, Arith.lt p q = decide (p < q) := fun _ _ => by
    rw [Bool.eq_iff_iff, real_lt, decide_eq_true_iff]
  have d4 : ∀ p q : ℝ, Arith.le p q = decide (p ≤ q) := fun _ _ => by
    rw [Bool.eq_iff_iff, real_le, decide_eq_true_iff]
  simp only [d1, d2, d3, d4, decide_eq_decide]
  rcases ha with e | e
  · have l := k1 e
    have l' : x < y := by linarith
    exact ⟨⟨fun _ => l', fun _ => l⟩, ⟨fun _ => l'.le, fun _ => l.le⟩, ⟨fun h => absurd h l.not_gt, fun h => absurd h l'.not_gt⟩,
      ⟨fun h => absurd h l.not_ge, fun h => absurd h l'.not_ge⟩⟩
  · have l := k2 e
    have l' : y < x := by linarith
    exact ⟨⟨fun h => absurd h l.not_gt, fun h => absurd h l'.not_gt⟩, ⟨fun h => absurd h l.not_ge, fun h => absurd h l'.not_ge⟩,
      ⟨fun _ => l', fun _ => l⟩, ⟨fun _ => l'.le, fun _ => l.le⟩⟩

theorem rd_zero' (hr : BinaryRounding rd u) : rd 0 = 0 := by
  have := hr.err 0
  simpa using this

theorem fl_zero (hr : BinaryRounding rd u) : (lit 0 : Fl rd).val = 0 := by
  rw [fl_lit]; simpa using rd_zero' hr

/-! ### The window -/

section window
variable {pc : PC (Fl rd)} {t T' : ℝ} {T lo hi : Fl rd}

theorem window_real (hpc : PosConsts pc.exact) (hlo : 0 ≤ lo.val) (hhi : lo.val < hi.val) :
    SampleWindow pc.exact T' lo.val hi.val = groupWindow pc.h.val pc.kb.val T' lo.val (some hi.val) := by
  have hp : (0 : ℝ) < hi.val := by linarith
  unfold SampleWindow groupWindow window isFinite
  simp only [areal, ge, gt, PC.exact]
  norm_num [hp, areal]

theorem window_pf (hr : BinaryRounding rd u) (hpc : PosConsts pc.exact) (ht0 : 0 ≤ t) (ht : PF u t T T')
    (hlo : 0 ≤ lo.val) (hhi : lo.val < hi.val) {L W Q : ℝ}
    (hc : ClearWindow (10 * 2 ^ (-1022 : ℤ)) pc.h.val pc.kb.val T' lo.val hi.val L W Q)
    (hs : (2 * t + 12) * unit u ≤ 0.001) :
    PF u (t + 4) (SampleWindow pc T lo hi).1 (SampleWindow pc.exact T' lo.val hi.val).1 ∧
    PF u (t + 4) (SampleWindow pc T lo hi).2 (SampleWindow pc.exact T' lo.val hi.val).2 := by
  have hun := unit_nonneg hr.toRounding
  have hhp : 0 < hi.val := by linarith
  have hb := PF.exact (u := u) hi hhp
  have t1 : PF u (t + 4) (lit 1.e-3 * pc.kb * T / pc.h) ((lit 1.e-3 : ℝ) * pc.exact.kb * T' / pc.exact.h) :=
    ((((PF.dec hr 1.e-3 (by norm_num)).mul hr (PF.exact pc.kb hpc.kb)).mul hr ht).div hr (PF.exact pc.h hpc.h)).mono hr
      (by linarith)
  have t2 : PF u (t + 4) (lit 1.e3 * pc.kb * T / pc.h) ((lit 1.e3 : ℝ) * pc.exact.kb * T' / pc.exact.h) :=
    ((((PF.dec hr 1.e3 (by norm_num)).mul hr (PF.exact pc.kb hpc.kb)).mul hr ht).div hr (PF.exact pc.h hpc.h)).mono hr
      (by linarith)
  have e1 : (lit 1.e-3 : ℝ) * pc.exact.kb * T' / pc.exact.h = 1e-3 * pc.kb.val * T' / pc.h.val := by
    simp only [areal, PC.exact]; norm_num
  have e2 : (lit 1.e3 : ℝ) * pc.exact.kb * T' / pc.exact.h = 1e3 * pc.kb.val * T' / pc.h.val := by
    simp only [areal, PC.exact]; norm_num
  have c1 := hc.lower
  have c2 := hc.upper
  have c3 := hc.order
  have hk1 : (0 + (t + 4 + 2)) * unit u ≤ 0.001 := le_trans (mul_le_mul_of_nonneg_right (by linarith) hun) hs
  have hk2 : (t + 4 + (t + 4)) * unit u ≤ 0.001 := le_trans (mul_le_mul_of_nonneg_right (by linarith) hun) hs
  rw [← e1] at c1 c3
  rw [← e2] at c2 c3
  unfold SampleWindow
  generalize (lit 1.e-3 : ℝ) * pc.exact.kb * T' / pc.exact.h = ν₁ at *
  generalize (lit 1.e3 : ℝ) * pc.exact.kb * T' / pc.exact.h = ν₂ at *
  generalize (lit 1.e-3 : Fl rd) * pc.kb * T / pc.h = x₁ at *
  generalize (lit 1.e3 : Fl rd) * pc.kb * T / pc.h = x₂ at *
  have hz := fl_zero hr
  have f : ∀ x : Fl rd, isFinite x = true := fun _ => rfl
  have f' : ∀ x : ℝ, isFinite x = true := fun _ => rfl
  have p10 : (lit 10 : ℝ) * ν₂ = 10 * ν₂ := by simp [areal]
  have p01 : (lit 0.1 : ℝ) * ν₁ = 0.1 * ν₁ := by simp only [areal]; norm_num
  -- the lower end
  have hl : (eqb lo (lit 0) || lt lo (lit 0.1 * x₁)) = (eqb lo.val (lit 0) || lt lo.val ((lit 0.1 : ℝ) * ν₁)) := by
    have q1 : eqb lo (lit 0) = eqb lo.val (lit 0) := by
      rw [Bool.eq_iff_iff, real_eqb, real_lit]
      show decide (lo.val = (lit 0 : Fl rd).val) = true ↔ _
      rw [hz]; simp
    rcases c1 with c1 | c1
    · have : eqb lo.val (lit 0 : ℝ) = true := by rw [real_eqb, c1]; simp [areal]
      rw [q1, this, Bool.true_or, Bool.true_or]
    · rcases hlo.eq_or_lt with h0 | h0
      · have : eqb lo.val (lit 0 : ℝ) = true := by rw [real_eqb, ← h0]; simp [areal]
        rw [q1, this, Bool.true_or, Bool.true_or]
      · rw [q1, (same_lt (PF.exact (u := u) lo h0) (((PF.dec hr 0.1 (by norm_num)).mul hr t1).mono hr (by linarith)) hk1
          (by rwa [p01])).1]
  have hl0 : (eqb lo.val (lit 0) || lt lo.val ((lit 0.1 : ℝ) * ν₁)) = false → 0 < lo.val := by
    intro h
    rw [Bool.or_eq_false_iff] at h
    refine lt_of_le_of_ne hlo fun h0 => ?_
    have : eqb lo.val (lit 0 : ℝ) = true := by rw [real_eqb, ← h0]; simp [areal]
    rw [this] at h
    exact absurd h.1 (by simp)
  have hlw : ((eqb lo.val (lit 0) || lt lo.val ((lit 0.1 : ℝ) * ν₁)) = true) = (lo.val = 0 ∨ lo.val < 0.1 * ν₁) := by
    rw [Bool.or_eq_true, real_eqb, real_lt, p01]; simp [areal]
  -- the upper end
  have hu : (!(isFinite hi) || gt hi (lit 10 * x₂)) = (!(isFinite hi.val) || gt hi.val ((lit 10 : ℝ) * ν₂)) := by
    rw [f, f']
    simp only [gt, Bool.not_true, Bool.false_or]
    exact (same_lt (((PF.int hr 10 10 (by norm_num) (by norm_num) (by norm_num)).mul hr t2).mono hr
      (show (0 : ℝ) + (t + 4) + 1 ≤ t + 4 + 2 by linarith)) hb (by rwa [add_comm]) (by rwa [p10])).1
  have huw : ((!(isFinite hi.val) || gt hi.val ((lit 10 : ℝ) * ν₂)) = true) = (10 * ν₂ < hi.val) := by
    rw [f']; simp only [gt, Bool.not_true, Bool.false_or]; rw [real_lt, p10]
  have A : PF u (t + 4) (if (eqb lo (lit 0) || lt lo (lit 0.1 * x₁)) then x₁ else lo)
      (if (eqb lo.val (lit 0) || lt lo.val ((lit 0.1 : ℝ) * ν₁)) then ν₁ else lo.val) := by
    rw [hl]
    split
    · exact t1
    · rename_i h
      exact (PF.exact lo (hl0 (by simpa using h))).mono hr (by linarith)
  have B : PF u (t + 4) (if (!(isFinite hi) || gt hi (lit 10 * x₂)) then x₂ else hi)
      (if (!(isFinite hi.val) || gt hi.val ((lit 10 : ℝ) * ν₂)) then ν₂ else hi.val) := by
    rw [hu]
    split
    · exact t2
    · exact hb.mono hr (by linarith)
  have c3' : Apart (if (eqb lo.val (lit 0) || lt lo.val ((lit 0.1 : ℝ) * ν₁)) then ν₁ else lo.val)
      (if (!(isFinite hi.val) || gt hi.val ((lit 10 : ℝ) * ν₂)) then ν₂ else hi.val) := by
    have w1 : (windowEnds ν₁ ν₂ lo.val hi.val).1 =
        if (eqb lo.val (lit 0) || lt lo.val ((lit 0.1 : ℝ) * ν₁)) then ν₁ else lo.val := by
      unfold windowEnds; simp only [hlw]
    have w2 : (windowEnds ν₁ ν₂ lo.val hi.val).2 =
        if (!(isFinite hi.val) || gt hi.val ((lit 10 : ℝ) * ν₂)) then ν₂ else hi.val := by
      unfold windowEnds; simp only [huw]
    rwa [w1, w2] at c3
  have o := (same_lt A B hk2 c3').2.2.2
  simp only []
  generalize (if (eqb lo (lit 0) || lt lo (lit 0.1 * x₁)) then x₁ else lo) = α at *
  generalize (if (!(isFinite hi) || gt hi (lit 10 * x₂)) then x₂ else hi) = β at *
  generalize (if (eqb lo.val (lit 0) || lt lo.val ((lit 0.1 : ℝ) * ν₁)) then ν₁ else lo.val) = α' at *
  generalize (if (!(isFinite hi.val) || gt hi.val ((lit 10 : ℝ) * ν₂)) then ν₂ else hi.val) = β' at *
  have o' : ge α β = ge α' β' := o
  rw [o']
  have g1 : gt hi (lit 0) = true := by
    show decide ((lit 0 : Fl rd).val < hi.val) = true
    rw [hz]; exact decide_eq_true hhp
  have g2 : gt hi.val (lit 0) = true := by rw [gt, real_lt]; simpa [areal] using hhp
  rw [g1, g2, f, f']
  simp only [Bool.and_true, if_true]
  split
  · exact ⟨((PF.dec hr 0.5 (by norm_num)).mul hr hb).mono hr (by linarith), hb.mono hr (by linarith)⟩
  · exact ⟨A, B⟩

end window

/-! ### The samples -/

theorem log10_pf (hr : BinaryRounding rd u) {n : ℝ} {z : Fl rd} {z' : ℝ} (h : PF u n z z') :
    |(Arith.log10 z).val - Real.logb 10 z'| ≤ n * unit u / 2 * (1 + u) + u * |Real.logb 10 z'| := by
  have h1 : |Real.log z.val - Real.log z'| ≤ n * unit u := h.2.2
  have h10 := log_ten_ge
  have h3 : |Real.logb 10 z.val - Real.logb 10 z'| ≤ n * unit u / 2 := by
    unfold Real.logb
    rw [← sub_div, abs_div, abs_of_pos (a := Real.log 10) (by linarith), div_le_iff₀ (by linarith)]
    nlinarith [abs_nonneg (Real.log z.val - Real.log z')]
  exact rd_err hr.toRounding h3

theorem small_pf' (hr : BinaryRounding rd u) : PF u 1 (lit 10 * dmin : Fl rd) (lit 10 * dmin : ℝ) :=
  (PF.mul hr (PF.int hr 10 10 (by norm_num) (by norm_num) (by norm_num))
    (PF.exact (u := u) (dmin : Fl rd) (show (0 : ℝ) < 2 ^ (-1022 : ℤ) by positivity))).mono hr (by norm_num)

theorem toLog_pf (hr : BinaryRounding rd u) {n : ℝ} {x : Fl rd} {y : ℝ} (hx : PF u n x y) (hn : 1 ≤ n) :
    |(ToLog x).val - Real.logb 10 (y + 10 * 2 ^ (-1022 : ℤ))| ≤
      (n + 1) * unit u / 2 * (1 + u) + u * |Real.logb 10 (y + 10 * 2 ^ (-1022 : ℤ))| := by
  have h : PF u n (Arith.abs x) (Arith.abs y) := by
    have e : (Arith.abs x : Fl rd).val = x.val := abs_of_pos hx.pos'
    rw [real_abs, abs_of_pos hx.pos]
    exact ⟨hx.pos, by show Close _ _ _ _; rw [e]; exact hx.2⟩
  have h2 := (h.add hr (small_pf' hr)).mono hr (show max n 1 + 1 ≤ n + 1 by rw [max_eq_left hn])
  have e : (Arith.abs y + lit 10 * dmin : ℝ) = y + 10 * 2 ^ (-1022 : ℤ) := by
    simp [areal, abs_of_pos hx.pos]
  have h3 := log10_pf hr h2
  rw [e] at h3
  exact h3

set_option maxHeartbeats 1000000 in
/-- `lnu` and the bin width, from the logarithms of the ends of the window -/
theorem sample_err (hr : BinaryRounding rd u) {L W l m : ℝ} {l' m' : Fl rd} {N : ℤ} (hL : 1 ≤ L) (hW : 0 < W)
    (hl : |l'.val - l| ≤ 16 * u * L) (hm : |m'.val - m| ≤ 16 * u * L) (bl : |l| ≤ L) (bm : |m| ≤ L) (hw : W ≤ m - l)
    (h2 : 2 ≤ N) (hN : N ≤ 2 ^ 24) (hs : 100 * u * L ≤ 1 / 100) (hs2 : 40 * u * L / W ≤ 1 / 100) :
    PF u (38 * L / W) ((m' - l') / lit N) ((m - l) / N) ∧
    ∀ i : ℕ, (i : ℤ) < N →
      |(l' + (lit i + lit 0.5) * ((m' - l') / lit N)).val - (l + ((i : ℝ) + 1 / 2) * ((m - l) / N))| ≤ 63 * u * L := by
  have hu0 := hr.nonneg
  have huL : u ≤ u * L := by nlinarith
  have hu : u ≤ 1 / 10000 := by linarith
  have bl' := abs_le.1 bl
  have bm' := abs_le.1 bm
  have hNr : (2 : ℝ) ≤ N := by exact_mod_cast h2
  have hN0 : (0 : ℝ) < N := by linarith
  have eN : (lit (N : ℚ) : Fl rd).val = N := by rw [fl_lit]; exact rd_int hr (by omega) hN
  have d1 : |(m' - l').val - (m - l)| ≤ 34.5 * u * L := by
    have h : |(m'.val - l'.val) - (m - l)| ≤ 32 * u * L := by
      have := abs_sub (m'.val - m) (l'.val - l)
      rw [show m'.val - m - (l'.val - l) = (m'.val - l'.val) - (m - l) by ring] at this
      linarith
    have h3 := rd_err hr.toRounding h
    rw [fl_sub]
    have h4 : |m - l| ≤ 2 * L := abs_le.2 ⟨by linarith, by linarith⟩
    have : u * |m - l| ≤ u * (2 * L) := mul_le_mul_of_nonneg_left h4 hu0
    nlinarith
  have d2 : |((m' - l') / lit N : Fl rd).val - (m - l) / N| ≤ 37 * u * L / N := by
    rw [fl_div, eN]
    have h : |(m' - l').val / N - (m - l) / N| ≤ 34.5 * u * L / N := by
      rw [← sub_div, abs_div, abs_of_pos hN0]
      gcongr
    have h3 := rd_err hr.toRounding h
    have h4 : |(m - l) / N| ≤ 2 * L / N := by
      rw [abs_div, abs_of_pos hN0]
      have : |m - l| ≤ 2 * L := abs_le.2 ⟨by linarith, by linarith⟩
      gcongr
    have h5 : u * |(m - l) / N| ≤ u * (2 * L / N) := mul_le_mul_of_nonneg_left h4 hu0
    refine h3.trans ((add_le_add_right h5 _).trans ?_)
    rw [show 34.5 * u * L / N * (1 + u) + u * (2 * L / N) = (34.5 * (1 + u) + 2) * (u * L) / N by ring,
      show 37 * u * L / N = 37 * (u * L) / N by ring]
    have : 0 ≤ u * L := by positivity
    gcongr
    linarith
  generalize ((m' - l') / lit N : Fl rd) = d at d2
  have hd0 : 0 < (m - l) / N := by
    have : 0 < m - l := by linarith
    positivity
  constructor
  · -- relative error of the bin width
    refine ⟨hd0, ?_⟩
    have r : |d.val - (m - l) / N| ≤ 37 * u * L / W * ((m - l) / N) := by
      refine d2.trans ?_
      rw [show 37 * u * L / W * ((m - l) / N) = 37 * u * L / N * ((m - l) / W) by ring]
      have : 1 ≤ (m - l) / W := by rw [le_div_iff₀ hW]; linarith
      nlinarith [show 0 ≤ 37 * u * L / N by positivity]
    set ε := 37 * u * L / W with hε
    have hε0 : 0 ≤ ε := by positivity
    have hε1 : ε ≤ 0.00925 := by
      rw [hε, show 37 * u * L / W = 0.925 * (40 * u * L / W) by ring]; linarith
    obtain ⟨r1, r2⟩ := abs_le.1 r
    set x := (m - l) / (N : ℝ)
    have hdp : 0 < d.val := by nlinarith
    refine ⟨by positivity, ?_⟩
    have hmul : ε * 1.02 ≤ 38 * L / W * unit u := by
      have := unit_ge hr
      rw [hε]
      calc 37 * u * L / W * 1.02 ≤ 38 * L / W * u := by
            rw [show 37 * u * L / W * 1.02 = 37.74 * (L / W * u) by ring, show 38 * L / W * u = 38 * (L / W * u) by ring]
            have : 0 ≤ L / W * u := by positivity
            linarith
        _ ≤ _ := by gcongr
    refine le_trans ?_ hmul
    rw [abs_le]
    rw [← Real.log_div hdp.ne' hd0.ne']
    have q1 : d.val / x ≤ 1 + ε := by rw [div_le_iff₀ hd0]; linarith
    have q2 : 1 - ε ≤ d.val / x := by rw [le_div_iff₀ hd0]; linarith
    have hq : 0 < d.val / x := by positivity
    constructor
    · have := Real.one_sub_inv_le_log_of_pos hq
      have h3 : (d.val / x)⁻¹ ≤ 1 + 1.02 * ε := by
        rw [inv_le_iff_one_le_mul₀ hq]
        nlinarith
      linarith
    · have := Real.log_le_sub_one_of_pos hq
      linarith
  · intro i hi
    have hiN : (i : ℝ) + 1 ≤ N := by exact_mod_cast hi
    have hi0 : (0 : ℝ) ≤ i := by positivity
    have ei : (lit (i : ℚ) : Fl rd).val = i := by
      rw [fl_lit]
      have := rd_int hr (k := (i : ℤ)) (by omega) (by omega)
      simpa using this
    have c : |(lit (i : ℚ) + lit 0.5 : Fl rd).val - ((i : ℝ) + 1 / 2)| ≤ 2.02 * u * ((i : ℝ) + 1 / 2) := by
      rw [fl_add, ei]
      have h5 : |(lit 0.5 : Fl rd).val - 1 / 2| ≤ u * (1 / 2) := by
        have := hr.err ((0.5 : ℚ) : ℝ)
        rw [fl_lit]
        have e : (((0.5 : ℚ) : ℚ) : ℝ) = 1 / 2 := by norm_num
        rw [e] at this ⊢
        rwa [abs_of_pos (a := (1 / 2 : ℝ)) (by norm_num)] at this
      have h : |(i : ℝ) + (lit 0.5 : Fl rd).val - ((i : ℝ) + 1 / 2)| ≤ u * (1 / 2) := by
        rwa [add_sub_add_left_eq_sub]
      have h3 := rd_err hr.toRounding h
      rw [abs_of_pos (a := (i : ℝ) + 1 / 2) (by linarith)] at h3
      nlinarith
    generalize (lit (i : ℚ) + lit 0.5 : Fl rd) = c' at c
    set x := (m - l) / (N : ℝ) with hx
    set y := (i : ℝ) + 1 / 2 with hy
    have hy0 : 0 < y := by linarith
    have hyN : y ≤ N := by linarith
    have hxN : N * x = m - l := by rw [hx]; field_simp
    have hyx : y * x ≤ m - l := by rw [← hxN]; gcongr
    have hyx0 : 0 ≤ y * x := by positivity
    have huL0 : 0 ≤ u * L := by positivity
    have p : |c'.val * d.val - y * x| ≤ 42.5 * u * L := by
      have e : c'.val * d.val - y * x = c'.val * (d.val - x) + (c'.val - y) * x := by ring
      have hc' : |c'.val| ≤ 1.03 * N := by
        have := abs_add_le y (c'.val - y)
        rw [add_sub_cancel, abs_of_pos hy0] at this
        nlinarith
      have a1 : |c'.val * (d.val - x)| ≤ 1.03 * N * (37 * u * L / N) := by
        rw [abs_mul]
        exact mul_le_mul hc' d2 (abs_nonneg _) (by positivity)
      have a2 : |(c'.val - y) * x| ≤ 2.02 * u * y * x := by
        rw [abs_mul, abs_of_pos hd0]
        gcongr
      have a3 : 1.03 * (N : ℝ) * (37 * u * L / N) = 38.11 * (u * L) := by field_simp; ring
      have a4 : 2.02 * u * y * x ≤ 4.04 * (u * L) := by
        have : u * (y * x) ≤ u * (2 * L) := mul_le_mul_of_nonneg_left (by linarith) hu0
        nlinarith
      rw [e]
      have := abs_add_le (c'.val * (d.val - x)) ((c'.val - y) * x)
      rw [a3] at a1
      linarith
    have p2 := rd_err hr.toRounding p
    have p3 : |(c' * d).val - y * x| ≤ 45 * u * L := by
      rw [fl_mul]
      refine p2.trans ?_
      rw [abs_of_nonneg hyx0]
      have : u * (y * x) ≤ u * (2 * L) := mul_le_mul_of_nonneg_left (by linarith) hu0
      nlinarith
    have s : |(l'.val + (c' * d).val) - (l + y * x)| ≤ 61 * u * L := by
      have := abs_add_le (l'.val - l) ((c' * d).val - y * x)
      rw [show l'.val - l + ((c' * d).val - y * x) = l'.val + (c' * d).val - (l + y * x) by ring] at this
      linarith
    have s2 := rd_err hr.toRounding s
    have s3 : |l + y * x| ≤ L := abs_le.2 ⟨by linarith, by linarith⟩
    rw [fl_add]
    have : u * |l + y * x| ≤ u * L := mul_le_mul_of_nonneg_left s3 hu0
    nlinarith

end Opac.Accuracy
