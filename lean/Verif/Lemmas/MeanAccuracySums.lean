import Verif.Lemmas.MeanAccuracy

/-! Rounding errors of group means: the samples, their weights and the sums. -/

namespace Opac.Accuracy
open Arith Outcome Spiner Spec Photons

variable {rd : ℝ → ℝ} {u : ℝ}

section samples
variable {pc : PC (Fl rd)} {T' : ℝ} {T lo hi : Fl rd} {L W Q : ℝ} {N : ℤ}

theorem samples_pf (hr : BinaryRounding rd u) (hpc : PosConsts pc.exact) (hL : 1 ≤ L) (hW : 0 < W) (ht : PF u (24 * L) T T')
    (hlo : 0 ≤ lo.val) (hhi : lo.val < hi.val)
    (hc : ClearWindow (10 * 2 ^ (-1022 : ℤ)) pc.h.val pc.kb.val T' lo.val hi.val L W Q)
    (h2 : 2 ≤ N) (hN : N ≤ 2 ^ 24) (hs : 100 * u * L ≤ 1 / 1000) (hs2 : 40 * u * L / W ≤ 1 / 100) :
    List.Forall₂ (fun s s' => PF u (150 * L) s.1 s'.1 ∧ PF u (151 * L + 38 * L / W) s.2 s'.2 ∧
        pc.exact.h * s'.1 / (pc.exact.kb * T') ≤ Q)
      (GroupFrequencySamples pc T lo hi N) (GroupFrequencySamples pc.exact T' lo.val hi.val N) := by
  have hu0 := hr.nonneg
  have huL : u ≤ u * L := by nlinarith
  have hu : u ≤ 1 / 100000 := by linarith
  have hun := unit_nonneg hr.toRounding
  have hul := unit_le hr (by linarith)
  have huL0 : 0 ≤ u * L := by positivity
  obtain ⟨w1, w2⟩ := window_pf hr hpc (by linarith) ht hlo hhi hc
    (by nlinarith)
  rw [window_real hpc hlo hhi] at w1 w2
  have low := hc.low
  have high := hc.high
  have wide := hc.wide
  have wien := hc.wien
  unfold GroupFrequencySamples
  simp only []
  rw [window_real hpc hlo hhi]
  generalize groupWindow pc.h.val pc.kb.val T' lo.val (some hi.val) = w' at *
  generalize SampleWindow pc T lo hi = w at *
  have t0 : (0 : ℝ) < 10 * 2 ^ (-1022 : ℤ) := by positivity
  have el : ∀ x : ℝ, 0 < x → ToLog x = Real.logb 10 (x + 10 * 2 ^ (-1022 : ℤ)) := by
    intro x hx; unfold ToLog; simp [areal, abs_of_pos hx]
  have a1 := toLog_pf hr w1 (by linarith)
  have a2 := toLog_pf hr w2 (by linarith)
  rw [el _ w1.pos, el _ w2.pos]
  have p1 : 0 < w'.1 + 10 * 2 ^ (-1022 : ℤ) := by linarith [w1.pos]
  have p2 : 0 < w'.2 + 10 * 2 ^ (-1022 : ℤ) := by linarith [w2.pos]
  have hw : W ≤ Real.logb 10 (w'.2 + 10 * 2 ^ (-1022 : ℤ)) - Real.logb 10 (w'.1 + 10 * 2 ^ (-1022 : ℤ)) := by
    have := Real.logb_le_logb_of_le (b := 10) (by norm_num) (by positivity) wide
    rw [Real.logb_mul (by positivity) p1.ne', Real.logb_rpow (by norm_num) (by norm_num)] at this
    linarith
  have b1 : -L ≤ Real.logb 10 (w'.1 + 10 * 2 ^ (-1022 : ℤ)) := by
    rw [Real.le_logb_iff_rpow_le (by norm_num) p1]; linarith
  have b2 : Real.logb 10 (w'.2 + 10 * 2 ^ (-1022 : ℤ)) ≤ L := by
    rw [Real.logb_le_iff_le_rpow (by norm_num) p2]; exact high
  have top : w'.2 + 10 * 2 ^ (-1022 : ℤ) = 10 ^ Real.logb 10 (w'.2 + 10 * 2 ^ (-1022 : ℤ)) := by
    rw [Real.rpow_logb (by norm_num) (by norm_num) p2]
  rw [top] at wien
  generalize Real.logb 10 (w'.1 + 10 * 2 ^ (-1022 : ℤ)) = l at *
  generalize Real.logb 10 (w'.2 + 10 * 2 ^ (-1022 : ℤ)) = m at *
  generalize (ToLog w.1 : Fl rd) = l' at *
  generalize (ToLog w.2 : Fl rd) = m' at *
  have bl : |l| ≤ L := abs_le.2 ⟨b1, by linarith⟩
  have bm : |m| ≤ L := abs_le.2 ⟨by linarith, b2⟩
  have conv : ∀ {v v' : ℝ}, |v'| ≤ L → |v - v'| ≤ (24 * L + 4 + 1) * unit u / 2 * (1 + u) + u * |v'| → |v - v'| ≤ 16 * u * L := by
    intro v v' hv h
    refine h.trans ?_
    have k1 : u * |v'| ≤ u * L := mul_le_mul_of_nonneg_left hv hu0
    have k2 : (24 * L + 4 + 1) * unit u / 2 * (1 + u) ≤ (29 * L) * (1.02 * u) / 2 * 1.00001 := by
      gcongr
      · linarith
      · linarith
    nlinarith
  obtain ⟨s1, s2⟩ := sample_err hr hL hW (conv bl a1) (conv bm a2) bl bm hw h2 hN (by linarith) hs2
  have eN : (lit (N : ℚ) : ℝ) = N := by simp [areal]
  have hd : (m - l) / (lit (N : ℚ) : ℝ) = (m - l) / N := by rw [eN]
  rw [List.forall₂_map_left_iff, List.forall₂_map_right_iff, List.forall₂_same]
  intro i hi
  have hi' : (i : ℤ) < N := by have := List.mem_range.1 hi; omega
  have s3 := s2 i hi'
  have en : l + (lit (i : ℚ) + lit 0.5) * ((m - l) / (lit (N : ℚ) : ℝ)) = l + ((i : ℝ) + 1 / 2) * ((m - l) / N) := by
    simp only [areal]; norm_num
  have hNr : (2 : ℝ) ≤ N := by exact_mod_cast h2
  have c : PF u (150 * L) (FromLog (l' + (lit (i : ℚ) + lit 0.5) * ((m' - l') / lit (N : ℚ))))
      (FromLog (l + (lit (i : ℚ) + lit 0.5) * ((m - l) / (lit (N : ℚ) : ℝ)))) := by
    have e : FromLog (l + (lit (i : ℚ) + lit 0.5) * ((m - l) / (lit (N : ℚ) : ℝ))) =
        (10 : ℝ) ^ (l + ((i : ℝ) + 1 / 2) * ((m - l) / N)) := by
      rw [en]; simp [FromLog, areal]
    rw [e]
    have k := pow10_err hr s3
    refine ⟨by positivity, k.1, k.2.trans ?_⟩
    rw [mul_one]
    have := unit_ge hr
    nlinarith
  refine ⟨c, ((c.mul hr s1).mono hr (by linarith)), ?_⟩
  show pc.exact.h * FromLog _ / _ ≤ Q
  have e : FromLog (l + (lit (i : ℚ) + lit 0.5) * ((m - l) / (lit (N : ℚ) : ℝ))) =
      (10 : ℝ) ^ (l + ((i : ℝ) + 1 / 2) * ((m - l) / N)) := by
    rw [en]; simp [FromLog, areal]
  rw [e]
  have hkT : 0 < pc.exact.kb * T' := mul_pos hpc.kb ht.pos
  rw [div_le_iff₀ hkT]
  refine le_trans ?_ wien
  have hh := hpc.h
  show pc.exact.h * _ ≤ pc.exact.h * _
  gcongr
  · norm_num
  · have hiN : (i : ℝ) + 1 ≤ N := by exact_mod_cast hi'
    have : ((i : ℝ) + 1 / 2) * ((m - l) / N) ≤ N * ((m - l) / N) := by
      have : 0 ≤ (m - l) / N := by
        have : 0 ≤ m - l := by linarith
        positivity
      gcongr
      linarith
    have e : (N : ℝ) * ((m - l) / N) = m - l := by field_simp
    linarith

end samples

/-! ### Weights -/

section weights
variable {pc : PC (Fl rd)} {a T' ν' : ℝ} {T ν : Fl rd}

theorem exp_79 : Real.exp (-79) ≤ 2 ^ (-104 : ℤ) := by
  have h1 := Real.exp_one_gt_d9
  have e : Real.exp 79 = Real.exp 1 ^ 79 := by rw [← Real.exp_nat_mul]; norm_num
  have h2 : (2 : ℝ) ^ 104 ≤ Real.exp 79 := by
    rw [e]
    calc (2 : ℝ) ^ 104 ≤ 2.7 ^ 79 := by norm_num
      _ ≤ _ := by gcongr; linarith
  rw [Real.exp_neg, zpow_neg]
  exact inv_anti₀ (by positivity) (by exact_mod_cast h2)

/-- from 79 on the Wien formula and the Planck formula agree -/
theorem wien_factor {x : ℝ} (hx : 79 ≤ x) : 0 < 1 - Real.exp (-x) ∧ |Real.log (1 - Real.exp (-x))| ≤ 2 ^ (-102 : ℤ) := by
  have h1 : Real.exp (-x) ≤ 2 ^ (-104 : ℤ) := (Real.exp_le_exp.2 (by linarith)).trans exp_79
  have h0 := Real.exp_pos (-x)
  have hh : (2 : ℝ) ^ (-104 : ℤ) ≤ 1 / 2 := by norm_num
  have h102 : (2 : ℝ) ^ (-102 : ℤ) = 4 * 2 ^ (-104 : ℤ) := by
    rw [show (-102 : ℤ) = 2 + -104 by norm_num, zpow_add₀ (by norm_num)]; norm_num
  generalize (2 : ℝ) ^ (-104 : ℤ) = e at *
  refine ⟨by linarith, ?_⟩
  rw [h102, abs_le]
  constructor
  · have := Real.one_sub_inv_le_log_of_pos (show 0 < 1 - Real.exp (-x) by linarith)
    have h3 : (1 - Real.exp (-x))⁻¹ ≤ 1 + 2 * Real.exp (-x) := by
      rw [inv_le_iff_one_le_mul₀ (by linarith)]; nlinarith
    linarith
  · have := Real.log_le_sub_one_of_pos (show 0 < 1 - Real.exp (-x) by linarith)
    linarith

/-- the two formulas for the weights -/
noncomputable def planckPair (pc : PC R) [Arith R] (T ν : R) : R × R :=
  (Planck.ThermalDistributionOfTNu pc T ν, Planck.DThermalDistributionOfTNuDT pc T ν)

noncomputable def wienPair (pc : PC R) [Arith R] (T ν : R) : R × R :=
  let x := pc.h * ν / (pc.kb * T)
  let expMinusX := exp (-x)
  ((lit 2 * pc.h * ν * ν * ν / (pc.c * pc.c)) * expMinusX,
     lit 2 * pc.h * pc.h * ν * ν * ν * ν * expMinusX / (T * T * pc.c * pc.c * pc.kb))

theorem wienPair_pf (hr : BinaryRounding rd u) (hpc : PosConsts pc.exact) (ha : 0 ≤ a) (hs : (2 * a + 3) * unit u ≤ 1)
    (ht : PF u a T T') (hn : PF u a ν ν') :
    PF u (10 * a + 23 + (pc.exact.h * ν' / (pc.exact.kb * T')) * (4 * a + 6)) (wienPair pc T ν).1
      (wienPair pc.exact T' ν').1 ∧
    PF u (10 * a + 23 + (pc.exact.h * ν' / (pc.exact.kb * T')) * (4 * a + 6)) (wienPair pc T ν).2
      (wienPair pc.exact T' ν').2 := by
  have hc := PF.exact (u := u) pc.c hpc.c
  have hh := PF.exact (u := u) pc.h hpc.h
  have hx := x_acc hr hpc ht hn
  have he := hx.exp_neg hr hs
  have h2 := PF.int hr 2 2 (by norm_num) (by norm_num) (by norm_num)
  have k1 := (((((h2.mul hr hh).mul hr hn).mul hr hn).mul hr hn).div hr (hc.mul hr hc)).mul hr he
  have k2 := (((((((h2.mul hr hh).mul hr hh).mul hr hn).mul hr hn).mul hr hn).mul hr hn).mul hr he).div hr
    ((((ht.mul hr ht).mul hr hc).mul hr hc).mul hr (PF.exact pc.kb hpc.kb))
  exact ⟨k1.mono hr (by linarith), k2.mono hr (by linarith)⟩

theorem pairs_close {pc : PC ℝ} (hpc : PosConsts pc) (hT : 0 < T') (hν : 0 < ν')
    (hx : 79 ≤ pc.h * ν' / (pc.kb * T')) :
    Close 1 (2 ^ (-100 : ℤ)) (planckPair pc T' ν').1 (wienPair pc T' ν').1 ∧
    Close 1 (2 ^ (-100 : ℤ)) (planckPair pc T' ν').2 (wienPair pc T' ν').2 := by
  obtain ⟨h1, h2, h3, h4⟩ : 0 < pc.h ∧ 0 < pc.kb ∧ 0 < pc.c ∧ True := ⟨hpc.h, hpc.kb, hpc.c, trivial⟩
  obtain ⟨f0, f1⟩ := wien_factor hx
  have e100 : (2 : ℝ) ^ (-100 : ℤ) = 4 * 2 ^ (-102 : ℤ) := by
    rw [show (-100 : ℤ) = 2 + -102 by norm_num, zpow_add₀ (by norm_num)]; norm_num
  have hf : Close 1 (2 ^ (-102 : ℤ)) (1 - Real.exp (-(pc.h * ν' / (pc.kb * T'))))⁻¹ 1 := by
    refine ⟨by positivity, ?_⟩
    rwa [Real.log_one, sub_zero, mul_one, Real.log_inv, abs_neg]
  have p102 : (0 : ℝ) ≤ 2 ^ (-102 : ℤ) := by positivity
  constructor
  · have e1 : (planckPair pc T' ν').1 = (wienPair pc T' ν').1 * (1 - Real.exp (-(pc.h * ν' / (pc.kb * T'))))⁻¹ := by
      simp only [planckPair, wienPair, Planck.ThermalDistributionOfTNu, areal]
      rw [show Real.exp (pc.h * ν' / (pc.kb * T')) - 1 = (1 - Real.exp (-(pc.h * ν' / (pc.kb * T')))) *
        Real.exp (pc.h * ν' / (pc.kb * T')) by rw [sub_mul, ← Real.exp_add]; simp]
      rw [Real.exp_neg] at f0 ⊢
      have := Real.exp_pos (pc.h * ν' / (pc.kb * T'))
      field_simp
      norm_num
    have hw : (wienPair pc T' ν').1 ≠ 0 := by
      simp only [wienPair, areal]; positivity
    rw [e1]
    have := (Close.refl (δ := 1) hw).mul hf
    rw [mul_one] at this
    exact this.mono (by norm_num) (by linarith)
  · have e1 : (planckPair pc T' ν').2 = (wienPair pc T' ν').2 * ((1 - Real.exp (-(pc.h * ν' / (pc.kb * T'))))⁻¹ *
        (1 - Real.exp (-(pc.h * ν' / (pc.kb * T'))))⁻¹) := by
      simp only [planckPair, wienPair, Planck.DThermalDistributionOfTNuDT, areal]
      rw [neg_sub]
      field_simp
    have hw : (wienPair pc T' ν').2 ≠ 0 := by
      simp only [wienPair, areal]; positivity
    rw [e1]
    have := (Close.refl (δ := 1) hw).mul (hf.mul hf)
    rw [mul_one, mul_one] at this
    exact this.mono (by norm_num) (by linarith)

theorem weights_pf (hr : BinaryRounding rd u) (hu2 : 2 ^ (-100 : ℤ) ≤ u) (hpc : PosConsts pc.exact) (ha : 0 ≤ a)
    (hs : (2 * a + 3) * unit u ≤ 1 / 1000) (ht : PF u a T T') (hn : PF u a ν ν') :
    PF u (10 * a + 24 + (pc.exact.h * ν' / (pc.exact.kb * T')) * (4 * a + 6)) (ThermalWeightsAtNu pc T ν).1
      (ThermalWeightsAtNu pc.exact T' ν').1 ∧
    PF u (10 * a + 24 + (pc.exact.h * ν' / (pc.exact.kb * T')) * (4 * a + 6)) (ThermalWeightsAtNu pc T ν).2
      (ThermalWeightsAtNu pc.exact T' ν').2 := by
  have hx := x_acc hr hpc ht hn
  have hug := unit_ge hr
  have hun := unit_nonneg hr.toRounding
  have w : ∀ {R : Type} [Arith R] (pc : PC R) (T ν : R), ThermalWeightsAtNu pc T ν =
      if lt (pc.h * ν / (pc.kb * T)) (lit 80) then planckPair pc T ν else wienPair pc T ν := fun _ _ _ => rfl
  have hs1 : (2 * a + 3) * unit u ≤ 1 := by linarith
  set n := 10 * a + 23 + (pc.exact.h * ν' / (pc.exact.kb * T')) * (4 * a + 6) with hnn
  have P1 : PF u n (planckPair pc T ν).1 (planckPair pc.exact T' ν').1 :=
    (B_acc hr hpc ha hs1 ht hn).mono hr (by rw [hnn]; linarith)
  have P2 : PF u n (planckPair pc T ν).2 (planckPair pc.exact T' ν').2 := dB_acc hr hpc ha hs1 ht hn
  obtain ⟨W1, W2⟩ := wienPair_pf hr hpc ha hs1 ht hn
  have en : 10 * a + 24 + (pc.exact.h * ν' / (pc.exact.kb * T')) * (4 * a + 6) = n + 1 := by rw [hnn]; ring
  rw [en]
  -- switching between the formulas costs less than one rounding error
  have sw : ∀ {p q : ℝ} {b : Fl rd}, 0 < q → PF u n b p → Close 1 (2 ^ (-100 : ℤ)) p q → PF u (n + 1) b q := by
    intro p q b hq hb h
    refine ⟨hq, ?_⟩
    have h' : Close (unit u) 1 p q := ⟨h.1, h.2.trans (by linarith)⟩
    exact hb.2.trans h'
  have x80 : (lit 80 : Fl rd).val = 80 := by
    have := hr.ints 80 (by norm_num)
    rw [fl_lit]; simpa using this
  rw [w, w]
  have l1 : ∀ x : Fl rd, (lt x (lit 80) = true) = (x.val < 80) := by
    intro x
    show (decide (x.val < (lit 80 : Fl rd).val) = true) = _
    rw [x80]; simp
  have l2 : ∀ x : ℝ, (lt x (lit 80) = true) = (x < 80) := by
    intro x
    rw [real_lt]; simp [areal]
  simp only [l1, l2]
  have near : (pc.h * ν / (pc.kb * T)).val < 80 → ¬ pc.exact.h * ν' / (pc.exact.kb * T') < 80 →
      79 ≤ pc.exact.h * ν' / (pc.exact.kb * T') := fun _ h => by linarith [not_lt.1 h]
  have near' : ¬ (pc.h * ν / (pc.kb * T)).val < 80 → 79 ≤ pc.exact.h * ν' / (pc.exact.kb * T') := by
    intro h
    by_contra hc
    have h80 := PF.int hr 80 80 (by norm_num) (by norm_num) (by norm_num)
    have := (apart_lt hx h80 (by linarith)).1 (by
      have : (lit (80 : ℚ) : ℝ) = 80 := by simp [areal]
      rw [this]; linarith)
    rw [x80] at this
    exact h this
  split_ifs with h1 h2 h2
  · exact ⟨P1.mono hr (by linarith), P2.mono hr (by linarith)⟩
  · obtain ⟨c1, c2⟩ := pairs_close hpc ht.pos hn.pos (near h1 h2)
    exact ⟨sw W1.pos P1 c1, sw W2.pos P2 c2⟩
  · obtain ⟨c1, c2⟩ := pairs_close hpc ht.pos hn.pos (near' h1)
    have sym : ∀ {p q : ℝ}, Close 1 (2 ^ (-100 : ℤ)) p q → Close 1 (2 ^ (-100 : ℤ)) q p := by
      intro p q h
      exact ⟨by rw [mul_comm]; exact h.1, by rw [abs_sub_comm]; exact h.2⟩
    exact ⟨sw P1.pos W1 (sym c1), sw P2.pos W2 (sym c2)⟩
  · exact ⟨W1.mono hr (by linarith), W2.mono hr (by linarith)⟩

end weights

/-! ### Sums -/

/-- the sum a loop computes -/
def loopSum {R : Type} [Arith R] (l : List R) : R := l.foldl (fun a b => a + b) (lit 0)

theorem loopSum_aux (hr : BinaryRounding rd u) {n : ℝ} {l : List (Fl rd)} {l' : List ℝ} (h : List.Forall₂ (PF u n) l l') :
    ∀ {m : ℝ} {a : Fl rd} {a' : ℝ}, n ≤ m → PF u m a a' →
      PF u (m + l.length) (l.foldl (fun a b => a + b) a) (l'.foldl (fun a b => Arith.toAdd.add a b) a') := by
  induction h with
  | nil => intro m a a' _ h; simpa using h
  | @cons b b' l l' hb _ ih =>
    intro m a a' hm h
    have h1 := (h.add hr hb).mono hr (show max m n + 1 ≤ m + 1 by rw [max_eq_left hm])
    have := ih (by linarith) h1
    refine this.mono hr ?_
    push_cast [List.length_cons]
    linarith

theorem loopSum_pf (hr : BinaryRounding rd u) {n : ℝ} {l : List (Fl rd)} {l' : List ℝ} (h : List.Forall₂ (PF u n) l l')
    (hl : l ≠ []) : PF u (n + l.length) (loopSum l) (loopSum l') := by
  cases h with
  | nil => exact absurd rfl hl
  | @cons b b' l l' hb h =>
    have h1 : PF u (n + 1) ((lit 0 : Fl rd) + b) ((lit 0 : ℝ) + b') := by
      have e : (lit 0 : ℝ) + b' = b' := by simp [areal]
      rw [e]
      refine ⟨hb.1, ?_⟩
      show Close _ _ (rd ((lit 0 : Fl rd).val + b.val)) _
      rw [fl_zero hr, zero_add]
      exact CF.round hr hb.2
    have := loopSum_aux hr h (by linarith) h1
    refine this.mono hr ?_
    push_cast [List.length_cons]
    linarith

theorem foldl_pair {R S : Type} [Arith R] (f g : S → R) (l : List S) (a b : R) :
    l.foldl (fun acc s => (acc.1 + f s, acc.2 + g s)) (a, b) =
      ((l.map f).foldl (fun a b => a + b) a, (l.map g).foldl (fun a b => a + b) b) := by
  induction l generalizing a b with
  | nil => rfl
  | cons s l ih => simp only [List.foldl_cons, List.map_cons]; rw [ih]

section sums
variable {R : Type} [Arith R]

theorem denominators_eq (pc : PC R) (T lo hi : R) (N : ℤ) : MGTables.GroupDenominators pc T lo hi N =
    (loopSum ((GroupFrequencySamples pc T lo hi N).map fun s => (ThermalWeightsAtNu pc T s.1).1 * s.2),
     loopSum ((GroupFrequencySamples pc T lo hi N).map fun s => (ThermalWeightsAtNu pc T s.1).2 * s.2)) :=
  foldl_pair _ _ _ _ _

theorem numerators_planck (pc : PC R) (coef : R → R → R → R) (ρ T lo hi : R) (N : ℤ) :
    (MGTables.GroupNumerators pc coef ρ T lo hi N).1 =
    loopSum ((GroupFrequencySamples pc T lo hi N).map fun s => coef ρ T s.1 / ρ * (ThermalWeightsAtNu pc T s.1).1 * s.2) := by
  have key : ∀ (l : List (R × R)) (a b : R), (l.foldl (fun acc s =>
      (acc.1 + coef ρ T s.1 / ρ * (ThermalWeightsAtNu pc T s.1).1 * s.2,
       if gt (coef ρ T s.1) Robust.SMALL then acc.2 + Robust.ratio ρ (coef ρ T s.1) * (ThermalWeightsAtNu pc T s.1).2 * s.2
         else acc.2)) (a, b)).1 =
      (l.map fun s => coef ρ T s.1 / ρ * (ThermalWeightsAtNu pc T s.1).1 * s.2).foldl (fun a b => a + b) a := by
    intro l
    induction l with
    | nil => intro a b; rfl
    | cons s l ih => intro a b; simp only [List.foldl_cons, List.map_cons]; exact ih _ _
  exact key _ _ _

theorem numerators_rosseland (pc : PC R) (coef : R → R → R → R) (ρ T lo hi : R) (N : ℤ)
    (h : ∀ s ∈ GroupFrequencySamples pc T lo hi N, gt (coef ρ T s.1) Robust.SMALL = true) :
    (MGTables.GroupNumerators pc coef ρ T lo hi N).2 =
    loopSum ((GroupFrequencySamples pc T lo hi N).map fun s =>
      Robust.ratio ρ (coef ρ T s.1) * (ThermalWeightsAtNu pc T s.1).2 * s.2) := by
  have key : ∀ (l : List (R × R)) (a b : R), (∀ s ∈ l, gt (coef ρ T s.1) Robust.SMALL = true) → (l.foldl (fun acc s =>
      (acc.1 + coef ρ T s.1 / ρ * (ThermalWeightsAtNu pc T s.1).1 * s.2,
       if gt (coef ρ T s.1) Robust.SMALL then acc.2 + Robust.ratio ρ (coef ρ T s.1) * (ThermalWeightsAtNu pc T s.1).2 * s.2
         else acc.2)) (a, b)).2 =
      (l.map fun s => Robust.ratio ρ (coef ρ T s.1) * (ThermalWeightsAtNu pc T s.1).2 * s.2).foldl (fun a b => a + b) b := by
    intro l
    induction l with
    | nil => intro a b _; rfl
    | cons s l ih =>
      intro a b h
      simp only [List.foldl_cons, List.map_cons]
      rw [if_pos (h s (List.mem_cons_self ..))]
      exact ih _ _ fun s hs => h s (List.mem_cons_of_mem _ hs)
  exact key _ _ _ h

end sums

/-! ### The means -/

section means
variable {pc : PC (Fl rd)} {ρ' T' : ℝ} {ρ T lo hi : Fl rd} {L W Q C : ℝ} {N : ℤ}
  {coef : Fl rd → Fl rd → Fl rd → Fl rd} {α : ℝ → ℝ → ℝ → ℝ}

theorem small_pf2 (hr : BinaryRounding rd u) : PF u 1 (Robust.SMALL : Fl rd) (Robust.SMALL : ℝ) := small_pf' hr

theorem gt_small (hr : BinaryRounding rd u) {n x : ℝ} {a : Fl rd} (h : PF u n a x) (hs : (n + 1) * unit u ≤ 0.001)
    (hx : 2 * Robust.SMALL ≤ x) : gt a Robust.SMALL = true ∧ gt x (Robust.SMALL : ℝ) = true := by
  have hp : (0 : ℝ) < Robust.SMALL := (small_pf2 hr).pos
  have := (apart_lt (small_pf2 hr) h (by rwa [add_comm])).1 (by linarith)
  refine ⟨decide_eq_true this, ?_⟩
  rw [gt, real_lt]
  linarith

theorem means_pf (hr : BinaryRounding rd u) (hu2 : 2 ^ (-100 : ℤ) ≤ u) (hpc : PosConsts pc.exact) (hL : 1 ≤ L) (hW : 0 < W)
    (hQ : 0 ≤ Q) (hC : 2 ≤ C) (hρ : PF u (24 * L) ρ ρ') (ht : PF u (24 * L) T T')
    (hlo : 0 ≤ lo.val) (hhi : lo.val < hi.val)
    (hc : ClearWindow (10 * 2 ^ (-1022 : ℤ)) pc.h.val pc.kb.val T' lo.val hi.val L W Q)
    (h2 : 2 ≤ N) (hN : N ≤ 2 ^ 24) (hP : Budget C L W Q N * unit u ≤ 1 / 1000)
    (hcoef : ∀ ν ν', PF u (150 * L) ν ν' → pc.exact.h * ν' / (pc.exact.kb * T') ≤ Q →
      PF u C (coef ρ T ν) (α ρ' T' ν')) :
    PF u (Budget C L W Q N) (MGTables.GroupMeans pc coef ρ T lo hi N).1
      (MGTables.GroupMeans pc.exact α ρ' T' lo.val hi.val N).1 ∧
    ((∀ s ∈ GroupFrequencySamples pc.exact T' lo.val hi.val N, 2 * Robust.SMALL ≤ α ρ' T' s.1) →
      2 * Robust.SMALL ≤ (MGTables.GroupDenominators pc.exact T' lo.val hi.val N).2 →
      2 * Robust.SMALL ≤ (MGTables.GroupNumerators pc.exact α ρ' T' lo.val hi.val N).2 →
      PF u (Budget C L W Q N) (MGTables.GroupMeans pc coef ρ T lo hi N).2
        (MGTables.GroupMeans pc.exact α ρ' T' lo.val hi.val N).2) := by
  have hu0 := hr.nonneg
  have hug := unit_ge hr
  have hun := unit_nonneg hr.toRounding
  have hN0 : (2 : ℝ) ≤ N := by exact_mod_cast h2
  have hLW : 0 ≤ L / W := by positivity
  have hLQ : 0 ≤ L * Q := by positivity
  have hB : Budget C L W Q N = C + 3400 * L + 1212 * (L * Q) + 76 * (L / W) + 2 * N := by unfold Budget; ring
  have le : ∀ {n : ℝ}, n ≤ Budget C L W Q N → n * unit u ≤ 1 / 1000 := fun h =>
    (mul_le_mul_of_nonneg_right h hun).trans hP
  have hs1 : 100 * u * L ≤ 1 / 1000 := by
    have := le (n := 100 * L) (by rw [hB]; linarith)
    nlinarith
  have hs2 : 40 * u * L / W ≤ 1 / 100 := by
    have h1 := le (n := 40 * (L / W)) (by rw [hB]; linarith)
    have h2 : 40 * (L / W) * u ≤ 40 * (L / W) * unit u := by gcongr
    rw [show 40 * u * L / W = 40 * (L / W) * u by ring]
    linarith
  have S := samples_pf hr hpc hL hW ht hlo hhi hc h2 hN hs1 hs2
  -- each sample
  have S' : List.Forall₂ (fun s s' => PF u C (coef ρ T s.1) (α ρ' T' s'.1) ∧
      PF u (1524 * L + 606 * (L * Q)) (ThermalWeightsAtNu pc T s.1).1 (ThermalWeightsAtNu pc.exact T' s'.1).1 ∧
      PF u (1524 * L + 606 * (L * Q)) (ThermalWeightsAtNu pc T s.1).2 (ThermalWeightsAtNu pc.exact T' s'.1).2 ∧
      PF u (151 * L + 38 * (L / W)) s.2 s'.2) (GroupFrequencySamples pc T lo hi N)
      (GroupFrequencySamples pc.exact T' lo.val hi.val N) := by
    refine S.imp ?_
    rintro s s' ⟨a1, a2, a3⟩
    have w := weights_pf hr hu2 hpc (a := 150 * L) (by linarith) (le (by rw [hB]; linarith))
      (ht.mono hr (by linarith)) a1
    have q : 10 * (150 * L) + 24 + (pc.exact.h * s'.1 / (pc.exact.kb * T')) * (4 * (150 * L) + 6) ≤
        1524 * L + 606 * (L * Q) := by
      have : (pc.exact.h * s'.1 / (pc.exact.kb * T')) * (4 * (150 * L) + 6) ≤ Q * (4 * (150 * L) + 6) :=
        mul_le_mul_of_nonneg_right a3 (by linarith)
      nlinarith
    exact ⟨hcoef _ _ a1 a3, w.1.mono hr q, w.2.mono hr q, a2.mono hr (by rw [mul_div_assoc])⟩
  have hlen : (GroupFrequencySamples pc T lo hi N).length = N.toNat := by simp [GroupFrequencySamples]
  have hlenR : ((GroupFrequencySamples pc T lo hi N).length : ℝ) = N := by
    rw [hlen]
    have : ((N.toNat : ℤ) : ℝ) = N := by rw [Int.toNat_of_nonneg (by omega)]
    exact_mod_cast this
  have hne : GroupFrequencySamples pc T lo hi N ≠ [] := by
    intro h; rw [h] at hlen; simp at hlen; omega
  have sum : ∀ {n : ℝ} (f : Fl rd × Fl rd → Fl rd) (f' : ℝ × ℝ → ℝ),
      (∀ s s', PF u C (coef ρ T s.1) (α ρ' T' s'.1) ∧
        PF u (1524 * L + 606 * (L * Q)) (ThermalWeightsAtNu pc T s.1).1 (ThermalWeightsAtNu pc.exact T' s'.1).1 ∧
        PF u (1524 * L + 606 * (L * Q)) (ThermalWeightsAtNu pc T s.1).2 (ThermalWeightsAtNu pc.exact T' s'.1).2 ∧
        PF u (151 * L + 38 * (L / W)) s.2 s'.2 → PF u n (f s) (f' s')) →
      PF u (n + N) (loopSum ((GroupFrequencySamples pc T lo hi N).map f))
        (loopSum ((GroupFrequencySamples pc.exact T' lo.val hi.val N).map f')) := by
    intro n f f' hf
    have h1 : List.Forall₂ (PF u n) ((GroupFrequencySamples pc T lo hi N).map f)
        ((GroupFrequencySamples pc.exact T' lo.val hi.val N).map f') := by
      rw [List.forall₂_map_left_iff, List.forall₂_map_right_iff]
      exact S'.imp fun s s' h => hf s s' h
    have := loopSum_pf hr h1 (by simpa using hne)
    rwa [List.length_map, hlenR] at this
  unfold MGTables.GroupMeans MGTables.MeansOfSums
  simp only []
  have D1 : PF u (1675 * L + 606 * (L * Q) + 38 * (L / W) + 1 + N) (MGTables.GroupDenominators pc T lo hi N).1
      (MGTables.GroupDenominators pc.exact T' lo.val hi.val N).1 := by
    rw [denominators_eq, denominators_eq]
    exact sum _ _ fun s s' h => (h.2.1.mul hr h.2.2.2).mono hr (by linarith)
  have D2 : PF u (1675 * L + 606 * (L * Q) + 38 * (L / W) + 1 + N) (MGTables.GroupDenominators pc T lo hi N).2
      (MGTables.GroupDenominators pc.exact T' lo.val hi.val N).2 := by
    rw [denominators_eq, denominators_eq]
    exact sum _ _ fun s s' h => (h.2.2.1.mul hr h.2.2.2).mono hr (by linarith)
  have N1 : PF u (C + 1699 * L + 606 * (L * Q) + 38 * (L / W) + 3 + N) (MGTables.GroupNumerators pc coef ρ T lo hi N).1
      (MGTables.GroupNumerators pc.exact α ρ' T' lo.val hi.val N).1 := by
    rw [numerators_planck, numerators_planck]
    exact sum _ _ fun s s' h => (((h.1.div hr hρ).mul hr h.2.1).mul hr h.2.2.2).mono hr (by linarith)
  constructor
  · refine (ratio_acc hr N1 D1 (by linarith)).mono hr ?_
    rw [hB]; linarith
  · intro hα hd hn
    have bigF : ∀ s ∈ GroupFrequencySamples pc T lo hi N, gt (coef ρ T s.1) Robust.SMALL = true := by
      intro s hs
      obtain ⟨s', hs', h⟩ : ∃ s' ∈ GroupFrequencySamples pc.exact T' lo.val hi.val N,
          PF u C (coef ρ T s.1) (α ρ' T' s'.1) := by
        obtain ⟨i, hi1, rfl⟩ := List.getElem_of_mem hs
        have hi2 : i < (GroupFrequencySamples pc.exact T' lo.val hi.val N).length := by rw [← S'.length_eq]; exact hi1
        exact ⟨_, List.getElem_mem hi2, ((List.forall₂_iff_get.1 S').2 i hi1 hi2).1⟩
      exact (gt_small hr h (by have := le (n := C + 1) (by rw [hB]; linarith); linarith) (hα s' hs')).1
    have bigR : ∀ s ∈ GroupFrequencySamples pc.exact T' lo.val hi.val N, gt (α ρ' T' s.1) (Robust.SMALL : ℝ) = true := by
      intro s hs
      have := hα s hs
      have hp : (0 : ℝ) < Robust.SMALL := (small_pf2 hr).pos
      rw [gt, real_lt]; linarith
    have N2 : PF u (C + 1699 * L + 606 * (L * Q) + 38 * (L / W) + 4 + N) (MGTables.GroupNumerators pc coef ρ T lo hi N).2
        (MGTables.GroupNumerators pc.exact α ρ' T' lo.val hi.val N).2 := by
      rw [numerators_rosseland _ _ _ _ _ _ _ bigF, numerators_rosseland _ _ _ _ _ _ _ bigR]
      exact sum _ _ fun s s' h => (((ratio_acc hr hρ h.1 hC).mul hr h.2.2.1).mul hr h.2.2.2).mono hr (by linarith)
    have k1 := gt_small hr D2 (by have := le (n := 1675 * L + 606 * (L * Q) + 38 * (L / W) + 1 + N + 1) (by rw [hB]; linarith); linarith) hd
    have k2 := gt_small hr N2 (by have := le (n := C + 1699 * L + 606 * (L * Q) + 38 * (L / W) + 4 + N + 1) (by rw [hB]; linarith); linarith) hn
    rw [k1.1, k1.2, k2.1, k2.2]
    simp only [Bool.and_true, if_true]
    refine (ratio_acc hr D2 N2 (by linarith)).mono hr ?_
    rw [hB]; linarith

end means

end Opac.Accuracy
