import Verif.Spec.LookupDoubles
import Verif.Lemmas.SignedDoubles
import Verif.Lemmas.LookupAccuracy

/-! Table lookups in double precision neither overflow nor underflow: they are lookups with rounding alone. -/

namespace Opac.Doubles
open Arith Classical Outcome Spiner

theorem TableNumber.mult {x : ℝ} (h : TableNumber x) : Mult 112 x := by
  have e : double64.near x = x := by
    have h1 : double64.rd x = .fin x := h.1
    unfold BinaryParams.rd at h1
    split_ifs at h1
    injection h1
  have := near_mult h.2
  rw [e] at this
  exact this

/-- the same grid with rounding alone -/
def gfl (g : Grid ℝ) : Grid (Fl rd64) := ⟨⟨g.min⟩, ⟨g.max⟩, g.N⟩

/-- the same table with rounding alone -/
def dfl (d : DataBox ℝ) : DataBox (Fl rd64) := ⟨d.dims, fun i => gfl (d.grid i), fun i => ⟨d.data i⟩⟩

theorem rd_one : rd64 1 = 1 := rd64_binary.one

section axis
variable {g : Grid ℝ} (H : DoubleAxis g)
include H

theorem cells : (1 : ℝ) ≤ (g.N : ℝ) - 1 := by
  have : (2 : ℝ) ≤ g.N := by exact_mod_cast H.two
  linarith

theorem sim_min : SimG 112 6 g.dbl.min (gfl g).min :=
  ⟨rfl, TableNumber.mult H.ends.1, le_trans H.low (by norm_num)⟩

theorem sim_max : SimG 112 6 g.dbl.max (gfl g).max :=
  ⟨rfl, TableNumber.mult H.ends.2, le_trans H.high (by norm_num)⟩

theorem sim_dx : SimG 59 7 g.dbl.dx (gfl g).dx ∧ Sim (-7) 7 g.dbl.dx (gfl g).dx := by
  have hN := cells H
  have hN2 : (g.N : ℝ) - 1 ≤ 2 ^ (24 : ℤ) := by
    have : (g.N : ℝ) ≤ 2 ^ 24 := by exact_mod_cast H.many
    norm_num at this ⊢; linarith
  have s := (sim_max H).sub (sim_min H)
  have sN := SimG.lit (g.N - 1) 24 (by push_cast; rw [abs_of_nonneg (by linarith)]; exact hN2)
  have eN : (lit ((g.N - 1 : ℤ) : ℚ) : Fl rd64).val = (g.N : ℝ) - 1 := by
    show rd64 (((g.N - 1 : ℤ) : ℚ) : ℝ) = _
    have h1 := H.two
    have h2 := H.many
    rw [Accuracy.rd_int rd64_binary (by omega) (by omega)]
    push_cast; ring
  have eF : ((gfl g).max - (gfl g).min).val = rd64 (g.max - g.min) := rfl
  have herr := rd64_binary.err (g.max - g.min)
  rw [abs_of_nonneg (show 0 ≤ g.max - g.min by have := H.spacing; linarith)] at herr
  have hsp := H.spacing
  have hlow : ((g.N : ℝ) - 1) / 128 ≤ rd64 (g.max - g.min) := by
    have h1 := (abs_le.1 herr).1
    have h2 : (2 : ℝ) ^ (-53 : ℤ) * (g.max - g.min) ≤ 1 / 100 * (g.max - g.min) :=
      mul_le_mul_of_nonneg_right (by norm_num) (by linarith)
    generalize (2 : ℝ) ^ (-53 : ℤ) * (g.max - g.min) = t at *
    linarith
  have hhigh : rd64 (g.max - g.min) ≤ 2 ^ (7 : ℤ) := (le_abs_self _).trans s.size
  have hx : Bits (-7) 7 (rd64 (g.max - g.min) / ((g.N : ℝ) - 1)) := by
    constructor
    · rw [le_div_iff₀ (by linarith)]
      refine le_trans (le_of_eq ?_) hlow
      norm_num; ring
    · rw [div_le_iff₀ (by linarith)]
      have : (0 : ℝ) < 2 ^ (7 : ℤ) := by positivity
      nlinarith
  have ha : (g.dbl.dx).val = binary64.rd (rd64 (g.max - g.min) / ((g.N : ℝ) - 1)) := by
    show IE.round binary64 (XR.div (g.dbl.max - g.dbl.min).val (lit ((g.N : ℚ) - 1) : IE binary64).val) = _
    rw [show ((g.N : ℚ) - 1) = ((g.N - 1 : ℤ) : ℚ) by push_cast; ring, s.val, sN.val, eN, eF]
    have h0 : (g.N : ℝ) - 1 ≠ 0 := by linarith
    simp [XR.div, h0, IE.round]
  have e : (gfl g).dx = ⟨rd64 (rd64 (g.max - g.min) / ((g.N : ℝ) - 1))⟩ := by
    show (⟨rd64 (((gfl g).max - (gfl g).min).val / (lit ((g.N : ℚ) - 1) : Fl rd64).val)⟩ : Fl rd64) = _
    rw [show ((g.N : ℚ) - 1) = ((g.N - 1 : ℤ) : ℚ) by push_cast; ring, eN, eF]
  rw [e]
  exact SimG.of_round hx (by norm_num) (by norm_num) (by norm_num) ha

theorem sim_inv : SimG 59 7 g.dbl.inv_dx (gfl g).inv_dx := by
  obtain ⟨-, s⟩ := sim_dx H
  have hp := s.pos
  have e1 : (lit 1 : Fl rd64).val = 1 := by
    show rd64 ((1 : ℚ) : ℝ) = 1
    rw [Rat.cast_one, rd_one]
  have s1 : Sim 0 0 (lit 1 : IE binary64) (lit 1 : Fl rd64) := Sim.lit 1 0 0
  have hx : Bits (-7) 7 (1 / (gfl g).dx.val) := by
    constructor
    · rw [le_div_iff₀ hp]
      calc (2 : ℝ) ^ (-7 : ℤ) * (gfl g).dx.val ≤ 2 ^ (-7 : ℤ) * 2 ^ (7 : ℤ) := by gcongr; exact s.2.2
        _ = 1 := by norm_num
    · rw [div_le_iff₀ hp]
      calc (1 : ℝ) = 2 ^ (7 : ℤ) * 2 ^ (-7 : ℤ) := by norm_num
        _ ≤ _ := by gcongr; exact s.2.1
  have ha : (g.dbl.inv_dx).val = binary64.rd (1 / (gfl g).dx.val) := by
    show IE.round binary64 (XR.div (lit 1 : IE binary64).val g.dbl.dx.val) = _
    rw [s1.1, s.1, e1]
    have h0 : (gfl g).dx.val ≠ 0 := hp.ne'
    simp [XR.div, h0, IE.round]
  have e : (gfl g).inv_dx = ⟨rd64 (1 / (gfl g).dx.val)⟩ := by
    show (⟨rd64 ((lit 1 : Fl rd64).val / (gfl g).dx.val)⟩ : Fl rd64) = _
    rw [e1]
  rw [e]
  exact (SimG.of_round hx (by norm_num) (by norm_num) (by norm_num) ha).1

variable {x : IE binary64} {x' : Fl rd64} (hx : SimG 112 10 x x')
include hx

theorem sim_cell : SimG 171 18 (g.dbl.cell x) ((gfl g).inv_dx * (x' - (gfl g).min)) :=
  (sim_inv H).mul (hx.sub (sim_min H).mono)

theorem sim_index : g.dbl.index x = (gfl g).index x' := by
  show g.dbl.bound (toInt (g.dbl.cell x)) = _
  rw [(sim_cell H hx).toInt]; rfl

theorem sim_w1 : SimG 171 40 (g.dbl.w1 x) ((gfl g).w1 x') := by
  have hi : 0 ≤ (gfl g).index x' ∧ (gfl g).index x' < 2 ^ 24 := by
    have h2 := H.two
    have h3 := H.many
    unfold Grid.index Grid.bound
    have : (gfl g).N = g.N := rfl
    simp only [this]
    split_ifs <;> constructor <;> omega
  have sl : SimG 0 24 (lit ((gfl g).index x' : ℚ) : IE binary64) (lit ((gfl g).index x' : ℚ) : Fl rd64) := by
    refine SimG.lit _ 24 ?_
    rw [abs_of_nonneg (by exact_mod_cast hi.1)]
    have : ((gfl g).index x' : ℝ) < 2 ^ 24 := by exact_mod_cast hi.2
    exact this.le
  have s1 := (sl.mul (sim_dx H).1).mono (k' := 112) (h' := 31)
  have s2 := s1.add (sim_min H).mono
  have s3 := (hx.mono (k' := 112) (h' := 32)).sub s2.mono
  have s4 := ((sim_inv H).mul s3).mono (k' := 171) (h' := 40)
  unfold Grid.w1
  rw [sim_index H hx]
  exact s4

end axis

/-- the two runs both return a number -/
def Both (k h : ℤ) (f : Outcome (IE binary64)) (f' : Outcome (Fl rd64)) : Prop :=
  ∀ b, f' = ok b → ∃ a, f = ok a ∧ SimG k h a b

theorem Both.lerp {g : Grid ℝ} (H : DoubleAxis g) {x : IE binary64} {x' : Fl rd64} (hx : SimG 112 10 x x') {k h : ℤ}
    {f : ℤ → Outcome (IE binary64)} {f' : ℤ → Outcome (Fl rd64)} (hf : ∀ i, Both k h (f i) (f' i)) (hk : k + 171 ≤ 1022)
    (hh : h ≤ 800) (h0 : 0 ≤ h) : Both (k + 171) (h + 42) (DataBox.lerp g.dbl x f) (DataBox.lerp (gfl g) x' f') := by
  intro b hb
  obtain ⟨b0, e0, hb⟩ := bind_eq_ok.1 hb
  obtain ⟨b1, e1, hb⟩ := bind_eq_ok.1 hb
  obtain ⟨a0, f0, s0⟩ := hf _ _ e0
  obtain ⟨a1, f1, s1⟩ := hf _ _ e1
  have w1 := sim_w1 H hx
  have one : SimG 0 0 (lit 1 : IE binary64) (lit 1 : Fl rd64) := by
    have := SimG.lit 1 0 (by norm_num)
    simpa using this
  have w0 := (one.mono (k' := 171) (h' := 40)).sub w1
  have p0 := w0.mul s0 (by omega) (by omega) (by omega)
  have p1 := (w1.mono (k' := 171) (h' := 40 + 1)).mul s1 (by omega) (by omega) (by omega)
  have p := p0.add p1 (by omega) (by omega) (by omega)
  injection hb with hb
  refine ⟨(lit 1 - g.dbl.w1 x) * a0 + g.dbl.w1 x * a1, ?_, ?_⟩
  · unfold DataBox.lerp
    rw [sim_index H hx, f0, Outcome.bind, f1, Outcome.bind]
  · rw [← hb]
    exact p.mono (by omega) (by omega)

theorem Both.read {d : DataBox ℝ} {axes : List ℕ} (T : DoubleTable d axes) (is : List ℤ) :
    Both 112 8 (d.dbl.read is) ((dfl d).read is) := by
  intro b hb
  obtain ⟨o, e, hb⟩ := bind_eq_ok.1 hb
  injection hb with hb
  have hr : d.read is = ok b.val := by
    unfold DataBox.read
    rw [show DataBox.offset d.dims is = ok o from e, ← hb]; rfl
  obtain ⟨h1, h2⟩ := T.entry is _ hr
  refine ⟨dbl b.val, ?_, ⟨rfl, TableNumber.mult h1, h2.trans (by norm_num)⟩⟩
  unfold DataBox.read
  rw [show DataBox.offset d.dbl.dims is = ok o from e, ← hb]; rfl

section tables
variable {d : DataBox ℝ} {x5 x4 x3 x2 x1 : IE binary64} {y5 y4 y3 y2 y1 : Fl rd64}

theorem Both.interp3 (T : DoubleTable d [2, 1]) (s3 : SimG 112 10 x3 y3) (s2 : SimG 112 10 x2 y2) (i : ℤ) :
    Both (112 + 171 + 171) (8 + 42 + 42) (d.dbl.interp3 x3 x2 i) ((dfl d).interp3 y3 y2 i) :=
  Both.lerp (T.grid 2 (by simp)).1 s3 (fun _ => Both.lerp (T.grid 1 (by simp)).1 s2 (fun _ => Both.read T _)
    (by norm_num) (by norm_num) (by norm_num)) (by norm_num) (by norm_num) (by norm_num)

theorem Both.interp4 (T : DoubleTable d [3, 2, 1]) (s4 : SimG 112 10 x4 y4) (s3 : SimG 112 10 x3 y3) (s2 : SimG 112 10 x2 y2)
    (i : ℤ) :
    Both (112 + 171 + 171 + 171) (8 + 42 + 42 + 42) (d.dbl.interp4 x4 x3 x2 i) ((dfl d).interp4 y4 y3 y2 i) :=
  Both.lerp (T.grid 3 (by simp)).1 s4 (fun _ => Both.lerp (T.grid 2 (by simp)).1 s3 (fun _ =>
    Both.lerp (T.grid 1 (by simp)).1 s2 (fun _ => Both.read T _)
    (by norm_num) (by norm_num) (by norm_num)) (by norm_num) (by norm_num) (by norm_num)) (by norm_num) (by norm_num)
    (by norm_num)

theorem Both.interp5 (T : DoubleTable d [4, 3, 2, 0]) (s5 : SimG 112 10 x5 y5) (s4 : SimG 112 10 x4 y4)
    (s3 : SimG 112 10 x3 y3) (s1 : SimG 112 10 x1 y1) (i : ℤ) :
    Both (112 + 171 + 171 + 171 + 171) (8 + 42 + 42 + 42 + 42) (d.dbl.interp5 x5 x4 x3 i x1)
      ((dfl d).interp5 y5 y4 y3 i y1) :=
  Both.lerp (T.grid 4 (by simp)).1 s5 (fun _ => Both.lerp (T.grid 3 (by simp)).1 s4 (fun _ =>
    Both.lerp (T.grid 2 (by simp)).1 s3 (fun _ => Both.lerp (T.grid 0 (by simp)).1 s1 (fun _ => Both.read T _)
    (by norm_num) (by norm_num) (by norm_num)) (by norm_num) (by norm_num) (by norm_num)) (by norm_num) (by norm_num)
    (by norm_num)) (by norm_num) (by norm_num) (by norm_num)

end tables

/-! ## Logarithms -/

/-- a double other than one is not close to one -/
theorem far_from_one {y : ℝ} (hy : 0 < y) (hn : double64.near y = y) (h1 : y ≠ 1) : 2 ^ (-53 : ℤ) ≤ |y - 1| := by
  by_cases hc : y ≤ 1 / 2
  · rw [abs_of_nonpos (by linarith)]
    have : (2 : ℝ) ^ (-53 : ℤ) ≤ 1 / 2 := by norm_num
    exact this.trans (by linarith)
  · have hm : Mult 53 y := by
      have := near_mult (l := -1) (x := y) (.inr (by rw [abs_of_pos hy]; norm_num; push Not at hc; linarith))
      rw [hn] at this
      exact this
    have h2 : Mult 53 (y - 1) := hm.sub (by
      have := (Mult.int 1).mono (k' := 53) (by norm_num)
      simpa using this)
    exact h2.ge (sub_ne_zero.2 h1)

/-- logarithms of doubles are zero or not tiny -/
theorem log10_far {y : ℝ} (hy : 0 < y) (hn : double64.near y = y) :
    Real.logb 10 y = 0 ∨ 2 ^ (-56 : ℤ) ≤ |Real.logb 10 y| := by
  by_cases h1 : y = 1
  · left; rw [h1, Real.logb_one]
  right
  have hf := far_from_one hy hn h1
  have hl : (2 : ℝ) ^ (-54 : ℤ) ≤ |Real.log y| := by
    have e : (2 : ℝ) ^ (-53 : ℤ) = 2 * 2 ^ (-54 : ℤ) := by norm_num
    have hpos : (0 : ℝ) < 2 ^ (-54 : ℤ) := by positivity
    have hlt1 : (2 : ℝ) ^ (-54 : ℤ) ≤ 1 / 2 := by norm_num
    rw [e] at hf
    rcases lt_or_gt_of_ne h1 with hc | hc
    · rw [abs_of_neg (Real.log_neg hy hc)]
      rw [abs_of_neg (by linarith)] at hf
      have := Real.log_le_sub_one_of_pos hy
      linarith
    · rw [abs_of_pos (Real.log_pos hc)]
      rw [abs_of_pos (by linarith)] at hf
      have h2 := Real.one_sub_inv_le_log_of_pos hy
      refine le_trans ?_ h2
      rcases le_total y 2 with h3 | h3
      · have : 1 - y⁻¹ = (y - 1) / y := by field_simp
        rw [this, le_div_iff₀ hy]
        nlinarith
      · have : y⁻¹ ≤ 1 / 2 := by rw [inv_le_comm₀ hy (by norm_num)]; norm_num; exact h3
        linarith
  have hten := Accuracy.log_ten_le
  have hten0 := Accuracy.log_ten_ge
  rw [Real.logb, abs_div, abs_of_pos (show (0 : ℝ) < Real.log 10 by linarith), le_div_iff₀ (by linarith)]
  have e : (2 : ℝ) ^ (-54 : ℤ) = 2 ^ (-56 : ℤ) * 4 := by norm_num
  rw [e] at hl
  have hpos : (0 : ℝ) < 2 ^ (-56 : ℤ) := by positivity
  nlinarith

/-- the logarithm of a rounded number -/
theorem sim_log10 {a : IE binary64} {z : ℝ} {l h : ℤ} (hz : Bits l h z) (hl : -1022 ≤ l) (hh : h ≤ 1023)
    (ha : a.val = binary64.rd z) : SimG 112 10 (Arith.log10 a) (Arith.log10 (⟨rd64 z⟩ : Fl rd64)) := by
  have s := Sim.round hz hl hh ha
  have hp := s.pos
  have hn : double64.near (rd64 z) = rd64 z := by
    have : rd64 z = double64.near z := by
      unfold rd64
      have hz0 : 0 < z := lt_of_lt_of_le (by positivity) hz.1
      rw [if_pos]
      rw [abs_of_pos hz0]
      exact ⟨(zle hl).trans hz.1, hz.2.trans (zle hh)⟩
    rw [this, double64.near_idem]
  have hb : |Real.logb 10 (rd64 z)| ≤ 2 ^ (10 : ℤ) := by
    obtain ⟨b1, b2⟩ := s.log_bounds
    have e : Real.logb 10 (rd64 z) = Real.logb 2 (rd64 z) * Real.logb 10 2 := by
      rw [Real.logb, Real.logb, Real.logb]
      have := Real.log_pos (show (1 : ℝ) < 2 by norm_num)
      field_simp
    have h2 : 0 ≤ Real.logb 10 2 := Real.logb_nonneg (by norm_num) (by norm_num)
    have h3 : Real.logb 10 2 ≤ 1 := by
      rw [Real.logb_le_iff_le_rpow (by norm_num) (by norm_num)]; norm_num
    have h4 : |Real.logb 2 (rd64 z)| ≤ 2 ^ (10 : ℤ) := by
      have c1 : (-1022 : ℝ) ≤ l := by exact_mod_cast hl
      have c2 : (h : ℝ) ≤ 1023 := by exact_mod_cast hh
      rw [abs_le]; norm_num
      constructor <;> linarith
    rw [e, abs_mul, abs_of_nonneg h2]
    have := abs_nonneg (Real.logb 2 (rd64 z))
    nlinarith
  have := SimG.round' (a := Arith.log10 a) (x := Real.logb 10 (rd64 z)) (log10_far hp hn) hb (by norm_num) (by norm_num)
    (by norm_num) (by
      show XR.lift _ _ _ a.val = _
      rw [s.1]
      show (if 0 < rd64 z then binary64.log10 (rd64 z) else if rd64 z = 0 then XR.ninf else XR.nan) = _
      rw [if_pos hp]; rfl)
  exact this.mono

end Opac.Doubles
