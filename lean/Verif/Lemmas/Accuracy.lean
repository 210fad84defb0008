import Verif.Spec.Accuracy
import Verif.Lemmas.RealArith
import Mathlib.Analysis.SpecialFunctions.Log.Deriv
import Mathlib.Analysis.Convex.SpecificFunctions.Basic
import Mathlib.Analysis.SpecialFunctions.Pow.Real

/-! Propagation of relative errors. -/

namespace Opac.Accuracy
open Arith

/-- same sign, and logarithms within `n * δ` -/
def Close (δ n a x : ℝ) : Prop := 0 < a * x ∧ |Real.log a - Real.log x| ≤ n * δ

namespace Close
variable {δ n m a b x y : ℝ}

theorem ne (h : Close δ n a x) : a ≠ 0 ∧ x ≠ 0 := by
  have := h.1
  constructor <;> rintro rfl <;> simp at this

theorem pos (h : Close δ n a x) (hx : 0 < x) : 0 < a := by
  have := h.1
  exact (pos_iff_pos_of_mul_pos this).2 hx

theorem refl (h : x ≠ 0) : Close δ 0 x x := ⟨mul_self_pos.2 h, by simp⟩

theorem mono (hδ : 0 ≤ δ) (h : Close δ n a x) (hnm : n ≤ m) : Close δ m a x :=
  ⟨h.1, h.2.trans (by gcongr)⟩

theorem trans (h : Close δ n a x) (h' : Close δ m x y) : Close δ (n + m) a y := by
  refine ⟨?_, ?_⟩
  · have h1 := h.1
    have h2 := h'.1
    have hx : 0 < x * x := mul_self_pos.2 h.ne.2
    have : 0 < (a * y) * (x * x) := by nlinarith [mul_pos h1 h2]
    exact pos_of_mul_pos_left this hx.le
  · have := abs_add_le (Real.log a - Real.log x) (Real.log x - Real.log y)
    rw [sub_add_sub_cancel] at this
    linarith [h.2, h'.2]

theorem mul (h : Close δ n a x) (h' : Close δ m b y) : Close δ (n + m) (a * b) (x * y) := by
  obtain ⟨ha, hx⟩ := h.ne
  obtain ⟨hb, hy⟩ := h'.ne
  refine ⟨by nlinarith [mul_pos h.1 h'.1], ?_⟩
  rw [Real.log_mul ha hb, Real.log_mul hx hy]
  have := abs_add_le (Real.log a - Real.log x) (Real.log b - Real.log y)
  rw [show Real.log a + Real.log b - (Real.log x + Real.log y) = (Real.log a - Real.log x) + (Real.log b - Real.log y) by
    ring]
  linarith [h.2, h'.2]

theorem inv (h : Close δ n a x) : Close δ n a⁻¹ x⁻¹ := by
  refine ⟨by rw [← mul_inv]; exact inv_pos.2 h.1, ?_⟩
  rw [Real.log_inv, Real.log_inv, show -Real.log a - -Real.log x = -(Real.log a - Real.log x) by ring, abs_neg]
  exact h.2

theorem div (h : Close δ n a x) (h' : Close δ m b y) : Close δ (n + m) (a / b) (x / y) := by
  rw [div_eq_mul_inv, div_eq_mul_inv]
  exact h.mul h'.inv

theorem neg (h : Close δ n a x) : Close δ n (-a) (-x) := by
  refine ⟨by have := h.1; nlinarith, ?_⟩
  rw [Real.log_neg_eq_log, Real.log_neg_eq_log]
  exact h.2

/-- the two-sided inequality -/
theorem iff_mul (ha : 0 < a) (hx : 0 < x) :
    Close δ n a x ↔ a ≤ Real.exp (n * δ) * x ∧ x ≤ Real.exp (n * δ) * a := by
  have h1 : a ≤ Real.exp (n * δ) * x ↔ Real.log a - Real.log x ≤ n * δ := by
    rw [← Real.log_le_log_iff ha (by positivity), Real.log_mul (by positivity) hx.ne', Real.log_exp]
    constructor <;> intro h <;> linarith
  have h2 : x ≤ Real.exp (n * δ) * a ↔ Real.log x - Real.log a ≤ n * δ := by
    rw [← Real.log_le_log_iff hx (by positivity), Real.log_mul (by positivity) ha.ne', Real.log_exp]
    constructor <;> intro h <;> linarith
  rw [h1, h2]
  constructor
  · intro h
    have := abs_le.1 h.2
    constructor <;> linarith [this.1, this.2]
  · intro h
    exact ⟨mul_pos ha hx, abs_le.2 ⟨by linarith [h.2], by linarith [h.1]⟩⟩

theorem add (hx : 0 < x) (hy : 0 < y) (h : Close δ n a x) (h' : Close δ n b y) : Close δ n (a + b) (x + y) := by
  have ha := h.pos hx
  have hb := h'.pos hy
  rw [iff_mul ha hx] at h
  rw [iff_mul hb hy] at h'
  rw [iff_mul (by positivity) (by positivity)]
  constructor <;> linarith [h.1, h.2, h'.1, h'.2]

/-- adding zero or something positive that is exact -/
theorem add_exact (hδ : 0 ≤ n * δ) (hx : 0 < x) (hy : 0 ≤ y) (h : Close δ n a x) : Close δ n (a + y) (x + y) := by
  have ha := h.pos hx
  rw [iff_mul ha hx] at h
  rw [iff_mul (by positivity) (by positivity)]
  have : 1 ≤ Real.exp (n * δ) := Real.one_le_exp hδ
  constructor <;> nlinarith [h.1, h.2]

theorem rpow (hx : 0 < x) (h : Close δ n a x) (p : ℝ) : Close δ (|p| * n) (a ^ p) (x ^ p) := by
  have ha := h.pos hx
  refine ⟨by positivity, ?_⟩
  rw [Real.log_rpow ha, Real.log_rpow hx, ← mul_sub, abs_mul, mul_assoc]
  exact mul_le_mul_of_nonneg_left h.2 (abs_nonneg p)

theorem sqrt (hx : 0 < x) (h : Close δ n a x) : Close δ (n / 2) (Real.sqrt a) (Real.sqrt x) := by
  have := h.rpow hx (1 / 2)
  rw [← Real.sqrt_eq_rpow, ← Real.sqrt_eq_rpow, abs_of_pos (by norm_num)] at this
  rwa [div_eq_mul_inv, mul_comm, ← one_div]

/-- `exp` of a negative number: the absolute error counts -/
theorem sub_le (hx : 0 < x) (h : Close δ n a x) (h1 : n * δ ≤ 1) : |a - x| ≤ 2 * x * (n * δ) := by
  have ha := h.pos hx
  have h0 : 0 ≤ n * δ := (abs_nonneg _).trans h.2
  rw [iff_mul ha hx] at h
  have e1 : Real.exp (n * δ) ≤ 1 + 2 * (n * δ) := by
    have := Real.abs_exp_sub_one_sub_id_le (x := n * δ) (by rw [abs_of_nonneg h0]; exact h1)
    have := (abs_le.1 this).2
    nlinarith
  have e2 : 1 - n * δ ≤ Real.exp (-(n * δ)) := by linarith [Real.add_one_le_exp (-(n * δ))]
  have e3 : Real.exp (-(n * δ)) * x ≤ a := by
    have := mul_le_mul_of_nonneg_left h.2 (Real.exp_pos (-(n * δ))).le
    rwa [← mul_assoc, ← Real.exp_add, neg_add_cancel, Real.exp_zero, one_mul] at this
  rw [abs_le]
  constructor <;> nlinarith [h.1, mul_le_mul_of_nonneg_right e1 hx.le, mul_le_mul_of_nonneg_right e2 hx.le]

theorem exp_neg (hx : 0 < x) (h : Close δ n a x) (h1 : n * δ ≤ 1) :
    Close δ (2 * x * n) (Real.exp (-a)) (Real.exp (-x)) := by
  refine ⟨by positivity, ?_⟩
  rw [Real.log_exp, Real.log_exp, show -a - -x = -(a - x) by ring, abs_neg, mul_assoc]
  exact h.sub_le hx h1

/-- `(1 - exp(-l x)) ≤ l (1 - exp(-x))` for `l ≥ 1` -/
theorem one_sub_exp_le {l x : ℝ} (hl : 1 ≤ l) (hx : 0 ≤ x) : 1 - Real.exp (-(l * x)) ≤ l * (1 - Real.exp (-x)) := by
  have h0 : (0 : ℝ) ≤ 1 / l := by positivity
  have h1 : 1 / l ≤ 1 := by rw [div_le_one (by positivity)]; exact hl
  have := convexOn_exp.2 (Set.mem_univ (-(l * x))) (Set.mem_univ (0 : ℝ)) h0 (by linarith : (0 : ℝ) ≤ 1 - 1 / l)
    (by ring)
  simp only [smul_eq_mul, mul_zero, add_zero, Real.exp_zero, mul_one] at this
  rw [show 1 / l * -(l * x) = -x by field_simp] at this
  have := mul_le_mul_of_nonneg_left this (by positivity : (0 : ℝ) ≤ l)
  rw [mul_add, mul_sub, ← mul_assoc, mul_one_div_cancel (by positivity)] at this
  linarith

private theorem one_sub_exp_one (h0 : 0 ≤ n * δ) (hx : 0 < x) (ha : 0 < a) (h : a ≤ Real.exp (n * δ) * x) :
    1 - Real.exp (-a) ≤ Real.exp (n * δ) * (1 - Real.exp (-x)) := by
  refine le_trans ?_ (one_sub_exp_le (Real.one_le_exp h0) hx.le)
  have := Real.exp_le_exp.2 (show -(Real.exp (n * δ) * x) ≤ -a by linarith)
  linarith

/-- `1 - exp(-x)` is no worse than `x` -/
theorem one_sub_exp (hx : 0 < x) (h : Close δ n a x) : Close δ n (1 - Real.exp (-a)) (1 - Real.exp (-x)) := by
  have ha := h.pos hx
  have h0 : 0 ≤ n * δ := (abs_nonneg _).trans h.2
  have p1 : 0 < 1 - Real.exp (-a) := by have := Real.exp_lt_one_iff.2 (show -a < 0 by linarith); linarith
  have p2 : 0 < 1 - Real.exp (-x) := by have := Real.exp_lt_one_iff.2 (show -x < 0 by linarith); linarith
  rw [iff_mul ha hx] at h
  rw [iff_mul p1 p2]
  exact ⟨one_sub_exp_one h0 hx ha h.1, one_sub_exp_one h0 ha hx h.2⟩

theorem exp_pos' (hx : 0 < x) (h : Close δ n a x) (h1 : n * δ ≤ 1) :
    Close δ (2 * x * n) (Real.exp a) (Real.exp x) := by
  have := (h.exp_neg hx h1).inv
  rwa [← Real.exp_neg, ← Real.exp_neg, neg_neg, neg_neg] at this

/-- `expm1` -/
theorem expm1 (hx : 0 < x) (h : Close δ n a x) (h1 : n * δ ≤ 1) :
    Close δ ((1 + 2 * x) * n) (Real.exp a - 1) (Real.exp x - 1) := by
  have e : ∀ t : ℝ, Real.exp t - 1 = Real.exp t * (1 - Real.exp (-t)) := by
    intro t; rw [mul_sub, ← Real.exp_add, add_neg_cancel, Real.exp_zero, mul_one]
  rw [e a, e x]
  have := (h.exp_pos' hx h1).mul (h.one_sub_exp hx)
  rwa [show (1 + 2 * x) * n = 2 * x * n + n by ring]

/-- `exp x + 1` -/
theorem exp_add_one (hx : 0 < x) (h : Close δ n a x) (h1 : n * δ ≤ 1) :
    Close δ (2 * x * n) (Real.exp a + 1) (Real.exp x + 1) := by
  have := h.exp_pos' hx h1
  refine this.add_exact ?_ (Real.exp_pos x) zero_le_one
  exact (abs_nonneg _).trans this.2

end Close

/-- the logarithm of the largest relative change of one rounding -/
noncomputable def unit (u : ℝ) : ℝ := -Real.log (1 - u)

variable {rd : ℝ → ℝ} {u : ℝ}

theorem unit_nonneg (h : Rounding rd u) : 0 ≤ unit u := by
  have := h.nonneg
  have := h.lt_one
  have := Real.log_nonpos (x := 1 - u) (by linarith) (by linarith)
  unfold unit; linarith

theorem Close.round (h : Rounding rd u) {x : ℝ} (hx : x ≠ 0) : Close (unit u) 1 (rd x) x := by
  have hu := h.nonneg
  have hu1 := h.lt_one
  have pos : ∀ x : ℝ, 0 < x → ∀ r : ℝ, |r - x| ≤ u * |x| → Close (unit u) 1 r x := by
    intro x hx r he
    rw [abs_of_pos hx, abs_le] at he
    have hr : 0 < r := by nlinarith
    rw [Close.iff_mul hr hx, one_mul]
    have e : Real.exp (unit u) = (1 - u)⁻¹ := by
      rw [unit, Real.exp_neg, Real.exp_log (by linarith)]
    rw [e]
    have hp : 0 < 1 - u := by linarith
    constructor
    · rw [inv_mul_eq_div, le_div_iff₀ hp]; nlinarith
    · rw [inv_mul_eq_div, le_div_iff₀ hp]; nlinarith
  rcases lt_or_gt_of_ne hx with hn | hp
  · have := pos (-x) (by linarith) (-rd x) (by
      have := h.err x
      rw [show -rd x - -x = -(rd x - x) by ring, abs_neg, abs_neg]
      exact this)
    simpa using this.neg
  · exact pos x hp _ (h.err x)

/-- a rounded number and an exact one -/
def CF (u n : ℝ) (a : Fl rd) (x : ℝ) : Prop := Close (unit u) n a.val x

namespace CF
variable {n m : ℝ} {a b : Fl rd} {x y : ℝ}

theorem exact (a : Fl rd) (h : a.val ≠ 0) : CF u 0 a a.val := Close.refl h

theorem mono (hr : BinaryRounding rd u) (h : CF u n a x) (hnm : n ≤ m) : CF u m a x :=
  Close.mono (unit_nonneg hr.toRounding) h hnm

theorem round (hr : BinaryRounding rd u) {r : ℝ} (h : Close (unit u) n r x) : CF u (n + 1) (⟨rd r⟩ : Fl rd) x := by
  rw [add_comm]
  exact (Close.round hr.toRounding h.ne.1).trans h

theorem mul (hr : BinaryRounding rd u) (h : CF u n a x) (h' : CF u m b y) : CF u (n + m + 1) (a * b) (x * y) :=
  round hr (Close.mul h h')

theorem div (hr : BinaryRounding rd u) (h : CF u n a x) (h' : CF u m b y) : CF u (n + m + 1) (a / b) (x / y) :=
  round hr (Close.div h h')

theorem add (hr : BinaryRounding rd u) (hx : 0 < x) (hy : 0 < y) (h : CF u n a x) (h' : CF u m b y) :
    CF u (max n m + 1) (a + b) (x + y) :=
  round hr (Close.add hx hy (h.mono hr (le_max_left _ _)) (h'.mono hr (le_max_right _ _)))

theorem add_exact (hr : BinaryRounding rd u) (hn : 0 ≤ n) (hx : 0 < x) (hb : 0 ≤ b.val) (h : CF u n a x) :
    CF u (n + 1) (a + b) (x + b.val) :=
  round hr (Close.add_exact (mul_nonneg hn (unit_nonneg hr.toRounding)) hx hb h)

theorem neg (h : CF u n a x) : CF u n (-a) (-x) := Close.neg h

theorem pow (hr : BinaryRounding rd u) (hx : 0 < x) (h : CF u n a x) (p : Fl rd) :
    CF u (|p.val| * n + 1) (Arith.pow a p) (x ^ p.val) :=
  round hr (Close.rpow hx h p.val)

theorem powInt (hr : BinaryRounding rd u) (hx : 0 < x) (h : CF u n a x) (k : ℕ) (hk : k ≤ 2 ^ 24) :
    CF u (k * n + 1) (Arith.pow a (lit (k : ℚ))) (x ^ (k : ℝ)) := by
  have := h.pow hr hx (lit (k : ℚ))
  have e : (lit (k : ℚ) : Fl rd).val = k := by
    show rd ((k : ℚ) : ℝ) = k
    rw [Rat.cast_natCast]; exact hr.ints k hk
  rw [e, abs_of_nonneg (by positivity)] at this
  exact this

theorem sqrt (hr : BinaryRounding rd u) (hx : 0 < x) (h : CF u n a x) :
    CF u (n / 2 + 1) (Arith.sqrt a) (Real.sqrt x) := round hr (Close.sqrt hx h)

theorem int (hr : BinaryRounding rd u) (k : ℕ) (hk : k ≤ 2 ^ 24) (h0 : k ≠ 0) : CF u 0 (lit (k : ℚ) : Fl rd) (k : ℝ) := by
  have e : (lit (k : ℚ) : Fl rd).val = k := by
    show rd ((k : ℚ) : ℝ) = k
    rw [Rat.cast_natCast]; exact hr.ints k hk
  show Close _ _ _ _
  rw [e]
  exact Close.refl (by exact_mod_cast h0)

theorem lit' (hr : BinaryRounding rd u) (q : ℚ) (h0 : q ≠ 0) : CF u 1 (lit q : Fl rd) (q : ℝ) :=
  Close.round hr.toRounding (by exact_mod_cast h0)

theorem pi (hr : BinaryRounding rd u) : CF u 1 (Arith.pi : Fl rd) Real.pi := Close.round hr.toRounding Real.pi_ne_zero

theorem exp_neg (hr : BinaryRounding rd u) (hx : 0 < x) (h : CF u n a x) (h1 : n * unit u ≤ 1) :
    CF u (2 * x * n + 1) (Arith.exp (-a)) (Real.exp (-x)) :=
  round hr (Close.exp_neg hx h h1)

theorem exp (hr : BinaryRounding rd u) (hx : 0 < x) (h : CF u n a x) (h1 : n * unit u ≤ 1) :
    CF u (2 * x * n + 1) (Arith.exp a) (Real.exp x) :=
  round hr (Close.exp_pos' hx h h1)

theorem expm1 (hr : BinaryRounding rd u) (hx : 0 < x) (h : CF u n a x) (h1 : n * unit u ≤ 1) :
    CF u ((1 + 2 * x) * n + 1) (Arith.expm1 a) (Real.exp x - 1) :=
  round hr (Close.expm1 hx h h1)

/-- `-expm1(-x)` -/
theorem one_sub_exp (hr : BinaryRounding rd u) (hx : 0 < x) (h : CF u n a x) :
    CF u (n + 1) (-(Arith.expm1 (-a))) (-(Real.exp (-x) - 1)) := by
  refine CF.neg (round hr ?_)
  have := (Close.one_sub_exp hx h).neg
  rw [neg_sub, neg_sub] at this
  exact this

end CF

/-- a rounded number and an exact positive one -/
def PF (u n : ℝ) (a : Fl rd) (x : ℝ) : Prop := 0 < x ∧ CF u n a x

namespace PF
variable {n m : ℝ} {a b : Fl rd} {x y : ℝ}

theorem pos (h : PF u n a x) : 0 < x := h.1

theorem pos' (h : PF u n a x) : 0 < a.val := Close.pos h.2 h.1

theorem mono (hr : BinaryRounding rd u) (h : PF u n a x) (hnm : n ≤ m) : PF u m a x := ⟨h.1, h.2.mono hr hnm⟩

theorem exact (a : Fl rd) (h : 0 < a.val) : PF u 0 a a.val := ⟨h, CF.exact a h.ne'⟩

theorem mul (hr : BinaryRounding rd u) (h : PF u n a x) (h' : PF u m b y) : PF u (n + m + 1) (a * b) (x * y) :=
  ⟨mul_pos h.1 h'.1, h.2.mul hr h'.2⟩

theorem div (hr : BinaryRounding rd u) (h : PF u n a x) (h' : PF u m b y) : PF u (n + m + 1) (a / b) (x / y) :=
  ⟨div_pos h.1 h'.1, h.2.div hr h'.2⟩

theorem add (hr : BinaryRounding rd u) (h : PF u n a x) (h' : PF u m b y) : PF u (max n m + 1) (a + b) (x + y) :=
  ⟨add_pos h.1 h'.1, h.2.add hr h.1 h'.1 h'.2⟩

theorem add_exact (hr : BinaryRounding rd u) (hn : 0 ≤ n) (hb : 0 ≤ b.val) (h : PF u n a x) :
    PF u (n + 1) (a + b) (x + b.val) := ⟨add_pos_of_pos_of_nonneg h.1 hb, h.2.add_exact hr hn h.1 hb⟩

theorem pow (hr : BinaryRounding rd u) (h : PF u n a x) (p : Fl rd) :
    PF u (|p.val| * n + 1) (Arith.pow a p) (Arith.pow x p.val) := ⟨Real.rpow_pos_of_pos h.1 _, h.2.pow hr h.1 p⟩

theorem powInt (hr : BinaryRounding rd u) (h : PF u n a x) (q : ℚ) (k : ℕ) (hq : q = k) (hk : k ≤ 2 ^ 24) :
    PF u (k * n + 1) (Arith.pow a (lit q)) (Arith.pow x (lit q)) := by
  subst hq
  refine ⟨Real.rpow_pos_of_pos h.1 _, ?_⟩
  have := h.2.powInt hr h.1 k hk
  have e : (lit (k : ℚ) : ℝ) = k := Rat.cast_natCast k
  rw [e]
  exact this

theorem sqrt (hr : BinaryRounding rd u) (h : PF u n a x) : PF u (n / 2 + 1) (Arith.sqrt a) (Arith.sqrt x) :=
  ⟨Real.sqrt_pos.2 h.1, h.2.sqrt hr h.1⟩

theorem int (hr : BinaryRounding rd u) (q : ℚ) (k : ℕ) (hq : q = k) (hk : k ≤ 2 ^ 24) (h0 : 0 < k) :
    PF u 0 (lit q : Fl rd) (lit q : ℝ) := by
  subst hq
  have e : (lit (k : ℚ) : ℝ) = k := Rat.cast_natCast k
  rw [e]
  exact ⟨by exact_mod_cast h0, CF.int hr k hk h0.ne'⟩

theorem dec (hr : BinaryRounding rd u) (q : ℚ) (h0 : 0 < q) : PF u 1 (lit q : Fl rd) (lit q : ℝ) :=
  ⟨show (0 : ℝ) < q by exact_mod_cast h0, CF.lit' hr q h0.ne'⟩

theorem pi (hr : BinaryRounding rd u) : PF u 1 (Arith.pi : Fl rd) (Arith.pi : ℝ) := ⟨Real.pi_pos, CF.pi hr⟩

theorem exp_neg (hr : BinaryRounding rd u) (h : PF u n a x) (h1 : n * unit u ≤ 1) :
    PF u (2 * x * n + 1) (Arith.exp (-a)) (Arith.exp (-x)) := ⟨Real.exp_pos _, h.2.exp_neg hr h.1 h1⟩

theorem exp (hr : BinaryRounding rd u) (h : PF u n a x) (h1 : n * unit u ≤ 1) :
    PF u (2 * x * n + 1) (Arith.exp a) (Arith.exp x) := ⟨Real.exp_pos _, h.2.exp hr h.1 h1⟩

theorem expm1 (hr : BinaryRounding rd u) (h : PF u n a x) (h1 : n * unit u ≤ 1) :
    PF u ((1 + 2 * x) * n + 1) (Arith.expm1 a) (Arith.expm1 x) :=
  ⟨sub_pos.2 (Real.one_lt_exp_iff.2 h.1), h.2.expm1 hr h.1 h1⟩

/-- `-expm1(-x)` -/
theorem one_sub_exp (hr : BinaryRounding rd u) (h : PF u n a x) :
    PF u (n + 1) (-(Arith.expm1 (-a))) (-(Arith.expm1 (-x))) := by
  refine ⟨?_, h.2.one_sub_exp hr h.1⟩
  have := Real.exp_lt_one_iff.2 (show -x < 0 by linarith [h.1])
  show 0 < -(Real.exp (-x) - 1)
  linarith

end PF

/-- from logarithms to the two-sided inequality -/
theorem PF.agrees (hr : BinaryRounding rd u) {n : ℝ} {a : Fl rd} {x : ℝ} (h : PF u n a x) :
    AgreesTo u n a.val x := by
  have hx := h.1
  replace h := h.2
  have ha := Close.pos h hx
  have hp : 0 < 1 - u := by linarith [hr.lt_one]
  have e : Real.exp (n * unit u) = ((1 - u) ^ n)⁻¹ := by
    rw [unit, mul_neg, Real.exp_neg, Real.rpow_def_of_pos hp, mul_comm n]
  have := (Close.iff_mul ha hx).1 h
  rw [e] at this
  have hq : 0 < (1 - u) ^ n := Real.rpow_pos_of_pos hp n
  rw [inv_mul_eq_div, le_div_iff₀ hq, inv_mul_eq_div, le_div_iff₀ hq] at this
  exact ⟨by linarith [this.2], by linarith [this.1]⟩

end Opac.Accuracy
