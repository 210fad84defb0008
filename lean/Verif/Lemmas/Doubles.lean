import Verif.Lemmas.Accuracy
import Verif.Model.Binary
import Verif.Spec.Doubles
import Mathlib.Analysis.Complex.ExponentialBounds
import Mathlib.Analysis.Real.Pi.Bounds

/-! Where nothing overflows or underflows, IEEE double precision is rounding with relative error `2^-53`. -/

namespace Opac.Doubles
open Arith Classical

/-- rounding to double precision, where neither overflow nor underflow occurs -/
noncomputable def rd64 (x : ℝ) : ℝ := if 2 ^ (-1022 : ℤ) ≤ |x| ∧ |x| ≤ 2 ^ (1023 : ℤ) then double64.near x else x

theorem rne_half (z : ℝ) : |(rne z : ℝ) - z| ≤ 1 / 2 := by
  have h1 := Int.floor_le z
  have h2 := Int.lt_floor_add_one z
  unfold rne
  rw [abs_le]
  split_ifs <;> push_cast <;> constructor <;> linarith

theorem near_err {x : ℝ} (h : 2 ^ (-1022 : ℤ) ≤ |x|) : |double64.near x - x| ≤ 2 ^ (-53 : ℤ) * |x| := by
  have hx : 0 < |x| := lt_of_lt_of_le (by positivity) h
  have hlog : (-1022 : ℤ) ≤ Int.log 2 |x| := by
    rw [← Int.zpow_le_iff_le_log (by norm_num) hx]
    exact_mod_cast h
  have hue : double64.ue x = Int.log 2 |x| - 52 := by
    unfold BinaryParams.ue double64
    push_cast
    omega
  have hself : (2 : ℝ) ^ Int.log 2 |x| ≤ |x| := by exact_mod_cast Int.zpow_log_le_self (b := 2) (by norm_num) hx
  unfold BinaryParams.near
  rw [hue]
  generalize Int.log 2 |x| = e at *
  have hp : (0 : ℝ) < 2 ^ (e - 52) := by positivity
  have e1 : (rne (x / 2 ^ (e - 52)) : ℝ) * 2 ^ (e - 52) - x = ((rne (x / 2 ^ (e - 52)) : ℝ) - x / 2 ^ (e - 52)) * 2 ^ (e - 52) := by
    rw [sub_mul, div_mul_cancel₀ _ hp.ne']
  rw [e1, abs_mul, abs_of_pos hp]
  have e2 : (2 : ℝ) ^ (e - 52) = 2 * (2 ^ (-53 : ℤ) * 2 ^ e) := by
    rw [← zpow_add₀ (by norm_num), ← zpow_one_add₀ (by norm_num)]
    congr 1
    ring
  have := mul_le_mul_of_nonneg_right (rne_half (x / 2 ^ (e - 52))) hp.le
  refine this.trans ?_
  rw [e2]
  have : (2 : ℝ) ^ (-53 : ℤ) * 2 ^ e ≤ 2 ^ (-53 : ℤ) * |x| := mul_le_mul_of_nonneg_left hself (by positivity)
  linarith

theorem rd64_fix {k e : ℤ} (he : -1074 ≤ e) (hk : |k| ≤ 2 ^ 53) : rd64 (k * 2 ^ e) = k * 2 ^ e := by
  unfold rd64
  split_ifs
  · exact double64.near_fix he hk
  · rfl

theorem rd64_two {e : ℤ} (he : -1074 ≤ e) : rd64 (2 ^ e) = 2 ^ e := by
  have := rd64_fix (k := 1) he (by norm_num)
  simpa using this

theorem rd64_binary : BinaryRounding rd64 (2 ^ (-53 : ℤ)) where
  nonneg := by positivity
  lt_one := by norm_num
  err x := by
    unfold rd64
    split_ifs with h
    · exact near_err h.1
    · rw [sub_self, abs_zero]
      positivity
  one := by simpa using rd64_two (e := 0) (by norm_num)
  ints k hk := by
    have := rd64_fix (k := k) (e := 0) (by norm_num) (by
      rw [Nat.abs_cast]
      have : (k : ℤ) ≤ 2 ^ 24 := by exact_mod_cast hk
      exact this.trans (by norm_num))
    simpa using this
  quarter := by
    have := rd64_two (e := -2) (by norm_num)
    rw [show (2 : ℝ) ^ (-2 : ℤ) = 1 / 4 by norm_num] at this
    exact this

theorem zle {a b : ℤ} (h : a ≤ b) : (2 : ℝ) ^ a ≤ 2 ^ b := zpow_le_zpow_right₀ (by norm_num) h

/-- rounding keeps numbers between powers of two -/
theorem near_bits {l h : ℤ} {x : ℝ} (hl : -1022 ≤ l) (hh : h ≤ 1023) (hx : Bits l h x) : Bits l h (double64.near x) := by
  have fix : ∀ e : ℤ, -1022 ≤ e → double64.near (2 ^ e) = 2 ^ e := by
    intro e he
    have := double64.near_fix (e := e) (k := 1) (show (-1074 : ℤ) ≤ e by omega) (by norm_num [double64])
    simpa using this
  have hlh : l ≤ h := by
    by_contra hc
    have := (zpow_lt_zpow_iff_right₀ (show (1 : ℝ) < 2 by norm_num)).2 (not_le.1 hc)
    linarith [hx.1, hx.2]
  constructor
  · rw [← fix l hl]; exact double64.near_mono hx.1
  · rw [← fix h (by omega)]; exact double64.near_mono hx.2

theorem rd_eq {l h : ℤ} {x : ℝ} (hl : -1022 ≤ l) (hh : h ≤ 1023) (hx : Bits l h x) :
    binary64.rd x = .fin (rd64 x) ∧ Bits l h (rd64 x) := by
  have hp : 0 < x := lt_of_lt_of_le (by positivity) hx.1
  have hb := near_bits hl hh hx
  have e : rd64 x = double64.near x := by
    unfold rd64
    rw [if_pos]
    rw [abs_of_pos hp]
    exact ⟨(zle hl).trans hx.1, hx.2.trans (zle hh)⟩
  rw [e]
  refine ⟨double64.rd_of_lt ?_, hb⟩
  rw [abs_of_pos (lt_of_lt_of_le (by positivity) hb.1)]
  refine lt_of_le_of_lt (hb.2.trans (zle hh)) ?_
  exact zpow_lt_zpow_right₀ (by norm_num) (show (1023 : ℤ) < 1024 by norm_num)

/-- the double `a` is the positive number `b`, between `2^l` and `2^h` -/
def Sim (l h : ℤ) (a : IE binary64) (b : Fl rd64) : Prop := a.val = .fin b.val ∧ Bits l h b.val

namespace Sim
variable {l h l' h' : ℤ} {a a' : IE binary64} {b b' : Fl rd64}

theorem pos (s : Sim l h a b) : 0 < b.val := lt_of_lt_of_le (by positivity) s.2.1

theorem le (s : Sim l h a b) : l ≤ h := by
  by_contra hc
  have := (zpow_lt_zpow_iff_right₀ (show (1 : ℝ) < 2 by norm_num)).2 (not_le.1 hc)
  linarith [s.2.1, s.2.2]

theorem mono (s : Sim l h a b) (h1 : l' ≤ l) (h2 : h ≤ h') : Sim l' h' a b :=
  ⟨s.1, (zle h1).trans s.2.1, s.2.2.trans (zle h2)⟩

theorem round {x : ℝ} (hx : Bits l h x) (hl : -1022 ≤ l) (hh : h ≤ 1023) (ha : a.val = binary64.rd x) :
    Sim l h a (⟨rd64 x⟩ : Fl rd64) := by
  obtain ⟨e1, e2⟩ := rd_eq hl hh hx
  exact ⟨by rw [ha, e1], e2⟩

theorem mul (s : Sim l h a b) (s' : Sim l' h' a' b') (hl : -1022 ≤ l + l' := by norm_num) (hh : h + h' ≤ 1023 := by norm_num) :
    Sim (l + l') (h + h') (a * a') (b * b') := by
  refine round (x := b.val * b'.val) ⟨?_, ?_⟩ hl hh ?_
  · rw [zpow_add₀ (by norm_num)]
    exact mul_le_mul s.2.1 s'.2.1 (by positivity) s.pos.le
  · rw [zpow_add₀ (by norm_num)]
    exact mul_le_mul s.2.2 s'.2.2 s'.pos.le (by positivity)
  · show IE.round binary64 (XR.mul a.val a'.val) = _
    rw [s.1, s'.1]
    rfl

theorem div (s : Sim l h a b) (s' : Sim l' h' a' b') (hl : -1022 ≤ l - h' := by norm_num) (hh : h - l' ≤ 1023 := by norm_num) :
    Sim (l - h') (h - l') (a / a') (b / b') := by
  refine round (x := b.val / b'.val) ⟨?_, ?_⟩ hl hh ?_
  · rw [zpow_sub₀ (by norm_num)]
    exact div_le_div₀ s.pos.le s.2.1 s'.pos s'.2.2
  · rw [zpow_sub₀ (by norm_num)]
    exact div_le_div₀ (by positivity) s.2.2 (by positivity) s'.2.1
  · show IE.round binary64 (XR.div a.val a'.val) = _
    rw [s.1, s'.1]
    have h0 : b'.val ≠ 0 := s'.pos.ne'
    simp [XR.div, h0, IE.round]

theorem add (s : Sim l h a b) (s' : Sim l' h' a' b') (k : ℤ) (hk : h + 1 ≤ k := by norm_num) (hk' : h' + 1 ≤ k := by norm_num)
    (hl : -1022 ≤ l := by norm_num) (hh : k ≤ 1023 := by norm_num) :
    Sim l k (a + a') (b + b') := by
  refine round (x := b.val + b'.val) ⟨?_, ?_⟩ hl hh ?_
  · have := s'.pos
    linarith [s.2.1]
  · have e : (2 : ℝ) ^ k = 2 ^ (k - 1) + 2 ^ (k - 1) := by
      rw [← two_mul, ← zpow_one_add₀ (by norm_num)]
      congr 1
      ring
    rw [e]
    exact add_le_add (s.2.2.trans (zle (by omega))) (s'.2.2.trans (zle (by omega)))
  · show IE.round binary64 (XR.add a.val a'.val) = _
    rw [s.1, s'.1]
    rfl

theorem lit (q : ℚ) (l h : ℤ) (h1 : (2 : ℝ) ^ l ≤ q := by norm_num) (h2 : (q : ℝ) ≤ 2 ^ h := by norm_num)
    (hl : -1022 ≤ l := by norm_num) (hh : h ≤ 1023 := by norm_num) :
    Sim l h (Arith.lit q : IE binary64) (Arith.lit q : Fl rd64) :=
  round (x := (q : ℝ)) ⟨h1, h2⟩ hl hh rfl

theorem pi : Sim 1 2 (Arith.pi : IE binary64) (Arith.pi : Fl rd64) :=
  round (x := Real.pi) ⟨by have := Real.pi_gt_three; norm_num; linarith, by have := Real.pi_lt_four; norm_num; linarith⟩
    (by norm_num) (by norm_num) rfl

theorem sqrt {l h : ℤ} (s : Sim (2 * l) (2 * h) a b) (hl : -1022 ≤ l := by norm_num) (hh : h ≤ 1023 := by norm_num) :
    Sim l h (Arith.sqrt a) (Arith.sqrt b) := by
  have e : ∀ k : ℤ, Real.sqrt (2 ^ (2 * k)) = 2 ^ k := by
    intro k
    rw [mul_comm, zpow_mul, show ((2 : ℝ) ^ k) ^ (2 : ℤ) = (2 ^ k) ^ (2 : ℕ) from rfl, Real.sqrt_sq (by positivity)]
  refine round (x := Real.sqrt b.val) ⟨?_, ?_⟩ hl hh ?_
  · rw [← e]; exact Real.sqrt_le_sqrt s.2.1
  · rw [← e]; exact Real.sqrt_le_sqrt s.2.2
  · show IE.round binary64 (XR.lift _ _ _ a.val) = _
    rw [s.1]
    simp [XR.lift, s.pos.le, IE.round]

/-- a power, from a bound on its logarithm -/
theorem pow {p : IE binary64} {q : Fl rd64} (s : Sim l h a b) (hp : p.val = .fin q.val) {l' h' : ℤ}
    (h1 : (l' : ℝ) ≤ q.val * Real.logb 2 b.val) (h2 : q.val * Real.logb 2 b.val ≤ h') (hl : -1022 ≤ l' := by norm_num)
    (hh : h' ≤ 1023 := by norm_num) : Sim l' h' (Arith.pow a p) (Arith.pow b q) := by
  have hb := s.pos
  have e : b.val ^ q.val = 2 ^ (q.val * Real.logb 2 b.val) := by
    rw [mul_comm, Real.rpow_mul (by norm_num), Real.rpow_logb (by norm_num) (by norm_num) hb]
  have hx : Bits l' h' (b.val ^ q.val) := by
    rw [e]
    constructor
    · rw [← Real.rpow_intCast]; exact Real.rpow_le_rpow_of_exponent_le (by norm_num) h1
    · rw [← Real.rpow_intCast]; exact Real.rpow_le_rpow_of_exponent_le (by norm_num) h2
  by_cases h0 : q.val = 0
  · refine round hx hl hh ?_
    show (match a.val, p.val with
      | .fin x, .fin y => if 0 < x ∧ y ≠ 0 then binary64.pow x y else IE.round binary64 (XR.pow (.fin x) (.fin y))
      | v, w => XR.pow v w) = _
    rw [s.1, hp]
    simp [h0, XR.pow, IE.round]
  · refine round hx hl hh ?_
    show (match a.val, p.val with
      | .fin x, .fin y => if 0 < x ∧ y ≠ 0 then binary64.pow x y else IE.round binary64 (XR.pow (.fin x) (.fin y))
      | v, w => XR.pow v w) = _
    rw [s.1, hp]
    simp only [hb, true_and, ne_eq, h0, not_false_eq_true, if_true]
    rfl

theorem log_bounds (s : Sim l h a b) : (l : ℝ) ≤ Real.logb 2 b.val ∧ Real.logb 2 b.val ≤ h := by
  have hb := s.pos
  constructor
  · rw [Real.le_logb_iff_rpow_le (by norm_num) hb, Real.rpow_intCast]; exact s.2.1
  · rw [Real.logb_le_iff_le_rpow (by norm_num) hb, Real.rpow_intCast]; exact s.2.2

/-- whole powers -/
theorem powInt (s : Sim l h a b) (q : ℚ) (k : ℕ) (hq : q = k := by norm_num) (hk : k ≤ 2 ^ 24 := by norm_num)
    (h0 : 0 < k := by norm_num)
    (hl : -1022 ≤ k * l := by norm_num) (hh : k * h ≤ 1023 := by norm_num) :
    Sim (k * l) (k * h) (Arith.pow a (Arith.lit q)) (Arith.pow b (Arith.lit q)) := by
  subst hq
  have e : (Arith.lit (k : ℚ) : Fl rd64).val = k := by
    show rd64 ((k : ℚ) : ℝ) = k
    rw [Rat.cast_natCast]
    exact rd64_binary.ints k hk
  have hk1 : (1 : ℝ) ≤ k := by exact_mod_cast h0
  have hL : Sim 0 24 (Arith.lit (k : ℚ) : IE binary64) (Arith.lit (k : ℚ) : Fl rd64) :=
    lit (k : ℚ) 0 24 (by rw [Rat.cast_natCast]; simpa using hk1) (by
      rw [Rat.cast_natCast]
      have : (k : ℝ) ≤ 2 ^ 24 := by exact_mod_cast hk
      exact this)
  obtain ⟨b1, b2⟩ := s.log_bounds
  refine s.pow hL.1 ?_ ?_ hl hh
  · rw [e]; push_cast; exact mul_le_mul_of_nonneg_left b1 (by linarith)
  · rw [e]; push_cast; exact mul_le_mul_of_nonneg_left b2 (by linarith)

theorem exp_le {x : ℝ} (hx : x ≤ 128) : Real.exp x ≤ 2 ^ (185 : ℤ) := by
  have h1 : Real.exp x ≤ Real.exp 128 := Real.exp_le_exp.2 hx
  have h2 : Real.exp 128 = Real.exp 1 ^ (128 : ℕ) := by rw [← Real.exp_nat_mul]; norm_num
  have h3 : Real.exp 1 ^ (128 : ℕ) ≤ 2.7182818286 ^ (128 : ℕ) :=
    pow_le_pow_left₀ (Real.exp_pos 1).le (le_of_lt Real.exp_one_lt_d9) 128
  refine h1.trans (h2.le.trans (h3.trans ?_))
  norm_num

/-- `exp(-x)` -/
theorem exp_neg (s : Sim l h a b) (hx : b.val ≤ 128) : Sim (-185) 0 (Arith.exp (-a)) (Arith.exp (-b)) := by
  refine round (x := Real.exp (-b.val)) ⟨?_, ?_⟩ (by norm_num) (by norm_num) ?_
  · rw [Real.exp_neg, zpow_neg]
    exact inv_anti₀ (Real.exp_pos _) (exp_le hx)
  · have := Real.exp_le_one_iff.2 (show -b.val ≤ 0 by linarith [s.pos])
    simpa using this
  · show XR.lift _ _ _ (XR.neg a.val) = _
    rw [s.1]
    rfl

/-- `exp(x)` -/
theorem exp (s : Sim l h a b) (hx : b.val ≤ 128) : Sim 0 185 (Arith.exp a) (Arith.exp b) := by
  refine round (x := Real.exp b.val) ⟨?_, ?_⟩ (by norm_num) (by norm_num) ?_
  · have := Real.one_le_exp s.pos.le
    simpa using this
  · exact exp_le hx
  · show XR.lift _ _ _ a.val = _
    rw [s.1]
    rfl

/-- `expm1(x)` -/
theorem expm1 (s : Sim l h a b) (hx : b.val ≤ 128) (hl : -1022 ≤ l := by norm_num) : Sim l 185 (Arith.expm1 a) (Arith.expm1 b) := by
  refine round (x := Real.exp b.val - 1) ⟨?_, ?_⟩ hl (by norm_num) ?_
  · have := Real.add_one_le_exp b.val
    linarith [s.2.1]
  · linarith [exp_le hx]
  · show XR.lift _ _ _ a.val = _
    rw [s.1]
    rfl

/-- `-expm1(-x)` -/
theorem one_sub_exp (s : Sim l h a b) (hl : -1021 ≤ l := by norm_num) (hl0 : l ≤ 0 := by norm_num) :
    Sim (l - 1) 0 (-(Arith.expm1 (-a))) (-(Arith.expm1 (-b))) := by
  have hb := s.pos
  have hx : Bits (l - 1) 0 (1 - Real.exp (-b.val)) := by
    constructor
    · have h1 : Real.exp (-b.val) ≤ (1 + b.val)⁻¹ := by
        rw [Real.exp_neg]
        exact inv_anti₀ (by linarith) (by linarith [Real.add_one_le_exp b.val])
      have h2 : 1 - (1 + b.val)⁻¹ = b.val / (1 + b.val) := by field_simp; ring
      have h3 : (2 : ℝ) ^ l / (1 + 2 ^ l) ≤ b.val / (1 + b.val) := by
        rw [div_le_div_iff₀ (by positivity) (by positivity)]
        have := s.2.1
        nlinarith
      have h4 : (2 : ℝ) ^ (l - 1) ≤ 2 ^ l / (1 + 2 ^ l) := by
        have hle : (2 : ℝ) ^ l ≤ 1 := by simpa using zle hl0
        rw [zpow_sub_one₀ (by norm_num), ← div_eq_mul_inv]
        exact div_le_div_of_nonneg_left (by positivity) (by positivity) (by linarith)
      linarith
    · have := Real.exp_pos (-b.val)
      simp only [zpow_zero]
      linarith
  obtain ⟨e1, e2⟩ := rd_eq (by omega) (by norm_num) hx
  have hneg : rd64 (Real.exp (-b.val) - 1) = -rd64 (1 - Real.exp (-b.val)) := by
    rw [show Real.exp (-b.val) - 1 = -(1 - Real.exp (-b.val)) by ring]
    unfold rd64
    rw [abs_neg, double64.near_neg]
    split_ifs <;> rfl
  have hval : (-(Arith.expm1 (-b)) : Fl rd64).val = rd64 (1 - Real.exp (-b.val)) := by
    show -rd64 (Real.exp (-b.val) - 1) = _
    rw [hneg, neg_neg]
  refine ⟨?_, by rw [hval]; exact e2⟩
  rw [hval]
  show XR.neg (XR.lift _ _ _ (XR.neg a.val)) = _
  rw [s.1]
  show XR.neg (binary64.rd (Real.exp (-b.val) - 1)) = _
  rw [show Real.exp (-b.val) - 1 = -(1 - Real.exp (-b.val)) by ring, binary64.rd_neg, e1]
  simp [XR.neg]

end Sim

end Opac.Doubles
