import Verif.Lemmas.Doubles

/-! Signed doubles on a dyadic grid: where products and sums of such numbers neither overflow nor underflow. -/

namespace Opac.Doubles
open Arith Classical

/-- a multiple of `2^-k` -/
def Mult (k : ℤ) (x : ℝ) : Prop := ∃ m : ℤ, x = m * 2 ^ (-k)

namespace Mult
variable {k k' : ℤ} {x y : ℝ}

theorem mono (h : Mult k x) (hk : k ≤ k') : Mult k' x := by
  obtain ⟨m, rfl⟩ := h
  obtain ⟨j, hj⟩ := Int.eq_ofNat_of_zero_le (sub_nonneg.2 hk)
  refine ⟨m * 2 ^ j, ?_⟩
  rw [show -k = (j : ℤ) + -k' by omega, zpow_add₀ (by norm_num), zpow_natCast]
  push_cast; ring

theorem add (h : Mult k x) (h' : Mult k y) : Mult k (x + y) := by
  obtain ⟨m, rfl⟩ := h
  obtain ⟨n, rfl⟩ := h'
  exact ⟨m + n, by push_cast; ring⟩

theorem sub (h : Mult k x) (h' : Mult k y) : Mult k (x - y) := by
  obtain ⟨m, rfl⟩ := h
  obtain ⟨n, rfl⟩ := h'
  exact ⟨m - n, by push_cast; ring⟩

theorem mul (h : Mult k x) (h' : Mult k' y) : Mult (k + k') (x * y) := by
  obtain ⟨m, rfl⟩ := h
  obtain ⟨n, rfl⟩ := h'
  refine ⟨m * n, ?_⟩
  rw [neg_add, zpow_add₀ (by norm_num)]
  push_cast; ring

theorem zero : Mult k 0 := ⟨0, by simp⟩

theorem int (i : ℤ) : Mult 0 (i : ℝ) := ⟨i, by simp⟩

theorem ge (h : Mult k x) (h0 : x ≠ 0) : 2 ^ (-k) ≤ |x| := by
  obtain ⟨m, rfl⟩ := h
  have hm : m ≠ 0 := by rintro rfl; simp at h0
  have h1 : (1 : ℝ) ≤ |(m : ℝ)| := by exact_mod_cast Int.one_le_abs hm
  have hp : (0 : ℝ) < 2 ^ (-k) := by positivity
  rw [abs_mul, abs_of_pos hp]
  nlinarith

/-- rounding keeps multiples -/
theorem near (h : Mult k x) : Mult k (double64.near x) := by
  obtain ⟨m, rfl⟩ := h
  set x : ℝ := m * 2 ^ (-k) with hx
  have hp : (0 : ℝ) < 2 ^ double64.ue x := by positivity
  rcases le_total (double64.ue x) (-k) with hc | hc
  · obtain ⟨j, hj⟩ := Int.eq_ofNat_of_zero_le (sub_nonneg.2 hc)
    have e : x / 2 ^ double64.ue x = ((m * 2 ^ j : ℤ) : ℝ) := by
      rw [hx, mul_div_assoc, ← hx, ← zpow_sub₀ (by norm_num : (2 : ℝ) ≠ 0), hj, zpow_natCast]
      push_cast; ring
    have : double64.near x = x := by
      unfold BinaryParams.near
      rw [e, rne_int, ← e, div_mul_cancel₀ _ hp.ne']
    rw [this]; exact ⟨m, hx⟩
  · exact Mult.mono (k := -double64.ue x) ⟨_, by unfold BinaryParams.near; rw [neg_neg]⟩ (by omega)

end Mult

/-- a rounded number has 53 bits -/
theorem near_mult {l : ℤ} {x : ℝ} (h : x = 0 ∨ 2 ^ l ≤ |x|) : Mult (52 - l) (double64.near x) := by
  rcases h with rfl | h
  · rw [double64.near_zero]; exact Mult.zero
  · have hx : 0 < |x| := lt_of_lt_of_le (by positivity) h
    have hlog : l ≤ Int.log 2 |x| := by
      rw [← Int.zpow_le_iff_le_log (by norm_num) hx]
      exact_mod_cast h
    have hue : Int.log 2 |x| - 53 + 1 ≤ double64.ue x := le_max_left _ _
    exact Mult.mono (k := -double64.ue x) ⟨_, by unfold BinaryParams.near; rw [neg_neg]⟩ (by omega)

theorem near_abs {h : ℤ} {x : ℝ} (hh : -1074 ≤ h) (hx : |x| ≤ 2 ^ h) : |double64.near x| ≤ 2 ^ h := by
  have fix : double64.near (2 ^ h) = 2 ^ h := by
    have := double64.near_fix (e := h) (k := 1) hh (by norm_num [double64])
    simpa using this
  rw [abs_le] at hx ⊢
  constructor
  · rw [← fix, ← double64.near_neg]; exact double64.near_mono hx.1
  · rw [← fix]; exact double64.near_mono hx.2

/-- rounding a number that is zero or neither too large nor too small -/
theorem rd_signed {h : ℤ} {x : ℝ} (h0 : x = 0 ∨ 2 ^ (-1022 : ℤ) ≤ |x|) (hx : |x| ≤ 2 ^ h) (hh : h ≤ 1023) (hl : -1074 ≤ h) :
    binary64.rd x = .fin (rd64 x) ∧ rd64 x = double64.near x ∧ |rd64 x| ≤ 2 ^ h := by
  have e : rd64 x = double64.near x := by
    rcases h0 with rfl | h0
    · unfold rd64
      rw [double64.near_zero]; split_ifs <;> rfl
    · unfold rd64
      rw [if_pos ⟨h0, hx.trans (zle hh)⟩]
  have hb := near_abs hl hx
  rw [e]
  refine ⟨double64.rd_of_lt ?_, rfl, hb⟩
  refine lt_of_le_of_lt (hb.trans (zle hh)) ?_
  exact zpow_lt_zpow_right₀ (by norm_num) (show (1023 : ℤ) < 1024 by norm_num)

/-- the double `a` is the number `b`, a multiple of `2^-k` of size at most `2^h` -/
structure SimG (k h : ℤ) (a : IE binary64) (b : Fl rd64) : Prop where
  val : a.val = .fin b.val
  mult : Mult k b.val
  size : |b.val| ≤ 2 ^ h

namespace SimG
variable {k h k' h' : ℤ} {a a' : IE binary64} {b b' : Fl rd64}

theorem mono (s : SimG k h a b) (h1 : k ≤ k' := by norm_num) (h2 : h ≤ h' := by norm_num) : SimG k' h' a b :=
  ⟨s.val, s.mult.mono h1, s.size.trans (zle h2)⟩

theorem round {x : ℝ} (hm : Mult k x) (hx : |x| ≤ 2 ^ h) (hk : k ≤ 1022) (hh : h ≤ 1023) (hl : 0 ≤ h)
    (ha : a.val = binary64.rd x) : SimG k h a (⟨rd64 x⟩ : Fl rd64) := by
  have h0 : x = 0 ∨ 2 ^ (-1022 : ℤ) ≤ |x| := by
    by_cases hc : x = 0
    · exact .inl hc
    · exact .inr ((zle (by omega)).trans (hm.ge hc))
  obtain ⟨e1, e2, e3⟩ := rd_signed h0 hx hh (by omega)
  exact ⟨by rw [ha, e1], by show Mult k (rd64 x); rw [e2]; exact hm.near, e3⟩

/-- the result of any operation, if it is zero or at least `2^l` in size -/
theorem round' {l : ℤ} {x : ℝ} (hm : x = 0 ∨ 2 ^ l ≤ |x|) (hx : |x| ≤ 2 ^ h) (hk : -1022 ≤ l) (hh : h ≤ 1023) (hl : 0 ≤ h)
    (ha : a.val = binary64.rd x) : SimG (52 - l) h a (⟨rd64 x⟩ : Fl rd64) := by
  have h0 : x = 0 ∨ 2 ^ (-1022 : ℤ) ≤ |x| := hm.imp_right fun h => (zle hk).trans h
  obtain ⟨e1, e2, e3⟩ := rd_signed h0 hx hh (by omega)
  exact ⟨by rw [ha, e1], by show Mult _ (rd64 x); rw [e2]; exact near_mult hm, e3⟩

theorem size_add {x y : ℝ} (hx : |x| ≤ 2 ^ h) (hy : |y| ≤ 2 ^ h) : |x| + |y| ≤ 2 ^ (h + 1) := by
  rw [zpow_add_one₀ (by norm_num)]; linarith

theorem add (s : SimG k h a b) (s' : SimG k h a' b') (hk : k ≤ 1022 := by norm_num) (hh : h ≤ 1022 := by norm_num)
    (hl : 0 ≤ h := by norm_num) : SimG k (h + 1) (a + a') (b + b') := by
  refine round (x := b.val + b'.val) (s.mult.add s'.mult) ((abs_add_le _ _).trans (size_add s.size s'.size)) hk (by omega)
    (by omega) ?_
  show IE.round binary64 (XR.add a.val a'.val) = _
  rw [s.val, s'.val]; rfl

theorem sub (s : SimG k h a b) (s' : SimG k h a' b') (hk : k ≤ 1022 := by norm_num) (hh : h ≤ 1022 := by norm_num)
    (hl : 0 ≤ h := by norm_num) : SimG k (h + 1) (a - a') (b - b') := by
  refine round (x := b.val - b'.val) (s.mult.sub s'.mult) ((abs_sub _ _).trans (size_add s.size s'.size)) hk (by omega)
    (by omega) ?_
  show IE.round binary64 (XR.add a.val (XR.neg a'.val)) = _
  rw [s.val, s'.val]
  show binary64.rd (b.val + -b'.val) = _
  rw [sub_eq_add_neg]

theorem mul (s : SimG k h a b) (s' : SimG k' h' a' b') (hk : k + k' ≤ 1022 := by norm_num)
    (hh : h + h' ≤ 1023 := by norm_num) (hl : 0 ≤ h + h' := by norm_num) : SimG (k + k') (h + h') (a * a') (b * b') := by
  refine round (x := b.val * b'.val) (s.mult.mul s'.mult) ?_ hk hh hl ?_
  · rw [abs_mul, zpow_add₀ (by norm_num)]
    exact mul_le_mul s.size s'.size (abs_nonneg _) (by positivity)
  · show IE.round binary64 (XR.mul a.val a'.val) = _
    rw [s.val, s'.val]; rfl

theorem lit (i : ℤ) (h : ℤ) (hi : |(i : ℝ)| ≤ 2 ^ h) (hh : h ≤ 1023 := by norm_num) (hl : 0 ≤ h := by norm_num) :
    SimG 0 h (Arith.lit (i : ℚ) : IE binary64) (Arith.lit (i : ℚ) : Fl rd64) := by
  refine round (x := ((i : ℚ) : ℝ)) ?_ ?_ (by norm_num) hh hl rfl
  · rw [Rat.cast_intCast]; exact Mult.int i
  · rw [Rat.cast_intCast]; exact hi

theorem toInt (s : SimG k h a b) : Arith.toInt a = Arith.toInt b := by
  show (match a.val with | .fin x => if 0 ≤ x then ⌊x⌋ else ⌈x⌉ | _ => 0) = _
  rw [s.val]; rfl

/-- a positive result of a rounding -/
theorem of_round {l h : ℤ} {x : ℝ} (hx : Bits l h x) (hl : -1022 ≤ l) (hh : h ≤ 1023) (h0 : 0 ≤ h)
    (ha : a.val = binary64.rd x) : SimG (52 - l) h a (⟨rd64 x⟩ : Fl rd64) ∧ Sim l h a (⟨rd64 x⟩ : Fl rd64) := by
  have hp : 0 < x := lt_of_lt_of_le (by positivity) hx.1
  exact ⟨round' (.inr (by rw [abs_of_pos hp]; exact hx.1)) (by rw [abs_of_pos hp]; exact hx.2) hl hh h0 ha,
    Sim.round hx hl hh ha⟩

end SimG

end Opac.Doubles
