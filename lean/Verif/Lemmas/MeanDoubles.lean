import Verif.Lemmas.DoublesPhotons
import Verif.Lemmas.MeanFill
import Verif.Model.MeanNeutrino

/-! Sums over frequencies in double precision: no overflow, no NaN. -/

namespace Opac.Doubles
open Arith Photons

/-! ### nonnegative numbers below a power of two -/

/-- `a` is a number from 0 to `2^h` -/
def Nn (h : ℤ) (a : IE binary64) : Prop := ∃ x, a.val = .fin x ∧ 0 ≤ x ∧ x ≤ 2 ^ h

theorem near_two {h : ℤ} (hl : -1074 ≤ h) : double64.near (2 ^ h) = 2 ^ h := by
  have := double64.near_fix (e := h) (by exact hl) (k := 1) (by norm_num [double64])
  simpa using this

theorem rd_near {x : ℝ} (hx : |x| ≤ 2 ^ (1023 : ℤ)) : binary64.rd x = .fin (double64.near x) := by
  refine double64.rd_of_lt ?_
  have h1 : double64.near x ≤ 2 ^ (1023 : ℤ) := by
    rw [← near_two (h := 1023) (by norm_num)]; exact double64.near_mono (le_trans (le_abs_self x) hx)
  have h2 : -2 ^ (1023 : ℤ) ≤ double64.near x := by
    rw [← near_two (h := 1023) (by norm_num), ← double64.near_neg]; exact double64.near_mono (by linarith [neg_abs_le x])
  exact lt_of_le_of_lt (abs_le.2 ⟨h2, h1⟩) (zpow_lt_zpow_right₀ (by norm_num) (show (1023 : ℤ) < 1024 by norm_num))

theorem rd_nn {h : ℤ} {x : ℝ} (h0 : 0 ≤ x) (hx : x ≤ 2 ^ h) (hl : -1074 ≤ h) (hh : h ≤ 1023) :
    binary64.rd x = .fin (double64.near x) ∧ 0 ≤ double64.near x ∧ double64.near x ≤ 2 ^ h := by
  refine ⟨rd_near (by rw [abs_of_nonneg h0]; exact hx.trans (zle hh)), double64.near_nonneg h0, ?_⟩
  rw [← near_two hl]; exact double64.near_mono hx

namespace Nn
variable {h h' l : ℤ} {a a' : IE binary64} {b : Fl rd64}

theorem mono (s : Nn h a) (hh : h ≤ h') : Nn h' a := by
  obtain ⟨x, e, h0, hx⟩ := s
  exact ⟨x, e, h0, hx.trans (zle hh)⟩

theorem sim (s : Sim l h a b) : Nn h a := ⟨b.val, s.1, s.pos.le, s.2.2⟩

theorem zero : Nn h (lit 0) := ⟨0, lit0_ie, le_rfl, by positivity⟩

theorem round {x : ℝ} (h0 : 0 ≤ x) (hx : x ≤ 2 ^ h) (hl : -1074 ≤ h) (hh : h ≤ 1023) (ha : a.val = binary64.rd x) : Nn h a := by
  obtain ⟨e, h1, h2⟩ := rd_nn h0 hx hl hh
  exact ⟨_, ha.trans e, h1, h2⟩

theorem mul (s : Nn h a) (s' : Nn h' a') (hl : -1074 ≤ h + h' := by norm_num) (hh : h + h' ≤ 1023 := by norm_num) :
    Nn (h + h') (a * a') := by
  obtain ⟨x, e, h0, hx⟩ := s
  obtain ⟨x', e', h0', hx'⟩ := s'
  refine round (x := x * x') (mul_nonneg h0 h0') ?_ hl hh ?_
  · rw [zpow_add₀ (by norm_num)]; exact mul_le_mul hx hx' h0' (by positivity)
  · show IE.round binary64 (XR.mul a.val a'.val) = _
    rw [e, e']; rfl

theorem div (s : Nn h a) (s' : Sim l h' a' b) (hl : -1074 ≤ h - l := by norm_num) (hh : h - l ≤ 1023 := by norm_num) :
    Nn (h - l) (a / a') := by
  obtain ⟨x, e, h0, hx⟩ := s
  have hp := s'.pos
  refine round (x := x / b.val) (div_nonneg h0 hp.le) ?_ hl hh ?_
  · rw [zpow_sub₀ (by norm_num)]; exact div_le_div₀ (by positivity) hx (by positivity) s'.2.1
  · show IE.round binary64 (XR.div a.val a'.val) = _
    rw [e, s'.1]
    simp [XR.div, hp.ne', IE.round]

theorem exp_neg (s : Sim l h a b) : Nn 0 (Arith.exp (-a)) := by
  obtain ⟨y, h0, h1, e⟩ := binary64.exp_neg (-b.val) (by linarith [s.pos])
  refine ⟨y, ?_, h0, by simpa using h1⟩
  show XR.lift binary64.exp (.fin 0) .pinf (XR.neg a.val) = _
  rw [s.1]; exact e

end Nn

/-- a sum of `i` terms, each at most `2^k` -/
def Acc (k : ℤ) (i : ℕ) (a : IE binary64) : Prop := ∃ x, a.val = .fin x ∧ 0 ≤ x ∧ x ≤ i * 2 ^ k

theorem Acc.zero {k : ℤ} : Acc k 0 (lit 0) := ⟨0, lit0_ie, le_rfl, by simp⟩

theorem Acc.mono {k : ℤ} {i j : ℕ} {a : IE binary64} (s : Acc k i a) (h : i ≤ j) : Acc k j a := by
  obtain ⟨x, e, h0, hx⟩ := s
  refine ⟨x, e, h0, hx.trans ?_⟩
  have : (i : ℝ) ≤ j := by exact_mod_cast h
  gcongr

theorem Acc.add {k : ℤ} {i : ℕ} {a t : IE binary64} (s : Acc k i a) (s' : Nn k t) (hi : i + 1 ≤ 2 ^ 32) (hk : -1000 ≤ k)
    (hk' : k ≤ 980) : Acc k (i + 1) (a + t) := by
  obtain ⟨x, e, h0, hx⟩ := s
  obtain ⟨y, e', h0', hy⟩ := s'
  have hs : x + y ≤ ((i + 1 : ℕ) : ℝ) * 2 ^ k := by push_cast; linarith
  have hi' : ((i + 1 : ℕ) : ℝ) ≤ 2 ^ (32 : ℤ) := by exact_mod_cast hi
  have hb : x + y ≤ 2 ^ (1023 : ℤ) := by
    refine hs.trans ((mul_le_mul_of_nonneg_right hi' (by positivity)).trans ?_)
    rw [← zpow_add₀ (by norm_num)]; exact zle (by omega)
  refine ⟨double64.near (x + y), ?_, double64.near_nonneg (add_nonneg h0 h0'), ?_⟩
  · show IE.round binary64 (XR.add a.val t.val) = _
    rw [e, e']
    exact rd_near (by rwa [abs_of_nonneg (add_nonneg h0 h0')])
  · have := double64.near_fix (e := k) (k := ((i + 1 : ℕ) : ℤ)) (by show (-1074 : ℤ) ≤ k; omega) (by
      rw [abs_of_nonneg (by positivity)]
      refine le_trans (by exact_mod_cast hi) (show (2 ^ 32 : ℤ) ≤ 2 ^ 53 by norm_num))
    rw [Int.cast_natCast] at this
    rw [← this]; exact double64.near_mono hs

theorem Acc.nn {k : ℤ} {i : ℕ} {a : IE binary64} (s : Acc k i a) (hi : i ≤ 2 ^ 32) : Nn (k + 32) a := by
  obtain ⟨x, e, h0, hx⟩ := s
  refine ⟨x, e, h0, hx.trans ?_⟩
  have hi' : (i : ℝ) ≤ 2 ^ (32 : ℤ) := by exact_mod_cast hi
  rw [add_comm, zpow_add₀ (by norm_num)]
  gcongr

/-! ### the floor, ratios and logarithms -/

theorem lit_nat {n : ℕ} (h : n ≤ 2 ^ 53) : (lit (n : ℚ) : IE binary64).val = .fin n := by
  show binary64.rd ((n : ℚ) : ℝ) = _
  have := double64.near_fix (e := 0) (k := (n : ℤ)) (by norm_num [double64]) (by
    rw [abs_of_nonneg (by positivity)]; exact_mod_cast h)
  rw [Rat.cast_natCast, rd_near]
  · simpa using congrArg XR.fin this
  · rw [abs_of_nonneg (by positivity)]
    have : (n : ℝ) ≤ 2 ^ (53 : ℤ) := by exact_mod_cast h
    exact this.trans (zle (by norm_num))

theorem dmin_sim : Sim (-1022) (-1022) (dmin : IE binary64) (⟨2 ^ (-1022 : ℤ)⟩ : Fl rd64) := by
  refine ⟨?_, le_rfl, le_rfl⟩
  show binary64.rd (2 ^ (-1022 : ℤ)) = .fin (2 ^ (-1022 : ℤ))
  rw [rd_near, near_two (by norm_num)]
  rw [abs_of_pos (by positivity)]; exact zle (by norm_num)

theorem small_sim : ∃ b, Sim (-1019) (-1018) (lit 10 * dmin : IE binary64) b := by
  refine ⟨_, ((Sim.lit 10 3 4).mul dmin_sim).mono ?_ ?_⟩ <;> norm_num

/-- never NaN -/
theorem rd_number (x : ℝ) : binary64.rd x ≠ .nan := by
  show double64.rd x ≠ .nan
  unfold BinaryParams.rd
  split_ifs <;> simp

theorem sgn_nn {h : ℤ} {a : IE binary64} (s : Nn h a) : Robust.sgn a = 1 := by
  obtain ⟨x, e, h0, -⟩ := s
  unfold Robust.sgn
  have h1 : le (lit 0) a = true := by
    show XR.le (lit 0 : IE binary64).val a.val = true
    rw [lit0_ie, e]; simpa [XR.le] using h0
  have h2 : lt a (lit 0) = false := by
    show XR.lt a.val (lit 0 : IE binary64).val = false
    rw [lit0_ie, e]; simpa [XR.lt] using h0
  rw [h1, h2]; rfl

/-- a ratio of sums is a nonnegative number or infinite -/
theorem ratio_number {h h' : ℤ} {a a' : IE binary64} (s : Nn h a) (s' : Nn h' a') (hh : h' ≤ 1022) :
    (Robust.ratio a a').val = .pinf ∨ ∃ y, 0 ≤ y ∧ (Robust.ratio a a').val = .fin y := by
  unfold Robust.ratio
  rw [sgn_nn s']
  obtain ⟨x, e, h0, hx⟩ := s
  obtain ⟨y, e', h0', hy⟩ := s'
  obtain ⟨b, sb⟩ := small_sim
  have sm : Sim (-1019) (-1018) (lit (1 : ℤ) * Robust.SMALL : IE binary64) (lit 1 * b) := by
    have := (Sim.lit ((1 : ℤ) : ℚ) 0 0).mul sb
    simpa [Robust.SMALL] using this
  have hd : ∃ d, 0 < d ∧ (a' + lit (1 : ℤ) * Robust.SMALL : IE binary64).val = .fin d := by
    have h1 : (2 : ℝ) ^ (-1019 : ℤ) ≤ y + (lit 1 * b : Fl rd64).val := by linarith [sm.2.1]
    have h2 : y + (lit 1 * b : Fl rd64).val ≤ 2 ^ (1023 : ℤ) := by
      have h3 := sm.2.2.trans (zle (show (-1018 : ℤ) ≤ 1022 by norm_num))
      have h4 := hy.trans (zle hh)
      have e2 : (2 : ℝ) ^ (1023 : ℤ) = 2 ^ (1022 : ℤ) + 2 ^ (1022 : ℤ) := by
        rw [show (1023 : ℤ) = 1022 + 1 by norm_num, zpow_add₀ (by norm_num)]; ring
      rw [e2]; exact add_le_add h4 h3
    refine ⟨double64.near (y + (lit 1 * b : Fl rd64).val), ?_, ?_⟩
    · refine lt_of_lt_of_le (show (0 : ℝ) < 2 ^ (-1019 : ℤ) by positivity) ?_
      rw [← near_two (h := -1019) (by norm_num)]; exact double64.near_mono h1
    · show IE.round binary64 (XR.add a'.val (lit (1 : ℤ) * Robust.SMALL : IE binary64).val) = _
      rw [e', sm.1]
      refine rd_near ?_
      rwa [abs_of_nonneg (le_trans (by positivity) h1)]
  obtain ⟨d, d0, ed⟩ := hd
  have ev : (a / (a' + lit (1 : ℤ) * Robust.SMALL) : IE binary64).val = binary64.rd (x / d) := by
    show IE.round binary64 (XR.div a.val (a' + lit (1 : ℤ) * Robust.SMALL : IE binary64).val) = _
    rw [e, ed]; simp [XR.div, d0.ne', IE.round]
  rw [ev]
  exact binary64.rd_nonneg _ (div_nonneg h0 d0.le)

/-- the stored logarithm of a nonnegative number is not NaN -/
theorem toLog_number {a : IE binary64} (s : a.val = .pinf ∨ ∃ y, 0 ≤ y ∧ a.val = .fin y) :
    isNaN (ToLog a) = false := by
  obtain ⟨b, sb⟩ := small_sim
  unfold ToLog
  rcases s with e | ⟨y, h0, e⟩
  · have : (log10 (abs a + lit 10 * dmin) : IE binary64) = ⟨.pinf⟩ := by
      show (⟨XR.lift _ _ _ (IE.round binary64 (XR.add (XR.lift _ _ _ a.val) (lit 10 * dmin : IE binary64).val))⟩ : IE binary64) = _
      rw [e, sb.1]; rfl
    rw [this]; rfl
  · have hv : (abs a + lit 10 * dmin : IE binary64).val = binary64.rd (y + b.val) := by
      show IE.round binary64 (XR.add (XR.lift _ _ _ a.val) (lit 10 * dmin : IE binary64).val) = _
      rw [e, sb.1]
      show binary64.rd (|y| + b.val) = _
      rw [abs_of_nonneg h0]
    have hb := sb.2.1
    have : (log10 (abs a + lit 10 * dmin) : IE binary64).val ≠ .nan := by
      show XR.lift (fun x => if 0 < x then binary64.log10 x else if x = 0 then .ninf else .nan) .nan .pinf
        (abs a + lit 10 * dmin : IE binary64).val ≠ .nan
      rw [hv]
      rcases binary64.rd_nonneg (y + b.val) (add_nonneg h0 sb.pos.le) with h | ⟨z, hz, h⟩
      · rw [h]; simp [XR.lift]
      · rw [h]
        simp only [XR.lift]
        split_ifs with h1 h2
        · exact rd_number _
        · simp
        · exact absurd (le_antisymm (not_lt.1 h1) hz) h2
    revert this
    show _ → (match (log10 (abs a + lit 10 * dmin) : IE binary64).val with | .nan => true | _ => false) = false
    generalize (log10 (abs a + lit 10 * dmin) : IE binary64).val = v
    intro h
    cases v <;> simp_all

end Opac.Doubles
