import Verif.Model.Ieee
import Mathlib.Data.Int.Log
import Mathlib.Algebra.Order.Round
import Mathlib.Analysis.SpecialFunctions.Exp
import Mathlib.Analysis.SpecialFunctions.Log.Base
import Mathlib.Analysis.SpecialFunctions.Pow.Real
import Mathlib.Tactic.Linarith
import Mathlib.Tactic.FieldSimp

/-!
# IEEE-754 binary formats

The concrete format with `p` significant bits, smallest positive number `2^emin` and overflow threshold `2^emax`,
rounding to nearest, ties to even, with a correctly rounded mathematical library.  `binary64` is `double`.
-/

namespace Opac
open Classical

/-- round to the nearest integer, ties to even -/
noncomputable def rne (z : ℝ) : ℤ :=
  if z - ⌊z⌋ < 1 / 2 then ⌊z⌋ else if 1 / 2 < z - ⌊z⌋ then ⌊z⌋ + 1 else if Even ⌊z⌋ then ⌊z⌋ else ⌊z⌋ + 1

theorem rne_int (n : ℤ) : rne (n : ℝ) = n := by simp [rne]

theorem rne_lo (z : ℝ) : ⌊z⌋ ≤ rne z := by unfold rne; split_ifs <;> omega
theorem rne_hi (z : ℝ) : rne z ≤ ⌊z⌋ + 1 := by unfold rne; split_ifs <;> omega

theorem rne_mono {a b : ℝ} (h : a ≤ b) : rne a ≤ rne b := by
  have hf := Int.floor_le_floor h
  rcases hf.lt_or_eq with hlt | heq
  · have := rne_hi a; have := rne_lo b; omega
  · unfold rne
    rw [← heq]
    split_ifs <;> first | omega | (exfalso; linarith)

theorem rne_neg (z : ℝ) : rne (-z) = -rne z := by
  by_cases hz : (⌊z⌋ : ℝ) = z
  · have e : -z = ((-⌊z⌋ : ℤ) : ℝ) := by push_cast; rw [hz]
    rw [e, rne_int]
    conv_rhs => rw [← hz, rne_int]
  · have h1 : (⌊z⌋ : ℝ) < z := lt_of_le_of_ne (Int.floor_le z) hz
    have h2 := Int.lt_floor_add_one z
    have e : ⌊-z⌋ = -⌊z⌋ - 1 := by
      rw [Int.floor_eq_iff]; push_cast; constructor <;> linarith
    have ev : Even (-⌊z⌋ - 1) ↔ ¬ Even ⌊z⌋ := by
      rw [Int.even_sub_one, even_neg]
    unfold rne
    rw [e]
    push_cast
    simp only [ev]
    split_ifs <;> first | omega | (exfalso; linarith)

theorem rne_abs_le {z : ℝ} {n : ℤ} (h : |z| ≤ n) : |rne z| ≤ n := by
  rw [abs_le] at h ⊢
  constructor
  · have := rne_mono (a := ((-n : ℤ) : ℝ)) (b := z) (by push_cast; exact h.1)
    rwa [rne_int] at this
  · have := rne_mono h.2
    rwa [rne_int] at this

/-- parameters of a binary format -/
structure BinaryParams where
  p : ℕ
  emin : ℤ
  emax : ℤ
  p_pos : 1 ≤ p
  emin_neg : emin ≤ 0
  emax_pos : 0 < emax

namespace BinaryParams
variable (B : BinaryParams)

/-- exponent of the last significant bit of `x` -/
noncomputable def ue (x : ℝ) : ℤ := max (Int.log 2 |x| - B.p + 1) B.emin

/-- `x` rounded to nearest with unbounded exponent range above -/
noncomputable def near (x : ℝ) : ℝ := (rne (x / 2 ^ B.ue x) : ℝ) * 2 ^ B.ue x

theorem near_zero : B.near 0 = 0 := by
  have : rne (0 : ℝ) = 0 := by exact_mod_cast rne_int 0
  simp [near, this]

theorem near_neg (x : ℝ) : B.near (-x) = -B.near x := by
  have : B.ue (-x) = B.ue x := by simp [ue]
  rw [near, near, this, neg_div, rne_neg]; push_cast; ring

theorem u_pos (e : ℤ) : (0 : ℝ) < 2 ^ e := by positivity

theorem near_nonneg {x : ℝ} (h : 0 ≤ x) : 0 ≤ B.near x := by
  have h0 : (0 : ℤ) ≤ rne (x / 2 ^ B.ue x) := by
    have := rne_mono (a := ((0 : ℤ) : ℝ)) (b := x / 2 ^ B.ue x) (by push_cast; positivity)
    rwa [rne_int] at this
  have : (0 : ℝ) ≤ (rne (x / 2 ^ B.ue x) : ℝ) := by exact_mod_cast h0
  exact mul_nonneg this (u_pos _).le

/-- numbers with at most `p` bits, on the grid, are not changed -/
theorem near_fix {e : ℤ} (he : B.emin ≤ e) {k : ℤ} (hk : |k| ≤ 2 ^ B.p) : B.near (k * 2 ^ e) = k * 2 ^ e := by
  have key : ∃ m : ℤ, (k : ℝ) * 2 ^ e / 2 ^ B.ue (k * 2 ^ e) = m := by
    rcases eq_or_ne k 0 with rfl | h0
    · exact ⟨0, by simp⟩
    have hy : (0 : ℝ) < |(k : ℝ) * 2 ^ e| := abs_pos.2 (mul_ne_zero (by exact_mod_cast h0) (u_pos e).ne')
    have small : ∀ g : ℤ, g ≤ e → ∃ m : ℤ, (k : ℝ) * 2 ^ e / 2 ^ g = m := by
      intro g hg
      obtain ⟨j, hj⟩ := Int.eq_ofNat_of_zero_le (sub_nonneg.2 hg)
      refine ⟨k * 2 ^ j, ?_⟩
      rw [mul_div_assoc, ← zpow_sub₀ (by norm_num : (2 : ℝ) ≠ 0), hj]
      push_cast; simp
    set M := Int.log 2 |(k : ℝ) * 2 ^ e| with hM
    by_cases hc : M - B.p + 1 ≤ e
    · exact small _ (max_le hc he)
    · push Not at hc
      have h1 : (2 : ℝ) ^ M ≤ |(k : ℝ) * 2 ^ e| := Int.zpow_log_le_self (b := 2) (by norm_num) hy
      have h2 : (2 : ℝ) ^ (e + B.p) ≤ 2 ^ M := zpow_le_zpow_right₀ (by norm_num) (by omega)
      have h3 : |(k : ℝ) * 2 ^ e| = |(k : ℝ)| * 2 ^ e := by rw [abs_mul, abs_of_pos (u_pos e)]
      have h4 : |(k : ℝ)| ≤ 2 ^ B.p := by exact_mod_cast hk
      have h5 : (2 : ℝ) ^ (e + (B.p : ℤ)) = 2 ^ B.p * 2 ^ e := by
        rw [zpow_add₀ (by norm_num), zpow_natCast, mul_comm]
      have h6 : |(k : ℝ)| = 2 ^ B.p := by
        refine le_antisymm h4 ?_
        have : (2 : ℝ) ^ B.p * 2 ^ e ≤ |(k : ℝ)| * 2 ^ e := by rw [← h5, ← h3]; exact h2.trans h1
        exact le_of_mul_le_mul_right this (u_pos e)
      have hMe : M = e + B.p := by
        rw [hM, h3, h6, ← h5]
        exact_mod_cast Int.log_zpow (R := ℝ) (b := 2) (by norm_num) (e + B.p)
      have hue : B.ue (k * 2 ^ e) = e + 1 := by
        show max (M - B.p + 1) B.emin = e + 1
        rw [hMe, max_eq_left (by omega)]; omega
      rw [hue]
      obtain ⟨q, hq⟩ : ∃ q, B.p = q + 1 := ⟨B.p - 1, by have := B.p_pos; omega⟩
      have h7 : ((2 : ℤ) ∣ k) := by
        have : |k| = 2 ^ B.p := by exact_mod_cast h6
        rw [hq, pow_succ] at this
        rw [← dvd_abs, this]
        exact Dvd.intro_left _ rfl
      obtain ⟨m, rfl⟩ := h7
      refine ⟨m, ?_⟩
      rw [zpow_add₀ (by norm_num)]
      push_cast
      have := (u_pos e).ne'
      field_simp
  obtain ⟨m, hm⟩ := key
  rw [near, hm, rne_int, ← hm]
  exact div_mul_cancel₀ _ (u_pos _).ne'

theorem lt_ue (x : ℝ) : |x| ≤ 2 ^ B.p * 2 ^ B.ue x := by
  have h := Int.lt_zpow_succ_log_self (b := 2) (by norm_num) |x|
  refine h.le.trans ?_
  rw [← zpow_natCast, ← zpow_add₀ (by norm_num)]
  push_cast
  refine zpow_le_zpow_right₀ (by norm_num) ?_
  have : Int.log 2 |x| - B.p + 1 ≤ B.ue x := le_max_left _ _
  omega

theorem rne_le_pow (x : ℝ) : |rne (x / 2 ^ B.ue x)| ≤ 2 ^ B.p := by
  apply rne_abs_le
  rw [abs_div, abs_of_pos (u_pos _), div_le_iff₀ (u_pos _)]
  push_cast
  exact B.lt_ue x

theorem near_idem (x : ℝ) : B.near (B.near x) = B.near x :=
  B.near_fix (le_max_right _ _) (B.rne_le_pow x)

theorem near_mono_nonneg {x y : ℝ} (hx : 0 ≤ x) (h : x ≤ y) : B.near x ≤ B.near y := by
  rcases hx.lt_or_eq with hx | rfl
  swap
  · rw [near_zero]; exact B.near_nonneg h
  have hy := hx.trans_le h
  have hl : Int.log 2 |x| ≤ Int.log 2 |y| := by
    rw [abs_of_pos hx, abs_of_pos hy]; exact Int.log_mono_right hx h
  have hu : B.ue x ≤ B.ue y := max_le_max (by omega) le_rfl
  rcases hu.lt_or_eq with hlt | heq
  · -- a power of two lies between
    have hlog : B.ue y = Int.log 2 |y| - B.p + 1 := by
      unfold ue at hlt ⊢
      rcases le_total (Int.log 2 |y| - B.p + 1) B.emin with hc | hc
      · rw [max_eq_right hc] at hlt
        exact absurd hlt (not_lt.2 (le_max_right _ _))
      · exact max_eq_left hc
    have hxe : B.ue x + 1 ≤ B.ue y := hlt
    have e1 : B.near x ≤ 2 ^ (B.ue x + B.p) := by
      rw [zpow_add₀ (by norm_num), mul_comm, zpow_natCast]
      refine mul_le_mul_of_nonneg_right ?_ (u_pos _).le
      have := (abs_le.1 (B.rne_le_pow x)).2
      exact_mod_cast this
    have e2 : (2 : ℝ) ^ (Int.log 2 |y|) ≤ B.near y := by
      have hge : (((2 : ℤ) ^ (B.p - 1) : ℤ) : ℝ) ≤ y / 2 ^ B.ue y := by
        rw [le_div_iff₀ (u_pos _)]
        have hz : (2 : ℝ) ^ (Int.log 2 |y|) ≤ y := by
          have := Int.zpow_log_le_self (b := 2) (by norm_num) hy
          rwa [abs_of_pos hy]
        refine le_trans (le_of_eq ?_) hz
        push_cast
        rw [← zpow_natCast, ← zpow_add₀ (by norm_num), hlog]
        congr 1
        have := B.p_pos
        push_cast [Nat.cast_sub this]; ring
      have := rne_mono hge
      rw [rne_int] at this
      have h2 : ((2 : ℤ) ^ (B.p - 1) : ℝ) ≤ (rne (y / 2 ^ B.ue y) : ℝ) := by exact_mod_cast this
      refine le_trans (le_of_eq ?_) (mul_le_mul_of_nonneg_right h2 (u_pos _).le)
      push_cast
      rw [← zpow_natCast, ← zpow_add₀ (by norm_num), hlog]
      congr 1
      have := B.p_pos
      push_cast [Nat.cast_sub this]; ring
    refine e1.trans (le_trans (zpow_le_zpow_right₀ (by norm_num) ?_) e2)
    omega
  · unfold near
    rw [heq]
    refine mul_le_mul_of_nonneg_right ?_ (u_pos _).le
    have := rne_mono (div_le_div_of_nonneg_right h (u_pos (B.ue y)).le)
    exact_mod_cast this

theorem near_mono {x y : ℝ} (h : x ≤ y) : B.near x ≤ B.near y := by
  rcases le_total 0 x with hx | hx
  · exact B.near_mono_nonneg hx h
  · rcases le_total 0 y with hy | hy
    · have h1 := B.near_nonneg (neg_nonneg.2 hx)
      have h2 := B.near_nonneg hy
      rw [near_neg] at h1; linarith
    · have := B.near_mono_nonneg (neg_nonneg.2 hy) (neg_le_neg h)
      rw [near_neg, near_neg] at this; linarith

theorem near_one : B.near 1 = 1 := by
  have := B.near_fix (e := 0) B.emin_neg (k := 1) (by simpa using one_le_pow₀ (by norm_num))
  simpa using this

/-- IEEE rounding: to nearest, overflowing to infinity -/
noncomputable def rd (x : ℝ) : XR :=
  if 2 ^ B.emax ≤ B.near x then .pinf else if B.near x ≤ -2 ^ B.emax then .ninf else .fin (B.near x)

theorem rd_of_lt {x : ℝ} (h : |B.near x| < 2 ^ B.emax) : B.rd x = .fin (B.near x) := by
  rw [abs_lt] at h
  unfold rd; rw [if_neg (not_le.2 h.2), if_neg (not_le.2 h.1)]

theorem one_lt_max : (1 : ℝ) < 2 ^ B.emax := one_lt_zpow₀ (by norm_num) B.emax_pos

theorem rd_fix {e : ℤ} (he : B.emin ≤ e) {k : ℤ} (hk : |k| ≤ 2 ^ B.p) (hm : |(k : ℝ) * 2 ^ e| < 2 ^ B.emax) :
    B.rd (k * 2 ^ e) = .fin (k * 2 ^ e) := by
  have := B.near_fix he hk
  rw [B.rd_of_lt (by rwa [this]), this]

theorem rd_nonneg' (x : ℝ) (h : 0 ≤ x) : B.rd x = .pinf ∨ ∃ y, 0 ≤ y ∧ B.rd x = .fin y := by
  have h0 := B.near_nonneg h
  have := u_pos B.emax
  unfold rd
  split_ifs with h1 h2
  · exact .inl rfl
  · linarith
  · exact .inr ⟨_, h0, rfl⟩

theorem rd_mono' (x y : ℝ) (h : x ≤ y) : XR.le (B.rd x) (B.rd y) = true := by
  have hm := B.near_mono h
  have := u_pos B.emax
  unfold rd
  split_ifs <;> first | (exfalso; linarith) | (simp [XR.le]; done) | simpa [XR.le] using hm

/-- rounding a number of at least one gives at least one -/
theorem rd_ge_one {x : ℝ} (h : 1 ≤ x) : B.rd x = .pinf ∨ ∃ y, 1 ≤ y ∧ B.rd x = .fin y := by
  have h0 := B.near_mono h
  rw [near_one] at h0
  have := u_pos B.emax
  unfold rd
  split_ifs with h1 h2
  · exact .inl rfl
  · linarith
  · exact .inr ⟨_, h0, rfl⟩

theorem rd_unit {x : ℝ} (h0 : 0 ≤ x) (h : x ≤ 1) : ∃ y, 0 ≤ y ∧ y ≤ 1 ∧ B.rd x = .fin y := by
  have h1 := B.near_mono h
  have h2 := B.near_nonneg h0
  rw [near_one] at h1
  refine ⟨_, h2, h1, B.rd_of_lt ?_⟩
  rw [abs_of_nonneg h2]
  exact h1.trans_lt B.one_lt_max

/-- more than half of the smallest positive number does not round to zero -/
theorem near_pos {x : ℝ} (h : 2 ^ B.emin * (1 / 2) < x) : 0 < B.near x := by
  have hx : 0 < x := lt_trans (by positivity) h
  -- reduce to the case below the smallest number, where the grid is `2^emin`
  by_cases hc : x < 2 ^ B.emin
  · have hue : B.ue x = B.emin := by
      refine max_eq_right ?_
      have : Int.log 2 |x| < B.emin := by
        have h2 : (2 : ℝ) ^ Int.log 2 |x| < 2 ^ B.emin := by
          rw [abs_of_pos hx]
          exact lt_of_le_of_lt (Int.zpow_log_le_self (b := 2) (by norm_num) hx) hc
        exact (zpow_lt_zpow_iff_right₀ (by norm_num)).1 h2
      have := B.p_pos
      omega
    have hz1 : 1 / 2 < x / 2 ^ B.emin := by rw [lt_div_iff₀ (u_pos _), mul_comm]; exact h
    have hz2 : x / 2 ^ B.emin < 1 := by rw [div_lt_one (u_pos _)]; exact hc
    have hf : ⌊x / 2 ^ B.emin⌋ = 0 := by
      rw [Int.floor_eq_iff]; push_cast; constructor <;> linarith
    have hr : rne (x / 2 ^ B.emin) = 1 := by
      unfold rne; rw [hf]; push_cast
      rw [if_neg (by linarith), if_pos (by linarith)]
    unfold near
    rw [hue, hr]; push_cast
    positivity
  · have h2 := B.near_mono (not_lt.1 hc)
    have h3 := B.near_fix (e := B.emin) le_rfl (k := 1) (by simpa using one_le_pow₀ (by norm_num))
    rw [Int.cast_one, one_mul] at h3
    rw [h3] at h2
    exact (u_pos _).trans_le h2

/-- a positive representable number is at least the smallest one -/
theorem rep_ge {x : ℝ} (hx : 0 < x) (hr : B.rd x = .fin x) : 2 ^ B.emin ≤ x := by
  have hn : B.near x = x := by
    unfold rd at hr
    split_ifs at hr
    injection hr
  have h1 : (0 : ℤ) < rne (x / 2 ^ B.ue x) := by
    by_contra hc
    push Not at hc
    have : B.near x ≤ 0 := mul_nonpos_of_nonpos_of_nonneg (by exact_mod_cast hc) (u_pos _).le
    linarith
  have h2 : (1 : ℝ) ≤ rne (x / 2 ^ B.ue x) := by exact_mod_cast h1
  rw [← hn]
  calc (2 : ℝ) ^ B.emin ≤ 2 ^ B.ue x := zpow_le_zpow_right₀ (by norm_num) (le_max_right _ _)
    _ = 1 * 2 ^ B.ue x := (one_mul _).symm
    _ ≤ _ := mul_le_mul_of_nonneg_right h2 (u_pos _).le

/-- the format with correctly rounded library functions -/
noncomputable def format : FloatFormat where
  rd := B.rd
  rd_zero := by rw [B.rd_of_lt (by rw [near_zero]; simpa using u_pos _), near_zero]
  rd_nonneg := B.rd_nonneg'
  rd_neg x := by
    unfold rd
    rw [near_neg]
    have := u_pos B.emax
    split_ifs <;> first | (exfalso; linarith) | rfl
  rd_idem x y h := by
    unfold rd at h
    split_ifs at h with h1 h2
    injection h with h
    subst h
    unfold rd
    rw [near_idem, if_neg h1, if_neg h2]
  rd_one := by rw [B.rd_of_lt (by rw [near_one, abs_one]; exact B.one_lt_max), near_one]
  rd_mono := B.rd_mono'
  exp x := B.rd (Real.exp x)
  exp_zero := by
    rw [Real.exp_zero, B.rd_of_lt (by rw [near_one, abs_one]; exact B.one_lt_max), near_one]
  exp_pos x h := B.rd_ge_one (Real.one_le_exp h)
  exp_neg x h := B.rd_unit (Real.exp_pos x).le (Real.exp_le_one_iff.2 h)
  expm1 x := B.rd (Real.exp x - 1)
  expm1_zero := by
    rw [Real.exp_zero, sub_self, B.rd_of_lt (by rw [near_zero]; simpa using u_pos _), near_zero]
  expm1_pos x hx hr := by
    have h1 : x ≤ Real.exp x - 1 := by linarith [Real.add_one_le_exp x]
    have hp : 0 < B.near (Real.exp x - 1) :=
      B.near_pos (lt_of_lt_of_le (by have := B.rep_ge hx hr; have := u_pos B.emin; linarith) h1)
    have := u_pos B.emax
    unfold rd
    split_ifs with c1 c2
    · exact .inl rfl
    · linarith
    · exact .inr ⟨_, hp, rfl⟩
  expm1_neg x hx hr := by
    have hr' : B.rd (-x) = .fin (-x) := by
      have hn : B.near x = x := by
        unfold rd at hr
        split_ifs at hr
        injection hr
      have hb := B.near_neg x
      rw [hn] at hb
      have := u_pos B.emax
      unfold rd at hr ⊢
      rw [hb]; rw [hn] at hr
      split_ifs at hr with c1 c2
      rw [if_neg (by linarith), if_neg (by linarith)]
    have h1 := B.rep_ge (neg_pos.2 hx) hr'
    -- `1 - e^x > 1/2 * 2^emin`
    have hlow : 2 ^ B.emin * (1 / 2) < -(Real.exp x - 1) := by
      have hle1 : (2 : ℝ) ^ B.emin ≤ 1 := zpow_le_one_of_nonpos₀ (by norm_num) B.emin_neg
      have hu := u_pos B.emin
      have hmono : Real.exp x ≤ Real.exp (-(2 ^ B.emin)) := Real.exp_le_exp.2 (by linarith)
      set t : ℝ := 2 ^ B.emin
      have ht : Real.exp (-t) < 1 - t / 2 := by
        rw [Real.exp_neg, inv_lt_comm₀ (Real.exp_pos _) (by linarith)]
        refine lt_of_le_of_lt ?_ (Real.add_one_lt_exp hu.ne')
        rw [inv_le_comm₀ (by linarith) (by linarith), inv_eq_one_div, div_le_iff₀ (by linarith)]
        nlinarith
      linarith
    have hp := B.near_pos hlow
    rw [near_neg] at hp
    have h2 := B.near_mono (show (-1 : ℝ) ≤ Real.exp x - 1 by linarith [Real.exp_pos x])
    rw [near_neg, near_one] at h2
    refine ⟨B.near (Real.exp x - 1), h2, by linarith, B.rd_of_lt ?_⟩
    rw [abs_lt]
    have := B.one_lt_max
    constructor <;> linarith
  log x := B.rd (Real.log x)
  log_nonneg x h := B.rd_nonneg' _ (Real.log_nonneg h)
  log10 x := B.rd (Real.logb 10 x)
  cos x := B.rd (Real.cos x)
  pow x y := B.rd (x ^ y)
  pow_nonneg x y h := B.rd_nonneg' _ (Real.rpow_nonneg h.le y)

end BinaryParams

/-- the parameters of `double` -/
def double64 : BinaryParams := ⟨53, -1074, 1024, by norm_num, by norm_num, by norm_num⟩

/-- IEEE-754 `double` -/
noncomputable def binary64 : FloatFormat := double64.format

end Opac
