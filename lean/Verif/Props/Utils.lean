import Verif.Lemmas.RealArith
import Verif.Lemmas.Outcome
import Mathlib.Tactic.Linarith

/-! # C35, C39: radiation types, regularised arithmetic -/

namespace Opac
open Arith Outcome

/-! ## C35 -/

/-- **C35.** `Idx2RadType` and `RadType2Idx` are mutually inverse, exactly the integers `-1..3` are indices,
every other integer is rejected with an error, and exactly the three neutrino species have an index that is
valid in a table with `NEUTRINO_NTYPES` species. -/
theorem C35_radiation_types :
    (∀ t, (Idx2RadType (RadType2Idx t)).Returns t) ∧
    (∀ i t, (Idx2RadType i).Returns t → RadType2Idx t = i) ∧
    (∀ i : ℤ, (-1 ≤ i ∧ i ≤ 3) ↔ ∃ t, RadType2Idx t = i) ∧
    (∀ i : ℤ, ¬ (-1 ≤ i ∧ i ≤ 3) → (Idx2RadType i).Aborts) ∧
    (∀ t, (t = .NU_ELECTRON ∨ t = .NU_ELECTRON_ANTI ∨ t = .NU_HEAVY) ↔
      (0 ≤ RadType2Idx t ∧ RadType2Idx t < NEUTRINO_NTYPES)) := by
  refine ⟨?_, ?_, ?_, ?_, ?_⟩
  · intro t; cases t <;> simp [Idx2RadType, RadType2Idx, Returns]
  · intro i t h
    unfold Idx2RadType Returns at h
    split_ifs at h with h1 h2 h3 h4 h5 <;> (injection h with h; subst h; simp [RadType2Idx]; omega)
  · intro i
    constructor
    · intro h
      have : i = -1 ∨ i = 0 ∨ i = 1 ∨ i = 2 ∨ i = 3 := by omega
      rcases this with rfl | rfl | rfl | rfl | rfl
      · exact ⟨.TRACER, rfl⟩
      · exact ⟨.NU_ELECTRON, rfl⟩
      · exact ⟨.NU_ELECTRON_ANTI, rfl⟩
      · exact ⟨.NU_HEAVY, rfl⟩
      · exact ⟨.PHOTON, rfl⟩
    · rintro ⟨t, rfl⟩; cases t <;> simp [RadType2Idx]
  · intro i h
    unfold Idx2RadType
    rw [if_neg (by omega), if_neg (by omega), if_neg (by omega), if_neg (by omega), if_neg (by omega)]
    exact ⟨_, rfl⟩
  · intro t; cases t <;> simp [RadType2Idx, NEUTRINO_NTYPES]

/-- non-vacuity: index 2 is a heavy neutrino, index 7 is rejected -/
example : (Idx2RadType 2).Returns .NU_HEAVY ∧ (Idx2RadType 7).Aborts :=
  ⟨C35_radiation_types.1 .NU_HEAVY, C35_radiation_types.2.2.2.1 7 (by norm_num)⟩

/-! ## C39 -/

/-- **C39**, `ratio`: for all real `a`, `b` — the divisor actually used is at least `SMALL` in magnitude, the
result has the sign of `a·b` (of `a` if `b = 0`), its magnitude never exceeds `|a/b|`, and its relative
error with respect to `a/b` is at most `SMALL/|b|`. -/
theorem C39_ratio (a b : ℝ) :
    (∃ d : ℝ, Robust.ratio a b = a / d ∧ Robust.SMALL ≤ |d|) ∧
    (0 < a → 0 ≤ b → 0 < Robust.ratio a b) ∧
    (0 < a → b < 0 → Robust.ratio a b < 0) ∧
    (a < 0 → 0 ≤ b → Robust.ratio a b < 0) ∧
    (a < 0 → b < 0 → 0 < Robust.ratio a b) ∧
    (b ≠ 0 → |Robust.ratio a b| ≤ |a / b|) ∧
    (b ≠ 0 → |Robust.ratio a b - a / b| ≤ Robust.SMALL / |b| * |a / b|) := by
  have hs := SMALL_pos
  rcases le_or_gt 0 b with hb | hb
  · rw [ratio_nonneg hb]
    have hd : 0 < b + Robust.SMALL := by linarith
    refine ⟨⟨_, rfl, by rw [abs_of_pos hd]; linarith⟩, fun h _ => div_pos h hd, fun _ h => absurd h (by linarith),
      fun h _ => div_neg_of_neg_of_pos h hd, fun _ h => absurd h (by linarith), fun hne => ?_, fun hne => ?_⟩
    · have hb' : 0 < b := lt_of_le_of_ne hb (Ne.symm hne)
      rw [abs_div, abs_div, abs_of_pos hd, abs_of_pos hb']
      exact div_le_div_of_nonneg_left (abs_nonneg a) hb' (by linarith)
    · have hb' : 0 < b := lt_of_le_of_ne hb (Ne.symm hne)
      have : a / (b + Robust.SMALL) - a / b = -(a / b) * (Robust.SMALL / (b + Robust.SMALL)) := by
        field_simp; ring
      rw [this, abs_mul, abs_neg, abs_of_pos hb', mul_comm, abs_of_pos (div_pos hs hd)]
      exact mul_le_mul_of_nonneg_right (div_le_div_of_nonneg_left hs.le hb' (by linarith)) (abs_nonneg _)
  · rw [ratio_neg hb]
    have hd : b - Robust.SMALL < 0 := by linarith
    refine ⟨⟨_, rfl, by rw [abs_of_neg hd]; linarith⟩, fun _ h => absurd h (by linarith),
      fun h _ => div_neg_of_pos_of_neg h hd, fun _ h => absurd h (by linarith),
      fun h _ => div_pos_of_neg_of_neg h hd, fun hne => ?_, fun hne => ?_⟩
    · rw [abs_div, abs_div, abs_of_neg hd, abs_of_neg hb]
      exact div_le_div_of_nonneg_left (abs_nonneg a) (by linarith) (by linarith)
    · have hd' : b - Robust.SMALL ≠ 0 := hd.ne
      have : a / (b - Robust.SMALL) - a / b = (a / b) * (Robust.SMALL / (b - Robust.SMALL)) := by
        field_simp; ring
      rw [this, abs_mul, mul_comm, abs_div Robust.SMALL, abs_of_neg hd, abs_of_neg hb, abs_of_pos hs]
      exact mul_le_mul_of_nonneg_right (div_le_div_of_nonneg_left hs.le (by linarith) (by linarith))
        (abs_nonneg _)

/-- **C39**, `ratio` with IEEE special values: for finite arguments the result is finite, never NaN or
infinite — in particular `ratio(a, 0)` is finite. -/
theorem C39_ratio_finite (a b : ℝ) : ∃ x : ℝ, Robust.ratio (XR.fin a) (XR.fin b) = XR.fin x := by
  have h10 : (Robust.SMALL : XR) = .fin (((10 : ℚ) : ℝ) * 2 ^ (-1022 : ℤ)) := rfl
  have hpos : (0 : ℝ) < ((10 : ℚ) : ℝ) * 2 ^ (-1022 : ℤ) := by positivity
  set S : ℝ := ((10 : ℚ) : ℝ) * 2 ^ (-1022 : ℤ)
  have key : ∀ s : ℤ, b + ((s : ℚ) : ℝ) * S ≠ 0 → Robust.sgn (XR.fin b) = s →
      ∃ x : ℝ, Robust.ratio (XR.fin a) (XR.fin b) = XR.fin x := by
    intro s hne hs
    refine ⟨a / (b + ((s : ℚ) : ℝ) * S), ?_⟩
    unfold Robust.ratio
    rw [hs, h10]
    show XR.div (.fin a) (.fin (b + ((s : ℚ) : ℝ) * S)) = _
    simp only [XR.div]
    rw [if_neg hne]
  rcases le_or_gt 0 b with hb | hb
  · refine key 1 ?_ ?_
    · have : 0 < b + ((1 : ℤ) : ℚ) * S := by push_cast; linarith
      exact this.ne'
    · have h1 : ¬ b < 0 := not_lt.2 hb
      simp [Robust.sgn, Arith.le, Arith.lt, XR.le, XR.lt, lit, hb, h1]
  · refine key (-1) ?_ ?_
    · have : b + ((-1 : ℤ) : ℚ) * S < 0 := by push_cast; linarith
      exact this.ne
    · have h1 : ¬ 0 ≤ b := not_le.2 hb
      simp [Robust.sgn, Arith.le, Arith.lt, XR.le, XR.lt, lit, hb, h1]

/-- **C39**, `make_positive`: the result is positive, at least `EPS`, and equals the argument when that is at
least `EPS`. -/
theorem C39_make_positive (v : ℝ) :
    0 < Robust.make_positive v ∧ Robust.EPS ≤ Robust.make_positive v ∧
    (Robust.EPS ≤ v → Robust.make_positive v = v) := by
  unfold Robust.make_positive
  rw [real_stdMax]
  exact ⟨lt_max_of_lt_right EPS_pos, le_max_right _ _, fun h => max_eq_left h⟩

/-- **C39**, `make_bounded`, the part that holds: for a positive upper bound with room between the bounds, the
result lies strictly between the bounds and leaves values that are safely inside unchanged.
Missing: nonpositive upper bounds, where the claim is false (`C39_make_bounded_false`). -/
theorem C39_make_bounded_partial (v vmin vmax : ℝ) (hmax : 0 < vmax) (hroom : vmin < vmax * (1 - Robust.EPS)) :
    vmin < Robust.make_bounded v vmin vmax ∧ Robust.make_bounded v vmin vmax < vmax ∧
    (vmin + Robust.EPS ≤ v → v ≤ vmax * (1 - Robust.EPS) → Robust.make_bounded v vmin vmax = v) := by
  have he := EPS_pos
  unfold Robust.make_bounded
  rw [real_stdMin, real_stdMax]
  simp only [areal, Rat.cast_one]
  refine ⟨lt_min (lt_max_of_lt_right (by linarith)) hroom, min_lt_of_right_lt (by nlinarith), fun h1 h2 => ?_⟩
  rw [max_eq_left h1, min_eq_left h2]

/-- non-vacuity: bounds 0 and 1 -/
example : 0 < Robust.make_bounded (7 : ℝ) 0 1 ∧ Robust.make_bounded (7 : ℝ) 0 1 < 1 := by
  have := C39_make_bounded_partial 7 0 1 one_pos (by rw [real_EPS]; norm_num)
  exact ⟨this.1, this.2.1⟩

/-- **C39 is false of `make_bounded` for a negative upper bound**: bounding `0` to `(-2, -1)` yields a value
above `-1`. -/
theorem C39_make_bounded_false : ¬ ∀ v vmin vmax : ℝ, vmin < vmax → Robust.make_bounded v vmin vmax ≤ vmax := by
  intro h
  have h1 := h 0 (-2) (-1) (by norm_num)
  have he := EPS_pos
  have he2 : (Robust.EPS : ℝ) < 1 := by rw [real_EPS]; norm_num
  unfold Robust.make_bounded at h1
  rw [real_stdMin, real_stdMax] at h1
  simp only [areal, Rat.cast_one] at h1
  rw [max_eq_left (by linarith), min_eq_right (by linarith)] at h1
  linarith

end Opac
