import Verif.Spec.LookupAccuracy
import Verif.Lemmas.Accuracy
import Verif.Lemmas.Table
import Mathlib.Analysis.Complex.ExponentialBounds

/-! Rounding errors of table lookups. -/

namespace Opac.Accuracy
open Arith Outcome Spiner

variable {rd : ℝ → ℝ} {u : ℝ}

theorem rd_err (hr : Rounding rd u) {y z e : ℝ} (h : |y - z| ≤ e) : |rd y - z| ≤ e * (1 + u) + u * |z| := by
  have hu := hr.nonneg
  have h1 := hr.err y
  have h2 : |y| ≤ |z| + e := by
    have := abs_add_le z (y - z)
    rw [add_sub_cancel] at this
    linarith
  have h3 := abs_add_le (rd y - y) (y - z)
  rw [sub_add_sub_cancel] at h3
  nlinarith

theorem fl_add (a b : Fl rd) : (a + b).val = rd (a.val + b.val) := rfl
theorem fl_sub (a b : Fl rd) : (a - b).val = rd (a.val - b.val) := rfl
theorem fl_mul (a b : Fl rd) : (a * b).val = rd (a.val * b.val) := rfl
theorem fl_div (a b : Fl rd) : (a / b).val = rd (a.val / b.val) := rfl
theorem fl_lit (q : ℚ) : (lit q : Fl rd).val = rd (q : ℝ) := rfl

theorem rd_int (hr : BinaryRounding rd u) {k : ℤ} (h0 : 0 ≤ k) (h1 : k ≤ 2 ^ 24) : rd ((k : ℚ) : ℝ) = k := by
  obtain ⟨m, rfl⟩ := Int.eq_ofNat_of_zero_le h0
  have := hr.ints m (by exact_mod_cast h1)
  simpa using this

/-- what the clamped truncation `i` of `q` satisfies on a grid of `n` nodes -/
structure Idx (n i : ℤ) (q : ℝ) : Prop where
  nonneg : 0 ≤ i
  le : i ≤ n - 2
  low : 0 < i → (i : ℝ) ≤ q
  high : i < n - 2 → q < i + 1

theorem bound_idx {R : Type} [Arith R] (g : Grid R) (hN : 2 ≤ g.N) (q : ℝ) :
    Idx g.N (g.bound (if 0 ≤ q then ⌊q⌋ else ⌈q⌉)) q := by
  have hr := g.bound_range (if 0 ≤ q then ⌊q⌋ else ⌈q⌉) hN
  refine ⟨hr.1, hr.2, ?_, ?_⟩
  · by_cases h : 0 ≤ q
    · rw [if_pos h] at *
      have h0 := Int.floor_nonneg.2 h
      have h1 := Int.floor_le q
      unfold Grid.bound
      simp only
      intro hp
      split_ifs at hp ⊢ with h2 h3 h3
      · omega
      · omega
      · have : ((g.N - 2 : ℤ) : ℝ) ≤ (⌊q⌋ : ℝ) := by exact_mod_cast (by omega)
        linarith
      · exact h1
    · rw [if_neg h] at *
      have h0 : ⌈q⌉ ≤ 0 := Int.ceil_le.2 (by push_cast; linarith)
      unfold Grid.bound
      simp only
      intro hp
      split_ifs at hp ⊢ <;> omega
  · by_cases h : 0 ≤ q
    · rw [if_pos h] at *
      have h0 := Int.floor_nonneg.2 h
      have h1 := Int.lt_floor_add_one q
      unfold Grid.bound
      simp only
      intro hp
      split_ifs at hp ⊢ with h2 h3 h3
      · omega
      · omega
      · omega
      · exact h1
    · rw [if_neg h] at *
      have h0 : ⌈q⌉ ≤ 0 := Int.ceil_le.2 (by push_cast; linarith)
      unfold Grid.bound
      simp only
      intro hp
      split_ifs at hp ⊢ with h2 h3 h3
      · omega
      · push_cast; linarith
      · omega
      · have : ⌈q⌉ = 0 := by omega
        rw [this]; push_cast; linarith

theorem Idx.weight {n i : ℤ} {q q' τ : ℝ} (h : Idx n i q') (hq : |q' - q| ≤ τ) (h0 : 0 ≤ q) (h1 : q ≤ n - 1) :
    -τ ≤ q - i ∧ q - i ≤ 1 + τ := by
  have := abs_le.1 hq
  constructor
  · rcases h.nonneg.eq_or_lt with e | e
    · rw [← e]; push_cast; linarith [abs_nonneg (q' - q)]
    · have := h.low e; linarith
  · rcases h.le.eq_or_lt with e | e
    · rw [e]; push_cast; linarith [abs_nonneg (q' - q)]
    · have := h.high e; linarith

/-- two cells that rounding cannot tell apart give nearly the same line -/
theorem Idx.switch {n i i' : ℤ} {q q' τ D : ℝ} (h : Idx n i q) (h' : Idx n i' q') (hq : |q' - q| ≤ τ) (hτ : τ < 1)
    (a : ℤ → ℝ) (ha : ∀ j, 0 ≤ j → j ≤ n - 2 → |a (j + 1) - a j| ≤ D) :
    |(a i' + (q - i') * (a (i' + 1) - a i')) - (a i + (q - i) * (a (i + 1) - a i))| ≤ 2 * τ * D := by
  have hD : 0 ≤ D := (abs_nonneg _).trans (ha i h.nonneg h.le)
  have hτ0 : 0 ≤ τ := (abs_nonneg _).trans hq
  have hqq := abs_le.1 hq
  have key : ∀ k : ℤ, ∀ x y : ℝ, |q - k| ≤ τ → |x| ≤ D → |y| ≤ D → |(q - k) * x - (q - k) * y| ≤ 2 * τ * D := by
    intro k x y hk hx hy
    rw [← mul_sub, abs_mul]
    have : |x - y| ≤ 2 * D := by
      have := abs_sub x y
      linarith
    calc |q - k| * |x - y| ≤ τ * (2 * D) := by gcongr
      _ = 2 * τ * D := by ring
  rcases lt_trichotomy i' i with hlt | rfl | hgt
  · have h1 := h.low (by have := h'.nonneg; omega)
    have h2 := h'.high (by have := h.le; omega)
    have h3 : (i : ℝ) < (i' + 2 : ℤ) := by push_cast; linarith
    have h4 : i < i' + 2 := by exact_mod_cast h3
    obtain rfl : i = i' + 1 := by omega
    push_cast at h1 ⊢
    have := key (i' + 1) (a (i' + 1) - a i') (a (i' + 1 + 1) - a (i' + 1))
      (by push_cast; rw [abs_le]; constructor <;> linarith) (ha _ h'.nonneg h'.le) (ha _ h.nonneg h.le)
    push_cast at this
    convert this using 2
    ring
  · simp; positivity
  · have h1 := h'.low (by have := h.nonneg; omega)
    have h2 := h.high (by have := h'.le; omega)
    have h3 : (i' : ℝ) < (i + 2 : ℤ) := by push_cast; linarith
    have h4 : i' < i + 2 := by exact_mod_cast h3
    obtain rfl : i' = i + 1 := by omega
    push_cast at h1 ⊢
    have := key (i + 1) (a (i + 1 + 1) - a (i + 1)) (a (i + 1) - a i)
      (by push_cast; rw [abs_le]; constructor <;> linarith) (ha _ h'.nonneg h'.le) (ha _ h.nonneg h.le)
    push_cast at this
    convert this using 2
    ring

/-- quotient by a step known to relative accuracy `3u` -/
theorem div_err (hu0 : 0 ≤ u) (hu : u ≤ 1 / 100) {dx dx' A B e : ℝ} (hdx : 0 < dx) (h : |dx' - dx| ≤ 3 * u * dx)
    (he : |A - B| ≤ e) : |A / dx' - B / dx| ≤ (e * (1 + 4 * u) + 4 * u * |B|) / dx := by
  have hh := abs_le.1 h
  have hd' : 0 < dx' := by nlinarith
  rw [le_div_iff₀ hdx]
  have e1 : |A / dx' - B / dx| * dx = |A * dx - B * dx'| / dx' := by
    rw [div_sub_div _ _ hd'.ne' hdx.ne', abs_div, abs_mul dx' dx, abs_of_pos hdx, abs_of_pos hd']
    field_simp
  rw [e1, div_le_iff₀ hd']
  have e2 : |A * dx - B * dx'| ≤ e * dx + |B| * (3 * u * dx) := by
    rw [show A * dx - B * dx' = (A - B) * dx + -(B * (dx' - dx)) by ring]
    refine (abs_add_le _ _).trans ?_
    rw [abs_neg, abs_mul, abs_mul, abs_of_pos hdx]
    gcongr
  refine e2.trans ?_
  have he0 : 0 ≤ e := (abs_nonneg _).trans he
  have hB := abs_nonneg B
  have h3 : (1 - 3 * u) * dx ≤ dx' := by linarith
  calc e * dx + |B| * (3 * u * dx) ≤ (e * (1 + 4 * u) + 4 * u * |B|) * ((1 - 3 * u) * dx) := by
        have : 0 ≤ (e * u * (1 - 12 * u) + |B| * u * (1 - 12 * u)) * dx := by
          have : 0 ≤ 1 - 12 * u := by linarith
          positivity
        nlinarith
    _ ≤ _ := by gcongr

/-- a grid of at least two increasing nodes, at most `2^24`, with ends of size at most `X` -/
structure GridOK (g : Grid (Fl rd)) (X : ℝ) : Prop where
  two : 2 ≤ g.N
  many : g.N ≤ 2 ^ 24
  low : |g.min.val| ≤ X
  high : |g.max.val| ≤ X
  lt : g.min.val < g.max.val

theorem exact_dx (g : Grid (Fl rd)) : g.exact.dx = (g.max.val - g.min.val) / (g.N - 1) := by
  simp [Grid.dx, Grid.exact, areal]

namespace GridOK
variable {g : Grid (Fl rd)} {X : ℝ}

theorem cells (h : GridOK g X) : (1 : ℝ) ≤ (g.N : ℝ) - 1 := by
  have : ((2 : ℤ) : ℝ) ≤ (g.N : ℝ) := by exact_mod_cast h.two
  push_cast at this; linarith

theorem dx_pos (h : GridOK g X) : 0 < g.exact.dx := by
  rw [exact_dx]
  have := h.cells
  have := h.lt
  apply div_pos <;> linarith

theorem dx_mul (h : GridOK g X) : g.exact.dx * (g.N - 1) = g.max.val - g.min.val := by
  rw [exact_dx]
  have := h.cells
  field_simp

theorem nonneg (h : GridOK g X) : 0 < X := by
  have h1 := abs_le.1 h.low
  have h2 := abs_le.1 h.high
  have := h.lt
  linarith

theorem span (h : GridOK g X) : g.max.val - g.min.val ≤ 2 * X := by
  have h1 := abs_le.1 h.low
  have h2 := abs_le.1 h.high
  linarith

theorem dx_le (h : GridOK g X) : g.exact.dx ≤ 2 * X := by
  have h1 := h.dx_mul
  have h2 := h.cells
  have h3 := h.dx_pos
  have h4 := h.span
  nlinarith

theorem dx_err (h : GridOK g X) (hr : BinaryRounding rd u) (hu : u ≤ 1 / 100) :
    |g.dx.val - g.exact.dx| ≤ 3 * u * g.exact.dx := by
  have hu0 := hr.nonneg
  have hdx := h.dx_pos
  have e : g.dx.val = rd (rd (g.max.val - g.min.val) / (g.N - 1)) := by
    have := rd_int hr (k := g.N - 1) (by have := h.two; omega) (by have := h.many; omega)
    unfold Grid.dx
    rw [fl_div, fl_sub, fl_lit]
    push_cast at this ⊢
    rw [this]
  rw [e]
  have hc := h.cells
  have h1 : |rd (g.max.val - g.min.val) / (g.N - 1) - g.exact.dx| ≤ u * g.exact.dx := by
    have := hr.err (g.max.val - g.min.val)
    rw [abs_of_pos (a := g.max.val - g.min.val) (by linarith [h.lt])] at this
    rw [exact_dx, ← sub_div, abs_div, abs_of_pos (a := (g.N : ℝ) - 1) (by linarith), ← mul_div_assoc]
    gcongr
  have h2 := rd_err hr.toRounding h1
  rw [abs_of_pos hdx] at h2
  refine h2.trans ?_
  nlinarith [mul_nonneg hu0 hdx.le]

/-- multiplying by the rounded inverse of the spacing -/
theorem inv_err (h : GridOK g X) (hr : BinaryRounding rd u) (hu : u ≤ 1 / 100) {A B e : ℝ} (he : |A - B| ≤ e) :
    |g.inv_dx.val * A - B / g.exact.dx| ≤ (e * (1 + 6 * u) + 6 * u * |B|) / g.exact.dx := by
  have hu0 := hr.nonneg
  have hdx := h.dx_pos
  have e1 : g.inv_dx.val = rd (1 / g.dx.val) := by
    show rd ((lit 1 : Fl rd).val / g.dx.val) = _
    rw [fl_lit]; simp [hr.one]
  have s1 := div_err hu0 hu hdx (h.dx_err hr hu) (A := 1) (B := 1) (e := 0) (by simp)
  have s2 := rd_err hr.toRounding s1
  rw [abs_one, zero_mul, zero_add, mul_one, abs_of_pos (one_div_pos.2 hdx), ← e1] at s2
  have s3 : |g.inv_dx.val - 1 / g.exact.dx| ≤ 6 * u / g.exact.dx := by
    refine s2.trans ?_
    rw [show 4 * u / g.exact.dx * (1 + u) + u * (1 / g.exact.dx) = (4 * u * (1 + u) + u) / g.exact.dx by ring]
    have : 4 * u * (1 + u) + u ≤ 6 * u := by nlinarith
    gcongr
  have s4 : |g.inv_dx.val| ≤ (1 + 6 * u) / g.exact.dx := by
    have e2 := abs_add_le (g.inv_dx.val - 1 / g.exact.dx) (1 / g.exact.dx)
    rw [sub_add_cancel, abs_of_pos (one_div_pos.2 hdx)] at e2
    rw [add_div]; linarith
  rw [show g.inv_dx.val * A - B / g.exact.dx = g.inv_dx.val * (A - B) + (g.inv_dx.val - 1 / g.exact.dx) * B by ring]
  refine (abs_add_le _ _).trans ?_
  rw [abs_mul, abs_mul, show (e * (1 + 6 * u) + 6 * u * |B|) / g.exact.dx =
    (1 + 6 * u) / g.exact.dx * e + 6 * u / g.exact.dx * |B| by ring]
  gcongr

/-- the scaled coordinate -/
theorem q_err (h : GridOK g X) (hr : BinaryRounding rd u) (hu : u ≤ 1 / 100) {x' : Fl rd} {x e τ : ℝ}
    (hx : |x'.val - x| ≤ e) (h0 : g.min.val ≤ x) (h1 : x ≤ g.max.val) (hτ : 2 * e + 30 * u * X ≤ τ * g.exact.dx) :
    |(g.inv_dx * (x' - g.min)).val - (x - g.min.val) / g.exact.dx| ≤ τ := by
  have hu0 := hr.nonneg
  have hdx := h.dx_pos
  have hX := h.nonneg
  have hs := h.span
  have he : 0 ≤ e := (abs_nonneg _).trans hx
  have hB : |x - g.min.val| = x - g.min.val := abs_of_nonneg (by linarith)
  have s1 : |(x' - g.min).val - (x - g.min.val)| ≤ e * (1 + u) + u * (2 * X) := by
    have := rd_err hr.toRounding (y := x'.val - g.min.val) (z := x - g.min.val) (e := e) (by
      rw [sub_sub_sub_cancel_right]; exact hx)
    rw [fl_sub]
    refine this.trans ?_
    rw [hB]
    gcongr
    linarith
  have s2 := h.inv_err hr hu s1
  rw [hB] at s2
  have s3 := rd_err hr.toRounding s2
  change |(g.inv_dx * (x' - g.min)).val - _| ≤ _ at s3
  refine s3.trans ?_
  rw [abs_div, hB, abs_of_pos hdx]
  have : ((e * (1 + u) + u * (2 * X)) * (1 + 6 * u) + 6 * u * (x - g.min.val)) / g.exact.dx * (1 + u) +
      u * ((x - g.min.val) / g.exact.dx) = (((e * (1 + u) + u * (2 * X)) * (1 + 6 * u) + 6 * u * (x - g.min.val)) * (1 + u) +
      u * (x - g.min.val)) / g.exact.dx := by ring
  rw [this, div_le_iff₀ hdx]
  refine le_trans ?_ hτ
  have hb : x - g.min.val ≤ 2 * X := by linarith
  calc ((e * (1 + u) + u * (2 * X)) * (1 + 6 * u) + 6 * u * (x - g.min.val)) * (1 + u) + u * (x - g.min.val)
      ≤ ((e * (1 + 1 / 100) + u * (2 * X)) * (1 + 6 * (1 / 100)) + 6 * u * (2 * X)) * (1 + 1 / 100) + u * (2 * X) := by
        gcongr
    _ ≤ 2 * e + 30 * u * X := by nlinarith [mul_nonneg hu0 hX.le]

/-- the weight of the upper node of cell `i` -/
theorem w_err (h : GridOK g X) (hr : BinaryRounding rd u) (hu : u ≤ 1 / 100) {x' : Fl rd} {x e τ : ℝ}
    (hx : |x'.val - x| ≤ e) (h0 : g.min.val ≤ x) (h1 : x ≤ g.max.val) (hτ : 2 * e + 30 * u * X ≤ τ * g.exact.dx)
    {i : ℤ} (hi0 : 0 ≤ i) (hi1 : i ≤ g.N - 2) :
    |(g.inv_dx * (x' - (lit (i : ℚ) * g.dx + g.min))).val - ((x - g.min.val) / g.exact.dx - i)| ≤ τ := by
  have hu0 := hr.nonneg
  have hdx := h.dx_pos
  have hX := h.nonneg
  have hs := h.span
  have he : 0 ≤ e := (abs_nonneg _).trans hx
  have hm := abs_le.1 h.low
  have hM := abs_le.1 h.high
  have hi0' : (0 : ℝ) ≤ i := by exact_mod_cast hi0
  have hi1' : (i : ℝ) ≤ g.N - 1 := by
    have : (i : ℝ) ≤ (g.N - 2 : ℤ) := by exact_mod_cast hi1
    push_cast at this; linarith
  have hid : (i : ℝ) * g.exact.dx ≤ g.max.val - g.min.val := by
    rw [← h.dx_mul, mul_comm]; gcongr
  have hid0 : 0 ≤ (i : ℝ) * g.exact.dx := by positivity
  have huX := mul_nonneg hu0 hX.le
  have s1 : |(lit (i : ℚ) * g.dx : Fl rd).val - i * g.exact.dx| ≤ 9 * u * X := by
    have e1 : (lit (i : ℚ) : Fl rd).val = i := by
      rw [fl_lit]; exact rd_int hr hi0 (by have := h.many; omega)
    rw [fl_mul, e1]
    have := rd_err hr.toRounding (y := i * g.dx.val) (z := i * g.exact.dx) (e := 6 * u * X) (by
      rw [← mul_sub, abs_mul, abs_of_nonneg hi0']
      calc (i : ℝ) * |g.dx.val - g.exact.dx| ≤ i * (3 * u * g.exact.dx) := by
            gcongr; exact h.dx_err hr hu
        _ = 3 * u * (i * g.exact.dx) := by ring
        _ ≤ 3 * u * (2 * X) := mul_le_mul_of_nonneg_left (hid.trans hs) (by positivity)
        _ = 6 * u * X := by ring)
    refine this.trans ?_
    rw [abs_of_nonneg hid0]
    nlinarith [mul_le_mul_of_nonneg_left (hid.trans hs) hu0, mul_le_mul_of_nonneg_left hu huX]
  have s2 : |(lit (i : ℚ) * g.dx + g.min : Fl rd).val - (i * g.exact.dx + g.min.val)| ≤ 11 * u * X := by
    rw [fl_add]
    have := rd_err hr.toRounding (y := (lit (i : ℚ) * g.dx : Fl rd).val + g.min.val) (z := i * g.exact.dx + g.min.val)
      (e := 9 * u * X) (by rw [add_sub_add_right_eq_sub]; exact s1)
    refine this.trans ?_
    have hz : |i * g.exact.dx + g.min.val| ≤ X := by
      rw [abs_le]; constructor <;> linarith
    nlinarith [mul_le_mul_of_nonneg_left hz hu0, mul_le_mul_of_nonneg_left hu huX]
  have hB : |x - (i * g.exact.dx + g.min.val)| ≤ 2 * X := by
    rw [abs_le]; constructor <;> linarith
  have s3 : |(x' - (lit (i : ℚ) * g.dx + g.min) : Fl rd).val - (x - (i * g.exact.dx + g.min.val))| ≤
      (e + 11 * u * X) * (1 + u) + u * (2 * X) := by
    rw [fl_sub]
    have := rd_err hr.toRounding (y := x'.val - (lit (i : ℚ) * g.dx + g.min : Fl rd).val)
      (z := x - (i * g.exact.dx + g.min.val)) (e := e + 11 * u * X) (by
        rw [show x'.val - (lit (i : ℚ) * g.dx + g.min : Fl rd).val - (x - (i * g.exact.dx + g.min.val)) =
          (x'.val - x) + -((lit (i : ℚ) * g.dx + g.min : Fl rd).val - (i * g.exact.dx + g.min.val)) by ring]
        refine (abs_add_le _ _).trans ?_
        rw [abs_neg]
        exact add_le_add hx s2)
    refine this.trans ?_
    gcongr
  have s4 := h.inv_err hr hu s3
  have s5 := rd_err hr.toRounding s4
  change |(g.inv_dx * (x' - (lit (i : ℚ) * g.dx + g.min))).val - _| ≤ _ at s5
  have eB : (x - (i * g.exact.dx + g.min.val)) / g.exact.dx = (x - g.min.val) / g.exact.dx - i := by
    field_simp; ring
  rw [eB] at s5
  refine s5.trans ?_
  rw [← eB, abs_div, abs_of_pos hdx]
  generalize |x - (i * g.exact.dx + g.min.val)| = b at hB
  have : ((((e + 11 * u * X) * (1 + u) + u * (2 * X)) * (1 + 6 * u) + 6 * u * b) / g.exact.dx) * (1 + u) +
      u * (b / g.exact.dx) = ((((e + 11 * u * X) * (1 + u) + u * (2 * X)) * (1 + 6 * u) + 6 * u * b) * (1 + u) +
      u * b) / g.exact.dx := by ring
  rw [this, div_le_iff₀ hdx]
  refine le_trans ?_ hτ
  calc (((e + 11 * u * X) * (1 + u) + u * (2 * X)) * (1 + 6 * u) + 6 * u * b) * (1 + u) + u * b
      ≤ (((e + 11 * u * X) * (1 + 1 / 100) + u * (2 * X)) * (1 + 6 * (1 / 100)) + 6 * u * (2 * X)) * (1 + 1 / 100) +
        u * (2 * X) := by gcongr
    _ ≤ 2 * e + 30 * u * X := by nlinarith [mul_nonneg hu0 hX.le]

end GridOK

/-- one interpolation step on values -/
def lerpR {R : Type} [Arith R] (g : Grid R) (x : R) (a : ℤ → R) : R :=
  (lit 1 - g.w1 x) * a (g.index x) + g.w1 x * a (g.index x + 1)

theorem lerp_ok {R : Type} [Arith R] (g : Grid R) (hN : 2 ≤ g.N) (x : R) {f : ℤ → Outcome R} {a : ℤ → R}
    (hf : ∀ i, 0 ≤ i → i < g.N → f i = ok (a i)) : DataBox.lerp g x f = ok (lerpR g x a) := by
  obtain ⟨h0, h1⟩ := g.index_range x hN
  unfold DataBox.lerp lerpR
  rw [hf _ h0 (by omega), hf _ (by omega) (by omega)]
  rfl

theorem exact_index (g : Grid (Fl rd)) (x : ℝ) : g.exact.index x =
    g.exact.bound (if 0 ≤ (x - g.min.val) / g.exact.dx then ⌊(x - g.min.val) / g.exact.dx⌋
      else ⌈(x - g.min.val) / g.exact.dx⌉) := index_real g.exact x

theorem exact_w1 (g : Grid (Fl rd)) (x : ℝ) (h : g.exact.dx ≠ 0) :
    g.exact.w1 x = (x - g.min.val) / g.exact.dx - g.exact.index x := by
  have : g.exact.min = g.min.val := rfl
  rw [w1_real, this]
  field_simp
  ring

theorem exact_bound (g : Grid (Fl rd)) (i : ℤ) : g.exact.bound i = g.bound i := rfl

namespace GridOK
variable {g : Grid (Fl rd)} {X : ℝ}

theorem exact_idx (h : GridOK g X) (x : ℝ) : Idx g.N (g.exact.index x) ((x - g.min.val) / g.exact.dx) := by
  rw [exact_index, exact_bound]; exact bound_idx g h.two _

theorem idx (h : GridOK g X) (x : Fl rd) : Idx g.N (g.index x) (g.inv_dx * (x - g.min)).val := bound_idx g h.two _

theorem q_range (h : GridOK g X) {x : ℝ} (h0 : g.min.val ≤ x) (h1 : x ≤ g.max.val) :
    0 ≤ (x - g.min.val) / g.exact.dx ∧ (x - g.min.val) / g.exact.dx ≤ g.N - 1 := by
  have hdx := h.dx_pos
  refine ⟨div_nonneg (by linarith) hdx.le, ?_⟩
  rw [div_le_iff₀ hdx, mul_comm, h.dx_mul]
  linarith

theorem exact_weight (h : GridOK g X) {x : ℝ} (h0 : g.min.val ≤ x) (h1 : x ≤ g.max.val) :
    0 ≤ g.exact.w1 x ∧ g.exact.w1 x ≤ 1 := by
  have hq := h.q_range h0 h1
  have := (h.exact_idx x).weight (q := (x - g.min.val) / g.exact.dx) (τ := 0) (by simp) hq.1 hq.2
  rw [exact_w1 _ _ h.dx_pos.ne']
  constructor <;> linarith [this.1, this.2]

/-- exact interpolation stays within the bound of the values -/
theorem lerpR_abs (h : GridOK g X) {x : ℝ} (h0 : g.min.val ≤ x) (h1 : x ≤ g.max.val) {a : ℤ → ℝ} {M : ℝ}
    (ha : ∀ i, 0 ≤ i → i < g.N → |a i| ≤ M) : |lerpR g.exact x a| ≤ M := by
  obtain ⟨w0, w1⟩ := h.exact_weight h0 h1
  have hi := h.exact_idx x
  have a1 := ha _ hi.nonneg (by have := hi.le; omega)
  have a2 := ha (g.exact.index x + 1) (by have := hi.nonneg; omega) (by have := hi.le; omega)
  have e : lerpR g.exact x a = (1 - g.exact.w1 x) * a (g.exact.index x) + g.exact.w1 x * a (g.exact.index x + 1) := by
    simp [lerpR, areal]
  rw [e]
  refine (abs_add_le _ _).trans ?_
  rw [abs_mul, abs_mul, abs_of_nonneg w0, abs_of_nonneg (by linarith : 0 ≤ 1 - g.exact.w1 x)]
  nlinarith [mul_le_mul_of_nonneg_left a1 (by linarith : 0 ≤ 1 - g.exact.w1 x), mul_le_mul_of_nonneg_left a2 w0]

theorem lerpR_sub (g : Grid ℝ) (x : ℝ) (a b : ℤ → ℝ) :
    lerpR g x a - lerpR g x b = lerpR g x (fun i => a i - b i) := by
  simp only [lerpR, areal]; ring

/-- the rounding error of one interpolation step -/
theorem lerp_err (h : GridOK g X) (hr : BinaryRounding rd u) (hu : u ≤ 1 / 100) {x' : Fl rd} {x e τ : ℝ}
    (hx : |x'.val - x| ≤ e) (h0 : g.min.val ≤ x) (h1 : x ≤ g.max.val) (hτ : 2 * e + 30 * u * X ≤ τ * g.exact.dx)
    (hτ1 : τ ≤ 1 / 100) {a' : ℤ → Fl rd} {a : ℤ → ℝ} {η M D : ℝ}
    (hη : ∀ i, 0 ≤ i → i < g.N → |(a' i).val - a i| ≤ η) (hM : ∀ i, 0 ≤ i → i < g.N → |a i| ≤ M)
    (hD : ∀ i, 0 ≤ i → i + 1 < g.N → |a (i + 1) - a i| ≤ D) :
    |(lerpR g x' a').val - lerpR g.exact x a| ≤ 1.2 * η + 3 * τ * D + 12 * u * M := by
  have hu0 := hr.nonneg
  have hq := h.q_range h0 h1
  have hi := h.exact_idx x
  have hi' := h.idx x'
  have hqe := h.q_err hr hu hx h0 h1 hτ
  have hτ0 : 0 ≤ τ := (abs_nonneg _).trans hqe
  have hw := h.w_err hr hu hx h0 h1 hτ hi'.nonneg hi'.le
  have hsw := Idx.switch hi hi' hqe (by linarith) a (fun j j0 j1 => hD j j0 (by omega))
  have hwt := hi'.weight hqe hq.1 hq.2
  have b0 := hη _ hi'.nonneg (by have := hi'.le; omega)
  have b1 := hη (g.index x' + 1) (by have := hi'.nonneg; omega) (by have := hi'.le; omega)
  have m0 := hM _ hi'.nonneg (by have := hi'.le; omega)
  have m1 := hM (g.index x' + 1) (by have := hi'.nonneg; omega) (by have := hi'.le; omega)
  have d0 := hD _ hi'.nonneg (by have := hi'.le; omega)
  have hw1 : (g.w1 x').val = (g.inv_dx * (x' - (lit ((g.index x' : ℤ) : ℚ) * g.dx + g.min))).val := rfl
  rw [← hw1] at hw
  have e1 : (lerpR g x' a').val = rd (rd (rd (1 - (g.w1 x').val) * (a' (g.index x')).val) +
      rd ((g.w1 x').val * (a' (g.index x' + 1)).val)) := by
    unfold lerpR
    rw [fl_add, fl_mul, fl_mul, fl_sub, fl_lit]
    simp [hr.one]
  have e2 : lerpR g.exact x a = a (g.exact.index x) +
      ((x - g.min.val) / g.exact.dx - g.exact.index x) * (a (g.exact.index x + 1) - a (g.exact.index x)) := by
    simp only [lerpR, areal, exact_w1 _ _ h.dx_pos.ne']; push_cast; ring
  rw [← e2] at hsw
  rw [e1]
  generalize lerpR g.exact x a = y at *
  generalize hWdef : (g.w1 x').val = W at *
  generalize (a' (g.index x')).val = A at *
  generalize (a' (g.index x' + 1)).val = B at *
  generalize a (g.index x') = α at *
  generalize a (g.index x' + 1) = β at *
  generalize (x - g.min.val) / g.exact.dx - (g.index x' : ℝ) = w at *
  clear e1 e2 hi hi' hqe hη hM hD hw1 hWdef
  have hη0 : 0 ≤ η := (abs_nonneg _).trans b0
  have hM0 : 0 ≤ M := (abs_nonneg _).trans m0
  have hD0 : 0 ≤ D := (abs_nonneg _).trans d0
  have hW := abs_le.1 hw
  have hWr : -(2 * τ) ≤ W ∧ W ≤ 1 + 2 * τ := by constructor <;> linarith [hwt.1, hwt.2]
  have hA : |A| ≤ M + η := by
    have := abs_add_le α (A - α); rw [add_sub_cancel] at this; linarith
  have hB : |B| ≤ M + η := by
    have := abs_add_le β (B - β); rw [add_sub_cancel] at this; linarith
  have hWa : |W| ≤ 1.02 := by rw [abs_le]; constructor <;> linarith
  have hWb : |1 - W| ≤ 1.02 := by rw [abs_le]; constructor <;> linarith
  have hWs : |1 - W| + |W| ≤ 1 + 4 * τ := by
    rcases abs_cases (1 - W) with h | h <;> rcases abs_cases W with h' | h' <;> linarith
  have hMη : 0 ≤ M + η := by linarith
  -- the four roundings
  have r1 : |rd (1 - W) - (1 - W)| ≤ 1.02 * u := (hr.err _).trans (by nlinarith)
  have r2 : |rd (rd (1 - W) * A) - (1 - W) * A| ≤ 2.1 * u * (M + η) := by
    have p : |rd (1 - W) * A - (1 - W) * A| ≤ 1.02 * u * (M + η) := by
      rw [← sub_mul, abs_mul]
      exact mul_le_mul r1 hA (abs_nonneg _) (by positivity)
    refine (rd_err hr.toRounding p).trans ?_
    have p2 : |(1 - W) * A| ≤ 1.02 * (M + η) := by
      rw [abs_mul]; exact mul_le_mul hWb hA (abs_nonneg _) (by norm_num)
    calc 1.02 * u * (M + η) * (1 + u) + u * |(1 - W) * A|
        ≤ 1.02 * u * (M + η) * (1 + 1 / 100) + u * (1.02 * (M + η)) := by gcongr
      _ ≤ 2.1 * u * (M + η) := by nlinarith [mul_nonneg hu0 hMη]
  have p3 : |W * B| ≤ 1.02 * (M + η) := by
    rw [abs_mul]; exact mul_le_mul hWa hB (abs_nonneg _) (by norm_num)
  have r3 : |rd (W * B) - W * B| ≤ 1.02 * u * (M + η) :=
    (hr.err _).trans (by nlinarith [mul_le_mul_of_nonneg_left p3 hu0])
  have r4 : |rd (rd (rd (1 - W) * A) + rd (W * B)) - ((1 - W) * A + W * B)| ≤ 6 * u * (M + η) := by
    have p : |rd (rd (1 - W) * A) + rd (W * B) - ((1 - W) * A + W * B)| ≤ 3.12 * u * (M + η) := by
      rw [add_sub_add_comm]
      refine (abs_add_le _ _).trans ?_
      linarith
    refine (rd_err hr.toRounding p).trans ?_
    have p2 : |(1 - W) * A + W * B| ≤ 2.04 * (M + η) := by
      have p2 : |(1 - W) * A| ≤ 1.02 * (M + η) := by
        rw [abs_mul]; exact mul_le_mul hWb hA (abs_nonneg _) (by norm_num)
      refine (abs_add_le _ _).trans ?_
      linarith
    calc 3.12 * u * (M + η) * (1 + u) + u * |(1 - W) * A + W * B|
        ≤ 3.12 * u * (M + η) * (1 + 1 / 100) + u * (2.04 * (M + η)) := by gcongr
      _ ≤ 6 * u * (M + η) := by nlinarith [mul_nonneg hu0 hMη]
  have r5 : |(1 - W) * A + W * B - (α + w * (β - α))| ≤ (1 + 4 * τ) * η + τ * D := by
    rw [show (1 - W) * A + W * B - (α + w * (β - α)) = ((1 - W) * (A - α) + W * (B - β)) + (W - w) * (β - α) by ring]
    refine (abs_add_le _ _).trans (add_le_add ((abs_add_le _ _).trans ?_) ?_)
    · rw [abs_mul, abs_mul]
      calc |1 - W| * |A - α| + |W| * |B - β| ≤ |1 - W| * η + |W| * η := by gcongr
        _ = (|1 - W| + |W|) * η := by ring
        _ ≤ _ := by gcongr
    · rw [abs_mul]; exact mul_le_mul hw d0 (abs_nonneg _) hτ0
  have t := abs_sub_le (rd (rd (rd (1 - W) * A) + rd (W * B))) ((1 - W) * A + W * B) y
  have t2 := abs_sub_le ((1 - W) * A + W * B) (α + w * (β - α)) y
  have : (1 + 4 * τ) * η ≤ 1.04 * η := by gcongr; linarith
  have : 6 * u * (M + η) ≤ 12 * u * M + 0.06 * η := by
    have := mul_nonneg hu0 hM0
    have : 6 * u * η ≤ 6 * (1 / 100) * η := by gcongr
    linarith
  linarith

end GridOK

/-! ### Several interpolation steps -/

/-- values indexed by `ι`, computed with error `η`, of size at most `M`, adjacent ones differing by at most `D` -/
structure Fam {ι : Type} (valid : ι → Prop) (adj : ι → ι → Prop) (V' : ι → Fl rd) (V : ι → ℝ) (η M D : ℝ) : Prop where
  err : ∀ i, valid i → |(V' i).val - V i| ≤ η
  abs : ∀ i, valid i → |V i| ≤ M
  step : ∀ i j, valid i → valid j → adj i j → |V j - V i| ≤ D

/-- interpolation along one axis -/
theorem Fam.lerp {ι : Type} {valid : ι → Prop} {adj : ι → ι → Prop} {W' : ι × ℤ → Fl rd} {W : ι × ℤ → ℝ} {η M D : ℝ}
    {g : Grid (Fl rd)} {X : ℝ} {adj' : ι × ℤ → ι × ℤ → Prop}
    (F : Fam (fun p : ι × ℤ => valid p.1 ∧ 0 ≤ p.2 ∧ p.2 < g.N) adj' W' W η M D)
    (ho : ∀ i j l, adj i j → adj' (i, l) (j, l)) (hi : ∀ i l, adj' (i, l) (i, l + 1))
    (h : GridOK g X) (hr : BinaryRounding rd u) (hu : u ≤ 1 / 100) {x' : Fl rd} {x e τ : ℝ}
    (hx : |x'.val - x| ≤ e) (h0 : g.min.val ≤ x) (h1 : x ≤ g.max.val) (hτ : 2 * e + 30 * u * X ≤ τ * g.exact.dx)
    (hτ1 : τ ≤ 1 / 100) :
    Fam valid adj (fun i => lerpR g x' fun l => W' (i, l)) (fun i => lerpR g.exact x fun l => W (i, l))
      (1.2 * η + 3 * τ * D + 12 * u * M) M D where
  err i v := h.lerp_err hr hu hx h0 h1 hτ hτ1 (fun l l0 l1 => F.err (i, l) ⟨v, l0, l1⟩)
    (fun l l0 l1 => F.abs (i, l) ⟨v, l0, l1⟩)
    (fun l l0 l1 => F.step (i, l) (i, l + 1) ⟨v, l0, show l < g.N by omega⟩ ⟨v, show 0 ≤ l + 1 by omega, l1⟩ (hi i l))
  abs i v := h.lerpR_abs h0 h1 (fun l l0 l1 => F.abs (i, l) ⟨v, l0, l1⟩)
  step i j vi vj a := by
    rw [GridOK.lerpR_sub]
    exact h.lerpR_abs h0 h1 (fun l l0 l1 => F.step (i, l) (j, l) ⟨vi, l0, l1⟩ ⟨vj, l0, l1⟩ (ho i j l a))

/-- one index grows by one -/
def Adj1 (i j : Unit × ℤ) : Prop := j.2 = i.2 + 1
/-- one of two indices grows by one -/
def Adj2 (i j : (Unit × ℤ) × ℤ) : Prop := (Adj1 i.1 j.1 ∧ j.2 = i.2) ∨ (i.1 = j.1 ∧ j.2 = i.2 + 1)
/-- one of three indices grows by one -/
def Adj3 (i j : ((Unit × ℤ) × ℤ) × ℤ) : Prop := (Adj2 i.1 j.1 ∧ j.2 = i.2) ∨ (i.1 = j.1 ∧ j.2 = i.2 + 1)
/-- one of four indices grows by one -/
def Adj4 (i j : (((Unit × ℤ) × ℤ) × ℤ) × ℤ) : Prop := (Adj3 i.1 j.1 ∧ j.2 = i.2) ∨ (i.1 = j.1 ∧ j.2 = i.2 + 1)

/-- what is needed of one axis -/
structure Along (u : ℝ) (g : Grid (Fl rd)) (x' : Fl rd) (x τ : ℝ) : Prop where
  ok : ∃ X e, GridOK g X ∧ |x'.val - x| ≤ e ∧ 2 * e + 30 * u * X ≤ τ * g.exact.dx
  low : g.min.val ≤ x
  high : x ≤ g.max.val

theorem Fam.lerp' {ι : Type} {valid : ι → Prop} {adj : ι → ι → Prop} {W' : ι × ℤ → Fl rd} {W : ι × ℤ → ℝ} {η M D : ℝ}
    {g : Grid (Fl rd)} {adj' : ι × ℤ → ι × ℤ → Prop}
    (F : Fam (fun p : ι × ℤ => valid p.1 ∧ 0 ≤ p.2 ∧ p.2 < g.N) adj' W' W η M D) {x' : Fl rd} {x τ : ℝ}
    (A : Along u g x' x τ) (hr : BinaryRounding rd u) (hu : u ≤ 1 / 100) (hτ1 : τ ≤ 1 / 100)
    (ho : ∀ i j l, adj i j → adj' (i, l) (j, l)) (hi : ∀ i l, adj' (i, l) (i, l + 1)) :
    Fam valid adj (fun i => lerpR g x' fun l => W' (i, l)) (fun i => lerpR g.exact x fun l => W (i, l))
      (1.2 * η + 3 * τ * D + 12 * u * M) M D := by
  obtain ⟨X, e, h, hx, hτ⟩ := A.ok
  exact F.lerp ho hi h hr hu hx A.low A.high hτ hτ1

/-- the entry of a table at a valid place -/
def entry {R : Type} [Arith R] (d : DataBox R) (is : List ℤ) : R :=
  match d.read is with
  | .ok v => v
  | _ => lit 0

theorem read_entry {R : Type} [Arith R] (d : DataBox R) {is : List ℤ} (h : InRange d.dims is) :
    d.read is = ok (entry d is) := by
  obtain ⟨o, ho, -⟩ := offset_ok h
  simp [entry, DataBox.read, ho]

theorem exact_entry (d : DataBox (Fl rd)) {is : List ℤ} (h : InRange d.dims is) :
    d.exact.read is = ok (entry d is).val := by
  obtain ⟨o, ho, -⟩ := offset_ok h
  simp [entry, DataBox.read, ho, DataBox.exact]

theorem _root_.Opac.Axis.ok {g : Grid (Fl rd)} {X s : ℝ} (h : Axis g X s) : GridOK g X where
  two := h.two
  many := h.many
  low := h.low
  high := h.high
  lt := by
    have h1 := h.spacing
    have : ((2 : ℤ) : ℝ) ≤ (g.N : ℝ) := by exact_mod_cast h.two
    push_cast at this
    nlinarith [mul_pos h1.1 (by linarith : (0 : ℝ) < g.N - 1)]

theorem _root_.Opac.Axis.dx {g : Grid (Fl rd)} {X s : ℝ} (h : Axis g X s) : s ≤ g.exact.dx := by
  have := h.ok.cells
  rw [exact_dx, le_div_iff₀ (by linarith)]
  exact h.spacing.2

/-- an axis of the table, a coordinate with error at most `u(4+X)` -/
theorem _root_.Opac.Axis.along {g : Grid (Fl rd)} {X s : ℝ} (h : Axis g X s) (hu : 0 ≤ u) (hX : 1 ≤ X) {x' : Fl rd} {x : ℝ}
    (hx : |x'.val - x| ≤ u * (4 + X)) (h0 : g.min.val ≤ x) (h1 : x ≤ g.max.val) : Along u g x' x (40 * u * X / s) where
  ok := by
    refine ⟨X, _, h.ok, hx, ?_⟩
    have hs := h.spacing.1
    calc 2 * (u * (4 + X)) + 30 * u * X ≤ 40 * u * X := by nlinarith
      _ = 40 * u * X / s * s := by field_simp
      _ ≤ _ := by
        have := h.dx
        gcongr
  low := h0
  high := h1

section interp
variable {d : DataBox (Fl rd)} {X s M D τ : ℝ}

theorem _root_.Opac.Smooth.size' {axes : List ℕ} (S : Smooth d axes X s M D) {is : List ℤ} (h : InRange d.dims is) :
    |(entry d is).val| ≤ M := S.size is _ (exact_entry d h)

theorem interp3_err (S : Smooth d [2, 1] X s M D) (hd : d.rank = 3) (hr : BinaryRounding rd u) (hu : u ≤ 1 / 100)
    (hτ1 : τ ≤ 1 / 100) {x3' x2' : Fl rd} {x3 x2 : ℝ} (A2 : Along u (d.grid 2) x3' x3 τ) (A1 : Along u (d.grid 1) x2' x2 τ)
    {n : ℤ} (h0 : 0 ≤ n) (h1 : n < d.dim 1) :
    ∃ y' y, d.interp3 x3' x2' n = ok y' ∧ d.exact.interp3 x3 x2 n = ok y ∧
      |y'.val - y| ≤ 2.2 * (3 * τ * D + 12 * u * M) ∧ |y| ≤ M := by
  have g2 := (S.grid 2 (by simp))
  have g1 := (S.grid 1 (by simp))
  obtain ⟨a, b, c, hdims⟩ : ∃ a b c, d.dims = [a, b, c] := List.length_eq_three.1 hd
  have e2 : (d.grid 2).N = a := by rw [← g2.2]; simp [DataBox.dim, hdims]
  have e1 : (d.grid 1).N = b := by rw [← g1.2]; simp [DataBox.dim, hdims]
  have e0 : d.dim 1 = c := by simp [DataBox.dim, hdims]
  rw [e0] at h1
  have hin : ∀ i j, 0 ≤ i → i < (d.grid 2).N → 0 ≤ j → j < (d.grid 1).N → InRange d.dims [i, j, n] := by
    intro i j i0 i1 j0 j1
    rw [hdims]; exact ⟨⟨i0, e2 ▸ i1⟩, ⟨j0, e1 ▸ j1⟩, ⟨h0, h1⟩, trivial⟩
  have F0 : Fam (fun p : (Unit × ℤ) × ℤ => (True ∧ 0 ≤ p.1.2 ∧ p.1.2 < (d.grid 2).N) ∧ 0 ≤ p.2 ∧ p.2 < (d.grid 1).N) Adj2
      (fun p => entry d [p.1.2, p.2, n]) (fun p => (entry d [p.1.2, p.2, n]).val) 0 M D :=
    { err := by intro p _; simp
      abs := by rintro ⟨⟨_, i⟩, j⟩ ⟨⟨_, i0, i1⟩, j0, j1⟩; exact S.size' (hin i j i0 i1 j0 j1)
      step := by
        rintro ⟨⟨_, i⟩, j⟩ ⟨⟨_, i'⟩, j'⟩ ⟨⟨_, i0, i1⟩, j0, j1⟩ ⟨⟨_, i0', i1'⟩, j0', j1'⟩ (⟨ha, hb⟩ | ⟨ha, hb⟩)
        · simp only [Adj1] at ha hb
          subst ha hb
          exact S.step 2 (by simp) [i, j', n] _ _ (exact_entry d (hin _ _ i0 i1 j0 j1)) (by
            rw [hd]; exact exact_entry d (hin _ _ i0' i1' j0' j1'))
        · simp only at ha hb
          obtain rfl : i = i' := (Prod.ext_iff.1 ha).2
          subst hb
          exact S.step 1 (by simp) [i, j, n] _ _ (exact_entry d (hin _ _ i0 i1 j0 j1)) (by
            rw [hd]; exact exact_entry d (hin _ _ i0' i1' j0' j1')) }
  have F1 := F0.lerp' (valid := fun p : Unit × ℤ => True ∧ 0 ≤ p.2 ∧ p.2 < (d.grid 2).N) (adj := Adj1) A1 hr hu hτ1
    (fun i j l h => .inl ⟨h, rfl⟩) (fun i l => .inr ⟨rfl, rfl⟩)
  have F2 := F1.lerp' (valid := fun p : Unit => True) (adj := fun _ _ => False) A2 hr hu hτ1
    (fun i j l h => h.elim) (fun i l => rfl)
  refine ⟨_, _, ?_, ?_, (F2.err () trivial).trans ?_, F2.abs () trivial⟩
  · exact lerp_ok _ g2.1.two _ (fun i i0 i1 => lerp_ok _ g1.1.two _ (fun j j0 j1 => read_entry d (hin i j i0 i1 j0 j1)))
  · exact lerp_ok (d.grid 2).exact g2.1.two _ (fun i i0 i1 => lerp_ok (d.grid 1).exact g1.1.two _
      (fun j j0 j1 => exact_entry d (hin i j i0 i1 j0 j1)))
  · exact le_of_eq (by ring)

theorem interp4_err (S : Smooth d [3, 2, 1] X s M D) (hd : d.rank = 4) (hr : BinaryRounding rd u) (hu : u ≤ 1 / 100)
    (hτ1 : τ ≤ 1 / 100) {x4' x3' x2' : Fl rd} {x4 x3 x2 : ℝ} (A3 : Along u (d.grid 3) x4' x4 τ)
    (A2 : Along u (d.grid 2) x3' x3 τ) (A1 : Along u (d.grid 1) x2' x2 τ) {n : ℤ} (h0 : 0 ≤ n) (h1 : n < d.dim 1) :
    ∃ y' y, d.interp4 x4' x3' x2' n = ok y' ∧ d.exact.interp4 x4 x3 x2 n = ok y ∧
      |y'.val - y| ≤ 3.64 * (3 * τ * D + 12 * u * M) ∧ |y| ≤ M := by
  have g3 := (S.grid 3 (by simp))
  have g2 := (S.grid 2 (by simp))
  have g1 := (S.grid 1 (by simp))
  obtain ⟨a, b, c, m, hdims⟩ : ∃ a b c m, d.dims = [a, b, c, m] := by
    have : d.dims.length = 4 := hd
    match d.dims, this with
    | [a, b, c, m], _ => exact ⟨a, b, c, m, rfl⟩
  have e3 : (d.grid 3).N = a := by rw [← g3.2]; simp [DataBox.dim, hdims]
  have e2 : (d.grid 2).N = b := by rw [← g2.2]; simp [DataBox.dim, hdims]
  have e1 : (d.grid 1).N = c := by rw [← g1.2]; simp [DataBox.dim, hdims]
  have e0 : d.dim 1 = m := by simp [DataBox.dim, hdims]
  rw [e0] at h1
  have hin : ∀ i j k, 0 ≤ i → i < (d.grid 3).N → 0 ≤ j → j < (d.grid 2).N → 0 ≤ k → k < (d.grid 1).N →
      InRange d.dims [i, j, k, n] := by
    intro i j k i0 i1 j0 j1 k0 k1
    rw [hdims]; exact ⟨⟨i0, e3 ▸ i1⟩, ⟨j0, e2 ▸ j1⟩, ⟨k0, e1 ▸ k1⟩, ⟨h0, h1⟩, trivial⟩
  have F0 : Fam (fun p : ((Unit × ℤ) × ℤ) × ℤ => ((True ∧ 0 ≤ p.1.1.2 ∧ p.1.1.2 < (d.grid 3).N) ∧ 0 ≤ p.1.2 ∧
      p.1.2 < (d.grid 2).N) ∧ 0 ≤ p.2 ∧ p.2 < (d.grid 1).N) Adj3
      (fun p => entry d [p.1.1.2, p.1.2, p.2, n]) (fun p => (entry d [p.1.1.2, p.1.2, p.2, n]).val) 0 M D :=
    { err := by intro p _; simp
      abs := by
        rintro ⟨⟨⟨_, i⟩, j⟩, k⟩ ⟨⟨⟨_, i0, i1⟩, j0, j1⟩, k0, k1⟩; exact S.size' (hin i j k i0 i1 j0 j1 k0 k1)
      step := by
        rintro ⟨⟨⟨_, i⟩, j⟩, k⟩ ⟨⟨⟨_, i'⟩, j'⟩, k'⟩ ⟨⟨⟨_, i0, i1⟩, j0, j1⟩, k0, k1⟩
          ⟨⟨⟨_, i0', i1'⟩, j0', j1'⟩, k0', k1'⟩ (⟨ha | ha, hb⟩ | ⟨ha, hb⟩)
        · simp only [Adj1] at ha hb
          obtain ⟨ha, hc⟩ := ha
          subst ha hb hc
          exact S.step 3 (by simp) [i, j', k', n] _ _ (exact_entry d (hin _ _ _ i0 i1 j0 j1 k0 k1)) (by
            rw [hd]; exact exact_entry d (hin _ _ _ i0' i1' j0' j1' k0' k1'))
        · simp only at ha hb
          obtain ⟨ha, hc⟩ := ha
          obtain rfl : i = i' := (Prod.ext_iff.1 ha).2
          subst hb hc
          exact S.step 2 (by simp) [i, j, k', n] _ _ (exact_entry d (hin _ _ _ i0 i1 j0 j1 k0 k1)) (by
            rw [hd]; exact exact_entry d (hin _ _ _ i0' i1' j0' j1' k0' k1'))
        · simp only at ha hb
          obtain ⟨hc, rfl⟩ := Prod.ext_iff.1 ha
          obtain rfl : i = i' := (Prod.ext_iff.1 hc).2
          subst hb
          exact S.step 1 (by simp) [i, j, k, n] _ _ (exact_entry d (hin _ _ _ i0 i1 j0 j1 k0 k1)) (by
            rw [hd]; exact exact_entry d (hin _ _ _ i0' i1' j0' j1' k0' k1')) }
  have F1 := F0.lerp' (valid := fun p : (Unit × ℤ) × ℤ => (True ∧ 0 ≤ p.1.2 ∧ p.1.2 < (d.grid 3).N) ∧ 0 ≤ p.2 ∧
    p.2 < (d.grid 2).N) (adj := Adj2) A1 hr hu hτ1 (fun i j l h => .inl ⟨h, rfl⟩) (fun i l => .inr ⟨rfl, rfl⟩)
  have F2 := F1.lerp' (valid := fun p : Unit × ℤ => True ∧ 0 ≤ p.2 ∧ p.2 < (d.grid 3).N) (adj := Adj1) A2 hr hu hτ1
    (fun i j l h => .inl ⟨h, rfl⟩) (fun i l => .inr ⟨rfl, rfl⟩)
  have F3 := F2.lerp' (valid := fun p : Unit => True) (adj := fun _ _ => False) A3 hr hu hτ1
    (fun i j l h => h.elim) (fun i l => rfl)
  refine ⟨_, _, ?_, ?_, (F3.err () trivial).trans ?_, F3.abs () trivial⟩
  · exact lerp_ok _ g3.1.two _ (fun i i0 i1 => lerp_ok _ g2.1.two _ (fun j j0 j1 => lerp_ok _ g1.1.two _ (fun k k0 k1 =>
      read_entry d (hin i j k i0 i1 j0 j1 k0 k1))))
  · exact lerp_ok (d.grid 3).exact g3.1.two _ (fun i i0 i1 => lerp_ok (d.grid 2).exact g2.1.two _ (fun j j0 j1 =>
      lerp_ok (d.grid 1).exact g1.1.two _ (fun k k0 k1 => exact_entry d (hin i j k i0 i1 j0 j1 k0 k1))))
  · exact le_of_eq (by ring)

theorem interp5_err (S : Smooth d [4, 3, 2, 0] X s M D) (hd : d.rank = 5) (hr : BinaryRounding rd u) (hu : u ≤ 1 / 100)
    (hτ1 : τ ≤ 1 / 100) {x5' x4' x3' x1' : Fl rd} {x5 x4 x3 x1 : ℝ} (A4 : Along u (d.grid 4) x5' x5 τ)
    (A3 : Along u (d.grid 3) x4' x4 τ) (A2 : Along u (d.grid 2) x3' x3 τ) (A0 : Along u (d.grid 0) x1' x1 τ)
    {n : ℤ} (h0 : 0 ≤ n) (h1 : n < d.dim 2) :
    ∃ y' y, d.interp5 x5' x4' x3' n x1' = ok y' ∧ d.exact.interp5 x5 x4 x3 n x1 = ok y ∧
      |y'.val - y| ≤ 5.4 * (3 * τ * D + 12 * u * M) ∧ |y| ≤ M := by
  have g4 := (S.grid 4 (by simp))
  have g3 := (S.grid 3 (by simp))
  have g2 := (S.grid 2 (by simp))
  have g0 := (S.grid 0 (by simp))
  obtain ⟨a, b, c, m, f, hdims⟩ : ∃ a b c m f, d.dims = [a, b, c, m, f] := by
    have : d.dims.length = 5 := hd
    match d.dims, this with
    | [a, b, c, m, f], _ => exact ⟨a, b, c, m, f, rfl⟩
  have e4 : (d.grid 4).N = a := by rw [← g4.2]; simp [DataBox.dim, hdims]
  have e3 : (d.grid 3).N = b := by rw [← g3.2]; simp [DataBox.dim, hdims]
  have e2 : (d.grid 2).N = c := by rw [← g2.2]; simp [DataBox.dim, hdims]
  have e1 : d.dim 2 = m := by simp [DataBox.dim, hdims]
  have e0 : (d.grid 0).N = f := by rw [← g0.2]; simp [DataBox.dim, hdims]
  rw [e1] at h1
  have hin : ∀ i j k l, 0 ≤ i → i < (d.grid 4).N → 0 ≤ j → j < (d.grid 3).N → 0 ≤ k → k < (d.grid 2).N →
      0 ≤ l → l < (d.grid 0).N → InRange d.dims [i, j, k, n, l] := by
    intro i j k l i0 i1 j0 j1 k0 k1 l0 l1
    rw [hdims]; exact ⟨⟨i0, e4 ▸ i1⟩, ⟨j0, e3 ▸ j1⟩, ⟨k0, e2 ▸ k1⟩, ⟨h0, h1⟩, ⟨l0, e0 ▸ l1⟩, trivial⟩
  have F0 : Fam (fun p : (((Unit × ℤ) × ℤ) × ℤ) × ℤ => (((True ∧ 0 ≤ p.1.1.1.2 ∧ p.1.1.1.2 < (d.grid 4).N) ∧ 0 ≤ p.1.1.2 ∧
      p.1.1.2 < (d.grid 3).N) ∧ 0 ≤ p.1.2 ∧ p.1.2 < (d.grid 2).N) ∧ 0 ≤ p.2 ∧ p.2 < (d.grid 0).N) Adj4
      (fun p => entry d [p.1.1.1.2, p.1.1.2, p.1.2, n, p.2]) (fun p => (entry d [p.1.1.1.2, p.1.1.2, p.1.2, n, p.2]).val)
      0 M D :=
    { err := by intro p _; simp
      abs := by
        rintro ⟨⟨⟨⟨_, i⟩, j⟩, k⟩, l⟩ ⟨⟨⟨⟨_, i0, i1⟩, j0, j1⟩, k0, k1⟩, l0, l1⟩
        exact S.size' (hin i j k l i0 i1 j0 j1 k0 k1 l0 l1)
      step := by
        rintro ⟨⟨⟨⟨_, i⟩, j⟩, k⟩, l⟩ ⟨⟨⟨⟨_, i'⟩, j'⟩, k'⟩, l'⟩ ⟨⟨⟨⟨_, i0, i1⟩, j0, j1⟩, k0, k1⟩, l0, l1⟩
          ⟨⟨⟨⟨_, i0', i1'⟩, j0', j1'⟩, k0', k1'⟩, l0', l1'⟩ (⟨⟨ha | ha, hb⟩ | ⟨ha, hb⟩, he⟩ | ⟨ha, he⟩)
        · simp only [Adj1] at ha hb he
          obtain ⟨ha, hc⟩ := ha
          subst ha hb hc he
          exact S.step 4 (by simp) [i, j', k', n, l'] _ _ (exact_entry d (hin _ _ _ _ i0 i1 j0 j1 k0 k1 l0 l1)) (by
            rw [hd]; exact exact_entry d (hin _ _ _ _ i0' i1' j0' j1' k0' k1' l0' l1'))
        · simp only at ha hb he
          obtain ⟨ha, hc⟩ := ha
          obtain rfl : i = i' := (Prod.ext_iff.1 ha).2
          subst hb hc he
          exact S.step 3 (by simp) [i, j, k', n, l'] _ _ (exact_entry d (hin _ _ _ _ i0 i1 j0 j1 k0 k1 l0 l1)) (by
            rw [hd]; exact exact_entry d (hin _ _ _ _ i0' i1' j0' j1' k0' k1' l0' l1'))
        · simp only at ha hb he
          obtain ⟨hc, rfl⟩ := Prod.ext_iff.1 ha
          obtain rfl : i = i' := (Prod.ext_iff.1 hc).2
          subst hb he
          exact S.step 2 (by simp) [i, j, k, n, l'] _ _ (exact_entry d (hin _ _ _ _ i0 i1 j0 j1 k0 k1 l0 l1)) (by
            rw [hd]; exact exact_entry d (hin _ _ _ _ i0' i1' j0' j1' k0' k1' l0' l1'))
        · simp only at ha he
          obtain ⟨hc, rfl⟩ := Prod.ext_iff.1 ha
          obtain ⟨hc, rfl⟩ := Prod.ext_iff.1 hc
          obtain rfl : i = i' := (Prod.ext_iff.1 hc).2
          subst he
          exact S.step 0 (by simp) [i, j, k, n, l] _ _ (exact_entry d (hin _ _ _ _ i0 i1 j0 j1 k0 k1 l0 l1)) (by
            rw [hd]; exact exact_entry d (hin _ _ _ _ i0' i1' j0' j1' k0' k1' l0' l1')) }
  have F1 := F0.lerp' (valid := fun p : ((Unit × ℤ) × ℤ) × ℤ => ((True ∧ 0 ≤ p.1.1.2 ∧ p.1.1.2 < (d.grid 4).N) ∧
    0 ≤ p.1.2 ∧ p.1.2 < (d.grid 3).N) ∧ 0 ≤ p.2 ∧ p.2 < (d.grid 2).N) (adj := Adj3) A0 hr hu hτ1
    (fun i j l h => .inl ⟨h, rfl⟩) (fun i l => .inr ⟨rfl, rfl⟩)
  have F2 := F1.lerp' (valid := fun p : (Unit × ℤ) × ℤ => (True ∧ 0 ≤ p.1.2 ∧ p.1.2 < (d.grid 4).N) ∧ 0 ≤ p.2 ∧
    p.2 < (d.grid 3).N) (adj := Adj2) A2 hr hu hτ1 (fun i j l h => .inl ⟨h, rfl⟩) (fun i l => .inr ⟨rfl, rfl⟩)
  have F3 := F2.lerp' (valid := fun p : Unit × ℤ => True ∧ 0 ≤ p.2 ∧ p.2 < (d.grid 4).N) (adj := Adj1) A3 hr hu hτ1
    (fun i j l h => .inl ⟨h, rfl⟩) (fun i l => .inr ⟨rfl, rfl⟩)
  have F4 := F3.lerp' (valid := fun p : Unit => True) (adj := fun _ _ => False) A4 hr hu hτ1
    (fun i j l h => h.elim) (fun i l => rfl)
  have hE : 0 ≤ 3 * τ * D + 12 * u * M := by
    have h := (abs_nonneg _).trans (F1.err ((((), 0), 0), 0) ⟨⟨⟨trivial, le_rfl, by have := g4.1.two; simp only; omega⟩,
      le_rfl, by have := g3.1.two; simp only; omega⟩, le_rfl, by have := g2.1.two; simp only; omega⟩)
    linarith
  refine ⟨_, _, ?_, ?_, (F4.err () trivial).trans ?_, F4.abs () trivial⟩
  · exact lerp_ok _ g4.1.two _ (fun i i0 i1 => lerp_ok _ g3.1.two _ (fun j j0 j1 => lerp_ok _ g2.1.two _ (fun k k0 k1 =>
      lerp_ok _ g0.1.two _ (fun l l0 l1 => read_entry d (hin i j k l i0 i1 j0 j1 k0 k1 l0 l1)))))
  · exact lerp_ok (d.grid 4).exact g4.1.two _ (fun i i0 i1 => lerp_ok (d.grid 3).exact g3.1.two _ (fun j j0 j1 =>
      lerp_ok (d.grid 2).exact g2.1.two _ (fun k k0 k1 => lerp_ok (d.grid 0).exact g0.1.two _ (fun l l0 l1 =>
        exact_entry d (hin i j k l i0 i1 j0 j1 k0 k1 l0 l1)))))
  · nlinarith

end interp

/-! ### Logarithmic coordinates and the way back -/

theorem unit_le (hr : BinaryRounding rd u) (hu : u ≤ 1 / 100) : unit u ≤ 1.02 * u := by
  have hu0 := hr.nonneg
  have h := Real.one_sub_inv_le_log_of_pos (show 0 < 1 - u by linarith)
  have h2 : (1 - u)⁻¹ ≤ 1 + 1.02 * u := by
    rw [inv_le_iff_one_le_mul₀ (by linarith)]
    nlinarith
  unfold unit
  linarith

theorem log_ten_ge : (2 : ℝ) ≤ Real.log 10 := by
  rw [Real.le_log_iff_exp_le (by norm_num)]
  have := Real.exp_one_lt_d9
  have e : Real.exp 2 = Real.exp 1 * Real.exp 1 := by rw [← Real.exp_add]; norm_num
  rw [e]
  nlinarith [Real.exp_pos 1]

theorem log_ten_le : Real.log 10 ≤ 2.33 := by
  have e : (10 : ℝ) = 2 * 2 * 2 * 1.25 := by norm_num
  rw [e, Real.log_mul (by norm_num) (by norm_num), Real.log_mul (by norm_num) (by norm_num),
    Real.log_mul (by norm_num) (by norm_num)]
  have h1 := Real.log_two_lt_d9
  have h2 := Real.log_le_sub_one_of_pos (show (0 : ℝ) < 1.25 by norm_num)
  linarith

/-- the rounding error of a logarithm -/
theorem log10_err (hr : BinaryRounding rd u) (hu : u ≤ 1 / 100) {n : ℝ} {z' : Fl rd} {z : ℝ} (h : PF u n z' z)
    (hn : n ≤ 7) : |(Arith.log10 z').val - Real.logb 10 z| ≤ u * (4 + |Real.logb 10 z|) := by
  have hu0 := hr.nonneg
  have h1 : |Real.log z'.val - Real.log z| ≤ n * unit u := h.2.2
  have h2 := unit_le hr hu
  have h10 := log_ten_ge
  have h3 : |Real.logb 10 z'.val - Real.logb 10 z| ≤ 3.6 * u := by
    unfold Real.logb
    rw [← sub_div, abs_div, abs_of_pos (a := Real.log 10) (by linarith), div_le_iff₀ (by linarith)]
    calc |Real.log z'.val - Real.log z| ≤ n * unit u := h1
      _ ≤ 7 * (1.02 * u) := mul_le_mul hn h2 (unit_nonneg hr.toRounding) (by norm_num)
      _ ≤ 3.6 * u * 2 := by linarith
      _ ≤ _ := by gcongr
  have h4 := rd_err hr.toRounding h3
  refine h4.trans ?_
  nlinarith

theorem close_one {n m a x : ℝ} (h : Close (unit u) n a x) (hm : n * unit u ≤ m) : Close 1 m a x :=
  ⟨h.1, by rw [mul_one]; exact h.2.trans hm⟩

/-- back from the logarithm -/
theorem pow10_err (hr : BinaryRounding rd u) {y' : Fl rd} {y B : ℝ} (h : |y'.val - y| ≤ B) :
    Close 1 (2.33 * B + unit u) (Arith.pow (lit 10) y').val ((10 : ℝ) ^ y) := by
  have e : (Arith.pow (lit 10) y').val = rd ((10 : ℝ) ^ y'.val) := by
    have : (lit 10 : Fl rd).val = 10 := by
      have := hr.ints 10 (by norm_num)
      rw [fl_lit]; simpa using this
    show rd ((lit 10 : Fl rd).val ^ y'.val) = _
    rw [this]
  rw [e]
  have hB : 0 ≤ B := (abs_nonneg _).trans h
  have c1 : Close 1 (2.33 * B) ((10 : ℝ) ^ y'.val) ((10 : ℝ) ^ y) := by
    refine ⟨by positivity, ?_⟩
    rw [Real.log_rpow (by norm_num), Real.log_rpow (by norm_num), ← sub_mul, abs_mul,
      abs_of_pos (a := Real.log 10) (by linarith [log_ten_ge]), mul_one, mul_comm]
    have := log_ten_le
    have := log_ten_ge
    gcongr
  have c2 := close_one (Close.round hr.toRounding (x := (10 : ℝ) ^ y'.val) (by positivity)) (le_refl (1 * unit u))
  have := c2.trans c1
  rwa [one_mul, add_comm] at this

/-- from the logarithm of a quotient to a relative error -/
theorem rel_err {E t a x : ℝ} (hx : 0 < x) (h : Close 1 t a x) (ht : t ≤ 13.2 * E) (hE : E ≤ 1 / 100) :
    |a - x| ≤ 15 * E * x := by
  have ha := h.pos hx
  have h1 := h.2
  rw [mul_one] at h1
  have ht0 : 0 ≤ t := (abs_nonneg _).trans h1
  have e : a = x * Real.exp (Real.log a - Real.log x) := by
    rw [Real.exp_sub, Real.exp_log ha, Real.exp_log hx]; field_simp
  generalize Real.log a - Real.log x = v at e h1
  have hv := abs_le.1 h1
  have h2 := Real.abs_exp_sub_one_sub_id_le (x := v) (by linarith)
  have h2' := abs_le.1 h2
  have hE0 : 0 ≤ E := by linarith
  have hv2 : v ^ 2 ≤ t ^ 2 := by rw [← sq_abs v]; gcongr
  have ht2 : t ^ 2 ≤ 0.132 * (13.2 * E) := by nlinarith
  have h3 : |Real.exp v - 1| ≤ 15 * E := by
    rw [abs_le]; constructor <;> nlinarith
  rw [e, show x * Real.exp v - x = (Real.exp v - 1) * x by ring, abs_mul, abs_of_pos hx]
  gcongr

end Opac.Accuracy
