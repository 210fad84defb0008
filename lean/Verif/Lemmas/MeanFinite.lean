import Verif.Lemmas.MeanNumbers
import Verif.Lemmas.NeutrinoMeanNumbers

/-! Means in double precision are finite: the sum in the numerator is bounded by the sum in the denominator. -/

namespace Opac.Doubles
open Arith Photons

/-- the smallest error -/
noncomputable def eps : ℝ := 2 ^ (-1021 : ℤ)

theorem eps_pos : 0 < eps := by unfold eps; positivity

theorem near_up {x : ℝ} (h : 0 ≤ x) : double64.near x ≤ (1 + 2 ^ (-53 : ℤ)) * x + eps := by
  have := (abs_le.1 (rd_err x)).2
  rw [abs_of_nonneg h] at this
  unfold eps; linarith

theorem near_lo {x : ℝ} (h : 0 ≤ x) : x ≤ (1 + 2 ^ (-52 : ℤ)) * (double64.near x + eps) := by
  have h1 := (abs_le.1 (rd_err x)).1
  have h2 := double64.near_nonneg h
  have h3 := eps_pos
  rw [abs_of_nonneg h] at h1
  change -(2 ^ (-53 : ℤ) * x + eps) ≤ _ at h1
  have e1 : (2 : ℝ) ^ (-52 : ℤ) = 2 * 2 ^ (-53 : ℤ) := by norm_num
  have hu : (2 : ℝ) ^ (-53 : ℤ) ≤ 1 / 4 := by norm_num
  have hu0 : (0 : ℝ) < 2 ^ (-53 : ℤ) := by positivity
  rw [e1]
  generalize (2 : ℝ) ^ (-53 : ℤ) = u at *
  have h4 : (1 - u) * x ≤ double64.near x + eps := by linarith
  have h5 := mul_le_mul_of_nonneg_left h4 (show 0 ≤ 1 + 2 * u by linarith)
  have h6 : 0 ≤ u * x * (1 - 2 * u) := mul_nonneg (mul_nonneg hu0.le h) (by linarith)
  linarith

theorem near_up2 {x : ℝ} (h : 0 ≤ x) : double64.near x ≤ 2 * x + eps :=
  (near_up h).trans (by
    have : (1 + (2 : ℝ) ^ (-53 : ℤ)) * x ≤ 2 * x := mul_le_mul_of_nonneg_right (by norm_num) h
    linarith)

theorem near_lo2 {x : ℝ} (h : 0 ≤ x) : x ≤ 2 * double64.near x + 2 * eps :=
  (near_lo h).trans (by
    have : (1 + (2 : ℝ) ^ (-52 : ℤ)) * (double64.near x + eps) ≤ 2 * (double64.near x + eps) :=
      mul_le_mul_of_nonneg_right (by norm_num) (by linarith [double64.near_nonneg h, eps_pos])
    linarith)

/-- one number is bounded by another -/
def Dom (K A : ℝ) (t s : IE binary64) : Prop := ∃ x y, t.val = .fin x ∧ s.val = .fin y ∧ 0 ≤ x ∧ 0 ≤ y ∧ x ≤ K * y + A

namespace Dom
variable {K A : ℝ} {t s : IE binary64}

theorem mono (h : Dom K A t s) {K' A' : ℝ} (hK : K ≤ K') (hA : A ≤ A') : Dom K' A' t s := by
  obtain ⟨x, y, e, e', h0, h0', hx⟩ := h
  exact ⟨x, y, e, e', h0, h0', hx.trans (add_le_add (mul_le_mul_of_nonneg_right hK h0') hA)⟩

theorem mul_val {a b : IE binary64} {x y : ℝ} {h h' : ℤ} (ea : a.val = .fin x) (eb : b.val = .fin y) (h0 : 0 ≤ x) (h0' : 0 ≤ y)
    (hx : x ≤ 2 ^ h) (hy : y ≤ 2 ^ h') (hh : h + h' ≤ 1023) : (a * b).val = .fin (double64.near (x * y)) := by
  show IE.round binary64 (XR.mul a.val b.val) = _
  rw [ea, eb]
  refine rd_near ?_
  rw [abs_of_nonneg (mul_nonneg h0 h0')]
  calc x * y ≤ 2 ^ h * 2 ^ h' := mul_le_mul hx hy h0' (by positivity)
    _ = 2 ^ (h + h') := by rw [zpow_add₀ (by norm_num)]
    _ ≤ _ := zle hh

/-- both multiplied by the same factor -/
theorem mul (d : Dom K A t s) (hK : 0 ≤ K) (hA : 0 ≤ A) {h W : ℤ} (st : Nn h t) (ss : Nn h s) {w : IE binary64} (sw : Nn W w)
    (hh : h + W ≤ 1023) : Dom (4 * K) (4 * K * eps + 2 * A * 2 ^ W + eps) (t * w) (s * w) := by
  obtain ⟨x, y, e, e', h0, h0', hx⟩ := d
  obtain ⟨x1, ex1, -, hx1⟩ := st
  obtain ⟨y1, ey1, -, hy1⟩ := ss
  obtain ⟨v, ev, v0, hv⟩ := sw
  rw [e] at ex1; injection ex1 with ex1; subst ex1
  rw [e'] at ey1; injection ey1 with ey1; subst ey1
  refine ⟨_, _, mul_val e ev h0 v0 hx1 hv hh, mul_val e' ev h0' v0 hy1 hv hh, double64.near_nonneg (by positivity),
    double64.near_nonneg (by positivity), ?_⟩
  have h1 := near_up2 (mul_nonneg h0 v0)
  have h2 := near_lo2 (mul_nonneg h0' v0)
  have h3 : x * v ≤ (K * y + A) * v := mul_le_mul_of_nonneg_right hx v0
  have h4 : A * v ≤ A * 2 ^ W := mul_le_mul_of_nonneg_left hv hA
  have h5 : K * (y * v) ≤ K * (2 * double64.near (y * v) + 2 * eps) := mul_le_mul_of_nonneg_left h2 hK
  nlinarith

/-- a bounded factor on the left -/
theorem left {k h : ℤ} {a : IE binary64} (sa : Nn k a) (ss : Nn h s) (hh : k + h ≤ 1023) :
    Dom (2 ^ (k + 1)) eps (a * s) s := by
  obtain ⟨x, e, h0, hx⟩ := sa
  obtain ⟨y, e', h0', hy⟩ := ss
  refine ⟨_, y, mul_val e e' h0 h0' hx hy hh, e', double64.near_nonneg (by positivity), h0', ?_⟩
  have h1 := near_up2 (mul_nonneg h0 h0')
  have h2 : x * y ≤ 2 ^ k * y := mul_le_mul_of_nonneg_right hx h0'
  rw [zpow_add₀ (by norm_num), zpow_one]
  linarith

/-- a factor away from zero on the right -/
theorem right {l h' h : ℤ} {a : IE binary64} {b : Fl rd64} (sa : Sim l h' a b) (ss : Nn h s) (hh : h' + h ≤ 1023) :
    Dom (2 ^ (1 - l)) (2 ^ (1 - l) * eps) s (a * s) := by
  obtain ⟨y, e', h0', hy⟩ := ss
  have b0 := sa.pos
  refine ⟨y, _, e', mul_val sa.1 e' b0.le h0' sa.2.2 hy hh, h0', double64.near_nonneg (by positivity), ?_⟩
  have h1 := near_lo2 (mul_nonneg b0.le h0')
  have hl : (0 : ℝ) < 2 ^ l := by positivity
  have h2 : 2 ^ l * y ≤ b.val * y := mul_le_mul_of_nonneg_right sa.2.1 h0'
  have e2 : (2 : ℝ) ^ (1 - l) = 2 / 2 ^ l := by rw [zpow_sub₀ (by norm_num), zpow_one]
  rw [e2, div_mul_eq_mul_div, div_mul_eq_mul_div, ← add_div, le_div_iff₀ hl]
  linarith

end Dom

/-- the growth of the bound with the number of terms -/
noncomputable def grow (i : ℕ) : ℝ := (1 + 2 ^ (-50 : ℤ)) ^ i

theorem grow_ge (i : ℕ) : 1 ≤ grow i := one_le_pow₀ (by norm_num)

theorem grow_le {i : ℕ} (h : i ≤ 2 ^ 32) : grow i ≤ 2 := by
  have h1 : (1 + (2 : ℝ) ^ (-50 : ℤ)) ≤ Real.exp (2 ^ (-50 : ℤ)) := by linarith [Real.add_one_le_exp ((2 : ℝ) ^ (-50 : ℤ))]
  have h2 : grow i ≤ Real.exp (2 ^ (-50 : ℤ)) ^ i := pow_le_pow_left₀ (by positivity) h1 i
  refine h2.trans ?_
  rw [← Real.exp_nat_mul]
  have h3 : (i : ℝ) ≤ 2 ^ 32 := by exact_mod_cast h
  have h4 : (i : ℝ) * 2 ^ (-50 : ℤ) ≤ 1 / 2 := by
    calc (i : ℝ) * 2 ^ (-50 : ℤ) ≤ 2 ^ 32 * 2 ^ (-50 : ℤ) := by gcongr
      _ ≤ 1 / 2 := by norm_num
  refine (Real.exp_le_exp.2 h4).trans ?_
  have : Real.exp (1 / 2) ≤ 2 := by
    have h5 : Real.exp (1 / 2) ^ 2 = Real.exp 1 := by rw [← Real.exp_nat_mul]; norm_num
    nlinarith [Real.exp_one_lt_d9, Real.exp_pos (1 / 2 : ℝ)]
  exact this

/-- the sums after `i` terms -/
def SumDom (K A : ℝ) (i : ℕ) (t s : IE binary64) : Prop := Dom (grow i * K) (grow i * (i * (A + K * eps + eps))) t s

theorem SumDom.zero {K A : ℝ} : SumDom K A 0 (lit 0) (lit 0) := ⟨0, 0, lit0_ie, lit0_ie, le_rfl, le_rfl, by simp⟩

theorem add_fin {a b : IE binary64} {x y : ℝ} (ea : a.val = .fin x) (eb : b.val = .fin y) (h0 : 0 ≤ x) (h0' : 0 ≤ y)
    (h : x + y ≤ 2 ^ (1023 : ℤ)) : (a + b).val = .fin (double64.near (x + y)) := by
  rw [add_val ea eb]
  exact rd_near (by rwa [abs_of_nonneg (add_nonneg h0 h0')])

theorem SumDom.add {K A : ℝ} (hK : 0 ≤ K) (hA : 0 ≤ A) {i : ℕ} {T S t s : IE binary64} (H : SumDom K A i T S) (d : Dom K A t s)
    (hT : Nn 1022 T) (ht : Nn 1022 t) (hS : Nn 1022 S) (hs : Nn 1022 s) : SumDom K A (i + 1) (T + t) (S + s) := by
  obtain ⟨X, Y, e1, e2, X0, Y0, hX⟩ := H
  obtain ⟨x, y, e3, e4, x0, y0, hx⟩ := d
  have big : ∀ {a b : IE binary64} {p q : ℝ}, Nn 1022 a → Nn 1022 b → a.val = .fin p → b.val = .fin q → p + q ≤ 2 ^ (1023 : ℤ) := by
    intro a b p q ⟨p', ep, _, hp⟩ ⟨q', eq, _, hq⟩ ep' eq'
    rw [ep'] at ep; injection ep with ep; subst ep
    rw [eq'] at eq; injection eq with eq; subst eq
    rw [show (1023 : ℤ) = 1022 + 1 by norm_num, zpow_add₀ (by norm_num), zpow_one, mul_two]
    exact add_le_add hp hq
  refine ⟨_, _, add_fin e1 e3 X0 x0 (big hT ht e1 e3), add_fin e2 e4 Y0 y0 (big hS hs e2 e4),
    double64.near_nonneg (by positivity), double64.near_nonneg (by positivity), ?_⟩
  have h1 := near_up (add_nonneg X0 x0)
  have h2 := near_lo (add_nonneg Y0 y0)
  have g1 := grow_ge i
  have gs : grow (i + 1) = grow i * (1 + 2 ^ (-50 : ℤ)) := pow_succ _ _
  have e0 := eps_pos
  have n0 := double64.near_nonneg (add_nonneg Y0 y0)
  rw [gs]
  generalize double64.near (X + x) = P at *
  generalize double64.near (Y + y) = Q at *
  generalize grow i = g at *
  generalize eps = ε at *
  push_cast
  have i0 : (0 : ℝ) ≤ i := by positivity
  generalize (i : ℝ) = n at *
  -- the sum before rounding
  have s1 : X + x ≤ g * (K * (Y + y) + n * (A + K * ε + ε) + A) := by
    have : x ≤ g * (K * y + A) := hx.trans (le_mul_of_one_le_left (by positivity) g1)
    nlinarith
  have s2 : K * (Y + y) ≤ (1 + 2 ^ (-52 : ℤ)) * (K * Q + K * ε) := by
    have := mul_le_mul_of_nonneg_left h2 hK
    linarith
  set B := n * (A + K * ε + ε) with hB
  have B0 : 0 ≤ B := by positivity
  have s3 : K * (Y + y) + B + A ≤ (1 + 2 ^ (-52 : ℤ)) * (K * Q + K * ε + B + A) := by
    have : (0 : ℝ) ≤ 2 ^ (-52 : ℤ) * (B + A) := by positivity
    nlinarith
  have s4 : X + x ≤ g * ((1 + 2 ^ (-52 : ℤ)) * (K * Q + K * ε + B + A)) :=
    s1.trans (mul_le_mul_of_nonneg_left s3 (by linarith))
  set Z := K * Q + K * ε + B + A with hZ
  have Z0 : 0 ≤ Z := by positivity
  have s5 : (1 + (2 : ℝ) ^ (-53 : ℤ)) * (g * ((1 + 2 ^ (-52 : ℤ)) * Z)) ≤ g * (1 + 2 ^ (-50 : ℤ)) * Z := by
    have hc : (1 + (2 : ℝ) ^ (-53 : ℤ)) * (1 + 2 ^ (-52 : ℤ)) ≤ 1 + 2 ^ (-50 : ℤ) := by norm_num
    have : 0 ≤ g * Z := by positivity
    calc _ = ((1 + (2 : ℝ) ^ (-53 : ℤ)) * (1 + 2 ^ (-52 : ℤ))) * (g * Z) := by ring
      _ ≤ (1 + 2 ^ (-50 : ℤ)) * (g * Z) := mul_le_mul_of_nonneg_right hc this
      _ = _ := by ring
  have s6 : (1 + (2 : ℝ) ^ (-53 : ℤ)) * (X + x) ≤ (1 + (2 : ℝ) ^ (-53 : ℤ)) * (g * ((1 + 2 ^ (-52 : ℤ)) * Z)) :=
    mul_le_mul_of_nonneg_left s4 (by positivity)
  have s7 : ε ≤ g * (1 + 2 ^ (-50 : ℤ)) * ε := by
    refine le_mul_of_one_le_left e0.le ?_
    exact one_le_mul_of_one_le_of_one_le g1 (by norm_num)
  have fin : P ≤ g * (1 + 2 ^ (-50 : ℤ)) * Z + g * (1 + 2 ^ (-50 : ℤ)) * ε := by linarith
  refine fin.trans (le_of_eq ?_)
  rw [hZ, hB]; ring

/-- folds over the same list -/
theorem foldl_two {α β γ : Type} {f : β → α → β} {g : γ → α → γ} {P : ℕ → β → γ → Prop} :
    ∀ (l : List α) (n : ℕ) (a : β) (b : γ), n + l.length ≤ 2 ^ 32 → P n a b →
      (∀ s ∈ l, ∀ (n : ℕ) a b, n + 1 ≤ 2 ^ 32 → P n a b → P (n + 1) (f a s) (g b s)) →
      P (n + l.length) (l.foldl f a) (l.foldl g b)
  | [], n, a, b, _, h, _ => h
  | s :: l, n, a, b, hn, h, hf => by
    simp only [List.length_cons] at hn ⊢
    have := foldl_two l (n + 1) (f a s) (g b s) (by omega) (hf s (by simp) n a b (by omega) h) (fun s hs => hf s (by simp [hs]))
    rwa [show n + (l.length + 1) = n + 1 + l.length by omega]

/-- the bounds on one term -/
noncomputable def KK : ℝ := 2 ^ (270 : ℤ)
noncomputable def AA : ℝ := 2 ^ (-641 : ℤ)

theorem KK_pos : 0 < KK := by unfold KK; positivity
theorem AA_pos : 0 < AA := by unfold AA; positivity

/-- at the end -/
theorem SumDom.total {i : ℕ} (hi : i ≤ 2 ^ 32) {t s : IE binary64} (h : SumDom KK AA i t s) :
    Dom (2 ^ (271 : ℤ)) (2 ^ (-606 : ℤ)) t s := by
  have g2 := grow_le hi
  have g0 := grow_ge i
  refine h.mono ?_ ?_
  · calc grow i * KK ≤ 2 * KK := mul_le_mul_of_nonneg_right g2 KK_pos.le
      _ = _ := by unfold KK; rw [← zpow_one_add₀ (by norm_num)]; norm_num
  · have h1 : KK * eps + eps ≤ AA := by
      have e1 : KK * eps = 2 ^ (-751 : ℤ) := by unfold KK eps; rw [← zpow_add₀ (by norm_num)]; norm_num
      have e2 : eps ≤ 2 ^ (-751 : ℤ) := zle (by norm_num)
      have e3 : (2 : ℝ) ^ (-751 : ℤ) + 2 ^ (-751 : ℤ) = 2 ^ (-750 : ℤ) := by
        rw [← two_mul, ← zpow_one_add₀ (by norm_num)]; norm_num
      have e4 : (2 : ℝ) ^ (-750 : ℤ) ≤ AA := zle (by norm_num)
      rw [e1]
      exact (add_le_add le_rfl e2).trans (e3.le.trans e4)
    have p0 : 0 ≤ AA + KK * eps + eps := by
      have := mul_pos KK_pos eps_pos
      linarith [eps_pos, AA_pos]
    have hi' : (i : ℝ) ≤ 2 ^ (32 : ℤ) := by exact_mod_cast hi
    have h2 : (i : ℝ) * (AA + KK * eps + eps) ≤ 2 ^ (32 : ℤ) * (2 * AA) :=
      mul_le_mul hi' (by linarith) p0 (by positivity)
    calc grow i * (i * (AA + KK * eps + eps)) ≤ 2 * (2 ^ (32 : ℤ) * (2 * AA)) :=
          mul_le_mul g2 h2 (mul_nonneg (Nat.cast_nonneg i) p0) (by norm_num)
      _ = 2 ^ (34 : ℤ) * AA := by norm_num; ring
      _ = 2 ^ (-607 : ℤ) := by unfold AA; rw [← zpow_add₀ (by norm_num)]; norm_num
      _ ≤ _ := zle (by norm_num)

/-- **a ratio of sums is finite** -/
theorem ratio_nn {h' : ℤ} {a a' : IE binary64} (s' : Nn h' a') (hh : h' ≤ 1022)
    (d : Dom (2 ^ (271 : ℤ)) (2 ^ (-606 : ℤ)) a a') : Nn 416 (Robust.ratio a a') := by
  unfold Robust.ratio
  rw [sgn_nn s']
  obtain ⟨x, y, e, e', h0, h0', hx⟩ := d
  obtain ⟨y1, ey1, -, hy⟩ := s'
  rw [e'] at ey1; injection ey1 with ey1; subst ey1
  obtain ⟨b, sb⟩ := small_sim
  have sm : Sim (-1019) (-1018) (lit (1 : ℤ) * Robust.SMALL : IE binary64) (lit 1 * b) := by
    have := (Sim.lit ((1 : ℤ) : ℚ) 0 0).mul sb
    simpa [Robust.SMALL] using this
  have hS := sm.2.1
  have hS2 := sm.2.2
  have e1 := sm.1
  generalize (lit 1 * b : Fl rd64).val = S at hS hS2 e1
  have S0 : 0 < S := lt_of_lt_of_le (by positivity) hS
  have h2 : y + S ≤ 2 ^ (1023 : ℤ) := by
    have h3 := hS2.trans (zle (show (-1018 : ℤ) ≤ 1022 by norm_num))
    have h4 := hy.trans (zle hh)
    have e2 : (2 : ℝ) ^ (1023 : ℤ) = 2 ^ (1022 : ℤ) + 2 ^ (1022 : ℤ) := by
      rw [show (1023 : ℤ) = 1022 + 1 by norm_num, zpow_add₀ (by norm_num)]; ring
    rw [e2]; exact add_le_add h4 h3
  have ed : (a' + lit (1 : ℤ) * Robust.SMALL : IE binary64).val = .fin (double64.near (y + S)) :=
    add_fin e' e1 h0' S0.le h2
  have lo := near_lo2 (add_nonneg h0' S0.le)
  have hS4 : 4 * eps ≤ S := by
    refine le_trans (le_of_eq ?_) hS
    unfold eps
    rw [show (4 : ℝ) = 2 ^ (2 : ℤ) by norm_num, ← zpow_add₀ (by norm_num)]; norm_num
  have hd : (y + S) / 4 ≤ double64.near (y + S) := by linarith
  generalize double64.near (y + S) = D at *
  have D0 : 0 < D := lt_of_lt_of_le (by positivity) hd
  have q : x / D ≤ 2 ^ (416 : ℤ) := by
    rw [div_le_iff₀ D0]
    have k1 : (2 : ℝ) ^ (416 : ℤ) * ((y + S) / 4) ≤ 2 ^ (416 : ℤ) * D := mul_le_mul_of_nonneg_left hd (by positivity)
    refine le_trans ?_ k1
    have k2 : (2 : ℝ) ^ (416 : ℤ) * ((y + S) / 4) = 2 ^ (414 : ℤ) * y + 2 ^ (414 : ℤ) * S := by
      rw [show (416 : ℤ) = 414 + 2 by norm_num, zpow_add₀ (by norm_num)]; norm_num; ring
    rw [k2]
    refine hx.trans (add_le_add (mul_le_mul_of_nonneg_right (zle (by norm_num)) h0') ?_)
    have k3 : (2 : ℝ) ^ (414 : ℤ) * 2 ^ (-1019 : ℤ) = 2 ^ (-605 : ℤ) := by rw [← zpow_add₀ (by norm_num)]; norm_num
    have k4 : (2 : ℝ) ^ (414 : ℤ) * 2 ^ (-1019 : ℤ) ≤ 2 ^ (414 : ℤ) * S := mul_le_mul_of_nonneg_left hS (by positivity)
    rw [k3] at k4
    exact (zle (by norm_num)).trans k4
  refine Nn.round (x := x / D) (by positivity) q (by norm_num) (by norm_num) ?_
  show IE.round binary64 (XR.div a.val (a' + lit (1 : ℤ) * Robust.SMALL : IE binary64).val) = _
  rw [e, ed]; simp [XR.div, D0.ne', IE.round]

/-- the stored logarithm of a finite mean -/
theorem toLog_fin {h : ℤ} {a : IE binary64} (s : Nn h a) (hh : h ≤ 420) :
    ∃ y, (ToLog a).val = .fin y ∧ -307 ≤ y ∧ y ≤ 128 := by
  obtain ⟨c, sc⟩ := small_sim
  obtain ⟨x, e, x0, hx⟩ := s
  have sx : Bits (-1019) 421 (x + c.val) := by
    have e2 : (2 : ℝ) ^ (421 : ℤ) = 2 ^ (420 : ℤ) + 2 ^ (420 : ℤ) := by
      rw [show (421 : ℤ) = 420 + 1 by norm_num, zpow_add₀ (by norm_num)]; ring
    refine ⟨by linarith [sc.2.1], ?_⟩
    rw [e2]; exact add_le_add (hx.trans (zle hh)) (sc.2.2.trans (zle (by omega)))
  have nb := near_bits (by omega) (by omega) sx
  have hv : (abs a + lit 10 * dmin : IE binary64).val = .fin (double64.near (x + c.val)) := by
    show IE.round binary64 (XR.add (XR.lift _ _ _ a.val) (lit 10 * dmin : IE binary64).val) = _
    rw [e, sc.1]
    show binary64.rd (|x| + c.val) = _
    rw [abs_of_nonneg x0]
    exact rd_near (by rw [abs_of_pos (by linarith [sc.pos])]; exact sx.2.trans (zle (by omega)))
  generalize double64.near (x + c.val) = z at *
  have hz : 0 < z := lt_of_lt_of_le (by positivity) nb.1
  have l10 : 0 < Real.log 10 := Real.log_pos (by norm_num)
  have b1 : ((-1019 : ℤ) : ℝ) * Real.log 2 ≤ Real.log z := by
    have := Real.log_le_log (by positivity) nb.1
    rwa [Real.log_zpow] at this
  have b2 : Real.log z ≤ ((421 : ℤ) : ℝ) * Real.log 2 := by
    have := Real.log_le_log hz nb.2
    rwa [Real.log_zpow] at this
  push_cast at b1 b2
  obtain ⟨-, c2⟩ := log_two_ten
  have r1 : -306.8 ≤ Real.logb 10 z := by
    show _ ≤ Real.log z / Real.log 10
    rw [le_div_iff₀ l10]
    linarith
  have r2 : Real.logb 10 z ≤ 127 := by
    show Real.log z / Real.log 10 ≤ _
    rw [div_le_iff₀ l10]
    linarith
  have r3 : |Real.logb 10 z| ≤ 1000 := by rw [abs_le]; constructor <;> linarith
  have er := abs_le.1 (near_mid r3)
  refine ⟨double64.near (Real.logb 10 z), ?_, by linarith [er.1], by linarith [er.2]⟩
  show XR.lift (fun x => if 0 < x then binary64.log10 x else if x = 0 then .ninf else .nan) .nan .pinf
      (abs a + lit 10 * dmin : IE binary64).val = _
  rw [hv]
  simp only [XR.lift, hz, if_true]
  exact rd_mid r3

/-! ### terms -/

/-- with powers of two -/
theorem Dom.mul2 {k a m h W : ℤ} {t s w : IE binary64} (d : Dom (2 ^ k) (2 ^ a * eps) t s) (st : Nn h t) (ss : Nn h s) (sw : Nn W w)
    (hh : h + W ≤ 1023) (hk : k + 4 ≤ m) (ha : a + W + 3 ≤ m) (hm : 2 ≤ m) : Dom (2 ^ (k + 2)) (2 ^ m * eps) (t * w) (s * w) := by
  have e := eps_pos
  refine (d.mul (by positivity) (by positivity) st ss sw hh).mono ?_ ?_
  · rw [zpow_add₀ (by norm_num), mul_comm]; norm_num
  · have e0 : 4 * (2 : ℝ) ^ k ≤ 2 ^ (m - 2) := by
      rw [show (4 : ℝ) = 2 ^ (2 : ℤ) by norm_num, ← zpow_add₀ (by norm_num)]; exact zle (by omega)
    have e1 : 2 * (2 : ℝ) ^ a * 2 ^ W ≤ 2 ^ (m - 2) := by
      rw [← zpow_one_add₀ (by norm_num), ← zpow_add₀ (by norm_num)]; exact zle (by omega)
    have e2 : (1 : ℝ) ≤ 2 ^ (m - 2) := one_le_zpow₀ (by norm_num) (by omega)
    have e3 : (2 : ℝ) ^ m = 4 * 2 ^ (m - 2) := by
      rw [show (4 : ℝ) = 2 ^ (2 : ℤ) by norm_num, ← zpow_add₀ (by norm_num)]; congr 1; omega
    have p0 : (0 : ℝ) < 2 ^ (m - 2) := by positivity
    have f0 := mul_le_mul_of_nonneg_right e0 e.le
    have f1 := mul_le_mul_of_nonneg_right e1 e.le
    have f2 := mul_le_mul_of_nonneg_right e2 e.le
    rw [e3]
    generalize (2 : ℝ) ^ (m - 2) = M at *
    have : 2 * (2 ^ a * eps) * 2 ^ W = 2 * 2 ^ a * 2 ^ W * eps := by ring
    have := mul_pos p0 e
    linarith

/-- the bound all terms meet -/
theorem Dom.all {k a : ℤ} {t s : IE binary64} (d : Dom (2 ^ k) (2 ^ a * eps) t s) (hk : k ≤ 270) (ha : a ≤ 380) : Dom KK AA t s :=
  d.mono (zle hk) (by
    unfold eps AA
    rw [← zpow_add₀ (by norm_num)]; exact zle (by omega))

theorem Dom.left2 {k h : ℤ} {a s : IE binary64} (sa : Nn k a) (ss : Nn h s) (hh : k + h ≤ 1023) :
    Dom (2 ^ (k + 1)) (2 ^ (0 : ℤ) * eps) (a * s) s := by
  simpa using Dom.left sa ss hh

variable {rho alpha B w v : IE binary64} {rho' alpha' : Fl rd64}

/-- photons: one term of the Planck mean -/
theorem photon_planck (sr : Sim (-60) 60 rho rho') (sa : Nn 200 alpha) (sB : Nn 500 B) (sw : Nn 111 w) :
    Dom KK AA (alpha / rho * B * w) (B * w) := by
  have k := (sa.div sr).mono (h' := 260) (by norm_num)
  exact ((Dom.left2 k sB (by norm_num)).mul2 (m := 300) (k.mul sB) (sB.mono (by norm_num)) sw (by norm_num) (by norm_num)
    (by norm_num) (by norm_num)).all (by norm_num) (by norm_num)

/-- photons: one term of the Rosseland mean -/
theorem photon_rosseland (sr : Sim (-60) 60 rho rho') (sa : Sim (-270) 200 alpha alpha') (sB : Nn 500 B) (sw : Nn 111 w) :
    Dom KK AA (B * w) (Robust.ratio rho alpha * B * w) := by
  have k := ratio_sim sr sa
  exact ((Dom.right k sB (by norm_num)).mul2 (m := 380) (sB.mono (by norm_num)) ((Nn.sim k).mul sB) sw (by norm_num) (by norm_num)
    (by norm_num) (by norm_num)).all (by norm_num) (by norm_num)

/-- neutrinos: one term of the Planck mean -/
theorem neutrino_planck (sr : Sim (-60) 60 rho rho') (sa : Nn 200 alpha) (sB : Nn 500 B) (sv : Nn 101 v) (sw : Nn 10 w) :
    Dom KK AA (alpha / rho * B * v * w) (B * v * w) := by
  have k := (sa.div sr).mono (h' := 260) (by norm_num)
  have d := (Dom.left2 k sB (by norm_num)).mul2 (m := 300) (k.mul sB) (sB.mono (by norm_num)) sv (by norm_num) (by norm_num)
    (by norm_num) (by norm_num)
  exact (d.mul2 (m := 380) ((k.mul sB).mul sv) ((sB.mul sv).mono (by norm_num)) sw (by norm_num) (by norm_num)
    (by norm_num) (by norm_num)).all (by norm_num) (by norm_num)

/-- neutrinos: one term of the Rosseland mean -/
theorem neutrino_rosseland (sr : Sim (-60) 60 rho rho') (sa : Sim (-270) 200 alpha alpha') (sB : Nn 500 B) (sv : Nn 101 v)
    (sw : Nn 10 w) : Dom KK AA (B * v * w) (Robust.ratio rho alpha * B * v * w) := by
  have k := ratio_sim sr sa
  have d := (Dom.right k sB (by norm_num)).mul2 (m := 366) (sB.mono (by norm_num)) ((Nn.sim k).mul sB) sv (by norm_num) (by norm_num)
    (by norm_num) (by norm_num)
  exact (d.mul2 (m := 380) ((sB.mul sv).mono (by norm_num)) (((Nn.sim k).mul sB).mul sv) sw (by norm_num) (by norm_num)
    (by norm_num) (by norm_num)).all (by norm_num) (by norm_num)

end Opac.Doubles
