import Verif.Lemmas.MeanDoubles

/-! Logarithmic axes in double precision. -/

namespace Opac.Doubles
open Arith Photons

theorem rd_err (x : ℝ) : |double64.near x - x| ≤ 2 ^ (-53 : ℤ) * |x| + 2 ^ (-1021 : ℤ) := by
  by_cases h : 2 ^ (-1022 : ℤ) ≤ |x|
  · have := near_err h
    have : (0 : ℝ) ≤ 2 ^ (-1021 : ℤ) := by positivity
    linarith
  · have hx := abs_le.1 (not_le.1 h).le
    have h1 : double64.near x ≤ 2 ^ (-1022 : ℤ) := by
      rw [← near_two (h := -1022) (by norm_num)]; exact double64.near_mono hx.2
    have h2 : -2 ^ (-1022 : ℤ) ≤ double64.near x := by
      rw [← near_two (h := -1022) (by norm_num), ← double64.near_neg]; exact double64.near_mono hx.1
    have e2 : (2 : ℝ) ^ (-1021 : ℤ) = 2 ^ (-1022 : ℤ) + 2 ^ (-1022 : ℤ) := by
      rw [show (-1021 : ℤ) = -1022 + 1 by norm_num, zpow_add₀ (by norm_num)]; ring
    have h3 : 0 ≤ (2 : ℝ) ^ (-53 : ℤ) * |x| := by positivity
    rw [e2]
    obtain ⟨h4, h5⟩ := hx
    generalize (2 : ℝ) ^ (-1022 : ℤ) = e at *
    rw [abs_le]
    constructor <;> linarith

theorem tiny : (2 : ℝ) ^ (-1021 : ℤ) ≤ 1e-30 := (zle (show (-1021 : ℤ) ≤ -100 by norm_num)).trans (by norm_num)

/-- absolute error of rounding a number of moderate size -/
theorem near_mid {x : ℝ} (h : |x| ≤ 1000) : |double64.near x - x| ≤ 1e-12 := by
  refine (rd_err x).trans ?_
  have h1 : (2 : ℝ) ^ (-53 : ℤ) * |x| ≤ 2 ^ (-53 : ℤ) * 1000 := by gcongr
  have h2 : (2 : ℝ) ^ (-53 : ℤ) * 1000 ≤ 5e-13 := by norm_num
  linarith [tiny]

theorem rd_mid {x : ℝ} (h : |x| ≤ 1000) : binary64.rd x = .fin (double64.near x) :=
  rd_near (h.trans ((show (1000 : ℝ) ≤ 2 ^ (10 : ℤ) by norm_num).trans (zle (by norm_num))))

theorem lit_int {N : ℤ} (h0 : 0 ≤ N) (h : N ≤ 2 ^ 53) : (lit (N : ℚ) : IE binary64).val = .fin N := by
  obtain ⟨n, rfl⟩ := Int.eq_ofNat_of_zero_le h0
  have := lit_nat (n := n) (by exact_mod_cast h)
  simpa using this

/-- points on an axis from `a` to `b` stay on the axis up to 1e-9 -/
theorem line {a b : ℝ} (hab : a ≤ b) (ha : -400 ≤ a) (hb : b ≤ 400) {A B : IE binary64} (hA : A.val = .fin a)
    (hB : B.val = .fin b) {N : ℤ} (hN : 1 ≤ N) (hN' : N ≤ 2 ^ 31) :
    ∃ d, ((B - A) / lit (N : ℚ) : IE binary64).val = .fin d ∧ 0 ≤ d ∧ d ≤ 2 ^ (10 : ℤ) ∧
      ∀ {t : IE binary64} {τ : ℝ}, t.val = .fin τ → 0 ≤ τ → τ ≤ N →
        ∃ p, (t * ((B - A) / lit (N : ℚ)) : IE binary64).val = .fin p ∧
          ∃ v, binary64.rd (a + p) = .fin v ∧ a - 1e-9 ≤ v ∧ v ≤ b + 1e-9 := by
  have hNr : (1 : ℝ) ≤ N := by exact_mod_cast hN
  have hNr' : (N : ℝ) ≤ 3e9 := by
    have : (N : ℝ) ≤ 2 ^ 31 := by exact_mod_cast hN'
    linarith [show (2 : ℝ) ^ 31 ≤ 3e9 by norm_num]
  set m := double64.near (b - a) with hm
  have hba : |b - a| ≤ 1000 := by rw [abs_of_nonneg (by linarith)]; linarith
  have m0 : 0 ≤ m := double64.near_nonneg (by linarith)
  have e1 : (B - A : IE binary64).val = .fin m := by
    show IE.round binary64 (XR.add B.val (XR.neg A.val)) = _
    rw [hA, hB]
    show binary64.rd (b + -a) = _
    rw [← sub_eq_add_neg]; exact rd_mid hba
  have em := abs_le.1 (near_mid hba)
  rw [← hm] at em
  have hm90 : m ≤ 801 := by linarith
  set d := double64.near (m / N) with hd
  have q0 : 0 ≤ m / N := by positivity
  have qm : m / N ≤ m := div_le_self m0 hNr
  have d0 : 0 ≤ d := double64.near_nonneg q0
  have hq : |m / N| ≤ 1000 := by rw [abs_of_nonneg q0]; linarith
  have e2 : ((B - A) / lit (N : ℚ) : IE binary64).val = .fin d := by
    show IE.round binary64 (XR.div (B - A : IE binary64).val (lit (N : ℚ) : IE binary64).val) = _
    rw [e1, lit_int (by omega) (by omega)]
    have : (N : ℝ) ≠ 0 := by positivity
    simp only [XR.div, this, if_false, IE.round]
    exact rd_mid hq
  have ed := abs_le.1 (rd_err (m / N))
  rw [← hd, abs_of_nonneg q0] at ed
  have hu : (2 : ℝ) ^ (-53 : ℤ) ≤ 2e-16 := by norm_num
  have hu0 : (0 : ℝ) ≤ 2 ^ (-53 : ℤ) := by positivity
  have ht := tiny
  generalize (2 : ℝ) ^ (-53 : ℤ) = u at *
  generalize (2 : ℝ) ^ (-1021 : ℤ) = ε at *
  have d1 : d ≤ m / N * (1 + u) + ε := by linarith [ed.2]
  have u1 : m / N * (1 + u) ≤ 801 * (1 + 2e-16) := by
    have : m / N ≤ 801 := by linarith
    gcongr
  have d2 : d ≤ 1000 := by linarith [show (801 : ℝ) * (1 + 2e-16) + 1e-30 ≤ 1000 by norm_num]
  -- the whole axis
  have nd : N * d ≤ m + 1e-11 := by
    have h1 : (N : ℝ) * d ≤ N * (m / N * (1 + u) + ε) := by gcongr
    have h2 : (N : ℝ) * (m / N * (1 + u) + ε) = m + m * u + N * ε := by
      have : (N : ℝ) ≠ 0 := by positivity
      field_simp
    have h3 : m * u ≤ 801 * 2e-16 := by gcongr
    have h4 : (N : ℝ) * ε ≤ 3e9 * 1e-30 := by
      have : (0 : ℝ) ≤ 1e-30 := by norm_num
      calc (N : ℝ) * ε ≤ N * 1e-30 := by gcongr
        _ ≤ 3e9 * 1e-30 := by gcongr
    rw [h2] at h1
    linarith [show (801 : ℝ) * 2e-16 + 3e9 * 1e-30 ≤ 1e-11 by norm_num]
  refine ⟨d, e2, d0, d2.trans (by norm_num), ?_⟩
  intro t τ et t0 tN
  have p0 : 0 ≤ τ * d := by positivity
  have p1 : τ * d ≤ N * d := by gcongr
  have hp : |τ * d| ≤ 1000 := by rw [abs_of_nonneg p0]; linarith
  refine ⟨double64.near (τ * d), ?_, ?_⟩
  · show IE.round binary64 (XR.mul t.val ((B - A) / lit (N : ℚ) : IE binary64).val) = _
    rw [et, e2]
    exact rd_mid hp
  have ep := abs_le.1 (near_mid hp)
  have pp : 0 ≤ double64.near (τ * d) := double64.near_nonneg p0
  generalize double64.near (τ * d) = p at *
  have hs : |a + p| ≤ 1000 := by rw [abs_le]; constructor <;> linarith
  have es := abs_le.1 (near_mid hs)
  refine ⟨_, rd_mid hs, ?_, ?_⟩ <;> linarith

/-! ### powers of ten -/

theorem log_two_ten : 31 * Real.log 10 ≤ 103 * Real.log 2 ∧ 93 * Real.log 2 ≤ 28 * Real.log 10 := by
  constructor
  · have : Real.log (10 ^ 31) ≤ Real.log (2 ^ 103) := Real.log_le_log (by norm_num) (by norm_num)
    rw [Real.log_pow, Real.log_pow] at this
    exact_mod_cast this
  · have : Real.log (2 ^ 93) ≤ Real.log (10 ^ 28) := Real.log_le_log (by norm_num) (by norm_num)
    rw [Real.log_pow, Real.log_pow] at this
    exact_mod_cast this

/-- the number with logarithm `y` -/
theorem fromLog_val {a : IE binary64} {y : ℝ} (e : a.val = .fin y) {l h : ℤ} (h1 : l * (31 / 103) ≤ y)
    (h2 : y ≤ h * (31 / 103)) (l0 : l ≤ 0 := by norm_num) (h0 : 0 ≤ h := by norm_num) (hl : -1022 ≤ l := by norm_num)
    (hh : h ≤ 1023 := by norm_num) : Sim l h (FromLog a) (⟨rd64 (10 ^ y)⟩ : Fl rd64) := by
  have e10 : (lit 10 : Fl rd64).val = 10 := by
    show rd64 ((10 : ℚ) : ℝ) = 10
    have := rd64_binary.ints 10 (by norm_num)
    simpa using this
  have h10 : Real.logb 2 10 = Real.log 10 / Real.log 2 := rfl
  have l2 : 0 < Real.log 2 := Real.log_pos (by norm_num)
  have l10 : 0 < Real.log 10 := Real.log_pos (by norm_num)
  obtain ⟨c, -⟩ := log_two_ten
  have l0' : (l : ℝ) ≤ 0 := by exact_mod_cast l0
  have h0' : (0 : ℝ) ≤ h := by exact_mod_cast h0
  have ep : (Arith.pow (lit 10) ⟨y⟩ : Fl rd64) = ⟨rd64 (10 ^ y)⟩ := by
    show (⟨rd64 ((lit 10 : Fl rd64).val ^ y)⟩ : Fl rd64) = _
    rw [e10]
  rw [← ep]
  refine Sim.pow (b := lit 10) (q := ⟨y⟩) (Sim.lit 10 3 4) e ?_ ?_ hl hh
  · show (l : ℝ) ≤ y * Real.logb 2 (lit 10 : Fl rd64).val
    rw [e10, h10, mul_div_assoc', le_div_iff₀ l2]
    have := mul_le_mul_of_nonneg_right h1 l10.le
    nlinarith
  · show y * Real.logb 2 (lit 10 : Fl rd64).val ≤ h
    rw [e10, h10, mul_div_assoc', div_le_iff₀ l2]
    have := mul_le_mul_of_nonneg_right h2 l10.le
    nlinarith

theorem fromLog_sim {a : IE binary64} {y : ℝ} (e : a.val = .fin y) {l h : ℤ} (h1 : l * (31 / 103) ≤ y)
    (h2 : y ≤ h * (31 / 103)) (l0 : l ≤ 0 := by norm_num) (h0 : 0 ≤ h := by norm_num) (hl : -1022 ≤ l := by norm_num)
    (hh : h ≤ 1023 := by norm_num) : ∃ b, Sim l h (FromLog a) b := ⟨_, fromLog_val e h1 h2 l0 h0 hl hh⟩

/-- the logarithm of a number -/
theorem toLog_sim {a : IE binary64} {b : Fl rd64} {l h : ℤ} (s : Sim l h a b) (l0 : l ≤ 0 := by norm_num)
    (h0 : 0 ≤ h := by norm_num) (hl : -1000 ≤ l := by norm_num) (hh : h ≤ 1020 := by norm_num) :
    ∃ y, (ToLog a).val = .fin y ∧ l * (28 / 93) - 1e-11 ≤ y ∧ y ≤ (h + 1 : ℤ) * (28 / 93) + 1e-11 ∧
      ∀ {a' : IE binary64} {b' : Fl rd64}, Sim l h a' b' → b.val ≤ b'.val → ∃ y', (ToLog a').val = .fin y' ∧ y ≤ y' := by
  obtain ⟨c, sc⟩ := small_sim
  have l2 : 0 < Real.log 2 := Real.log_pos (by norm_num)
  have l10 : 0 < Real.log 10 := Real.log_pos (by norm_num)
  have key : ∀ {a : IE binary64} {b : Fl rd64}, Sim l h a b →
      0 < double64.near (b.val + c.val) ∧ |Real.logb 10 (double64.near (b.val + c.val))| ≤ 1000 ∧
      (ToLog a).val = .fin (double64.near (Real.logb 10 (double64.near (b.val + c.val)))) ∧
      l * (28 / 93) ≤ Real.logb 10 (double64.near (b.val + c.val)) ∧
      Real.logb 10 (double64.near (b.val + c.val)) ≤ (h + 1 : ℤ) * (28 / 93) := by
    intro a b s
    have sx : Bits l (h + 1) (b.val + c.val) := by
      have e2 : (2 : ℝ) ^ (h + 1) = 2 ^ h + 2 ^ h := by rw [zpow_add₀ (by norm_num)]; ring
      refine ⟨by linarith [s.2.1, sc.pos], ?_⟩
      rw [e2]; exact add_le_add s.2.2 (sc.2.2.trans (zle (by omega)))
    have nb := near_bits (by omega) (by omega) sx
    have hv : (abs a + lit 10 * dmin : IE binary64).val = .fin (double64.near (b.val + c.val)) := by
      show IE.round binary64 (XR.add (XR.lift _ _ _ a.val) (lit 10 * dmin : IE binary64).val) = _
      rw [s.1, sc.1]
      show binary64.rd (|b.val| + c.val) = _
      rw [abs_of_pos s.pos]
      exact rd_near (by rw [abs_of_pos (add_pos s.pos sc.pos)]; exact sx.2.trans (zle (by omega)))
    generalize double64.near (b.val + c.val) = x at *
    have hx : 0 < x := lt_of_lt_of_le (by positivity) nb.1
    have b1 : (l : ℝ) * Real.log 2 ≤ Real.log x := by
      have := Real.log_le_log (by positivity) nb.1
      rwa [Real.log_zpow] at this
    have b2 : Real.log x ≤ ((h + 1 : ℤ) : ℝ) * Real.log 2 := by
      have := Real.log_le_log hx nb.2
      rwa [Real.log_zpow] at this
    obtain ⟨-, c2⟩ := log_two_ten
    have l0' : (l : ℝ) ≤ 0 := by exact_mod_cast l0
    have h0' : (0 : ℝ) ≤ ((h + 1 : ℤ) : ℝ) := by exact_mod_cast (by omega : 0 ≤ h + 1)
    have r1 : l * (28 / 93) ≤ Real.logb 10 x := by
      show _ ≤ Real.log x / Real.log 10
      rw [le_div_iff₀ l10]
      nlinarith
    have r2 : Real.logb 10 x ≤ (h + 1 : ℤ) * (28 / 93) := by
      show Real.log x / Real.log 10 ≤ _
      rw [div_le_iff₀ l10]
      nlinarith
    have hl' : (-1000 : ℝ) ≤ l := by exact_mod_cast hl
    have hh' : ((h + 1 : ℤ) : ℝ) ≤ 1021 := by exact_mod_cast (by omega : h + 1 ≤ 1021)
    have r3 : |Real.logb 10 x| ≤ 1000 := by rw [abs_le]; constructor <;> linarith
    refine ⟨hx, r3, ?_, r1, r2⟩
    show XR.lift (fun x => if 0 < x then binary64.log10 x else if x = 0 then .ninf else .nan) .nan .pinf
        (abs a + lit 10 * dmin : IE binary64).val = _
    rw [hv]
    simp only [XR.lift, hx, if_true]
    exact rd_mid r3
  obtain ⟨k1, k2, k3, k4, k5⟩ := key s
  have er := abs_le.1 (near_mid k2)
  refine ⟨_, k3, by linarith [er.1], by linarith [er.2], ?_⟩
  intro a' b' s' hb
  obtain ⟨k1', -, k3', -⟩ := key s'
  refine ⟨_, k3', double64.near_mono ?_⟩
  exact Real.logb_le_logb_of_le (by norm_num) k1 (double64.near_mono (by linarith))

end Opac.Doubles
