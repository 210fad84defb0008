import Verif.Model.Binary
import Verif.Spec.Built

/-! # C54: special values of the thermal spectra in floating point -/

namespace Opac
open Arith

namespace IE
variable {F : FloatFormat}

/-- a value that is not NaN and not negative -/
def NonNeg (v : XR) : Prop := v = .pinf ∨ ∃ y, 0 ≤ y ∧ v = .fin y
/-- a finite nonnegative value -/
def FinNonNeg (v : XR) : Prop := ∃ y, 0 ≤ y ∧ v = .fin y
/-- a finite positive value -/
def FinPos (v : XR) : Prop := ∃ y, 0 < y ∧ v = .fin y
/-- a positive value, perhaps infinite -/
def Pos (v : XR) : Prop := v = .pinf ∨ ∃ y, 0 < y ∧ v = .fin y
/-- an exactly representable value -/
def Rep (F : FloatFormat) (v : XR) : Prop := ∀ x, v = .fin x → F.rd x = .fin x

theorem NonNeg.round {v : XR} (h : NonNeg v) : NonNeg (round F v) := by
  rcases h with rfl | ⟨y, hy, rfl⟩
  · exact .inl rfl
  · exact F.rd_nonneg y hy

theorem rep_round (v : XR) : Rep F (IE.round F v) := by
  cases v with
  | fin x => intro y hy; exact F.rd_idem x y hy
  | nan | ninf | pinf => intro y hy; simp [IE.round] at hy

theorem FinNonNeg.mul {a b : IE F} (ha : FinNonNeg a.val) (hb : FinNonNeg b.val) : NonNeg (a * b).val := by
  obtain ⟨x, hx, ex⟩ := ha; obtain ⟨y, hy, ey⟩ := hb
  show NonNeg (IE.round F (XR.mul a.val b.val))
  rw [ex, ey]
  exact F.rd_nonneg _ (mul_nonneg hx hy)

theorem not_nan {a : IE F} (h : NonNeg a.val) : isNaN a = false := by
  show (match a.val with | .nan => true | _ => false) = false
  rcases h with h | ⟨y, -, h⟩ <;> rw [h]

theorem isNaN_of {a : IE F} (h : a.val = .nan) : isNaN a = true := by
  show (match a.val with | .nan => true | _ => false) = true
  rw [h]

theorem val_of_nan {a : IE F} (h : isNaN a = true) : a.val = .nan := by
  revert h
  show (match a.val with | .nan => true | _ => false) = true → _
  cases a.val <;> simp

/-- the value of zero -/
def IsZero (a : IE F) : Prop := a.val = .fin 0

theorem nan_div_left {a b : IE F} (h : a.val = .nan) : (a / b).val = .nan := by
  show IE.round F (XR.div a.val b.val) = .nan
  rw [h]; rfl
theorem nan_div_right {a b : IE F} (h : b.val = .nan) : (a / b).val = .nan := by
  show IE.round F (XR.div a.val b.val) = .nan
  rw [h]; cases a.val <;> rfl
theorem nan_mul_left {a b : IE F} (h : a.val = .nan) : (a * b).val = .nan := by
  show IE.round F (XR.mul a.val b.val) = .nan
  rw [h]; rfl
theorem nan_mul_right {a b : IE F} (h : b.val = .nan) : (a * b).val = .nan := by
  show IE.round F (XR.mul a.val b.val) = .nan
  rw [h]; cases a.val <;> rfl

/-- a product with zero is zero or NaN -/
theorem mul_zero_right {a b : IE F} (h : b.val = .fin 0) : (a * b).val = .fin 0 ∨ (a * b).val = .nan := by
  show IE.round F (XR.mul a.val b.val) = _ ∨ IE.round F (XR.mul a.val b.val) = _
  rw [h]
  cases a.val with
  | fin x => left; simp [XR.mul, IE.round, F.rd_zero]
  | nan => right; rfl
  | ninf => right; simp [XR.mul, XR.signInf, IE.round]
  | pinf => right; simp [XR.mul, XR.signInf, IE.round]

/-- zero divided by anything is zero or NaN -/
theorem zero_div {a b : IE F} (h : a.val = .fin 0) : (a / b).val = .fin 0 ∨ (a / b).val = .nan := by
  show IE.round F (XR.div a.val b.val) = _ ∨ IE.round F (XR.div a.val b.val) = _
  rw [h]
  cases b.val with
  | fin x =>
    by_cases hx : x = 0
    · right; simp [XR.div, hx, XR.signInf, IE.round]
    · left; simp [XR.div, hx, IE.round, F.rd_zero]
  | nan => right; rfl
  | ninf => left; simp [XR.div, IE.round, F.rd_zero]
  | pinf => left; simp [XR.div, IE.round, F.rd_zero]

/-- zero or NaN -/
def ZN (a : IE F) : Prop := a.val = .fin 0 ∨ a.val = .nan
theorem ZN.mul_right {a b : IE F} (h : ZN b) : ZN (a * b) := by
  rcases h with h | h
  · exact mul_zero_right h
  · exact .inr (nan_mul_right h)
theorem ZN.mul_left {a b : IE F} (h : ZN a) : ZN (a * b) := by
  rcases h with h | h
  · show IE.round F (XR.mul a.val b.val) = _ ∨ IE.round F (XR.mul a.val b.val) = _
    rw [h]
    cases b.val with
    | fin x => left; simp [XR.mul, IE.round, F.rd_zero]
    | nan => right; rfl
    | ninf => right; simp [XR.mul, XR.signInf, IE.round]
    | pinf => right; simp [XR.mul, XR.signInf, IE.round]
  · exact .inr (nan_mul_left h)
theorem ZN.div {a b : IE F} (h : ZN a) : ZN (a / b) := by
  rcases h with h | h
  · exact zero_div h
  · exact .inr (nan_div_left h)
/-- zero or NaN divided by zero or NaN is NaN -/
theorem ZN.div_nan {a b : IE F} (ha : ZN a) (hb : ZN b) : (a / b).val = .nan := by
  show IE.round F (XR.div a.val b.val) = .nan
  rcases ha with h | h <;> rcases hb with h' | h' <;> rw [h, h'] <;> simp [XR.div, XR.signInf, IE.round]
theorem ZN.expm1 {a : IE F} (h : ZN a) : ZN (expm1 a) := by
  show XR.lift _ _ _ a.val = _ ∨ XR.lift _ _ _ a.val = _
  rcases h with h | h <;> rw [h]
  · exact .inl F.expm1_zero
  · exact .inr rfl
theorem ZN.neg {a : IE F} (h : ZN a) : ZN (-a) := by
  show XR.neg a.val = _ ∨ XR.neg a.val = _
  rcases h with h | h <;> rw [h] <;> simp [XR.neg]

theorem div_pos_val {a b : IE F} (ha : FinNonNeg a.val) (hb : Pos b.val) : NonNeg (a / b).val := by
  show NonNeg (IE.round F (XR.div a.val b.val))
  obtain ⟨x, hx, ex⟩ := ha
  rw [ex]
  rcases hb with hb | ⟨y, hy, hb⟩ <;> rw [hb]
  · exact F.rd_nonneg _ le_rfl
  · simp only [XR.div, hy.ne', if_false]
    exact F.rd_nonneg _ (div_nonneg hx hy.le)

theorem rep_mul (a b : IE F) : Rep F (a * b).val := rep_round _
theorem rep_div (a b : IE F) : Rep F (a / b).val := rep_round _

/-- a finite factor times a number at most one stays finite -/
theorem mul_le_one {a b : IE F} (ha : FinNonNeg a.val) (hr : Rep F a.val)
    (hb : ∃ y, 0 ≤ y ∧ y ≤ 1 ∧ b.val = .fin y) : FinNonNeg (a * b).val := by
  obtain ⟨x, hx, ex⟩ := ha
  obtain ⟨y, h0, h1, ey⟩ := hb
  show FinNonNeg (IE.round F (XR.mul a.val b.val))
  rw [ex, ey]
  show FinNonNeg (F.rd (x * y))
  have m := F.rd_mono (x * y) x (mul_le_of_le_one_right hx h1)
  rw [hr x ex] at m
  rcases F.rd_nonneg _ (mul_nonneg hx h0) with h | h
  · rw [h] at m; simp [XR.le] at m
  · exact h

theorem one_val : (lit 1 : IE F).val = .fin 1 := by
  show F.rd ((1 : ℚ) : ℝ) = _
  rw [Rat.cast_one]; exact F.rd_one

/-- adding one to a nonnegative number gives at least one -/
theorem add_one_val {a b : IE F} (ha : NonNeg a.val) (hb : b.val = .fin 1) :
    ((a + b).val = .pinf ∨ ∃ y, 1 ≤ y ∧ (a + b).val = .fin y) := by
  show (IE.round F (XR.add a.val b.val) = _ ∨ ∃ y, 1 ≤ y ∧ IE.round F (XR.add a.val b.val) = _)
  rw [hb]
  rcases ha with h | ⟨y, hy, h⟩ <;> rw [h]
  · left; rfl
  · show F.rd (y + 1) = _ ∨ ∃ z, 1 ≤ z ∧ F.rd (y + 1) = _
    have m := F.rd_mono 1 (y + 1) (by linarith)
    rw [F.rd_one] at m
    rcases F.rd_nonneg (y + 1) (by linarith) with e | ⟨z, -, e⟩
    · exact .inl e
    · rw [e] at m
      exact .inr ⟨z, by simpa [XR.le] using m, e⟩

theorem one_add_val {a b : IE F} (ha : NonNeg a.val) (hb : b.val = .fin 1) :
    ((b + a).val = .pinf ∨ ∃ y, 1 ≤ y ∧ (b + a).val = .fin y) := by
  have e : (b + a).val = (a + b).val := by
    show IE.round F (XR.add b.val a.val) = IE.round F (XR.add a.val b.val)
    rw [hb]
    rcases ha with h | ⟨y, hy, h⟩ <;> rw [h]
    · rfl
    · simp [XR.add, add_comm]
  rw [e]; exact add_one_val ha hb

/-- the square of a number of at least one is at least one -/
theorem sq_ge_one {a : IE F} (h : a.val = .pinf ∨ ∃ y, 1 ≤ y ∧ a.val = .fin y) : Pos (a * a).val := by
  show Pos (IE.round F (XR.mul a.val a.val))
  rcases h with h | ⟨y, hy, h⟩ <;> rw [h]
  · exact .inl rfl
  · show Pos (F.rd (y * y))
    have m := F.rd_mono 1 (y * y) (by nlinarith)
    rw [F.rd_one] at m
    rcases F.rd_nonneg (y * y) (by nlinarith) with e | ⟨z, -, e⟩
    · exact .inl e
    · rw [e] at m
      refine .inr ⟨z, ?_, e⟩
      have : (1 : ℝ) ≤ z := by simpa [XR.le] using m
      linarith

theorem exp_val {a : IE F} (h : NonNeg a.val) : NonNeg (exp a).val := by
  show NonNeg (XR.lift F.exp (.fin 0) .pinf a.val)
  rcases h with h | ⟨y, hy, h⟩ <;> rw [h]
  · exact .inl rfl
  · rcases F.exp_pos y hy with e | ⟨z, hz, e⟩
    · exact .inl e
    · exact .inr ⟨z, by linarith, e⟩

theorem exp_neg_val {a : IE F} (h : NonNeg a.val) : ∃ y, 0 ≤ y ∧ y ≤ 1 ∧ (exp (-a)).val = .fin y := by
  show ∃ y, 0 ≤ y ∧ y ≤ 1 ∧ (XR.lift F.exp (.fin 0) .pinf (XR.neg a.val)) = .fin y
  rcases h with h | ⟨y, hy, h⟩ <;> rw [h]
  · exact ⟨0, le_rfl, zero_le_one, rfl⟩
  · exact F.exp_neg (-y) (by linarith)

theorem expm1_val {a : IE F} (h : Pos a.val) (hr : Rep F a.val) : Pos (expm1 a).val := by
  show Pos (XR.lift F.expm1 (.fin (-1)) .pinf a.val)
  rcases h with h | ⟨y, hy, h⟩ <;> rw [h]
  · exact .inl rfl
  · exact F.expm1_pos y hy (hr y h)

theorem neg_expm1_neg_val {a : IE F} (h : Pos a.val) (hr : Rep F a.val) :
    ∃ y, 0 < y ∧ y ≤ 1 ∧ (-(expm1 (-a))).val = .fin y := by
  show ∃ y, 0 < y ∧ y ≤ 1 ∧ XR.neg (XR.lift F.expm1 (.fin (-1)) .pinf (XR.neg a.val)) = .fin y
  rcases h with h | ⟨y, hy, h⟩
  · rw [h]; exact ⟨1, one_pos, le_rfl, by simp [XR.neg, XR.lift]⟩
  · have hn : F.rd (-y) = .fin (-y) := by rw [F.rd_neg, hr y h]; rfl
    obtain ⟨z, z1, z2, e⟩ := F.expm1_neg (-y) (by linarith) hn
    refine ⟨-z, by linarith, by linarith, ?_⟩
    rw [h]
    show XR.neg (F.expm1 (-y)) = _
    rw [e]; rfl

theorem Pos.nonNeg {v : XR} (h : Pos v) : NonNeg v := by
  rcases h with h | ⟨y, hy, h⟩
  · exact .inl h
  · exact .inr ⟨y, hy.le, h⟩

end IE

namespace Photons
open IE
variable {F : FloatFormat} {O : Type} {inst : PhotonAPI (IE F) O} {o : O} {n : ℕ}

/-- the Planck spectrum at zero (or NaN) frequency -/
theorem planck_zero (pc : PC (IE F)) (T : IE F) {ν : IE F} (z : ZN ν) :
    (Planck.ThermalDistributionOfTNu pc T ν).val = .nan := by
  unfold Planck.ThermalDistributionOfTNu
  exact ZN.div_nan (ZN.mul_left (ZN.div (ZN.mul_right z))) (ZN.expm1 (ZN.div (ZN.mul_right z)))

/-- its temperature derivative at zero (or NaN) frequency -/
theorem planck_dT_zero (pc : PC (IE F)) (T : IE F) {ν : IE F} (z : ZN ν) :
    (Planck.DThermalDistributionOfTNuDT pc T ν).val = .nan := by
  unfold Planck.DThermalDistributionOfTNuDT
  have e := ZN.neg (ZN.expm1 (ZN.neg (ZN.div (b := pc.kb * T) (ZN.mul_right (a := pc.h) z))))
  exact ZN.div_nan (ZN.mul_left (ZN.div (ZN.mul_right z))) (ZN.mul_left e)

/-- **C54 is false of the photon spectrum**: at zero frequency it is NaN, for every photon opacity in any units, in
every format, for every temperature and every set of constants -/
theorem C54_spectrum_false (H : Constructed (IE F) O inst o n) (T ν : IE F) (hν : ν.val = .fin 0) :
    isNaN (PhotonAPI.ThermalDistributionOfTNu o T ν) = true := by
  refine isNaN_of ?_
  have z : ZN ν := .inl hν
  clear hν
  induction H generalizing T ν with
  | gray o | epbremss o | powerLaw o => exact planck_zero _ _ z
  | nonCGS _ _ _ _ _ _ _ _ _ ih => exact nan_mul_left (ih _ _ z.mul_left)
  | vScaleFree _ ih | vGray _ ih | vPowerLawScaleFree _ ih | vPowerLaw _ ih | vEPBremss _ ih | vNonCGSGray _ ih
  | vNonCGSPowerLaw _ ih | vNonCGSEPBremss _ ih => exact ih _ _ z

/-- **C54 is false of the photon derivative**: likewise -/
theorem C54_derivative_false (H : Constructed (IE F) O inst o n) (T ν : IE F) (hν : ν.val = .fin 0) :
    isNaN (PhotonAPI.DThermalDistributionOfTNuDT o T ν) = true := by
  refine isNaN_of ?_
  have z : ZN ν := .inl hν
  clear hν
  induction H generalizing T ν with
  | gray o | epbremss o | powerLaw o => exact planck_dT_zero _ _ z
  | nonCGS _ _ _ _ _ _ _ _ _ ih => exact nan_mul_left (nan_mul_left (ih _ _ z))
  | vScaleFree _ ih | vGray _ ih | vPowerLawScaleFree _ ih | vPowerLaw _ ih | vEPBremss _ ih | vNonCGSGray _ ih
  | vNonCGSPowerLaw _ ih | vNonCGSEPBremss _ ih => exact ih _ _ z

/-- and so the emissivity of gray matter at zero frequency is NaN rather than zero -/
theorem C54_emissivity_false (g : GrayOpacity (IE F)) (rho T ν : IE F) (hν : ν.val = .fin 0) :
    isNaN (PhotonAPI.EmissivityPerNuOmega g rho T ν) = true :=
  isNaN_of (nan_mul_right (planck_zero _ _ (.inl hν)))

/-- **C54 for the photon spectrum where nothing over- or underflows**: `hν/kT` is positive (it did not underflow to zero)
and `2hν³/c²` is finite.  Missing: zero frequency and those two exceptions, where the result can be NaN. -/
theorem C54_spectrum_partial (pc : PC (IE F)) (T ν : IE F) (hx : Pos (pc.h * ν / (pc.kb * T)).val)
    (hn : FinNonNeg (lit 2 * pc.h * ν * ν * ν / (pc.c * pc.c)).val) :
    NonNeg (Planck.ThermalDistributionOfTNu pc T ν).val := by
  unfold Planck.ThermalDistributionOfTNu
  refine div_pos_val (mul_le_one hn (rep_div _ _) ⟨1, zero_le_one, le_rfl, one_val⟩) (expm1_val hx (rep_div _ _))

/-- **C54 for the photon derivative where nothing over- or underflows**: in addition the square of `1 - exp(-hν/kT)`
does not underflow -/
theorem C54_derivative_partial (pc : PC (IE F)) (T ν : IE F) (hx : Pos (pc.h * ν / (pc.kb * T)).val)
    (hn : FinNonNeg (lit 2 * pc.h * pc.h * ν * ν * ν * ν / (T * T * pc.c * pc.c * pc.kb)).val)
    (hd : (-(expm1 (-(pc.h * ν / (pc.kb * T)))) * -(expm1 (-(pc.h * ν / (pc.kb * T))))).val ≠ .fin 0) :
    NonNeg (Planck.DThermalDistributionOfTNuDT pc T ν).val := by
  unfold Planck.DThermalDistributionOfTNuDT
  refine div_pos_val (mul_le_one hn (rep_div _ _) (exp_neg_val hx.nonNeg)) ?_
  obtain ⟨y, h0, h1, e⟩ := neg_expm1_neg_val hx (rep_div _ _)
  have m : NonNeg _ := FinNonNeg.mul (F := F) (a := -(expm1 (-(pc.h * ν / (pc.kb * T)))))
    (b := -(expm1 (-(pc.h * ν / (pc.kb * T))))) ⟨y, h0.le, e⟩ ⟨y, h0.le, e⟩
  rcases m with m | ⟨z, hz, m⟩
  · exact .inl m
  · rcases hz.lt_or_eq with hz | rfl
    · exact .inr ⟨z, hz, m⟩
    · exact absurd m hd

/-! Concrete cases in `double`. -/

/-- `2^e` as a double -/
noncomputable def two (e : ℤ) : IE binary64 := ⟨.fin (2 ^ e)⟩

theorem rd_two {e : ℤ} (h : -1074 ≤ e) (h' : e < 1024) : binary64.rd (2 ^ e) = .fin (2 ^ e) := by
  have := double64.rd_fix (e := e) h (k := 1) (by norm_num [double64])
    (by rw [Int.cast_one, one_mul, abs_of_pos (BinaryParams.u_pos _)]
        exact zpow_lt_zpow_right₀ (by norm_num) h')
  rw [Int.cast_one, one_mul] at this
  exact this

theorem rd_big {x : ℝ} (h : 2 ^ (1024 : ℤ) ≤ x) : binary64.rd x = .pinf := by
  have h1 := double64.near_mono h
  have h2 := double64.near_fix (e := 1024) (by norm_num [double64]) (k := 1) (by norm_num [double64])
  rw [Int.cast_one, one_mul] at h2
  rw [h2] at h1
  show double64.rd x = _
  unfold BinaryParams.rd
  rw [if_pos (show (2 : ℝ) ^ double64.emax ≤ _ from h1)]

theorem two_mul_two {a b : ℤ} (h : -1074 ≤ a + b) (h' : a + b < 1024) : two a * two b = two (a + b) := by
  show (⟨binary64.rd (2 ^ a * 2 ^ b)⟩ : IE binary64) = ⟨_⟩
  rw [← zpow_add₀ (by norm_num), rd_two h h']

theorem two_div_two {a b : ℤ} (h : -1074 ≤ a - b) (h' : a - b < 1024) : two a / two b = two (a - b) := by
  show (⟨IE.round binary64 (XR.div (.fin (2 ^ a)) (.fin (2 ^ b)))⟩ : IE binary64) = ⟨_⟩
  simp only [XR.div, (BinaryParams.u_pos b).ne', if_false, IE.round]
  rw [← zpow_sub₀ (by norm_num), rd_two h h']

theorem two_mul_big {a b : ℤ} (h : 1024 ≤ a + b) : two a * two b = ⟨.pinf⟩ := by
  show (⟨binary64.rd (2 ^ a * 2 ^ b)⟩ : IE binary64) = ⟨_⟩
  rw [← zpow_add₀ (by norm_num), rd_big (zpow_le_zpow_right₀ (by norm_num) h)]

theorem lit_two : (lit 2 : IE binary64) = two 1 := by
  show (⟨binary64.rd ((2 : ℚ) : ℝ)⟩ : IE binary64) = ⟨_⟩
  have e : ((2 : ℚ) : ℝ) = 2 ^ (1 : ℤ) := by norm_num
  rw [e, rd_two (by norm_num) (by norm_num)]

/-- all constants one, as doubles -/
noncomputable def ones : PC (IE binary64) :=
  ⟨two 0, two 0, two 0, two 0, two 0, two 0, two 0, two 0, two 0, two 0, two 0, two 0, two 0, two 0, two 0, two 0,
    two 0, two 0, two 0⟩

theorem ones_x (e : ℤ) (h : -1074 ≤ e) (h' : e < 1024) : ones.h * two e / (ones.kb * two 0) = two e := by
  show two 0 * two e / (two 0 * two 0) = _
  rw [two_mul_two (by omega) (by omega), two_mul_two (by omega) (by omega), two_div_two (by omega) (by omega)]
  congr 1; omega

/-- the hypotheses are met at unit temperature and frequency -/
example : NonNeg (Planck.ThermalDistributionOfTNu ones (two 0) (two 0)).val :=
  C54_spectrum_partial ones (two 0) (two 0) (by rw [ones_x 0 (by omega) (by omega)]; exact .inr ⟨_, BinaryParams.u_pos _, rfl⟩)
    (by
      rw [lit_two]
      show FinNonNeg (two 1 * two 0 * two 0 * two 0 * two 0 / (two 0 * two 0)).val
      rw [two_mul_two (by omega) (by omega), two_mul_two (by omega) (by omega), two_mul_two (by omega) (by omega),
        two_mul_two (by omega) (by omega), two_mul_two (by omega) (by omega), two_div_two (by omega) (by omega)]
      exact ⟨_, (BinaryParams.u_pos _).le, rfl⟩)

/-- the exponential of `2^400` overflows -/
theorem exp_big : 2 ^ (1024 : ℤ) ≤ Real.exp (2 ^ (400 : ℤ)) - 1 := by
  have h1 : (2 : ℝ) ^ (398 : ℤ) ≤ Real.exp (2 ^ (398 : ℤ)) := by
    linarith [Real.add_one_le_exp ((2 : ℝ) ^ (398 : ℤ))]
  have h2 : Real.exp (2 ^ (400 : ℤ)) = Real.exp (2 ^ (398 : ℤ)) ^ 4 := by
    rw [← Real.exp_nat_mul]
    congr 1
    rw [show (400 : ℤ) = 398 + 2 by norm_num, zpow_add₀ (by norm_num)]
    generalize (2 : ℝ) ^ (398 : ℤ) = A
    push_cast; norm_num; ring
  have h3 : ((2 : ℝ) ^ (398 : ℤ)) ^ 4 ≤ Real.exp (2 ^ (398 : ℤ)) ^ 4 :=
    pow_le_pow_left₀ (BinaryParams.u_pos _).le h1 4
  have h4 : ((2 : ℝ) ^ (398 : ℤ)) ^ 4 = 2 ^ (1592 : ℤ) := by
    rw [← zpow_natCast, ← zpow_mul]; norm_num
  have h5 : (2 : ℝ) ^ (1025 : ℤ) ≤ 2 ^ (1592 : ℤ) := zpow_le_zpow_right₀ (by norm_num) (by norm_num)
  have h6 : (2 : ℝ) ^ (1025 : ℤ) = 2 ^ (1024 : ℤ) * 2 := by
    rw [show (1025 : ℤ) = 1024 + 1 by norm_num, zpow_add₀ (by norm_num)]; norm_num
  have h7 : (1 : ℝ) ≤ 2 ^ (1024 : ℤ) := one_le_zpow₀ (by norm_num) (by norm_num)
  rw [h2]
  rw [h4] at h3
  generalize (2 : ℝ) ^ (1024 : ℤ) = A at *
  generalize (2 : ℝ) ^ (1025 : ℤ) = C at *
  generalize (2 : ℝ) ^ (1592 : ℤ) = D at *
  linarith

/-- **C54 is false of `double` at large frequencies too**: `ν³` overflows and the spectrum becomes `inf/inf` -/
theorem C54_overflow_false : ∃ (pc : PC (IE binary64)) (T ν : IE binary64), FinPos pc.h.val ∧ FinPos pc.kb.val ∧
    FinPos pc.c.val ∧ FinPos T.val ∧ FinPos ν.val ∧ isNaN (Planck.ThermalDistributionOfTNu pc T ν) = true := by
  have hp : ∀ e, FinPos (two e).val := fun e => ⟨_, BinaryParams.u_pos _, rfl⟩
  refine ⟨ones, two 0, two 400, hp _, hp _, hp _, hp _, hp _, isNaN_of ?_⟩
  unfold Planck.ThermalDistributionOfTNu
  rw [ones_x 400 (by omega) (by omega), lit_two]
  have e1 : expm1 (two 400) = (⟨.pinf⟩ : IE binary64) := by
    show (⟨binary64.expm1 (2 ^ (400 : ℤ))⟩ : IE binary64) = _
    congr 1
    exact rd_big exp_big
  have e2 : (two 1 * ones.h * two 400 * two 400 * two 400 / (ones.c * ones.c)) = (⟨.pinf⟩ : IE binary64) := by
    show two 1 * two 0 * two 400 * two 400 * two 400 / (two 0 * two 0) = _
    rw [two_mul_two (a := 1) (b := 0) (by omega) (by omega), two_mul_two (a := 1 + 0) (by omega) (by omega),
      two_mul_two (a := 1 + 0 + 400) (by omega) (by omega), two_mul_big (by omega),
      two_mul_two (by omega) (by omega)]
    show (⟨IE.round binary64 (XR.div .pinf (.fin (2 ^ (0 + 0 : ℤ) : ℝ)))⟩ : IE binary64) = _
    simp [XR.div, XR.signInf, IE.round]
  have e3 : (⟨.pinf⟩ : IE binary64) * lit 1 = ⟨.pinf⟩ := by
    show (⟨IE.round binary64 (XR.mul .pinf (lit 1 : IE binary64).val)⟩ : IE binary64) = _
    rw [one_val]
    simp [XR.mul, XR.signInf, IE.round]
  simp only [e1, e2, e3]
  rfl

end Photons

namespace Neutrinos
open IE Photons
variable {F : FloatFormat}

/-- **C54 for the neutrino spectrum where nothing overflows**, zero frequency included -/
theorem C54_spectrum_partial (d : FermiDirac (IE F)) (T ν : IE F) (hx : NonNeg (d.pc.h * ν / (d.pc.kb * T)).val)
    (hn : FinNonNeg (lit d.NSPECIES * (lit 2 * d.pc.h * ν * ν * ν / (d.pc.c * d.pc.c))).val) :
    NonNeg (d.ThermalDistributionOfTNu T ν).val := by
  unfold FermiDirac.ThermalDistributionOfTNu
  refine div_pos_val (mul_le_one hn (rep_mul _ _) ⟨1, zero_le_one, le_rfl, one_val⟩) ?_
  rcases add_one_val (exp_val hx) one_val with h | ⟨y, hy, h⟩
  · exact .inl h
  · exact .inr ⟨y, by linarith, h⟩

/-- **C54 for the neutrino derivative where nothing overflows**, zero frequency included -/
theorem C54_derivative_partial (d : FermiDirac (IE F)) (T ν : IE F)
    (hx : NonNeg (d.pc.h * ν / (d.pc.kb * T)).val)
    (hn : FinNonNeg (lit d.NSPECIES *
      (lit 2 * d.pc.h * d.pc.h * ν * ν * ν * ν / (T * T * d.pc.c * d.pc.c * d.pc.kb))).val) :
    NonNeg (d.DThermalDistributionOfTNuDT T ν).val := by
  unfold FermiDirac.DThermalDistributionOfTNuDT
  have he := exp_neg_val hx
  refine div_pos_val (mul_le_one hn (rep_mul _ _) he) ?_
  obtain ⟨y, h0, h1, e⟩ := he
  exact sq_ge_one (one_add_val (.inr ⟨y, h0, e⟩) one_val)

/-- the hypotheses are met at zero frequency and unit temperature -/
example : NonNeg ((⟨3, ones⟩ : FermiDirac (IE binary64)).ThermalDistributionOfTNu (two 0) ⟨.fin 0⟩).val := by
  have z0 : ∀ a b : ℤ, two a * (⟨.fin 0⟩ : IE binary64) = ⟨.fin 0⟩ := fun a b => by
    show (⟨binary64.rd (2 ^ a * 0)⟩ : IE binary64) = _
    rw [mul_zero, binary64.rd_zero]
  have z1 : ∀ a : ℤ, (⟨.fin 0⟩ : IE binary64) / two a = ⟨.fin 0⟩ := fun a => by
    show (⟨IE.round binary64 (XR.div (.fin 0) (.fin (2 ^ a)))⟩ : IE binary64) = _
    simp [XR.div, (BinaryParams.u_pos a).ne', IE.round, binary64.rd_zero]
  have z2 : (⟨.fin 0⟩ : IE binary64) * ⟨.fin 0⟩ = ⟨.fin 0⟩ := by
    show (⟨binary64.rd (0 * 0)⟩ : IE binary64) = _
    rw [mul_zero, binary64.rd_zero]
  apply C54_spectrum_partial
  · show NonNeg (two 0 * ⟨.fin 0⟩ / (two 0 * two 0)).val
    rw [z0 _ 0, two_mul_two (by omega) (by omega), z1]
    exact .inr ⟨0, le_rfl, rfl⟩
  · show FinNonNeg ((lit ((3 : ℤ) : ℚ) : IE binary64) * ((lit 2 : IE binary64) * two 0 * (⟨.fin 0⟩ : IE binary64) *
      (⟨.fin 0⟩ : IE binary64) * (⟨.fin 0⟩ : IE binary64) / (two 0 * two 0))).val
    rw [lit_two, two_mul_two (by omega) (by omega), two_mul_two (by omega) (by omega), z0 _ 0, z2, z2, z1]
    show FinNonNeg (IE.round binary64 (XR.mul (binary64.rd _) (.fin 0)))
    have h3 : binary64.rd (((3 : ℤ) : ℚ) : ℝ) = .fin 3 := by
      have := double64.rd_fix (e := 0) (by norm_num [double64]) (k := 3) (by norm_num [double64])
        (by rw [zpow_zero, mul_one]
            have : ((3 : ℤ) : ℝ) < 2 ^ (2 : ℤ) := by norm_num
            rw [abs_of_pos (by norm_num)]
            exact this.trans_le (zpow_le_zpow_right₀ (by norm_num) (by norm_num [double64])))
      rw [zpow_zero, mul_one] at this
      have c : (((3 : ℤ) : ℚ) : ℝ) = ((3 : ℤ) : ℝ) := by norm_num
      rw [c]
      refine (show binary64.rd ((3 : ℤ) : ℝ) = _ from this).trans ?_
      norm_num
    rw [h3]
    simp only [XR.mul, mul_zero, IE.round, binary64.rd_zero]
    exact ⟨0, le_rfl, rfl⟩

end Neutrinos
end Opac
