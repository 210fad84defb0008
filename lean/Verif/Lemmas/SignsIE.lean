import Verif.Lemmas.Signs
import Verif.Lemmas.XRArith
import Verif.Model.Ieee

/-!
# The sign rules of floating-point arithmetic and of exact arithmetic
-/

namespace Opac
open Arith

/-! ## floating point: "not below zero" -/

/-- NaN or at least zero -/
def NN (v : XR) : Prop := XR.lt v (.fin 0) = false

theorem NN.cases {v : XR} (h : NN v) : v = .nan ∨ v = .pinf ∨ ∃ y, 0 ≤ y ∧ v = .fin y := by
  cases v with
  | nan => exact .inl rfl
  | pinf => exact .inr (.inl rfl)
  | ninf => simp [NN, XR.lt] at h
  | fin x => exact .inr (.inr ⟨x, by simpa [NN, XR.lt] using h, rfl⟩)

theorem NN.nan : NN .nan := rfl
theorem NN.pinf : NN .pinf := rfl
theorem NN.fin {x : ℝ} (h : 0 ≤ x) : NN (.fin x) := by simp [NN, XR.lt, h]
theorem NN.ofPos {v : XR} (h : v = .pinf ∨ ∃ y, 0 ≤ y ∧ v = .fin y) : NN v := by
  rcases h with rfl | ⟨y, hy, rfl⟩
  · exact NN.pinf
  · exact NN.fin hy

theorem NN.signInf {a : ℝ} (h : 0 ≤ a) : NN (XR.signInf a) := by
  unfold XR.signInf
  split_ifs
  · exact NN.pinf
  · linarith
  · exact NN.nan

variable {F : FloatFormat}

theorem NN.round {v : XR} (h : NN v) : NN (IE.round F v) := by
  rcases h.cases with rfl | rfl | ⟨y, hy, rfl⟩
  · exact NN.nan
  · exact NN.pinf
  · exact NN.ofPos (F.rd_nonneg y hy)

theorem NN.add {a b : XR} (ha : NN a) (hb : NN b) : NN (XR.add a b) := by
  rcases ha.cases with rfl | rfl | ⟨x, hx, rfl⟩ <;> rcases hb.cases with rfl | rfl | ⟨y, hy, rfl⟩ <;>
    first | exact NN.nan | exact NN.pinf | exact NN.fin (by linarith)

theorem NN.sub {a b : XR} (ha : NN a) (hb : NN b) (h : XR.le b a = true) : NN (XR.add a (XR.neg b)) := by
  rcases ha.cases with rfl | rfl | ⟨x, hx, rfl⟩ <;> rcases hb.cases with rfl | rfl | ⟨y, hy, rfl⟩ <;>
    first
      | exact NN.nan
      | exact NN.pinf
      | (simp [XR.le] at h; done)
      | (refine NN.fin ?_
         have : y ≤ x := by simpa [XR.le] using h
         linarith)

theorem NN.mul {a b : XR} (ha : NN a) (hb : NN b) : NN (XR.mul a b) := by
  rcases ha.cases with rfl | rfl | ⟨x, hx, rfl⟩ <;> rcases hb.cases with rfl | rfl | ⟨y, hy, rfl⟩ <;>
    first | exact NN.nan | exact NN.pinf | exact NN.signInf (by assumption) | exact NN.fin (mul_nonneg hx hy)

theorem NN.div {a b : XR} (ha : NN a) (hb : NN b) : NN (XR.div a b) := by
  rcases ha.cases with rfl | rfl | ⟨x, hx, rfl⟩ <;> rcases hb.cases with rfl | rfl | ⟨y, hy, rfl⟩
  any_goals first | exact NN.nan | exact NN.fin le_rfl
  · simp only [XR.div]; split_ifs
    · exact NN.pinf
    · exact NN.signInf hy
  · simp only [XR.div]; split_ifs
    · exact NN.signInf hx
    · exact NN.fin (div_nonneg hx hy)

theorem NN.xpow {a b : XR} (ha : NN a) : NN (XR.pow a b) := by
  rcases ha.cases with rfl | rfl | ⟨x, hx, rfl⟩ <;> cases b <;> simp only [XR.pow] <;> (try split_ifs) <;>
    first
      | exact NN.nan
      | exact NN.pinf
      | exact NN.fin (Real.rpow_nonneg hx _)
      | (refine NN.fin ?_; norm_num)

theorem NN.pow {a b : IE F} (ha : NN a.val) : NN (Arith.pow a b).val := by
  show NN (match a.val, b.val with
    | .fin x, .fin y => if 0 < x ∧ y ≠ 0 then F.pow x y else IE.round F (XR.pow (.fin x) (.fin y))
    | v, w => XR.pow v w)
  split
  · rename_i x y ex ey
    split_ifs with h
    · exact NN.ofPos (F.pow_nonneg x y h.1)
    · rw [ex] at ha
      exact (NN.xpow ha).round
  · exact NN.xpow ha

/-- in every floating-point format, "not below zero" obeys the sign rules; exponents and tables are arbitrary -/
theorem signLaws_float (F : FloatFormat) :
    SignLaws (IE F) (fun x => lt x (lit 0) = false) (fun x => lt x (lit 0) = false) (fun x => lt x (lit 0) = false)
      (fun _ => True) True := by
  have e : ∀ x : IE F, lt x (lit 0) = false ↔ NN x.val := by
    intro x
    show XR.lt x.val (F.rd ((0 : ℚ) : ℝ)) = false ↔ _
    rw [Rat.cast_zero, F.rd_zero]
    rfl
  simp only [e]
  have lit0 : ∀ {q : ℚ}, 0 ≤ q → NN (lit q : IE F).val := fun {q} h =>
    NN.ofPos (F.rd_nonneg _ (by exact_mod_cast h))
  have pw : ∀ x : IE F, NN (Arith.pow (lit 10 : IE F) x).val := fun x => NN.pow (lit0 (by norm_num))
  have rep : ∀ a b : IE F, ∀ x, (a / b).val = .fin x → F.rd x = .fin x := by
    intro a b x
    show IE.round F (XR.div a.val b.val) = .fin x → _
    cases h : XR.div a.val b.val with
    | fin z => exact F.rd_idem z x
    | nan | pinf | ninf => intro h; cases h
  have dv : ∀ {a b : IE F}, NN a.val → NN b.val → NN (a / b).val := fun ha hb => (ha.div hb).round
  have adds : ∀ {a b : IE F}, NN a.val → NN b.val → NN (a + b).val := fun ha hb => (ha.add hb).round
  have muls : ∀ {a b : IE F}, NN a.val → NN b.val → NN (a * b).val := fun ha hb => (ha.mul hb).round
  have dm : NN (dmin : IE F).val := NN.ofPos (F.rd_nonneg _ (by positivity))
  constructor
  case nonneg => exact fun h => h
  case big => exact fun h => h
  case inf => exact NN.pinf
  case lit_pos => exact fun h => lit0 h.le
  case lit_zero => exact lit0 le_rfl
  case pi => exact NN.ofPos (F.rd_nonneg _ Real.pi_pos.le)
  case dmin => exact dm
  case add => exact adds
  case add_pos => exact adds
  case sub => exact fun ha hb h => (ha.sub hb h).round
  case mul => exact muls
  case mul_pos => exact muls
  case mul_big => exact muls
  case div => exact dv
  case div_pos => exact dv
  case pow => exact fun ha _ => NN.pow ha
  case lit_exp => exact trivial
  case quarter => trivial
  case sqrt =>
    intro a ha
    refine NN.round ?_
    rcases ha.cases with h | h | ⟨y, hy, h⟩ <;> rw [h]
    · exact NN.nan
    · exact NN.pinf
    · simp only [XR.lift, if_pos hy]
      exact NN.fin (Real.sqrt_nonneg y)
  case exp =>
    intro a ha
    show NN (XR.lift F.exp (.fin 0) .pinf a.val)
    rcases ha.cases with h | h | ⟨y, hy, h⟩ <;> rw [h]
    · exact NN.nan
    · exact NN.pinf
    · rcases F.exp_pos y hy with h | ⟨z, hz, h⟩ <;> simp only [XR.lift, h]
      · exact NN.pinf
      · exact NN.fin (by linarith)
  case exp_neg =>
    intro a ha
    show NN (XR.lift F.exp (.fin 0) .pinf (XR.neg a.val))
    rcases ha.cases with h | h | ⟨y, hy, h⟩ <;> rw [h]
    · exact NN.nan
    · exact NN.fin le_rfl
    · obtain ⟨z, hz, _, h⟩ := F.exp_neg (-y) (by linarith)
      simp only [XR.lift, XR.neg, h]
      exact NN.fin hz
  case expm1 =>
    intro a b ha hb
    show NN (XR.lift F.expm1 (.fin (-1)) .pinf (a / b).val)
    rcases (dv ha hb).cases with h | h | ⟨y, hy, h⟩
    · rw [h]; exact NN.nan
    · rw [h]; exact NN.pinf
    · have hr := rep a b y h
      rw [h]
      rcases hy.eq_or_lt with rfl | hy
      · simp only [XR.lift, F.expm1_zero]; exact NN.fin le_rfl
      · rcases F.expm1_pos y hy hr with h | ⟨z, hz, h⟩ <;> simp only [XR.lift, h]
        · exact NN.pinf
        · exact NN.fin hz.le
  case neg_expm1 =>
    intro a b ha hb
    show NN (XR.neg (XR.lift F.expm1 (.fin (-1)) .pinf (XR.neg (a / b).val)))
    rcases (dv ha hb).cases with h | h | ⟨y, hy, h⟩
    · rw [h]; exact NN.nan
    · rw [h]; exact NN.fin (by norm_num)
    · have hr := rep a b y h
      rw [h]
      rcases hy.eq_or_lt with rfl | hy
      · simp only [XR.lift, XR.neg, neg_zero, F.expm1_zero]; exact NN.fin le_rfl
      · have hr' : F.rd (-y) = .fin (-y) := by rw [F.rd_neg, hr]; rfl
        obtain ⟨z, _, hz, h⟩ := F.expm1_neg (-y) (by linarith) hr'
        simp only [XR.lift, XR.neg, h]
        exact NN.fin (by linarith)
  case max =>
    intro a b ha hb
    unfold stdMax
    split_ifs
    · exact hb
    · exact ha
  case ratio =>
    intro a b ha hb
    unfold Robust.ratio
    refine dv ha (adds hb (muls ?_ (muls (lit0 (by norm_num)) dm)))
    refine lit0 ?_
    have : lt b (lit 0) = false := (e b).2 hb
    unfold Robust.sgn
    rw [this]
    split_ifs <;> simp_all
  case log =>
    intro a b ha hb h
    have h : XR.le b.val a.val = true := h
    show NN (XR.lift (fun x => if 0 < x then F.log x else if x = 0 then .ninf else .nan) .nan .pinf
      (IE.round F (XR.div a.val b.val)))
    rcases ha.cases with ea | ea | ⟨x, hx, ea⟩ <;> rcases hb.cases with eb | eb | ⟨y, hy, eb⟩ <;> rw [ea, eb] at h ⊢
    any_goals first | exact NN.nan | (simp [XR.le] at h; done)
    · simp only [XR.div, XR.signInf]
      split_ifs <;> exact NN.pinf
    · have hxy : y ≤ x := by simpa [XR.le] using h
      simp only [XR.div, XR.signInf]
      split_ifs
      · exact NN.pinf
      · exfalso; linarith
      · exact NN.nan
      · rename_i hy0
        have hyp : 0 < y := lt_of_le_of_ne hy (Ne.symm hy0)
        have h1 : 1 ≤ x / y := by rwa [le_div_iff₀ hyp, one_mul]
        have hm := F.rd_mono 1 (x / y) h1
        rw [F.rd_one] at hm
        show NN (XR.lift _ .nan .pinf (F.rd (x / y)))
        cases hq : F.rd (x / y) with
        | nan => exact NN.nan
        | pinf => exact NN.pinf
        | ninf => rw [hq] at hm; simp [XR.le] at hm
        | fin z =>
          rw [hq] at hm
          have hz : 1 ≤ z := by simpa [XR.le] using hm
          simp only [XR.lift, if_pos (show 0 < z by linarith)]
          exact NN.ofPos (F.log_nonneg z hz)
  case fromLog =>
    intro _ x
    unfold Neutrinos.SpinerOpacity.fromLog_
    have h := pw x
    refine NN.round ?_
    have z : (lit 0 : IE F).val = .fin 0 := by
      show F.rd ((0 : ℚ) : ℝ) = _
      rw [Rat.cast_zero, F.rd_zero]
    rw [z]
    rcases h.cases with h | h | ⟨y, hy, h⟩ <;> rw [h]
    · exact NN.nan
    · exact NN.pinf
    · exact NN.fin (by simpa using hy)
  case tenPow => exact fun _ x => pw x

/-! ## exact arithmetic: "finite and positive" -/

/-- in exact arithmetic with special values, finite positive numbers obey the sign rules -/
theorem signLaws_exact :
    SignLaws XR (fun x => ∃ y : ℝ, 0 ≤ y ∧ x = .fin y) (fun x => ∃ y : ℝ, 0 < y ∧ x = .fin y)
      (fun x => x = .pinf ∨ ∃ y : ℝ, 0 ≤ y ∧ x = .fin y) (fun x => ∃ y : ℝ, x = .fin y) False := by
  have dv : ∀ {a b : XR}, (∃ y : ℝ, 0 < y ∧ a = .fin y) → (∃ y : ℝ, 0 < y ∧ b = .fin y) →
      ∃ y : ℝ, 0 < y ∧ a / b = .fin y := by
    rintro _ _ ⟨x, hx, rfl⟩ ⟨y, hy, rfl⟩
    refine ⟨x / y, div_pos hx hy, ?_⟩
    show XR.div _ _ = _
    simp [XR.div, hy.ne']
  constructor
  case nonneg => rintro _ ⟨y, hy, rfl⟩; exact ⟨y, hy.le, rfl⟩
  case big => exact fun h => .inr h
  case inf => exact .inl rfl
  case lit_pos => exact fun {q} h => ⟨q, by exact_mod_cast h, rfl⟩
  case lit_zero => exact ⟨((0 : ℚ) : ℝ), by norm_num, rfl⟩
  case pi => exact ⟨Real.pi, Real.pi_pos, rfl⟩
  case dmin => exact ⟨_, by positivity, rfl⟩
  case add => rintro _ _ ⟨x, hx, rfl⟩ ⟨y, hy, rfl⟩; exact ⟨x + y, by linarith, rfl⟩
  case add_pos => rintro _ _ ⟨x, hx, rfl⟩ ⟨y, hy, rfl⟩; exact ⟨x + y, by linarith, rfl⟩
  case sub =>
    rintro _ _ ⟨x, hx, rfl⟩ ⟨y, hy, rfl⟩ h
    have h : XR.le (.fin y) (.fin x) = true := h
    have : y ≤ x := by simpa [XR.le] using h
    exact ⟨x + -y, by linarith, rfl⟩
  case mul => rintro _ _ ⟨x, hx, rfl⟩ ⟨y, hy, rfl⟩; exact ⟨x * y, mul_nonneg hx hy, rfl⟩
  case mul_pos => rintro _ _ ⟨x, hx, rfl⟩ ⟨y, hy, rfl⟩; exact ⟨x * y, mul_pos hx hy, rfl⟩
  case mul_big =>
    rintro _ _ (rfl | ⟨x, hx, rfl⟩) ⟨y, hy, rfl⟩
    · left
      show XR.signInf y = _
      simp [XR.signInf, hy]
    · exact .inr ⟨x * y, mul_nonneg hx hy.le, rfl⟩
  case div =>
    rintro _ _ ⟨x, hx, rfl⟩ ⟨y, hy, rfl⟩
    refine ⟨x / y, div_nonneg hx hy.le, ?_⟩
    show XR.div _ _ = _
    simp [XR.div, hy.ne']
  case div_pos => exact dv
  case pow =>
    rintro _ _ ⟨x, hx, rfl⟩ ⟨y, rfl⟩
    refine ⟨x ^ y, Real.rpow_pos_of_pos hx y, ?_⟩
    show XR.pow _ _ = _
    by_cases h : y = 0 <;> simp [XR.pow, h, hx]
  case lit_exp => exact fun {q} => ⟨q, rfl⟩
  case quarter =>
    obtain ⟨y, _, h⟩ := dv (a := lit 1) (b := lit 4) ⟨((1 : ℚ) : ℝ), by norm_num, rfl⟩ ⟨((4 : ℚ) : ℝ), by norm_num, rfl⟩
    exact ⟨y, h⟩
  case sqrt =>
    rintro _ ⟨x, hx, rfl⟩
    refine ⟨Real.sqrt x, Real.sqrt_pos.2 hx, ?_⟩
    show (if 0 ≤ x then XR.fin (Real.sqrt x) else .nan) = _
    rw [if_pos hx.le]
  case exp => rintro _ ⟨x, hx, rfl⟩; exact ⟨Real.exp x, Real.exp_pos x, rfl⟩
  case exp_neg => rintro _ ⟨x, hx, rfl⟩; exact ⟨Real.exp (-x), Real.exp_pos _, rfl⟩
  case expm1 =>
    intro a b ha hb
    obtain ⟨x, hx, h⟩ := dv ha hb
    rw [h]
    exact ⟨Real.exp x - 1, by linarith [Real.add_one_lt_exp hx.ne'], rfl⟩
  case neg_expm1 =>
    intro a b ha hb
    obtain ⟨x, hx, h⟩ := dv ha hb
    rw [h]
    refine ⟨-(Real.exp (-x) - 1), ?_, rfl⟩
    have : Real.exp (-x) < Real.exp 0 := Real.exp_lt_exp.2 (by linarith)
    rw [Real.exp_zero] at this
    linarith
  case max =>
    rintro _ _ ⟨x, hx, rfl⟩ ⟨y, hy, rfl⟩
    unfold stdMax
    by_cases h : lt (XR.fin x) (XR.fin y) = true
    · rw [if_pos h]; exact ⟨y, hy, rfl⟩
    · rw [if_neg h]
      have h : ¬ (XR.lt (XR.fin x) (XR.fin y) = true) := h
      have : y ≤ x := by simpa [XR.lt] using h
      exact ⟨x, by linarith, rfl⟩
  case ratio =>
    rintro _ _ ⟨x, hx, rfl⟩ ⟨y, hy, rfl⟩
    unfold Robust.ratio
    have s : Robust.sgn (XR.fin y) = 1 := by
      have h1 : le (lit 0 : XR) (XR.fin y) = true := by
        show XR.le (.fin ((0 : ℚ) : ℝ)) (.fin y) = true
        simp [XR.le, hy.le]
      have h2 : lt (XR.fin y) (lit 0 : XR) = false := by
        show XR.lt (.fin y) (.fin ((0 : ℚ) : ℝ)) = false
        simp [XR.lt, hy.le]
      simp [Robust.sgn, h1, h2]
    rw [s]
    have z : (0 : ℝ) < y + ((1 : ℤ) : ℚ) * (((10 : ℚ) : ℝ) * 2 ^ (-1022 : ℤ)) := by positivity
    refine ⟨x / (y + ((1 : ℤ) : ℚ) * (((10 : ℚ) : ℝ) * 2 ^ (-1022 : ℤ))), div_nonneg hx z.le, ?_⟩
    show XR.div (.fin x) (.fin (y + ((1 : ℤ) : ℚ) * (((10 : ℚ) : ℝ) * 2 ^ (-1022 : ℤ)))) = _
    simp only [XR.div, if_neg z.ne']
  case log =>
    rintro _ _ ⟨x, hx, rfl⟩ ⟨y, hy, rfl⟩ h
    have h : XR.le (.fin y) (.fin x) = true := h
    have h : y ≤ x := by simpa [XR.le] using h
    have e : (XR.fin x / XR.fin y : XR) = .fin (x / y) := by
      show XR.div _ _ = _
      simp [XR.div, hy.ne']
    rw [e]
    refine ⟨Real.log (x / y), Real.log_nonneg (by rwa [le_div_iff₀ hy, one_mul]), ?_⟩
    show (if 0 < x / y then XR.fin (Real.log (x / y)) else if x / y = 0 then .ninf else .nan) = _
    rw [if_pos (div_pos hx hy)]
  case fromLog => exact fun h => h.elim
  case tenPow => exact fun h => h.elim


/-! ## mean opacities -/

variable {R : Type} [Arith R] {N P M E : R → Prop} {tables : Prop} (L : SignLaws R N P M E tables) (ht : tables)
include L ht

namespace Photons
theorem mg_signs {t : MGTables R} {rho T : R} {g m : ℤ} {v : R} (hr : P rho) (h : t.Coefficient rho T g m = .ok v) :
    N v := by
  unfold MGTables.Coefficient at h
  split_ifs at h <;> (obtain ⟨x, _, rfl⟩ := map'_ok_elim h; exact L.mul (L.nonneg hr) (L.tenPow ht x))

theorem mg_signs_nu {t : MGTables R} {rho T ν : R} {m : ℤ} {v : R} (hr : P rho)
    (h : t.CoefficientFromNu rho T ν m = .ok v) : N v := by
  unfold MGTables.CoefficientFromNu at h
  cases hg : t.GroupOfNu ν with
  | ok g => rw [hg] at h; exact mg_signs L ht hr h
  | abort e => rw [hg] at h; exact absurd h (fun h => by cases h)
  | ub e => rw [hg] at h; exact absurd h (fun h => by cases h)

theorem mean_signs {O : Type} {i : MeanPhotonAPI R O} {o : O} (H : AnyMean R P O i o) {rho T : R} (hr : P rho) :
    (∀ g m v, i.AbsorptionCoefficient o rho T g m = .ok v → N v) ∧
    (∀ g v, i.PlanckGroupAbsorptionCoefficient o rho T g = .ok v → N v) ∧
    (∀ g v, i.RosselandGroupAbsorptionCoefficient o rho T g = .ok v → N v) ∧
    (∀ ν m v, i.AbsorptionCoefficientFromNu o rho T ν m = .ok v → N v) ∧
    (∀ ν v, i.PlanckGroupAbsorptionCoefficientFromNu o rho T ν = .ok v → N v) ∧
    (∀ ν v, i.RosselandGroupAbsorptionCoefficientFromNu o rho T ν = .ok v → N v) := by
  have B : ∀ (o : MeanOpacityBase R) {rho T : R}, P rho →
      (∀ g m v, MeanPhotonAPI.AbsorptionCoefficient o rho T g m = .ok v → N v) ∧
      (∀ g v, MeanPhotonAPI.PlanckGroupAbsorptionCoefficient o rho T g = .ok v → N v) ∧
      (∀ g v, MeanPhotonAPI.RosselandGroupAbsorptionCoefficient o rho T g = .ok v → N v) ∧
      (∀ ν m v, MeanPhotonAPI.AbsorptionCoefficientFromNu o rho T ν m = .ok v → N v) ∧
      (∀ ν v, MeanPhotonAPI.PlanckGroupAbsorptionCoefficientFromNu o rho T ν = .ok v → N v) ∧
      (∀ ν v, MeanPhotonAPI.RosselandGroupAbsorptionCoefficientFromNu o rho T ν = .ok v → N v) := by
    intro o rho T hr
    refine ⟨fun g m v h => mg_signs L ht hr h, fun g v h => mg_signs L ht (t := o.t) (m := gmodePlanck) (g := g) (T := T) hr h,
      fun g v h => mg_signs L ht (t := o.t) (m := gmodeRosseland) (g := g) (T := T) hr h, fun ν m v h => mg_signs_nu L ht hr h,
      fun ν v h => mg_signs_nu L ht hr h, fun ν v h => mg_signs_nu L ht hr h⟩
  induction H generalizing rho T with
  | base o => exact B o hr
  | @nonCGS O inst o t m l θ _ hm hl _ _ ih =>
    have hr' : P (m / (l * l * l) * rho) := L.mul_pos (L.div_pos hm (L.mul_pos (L.mul_pos hl hl) hl)) hr
    obtain ⟨h1, h2, h3, h4, h5, h6⟩ := ih (T := θ * T) hr'
    refine ⟨fun g k v h => ?_, fun g v h => ?_, fun g v h => ?_, fun ν k v h => ?_, fun ν v h => ?_, fun ν v h => ?_⟩ <;>
      obtain ⟨x, hx, rfl⟩ := map'_ok_elim h
    · exact L.mul (h1 _ _ _ hx) (L.nonneg hl)
    · exact L.mul (h1 _ _ _ hx) (L.nonneg hl)
    · exact L.mul (h1 _ _ _ hx) (L.nonneg hl)
    · exact L.mul (h4 _ _ _ hx) (L.nonneg hl)
    · exact L.mul (h4 _ _ _ hx) (L.nonneg hl)
    · exact L.mul (h4 _ _ _ hx) (L.nonneg hl)
  | @vBase o => exact B o hr
  | @vNonCGS o _ ih => exact ih hr
end Photons

namespace Neutrinos
theorem lookup_signs {d : Spiner.DataBox R} {rho T Ye : R} {s : RadiationType} {v : R} (hr : P rho)
    (h : MeanTables.lookup d rho T Ye s = .ok v) : N v := by
  obtain ⟨x, _, rfl⟩ := map'_ok_elim h
  exact L.mul (L.nonneg hr) (L.tenPow ht x)

theorem mean_signs {O : Type} {i : MeanNeutrinoAPI R O} {o : O} (H : AnyMean R P O i o) {rho T Ye : R}
    {s : RadiationType} (hr : P rho) :
    (∀ v, i.PlanckMeanAbsorptionCoefficient o rho T Ye s = .ok v → N v) ∧
    (∀ v, i.RosselandMeanAbsorptionCoefficient o rho T Ye s = .ok v → N v) := by
  induction H generalizing rho T with
  | base o => exact ⟨fun v h => lookup_signs L ht hr h, fun v h => lookup_signs L ht hr h⟩
  | @nonCGS O inst o t m l θ _ hm hl _ _ ih =>
    have hr' : P (m / (l * l * l) * rho) := L.mul_pos (L.div_pos hm (L.mul_pos (L.mul_pos hl hl) hl)) hr
    obtain ⟨h1, h2⟩ := ih (T := θ * T) hr'
    refine ⟨fun v h => ?_, fun v h => ?_⟩ <;> obtain ⟨x, hx, rfl⟩ := map'_ok_elim h
    · exact L.mul (h1 _ hx) (L.nonneg hl)
    · exact L.mul (h2 _ hx) (L.nonneg hl)
  | @vBase o => exact ⟨fun v h => lookup_signs L ht hr h, fun v h => lookup_signs L ht hr h⟩
  | @vNonCGS o _ ih => exact ih hr

theorem meanS_signs {O : Type} {i : MeanNeutrinoSAPI R O} {o : O} (H : AnyMeanS R P O i o) {rho T Ye : R}
    {s : RadiationType} (hr : P rho) :
    (∀ v, i.PlanckMeanTotalScatteringCoefficient o rho T Ye s = .ok v → N v) ∧
    (∀ v, i.RosselandMeanTotalScatteringCoefficient o rho T Ye s = .ok v → N v) := by
  induction H generalizing rho T with
  | base o => exact ⟨fun v h => lookup_signs L ht hr h, fun v h => lookup_signs L ht hr h⟩
  | @nonCGS O inst o t m l θ _ hm hl _ _ ih =>
    have hr' : P (m / (l * l * l) * rho) := L.mul_pos (L.div_pos hm (L.mul_pos (L.mul_pos hl hl) hl)) hr
    obtain ⟨h1, h2⟩ := ih (T := θ * T) hr'
    refine ⟨fun v h => ?_, fun v h => ?_⟩ <;> obtain ⟨x, hx, rfl⟩ := map'_ok_elim h
    · exact L.mul (h1 _ hx) (L.nonneg hl)
    · exact L.mul (h2 _ hx) (L.nonneg hl)
  | @vBase o => exact ⟨fun v h => lookup_signs L ht hr h, fun v h => lookup_signs L ht hr h⟩
  | @vNonCGS o _ ih => exact ih hr
end Neutrinos

end Opac
