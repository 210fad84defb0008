import Verif.Lemmas.SignsIE
import Verif.Model.SignedZero

/-!
# The sign rules of floating-point arithmetic with signed zeros
-/

namespace Opac
open Arith

namespace SZ
variable {F : FloatFormat}

theorem clear_iff {a : SZ F} : sign a = false ↔ NN a.val ∧ (a.val = .fin 0 → a.minus = false) := by
  obtain ⟨v, m⟩ := a
  cases v with
  | nan => simp [sign, NN, XR.lt]
  | pinf => simp [sign, NN, XR.lt]
  | ninf => simp [sign, NN, XR.lt]
  | fin x =>
    simp only [sign, NN, XR.lt, Bool.or_eq_false_iff, decide_eq_false_iff_not, XR.fin.injEq, Bool.and_eq_false_iff]
    constructor
    · rintro ⟨h1, h2⟩
      exact ⟨h1, fun h => h2.resolve_left (not_not_intro h)⟩
    · rintro ⟨h1, h2⟩
      refine ⟨h1, ?_⟩
      by_cases h : x = 0
      · exact .inr (h2 h)
      · exact .inl h

theorem clear {a : SZ F} (h : NN a.val) (h' : a.minus = false) : sign a = false := clear_iff.2 ⟨h, fun _ => h'⟩

theorem sumSign_clear {v : XR} (h : NN v) : sumSign v false = false := by
  rcases h.cases with rfl | rfl | ⟨y, hy, rfl⟩
  · rfl
  · rfl
  · simp only [sumSign]
    split_ifs
    · rfl
    · simpa using hy

theorem isMinusZero_clear {a : SZ F} (h : sign a = false) : isMinusZero a = false := by
  obtain ⟨v, m⟩ := a
  cases v with
  | fin x =>
    simp only [sign, Bool.or_eq_false_iff] at h
    exact h.2
  | nan | pinf | ninf => rfl

theorem div_val {a b : SZ F} (h : isMinusZero b = false) : (a / b).val = IE.round F (XR.div a.val b.val) := by
  show (if isMinusZero b = true then _ else _) = _
  rw [h]; rfl

theorem pow_val {a b : SZ F} (h : isMinusZero a = false) : (Arith.pow a b).val = (Arith.pow a.forget b.forget).val := by
  show (if (isMinusZero a && odd b.val && XR.lt b.val (.fin 0)) = true then _ else _) = _
  rw [h]; rfl

theorem nn_forget {x : IE F} : lt x (lit 0) = false ↔ NN x.val := by
  show XR.lt x.val (F.rd ((0 : ℚ) : ℝ)) = false ↔ _
  rw [Rat.cast_zero, F.rd_zero]
  rfl

theorem nn_exp (F : FloatFormat) : (∀ {v : XR}, NN v → NN (XR.lift F.exp (.fin 0) .pinf v)) ∧
    ∀ {v : XR}, NN v → NN (XR.lift F.exp (.fin 0) .pinf (XR.neg v)) := by
  have L := signLaws_float F
  exact ⟨fun {v} h => nn_forget.1 (L.exp (a := (⟨v⟩ : IE F)) (nn_forget.2 h)),
    fun {v} h => nn_forget.1 (L.exp_neg (a := (⟨v⟩ : IE F)) (nn_forget.2 h))⟩

/-- in every floating-point format with signed zeros, a clear sign bit obeys the sign rules -/
theorem signLaws (F : FloatFormat) :
    SignLaws (SZ F) (fun x => sign x = false) (fun x => sign x = false) (fun x => sign x = false) (fun _ => True) True := by
  have nn : ∀ {a : SZ F}, sign a = false → NN a.val := fun h => (clear_iff.1 h).1
  have lit0 : ∀ {q : ℚ}, 0 ≤ q → sign (lit q : SZ F) = false := fun {q} h =>
    clear (NN.ofPos (F.rd_nonneg _ (by exact_mod_cast h))) (decide_eq_false (not_lt.2 h))
  have pws : ∀ {a b : SZ F}, sign a = false → sign (Arith.pow a b) = false := by
    intro a b ha
    refine clear ?_ ?_
    · rw [pow_val (isMinusZero_clear ha)]
      exact NN.pow (a := a.forget) (nn ha)
    · show (sign a && odd b.val) = false
      rw [ha]; rfl
  have dv : ∀ {a b : SZ F}, sign a = false → sign b = false → sign (a / b) = false := by
    intro a b ha hb
    refine clear ?_ ?_
    · rw [div_val (isMinusZero_clear hb)]
      exact ((nn ha).div (nn hb)).round
    · show Bool.xor (sign a) (sign b) = false
      rw [ha, hb]; rfl
  have adds : ∀ {a b : SZ F}, sign a = false → sign b = false → sign (a + b) = false := by
    intro a b ha hb
    refine clear ((nn ha).add (nn hb)).round ?_
    show sumSign _ (sign a && sign b) = false
    rw [ha]
    exact sumSign_clear ((nn ha).add (nn hb))
  have muls : ∀ {a b : SZ F}, sign a = false → sign b = false → sign (a * b) = false := by
    intro a b ha hb
    refine clear ((nn ha).mul (nn hb)).round ?_
    show Bool.xor (sign a) (sign b) = false
    rw [ha, hb]; rfl
  have dm : sign (dmin : SZ F) = false := clear (NN.ofPos (F.rd_nonneg _ (by positivity))) rfl
  have rep : ∀ {a b : SZ F}, sign b = false → ∀ x, (a / b).val = .fin x → F.rd x = .fin x := by
    intro a b hb x
    rw [div_val (isMinusZero_clear hb)]
    cases h : XR.div a.val b.val with
    | fin z => exact F.rd_idem z x
    | nan | pinf | ninf => intro h; cases h
  constructor
  case nonneg => exact fun h => h
  case big => exact fun h => h
  case inf => exact clear NN.pinf rfl
  case lit_pos => exact fun h => lit0 h.le
  case lit_zero => exact lit0 le_rfl
  case pi => exact clear (NN.ofPos (F.rd_nonneg _ Real.pi_pos.le)) rfl
  case dmin => exact dm
  case add => exact adds
  case add_pos => exact adds
  case sub =>
    intro a b ha hb h
    have k := (nn ha).sub (nn hb) h
    refine clear k.round ?_
    show sumSign _ (sign a && !sign b) = false
    rw [ha]
    exact sumSign_clear k
  case mul => exact muls
  case mul_pos => exact muls
  case mul_big => exact muls
  case div => exact dv
  case div_pos => exact dv
  case pow => exact fun ha _ => pws ha
  case lit_exp => exact trivial
  case quarter => trivial
  case sqrt =>
    intro a ha
    refine clear (NN.round ?_) ha
    rcases (nn ha).cases with h | h | ⟨y, hy, h⟩ <;> rw [h]
    · exact NN.nan
    · exact NN.pinf
    · simp only [XR.lift, if_pos hy]
      exact NN.fin (Real.sqrt_nonneg y)
  case exp => exact fun {a} ha => clear ((nn_exp F).1 (nn ha)) rfl
  case exp_neg => exact fun {a} ha => clear ((nn_exp F).2 (nn ha)) rfl
  case expm1 =>
    intro a b ha hb
    have d := dv ha hb
    refine clear ?_ d
    show NN (XR.lift F.expm1 (.fin (-1)) .pinf (a / b).val)
    rcases (nn d).cases with h | h | ⟨y, hy, h⟩
    · rw [h]; exact NN.nan
    · rw [h]; exact NN.pinf
    · have hr := rep hb y h
      rw [h]
      rcases hy.eq_or_lt with rfl | hy
      · simp only [XR.lift, F.expm1_zero]; exact NN.fin le_rfl
      · rcases F.expm1_pos y hy hr with h | ⟨z, hz, h⟩ <;> simp only [XR.lift, h]
        · exact NN.pinf
        · exact NN.fin hz.le
  case neg_expm1 =>
    intro a b ha hb
    have d := dv ha hb
    rw [clear_iff]
    show NN (XR.neg (XR.lift F.expm1 (.fin (-1)) .pinf (XR.neg (a / b).val))) ∧
      (XR.neg (XR.lift F.expm1 (.fin (-1)) .pinf (XR.neg (a / b).val)) = .fin 0 → (!sign (-(a / b))) = false)
    rcases (nn d).cases with h | h | ⟨y, hy, h⟩
    · rw [h]; exact ⟨NN.nan, fun h => by cases h⟩
    · rw [h]
      refine ⟨NN.fin (by norm_num), fun h => ?_⟩
      simp [XR.lift, XR.neg] at h
    · have hr := rep hb y h
      rcases hy.eq_or_lt with rfl | hy
      · have hs : sign (-(a / b)) = true := by
          have m : (a / b).minus = false := (clear_iff.1 d).2 h
          show sign (⟨XR.neg (a / b).val, !(a / b).minus⟩ : SZ F) = true
          rw [h, m]
          simp [sign, XR.neg]
        rw [h, hs]
        simp only [XR.lift, XR.neg, neg_zero, F.expm1_zero]; exact ⟨NN.fin le_rfl, fun _ => rfl⟩
      · have hr' : F.rd (-y) = .fin (-y) := by rw [F.rd_neg, hr]; rfl
        obtain ⟨z, _, hz, h'⟩ := F.expm1_neg (-y) (by linarith) hr'
        rw [h]
        simp only [XR.lift, XR.neg, h']
        refine ⟨NN.fin (by linarith), fun h => ?_⟩
        have : -z = 0 := by simpa using h
        linarith
  case max =>
    intro a b ha hb
    unfold stdMax
    split_ifs
    · exact hb
    · exact ha
  case ratio =>
    intro a b ha hb
    unfold Robust.ratio
    refine dv ha (adds hb (muls ?_ (muls (lit0 (by norm_num)) dm)))
    refine lit0 ?_
    have : lt b (lit 0) = false := by
      show XR.lt b.val (F.rd ((0 : ℚ) : ℝ)) = false
      rw [Rat.cast_zero, F.rd_zero]
      exact nn hb
    unfold Robust.sgn
    rw [this]
    split_ifs <;> simp_all
  case log =>
    intro a b ha hb h
    refine clear ?_ rfl
    have e := (signLaws_float F).log (a := a.forget) (b := b.forget) (nn_forget.2 (nn ha)) (nn_forget.2 (nn hb)) h
    have e := nn_forget.1 e
    show NN (XR.lift _ .nan .pinf (a / b).val)
    rw [div_val (isMinusZero_clear hb)]
    exact e
  case fromLog =>
    intro _ x
    unfold Neutrinos.SpinerOpacity.fromLog_
    have h := pws (b := x) (lit0 (q := 10) (by norm_num))
    have z : (lit 0 : SZ F).val = .fin 0 := by
      show F.rd ((0 : ℚ) : ℝ) = _
      rw [Rat.cast_zero, F.rd_zero]
    have k : NN (XR.add (Arith.pow (lit 10 : SZ F) x).val (XR.neg (lit 0 : SZ F).val)) := by
      rw [z]
      rcases (nn h).cases with h | h | ⟨y, hy, h⟩ <;> rw [h]
      · exact NN.nan
      · exact NN.pinf
      · exact NN.fin (by simpa using hy)
    refine clear k.round ?_
    show sumSign _ (sign (Arith.pow (lit 10 : SZ F) x) && _) = false
    rw [h]
    exact sumSign_clear k
  case tenPow => exact fun _ x => pws (lit0 (by norm_num))

end SZ
end Opac
