import Verif.Model.Ieee

/-! Comparison laws hold for the four carriers. -/

namespace Opac

instance : LawfulCmp ℝ where
  lt_nan_left a b h := by simp [Arith.isNaN] at h
  lt_nan_right a b h := by simp [Arith.isNaN] at h
  le_nan_left a b h := by simp [Arith.isNaN] at h
  le_nan_right a b h := by simp [Arith.isNaN] at h
  le_iff a b _ _ := by simp [Arith.le, Arith.lt]
  lt_irrefl a := by simp [Arith.lt]
  lt_trans a b c := by simpa [Arith.lt] using fun h1 h2 => _root_.lt_trans h1 h2
  le_trans a b c := by simpa [Arith.le] using fun h1 h2 => _root_.le_trans h1 h2
  le_of_lt a b := by simpa [Arith.le, Arith.lt] using fun h => _root_.le_of_lt h

instance (rd : ℝ → ℝ) : LawfulCmp (Fl rd) where
  lt_nan_left a b h := by simp [Arith.isNaN] at h
  lt_nan_right a b h := by simp [Arith.isNaN] at h
  le_nan_left a b h := by simp [Arith.isNaN] at h
  le_nan_right a b h := by simp [Arith.isNaN] at h
  le_iff a b _ _ := by simp [Arith.le, Arith.lt]
  lt_irrefl a := by simp [Arith.lt]
  lt_trans a b c := by simpa [Arith.lt] using fun h1 h2 => _root_.lt_trans h1 h2
  le_trans a b c := by simpa [Arith.le] using fun h1 h2 => _root_.le_trans h1 h2
  le_of_lt a b := by simpa [Arith.le, Arith.lt] using fun h => _root_.le_of_lt h

instance : LawfulCmp XR where
  lt_nan_left a b h := by cases a <;> simp_all [Arith.isNaN, Arith.lt, XR.lt]
  lt_nan_right a b h := by cases a <;> cases b <;> simp_all [Arith.isNaN, Arith.lt, XR.lt]
  le_nan_left a b h := by cases a <;> simp_all [Arith.isNaN, Arith.le, XR.le]
  le_nan_right a b h := by cases a <;> cases b <;> simp_all [Arith.isNaN, Arith.le, XR.le]
  le_iff a b ha hb := by
    cases a <;> cases b <;> simp_all [Arith.isNaN, Arith.le, Arith.lt, XR.le, XR.lt]
  lt_irrefl a := by cases a <;> simp [Arith.lt, XR.lt]
  lt_trans a b c h1 h2 := by
    cases a <;> cases b <;> cases c <;> simp_all [Arith.lt, XR.lt]
    exact _root_.lt_trans h1 h2
  le_trans a b c h1 h2 := by
    cases a <;> cases b <;> cases c <;> simp_all [Arith.le, XR.le]
    exact _root_.le_trans h1 h2
  le_of_lt a b h := by
    cases a <;> cases b <;> simp_all [Arith.le, Arith.lt, XR.le, XR.lt]
    exact _root_.le_of_lt h

/-- comparisons of floating-point numbers are those of their values -/
instance (F : FloatFormat) : LawfulCmp (IE F) where
  lt_nan_left a b h := by cases a; rename_i a; cases a <;> simp_all [Arith.isNaN, Arith.lt, XR.lt]
  lt_nan_right a b h := by cases a; cases b; rename_i a b; cases a <;> cases b <;> simp_all [Arith.isNaN, Arith.lt, XR.lt]
  le_nan_left a b h := by cases a; rename_i a; cases a <;> simp_all [Arith.isNaN, Arith.le, XR.le]
  le_nan_right a b h := by cases a; cases b; rename_i a b; cases a <;> cases b <;> simp_all [Arith.isNaN, Arith.le, XR.le]
  le_iff a b ha hb := by
    cases a; cases b; rename_i a b
    cases a <;> cases b <;> simp_all [Arith.isNaN, Arith.le, Arith.lt, XR.le, XR.lt]
  lt_irrefl a := by cases a; rename_i a; cases a <;> simp [Arith.lt, XR.lt]
  lt_trans a b c h1 h2 := (inferInstance : LawfulCmp XR).lt_trans a.val b.val c.val h1 h2
  le_trans a b c h1 h2 := (inferInstance : LawfulCmp XR).le_trans a.val b.val c.val h1 h2
  le_of_lt a b h := (inferInstance : LawfulCmp XR).le_of_lt a.val b.val h

namespace Cmp
open Arith
variable {R : Type} [Arith R] [LawfulCmp R]

theorem not_nan_of_lt {a b : R} (h : lt a b = true) : isNaN a = false ∧ isNaN b = false := by
  constructor
  · by_contra hc
    have := LawfulCmp.lt_nan_left a b (by simpa using hc)
    simp_all
  · by_contra hc
    have := LawfulCmp.lt_nan_right a b (by simpa using hc)
    simp_all

theorem not_nan_of_le {a b : R} (h : le a b = true) : isNaN a = false ∧ isNaN b = false := by
  constructor
  · by_contra hc
    have := LawfulCmp.le_nan_left a b (by simpa using hc)
    simp_all
  · by_contra hc
    have := LawfulCmp.le_nan_right a b (by simpa using hc)
    simp_all

theorem le_of_not_lt {a b : R} (ha : isNaN a = false) (hb : isNaN b = false) (h : lt b a = false) :
    le a b = true := (LawfulCmp.le_iff a b ha hb).2 h

theorem not_lt_of_le {a b : R} (h : le a b = true) : lt b a = false :=
  (LawfulCmp.le_iff a b (not_nan_of_le h).1 (not_nan_of_le h).2).1 h

theorem lt_of_not_le {a b : R} (ha : isNaN a = false) (hb : isNaN b = false) (h : le a b = false) :
    lt b a = true := by
  by_contra hc
  have := le_of_not_lt ha hb (by simpa using hc)
  simp_all

theorem not_le_of_lt {a b : R} (h : lt a b = true) : le b a = false := by
  by_contra hc
  have := not_lt_of_le (a := b) (b := a) (by simpa using hc)
  simp_all

theorem le_refl {a : R} (ha : isNaN a = false) : le a a = true :=
  le_of_not_lt ha ha (LawfulCmp.lt_irrefl a)

theorem lt_of_le_of_lt {a b c : R} (h1 : le a b = true) (h2 : lt b c = true) : lt a c = true := by
  apply lt_of_not_le (not_nan_of_lt h2).2 (not_nan_of_le h1).1
  by_contra hc
  have := LawfulCmp.le_trans c a b (by simpa using hc) h1
  have := not_lt_of_le this
  simp_all

theorem lt_of_lt_of_le {a b c : R} (h1 : lt a b = true) (h2 : le b c = true) : lt a c = true := by
  apply lt_of_not_le (not_nan_of_le h2).2 (not_nan_of_lt h1).1
  by_contra hc
  have := LawfulCmp.le_trans b c a h2 (by simpa using hc)
  have := not_lt_of_le this
  simp_all

end Cmp
end Opac
