import Verif.Spec.Uninitialised
import Verif.Lemmas.Table

/-! Lemmas: loops over tables whose fresh contents differ. -/

namespace Opac
open Spiner Outcome

namespace SameOutcome
variable {α β γ δ S S' : Type}

theorem bind {P : α → β → Prop} {Q : γ → δ → Prop} {x : Outcome α} {y : Outcome β} {f : α → Outcome γ}
    {g : β → Outcome δ} (h : SameOutcome P x y) (hf : ∀ a b, P a b → SameOutcome Q (f a) (g b)) :
    SameOutcome Q (x >>= f) (y >>= g) := by
  cases x <;> cases y <;> first | exact h.elim | exact hf _ _ h | exact h

theorem mono {P Q : α → β → Prop} {x : Outcome α} {y : Outcome β} (h : SameOutcome P x y)
    (hf : ∀ a b, P a b → Q a b) : SameOutcome Q x y := by
  cases x <;> cases y <;> first | exact h.elim | exact hf _ _ h | exact h

theorem refl (x : Outcome α) : SameOutcome (· = ·) x x := by cases x <;> rfl

/-- the same step in both runs, then related continuations -/
theorem same (x : Outcome α) {Q : γ → δ → Prop} {f : α → Outcome γ} {g : α → Outcome δ}
    (hf : ∀ a, SameOutcome Q (f a) (g a)) : SameOutcome Q (x >>= f) (x >>= g) :=
  (refl x).bind (by rintro a _ rfl; exact hf a)

theorem map' {P : α → β → Prop} {Q : γ → δ → Prop} {x : Outcome α} {y : Outcome β} {f : α → γ} {g : β → δ}
    (h : SameOutcome P x y) (hf : ∀ a b, P a b → Q (f a) (g b)) : SameOutcome Q (x.map' f) (y.map' g) := by
  cases x <;> cases y <;> first | exact h.elim | exact hf _ _ h | exact h

theorem loop (n : ℤ) (P : ℕ → S → S' → Prop) {body : ℕ → S → Outcome S} {body' : ℕ → S' → Outcome S'} {s : S} {s' : S'}
    (h0 : P 0 s s') (hstep : ∀ (i : ℕ) s s', (i : ℤ) < n → P i s s' → SameOutcome (P (i + 1)) (body i s) (body' i s')) :
    SameOutcome (P n.toNat) (forLoopM n body s) (forLoopM n body' s') := by
  by_cases hn : n ≤ 0
  · rw [forLoopM_nonpos hn, forLoopM_nonpos hn, Int.toNat_of_nonpos hn]; exact h0
  rw [forLoopM_cast n (by omega), forLoopM_cast n (by omega) body']
  have key : ∀ m : ℕ, m ≤ n.toNat → SameOutcome (P m) (forLoopM m body s) (forLoopM m body' s') := by
    intro m
    induction m with
    | zero => intro _; rw [Nat.cast_zero, forLoopM_zero, forLoopM_zero]; exact h0
    | succ m ih =>
      intro hm
      rw [forLoopM_succ, forLoopM_succ]
      exact (ih (by omega)).bind fun a b hab => hstep m a b (by omega) hab
  exact key _ le_rfl

/-- a loop that writes the places `W i` in its `i`-th round has written the places of all rounds -/
theorem loopW (n : ℤ) (A : Set (List ℤ) → S → S' → Prop) (W : ℕ → Set (List ℤ)) {body : ℕ → S → Outcome S}
    {body' : ℕ → S' → Outcome S'} (hmono : ∀ D D' s s', D' ⊆ D → A D s s' → A D' s s') {D : Set (List ℤ)} {s : S}
    {s' : S'} (h0 : A D s s')
    (hstep : ∀ i D s s', A D s s' → SameOutcome (A (D ∪ W i)) (body i s) (body' i s')) :
    SameOutcome (A (D ∪ {is | ∃ i : ℕ, (i : ℤ) < n ∧ is ∈ W i})) (forLoopM n body s) (forLoopM n body' s') := by
  refine (loop n (fun k => A (D ∪ {is | ∃ i < k, is ∈ W i})) (hmono _ _ _ _ (by
      rintro is (h | ⟨i, hi, _⟩)
      · exact h
      · omega) h0) ?_).mono ?_
  · intro i s s' _ h
    refine (hstep i _ s s' h).mono fun a b hab => hmono _ _ _ _ ?_ hab
    rintro is (hw | ⟨j, hj, hw⟩)
    · exact .inl (.inl hw)
    · rcases Nat.lt_succ_iff_lt_or_eq.1 hj with h1 | rfl
      · exact .inl (.inr ⟨j, h1, hw⟩)
      · exact .inr hw
  · intro a b hab
    refine hmono _ _ _ _ ?_ hab
    rintro is (h | ⟨j, hj, h⟩)
    · exact .inl h
    · exact .inr ⟨j, by omega, h⟩

end SameOutcome

namespace Spiner.DataBox
variable {R : Type}

/-- shape `ds` and the same axes, and the same entries at the places `D` -/
structure Agree (ds : List ℤ) (D : Set (List ℤ)) (d d' : DataBox R) : Prop where
  dims : d.dims = ds
  dims' : d'.dims = ds
  grid : d.grid = d'.grid
  read : ∀ is ∈ D, d.read is = d'.read is

variable {ds : List ℤ} {D D' : Set (List ℤ)} {d d' : DataBox R}

theorem Agree.mono (h : Agree ds D d d') (hs : D' ⊆ D) : Agree ds D' d d' :=
  ⟨h.dims, h.dims', h.grid, fun is hi => h.read is (hs hi)⟩

theorem read_out (h : d.dims = d'.dims) {is : List ℤ} (hi : ¬ InRange d.dims is) :
    d.read is = d'.read is := by
  unfold DataBox.read
  rw [← h]
  cases ho : DataBox.offset d.dims is with
  | ok o => exact absurd (offset_inRange ho) hi
  | abort m => rfl
  | ub m => rfl

theorem Agree.alike (h : Agree ds D d d') (hD : ∀ is, InRange ds is → is ∈ D) : d.Alike d' :=
  ⟨h.dims.trans h.dims'.symm, h.grid, fun is => by
    by_cases hi : InRange d.dims is
    · exact h.read is (hD is (h.dims ▸ hi))
    · exact read_out (h.dims.trans h.dims'.symm) hi⟩

theorem Agree.write [Arith R] (h : Agree ds D d d') (is : List ℤ) (v : R) :
    SameOutcome (Agree ds (D ∪ {is})) (d.write is v) (d'.write is v) := by
  have h1 : ∀ e : DataBox R, e.write is v =
      (DataBox.offset e.dims is).bind fun o => .ok { e with data := Function.update e.data o.toNat v } := fun _ => rfl
  cases ho : DataBox.offset ds is with
  | ok o =>
    have e1 : d.write is v = ok { d with data := Function.update d.data o.toNat v } := by rw [h1, h.dims, ho]; rfl
    have e2 : d'.write is v = ok { d' with data := Function.update d'.data o.toNat v } := by
      rw [h1, h.dims', ho]; rfl
    rw [e1, e2]
    refine ⟨h.dims, h.dims', h.grid, fun js hj => ?_⟩
    by_cases hij : is = js
    · subst hij
      exact (read_write _ _ is is v e1).2.2.1.trans (read_write _ _ is is v e2).2.2.1.symm
    · rw [(read_write _ _ is js v e1).2.2.2 hij, (read_write _ _ is js v e2).2.2.2 hij]
      rcases hj with hj | hj
      · exact h.read js hj
      · exact absurd hj.symm hij
  | abort m => rw [h1, h1, h.dims, h.dims', ho]; rfl
  | ub m => rw [h1, h1, h.dims, h.dims', ho]; rfl

theorem Alike.refl (d : DataBox R) : d.Alike d := ⟨rfl, rfl, fun _ => rfl⟩

end Spiner.DataBox
end Opac
