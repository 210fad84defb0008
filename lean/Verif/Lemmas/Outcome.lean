import Verif.Model.Spiner

/-! Rewriting and inversion lemmas for `Outcome`, `forLoop` and `forLoopM`. -/

namespace Opac
namespace Outcome
variable {α β : Type}

@[simp] theorem ok_bind (v : α) (f : α → Outcome β) : (ok v >>= f) = f v := rfl
@[simp] theorem abort_bind (m : String) (f : α → Outcome β) : (abort m >>= f) = abort m := rfl
@[simp] theorem ub_bind (m : String) (f : α → Outcome β) : (ub m >>= f) = ub m := rfl
@[simp] theorem bind_def (x : Outcome α) (f : α → Outcome β) : x.bind f = (x >>= f) := rfl
@[simp] theorem pure_def (v : α) : (pure v : Outcome α) = ok v := rfl

@[simp] theorem bind_ok_self (x : Outcome α) : (x >>= fun a => ok a) = x := by cases x <;> rfl

theorem bind_eq_ok {x : Outcome α} {f : α → Outcome β} {b : β} :
    (x >>= f) = ok b ↔ ∃ a, x = ok a ∧ f a = ok b := by
  cases x <;> simp

@[simp] theorem map'_ok (f : α → β) (v : α) : (ok v).map' f = ok (f v) := rfl
@[simp] theorem map'_abort (f : α → β) (m : String) : (abort m : Outcome α).map' f = abort m := rfl
@[simp] theorem map'_ub (f : α → β) (m : String) : (ub m : Outcome α).map' f = ub m := rfl

theorem map'_eq_ok {x : Outcome α} {f : α → β} {b : β} :
    x.map' f = ok b ↔ ∃ a, x = ok a ∧ f a = b := by
  cases x <;> simp

theorem map'_eq_abort {x : Outcome α} {f : α → β} {m : String} :
    x.map' f = abort m ↔ x = abort m := by
  cases x <;> simp

theorem map'_eq_ub {x : Outcome α} {f : α → β} {m : String} :
    x.map' f = ub m ↔ x = ub m := by
  cases x <;> simp

instance : LawfulMonad Outcome := LawfulMonad.mk' Outcome
  (id_map := by intro α x; cases x <;> rfl)
  (pure_bind := by intros; rfl)
  (bind_assoc := by intro α β γ x f g; cases x <;> rfl)

theorem aborts_map' {x : Outcome α} {f : α → β} : (x.map' f).Aborts ↔ x.Aborts := by
  cases x <;> simp [Aborts]

end Outcome

open Outcome

section forLoopM
variable {S : Type}

theorem forLoopM_nonpos {n : ℤ} (h : n ≤ 0) (body : ℕ → S → Outcome S) (s : S) :
    forLoopM n body s = ok s := by
  simp [forLoopM, Int.toNat_of_nonpos h]

theorem forLoopM_zero (body : ℕ → S → Outcome S) (s : S) : forLoopM 0 body s = ok s :=
  forLoopM_nonpos le_rfl body s

theorem forLoopM_succ (n : ℕ) (body : ℕ → S → Outcome S) (s : S) :
    forLoopM ((n + 1 : ℕ) : ℤ) body s = (forLoopM (n : ℤ) body s >>= fun s => body n s) := by
  simp [forLoopM, List.range_succ]

theorem forLoopM_cast (n : ℤ) (h : 0 ≤ n) (body : ℕ → S → Outcome S) (s : S) :
    forLoopM n body s = forLoopM (n.toNat : ℤ) body s := by
  rw [Int.toNat_of_nonneg h]

/-- A loop whose body returns and preserves an indexed invariant returns with the invariant at `n`. -/
theorem forLoopM_inv (n : ℕ) (body : ℕ → S → Outcome S) (P : ℕ → S → Prop) (s : S) (h0 : P 0 s)
    (hstep : ∀ i, i < n → ∀ s, P i s → ∃ s', body i s = ok s' ∧ P (i + 1) s') :
    ∃ s', forLoopM (n : ℤ) body s = ok s' ∧ P n s' := by
  induction n with
  | zero => exact ⟨s, by simp [forLoopM], h0⟩
  | succ n ih =>
    obtain ⟨s', h1, h2⟩ := ih (fun i hi => hstep i (Nat.lt_succ_of_lt hi))
    obtain ⟨s'', h3, h4⟩ := hstep n (Nat.lt_succ_self n) s' h2
    exact ⟨s'', by rw [forLoopM_succ, h1, ok_bind, h3], h4⟩

/-- partial-correctness form: if the loop returns, the invariant holds -/
theorem forLoopM_inv' (n : ℕ) (body : ℕ → S → Outcome S) (P : ℕ → S → Prop) (s s' : S) (h0 : P 0 s)
    (hstep : ∀ i, i < n → ∀ s s', P i s → body i s = ok s' → P (i + 1) s')
    (h : forLoopM (n : ℤ) body s = ok s') : P n s' := by
  induction n generalizing s' with
  | zero => simp [forLoopM] at h; subst h; exact h0
  | succ n ih =>
    rw [forLoopM_succ, bind_eq_ok] at h
    obtain ⟨a, h1, h2⟩ := h
    exact hstep n (Nat.lt_succ_self n) a s' (ih a (fun i hi => hstep i (Nat.lt_succ_of_lt hi)) h1) h2

theorem forLoopM_unit_ok (n : ℕ) (f : ℕ → Outcome Unit) :
    forLoopM (n : ℤ) (fun i _ => f i) () = ok () ↔ ∀ i, i < n → f i = ok () := by
  induction n with
  | zero => simp [forLoopM]
  | succ n ih =>
    rw [forLoopM_succ, bind_eq_ok]
    constructor
    · rintro ⟨a, h1, h2⟩ i hi
      rcases Nat.lt_succ_iff_lt_or_eq.1 hi with h | h
      · exact ih.1 h1 i h
      · subst h; exact h2
    · intro h
      exact ⟨(), ih.2 (fun i hi => h i (Nat.lt_succ_of_lt hi)), h n (Nat.lt_succ_self n)⟩

/-- if no iteration is UB, the loop returns or aborts -/
theorem forLoopM_unit_cases (n : ℕ) (f : ℕ → Outcome Unit) (h : ∀ i, i < n → ¬ (f i).IsUB) :
    forLoopM (n : ℤ) (fun i _ => f i) () = ok () ∨ (forLoopM (n : ℤ) (fun i _ => f i) ()).Aborts := by
  induction n with
  | zero => left; simp [forLoopM]
  | succ n ih =>
    rw [forLoopM_succ]
    rcases ih (fun i hi => h i (Nat.lt_succ_of_lt hi)) with h1 | ⟨m, h1⟩
    · rw [h1, ok_bind]
      have := h n (Nat.lt_succ_self n)
      cases hf : f n with
      | ok v => left; rfl
      | abort m => right; exact ⟨m, rfl⟩
      | ub w => exact absurd ⟨w, hf⟩ this
    · rw [h1]; right; exact ⟨m, rfl⟩

end forLoopM

section forLoop
variable {S : Type}

theorem forLoop_nonpos {n : ℤ} (h : n ≤ 0) (body : ℕ → S → S) (s : S) : forLoop n body s = s := by
  simp [forLoop, Int.toNat_of_nonpos h]

theorem forLoop_succ (n : ℕ) (body : ℕ → S → S) (s : S) :
    forLoop ((n + 1 : ℕ) : ℤ) body s = body n (forLoop (n : ℤ) body s) := by
  simp [forLoop, List.range_succ]

theorem forLoop_toNat (n : ℤ) (body : ℕ → S → S) (s : S) :
    forLoop n body s = forLoop (n.toNat : ℤ) body s := by
  unfold forLoop; rw [Int.toNat_natCast]

theorem forLoop_inv (n : ℕ) (body : ℕ → S → S) (P : ℕ → S → Prop) (s : S) (h0 : P 0 s)
    (hstep : ∀ i, i < n → ∀ s, P i s → P (i + 1) (body i s)) : P n (forLoop (n : ℤ) body s) := by
  induction n with
  | zero => simpa [forLoop] using h0
  | succ n ih =>
    rw [forLoop_succ]
    exact hstep n (Nat.lt_succ_self n) _ (ih (fun i hi => hstep i (Nat.lt_succ_of_lt hi)))

end forLoop

/-- `mapM` with a total body -/
theorem mapM_ok {α β : Type} (l : List α) (f : α → Outcome β) (g : α → β)
    (h : ∀ a ∈ l, f a = ok (g a)) : l.mapM f = ok (l.map g) := by
  induction l with
  | nil => rfl
  | cons a l ih =>
    simp [List.mapM_cons, h a (by simp), ih (fun b hb => h b (by simp [hb]))]

end Opac
