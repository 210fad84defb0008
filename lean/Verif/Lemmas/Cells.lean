import Verif.Lemmas.Outcome
import Mathlib.Data.Set.Basic

/-! Nested loops that fill the cells of a table: each cell's final value depends on the cell only. -/

namespace Opac
open Outcome

variable {σ C V : Type}

/-- going from `s` to `s'` fills the cells in `S` with values allowed by `E`, leaves the other cells as they were and
keeps the invariant `I` -/
structure Fills (val : σ → C → V) (I : σ → Prop) (E : C → V → Prop) (S : Set C) (s s' : σ) : Prop where
  inv : I s'
  done : ∀ c ∈ S, E c (val s' c)
  rest : ∀ c ∉ S, val s' c = val s c

variable {val : σ → C → V} {I : σ → Prop} {E : C → V → Prop}

theorem Fills.refl {s : σ} (h : I s) : Fills val I E ∅ s s := ⟨h, by simp, fun _ _ => rfl⟩

theorem Fills.trans {S T : Set C} {s s' s'' : σ} (h1 : Fills val I E S s s') (h2 : Fills val I E T s' s'') :
    Fills val I E (S ∪ T) s s'' := by
  refine ⟨h2.inv, fun c hc => ?_, fun c hc => ?_⟩
  · by_cases ht : c ∈ T
    · exact h2.done c ht
    · rw [h2.rest c ht]; exact h1.done c (hc.resolve_right ht)
  · simp only [Set.mem_union, not_or] at hc
    rw [h2.rest c hc.2, h1.rest c hc.1]

theorem Fills.congr {S T : Set C} {s s' : σ} (h : Fills val I E S s s') (hST : S = T) : Fills val I E T s s' := hST ▸ h

/-- partial correctness of a loop -/
theorem loop_fills (n : ℤ) (body : ℕ → σ → Outcome σ) (S : ℕ → Set C)
    (hb : ∀ i : ℕ, (i : ℤ) < n → ∀ s s', I s → body i s = ok s' → Fills val I E (S i) s s') {s s' : σ} (hs : I s)
    (h : forLoopM n body s = ok s') : Fills val I E {c | ∃ i : ℕ, (i : ℤ) < n ∧ c ∈ S i} s s' := by
  by_cases hn : n ≤ 0
  · rw [forLoopM_nonpos hn] at h
    cases h
    refine (Fills.refl hs).congr ?_
    ext c
    simp only [Set.mem_empty_iff_false, Set.mem_ofPred_eq, false_iff, not_exists, not_and]
    intro i hi
    omega
  · rw [forLoopM_cast n (by omega)] at h
    have := forLoopM_inv' n.toNat body (fun k t => Fills val I E {c | ∃ i < k, c ∈ S i} s t) s s'
      ((Fills.refl hs).congr (by ext c; simp))
      (fun i hi t t' ht hbt => (ht.trans (hb i (by omega) t t' ht.inv hbt)).congr (by
        ext c
        simp only [Set.mem_union, Set.mem_ofPred_eq]
        constructor
        · rintro (⟨k, hk, hc⟩ | hc)
          · exact ⟨k, by omega, hc⟩
          · exact ⟨i, by omega, hc⟩
        · rintro ⟨k, hk, hc⟩
          by_cases hki : k = i
          · subst hki; exact .inr hc
          · exact .inl ⟨k, by omega, hc⟩)) h
    refine this.congr ?_
    ext c
    simp only [Set.mem_ofPred_eq]
    exact ⟨fun ⟨i, hi, hc⟩ => ⟨i, by omega, hc⟩, fun ⟨i, hi, hc⟩ => ⟨i, by omega, hc⟩⟩

/-- a loop whose body returns -/
theorem loop_ok (n : ℤ) (body : ℕ → σ → Outcome σ)
    (hb : ∀ i : ℕ, (i : ℤ) < n → ∀ s, I s → ∃ s', body i s = ok s' ∧ I s') {s : σ} (hs : I s) :
    ∃ s', forLoopM n body s = ok s' ∧ I s' := by
  by_cases hn : n ≤ 0
  · exact ⟨s, forLoopM_nonpos hn _ _, hs⟩
  · rw [forLoopM_cast n (by omega)]
    exact forLoopM_inv n.toNat body (fun _ t => I t) s hs (fun i hi t ht => hb i (by omega) t ht)

/-- a loop whose first iteration is undefined -/
theorem loop_ub {n : ℤ} (hn : 1 ≤ n) (body : ℕ → σ → Outcome σ) (s : σ) (h : (body 0 s).IsUB) :
    (forLoopM n body s).IsUB := by
  obtain ⟨q, rfl⟩ : ∃ q : ℕ, n = ((q + 1 : ℕ) : ℤ) := ⟨(n - 1).toNat, by omega⟩
  clear hn
  induction q with
  | zero => rw [forLoopM_succ, forLoopM_nonpos (by norm_num)]; exact h
  | succ q ih =>
    obtain ⟨w, hw⟩ := ih
    rw [forLoopM_succ, hw]
    exact ⟨w, rfl⟩

end Opac
