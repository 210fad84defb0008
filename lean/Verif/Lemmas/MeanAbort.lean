import Verif.Lemmas.MeanFill

/-! When making photon tables aborts: exactly when a mean is NaN. -/

namespace Opac.Photons
open Arith Outcome Spec Spiner

set_option linter.unusedSectionVars false

/-- a loop whose body never is undefined behaviour -/
theorem forLoopM_or {S : Type} (n : ℕ) (body : ℕ → S → Outcome S) (P : ℕ → S → Prop) (s : S) (h0 : P 0 s)
    (hstep : ∀ i, i < n → ∀ s, P i s → (body i s).Aborts ∨ ∃ s', body i s = ok s' ∧ P (i + 1) s') :
    (forLoopM (n : ℤ) body s).Aborts ∨ ∃ s', forLoopM (n : ℤ) body s = ok s' ∧ P n s' := by
  induction n with
  | zero => exact .inr ⟨s, by simp [forLoopM], h0⟩
  | succ n ih =>
    rcases ih (fun i hi => hstep i (Nat.lt_succ_of_lt hi)) with ⟨m, h⟩ | ⟨s', h1, h2⟩
    · left; exact ⟨m, by rw [forLoopM_succ, h]; rfl⟩
    · rcases hstep n (Nat.lt_succ_self n) s' h2 with ⟨m, h⟩ | ⟨s'', h3, h4⟩
      · left; exact ⟨m, by rw [forLoopM_succ, h1, ok_bind, h]⟩
      · right; exact ⟨s'', by rw [forLoopM_succ, h1, ok_bind, h3], h4⟩

variable {R : Type} [Arith R] {pc : PC R} {coef : R → R → R → R} {b : List R} {NNu : ℤ}

/-- neither mean of a cell is NaN -/
def FineCell (k : R × R) : Prop := isNaN (ToLog k.1) = false ∧ isNaN (ToLog k.2) = false

/-- the filled cells are fine -/
structure FineFilled (NRho NT : ℤ) (ng : ℕ) (grid : ℕ → Grid R) (k : ℕ → ℕ → ℕ → R × R) (F : ℕ → ℕ → ℕ → Prop)
    (s : DataBox R × DataBox R) : Prop where
  filled : Filled NRho NT ng grid k F s
  fine : ∀ i j g : ℕ, (i : ℤ) < NT → (j : ℤ) < NRho → g < ng → F i j g → FineCell (k i j g)

theorem FineFilled.mono {NRho NT : ℤ} {ng : ℕ} {grid : ℕ → Grid R} {k : ℕ → ℕ → ℕ → R × R} {F F' : ℕ → ℕ → ℕ → Prop}
    {s : DataBox R × DataBox R} (h : FineFilled NRho NT ng grid k F s)
    (hF : ∀ i j g : ℕ, (i : ℤ) < NT → (j : ℤ) < NRho → g < ng → F' i j g → F i j g) :
    FineFilled NRho NT ng grid k F' s :=
  ⟨h.filled.mono hF, fun i j g hi hj hg hf => h.fine i j g hi hj hg (hF i j g hi hj hg hf)⟩

theorem loops_or {NRho NT : ℤ} {ng : ℕ} {grid : ℕ → Grid R} {dflt : R} {s : DataBox R × DataBox R}
    (hb : ng < b.length) (h : Filled NRho NT ng grid (cellMeans pc coef b NNu grid dflt) (fun _ _ _ => False) s) :
    (forLoopM NT (fun iT s => forLoopM NRho (fun iRho s =>
        forLoopM (ng : ℤ) (fun group s => MGTables.FillCell pc coef b NNu iT iRho group s) s) s) s).Aborts ∨
    ∃ s', forLoopM NT (fun iT s => forLoopM NRho (fun iRho s =>
        forLoopM (ng : ℤ) (fun group s => MGTables.FillCell pc coef b NNu iT iRho group s) s) s) s = ok s' ∧
      FineFilled NRho NT ng grid (cellMeans pc coef b NNu grid dflt) (fun _ _ _ => True) s' := by
  have toN : ∀ (n : ℤ) (body : ℕ → DataBox R × DataBox R → Outcome (DataBox R × DataBox R)) s,
      forLoopM n body s = forLoopM (n.toNat : ℤ) body s := by
    intro n body s; unfold forLoopM; rw [Int.toNat_natCast]
  have h' : FineFilled NRho NT ng grid (cellMeans pc coef b NNu grid dflt) (fun _ _ _ => False) s :=
    ⟨h, fun _ _ _ _ _ _ h => h.elim⟩
  rw [toN]
  have L := forLoopM_or NT.toNat (fun iT s => forLoopM NRho (fun iRho s =>
        forLoopM (ng : ℤ) (fun group s => MGTables.FillCell pc coef b NNu iT iRho group s) s) s)
    (fun n s => FineFilled NRho NT ng grid (cellMeans pc coef b NNu grid dflt) (fun i _ _ => i < n) s) s
    (h'.mono (by intro i j g _ _ _ hf; omega)) ?_
  · exact L.imp_right fun ⟨s', e, hs⟩ => ⟨s', e, hs.mono (by intro i j g hi _ _ _; omega)⟩
  intro iT hiT s hs
  rw [toN]
  have L := forLoopM_or NRho.toNat (fun iRho s =>
        forLoopM (ng : ℤ) (fun group s => MGTables.FillCell pc coef b NNu iT iRho group s) s)
    (fun n s => FineFilled NRho NT ng grid (cellMeans pc coef b NNu grid dflt)
      (fun i j _ => i < iT ∨ (i = iT ∧ j < n)) s) s
    (hs.mono (by intro i j g _ _ _ hf; omega)) ?_
  · exact L.imp_right fun ⟨s', e, hs⟩ => ⟨s', e, hs.mono (by intro i j g _ hj _ hf; omega)⟩
  intro iRho hiR s hs
  have L := forLoopM_or ng (fun group s => MGTables.FillCell pc coef b NNu iT iRho group s)
    (fun n s => FineFilled NRho NT ng grid (cellMeans pc coef b NNu grid dflt)
      (fun i j g => i < iT ∨ (i = iT ∧ (j < iRho ∨ (j = iRho ∧ g < n)))) s) s
    (hs.mono (by intro i j g _ _ _ hf; omega)) ?_
  · exact L.imp_right fun ⟨s', e, hs⟩ => ⟨s', e, hs.mono (by intro i j g _ hj hg hf; omega)⟩
  intro g hg s hs
  obtain ⟨s', f, e⟩ := FillCell_step hb hs.filled (show (iT : ℤ) < NT by omega) (show (iRho : ℤ) < NRho by omega) hg
  rw [e]
  split_ifs with hn
  · exact .inl ⟨_, rfl⟩
  · rw [Bool.or_eq_true, not_or, Bool.not_eq_true, Bool.not_eq_true] at hn
    refine .inr ⟨s', rfl, FineFilled.mono ⟨f, ?_⟩ (by intro i j g' _ _ _ hf; omega)⟩
    intro i j g' hi hj hg' hf
    rcases hf with hf | ⟨rfl, rfl, rfl⟩
    · exact hs.fine i j g' hi hj hg' hf
    · exact hn

variable [LawfulCmp R]

/-- **the constructor aborts** if a mean is NaN -/
theorem Impl_aborts {junk : ℕ → R} {lRhoMin lRhoMax : R} {NRho : ℤ} {lTMin lTMax : R} {NT : ℤ} {ngroups : ℤ} {dflt : R}
    (hN : 2 ≤ NNu) (ha : AcceptableBounds b ngroups)
    {i j g : ℕ} (hi : (i : ℤ) < NT) (hj : (j : ℤ) < NRho) (hg : g < ngroups.toNat)
    (hnan : ¬ FineCell (cellMeans pc coef b NNu (freshGrid lRhoMin lRhoMax NRho lTMin lTMax NT) dflt i j g)) :
    (MGTables.Impl_ pc junk coef lRhoMin lRhoMax NRho lTMin lTMax NT b ngroups NNu).Aborts := by
  have := ha.some_group; have := ha.enough
  have hset : SetGroupBounds b ngroups.toNat = ok (b.take (ngroups.toNat + 1)) := copyBounds_ok _ _ (by omega)
  unfold MGTables.Impl_
  rw [if_neg (by omega), (Validate_ok_iff b ngroups).2 ha]
  simp only [ok_bind, pure_def, hset]
  rcases loops_or (pc := pc) (coef := coef) (b := b) (NNu := NNu) (dflt := dflt) (by omega)
    (filled_empty (junk := junk) (lRhoMin := lRhoMin) (lRhoMax := lRhoMax) (NRho := NRho) (lTMin := lTMin) (lTMax := lTMax)
      (NT := NT) (ng := ngroups.toNat)) with ⟨m, e⟩ | ⟨s, e, hs⟩
  · rw [e]; exact ⟨m, rfl⟩
  · exact absurd (hs.fine i j g hi hj hg trivial) hnan

end Opac.Photons
