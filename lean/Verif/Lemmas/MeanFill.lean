import Verif.Lemmas.Groups
import Verif.Lemmas.Table

/-! Every cell of a freshly built mean-opacity table holds the means of its node. -/

namespace Opac.Photons
open Arith Outcome Spec Spiner

set_option linter.unusedSectionVars false

variable {R : Type} [Arith R]

/-- the empty table of the constructor -/
def emptyTable (junk : ℕ → R) (NRho NT : ℤ) (ng : ℕ) (lRhoMin lRhoMax lTMin lTMax : R) : DataBox R :=
  ((DataBox.resize [NRho, NT, (ng : ℤ)] junk (fun _ => Grid.none)).setRange 1 lTMin lTMax NT).setRange
    2 lRhoMin lRhoMax NRho

/-- the state of the two tables once the cells in `F` are filled -/
structure Filled (NRho NT : ℤ) (ng : ℕ) (grid : ℕ → Grid R) (k : ℕ → ℕ → ℕ → R × R) (F : ℕ → ℕ → ℕ → Prop)
    (s : DataBox R × DataBox R) : Prop where
  dims1 : s.1.dims = [NRho, NT, (ng : ℤ)]
  dims2 : s.2.dims = [NRho, NT, (ng : ℤ)]
  grid1 : s.1.grid = grid
  grid2 : s.2.grid = grid
  cell : ∀ i j g : ℕ, (i : ℤ) < NT → (j : ℤ) < NRho → g < ng → F i j g →
    s.1.read [(j : ℤ), (i : ℤ), (g : ℤ)] = ok (ToLog (k i j g).1) ∧
    s.2.read [(j : ℤ), (i : ℤ), (g : ℤ)] = ok (ToLog (k i j g).2)

/-- the means computed for cell `(iT, iRho, group)` -/
def cellMeans (pc : PC R) (coef : R → R → R → R) (b : List R) (NNu : ℤ) (grid : ℕ → Grid R) (dflt : R)
    (iT iRho group : ℕ) : R × R :=
  MGTables.GroupMeans pc coef (FromLog ((grid 2).x iRho)) (FromLog ((grid 1).x iT)) (b.getD group dflt)
    (b.getD (group + 1) dflt) NNu

theorem Filled.mono {NRho NT : ℤ} {ng : ℕ} {grid : ℕ → Grid R} {k : ℕ → ℕ → ℕ → R × R} {F F' : ℕ → ℕ → ℕ → Prop}
    {s : DataBox R × DataBox R} (h : Filled NRho NT ng grid k F s)
    (hF : ∀ i j g : ℕ, (i : ℤ) < NT → (j : ℤ) < NRho → g < ng → F' i j g → F i j g) :
    Filled NRho NT ng grid k F' s :=
  ⟨h.dims1, h.dims2, h.grid1, h.grid2, fun i j g hi hj hg hf => h.cell i j g hi hj hg (hF i j g hi hj hg hf)⟩

variable {pc : PC R} {coef : R → R → R → R} {b : List R} {NNu : ℤ}

/-- one cell -/
theorem FillCell_step {NRho NT : ℤ} {ng : ℕ} {grid : ℕ → Grid R} {F : ℕ → ℕ → ℕ → Prop} {dflt : R}
    {s : DataBox R × DataBox R} (hb : ng < b.length)
    (h : Filled NRho NT ng grid (cellMeans pc coef b NNu grid dflt) F s)
    {iT iRho g : ℕ} (hi : (iT : ℤ) < NT) (hj : (iRho : ℤ) < NRho) (hg : g < ng) :
    ∃ s', Filled NRho NT ng grid (cellMeans pc coef b NNu grid dflt)
        (fun i j g' => F i j g' ∨ (i = iT ∧ j = iRho ∧ g' = g)) s' ∧
      MGTables.FillCell pc coef b NNu iT iRho g s =
        (if isNaN (ToLog (cellMeans pc coef b NNu grid dflt iT iRho g).1) ||
            isNaN (ToLog (cellMeans pc coef b NNu grid dflt iT iRho g).2) then
          .abort "NAN in opacity evaluations" else ok s') := by
  have hr : InRange [NRho, NT, (ng : ℤ)] [(iRho : ℤ), (iT : ℤ), (g : ℤ)] :=
    ⟨⟨by omega, hj⟩, ⟨by omega, hi⟩, ⟨by omega, by omega⟩, trivial⟩
  have e0 : b.getD g dflt = b[g] := by simp [List.getD, List.getElem?_eq_getElem (show g < b.length by omega)]
  have e1 : b.getD (g + 1) dflt = b[g + 1] := by
    simp [List.getD, List.getElem?_eq_getElem (show g + 1 < b.length by omega)]
  set k := cellMeans pc coef b NNu grid dflt iT iRho g with hk
  have hk' : k = MGTables.GroupMeans pc coef (FromLog ((s.1.range 2).x iRho)) (FromLog ((s.1.range 1).x iT))
      b[g] b[g + 1] NNu := by
    rw [hk, cellMeans, e0, e1]; simp only [DataBox.range, h.grid1]
  obtain ⟨d1, w1⟩ := write_ok s.1 _ (ToLog k.1) (h.dims1 ▸ hr)
  obtain ⟨d2, w2⟩ := write_ok s.2 _ (ToLog k.2) (h.dims2 ▸ hr)
  refine ⟨(d1, d2), ?_, ?_⟩
  · have r1 := fun js => read_write s.1 d1 _ js _ w1
    have r2 := fun js => read_write s.2 d2 _ js _ w2
    refine ⟨(r1 []).1.trans h.dims1, (r2 []).1.trans h.dims2, (r1 []).2.1.trans h.grid1, (r2 []).2.1.trans h.grid2, ?_⟩
    intro i j g' hi' hj' hg' hf
    by_cases hc : i = iT ∧ j = iRho ∧ g' = g
    · obtain ⟨rfl, rfl, rfl⟩ := hc
      exact ⟨(r1 []).2.2.1, (r2 []).2.2.1⟩
    · have hne : [(iRho : ℤ), (iT : ℤ), (g : ℤ)] ≠ [(j : ℤ), (i : ℤ), (g' : ℤ)] := by
        intro he
        simp at he
        exact hc ⟨he.2.1.symm, he.1.symm, he.2.2.symm⟩
      have hF : F i j g' := by
        rcases hf with hf | hf
        · exact hf
        · exact absurd hf hc
      rw [(r1 _).2.2.2 hne, (r2 _).2.2.2 hne]
      exact h.cell i j g' hi' hj' hg' hF
  · unfold MGTables.FillCell
    rw [GroupBoundAt_lt (show g < b.length by omega), GroupBoundAt_lt (show g + 1 < b.length by omega)]
    simp only [ok_bind]
    rw [← hk', w1, w2]
    split_ifs <;> rfl

/-- the three nested loops -/
theorem fill_loops {NRho NT : ℤ} {ng : ℕ} {grid : ℕ → Grid R} {dflt : R} {s : DataBox R × DataBox R}
    (hb : ng < b.length) (h : Filled NRho NT ng grid (cellMeans pc coef b NNu grid dflt) (fun _ _ _ => False) s)
    (hnan : ∀ i j g : ℕ, (i : ℤ) < NT → (j : ℤ) < NRho → g < ng →
      isNaN (ToLog (cellMeans pc coef b NNu grid dflt i j g).1) = false ∧
      isNaN (ToLog (cellMeans pc coef b NNu grid dflt i j g).2) = false) :
    ∃ s', forLoopM NT (fun iT s => forLoopM NRho (fun iRho s =>
        forLoopM (ng : ℤ) (fun group s => MGTables.FillCell pc coef b NNu iT iRho group s) s) s) s = ok s' ∧
      Filled NRho NT ng grid (cellMeans pc coef b NNu grid dflt) (fun _ _ _ => True) s' := by
  have toN : ∀ (n : ℤ) (body : ℕ → DataBox R × DataBox R → Outcome (DataBox R × DataBox R)) s,
      forLoopM n body s = forLoopM (n.toNat : ℤ) body s := by
    intro n body s; unfold forLoopM; rw [Int.toNat_natCast]
  rw [toN]
  have L := forLoopM_inv NT.toNat (fun iT s => forLoopM NRho (fun iRho s =>
        forLoopM (ng : ℤ) (fun group s => MGTables.FillCell pc coef b NNu iT iRho group s) s) s)
    (fun n s => Filled NRho NT ng grid (cellMeans pc coef b NNu grid dflt) (fun i _ _ => i < n) s) s
    (h.mono (by intro i j g _ _ _ hf; omega)) ?_
  · obtain ⟨s', e, hs⟩ := L
    exact ⟨s', e, hs.mono (by intro i j g hi _ _ _; omega)⟩
  intro iT hiT s hs
  rw [toN]
  have L := forLoopM_inv NRho.toNat (fun iRho s =>
        forLoopM (ng : ℤ) (fun group s => MGTables.FillCell pc coef b NNu iT iRho group s) s)
    (fun n s => Filled NRho NT ng grid (cellMeans pc coef b NNu grid dflt)
      (fun i j _ => i < iT ∨ (i = iT ∧ j < n)) s) s
    (hs.mono (by intro i j g _ _ _ hf; omega)) ?_
  · obtain ⟨s', e, hs⟩ := L
    exact ⟨s', e, hs.mono (by intro i j g _ hj _ hf; omega)⟩
  intro iRho hiR s hs
  have L := forLoopM_inv ng (fun group s => MGTables.FillCell pc coef b NNu iT iRho group s)
    (fun n s => Filled NRho NT ng grid (cellMeans pc coef b NNu grid dflt)
      (fun i j g => i < iT ∨ (i = iT ∧ (j < iRho ∨ (j = iRho ∧ g < n)))) s) s
    (hs.mono (by intro i j g _ _ _ hf; omega)) ?_
  · obtain ⟨s', e, hs⟩ := L
    exact ⟨s', e, hs.mono (by intro i j g _ hj hg hf; omega)⟩
  intro g hg s hs
  obtain ⟨s', f, e⟩ := FillCell_step hb hs (show (iT : ℤ) < NT by omega) (show (iRho : ℤ) < NRho by omega) hg
  obtain ⟨n1, n2⟩ := hnan iT iRho g (by omega) (by omega) hg
  rw [n1, n2] at e
  exact ⟨s', e, f.mono (by intro i j g' _ _ _ hf; omega)⟩

/-- conversely: if the loops return, every cell is filled with its means, none of which is NaN -/
theorem fill_loops' {NRho NT : ℤ} {ng : ℕ} {grid : ℕ → Grid R} {dflt : R} {s s' : DataBox R × DataBox R}
    (hb : ng < b.length) (h : Filled NRho NT ng grid (cellMeans pc coef b NNu grid dflt) (fun _ _ _ => False) s)
    (e : forLoopM NT (fun iT s => forLoopM NRho (fun iRho s =>
        forLoopM (ng : ℤ) (fun group s => MGTables.FillCell pc coef b NNu iT iRho group s) s) s) s = ok s') :
    Filled NRho NT ng grid (cellMeans pc coef b NNu grid dflt) (fun _ _ _ => True) s' := by
  have toN : ∀ (n : ℤ) (body : ℕ → DataBox R × DataBox R → Outcome (DataBox R × DataBox R)) s,
      forLoopM n body s = forLoopM (n.toNat : ℤ) body s := by
    intro n body s; unfold forLoopM; rw [Int.toNat_natCast]
  rw [toN] at e
  have hs := forLoopM_inv' NT.toNat (fun iT s => forLoopM NRho (fun iRho s =>
        forLoopM (ng : ℤ) (fun group s => MGTables.FillCell pc coef b NNu iT iRho group s) s) s)
    (fun n s => Filled NRho NT ng grid (cellMeans pc coef b NNu grid dflt) (fun i _ _ => i < n) s) s s'
    (h.mono (by intro i j g _ _ _ hf; omega)) ?_ e
  · exact hs.mono (by intro i j g hi _ _ _; omega)
  intro iT hiT s s' hs e
  rw [toN] at e
  have hs := forLoopM_inv' NRho.toNat (fun iRho s =>
        forLoopM (ng : ℤ) (fun group s => MGTables.FillCell pc coef b NNu iT iRho group s) s)
    (fun n s => Filled NRho NT ng grid (cellMeans pc coef b NNu grid dflt)
      (fun i j _ => i < iT ∨ (i = iT ∧ j < n)) s) s s'
    (hs.mono (by intro i j g _ _ _ hf; omega)) ?_ e
  · exact hs.mono (by intro i j g _ hj _ hf; omega)
  intro iRho hiR s s' hs e
  have hs := forLoopM_inv' ng (fun group s => MGTables.FillCell pc coef b NNu iT iRho group s)
    (fun n s => Filled NRho NT ng grid (cellMeans pc coef b NNu grid dflt)
      (fun i j g => i < iT ∨ (i = iT ∧ (j < iRho ∨ (j = iRho ∧ g < n)))) s) s s'
    (hs.mono (by intro i j g _ _ _ hf; omega)) ?_ e
  · exact hs.mono (by intro i j g _ hj hg hf; omega)
  intro g hg s s' hs e
  obtain ⟨s2, f, e2⟩ := FillCell_step hb hs (show (iT : ℤ) < NT by omega) (show (iRho : ℤ) < NRho by omega) hg
  rw [e2] at e
  split_ifs at e
  cases e
  exact f.mono (by intro i j g' _ _ _ hf; omega)

/-- the grids of a fresh table -/
def freshGrid (lRhoMin lRhoMax : R) (NRho : ℤ) (lTMin lTMax : R) (NT : ℤ) : ℕ → Grid R :=
  Function.update (Function.update (fun _ => Grid.none) 1 { min := lTMin, max := lTMax, N := NT }) 2
    { min := lRhoMin, max := lRhoMax, N := NRho }

theorem filled_empty {junk : ℕ → R} {lRhoMin lRhoMax : R} {NRho : ℤ} {lTMin lTMax : R} {NT : ℤ} {ng : ℕ}
    {k : ℕ → ℕ → ℕ → R × R} :
    Filled NRho NT ng (freshGrid lRhoMin lRhoMax NRho lTMin lTMax NT) k (fun _ _ _ => False)
      (((DataBox.resize [NRho, NT, (ng : ℤ)] junk (fun _ => Grid.none)).setRange 1 lTMin lTMax NT).setRange
        2 lRhoMin lRhoMax NRho,
       (((DataBox.resize [NRho, NT, (ng : ℤ)] junk (fun _ => Grid.none)).setRange 1 lTMin lTMax NT).setRange
        2 lRhoMin lRhoMax NRho).copyMetadata junk) :=
  ⟨rfl, rfl, rfl, rfl, fun _ _ _ _ _ _ h => h.elim⟩

variable [LawfulCmp R]

/-- **the constructor fills every cell** -/
theorem Impl_filled {junk : ℕ → R} {lRhoMin lRhoMax : R} {NRho : ℤ} {lTMin lTMax : R} {NT : ℤ} {ngroups : ℤ}
    {t : MGTables R} (dflt : R)
    (h : MGTables.Impl_ pc junk coef lRhoMin lRhoMax NRho lTMin lTMax NT b ngroups NNu = ok t) :
    Filled NRho NT ngroups.toNat (freshGrid lRhoMin lRhoMax NRho lTMin lTMax NT)
      (cellMeans pc coef b NNu (freshGrid lRhoMin lRhoMax NRho lTMin lTMax NT) dflt) (fun _ _ _ => True)
      (t.lPlanck, t.lRosseland) := by
  unfold MGTables.Impl_ at h
  by_cases hN : NNu < 2
  · simp [hN] at h
  · simp only [hN, if_false, bind_eq_ok, pure_def] at h
    obtain ⟨_, h1, gb, h2, s, h3, h4⟩ := h
    cases h4
    have ha := (Validate_ok_iff b ngroups).1 h1
    have := ha.some_group; have := ha.enough
    exact fill_loops' (by omega) filled_empty h3

/-- **the constructor returns** unless the bounds are bad, the quadrature is too small or a mean is NaN -/
theorem Impl_returns {junk : ℕ → R} {lRhoMin lRhoMax : R} {NRho : ℤ} {lTMin lTMax : R} {NT : ℤ} {ngroups : ℤ} {dflt : R}
    (hN : 2 ≤ NNu) (ha : AcceptableBounds b ngroups)
    (hnan : ∀ i j g : ℕ, (i : ℤ) < NT → (j : ℤ) < NRho → g < ngroups.toNat →
      isNaN (ToLog (cellMeans pc coef b NNu (freshGrid lRhoMin lRhoMax NRho lTMin lTMax NT) dflt i j g).1) = false ∧
      isNaN (ToLog (cellMeans pc coef b NNu (freshGrid lRhoMin lRhoMax NRho lTMin lTMax NT) dflt i j g).2) = false) :
    ∃ t, MGTables.Impl_ pc junk coef lRhoMin lRhoMax NRho lTMin lTMax NT b ngroups NNu = ok t := by
  have := ha.some_group; have := ha.enough
  obtain ⟨s, e, -⟩ := fill_loops (pc := pc) (coef := coef) (b := b) (NNu := NNu) (by omega)
    (filled_empty (junk := junk) (lRhoMin := lRhoMin) (lRhoMax := lRhoMax) (lTMin := lTMin) (lTMax := lTMax)) hnan
  have hg : SetGroupBounds b ngroups.toNat = ok (b.take (ngroups.toNat + 1)) := copyBounds_ok _ _ (by omega)
  unfold MGTables.Impl_
  rw [if_neg (by omega), (Validate_ok_iff b ngroups).2 ha]
  simp only [ok_bind, pure_def, hg]
  rw [e]
  exact ⟨_, rfl⟩

end Opac.Photons
