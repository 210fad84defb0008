import Verif.Lemmas.Cells
import Verif.Lemmas.Table
import Verif.Lemmas.RealArith
import Verif.Lemmas.Thermal
import Verif.Model.MeanNeutrino
import Verif.Spec.NeutrinoMeans

/-! Every cell of the mean tables of neutrinos holds the means of its node. -/

namespace Opac.Neutrinos.MeanTables
open Arith Outcome Spiner

set_option linter.unusedSectionVars false

section any
variable {R : Type} [Arith R]

/-- a cell of one of the two tables -/
inductive Cell where
  | planck (iRho iT iYe idx : ℕ)
  | rosseland (iRho iT iYe idx : ℕ)

/-- the contents of a cell -/
def Cell.val (t : MeanTables R) : Cell → Outcome R
  | .planck a b c d => t.lPlanck.read [(a : ℤ), b, c, d]
  | .rosseland a b c d => t.lRosseland.read [(a : ℤ), b, c, d]

/-- shapes and grids as in `t₀` -/
structure Same (t₀ t : MeanTables R) : Prop where
  p1 : t.lPlanck.dims = t₀.lPlanck.dims
  p2 : t.lPlanck.grid = t₀.lPlanck.grid
  r1 : t.lRosseland.dims = t₀.lRosseland.dims
  r2 : t.lRosseland.grid = t₀.lRosseland.grid

theorem same_refl (t : MeanTables R) : Same t t := ⟨rfl, rfl, rfl, rfl⟩

variable {o : Sampler R} {l1 l2 : R} {NNu NRho NT NYe : ℤ} {t₀ : MeanTables R}

/-- the sums at a node of the grids of `t₀` -/
def NodeSums (o : Sampler R) (l1 l2 : R) (NNu : ℤ) (t₀ : MeanTables R) (a b c d : ℕ) (k : Sums R) : Prop :=
  ∃ s, Idx2RadType d = ok s ∧
    cellSums o (fromLog_ ((t₀.lPlanck.range 3).x a)) (fromLog_ ((t₀.lPlanck.range 2).x b)) ((t₀.lPlanck.range 1).x c) s
      l1 l2 NNu = ok k

/-- what must be stored in each cell -/
def Entry (o : Sampler R) (l1 l2 : R) (NNu : ℤ) (t₀ : MeanTables R) : Cell → Outcome R → Prop
  | .planck a b c d, v => ∃ k, NodeSums o l1 l2 NNu t₀ a b c d k ∧ v = ok (toLog_ (means k).1)
  | .rosseland a b c d, v => ∃ k, NodeSums o l1 l2 NNu t₀ a b c d k ∧ v = ok (toLog_ (means k).2)

theorem store_effect {a b c d : ℕ} {k : R × R} {t t' : MeanTables R} (ht : Same t₀ t)
    (h : store a b c d k t = ok t') :
    Same t₀ t' ∧ Cell.val t' (.planck a b c d) = ok (toLog_ k.1) ∧
      Cell.val t' (.rosseland a b c d) = ok (toLog_ k.2) ∧
      ∀ q, q ∉ ({Cell.planck a b c d, Cell.rosseland a b c d} : Set Cell) → Cell.val t' q = Cell.val t q := by
  unfold store at h
  simp only [bind_eq_ok] at h
  obtain ⟨tp, hp, tr, hr, h⟩ := h
  have rp := fun js => read_write _ _ _ js _ hp
  have rr := fun js => read_write _ _ _ js _ hr
  have e : t' = ⟨tp, tr⟩ := by
    split at h
    · simp at h
    · cases h; rfl
  subst e
  refine ⟨⟨(rp []).1.trans ht.p1, (rp []).2.1.trans ht.p2, (rr []).1.trans ht.r1, (rr []).2.1.trans ht.r2⟩,
    (rp []).2.2.1, (rr []).2.2.1, ?_⟩
  intro q hq
  simp only [Set.mem_insert_iff, Set.mem_singleton_iff, not_or] at hq
  cases q with
  | planck a' b' c' d' =>
    refine (rp _).2.2.2 ?_
    intro heq
    simp only [List.cons.injEq, Nat.cast_inj, and_true] at heq
    obtain ⟨rfl, rfl, rfl, rfl⟩ := heq
    exact hq.1 rfl
  | rosseland a' b' c' d' =>
    refine (rr _).2.2.2 ?_
    intro heq
    simp only [List.cons.injEq, Nat.cast_inj, and_true] at heq
    obtain ⟨rfl, rfl, rfl, rfl⟩ := heq
    exact hq.2 rfl

local notation "F" => Fills Cell.val (Same t₀) (Entry o l1 l2 NNu t₀)

theorem ranges_eq {t : MeanTables R} (ht : Same t₀ t) (i : ℕ) : t.lPlanck.range i = t₀.lPlanck.range i := by
  simp only [DataBox.range, ht.p2]

theorem fillCell_fills (a b c d : ℕ) (t t' : MeanTables R) (ht : Same t₀ t)
    (h : fillCell o l1 l2 NNu a b c d t = ok t') : F {Cell.planck a b c d, Cell.rosseland a b c d} t t' := by
  unfold fillCell at h
  simp only [bind_eq_ok, ranges_eq ht] at h
  obtain ⟨s, hs, k, hk, h⟩ := h
  obtain ⟨h1, h2, h3, h4⟩ := store_effect ht h
  refine ⟨h1, ?_, h4⟩
  rintro q (rfl | rfl)
  · exact ⟨k, ⟨s, hs, hk⟩, h2⟩
  · exact ⟨k, ⟨s, hs, hk⟩, h3⟩

theorem fillCellS_fills (hN : 1 ≤ NNu) (a b c d : ℕ) (t t' : MeanTables R) (ht : Same t₀ t)
    (h : fillCellS o l1 l2 NNu a b c d t = ok t') : F {Cell.planck a b c d, Cell.rosseland a b c d} t t' := by
  unfold fillCellS at h
  simp only [bind_eq_ok, ranges_eq ht] at h
  obtain ⟨s, hs, ⟨k, t1⟩, hk, h⟩ := h
  cases h
  show F _ t t1
  set rho := fromLog_ ((t₀.lPlanck.range 3).x a) with hrho
  set T := fromLog_ ((t₀.lPlanck.range 2).x b) with hT
  set Ye := (t₀.lPlanck.range 1).x c with hYe
  have key : ∀ n : ℕ, ∀ k t1, forLoopM (n : ℤ) (fun inu (st : Sums R × MeanTables R) => do
      let alpha ← o.coef rho T Ye s (sampleNu l1 l2 NNu inu)
      let t ← store a b c d (means (addSample rho alpha (o.B T s (sampleNu l1 l2 NNu inu))
        (o.dBdT T s (sampleNu l1 l2 NNu inu)) (sampleNu l1 l2 NNu inu) ((l2 - l1) / lit NNu) st.1)) st.2
      return (addSample rho alpha (o.B T s (sampleNu l1 l2 NNu inu))
        (o.dBdT T s (sampleNu l1 l2 NNu inu)) (sampleNu l1 l2 NNu inu) ((l2 - l1) / lit NNu) st.1, t)) (Sums.zero, t) = ok (k, t1) →
      forLoopM (n : ℤ) (fun inu s' => (o.coef rho T Ye s (sampleNu l1 l2 NNu inu)).map' (fun alpha =>
        addSample rho alpha (o.B T s (sampleNu l1 l2 NNu inu)) (o.dBdT T s (sampleNu l1 l2 NNu inu)) (sampleNu l1 l2 NNu inu) ((l2 - l1) / lit NNu) s'))
        Sums.zero = ok k ∧ Same t₀ t1 ∧ (1 ≤ n → Cell.val t1 (.planck a b c d) = ok (toLog_ (means k).1) ∧
      Cell.val t1 (.rosseland a b c d) = ok (toLog_ (means k).2)) ∧
      ∀ q, q ∉ ({Cell.planck a b c d, Cell.rosseland a b c d} : Set Cell) → Cell.val t1 q = Cell.val t q := by
    intro n
    induction n with
    | zero =>
      intro k t1 h
      rw [forLoopM_nonpos (by norm_num)] at h
      cases h
      exact ⟨forLoopM_nonpos (by norm_num) _ _, ht, by simp, fun _ _ => rfl⟩
    | succ n ih =>
      intro k t1 h
      rw [forLoopM_succ] at h
      simp only [bind_eq_ok] at h
      obtain ⟨⟨k0, t0⟩, h0, alpha, ha, t2, h2, h⟩ := h
      cases h
      obtain ⟨i1, i2, i3, i4⟩ := ih k0 t0 h0
      obtain ⟨h1, h2, h3, h4⟩ := store_effect i2 h2
      refine ⟨?_, h1, fun _ => ⟨h2, h3⟩, fun q hq => (h4 q hq).trans (i4 q hq)⟩
      rw [forLoopM_succ]
      simp only [i1, ok_bind, ha]
      rfl
  obtain ⟨n, rfl⟩ : ∃ n : ℕ, NNu = (n : ℤ) := ⟨NNu.toNat, by omega⟩
  obtain ⟨h1, h2, h3, h4⟩ := key n k t1 hk
  obtain ⟨h3, h3'⟩ := h3 (by omega)
  refine ⟨h2, ?_, h4⟩
  rintro q (rfl | rfl)
  · exact ⟨k, ⟨s, hs, h1⟩, h3⟩
  · exact ⟨k, ⟨s, hs, h1⟩, h3'⟩

theorem loops_fills {cell : ℕ → ℕ → ℕ → ℕ → MeanTables R → Outcome (MeanTables R)}
    (hcell : ∀ a b c d t t', Same t₀ t → cell a b c d t = ok t' →
      F {Cell.planck a b c d, Cell.rosseland a b c d} t t') {t : MeanTables R}
    (h : loops NRho NT NYe cell t₀ = ok t) :
    Same t₀ t ∧ ∀ a b c d : ℕ, (a : ℤ) < NRho → (b : ℤ) < NT → (c : ℤ) < NYe → d < 3 →
      ∃ k, NodeSums o l1 l2 NNu t₀ a b c d k ∧ Cell.val t (.planck a b c d) = ok (toLog_ (means k).1) ∧
        Cell.val t (.rosseland a b c d) = ok (toLog_ (means k).2) := by
  unfold loops at h
  have L := loop_fills (val := Cell.val) (I := Same t₀) (E := Entry o l1 l2 NNu t₀) NRho _ (fun a => {q | ∃ b : ℕ, (b : ℤ) < NT ∧ q ∈ {q | ∃ c : ℕ, (c : ℤ) < NYe ∧ q ∈
      {q | ∃ d : ℕ, (d : ℤ) < NEUTRINO_NTYPES ∧ q ∈ ({Cell.planck a b c d, Cell.rosseland a b c d} : Set Cell)}}}) (by
    intro a _ t t' ht hb
    refine loop_fills NT _ _ ?_ ht hb
    intro b _ t t' ht hb
    refine loop_fills NYe _ _ ?_ ht hb
    intro c _ t t' ht hb
    exact loop_fills NEUTRINO_NTYPES _ _ (fun d _ t t' ht hb => hcell a b c d t t' ht hb) ht hb) (same_refl t₀) h
  refine ⟨L.inv, fun a b c d ha hb hc hd => ?_⟩
  obtain ⟨k, ⟨s, hs, hk⟩, h1⟩ := L.done (.planck a b c d) ⟨a, ha, b, hb, c, hc, d, by unfold NEUTRINO_NTYPES; omega, .inl rfl⟩
  obtain ⟨k', ⟨s', hs', hk'⟩, h2⟩ := L.done (.rosseland a b c d) ⟨a, ha, b, hb, c, hc, d, by unfold NEUTRINO_NTYPES; omega, .inr rfl⟩
  rw [hs] at hs'; cases hs'
  rw [hk] at hk'; cases hk'
  exact ⟨k, ⟨s, hs, hk⟩, h1, h2⟩

/-- the loops return if every cell does -/
theorem loops_returns {cell : ℕ → ℕ → ℕ → ℕ → MeanTables R → Outcome (MeanTables R)}
    (hcell : ∀ a b c d : ℕ, (a : ℤ) < NRho → (b : ℤ) < NT → (c : ℤ) < NYe → d < 3 → ∀ t, Same t₀ t →
      ∃ t', cell a b c d t = ok t' ∧ Same t₀ t') :
    ∃ t, loops NRho NT NYe cell t₀ = ok t := by
  have := loop_ok (I := Same t₀) NRho (fun iRho t => forLoopM NT (fun iT t => forLoopM NYe (fun iYe t =>
    forLoopM NEUTRINO_NTYPES (fun idx t => cell iRho iT iYe idx t) t) t) t) (by
    intro a ha t ht
    refine loop_ok NT _ ?_ ht
    intro b hb t ht
    refine loop_ok NYe _ ?_ ht
    intro c hc t ht
    refine loop_ok NEUTRINO_NTYPES _ ?_ ht
    intro d hd t ht
    exact hcell a b c d ha hb hc (by unfold NEUTRINO_NTYPES at hd; omega) t ht) (same_refl t₀)
  obtain ⟨t, h, -⟩ := this
  exact ⟨t, h⟩

theorem store_returns {a b c d : ℕ} {k : R × R} {t : MeanTables R} {n4 n3 n2 : ℤ} (hp : t.lPlanck.dims = [n4, n3, n2, 3])
    (hr : t.lRosseland.dims = [n4, n3, n2, 3]) (ha : (a : ℤ) < n4) (hb : (b : ℤ) < n3) (hc : (c : ℤ) < n2) (hd : d < 3)
    (h1 : isNaN (toLog_ k.1) = false) (h2 : isNaN (toLog_ k.2) = false) : ∃ t', store a b c d k t = ok t' := by
  have rg : InRange [n4, n3, n2, 3] [(a : ℤ), b, c, d] :=
    ⟨⟨by omega, ha⟩, ⟨by omega, hb⟩, ⟨by omega, hc⟩, ⟨by omega, by omega⟩, trivial⟩
  obtain ⟨wp, hwp⟩ := write_ok t.lPlanck [(a : ℤ), b, c, d] (toLog_ k.1) (hp ▸ rg)
  obtain ⟨wr, hwr⟩ := write_ok t.lRosseland [(a : ℤ), b, c, d] (toLog_ k.2) (hr ▸ rg)
  refine ⟨⟨wp, wr⟩, ?_⟩
  simp only [store, hwp, hwr, ok_bind, h1, h2, Bool.or_false, Bool.false_eq_true, if_false, pure_def]

end any

/-! ## Over the reals -/

section real
open Finset Spec

open Classical in
/-- the four sums over the first `n` samples -/
noncomputable def sumsOf (ρ dl : ℝ) (ν B D α : ℕ → ℝ) (n : ℕ) : Sums ℝ where
  planckNum := ∑ i ∈ range n, α i / ρ * B i * ν i * dl
  planckDenom := ∑ i ∈ range n, B i * ν i * dl
  rosselandNum := ∑ i ∈ range n, if Robust.SMALL < α i then ρ / (α i + Robust.SMALL) * D i * ν i * dl else 0
  rosselandDenom := ∑ i ∈ range n, if Robust.SMALL < α i then D i * ν i * dl else 0

theorem addSample_eq (ρ dl : ℝ) (ν B D α : ℕ → ℝ) (n : ℕ) :
    addSample ρ (α n) (B n) (D n) (ν n) dl (sumsOf ρ dl ν B D α n) = sumsOf ρ dl ν B D α (n + 1) := by
  have hS := SMALL_pos
  unfold addSample sumsOf
  simp only [sum_range_succ]
  have hg : (Arith.gt (α n) (Robust.SMALL : ℝ)) = decide ((Robust.SMALL : ℝ) < α n) := rfl
  by_cases h : (Robust.SMALL : ℝ) < α n
  · have hg' : Arith.gt (α n) (Robust.SMALL : ℝ) = true := by rw [hg]; exact decide_eq_true h
    rw [if_pos hg', if_pos hg', if_pos h, if_pos h, ratio_nonneg (hS.trans h).le]
  · have hg' : ¬ (Arith.gt (α n) (Robust.SMALL : ℝ) = true) := by rw [hg, decide_eq_true_eq]; exact h
    rw [if_neg hg', if_neg hg', if_neg h, if_neg h, add_zero, add_zero]

theorem loop_sums {o : Sampler ℝ} {ρ T Ye : ℝ} {s : RadiationType} {ν : ℕ → ℝ} {dl : ℝ} (n : ℕ) (k : Sums ℝ)
    (h : forLoopM (n : ℤ) (fun inu s' => (o.coef ρ T Ye s (ν inu)).map' (fun alpha =>
        addSample ρ alpha (o.B T s (ν inu)) (o.dBdT T s (ν inu)) (ν inu) dl s')) Sums.zero = ok k) :
    ∃ α : ℕ → ℝ, (∀ i < n, o.coef ρ T Ye s (ν i) = ok (α i)) ∧
      k = sumsOf ρ dl ν (fun i => o.B T s (ν i)) (fun i => o.dBdT T s (ν i)) α n := by
  induction n generalizing k with
  | zero =>
    rw [forLoopM_nonpos (by norm_num)] at h
    cases h
    exact ⟨fun _ => 0, by simp, by simp [sumsOf, Sums.zero, areal]⟩
  | succ n ih =>
    rw [forLoopM_succ] at h
    simp only [bind_eq_ok, map'_eq_ok] at h
    obtain ⟨k0, h0, a, ha, h⟩ := h
    obtain ⟨α, h1, h2⟩ := ih k0 h0
    refine ⟨Function.update α n a, fun i hi => ?_, ?_⟩
    · by_cases hin : i = n
      · subst hin; simpa using ha
      · rw [Function.update_of_ne hin]; exact h1 i (by omega)
    · rw [← addSample_eq, ← h, Function.update_self]
      congr 1
      rw [h2]
      unfold sumsOf
      congr 1 <;>
      · apply sum_congr rfl
        intro i hi
        rw [Function.update_of_ne (by have := mem_range.1 hi; omega)]

theorem means_eq {ρ dl : ℝ} {ν B D α : ℕ → ℝ} {n : ℕ} (hρ : 0 < ρ) (hdl : 0 < dl) (hν : ∀ i, 0 < ν i)
    (hB : ∀ i, 0 < B i) (hD : ∀ i, 0 < D i) :
    means (sumsOf ρ dl ν B D α n) = (planckMean Robust.SMALL ρ n (fun i => ν i * dl) B α,
      openRosselandMean Robust.SMALL ρ n (fun i => ν i * dl) D α
        (planckMean Robust.SMALL ρ n (fun i => ν i * dl) B α)) := by
  classical
  have hS := SMALL_pos
  have d0 : 0 ≤ (sumsOf ρ dl ν B D α n).planckDenom := by
    show 0 ≤ ∑ i ∈ range n, _
    exact sum_nonneg fun i _ => (mul_pos (mul_pos (hB i) (hν i)) hdl).le
  have n0 : 0 ≤ (sumsOf ρ dl ν B D α n).rosselandNum := by
    show 0 ≤ ∑ i ∈ range n, _
    refine sum_nonneg fun i _ => ?_
    split_ifs with h
    · have : 0 < ρ / (α i + Robust.SMALL) := div_pos hρ (by linarith)
      exact (mul_pos (mul_pos (mul_pos this (hD i)) (hν i)) hdl).le
    · exact le_refl _
  have e1 : Robust.ratio (sumsOf ρ dl ν B D α n).planckNum (sumsOf ρ dl ν B D α n).planckDenom =
      planckMean Robust.SMALL ρ n (fun i => ν i * dl) B α := by
    rw [ratio_nonneg d0]
    unfold planckMean sumsOf
    simp only [mul_assoc]
  have e2 : (sumsOf ρ dl ν B D α n).rosselandNum = openPath Robust.SMALL ρ n (fun i => ν i * dl) D α := by
    unfold openPath sumsOf
    simp only [mul_assoc]
  have e3 : (sumsOf ρ dl ν B D α n).rosselandDenom = openWeight Robust.SMALL n (fun i => ν i * dl) D α := by
    unfold openWeight sumsOf
    simp only [mul_assoc]
  unfold means openRosselandMean
  simp only [e1, ratio_nonneg n0]
  simp only [e2, e3]
  refine Prod.ext rfl ?_
  show (if _ then _ else _) = if _ then _ else _
  simp only [areal, Bool.and_eq_true]
  norm_num

theorem fermiDT_pos {d : FermiDirac ℝ} (hg : 0 < d.NSPECIES) (hpc : PosPC d.pc) {T ν : ℝ} (hT : 0 < T) (hν : 0 < ν) :
    0 < d.DThermalDistributionOfTNuDT T ν := by
  obtain ⟨h1, h2, h3⟩ := hpc
  simp only [FermiDirac.DThermalDistributionOfTNuDT, areal]
  positivity

end real

end Opac.Neutrinos.MeanTables
