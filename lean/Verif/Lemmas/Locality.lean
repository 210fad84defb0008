import Verif.Lemmas.MeanFill
import Verif.Lemmas.NeutrinoMeans
import Verif.Lemmas.MeanAbort

/-! Lemmas: an entry of a mean table is determined by its node and its group. -/

namespace Opac
open Arith Outcome Spec Spiner

namespace Photons
variable {R : Type} [Arith R] [LawfulCmp R]
variable {pc : PC R} {junk junk' : ℕ → R} {coef : R → R → R → R} {NNu : ℤ}
  {lRhoMin lRhoMax lTMin lTMax lRhoMin' lRhoMax' lTMin' lTMax' : R} {NRho NT NRho' NT' : ℤ} {b b' : List R}
  {ngroups ngroups' : ℤ} {t t' : MGTables R}

theorem entry_local (h : MGTables.Impl_ pc junk coef lRhoMin lRhoMax NRho lTMin lTMax NT b ngroups NNu = ok t)
    (h' : MGTables.Impl_ pc junk' coef lRhoMin' lRhoMax' NRho' lTMin' lTMax' NT' b' ngroups' NNu = ok t')
    {i j g i' j' g' : ℕ} (hi : (i : ℤ) < NRho) (hj : (j : ℤ) < NT) (hg : (g : ℤ) < ngroups)
    (hi' : (i' : ℤ) < NRho') (hj' : (j' : ℤ) < NT') (hg' : (g' : ℤ) < ngroups')
    (hr : (⟨lRhoMin, lRhoMax, NRho⟩ : Grid R).x i = (⟨lRhoMin', lRhoMax', NRho'⟩ : Grid R).x i')
    (hT : (⟨lTMin, lTMax, NT⟩ : Grid R).x j = (⟨lTMin', lTMax', NT'⟩ : Grid R).x j')
    (h1 : b[g]? = b'[g']?) (h2 : b[g + 1]? = b'[g' + 1]?) :
    t.lPlanck.read [(i : ℤ), j, g] = t'.lPlanck.read [(i' : ℤ), j', g'] ∧
    t.lRosseland.read [(i : ℤ), j, g] = t'.lRosseland.read [(i' : ℤ), j', g'] := by
  have F := (Impl_filled (lit 0) h).cell j i g hj hi (by omega) trivial
  have F' := (Impl_filled (lit 0) h').cell j' i' g' hj' hi' (by omega) trivial
  have e : cellMeans pc coef b NNu (freshGrid lRhoMin lRhoMax NRho lTMin lTMax NT) (lit 0) j i g =
      cellMeans pc coef b' NNu (freshGrid lRhoMin' lRhoMax' NRho' lTMin' lTMax' NT') (lit 0) j' i' g' := by
    unfold cellMeans
    rw [List.getD_eq_getElem?_getD, List.getD_eq_getElem?_getD, List.getD_eq_getElem?_getD,
      List.getD_eq_getElem?_getD, h1, h2]
    show MGTables.GroupMeans pc coef (FromLog ((⟨lRhoMin, lRhoMax, NRho⟩ : Grid R).x i))
      (FromLog ((⟨lTMin, lTMax, NT⟩ : Grid R).x j)) _ _ _ = MGTables.GroupMeans pc coef
      (FromLog ((⟨lRhoMin', lRhoMax', NRho'⟩ : Grid R).x i')) (FromLog ((⟨lTMin', lTMax', NT'⟩ : Grid R).x j')) _ _ _
    rw [hr, hT]
  dsimp only at F F'
  rw [F.1, F'.1, F.2, F'.2, e]
  exact ⟨rfl, rfl⟩

theorem group_read (h : MGTables.Impl_ pc junk coef lRhoMin lRhoMax NRho lTMin lTMax NT b ngroups NNu = ok t)
    (h' : MGTables.Impl_ pc junk' coef lRhoMin lRhoMax NRho lTMin lTMax NT b' ngroups' NNu = ok t')
    {g g' : ℕ} (hg : (g : ℤ) < ngroups) (hg' : (g' : ℤ) < ngroups') (h1 : b[g]? = b'[g']?)
    (h2 : b[g + 1]? = b'[g' + 1]?) (i j : ℤ) :
    t.lPlanck.read [i, j, g] = t'.lPlanck.read [i, j, g'] ∧
    t.lRosseland.read [i, j, g] = t'.lRosseland.read [i, j, g'] := by
  by_cases hr : (0 ≤ i ∧ i < NRho) ∧ (0 ≤ j ∧ j < NT)
  · obtain ⟨⟨i0, i1⟩, j0, j1⟩ := hr
    have := entry_local h h' (i := i.toNat) (j := j.toNat) (g := g) (i' := i.toNat) (j' := j.toNat) (g' := g')
      (by omega) (by omega) hg (by omega) (by omega) hg' rfl rfl h1 h2
    rwa [Int.toNat_of_nonneg i0, Int.toNat_of_nonneg j0] at this
  · have F := Impl_filled (lit 0) h
    have F' := Impl_filled (lit 0) h'
    have d1 : t.lPlanck.dims = _ := F.dims1
    have d2 : t.lRosseland.dims = _ := F.dims2
    have d1' : t'.lPlanck.dims = _ := F'.dims1
    have d2' : t'.lRosseland.dims = _ := F'.dims2
    have e : ∀ ng ng' : ℤ, (g : ℤ) < ng → (g' : ℤ) < ng' → DataBox.offset [NRho, NT, ng] [i, j, g] =
        ub "DataBox index out of range" ∧ DataBox.offset [NRho, NT, ng'] [i, j, g'] = ub "DataBox index out of range" := by
      intro ng ng' _ _
      by_cases hi : 0 ≤ i ∧ i < NRho
      · have hj : ¬ (0 ≤ j ∧ j < NT) := fun hj => hr ⟨hi, hj⟩
        simp [DataBox.offset, hi, hj]
      · simp [DataBox.offset, hi]
    obtain ⟨e1, e2⟩ := e (ngroups.toNat : ℤ) (ngroups'.toNat : ℤ) (by omega) (by omega)
    unfold DataBox.read
    rw [d1, d2, d1', d2', e1, e2]
    exact ⟨rfl, rfl⟩

theorem lookup_of_read {d d' : DataBox R} (hg : d.grid = d'.grid) {g g' : ℤ}
    (h : ∀ i j : ℤ, d.read [i, j, g] = d'.read [i, j, g']) (rho temp : R) :
    MGTables.GroupCoefficient_ d rho temp g = MGTables.GroupCoefficient_ d' rho temp g' := by
  unfold MGTables.GroupCoefficient_ DataBox.interp3
  rw [hg]
  simp only [h]

theorem group_lookup (h : MGTables.Impl_ pc junk coef lRhoMin lRhoMax NRho lTMin lTMax NT b ngroups NNu = ok t)
    (h' : MGTables.Impl_ pc junk' coef lRhoMin lRhoMax NRho lTMin lTMax NT b' ngroups' NNu = ok t')
    {g g' : ℕ} (hg : (g : ℤ) < ngroups) (hg' : (g' : ℤ) < ngroups') (h1 : b[g]? = b'[g']?)
    (h2 : b[g + 1]? = b'[g' + 1]?) (rho temp : R) :
    t.PlanckGroupCoefficient rho temp g = t'.PlanckGroupCoefficient rho temp g' ∧
    t.RosselandGroupCoefficient rho temp g = t'.RosselandGroupCoefficient rho temp g' := by
  have F := Impl_filled (lit 0) h
  have F' := Impl_filled (lit 0) h'
  have r := group_read h h' hg hg' h1 h2
  exact ⟨lookup_of_read (F.grid1.trans F'.grid1.symm) (fun i j => (r i j).1) rho temp,
    lookup_of_read (F.grid2.trans F'.grid2.symm) (fun i j => (r i j).2) rho temp⟩

theorem accepted_bounds (h : MGTables.Impl_ pc junk coef lRhoMin lRhoMax NRho lTMin lTMax NT b ngroups NNu = ok t) :
    2 ≤ NNu ∧ AcceptableBounds b ngroups := by
  unfold MGTables.Impl_ at h
  by_cases hN : NNu < 2
  · simp [hN] at h
  · simp only [hN, if_false, bind_eq_ok, pure_def] at h
    obtain ⟨_, hv, _⟩ := h
    exact ⟨by omega, (Validate_ok_iff b ngroups).1 hv⟩

theorem lower_nonneg (ha : AcceptableBounds b ngroups) {g : ℕ} (hg : (g : ℤ) < ngroups) {lo : R}
    (hlo : b[g]? = some lo) : le (lit 0) lo = true := by
  induction g generalizing lo with
  | zero => exact ha.first_nonneg lo hlo
  | succ g ih =>
    have hlt : g < b.length := by have := ha.enough; omega
    have h0 : b[g]? = some b[g] := List.getElem?_eq_getElem hlt
    exact LawfulCmp.le_trans _ _ _ (ih (by omega) h0)
      (LawfulCmp.le_of_lt _ _ (ha.increasing g _ _ (by omega) h0 hlo))

theorem single_acceptable (ha : AcceptableBounds b ngroups) {g : ℕ} (hg : (g : ℤ) < ngroups) {lo hi : R}
    (hlo : b[g]? = some lo) (hhi : b[g + 1]? = some hi) : AcceptableBounds [lo, hi] 1 where
  some_group := le_rfl
  enough := by norm_num
  not_nan := by
    intro i x h hx
    have : i = 0 ∨ i = 1 := by omega
    rcases this with rfl | rfl
    · simp at hx; subst hx; exact ha.not_nan g _ (by omega) hlo
    · simp at hx; subst hx; exact ha.not_nan (g + 1) _ (by push_cast; omega) hhi
  first_nonneg := by intro x hx; simp at hx; subst hx; exact lower_nonneg ha hg hlo
  increasing := by
    intro i x y h hx hy
    have : i = 0 := by omega
    subst this
    simp at hx hy; subst hx; subst hy
    exact ha.increasing g _ _ hg hlo hhi
  finite_inside := by
    intro i x h hx
    have : i = 0 := by omega
    subst this
    simp at hx; subst hx
    exact ha.finite_inside g _ hg hlo

theorem single_returns (h : MGTables.Impl_ pc junk coef lRhoMin lRhoMax NRho lTMin lTMax NT b ngroups NNu = ok t)
    {g : ℕ} (hg : (g : ℤ) < ngroups) {lo hi : R} (hlo : b[g]? = some lo) (hhi : b[g + 1]? = some hi) :
    ∃ t', MGTables.Impl_ pc junk' coef lRhoMin lRhoMax NRho lTMin lTMax NT [lo, hi] 1 NNu = ok t' := by
  obtain ⟨hN, ha⟩ := accepted_bounds h
  refine Impl_returns (dflt := lit 0) hN (single_acceptable ha hg hlo hhi) fun i j g' hi' hj' hg' => ?_
  have hg0 : g' = 0 := by simpa using hg'
  subst hg0
  by_contra hc
  have hne : ¬ FineCell (cellMeans pc coef b NNu (freshGrid lRhoMin lRhoMax NRho lTMin lTMax NT) (lit 0) i j g) := by
    intro hf
    apply hc
    have e : cellMeans pc coef [lo, hi] NNu (freshGrid lRhoMin lRhoMax NRho lTMin lTMax NT) (lit 0) i j 0 =
        cellMeans pc coef b NNu (freshGrid lRhoMin lRhoMax NRho lTMin lTMax NT) (lit 0) i j g := by
      unfold cellMeans
      rw [List.getD_eq_getElem?_getD (l := b), List.getD_eq_getElem?_getD (l := b), hlo, hhi]
      rfl
    rw [e]
    exact hf
  obtain ⟨m, hm⟩ := Impl_aborts (pc := pc) (junk := junk) (coef := coef) hN ha hi' hj' (by omega) hne
  rw [h] at hm
  cases hm

end Photons

namespace Neutrinos.MeanTables
variable {R : Type} [Arith R]
variable {o : Sampler R} {l1 l2 : R} {NNu NRho NT NYe NRho' NT' NYe' : ℤ} {t₀ t₀' t t' : MeanTables R}
  {cell cell' : ℕ → ℕ → ℕ → ℕ → MeanTables R → Outcome (MeanTables R)}

theorem entry_local
    (h : ∀ a b c d : ℕ, (a : ℤ) < NRho → (b : ℤ) < NT → (c : ℤ) < NYe → d < 3 → ∃ k, NodeSums o l1 l2 NNu t₀ a b c d k ∧
      Cell.val t (.planck a b c d) = ok (toLog_ (means k).1) ∧ Cell.val t (.rosseland a b c d) = ok (toLog_ (means k).2))
    (h' : ∀ a b c d : ℕ, (a : ℤ) < NRho' → (b : ℤ) < NT' → (c : ℤ) < NYe' → d < 3 → ∃ k, NodeSums o l1 l2 NNu t₀' a b c d k ∧
      Cell.val t' (.planck a b c d) = ok (toLog_ (means k).1) ∧ Cell.val t' (.rosseland a b c d) = ok (toLog_ (means k).2))
    {i j k i' j' k' d : ℕ} (hi : (i : ℤ) < NRho) (hj : (j : ℤ) < NT) (hk : (k : ℤ) < NYe) (hi' : (i' : ℤ) < NRho')
    (hj' : (j' : ℤ) < NT') (hk' : (k' : ℤ) < NYe') (hd : d < 3)
    (er : (t₀.lPlanck.range 3).x i = (t₀'.lPlanck.range 3).x i') (eT : (t₀.lPlanck.range 2).x j = (t₀'.lPlanck.range 2).x j')
    (eY : (t₀.lPlanck.range 1).x k = (t₀'.lPlanck.range 1).x k') :
    t.lPlanck.read [(i : ℤ), j, k, d] = t'.lPlanck.read [(i' : ℤ), j', k', d] ∧
    t.lRosseland.read [(i : ℤ), j, k, d] = t'.lRosseland.read [(i' : ℤ), j', k', d] := by
  obtain ⟨q, ⟨s, hs, hq⟩, p1, p2⟩ := h i j k d hi hj hk hd
  obtain ⟨q', ⟨s', hs', hq'⟩, p1', p2'⟩ := h' i' j' k' d hi' hj' hk' hd
  rw [hs] at hs'; cases hs'
  rw [er, eT, eY, hq'] at hq; cases hq
  exact ⟨p1.trans p1'.symm, p2.trans p2'.symm⟩

end Neutrinos.MeanTables
end Opac
