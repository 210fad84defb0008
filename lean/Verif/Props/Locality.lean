import Verif.Lemmas.Locality
import Verif.Props.MeanOutcome
import Verif.Props.NeutrinoMeans

/-! # C77: groups and nodes of a mean opacity are computed independently of each other

A multigroup mean of one group depends on that group's two bounds only, and a tabulated mean at one node on that node
only. All statements hold in every arithmetic with lawful comparisons (the reals, the extended reals, the doubles). -/

namespace Opac.Photons
open Arith Outcome Spec Spiner

variable {R : Type} [Arith R] [LawfulCmp R]
variable {pc : PC R} {junk junk' : ℕ → R} {lRhoMin lRhoMax lTMin lTMax lRhoMin' lRhoMax' lTMin' lTMax' : R}
  {NRho NT NRho' NT' : ℤ} {b b' : List R} {ngroups ngroups' NNu : ℤ}

theorem absorption_made {O : Type} [PhotonAPI R O] {o : O} {m : MeanOpacityBase R}
    (h : (MeanOpacityBase.construct pc junk o lRhoMin lRhoMax NRho lTMin lTMax NT b ngroups NNu).Returns m) :
    MGTables.Impl_ pc junk (PhotonAPI.AbsorptionCoefficient o) lRhoMin lRhoMax NRho lTMin lTMax NT b ngroups NNu = ok m.t := by
  unfold MeanOpacityBase.construct Outcome.Returns at h
  obtain ⟨t, ht, rfl⟩ := map'_eq_ok.1 h
  exact ht

theorem scattering_made {O : Type} [PhotonSAPI R O] {o : O} {m : MeanSOpacityBase R}
    (h : (MeanSOpacityBase.construct pc junk o lRhoMin lRhoMax NRho lTMin lTMax NT b ngroups NNu).Returns m) :
    MGTables.Impl_ pc junk (PhotonSAPI.TotalScatteringCoefficient o) lRhoMin lRhoMax NRho lTMin lTMax NT b ngroups NNu = ok m.t := by
  unfold MeanSOpacityBase.construct Outcome.Returns at h
  obtain ⟨t, ht, rfl⟩ := map'_eq_ok.1 h
  exact ht

/-- **C77, nodes**: two mean opacities made from the same opacity, on axes and with groups of their own, hold the same two
numbers wherever a node of the one is a node of the other and the group has the same two bounds. -/
theorem C77_nodes {O : Type} [PhotonAPI R O] {o : O} {m m' : MeanOpacityBase R}
    (h : (MeanOpacityBase.construct pc junk o lRhoMin lRhoMax NRho lTMin lTMax NT b ngroups NNu).Returns m)
    (h' : (MeanOpacityBase.construct pc junk' o lRhoMin' lRhoMax' NRho' lTMin' lTMax' NT' b' ngroups' NNu).Returns m')
    {i j g i' j' g' : ℕ} (hi : (i : ℤ) < NRho) (hj : (j : ℤ) < NT) (hg : (g : ℤ) < ngroups)
    (hi' : (i' : ℤ) < NRho') (hj' : (j' : ℤ) < NT') (hg' : (g' : ℤ) < ngroups')
    (hr : (⟨lRhoMin, lRhoMax, NRho⟩ : Grid R).x i = (⟨lRhoMin', lRhoMax', NRho'⟩ : Grid R).x i')
    (hT : (⟨lTMin, lTMax, NT⟩ : Grid R).x j = (⟨lTMin', lTMax', NT'⟩ : Grid R).x j')
    (h1 : b[g]? = b'[g']?) (h2 : b[g + 1]? = b'[g' + 1]?) :
    m.t.lPlanck.read [(i : ℤ), j, g] = m'.t.lPlanck.read [(i' : ℤ), j', g'] ∧
    m.t.lRosseland.read [(i : ℤ), j, g] = m'.t.lRosseland.read [(i' : ℤ), j', g'] :=
  entry_local (absorption_made h) (absorption_made h') hi hj hg hi' hj' hg' hr hT h1 h2

/-- **C77, nodes, scattering** -/
theorem C77_scattering_nodes {O : Type} [PhotonSAPI R O] {o : O} {m m' : MeanSOpacityBase R}
    (h : (MeanSOpacityBase.construct pc junk o lRhoMin lRhoMax NRho lTMin lTMax NT b ngroups NNu).Returns m)
    (h' : (MeanSOpacityBase.construct pc junk' o lRhoMin' lRhoMax' NRho' lTMin' lTMax' NT' b' ngroups' NNu).Returns m')
    {i j g i' j' g' : ℕ} (hi : (i : ℤ) < NRho) (hj : (j : ℤ) < NT) (hg : (g : ℤ) < ngroups)
    (hi' : (i' : ℤ) < NRho') (hj' : (j' : ℤ) < NT') (hg' : (g' : ℤ) < ngroups')
    (hr : (⟨lRhoMin, lRhoMax, NRho⟩ : Grid R).x i = (⟨lRhoMin', lRhoMax', NRho'⟩ : Grid R).x i')
    (hT : (⟨lTMin, lTMax, NT⟩ : Grid R).x j = (⟨lTMin', lTMax', NT'⟩ : Grid R).x j')
    (h1 : b[g]? = b'[g']?) (h2 : b[g + 1]? = b'[g' + 1]?) :
    m.t.lPlanck.read [(i : ℤ), j, g] = m'.t.lPlanck.read [(i' : ℤ), j', g'] ∧
    m.t.lRosseland.read [(i : ℤ), j, g] = m'.t.lRosseland.read [(i' : ℤ), j', g'] :=
  entry_local (scattering_made h) (scattering_made h') hi hj hg hi' hj' hg' hr hT h1 h2

/-- **C77, groups**: with the same axes, two group structures that share a group (at any two positions) give the same
Planck and Rosseland answers for it at every density and temperature, on the table, outside it or NaN. -/
theorem C77_groups {O : Type} [PhotonAPI R O] {o : O} {m m' : MeanOpacityBase R}
    (h : (MeanOpacityBase.construct pc junk o lRhoMin lRhoMax NRho lTMin lTMax NT b ngroups NNu).Returns m)
    (h' : (MeanOpacityBase.construct pc junk' o lRhoMin lRhoMax NRho lTMin lTMax NT b' ngroups' NNu).Returns m')
    {g g' : ℕ} (hg : (g : ℤ) < ngroups) (hg' : (g' : ℤ) < ngroups') (h1 : b[g]? = b'[g']?)
    (h2 : b[g + 1]? = b'[g' + 1]?) (rho temp : R) :
    m.t.PlanckGroupCoefficient rho temp g = m'.t.PlanckGroupCoefficient rho temp g' ∧
    m.t.RosselandGroupCoefficient rho temp g = m'.t.RosselandGroupCoefficient rho temp g' :=
  group_lookup (absorption_made h) (absorption_made h') hg hg' h1 h2 rho temp

/-- **C77, groups, scattering** -/
theorem C77_scattering_groups {O : Type} [PhotonSAPI R O] {o : O} {m m' : MeanSOpacityBase R}
    (h : (MeanSOpacityBase.construct pc junk o lRhoMin lRhoMax NRho lTMin lTMax NT b ngroups NNu).Returns m)
    (h' : (MeanSOpacityBase.construct pc junk' o lRhoMin lRhoMax NRho lTMin lTMax NT b' ngroups' NNu).Returns m')
    {g g' : ℕ} (hg : (g : ℤ) < ngroups) (hg' : (g' : ℤ) < ngroups') (h1 : b[g]? = b'[g']?)
    (h2 : b[g + 1]? = b'[g' + 1]?) (rho temp : R) :
    m.t.PlanckGroupCoefficient rho temp g = m'.t.PlanckGroupCoefficient rho temp g' ∧
    m.t.RosselandGroupCoefficient rho temp g = m'.t.RosselandGroupCoefficient rho temp g' :=
  group_lookup (scattering_made h) (scattering_made h') hg hg' h1 h2 rho temp

/-- **C77, one group alone**: if the multigroup opacity is made, so is the single-group opacity of any one of its groups,
and the single-group queries of the latter are the multigroup queries of that group. -/
theorem C77_single {O : Type} [PhotonAPI R O] {o : O} {m : MeanOpacityBase R} (debug : Bool)
    (h : (MeanOpacityBase.construct pc junk o lRhoMin lRhoMax NRho lTMin lTMax NT b ngroups NNu).Returns m)
    {g : ℕ} (hg : (g : ℤ) < ngroups) {lo hi : R} (hlo : b[g]? = some lo) (hhi : b[g + 1]? = some hi) :
    ∃ m', (MeanOpacityBase.construct pc junk' o lRhoMin lRhoMax NRho lTMin lTMax NT [lo, hi] 1 NNu).Returns m' ∧
      ∀ rho temp : R,
        MeanOpacityBase.PlanckMeanAbsorptionCoefficient debug m' rho temp = m.t.PlanckGroupCoefficient rho temp g ∧
        MeanOpacityBase.RosselandMeanAbsorptionCoefficient debug m' rho temp = m.t.RosselandGroupCoefficient rho temp g := by
  obtain ⟨t', ht'⟩ := single_returns (junk' := junk') (absorption_made h) hg hlo hhi
  have hm' : (MeanOpacityBase.construct pc junk' o lRhoMin lRhoMax NRho lTMin lTMax NT [lo, hi] 1 NNu).Returns ⟨pc, t'⟩ := by
    unfold MeanOpacityBase.construct Outcome.Returns
    rw [ht']; rfl
  have n1 : t'.ngroups = 1 := (Impl_ok ht').2.2.2
  refine ⟨_, hm', fun rho temp => ?_⟩
  have e := C77_groups h hm' hg (g' := 0) (by norm_num) hlo (by simpa using hhi) rho temp
  unfold MeanOpacityBase.PlanckMeanAbsorptionCoefficient MeanOpacityBase.RosselandMeanAbsorptionCoefficient
  simp only [n1, beq_self_eq_true, Bool.not_true, Bool.and_false, Bool.false_eq_true, if_false]
  exact ⟨e.1.symm, e.2.symm⟩

/-- **C77, one group alone, scattering** (which has no single-group queries: its only group is group 0) -/
theorem C77_scattering_single {O : Type} [PhotonSAPI R O] {o : O} {m : MeanSOpacityBase R}
    (h : (MeanSOpacityBase.construct pc junk o lRhoMin lRhoMax NRho lTMin lTMax NT b ngroups NNu).Returns m)
    {g : ℕ} (hg : (g : ℤ) < ngroups) {lo hi : R} (hlo : b[g]? = some lo) (hhi : b[g + 1]? = some hi) :
    ∃ m', (MeanSOpacityBase.construct pc junk' o lRhoMin lRhoMax NRho lTMin lTMax NT [lo, hi] 1 NNu).Returns m' ∧
      ∀ rho temp : R,
        m'.t.PlanckGroupCoefficient rho temp 0 = m.t.PlanckGroupCoefficient rho temp g ∧
        m'.t.RosselandGroupCoefficient rho temp 0 = m.t.RosselandGroupCoefficient rho temp g := by
  obtain ⟨t', ht'⟩ := single_returns (junk' := junk') (scattering_made h) hg hlo hhi
  have hm' : (MeanSOpacityBase.construct pc junk' o lRhoMin lRhoMax NRho lTMin lTMax NT [lo, hi] 1 NNu).Returns ⟨pc, t'⟩ := by
    unfold MeanSOpacityBase.construct Outcome.Returns
    rw [ht']; rfl
  refine ⟨_, hm', fun rho temp => ?_⟩
  have e := C77_scattering_groups h hm' hg (g' := 0) (by norm_num) hlo (by simpa using hhi) rho temp
  exact ⟨e.1.symm, e.2.symm⟩

theorem made_real (pc : PC ℝ) (junk : ℕ → ℝ) (κ : ℝ → ℝ → ℝ → ℝ) {b : List ℝ} {n : ℤ} (hn : 1 ≤ n) (hl : n < b.length)
    (h0 : ∀ x, b[0]? = some x → 0 ≤ x) (hi : ∀ (i : ℕ) (x y : ℝ), (i : ℤ) < n → b[i]? = some x → b[i + 1]? = some y → x < y) :
    ∃ t, (MGTables.Impl_ pc junk κ 0 1 3 0 1 2 b n 10).Returns t := by
  refine (C74_tables hl).1.2 ⟨by norm_num, ⟨hn, hl, fun _ _ _ _ => rfl, ?_, ?_, fun _ _ _ _ => rfl⟩, ?_⟩
  · intro x hx; simpa [areal] using h0 x hx
  · intro i x y h1 h2 h3; simpa [areal] using hi i x y h1 h2 h3
  · intro i j g lo hi _ _ _ _ _; exact ⟨rfl, rfl⟩

/-- the hypotheses are met: group 1 of the bounds 0, 1, 2 is group 0 of the bounds 1, 2, 5, and both opacities are made, for
every power law -/
example (o : PowerLawOpacity ℝ) (pc : PC ℝ) (junk junk' : ℕ → ℝ) :
    ∃ m m', (MeanOpacityBase.construct pc junk o 0 1 3 0 1 2 [0, 1, 2] 2 10).Returns m ∧
      (MeanOpacityBase.construct pc junk' o 0 1 3 0 1 2 [1, 2, 5] 2 10).Returns m' ∧
      (∀ rho temp, m.t.PlanckGroupCoefficient rho temp 1 = m'.t.PlanckGroupCoefficient rho temp 0) := by
  obtain ⟨t, ht⟩ := made_real pc junk (PhotonAPI.AbsorptionCoefficient o) (b := [0, 1, 2]) (n := 2) (by norm_num) (by norm_num)
    (by intro x hx; simp at hx; subst hx; norm_num) (by
      intro i x y hi hx hy
      have : i = 0 ∨ i = 1 := by omega
      rcases this with rfl | rfl <;> · simp at hx hy; subst hx; subst hy; norm_num)
  obtain ⟨t', ht'⟩ := made_real pc junk' (PhotonAPI.AbsorptionCoefficient o) (b := [1, 2, 5]) (n := 2) (by norm_num) (by norm_num)
    (by intro x hx; simp at hx; subst hx; norm_num) (by
      intro i x y hi hx hy
      have : i = 0 ∨ i = 1 := by omega
      rcases this with rfl | rfl <;> · simp at hx hy; subst hx; subst hy; norm_num)
  have h : (MeanOpacityBase.construct pc junk o 0 1 3 0 1 2 [0, 1, 2] 2 10).Returns ⟨pc, t⟩ := by
    unfold MeanOpacityBase.construct Outcome.Returns; rw [ht]; rfl
  have h' : (MeanOpacityBase.construct pc junk' o 0 1 3 0 1 2 [1, 2, 5] 2 10).Returns ⟨pc, t'⟩ := by
    unfold MeanOpacityBase.construct Outcome.Returns; rw [ht']; rfl
  exact ⟨_, _, h, h', fun rho temp => (C77_groups h h' (g := 1) (g' := 0) (by norm_num) (by norm_num) rfl rfl rho temp).1⟩

/-- node 2 of three densities on [0, 1] is node 1 of two densities on [0, 1] -/
example : (⟨0, 1, 3⟩ : Grid ℝ).x (2 : ℕ) = (⟨0, 1, 2⟩ : Grid ℝ).x (1 : ℕ) := by
  simp [Grid.x, Grid.dx, areal]
  norm_num

end Opac.Photons

namespace Opac.Neutrinos
open Arith Outcome Spiner MeanTables

variable {R : Type} [Arith R]
variable {pc : PC R} {junk junk' : ℕ → ℕ → R} {lRhoMin lRhoMax lTMin lTMax YeMin YeMax lRhoMin' lRhoMax' lTMin' lTMax' YeMin' YeMax' : R}
  {NRho NT NYe NRho' NT' NYe' : ℤ} {lNuMin lNuMax : R} {NNu : ℤ}

theorem absorption_cells {O : Type} [NeutrinoAPI R O] {debug auto : Bool} {o : O} {m : MeanOpacityBase R}
    (h : MeanOpacityBase.Impl_ debug auto pc junk o lRhoMin lRhoMax NRho lTMin lTMax NT YeMin YeMax NYe lNuMin lNuMax NNu = ok m) :
    ∀ a b c d : ℕ, (a : ℤ) < NRho → (b : ℤ) < NT → (c : ℤ) < NYe → d < 3 →
      ∃ k, NodeSums ⟨NeutrinoAPI.AbsorptionCoefficient o, NeutrinoAPI.ThermalDistributionOfTNu o,
          NeutrinoAPI.DThermalDistributionOfTNuDT o⟩ (if auto then autoWindow pc lTMin lTMax else (lNuMin, lNuMax)).1
          (if auto then autoWindow pc lTMin lTMax else (lNuMin, lNuMax)).2 NNu
          (MeanTables.setup junk lRhoMin lRhoMax NRho lTMin lTMax NT YeMin YeMax NYe) a b c d k ∧
        Cell.val m.t (.planck a b c d) = ok (toLog_ (means k).1) ∧
        Cell.val m.t (.rosseland a b c d) = ok (toLog_ (means k).2) := by
  unfold MeanOpacityBase.Impl_ at h
  simp only at h
  split at h
  · simp at h
  simp only [bind_eq_ok] at h
  obtain ⟨t, h, h'⟩ := h
  cases h'
  exact (loops_fills (fun i j k d t t' ht h => fillCell_fills i j k d t t' ht h) h).2

theorem scattering_cells {O : Type} [NeutrinoSAPI R O] {auto : Bool} {dist : FermiDirac R} {o : O} {m : MeanSOpacityBase R}
    (h : MeanSOpacityBase.Impl_ auto dist pc junk o lRhoMin lRhoMax NRho lTMin lTMax NT YeMin YeMax NYe lNuMin lNuMax 100 = ok m) :
    ∀ a b c d : ℕ, (a : ℤ) < NRho → (b : ℤ) < NT → (c : ℤ) < NYe → d < 3 →
      ∃ k, NodeSums ⟨fun rho T Ye s nu => ok (NeutrinoSAPI.TotalScatteringCoefficient o rho T Ye s nu),
          fun T _ nu => dist.ThermalDistributionOfTNu T nu, fun T _ nu => dist.DThermalDistributionOfTNuDT T nu⟩
          (if auto then autoWindow pc lTMin lTMax else (lNuMin, lNuMax)).1
          (if auto then autoWindow pc lTMin lTMax else (lNuMin, lNuMax)).2 100
          (MeanTables.setup junk lRhoMin lRhoMax NRho lTMin lTMax NT YeMin YeMax NYe) a b c d k ∧
        Cell.val m.t (.planck a b c d) = ok (toLog_ (means k).1) ∧
        Cell.val m.t (.rosseland a b c d) = ok (toLog_ (means k).2) := by
  unfold MeanSOpacityBase.Impl_ at h
  simp only [bind_eq_ok] at h
  obtain ⟨t, h, h'⟩ := h
  cases h'
  exact (loops_fills (fun i j k d t t' ht h => fillCellS_fills (by norm_num) i j k d t t' ht h) h).2

/-- **C77 for neutrinos**: two mean opacities made from the same opacity with the same frequency window, on axes of their
own, hold the same two numbers for each species wherever a node of the one is a node of the other. -/
theorem C77_nodes {O : Type} [NeutrinoAPI R O] {debug : Bool} {o : O} {m m' : MeanOpacityBase R}
    (h : (MeanOpacityBase.construct debug pc junk o lRhoMin lRhoMax NRho lTMin lTMax NT YeMin YeMax NYe lNuMin lNuMax NNu).Returns m)
    (h' : (MeanOpacityBase.construct debug pc junk' o lRhoMin' lRhoMax' NRho' lTMin' lTMax' NT' YeMin' YeMax' NYe' lNuMin lNuMax
      NNu).Returns m')
    {i j k i' j' k' d : ℕ} (hi : (i : ℤ) < NRho) (hj : (j : ℤ) < NT) (hk : (k : ℤ) < NYe) (hi' : (i' : ℤ) < NRho')
    (hj' : (j' : ℤ) < NT') (hk' : (k' : ℤ) < NYe') (hd : d < 3)
    (hr : (⟨lRhoMin, lRhoMax, NRho⟩ : Grid R).x i = (⟨lRhoMin', lRhoMax', NRho'⟩ : Grid R).x i')
    (hT : (⟨lTMin, lTMax, NT⟩ : Grid R).x j = (⟨lTMin', lTMax', NT'⟩ : Grid R).x j')
    (hY : (⟨YeMin, YeMax, NYe⟩ : Grid R).x k = (⟨YeMin', YeMax', NYe'⟩ : Grid R).x k') :
    m.t.lPlanck.read [(i : ℤ), j, k, d] = m'.t.lPlanck.read [(i' : ℤ), j', k', d] ∧
    m.t.lRosseland.read [(i : ℤ), j, k, d] = m'.t.lRosseland.read [(i' : ℤ), j', k', d] :=
  entry_local (l1 := lNuMin) (l2 := lNuMax) (NNu := NNu)
    (t₀ := MeanTables.setup junk lRhoMin lRhoMax NRho lTMin lTMax NT YeMin YeMax NYe)
    (t₀' := MeanTables.setup junk' lRhoMin' lRhoMax' NRho' lTMin' lTMax' NT' YeMin' YeMax' NYe')
    (fun a b c d ha hb hc hd => by simpa only [Bool.false_eq_true, if_false] using absorption_cells h a b c d ha hb hc hd)
    (fun a b c d ha hb hc hd => by simpa only [Bool.false_eq_true, if_false] using absorption_cells h' a b c d ha hb hc hd) hi hj hk hi' hj' hk' hd hr hT hY

/-- **C77 for neutrinos, default window**: the window comes from the two ends of the temperature axis, so here the axes must
share those (the density and electron-fraction axes are free) -/
theorem C77_nodes_auto {O : Type} [NeutrinoAPI R O] {debug : Bool} {o : O} {m m' : MeanOpacityBase R}
    (h : (MeanOpacityBase.constructAuto debug pc junk o lRhoMin lRhoMax NRho lTMin lTMax NT YeMin YeMax NYe).Returns m)
    (h' : (MeanOpacityBase.constructAuto debug pc junk' o lRhoMin' lRhoMax' NRho' lTMin lTMax NT' YeMin' YeMax' NYe').Returns m')
    {i j k i' j' k' d : ℕ} (hi : (i : ℤ) < NRho) (hj : (j : ℤ) < NT) (hk : (k : ℤ) < NYe) (hi' : (i' : ℤ) < NRho')
    (hj' : (j' : ℤ) < NT') (hk' : (k' : ℤ) < NYe') (hd : d < 3)
    (hr : (⟨lRhoMin, lRhoMax, NRho⟩ : Grid R).x i = (⟨lRhoMin', lRhoMax', NRho'⟩ : Grid R).x i')
    (hT : (⟨lTMin, lTMax, NT⟩ : Grid R).x j = (⟨lTMin, lTMax, NT'⟩ : Grid R).x j')
    (hY : (⟨YeMin, YeMax, NYe⟩ : Grid R).x k = (⟨YeMin', YeMax', NYe'⟩ : Grid R).x k') :
    m.t.lPlanck.read [(i : ℤ), j, k, d] = m'.t.lPlanck.read [(i' : ℤ), j', k', d] ∧
    m.t.lRosseland.read [(i : ℤ), j, k, d] = m'.t.lRosseland.read [(i' : ℤ), j', k', d] :=
  entry_local (absorption_cells h) (absorption_cells h') hi hj hk hi' hj' hk' hd hr hT hY

/-- **C77 for neutrino scattering** -/
theorem C77_scattering_nodes {O : Type} [NeutrinoSAPI R O] {dist : FermiDirac R} {o : O} {m m' : MeanSOpacityBase R} {NNu' : ℤ}
    (h : (MeanSOpacityBase.construct dist pc junk o lRhoMin lRhoMax NRho lTMin lTMax NT YeMin YeMax NYe lNuMin lNuMax NNu).Returns m)
    (h' : (MeanSOpacityBase.construct dist pc junk' o lRhoMin' lRhoMax' NRho' lTMin' lTMax' NT' YeMin' YeMax' NYe' lNuMin lNuMax
      NNu').Returns m')
    {i j k i' j' k' d : ℕ} (hi : (i : ℤ) < NRho) (hj : (j : ℤ) < NT) (hk : (k : ℤ) < NYe) (hi' : (i' : ℤ) < NRho')
    (hj' : (j' : ℤ) < NT') (hk' : (k' : ℤ) < NYe') (hd : d < 3)
    (hr : (⟨lRhoMin, lRhoMax, NRho⟩ : Grid R).x i = (⟨lRhoMin', lRhoMax', NRho'⟩ : Grid R).x i')
    (hT : (⟨lTMin, lTMax, NT⟩ : Grid R).x j = (⟨lTMin', lTMax', NT'⟩ : Grid R).x j')
    (hY : (⟨YeMin, YeMax, NYe⟩ : Grid R).x k = (⟨YeMin', YeMax', NYe'⟩ : Grid R).x k') :
    m.t.lPlanck.read [(i : ℤ), j, k, d] = m'.t.lPlanck.read [(i' : ℤ), j', k', d] ∧
    m.t.lRosseland.read [(i : ℤ), j, k, d] = m'.t.lRosseland.read [(i' : ℤ), j', k', d] :=
  entry_local (l1 := lNuMin) (l2 := lNuMax) (NNu := 100)
    (t₀ := MeanTables.setup junk lRhoMin lRhoMax NRho lTMin lTMax NT YeMin YeMax NYe)
    (t₀' := MeanTables.setup junk' lRhoMin' lRhoMax' NRho' lTMin' lTMax' NT' YeMin' YeMax' NYe')
    (fun a b c d ha hb hc hd => by simpa only [Bool.false_eq_true, if_false] using scattering_cells h a b c d ha hb hc hd)
    (fun a b c d ha hb hc hd => by simpa only [Bool.false_eq_true, if_false] using scattering_cells h' a b c d ha hb hc hd) hi hj hk hi' hj' hk' hd hr hT hY

/-- the hypotheses are met: a gray opacity on three and on two densities from 1 to 10, which share their ends -/
example (g : GrayOpacity ℝ) (pc : PC ℝ) (junk : ℕ → ℕ → ℝ) :
    ∃ m m', (MeanOpacityBase.construct false pc junk g 0 1 3 0 1 2 0 1 2 10 20 5).Returns m ∧
      (MeanOpacityBase.construct false pc junk g 0 1 2 0 1 2 0 1 2 10 20 5).Returns m' ∧
      m.t.lPlanck.read [2, 1, 0, 1] = m'.t.lPlanck.read [1, 1, 0, 1] := by
  have H : ∀ n : ℤ, ∃ m, (MeanOpacityBase.construct false pc junk g 0 1 n 0 1 2 0 1 2 10 20 5).Returns m := fun n =>
    (((C74_absorption g false (fun _ _ _ _ _ => rfl)).1 _ _ _).1).2 ⟨fun h => (by cases h), fun _ _ _ _ _ _ _ _ => ⟨rfl, rfl⟩⟩
  obtain ⟨m, hm⟩ := H 3
  obtain ⟨m', hm'⟩ := H 2
  refine ⟨m, m', hm, hm', ?_⟩
  have := C77_nodes hm hm' (i := 2) (j := 1) (k := 0) (i' := 1) (j' := 1) (k' := 0) (d := 1) (by norm_num) (by norm_num)
    (by norm_num) (by norm_num) (by norm_num) (by norm_num) (by norm_num) (by simp [Grid.x, Grid.dx, areal]; norm_num) rfl rfl
  exact this.1

end Opac.Neutrinos

namespace Opac.Neutrinos.MeanTables
open Arith Outcome Spiner Photons Spec Finset
open SpinerOpacity (equi tiny Tabulated species tiny_pos tiny_le_one)

/-- densities 1 and 10, temperatures 1 and 10, electron fractions 1/2 and 1 -/
noncomputable def shortAxis : MeanRanges := ⟨0, 1, 2, 0, 1, 2, 1 / 2, 1, 2⟩
/-- the same with one more temperature, 100 -/
noncomputable def longAxis : MeanRanges := ⟨0, 1, 2, 0, 2, 3, 1 / 2, 1, 2⟩

theorem shortAxis_at : shortAxis.Proper ∧ AtNode shortAxis 1 1 0 (10 - tiny) (10 - tiny) (1 / 2) := by
  have := tiny_pos
  have h1 : shortAxis.rhoNode 1 = 10 := by simp [MeanRanges.rhoNode, shortAxis, equi]; norm_num
  have h2 : shortAxis.TNode 1 = 10 := by simp [MeanRanges.TNode, shortAxis, equi]; norm_num
  have h3 := tiny_le_one
  refine ⟨⟨by norm_num [shortAxis], by norm_num [shortAxis], by norm_num [shortAxis]⟩, by linarith, by linarith,
    by simp [shortAxis], by simp [shortAxis], by simp [shortAxis], by rw [h1]; ring, by rw [h2]; ring, ?_⟩
  simp [MeanRanges.YeNode, shortAxis, equi]

theorem longAxis_at : longAxis.Proper ∧ AtNode longAxis 1 1 0 (10 - tiny) (10 - tiny) (1 / 2) := by
  have := tiny_pos
  have h1 : longAxis.rhoNode 1 = 10 := by simp [MeanRanges.rhoNode, longAxis, equi]; norm_num
  have h2 : longAxis.TNode 1 = 10 := by
    have : equi longAxis.lTMin longAxis.lTMax longAxis.NT 1 = 1 := by simp [longAxis, equi]; norm_num
    simp [MeanRanges.TNode, this]
  have h3 := tiny_le_one
  refine ⟨⟨by norm_num [longAxis], by norm_num [longAxis], by norm_num [longAxis]⟩, by linarith, by linarith,
    by simp [longAxis], by simp [longAxis], by simp [longAxis], by rw [h1]; ring, by rw [h2]; ring, ?_⟩
  simp [MeanRanges.YeNode, longAxis, equi]

theorem auto_returns {O : Type} {inst : NeutrinoAPI ℝ O} {opac : O} {pc : PC ℝ} {junk : ℕ → ℕ → ℝ} (r : MeanRanges)
    (hc : ∀ ρ T Ye s ν, ∃ v, inst.AbsorptionCoefficient opac ρ T Ye s ν = ok v) :
    ∃ m, MeanOpacityBase.constructAuto false pc junk opac r.lRhoMin r.lRhoMax r.NRho r.lTMin r.lTMax r.NT r.YeMin r.YeMax
      r.NYe = ok m := by
  obtain ⟨t, ht⟩ := loops_returns (NRho := r.NRho) (NT := r.NT) (NYe := r.NYe) (t₀ := empty junk r)
    (cell := fillCell ⟨inst.AbsorptionCoefficient opac, inst.ThermalDistributionOfTNu opac,
      inst.DThermalDistributionOfTNuDT opac⟩ (autoWindow pc r.lTMin r.lTMax).1 (autoWindow pc r.lTMin r.lTMax).2 100)
    (fun i j k d hi hj hk hd t ht => fillCell_returns hc hi hj hk hd ht)
  refine ⟨⟨pc, t⟩, ?_⟩
  unfold MeanOpacityBase.constructAuto MeanOpacityBase.Impl_
  simp only [Bool.false_and, Bool.false_eq_true, if_false, if_true]
  unfold empty at ht
  rw [ht]
  rfl

theorem tophat_eq (o : TophatEmissivity ℝ) (rho T Ye : ℝ) (s : RadiationType) (ν : ℝ) :
    o.AbsorptionCoefficient rho T Ye s ν =
      max (if o.numin_ < ν ∧ ν < o.numax_ then o.C_ * TophatEmissivity.GetYeF s Ye else 0) FermiDirac.EPS /
        (max (o.dist.ThermalDistributionOfTNu T ν) FermiDirac.EPS + Robust.SMALL) / (4 * Real.pi) := by
  have hE : (0 : ℝ) < FermiDirac.EPS := by unfold FermiDirac.EPS; simp only [areal]; positivity
  unfold TophatEmissivity.AbsorptionCoefficient FermiDirac.AbsorptionCoefficientFromKirchhoff TophatEmissivity.EmissivityPerNuOmega
  simp only
  have hm : ∀ x y : ℝ, stdMax x y = max x y := by
    intro x y
    unfold stdMax
    simp only [areal]
    split_ifs with h
    · exact (max_eq_right h.le).symm
    · exact (max_eq_left (not_lt.1 h)).symm
  rw [hm, hm, ratio_nonneg (le_trans hE.le (le_max_right _ _))]
  simp only [areal, Bool.and_eq_true]
  norm_num

/-- **C77 is false for neutrino means with the default window**: the window runs up to a frequency given by the last
temperature of the table, so adding one temperature (100) to a table at 1 and 10 changes the answer at the node 10 that both
tables have: for every choice of constants there is a tophat emissivity for which the two answers differ. -/
theorem C77_auto_false (pc : PC ℝ) (dist : FermiDirac ℝ) (hg : 0 < dist.NSPECIES) (hpc : PosPC dist.pc) (hk : 0 < pc.kb)
    (hh : 0 < pc.h) (junk : ℕ → ℕ → ℝ) :
    ∃ (o : TophatEmissivity ℝ) (m m' : MeanOpacityBase ℝ) (rho temp Ye : ℝ),
      (MeanOpacityBase.constructAuto false pc junk o 0 1 2 0 1 2 (1 / 2) 1 2).Returns m ∧
      (MeanOpacityBase.constructAuto false pc junk o 0 1 2 0 2 3 (1 / 2) 1 2).Returns m' ∧
      AtNode shortAxis 1 1 0 rho temp Ye ∧ AtNode longAxis 1 1 0 rho temp Ye ∧
      MeanNeutrinoAPI.PlanckMeanAbsorptionCoefficient m rho temp Ye .NU_ELECTRON ≠
        MeanNeutrinoAPI.PlanckMeanAbsorptionCoefficient m' rho temp Ye .NU_ELECTRON := by
  have hS := tiny_pos
  have hE : (0 : ℝ) < FermiDirac.EPS := by unfold FermiDirac.EPS; simp only [areal]; positivity
  have hSM := SMALL_pos
  obtain ⟨pS, aS⟩ := shortAxis_at
  obtain ⟨pL, aL⟩ := longAxis_at
  -- the windows
  obtain ⟨a, ha⟩ : ∃ a, a = (thermalWindow pc shortAxis).1 := ⟨_, rfl⟩
  obtain ⟨b, hb⟩ : ∃ b, b = (thermalWindow pc shortAxis).2 := ⟨_, rfl⟩
  obtain ⟨b', hb'⟩ : ∃ b', b' = (thermalWindow pc longAxis).2 := ⟨_, rfl⟩
  have ha' : a = (thermalWindow pc longAxis).1 := ha
  have hq : 0 < pc.kb / pc.h := div_pos hk hh
  have ea : a = 1e-3 * (pc.kb / pc.h) + tiny := by rw [ha]; simp [thermalWindow, shortAxis]; ring
  have eb : b = 1e4 * (pc.kb / pc.h) + tiny := by
    rw [hb]; simp only [thermalWindow, shortAxis, Real.rpow_one]; ring
  have eb' : b' = 1e5 * (pc.kb / pc.h) + tiny := by
    rw [hb']; simp only [thermalWindow, longAxis]
    rw [show ((10 : ℝ) ^ (2 : ℝ)) = 100 by norm_num]; ring
  have a0 : 0 < a := by rw [ea]; positivity
  have hab : a < b := by rw [ea, eb]; nlinarith
  have hbb : b < b' := by rw [eb, eb']; nlinarith
  -- the largest frequency of the short window is below that of the long one
  have hlog : Real.logb 10 b < Real.logb 10 b' := Real.logb_lt_logb (by norm_num) (a0.trans hab) hbb
  have hlog0 : Real.logb 10 a < Real.logb 10 b := Real.logb_lt_logb (by norm_num) a0 hab
  have hlast : binCentre a b 100 99 < binCentre a b' 100 99 := by
    unfold binCentre binWidth
    apply Real.rpow_lt_rpow_of_exponent_lt (by norm_num)
    push_cast
    linarith
  have hmono : ∀ n < 100, binCentre a b 100 n ≤ binCentre a b 100 99 := by
    intro n hn
    unfold binCentre
    apply Real.rpow_le_rpow_of_exponent_le (by norm_num)
    have hw : 0 < binWidth a b 100 := binWidth_pos a0 hab (by norm_num)
    have : (n : ℝ) ≤ 99 := by exact_mod_cast Nat.le_of_lt_succ hn
    push_cast
    nlinarith
  -- the family of emissivities
  let O : ℝ → TophatEmissivity ℝ := fun C => ⟨dist, pc, C, binCentre a b 100 99, 2 * binCentre a b' 100 99⟩
  have hout : ∀ C n, n < 100 → ∀ rho T Ye s, (O C).AbsorptionCoefficient rho T Ye s (binCentre a b 100 n) =
      (O 0).AbsorptionCoefficient rho T Ye s (binCentre a b 100 n) := by
    intro C n hn rho T Ye s
    rw [tophat_eq, tophat_eq]
    have : ¬ ((O C).numin_ < binCentre a b 100 n ∧ binCentre a b 100 n < (O C).numax_) := fun h =>
      absurd h.1 (not_lt.2 (hmono n hn))
    rw [if_neg this, if_neg (show ¬ ((O 0).numin_ < binCentre a b 100 n ∧ binCentre a b 100 n < (O 0).numax_) from this)]
  have hnn : ∀ C rho T Ye s ν, 0 ≤ (O C).AbsorptionCoefficient rho T Ye s ν := by
    intro C rho T Ye s ν
    rw [tophat_eq]
    have h1 := le_max_right (if (O C).numin_ < ν ∧ ν < (O C).numax_ then (O C).C_ * TophatEmissivity.GetYeF s Ye else 0) (FermiDirac.EPS : ℝ)
    have h2 := le_max_right ((O C).dist.ThermalDistributionOfTNu T ν) (FermiDirac.EPS : ℝ)
    exact div_nonneg (div_nonneg (by linarith) (by linarith)) (by positivity)
  have hBpos : ∀ T ν : ℝ, 0 < T → 0 < ν → 0 < dist.ThermalDistributionOfTNu T ν := by
    intro T ν hT hν
    obtain ⟨h1, h2, h3⟩ := hpc
    simp only [FermiDirac.ThermalDistributionOfTNu, areal]
    positivity
  have hw : ∀ C, PositiveWeights (NeutrinoAPI.ThermalDistributionOfTNu (O C)) (NeutrinoAPI.DThermalDistributionOfTNuDT (O C)) :=
    fun C T s ν hT hν => ⟨hBpos T ν hT hν, fermiDT_pos hg hpc hT hν⟩
  have hα : ∀ C, NonnegCoefficients (inferInstance : NeutrinoAPI ℝ (TophatEmissivity ℝ)) (O C) := by
    intro C rho T Ye s ν v _ _ _ h
    cases h
    exact hnn C rho T Ye s ν
  have hret : ∀ C (r : MeanRanges), ∃ m, MeanOpacityBase.constructAuto false pc junk (O C) r.lRhoMin r.lRhoMax r.NRho r.lTMin
      r.lTMax r.NT r.YeMin r.YeMax r.NYe = ok m := fun C r => auto_returns r (fun _ _ _ _ _ => ⟨_, rfl⟩)
  -- what the short table answers does not depend on `C`
  obtain ⟨K, hK⟩ : ∃ K, K = planckMean tiny (shortAxis.rhoNode 1) 100 (binDNu a b 100)
      (fun n => dist.ThermalDistributionOfTNu (shortAxis.TNode 1) (binCentre a b 100 n))
      (fun n => (O 0).AbsorptionCoefficient (shortAxis.rhoNode 1) (shortAxis.TNode 1) (shortAxis.YeNode 0) .NU_ELECTRON
        (binCentre a b 100 n)) := ⟨_, rfl⟩
  have hTab : SpinerOpacity.Tabulated .NU_ELECTRON := .inl rfl
  have hshort : ∀ C m, MeanOpacityBase.constructAuto false pc junk (O C) 0 1 2 0 1 2 (1 / 2) 1 2 = ok m →
      MeanNeutrinoAPI.PlanckMeanAbsorptionCoefficient m (10 - tiny) (10 - tiny) (1 / 2) .NU_ELECTRON =
        ok ((10 - tiny) * (K + tiny)) := by
    intro C m hm
    have A : AbsorptionMeans _ (O C) shortAxis (thermalWindow pc shortAxis).1 (thermalWindow pc shortAxis).2 100 m :=
      .auto hk hh hm
    rw [← ha, ← hb] at A
    obtain ⟨α, KP, KR, h⟩ := C52_absorption A pS hab (by norm_num) (hw C) (hα C) aS hTab
    rw [h.P, h.planck, hK]
    congr 3
    unfold planckMean
    congr 1
    refine sum_congr rfl fun n hn => ?_
    have := Outcome.ok.inj (h.samples n (mem_range.1 hn))
    rw [← this]
    show (O C).AbsorptionCoefficient _ _ _ _ _ / _ * _ * _ = _
    rw [hout C n (mem_range.1 hn)]
    rfl
  -- what the long table answers grows with `C`
  obtain ⟨w, hwd⟩ : ∃ w, w = ∑ i ∈ range 100, dist.ThermalDistributionOfTNu (longAxis.TNode 1) (binCentre a b' 100 i) *
      binDNu a b' 100 i + tiny := ⟨_, rfl⟩
  have hΔ : 0 < binWidth a b' 100 := binWidth_pos a0 (hab.trans hbb) (by norm_num)
  have hd : ∀ i, 0 < binDNu a b' 100 i := fun i => mul_pos (binCentre_pos _ _ _ _) hΔ
  have hTN : 0 < longAxis.TNode 1 := (node_pos longAxis 1).2
  have hρN : 0 < longAxis.rhoNode 1 := (node_pos longAxis 1).1
  have hB : ∀ i, 0 < dist.ThermalDistributionOfTNu (longAxis.TNode 1) (binCentre a b' 100 i) := fun i =>
    hBpos _ _ hTN (binCentre_pos _ _ _ _)
  have w0 : 0 < w := by
    rw [hwd]
    have : 0 ≤ ∑ i ∈ range 100, dist.ThermalDistributionOfTNu (longAxis.TNode 1) (binCentre a b' 100 i) * binDNu a b' 100 i :=
      sum_nonneg fun i _ => (mul_pos (hB i) (hd i)).le
    linarith
  obtain ⟨q, hqd⟩ : ∃ q, q = 1 / (max (dist.ThermalDistributionOfTNu (longAxis.TNode 1) (binCentre a b' 100 99)) FermiDirac.EPS +
      Robust.SMALL) / (4 * Real.pi) / longAxis.rhoNode 1 *
      dist.ThermalDistributionOfTNu (longAxis.TNode 1) (binCentre a b' 100 99) * binDNu a b' 100 99 / w := ⟨_, rfl⟩
  have q0 : 0 < q := by
    have h2 := le_max_right (dist.ThermalDistributionOfTNu (longAxis.TNode 1) (binCentre a b' 100 99)) (FermiDirac.EPS : ℝ)
    have h3 : 0 < max (dist.ThermalDistributionOfTNu (longAxis.TNode 1) (binCentre a b' 100 99)) FermiDirac.EPS + Robust.SMALL := by
      linarith
    rw [hqd]
    have := hB 99; have := hd 99
    positivity
  have hlong : ∀ C m, MeanOpacityBase.constructAuto false pc junk (O C) 0 1 2 0 2 3 (1 / 2) 1 2 = ok m →
      ∃ K', C * q ≤ K' ∧ MeanNeutrinoAPI.PlanckMeanAbsorptionCoefficient m (10 - tiny) (10 - tiny) (1 / 2) .NU_ELECTRON =
        ok ((10 - tiny) * (K' + tiny)) := by
    intro C m hm
    have A : AbsorptionMeans _ (O C) longAxis (thermalWindow pc longAxis).1 (thermalWindow pc longAxis).2 100 m :=
      .auto hk hh hm
    rw [← ha', ← hb'] at A
    obtain ⟨α, KP, KR, h⟩ := C52_absorption A pL (hab.trans hbb) (by norm_num) (hw C) (hα C) aL hTab
    refine ⟨KP, ?_, h.P⟩
    have hα' : ∀ n < 100, α n = (O C).AbsorptionCoefficient (longAxis.rhoNode 1) (longAxis.TNode 1) (longAxis.YeNode 0)
        .NU_ELECTRON (binCentre a b' 100 n) := by
      intro n hn
      exact (Outcome.ok.inj (h.samples n hn)).symm
    have hY : TophatEmissivity.GetYeF .NU_ELECTRON (longAxis.YeNode 0) = (1 : ℝ) := by
      simp [TophatEmissivity.GetYeF, MeanRanges.YeNode, longAxis, equi, areal]
    have h99 : C * (1 / (max (dist.ThermalDistributionOfTNu (longAxis.TNode 1) (binCentre a b' 100 99)) FermiDirac.EPS +
        Robust.SMALL) / (4 * Real.pi)) ≤ α 99 := by
      rw [hα' 99 (by norm_num), tophat_eq, if_pos ⟨hlast, by
        show _ < 2 * binCentre a b' 100 99
        have := binCentre_pos a b' 100 99; linarith⟩, hY, mul_one]
      have h2 := le_max_right (dist.ThermalDistributionOfTNu (longAxis.TNode 1) (binCentre a b' 100 99)) (FermiDirac.EPS : ℝ)
      rw [← mul_div_assoc, mul_one_div]
      refine div_le_div_of_nonneg_right (div_le_div_of_nonneg_right (le_max_left _ _) ?_) (by positivity)
      show 0 ≤ max (dist.ThermalDistributionOfTNu (longAxis.TNode 1) (binCentre a b' 100 99)) FermiDirac.EPS + Robust.SMALL
      linarith
    have hone : α 99 / longAxis.rhoNode 1 * dist.ThermalDistributionOfTNu (longAxis.TNode 1) (binCentre a b' 100 99) *
        binDNu a b' 100 99 ≤ ∑ i ∈ range 100, α i / longAxis.rhoNode 1 *
          dist.ThermalDistributionOfTNu (longAxis.TNode 1) (binCentre a b' 100 i) * binDNu a b' 100 i := by
      refine single_le_sum (f := fun i => α i / longAxis.rhoNode 1 *
          dist.ThermalDistributionOfTNu (longAxis.TNode 1) (binCentre a b' 100 i) * binDNu a b' 100 i) (fun i hi => ?_)
        (mem_range.2 (by norm_num : 99 < 100))
      have : 0 ≤ α i := by rw [hα' i (mem_range.1 hi)]; exact hnn _ _ _ _ _ _
      exact mul_nonneg (mul_nonneg (div_nonneg this hρN.le) (hB i).le) (hd i).le
    rw [h.planck]
    unfold planckMean
    show _ ≤ _ / (∑ i ∈ range 100, dist.ThermalDistributionOfTNu (longAxis.TNode 1) (binCentre a b' 100 i) *
      binDNu a b' 100 i + tiny)
    rw [← hwd, hqd, ← mul_div_assoc]
    refine div_le_div_of_nonneg_right (le_trans ?_ hone) w0.le
    rw [← mul_assoc, ← mul_assoc, ← mul_div_assoc]
    exact mul_le_mul_of_nonneg_right (mul_le_mul_of_nonneg_right (div_le_div_of_nonneg_right h99 hρN.le) (hB 99).le) (hd 99).le
  obtain ⟨m, hm⟩ := hret ((K + 1) / q) shortAxis
  obtain ⟨m', hm'⟩ := hret ((K + 1) / q) longAxis
  refine ⟨O ((K + 1) / q), m, m', _, _, _, hm, hm', aS, aL, ?_⟩
  obtain ⟨K', h1, h2⟩ := hlong _ m' hm'
  rw [hshort _ m hm, h2]
  intro h
  have h := Outcome.ok.inj h
  rw [div_mul_cancel₀ _ q0.ne'] at h1
  have h3 := tiny_le_one
  have := mul_left_cancel₀ (show (10 - tiny) ≠ 0 by linarith) h
  linarith

end Opac.Neutrinos.MeanTables
