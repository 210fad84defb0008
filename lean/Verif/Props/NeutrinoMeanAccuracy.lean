import Verif.Lemmas.NeutrinoMeanAccuracyTables
import Verif.Lemmas.AccuracyScattering
import Verif.Props.MeanAccuracy

/-!
# C70: neutrino means computed with rounding agree with exact neutrino means

A mean opacity is built twice: with rounded arithmetic, and over the real numbers.
-/

namespace Opac.Neutrinos
open Arith Outcome Spiner Spec Accuracy Tables MeanTables
open Photons (AgreesWithin InsideTable binWidth_pos binCentre_pos)
open SpinerOpacity (equi tiny Tabulated)

variable {rd : ℝ → ℝ} {u : ℝ}

/-- the exact numbers in the arguments of a constructor -/
def exactRanges (lRhoMin lRhoMax : Fl rd) (NRho : ℤ) (lTMin lTMax : Fl rd) (NT : ℤ) (YeMin YeMax : Fl rd) (NYe : ℤ) :
    MeanRanges := ⟨lRhoMin.val, lRhoMax.val, NRho, lTMin.val, lTMax.val, NT, YeMin.val, YeMax.val, NYe⟩

/-- The Rosseland means of the samples of `coef` with the weights `B` and `D` are clear of the floor at all nodes of the table
and for all species. -/
def AllClearN (coef : ℝ → ℝ → ℝ → RadiationType → ℝ → Outcome ℝ) (B D : ℝ → RadiationType → ℝ → ℝ) (r : MeanRanges)
    (a b : ℝ) (N : ℕ) : Prop :=
  ∀ i j k : ℕ, (i : ℤ) < r.NRho → (j : ℤ) < r.NT → (k : ℤ) < r.NYe → ∀ s, Tabulated s → ∀ α : ℕ → ℝ,
    (∀ m < N, coef (r.rhoNode i) (r.TNode j) (r.YeNode k) s (binCentre a b N m) = ok (α m)) →
    ClearMean tiny (r.rhoNode i) N (binDNu a b N) (fun m => B (r.TNode j) s (binCentre a b N m))
      (fun m => D (r.TNode j) s (binCentre a b N m)) α

section helpers
variable {o' : Sampler ℝ} {r : MeanRanges} {junk' : ℕ → ℕ → ℝ} {l1 l2 : ℝ} {N : ℕ}

theorem sums_spec (hl : l1 < l2) (hN : 0 < N) {ρ T Ye : ℝ} {s : RadiationType} (hρ : 0 < ρ) (hT : 0 < T)
    (hw : PositiveWeights o'.B o'.dBdT) {k : Sums ℝ} (h : cellSums o' ρ T Ye s l1 l2 (N : ℤ) = ok k) :
    ∃ α : ℕ → ℝ, (∀ m < N, o'.coef ρ T Ye s (binCentre (10 ^ l1) (10 ^ l2) N m) = ok (α m)) ∧
      (means k).1 = planckMean tiny ρ N (binDNu (10 ^ l1) (10 ^ l2) N)
        (fun m => o'.B T s (binCentre (10 ^ l1) (10 ^ l2) N m)) α ∧
      k.rosselandNum = openPath tiny ρ N (binDNu (10 ^ l1) (10 ^ l2) N)
        (fun m => o'.dBdT T s (binCentre (10 ^ l1) (10 ^ l2) N m)) α ∧
      (means k).2 = openRosselandMean tiny ρ N (binDNu (10 ^ l1) (10 ^ l2) N)
        (fun m => o'.dBdT T s (binCentre (10 ^ l1) (10 ^ l2) N m)) α (means k).1 := by
  have hab : (10 : ℝ) ^ l1 < 10 ^ l2 := Real.rpow_lt_rpow_of_exponent_lt (by norm_num) hl
  unfold cellSums at h
  have sn : ∀ m, sampleNu l1 l2 (N : ℤ) m = binCentre (10 ^ l1) (10 ^ l2) N m := by
    intro m
    have := sampleNu_eq (a := 10 ^ l1) (b := 10 ^ l2) N m
    rwa [logb_ten, logb_ten] at this
  simp only [sn] at h
  obtain ⟨α, h1, h2⟩ := loop_sums N k h
  have hdl : (l2 - l1) / (lit (N : ℤ) : ℝ) = binWidth (10 ^ l1) (10 ^ l2) N := by
    simp [binWidth, areal, logb_ten]
  rw [hdl] at h2
  have hW := binWidth_pos (by positivity) hab hN
  have hc := fun m => binCentre_pos ((10 : ℝ) ^ l1) (10 ^ l2) N m
  have := means_eq (α := α) (n := N) hρ hW hc (fun m => (hw T s _ hT (hc m)).1) (fun m => (hw T s _ hT (hc m)).2)
  rw [← h2] at this
  refine ⟨α, h1, ?_, ?_, ?_⟩
  · rw [this, SMALL_tiny']; rfl
  rotate_left
  · rw [this, SMALL_tiny']; rfl
  · rw [h2]
    unfold openPath sumsOf
    simp only [mul_assoc, SMALL_tiny']
    rfl

theorem equi_nodeAt (a b : ℝ) (N : ℤ) (i : ℕ) : equi a b N i = nodeAt a b N i := by
  unfold equi nodeAt; ring

theorem decided_of_clear (hl : l1 < l2) (hN : 0 < N) (hw : PositiveWeights o'.B o'.dBdT)
    (hc : AllClearN o'.coef o'.B o'.dBdT r (10 ^ l1) (10 ^ l2) N) {a b c d : ℕ} (ha : (a : ℤ) < r.NRho) (hb : (b : ℤ) < r.NT)
    (hd : (c : ℤ) < r.NYe) (hd3 : d < 3) {sp : RadiationType} (hsp : Idx2RadType d = ok sp)
    {κ₀ : Sums ℝ} (hκ₀ : NodeSums o' l1 l2 N (MeanTables.empty junk' r) a b c d κ₀) :
    (∀ m : ℕ, (m : ℤ) < (N : ℤ) → ∀ α, o'.coef (10 ^ nodeAt r.lRhoMin r.lRhoMax r.NRho a)
      (10 ^ nodeAt r.lTMin r.lTMax r.NT b) (nodeAt r.YeMin r.YeMax r.NYe c) sp (sampleNu l1 l2 N m) = ok α →
      Decided Robust.SMALL α) ∧
    ∀ κ', NodeSums o' l1 l2 N (MeanTables.empty junk' r) a b c d κ' →
      Decided Robust.SMALL (means κ').1 ∧ Decided Robust.SMALL κ'.rosselandNum := by
  have ht : Tabulated sp := by
    have : d = 0 ∨ d = 1 ∨ d = 2 := by omega
    rcases this with rfl | rfl | rfl <;> (simp [Idx2RadType] at hsp; subst hsp; simp [Tabulated])
  have sn : ∀ m, sampleNu l1 l2 (N : ℤ) m = binCentre (10 ^ l1) (10 ^ l2) N m := by
    intro m
    have := sampleNu_eq (a := 10 ^ l1) (b := 10 ^ l2) N m
    rwa [logb_ten, logb_ten] at this
  have key : ∀ κ', NodeSums o' l1 l2 N (MeanTables.empty junk' r) a b c d κ' → ∃ α : ℕ → ℝ,
      (∀ m < N, o'.coef (r.rhoNode a) (r.TNode b) (r.YeNode c) sp (binCentre (10 ^ l1) (10 ^ l2) N m) = ok (α m)) ∧
      ClearMean tiny (r.rhoNode a) N (binDNu (10 ^ l1) (10 ^ l2) N)
        (fun m => o'.B (r.TNode b) sp (binCentre (10 ^ l1) (10 ^ l2) N m))
        (fun m => o'.dBdT (r.TNode b) sp (binCentre (10 ^ l1) (10 ^ l2) N m)) α ∧
      (means κ').1 = planckMean tiny (r.rhoNode a) N (binDNu (10 ^ l1) (10 ^ l2) N)
        (fun m => o'.B (r.TNode b) sp (binCentre (10 ^ l1) (10 ^ l2) N m)) α ∧
      κ'.rosselandNum = openPath tiny (r.rhoNode a) N (binDNu (10 ^ l1) (10 ^ l2) N)
        (fun m => o'.dBdT (r.TNode b) sp (binCentre (10 ^ l1) (10 ^ l2) N m)) α := by
    rintro κ' ⟨s, hs, hk⟩
    rw [hsp] at hs
    injection hs with hs
    subst hs
    have x3 : fromLog_ (((MeanTables.empty junk' r).lPlanck.range 3).x a) = r.rhoNode a := by rw [Photons.x_eq, fromLog_eq]; rfl
    have x2 : fromLog_ (((MeanTables.empty junk' r).lPlanck.range 2).x b) = r.TNode b := by rw [Photons.x_eq, fromLog_eq]; rfl
    have x1 : ((MeanTables.empty junk' r).lPlanck.range 1).x c = r.YeNode c := by rw [Photons.x_eq]; rfl
    rw [x3, x2, x1] at hk
    obtain ⟨α, q1, q2, q3, -⟩ := sums_spec hl hN (MeanTables.node_pos r a).1 (MeanTables.node_pos r b).2 hw hk
    exact ⟨α, q1, hc a b c ha hb hd sp ht α q1, q2, q3⟩
  constructor
  · intro m hm α hα
    obtain ⟨α₀, q1, q2, -⟩ := key κ₀ hκ₀
    have hm' : m < N := by exact_mod_cast hm
    have := q1 m hm'
    rw [← sn m] at this
    unfold MeanRanges.rhoNode MeanRanges.TNode MeanRanges.YeNode at this
    rw [equi_nodeAt, equi_nodeAt, equi_nodeAt, hα] at this
    injection this with this
    rw [this, SMALL_tiny']
    exact q2.opacity m hm'
  · intro κ' hκ'
    obtain ⟨α, q1, q2, q3, q4⟩ := key κ' hκ'
    rw [q3, q4, SMALL_tiny']
    exact ⟨q2.planck, q2.path⟩

theorem budgetN_ge {C L W : ℝ} {N : ℤ} (hC : 2 ≤ C) (hL : 1 ≤ L) (hW : 0 < W) (hN : 2 ≤ N) :
    3 * C + 340 * L ≤ BudgetN C L W N := by
  have hN2 : (2 : ℝ) ≤ N := by exact_mod_cast hN
  have : 0 ≤ L * (76 / W) := by positivity
  unfold BudgetN
  nlinarith

theorem small_of_errN (hr : BinaryRounding rd u) {X s M D P : ℝ} (hP : 340 ≤ P) (hs : 0 < s) (hX : 1 ≤ X) (hM : 1 ≤ M)
    (hD : 0 ≤ D) (hE : MeanErrN u X s M D P ≤ 1 / 1000) : u ≤ 1 / 100 ∧ P * unit u ≤ 1 / 1000 := by
  have hu0 := hr.nonneg
  have h1 : u * (5 * P) ≤ 1 / 1000 := by
    refine le_trans ?_ hE
    unfold MeanErrN
    have : 0 ≤ 1800 * (X / s) * D := by positivity
    exact mul_le_mul_of_nonneg_left (by linarith) hu0
  have hu : u ≤ 1 / 100 := by nlinarith
  have := unit_le hr hu
  exact ⟨hu, by nlinarith⟩

end helpers

section main
variable {lRhoMin lRhoMax lTMin lTMax YeMin YeMax : Fl rd} {NRho NT NYe N : ℤ} {X s L W Q M D K C : ℝ}
  {junk : ℕ → ℕ → Fl rd} {junk' : ℕ → ℕ → ℝ} {l1 l2 : Fl rd} {l1' l2' : ℝ} {F : Prop}
  {o : Sampler (Fl rd)} {o' : Sampler ℝ}

local notation "rr" => exactRanges lRhoMin lRhoMax NRho lTMin lTMax NT YeMin YeMax NYe

/-- the part common to all constructors -/
theorem tables_agree (hr : BinaryRounding rd u) (hC : 2 ≤ C) (hK : 0 ≤ K)
    (H : WellPosedN lRhoMin lRhoMax NRho lTMin lTMax NT YeMin YeMax NYe l1' l2' N K X s L W Q)
    (w : Window u L W l1 l2 l1' l2') (hM : 1 ≤ M) (hD : 0 ≤ D) (hτ : 40 * u * X / s ≤ 1 / 100)
    (hE : MeanErrN u X s M D (BudgetN C L W N) ≤ 1 / 1000)
    (hS : BudgetN C L W N * unit u ≤ 1 / 1000 → Samplers u C L K Q F o o') (hw : F → PositiveWeights o'.B o'.dBdT)
    (hcl : F → AllClearN o'.coef o'.B o'.dBdT rr (10 ^ l1') (10 ^ l2') N.toNat)
    {cell : ℕ → ℕ → ℕ → ℕ → MeanTables (Fl rd) → Outcome (MeanTables (Fl rd))}
    (hcell : ∀ a b c d t t', Same (setup junk lRhoMin lRhoMax NRho lTMin lTMax NT YeMin YeMax NYe) t → cell a b c d t = ok t' →
      Fills Cell.val (Same (setup junk lRhoMin lRhoMax NRho lTMin lTMax NT YeMin YeMax NYe))
        (Entry o l1 l2 N (setup junk lRhoMin lRhoMax NRho lTMin lTMax NT YeMin YeMax NYe))
        {Cell.planck a b c d, Cell.rosseland a b c d} t t')
    (hret : ∀ a b c d : ℕ, (a : ℤ) < NRho → (b : ℤ) < NT → (c : ℤ) < NYe → d < 3 →
      (∃ κ, NodeSums o l1 l2 N (setup junk lRhoMin lRhoMax NRho lTMin lTMax NT YeMin YeMax NYe) a b c d κ) →
      ∀ t, Same (setup junk lRhoMin lRhoMax NRho lTMin lTMax NT YeMin YeMax NYe) t →
        ∃ t', cell a b c d t = ok t' ∧ Same (setup junk lRhoMin lRhoMax NRho lTMin lTMax NT YeMin YeMax NYe) t')
    {cell' : ℕ → ℕ → ℕ → ℕ → MeanTables ℝ → Outcome (MeanTables ℝ)}
    (hcell' : ∀ a b c d t t', Same (MeanTables.empty junk' rr) t → cell' a b c d t = ok t' →
      Fills Cell.val (Same (MeanTables.empty junk' rr)) (Entry o' l1' l2' N (MeanTables.empty junk' rr))
        {Cell.planck a b c d, Cell.rosseland a b c d} t t')
    {t' : MeanTables ℝ} (ht : loops NRho NT NYe cell' (MeanTables.empty junk' rr) = ok t') :
    ∃ t, loops NRho NT NYe cell (setup junk lRhoMin lRhoMax NRho lTMin lTMax NT YeMin YeMax NYe) = ok t ∧
      (SmoothTable t'.lPlanck [3, 2, 1] M D → ∀ rho T Ye sp, InsideTable lRhoMin lRhoMax lTMin lTMax rho T →
        YeMin.val ≤ Ye.val → Ye.val ≤ YeMax.val → Tabulated sp →
        AgreesWithin (MeanErrN u X s M D (BudgetN C L W N)) (lookup t.lPlanck rho T Ye sp)
          (lookup t'.lPlanck rho.val T.val Ye.val sp)) ∧
      (F → SmoothTable t'.lRosseland [3, 2, 1] M D → ∀ rho T Ye sp, InsideTable lRhoMin lRhoMax lTMin lTMax rho T →
        YeMin.val ≤ Ye.val → Ye.val ≤ YeMax.val → Tabulated sp →
        AgreesWithin (MeanErrN u X s M D (BudgetN C L W N)) (lookup t.lRosseland rho T Ye sp)
          (lookup t'.lRosseland rho.val T.val Ye.val sp)) := by
  have hL : 1 ≤ L := H.ends.1.trans H.ends.2
  have hB := budgetN_ge hC hL H.width.1 H.quad.1
  obtain ⟨hu, hP⟩ := small_of_errN hr (by linarith) H.rho.spacing.1 H.ends.1 hM hD hE
  have eN : ((N.toNat : ℕ) : ℤ) = N := by have := H.quad.1; omega
  obtain ⟨hs', hc'⟩ := loops_fills hcell' ht
  obtain ⟨t, e, g1, g2, d1, d2, np, nr⟩ := tables_near (M := M) (junk := junk) (junk' := junk') hr hu hC hK H w hP (hS hP)
    rfl rfl hcell hret hs' hc' (fun f a b c d ha hb hc hd sp hsp => by
      obtain ⟨κ, hκ, -⟩ := hc' a b c d ha hb hc hd
      have := decided_of_clear (junk' := junk') (by have := H.width; linarith) (by have := H.quad.1; omega) (hw f) (hcl f) ha hb hc hd hsp
        (κ₀ := κ) (by rw [eN]; exact hκ)
      rw [eN] at this
      exact this)
  have sg := setup_grid junk lRhoMin lRhoMax NRho lTMin lTMax NT YeMin YeMax NYe
  have spi : ∀ sp, Tabulated sp → ∃ d, SpeciesIndex sp d := by
    rintro sp (rfl | rfl | rfl)
    · exact ⟨0, .e⟩
    · exact ⟨1, .ebar⟩
    · exact ⟨2, .x⟩
  refine ⟨t, e, fun S rho T Ye sp hin y0 y1 hsp => ?_, fun f S rho T Ye sp hin y0 y1 hsp => ?_⟩
  · obtain ⟨d, hd⟩ := spi sp hsp
    exact (np S.size).lookup S hr hu H.ends.1 hM hD (by linarith) hτ (hE.trans (by norm_num)) d1 hd hin.1 hin.2.1
      (by rw [g1, sg.1.1]; exact ⟨hin.2.2.1, hin.2.2.2.1⟩) (by rw [g1, sg.1.2.1]; exact hin.2.2.2.2)
      (by rw [g1, sg.1.2.2]; exact ⟨y0, y1⟩)
  · obtain ⟨d, hd⟩ := spi sp hsp
    exact (nr S.size f).lookup S hr hu H.ends.1 hM hD (by linarith) hτ (hE.trans (by norm_num)) d2 hd hin.1 hin.2.1
      (by rw [g2, sg.1.1]; exact ⟨hin.2.2.1, hin.2.2.2.1⟩) (by rw [g2, sg.1.2.1]; exact hin.2.2.2.2)
      (by rw [g2, sg.1.2.2]; exact ⟨y0, y1⟩)

/-! ### The sources -/

theorem twin_positive (hr : BinaryRounding rd u) {O O' : Type} {i : NeutrinoAPI (Fl rd) O}
    {i' : NeutrinoAPI ℝ O'} {o : O} {o' : O'} {n : ℕ} (A : AccN u i i' o o' n K) (hn : n = 0) (hu : 4 * u ≤ 1) :
    PositiveWeights (i'.ThermalDistributionOfTNu o') (i'.DThermalDistributionOfTNuDT o') := by
  intro T sp ν hT hν
  have h1 := unit_small hr.toRounding (n := n) (by subst hn; push_cast; linarith)
  have pT := PF.exact (u := u) (⟨T⟩ : Fl rd) hT
  have pν := PF.exact (u := u) (⟨ν⟩ : Fl rd) hν
  exact ⟨(A.thermal 0 _ _ sp _ _ le_rfl h1 pT pν).pos, (A.derivative 0 _ _ sp _ _ hn le_rfl h1 pT pν).pos⟩

theorem twin_samplers (hr : BinaryRounding rd u) {O O' : Type} {i : NeutrinoAPI (Fl rd) O} {i' : NeutrinoAPI ℝ O'} {o : O}
    {o' : O'} {n : ℕ} (A : AccN u i i' o o' n K) (hL : 1 ≤ L) (hQ : 0 ≤ Q) (hs : (300 * L + 8 * n + 3) * unit u ≤ 1)
    (hF : F → n = 0) :
    Samplers u (neutrinoCost n L Q) L K Q F ⟨i.AbsorptionCoefficient o, i.ThermalDistributionOfTNu o, i.DThermalDistributionOfTNuDT o⟩
      ⟨i'.AbsorptionCoefficient o', i'.ThermalDistributionOfTNu o', i'.DThermalDistributionOfTNuDT o'⟩ := by
  have hs' : (2 * (150 * L + 4 * n) + 3) * unit u ≤ 1 := by
    rwa [show 2 * (150 * L + 4 * (n : ℝ)) + 3 = 300 * L + 8 * n + 3 by ring]
  have cost : ∀ {q : ℝ}, q ≤ Q → 64 * (1 + q) * (150 * L + 11 * n + 1) ≤ neutrinoCost n L Q := by
    intro q hq
    unfold neutrinoCost
    have : (0 : ℝ) ≤ n := Nat.cast_nonneg _
    gcongr
  have up : ∀ {a : Fl rd} {x : ℝ}, PF u (24 * L) a x → PF u (150 * L) a x := fun h => h.mono hr (by linarith)
  constructor
  · intro ρ T Ye ν ρ' T' Ye' ν' type h1 h2 h3 h4
    exact SameEnd.mono (fun a b h => h.mono hr (cost h4))
      (A.spectral .AbsorptionCoefficient (150 * L) ρ T Ye ν type ρ' T' Ye' ν' (by linarith) hs' (up h1) (up h2) h3)
  · intro T ν T' ν' type h2 h3 h4
    exact (A.thermal (150 * L) T ν type T' ν' (by linarith) hs' (up h2) h3).mono hr (cost h4)
  · intro T ν T' ν' type f h2 h3 h4
    exact (A.derivative (150 * L) T ν type T' ν' (hF f) (by linarith) hs' (up h2) h3).mono hr (cost h4)

theorem fermi_positive (hr : BinaryRounding rd u) {d : FermiDirac (Fl rd)} (hN : 0 < d.NSPECIES) (hpc : PosConsts d.pc.exact)
    (hu : 4 * u ≤ 1) :
    PositiveWeights (fun T _ ν => d.exact.ThermalDistributionOfTNu T ν)
      (fun T _ ν => d.exact.DThermalDistributionOfTNuDT T ν) := by
  intro T s ν hT hν
  have h1 := unit_small hr.toRounding (n := 0) (by push_cast; linarith)
  have h1' : (2 * 0 + 3) * unit u ≤ 1 := by simpa using h1
  have pT := PF.exact (u := u) (⟨T⟩ : Fl rd) hT
  have pν := PF.exact (u := u) (⟨ν⟩ : Fl rd) hν
  exact ⟨(FB_acc hr hN hpc le_rfl h1' pT pν).pos, (FdB_acc hr hN hpc le_rfl h1' pT pν).pos⟩

theorem twinS_samplers (hr : BinaryRounding rd u) {O O' : Type} {i : NeutrinoSAPI (Fl rd) O} {i' : NeutrinoSAPI ℝ O'} {o : O}
    {o' : O'} {n : ℕ} (A : AccSN u i i' o o' n) {dist : FermiDirac (Fl rd)} (hN : 0 < dist.NSPECIES)
    (hpc : PosConsts dist.pc.exact) (hL : 1 ≤ L) (hQ : 0 ≤ Q)
    (hs : (300 * L + 8 * n + 3) * unit u ≤ 1) :
    Samplers u (neutrinoCost n L Q) L (dist.pc.h.val / dist.pc.kb.val) Q F
      ⟨fun rho T Ye s ν => ok (i.TotalScatteringCoefficient o rho T Ye s ν), fun T _ ν => dist.ThermalDistributionOfTNu T ν,
        fun T _ ν => dist.DThermalDistributionOfTNuDT T ν⟩
      ⟨fun rho T Ye s ν => ok (i'.TotalScatteringCoefficient o' rho T Ye s ν),
        fun T _ ν => dist.exact.ThermalDistributionOfTNu T ν, fun T _ ν => dist.exact.DThermalDistributionOfTNuDT T ν⟩ := by
  have hn0 : (0 : ℝ) ≤ n := Nat.cast_nonneg _
  have hs' : (2 * (150 * L) + 3) * unit u ≤ 1 :=
    (mul_le_mul_of_nonneg_right (by linarith) (unit_nonneg hr.toRounding)).trans hs
  have hk : 0 < dist.pc.exact.kb := hpc.kb
  have hq : ∀ {T' ν' : ℝ}, dist.pc.h.val / dist.pc.kb.val * ν' / T' ≤ Q →
      dist.pc.exact.h * ν' / (dist.pc.exact.kb * T') ≤ Q := by
    intro T' ν' h
    have e : dist.pc.exact.h * ν' / (dist.pc.exact.kb * T') = dist.pc.h.val / dist.pc.kb.val * ν' / T' := by
      rw [mul_div_mul_comm, mul_div_assoc]; rfl
    rw [e]; exact h
  have up : ∀ {a : Fl rd} {x : ℝ}, PF u (24 * L) a x → PF u (150 * L) a x := fun h => h.mono hr (by linarith)
  have c0 : 64 * (150 * L + 11 * n + 1) + 64 * (150 * L + 11 * n + 1) * Q = neutrinoCost n L Q := by unfold neutrinoCost; ring
  have c1 : 0 ≤ 64 * (150 * L + 11 * n + 1) * Q := by positivity
  constructor
  · intro ρ T Ye ν ρ' T' Ye' ν' type h1 h2 h3 h4
    have := (A (150 * L) ρ T Ye ν ⟨0⟩ type ρ' T' Ye' ν' 0 (by linarith) (up h1) (up h2) h3).2.2
    exact .inl (this.mono hr (by linarith))
  · intro T ν T' ν' type h2 h3 h4
    refine (FB_acc hr hN hpc (by linarith) hs' (up h2) h3).mono hr ?_
    have : dist.pc.exact.h * ν' / (dist.pc.exact.kb * T') * (4 * (150 * L) + 6) ≤ Q * (4 * (150 * L) + 6) :=
      mul_le_mul_of_nonneg_right (hq h4) (by linarith)
    have : Q * (4 * (150 * L) + 6) ≤ 64 * (150 * L + 11 * n + 1) * Q := by
      rw [mul_comm Q]; exact mul_le_mul_of_nonneg_right (by linarith) hQ
    linarith
  · intro T ν T' ν' type _ h2 h3 h4
    refine (FdB_acc hr hN hpc (by linarith) hs' (up h2) h3).mono hr ?_
    have : dist.pc.exact.h * ν' / (dist.pc.exact.kb * T') * (12 * (150 * L) + 18) ≤ Q * (12 * (150 * L) + 18) :=
      mul_le_mul_of_nonneg_right (hq h4) (by linarith)
    have : Q * (12 * (150 * L) + 18) ≤ 64 * (150 * L + 11 * n + 1) * Q := by
      rw [mul_comm Q]; exact mul_le_mul_of_nonneg_right (by linarith) hQ
    linarith

theorem cost_ge {n : ℕ} (hL : 1 ≤ L) (hQ : 0 ≤ Q) : 64 * (150 * L + 11 * n + 1) ≤ neutrinoCost n L Q := by
  have : 0 ≤ 64 * (150 * L + 11 * n + 1) * Q := by positivity
  unfold neutrinoCost
  linarith

theorem cost_small (hr : BinaryRounding rd u) {n : ℕ} (hL : 1 ≤ L) (hQ : 0 ≤ Q) (hW : 0 < W) (hN : 2 ≤ N)
    (hP : BudgetN (neutrinoCost n L Q) L W N * unit u ≤ 1 / 1000) : (300 * L + 8 * n + 3) * unit u ≤ 1 := by
  have hc := cost_ge (n := n) hL hQ
  have hn0 : (0 : ℝ) ≤ n := Nat.cast_nonneg _
  have hB := budgetN_ge (C := neutrinoCost n L Q) (by linarith) hL hW hN
  exact (mul_le_mul_of_nonneg_right (by linarith) (unit_nonneg hr.toRounding)).trans (hP.trans (by norm_num))

/-! ### The windows -/

theorem given_window (hr : BinaryRounding rd u) (H : WellPosedN lRhoMin lRhoMax NRho lTMin lTMax NT YeMin YeMax NYe l1.val l2.val N K X s L W Q) :
    Window u L W l1 l2 l1.val l2.val := by
  have hL : 1 ≤ L := H.ends.1.trans H.ends.2
  have := hr.nonneg
  have h : 0 ≤ 16 * u * L := by positivity
  exact ⟨by rw [sub_self, abs_zero]; exact h, by rw [sub_self, abs_zero]; exact h, H.window.1, H.window.2, H.width.2⟩

theorem auto_end (hr : BinaryRounding rd u) (hu : u ≤ 1 / 100) {pc : PC (Fl rd)} (hk : 0 < pc.kb.val) (hh : 0 < pc.h.val)
    (q : ℚ) (hq : 0 < q) (l : Fl rd) (hL : 1 ≤ L) (hl : |(toLog_ (lit q * pc.exact.kb * fromLog_ l.val / pc.exact.h) : ℝ)| ≤ L) :
    |(toLog_ (lit q * pc.kb * fromLog_ l / pc.h)).val - toLog_ (lit q * pc.exact.kb * fromLog_ l.val / pc.exact.h)| ≤
      16 * u * L := by
  have hu0 := hr.nonneg
  have hug := unit_ge hr
  have c := pow10_err hr (y' := l) (y := l.val) (B := 0) (by simp)
  have p1 : PF u 1 (fromLog_ l) (fromLog_ l.val) := by
    rw [fromLog_eq]
    refine ⟨by positivity, c.1, ?_⟩
    have := c.2
    rw [mul_one] at this
    exact this.trans (by linarith)
  have p := ((PF.dec hr q hq).mul hr (PF.exact (u := u) pc.kb hk)).mul hr p1
  have p2 := (p.div hr (PF.exact (u := u) pc.h hh)).mono (m := 10) hr (by norm_num)
  refine (toLog_near hr hu (.inl p2) (by norm_num) hl).trans ?_
  nlinarith

theorem auto_window (hr : BinaryRounding rd u) (hu : u ≤ 1 / 100) {pc : PC (Fl rd)} (hk : 0 < pc.kb.val) (hh : 0 < pc.h.val)
    (H : WellPosedN lRhoMin lRhoMax NRho lTMin lTMax NT YeMin YeMax NYe (Real.logb 10 (thermalWindow pc.exact rr).1)
      (Real.logb 10 (thermalWindow pc.exact rr).2) N K X s L W Q) :
    Window u L W (autoWindow pc lTMin lTMax).1 (autoWindow pc lTMin lTMax).2 (Real.logb 10 (thermalWindow pc.exact rr).1)
      (Real.logb 10 (thermalWindow pc.exact rr).2) := by
  have hL : 1 ≤ L := H.ends.1.trans H.ends.2
  obtain ⟨e, -⟩ := autoWindow_eq (pc := pc.exact) (r := rr) hk hh
  have e1 := congrArg Prod.fst e
  have e2 := congrArg Prod.snd e
  dsimp only at e1 e2
  have w1 := H.window.1
  have w2 := H.window.2
  refine ⟨?_, ?_, H.window.1, H.window.2, H.width.2⟩
  · rw [← e1] at w1 ⊢
    exact auto_end hr hu hk hh _ (by norm_num) lTMin hL w1
  · rw [← e2] at w2 ⊢
    exact auto_end hr hu hk hh _ (by norm_num) lTMax hL w2

theorem window_logs {pc : PC ℝ} {r : MeanRanges} (hk : 0 < pc.kb) (hh : 0 < pc.h) :
    autoWindow pc r.lTMin r.lTMax = (Real.logb 10 (thermalWindow pc r).1, Real.logb 10 (thermalWindow pc r).2) ∧
      (10 : ℝ) ^ Real.logb 10 (thermalWindow pc r).1 = (thermalWindow pc r).1 ∧
      (10 : ℝ) ^ Real.logb 10 (thermalWindow pc r).2 = (thermalWindow pc r).2 := by
  obtain ⟨e, h1⟩ := autoWindow_eq (pc := pc) (r := r) hk hh
  have h2 : 0 < (thermalWindow pc r).2 := by unfold thermalWindow; have := SpinerOpacity.tiny_pos; dsimp only; positivity
  exact ⟨e, Real.rpow_logb (by norm_num) (by norm_num) h1, Real.rpow_logb (by norm_num) (by norm_num) h2⟩

/-! ### The theorems -/

variable {debug : Bool} {pc : PC (Fl rd)} {pc' : PC ℝ}

/-- the answers of two mean opacities agree to the relative error `E` at all states inside the table and for all species: the
Planck means if the exact table is smooth, the Rosseland means if it is smooth and the condition `F` holds -/
def MeansAgree (E M D : ℝ) (lRhoMin lRhoMax lTMin lTMax YeMin YeMax : Fl rd) (F : Prop)
    (P R : Fl rd → Fl rd → Fl rd → RadiationType → Outcome (Fl rd)) (P' R' : ℝ → ℝ → ℝ → RadiationType → Outcome ℝ)
    (tP tR : DataBox ℝ) : Prop :=
  ∀ rho T Ye sp, InsideTable lRhoMin lRhoMax lTMin lTMax rho T → YeMin.val ≤ Ye.val → Ye.val ≤ YeMax.val → Tabulated sp →
    (SmoothTable tP [3, 2, 1] M D → AgreesWithin E (P rho T Ye sp) (P' rho.val T.val Ye.val sp)) ∧
    (SmoothTable tR [3, 2, 1] M D → F → AgreesWithin E (R rho T Ye sp) (R' rho.val T.val Ye.val sp))

/-- **C70, absorption, with a frequency window.**  An opacity is built twice from the same numbers, and so are its means.  If
the exact tables are smooth, then at every state inside the table and for every species the rounded Planck means agree with
the exact ones; so do the Rosseland means, if the opacity has no unit wrapper and no comparison with the floor is undecided.
(Unit wrappers do not convert the weight of the Rosseland mean: `C06_derivative_false`.) -/
theorem C70_absorption (hr : BinaryRounding rd u) {O O' : Type} {i : NeutrinoAPI (Fl rd) O} {i' : NeutrinoAPI ℝ O'} {opac : O}
    {opac' : O'} {n : ℕ} (T : Twin rd O O' i i' opac opac' n K)
    (H : WellPosedN lRhoMin lRhoMax NRho lTMin lTMax NT YeMin YeMax NYe l1.val l2.val N K X s L W Q)
    (hM : 1 ≤ M) (hD : 0 ≤ D) (hτ : 40 * u * X / s ≤ 1 / 100)
    (hE : MeanErrN u X s M D (BudgetN (neutrinoCost n L Q) L W N) ≤ 1 / 1000) {m' : MeanOpacityBase ℝ}
    (hm : MeanOpacityBase.construct debug pc' junk' opac' lRhoMin.val lRhoMax.val NRho lTMin.val lTMax.val NT YeMin.val
      YeMax.val NYe l1.val l2.val N = ok m') :
    ∃ m, MeanOpacityBase.construct false pc junk opac lRhoMin lRhoMax NRho lTMin lTMax NT YeMin YeMax NYe l1 l2 N = ok m ∧
      MeansAgree (MeanErrN u X s M D (BudgetN (neutrinoCost n L Q) L W N)) M D lRhoMin lRhoMax lTMin lTMax YeMin YeMax
        (n = 0 ∧ AllClearN (i'.AbsorptionCoefficient opac') (i'.ThermalDistributionOfTNu opac')
          (i'.DThermalDistributionOfTNuDT opac') rr (10 ^ l1.val) (10 ^ l2.val) N.toNat)
        (MeanNeutrinoAPI.PlanckMeanAbsorptionCoefficient m) (MeanNeutrinoAPI.RosselandMeanAbsorptionCoefficient m)
        (MeanNeutrinoAPI.PlanckMeanAbsorptionCoefficient m') (MeanNeutrinoAPI.RosselandMeanAbsorptionCoefficient m')
        m'.t.lPlanck m'.t.lRosseland := by
  have A := twinN_acc hr T
  have hL : 1 ≤ L := H.ends.1.trans H.ends.2
  have hQ := H.wien.1
  have hc := cost_ge (n := n) hL hQ
  have hn0 : (0 : ℝ) ≤ n := Nat.cast_nonneg _
  have hC : 2 ≤ neutrinoCost n L Q := by linarith
  have hB := budgetN_ge hC hL H.width.1 H.quad.1
  obtain ⟨hu, -⟩ := small_of_errN hr (by linarith) H.rho.spacing.1 H.ends.1 hM hD hE
  unfold MeanOpacityBase.construct MeanOpacityBase.Impl_ at hm
  simp only [Bool.false_eq_true, if_false] at hm
  split at hm
  · simp at hm
  simp only [bind_eq_ok] at hm
  obtain ⟨t', ht', h'⟩ := hm
  injection h' with h'
  subst h'
  obtain ⟨t, e, q1, q2⟩ := tables_agree (junk := junk) (junk' := junk')
    (F := n = 0 ∧ AllClearN (i'.AbsorptionCoefficient opac') (i'.ThermalDistributionOfTNu opac')
      (i'.DThermalDistributionOfTNuDT opac') rr (10 ^ l1.val) (10 ^ l2.val) N.toNat) hr hC A.K_pos.le H (given_window hr H) hM
    hD hτ hE (fun hP => twin_samplers hr A hL hQ (cost_small hr hL hQ H.width.1 H.quad.1 hP) (fun f => f.1))
    (fun f => twin_positive hr A f.1 (by linarith)) (fun f => f.2)
    (fun a b c d t t' hs h => fillCell_fills a b c d t t' hs h)
    (fun a b c d ha hb hc hd hκ t hs => fillCell_ok (fun _ => rfl) rfl rfl ha hb hc hd hκ hs)
    (fun a b c d t t' hs h => fillCell_fills a b c d t t' hs h) ht'
  refine ⟨⟨pc, t⟩, ?_, fun rho T Ye sp hin y0 y1 hsp => ⟨fun S => q1 S rho T Ye sp hin y0 y1 hsp,
    fun S f => q2 f S rho T Ye sp hin y0 y1 hsp⟩⟩
  unfold MeanOpacityBase.construct MeanOpacityBase.Impl_
  simp only [Bool.false_and, Bool.false_eq_true, if_false, e]
  rfl

/-- **C70, absorption, without a frequency window.**  The window is then computed, with rounding, from the temperature range,
and 100 frequencies are used. -/
theorem C70_absorption_auto (hr : BinaryRounding rd u) {O O' : Type} {i : NeutrinoAPI (Fl rd) O} {i' : NeutrinoAPI ℝ O'}
    {opac : O} {opac' : O'} {n : ℕ} (T : Twin rd O O' i i' opac opac' n K) (hk : 0 < pc.kb.val) (hh : 0 < pc.h.val)
    (H : WellPosedN lRhoMin lRhoMax NRho lTMin lTMax NT YeMin YeMax NYe (Real.logb 10 (thermalWindow pc.exact rr).1)
      (Real.logb 10 (thermalWindow pc.exact rr).2) 100 K X s L W Q)
    (hM : 1 ≤ M) (hD : 0 ≤ D) (hτ : 40 * u * X / s ≤ 1 / 100)
    (hE : MeanErrN u X s M D (BudgetN (neutrinoCost n L Q) L W 100) ≤ 1 / 1000) {m' : MeanOpacityBase ℝ}
    (hm : MeanOpacityBase.constructAuto debug pc.exact junk' opac' lRhoMin.val lRhoMax.val NRho lTMin.val lTMax.val NT
      YeMin.val YeMax.val NYe = ok m') :
    ∃ m, MeanOpacityBase.constructAuto false pc junk opac lRhoMin lRhoMax NRho lTMin lTMax NT YeMin YeMax NYe = ok m ∧
      MeansAgree (MeanErrN u X s M D (BudgetN (neutrinoCost n L Q) L W 100)) M D lRhoMin lRhoMax lTMin lTMax YeMin YeMax
        (n = 0 ∧ AllClearN (i'.AbsorptionCoefficient opac') (i'.ThermalDistributionOfTNu opac')
          (i'.DThermalDistributionOfTNuDT opac') rr (thermalWindow pc.exact rr).1 (thermalWindow pc.exact rr).2 100)
        (MeanNeutrinoAPI.PlanckMeanAbsorptionCoefficient m) (MeanNeutrinoAPI.RosselandMeanAbsorptionCoefficient m)
        (MeanNeutrinoAPI.PlanckMeanAbsorptionCoefficient m') (MeanNeutrinoAPI.RosselandMeanAbsorptionCoefficient m')
        m'.t.lPlanck m'.t.lRosseland := by
  have A := twinN_acc hr T
  have hL : 1 ≤ L := H.ends.1.trans H.ends.2
  have hQ := H.wien.1
  have hc := cost_ge (n := n) hL hQ
  have hn0 : (0 : ℝ) ≤ n := Nat.cast_nonneg _
  have hC : 2 ≤ neutrinoCost n L Q := by linarith
  have hB := budgetN_ge hC hL H.width.1 H.quad.1
  obtain ⟨hu, -⟩ := small_of_errN hr (by linarith) H.rho.spacing.1 H.ends.1 hM hD hE
  obtain ⟨ew, w1, w2⟩ := window_logs (pc := pc.exact) (r := rr) hk hh
  unfold MeanOpacityBase.constructAuto MeanOpacityBase.Impl_ at hm
  simp only [if_true] at hm
  split at hm
  · simp at hm
  simp only [bind_eq_ok] at hm
  obtain ⟨t', ht', h'⟩ := hm
  injection h' with h'
  subst h'
  rw [show autoWindow pc.exact lTMin.val lTMax.val = _ from ew] at ht'
  obtain ⟨t, e, q1, q2⟩ := tables_agree (junk := junk) (junk' := junk')
    (F := n = 0 ∧ AllClearN (i'.AbsorptionCoefficient opac') (i'.ThermalDistributionOfTNu opac')
      (i'.DThermalDistributionOfTNuDT opac') rr (thermalWindow pc.exact rr).1 (thermalWindow pc.exact rr).2 100) hr hC
    A.K_pos.le H (auto_window hr hu hk hh H) hM
    hD hτ hE (fun hP => twin_samplers hr A hL hQ (cost_small hr hL hQ H.width.1 H.quad.1 hP) (fun f => f.1))
    (fun f => twin_positive hr A f.1 (by linarith)) (fun f => by rw [w1, w2]; exact f.2)
    (fun a b c d t t' hs h => fillCell_fills a b c d t t' hs h)
    (fun a b c d ha hb hc hd hκ t hs => fillCell_ok (fun _ => rfl) rfl rfl ha hb hc hd hκ hs)
    (fun a b c d t t' hs h => fillCell_fills a b c d t t' hs h) ht'
  refine ⟨⟨pc, t⟩, ?_, fun rho T Ye sp hin y0 y1 hsp => ⟨fun S => q1 S rho T Ye sp hin y0 y1 hsp,
    fun S f => q2 f S rho T Ye sp hin y0 y1 hsp⟩⟩
  unfold MeanOpacityBase.constructAuto MeanOpacityBase.Impl_
  simp only [Bool.false_and, Bool.false_eq_true, if_false, if_true, e]
  rfl

/-- **C70, scattering, with a frequency window** (of which the code always takes 100 frequencies).  The weights of both means
come from the distribution the means are built with, so there is no condition on unit wrappers. -/
theorem C70_scattering (hr : BinaryRounding rd u) {O O' : Type} {i : NeutrinoSAPI (Fl rd) O} {i' : NeutrinoSAPI ℝ O'} {opac : O}
    {opac' : O'} {n : ℕ} (T : TwinS rd O O' i i' opac opac' n) {dist : FermiDirac (Fl rd)} (hN : 0 < dist.NSPECIES)
    (hpc : PosConsts dist.pc.exact)
    (H : WellPosedN lRhoMin lRhoMax NRho lTMin lTMax NT YeMin YeMax NYe l1.val l2.val 100 (dist.pc.h.val / dist.pc.kb.val) X s L
      W Q)
    (hM : 1 ≤ M) (hD : 0 ≤ D) (hτ : 40 * u * X / s ≤ 1 / 100)
    (hE : MeanErrN u X s M D (BudgetN (neutrinoCost n L Q) L W 100) ≤ 1 / 1000) {NNu : ℤ} {m' : MeanSOpacityBase ℝ}
    (hm : MeanSOpacityBase.construct dist.exact pc' junk' opac' lRhoMin.val lRhoMax.val NRho lTMin.val lTMax.val NT YeMin.val
      YeMax.val NYe l1.val l2.val NNu = ok m') :
    ∃ m, MeanSOpacityBase.construct dist pc junk opac lRhoMin lRhoMax NRho lTMin lTMax NT YeMin YeMax NYe l1 l2 NNu = ok m ∧
      MeansAgree (MeanErrN u X s M D (BudgetN (neutrinoCost n L Q) L W 100)) M D lRhoMin lRhoMax lTMin lTMax YeMin YeMax
        (AllClearN (fun rho T Ye s ν => ok (i'.TotalScatteringCoefficient opac' rho T Ye s ν))
          (fun T _ ν => dist.exact.ThermalDistributionOfTNu T ν) (fun T _ ν => dist.exact.DThermalDistributionOfTNuDT T ν) rr
          (10 ^ l1.val) (10 ^ l2.val) 100)
        (MeanNeutrinoSAPI.PlanckMeanTotalScatteringCoefficient m) (MeanNeutrinoSAPI.RosselandMeanTotalScatteringCoefficient m)
        (MeanNeutrinoSAPI.PlanckMeanTotalScatteringCoefficient m') (MeanNeutrinoSAPI.RosselandMeanTotalScatteringCoefficient m')
        m'.t.lPlanck m'.t.lRosseland := by
  have A := twinSN_acc hr T
  have hL : 1 ≤ L := H.ends.1.trans H.ends.2
  have hQ := H.wien.1
  have hc := cost_ge (n := n) hL hQ
  have hn0 : (0 : ℝ) ≤ n := Nat.cast_nonneg _
  have hC : 2 ≤ neutrinoCost n L Q := by linarith
  have hK : 0 ≤ dist.pc.h.val / dist.pc.kb.val := (div_pos hpc.h hpc.kb).le
  have hB := budgetN_ge hC hL H.width.1 H.quad.1
  obtain ⟨hu, -⟩ := small_of_errN hr (by linarith) H.rho.spacing.1 H.ends.1 hM hD hE
  unfold MeanSOpacityBase.construct MeanSOpacityBase.Impl_ at hm
  simp only [Bool.false_eq_true, if_false, bind_eq_ok] at hm
  obtain ⟨t', ht', h'⟩ := hm
  injection h' with h'
  subst h'
  obtain ⟨t, e, q1, q2⟩ := tables_agree (junk := junk) (junk' := junk')
    (F := AllClearN (fun rho T Ye s ν => ok (i'.TotalScatteringCoefficient opac' rho T Ye s ν))
      (fun T _ ν => dist.exact.ThermalDistributionOfTNu T ν) (fun T _ ν => dist.exact.DThermalDistributionOfTNuDT T ν) rr
      (10 ^ l1.val) (10 ^ l2.val) 100) hr hC hK H (given_window hr H) hM hD hτ hE
    (fun hP => twinS_samplers hr A hN hpc hL hQ (cost_small hr hL hQ H.width.1 H.quad.1 hP))
    (fun _ => fermi_positive hr hN hpc (by linarith)) (fun f => f)
    (fun a b c d t t' hs h => fillCellS_fills (by norm_num) a b c d t t' hs h)
    (fun a b c d ha hb hc hd _ t hs => fillCellS_ok (fun _ => rfl) (fun _ _ _ _ _ => ⟨_, rfl⟩) rfl rfl ha hb hc hd hs)
    (fun a b c d t t' hs h => fillCellS_fills (by norm_num) a b c d t t' hs h) ht'
  refine ⟨⟨dist, pc, t⟩, ?_, fun rho T Ye sp hin y0 y1 hsp => ⟨fun S => q1 S rho T Ye sp hin y0 y1 hsp,
    fun S f => q2 f S rho T Ye sp hin y0 y1 hsp⟩⟩
  unfold MeanSOpacityBase.construct MeanSOpacityBase.Impl_
  simp only [Bool.false_eq_true, if_false, e]
  rfl

/-- **C70, scattering, without a frequency window** -/
theorem C70_scattering_auto (hr : BinaryRounding rd u) {O O' : Type} {i : NeutrinoSAPI (Fl rd) O} {i' : NeutrinoSAPI ℝ O'}
    {opac : O} {opac' : O'} {n : ℕ} (T : TwinS rd O O' i i' opac opac' n) {dist : FermiDirac (Fl rd)} (hN : 0 < dist.NSPECIES)
    (hpc : PosConsts dist.pc.exact) (hk : 0 < pc.kb.val) (hh : 0 < pc.h.val)
    (H : WellPosedN lRhoMin lRhoMax NRho lTMin lTMax NT YeMin YeMax NYe (Real.logb 10 (thermalWindow pc.exact rr).1)
      (Real.logb 10 (thermalWindow pc.exact rr).2) 100 (dist.pc.h.val / dist.pc.kb.val) X s L W Q)
    (hM : 1 ≤ M) (hD : 0 ≤ D) (hτ : 40 * u * X / s ≤ 1 / 100)
    (hE : MeanErrN u X s M D (BudgetN (neutrinoCost n L Q) L W 100) ≤ 1 / 1000) {m' : MeanSOpacityBase ℝ}
    (hm : MeanSOpacityBase.constructAuto dist.exact pc.exact junk' opac' lRhoMin.val lRhoMax.val NRho lTMin.val lTMax.val NT
      YeMin.val YeMax.val NYe = ok m') :
    ∃ m, MeanSOpacityBase.constructAuto dist pc junk opac lRhoMin lRhoMax NRho lTMin lTMax NT YeMin YeMax NYe = ok m ∧
      MeansAgree (MeanErrN u X s M D (BudgetN (neutrinoCost n L Q) L W 100)) M D lRhoMin lRhoMax lTMin lTMax YeMin YeMax
        (AllClearN (fun rho T Ye s ν => ok (i'.TotalScatteringCoefficient opac' rho T Ye s ν))
          (fun T _ ν => dist.exact.ThermalDistributionOfTNu T ν) (fun T _ ν => dist.exact.DThermalDistributionOfTNuDT T ν) rr
          (thermalWindow pc.exact rr).1 (thermalWindow pc.exact rr).2 100)
        (MeanNeutrinoSAPI.PlanckMeanTotalScatteringCoefficient m) (MeanNeutrinoSAPI.RosselandMeanTotalScatteringCoefficient m)
        (MeanNeutrinoSAPI.PlanckMeanTotalScatteringCoefficient m') (MeanNeutrinoSAPI.RosselandMeanTotalScatteringCoefficient m')
        m'.t.lPlanck m'.t.lRosseland := by
  have A := twinSN_acc hr T
  have hL : 1 ≤ L := H.ends.1.trans H.ends.2
  have hQ := H.wien.1
  have hc := cost_ge (n := n) hL hQ
  have hn0 : (0 : ℝ) ≤ n := Nat.cast_nonneg _
  have hC : 2 ≤ neutrinoCost n L Q := by linarith
  have hK : 0 ≤ dist.pc.h.val / dist.pc.kb.val := (div_pos hpc.h hpc.kb).le
  have hB := budgetN_ge hC hL H.width.1 H.quad.1
  obtain ⟨hu, -⟩ := small_of_errN hr (by linarith) H.rho.spacing.1 H.ends.1 hM hD hE
  obtain ⟨ew, w1, w2⟩ := window_logs (pc := pc.exact) (r := rr) hk hh
  unfold MeanSOpacityBase.constructAuto MeanSOpacityBase.Impl_ at hm
  simp only [if_true, bind_eq_ok] at hm
  obtain ⟨t', ht', h'⟩ := hm
  injection h' with h'
  subst h'
  rw [show autoWindow pc.exact lTMin.val lTMax.val = _ from ew] at ht'
  obtain ⟨t, e, q1, q2⟩ := tables_agree (junk := junk) (junk' := junk')
    (F := AllClearN (fun rho T Ye s ν => ok (i'.TotalScatteringCoefficient opac' rho T Ye s ν))
      (fun T _ ν => dist.exact.ThermalDistributionOfTNu T ν) (fun T _ ν => dist.exact.DThermalDistributionOfTNuDT T ν) rr
      (thermalWindow pc.exact rr).1 (thermalWindow pc.exact rr).2 100) hr hC hK H (auto_window hr hu hk hh H) hM hD hτ hE
    (fun hP => twinS_samplers hr A hN hpc hL hQ (cost_small hr hL hQ H.width.1 H.quad.1 hP))
    (fun _ => fermi_positive hr hN hpc (by linarith)) (fun f => by rw [w1, w2]; exact f)
    (fun a b c d t t' hs h => fillCellS_fills (by norm_num) a b c d t t' hs h)
    (fun a b c d ha hb hc hd _ t hs => fillCellS_ok (fun _ => rfl) (fun _ _ _ _ _ => ⟨_, rfl⟩) rfl rfl ha hb hc hd hs)
    (fun a b c d t t' hs h => fillCellS_fills (by norm_num) a b c d t t' hs h) ht'
  refine ⟨⟨dist, pc, t⟩, ?_, fun rho T Ye sp hin y0 y1 hsp => ⟨fun S => q1 S rho T Ye sp hin y0 y1 hsp,
    fun S f => q2 f S rho T Ye sp hin y0 y1 hsp⟩⟩
  unfold MeanSOpacityBase.constructAuto MeanSOpacityBase.Impl_
  simp only [if_true, e]
  rfl

end main

/-- **C70 in double precision.**  Tables and frequencies within 40 decades of one, at least a hundredth of a decade between
nodes, at most one decade of opacity from one node to the next, `hν/kT` at most 1000 and at most one unit wrapper: Planck and
Rosseland means are right to six digits. -/
theorem C70_double {O O' : Type} {i : NeutrinoAPI (Fl rn53) O} {i' : NeutrinoAPI ℝ O'} {opac : O} {opac' : O'} {n : ℕ} {K : ℝ}
    (T : Twin rn53 O O' i i' opac opac' n K) (hn : n ≤ 1) {pc : PC (Fl rn53)} {pc' : PC ℝ} {debug : Bool}
    {lRhoMin lRhoMax lTMin lTMax YeMin YeMax l1 l2 : Fl rn53} {NRho NT NYe N : ℤ} {junk : ℕ → ℕ → Fl rn53} {junk' : ℕ → ℕ → ℝ}
    (H : WellPosedN lRhoMin lRhoMax NRho lTMin lTMax NT YeMin YeMax NYe l1.val l2.val N K 40 (1 / 100) 40 (1 / 100) 1000)
    {m' : MeanOpacityBase ℝ}
    (hm : MeanOpacityBase.construct debug pc' junk' opac' lRhoMin.val lRhoMax.val NRho lTMin.val lTMax.val NT YeMin.val
      YeMax.val NYe l1.val l2.val N = ok m')
    (hp : SmoothTable m'.t.lPlanck [3, 2, 1] 308 1) (hro : SmoothTable m'.t.lRosseland [3, 2, 1] 308 1) :
    ∃ m, MeanOpacityBase.construct false pc junk opac lRhoMin lRhoMax NRho lTMin lTMax NT YeMin YeMax NYe l1 l2 N = ok m ∧
      ∀ rho T Ye sp, InsideTable lRhoMin lRhoMax lTMin lTMax rho T → YeMin.val ≤ Ye.val → Ye.val ≤ YeMax.val → Tabulated sp →
        AgreesWithin 1e-6 (MeanNeutrinoAPI.PlanckMeanAbsorptionCoefficient m rho T Ye sp)
          (MeanNeutrinoAPI.PlanckMeanAbsorptionCoefficient m' rho.val T.val Ye.val sp) ∧
        (n = 0 → AllClearN (i'.AbsorptionCoefficient opac') (i'.ThermalDistributionOfTNu opac')
            (i'.DThermalDistributionOfTNuDT opac') (exactRanges lRhoMin lRhoMax NRho lTMin lTMax NT YeMin YeMax NYe)
            (10 ^ l1.val) (10 ^ l2.val) N.toNat →
          AgreesWithin 1e-6 (MeanNeutrinoAPI.RosselandMeanAbsorptionCoefficient m rho T Ye sp)
            (MeanNeutrinoAPI.RosselandMeanAbsorptionCoefficient m' rho.val T.val Ye.val sp)) := by
  have hN : (N : ℝ) ≤ 2 ^ 24 := by exact_mod_cast H.quad.2
  have hn' : (n : ℝ) ≤ 1 := by exact_mod_cast hn
  have hE : MeanErrN (2 ^ (-53 : ℤ)) 40 (1 / 100) 308 1 (BudgetN (neutrinoCost n 40 1000) 40 (1 / 100) N) ≤ 1e-6 := by
    have h : BudgetN (neutrinoCost n 40 1000) 40 (1 / 100) N ≤ 1.25e9 := by
      unfold BudgetN neutrinoCost
      norm_num at hN ⊢
      linarith
    unfold MeanErrN
    calc _ ≤ (2 : ℝ) ^ (-53 : ℤ) * (1800 * (40 / (1 / 100)) * 1 + 185 * 308 + 5 * 1.25e9) := by gcongr
      _ ≤ 1e-6 := by norm_num
  obtain ⟨m, e, q⟩ := C70_absorption (M := 308) (D := 1) (junk := junk) (pc := pc) rn53_binary T H (by norm_num) (by norm_num)
    (by norm_num) (hE.trans (by norm_num)) hm
  have wk : ∀ {f : Outcome (Fl rn53)} {x : Outcome ℝ}, AgreesWithin (MeanErrN (2 ^ (-53 : ℤ)) 40 (1 / 100) 308 1
      (BudgetN (neutrinoCost n 40 1000) 40 (1 / 100) N)) f x → AgreesWithin 1e-6 f x := by
    rintro f x ⟨a, a', h1, h2, h3, h4⟩
    exact ⟨a, a', h1, h2, h3, h4.trans (mul_le_mul_of_nonneg_right hE h3.le)⟩
  refine ⟨m, e, fun rho T Ye sp hin y0 y1 hsp => ?_⟩
  obtain ⟨q1, q2⟩ := q rho T Ye sp hin y0 y1 hsp
  exact ⟨wk (q1 hp), fun h0 hc => wk (q2 hro ⟨h0, hc⟩)⟩

/-! ### The hypotheses can be met: constant opacities on tables with two nodes per axis -/

section example_
open Photons (exPC exPC_pos)
open Finset

/-- radiation of one species, with all constants equal to one -/
noncomputable def exDist : FermiDirac (Fl rn53) := ⟨1, exPC⟩

theorem exTinyN : 0 < tiny ∧ tiny ≤ 1e-12 := by
  refine ⟨SpinerOpacity.tiny_pos, ?_⟩
  have : (2 : ℝ) ^ (-1022 : ℤ) ≤ 2 ^ (-50 : ℤ) := zpow_le_zpow_right₀ (by norm_num) (by norm_num)
  unfold tiny
  refine (mul_le_mul_of_nonneg_left this (by norm_num)).trans ?_
  norm_num

theorem exExp {x : ℝ} (h : x ≤ 10) : Real.exp x ≤ 59049 := by
  have h3 : Real.exp 1 ≤ 3 := by have := Real.exp_one_lt_d9; linarith
  calc Real.exp x ≤ Real.exp (10 * 1) := Real.exp_le_exp.2 (by linarith)
    _ = Real.exp 1 ^ 10 := by rw [← Real.exp_nat_mul]; norm_num
    _ ≤ 3 ^ 10 := by gcongr
    _ = 59049 := by norm_num

theorem exFermi {T ν : ℝ} (hT : T = 1 ∨ T = 10) (h1 : 1 ≤ ν) (h2 : ν ≤ 10) :
    1e-8 ≤ exDist.exact.ThermalDistributionOfTNu T ν ∧ 1e-8 ≤ exDist.exact.DThermalDistributionOfTNuDT T ν := by
  have hT1 : 1 ≤ T := by rcases hT with rfl | rfl <;> norm_num
  have hT10 : T ≤ 10 := by rcases hT with rfl | rfl <;> norm_num
  have hx : ν / T ≤ 10 := by rw [div_le_iff₀ (by linarith)]; nlinarith
  have hx0 : 0 ≤ ν / T := by positivity
  have he := exExp hx
  have hp := Real.exp_pos (ν / T)
  have h3 : 1 ≤ ν ^ 3 := one_le_pow₀ h1
  have h4 : 1 ≤ ν ^ 4 := one_le_pow₀ h1
  constructor
  · rw [fermi_eq]
    have e : fermiDiracLaw (exDist.exact.NSPECIES : ℝ) exDist.exact.pc.h exDist.exact.pc.kb exDist.exact.pc.c T ν =
        2 * ν ^ 3 / (Real.exp (ν / T) + 1) := by
      show fermiDiracLaw ((1 : ℤ) : ℝ) 1 1 1 T ν = _
      unfold fermiDiracLaw
      simp
    rw [e, le_div_iff₀ (by linarith)]
    nlinarith
  · have e : exDist.exact.DThermalDistributionOfTNuDT T ν =
        2 * ν ^ 4 / T ^ 2 * Real.exp (-(ν / T)) / (1 + Real.exp (-(ν / T))) ^ 2 := by
      show FermiDirac.DThermalDistributionOfTNuDT ⟨1, exPC.exact⟩ T ν = _
      have c1 : exPC.exact.h = 1 := rfl
      have c2 : exPC.exact.kb = 1 := rfl
      have c3 : exPC.exact.c = 1 := rfl
      simp only [FermiDirac.DThermalDistributionOfTNuDT, areal, c1, c2, c3]
      norm_num
      ring_nf
    rw [e]
    have hm : Real.exp (-(ν / T)) ≤ 1 := Real.exp_le_one_iff.2 (by linarith)
    have hm' : 1 / 59049 ≤ Real.exp (-(ν / T)) := by
      rw [Real.exp_neg, one_div]; exact inv_anti₀ hp he
    generalize Real.exp (-(ν / T)) = y at hm hm'
    have hy : 0 < y := by linarith
    have a1 : 2 / 100 ≤ 2 * ν ^ 4 / T ^ 2 := by
      rw [le_div_iff₀ (by positivity)]; nlinarith
    rw [le_div_iff₀ (by positivity)]
    have a2 : (1 + y) ^ 2 ≤ 4 := by nlinarith
    have a3 : 2 / 100 * (1 / 59049) ≤ 2 * ν ^ 4 / T ^ 2 * y := mul_le_mul a1 hm' (by norm_num) (by positivity)
    nlinarith

/-- the means of a constant opacity -/
theorem exSums {N m0 : ℕ} {ρ : ℝ} {dν B D α : ℕ → ℝ} (hρ : 1 ≤ ρ) (hα : ∀ m < N, α m = ρ) (hdν : ∀ m, 0 < dν m)
    (hB : ∀ m, 0 < B m) (hD : ∀ m, 0 < D m) (hm : m0 < N) (b : 1e-10 ≤ B m0 * dν m0) (d : 1e-10 ≤ D m0 * dν m0) :
    ClearMean tiny ρ N dν B D α ∧ (1 / 2 ≤ planckMean tiny ρ N dν B α ∧ planckMean tiny ρ N dν B α ≤ 2) ∧
      (1 / 2 ≤ openRosselandMean tiny ρ N dν D α (planckMean tiny ρ N dν B α) ∧
        openRosselandMean tiny ρ N dν D α (planckMean tiny ρ N dν B α) ≤ 2) := by
  obtain ⟨t0, t1⟩ := exTinyN
  have hw : 1e-10 ≤ ∑ i ∈ range N, B i * dν i :=
    b.trans (single_le_sum (f := fun i => B i * dν i) (fun i _ => (mul_pos (hB i) (hdν i)).le) (mem_range.2 hm))
  have hv : 1e-10 ≤ ∑ i ∈ range N, D i * dν i :=
    d.trans (single_le_sum (f := fun i => D i * dν i) (fun i _ => (mul_pos (hD i) (hdν i)).le) (mem_range.2 hm))
  have eP : planckMean tiny ρ N dν B α = (∑ i ∈ range N, B i * dν i) / (∑ i ∈ range N, B i * dν i + tiny) := by
    unfold planckMean
    congr 1
    refine sum_congr rfl fun i hi => ?_
    rw [hα i (mem_range.1 hi), div_self (by linarith), one_mul]
  have eW : openWeight tiny N dν D α = ∑ i ∈ range N, D i * dν i := by
    unfold openWeight
    refine sum_congr rfl fun i hi => ?_
    rw [hα i (mem_range.1 hi), if_pos (by linarith)]
  have eL : openPath tiny ρ N dν D α = ρ / (ρ + tiny) * ∑ i ∈ range N, D i * dν i := by
    unfold openPath
    rw [mul_sum]
    refine sum_congr rfl fun i hi => ?_
    rw [hα i (mem_range.1 hi), if_pos (by linarith), mul_assoc]
  have r0 : 1 / 2 ≤ ρ / (ρ + tiny) := by rw [le_div_iff₀ (by linarith)]; linarith
  have r1 : ρ / (ρ + tiny) ≤ 1 := by rw [div_le_one (by linarith)]; linarith
  have p0 : 1 / 2 ≤ planckMean tiny ρ N dν B α := by rw [eP, le_div_iff₀ (by linarith)]; linarith
  have p1 : planckMean tiny ρ N dν B α ≤ 2 := by rw [eP, div_le_iff₀ (by linarith)]; linarith
  generalize ∑ i ∈ range N, D i * dν i = v at *
  have l0 : v / 2 ≤ openPath tiny ρ N dν D α := by rw [eL]; nlinarith
  have l1 : openPath tiny ρ N dν D α ≤ v := by rw [eL]; nlinarith
  refine ⟨⟨fun i hi => .inr (by rw [hα i hi]; linarith), .inr (by linarith), .inr (by linarith)⟩, ⟨p0, p1⟩, ?_⟩
  unfold openRosselandMean
  rw [if_pos ⟨by linarith, by linarith⟩, eW]
  exact ⟨by rw [le_div_iff₀ (by linarith)]; linarith, by rw [div_le_iff₀ (by linarith)]; linarith⟩

theorem exLogN {v : ℝ} (h0 : 1 / 2 ≤ v) (h1 : v ≤ 2) : |(toLog_ v : ℝ)| ≤ 1 := by
  obtain ⟨t0, t1⟩ := exTinyN
  rw [toLog_eq, abs_of_pos (show 0 < v by linarith), abs_le, Real.le_logb_iff_rpow_le (by norm_num) (by linarith),
    Real.logb_le_iff_le_rpow (by norm_num) (by linarith)]
  norm_num
  constructor <;> linarith

theorem exNodes (i : ℕ) (hi : (i : ℤ) < 2) : (twoNodes.TNode i = 1 ∨ twoNodes.TNode i = 10) ∧ 1 ≤ twoNodes.rhoNode i := by
  have : i = 0 ∨ i = 1 := by omega
  rcases this with rfl | rfl <;> norm_num [MeanRanges.rhoNode, MeanRanges.TNode, equi, twoNodes]

theorem exSmooth {d : DataBox ℝ} (hd : d.dims = [2, 2, 2, 3]) (h : ∀ i j k l : ℕ, (i : ℤ) < 2 → (j : ℤ) < 2 → (k : ℤ) < 2 → l < 3 →
    ∃ v, d.read [(i : ℤ), (j : ℤ), (k : ℤ), (l : ℤ)] = ok v ∧ |v| ≤ 1) : SmoothTable d [3, 2, 1] 1 2 := by
  have key : ∀ is v, d.read is = ok v → |v| ≤ 1 := by
    intro is v hv
    obtain ⟨o, ho, -⟩ := bind_eq_ok.1 hv
    have hin := offset_inRange ho
    rw [hd] at hin
    match is, hin with
    | [a, b, c, e], ⟨⟨a0, a1⟩, ⟨b0, b1⟩, ⟨c0, c1⟩, ⟨e0, e1⟩, _⟩ =>
      obtain ⟨w, hw, hb⟩ := h a.toNat b.toNat c.toNat e.toNat (by omega) (by omega) (by omega) (by omega)
      rw [Int.toNat_of_nonneg a0, Int.toNat_of_nonneg b0, Int.toNat_of_nonneg c0, Int.toNat_of_nonneg e0, hv] at hw
      cases hw
      exact hb
  refine ⟨key, fun k _ is v v' h1 h2 => ?_⟩
  have := abs_le.1 (key _ _ h1)
  have := abs_le.1 (key _ _ h2)
  rw [abs_le]; constructor <;> linarith

/-- the table of a constant opacity: no comparison is undecided, and the table is smooth -/
theorem exTables {o' : Sampler ℝ} (hc : ∀ ρ T Ye s ν, o'.coef ρ T Ye s ν = ok ρ)
    (hB : o'.B = fun T _ ν => exDist.exact.ThermalDistributionOfTNu T ν)
    (hD : o'.dBdT = fun T _ ν => exDist.exact.DThermalDistributionOfTNuDT T ν) {l1 l2 : ℝ} {N m0 : ℕ} (hl : l1 < l2)
    (hm : m0 < N) (hw : 1 / 100 ≤ binWidth (10 ^ l1) (10 ^ l2) N) (hc1 : 1 ≤ binCentre (10 ^ l1) (10 ^ l2) N m0)
    (hc2 : binCentre (10 ^ l1) (10 ^ l2) N m0 ≤ 10) {junk : ℕ → ℕ → ℝ}
    {cell : ℕ → ℕ → ℕ → ℕ → MeanTables ℝ → Outcome (MeanTables ℝ)}
    (hcell : ∀ a b c d t t', Same (MeanTables.empty junk twoNodes) t → cell a b c d t = ok t' →
      Fills Cell.val (Same (MeanTables.empty junk twoNodes)) (Entry o' l1 l2 N (MeanTables.empty junk twoNodes))
        {Cell.planck a b c d, Cell.rosseland a b c d} t t') {t : MeanTables ℝ}
    (ht : loops 2 2 2 cell (MeanTables.empty junk twoNodes) = ok t) :
    AllClearN o'.coef o'.B o'.dBdT twoNodes (10 ^ l1) (10 ^ l2) N ∧ SmoothTable t.lPlanck [3, 2, 1] 1 2 ∧
      SmoothTable t.lRosseland [3, 2, 1] 1 2 := by
  have hpos : PositiveWeights o'.B o'.dBdT := by
    rw [hB, hD]; exact fermi_positive rn53_binary one_pos exPC_pos (by norm_num)
  have hab : (10 : ℝ) ^ l1 < 10 ^ l2 := Real.rpow_lt_rpow_of_exponent_lt (by norm_num) hl
  have all : ∀ i j : ℕ, (i : ℤ) < 2 → (j : ℤ) < 2 → ∀ s, ∀ α : ℕ → ℝ, (∀ m < N, α m = twoNodes.rhoNode i) →
      ClearMean tiny (twoNodes.rhoNode i) N (binDNu (10 ^ l1) (10 ^ l2) N)
        (fun m => o'.B (twoNodes.TNode j) s (binCentre (10 ^ l1) (10 ^ l2) N m))
        (fun m => o'.dBdT (twoNodes.TNode j) s (binCentre (10 ^ l1) (10 ^ l2) N m)) α ∧
      (1 / 2 ≤ planckMean tiny (twoNodes.rhoNode i) N (binDNu (10 ^ l1) (10 ^ l2) N)
          (fun m => o'.B (twoNodes.TNode j) s (binCentre (10 ^ l1) (10 ^ l2) N m)) α ∧
        planckMean tiny (twoNodes.rhoNode i) N (binDNu (10 ^ l1) (10 ^ l2) N)
          (fun m => o'.B (twoNodes.TNode j) s (binCentre (10 ^ l1) (10 ^ l2) N m)) α ≤ 2) ∧
      (1 / 2 ≤ openRosselandMean tiny (twoNodes.rhoNode i) N (binDNu (10 ^ l1) (10 ^ l2) N)
          (fun m => o'.dBdT (twoNodes.TNode j) s (binCentre (10 ^ l1) (10 ^ l2) N m)) α
          (planckMean tiny (twoNodes.rhoNode i) N (binDNu (10 ^ l1) (10 ^ l2) N)
            (fun m => o'.B (twoNodes.TNode j) s (binCentre (10 ^ l1) (10 ^ l2) N m)) α) ∧
        openRosselandMean tiny (twoNodes.rhoNode i) N (binDNu (10 ^ l1) (10 ^ l2) N)
          (fun m => o'.dBdT (twoNodes.TNode j) s (binCentre (10 ^ l1) (10 ^ l2) N m)) α
          (planckMean tiny (twoNodes.rhoNode i) N (binDNu (10 ^ l1) (10 ^ l2) N)
            (fun m => o'.B (twoNodes.TNode j) s (binCentre (10 ^ l1) (10 ^ l2) N m)) α) ≤ 2) := by
    intro i j hi hj s α hα
    obtain ⟨hT, -⟩ := exNodes j hj
    obtain ⟨-, hρ⟩ := exNodes i hi
    have hTp : 0 < twoNodes.TNode j := by rcases hT with h | h <;> rw [h] <;> norm_num
    have hcp := fun m => binCentre_pos ((10 : ℝ) ^ l1) (10 ^ l2) N m
    have hF := exFermi hT hc1 hc2
    refine exSums hρ hα (fun m => mul_pos (hcp m) (by linarith)) (fun m => (hpos _ s _ hTp (hcp m)).1)
      (fun m => (hpos _ s _ hTp (hcp m)).2) hm ?_ ?_
    · rw [hB]
      have : (1 : ℝ) * (1 / 100) ≤ binDNu (10 ^ l1) (10 ^ l2) N m0 := mul_le_mul hc1 hw (by norm_num) (by linarith)
      calc (1e-10 : ℝ) = 1e-8 * (1 * (1 / 100)) := by norm_num
        _ ≤ _ := mul_le_mul hF.1 this (by norm_num) (by linarith [hF.1])
    · rw [hD]
      have : (1 : ℝ) * (1 / 100) ≤ binDNu (10 ^ l1) (10 ^ l2) N m0 := mul_le_mul hc1 hw (by norm_num) (by linarith)
      calc (1e-10 : ℝ) = 1e-8 * (1 * (1 / 100)) := by norm_num
        _ ≤ _ := mul_le_mul hF.2 this (by norm_num) (by linarith [hF.2])
  obtain ⟨S, F⟩ := loops_fills hcell ht
  have cells : ∀ i j k l : ℕ, (i : ℤ) < 2 → (j : ℤ) < 2 → (k : ℤ) < 2 → l < 3 → ∃ a b,
      Cell.val t (.planck i j k l) = ok a ∧ Cell.val t (.rosseland i j k l) = ok b ∧ |a| ≤ 1 ∧ |b| ≤ 1 := by
    intro i j k l hi hj hk hl3
    obtain ⟨κ, ⟨s, hs, hκ⟩, h1, h2⟩ := F i j k l hi hj hk hl3
    have x3 : fromLog_ (((MeanTables.empty junk twoNodes).lPlanck.range 3).x i) = twoNodes.rhoNode i := by
      rw [Photons.x_eq, fromLog_eq]; rfl
    have x2 : fromLog_ (((MeanTables.empty junk twoNodes).lPlanck.range 2).x j) = twoNodes.TNode j := by
      rw [Photons.x_eq, fromLog_eq]; rfl
    rw [x3, x2] at hκ
    obtain ⟨α, q1, q2, -, q4⟩ := sums_spec hl (by omega) (MeanTables.node_pos twoNodes i).1 (MeanTables.node_pos twoNodes j).2 hpos hκ
    have hα : ∀ m < N, α m = twoNodes.rhoNode i := fun m hm => by
      have := q1 m hm
      rw [hc] at this
      exact (Outcome.ok.inj this).symm
    obtain ⟨-, a, b⟩ := all i j hi hj s α hα
    rw [← q2] at a b
    rw [← q4] at b
    exact ⟨_, _, h1, h2, exLogN a.1 a.2, exLogN b.1 b.2⟩
  refine ⟨fun i j k hi hj hk s _ α hα => (all i j hi hj s α fun m hm => ?_).1, exSmooth ?_ fun i j k l hi hj hk hl => ?_,
    exSmooth ?_ fun i j k l hi hj hk hl => ?_⟩
  · have := hα m hm
    rw [hc] at this
    exact (Outcome.ok.inj this).symm
  · exact S.p1
  · obtain ⟨a, b, h1, -, h3, -⟩ := cells i j k l hi hj hk hl
    exact ⟨a, h1, h3⟩
  · exact S.r1
  · obtain ⟨a, b, -, h1, -, h3⟩ := cells i j k l hi hj hk hl
    exact ⟨b, h1, h3⟩

theorem exWindow1 : 1 / 100 ≤ binWidth ((10 : ℝ) ^ (0 : ℝ)) (10 ^ (1 : ℝ)) 2 ∧ 1 ≤ binCentre ((10 : ℝ) ^ (0 : ℝ)) (10 ^ (1 : ℝ)) 2 0 ∧
    binCentre ((10 : ℝ) ^ (0 : ℝ)) (10 ^ (1 : ℝ)) 2 0 ≤ 10 := by
  have e : binWidth ((10 : ℝ) ^ (0 : ℝ)) (10 ^ (1 : ℝ)) 2 = 1 / 2 := by
    unfold binWidth; rw [logb_ten, logb_ten]; norm_num
  refine ⟨by rw [e]; norm_num, ?_, ?_⟩
  · unfold binCentre
    rw [e, logb_ten]
    exact Real.one_le_rpow (by norm_num) (by norm_num)
  · unfold binCentre
    rw [e, logb_ten]
    calc _ ≤ (10 : ℝ) ^ (1 : ℝ) := Real.rpow_le_rpow_of_exponent_le (by norm_num) (by norm_num)
      _ = 10 := Real.rpow_one _

theorem exWell1 : WellPosedN (rd := rn53) ⟨0⟩ ⟨1⟩ 2 ⟨0⟩ ⟨1⟩ 2 ⟨0⟩ ⟨1⟩ 2 0 1 2 (exPC.h.val / exPC.kb.val) 1 1 1 1 10 where
  rho := by constructor <;> norm_num
  temp := by constructor <;> norm_num
  Ye := by constructor <;> norm_num
  ends := by norm_num
  window := by norm_num
  width := by norm_num
  quad := by norm_num
  wien := by
    show _ ∧ (1 : ℝ) / 1 * _ ≤ _
    norm_num

theorem exInside : InsideTable (⟨0⟩ : Fl rn53) ⟨1⟩ ⟨0⟩ ⟨1⟩ ⟨1⟩ ⟨5⟩ := by
  obtain ⟨t0, t1⟩ := exTinyN
  have m : ∀ x : ℝ, 1 ≤ x → x ≤ 5 → 0 ≤ meanCoord x ∧ meanCoord x ≤ 1 := by
    intro x h1 h5
    have e : meanCoord x = Real.logb 10 (x + tiny) := by
      show Real.logb 10 (|x| + tiny) = _
      rw [abs_of_pos (by linarith)]
    rw [e, Real.le_logb_iff_rpow_le (by norm_num) (by linarith), Real.logb_le_iff_le_rpow (by norm_num) (by linarith)]
    norm_num
    constructor <;> linarith
  exact ⟨one_pos, show (0 : ℝ) < 5 by norm_num, (m 1 le_rfl (by norm_num)).1, (m 1 le_rfl (by norm_num)).2,
    (m 5 (by norm_num) le_rfl).1, (m 5 (by norm_num) le_rfl).2⟩

theorem exErr1 : MeanErrN (2 ^ (-53 : ℤ)) 1 1 1 2 (BudgetN (neutrinoCost 0 1 10) 1 1 2) ≤ 1e-9 := by
  unfold MeanErrN BudgetN neutrinoCost
  norm_num

theorem agrees_mono {E E' : ℝ} (h : E ≤ E') {f : Outcome (Fl rd)} {x : Outcome ℝ} : AgreesWithin E f x → AgreesWithin E' f x := by
  rintro ⟨a, a', h1, h2, h3, h4⟩
  exact ⟨a, a', h1, h2, h3, h4.trans (mul_le_mul_of_nonneg_right h h3.le)⟩

/-- a gray neutrino opacity averaged over a decade of frequencies -/
example (junk : ℕ → ℕ → Fl rn53) : ∃ (m : MeanOpacityBase (Fl rn53)) (m' : MeanOpacityBase ℝ),
    MeanOpacityBase.construct false exPC junk (⟨exDist, exPC, ⟨1⟩⟩ : GrayOpacity (Fl rn53)) ⟨0⟩ ⟨1⟩ 2 ⟨0⟩ ⟨1⟩ 2 ⟨0⟩ ⟨1⟩ 2
      ⟨0⟩ ⟨1⟩ 2 = ok m ∧
    MeanOpacityBase.construct false exPC.exact (fun _ _ => 0) (⟨exDist.exact, exPC.exact, 1⟩ : GrayOpacity ℝ) 0 1 2 0 1 2 0 1 2
      0 1 2 = ok m' ∧
    AgreesWithin 1e-9 (MeanNeutrinoAPI.PlanckMeanAbsorptionCoefficient m (⟨1⟩ : Fl rn53) ⟨5⟩ ⟨1 / 3⟩ .NU_HEAVY)
      (MeanNeutrinoAPI.PlanckMeanAbsorptionCoefficient m' (1 : ℝ) 5 (1 / 3) .NU_HEAVY) ∧
    AgreesWithin 1e-9 (MeanNeutrinoAPI.RosselandMeanAbsorptionCoefficient m (⟨1⟩ : Fl rn53) ⟨5⟩ ⟨1 / 3⟩ .NU_HEAVY)
      (MeanNeutrinoAPI.RosselandMeanAbsorptionCoefficient m' (1 : ℝ) 5 (1 / 3) .NU_HEAVY) := by
  obtain ⟨m', hm⟩ := absorption_returns (inst := inferInstance) (opac := (⟨exDist.exact, exPC.exact, 1⟩ : GrayOpacity ℝ))
    (pc := exPC.exact) (junk := fun _ _ => 0) (r := twoNodes) (l1 := 0) (l2 := 1) (NNu := 2) (fun _ _ _ _ _ => ⟨_, rfl⟩)
  have hm0 := hm
  unfold MeanOpacityBase.construct MeanOpacityBase.Impl_ at hm0
  simp only [Bool.false_and, Bool.false_eq_true, if_false, bind_eq_ok] at hm0
  obtain ⟨t', ht', h'⟩ := hm0
  injection h' with h'
  subst h'
  obtain ⟨w1, w2, w3⟩ := exWindow1
  obtain ⟨c, p, q⟩ := exTables (o' := ⟨NeutrinoAPI.AbsorptionCoefficient (⟨exDist.exact, exPC.exact, 1⟩ : GrayOpacity ℝ), _, _⟩)
    (fun ρ _ _ _ _ => congrArg ok (mul_one ρ)) rfl rfl one_pos (show 0 < 2 by norm_num) w1 w2 w3
    (fun a b c d t t' hs h => fillCell_fills a b c d t t' hs h) ht'
  obtain ⟨m, e, g⟩ := C70_absorption (pc := exPC) (junk := junk) rn53_binary
    (Twin.gray exDist exPC ⟨1⟩ one_pos exPC_pos one_pos) exWell1 le_rfl (by norm_num)
    (by norm_num) (exErr1.trans (by norm_num)) hm
  obtain ⟨g1, g2⟩ := g ⟨1⟩ ⟨5⟩ ⟨1 / 3⟩ .NU_HEAVY exInside (by norm_num) (by norm_num) (.inr (.inr rfl))
  exact ⟨m, _, e, hm, agrees_mono exErr1 (g1 p), agrees_mono exErr1 (g2 q ⟨rfl, c⟩)⟩

theorem exScatter {ρ T Ye : ℝ} {s : RadiationType} {ν : ℝ} :
    NeutrinoSAPI.TotalScatteringCoefficient (⟨1, 1⟩ : GraySOpacity ℝ) ρ T Ye s ν = ρ := by
  show (ρ / 1 * 1 : ℝ) = ρ
  simp

theorem exWindow2 : 1 / 100 ≤ binWidth ((10 : ℝ) ^ (0 : ℝ)) (10 ^ (1 : ℝ)) 100 ∧
    1 ≤ binCentre ((10 : ℝ) ^ (0 : ℝ)) (10 ^ (1 : ℝ)) 100 0 ∧ binCentre ((10 : ℝ) ^ (0 : ℝ)) (10 ^ (1 : ℝ)) 100 0 ≤ 10 := by
  have e : binWidth ((10 : ℝ) ^ (0 : ℝ)) (10 ^ (1 : ℝ)) 100 = 1 / 100 := by
    unfold binWidth; rw [logb_ten, logb_ten]; norm_num
  refine ⟨by rw [e], ?_, ?_⟩
  · unfold binCentre
    rw [e, logb_ten]
    exact Real.one_le_rpow (by norm_num) (by norm_num)
  · unfold binCentre
    rw [e, logb_ten]
    calc _ ≤ (10 : ℝ) ^ (1 : ℝ) := Real.rpow_le_rpow_of_exponent_le (by norm_num) (by norm_num)
      _ = 10 := Real.rpow_one _

theorem exWell2 : WellPosedN (rd := rn53) ⟨0⟩ ⟨1⟩ 2 ⟨0⟩ ⟨1⟩ 2 ⟨0⟩ ⟨1⟩ 2 0 1 100 (exPC.h.val / exPC.kb.val) 1 1 1 1 10 :=
  { exWell1 with quad := by norm_num }

theorem exErr2 : MeanErrN (2 ^ (-53 : ℤ)) 1 1 1 2 (BudgetN (neutrinoCost 0 1 10) 1 1 100) ≤ 1e-9 := by
  unfold MeanErrN BudgetN neutrinoCost
  norm_num

/-- a gray scattering opacity; 7 frequencies are asked for, 100 are used -/
example (junk : ℕ → ℕ → Fl rn53) : ∃ (m : MeanSOpacityBase (Fl rn53)) (m' : MeanSOpacityBase ℝ),
    MeanSOpacityBase.construct exDist exPC junk (⟨⟨1⟩, ⟨1⟩⟩ : GraySOpacity (Fl rn53)) ⟨0⟩ ⟨1⟩ 2 ⟨0⟩ ⟨1⟩ 2 ⟨0⟩ ⟨1⟩ 2
      ⟨0⟩ ⟨1⟩ 7 = ok m ∧
    MeanSOpacityBase.construct exDist.exact exPC.exact (fun _ _ => 0) (⟨1, 1⟩ : GraySOpacity ℝ) 0 1 2 0 1 2 0 1 2
      0 1 7 = ok m' ∧
    AgreesWithin 1e-9 (MeanNeutrinoSAPI.PlanckMeanTotalScatteringCoefficient m (⟨1⟩ : Fl rn53) ⟨5⟩ ⟨1 / 3⟩ .NU_HEAVY)
      (MeanNeutrinoSAPI.PlanckMeanTotalScatteringCoefficient m' (1 : ℝ) 5 (1 / 3) .NU_HEAVY) ∧
    AgreesWithin 1e-9 (MeanNeutrinoSAPI.RosselandMeanTotalScatteringCoefficient m (⟨1⟩ : Fl rn53) ⟨5⟩ ⟨1 / 3⟩ .NU_HEAVY)
      (MeanNeutrinoSAPI.RosselandMeanTotalScatteringCoefficient m' (1 : ℝ) 5 (1 / 3) .NU_HEAVY) := by
  obtain ⟨m', hm⟩ := scattering_returns (inst := inferInstance) (dist := exDist.exact) (opac := (⟨1, 1⟩ : GraySOpacity ℝ))
    (pc := exPC.exact) (junk := fun _ _ => 0) (r := twoNodes) (l1 := 0) (l2 := 1) (NNu := 7)
  have hm0 := hm
  unfold MeanSOpacityBase.construct MeanSOpacityBase.Impl_ at hm0
  simp only [Bool.false_eq_true, if_false, bind_eq_ok] at hm0
  obtain ⟨t', ht', h'⟩ := hm0
  injection h' with h'
  subst h'
  obtain ⟨w1, w2, w3⟩ := exWindow2
  obtain ⟨c, p, q⟩ := exTables (o' := ⟨fun ρ T Ye s ν =>
      ok (NeutrinoSAPI.TotalScatteringCoefficient (⟨1, 1⟩ : GraySOpacity ℝ) ρ T Ye s ν), _, _⟩)
    (fun ρ _ _ _ _ => congrArg ok exScatter) rfl rfl one_pos (show 0 < 100 by norm_num) w1 w2 w3
    (fun a b c d t t' hs h => fillCellS_fills (by norm_num) a b c d t t' hs h) ht'
  obtain ⟨m, e, g⟩ := C70_scattering (dist := exDist) (pc := exPC) (junk := junk) rn53_binary
    (TwinS.gray ⟨1⟩ ⟨1⟩ one_pos one_pos) one_pos exPC_pos exWell2 le_rfl (by norm_num)
    (by norm_num) (exErr2.trans (by norm_num)) hm
  obtain ⟨g1, g2⟩ := g ⟨1⟩ ⟨5⟩ ⟨1 / 3⟩ .NU_HEAVY exInside (by norm_num) (by norm_num) (.inr (.inr rfl))
  exact ⟨m, _, e, hm, agrees_mono exErr2 (g1 p), agrees_mono exErr2 (g2 q c)⟩

theorem exThermal : thermalWindow exPC.exact twoNodes = (1e-3 + tiny, 1e4 + tiny) := by
  unfold thermalWindow
  show (1e-3 * 1 * (10 : ℝ) ^ (0 : ℝ) / 1 + tiny, 1e3 * 1 * (10 : ℝ) ^ (1 : ℝ) / 1 + tiny) = _
  norm_num

theorem exThermalLogs : (-3 ≤ Real.logb 10 (1e-3 + tiny) ∧ Real.logb 10 (1e-3 + tiny) ≤ -2.9) ∧
    (4 ≤ Real.logb 10 (1e4 + tiny) ∧ Real.logb 10 (1e4 + tiny) ≤ 4.1) := by
  obtain ⟨t0, t1⟩ := exTinyN
  have e1 : Real.logb 10 (1e-3 : ℝ) = -3 := by
    rw [show (1e-3 : ℝ) = 10 ^ (-3 : ℝ) by rw [Real.rpow_neg (by norm_num)]; norm_num, logb_ten]
  have e2 : Real.logb 10 (1e4 : ℝ) = 4 := by
    rw [show (1e4 : ℝ) = 10 ^ (4 : ℝ) by norm_num, logb_ten]
  have up : ∀ x : ℝ, 1e-3 ≤ x → Real.logb 10 (x + tiny) ≤ Real.logb 10 x + 0.1 := by
    intro x hx
    have h : x + tiny ≤ x * (1 + 1e-9) := by nlinarith
    have h10 : (1 + 1e-9 : ℝ) ≤ 10 ^ (0.1 : ℝ) := by
      have := one_add_mul_self_le_rpow_one_add (s := 9) (by norm_num) (p := 1) le_rfl
      have e : (10 : ℝ) ^ (0.1 : ℝ) = Real.exp (Real.log 10 * 0.1) := Real.rpow_def_of_pos (by norm_num) _
      rw [e]
      have l : 2 ≤ Real.log 10 := by
        rw [Real.le_log_iff_exp_le (by norm_num)]
        have : Real.exp 2 = Real.exp 1 ^ 2 := by rw [← Real.exp_nat_mul]; norm_num
        rw [this]
        have := Real.exp_one_lt_d9
        have := Real.exp_pos 1
        nlinarith
      have := Real.add_one_le_exp (Real.log 10 * 0.1)
      linarith
    calc Real.logb 10 (x + tiny) ≤ Real.logb 10 (x * 10 ^ (0.1 : ℝ)) :=
          Real.logb_le_logb_of_le (by norm_num) (by linarith) (h.trans (mul_le_mul_of_nonneg_left h10 (by linarith)))
      _ = _ := by rw [Real.logb_mul (by linarith) (by positivity), logb_ten]
  have dn : ∀ x : ℝ, 0 < x → Real.logb 10 x ≤ Real.logb 10 (x + tiny) := fun x hx =>
    Real.logb_le_logb_of_le (by norm_num) hx (by linarith)
  have a1 := up 1e-3 le_rfl
  have a2 := up 1e4 (by norm_num)
  have a3 := dn 1e-3 (by norm_num)
  have a4 := dn 1e4 (by norm_num)
  rw [e1] at a1 a3
  rw [e2] at a2 a4
  exact ⟨⟨a3, by linarith⟩, a4, by linarith⟩

theorem exWindow3 : 1 / 100 ≤ binWidth (1e-3 + tiny) (1e4 + tiny) 100 ∧ 1 ≤ binCentre (1e-3 + tiny) (1e4 + tiny) 100 50 ∧
    binCentre (1e-3 + tiny) (1e4 + tiny) 100 50 ≤ 10 := by
  obtain ⟨⟨a1, a2⟩, a3, a4⟩ := exThermalLogs
  have h1 : 0.069 ≤ binWidth (1e-3 + tiny) (1e4 + tiny) 100 := by
    unfold binWidth; rw [le_div_iff₀ (by norm_num)]; norm_num at *; linarith
  have h2 : binWidth (1e-3 + tiny) (1e4 + tiny) 100 ≤ 0.071 := by
    unfold binWidth; rw [div_le_iff₀ (by norm_num)]; norm_num at *; linarith
  refine ⟨by linarith, ?_, ?_⟩
  · unfold binCentre
    refine Real.one_le_rpow (by norm_num) ?_
    push_cast
    linarith
  · unfold binCentre
    calc _ ≤ (10 : ℝ) ^ (1 : ℝ) := Real.rpow_le_rpow_of_exponent_le (by norm_num) (by push_cast; linarith)
      _ = 10 := Real.rpow_one _

theorem exWell3 : WellPosedN (rd := rn53) ⟨0⟩ ⟨1⟩ 2 ⟨0⟩ ⟨1⟩ 2 ⟨0⟩ ⟨1⟩ 2 (Real.logb 10 (thermalWindow exPC.exact twoNodes).1)
    (Real.logb 10 (thermalWindow exPC.exact twoNodes).2) 100 (exPC.h.val / exPC.kb.val) 1 1 5 1 10001 := by
  obtain ⟨⟨a1, a2⟩, a3, a4⟩ := exThermalLogs
  obtain ⟨t0, t1⟩ := exTinyN
  rw [exThermal]
  refine ⟨by constructor <;> norm_num, by constructor <;> norm_num, by constructor <;> norm_num, by norm_num,
    ⟨abs_le.2 ⟨by linarith, by linarith⟩, abs_le.2 ⟨by linarith, by linarith⟩⟩, ⟨by norm_num, by linarith⟩, by norm_num, ?_⟩
  show _ ∧ (1 : ℝ) / 1 * _ ≤ _ * (10 : ℝ) ^ (0 : ℝ)
  rw [Real.rpow_logb (by norm_num) (by norm_num) (by linarith), Real.rpow_zero]
  exact ⟨by norm_num, by linarith⟩

theorem exErr3 : MeanErrN (2 ^ (-53 : ℤ)) 1 1 1 2 (BudgetN (neutrinoCost 0 5 10001) 5 1 100) ≤ 1e-6 := by
  unfold MeanErrN BudgetN neutrinoCost
  norm_num

/-- the same gray opacities with the default frequency window -/
example (junk : ℕ → ℕ → Fl rn53) : ∃ (m : MeanOpacityBase (Fl rn53)) (m' : MeanOpacityBase ℝ),
    MeanOpacityBase.constructAuto false exPC junk (⟨exDist, exPC, ⟨1⟩⟩ : GrayOpacity (Fl rn53)) ⟨0⟩ ⟨1⟩ 2 ⟨0⟩ ⟨1⟩ 2 ⟨0⟩ ⟨1⟩ 2
      = ok m ∧
    MeanOpacityBase.constructAuto false exPC.exact (fun _ _ => 0) (⟨exDist.exact, exPC.exact, 1⟩ : GrayOpacity ℝ)
      0 1 2 0 1 2 0 1 2 = ok m' ∧
    AgreesWithin 1e-6 (MeanNeutrinoAPI.PlanckMeanAbsorptionCoefficient m (⟨1⟩ : Fl rn53) ⟨5⟩ ⟨1 / 3⟩ .NU_HEAVY)
      (MeanNeutrinoAPI.PlanckMeanAbsorptionCoefficient m' (1 : ℝ) 5 (1 / 3) .NU_HEAVY) ∧
    AgreesWithin 1e-6 (MeanNeutrinoAPI.RosselandMeanAbsorptionCoefficient m (⟨1⟩ : Fl rn53) ⟨5⟩ ⟨1 / 3⟩ .NU_HEAVY)
      (MeanNeutrinoAPI.RosselandMeanAbsorptionCoefficient m' (1 : ℝ) 5 (1 / 3) .NU_HEAVY) := by
  obtain ⟨ew, v1, v2⟩ := window_logs (pc := exPC.exact) (r := twoNodes) one_pos one_pos
  obtain ⟨m', hm'⟩ := absorption_returns (inst := inferInstance) (opac := (⟨exDist.exact, exPC.exact, 1⟩ : GrayOpacity ℝ))
    (pc := exPC.exact) (junk := fun _ _ => 0) (r := twoNodes) (l1 := (autoWindow exPC.exact 0 1).1)
    (l2 := (autoWindow exPC.exact 0 1).2) (NNu := 100) (fun _ _ _ _ _ => ⟨_, rfl⟩)
  have hm : MeanOpacityBase.constructAuto false exPC.exact (fun _ _ => 0) (⟨exDist.exact, exPC.exact, 1⟩ : GrayOpacity ℝ)
      0 1 2 0 1 2 0 1 2 = ok m' := hm'
  have hm0 := hm
  unfold MeanOpacityBase.constructAuto MeanOpacityBase.Impl_ at hm0
  simp only [Bool.false_and, Bool.false_eq_true, if_false, if_true, bind_eq_ok] at hm0
  obtain ⟨t', ht', h'⟩ := hm0
  injection h' with h'
  subst h'
  rw [show autoWindow exPC.exact (0 : ℝ) 1 = _ from ew] at ht'
  obtain ⟨w1, w2, w3⟩ := exWindow3
  have hl := exWell3.width
  rw [exThermal] at ht' hl v1 v2
  dsimp only at v1 v2 hl
  obtain ⟨c, p, q⟩ := exTables (o' := ⟨NeutrinoAPI.AbsorptionCoefficient (⟨exDist.exact, exPC.exact, 1⟩ : GrayOpacity ℝ), _, _⟩)
    (fun ρ _ _ _ _ => congrArg ok (mul_one ρ)) rfl rfl (by linarith) (show 50 < 100 by norm_num) (by rw [v1, v2]; exact w1)
    (by rw [v1, v2]; exact w2) (by rw [v1, v2]; exact w3)
    (fun a b c d t t' hs h => fillCell_fills a b c d t t' hs h) ht'
  obtain ⟨m, e, g⟩ := C70_absorption_auto (pc := exPC) (junk := junk) rn53_binary
    (Twin.gray exDist exPC ⟨1⟩ one_pos exPC_pos one_pos) one_pos one_pos exWell3 le_rfl (by norm_num)
    (by norm_num) (exErr3.trans (by norm_num)) hm
  obtain ⟨g1, g2⟩ := g ⟨1⟩ ⟨5⟩ ⟨1 / 3⟩ .NU_HEAVY exInside (by norm_num) (by norm_num) (.inr (.inr rfl))
  refine ⟨m, _, e, hm, agrees_mono exErr3 (g1 p), agrees_mono exErr3 (g2 q ⟨rfl, ?_⟩)⟩
  rw [v1, v2] at c
  rw [show exactRanges (rd := rn53) ⟨0⟩ ⟨1⟩ 2 ⟨0⟩ ⟨1⟩ 2 ⟨0⟩ ⟨1⟩ 2 = twoNodes from rfl, exThermal]
  exact c

example (junk : ℕ → ℕ → Fl rn53) : ∃ (m : MeanSOpacityBase (Fl rn53)) (m' : MeanSOpacityBase ℝ),
    MeanSOpacityBase.constructAuto exDist exPC junk (⟨⟨1⟩, ⟨1⟩⟩ : GraySOpacity (Fl rn53)) ⟨0⟩ ⟨1⟩ 2 ⟨0⟩ ⟨1⟩ 2 ⟨0⟩ ⟨1⟩ 2
      = ok m ∧
    MeanSOpacityBase.constructAuto exDist.exact exPC.exact (fun _ _ => 0) (⟨1, 1⟩ : GraySOpacity ℝ)
      0 1 2 0 1 2 0 1 2 = ok m' ∧
    AgreesWithin 1e-6 (MeanNeutrinoSAPI.PlanckMeanTotalScatteringCoefficient m (⟨1⟩ : Fl rn53) ⟨5⟩ ⟨1 / 3⟩ .NU_HEAVY)
      (MeanNeutrinoSAPI.PlanckMeanTotalScatteringCoefficient m' (1 : ℝ) 5 (1 / 3) .NU_HEAVY) ∧
    AgreesWithin 1e-6 (MeanNeutrinoSAPI.RosselandMeanTotalScatteringCoefficient m (⟨1⟩ : Fl rn53) ⟨5⟩ ⟨1 / 3⟩ .NU_HEAVY)
      (MeanNeutrinoSAPI.RosselandMeanTotalScatteringCoefficient m' (1 : ℝ) 5 (1 / 3) .NU_HEAVY) := by
  obtain ⟨ew, v1, v2⟩ := window_logs (pc := exPC.exact) (r := twoNodes) one_pos one_pos
  obtain ⟨m', hm'⟩ := scattering_returns (inst := inferInstance) (dist := exDist.exact) (opac := (⟨1, 1⟩ : GraySOpacity ℝ))
    (pc := exPC.exact) (junk := fun _ _ => 0) (r := twoNodes) (l1 := (autoWindow exPC.exact 0 1).1)
    (l2 := (autoWindow exPC.exact 0 1).2) (NNu := 100)
  have hm : MeanSOpacityBase.constructAuto exDist.exact exPC.exact (fun _ _ => 0) (⟨1, 1⟩ : GraySOpacity ℝ)
      0 1 2 0 1 2 0 1 2 = ok m' := hm'
  have hm0 := hm
  unfold MeanSOpacityBase.constructAuto MeanSOpacityBase.Impl_ at hm0
  simp only [if_true, bind_eq_ok] at hm0
  obtain ⟨t', ht', h'⟩ := hm0
  injection h' with h'
  subst h'
  rw [show autoWindow exPC.exact (0 : ℝ) 1 = _ from ew] at ht'
  obtain ⟨w1, w2, w3⟩ := exWindow3
  have hl := exWell3.width
  rw [exThermal] at ht' hl v1 v2
  dsimp only at v1 v2 hl
  obtain ⟨c, p, q⟩ := exTables (o' := ⟨fun ρ T Ye s ν =>
      ok (NeutrinoSAPI.TotalScatteringCoefficient (⟨1, 1⟩ : GraySOpacity ℝ) ρ T Ye s ν), _, _⟩)
    (fun ρ _ _ _ _ => congrArg ok exScatter) rfl rfl (by linarith) (show 50 < 100 by norm_num) (by rw [v1, v2]; exact w1)
    (by rw [v1, v2]; exact w2) (by rw [v1, v2]; exact w3)
    (fun a b c d t t' hs h => fillCellS_fills (by norm_num) a b c d t t' hs h) ht'
  obtain ⟨m, e, g⟩ := C70_scattering_auto (dist := exDist) (pc := exPC) (junk := junk) rn53_binary
    (TwinS.gray ⟨1⟩ ⟨1⟩ one_pos one_pos) one_pos exPC_pos one_pos one_pos exWell3 le_rfl (by norm_num)
    (by norm_num) (exErr3.trans (by norm_num)) hm
  obtain ⟨g1, g2⟩ := g ⟨1⟩ ⟨5⟩ ⟨1 / 3⟩ .NU_HEAVY exInside (by norm_num) (by norm_num) (.inr (.inr rfl))
  refine ⟨m, _, e, hm, agrees_mono exErr3 (g1 p), agrees_mono exErr3 (g2 q ?_)⟩
  rw [v1, v2] at c
  rw [show exactRanges (rd := rn53) ⟨0⟩ ⟨1⟩ 2 ⟨0⟩ ⟨1⟩ 2 ⟨0⟩ ⟨1⟩ 2 = twoNodes from rfl, exThermal]
  exact c

end example_
end Opac.Neutrinos
