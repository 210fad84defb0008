import Verif.Lemmas.NeutrinoMeanAccuracy
import Verif.Props.NeutrinoMeans

/-! Rounding errors of neutrino means: the tables and the lookup. -/

namespace Opac.Accuracy
open Arith Outcome Spiner Spec Tables Neutrinos Neutrinos.MeanTables

variable {rd : ℝ → ℝ} {u : ℝ}

/-- an exact table on the grid of a rounded table, with entries `η` away -/
structure Near4 (d : DataBox (Fl rd)) (d' : DataBox ℝ) (X s η : ℝ) : Prop where
  rank : d.rank = 4
  dims : d'.dims = d.dims
  grid : ∀ k ∈ [3, 2, 1], Axis (d.grid k) X s ∧ d.dim (k + 1) = (d.grid k).N ∧ d'.grid k = (d.grid k).exact
  near : ∀ is, InRange d.dims is → |(entry d is).val - entry d' is| ≤ η

theorem Near4.interp4 {d : DataBox (Fl rd)} {d' : DataBox ℝ} {X s η M D τ : ℝ} (N : Near4 d d' X s η)
    (S : SmoothTable d' [3, 2, 1] M D) (hr : BinaryRounding rd u) (hu : u ≤ 1 / 100)
    (hτ1 : τ ≤ 1 / 100) {x4' x3' x2' : Fl rd} {x4 x3 x2 : ℝ} (A3 : Along u (d.grid 3) x4' x4 τ)
    (A2 : Along u (d.grid 2) x3' x3 τ) (A1 : Along u (d.grid 1) x2' x2 τ) {n : ℤ} (h0 : 0 ≤ n) (h1 : n < d.dim 1) :
    ∃ y' y, d.interp4 x4' x3' x2' n = ok y' ∧ d'.interp4 x4 x3 x2 n = ok y ∧
      |y'.val - y| ≤ 1.728 * η + 3.64 * (3 * τ * D + 12 * u * M) := by
  have g3 := (N.grid 3 (by simp))
  have g2 := (N.grid 2 (by simp))
  have g1 := (N.grid 1 (by simp))
  have hd := N.rank
  have hd' : d'.rank = 4 := by rw [← hd]; unfold DataBox.rank; rw [N.dims]
  obtain ⟨a, b, c, m, hdims⟩ : ∃ a b c m, d.dims = [a, b, c, m] := by
    have : d.dims.length = 4 := hd
    match d.dims, this with
    | [a, b, c, m], _ => exact ⟨a, b, c, m, rfl⟩
  have e3 : (d.grid 3).N = a := by rw [← g3.2.1]; simp [DataBox.dim, hdims]
  have e2 : (d.grid 2).N = b := by rw [← g2.2.1]; simp [DataBox.dim, hdims]
  have e1 : (d.grid 1).N = c := by rw [← g1.2.1]; simp [DataBox.dim, hdims]
  have e0 : d.dim 1 = m := by simp [DataBox.dim, hdims]
  rw [e0] at h1
  have hin : ∀ i j k, 0 ≤ i → i < (d.grid 3).N → 0 ≤ j → j < (d.grid 2).N → 0 ≤ k → k < (d.grid 1).N →
      InRange d.dims [i, j, k, n] := by
    intro i j k i0 i1 j0 j1 k0 k1
    rw [hdims]; exact ⟨⟨i0, e3 ▸ i1⟩, ⟨j0, e2 ▸ j1⟩, ⟨k0, e1 ▸ k1⟩, ⟨h0, h1⟩, trivial⟩
  have rd' : ∀ i j k, 0 ≤ i → i < (d.grid 3).N → 0 ≤ j → j < (d.grid 2).N → 0 ≤ k → k < (d.grid 1).N →
      d'.read [i, j, k, n] = ok (entry d' [i, j, k, n]) :=
    fun i j k i0 i1 j0 j1 k0 k1 => read_entry d' (by rw [N.dims]; exact hin i j k i0 i1 j0 j1 k0 k1)
  have F0 : Fam (fun p : ((Unit × ℤ) × ℤ) × ℤ => ((True ∧ 0 ≤ p.1.1.2 ∧ p.1.1.2 < (d.grid 3).N) ∧ 0 ≤ p.1.2 ∧
      p.1.2 < (d.grid 2).N) ∧ 0 ≤ p.2 ∧ p.2 < (d.grid 1).N) Adj3
      (fun p => entry d [p.1.1.2, p.1.2, p.2, n]) (fun p => entry d' [p.1.1.2, p.1.2, p.2, n]) η M D :=
    { err := by
        rintro ⟨⟨⟨_, i⟩, j⟩, k⟩ ⟨⟨⟨_, i0, i1⟩, j0, j1⟩, k0, k1⟩; exact N.near _ (hin i j k i0 i1 j0 j1 k0 k1)
      abs := by
        rintro ⟨⟨⟨_, i⟩, j⟩, k⟩ ⟨⟨⟨_, i0, i1⟩, j0, j1⟩, k0, k1⟩; exact S.size _ _ (rd' i j k i0 i1 j0 j1 k0 k1)
      step := by
        rintro ⟨⟨⟨_, i⟩, j⟩, k⟩ ⟨⟨⟨_, i'⟩, j'⟩, k'⟩ ⟨⟨⟨_, i0, i1⟩, j0, j1⟩, k0, k1⟩
          ⟨⟨⟨_, i0', i1'⟩, j0', j1'⟩, k0', k1'⟩ (⟨ha | ha, hb⟩ | ⟨ha, hb⟩)
        · simp only [Adj1] at ha hb
          obtain ⟨ha, hc⟩ := ha
          subst ha hb hc
          exact S.step 3 (by simp) [i, j', k', n] _ _ (rd' _ _ _ i0 i1 j0 j1 k0 k1) (by
            rw [hd']; exact rd' _ _ _ i0' i1' j0' j1' k0' k1')
        · simp only at ha hb
          obtain ⟨ha, hc⟩ := ha
          obtain rfl : i = i' := (Prod.ext_iff.1 ha).2
          subst hb hc
          exact S.step 2 (by simp) [i, j, k', n] _ _ (rd' _ _ _ i0 i1 j0 j1 k0 k1) (by
            rw [hd']; exact rd' _ _ _ i0' i1' j0' j1' k0' k1')
        · simp only at ha hb
          obtain ⟨hc, rfl⟩ := Prod.ext_iff.1 ha
          obtain rfl : i = i' := (Prod.ext_iff.1 hc).2
          subst hb
          exact S.step 1 (by simp) [i, j, k, n] _ _ (rd' _ _ _ i0 i1 j0 j1 k0 k1) (by
            rw [hd']; exact rd' _ _ _ i0' i1' j0' j1' k0' k1') }
  have F1 := F0.lerp' (valid := fun p : (Unit × ℤ) × ℤ => (True ∧ 0 ≤ p.1.2 ∧ p.1.2 < (d.grid 3).N) ∧ 0 ≤ p.2 ∧
    p.2 < (d.grid 2).N) (adj := Adj2) A1 hr hu hτ1 (fun i j l h => .inl ⟨h, rfl⟩) (fun i l => .inr ⟨rfl, rfl⟩)
  have F2 := F1.lerp' (valid := fun p : Unit × ℤ => True ∧ 0 ≤ p.2 ∧ p.2 < (d.grid 3).N) (adj := Adj1) A2 hr hu hτ1
    (fun i j l h => .inl ⟨h, rfl⟩) (fun i l => .inr ⟨rfl, rfl⟩)
  have F3 := F2.lerp' (valid := fun p : Unit => True) (adj := fun _ _ => False) A3 hr hu hτ1
    (fun i j l h => h.elim) (fun i l => rfl)
  refine ⟨_, _, ?_, ?_, (F3.err () trivial).trans ?_⟩
  · exact lerp_ok _ g3.1.two _ (fun i i0 i1 => lerp_ok _ g2.1.two _ (fun j j0 j1 => lerp_ok _ g1.1.two _ (fun k k0 k1 =>
      read_entry d (hin i j k i0 i1 j0 j1 k0 k1))))
  · unfold DataBox.interp4
    rw [g3.2.2, g2.2.2, g1.2.2]
    exact lerp_ok (d.grid 3).exact g3.1.two _ (fun i i0 i1 => lerp_ok (d.grid 2).exact g2.1.two _ (fun j j0 j1 =>
      lerp_ok (d.grid 1).exact g1.1.two _ (fun k k0 k1 => rd' i j k i0 i1 j0 j1 k0 k1)))
  · exact le_of_eq (by ring)

theorem Near4.lookup {d : DataBox (Fl rd)} {d' : DataBox ℝ} {X s M D P : ℝ} (N : Near4 d d' X s (u * (P + M)))
    (S : SmoothTable d' [3, 2, 1] M D) (hr : BinaryRounding rd u) (hu : u ≤ 1 / 100)
    (hX : 1 ≤ X) (hM : 1 ≤ M) (hD : 0 ≤ D) (hP : 0 ≤ P) (hτ : 40 * u * X / s ≤ 1 / 100) (hE : MeanErrN u X s M D P ≤ 1 / 10)
    (h3 : d.dim 1 = 3) {sp : RadiationType} {idx : ℕ} (hsp : SpeciesIndex sp idx) {rho T Ye : Fl rd} (hρ : 0 < rho.val)
    (hT : 0 < T.val)
    (i3 : (d.grid 3).min.val ≤ meanCoord rho.val ∧ meanCoord rho.val ≤ (d.grid 3).max.val)
    (i2 : (d.grid 2).min.val ≤ meanCoord T.val ∧ meanCoord T.val ≤ (d.grid 2).max.val)
    (i1 : (d.grid 1).min.val ≤ Ye.val ∧ Ye.val ≤ (d.grid 1).max.val) :
    ∃ a a', MeanTables.lookup d rho T Ye sp = ok a ∧ MeanTables.lookup d' rho.val T.val Ye.val sp = ok a' ∧
      0 < a' ∧ |a.val - a'| ≤ MeanErrN u X s M D P * a' := by
  have hu0 := hr.nonneg
  have a3 := (N.grid 3 (by simp)).1
  have a2 := (N.grid 2 (by simp)).1
  have a1 := (N.grid 1 (by simp)).1
  have hs := a1.spacing.1
  obtain ⟨hd3, hidx⟩ := hsp.spec
  have hYe : |Ye.val - Ye.val| ≤ u * (4 + |Ye.val|) := by rw [sub_self, abs_zero]; positivity
  obtain ⟨y', y, h1, h2, h3⟩ := N.interp4 S hr hu hτ (along a3 hu0 hX (mean_coord' hr hu hρ) i3.1 i3.2)
    (along a2 hu0 hX (mean_coord' hr hu hT) i2.1 i2.2) (along a1 hu0 hX hYe i1.1 i1.2) (n := idx) (by omega) (by omega)
  rw [err_eq] at h3
  have hE0 := err_nonneg hu0 hs hX hM hD
  have e : ∀ x : ℝ, MeanTables.toLog_ x = meanCoord x := MeanTables.toLog_eq
  refine ⟨rho * MeanTables.fromLog_ y', rho.val * (10 : ℝ) ^ y, ?_, ?_, by positivity, ?_⟩
  · simp only [MeanTables.lookup, hidx]; rw [h1]; rfl
  · simp only [MeanTables.lookup, hidx, e]; rw [h2]
    simp [MeanTables.fromLog_, areal]
  · have c := close_mul hr (Accuracy.Close.refl (δ := 1) hρ.ne') (pow10_err hr h3)
    have ul := unit_le hr hu
    have h5 := u_le_err hu0 hs hX hM hD
    have hη : 0 ≤ u * (P + M) := by positivity
    have hEE : MeanErrN u X s M D P = 15 * (Err u X s M D + 1 / 3 * (u * (P + M))) := by unfold MeanErrN Err; ring
    rw [hEE]
    refine rel_err (by positivity) c ?_ (by rw [hEE] at hE; linarith)
    linarith

/-! ### The constructors return -/

section returns
variable {R : Type} [Arith R] {o : Sampler R} {l1 l2 : R} {NNu n4 n3 n2 : ℤ} {t₀ t : MeanTables R}

theorem fillCell_ok (hn : ∀ x : R, isNaN x = false) (hp : t₀.lPlanck.dims = [n4, n3, n2, 3])
    (hq : t₀.lRosseland.dims = [n4, n3, n2, 3]) {i j k d : ℕ} (hi : (i : ℤ) < n4) (hj : (j : ℤ) < n3) (hk : (k : ℤ) < n2)
    (hd : d < 3) (hS : ∃ κ, NodeSums o l1 l2 NNu t₀ i j k d κ) (ht : Same t₀ t) :
    ∃ t', fillCell o l1 l2 NNu i j k d t = ok t' ∧ Same t₀ t' := by
  obtain ⟨κ, s, hs, hκ⟩ := hS
  obtain ⟨t', h⟩ := store_returns (k := means κ) (by rw [ht.p1, hp]) (by rw [ht.r1, hq]) hi hj hk hd (hn _) (hn _)
  refine ⟨t', ?_, (store_effect ht h).1⟩
  simp only [fillCell, hs, ok_bind, ranges_eq ht, hκ, h]

theorem fillCellS_ok (hn : ∀ x : R, isNaN x = false) (hc : ∀ ρ T Ye s ν, ∃ v, o.coef ρ T Ye s ν = ok v)
    (hp : t₀.lPlanck.dims = [n4, n3, n2, 3]) (hq : t₀.lRosseland.dims = [n4, n3, n2, 3]) {i j k d : ℕ} (hi : (i : ℤ) < n4)
    (hj : (j : ℤ) < n3) (hk : (k : ℤ) < n2) (hd : d < 3) (ht : Same t₀ t) :
    ∃ t', fillCellS o l1 l2 NNu i j k d t = ok t' ∧ Same t₀ t' := by
  choose f hf using hc
  obtain ⟨s, hs⟩ : ∃ s, Idx2RadType d = ok s := by
    have : d = 0 ∨ d = 1 ∨ d = 2 := by omega
    rcases this with rfl | rfl | rfl
    · exact ⟨_, rfl⟩
    · exact ⟨_, rfl⟩
    · exact ⟨_, rfl⟩
  simp only [fillCellS, hs, ok_bind, hf]
  obtain ⟨st, h1, h2⟩ := loop_ok (I := fun st : Sums R × MeanTables R => Same t₀ st.2) NNu (fun inu st => do
    let t1 ← store i j k d (means (addSample (fromLog_ ((t.lPlanck.range 3).x i)) (f (fromLog_ ((t.lPlanck.range 3).x i))
      (fromLog_ ((t.lPlanck.range 2).x j)) ((t.lPlanck.range 1).x k) s (sampleNu l1 l2 NNu inu))
      (o.B (fromLog_ ((t.lPlanck.range 2).x j)) s (sampleNu l1 l2 NNu inu))
      (o.dBdT (fromLog_ ((t.lPlanck.range 2).x j)) s (sampleNu l1 l2 NNu inu)) (sampleNu l1 l2 NNu inu)
      ((l2 - l1) / lit NNu) st.1)) st.2
    return (addSample (fromLog_ ((t.lPlanck.range 3).x i)) (f (fromLog_ ((t.lPlanck.range 3).x i))
      (fromLog_ ((t.lPlanck.range 2).x j)) ((t.lPlanck.range 1).x k) s (sampleNu l1 l2 NNu inu))
      (o.B (fromLog_ ((t.lPlanck.range 2).x j)) s (sampleNu l1 l2 NNu inu))
      (o.dBdT (fromLog_ ((t.lPlanck.range 2).x j)) s (sampleNu l1 l2 NNu inu)) (sampleNu l1 l2 NNu inu)
      ((l2 - l1) / lit NNu) st.1, t1)) (by
    intro inu _ st hst
    have hw : ∀ K : R × R, ∃ t', store i j k d K st.2 = ok t' := fun K =>
      store_returns (by rw [hst.p1, hp]) (by rw [hst.r1, hq]) hi hj hk hd (hn _) (hn _)
    choose w hw using hw
    simp only [hw, ok_bind]
    exact ⟨_, rfl, (store_effect hst (hw _)).1⟩) (s := (Sums.zero, t)) ht
  refine ⟨st.2, ?_, h2⟩
  simp only [h1, ok_bind]
  rfl

end returns

/-! ### The tables -/

section tables
variable {lRhoMin lRhoMax lTMin lTMax YeMin YeMax l1 l2 : Fl rd} {NRho NT NYe N : ℤ} {l1' l2' : ℝ}
  {K X s L W Q C M : ℝ} {F : Prop} {o : Sampler (Fl rd)} {o' : Sampler ℝ} {junk : ℕ → ℕ → Fl rd} {junk' : ℕ → ℕ → ℝ}
  {t' : MeanTables ℝ}

theorem setup_grid {R : Type} [Arith R] (junk : ℕ → ℕ → R) (a b : R) (n : ℤ) (c d : R) (m : ℤ) (e f : R) (l : ℤ) :
    ((setup junk a b n c d m e f l).lPlanck.grid 3 = ⟨a, b, n⟩ ∧ (setup junk a b n c d m e f l).lPlanck.grid 2 = ⟨c, d, m⟩ ∧
    (setup junk a b n c d m e f l).lPlanck.grid 1 = ⟨e, f, l⟩) ∧
    (setup junk a b n c d m e f l).lRosseland.grid = (setup junk a b n c d m e f l).lPlanck.grid ∧
    (setup junk a b n c d m e f l).lPlanck.dims = [n, m, l, 3] ∧
    (setup junk a b n c d m e f l).lRosseland.dims = [n, m, l, 3] := ⟨⟨rfl, rfl, rfl⟩, rfl, rfl, rfl⟩

theorem fromLog_same {R : Type} [Arith R] (x : R) : fromLog_ x = Photons.FromLog x := by
  unfold fromLog_ Photons.FromLog; norm_num

theorem nodeAt_le {g : Grid (Fl rd)} {X s : ℝ} (h : Axis g X s) {j : ℕ} : g.min.val ≤ g.exact.x j := by
  have hs := h.spacing
  have h2 : (2 : ℝ) ≤ g.N := by exact_mod_cast h.two
  have : 0 ≤ (g.max.val - g.min.val) := by nlinarith
  have hd : 0 ≤ g.exact.dx := by
    rw [exact_dx]; exact div_nonneg this (by linarith)
  have e1 : g.exact.x j = j * g.exact.dx + g.min.val := by
    unfold Grid.x; simp [areal, Grid.exact]
  rw [e1]
  have : (0 : ℝ) ≤ j := Nat.cast_nonneg _
  nlinarith [mul_nonneg this hd]

/-- One cell: if the exact sums exist, so do the rounded ones, and the means are close. -/
theorem node_near (hr : BinaryRounding rd u) (hu : u ≤ 1 / 100) (hC : 2 ≤ C) (hK : 0 ≤ K)
    (H : WellPosedN lRhoMin lRhoMax NRho lTMin lTMax NT YeMin YeMax NYe l1' l2' N K X s L W Q)
    (w : Window u L W l1 l2 l1' l2') (hP : BudgetN C L W N * unit u ≤ 1 / 1000) (hS : Samplers u C L K Q F o o')
    {i j k d : ℕ} (hi : (i : ℤ) < NRho) (hj : (j : ℤ) < NT) {κ' : Sums ℝ}
    (h : NodeSums o' l1' l2' N (setup junk' lRhoMin.val lRhoMax.val NRho lTMin.val lTMax.val NT YeMin.val YeMax.val NYe) i j k d
      κ')
    (hF : F → ∀ sp, Idx2RadType d = ok sp → ∀ m : ℕ, (m : ℤ) < N → ∀ α,
      o'.coef (10 ^ nodeAt lRhoMin.val lRhoMax.val NRho i) (10 ^ nodeAt lTMin.val lTMax.val NT j)
        (nodeAt YeMin.val YeMax.val NYe k) sp (sampleNu l1' l2' N m) = ok α → Decided Robust.SMALL α) :
    ∃ κ, NodeSums o l1 l2 N (setup junk lRhoMin lRhoMax NRho lTMin lTMax NT YeMin YeMax NYe) i j k d κ ∧
      ZF u (BudgetN C L W N) (means κ).1 (means κ').1 ∧
      (F → Decided Robust.SMALL (means κ').1 → Decided Robust.SMALL κ'.rosselandNum →
        ZF u (BudgetN C L W N) (means κ).2 (means κ').2) := by
  obtain ⟨sp, hsp, hk⟩ := h
  have hL : 1 ≤ L := H.ends.1.trans H.ends.2
  have hu0 := hr.nonneg
  have hug := unit_ge hr
  have hun := unit_nonneg hr.toRounding
  have hW := H.width.1
  have hLW : 0 ≤ L / W := by positivity
  have hN2 : (2 : ℝ) ≤ N := by exact_mod_cast H.quad.1
  have hB : BudgetN C L W N = 3 * C + 340 * L + 76 * (L / W) + 2 * N + 20 := by unfold BudgetN; ring
  have le : ∀ {n : ℝ}, n ≤ BudgetN C L W N → n * unit u ≤ 1 / 1000 := fun h =>
    (mul_le_mul_of_nonneg_right h hun).trans hP
  have q1 : 100 * u * L ≤ 1 / 100 := by
    have := le (n := 340 * L) (by rw [hB]; linarith)
    have : u * L ≤ unit u * L := by gcongr
    linarith
  have q2 : 40 * u * L / W ≤ 1 / 100 := by
    have := le (n := 76 * (L / W)) (by rw [hB]; linarith)
    have : u * (L / W) ≤ unit u * (L / W) := by gcongr
    rw [show 40 * u * L / W = 40 * (u * (L / W)) by ring]
    linarith
  have q3 : (C + 1) * unit u ≤ 0.001 := (le (by rw [hB]; linarith)).trans (by norm_num)
  have pρ : PF u (24 * L) (fromLog_ ((⟨lRhoMin, lRhoMax, NRho⟩ : Grid (Fl rd)).x i))
      (fromLog_ ((⟨lRhoMin, lRhoMax, NRho⟩ : Grid (Fl rd)).exact.x i)) := by
    rw [fromLog_same, fromLog_same]; exact node_pf H.rho.ok hr hu H.ends.2 hL hi
  have pT : PF u (24 * L) (fromLog_ ((⟨lTMin, lTMax, NT⟩ : Grid (Fl rd)).x j))
      (fromLog_ ((⟨lTMin, lTMax, NT⟩ : Grid (Fl rd)).exact.x j)) := by
    rw [fromLog_same, fromLog_same]; exact node_pf H.temp.ok hr hu H.ends.2 hL hj
  have hQ : K * 10 ^ l2' / fromLog_ ((⟨lTMin, lTMax, NT⟩ : Grid (Fl rd)).exact.x j) ≤ Q := by
    rw [fromLog_eq, div_le_iff₀ (by positivity)]
    refine H.wien.2.trans ?_
    refine mul_le_mul_of_nonneg_left ?_ H.wien.1
    exact Real.rpow_le_rpow_of_exponent_le (by norm_num) (nodeAt_le H.temp)
  have nd : ∀ (g : Grid (Fl rd)) (i : ℕ), g.exact.x i = nodeAt g.min.val g.max.val g.N i := by
    intro g i
    unfold Grid.x nodeAt
    rw [exact_dx]
    simp [areal, Grid.exact]
  obtain ⟨κ, c1, c2, c3⟩ := cellSums_near (Ye := (⟨YeMin, YeMax, NYe⟩ : Grid (Fl rd)).x k) hr hC hL hW hK w H.quad.1 H.quad.2 q1
    q2 q3 hS pρ pT hQ hk (fun f m hm α hα => hF f sp hsp m hm α (by
      rw [fromLog_eq, fromLog_eq] at hα
      have e1 := nd ⟨lRhoMin, lRhoMax, NRho⟩ i
      have e2 := nd ⟨lTMin, lTMax, NT⟩ j
      have e3 := nd ⟨YeMin, YeMax, NYe⟩ k
      rw [← e1, ← e2, ← e3]
      exact hα))
  exact ⟨κ, ⟨sp, hsp, c1⟩, means_near hr hC hL hW H.quad.1 c2 c3.ne' hP⟩

/-- Both tables of the rounded run are near the exact ones. -/
theorem tables_near (hr : BinaryRounding rd u) (hu : u ≤ 1 / 100) (hC : 2 ≤ C) (hK : 0 ≤ K)
    (H : WellPosedN lRhoMin lRhoMax NRho lTMin lTMax NT YeMin YeMax NYe l1' l2' N K X s L W Q)
    (w : Window u L W l1 l2 l1' l2') (hP : BudgetN C L W N * unit u ≤ 1 / 1000) (hS : Samplers u C L K Q F o o')
    {t₀ : MeanTables (Fl rd)} {t₀' : MeanTables ℝ}
    (e0 : t₀ = setup junk lRhoMin lRhoMax NRho lTMin lTMax NT YeMin YeMax NYe)
    (e0' : t₀' = setup junk' lRhoMin.val lRhoMax.val NRho lTMin.val lTMax.val NT YeMin.val YeMax.val NYe)
    {cell : ℕ → ℕ → ℕ → ℕ → MeanTables (Fl rd) → Outcome (MeanTables (Fl rd))}
    (hcell : ∀ a b c d t t', Same t₀ t → cell a b c d t = ok t' →
      Fills Cell.val (Same t₀) (Entry o l1 l2 N t₀) {Cell.planck a b c d, Cell.rosseland a b c d} t t')
    (hret : ∀ a b c d : ℕ, (a : ℤ) < NRho → (b : ℤ) < NT → (c : ℤ) < NYe → d < 3 →
      (∃ κ, NodeSums o l1 l2 N t₀ a b c d κ) → ∀ t, Same t₀ t → ∃ t', cell a b c d t = ok t' ∧ Same t₀ t')
    (hs' : Same t₀' t')
    (hc' : ∀ a b c d : ℕ, (a : ℤ) < NRho → (b : ℤ) < NT → (c : ℤ) < NYe → d < 3 →
      ∃ k, NodeSums o' l1' l2' N t₀' a b c d k ∧ Cell.val t' (.planck a b c d) = ok (toLog_ (means k).1) ∧
        Cell.val t' (.rosseland a b c d) = ok (toLog_ (means k).2))
    (hF : F → ∀ a b c d : ℕ, (a : ℤ) < NRho → (b : ℤ) < NT → (c : ℤ) < NYe → d < 3 → ∀ sp, Idx2RadType d = ok sp →
      (∀ m : ℕ, (m : ℤ) < N → ∀ α, o'.coef (10 ^ nodeAt lRhoMin.val lRhoMax.val NRho a)
        (10 ^ nodeAt lTMin.val lTMax.val NT b) (nodeAt YeMin.val YeMax.val NYe c) sp (sampleNu l1' l2' N m) = ok α →
        Decided Robust.SMALL α) ∧
      ∀ κ', NodeSums o' l1' l2' N t₀' a b c d κ' → Decided Robust.SMALL (means κ').1 ∧ Decided Robust.SMALL κ'.rosselandNum) :
    ∃ t, loops NRho NT NYe cell t₀ = ok t ∧ t.lPlanck.grid = t₀.lPlanck.grid ∧ t.lRosseland.grid = t₀.lPlanck.grid ∧
      t.lPlanck.dim 1 = 3 ∧ t.lRosseland.dim 1 = 3 ∧
      ((∀ is v, t'.lPlanck.read is = ok v → |v| ≤ M) → Near4 t.lPlanck t'.lPlanck X s (u * (BudgetN C L W N + M))) ∧
      ((∀ is v, t'.lRosseland.read is = ok v → |v| ≤ M) → F →
        Near4 t.lRosseland t'.lRosseland X s (u * (BudgetN C L W N + M))) := by
  have sg := setup_grid junk lRhoMin lRhoMax NRho lTMin lTMax NT YeMin YeMax NYe
  have sg' := setup_grid junk' lRhoMin.val lRhoMax.val NRho lTMin.val lTMax.val NT YeMin.val YeMax.val NYe
  rw [← e0] at sg
  rw [← e0'] at sg'
  obtain ⟨⟨g3, g2, g1⟩, gr, dp, dr⟩ := sg
  obtain ⟨⟨g3', g2', g1'⟩, gr', dp', dr'⟩ := sg'
  have nodes : ∀ a b c d : ℕ, (a : ℤ) < NRho → (b : ℤ) < NT → (c : ℤ) < NYe → d < 3 → ∀ κ', NodeSums o' l1' l2' N t₀' a b c d κ' →
      ∃ κ, NodeSums o l1 l2 N t₀ a b c d κ ∧ ZF u (BudgetN C L W N) (means κ).1 (means κ').1 ∧
      (F → ZF u (BudgetN C L W N) (means κ).2 (means κ').2) := by
    intro a b c d ha hb hc hd κ' hκ'
    have hκ'' := hκ'
    rw [e0'] at hκ'
    obtain ⟨κ, q1, q2, q3⟩ := node_near (junk := junk) hr hu hC hK H w hP hS ha hb hκ'
      (fun f sp hsp => (hF f a b c d ha hb hc hd sp hsp).1)
    rw [← e0] at q1
    refine ⟨κ, q1, q2, fun f => ?_⟩
    obtain ⟨sp, hsp, -⟩ := hκ'
    obtain ⟨-, r⟩ := hF f a b c d ha hb hc hd sp hsp
    exact q3 f (r κ' hκ'').1 (r κ' hκ'').2
  obtain ⟨t, ht⟩ := loops_returns (t₀ := t₀) (cell := cell) (NRho := NRho) (NT := NT) (NYe := NYe)
    (fun a b c d ha hb hc hd t hst => by
      obtain ⟨κ', h1, -⟩ := hc' a b c d ha hb hc hd
      obtain ⟨κ, h2, -⟩ := nodes a b c d ha hb hc hd κ' h1
      exact hret a b c d ha hb hc hd ⟨κ, h2⟩ t hst)
  obtain ⟨hst, hcl⟩ := loops_fills hcell ht
  have hB : 10 ≤ BudgetN C L W N := by
    have hL : 1 ≤ L := H.ends.1.trans H.ends.2
    have hW := H.width.1
    have hN2 : (2 : ℝ) ≤ N := by exact_mod_cast H.quad.1
    have : 0 ≤ L * (340 + 76 / W) := by positivity
    unfold BudgetN; linarith
  have axes : ∀ d : DataBox (Fl rd), ∀ d' : DataBox ℝ, d.dims = [NRho, NT, NYe, 3] → d.grid = t₀.lPlanck.grid →
      d'.grid = t₀'.lPlanck.grid →
      ∀ k ∈ [3, 2, 1], Axis (d.grid k) X s ∧ d.dim (k + 1) = (d.grid k).N ∧ d'.grid k = (d.grid k).exact := by
    intro d d' h1 h2 h3 k hk
    rw [h2, h3]
    simp only [List.mem_cons, List.not_mem_nil, or_false] at hk
    rcases hk with rfl | rfl | rfl
    · rw [g3, g3']; exact ⟨H.rho, by simp [DataBox.dim, h1], rfl⟩
    · rw [g2, g2']; exact ⟨H.temp, by simp [DataBox.dim, h1], rfl⟩
    · rw [g1, g1']; exact ⟨H.Ye, by simp [DataBox.dim, h1], rfl⟩
  have split : ∀ is, InRange [NRho, NT, NYe, 3] is → ∃ a b c d : ℕ, (a : ℤ) < NRho ∧ (b : ℤ) < NT ∧ (c : ℤ) < NYe ∧ d < 3 ∧
      is = [(a : ℤ), (b : ℤ), (c : ℤ), (d : ℤ)] := by
    intro is h
    match is, h with
    | [a, b, c, d], ⟨⟨a0, a1⟩, ⟨b0, b1⟩, ⟨c0, c1⟩, ⟨d0, d1⟩, _⟩ =>
      exact ⟨a.toNat, b.toNat, c.toNat, d.toNat, by omega, by omega, by omega, by omega, by
        rw [Int.toNat_of_nonneg a0, Int.toNat_of_nonneg b0, Int.toNat_of_nonneg c0, Int.toNat_of_nonneg d0]⟩
  have ent : ∀ {R : Type} [Arith R] (d : DataBox R) (is : List ℤ) (v : R), d.read is = ok v → entry d is = v := by
    intro R _ d is v h; unfold entry; rw [h]
  have both : ∀ a b c d : ℕ, (a : ℤ) < NRho → (b : ℤ) < NT → (c : ℤ) < NYe → d < 3 → ∃ κ κ',
      t.lPlanck.read [(a : ℤ), b, c, d] = ok (toLog_ (means κ).1) ∧
      t'.lPlanck.read [(a : ℤ), b, c, d] = ok (toLog_ (means κ').1) ∧
      t.lRosseland.read [(a : ℤ), b, c, d] = ok (toLog_ (means κ).2) ∧
      t'.lRosseland.read [(a : ℤ), b, c, d] = ok (toLog_ (means κ').2) ∧
      ZF u (BudgetN C L W N) (means κ).1 (means κ').1 ∧ (F → ZF u (BudgetN C L W N) (means κ).2 (means κ').2) := by
    intro a b c d ha hb hc hd
    obtain ⟨κ', h1, h2, h3⟩ := hc' a b c d ha hb hc hd
    obtain ⟨κ, k1, k2, k3⟩ := nodes a b c d ha hb hc hd κ' h1
    obtain ⟨κ₂, r1, r2, r3⟩ := hcl a b c d ha hb hc hd
    have : κ₂ = κ := by
      obtain ⟨s1, p1, p2⟩ := k1
      obtain ⟨s2, p3, p4⟩ := r1
      rw [p1] at p3
      injection p3 with p3
      subst p3
      rw [p2] at p4
      injection p4 with p4
      exact p4.symm
    subst this
    exact ⟨κ₂, κ', r2, h2, r3, h3, k2, k3⟩
  have D1 : t.lPlanck.dims = [NRho, NT, NYe, 3] := hst.p1.trans dp
  have D2 : t.lRosseland.dims = [NRho, NT, NYe, 3] := hst.r1.trans dr
  refine ⟨t, ht, hst.p2, hst.r2.trans gr, by simp [DataBox.dim, D1], by simp [DataBox.dim, D2],
    fun hM => ⟨by simp [DataBox.rank, D1], by rw [hs'.p1, dp', D1], axes _ _ D1 hst.p2 hs'.p2, ?_⟩,
    fun hM f => ⟨by simp [DataBox.rank, D2], by rw [hs'.r1, dr', D2], axes _ _ D2 (hst.r2.trans gr) (hs'.r2.trans gr'), ?_⟩⟩
  · rw [D1]
    intro is his
    obtain ⟨a, b, c, d, ha, hb, hc, hd, rfl⟩ := split is his
    obtain ⟨κ, κ', r1, r2, r3, r4, z1, z2⟩ := both a b c d ha hb hc hd
    rw [ent _ _ _ r1, ent _ _ _ r2]
    exact toLog_near hr hu z1 hB (hM _ _ r2)
  · rw [D2]
    intro is his
    obtain ⟨a, b, c, d, ha, hb, hc, hd, rfl⟩ := split is his
    obtain ⟨κ, κ', r1, r2, r3, r4, z1, z2⟩ := both a b c d ha hb hc hd
    rw [ent _ _ _ r3, ent _ _ _ r4]
    exact toLog_near hr hu (z2 f) hB (hM _ _ r4)

end tables
end Opac.Accuracy
