import Verif.Lemmas.NeutrinoMeans
import Verif.Spec.MeanOutcome

/-! When making neutrino mean tables aborts. -/

namespace Opac.Neutrinos.MeanTables
open Arith Outcome Spiner

/-- a loop each of whose steps returns if `Q` holds of it and aborts otherwise -/
theorem loop_iff {S : Type} {I : S → Prop} {Q : ℕ → Prop} {body : ℕ → S → Outcome S} (n : ℤ)
    (hstep : ∀ i : ℕ, (i : ℤ) < n → ∀ s, I s → ((body i s).Aborts ∧ ¬ Q i) ∨ ∃ s', body i s = ok s' ∧ I s' ∧ Q i) {s : S} (hs : I s) :
    ((forLoopM n body s).Aborts ∧ ∃ i : ℕ, (i : ℤ) < n ∧ ¬ Q i) ∨
      ∃ s', forLoopM n body s = ok s' ∧ I s' ∧ ∀ i : ℕ, (i : ℤ) < n → Q i := by
  have toN : forLoopM n body s = forLoopM (n.toNat : ℤ) body s := by unfold forLoopM; rw [Int.toNat_natCast]
  rw [toN]
  have key : ∀ m : ℕ, (m : ℤ) ≤ n.toNat → ((forLoopM (m : ℤ) body s).Aborts ∧ ∃ i : ℕ, (i : ℤ) < n ∧ ¬ Q i) ∨
      ∃ s', forLoopM (m : ℤ) body s = ok s' ∧ I s' ∧ ∀ i : ℕ, i < m → Q i := by
    intro m
    induction m with
    | zero => exact fun _ => .inr ⟨s, by simp [forLoopM], hs, fun i hi => by omega⟩
    | succ m ih =>
      intro hm
      rcases ih (by omega) with ⟨⟨w, h⟩, hq⟩ | ⟨s', h1, h2, h3⟩
      · exact .inl ⟨⟨w, by rw [forLoopM_succ, h]; rfl⟩, hq⟩
      · rcases hstep m (by omega) s' h2 with ⟨⟨w, h⟩, hq⟩ | ⟨s'', h4, h5, h6⟩
        · exact .inl ⟨⟨w, by rw [forLoopM_succ, h1, ok_bind, h]⟩, m, by omega, hq⟩
        · refine .inr ⟨s'', by rw [forLoopM_succ, h1, ok_bind, h4], h5, fun i hi => ?_⟩
          rcases Nat.lt_succ_iff_lt_or_eq.1 hi with h | rfl
          · exact h3 i h
          · exact h6
  exact (key n.toNat le_rfl).imp_right fun ⟨s', h1, h2, h3⟩ => ⟨s', h1, h2, fun i hi => h3 i (by omega)⟩

variable {R : Type} [Arith R]

variable {NRho NT NYe : ℤ} {t₀ : MeanTables R}

theorem loops_iff {cell : ℕ → ℕ → ℕ → ℕ → MeanTables R → Outcome (MeanTables R)} {Q : ℕ → ℕ → ℕ → ℕ → Prop}
    (hcell : ∀ a b c d : ℕ, (a : ℤ) < NRho → (b : ℤ) < NT → (c : ℤ) < NYe → d < 3 → ∀ t, Same t₀ t →
      ((cell a b c d t).Aborts ∧ ¬ Q a b c d) ∨ ∃ t', cell a b c d t = ok t' ∧ Same t₀ t' ∧ Q a b c d) :
    ((loops NRho NT NYe cell t₀).Aborts ∧
      ¬ ∀ a b c d : ℕ, (a : ℤ) < NRho → (b : ℤ) < NT → (c : ℤ) < NYe → d < 3 → Q a b c d) ∨
    ((∃ t, loops NRho NT NYe cell t₀ = ok t) ∧
      ∀ a b c d : ℕ, (a : ℤ) < NRho → (b : ℤ) < NT → (c : ℤ) < NYe → d < 3 → Q a b c d) := by
  have h1 : ∀ a : ℕ, (a : ℤ) < NRho → ∀ t, Same t₀ t →
      ((forLoopM NT (fun iT t => forLoopM NYe (fun iYe t =>
        forLoopM NEUTRINO_NTYPES (fun idx t => cell a iT iYe idx t) t) t) t).Aborts ∧
        ¬ ∀ b : ℕ, (b : ℤ) < NT → ∀ c : ℕ, (c : ℤ) < NYe → ∀ d : ℕ, (d : ℤ) < NEUTRINO_NTYPES → Q a b c d) ∨
      ∃ t', (forLoopM NT (fun iT t => forLoopM NYe (fun iYe t =>
        forLoopM NEUTRINO_NTYPES (fun idx t => cell a iT iYe idx t) t) t) t) = ok t' ∧ Same t₀ t' ∧
        ∀ b : ℕ, (b : ℤ) < NT → ∀ c : ℕ, (c : ℤ) < NYe → ∀ d : ℕ, (d : ℤ) < NEUTRINO_NTYPES → Q a b c d := by
    intro a ha t ht
    have := loop_iff (I := Same t₀) (Q := fun b => ∀ c : ℕ, (c : ℤ) < NYe → ∀ d : ℕ, (d : ℤ) < NEUTRINO_NTYPES → Q a b c d)
      (body := fun iT t => forLoopM NYe (fun iYe t =>
        forLoopM NEUTRINO_NTYPES (fun idx t => cell a iT iYe idx t) t) t) NT (by
      intro b hb t ht
      have := loop_iff (I := Same t₀) (Q := fun c => ∀ d : ℕ, (d : ℤ) < NEUTRINO_NTYPES → Q a b c d)
        (body := fun iYe t => forLoopM NEUTRINO_NTYPES (fun idx t => cell a b iYe idx t) t) NYe (by
        intro c hc t ht
        have := loop_iff (I := Same t₀) (Q := fun d => Q a b c d) (body := fun idx t => cell a b c idx t) NEUTRINO_NTYPES (by
          intro d hd t ht
          exact hcell a b c d ha hb hc (by unfold NEUTRINO_NTYPES at hd; omega) t ht) ht
        refine this.imp_left fun ⟨x, d, hd, hq⟩ => ⟨x, fun h => hq (h d hd)⟩) ht
      refine this.imp_left fun ⟨x, d, hd, hq⟩ => ⟨x, fun h => hq (h d hd)⟩) ht
    exact this.imp_left fun ⟨x, d, hd, hq⟩ => ⟨x, fun h => hq (h d hd)⟩
  have h0 := loop_iff (I := Same t₀) NRho h1 (same_refl t₀)
  rcases h0 with ⟨x, a, ha, hq⟩ | ⟨t, x, -, hq⟩
  · refine .inl ⟨x, fun h => hq fun b hb c hc d hd => h a b c d ha hb hc ?_⟩
    unfold NEUTRINO_NTYPES at hd; omega
  · exact .inr ⟨⟨t, x⟩, fun a b c d ha hb hc hd => hq a ha b hb c hc d (by unfold NEUTRINO_NTYPES; omega)⟩

theorem store_iff {a b c d : ℕ} {k : R × R} {t : MeanTables R} {n4 n3 n2 : ℤ} (ht : Same t₀ t)
    (hp : t₀.lPlanck.dims = [n4, n3, n2, 3])
    (hr : t₀.lRosseland.dims = [n4, n3, n2, 3]) (ha : (a : ℤ) < n4) (hb : (b : ℤ) < n3) (hc : (c : ℤ) < n2) (hd : d < 3) :
    ((store a b c d k t).Aborts ∧ ¬ Fine k) ∨ ∃ t', store a b c d k t = ok t' ∧ Same t₀ t' ∧ Fine k := by
  by_cases hf : Fine k
  · obtain ⟨t', h⟩ := store_returns (ht.p1.trans hp) (ht.r1.trans hr) ha hb hc hd hf.1 hf.2
    exact .inr ⟨t', h, (store_effect ht h).1, hf⟩
  · refine .inl ⟨?_, hf⟩
    have rg : InRange [n4, n3, n2, 3] [(a : ℤ), b, c, d] :=
      ⟨⟨by omega, ha⟩, ⟨by omega, hb⟩, ⟨by omega, hc⟩, ⟨by omega, by omega⟩, trivial⟩
    obtain ⟨wp, hwp⟩ := write_ok t.lPlanck [(a : ℤ), b, c, d] (toLog_ k.1) (ht.p1.trans hp ▸ rg)
    obtain ⟨wr, hwr⟩ := write_ok t.lRosseland [(a : ℤ), b, c, d] (toLog_ k.2) (ht.r1.trans hr ▸ rg)
    have hor : (isNaN (toLog_ k.1) || isNaN (toLog_ k.2)) = true := by
      by_contra h
      rw [Bool.or_eq_true, not_or, Bool.not_eq_true, Bool.not_eq_true] at h
      exact hf h
    refine ⟨"NAN in opacity evaluations", ?_⟩
    simp only [store, hwp, hwr, ok_bind, hor, if_true]
    rfl

theorem species_eq {d : ℕ} (hd : d < 3) : Idx2RadType d = ok (species d) := by
  have : d = 0 ∨ d = 1 ∨ d = 2 := by omega
  rcases this with rfl | rfl | rfl <;> rfl

section cells
variable {κ : R → R → R → RadiationType → R → R} {B dBdT : R → RadiationType → R → R} {l1 l2 : R} {NNu : ℤ}

theorem cellSums_eq (rho T Ye : R) (s : RadiationType) :
    cellSums ⟨fun rho T Ye s nu => ok (κ rho T Ye s nu), B, dBdT⟩ rho T Ye s l1 l2 NNu =
      ok (SumsAt κ B dBdT rho T Ye s l1 l2 NNu NNu.toNat) := by
  have toN : ∀ (body : ℕ → Sums R → Outcome (Sums R)) (x : Sums R), forLoopM NNu body x = forLoopM (NNu.toNat : ℤ) body x := by
    intro body x; unfold forLoopM; rw [Int.toNat_natCast]
  unfold cellSums
  rw [toN]
  obtain ⟨x, h, e⟩ := forLoopM_inv NNu.toNat (fun inu s' =>
    ((ok (κ rho T Ye s (sampleNu l1 l2 NNu inu)) : Outcome R).map' (fun alpha =>
      addSample rho alpha (B T s (sampleNu l1 l2 NNu inu)) (dBdT T s (sampleNu l1 l2 NNu inu)) (sampleNu l1 l2 NNu inu)
        ((l2 - l1) / lit NNu) s')))
    (fun n x => x = SumsAt κ B dBdT rho T Ye s l1 l2 NNu n) Sums.zero rfl (by
      intro i hi x hx
      exact ⟨_, by rw [map'_ok], by rw [hx]; rfl⟩)
  rw [← e]; exact h

variable (hp : t₀.lPlanck.dims = [NRho, NT, NYe, 3]) (hr : t₀.lRosseland.dims = [NRho, NT, NYe, 3])
include hp hr

theorem fillCell_iff {a b c d : ℕ} (ha : (a : ℤ) < NRho) (hb : (b : ℤ) < NT) (hc : (c : ℤ) < NYe) (hd : d < 3)
    {t : MeanTables R} (ht : Same t₀ t) :
    ((fillCell ⟨fun rho T Ye s nu => ok (κ rho T Ye s nu), B, dBdT⟩ l1 l2 NNu a b c d t).Aborts ∧
      ¬ Fine (NodeMeans κ B dBdT (t₀.lPlanck.range 3) (t₀.lPlanck.range 2) (t₀.lPlanck.range 1) l1 l2 NNu a b c d NNu.toNat)) ∨
    ∃ t', fillCell ⟨fun rho T Ye s nu => ok (κ rho T Ye s nu), B, dBdT⟩ l1 l2 NNu a b c d t = ok t' ∧ Same t₀ t' ∧
      Fine (NodeMeans κ B dBdT (t₀.lPlanck.range 3) (t₀.lPlanck.range 2) (t₀.lPlanck.range 1) l1 l2 NNu a b c d NNu.toNat) := by
  have e : fillCell ⟨fun rho T Ye s nu => ok (κ rho T Ye s nu), B, dBdT⟩ l1 l2 NNu a b c d t =
      store a b c d (NodeMeans κ B dBdT (t₀.lPlanck.range 3) (t₀.lPlanck.range 2) (t₀.lPlanck.range 1) l1 l2 NNu a b c d
        NNu.toNat) t := by
    unfold fillCell
    simp only [ranges_eq ht, species_eq hd, ok_bind, cellSums_eq]
    rfl
  rw [e]
  exact store_iff ht hp hr ha hb hc hd

theorem fillCellS_iff {a b c d : ℕ} (ha : (a : ℤ) < NRho) (hb : (b : ℤ) < NT) (hc : (c : ℤ) < NYe) (hd : d < 3)
    {t : MeanTables R} (ht : Same t₀ t) :
    ((fillCellS ⟨fun rho T Ye s nu => ok (κ rho T Ye s nu), B, dBdT⟩ l1 l2 NNu a b c d t).Aborts ∧
      ¬ ∀ n : ℕ, (n : ℤ) < NNu →
        Fine (NodeMeans κ B dBdT (t₀.lPlanck.range 3) (t₀.lPlanck.range 2) (t₀.lPlanck.range 1) l1 l2 NNu a b c d (n + 1))) ∨
    ∃ t', fillCellS ⟨fun rho T Ye s nu => ok (κ rho T Ye s nu), B, dBdT⟩ l1 l2 NNu a b c d t = ok t' ∧ Same t₀ t' ∧
      ∀ n : ℕ, (n : ℤ) < NNu →
        Fine (NodeMeans κ B dBdT (t₀.lPlanck.range 3) (t₀.lPlanck.range 2) (t₀.lPlanck.range 1) l1 l2 NNu a b c d (n + 1)) := by
  generalize hρ : fromLog_ ((t₀.lPlanck.range 3).x a) = rho
  generalize hT : fromLog_ ((t₀.lPlanck.range 2).x b) = T
  generalize hY : (t₀.lPlanck.range 1).x c = Ye
  unfold NodeMeans
  rw [hρ, hT, hY]
  set S := SumsAt κ B dBdT rho T Ye (species d) l1 l2 NNu with hS
  unfold fillCellS
  simp only [ranges_eq ht, species_eq hd, ok_bind, hρ, hT, hY]
  have key : ∀ m : ℕ, (m : ℤ) ≤ NNu.toNat →
      ((forLoopM (m : ℤ) (fun inu (st : Sums R × MeanTables R) => do
        let t ← store a b c d (means (addSample rho (κ rho T Ye (species d) (sampleNu l1 l2 NNu inu)) (B T (species d) (sampleNu l1 l2 NNu inu))
          (dBdT T (species d) (sampleNu l1 l2 NNu inu)) (sampleNu l1 l2 NNu inu) ((l2 - l1) / lit NNu) st.1)) st.2
        return (addSample rho (κ rho T Ye (species d) (sampleNu l1 l2 NNu inu)) (B T (species d) (sampleNu l1 l2 NNu inu))
          (dBdT T (species d) (sampleNu l1 l2 NNu inu)) (sampleNu l1 l2 NNu inu) ((l2 - l1) / lit NNu) st.1, t)) (Sums.zero, t)).Aborts ∧
        ∃ n : ℕ, (n : ℤ) < NNu ∧ ¬ Fine (means (S (n + 1)))) ∨
      ∃ t', (forLoopM (m : ℤ) (fun inu (st : Sums R × MeanTables R) => do
        let t ← store a b c d (means (addSample rho (κ rho T Ye (species d) (sampleNu l1 l2 NNu inu)) (B T (species d) (sampleNu l1 l2 NNu inu))
          (dBdT T (species d) (sampleNu l1 l2 NNu inu)) (sampleNu l1 l2 NNu inu) ((l2 - l1) / lit NNu) st.1)) st.2
        return (addSample rho (κ rho T Ye (species d) (sampleNu l1 l2 NNu inu)) (B T (species d) (sampleNu l1 l2 NNu inu))
          (dBdT T (species d) (sampleNu l1 l2 NNu inu)) (sampleNu l1 l2 NNu inu) ((l2 - l1) / lit NNu) st.1, t)) (Sums.zero, t)) =
          ok (S m, t') ∧ Same t₀ t' ∧ ∀ n : ℕ, n < m → Fine (means (S (n + 1))) := by
    intro m
    induction m with
    | zero => exact fun _ => .inr ⟨t, by simp [forLoopM, hS, SumsAt], ht, fun i hi => by omega⟩
    | succ m ih =>
      intro hm
      rcases ih (by omega) with ⟨⟨w, h⟩, hq⟩ | ⟨t', h1, h2, h3⟩
      · exact .inl ⟨⟨w, by rw [forLoopM_succ, h]; rfl⟩, hq⟩
      · have st := store_iff (k := means (S (m + 1))) h2 hp hr ha hb hc hd
        rw [forLoopM_succ, h1, ok_bind]
        rcases st with ⟨⟨w, h⟩, hq⟩ | ⟨t'', h4, h5, h6⟩
        · refine .inl ⟨⟨w, ?_⟩, m, by omega, hq⟩
          have h : store a b c d (means (addSample rho (κ rho T Ye (species d) (sampleNu l1 l2 NNu m)) (B T (species d) (sampleNu l1 l2 NNu m))
            (dBdT T (species d) (sampleNu l1 l2 NNu m)) (sampleNu l1 l2 NNu m) ((l2 - l1) / lit NNu) (S m))) t' = _ := h
          simp only [h]; rfl
        · refine .inr ⟨t'', ?_, h5, fun i hi => ?_⟩
          · have h4 : store a b c d (means (addSample rho (κ rho T Ye (species d) (sampleNu l1 l2 NNu m)) (B T (species d) (sampleNu l1 l2 NNu m))
              (dBdT T (species d) (sampleNu l1 l2 NNu m)) (sampleNu l1 l2 NNu m) ((l2 - l1) / lit NNu) (S m))) t' = _ := h4
            simp only [h4]; rfl
          · rcases Nat.lt_succ_iff_lt_or_eq.1 hi with h | rfl
            · exact h3 i h
            · exact h6
  have toN : ∀ (body : ℕ → Sums R × MeanTables R → Outcome (Sums R × MeanTables R)) x,
      forLoopM NNu body x = forLoopM (NNu.toNat : ℤ) body x := by
    intro body x; unfold forLoopM; rw [Int.toNat_natCast]
  rw [toN]
  rcases key NNu.toNat le_rfl with ⟨⟨w, h⟩, n, hn, hq⟩ | ⟨t', h1, h2, h3⟩
  · left
    refine ⟨⟨w, ?_⟩, fun h' => hq (h' n hn)⟩
    simp only [pure_def] at h ⊢
    rw [h]; rfl
  · right
    refine ⟨t', ?_, h2, fun n hn => h3 n (by omega)⟩
    simp only [pure_def] at h1 ⊢
    rw [h1]; rfl

end cells
end Opac.Neutrinos.MeanTables
