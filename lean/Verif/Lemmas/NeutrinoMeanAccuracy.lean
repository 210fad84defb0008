import Verif.Lemmas.MeanAccuracyTables
import Verif.Lemmas.NeutrinoMeans
import Verif.Spec.NeutrinoMeanAccuracy

/-! Rounding errors of the averages in neutrino means. -/

namespace Opac.Accuracy
open Arith Outcome Spiner Spec Neutrinos Neutrinos.MeanTables

variable {rd : ℝ → ℝ} {u : ℝ}

namespace ZF
variable {n m : ℝ} {a b : Fl rd} {x y : ℝ}

theorem pf (h : ZF u n a x) (hx : x ≠ 0) : PF u n a x := h.resolve_right (fun h => hx h.2)

theorem nonneg (h : ZF u n a x) : 0 ≤ x := by
  rcases h with h | h
  · exact h.pos.le
  · exact h.2.ge

theorem round (hr : BinaryRounding rd u) (h : PF u n a x) : PF u (n + 1) (⟨rd a.val⟩ : Fl rd) x := by
  have := h.mul hr (PF.int hr 1 1 (by norm_num) (by norm_num) (by norm_num))
  have e : (a * lit 1 : Fl rd) = ⟨rd a.val⟩ := by
    show (⟨rd (a.val * (lit 1 : Fl rd).val)⟩ : Fl rd) = _
    have e1 : (lit 1 : Fl rd).val = 1 := by
      have := rd_int hr (k := 1) (by norm_num) (by norm_num)
      rw [fl_lit]; simpa using this
    rw [e1, mul_one]
  rw [e] at this
  simpa [areal] using this

theorem add (hr : BinaryRounding rd u) (h : ZF u n a x) (h' : ZF u m b y) (hnm : n ≤ k) (hm : m ≤ k) :
    ZF u (k + 1) (a + b) (x + y) := by
  rcases h with h | ⟨h1, h2⟩ <;> rcases h' with h' | ⟨h1', h2'⟩
  · exact .inl ((h.add hr h').mono hr (by gcongr; exact max_le hnm hm))
  · left
    rw [h2', add_zero]
    have : (a + b : Fl rd) = ⟨rd a.val⟩ := by show (⟨rd (a.val + b.val)⟩ : Fl rd) = _; rw [h1', add_zero]
    rw [this]
    exact (round hr h).mono hr (by linarith)
  · left
    rw [h2, zero_add]
    have : (a + b : Fl rd) = ⟨rd b.val⟩ := by show (⟨rd (a.val + b.val)⟩ : Fl rd) = _; rw [h1, zero_add]
    rw [this]
    exact (round hr h').mono hr (by linarith)
  · refine .inr ⟨?_, by rw [h2, h2', add_zero]⟩
    show rd (a.val + b.val) = 0
    rw [h1, h1', add_zero, rd0 hr]

theorem div (hr : BinaryRounding rd u) (h : ZF u n a x) (h' : PF u m b y) : ZF u (n + m + 1) (a / b) (x / y) := by
  rcases h with h | ⟨h1, h2⟩
  · exact .inl (h.div hr h')
  · refine .inr ⟨?_, by rw [h2, zero_div]⟩
    show rd (a.val / b.val) = 0
    rw [h1, zero_div, rd0 hr]

theorem ratio (hr : BinaryRounding rd u) (h : ZF u n a x) (h' : PF u m b y) (hm : 2 ≤ m) :
    ZF u (n + m + 2) (Robust.ratio a b) (Robust.ratio x y) := by
  rcases h with h | ⟨h1, h2⟩
  · exact .inl (ratio_acc hr h h' hm)
  · refine .inr ⟨?_, ?_⟩
    · show rd (a.val / _) = 0
      rw [h1, zero_div, rd0 hr]
    · rw [h2]; unfold Robust.ratio; simp

end ZF

/-! ### One sample -/

theorem gt_decided (hr : BinaryRounding rd u) {n x : ℝ} {a : Fl rd} (h : ZF u n a x) (hs : (n + 1) * unit u ≤ 0.001)
    (hx : Decided Robust.SMALL x) :
    (gt a Robust.SMALL = true ∧ gt x (Robust.SMALL : ℝ) = true ∧ PF u n a x) ∨
    (gt a Robust.SMALL = false ∧ gt x (Robust.SMALL : ℝ) = false) := by
  have hS : (0 : ℝ) < Robust.SMALL := (small_pf2 hr).pos
  have hS' : 0 < (Robust.SMALL : Fl rd).val := (small_pf2 hr).pos'
  have zero : a.val = 0 → x = 0 → gt a Robust.SMALL = false ∧ gt x (Robust.SMALL : ℝ) = false := by
    intro h1 h2
    constructor
    · refine decide_eq_false ?_
      rw [h1]; linarith
    · rw [h2, Bool.eq_false_iff, ne_eq, gt, real_lt]; linarith
  rcases hx with hx | hx
  · rcases h with h | h
    · exact absurd hx h.pos.ne'
    · exact .inr (zero h.1 h.2)
  · have hp := h.pf (by linarith)
    have := gt_small hr hp hs hx
    exact .inl ⟨this.1, this.2, hp⟩

/-- errors of the four sums; the last two only if the flag is set -/
structure SumsNear (u e1 e2 : ℝ) (F : Prop) (k : Sums (Fl rd)) (k' : Sums ℝ) : Prop where
  pn : ZF u e1 k.planckNum k'.planckNum
  pd : ZF u e2 k.planckDenom k'.planckDenom
  rn : F → ZF u (e1 + 1) k.rosselandNum k'.rosselandNum
  rd : F → ZF u e2 k.rosselandDenom k'.rosselandDenom

section
variable {C L V e1 e2 : ℝ} {F : Prop}

theorem addSample_near (hr : BinaryRounding rd u) (hC : 2 ≤ C) (hL : 1 ≤ L) (hV : 0 ≤ V)
    {ρ α B D ν dl : Fl rd} {ρ' α' B' D' ν' dl' : ℝ}
    (hρ : PF u (24 * L) ρ ρ') (hα : ZF u C α α') (hB : PF u C B B') (hD : F → PF u C D D') (hν : PF u (150 * L) ν ν')
    (hdl : PF u V dl dl') (hF : F → Decided Robust.SMALL α') (hs : (C + 1) * unit u ≤ 0.001)
    (he1 : 2 * C + 174 * L + V + 4 ≤ e1) (he2 : C + 150 * L + V + 2 ≤ e2) {k : Sums (Fl rd)} {k' : Sums ℝ}
    (h : SumsNear u e1 e2 F k k') :
    SumsNear u (e1 + 1) (e2 + 1) F (addSample ρ α B D ν dl k) (addSample ρ' α' B' D' ν' dl' k') where
  pn := h.pn.add hr ((((((hα.div hr hρ).mul hr hB).mul hr hν).mul hr hdl)).mono hr (by linarith)) le_rfl le_rfl
  pd := h.pd.add hr (.inl ((((hB.mul hr hν).mul hr hdl)).mono hr (by linarith))) le_rfl le_rfl
  rn f := by
    have t := (h.rn f)
    unfold addSample
    simp only
    rcases gt_decided hr hα hs (hF f) with ⟨g1, g2, g3⟩ | ⟨g1, g2⟩
    · rw [if_pos g1, if_pos g2]
      exact t.add hr (.inl (((((ratio_acc hr hρ g3 hC).mul hr (hD f)).mul hr hν).mul hr hdl).mono hr (by linarith)))
        le_rfl le_rfl
    · rw [g1, g2, if_neg (by simp), if_neg (by simp)]
      exact t.mono hr (by linarith)
  rd f := by
    have t := (h.rd f)
    unfold addSample
    simp only
    rcases gt_decided hr hα hs (hF f) with ⟨g1, g2, g3⟩ | ⟨g1, g2⟩
    · rw [if_pos g1, if_pos g2]
      exact t.add hr (.inl (((((hD f).mul hr hν).mul hr hdl)).mono hr (by linarith))) le_rfl le_rfl
    · rw [g1, g2, if_neg (by simp), if_neg (by simp)]
      exact t.mono hr (by linarith)

end

/-! ### All samples -/

/-- the two samplers agree at states and frequencies near each other, as far as `K ν/T ≤ Q` -/
structure Samplers (u C L K Q : ℝ) (F : Prop) (o : Sampler (Fl rd)) (o' : Sampler ℝ) : Prop where
  coef : ∀ ρ T Ye ν ρ' T' Ye' ν' type, PF u (24 * L) ρ ρ' → PF u (24 * L) T T' → PF u (150 * L) ν ν' → K * ν' / T' ≤ Q →
    SameEnd (fun b y => ZF u C b y) (o.coef ρ T Ye type ν) (o'.coef ρ' T' Ye' type ν')
  B : ∀ T ν T' ν' type, PF u (24 * L) T T' → PF u (150 * L) ν ν' → K * ν' / T' ≤ Q → PF u C (o.B T type ν) (o'.B T' type ν')
  D : ∀ T ν T' ν' type, F → PF u (24 * L) T T' → PF u (150 * L) ν ν' → K * ν' / T' ≤ Q →
    PF u C (o.dBdT T type ν) (o'.dBdT T' type ν')

section loop
variable {C L K W Q : ℝ} {F : Prop} {o : Sampler (Fl rd)} {o' : Sampler ℝ} {ρ T Ye l1 l2 : Fl rd} {ρ' T' Ye' l1' l2' : ℝ}
  {N : ℤ} {type : RadiationType}

/-- the window of the rounded run is near the exact one -/
structure Window (u L W : ℝ) (l1 l2 : Fl rd) (l1' l2' : ℝ) : Prop where
  low : |l1.val - l1'| ≤ 16 * u * L
  high : |l2.val - l2'| ≤ 16 * u * L
  bl : |l1'| ≤ L
  bh : |l2'| ≤ L
  wide : W ≤ l2' - l1'

theorem sampleNu_real (l1 l2 : ℝ) (N : ℤ) (i : ℕ) : sampleNu l1 l2 N i = (10 : ℝ) ^ (l1 + ((i : ℝ) + 1 / 2) * ((l2 - l1) / N)) := by
  simp only [sampleNu, fromLog_, areal]
  norm_num

theorem sampleNu_pf (hr : BinaryRounding rd u) (hL : 1 ≤ L) (hW : 0 < W) (w : Window u L W l1 l2 l1' l2')
    (h2 : 2 ≤ N) (hN : N ≤ 2 ^ 24) (hs : 100 * u * L ≤ 1 / 100) (hs2 : 40 * u * L / W ≤ 1 / 100) {i : ℕ} (hi : (i : ℤ) < N) :
    PF u (150 * L) (sampleNu l1 l2 N i) (sampleNu l1' l2' N i) := by
  have hu0 := hr.nonneg
  have hug := unit_ge hr
  have s := (sample_err hr hL hW w.low w.high w.bl w.bh w.wide h2 hN hs hs2).2 i hi
  have c := pow10_err hr s
  rw [sampleNu_real]
  refine ⟨by positivity, c.1, ?_⟩
  have := c.2
  rw [mul_one] at this
  have e : (sampleNu l1 l2 N i).val = (Arith.pow (lit 10) (l1 + (lit i + lit 0.5) * ((l2 - l1) / lit N)) : Fl rd).val := rfl
  rw [e]
  refine this.trans ?_
  have : u * L ≤ unit u * L := mul_le_mul_of_nonneg_right hug (by linarith)
  have : unit u ≤ unit u * L := le_mul_of_one_le_right (hu0.trans hug) hL
  nlinarith

theorem sampleNu_le (hN : (0 : ℤ) < N) (hl : l1' ≤ l2') {i : ℕ} (hi : (i : ℤ) < N) : sampleNu l1' l2' N i ≤ (10 : ℝ) ^ l2' := by
  rw [sampleNu_real]
  refine Real.rpow_le_rpow_of_exponent_le (by norm_num) ?_
  have hNr : (0 : ℝ) < N := by exact_mod_cast hN
  have hiN : (i : ℝ) + 1 ≤ N := by exact_mod_cast hi
  have : ((i : ℝ) + 1 / 2) * ((l2' - l1') / N) ≤ N * ((l2' - l1') / N) := by
    have : 0 ≤ (l2' - l1') / N := div_nonneg (by linarith) hNr.le
    exact mul_le_mul_of_nonneg_right (by linarith) this
  rw [mul_div_cancel₀ _ hNr.ne'] at this
  linarith

theorem cellSums_near (hr : BinaryRounding rd u) (hC : 2 ≤ C) (hL : 1 ≤ L) (hW : 0 < W) (hK : 0 ≤ K)
    (w : Window u L W l1 l2 l1' l2')
    (h2 : 2 ≤ N) (hN : N ≤ 2 ^ 24) (hs : 100 * u * L ≤ 1 / 100) (hs2 : 40 * u * L / W ≤ 1 / 100)
    (hs3 : (C + 1) * unit u ≤ 0.001) (H : Samplers u C L K Q F o o') (hρ : PF u (24 * L) ρ ρ') (hT : PF u (24 * L) T T')
    (hQ : K * 10 ^ l2' / T' ≤ Q) {k' : Sums ℝ} (hk : cellSums o' ρ' T' Ye' type l1' l2' N = ok k')
    (hF : F → ∀ i : ℕ, (i : ℤ) < N → ∀ α, o'.coef ρ' T' Ye' type (sampleNu l1' l2' N i) = ok α → Decided Robust.SMALL α) :
    ∃ k, cellSums o ρ T Ye type l1 l2 N = ok k ∧
      SumsNear u (2 * C + 174 * L + 38 * L / W + 4 + N) (C + 150 * L + 38 * L / W + 2 + N) F k k' ∧
      0 < k'.planckDenom := by
  have hV : 0 ≤ 38 * L / W := by positivity
  have hdl := (sample_err hr hL hW w.low w.high w.bl w.bh w.wide h2 hN hs hs2).1
  have hdl' : PF u (38 * L / W) ((l2 - l1) / lit N) ((l2' - l1') / lit (N : ℚ) : ℝ) := by
    have : ((l2' - l1') / lit (N : ℚ) : ℝ) = (l2' - l1') / N := by simp [areal]
    rw [this]; exact hdl
  have key : ∀ n : ℕ, (n : ℤ) ≤ N → ∀ k' : Sums ℝ,
      forLoopM (n : ℤ) (fun inu s => (o'.coef ρ' T' Ye' type (sampleNu l1' l2' N inu)).map' (fun alpha =>
        addSample ρ' alpha (o'.B T' type (sampleNu l1' l2' N inu)) (o'.dBdT T' type (sampleNu l1' l2' N inu))
          (sampleNu l1' l2' N inu) ((l2' - l1') / lit N) s)) Sums.zero = ok k' →
      ∃ k, forLoopM (n : ℤ) (fun inu s => (o.coef ρ T Ye type (sampleNu l1 l2 N inu)).map' (fun alpha =>
        addSample ρ alpha (o.B T type (sampleNu l1 l2 N inu)) (o.dBdT T type (sampleNu l1 l2 N inu))
          (sampleNu l1 l2 N inu) ((l2 - l1) / lit N) s)) Sums.zero = ok k ∧
        SumsNear u (2 * C + 174 * L + 38 * L / W + 4 + n) (C + 150 * L + 38 * L / W + 2 + n) F k k' ∧
        (1 ≤ n → 0 < k'.planckDenom) := by
    intro n
    induction n with
    | zero =>
      intro _ k' h
      rw [forLoopM_nonpos (by norm_num)] at h
      injection h with h
      subst h
      refine ⟨Sums.zero, forLoopM_nonpos (by norm_num) _ _, ?_⟩
      exact ⟨⟨ZF.zero hr, ZF.zero hr, fun _ => ZF.zero hr, fun _ => ZF.zero hr⟩, by simp⟩
    | succ n ih =>
      intro hn k' h
      rw [forLoopM_succ] at h
      simp only [bind_eq_ok, map'_eq_ok] at h
      obtain ⟨k0', h0, α', hα', h⟩ := h
      obtain ⟨k0, hk0, S0, -⟩ := ih (by push_cast at hn; omega) k0' h0
      have hnN : (n : ℤ) < N := by push_cast at hn; omega
      have pν := sampleNu_pf hr hL hW w h2 hN hs hs2 hnN
      have hq : K * sampleNu l1' l2' N n / T' ≤ Q := by
        refine le_trans ?_ hQ
        have := hT.pos
        gcongr
        exact sampleNu_le (by omega) (by linarith [w.wide]) hnN
      have sc := H.coef ρ T Ye _ ρ' T' Ye' _ type hρ hT pν hq
      rw [hα'] at sc
      obtain ⟨α, hα, zα⟩ : ∃ α, o.coef ρ T Ye type (sampleNu l1 l2 N n) = ok α ∧ ZF u C α α' := by
        revert sc
        cases o.coef ρ T Ye type (sampleNu l1 l2 N n) with
        | ok v => intro sc; exact ⟨v, rfl, sc⟩
        | _ => intro sc; exact absurd sc (by simp [SameEnd])
      have B := H.B _ _ _ _ type hT pν hq
      have st := addSample_near hr hC hL hV hρ zα B (fun f => H.D _ _ _ _ type f hT pν hq) pν hdl'
        (fun f => hF f n hnN α' hα') hs3
        (by have : (0 : ℝ) ≤ n := Nat.cast_nonneg _; linarith) (by have : (0 : ℝ) ≤ n := Nat.cast_nonneg _; linarith) S0
      refine ⟨addSample ρ α (o.B T type (sampleNu l1 l2 N n)) (o.dBdT T type (sampleNu l1 l2 N n)) (sampleNu l1 l2 N n)
        ((l2 - l1) / lit N) k0, ?_, ?_, fun _ => ?_⟩
      · rw [forLoopM_succ, hk0]
        simp only [ok_bind, hα, map'_ok]
      rotate_left
      · rw [← h]
        exact add_pos_of_nonneg_of_pos S0.pd.nonneg (mul_pos (mul_pos B.pos pν.pos) hdl'.pos)
      · rw [← h]
        have e1 : 2 * C + 174 * L + 38 * L / W + 4 + ((n + 1 : ℕ) : ℝ) = 2 * C + 174 * L + 38 * L / W + 4 + n + 1 := by
          push_cast; ring
        have e2 : C + 150 * L + 38 * L / W + 2 + ((n + 1 : ℕ) : ℝ) = C + 150 * L + 38 * L / W + 2 + n + 1 := by
          push_cast; ring
        rw [e1, e2]
        exact st
  unfold cellSums at hk ⊢
  have eN : ((N.toNat : ℕ) : ℤ) = N := by omega
  have := key N.toNat (by omega) k' (by rw [eN]; exact hk)
  rw [eN] at this
  have eR : ((N.toNat : ℕ) : ℝ) = (N : ℝ) := by exact_mod_cast congrArg (Int.cast : ℤ → ℝ) eN
  rw [eR] at this
  obtain ⟨k, q1, q2, q3⟩ := this
  exact ⟨k, q1, q2, q3 (by omega)⟩

end loop

/-! ### The means -/

theorem means_near (hr : BinaryRounding rd u) {C L W : ℝ} {N : ℤ} {F : Prop} (hC : 2 ≤ C) (hL : 1 ≤ L) (hW : 0 < W)
    (hN : 2 ≤ N) {k : Sums (Fl rd)} {k' : Sums ℝ}
    (h : SumsNear u (2 * C + 174 * L + 38 * L / W + 4 + N) (C + 150 * L + 38 * L / W + 2 + N) F k k')
    (hpd : k'.planckDenom ≠ 0) (hP : BudgetN C L W N * unit u ≤ 1 / 1000) :
    ZF u (BudgetN C L W N) (means k).1 (means k').1 ∧
    (F → Decided Robust.SMALL (means k').1 → Decided Robust.SMALL k'.rosselandNum →
      ZF u (BudgetN C L W N) (means k).2 (means k').2) := by
  have hV : 0 ≤ L / W := by positivity
  have hNr : (2 : ℝ) ≤ N := by exact_mod_cast hN
  have hun := unit_nonneg hr.toRounding
  have hB : BudgetN C L W N = 3 * C + 340 * L + 76 * (L / W) + 2 * N + 20 := by unfold BudgetN; ring
  have e38 : 38 * L / W = 38 * (L / W) := by ring
  have le : ∀ {n : ℝ}, n ≤ BudgetN C L W N → n * unit u ≤ 0.001 := fun h =>
    (mul_le_mul_of_nonneg_right h hun).trans (hP.trans (by norm_num))
  have z1 : ZF u (3 * C + 324 * L + 76 * (L / W) + 2 * N + 8) (means k).1 (means k').1 :=
    (h.pn.ratio hr (h.pd.pf hpd) (by rw [e38]; linarith)).mono hr (by rw [e38]; linarith)
  refine ⟨z1.mono hr (by rw [hB]; linarith), fun f d1 d2 => ?_⟩
  have g1 := gt_decided hr z1 (le (by rw [hB]; linarith)) d1
  have g2 := gt_decided hr (h.rn f) (le (by rw [hB, e38]; linarith)) d2
  have c1 : ∀ {R : Type} [Arith R] (k : Sums R), (means k).2 = if gt (means k).1 Robust.SMALL && gt k.rosselandNum Robust.SMALL
      then Robust.ratio k.rosselandDenom k.rosselandNum else lit 0 := fun k => rfl
  rw [c1 k, c1 k']
  rcases g1 with ⟨a1, b1, -⟩ | ⟨a1, b1⟩
  · rcases g2 with ⟨a2, b2, p⟩ | ⟨a2, b2⟩
    · rw [a1, b1, a2, b2]
      simp only [Bool.and_self, if_true]
      exact ((h.rd f).ratio hr p (by rw [e38]; linarith)).mono hr (by rw [hB, e38]; linarith)
    · rw [a1, b1, a2, b2]
      simp only [Bool.and_false, Bool.false_eq_true, if_false]
      exact ZF.zero hr
  · rw [a1, b1]
    simp only [Bool.false_and, Bool.false_eq_true, if_false]
    exact ZF.zero hr

/-- from the mean to its logarithm -/
theorem toLog_near (hr : BinaryRounding rd u) (hu : u ≤ 1 / 100) {P M : ℝ} {a : Fl rd} {x : ℝ} (h : ZF u P a x) (hP : 10 ≤ P)
    (hM : |(toLog_ x : ℝ)| ≤ M) : |(toLog_ a).val - toLog_ x| ≤ u * (P + M) := by
  have hu0 := hr.nonneg
  have ht : ZF u P (Arith.abs a) (Arith.abs x) := by
    rcases h with h | ⟨h1, h2⟩
    · left
      have e : (Arith.abs a : Fl rd).val = a.val := abs_of_pos h.pos'
      rw [real_abs, abs_of_pos h.pos]
      exact ⟨h.pos, by show Accuracy.Close _ _ _ _; rw [e]; exact h.2⟩
    · refine .inr ⟨?_, by rw [real_abs, h2, abs_zero]⟩
      show |a.val| = 0
      rw [h1, abs_zero]
  have sm : PF u 1 (lit 10.0 * dmin : Fl rd) (lit 10.0 * dmin : ℝ) := by
    have := small_pf' hr
    norm_num at this ⊢
    exact this
  have s := ht.add (k := P) hr (.inl sm) le_rfl (by linarith)
  have hpos : (0 : ℝ) < Arith.abs x + lit 10.0 * dmin := add_pos_of_nonneg_of_pos ht.nonneg sm.pos
  have p := s.pf hpos.ne'
  have h1 := log10_pf hr p
  have e : (toLog_ x : ℝ) = Real.logb 10 (Arith.abs x + lit 10.0 * dmin) := by
    unfold toLog_; simp [areal]
  rw [e] at hM ⊢
  refine h1.trans ?_
  have ul := unit_le hr hu
  have : (P + 1) * unit u / 2 * (1 + u) ≤ (P + 1) * (1.02 * u) / 2 * (1 + 1 / 100) := by gcongr
  have : u * |Real.logb 10 (Arith.abs x + lit 10.0 * dmin)| ≤ u * M := by gcongr
  nlinarith

end Opac.Accuracy
