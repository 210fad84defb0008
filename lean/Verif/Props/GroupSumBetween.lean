import Verif.Props.GroupMeanRates
import Verif.Props.GroupSum

/-!
# C91: what the groups of a mean opacity emit together, with finitely many frequencies and between the nodes

At `XR`.  C83 is about the limit of many frequencies, at the nodes of the table.  Here the number of frequencies is what it is and the
state is anywhere inside the table.
-/

namespace Opac.Photons
open Arith Outcome Spec Spiner MeasureTheory Slopes
open Tables (integral_positive)

section
variable {h k c : ℝ} {α : ℝ → ℝ → ℝ → ℝ} {lRhoMin lRhoMax lTMin lTMax : ℝ} {NRho NT : ℤ} {b : List XR} {n N : ℕ}
  {qP qR : XR → XR → ℤ → Outcome XR}

theorem nodeValue_mem {l0 l1 : ℝ} {N : ℤ} (hN : 2 ≤ N) (hl : l0 < l1) {i : ℕ} (hi : (i : ℤ) < N) :
    nodeValue l0 l1 N i ∈ Set.Icc ((10 : ℝ) ^ l0) (10 ^ l1) := by
  have a := Tables.equi_mem hN hl hi
  have up : ∀ {a b : ℝ}, a ≤ b → (10 : ℝ) ^ a ≤ 10 ^ b := fun h => Real.rpow_le_rpow_of_exponent_le (by norm_num) h
  exact ⟨up a.1, up a.2⟩

theorem state_mem {l0 l1 x : ℝ} (h0 : l0 ≤ coordinate x) (h1 : coordinate x ≤ l1) : |x| + Robust.SMALL ∈ Set.Icc ((10 : ℝ) ^ l0) (10 ^ l1) := by
  have hS := SMALL_pos
  have p : 0 < |x| + Robust.SMALL := by positivity
  unfold coordinate at h0 h1
  exact ⟨(Real.le_logb_iff_rpow_le (by norm_num) p).1 h0, (Real.logb_le_iff_le_rpow (by norm_num) p).1 h1⟩

theorem planck_nonneg {σ τ ρ0 ρ1 T0 T1 lo hi ρ T : ℝ} (hh : 0 < h) (hk : 0 < k) (hc : 0 < c) (hρ0 : 0 < ρ0) (hT0 : 0 < T0)
    (hu : Unclipped h k T0 T1 lo hi) (hα : CoefficientSlope σ τ ρ0 ρ1 T0 T1 (lo + Robust.SMALL) (hi + Robust.SMALL) α)
    (hρ : ρ ∈ Set.Icc ρ0 ρ1) (hT : T ∈ Set.Icc T0 T1) : 0 ≤ exactPlanck h k c lo (some hi) α ρ T := by
  have hS := SMALL_pos
  obtain ⟨w1, w2, l0⟩ := unclipped_window (S := Robust.SMALL) hh hk hT0 hu hT
  unfold exactPlanck planckMeanOf
  rw [w1, w2]
  have le : lo + Robust.SMALL ≤ hi + Robust.SMALL := by linarith [hu.order]
  have p : ∀ ν ∈ Set.Icc (lo + Robust.SMALL) (hi + Robust.SMALL), 0 ≤ planckLaw h k c T ν := fun ν hν => by
    have v0 : 0 < ν := by linarith [hν.1]
    have t0 := hT0.trans_le hT.1
    have : 0 < h * ν / (k * T) := by positivity
    have := Real.add_one_lt_exp this.ne'
    unfold planckLaw
    have : 0 < Real.exp (h * ν / (k * T)) - 1 := by linarith
    positivity
  exact div_nonneg (intervalIntegral.integral_nonneg le fun ν hν =>
      mul_nonneg (div_nonneg (hα.pos ρ hρ T hT ν hν).le (hρ0.trans_le hρ.1).le) (p ν hν)) (intervalIntegral.integral_nonneg le p)

theorem _root_.Opac.Spec.SlopeAtMost.mono_set {m a b a' b' : ℝ} {f : ℝ → ℝ} (h : SlopeAtMost m a b f) (h1 : a ≤ a') (h2 : b' ≤ b) : SlopeAtMost m a' b' f :=
  fun x hx y hy => h x ⟨h1.trans hx.1, hx.2.trans h2⟩ y ⟨h1.trans hy.1, hy.2.trans h2⟩

/-- **C91**: let `ℓ 0 < … < ℓ n` be the group bounds, none of which the code clips at any temperature of the table.  Let the coefficient be positive
and continuous, vary like a power of the frequency of order at most `Λ` and per mass like powers `σ` of the density and `τ` of
the temperature.  Let the thermal intensity in every group exceed the guard by a factor `1/ε` at all temperatures, and
let `E` bound the error of the quadrature in every group.  Then at every state inside the table the group means, weighted by the
thermal intensities of their groups, add up to the emission between the first and the last bound, within the factor `exp(F)`: `F` is
`E` and the change of a mean over half a node distance along both axes.  `SMALL` is added to bounds, density, temperature
and mean by the code. -/
theorem C91_groups_add_up (hm : MeansOf h k c α lRhoMin lRhoMax NRho lTMin lTMax NT b n N qP qR)
    (hα : ∀ ρ T ν, 0 < ρ → 0 < T → 0 < ν → 0 ≤ α ρ T ν) (hNR : 2 ≤ NRho) (hNT : 2 ≤ NT)
    (hlR : lRhoMin < lRhoMax) (hlT : lTMin < lTMax) {ℓ : ℕ → ℝ} (hn : 0 < n)
    (hgr : ∀ g, g < n → GroupIs b g (ℓ g) (some (ℓ (g + 1)))) {a z : ℝ} (ha : a = ℓ 0 + Robust.SMALL) (hz : z = ℓ n + Robust.SMALL)
    (hclip : 1e-4 * k * 10 ^ lTMax / h ≤ ℓ 0 ∧ ℓ n ≤ 1e4 * k * 10 ^ lTMin / h)
    {Λ ε E σ τ X : ℝ} (hΛ : 0 ≤ Λ) (hσ : 0 ≤ σ) (hτ : 0 ≤ τ)
    (hc : CoefficientSlope σ τ (10 ^ lRhoMin) (10 ^ lRhoMax) (10 ^ lTMin) (10 ^ lTMax) a z α)
    (hs : ∀ ρ ∈ Set.Icc ((10 : ℝ) ^ lRhoMin) (10 ^ lRhoMax), ∀ T ∈ Set.Icc ((10 : ℝ) ^ lTMin) (10 ^ lTMax), SlopeAtMost Λ a z (α ρ T))
    (hε : ∀ g, g < n → ∀ T ∈ Set.Icc ((10 : ℝ) ^ lTMin) (10 ^ lTMax),
      Robust.SMALL * Real.log 10 ≤ ε * ∫ ν in ℓ g + Robust.SMALL..ℓ (g + 1) + Robust.SMALL, planckLaw h k c T ν)
    (hX : X = h * z / (k * 10 ^ lTMin))
    (hE : ∀ g, g < n → (max 4 X + Λ / 2) * (Real.log ((ℓ (g + 1) + Robust.SMALL) / (ℓ g + Robust.SMALL)) / N) + ε + 1e-14 ≤ E)
    {rho T : ℝ} (hin : Inside lRhoMin lRhoMax lTMin lTMax rho T) {F ρ' T' : ℝ}
    (hF : F = E + (σ * nodeDistance lRhoMin lRhoMax NRho + (τ + 2 * (1 + X)) * nodeDistance lTMin lTMax NT) / 2)
    (hρ' : ρ' = |rho| + Robust.SMALL) (hT' : T' = |T| + Robust.SMALL) :
    ∃ κ : ℕ → ℝ, (∀ g, g < n → qP (.fin rho) (.fin T) g = ok (.fin (rho * κ g))) ∧
      Real.exp (-F) * (∫ ν in a..z, (α ρ' T' ν / ρ' + Robust.SMALL) * planckLaw h k c T' ν) ≤
        ∑ g ∈ Finset.range n, κ g * ∫ ν in ℓ g + Robust.SMALL..ℓ (g + 1) + Robust.SMALL, planckLaw h k c T' ν ∧
      ∑ g ∈ Finset.range n, κ g * (∫ ν in ℓ g + Robust.SMALL..ℓ (g + 1) + Robust.SMALL, planckLaw h k c T' ν) ≤
        Real.exp F * ∫ ν in a..z, (α ρ' T' ν / ρ' + Robust.SMALL) * planckLaw h k c T' ν := by
  obtain ⟨t, A, -⟩ := hm.averaged hα hNR hNT
  obtain ⟨-, hN, hh, hk, hc0⟩ := A.bounds
  have hS := SMALL_pos
  have R0 : (0 : ℝ) < 10 ^ lRhoMin := by positivity
  have T0 : (0 : ℝ) < 10 ^ lTMin := by positivity
  have step : ∀ g, g < n → ℓ g < ℓ (g + 1) := fun g hg => (hgr g hg).2.2.2 _ rfl
  have mono : ∀ g g', g ≤ g' → g' ≤ n → ℓ g ≤ ℓ g' := by
    intro g g' hg
    induction hg with
    | refl => exact fun _ => le_refl _
    | step _ ih => exact fun h => (ih (by omega)).trans (step _ (by omega)).le
  have l0 : 0 < ℓ 0 := lt_of_lt_of_le (by positivity) hclip.1
  have un : ∀ g, g < n → Unclipped h k (10 ^ lTMin) (10 ^ lTMax) (ℓ g) (ℓ (g + 1)) := fun g hg =>
    ⟨hclip.1.trans (mono 0 g (by omega) (by omega)), step g hg, (mono (g + 1) n (by omega) (le_refl _)).trans hclip.2⟩
  have sub : ∀ g, g < n → Set.Icc (ℓ g + Robust.SMALL) (ℓ (g + 1) + Robust.SMALL) ⊆ Set.Icc a z := fun g hg x hx => by
    have := mono 0 g (by omega) (by omega)
    have := mono (g + 1) n (by omega) (le_refl _)
    exact ⟨by linarith [hx.1], by linarith [hx.2]⟩
  have az : a < z := by
    have := mono 1 n (by omega) (le_refl _)
    have := step 0 hn
    simp only [zero_add] at this
    linarith
  have X0 : 0 ≤ X := by rw [hX]; have : 0 < z := by linarith
                        positivity
  have pos : Set.Icc a z ⊆ Set.Ioi 0 := fun x hx => by
    have := hx.1
    exact Set.mem_Ioi.2 (by linarith)
  have inR : ρ' ∈ Set.Icc ((10 : ℝ) ^ lRhoMin) (10 ^ lRhoMax) := by rw [hρ']; exact state_mem hin.1 hin.2
  have inT : T' ∈ Set.Icc ((10 : ℝ) ^ lTMin) (10 ^ lTMax) := by rw [hT']; exact state_mem hin.3 hin.4
  have t0 := T0.trans_le inT.1
  have r0 := R0.trans_le inR.1
  have cB : ContinuousOn (planckLaw h k c T') (Set.Icc a z) := (Convergence.cont_planckLaw hh hk hc0 t0).mono pos
  have pB : ∀ ν ∈ Set.Icc a z, 0 < planckLaw h k c T' ν := fun ν hν => by
    have v0 : 0 < ν := pos hν
    have : 0 < h * ν / (k * T') := by positivity
    have := Real.add_one_lt_exp this.ne'
    unfold planckLaw
    have : 0 < Real.exp (h * ν / (k * T')) - 1 := by linarith
    positivity
  have ca : ContinuousOn (fun ν => α ρ' T' ν / ρ') (Set.Icc a z) := (hc.continuous ρ' inR T' inT).div_const ρ'
  -- the group means
  have each : ∀ g, ∃ κ : ℝ, g < n → qP (.fin rho) (.fin T) g = ok (.fin (rho * κ)) ∧
      Real.exp (-F) * (exactPlanck h k c (ℓ g) (some (ℓ (g + 1))) α ρ' T' + Robust.SMALL) ≤ κ ∧
      κ ≤ Real.exp F * (exactPlanck h k c (ℓ g) (some (ℓ (g + 1))) α ρ' T' + Robust.SMALL) := by
    intro g
    by_cases hg : g < n
    · have cg : CoefficientSlope σ τ (10 ^ lRhoMin) (10 ^ lRhoMax) (10 ^ lTMin) (10 ^ lTMax) (ℓ g + Robust.SMALL) (ℓ (g + 1) + Robust.SMALL) α :=
        ⟨fun ρ h1 T h2 => (hc.continuous ρ h1 T h2).mono (sub g hg), fun ρ h1 T h2 ν hν => hc.pos ρ h1 T h2 ν (sub g hg hν),
          fun ρ h1 ρ' h1' T h2 T' h2' ν hν => hc.rate ρ h1 ρ' h1' T h2 T' h2' ν (sub g hg hν)⟩
      have zle : ℓ (g + 1) + Robust.SMALL ≤ z := by have := mono (g + 1) n (by omega) (le_refl _); linarith
      have ale : a ≤ ℓ g + Robust.SMALL := by have := mono 0 g (by omega) (by omega); linarith
      have gpos : 0 < ℓ g + Robust.SMALL := by linarith
      have hx : h * (ℓ (g + 1) + Robust.SMALL) / (k * 10 ^ lTMin) ≤ X := by
        rw [hX]
        gcongr
      have rate : MeanSlope σ (τ + 2 * (1 + X)) (10 ^ lRhoMin) (10 ^ lRhoMax) (10 ^ lTMin) (10 ^ lTMax)
          (exactPlanck h k c (ℓ g) (some (ℓ (g + 1))) α) := by
        have := C88_group_planck_rate hh hk hc0 R0 T0 (un g hg) rfl rfl cg rfl
        intro ρ h1 ρ2 h1' T h2 T2 h2'
        refine (this ρ h1 ρ2 h1' T h2 T2 h2').trans (mul_le_mul_of_nonneg_right (Real.exp_le_exp.2 ?_) ?_)
        · have := abs_nonneg (Real.log T - Real.log T2)
          have := mul_le_mul_of_nonneg_right hx this
          nlinarith
        · exact planck_nonneg hh hk hc0 R0 T0 (un g hg) cg h1' h2'
      obtain ⟨κ, q⟩ := C88_planck hm hα hNR hNT hlR hlT hg (hgr g hg) (E := E) (ε := ε) hΛ hσ (by linarith : 0 ≤ τ + 2 * (1 + X)) (by
        intro i j hi hj ρ1 T1 A1 B1 e1 e2 e3 e4
        have m1 : ρ1 ∈ Set.Icc ((10 : ℝ) ^ lRhoMin) (10 ^ lRhoMax) := by rw [e1]; exact nodeValue_mem hNR hlR hi
        have m2 : T1 ∈ Set.Icc ((10 : ℝ) ^ lTMin) (10 ^ lTMax) := by rw [e2]; exact nodeValue_mem hNT hlT hj
        obtain ⟨w1, w2, -⟩ := unclipped_window (S := Robust.SMALL) hh hk T0 (un g hg) m2
        rw [w1] at e3
        rw [w2] at e4
        rw [e3, e4]
        refine ⟨fun ν hν => cg.pos ρ1 m1 T1 m2 ν hν, (hs ρ1 m1 T1 m2).mono_set ale zle, hε g hg T1 m2, le_trans ?_ (hE g hg)⟩
        have t1 := T0.trans_le m2.1
        have hx1 : h * (ℓ (g + 1) + Robust.SMALL) / (k * T1) ≤ X := le_trans (by
          have := step g hg
          have : 0 < ℓ (g + 1) + Robust.SMALL := by linarith
          have := m2.1
          gcongr) hx
        have lg : 0 ≤ Real.log ((ℓ (g + 1) + Robust.SMALL) / (ℓ g + Robust.SMALL)) / N := by
          refine div_nonneg (Real.log_nonneg ?_) (by positivity)
          rw [le_div_iff₀ gpos]
          have := step g hg
          linarith
        have := mul_le_mul_of_nonneg_right (max_le_max (le_refl (4 : ℝ)) hx1) lg
        linarith) rate (fun ρ h1 T h2 => planck_nonneg hh hk hc0 R0 T0 (un g hg) cg h1 h2) hin hF
      rw [hρ', hT']
      exact ⟨κ, fun _ => q⟩
    · exact ⟨0, fun h => absurd h hg⟩
  choose κ hκ using each
  refine ⟨κ, fun g hg => (hκ g hg).1, ?_⟩
  -- the integral over a group
  have gi : ∀ g, g < n → (exactPlanck h k c (ℓ g) (some (ℓ (g + 1))) α ρ' T' + Robust.SMALL) *
      (∫ ν in ℓ g + Robust.SMALL..ℓ (g + 1) + Robust.SMALL, planckLaw h k c T' ν) =
      ∫ ν in ℓ g + Robust.SMALL..ℓ (g + 1) + Robust.SMALL, (α ρ' T' ν / ρ' + Robust.SMALL) * planckLaw h k c T' ν ∧
      0 ≤ ∫ ν in ℓ g + Robust.SMALL..ℓ (g + 1) + Robust.SMALL, planckLaw h k c T' ν := by
    intro g hg
    have lt : ℓ g + Robust.SMALL < ℓ (g + 1) + Robust.SMALL := by linarith [step g hg]
    obtain ⟨w1, w2, -⟩ := unclipped_window (S := Robust.SMALL) hh hk T0 (un g hg) inT
    have p := integral_positive lt (cB.mono (sub g hg)) fun ν hν => pB ν (sub g hg hν)
    refine ⟨?_, p.le⟩
    unfold exactPlanck planckMeanOf
    rw [w1, w2, add_mul, div_mul_cancel₀ _ p.ne', ← intervalIntegral.integral_const_mul, ← intervalIntegral.integral_add]
    · exact intervalIntegral.integral_congr fun ν _ => by beta_reduce; ring
    · exact ContinuousOn.intervalIntegrable (by rw [Set.uIcc_of_le lt.le]; exact (ca.mul cB).mono (sub g hg))
    · exact ContinuousOn.intervalIntegrable (by rw [Set.uIcc_of_le lt.le]; exact ((continuousOn_const (c := Robust.SMALL)).mul cB).mono (sub g hg))
  have sum : ∑ g ∈ Finset.range n, ∫ ν in ℓ g + Robust.SMALL..ℓ (g + 1) + Robust.SMALL, (α ρ' T' ν / ρ' + Robust.SMALL) * planckLaw h k c T' ν =
      ∫ ν in a..z, (α ρ' T' ν / ρ' + Robust.SMALL) * planckLaw h k c T' ν := by
    rw [ha, hz]
    refine intervalIntegral.sum_integral_adjacent_intervals (a := fun g => ℓ g + Robust.SMALL) fun g hg => ?_
    have lt : ℓ g + Robust.SMALL < ℓ (g + 1) + Robust.SMALL := by linarith [step g hg]
    exact ContinuousOn.intervalIntegrable (by
      rw [Set.uIcc_of_le lt.le]
      exact ((ca.add continuousOn_const).mul cB).mono (sub g hg))
  rw [← sum, Finset.mul_sum, Finset.mul_sum]
  constructor <;> refine Finset.sum_le_sum fun g hg => ?_ <;> rw [Finset.mem_range] at hg <;> rw [← (gi g hg).1, ← mul_assoc]
  · exact mul_le_mul_of_nonneg_right (hκ g hg).2.1 (gi g hg).2
  · exact mul_le_mul_of_nonneg_right (hκ g hg).2.2 (gi g hg).2

end

/-! ## An example: gray opacity, groups `[1, 2]` and `[2, 3]`, densities and temperatures from 1 to 10, 1001 temperatures -/

theorem bounds123 : AcceptableBounds [XR.fin 1, .fin 2, .fin 3] ((2 : ℕ) : ℤ) ∧
    ∀ g, g < 2 → GroupIs [XR.fin 1, .fin 2, .fin 3] g ((g : ℝ) + 1) (some (((g + 1 : ℕ) : ℝ) + 1)) := by
  refine ⟨⟨by norm_num, by simp, ?_, ?_, ?_, ?_⟩, ?_⟩
  · intro i x hi hx
    rcases i with _ | _ | _ | i
    · simp at hx; subst hx; rfl
    · simp at hx; subst hx; rfl
    · simp at hx; subst hx; rfl
    · push_cast at hi; omega
  · intro x hx
    simp at hx
    subst hx
    simp only [axr]; norm_num
  · intro i x y hi hx hy
    rcases i with _ | _ | i
    · simp at hx hy
      subst hx hy
      simp only [axr]; norm_num
    · simp at hx hy
      subst hx hy
      simp only [axr]; norm_num
    · push_cast at hi; omega
  · intro i x hi hx
    rcases i with _ | _ | i
    · simp at hx; subst hx; rfl
    · simp at hx; subst hx; rfl
    · push_cast at hi; omega
  · intro g hg
    interval_cases g
    · refine ⟨by norm_num, by norm_num [upper], by norm_num, fun x hx => ?_⟩
      simp at hx
      subst hx
      norm_num
    · refine ⟨by norm_num, by norm_num [upper], by norm_num, fun x hx => ?_⟩
      simp at hx
      subst hx
      norm_num

/-- the thermal intensity of either group exceeds `2/81` -/
theorem low123 : ∀ g : ℕ, g < 2 → ∀ T ∈ Set.Icc ((10 : ℝ) ^ (0 : ℝ)) (10 ^ (1 : ℝ)),
    (2 / 81 : ℝ) ≤ ∫ ν in (g : ℝ) + 1 + Robust.SMALL..((g + 1 : ℕ) : ℝ) + 1 + Robust.SMALL, planckLaw 1 1 1 T ν := by
  have hS := SMALL_pos
  have hS' := SMALL_lt
  have hS2 : (Robust.SMALL : ℝ) ≤ 1 / 10 ^ 9 := hS'.le.trans (by norm_num)
  have e10 : (10 : ℝ) ^ (1 : ℝ) = 10 := Real.rpow_one 10
  have e1 : (10 : ℝ) ^ (0 : ℝ) = 1 := Real.rpow_zero 10
  intro g hg T hT
  rw [e1, e10] at hT
  have t0 : 0 < T := by linarith [hT.1]
  have g0 : (0 : ℝ) ≤ g := by positivity
  have g1 : (g : ℝ) ≤ 1 := by exact_mod_cast (by omega : g ≤ 1)
  have le : (g : ℝ) + 1 + Robust.SMALL ≤ ((g + 1 : ℕ) : ℝ) + 1 + Robust.SMALL := by push_cast; linarith
  have hi := intervalIntegral.integral_mono_on le (μ := volume) (f := fun _ => (2 / 81 : ℝ)) intervalIntegrable_const
    (((Convergence.cont_planckLaw (T := T) one_pos one_pos one_pos t0).mono
      (by rw [Set.uIcc_of_le le]; exact fun x hx => Set.mem_Ioi.2 (by linarith [hx.1]))).intervalIntegrable) (fun x hx => by
    have x1 : 1 ≤ x := by linarith [hx.1]
    have x3 : x ≤ 4 := by have := hx.2; push_cast at this; linarith
    have a0 : 0 < 1 * x / (1 * T) := by positivity
    have a4 : 1 * x / (1 * T) ≤ 4 := by rw [div_le_iff₀ (by linarith)]; nlinarith [hT.1]
    have e4 : Real.exp 4 ≤ 81 := by
      rw [show (4 : ℝ) = 1 + 1 + 1 + 1 by norm_num, Real.exp_add, Real.exp_add, Real.exp_add]
      have h3 := Real.exp_one_lt_three
      have p := Real.exp_pos 1
      nlinarith [mul_pos p p, mul_pos (mul_pos p p) p, mul_le_mul h3.le h3.le p.le (by norm_num)]
    have e5 : Real.exp (1 * x / (1 * T)) ≤ 81 := le_trans (Real.exp_le_exp.2 a4) e4
    have e0 : 0 < Real.exp (1 * x / (1 * T)) - 1 := by
      have := Real.add_one_lt_exp (x := 1 * x / (1 * T)) a0.ne'
      linarith
    unfold planckLaw
    have : 1 ≤ x ^ 3 := one_le_pow₀ x1
    exact div_le_div₀ (by positivity) (by linarith) e0 (by linarith))
  rw [intervalIntegral.integral_const, smul_eq_mul] at hi
  push_cast at hi ⊢
  linarith

example : ∃ (qP qR : XR → XR → ℤ → Outcome XR) (κ : ℕ → ℝ) (F T : ℝ),
    MeansOf 1 1 1 (fun ρ _ _ => ρ * 1) 0 1 2 0 1 1001 [.fin 1, .fin 2, .fin 3] 2 1000 qP qR ∧
    qP (.fin 2) (.fin 3) 0 = ok (.fin (2 * κ 0)) ∧ qP (.fin 2) (.fin 3) 1 = ok (.fin (2 * κ 1)) ∧ F ≤ 0.05 ∧ T = 3 + Robust.SMALL ∧
    Real.exp (-F) * (∫ ν in (1 : ℝ) + Robust.SMALL..3 + Robust.SMALL, (1 + Robust.SMALL) * planckLaw 1 1 1 T ν) ≤
      κ 0 * (∫ ν in (1 : ℝ) + Robust.SMALL..2 + Robust.SMALL, planckLaw 1 1 1 T ν) +
        κ 1 * (∫ ν in (2 : ℝ) + Robust.SMALL..3 + Robust.SMALL, planckLaw 1 1 1 T ν) ∧
    κ 0 * (∫ ν in (1 : ℝ) + Robust.SMALL..2 + Robust.SMALL, planckLaw 1 1 1 T ν) +
      κ 1 * (∫ ν in (2 : ℝ) + Robust.SMALL..3 + Robust.SMALL, planckLaw 1 1 1 T ν) ≤
      Real.exp F * (∫ ν in (1 : ℝ) + Robust.SMALL..3 + Robust.SMALL, (1 + Robust.SMALL) * planckLaw 1 1 1 T ν) := by
  obtain ⟨hb, hgr⟩ := bounds123
  obtain ⟨o, ho, -⟩ := C07_gray_exists onesPC_finite (κ := 1) one_pos 0 1 (NRho := 2) (by norm_num) 0 1 (NT := 1001)
    (by norm_num) hb (N := 1000) (by norm_num) (fun _ => .fin 0)
  have hm : MeansOf 1 1 1 (fun ρ _ _ => ρ * 1) 0 1 2 0 1 1001 [.fin 1, .fin 2, .fin 3] 2 1000
      (MeanPhotonAPI.PlanckGroupAbsorptionCoefficient o) (MeanPhotonAPI.RosselandGroupAbsorptionCoefficient o) :=
    .absorption (GrayOpacity.mk onesPC (.fin 1)) onesPC _ o onesPC_finite (fun ρ T ν _ _ _ => gray_coef onesPC 1 ρ T ν) ho
  have hS := SMALL_pos
  have hS' := SMALL_lt
  have hS2 : (Robust.SMALL : ℝ) ≤ 1 / 10 ^ 9 := hS'.le.trans (by norm_num)
  have hl10 : Real.log 10 ≤ 9 := by have := Real.log_le_sub_one_of_pos (x := 10) (by norm_num); linarith
  have hl0 : 0 < Real.log 10 := Real.log_pos (by norm_num)
  have e10 : (10 : ℝ) ^ (1 : ℝ) = 10 := Real.rpow_one 10
  have e1 : (10 : ℝ) ^ (0 : ℝ) = 1 := Real.rpow_zero 10
  have low := low123
  have hnd : nodeDistance 0 1 1001 = Real.log 10 / 1000 := by unfold nodeDistance; norm_num; ring
  have hin : Inside 0 1 0 1 2 3 := by
    have c : ∀ {x : ℝ}, 2 ≤ x → x ≤ 3 → 0 ≤ coordinate x ∧ coordinate x ≤ 1 := by
      intro x h2 h3
      have p : 0 < |x| + Robust.SMALL := by positivity
      have ax : |x| = x := abs_of_pos (by linarith)
      unfold coordinate
      constructor
      · rw [Real.le_logb_iff_rpow_le (by norm_num) p, e1, ax]; linarith
      · rw [Real.logb_le_iff_le_rpow (by norm_num) p, e10, ax]; linarith
    exact ⟨(c (le_refl _) (by norm_num)).1, (c (le_refl _) (by norm_num)).2, (c (by norm_num) (le_refl _)).1, (c (by norm_num) (le_refl _)).2⟩
  obtain ⟨F, hF⟩ : ∃ F : ℝ, F = 5e-3 + (0 * nodeDistance 0 1 2 + (0 + 2 * (1 + 1 * (((2 : ℕ) : ℝ) + 1 + Robust.SMALL) / (1 * 10 ^ (0 : ℝ)))) *
    nodeDistance 0 1 1001) / 2 := ⟨_, rfl⟩
  have hF5 : F ≤ 0.05 := by
    rw [hF, hnd, e1]
    norm_num at hS2 ⊢
    nlinarith
  obtain ⟨κ, q1, q2, q3⟩ := C91_groups_add_up hm (fun ρ _ _ h _ _ => by positivity) (by norm_num) (by norm_num) (by norm_num) (by norm_num)
    (ℓ := fun g => (g : ℝ) + 1) (by norm_num) hgr rfl rfl (by simp only [e1, e10]; norm_num) (Λ := 0) (ε := 1e-70) (E := 5e-3) (σ := 0) (τ := 0)
    (le_refl _) (le_refl _) (le_refl _)
    ⟨fun _ _ _ _ => by fun_prop, fun ρ hρ _ _ _ _ => by
      have := hρ.1
      rw [e1] at this
      linarith, fun ρ hρ ρ' hρ' _ _ _ _ _ _ => by
      have h1 := hρ.1
      have h2 := hρ'.1
      rw [e1] at h1 h2
      rw [mul_one, mul_one, div_self (by linarith), div_self (by linarith)]
      simp⟩
    (fun ρ _ T _ x _ y _ => by simp) (fun g hg T hT => by
      have h1 := low g hg T hT
      have : Robust.SMALL * Real.log 10 ≤ 1e-80 * 9 := mul_le_mul hS'.le hl10 hl0.le (by norm_num)
      refine this.trans (le_trans (by norm_num) (mul_le_mul_of_nonneg_left h1 (by norm_num)))) rfl
    (fun g hg => by
      have g0 : (0 : ℝ) ≤ g := by positivity
      have h1 : Real.log ((((g + 1 : ℕ) : ℝ) + 1 + Robust.SMALL) / ((g : ℝ) + 1 + Robust.SMALL)) ≤ 1 := by
        have := Real.log_le_sub_one_of_pos (x := (((g + 1 : ℕ) : ℝ) + 1 + Robust.SMALL) / ((g : ℝ) + 1 + Robust.SMALL)) (by positivity)
        have h2 : (((g + 1 : ℕ) : ℝ) + 1 + Robust.SMALL) / ((g : ℝ) + 1 + Robust.SMALL) ≤ 2 := by
          rw [div_le_iff₀ (by positivity)]
          push_cast
          linarith
        linarith
      have h0 : max 4 (1 * (((2 : ℕ) : ℝ) + 1 + Robust.SMALL) / (1 * 10 ^ (0 : ℝ))) = 4 := by
        rw [e1, max_eq_left]
        push_cast
        norm_num at hS2 ⊢
        linarith
      show (max 4 (1 * (((2 : ℕ) : ℝ) + 1 + Robust.SMALL) / (1 * 10 ^ (0 : ℝ))) + 0 / 2) *
        (Real.log ((((g + 1 : ℕ) : ℝ) + 1 + Robust.SMALL) / ((g : ℝ) + 1 + Robust.SMALL)) / ((1000 : ℕ) : ℝ)) + 1e-70 + 1e-14 ≤ 5e-3
      rw [h0]
      generalize Real.log ((((g + 1 : ℕ) : ℝ) + 1 + Robust.SMALL) / ((g : ℝ) + 1 + Robust.SMALL)) = L at *
      norm_num
      linarith) hin hF rfl rfl
  refine ⟨_, _, κ, F, 3 + Robust.SMALL, hm, q1 0 (by norm_num), q1 1 (by norm_num), hF5, rfl, ?_⟩
  have a2 : |(2 : ℝ)| = 2 := by norm_num
  have a3 : |(3 : ℝ)| = 3 := by norm_num
  have r : (2 + Robust.SMALL : ℝ) * 1 / (2 + Robust.SMALL) = 1 := by rw [mul_one]; exact div_self (by linarith)
  simp only [a2, a3, r, Finset.sum_range_succ, Finset.sum_range_zero] at q2 q3
  have c1 : ((1 : ℕ) : ℝ) + 1 = 2 := by norm_num
  have c2 : ((2 : ℕ) : ℝ) + 1 = 3 := by norm_num
  have c0 : ((0 : ℕ) : ℝ) + 1 = 1 := by norm_num
  simp only [zero_add, Nat.reduceAdd, c0, c1, c2] at q2 q3
  exact ⟨q2, q3⟩

end Opac.Photons
