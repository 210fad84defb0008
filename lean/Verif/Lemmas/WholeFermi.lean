import Verif.Lemmas.WholeSpectrum
import Verif.Spec.Thermal

/-!
# How much of the Fermi-Dirac spectrum lies outside of the default window
-/

namespace Opac.WholeFermi
open Opac Spec MeasureTheory Set Real WholeSpectrum

variable {g h k c T : ℝ}

theorem fermi_law_integral (hh : 0 < h) (hk : 0 < k) (hc : 0 < c) (hT : 0 < T) :
    IntegrableOn (fermiDiracLaw g h k c T) (Ioi 0) ∧
    ∫ ν in Ioi (0 : ℝ), fermiDiracLaw g h k c T ν = g * (7 * π ^ 4 / 60 * ((k * T) ^ 4 / (h ^ 3 * c ^ 2))) := by
  have hb : 0 < h / (k * T) := by positivity
  obtain ⟨i, e⟩ := fermi_integral_scaled (n := 3) (by norm_num) hb
  have : fermiDiracLaw g h k c T = fun ν => (g * (2 * h / c ^ 2)) * (ν ^ 3 / (exp (h / (k * T) * ν) + 1)) := by
    funext ν
    rw [fermiDiracLaw, show h * ν / (k * T) = h / (k * T) * ν by ring]
    ring
  rw [this]
  refine ⟨i.const_mul _, ?_⟩
  rw [integral_const_mul, e, zetaR_four]
  simp only [Nat.reduceAdd, Nat.factorial]
  push_cast
  field_simp
  norm_num
  ring

theorem fermi_law_nonneg (hg : 0 ≤ g) (hh : 0 < h) {ν : ℝ} (hν : 0 < ν) : 0 ≤ fermiDiracLaw g h k c T ν := by
  unfold fermiDiracLaw
  positivity

/-- low frequencies -/
theorem fermi_head (hg : 0 ≤ g) (hh : 0 < h) (hk : 0 < k) (hc : 0 < c) (hT : 0 < T) {a : ℝ} (ha : 0 ≤ a) :
    ∫ ν in Ioc 0 a, fermiDiracLaw g h k c T ν ≤ g * (h * a ^ 4 / c ^ 2 / 4) := by
  have hle : ∀ ν ∈ Ioc 0 a, fermiDiracLaw g h k c T ν ≤ g * (h / c ^ 2) * ν ^ 3 := by
    intro ν hν
    have hν0 : 0 < ν := hν.1
    have hx : 0 < h * ν / (k * T) := by positivity
    have := Real.add_one_le_exp (h * ν / (k * T))
    unfold fermiDiracLaw
    calc g * (2 * h * ν ^ 3 / c ^ 2) / (exp (h * ν / (k * T)) + 1) ≤ g * (2 * h * ν ^ 3 / c ^ 2) / 2 := by
          gcongr; linarith
      _ = _ := by field_simp
  have hi : IntegrableOn (fun ν : ℝ => g * (h / c ^ 2) * ν ^ 3) (Ioc 0 a) := by
    rw [← intervalIntegrable_iff_integrableOn_Ioc_of_le ha]
    exact (by fun_prop : Continuous fun ν : ℝ => g * (h / c ^ 2) * ν ^ 3).intervalIntegrable _ _
  calc _ ≤ ∫ ν in Ioc 0 a, g * (h / c ^ 2) * ν ^ 3 :=
        setIntegral_mono_on ((fermi_law_integral hh hk hc hT).1.mono_set Ioc_subset_Ioi_self) hi measurableSet_Ioc hle
    _ = _ := by
      rw [← intervalIntegral.integral_of_le ha, intervalIntegral.integral_const_mul, integral_pow]
      norm_num
      ring

/-- high frequencies -/
theorem fermi_tail (hg : 0 ≤ g) (hh : 0 < h) (hk : 0 < k) (hc : 0 < c) (hT : 0 < T) {a : ℝ} (ha : k * T / h ≤ a) :
    ∫ ν in Ioi a, fermiDiracLaw g h k c T ν ≤
      g * (384 * ((k * T) ^ 4 / (h ^ 3 * c ^ 2)) * exp (-(h * a / (k * T)) / 2)) := by
  have ha0 : 0 < a := lt_of_lt_of_le (by positivity) ha
  have hle : ∀ ν ∈ Ioi a, fermiDiracLaw g h k c T ν ≤ g * planckLaw h k c T ν := by
    intro ν hν
    have hν0 : 0 < ν := ha0.trans hν
    have hx : 0 < h * ν / (k * T) := by positivity
    have := Real.add_one_le_exp (h * ν / (k * T))
    unfold fermiDiracLaw planckLaw
    rw [mul_div_assoc]
    gcongr <;> linarith
  have hsub : Ioi a ⊆ Ioi 0 := Ioi_subset_Ioi ha0.le
  calc _ ≤ ∫ ν in Ioi a, g * planckLaw h k c T ν :=
        setIntegral_mono_on ((fermi_law_integral hh hk hc hT).1.mono_set hsub)
          (((law_integral hh hk hc hT).1.mono_set hsub).const_mul g) measurableSet_Ioi hle
    _ ≤ _ := by
      rw [integral_const_mul]
      exact mul_le_mul_of_nonneg_left (law_tail hh hk hc hT ha) hg

/-- less than `3·10⁻¹⁴` of the neutrinos' energy is outside of the range from `10⁻³` to `10³` times `kT/h` -/
theorem fermi_lost (hg : 0 ≤ g) (hh : 0 < h) (hk : 0 < k) (hc : 0 < c) (hT : 0 < T) {a b : ℝ} (ha : 0 ≤ a)
    (ha' : a ≤ 1.001e-3 * (k * T / h)) (hb : 1e3 * (k * T / h) ≤ b) :
    (∫ ν in Ioc 0 a, fermiDiracLaw g h k c T ν) + (∫ ν in Ioi b, fermiDiracLaw g h k c T ν) ≤
      3e-14 * ∫ ν in Ioi (0 : ℝ), fermiDiracLaw g h k c T ν := by
  have hq : 0 < k * T / h := by positivity
  have hQ : 0 < (k * T) ^ 4 / (h ^ 3 * c ^ 2) := by positivity
  have h1 := fermi_head hg hh hk hc hT ha
  have h2 := fermi_tail hg hh hk hc hT (a := b) (by linarith)
  have e1 : h * a ^ 4 / c ^ 2 / 4 ≤ 2.6e-13 * ((k * T) ^ 4 / (h ^ 3 * c ^ 2)) := by
    have : a ^ 4 ≤ (1.001e-3 * (k * T / h)) ^ 4 := pow_le_pow_left₀ ha ha' 4
    calc h * a ^ 4 / c ^ 2 / 4 ≤ h * (1.001e-3 * (k * T / h)) ^ 4 / c ^ 2 / 4 := by gcongr
      _ = (1.001e-3) ^ 4 / 4 * ((k * T) ^ 4 / (h ^ 3 * c ^ 2)) := by field_simp
      _ ≤ _ := by
        refine mul_le_mul_of_nonneg_right ?_ hQ.le
        norm_num
  have e2 : exp (-(h * b / (k * T)) / 2) ≤ 1 / 10 ^ 100 := by
    refine le_trans (Real.exp_le_exp.2 ?_) exp_neg_500
    have : 1e3 ≤ h * b / (k * T) := by
      rw [le_div_iff₀ (by positivity)]
      calc 1e3 * (k * T) = h * (1e3 * (k * T / h)) := by field_simp
        _ ≤ h * b := mul_le_mul_of_nonneg_left hb hh.le
    norm_num at this
    linarith
  have e3 : 384 * ((k * T) ^ 4 / (h ^ 3 * c ^ 2)) * exp (-(h * b / (k * T)) / 2) ≤
      1e-20 * ((k * T) ^ 4 / (h ^ 3 * c ^ 2)) := by
    calc _ ≤ 384 * ((k * T) ^ 4 / (h ^ 3 * c ^ 2)) * (1 / 10 ^ 100) := by gcongr
      _ = (384 * (1 / 10 ^ 100)) * ((k * T) ^ 4 / (h ^ 3 * c ^ 2)) := by ring
      _ ≤ _ := by
        refine mul_le_mul_of_nonneg_right ?_ hQ.le
        norm_num
  rw [(fermi_law_integral hh hk hc hT).2]
  have hpi : 81 ≤ π ^ 4 := by
    have := pow_le_pow_left₀ (by norm_num) Real.pi_gt_three.le 4
    norm_num at this
    linarith
  generalize (k * T) ^ 4 / (h ^ 3 * c ^ 2) = Q at *
  have m1 := mul_le_mul_of_nonneg_left e1 hg
  have m2 := mul_le_mul_of_nonneg_left e3 hg
  have m3 : 81 * Q ≤ π ^ 4 * Q := mul_le_mul_of_nonneg_right hpi hQ.le
  have m4 := mul_le_mul_of_nonneg_left m3 hg
  have hgQ : 0 ≤ g * Q := mul_nonneg hg hQ.le
  norm_num at *
  nlinarith

/-- a mean over a window that covers all but the part `ε` of the weight, with a floor of at most `δ` of the weight -/
theorem mean_near {W α : ℝ → ℝ} {a b S ρ K I ε δ : ℝ} (hW : IntegrableOn W (Ioi 0)) (hW0 : ∀ ν, 0 < ν → 0 ≤ W ν) (ha : 0 ≤ a)
    (hab : a ≤ b) (hρ : 0 < ρ) (hα : AEStronglyMeasurable α (volume.restrict (Ioi 0))) (h0 : ∀ ν, 0 < ν → 0 ≤ α ν)
    (hK : ∀ ν, 0 < ν → α ν ≤ K) (eI : I = ∫ ν in Ioi (0 : ℝ), W ν) (hI : 0 < I)
    (hl : (∫ ν in Ioc 0 a, W ν) + (∫ ν in Ioi b, W ν) ≤ ε * I) (hS : 0 ≤ S) (hδ : S * log 10 ≤ δ * I) (hε : ε ≤ 1 / 2)
    (hδ0 : 0 ≤ δ) (hε0 : 0 ≤ ε) :
    |planckLimit S ρ a b W α - wholeMean ρ W α| ≤ (2 * ε + δ) * (K / ρ) := by
  have hb : 0 ≤ b := ha.trans hab
  have hK0 : 0 ≤ K := (h0 1 one_pos).trans (hK 1 one_pos)
  have hf : IntegrableOn (fun ν => α ν / ρ * W ν) (Ioi 0) := by
    refine Integrable.bdd_mul (c := K / ρ) hW ?_ ?_
    · simpa only [div_eq_mul_inv] using hα.mul_const ρ⁻¹
    · refine (ae_restrict_iff' measurableSet_Ioi).2 (ae_of_all _ fun ν hν => ?_)
      rw [Real.norm_of_nonneg (div_nonneg (h0 ν hν) hρ.le)]
      exact div_le_div_of_nonneg_right (hK ν hν) hρ.le
  have sW := split3 hW ha hab
  have sf := split3 hf ha hab
  have part : ∀ s ⊆ Ioi (0 : ℝ), MeasurableSet s → 0 ≤ (∫ ν in s, W ν) ∧ 0 ≤ (∫ ν in s, α ν / ρ * W ν) ∧
      (∫ ν in s, α ν / ρ * W ν) ≤ K / ρ * ∫ ν in s, W ν := by
    intro s hs ms
    refine ⟨setIntegral_nonneg ms fun ν hν => hW0 ν (hs hν),
      setIntegral_nonneg ms fun ν hν => mul_nonneg (div_nonneg (h0 ν (hs hν)) hρ.le) (hW0 ν (hs hν)), ?_⟩
    rw [← integral_const_mul]
    refine setIntegral_mono_on (hf.mono_set hs) ((hW.mono_set hs).const_mul _) ms fun ν hν => ?_
    exact mul_le_mul_of_nonneg_right (div_le_div_of_nonneg_right (hK ν (hs hν)) hρ.le) (hW0 ν (hs hν))
  obtain ⟨p1, p2, p3⟩ := part (Ioc 0 a) Ioc_subset_Ioi_self measurableSet_Ioc
  obtain ⟨q1, q2, q3⟩ := part (Ioi b) (Ioi_subset_Ioi hb) measurableSet_Ioi
  obtain ⟨r1, r2, r3⟩ := part (Ioi 0) (le_refl _) measurableSet_Ioi
  have hlog : 0 ≤ S * log 10 := mul_nonneg hS (log_nonneg (by norm_num))
  unfold planckLimit wholeMean
  rw [← eI] at sW r3 ⊢
  generalize (∫ ν in Ioi (0 : ℝ), α ν / ρ * W ν) = N at *
  generalize (∫ ν in a..b, α ν / ρ * W ν) = n at *
  generalize (∫ ν in a..b, W ν) = w at *
  generalize (∫ ν in Ioc 0 a, W ν) = w1 at *
  generalize (∫ ν in Ioi b, W ν) = w2 at *
  generalize (∫ ν in Ioc 0 a, α ν / ρ * W ν) = n1 at *
  generalize (∫ ν in Ioi b, α ν / ρ * W ν) = n2 at *
  generalize S * log 10 = t at *
  have hκ : 0 ≤ K / ρ := div_nonneg hK0 hρ.le
  generalize K / ρ = κ at *
  have hw : (1 - ε) * I ≤ w := by linarith
  have hd : 0 < w + t := by nlinarith
  have hn : N - ε * I * κ ≤ n := by nlinarith
  rw [div_sub_div _ _ hd.ne' hI.ne', abs_div, abs_of_pos (mul_pos hd hI), div_le_iff₀ (mul_pos hd hI), abs_le]
  have hn' : n ≤ N := by linarith
  have hwt : w + t ≤ (1 + δ) * I := by linarith
  have hwt' : (1 / 2) * I ≤ w + t := by nlinarith
  have hεI : 0 ≤ ε * I := mul_nonneg hε0 hI.le
  have hδI : 0 ≤ δ * I := mul_nonneg hδ0 hI.le
  have hd2 : (I / 2) * (2 * ε * I * κ) ≤ (w + t) * (2 * ε * I * κ) :=
    mul_le_mul_of_nonneg_right (by linarith) (by positivity)
  constructor
  · have h1 : (N - ε * I * κ) * I ≤ n * I := mul_le_mul_of_nonneg_right hn hI.le
    have h3 : N * (w + t - I) ≤ κ * (w + t) * (δ * I) := by
      rcases le_total (w + t) I with hc | hc
      · exact (mul_nonpos_of_nonneg_of_nonpos r2 (by linarith)).trans (by positivity)
      · calc N * (w + t - I) ≤ N * t := mul_le_mul_of_nonneg_left (by linarith) r2
          _ ≤ κ * I * (δ * I) := mul_le_mul r3 hδ hlog (mul_nonneg hκ hI.le)
          _ ≤ _ := mul_le_mul_of_nonneg_right (mul_le_mul_of_nonneg_left hc hκ) hδI
    nlinarith
  · have h1 : n * I ≤ N * I := mul_le_mul_of_nonneg_right hn' hI.le
    have h2 : N * (I - (w + t)) ≤ N * (ε * I) := mul_le_mul_of_nonneg_left (by linarith) r2
    have h3 : N * (ε * I) ≤ κ * I * (ε * I) := mul_le_mul_of_nonneg_right r3 hεI
    have h4 : 0 ≤ κ * (w + t) * (δ * I) := by positivity
    nlinarith

end Opac.WholeFermi
