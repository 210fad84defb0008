import Verif.Props.NeutrinoBetweenNodes

/-!
# C88 for neutrinos: how fast the means change

The bound for states between nodes needs to know how fast the exact mean changes with the state.  It follows from how fast the
source's coefficient per mass changes, at fixed frequency: the spectrum in the mean adds twice `h b / (k T)` to the power of the
temperature, where `b` is the highest frequency and `T` the lowest temperature (the larger of that and 2, for Rosseland means).
-/

namespace Opac.Tables
open Arith Outcome Spec Photons Neutrinos MeanTables
open SpinerOpacity (tiny tiny_pos Tabulated)

/-- between any two states inside, and at every frequency of the window, the coefficient `α` is positive, continuous in the
frequency, and per mass changes at most by the powers `σ` of the density and `τ` of the temperature, and by `η` decades per unit
of the electron fraction -/
structure CoefficientChangesAtMost (σ τ η : ℝ) (r : MeanRanges) (a b : ℝ) (α : ℝ → ℝ → ℝ → ℝ → ℝ) : Prop where
  continuous : ∀ ρ T Ye, Within r ρ T Ye → ContinuousOn (α ρ T Ye) (Set.Icc a b)
  pos : ∀ ρ T Ye, Within r ρ T Ye → ∀ ν ∈ Set.Icc a b, 0 < α ρ T Ye ν
  rate : ∀ ρ T Ye ρ' T' Ye', Within r ρ T Ye → Within r ρ' T' Ye' → ∀ ν ∈ Set.Icc a b, α ρ T Ye ν / ρ ≤
    10 ^ (σ * |Real.logb 10 ρ - Real.logb 10 ρ'| + τ * |Real.logb 10 T - Real.logb 10 T'| + η * |Ye - Ye'|) * (α ρ' T' Ye' ν / ρ')

/-! ## Helpers -/

section
variable {a b c w : ℝ} {f f' B B' : ℝ → ℝ}

theorem integral_ratio (hab : a < b) (hf : ContinuousOn f (Set.Icc a b)) (hf' : ContinuousOn f' (Set.Icc a b))
    (h : ∀ ν ∈ Set.Icc a b, f ν ≤ c * f' ν) : ∫ ν in a..b, f ν ≤ c * ∫ ν in a..b, f' ν := by
  rw [← Set.uIcc_of_le hab.le] at hf hf'
  rw [← intervalIntegral.integral_const_mul]
  exact intervalIntegral.integral_mono_on hab.le hf.intervalIntegrable (hf'.const_smul c).intervalIntegrable h

theorem integral_positive (hab : a < b) (hf : ContinuousOn f (Set.Icc a b)) (h : ∀ ν ∈ Set.Icc a b, 0 < f ν) : 0 < ∫ ν in a..b, f ν :=
  intervalIntegral.intervalIntegral_pos_of_pos_on (by rw [← Set.uIcc_of_le hab.le] at hf; exact hf.intervalIntegrable)
    (fun x hx => h x ⟨hx.1.le, hx.2.le⟩) hab

theorem planck_ratio (hab : a < b) (hf : ContinuousOn f (Set.Icc a b)) (hf' : ContinuousOn f' (Set.Icc a b))
    (hB : ContinuousOn B (Set.Icc a b)) (hB' : ContinuousOn B' (Set.Icc a b)) (c0 : 0 ≤ c) (w0 : 0 ≤ w)
    (f0 : ∀ ν ∈ Set.Icc a b, 0 < f' ν) (B0 : ∀ ν ∈ Set.Icc a b, 0 < B ν) (B0' : ∀ ν ∈ Set.Icc a b, 0 < B' ν)
    (h : ∀ ν ∈ Set.Icc a b, f ν ≤ c * f' ν) (h1 : ∀ ν ∈ Set.Icc a b, B ν ≤ w * B' ν) (h2 : ∀ ν ∈ Set.Icc a b, B' ν ≤ w * B ν) :
    (∫ ν in a..b, f ν * B ν) / (∫ ν in a..b, B ν) ≤ c * w ^ 2 * ((∫ ν in a..b, f' ν * B' ν) / ∫ ν in a..b, B' ν) := by
  have i1 := integral_ratio (c := c * w) hab (hf.mul hB) (hf'.mul hB') fun ν hν => by
    have := mul_le_mul (h ν hν) (h1 ν hν) (B0 ν hν).le (mul_nonneg c0 (f0 ν hν).le)
    show f ν * B ν ≤ c * w * (f' ν * B' ν)
    linarith
  have i2 := integral_ratio hab hB' hB h2
  have p1 := integral_positive hab hB B0
  have p2 := integral_positive hab hB' B0'
  have p3 := integral_positive hab (hf'.mul hB') fun ν hν => mul_pos (f0 ν hν) (B0' ν hν)
  simp only [Pi.mul_apply] at i1 p3
  rw [mul_div_assoc', div_le_div_iff₀ p1 p2]
  calc _ ≤ (c * w * ∫ ν in a..b, f' ν * B' ν) * ∫ ν in a..b, B' ν := mul_le_mul_of_nonneg_right i1 p2.le
    _ ≤ (c * w * ∫ ν in a..b, f' ν * B' ν) * (w * ∫ ν in a..b, B ν) := mul_le_mul_of_nonneg_left i2 (by positivity)
    _ = _ := by ring

theorem rosseland_ratio (hab : a < b) (hf : ContinuousOn f (Set.Icc a b)) (hf' : ContinuousOn f' (Set.Icc a b))
    (hB : ContinuousOn B (Set.Icc a b)) (hB' : ContinuousOn B' (Set.Icc a b)) (c0 : 0 ≤ c) (w0 : 0 ≤ w)
    (f0 : ∀ ν ∈ Set.Icc a b, 0 < f ν) (f0' : ∀ ν ∈ Set.Icc a b, 0 < f' ν) (B0 : ∀ ν ∈ Set.Icc a b, 0 < B ν)
    (B0' : ∀ ν ∈ Set.Icc a b, 0 < B' ν)
    (h : ∀ ν ∈ Set.Icc a b, f' ν ≤ c * f ν) (h1 : ∀ ν ∈ Set.Icc a b, B ν ≤ w * B' ν) (h2 : ∀ ν ∈ Set.Icc a b, B' ν ≤ w * B ν) :
    (∫ ν in a..b, B ν) / (∫ ν in a..b, f ν * B ν) ≤ c * w ^ 2 * ((∫ ν in a..b, B' ν) / ∫ ν in a..b, f' ν * B' ν) := by
  have i1 := integral_ratio (c := c * w) hab (hf'.mul hB') (hf.mul hB) fun ν hν => by
    have := mul_le_mul (h ν hν) (h2 ν hν) (B0' ν hν).le (mul_nonneg c0 (f0 ν hν).le)
    show f' ν * B' ν ≤ c * w * (f ν * B ν)
    linarith
  have i2 := integral_ratio hab hB hB' h1
  have p2 := integral_positive hab hB' B0'
  have p3 := integral_positive hab (hf.mul hB) fun ν hν => mul_pos (f0 ν hν) (B0 ν hν)
  have p4 := integral_positive hab (hf'.mul hB') fun ν hν => mul_pos (f0' ν hν) (B0' ν hν)
  simp only [Pi.mul_apply] at i1 p3 p4
  rw [mul_div_assoc', div_le_div_iff₀ p3 p4]
  calc _ ≤ (w * ∫ ν in a..b, B' ν) * ∫ ν in a..b, f' ν * B' ν := mul_le_mul_of_nonneg_right i2 p4.le
    _ ≤ (w * ∫ ν in a..b, B' ν) * (c * w * ∫ ν in a..b, f ν * B ν) := mul_le_mul_of_nonneg_left i1 (by positivity)
    _ = _ := by ring

end

/-- `x - x'` against the decades between two temperatures, for `x = u / T` -/
theorem argument_change {u X T T' : ℝ} (hT : 0 < T) (h : T ≤ T') (hX : u / T ≤ X) (hu : 0 ≤ u) :
    Real.exp (u / T - u / T') ≤ 10 ^ (X * |Real.logb 10 T - Real.logb 10 T'|) := by
  have hT' : 0 < T' := hT.trans_le h
  have hl : (0 : ℝ) < Real.log 10 := Real.log_pos (by norm_num)
  have e : |Real.logb 10 T - Real.logb 10 T'| = Real.log (T' / T) / Real.log 10 := by
    rw [abs_sub_comm, Real.log_div hT'.ne' hT.ne', abs_of_nonneg]
    · unfold Real.logb; ring
    · exact sub_nonneg.2 (Real.logb_le_logb_of_le (by norm_num) hT h)
  rw [e, Real.rpow_def_of_pos (by norm_num)]
  apply Real.exp_le_exp.2
  have l1 : 1 - T / T' ≤ Real.log (T' / T) := by
    have := Real.one_sub_inv_le_log_of_pos (show 0 < T' / T by positivity)
    rwa [inv_div] at this
  have l0 : 0 ≤ Real.log (T' / T) := Real.log_nonneg (by rw [le_div_iff₀ hT]; linarith)
  calc u / T - u / T' = u / T * (1 - T / T') := by field_simp
    _ ≤ u / T * Real.log (T' / T) := mul_le_mul_of_nonneg_left l1 (by positivity)
    _ ≤ X * Real.log (T' / T) := mul_le_mul_of_nonneg_right hX l0
    _ = _ := by field_simp

theorem square_change {T T' : ℝ} (hT : 0 < T) (h : T ≤ T') : (T' / T) ^ 2 = 10 ^ (2 * |Real.logb 10 T - Real.logb 10 T'|) := by
  have hT' : 0 < T' := hT.trans_le h
  rw [abs_sub_comm, abs_of_nonneg (sub_nonneg.2 (Real.logb_le_logb_of_le (by norm_num) hT h)), ← Real.logb_div hT'.ne' hT.ne', mul_comm,
    Real.rpow_mul (by norm_num), Real.rpow_logb (by norm_num) (by norm_num) (by positivity)]
  norm_cast

variable {d : FermiDirac ℝ}

theorem fermiLaw_change (hpc : PosPC d.pc) (hd : 0 < d.NSPECIES) {T T' ν X : ℝ} (hT : 0 < T) (hT' : 0 < T') (hν : 0 < ν)
    (hX : d.pc.h * ν / (d.pc.kb * T) ≤ X) (hX' : d.pc.h * ν / (d.pc.kb * T') ≤ X) :
    fermiDiracLaw d.NSPECIES d.pc.h d.pc.kb d.pc.c T ν ≤
      10 ^ (X * |Real.logb 10 T - Real.logb 10 T'|) * fermiDiracLaw d.NSPECIES d.pc.h d.pc.kb d.pc.c T' ν := by
  have h1 := hpc.h; have h2 := hpc.kb; have h3 := hpc.c
  have hg : (0 : ℝ) < d.NSPECIES := by exact_mod_cast hd
  have ea : ∀ T, d.pc.h * ν / (d.pc.kb * T) = d.pc.h * ν / d.pc.kb / T := fun T => by rw [div_div]
  have X0 : 0 ≤ X := le_trans (by positivity) hX
  rw [ea] at hX hX'
  unfold fermiDiracLaw
  rw [ea, ea]
  have hu : 0 ≤ d.pc.h * ν / d.pc.kb := by positivity
  generalize d.pc.h * ν / d.pc.kb = u at *
  have hC : 0 ≤ (d.NSPECIES : ℝ) * (2 * d.pc.h * ν ^ 3 / d.pc.c ^ 2) := by positivity
  generalize (d.NSPECIES : ℝ) * (2 * d.pc.h * ν ^ 3 / d.pc.c ^ 2) = C at *
  rw [mul_div_assoc', div_le_div_iff₀ (by positivity) (by positivity)]
  have key : Real.exp (u / T') + 1 ≤ 10 ^ (X * |Real.logb 10 T - Real.logb 10 T'|) * (Real.exp (u / T) + 1) := by
    have ge1 : (1 : ℝ) ≤ 10 ^ (X * |Real.logb 10 T - Real.logb 10 T'|) := Real.one_le_rpow (by norm_num) (by positivity)
    rcases le_total T T' with h | h
    · have : Real.exp (u / T') ≤ Real.exp (u / T) := Real.exp_le_exp.2 (div_le_div_of_nonneg_left hu hT h)
      have := Real.exp_pos (u / T)
      nlinarith
    · have := argument_change hT' h hX' hu
      rw [abs_sub_comm (Real.logb 10 T')] at this
      have h4 : Real.exp (u / T') = Real.exp (u / T' - u / T) * Real.exp (u / T) := by rw [← Real.exp_add]; ring_nf
      have := mul_le_mul_of_nonneg_right this (Real.exp_pos (u / T)).le
      nlinarith
  calc C * (Real.exp (u / T') + 1) ≤ C * (10 ^ (X * |Real.logb 10 T - Real.logb 10 T'|) * (Real.exp (u / T) + 1)) :=
        mul_le_mul_of_nonneg_left key hC
    _ = _ := by ring

theorem bell_change {x y : ℝ} (h : x ≤ y) :
    Real.exp (-y) / (1 + Real.exp (-y)) ^ 2 ≤ Real.exp (-x) / (1 + Real.exp (-x)) ^ 2 ∨ x < 0 := by
  by_cases hx : x < 0
  · exact .inr hx
  · left
    rw [div_le_div_iff₀ (by positivity) (by positivity)]
    have a1 : Real.exp (-y) ≤ Real.exp (-x) := Real.exp_le_exp.2 (by linarith)
    have a2 : Real.exp (-x) ≤ 1 := Real.exp_le_one_iff.2 (by linarith)
    have a3 := Real.exp_pos (-y)
    generalize Real.exp (-x) = p at *
    generalize Real.exp (-y) = q at *
    nlinarith [mul_nonneg (sub_nonneg.2 a1) (show 0 ≤ 1 - p * q by nlinarith)]

theorem fermiDT_change (hpc : PosPC d.pc) (hd : 0 < d.NSPECIES) {T T' ν X : ℝ} (hT : 0 < T) (hT' : 0 < T') (hν : 0 < ν)
    (hX : d.pc.h * ν / (d.pc.kb * T) ≤ X) (hX' : d.pc.h * ν / (d.pc.kb * T') ≤ X) :
    d.DThermalDistributionOfTNuDT T ν ≤ 10 ^ (max 2 X * |Real.logb 10 T - Real.logb 10 T'|) * d.DThermalDistributionOfTNuDT T' ν := by
  have h1 := hpc.h; have h2 := hpc.kb; have h3 := hpc.c
  have hg : (0 : ℝ) < d.NSPECIES := by exact_mod_cast hd
  have ea : ∀ T, d.pc.h * ν / (d.pc.kb * T) = d.pc.h * ν / d.pc.kb / T := fun T => by rw [div_div]
  have X0 : 0 ≤ X := le_trans (by positivity) hX
  rw [ea] at hX hX'
  have form : ∀ T : ℝ, 0 < T → d.DThermalDistributionOfTNuDT T ν = (d.NSPECIES : ℝ) * (2 * d.pc.h ^ 2 * ν ^ 4 / (d.pc.c ^ 2 * d.pc.kb)) *
      ((T ^ 2)⁻¹ * (Real.exp (-(d.pc.h * ν / d.pc.kb / T)) / (1 + Real.exp (-(d.pc.h * ν / d.pc.kb / T))) ^ 2)) := by
    intro T hT
    simp only [FermiDirac.DThermalDistributionOfTNuDT, areal]
    rw [ea]
    push_cast
    field_simp
  rw [form T hT, form T' hT']
  have hu : 0 ≤ d.pc.h * ν / d.pc.kb := by positivity
  generalize d.pc.h * ν / d.pc.kb = u at *
  have hC : 0 ≤ (d.NSPECIES : ℝ) * (2 * d.pc.h ^ 2 * ν ^ 4 / (d.pc.c ^ 2 * d.pc.kb)) := by positivity
  generalize (d.NSPECIES : ℝ) * (2 * d.pc.h ^ 2 * ν ^ 4 / (d.pc.c ^ 2 * d.pc.kb)) = C at *
  rw [mul_left_comm ((10 : ℝ) ^ _)]
  refine mul_le_mul_of_nonneg_left ?_ hC
  have up : ∀ {m : ℝ}, m ≤ max 2 X → (10 : ℝ) ^ (m * |Real.logb 10 T - Real.logb 10 T'|) ≤
      10 ^ (max 2 X * |Real.logb 10 T - Real.logb 10 T'|) := fun h =>
    Real.rpow_le_rpow_of_exponent_le (by norm_num) (mul_le_mul_of_nonneg_right h (abs_nonneg _))
  have g0 : ∀ x : ℝ, 0 < Real.exp (-x) / (1 + Real.exp (-x)) ^ 2 := fun x => by positivity
  rcases le_total T T' with h | h
  · have b1 := (bell_change (div_le_div_of_nonneg_left hu hT h)).resolve_right (by have : 0 ≤ u / T' := by positivity
                                                                                   linarith)
    have b2 := up (le_max_left 2 X)
    rw [← square_change hT h] at b2
    generalize (10 : ℝ) ^ (max 2 X * |Real.logb 10 T - Real.logb 10 T'|) = W at *
    calc _ ≤ (T ^ 2)⁻¹ * (Real.exp (-(u / T')) / (1 + Real.exp (-(u / T'))) ^ 2) := mul_le_mul_of_nonneg_left b1 (by positivity)
      _ = (T' / T) ^ 2 * ((T' ^ 2)⁻¹ * (Real.exp (-(u / T')) / (1 + Real.exp (-(u / T'))) ^ 2)) := by field_simp
      _ ≤ _ := mul_le_mul_of_nonneg_right b2 (mul_nonneg (by positivity) (g0 _).le)
  · have b1 := argument_change hT' h hX' hu
    rw [abs_sub_comm (Real.logb 10 T')] at b1
    have b2 := b1.trans (up (le_max_right 2 X))
    have b3 : Real.exp (-(u / T')) ≤ Real.exp (-(u / T)) := Real.exp_le_exp.2 (neg_le_neg (div_le_div_of_nonneg_left hu hT' h))
    have e : Real.exp (-(u / T)) = Real.exp (u / T' - u / T) * Real.exp (-(u / T')) := by rw [← Real.exp_add]; ring_nf
    have b4 : Real.exp (-(u / T)) / (1 + Real.exp (-(u / T))) ^ 2 ≤
        10 ^ (max 2 X * |Real.logb 10 T - Real.logb 10 T'|) * (Real.exp (-(u / T')) / (1 + Real.exp (-(u / T'))) ^ 2) := by
      generalize (10 : ℝ) ^ (max 2 X * |Real.logb 10 T - Real.logb 10 T'|) = W at *
      rw [mul_div_assoc', div_le_div_iff₀ (by positivity) (by positivity)]
      refine mul_le_mul ?_ ?_ (by positivity) ?_
      · rw [e]; exact mul_le_mul_of_nonneg_right b2 (Real.exp_pos _).le
      · exact pow_le_pow_left₀ (by positivity) (by linarith) 2
      · have := Real.exp_pos (u / T' - u / T)
        have : 0 ≤ W := by linarith
        positivity
    have b5 : (T ^ 2)⁻¹ ≤ (T' ^ 2)⁻¹ := inv_anti₀ (by positivity) (pow_le_pow_left₀ hT'.le h 2)
    calc _ ≤ (T' ^ 2)⁻¹ * (10 ^ (max 2 X * |Real.logb 10 T - Real.logb 10 T'|) * (Real.exp (-(u / T')) / (1 + Real.exp (-(u / T'))) ^ 2)) :=
          mul_le_mul b5 b4 (g0 _).le (by positivity)
      _ = _ := by ring

/-! ## The theorems -/

theorem within_pos {r : MeanRanges} {ρ T Ye : ℝ} (h : Within r ρ T Ye) : 0 < ρ ∧ 0 < T :=
  ⟨lt_of_lt_of_le (by positivity) h.rho.1, lt_of_lt_of_le (by positivity) h.T.1⟩

theorem argument_le (hpc : PosPC d.pc) {r : MeanRanges} {ρ T Ye ν a b : ℝ} (h : Within r ρ T Ye) (ha : 0 < a) (hν : ν ∈ Set.Icc a b) :
    d.pc.h * ν / (d.pc.kb * T) ≤ d.pc.h * b / (d.pc.kb * 10 ^ r.lTMin) := by
  have h1 := hpc.h; have h2 := hpc.kb
  have := ha.trans_le hν.1
  exact div_le_div₀ (mul_nonneg h1.le (this.le.trans hν.2)) (mul_le_mul_of_nonneg_left hν.2 h1.le) (by positivity) (mul_le_mul_of_nonneg_left h.T.1 h2.le)

/-- **C88 (rate of the Planck mean)** -/
theorem C88_planck_rate (hpc : PosPC d.pc) (hd : 0 < d.NSPECIES) {r : MeanRanges} {a b : ℝ} (ha : 0 < a) (hab : a < b)
    {α : ℝ → ℝ → ℝ → ℝ → ℝ} {σ τ η : ℝ} (h : CoefficientChangesAtMost σ τ η r a b α) :
    MeanChangesAtMost σ (τ + 2 * (d.pc.h * b / (d.pc.kb * 10 ^ r.lTMin))) η r (windowPlanck d a b α) := by
  intro ρ T Ye ρ' T' Ye' hw hw'
  obtain ⟨r0, t0⟩ := within_pos hw
  obtain ⟨r0', t0'⟩ := within_pos hw'
  have sub : Set.Icc a b ⊆ Set.Ioi 0 := fun x hx => lt_of_lt_of_le ha hx.1
  have ef : ∀ T, d.ThermalDistributionOfTNu T = fermiDiracLaw d.NSPECIES d.pc.h d.pc.kb d.pc.c T := fun T => funext fun ν => fermi_eq d T ν
  have cB : ∀ T, ContinuousOn (fermiDiracLaw d.NSPECIES d.pc.h d.pc.kb d.pc.c T) (Set.Icc a b) := fun T => by
    rw [← ef]; exact (fermi_continuous hpc T).1.mono sub
  have pB : ∀ T, ∀ ν ∈ Set.Icc a b, 0 < fermiDiracLaw d.NSPECIES d.pc.h d.pc.kb d.pc.c T ν := fun T ν hν => by
    have h1 := hpc.h; have h3 := hpc.c
    have hg : (0 : ℝ) < d.NSPECIES := by exact_mod_cast hd
    have := sub hν
    simp only [Set.mem_Ioi] at this
    unfold fermiDiracLaw
    positivity
  have pf : ∀ {ρ T Ye}, Within r ρ T Ye → ∀ ν ∈ Set.Icc a b, 0 < α ρ T Ye ν / ρ := fun hw ν hν =>
    div_pos (h.pos _ _ _ hw ν hν) (within_pos hw).1
  have cf : ∀ {ρ T Ye}, Within r ρ T Ye → ContinuousOn (fun ν => α ρ T Ye ν / ρ) (Set.Icc a b) := fun hw => (h.continuous _ _ _ hw).div_const _
  constructor
  · unfold windowPlanck windowPlanckMean
    exact div_nonneg (integral_positive hab ((cf hw).mul (cB T)) fun ν hν => mul_pos (pf hw ν hν) (pB T ν hν)).le
      (integral_positive hab (cB T) (pB T)).le
  · have := planck_ratio hab (cf hw) (cf hw') (cB T) (cB T') (by positivity)
      (Real.rpow_nonneg (by norm_num) ((d.pc.h * b / (d.pc.kb * 10 ^ r.lTMin)) * |Real.logb 10 T - Real.logb 10 T'|)) (pf hw') (pB T) (pB T')
      (h.rate ρ T Ye ρ' T' Ye' hw hw')
      (fun ν hν => fermiLaw_change hpc hd t0 t0' (sub hν) (argument_le hpc hw ha hν) (argument_le hpc hw' ha hν))
      (fun ν hν => by
        rw [abs_sub_comm]
        exact fermiLaw_change hpc hd t0' t0 (sub hν) (argument_le hpc hw' ha hν) (argument_le hpc hw ha hν))
    refine this.trans_eq ?_
    rw [← Real.rpow_natCast, ← Real.rpow_mul (by norm_num), ← Real.rpow_add (by norm_num)]
    unfold windowPlanck windowPlanckMean
    congr 2
    push_cast
    ring

/-- **C88 (rate of the Rosseland mean)** -/
theorem C88_rosseland_rate (hpc : PosPC d.pc) (hd : 0 < d.NSPECIES) {r : MeanRanges} {a b : ℝ} (ha : 0 < a) (hab : a < b)
    {α : ℝ → ℝ → ℝ → ℝ → ℝ} {σ τ η : ℝ} (h : CoefficientChangesAtMost σ τ η r a b α) :
    MeanChangesAtMost σ (τ + 2 * max 2 (d.pc.h * b / (d.pc.kb * 10 ^ r.lTMin))) η r (windowRosseland d a b α) := by
  intro ρ T Ye ρ' T' Ye' hw hw'
  obtain ⟨r0, t0⟩ := within_pos hw
  obtain ⟨r0', t0'⟩ := within_pos hw'
  have sub : Set.Icc a b ⊆ Set.Ioi 0 := fun x hx => lt_of_lt_of_le ha hx.1
  have cB : ∀ T, ContinuousOn (d.DThermalDistributionOfTNuDT T) (Set.Icc a b) := fun T => (fermi_continuous hpc T).2.mono sub
  have pB : ∀ T, 0 < T → ∀ ν ∈ Set.Icc a b, 0 < d.DThermalDistributionOfTNuDT T ν := fun T hT ν hν => by
    have h1 := hpc.h; have h2 := hpc.kb; have h3 := hpc.c
    have hg : (0 : ℝ) < d.NSPECIES := by exact_mod_cast hd
    have := sub hν
    simp only [Set.mem_Ioi] at this
    simp only [FermiDirac.DThermalDistributionOfTNuDT, areal]
    push_cast
    positivity
  have pf : ∀ {ρ T Ye}, Within r ρ T Ye → ∀ ν ∈ Set.Icc a b, 0 < ρ / α ρ T Ye ν := fun hw ν hν =>
    div_pos (within_pos hw).1 (h.pos _ _ _ hw ν hν)
  have cf : ∀ {ρ T Ye}, Within r ρ T Ye → ContinuousOn (fun ν => ρ / α ρ T Ye ν) (Set.Icc a b) := fun hw =>
    continuousOn_const.div (h.continuous _ _ _ hw) fun ν hν => (h.pos _ _ _ hw ν hν).ne'
  unfold windowRosseland windowRosselandMean
  rw [← fermiDT_deriv hpc t0, ← fermiDT_deriv hpc t0']
  constructor
  · exact div_nonneg (integral_positive hab (cB T) (pB T t0)).le
      (integral_positive hab ((cf hw).mul (cB T)) fun ν hν => mul_pos (pf hw ν hν) (pB T t0 ν hν)).le
  · have := rosseland_ratio (c := 10 ^ (σ * |Real.logb 10 ρ - Real.logb 10 ρ'| + τ * |Real.logb 10 T - Real.logb 10 T'| + η * |Ye - Ye'|)) hab (cf hw) (cf hw') (cB T) (cB T') (by positivity)
      (Real.rpow_nonneg (by norm_num) ((max 2 (d.pc.h * b / (d.pc.kb * 10 ^ r.lTMin))) * |Real.logb 10 T - Real.logb 10 T'|)) (pf hw) (pf hw')
      (pB T t0) (pB T' t0')
      (fun ν hν => by
        have q := h.rate ρ T Ye ρ' T' Ye' hw hw' ν hν
        have q1 := h.pos _ _ _ hw ν hν
        have q2 := h.pos _ _ _ hw' ν hν
        generalize (10 : ℝ) ^ (σ * |Real.logb 10 ρ - Real.logb 10 ρ'| + τ * |Real.logb 10 T - Real.logb 10 T'| + η * |Ye - Ye'|) = W at *
        rw [mul_div_assoc', div_le_div_iff₀ r0 r0'] at q
        rw [mul_div_assoc', div_le_div_iff₀ q2 q1]
        linarith)
      (fun ν hν => fermiDT_change hpc hd t0 t0' (sub hν) (argument_le hpc hw ha hν) (argument_le hpc hw' ha hν))
      (fun ν hν => by
        rw [abs_sub_comm]
        exact fermiDT_change hpc hd t0' t0 (sub hν) (argument_le hpc hw' ha hν) (argument_le hpc hw ha hν))
    refine this.trans_eq ?_
    rw [← Real.rpow_natCast, ← Real.rpow_mul (by norm_num), ← Real.rpow_add (by norm_num)]
    congr 2
    push_cast
    ring

/-! ## An example: absorption that grows with the temperature squared and with the frequency -/

theorem coefficient_example (r : MeanRanges) {a b : ℝ} (ha : 0 < a) :
    CoefficientChangesAtMost 0 2 0 r a b fun ρ T _ ν => ρ * T ^ 2 * ν := by
  refine ⟨fun _ _ _ _ => by fun_prop, fun ρ T Ye hw ν hν => ?_, fun ρ T Ye ρ' T' Ye' hw hw' ν hν => ?_⟩
  · obtain ⟨r0, t0⟩ := within_pos hw
    have := ha.trans_le hν.1
    positivity
  · obtain ⟨r0, t0⟩ := within_pos hw
    obtain ⟨r0', t0'⟩ := within_pos hw'
    have hν0 := ha.trans_le hν.1
    simp only [zero_mul, zero_add, add_zero]
    rw [mul_assoc, mul_assoc, mul_div_cancel_left₀ _ r0.ne', mul_div_cancel_left₀ _ r0'.ne', ← mul_assoc]
    refine mul_le_mul_of_nonneg_right ?_ hν0.le
    rcases le_total T' T with h | h
    · rw [abs_sub_comm, ← square_change t0' h]
      exact le_of_eq (by field_simp)
    · have : (1 : ℝ) ≤ 10 ^ (2 * |Real.logb 10 T - Real.logb 10 T'|) := Real.one_le_rpow (by norm_num) (by positivity)
      have h2 : T ^ 2 ≤ T' ^ 2 := pow_le_pow_left₀ t0.le h 2
      nlinarith [sq_nonneg T']

/-- both rates, for that source on the first decade of frequencies and temperatures, in units where `h = k = 1`: the powers of the
temperature are at most 22 -/
example (d : FermiDirac ℝ) (h1 : d.pc.h = 1) (h2 : d.pc.kb = 1) (hd : 0 < d.NSPECIES) (hpc : PosPC d.pc) :
    MeanChangesAtMost 0 22 0 twoNodes (windowPlanck d 1 10 fun ρ T _ ν => ρ * T ^ 2 * ν) ∧
    MeanChangesAtMost 0 22 0 twoNodes (windowRosseland d 1 10 fun ρ T _ ν => ρ * T ^ 2 * ν) := by
  have q1 := C88_planck_rate hpc hd one_pos (show (1 : ℝ) < 10 by norm_num) (coefficient_example twoNodes one_pos)
  have q2 := C88_rosseland_rate hpc hd one_pos (show (1 : ℝ) < 10 by norm_num) (coefficient_example twoNodes one_pos)
  rw [h1, h2] at q1 q2
  norm_num [twoNodes] at q1 q2
  exact ⟨q1, q2⟩

end Opac.Tables
