import Verif.Props.GroupSumRosseland

/-!
# C92: how fast the opacities of the library change, and what their group means inherit from it

At `XR`.  C88 and C91 bound errors of means for sources whose rates of change are bounded.  Here the rates of the sources
themselves, so that the bounds hold for their means without a condition on the source.
-/

namespace Opac.Photons
open Arith Outcome Spec Spiner MeasureTheory Slopes

section

/-- the factor of stimulated emission changes at most like the frequency over the temperature -/
theorem stim_step {x y : ℝ} (hx : 0 < x) (hy : 0 < y) :
    1 - Real.exp (-x) ≤ Real.exp |Real.log x - Real.log y| * (1 - Real.exp (-y)) := by
  have w : ∀ {t : ℝ}, 0 < t → 0 < 1 - Real.exp (-t) := fun ht => by
    have := Real.exp_lt_one_iff.2 (show -_ < 0 by linarith)
    linarith
  rcases le_total x y with h | h
  · have h1 : Real.exp (-y) ≤ Real.exp (-x) := Real.exp_le_exp.2 (by linarith)
    have h2 : 1 ≤ Real.exp |Real.log x - Real.log y| := Real.one_le_exp (abs_nonneg _)
    have := w hy
    nlinarith
  · have h1 := phi2 hy h
    have h2 : Real.exp |Real.log x - Real.log y| = x / y := by
      rw [abs_of_nonneg (sub_nonneg.2 (Real.log_le_log hy h)), ← Real.log_div hx.ne' hy.ne', Real.exp_log (by positivity)]
    rw [h2, div_mul_eq_mul_div, le_div_iff₀ hy]
    linarith

/-- the exponential changes at most like the power `X` of an argument up to `X` -/
theorem exp_arg_step {x y X : ℝ} (hx : 0 < x) (hy : 0 < y) (hX : y ≤ X) : Real.exp y ≤ Real.exp (X * |Real.log x - Real.log y|) * Real.exp x := by
  rw [← Real.exp_add]
  refine Real.exp_le_exp.2 ?_
  have X0 : 0 ≤ X := by linarith
  rcases le_total x y with h | h
  · have h1 := log_step hx h
    have h2 : 0 ≤ Real.log y - Real.log x := sub_nonneg.2 (Real.log_le_log hx h)
    rw [abs_sub_comm, abs_of_nonneg h2]
    nlinarith
  · have := mul_nonneg X0 (abs_nonneg (Real.log x - Real.log y))
    linarith

/-- a power of a quantity with an offset changes at most like that power of the quantity -/
theorem offset_step {a b o r e : ℝ} (ha : 0 < a) (hb : 0 < b) (ho : 0 ≤ o) (hr : 0 < r) :
    ((a + o) / r) ^ e ≤ Real.exp (|e| * |Real.log a - Real.log b|) * ((b + o) / r) ^ e := by
  have hu : 0 < (a + o) / r := by positivity
  have hv : 0 < (b + o) / r := by positivity
  have key : ∀ {a b : ℝ}, 0 < b → b ≤ a → Real.log ((a + o) / r) - Real.log ((b + o) / r) ≤ |Real.log a - Real.log b| ∧
      0 ≤ Real.log ((a + o) / r) - Real.log ((b + o) / r) := by
    intro a b hb hab
    have ha : 0 < a := by linarith
    have hu : 0 < (a + o) / r := by positivity
    have hv : 0 < (b + o) / r := by positivity
    constructor
    · refine le_trans ?_ (le_abs_self _)
      rw [← Real.log_div hu.ne' hv.ne', ← Real.log_div ha.ne' hb.ne', div_div_div_cancel_right₀ hr.ne']
      refine Real.log_le_log (by positivity) ?_
      rw [div_le_div_iff₀ (by positivity) hb]
      nlinarith
    · exact sub_nonneg.2 (Real.log_le_log hv (div_le_div_of_nonneg_right (by linarith) hr.le))
  have h1 : |Real.log ((a + o) / r) - Real.log ((b + o) / r)| ≤ |Real.log a - Real.log b| := by
    rcases le_total b a with h | h
    · obtain ⟨k1, k2⟩ := key hb h
      rw [abs_of_nonneg k2]; exact k1
    · obtain ⟨k1, k2⟩ := key ha h
      rw [abs_sub_comm, abs_of_nonneg k2, abs_sub_comm]; exact k1
  rw [Real.rpow_def_of_pos hu, Real.rpow_def_of_pos hv, ← Real.exp_add]
  refine Real.exp_le_exp.2 ?_
  have h2 := le_abs_self (e * (Real.log ((a + o) / r) - Real.log ((b + o) / r)))
  rw [abs_mul] at h2
  have h3 := mul_le_mul_of_nonneg_left h1 (abs_nonneg e)
  nlinarith

/-- Planck's law times `exp(hν/kT)` -/
theorem planck_exp {h k c T ν : ℝ} (hh : 0 < h) (hk : 0 < k) (hT : 0 < T) (hν : 0 < ν) :
    planckLaw h k c T ν * Real.exp (h * ν / (k * T)) = 2 * h * ν ^ 3 / c ^ 2 / (1 - Real.exp (-(h * ν / (k * T)))) := by
  have hx : 0 < h * ν / (k * T) := by positivity
  have h1 : 0 < Real.exp (h * ν / (k * T)) - 1 := by have := Real.add_one_lt_exp hx.ne'; linarith
  have h2 : 1 - Real.exp (-(h * ν / (k * T))) = (Real.exp (h * ν / (k * T)) - 1) / Real.exp (h * ν / (k * T)) := by
    rw [Real.exp_neg]
    have := Real.exp_pos (h * ν / (k * T))
    field_simp
  unfold planckLaw
  rw [h2]
  have := Real.exp_pos (h * ν / (k * T))
  field_simp

/-- **C92 (bremsstrahlung)**: the absorption coefficient of electron–proton bremsstrahlung is positive and continuous in the frequency.  Per mass it
changes at most like the density, and like the power `max(3/2, X)` of the temperature, where `X` bounds `hν/kT`; it changes at
most like the power `max(3, X)` of the frequency. -/
theorem C92_bremsstrahlung {pc : PC XR} {h k c me mp qe : ℝ} (hpc : FinitePC pc h k c) (h1 : pc.me = .fin me)
    (h2 : pc.mp = .fin mp) (h3 : pc.qe = .fin qe) (hme : 0 < me) (hmp : 0 < mp) (hqe : 0 < qe) :
    ∃ α : ℝ → ℝ → ℝ → ℝ,
      (∀ ρ T ν : ℝ, 0 < ρ → 0 < T → 0 < ν → PhotonAPI.AbsorptionCoefficient (EPBremsstrahlungOpacity.mk pc) (XR.fin ρ) (XR.fin T)
        (XR.fin ν) = XR.fin (α ρ T ν) ∧ 0 < α ρ T ν) ∧
      (∀ ρ T, 0 < ρ → 0 < T → ContinuousOn (α ρ T) (Set.Ioi 0)) ∧
      (∀ X ρ ρ' T T' ν : ℝ, 0 < ρ → 0 < ρ' → 0 < T → 0 < T' → 0 < ν → h * ν / (k * T) ≤ X → h * ν / (k * T') ≤ X →
        α ρ T ν / ρ ≤ Real.exp (|Real.log ρ - Real.log ρ'| + max (3 / 2) X * |Real.log T - Real.log T'|) * (α ρ' T' ν / ρ')) ∧
      ∀ X ρ T a b : ℝ, 0 < ρ → 0 < T → 0 < a → h * b / (k * T) ≤ X → SlopeAtMost (max 3 X) a b (α ρ T) := by
  obtain ⟨α, ⟨K, K0, eα⟩, a1, a2, a3, -⟩ := bremsstrahlung_law hpc h1 h2 h3 hme hmp hqe
  have hh := hpc.h_pos
  have hk := hpc.k_pos
  have hc := hpc.c_pos
  have hS := SMALL_pos
  -- the coefficient as a quotient
  obtain ⟨D, hD⟩ : ∃ D : ℝ → ℝ → ℝ, ∀ T ν, D T ν = 2 * h * ν ^ 3 / c ^ 2 / (1 - Real.exp (-(h * ν / (k * T)))) +
      Robust.SMALL * Real.exp (h * ν / (k * T)) := ⟨_, fun _ _ => rfl⟩
  have w : ∀ {t : ℝ}, 0 < t → 0 < 1 - Real.exp (-t) := fun ht => by
    have := Real.exp_lt_one_iff.2 (show -_ < 0 by linarith)
    linarith
  have D0 : ∀ {T ν}, 0 < T → 0 < ν → 0 < D T ν := fun {T ν} hT hν => by
    have := w (show 0 < h * ν / (k * T) by positivity)
    rw [hD]
    positivity
  have form : ∀ {ρ T ν}, 0 < T → 0 < ν → α ρ T ν = K * ρ ^ 2 / (Real.sqrt T * D T ν) := fun {ρ T ν} hT hν => by
    have e1 : D T ν = (planckLaw h k c T ν + Robust.SMALL) * Real.exp (h * ν / (k * T)) := by
      rw [hD, add_mul, planck_exp hh hk hT hν]
    have p1 : 0 < planckLaw h k c T ν + Robust.SMALL := by
      have := D0 hT hν
      rw [e1] at this
      exact (pos_iff_pos_of_mul_pos this).2 (Real.exp_pos _)
    rw [eα ρ T ν hT, e1, Real.exp_neg]
    have := Real.exp_pos (h * ν / (k * T))
    have := Real.sqrt_pos.2 hT
    field_simp
  refine ⟨α, fun ρ T ν hρ hT hν => ⟨a1 ρ T ν hρ hT hν, a2 ρ T ν hρ hT hν⟩, a3, ?_, ?_⟩
  · intro X ρ ρ' T T' ν hρ hρ' hT hT' hν hX hX'
    have sT := Real.sqrt_pos.2 hT
    have sT' := Real.sqrt_pos.2 hT'
    have d := D0 hT hν
    have d' := D0 hT' hν
    have hx : 0 < h * ν / (k * T) := by positivity
    have hx' : 0 < h * ν / (k * T') := by positivity
    have wx := w hx
    have wx' := w hx'
    have L : |Real.log (h * ν / (k * T)) - Real.log (h * ν / (k * T'))| = |Real.log T - Real.log T'| := by
      rw [Real.log_div (by positivity) (by positivity), Real.log_div (by positivity) (by positivity), Real.log_mul hk.ne' hT.ne',
        Real.log_mul hk.ne' hT'.ne', abs_sub_comm]
      congr 1
      ring
    have sq : ∀ {T : ℝ}, 0 < T → Real.sqrt T = Real.exp (1 / 2 * Real.log T) := fun {T} hT => by
      rw [Real.sqrt_eq_rpow, Real.rpow_def_of_pos hT, mul_comm]
    have main : Real.sqrt T' * D T' ν ≤ Real.exp (max (3 / 2) X * |Real.log T - Real.log T'|) * (Real.sqrt T * D T ν) := by
      have A0 := abs_nonneg (Real.log T - Real.log T')
      have m1 := mul_le_mul_of_nonneg_right (le_max_left (3 / 2) X) A0
      have m2 := mul_le_mul_of_nonneg_right (le_max_right (3 / 2) X) A0
      -- the two terms
      have u : Real.sqrt T' * (1 / (1 - Real.exp (-(h * ν / (k * T'))))) ≤
          Real.exp (max (3 / 2) X * |Real.log T - Real.log T'|) * (Real.sqrt T * (1 / (1 - Real.exp (-(h * ν / (k * T)))))) := by
        have s1 := stim_step hx hx'
        rw [L] at s1
        have s2 : Real.sqrt T' ≤ Real.exp (1 / 2 * |Real.log T - Real.log T'|) * Real.sqrt T := by
          rw [sq hT, sq hT', ← Real.exp_add]
          refine Real.exp_le_exp.2 ?_
          have := neg_abs_le (Real.log T - Real.log T')
          linarith
        have s3 : 1 / (1 - Real.exp (-(h * ν / (k * T')))) ≤ Real.exp |Real.log T - Real.log T'| * (1 / (1 - Real.exp (-(h * ν / (k * T))))) := by
          rw [mul_one_div, div_le_div_iff₀ wx' wx, one_mul]
          exact s1
        calc _ ≤ (Real.exp (1 / 2 * |Real.log T - Real.log T'|) * Real.sqrt T) *
              (Real.exp |Real.log T - Real.log T'| * (1 / (1 - Real.exp (-(h * ν / (k * T)))))) :=
              mul_le_mul s2 s3 (by positivity) (by positivity)
          _ = Real.exp (1 / 2 * |Real.log T - Real.log T'| + |Real.log T - Real.log T'|) *
              (Real.sqrt T * (1 / (1 - Real.exp (-(h * ν / (k * T)))))) := by rw [Real.exp_add]; ring
          _ ≤ _ := mul_le_mul_of_nonneg_right (Real.exp_le_exp.2 (by linarith)) (by positivity)
      have v : Real.sqrt T' * Real.exp (h * ν / (k * T')) ≤
          Real.exp (max (3 / 2) X * |Real.log T - Real.log T'|) * (Real.sqrt T * Real.exp (h * ν / (k * T))) := by
        rw [sq hT, sq hT', ← Real.exp_add, ← Real.exp_add, ← Real.exp_add]
        refine Real.exp_le_exp.2 ?_
        rcases le_total T T' with le | le
        · have : h * ν / (k * T') ≤ h * ν / (k * T) := by gcongr
          have l := Real.log_le_log hT le
          rw [abs_of_nonpos (by linarith)] at m1 ⊢
          linarith
        · have l := Real.log_le_log hT' le
          have := exp_arg_step hx hx' hX'
          rw [L, ← Real.exp_add, Real.exp_le_exp] at this
          linarith
      rw [hD, hD]
      calc _ = 2 * h * ν ^ 3 / c ^ 2 * (Real.sqrt T' * (1 / (1 - Real.exp (-(h * ν / (k * T')))))) +
            Robust.SMALL * (Real.sqrt T' * Real.exp (h * ν / (k * T'))) := by ring
        _ ≤ 2 * h * ν ^ 3 / c ^ 2 * (Real.exp (max (3 / 2) X * |Real.log T - Real.log T'|) *
              (Real.sqrt T * (1 / (1 - Real.exp (-(h * ν / (k * T))))))) +
            Robust.SMALL * (Real.exp (max (3 / 2) X * |Real.log T - Real.log T'|) * (Real.sqrt T * Real.exp (h * ν / (k * T)))) :=
            add_le_add (mul_le_mul_of_nonneg_left u (by positivity)) (mul_le_mul_of_nonneg_left v hS.le)
        _ = _ := by ring
    have r : ρ ≤ Real.exp |Real.log ρ - Real.log ρ'| * ρ' := by
      rw [← div_le_iff₀ hρ', ← Real.exp_log (show 0 < ρ / ρ' by positivity), Real.log_div hρ.ne' hρ'.ne']
      exact Real.exp_le_exp.2 (le_abs_self _)
    rw [form hT hν, form hT' hν, Real.exp_add]
    have Q0 : 0 < Real.sqrt T * D T ν := by positivity
    have Q0' : 0 < Real.sqrt T' * D T' ν := by positivity
    generalize Real.sqrt T * D T ν = Q at *
    generalize Real.sqrt T' * D T' ν = Q' at *
    generalize Real.exp |Real.log ρ - Real.log ρ'| = e at *
    generalize Real.exp (max (3 / 2) X * |Real.log T - Real.log T'|) = t at *
    rw [show K * ρ ^ 2 / Q / ρ = K * ρ / Q by field_simp, show e * t * (K * ρ' ^ 2 / Q' / ρ') = e * t * (K * ρ') / Q' by field_simp,
      div_le_div_iff₀ Q0 Q0']
    calc K * ρ * Q' = K * (ρ * Q') := by ring
      _ ≤ K * ((e * ρ') * (t * Q)) := mul_le_mul_of_nonneg_left (mul_le_mul r main Q0'.le (by linarith)) K0.le
      _ = _ := by ring
  · intro X ρ T a b hρ hT ha hX x hx y hy
    have x0 : 0 < x := lt_of_lt_of_le ha hx.1
    have y0 : 0 < y := lt_of_lt_of_le ha hy.1
    have qx : 0 < h * x / (k * T) := by positivity
    have qy : 0 < h * y / (k * T) := by positivity
    have yX : h * y / (k * T) ≤ X := le_trans (by have := hy.2; gcongr) hX
    have L : |Real.log (h * x / (k * T)) - Real.log (h * y / (k * T))| = |Real.log x - Real.log y| := by
      rw [Real.log_div (by positivity) (by positivity), Real.log_div (by positivity) (by positivity), Real.log_mul hh.ne' x0.ne',
        Real.log_mul hh.ne' y0.ne']
      congr 1
      ring
    have A0 := abs_nonneg (Real.log x - Real.log y)
    have m1 := mul_le_mul_of_nonneg_right (le_max_left 3 X) A0
    have m2 := mul_le_mul_of_nonneg_right (le_max_right 3 X) A0
    have wx := w qx
    have wy := w qy
    have u : y ^ 3 / (1 - Real.exp (-(h * y / (k * T)))) ≤
        Real.exp (max 3 X * |Real.log x - Real.log y|) * (x ^ 3 / (1 - Real.exp (-(h * x / (k * T))))) := by
      rcases le_total x y with le | le
      · have e1 : (y / x) ^ 3 ≤ Real.exp (max 3 X * |Real.log x - Real.log y|) := by
          rw [abs_sub_comm, abs_of_nonneg (sub_nonneg.2 (Real.log_le_log x0 le))]
          exact pow_step 3 x0 le (by push_cast; exact le_max_left _ _)
        have e2 : 1 - Real.exp (-(h * x / (k * T))) ≤ 1 - Real.exp (-(h * y / (k * T))) := by
          have : h * x / (k * T) ≤ h * y / (k * T) := by gcongr
          have := Real.exp_le_exp.2 (show -(h * y / (k * T)) ≤ -(h * x / (k * T)) by linarith)
          linarith
        calc y ^ 3 / (1 - Real.exp (-(h * y / (k * T)))) ≤ y ^ 3 / (1 - Real.exp (-(h * x / (k * T)))) :=
              div_le_div_of_nonneg_left (by positivity) wx e2
          _ = (y / x) ^ 3 * (x ^ 3 / (1 - Real.exp (-(h * x / (k * T))))) := by field_simp
          _ ≤ _ := mul_le_mul_of_nonneg_right e1 (by positivity)
      · have e1 := phi2 qy (show h * y / (k * T) ≤ h * x / (k * T) by gcongr)
        have e2 : y * (1 - Real.exp (-(h * x / (k * T)))) ≤ x * (1 - Real.exp (-(h * y / (k * T)))) := by
          have e3 : 0 < h / (k * T) := by positivity
          rw [show h * y / (k * T) * (1 - Real.exp (-(h * x / (k * T)))) = h / (k * T) * (y * (1 - Real.exp (-(h * x / (k * T))))) by ring,
            show h * x / (k * T) * (1 - Real.exp (-(h * y / (k * T)))) = h / (k * T) * (x * (1 - Real.exp (-(h * y / (k * T))))) by ring] at e1
          exact le_of_mul_le_mul_left e1 e3
        have e4 : 1 ≤ Real.exp (max 3 X * |Real.log x - Real.log y|) := Real.one_le_exp (by nlinarith)
        refine le_trans ?_ (le_mul_of_one_le_left (by positivity) e4)
        rw [div_le_div_iff₀ wy wx]
        calc y ^ 3 * (1 - Real.exp (-(h * x / (k * T)))) = y ^ 2 * (y * (1 - Real.exp (-(h * x / (k * T))))) := by ring
          _ ≤ x ^ 2 * (x * (1 - Real.exp (-(h * y / (k * T))))) := mul_le_mul (by gcongr) e2 (by positivity) (by positivity)
          _ = _ := by ring
    have v : Real.exp (h * y / (k * T)) ≤ Real.exp (max 3 X * |Real.log x - Real.log y|) * Real.exp (h * x / (k * T)) := by
      have := exp_arg_step qx qy yX
      rw [L] at this
      exact this.trans (mul_le_mul_of_nonneg_right (Real.exp_le_exp.2 m2) (Real.exp_pos _).le)
    have main : D T y ≤ Real.exp (max 3 X * |Real.log x - Real.log y|) * D T x := by
      rw [hD, hD]
      calc _ = 2 * h / c ^ 2 * (y ^ 3 / (1 - Real.exp (-(h * y / (k * T))))) + Robust.SMALL * Real.exp (h * y / (k * T)) := by ring
        _ ≤ 2 * h / c ^ 2 * (Real.exp (max 3 X * |Real.log x - Real.log y|) * (x ^ 3 / (1 - Real.exp (-(h * x / (k * T)))))) +
            Robust.SMALL * (Real.exp (max 3 X * |Real.log x - Real.log y|) * Real.exp (h * x / (k * T))) :=
            add_le_add (mul_le_mul_of_nonneg_left u (by positivity)) (mul_le_mul_of_nonneg_left v hS.le)
        _ = _ := by ring
    have sT := Real.sqrt_pos.2 hT
    have dx := D0 hT x0
    have dy := D0 hT y0
    rw [form hT x0, form hT y0, mul_div_assoc', div_le_div_iff₀ (by positivity) (by positivity)]
    calc K * ρ ^ 2 * (Real.sqrt T * D T y) = K * ρ ^ 2 * Real.sqrt T * D T y := by ring
      _ ≤ K * ρ ^ 2 * Real.sqrt T * (Real.exp (max 3 X * |Real.log x - Real.log y|) * D T x) := mul_le_mul_of_nonneg_left main (by positivity)
      _ = _ := by ring

/-- **C92 (power laws)**: an accepted power law with positive coefficient has a positive, continuous absorption coefficient.  Per mass it changes at most
like the powers of density and temperature it was given, and at most like its power of the frequency, whatever the offsets; stimulated
emission adds at most one power of the temperature and of the frequency. -/
theorem C92_powerLaw {pc : PC XR} {h k c : ℝ} (hpc : FinitePC pc h k c) {κ re te ne nr no rr ro tr tf : ℝ} {st : Bool} (hκ : 0 < κ)
    {p : PowerLawOpacity XR} (hp : PowerLawOpacity.construct pc (.fin κ) (.fin re) (.fin te) (.fin ne) (.fin nr) (.fin no) (.fin rr) (.fin ro)
      (.fin tr) (.fin tf) st = ok p) :
    ∃ α : ℝ → ℝ → ℝ → ℝ, ∃ s : ℝ, s = (if st then 1 else 0) ∧
      (∀ ρ T ν : ℝ, 0 < ρ → 0 < T → 0 < ν → PhotonAPI.AbsorptionCoefficient p (XR.fin ρ) (XR.fin T) (XR.fin ν) = XR.fin (α ρ T ν) ∧
        0 < α ρ T ν) ∧
      (∀ ρ T, 0 < ρ → 0 < T → ContinuousOn (α ρ T) (Set.Ioi 0)) ∧
      (∀ ρ ρ' T T' ν : ℝ, 0 < ρ → 0 < ρ' → 0 < T → 0 < T' → 0 < ν →
        α ρ T ν / ρ ≤ Real.exp (|re| * |Real.log ρ - Real.log ρ'| + (|te| + s) * |Real.log T - Real.log T'|) * (α ρ' T' ν / ρ')) ∧
      ∀ ρ T a b : ℝ, 0 < ρ → 0 < T → 0 < a → SlopeAtMost (|ne| + s) a b (α ρ T) := by
  have hh := hpc.h_pos
  have hk := hpc.k_pos
  have ok6 : (0 < rr ∧ 0 < tr ∧ 0 < nr ∧ 0 ≤ ro ∧ 0 ≤ tf ∧ 0 ≤ no) ∧ p = ⟨pc, .fin κ, .fin re, .fin te, .fin rr, .fin ro, .fin tr, .fin tf, .fin ne, .fin nr, .fin no, st⟩ := by
    unfold PowerLawOpacity.construct at hp
    simp only [Arith.gt, Bool.not_eq_true', ← Bool.not_eq_true, axr, Rat.cast_zero] at hp
    split_ifs at hp with q1 q2 q3 q4 q5 q6
    injection hp with hp
    refine ⟨?_, hp.symm⟩
    simp_all
  obtain ⟨⟨h1, h2, h3, h4, h5, h6⟩, e⟩ := ok6
  obtain ⟨w, hw⟩ : ∃ w : ℝ → ℝ → ℝ, ∀ T ν, w T ν = if st then 1 - Real.exp (-(h * ν / (k * T))) else 1 := ⟨_, fun _ _ => rfl⟩
  have w0 : ∀ {T ν : ℝ}, 0 < T → 0 < ν → 0 < w T ν := fun {T ν} hT hν => by
    rw [hw]
    split_ifs
    · have hx : 0 < h * ν / (k * T) := by positivity
      have := Real.exp_lt_one_iff.2 (show -(h * ν / (k * T)) < 0 by linarith)
      linarith
    · norm_num
  obtain ⟨s, hs⟩ : ∃ s : ℝ, s = (if st then 1 else 0) := ⟨_, rfl⟩
  have wT : ∀ {T T' ν : ℝ}, 0 < T → 0 < T' → 0 < ν → w T ν ≤ Real.exp (s * |Real.log T - Real.log T'|) * w T' ν := fun {T T' ν} hT hT' hν => by
    rw [hw, hw, hs]
    split_ifs
    · have := stim_step (x := h * ν / (k * T)) (y := h * ν / (k * T')) (by positivity) (by positivity)
      rw [Real.log_div (by positivity) (by positivity), Real.log_div (by positivity) (by positivity), Real.log_mul hk.ne' hT.ne',
        Real.log_mul hk.ne' hT'.ne', abs_sub_comm, show Real.log (h * ν) - (Real.log k + Real.log T') - (Real.log (h * ν) - (Real.log k + Real.log T)) =
          Real.log T - Real.log T' by ring] at this
      rw [one_mul]
      exact this
    · simp
  have wν : ∀ {T ν ν' : ℝ}, 0 < T → 0 < ν → 0 < ν' → w T ν ≤ Real.exp (s * |Real.log ν - Real.log ν'|) * w T ν' := fun {T ν ν'} hT hν hν' => by
    rw [hw, hw, hs]
    split_ifs
    · have := stim_step (x := h * ν / (k * T)) (y := h * ν' / (k * T)) (by positivity) (by positivity)
      rw [Real.log_div (by positivity) (by positivity), Real.log_div (by positivity) (by positivity), Real.log_mul hh.ne' hν.ne',
        Real.log_mul hh.ne' hν'.ne', show Real.log h + Real.log ν - Real.log (k * T) - (Real.log h + Real.log ν' - Real.log (k * T)) =
          Real.log ν - Real.log ν' by ring] at this
      rw [one_mul]
      exact this
    · simp
  refine ⟨fun ρ T ν => ρ * (κ * ((ρ + ro) / rr) ^ re * ((T + tf) / tr) ^ te * ((ν + no) / nr) ^ ne * w T ν), s, hs, ?_, ?_, ?_, ?_⟩
  · intro ρ T ν hρ hT hν
    have := w0 hT hν
    refine ⟨?_, by positivity⟩
    show PowerLawOpacity.AbsorptionCoefficient p _ _ _ = _
    unfold PowerLawOpacity.AbsorptionCoefficient PowerLawOpacity.OpacityScale_ PowerLawOpacity.OpacityPrefactor_
    have d : ∀ {x o r e : ℝ}, 0 < x → 0 ≤ o → 0 < r → (Arith.pow ((XR.fin x + XR.fin o) / XR.fin r) (XR.fin e) : XR) = .fin (((x + o) / r) ^ e) := by
      intro x o r e hx ho hr
      have : (XR.fin x + XR.fin o : XR) / XR.fin r = .fin ((x + o) / r) := by
        simp only [axr]
        rw [XR.fin_div hr.ne']
      rw [this, XR.fin_pow (by positivity)]
    have ex : (XR.fin h * XR.fin ν / (XR.fin k * XR.fin T) : XR) = .fin (h * ν / (k * T)) := by
      simp only [axr]
      rw [XR.fin_div (by positivity)]
    rw [e]
    beta_reduce
    rw [hw]
    simp only [d hρ h4 h1, d hT h5 h2, d hν h6 h3, hpc.h_eq, hpc.k_eq, ex]
    cases st <;> simp [axr]
  · intro ρ T hρ hT
    have cw : ContinuousOn (w T) (Set.Ioi 0) := by
      have : w T = fun ν => if st then 1 - Real.exp (-(h * ν / (k * T))) else 1 := funext (hw T)
      rw [this]
      cases st
      · simp only [Bool.false_eq_true, if_false]
        exact continuousOn_const
      · simp only [if_true]
        fun_prop
    have cp : ContinuousOn (fun ν : ℝ => ((ν + no) / nr) ^ ne) (Set.Ioi 0) :=
      ContinuousOn.rpow_const (by fun_prop) fun ν hν => Or.inl (by have : 0 < ν := hν; positivity)
    exact continuousOn_const.mul ((continuousOn_const.mul cp).mul cw)
  · intro ρ ρ' T T' ν hρ hρ' hT hT' hν
    have r1 := offset_step (e := re) hρ hρ' h4 h1
    have r2 := offset_step (e := te) hT hT' h5 h2
    have r3 := wT hT hT' hν
    have p3 := w0 hT hν
    have p3' := w0 hT' hν
    have p1 : 0 < ((ρ + ro) / rr) ^ re := by positivity
    have p1' : 0 < ((ρ' + ro) / rr) ^ re := by positivity
    have p2 : 0 < ((T + tf) / tr) ^ te := by positivity
    have p2' : 0 < ((T' + tf) / tr) ^ te := by positivity
    have p4 : 0 < ((ν + no) / nr) ^ ne := by positivity
    beta_reduce
    rw [mul_div_cancel_left₀ _ hρ.ne', mul_div_cancel_left₀ _ hρ'.ne', Real.exp_add, add_mul, Real.exp_add]
    calc κ * ((ρ + ro) / rr) ^ re * ((T + tf) / tr) ^ te * ((ν + no) / nr) ^ ne * w T ν =
          κ * ((ν + no) / nr) ^ ne * (((ρ + ro) / rr) ^ re * ((T + tf) / tr) ^ te * w T ν) := by ring
      _ ≤ κ * ((ν + no) / nr) ^ ne * ((Real.exp (|re| * |Real.log ρ - Real.log ρ'|) * ((ρ' + ro) / rr) ^ re) *
            (Real.exp (|te| * |Real.log T - Real.log T'|) * ((T' + tf) / tr) ^ te) * (Real.exp (s * |Real.log T - Real.log T'|) * w T' ν)) := by
          gcongr
      _ = _ := by ring
  · intro ρ T a b hρ hT ha x hx y hy
    have x0 : 0 < x := lt_of_lt_of_le ha hx.1
    have y0 : 0 < y := lt_of_lt_of_le ha hy.1
    have r1 := offset_step (e := ne) x0 y0 h6 h3
    have r2 := wν hT x0 y0
    have p1 := w0 hT x0
    beta_reduce
    rw [add_mul, Real.exp_add]
    calc ρ * (κ * ((ρ + ro) / rr) ^ re * ((T + tf) / tr) ^ te * ((x + no) / nr) ^ ne * w T x) =
          ρ * κ * ((ρ + ro) / rr) ^ re * ((T + tf) / tr) ^ te * (((x + no) / nr) ^ ne * w T x) := by ring
      _ ≤ ρ * κ * ((ρ + ro) / rr) ^ re * ((T + tf) / tr) ^ te * ((Real.exp (|ne| * |Real.log x - Real.log y|) * ((y + no) / nr) ^ ne) *
            (Real.exp (s * |Real.log x - Real.log y|) * w T y)) := by
          gcongr
      _ = _ := by ring

/-- **C92 (bremsstrahlung groups)**: the Planck group means of a table built from bremsstrahlung, weighted by the thermal intensities of their groups, add
up to the integral of opacity times intensity within a factor that is known from the constants, the bounds and the resolution alone. -/
theorem C92_bremsstrahlung_groups {pc : PC XR} {h k c me mp qe : ℝ} (hpc : FinitePC pc h k c) (h1 : pc.me = .fin me)
    (h2 : pc.mp = .fin mp) (h3 : pc.qe = .fin qe) (hme : 0 < me) (hmp : 0 < mp) (hqe : 0 < qe)
    {junk : ℕ → XR} {lRhoMin lRhoMax lTMin lTMax : ℝ} {NRho NT : ℤ} {b : List XR} {n N : ℕ} {o : MeanOpacityBase XR}
    (ho : MeanOpacityBase.construct pc junk (EPBremsstrahlungOpacity.mk pc) (.fin lRhoMin) (.fin lRhoMax) NRho (.fin lTMin) (.fin lTMax) NT b n N = ok o)
    (hNR : 2 ≤ NRho) (hNT : 2 ≤ NT) (hlR : lRhoMin < lRhoMax) (hlT : lTMin < lTMax) {ℓ : ℕ → ℝ} (hn : 0 < n)
    (hgr : ∀ g, g < n → GroupIs b g (ℓ g) (some (ℓ (g + 1)))) {a z : ℝ} (ha : a = ℓ 0 + Robust.SMALL) (hz : z = ℓ n + Robust.SMALL)
    (hclip : 1e-4 * k * 10 ^ lTMax / h ≤ ℓ 0 ∧ ℓ n ≤ 1e4 * k * 10 ^ lTMin / h) {ε E X : ℝ}
    (hε : ∀ g, g < n → ∀ T ∈ Set.Icc ((10 : ℝ) ^ lTMin) (10 ^ lTMax),
      Robust.SMALL * Real.log 10 ≤ ε * ∫ ν in ℓ g + Robust.SMALL..ℓ (g + 1) + Robust.SMALL, planckLaw h k c T ν)
    (hX : X = h * z / (k * 10 ^ lTMin))
    (hE : ∀ g, g < n → (max 4 X + max 3 X / 2) * (Real.log ((ℓ (g + 1) + Robust.SMALL) / (ℓ g + Robust.SMALL)) / N) + ε + 1e-14 ≤ E)
    {rho T : ℝ} (hin : Inside lRhoMin lRhoMax lTMin lTMax rho T) {F ρ' T' : ℝ}
    (hF : F = E + (1 * nodeDistance lRhoMin lRhoMax NRho + (max (3 / 2) X + 2 * (1 + X)) * nodeDistance lTMin lTMax NT) / 2)
    (hρ' : ρ' = |rho| + Robust.SMALL) (hT' : T' = |T| + Robust.SMALL) :
    ∃ (α : ℝ → ℝ) (κ : ℕ → ℝ), (∀ ν, 0 < ν → PhotonAPI.AbsorptionCoefficient (EPBremsstrahlungOpacity.mk pc) (XR.fin ρ') (XR.fin T') (XR.fin ν) = XR.fin (α ν)) ∧
      (∀ g, g < n → MeanPhotonAPI.PlanckGroupAbsorptionCoefficient o (XR.fin rho) (XR.fin T) g = ok (XR.fin (rho * κ g))) ∧
      Real.exp (-F) * (∫ ν in a..z, (α ν / ρ' + Robust.SMALL) * planckLaw h k c T' ν) ≤
        ∑ g ∈ Finset.range n, κ g * ∫ ν in ℓ g + Robust.SMALL..ℓ (g + 1) + Robust.SMALL, planckLaw h k c T' ν ∧
      ∑ g ∈ Finset.range n, κ g * (∫ ν in ℓ g + Robust.SMALL..ℓ (g + 1) + Robust.SMALL, planckLaw h k c T' ν) ≤
        Real.exp F * ∫ ν in a..z, (α ν / ρ' + Robust.SMALL) * planckLaw h k c T' ν := by
  have hh := hpc.h_pos
  have hk := hpc.k_pos
  have hS := SMALL_pos
  have R0 : (0 : ℝ) < 10 ^ lRhoMin := by positivity
  have T0 : (0 : ℝ) < 10 ^ lTMin := by positivity
  obtain ⟨α, a1, a2, a3, a4⟩ := C92_bremsstrahlung hpc h1 h2 h3 hme hmp hqe
  have l0 : 0 < ℓ 0 := lt_of_lt_of_le (by positivity) hclip.1
  have a0 : 0 < a := by linarith
  have big : ∀ {T ν}, T ∈ Set.Icc ((10 : ℝ) ^ lTMin) (10 ^ lTMax) → ν ∈ Set.Icc a z → h * ν / (k * T) ≤ X := fun {T ν} hT hν => by
    have q1 := hT.1
    have q2 := hν.2
    have q3 : 0 < z := by linarith [hν.1]
    rw [hX]
    gcongr
  have hm : MeansOf h k c α lRhoMin lRhoMax NRho lTMin lTMax NT b n N (MeanPhotonAPI.PlanckGroupAbsorptionCoefficient o)
      (MeanPhotonAPI.RosselandGroupAbsorptionCoefficient o) :=
    .absorption _ pc junk o hpc (fun ρ T ν p1 p2 p3 => (a1 ρ T ν p1 p2 p3).1) ho
  have az : a ≤ z := by
    have mono : ∀ g, g ≤ n → ℓ 0 ≤ ℓ g := by
      intro g hg
      induction g with
      | zero => exact le_refl _
      | succ g ih => exact (ih (by omega)).trans ((hgr g (by omega)).2.2.2 _ rfl).le
    have := mono n (le_refl _)
    linarith
  obtain ⟨κ, q⟩ := C91_groups_add_up hm (fun ρ T ν p1 p2 p3 => (a1 ρ T ν p1 p2 p3).2.le) hNR hNT hlR hlT hn hgr ha hz hclip
    (Λ := max 3 X) (σ := 1) (τ := max (3 / 2) X) (le_trans (by norm_num) (le_max_left 3 X)) (by norm_num) (le_trans (by norm_num) (le_max_left _ X))
    ⟨fun ρ hρ T hT => (a2 ρ T (R0.trans_le hρ.1) (T0.trans_le hT.1)).mono fun x hx => lt_of_lt_of_le a0 hx.1,
      fun ρ hρ T hT ν hν => (a1 ρ T ν (R0.trans_le hρ.1) (T0.trans_le hT.1) (lt_of_lt_of_le a0 hν.1)).2,
      fun ρ hρ ρ2 hρ2 T hT T2 hT2 ν hν => by
        rw [one_mul]
        exact a3 X ρ ρ2 T T2 ν (R0.trans_le hρ.1) (R0.trans_le hρ2.1) (T0.trans_le hT.1) (T0.trans_le hT2.1) (lt_of_lt_of_le a0 hν.1)
          (big hT hν) (big hT2 hν)⟩
    (fun ρ hρ T hT => a4 X ρ T a z (R0.trans_le hρ.1) (T0.trans_le hT.1) a0 (big hT ⟨az, le_refl _⟩)) hε hX hE hin hF hρ' hT'
  have inR : 0 < ρ' := by rw [hρ']; positivity
  have inT : 0 < T' := by rw [hT']; positivity
  exact ⟨α ρ' T', κ, fun ν hν => (a1 ρ' T' ν inR inT hν).1, q⟩

/-- **C92 (power-law groups)**: the Planck group means of a table built from a power law, weighted by the thermal intensities of their groups, add
up to the integral of opacity times intensity within a factor that is known from the exponents, the bounds and the resolution alone. -/
theorem C92_powerLaw_groups {pc : PC XR} {h k c : ℝ} (hpc : FinitePC pc h k c) {κ₀ re te ne nr no rr ro tr tf s : ℝ} {st : Bool} (hκ : 0 < κ₀)
    {p : PowerLawOpacity XR} (hp : PowerLawOpacity.construct pc (.fin κ₀) (.fin re) (.fin te) (.fin ne) (.fin nr) (.fin no) (.fin rr) (.fin ro)
      (.fin tr) (.fin tf) st = ok p) (hs : s = if st then 1 else 0)
    {junk : ℕ → XR} {lRhoMin lRhoMax lTMin lTMax : ℝ} {NRho NT : ℤ} {b : List XR} {n N : ℕ} {o : MeanOpacityBase XR}
    (ho : MeanOpacityBase.construct pc junk p (.fin lRhoMin) (.fin lRhoMax) NRho (.fin lTMin) (.fin lTMax) NT b n N = ok o)
    (hNR : 2 ≤ NRho) (hNT : 2 ≤ NT) (hlR : lRhoMin < lRhoMax) (hlT : lTMin < lTMax) {ℓ : ℕ → ℝ} (hn : 0 < n)
    (hgr : ∀ g, g < n → GroupIs b g (ℓ g) (some (ℓ (g + 1)))) {a z : ℝ} (ha : a = ℓ 0 + Robust.SMALL) (hz : z = ℓ n + Robust.SMALL)
    (hclip : 1e-4 * k * 10 ^ lTMax / h ≤ ℓ 0 ∧ ℓ n ≤ 1e4 * k * 10 ^ lTMin / h) {ε E X : ℝ}
    (hε : ∀ g, g < n → ∀ T ∈ Set.Icc ((10 : ℝ) ^ lTMin) (10 ^ lTMax),
      Robust.SMALL * Real.log 10 ≤ ε * ∫ ν in ℓ g + Robust.SMALL..ℓ (g + 1) + Robust.SMALL, planckLaw h k c T ν)
    (hX : X = h * z / (k * 10 ^ lTMin))
    (hE : ∀ g, g < n → (max 4 X + (|ne| + s) / 2) * (Real.log ((ℓ (g + 1) + Robust.SMALL) / (ℓ g + Robust.SMALL)) / N) + ε + 1e-14 ≤ E)
    {rho T : ℝ} (hin : Inside lRhoMin lRhoMax lTMin lTMax rho T) {F ρ' T' : ℝ}
    (hF : F = E + (|re| * nodeDistance lRhoMin lRhoMax NRho + (|te| + s + 2 * (1 + X)) * nodeDistance lTMin lTMax NT) / 2)
    (hρ' : ρ' = |rho| + Robust.SMALL) (hT' : T' = |T| + Robust.SMALL) :
    ∃ (α : ℝ → ℝ) (κ : ℕ → ℝ), (∀ ν, 0 < ν → PhotonAPI.AbsorptionCoefficient p (XR.fin ρ') (XR.fin T') (XR.fin ν) = XR.fin (α ν)) ∧
      (∀ g, g < n → MeanPhotonAPI.PlanckGroupAbsorptionCoefficient o (XR.fin rho) (XR.fin T) g = ok (XR.fin (rho * κ g))) ∧
      Real.exp (-F) * (∫ ν in a..z, (α ν / ρ' + Robust.SMALL) * planckLaw h k c T' ν) ≤
        ∑ g ∈ Finset.range n, κ g * ∫ ν in ℓ g + Robust.SMALL..ℓ (g + 1) + Robust.SMALL, planckLaw h k c T' ν ∧
      ∑ g ∈ Finset.range n, κ g * (∫ ν in ℓ g + Robust.SMALL..ℓ (g + 1) + Robust.SMALL, planckLaw h k c T' ν) ≤
        Real.exp F * ∫ ν in a..z, (α ν / ρ' + Robust.SMALL) * planckLaw h k c T' ν := by
  have hh := hpc.h_pos
  have hk := hpc.k_pos
  have hS := SMALL_pos
  have R0 : (0 : ℝ) < 10 ^ lRhoMin := by positivity
  have T0 : (0 : ℝ) < 10 ^ lTMin := by positivity
  obtain ⟨α, s', hs', a1, a2, a3, a4⟩ := C92_powerLaw hpc hκ hp
  rw [← hs] at hs'
  subst hs'
  have s0 : 0 ≤ s' := by rw [hs]; split_ifs <;> norm_num
  have l0 : 0 < ℓ 0 := lt_of_lt_of_le (by positivity) hclip.1
  have a0 : 0 < a := by linarith
  have hm : MeansOf h k c α lRhoMin lRhoMax NRho lTMin lTMax NT b n N (MeanPhotonAPI.PlanckGroupAbsorptionCoefficient o)
      (MeanPhotonAPI.RosselandGroupAbsorptionCoefficient o) :=
    .absorption _ pc junk o hpc (fun ρ T ν p1 p2 p3 => (a1 ρ T ν p1 p2 p3).1) ho
  obtain ⟨κ, q⟩ := C91_groups_add_up hm (fun ρ T ν p1 p2 p3 => (a1 ρ T ν p1 p2 p3).2.le) hNR hNT hlR hlT hn hgr ha hz hclip
    (Λ := |ne| + s') (σ := |re|) (τ := |te| + s') (by positivity) (by positivity) (by positivity)
    ⟨fun ρ hρ T hT => (a2 ρ T (R0.trans_le hρ.1) (T0.trans_le hT.1)).mono fun x hx => lt_of_lt_of_le a0 hx.1,
      fun ρ hρ T hT ν hν => (a1 ρ T ν (R0.trans_le hρ.1) (T0.trans_le hT.1) (lt_of_lt_of_le a0 hν.1)).2,
      fun ρ hρ ρ2 hρ2 T hT T2 hT2 ν hν =>
        a3 ρ ρ2 T T2 ν (R0.trans_le hρ.1) (R0.trans_le hρ2.1) (T0.trans_le hT.1) (T0.trans_le hT2.1) (lt_of_lt_of_le a0 hν.1)⟩
    (fun ρ hρ T hT => a4 ρ T a z (R0.trans_le hρ.1) (T0.trans_le hT.1) a0) hε hX hE hin hF hρ' hT'
  have inR : 0 < ρ' := by rw [hρ']; positivity
  have inT : 0 < T' := by rw [hT']; positivity
  exact ⟨α ρ' T', κ, fun ν hν => (a1 ρ' T' ν inR inT hν).1, q⟩

end

/-! ## Examples -/

/-- a power law `ρ^(1/2) T^(-7/2)` with offsets and stimulated emission is accepted -/
example : ∃ p : PowerLawOpacity XR, PowerLawOpacity.construct onesPC (.fin 1) (.fin (1 / 2)) (.fin (-7 / 2)) (.fin (-3)) (.fin 1) (.fin 0)
    (.fin 2) (.fin 1) (.fin 3) (.fin 0) true = ok p := by
  unfold PowerLawOpacity.construct
  simp only [Arith.gt, Bool.not_eq_true', ← Bool.not_eq_true, axr, Rat.cast_zero]
  norm_num

/-- bremsstrahlung with unit constants, groups `[1, 2]` and `[2, 3]`, 1001 densities and temperatures from 1 to 10 and 1000 frequencies: the factor is
`exp(0.1)` at most -/
example : ∃ (o : MeanOpacityBase XR) (α : ℝ → ℝ) (κ : ℕ → ℝ) (F T : ℝ), F ≤ 0.1 ∧ T = 3 + Robust.SMALL ∧
    (∀ ν, 0 < ν → PhotonAPI.AbsorptionCoefficient (EPBremsstrahlungOpacity.mk onesPC) (XR.fin (2 + Robust.SMALL)) (XR.fin T) (XR.fin ν) = XR.fin (α ν)) ∧
    (∀ g : ℕ, g < 2 → MeanPhotonAPI.PlanckGroupAbsorptionCoefficient o (XR.fin 2) (XR.fin 3) g = ok (XR.fin (2 * κ g))) ∧
    Real.exp (-F) * (∫ ν in (1 : ℝ) + Robust.SMALL..3 + Robust.SMALL, (α ν / (2 + Robust.SMALL) + Robust.SMALL) * planckLaw 1 1 1 T ν) ≤
      κ 0 * (∫ ν in (1 : ℝ) + Robust.SMALL..2 + Robust.SMALL, planckLaw 1 1 1 T ν) +
        κ 1 * (∫ ν in (2 : ℝ) + Robust.SMALL..3 + Robust.SMALL, planckLaw 1 1 1 T ν) ∧
    κ 0 * (∫ ν in (1 : ℝ) + Robust.SMALL..2 + Robust.SMALL, planckLaw 1 1 1 T ν) +
      κ 1 * (∫ ν in (2 : ℝ) + Robust.SMALL..3 + Robust.SMALL, planckLaw 1 1 1 T ν) ≤
      Real.exp F * (∫ ν in (1 : ℝ) + Robust.SMALL..3 + Robust.SMALL, (α ν / (2 + Robust.SMALL) + Robust.SMALL) * planckLaw 1 1 1 T ν) := by
  obtain ⟨hb, hgr⟩ := bounds123
  obtain ⟨α0, b1, b2, b3⟩ := C66_bremsstrahlung (pc := onesPC) (me := 1) (mp := 1) (qe := 1) onesPC_finite rfl rfl rfl one_pos
    one_pos one_pos
  have ht : ∃ o, MeanOpacityBase.construct onesPC (fun _ => XR.fin 0) (EPBremsstrahlungOpacity.mk onesPC)
      (.fin 0) (.fin 1) 1001 (.fin 0) (.fin 1) 1001 [.fin 1, .fin 2, .fin 3] (2 : ℕ) (1000 : ℕ) = ok o := by
    obtain ⟨t, e, -⟩ := averaged_exists onesPC_finite (α := α0)
      (coef := PhotonAPI.AbsorptionCoefficient (EPBremsstrahlungOpacity.mk onesPC))
      (fun ρ T ν h1 h2 h3 => (b2 ρ T ν h1 h2 h3).le) b1 0 1 (NRho := 1001) (by norm_num) 0 1 (NT := 1001) (by norm_num) hb (N := 1000) (by norm_num)
      (fun _ => .fin 0)
    exact ⟨_, by unfold MeanOpacityBase.construct; rw [e]; rfl⟩
  obtain ⟨o, ho⟩ := ht
  have hS := SMALL_pos
  have hS' := SMALL_lt
  have hS2 : (Robust.SMALL : ℝ) ≤ 1 / 10 ^ 9 := hS'.le.trans (by norm_num)
  have hl10 : Real.log 10 ≤ 9 := by have := Real.log_le_sub_one_of_pos (x := 10) (by norm_num); linarith
  have hl0 : 0 < Real.log 10 := Real.log_pos (by norm_num)
  have e10 : (10 : ℝ) ^ (1 : ℝ) = 10 := Real.rpow_one 10
  have e1 : (10 : ℝ) ^ (0 : ℝ) = 1 := Real.rpow_zero 10
  have low := low123
  have hnd : nodeDistance 0 1 1001 = Real.log 10 / 1000 := by unfold nodeDistance; norm_num; ring
  have hin : Inside 0 1 0 1 2 3 := by
    have c : ∀ {x : ℝ}, 2 ≤ x → x ≤ 3 → 0 ≤ coordinate x ∧ coordinate x ≤ 1 := by
      intro x h2 h3
      have p : 0 < |x| + Robust.SMALL := by positivity
      have ax : |x| = x := abs_of_pos (by linarith)
      unfold coordinate
      constructor
      · rw [Real.le_logb_iff_rpow_le (by norm_num) p, e1, ax]; linarith
      · rw [Real.logb_le_iff_le_rpow (by norm_num) p, e10, ax]; linarith
    exact ⟨(c (le_refl _) (by norm_num)).1, (c (le_refl _) (by norm_num)).2, (c (by norm_num) (le_refl _)).1, (c (by norm_num) (le_refl _)).2⟩
  obtain ⟨X, hX⟩ : ∃ X : ℝ, X = 1 * (((2 : ℕ) : ℝ) + 1 + Robust.SMALL) / (1 * 10 ^ (0 : ℝ)) := ⟨_, rfl⟩
  have eX : X = 3 + Robust.SMALL := by
    rw [hX, e1]
    push_cast
    ring
  have X4 : X ≤ 4 := by
    rw [eX]
    norm_num at hS2
    linarith
  have X3 : 3 ≤ X := by linarith
  obtain ⟨F, hF⟩ : ∃ F : ℝ, F = 1e-2 + (1 * nodeDistance 0 1 1001 + (max (3 / 2) X + 2 * (1 + X)) * nodeDistance 0 1 1001) / 2 := ⟨_, rfl⟩
  have hF5 : F ≤ 0.1 := by
    rw [hF, hnd, max_eq_right (by linarith)]
    norm_num
    nlinarith
  obtain ⟨α, κ, q0, q1, q2, q3⟩ := C92_bremsstrahlung_groups onesPC_finite rfl rfl rfl one_pos one_pos one_pos ho (by norm_num) (by norm_num) (by norm_num)
    (by norm_num) (ℓ := fun g => (g : ℝ) + 1) (by norm_num) hgr rfl rfl (by simp only [e1, e10]; norm_num) (ε := 1e-70) (E := 1e-2)
    (fun g hg T hT => by
      have h1 := low g hg T hT
      have : Robust.SMALL * Real.log 10 ≤ 1e-80 * 9 := mul_le_mul hS'.le hl10 hl0.le (by norm_num)
      refine this.trans (le_trans (by norm_num) (mul_le_mul_of_nonneg_left h1 (by norm_num)))) hX
    (fun g hg => by
      have g0 : (0 : ℝ) ≤ g := by positivity
      have h1 : Real.log ((((g + 1 : ℕ) : ℝ) + 1 + Robust.SMALL) / ((g : ℝ) + 1 + Robust.SMALL)) ≤ 1 := by
        have := Real.log_le_sub_one_of_pos (x := (((g + 1 : ℕ) : ℝ) + 1 + Robust.SMALL) / ((g : ℝ) + 1 + Robust.SMALL)) (by positivity)
        have h2 : (((g + 1 : ℕ) : ℝ) + 1 + Robust.SMALL) / ((g : ℝ) + 1 + Robust.SMALL) ≤ 2 := by
          rw [div_le_iff₀ (by positivity)]
          push_cast
          linarith
        linarith
      have h0 : 0 ≤ Real.log ((((g + 1 : ℕ) : ℝ) + 1 + Robust.SMALL) / ((g : ℝ) + 1 + Robust.SMALL)) := by
        refine Real.log_nonneg ?_
        rw [le_div_iff₀ (by positivity)]
        push_cast
        linarith
      show (max 4 X + max 3 X / 2) *
        (Real.log ((((g + 1 : ℕ) : ℝ) + 1 + Robust.SMALL) / ((g : ℝ) + 1 + Robust.SMALL)) / ((1000 : ℕ) : ℝ)) + 1e-70 + 1e-14 ≤ 1e-2
      rw [max_eq_left X4, max_eq_right X3]
      generalize Real.log ((((g + 1 : ℕ) : ℝ) + 1 + Robust.SMALL) / ((g : ℝ) + 1 + Robust.SMALL)) = L at *
      norm_num
      nlinarith) hin hF rfl rfl
  have a2 : |(2 : ℝ)| = 2 := by norm_num
  have a3 : |(3 : ℝ)| = 3 := by norm_num
  rw [a2, a3] at q0
  simp only [a2, a3, Finset.sum_range_succ, Finset.sum_range_zero] at q2 q3
  have c1 : ((1 : ℕ) : ℝ) + 1 = 2 := by norm_num
  have c2 : ((2 : ℕ) : ℝ) + 1 = 3 := by norm_num
  have c0 : ((0 : ℕ) : ℝ) + 1 = 1 := by norm_num
  simp only [zero_add, Nat.reduceAdd, c0, c1, c2] at q2 q3
  exact ⟨o, α, κ, F, 3 + Robust.SMALL, hF5, rfl, q0, q1, q2, q3⟩

/-- a power law `ρ^(1/2) T^(-7/2) ν^(-3)` with stimulated emission, groups `[1, 2]` and `[2, 3]`, 1001 densities and temperatures from 1 to 10 and 1000 frequencies: the factor is
`exp(0.1)` at most -/
example : ∃ (p : PowerLawOpacity XR) (o : MeanOpacityBase XR) (α : ℝ → ℝ) (κ : ℕ → ℝ) (F T : ℝ), F ≤ 0.1 ∧ T = 3 + Robust.SMALL ∧
    (∀ ν, 0 < ν → PhotonAPI.AbsorptionCoefficient p (XR.fin (2 + Robust.SMALL)) (XR.fin T) (XR.fin ν) = XR.fin (α ν)) ∧
    (∀ g : ℕ, g < 2 → MeanPhotonAPI.PlanckGroupAbsorptionCoefficient o (XR.fin 2) (XR.fin 3) g = ok (XR.fin (2 * κ g))) ∧
    Real.exp (-F) * (∫ ν in (1 : ℝ) + Robust.SMALL..3 + Robust.SMALL, (α ν / (2 + Robust.SMALL) + Robust.SMALL) * planckLaw 1 1 1 T ν) ≤
      κ 0 * (∫ ν in (1 : ℝ) + Robust.SMALL..2 + Robust.SMALL, planckLaw 1 1 1 T ν) +
        κ 1 * (∫ ν in (2 : ℝ) + Robust.SMALL..3 + Robust.SMALL, planckLaw 1 1 1 T ν) ∧
    κ 0 * (∫ ν in (1 : ℝ) + Robust.SMALL..2 + Robust.SMALL, planckLaw 1 1 1 T ν) +
      κ 1 * (∫ ν in (2 : ℝ) + Robust.SMALL..3 + Robust.SMALL, planckLaw 1 1 1 T ν) ≤
      Real.exp F * (∫ ν in (1 : ℝ) + Robust.SMALL..3 + Robust.SMALL, (α ν / (2 + Robust.SMALL) + Robust.SMALL) * planckLaw 1 1 1 T ν) := by
  obtain ⟨hb, hgr⟩ := bounds123
  obtain ⟨p, hp⟩ : ∃ p : PowerLawOpacity XR, PowerLawOpacity.construct onesPC (.fin 1) (.fin (1 / 2)) (.fin (-7 / 2)) (.fin (-3)) (.fin 1) (.fin 0)
      (.fin 2) (.fin 1) (.fin 3) (.fin 0) true = ok p := by
    unfold PowerLawOpacity.construct
    simp only [Arith.gt, Bool.not_eq_true', ← Bool.not_eq_true, axr, Rat.cast_zero]
    norm_num
  obtain ⟨α0, -, -, b1, -⟩ := C92_powerLaw onesPC_finite one_pos hp
  have ht : ∃ o, MeanOpacityBase.construct onesPC (fun _ => XR.fin 0) p
      (.fin 0) (.fin 1) 1001 (.fin 0) (.fin 1) 1001 [.fin 1, .fin 2, .fin 3] (2 : ℕ) (1000 : ℕ) = ok o := by
    obtain ⟨t, e, -⟩ := averaged_exists onesPC_finite (α := α0)
      (coef := PhotonAPI.AbsorptionCoefficient p)
      (fun ρ T ν h1 h2 h3 => (b1 ρ T ν h1 h2 h3).2.le) (fun ρ T ν h1 h2 h3 => (b1 ρ T ν h1 h2 h3).1) 0 1 (NRho := 1001) (by norm_num) 0 1 (NT := 1001) (by norm_num) hb (N := 1000) (by norm_num)
      (fun _ => .fin 0)
    exact ⟨_, by unfold MeanOpacityBase.construct; rw [e]; rfl⟩
  obtain ⟨o, ho⟩ := ht
  have hS := SMALL_pos
  have hS' := SMALL_lt
  have hS2 : (Robust.SMALL : ℝ) ≤ 1 / 10 ^ 9 := hS'.le.trans (by norm_num)
  have hl10 : Real.log 10 ≤ 9 := by have := Real.log_le_sub_one_of_pos (x := 10) (by norm_num); linarith
  have hl0 : 0 < Real.log 10 := Real.log_pos (by norm_num)
  have e10 : (10 : ℝ) ^ (1 : ℝ) = 10 := Real.rpow_one 10
  have e1 : (10 : ℝ) ^ (0 : ℝ) = 1 := Real.rpow_zero 10
  have low := low123
  have hnd : nodeDistance 0 1 1001 = Real.log 10 / 1000 := by unfold nodeDistance; norm_num; ring
  have hin : Inside 0 1 0 1 2 3 := by
    have c : ∀ {x : ℝ}, 2 ≤ x → x ≤ 3 → 0 ≤ coordinate x ∧ coordinate x ≤ 1 := by
      intro x h2 h3
      have p : 0 < |x| + Robust.SMALL := by positivity
      have ax : |x| = x := abs_of_pos (by linarith)
      unfold coordinate
      constructor
      · rw [Real.le_logb_iff_rpow_le (by norm_num) p, e1, ax]; linarith
      · rw [Real.logb_le_iff_le_rpow (by norm_num) p, e10, ax]; linarith
    exact ⟨(c (le_refl _) (by norm_num)).1, (c (le_refl _) (by norm_num)).2, (c (by norm_num) (le_refl _)).1, (c (by norm_num) (le_refl _)).2⟩
  obtain ⟨X, hX⟩ : ∃ X : ℝ, X = 1 * (((2 : ℕ) : ℝ) + 1 + Robust.SMALL) / (1 * 10 ^ (0 : ℝ)) := ⟨_, rfl⟩
  have eX : X = 3 + Robust.SMALL := by
    rw [hX, e1]
    push_cast
    ring
  have X4 : X ≤ 4 := by
    rw [eX]
    norm_num at hS2
    linarith
  have X3 : 3 ≤ X := by linarith
  obtain ⟨F, hF⟩ : ∃ F : ℝ, F = 1e-2 + (|1 / 2| * nodeDistance 0 1 1001 + (|-7 / 2| + 1 + 2 * (1 + X)) * nodeDistance 0 1 1001) / 2 := ⟨_, rfl⟩
  have hF5 : F ≤ 0.1 := by
    rw [hF, hnd]
    norm_num
    nlinarith
  obtain ⟨α, κ, q0, q1, q2, q3⟩ := C92_powerLaw_groups onesPC_finite one_pos hp (s := 1) rfl ho (by norm_num) (by norm_num) (by norm_num)
    (by norm_num) (ℓ := fun g => (g : ℝ) + 1) (by norm_num) hgr rfl rfl (by simp only [e1, e10]; norm_num) (ε := 1e-70) (E := 1e-2)
    (fun g hg T hT => by
      have h1 := low g hg T hT
      have : Robust.SMALL * Real.log 10 ≤ 1e-80 * 9 := mul_le_mul hS'.le hl10 hl0.le (by norm_num)
      refine this.trans (le_trans (by norm_num) (mul_le_mul_of_nonneg_left h1 (by norm_num)))) hX
    (fun g hg => by
      have g0 : (0 : ℝ) ≤ g := by positivity
      have h1 : Real.log ((((g + 1 : ℕ) : ℝ) + 1 + Robust.SMALL) / ((g : ℝ) + 1 + Robust.SMALL)) ≤ 1 := by
        have := Real.log_le_sub_one_of_pos (x := (((g + 1 : ℕ) : ℝ) + 1 + Robust.SMALL) / ((g : ℝ) + 1 + Robust.SMALL)) (by positivity)
        have h2 : (((g + 1 : ℕ) : ℝ) + 1 + Robust.SMALL) / ((g : ℝ) + 1 + Robust.SMALL) ≤ 2 := by
          rw [div_le_iff₀ (by positivity)]
          push_cast
          linarith
        linarith
      have h0 : 0 ≤ Real.log ((((g + 1 : ℕ) : ℝ) + 1 + Robust.SMALL) / ((g : ℝ) + 1 + Robust.SMALL)) := by
        refine Real.log_nonneg ?_
        rw [le_div_iff₀ (by positivity)]
        push_cast
        linarith
      show (max 4 X + (|-3| + 1) / 2) *
        (Real.log ((((g + 1 : ℕ) : ℝ) + 1 + Robust.SMALL) / ((g : ℝ) + 1 + Robust.SMALL)) / ((1000 : ℕ) : ℝ)) + 1e-70 + 1e-14 ≤ 1e-2
      rw [max_eq_left X4]
      generalize Real.log ((((g + 1 : ℕ) : ℝ) + 1 + Robust.SMALL) / ((g : ℝ) + 1 + Robust.SMALL)) = L at *
      norm_num
      nlinarith) hin hF rfl rfl
  have a2 : |(2 : ℝ)| = 2 := by norm_num
  have a3 : |(3 : ℝ)| = 3 := by norm_num
  rw [a2, a3] at q0
  simp only [a2, a3, Finset.sum_range_succ, Finset.sum_range_zero] at q2 q3
  have c1 : ((1 : ℕ) : ℝ) + 1 = 2 := by norm_num
  have c2 : ((2 : ℕ) : ℝ) + 1 = 3 := by norm_num
  have c0 : ((0 : ℕ) : ℝ) + 1 = 1 := by norm_num
  simp only [zero_add, Nat.reduceAdd, c0, c1, c2] at q2 q3
  exact ⟨p, o, α, κ, F, 3 + Robust.SMALL, hF5, rfl, q0, q1, q2, q3⟩

end Opac.Photons
