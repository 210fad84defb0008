import Verif.Lemmas.AccuracyConstants
import Verif.Lemmas.AccuracyScattering
import Verif.Lemmas.AccuracyNeutrinos
import Verif.Props.Vector

/-!
# C65: rounding errors are bounded

Every method is run with rounded and with exact arithmetic, on the same numbers (`Spec/Accuracy.lean`).  The two results
differ by a number of relative rounding errors that depends only on the number of unit wrappers, on the exponents of a
power law and on `hν/kT`; there is no cancellation, in particular not for small `hν/kT`.  The tophat emissivity in a unit
wrapper is different: rounding can move a frequency across an edge (`C65_tophat_false`).
-/

namespace Opac
open Arith Accuracy

/-- IEEE double precision is such a rounding -/
theorem rn53_binary : BinaryRounding rn53 (2 ^ (-53 : ℤ)) where
  toRounding := rn53_rounding
  ints k hk := by
    rcases Nat.eq_zero_or_pos k with rfl | h0
    · simp [rn53]
    have hp : (0 : ℝ) < |(k : ℝ)| := by positivity
    set e := Int.log 2 |(k : ℝ)| with he
    have h1 : e ≤ 52 := by
      by_contra hc
      have hc : 53 ≤ e := by omega
      have := (Int.zpow_le_iff_le_log (b := 2) (by norm_num) hp).2 hc
      rw [abs_of_pos (by positivity)] at this
      have hk' : (k : ℝ) ≤ 2 ^ 24 := by exact_mod_cast hk
      have h53 : ((2 : ℕ) : ℝ) ^ (53 : ℤ) = 9007199254740992 := by norm_num
      rw [h53] at this
      rw [show (2 : ℝ) ^ 24 = 16777216 by norm_num] at hk'
      linarith
    obtain ⟨j, hj⟩ := Int.eq_ofNat_of_zero_le (show 0 ≤ 52 - e by omega)
    unfold rn53
    rw [← he, hj, show e - 52 = -(j : ℤ) by omega]
    have : (k : ℝ) * 2 ^ (j : ℤ) = ((k * 2 ^ j : ℕ) : ℝ) := by push_cast; rw [zpow_natCast]
    rw [this, round_natCast]
    push_cast
    rw [zpow_neg, zpow_natCast]
    field_simp
  quarter := by
    have := rn53_of (x := 1 / 4) (e := -2) (k := 2 ^ 52) (by norm_num) (by norm_num) (by norm_num)
    rw [this]
    norm_num

/-- what `AgreesTo` means as a relative error -/
theorem AgreesTo.relative {u n a x : ℝ} (h : AgreesTo u n a x) (hu : 0 ≤ u) (hu1 : u < 1) (hn : 0 ≤ n) (hx : 0 ≤ x)
    (hs : 2 * n * u ≤ 1 - u) : |a - x| ≤ 2 * n * u / (1 - u) * x := by
  obtain ⟨h1, h2⟩ := h
  have hp : 0 < 1 - u := by linarith
  set t := n * u / (1 - u) with ht
  have ht0 : 0 ≤ t := by positivity
  have ht1 : t ≤ 1 / 2 := by rw [ht, div_le_iff₀ hp]; linarith
  have hl : -u / (1 - u) ≤ Real.log (1 - u) := by
    have := Real.one_sub_inv_le_log_of_pos hp
    have e : -u / (1 - u) = 1 - (1 - u)⁻¹ := by field_simp; ring
    rw [e]; exact this
  have hq : 1 - t ≤ (1 - u) ^ n := by
    rw [Real.rpow_def_of_pos hp]
    have h3 : -t ≤ Real.log (1 - u) * n := by
      have := mul_le_mul_of_nonneg_right hl hn
      have e : -t = -u / (1 - u) * n := by rw [ht]; ring
      rw [e]; exact this
    have := Real.add_one_le_exp (Real.log (1 - u) * n)
    linarith
  have hq1 : 0 ≤ 1 - t := by linarith
  have ha0 : 0 ≤ a := le_trans (mul_nonneg (by positivity) hx) h1
  have e : 2 * n * u / (1 - u) = 2 * t := by rw [ht]; ring
  rw [e, abs_le]
  have h3 := mul_le_mul_of_nonneg_right hq hx
  have h4 := mul_le_mul_of_nonneg_right hq ha0
  have h5 : a ≤ (1 + 2 * t) * x := by
    have h6 : (1 - t) * a ≤ x := h4.trans h2
    have h7 : 1 ≤ (1 + 2 * t) * (1 - t) := by nlinarith
    have h8 : (1 - t) * a ≤ (1 - t) * ((1 + 2 * t) * x) := by nlinarith [mul_le_mul_of_nonneg_right h7 hx]
    exact le_of_mul_le_mul_left h8 (by linarith)
  have h9 := mul_nonneg ht0 hx
  constructor
  · nlinarith
  · nlinarith

/-- the smallness condition in terms of logarithms -/
theorem unit_small {rd : ℝ → ℝ} {u : ℝ} (hr : Rounding rd u) {n : ℕ} (h : (8 * n + 4) * u ≤ 1) :
    (2 * (0 + 4 * (n : ℝ)) + 3) * unit u ≤ 1 := by
  have hu := hr.nonneg
  have hu1 := hr.lt_one
  have hp : 0 < 1 - u := by linarith
  have hn : (0 : ℝ) ≤ n := by positivity
  have h1 : unit u ≤ u / (1 - u) := by
    have := Real.one_sub_inv_le_log_of_pos hp
    have e : u / (1 - u) = (1 - u)⁻¹ - 1 := by field_simp; ring
    rw [unit, e]; linarith
  have h2 : (8 * (n : ℝ) + 3) * (u / (1 - u)) ≤ 1 := by
    rw [← mul_div_assoc, div_le_one hp]; linarith
  have := mul_le_mul_of_nonneg_left h1 (show 0 ≤ 8 * (n : ℝ) + 3 by positivity)
  linarith

theorem SameEnd.mono {α β : Type} {P Q : α → β → Prop} (hPQ : ∀ a b, P a b → Q a b) {x : Outcome α} {y : Outcome β}
    (h : SameEnd P x y) : SameEnd Q x y := by
  cases x <;> cases y <;> first | exact hPQ _ _ h | exact h

variable {rd : ℝ → ℝ} {u : ℝ}

/-- C65: the physical constants of the library, in any of its three unit systems, are the exact ones up to 128 rounding
errors. -/
theorem C65_constants (hr : BinaryRounding rd u) (p : PC (Fl rd)) (p' : PC ℝ)
    (h : p = PhysicalConstantsCGS ∧ p' = PhysicalConstantsCGS ∨ p = PhysicalConstantsSI ∧ p' = PhysicalConstantsSI ∨
      p = PhysicalConstantsUnity ∧ p' = PhysicalConstantsUnity) :
    AgreesTo u 128 p.na.val p'.na ∧
    AgreesTo u 128 p.alpha.val p'.alpha ∧
    AgreesTo u 128 p.h.val p'.h ∧
    AgreesTo u 128 p.hbar.val p'.hbar ∧
    AgreesTo u 128 p.kb.val p'.kb ∧
    AgreesTo u 128 p.r_gas.val p'.r_gas ∧
    AgreesTo u 128 p.qe.val p'.qe ∧
    AgreesTo u 128 p.c.val p'.c ∧
    AgreesTo u 128 p.g_newt.val p'.g_newt ∧
    AgreesTo u 128 p.me.val p'.me ∧
    AgreesTo u 128 p.mp.val p'.mp ∧
    AgreesTo u 128 p.mn.val p'.mn ∧
    AgreesTo u 128 p.amu.val p'.amu ∧
    AgreesTo u 128 p.sb.val p'.sb ∧
    AgreesTo u 128 p.ar.val p'.ar ∧
    AgreesTo u 128 p.eV.val p'.eV ∧
    AgreesTo u 128 p.Fc.val p'.Fc ∧
    AgreesTo u 128 p.nu_sigma0.val p'.nu_sigma0 ∧
    AgreesTo u 128 (-p.gA.val) (-p'.gA) := by
  have hA : PCAcc u 128 p p' := by
    rcases h with ⟨rfl, rfl⟩ | ⟨rfl, rfl⟩ | ⟨rfl, rfl⟩
    · exact cgs_acc hr
    · exact si_acc hr
    · exact unity_acc hr
  have hg : PF u 128 (-p.gA) (-p'.gA) := by
    refine ⟨?_, hA.gA.neg⟩
    rcases h with ⟨-, rfl⟩ | ⟨-, rfl⟩ | ⟨-, rfl⟩ <;>
      simp only [PhysicalConstantsCGS, PhysicalConstantsSI, PhysicalConstantsUnity, PhysicalConstants, areal] <;> norm_num
  exact ⟨hA.na.agrees hr, hA.alpha.agrees hr, hA.h.agrees hr, hA.hbar.agrees hr, hA.kb.agrees hr, hA.r_gas.agrees hr, hA.qe.agrees hr, hA.c.agrees hr, hA.g_newt.agrees hr, hA.me.agrees hr, hA.mp.agrees hr, hA.mn.agrees hr, hA.amu.agrees hr, hA.sb.agrees hr, hA.ar.agrees hr, hA.eV.agrees hr, hA.Fc.agrees hr, hA.nu_sigma0.agrees hr, hg.agrees hr⟩

/-- the hypotheses of C65 are met: double precision and the constants of the library -/
example : AgreesTo (2 ^ (-53 : ℤ)) 128 (PhysicalConstantsCGS : PC (Fl rn53)).h.val (PhysicalConstantsCGS : PC ℝ).h :=
  (C65_constants rn53_binary _ _ (.inl ⟨rfl, rfl⟩)).2.2.1

namespace Photons
variable {O O' : Type} {i : PhotonAPI (Fl rd) O} {i' : PhotonAPI ℝ O'} {o : O} {o' : O'} {n : ℕ} {S K : ℝ}

/-- bremsstrahlung with the library's constants, in a unit system, held by the variant, in double precision -/
theorem exTwin : Twin rn53 (Opacity (Fl rn53)) (Opacity ℝ) inferInstance inferInstance
    (.NonCGSEPBremss (NonCGSUnits.construct ⟨PhysicalConstantsCGS⟩ ⟨2⟩ ⟨3⟩ ⟨5⟩ ⟨7⟩))
    (.NonCGSEPBremss (NonCGSUnits.construct ⟨(PhysicalConstantsCGS : PC (Fl rn53)).exact⟩ 2 3 5 7)) 1 0
    ((PhysicalConstantsCGS : PC (Fl rn53)).h.val / (PhysicalConstantsCGS : PC (Fl rn53)).kb.val / (2 * 7)) :=
  .vNonCGSEPBremss (.nonCGS ⟨2⟩ ⟨3⟩ ⟨5⟩ ⟨7⟩ (by norm_num) (by norm_num) (by norm_num) (by norm_num)
    (.epbremss _ (cgs_acc rn53_binary).pos))

/-- a power law with non-integer exponents, stimulated emission and offsets -/
theorem exTwinPowerLaw : ∃ (o : PowerLawOpacity (Fl rn53)) (o' : PowerLawOpacity ℝ),
    Twin rn53 _ _ inferInstance inferInstance o o' 0 (|2| + |-7 / 2| + |-3|)
      ((PhysicalConstantsCGS : PC (Fl rn53)).h.val / (PhysicalConstantsCGS : PC (Fl rn53)).kb.val) := by
  have z : (lit 0 : Fl rn53).val = 0 := rd_zero rn53_binary
  have z' : (lit 0 : ℝ) = 0 := by simp [areal]
  have p (a : ℝ) (h : 0 < a) : gt (⟨a⟩ : Fl rn53) (lit 0) = true := by
    show decide ((lit 0 : Fl rn53).val < a) = true
    rw [z]; exact decide_eq_true h
  have q (a : ℝ) (h : 0 ≤ a) : lt (⟨a⟩ : Fl rn53) (lit 0) = false := by
    show decide (a < (lit 0 : Fl rn53).val) = false
    rw [z]; exact decide_eq_false (not_lt.2 h)
  have p' (a : ℝ) (h : 0 < a) : gt a (lit 0) = true := by rw [gt, real_lt, z']; exact h
  have q' (a : ℝ) (h : 0 ≤ a) : lt a (lit 0) = false := by rw [Bool.eq_false_iff, Ne, real_lt, z', not_lt]; exact h
  have e : ∃ o, PowerLawOpacity.construct (PhysicalConstantsCGS : PC (Fl rn53)) ⟨5⟩ ⟨2⟩ ⟨-7 / 2⟩ ⟨-3⟩ ⟨11⟩ ⟨1⟩ ⟨13⟩ ⟨0⟩
      ⟨17⟩ ⟨2⟩ true = .ok o := by
    unfold PowerLawOpacity.construct
    rw [p 13 (by norm_num), p 17 (by norm_num), p 11 (by norm_num), q 0 le_rfl, q 2 (by norm_num), q 1 (by norm_num)]
    exact ⟨_, rfl⟩
  have e' : ∃ o, PowerLawOpacity.construct (PhysicalConstantsCGS : PC (Fl rn53)).exact 5 2 (-7 / 2) (-3) 11 1 13 0
      17 2 true = .ok o := by
    unfold PowerLawOpacity.construct
    rw [p' 13 (by norm_num), p' 17 (by norm_num), p' 11 (by norm_num), q' 0 le_rfl, q' 2 (by norm_num), q' 1 (by norm_num)]
    exact ⟨_, rfl⟩
  obtain ⟨o, e⟩ := e
  obtain ⟨o', e'⟩ := e'
  exact ⟨o, o', .powerLaw _ _ _ _ _ _ _ _ _ _ _ _ _ _ (cgs_acc rn53_binary).pos (by norm_num) e e'⟩

/-- C65: absorption coefficients and emissivities at a frequency.  `n` unit wrappers, exponents summing to `S`,
`hν/kT = K ν/T`. -/
theorem C65_spectral (hr : BinaryRounding rd u) (H : Twin rd O O' i i' o o' n S K) (hu : (8 * n + 4) * u ≤ 1) (fn : VFn)
    (rho temp nu : Fl rd) (hρ : 0 < rho.val) (hT : 0 < temp.val) (hν : 0 < nu.val) :
    AgreesTo u (64 * (1 + S) * (1 + K * nu.val / temp.val) * (11 * n + 1)) (scalarFn i o fn rho temp nu).val
      (scalarFn i' o' fn rho.val temp.val nu.val) := by
  have := ((twin_acc hr H).spectral fn 0 _ _ _ _ _ _ le_rfl (unit_small hr.toRounding hu) (PF.exact rho hρ)
    (PF.exact temp hT) (PF.exact nu hν)).agrees hr
  rwa [zero_add] at this

/-- the hypotheses of C65 are met -/
example (fn : VFn) :=
  C65_spectral rn53_binary exTwin (by norm_num) fn ⟨1⟩ ⟨1⟩ ⟨1⟩ one_pos one_pos one_pos

/-- C65: the Planck function -/
theorem C65_planck (hr : BinaryRounding rd u) (H : Twin rd O O' i i' o o' n S K) (hu : (8 * n + 4) * u ≤ 1)
    (temp nu : Fl rd) (hT : 0 < temp.val) (hν : 0 < nu.val) :
    AgreesTo u (64 * (1 + S) * (1 + K * nu.val / temp.val) * (11 * n + 1)) (i.ThermalDistributionOfTNu o temp nu).val
      (i'.ThermalDistributionOfTNu o' temp.val nu.val) := by
  have := ((twin_acc hr H).thermal 0 _ _ _ _ le_rfl (unit_small hr.toRounding hu) (PF.exact temp hT)
    (PF.exact nu hν)).agrees hr
  rwa [zero_add] at this

/-- C65: the temperature derivative of the Planck function, without unit wrappers (with wrappers it is wrong anyway:
`C06_derivative_false`). -/
theorem C65_derivative_partial (hr : BinaryRounding rd u) (H : Twin rd O O' i i' o o' 0 S K) (hu : 4 * u ≤ 1)
    (temp nu : Fl rd) (hT : 0 < temp.val) (hν : 0 < nu.val) :
    AgreesTo u (64 * (1 + S) * (1 + K * nu.val / temp.val)) (i.DThermalDistributionOfTNuDT o temp nu).val
      (i'.DThermalDistributionOfTNuDT o' temp.val nu.val) := by
  have := ((twin_acc hr H).derivative 0 _ _ _ _ rfl le_rfl (unit_small hr.toRounding (by push_cast; linarith))
    (PF.exact temp hT) (PF.exact nu hν)).agrees hr
  simpa using this

/-- the hypotheses of C65 are met -/
example : ∃ (o : PowerLawOpacity (Fl rn53)) (o' : PowerLawOpacity ℝ) (n : ℝ), AgreesTo (2 ^ (-53 : ℤ)) n
    (PhotonAPI.DThermalDistributionOfTNuDT o ⟨1⟩ ⟨1⟩ : Fl rn53).val (PhotonAPI.DThermalDistributionOfTNuDT o' 1 1) := by
  obtain ⟨o, o', H⟩ := exTwinPowerLaw
  exact ⟨o, o', _, C65_derivative_partial rn53_binary H (by norm_num) ⟨1⟩ ⟨1⟩ one_pos one_pos⟩

/-- C65: total emissivity; when one run stops with an error, so does the other, with the same message -/
theorem C65_emissivity (hr : BinaryRounding rd u) (H : Twin rd O O' i i' o o' n S K) (rho temp : Fl rd)
    (hρ : 0 < rho.val) (hT : 0 < temp.val) :
    SameEnd (fun a x => AgreesTo u (64 * (1 + S) * (11 * n + 1)) a.val x) (i.Emissivity o rho temp)
      (i'.Emissivity o' rho.val temp.val) := by
  refine SameEnd.mono (fun a x h => ?_) ((twin_acc hr H).emissivity 0 _ _ _ _ le_rfl (PF.exact rho hρ) (PF.exact temp hT))
  have := h.agrees hr
  rwa [zero_add] at this

/-- C65: total number emissivity (bremsstrahlung returns infinity, on which nothing is claimed) -/
theorem C65_number (hr : BinaryRounding rd u) (H : Twin rd O O' i i' o o' n S K) (rho temp : Fl rd)
    (hρ : 0 < rho.val) (hT : 0 < temp.val) :
    SameEnd (fun a x => x ≠ infinity → AgreesTo u (64 * (1 + S) * (11 * n + 1)) a.val x) (i.NumberEmissivity o rho temp)
      (i'.NumberEmissivity o' rho.val temp.val) := by
  refine SameEnd.mono (fun a x h hx => ?_) ((twin_acc hr H).number 0 _ _ _ _ le_rfl (PF.exact rho hρ) (PF.exact temp hT))
  have := (h hx).agrees hr
  rwa [zero_add] at this

/-- C65: the frequency-integrated thermal distributions, energy and number density, and the temperature of an energy
density -/
theorem C65_totals (hr : BinaryRounding rd u) (H : Twin rd O O' i i' o o' n S K) (t : Fl rd) (ht : 0 < t.val) :
    AgreesTo u (64 * (1 + S) * (11 * n + 1)) (i.ThermalDistributionOfT o t).val (i'.ThermalDistributionOfT o' t.val) ∧
    AgreesTo u (64 * (1 + S) * (11 * n + 1)) (i.ThermalNumberDistributionOfT o t).val
      (i'.ThermalNumberDistributionOfT o' t.val) ∧
    AgreesTo u (64 * (1 + S) * (11 * n + 1)) (i.EnergyDensityFromTemperature o t).val
      (i'.EnergyDensityFromTemperature o' t.val) ∧
    AgreesTo u (64 * (1 + S) * (11 * n + 1)) (i.TemperatureFromEnergyDensity o t).val
      (i'.TemperatureFromEnergyDensity o' t.val) ∧
    AgreesTo u (64 * (1 + S) * (11 * n + 1)) (i.NumberDensityFromTemperature o t).val
      (i'.NumberDensityFromTemperature o' t.val) := by
  obtain ⟨h1, h2, h3, h4, h5⟩ := (twin_acc hr H).totals 0 _ _ le_rfl (PF.exact t ht)
  rw [zero_add] at h1 h2 h3 h4 h5
  exact ⟨h1.agrees hr, h2.agrees hr, h3.agrees hr, h4.agrees hr, h5.agrees hr⟩

/-- the hypotheses of C65 are met -/
example := C65_planck rn53_binary exTwin (by norm_num) ⟨1⟩ ⟨1⟩ one_pos one_pos
example := C65_emissivity rn53_binary exTwin ⟨1⟩ ⟨1⟩ one_pos one_pos
example := C65_number rn53_binary exTwin ⟨1⟩ ⟨1⟩ one_pos one_pos
example := C65_totals rn53_binary exTwin ⟨1⟩ one_pos

/-- a twin is an opacity of C30 -/
theorem Twin.constructed (H : Twin rd O O' i i' o o' n S K) : Constructed (Fl rd) O i o n := by
  induction H with
  | gray pc kappa => exact .gray _
  | epbremss pc => exact .epbremss _
  | powerLaw => exact .powerLaw _
  | nonCGS t m l te _ _ _ _ _ ih => exact .nonCGS t m l te trivial trivial trivial trivial ih
  | vScaleFree _ ih => exact .vScaleFree ih
  | vGray _ ih => exact .vGray ih
  | vPowerLawScaleFree _ ih => exact .vPowerLawScaleFree ih
  | vPowerLaw _ ih => exact .vPowerLaw ih
  | vEPBremss _ ih => exact .vEPBremss ih
  | vNonCGSGray _ ih => exact .vNonCGSGray ih
  | vNonCGSPowerLaw _ ih => exact .vNonCGSPowerLaw ih
  | vNonCGSEPBremss _ ih => exact .vNonCGSEPBremss ih

/-- C65: what a vectorised call stores -/
theorem C65_vector (hr : BinaryRounding rd u) (H : Twin rd O O' i i' o o' n S K) (hu : (8 * n + 4) * u ≤ 1) (fn : VFn)
    (rho temp : Fl rd) (hρ : 0 < rho.val) (hT : 0 < temp.val) (nb co : Indexer) (nbins : ℤ) (m : Heap (Fl rd))
    (hs : Spec.Separate nb co nbins) (hν : ∀ k : ℕ, (k : ℤ) < nbins → 0 < (m (nb k)).val) (k : ℕ) (hk : (k : ℤ) < nbins) :
    AgreesTo u (64 * (1 + S) * (1 + K * (m (nb k)).val / temp.val) * (11 * n + 1))
      (vectorFn i o fn rho temp nb co nbins m (co k)).val (scalarFn i' o' fn rho.val temp.val (m (nb k)).val) := by
  have hc : ∀ a b : Fl rd, a * b = b * a := fun a b => by
    show (⟨rd (a.val * b.val)⟩ : Fl rd) = ⟨rd (b.val * a.val)⟩
    rw [mul_comm]
  rw [(C30_bits hc H.constructed fn rho temp nb co nbins m hs).1 k hk]
  exact C65_spectral hr H hu fn rho temp _ hρ hT (hν k hk)

/-- the hypotheses of C65 are met: any number of bins of frequency 1 -/
example (fn : VFn) (nbins : ℤ) (k : ℕ) (hk : (k : ℤ) < nbins) :=
  C65_vector rn53_binary exTwin (by norm_num) fn ⟨1⟩ ⟨1⟩ one_pos one_pos (fun i => 2 * i) (fun i => 2 * i + 1) nbins
    (fun _ => ⟨1⟩) ⟨fun i j _ _ _ => by omega, fun i j _ _ => by omega, fun i j _ _ => by omega⟩
    (fun _ _ => one_pos) k hk

section scattering
variable {O O' : Type} {i : PhotonSAPI (Fl rd) O} {i' : PhotonSAPI ℝ O'} {o : O} {o' : O'} {n : ℕ} {S : ℝ}

/-- C65: scattering -/
theorem C65_scattering (hr : BinaryRounding rd u) (H : TwinS rd O O' i i' o o' n S) (rho temp nu mu : Fl rd)
    (hρ : 0 < rho.val) (hT : 0 < temp.val) (hν : 0 < nu.val) :
    AgreesTo u (16 * (1 + S) * (5 * n + 1)) (i.TotalCrossSection o rho temp nu).val
      (i'.TotalCrossSection o' rho.val temp.val nu.val) ∧
    AgreesTo u (16 * (1 + S) * (5 * n + 1)) (i.DifferentialCrossSection o rho temp nu mu).val
      (i'.DifferentialCrossSection o' rho.val temp.val nu.val mu.val) ∧
    AgreesTo u (16 * (1 + S) * (5 * n + 1)) (i.TotalScatteringCoefficient o rho temp nu).val
      (i'.TotalScatteringCoefficient o' rho.val temp.val nu.val) := by
  obtain ⟨h1, h2, h3⟩ := (twinS_acc hr H).all 0 _ _ _ mu _ _ _ mu.val le_rfl (PF.exact rho hρ) (PF.exact temp hT)
    (PF.exact nu hν)
  rw [zero_add] at h1 h2 h3
  exact ⟨h1.agrees hr, h2.agrees hr, h3.agrees hr⟩

end scattering

/-- the hypotheses of C65 are met: Thomson scattering in a unit system -/
example := C65_scattering rn53_binary (.vNonCGSThomsonS (.nonCGS ⟨2⟩ ⟨3⟩ ⟨5⟩ ⟨7⟩ (by norm_num) (by norm_num)
  (by norm_num) (by norm_num) (.thomson (rd := rn53) PhysicalConstantsCGS ⟨3⟩ (cgs_acc rn53_binary).pos (by norm_num))))
  ⟨1⟩ ⟨1⟩ ⟨1⟩ ⟨-1⟩ one_pos one_pos one_pos

/-- C65 in double precision, in plain numbers: at most one unit wrapper, exponents that add up to at most 4 and
`hν/kT ≤ 700` (above that the exponential overflows): the relative error is below `10⁻⁹`. -/
theorem C65_double {O O' : Type} {i : PhotonAPI (Fl rn53) O} {i' : PhotonAPI ℝ O'} {o : O} {o' : O'} {n : ℕ} {S K : ℝ}
    (H : Twin rn53 O O' i i' o o' n S K) (hn : n ≤ 1) (hS : S ≤ 4) (fn : VFn)
    (rho temp nu : Fl rn53) (hρ : 0 < rho.val) (hT : 0 < temp.val) (hν : 0 < nu.val)
    (hx : K * nu.val / temp.val ≤ 700) :
    |(scalarFn i o fn rho temp nu).val - scalarFn i' o' fn rho.val temp.val nu.val| ≤
      1e-9 * scalarFn i' o' fn rho.val temp.val nu.val := by
  have hn' : (n : ℝ) ≤ 1 := by exact_mod_cast hn
  have hn0 : (0 : ℝ) ≤ n := by positivity
  have hA := twin_acc rn53_binary H
  have hS0 := hA.S_nonneg
  have hx0 : 0 ≤ K * nu.val / temp.val := by have := hA.K_pos; positivity
  have hu : ((8 * (n : ℝ) + 4) * 2 ^ (-53 : ℤ)) ≤ 1 := by
    have : (2 : ℝ) ^ (-53 : ℤ) ≤ 1 / 12 := by norm_num
    have h0 : (0 : ℝ) ≤ 2 ^ (-53 : ℤ) := by positivity
    exact (mul_le_mul (show 8 * (n : ℝ) + 4 ≤ 12 by linarith) this h0 (by norm_num)).trans (by norm_num)
  have h := C65_spectral rn53_binary H hu fn rho temp nu hρ hT hν
  have hpos := (hA.spectral fn 0 _ _ _ _ _ _ le_rfl (unit_small rn53_binary.toRounding hu) (PF.exact rho hρ)
    (PF.exact temp hT) (PF.exact nu hν)).pos
  set N := 64 * (1 + S) * (1 + K * nu.val / temp.val) * (11 * (n : ℝ) + 1) with hN
  have hN0 : 0 ≤ N := by positivity
  have hN1 : N ≤ 64 * 5 * 701 * 12 := by
    have h1 : 64 * (1 + S) ≤ 64 * 5 := by linarith
    have h2 : 1 + K * nu.val / temp.val ≤ 701 := by linarith
    have h3 : 11 * (n : ℝ) + 1 ≤ 12 := by linarith
    exact mul_le_mul (mul_le_mul h1 h2 (by positivity) (by norm_num)) h3 (by positivity) (by norm_num)
  have hsmall : 2 * N * (2 : ℝ) ^ (-53 : ℤ) ≤ 1e-9 * (1 - 2 ^ (-53 : ℤ)) := by
    have h0 : (0 : ℝ) ≤ 2 ^ (-53 : ℤ) := by positivity
    have := mul_le_mul_of_nonneg_right hN1 h0
    have h2 : 2 * (64 * 5 * 701 * 12 * (2 : ℝ) ^ (-53 : ℤ)) ≤ 1e-9 * (1 - 2 ^ (-53 : ℤ)) := by norm_num
    linarith
  have hp : (0 : ℝ) < 1 - 2 ^ (-53 : ℤ) := by norm_num
  refine (h.relative (by positivity) (by norm_num) hN0 hpos.le (hsmall.trans (by linarith))).trans ?_
  exact mul_le_mul_of_nonneg_right (by rw [div_le_iff₀ hp]; exact hsmall) hpos.le

/-- the hypotheses of C65 are met -/
example (fn : VFn) (T : ℝ) (hT : 1 ≤ T) := C65_double exTwin le_rfl (by norm_num) fn ⟨1⟩ ⟨T⟩ ⟨1⟩ one_pos
  (show (0 : ℝ) < T by linarith) one_pos

end Photons

namespace Neutrinos
variable {O O' : Type} {i : NeutrinoAPI (Fl rd) O} {i' : NeutrinoAPI ℝ O'} {o : O} {o' : O'} {n : ℕ} {K : ℝ}

/-- C65: absorption coefficients and emissivities at a frequency -/
theorem C65_spectral (hr : BinaryRounding rd u) (H : Twin rd O O' i i' o o' n K) (hu : (8 * n + 4) * u ≤ 1) (fn : VFn)
    (rho temp Ye nu : Fl rd) (type : RadiationType) (hρ : 0 < rho.val) (hT : 0 < temp.val) (hν : 0 < nu.val) :
    SameEnd (fun a x => AgreesTo u (64 * (1 + K * nu.val / temp.val) * (11 * n + 1)) a.val x)
      (scalarFn i o fn rho temp Ye type nu) (scalarFn i' o' fn rho.val temp.val Ye.val type nu.val) := by
  refine SameEnd.mono (fun a x h => ?_) ((twinN_acc hr H).spectral fn 0 _ _ Ye _ type _ _ Ye.val _ le_rfl
    (unit_small hr.toRounding hu) (PF.exact rho hρ) (PF.exact temp hT) (PF.exact nu hν))
  have := h.agrees hr
  rwa [zero_add] at this

/-- C65: the Fermi–Dirac function -/
theorem C65_fermi (hr : BinaryRounding rd u) (H : Twin rd O O' i i' o o' n K) (hu : (8 * n + 4) * u ≤ 1)
    (temp nu : Fl rd) (type : RadiationType) (hT : 0 < temp.val) (hν : 0 < nu.val) :
    AgreesTo u (64 * (1 + K * nu.val / temp.val) * (11 * n + 1)) (i.ThermalDistributionOfTNu o temp type nu).val
      (i'.ThermalDistributionOfTNu o' temp.val type nu.val) := by
  have := ((twinN_acc hr H).thermal 0 _ _ type _ _ le_rfl (unit_small hr.toRounding hu) (PF.exact temp hT)
    (PF.exact nu hν)).agrees hr
  rwa [zero_add] at this

/-- C65: its temperature derivative, without unit wrappers -/
theorem C65_derivative_partial (hr : BinaryRounding rd u) (H : Twin rd O O' i i' o o' 0 K) (hu : 4 * u ≤ 1)
    (temp nu : Fl rd) (type : RadiationType) (hT : 0 < temp.val) (hν : 0 < nu.val) :
    AgreesTo u (64 * (1 + K * nu.val / temp.val)) (i.DThermalDistributionOfTNuDT o temp type nu).val
      (i'.DThermalDistributionOfTNuDT o' temp.val type nu.val) := by
  have := ((twinN_acc hr H).derivative 0 _ _ type _ _ rfl le_rfl (unit_small hr.toRounding (by push_cast; linarith))
    (PF.exact temp hT) (PF.exact nu hν)).agrees hr
  simpa using this

/-- C65: total emissivity and number emissivity -/
theorem C65_emissivity (hr : BinaryRounding rd u) (H : Twin rd O O' i i' o o' n K) (rho temp Ye : Fl rd)
    (type : RadiationType) (hρ : 0 < rho.val) (hT : 0 < temp.val) :
    SameEnd (fun a x => AgreesTo u (64 * (11 * n + 1)) a.val x) (i.Emissivity o rho temp Ye type)
      (i'.Emissivity o' rho.val temp.val Ye.val type) ∧
    SameEnd (fun a x => AgreesTo u (64 * (11 * n + 1)) a.val x) (i.NumberEmissivity o rho temp Ye type)
      (i'.NumberEmissivity o' rho.val temp.val Ye.val type) := by
  obtain ⟨h1, h2⟩ := (twinN_acc hr H).emissivity 0 _ _ Ye type _ _ Ye.val le_rfl (PF.exact rho hρ) (PF.exact temp hT)
  rw [zero_add] at h1 h2
  exact ⟨h1.mono fun a x h => h.agrees hr, h2.mono fun a x h => h.agrees hr⟩

/-- C65: the frequency-integrated thermal distributions, energy and number density, and the temperature of an energy
density -/
theorem C65_totals (hr : BinaryRounding rd u) (H : Twin rd O O' i i' o o' n K) (t : Fl rd) (type : RadiationType)
    (ht : 0 < t.val) :
    AgreesTo u (64 * (11 * n + 1)) (i.ThermalDistributionOfT o t type).val (i'.ThermalDistributionOfT o' t.val type) ∧
    AgreesTo u (64 * (11 * n + 1)) (i.ThermalNumberDistributionOfT o t type).val
      (i'.ThermalNumberDistributionOfT o' t.val type) ∧
    AgreesTo u (64 * (11 * n + 1)) (i.EnergyDensityFromTemperature o t type).val
      (i'.EnergyDensityFromTemperature o' t.val type) ∧
    AgreesTo u (64 * (11 * n + 1)) (i.TemperatureFromEnergyDensity o t type).val
      (i'.TemperatureFromEnergyDensity o' t.val type) ∧
    AgreesTo u (64 * (11 * n + 1)) (i.NumberDensityFromTemperature o t type).val
      (i'.NumberDensityFromTemperature o' t.val type) := by
  obtain ⟨h1, h2, h3, h4, h5⟩ := (twinN_acc hr H).totals 0 _ type _ le_rfl (PF.exact t ht)
  rw [zero_add] at h1 h2 h3 h4 h5
  exact ⟨h1.agrees hr, h2.agrees hr, h3.agrees hr, h4.agrees hr, h5.agrees hr⟩

section scattering
variable {O O' : Type} {i : NeutrinoSAPI (Fl rd) O} {i' : NeutrinoSAPI ℝ O'} {o : O} {o' : O'} {n : ℕ}

/-- C65: scattering -/
theorem C65_scattering (hr : BinaryRounding rd u) (H : TwinS rd O O' i i' o o' n) (rho temp Ye nu mu : Fl rd)
    (type : RadiationType) (hρ : 0 < rho.val) (hT : 0 < temp.val) (hν : 0 < nu.val) :
    AgreesTo u (16 * (5 * n + 1)) (i.TotalCrossSection o rho temp Ye type nu).val
      (i'.TotalCrossSection o' rho.val temp.val Ye.val type nu.val) ∧
    AgreesTo u (16 * (5 * n + 1)) (i.DifferentialCrossSection o rho temp Ye type nu mu).val
      (i'.DifferentialCrossSection o' rho.val temp.val Ye.val type nu.val mu.val) ∧
    AgreesTo u (16 * (5 * n + 1)) (i.TotalScatteringCoefficient o rho temp Ye type nu).val
      (i'.TotalScatteringCoefficient o' rho.val temp.val Ye.val type nu.val) := by
  obtain ⟨h1, h2, h3⟩ := twinSN_acc hr H 0 _ _ Ye _ mu type _ _ Ye.val _ mu.val le_rfl (PF.exact rho hρ)
    (PF.exact temp hT) (PF.exact nu hν)
  rw [zero_add] at h1 h2 h3
  exact ⟨h1.agrees hr, h2.agrees hr, h3.agrees hr⟩

end scattering

/-- BRT with the library's constants, in a unit system, held by the variant, in double precision -/
theorem exTwin : Twin rn53 (Opacity (Fl rn53)) (Opacity ℝ) inferInstance inferInstance
    (.NonCGSBRT (NonCGSUnits.construct ⟨⟨3, PhysicalConstantsCGS⟩, PhysicalConstantsCGS⟩ ⟨2⟩ ⟨3⟩ ⟨5⟩ ⟨7⟩))
    (.NonCGSBRT (NonCGSUnits.construct ⟨⟨3, (PhysicalConstantsCGS : PC (Fl rn53)).exact⟩,
      (PhysicalConstantsCGS : PC (Fl rn53)).exact⟩ 2 3 5 7)) 1
    ((PhysicalConstantsCGS : PC (Fl rn53)).h.val / (PhysicalConstantsCGS : PC (Fl rn53)).kb.val / (2 * 7)) :=
  .vNonCGSBRT (.nonCGS ⟨2⟩ ⟨3⟩ ⟨5⟩ ⟨7⟩ (by norm_num) (by norm_num) (by norm_num) (by norm_num)
    (.brt ⟨3, _⟩ _ (by norm_num) (cgs_acc rn53_binary).pos (cgs_acc rn53_binary).pos))

/-- the hypotheses of C65 are met -/
example (fn : VFn) (type : RadiationType) :=
  C65_spectral rn53_binary exTwin (by norm_num) fn ⟨1⟩ ⟨1⟩ ⟨1⟩ ⟨1⟩ type one_pos one_pos one_pos
example (type : RadiationType) := C65_fermi rn53_binary exTwin (by norm_num) ⟨1⟩ ⟨1⟩ type one_pos one_pos
example (type : RadiationType) := C65_emissivity rn53_binary exTwin ⟨1⟩ ⟨1⟩ ⟨1⟩ type one_pos one_pos
example (type : RadiationType) := C65_totals rn53_binary exTwin ⟨1⟩ type one_pos
example (type : RadiationType) := C65_derivative_partial rn53_binary
  (.gray ⟨3, PhysicalConstantsCGS⟩ PhysicalConstantsCGS ⟨2⟩ (by norm_num) (cgs_acc rn53_binary).pos (by norm_num))
  (by norm_num) ⟨1⟩ ⟨1⟩ type one_pos one_pos
example (type : RadiationType) := C65_scattering rn53_binary (.vNonCGSGrayS (.nonCGS ⟨2⟩ ⟨3⟩ ⟨5⟩ ⟨7⟩ (by norm_num)
  (by norm_num) (by norm_num) (by norm_num) (.gray (rd := rn53) ⟨3⟩ ⟨5⟩ (by norm_num) (by norm_num))))
  ⟨1⟩ ⟨1⟩ ⟨1⟩ ⟨1⟩ ⟨-1⟩ type one_pos one_pos one_pos

/-- The tophat in a unit wrapper has no such bound: a tophat over (1/2, 1), time unit 49, at frequency 49.  Exactly this
is the frequency 1 and the emissivity is 0; in double precision it is `1 - 2⁻⁵³` and the emissivity is not 0. -/
theorem C65_tophat_false (dist : FermiDirac (Fl rn53)) (pc : PC (Fl rn53)) (N : ℝ) :
    ¬ ∀ (C numin numax time mass length temp rho T Ye nu : Fl rn53), 0 < C.val → 0 < numin.val → numin.val < numax.val →
      0 < time.val → 0 < mass.val → 0 < length.val → 0 < temp.val → 0 < rho.val → 0 < T.val → 0 < Ye.val → 0 < nu.val →
      SameEnd (fun a x => AgreesTo (2 ^ (-53 : ℤ)) N a.val x)
        (NeutrinoAPI.EmissivityPerNuOmega (NonCGSUnits.construct (⟨dist, pc, C, numin, numax⟩ : TophatEmissivity (Fl rn53))
          time mass length temp) rho T Ye .NU_ELECTRON nu)
        (NeutrinoAPI.EmissivityPerNuOmega (NonCGSUnits.construct
          (⟨dist.exact, pc.exact, C.val, numin.val, numax.val⟩ : TophatEmissivity ℝ)
          time.val mass.val length.val temp.val) rho.val T.val Ye.val .NU_ELECTRON nu.val) := by
  intro h
  have hr := rn53_binary
  replace h := h ⟨1⟩ ⟨1 / 2⟩ ⟨1⟩ ⟨49⟩ ⟨1⟩ ⟨1⟩ ⟨1⟩ ⟨1⟩ ⟨1⟩ ⟨1⟩ ⟨49⟩ one_pos (by norm_num) (by norm_num) (by norm_num)
    one_pos one_pos one_pos one_pos one_pos one_pos (by norm_num)
  have e1 : rn53 (1 / 49) = (5882252574524729 : ℤ) * 2 ^ ((-6 : ℤ) - 52) :=
    rn53_of (by norm_num) (by norm_num) (by norm_num [abs_lt])
  have e3 : rn53 (49 * ((5882252574524729 : ℤ) * 2 ^ ((-6 : ℤ) - 52))) =
      (9007199254740991 : ℤ) * 2 ^ ((-1 : ℤ) - 52) :=
    rn53_of (by norm_num) (by norm_num) (by norm_num [abs_lt])
  have hν : ((⟨49⟩ : Fl rn53) * (lit 1 / ⟨49⟩)).val = 1 - 2 ^ (-53 : ℤ) := by
    show rn53 (49 * rn53 (rn53 ((1 : ℚ) : ℝ) / 49)) = _
    rw [Rat.cast_one, hr.one, e1, e3]
    norm_num
  have hin : (gt ((⟨49⟩ : Fl rn53) * (lit 1 / ⟨49⟩)) ⟨1 / 2⟩ && lt ((⟨49⟩ : Fl rn53) * (lit 1 / ⟨49⟩)) ⟨1⟩) = true := by
    show (decide ((1 / 2 : ℝ) < ((⟨49⟩ : Fl rn53) * (lit 1 / ⟨49⟩)).val) &&
      decide (((⟨49⟩ : Fl rn53) * (lit 1 / ⟨49⟩)).val < 1)) = true
    rw [hν]
    norm_num
  have hout : (gt ((49 : ℝ) * (lit 1 / 49)) (1 / 2) && lt ((49 : ℝ) * (lit 1 / 49)) 1) = false := by
    have : (49 : ℝ) * (lit 1 / 49) = 1 := by simp [areal]
    have h2 : lt (1 : ℝ) 1 = false := by rw [Bool.eq_false_iff, Ne, real_lt]; exact lt_irrefl _
    show (gt ((49 : ℝ) * (lit 1 / 49)) (1 / 2) && lt ((49 : ℝ) * (lit 1 / 49)) (1 : ℝ)) = false
    rw [this, h2, Bool.and_false]
  have h1 := PF.exact (u := (2 : ℝ) ^ (-53 : ℤ)) (⟨1⟩ : Fl rn53) one_pos
  have h49 := PF.exact (u := (2 : ℝ) ^ (-53 : ℤ)) (⟨49⟩ : Fl rn53) (by norm_num)
  have ha := (h1.mul hr ((PF.int hr 2 2 (by norm_num) (by norm_num) (by norm_num)).mul hr h1)).mul hr
    (((h1.mul hr h49).mul hr h49).div hr h1)
  replace ha := ha.pos'
  change AgreesTo _ N ((if (gt ((⟨49⟩ : Fl rn53) * (lit 1 / ⟨49⟩)) ⟨1 / 2⟩ &&
    lt ((⟨49⟩ : Fl rn53) * (lit 1 / ⟨49⟩)) ⟨1⟩) then (⟨1⟩ : Fl rn53) * (lit 2 * ⟨1⟩) else lit 0) *
    ((⟨1⟩ : Fl rn53) * ⟨49⟩ * ⟨49⟩ / ⟨1⟩)).val ((if (gt ((49 : ℝ) * (lit 1 / 49)) (1 / 2) &&
    lt ((49 : ℝ) * (lit 1 / 49)) 1) then (1 : ℝ) * (lit 2 * 1) else lit 0) * ((1 : ℝ) * 49 * 49 / 1)) at h
  rw [hin, hout] at h
  have h2 := h.2
  simp only [if_true, Bool.false_eq_true, if_false] at h2
  rw [show (lit 0 : ℝ) = 0 by simp [areal], zero_mul] at h2
  have hp : (0 : ℝ) < (1 - 2 ^ (-53 : ℤ)) ^ N := Real.rpow_pos_of_pos (by norm_num) N
  exact absurd (mul_pos hp ha) (not_lt.2 h2)

end Neutrinos
end Opac
