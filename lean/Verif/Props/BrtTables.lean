import Verif.Props.EmissionNeutrinos
import Verif.Props.NeutrinoModels
import Verif.Props.TableBalance
import Verif.Props.TableBudget
import Verif.Props.TableSlope

/-!
# C95: tables filled from the Burrows–Reddy–Thompson opacity

Over the reals, for electron neutrinos.  The rates at which the opacity and its emissivities change, and with them the accuracy of
every table filled from it (by C89) and the rates of its answers (by C93).
-/

namespace Opac.Tables
open Arith Outcome Spec Spiner Photons Neutrinos
open SpinerOpacity (tiny tiny_pos kelvinPerMeV hzPerMeV FilledFrom Tabulated Ranges sampledFrom)

section
variable {d : FermiDirac ℝ} {pc : PC ℝ} {r : Ranges} {o : SpinerOpacity ℝ} {b : BRTOpacity ℝ}

/-! ## Helpers -/

/-- rates of a product -/
theorem ChangesAtMost.mul {σ τ η θ σ' τ' η' θ' : ℝ} {M M' : State → ℝ} (h : ChangesAtMost σ τ η θ r pc M) (h' : ChangesAtMost σ' τ' η' θ' r pc M')
    (p : ∀ x, Covered r pc x → 0 ≤ M x) (p' : ∀ x, Covered r pc x → 0 ≤ M' x) :
    ChangesAtMost (σ + σ') (τ + τ') (η + η') (θ + θ') r pc fun x => M x * M' x := by
  intro x y hx hy
  have q := mul_le_mul (h x y hx hy) (h' x y hx hy) (p' x hx) (mul_nonneg (by positivity) (p y hy))
  refine q.trans (le_of_eq ?_)
  rw [mul_mul_mul_comm, ← Real.rpow_add (by norm_num)]
  congr 2
  ring

/-- larger rates are rates, too -/
theorem ChangesAtMost.mono {σ τ η θ σ' τ' η' θ' : ℝ} {M : State → ℝ} (h : ChangesAtMost σ τ η θ r pc M) (p : ∀ x, Covered r pc x → 0 ≤ M x)
    (h1 : σ ≤ σ') (h2 : τ ≤ τ') (h3 : η ≤ η') (h4 : θ ≤ θ') : ChangesAtMost σ' τ' η' θ' r pc M := by
  intro x y hx hy
  refine (h x y hx hy).trans (mul_le_mul_of_nonneg_right (Real.rpow_le_rpow_of_exponent_le (by norm_num) ?_) (p y hy))
  gcongr

theorem rho_changes (hpc : 0 < hzPerMeV pc) : ChangesAtMost 1 0 0 0 r pc fun x => x.rho := by
  intro x y hx hy
  have := power_change (covered_pos hpc hx).1 (covered_pos hpc hy).1 1
  rw [pow_one, pow_one, Nat.cast_one] at this
  simpa only [zero_mul, add_zero] using this

/-- the neutrino energy enters with an offset -/
theorem energy_changes (hpc : 0 < hzPerMeV pc) {h D C : ℝ} (hh : 0 < h) (hD : 0 ≤ D) (hC : 0 ≤ C) :
    ChangesAtMost 0 0 0 2 r pc fun x => C * (h * x.nu + D) ^ 2 := by
  intro x y hx hy
  have x3 := (covered_pos hpc hx).2.2
  have y3 := (covered_pos hpc hy).2.2
  have q := power_change x3 y3 1
  rw [pow_one, pow_one, Nat.cast_one, one_mul] at q
  simp only [zero_mul, zero_add]
  have e : (10 : ℝ) ^ (2 * |Real.logb 10 x.nu - Real.logb 10 y.nu|) = (10 ^ |Real.logb 10 x.nu - Real.logb 10 y.nu|) ^ 2 := by
    rw [mul_comm, Real.rpow_mul (by norm_num)]
    norm_num
  have o1 : (1 : ℝ) ≤ 10 ^ |Real.logb 10 x.nu - Real.logb 10 y.nu| := Real.one_le_rpow (by norm_num) (abs_nonneg _)
  rw [e]
  generalize (10 : ℝ) ^ |Real.logb 10 x.nu - Real.logb 10 y.nu| = t at *
  have l : h * x.nu + D ≤ t * (h * y.nu + D) := by nlinarith
  calc C * (h * x.nu + D) ^ 2 ≤ C * (t * (h * y.nu + D)) ^ 2 := by gcongr
    _ = _ := by ring

/-- a polynomial in the temperature with nonnegative coefficients, times a power -/
theorem poly_changes (hpc : 0 < hzPerMeV pc) {A B C : ℝ} (hA : 0 ≤ A) (hB : 0 ≤ B) (hC : 0 ≤ C) (n : ℕ) :
    ChangesAtMost 0 (n + 2) 0 0 r pc fun x => x.T ^ n * (A * x.T ^ 2 + B * x.T + C) := by
  intro x y hx hy
  have x2 := (covered_pos hpc hx).2.1
  have y2 := (covered_pos hpc hy).2.1
  have q := power_change x2 y2 1
  rw [pow_one, pow_one, Nat.cast_one, one_mul] at q
  simp only [zero_mul, zero_add, add_zero]
  have e : (10 : ℝ) ^ (((n : ℝ) + 2) * |Real.logb 10 x.T - Real.logb 10 y.T|) = (10 ^ |Real.logb 10 x.T - Real.logb 10 y.T|) ^ (n + 2) := by
    rw [mul_comm, Real.rpow_mul (by norm_num), ← Real.rpow_natCast]
    push_cast
    rfl
  have o1 : (1 : ℝ) ≤ 10 ^ |Real.logb 10 x.T - Real.logb 10 y.T| := Real.one_le_rpow (by norm_num) (abs_nonneg _)
  rw [e]
  generalize (10 : ℝ) ^ |Real.logb 10 x.T - Real.logb 10 y.T| = t at *
  have t0 : 0 ≤ t := by linarith
  have w : 0 ≤ y.T * t * (t - 1) := by have : 0 ≤ t - 1 := by linarith
                                       positivity
  have w2 : 0 ≤ t ^ 2 - 1 := by nlinarith
  calc x.T ^ n * (A * x.T ^ 2 + B * x.T + C) ≤ (t * y.T) ^ n * (A * (t * y.T) ^ 2 + B * (t * y.T) + C) := by gcongr
    _ ≤ (t * y.T) ^ n * (t ^ 2 * (A * y.T ^ 2 + B * y.T + C)) := by
        refine mul_le_mul_of_nonneg_left ?_ (by positivity)
        nlinarith [mul_nonneg hB w, mul_nonneg hC w2]
    _ = _ := by ring

/-- the opacity of electron neutrinos -/
theorem brt_law (P : PosPC b.pc) (M : PosMatter b.pc) : ∃ C D, 0 < C ∧ 0 < D ∧ ∀ ρ T Ye ν,
    b.AbsorptionCoefficient ρ T Ye .NU_ELECTRON ν = ρ * (C * (b.pc.h * ν + D) ^ 2) := by
  obtain ⟨h1, h2, h3, -⟩ := P
  obtain ⟨m1, m2, m3, m4⟩ := M
  refine ⟨b.pc.nu_sigma0 * ((1 + 3 * b.pc.gA * b.pc.gA) / 4) / (b.pc.me * b.pc.c * b.pc.c) ^ 2 / b.pc.mp, BRTOpacity.Deltanp_, ?_, Deltanp_pos,
    fun ρ T Ye ν => ?_⟩
  · have : 0 < 1 + 3 * b.pc.gA * b.pc.gA := by nlinarith [mul_self_nonneg b.pc.gA]
    positivity
  · simp only [BRTOpacity.AbsorptionCoefficient, BRTOpacity.GetSigmac, BRTOpacity.mu_, areal]
    push_cast
    rw [rpow2]
    field_simp

/-- its total emissivities -/
theorem brt_totals (P : PosPC b.pc) (M : PosMatter b.pc) : ∃ A B C A' B' C', 0 ≤ A ∧ 0 ≤ B ∧ 0 ≤ C ∧ 0 ≤ A' ∧ 0 ≤ B' ∧ 0 ≤ C' ∧ ∀ ρ T Ye,
    b.Emissivity ρ T Ye .NU_ELECTRON = ρ * (T ^ 4 * (A * T ^ 2 + B * T + C)) ∧
    b.NumberEmissivity ρ T Ye .NU_ELECTRON = ρ * (T ^ 3 * (A' * T ^ 2 + B' * T + C')) := by
  have K := brtK_pos P M one_pos
  have eK : ∀ ρ, brtK b.pc ρ = ρ * brtK b.pc 1 := fun ρ => by unfold brtK; ring
  have hd := Deltanp_pos
  have z3 : (0 : ℝ) < BRTOpacity.zeta3_ := by simp only [BRTOpacity.zeta3_, areal]; norm_num
  have z5 : (0 : ℝ) < BRTOpacity.zeta5_ := by simp only [BRTOpacity.zeta5_, areal]; norm_num
  have hk := P.kb
  have hh := P.h
  have hpi := Real.pi_pos
  generalize hκ : brtK b.pc 1 = κ at *
  refine ⟨κ * b.pc.kb ^ 6 / b.pc.h ^ 4 * (31 * Real.pi ^ 6 / 252), κ * b.pc.kb ^ 5 / b.pc.h ^ 4 * (45 * BRTOpacity.Deltanp_ * BRTOpacity.zeta5_),
    κ * b.pc.kb ^ 4 / b.pc.h ^ 4 * (7 * Real.pi ^ 4 / 120 * BRTOpacity.Deltanp_ ^ 2),
    κ * b.pc.kb ^ 5 / b.pc.h ^ 4 * (45 / 2 * BRTOpacity.zeta5_), κ * b.pc.kb ^ 4 / b.pc.h ^ 4 * (7 * Real.pi ^ 4 / 60 * BRTOpacity.Deltanp_),
    κ * b.pc.kb ^ 3 / b.pc.h ^ 4 * (3 / 2 * BRTOpacity.zeta3_ * BRTOpacity.Deltanp_ ^ 2), by positivity, by positivity, by positivity,
    by positivity, by positivity, by positivity, fun ρ T Ye => ⟨?_, ?_⟩⟩
  · rw [brt_total b P M, eK]
    ring
  · rw [brt_number b P M, eK]
    field_simp

/-- nothing of it is negative -/
theorem brt_nonneg (P : PosPC b.pc) (M : PosMatter b.pc) (hd : 0 < b.dist.NSPECIES ∧ PosPC b.dist.pc) (hpc : 0 < hzPerMeV pc) :
    (∀ x, Covered r pc x → 0 ≤ b.AbsorptionCoefficient x.rho (x.T / kelvinPerMeV) x.Ye .NU_ELECTRON x.nu) ∧
    (∀ x, Covered r pc x → 0 ≤ b.EmissivityPerNuOmega x.rho x.T x.Ye .NU_ELECTRON x.nu) ∧
    ∀ x, Covered r pc x → 0 ≤ b.Emissivity x.rho x.T x.Ye .NU_ELECTRON ∧ 0 ≤ b.NumberEmissivity x.rho x.T x.Ye .NU_ELECTRON := by
  obtain ⟨C, D, hC, hD, e⟩ := brt_law P M
  obtain ⟨A1, B1, C1, A2, B2, C2, a1, b1, c1, a2, b2, c2, t⟩ := brt_totals P M
  have n1 : ∀ x, Covered r pc x → 0 ≤ b.AbsorptionCoefficient x.rho (x.T / kelvinPerMeV) x.Ye .NU_ELECTRON x.nu := fun x hx => by
    have := (covered_pos hpc hx).1
    rw [e]
    positivity
  refine ⟨n1, fun x hx => mul_nonneg (n1 x hx) (spectrum_pos hd (covered_pos hpc hx).2.2).le, fun x hx => ?_⟩
  obtain ⟨x1, x2, -⟩ := covered_pos hpc hx
  rw [(t _ _ _).1, (t _ _ _).2]
  constructor <;> positivity

/-! ## C95 -/

/-- **C95 (rates)**: how fast the Burrows–Reddy–Thompson opacity and its emissivities change with density, temperature and frequency;
`X` is the largest `hν/kT` of the range -/
theorem C95_rates (P : PosPC b.pc) (M : PosMatter b.pc) (hd : 0 < b.dist.NSPECIES ∧ PosPC b.dist.pc) (hpc : 0 < hzPerMeV pc) {X : ℝ}
    (hX : X = b.dist.pc.h * (hzPerMeV pc * 10 ^ r.leMax) / (b.dist.pc.kb * 10 ^ r.lTMin)) :
    ChangesAtMost 1 0 0 2 r pc (fun x => b.AbsorptionCoefficient x.rho (x.T / kelvinPerMeV) x.Ye .NU_ELECTRON x.nu) ∧
    ChangesAtMost 1 X 0 (5 + X) r pc (fun x => b.EmissivityPerNuOmega x.rho x.T x.Ye .NU_ELECTRON x.nu) ∧
    ChangesAtMost 1 6 0 0 r pc (fun x => b.Emissivity x.rho x.T x.Ye .NU_ELECTRON) ∧
    ChangesAtMost 1 5 0 0 r pc (fun x => b.NumberEmissivity x.rho x.T x.Ye .NU_ELECTRON) := by
  obtain ⟨C, D, hC, hD, e⟩ := brt_law P M
  obtain ⟨A1, B1, C1, A2, B2, C2, a1, b1, c1, a2, b2, c2, t⟩ := brt_totals P M
  have rho0 : ∀ x, Covered r pc x → 0 ≤ x.rho := fun x hx => (covered_pos hpc hx).1.le
  have en := energy_changes (r := r) (pc := pc) hpc P.h hD.le hC.le
  have en0 : ∀ x, Covered r pc x → 0 ≤ C * (b.pc.h * x.nu + D) ^ 2 := fun x _ => by positivity
  refine ⟨?_, ?_, ?_, ?_⟩
  · have := (rho_changes (r := r) hpc).mul en rho0 en0
    simp only [e]
    simpa using this
  · have g := gray_spectral_changes (r := r) hd hpc zero_le_one hX
    have := g.mul en (fun x hx => mul_nonneg (mul_nonneg (rho0 x hx) zero_le_one) (spectrum_pos hd (covered_pos hpc hx).2.2).le) en0
    have eq : (fun x : State => b.EmissivityPerNuOmega x.rho x.T x.Ye .NU_ELECTRON x.nu) =
        fun x => x.rho * 1 * b.dist.ThermalDistributionOfTNu x.T x.nu * (C * (b.pc.h * x.nu + D) ^ 2) := by
      funext x
      have e' := e x.rho x.T x.Ye x.nu
      have : b.EmissivityPerNuOmega x.rho x.T x.Ye .NU_ELECTRON x.nu =
        b.AbsorptionCoefficient x.rho x.T x.Ye .NU_ELECTRON x.nu * b.dist.ThermalDistributionOfTNu x.T x.nu := rfl
      rw [this, e']
      ring
    rw [eq]
    have e5 : 3 + X + 2 = 5 + X := by ring
    simp only [add_zero, e5] at this
    exact this
  · have := (rho_changes (r := r) hpc).mul (poly_changes hpc a1 b1 c1 4) rho0 fun x hx => by
      have := (covered_pos hpc hx).2.1
      positivity
    simp only [fun x : State => (t x.rho x.T x.Ye).1]
    norm_num at this ⊢
    exact this
  · have := (rho_changes (r := r) hpc).mul (poly_changes hpc a2 b2 c2 3) rho0 fun x hx => by
      have := (covered_pos hpc hx).2.1
      positivity
    simp only [fun x : State => (t x.rho x.T x.Ye).2]
    norm_num at this ⊢
    exact this

/-- **C95 (tables)**: every table filled from it, at every state inside the table -/
theorem C95_tables (P : PosPC b.pc) (M : PosMatter b.pc) (hd : 0 < b.dist.NSPECIES ∧ PosPC b.dist.pc) (hr : r.Proper) (hpc : 0 < hzPerMeV pc)
    (h : FilledFrom d pc (sampledFrom b) r o) {p : State} (hp : Asked r pc p) {ρ T ν X F₁ F₂ F₃ : ℝ} (eρ : ρ = p.rho + tiny)
    (eT : T = p.T + tiny * kelvinPerMeV) (eν : ν = p.nu + tiny * hzPerMeV pc)
    (hX : X = b.dist.pc.h * (hzPerMeV pc * 10 ^ r.leMax) / (b.dist.pc.kb * 10 ^ r.lTMin))
    (h1 : F₁ = factorExponent 1 0 0 2 r) (h2 : F₂ = factorExponent 1 X 0 (5 + X) r) (h3 : F₃ = factorExponent 1 6 0 0 r) :
    (∃ v, NeutrinoAPI.AbsorptionCoefficient o p.rho p.T p.Ye .NU_ELECTRON p.nu = ok v ∧
      10 ^ (-F₁) * (b.AbsorptionCoefficient ρ T p.Ye .NU_ELECTRON ν + tiny) ≤ v ∧
      v ≤ 10 ^ F₁ * (b.AbsorptionCoefficient ρ T p.Ye .NU_ELECTRON ν + tiny)) ∧
    (∃ v, NeutrinoAPI.EmissivityPerNuOmega o p.rho p.T p.Ye .NU_ELECTRON p.nu = ok v ∧
      10 ^ (-F₂) * (b.EmissivityPerNuOmega ρ T p.Ye .NU_ELECTRON ν + tiny) ≤ v ∧
      v ≤ 10 ^ F₂ * (b.EmissivityPerNuOmega ρ T p.Ye .NU_ELECTRON ν + tiny)) ∧
    (∃ v, NeutrinoAPI.Emissivity o p.rho p.T p.Ye .NU_ELECTRON = ok v ∧
      10 ^ (-F₃) * (b.Emissivity ρ T p.Ye .NU_ELECTRON + tiny) ≤ v ∧ v ≤ 10 ^ F₃ * (b.Emissivity ρ T p.Ye .NU_ELECTRON + tiny)) ∧
    ∃ v, NeutrinoAPI.NumberEmissivity o p.rho p.T p.Ye .NU_ELECTRON = ok v ∧
      10 ^ (-F₃) * (b.NumberEmissivity ρ T p.Ye .NU_ELECTRON + tiny) ≤ v ∧
      v ≤ 10 ^ F₃ * (b.NumberEmissivity ρ T p.Ye .NU_ELECTRON + tiny) := by
  obtain ⟨r1, r2, r3, r4⟩ := C95_rates (r := r) P M hd hpc hX
  have hh := hd.2.h
  have hk := hd.2.kb
  have hX0 : 0 ≤ X := by rw [hX]; positivity
  obtain ⟨n1, n2, n3⟩ := brt_nonneg (r := r) P M hd hpc
  obtain ⟨v1, q1, -, q2⟩ := C89_absorption h hr hpc (s := .NU_ELECTRON) (.inl rfl) (fun x hx => ⟨rfl, n1 x hx⟩) zero_le_one (le_refl 0) (le_refl 0)
    zero_le_two r1 hp h1
  obtain ⟨⟨v2, q3, q4⟩, -⟩ := C89_spectral h hr hpc (s := .NU_ELECTRON) (.inl rfl) (fun x hx => ⟨rfl, n2 x hx⟩) zero_le_one hX0 (le_refl 0)
    (by linarith) r2 hp h2
  obtain ⟨q5, q6⟩ := C89_total h hr hpc (s := .NU_ELECTRON) (.inl rfl) (fun x hx => ⟨rfl, (n3 x hx).1⟩) (fun x hx => ⟨rfl, (n3 x hx).2⟩)
    zero_le_one (by norm_num : (0 : ℝ) ≤ 6) (le_refl 0) hp h3
  rw [eρ, eT, eν]
  exact ⟨⟨v1, q1, q2⟩, ⟨v2, q3, q4⟩, q5 r3, q6 (r4.mono (fun x hx => (n3 x hx).2) (le_refl _) (by norm_num) (le_refl _) (le_refl _))⟩

/-- **C95 (changes)**: the answers of such a table at any two states inside it.  The absorption coefficient does not depend on
temperature and electron fraction at all, the emissivities not on electron fraction -/
theorem C95_changes (P : PosPC b.pc) (M : PosMatter b.pc) (hd : 0 < b.dist.NSPECIES ∧ PosPC b.dist.pc) (hr : r.Proper) (hpc : 0 < hzPerMeV pc)
    (h : FilledFrom d pc (sampledFrom b) r o) {p p' x x' : State} (hp : Asked r pc p) (hp' : Asked r pc p') (hx : x = floored pc p)
    (hx' : x' = floored pc p') {X Dρ DT Dν : ℝ}
    (hX : X = b.dist.pc.h * (hzPerMeV pc * 10 ^ r.leMax) / (b.dist.pc.kb * 10 ^ r.lTMin))
    (hρ : Dρ = |Real.logb 10 x.rho - Real.logb 10 x'.rho|) (hT : DT = |Real.logb 10 x.T - Real.logb 10 x'.T|)
    (hν : Dν = |Real.logb 10 x.nu - Real.logb 10 x'.nu|) :
    (∃ v v', NeutrinoAPI.AbsorptionCoefficient o p.rho p.T p.Ye .NU_ELECTRON p.nu = ok v ∧
      NeutrinoAPI.AbsorptionCoefficient o p'.rho p'.T p'.Ye .NU_ELECTRON p'.nu = ok v' ∧ 0 < v' ∧ v ≤ 10 ^ (Dρ + 2 * Dν) * v') ∧
    (∃ v v', NeutrinoAPI.EmissivityPerNuOmega o p.rho p.T p.Ye .NU_ELECTRON p.nu = ok v ∧
      NeutrinoAPI.EmissivityPerNuOmega o p'.rho p'.T p'.Ye .NU_ELECTRON p'.nu = ok v' ∧ 0 < v' ∧
      v ≤ 10 ^ (Dρ + X * DT + (5 + X) * Dν) * v') ∧
    (∃ v v', NeutrinoAPI.Emissivity o p.rho p.T p.Ye .NU_ELECTRON = ok v ∧
      NeutrinoAPI.Emissivity o p'.rho p'.T p'.Ye .NU_ELECTRON = ok v' ∧ 0 < v' ∧ v ≤ 10 ^ (Dρ + 6 * DT) * v') ∧
    ∃ v v', NeutrinoAPI.NumberEmissivity o p.rho p.T p.Ye .NU_ELECTRON = ok v ∧
      NeutrinoAPI.NumberEmissivity o p'.rho p'.T p'.Ye .NU_ELECTRON = ok v' ∧ 0 < v' ∧ v ≤ 10 ^ (Dρ + 5 * DT) * v' := by
  obtain ⟨r1, r2, r3, r4⟩ := C95_rates (r := r) P M hd hpc hX
  obtain ⟨n1, n2, n3⟩ := brt_nonneg (r := r) P M hd hpc
  have hh := hd.2.h
  have hk := hd.2.kb
  have hX0 : 0 ≤ X := by rw [hX]; positivity
  have q1 := C93_absorption h hr hpc (s := .NU_ELECTRON) (.inl rfl) (fun x hx => ⟨rfl, n1 x hx⟩) zero_le_one (le_refl 0) (le_refl 0)
    zero_le_two r1 hp hp' hx hx'
  have q2 := C93_spectral h hr hpc (s := .NU_ELECTRON) (.inl rfl) (fun x hx => ⟨rfl, n2 x hx⟩) zero_le_one hX0 (le_refl 0)
    (by linarith) r2 hp hp' hx hx'
  have q3 := (C93_total h hr hpc (s := .NU_ELECTRON) (.inl rfl) (fun x hx => ⟨rfl, (n3 x hx).1⟩) (fun x hx => ⟨rfl, (n3 x hx).2⟩)
    zero_le_one (by norm_num : (0 : ℝ) ≤ 6) (le_refl 0) hp hp' hx hx' rfl).1 r3
  have q4 := (C93_total h hr hpc (s := .NU_ELECTRON) (.inl rfl) (fun x hx => ⟨rfl, (n3 x hx).1⟩) (fun x hx => ⟨rfl, (n3 x hx).2⟩)
    zero_le_one (by norm_num : (0 : ℝ) ≤ 5) (le_refl 0) hp hp' hx hx' rfl).2 r4
  rw [← hρ, ← hT] at q1 q2 q3 q4
  rw [← hν] at q1 q2
  simp only [one_mul, zero_mul, add_zero] at q1 q2 q3 q4
  exact ⟨q1, q2, q3, q4⟩

/-- it emits by Kirchhoff's law, and absorbs the same at all temperatures -/
theorem brt_steady (P : PosPC b.pc) (M : PosMatter b.pc) (hd : 0 < b.dist.NSPECIES ∧ PosPC b.dist.pc) :
    SteadyKirchhoff b.dist (inferInstance : NeutrinoAPI ℝ (BRTOpacity ℝ)) b where
  kirchhoff := Neutrinos.C23_brt b .self
  spectrum _ _ _ := rfl
  steady _ _ _ _ _ _ := rfl
  nonneg rho T Ye s ν α hρ hν h := by
    have e : b.AbsorptionCoefficient rho T Ye s ν = α := Outcome.ok.inj h
    obtain ⟨C, D, hC, hD, l⟩ := brt_law P M
    by_cases hs : s = .NU_ELECTRON
    · rw [← e, hs, l]
      positivity
    · rw [← e]
      simp [BRTOpacity.AbsorptionCoefficient, (brt_sigma b P M hν).2 s hs, areal]
  positive := hd

/-- **C95 (balance)**: where its absorption and emission of electron neutrinos at the nodes exceed the floor of the table by a factor `1/ε`, emission over
absorption in the table is the thermal spectrum up to a factor, at every state inside the table -/
theorem C95_balance (P : PosPC b.pc) (M : PosMatter b.pc) (hd : 0 < b.dist.NSPECIES ∧ PosPC b.dist.pc) (hr : r.Proper) (hpc : 0 < hzPerMeV pc)
    (h : FilledFrom b.dist pc (sampledFrom b) r o) {ε : ℝ}
    (hε : ∀ i j k m : ℕ, (i : ℤ) < r.NRho → (j : ℤ) < r.NT → (k : ℤ) < r.NYe → (m : ℤ) < r.Ne → ∀ α,
      α = b.AbsorptionCoefficient (r.rhoNode i) (r.TNode j) (r.YeNode k) .NU_ELECTRON (r.nuNode pc m) →
      tiny ≤ ε * α ∧ tiny ≤ ε * (α * b.dist.ThermalDistributionOfTNu (r.TNode j) (r.nuNode pc m)))
    {p : State} (hp : Asked r pc p) {F X B : ℝ} (hX : X = b.dist.pc.h * (hzPerMeV pc * 10 ^ r.leMax) / (b.dist.pc.kb * 10 ^ r.lTMin))
    (hF : F = factorExponent 0 X 0 (max 3 X) r)
    (hB : B = b.dist.ThermalDistributionOfTNu (p.T + tiny * kelvinPerMeV) (p.nu + tiny * hzPerMeV pc)) :
    ∃ α j, NeutrinoAPI.AbsorptionCoefficient o p.rho p.T p.Ye .NU_ELECTRON p.nu = ok α ∧
      NeutrinoAPI.EmissivityPerNuOmega o p.rho p.T p.Ye .NU_ELECTRON p.nu = ok j ∧ 0 < α ∧
      10 ^ (-F) / (1 + ε) * (B * α) ≤ j ∧ j ≤ (1 + ε) * 10 ^ F * (B * α) :=
  C90_balance h hr hpc (brt_steady P M hd) (.inl rfl) (fun i j k m hi hj hk hm α e => hε i j k m hi hj hk hm α (Outcome.ok.inj e).symm) hp hX hF hB

/-- such `ε` exist for every table -/
theorem exists_floor (P : PosPC b.pc) (M : PosMatter b.pc) (hd : 0 < b.dist.NSPECIES ∧ PosPC b.dist.pc) (hpc : 0 < hzPerMeV pc) :
    ∃ ε : ℝ, ∀ i j k m : ℕ, (i : ℤ) < r.NRho → (j : ℤ) < r.NT → (k : ℤ) < r.NYe → (m : ℤ) < r.Ne → ∀ α,
      α = b.AbsorptionCoefficient (r.rhoNode i) (r.TNode j) (r.YeNode k) .NU_ELECTRON (r.nuNode pc m) →
      tiny ≤ ε * α ∧ tiny ≤ ε * (α * b.dist.ThermalDistributionOfTNu (r.TNode j) (r.nuNode pc m)) := by
  obtain ⟨C, D, hC, hD, l⟩ := brt_law P M
  -- the largest ratio over all nodes
  let a : ℕ × ℕ × ℕ × ℕ → ℝ := fun q => b.AbsorptionCoefficient (r.rhoNode q.1) (r.TNode q.2.1) (r.YeNode q.2.2.1) .NU_ELECTRON (r.nuNode pc q.2.2.2)
  let t : ℕ × ℕ × ℕ × ℕ → ℝ := fun q => b.dist.ThermalDistributionOfTNu (r.TNode q.2.1) (r.nuNode pc q.2.2.2)
  have ha : ∀ q, 0 < a q := fun q => by
    have := rhoNode_pos (r := r) q.1
    have := nuNode_pos (r := r) hpc q.2.2.2
    have := P.h
    simp only [a, l]
    positivity
  have ht : ∀ q, 0 < t q := fun q => spectrum_pos hd (nuNode_pos hpc _)
  let S := Finset.range r.NRho.toNat ×ˢ Finset.range r.NT.toNat ×ˢ Finset.range r.NYe.toNat ×ˢ Finset.range r.Ne.toNat
  refine ⟨∑ q ∈ S, (tiny / a q + tiny / (a q * t q)), fun i j k m hi hj hk hm α e => ?_⟩
  have hS := tiny_pos
  have hq : (i, j, k, m) ∈ S := by
    simp only [S, Finset.mem_product, Finset.mem_range]
    omega
  have le := Finset.single_le_sum (f := fun q => tiny / a q + tiny / (a q * t q)) (fun q _ => by
    have := ha q
    have := ht q
    positivity) hq
  have a0 := ha (i, j, k, m)
  have t0 := ht (i, j, k, m)
  have ea : α = a (i, j, k, m) := e
  change _ ∧ tiny ≤ _ * (α * t (i, j, k, m))
  rw [ea]
  beta_reduce at le
  generalize a (i, j, k, m) = A at *
  generalize t (i, j, k, m) = B at *
  generalize (∑ q ∈ S, (tiny / a q + tiny / (a q * t q))) = E at *
  have p1 : 0 < tiny / A := by positivity
  have p2 : 0 < tiny / (A * B) := by positivity
  constructor
  · rw [← div_le_iff₀ a0]
    linarith
  · rw [← div_le_iff₀ (by positivity)]
    linarith

/-- **C95 (budget)**: the tabulated spectrum of electron neutrinos integrates to no more than the tabulated total times the number of species
(the source's own discrepancy, see `C21_brt_false`), up to the factors of the table and two parts in a million -/
theorem C95_budget (P : PosPC b.pc) (M : PosMatter b.pc) (hd : 0 < b.dist.NSPECIES) (same : b.dist.pc = b.pc) (hr : r.Proper) (hpc : 0 < hzPerMeV pc)
    (h : FilledFrom d pc (sampledFrom b) r o) {ρ T Ye ν₁ ν₂ : ℝ} (hν : ν₁ ≤ ν₂) (h₁ : Asked r pc ⟨ρ, T, Ye, ν₁⟩) (h₂ : Asked r pc ⟨ρ, T, Ye, ν₂⟩)
    {F F' X : ℝ} (hX : X = b.dist.pc.h * (hzPerMeV pc * 10 ^ r.leMax) / (b.dist.pc.kb * 10 ^ r.lTMin))
    (hF : F = factorExponent 1 X 0 (5 + X) r) (hF' : F' = factorExponent 1 6 0 0 r) :
    ∃ (e : ℝ → ℝ) (total : ℝ), ContinuousOn e (Set.Icc ν₁ ν₂) ∧
      (∀ ν ∈ Set.Icc ν₁ ν₂, NeutrinoAPI.EmissivityPerNu o ρ T Ye .NU_ELECTRON ν = ok (e ν)) ∧
      NeutrinoAPI.Emissivity o ρ T Ye .NU_ELECTRON = ok total ∧
      ∫ ν in ν₁..ν₂, e ν ≤ 10 ^ F * (1.000002 * b.dist.NSPECIES * (10 ^ F' * total) + 4 * Real.pi * tiny * (ν₂ - ν₁)) := by
  have hd' : 0 < b.dist.NSPECIES ∧ PosPC b.dist.pc := ⟨hd, by rw [same]; exact P⟩
  obtain ⟨r1, r2, r3, r4⟩ := C95_rates (r := r) P M hd' hpc hX
  obtain ⟨n1, n2, n3⟩ := brt_nonneg (r := r) P M hd' hpc
  obtain ⟨C, D, hC, hD, l⟩ := brt_law P M
  have hh := hd'.2.h
  have hk := hd'.2.kb
  have hn : (0 : ℝ) < b.dist.NSPECIES := by exact_mod_cast hd
  have hX0 : 0 ≤ X := by rw [hX]; positivity
  refine C94_budget_times (c := 1.000002 * b.dist.NSPECIES) h hr hpc (s := .NU_ELECTRON) (.inl rfl) (by positivity) (fun ρ T Ye J Jν _ hT h1 j0 h2 => ?_)
    (M := fun x => b.EmissivityPerNuOmega x.rho x.T x.Ye .NU_ELECTRON x.nu) (fun x x1 x2 x3 => ⟨rfl, ?_, ?_⟩)
    (J := fun x => b.Emissivity x.rho x.T x.Ye .NU_ELECTRON) (fun x hx => ⟨rfl, (n3 x hx).1⟩)
    (fun x hx => ⟨_, rfl, (n3 x hx).2⟩) zero_le_one hX0 (le_refl 0) (by linarith) zero_le_one (by norm_num : (0 : ℝ) ≤ 6) (le_refl 0) r2 r3 hν h₁ h₂ hF hF'
  · obtain ⟨i1, i2⟩ := Neutrinos.C21_brt_partial b same P M .self ρ T Ye .NU_ELECTRON J Jν trivial hT h1 h2
    refine ⟨i1, ?_⟩
    have q := mul_nonneg hn.le j0
    generalize ∫ ν in Set.Ioi (0 : ℝ), Jν ν = I at *
    rw [mul_assoc]
    generalize (b.dist.NSPECIES : ℝ) * J = K at *
    have := neg_abs_le (K - I)
    by_cases hI : 0 ≤ I
    · rw [abs_of_nonneg hI] at i2
      norm_num at i2 ⊢
      linarith
    · push Not at hI
      norm_num at *
      linarith
  · show ok (b.EmissivityPerNu _ _ _ _ _) = _
    simp only [BRTOpacity.EmissivityPerNu, areal]
    push_cast
    rfl
  · have e : b.EmissivityPerNuOmega x.rho x.T x.Ye .NU_ELECTRON x.nu =
      b.AbsorptionCoefficient x.rho x.T x.Ye .NU_ELECTRON x.nu * b.dist.ThermalDistributionOfTNu x.T x.nu := rfl
    have := spectrum_pos hd' x3 (T := x.T)
    rw [e, l]
    positivity

/-- the hypotheses are met: two nodes per axis, density 3, temperature 5, 2 MeV; the absorption coefficient is within a factor `10^1.5` -/
example (d : FermiDirac ℝ) (pc : PC ℝ) (hpc : 0 < hzPerMeV pc) (P : PosPC b.pc) (M : PosMatter b.pc)
    (hd : 0 < b.dist.NSPECIES ∧ PosPC b.dist.pc) :
    ∃ o v, FilledFrom d pc (sampledFrom b) SpinerOpacity.twoNodes o ∧
      NeutrinoAPI.AbsorptionCoefficient o 3 5 (1 / 2) .NU_ELECTRON (2 * hzPerMeV pc) = ok v ∧
      v ≤ 10 ^ (3 / 2 : ℝ) * (b.AbsorptionCoefficient (3 + tiny) (5 + tiny * kelvinPerMeV) (1 / 2) .NU_ELECTRON
        (2 * hzPerMeV pc + tiny * hzPerMeV pc) + tiny) := by
  obtain ⟨o, ho⟩ := SpinerOpacity.fill_returns (dist := d) (pc := pc) (opac := sampledFrom b) (junk := fun _ _ => (0 : ℝ))
    (lRhoMin := SpinerOpacity.twoNodes.lRhoMin) (lRhoMax := SpinerOpacity.twoNodes.lRhoMax) (NRho := SpinerOpacity.twoNodes.NRho)
    (lTMin := SpinerOpacity.twoNodes.lTMin) (lTMax := SpinerOpacity.twoNodes.lTMax) (NT := SpinerOpacity.twoNodes.NT)
    (YeMin := SpinerOpacity.twoNodes.YeMin) (YeMax := SpinerOpacity.twoNodes.YeMax) (NYe := SpinerOpacity.twoNodes.NYe)
    (leMin := SpinerOpacity.twoNodes.leMin) (leMax := SpinerOpacity.twoNodes.leMax) (Ne := SpinerOpacity.twoNodes.Ne)
    (fun _ _ _ _ => ⟨_, rfl⟩) (fun _ _ _ _ => ⟨_, rfl⟩) (fun _ _ _ _ _ => ⟨_, rfl⟩) (fun _ _ _ _ _ => ⟨_, rfl⟩)
  have hf : FilledFrom d pc (sampledFrom b) SpinerOpacity.twoNodes o := ⟨_, ho⟩
  obtain ⟨⟨v, e1, -, e2⟩, -⟩ := C95_tables P M hd SpinerOpacity.twoNodes_proper hpc hf (asked_example pc hpc) (F₁ := 3 / 2) rfl rfl rfl rfl (by
    simp [factorExponent, SpinerOpacity.twoNodes]
    norm_num) rfl rfl
  exact ⟨o, v, hf, e1, e2⟩

/-- for example: from temperature 5 to 4 at twice the density, the tabulated absorption coefficient grows at most like the floored density -/
example (d : FermiDirac ℝ) (pc : PC ℝ) (hpc : 0 < hzPerMeV pc) (P : PosPC b.pc) (M : PosMatter b.pc)
    (hd : 0 < b.dist.NSPECIES ∧ PosPC b.dist.pc) {o : SpinerOpacity ℝ} (h : FilledFrom d pc (sampledFrom b) SpinerOpacity.twoNodes o) :
    ∃ v v', NeutrinoAPI.AbsorptionCoefficient o 6 4 (1 / 2) .NU_ELECTRON (2 * hzPerMeV pc) = ok v ∧
      NeutrinoAPI.AbsorptionCoefficient o 3 5 (1 / 2) .NU_ELECTRON (2 * hzPerMeV pc) = ok v' ∧ 0 < v' ∧
      v ≤ 10 ^ |Real.logb 10 (6 + tiny) - Real.logb 10 (3 + tiny)| * v' := by
  obtain ⟨⟨v, v', e1, e2, e3, e4⟩, -⟩ := C95_changes P M hd SpinerOpacity.twoNodes_proper hpc h (asked_example' pc hpc) (asked_example pc hpc) rfl rfl
    rfl rfl rfl rfl
  refine ⟨v, v', e1, e2, e3, ?_⟩
  simpa [floored] using e4

example (pc : PC ℝ) (hpc : 0 < hzPerMeV pc) (P : PosPC b.pc) (M : PosMatter b.pc)
    (hd : 0 < b.dist.NSPECIES ∧ PosPC b.dist.pc) {o : SpinerOpacity ℝ} (h : FilledFrom b.dist pc (sampledFrom b) SpinerOpacity.twoNodes o) :
    ∃ ε F α j : ℝ, NeutrinoAPI.AbsorptionCoefficient o 3 5 (1 / 2) .NU_ELECTRON (2 * hzPerMeV pc) = ok α ∧
      NeutrinoAPI.EmissivityPerNuOmega o 3 5 (1 / 2) .NU_ELECTRON (2 * hzPerMeV pc) = ok j ∧ 0 < α ∧
      j ≤ (1 + ε) * 10 ^ F * (b.dist.ThermalDistributionOfTNu (5 + tiny * kelvinPerMeV) (2 * hzPerMeV pc + tiny * hzPerMeV pc) * α) := by
  obtain ⟨ε, hε⟩ := exists_floor P M hd hpc
  obtain ⟨α, j, e1, e2, e3, -, e4⟩ := C95_balance P M hd SpinerOpacity.twoNodes_proper hpc h hε (asked_example pc hpc) rfl rfl rfl
  exact ⟨ε, _, α, j, e1, e2, e3, e4⟩

/-- between 2 and 4 MeV -/
example (d : FermiDirac ℝ) (pc : PC ℝ) (hpc : 0 < hzPerMeV pc) (P : PosPC b.pc) (M : PosMatter b.pc) (hd : 0 < b.dist.NSPECIES)
    (same : b.dist.pc = b.pc) {o : SpinerOpacity ℝ} (h : FilledFrom d pc (sampledFrom b) SpinerOpacity.twoNodes o) :
    ∃ (e : ℝ → ℝ) (total F : ℝ),
      (∀ ν ∈ Set.Icc (2 * hzPerMeV pc) (4 * hzPerMeV pc), NeutrinoAPI.EmissivityPerNu o 3 5 (1 / 2) .NU_ELECTRON ν = ok (e ν)) ∧
      NeutrinoAPI.Emissivity o 3 5 (1 / 2) .NU_ELECTRON = ok total ∧
      ∫ ν in (2 * hzPerMeV pc)..(4 * hzPerMeV pc), e ν ≤
        10 ^ F * (1.000002 * b.dist.NSPECIES * (10 ^ (7 / 2 : ℝ) * total) + 4 * Real.pi * tiny * (4 * hzPerMeV pc - 2 * hzPerMeV pc)) := by
  have a := asked_example pc hpc
  have a' : Asked SpinerOpacity.twoNodes pc ⟨3, 5, 1 / 2, 4 * hzPerMeV pc⟩ := by
    refine ⟨a.rho, a.T, by positivity, a.covered.rho, a.covered.T, a.covered.Ye, ?_⟩
    have hS := tiny_pos
    have hS1 := SpinerOpacity.tiny_le_one
    simp only [floored, SpinerOpacity.twoNodes, Real.rpow_zero, Real.rpow_one]
    constructor <;> nlinarith
  obtain ⟨e, t, -, h1, h2, h3⟩ := C95_budget P M hd same SpinerOpacity.twoNodes_proper hpc h (by linarith) a a' rfl rfl (F' := 7 / 2)
    (by simp [factorExponent, SpinerOpacity.twoNodes]; norm_num)
  exact ⟨e, t, _, h1, h2, h3⟩

/-- the constants of the library meet the hypotheses -/
example : let b : BRTOpacity ℝ := ⟨⟨3, PhysicalConstantsCGS⟩, PhysicalConstantsCGS⟩
    PosPC b.pc ∧ PosMatter b.pc ∧ (0 < b.dist.NSPECIES ∧ PosPC b.dist.pc) ∧ 0 < hzPerMeV b.pc :=
  ⟨PosPC_CGS, PosMatter_CGS, ⟨by norm_num, PosPC_CGS⟩, by
    have := PosPC_CGS.h
    have e : 0 < (PhysicalConstantsCGS : PC ℝ).eV := by
      simp only [PhysicalConstantsCGS, PhysicalConstants, BaseSICODATA2010, UnitConversionSIToCGS, areal]
      push_cast
      positivity
    unfold hzPerMeV
    positivity⟩

end

end Opac.Tables
