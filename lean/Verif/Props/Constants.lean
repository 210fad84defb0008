import Verif.Lemmas.RealArith
import Verif.Spec.Units
import Mathlib.Tactic.Linarith
import Mathlib.Analysis.Real.Pi.Bounds

/-! # C29, C44, C45: physical constants -/

set_option linter.unusedSimpArgs false

namespace Opac
open Arith Spec

/-! ## C44 -/

/-- **C44**, the relations: for every base set of constants and every unit conversion (with nonzero units and
speed of light). -/
theorem C44_relations (B : BaseConsts ℝ) (U : UnitConv ℝ) :
    let p := PhysicalConstants B U
    p.ar = 4 * p.sb / p.c ∧
    p.sb = 2 * Real.pi ^ 5 * p.kb ^ 4 / (15 * p.h ^ 3 * p.c ^ 2) ∧
    p.h = 2 * Real.pi * p.hbar ∧
    p.r_gas = p.na * p.kb := by
  intro p
  refine ⟨by simp [p, PhysicalConstants, areal], ?_, ?_, rfl⟩
  · simp only [p, PhysicalConstants, areal]; push_cast; ring
  · simp only [p, PhysicalConstants, areal]; push_cast; field_simp

/-- the same relations for the constants the library uses by default, with the values of `c`, `h` and `k` in
CGS as tabulated by CODATA 2010 -/
theorem C44_cgs :
    (PhysicalConstantsCGS : PC ℝ).c = 2.99792458e10 ∧ (PhysicalConstantsCGS : PC ℝ).h = 6.62606957e-27 ∧
    (PhysicalConstantsCGS : PC ℝ).kb = 1.3806488e-16 ∧ (PhysicalConstantsCGS : PC ℝ).me = 9.10938291e-28 ∧
    (PhysicalConstantsCGS : PC ℝ).mp = 1.672621777e-24 ∧ (PhysicalConstantsCGS : PC ℝ).g_newt = 6.67384e-8 ∧
    (PhysicalConstantsCGS : PC ℝ).eV = 1.602176565e-12 := by
  simp only [PhysicalConstantsCGS, PhysicalConstants, BaseSICODATA2010, UnitConversionSIToCGS, areal]
  push_cast
  norm_num

theorem hbar_cgs : (PhysicalConstantsCGS : PC ℝ).hbar = 6.62606957e-27 / (2 * Real.pi) := by
  simp only [PhysicalConstantsCGS, PhysicalConstants, BaseSICODATA2010, UnitConversionSIToCGS, areal]
  push_cast
  norm_num

/-- the remaining default constants in CGS have their CODATA 2010 values; the charge is the Gaussian one, as the fine
structure constant `e²/(ħc)` shows; a mole of atomic mass units is a gram; the Stefan-Boltzmann constant has its
value -/
theorem C44_cgs_values :
    let p := (PhysicalConstantsCGS : PC ℝ)
    p.na = 6.02214129e23 ∧ p.alpha = 7.2973525698e-3 ∧ p.mn = 1.674927351e-24 ∧ p.amu = 1.660538921e-24 ∧
    p.gA = -1.23 ∧
    |p.qe ^ 2 / (p.hbar * p.c) / p.alpha - 1| < 1e-8 ∧ |p.na * p.amu - 1| < 1e-8 ∧ |p.sb / 5.670373e-5 - 1| < 1e-6 := by
  intro p
  have hb : p.hbar = 6.62606957e-27 / (2 * Real.pi) := hbar_cgs
  obtain ⟨hc, hh, hk, -, -, -, -⟩ := C44_cgs
  have hsb := (C44_relations BaseSICODATA2010 UnitConversionSIToCGS).2.1
  have l := Real.pi_gt_d20
  have u := Real.pi_lt_d20
  have hp := Real.pi_pos
  have v : p.na = 6.02214129e23 ∧ p.alpha = 7.2973525698e-3 ∧ p.mn = 1.674927351e-24 ∧ p.amu = 1.660538921e-24 ∧
      p.gA = -1.23 ∧ p.qe = 1.602176565e-19 * 2.99792458e9 := by
    simp only [p, PhysicalConstantsCGS, PhysicalConstants, BaseSICODATA2010, UnitConversionSIToCGS, areal]
    push_cast
    norm_num
  obtain ⟨v1, v2, v3, v4, v5, v6⟩ := v
  refine ⟨v1, v2, v3, v4, v5, ?_, by rw [v1, v4]; norm_num [abs_lt], ?_⟩
  · have e : p.qe ^ 2 / (p.hbar * p.c) / p.alpha =
        (1.602176565e-19 * 2.99792458e9) ^ 2 * 2 / (6.62606957e-27 * 2.99792458e10 * 7.2973525698e-3) * Real.pi := by
      rw [hb, v2, v6, show p.c = _ from hc]; field_simp
    rw [e, abs_lt]
    constructor <;> norm_num at l u ⊢ <;> linarith
  · have e : p.sb = 2 * (1.3806488e-16) ^ 4 / (15 * (6.62606957e-27) ^ 3 * (2.99792458e10) ^ 2) * Real.pi ^ 5 := by
      have : p.sb = 2 * Real.pi ^ 5 * p.kb ^ 4 / (15 * p.h ^ 3 * p.c ^ 2) := hsb
      rw [this, show p.c = _ from hc, show p.h = _ from hh, show p.kb = _ from hk]; ring
    have l5 : (3.14159265 : ℝ) ^ 5 < Real.pi ^ 5 := pow_lt_pow_left₀ (by norm_num at l ⊢; linarith) (by norm_num) (by norm_num)
    have u5 : Real.pi ^ 5 < (3.14159266 : ℝ) ^ 5 := pow_lt_pow_left₀ (by norm_num at u ⊢; linarith) hp.le (by norm_num)
    rw [e, abs_lt]
    constructor <;> norm_num at l5 u5 ⊢ <;> linarith

/-- the SI constants have their CODATA 2010 values, and converting each quantity from SI to CGS by the powers of 10 of
its dimension gives the CGS constant -/
theorem C44_si :
    let s := (PhysicalConstantsSI : PC ℝ)
    let p := (PhysicalConstantsCGS : PC ℝ)
    s.c = 299792458 ∧ s.h = 6.62606957e-34 ∧ s.kb = 1.3806488e-23 ∧ s.qe = 1.602176565e-19 ∧ s.eV = s.qe ∧
    p.na = s.na ∧ p.alpha = s.alpha ∧ p.gA = s.gA ∧ p.c = 1e2 * s.c ∧ p.h = 1e7 * s.h ∧ p.hbar = 1e7 * s.hbar ∧
    p.kb = 1e7 * s.kb ∧ p.r_gas = 1e7 * s.r_gas ∧ p.eV = 1e7 * s.eV ∧ p.me = 1e3 * s.me ∧ p.mp = 1e3 * s.mp ∧
    p.mn = 1e3 * s.mn ∧ p.amu = 1e3 * s.amu ∧ p.g_newt = 1e3 * s.g_newt ∧ p.sb = 1e3 * s.sb ∧ p.ar = 10 * s.ar := by
  simp only [PhysicalConstantsSI, PhysicalConstantsCGS, PhysicalConstants, BaseSICODATA2010, UnitConversionSIToCGS,
    UnitConversionDefault, areal]
  push_cast
  norm_num
  refine ⟨?_, ?_, ?_⟩ <;> ring

/-- in the scale-free set every basic constant is one -/
theorem C44_unity :
    let p := (PhysicalConstantsUnity : PC ℝ)
    p.na = 1 ∧ p.alpha = 1 ∧ p.h = 1 ∧ p.kb = 1 ∧ p.r_gas = 1 ∧ p.qe = 1 ∧ p.c = 1 ∧ p.g_newt = 1 ∧ p.me = 1 ∧ p.mp = 1 ∧
    p.mn = 1 ∧ p.amu = 1 ∧ p.eV = 1 ∧ p.Fc = 1 ∧ p.hbar = 1 / (2 * Real.pi) ∧ p.sb = 2 * Real.pi ^ 5 / 15 := by
  simp only [PhysicalConstantsUnity, PhysicalConstants, BaseUnity, UnitConversionDefault, areal]
  push_cast
  norm_num
  ring

/-- closed form of the fiducial weak cross section -/
theorem nu_sigma0_cgs : (PhysicalConstantsCGS : PC ℝ).nu_sigma0 =
    4 * 1e4 * (4.543791885043567014 / 1e14) ^ 2 * (2.99792458e10) ^ 2 * (6.62606957e-27 / (2 * Real.pi)) ^ 2
      * (9.10938291e-28) ^ 2 * (2.99792458e10) ^ 4 / Real.pi := by
  simp only [PhysicalConstantsCGS, PhysicalConstants, BaseSICODATA2010, UnitConversionSIToCGS, areal]
  push_cast
  norm_num
  ring

/-- the fiducial weak cross section the library actually uses in CGS -/
theorem C44_sigma0_value :
    1.7e-68 < (PhysicalConstantsCGS : PC ℝ).nu_sigma0 ∧ (PhysicalConstantsCGS : PC ℝ).nu_sigma0 < 1.8e-68 := by
  have h1 := Real.pi_gt_d4
  have h2 := Real.pi_lt_d4
  have hp : 0 < Real.pi := Real.pi_pos
  have e : (PhysicalConstantsCGS : PC ℝ).nu_sigma0 = (4 * 1e4 * (4.543791885043567014 / 1e14) ^ 2 *
      (2.99792458e10) ^ 2 * (6.62606957e-27 / 2) ^ 2
      * (9.10938291e-28) ^ 2 * (2.99792458e10) ^ 4) / Real.pi ^ 3 := by
    rw [nu_sigma0_cgs]; field_simp
  have l3 : (3.1415 : ℝ) ^ 3 < Real.pi ^ 3 := pow_lt_pow_left₀ h1 (by norm_num) (by norm_num)
  have u3 : Real.pi ^ 3 < (3.1416 : ℝ) ^ 3 := pow_lt_pow_left₀ h2 hp.le (by norm_num)
  have p3 : 0 < Real.pi ^ 3 := by positivity
  rw [e]
  constructor
  · rw [lt_div_iff₀ p3]
    calc 1.7e-68 * Real.pi ^ 3 < 1.7e-68 * (3.1416 : ℝ) ^ 3 := by
          exact mul_lt_mul_of_pos_left u3 (by norm_num)
      _ < _ := by norm_num
  · rw [div_lt_iff₀ p3]
    calc _ < 1.8e-68 * (3.1415 : ℝ) ^ 3 := by norm_num
      _ < _ := mul_lt_mul_of_pos_left l3 (by norm_num)

/-- **C44 is false for the fiducial weak cross section**: it is not `1.76e-44 cm²` to any useful accuracy (not
even within a factor 10²³). -/
theorem C44_sigma0_false :
    ¬ (1.76e-44 / 1e23 < (PhysicalConstantsCGS : PC ℝ).nu_sigma0 ∧
      (PhysicalConstantsCGS : PC ℝ).nu_sigma0 < 1.76e-44 * 1e23) := by
  rintro ⟨h, _⟩
  have := C44_sigma0_value.2
  have h3 : (1.8e-68 : ℝ) < 1.76e-44 / 1e23 := by norm_num
  linarith

/-! ## C45 -/

/-- relative closeness with the tolerance of the code -/
def Close (a b : ℝ) : Prop := |a - b| ≤ 10 * 2 ^ (-1022 : ℤ) * ((|a| + |b|) / 2 + 1e-100)

theorem eps_equal_iff (a b : ℝ) : eps_equal a b = true ↔ Close a b := by
  unfold eps_equal Close
  simp only [real_le]
  simp only [areal]
  push_cast
  rw [div_le_iff₀ (by positivity)]
  constructor <;> intro h <;> refine le_trans h (le_of_eq ?_) <;> norm_num <;> ring

/-- all the fields of a set of runtime constants, in declaration order -/
def RPC.fields {R : Type} (x : RPC R) : List R :=
  [x.time, x.mass, x.length, x.temp, x.pc.na, x.pc.alpha, x.pc.h, x.pc.hbar, x.pc.kb, x.pc.r_gas, x.pc.qe,
   x.pc.c, x.pc.g_newt, x.pc.me, x.pc.mp, x.pc.mn, x.pc.amu, x.pc.sb, x.pc.ar, x.pc.eV, x.pc.Fc,
   x.pc.nu_sigma0, x.pc.gA]

/-- `RPC.fields` leaves nothing out: it determines the set -/
theorem RPC.fields_injective {R : Type} (x y : RPC R) (h : x.fields = y.fields) : x = y := by
  obtain ⟨a, b, c, d, p⟩ := x
  obtain ⟨a', b', c', d', p'⟩ := y
  obtain ⟨⟩ := p
  obtain ⟨⟩ := p'
  simp only [RPC.fields, List.cons.injEq, and_true] at h
  simp only [RPC.mk.injEq, PC.mk.injEq]
  tauto

/-- **C45.** Equality of runtime constants is reflexive and symmetric, and holds exactly when every unit and
every constant agrees to the (tiny) relative tolerance — so a larger change of any single field is detected. -/
theorem C45_equality :
    (∀ x : RPC ℝ, RPC.beq x x = true) ∧
    (∀ x y : RPC ℝ, RPC.beq x y = RPC.beq y x) ∧
    (∀ x y : RPC ℝ, RPC.beq x y = true ↔ List.Forall₂ Close x.fields y.fields) := by
  have key : ∀ x y : RPC ℝ, RPC.beq x y = true ↔ List.Forall₂ Close x.fields y.fields := by
    intro x y
    simp only [RPC.beq, RPC.fields, Bool.and_eq_true, eps_equal_iff, List.forall₂_cons, List.forall₂_nil_left_iff,
      true_and, and_true, and_assoc]
  have refl : ∀ a, Close a a := by intro a; unfold Close; rw [sub_self, abs_zero]; positivity
  have symm : ∀ a b, Close a b → Close b a := by
    intro a b h; unfold Close at *; rw [abs_sub_comm, add_comm |b|]; exact h
  refine ⟨fun x => (key x x).2 ?_, fun x y => ?_, key⟩
  · exact List.forall₂_same.2 fun a _ => refl a
  · rw [Bool.eq_iff_iff, key, key]
    constructor <;> intro h
    · exact (List.Forall₂.imp (fun a b h => symm _ _ h) h).flip
    · exact (List.Forall₂.imp (fun a b h => symm _ _ h) h).flip

/-- the tolerance is so small that any two distinct values whose relative difference is at least `1e-50` are told apart -/
theorem C45_sensitive (a b : ℝ) (ha : 1e-90 ≤ |a|) (h : |a - b| > 1e-50 * (|a| + |b|)) :
    eps_equal a b = false := by
  rw [Bool.eq_false_iff, ne_eq, eps_equal_iff]
  intro hc
  unfold Close at hc
  have h0 : (2 : ℝ) ^ (-1022 : ℤ) ≤ 2 ^ (-200 : ℤ) := zpow_le_zpow_right₀ (by norm_num) (by norm_num)
  have h1 : (10 : ℝ) * 2 ^ (-1022 : ℤ) ≤ 1e-50 := by
    have : (10 : ℝ) * 2 ^ (-200 : ℤ) ≤ 1e-50 := by norm_num
    exact le_trans (mul_le_mul_of_nonneg_left h0 (by norm_num)) this
  have h2 : (|a| + |b|) / 2 + 1e-100 ≤ |a| + |b| := by
    have := abs_nonneg b
    have h3 : (1e-100 : ℝ) ≤ 1e-90 / 2 := by norm_num
    linarith
  have h4 : 10 * 2 ^ (-1022 : ℤ) * ((|a| + |b|) / 2 + 1e-100) ≤ 1e-50 * (|a| + |b|) :=
    mul_le_mul h1 h2 (by positivity) (by norm_num)
  linarith

/-- non-vacuity: CGS and CGS with the mass unit doubled are different, CGS equals itself -/
example : RPC.beq (RPC.ofPC PhysicalConstantsCGS) (RPC.ofPC (PhysicalConstantsCGS : PC ℝ)) = true ∧
    RPC.beq (RPC.ofUnits (PhysicalConstantsCGS : PC ℝ) 1 2 1 1) (RPC.ofPC PhysicalConstantsCGS) = false := by
  refine ⟨C45_equality.1 _, ?_⟩
  have h : eps_equal (2 : ℝ) 1 = false := C45_sensitive 2 1 (by norm_num) (by norm_num)
  have h' : eps_equal (RPC.ofUnits (PhysicalConstantsCGS : PC ℝ) 1 2 1 1).mass
      (RPC.ofPC (PhysicalConstantsCGS : PC ℝ)).mass = false := by
    have e : (RPC.ofPC (PhysicalConstantsCGS : PC ℝ)).mass = 1 := by simp [RPC.ofPC, areal]
    rw [e]; exact h
  unfold RPC.beq
  rw [h']
  simp

/-! ## C29 -/

/-- the constants that a wrapper with units `u` reports -/
noncomputable def reported (pc : PC ℝ) (u : Units) : PC ℝ := (RPC.ofUnits pc u.time u.mass u.length u.temp).pc

theorem unit_eq (u : Units) (t m l θ : ℝ) :
    u.unit ⟨t, m, l, θ⟩ = u.time ^ t * u.mass ^ m * u.length ^ l * u.temp ^ θ := rfl

/-- **C29**, the part that holds: fifteen of the nineteen reported constants are the CGS value expressed in code
units, for every positive unit system.  Missing: `G`, `R`, `G_F` and `e`, which are wrong
(`C29_false`). -/
theorem C29_dimensions_partial (pc : PC ℝ) (u : Units) (hu : u.Pos) :
    (reported pc u).h = u.toCode Dim.action pc.h ∧
    (reported pc u).hbar = u.toCode Dim.action pc.hbar ∧
    (reported pc u).kb = u.toCode Dim.entropy pc.kb ∧
    (reported pc u).c = u.toCode Dim.velocity pc.c ∧
    (reported pc u).me = u.toCode Dim.mass pc.me ∧
    (reported pc u).mp = u.toCode Dim.mass pc.mp ∧
    (reported pc u).mn = u.toCode Dim.mass pc.mn ∧
    (reported pc u).amu = u.toCode Dim.mass pc.amu ∧
    (reported pc u).sb = u.toCode Dim.stefanBoltzmann pc.sb ∧
    (reported pc u).ar = u.toCode Dim.radiationConstant pc.ar ∧
    (reported pc u).eV = u.toCode Dim.energy pc.eV ∧
    (reported pc u).nu_sigma0 = u.toCode Dim.area pc.nu_sigma0 ∧
    (reported pc u).na = u.toCode Dim.one pc.na ∧
    (reported pc u).alpha = u.toCode Dim.one pc.alpha ∧
    (reported pc u).gA = u.toCode Dim.one pc.gA := by
  obtain ⟨h1, h2, h3, h4⟩ := hu
  have e : ∀ (x : ℝ) (n : ℕ), x ^ (-(n : ℝ)) = (x ^ n)⁻¹ ∨ x < 0 := by
    intro x n
    rcases lt_or_ge x 0 with h | h
    · exact Or.inr h
    · left; rw [Real.rpow_neg h, Real.rpow_natCast]
  have r : ∀ (x : ℝ), 0 < x → x ^ (-1 : ℝ) = x⁻¹ ∧ x ^ (-2 : ℝ) = (x ^ 2)⁻¹ ∧ x ^ (-3 : ℝ) = (x ^ 3)⁻¹ ∧
      x ^ (-4 : ℝ) = (x ^ 4)⁻¹ ∧ x ^ (2 : ℝ) = x ^ 2 ∧ x ^ (3 : ℝ) = x ^ 3 ∧ x ^ (4 : ℝ) = x ^ 4 := by
    intro x hx
    refine ⟨by rw [Real.rpow_neg_one], ?_, ?_, ?_, ?_, ?_, ?_⟩
    · exact_mod_cast (e x 2).resolve_right (by linarith)
    · exact_mod_cast (e x 3).resolve_right (by linarith)
    · exact_mod_cast (e x 4).resolve_right (by linarith)
    · exact_mod_cast Real.rpow_natCast x 2
    · exact_mod_cast Real.rpow_natCast x 3
    · exact_mod_cast Real.rpow_natCast x 4
  obtain ⟨a1, a2, a3, a4, a5, a6, a7⟩ := r u.time h1
  obtain ⟨c1, c2, c3, c4, c5, c6, c7⟩ := r u.length h3
  obtain ⟨d1, d2, d3, d4, d5, d6, d7⟩ := r u.temp h4
  simp only [reported, RPC.ofUnits, areal, Units.toCode, Dim.action, Dim.entropy, Dim.velocity, Dim.mass,
    Dim.stefanBoltzmann, Dim.radiationConstant, Dim.energy, Dim.area, Dim.one, unit_eq]
  push_cast
  simp only [a1, a2, a3, a4, a5, a6, a7, c1, c2, c3, c4, c5, c6, c7, d1, d2, d3, d4, d5, d6, d7,
    Real.rpow_zero, Real.rpow_one, mul_one, one_mul, div_one]
  refine ⟨?_, ?_, ?_, ?_, ?_, ?_, ?_, ?_, ?_, ?_, ?_, ?_, ?_, ?_, ?_⟩ <;> first | trivial | rfl | (field_simp)

/-- Hence the radiation relations between constants survive the change of units. -/
theorem C29_relations_partial (B : BaseConsts ℝ) (U : UnitConv ℝ) (u : Units) (hu : u.Pos) :
    let q := reported (PhysicalConstants B U) u
    q.ar = 4 * q.sb / q.c ∧ q.sb = 2 * Real.pi ^ 5 * q.kb ^ 4 / (15 * q.h ^ 3 * q.c ^ 2) ∧
    q.h = 2 * Real.pi * q.hbar := by
  intro q
  obtain ⟨h1, h2, h3, _⟩ := C44_relations B U
  obtain ⟨r1, r2, r3, r4⟩ := hu
  have e1 : ∀ x : ℝ, x ^ (2:ℝ) = x ^ 2 := fun x => by exact_mod_cast Real.rpow_natCast x 2
  have e2 : ∀ x : ℝ, x ^ (3:ℝ) = x ^ 3 := fun x => by exact_mod_cast Real.rpow_natCast x 3
  have e3 : ∀ x : ℝ, x ^ (4:ℝ) = x ^ 4 := fun x => by exact_mod_cast Real.rpow_natCast x 4
  have e4 : u.length ^ (-2:ℝ) = (u.length ^ 2)⁻¹ := by rw [Real.rpow_neg r3.le, e1]
  simp only [q, reported, RPC.ofUnits, areal]
  push_cast
  simp only [e1, e2, e3, e4]
  refine ⟨?_, ?_, ?_⟩
  · rw [h1]; by_cases hc : (PhysicalConstants B U).c = 0
    · simp [hc]
    · field_simp
  · rw [h2]
    by_cases hc : (PhysicalConstants B U).c = 0
    · simp [hc]
    · by_cases hh : (PhysicalConstants B U).h = 0
      · simp [hh]
      · field_simp
  · rw [h3]; ring

/-- non-vacuity: km, solar masses (roughly), ms, keV (roughly) are a positive unit system -/
example : (⟨1e-3, 2e33, 1e5, 1.16e7⟩ : Units).Pos := ⟨by norm_num, by norm_num, by norm_num, by norm_num⟩

/-- **C29 is false** for the gravitational constant, the gas constant, Fermi's constant and the elementary
charge: already with the mass unit set to 4 g (other units CGS), respectively the temperature unit set to 4 K
for `R`, the reported value is not the converted one; and `R = N_A k` fails in those units. -/
theorem C29_false :
    let m4 : Units := ⟨1, 4, 1, 1⟩
    let t4 : Units := ⟨1, 1, 1, 4⟩
    let p : PC ℝ := PhysicalConstantsCGS
    (reported p m4).g_newt ≠ m4.toCode Dim.gravity p.g_newt ∧
    (reported p m4).Fc ≠ m4.toCode Dim.inverseEnergySq p.Fc ∧
    (reported p m4).qe ≠ m4.toCode Dim.charge p.qe ∧
    (reported p t4).r_gas ≠ t4.toCode Dim.entropy p.r_gas ∧
    (reported p t4).r_gas ≠ (reported p t4).na * (reported p t4).kb := by
  have hg : 0 < (PhysicalConstantsCGS : PC ℝ).g_newt := by rw [C44_cgs.2.2.2.2.2.1]; norm_num
  have hq : 0 < (PhysicalConstantsCGS : PC ℝ).qe := by
    simp only [PhysicalConstantsCGS, PhysicalConstants, BaseSICODATA2010, UnitConversionSIToCGS, areal]
    push_cast; norm_num
  have hF : 0 < (PhysicalConstantsCGS : PC ℝ).Fc := by
    simp only [PhysicalConstantsCGS, PhysicalConstants, BaseSICODATA2010, UnitConversionSIToCGS, areal]
    push_cast; norm_num
  have hR : 0 < (PhysicalConstantsCGS : PC ℝ).r_gas := by
    simp only [PhysicalConstantsCGS, PhysicalConstants, BaseSICODATA2010, UnitConversionSIToCGS, areal]
    push_cast; norm_num
  have hRe : (PhysicalConstantsCGS : PC ℝ).r_gas = (PhysicalConstantsCGS : PC ℝ).na *
    (PhysicalConstantsCGS : PC ℝ).kb := rfl
  have e2 : (4:ℝ) ^ (-2 : ℝ) = 1 / 16 := by
    rw [Real.rpow_neg (by norm_num)]; norm_num
  have e12 : (4:ℝ) ^ (1 / 2 : ℝ) = 2 := by
    rw [show (4:ℝ) = 2 ^ (2:ℝ) by norm_num, ← Real.rpow_mul (by norm_num)]; norm_num
  simp only [reported, RPC.ofUnits, areal, Units.toCode, unit_eq, Dim.gravity, Dim.inverseEnergySq, Dim.charge,
    Dim.entropy]
  push_cast
  simp only [Real.one_rpow, Real.rpow_neg_one, e2, e12, mul_one, one_mul, div_one]
  refine ⟨?_, ?_, ?_, ?_, ?_⟩ <;> intro h
  · norm_num at h; linarith
  · norm_num at h; linarith
  · norm_num at h; linarith
  · norm_num at h; linarith
  · rw [hRe] at h hR; nlinarith

end Opac
