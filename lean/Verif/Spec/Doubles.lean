import Verif.Model.Binary
import Verif.Spec.Accuracy

/-!
# Results in IEEE double precision

The same program is run in double precision (`IE binary64`: overflow, underflow, subnormal numbers, infinities, NaN) and
exactly (over `ℝ`), with the same numbers as constants, parameters, units and arguments.  Sizes are given in powers of two:
`2^10` is about 1000, `2^-20` about one millionth.
-/

namespace Opac
open Arith

/-- `2^l ≤ x ≤ 2^h` -/
def Bits (l h : ℤ) (x : ℝ) : Prop := (2 : ℝ) ^ l ≤ x ∧ x ≤ 2 ^ h

/-- the double with the value `x` -/
def dbl (x : ℝ) : IE binary64 := ⟨.fin x⟩

/-- the call in double precision returned a finite number that differs from `x` by at most a billionth of `x` -/
def Accurate (a : IE binary64) (x : ℝ) : Prop := 0 < x ∧ ∃ v, a = dbl v ∧ |v - x| ≤ 1e-9 * x

/-- the same, or both are zero -/
def AccurateOrZero (a : IE binary64) (x : ℝ) : Prop := Accurate a x ∨ (a = dbl 0 ∧ x = 0)

/-- constants as doubles -/
def PC.dbl (pc : PC ℝ) : PC (IE binary64) :=
  { na := Opac.dbl pc.na, alpha := Opac.dbl pc.alpha, h := Opac.dbl pc.h, hbar := Opac.dbl pc.hbar, kb := Opac.dbl pc.kb,
    r_gas := Opac.dbl pc.r_gas, qe := Opac.dbl pc.qe, c := Opac.dbl pc.c, g_newt := Opac.dbl pc.g_newt, me := Opac.dbl pc.me,
    mp := Opac.dbl pc.mp, mn := Opac.dbl pc.mn, amu := Opac.dbl pc.amu, sb := Opac.dbl pc.sb, ar := Opac.dbl pc.ar,
    eV := Opac.dbl pc.eV, Fc := Opac.dbl pc.Fc, nu_sigma0 := Opac.dbl pc.nu_sigma0, gA := Opac.dbl pc.gA }

/-- the constants are of the size they have in CGS units -/
structure CgsSized (pc : PC ℝ) : Prop where
  h : Bits (-90) (-80) pc.h
  hbar : Bits (-96) (-82) pc.hbar
  kb : Bits (-56) (-50) pc.kb
  c : Bits 34 36 pc.c
  me : Bits (-92) (-88) pc.me
  mp : Bits (-82) (-76) pc.mp
  qe : Bits (-34) (-28) pc.qe
  alpha : Bits (-10) (-4) pc.alpha
  sigma0 : Bits (-250) (-140) pc.nu_sigma0
  gA : Bits (-4) 4 |pc.gA|

/-- the densities, temperatures, frequencies (at a given temperature) and energy densities a claim is made about -/
structure Domain where
  dens : ℝ → Prop
  temp : ℝ → Prop
  freq : ℝ → ℝ → Prop
  energy : ℝ → Prop

/-- In CGS units: densities from 1e-18 to 1e18, temperatures from 1e-6 to 1e18, frequencies from 1e-6 to 1e30 and at most
120 kT/h, energy densities from 1e-45 to 1e75. -/
def cgsDomain (pc : PC ℝ) : Domain where
  dens := Bits (-60) 60
  temp := Bits (-20) 60
  freq T ν := Bits (-20) 100 ν ∧ pc.h * ν / (pc.kb * T) ≤ 120
  energy := Bits (-150) 250

/-- for scattering, where the temperature does not limit the frequency -/
def scatteringDomain : Domain where
  dens := Bits (-60) 60
  temp := Bits (-20) 60
  freq _ := Bits (-20) 100
  energy _ := True

/-- the same, where no factor of a power law has a base above 1e12 or below 1e-12 -/
def Domain.powerLaw (D : Domain) (nu_ref nu_off rho_ref rho_off temp_ref temp_off : ℝ) : Domain where
  dens ρ := D.dens ρ ∧ Bits (-40) 40 ((ρ + rho_off) / rho_ref)
  temp T := D.temp T ∧ Bits (-40) 40 ((T + temp_off) / temp_ref)
  freq T ν := D.freq T ν ∧ Bits (-40) 40 ((ν + nu_off) / nu_ref)
  energy := D.energy

/-- the same in code units -/
def Domain.inUnits (D : Domain) (time mass length temp : ℝ) : Domain where
  dens ρ := D.dens (mass / length ^ 3 * ρ)
  temp T := D.temp (T * temp)
  freq T ν := D.freq (T * temp) (ν / time)
  energy e := D.energy (e / (time ^ 2 * length / mass))

/-- code units of reasonable size: up to 1e12 seconds, 1e36 gram, 1e18 cm, 1e12 kelvin -/
structure UnitSized (time mass length temp : ℝ) : Prop where
  emissivity : Bits (-130) 130 (time ^ 2 * length / mass)
  time : Bits (-40) 40 time
  mass : Bits (-120) 120 mass
  length : Bits (-60) 60 length
  temp : Bits (-40) 40 temp

namespace Photons

/-- Photon opacities built twice from the same numbers, in double precision and exactly.  Indices: the two objects, the
number of unit wrappers (at most one) and the domain. -/
inductive Doubled : (O O' : Type) → PhotonAPI (IE binary64) O → PhotonAPI ℝ O' → O → O' → ℕ → Domain → Prop
  | gray (pc : PC ℝ) (kappa : ℝ) : CgsSized pc → Bits (-60) 60 kappa →
      Doubled (GrayOpacity (IE binary64)) (GrayOpacity ℝ) inferInstance inferInstance ⟨pc.dbl, dbl kappa⟩ ⟨pc, kappa⟩
        0 (cgsDomain pc)
  | epbremss (pc : PC ℝ) : CgsSized pc →
      Doubled (EPBremsstrahlungOpacity (IE binary64)) (EPBremsstrahlungOpacity ℝ) inferInstance inferInstance ⟨pc.dbl⟩ ⟨pc⟩
        0 (cgsDomain pc)
  | powerLaw (pc : PC ℝ) (kappa0 rho_exp temp_exp nu_exp nu_ref nu_off rho_ref rho_off temp_ref temp_off : ℝ)
      (stim : Bool) (o : PowerLawOpacity (IE binary64)) (o' : PowerLawOpacity ℝ) : CgsSized pc → Bits (-60) 60 kappa0 →
      |rho_exp| + |temp_exp| + |nu_exp| ≤ 5 → Bits (-100) 100 nu_ref → Bits (-100) 100 rho_ref → Bits (-100) 100 temp_ref →
      PowerLawOpacity.construct pc.dbl (dbl kappa0) (dbl rho_exp) (dbl temp_exp) (dbl nu_exp) (dbl nu_ref) (dbl nu_off)
        (dbl rho_ref) (dbl rho_off) (dbl temp_ref) (dbl temp_off) stim = .ok o →
      PowerLawOpacity.construct pc kappa0 rho_exp temp_exp nu_exp nu_ref nu_off rho_ref rho_off temp_ref temp_off stim =
        .ok o' →
      Doubled (PowerLawOpacity (IE binary64)) (PowerLawOpacity ℝ) inferInstance inferInstance o o'
        0 ((cgsDomain pc).powerLaw nu_ref nu_off rho_ref rho_off temp_ref temp_off)
  | nonCGS {O O' : Type} {i : PhotonAPI (IE binary64) O} {i' : PhotonAPI ℝ O'} {o : O} {o' : O'} {D : Domain}
      (time mass length temp : ℝ) : UnitSized time mass length temp → Doubled O O' i i' o o' 0 D →
      Doubled (NonCGSUnits (IE binary64) O) (NonCGSUnits ℝ O') inferInstance inferInstance
        (NonCGSUnits.construct o (dbl time) (dbl mass) (dbl length) (dbl temp))
        (NonCGSUnits.construct o' time mass length temp) 1 (D.inUnits time mass length temp)
  | vScaleFree {o : GrayOpacity (IE binary64)} {o' : GrayOpacity ℝ} {n : ℕ} {D : Domain} :
      Doubled _ _ inferInstance inferInstance o o' n D →
      Doubled (Opacity (IE binary64)) (Opacity ℝ) inferInstance inferInstance (.ScaleFree o) (.ScaleFree o') n D
  | vGray {o : GrayOpacity (IE binary64)} {o' : GrayOpacity ℝ} {n : ℕ} {D : Domain} :
      Doubled _ _ inferInstance inferInstance o o' n D →
      Doubled (Opacity (IE binary64)) (Opacity ℝ) inferInstance inferInstance (.Gray o) (.Gray o') n D
  | vPowerLawScaleFree {o : PowerLawOpacity (IE binary64)} {o' : PowerLawOpacity ℝ} {n : ℕ} {D : Domain} :
      Doubled _ _ inferInstance inferInstance o o' n D →
      Doubled (Opacity (IE binary64)) (Opacity ℝ) inferInstance inferInstance (.PowerLawScaleFree o) (.PowerLawScaleFree o') n D
  | vPowerLaw {o : PowerLawOpacity (IE binary64)} {o' : PowerLawOpacity ℝ} {n : ℕ} {D : Domain} :
      Doubled _ _ inferInstance inferInstance o o' n D →
      Doubled (Opacity (IE binary64)) (Opacity ℝ) inferInstance inferInstance (.PowerLaw o) (.PowerLaw o') n D
  | vEPBremss {o : EPBremsstrahlungOpacity (IE binary64)} {o' : EPBremsstrahlungOpacity ℝ} {n : ℕ} {D : Domain} :
      Doubled _ _ inferInstance inferInstance o o' n D →
      Doubled (Opacity (IE binary64)) (Opacity ℝ) inferInstance inferInstance (.EPBremss o) (.EPBremss o') n D
  | vNonCGSGray {o : NonCGSUnits (IE binary64) (GrayOpacity (IE binary64))} {o' : NonCGSUnits ℝ (GrayOpacity ℝ)} {n : ℕ}
      {D : Domain} : Doubled _ _ inferInstance inferInstance o o' n D →
      Doubled (Opacity (IE binary64)) (Opacity ℝ) inferInstance inferInstance (.NonCGSGray o) (.NonCGSGray o') n D
  | vNonCGSPowerLaw {o : NonCGSUnits (IE binary64) (PowerLawOpacity (IE binary64))} {o' : NonCGSUnits ℝ (PowerLawOpacity ℝ)} {n : ℕ}
      {D : Domain} : Doubled _ _ inferInstance inferInstance o o' n D →
      Doubled (Opacity (IE binary64)) (Opacity ℝ) inferInstance inferInstance (.NonCGSPowerLaw o) (.NonCGSPowerLaw o') n D
  | vNonCGSEPBremss {o : NonCGSUnits (IE binary64) (EPBremsstrahlungOpacity (IE binary64))} {o' : NonCGSUnits ℝ (EPBremsstrahlungOpacity ℝ)} {n : ℕ}
      {D : Domain} : Doubled _ _ inferInstance inferInstance o o' n D →
      Doubled (Opacity (IE binary64)) (Opacity ℝ) inferInstance inferInstance (.NonCGSEPBremss o) (.NonCGSEPBremss o') n D

/-- Photon scattering opacities built twice from the same numbers.  Indices as for absorption. -/
inductive DoubledS : (O O' : Type) → PhotonSAPI (IE binary64) O → PhotonSAPI ℝ O' → O → O' → ℕ → Domain → Prop
  | gray (sigma apm : ℝ) : Bits (-160) 60 sigma → Bits (-100) 60 apm →
      DoubledS (GraySOpacity (IE binary64)) (GraySOpacity ℝ) inferInstance inferInstance ⟨dbl sigma, dbl apm⟩ ⟨sigma, apm⟩
        0 scatteringDomain
  | thomson (pc : PC ℝ) (apm : ℝ) : CgsSized pc → Bits (-100) 60 apm →
      DoubledS (ThomsonSOpacity (IE binary64)) (ThomsonSOpacity ℝ) inferInstance inferInstance
        (ThomsonSOpacity.construct pc.dbl (dbl apm)) (ThomsonSOpacity.construct pc apm) 0 scatteringDomain
  | powerLaw (kappa0 rho_exp temp_exp nu_exp nu_ref nu_off rho_ref rho_off temp_ref temp_off apm : ℝ)
      (o : PowerLawSOpacity (IE binary64)) (o' : PowerLawSOpacity ℝ) : Bits (-160) 60 kappa0 →
      |rho_exp| + |temp_exp| + |nu_exp| ≤ 5 → Bits (-100) 100 nu_ref → Bits (-100) 100 rho_ref → Bits (-100) 100 temp_ref →
      Bits (-100) 60 apm →
      PowerLawSOpacity.construct (dbl kappa0) (dbl rho_exp) (dbl temp_exp) (dbl nu_exp) (dbl nu_ref) (dbl nu_off)
        (dbl rho_ref) (dbl rho_off) (dbl temp_ref) (dbl temp_off) (dbl apm) = .ok o →
      PowerLawSOpacity.construct kappa0 rho_exp temp_exp nu_exp nu_ref nu_off rho_ref rho_off temp_ref temp_off apm =
        .ok o' →
      DoubledS (PowerLawSOpacity (IE binary64)) (PowerLawSOpacity ℝ) inferInstance inferInstance o o'
        0 (scatteringDomain.powerLaw nu_ref nu_off rho_ref rho_off temp_ref temp_off)
  | nonCGS {O O' : Type} {i : PhotonSAPI (IE binary64) O} {i' : PhotonSAPI ℝ O'} {o : O} {o' : O'} {D : Domain}
      (time mass length temp : ℝ) : UnitSized time mass length temp → DoubledS O O' i i' o o' 0 D →
      DoubledS (NonCGSUnitsS (IE binary64) O) (NonCGSUnitsS ℝ O') inferInstance inferInstance
        (NonCGSUnitsS.construct o (dbl time) (dbl mass) (dbl length) (dbl temp))
        (NonCGSUnitsS.construct o' time mass length temp) 1 (D.inUnits time mass length temp)
  | vScaleFreeS {o : GraySOpacity (IE binary64)} {o' : GraySOpacity ℝ} {n : ℕ}
      {D : Domain} : DoubledS _ _ inferInstance inferInstance o o' n D →
      DoubledS (SOpacity (IE binary64)) (SOpacity ℝ) inferInstance inferInstance (.ScaleFreeS o) (.ScaleFreeS o') n D
  | vGrayS {o : GraySOpacity (IE binary64)} {o' : GraySOpacity ℝ} {n : ℕ}
      {D : Domain} : DoubledS _ _ inferInstance inferInstance o o' n D →
      DoubledS (SOpacity (IE binary64)) (SOpacity ℝ) inferInstance inferInstance (.GrayS o) (.GrayS o') n D
  | vThomsonS {o : ThomsonSOpacity (IE binary64)} {o' : ThomsonSOpacity ℝ} {n : ℕ}
      {D : Domain} : DoubledS _ _ inferInstance inferInstance o o' n D →
      DoubledS (SOpacity (IE binary64)) (SOpacity ℝ) inferInstance inferInstance (.ThomsonS o) (.ThomsonS o') n D
  | vPowerLawS {o : PowerLawSOpacity (IE binary64)} {o' : PowerLawSOpacity ℝ} {n : ℕ}
      {D : Domain} : DoubledS _ _ inferInstance inferInstance o o' n D →
      DoubledS (SOpacity (IE binary64)) (SOpacity ℝ) inferInstance inferInstance (.PowerLawS o) (.PowerLawS o') n D
  | vNonCGSGrayS {o : NonCGSUnitsS (IE binary64) (GraySOpacity (IE binary64))} {o' : NonCGSUnitsS ℝ (GraySOpacity ℝ)} {n : ℕ}
      {D : Domain} : DoubledS _ _ inferInstance inferInstance o o' n D →
      DoubledS (SOpacity (IE binary64)) (SOpacity ℝ) inferInstance inferInstance (.NonCGSGrayS o) (.NonCGSGrayS o') n D
  | vNonCGSThomsonS {o : NonCGSUnitsS (IE binary64) (ThomsonSOpacity (IE binary64))} {o' : NonCGSUnitsS ℝ (ThomsonSOpacity ℝ)} {n : ℕ}
      {D : Domain} : DoubledS _ _ inferInstance inferInstance o o' n D →
      DoubledS (SOpacity (IE binary64)) (SOpacity ℝ) inferInstance inferInstance (.NonCGSThomsonS o) (.NonCGSThomsonS o') n D
  | vNonCGSPowerLawS {o : NonCGSUnitsS (IE binary64) (PowerLawSOpacity (IE binary64))} {o' : NonCGSUnitsS ℝ (PowerLawSOpacity ℝ)} {n : ℕ}
      {D : Domain} : DoubledS _ _ inferInstance inferInstance o o' n D →
      DoubledS (SOpacity (IE binary64)) (SOpacity ℝ) inferInstance inferInstance (.NonCGSPowerLawS o) (.NonCGSPowerLawS o') n D

end Photons

namespace Neutrinos

/-- the same Fermi–Dirac distribution with constants as doubles -/
def FermiDirac.dbl (d : FermiDirac ℝ) : FermiDirac (IE binary64) := ⟨d.NSPECIES, d.pc.dbl⟩

/-- Gray and Burrows–Reddy–Thompson neutrino opacities built twice from the same numbers.  Indices as for photons. -/
inductive Doubled : (O O' : Type) → NeutrinoAPI (IE binary64) O → NeutrinoAPI ℝ O' → O → O' → ℕ → Domain → Prop
  | gray (dist : FermiDirac ℝ) (pc : PC ℝ) (kappa : ℝ) : 0 < dist.NSPECIES → dist.NSPECIES ≤ 16 → CgsSized dist.pc →
      Bits (-60) 60 kappa →
      Doubled (GrayOpacity (IE binary64)) (GrayOpacity ℝ) inferInstance inferInstance ⟨dist.dbl, pc.dbl, Opac.dbl kappa⟩
        ⟨dist, pc, kappa⟩ 0 (cgsDomain dist.pc)
  | brt (dist : FermiDirac ℝ) (pc : PC ℝ) : 0 < dist.NSPECIES → dist.NSPECIES ≤ 16 → CgsSized dist.pc → CgsSized pc →
      Doubled (BRTOpacity (IE binary64)) (BRTOpacity ℝ) inferInstance inferInstance ⟨dist.dbl, pc.dbl⟩ ⟨dist, pc⟩
        0 (cgsDomain dist.pc)
  | nonCGS {O O' : Type} {i : NeutrinoAPI (IE binary64) O} {i' : NeutrinoAPI ℝ O'} {o : O} {o' : O'} {D : Domain}
      (time mass length temp : ℝ) : UnitSized time mass length temp → Doubled O O' i i' o o' 0 D →
      Doubled (NonCGSUnits (IE binary64) O) (NonCGSUnits ℝ O') inferInstance inferInstance
        (NonCGSUnits.construct o (Opac.dbl time) (Opac.dbl mass) (Opac.dbl length) (Opac.dbl temp))
        (NonCGSUnits.construct o' time mass length temp) 1 (D.inUnits time mass length temp)
  | vScaleFree {o : GrayOpacity (IE binary64)} {o' : GrayOpacity ℝ} {n : ℕ}
      {D : Domain} : Doubled _ _ inferInstance inferInstance o o' n D →
      Doubled (Opacity (IE binary64)) (Opacity ℝ) inferInstance inferInstance (.ScaleFree o) (.ScaleFree o') n D
  | vBRTOpac {o : BRTOpacity (IE binary64)} {o' : BRTOpacity ℝ} {n : ℕ}
      {D : Domain} : Doubled _ _ inferInstance inferInstance o o' n D →
      Doubled (Opacity (IE binary64)) (Opacity ℝ) inferInstance inferInstance (.BRTOpac o) (.BRTOpac o') n D
  | vGray {o : GrayOpacity (IE binary64)} {o' : GrayOpacity ℝ} {n : ℕ}
      {D : Domain} : Doubled _ _ inferInstance inferInstance o o' n D →
      Doubled (Opacity (IE binary64)) (Opacity ℝ) inferInstance inferInstance (.Gray o) (.Gray o') n D
  | vNonCGSBRT {o : NonCGSUnits (IE binary64) (BRTOpacity (IE binary64))} {o' : NonCGSUnits ℝ (BRTOpacity ℝ)} {n : ℕ}
      {D : Domain} : Doubled _ _ inferInstance inferInstance o o' n D →
      Doubled (Opacity (IE binary64)) (Opacity ℝ) inferInstance inferInstance (.NonCGSBRT o) (.NonCGSBRT o') n D
  | vNonCGSGray {o : NonCGSUnits (IE binary64) (GrayOpacity (IE binary64))} {o' : NonCGSUnits ℝ (GrayOpacity ℝ)} {n : ℕ}
      {D : Domain} : Doubled _ _ inferInstance inferInstance o o' n D →
      Doubled (Opacity (IE binary64)) (Opacity ℝ) inferInstance inferInstance (.NonCGSGray o) (.NonCGSGray o') n D

/-- Neutrino scattering opacities built twice from the same numbers.  Indices as for absorption. -/
inductive DoubledS : (O O' : Type) → NeutrinoSAPI (IE binary64) O → NeutrinoSAPI ℝ O' → O → O' → ℕ → Domain → Prop
  | gray (sigma apm : ℝ) : Bits (-160) 60 sigma → Bits (-100) 60 apm →
      DoubledS (GraySOpacity (IE binary64)) (GraySOpacity ℝ) inferInstance inferInstance ⟨dbl sigma, dbl apm⟩ ⟨sigma, apm⟩
        0 scatteringDomain
  | nonCGS {O O' : Type} {i : NeutrinoSAPI (IE binary64) O} {i' : NeutrinoSAPI ℝ O'} {o : O} {o' : O'} {D : Domain}
      (time mass length temp : ℝ) : UnitSized time mass length temp → DoubledS O O' i i' o o' 0 D →
      DoubledS (NonCGSUnitsS (IE binary64) O) (NonCGSUnitsS ℝ O') inferInstance inferInstance
        (NonCGSUnitsS.construct o (dbl time) (dbl mass) (dbl length) (dbl temp))
        (NonCGSUnitsS.construct o' time mass length temp) 1 (D.inUnits time mass length temp)
  | vScaleFreeS {o : GraySOpacity (IE binary64)} {o' : GraySOpacity ℝ} {n : ℕ}
      {D : Domain} : DoubledS _ _ inferInstance inferInstance o o' n D →
      DoubledS (SOpacity (IE binary64)) (SOpacity ℝ) inferInstance inferInstance (.ScaleFreeS o) (.ScaleFreeS o') n D
  | vGrayS {o : GraySOpacity (IE binary64)} {o' : GraySOpacity ℝ} {n : ℕ}
      {D : Domain} : DoubledS _ _ inferInstance inferInstance o o' n D →
      DoubledS (SOpacity (IE binary64)) (SOpacity ℝ) inferInstance inferInstance (.GrayS o) (.GrayS o') n D
  | vNonCGSGrayS {o : NonCGSUnitsS (IE binary64) (GraySOpacity (IE binary64))} {o' : NonCGSUnitsS ℝ (GraySOpacity ℝ)} {n : ℕ}
      {D : Domain} : DoubledS _ _ inferInstance inferInstance o o' n D →
      DoubledS (SOpacity (IE binary64)) (SOpacity ℝ) inferInstance inferInstance (.NonCGSGrayS o) (.NonCGSGrayS o') n D

end Neutrinos
end Opac
