import Verif.Spec.Rounding
import Verif.Spec.Calls

/-!
# Floating-point results and exact results

The same program is run twice: with every operation rounded (`Fl rd`), and exactly (over `ℝ`).  Both runs get the same
numbers as physical constants, parameters, units and arguments.
-/

namespace Opac
open Arith

/-- `a` and `x` differ by a factor between `(1-u)^n` and `(1-u)^(-n)`: at most `n` relative errors of size `u` -/
def AgreesTo (u n a x : ℝ) : Prop := (1 - u) ^ n * x ≤ a ∧ (1 - u) ^ n * a ≤ x

/-- two calls end in the same way: both return, and the results are related by `P`, or both stop with the same error -/
def SameEnd {α β : Type} (P : α → β → Prop) : Outcome α → Outcome β → Prop
  | .ok a, .ok b => P a b
  | .abort s, .abort t => s = t
  | _, _ => False

variable {rd : ℝ → ℝ}

/-- the same constants as real numbers -/
def PC.exact (pc : PC (Fl rd)) : PC ℝ :=
  { na := pc.na.val, alpha := pc.alpha.val, h := pc.h.val, hbar := pc.hbar.val, kb := pc.kb.val, r_gas := pc.r_gas.val,
    qe := pc.qe.val, c := pc.c.val, g_newt := pc.g_newt.val, me := pc.me.val, mp := pc.mp.val, mn := pc.mn.val,
    amu := pc.amu.val, sb := pc.sb.val, ar := pc.ar.val, eV := pc.eV.val, Fc := pc.Fc.val,
    nu_sigma0 := pc.nu_sigma0.val, gA := pc.gA.val }

/-- the constants used by the opacities are positive (`gA` may have either sign) -/
structure PosConsts (pc : PC ℝ) : Prop where
  h : 0 < pc.h
  hbar : 0 < pc.hbar
  kb : 0 < pc.kb
  c : 0 < pc.c
  me : 0 < pc.me
  mp : 0 < pc.mp
  qe : 0 < pc.qe
  alpha : 0 < pc.alpha
  sigma0 : 0 < pc.nu_sigma0
  gA : pc.gA ≠ 0

namespace Photons

/-- Photon opacities built twice from the same numbers.  Indices: the rounded object, the exact object, the number of
unit wrappers, the sum `S` of the absolute exponents of a power law, and the number `K` for which `hν/kT = K ν/T` when
frequency and temperature are in the units of the caller. -/
inductive Twin (rd : ℝ → ℝ) : (O O' : Type) → PhotonAPI (Fl rd) O → PhotonAPI ℝ O' → O → O' → ℕ → ℝ → ℝ → Prop
  | gray (pc : PC (Fl rd)) (kappa : Fl rd) : PosConsts pc.exact → 0 < kappa.val →
      Twin rd (GrayOpacity (Fl rd)) (GrayOpacity ℝ) inferInstance inferInstance ⟨pc, kappa⟩ ⟨pc.exact, kappa.val⟩
        0 0 (pc.h.val / pc.kb.val)
  | epbremss (pc : PC (Fl rd)) : PosConsts pc.exact →
      Twin rd (EPBremsstrahlungOpacity (Fl rd)) (EPBremsstrahlungOpacity ℝ) inferInstance inferInstance ⟨pc⟩ ⟨pc.exact⟩
        0 0 (pc.h.val / pc.kb.val)
  | powerLaw (pc : PC (Fl rd)) (kappa0 rho_exp temp_exp nu_exp nu_ref nu_off rho_ref rho_off temp_ref temp_off : Fl rd)
      (stim : Bool) (o : PowerLawOpacity (Fl rd)) (o' : PowerLawOpacity ℝ) : PosConsts pc.exact → 0 < kappa0.val →
      PowerLawOpacity.construct pc kappa0 rho_exp temp_exp nu_exp nu_ref nu_off rho_ref rho_off temp_ref temp_off stim =
        .ok o →
      PowerLawOpacity.construct pc.exact kappa0.val rho_exp.val temp_exp.val nu_exp.val nu_ref.val nu_off.val
        rho_ref.val rho_off.val temp_ref.val temp_off.val stim = .ok o' →
      Twin rd (PowerLawOpacity (Fl rd)) (PowerLawOpacity ℝ) inferInstance inferInstance o o'
        0 (|rho_exp.val| + |temp_exp.val| + |nu_exp.val|) (pc.h.val / pc.kb.val)
  | nonCGS {O O' : Type} {i : PhotonAPI (Fl rd) O} {i' : PhotonAPI ℝ O'} {o : O} {o' : O'} {n : ℕ} {S K : ℝ}
      (time mass length temp : Fl rd) : 0 < time.val → 0 < mass.val → 0 < length.val → 0 < temp.val →
      Twin rd O O' i i' o o' n S K →
      Twin rd (NonCGSUnits (Fl rd) O) (NonCGSUnits ℝ O') inferInstance inferInstance
        (NonCGSUnits.construct o time mass length temp)
        (NonCGSUnits.construct o' time.val mass.val length.val temp.val) (n + 1) S (K / (time.val * temp.val))
  | vScaleFree {o : GrayOpacity (Fl rd)} {o' : GrayOpacity ℝ} {n : ℕ} {S K : ℝ} :
      Twin rd _ _ inferInstance inferInstance o o' n S K →
      Twin rd (Opacity (Fl rd)) (Opacity ℝ) inferInstance inferInstance (.ScaleFree o) (.ScaleFree o') n S K
  | vGray {o : GrayOpacity (Fl rd)} {o' : GrayOpacity ℝ} {n : ℕ} {S K : ℝ} :
      Twin rd _ _ inferInstance inferInstance o o' n S K →
      Twin rd (Opacity (Fl rd)) (Opacity ℝ) inferInstance inferInstance (.Gray o) (.Gray o') n S K
  | vPowerLawScaleFree {o : PowerLawOpacity (Fl rd)} {o' : PowerLawOpacity ℝ} {n : ℕ} {S K : ℝ} :
      Twin rd _ _ inferInstance inferInstance o o' n S K →
      Twin rd (Opacity (Fl rd)) (Opacity ℝ) inferInstance inferInstance (.PowerLawScaleFree o) (.PowerLawScaleFree o')
        n S K
  | vPowerLaw {o : PowerLawOpacity (Fl rd)} {o' : PowerLawOpacity ℝ} {n : ℕ} {S K : ℝ} :
      Twin rd _ _ inferInstance inferInstance o o' n S K →
      Twin rd (Opacity (Fl rd)) (Opacity ℝ) inferInstance inferInstance (.PowerLaw o) (.PowerLaw o') n S K
  | vEPBremss {o : EPBremsstrahlungOpacity (Fl rd)} {o' : EPBremsstrahlungOpacity ℝ} {n : ℕ} {S K : ℝ} :
      Twin rd _ _ inferInstance inferInstance o o' n S K →
      Twin rd (Opacity (Fl rd)) (Opacity ℝ) inferInstance inferInstance (.EPBremss o) (.EPBremss o') n S K
  | vNonCGSGray {o : NonCGSUnits (Fl rd) (GrayOpacity (Fl rd))} {o' : NonCGSUnits ℝ (GrayOpacity ℝ)} {n : ℕ} {S K : ℝ} :
      Twin rd _ _ inferInstance inferInstance o o' n S K →
      Twin rd (Opacity (Fl rd)) (Opacity ℝ) inferInstance inferInstance (.NonCGSGray o) (.NonCGSGray o') n S K
  | vNonCGSPowerLaw {o : NonCGSUnits (Fl rd) (PowerLawOpacity (Fl rd))} {o' : NonCGSUnits ℝ (PowerLawOpacity ℝ)} {n : ℕ}
      {S K : ℝ} : Twin rd _ _ inferInstance inferInstance o o' n S K →
      Twin rd (Opacity (Fl rd)) (Opacity ℝ) inferInstance inferInstance (.NonCGSPowerLaw o) (.NonCGSPowerLaw o') n S K
  | vNonCGSEPBremss {o : NonCGSUnits (Fl rd) (EPBremsstrahlungOpacity (Fl rd))}
      {o' : NonCGSUnits ℝ (EPBremsstrahlungOpacity ℝ)} {n : ℕ} {S K : ℝ} :
      Twin rd _ _ inferInstance inferInstance o o' n S K →
      Twin rd (Opacity (Fl rd)) (Opacity ℝ) inferInstance inferInstance (.NonCGSEPBremss o) (.NonCGSEPBremss o') n S K

/-- Photon scattering opacities built twice from the same numbers.  Indices: the two objects, the number of unit
wrappers and the sum of the absolute exponents of a power law. -/
inductive TwinS (rd : ℝ → ℝ) : (O O' : Type) → PhotonSAPI (Fl rd) O → PhotonSAPI ℝ O' → O → O' → ℕ → ℝ → Prop
  | gray (sigma apm : Fl rd) : 0 < sigma.val → 0 < apm.val →
      TwinS rd (GraySOpacity (Fl rd)) (GraySOpacity ℝ) inferInstance inferInstance ⟨sigma, apm⟩ ⟨sigma.val, apm.val⟩ 0 0
  | thomson (pc : PC (Fl rd)) (apm : Fl rd) : PosConsts pc.exact → 0 < apm.val →
      TwinS rd (ThomsonSOpacity (Fl rd)) (ThomsonSOpacity ℝ) inferInstance inferInstance
        (ThomsonSOpacity.construct pc apm) (ThomsonSOpacity.construct pc.exact apm.val) 0 0
  | powerLaw (kappa0 rho_exp temp_exp nu_exp nu_ref nu_off rho_ref rho_off temp_ref temp_off apm : Fl rd)
      (o : PowerLawSOpacity (Fl rd)) (o' : PowerLawSOpacity ℝ) : 0 < kappa0.val → 0 < rho_ref.val → 0 < apm.val →
      PowerLawSOpacity.construct kappa0 rho_exp temp_exp nu_exp nu_ref nu_off rho_ref rho_off temp_ref temp_off apm =
        .ok o →
      PowerLawSOpacity.construct kappa0.val rho_exp.val temp_exp.val nu_exp.val nu_ref.val nu_off.val rho_ref.val
        rho_off.val temp_ref.val temp_off.val apm.val = .ok o' →
      TwinS rd (PowerLawSOpacity (Fl rd)) (PowerLawSOpacity ℝ) inferInstance inferInstance o o'
        0 (|rho_exp.val| + |temp_exp.val| + |nu_exp.val|)
  | nonCGS {O O' : Type} {i : PhotonSAPI (Fl rd) O} {i' : PhotonSAPI ℝ O'} {o : O} {o' : O'} {n : ℕ} {S : ℝ}
      (time mass length temp : Fl rd) : 0 < time.val → 0 < mass.val → 0 < length.val → 0 < temp.val →
      TwinS rd O O' i i' o o' n S →
      TwinS rd (NonCGSUnitsS (Fl rd) O) (NonCGSUnitsS ℝ O') inferInstance inferInstance
        (NonCGSUnitsS.construct o time mass length temp)
        (NonCGSUnitsS.construct o' time.val mass.val length.val temp.val) (n + 1) S
  | vScaleFreeS {o : GraySOpacity (Fl rd)} {o' : GraySOpacity ℝ} {n : ℕ} {S : ℝ} :
      TwinS rd _ _ inferInstance inferInstance o o' n S →
      TwinS rd (SOpacity (Fl rd)) (SOpacity ℝ) inferInstance inferInstance (.ScaleFreeS o) (.ScaleFreeS o') n S
  | vGrayS {o : GraySOpacity (Fl rd)} {o' : GraySOpacity ℝ} {n : ℕ} {S : ℝ} :
      TwinS rd _ _ inferInstance inferInstance o o' n S →
      TwinS rd (SOpacity (Fl rd)) (SOpacity ℝ) inferInstance inferInstance (.GrayS o) (.GrayS o') n S
  | vThomsonS {o : ThomsonSOpacity (Fl rd)} {o' : ThomsonSOpacity ℝ} {n : ℕ} {S : ℝ} :
      TwinS rd _ _ inferInstance inferInstance o o' n S →
      TwinS rd (SOpacity (Fl rd)) (SOpacity ℝ) inferInstance inferInstance (.ThomsonS o) (.ThomsonS o') n S
  | vPowerLawS {o : PowerLawSOpacity (Fl rd)} {o' : PowerLawSOpacity ℝ} {n : ℕ} {S : ℝ} :
      TwinS rd _ _ inferInstance inferInstance o o' n S →
      TwinS rd (SOpacity (Fl rd)) (SOpacity ℝ) inferInstance inferInstance (.PowerLawS o) (.PowerLawS o') n S
  | vNonCGSGrayS {o : NonCGSUnitsS (Fl rd) (GraySOpacity (Fl rd))} {o' : NonCGSUnitsS ℝ (GraySOpacity ℝ)} {n : ℕ}
      {S : ℝ} : TwinS rd _ _ inferInstance inferInstance o o' n S →
      TwinS rd (SOpacity (Fl rd)) (SOpacity ℝ) inferInstance inferInstance (.NonCGSGrayS o) (.NonCGSGrayS o') n S
  | vNonCGSThomsonS {o : NonCGSUnitsS (Fl rd) (ThomsonSOpacity (Fl rd))} {o' : NonCGSUnitsS ℝ (ThomsonSOpacity ℝ)}
      {n : ℕ} {S : ℝ} : TwinS rd _ _ inferInstance inferInstance o o' n S →
      TwinS rd (SOpacity (Fl rd)) (SOpacity ℝ) inferInstance inferInstance (.NonCGSThomsonS o) (.NonCGSThomsonS o') n S
  | vNonCGSPowerLawS {o : NonCGSUnitsS (Fl rd) (PowerLawSOpacity (Fl rd))} {o' : NonCGSUnitsS ℝ (PowerLawSOpacity ℝ)}
      {n : ℕ} {S : ℝ} : TwinS rd _ _ inferInstance inferInstance o o' n S →
      TwinS rd (SOpacity (Fl rd)) (SOpacity ℝ) inferInstance inferInstance (.NonCGSPowerLawS o) (.NonCGSPowerLawS o')
        n S

end Photons

namespace Neutrinos

/-- the same Fermi–Dirac distribution over the real numbers -/
def FermiDirac.exact (d : FermiDirac (Fl rd)) : FermiDirac ℝ := ⟨d.NSPECIES, d.pc.exact⟩

/-- Gray and Burrows–Reddy–Thompson neutrino opacities built twice from the same numbers.  Indices as for photons. -/
inductive Twin (rd : ℝ → ℝ) : (O O' : Type) → NeutrinoAPI (Fl rd) O → NeutrinoAPI ℝ O' → O → O' → ℕ → ℝ → Prop
  | gray (dist : FermiDirac (Fl rd)) (pc : PC (Fl rd)) (kappa : Fl rd) : 0 < dist.NSPECIES → PosConsts dist.pc.exact →
      0 < kappa.val →
      Twin rd (GrayOpacity (Fl rd)) (GrayOpacity ℝ) inferInstance inferInstance ⟨dist, pc, kappa⟩
        ⟨dist.exact, pc.exact, kappa.val⟩ 0 (dist.pc.h.val / dist.pc.kb.val)
  | brt (dist : FermiDirac (Fl rd)) (pc : PC (Fl rd)) : 0 < dist.NSPECIES → PosConsts dist.pc.exact →
      PosConsts pc.exact →
      Twin rd (BRTOpacity (Fl rd)) (BRTOpacity ℝ) inferInstance inferInstance ⟨dist, pc⟩ ⟨dist.exact, pc.exact⟩
        0 (dist.pc.h.val / dist.pc.kb.val)
  | nonCGS {O O' : Type} {i : NeutrinoAPI (Fl rd) O} {i' : NeutrinoAPI ℝ O'} {o : O} {o' : O'} {n : ℕ} {K : ℝ}
      (time mass length temp : Fl rd) : 0 < time.val → 0 < mass.val → 0 < length.val → 0 < temp.val →
      Twin rd O O' i i' o o' n K →
      Twin rd (NonCGSUnits (Fl rd) O) (NonCGSUnits ℝ O') inferInstance inferInstance
        (NonCGSUnits.construct o time mass length temp)
        (NonCGSUnits.construct o' time.val mass.val length.val temp.val) (n + 1) (K / (time.val * temp.val))
  | vScaleFree {o : GrayOpacity (Fl rd)} {o' : GrayOpacity ℝ} {n : ℕ} {K : ℝ} :
      Twin rd _ _ inferInstance inferInstance o o' n K →
      Twin rd (Opacity (Fl rd)) (Opacity ℝ) inferInstance inferInstance (.ScaleFree o) (.ScaleFree o') n K
  | vBRTOpac {o : BRTOpacity (Fl rd)} {o' : BRTOpacity ℝ} {n : ℕ} {K : ℝ} :
      Twin rd _ _ inferInstance inferInstance o o' n K →
      Twin rd (Opacity (Fl rd)) (Opacity ℝ) inferInstance inferInstance (.BRTOpac o) (.BRTOpac o') n K
  | vGray {o : GrayOpacity (Fl rd)} {o' : GrayOpacity ℝ} {n : ℕ} {K : ℝ} :
      Twin rd _ _ inferInstance inferInstance o o' n K →
      Twin rd (Opacity (Fl rd)) (Opacity ℝ) inferInstance inferInstance (.Gray o) (.Gray o') n K
  | vNonCGSBRT {o : NonCGSUnits (Fl rd) (BRTOpacity (Fl rd))} {o' : NonCGSUnits ℝ (BRTOpacity ℝ)} {n : ℕ} {K : ℝ} :
      Twin rd _ _ inferInstance inferInstance o o' n K →
      Twin rd (Opacity (Fl rd)) (Opacity ℝ) inferInstance inferInstance (.NonCGSBRT o) (.NonCGSBRT o') n K
  | vNonCGSGray {o : NonCGSUnits (Fl rd) (GrayOpacity (Fl rd))} {o' : NonCGSUnits ℝ (GrayOpacity ℝ)} {n : ℕ} {K : ℝ} :
      Twin rd _ _ inferInstance inferInstance o o' n K →
      Twin rd (Opacity (Fl rd)) (Opacity ℝ) inferInstance inferInstance (.NonCGSGray o) (.NonCGSGray o') n K

/-- Neutrino scattering opacities built twice from the same numbers. -/
inductive TwinS (rd : ℝ → ℝ) : (O O' : Type) → NeutrinoSAPI (Fl rd) O → NeutrinoSAPI ℝ O' → O → O' → ℕ → Prop
  | gray (sigma apm : Fl rd) : 0 < sigma.val → 0 < apm.val →
      TwinS rd (GraySOpacity (Fl rd)) (GraySOpacity ℝ) inferInstance inferInstance ⟨sigma, apm⟩ ⟨sigma.val, apm.val⟩ 0
  | nonCGS {O O' : Type} {i : NeutrinoSAPI (Fl rd) O} {i' : NeutrinoSAPI ℝ O'} {o : O} {o' : O'} {n : ℕ}
      (time mass length temp : Fl rd) : 0 < time.val → 0 < mass.val → 0 < length.val → 0 < temp.val →
      TwinS rd O O' i i' o o' n →
      TwinS rd (NonCGSUnitsS (Fl rd) O) (NonCGSUnitsS ℝ O') inferInstance inferInstance
        (NonCGSUnitsS.construct o time mass length temp)
        (NonCGSUnitsS.construct o' time.val mass.val length.val temp.val) (n + 1)
  | vScaleFreeS {o : GraySOpacity (Fl rd)} {o' : GraySOpacity ℝ} {n : ℕ} :
      TwinS rd _ _ inferInstance inferInstance o o' n →
      TwinS rd (SOpacity (Fl rd)) (SOpacity ℝ) inferInstance inferInstance (.ScaleFreeS o) (.ScaleFreeS o') n
  | vGrayS {o : GraySOpacity (Fl rd)} {o' : GraySOpacity ℝ} {n : ℕ} :
      TwinS rd _ _ inferInstance inferInstance o o' n →
      TwinS rd (SOpacity (Fl rd)) (SOpacity ℝ) inferInstance inferInstance (.GrayS o) (.GrayS o') n
  | vNonCGSGrayS {o : NonCGSUnitsS (Fl rd) (GraySOpacity (Fl rd))} {o' : NonCGSUnitsS ℝ (GraySOpacity ℝ)} {n : ℕ} :
      TwinS rd _ _ inferInstance inferInstance o o' n →
      TwinS rd (SOpacity (Fl rd)) (SOpacity ℝ) inferInstance inferInstance (.NonCGSGrayS o) (.NonCGSGrayS o') n

end Neutrinos
end Opac
