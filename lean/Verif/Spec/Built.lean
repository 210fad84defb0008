import Verif.Spec.Units
import Verif.Spec.Thermal
import Verif.Model.Photons
import Verif.Model.Neutrinos
import Verif.Model.PhotonsS
import Verif.Model.NeutrinosS

/-!
# The opacities a program can build

A property "for every photon (neutrino) opacity" ranges over `Built`: the shipped models with any parameters,
wrapped any number of times in any positive unit system, possibly held by the variant.  The last index counts
the unit wrappers.
-/

namespace Opac
open Spec

namespace Photons

/-- photon opacities that can be constructed, over exact reals.  The physical constants are those of any
positive set. -/
inductive Built : (O : Type) → PhotonAPI ℝ O → O → ℕ → Prop
  | gray (o : GrayOpacity ℝ) : PosPC o.pc → Built (GrayOpacity ℝ) inferInstance o 0
  | epbremss (o : EPBremsstrahlungOpacity ℝ) : PosPC o.pc → Built (EPBremsstrahlungOpacity ℝ) inferInstance o 0
  | powerLaw (o : PowerLawOpacity ℝ) : PosPC o.pc → Built (PowerLawOpacity ℝ) inferInstance o 0
  | nonCGS {O : Type} {inst : PhotonAPI ℝ O} {o : O} {n : ℕ} (u : Units) : u.Pos → Built O inst o n →
      Built (NonCGSUnits ℝ O) inferInstance (NonCGSUnits.construct o u.time u.mass u.length u.temp) (n + 1)
  | vScaleFree {o : GrayOpacity ℝ} {n : ℕ} : Built _ inferInstance o n →
      Built (Opacity ℝ) inferInstance (.ScaleFree o) n
  | vGray {o : GrayOpacity ℝ} {n : ℕ} : Built _ inferInstance o n →
      Built (Opacity ℝ) inferInstance (.Gray o) n
  | vPowerLawScaleFree {o : PowerLawOpacity ℝ} {n : ℕ} : Built _ inferInstance o n →
      Built (Opacity ℝ) inferInstance (.PowerLawScaleFree o) n
  | vPowerLaw {o : PowerLawOpacity ℝ} {n : ℕ} : Built _ inferInstance o n →
      Built (Opacity ℝ) inferInstance (.PowerLaw o) n
  | vEPBremss {o : EPBremsstrahlungOpacity ℝ} {n : ℕ} : Built _ inferInstance o n →
      Built (Opacity ℝ) inferInstance (.EPBremss o) n
  | vNonCGSGray {o : NonCGSUnits ℝ (GrayOpacity ℝ)} {n : ℕ} : Built _ inferInstance o n →
      Built (Opacity ℝ) inferInstance (.NonCGSGray o) n
  | vNonCGSPowerLaw {o : NonCGSUnits ℝ (PowerLawOpacity ℝ)} {n : ℕ} : Built _ inferInstance o n →
      Built (Opacity ℝ) inferInstance (.NonCGSPowerLaw o) n
  | vNonCGSEPBremss {o : NonCGSUnits ℝ (EPBremsstrahlungOpacity ℝ)} {n : ℕ} : Built _ inferInstance o n →
      Built (Opacity ℝ) inferInstance (.NonCGSEPBremss o) n

/-- photon opacities that can be constructed, over any arithmetic (in particular IEEE doubles), with any
parameters, any constants and any unit values that satisfy `P`.  The last index counts the unit wrappers. -/
inductive ConstructedIn (R : Type) [Arith R] (P : R → Prop) : (O : Type) → PhotonAPI R O → O → ℕ → Prop
  | gray (o : GrayOpacity R) : ConstructedIn R P (GrayOpacity R) inferInstance o 0
  | epbremss (o : EPBremsstrahlungOpacity R) : ConstructedIn R P (EPBremsstrahlungOpacity R) inferInstance o 0
  | powerLaw (o : PowerLawOpacity R) : ConstructedIn R P (PowerLawOpacity R) inferInstance o 0
  | nonCGS {O : Type} {inst : PhotonAPI R O} {o : O} {n : ℕ} (time mass length temp : R) : P time → P mass →
      P length → P temp → ConstructedIn R P O inst o n →
      ConstructedIn R P (NonCGSUnits R O) inferInstance (NonCGSUnits.construct o time mass length temp) (n + 1)
  | vScaleFree {o : GrayOpacity R} {n : ℕ} : ConstructedIn R P _ inferInstance o n →
      ConstructedIn R P (Opacity R) inferInstance (.ScaleFree o) n
  | vGray {o : GrayOpacity R} {n : ℕ} : ConstructedIn R P _ inferInstance o n →
      ConstructedIn R P (Opacity R) inferInstance (.Gray o) n
  | vPowerLawScaleFree {o : PowerLawOpacity R} {n : ℕ} : ConstructedIn R P _ inferInstance o n →
      ConstructedIn R P (Opacity R) inferInstance (.PowerLawScaleFree o) n
  | vPowerLaw {o : PowerLawOpacity R} {n : ℕ} : ConstructedIn R P _ inferInstance o n →
      ConstructedIn R P (Opacity R) inferInstance (.PowerLaw o) n
  | vEPBremss {o : EPBremsstrahlungOpacity R} {n : ℕ} : ConstructedIn R P _ inferInstance o n →
      ConstructedIn R P (Opacity R) inferInstance (.EPBremss o) n
  | vNonCGSGray {o : NonCGSUnits R (GrayOpacity R)} {n : ℕ} : ConstructedIn R P _ inferInstance o n →
      ConstructedIn R P (Opacity R) inferInstance (.NonCGSGray o) n
  | vNonCGSPowerLaw {o : NonCGSUnits R (PowerLawOpacity R)} {n : ℕ} : ConstructedIn R P _ inferInstance o n →
      ConstructedIn R P (Opacity R) inferInstance (.NonCGSPowerLaw o) n
  | vNonCGSEPBremss {o : NonCGSUnits R (EPBremsstrahlungOpacity R)} {n : ℕ} : ConstructedIn R P _ inferInstance o n →
      ConstructedIn R P (Opacity R) inferInstance (.NonCGSEPBremss o) n

/-- photon scattering opacities that can be constructed, over any arithmetic, with any parameters and any unit values
that satisfy `P`.  The last index counts the unit wrappers. -/
inductive ConstructedSIn (R : Type) [Arith R] (P : R → Prop) : (O : Type) → PhotonSAPI R O → O → ℕ → Prop
  | gray (o : GraySOpacity R) : ConstructedSIn R P (GraySOpacity R) inferInstance o 0
  | thomson (o : ThomsonSOpacity R) : ConstructedSIn R P (ThomsonSOpacity R) inferInstance o 0
  | powerLaw (o : PowerLawSOpacity R) : ConstructedSIn R P (PowerLawSOpacity R) inferInstance o 0
  | nonCGS {O : Type} {inst : PhotonSAPI R O} {o : O} {n : ℕ} (time mass length temp : R) : P time → P mass →
      P length → P temp → ConstructedSIn R P O inst o n →
      ConstructedSIn R P (NonCGSUnitsS R O) inferInstance (NonCGSUnitsS.construct o time mass length temp) (n + 1)
  | vScaleFreeS {o : GraySOpacity R} {n : ℕ} : ConstructedSIn R P _ inferInstance o n →
      ConstructedSIn R P (SOpacity R) inferInstance (.ScaleFreeS o) n
  | vGrayS {o : GraySOpacity R} {n : ℕ} : ConstructedSIn R P _ inferInstance o n →
      ConstructedSIn R P (SOpacity R) inferInstance (.GrayS o) n
  | vThomsonS {o : ThomsonSOpacity R} {n : ℕ} : ConstructedSIn R P _ inferInstance o n →
      ConstructedSIn R P (SOpacity R) inferInstance (.ThomsonS o) n
  | vPowerLawS {o : PowerLawSOpacity R} {n : ℕ} : ConstructedSIn R P _ inferInstance o n →
      ConstructedSIn R P (SOpacity R) inferInstance (.PowerLawS o) n
  | vNonCGSGrayS {o : NonCGSUnitsS R (GraySOpacity R)} {n : ℕ} : ConstructedSIn R P _ inferInstance o n →
      ConstructedSIn R P (SOpacity R) inferInstance (.NonCGSGrayS o) n
  | vNonCGSThomsonS {o : NonCGSUnitsS R (ThomsonSOpacity R)} {n : ℕ} : ConstructedSIn R P _ inferInstance o n →
      ConstructedSIn R P (SOpacity R) inferInstance (.NonCGSThomsonS o) n
  | vNonCGSPowerLawS {o : NonCGSUnitsS R (PowerLawSOpacity R)} {n : ℕ} : ConstructedSIn R P _ inferInstance o n →
      ConstructedSIn R P (SOpacity R) inferInstance (.NonCGSPowerLawS o) n

/-- any unit values at all (even zero or NaN) -/
abbrev Constructed (R : Type) [Arith R] := ConstructedIn R (fun _ => True)

/-- any unit values at all (even zero or NaN) -/
abbrev ConstructedS (R : Type) [Arith R] := ConstructedSIn R (fun _ => True)

end Photons

namespace Neutrinos

/-- a Fermi–Dirac distribution with at least one species and positive constants -/
structure PosDist (d : FermiDirac ℝ) : Prop where
  species : 0 < d.NSPECIES
  pc : PosPC d.pc

/-- neutrino opacities that can be constructed, over exact reals.  (The distribution's constants and the
opacity's constants are separate template parameters; every shipped type passes the same for both.) -/
inductive Built : (O : Type) → NeutrinoAPI ℝ O → O → ℕ → Prop
  | gray (o : GrayOpacity ℝ) : PosDist o.dist → o.dist.pc = o.pc →
      Built (GrayOpacity ℝ) inferInstance o 0
  | tophat (o : TophatEmissivity ℝ) : PosDist o.dist → o.dist.pc = o.pc →
      Built (TophatEmissivity ℝ) inferInstance o 0
  | brt (o : BRTOpacity ℝ) : PosDist o.dist → o.dist.pc = o.pc →
      Built (BRTOpacity ℝ) inferInstance o 0
  | spiner (o : SpinerOpacity ℝ) : PosDist o.dist → o.dist.pc = o.pc →
      Built (SpinerOpacity ℝ) inferInstance o 0
  | nonCGS {O : Type} {inst : NeutrinoAPI ℝ O} {o : O} {n : ℕ} (u : Units) : u.Pos → Built O inst o n →
      Built (NonCGSUnits ℝ O) inferInstance (NonCGSUnits.construct o u.time u.mass u.length u.temp) (n + 1)
  | vScaleFree {o : GrayOpacity ℝ} {n : ℕ} : Built _ inferInstance o n →
      Built (Opacity ℝ) inferInstance (.ScaleFree o) n
  | vBRTOpac {o : BRTOpacity ℝ} {n : ℕ} : Built _ inferInstance o n →
      Built (Opacity ℝ) inferInstance (.BRTOpac o) n
  | vGray {o : GrayOpacity ℝ} {n : ℕ} : Built _ inferInstance o n →
      Built (Opacity ℝ) inferInstance (.Gray o) n
  | vTophat {o : TophatEmissivity ℝ} {n : ℕ} : Built _ inferInstance o n →
      Built (Opacity ℝ) inferInstance (.Tophat o) n
  | vSpinerOpac {o : SpinerOpacity ℝ} {n : ℕ} : Built _ inferInstance o n →
      Built (Opacity ℝ) inferInstance (.SpinerOpac o) n
  | vNonCGSBRT {o : NonCGSUnits ℝ (BRTOpacity ℝ)} {n : ℕ} : Built _ inferInstance o n →
      Built (Opacity ℝ) inferInstance (.NonCGSBRT o) n
  | vNonCGSGray {o : NonCGSUnits ℝ (GrayOpacity ℝ)} {n : ℕ} : Built _ inferInstance o n →
      Built (Opacity ℝ) inferInstance (.NonCGSGray o) n
  | vNonCGSTophat {o : NonCGSUnits ℝ (TophatEmissivity ℝ)} {n : ℕ} : Built _ inferInstance o n →
      Built (Opacity ℝ) inferInstance (.NonCGSTophat o) n
  | vNonCGSSpiner {o : NonCGSUnits ℝ (SpinerOpacity ℝ)} {n : ℕ} : Built _ inferInstance o n →
      Built (Opacity ℝ) inferInstance (.NonCGSSpiner o) n

/-- neutrino opacities that can be constructed, over any arithmetic (in particular IEEE doubles), with any
parameters, any constants and any unit values that satisfy `P`.  The last index counts the unit wrappers. -/
inductive ConstructedIn (R : Type) [Arith R] (P : R → Prop) : (O : Type) → NeutrinoAPI R O → O → ℕ → Prop
  | gray (o : GrayOpacity R) : ConstructedIn R P (GrayOpacity R) inferInstance o 0
  | tophat (o : TophatEmissivity R) : ConstructedIn R P (TophatEmissivity R) inferInstance o 0
  | brt (o : BRTOpacity R) : ConstructedIn R P (BRTOpacity R) inferInstance o 0
  | spiner (o : SpinerOpacity R) : ConstructedIn R P (SpinerOpacity R) inferInstance o 0
  | nonCGS {O : Type} {inst : NeutrinoAPI R O} {o : O} {n : ℕ} (time mass length temp : R) : P time → P mass →
      P length → P temp → ConstructedIn R P O inst o n →
      ConstructedIn R P (NonCGSUnits R O) inferInstance (NonCGSUnits.construct o time mass length temp) (n + 1)
  | vScaleFree {o : GrayOpacity R} {n : ℕ} : ConstructedIn R P _ inferInstance o n →
      ConstructedIn R P (Opacity R) inferInstance (.ScaleFree o) n
  | vBRTOpac {o : BRTOpacity R} {n : ℕ} : ConstructedIn R P _ inferInstance o n →
      ConstructedIn R P (Opacity R) inferInstance (.BRTOpac o) n
  | vGray {o : GrayOpacity R} {n : ℕ} : ConstructedIn R P _ inferInstance o n →
      ConstructedIn R P (Opacity R) inferInstance (.Gray o) n
  | vTophat {o : TophatEmissivity R} {n : ℕ} : ConstructedIn R P _ inferInstance o n →
      ConstructedIn R P (Opacity R) inferInstance (.Tophat o) n
  | vSpinerOpac {o : SpinerOpacity R} {n : ℕ} : ConstructedIn R P _ inferInstance o n →
      ConstructedIn R P (Opacity R) inferInstance (.SpinerOpac o) n
  | vNonCGSBRT {o : NonCGSUnits R (BRTOpacity R)} {n : ℕ} : ConstructedIn R P _ inferInstance o n →
      ConstructedIn R P (Opacity R) inferInstance (.NonCGSBRT o) n
  | vNonCGSGray {o : NonCGSUnits R (GrayOpacity R)} {n : ℕ} : ConstructedIn R P _ inferInstance o n →
      ConstructedIn R P (Opacity R) inferInstance (.NonCGSGray o) n
  | vNonCGSTophat {o : NonCGSUnits R (TophatEmissivity R)} {n : ℕ} : ConstructedIn R P _ inferInstance o n →
      ConstructedIn R P (Opacity R) inferInstance (.NonCGSTophat o) n
  | vNonCGSSpiner {o : NonCGSUnits R (SpinerOpacity R)} {n : ℕ} : ConstructedIn R P _ inferInstance o n →
      ConstructedIn R P (Opacity R) inferInstance (.NonCGSSpiner o) n

/-- neutrino scattering opacities that can be constructed, over any arithmetic, with any parameters and any unit values
that satisfy `P`.  The last index counts the unit wrappers. -/
inductive ConstructedSIn (R : Type) [Arith R] (P : R → Prop) : (O : Type) → NeutrinoSAPI R O → O → ℕ → Prop
  | gray (o : GraySOpacity R) : ConstructedSIn R P (GraySOpacity R) inferInstance o 0
  | nonCGS {O : Type} {inst : NeutrinoSAPI R O} {o : O} {n : ℕ} (time mass length temp : R) : P time → P mass →
      P length → P temp → ConstructedSIn R P O inst o n →
      ConstructedSIn R P (NonCGSUnitsS R O) inferInstance (NonCGSUnitsS.construct o time mass length temp) (n + 1)
  | vScaleFreeS {o : GraySOpacity R} {n : ℕ} : ConstructedSIn R P _ inferInstance o n →
      ConstructedSIn R P (SOpacity R) inferInstance (.ScaleFreeS o) n
  | vGrayS {o : GraySOpacity R} {n : ℕ} : ConstructedSIn R P _ inferInstance o n →
      ConstructedSIn R P (SOpacity R) inferInstance (.GrayS o) n
  | vNonCGSGrayS {o : NonCGSUnitsS R (GraySOpacity R)} {n : ℕ} : ConstructedSIn R P _ inferInstance o n →
      ConstructedSIn R P (SOpacity R) inferInstance (.NonCGSGrayS o) n

/-- any unit values at all (even zero or NaN) -/
abbrev Constructed (R : Type) [Arith R] := ConstructedIn R (fun _ => True)

/-- any unit values at all (even zero or NaN) -/
abbrev ConstructedS (R : Type) [Arith R] := ConstructedSIn R (fun _ => True)

end Neutrinos
end Opac
