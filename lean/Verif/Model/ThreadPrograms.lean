import Verif.Model.Threads
import Verif.Spec.Calls

/-!
# The loads and stores of each vectorised method

`Program R O inst o n P`: opacity `o`, wrapped `n` times, executes the loads and stores `P fn …` for the vectorised
function `fn`.  The shipped opacities run one loop (load frequency, store result); a unit wrapper runs its three loops
around the wrapped call; the variant only forwards.
-/

namespace Opac
open Threads

namespace Photons

/-- the scalar results of the shipped opacities, never aborting -/
def plainProg {R : Type} [Arith R] {O : Type} (inst : PhotonAPI R O) (o : O) (fn : VFn) (rho temp : R) :
    Indexer → Indexer → ℤ → Prog R :=
  fillProg fun nu => .ok (scalarFn inst o fn rho temp nu)

/-- the unit in which the wrapper returns its results: `photons/non_cgs_photons.hpp:83,109,133,157` -/
def outUnit {R O : Type} (w : NonCGSUnits R O) : VFn → R
  | .AbsorptionCoefficient | .AngleAveragedAbsorptionCoefficient => w.length_unit_
  | .EmissivityPerNuOmega | .EmissivityPerNu => w.inv_emiss_unit_

/-- loads and stores of the photon opacities: `photons/gray_opacity_photons.hpp:54-61` etc.,
`photons/non_cgs_photons.hpp:71-159`, `photons/photon_variant.hpp:44-150` -/
inductive Program (R : Type) [Arith R] : (O : Type) → PhotonAPI R O → O → ℕ →
    (VFn → (rho temp : R) → Indexer → Indexer → ℤ → Prog R) → Prop
  | gray (o : GrayOpacity R) : Program R (GrayOpacity R) inferInstance o 0 (plainProg inferInstance o)
  | epbremss (o : EPBremsstrahlungOpacity R) :
      Program R (EPBremsstrahlungOpacity R) inferInstance o 0 (plainProg inferInstance o)
  | powerLaw (o : PowerLawOpacity R) : Program R (PowerLawOpacity R) inferInstance o 0 (plainProg inferInstance o)
  | nonCGS {O : Type} {inst : PhotonAPI R O} (w : NonCGSUnits R O) {n : ℕ} {P} : Program R O inst w.opac_ n P →
      Program R (NonCGSUnits R O) inferInstance w (n + 1) fun fn rho temp =>
        nonCGSProg (P fn (rho * w.rho_unit_) (temp * w.temp_unit_)) w.freq_unit_ w.time_unit_ (outUnit w fn)
  | vScaleFree {o : GrayOpacity R} {n : ℕ} {P} : Program R _ inferInstance o n P →
      Program R (Opacity R) inferInstance (.ScaleFree o) n P
  | vGray {o : GrayOpacity R} {n : ℕ} {P} : Program R _ inferInstance o n P →
      Program R (Opacity R) inferInstance (.Gray o) n P
  | vPowerLawScaleFree {o : PowerLawOpacity R} {n : ℕ} {P} : Program R _ inferInstance o n P →
      Program R (Opacity R) inferInstance (.PowerLawScaleFree o) n P
  | vPowerLaw {o : PowerLawOpacity R} {n : ℕ} {P} : Program R _ inferInstance o n P →
      Program R (Opacity R) inferInstance (.PowerLaw o) n P
  | vEPBremss {o : EPBremsstrahlungOpacity R} {n : ℕ} {P} : Program R _ inferInstance o n P →
      Program R (Opacity R) inferInstance (.EPBremss o) n P
  | vNonCGSGray {o : NonCGSUnits R (GrayOpacity R)} {n : ℕ} {P} : Program R _ inferInstance o n P →
      Program R (Opacity R) inferInstance (.NonCGSGray o) n P
  | vNonCGSPowerLaw {o : NonCGSUnits R (PowerLawOpacity R)} {n : ℕ} {P} : Program R _ inferInstance o n P →
      Program R (Opacity R) inferInstance (.NonCGSPowerLaw o) n P
  | vNonCGSEPBremss {o : NonCGSUnits R (EPBremsstrahlungOpacity R)} {n : ℕ} {P} : Program R _ inferInstance o n P →
      Program R (Opacity R) inferInstance (.NonCGSEPBremss o) n P

/-- the loads and stores of a call -/
def VCall.IsCode {R : Type} [Arith R] {Q : (O : Type) → PhotonAPI R O → O → ℕ → Prop} (c : VCall R Q) (p : Prog R) : Prop :=
  ∃ P, Program R c.O c.inst c.o c.wraps P ∧ p = P c.fn c.rho c.temp c.nu_bins c.coeffs c.nbins

end Photons

namespace Neutrinos

/-- the scalar results of the shipped opacities (a table look-up may abort) -/
def plainProg {R : Type} [Arith R] {O : Type} (inst : NeutrinoAPI R O) (o : O) (fn : VFn) (rho temp Ye : R)
    (type : RadiationType) : Indexer → Indexer → ℤ → Prog R :=
  fillProg (scalarFn inst o fn rho temp Ye type)

/-- the unit in which the wrapper returns its results: `neutrinos/non_cgs_neutrinos.hpp:83,113,139,165` -/
def outUnit {R O : Type} (w : NonCGSUnits R O) : VFn → R
  | .AbsorptionCoefficient | .AngleAveragedAbsorptionCoefficient => w.length_unit_
  | .EmissivityPerNuOmega | .EmissivityPerNu => w.inv_emiss_unit_

/-- loads and stores of the neutrino opacities: `neutrinos/gray_opacity_neutrinos.hpp:55-62` etc.,
`neutrinos/non_cgs_neutrinos.hpp:70-167`, `neutrinos/neutrino_variant.hpp:44-160` -/
inductive Program (R : Type) [Arith R] : (O : Type) → NeutrinoAPI R O → O → ℕ →
    (VFn → (rho temp Ye : R) → RadiationType → Indexer → Indexer → ℤ → Prog R) → Prop
  | gray (o : GrayOpacity R) : Program R (GrayOpacity R) inferInstance o 0 (plainProg inferInstance o)
  | tophat (o : TophatEmissivity R) : Program R (TophatEmissivity R) inferInstance o 0 (plainProg inferInstance o)
  | brt (o : BRTOpacity R) : Program R (BRTOpacity R) inferInstance o 0 (plainProg inferInstance o)
  | spiner (o : SpinerOpacity R) : Program R (SpinerOpacity R) inferInstance o 0 (plainProg inferInstance o)
  | nonCGS {O : Type} {inst : NeutrinoAPI R O} (w : NonCGSUnits R O) {n : ℕ} {P} : Program R O inst w.opac_ n P →
      Program R (NonCGSUnits R O) inferInstance w (n + 1) fun fn rho temp Ye type =>
        nonCGSProg (P fn (rho * w.rho_unit_) (temp * w.temp_unit_) Ye type) w.freq_unit_ w.time_unit_ (outUnit w fn)
  | vScaleFree {o : GrayOpacity R} {n : ℕ} {P} : Program R _ inferInstance o n P →
      Program R (Opacity R) inferInstance (.ScaleFree o) n P
  | vBRTOpac {o : BRTOpacity R} {n : ℕ} {P} : Program R _ inferInstance o n P →
      Program R (Opacity R) inferInstance (.BRTOpac o) n P
  | vGray {o : GrayOpacity R} {n : ℕ} {P} : Program R _ inferInstance o n P →
      Program R (Opacity R) inferInstance (.Gray o) n P
  | vTophat {o : TophatEmissivity R} {n : ℕ} {P} : Program R _ inferInstance o n P →
      Program R (Opacity R) inferInstance (.Tophat o) n P
  | vSpinerOpac {o : SpinerOpacity R} {n : ℕ} {P} : Program R _ inferInstance o n P →
      Program R (Opacity R) inferInstance (.SpinerOpac o) n P
  | vNonCGSBRT {o : NonCGSUnits R (BRTOpacity R)} {n : ℕ} {P} : Program R _ inferInstance o n P →
      Program R (Opacity R) inferInstance (.NonCGSBRT o) n P
  | vNonCGSGray {o : NonCGSUnits R (GrayOpacity R)} {n : ℕ} {P} : Program R _ inferInstance o n P →
      Program R (Opacity R) inferInstance (.NonCGSGray o) n P
  | vNonCGSTophat {o : NonCGSUnits R (TophatEmissivity R)} {n : ℕ} {P} : Program R _ inferInstance o n P →
      Program R (Opacity R) inferInstance (.NonCGSTophat o) n P
  | vNonCGSSpiner {o : NonCGSUnits R (SpinerOpacity R)} {n : ℕ} {P} : Program R _ inferInstance o n P →
      Program R (Opacity R) inferInstance (.NonCGSSpiner o) n P

/-- the loads and stores of a call -/
def VCall.IsCode {R : Type} [Arith R] {Q : (O : Type) → NeutrinoAPI R O → O → ℕ → Prop} (c : VCall R Q) (p : Prog R) : Prop :=
  ∃ P, Program R c.O c.inst c.o c.wraps P ∧ p = P c.fn c.rho c.temp c.Ye c.type c.nu_bins c.coeffs c.nbins

end Neutrinos
end Opac
