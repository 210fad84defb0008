import Verif.Spec.InUnits
import Verif.Spec.Built

/-!
# A model behind wrappers

`Behind o₀ … o us`: the object `o` a program calls is the shipped model object `o₀`, wrapped in the unit systems
`us` (outermost first; none, one, or any number of wrappers), and possibly held by the variant.
-/

namespace Opac
open Spec

/-- the unit system seen through a stack of wrappers, outermost first -/
def Spec.Units.total : List Units → Units
  | [] => .cgs
  | u :: us => (Units.total us).mul u

namespace Photons

/-- the variant `v` holds the object `o` -/
inductive Holds : Opacity ℝ → (O : Type) → PhotonAPI ℝ O → O → Prop
  | ScaleFree (o : GrayOpacity ℝ) : Holds (.ScaleFree o) _ inferInstance o
  | Gray (o : GrayOpacity ℝ) : Holds (.Gray o) _ inferInstance o
  | PowerLawScaleFree (o : PowerLawOpacity ℝ) : Holds (.PowerLawScaleFree o) _ inferInstance o
  | PowerLaw (o : PowerLawOpacity ℝ) : Holds (.PowerLaw o) _ inferInstance o
  | EPBremss (o : EPBremsstrahlungOpacity ℝ) : Holds (.EPBremss o) _ inferInstance o
  | NonCGSGray (o : NonCGSUnits ℝ (GrayOpacity ℝ)) : Holds (.NonCGSGray o) _ inferInstance o
  | NonCGSPowerLaw (o : NonCGSUnits ℝ (PowerLawOpacity ℝ)) : Holds (.NonCGSPowerLaw o) _ inferInstance o
  | NonCGSEPBremss (o : NonCGSUnits ℝ (EPBremsstrahlungOpacity ℝ)) : Holds (.NonCGSEPBremss o) _ inferInstance o

/-- `o` is `o₀` behind the unit wrappers `us`, possibly in the variant -/
inductive Behind {O₀ : Type} [i₀ : PhotonAPI ℝ O₀] (o₀ : O₀) : (O : Type) → PhotonAPI ℝ O → O → List Units → Prop
  | self : Behind o₀ O₀ i₀ o₀ []
  | nonCGS {O : Type} {inst : PhotonAPI ℝ O} {o : O} {us : List Units} (u : Units) : u.Pos → Behind o₀ O inst o us →
      Behind o₀ (NonCGSUnits ℝ O) inferInstance (NonCGSUnits.construct o u.time u.mass u.length u.temp) (u :: us)
  | variant {v : Opacity ℝ} {O : Type} {inst : PhotonAPI ℝ O} {o : O} {us : List Units} : Holds v O inst o →
      Behind o₀ O inst o us → Behind o₀ (Opacity ℝ) inferInstance v us

end Photons

namespace Neutrinos

/-- the variant `v` holds the object `o` -/
inductive Holds : Opacity ℝ → (O : Type) → NeutrinoAPI ℝ O → O → Prop
  | ScaleFree (o : GrayOpacity ℝ) : Holds (.ScaleFree o) _ inferInstance o
  | BRTOpac (o : BRTOpacity ℝ) : Holds (.BRTOpac o) _ inferInstance o
  | Gray (o : GrayOpacity ℝ) : Holds (.Gray o) _ inferInstance o
  | Tophat (o : TophatEmissivity ℝ) : Holds (.Tophat o) _ inferInstance o
  | SpinerOpac (o : SpinerOpacity ℝ) : Holds (.SpinerOpac o) _ inferInstance o
  | NonCGSBRT (o : NonCGSUnits ℝ (BRTOpacity ℝ)) : Holds (.NonCGSBRT o) _ inferInstance o
  | NonCGSGray (o : NonCGSUnits ℝ (GrayOpacity ℝ)) : Holds (.NonCGSGray o) _ inferInstance o
  | NonCGSTophat (o : NonCGSUnits ℝ (TophatEmissivity ℝ)) : Holds (.NonCGSTophat o) _ inferInstance o
  | NonCGSSpiner (o : NonCGSUnits ℝ (SpinerOpacity ℝ)) : Holds (.NonCGSSpiner o) _ inferInstance o

/-- `o` is `o₀` behind the unit wrappers `us`, possibly in the variant -/
inductive Behind {O₀ : Type} [i₀ : NeutrinoAPI ℝ O₀] (o₀ : O₀) : (O : Type) → NeutrinoAPI ℝ O → O → List Units → Prop
  | self : Behind o₀ O₀ i₀ o₀ []
  | nonCGS {O : Type} {inst : NeutrinoAPI ℝ O} {o : O} {us : List Units} (u : Units) : u.Pos → Behind o₀ O inst o us →
      Behind o₀ (NonCGSUnits ℝ O) inferInstance (NonCGSUnits.construct o u.time u.mass u.length u.temp) (u :: us)
  | variant {v : Opacity ℝ} {O : Type} {inst : NeutrinoAPI ℝ O} {o : O} {us : List Units} : Holds v O inst o →
      Behind o₀ O inst o us → Behind o₀ (Opacity ℝ) inferInstance v us

end Neutrinos
end Opac
