import Verif.Spec.Vector
import Verif.Spec.Built

/-!
# Vectorised calls of the opacity API and histories of such calls
-/

namespace Opac
open Spec

/-- total number of unit wrappers passed through by a list of calls -/
def totalWraps {α : Type 1} (wraps : α → ℕ) (l : List α) : ℕ := (l.map wraps).sum

/-- the four functions with a vectorised overload -/
inductive VFn where
  | AbsorptionCoefficient | AngleAveragedAbsorptionCoefficient | EmissivityPerNuOmega | EmissivityPerNu

namespace Photons
variable {R O : Type}

/-- the scalar overload -/
def scalarFn (i : PhotonAPI R O) (o : O) : VFn → (rho temp nu : R) → R
  | .AbsorptionCoefficient => i.AbsorptionCoefficient o
  | .AngleAveragedAbsorptionCoefficient => i.AngleAveragedAbsorptionCoefficient o
  | .EmissivityPerNuOmega => i.EmissivityPerNuOmega o
  | .EmissivityPerNu => i.EmissivityPerNu o

/-- the vectorised overload -/
def vectorFn (i : PhotonAPI R O) (o : O) : VFn → (rho temp : R) → Indexer → Indexer → ℤ → Heap R → Heap R
  | .AbsorptionCoefficient => i.AbsorptionCoefficientV o
  | .AngleAveragedAbsorptionCoefficient => i.AngleAveragedAbsorptionCoefficientV o
  | .EmissivityPerNuOmega => i.EmissivityPerNuOmegaV o
  | .EmissivityPerNu => i.EmissivityPerNuV o

/-- one vectorised call, on some opacity of class `P`, with non-aliased arrays -/
structure VCall (R : Type) (P : (O : Type) → PhotonAPI R O → O → ℕ → Prop) where
  O : Type
  inst : PhotonAPI R O
  o : O
  /-- number of unit wrappers around the opacity -/
  wraps : ℕ
  isP : P O inst o wraps
  fn : VFn
  rho : R
  temp : R
  nu_bins : Indexer
  coeffs : Indexer
  nbins : ℤ
  separate : Separate nu_bins coeffs nbins

/-- run the call on the memory -/
def VCall.run {P : (O : Type) → PhotonAPI R O → O → ℕ → Prop} (c : VCall R P) (m : Heap R) : Heap R :=
  vectorFn c.inst c.o c.fn c.rho c.temp c.nu_bins c.coeffs c.nbins m

/-- run a history of calls, first call first -/
def runCalls {P : (O : Type) → PhotonAPI R O → O → ℕ → Prop} (h : List (VCall R P)) (m : Heap R) : Heap R :=
  h.foldl (fun m c => c.run m) m

/-- the call reads its frequencies inside `F` and stores its results outside `F` -/
def VCall.Respects {P : (O : Type) → PhotonAPI R O → O → ℕ → Prop} (F : Set ℕ) (c : VCall R P) : Prop :=
  ∀ i : ℕ, (i : ℤ) < c.nbins → c.nu_bins i ∈ F ∧ c.coeffs i ∉ F

end Photons

namespace Neutrinos
variable {R O : Type}

/-- the scalar overload -/
def scalarFn (i : NeutrinoAPI R O) (o : O) : VFn → (rho temp Ye : R) → RadiationType → (nu : R) → Outcome R
  | .AbsorptionCoefficient => i.AbsorptionCoefficient o
  | .AngleAveragedAbsorptionCoefficient => i.AngleAveragedAbsorptionCoefficient o
  | .EmissivityPerNuOmega => i.EmissivityPerNuOmega o
  | .EmissivityPerNu => i.EmissivityPerNu o

/-- the vectorised overload -/
def vectorFn (i : NeutrinoAPI R O) (o : O) :
    VFn → (rho temp Ye : R) → RadiationType → Indexer → Indexer → ℤ → Heap R → Outcome (Heap R)
  | .AbsorptionCoefficient => i.AbsorptionCoefficientV o
  | .AngleAveragedAbsorptionCoefficient => i.AngleAveragedAbsorptionCoefficientV o
  | .EmissivityPerNuOmega => i.EmissivityPerNuOmegaV o
  | .EmissivityPerNu => i.EmissivityPerNuV o

/-- one vectorised call, on some opacity of class `P`, with non-aliased arrays -/
structure VCall (R : Type) (P : (O : Type) → NeutrinoAPI R O → O → ℕ → Prop) where
  O : Type
  inst : NeutrinoAPI R O
  o : O
  /-- number of unit wrappers around the opacity -/
  wraps : ℕ
  isP : P O inst o wraps
  fn : VFn
  rho : R
  temp : R
  Ye : R
  type : RadiationType
  nu_bins : Indexer
  coeffs : Indexer
  nbins : ℤ
  separate : Separate nu_bins coeffs nbins

/-- run the call on the memory -/
def VCall.run {P : (O : Type) → NeutrinoAPI R O → O → ℕ → Prop} (c : VCall R P) (m : Heap R) : Outcome (Heap R) :=
  vectorFn c.inst c.o c.fn c.rho c.temp c.Ye c.type c.nu_bins c.coeffs c.nbins m

/-- run a history of calls, first call first, as long as the calls return -/
def runCalls {P : (O : Type) → NeutrinoAPI R O → O → ℕ → Prop} : List (VCall R P) → Heap R → Outcome (Heap R)
  | [], m => .ok m
  | c :: h, m => (c.run m).bind (runCalls h)

/-- the call reads its frequencies inside `F` and stores its results outside `F` -/
def VCall.Respects {P : (O : Type) → NeutrinoAPI R O → O → ℕ → Prop} (F : Set ℕ) (c : VCall R P) : Prop :=
  ∀ i : ℕ, (i : ℤ) < c.nbins → c.nu_bins i ∈ F ∧ c.coeffs i ∉ F

end Neutrinos
end Opac
