import Verif.Model.MeanPhoton
import Verif.Model.MeanNeutrino

/-! # Which means are numbers: the condition of C74 -/

namespace Opac.Photons
open Arith Spiner

variable {R : Type} [Arith R]

/-- at every density and temperature of the table and in every group, neither mean has a logarithm that is NaN -/
def MeansAreNumbers (pc : PC R) (coef : R → R → R → R) (density temperature : Grid R) (b : List R) (ngroups NNu : ℤ) : Prop :=
  ∀ (i j g : ℕ) (lo hi : R), (i : ℤ) < temperature.N → (j : ℤ) < density.N → (g : ℤ) < ngroups → b[g]? = some lo →
    b[g + 1]? = some hi →
    isNaN (ToLog (MGTables.GroupMeans pc coef (FromLog (density.x j)) (FromLog (temperature.x i)) lo hi NNu).1) = false ∧
    isNaN (ToLog (MGTables.GroupMeans pc coef (FromLog (density.x j)) (FromLog (temperature.x i)) lo hi NNu).2) = false

end Opac.Photons

namespace Opac.Neutrinos.MeanTables
open Arith Spiner

variable {R : Type} [Arith R]

/-- neither mean is NaN once its logarithm is taken -/
def Fine (k : R × R) : Prop := isNaN (toLog_ k.1) = false ∧ isNaN (toLog_ k.2) = false

/-- the four sums over the first `n` of `N` frequencies, for a coefficient `κ` -/
def SumsAt (κ : R → R → R → RadiationType → R → R) (B dBdT : R → RadiationType → R → R) (rho T Ye : R) (s : RadiationType)
    (lNuMin lNuMax : R) (N : ℤ) : ℕ → Sums R
  | 0 => Sums.zero
  | n + 1 => addSample rho (κ rho T Ye s (sampleNu lNuMin lNuMax N n)) (B T s (sampleNu lNuMin lNuMax N n))
      (dBdT T s (sampleNu lNuMin lNuMax N n)) (sampleNu lNuMin lNuMax N n) ((lNuMax - lNuMin) / lit N)
      (SumsAt κ B dBdT rho T Ye s lNuMin lNuMax N n)

/-- the particle of a table index -/
def species : ℕ → RadiationType
  | 0 => .NU_ELECTRON
  | 1 => .NU_ELECTRON_ANTI
  | _ => .NU_HEAVY

/-- the means at a node, after `n` frequencies -/
def NodeMeans (κ : R → R → R → RadiationType → R → R) (B dBdT : R → RadiationType → R → R) (density temperature fraction : Grid R)
    (lNuMin lNuMax : R) (N : ℤ) (a b c d n : ℕ) : R × R :=
  means (SumsAt κ B dBdT (fromLog_ (density.x a)) (fromLog_ (temperature.x b)) (fraction.x c) (species d) lNuMin lNuMax N n)

end Opac.Neutrinos.MeanTables

namespace Opac.Neutrinos
open Arith Spiner MeanTables

variable {R : Type} [Arith R]

/-- at every density, temperature and electron fraction of the table and for every neutrino species, the means over all
frequencies are numbers -/
def MeansAreNumbers (κ : R → R → R → RadiationType → R → R) (B dBdT : R → RadiationType → R → R)
    (density temperature fraction : Grid R) (lNuMin lNuMax : R) (N : ℤ) : Prop :=
  ∀ a b c d : ℕ, (a : ℤ) < density.N → (b : ℤ) < temperature.N → (c : ℤ) < fraction.N → d < 3 →
    Fine (NodeMeans κ B dBdT density temperature fraction lNuMin lNuMax N a b c d N.toNat)

/-- the same for the means over the first `n + 1` frequencies, for every `n` -/
def PartialMeansAreNumbers (κ : R → R → R → RadiationType → R → R) (B dBdT : R → RadiationType → R → R)
    (density temperature fraction : Grid R) (lNuMin lNuMax : R) (N : ℤ) : Prop :=
  ∀ a b c d : ℕ, (a : ℤ) < density.N → (b : ℤ) < temperature.N → (c : ℤ) < fraction.N → d < 3 →
    ∀ n : ℕ, (n : ℤ) < N → Fine (NodeMeans κ B dBdT density temperature fraction lNuMin lNuMax N a b c d (n + 1))

end Opac.Neutrinos
