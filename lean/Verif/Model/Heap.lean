import Verif.Model.Base
import Mathlib.Logic.Function.Basic

/-!
# Memory for the vectorised calls

A vectorised call receives two indexers (`nu_bins`, `coeffs`); all the library requires of an indexer is
`operator[]` returning a reference (`singularity-opac/base/indexers.hpp:22-28`).  Memory is a map from
addresses to values, an indexer is the map from element number to address.
-/

namespace Opac
open Arith

/-- memory -/
abbrev Heap (R : Type) := ℕ → R
/-- an indexer: element number ↦ address -/
abbrev Indexer := ℕ → ℕ

variable {R : Type} [Arith R]

/-- `for (int i = 0; i < nbins; ++i) coeffs[i] = f(nu_bins[i]);` — the body of every vectorised method of a
CGS opacity, e.g. `photons/gray_opacity_photons.hpp:59-61`. -/
def fillLoop (f : R → R) (nu_bins coeffs : Indexer) (nbins : ℤ) : Heap R → Heap R :=
  forLoop nbins (fun i m => Function.update m (coeffs i) (f (m (nu_bins i))))

/-- `for (int i = 0; i < nbins; ++i) a[i] *= k;` — e.g. `photons/non_cgs_photons.hpp:76-78` -/
def scaleLoop (a : Indexer) (k : R) (nbins : ℤ) : Heap R → Heap R :=
  forLoop nbins (fun i m => Function.update m (a i) (m (a i) * k))

/-- `for (int i = 0; i < nbins; ++i) { a[i] *= k; b[i] *= l; }` — e.g.
`photons/non_cgs_photons.hpp:81-84` -/
def scaleLoop2 (a : Indexer) (k : R) (b : Indexer) (l : R) (nbins : ℤ) : Heap R → Heap R :=
  forLoop nbins (fun i m =>
    let m := Function.update m (a i) (m (a i) * k)
    Function.update m (b i) (m (b i) * l))

/-- The vectorised methods of the unit wrappers: scale the caller's frequencies to Hz, call the wrapped
vectorised method, scale frequencies back and results to code units
(`photons/non_cgs_photons.hpp:71-85` and the three analogous methods). -/
def nonCGSVector (inner : Indexer → Indexer → ℤ → Heap R → Heap R) (freq_unit time_unit out_unit : R)
    (nu_bins coeffs : Indexer) (nbins : ℤ) (m : Heap R) : Heap R :=
  let m := scaleLoop nu_bins freq_unit nbins m
  let m := inner nu_bins coeffs nbins m
  scaleLoop2 nu_bins time_unit coeffs out_unit nbins m

end Opac
