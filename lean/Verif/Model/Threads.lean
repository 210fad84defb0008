import Verif.Model.Neutrinos
import Verif.Model.Photons

/-!
# Vectorised calls as thread programs

A vectorised call is a sequence of loads and stores of the caller's memory (`photons/*_photons.hpp`,
`neutrinos/*_neutrinos.hpp`); the opacity itself is only read and is never shared with a writer, so it is a parameter.
Several threads (e.g. the iterations of a `portableFor`) run such sequences on one memory.  One step of the machine is one
load or one store of one thread; the order is arbitrary.  (This is sequential consistency; C++ guarantees it for programs
without data races, and gives programs with data races no meaning at all, so races are defined, too.)
-/

namespace Opac.Threads
open Arith

variable {R : Type} [Arith R]

/-- what remains to be executed by a thread -/
inductive Prog (R : Type) where
  | done
  /-- the program has aborted -/
  | abort (why : String)
  /-- undefined behaviour -/
  | ub (why : String)
  | load (a : ℕ) (k : R → Prog R)
  | store (a : ℕ) (v : R) (k : Prog R)

namespace Prog

/-- first `p`, then `q` -/
def seq (p q : Prog R) : Prog R :=
  match p with
  | done => q
  | abort s => abort s
  | ub s => ub s
  | load a k => load a fun v => (k v).seq q
  | store a v k => store a v (k.seq q)

/-- run alone -/
def run (p : Prog R) (m : Heap R) : Outcome (Heap R) :=
  match p with
  | done => .ok m
  | abort s => .abort s
  | ub s => .ub s
  | load a k => (k (m a)).run m
  | store a v k => k.run (Function.update m a v)

/-- one load or store -/
def step : Prog R → Heap R → Option (Prog R × Heap R)
  | load a k, m => some (k (m a), m)
  | store a v k, m => some (k, Function.update m a v)
  | _, _ => none

/-- continue with `k` if the evaluation returns -/
def andThen (o : Outcome R) (k : R → Prog R) : Prog R :=
  match o with
  | .ok v => k v
  | .abort s => abort s
  | .ub s => ub s

end Prog
open Prog

/-- `coeffs[i] = f(nu_bins[i]);` for `i` in a list, e.g. `photons/gray_opacity_photons.hpp:59-61` -/
def fillBody (f : R → Outcome R) (nu_bins coeffs : Indexer) (i : ℕ) (k : Prog R) : Prog R :=
  load (nu_bins i) fun v => andThen (f v) fun w => store (coeffs i) w k

/-- the loop of every vectorised method of a CGS opacity, e.g. `photons/gray_opacity_photons.hpp:59-61` -/
def fillProg (f : R → Outcome R) (nu_bins coeffs : Indexer) (nbins : ℤ) : Prog R :=
  (List.range nbins.toNat).foldr (fillBody f nu_bins coeffs) done

/-- `for (int i = 0; i < nbins; ++i) a[i] *= u;` — `photons/non_cgs_photons.hpp:76-78` -/
def scaleProg (a : Indexer) (u : R) (nbins : ℤ) : Prog R :=
  (List.range nbins.toNat).foldr (fun i k => load (a i) fun v => store (a i) (v * u) k) done

/-- `for (int i = 0; i < nbins; ++i) { a[i] *= u; b[i] *= w; }` — `photons/non_cgs_photons.hpp:81-84` -/
def scaleProg2 (a : Indexer) (u : R) (b : Indexer) (w : R) (nbins : ℤ) : Prog R :=
  (List.range nbins.toNat).foldr (fun i k => load (a i) fun v => store (a i) (v * u)
    (load (b i) fun v => store (b i) (v * w) k)) done

/-- the vectorised methods of the unit wrappers: `photons/non_cgs_photons.hpp:71-85`,
`neutrinos/non_cgs_neutrinos.hpp:70-85` and analogous methods -/
def nonCGSProg (inner : Indexer → Indexer → ℤ → Prog R) (freq_unit time_unit out_unit : R) (nu_bins coeffs : Indexer)
    (nbins : ℤ) : Prog R :=
  (scaleProg nu_bins freq_unit nbins).seq
    ((inner nu_bins coeffs nbins).seq (scaleProg2 nu_bins time_unit coeffs out_unit nbins))

/-- threads and the memory they share -/
structure Config (R ι : Type) where
  threads : ι → Prog R
  heap : Heap R

variable {ι : Type} [DecidableEq ι]

/-- some thread performs one load or store -/
inductive Step : Config R ι → Config R ι → Prop
  | mk {c : Config R ι} (t : ι) {p : Prog R} {m : Heap R} (h : (c.threads t).step c.heap = some (p, m)) :
      Step c ⟨Function.update c.threads t p, m⟩

/-- reachable in exactly `n` steps -/
inductive Reach : Config R ι → ℕ → Config R ι → Prop
  | refl (c) : Reach c 0 c
  | step {c c' c'' : Config R ι} {n} (h : Reach c n c') (s : Step c' c'') : Reach c (n + 1) c''

/-- all threads have finished -/
def Config.Finished (c : Config R ι) : Prop := ∀ t, c.threads t = done

/-- the next action of a program stores to `a` -/
def Prog.Stores (a : ℕ) : Prog R → Prop
  | store b _ _ => a = b
  | _ => False

/-- the next action of a program loads from or stores to `a` -/
def Prog.Accesses (a : ℕ) : Prog R → Prop
  | store b _ _ => a = b
  | load b _ => a = b
  | _ => False

/-- a data race: two threads are about to access one address, one of them with a store -/
def Config.Race (c : Config R ι) : Prop :=
  ∃ t u a, t ≠ u ∧ (c.threads t).Stores a ∧ (c.threads u).Accesses a

end Opac.Threads
