# Formal model of lanl/singularity-opac in Lean 4 — design

The source modelled is `/repo` at the pinned commit (read as text only, never built).
Everything below lives in `/verif/lean/Verif`:

| directory | contents |
|---|---|
| `Model/` | the code, function by function; every definition cites file and lines |
| `Spec/` | small specifications that do not mention how the model computes: what "elementwise", "in code units", "the Planck spectrum", "constructed through the API", … mean |
| `Lemmas/` | helper lemmas |
| `Props/` | one theorem per claim of `properties.jsonl` (name starts with the property id), each followed by `example`s showing that concrete cases meet its hypotheses |

## 1. How the code is modelled

### 1.1 One model, several arithmetics

`Real` in the C++ code is `double` (or `float`).  The model is written **once**, polymorphic over a
carrier `R` with the operations the code uses (`class Arith R` in `Model/Arith.lean`: `+ - * /`,
comparisons as `Bool`, `abs exp expm1 log10 pow cos sqrt`, `isnan isinf`, `numeric_limits::min/epsilon/infinity`,
decimal literals).  It is then instantiated:

* at **every** `R` — theorems with no arithmetic law at all (dispatch transparency, vector = scalar,
  device copy, frame conditions, file round trips, crash points).  They hold bit for bit for IEEE doubles.
* at any `R` with IEEE **comparison** laws (`class LawfulCmp R`) — group lookup and bound validation.
  Comparisons are exact in IEEE arithmetic, so these also hold for real doubles, NaN and ±inf included (`Lemmas/Cmp` has
  the instances: `ℝ`, `XR`, `Fl rd` and `IE F` for every format `F`, so `binary64` too).
* at `XR` = `nan | -inf | +inf | fin x` with exact arithmetic on finite values and the IEEE rules for
  special values — 0/0, x/0, inf-inf, NaN propagation.  (No signed zero, no rounding, no overflow.)
  The mean opacities are proved here, because their last group bound may be infinite.
* at `ℝ` — analytic identities (integrals, derivatives, inverses, unit covariance, Chebyshev).
  Here rounding is *not* modelled: a theorem at `ℝ` says the formula is right, not that the last bit is.
* at `Fl rd`, `ℝ` with an arbitrary rounding function of unit roundoff `u` — drift of `nu_bins` in wrapped vector calls.
* at `IE F` (`Model/Ieee.lean`), an IEEE arithmetic over an arbitrary format `F` with overflow to infinity,
  and at the concrete format `binary64` (`Model/Binary.lean`) — witnesses of failures in double precision.
* at `SZ F` (`Model/SignedZero.lean`), the same with signed zeros.  `C62_agrees` shows that it differs from `IE F` only in
  divisions by `-0` and powers of `-0`; C62 shows that no answer has its sign bit set.

Template parameters become fields: `pc` (`PC R`) of the photon distributions, `{NSPECIES, pc}` of the neutrino ones.

### 1.2 Control outcomes

`Outcome.ok v` normal return; `Outcome.abort msg` for `OPAC_ERROR` and `PORTABLE_ALWAYS_REQUIRE`;
`Outcome.ub why` for out-of-range access, reads of uninitialised storage and signed overflow.
`PORTABLE_REQUIRE` and `assert` abort only in debug builds: functions that contain them take a flag `debug`
(so the properties are stated for both kinds of build).

### 1.3 Memory and threads

Vectorised calls run on a heap `ℕ → R`; an indexer is a map from element number to address, so aliasing of
input and output and frame conditions can be stated (`Model/Heap.lean`).  For C32 the same loops are written as
programs of single loads and stores (`Model/Threads.lean`, `Model/ThreadPrograms.lean`; theorem `C32_code` shows
that running a program alone is the call), and any number of threads interleave under an arbitrary schedule.
The memory model is sequential consistency; a data race (two threads, same address, one of them writing) is
defined separately, and the positive theorems show absence of races as well, which is what C++ needs for sequential
consistency to be the right model.

### 1.4 Files

A file is a finite map from dataset name to content (`Model/Hdf.lean`).  `Save` is a list of operations, each of
which may fail; the code's status handling is modelled.  A crash leaves the effect of a prefix of the
operations; a single dataset is either whole or absent after a crash (HDF5 without this guarantee is not modelled).

### 1.5 External code

Not in `/repo` (submodules are empty), hence modelled from its documented interface and part of the
trusted base: Spiner `RegularGrid1D` / `DataBox` (grid coordinates, index clamping, linear weights,
multilinear `interpToReal`, `saveHDF`/`loadHDF` as exact store/fetch), ports-of-call `Variant`/`PORTABLE_*`,
HDF5, the C++ standard library's `exp`, `pow`, ….

### 1.6 Quantification over the API

A user reaches an opacity by a constructor, then wraps it in unit wrappers any number of times, then may put it into a
variant or copy it to a device.  `Spec/Built.lean` defines the objects so obtained (`Built`, `ConstructedIn`,
`Constructed`, …); most theorems quantify over all of them.  `Spec/Calls.lean` lists the scalar and vectorised entry points
(`scalarFn`, `vectorFn`) and histories of calls (`runCalls`).

## 2. Trusted base

* Lean 4.33.0's kernel.  No axiom is added; no `sorry`, `native_decide` or `bv_decide` occurs.  The axioms each
  theorem depends on are listed in section 6: at most `propext`, `Classical.choice`, `Quot.sound`.
* The transcription of the C++ text to Lean (every definition cites file and lines; simplifications are stated there).
* The external contracts of 1.4, 1.5 and the arithmetic idealisations of 1.1.

### 2.1 Modelled

| source | model |
|---|---|
| `base/robust_utils.hpp`, `base/radiation_types.hpp`, loops | `Base` |
| `base/sp5.hpp` (names of datasets and groups) | `SpinerOpac`, `MeanPhoton`, `MeanNeutrino` |
| `constants/constants.hpp` | `Constants` |
| `base/indexers.hpp`, `utils/fast-math/logs.hpp` (`BDMath::log10`) | `Indexers` |
| `chebyshev/chebyshev.hpp`, `chebyshev/vandermonde.hpp` | `Chebyshev`, `Vandermonde` |
| `photons/thermal_distributions_photons.hpp` | `PhotonThermal` |
| `photons/{gray,epbremsstrahlung,powerlaw}_opacity_photons.hpp`, `non_cgs_photons.hpp`, `photon_variant.hpp` | `Photons` |
| `photons/{gray,thomson,powerlaw}_s_opacity_photons.hpp`, `non_cgs_s_photons.hpp`, `photon_s_variant.hpp` | `PhotonsS` |
| `photons/mean_photon_types.hpp`/group utilities, `mean_opacity_photons.hpp`, `mean_s_opacity_photons.hpp`, variants | `MeanUtils`, `MeanPhoton` |
| `neutrinos/thermal_distributions_neutrinos.hpp` | `NeutrinoThermal` |
| `neutrinos/{gray,tophat,brt}_…`, `non_cgs_neutrinos.hpp`, `neutrino_variant.hpp` | `Neutrinos` |
| neutrino scattering | `NeutrinosS` |
| `neutrinos/spiner_opac_neutrinos.hpp` | `SpinerOpac` |
| `neutrinos/mean_opacity_neutrinos.hpp`, `mean_s_opacity_neutrinos.hpp`, variants | `MeanNeutrino` |
| ownership of tables: constructors, `GetOnDevice`, `Finalize`, `Save`, moves and copies of the five classes that hold `Spiner::DataBox`es, and their wrappers | `Memory` |

### 2.2 Not modelled

`PrintParams` (output text only), `Finalize` of classes without tables (no-op), the `lambda` scratch pointer (never
read by the modelled classes), overloads that only reorder defaulted arguments, the build system, `test/`, the
submodules under `utils/`, actual device memory (a device copy is a separately owned block with equal contents; reading
it from the host is not an error in the model), the dangling `filename.c_str()` members
that are never read.  Not expressible: accuracy of `libm` functions.

## 3. Properties: what is modelled and how it is proved

| id | model | proof | file |
|---|---|---|---|
| C01 | `GroupOfNuImpl` over any carrier with IEEE comparisons | loop invariant `b[lower] ≤ nu < b[upper]`, measure `upper-lower` | Groups |
| C02 | same loop, instrumented with reads and int overflow as `ub` | invariant + log2 measure | Groups |
| C03 | `ValidateGroupBounds` loop with early abort; `ValidateOpacityTables_` | induction over the array, iff with an order-theoretic spec; iff with a spec of matching tables | Groups |
| C04 | `SetGroupBounds`/`ExportGroupBounds` | list round trip | Groups |
| C05 | `*FromNu` accessors | composition of C01 with the group accessors | Groups |
| C06 | accessors guarded by `PORTABLE_REQUIRE(ngroups == 1)` (debug builds only), variant accessor | case split; counterexamples for release builds and for the variant | Groups |
| C07–C09 | `MeanOpacityImpl_` over any opacity, any grid, any bounds, at `XR` | weighted-mean inequalities for all sample counts; counterexamples | Means, MeansFalse |
| C10 | `GroupFrequencySamples` | log-window inequalities; counterexamples where the fallback window leaves the group | Means, MeansFalse |
| C11 | log tables + Spiner interpolation | node exactness and convexity of multilinear interpolation | MeanLookup |
| C12, C49 | file as map; `Save`/load | round trip, induction on the number of cycles | MeanFiles, NeutrinoFiles |
| C13 | `Save` as a list of file operations, prefix = crash, any operation may fail | case analysis on every prefix and failure pattern | MeanFiles, NeutrinoFiles |
| C14–C16 | thermal distributions at ℝ | Bose/Fermi integrals from Mathlib's zeta/Gamma theory | Thermal |
| C17 | same | `HasDerivAt`; counterexample through the unit wrappers | Thermal |
| C18, C19 | same | real powers, monotonicity | Thermal |
| C20–C24 | each opacity model | algebra / integrals; counterexamples. C23 for tables: node values from C48, the logarithm of emission over absorption is interpolated linearly | EmissionPhotons, EmissionNeutrinos, TableKirchhoff |
| C25–C28 | unit wrappers generic over the wrapped opacity | algebra over ℝ; counterexamples | Units, UnitsNeutrino |
| C29, C44, C45 | constants | algebra and rational arithmetic; counterexamples | Constants |
| C30, C31 | heap programs | induction on the loop, induction on the call history | Vector |
| C32 | interleavings of any number of threads | invariant over schedules; counterexample for wrappers | Threads |
| C33, C34 | sum type of alternatives, `GetOnDevice` | case analysis for every arithmetic | Dispatch |
| C35 | index maps on `Int` | case analysis | Utils |
| C36–C38 | power-law / gray / Thomson models | algebra of real powers; decision logic on IEEE classes | PhotonModels, Scattering |
| C39 | robust utilities | real inequalities | Utils |
| C40–C43 | Chebyshev and indexers | Mathlib Chebyshev polynomials, discrete orthogonality; the shipped tables by kernel evaluation with interval bounds on cosines | Chebyshev, ChebyshevInterp, Indexers |
| C46, C47, C53–C55 | neutrino/photon models at ℝ, XR and binary64 | algebra, IEEE special-value evaluation | NeutrinoModels, PhotonModels, SpecialValues |
| C48, C50, C51 | `SpinerOpacity` | node exactness; counterexamples | SpinerFill, NuLib |
| C52 | neutrino mean opacities | weighted-mean inequalities, both kinds of opacity | NeutrinoMeans |
| C56–C59 | the 14 API functions answering from tables (`FromTable`), over ℝ | closed form of grid interpolation (Lemmas/Interp): continuity, convexity, monotonicity, affine ends | TableLookup |
| C60 | a disk of files, `Save`/file constructors of the five classes, `runSave`, `CrashState` | invariant over histories: every file is a part of one object's datasets | Files |
| C61 | `MeansOf` (any absorption or scattering mean object built from an opacity), `NeutrinoMeans` (the same for neutrinos), table lookups | node values from the averaging theorems; bilinear interpolation is monotone; exact linearity at nodes. False for Rosseland means with skipped samples | MeanResponse, NeutrinoMeanResponse |
| C62 | sign predicates (`Spec/Signs`) on every object of the API; `IE F` for every float format, `SZ F` with signed zeros, `XR` for finiteness | one table of sign rules (`SignLaws`), proved for floating point and for exact arithmetic, and one induction over all objects. False for tophat electron antineutrinos above Ye = 1/2 | Signs, SignedZeros |
| C63, C43 | fast logarithm | `BDMath::log10` with the platform's float conversion and `logf` as parameters; laws for monotone rounding and for a rounding unit `u`, proved of IEEE binary32 (`binary32`); error propagated through the piecewise-linear and the Chebyshev interpolation | FastLog, Indexers |
| C64 | blocks of memory with owners (`Model/Memory`); programs as lists of calls on named objects; rules and expected results in `Spec/Lifetimes` | every constructor in memory refines the constructor of the value model (`Ctor.made`); invariant over programs: objects in use own disjoint allocated blocks. False for NuLib loads, for constructors that end in an error, and for plain copies | Lifetimes |
| C65 | the model over `Fl rd` (each operation exact, then rounded by `rd`) and over the reals, side by side; pairs of objects built from the same numbers and what "agrees up to N rounding errors" means in `Spec/Accuracy`; what is asked of the rounding in `Spec/Rounding` | calculus of relative errors on the logarithmic scale, `|log a - log x| <= N * -log(1-u)`: products, quotients, powers, sums of positives, `exp`, `expm1` with their condition numbers; induction over the unit wrappers.  `rn53` (round to 53 bits) is such a rounding.  Overflow, underflow, and libm functions with an error above u are outside.  Tables are C68, means C69 and C70; the tophat is false in a unit wrapper |
| C66 | `MeansOf` and the neutrino mean objects for every number of frequencies `N`; limits as integrals in `Spec/MeanLimits` (over the reals) | midpoint sums converge (dominated convergence, countably many jumps allowed); change of variable to log10; bilinear lookup is continuous in the node values. False for neutrino scattering, whose sums always have 100 terms | MeanLimits, NeutrinoMeanLimits, TableLimits |
| C67 | every analytic model of photons and neutrinos but the tophat, absorbing or scattering, run in IEEE double precision (`IE binary64`, with overflow, subnormal numbers, infinities, NaN; `exp`, `expm1`, `pow` and `sqrt` correctly rounded) and exactly, on the same numbers; size ranges in `Spec/Doubles` | an interval of exponents is carried through every operation (`Sim`): no operand leaves the normal range, so the run is one of `Fl rd` and C65 bounds its error. False at large `hν/kT`, where `expm1` overflows and the emissivity becomes 0; the derivative in code units is wrong anyway (C17). Not covered: tophat, means, tables | Doubles, DoublesMore |
| C68 | every function of the API that answers from a table, run over `Fl rd` and over the reals on the same table (`Spec/LookupAccuracy.lean`: the same grids and entries; bounds on grid ends, spacing, entries and differences of neighbours). Proof: the error of a coordinate is bounded from the error of the logarithm; the computed cell is the exact one or its neighbour; if it is the neighbour, the weight is within the error of 0 or 1 there, so that the result moves by at most the error times the jump; induction over the axes; back from the logarithm. `Lemmas/LookupAccuracy.lean`, `Props/LookupAccuracy.lean`. |
| C69 | the constructors and lookups of photon group means run over `Fl rd` and over the reals on the same numbers; when the tests of the window are decided the same way, and the bound, in `Spec/MeanAccuracy` | the error calculus of C65 carried through the loops: nodes of the grid, window (its tests are decided alike when one part in a thousand apart), samples, widths (a difference of logarithms, hence the condition on the width of the window), weights, opacities, sums (induction over the samples, one error each), floors, logarithm; then the lookup of C68 with entries in error. Underflow of weights at large hν/kT is outside. `Lemmas/MeanAccuracy*`, `Props/MeanAccuracy` |
| C70 | the constructors and lookups of neutrino means, for absorption and scattering, with a given window and with the default one, run over `Fl rd` and over the reals on the same numbers; what an undecided comparison with the floor is, and the bound, in `Spec/NeutrinoMeanAccuracy` | as C69: nodes, window (the default one is itself computed with rounding), samples, weights (errors grow with hν/kT), opacities (a sample of the Burrows–Reddy–Thompson opacity may be an exact zero), sums by induction over the samples, floors decided alike, logarithm, four-dimensional table with entries in error. `Lemmas/NeutrinoMeanAccuracy*`, `Props/NeutrinoMeanAccuracy` |
| C71 | every function of the API that answers from a table, run in IEEE double precision (`IE binary64`) and over the reals on the same numbers (`Spec/LookupDoubles`: tables as doubles, bounds on grids and entries, the number converted to `int`) | coordinates, weights and entries are multiples of a fixed power of two: logarithms of doubles are zero or at least 2^-56, so no product or sum underflows, none overflows, and the double-precision run is the run with rounding alone; then C68. Infinite and NaN coordinates stay so up to the conversion. `Lemmas/SignedDoubles`, `Lemmas/LookupDoubles*`, `Props/LookupDoubles` |
| C72 | every lookup in means and tabulated opacities built by the library (`Spec/Tables`: `DefinedIff`) | index arithmetic for every carrier: `bound` clamps to `[0, N-2]`, which is empty for one node; the single-node tables are built in `XR`, where the node is NaN (`Lemmas/SingleNode`) |
| C73 | the mean constructors at `IE binary64`, on axes, bounds and opacities of ordinary size (`Spec/MeanDoubles`) | interval bounds (powers of two) for every intermediate of the sampling window, the log axis, the weights and the sums (`Lemmas/MeanWindow`, `MeanSamples`, `MeanNumbers`, `NeutrinoMeanNumbers`, `MeanAuto`); overflow witnesses `Lemmas/MeanOverflow`, `Lemmas/TophatOverflow` |
| C74 | the mean constructors, photons at every carrier with lawful comparisons, neutrinos at every carrier (`Spec/MeanOutcome`) | loop invariant: the cells filled so far hold means that are not NaN, and no step is undefined (`Lemmas/MeanAbort`, `NeutrinoMeanAbort`) |
| C75 | the mean constructors and the lookups at `IE binary64` (`Spec/MeanFinite`: a coefficient that is nowhere 0, a finite result) | each numerator is dominated by its denominator up to a factor and an absolute error covering underflow, kept through the sums (`Lemmas/MeanFinite`, `MeanFiniteSums`); then interpolation between finite values stays between them up to rounding (`Lemmas/LookupFinite`). Not shown: whether the Rosseland mean of photons can be infinite for opacities that vanish at some frequencies |
| C76 | every constructor that allocates tables, `Save` and the lookups; fresh contents are the argument `junk` (`Spec/Uninitialised`: two runs end alike, tables and files hold the same numbers) | two runs in lockstep: the places at which the tables agree grow with every write, and at the end of the loop nest they cover the table (`Lemmas/Uninitialised`, `UninitialisedFill`, `UninitialisedNuLib`); then lookups, exports and files agree (`UninitialisedApi`) |
| C77 | the constructors of photon and neutrino means and the group lookups | an entry is a function of its node, its two bounds and the opacity (`Impl_filled`, `loops_fills`), so entries with equal nodes and bounds are equal, and so are lookups (`Lemmas/Locality`); false for the default neutrino window, with a tophat emissivity just above the shorter window as witness |
| C78 | thermal distributions of every photon and neutrino opacity, wrapped any number of times (`Spec/Built`) | scaling: the law depends on ν/T up to ν³; peak: x³/(eˣ∓1) has derivative of the sign of 3(1∓e⁻ˣ)-x, which changes once (strict concavity, bracketed with bounds on e); weights: D(T) ≤ 2/T·B(2T) dominates differentiation under the integral sign (`Lemmas/ThermalShape`) |
| C79 | photon mean opacities with a group `[0, ∞)` (XR), limit of `C66_planck` | the head of the Planck integral is bounded by the Rayleigh–Jeans law, the tail by an exponential (`Lemmas/WholeSpectrum`): less than 6e-11 of the radiation is outside of the sampled range; the emission of bremsstrahlung is `C e^{-hν/kT}`, of which the range keeps `e^{-0.001}`; Rosseland: `B <= T dB/dT <= (1 + x) B`, so that less than 7e-11 of the weights are outside (`Lemmas/WholeRosseland`) |
| C80 | the mean constructors, photons at every carrier, neutrinos over `ℝ` | photons: the check precedes everything else. Neutrinos: false; the sums over no frequencies are 0, and over a reversed window the Rosseland numerator is not positive, so the stored means are 0 for every opacity (`lookups_of_sums`) |
| C81 | `Emissivity` of `MeanOpacity` with the group `[0, ∞)`, over `XR` | `4π∫B` is what `ThermalDistributionOfT` returns (`thermal_whole`); with C79 the Planck emissivity tends to `4π∫αB`. False with the default mean: for bremsstrahlung the sum of the Rosseland weights tends to at most `4∫B/T`, from `d(νB)/dν = 4B - T dB/dT`, and the mean free paths are bounded below by the samples between `5kT/h` and `9kT/h` (`rosseland_small`) |
| C82 | two constructions of `MeanOpacity` / `MeanSOpacity` on the same nodes, one with a bound less, over `XR` | A bound within the thermal range cuts the sampled range of the union in two (`merged_window`); the limits of C66 are quotients of integrals that add, so the merged mean is a mediant. Up to `1 + ε` because the floor enters the divisor once instead of twice. False for a bound of half the lower end of the thermal range: the first part falls back to `[b/2, b]`, the second starts at `b`, the union does not go below `2b`; the coefficient of bremsstrahlung decreases (`brems_decreasing`) |
| C83 | all groups of `MeanOpacity` / `MeanSOpacity`, over `XR` | Either a group is sampled over its part within the thermal range, or it lies outside of it (`range_cases`); so mean times intensity differs from the integral over the group by at most the intensity that the group has outside of the thermal range, twice (`group_emission`). These add up to `6·10⁻¹¹` of the intensity, whatever the bounds (`groups_add`, `lost`) |
| C84 | Planck means of `MeanOpacityBase` (neutrinos), over `ℝ` | The window of the default constructor contains the thermal range of every node (`C84_window`). The Fermi-Dirac law grows at most like `ν³` below and decays like Planck's law above, so that `3·10⁻¹⁴` of its integral `7π⁴/60 (kT)⁴/(h³c²)` lies outside (`fermi_lost`); a mean over a window that misses a part ε of the weight is off by at most `2ε` of the bound (`mean_near`); with the limit of C66. |
| C85 | Planck means of `MeanOpacityBase` (photons, at `XR`; neutrinos, over `ℝ`), for a fixed number of frequencies | The sums are midpoint rules in the logarithm of the frequency. The weight `C e^{4u}/(e^{b e^u} ± 1)` is bounded in variation of its slope by 12 times its integral plus edge terms (`curve_variation`, `curve_edges`), so the rule is off by at most `1.6 δ²` of the integral; the coefficient is off by `Λδ/4` on average in a cell (`Bends.mean`); the rest is C79 and C84 (`mean_near`). |
| C86 | `indexers::Linear`, `indexers::LogLinear`: constructors, `operator[]`, `operator()` | Element access and definedness in every arithmetic (`lerp_iff`); the shape over `ℝ` from the closed form `lin` of the interpolation (`lin_shape`), from which straight lines, order, continuity and the negative values beyond the range follow. |
| C87 | `MeanOpacity`, `MeanSOpacity` (photons), group lookups | At `XR`.  A function whose logarithm changes at most `m` times as fast as that of the frequency (`Spec.LogSlope`) is integrated by the midpoint rule up to a factor `exp(± m δ/2)` (`Slopes.quad`); Planck's law and its temperature derivative have `m = max(4, hB/kT)` (`Lemmas/WeightSlopes`).  The quotient of two such sums, the Wien tail and the guards give the factor (`Lemmas/GroupError`).  Neutrinos at `ℝ`, with the Fermi-Dirac law and its derivative (`Lemmas/WindowError`). |
| C88 | group lookups of `MeanOpacity`, `MeanSOpacity` (photons) | At `XR`.  The bilinear interpolation of logarithms lies within the bounds at the four corners, weighted with the distances (`bilinear_le`, `le_bilinear`); a corner's mean differs from the state's by its distance times the rate (`MeanSlope`), and the weighted distance is at most half the distance of two nodes (`between`).  C87's factor is used at each corner.  Neutrinos at `ℝ`, with three axes, through `near` (see C89).  The rate theorems (`C88_*_rate`) bound how fast the exact means change, from the source's rate and from how fast the spectra change with temperature. |
| C89 | `SpinerOpacity` fill and lookups | At `ℝ`.  `Lemmas/InterpError`: by induction on the axes, a multilinear interpolation differs from a value by at most the rates times half the node distances, if the corners differ from it by the rates times their distances (`mlin_near`).  With the closed form of every table lookup (`Query.Good.closed`, C56) and the entries of filled tables (`filled_cells`, C48) this bounds every tabulated quantity; `C89_gray` instantiates the rates for gray opacities. |
| C90 | `SpinerOpacity` fill and lookups of absorption and emissivity | At `ℝ`.  Both tables have the same axes, hence the same weights: the logarithm of the ratio of two answers is the interpolation of the logarithms of the ratios of the entries (`mlin_sub`), which are the thermal spectrum up to the floor (C23 at the nodes).  `near_ratio` then bounds it as in C89, with the rates of the Fermi-Dirac spectrum (`spectrum_changes`). |
| C91 | Construction of multigroup means and lookups between nodes | At `ℝ`.  Each group answer is within `exp F` of the exact Planck mean of its group at the state (`C88` with the rates of `C88_group_planck_rate`); multiplied by the group's intensity this is an integral over the group, and the integrals over adjacent groups add up (`intervalIntegral.sum_integral_adjacent_intervals`).  For Rosseland means the same with inverses; the floor costs a factor `exp ε`.  Examples: two groups, a gray opacity, a state between nodes, `F ≤ 0.05`. |
| C92 | `EPBremsstrahlungOpacity`, `PowerLawOpacity`, group means of bremsstrahlung | At `XR`, finite inputs.  `α` is the real function the code computes (`bremsstrahlung_law`); its factors are compared one by one: powers with an offset (`offset_step`), `1 - exp(-x)` (`stim_step`, from the convexity of `exp`), `exp x` (`exp_arg_step`).  The rates discharge the conditions of C91. |
| C93 | every function that answers from a table; `SpinerOpacity` filled from a source | Over the reals, on the closed form of the lookup (C56).  The ramps of an axis add up to the coordinate (`ramp_sum`), so steps of at least `a` times the node distance give a slope of at least `a` (`lin_slope`), by induction over the axes (`mlin_slope`, `mlin_lipschitz`).  A filled table's neighbouring entries inherit the rates of its source (`node_step`). |
| C94 | `SpinerOpacity` filled from a source: `EmissivityPerNu` against `Emissivity` | Over the reals.  The tabulated spectrum is below a factor times the source's spectrum at the floored state (C89), whose integral over a part of the frequencies is below the source's total (C21 as hypothesis, discharged for gray sources), which is below a factor times the tabulated total (C89).  Measurability of the lookup from C56. |
| C95 | `BRTOpacity` (electron neutrinos) and `SpinerOpacity` filled from it | Over the reals.  Rates of nonnegative factors add; the opacity is density times a square of (energy + offset), the totals are density times a power of temperature times a quadratic with nonnegative coefficients (closed forms of C21), the spectrum adds the rates of the Fermi-Dirac distribution.  The accuracy of tables is C89 at these rates, their changes are C93. |
| C96 | `SpinerOpacity` filled from any source that is zero or negative at the nodes; `TophatEmissivity` between nodes | Over the reals.  The filling loop clips negative samples and stores the floor (`filled_cells`); multilinear interpolation of a constant table is that constant (C89's bound with all rates zero).  A witness with a two-node table shows that the rates in C89 are needed. |

Properties of the list that are false of the code are kept at full strength; the negation is proved with a
concrete witness (suffix `_false`) and the part that does hold is proved, under the suffix `_partial` where a reader might
take it for the whole.  `MANIFEST.json` says for each which is which.

## 4. What the proofs found in the code

Each item is a theorem about the model (named in brackets), not a test run.

1. `NonCGSUnits::DThermalDistributionOfTNuDT` passes temperature and frequency unconverted (photons and neutrinos) [C17_false, C25_false, C26_false].
2. `RuntimePhysicalConstants` converts G, R, G_F and e with wrong dimensions [C29_false]; doubly wrapped opacities report only the outer units [C28_constants_false]; wrapped photon mean opacities report CGS constants [C25_mean_constants_false].
3. `NumberEmissivity` of gray and power-law opacities omits the density [C22_gray_false].
4. `PowerLawSOpacity` checks `nu_ref` twice and `rho_ref` never [C38_false]; NaN offsets pass both power-law constructors [C36_nan_offset_false, C38_nan_false].
5. The group-less accessors are guarded in debug builds only, the variant's not at all [C06_false]; the length of the group bounds is never checked [C03_short_bounds_ub].
6. BRT: `NumberEmissivity` ignores the species [C47_number_false]; totals are for one species while the spectrum has NSPECIES [C21_brt_false, C22_brt_false].
7. Top hat: absorption divided by 4π twice [C23_tophat_false, C24_tophat_false]; the floors create absorption where nothing is emitted [C53_tophat_false].
8. `SpinerOpacity`'s filling constructor calls `AbsorptionCoefficient` with T in MeV [C48_absorption_false]; `LoadFromNuLib_` reads the absorption opacity into the emissivity buffer and then uses an uninitialised buffer [C50_false, C50_swapped]; `ComputeIntegrals` lacks ln 10 [C51_false].
9. Neutrino `MeanSOpacity` always uses 100 frequencies [C52_false, C66_scattering_false].
10. Photon Rosseland means skip transparent samples in the numerator only [C09_false]; gray means vanish in far-tail groups [C07_false]; fallback sample windows leave the group [C10_false, C10_narrow_false]. The Rosseland mean of a larger opacity can therefore be smaller [C61_rosseland_false].
11. Every save/load cycle of a photon mean table adds one floor of 10·DBL_MIN [C12_cycles].
12. Power law with stimulated emission and no frequency dependence: the total ignores the stimulated factor [C21_stimulated_false].
13. Photon spectra and derivatives are NaN at zero frequency, and in double precision where ν³ overflows [C54_*_false].
14. Unit-wrapped vector calls convert the frequency array in place: it is not restored exactly under rounding [C31_rounded_false], concurrent sharing races and gives wrong results [C32_race, C32_false], in-place use is wrong [C30_inplace_false].
15. `nu_sigma0` is 1.76e-68 in CGS, not 1.76e-44 [C44_sigma0_false]; `make_bounded` fails for negative upper bounds [C39_make_bounded_false].
16. Integer overflow: group search beyond 2^30 groups [C02_overflow_beyond], Chebyshev points for n ≥ 2^30 [C41_overflow], `T(i,x)` for negative `i` or INT_MAX [C40_undefined]; `MatMultiply` in place is wrong [C42_inplace_false].
17. Tophat emissivity: the electron-antineutrino factor is 1 - 2 Ye, so all four emissivities are negative for Ye > 1/2 while the absorption coefficients stay positive [C62_tophat_false].
18. `BDMath::log10` (utils/fast-math/logs.hpp:40-50) takes and returns `float`: the log-linear and log-Chebyshev indexers, whose frequencies and data are `Real`, see frequencies only to seven digits, do not reproduce their data at their nodes exactly, and have an infinite coordinate for values from 2^128 (3.4e38) on or up to 2^-150 [C63_distinguishes_false, C63_range_false, C43_loglinear_false].
19. `SpinerOpacity::LoadFromNuLib_` (spiner_opac_neutrinos.hpp) reads the file into two local `DataBox`es and never finalizes them: every load leaks both arrays [C64_nulib_false].  Constructors that end in an error keep what they had allocated, with no object left to finalize [C64_abort_false].  Copies share tables: finalizing one leaves the other dangling and finalizing both is a double free [C64_copy_false].
20. A tophat emissivity in a unit wrapper converts the frequency by multiplying with the rounded reciprocal of the time unit: a frequency exactly on the upper edge can end up inside the interval, so that the emissivity is not 0 where it should be (time unit 49, frequency 49, interval (1/2, 1)) [Neutrinos.C65_tophat_false].  All other opacities are insensitive to this [C65_spectral].
21. Tables interpolate absorption and emission separately: between nodes a table filled from a gray opacity can emit less than a thousandth of what Kirchhoff's law demands of its absorption [C23_tabulated_false].
22. Group bounds are validated for increasing values, but samples are spaced in the rounded logarithm.  A group whose bounds have the same rounded logarithm (such as 1e15 Hz and the next double) is accepted, all its samples have width zero, and its means are zero for every opacity [C69_narrow_false].
23. Lookups convert the scaled coordinate to `int` unchecked: for an infinite or NaN density, temperature or frequency the conversion is undefined behaviour (`C71_conversion_false`). For finite states and sensible grids it is defined (`C71_conversion`). The model's truncation returns 0 there.
24. Constructors accept axes with a single node. The coordinate of that node is NaN and every lookup then uses the index -1, before the table or, when a slower index is positive, in another row (the model counts both as undefined). Photon means abort because the stored value is NaN (`C72_photons_single`); neutrino means with one electron fraction (`C72_neutrino_means_false`) and tabulated neutrino opacities (`C72_tabulated_false`) are returned. Lookups for `TRACER` or `PHOTON` in neutrino tables use an index outside the table too.
25. A huge finite last group bound (used instead of infinity, say 1e250 or `numeric_limits<double>::max()/1e8`) makes the photon mean constructors abort with "NAN in opacity evaluations" when the group lies above the thermal range of a temperature in the table: the group is then sampled between half the bound and the bound, where ν³ overflows and is multiplied by exp(-x) = 0 (`C73_huge_bound_false`). An infinite bound is fine (`C73_absorption`).
26. A neutrino mean opacity cannot be made from a tophat emissivity of ordinary strength (C of 1e6 or more) when the band contains a sampled frequency far above the temperature (hν > 750 kT) of some table node: the spectrum underflows to 0, the coefficient (strength over the floor 2e-307) overflows to infinity, and their product is NaN, so the constructor aborts (`C73_tophat_false`). The default window spans all temperatures of the table, so wide tables hit this.
27. The default frequency window of neutrino means is taken from the first and last temperature of the table (`autoWindow`), with 100 frequencies in all, so what a table answers at one temperature depends on which other temperatures it covers: adding a temperature changes answers at the nodes already there (`C77_auto_false`).
28. The range that is sampled for a group from zero to infinity starts at `10⁻³ kT/h`. The coefficient of bremsstrahlung grows like `1/ν²` below, so the Planck mean misses a thousandth of the emission, however many frequencies are used (`C79_bremsstrahlung`).
29. `mean_opacity_neutrinos.hpp:137-216` checks neither the number of frequencies nor the window. With `NNu <= 0` the
    constructor returns a table in which both means are 0 for every opacity, and with `lNuMax <= lNuMin` the Rosseland
    means are 0 (C80). The photon constructors refuse `NNuPerGroup < 2`.
30. `mean_opacity_photons.hpp:215-224`: `Emissivity` of a mean opacity uses the Rosseland mean unless told otherwise, but
    thermal emission is the Planck mean times `4πB`. For bremsstrahlung the default returns less than an eleventh of the
    emission (C81). For a gray opacity the two means agree.
31. `mean_photon_utils.hpp:153-170`: a group is sampled below `10⁻³ kT/h` only if its lower bound is
    positive and above `10⁻⁴ kT/h`, or if its upper bound is below `10⁻³ kT/h`. So the mean over `[0, ∞)` can be below the
    means over `[0, b]` and over `[b, ∞)` (C82).
32. `base/indexers.hpp:61-65, 100-103`: the indexers made from a `DataBox` do not compare its length with `N`; told of more nodes than
    there are elements they read beyond it. With one node every evaluation reads before the first element. Beyond the range they
    extrapolate linearly, so that positive data give negative opacities (C86).

Seen while reading, outside the model: `PrintParams` of the variants would not compile (`NonCGSUnits` has none); photon `MeanSOpacity`'s debug assertion, `MeanNonCGSUnits` and the scattering variant call members that
the wrapped classes do not define (they would not compile if instantiated); `filename.c_str()` members dangle but are never read.

## 5. Wrong programs

`seeded/LOG.jsonl` records the mutants: each line names the edited definition, the edit, the claim it breaks, the theorems
that failed to build and the theorems tightened because of it.

## 6. Axioms

<!-- AXIOMS -->
Output of `#print axioms` for every theorem named in `MANIFEST.json`.

* `propext`: `Opac.Neutrinos.C76_file`, `Opac.Neutrinos.C76_tabulated_file`

* `Quot.sound`, `propext`: `Opac.Photons.C03_short_bounds_ub`, `Opac.Photons.C33_types`, `Opac.Photons.C33_scattering_types`, `Opac.Photons.C33_scattering_transparent`, `Opac.Neutrinos.C33_types`, `Opac.Neutrinos.C33_scattering_types`, `Opac.Neutrinos.C33_scattering_transparent`, `Opac.Photons.C34_scattering_device`, `Opac.Neutrinos.C34_scattering_device`, `Opac.Props.C40_undefined`, `Opac.Props.C41_asserts`, `Opac.Props.C43_identity`

* `Classical.choice`, `Quot.sound`, `propext`: all other theorems (502)
