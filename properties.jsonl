{"id": "C01", "title": "Group lookup is correct, total and unambiguous", "statement": "For every table of group bounds that a mean opacity accepted, GroupOfNu(nu) returns group g exactly when bound[g] <= nu < bound[g+1] (the last group also contains its upper bound), that g is unique, and for every other nu (below the first bound, above the last, NaN) the call reports an error instead of returning a group.", "quantifier": "all accepted group-bound arrays of every length, all frequencies including NaN and infinities (at most 2^30 groups; C02 says what happens beyond)", "why_tests_cant": "The number of groups, the spacing of the bounds and the frequency are unbounded; boundary cases (nu equal to a bound, NaN, +inf last bound) multiply with every array length.", "anchors": ["singularity-opac/photons/mean_photon_utils.hpp: GroupOfNuImpl, GroupBoundAt", "singularity-opac/photons/mean_opacity_photons.hpp: MeanOpacity::GroupOfNu", "singularity-opac/photons/mean_s_opacity_photons.hpp: MeanSOpacity::GroupOfNu"]}
{"id": "C02", "title": "Group lookup terminates with in-range reads and no integer overflow", "statement": "For every table with at most 2^30 groups, a group lookup performs at most about log2(ngroups) bound reads after the two end checks, every read index lies in [0, ngroups], and no int arithmetic overflows; beyond 2^30 groups the midpoint computation can overflow.", "quantifier": "all group counts representable as int, all bounds, all frequencies", "why_tests_cant": "Logarithmic step bounds and overflow at 2^30 groups cannot be exercised by test tables with a few groups.", "anchors": ["singularity-opac/photons/mean_photon_utils.hpp: GroupOfNuImpl"]}
{"id": "C03", "title": "Group bounds are accepted exactly when they are a strictly increasing nonnegative partition", "statement": "Constructing a multigroup mean opacity from explicit group bounds succeeds if and only if there is at least one group, no bound is NaN, the first bound is >= 0, the bounds strictly increase and only the last bound may be +infinity; in every other case construction aborts. Constructing one from two tables aborts unless both tables have the shape density x temperature x group with at least one group, equal extents, and equal temperature and density axes (both ends and the number of nodes).", "quantifier": "all arrays of bounds of every length with entries over all floating-point classes", "why_tests_cant": "An if-and-only-if over all arrays of IEEE values, including NaN/inf at any position.", "anchors": ["singularity-opac/photons/mean_photon_utils.hpp: ValidateGroupBounds, SetGroupBounds", "singularity-opac/photons/mean_opacity_photons.hpp: MeanOpacity constructors, MeanOpacityImpl_, ValidateOpacityTables_, LoadOpacityTables_"]}
{"id": "C04", "title": "Group bounds are reported back unchanged", "statement": "GetGroupBounds on a constructed or loaded multigroup mean opacity returns exactly ngroups+1 values, equal position by position to the bounds supplied.", "quantifier": "all accepted bounds arrays of every length", "why_tests_cant": "Round trip over all lengths and values.", "anchors": ["singularity-opac/photons/mean_photon_utils.hpp: SetGroupBounds, ExportGroupBounds", "singularity-opac/photons/mean_opacity_photons.hpp: GetGroupBounds"]}
{"id": "C05", "title": "Frequency-addressed group coefficients agree with group-addressed ones", "statement": "AbsorptionCoefficientFromNu / the scattering analogue at frequency nu return exactly the coefficient of the group that contains nu, are constant on each group, and report an error when nu is in no group.", "quantifier": "all accepted tables, densities, temperatures, modes and frequencies", "why_tests_cant": "Universally quantified over tables and frequencies.", "anchors": ["singularity-opac/photons/mean_opacity_photons.hpp: AbsorptionCoefficientFromNu, RosselandGroupAbsorptionCoefficientFromNu, PlanckGroupAbsorptionCoefficientFromNu", "singularity-opac/photons/mean_s_opacity_photons.hpp"]}
{"id": "C06", "title": "Group-less mean accessors are only usable on single-group tables", "statement": "PlanckMeanAbsorptionCoefficient/RosselandMeanAbsorptionCoefficient (and scattering analogues) abort unless the table has exactly one group, and then equal the group-0 coefficient; a caller that passes no group never silently receives group 0 of a multigroup table.", "quantifier": "all tables with any number of groups, all densities and temperatures, all entry points including the variant's", "why_tests_cant": "Must hold for every group count and every access path.", "anchors": ["singularity-opac/photons/mean_opacity_photons.hpp: PlanckMeanAbsorptionCoefficient", "singularity-opac/photons/mean_photon_variant.hpp: AbsorptionCoefficient(rho,temp,gmode)"]}
{"id": "C07", "title": "Mean opacities of a gray opacity equal the gray opacity", "statement": "For an opacity whose absorption coefficient is rho*kappa at every frequency, the tabulated Planck and Rosseland means of every group at every table node equal kappa up to the documented tiny regularisation, for every group structure, grid, and number (>= 1) of quadrature points.", "quantifier": "all kappa>0, densities, temperatures, group bounds, quadrature sizes", "why_tests_cant": "Unbounded grids, group structures and quadrature sizes.", "anchors": ["singularity-opac/photons/mean_opacity_photons.hpp: MeanOpacityImpl_", "singularity-opac/photons/mean_s_opacity_photons.hpp: MeanSOpacityImpl_"]}
{"id": "C08", "title": "Planck mean lies between the extreme sampled opacities", "statement": "Every tabulated Planck-mean opacity lies between 0 and the largest sampled opacity of its group, and (up to the regularisation factor) above the smallest one.", "quantifier": "all opacity models with nonnegative absorption, all grids, group structures and quadrature sizes", "why_tests_cant": "Weighted-average bound over arbitrary opacity functions.", "anchors": ["singularity-opac/photons/mean_opacity_photons.hpp: MeanOpacityImpl_", "singularity-opac/photons/mean_photon_utils.hpp: ThermalWeightsAtNu, ForEachGroupFrequencySample"]}
{"id": "C09", "title": "Rosseland mean lies between the extreme sampled opacities", "statement": "Every tabulated Rosseland-mean opacity lies between the smallest and the largest sampled opacity of its group (up to the regularisation).", "quantifier": "all opacity models with nonnegative absorption, all grids, group structures and quadrature sizes", "why_tests_cant": "Harmonic-average bound over arbitrary opacity functions, including zeros.", "anchors": ["singularity-opac/photons/mean_opacity_photons.hpp: MeanOpacityImpl_"]}
{"id": "C10", "title": "Group quadrature only samples inside its group", "statement": "While averaging over a frequency group, the opacity is evaluated exactly NNuPerGroup times, at increasing frequencies inside the group with positive weights.", "quantifier": "all group bounds (including 0 and +inf), temperatures and quadrature sizes", "why_tests_cant": "Interaction between the thermal window and arbitrary group bounds has unboundedly many cases.", "anchors": ["singularity-opac/photons/mean_photon_utils.hpp: ForEachGroupFrequencySample"]}
{"id": "C11", "title": "Mean-opacity table lookup is exact at nodes and monotone-bounded between nodes", "statement": "A mean opacity evaluated at a table node returns density times the stored opacity of that node; between nodes it lies between the values at the surrounding nodes; all returned coefficients are positive for positive density.", "quantifier": "all tables, all nodes, all states inside the table, all groups", "why_tests_cant": "All table shapes and all interpolation points.", "anchors": ["singularity-opac/photons/mean_opacity_photons.hpp: GroupAbsorptionCoefficient_"]}
{"id": "C12", "title": "Saving and reloading a photon mean-opacity table preserves it", "statement": "Loading a file written by Save yields a table with the same grids, groups and opacities (up to the additive floor applied on each load), for any number of save/load cycles.", "quantifier": "all tables, any number of save/load cycles", "why_tests_cant": "History of arbitrary length over arbitrary tables.", "anchors": ["singularity-opac/photons/mean_opacity_photons.hpp: Save, LoadOpacityTables_, ExportOpacityTables_"]}
{"id": "C13", "title": "A crash during Save never yields a silently wrong table", "statement": "If the program dies at any point during Save, a later load of that file either aborts or returns the complete saved table; it never combines data of two tables.", "quantifier": "all crash points during Save, all previous file contents", "why_tests_cant": "Crash points cannot be enumerated by unit tests.", "anchors": ["singularity-opac/photons/mean_opacity_photons.hpp: Save and HDF5 constructor", "singularity-opac/neutrinos/spiner_opac_neutrinos.hpp: Save, LoadFromSP5_"]}
{"id": "C14", "title": "Frequency-integrated photon thermal emission equals the integral of the Planck spectrum", "statement": "For every temperature > 0, the frequency- and angle-integrated photon thermal distribution equals 4*pi times the integral over all frequencies of the specific thermal distribution.", "quantifier": "all temperatures > 0", "why_tests_cant": "Improper integral identity for all temperatures.", "anchors": ["singularity-opac/photons/thermal_distributions_photons.hpp: ThermalDistributionOfTNu, ThermalDistributionOfT"]}
{"id": "C15", "title": "Photon number distribution equals the integral of the Planck spectrum over h nu", "statement": "For every temperature > 0 the photon thermal number distribution equals 4*pi*Integral B_nu/(h nu) dnu to relative accuracy 4e-6 (the code uses zeta(3)=1.20206).", "quantifier": "all temperatures > 0", "why_tests_cant": "Improper integral identity for all temperatures.", "anchors": ["singularity-opac/photons/thermal_distributions_photons.hpp: ThermalNumberDistributionOfT"]}
{"id": "C16", "title": "Neutrino thermal totals equal the integrals of the Fermi-Dirac spectrum", "statement": "For every temperature > 0 and every species count, the neutrino thermal energy and number distributions equal 4*pi times the integral of the spectrum (respectively spectrum over h nu, to 4e-6).", "quantifier": "all temperatures > 0, all species counts", "why_tests_cant": "Improper integral identity for all temperatures.", "anchors": ["singularity-opac/neutrinos/thermal_distributions_neutrinos.hpp: FermiDiracDistributionNoMu"]}
{"id": "C17", "title": "The temperature derivative really is the derivative", "statement": "DThermalDistributionOfTNuDT(T,nu) is the derivative in T of ThermalDistributionOfTNu(T,nu), for photons and neutrinos, in CGS and in code units.", "quantifier": "all temperatures > 0 and frequencies > 0, all unit systems", "why_tests_cant": "Derivative at every point.", "anchors": ["singularity-opac/photons/thermal_distributions_photons.hpp: DThermalDistributionOfTNuDT", "singularity-opac/neutrinos/thermal_distributions_neutrinos.hpp", "singularity-opac/photons/non_cgs_photons.hpp: DThermalDistributionOfTNuDT", "singularity-opac/neutrinos/non_cgs_neutrinos.hpp"]}
{"id": "C18", "title": "Energy density and temperature are mutually inverse", "statement": "TemperatureFromEnergyDensity(EnergyDensityFromTemperature(T)) = T for every T >= 0 and the other way round for every energy density >= 0; both are strictly increasing; photon energy density equals the radiation constant times T^4. Holds in CGS and in code units.", "quantifier": "all temperatures and energy densities >= 0, all species counts, all unit systems", "why_tests_cant": "Round trip over a continuum.", "anchors": ["singularity-opac/photons/thermal_distributions_photons.hpp", "singularity-opac/neutrinos/thermal_distributions_neutrinos.hpp", "singularity-opac/photons/non_cgs_photons.hpp"]}
{"id": "C19", "title": "Thermal spectra are positive, increase with temperature, and the far-tail formula agrees with the exact one", "statement": "The specific thermal distribution is positive and strictly increasing in temperature for every frequency; photons stay below the Rayleigh-Jeans value; the Wien-tail weights used in mean opacities beyond x=80 agree with the exact weights to relative accuracy 1e-33.", "quantifier": "all temperatures > 0 and frequencies > 0", "why_tests_cant": "Inequalities over a continuum.", "anchors": ["singularity-opac/photons/thermal_distributions_photons.hpp", "singularity-opac/photons/mean_photon_utils.hpp: ThermalWeightsAtNu"]}
{"id": "C20", "title": "Per-frequency emissivity is 4 pi times the per-solid-angle emissivity", "statement": "EmissivityPerNu = 4*pi*EmissivityPerNuOmega for every photon and neutrino opacity model, scalar and vector forms.", "quantifier": "all models, states, species and frequencies", "why_tests_cant": "All inputs of all models.", "anchors": ["singularity-opac/photons/*_opacity_photons.hpp", "singularity-opac/neutrinos/*_neutrinos.hpp: EmissivityPerNu"]}
{"id": "C21", "title": "Total emissivity equals the integral of the spectral emissivity", "statement": "Emissivity(rho,T) equals the integral over frequency of EmissivityPerNu for every analytic model that returns a value.", "quantifier": "all states, species and model parameters", "why_tests_cant": "Improper integrals for all states.", "anchors": ["singularity-opac/photons/*_photons.hpp: Emissivity", "singularity-opac/neutrinos/brt_neutrinos.hpp: GetAlphac", "singularity-opac/neutrinos/tophat_emissivity_neutrinos.hpp: Emissivity"]}
{"id": "C22", "title": "Number emissivity equals the integral of spectral emissivity over h nu", "statement": "NumberEmissivity equals Integral EmissivityPerNu/(h nu) dnu for every analytic model; where that integral diverges the call returns +infinity.", "quantifier": "all states, species and model parameters", "why_tests_cant": "Improper integrals for all states.", "anchors": ["singularity-opac/photons/*_photons.hpp: NumberEmissivity", "singularity-opac/neutrinos/*_neutrinos.hpp: NumberEmissivity"]}
{"id": "C23", "title": "Kirchhoff's law", "statement": "EmissivityPerNuOmega = AbsorptionCoefficient times the thermal distribution at the same temperature and frequency for every model (local thermodynamic equilibrium).", "quantifier": "all models, states, species and frequencies", "why_tests_cant": "All inputs of all models.", "anchors": ["singularity-opac/photons/*_photons.hpp", "singularity-opac/neutrinos/*_neutrinos.hpp"]}
{"id": "C24", "title": "Isotropic models: angle-averaged absorption equals absorption", "statement": "AngleAveragedAbsorptionCoefficient equals AbsorptionCoefficient for every model (all shipped models are isotropic).", "quantifier": "all models, states, species and frequencies", "why_tests_cant": "All inputs of all models.", "anchors": ["singularity-opac/photons/*_photons.hpp", "singularity-opac/neutrinos/tophat_emissivity_neutrinos.hpp: AbsorptionCoefficient"]}
{"id": "C25", "title": "Photon opacities in code units agree with CGS", "statement": "For every photon opacity wrapped with arbitrary positive units, every quantity evaluated at code-unit arguments equals the CGS quantity at the converted arguments divided by the CGS value of the quantity's unit.", "quantifier": "all wrapped opacities, all positive unit systems, all states and frequencies, every API function", "why_tests_cant": "Dimensional covariance over all unit systems.", "anchors": ["singularity-opac/photons/non_cgs_photons.hpp: NonCGSUnits, MeanNonCGSUnits"]}
{"id": "C26", "title": "Neutrino opacities in code units agree with CGS", "statement": "Same as the photon statement for the neutrino wrappers.", "quantifier": "all wrapped opacities, all positive unit systems, all states, species and frequencies, every API function", "why_tests_cant": "Dimensional covariance over all unit systems.", "anchors": ["singularity-opac/neutrinos/non_cgs_neutrinos.hpp: NonCGSUnits, MeanNonCGSUnits"]}
{"id": "C27", "title": "Scattering opacities in code units agree with CGS", "statement": "Same for scattering opacities and mean scattering opacities of photons and neutrinos.", "quantifier": "all wrapped opacities, all positive unit systems, all states", "why_tests_cant": "Dimensional covariance over all unit systems.", "anchors": ["singularity-opac/photons/non_cgs_s_photons.hpp", "singularity-opac/neutrinos/non_cgs_s_neutrinos.hpp"]}
{"id": "C28", "title": "Unit wrappers form an action", "statement": "Wrapping with all units equal to 1 changes no result, and wrapping a wrapped opacity multiplies the unit systems.", "quantifier": "all opacities and all unit systems", "why_tests_cant": "All unit systems and opacities.", "anchors": ["singularity-opac/photons/non_cgs_photons.hpp", "singularity-opac/neutrinos/non_cgs_neutrinos.hpp"]}
{"id": "C29", "title": "Physical constants reported in code units have the right dimensions", "statement": "GetRuntimePhysicalConstants of a wrapped opacity returns each constant divided by the CGS value of its own unit, so that relations between constants (a = 4 sigma/c, E = a T^4, R = N_A k, ...) hold in code units.", "quantifier": "all positive unit systems", "why_tests_cant": "All unit systems.", "anchors": ["singularity-opac/constants/constants.hpp: RuntimePhysicalConstants"]}
{"id": "C30", "title": "Vector calls equal elementwise scalar calls and touch nothing else", "statement": "A call that fills an array of nbins values from an array of nbins frequencies leaves in slot i exactly the scalar result for frequency i, leaves the frequencies unchanged and modifies no other memory, for every nbins including 0 and negative.", "quantifier": "all models, states, memory contents, array sizes", "why_tests_cant": "All sizes and memory contents.", "anchors": ["singularity-opac/photons/*_photons.hpp vectorised methods", "singularity-opac/neutrinos/*_neutrinos.hpp vectorised methods"]}
{"id": "C31", "title": "Vector calls in code units restore the caller's frequencies", "statement": "After any sequence of vector calls through a unit wrapper, the caller's frequency array is unchanged and every result equals the elementwise scalar result.", "quantifier": "all wrapped opacities, unit systems, memory contents, sizes and call histories; exact and rounded arithmetic", "why_tests_cant": "Histories of arbitrary length; rounding drift depends on the units.", "anchors": ["singularity-opac/photons/non_cgs_photons.hpp: vectorised methods", "singularity-opac/neutrinos/non_cgs_neutrinos.hpp"]}
{"id": "C32", "title": "Concurrent vector calls that share frequency bins do not interfere", "statement": "Two threads that evaluate a vector call on the same opacity and frequency array into disjoint outputs obtain the sequential results under every interleaving.", "quantifier": "all interleavings, sizes and states", "why_tests_cant": "Schedules cannot be enumerated by tests.", "anchors": ["singularity-opac/photons/*_photons.hpp vectorised methods", "singularity-opac/photons/non_cgs_photons.hpp"]}
{"id": "C33", "title": "The variant is transparent", "statement": "A call through the variant type returns exactly what the held opacity returns, for every alternative and every API function, and the held type is reported correctly after any sequence of assignments.", "quantifier": "all alternatives, all functions, all arguments, all assignment histories", "why_tests_cant": "All alternatives times all functions times all arguments.", "anchors": ["singularity-opac/photons/photon_variant.hpp", "singularity-opac/neutrinos/neutrino_variant.hpp", "singularity-opac/photons/mean_photon_variant.hpp"]}
{"id": "C34", "title": "Device copies behave like the original", "statement": "The object returned by GetOnDevice gives the same result as the original for every API function and argument, also through wrappers and variants.", "quantifier": "all opacities, functions and arguments", "why_tests_cant": "All states and arguments.", "anchors": ["singularity-opac/*/*: GetOnDevice"]}
{"id": "C35", "title": "Radiation types and indices convert back and forth", "statement": "Idx2RadType and RadType2Idx are mutually inverse on all radiation types, every other integer is rejected, and the index of every neutrino species is a valid species-table index.", "quantifier": "all ints", "why_tests_cant": "All integers.", "anchors": ["singularity-opac/base/radiation_types.hpp"]}
{"id": "C36", "title": "Power-law opacity obeys its power law and validates its parameters", "statement": "A power-law opacity is accepted only with positive reference values and nonnegative offsets; its opacity per mass is kappa0 at the reference point and scales as the product of powers of the (offset) density, temperature and frequency ratios; zero exponents give the gray opacity; stimulated-emission correction lies strictly between 0 and 1.", "quantifier": "all parameters and states", "why_tests_cant": "All parameters over a continuum.", "anchors": ["singularity-opac/photons/powerlaw_opacity_photons.hpp"]}
{"id": "C37", "title": "Scattering coefficients are number density times cross section and isotropic totals", "statement": "For every scattering model the total cross section equals the differential cross section integrated over the sphere, and the total coefficient equals number density times total cross section.", "quantifier": "all models, states and frequencies", "why_tests_cant": "All inputs of all models.", "anchors": ["singularity-opac/photons/gray_s_opacity_photons.hpp", "singularity-opac/photons/thomson_s_opacity_photons.hpp", "singularity-opac/photons/powerlaw_s_opacity_photons.hpp", "singularity-opac/neutrinos/gray_s_opacity_neutrinos.hpp"]}
{"id": "C38", "title": "Power-law scattering rejects meaningless reference values", "statement": "Constructing a power-law scattering opacity aborts unless every reference value is positive and every offset nonnegative.", "quantifier": "all parameters including NaN", "why_tests_cant": "All floating-point parameter classes.", "anchors": ["singularity-opac/photons/powerlaw_s_opacity_photons.hpp: constructor"]}
{"id": "C39", "title": "Regularised arithmetic helpers are safe", "statement": "ratio(a,b) never divides by zero, has the sign of a/b, never exceeds |a/b| and differs from it by a relative error at most SMALL/|b|; make_positive returns a positive value; make_bounded returns a value strictly between its bounds.", "quantifier": "all finite arguments", "why_tests_cant": "All arguments over a continuum.", "anchors": ["singularity-opac/base/robust_utils.hpp"]}
{"id": "C40", "title": "Chebyshev evaluation is the Chebyshev polynomial", "statement": "T(n, cos t) = cos(n t) for every order n >= 0 and angle t, and T(n,x) is the degree-n Chebyshev polynomial for every x; negative orders are undefined behaviour.", "quantifier": "all orders and arguments", "why_tests_cant": "All orders.", "anchors": ["singularity-opac/chebyshev/chebyshev.hpp: T"]}
{"id": "C41", "title": "Chebyshev points lie in the interval, in increasing order, at the zeros of T_n", "statement": "GetPoints(xmin,xmax,n) writes exactly n strictly increasing points of the open interval (xmin,xmax), which map to the zeros of T_n; ToUnitCell and FromUnitCell are mutually inverse.", "quantifier": "all n and all intervals", "why_tests_cant": "All n.", "anchors": ["singularity-opac/chebyshev/chebyshev.hpp: GetPoints, ToUnitCell, FromUnitCell"]}
{"id": "C42", "title": "Chebyshev interpolation reproduces its data", "statement": "With the Vandermonde inverse of the right size, multiplying the data by it and evaluating the interpolant at any Chebyshev point returns the datum, and evaluating anywhere returns the value of any polynomial of degree below n that generated the data; the shipped tables are that inverse to printed accuracy.", "quantifier": "all n, intervals, data and evaluation points", "why_tests_cant": "All n, data and points.", "anchors": ["singularity-opac/chebyshev/chebyshev.hpp: MatMultiply, InterpFromCoeffs", "singularity-opac/chebyshev/vandermonde.hpp"]}
{"id": "C43", "title": "Frequency indexers return stored data at their nodes", "statement": "The linear, log-linear and log-Chebyshev indexers return, at each of their nodes, the datum stored there (the log-Chebyshev one its magnitude plus 1e-20), and between nodes the piecewise-linear ones stay between neighbouring data.", "quantifier": "all sizes, ranges and data", "why_tests_cant": "All sizes and data.", "anchors": ["singularity-opac/base/indexers.hpp"]}
{"id": "C44", "title": "Physical constants are mutually consistent", "statement": "The tabulated constants satisfy the physical relations between them: a = 4 sigma/c, sigma = 2 pi^5 k^4/(15 h^3 c^2), h = 2 pi hbar, R = N_A k to the accuracy of the CODATA digits, and the fiducial weak cross section is about 1.76e-44 cm^2.", "quantifier": "all unit conversions of the constants template (the relations must hold for every conversion)", "why_tests_cant": "Relations must hold for every unit conversion.", "anchors": ["singularity-opac/constants/constants.hpp: PhysicalConstants"]}
{"id": "C45", "title": "Runtime-constants equality is a sound comparison", "statement": "operator== on runtime constants is reflexive and symmetric, and returns true exactly when every unit and every constant agrees within the code's relative tolerance, so a change of any single field is detected.", "quantifier": "all pairs of constant sets", "why_tests_cant": "All pairs over a continuum.", "anchors": ["singularity-opac/constants/constants.hpp: operator==, eps_equal"]}
{"id": "C46", "title": "Top-hat emission is confined to its band and its species", "statement": "A top-hat neutrino opacity emits only strictly between its two frequencies, only for electron neutrinos and antineutrinos, with a constant that does not depend on density, temperature or frequency and is linear in the electron-fraction factor (2 Ye for neutrinos, 1 - 2 Ye for antineutrinos).", "quantifier": "all parameters, states, species and frequencies", "why_tests_cant": "All inputs.", "anchors": ["singularity-opac/neutrinos/tophat_emissivity_neutrinos.hpp"]}
{"id": "C47", "title": "Burrows-Reddy-Thompson opacity only acts on electron neutrinos", "statement": "Every absorption and emission function of the Burrows-Reddy-Thompson model returns zero for every species other than electron neutrinos and a positive value for electron neutrinos.", "quantifier": "all states, species and frequencies", "why_tests_cant": "All inputs.", "anchors": ["singularity-opac/neutrinos/brt_neutrinos.hpp"]}
{"id": "C48", "title": "A tabulated opacity reproduces the opacity it was filled from", "statement": "A table filled from an opacity returns, at every table node and species, that opacity's value (up to the additive floor), for every table shape.", "quantifier": "all source opacities, table shapes and nodes", "why_tests_cant": "All table shapes and source opacities.", "anchors": ["singularity-opac/neutrinos/spiner_opac_neutrinos.hpp: filling constructor, accessors"]}
{"id": "C49", "title": "Saving and reloading a neutrino table is exact", "statement": "Loading a file written by Save yields exactly the same table, after any number of cycles.", "quantifier": "all tables, any number of cycles", "why_tests_cant": "Arbitrary histories.", "anchors": ["singularity-opac/neutrinos/spiner_opac_neutrinos.hpp: Save, LoadFromSP5_"]}
{"id": "C50", "title": "Loading a NuLib table stores emissivities as emissivities and absorptions as absorptions", "statement": "After loading a NuLib file each table entry holds the file's emissivity and absorption opacity of that entry, and no uninitialised value is read.", "quantifier": "all NuLib files", "why_tests_cant": "All files.", "anchors": ["singularity-opac/neutrinos/spiner_opac_neutrinos.hpp: LoadFromNuLib_"]}
{"id": "C51", "title": "Total emissivities of loaded tables are frequency integrals", "statement": "The total and number emissivities derived from a loaded table are Riemann sums of the spectral emissivity over energy.", "quantifier": "all tables", "why_tests_cant": "All tables.", "anchors": ["singularity-opac/neutrinos/spiner_opac_neutrinos.hpp: ComputeIntegrals"]}
{"id": "C52", "title": "Neutrino mean opacities honour their quadrature and average correctly", "statement": "Neutrino Planck and Rosseland means lie between the extreme sampled opacities, equal a gray opacity exactly up to regularisation for every species, and are computed with the number of frequency points the caller asked for.", "quantifier": "all opacities, grids, species and quadrature sizes", "why_tests_cant": "All grids and quadrature sizes.", "anchors": ["singularity-opac/neutrinos/mean_opacity_neutrinos.hpp: MeanOpacityImpl_", "singularity-opac/neutrinos/mean_s_opacity_neutrinos.hpp: constructors, MeanSOpacityImpl_"]}
{"id": "C53", "title": "No spurious absorption where nothing is emitted", "statement": "A model that emits nothing at a frequency has zero absorption there (Kirchhoff), up to a negligible floor.", "quantifier": "all states, species and frequencies", "why_tests_cant": "Must hold in the far tail of the thermal spectrum, where the floors interact.", "anchors": ["singularity-opac/neutrinos/thermal_distributions_neutrinos.hpp: AbsorptionCoefficientFromKirkhoff", "singularity-opac/photons/thermal_distributions_photons.hpp"]}
{"id": "C54", "title": "Special floating-point values do not silently poison results", "statement": "For finite positive temperature and finite nonnegative frequency the thermal spectrum and its derivative are never NaN, including at zero frequency.", "quantifier": "all finite temperatures > 0 and frequencies >= 0, with IEEE treatment of 0/0 and infinities", "why_tests_cant": "IEEE special cases for all arguments.", "anchors": ["singularity-opac/photons/thermal_distributions_photons.hpp: ThermalDistributionOfTNu, DThermalDistributionOfTNuDT"]}
{"id": "C55", "title": "Bremsstrahlung scaling", "statement": "Electron-proton bremsstrahlung emissivity is proportional to the square of the density, positive, decreasing in frequency, and its total is proportional to the square root of the temperature.", "quantifier": "all states and frequencies", "why_tests_cant": "All inputs.", "anchors": ["singularity-opac/photons/epbremsstrahlung_opacity_photons.hpp"]}
{"id": "C56", "title": "Continuity of tabulated opacities", "statement": "Every function that answers from a table (photon and neutrino mean opacities, tabulated neutrino opacities) never fails and depends continuously on density, temperature, electron fraction and frequency, for all real arguments, also across cells and outside the table.", "quantifier": "all tables on proper grids, all states", "why_tests_cant": "Continuity speaks about all pairs of neighbouring states.", "anchors": ["singularity-opac/neutrinos/spiner_opac_neutrinos.hpp", "singularity-opac/neutrinos/mean_opacity_neutrinos.hpp", "singularity-opac/neutrinos/mean_s_opacity_neutrinos.hpp", "singularity-opac/photons/mean_opacity_photons.hpp", "singularity-opac/photons/mean_s_opacity_photons.hpp"]}
{"id": "C57", "title": "Looked-up opacities lie between the entries", "statement": "In every cell, the opacity looked up lies between the smallest and the largest entry at the corners of the cell; and it is positive for every state, also outside the table.", "quantifier": "all tables, cells and states", "why_tests_cant": "All tables and states.", "anchors": ["singularity-opac/neutrinos/spiner_opac_neutrinos.hpp", "singularity-opac/neutrinos/mean_opacity_neutrinos.hpp", "singularity-opac/neutrinos/mean_s_opacity_neutrinos.hpp", "singularity-opac/photons/mean_opacity_photons.hpp", "singularity-opac/photons/mean_s_opacity_photons.hpp"]}
{"id": "C58", "title": "Table lookup preserves monotonicity", "statement": "If the entries of a table never decrease along an axis, neither does the opacity looked up, also between nodes and beyond the ends of that axis. In particular a table filled from an opacity whose absorption coefficient never decreases with density answers with coefficients that never decrease with density.", "quantifier": "all tables, axes and pairs of states", "why_tests_cant": "All pairs of states.", "anchors": ["singularity-opac/neutrinos/spiner_opac_neutrinos.hpp", "singularity-opac/neutrinos/mean_opacity_neutrinos.hpp", "singularity-opac/neutrinos/mean_s_opacity_neutrinos.hpp", "singularity-opac/photons/mean_opacity_photons.hpp", "singularity-opac/photons/mean_s_opacity_photons.hpp"]}
{"id": "C59", "title": "Extrapolation is a power law", "statement": "Beyond the ends of a table the opacity continues the last cell as a power law in density, temperature and energy (exponentially in electron fraction): the logarithm of the opacity is affine in the coordinate of that axis.", "quantifier": "all tables, axes and states on the same side", "why_tests_cant": "All states outside the table.", "anchors": ["singularity-opac/neutrinos/spiner_opac_neutrinos.hpp", "singularity-opac/neutrinos/mean_opacity_neutrinos.hpp", "singularity-opac/neutrinos/mean_s_opacity_neutrinos.hpp", "singularity-opac/photons/mean_opacity_photons.hpp", "singularity-opac/photons/mean_s_opacity_photons.hpp"]}
{"id": "C60", "title": "A file opens only as what was last saved to it", "statement": "After any history of saves of objects of any of the five classes with files (photon mean absorption and scattering, neutrino mean absorption and scattering, tabulated neutrino opacity) under any names, with HDF5 calls failing and processes dying in the middle of saves, opening a file as an object of some class aborts or gives what a complete save of one object of exactly that class gives, and no later save to that name returned. If the last save to a name returned, the file opens as the class of that object and aborts for all other classes.", "quantifier": "all histories of saves, all failures and crash points, all names and classes", "why_tests_cant": "All histories and crash points.", "anchors": ["singularity-opac/base/sp5.hpp", "singularity-opac/photons/mean_opacity_photons.hpp", "singularity-opac/photons/mean_s_opacity_photons.hpp", "singularity-opac/neutrinos/mean_opacity_neutrinos.hpp", "singularity-opac/neutrinos/mean_s_opacity_neutrinos.hpp", "singularity-opac/neutrinos/spiner_opac_neutrinos.hpp"]}
{"id": "C61", "title": "Mean opacities follow the opacity they are computed from", "statement": "If one frequency-dependent opacity is at least another one everywhere, then mean opacities of the first computed on the same table and groups are at least those of the second, at every density and temperature (for neutrinos also electron fraction and species) inside the table. The Planck mean of a sum or a multiple of opacities is at the table's nodes the sum or multiple of the Planck means.", "quantifier": "all pairs of nonnegative opacities, of photons or neutrinos, absorption or scattering, tables, groups, densities, temperatures and electron fractions inside the table", "why_tests_cant": "Ranges over all functions of density, temperature and frequency.", "anchors": ["singularity-opac/photons/mean_opacity_photons.hpp", "singularity-opac/photons/mean_s_opacity_photons.hpp", "singularity-opac/neutrinos/mean_opacity_neutrinos.hpp", "singularity-opac/neutrinos/mean_s_opacity_neutrinos.hpp"]}
{"id": "C62", "title": "Opacities, emissivities and thermal quantities are never negative", "statement": "For an opacity with nonnegative parameters, asked about nonnegative densities, temperatures, frequencies and electron fractions, no absorption or scattering coefficient, cross section, emissivity, thermal distribution, energy or number density, temperature or mean opacity is below zero, whatever rounding, overflow and underflow do and whatever tables are loaded. In exact arithmetic, positive finite inputs give finite answers (the number emissivity may be infinite).", "quantifier": "all opacity models, nestings of unit wrappers and variants, tables, species, parameters, inputs and floating-point formats", "why_tests_cant": "Ranges over all inputs, tables and wrappers; underflow and overflow happen at inputs no sample has to hit.", "anchors": ["singularity-opac/photons/*", "singularity-opac/neutrinos/*", "singularity-opac/neutrinos/tophat_emissivity_neutrinos.hpp:GetYeF"]}
{"id": "C63", "title": "The logarithm behind the frequency indexers", "statement": "The base-ten logarithm through which the logarithmic indexers map frequencies and data is finite, never decreases, tells different frequencies apart, and is within a stated relative error of the true logarithm.", "quantifier": "all positive finite arguments; every single-precision arithmetic with the stated rounding unit, IEEE single precision in particular", "why_tests_cant": "Tests sample a few arguments; the error bound, the monotonicity and the range must hold for all.", "anchors": ["utils/fast-math/logs.hpp:BDMath::log10", "singularity-opac/base/indexers.hpp:LogLinear", "singularity-opac/base/indexers.hpp:LogCheb"]}
{"id": "C64", "title": "Tables live as long as the objects that hold them", "statement": "A program that uses each table-holding object only between its construction and its Finalize, does not overwrite an object in use and makes no plain copies, gets from every call what that object alone determines: no call reads released memory, none releases a table twice, and no call on one object changes what another returns; an object made by GetOnDevice is independent of its original and Finalize may be repeated. When every object has been finalized no table is left allocated.", "quantifier": "all programs: any number of objects of the five table-holding classes under any nesting of unit wrappers, any constructors, and any sequence of constructions, device copies, moves into wrappers, lookups, saves and finalizations, including failing ones", "why_tests_cant": "Ranges over all histories; a use after release or a leak may go unnoticed in a test run.", "anchors": ["singularity-opac/photons/mean_opacity_photons.hpp:Finalize,GetOnDevice,Save", "singularity-opac/photons/mean_s_opacity_photons.hpp", "singularity-opac/neutrinos/mean_opacity_neutrinos.hpp", "singularity-opac/neutrinos/mean_s_opacity_neutrinos.hpp", "singularity-opac/neutrinos/spiner_opac_neutrinos.hpp:LoadFromNuLib_,Finalize"]}
{"id": "C65", "title": "Rounding errors stay small", "statement": "In floating-point arithmetic whose basic operations and elementary functions have relative error at most u, and in the absence of overflow and underflow, every result of an opacity, thermal distribution, emissivity, scattering cross section or physical constant differs from the exact value of the formula by a factor between (1-u)^N and (1-u)^(-N), where N depends only on the number of unit wrappers, the exponents of a power law and h nu/kT (and not on the size of the arguments): nothing cancels, in particular not for small h nu/kT. In double precision, with at most one unit wrapper, exponents adding up to at most 4 and h nu/kT at most 700, the relative error of absorption coefficients and emissivities is below 1e-9.", "quantifier": "all positive densities, temperatures, frequencies, constants, parameters and units, all roundings with relative error at most u that keep integers up to 2^24, all photon, neutrino (gray and BRT) and scattering opacities under any nesting of unit wrappers, direct, through the variant and vectorised", "why_tests_cant": "A bound on a rounding error over all arguments; a cancellation shows up only at extreme ratios of frequency to temperature.", "anchors": ["singularity-opac/photons/thermal_distributions_photons.hpp", "singularity-opac/neutrinos/thermal_distributions_neutrinos.hpp", "singularity-opac/photons/powerlaw_opacity_photons.hpp", "singularity-opac/photons/epbremsstrahlung_opacity_photons.hpp", "singularity-opac/neutrinos/brt_neutrinos.hpp", "singularity-opac/photons/non_cgs_photons.hpp", "singularity-opac/neutrinos/non_cgs_neutrinos.hpp", "singularity-opac/constants/constants.hpp"]}
{"id": "C66", "title": "Means converge as the number of frequencies grows", "statement": "Whatever the opacity, if its coefficient depends continuously on the frequency, then the Planck and Rosseland means read from tables converge as the number of frequencies per group (or, for neutrinos, the number of frequencies) is increased, and the limits at the tabulated densities and temperatures are the integrals over the group that define the means: Planck mean = integral of kappa B over integral of B, Rosseland mean = integral of dB/dT over integral of (1/kappa) dB/dT, up to the floors the library adds. For photons the limit is within a factor 1-exp(-80) and the size of the floor of the exact mean over the part of the group that is sampled.", "quantifier": "all opacities (photons: absorption and scattering, single and multigroup; neutrinos: coefficients with countably many jumps, so the tophat is included), all densities, temperatures and electron fractions of the table, all groups and windows, number of frequencies tending to infinity", "why_tests_cant": "A limit: no finite number of frequencies decides whether it exists or what it is; a test compares a few numbers of frequencies with a tolerance.", "anchors": ["singularity-opac/photons/mean_opacity_photons.hpp: MeanOpacity", "singularity-opac/photons/mean_s_opacity_photons.hpp: MeanSOpacity", "singularity-opac/neutrinos/mean_opacity_neutrinos.hpp: MeanOpacityBase", "singularity-opac/neutrinos/mean_s_opacity_neutrinos.hpp: MeanSOpacityBase"]}
{"id": "C67", "title": "No overflow, underflow or loss of accuracy in double precision", "statement": "For the gray, bremsstrahlung and power-law photon opacities, the gray and Burrows-Reddy-Thompson neutrino opacities, the gray, Thomson and power-law scatterers of photons and the gray scatterer of neutrinos, the same in code units, and the variants holding them, with constants of the size of the CGS constants, and for densities, temperatures, frequencies, energy densities, parameters and code units over wide ranges (for example densities 1e-18 to 1e18, temperatures 1e-6 to 1e18 K, frequencies 1e-6 to 1e30 Hz with h nu at most 120 kT), every result in IEEE double precision is a finite number within one part in 1e9 of the exact result, or both are zero: nothing overflows, underflows or cancels on the way. Where the exact program reports infinity or stops with an error, so does the double-precision one.", "quantifier": "all constants, parameters, units, arguments and species in the stated ranges; all seven spectral queries, vectorised calls, totals, number emissivity, temperature inversion, cross sections and scattering coefficients", "why_tests_cant": "The ranges span dozens of decades in each of up to ten variables, and intermediate products leave the range of doubles only in corners of that space; tests compare a few points.", "anchors": ["singularity-opac/photons/gray_opacity_photons.hpp", "singularity-opac/photons/epbremsstrahlung_opacity_photons.hpp", "singularity-opac/photons/powerlaw_opacity_photons.hpp", "singularity-opac/photons/non_cgs_photons.hpp", "singularity-opac/photons/thermal_distributions_photons.hpp", "singularity-opac/photons/thomson_s_opacity_photons.hpp", "singularity-opac/photons/powerlaw_s_opacity_photons.hpp", "singularity-opac/photons/gray_s_opacity_photons.hpp", "singularity-opac/neutrinos/gray_opacity_neutrinos.hpp", "singularity-opac/neutrinos/brt_neutrinos.hpp", "singularity-opac/neutrinos/non_cgs_neutrinos.hpp", "singularity-opac/neutrinos/thermal_distributions_neutrinos.hpp"]}
{"id": "C68", "title": "Table lookups are accurate to rounding, even across cell boundaries", "statement": "Inside its table, every query answered by interpolation - group Planck and Rosseland coefficients of photon mean opacities and mean scattering opacities, neutrino mean absorption and scattering coefficients, and the absorption coefficients, spectral emissivities, total emissivity and number emissivity of tabulated neutrino opacities - returns in floating point, at every state, a value whose relative distance from the same lookup in exact arithmetic is at most u*(1800*(X/s)*D+180*M), where u is the unit roundoff, X bounds the coordinates of the grid ends, s is the grid spacing, M bounds the stored logarithms and D their jumps between neighbouring nodes. For double precision and tables of up to forty decades either side of one with at most a hundred nodes per decade and entries changing by at most a decade from node to node, that is one part in 1e9. In particular a state that rounding moves into the neighbouring cell still gets the right answer.", "quantifier": "all tables, grid sizes up to 2^24 nodes, densities, temperatures, electron fractions, frequencies, groups and species inside the table; every rounding function with relative error u that is exact on small integers", "why_tests_cant": "The lookups convert to logarithms, find the cell by truncation and interpolate in up to four dimensions; errors would show at states within rounding of a node, which tests of random states miss.", "anchors": ["singularity-opac/photons/mean_opacity_photons.hpp", "singularity-opac/photons/mean_s_opacity_photons.hpp", "singularity-opac/neutrinos/mean_opacity_neutrinos.hpp", "singularity-opac/neutrinos/mean_s_opacity_neutrinos.hpp", "singularity-opac/neutrinos/spiner_opac_neutrinos.hpp"]}
{"id": "C69", "title": "Group means computed with rounding agree with exact group means", "statement": "Build a photon opacity (absorbing or scattering, in any stack of unit wrappers) and its group mean opacity from the same numbers twice: once in floating point, once in exact arithmetic. If the exact construction succeeds, so does the floating-point one; every frequency is assigned to the same group by both; and at every density and temperature inside the table and in every group the Planck means agree to within u*(1800*(X/s)*D+184*M+4*P), where u is the unit roundoff, X and s are the extent and spacing of the grids, M and D bound the tabulated logarithms and their jumps, and P, an explicit number, counts the rounding errors of the sums (it grows linearly with the number of quadrature points). The same holds for Rosseland means whose samples stay above the smallest normal number. Conditions: at every temperature of the grid, the group bounds are not within one part in a thousand of a value at which the sampled window switches, and the window has a positive width. In double precision, for grids and windows of at least 1/100 decade within forty decades of one and at most one wrapper, the means are accurate to 1e-5.", "quantifier": "all photon opacities, unit systems, grids, group structures, quadrature sizes up to 2^24, densities, temperatures, frequencies and groups inside the table; every rounding function with relative error u that is exact on small integers (no overflow or underflow)", "why_tests_cant": "The construction takes millions of rounded operations - logarithmic sampling, weights with exp and expm1 of large arguments, sums, logarithms, interpolation - and a cancellation at any temperature, group or quadrature size would show only there.", "anchors": ["singularity-opac/photons/mean_opacity_photons.hpp: MeanOpacity, GroupOfNu", "singularity-opac/photons/mean_s_opacity_photons.hpp: MeanSOpacity", "singularity-opac/photons/mean_photon_utils.hpp"]}
{"id": "C70", "title": "Neutrino means computed with rounding agree with exact neutrino means", "statement": "Build a gray or Burrows-Reddy-Thompson neutrino opacity or a gray scattering opacity (in any stack of unit wrappers) and its mean opacity from the same numbers twice: once in floating point, once in exact arithmetic, with or without a given frequency window. If the exact construction succeeds, so does the floating-point one, and at every density, temperature and electron fraction inside the table and for every species the Planck means agree to within u*(1800*(X/s)*D+185*M+5*P), where u is the unit roundoff, X and s are the extent and spacing of the grids, M and D bound the tabulated logarithms and their jumps, and P, an explicit number, counts the rounding errors of the sums. The same holds for Rosseland means when every quantity the code compares with its floor (sampled opacities, the Planck mean, the summed mean free path) is zero or at least twice the floor; for absorption, when there is no unit wrapper, since wrappers return the wrong temperature derivative. In double precision, within forty decades of one, h nu / k T at most 1000 and at most one wrapper, means are accurate to 1e-6.", "quantifier": "all neutrino opacities of these kinds, unit systems, grids, frequency windows, quadrature sizes up to 2^24, densities, temperatures, electron fractions inside the table, and species; every rounding function with relative error u that is exact on small integers (no overflow or underflow)", "why_tests_cant": "The default window reaches from a thousandth of the lowest to a thousand times the highest thermal frequency, so rounding errors of exponents are amplified by h nu / k T; a loss of accuracy would appear only for some ranges of the table and cannot be excluded by sampling.", "anchors": ["singularity-opac/neutrinos/mean_opacity_neutrinos.hpp: MeanOpacity", "singularity-opac/neutrinos/mean_s_opacity_neutrinos.hpp: MeanSOpacity", "singularity-opac/neutrinos/thermal_distributions_neutrinos.hpp"]}
{"id": "C71", "title": "Table lookups in double precision are accurate, and their conversions to int are defined", "statement": "In IEEE double precision, with overflow, underflow, infinities and NaN: every function of the API that answers from a table returns, for a state inside the table, a finite number that differs from the exact interpolation of the same table by at most a billionth. The floating-point numbers it converts to int to find the cell fit an int, also far outside the table; only an infinite or NaN density or temperature makes the conversion undefined behaviour. Tables have ends within forty decades of one, at least a hundredth of a decade between nodes, entries of at most two hundred decades and neighbours within a factor of ten.", "quantifier": "all tables of that size and smoothness (shapes, grids and entries), all groups and species, all positive densities, temperatures and frequencies, all electron fractions that are doubles and zero or at least 1e-18", "why_tests_cant": "The interpolation multiplies and subtracts numbers of any sign and size; whether some product underflows, some power overflows or some truncated coordinate leaves the range of int depends on the table and the state, and cannot be excluded by sampling either.", "anchors": ["singularity-opac/photons/mean_opacity_photons.hpp: PlanckGroupAbsorptionCoefficient", "singularity-opac/photons/mean_s_opacity_photons.hpp", "singularity-opac/neutrinos/mean_opacity_neutrinos.hpp", "singularity-opac/neutrinos/mean_s_opacity_neutrinos.hpp", "singularity-opac/neutrinos/spiner_opac_neutrinos.hpp"]}
{"id": "C72", "title": "Lookups never leave the table, unless an axis has a single node", "statement": "A mean opacity or a tabulated neutrino opacity computed by the library answers every question about one of its groups or about a neutrino species, at every density, temperature, electron fraction and frequency whatsoever (inside the table or not, infinite or NaN included), with indices inside its tables, if every axis has at least two nodes. If an axis has one node, every lookup uses the index -1 on that axis, which is before the table or in another row; likewise every lookup for a group that does not exist or for a particle that is not a neutrino uses an index outside its axis. Photon means are never built on a density or temperature axis with one node, because the node is NaN and the constructor notices; neutrino means with one electron fraction and tabulated neutrino opacities with one node along any axis are built without complaint, although every lookup in them uses an index outside the table.", "quantifier": "all opacities, all tables with any numbers of nodes, bounds and windows, all groups and species, all states including infinities and NaN", "why_tests_cant": "tests sample a handful of states inside tables of ordinary size; that no state whatever can index outside the table, and which sizes break this, is a statement about all of them", "anchors": ["singularity-opac/photons/mean_opacity_photons.hpp: PlanckGroupAbsorptionCoefficient, RosselandGroupAbsorptionCoefficient, MeanOpacityImpl_", "singularity-opac/photons/mean_s_opacity_photons.hpp", "singularity-opac/neutrinos/mean_opacity_neutrinos.hpp: PlanckMeanAbsorptionCoefficient", "singularity-opac/neutrinos/mean_s_opacity_neutrinos.hpp", "singularity-opac/neutrinos/spiner_opac_neutrinos.hpp: AbsorptionCoefficient, EmissivityPerNuOmega, Emissivity"]}
{"id": "C73", "title": "Making mean opacities in double precision succeeds on ordinary inputs", "statement": "In double precision, making a photon or neutrino mean opacity (absorption or scattering, with a given or with the default frequency window) returns, instead of ending the program because an entry is NaN, if the densities lie between 1e-18 and 1e18, the temperatures between 1e-6 and 3e13, every axis has from 2 to 2^31 nodes, the frequency bounds are acceptable and every group ends at infinity or between 4e-6 and 6e29, there are at most 2^31 frequencies, and the opacity at such states is 0 or between 1e-81 and 1e60. Gray absorption and scattering of ordinary size, Thomson scattering, Burrows-Reddy-Thompson opacities and the library's thermal spectra meet these conditions, also where the exponential overflows or underflows. A huge finite group bound in place of infinity (2^700 to 2^1000) makes the constructor abort if the group lies above the thermal range. So does a neutrino tophat emissivity of strength 1e6 or more whose band covers the sampled frequencies, when those lie far above a temperature of the table (there the spectrum is 0 and the coefficient overflows).", "quantifier": "all opacities, constants, axes, bounds, windows and numbers of frequencies within the stated sizes; IEEE binary64 with a correctly rounded library", "why_tests_cant": "tests build a few tables; whether some node of some table overflows, underflows or divides 0 by 0 depends on all combinations of bounds, temperatures and numbers of samples", "anchors": ["singularity-opac/photons/mean_opacity_photons.hpp: MeanOpacityImpl_", "singularity-opac/photons/mean_s_opacity_photons.hpp: MeanSOpacityImpl_", "singularity-opac/photons/mean_photon_utils.hpp", "singularity-opac/neutrinos/mean_opacity_neutrinos.hpp: MeanOpacityImpl_", "singularity-opac/neutrinos/mean_s_opacity_neutrinos.hpp: MeanSOpacityImpl_", "singularity-opac/base/robust_utils.hpp: ratio"]}
{"id": "C74", "title": "Making a mean opacity returns or aborts, and when", "statement": "Making a photon mean opacity (absorption or scattering) from an opacity, with at least as many bounds as groups plus one, returns exactly when each group has at least two frequencies, the bounds are acceptable and no mean at any density and temperature of the table and in any group is NaN; in every other case it aborts. Making a neutrino mean opacity (absorption or scattering, with a given or the default frequency window) from an opacity that is defined everywhere returns exactly when no mean at any density, temperature and electron fraction of the table and for any species is NaN - for scattering, not even the means over the first few frequencies - and, for absorption in debug builds, the constants agree with the opacity's; in every other case it aborts.", "quantifier": "all opacities and constants, all axes (with any number of nodes, also none, and with NaN or infinite ends), bounds, numbers of groups and frequencies; every arithmetic with lawful comparisons, IEEE doubles included", "why_tests_cant": "the constructor's loops visit every node of a table of any size; that it neither misses a NaN nor leaves the tables is a statement about all of them", "anchors": ["singularity-opac/photons/mean_opacity_photons.hpp: MeanOpacity, MeanOpacityImpl_", "singularity-opac/photons/mean_s_opacity_photons.hpp: MeanSOpacityImpl_", "singularity-opac/neutrinos/mean_opacity_neutrinos.hpp: MeanOpacityImpl_", "singularity-opac/neutrinos/mean_s_opacity_neutrinos.hpp: MeanSOpacityImpl_"]}
{"id": "C75", "title": "Lookups in mean opacities made in double precision are finite", "statement": "In double precision, a photon or neutrino mean opacity (absorption or scattering, with a given or with the default frequency window) made from inputs of ordinary size, as in C73, answers every question about a group or species at a density, temperature and electron fraction inside its table with a finite number that is not negative: no overflow to infinity, no NaN and no negative opacity can come out of the sums, the quotients, the logarithm tables or the interpolation. For the Rosseland mean of photons this holds if the opacity is nowhere 0 at ordinary states, which gray absorption, gray scattering and Thomson scattering satisfy; the Planck mean and both neutrino means may have frequencies at which the opacity is 0.", "quantifier": "all opacities, axes, bounds, numbers of groups and frequencies of ordinary size, and all states inside the table", "why_tests_cant": "the samples range over hundreds of orders of magnitude, with underflow of the weights far above the temperature; a test reaches a few states, an infinite quotient may occur at any other", "anchors": ["singularity-opac/photons/mean_opacity_photons.hpp: MeanOpacity, MeanOpacityImpl_", "singularity-opac/photons/mean_s_opacity_photons.hpp: MeanSOpacityImpl_", "singularity-opac/neutrinos/mean_opacity_neutrinos.hpp: MeanOpacityImpl_", "singularity-opac/neutrinos/mean_s_opacity_neutrinos.hpp: MeanSOpacityImpl_"]}
{"id": "C76", "title": "Results do not depend on what fresh memory happened to hold", "statement": "Two runs that make the same mean opacity or tabulated opacity from the same inputs, and differ only in what the freshly allocated tables held before they were filled, end in the same way: both return, both report the same error, or both make the same step the language does not define. If they return, the two objects hold the same number at every place of every table, so every lookup, every query and every file written from them is the same. This holds for photon and neutrino means (absorption and scattering, from an opacity, from tables and from files) and for tabulated neutrino opacities (sampled or read from SP5 files). It fails for NuLib files, where one array is read but never written.", "quantifier": "all contents of fresh memory, all opacities, all inputs (including rejected ones), all grid sizes and all number types", "why_tests_cant": "an unfilled entry is seen only if the memory happens to differ and that entry is looked up; tests mostly get zeroed pages", "anchors": ["singularity-opac/photons/mean_opacity_photons.hpp: MeanOpacityImpl_, LoadOpacityTables_, ExportOpacityTables_, Save", "singularity-opac/photons/mean_s_opacity_photons.hpp: MeanSOpacityImpl_, LoadScatteringTables_", "singularity-opac/neutrinos/mean_opacity_neutrinos.hpp: MeanOpacityImpl_", "singularity-opac/neutrinos/mean_s_opacity_neutrinos.hpp: MeanSOpacityImpl_", "singularity-opac/neutrinos/spiner_opac_neutrinos.hpp: SpinerOpacity, LoadFromNuLib_"]}
{"id": "C77", "title": "Groups and nodes of a mean opacity are computed independently", "statement": "The mean opacity of one group depends on that group's two bounds only, and the entry at one table node on that node only. Two photon mean opacities (absorption or scattering) made from the same opacity on the same axes answer alike, at every density and temperature, for a group they share, whatever the other groups are and wherever the group stands in the list; two made on different axes hold the same two numbers wherever they share a node and a group. If a multigroup opacity can be made, so can the single-group opacity of each of its groups, and the single-group queries are the multigroup queries of that group. Neutrino means with the same frequency window hold the same numbers at shared nodes. Without a window they do not: the default window depends on the ends of the temperature axis, so adding a temperature changes the answers at nodes the table already had.", "quantifier": "all opacities, axes, group structures, groups, nodes, densities and temperatures, in every arithmetic with lawful comparisons", "why_tests_cant": "a test compares two chosen group structures and tables; independence has to hold for all pairs of them and at every state, including those outside the table", "anchors": ["singularity-opac/photons/mean_opacity_photons.hpp: MeanOpacityImpl_, PlanckGroupAbsorptionCoefficient, RosselandGroupAbsorptionCoefficient", "singularity-opac/photons/mean_s_opacity_photons.hpp: MeanSOpacityImpl_", "singularity-opac/neutrinos/mean_opacity_neutrinos.hpp: MeanOpacityImpl_", "singularity-opac/neutrinos/mean_s_opacity_neutrinos.hpp: MeanSOpacityImpl_"]}
{"id": "C78", "title": "Thermal spectra have the right shape", "statement": "For every opacity, in any units: multiplying temperature and frequency by s multiplies the thermal spectrum by s^3, and multiplying the temperature by s multiplies the total and the energy density by s^4 and the number quantities by s^3; multiplying the energy density by s^4 multiplies the temperature computed from it by s. At every temperature the spectrum has one peak: it rises strictly up to a frequency proportional to the temperature and falls strictly beyond it, at h nu / kT between 2.82 and 2.83 for photons and between 3.13 and 3.14 for neutrinos (Wien's displacement law). The temperature derivative of the spectrum, which weighs Rosseland means, is integrable over all frequencies, and 4 pi times its integral is the temperature derivative of the total, 4/T times the total (for opacities without unit wrapper, whose derivative is wrong, C17).", "quantifier": "all opacities, unit systems, temperatures, frequencies and scale factors, in exact arithmetic", "why_tests_cant": "scaling, unimodality and an integral over all frequencies are statements about infinitely many temperatures and frequencies", "anchors": ["singularity-opac/photons/thermal_distributions_photons.hpp: ThermalDistributionOfTNu, DThermalDistributionOfTNuDT, ThermalDistributionOfT, ThermalNumberDistributionOfT, TemperatureFromEnergyDensity", "singularity-opac/neutrinos/thermal_distributions_neutrinos.hpp: ThermalDistributionOfTNu, DThermalDistributionOfTNuDT, ThermalDistributionOfT, ThermalNumberDistributionOfT", "singularity-opac/photons/non_cgs_photons.hpp: NonCGSUnits", "singularity-opac/neutrinos/non_cgs_neutrinos.hpp: NonCGSUnits"]}
{"id": "C79", "title": "Mean opacities over the whole spectrum see the whole spectrum", "statement": "A group from zero to infinity is sampled over a range of six decades around the thermal peak only. Even so, as the number of frequencies grows, the Planck mean of every continuous bounded absorption or scattering coefficient tends, at the nodes of the table, to the Planck mean over all frequencies from zero to infinity, with an error of at most 1e-10 times the largest opacity. The Rosseland mean of every continuous coefficient that is also bounded away from zero tends to the Rosseland mean over all frequencies, with an error in the mean free path of at most 1e-10 of the longest one. For bremsstrahlung, whose coefficient is unbounded at low frequencies, the emission computed from the mean (density times Planck mean times black body emission) tends to between 0.99895 and 0.99905 times the emission that the opacity itself reports: a thousandth is lost.", "quantifier": "all opacities, physical constants, tables, nodes, densities and temperatures for which the floor 1e-307 is negligible", "why_tests_cant": "the integral over all frequencies is no finite computation, and the claim ranges over all coefficients", "anchors": ["singularity-opac/photons/mean_photon_utils.hpp: ForEachGroupFrequencySample, ThermalWeightsAtNu", "singularity-opac/photons/mean_opacity_photons.hpp: MeanOpacityImpl_, PlanckGroupAbsorptionCoefficient", "singularity-opac/photons/epbremsstrahlung_opacity_photons.hpp: Emissivity, AbsorptionCoefficient"]}
{"id": "C80", "title": "Means over no frequencies are refused", "statement": "Asked for means over fewer frequencies than can be averaged, or over a frequency window whose upper end is not above its lower end, a mean opacity constructor ends with an error. It does not return a table.", "quantifier": "every opacity, table axes, group bounds or window, and every number of frequencies", "why_tests_cant": "A test tries one number of frequencies and one window. The claim is about every unusable request, and a table of zeros that is returned instead looks like a valid table of a transparent medium.", "anchors": ["singularity-opac/photons/mean_opacity_photons.hpp: MeanOpacityImpl_", "singularity-opac/photons/mean_s_opacity_photons.hpp: MeanSOpacityImpl_", "singularity-opac/neutrinos/mean_opacity_neutrinos.hpp: MeanOpacityImpl_"]}
{"id": "C81", "title": "A mean opacity emits what the opacity it was made from emits", "statement": "Emissivity of a mean opacity with one group over the whole spectrum is the thermal emission of the opacity it was made from, integrated over all frequencies and directions, up to what the sampling and the floor change.", "quantifier": "every opacity with a continuous coefficient, every table, density and temperature of the table, and every sufficiently large number of frequencies", "why_tests_cant": "A test compares a gray opacity, whose Planck and Rosseland means agree. The claim is about every frequency dependence, and about a limit in the number of frequencies.", "anchors": ["singularity-opac/photons/mean_opacity_photons.hpp: Emissivity", "singularity-opac/photons/mean_opacity_photons.hpp: AbsorptionCoefficient", "singularity-opac/photons/thermal_distributions_photons.hpp: ThermalDistributionOfT", "singularity-opac/photons/epbremsstrahlung_opacity_photons.hpp: EPBremsstrahlungOpacity"]}
{"id": "C82", "title": "Merging two adjacent groups gives a mean between theirs", "statement": "If two mean opacities are made from the same opacity on the same table, and the second has one group where the first has two adjacent ones, then the mean of that group lies between the means of the two groups it replaces.", "quantifier": "every continuous nonnegative coefficient, every table and pair of lists of group bounds, every density and temperature of the table, and the limit of every sequence of growing numbers of frequencies", "why_tests_cant": "A test refines one list of bounds for one opacity, with bounds near the thermal peak. The claim is about all bounds, including those outside of the range that is sampled, and about a limit.", "anchors": ["singularity-opac/photons/mean_opacity_photons.hpp: MeanOpacity", "singularity-opac/photons/mean_s_opacity_photons.hpp: MeanSOpacity", "singularity-opac/photons/mean_photon_utils.hpp: ForEachGroupFrequencySample"]}
{"id": "C83", "title": "The groups of a mean opacity add up to the emission of the opacity", "statement": "The Planck means of all groups of a mean opacity, each times the thermal intensity in its group, add up to the thermal emission of the opacity it was made from between the first and the last group bound, up to 2e-10 of the largest coefficient times the thermal intensity.", "quantifier": "every continuous bounded coefficient, every number of groups and acceptable list of bounds, also outside of the sampled range, every table and node, and the limit of growing numbers of frequencies", "why_tests_cant": "The sampled range of each group depends on temperature and on both bounds, with special cases for bounds far from the thermal peak. A test tries a few lists of bounds for a gray opacity; the claim is about all lists and all frequency dependences, in a limit.", "anchors": ["singularity-opac/photons/mean_photon_utils.hpp: ForEachGroupFrequencySample", "singularity-opac/photons/mean_opacity_photons.hpp: MeanOpacity", "singularity-opac/photons/mean_opacity_photons.hpp: PlanckGroupAbsorptionCoefficient", "singularity-opac/photons/mean_s_opacity_photons.hpp: MeanSOpacity"]}
{"id": "C84", "title": "The default frequency window of neutrino means loses almost nothing", "statement": "The frequency window that mean neutrino opacities use when none is given covers, at every temperature of the table, the range from 1.001e-3 kT/h to 1e3 kT/h. A Planck mean over that window, or over a wider one, tends to the mean over all frequencies as the number of frequencies grows, up to 1e-13 of the largest coefficient per density.", "quantifier": "all sources with a bounded absorption coefficient and the library's thermal distribution, all table ranges, nodes and species, all windows that contain the default one, numbers of frequencies growing without bound", "why_tests_cant": "The statement is about a limit and an integral over all frequencies, for every coefficient.", "anchors": ["singularity-opac/neutrinos/mean_opacity_neutrinos.hpp: MeanOpacityBase::MeanOpacityImpl_, AUTOFREQ", "singularity-opac/neutrinos/thermal_distributions_neutrinos.hpp: FermiDiracDistributionNoMu"]}
{"id": "C85", "title": "Mean opacities from finitely many frequencies are off by a known amount", "statement": "Let a coefficient lie between 0 and K and vary by at most L per unit of the logarithm of the frequency. A Planck mean over the whole spectrum (one photon group from 0 to infinity) or over a neutrino window at least as wide as the default one, computed from N frequencies at distance d in the logarithm, differs at every node from the mean over all frequencies by at most (L d/2 + 1.6 K d^2)/rho, up to 2e-10 K/rho for photons and 1e-13 K/rho for neutrinos.", "quantifier": "all sources with such a coefficient, all numbers of frequencies, table ranges, nodes, species; no limit is taken", "why_tests_cant": "The bound is for every number of frequencies and every coefficient, against an integral over all frequencies.", "anchors": ["singularity-opac/photons/mean_opacity_photons.hpp: MeanOpacityBase, MultigroupOpacityBase", "singularity-opac/neutrinos/mean_opacity_neutrinos.hpp: MeanOpacityBase::MeanOpacityImpl_"]}
{"id": "C86", "title": "Piecewise-linear indexers between and beyond their nodes", "statement": "A linear or log-linear frequency indexer shows the data it was made from. With two or more nodes it answers for every frequency (with fewer, or when told of more nodes than its table has, it reads outside of the table). The linear one returns, between two nodes, the value of the straight line through their data, and beyond the ends continues the line of the first or last cell: it reproduces data on a straight line, is continuous, and does not decrease when the data do not; but the value beyond the range turns negative when the last datum is below its neighbour, although all data are positive.", "quantifier": "all data, ranges, numbers of nodes, assignment histories and frequencies; access and definedness in every arithmetic", "why_tests_cant": "The claims hold for every frequency inside and outside of the range and every list of data.", "anchors": ["singularity-opac/base/indexers.hpp: Linear, LogLinear"]}
{"id": "C87", "title": "Group and window means are off by a known factor", "statement": "Let the coefficient be positive in the sampled part [A, B] of a photon group (the part between 1e-3 kT/h and 1e3 kT/h) or in the window [A, B] of a neutrino mean, and change no faster than the L-th power of the frequency, in either direction. At every node of the table, the Planck and the Rosseland mean opacity computed from N frequencies are within a factor exp((m + L/2) d) of the Planck and the Rosseland mean over [A, B], where d = ln(B/A)/N and m = max(4, hB/kT) (5 instead of 4 for Rosseland means of neutrinos), up to the guard against division by zero. For the Rosseland mean the coefficient and the integrals must be large compared to that guard. Scattering means of neutrinos have N = 100.", "quantifier": "all sources with such a coefficient, all groups, finite or not, all neutrino windows and species, all numbers of frequencies, table ranges and nodes; no limit is taken", "why_tests_cant": "Tests compare gray opacities, or one source with one resolution; the factor must hold for every coefficient, every group and every number of frequencies.", "anchors": ["singularity-opac/photons/mean_opacity_photons.hpp: MeanOpacityBase, MultigroupOpacityBase", "singularity-opac/photons/mean_s_opacity_photons.hpp: MeanSOpacity", "singularity-opac/photons/mean_photon_utils.hpp", "singularity-opac/neutrinos/mean_opacity_neutrinos.hpp: MeanOpacityBase::MeanOpacityImpl_", "singularity-opac/neutrinos/mean_s_opacity_neutrinos.hpp"]}
{"id": "C88", "title": "Looked-up means are close to the mean at the state asked for", "statement": "Let a mean opacity table of photons or neutrinos meet the conditions under which its nodes hold the Planck (Rosseland) mean of the group, or of the window, up to a factor exp(E), and let the exact mean change no faster than the s-th power of the density and the t-th power of the temperature, and by no more than y per unit of the electron fraction in its logarithm, in either direction. For every state inside the table, between nodes or on them, the looked-up mean is within a factor exp(E + (s a + t b + y e)/2) of the exact mean at that very state, where a, b and e are the distances of neighbouring nodes in ln density, ln temperature and electron fraction. So the error between nodes vanishes as the table is refined.", "quantifier": "all sources with such means, all groups and windows, numbers of frequencies, table ranges and sizes, species, and all states inside the table", "why_tests_cant": "Tests look up gray opacities, which do not change between nodes; the factor must hold for every source and every state between nodes.", "anchors": ["singularity-opac/photons/mean_opacity_photons.hpp: MeanOpacityBase, MultigroupOpacityBase", "singularity-opac/photons/mean_s_opacity_photons.hpp: MeanSOpacity", "singularity-opac/photons/mean_photon_utils.hpp", "singularity-opac/neutrinos/mean_opacity_neutrinos.hpp: MeanOpacityBase", "singularity-opac/neutrinos/mean_s_opacity_neutrinos.hpp"]}
{"id": "C89", "title": "Tabulated neutrino opacities are close to their source between the nodes", "statement": "Let a quantity of the source (absorption coefficient, spectral emissivity, total emissivity, number emissivity) change, within the range of a table, no faster than given powers of density, temperature and frequency, and by no more than a given number of decades per unit of the electron fraction. Then the table filled from that source answers, for every state inside the table, with a value within a factor 10^F of the source's value at that state, where F is half the sum, over the axes, of the power times the node distance in decades; up to the floors the table adds to the state and the value. The absorption coefficient meant is the one the table samples, at the temperature in MeV.", "quantifier": "all sources with such rates, all table ranges and sizes, tabulated species, and all states inside the table", "why_tests_cant": "Tests compare the table with the source at a few states and with one resolution; the factor must hold at every state, for every source and every table.", "anchors": ["singularity-opac/neutrinos/spiner_opac_neutrinos.hpp: SpinerOpacity", "singularity-opac/neutrinos/gray_opacity_neutrinos.hpp: GrayOpacity"]}
{"id": "C90", "title": "Tabulated emission and absorption balance up to a known factor", "statement": "Fill a neutrino table from a source that obeys Kirchhoff's law, with absorption that does not depend on the temperature and with absorption and emissivity that exceed the floor of the table at its nodes by a factor 1/e. Then for every state inside the table, between nodes or on them, the looked-up emissivity divided by the looked-up absorption coefficient is within a factor (1+e) 10^F of the thermal spectrum at that state. F is half the sum of x times the node distance in decades of temperature and max(3, x) times the node distance in decades of frequency, x being the largest h nu / (k T) in the table: it does not depend on the source.", "quantifier": "all such sources, all table ranges and sizes, tabulated species, and all states inside the table", "why_tests_cant": "A test can compare emission with absorption at a few states of one table; the factor must hold at every state of every table, and whatever the source.", "anchors": ["singularity-opac/neutrinos/spiner_opac_neutrinos.hpp: SpinerOpacity", "singularity-opac/neutrinos/thermal_distributions_neutrinos.hpp: FermiDiracDistributionNoMu"]}
{"id": "C91", "title": "Group means add up to the total at any state", "statement": "Build a multigroup mean opacity from a frequency-dependent opacity whose coefficient changes with density, temperature and frequency at bounded rates, with group bounds that are finite and lie inside the averaging window at every tabulated temperature. Then at every state inside the table, on nodes or between them, the looked-up Planck group opacities, each multiplied by the thermal intensity of its group, add up to the integral of opacity times thermal intensity between the first and the last bound, up to a factor exp(F). F is made of the spacing of the frequencies used for averaging and of the spacing of the nodes of the table, and of the rates; it does not depend on the number of groups. Likewise the inverses of the looked-up Rosseland group opacities, each multiplied by the temperature derivative of the thermal intensity of its group, add up to the integral of the inverse opacity times that derivative.", "quantifier": "all such opacities, all lists of bounds, numbers of groups and averaging frequencies, table ranges and sizes, and all states inside the table", "why_tests_cant": "A test can add up the groups of one spectrum at a few states; the factor must hold for every partition into groups, every number of sampling frequencies and every state between the nodes.", "anchors": ["singularity-opac/photons/mean_opacity_photons.hpp: MeanOpacityBase::MeanOpacityImpl_", "singularity-opac/photons/mean_opacity_photons.hpp: PlanckGroupAbsorptionCoefficient, RosselandGroupAbsorptionCoefficient"]}
{"id": "C92", "title": "The analytic opacities change at known rates, and so do their means", "statement": "The bremsstrahlung opacity per mass changes at most in proportion to the density, like the power max(3/2, x) of the temperature and like the power max(3, x) of the frequency, where x bounds h nu / (k T). A power-law opacity per mass with positive coefficient changes at most like its own exponents of density, temperature and frequency, whatever its offsets, and stimulated emission adds at most one power of temperature and of frequency. Both are positive and continuous in the frequency. In consequence the group Planck means of a bremsstrahlung or power-law table add up to the integral of opacity times thermal intensity at every state inside the table, up to a factor known from the constants or exponents, the group bounds and the resolution alone.", "quantifier": "all positive constants, all accepted power-law parameters, all pairs of positive densities, temperatures and frequencies; for the groups all bounds inside the averaging window, table ranges and sizes, and states inside the table", "why_tests_cant": "A rate of change compares every pair of states; a test compares a few. The consequence must hold for every table and every state between its nodes.", "anchors": ["singularity-opac/photons/epbremsstrahlung_opacity_photons.hpp: EPBremsstrahlungOpacity::AbsorptionCoefficient", "singularity-opac/photons/powerlaw_opacity_photons.hpp: PowerLawOpacity::OpacityScale_", "singularity-opac/photons/mean_opacity_photons.hpp: PlanckGroupAbsorptionCoefficient"]}
{"id": "C93", "title": "Looking up a table does not make an opacity change faster or slower than its data", "statement": "If, from every table entry to the next one along an axis, the value grows at least like the power a and at most like the power b of that variable, then so do the answers between any two states that differ only along that axis, also beyond the ends of the table. A neutrino table filled from an opacity whose absorption coefficient, spectral, total or number emissivity changes at most at given rates with density, temperature, electron fraction and frequency answers with values that change at most at the same rates between any two states inside the table.", "quantifier": "all functions of the API that answer from a table, all tables on valid grids, all exponents, all pairs of states; for filled tables all sources with the given rates, all ranges and sizes, all species and all pairs of states inside the table", "why_tests_cant": "A rate of change compares every pair of states, in the same cell or cells far apart; a test compares a few pairs on one table.", "anchors": ["singularity-opac/neutrinos/spiner_opac_neutrinos.hpp: SpinerOpacity::AbsorptionCoefficient, EmissivityPerNuOmega", "singularity-opac/photons/mean_opacity_photons.hpp: PlanckGroupAbsorptionCoefficient", "singularity-opac/neutrinos/mean_opacity_neutrinos.hpp: PlanckMeanAbsorptionCoefficient"]}
{"id": "C94", "title": "A tabulated neutrino spectrum emits no more than the tabulated total", "statement": "For a neutrino table filled from an opacity whose total emissivity is the integral of its spectral emissivity, the integral of the tabulated EmissivityPerNu between any two frequencies inside the table is at most the tabulated Emissivity at the same state, up to the factors by which the spectrum and the total change over half a node distance, plus the floor of the table times the width of the frequency interval.", "quantifier": "all sources with given rates of change, all table ranges and sizes, species, states inside the table and pairs of frequencies inside it; for gray sources all opacities and constants", "why_tests_cant": "The spectrum and the total are interpolated from different tables; that they stay consistent is a statement about an integral at every state.", "anchors": ["singularity-opac/neutrinos/spiner_opac_neutrinos.hpp: SpinerOpacity::EmissivityPerNu, Emissivity, filling constructor"]}
{"id": "C95", "title": "The Burrows-Reddy-Thompson opacity changes at known rates, and tables filled from it are accurate to known factors", "statement": "For electron neutrinos, a change of density, temperature or frequency by some number of decades changes the Burrows-Reddy-Thompson absorption coefficient by at most one decade per decade of density and two per decade of frequency, its total emissivity by at most one and six, its number emissivity by at most one and five, and its spectral emissivity by at most one, X and 5+X, where X is the largest h nu / k T of the range. So every table filled from it answers, at every state inside the table, within an explicit factor (depending only on the resolution) of the source's value plus the table's floor, for the absorption coefficient, spectral emissivity, total emissivity and number emissivity; and between any two states inside it the table's own answers change at those same rates. Where the source's values at the nodes are well above the floor, the table's emissivity over its absorption coefficient is the thermal spectrum up to an explicit factor. The integral of the tabulated spectrum over any covered frequency interval is at most the number of species times the tabulated total, up to explicit factors and the floor.", "quantifier": "all positive constants, all covered ranges and table sizes, all pairs of states in range (rates) and all states inside the table (accuracy)", "why_tests_cant": "A test compares the table with its source at sampled states; the factor must hold at every state between the nodes and for every resolution.", "anchors": ["singularity-opac/neutrinos/brt_neutrinos.hpp: BRTOpacity::AbsorptionCoefficient, EmissivityPerNuOmega, Emissivity, NumberEmissivity", "singularity-opac/neutrinos/spiner_opac_neutrinos.hpp: SpinerOpacity filling constructor, AbsorptionCoefficient, EmissivityPerNuOmega, Emissivity, NumberEmissivity"]}
{"id": "C96", "title": "A neutrino table knows its source only at its nodes", "statement": "A source whose spectral emissivity (or absorption coefficient) is zero or negative at every node of a neutrino table is tabulated as the table's floor at every state inside the table, whatever it does between the nodes. In particular a tophat emissivity whose band contains no frequency node loses its whole spectrum, however strong it is, so no accuracy can be promised without bounding how fast the source changes.", "quantifier": "all sources, table ranges and sizes, tabulated species and states inside the table; for tophats all bands without a node and all strengths", "why_tests_cant": "A test on chosen bands and resolutions cannot show that nothing between the nodes ever influences an answer.", "anchors": ["singularity-opac/neutrinos/spiner_opac_neutrinos.hpp: SpinerOpacity filling constructor, EmissivityPerNuOmega, EmissivityPerNu, AbsorptionCoefficient", "singularity-opac/neutrinos/tophat_emissivity_neutrinos.hpp: TophatEmissivity::EmissivityPerNuOmega"]}
