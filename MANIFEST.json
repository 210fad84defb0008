{
 "claims": [
  {
   "property": "C01",
   "status": "proved",
   "theorems": [
    "Opac.Photons.C01_group_lookup",
    "Opac.Photons.C01_objects"
   ],
   "note": "every carrier with IEEE comparisons; at most 2^30 groups (beyond that see C02_overflow_beyond)"
  },
  {
   "property": "C02",
   "status": "proved",
   "theorems": [
    "Opac.Photons.C02_lookup_cost",
    "Opac.Photons.C02_no_ub",
    "Opac.Photons.C02_overflow_beyond"
   ],
   "note": ""
  },
  {
   "property": "C03",
   "status": "proved",
   "theorems": [
    "Opac.Photons.C03_validation",
    "Opac.Photons.C03_tables",
    "Opac.Photons.C03_from_tables",
    "Opac.Photons.C03_from_opacity",
    "Opac.Photons.C03_short_bounds_ub"
   ],
   "note": "the length of the bounds array is never checked: C03_short_bounds_ub"
  },
  {
   "property": "C04",
   "status": "proved",
   "theorems": [
    "Opac.Photons.C04_bounds_reported"
   ],
   "note": ""
  },
  {
   "property": "C05",
   "status": "proved",
   "theorems": [
    "Opac.Photons.C05_from_nu",
    "Opac.Photons.C05_base_wrapper_variant",
    "Opac.Photons.C05_objects"
   ],
   "note": ""
  },
  {
   "property": "C06",
   "status": "partial",
   "theorems": [
    "Opac.Photons.C06_partial",
    "Opac.Photons.C06_false"
   ],
   "note": "false in release builds and for the variant's group-less accessor"
  },
  {
   "property": "C07",
   "status": "partial",
   "theorems": [
    "Opac.Photons.C07_partial",
    "Opac.Photons.C07_gray_exists",
    "Opac.Photons.C07_false",
    "Opac.Photons.C07_lookup_partial"
   ],
   "note": "false in groups whose thermal weights are below the floor, such as far in the Wien tail: there the tabulated mean of a gray opacity is 0; proved with explicit error elsewhere"
  },
  {
   "property": "C08",
   "status": "proved",
   "theorems": [
    "Opac.Photons.C08_table",
    "Opac.Photons.C08_planck",
    "Opac.Photons.C08_lookup"
   ],
   "note": "in exact arithmetic with infinities"
  },
  {
   "property": "C09",
   "status": "partial",
   "theorems": [
    "Opac.Photons.C09_partial",
    "Opac.Photons.C09_false",
    "Opac.Photons.C09_lookup_partial"
   ],
   "note": "false if some sample is transparent: such samples are skipped in the numerator only; proved if no sample is"
  },
  {
   "property": "C10",
   "status": "partial",
   "theorems": [
    "Opac.Photons.C10_partial",
    "Opac.Photons.C10_false",
    "Opac.Photons.C10_narrow_false"
   ],
   "note": "number, order and weights proved for all groups; samples leave the group if it is far from the thermal range"
  },
  {
   "property": "C11",
   "status": "proved",
   "theorems": [
    "Opac.Photons.C11_nodes",
    "Opac.Photons.C11_between",
    "Opac.Photons.C11_positive",
    "Opac.Photons.C11_constructed",
    "Opac.Photons.C11_reloaded"
   ],
   "note": "over the reals"
  },
  {
   "property": "C12",
   "status": "proved",
   "theorems": [
    "Opac.Photons.C12_returns",
    "Opac.Photons.C12_cycles_any",
    "Opac.Photons.C12_cycles",
    "Opac.Photons.C12_objects",
    "Opac.Photons.C12_objects_values"
   ],
   "note": "grids and bounds for every arithmetic; opacities over the reals: exactly one floor of 10*DBL_MIN is added per cycle"
  },
  {
   "property": "C13",
   "status": "proved",
   "theorems": [
    "Opac.Photons.C13_crash",
    "Opac.Photons.C13_no_mixing",
    "Opac.Photons.C13_failures",
    "Opac.Neutrinos.SpinerOpacity.C13_spiner_crash",
    "Opac.Neutrinos.SpinerOpacity.C13_spiner_no_mixing",
    "Opac.Neutrinos.SpinerOpacity.C13_spiner_failures",
    "Opac.Neutrinos.MeanTables.C13_means_crash",
    "Opac.Neutrinos.MeanTables.C13_means_no_mixing",
    "Opac.Neutrinos.MeanTables.C13_means_failures",
    "Opac.Photons.C13_objects"
   ],
   "note": "photon means, neutrino means and tabulated neutrino opacities, in every arithmetic; the model of HDF5 leaves each dataset whole or absent after a crash"
  },
  {
   "property": "C14",
   "status": "proved",
   "theorems": [
    "Opac.Photons.C14_spectrum",
    "Opac.Photons.C14_total"
   ],
   "note": "every photon opacity, wrapped any number of times, bare or in the variant"
  },
  {
   "property": "C15",
   "status": "proved",
   "theorems": [
    "Opac.Photons.C15_number"
   ],
   "note": "with the reported Planck constant (at most one unit wrapper)"
  },
  {
   "property": "C16",
   "status": "proved",
   "theorems": [
    "Opac.Neutrinos.C16_spectrum",
    "Opac.Neutrinos.C16_total",
    "Opac.Neutrinos.C16_number"
   ],
   "note": ""
  },
  {
   "property": "C17",
   "status": "partial",
   "theorems": [
    "Opac.Photons.C17_derivative_partial",
    "Opac.Photons.C17_false",
    "Opac.Neutrinos.C17_derivative_partial",
    "Opac.Neutrinos.C17_false"
   ],
   "note": "holds without unit wrapper; the unit wrappers forget to convert temperature and frequency"
  },
  {
   "property": "C18",
   "status": "proved",
   "theorems": [
    "Opac.Photons.C18_inverse",
    "Opac.Neutrinos.C18_inverse"
   ],
   "note": ""
  },
  {
   "property": "C19",
   "status": "proved",
   "theorems": [
    "Opac.Photons.C19_spectrum",
    "Opac.Neutrinos.C19_spectrum",
    "Opac.Photons.C19_wien_tail"
   ],
   "note": ""
  },
  {
   "property": "C20",
   "status": "proved",
   "theorems": [
    "Opac.Photons.C20_four_pi",
    "Opac.Photons.C20_bitwise",
    "Opac.Neutrinos.C20_four_pi",
    "Opac.Neutrinos.C20_bitwise"
   ],
   "note": "every photon and neutrino opacity, every unit system, scalar and vectorised; bit for bit without unit wrapper"
  },
  {
   "property": "C21",
   "status": "partial",
   "theorems": [
    "Opac.Photons.C21_gray",
    "Opac.Photons.C21_bremsstrahlung",
    "Opac.Photons.C21_powerLaw_partial",
    "Opac.Photons.C21_powerLaw_returns",
    "Opac.Photons.C21_stimulated_false",
    "Opac.Neutrinos.C21_gray",
    "Opac.Neutrinos.C21_tophat",
    "Opac.Neutrinos.C21_brt_partial",
    "Opac.Neutrinos.C21_brt_false"
   ],
   "note": "Proved for gray (photons, neutrinos), bremsstrahlung, top hat and the power law without stimulated emission (which returns a total only without frequency dependence). With stimulated emission the total ignores the stimulated factor (C21_stimulated_false). The Burrows-Reddy-Thompson total is that of one species while the spectrum is that of NSPECIES (C21_brt_false)."
  },
  {
   "property": "C22",
   "status": "partial",
   "theorems": [
    "Opac.Photons.C22_gray_partial",
    "Opac.Photons.C22_powerLaw_partial",
    "Opac.Photons.C22_gray_false",
    "Opac.Photons.C22_gray_unit_density",
    "Opac.Photons.C22_bremsstrahlung_diverges",
    "Opac.Photons.C22_bremsstrahlung_infinity",
    "Opac.Photons.C22_infinity_wrapped",
    "Opac.Neutrinos.C22_gray_partial",
    "Opac.Neutrinos.C22_gray_false",
    "Opac.Neutrinos.C22_tophat",
    "Opac.Neutrinos.C22_brt_partial",
    "Opac.Neutrinos.C22_brt_false"
   ],
   "note": "the gray and power-law number emissivities lack the density factor (C22_gray_false), the Burrows-Reddy-Thompson one the number of species and the check of the species (C22_brt_false)."
  },
  {
   "property": "C23",
   "status": "partial",
   "theorems": [
    "Opac.Photons.C23_gray",
    "Opac.Photons.C23_powerLaw",
    "Opac.Photons.C23_bremsstrahlung_partial",
    "Opac.Photons.C23_bremsstrahlung_error",
    "Opac.Neutrinos.C23_gray",
    "Opac.Neutrinos.C23_brt",
    "Opac.Neutrinos.C23_tophat_partial",
    "Opac.Neutrinos.C23_tophat_false",
    "Opac.Tables.C23_tabulated_partial",
    "Opac.Tables.C23_tabulated_between",
    "Opac.Tables.C23_tabulated_false"
   ],
   "note": "bremsstrahlung divides with a floor, so the law is approximate there; the top hat's absorption coefficient is divided by 4 pi once too often (C23_tophat_false). Tabulated opacities obey it at their nodes up to the floors, if the source's absorption does not depend on temperature; between the nodes emission over absorption is between its values at the corners, which can be far from the thermal spectrum (C23_tabulated_false)"
  },
  {
   "property": "C24",
   "status": "partial",
   "theorems": [
    "Opac.Photons.C24_isotropic",
    "Opac.Neutrinos.C24_isotropic_partial",
    "Opac.Neutrinos.C24_tophat_partial",
    "Opac.Neutrinos.C24_tophat_false"
   ],
   "note": "proved for every model but the top hat, for which it is false"
  },
  {
   "property": "C25",
   "status": "partial",
   "theorems": [
    "Opac.Photons.C25_units_partial",
    "Opac.Photons.C25_derivative_partial",
    "Opac.Photons.C25_false",
    "Opac.Photons.C25_mean",
    "Opac.Photons.C25_mean_base",
    "Opac.Photons.C25_mean_constants_false"
   ],
   "note": "Proved for every function, scalar and vectorised, except DThermalDistributionOfTNuDT, whose wrapper forgets to convert its arguments (C25_false). Wrapped mean opacities report CGS constants (C25_mean_constants_false)."
  },
  {
   "property": "C26",
   "status": "partial",
   "theorems": [
    "Opac.Neutrinos.C26_units_partial",
    "Opac.Neutrinos.C26_derivative_partial",
    "Opac.Neutrinos.C26_false",
    "Opac.Neutrinos.C26_mean"
   ],
   "note": "Proved for every function except DThermalDistributionOfTNuDT (C26_false)."
  },
  {
   "property": "C27",
   "status": "proved",
   "theorems": [
    "Opac.Photons.C27_scattering",
    "Opac.Photons.C27_mean_scattering",
    "Opac.Neutrinos.C27_scattering",
    "Opac.Neutrinos.C27_mean_scattering"
   ],
   "note": "For whatever scattering object is wrapped."
  },
  {
   "property": "C28",
   "status": "partial",
   "theorems": [
    "Opac.Photons.C28_one",
    "Opac.Photons.C28_one_constants",
    "Opac.Photons.C28_mul",
    "Opac.Photons.C28_constants_false",
    "Opac.Photons.C28_scattering",
    "Opac.Photons.C28_mean_one",
    "Opac.Photons.C28_mean_mul",
    "Opac.Photons.C28_mean_scattering",
    "Opac.Neutrinos.C28_one",
    "Opac.Neutrinos.C28_one_constants",
    "Opac.Neutrinos.C28_mul",
    "Opac.Neutrinos.C28_constants_false",
    "Opac.Neutrinos.C28_scattering",
    "Opac.Neutrinos.C28_mean",
    "Opac.Neutrinos.C28_mean_scattering"
   ],
   "note": "All results, every memory layout. False only for the reported constants of a doubly wrapped opacity (C28_constants_false)."
  },
  {
   "property": "C29",
   "status": "partial",
   "theorems": [
    "Opac.C29_dimensions_partial",
    "Opac.C29_relations_partial",
    "Opac.C29_false"
   ],
   "note": "G, R, G_F and e are converted wrongly by the code"
  },
  {
   "property": "C30",
   "status": "proved",
   "theorems": [
    "Opac.Photons.C30_plain",
    "Opac.Photons.C30_vector",
    "Opac.Photons.C30_empty",
    "Opac.Photons.C30_bits",
    "Opac.Photons.C30_inplace_false",
    "Opac.Neutrinos.C30_plain",
    "Opac.Neutrinos.C30_vector",
    "Opac.Neutrinos.C30_bits",
    "Opac.Neutrinos.C30_empty"
   ],
   "note": "Every photon and neutrino opacity, any number of unit wrappers, any nbins. Exact arithmetic: results, frequencies and frame. Every arithmetic: results bit-exact (plain opacities also untouched frequencies). C30_inplace_false: in-place use (outside the property) breaks through wrappers."
  },
  {
   "property": "C31",
   "status": "partial",
   "theorems": [
    "Opac.Photons.C31_history",
    "Opac.Neutrinos.C31_history",
    "Opac.Photons.C31_rounded_partial",
    "Opac.Neutrinos.C31_rounded_partial",
    "Opac.Photons.C31_rounded_false"
   ],
   "note": "Proved for exact arithmetic over all call histories. Under rounding the claim that frequencies are unchanged is false (C31_rounded_false: time unit 49 in double precision); proved instead: drift of at most three roundings per wrapper per call, results bit-equal to the scalar results at the current frequencies."
  },
  {
   "property": "C32",
   "status": "partial",
   "theorems": [
    "Opac.Photons.C32_code",
    "Opac.Photons.C32_plain",
    "Opac.Photons.C32_wrapped_partial",
    "Opac.Photons.C32_race",
    "Opac.Photons.C32_false",
    "Opac.Neutrinos.C32_code",
    "Opac.Neutrinos.C32_plain",
    "Opac.Neutrinos.C32_wrapped_partial"
   ],
   "note": "proved for opacities without unit wrapper (frequencies shared) and for wrapped ones with a frequency array per thread; false when a wrapped opacity is evaluated on a shared frequency array, because the call converts that array in place (C32_race, C32_false)"
  },
  {
   "property": "C33",
   "status": "proved",
   "theorems": [
    "Opac.Photons.C33_transparent",
    "Opac.Photons.C33_history",
    "Opac.Photons.C33_types",
    "Opac.Photons.C33_scattering_types",
    "Opac.Photons.C33_scattering_transparent",
    "Opac.Photons.C33_mean_transparent",
    "Opac.Photons.C33_mean_noGroup",
    "Opac.Neutrinos.C33_transparent",
    "Opac.Neutrinos.C33_history",
    "Opac.Neutrinos.C33_types",
    "Opac.Neutrinos.C33_scattering_types",
    "Opac.Neutrinos.C33_scattering_transparent",
    "Opac.Neutrinos.C33_mean_transparent"
   ],
   "note": "Every arithmetic."
  },
  {
   "property": "C34",
   "status": "proved",
   "theorems": [
    "Opac.Photons.C34_device",
    "Opac.Photons.C34_scattering_device",
    "Opac.Photons.C34_mean_device",
    "Opac.Neutrinos.C34_device",
    "Opac.Neutrinos.C34_scattering_device",
    "Opac.Neutrinos.C34_mean_device",
    "Opac.Photons.C34_objects"
   ],
   "note": "Every arithmetic. Device memory is modelled as a copy with equal contents (DataBox.getOnDevice)."
  },
  {
   "property": "C35",
   "status": "proved",
   "theorems": [
    "Opac.C35_radiation_types"
   ],
   "note": ""
  },
  {
   "property": "C36",
   "status": "partial",
   "theorems": [
    "Opac.Photons.C36_validation",
    "Opac.Photons.C36_rejects",
    "Opac.Photons.C36_law",
    "Opac.Photons.C36_stimulated",
    "Opac.Photons.C36_gray",
    "Opac.Photons.C36_nan_reference",
    "Opac.Photons.C36_nan_offset_false"
   ],
   "note": "NaN offsets pass the constructor checks (C36_nan_offset_false)."
  },
  {
   "property": "C37",
   "status": "proved",
   "theorems": [
    "Opac.Photons.C37_sphere",
    "Opac.Photons.C37_coefficient",
    "Opac.Photons.C37_thomson",
    "Opac.Neutrinos.C37_sphere",
    "Opac.Neutrinos.C37_coefficient"
   ],
   "note": "number density = density / mass per scatterer; Thomson scattering counts one electron per two particles"
  },
  {
   "property": "C38",
   "status": "partial",
   "theorems": [
    "Opac.Photons.C38_validation_partial",
    "Opac.Photons.C38_accepts",
    "Opac.Photons.C38_false",
    "Opac.Photons.C38_nan_reference",
    "Opac.Photons.C38_nan_false"
   ],
   "note": "false: the reference density is never checked (the frequency is checked twice), and NaN offsets are accepted"
  },
  {
   "property": "C39",
   "status": "partial",
   "theorems": [
    "Opac.C39_ratio",
    "Opac.C39_ratio_finite",
    "Opac.C39_make_positive",
    "Opac.C39_make_bounded_partial",
    "Opac.C39_make_bounded_false"
   ],
   "note": "make_bounded fails for negative upper bounds"
  },
  {
   "property": "C40",
   "status": "proved",
   "theorems": [
    "Opac.Props.C40_polynomial",
    "Opac.Props.C40_cos",
    "Opac.Props.C40_undefined",
    "Opac.Props.C40_recurrence"
   ],
   "note": "polynomial and cosine laws over the reals; recurrence and undefined orders in every arithmetic. The largest int is undefined too (loop counter overflow)"
  },
  {
   "property": "C41",
   "status": "proved",
   "theorems": [
    "Opac.Props.C41",
    "Opac.Props.C41_cells",
    "Opac.Props.C41_asserts",
    "Opac.Props.C41_overflow"
   ],
   "note": "for every n whose double fits an int; beyond that 2*npoints overflows (C41_overflow)"
  },
  {
   "property": "C42",
   "status": "proved",
   "theorems": [
    "Opac.Props.C42_product",
    "Opac.Props.C42_nodes",
    "Opac.Props.C42_polynomials",
    "Opac.Props.C42_inverse",
    "Opac.Props.C42_tables",
    "Opac.Props.C42_fine_tables",
    "Opac.Props.C42_shipped",
    "Opac.Props.C42_vmbox",
    "Opac.Props.C42_inplace_false"
   ],
   "note": "over the reals; all eight shipped tables are within 5e-15 of the exact inverse. The arrays must not overlap (C42_inplace_false)"
  },
  {
   "property": "C43",
   "status": "partial",
   "theorems": [
    "Opac.Props.C43_access",
    "Opac.Props.C43_identity",
    "Opac.Props.C43_linear",
    "Opac.Props.C43_loglinear_hull",
    "Opac.Props.C43_loglinear_partial",
    "Opac.Props.C43_loglinear_false",
    "Opac.Props.C43_logcheb_partial",
    "Opac.Props.C43_logcheb_shipped_partial"
   ],
   "note": "element access in every arithmetic and the linear indexer exactly; the logarithmic indexers compute their logarithms in single precision (BDMath::log10 takes and returns float), so they reproduce their data only up to a proved error, and exactness fails (C43_loglinear_false)"
  },
  {
   "property": "C44",
   "status": "partial",
   "theorems": [
    "Opac.C44_relations",
    "Opac.C44_cgs",
    "Opac.C44_cgs_values",
    "Opac.C44_si",
    "Opac.C44_unity",
    "Opac.C44_sigma0_value",
    "Opac.C44_sigma0_false"
   ],
   "note": "the relations hold for every conversion; the weak cross section is 1.76e-68, not 1.76e-44"
  },
  {
   "property": "C45",
   "status": "proved",
   "theorems": [
    "Opac.C45_equality",
    "Opac.C45_sensitive"
   ],
   "note": "the code defines no operator!=, so the statement is about operator== only"
  },
  {
   "property": "C46",
   "status": "proved",
   "theorems": [
    "Opac.Neutrinos.C46_tophat"
   ],
   "note": ""
  },
  {
   "property": "C47",
   "status": "partial",
   "theorems": [
    "Opac.Neutrinos.C47_brt_partial",
    "Opac.Neutrinos.C47_number_false"
   ],
   "note": "the number emissivity does not look at the species (C47_number_false)"
  },
  {
   "property": "C48",
   "status": "partial",
   "theorems": [
    "Opac.Neutrinos.SpinerOpacity.C48_emissivity",
    "Opac.Neutrinos.SpinerOpacity.C48_number",
    "Opac.Neutrinos.SpinerOpacity.C48_spectral",
    "Opac.Neutrinos.SpinerOpacity.C48_absorption_partial",
    "Opac.Neutrinos.SpinerOpacity.C48_gray",
    "Opac.Neutrinos.SpinerOpacity.C48_absorption_false"
   ],
   "note": "emissivities: proved. Absorption: the constructor hands the source a temperature in MeV, so the claim is false for temperature dependent absorption (C48_absorption_false) and proved for the rest"
  },
  {
   "property": "C49",
   "status": "proved",
   "theorems": [
    "Opac.Neutrinos.SpinerOpacity.C49",
    "Opac.Neutrinos.SpinerOpacity.C49_cycle",
    "Opac.Neutrinos.MeanTables.C49_means"
   ],
   "note": "in every arithmetic"
  },
  {
   "property": "C50",
   "status": "partial",
   "theorems": [
    "Opac.Neutrinos.SpinerOpacity.C50_false",
    "Opac.Neutrinos.SpinerOpacity.C50_missing_partial",
    "Opac.Neutrinos.SpinerOpacity.C50_swapped"
   ],
   "note": "false of the code: loading any complete file reads uninitialised storage, and the absorption opacities overwrite the emissivities. Proved: missing data never loads"
  },
  {
   "property": "C51",
   "status": "partial",
   "theorems": [
    "Opac.Neutrinos.SpinerOpacity.C51_partial",
    "Opac.Neutrinos.SpinerOpacity.C51_false"
   ],
   "note": "the totals are the Riemann sums divided by ln 10"
  },
  {
   "property": "C52",
   "status": "partial",
   "theorems": [
    "Opac.Neutrinos.MeanTables.C52_absorption",
    "Opac.Neutrinos.MeanTables.C52_scattering_partial",
    "Opac.Neutrinos.MeanTables.C52_absorption_between",
    "Opac.Neutrinos.MeanTables.C52_scattering_between",
    "Opac.Neutrinos.MeanTables.C52_gray_absorption",
    "Opac.Neutrinos.MeanTables.C52_gray_scattering",
    "Opac.Neutrinos.MeanTables.C52_false"
   ],
   "note": "proved for mean absorption opacities; mean scattering opacities always use 100 frequencies, whatever number is asked for (C52_false)"
  },
  {
   "property": "C53",
   "status": "partial",
   "theorems": [
    "Opac.Photons.C53_photons",
    "Opac.Neutrinos.C53_gray",
    "Opac.Neutrinos.C53_brt",
    "Opac.Neutrinos.C53_tophat_partial",
    "Opac.Neutrinos.C53_tophat_false"
   ],
   "note": "false of the top hat: 0.04/cm of absorption where nothing is emitted and the thermal spectrum is tiny"
  },
  {
   "property": "C54",
   "status": "partial",
   "theorems": [
    "Opac.Photons.C54_spectrum_false",
    "Opac.Photons.C54_derivative_false",
    "Opac.Photons.C54_emissivity_false",
    "Opac.Photons.C54_spectrum_partial",
    "Opac.Photons.C54_derivative_partial",
    "Opac.Photons.C54_overflow_false",
    "Opac.Neutrinos.C54_spectrum_partial",
    "Opac.Neutrinos.C54_derivative_partial"
   ],
   "note": "false of photons at zero frequency and, in doubles, where the cube of the frequency overflows; proved where nothing over- or underflows (neutrinos: including zero frequency)"
  },
  {
   "property": "C55",
   "status": "proved",
   "theorems": [
    "Opac.Photons.C55_bremsstrahlung"
   ],
   "note": ""
  },
  {
   "property": "C56",
   "status": "proved",
   "theorems": [
    "Opac.Tables.C56_continuous",
    "Opac.Tables.filled_proper",
    "Opac.Tables.means_proper",
    "Opac.Tables.scattering_means_proper"
   ],
   "note": "over the reals; the *_proper theorems show that the tables the library builds meet the hypothesis"
  },
  {
   "property": "C57",
   "status": "proved",
   "theorems": [
    "Opac.Tables.C57_between",
    "Opac.Tables.C57_positive"
   ],
   "note": "over the reals"
  },
  {
   "property": "C58",
   "status": "proved",
   "theorems": [
    "Opac.Tables.C58_monotone",
    "Opac.Tables.C58_filled_density"
   ],
   "note": "over the reals"
  },
  {
   "property": "C59",
   "status": "proved",
   "theorems": [
    "Opac.Tables.C59_extrapolation"
   ],
   "note": "over the reals"
  },
  {
   "property": "C60",
   "status": "proved",
   "theorems": [
    "Opac.Files.C60_origin",
    "Opac.Files.C60_latest"
   ],
   "note": "HDF5 as modelled in Model/Hdf: a dataset is there completely or not at all"
  },
  {
   "property": "C61",
   "status": "partial",
   "theorems": [
    "Opac.Photons.C61_planck_monotone",
    "Opac.Photons.C61_planck_linear",
    "Opac.Photons.C61_rosseland_partial",
    "Opac.Photons.C61_rosseland_false",
    "Opac.Tables.C61_neutrino_planck_monotone",
    "Opac.Tables.C61_neutrino_planck_linear",
    "Opac.Tables.C61_neutrino_rosseland_partial"
   ],
   "note": "Planck means of photons and neutrinos, absorption and scattering: proved. Rosseland means are not monotone, samples at or below a threshold being skipped; monotone if all samples are above it and the total weight of the group is not lost to the threshold"
  },
  {
   "property": "C62",
   "status": "partial",
   "theorems": [
    "Opac.Photons.C62_float",
    "Opac.Photons.C62_exact",
    "Opac.Photons.C62_scattering_float",
    "Opac.Photons.C62_scattering_exact",
    "Opac.Photons.C62_mean_float",
    "Opac.Photons.C62_mean_scattering_float",
    "Opac.Neutrinos.C62_float_partial",
    "Opac.Neutrinos.C62_exact_partial",
    "Opac.Neutrinos.C62_scattering_float",
    "Opac.Neutrinos.C62_scattering_exact",
    "Opac.Neutrinos.C62_mean_float",
    "Opac.Neutrinos.C62_mean_scattering_float",
    "Opac.Photons.C62_signed",
    "Opac.Photons.C62_scattering_signed",
    "Opac.Photons.C62_mean_signed",
    "Opac.Photons.C62_mean_scattering_signed",
    "Opac.Neutrinos.C62_signed_partial",
    "Opac.Neutrinos.C62_scattering_signed",
    "Opac.Neutrinos.C62_mean_signed",
    "Opac.Neutrinos.C62_mean_scattering_signed",
    "Opac.SZ.C62_agrees",
    "Opac.Neutrinos.C62_tophat_false"
   ],
   "note": "photons, scattering and means: proved, with a single zero and, in the *_signed theorems, with signed zeros. Neutrinos: for Ye <= 1/2; the tophat emissivity of electron antineutrinos is negative above"
  },
  {
   "property": "C63",
   "status": "partial",
   "theorems": [
    "Opac.Props.C63_monotone",
    "Opac.Props.C63_accuracy",
    "Opac.Props.C63_float",
    "Opac.Props.C63_one",
    "Opac.Props.C63_distinguishes_false",
    "Opac.Props.C63_range_false"
   ],
   "note": "monotone and accurate to single precision over the normal range of float; as a logarithm of double-precision frequencies it does not distinguish close values and is infinite outside the range of float"
  },
  {
   "property": "C64",
   "status": "partial",
   "theorems": [
    "Opac.Lifetimes.C64_values",
    "Opac.Lifetimes.C64_released_partial",
    "Opac.Lifetimes.C64_nulib_false",
    "Opac.Lifetimes.C64_abort_false",
    "Opac.Lifetimes.C64_copy_false"
   ],
   "note": "values: proved for all programs that follow the rules. Releasing: proved when constructors and saves complete and no NuLib file is loaded; false otherwise"
  },
  {
   "property": "C65",
   "status": "partial",
   "theorems": [
    "Opac.C65_constants",
    "Opac.Photons.C65_spectral",
    "Opac.Photons.C65_planck",
    "Opac.Photons.C65_derivative_partial",
    "Opac.Photons.C65_emissivity",
    "Opac.Photons.C65_number",
    "Opac.Photons.C65_totals",
    "Opac.Photons.C65_vector",
    "Opac.Photons.C65_scattering",
    "Opac.Photons.C65_double",
    "Opac.Neutrinos.C65_spectral",
    "Opac.Neutrinos.C65_fermi",
    "Opac.Neutrinos.C65_derivative_partial",
    "Opac.Neutrinos.C65_emissivity",
    "Opac.Neutrinos.C65_totals",
    "Opac.Neutrinos.C65_scattering",
    "Opac.Neutrinos.C65_tophat_false"
   ],
   "note": "constants, thermal distributions, absorption, emission and scattering: proved, for any rounding without overflow and underflow. Tables are C68, means C69 and C70. Missing: the temperature derivative of the thermal distributions in a unit wrapper; false for the tophat in a unit wrapper, where rounding can move a frequency across an edge"
  },
  {
   "property": "C66",
   "status": "partial",
   "theorems": [
    "Opac.Photons.C66_planck",
    "Opac.Photons.C66_rosseland",
    "Opac.Photons.C66_whole_group",
    "Opac.Photons.C66_exact",
    "Opac.Photons.C66_bremsstrahlung",
    "Opac.Neutrinos.MeanTables.C66_absorption",
    "Opac.Neutrinos.MeanTables.C66_tophat",
    "Opac.Neutrinos.MeanTables.C66_scattering_false",
    "Opac.Tables.C66_lookup",
    "Opac.Tables.C66_planck_everywhere",
    "Opac.Tables.C66_rosseland_everywhere"
   ],
   "note": "photon absorption and scattering means and neutrino absorption means, at every density, temperature and electron fraction: proved over the reals; Rosseland means where the coefficient is above the floor of 1e-307. False for neutrino scattering, where the number of frequencies is ignored"
  },
  {
   "property": "C67",
   "status": "partial",
   "theorems": [
    "Opac.Photons.C67_spectral",
    "Opac.Photons.C67_planck",
    "Opac.Photons.C67_derivative_partial",
    "Opac.Photons.C67_emissivity",
    "Opac.Photons.C67_number",
    "Opac.Photons.C67_totals",
    "Opac.Photons.C67_temperature",
    "Opac.Photons.C67_vector",
    "Opac.Photons.C67_extreme_false",
    "Opac.Photons.C67_scattering",
    "Opac.Neutrinos.C67_spectral",
    "Opac.Neutrinos.C67_fermi",
    "Opac.Neutrinos.C67_derivative_partial",
    "Opac.Neutrinos.C67_emissivity",
    "Opac.Neutrinos.C67_totals",
    "Opac.Neutrinos.C67_temperature",
    "Opac.Neutrinos.C67_scattering"
   ],
   "note": "absorption, emission and scattering of photons and neutrinos: proved, with correctly rounded library functions. Missing: the temperature derivative in code units (which is wrong in exact arithmetic already). False at large h nu/kT"
  },
  {
   "property": "C68",
   "status": "proved",
   "theorems": [
    "Opac.Tables.C68_lookup",
    "Opac.Tables.C68_double"
   ],
   "note": "for any rounding without overflow and underflow; states inside the table"
  },
  {
   "property": "C69",
   "status": "proved",
   "theorems": [
    "Opac.Photons.C69_absorption",
    "Opac.Photons.C69_scattering",
    "Opac.Photons.C69_double",
    "Opac.Photons.C69_narrow_false"
   ],
   "note": "for any rounding without overflow and underflow; windows away from the values at which they switch, tables of bounded slope. C69_narrow_false: a group between neighbouring numbers is accepted and gets a mean of zero"
  },
  {
   "property": "C70",
   "status": "proved",
   "theorems": [
    "Opac.Neutrinos.C70_absorption",
    "Opac.Neutrinos.C70_absorption_auto",
    "Opac.Neutrinos.C70_scattering",
    "Opac.Neutrinos.C70_scattering_auto",
    "Opac.Neutrinos.C70_double"
   ],
   "note": "for any rounding without overflow and underflow; tables of bounded slope; Rosseland means when no comparison with the floor is within a factor of two of it"
  },
  {
   "property": "C71",
   "status": "proved",
   "theorems": [
    "Opac.Tables.C71_lookup",
    "Opac.Tables.C71_conversion",
    "Opac.Tables.C71_conversion_false"
   ],
   "note": "IEEE double precision with a correctly rounded library; C71_conversion_false shows that for infinite and NaN densities the conversion is undefined behaviour"
  },
  {
   "property": "C72",
   "status": "proved",
   "theorems": [
    "Opac.Tables.C72_photons",
    "Opac.Tables.C72_photon_scattering",
    "Opac.Tables.C72_neutrino_means",
    "Opac.Tables.C72_neutrino_scattering_means",
    "Opac.Tables.C72_tabulated",
    "Opac.Tables.C72_photons_single",
    "Opac.Tables.C72_photon_scattering_single",
    "Opac.Tables.C72_tabulated_false",
    "Opac.Tables.C72_neutrino_means_false"
   ],
   "note": "the *_false theorems exhibit the tables with a single node that are built although every lookup in them uses an index outside the table; the conversion of coordinates to int is the subject of C71"
  },
  {
   "property": "C73",
   "status": "proved",
   "theorems": [
    "Opac.Photons.C73_tables",
    "Opac.Photons.C73_absorption",
    "Opac.Photons.C73_scattering",
    "Opac.Photons.C73_gray_ordinary",
    "Opac.Photons.C73_gray_scattering_ordinary",
    "Opac.Photons.C73_thomson_ordinary",
    "Opac.Photons.C73_huge_bound_false",
    "Opac.Neutrinos.C73_absorption",
    "Opac.Neutrinos.C73_scattering",
    "Opac.Neutrinos.C73_spectra_ordinary",
    "Opac.Neutrinos.C73_gray_ordinary",
    "Opac.Neutrinos.C73_brt_ordinary",
    "Opac.Neutrinos.C73_gray_scattering_ordinary",
    "Opac.Neutrinos.C73_tophat_false"
   ],
   "note": "IEEE binary64; C73_huge_bound_false and C73_tophat_false show the aborts for a huge finite bound and for a tophat far above the temperature"
  },
  {
   "property": "C74",
   "status": "proved",
   "theorems": [
    "Opac.Photons.C74_tables",
    "Opac.Photons.C74_absorption",
    "Opac.Photons.C74_scattering",
    "Opac.Neutrinos.C74_absorption",
    "Opac.Neutrinos.C74_scattering"
   ],
   "note": ""
  },
  {
   "property": "C75",
   "status": "proved",
   "theorems": [
    "Opac.Photons.C75_tables",
    "Opac.Photons.C75_absorption",
    "Opac.Photons.C75_scattering",
    "Opac.Photons.C75_gray_opaque",
    "Opac.Photons.C75_gray_scattering_opaque",
    "Opac.Photons.C75_thomson_opaque",
    "Opac.Neutrinos.C75_absorption",
    "Opac.Neutrinos.C75_scattering"
   ],
   "note": "IEEE double precision with a correctly rounded library"
  },
  {
   "property": "C76",
   "status": "partial",
   "theorems": [
    "Opac.Photons.C76_absorption",
    "Opac.Photons.C76_scattering",
    "Opac.Photons.C76_tables",
    "Opac.Photons.C76_file",
    "Opac.Photons.C76_save",
    "Opac.Photons.C76_answers",
    "Opac.Photons.C76_scattering_answers",
    "Opac.Neutrinos.C76_absorption",
    "Opac.Neutrinos.C76_scattering",
    "Opac.Neutrinos.C76_file",
    "Opac.Neutrinos.C76_answers",
    "Opac.Neutrinos.C76_scattering_answers",
    "Opac.Neutrinos.C76_tabulated",
    "Opac.Neutrinos.C76_tabulated_file",
    "Opac.Neutrinos.C76_tabulated_answers",
    "Opac.Neutrinos.C76_nulib_partial"
   ],
   "note": "every constructor but one, for every number type. False for NuLib files, whose reader uses an array it never wrote (C50_false, C50_swapped); C76_nulib_partial shows that this array is the only such dependence"
  },
  {
   "property": "C77",
   "status": "partial",
   "theorems": [
    "Opac.Photons.C77_nodes",
    "Opac.Photons.C77_scattering_nodes",
    "Opac.Photons.C77_groups",
    "Opac.Photons.C77_scattering_groups",
    "Opac.Photons.C77_single",
    "Opac.Photons.C77_scattering_single",
    "Opac.Neutrinos.C77_nodes",
    "Opac.Neutrinos.C77_nodes_auto",
    "Opac.Neutrinos.C77_scattering_nodes",
    "Opac.Neutrinos.MeanTables.C77_auto_false"
   ],
   "note": "C77_auto_false: with the default frequency window, neutrino answers at a node change when a temperature is added to the table; everything else holds"
  },
  {
   "property": "C78",
   "status": "proved",
   "theorems": [
    "Opac.Photons.C78_scaling",
    "Opac.Photons.C78_peak",
    "Opac.Photons.C78_weights",
    "Opac.Neutrinos.C78_scaling",
    "Opac.Neutrinos.C78_peak",
    "Opac.Neutrinos.C78_weights"
   ],
   "note": "the weights for opacities without unit wrapper, whose temperature derivative is wrong (C17_false)"
  },
  {
   "property": "C79",
   "status": "proved",
   "theorems": [
    "Opac.Photons.C79_planck",
    "Opac.Photons.C79_rosseland",
    "Opac.Photons.C79_bremsstrahlung"
   ],
   "note": "photon Planck and Rosseland means at the nodes, as the number of frequencies grows, in exact arithmetic; up to the floor of 1e-307"
  },
  {
   "property": "C80",
   "status": "partial",
   "theorems": [
    "Opac.Photons.C80_absorption",
    "Opac.Photons.C80_scattering",
    "Opac.Neutrinos.MeanTables.C80_count_false",
    "Opac.Neutrinos.MeanTables.C80_window_false"
   ],
   "note": "Photons: proved, in every arithmetic and for all arguments.  False for neutrinos: a number of frequencies that is not positive is accepted and gives a table of zeros for every opacity, and so does, for the Rosseland mean, a window whose upper end is not above its lower end.  Neutrino scattering ignores the requested number (C52_false)."
  },
  {
   "property": "C81",
   "status": "partial",
   "theorems": [
    "Opac.Photons.C81_planck",
    "Opac.Photons.C81_bremsstrahlung",
    "Opac.Photons.C81_default_false"
   ],
   "note": "Proved if the Planck mean is asked for: at the nodes, as the number of frequencies grows, in exact arithmetic.  False with the default mean: Emissivity then uses the Rosseland mean, and for bremsstrahlung returns less than an eleventh of the emission."
  },
  {
   "property": "C82",
   "status": "partial",
   "theorems": [
    "Opac.Photons.C82_planck_partial",
    "Opac.Photons.C82_rosseland_partial",
    "Opac.Photons.C82_false"
   ],
   "note": "Proved for group bounds inside of the thermal range (10^-3 to 10^3 kT/h): at the nodes, as the number of frequencies grows, in exact arithmetic, up to the floor of the divisors; Rosseland means of coefficients above the floor.  False for bounds below the thermal range: there the union is not sampled but its parts are, and the Planck mean of bremsstrahlung over the union is below those of both parts."
  },
  {
   "property": "C83",
   "status": "proved",
   "theorems": [
    "Opac.Photons.C83_planck"
   ],
   "note": "Photon absorption and scattering, every acceptable list of bounds, at the nodes, as the number of frequencies grows, in exact arithmetic.  The error is relative to the largest coefficient."
  },
  {
   "property": "C84",
   "status": "proved",
   "theorems": [
    "Opac.Neutrinos.MeanTables.C84_window",
    "Opac.Neutrinos.MeanTables.C84_planck"
   ],
   "note": "Neutrino absorption, any source with the library's thermal distribution and a bounded coefficient, at the nodes, as the number of frequencies grows, in exact arithmetic.  The default constructor fixes 100 frequencies: the statement is about its window, asked for with more frequencies.  Scattering means ignore the number of frequencies (C66_scattering_false)."
  },
  {
   "property": "C85",
   "status": "proved",
   "theorems": [
    "Opac.Photons.C85_photon",
    "Opac.Neutrinos.MeanTables.C85_neutrino"
   ],
   "note": "Exact arithmetic, at the nodes of the tables, for one photon group over the whole spectrum and for neutrino windows that contain the default one.  The coefficient must be bounded and its slope in the logarithm of the frequency must be bounded; the small floor must be negligible (shown for the CGS constants from 1 K to 1e10 K)."
  },
  {
   "property": "C86",
   "status": "proved",
   "theorems": [
    "Opac.Props.C86_data",
    "Opac.Props.C86_defined",
    "Opac.Props.C86_length",
    "Opac.Props.C86_shape",
    "Opac.Props.C86_affine",
    "Opac.Props.C86_mono",
    "Opac.Props.C86_continuous",
    "Opac.Props.C86_negative"
   ],
   "note": "Access and definedness in every arithmetic; values in exact arithmetic, with the single-precision logarithm of the log-linear indexer for any rounding that keeps the order.  Spiner's interpolation is external and modelled."
  },
  {
   "property": "C87",
   "status": "proved",
   "theorems": [
    "Opac.Photons.C87_planck",
    "Opac.Photons.C87_rosseland",
    "Opac.Neutrinos.MeanTables.C87_neutrino_absorption",
    "Opac.Neutrinos.MeanTables.C87_neutrino_scattering"
   ],
   "note": "Exact arithmetic, at the nodes of the tables.  The bound on the coefficient's change is on the sampled part of the group, or on the window, only."
  },
  {
   "property": "C88",
   "status": "proved",
   "theorems": [
    "Opac.Photons.C88_planck",
    "Opac.Photons.C88_rosseland",
    "Opac.Tables.C88_neutrino_absorption",
    "Opac.Tables.C88_neutrino_scattering",
    "Opac.Tables.C88_planck_rate",
    "Opac.Tables.C88_rosseland_rate",
    "Opac.Photons.C88_group_planck_rate",
    "Opac.Photons.C88_group_rosseland_rate"
   ],
   "note": "Exact arithmetic.  The rate at which the exact mean changes is a hypothesis; the rate theorems derive it from the source's rate, for photons in groups that the code does not clip.  States beyond the table are not covered."
  },
  {
   "property": "C89",
   "status": "proved",
   "theorems": [
    "Opac.Tables.C89_absorption",
    "Opac.Tables.C89_spectral",
    "Opac.Tables.C89_total",
    "Opac.Tables.C89_gray"
   ],
   "note": "Exact arithmetic.  The rate at which the source changes is a hypothesis, shown to hold for gray opacities.  The source's absorption is sampled with the temperature in MeV (C48); states beyond the table are not covered.  Spiner's interpolation is external and modelled."
  },
  {
   "property": "C90",
   "status": "proved",
   "theorems": [
    "Opac.Tables.C90_balance"
   ],
   "note": "Exact arithmetic.  Sources whose absorption depends on the temperature are excluded because the table samples them at a wrong temperature (C48_absorption_false); states beyond the table are not covered."
  },
  {
   "property": "C91",
   "status": "proved",
   "theorems": [
    "Opac.Photons.C91_groups_add_up",
    "Opac.Photons.C91_rosseland_groups_add_up"
   ],
   "note": "Exact arithmetic.  States inside the table, groups with finite bounds that the averaging window does not clip at any tabulated temperature, and sources whose rates of change in density, temperature and frequency are bounded.  The floor added to the state and to the means is part of the statement (SMALL).  For Rosseland means it is the mean free paths that add up, weighted with the temperature derivative of the intensities, and the opacity must exceed the floor."
  },
  {
   "property": "C92",
   "status": "proved",
   "theorems": [
    "Opac.Photons.C92_bremsstrahlung",
    "Opac.Photons.C92_powerLaw",
    "Opac.Photons.C92_bremsstrahlung_groups",
    "Opac.Photons.C92_powerLaw_groups"
   ],
   "note": "Exact arithmetic, positive densities, temperatures and frequencies.  Gray and Thomson opacities are constant per mass and need no theorem.  The corollaries for groups are stated for Planck means."
  },
  {
   "property": "C93",
   "status": "proved",
   "theorems": [
    "Opac.Tables.C93_slope",
    "Opac.Tables.C93_absorption",
    "Opac.Tables.C93_spectral",
    "Opac.Tables.C93_total"
   ],
   "note": "Exact arithmetic. The rates hold between any two states inside the table, with the floors the table adds to density, temperature and frequency; along a single axis also beyond its ends. The source is sampled for absorption with the temperature in MeV, see C48."
  },
  {
   "property": "C94",
   "status": "proved",
   "theorems": [
    "Opac.Tables.C94_budget",
    "Opac.Tables.C94_gray",
    "Opac.Tables.C94_budget_times"
   ],
   "note": "Exact arithmetic. An upper bound only: a table covers part of the spectrum, so its integral may be much smaller than the total. The factors are known from the rates of the source and the resolution; for gray sources they are explicit."
  },
  {
   "property": "C95",
   "status": "proved",
   "theorems": [
    "Opac.Tables.C95_rates",
    "Opac.Tables.C95_tables",
    "Opac.Tables.C95_changes",
    "Opac.Tables.C95_balance",
    "Opac.Tables.C95_budget"
   ],
   "note": "Exact arithmetic, electron neutrinos (the opacity of the other species is zero). The source's own temperature-independent opacity, its spectral emissivity and its closed-form totals; the factors are explicit in the table's resolution."
  },
  {
   "property": "C96",
   "status": "proved",
   "theorems": [
    "Opac.Tables.C96_emission",
    "Opac.Tables.C96_absorption",
    "Opac.Tables.C96_tophat",
    "Opac.Tables.C96_rates_needed"
   ],
   "note": "Exact arithmetic, states inside the table. Shows that the rate hypotheses of C89 cannot be dropped."
  }
 ]
}