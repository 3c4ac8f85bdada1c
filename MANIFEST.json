{
 "claims": [
  {
   "property": "C01",
   "status": "proved",
   "theorems": [
    "TNS.C01_source_type",
    "TNS.C01_rejects",
    "TNS.C01_depends_on_set_only",
    "TNS.C01_idempotent",
    "TNS.C01_default"
   ],
   "note": ""
  },
  {
   "property": "C02",
   "status": "proved",
   "theorems": [
    "TNS.C02_parse_ok_iff",
    "TNS.C02_parse_error_iff"
   ],
   "note": ""
  },
  {
   "property": "C03",
   "status": "proved",
   "theorems": [
    "TNS.C03_normalise_reaches",
    "TNS.C03_constructed_with_power"
   ],
   "note": ""
  },
  {
   "property": "C04",
   "status": "proved",
   "theorems": [
    "TNS.C04_bookkeeping"
   ],
   "note": ""
  },
  {
   "property": "C05",
   "status": "proved",
   "theorems": [
    "TNS.C05_last_wins",
    "TNS.C05_fixed_point"
   ],
   "note": ""
  },
  {
   "property": "C06",
   "status": "proved",
   "theorems": [
    "TNS.C06_one_factor",
    "TNS.C06_nonneg"
   ],
   "note": ""
  },
  {
   "property": "C07",
   "status": "proved",
   "theorems": [
    "TNS.C07_finite_when_power",
    "TNS.C07_zero_power",
    "TNS.C07_finite_iff",
    "TNS.C07_no_channel",
    "TNS.C07_after_zero",
    "TNS.C07_never_recovers"
   ],
   "note": "The unconditional guarantee is false; the theorems give the exact condition and the failing behaviour."
  },
  {
   "property": "C08",
   "status": "proved",
   "theorems": [
    "TNS.C08_source_rates",
    "TNS.C08_no_DD"
   ],
   "note": ""
  },
  {
   "property": "C09",
   "status": "proved",
   "theorems": [
    "TNS.C09_channel_independence"
   ],
   "note": ""
  },
  {
   "property": "C10",
   "status": "proved",
   "theorems": [
    "TNS.C10_closed_form",
    "TNS.C10_strength_formula",
    "TNS.C10_pointwise",
    "TNS.C10_absent",
    "TNS.C10_scaling",
    "TNS.C10_dd_branches",
    "TNS.C10_sign"
   ],
   "note": ""
  },
  {
   "property": "C11",
   "status": "proved",
   "theorems": [
    "TNS.C11_mass_defect",
    "TNS.C11_cycle",
    "TNS.C11_neutron_kinematics",
    "TNS.C11_sign",
    "TNS.C11_neutron_share",
    "TNS.C11_TT_neutron",
    "TNS.C11_power"
   ],
   "note": ""
  },
  {
   "property": "C12",
   "status": "proved",
   "theorems": [
    "TNS.C12_exact",
    "TNS.C12_nodup",
    "TNS.C12_arrays",
    "TNS.C12_polygon"
   ],
   "note": ""
  },
  {
   "property": "C13",
   "status": "proved",
   "theorems": [
    "TNS.C13_o_point",
    "TNS.C13_polygon"
   ],
   "note": ""
  },
  {
   "property": "C14",
   "status": "proved",
   "theorems": [
    "TNS.C14_disjoint",
    "TNS.C14_cover",
    "TNS.C14_polygon"
   ],
   "note": ""
  },
  {
   "property": "C15",
   "status": "proved",
   "theorems": [
    "TNS.C15_integral",
    "TNS.C15_volume",
    "TNS.C15_total"
   ],
   "note": ""
  },
  {
   "property": "C16",
   "status": "proved",
   "theorems": [
    "TNS.C16_order"
   ],
   "note": ""
  },
  {
   "property": "C17",
   "status": "proved",
   "theorems": [
    "TNS.C17_volume",
    "TNS.C17_rates",
    "TNS.C17_lcfs_volume",
    "TNS.C17_power"
   ],
   "note": "Volume and every channel's rate converge to the exact integrals (Riemann sums over the O-point lattice, any flux map continuous on the plasma); lcfs.volume is the true volume by Green's theorem for polygons with winding number 0/1."
  },
  {
   "property": "C18",
   "status": "proved",
   "theorems": [
    "TNS.C18_strengths"
   ],
   "note": ""
  },
  {
   "property": "C19",
   "status": "proved",
   "theorems": [
    "TNS.C19_normalisation_invariant"
   ],
   "note": ""
  },
  {
   "property": "C20",
   "status": "proved",
   "theorems": [
    "TNS.C20_mixture",
    "TNS.C20_channel_share"
   ],
   "note": ""
  },
  {
   "property": "C21",
   "status": "proved",
   "theorems": [
    "TNS.C21_ring"
   ],
   "note": ""
  },
  {
   "property": "C22",
   "status": "proved",
   "theorems": [
    "TNS.C22_export_emitting",
    "TNS.C22_export",
    "TNS.C22_failure",
    "TNS.C22_count",
    "TNS.C22_aneutronic",
    "TNS.C22_no_channel"
   ],
   "note": ""
  },
  {
   "property": "C23",
   "status": "proved",
   "theorems": [
    "TNS.C23_structure",
    "TNS.C23_empty"
   ],
   "note": ""
  },
  {
   "property": "C24",
   "status": "proved",
   "theorems": [
    "TNS.C24_probabilities",
    "TNS.C24_source"
   ],
   "note": ""
  },
  {
   "property": "C25",
   "status": "proved",
   "theorems": [
    "TNS.C25_fausser",
    "TNS.C25_bins_iff",
    "TNS.C25_no_gap",
    "TNS.C25_gap",
    "TNS.C25_sauter"
   ],
   "note": ""
  },
  {
   "property": "C26",
   "status": "proved",
   "theorems": [
    "TNS.C26_wrap",
    "TNS.C26_reject",
    "TNS.C26_indent",
    "TNS.C26_card"
   ],
   "note": ""
  },
  {
   "property": "C27",
   "status": "proved",
   "theorems": [
    "TNS.C27_bound",
    "TNS.C27_exceeds"
   ],
   "note": ""
  },
  {
   "property": "C28",
   "status": "proved",
   "theorems": [
    "TNS.C28_files"
   ],
   "note": ""
  },
  {
   "property": "C29",
   "status": "proved",
   "theorems": [
    "TNS.C29_header"
   ],
   "note": ""
  },
  {
   "property": "C30",
   "status": "proved",
   "theorems": [
    "TNS.C30_mean",
    "TNS.C30_zero",
    "TNS.C30_source",
    "TNS.C30_normalise"
   ],
   "note": ""
  },
  {
   "property": "C31",
   "status": "proved",
   "theorems": [
    "TNS.C31_fractions",
    "TNS.C31_nonneg"
   ],
   "note": "Exact arithmetic; sum, ratios, idempotence, rejection of a zero sum, range [0,1] for non-negative input."
  },
  {
   "property": "C32",
   "status": "proved",
   "theorems": [
    "TNS.C32_arrays",
    "TNS.C32_sum",
    "TNS.C32_lengths",
    "TNS.C32_same"
   ],
   "note": "Species = fraction x fuel at every radius for arrays; sum with a constructed composition; object-based construction gives the same value functions."
  },
  {
   "property": "C33",
   "status": "proved",
   "theorems": [
    "TNS.C33_fresh",
    "TNS.C33_isolated"
   ],
   "note": "Heap model with references; arbitrary histories of set_scale on any objects."
  },
  {
   "property": "C34",
   "status": "proved",
   "theorems": [
    "TNS.C34_scale",
    "TNS.C34_order"
   ],
   "note": "All three profile kinds, any list of scales."
  },
  {
   "property": "C35",
   "status": "proved",
   "theorems": [
    "TNS.C35_range",
    "TNS.C35_linear",
    "TNS.C35_nodes",
    "TNS.C35_bounds",
    "TNS.C35_monotone",
    "TNS.C35_outside",
    "TNS.C35_order",
    "TNS.C35_continuous"
   ],
   "note": "scipy interp1d modelled as sort + np.interp with bounds check."
  },
  {
   "property": "C36",
   "status": "proved",
   "theorems": [
    "TNS.C36_formula",
    "TNS.C36_parabolic",
    "TNS.C36_strict",
    "TNS.C36_object"
   ],
   "note": "Real powers; exponents positive (numpy and Lean differ on 0 to a negative power)."
  },
  {
   "property": "C37",
   "status": "proved",
   "theorems": [
    "TNS.C37_formula",
    "TNS.C37_values",
    "TNS.C37_continuous",
    "TNS.C37_antitone",
    "TNS.C37_bounds",
    "TNS.C37_pedestal_at_edge",
    "TNS.C37_pedestal_at_axis",
    "TNS.C37_object"
   ],
   "note": "Includes the boundary cases rho_ped >= 1 and <= 0."
  },
  {
   "property": "C38",
   "status": "proved",
   "theorems": [
    "TNS.C38_transport",
    "TNS.C38_frames",
    "TNS.C38_lengths"
   ],
   "note": "Decoded file content; the binary reader of jetto_tools is not modelled."
  },
  {
   "property": "C39",
   "status": "proved",
   "theorems": [
    "TNS.C39_accepted",
    "TNS.C39_error",
    "TNS.C39_stored"
   ],
   "note": "Exact acceptance condition, error class, stored values."
  },
  {
   "property": "C40",
   "status": "proved",
   "theorems": [
    "TNS.C40_box",
    "TNS.C40_symmetric",
    "TNS.C40_axis",
    "TNS.C40_lcfs"
   ],
   "note": "Real trigonometry; exact closedness (float rounding of sin(2 pi) is not modelled)."
  },
  {
   "property": "C41",
   "status": "proved",
   "theorems": [
    "TNS.C41_convex",
    "TNS.C41_nested",
    "TNS.C41_outboard_iff",
    "TNS.C41_inboard",
    "TNS.C41_protrudes"
   ],
   "note": "Also proved in the plane: every surface is the boundary of its convex hull, and for shifts up to half the minor radius the surfaces are strictly nested. The unrestricted claim is false for accepted shifts above half the minor radius; exact condition and witness proved."
  },
  {
   "property": "C42",
   "status": "proved",
   "theorems": [
    "TNS.C42_closed",
    "TNS.C42_no_points",
    "TNS.C42_axis_iff",
    "TNS.C42_negative_radius",
    "TNS.C42_extremes",
    "TNS.C42_box",
    "TNS.C42_mirror"
   ],
   "note": "Closedness proved for both parameterisations; the axis claim is false unless shift = squareness = 0 (n_points >= 6), proved as an equivalence; also a witness with negative radius."
  },
  {
   "property": "C43",
   "status": "proved",
   "theorems": [
    "TNS.C43_linear",
    "TNS.C43_affine",
    "TNS.C43_monotone",
    "TNS.C43_conventions"
   ],
   "note": "Both conventions."
  },
  {
   "property": "C44",
   "status": "proved",
   "theorems": [
    "TNS.C44_order",
    "TNS.C44_idempotent",
    "TNS.C44_normalised",
    "TNS.C44_map"
   ],
   "note": "In-place modification by load_eqdsk modelled as a new record."
  },
  {
   "property": "C45",
   "status": "proved",
   "theorems": [
    "TNS.C45_scale",
    "TNS.C45_centroid_third",
    "TNS.C45_area",
    "TNS.C45_centroid",
    "TNS.C45_volume",
    "TNS.C45_volume_star",
    "TNS.C45_direction",
    "TNS.C45_start",
    "TNS.C45_translate",
    "TNS.C45_negative_volume"
   ],
   "note": "Contour integrals are Mathlib interval integrals along each edge; volume = pi * sign(area) * contour integral of x^2 dz; absolute value for star-shaped polygons at non-negative radius; negative volume possible for self-intersecting polygons."
  },
  {
   "property": "C46",
   "status": "proved",
   "theorems": [
    "TNS.C46_resample"
   ],
   "note": "Polylines without zero-length segments."
  },
  {
   "property": "C47",
   "status": "proved",
   "theorems": [
    "TNS.C47_selection"
   ],
   "note": "contourpy's contours are a parameter."
  },
  {
   "property": "C48",
   "status": "proved",
   "theorems": [
    "TNS.C48_labels",
    "TNS.C48_no_radius",
    "TNS.C48_sqrt_differs"
   ],
   "note": "LINEAR labels equal the requested flux, SQRT labels its square root (finding)."
  },
  {
   "property": "C49",
   "status": "proved",
   "theorems": [
    "TNS.C49_requests",
    "TNS.C49_resampled"
   ],
   "note": "Includes the finding that an open contour is silently closed when n_points is given."
  },
  {
   "property": "C50",
   "status": "proved",
   "theorems": [
    "TNS.C50_closed",
    "TNS.C50_empty"
   ],
   "note": "Tolerance as exact decimal 1e-12."
  },
  {
   "property": "C51",
   "status": "proved",
   "theorems": [
    "TNS.C51_dispatch",
    "TNS.C51_by_name",
    "TNS.C51_empty",
    "TNS.C51_no_parameterisation"
   ],
   "note": "All methods, all parsed reactions; error classes included."
  },
  {
   "property": "C52",
   "status": "proved",
   "theorems": [
    "TNS.C52_nonpositive",
    "TNS.C52_DT",
    "TNS.C52_DDp",
    "TNS.C52_DDn",
    "TNS.C52_DDn_undefined",
    "TNS.C52_warning"
   ],
   "note": "Actual coefficients; the claim fails above the fit range for D-D (n): exact failing window proved."
  },
  {
   "property": "C53",
   "status": "proved",
   "theorems": [
    "TNS.C53_reactivity",
    "TNS.C53_cross_section",
    "TNS.C53_nonpositive"
   ],
   "note": "Actual cross-section tables, embedded and checked by the kernel."
  },
  {
   "property": "C54",
   "status": "proved",
   "theorems": [
    "TNS.C54_prepare",
    "TNS.C54_always_normalised",
    "TNS.C54_TT"
   ],
   "note": "Exact trapezoid integral 1 for every spectrum returned."
  },
  {
   "property": "C55",
   "status": "proved",
   "theorems": [
    "TNS.C55_trim",
    "TNS.C55_error",
    "TNS.C55_idempotent"
   ],
   "note": "Exact characterisation of the mask."
  },
  {
   "property": "C56",
   "status": "proved",
   "theorems": [
    "TNS.C56_TT",
    "TNS.C56_ballabio",
    "TNS.C56_auto",
    "TNS.C56_aneutronic"
   ],
   "note": "All methods and reactions."
  },
  {
   "property": "C57",
   "status": "proved",
   "theorems": [
    "TNS.C57_moments",
    "TNS.C57_spectra"
   ],
   "note": "Actual Ballabio coefficients, whole range 0 < T <= 40 keV."
  },
  {
   "property": "C58",
   "status": "proved",
   "theorems": [
    "TNS.C58_linear",
    "TNS.C58_cover",
    "TNS.C58_clip",
    "TNS.C58_energy_grid",
    "TNS.C58_positive",
    "TNS.C58_warning"
   ],
   "note": "Actual T-T table; clip outside 1..20 keV; finding: warns at the end points too."
  },
  {
   "property": "C59",
   "status": "proved",
   "theorems": [
    "TNS.C59_quiet",
    "TNS.C59_each_once",
    "TNS.C59_restores"
   ],
   "note": "Any sequence of log records and filter operations, with or without exception."
  },
  {
   "property": "C60",
   "status": "proved",
   "theorems": [
    "TNS.C60_linear",
    "TNS.C60_compose",
    "TNS.C60_round_trip",
    "TNS.C60_compatible",
    "TNS.C60_equivalence",
    "TNS.C60_factors",
    "TNS.C60_contexts",
    "TNS.C60_monotone"
   ],
   "note": ""
  },
  {
   "property": "C61",
   "status": "proved",
   "theorems": [
    "TNS.C61_lookup",
    "TNS.C61_egg"
   ],
   "note": "Arbitrary directory predicate and strings; findings about absolute paths and 'egg'."
  },
  {
   "property": "C62",
   "status": "proved",
   "theorems": [
    "TNS.C62_requested",
    "TNS.C62_all",
    "TNS.C62_explicit_all",
    "TNS.C62_warned"
   ],
   "note": "Selection and order of panels only."
  },
  {
   "property": "C63",
   "status": "proved",
   "theorems": [
    "TNS.C63_accuracy",
    "TNS.C63_cards",
    "TNS.C63_monotone",
    "TNS.C63_correctly_rounded"
   ],
   "note": ""
  },
  {
   "property": "C64",
   "status": "proved",
   "theorems": [
    "TNS.C64_nonneg",
    "TNS.C64_positive"
   ],
   "note": ""
  },
  {
   "property": "C65",
   "status": "proved",
   "theorems": [
    "TNS.C65_convex",
    "TNS.C65_convex_segment",
    "TNS.C65_within_box",
    "TNS.C65_winding",
    "TNS.C65_null_boundary"
   ],
   "note": "Model of matplotlib's crossing test (external code)."
  },
  {
   "property": "C66",
   "status": "proved",
   "theorems": [
    "TNS.C66_axis_neighbourhood",
    "TNS.C66_convex",
    "TNS.C66_foot",
    "TNS.C66_winds_once",
    "TNS.C66_axis_inside",
    "TNS.C66_never_empty",
    "TNS.C66_volume",
    "TNS.C66_sauter_winds_once",
    "TNS.C66_sauter"
   ],
   "note": ""
  },
  {
   "property": "C67",
   "status": "proved",
   "theorems": [
    "TNS.C67_file",
    "TNS.C67_no_authors",
    "TNS.C67_gaussian",
    "TNS.C67_tabular",
    "TNS.C67_header",
    "TNS.C67_cards"
   ],
   "note": "The full text; numbers in the range 1e-400..1e400 or zero, distribution numbers below 10^40. Encoding of the file not modelled."
  },
  {
   "property": "C68",
   "status": "proved",
   "theorems": [
    "TNS.C68_source"
   ],
   "note": "Finite mean temperature needed (total strength not zero), else the energy card is nan (C30)."
  },
  {
   "property": "C69",
   "status": "proved",
   "theorems": [
    "TNS.C69_TT",
    "TNS.C69_distribution",
    "TNS.C69_no_data",
    "TNS.C69_cold",
    "TNS.C69_cumulative",
    "TNS.C69_export",
    "TNS.C69_export_data"
   ],
   "note": "Finding: the densities passed to OpenMC stay per keV (area 1000 in eV); OpenMC normalises tables itself. OpenMC's rejection of a non-positive standard deviation is assumed."
  },
  {
   "property": "C70",
   "status": "proved",
   "theorems": [
    "TNS.C70_reactivity_nonneg",
    "TNS.C70_constructs",
    "TNS.C70_power",
    "TNS.C70_exports",
    "TNS.C70_pedestal",
    "TNS.C70_data",
    "TNS.C70_cold_cell"
   ],
   "note": "makeSource is Source.init with the concrete models; psi_norm between the surfaces (scipy interpolator) is an arbitrary function."
  },
  {
   "property": "C71",
   "status": "proved",
   "theorems": [
    "TNS.C71_reactivity_continuous",
    "TNS.C71_profiles",
    "TNS.C71_rates",
    "TNS.C71_normalised"
   ],
   "note": "psi_norm is any function continuous on the plasma region."
  },
  {
   "property": "C72",
   "status": "proved",
   "theorems": [
    "TNS.C72_units",
    "TNS.C72_source",
    "TNS.C72_boundary",
    "TNS.C72_lcfs",
    "TNS.C72_reuse",
    "TNS.C72_object",
    "TNS.C72_conventions",
    "TNS.C72_errors"
   ],
   "note": "RectBivariateSpline is a parameter assumed to commute with affine changes of the grid data."
  },
  {
   "property": "C73",
   "status": "proved",
   "theorems": [
    "TNS.C73_fausser_volume",
    "TNS.C73_many",
    "TNS.C73_volume_many",
    "TNS.C73_param",
    "TNS.C73_points",
    "TNS.C73_eqdsk_volume",
    "TNS.C73_surface_label",
    "TNS.C73_fausser_monotone_iff",
    "TNS.C73_fausser_monotone",
    "TNS.C73_volume_can_shrink"
   ],
   "note": ""
  },
  {
   "property": "C74",
   "status": "proved",
   "theorems": [
    "TNS.C74_power",
    "TNS.C74_rates",
    "TNS.C74_shape",
    "TNS.C74_strength",
    "TNS.C74_exact",
    "TNS.C74_binary64",
    "TNS.C74_million",
    "TNS.C74_succeeds"
   ],
   "note": "Standard model: no overflow/underflow. Reactivities, volumes and profile values are taken as the floats they are."
  },
  {
   "property": "C75",
   "status": "proved",
   "theorems": [
    "TNS.C75_moved",
    "TNS.C75_enlarged",
    "TNS.C75_denser",
    "TNS.C75_map_moved",
    "TNS.C75_map_enlarged",
    "TNS.C75_source_moved",
    "TNS.C75_source_enlarged",
    "TNS.C75_sauter_squareness"
   ],
   "note": "Exact arithmetic. psi_norm of the transformed map is assumed to be the transformed psi_norm (the interpolator's data are shown to transform)."
  },
  {
   "property": "C76",
   "status": "proved",
   "theorems": [
    "TNS.C76_hotter",
    "TNS.C76_plasma",
    "TNS.C76_DD",
    "TNS.C76_DT",
    "TNS.C76_xs_shape",
    "TNS.C76_xs_DT",
    "TNS.C76_xs",
    "TNS.C76_reactivity"
   ],
   "note": "Exact arithmetic. For the cross-section method the masses of D and T and the units are taken to the digits in which published values agree, and m_He3 at least 1.49 m_D. C76_xs_shape needs only m_T, m_He3 at least 1.49 m_D, and gives D-T up to 9.5 keV. The limits are what is proved; for D-T the true maximum is located to within the stated interval."
  },
  {
   "property": "C77",
   "status": "proved",
   "theorems": [
    "TNS.C77_mean",
    "TNS.C77_openmc",
    "TNS.C77_sdef"
   ],
   "note": "Records finding 18: the histogram is shifted by half a bin with respect to the density."
  },
  {
   "property": "C78",
   "status": "proved",
   "theorems": [
    "TNS.C78_area",
    "TNS.C78_volume",
    "TNS.C78_not_empty",
    "TNS.C78_rates",
    "TNS.C78_power"
   ],
   "note": "Quantitative companion of C17."
  },
  {
   "property": "C79",
   "status": "proved",
   "theorems": [
    "TNS.C79_sampled",
    "TNS.C79_covered",
    "TNS.C79_o_point",
    "TNS.C79_order",
    "TNS.C79_same_cells",
    "TNS.C79_returned",
    "TNS.C79_returned_sampled",
    "TNS.C79_volume"
   ],
   "note": "Assumes no overflow/underflow and no fused multiply-add."
  },
  {
   "property": "C80",
   "status": "proved",
   "theorems": [
    "TNS.C80_moments",
    "TNS.C80_openmc"
   ],
   "note": "Exact real arithmetic; the tolerances are proved bounds, not the (smaller) true errors."
  },
  {
   "property": "C81",
   "status": "proved",
   "theorems": [
    "TNS.C81_DT",
    "TNS.C81_DDn",
    "TNS.C81_DDp",
    "TNS.C81_differences",
    "TNS.C81_source"
   ],
   "note": "Exact real arithmetic. Masses and constants enter as intervals containing all published values (Measured)."
  },
  {
   "property": "C82",
   "status": "proved",
   "theorems": [
    "TNS.C82_transport",
    "TNS.C82_source",
    "TNS.C82_exports",
    "TNS.C82_limit",
    "TNS.C82_short_grid"
   ],
   "note": "The decoding of the binary JETTO file and of the EQDSK text is not modelled; scipy's spline is an arbitrary function."
  },
  {
   "property": "C83",
   "status": "proved",
   "theorems": [
    "TNS.C83_life",
    "TNS.C83_all",
    "TNS.C83_construct_raises",
    "TNS.C83_isolated",
    "TNS.C83_arrays_stay",
    "TNS.C83_exact"
   ],
   "note": "Flux maps are immutable values; user code that stores one source's array in another source is outside the model."
  },
  {
   "property": "C84",
   "status": "proved",
   "theorems": [
    "TNS.C84_same_positions",
    "TNS.C84_weights",
    "TNS.C84_text"
   ],
   "note": "The energy spectra of the two exports are different objects and compared elsewhere (C20, C69)."
  },
  {
   "property": "C85",
   "status": "proved",
   "theorems": [
    "TNS.C85_restored",
    "TNS.C85_sound",
    "TNS.C85_told",
    "TNS.C85_twice",
    "TNS.C85_told_needs_loggers"
   ],
   "note": "A step is one access to a list or a set (atomic under the interpreter lock). Every message belongs to one logger (true of the two texts in the code; `C85_told_needs_loggers` shows it is needed)."
  },
  {
   "property": "C86",
   "status": "proved",
   "theorems": [
    "TNS.C86_crash",
    "TNS.C86_returned",
    "TNS.C86_retry",
    "TNS.C86_completes",
    "TNS.C86_untouched",
    "TNS.C86_parallel",
    "TNS.C86_empty",
    "TNS.C86_same_name"
   ],
   "note": "Files are lists of characters; deletion, power failure and OSError as such are not modelled (an OSError is a kill after some flush)."
  },
  {
   "property": "C87",
   "status": "proved",
   "theorems": [
    "TNS.C87_rings",
    "TNS.C87_total",
    "TNS.C87_extent",
    "TNS.C87_succeeds",
    "TNS.C87_million",
    "TNS.C87_exact"
   ],
   "note": "No overflow or underflow; the energy distributions themselves are parameters."
  },
  {
   "property": "C88",
   "status": "proved",
   "theorems": [
    "TNS.C88_line",
    "TNS.C88_number",
    "TNS.C88_comments",
    "TNS.C88_layout",
    "TNS.C88_malformed",
    "TNS.C88_rows",
    "TNS.C88_init",
    "TNS.C88_missing",
    "TNS.C88_silent",
    "TNS.C88_files"
   ],
   "note": "The text of the T-T spectra file itself is not embedded (only its layout, C88_rows); inf, nan and underscores in numbers are not modelled."
  },
  {
   "property": "C89",
   "status": "proved",
   "theorems": [
    "TNS.C89_bins",
    "TNS.C89_files",
    "TNS.C89_header",
    "TNS.C89_sampled",
    "TNS.C89_exact",
    "TNS.C89_binary64"
   ],
   "note": "No overflow or underflow (Printable); rounding inside the energy card (keV to MeV) is not modelled."
  },
  {
   "property": "C90",
   "status": "proved",
   "theorems": [
    "TNS.C90_reactivity",
    "TNS.C90_binary64",
    "TNS.C90_strength",
    "TNS.C90_exact"
   ],
   "note": "No underflow (values below 1 eV are not bounded); the temperatures are the floats the code holds."
  },
  {
   "property": "C91",
   "status": "proved",
   "theorems": [
    "TNS.C91_state",
    "TNS.C91_finished",
    "TNS.C91_again",
    "TNS.C91_ratio",
    "TNS.C91_rates",
    "TNS.C91_single"
   ],
   "note": "Interruptions come between Python statements; an in-place numpy multiplication is one statement."
  },
  {
   "property": "C92",
   "status": "proved",
   "theorems": [
    "TNS.C92_independent",
    "TNS.C92_bystanders",
    "TNS.C92_progress",
    "TNS.C92_scaled_twice",
    "TNS.C92_lost_update"
   ],
   "note": "numpy is assumed to load and store elements in order, one at a time; the interpreter lock would only exclude some of the schedules."
  },
  {
   "property": "C93",
   "status": "proved",
   "theorems": [
    "TNS.C93_cells",
    "TNS.C93_unscaled",
    "TNS.C93_strengths",
    "TNS.C93_rates",
    "TNS.C93_succeeds",
    "TNS.C93_binary64",
    "TNS.C93_exact"
   ],
   "note": "`psi_norm` and the profile values are taken as computed. The general theorems take any accuracy of the reactivities; C93_binary64 is for the Bosch-Hale channels."
  },
  {
   "property": "C94",
   "status": "proved",
   "theorems": [
    "TNS.C94_reactivity",
    "TNS.C94_zero",
    "TNS.C94_underflow",
    "TNS.C94_binary64",
    "TNS.C94_exact",
    "TNS.C94_source",
    "TNS.C94_source_binary64"
   ],
   "note": "Constants and masses are assumed to have the right size to one digit (RoughData), which the measured ones have. Overflow is not modelled. `genfromtxt` is taken to round each decimal number once."
  },
  {
   "property": "C95",
   "status": "proved",
   "theorems": [
    "TNS.C95_openmc",
    "TNS.C95_succeeds",
    "TNS.C95_sdef",
    "TNS.C95_binary64"
   ],
   "note": "`C95_openmc`, `C95_sdef` hold for every standard-model arithmetic, `C95_binary64` gives the numbers. The printed numbers are assumed to lie between 1e-400 and 1e400 in size (or to be 0), which all finite binary64 numbers do. The profiles and the flux map are taken as computed (see C93)."
  },
  {
   "property": "C96",
   "status": "proved",
   "theorems": [
    "TNS.C96_openmc",
    "TNS.C96_positions",
    "TNS.C96_gaussian"
   ],
   "note": "OpenMC's sampling is specified as documented (Tabular linear-linear radius, Uniform height, azimuth irrelevant by symmetry; source by strength); for the package's tabular spectra only functions of the starting point are covered by a named corollary."
  },
  {
   "property": "C97",
   "status": "proved",
   "theorems": [
    "TNS.C97_undisturbed",
    "TNS.C97_bounded",
    "TNS.C97_mixed"
   ],
   "note": "Several normalisations of the exported source at once are not covered (C92 shows what they do to the object); the export computes from finite numbers only."
  },
  {
   "property": "C98",
   "status": "proved",
   "theorems": [
    "TNS.C98_file",
    "TNS.C98_run"
   ],
   "note": "The numbers on the cards before formatting (C74, C93 bound the rounding of the text). The file's spectrum is that of the mean temperature, in the limit too: it is not the mean of the spectra (finding 33)."
  },
  {
   "property": "C99",
   "status": "proved",
   "theorems": [
    "TNS.C99_normal",
    "TNS.C99_gaussian",
    "TNS.C99_modified",
    "TNS.C99_tabular",
    "TNS.C99_exact",
    "TNS.C99_binary64"
   ],
   "note": "T-T spectra (interpolated data) are not covered. No underflow: the smallest density is exp(-28.7) of the peak. `sigma_sq = 4/3 mu^2 (sqrt(f) - f)` cancels, which costs the factor 1/T in the bound for the modified Gaussian."
  },
  {
   "property": "C100",
   "status": "proved",
   "theorems": [
    "TNS.C100_conditioned",
    "TNS.C100_parabolic",
    "TNS.C100_parabolic_edge",
    "TNS.C100_pedestal_core",
    "TNS.C100_pedestal_edge",
    "TNS.C100_pedestal_at_edge",
    "TNS.C100_data",
    "TNS.C100_composition",
    "TNS.C100_agree_parabolic",
    "TNS.C100_agree_pedestal",
    "TNS.C100_agree_data",
    "TNS.C100_parameterised",
    "TNS.C100_order_parabolic",
    "TNS.C100_order_pedestal",
    "TNS.C100_exact",
    "TNS.C100_binary64_order",
    "TNS.C100_binary64",
    "TNS.C100_profiles",
    "TNS.C100_source"
   ],
   "note": "Rounding inside `psi_norm` is not covered: the flux coordinate is any function. The monotonicity theorems need a library power that is monotone in the base, which libm does not promise; the accuracy theorems do not."
  },
  {
   "property": "C101",
   "status": "proved",
   "theorems": [
    "TNS.C101_closes_fausser",
    "TNS.C101_closes_sauter",
    "TNS.C101_normalise",
    "TNS.C101_eqdsk",
    "TNS.C101_load",
    "TNS.C101_map",
    "TNS.C101_exact",
    "TNS.C101_binary64",
    "TNS.C101_parameters",
    "TNS.C101_points",
    "TNS.C101_rejects",
    "TNS.C101_sampled",
    "TNS.C101_covered",
    "TNS.C101_same_cells"
   ],
   "note": "The 2-D interpolation between scattered points (matplotlib/scipy) stays a parameter, as everywhere. `C101_rejects` is proved for the Fausser surface with z0 = 0."
  },
  {
   "property": "C102",
   "status": "proved",
   "theorems": [
    "TNS.C102_undisturbed",
    "TNS.C102_bounded",
    "TNS.C102_mixed"
   ],
   "note": "As in C28 the energy card is represented by its ion temperature. Each pass loads the cells in order."
  },
  {
   "property": "C103",
   "status": "proved",
   "theorems": [
    "TNS.C103_area",
    "TNS.C103_orientation",
    "TNS.C103_centroid",
    "TNS.C103_volume",
    "TNS.C103_dot",
    "TNS.C103_fused",
    "TNS.C103_surface",
    "TNS.C103_param_volume",
    "TNS.C103_volume_many",
    "TNS.C103_binary64",
    "TNS.C103_lost"
   ],
   "note": "No overflow or underflow. numba compiles the loops without reassociation (fastmath is off)."
  },
  {
   "property": "C104",
   "status": "proved",
   "theorems": [
    "TNS.C104_strengths",
    "TNS.C104_rates",
    "TNS.C104_sharp",
    "TNS.C104_openmc",
    "TNS.C104_sdef",
    "TNS.C104_near_pedestal",
    "TNS.C104_near_parabolic",
    "TNS.C104_near_data",
    "TNS.C104_cell",
    "TNS.C104_binary64",
    "TNS.C104_parabola",
    "TNS.C104_pedestal",
    "TNS.C104_published",
    "TNS.C104_averaged",
    "TNS.C104_reference"
   ],
   "note": "The condition numbers are upper bounds; 5300 is dominated by the factor exp(-E/T) at E = 1000 keV and T = 0.2 keV."
  },
  {
   "property": "C105",
   "status": "proved",
   "theorems": [
    "TNS.C105_rates",
    "TNS.C105_openmc",
    "TNS.C105_positions",
    "TNS.C105_gaussian"
   ],
   "note": "The interpolation of the flux grid is a parameter, assumed continuous."
  },
  {
   "property": "C106",
   "status": "proved",
   "theorems": [
    "TNS.C106_bins",
    "TNS.C106_file",
    "TNS.C106_run"
   ],
   "note": "The interpolation of the flux grid is a parameter, assumed continuous. A stretched bin (finding 2) is not excluded at a finite cell size; its share tends to 0."
  },
  {
   "property": "C107",
   "status": "proved",
   "theorems": [
    "TNS.C107_spectrum",
    "TNS.C107_openmc",
    "TNS.C107_exact",
    "TNS.C107_binary64"
   ],
   "note": "pint's scale factors are parameters accurate to ten roundings. The order of scipy's additions is that of evaluate_linear_2d."
  },
  {
   "property": "C108",
   "status": "proved",
   "theorems": [
    "TNS.C108_openmc",
    "TNS.C108_files",
    "TNS.C108_weight"
   ],
   "note": "Exact arithmetic. Sampling inside a cell is OpenMC's box sampling as in C96; the spline of EQDSK files is a parameter, continuous in position."
  },
  {
   "property": "C109",
   "status": "proved",
   "theorems": [
    "TNS.C109_published",
    "TNS.C109_gaussian",
    "TNS.C109_tables",
    "TNS.C109_profile"
   ],
   "note": "Exact arithmetic. T-T spectra have no published width and are not included."
  },
  {
   "property": "C110",
   "status": "proved",
   "theorems": [
    "TNS.C110_binary64",
    "TNS.C110_exact",
    "TNS.C110_exact_export"
   ],
   "note": "Cell temperatures above 40 keV are outside the published fits' checked range. pint's conversion factors are parameters, correct up to ten roundings."
  },
  {
   "property": "C111",
   "status": "proved",
   "theorems": [
    "TNS.C111_binary64",
    "TNS.C111_file",
    "TNS.C111_exact"
   ],
   "note": "As in C89 and C95 the numbers on the position cards are assumed to be zero or between 1e-400 and 1e400, as all doubles are. pint's conversion factors are parameters, correct up to ten roundings."
  },
  {
   "property": "C112",
   "status": "proved",
   "theorems": [
    "TNS.C112_binary64"
   ],
   "note": "Exact counterpart is C84. Reactions without neutrons (D-He3, aneutronic D-D) have no file and no weight. Hypothesis Printable as in C89/C111."
  },
  {
   "property": "C113",
   "status": "proved",
   "theorems": [
    "TNS.C113_area",
    "TNS.C113_sum",
    "TNS.C113_volume",
    "TNS.C113_binary64",
    "TNS.C113_first_order"
   ],
   "note": "The bound is relative to the power of the plasma, so it needs that power to be positive. Exact counterpart for unnormalised sources is C78."
  },
  {
   "property": "C114",
   "status": "proved",
   "theorems": [
    "TNS.C114_binary64",
    "TNS.C114_positions",
    "TNS.C114_energy"
   ],
   "note": "Spectra enter through LawOf: the quantity has to be close for every distribution that may stand for the published one. Limit without rounding: C96."
  },
  {
   "property": "C115",
   "status": "proved",
   "theorems": [
    "TNS.C115_binary64"
   ],
   "note": "Without the hypothesis on gaps bins reach across the gap and the error is not of first order in the cell side (the total weight of such bins tends to 0: C98)."
  },
  {
   "property": "C116",
   "status": "proved",
   "theorems": [
    "TNS.C116_binary64"
   ],
   "note": "The function `read` in the theorem stands for what MCNP reads from the texts; the theorem shows first that the texts of the files that occur can be read."
  },
  {
   "property": "C117",
   "status": "proved",
   "theorems": [
    "TNS.C117_binary64"
   ],
   "note": ""
  },
  {
   "property": "C118",
   "status": "proved",
   "theorems": [
    "TNS.C118_cards",
    "TNS.C118_binary64",
    "TNS.C118_text"
   ],
   "note": "Discharges the hypothesis `Printable` of C111, C112 and C115 to C117. The exponents of the modelled doubles are unbounded; real doubles lie between 1e-324 and 1e309."
  },
  {
   "property": "C119",
   "status": "proved",
   "theorems": [
    "TNS.C119_plot",
    "TNS.C119_styles",
    "TNS.C119_arrays",
    "TNS.C119_parameterisations",
    "TNS.C119_jetto"
   ],
   "note": "The list of line styles is read from matplotlib (not in /repo). Axis labels, legends and colours are not modelled."
  }
 ]
}
