{"id": "C01", "title": "Source-type normalisation", "statement": "The source_type attribute of a TokamakNeutronSource contains exactly the requested reactions, plus the proton branch of D-D whenever the neutron branch of D-D was requested; it has no duplicates and is in the fixed order D-T, D-D(n), D-D(p), T-T, D-He3. It depends only on the set of requested reactions (order and repetition of the request do not matter), and re-submitting the resulting list changes nothing. Omitting the argument means D-T, D-D (both branches) and T-T.", "quantifier": "every source_type argument: None, one reaction (enum or string), or a list of any length, order and multiplicity", "why_tests_cant": "Unboundedly many lists; tests sample five of them.", "anchors": ["tokamak_neutron_source/main.py::_parse_source_type", "tokamak_neutron_source/main.py::CUSTOM_ORDER"]}
{"id": "C02", "title": "Reaction name parsing", "statement": "A reaction given as a string resolves, after replacing every '-' by '_', to the neutronic reaction of that name if there is one, otherwise to the aneutronic reaction of that name, and otherwise raises ReactivityError; a member resolves to itself. No other string is accepted and no other exception can arise.", "quantifier": "every string and every reaction member", "why_tests_cant": "The set of strings is infinite.", "anchors": ["tokamak_neutron_source/reactions.py::_parse_reaction"]}
{"id": "C03", "title": "Normalisation reaches the requested fusion power", "statement": "After normalise_fusion_power(P) on a source whose current total fusion power is non-zero, calculate_total_fusion_power() equals P (in exact arithmetic).", "quantifier": "every source state (any reactions, any number of cells, any strengths) and every P", "why_tests_cant": "Test checks one number on a few sources.", "anchors": ["tokamak_neutron_source/main.py::TokamakNeutronSource.normalise_fusion_power", "tokamak_neutron_source/main.py::TokamakNeutronSource.calculate_total_fusion_power"]}
{"id": "C04", "title": "Rate bookkeeping invariant", "statement": "At every point of a source's life, for every reaction in source_type: num_reactions_per_second is the sum of that reaction's cell strengths, num_neutrons_per_second is that number times the neutrons per reaction (1 for D-T and D-D(n), 2 for T-T, 0 for the aneutronic branches), and no other reaction has an entry.", "quantifier": "every constructor input and every finite sequence of normalise_fusion_power calls afterwards", "why_tests_cant": "The history is unbounded.", "anchors": ["tokamak_neutron_source/main.py::TokamakNeutronSource.__init__", "tokamak_neutron_source/main.py::TokamakNeutronSource.normalise_fusion_power"]}
{"id": "C05", "title": "Last normalisation wins", "statement": "A sequence of normalise_fusion_power calls with non-zero powers ends in the same source as the last call alone; normalising to the power the source already has changes nothing.", "quantifier": "every non-empty sequence of non-zero powers, every source with non-zero power", "why_tests_cant": "Unbounded call histories.", "anchors": ["tokamak_neutron_source/main.py::TokamakNeutronSource.normalise_fusion_power"]}
{"id": "C06", "title": "Normalisation preserves the shape of the source", "statement": "normalise_fusion_power multiplies every cell strength of every reaction, every reaction rate and every neutron rate by one common factor, so all ratios between cells and between channels are preserved; positions, cell volumes and temperatures are untouched, and a positive power keeps non-negative strengths non-negative.", "quantifier": "every source, every power", "why_tests_cant": "Ratios over all pairs of cells for all sources cannot be enumerated.", "anchors": ["tokamak_neutron_source/main.py::TokamakNeutronSource.normalise_fusion_power"]}
{"id": "C07", "title": "Normalisation never leaves non-finite strengths", "statement": "normalise_fusion_power leaves only finite strengths and rates. (False of the code when the current power is zero, e.g. after normalising to 0 or for a plasma in which no requested reaction can take place: the code divides by zero and strengths become NaN/infinite, or ZeroDivisionError for an empty reaction list; the guarded version holds.) No later sequence of normalisations makes any value finite again.", "quantifier": "every source and power, including zero current power", "why_tests_cant": "The failing states are reached only by particular histories.", "anchors": ["tokamak_neutron_source/main.py::TokamakNeutronSource.normalise_fusion_power"]}
{"id": "C08", "title": "Source rate versus tritium consumption rate", "statement": "source_rate is the number of neutrons per second over all channels, source_T_rate counts one triton per D-T and two per T-T reaction, and their difference is exactly the D-D(n) reaction rate; in particular they coincide for sources without D-D.", "quantifier": "every source after every history", "why_tests_cant": "Tests use three sources.", "anchors": ["tokamak_neutron_source/main.py::TokamakNeutronSource.source_rate", "tokamak_neutron_source/main.py::TokamakNeutronSource.source_T_rate"]}
{"id": "C09", "title": "Channel independence", "statement": "Before any normalisation, the cell strengths, reaction rate and neutron rate of a reaction do not depend on which other reactions were requested.", "quantifier": "every pair of source_type requests containing the reaction, every plasma", "why_tests_cant": "Pairs of requests and plasmas are unbounded.", "anchors": ["tokamak_neutron_source/main.py::TokamakNeutronSource.__init__"]}
{"id": "C10", "title": "Density weighting", "statement": "The reaction rate density is n_X n_Y <sigma v> / (1 + delta_XY) with (X,Y) the reactants of the reaction: it is non-negative for non-negative densities, vanishes when a reactant is absent, scales with the square of a common density factor, and both D-D branches use the same pair density.", "quantifier": "all densities, temperatures, reactions and reactivity methods", "why_tests_cant": "Real-valued inputs.", "anchors": ["tokamak_neutron_source/reactivity.py::density_weighted_reactivity", "documentation/source/theory.md"]}
{"id": "C11", "title": "Energy bookkeeping of the reaction table", "statement": "Total fusion power equals the sum over channels of (reactions per second) times (energy per reaction), and the energies per reaction are consistent around reaction cycles: Q(D-T)+Q(D-D->T+p) = Q(D-He3)+Q(D-D->He3+n), for whatever nuclear masses the mass library supplies; each Q is positive exactly when reactant mass exceeds product mass.", "quantifier": "every source state; every assignment of masses", "why_tests_cant": "Depends on externally supplied masses and arbitrary sources.", "anchors": ["tokamak_neutron_source/constants.py::E_DT_FUSION", "tokamak_neutron_source/constants.py::E_DD_TP_FUSION", "tokamak_neutron_source/constants.py::E_DHE3_FUSION", "tokamak_neutron_source/main.py::TokamakNeutronSource.calculate_total_fusion_power"]}
{"id": "C12", "title": "Spatial sampling is exactly the O-point lattice inside the LCFS", "statement": "sample_space_2d returns precisely the points o_point + cell_side_length*(i,j), i and j integers, that lie inside the LCFS polygon: none missing, none extra, none repeated.", "quantifier": "every LCFS, O-point inside its bounding box, every positive cell_side_length", "why_tests_cant": "Real-valued geometry; tests only bound coordinates on four shapes.", "anchors": ["tokamak_neutron_source/space.py::sample_space_2d"]}
{"id": "C13", "title": "The O-point cell is always sampled", "statement": "If the O-point is inside the LCFS then it is itself one of the sampled cell centres, so the source has at least one cell however coarse the discretisation is.", "quantifier": "every LCFS, interior O-point, every positive cell side length", "why_tests_cant": "Must hold for every cell size.", "anchors": ["tokamak_neutron_source/space.py::sample_space_2d"]}
{"id": "C14", "title": "Cells tile the plasma", "statement": "The open square cells around distinct sampled centres are disjoint, and every point of the LCFS bounding box lies in (the closure of) a cell of the underlying grid, so any point of the plasma whose cell centre is inside the LCFS is represented exactly once.", "quantifier": "every LCFS, O-point, cell size", "why_tests_cant": "Universally quantified over points of the plane.", "anchors": ["tokamak_neutron_source/space.py::sample_space_2d"]}
{"id": "C15", "title": "Cell volumes are exact toroidal volumes", "statement": "The returned volume of each cell is the exact volume of the solid of revolution of its square, positive when the centre has positive radius, and summing it over cells adds volumes of disjoint solids.", "quantifier": "every cell", "why_tests_cant": "Real-valued.", "anchors": ["tokamak_neutron_source/space.py::sample_space_2d"]}
{"id": "C16", "title": "Sampling order", "statement": "The sampled points are listed with non-decreasing radius and, within one radius, strictly increasing height (the order the MCNP export relies on).", "quantifier": "every LCFS, O-point, cell size", "why_tests_cant": "All geometries.", "anchors": ["tokamak_neutron_source/space.py::sample_space_2d", "tokamak_neutron_source/mcnp_interface.py::write_mcnp_sdef_source"]}
{"id": "C17", "title": "Discretisation converges", "statement": "As cell_side_length tends to 0 (along any sequence) the summed cell volumes converge to the volume of the plasma (2 pi times the integral of the radius over the LCFS interior), which for an LCFS polygon that winds once around its interior is lcfs.volume; the reaction and neutron rates of a channel whose emissivity is bounded inside the LCFS and continuous in its interior converge to the volume integral of the emissivity, and the total fusion power to the corresponding sum.", "quantifier": "every bounded LCFS interior with a null boundary (shown for every polygon, C65), every such emissivity, every way for the cell size to tend to 0", "why_tests_cant": "A limit statement; tests check a 2% tolerance at three sizes.", "anchors": ["tokamak_neutron_source/space.py::sample_space_2d", "tokamak_neutron_source/main.py::TokamakNeutronSource.__init__", "documentation/source/theory.md"]}
{"id": "C18", "title": "OpenMC source strengths are normalised", "statement": "The strengths of the OpenMC sources sum to 1, each is positive, and each is the cell's neutron emission (T-T counted twice, aneutronic channels not at all) divided by the total source rate.", "quantifier": "every source with non-negative cell strengths and positive source_rate", "why_tests_cant": "All sources.", "anchors": ["tokamak_neutron_source/openmc_interface.py::make_openmc_full_combined_source", "tokamak_neutron_source/main.py::TokamakNeutronSource.to_openmc_source"]}
{"id": "C19", "title": "OpenMC export does not depend on the fusion-power normalisation", "statement": "to_openmc_source returns the same list before and after normalise_fusion_power(P) for every P>0.", "quantifier": "every source with positive power, every P>0", "why_tests_cant": "All sources and powers.", "anchors": ["tokamak_neutron_source/openmc_interface.py::make_openmc_full_combined_source", "tokamak_neutron_source/main.py::TokamakNeutronSource.normalise_fusion_power"]}
{"id": "C20", "title": "OpenMC energy mixtures are proper and complete", "statement": "Every OpenMC source carries one energy distribution per neutronic reaction emitting in that cell, with positive weights summing to 1, and summed over cells the probability of a neutron coming from a given reaction is that reaction's share of the total neutron rate.", "quantifier": "every source", "why_tests_cant": "All sources.", "anchors": ["tokamak_neutron_source/openmc_interface.py::make_openmc_full_combined_source"]}
{"id": "C21", "title": "OpenMC ring geometry", "statement": "Each OpenMC source occupies exactly its cell (centre +/- half the side length, converted to cm), and its radial density makes neutrons uniformly distributed over the volume of the toroidal ring.", "quantifier": "every ring with inner radius >= 0", "why_tests_cant": "Real-valued.", "anchors": ["tokamak_neutron_source/openmc_interface.py::make_openmc_ring_source"]}
{"id": "C22", "title": "OpenMC export lists exactly the emitting cells", "statement": "The OpenMC list has one source per cell with positive neutron emission, in sampling order, and none for other cells; a purely aneutronic source exports an empty list, and a source without any reaction channel fails with ZeroDivisionError instead of exporting.", "quantifier": "every source", "why_tests_cant": "All sources, including degenerate ones.", "anchors": ["tokamak_neutron_source/openmc_interface.py::make_openmc_full_combined_source"]}
{"id": "C23", "title": "SDEF card structure", "statement": "In every SDEF file, the radial boundary card SI3 and probability card SP3 have the same number of entries (number of distinct radii + 1, first probability 0), DS4 lists consecutive distribution numbers from 5 on, and for each listed number there is exactly one SI/SP pair, with equal entry counts.", "quantifier": "every sampled source", "why_tests_cant": "All cell arrangements.", "anchors": ["tokamak_neutron_source/mcnp_interface.py::write_mcnp_sdef_source", "tokamak_neutron_source/mcnp_interface.py::_si_sp_vertical_dist_cards"]}
{"id": "C24", "title": "SDEF probabilities reproduce the source", "statement": "Interpreting the SDEF cards (radial bin by SP3, then vertical bin by the dependent SP), the probability of each bin pair equals the corresponding cell's share of that reaction's total strength.", "quantifier": "every sampled source with positive strengths", "why_tests_cant": "All sources.", "anchors": ["tokamak_neutron_source/mcnp_interface.py::write_mcnp_sdef_source"]}
{"id": "C25", "title": "SDEF bins coincide with the cells", "statement": "The radial and vertical bins written for a cell are exactly the cell's extent in cm. (True when sampled radii and, per radius, sampled heights are contiguous; false when the LCFS is indented so that a row or column has a gap: the bin before the gap is stretched across it. For every accepted Fausser plasma, and Sauter plasma without squareness, and every cell size the bins are exactly the cells.)", "quantifier": "every sampled source, including non-convex plasmas", "why_tests_cant": "Failure needs particular geometry.", "anchors": ["tokamak_neutron_source/mcnp_interface.py::write_mcnp_sdef_source", "tokamak_neutron_source/mcnp_interface.py::_si_sp_vertical_dist_cards"]}
{"id": "C26", "title": "Card wrapping loses nothing", "statement": "Wrapping a card to several lines and reading it back as MCNP does (continuation lines joined, blanks as separators) gives the original sequence of fields; every continuation line starts with at least 6 blanks, and indents below 6 are rejected with ValueError.", "quantifier": "every list of fields and every indent", "why_tests_cant": "Unbounded field lists.", "anchors": ["tokamak_neutron_source/mcnp_interface.py::_text_wrap"]}
{"id": "C27", "title": "Card lines never exceed the maximum length", "statement": "No line produced by the card wrapper exceeds max_length (80) characters. (False of the code: continuation lines are indented after wrapping, so they may have up to max_length + indent characters; that weaker bound holds.)", "quantifier": "every list of fields", "why_tests_cant": "Unbounded field lists; fails only for particular field widths.", "anchors": ["tokamak_neutron_source/mcnp_interface.py::_text_wrap"]}
{"id": "C28", "title": "SDEF files written", "statement": "to_sdef_card writes one file per neutronic reaction of the source, none for aneutronic ones, and the file names of different reactions differ.", "quantifier": "every source", "why_tests_cant": "All subsets and orders.", "anchors": ["tokamak_neutron_source/mcnp_interface.py::write_mcnp_sdef_source"]}
{"id": "C29", "title": "SDEF header total", "statement": "The 'Total source neutrons' figure in the SDEF header equals that reaction's num_neutrons_per_second. (True for D-T and D-D, false for T-T, where the header gives the number of reactions, half the neutrons.)", "quantifier": "every source", "why_tests_cant": "All sources.", "anchors": ["tokamak_neutron_source/mcnp_interface.py::sdef_header"]}
{"id": "C30", "title": "Mean ion temperature", "statement": "The ion temperature written to the SDEF file is a strength-weighted mean: it lies between the smallest and largest cell temperature and does not change under normalisation; with zero total strength it is NaN.", "quantifier": "every non-negative strength vector", "why_tests_cant": "All vectors.", "anchors": ["tokamak_neutron_source/mcnp_interface.py::mean_ion_temp"]}
{"id": "C31", "title": "Fuel fractions sum to one", "statement": "A FractionalFuelComposition always ends up with fractions summing to 1, in the ratios given by the user, unchanged if they already summed to 1; a zero sum is rejected (ZeroDivisionError).", "quantifier": "all triples of fractions", "why_tests_cant": "Real-valued.", "anchors": ["tokamak_neutron_source/transport.py::FractionalFuelComposition.__post_init__"]}
{"id": "C32", "title": "Species densities add up to the fuel density", "statement": "For every rho, deuterium + tritium + helium-3 density equals the fuel density supplied, each species in its fraction, and building the transport from sampled arrays or from a profile object with the same data gives the same densities.", "quantifier": "every profile, composition and rho", "why_tests_cant": "Real-valued functions.", "anchors": ["tokamak_neutron_source/transport.py::TransportInformation.from_profiles", "tokamak_neutron_source/transport.py::TransportInformation.from_parameterisations"]}
{"id": "C33", "title": "Density profiles are isolated from the caller's object", "statement": "from_parameterisations does not modify the caller's density profile, and no later set_scale on the caller's profile (or on one species' profile) changes the densities of the other species; the temperature profile, in contrast, is shared with the caller.", "quantifier": "every sequence of set_scale calls on any of the objects involved", "why_tests_cant": "Unbounded mutation histories.", "anchors": ["tokamak_neutron_source/transport.py::TransportInformation.from_parameterisations", "tokamak_neutron_source/profile.py::PlasmaProfile.set_scale"]}
{"id": "C34", "title": "Scales accumulate multiplicatively", "statement": "After any sequence of set_scale calls, value(rho) is the original value times the product of the scales, for every kind of profile and every rho; the order of the calls is irrelevant.", "quantifier": "every sequence of scales, every rho, every profile kind", "why_tests_cant": "Unbounded sequences.", "anchors": ["tokamak_neutron_source/profile.py::PlasmaProfile.set_scale", "tokamak_neutron_source/profile.py::DataProfile.value", "tokamak_neutron_source/profile.py::ParabolicProfile.value", "tokamak_neutron_source/profile.py::ParabolicPedestalProfile.value"]}
{"id": "C35", "title": "Data profiles interpolate", "statement": "A data profile takes the tabulated value at each tabulated rho, stays between the values at the neighbouring data points (hence between the minimum and maximum, hence non-negative for non-negative data), is monotone when the data are, is constant outside [0,1], and raises ValueError exactly when the clipped rho is outside the tabulated range.", "quantifier": "every strictly increasing rho table with at least two points and every rho", "why_tests_cant": "Real-valued argument and arbitrary tables.", "anchors": ["tokamak_neutron_source/profile.py::DataProfile"]}
{"id": "C36", "title": "Parabolic profile", "statement": "With positive exponents the parabolic profile equals core_value at rho<=0 and 0 at rho>=1, decreases monotonically in between and stays within [0, core_value].", "quantifier": "all rho, all non-negative core values, positive alpha, beta", "why_tests_cant": "Real-valued.", "anchors": ["tokamak_neutron_source/profile.py::ParabolicProfile.value"]}
{"id": "C37", "title": "Parabolic-pedestal profile", "statement": "With 0<rho_ped<1 and positive exponents the profile equals core_value at 0, ped_value at rho_ped and sep_value at 1, is continuous, non-increasing when core>=ped>=sep, within [sep, core], and constant outside [0,1]; rho_ped=1 gives sep_value at 1 (not ped_value), and rho_ped<=0 gives ped_value at 0 (core_value is ignored).", "quantifier": "all rho and parameters", "why_tests_cant": "Real-valued.", "anchors": ["tokamak_neutron_source/profile.py::ParabolicPedestalProfile.value"]}
{"id": "C38", "title": "JETTO time slices", "statement": "load_jsp accepts frame -1 (last) and 0..n-1 and raises ValueError otherwise; all returned profiles have one more point than the file, start at rho=0 with the first tabulated value repeated, temperatures are converted from eV to keV, and helium-3 is zero.", "quantifier": "every file content with n>=1 frames, every frame number", "why_tests_cant": "All integers and arrays.", "anchors": ["tokamak_neutron_source/tools.py::load_jsp"]}
{"id": "C39", "title": "LCFS parameters accepted", "statement": "LCFSInformation is accepted exactly when r_0>0, aspect_ratio>1, kappa>=1, |delta|<=1 and |shafranov_shift|<r_0/aspect_ratio; then 0<minor_radius<r_0 and the stored shift is non-negative and below the minor radius.", "quantifier": "all parameter tuples", "why_tests_cant": "Real-valued.", "anchors": ["tokamak_neutron_source/flux.py::LCFSInformation.__post_init__"]}
{"id": "C40", "title": "Fausser flux surfaces", "statement": "Every Fausser surface for psi_norm in [0,1] is closed, has n_points points, all at positive radius, is up-down symmetric, stays within r_0 +/- a + shift and z_0 +/- kappa a, and the psi_norm=0 surface is the O-point of the flux map.", "quantifier": "all accepted LCFS parameters, psi_norm in [0,1], n_points>=1", "why_tests_cant": "Real-valued.", "anchors": ["tokamak_neutron_source/flux.py::FausserFluxSurface._single_flux_surface", "tokamak_neutron_source/flux.py::FluxMap.from_parameterisation"]}
{"id": "C41", "title": "Flux surfaces of a parameterisation do not cross", "statement": "For psi_1<psi_2 the outboard (and inboard) midplane radius of surface psi_2 is outside that of psi_1. (True exactly when the Shafranov shift is at most half the minor radius; the accepted range is up to the full minor radius, where surfaces inside the LCFS protrude through it.)", "quantifier": "all accepted LCFS parameters and pairs psi_1<psi_2 in [0,1]", "why_tests_cant": "Real-valued; fails only in part of the accepted range.", "anchors": ["tokamak_neutron_source/flux.py::FausserFluxSurface._single_flux_surface", "tokamak_neutron_source/flux.py::LCFSInformation.__post_init__", "documentation/source/equilibrium.md"]}
{"id": "C42", "title": "Sauter flux surfaces", "statement": "Every Sauter surface is closed and the psi_norm=0 surface is the O-point of the flux map. (Closedness holds; the second part is false when squareness or Shafranov shift is non-zero: the squareness term of the radius is not scaled with psi_norm and the shift is ignored by the surfaces but used for the O-point.)", "quantifier": "all accepted LCFS parameters", "why_tests_cant": "Real-valued.", "anchors": ["tokamak_neutron_source/flux.py::SauterFluxSurface._single_flux_surface", "tokamak_neutron_source/flux.py::FluxMap.from_parameterisation"]}
{"id": "C43", "title": "Flux normalisation", "statement": "normalise_psi gives 0 on axis, 1 on the boundary, is never negative, is monotone from axis to boundary, is unchanged by any affine change of the flux (including sign), and the SQRT convention is the square root of the LINEAR one.", "quantifier": "all flux values and conventions, axis flux != boundary flux", "why_tests_cant": "Real-valued.", "anchors": ["tokamak_neutron_source/flux.py::normalise_psi"]}
{"id": "C44", "title": "EQDSK sign convention", "statement": "After load_eqdsk, axis flux exceeds boundary flux whenever they differed; loading the result again changes nothing; and the normalised flux computed from the loaded data equals that of the original data.", "quantifier": "all flux maps", "why_tests_cant": "All arrays.", "anchors": ["tokamak_neutron_source/tools.py::load_eqdsk"]}
{"id": "C45", "title": "Area, centroid and volume of a closed surface", "statement": "For every closed polygon with non-zero area: area, centre of mass and volume do not depend on the direction of traversal or on the starting vertex; area is translation invariant and centroid translates with the polygon; and the volume is pi times the absolute contour integral of x^2 dz (Pappus/Green), area the absolute contour integral of x dz.", "quantifier": "all closed polygons", "why_tests_cant": "All polygons of any number of vertices.", "anchors": ["tokamak_neutron_source/tools.py::get_area_2d", "tokamak_neutron_source/tools.py::get_centroid_2d", "tokamak_neutron_source/tools.py::check_ccw", "tokamak_neutron_source/flux.py::ClosedFluxSurface.volume"]}
{"id": "C46", "title": "Resampling a flux surface", "statement": "Resampling a flux surface with n points gives n+1 points, closed exactly, starting at the original start, each on the original polyline, at equal arc-length spacing.", "quantifier": "all polylines with positive segment lengths, all n>=1", "why_tests_cant": "All polylines.", "anchors": ["tokamak_neutron_source/flux.py::interpolate_flux_surface"]}
{"id": "C47", "title": "Contour selection", "statement": "Among the contours at the requested flux the one whose mean point is closest to the O-point is returned (the first one on ties), and FluxSurfaceError is raised exactly when there is none.", "quantifier": "all lists of contours", "why_tests_cant": "All lists.", "anchors": ["tokamak_neutron_source/flux.py::find_flux_surf"]}
{"id": "C48", "title": "Parameterised flux map labels", "statement": "In a flux map built from a parameterisation, coordinate and flux arrays have equal length, the O-point has normalised flux 0, and the points of the surface returned for psi_norm=p have normalised flux p. (The last part holds for LINEAR; with SQRT they have sqrt(p).)", "quantifier": "all parameterisations, rho profiles, n_points and conventions", "why_tests_cant": "All arrays.", "anchors": ["tokamak_neutron_source/flux.py::ParameterisationInterpolator", "tokamak_neutron_source/flux.py::FluxMap.get_flux_surface"]}
{"id": "C49", "title": "Requested flux surfaces of an EQDSK map", "statement": "get_flux_surface on an EQDSK map clips the requested flux to [0,1]; at 0 (or below) it returns the zero-volume ring at the O-point; otherwise it returns a closed surface or raises FluxSurfaceError.", "quantifier": "all requested fluxes and contour sets", "why_tests_cant": "Real-valued.", "anchors": ["tokamak_neutron_source/flux.py::EQDSKFluxInterpolator.get_flux_surface", "tokamak_neutron_source/flux.py::FluxRing"]}
{"id": "C50", "title": "Closed surfaces only", "statement": "A ClosedFluxSurface is constructed exactly when both end coordinates agree within 1e-12, otherwise FluxSurfaceError is raised.", "quantifier": "all coordinate arrays", "why_tests_cant": "All arrays.", "anchors": ["tokamak_neutron_source/flux.py::is_closed", "tokamak_neutron_source/flux.py::ClosedFluxSurface.__init__"]}
{"id": "C51", "title": "Reactivity method dispatch", "statement": "For every reaction and method, reactivity() succeeds; it uses Bosch-Hale exactly when the method is not XS and the reaction has Bosch-Hale data (D-T and both D-D branches), and otherwise the cross-section integral. Asked directly for the parameterisation of a channel that has none, the library raises an error.", "quantifier": "all reactions x methods", "why_tests_cant": "Exhaustive table plus arbitrary temperatures.", "anchors": ["tokamak_neutron_source/reactivity.py::reactivity"]}
{"id": "C52", "title": "Bosch-Hale reactivity is well defined", "statement": "The Bosch-Hale reactivity is 0 for T<=0 and strictly positive for T>0: for D-T and D-D->T+p at every temperature, for D-D->He3+n up to 960 keV (it has no real value just above 966 keV, far outside its validity range). A warning is logged exactly when some temperature is outside 0.2 to 100 keV.", "quantifier": "all real temperatures", "why_tests_cant": "Real-valued.", "anchors": ["tokamak_neutron_source/reactivity.py::_reactivity_channel_bosch_hale", "tokamak_neutron_source/reactivity_data.py::BOSCH_HALE_DT_4HEN", "tokamak_neutron_source/reactivity_data.py::BOSCH_HALE_DD_3HEN", "tokamak_neutron_source/reactivity_data.py::BOSCH_HALE_DD_TP"]}
{"id": "C53", "title": "Cross-section reactivity is well defined", "statement": "The cross-section reactivity never leaves the tabulated energy range (so never raises), is strictly positive for every T>0, for all five reactions' data files; at T=0 it is NaN (unlike Bosch-Hale, which gives 0).", "quantifier": "all temperatures; the five data files", "why_tests_cant": "Real-valued; whole data tables.", "anchors": ["tokamak_neutron_source/reactivity.py::_reactivity_from_xs", "tokamak_neutron_source/reactivity_data.py::ReactionCrossSection", "tokamak_neutron_source/data/cross_sections"]}
{"id": "C54", "title": "Neutron spectra are normalised", "statement": "Every energy spectrum that is returned has non-negative values, trapezoidal integral 1, and non-zero first and last values.", "quantifier": "all tabulated densities with at least two non-zero entries, and all temperatures in the fit range", "why_tests_cant": "Real-valued.", "anchors": ["tokamak_neutron_source/energy.py::_prepare_energy_pdf", "tokamak_neutron_source/energy.py::energy_spectrum"]}
{"id": "C55", "title": "Zero trimming", "statement": "Trimming removes exactly the leading and trailing zeros (interior zeros stay), keeps energies and values aligned, changes nothing the second time, and raises EnergySpectrumError exactly for all-zero input.", "quantifier": "all vectors", "why_tests_cant": "All vectors.", "anchors": ["tokamak_neutron_source/energy.py::_trim_zero_mask"]}
{"id": "C56", "title": "Spectrum method dispatch", "statement": "For every neutronic reaction and method: D-T and D-D use the Ballabio fit unless DATA is requested (NotImplementedError); T-T always uses the tabulated data; AUTO always succeeds for neutronic reactions; for aneutronic reactions no spectrum is ever returned.", "quantifier": "all reactions x methods", "why_tests_cant": "Exhaustive table lifted to all temperatures.", "anchors": ["tokamak_neutron_source/energy.py::energy_spectrum", "tokamak_neutron_source/energy.py::_data_spectrum"]}
{"id": "C57", "title": "Ballabio spectra are well defined in the fit range", "statement": "For 0<T<=40 keV, for D-T and D-D: the mean energy exceeds E_0, the standard deviation is positive, the whole energy grid is positive, the modified-Gaussian parameters are real and positive, and the spectrum is positive everywhere and normalised.", "quantifier": "all temperatures in (0,40] keV", "why_tests_cant": "Real-valued.", "anchors": ["tokamak_neutron_source/energy_data.py::BallabioEnergySpectrum", "tokamak_neutron_source/energy.py::_modified_gaussian_energy_spectrum", "tokamak_neutron_source/energy.py::_gaussian_energy_spectrum"]}
{"id": "C58", "title": "T-T spectra clip the temperature", "statement": "The T-T spectrum is defined for every real temperature: outside (1,20) keV it is that of the nearest bound; inside it is linear between neighbouring tabulated temperatures, so non-negative, and the energy grid never changes.", "quantifier": "all temperatures", "why_tests_cant": "Real-valued.", "anchors": ["tokamak_neutron_source/energy_data.py::TTNeutronEnergyDataSpectrum.__call__"]}
{"id": "C59", "title": "Duplicate warnings are filtered, and only while exporting", "statement": "Within one export every distinct warning message of the spectrum modules is emitted exactly once, in order of first occurrence, over any interleaving of the two loggers; after the export (normal or by exception) the loggers' filters are as before.", "quantifier": "all sequences of log records and all initial filter lists", "why_tests_cant": "Unbounded sequences.", "anchors": ["tokamak_neutron_source/tools.py::WarningFilter", "tokamak_neutron_source/tools.py::QuietTTSpectrumWarnings"]}
{"id": "C60", "title": "Unit conversion", "statement": "raw_uc is linear, composes (a->b then b->c equals a->c), round-trips, and preserves order; lengths go to cm by 100 and energies keV to eV by 1000, to MeV by 1/1000; units_compatible is an equivalence relation between units, true exactly when every value converts, i.e. for equal dimensions or among energy, mass and temperature (or their rates); otherwise raw_uc raises for every value. Masses convert to energies by c^2, temperatures by k_B, and the same per unit of time.", "quantifier": "all values and compatible units", "why_tests_cant": "Real-valued.", "anchors": ["tokamak_neutron_source/constants.py::raw_uc"]}
{"id": "C61", "title": "Data directory lookup", "statement": "get_tns_path(path, subfolder) returns root/subfolder/path if it is a directory and raises ValueError otherwise. (False of the code when the installation path contains the letters 'egg' anywhere: it then returns /subfolder without checking and ignores path.)", "quantifier": "all installation roots and paths", "why_tests_cant": "All strings.", "anchors": ["tokamak_neutron_source/tools.py::get_tns_path", "tokamak_neutron_source/tools.py::_get_relpath"]}
{"id": "C62", "title": "Plot selection", "statement": "plot(reactions) plots the requested reactions that are in the source, in the requested order, and raises TNSError exactly when a request leaves none; with no argument it plots all channels.", "quantifier": "all requests", "why_tests_cant": "All lists.", "anchors": ["tokamak_neutron_source/main.py::TokamakNeutronSource.plot"]}
{"id": "C63", "title": "Numbers in the SDEF file are accurate to 6 digits", "statement": "Every number written to an SDEF card, read back, differs from the original by at most a relative 5e-6, keeps its sign and order, and zero is written as zero.", "quantifier": "all rational (hence all float) values", "why_tests_cant": "All values.", "anchors": ["tokamak_neutron_source/mcnp_interface.py::write_mcnp_sdef_source", "tokamak_neutron_source/mcnp_interface.py::_si_sp_vertical_dist_cards"]}
{"id": "C64", "title": "Physical consistency of a constructed source", "statement": "For any transport with non-negative densities, any flux map whose LCFS lies at positive radius, and reactivities that are non-negative, all strengths, rates and powers of a constructed source are non-negative, and they are positive for a reaction whose reactants are present with positive reactivity in a sampled cell.", "quantifier": "every constructor input", "why_tests_cant": "All inputs.", "anchors": ["tokamak_neutron_source/main.py::TokamakNeutronSource.__init__"]}
{"id": "C65", "title": "Point-in-polygon mask", "statement": "The even-odd crossing test behind the LCFS mask accepts no point outside the bounding box of the LCFS vertices, accepts exactly the points about which the closed polygon winds an odd number of times, and the boundary of the accepted set has zero area. For a convex polygon the accepted points are exactly those on or left of every edge, apart from those at the height of the lowest vertices.", "quantifier": "every polygon, simple or not, and every point", "why_tests_cant": "All polygons and all points.", "anchors": ["tokamak_neutron_source/space.py::sample_space_2d"]}
{"id": "C66", "title": "A parameterised plasma always gives a usable source region", "statement": "For every accepted set of plasma parameters (Fausser, or Sauter without squareness) and every number of points from 3 up, each flux surface polygon is closed, convex and traversed once anticlockwise; with at least 5 points the last closed flux surface contains the magnetic axis, so for every cell side length the sampled source contains the cell of the magnetic axis and is not empty; and as the cells shrink their volumes add up to the volume the library reports for the last closed flux surface, and their areas to its area. The enclosed region is convex, and the mid-plane foot of every enclosed point is enclosed.", "quantifier": "every accepted parameter set, every point count, every cell size", "why_tests_cant": "A continuum of shapes (negative and extreme triangularity, large shift) and of cell sizes, and a limit.", "anchors": ["tokamak_neutron_source/flux.py::FausserFluxSurface", "tokamak_neutron_source/flux.py::FluxMap.from_parameterisation", "tokamak_neutron_source/space.py::sample_space_2d"]}
{"id": "C67", "title": "An SDEF file is valid MCNP input and says what was computed", "statement": "For every reaction and every set of card values within the range of doubles, the text written to an SDEF file, read by the rules of MCNP input (comment lines, $ comments, continuation lines, 128 columns, a blank line ends the input), consists of the source card, the energy cards and the position cards of the computation, in order and complete; every number on the position cards reads back with a relative error of at most 5e-6 and without change of order. If the citation data had no author, the header would contain a blank line and no card would be read.", "quantifier": "every reaction, every list of card values of any length, every citation record", "why_tests_cant": "All card lengths, numbers and line breaks; a misplaced break or a word that is too long only shows for particular values.", "anchors": ["tokamak_neutron_source/mcnp_interface.py::write_mcnp_sdef_source", "tokamak_neutron_source/mcnp_interface.py::sdef_header", "tokamak_neutron_source/mcnp_interface.py::_text_wrap", "tokamak_neutron_source/mcnp_interface.py::_si_sp_vertical_dist_cards"]}
{"id": "C68", "title": "The distribution sampled from an SDEF file is the source", "statement": "For physical inputs, after any history of normalisations, the text of every SDEF file written, read by the rules of MCNP input as a radial histogram with dependent vertical histograms, has one ring-shaped bin per source cell in the order of the cells; the lower edges are those of the cell up to the printed precision, and the sampling probability differs from the cell's share of the reaction rate by at most 2.1e-5 of it.", "quantifier": "every source reachable from physical inputs and every file it writes", "why_tests_cant": "All plasmas and cell layouts; composition of sampling, grouping, formatting and wrapping.", "anchors": ["tokamak_neutron_source/main.py::TokamakNeutronSource.to_sdef_card", "tokamak_neutron_source/mcnp_interface.py::write_mcnp_sdef_source"]}
{"id": "C69", "title": "OpenMC energy distributions", "statement": "For every neutronic reaction, ion temperature in (0, 40] keV and method, the energy distribution handed to OpenMC is in eV: with BALLABIO_GAUSSIAN and D-T or D-D a Normal with 1000 times the published mean and standard deviation in keV (positive); otherwise a linear-linear Tabular whose energies are 1000 times those of a normalised spectrum in keV (modified Gaussian with the published moments for D-T and D-D, the data for T-T) and whose cumulative distribution, relative to its total, is that spectrum's. to_openmc_source succeeds for every physical source whose emitting cells are in that range, with one entry per emitting cell; with DATA it raises NotImplementedError exactly when some cell emits D-T or D-D neutrons, and cells or channels with zero strength never cause an exception. At zero temperature the D-T or D-D Gaussian is rejected with ValueError.", "quantifier": "every reaction, method, temperature in (0, 40] keV; every physical source and history of normalisations", "why_tests_cant": "Real temperatures and arbitrary strength arrays; which spectrum is requested depends on which cells emit.", "anchors": ["tokamak_neutron_source/openmc_interface.py::get_neutron_energy_spectrum", "tokamak_neutron_source/openmc_interface.py::make_openmc_full_combined_source", "tokamak_neutron_source/main.py::TokamakNeutronSource.to_openmc_source"]}
{"id": "C70", "title": "End to end: a plasma becomes a source of the requested power", "statement": "For physically sensible constants (positive units, masses such that every reaction is exothermic), any flux map built from an accepted parameterisation (Fausser, or Sauter without squareness; at least 5 points per surface), whatever the interpolator returns between the surfaces, any profiles with temperatures for which the requested channels have a reactivity and non-negative densities, any accepted source_type and any positive cell size: the constructor does not raise; the magnetic axis is one of its cells; the strength of every cell and channel is (product of the reactant densities, halved for like particles) x thermal reactivity at that cell's temperature x 2 pi x L^2, with x > 0, and is not negative, where the thermal reactivity is the published Bosch-Hale formula or the Maxwell average of the tabulated cross section. If the fuel burns on the axis, asking for a positive power gives exactly that power, all strengths being those of the unnormalised source times one positive factor; if besides temperatures are in (0, 40] keV, to_openmc_source succeeds with positive strengths of sum 1 and to_sdef_card writes one file per neutron-producing channel. Sensible pedestal and data profiles satisfy these assumptions. With T-T among the channels (as in the default) and the default method, one sampled cell at temperature 0 makes the strengths NaN.", "quantifier": "every set of constants, plasma shape, profile, source_type, cell size, power and interpolated flux", "why_tests_cant": "The claim composes geometry, sampling, profiles, reactivities, normalisation and both exporters over continuous inputs; tests run a few plasmas.", "anchors": ["tokamak_neutron_source/main.py::TokamakNeutronSource.__init__", "tokamak_neutron_source/main.py::TokamakNeutronSource.normalise_fusion_power", "tokamak_neutron_source/flux.py::FluxMap.from_parameterisation", "tokamak_neutron_source/reactivity.py::reactivity", "tokamak_neutron_source/transport.py::TransportInformation"]}
{"id": "C71", "title": "Grid refinement with the package's own physics", "statement": "For any continuous plasma profiles (data from axis to edge, parabolic, pedestal) with non-negative densities and temperatures at which the requested channels have a reactivity, any flux map from an accepted parameterisation (Fausser, or Sauter without squareness) and any interpolated flux that is continuous inside the LCFS: as cell_side_length tends to 0, the reaction rate of every channel tends to the integral of n1 n2 <sigma v>/(1+delta12) over the toroidal plasma volume, the neutron rate to the yield times that, the total power to the energy-weighted sum; with a requested power P (fuel burning on the axis), the rates tend to P times their share, so the discretisation has a well-defined physical limit. reactivity is a continuous function of temperature wherever it gives a number, including the approach to T = 0 for the Bosch-Hale channels.", "quantifier": "every profile, plasma shape, interpolated flux, source_type, power; cell size tending to 0 in any way", "why_tests_cant": "A limit over all grids and continuous data; a test can compare a few cell sizes.", "anchors": ["tokamak_neutron_source/main.py::TokamakNeutronSource", "tokamak_neutron_source/space.py::sample_space_2d", "tokamak_neutron_source/reactivity.py::reactivity", "tokamak_neutron_source/profile.py"]}
{"id": "C72", "title": "EQDSK flux map independent of flux units and sign", "statement": "FluxMap.from_eqdsk gives the same LCFS, magnetic axis and normalised flux (hence the same neutron source) when every flux of the file is multiplied by a non-zero factor of either sign and shifted by a constant; the flux is normalised with the outermost interpolated flux on the boundary points of the file, not with the header value, so that psi_norm on the LCFS is at most 1 and reaches 1; the call may be repeated on the same object with either convention; only files whose boundary does not close are rejected; the object passed in is left untouched if its flux falls from the axis, and otherwise has its flux replaced by psi(axis) - psi.", "quantifier": "all files, flux factors and offsets, conventions, and all affine-equivariant grid interpolations", "why_tests_cant": "real units, signs and gauges form a continuum; a test uses one file in one COCOS", "anchors": ["tokamak_neutron_source/flux.py:FluxMap.from_eqdsk", "tokamak_neutron_source/tools.py:load_eqdsk", "tokamak_neutron_source/flux.py:normalise_psi"]}
{"id": "C73", "title": "Flux surfaces and volumes of a flux map", "statement": "get_flux_surface and volume of a FluxMap treat a list of fluxes element by element; volume(0) is 0 and volume(1) is the LCFS volume of a parameterised map; EQDSK requests are clipped to [0,1]; for Fausser plasmas area and volume have a closed form in the flux, and the volume grows strictly with the flux for all nested plasmas and all aspect ratios of at least 3/2, and exactly under an explicit condition on shift and centroid; with the SQRT convention the surface returned for r is labelled sqrt(r); a parameterised surface has exactly the number of points asked for (or that of the map).", "quantifier": "all fluxes, lists of fluxes, plasma parameters and numbers of points per surface", "why_tests_cant": "monotonicity and closed forms range over a continuum of fluxes and shapes", "anchors": ["tokamak_neutron_source/flux.py:FluxMap.get_flux_surface", "tokamak_neutron_source/flux.py:FluxMap.volume", "tokamak_neutron_source/flux.py:ClosedFluxSurface.volume", "tokamak_neutron_source/flux.py:FausserFluxSurface", "tokamak_neutron_source/flux.py:ParameterisationInterpolator.get_flux_surface"]}
{"id": "C74", "title": "Normalisation and bookkeeping survive rounding", "statement": "In floating point arithmetic with unit roundoff u (every operation has relative error at most u, sums are added in any order and bracketing, no overflow or underflow), for any source built from non-negative data and any history of normalise_fusion_power calls: normalising to P succeeds if the power is not zero, and afterwards the exact power of the stored strengths is P to within 2(cells+channels+1)u and the power the source reports is P to within 4(cells+channels)u, independently of the history; all strengths and rates are multiplied by one factor up to one rounding each; after j normalisations the stored reaction rate equals the sum of the strengths to within 4(cells+j)u and the neutron rate the yield times the reaction rate to within 4(1+j)u; each constructed strength is accurate to 8u. For binary64 and up to a million cells the power is right to one part in 10^9.", "quantifier": "all rounding functions of the standard model, all summation orders, all sources and all histories of normalisations", "why_tests_cant": "Which sum order numpy uses and how errors accumulate over cells and repeated normalisations is not exercised by examples; the bound is for every input.", "anchors": ["tokamak_neutron_source/main.py::TokamakNeutronSource.normalise_fusion_power", "tokamak_neutron_source/main.py::TokamakNeutronSource.calculate_total_fusion_power", "tokamak_neutron_source/main.py::TokamakNeutronSource.__init__", "tokamak_neutron_source/reactivity.py::density_weighted_reactivity"]}
{"id": "C75", "title": "Moving, enlarging and compressing the plasma", "statement": "Moving the plasma by d along z (z_0 for a parameterised plasma) moves the source by d and changes no strength, rate, temperature or cell count. Enlarging plasma and cell side by c > 0 gives the same cells enlarged, with volumes, strengths and rates multiplied by c^3 (unchanged when a total power is requested). Multiplying all densities by n multiplies strengths and rates by n^2, and changes nothing when a total power is requested. The same inputs raise the same errors. The surfaces of a parameterised plasma (Fausser; Sauter only without squareness) and the data given to its interpolator move and scale along.", "quantifier": "all plasmas, profiles, reactivities, channels, cell sizes, powers, translations d, factors c > 0 and n != 0", "why_tests_cant": "Equality of whole sources for a continuum of transformations; sensitive to grid alignment and to boundary decisions of the point-in-polygon test.", "anchors": ["tokamak_neutron_source/space.py::sample_space_2d", "tokamak_neutron_source/main.py::TokamakNeutronSource.__init__", "tokamak_neutron_source/main.py::TokamakNeutronSource.normalise_fusion_power", "tokamak_neutron_source/flux.py::FluxMap.from_parameterisation"]}
{"id": "C76", "title": "Hotter or denser plasma never emits less", "statement": "The reactivity computed for a channel rises strictly with temperature: Bosch-Hale D-T up to 66 keV, D-D(n) up to 960 keV, D-D(p) up to 300 keV; Maxwell averages of the tabulated cross sections for D-D and T-T up to 100 keV, D-He3 up to 66 keV and D-T up to 64 keV. Either way D-T has a single broad maximum: by Bosch-Hale between 66 and 67 keV, falling from there to 1000 keV; by cross sections between 64 and 69 keV, falling from 69 keV to 100 keV. Hence a source built from profiles that are nowhere lower in temperature and densities, with temperatures below these limits and no power requested, emits at least as much in every cell and every channel, and has at least the same rates, tritium consumption and fusion power.", "quantifier": "all pairs of temperatures below the limits, all plasmas, profiles, channels and cell sizes", "why_tests_cant": "Strict monotonicity of a rational-exponential formula and of an integral over a table, over a continuum of temperatures; samples cannot exclude a dip.", "anchors": ["tokamak_neutron_source/reactivity.py::density_weighted_reactivity", "tokamak_neutron_source/reactivity.py::_reactivity_channel_bosch_hale", "tokamak_neutron_source/reactivity.py::_reactivity_from_xs", "tokamak_neutron_source/main.py::TokamakNeutronSource.__init__"]}
{"id": "C77", "title": "Mean energy of exported T-T neutrons", "statement": "At every ion temperature the tabulated T-T neutron spectrum has a mean energy between 4602 and 4634 keV, and the tabulated distribution given to OpenMC has that mean (in eV), with every method. In an SDEF file the same numbers are written as a histogram (SI2 H energies, SP2 D densities); read back from the file it has a mean that is lower by 10.45 to 10.6 keV, at every temperature.", "quantifier": "all temperatures (any real number, also outside the table), all spectrum methods, all written T-T files", "why_tests_cant": "The means are integrals over a 500-point table interpolated at a continuum of temperatures; samples cannot show that the shift never vanishes or grows.", "anchors": ["tokamak_neutron_source/energy_data.py::TTNeutronEnergyDataSpectrum", "tokamak_neutron_source/mcnp_interface.py::write_mcnp_sdef_source", "tokamak_neutron_source/openmc_interface.py::get_neutron_energy_spectrum"]}
{"id": "C78", "title": "Discretisation error", "statement": "For every closed LCFS polygon that winds once around its interior, every position of the magnetic axis and every cell side length L, the area covered by the sampled cells differs from the LCFS area by at most L^2 + L*len, where len is the length of the polygon measured along the axes; the summed cell volumes differ from the LCFS volume by at most that times the largest circumference; the rates and the power differ from the volume integrals of the emissivity by at most an explicit bound of first order in L. A plasma with area above L^2 + L*len is never missed.", "quantifier": "all polygons, all cell side lengths, all positions of the grid, all emissivities bounded and of bounded variation per half cell", "why_tests_cant": "The bound must hold for every shape and every position of the grid; a convergence test sees a few shapes at a few sizes and only suggests an order.", "anchors": ["tokamak_neutron_source/space.py::sample_space_2d", "tokamak_neutron_source/main.py::TokamakNeutronSource", "tokamak_neutron_source/flux.py::ClosedFluxSurface"]}
{"id": "C79", "title": "Sampling survives rounding", "statement": "In floating point arithmetic (each operation with relative error at most u, including those inside np.arange, the float remainder and matplotlib's crossing test) every sampled point is, up to eps = 3(2M/L+20)u(M+3L) along both axes, a lattice point through the magnetic axis; every lattice point inside the LCFS is sampled exactly once up to eps; points are only gained or lost where the LCFS passes within 2 eps of the lattice point; the magnetic axis keeps its cell; order and distinctness are kept; cell volumes have a relative error of at most 6u. If the LCFS passes near no lattice point the computed sample is the exact one entry by entry.", "quantifier": "all polygons, axes, cell side lengths resolved by the arithmetic (eps at most L/8), all roundings with relative error u (binary64 is an instance)", "why_tests_cant": "Rounding depends on every input bit; tests on a few machines and sizes cannot exclude a lost column, a duplicated cell or a mask that flips far from the boundary.", "anchors": ["tokamak_neutron_source/space.py::sample_space_2d"]}
{"id": "C80", "title": "Mean and width of the D-T and D-D spectra", "statement": "For D-T and D-D, at every temperature 0 < T <= 40 keV, the table returned by energy_spectrum with BALLABIO_GAUSSIAN, BALLABIO_M_GAUSSIAN or AUTO, read as a piecewise linear density, has unit area, a mean equal to Ballabio's mean neutron energy up to 1/300 of the width, and a standard deviation equal to Ballabio's width up to 1 %. The OpenMC distribution (in eV) is the normal distribution with exactly 1000 times these parameters, or a table with the same property.", "quantifier": "D-T and D-D, all temperatures 0 < T <= 40 keV, the three methods that use Ballabio's parameters", "why_tests_cant": "The grid is cut at 6 widths and interpolated linearly, and the modified Gaussian is only asymptotically of the given mean and variance in appearance; unit tests compare a few temperatures at loose tolerance.", "anchors": ["tokamak_neutron_source/energy.py::energy_spectrum", "tokamak_neutron_source/energy.py::_ballabio_spectrum", "tokamak_neutron_source/openmc_interface.py::get_neutron_energy_spectrum"]}
{"id": "C81", "title": "The two reactivity methods agree", "statement": "reactivity(T, r, method=XS), computed from the tabulated cross sections, and reactivity(T, r, method=BOSCH_HALE) both succeed and agree for every array of temperatures: D-T between -0.74 % and +0.36 % on 0.2 to 100 keV; D-D with a neutron between -2.55 % and +2.82 % on 0.3 to 100 keV (+11.5 % down to 0.2 keV); D-D with a proton between -1.92 % and +1.81 % on 0.6 to 100 keV (+16 % down to 0.2 keV); T-T and D-He3 are identical under every method. The bounds are close to sharp (at 0.2 keV XS exceeds Bosch-Hale by more than 11 % and 15 %). Two TokamakNeutronSource objects built from the same plasma with the two methods have the same cells and strengths, rates and powers that agree within the largest gap of the requested reactions.", "quantifier": "all arrays of temperatures in the stated ranges (a continuum), all published values of the constants, all plasmas, flux maps, source types and cell sizes", "why_tests_cant": "The repository's comparison tests evaluate 100 temperatures and bound the difference on one side only; between the samples and on the other side the difference is larger.", "anchors": ["tokamak_neutron_source/reactivity.py::reactivity", "tokamak_neutron_source/reactivity.py::_reactivity_from_cross_section", "tokamak_neutron_source/reactivity_data.py::CrossSection", "tokamak_neutron_source/reactivity_data.py::BoschHaleCoefficients", "tokamak_neutron_source/main.py::TokamakNeutronSource"]}
{"id": "C82", "title": "Sources from EQDSK and JETTO files", "statement": "For every EQDSK object with a closed boundary at positive radius around the magnetic axis and every JETTO time slice with increasing radii up to the separatrix, positive temperatures and non-negative densities: TransportInformation.from_jetto, FluxMap.from_eqdsk and TokamakNeutronSource succeed for every source type, cell size and reactivity method; the source has a cell at the magnetic axis and each cell has strength n1 n2 <sigma v>(T)/(1+delta12) times 2 pi x L^2, where densities and temperature (keV) are those of the file, linearly interpolated at the normalised flux of the cell. With D-T fuel, temperatures up to 40 keV and a positive fusion power the source has that power and both exports succeed. As the cells shrink, rates and power tend to the volume integrals over the inside of the boundary in the file. If the JETTO radii end before 1, a cell beyond the last radius makes the constructor raise ValueError.", "quantifier": "all equilibrium files, all JETTO files and frame numbers, all flux interpolations (continuous for the limit), source types, cell sizes, reactivity methods", "why_tests_cant": "The files are inputs: a test reads one or two sample files, and the combination of sampling, flux interpolation, profile interpolation and reactivity is only exercised on those.", "anchors": ["tokamak_neutron_source/transport.py::TransportInformation.from_jetto", "tokamak_neutron_source/tools.py::load_jsp", "tokamak_neutron_source/flux.py::FluxMap.from_eqdsk", "tokamak_neutron_source/main.py::TokamakNeutronSource"]}
{"id": "C83", "title": "Sources are independent objects", "statement": "In every program (any sequence of creating profiles, transports, flux maps and sources, set_scale calls, normalise_fusion_power calls and writes into strength arrays, in any order, including calls that raise), what a user reads from a source is determined by its own story alone: the source built from the profiles as they were when it was constructed, then the calls made on that source, in order. No call on another source, no other construction and no later set_scale on a profile changes it. A construction that raises adds no source and changes nothing; with no channel and a requested power it raises ZeroDivisionError. The arrays of a source keep their identity: normalisation works in place, so an array taken from source.strength stays current.", "quantifier": "all programs, i.e. all finite sequences of API calls on any number of objects", "why_tests_cant": "Aliasing between objects shows only in particular interleavings of calls on several objects; there are infinitely many, and a test that builds one source per case cannot see it.", "anchors": ["tokamak_neutron_source/main.py::TokamakNeutronSource.__init__", "tokamak_neutron_source/main.py::TokamakNeutronSource.normalise_fusion_power", "tokamak_neutron_source/profile.py::PlasmaProfile.set_scale", "tokamak_neutron_source/transport.py::TransportInformation.from_parameterisations"]}
{"id": "C84", "title": "The OpenMC and the MCNP export describe the same source", "statement": "For physical inputs, the sources returned by to_openmc_source and the files written by to_sdef_card agree on where neutrons are born and by which reaction: for every file and every cell, the sampling probability MCNP derives from the cards, times the file's share of all neutrons (header total times neutrons per reaction), equals the fraction of all neutrons OpenMC starts in the ring with the same lower corner by the same reaction; read from the printed text it does so within 2.1e-5 relative. The shares are not negative and add up to 1. (Header totals alone do not weigh the files correctly: T-T counts twice.)", "quantifier": "all sources constructible from physical inputs by any history of normalisations, all files, all cells", "why_tests_cant": "The two exporters compute cell geometry, normalisation and reaction weights by different code paths; a test compares them at one grid and one mixture at most.", "anchors": ["tokamak_neutron_source/openmc_interface.py::make_openmc_full_combined_source", "tokamak_neutron_source/mcnp_interface.py::write_mcnp_sdef_source", "tokamak_neutron_source/main.py::TokamakNeutronSource.to_openmc_source", "tokamak_neutron_source/main.py::TokamakNeutronSource.to_sdef_card"]}
{"id": "C85", "title": "OpenMC exports in several threads: filters restored, no warning lost", "statement": "If any number of threads call to_openmc_source and log in any interleaving, then, once all have returned or raised, the two loggers of the package carry exactly the filters they had before, and every warning that a thread logged and the user's own filters let through has been emitted at least once; nothing else is emitted. (That a warning appears at most once per export is not true with several threads.)", "quantifier": "all filters of the user, any number of threads, all programs of exports and log calls per thread, all interleavings of the steps on the filter lists and on the sets of messages", "why_tests_cant": "The interleavings are chosen by the interpreter; the window between asking and adding a message, and the removal of a filter while logging walks along the list, are hit by chance only.", "anchors": ["tokamak_neutron_source/tools.py::WarningFilter", "tokamak_neutron_source/tools.py::QuietTTSpectrumWarnings", "tokamak_neutron_source/openmc_interface.py::make_openmc_full_combined_source"]}
{"id": "C86", "title": "SDEF files under crashes and parallel exports", "statement": "to_sdef_card writes its files one after the other. Wherever the process is killed, and whatever other calls write other files at the same time, each file of the export is complete, as it was before, or (at most one of them) a beginning of its new text; complete ones come first. Once the call returns, every file has exactly its new text whatever earlier (also killed) exports left behind. A call that is not killed returns if it gets to run. Files with other names are never changed, and exports with different stubs never touch each other's files. With no cell the call raises before any file is opened. (Two exports at the same time with the same stub can mix their texts.)", "quantifier": "all sources, stubs and contents of the disk, any number of calls in any interleaving, every point at which a call may be killed, every way in which buffered text reaches the disk", "why_tests_cant": "Tests see completed exports in one process; crash points, partly flushed buffers and interleavings cannot be enumerated.", "anchors": ["tokamak_neutron_source/mcnp_interface.py::write_mcnp_sdef_source", "tokamak_neutron_source/main.py::TokamakNeutronSource.to_sdef_card"]}
{"id": "C87", "title": "The OpenMC export survives rounding", "statement": "With every operation of to_openmc_source rounded (relative error u per operation, sums in any order), a source built and normalised j times in the same arithmetic exports one OpenMC source per emitting cell, in the order of the cells and for no other cell. Its strength is the cell's share of all neutrons, its energy mixture has one entry per reaction emitting there, with that reaction's spectrum at the cell's temperature and its share of the cell's neutrons as weight, the weights add up to 1, and the strengths of all sources add up to 1, all up to a relative error of 4 (channels + cells + 2j) u, whatever the values are: nine digits in binary64 for a million cells. The extents are those of the cells in cm up to 4u of their distance, and the radial density is proportional to the radius up to 4u. Rounding cannot make the export raise.", "quantifier": "all arithmetics with the standard error model, all source types, strengths, temperatures, numbers of cells and histories of normalisations with a positive emission", "why_tests_cant": "Tests compare a few sources with tolerances; the accumulated rounding error for every array length, value, summation order and history cannot be enumerated.", "anchors": ["tokamak_neutron_source/openmc_interface.py::make_openmc_full_combined_source", "tokamak_neutron_source/openmc_interface.py::make_openmc_ring_source", "tokamak_neutron_source/main.py::TokamakNeutronSource.to_openmc_source"]}
{"id": "C88", "title": "Reading the cross-section files", "statement": "ReactionCrossSection(file_name) reads the text of its file as follows, for every text: comments start at #, words are separated by white space, a decimal number is read as its value; blank and comment lines before the first and after the last row do not matter; a file in the layout of the data base (rows of two numbers, then a line such as //) gives the numbers of all rows but the last, in order; a row with another number of columns, with two or more lines after it, raises ValueError if there are no comment lines between the rows; collider, target and name come from the file name; a missing file raises ReactivityError. The files of the package give exactly the tables used for the reactivities. A file without footer (T-T spectra) gives all its rows.", "quantifier": "all texts, numbers of lines and columns, file names and masses; and the five files of the package", "why_tests_cant": "Tests read the shipped files only; what happens for other texts, and that no digit of the 2300 rows is misread, cannot be enumerated by examples.", "anchors": ["tokamak_neutron_source/reactivity_data.py::ReactionCrossSection", "tokamak_neutron_source/energy_data.py::TTNeutronEnergyDataSpectrum"]}
{"id": "C89", "title": "The SDEF files survive rounding", "statement": "With every operation of to_sdef_card rounded (relative error u per operation, sums in any order) and the numbers printed with six digits, a source built and normalised in the same arithmetic gives files whose text, read by the rules of MCNP input, has one ring-shaped bin per cell, in the order of the cells. The edges are those of the cell (lower edge; upper edge where the next column or cell begins, or of the cell where there is none) up to 5.1e-6 of the distance of the cell, no bin is empty, and the sampling probability differs from the cell's share of the reaction rate by at most 2.1e-5 of it, for up to 4e8 cells in binary64. One file per neutronic reaction is written, rounding cannot make the export raise, and the header total and the mean ion temperature are accurate to 4 cells u. Cells sampled with rounding (C79) are spaced as required.", "quantifier": "all arithmetics with the standard error model and u at most 1e-9, all sources and histories of normalisations, cell sizes not below 1/40000 of the distance", "why_tests_cant": "Accumulated rounding of sums and edges, and whether columns of equal radius stay together after rounding, depend on every value of the arrays; a test sees a few grids.", "anchors": ["tokamak_neutron_source/mcnp_interface.py::write_mcnp_sdef_source", "tokamak_neutron_source/mcnp_interface.py::sdef_header", "tokamak_neutron_source/mcnp_interface.py::mean_ion_temp"]}
{"id": "C90", "title": "Bosch-Hale reactivities survive rounding", "statement": "Evaluated in floating point as the code does it (decimal coefficients rounded, every operation rounded, 1/3 rounded, exp, sqrt and ** from a library with relative error v), the Bosch-Hale reactivity of any array of temperatures never fails, is exactly 0 at non-positive temperatures, and differs from the published formula by at most 1000 v in the range of the fit (0.2 to 100 keV), 5500 v from 1 eV: 12 correct digits with binary64 and functions accurate to 2 ulp. The strength of a cell built from it is density product x published reactivity x volume up to 1010 v.", "quantifier": "all temperatures from 1 eV to 100 keV and all non-positive ones, all arrays, the three reactions with a parameterisation, all arithmetics with the standard error model and all accurate function libraries", "why_tests_cant": "Cancellation in the rational function and amplification by the exponential depend on the temperature; a test compares a few temperatures with reference values computed in the same arithmetic.", "anchors": ["tokamak_neutron_source/reactivity.py::_reactivity_channel_bosch_hale", "tokamak_neutron_source/reactivity_data.py::BoschHaleCoefficients", "tokamak_neutron_source/main.py::TokamakNeutronSource"]}
{"id": "C91", "title": "Interrupted normalisation", "statement": "If normalise_fusion_power is interrupted (KeyboardInterrupt, timeout) at any statement of its loop, the strengths of the first channels are multiplied by requested power / power, the others not, and the rates likewise statement by statement. Whatever the point, the power stays positive, the distribution over the cells of each channel is unchanged, and a later normalisation reaches the power asked for. The object is not restored, though: the ratio of the channels on both sides of the interruption stays wrong by that factor after any number of later normalisations, and the rates of the one channel being processed no longer match its strengths; all other channels keep their bookkeeping. With a single channel the strengths are those of an uninterrupted history.", "quantifier": "all reachable sources, all powers, all points of interruption, all later histories of normalisations", "why_tests_cant": "A test would have to raise at every statement and look at every later history; no test interrupts the call.", "anchors": ["tokamak_neutron_source/main.py::TokamakNeutronSource.normalise_fusion_power"]}
{"id": "C92", "title": "Normalising in several threads", "statement": "normalise_fusion_power may be called from several threads, each on its own source, also when the sources were built from the same transport and flux map: under every schedule of single loads and stores, once all calls are over every source shows exactly what it would show had the calls been made one after the other; sources on which no thread works never change; every call ends after a bounded number of its own steps. It may not be called from two threads on one source: there is always a schedule after which the power is the product of the two requests divided by the old power, and (single channel) one that loses an update of the reaction rate, which then is not the sum of the strengths.", "quantifier": "all programs building the sources, all numbers of threads, all powers, all schedules", "why_tests_cant": "The number of schedules is astronomical and a scheduler in a test shows a handful of them; races on one source need an exact interleaving.", "anchors": ["tokamak_neutron_source/main.py::TokamakNeutronSource.normalise_fusion_power", "tokamak_neutron_source/main.py::TokamakNeutronSource.calculate_total_fusion_power"]}
{"id": "C93", "title": "The whole constructor in floating point", "statement": "A source built in binary64 and normalised to a power P has, in every cell and channel, the strength P x (rate density at the cell centre x 2*pi*x*L^2) / (power of all cells by the same formulas), with a relative error below one part in 10^9 for up to a million cells (Bosch-Hale channels, temperatures within the fit); the reported reaction and neutron rates are equally accurate; without normalisation the strengths are the reaction rates of the cells. The constructor succeeds for every such plasma with positive power. Nothing is lost by the order of summation or by the library functions, provided these are accurate to 2 ulp.", "quantifier": "all LCFS polygons, profiles, flux coordinates, cell sizes, source types with a Bosch-Hale fit, powers, summation orders and roundings of the standard model", "why_tests_cant": "Tests compare a few sources with stored numbers to a tolerance; they cannot show that no plasma makes rounding errors grow.", "anchors": ["tokamak_neutron_source/main.py::TokamakNeutronSource.__init__", "tokamak_neutron_source/reactivity.py::reactivity", "tokamak_neutron_source/reactivity.py::density_weighted_reactivity", "tokamak_neutron_source/space.py::sample_space_2d"]}
{"id": "C94", "title": "Cross-section reactivities in floating point", "statement": "In binary64 with gradual underflow the cross-section reactivity of every reaction succeeds at every temperature from 0.2 to 100 keV - the rounded energy grid never leaves the rounded data file - and every entry agrees to 10 digits with the Maxwell average of the cross section in the data file (trapezoidal rule on 1000 energies), although the interpolation and the spacing of the grid subtract nearly equal numbers and the exponential underflows. Together with C90 and C93, a source of any reactions built with any method in binary64 has strengths accurate to one part in 10^9.", "quantifier": "all arrays of temperatures in 0.2-100 keV, all five reactions, all constants and masses of the right size, all roundings and summation orders of the standard model with underflow; for sources also all polygons, profiles, powers", "why_tests_cant": "The computed grid and table depend on every rounding; a test compares a few temperatures with stored numbers to a tolerance and cannot show that no temperature falls outside the table or loses digits.", "anchors": ["tokamak_neutron_source/reactivity.py::_reactivity_from_xs", "tokamak_neutron_source/reactivity_data.py::ReactionCrossSection", "tokamak_neutron_source/tools.py::trapezoid", "tokamak_neutron_source/main.py::TokamakNeutronSource.__init__"]}
{"id": "C95", "title": "From the plasma to the Monte Carlo input in floating point", "statement": "A source built from a plasma, normalised to any power and exported, all in floating point, describes that plasma. OpenMC: exactly one source for each cell where the plasma gives neutrons, in order; its strength is the share of the cell in the neutrons of the plasma, its energy distribution has one spectrum for each neutron-giving reaction, at the plasma's temperature there, with its share, and it fills the cell, all to 4 parts in 10^9 in binary64 for up to a million cells, whatever the power. SDEF: one file for each neutron-giving reaction; total and ion temperature of its header are the rate at that power and the rate-weighted mean temperature, and the printed text read back by MCNP's rules gives each cell its edges to five digits and its share to 22 parts per million.", "quantifier": "all LCFS polygons, flux maps, profiles with temperatures 0.2-100 keV, source types, methods, cell sizes, powers, spectra; all roundings and summation orders of the standard model", "why_tests_cant": "The exported numbers pass through some thirty rounded operations and data-dependent sums; a test compares one export with a stored file and says nothing of other plasmas, and cannot see which cells are dropped or kept in the worst case.", "anchors": ["tokamak_neutron_source/main.py::TokamakNeutronSource.__init__", "tokamak_neutron_source/main.py::TokamakNeutronSource.normalise_fusion_power", "tokamak_neutron_source/main.py::TokamakNeutronSource.to_openmc_source", "tokamak_neutron_source/main.py::TokamakNeutronSource.to_sdef_mcnp", "tokamak_neutron_source/openmc_interface.py::make_openmc_full_combined_source", "tokamak_neutron_source/mcnp_interface.py::write_mcnp_sdef_source"]}
{"id": "C96", "title": "As the cells shrink, the exported OpenMC source tends to the neutron source of the plasma", "statement": "Let the profiles and the interpolated flux be continuous, let the fuel of some channel that makes neutrons burn on the magnetic axis, and request any positive power. For every cell size the source is built and exported to OpenMC. As the cell side tends to zero, the mean, over the neutrons that OpenMC samples from the exported sources, of any quantity that depends continuously on the temperature of the spectrum and on the starting point tends to its mean over the neutrons of the plasma (each volume element weighted with neutron yield times n1 n2 <sigma v>/(1+delta12), dV = 2 pi x dx dz). In particular the distribution of starting points converges, for every spectrum method but DATA and ion temperatures in (0, 40] keV; and with Gaussian spectra and no T-T channel any continuous function of the published mean energy and width and of the starting point.", "quantifier": "all constants, source types, reactivity methods, continuous profiles, accepted Fausser plasmas, continuous fluxes, powers, spectrum functions, continuous quantities", "why_tests_cant": "it is a limit statement about every plasma and every observable; a test sees one plasma at a few cell sizes", "anchors": ["tokamak_neutron_source/main.py::TokamakNeutronSource.to_openmc_source", "tokamak_neutron_source/openmc_interface.py::make_openmc_full_combined_source", "tokamak_neutron_source/space.py::sample_space_2d"]}
{"id": "C97", "title": "Exporting to OpenMC while other threads normalise", "statement": "When one thread calls to_openmc_source on a source while other threads call normalise_fusion_power, then, whatever the schedule (threads may switch between any two loads or stores of numbers): if nobody normalises this source, the export returns exactly what it would return alone, after a fixed number of its own steps; if one thread normalises this source by the factor f = P / power, the export still returns one OpenMC source per emitting cell with the right position and the right spectra, shares adding up to 1, and every strength and every share is off by at most the factor max(f, 1/f). This bound is reached: for every source and power there is a schedule under which the export divides new strengths by the old rate, so that the strengths add up to f instead of 1.", "quantifier": "all programs building sources, all numbers of normalising threads, all schedules, all powers, all spectrum functions", "why_tests_cant": "the result depends on the interleaving of single loads and stores; tests see the few interleavings the interpreter happens to choose", "anchors": ["tokamak_neutron_source/main.py::TokamakNeutronSource.to_openmc_source", "tokamak_neutron_source/main.py::TokamakNeutronSource.source_rate", "tokamak_neutron_source/main.py::TokamakNeutronSource.normalise_fusion_power", "tokamak_neutron_source/openmc_interface.py::make_openmc_full_combined_source"]}
{"id": "C98", "title": "As the cells shrink, the SDEF files tend to the neutron source of the plasma", "statement": "For continuous profiles and a channel whose fuel burns on the magnetic axis: for every cell size the source is built and written by to_sdef_card, with a file for that channel; as the cell side goes to 0, the mean of any continuous function of the starting point over the neutrons that MCNP samples from this file tends to its mean over the reactions of that channel in the plasma, and the ion temperature written in the file is finite and tends to the mean ion temperature of these reactions. All files together, each taken with the share of the neutrons its header gives, tend to the same limit as the exported OpenMC source.", "quantifier": "all plasmas of the analytic parameterisations, all continuous profiles and fluxes, all source types, powers and file stubs, all continuous functions of the starting point, in the limit of all cell sizes", "why_tests_cant": "a limit over all cell sizes and all functions; MCNP is not run by the tests", "anchors": ["tokamak_neutron_source/main.py::TokamakNeutronSource.to_sdef_card", "tokamak_neutron_source/mcnp_interface.py::write_mcnp_sdef_source", "tokamak_neutron_source/mcnp_interface.py::mean_ion_temp", "tokamak_neutron_source/space.py::sample_space_2d"]}
{"id": "C99", "title": "D-T and D-D neutron spectra survive rounding", "statement": "For every ion temperature from 0.1 to 40 keV, the D-T and D-D spectra computed in floating point exist, have the same number of points as the exact ones, strictly increasing positive energies (also after conversion to eV), positive densities and unit area up to 1050 v, where v bounds the relative error of one operation or library call. Energies agree with the exact ones to 125 v; densities to 280000 v / sqrt(T) for the Gaussian and to 2.5e7 v / T for the modified Gaussian (T in keV); the mean and the standard deviation of the normal distribution given to OpenMC agree with the published fits to 6 v and 13 v. In double precision: energies to 1e-13, densities to 1.3e-10 / sqrt(T) and 1.2e-8 / T, area to 1e-12.", "quantifier": "all temperatures from 0.1 to 40 keV, both reactions, all methods with a fit, every rounding, summation order and library of the stated accuracy", "why_tests_cant": "a bound over a continuum of temperatures and over all roundings; tests compare a few temperatures to a few digits", "anchors": ["tokamak_neutron_source/energy.py::_gaussian_energy_spectrum", "tokamak_neutron_source/energy.py::_modified_gaussian_energy_spectrum", "tokamak_neutron_source/energy.py::_prepare_energy_pdf", "tokamak_neutron_source/energy.py::_ballabio_spectrum", "tokamak_neutron_source/energy_data.py::BallabioCoefficients.fit", "tokamak_neutron_source/openmc_interface.py::get_neutron_energy_spectrum"]}
{"id": "C100", "title": "Profiles and fuel composition survive rounding, from parameters to strengths", "statement": "Computed in floating point, a parabolic profile agrees with core (1 - rho^beta)^alpha, a pedestal profile with its published two-part formula and an interpolated profile with the piecewise-linear interpolant, up to bounds proportional to v, the relative error of one operation or library call (absolute bounds for the parabola, which vanishes at the edge; relative ones for pedestals and positive tables). Fuel fractions are right to 4 roundings. If the plasma's profiles are right to a relative accuracy delta, every cell strength of the source (Bosch-Hale, 0.21 to 99 keV) is the reaction rate of the exact plasma to 250 delta + 1200 v + 20 u. In double precision with pedestal profiles of exponents up to 5 and core values up to 1000 times the separatrix ones this is one part in ten million. With correctly rounded (order-preserving) arithmetic a computed parabolic profile is still non-increasing, non-negative, equal to the core value on the axis and to 0 at the edge, and a pedestal profile is non-increasing on either side of the pedestal top.", "quantifier": "all profile parameters, radii, fuel mixtures, boundaries, flux coordinates and cell sizes, every rounding and library of the stated accuracy", "why_tests_cant": "a bound over a continuum of parameters and radii and over all roundings; tests compare a few values to a few digits", "anchors": ["tokamak_neutron_source/profile.py::ParabolicProfile.value", "tokamak_neutron_source/profile.py::ParabolicPedestalProfile.value", "tokamak_neutron_source/profile.py::DataProfile.value", "tokamak_neutron_source/transport.py::FractionalFuelComposition", "tokamak_neutron_source/transport.py::TransportInformation.from_profiles", "tokamak_neutron_source/transport.py::TransportInformation.from_parameterisations", "tokamak_neutron_source/main.py::TokamakNeutronSource.__init__"]}
{"id": "C101", "title": "Parameterised flux surfaces and flux maps survive rounding", "statement": "Computed in floating point, every accepted parameter set whose plasma is smaller than about 45 m (1e-12 / (50 v)) gives a flux map with both parameterisations; its surfaces, scattered points and last closed flux surface are those of the published formulas up to 110 v times the size of the plasma (5e-14 of it in double precision), its magnetic axis to one rounding, its labels to 5 v (LINEAR; for SQRT the error times the label is at most 7 v). The closure test never refuses a Fausser surface smaller than 125 m, and in double precision it always refuses one with psi a kappa >= 4200 about z0 = 0 (a tokamak described in millimetres). The cells sampled in such a plasma, all the way from its parameters, are the points of the exact lattice through the exact axis inside the exact last closed flux surface, each once, except next to that surface. Normalising the poloidal flux costs 4 roundings of relative error; reading an EQDSK map of either sign convention costs 6 v plus 1.1 times the relative error of the interpolated boundary flux.", "quantifier": "all parameter sets, both parameterisations and conventions, flux labels, point numbers, cell sizes, EQDSK fluxes, every rounding and library of the stated accuracy", "why_tests_cant": "a bound over a continuum of parameters and over all roundings; tests compare a few surfaces to a few digits and use metre-sized plasmas only", "anchors": ["tokamak_neutron_source/flux.py::LCFSInformation.__post_init__", "tokamak_neutron_source/flux.py::is_closed", "tokamak_neutron_source/flux.py::ClosedFluxSurface.__init__", "tokamak_neutron_source/flux.py::FausserFluxSurface", "tokamak_neutron_source/flux.py::SauterFluxSurface", "tokamak_neutron_source/flux.py::normalise_psi", "tokamak_neutron_source/flux.py::FluxMap.from_parameterisation", "tokamak_neutron_source/flux.py::FluxMap.from_eqdsk", "tokamak_neutron_source/tools.py::load_eqdsk", "tokamak_neutron_source/space.py::sample_space_2d"]}
{"id": "C102", "title": "Writing SDEF files while other threads normalise", "statement": "If one thread calls to_sdef_card on a source while other threads call normalise_fusion_power, then under every schedule the files are those of the undisturbed call as long as no other thread works on that source. If one of them normalises the same source, the same files with the same bins are written; with f the ratio of the new to the old power, the totals and the ion temperatures are wrong by at most the factor f (or 1/f) and the probability of each bin by at most its square. The bound for the temperature is reached: for every source, power and channel there is a schedule under which the file of that channel has the undisturbed total and distribution in space but the ion temperature divided by f, although the temperature stated before and after the normalisation is the same.", "quantifier": "all schedules of single loads and stores, all histories, any number of threads and sources, all physical inputs and powers", "why_tests_cant": "the outcome depends on the interleaving; the number of schedules is unbounded and tests cannot choose them", "anchors": ["tokamak_neutron_source/mcnp_interface.py::write_mcnp_sdef_source", "tokamak_neutron_source/mcnp_interface.py::sdef_header", "tokamak_neutron_source/mcnp_interface.py::mean_ion_temp", "tokamak_neutron_source/mcnp_interface.py::_si_sp_vertical_dist_cards", "tokamak_neutron_source/main.py::TokamakNeutronSource.to_sdef_card", "tokamak_neutron_source/main.py::TokamakNeutronSource.normalise_fusion_power"]}
{"id": "C103", "title": "Area, centroid and volume survive rounding", "statement": "For a closed surface of n points with radii up to R and heights up to H, whose vertices are known to a fraction w of these (w also at least n times the unit roundoff and at most 1e-5): the computed area is the enclosed area up to 6 w n R H; if the area is at least 100 w n R H, the computed orientation is right, the computed centroid is that of the enclosed region and the computed volume is 2 pi times area times centroid radius, with explicit error bounds of the order of w n R H over the area. This covers every flux surface of a parameterised plasma: FluxMap.volume computed from the parameters is the exact one with an explicit bound, in double precision for up to 1000 points and plasmas up to 45 m. Below that area nothing is guaranteed: a triangle of a nanometre gets area 0, a centroid on the machine axis and volume 0.", "quantifier": "all closed polygons, all floating point arithmetics of the standard model, all orders of summation in the dot product with and without fused operations, all accepted plasma parameters, flux labels and point counts", "why_tests_cant": "the sums cancel to an extent that depends on size, position and number of points; sample plasmas show one instance", "anchors": ["tokamak_neutron_source/tools.py::check_ccw", "tokamak_neutron_source/tools.py::get_area_2d", "tokamak_neutron_source/tools.py::get_centroid_2d", "tokamak_neutron_source/flux.py::ClosedFluxSurface.area", "tokamak_neutron_source/flux.py::ClosedFluxSurface.center_of_mass", "tokamak_neutron_source/flux.py::ClosedFluxSurface.volume", "tokamak_neutron_source/flux.py::FluxMap.volume"]}
{"id": "C104", "title": "A slightly wrong plasma gives a slightly wrong source", "statement": "If at every cell centre temperature and densities are read off with a relative error of at most delta (wrong flux label, rounded or fitted profiles), the strengths, reaction and neutron rates of a source normalised to a power, its OpenMC sources and its SDEF files are those of the plasma meant, with a relative error of at most 2.01 (K + 3) delta beyond that of the rounded constructor; no source appears or disappears. K is the condition number of the reactivity: 240 for the published fits, 5300 for the Maxwell averages, hence 5300 for every method. An error h of the flux label gives delta by explicit formulas for pedestal, parabolic and tabulated profiles; these are attained for linear pedestals. In double precision, from profile parameters and any flux map with error eta <= 1e-12, every strength has relative error at most 1.5e-5 + 2e9 eta.", "quantifier": "all flux maps, all profiles and fuel mixtures in the stated ranges, all grids, powers, source types and reactivity methods, all floating point arithmetics of the standard model", "why_tests_cant": "how errors of the input are amplified between the plasma and the exported source is a statement about all nearby inputs; a test runs one", "anchors": ["tokamak_neutron_source/main.py::TokamakNeutronSource.__init__", "tokamak_neutron_source/main.py::TokamakNeutronSource.to_openmc_source", "tokamak_neutron_source/main.py::TokamakNeutronSource.to_sdef_card", "tokamak_neutron_source/profile.py::PedestalProfile", "tokamak_neutron_source/profile.py::ParabolicProfile", "tokamak_neutron_source/profile.py::DataProfile", "tokamak_neutron_source/reactivity.py::reactivity"]}
{"id": "C105", "title": "From equilibrium and transport files to the neutrons of OpenMC, on fine grids", "statement": "For any EQDSK file that describes a plasma and whose magnetic axis is not on the boundary curve, any JETTO time slice with deuterium and tritium, any continuous interpolation of the flux, any source type with a channel that makes neutrons, any reactivity method and any positive fusion power: for every cell size the source is built and exported; as the cells shrink, the reaction and neutron rates tend to those of the plasma in the files at that power, and the mean of any continuous function of the starting point over the neutrons that OpenMC samples tends to its mean over the neutrons of the plasma inside the boundary of the file, likewise (Gaussian spectra, no T-T) for any continuous function of mean and width of the energy spectrum and the starting point.", "quantifier": "all EQDSK boundaries (convex or not, in either direction), JETTO slices, flux conventions, continuous interpolations, source types, reactivity methods, powers and continuous test functions; all small cell sizes", "why_tests_cant": "a limit over cell sizes for arbitrary files", "anchors": ["tokamak_neutron_source/flux.py::FluxMap.from_eqdsk", "tokamak_neutron_source/transport.py::TransportInformation.from_jetto", "tokamak_neutron_source/main.py::TokamakNeutronSource.__init__", "tokamak_neutron_source/main.py::TokamakNeutronSource.normalise_fusion_power", "tokamak_neutron_source/main.py::TokamakNeutronSource.to_openmc_source", "tokamak_neutron_source/openmc_interface.py::make_openmc_full_combined_source"]}
{"id": "C106", "title": "From equilibrium and transport files to the neutrons of MCNP, on fine grids", "statement": "For any cells in sampling order the SDEF file has one bin per cell, beginning at the cell's lower edges and ending where the next sampled radius, and the next cell of the same column, begin. Hence, for any EQDSK file that describes a plasma whose axis is off the boundary, whatever the shape of the boundary, any JETTO time slice with deuterium and tritium, any source type, reactivity method and positive power: for every cell size the source is built and written to SDEF files, and as the cells shrink the mean of any continuous function of the starting point over the neutrons that MCNP samples from a channel's file tends to its mean over the channel's reactions in the plasma, the ion temperature in the file to their mean ion temperature, and all files together, weighted by their headers, to the neutrons of the plasma, the limit that the exported OpenMC source has.", "quantifier": "all lists of cells in sampling order; all EQDSK boundaries (convex or not), JETTO slices, flux conventions, continuous interpolations, source types, reactivity methods, powers and continuous test functions; all small cell sizes", "why_tests_cant": "where the sampled cells leave a gap a bin is stretched over it, out of the plasma; how much of the source that is depends on the shape and the cell size, and the claim is a limit over cell sizes for arbitrary files", "anchors": ["tokamak_neutron_source/mcnp_interface.py::write_mcnp_sdef_source", "tokamak_neutron_source/main.py::TokamakNeutronSource.to_sdef_mcnp", "tokamak_neutron_source/flux.py::FluxMap.from_eqdsk", "tokamak_neutron_source/transport.py::TransportInformation.from_jetto", "tokamak_neutron_source/space.py::sample_space_2d"]}
{"id": "C107", "title": "T-T spectra survive rounding", "statement": "In floating point, at every temperature and with every spectrum method, the T-T neutron spectrum is computed without an exception and is, up to a relative error of 13 roundings in each energy and 14200 in each density (binary64: 2e-12), the exact spectrum at a temperature within 500 roundings of the requested one (1e-13 keV; without any error outside the tabulated 1-20 keV); the same warnings are given, the energies ascend, the densities are positive (nothing is trimmed) and their area is 1 up to rounding. The table handed to OpenMC has ascending positive energies in eV, positive densities and the mean energy of the exact one, between 4.602 and 4.634 MeV, up to 1e-4 eV.", "quantifier": "all temperatures, methods, arithmetics with small unit roundoff that preserve order, and scale factors between units accurate to ten roundings", "why_tests_cant": "rounding errors at a continuum of temperatures: next to a tabulated temperature the weights cancel and the interval found may be the wrong one, and densities of neighbouring temperatures differ by up to 24 orders of magnitude, so no sample shows that the computed one is accurate", "anchors": ["tokamak_neutron_source/energy_data.py::TTNeutronEnergyDataSpectrum", "tokamak_neutron_source/energy.py::_prepare_energy_pdf", "tokamak_neutron_source/openmc_interface.py::get_neutron_energy_spectrum"]}
{"id": "C108", "title": "OpenMC samples the plasma's neutrons: energies and positions together, with every spectrum method", "statement": "With continuous profiles and ion temperatures in (0, 40] keV, with any spectrum method for which the chosen channels have spectra (the default tables, T-T data, or Gaussians), the source is built and exported to OpenMC at every cell size; and as the cells shrink, the energies and starting points of the neutrons that OpenMC samples tend together to those of the neutrons of the plasma: the mean of any continuous function of energy (eV) and starting point that grows at most quadratically with the energy (so of any bounded one, and of the energy and its square) tends to its mean over the plasma, where a neutron of each reaction has the published spectrum at the local ion temperature. The same holds for sources made from EQDSK and JETTO files.", "quantifier": "all continuous profiles, parametric shapes, EQDSK and JETTO files, source types, powers, spectrum methods and continuous functions of energy and position", "why_tests_cant": "a limit over all cell sizes for every continuous function of two variables; a run shows one mesh, and weak convergence needs that tabulated spectra (1000-point moving grids, interpolated T-T rows) depend continuously on the temperature", "anchors": ["tokamak_neutron_source/main.py::TokamakNeutronSource", "tokamak_neutron_source/openmc_interface.py::get_neutron_energy_spectrum", "tokamak_neutron_source/openmc_interface.py::make_openmc_full_combined_source", "tokamak_neutron_source/energy.py::energy_spectrum", "tokamak_neutron_source/energy_data.py::TTNeutronEnergyDataSpectrum"]}
{"id": "C109", "title": "Hotter ions give faster neutrons and broader spectra", "statement": "Up to 40 keV the mean energy and the width of the D-T and D-D neutron spectra increase strictly with the ion temperature: with Gaussian spectra the distribution handed to OpenMC has a strictly larger mean and standard deviation at the higher of two temperatures (so a spectrum determines its temperature), and the tables of all methods have the larger standard deviation at a temperature that is ten percent higher, whichever methods are compared. Along a profile whose temperature never rises outwards the spectra never get faster or broader outwards.", "quantifier": "all pairs of temperatures in (0, 40] keV, both reactions, all methods, all falling profiles", "why_tests_cant": "monotonicity over a continuum: the published fits contain terms that fall with temperature above about 19 keV, so samples cannot exclude a turning point", "anchors": ["tokamak_neutron_source/energy_data.py::BallabioEnergySpectrum", "tokamak_neutron_source/energy.py::energy_spectrum", "tokamak_neutron_source/openmc_interface.py::get_neutron_energy_spectrum"]}
{"id": "C110", "title": "The complete OpenMC input in floating point, spectra included", "statement": "In double precision, with library functions accurate to four units of rounding, at most a million cells and channels and ion temperatures of the cells between 0.2 and 40 keV, for every source type, reactivity method and spectrum method for which the channels have spectra: to_openmc_source succeeds, and its sources stand one by one, in order, for the cells in which the plasma produces neutrons. The strength of each is the share of the cell, its geometry is the cell, and it has one energy distribution for each reaction with neutrons there, weighted by the share of the reaction, that can be sampled and is the published law of that reaction at the ion temperature of the cell: numbers are off by at most 4e-9 relatively, energies by 1e-13, tabulated densities by 6e-8 (T-T may be taken at a temperature wrong by 1e-13 keV). Without rounding the modelled computation is exactly that of the other claims, for all reactions, temperatures and methods.", "quantifier": "all boundaries, flux maps, profiles, source types, methods, powers and cell sizes within the stated ranges, every library within the accuracy", "why_tests_cant": "end-to-end accuracy over all inputs: tests compare a few numbers of one configuration, and none of them can follow the rounding errors of a quadrature, a fit, a grid and a normalisation into the file", "anchors": ["tokamak_neutron_source/main.py::TokamakNeutronSource", "tokamak_neutron_source/openmc_interface.py::make_openmc_full_combined_source", "tokamak_neutron_source/openmc_interface.py::get_neutron_energy_spectrum", "tokamak_neutron_source/energy.py::energy_spectrum", "tokamak_neutron_source/energy_data.py::TTNeutronEnergyDataSpectrum"]}
{"id": "C111", "title": "The complete MCNP input in floating point, energy cards included", "statement": "In double precision, with library functions accurate to four units of rounding, at most a million cells and channels and temperatures between 0.2 and 100 keV, for every source type and method: to_sdef_card writes one file for each reaction with neutrons. For a reaction that occurs, the total in the header and the ion temperature are those of the plasma to 4 parts in 10^9, and the text, read back by MCNP's rules, has one bin for each cell, in order, with its edges and its share of the reactions, and the energy cards of the neutrons of the reaction at that ion temperature: for D-T and D-D the built-in Gaussian spectrum with the code of the reaction and the temperature in MeV to 6e-7; for T-T a histogram that starts at 0, with strictly increasing energies and positive densities, both to 6e-6 those of the published spectrum up to a common factor. Without rounding the text is that of the other claims.", "quantifier": "all plasmas, source types, methods, powers, cell sizes and citation data within the stated ranges, every library within the accuracy", "why_tests_cant": "joins every computation from the flux map to the characters of the file, over all inputs: a test can look at one file but not say how far its numbers may be off in any other", "anchors": ["tokamak_neutron_source/main.py::TokamakNeutronSource.to_sdef_card", "tokamak_neutron_source/mcnp_interface.py::write_mcnp_sdef_source", "tokamak_neutron_source/mcnp_interface.py::sdef_header", "tokamak_neutron_source/energy.py::energy_spectrum", "tokamak_neutron_source/energy_data.py::TTNeutronEnergyDataSpectrum"]}
{"id": "C112", "title": "In floating point the OpenMC input and the SDEF files describe the same neutrons", "statement": "In double precision, under the conditions of C111 and with some neutrons at all: the weights with which the SDEF files of a source are to be combined (header total times neutrons per reaction, as a share) add up to 1; a reaction that does not occur has weight 0 and starts no neutrons in OpenMC; and for every reaction that occurs, each bin that MCNP reads from the text, in the order of the cells, carries the fraction of all neutrons that OpenMC samples from that reaction in the one ring around the cell's centre, up to 23 parts per million (mostly the six printed digits).", "quantifier": "all plasmas, source types, methods, powers and cell sizes within the stated ranges, every library within the accuracy", "why_tests_cant": "two exporters with different arithmetic, formats and roundings must agree in every cell of every source; a test compares a few numbers of one source", "anchors": ["tokamak_neutron_source/main.py::TokamakNeutronSource.to_openmc_source", "tokamak_neutron_source/main.py::TokamakNeutronSource.to_sdef_card", "tokamak_neutron_source/openmc_interface.py::make_openmc_full_combined_source", "tokamak_neutron_source/mcnp_interface.py::write_mcnp_sdef_source"]}
{"id": "C113", "title": "Discretisation error in floating point", "statement": "With floating point numbers, for every closed LCFS polygon that winds once around its interior and every cell side L that is large against the rounding of coordinates: the area of the sampled cells differs from the area of the LCFS by at most the area of a strip along the LCFS whose width is L and four times the coordinate accuracy; the sum of the computed cell volumes from the LCFS volume by that times the largest circumference, and by rounding. In double precision (library accurate to four units of rounding, at most a million cells and channels, temperatures at the centres between 0.2 and 100 keV), for every source type, method and power P: if inside the LCFS and at the centres the reaction rate density of each channel is bounded and changes by a bounded amount within a cell, the reactions and neutrons per second of each channel of the built source differ from those of the plasma (volume integral, scaled to the power P) by an explicit bound of first order in L plus 2e-9 P/Q.", "quantifier": "all closed LCFS polygons winding once, all magnetic axes inside, all cell sides resolved by the arithmetic, all source types, methods, powers and profiles within the stated ranges", "why_tests_cant": "which cells are found depends on rounded coordinates and a rounded mask, and the distance to the continuum is an integral over the whole plasma; a test compares one grid with another", "anchors": ["tokamak_neutron_source/space.py::sample_space_2d", "tokamak_neutron_source/main.py::TokamakNeutronSource.__init__", "tokamak_neutron_source/main.py::TokamakNeutronSource.normalise_fusion_power"]}
{"id": "C114", "title": "Means over the sampled neutrons in floating point", "statement": "In double precision (library accurate to four units of rounding, at most a million cells and channels, temperatures at the centres between 0.2 and 40 keV, centres at least 5/8 of a cell from the axis), for every source type, reactivity method, spectrum method and power, and every quantity of a neutron that depends continuously on its starting point and on its spectrum: the mean of the quantity over the neutrons that OpenMC samples from the sources returned by to_openmc_source differs from its mean over the neutrons of the plasma (quotient of volume integrals) by at most its change over a cell, a relative 9e-9, and a discretisation error of first order in the cell side. In particular: mean starting point, and with Gaussian spectra and no T-T the mean energy.", "quantifier": "all closed LCFS polygons winding once, all magnetic axes inside, all cell sides resolved by the arithmetic, all source types, methods, powers, profiles and quantities within the stated ranges", "why_tests_cant": "the sampled mean depends on every exported strength, weight, edge and spectrum at once, and the plasma mean is an integral over the whole plasma", "anchors": ["tokamak_neutron_source/openmc_interface.py::make_openmc_full_combined_source", "tokamak_neutron_source/openmc_interface.py::make_openmc_ring_source", "tokamak_neutron_source/main.py::TokamakNeutronSource.to_openmc_source", "tokamak_neutron_source/space.py::sample_space_2d"]}
{"id": "C115", "title": "Starting points sampled by MCNP in floating point", "statement": "In double precision (library accurate to four units of rounding, at most a million cells and channels, temperatures at the centres between 0.2 and 100 keV, every centre at most 40000 cells from the axes), for every source type, reactivity method and power, and a grid in which the next column, and the next cell of a column, is never more than 5/4 of a cell away: for every channel with neutrons that occurs, and every continuous function of the starting point, its mean over the neutrons that MCNP samples from the text of the SDEF file of the channel (five printed digits, lines wrapped) differs from its mean over the reactions of the channel in the plasma (quotient of volume integrals) by at most its change over a cell, a relative 22e-6, and a discretisation error of first order in the cell side.", "quantifier": "all closed LCFS polygons winding once whose grid has no gaps, all magnetic axes inside, all cell sides resolved by the arithmetic, all source types, methods, powers, profiles, stubs and functions within the stated ranges", "why_tests_cant": "the sampled mean depends on every printed number of a file at once, and the plasma mean is an integral over the whole plasma", "anchors": ["tokamak_neutron_source/mcnp_interface.py::write_mcnp_sdef_source", "tokamak_neutron_source/mcnp_interface.py::_si_sp_vertical_dist_cards", "tokamak_neutron_source/main.py::TokamakNeutronSource.to_sdef_card", "tokamak_neutron_source/space.py::sample_space_2d"]}
{"id": "C116", "title": "A whole MCNP run in floating point", "statement": "In double precision (as C115), for every source type, reactivity method and power, and a grid without gaps: the weights with which the SDEF files are to be combined add up to 1, and are positive for exactly the reactions that occur; and for every continuous function of the starting point, its mean over a run with all files, each text read by MCNP's rules and combined with its weight, differs from its mean over all neutrons of the plasma (quotient of volume integrals) by at most its change over a cell, a relative 24e-6 (five printed digits), and a discretisation error of first order in the cell side.", "quantifier": "all closed LCFS polygons winding once whose grid has no gaps, all magnetic axes inside, all cell sides resolved by the arithmetic, all source types, methods, powers, profiles, stubs, citation data and functions within the stated ranges", "why_tests_cant": "the mean over the run depends on every printed number of every file and on the totals in the headers at once, and the plasma mean is an integral over the whole plasma", "anchors": ["tokamak_neutron_source/mcnp_interface.py::write_mcnp_sdef_source", "tokamak_neutron_source/main.py::TokamakNeutronSource.to_sdef_card", "tokamak_neutron_source/main.py::TokamakNeutronSource.source_rate", "tokamak_neutron_source/space.py::sample_space_2d"]}
{"id": "C117", "title": "OpenMC and MCNP sample the same starting points in floating point", "statement": "In double precision (as C115; temperatures at most 40 keV, cells at least 5/8 of a side off the axis), for every source type, reactivity and spectrum method, and power, and a grid without gaps: for every continuous function of the starting point, its mean over the neutrons that OpenMC samples from the exported rings, and its mean over an MCNP run with all SDEF files combined with their weights, differ by at most twice its change over a cell and a relative 25e-6, however coarse the grid.", "quantifier": "all LCFS polygons, magnetic axes and cell sides resolved by the arithmetic whose grid has no gaps, all source types, methods, powers, profiles, stubs, citation data and functions within the stated ranges", "why_tests_cant": "the two exports are written by different code in different formats and precisions; the comparison is of all rings with all bins of all files", "anchors": ["tokamak_neutron_source/openmc_interface.py::make_openmc_full_combined_source", "tokamak_neutron_source/mcnp_interface.py::write_mcnp_sdef_source", "tokamak_neutron_source/main.py::TokamakNeutronSource.to_openmc_source", "tokamak_neutron_source/main.py::TokamakNeutronSource.to_sdef_card"]}
{"id": "C118", "title": "Every number on the SDEF cards can be printed and read", "statement": "In double precision (as C111), for every source type, reactivity method and power, every cell side between 1e-330 and 1e330 m with no cell further than 40000 sides from the axes, and cell rates that are zero or between 1e-330 and 1e330 per second: every number on the cards of every SDEF file is zero or between 1e-400 and 1e400 in size — an edge that almost cancels is exactly 0 or at least 2^-55 of the half cell, never a number out of the range of the format —, and the numbers of the distributions are positive and have at most 40 digits; so the file of every reaction that occurs has a text, from which MCNP reads cards with one bin for each cell.", "quantifier": "all LCFS polygons, magnetic axes and cell sides resolved by the arithmetic, all source types, methods, powers and profiles within the stated ranges, every normalisation history (C118_cards)", "why_tests_cant": "edges are differences of nearly equal numbers for some grids, and the smallest differences depend on the last bits of every coordinate", "anchors": ["tokamak_neutron_source/mcnp_interface.py::write_mcnp_sdef_source", "tokamak_neutron_source/mcnp_interface.py::_si_sp_vertical_dist_cards", "tokamak_neutron_source/main.py::TokamakNeutronSource.to_sdef_card"]}
{"id": "C119", "title": "Plotting the profiles", "statement": "TransportInformation.plot() draws one line for each of deuterium and tritium whose density exceeds 1e-8 per cubic metre somewhere on the radii of the object, through the values of its own profile, the lines in different styles that matplotlib knows, and the line of the temperature; but it raises ValueError exactly if the density of helium-3 exceeds 1e-8 somewhere (the style '.' asked for helium-3 is a marker, not a line style). In particular every object with a helium-3 fraction can not be plotted, whether built from arrays or from profile objects, and objects read from JETTO files, which have no helium-3, can.", "quantifier": "all profiles, radii and fuel compositions; all JETTO files", "why_tests_cant": "all profiles; the repository has no test or example that plots a plasma with helium-3", "anchors": ["tokamak_neutron_source/transport.py::TransportInformation.plot"]}
