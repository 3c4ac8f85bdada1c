# Formal model of tokamak-neutron-source: design

Lean 4.33 + Mathlib, project in `lean/`. Properties are listed in `properties.jsonl`, the
theorem names that settle them in `MANIFEST.json`.

## Layout
- `lean/Verif/Model/*`  the model, function by function, each definition citing file and lines.
- `lean/Verif/Spec/*`   small specifications that do not use the model's helpers.
- `lean/Verif/Lemmas/*` helper lemmas.
- `lean/Verif/Props/*`  the property theorems, each followed by examples meeting its hypotheses.

## Numbers
Floats are modelled by exact arithmetic: an arbitrary linearly ordered field `K` where only field
operations, order and floor are needed, and the reals where powers, exp, sqrt, sin, cos are used.
Rounding is modelled separately (see Numbers in the trusted base). Special values (inf, nan) are modelled by `XF K` (finite, +inf, -inf, nan)
where division by zero can occur. Python exceptions are values of `Except Err`.

## Plan per property
- **C01 Source-type normalisation** — Model `_parse_source_type` (enum/str inputs, append of the D-D proton branch, first-occurrence dedup, stable sort by CUSTOM_ORDER). Characterise the result as the sublist of the fixed order selected by a set; permutation/multiplicity independence follows.
- **C02 Reaction name parsing** — Model `_parse_reaction` on Lean strings; case analysis on the finite name tables, for all strings.
- **C03 Normalisation reaches the requested fusion power** — Source state as ordered dictionaries; algebra on list sums.
- **C04 Rate bookkeeping invariant** — Invariant by induction over the list of normalise calls, established by the constructor fold.
- **C05 Last normalisation wins** — Induction over the list of powers, using C03 and scaling composition.
- **C06 Normalisation preserves the shape of the source** — Direct from the model of normalise: a single factor for everything.
- **C07 Normalisation never leaves non-finite strengths** — Second model over extended numbers (finite/+inf/-inf/nan); witness for the failing case, guarded theorem `_partial`.
- **C08 Source rate versus tritium consumption rate** — Algebra over the dictionary invariant.
- **C09 Channel independence** — Constructor fold: lookup of a key only depends on that key.
- **C10 Density weighting** — Model over an ordered field; separate spec of reactant pairs.
- **C11 Energy bookkeeping of the reaction table** — Masses as parameters; ring identities; power as sum of rate*Q by the invariant.
- **C12 Spatial sampling is exactly the O-point lattice inside the LCFS** — Model bounding box, modulus, arange, meshgrid, mask over an ordered field with floor; both inclusions via integer arithmetic on floor/ceil. Point-in-polygon is a parameter only assumed to be false outside the bounding box (and shown satisfiable by a concrete crossing-number test).
- **C13 The O-point cell is always sampled** — Corollary of C12.
- **C14 Cells tile the plasma** — Rounding to the nearest lattice point; integer separation.
- **C15 Cell volumes are exact toroidal volumes** — Algebra + real measure/integral of the solid of revolution.
- **C16 Sampling order** — Pairwise order of meshgrid lists, preserved by filter.
- **C17 Discretisation converges** — The sampled sum is the integral of a step function (C12, C14); dominated convergence. `lcfs.volume` by Green's theorem for polygons, edge by edge (Fubini), using the winding number.
- **C18 OpenMC source strengths are normalised** — Sum over filterMap.
- **C19 OpenMC export does not depend on the fusion-power normalisation** — Factor cancels in every field.
- **C20 OpenMC energy mixtures are proper and complete** — List sums.
- **C21 OpenMC ring geometry** — Interval integrals of the tabulated linear density.
- **C22 OpenMC export lists exactly the emitting cells** — filterMap characterisation; error branch explicit.
- **C23 SDEF card structure** — Model the grouping by `np.nonzero(r[1:] != r[:-1])` and `np.unique`; counts agree for sorted r.
- **C24 SDEF probabilities reproduce the source** — Small separate semantics of SDEF cards (two-stage discrete distribution); product of marginal and conditional.
- **C25 SDEF bins coincide with the cells** — Bins from cards versus cells; contiguity hypothesis; concrete non-convex counterexample; hypothesis discharged for every Fausser plasma (`C25_fausser`) through `C65_convex` (pointwise description of what matplotlib accepts for a convex polygon: at each height one edge goes up and one goes down).
- **C26 Card wrapping loses nothing** — Model textwrap.wrap's greedy algorithm on words; unwrap∘wrap = id.
- **C27 Card lines never exceed the maximum length** — Witness of a line > 80; bound max+indent.
- **C28 SDEF files written** — Model file naming; injectivity on the table.
- **C29 SDEF header total** — Theorem for D-T, D-D, negation for T-T.
- **C30 Mean ion temperature** — Weighted-mean bounds; extended numbers for the zero case.
- **C31 Fuel fractions sum to one** — Field algebra with explicit error branch.
- **C32 Species densities add up to the fuel density** — Linearity of interpolation and scaling.
- **C33 Density profiles are isolated from the caller's object** — Heap model with object references; induction over operation sequences.
- **C34 Scales accumulate multiplicatively** — Induction over lists of scales.
- **C35 Data profiles interpolate** — Model of interp1d (searchsorted); order reasoning.
- **C36 Parabolic profile** — Real powers.
- **C37 Parabolic-pedestal profile** — Real powers, continuity via piecewise gluing.
- **C38 JETTO time slices** — List model.
- **C39 LCFS parameters accepted** — Decision logic.
- **C40 Fausser flux surfaces** — Trigonometric bounds.
- **C41 Flux surfaces of a parameterisation do not cross** — Monotonicity of a quadratic; converse witness.
- **C42 Sauter flux surfaces** — Witness by evaluation; closedness by trigonometry.
- **C43 Flux normalisation** — Field algebra/order.
- **C44 EQDSK sign convention** — Record update algebra.
- **C45 Area, centroid and volume of a closed surface** — List induction over edges; interval integrals.
- **C46 Resampling a flux surface** — Arc-length model, interpolation lemma.
- **C47 Contour selection** — argmin model.
- **C48 Parameterised flux map labels** — List lengths; label algebra; SQRT negation.
- **C49 Requested flux surfaces of an EQDSK map** — Branch analysis.
- **C50 Closed surfaces only** — Decision logic.
- **C51 Reactivity method dispatch** — Dispatch model, case analysis.
- **C52 Bosch-Hale reactivity is well defined** — Polynomial positivity with the actual coefficients.
- **C53 Cross-section reactivity is well defined** — Actual cross-section tables embedded as rationals, checked by the kernel; integral of positive terms.
- **C54 Neutron spectra are normalised** — Trapezoid linearity.
- **C55 Zero trimming** — List model of nonzero/mask.
- **C56 Spectrum method dispatch** — Case analysis.
- **C57 Ballabio spectra are well defined in the fit range** — Real power bounds with the actual coefficients.
- **C58 T-T spectra clip the temperature** — Linear interpolation in temperature with clipping.
- **C59 Duplicate warnings are filtered, and only while exporting** — State machine of logger filters; induction on record sequences.
- **C60 Unit conversion** — Scale-factor model.
- **C61 Data directory lookup** — String model with directory predicate.
- **C62 Plot selection** — List filter.
- **C63 Numbers in the SDEF file are accurate to 6 digits** — Decimal formatting model over the rationals.
- **C64 Physical consistency of a constructed source** — End-to-end theorem over the constructor.
- **C65 Point-in-polygon mask** — Model of matplotlib's published crossing test (external code); cancellation of crossings around a closed path; lines have measure zero.
- **C66 A parameterised plasma gives a usable source region** — The outboard and inboard branches of the normalised shape are a concave and a convex function of height (second derivative sign for |delta| <= 1), so every three vertices in order are anticlockwise; a fan of triangles gives winding number 0 or 1 almost everywhere; the two edges at the height of the axis are computed; then C13, C17 and C65 apply. A Sauter LCFS without squareness is the Fausser LCFS with the same parameters.
- **C67 SDEF text** — The whole text is modelled as a character list. The specification reads lines by the rules of MCNP input; each part of the file is a block of whole lines that reads as its cards (induction over the wrapped lines), blocks concatenate, and numbers are found again by card name. T-T spectra are shown printable from the embedded data. Not modelled: the encoding of the file.
- **C68 SDEF distribution** — Composition of C24 (cards), C67 (text) and an error bound for quotients and products of rounded non-negative numbers.
- **C69 OpenMC energy distributions** — C57 (moments, normalisation), C54/C58 (T-T data) give each distribution; the export theorem C22 is generalised to need spectra only where a reaction emits, with a matching failure theorem.
- **C70 End to end: a plasma becomes a source of the requested power** — `makeSource` instantiates the constructor with the modelled reactivities, profiles, energies and flux map; composes C10, C13, C31-C37, C39, C48, C51-C53, C65, C66, C07, C69, C68.
- **C71 Grid refinement with the package's own physics** — Continuity of the Bosch-Hale formula (with limit 0 at T = 0, xi^2 exp(-3 xi)) and of the Maxwell average; profiles factor through a clip to [0, 1], hence bounded local rates; C17 and C65/C66 for the region; a half disc about the axis (C66_axis_neighbourhood) for positivity.
- **C72 EQDSK flux map independent of flux units and sign** — model of `from_eqdsk` with the spline as a parameter that commutes with affine changes of its data; loading is an affine change, the minimum commutes with increasing affine maps.
- **C73 Flux surfaces and volumes of a flux map** — surfaces are scaled and shifted copies of the LCFS; contour integrals under scaling; fan triangulation bounds the centroid; monotonicity from the derivative of the resulting quartic.
- **C74 Normalisation and bookkeeping survive rounding** — Second model of constructor loop and normalisation with a rounding after every operation and abstract `np.sum`/`sum` (any bracketing tree of any permutation); counting roundings as powers of 1-u and 1+u, Bernoulli's inequality; invariant over histories; link to the exact model (`C74_exact`) and the instance of 53-bit rounding (`C74_binary64`).
- **C75 Moving, enlarging and compressing the plasma** — Each stage of the constructor commutes with the transformation (grid, point test, profile evaluation, loop over reactions, normalisation), as equality of results including errors.
- **C76 Hotter or denser plasma never emits less** — Bosch-Hale: the sign of the derivative reduces to polynomial inequalities with rational coefficients. Cross sections: single-crossing argument on the Maxwell weight over the 1000-point table; for D-T beyond 9.5 keV and its fall from 69 keV, convexity of the weighted sum between the nodes used for C81 (`Lemmas/XsTurn.lean`). The constructor is monotone in the reactivity and in the densities.
- **C77 Mean energy of exported T-T neutrons** — The moments are weighted sums over the rows of the table; the sums of all 40 columns are evaluated by the kernel in chunks of 25 rows; between two columns everything is bilinear in the temperature; printing adds a relative error of 1.6e-5.
- **C78 Discretisation error** — A cell and the LCFS disagree only at points within half a cell of the polygon (the crossing parity of two points differs only if an edge separates them); the area within half a cell of the polygon is that swept by a square moved along it, at most L^2 + L*len, shown by subdividing the edges and letting the subdivision go to zero.
- **C79 Sampling survives rounding** — Model of sample_space_2d with every operation rounded, including numpy's arange fill (start + i*delta with the rounded delta). Forward error analysis of one axis; the rounded crossing test can differ from the exact one only within 9u times the edge width of an edge, horizontally; exact tests of two points differ only if an edge separates them.
- **C80 Mean and width of the D-T and D-D spectra** — Moments of the polygonal line as interval integrals. In s = sqrt(E) the modified Gaussian is exp(-(s-m)^2/2v) with mu = m^2+3v, sigma^2 = 4m^2 v+6v^2: closed antiderivatives of the first two central moments, boundary terms below e^-13; linear interpolation error K h^2/8 from convexity of f +- K x^2/2 with |f''| <= 4/sigma^2 on the grid; area at least 0.999 sigma.
- **C81 The two reactivity methods agree** — In y = 1/T the trapezoidal sum of positive multiples of exp(-E y) is log-convex, and so is its ratio to the Bosch-Hale exponential up to monotone factors; both are enclosed at geometric nodes of y by kernel-checked fixed-point arithmetic (scripts/gen_xs.py writes the certificates, Lean checks them), and log-convexity carries the bounds between nodes. The source statement follows because strengths are linear in the reactivity.
- **C82 Sources from EQDSK and JETTO files** — The C70/C71 proofs are stated for any flux map with plasma at positive radius and the axis inside the LCFS; for a file this follows from the winding number (C65) and the closed boundary (C72). The JETTO columns are sorted tables (C35, C38).
- **C83 Sources are independent objects** — A memory model: arrays, profile objects and sources by address, the constructor allocating and the normalisation loop multiplying in place. Invariant: no two attributes of any sources share an address. The view of a source in memory is shown to commute with every call (refinement of the pure model), with IEEE special values so that zero powers are included.
- **C84 The OpenMC and the MCNP export describe the same source** — Spec/Exports.lean reads both exports (bins of the cards; strength × mixture weight of the rings) without reference to the source; the proof joins C22/C24/C29/C68 through the distinctness of cell centres (C16).
- **C85 OpenMC exports in several threads: filters restored, no warning lost** — Model/LogThreads.lean is a step system: a step is one access to a filter list or to a set of messages. Invariant: a message in the set of a filter has been emitted, or is carried by a call all of whose remaining filters were attached later. Spec/LogThreads.lean says which exports and records a program has.
- **C86 SDEF files under crashes and parallel exports** — Model/Files.lean: a disk, calls as lists of file operations (open for writing, write, close, raise) derived from the same cards and texts as C67, events step/flush/kill. Spec/Files.lean says what a disk may look like. Invariant per call: idle between files, or writing one file of which a prefix is on the disk and the rest in the buffer.
- **C87 The OpenMC export survives rounding** — Model/RoundedOpenMC.lean: the loop of the export with a rounding after every operation, on the states of C74. Roundings are counted as powers of 1-u (`Factors`), which is symmetric and closed under quotients; emitting cells are the same with and without rounding since a rounded number is 0 only if the number is. Link to the exact model: `C87_exact`.
- **C88 Reading the cross-section files** — Model/Genfromtxt.lean transcribes numpy's genfromtxt (line splitting, malformed lines, skip_footer, float conversion); Model/XsFile.lean the constructor; Spec/Genfromtxt.lean says what words and numbers of a line are. Data/XsText.lean has the files' lines as strings; the kernel parses them with the model and compares with the tables of Data/CrossSections.lean (`C88_files`), so that script is not trusted for them.
- **C89 The SDEF files survive rounding** — Model/RoundedSdef.lean puts a rounding after each operation; Lemmas/RoundedSdef.lean gives the cards and bins in closed form for arbitrary edge and weight functions, so that rounding and printing are treated at once; Props/RoundedSdef.lean bounds the errors and joins with the text reader of C67.
- **C90 Bosch-Hale reactivities survive rounding** — Model/RoundedReactivity.lean puts a rounding after each operation and literal; Lemmas/LogClose.lean is a calculus of relative errors by logarithms; Props/RoundedReactivity.lean bounds the Horner sums absolutely, the rest relatively, and joins with C74.
- **C91 Interrupted normalisation** — Model/Interrupt.lean lists the statements of the loop; Props/Interrupt.lean computes the state after any prefix of them (membership of a statement in the prefix), and carries it through later histories.
- **C92 Normalising in several threads** — Model/NormThreads.lean is a small-step machine on the memory of C83: single loads and stores of numbers. Props/NormThreads.lean shows that a step in memory is a step on the value of the source and touches no array of another source (invariant of C83), hence a thread's source depends only on the number of its own steps; the solo run is then the normalisation. The races are explicit schedules, for every source.
- **C93 The whole constructor in floating point** — Model/RoundedMake.lean composes the rounded grid (C79), reactivities (C90), strengths and normalisation (C74) into one constructor; Spec/RoundedMake.lean gives the rate of a cell by the formulas. The errors are added up in logarithms (Lemmas/LogClose.lean); the scaling factor is compared through the power after normalisation. `C93_exact` shows that without rounding it is the constructor of the exact model.
- **C94 Cross-section reactivities in floating point** — Model/RoundedXs.lean rounds every operation from the decimal numbers of the file to the sum; Spec/RoundedXs.lean defines arithmetic with gradual underflow. The kernel checks that neighbouring rows of the actual tables are so far apart that interpolation amplifies relative errors by a bounded factor (Lemmas/XsTable.lean); the other steps are error analysis in logarithms with an absolute term for underflow. `C94_exact` shows that without rounding it is the model of C53.
- **C95 From the plasma to the Monte Carlo input in floating point** — No new model: the constructor of C93/C94 is joined with the exports of C87 and C89. Spec/RoundedExport.lean states what an exported source should be from the plasma alone (`RingIdeal`, `BinIdeal`), without a source object. The constructed source is shown to meet every assumption of C87 and C89 (reachability, array lengths, separated cells), and relative errors are composed; a cell or channel is exported if and only if it is positive in exact arithmetic.
- **C96 As the cells shrink, the exported OpenMC source tends to the neutron source of the plasma** — a ring samples its radius from the linear density and its height uniformly; its mean of a uniformly continuous function is within the modulus of continuity of the value at the cell centre (parametric interval integrals). The mean over all rings is a quotient of sums over cells (C22), whose numerator and denominator converge by C17's Riemann sums and a domination argument; the energy corollaries use C69.
- **C97 Exporting to OpenMC while other threads normalise** — Model/ExportThreads.lean adds to the machine of C92 an exporting thread that loads the rates and then the strengths one number at a time. Invariant: every number in the object, hence every number loaded, is the old one or the old one times f (the normalising thread is followed point by point); the export of such a mixture is computed with the closed form of C22 and compared. The reached bound is an explicit schedule.
- **C98 As the cells shrink, the SDEF files tend to the neutron source of the plasma** — Spec/SdefLimit.lean: MCNP's reading of the cards (bin with its probability, uniform within the bin). The bins are the cells (C25), their probabilities the shares of the strength; the mean over a bin is near the value at its centre, uniformly (Heine-Cantor), and the weighted Riemann sums converge (C71, C96).
- **C99 D-T and D-D neutron spectra survive rounding** — Model/RoundedEnergy.lean repeats fit, grid, densities, normalisation with a rounding after every operation. Errors are followed as differences of logarithms where quantities are positive and as absolute errors through the cancellations (ends of the grid, `sqrt(f) - f`, difference of roots); the ratio of width to mean is bounded below on the temperature range. `C99_exact` links it to the exact model.
- **C100 Profiles and fuel composition survive rounding, from parameters to strengths** — Model/RoundedProfile.lean repeats profiles, composition and transport with a rounding after every operation. The loss of accuracy of (1 - rho^beta)^alpha near the edge is bounded by alpha h (alpha >= 1) or h^alpha (Hoelder); the Bosch-Hale reactivity is shown to change by at most 240 times a relative change of the temperature (`C100_conditioned`); joined with C93. Monotonicity of 53-bit rounding is proved (`C100_binary64_order`); `C100_exact` links to the exact model.
- **C101 Parameterised flux surfaces and flux maps survive rounding** — Model/RoundedFlux.lean repeats parameters, angles, both surface formulas, closure test, maps and normalisation with a rounding after every operation and a library sin/cos. Errors are tracked with an interval-like calculus (`MagErr`). That moving the vertices of a polygon by eps changes membership only within eps of it is proved by a homotopy argument on crossing parities (`moved_polygon`); a computed surface is not exactly closed, so C79 is applied to the surface closed up. `C101_exact` links to the exact model.
- **C102 Writing SDEF files while other threads normalise** — Model/SdefThreads.lean adds to the machine of C92 a thread that goes five times through the strengths of each channel (total, two sums of the mean temperature, SP3, vertical SP cards), one number at a time. Invariant as in C97; the files are computed from the five loads and compared by bounding every sum and histogram between min(1, f) and max(1, f) times the undisturbed one. The reached bound is an explicit schedule.
- **C103 Area, centroid and volume survive rounding** — Model/RoundedPolygon.lean repeats the polygon functions with a rounding after every operation; `np.dot` is a library routine with the classical error bound, proved for every bracketing (`C103_dot`) and for fused operations (`C103_fused`). Forward error analysis by induction over the edges, relative to the contour integrals of C45; the surfaces of C101 meet the hypotheses. The counterexample is computed digit by digit.
- **C104 A slightly wrong plasma gives a slightly wrong source** — No new model: the rounded constructor and exports of C93 and C95 run on the perturbed plasma and are compared with the plasma meant. Condition numbers from the logarithmic derivative of each factor; modulus of continuity of clipped powers for the profiles; positivity is preserved under relative errors, so the list of exported cells is the same.
- **C105 From equilibrium and transport files to the neutrons of OpenMC, on fine grids** — The limit theorems C71 and C96 are generalised from parameterised plasmas to every LCFS at positive radius with a half disc around the magnetic axis inside; an axis off the boundary has one, because the crossing test is locally constant below a point that is not on an edge. C82 supplies flux map and profiles.
- **C106 From equilibrium and transport files to the neutrons of MCNP, on fine grids** — C106_bins extends C24/C25 to any cells: the upper edge of a bin is the lower edge of the next sampled radius (or height in the column). A bin that is stretched by more than omega is followed by a gap of more than omega, so at most width/omega + 1 columns and at most height/omega + 1 cells of each column are; with at most width/L + 1 columns of height/L + 1 cells these are O(1/L) cells of strength O(L^2). So the mean over the cards is within any epsilon of that over the cells, whose limits are those of C105.
- **C107 T-T spectra survive rounding** — Model/RoundedTT writes out scipy's two-dimensional interpolator (interval search, normalised distances, four corners) operation by operation. Backward error: the computed weight y defines a temperature at which the exact weights are y and 1 - y; order-preserving rounding keeps y in [0, 1], so all terms are non-negative and relative errors count up. The differences of the energies lose three digits (checked from the data: neighbours are a thousandth of their sum apart). C107_exact: with exact arithmetic this is the interpolation of the exact model (C58).
- **C108 OpenMC samples the plasma's neutrons: energies and positions together, with every spectrum method** — Extends C96 and C105. Spec/EnergyLaw states, without the package's functions, the mean over a normal or tabulated law and the published law of each reaction (T-T rows linear in temperature, modified Gaussian at 1000 points, normal). law_of: the exported distribution has the same means. Continuity in temperature: each segment integral is rescaled to [0, 1] (parametric integrals), the normal law is standardised (dominated convergence with a quadratic bound). C108_weight: the published laws have total weight 1.
- **C109 Hotter ions give faster neutrons and broader spectra** — The slope of Ballabio's fit in closed form; its only negative part is bounded below by -(a3 - 2/3)^2/(4 a3) (a perfect square), which is smaller than the linear term (mean) or than half the inverse temperature (width). C109_tables combines this with C80.
- **C110 The complete OpenMC input in floating point, spectra included** — Model/RoundedInput joins the rounded export (C95) with the rounded spectra (C99, C107) into one function. Spec/RoundedInput states what an exported source should be from the plasma and the published laws of C108 alone (RingOf, LawOf). law_table: the exact tables are the published ones up to a positive factor; C95 gives which cells and reactions appear, C99/C107 the distance of every table; success needs spectra of the reactions that give neutrons only (C87_succeeds and C95_succeeds were weakened to that). C110_exact, C110_exact_export: at zero rounding the functions are those of the exact model.
- **C111 The complete MCNP input in floating point, energy cards included** — Model/RoundedSdefText is the text of Model/SdefText with the energy cards computed with rounding (the temperature times the scale factor of pint, the T-T table of C107). Every energy card is that of an exact one at another temperature or table, so the reader of C67 reads it (cardsR); tt_energy follows the table from C107 through the conversion to MeV and printing, uses that neighbouring energies differ by at least 0.2 percent for the strict order, and that all numbers are within 1e-120 and 1e120 for printing. text_cards: the cards that MCNP reads; same_positions: the position cards are those of C95_sdef, whose claims carry over. C111_exact: at zero rounding the text is that of C67.
- **C112 In floating point the OpenMC input and the SDEF files describe the same neutrons** — Spec/RoundedAgree: the fraction that OpenMC starts around a point, found by looking which exported cross-sections contain it (the mixtures carry the reaction in place of its spectrum, as in C84). sampled_apart: rounded cells are at least three quarters of a side apart; extents are within a few units of rounding of the cell, so exactly the ring of the cell contains its centre (forall2_pick). ring_fraction joins strength and mixture weight of C95 into the share of the reaction; the SDEF side is the header total of C111 (over all files a quotient of sums of nearly right terms) times the bin share.
- **C113 Discretisation error in floating point** — Spec/RoundedGridError states the volume integrals and the error bound. rounded_cells (from C79): computed centres are one-to-one with lattice points up to gridTol, and only lattice points near the LCFS can be missing or too many. cells_error: the step function over such cells differs from the emissivity only by its change within a cell, and within the strip, whose area is bounded as in C78. C113_sum moves the weights 2 pi x from the lattice to the computed centres. C113_binary64 adds C93/C94 (rates right to 2e-9) and the quotient by the power of all cells. C113_first_order: the bound divided by L stays bounded for Lipschitz rates.
- **C114 Means over the sampled neutrons in floating point** — Spec/RoundedMean states the neutrons per cubic metre, the volume integral and what it means for a quantity to change little. ringOf_mean: the mean over one exported ring stays within the change of the quantity around the centre (the ring edges are right to 4e-9 of their size, and a resolved grid is at most 14 million cells from the axes). ringOf_share and paired_sums: C110 ring by ring. C113_sum for the numerator and the denominator, then the quotient.
- **C115 Starting points sampled by MCNP in floating point** — Spec/RoundedMcnpMean states the grid without gaps; the mean is that of C98 (Spec/SdefLimit) over the cards read from the text as in C111. binIdeal_mean: a bin stays within one cell side of its centre. bins_mean and paired_sums: C111 bin by bin. C113_sum for the numerator and the denominator, then the quotient.
- **C116 A whole MCNP run in floating point** — mcnp_run_cells compares the run with the sum over the cells: file_mean takes C115's bin argument with the weights of C112 (which compares bins with rings, and rings with the cells), then the sums over files and cells are exchanged. C113_sum for the numerator and the denominator, then the quotient.
- **C117 OpenMC and MCNP sample the same starting points in floating point** — openmc_cells (the first half of C114) and mcnp_run_cells (the first half of C116) compare either export with the same sum over the cells.
- **C118 Every number on the SDEF cards can be printed and read** — double_sum_gap: the sum or difference of two numbers with 53 binary digits is zero or at least 2^-55 of either (both are multiples of a power of two). edge_range, sum_range for the numbers; C89's explicit form of the cards (sdefCardsR_eq).
- **C119 Plotting the profiles** — Model/TransportPlot.lean: the loop over the species with np.allclose and matplotlib's list of line styles. Case analysis on which species are visible; the values at the radii come from C32, C34 and C35.

## Trusted base
- **Lean's kernel** (4.33.0). `vcheck` replays every module. No `native_decide`/`bv_decide`; the few
  checks on literal data (cross-section tables, T-T spectra) are evaluated by the kernel (`decide +kernel`).
- **Axioms**: every theorem depends on a subset of `propext`, `Classical.choice`, `Quot.sound`
  (Mathlib's usual three). None is added.
- **The transcription** from Python to Lean, by hand, function by function (each definition cites its
  lines), and the generated data modules: `scripts/gen_text.py` copies the lines of
  `data/cross_sections/*.txt` into strings, from which the kernel derives the tables (C88);
  `scripts/gen_data.py` turns the numbers of the T-T spectra file into naturals times a power of ten.
  `scripts/gen_xs.py` writes the certificates used for C81; these are not trusted, the kernel checks them.
- **Semantics assumed for external code**: see the next table.

### Modelled
| file | modelled | not modelled |
|---|---|---|
| `main.py` | `_parse_source_type`, constructor, rates, power, normalisation, many objects in one memory (C83), interruption (C91) and threads (C92, C97, C102), `to_openmc_source`, `to_sdef_card`, `plot` (which panels) | `to_h5_source` (raises), figure details |
| `reactions.py` | enums and their tables, `_parse_reaction` | – |
| `reactivity.py`, `reactivity_data.py` | dispatch, Bosch-Hale, cross-section integral, loading of the tables with the actual data | – (`np.genfromtxt` on the text of the files: C88) |
| `energy.py`, `energy_data.py` | dispatch, Gaussian, modified Gaussian, Ballabio fits, T-T data with the actual table, trimming, normalisation | – |
| `space.py` | everything | – |
| `profile.py`, `transport.py` | everything; object sharing by a heap model | details of the figure |
| `flux.py` | closedness, LCFS parameters, both parameterisations, flux normalisation, label arrays, contour choice, resampling, requested surfaces, area/centroid/volume, `from_eqdsk`, `from_parameterisation`, `get_flux_surface`, `volume` | contourpy (its contours are a parameter), scipy's `RectBivariateSpline` (a parameter; C72 assumes that it commutes with affine changes of its data) and `CloughTocher2DInterpolator` (`psi_norm` is an arbitrary function), plotting |
| `tools.py` | polygon functions, `load_eqdsk` sign flip, `load_jsp` slicing, path lookup, log filter (also with threads, C85) | reading the binary/EQDSK/YAML files |
| `mcnp_interface.py` | everything: cards, `.5e` formatting, wrapping, file names and the full text of the files, read back by an independent reader (C67, C68), how the files on the disk change (C86) | byte encoding, `"\t"` (unused) |
| `openmc_interface.py` | everything, OpenMC classes as records | OpenMC itself |
| `constants.py` | `raw_uc`, `units_compatible` (scale factors and dimensions, with the energy-mass-temperature context), reaction energies from masses | pint's parser, the registry object; values of the masses are parameters except where a theorem states them |

### Numbers
Finite floats are exact numbers: rounding, overflow, underflow and signed zero are not modelled, except
that rounding is modelled in C74 (`Model/Rounded.lean`: constructor loop and normalisation), C79
(`Model/RoundedSpace.lean`: `sample_space_2d`), C87 (`Model/RoundedOpenMC.lean`: the OpenMC export), C89
(`Model/RoundedSdef.lean`: the SDEF files), C90 (`Model/RoundedReactivity.lean`: Bosch-Hale reactivities), C93
(`Model/RoundedMake.lean`: the whole constructor) and C94 (`Model/RoundedXs.lean`: cross-section reactivities, with
gradual underflow), C99 (`Model/RoundedEnergy.lean`: D-T and D-D spectra), C107 (`Model/RoundedTT.lean`: T-T spectra) and C100
(`Model/RoundedProfile.lean`: profiles, composition, transport), C103 (`Model/RoundedPolygon.lean`: area, centroid, volume) and C101
(`Model/RoundedFlux.lean`: flux surfaces, flux maps, normalisation); C95, C110 (`Model/RoundedInput.lean`: the OpenMC input with
its spectra) and C111 (`Model/RoundedSdefText.lean`: the text of the SDEF files) join them from the plasma to the exported input; C112
compares the two, C113–C116 compare the source and the sampled neutrons with the continuous plasma, C117 the neutrons that the two codes sample; C118 shows that all numbers on the SDEF cards can be printed.
Statements such as "the sum is 1" are statements in exact arithmetic.
`matplotlib.path.Path.contains_points` is an arbitrary function in most theorems; in
C65 and C17 it is a model of matplotlib's published crossing test.

## Findings (claims that are false of the code, each with a proved witness unless marked *read*)
1. C07: normalising a source whose total power is 0 gives `inf`/`nan` strengths (or `ZeroDivisionError` with no channel), without an exception.
2. C25: a vertical gap in a column (non-convex LCFS) stretches an SDEF bin over cells outside the plasma. Impossible for Fausser plasmas (`C25_fausser`) and for Sauter plasmas without squareness (`C25_sauter`). The share of the source in such bins tends to 0 as the cells shrink (C106).
3. C27: continuation lines exceed `max_length`, because wrapping happens before indenting.
4. C29: for T-T the header's "Total source neutrons" counts reactions, not neutrons (factor 2).
5. C41: a Shafranov shift above half the minor radius is accepted, and inner surfaces then stick out of outer ones.
6. C42: Sauter surfaces ignore the Shafranov shift and do not scale the squareness term, so surfaces do not shrink to the O-point; radii may be negative.
7. C45: a self-intersecting polygon can have negative volume.
8. C48: with the SQRT convention the labels are the square roots of the requested flux.
9. C49: an open contour is silently closed when `n_points` is given.
10. C52: the D-D (n) Bosch-Hale fit is `nan` between about 966 and 2717 keV.
11. C53: `genfromtxt(..., skip_footer=2)` also drops the last data row; at T = 0 the cross-section method gives `nan` where Bosch-Hale gives 0.
12. C58: the T-T spectrum warns also at exactly 1 and 20 keV.
13. C61: an absolute `path` escapes the package root; a root containing `egg` short-cuts to `/<subfolder>`.
14. `HE_MOLAR_MASS` is the mass of natural helium instead of He-4 (*read*; changes Q of D-T by about 1 keV).
15. `load_eqdsk` modifies the caller's object (modelled; harmless for repeated use, `C72_reuse`).
16. The header uses `:5e` (6 decimals) where `.5e` was meant (*read*); the T-T card prefix `SI2 H ` is added after wrapping, so its first line can be 86 long (*read*).
17. C67: with no author metadata the header still carries the blank lines of the authors block.
18. The T-T energy distribution of an SDEF file is a histogram whose bin probabilities are the *densities at the upper bin edges*; its mean is 10.45 to 10.6 keV (half a bin) below that of the tabulated spectrum at every temperature (C77).
19. C11: `E_TT_NEUTRON` leaves out the motion of the ⁵He nucleus that emits the second neutron; the mean neutron energy is larger by one sixtieth of the energy of the first step (`C11_TT_neutron`).
20. C70: with T-T among the channels (as in the default `source_type`) and the default reactivity method, one sampled cell with temperature 0 (for instance a parabolic temperature profile, zero at the edge) makes the T-T strength, the rates and the power NaN, although Bosch-Hale channels give 0 there (`C70_cold_cell`).
21. C42: with non-zero squareness a Sauter surface is not up-down symmetric: mirrored points differ in radius by twice the squareness term (`C42_mirror`).
22. C73: for an accepted plasma of aspect ratio 1.1 with a large shift, `volume(0.9)` exceeds `volume(1)` (`C73_volume_can_shrink`).
23. C73: with the SQRT convention `get_flux_surface(r)` of a parameterised map returns the surface labelled `sqrt(r)` by its own `psi_norm` data (`C73_surface_label`).
24. C75: Sauter surfaces with squareness do not scale with the plasma size (the squareness term is a bare length; `C75_sauter_squareness`).
25. C81: the comparison tests of the repository (`tests/test_reactivity.py`) are one-sided and sample 100 temperatures. The cross-section reactivity exceeds Bosch-Hale by more than 11 % (D-D neutron) and 15 % (D-D proton) at 0.2 keV and by more than 2.7 % at 32 keV, and the test's own bound 0.0246 fails at 20/19 keV, between two samples (`C81_differences`).
26. C82: `from_jetto` does not extend the radii to 1: if the file ends before the separatrix, the constructor raises scipy's `ValueError` as soon as one cell lies beyond the last radius (`C82_short_grid`), although the axis side is extended to 0.
27. C85: with three exports in three threads, the same warning can be emitted twice inside one export: `__exit__` of another export removes its filter from the list along which `logging` is walking, so the next filter is skipped (`C85_twice`).
28. C86: `to_sdef_card` truncates and rewrites files in place: a killed export leaves a cut-off file, and two exports at the same time with the same stub can leave the text of one followed by the rest of the other (`C86_same_name`).
29. C88: comment lines between the rows of a data file shift numpy's line numbers, so that a malformed row in the middle is dropped without an error (`C88_silent`; numpy, not met by the shipped files).
30. C91: an exception that arrives inside `normalise_fusion_power` leaves an object whose channel ratios are wrong for good, and one channel whose rates do not match its strengths; later normalisations do not repair it (`C91_ratio`, `C91_rates`).
31. C92: `normalise_fusion_power` is not safe to call from two threads on one source (no lock): both factors are computed from the old power and both are applied (`C92_scaled_twice`), or a rate update is lost (`C92_lost_update`). On different sources it is safe (`C92_independent`).
32. C97: `to_openmc_source` during a normalisation of the same source in another thread can divide new strengths by the old source rate: the exported strengths then add up to f = P / power instead of 1 (`C97_mixed`); nothing worse can happen (`C97_bounded`).
33. C98: an SDEF file gives all neutrons of a channel the spectrum of the mean ion temperature, so as the cells shrink its energies do not tend to those of the plasma (the OpenMC export does, C96); within one bin MCNP samples the radius uniformly, where the volume (and the OpenMC export) would ask for a density growing with the radius: an error that vanishes with the cell size.
34. C100: a parabolic profile is not clipped, so with a library power that is not exact at rho near 1 the computed factor `1 - rho^beta` can be slightly negative and `sign(f) |f|^alpha` then gives a slightly negative density or temperature (bounded by C100_parabolic); at the pedestal top the computed profile may jump up by a few roundings *read*.
35. C101: the closure tolerance of `is_closed` is absolute (1e-12), while the first and last computed points of a surface differ by rounding errors proportional to its size: any Fausser surface with psi a kappa >= 4200 about z0 = 0 is refused in double precision (`C101_rejects`), so a tokamak described in millimetres cannot be used; below about 45 m every surface is accepted (`C101_closes_fausser`, `C101_closes_sauter`).
36. C102: `write_mcnp_sdef_source` goes through the strengths of a channel five times, twice inside `mean_ion_temp`; a normalisation of the same source in another thread can fall between the two sums, and the file then states the ion temperature divided by f = P / power with everything else as undisturbed (`C102_mixed`).
37. C103: `get_area_2d` and `get_centroid_2d` do not subtract a reference point, so surfaces far smaller than their distance from the origin are lost in rounding: a right triangle with sides of 2^-30 m at (1, 1) has computed area 0 and, since `get_centroid_2d` then skips the division, a computed centroid 1e-18 m from the axis (`C103_lost`).
38. C104: read at the edge, a pedestal profile amplifies an error of the flux label by (pedestal - separatrix) / (separatrix (1 - rho_ped)), several hundred for ordinary plasmas, and this factor is attained (`C104_sharp`): flux labels from an interpolated equilibrium need far more digits at the edge than in the core.
39. C119: `TransportInformation.plot` asks matplotlib for the line style `"."` (a marker) for helium-3, so it raises `ValueError` for every plasma with helium-3 (`C119_plot`; matplotlib's list of styles is *read*).
