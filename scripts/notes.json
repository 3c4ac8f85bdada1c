{
 "C07": {
  "note": "The unconditional guarantee is false; the theorems give the exact condition and the failing behaviour."
 },
 "C31": {
  "note": "Exact arithmetic; sum, ratios, idempotence, rejection of a zero sum, range [0,1] for non-negative input."
 },
 "C32": {
  "note": "Species = fraction x fuel at every radius for arrays; sum with a constructed composition; object-based construction gives the same value functions."
 },
 "C33": {
  "note": "Heap model with references; arbitrary histories of set_scale on any objects."
 },
 "C34": {
  "note": "All three profile kinds, any list of scales."
 },
 "C35": {
  "note": "scipy interp1d modelled as sort + np.interp with bounds check."
 },
 "C36": {
  "note": "Real powers; exponents positive (numpy and Lean differ on 0 to a negative power)."
 },
 "C37": {
  "note": "Includes the boundary cases rho_ped >= 1 and <= 0."
 },
 "C38": {
  "note": "Decoded file content; the binary reader of jetto_tools is not modelled."
 },
 "C39": {
  "note": "Exact acceptance condition, error class, stored values."
 },
 "C40": {
  "note": "Real trigonometry; exact closedness (float rounding of sin(2 pi) is not modelled)."
 },
 "C41": {
  "note": "Also proved in the plane: every surface is the boundary of its convex hull, and for shifts up to half the minor radius the surfaces are strictly nested. The unrestricted claim is false for accepted shifts above half the minor radius; exact condition and witness proved."
 },
 "C42": {
  "note": "Closedness proved for both parameterisations; the axis claim is false unless shift = squareness = 0 (n_points >= 6), proved as an equivalence; also a witness with negative radius."
 },
 "C43": {
  "note": "Both conventions."
 },
 "C44": {
  "note": "In-place modification by load_eqdsk modelled as a new record."
 },
 "C45": {
  "note": "Contour integrals are Mathlib interval integrals along each edge; volume = pi * sign(area) * contour integral of x^2 dz; absolute value for star-shaped polygons at non-negative radius; negative volume possible for self-intersecting polygons."
 },
 "C46": {
  "note": "Polylines without zero-length segments."
 },
 "C47": {
  "note": "contourpy's contours are a parameter."
 },
 "C48": {
  "note": "LINEAR labels equal the requested flux, SQRT labels its square root (finding)."
 },
 "C49": {
  "note": "Includes the finding that an open contour is silently closed when n_points is given."
 },
 "C50": {
  "note": "Tolerance as exact decimal 1e-12."
 },
 "C17": {
  "note": "Volume and every channel's rate converge to the exact integrals (Riemann sums over the O-point lattice, any flux map continuous on the plasma); lcfs.volume is the true volume by Green's theorem for polygons with winding number 0/1."
 },
 "C51": {
  "note": "All methods, all parsed reactions; error classes included."
 },
 "C52": {
  "note": "Actual coefficients; the claim fails above the fit range for D-D (n): exact failing window proved."
 },
 "C53": {
  "note": "Actual cross-section tables, embedded and checked by the kernel."
 },
 "C54": {
  "note": "Exact trapezoid integral 1 for every spectrum returned."
 },
 "C55": {
  "note": "Exact characterisation of the mask."
 },
 "C56": {
  "note": "All methods and reactions."
 },
 "C57": {
  "note": "Actual Ballabio coefficients, whole range 0 < T <= 40 keV."
 },
 "C58": {
  "note": "Actual T-T table; clip outside 1..20 keV; finding: warns at the end points too."
 },
 "C59": {
  "note": "Any sequence of log records and filter operations, with or without exception."
 },
 "C61": {
  "note": "Arbitrary directory predicate and strings; findings about absolute paths and 'egg'."
 },
 "C62": {
  "note": "Selection and order of panels only."
 },
 "C65": {
  "note": "Model of matplotlib's crossing test (external code)."
 },
 "C67": {
  "note": "The full text; numbers in the range 1e-400..1e400 or zero, distribution numbers below 10^40. Encoding of the file not modelled."
 },
 "C68": {
  "note": "Finite mean temperature needed (total strength not zero), else the energy card is nan (C30)."
 },
 "C69": {
  "note": "Finding: the densities passed to OpenMC stay per keV (area 1000 in eV); OpenMC normalises tables itself. OpenMC's rejection of a non-positive standard deviation is assumed."
 },
 "C70": {
  "note": "makeSource is Source.init with the concrete models; psi_norm between the surfaces (scipy interpolator) is an arbitrary function."
 },
 "C71": {
  "note": "psi_norm is any function continuous on the plasma region."
 },
 "C72": {
  "note": "RectBivariateSpline is a parameter assumed to commute with affine changes of the grid data."
 },
 "C73": {
  "note": ""
 },
 "C74": {
  "note": "Standard model: no overflow/underflow. Reactivities, volumes and profile values are taken as the floats they are."
 },
 "C75": {
  "note": "Exact arithmetic. psi_norm of the transformed map is assumed to be the transformed psi_norm (the interpolator's data are shown to transform)."
 },
 "C76": {
  "note": "Exact arithmetic. For the cross-section method the masses of D and T and the units are taken to the digits in which published values agree, and m_He3 at least 1.49 m_D. C76_xs_shape needs only m_T, m_He3 at least 1.49 m_D, and gives D-T up to 9.5 keV. The limits are what is proved; for D-T the true maximum is located to within the stated interval."
 },
 "C77": {
  "note": "Records finding 18: the histogram is shifted by half a bin with respect to the density."
 },
 "C78": {
  "note": "Quantitative companion of C17."
 },
 "C79": {
  "note": "Assumes no overflow/underflow and no fused multiply-add."
 },
 "C80": {
  "note": "Exact real arithmetic; the tolerances are proved bounds, not the (smaller) true errors."
 },
 "C81": {
  "note": "Exact real arithmetic. Masses and constants enter as intervals containing all published values (Measured)."
 },
 "C82": {
  "note": "The decoding of the binary JETTO file and of the EQDSK text is not modelled; scipy's spline is an arbitrary function."
 },
 "C83": {
  "note": "Flux maps are immutable values; user code that stores one source's array in another source is outside the model."
 },
 "C84": {
  "note": "The energy spectra of the two exports are different objects and compared elsewhere (C20, C69)."
 },
 "C85": {
  "note": "A step is one access to a list or a set (atomic under the interpreter lock). Every message belongs to one logger (true of the two texts in the code; `C85_told_needs_loggers` shows it is needed)."
 },
 "C86": {
  "note": "Files are lists of characters; deletion, power failure and OSError as such are not modelled (an OSError is a kill after some flush)."
 },
 "C87": {
  "note": "No overflow or underflow; the energy distributions themselves are parameters."
 },
 "C88": {
  "note": "The text of the T-T spectra file itself is not embedded (only its layout, C88_rows); inf, nan and underscores in numbers are not modelled."
 },
 "C89": {
  "note": "No overflow or underflow (Printable); rounding inside the energy card (keV to MeV) is not modelled."
 },
 "C90": {
  "note": "No underflow (values below 1 eV are not bounded); the temperatures are the floats the code holds."
 },
 "C91": {
  "note": "Interruptions come between Python statements; an in-place numpy multiplication is one statement."
 },
 "C92": {
  "note": "numpy is assumed to load and store elements in order, one at a time; the interpreter lock would only exclude some of the schedules."
 },
 "C93": {
  "note": "`psi_norm` and the profile values are taken as computed. The general theorems take any accuracy of the reactivities; C93_binary64 is for the Bosch-Hale channels."
 },
 "C94": {
  "note": "Constants and masses are assumed to have the right size to one digit (RoughData), which the measured ones have. Overflow is not modelled. `genfromtxt` is taken to round each decimal number once."
 },
 "C95": {
  "note": "`C95_openmc`, `C95_sdef` hold for every standard-model arithmetic, `C95_binary64` gives the numbers. The printed numbers are assumed to lie between 1e-400 and 1e400 in size (or to be 0), which all finite binary64 numbers do. The profiles and the flux map are taken as computed (see C93)."
 },
 "C96": {
  "note": "OpenMC's sampling is specified as documented (Tabular linear-linear radius, Uniform height, azimuth irrelevant by symmetry; source by strength); for the package's tabular spectra only functions of the starting point are covered by a named corollary."
 },
 "C97": {
  "note": "Several normalisations of the exported source at once are not covered (C92 shows what they do to the object); the export computes from finite numbers only."
 },
 "C98": {
  "note": "The numbers on the cards before formatting (C74, C93 bound the rounding of the text). The file's spectrum is that of the mean temperature, in the limit too: it is not the mean of the spectra (finding 33)."
 },
 "C99": {
  "note": "T-T spectra (interpolated data) are not covered. No underflow: the smallest density is exp(-28.7) of the peak. `sigma_sq = 4/3 mu^2 (sqrt(f) - f)` cancels, which costs the factor 1/T in the bound for the modified Gaussian."
 },
 "C100": {
  "note": "Rounding inside `psi_norm` is not covered: the flux coordinate is any function. The monotonicity theorems need a library power that is monotone in the base, which libm does not promise; the accuracy theorems do not."
 },
 "C101": {
  "note": "The 2-D interpolation between scattered points (matplotlib/scipy) stays a parameter, as everywhere. `C101_rejects` is proved for the Fausser surface with z0 = 0."
 },
 "C102": {
  "note": "As in C28 the energy card is represented by its ion temperature. Each pass loads the cells in order."
 },
 "C103": {
  "note": "No overflow or underflow. numba compiles the loops without reassociation (fastmath is off)."
 },
 "C104": {
  "note": "The condition numbers are upper bounds; 5300 is dominated by the factor exp(-E/T) at E = 1000 keV and T = 0.2 keV."
 },
 "C105": {
  "note": "The interpolation of the flux grid is a parameter, assumed continuous."
 },
 "C106": {
  "note": "The interpolation of the flux grid is a parameter, assumed continuous. A stretched bin (finding 2) is not excluded at a finite cell size; its share tends to 0."
 },
 "C107": {
  "note": "pint's scale factors are parameters accurate to ten roundings. The order of scipy's additions is that of evaluate_linear_2d."
 },
 "C108": {
  "note": "Exact arithmetic. Sampling inside a cell is OpenMC's box sampling as in C96; the spline of EQDSK files is a parameter, continuous in position."
 },
 "C109": {
  "note": "Exact arithmetic. T-T spectra have no published width and are not included."
 },
 "C110": {
  "note": "Cell temperatures above 40 keV are outside the published fits' checked range. pint's conversion factors are parameters, correct up to ten roundings."
 },
 "C111": {
  "note": "As in C89 and C95 the numbers on the position cards are assumed to be zero or between 1e-400 and 1e400, as all doubles are. pint's conversion factors are parameters, correct up to ten roundings."
 },
 "C112": {
  "note": "Exact counterpart is C84. Reactions without neutrons (D-He3, aneutronic D-D) have no file and no weight. Hypothesis Printable as in C89/C111."
 },
 "C113": {
  "note": "The bound is relative to the power of the plasma, so it needs that power to be positive. Exact counterpart for unnormalised sources is C78."
 },
 "C114": {
  "note": "Spectra enter through LawOf: the quantity has to be close for every distribution that may stand for the published one. Limit without rounding: C96."
 },
 "C115": {
  "note": "Without the hypothesis on gaps bins reach across the gap and the error is not of first order in the cell side (the total weight of such bins tends to 0: C98)."
 },
 "C116": {
  "note": "The function `read` in the theorem stands for what MCNP reads from the texts; the theorem shows first that the texts of the files that occur can be read."
 },
 "C117": {
  "note": ""
 },
 "C118": {
  "note": "Discharges the hypothesis `Printable` of C111, C112 and C115 to C117. The exponents of the modelled doubles are unbounded; real doubles lie between 1e-324 and 1e309."
 },
 "C119": {
  "note": "The list of line styles is read from matplotlib (not in /repo). Axis labels, legends and colours are not modelled."
 }
}