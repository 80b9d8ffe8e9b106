{"id": "C01", "title": "AB reference spectrum is flat in frequency", "statement": "sed_ab(wave)[i] * wave[i]**2 is the same constant for every wavelength, and the returned flux is positive for every nonzero wavelength.", "quantifier": "all nonzero wavelengths, arrays of any length", "why_tests_cant": "The claim ranges over a continuum of values and arrays of every size; tests only sample a few.", "anchors": ["src/kcorrect/utils.py:sed_ab"]}
{"id": "C02", "title": "SDSS AB correction is exactly a magnitude offset", "statement": "For positive maggies, the magnitude of sdss_ab_correct(maggies, abfix=f) in band i equals the input magnitude plus f[i], for a single object and for every object of an array with any number of leading axes.", "quantifier": "all positive maggies, all 5-vectors of offsets, all leading shapes", "why_tests_cant": "The claim ranges over a continuum of values and arrays of every size; tests only sample a few.", "anchors": ["src/kcorrect/utils.py:sdss_ab_correct"]}
{"id": "C03", "title": "SDSS AB correction preserves signal-to-noise", "statement": "sdss_ab_correct returns maggies' and ivar' with maggies'^2 * ivar' = maggies^2 * ivar in every band of every object.", "quantifier": "all maggies, ivar and offsets, all leading shapes", "why_tests_cant": "The claim ranges over a continuum of values and arrays of every size; tests only sample a few.", "anchors": ["src/kcorrect/utils.py:sdss_ab_correct"]}
{"id": "C04", "title": "SDSS AB correction is invertible", "statement": "Applying sdss_ab_correct with offsets f and then with offsets -f gives back the original maggies and inverse variances.", "quantifier": "all maggies, ivar, offsets", "why_tests_cant": "The claim ranges over a continuum of values and arrays of every size; tests only sample a few.", "anchors": ["src/kcorrect/utils.py:sdss_ab_correct"]}
{"id": "C05", "title": "SDSS AB correction rejects inputs that are not ugriz", "statement": "sdss_ab_correct raises an exception whenever the last axis of maggies does not have exactly 5 entries, the offsets do not have exactly 5 entries, or maggies and ivar differ in shape; it never returns numbers for such input.", "quantifier": "all shapes of maggies, ivar and abfix", "why_tests_cant": "Every combination of ranks and sizes; tests use shape (5,) and (2,5) only.", "anchors": ["src/kcorrect/utils.py:sdss_ab_correct"]}
{"id": "C06", "title": "Error floor never adds confidence", "statement": "error_floor never returns an inverse variance larger than the one given, and leaves entries with ivar <= 0 exactly as they were.", "quantifier": "all floors, maggies, ivar; single objects and tables", "why_tests_cant": "The claim ranges over a continuum of values and arrays of every size; tests only sample a few.", "anchors": ["src/kcorrect/utils.py:error_floor"]}
{"id": "C07", "title": "Error floor is enforced", "statement": "After error_floor, every entry with ivar > 0 and maggies != 0 has fractional error 1/(|maggies| sqrt(ivar)) at least the floor of its band, and the returned ivar is the smaller of the input ivar and 1/(|maggies| floor)^2.", "quantifier": "all positive floors, all maggies and ivar", "why_tests_cant": "The claim ranges over a continuum of values and arrays of every size; tests only sample a few.", "anchors": ["src/kcorrect/utils.py:error_floor"]}
{"id": "C08", "title": "Error floor is idempotent", "statement": "Applying error_floor twice with the same floors and maggies gives the same result as applying it once.", "quantifier": "all positive floors, maggies, ivar; single objects and tables", "why_tests_cant": "The claim ranges over a continuum of values and arrays of every size; tests only sample a few.", "anchors": ["src/kcorrect/utils.py:error_floor"]}
{"id": "C09", "title": "Error floor acts object by object", "statement": "error_floor on an [N, Nr] table equals error_floor applied to each row separately, for every N including 0.", "quantifier": "all tables of any size, any arithmetic including IEEE floats", "why_tests_cant": "Unbounded number of rows, and equality must hold bit for bit.", "anchors": ["src/kcorrect/utils.py:error_floor"]}
{"id": "C10", "title": "Error floor keeps fractional precision of its output", "statement": "The floored inverse variance that error_floor returns is 1/(|maggies| floor)^2 whatever numeric type the caller's ivar array has.", "quantifier": "all numeric dtypes of the ivar argument", "why_tests_cant": "Depends on the dtype of the caller's array, which tests fix to float32.", "anchors": ["src/kcorrect/utils.py:error_floor"]}
{"id": "C11", "title": "asinh magnitudes convert back exactly", "statement": "sdss_asinh_to_maggies inverts the SDSS definition of asinh magnitudes: if mag is the asinh magnitude of flux f in band k then the returned maggies is f (times 10^(0.4 extinction) when extinction is given).", "quantifier": "all real fluxes including negative, all 5 bands, all extinctions, all leading shapes", "why_tests_cant": "The claim ranges over a continuum of values and arrays of every size; tests only sample a few.", "anchors": ["src/kcorrect/utils.py:sdss_asinh_to_maggies"]}
{"id": "C12", "title": "asinh conversion is strictly decreasing in magnitude", "statement": "A fainter (larger) asinh magnitude always gives strictly smaller maggies, in every band and at fixed extinction.", "quantifier": "all pairs of magnitudes, bands, extinctions", "why_tests_cant": "The claim ranges over a continuum of values and arrays of every size; tests only sample a few.", "anchors": ["src/kcorrect/utils.py:sdss_asinh_to_maggies"]}
{"id": "C13", "title": "asinh errors are first-order propagated", "statement": "The inverse variance returned by sdss_asinh_to_maggies is 1/(dmaggies/dmag * mag_err)^2 for the maggies it returns in the same call.", "quantifier": "all magnitudes, errors, extinctions, bands", "why_tests_cant": "A derivative identity over a continuum, and it must hold together with extinction.", "anchors": ["src/kcorrect/utils.py:sdss_asinh_to_maggies"]}
{"id": "C14", "title": "maggies2flambda is the AB conversion at the effective wavelengths", "statement": "maggies2flambda returns, for every band, the band's effective wavelength and maggies times the AB flux at that wavelength; signal-to-noise is preserved and a table is converted row by row.", "quantifier": "all maggies, ivar, response lists, table sizes", "why_tests_cant": "The claim ranges over a continuum of values and arrays of every size; tests only sample a few.", "anchors": ["src/kcorrect/utils.py:maggies2flambda"]}
{"id": "C15", "title": "read_basel recovers every spectrum in the file", "statement": "If a file holds nwave wavelengths followed by N blocks of 6 header numbers and nwave fluxes, separated by any white space, read_basel returns exactly those wavelengths, headers and fluxes in order, ignoring a trailing incomplete block.", "quantifier": "all files of that layout, all N, any white space", "why_tests_cant": "Files of unbounded length and arbitrary layout of white space.", "anchors": ["src/kcorrect/utils.py:read_basel"]}
{"id": "C16", "title": "read_basel rejects a file that is too short", "statement": "A file with fewer words than one wavelength grid makes read_basel raise an exception rather than return an empty or wrong table.", "quantifier": "all files with fewer than nwave words", "why_tests_cant": "All short files.", "anchors": ["src/kcorrect/utils.py:read_basel"]}
{"id": "C17", "title": "Response curves are stored sorted", "statement": "However wavelengths are ordered on input, Response.wave is nondecreasing and the (wave, response) pairs are a permutation of the input pairs.", "quantifier": "all wavelength and response arrays of any length", "why_tests_cant": "All permutations of arrays of every length.", "anchors": ["src/kcorrect/response.py:Response.__init__", "src/kcorrect/response.py:Response.fromdat", "src/kcorrect/response.py:Response.fromfits"]}
{"id": "C18", "title": "Projection is the photon-weighted flux ratio", "statement": "Response.project returns the trapezoid-rule integral of lambda*R(lambda)*f(lambda) divided by the same integral of the AB spectrum, on the union grid of the SED and response wavelengths.", "quantifier": "all SEDs and responses", "why_tests_cant": "The claim ranges over a continuum of values and arrays of every size; tests only sample a few. The code passes integrand and abscissa in swapped order, which agrees only when the integrand vanishes at the ends.", "anchors": ["src/kcorrect/response.py:Response.project"]}
{"id": "C19", "title": "Effective wavelength lies inside the band", "statement": "lambda_eff lies between the smallest and the largest wavelength of the response curve for every nonnegative response curve that is not identically zero.", "quantifier": "all nonnegative response curves", "why_tests_cant": "The claim ranges over a continuum of values and arrays of every size; tests only sample a few.", "anchors": ["src/kcorrect/response.py:Response.set_lambda_eff"]}
{"id": "C20", "title": "Effective wavelength does not depend on normalisation", "statement": "Multiplying a response curve by a nonzero constant leaves lambda_eff unchanged.", "quantifier": "all curves and nonzero constants", "why_tests_cant": "The claim ranges over a continuum of values and arrays of every size; tests only sample a few.", "anchors": ["src/kcorrect/response.py:Response.set_lambda_eff"]}
{"id": "C21", "title": "Projection is linear in the spectrum", "statement": "Projecting a linear combination of spectra on the same grid gives the same linear combination of maggies.", "quantifier": "all spectra, scalars, grids", "why_tests_cant": "The claim ranges over a continuum of values and arrays of every size; tests only sample a few.", "anchors": ["src/kcorrect/response.py:Response.project"]}
{"id": "C22", "title": "Projection does not depend on response normalisation", "statement": "Multiplying the response curve by a nonzero constant leaves project unchanged.", "quantifier": "all spectra, curves, constants", "why_tests_cant": "The claim ranges over a continuum of values and arrays of every size; tests only sample a few.", "anchors": ["src/kcorrect/response.py:Response.project"]}
{"id": "C23", "title": "The AB source has one maggie in every band", "statement": "A spectrum equal to the AB reference on the integration grid projects to exactly 1.", "quantifier": "all responses with nonzero AB integral", "why_tests_cant": "The claim ranges over a continuum of values and arrays of every size; tests only sample a few.", "anchors": ["src/kcorrect/response.py:Response.project", "src/kcorrect/utils.py:sed_ab"]}
{"id": "C24", "title": "Nonnegative spectra have nonnegative maggies", "statement": "If the spectrum and the response are nonnegative on the integration grid and the response vanishes at its ends, project is nonnegative.", "quantifier": "all nonnegative spectra and responses", "why_tests_cant": "The claim ranges over a continuum of values and arrays of every size; tests only sample a few.", "anchors": ["src/kcorrect/response.py:Response.project"]}
{"id": "C25", "title": "Zero flux is returned only outside the spectral range", "statement": "project returns exactly 0 when the spectrum has no sample inside the band, and otherwise integrates; a band lying inside the wavelength range of the spectrum is never reported as 0 merely because the spectrum is coarsely sampled.", "quantifier": "all pairs of wavelength grids", "why_tests_cant": "All relative positions of two grids.", "anchors": ["src/kcorrect/response.py:Response.project"]}
{"id": "C26", "title": "Integration grid is complete", "statement": "The grid used by project is strictly increasing, contains every wavelength of the response and every wavelength of the SED inside the band, and at most one SED wavelength beyond each end.", "quantifier": "all pairs of sorted grids", "why_tests_cant": "All relative positions and sizes of two grids.", "anchors": ["src/kcorrect/response.py:Response.project"]}
{"id": "C27", "title": "Half-maximum limits are ordered and inside the band", "statement": "fwhm_low <= fwhm_high, both lie within the wavelength range of the response, fwhm = fwhm_high - fwhm_low >= 0, and each limit is a half-maximum crossing or an end of the curve.", "quantifier": "all response curves with positive maximum", "why_tests_cant": "The claim ranges over a continuum of values and arrays of every size; tests only sample a few.", "anchors": ["src/kcorrect/response.py:Response.set_fwhm_limits"]}
{"id": "C28", "title": "Redshifting a spectrum is blueshifting the band", "statement": "Projecting a spectrum at redshift z onto a response gives (1+z) times the projection of the rest-frame spectrum onto the response with its wavelengths divided by (1+z).", "quantifier": "all spectra, responses, z > -1", "why_tests_cant": "The claim ranges over a continuum of values and arrays of every size; tests only sample a few.", "anchors": ["src/kcorrect/response.py:Response.project", "src/kcorrect/template.py:SED.set_redshift", "src/kcorrect/fitter.py:Fitter._reconstruct"]}
{"id": "C29", "title": "Loading a response is cached and stable", "statement": "After a successful load_response(name), any later sequence of loads of any names, without reload, leaves the entry for that name unchanged, even if files change on disk.", "quantifier": "all histories of loads and file changes", "why_tests_cant": "Unbounded histories of operations.", "anchors": ["src/kcorrect/response.py:ResponseDict.load_response"]}
{"id": "C30", "title": "A failed load leaves no entry", "statement": "If load_response(name) raises because the file is missing or unreadable, the dictionary is the same as before the call.", "quantifier": "all dictionary states and names", "why_tests_cant": "Depends on the state left behind by a failed call.", "anchors": ["src/kcorrect/response.py:ResponseDict.load_response"]}
{"id": "C31", "title": "A failed reload keeps the previous response", "statement": "If load_response(name, reload=True) raises, the previously loaded response is still available.", "quantifier": "all dictionary states", "why_tests_cant": "Crash point inside the call.", "anchors": ["src/kcorrect/response.py:ResponseDict.load_response"]}
{"id": "C32", "title": "all_responses lists exactly the .dat files", "statement": "all_responses(check_validity=False) returns, in directory order and without duplicates beyond those of the listing, the names n such that n.dat is a regular file in the directory.", "quantifier": "all directory listings", "why_tests_cant": "Directories of any size and any file names.", "anchors": ["src/kcorrect/response.py:all_responses"]}
{"id": "C33", "title": "all_responses validity is repeatable", "statement": "all_responses(check_validity=True) returns the same list when called again with nothing changed on disk, and every name it returns has a loaded, usable response.", "quantifier": "all directory contents, all prior dictionary states", "why_tests_cant": "Second-call behaviour depends on hidden state left by the first.", "anchors": ["src/kcorrect/response.py:all_responses", "src/kcorrect/response.py:ResponseDict.load_response"]}
{"id": "C34", "title": "The response dictionary is one shared object", "statement": "A response loaded through any ResponseDict() is visible through every other ResponseDict(), obtained before or after.", "quantifier": "all interleavings of constructions and loads", "why_tests_cant": "All histories.", "anchors": ["src/kcorrect/response.py:ResponseDictSingleton"]}
{"id": "C35", "title": "Concurrent loads end in the loaded state", "statement": "When any number of threads call load_response for existing files under any schedule, once all have returned every requested entry is fully loaded; and a thread whose call has returned can use the entry.", "quantifier": "all schedules of any number of threads", "why_tests_cant": "All interleavings.", "anchors": ["src/kcorrect/response.py:ResponseDict.load_response"]}
{"id": "C36", "title": "set_redshift is absolute", "statement": "After any sequence of set_redshift calls, wave, flux and redshift are those of the last call alone.", "quantifier": "all sequences of redshifts", "why_tests_cant": "Unbounded call histories.", "anchors": ["src/kcorrect/template.py:SED.set_redshift"]}
{"id": "C37", "title": "set_redshift never touches the rest frame", "statement": "restframe_wave and restframe_flux are unchanged by any sequence of set_redshift calls, and set_redshift(0) makes wave and flux equal to them.", "quantifier": "all sequences", "why_tests_cant": "Unbounded call histories.", "anchors": ["src/kcorrect/template.py:SED.set_redshift"]}
{"id": "C38", "title": "Redshifting conserves bolometric flux", "statement": "The trapezoid-rule integral of flux over wave is the same at every redshift greater than -1.", "quantifier": "all spectra, all z > -1", "why_tests_cant": "The claim ranges over a continuum of values and arrays of every size; tests only sample a few.", "anchors": ["src/kcorrect/template.py:SED.set_redshift"]}
{"id": "C39", "title": "The interpolator follows the current redshift", "statement": "If interpolation is enabled, then after construction and after any sequence of set_redshift calls the interpolator is the one of the current wave and flux; if it is disabled there is none.", "quantifier": "all histories", "why_tests_cant": "Unbounded call histories.", "anchors": ["src/kcorrect/template.py:SED.set_redshift", "src/kcorrect/template.py:SED.set_interp", "src/kcorrect/template.py:SED._setup"]}
{"id": "C40", "title": "SED file round trip", "statement": "Writing an SED with tofits and reading it back gives the same rest-frame wavelengths and fluxes to single precision, whatever redshift the object was at, in both file layouts.", "quantifier": "all SEDs, redshifts, both layouts", "why_tests_cant": "All array contents and states.", "anchors": ["src/kcorrect/template.py:SED.tofits", "src/kcorrect/template.py:SED.fromfits"]}
{"id": "C41", "title": "Template file round trip", "statement": "Writing a Template and reading it back gives the same spectra and the same intsfh, mremain, mets, m300, m50 and m1000; a file without M50 reads as all zeros.", "quantifier": "all templates, both layouts", "why_tests_cant": "All contents and file histories.", "anchors": ["src/kcorrect/template.py:Template.tofits", "src/kcorrect/template.py:Template.__init__"]}
{"id": "C42", "title": "One spectrum may be given as a vector", "statement": "An SED built from a 1-dimensional flux array of nwave values behaves as one SED: nsed = 1 and flux is the single row given.", "quantifier": "all vectors", "why_tests_cant": "All lengths.", "anchors": ["src/kcorrect/template.py:SED._setup"]}
{"id": "C43", "title": "Redshift grid spans the range", "statement": "The redshift grid starts at the lower limit, ends at the upper limit, is strictly increasing and evenly spaced, for every nredshift >= 2.", "quantifier": "all ranges lo < hi, all nredshift >= 2", "why_tests_cant": "The claim ranges over a continuum of values and arrays of every size; tests only sample a few.", "anchors": ["src/kcorrect/fitter.py:Fitter.__init__"]}
{"id": "C44", "title": "Interpolated matrix is exact at grid redshifts", "statement": "At every redshift of the grid, Amatrix returns exactly the stored projection matrix for that redshift.", "quantifier": "all grids and matrices, all nodes", "why_tests_cant": "The claim ranges over a continuum of values and arrays of every size; tests only sample a few.", "anchors": ["src/kcorrect/fitter.py:Fitter._interpolate_Amatrix", "src/kcorrect/fitter.py:Fitter._calc_Amatrix"]}
{"id": "C45", "title": "Interpolated matrix is bracketed by its neighbours", "statement": "At every redshift inside the range every entry of Amatrix lies between the entries at the two neighbouring grid redshifts, so nonnegative projections interpolate to nonnegative entries.", "quantifier": "all redshifts in range", "why_tests_cant": "The claim ranges over a continuum of values and arrays of every size; tests only sample a few.", "anchors": ["src/kcorrect/fitter.py:Fitter._interpolate_Amatrix"]}
{"id": "C46", "title": "Redshift outside the grid is refused", "statement": "reconstruct, reconstruct_out, kcorrect and absmag raise ValueError if any required redshift lies outside the grid; they never extrapolate.", "quantifier": "all redshifts, batches of any size", "why_tests_cant": "The claim ranges over a continuum of values and arrays of every size; tests only sample a few.", "anchors": ["src/kcorrect/fitter.py:Fitter._reconstruct", "src/kcorrect/kcorrect.py:Kcorrect.kcorrect"]}
{"id": "C47", "title": "Building a fitter restores the templates", "statement": "After set_Amatrix or constructing any number of fitters sharing one template set, the templates are back at redshift 0 with wave and flux equal to the rest frame.", "quantifier": "all numbers of fitters, ranges and response lists", "why_tests_cant": "Unbounded histories of constructions sharing mutable state.", "anchors": ["src/kcorrect/fitter.py:Fitter._calc_Amatrix"]}
{"id": "C48", "title": "Chunked projection equals whole projection", "statement": "For template sets without a stored interpolator, the projections computed in groups of 1000 equal those computed for all templates at once.", "quantifier": "all numbers of templates", "why_tests_cant": "Needs more than 1000 templates and all boundary counts.", "anchors": ["src/kcorrect/fitter.py:Fitter._calc_Amatrix"]}
{"id": "C49", "title": "Fitted coefficients are the nonnegative chi-squared optimum", "statement": "fit_coeffs returns one nonnegative coefficient per template minimising sum over bands of ivar*(maggies - model)^2 over all nonnegative coefficient vectors.", "quantifier": "all maggies, ivar >= 0, redshifts in range, competitor vectors", "why_tests_cant": "A minimum over a continuum of competitors.", "anchors": ["src/kcorrect/fitter.py:Fitter._fit_coeffs", "src/kcorrect/fitter.py:Fitter.fit_coeffs"]}
{"id": "C50", "title": "Bands with zero inverse variance are ignored", "statement": "Changing the maggies of bands whose ivar is 0 does not change the fitted coefficients.", "quantifier": "all maggies in those bands", "why_tests_cant": "The claim ranges over a continuum of values and arrays of every size; tests only sample a few.", "anchors": ["src/kcorrect/fitter.py:Fitter._fit_coeffs"]}
{"id": "C51", "title": "Out-of-range redshift gives zero coefficients", "statement": "fit_coeffs returns all-zero coefficients (and all-zero Monte Carlo coefficients when mc > 0) for an object whose redshift lies outside the grid, without disturbing the other objects of a batch.", "quantifier": "all redshifts outside the grid, all batches, all mc", "why_tests_cant": "All positions in all batches, with and without Monte Carlo.", "anchors": ["src/kcorrect/fitter.py:Fitter._fit_coeffs", "src/kcorrect/fitter.py:Fitter.fit_coeffs"]}
{"id": "C52", "title": "Batch fitting equals object-by-object fitting", "statement": "Row i of fit_coeffs on arrays equals, to single precision, fit_coeffs on object i alone, for every batch size including 0 and 1.", "quantifier": "all batches", "why_tests_cant": "The claim ranges over a continuum of values and arrays of every size; tests only sample a few.", "anchors": ["src/kcorrect/fitter.py:Fitter.fit_coeffs"]}
{"id": "C53", "title": "Malformed shapes are refused", "statement": "Every method taking redshift, maggies, ivar and coeffs proceeds if and only if redshift is a scalar or vector and the others have matching rank, object count, band count and template count; otherwise it raises ValueError or TypeError.", "quantifier": "all shapes of all four inputs", "why_tests_cant": "All rank and size combinations.", "anchors": ["src/kcorrect/fitter.py:Fitter._process_inputs"]}
{"id": "C54", "title": "The solver is retried once with a larger budget", "statement": "If the solver reports iteration exhaustion, it is retried once with 100 times the number of templates as the iteration limit; a second failure is raised to the caller, never turned into a wrong result.", "quantifier": "all solver behaviours", "why_tests_cant": "All outcomes of an external solver.", "anchors": ["src/kcorrect/fitter.py:Fitter._fit_coeffs"]}
{"id": "C55", "title": "Monte Carlo output is consistent", "statement": "With mc > 0 the first result equals the result with mc = 0, the k-th Monte Carlo coefficients are the fit to the k-th Monte Carlo maggies, bands with ivar = 0 keep their input maggies, and the others are maggies + noise/sqrt(ivar).", "quantifier": "all mc > 0, all noise draws", "why_tests_cant": "All random streams.", "anchors": ["src/kcorrect/fitter.py:Fitter._fit_coeffs"]}
{"id": "C56", "title": "A one-element array works with Monte Carlo", "statement": "fit_coeffs with a redshift array of one element and mc > 0 returns arrays of shape [1, ntemplates], [1, ntemplates, mc] and [1, nbands, mc].", "quantifier": "all template and band counts, all mc > 0", "why_tests_cant": "All sizes.", "anchors": ["src/kcorrect/fitter.py:Fitter.fit_coeffs"]}
{"id": "C57", "title": "A single band can be fitted", "statement": "fit_coeffs on one object works for any number of bands at least 1.", "quantifier": "all band counts >= 1", "why_tests_cant": "Boundary size not covered by tests.", "anchors": ["src/kcorrect/fitter.py:Fitter.fit_coeffs"]}
{"id": "C58", "title": "Reconstruction is linear in the coefficients", "statement": "reconstruct and reconstruct_out of a*c1 + b*c2 equal a times that of c1 plus b times that of c2, at every redshift and band shift.", "quantifier": "all coefficients, scalars, redshifts, band shifts", "why_tests_cant": "The claim ranges over a continuum of values and arrays of every size; tests only sample a few.", "anchors": ["src/kcorrect/fitter.py:Fitter._reconstruct"]}
{"id": "C59", "title": "Batch reconstruction equals object-by-object", "statement": "Row i of reconstruct on arrays equals reconstruct on object i alone.", "quantifier": "all batches, any arithmetic", "why_tests_cant": "The claim ranges over a continuum of values and arrays of every size; tests only sample a few.", "anchors": ["src/kcorrect/fitter.py:Fitter._reconstruct"]}
{"id": "C60", "title": "Nonnegative templates reconstruct nonnegative maggies", "statement": "If all stored projections are nonnegative then reconstructed maggies of nonnegative coefficients are nonnegative.", "quantifier": "all redshifts in range, coefficients", "why_tests_cant": "The claim ranges over a continuum of values and arrays of every size; tests only sample a few.", "anchors": ["src/kcorrect/fitter.py:Fitter._reconstruct"]}
{"id": "C61", "title": "Noise-free photometry is recovered", "statement": "If the maggies are exactly those reconstructed from some nonnegative coefficients then the fitted coefficients reconstruct the same maggies in every band with ivar > 0.", "quantifier": "all coefficients, redshifts, ivar", "why_tests_cant": "The claim ranges over a continuum of values and arrays of every size; tests only sample a few.", "anchors": ["src/kcorrect/fitter.py:Fitter.fit_coeffs", "src/kcorrect/fitter.py:Fitter.reconstruct"]}
{"id": "C62", "title": "Fit scales with flux and ignores a common weight", "statement": "Scaling all maggies by s > 0 scales the optimal coefficients by s, and scaling all ivar by a positive constant leaves the set of optimal coefficients unchanged.", "quantifier": "all s, constants, data", "why_tests_cant": "The claim ranges over a continuum of values and arrays of every size; tests only sample a few.", "anchors": ["src/kcorrect/fitter.py:Fitter._fit_coeffs"]}
{"id": "C63", "title": "Output bands map to named input bands", "statement": "After construction, for every output band j, imap[j] is the first index in responses of responses_map[j]; construction raises ValueError iff the lengths differ or a mapped name is missing; the defaults map each band to itself.", "quantifier": "all response lists", "why_tests_cant": "All lists of names, with repeats.", "anchors": ["src/kcorrect/kcorrect.py:Kcorrect.__init__"]}
{"id": "C64", "title": "No K-correction at rest", "statement": "With default output bands, redshift 0 and no band shift the K-correction is 0 in every band with nonzero model flux.", "quantifier": "all coefficients", "why_tests_cant": "The claim ranges over a continuum of values and arrays of every size; tests only sample a few.", "anchors": ["src/kcorrect/kcorrect.py:Kcorrect.kcorrect"]}
{"id": "C65", "title": "Matched band shift gives the SED-independent K-correction", "statement": "With default output bands, if the band shift equals the redshift the K-correction is -2.5 log10(1+z) in every band, whatever the coefficients.", "quantifier": "all redshifts in range, coefficients with positive sum and flux", "why_tests_cant": "The claim ranges over a continuum of values and arrays of every size; tests only sample a few.", "anchors": ["src/kcorrect/kcorrect.py:Kcorrect.kcorrect", "src/kcorrect/fitter.py:Fitter._reconstruct"]}
{"id": "C66", "title": "K-correction ignores overall brightness", "statement": "Scaling all coefficients by a positive constant leaves the K-correction unchanged.", "quantifier": "all coefficients, constants, redshifts, band shifts", "why_tests_cant": "The claim ranges over a continuum of values and arrays of every size; tests only sample a few.", "anchors": ["src/kcorrect/kcorrect.py:Kcorrect.kcorrect"]}
{"id": "C67", "title": "K-correction is the magnitude difference of the model", "statement": "kcorrect returns, for each output band, the model magnitude in the mapped input band at redshift z minus the model magnitude in the output band at rest, and exactly 0 when the coefficients sum to zero or less.", "quantifier": "all coefficients, redshifts, band shifts", "why_tests_cant": "The claim ranges over a continuum of values and arrays of every size; tests only sample a few.", "anchors": ["src/kcorrect/kcorrect.py:Kcorrect.kcorrect"]}
{"id": "C68", "title": "Batch K-correction equals object-by-object", "statement": "Row i of kcorrect on arrays equals, to single precision, kcorrect on object i alone.", "quantifier": "all batches, any arithmetic", "why_tests_cant": "The claim ranges over a continuum of values and arrays of every size; tests only sample a few.", "anchors": ["src/kcorrect/kcorrect.py:Kcorrect.kcorrect"]}
{"id": "C69", "title": "K-corrections need rest-frame coverage", "statement": "kcorrect raises ValueError for every input if the band shift is outside the redshift grid, in particular if redshift_range does not include 0 and band_shift is 0.", "quantifier": "all grids not covering the band shift, all inputs", "why_tests_cant": "The claim ranges over a continuum of values and arrays of every size; tests only sample a few.", "anchors": ["src/kcorrect/kcorrect.py:Kcorrect.kcorrect"]}
{"id": "C70", "title": "Absolute magnitude formula and sentinel", "statement": "absmag is mag - distance modulus - K where the mapped maggies and ivar are positive, and -9999 in every other case.", "quantifier": "all maggies, ivar including zero, negative and NaN", "why_tests_cant": "The claim ranges over a continuum of values and arrays of every size; tests only sample a few. NaN and infinities included.", "anchors": ["src/kcorrect/kcorrect.py:Kcorrect.absmag"]}
{"id": "C71", "title": "Absolute magnitude shifts with flux and distance", "statement": "Scaling the maggies by s > 0 shifts absmag by -2.5 log10 s; scaling the distance by s > 0 shifts it by -5 log10 s.", "quantifier": "all s, inputs", "why_tests_cant": "The claim ranges over a continuum of values and arrays of every size; tests only sample a few.", "anchors": ["src/kcorrect/kcorrect.py:Kcorrect.absmag"]}
{"id": "C72", "title": "Reconstructed absolute magnitude is the model's absolute magnitude", "statement": "absmag(reconstruct=True) returns in each output band the magnitude of the model in that output band at rest minus the distance modulus.", "quantifier": "all output bands, band shifts, redshifts, coefficients", "why_tests_cant": "The claim ranges over a continuum of values and arrays of every size; tests only sample a few.", "anchors": ["src/kcorrect/kcorrect.py:Kcorrect.absmag"]}
{"id": "C73", "title": "Absolute magnitude limit follows its documentation", "statement": "absmag(limit=True) returns the 1-sigma limit for every band with ivar > 0 of an object with positive coefficients and -9999 otherwise.", "quantifier": "all inputs", "why_tests_cant": "The claim ranges over a continuum of values and arrays of every size; tests only sample a few.", "anchors": ["src/kcorrect/kcorrect.py:Kcorrect.absmag"]}
{"id": "C74", "title": "absmag results come in the documented order", "statement": "absmag returns absmag alone, or a tuple of absmag, then reconstruct, limit and kcorrect for exactly the requested flags in that order.", "quantifier": "all flag combinations", "why_tests_cant": "All combinations and all data.", "anchors": ["src/kcorrect/kcorrect.py:Kcorrect.absmag"]}
{"id": "C75", "title": "Monte Carlo absolute magnitudes are per-sample absmag", "statement": "absmag_mc slice k equals absmag on the k-th Monte Carlo maggies and coefficients, for every choice of output bands.", "quantifier": "all mc, output band lists, data", "why_tests_cant": "All sizes and output-band choices.", "anchors": ["src/kcorrect/kcorrect.py:Kcorrect.absmag_mc"]}
{"id": "C76", "title": "Derived masses scale with coefficients and distance", "statement": "derived mremain and intsfh are linear in the coefficients and proportional to the square of the given luminosity distance.", "quantifier": "all coefficients and distances", "why_tests_cant": "The claim ranges over a continuum of values and arrays of every size; tests only sample a few.", "anchors": ["src/kcorrect/kcorrect.py:Kcorrect.derived"]}
{"id": "C77", "title": "Derived ratios are intensive", "statement": "metallicity, b50, b300 and b1000 do not change under scaling of the coefficients or of the distance factor, are 0 when there is no mass, and metallicity lies between the smallest and largest template metallicity.", "quantifier": "all coefficients with nonnegative template masses", "why_tests_cant": "The claim ranges over a continuum of values and arrays of every size; tests only sample a few.", "anchors": ["src/kcorrect/kcorrect.py:Kcorrect.derived"]}
{"id": "C78", "title": "Mass-to-light ratio does not depend on distance", "statement": "mtol depends only on the coefficients and the band shift, not on the redshift or the cosmology.", "quantifier": "all redshifts, cosmologies, coefficients", "why_tests_cant": "The claim ranges over a continuum of values and arrays of every size; tests only sample a few.", "anchors": ["src/kcorrect/kcorrect.py:Kcorrect.derived"]}
{"id": "C79", "title": "derived accepts an explicit distance", "statement": "derived(distance=d) returns the derived quantities for every valid distance.", "quantifier": "all distances and inputs", "why_tests_cant": "All inputs; the failing path is never tested.", "anchors": ["src/kcorrect/kcorrect.py:Kcorrect.derived"]}
{"id": "C80", "title": "derived works for any output bands", "statement": "derived on arrays returns mtol of shape [ngalaxy, nout] for any choice of output bands.", "quantifier": "all input and output band lists", "why_tests_cant": "All list sizes.", "anchors": ["src/kcorrect/kcorrect.py:Kcorrect.derived"]}
{"id": "C81", "title": "derived tolerates a band without solar magnitude", "statement": "For output bands whose solar magnitude is undefined derived still returns, with mtol in per-maggy units.", "quantifier": "all output bands", "why_tests_cant": "Depends on responses outside the solar model.", "anchors": ["src/kcorrect/kcorrect.py:Kcorrect.derived", "src/kcorrect/response.py:Response.set_solar_magnitude"]}
{"id": "C82", "title": "Monte Carlo derived quantities are per-sample derived", "statement": "derived_mc slice k of every key equals derived on the k-th Monte Carlo coefficients.", "quantifier": "all mc, data", "why_tests_cant": "All sizes.", "anchors": ["src/kcorrect/kcorrect.py:Kcorrect.derived_mc"]}
{"id": "C83", "title": "Kcorrect file round trip preserves results", "statement": "A Kcorrect saved with tofits and reopened gives the same responses, output bands, mapping, grid and interpolated matrices, hence the same coefficients, K-corrections and absolute magnitudes.", "quantifier": "all objects and all inputs to the reopened object", "why_tests_cant": "All objects and inputs.", "anchors": ["src/kcorrect/kcorrect.py:Kcorrect.tofits", "src/kcorrect/kcorrect.py:Kcorrect.fromfits"]}
{"id": "C84", "title": "Kcorrect file round trip preserves settings", "statement": "The reopened object has the same redshift_range, nredshift and abcorrect as the saved one.", "quantifier": "all redshift ranges", "why_tests_cant": "Fractional ranges.", "anchors": ["src/kcorrect/kcorrect.py:Kcorrect.tofits", "src/kcorrect/kcorrect.py:Kcorrect.fromfits"]}
{"id": "C85", "title": "A reopened object is complete", "statement": "Every method that works on a Kcorrect object works on the object reopened from its file in a fresh process.", "quantifier": "all output band choices, all registry states", "why_tests_cant": "Depends on process history.", "anchors": ["src/kcorrect/kcorrect.py:Kcorrect.fromfits", "src/kcorrect/kcorrect.py:Kcorrect.derived"]}
{"id": "C86", "title": "An interrupted save is detected", "statement": "If tofits is interrupted at any point, opening the file either raises or gives the complete object; it never gives a partial one.", "quantifier": "all crash points between file writes", "why_tests_cant": "Crash points.", "anchors": ["src/kcorrect/kcorrect.py:Kcorrect.tofits", "src/kcorrect/template.py:Template.tofits"]}
{"id": "C87", "title": "Methods do not modify the caller's arrays", "statement": "No method of Kcorrect, KcorrectSDSS or KcorrectGST changes the arrays passed in, so repeated calls with the same arrays give the same results.", "quantifier": "all input arrays and dtypes, all histories of calls", "why_tests_cant": "Aliasing depends on dtype; unbounded call histories.", "anchors": ["src/kcorrect/fitter.py:Fitter._process_inputs", "src/kcorrect/kcorrect.py:KcorrectGST.to_ab", "src/kcorrect/kcorrect.py:KcorrectSDSS.to_ab"]}
{"id": "C88", "title": "GST correction touches only ugriz", "statement": "KcorrectGST.to_ab changes only columns 2 to 6 and applies exactly the SDSS correction there; it can be called with or without ivar.", "quantifier": "all tables, with and without ivar", "why_tests_cant": "The claim ranges over a continuum of values and arrays of every size; tests only sample a few.", "anchors": ["src/kcorrect/kcorrect.py:KcorrectGST.to_ab"]}
{"id": "C89", "title": "AB correction is applied exactly when requested", "statement": "With abcorrect False maggies and ivar reach the fit unchanged in every class; with abcorrect True they reach it corrected exactly once.", "quantifier": "all inputs and classes", "why_tests_cant": "The claim ranges over a continuum of values and arrays of every size; tests only sample a few.", "anchors": ["src/kcorrect/fitter.py:Fitter._process_inputs", "src/kcorrect/fitter.py:Fitter.to_ab"]}
{"id": "C90", "title": "asinh fit is the composition of conversion and fit", "statement": "fit_coeffs_asinh equals fit_coeffs on the maggies and ivar of sdss_asinh_to_maggies, and raises if mag_err is not given.", "quantifier": "all inputs", "why_tests_cant": "The claim ranges over a continuum of values and arrays of every size; tests only sample a few.", "anchors": ["src/kcorrect/kcorrect.py:KcorrectSDSS.fit_coeffs_asinh"]}
{"id": "C91", "title": "Every well-formed response curve can be built", "statement": "Every curve with at least four distinct wavelengths, in any order, and a positive response somewhere builds a Response (given that the solar and Vega models can be read).", "quantifier": "all wavelength and response arrays", "why_tests_cant": "The claim ranges over a continuum of values and arrays of every size; tests only sample a few.", "anchors": ["src/kcorrect/response.py:Response.__init__", "src/kcorrect/response.py:Response._setup"]}
{"id": "C92", "title": "Response file round trip", "statement": "A Response written with tofits and read back with fromfits has exactly the same wavelengths, response values, effective wavelength, solar magnitude, Vega offset and half-maximum limits.", "quantifier": "all responses", "why_tests_cant": "The claim ranges over a continuum of values and arrays of every size; tests only sample a few.", "anchors": ["src/kcorrect/response.py:Response.tofits", "src/kcorrect/response.py:Response.fromfits"]}
{"id": "C93", "title": "The fitter can be built for valid input", "statement": "With loadable responses, template wavelengths strictly increasing with at least four samples, fluxes of matching length and a redshift grid above -1, building the interpolated matrix succeeds.", "quantifier": "all responses, templates, grids and registry states", "why_tests_cant": "The claim ranges over a continuum of values and arrays of every size; tests only sample a few.", "anchors": ["src/kcorrect/fitter.py:Fitter.set_Amatrix", "src/kcorrect/fitter.py:Fitter._calc_Amatrix"]}
{"id": "C94", "title": "absmag on arrays is object by object", "statement": "absmag on arrays returns exactly when the call on each object alone returns, with the same number of arrays, and row i of every array is what the call on object i alone returns.", "quantifier": "all batch sizes, redshifts, photometry, coefficients, flags", "why_tests_cant": "The claim ranges over a continuum of values and arrays of every size; tests only sample a few.", "anchors": ["src/kcorrect/kcorrect.py:Kcorrect.absmag"]}
{"id": "C95", "title": "Derived quantities of a batch are those of its members", "statement": "With as many output as input bands, derived on arrays returns exactly if it returns for every galaxy alone, and entry i of every key is the value of the single call on galaxy i.", "quantifier": "all batch sizes, redshifts, coefficients, templates", "why_tests_cant": "The claim ranges over a continuum of values and arrays of every size; tests only sample a few.", "anchors": ["src/kcorrect/kcorrect.py:Kcorrect.derived"]}
{"id": "C96", "title": "An interrupted save keeps the earlier file", "statement": "If a file already holds a complete object and tofits on the same name is interrupted, at any point, the file can still be opened as the earlier or as the new object.", "quantifier": "all crash points between file writes, all objects", "why_tests_cant": "Crash points.", "anchors": ["src/kcorrect/kcorrect.py:Kcorrect.tofits", "src/kcorrect/template.py:Template.tofits", "src/kcorrect/template.py:SED.tofits"]}
{"id": "C97", "title": "Monte Carlo samples are AB-corrected once", "statement": "The samples that fit_coeffs returns can be passed to absmag_mc: without noise the absolute magnitudes are those of absmag on the caller's maggies, so the AB correction is contained in them exactly once.", "quantifier": "all classes, one galaxy, all photometry, redshifts, numbers of samples", "why_tests_cant": "The claim ranges over a continuum of values and arrays of every size; tests only sample a few.", "anchors": ["src/kcorrect/fitter.py:Fitter._fit_coeffs", "src/kcorrect/fitter.py:Fitter.fit_coeffs", "src/kcorrect/kcorrect.py:Kcorrect.absmag_mc"]}
{"id": "C98", "title": "Moving the templates after the construction changes nothing", "statement": "Once an object is built, whatever is done to its template object from outside (set_redshift, set_interp, use in the construction of other objects, successful or not) changes no result of any method and not the file that tofits writes.", "quantifier": "all histories of operations on the template object, all objects, all arguments of all methods", "why_tests_cant": "Histories.", "anchors": ["src/kcorrect/kcorrect.py:Kcorrect.__init__", "src/kcorrect/fitter.py:Fitter._calc_Amatrix", "src/kcorrect/template.py:SED.set_redshift", "src/kcorrect/template.py:SED.set_interp"]}
{"id": "C99", "title": "Objects can be built at the same time", "statement": "Threads that build fitters at the same time get what each would get alone: the same matrices or the same exception; and each of them finishes.", "quantifier": "all numbers of threads, all interleavings, all grids, responses and templates", "why_tests_cant": "Schedules.", "anchors": ["src/kcorrect/fitter.py:Fitter._calc_Amatrix", "src/kcorrect/fitter.py:Fitter.set_Amatrix", "src/kcorrect/template.py:SED.set_redshift"]}
{"id": "C100", "title": "Noise-free photometry gives the true absolute magnitudes", "statement": "For the maggies of a nonnegative mixture of the templates, without noise, in bands that determine the mixture, fit_coeffs returns the mixture itself and absmag returns, in each output band with inverse variance, the mixture's rest-frame magnitude in that band less the distance modulus.", "quantifier": "all mixtures, redshifts in range, inverse variances, solvers that keep the contract of nnls, responses, templates", "why_tests_cant": "The claim ranges over a continuum of values and arrays of every size; tests only sample a few.", "anchors": ["src/kcorrect/fitter.py:Fitter.fit_coeffs", "src/kcorrect/kcorrect.py:Kcorrect.absmag"]}
{"id": "C101", "title": "Mass equals mass-to-light ratio times luminosity", "statement": "In every output band the mremain that derived returns is the returned mass-to-light ratio times the luminosity in solar units that follows from the object's rest-frame magnitude, the distance modulus and the solar magnitude of the band.", "quantifier": "all coefficients, redshifts, templates, bands with positive model flux", "why_tests_cant": "The claim ranges over a continuum of values and arrays of every size; tests only sample a few.", "anchors": ["src/kcorrect/kcorrect.py:Kcorrect.derived"]}
{"id": "C102", "title": "The fitted photometry does not depend on the solver", "statement": "Two solvers of the nonnegative least squares problem that each keep the contract give coefficients whose reconstructed maggies agree in every band with positive inverse variance.", "quantifier": "all photometry, redshifts, templates, solvers", "why_tests_cant": "The claim ranges over a continuum of values and arrays of every size; tests only sample a few.", "anchors": ["src/kcorrect/fitter.py:Fitter._fit_coeffs", "src/kcorrect/fitter.py:Fitter.reconstruct"]}
{"id": "C103", "title": "A matrix entry depends on its response, its template and the redshift only", "statement": "The model maggies of a template through a response at a redshift do not depend on the other responses, on the other templates or on the order of either, and are linear in the template.", "quantifier": "all responses, template sets, grids and redshifts, all dictionary states", "why_tests_cant": "The claim ranges over a continuum of values and arrays of every size; tests only sample a few.", "anchors": ["src/kcorrect/fitter.py:Fitter._calc_Amatrix", "src/kcorrect/fitter.py:Fitter.set_Amatrix", "src/kcorrect/response.py:Response.project"]}
{"id": "C104", "title": "Order and normalisation of the templates do not matter", "statement": "Replacing the templates by linear combinations of them changes the reconstructed maggies only by the corresponding change of coefficients. Reordering the templates and multiplying each by a positive number leaves the reconstructed maggies at every redshift and band shift, and the set of optimal fits, the same, with the coefficients reordered and divided by the numbers.", "quantifier": "all template sets, weights, orders, factors, redshifts, band shifts, photometry", "why_tests_cant": "The claim ranges over a continuum of values and arrays of every size; tests only sample a few.", "anchors": ["src/kcorrect/fitter.py:Fitter.set_Amatrix", "src/kcorrect/fitter.py:Fitter.reconstruct", "src/kcorrect/fitter.py:Fitter._fit_coeffs"]}
{"id": "C105", "title": "Order of the bands does not matter", "statement": "With the responses, maggies and ivar in another order, the same coefficients are optimal and the reconstructed maggies are the same in that order.", "quantifier": "all orders, photometry, redshifts, band shifts, coefficients", "why_tests_cant": "The claim ranges over a continuum of values and arrays of every size; tests only sample a few.", "anchors": ["src/kcorrect/fitter.py:Fitter.set_Amatrix", "src/kcorrect/fitter.py:Fitter.reconstruct", "src/kcorrect/fitter.py:Fitter._fit_coeffs"]}
{"id": "C106", "title": "Template interpolation does not change the matrices", "statement": "Building the matrices with the template object's interpolation switched on returns exactly if building them with it switched off returns, and gives the same matrices.", "quantifier": "all templates, grids, responses, dictionary states", "why_tests_cant": "The claim ranges over a continuum of values and arrays of every size; tests only sample a few.", "anchors": ["src/kcorrect/fitter.py:Fitter._calc_Amatrix", "src/kcorrect/response.py:Response.project", "src/kcorrect/template.py:SED.set_interp", "src/kcorrect/template.py:SED.set_redshift"]}
{"id": "C107", "title": "Model maggies are those of the model spectrum", "statement": "For an object made by the constructor, reconstruct and reconstruct_out at redshift z and band shift b, times 1 + b, are, in every band, the maggies that response.project(wave=restframe_wave*(1+s), flux=(coeffs . restframe_flux)/(1+s)) gives, s = (1+z)(1+b)-1, whenever s is a grid redshift; for every other s in the redshift range they are the linear interpolation of these maggies between the two neighbouring grid redshifts.", "quantifier": "all templates, bands, ranges, grids, coefficients, redshifts and band shifts", "why_tests_cant": "The claim ranges over a continuum of values and arrays of every size; tests only sample a few.", "anchors": ["src/kcorrect/fitter.py:Fitter.reconstruct", "src/kcorrect/kcorrect.py:Kcorrect.reconstruct_out", "src/kcorrect/fitter.py:Fitter.set_Amatrix", "src/kcorrect/response.py:Response.project"]}
{"id": "C108", "title": "The K-correction is the one of its definition", "statement": "For a grid redshift z and band shift b on the grid, coefficients with positive sum and positive maggies, the K-correction to output band Q is the AB magnitude of the model spectrum redshifted by z through the input band mapped to Q, minus the AB magnitude of the rest-frame model spectrum through Q with its wavelengths divided by 1 + b.", "quantifier": "all templates, bands, maps, coefficients, grid redshifts and band shifts", "why_tests_cant": "The claim ranges over a continuum of values and arrays of every size; tests only sample a few.", "anchors": ["src/kcorrect/kcorrect.py:Kcorrect.kcorrect", "src/kcorrect/kcorrect.py:Kcorrect.__init__", "src/kcorrect/response.py:Response.project"]}
{"id": "C109", "title": "Grid and range do not matter at common grid redshifts", "statement": "Two objects with the same templates, built for any ranges, numbers of redshifts and lists of bands, give the same model maggies in a common band at every redshift that is in both grids.", "quantifier": "all templates, pairs of ranges, grids and band lists, coefficients, redshifts, band shifts", "why_tests_cant": "The claim ranges over a continuum of values and arrays of every size; tests only sample a few.", "anchors": ["src/kcorrect/fitter.py:Fitter.__init__", "src/kcorrect/fitter.py:Fitter.set_Amatrix", "src/kcorrect/fitter.py:Fitter.reconstruct", "src/kcorrect/kcorrect.py:Kcorrect.reconstruct_out"]}
{"id": "C110", "title": "Error of the redshift interpolation", "statement": "If the maggies of the model spectrum in a band change by at most L per unit redshift between a redshift of the range and the grid redshifts, then the model maggies at that redshift are within L h / 2 of the exact ones, h the spacing of the grid.", "quantifier": "all templates, bands, coefficients, redshifts and band shifts in the range, grids, L", "why_tests_cant": "The claim ranges over a continuum of values and arrays of every size; tests only sample a few.", "anchors": ["src/kcorrect/fitter.py:Fitter.set_Amatrix", "src/kcorrect/fitter.py:Fitter.reconstruct"]}
{"id": "C111", "title": "Model maggies are continuous in redshift", "statement": "The model maggies in every input and output band are continuous functions of the redshift over the whole redshift range, grid redshifts and ends included.", "quantifier": "all templates, bands, coefficients, band shifts", "why_tests_cant": "The claim ranges over a continuum of values and arrays of every size; tests only sample a few.", "anchors": ["src/kcorrect/fitter.py:Fitter.set_Amatrix", "src/kcorrect/fitter.py:Fitter.reconstruct", "src/kcorrect/kcorrect.py:Kcorrect.reconstruct_out"]}
{"id": "C112", "title": "An optimal fit is characterised by its residuals", "statement": "With nonnegative weights, nonnegative coefficients with model maggies r are a best fit to maggies m exactly if sum ivar (m-r) r = 0 and sum ivar (m-r) a <= 0 for the model maggies a of every nonnegative coefficient vector. Then chi-squared is sum ivar m^2 - sum ivar r^2, and every template with positive coefficient has sum ivar (m-r) a_k = 0.", "quantifier": "all fitters with a matrix, redshifts in range, maggies, nonnegative ivar, coefficients", "why_tests_cant": "The claim ranges over a continuum of values and arrays of every size; tests only sample a few.", "anchors": ["src/kcorrect/fitter.py:Fitter.fit_coeffs", "src/kcorrect/fitter.py:Fitter.reconstruct"]}
{"id": "C113", "title": "More templates never fit worse", "statement": "If every template of one fitter is a mixture with nonnegative weights of the templates of another fitter with the same bands and grid (for instance, a subset of them), the best-fit chi-squared of the second is at most that of the first, for every photometry and redshift.", "quantifier": "all template sets, mixtures, bands, redshifts, maggies, ivar", "why_tests_cant": "The claim ranges over a continuum of values and arrays of every size; tests only sample a few.", "anchors": ["src/kcorrect/fitter.py:Fitter.fit_coeffs", "src/kcorrect/fitter.py:Fitter.set_Amatrix", "src/kcorrect/fitter.py:Fitter.reconstruct"]}
{"id": "C114", "title": "More bands never lower chi-squared, bands of zero weight change nothing", "statement": "Appending bands (with any maggies and nonnegative ivar) to the responses never lowers the best-fit chi-squared; if the appended ivar are zero, exactly the same coefficients are optimal with and without the additional bands.", "quantifier": "all templates, band lists, redshifts, maggies, ivar", "why_tests_cant": "The claim ranges over a continuum of values and arrays of every size; tests only sample a few.", "anchors": ["src/kcorrect/fitter.py:Fitter.fit_coeffs", "src/kcorrect/fitter.py:Fitter.set_Amatrix", "src/kcorrect/fitter.py:Fitter.reconstruct"]}
{"id": "C115", "title": "Monte Carlo maggies are independent normal samples of the photometry", "statement": "If the random generator delivers independent standard normal deviates, sample k of the maggies in a band with ivar > 0 returned by fit_coeffs with mc is normal with mean the (AB-corrected) maggies and variance 1/ivar (AB-corrected); it equals the maggies where ivar is zero; and the samples of all objects, bands and draws are independent.", "quantifier": "all fitters with more or fewer bands than one, photometry, nonnegative ivar, mc, probability spaces", "why_tests_cant": "a statement about the joint distribution of the outputs, which no finite sample decides", "anchors": ["src/kcorrect/fitter.py:Fitter.fit_coeffs", "src/kcorrect/fitter.py:Fitter._process_inputs"]}
{"id": "C116", "title": "Error floor does not depend on units of flux", "statement": "If the maggies of each band are multiplied by a positive factor and ivar divided by its square, the floored ivar is divided by the square of the same factor; in particular the floor can be applied before or after the SDSS AB correction with the same outcome (nonzero maggies, positive floors).", "quantifier": "all arrays of maggies and ivar, floors, factors", "why_tests_cant": "The claim ranges over a continuum of values and arrays of every size; tests only sample a few.", "anchors": ["src/kcorrect/utils.py:error_floor", "src/kcorrect/utils.py:sdss_ab_correct"]}
{"id": "C117", "title": "Successive error floors act as the largest one, a larger floor never raises ivar", "statement": "Applying error floors f then g gives the ivar of the floor max(f, g); raising the floor or lowering the input ivar never raises the output ivar (nonzero maggies, positive floors).", "quantifier": "all arrays of maggies and ivar, floors", "why_tests_cant": "The claim ranges over a continuum of values and arrays of every size; tests only sample a few.", "anchors": ["src/kcorrect/utils.py:error_floor"]}
{"id": "C118", "title": "Closed form of the asinh conversion", "statement": "sdss_asinh_to_maggies returns (10^(-0.4 x) - b^2 10^(0.4 x)) 10^(0.4 e) for magnitude x, band softening b and extinction e.", "quantifier": "all arrays of asinh magnitudes, extinctions and errors of the accepted shapes", "why_tests_cant": "The claim ranges over a continuum of values and arrays of every size; tests only sample a few.", "anchors": ["src/kcorrect/utils.py:sdss_asinh_to_maggies"]}
{"id": "C119", "title": "A response does not depend on the order of its samples", "statement": "Response(wave, response) built from the same pairs of distinct wavelengths and values, listed in any order, is the same object in every attribute (or raises the same exception).", "quantifier": "all lists of samples and their permutations", "why_tests_cant": "The claim ranges over a continuum of values and arrays of every size; tests only sample a few.", "anchors": ["src/kcorrect/response.py:Response.__init__", "src/kcorrect/response.py:Response._setup"]}
{"id": "C120", "title": "The attributes of a response do not depend on its normalisation", "statement": "Multiplying all response values by a positive number multiplies the stored values and changes no other attribute: effective wavelength, solar magnitude, Vega offset and half-maximum limits and width stay the same.", "quantifier": "all curves that can be built, positive factors", "why_tests_cant": "The claim ranges over a continuum of values and arrays of every size; tests only sample a few.", "anchors": ["src/kcorrect/response.py:Response._setup", "src/kcorrect/response.py:Response.set_solar_magnitude", "src/kcorrect/response.py:Response.set_vega2ab", "src/kcorrect/response.py:Response.set_fwhm_limits", "src/kcorrect/response.py:Response.set_lambda_eff"]}
{"id": "C121", "title": "A spectrum can be given as an SED or as arrays", "statement": "After any sequence of set_redshift calls (redshifts other than -1), project(sed=sed) is project(wave=sed.wave, flux=sed.flux).", "quantifier": "all responses, spectra, sequences of redshifts", "why_tests_cant": "The claim ranges over a continuum of values and arrays of every size; tests only sample a few.", "anchors": ["src/kcorrect/response.py:Response.project", "src/kcorrect/template.py:SED.set_redshift"]}
{"id": "C122", "title": "Effective wavelength is in the unit of the wavelengths", "statement": "For a nonnegative curve that vanishes at both ends, multiplying all wavelengths by k > 0 multiplies lambda_eff by k.", "quantifier": "all curves, positive factors", "why_tests_cant": "The claim ranges over a continuum of values and arrays of every size; tests only sample a few.", "anchors": ["src/kcorrect/response.py:Response.set_lambda_eff"]}
{"id": "C123", "title": "An interrupted save of an SED or Template is detected", "statement": "Whatever the moment at which SED.tofits or Template.tofits is interrupted, reading the file raises unless the file is complete; in particular it is never mistaken for an older file without the M50 HDU, whose m50 is zero.", "quantifier": "all spectra and templates, moments of interruption, extension names", "why_tests_cant": "crash points cannot be enumerated by tests", "anchors": ["src/kcorrect/template.py:SED.tofits", "src/kcorrect/template.py:Template.tofits", "src/kcorrect/template.py:Template.__init__", "src/kcorrect/template.py:SED.fromfits"]}
{"id": "C124", "title": "Saving is all or nothing with respect to the previous contents", "statement": "SED.tofits, Template.tofits and Response.tofits either raise and leave the previous file as it was, or leave what they leave when there was no file before; with clobber=False an existing file is never replaced (nor, contrary to the documentation, is an HDU added to it): the call raises.", "quantifier": "all objects, previous files, clobber settings", "why_tests_cant": "The claim ranges over a continuum of values and arrays of every size; tests only sample a few.", "anchors": ["src/kcorrect/template.py:SED.tofits", "src/kcorrect/template.py:Template.tofits", "src/kcorrect/response.py:Response.tofits"]}
{"id": "C125", "title": "A construction does not depend on what was done with the templates before", "statement": "Kcorrect(..., templates=s) and Fitter.set_Amatrix give the same object or raise the same exception whatever redshifts the templates have been set to and however often they have been interpolated or used before; the matrices are those of the rest-frame templates.", "quantifier": "all templates and all histories of set_redshift, set_interp and earlier constructions", "why_tests_cant": "a history of calls of any length cannot be enumerated", "anchors": ["src/kcorrect/kcorrect.py:Kcorrect.__init__", "src/kcorrect/fitter.py:Fitter.set_Amatrix", "src/kcorrect/fitter.py:Fitter._calc_Amatrix", "src/kcorrect/template.py:SED.set_redshift"]}
{"id": "C126", "title": "Every KcorrectSDSS and KcorrectGST made without responses has the documented bands", "statement": "At every moment of a session, KcorrectSDSS() has the five SDSS bands and KcorrectGST() the ten GALEX, SDSS and 2MASS bands, and they keep them, whatever the caller did before with other objects.", "quantifier": "all sessions (list creations, constructions, changes of lists in any order)", "why_tests_cant": "an unbounded history of operations on shared lists", "anchors": ["src/kcorrect/kcorrect.py:KcorrectSDSS.__init__", "src/kcorrect/kcorrect.py:KcorrectGST.__init__"]}
{"id": "C127", "title": "An object does not change because the caller changes a list", "statement": "After Kcorrect(responses=l, responses_out=o, responses_map=m) no later operation of the caller on lists or other objects changes the bands, output bands or band map of the object, nor what its methods return.", "quantifier": "all sessions after a construction", "why_tests_cant": "an unbounded history of operations on shared lists", "anchors": ["src/kcorrect/kcorrect.py:Kcorrect.__init__", "src/kcorrect/fitter.py:Fitter.__init__"]}
{"id": "C128", "title": "Every redshift of redshift_range can be used, in single precision", "statement": "For every redshift z with redshift_range[0] <= z <= redshift_range[1], limits included, fit_coeffs treats z as inside the grid and reconstruct does not raise, when all numbers are float32 as the code stores them.", "quantifier": "all ranges, numbers of redshifts, redshifts of the range and arrays of them, in float32 arithmetic", "why_tests_cant": "the outcome depends on the rounding of every pair of limits", "anchors": ["src/kcorrect/fitter.py:Fitter.__init__", "src/kcorrect/fitter.py:Fitter.fit_coeffs", "src/kcorrect/fitter.py:Fitter.reconstruct"]}
{"id": "C129", "title": "The redshift grid in single precision", "statement": "For every range 0 <= lo <= hi and number of redshifts up to 2^24 the float32 grid has that many entries, starts at lo, never decreases, each entry is the exact one up to a relative error 4u/(1-4u), u = 2^-24, and the entries are distinct when the step exceeds 8u times the upper limit.", "quantifier": "all ranges and numbers of redshifts, in float32 arithmetic", "why_tests_cant": "The claim ranges over a continuum of values and arrays of every size; tests only sample a few.", "anchors": ["src/kcorrect/fitter.py:Fitter.__init__"]}
{"id": "C130", "title": "sdss_ab_correct in single precision", "statement": "In float32, for every maggies, ivar and finite offsets f: the change in magnitude of each positive flux is f within 5u(1+|f|), u = 2^-24, the squared signal to noise is preserved within a relative error 7u/(1-7u), and every row of a table gets bit for bit the values a separate call on that row gives.", "quantifier": "all shapes, fluxes, inverse variances and offsets, in float32 arithmetic", "why_tests_cant": "The claim ranges over a continuum of values and arrays of every size; tests only sample a few.", "anchors": ["src/kcorrect/utils.py:sdss_ab_correct"]}
{"id": "C131", "title": "error_floor in floating point", "statement": "In floating point, for any mix of float32 and float64 inputs with positive floors, inverse variances and nonzero maggies: the result is positive, at most the old value up to 11u, its fractional error is at least the floor up to 3u, and it is either the old value or 1/(|m| f)^2 up to 5u/(1-5u).", "quantifier": "all fluxes, inverse variances, floors and dtypes", "why_tests_cant": "The claim ranges over a continuum of values and arrays of every size; tests only sample a few.", "anchors": ["src/kcorrect/utils.py:error_floor"]}
{"id": "C132", "title": "The template matrix in floating point", "statement": "In float32, at every redshift inside the grid, each element of the matrix differs from the straight line through the two neighbouring grid values by at most 6u times their difference plus u times the larger of them, u = 2^-24.", "quantifier": "all grids of distinct redshifts, bands, templates and redshifts, in floating point", "why_tests_cant": "The claim ranges over a continuum of values and arrays of every size; tests only sample a few.", "anchors": ["src/kcorrect/fitter.py:Fitter.set_Amatrix", "src/kcorrect/fitter.py:Fitter._interpolate_Amatrix"]}
{"id": "C133", "title": "reconstruct in floating point", "statement": "In floating point, for every array of redshifts, coefficients and band shift >= 0, each reconstructed flux is the sum over templates of coefficient times matrix element, divided by 1 + band_shift, with a relative error per term of nsed+22 roundings, the matrix being read at (1+z)(1+band_shift)-1 up to 11u(1+z)(1+band_shift); the products may be summed in any order.", "quantifier": "all matrices, batches, coefficients, band shifts and summation orders, in floating point", "why_tests_cant": "The claim ranges over a continuum of values and arrays of every size; tests only sample a few.", "anchors": ["src/kcorrect/fitter.py:Fitter.reconstruct", "src/kcorrect/fitter.py:Fitter._reconstruct"]}
{"id": "C134", "title": "A saved Kcorrect holds exactly the matrices in memory", "statement": "The matrices tofits writes are, bit for bit, those the object was built with.", "quantifier": "all objects, in float32 arithmetic", "why_tests_cant": "The claim ranges over a continuum of values and arrays of every size; tests only sample a few.", "anchors": ["src/kcorrect/kcorrect.py:Kcorrect.tofits"]}
{"id": "C135", "title": "Reconstructed fluxes are nonnegative, in single precision", "statement": "With nonnegative matrix elements and coefficients reconstruct returns no negative flux, in float32 arithmetic.", "quantifier": "all matrices, redshifts and coefficients, in float32 arithmetic", "why_tests_cant": "The claim ranges over a continuum of values and arrays of every size; tests only sample a few.", "anchors": ["src/kcorrect/fitter.py:Fitter.reconstruct"]}
{"id": "C136", "title": "Solar magnitude and Vega offset", "statement": "solar_magnitude of a Response is -2.5 log10 of the projection of the spectrum 4 pi H c / lambda^2 (R/d)^2 of the Sun seen from 10 pc (lambda in Angstrom, H the tabulated values), vega2ab the same for Vega at 7.68 pc; both are None exactly if the projection is not positive; ten times the distance is 5 magnitudes.", "quantifier": "all response curves and stellar spectra", "why_tests_cant": "The claim ranges over a continuum of values and arrays of every size; tests only sample a few.", "anchors": ["src/kcorrect/response.py:Response.set_solar_magnitude", "src/kcorrect/response.py:Response.set_vega2ab"]}
{"id": "C137", "title": "project accepts exactly the well-formed spectra", "statement": "project(wave=, flux=) succeeds if and only if flux has rank 1 or 2, its last axis has the length of wave, and wave has at least four entries, all distinct; otherwise it raises ValueError (IndexError if flux is a number).", "quantifier": "all shapes and values of wave and flux", "why_tests_cant": "The claim ranges over a continuum of values and arrays of every size; tests only sample a few.", "anchors": ["src/kcorrect/response.py:Response.project"]}
{"id": "C138", "title": "K-corrections in floating point", "statement": "kcorrect computes, in each output band, the difference of the magnitude of the flux that reconstruct returns in the mapped input band and of the flux that the output matrix gives at rest, within u (2 + 3 |k|) where u = 2^-24 is the single-precision rounding unit; a batch gives the numbers of the single calls rounded to float32; with the default output bands the K-correction at redshift 0 without band shift is exactly 0.", "quantifier": "all constructed matrices, redshifts, band shifts, coefficients (nonnegative, one positive) and batch lengths, in float32/float64 arithmetic with unbounded exponents", "why_tests_cant": "The claim ranges over a continuum of values and arrays of every size; tests only sample a few.", "anchors": ["src/kcorrect/kcorrect.py:Kcorrect.kcorrect"]}
{"id": "C139", "title": "Absolute magnitudes in floating point", "statement": "absmag computes M = m - DM - K, its version from the reconstructed fluxes and the limits within u (20 + 7 |m| + 7 |DM| + 3 |K|), K being what kcorrect returns, DM the value of the cosmology object or 5 log10 of the given distance over 10 pc, u = 2^-24; where there is no positive flux the entry is exactly -9999; the same for every object of a batch.", "quantifier": "all fluxes, inverse variances, redshifts, distances, option flags and batch lengths, in float32/float64 arithmetic with unbounded exponents", "why_tests_cant": "The claim ranges over a continuum of values and arrays of every size; tests only sample a few.", "anchors": ["src/kcorrect/kcorrect.py:Kcorrect.absmag"]}
{"id": "C140", "title": "Which photometry sdss_asinh_to_maggies and error_floor accept", "statement": "sdss_asinh_to_maggies returns exactly when the magnitudes have five bands on the last axis and the errors and extinctions, where given, have the same shape; error_floor (one object or a table) returns exactly when floor, maggies and inverse variances agree in bands and shape; the results have the shape of the input.", "quantifier": "all scalars, vectors, tables and stacks of any size", "why_tests_cant": "The claim ranges over a continuum of values and arrays of every size; tests only sample a few.", "anchors": ["src/kcorrect/utils.py:sdss_asinh_to_maggies", "src/kcorrect/utils.py:error_floor"]}
{"id": "C141", "title": "Which photometry maggies2flambda accepts", "statement": "With loadable responses maggies2flambda returns exactly when the number of bands of the photometry is the number of responses, or one of the two is 1 (numpy broadcasting), for fluxes and inverse variances alike; other sizes raise ValueError.", "quantifier": "all response lists, vectors and tables of any size", "why_tests_cant": "The claim ranges over a continuum of values and arrays of every size; tests only sample a few.", "anchors": ["src/kcorrect/utils.py:maggies2flambda"]}
{"id": "C142", "title": "Which SED files are accepted", "statement": "SED.fromfits accepts a file, with images or with a table, exactly when there is more than one wavelength (or none) and the number of flux values is the number of spectra times the number of wavelengths; the object then has these wavelengths and flux values, in order, cut into one row per spectrum.", "quantifier": "all FITS files of the documented layouts, any sizes", "why_tests_cant": "The claim ranges over a continuum of values and arrays of every size; tests only sample a few.", "anchors": ["src/kcorrect/template.py:SED.fromfits"]}
{"id": "C143", "title": "What SED.plot draws", "statement": "plot(indx, wavelim) returns exactly when every index is valid (negative ones count from the end) and, with limits, some selected spectrum has a positive sample strictly between them. It draws, per index and in order, the points (log10 wavelength, log10 wavelength*flux) of the samples with positive flux. With limits the horizontal range is their log10, and every drawn point inside is within the vertical range with a margin of 0.1, attained at both ends. Without indx all spectra are drawn.", "quantifier": "all spectra with positive wavelengths, index lists and limits", "why_tests_cant": "The claim ranges over a continuum of values and arrays of every size; tests only sample a few.", "anchors": ["src/kcorrect/template.py:SED.plot"]}
{"id": "C144", "title": "Unit conversion stays in the floating-point range", "statement": "maggies2flambda returns finite fluxes and inverse variances, within 2e-6 of the exact ones, for every flux and inverse variance whose exact result lies in the normal range of float32. (Inverse variances of deep data do not: an error of 1e-11 maggies at 8000 Angstrom, given in float32, comes back as inverse variance +inf.)", "quantifier": "all bands with effective wavelengths from 10 to 1e7 Angstrom, fluxes, inverse variances, dtypes, vectors and tables, in IEEE-754 arithmetic with overflow and underflow", "why_tests_cant": "The claim ranges over a continuum of values and arrays of every size; tests only sample a few.", "anchors": ["src/kcorrect/utils.py:maggies2flambda", "src/kcorrect/utils.py:sed_ab"]}
{"id": "C145", "title": "A missing asinh magnitude only removes its band", "statement": "When one SDSS asinh magnitude of an object is missing (-9999, the catalog's value, with error -9999), fit_coeffs_asinh fits that object with the other bands, and the other objects of the batch as if it were not there.", "quantifier": "all KcorrectSDSS objects, AB correcting or not, magnitudes, errors, extinctions, redshifts in range, positions of the missing value, batch lengths, and solvers that refuse NaN, in IEEE-754 arithmetic", "why_tests_cant": "The claim ranges over a continuum of values and arrays of every size; tests only sample a few.", "anchors": ["src/kcorrect/kcorrect.py:KcorrectSDSS.fit_coeffs_asinh", "src/kcorrect/utils.py:sdss_asinh_to_maggies"]}
{"id": "C146", "title": "Which photometry can be fitted", "statement": "fit_coeffs returns coefficients exactly when every object can be fitted. An object can be fitted if its redshift is inside the range and all its fluxes are numbers and all its inverse variances are finite and not negative; or if its redshift is a number or infinity outside the range and no Monte Carlo is asked for. Otherwise the call raises ValueError, for the whole batch.", "quantifier": "all fluxes, inverse variances and redshifts including NaN and infinities, numbers of bands (at least two for a single object), batch lengths other than one, Monte Carlo counts, and solvers that refuse systems that are not finite", "why_tests_cant": "The claim ranges over a continuum of values and arrays of every size; tests only sample a few.", "anchors": ["src/kcorrect/fitter.py:Fitter.fit_coeffs", "src/kcorrect/fitter.py:Fitter._fit_coeffs", "src/kcorrect/fitter.py:Fitter._process_inputs"]}
{"id": "C147", "title": "K-corrections and absolute magnitudes are numbers", "statement": "kcorrect returns a finite number for every band, and absmag returns a finite number or the documented -9999.", "quantifier": "all fitters, templates that may leave a band without flux, finite redshifts in range, coefficients, fluxes, inverse variances, band mappings, with NaN and infinity in the arithmetic", "why_tests_cant": "The claim ranges over a continuum of values and arrays of every size; tests only sample a few.", "anchors": ["src/kcorrect/kcorrect.py:Kcorrect.kcorrect", "src/kcorrect/kcorrect.py:Kcorrect.absmag"]}
{"id": "C148", "title": "Editing an SED's current spectrum does not change its rest frame", "statement": "Editing sed.wave or sed.flux in place changes neither restframe_wave and restframe_flux nor any other SED, and the next set_redshift gives the spectra it would have given without the edit; the rest frame only changes if the caller writes into it.", "quantifier": "all sessions of making arrays, building SEDs (several from the same arrays), set_redshift, set_interp and writing into arrays in place, of any length", "why_tests_cant": "The claim ranges over a continuum of values and arrays of every size; tests only sample a few.", "anchors": ["src/kcorrect/template.py:SED.__init__", "src/kcorrect/template.py:SED._setup", "src/kcorrect/template.py:SED.set_redshift"]}
{"id": "C149", "title": "The interpolator of an SED is a snapshot", "statement": "After sed.flux is edited in place, Response.project(sed=sed) still returns the projection of the spectrum before the edit, for every response, until set_interp or set_redshift is called; after set_interp it is the projection of the edited spectrum.", "quantifier": "all sessions as in C148 without a call to set_interp or set_redshift of that object or a write to its wavelengths, and all responses", "why_tests_cant": "The claim ranges over a continuum of values and arrays of every size; tests only sample a few.", "anchors": ["src/kcorrect/template.py:SED.set_interp", "src/kcorrect/response.py:Response.project"]}
{"id": "C150", "title": "Coefficients returned by fit_coeffs can be used", "statement": "For a constructed object, the coefficients fit_coeffs returns for photometry and redshifts can be passed with the same redshifts to reconstruct, kcorrect and absmag, which return a result for them.", "quantifier": "all constructed objects, fittable photometry, redshifts and batches", "why_tests_cant": "The claim ranges over a continuum of values and arrays of every size; tests only sample a few.", "anchors": ["src/kcorrect/fitter.py:Fitter.fit_coeffs", "src/kcorrect/kcorrect.py:Kcorrect.kcorrect", "src/kcorrect/kcorrect.py:Kcorrect.absmag", "src/kcorrect/fitter.py:Fitter.reconstruct"]}
{"id": "C151", "title": "Ratios of derived quantities do not depend on distance", "statement": "derived returns for metallicity, b50, b300, b1000 and mtol finite numbers that are those of the fitted population, and absmag finite magnitudes for positive fluxes, at every redshift inside the redshift range, including 0.", "quantifier": "all objects, nonnegative coefficients, redshifts and batches", "why_tests_cant": "The claim ranges over a continuum of values and arrays of every size; tests only sample a few.", "anchors": ["src/kcorrect/kcorrect.py:Kcorrect.derived", "src/kcorrect/kcorrect.py:Kcorrect.absmag"]}
{"id": "C152", "title": "Saving what was read back gives the same file", "statement": "An SED, Template, Response or Kcorrect object written to a file, read from it and written again gives the same file; the precision, the characters of names and the fractional part of the redshift range that a file cannot hold are lost only the first time, for any number of generations.", "quantifier": "all objects that can be saved (including every constructed object), all names, and chains of save and open of any length", "why_tests_cant": "The claim ranges over a continuum of values and arrays of every size; tests only sample a few.", "anchors": ["src/kcorrect/template.py:SED.tofits", "src/kcorrect/template.py:Template.tofits", "src/kcorrect/response.py:Response.tofits", "src/kcorrect/kcorrect.py:Kcorrect.tofits", "src/kcorrect/kcorrect.py:Kcorrect.fromfits"]}
{"id": "C153", "title": "Fitting does not amplify differences in the photometry", "statement": "For two photometries of the same galaxy (same redshift and inverse variances), the inverse-variance-weighted squared difference of the two fitted models' maggies is at most that of the photometries, so in every band with positive inverse variance the fitted models differ by no more than the weighted distance of the photometries; a Monte Carlo fit differs from the fit itself by at most the sum of squares of the deviates drawn in the bands with positive inverse variance.", "quantifier": "all objects and classes (with and without AB correction), photometries, inverse variances, redshifts, deviates, and optimal solvers", "why_tests_cant": "The claim ranges over a continuum of values and arrays of every size; tests only sample a few.", "anchors": ["src/kcorrect/fitter.py:Fitter.fit_coeffs"]}
{"id": "C154", "title": "Absolute magnitudes are those of the model plus the residual", "statement": "For positive flux and inverse variance and positive model fluxes, absmag in an output band is the model's absolute magnitude in that band (its rest-frame magnitude minus the distance modulus) plus the residual of the photometry in the input band it is mapped to (corrected magnitude minus model magnitude); output bands mapped to one input band have the rest-frame colour of the model, whatever was measured.", "quantifier": "all objects and classes, photometries, coefficients, redshifts, band shifts and distances", "why_tests_cant": "The claim ranges over a continuum of values and arrays of every size; tests only sample a few.", "anchors": ["src/kcorrect/kcorrect.py:Kcorrect.absmag", "src/kcorrect/kcorrect.py:Kcorrect.kcorrect", "src/kcorrect/fitter.py:Fitter.reconstruct"]}
{"id": "C155", "title": "Order of the derived quantities", "statement": "For nonnegative coefficients and templates whose mass formed in the last 50, 300 and 1000 Myr and in total are in that order, and whose remaining mass is at most the mass formed, derived returns 0 <= b50 <= b300 <= b1000 <= 1 and 0 <= mremain <= intsfh, for one galaxy and for each galaxy of a batch.", "quantifier": "all objects, such templates, nonnegative coefficients, redshifts, band shifts, batches", "why_tests_cant": "The claim ranges over a continuum of values and arrays of every size; tests only sample a few.", "anchors": ["src/kcorrect/kcorrect.py:Kcorrect.derived"]}
{"id": "C156", "title": "K-corrections are continuous in redshift", "statement": "For a constructed object and fixed coefficients, the K-correction in each output band is a continuous function of the redshift over the redshift range, wherever the model flux in the mapped input band and the rest-frame flux in the output band are positive; there are no jumps at the redshifts where the projections were computed.", "quantifier": "all constructed objects, coefficients with positive sum, band shifts inside the range, bands and redshifts", "why_tests_cant": "The claim ranges over a continuum of values and arrays of every size; tests only sample a few.", "anchors": ["src/kcorrect/kcorrect.py:Kcorrect.kcorrect", "src/kcorrect/fitter.py:Fitter._calc_Amatrix"]}
{"id": "C157", "title": "Order of the derived quantities survives rounding", "statement": "In floating point, for nonnegative coefficients and templates whose masses are ordered as in C155 (all of one dtype), the numbers derived returns satisfy exactly 0 <= b50 <= b300 <= b1000 <= 1 and 0 <= mremain <= intsfh, for one galaxy and for each galaxy of a batch: rounding never makes a fraction exceed 1 or two fractions change order.", "quantifier": "all objects, such templates, nonnegative coefficients, redshifts, band shifts, batches, in floating point", "why_tests_cant": "The claim ranges over a continuum of values and arrays of every size; tests only sample a few.", "anchors": ["src/kcorrect/kcorrect.py:Kcorrect.derived"]}
{"id": "C158", "title": "Accuracy of masses, fractions and mass-to-light ratios in floating point", "statement": "For N templates with nonnegative masses and nonnegative coefficients, the masses derived returns are, on the magnitude scale, within 2^-24 (1.1 (N+4) + 4 |DM|) of the sums of coefficient times template mass at distance modulus DM; metallicity and the fractions formed in the last 50, 300 and 1000 Myr have a relative error of at most 2N+9 single-precision roundings, independent of the distance; a galaxy without remaining mass gets exactly 0; and each mass-to-light ratio is the returned mass over the model's luminosity in solar units, within 2^-24 (7 + 5 |solar magnitude + DM|) magnitudes.", "quantifier": "all objects, templates, nonnegative coefficients, redshifts, band shifts, output bands and batches, in floating point", "why_tests_cant": "The claim ranges over a continuum of values and arrays of every size; tests only sample a few.", "anchors": ["src/kcorrect/kcorrect.py:Kcorrect.derived", "src/kcorrect/kcorrect.py:Kcorrect.reconstruct_out"]}
{"id": "C159", "title": "Between samples, curves are the not-a-knot cubic spline", "statement": "Between its samples a response curve or spectrum with four or more increasing sample points is a cubic on each interval, passes through every sample, is twice continuously differentiable inside its range, and its first two and last two intervals share one cubic. Exactly one function does this, it is the one used, samples of a cubic polynomial reproduce that polynomial, and it depends linearly on the samples and not on the unit of wavelength.", "quantifier": "all increasing sample points (four or more), all sample values, all wavelengths in range", "why_tests_cant": "The claim ranges over a continuum of values and arrays of every size; tests only sample a few.", "anchors": ["src/kcorrect/response.py:Response", "src/kcorrect/template.py:SED"]}
{"id": "C160", "title": "Nonnegative samples give nonnegative maggies", "statement": "If all samples of a response curve and of a spectrum are nonnegative, the maggies project returns are nonnegative. (False: between its samples the spline of a nonnegative spectrum can be negative, and the result can be negative. True when, inside the band, both are sampled at the same wavelengths.)", "quantifier": "all responses and spectra with nonnegative samples", "why_tests_cant": "The claim ranges over a continuum of values and arrays of every size; tests only sample a few.", "anchors": ["src/kcorrect/response.py:Response.project", "src/kcorrect/template.py:SED"]}
{"id": "C161", "title": "A best fit always exists", "statement": "For every photometry with nonnegative inverse variances, at every redshift in range, some nonnegative coefficients have the smallest chi-squared of all, and some best fit uses at most as many templates as there are bands with positive weight. A solver that always returns a best solution exists, and with such a solver fit_coeffs returns a best fit whenever there is more than one band.", "quantifier": "all objects, redshifts in range, photometry with nonnegative weights", "why_tests_cant": "The claim ranges over a continuum of values and arrays of every size; tests only sample a few.", "anchors": ["src/kcorrect/fitter.py:Fitter.fit_coeffs", "src/kcorrect/fitter.py:Fitter._fit_coeffs"]}
{"id": "C162", "title": "Half-maximum limits are the outermost ones", "statement": "As documented, fwhm_low is the lowest wavelength at which the response reaches half its maximum and fwhm_high the highest. (False between samples: the curve can exceed half the maximum below fwhm_low. True for the samples: each limit is an end of the curve, or within the tolerance of the root finder of a wavelength where the response is exactly half the largest sample, with no sample outside it above half and the next sample inside it reaching half.)", "quantifier": "all response curves with positive maximum", "why_tests_cant": "The claim ranges over a continuum of values and arrays of every size; tests only sample a few.", "anchors": ["src/kcorrect/response.py:Response.set_fwhm_limits"]}
{"id": "C163", "title": "A band's maggies are its photon integral, to second order in the spacing", "statement": "Projecting a spectrum through a band whose response vanishes at its two ends, and which lies within the spectrum's range, returns a quotient of two numbers: the first is within D h^2 (b-a)/12 of the integral over the band of wavelength times response times flux, the second within the same of the integral of wavelength times response times the AB spectrum. Here h is the largest spacing of the merged wavelengths, [a, b] the band, and D any bound of the second derivative of the integrand; such a bound exists for every band and spectrum.", "quantifier": "all response curves and spectra, interpolated by cubic splines, with no bound on the number of samples", "why_tests_cant": "The claim ranges over a continuum of values and arrays of every size; tests only sample a few.", "anchors": ["src/kcorrect/response.py:Response.project", "src/kcorrect/response.py:Response.set_interp"]}
{"id": "C164", "title": "The effective wavelength of a shipped band lies within the band", "statement": "lambda_eff of every response curve shipped with the package lies between its smallest and largest wavelength. (False: epsi_I, sampled from 7305 to 9771 Angstrom, gets a value above 9771. For every nonnegative curve, whatever its values at the ends, lambda_eff is inside exactly when the integral of R/lambda exceeds the difference of the end values and the integral of ln(lambda/a) R/lambda is at least ln(b/a) R(b).)", "quantifier": "all nonnegative response curves; for the negative part, the shipped file", "why_tests_cant": "The claim ranges over a continuum of values and arrays of every size; tests only sample a few.", "anchors": ["src/kcorrect/response.py:Response.set_lambda_eff"]}
{"id": "C165", "title": "maggies2flambda raises for a response that cannot be loaded", "statement": "maggies2flambda() raises whenever one of the named responses has no readable file with a valid curve, on every call. (False: only the first call raises. The failed load leaves an entry in the dictionary, and from then on the call returns NaN for the wavelength, flux and inverse variance of that band, without an exception and even if the file has been repaired.)", "quantifier": "all libraries, dictionaries, response lists and arrays of maggies; for the negative part, all file systems without the file", "why_tests_cant": "The claim ranges over a continuum of values and arrays of every size; tests only sample a few.", "anchors": ["src/kcorrect/utils.py:maggies2flambda", "src/kcorrect/response.py:ResponseDict.load_response"]}
{"id": "C166", "title": "set_interp switches interpolation on", "statement": "After set_interp() has been called on an SED, made with or without interpolation, the interpolator is that of the current wavelengths and fluxes after every later sequence of set_redshift and set_interp calls that return.", "quantifier": "all SEDs and call sequences", "why_tests_cant": "The claim ranges over a continuum of values and arrays of every size; tests only sample a few.", "anchors": ["src/kcorrect/template.py:SED.set_interp", "src/kcorrect/template.py:SED.set_redshift"]}
{"id": "C167", "title": "absmag_mc can be called again with the same samples", "statement": "Calls of absmag_mc with the same samples, inverse variances, redshift and coefficients all return the same, and leave those arrays as they were.", "quantifier": "all classes, arrays, dtypes, numbers of samples and of calls", "why_tests_cant": "The claim ranges over a continuum of values and arrays of every size; tests only sample a few.", "anchors": ["src/kcorrect/kcorrect.py:Kcorrect.absmag_mc", "src/kcorrect/kcorrect.py:KcorrectGST.to_ab", "src/kcorrect/fitter.py:Fitter._process_inputs"]}
{"id": "C168", "title": "When the coefficients do not depend on the solver", "statement": "If the bands with positive inverse variance tell the templates apart, all correct solvers of the nonnegative least squares problem make fit_coeffs return the same coefficients. If they do not, as is always so with fewer such bands than templates, and the fit uses every template, another correct solver makes it return other coefficients, and the K-corrections can differ.", "quantifier": "all classes, photometry, inverse variances, redshifts in range, templates, batches, solvers that keep the contract of nnls", "why_tests_cant": "A test runs one solver, and cannot quantify over all correct ones.", "anchors": ["src/kcorrect/fitter.py:Fitter.fit_coeffs", "src/kcorrect/fitter.py:Fitter._fit_coeffs", "src/kcorrect/kcorrect.py:Kcorrect.kcorrect"]}
{"id": "C169", "title": "Threads can share objects and photometry", "statement": "Any number of threads can call the methods of the same objects with the same arrays at the same time: whatever the schedule, every thread gets the results that its calls have when they are made alone, and the arrays are not changed.", "quantifier": "all numbers of threads, lists of calls, classes, input arrays and dtypes, all schedules of array accesses", "why_tests_cant": "A test runs a few schedules that the operating system happens to choose.", "anchors": ["src/kcorrect/kcorrect.py:Kcorrect.absmag", "src/kcorrect/kcorrect.py:KcorrectGST.to_ab", "src/kcorrect/fitter.py:Fitter._process_inputs", "src/kcorrect/fitter.py:Fitter.fit_coeffs", "src/kcorrect/kcorrect.py:Kcorrect.absmag_mc", "src/kcorrect/kcorrect.py:Kcorrect.derived"]}
{"id": "C170", "title": "Brighter photometry in a band does not make the fitted model fainter there", "statement": "If one flux given to fit_coeffs is raised, everything else being equal, the reconstructed flux of the new coefficients in that band is not below that of the old ones and has not risen by more than the given (AB corrected) flux; in all bands together, in the sum of squares weighted with the inverse variances, the two reconstructions differ by no more than the weight of that band times the product of the two rises.", "quantifier": "all classes, templates, photometry, inverse variances, redshifts in range, bands and rises, any two solvers that meet the contract of nnls", "why_tests_cant": "The claim ranges over a continuum of values and arrays of every size; tests only sample a few.", "anchors": ["src/kcorrect/fitter.py:Fitter.fit_coeffs", "src/kcorrect/fitter.py:Fitter._fit_coeffs", "src/kcorrect/fitter.py:Fitter.reconstruct"]}
{"id": "C171", "title": "A band known more precisely is fitted at least as closely", "statement": "If the inverse variance of one band is raised, everything else being equal, the given (AB corrected) flux of that band and its reconstruction differ by no more than before, and the chi-squared of the other bands does not get smaller.", "quantifier": "all classes, templates, photometry, inverse variances (zero included), redshifts in range, bands and larger inverse variances, any two solvers that meet the contract of nnls", "why_tests_cant": "The claim ranges over a continuum of values and arrays of every size; tests only sample a few.", "anchors": ["src/kcorrect/fitter.py:Fitter.fit_coeffs", "src/kcorrect/fitter.py:Fitter._fit_coeffs", "src/kcorrect/fitter.py:Fitter.reconstruct"]}
{"id": "C172", "title": "A change of band shift moves K-corrections and absolute magnitudes by the model's colour", "statement": "With two band shifts, everything else being equal, the K-corrections of an output band differ by the difference of the rest-frame magnitudes that reconstruct_out gives for the two shifted bands, and the absolute magnitudes by the opposite: the difference depends on the coefficients and the two band shifts, not on the redshift, the photometry or the distance. Entries without photometry are -9999 with both. Mass-to-light ratios are inversely as the two rest-frame fluxes.", "quantifier": "all classes, redshifts, photometry, distances, coefficients with positive sum, pairs of band shifts for which the calls return, bands with positive model fluxes, single galaxies and tables", "why_tests_cant": "The claim ranges over a continuum of values and arrays of every size; tests only sample a few.", "anchors": ["src/kcorrect/kcorrect.py:Kcorrect.kcorrect", "src/kcorrect/kcorrect.py:Kcorrect.absmag", "src/kcorrect/kcorrect.py:Kcorrect.derived"]}
{"id": "C173", "title": "Masses, star-formation fractions and metallicity do not depend on the bands", "statement": "Whenever derived returns for two objects with the same templates and the same cosmology, given the same redshifts, coefficients and distances, the current mass, the integrated star formation, b50, b300, b1000 and the metallicity are the same, whatever the input and output bands, the class, the AB correction, the band shifts and the loaded responses. Of the loaded responses only the solar magnitudes of the output bands affect any result.", "quantifier": "all pairs of objects with common templates and cosmology, all redshifts and coefficients (single and tables), band shifts, response dictionaries and arithmetics", "why_tests_cant": "The claim ranges over a continuum of values and arrays of every size; tests only sample a few.", "anchors": ["src/kcorrect/kcorrect.py:Kcorrect.derived"]}
{"id": "C174", "title": "check_validity checks the files of the directory that is listed", "statement": "In a process in which none of the names has been loaded, all_responses(response_dir=d, check_validity=True) returns, in directory order, exactly the names n for which n.dat in d is the file of a response that can be built.", "quantifier": "all directories and their contents", "why_tests_cant": "The claim ranges over a continuum of values and arrays of every size; tests only sample a few.", "anchors": ["src/kcorrect/response.py:all_responses", "src/kcorrect/response.py:ResponseDict.load_response"]}
{"id": "C175", "title": "A galaxy lies between the templates it is made of", "statement": "For nonnegative coefficients, in every band in which the templates with positive coefficients have flux, the K-correction and the mass-to-light ratio of the galaxy lie between the smallest and largest of those of these templates alone, and so do its metallicity and its star-formation fractions if these templates have mass.", "quantifier": "all matrices, redshifts, band shifts above -1, coefficients, single galaxies and galaxies of a table", "why_tests_cant": "The claim ranges over a continuum of values and arrays of every size; tests only sample a few.", "anchors": ["src/kcorrect/kcorrect.py:Kcorrect.kcorrect", "src/kcorrect/kcorrect.py:Kcorrect.derived"]}
{"id": "C176", "title": "An object keeps its results when responses are loaded", "statement": "Loading or reloading responses, in the same thread or in others, does not change what the methods of an object built before return, and does not make them raise.", "quantifier": "all histories of load_response calls with any file contents; all numbers of threads and schedules", "why_tests_cant": "The claim ranges over a continuum of values and arrays of every size; tests only sample a few.", "anchors": ["src/kcorrect/response.py:ResponseDict.load_response", "src/kcorrect/kcorrect.py:Kcorrect.derived"]}
{"id": "C177", "title": "Rounding in sdss_asinh_to_maggies", "statement": "In floating point the maggies returned for an asinh magnitude m differ from the flux F with exactly this asinh magnitude by at most 36*2^-24*sqrt(F^2+4b^2), and with an extinction of at most 10 mag by at most 69*2^-24 times that size times the extinction factor; the inverse variance differs from the inverse square of the propagated error by at most a fraction 84*2^-24.", "quantifier": "all arrays of magnitudes of any dtype with entries of size at most 10^4 after conversion to float32, all errors nonzero, all extinctions up to 10 mag; any exponent range large enough for the results", "why_tests_cant": "The claim ranges over a continuum of values and arrays of every size; tests only sample a few.", "anchors": ["src/kcorrect/utils.py:sdss_asinh_to_maggies"]}
{"id": "C178", "title": "A band measured twice", "statement": "A fitter whose responses contain the same band twice treats the two measurements as one: its best-fitting coefficients are exactly those of the fitter without the repetition for the inverse-variance weighted mean of the two measurements with the sum of the inverse variances.", "quantifier": "all templates, responses, redshifts, fluxes and inverse variances with nonzero total weight, any position of the repeated band", "why_tests_cant": "The claim ranges over a continuum of values and arrays of every size; tests only sample a few.", "anchors": ["src/kcorrect/fitter.py:Fitter.set_Amatrix", "src/kcorrect/fitter.py:Fitter.fit_coeffs", "src/kcorrect/fitter.py:Fitter._fit_coeffs"]}
{"id": "C179", "title": "Projection keeps the order of spectra", "statement": "A spectrum that is nowhere fainter than another has at least as many maggies in every band, and a spectrum that lies between a and b times the AB source has between a and b maggies.", "quantifier": "all spectra and nonnegative responses that vanish at their ends or are covered by the spectra, all splines that reproduce their samples", "why_tests_cant": "The claim ranges over a continuum of values and arrays of every size; tests only sample a few.", "anchors": ["src/kcorrect/response.py:Response.project", "src/kcorrect/response.py:Response.interp"]}
{"id": "C180", "title": "Powers of two pass through the rounding", "statement": "Multiplying the coefficients by a power of two multiplies reconstructed maggies and the two masses by exactly that power and leaves the K-corrections, the mass-to-light ratios, the burst fractions and the metallicity unchanged to the last bit; fluxes multiplied by 2^k with inverse variances multiplied by 2^(-2k) pass through error_floor and sdss_ab_correct with exactly these factors. Inputs that are refused are refused alike.", "quantifier": "all floating-point inputs of any dtype and shape, all integers k, as long as no number over- or underflows", "why_tests_cant": "The claim ranges over a continuum of values and arrays of every size; tests only sample a few.", "anchors": ["src/kcorrect/fitter.py:Fitter.reconstruct", "src/kcorrect/kcorrect.py:Kcorrect.kcorrect", "src/kcorrect/kcorrect.py:Kcorrect.derived", "src/kcorrect/utils.py:error_floor", "src/kcorrect/utils.py:sdss_ab_correct"]}
{"id": "C181", "title": "The default bands work as shipped", "statement": "Each of the ten default response files (GALEX FUV, NUV, SDSS ugriz, 2MASS JHKs) loads, with exactly the samples of the file in the order of wavelength and an effective wavelength between its first and last sample; in each of them a spectrum sampled anywhere inside the band projects to the ratio of its photon integral to that of the AB source; and an object of any of the four classes with any of these bands in any order can be made for well-formed templates and any redshift range above -1, and predicts maggies everywhere in the range.", "quantifier": "the ten shipped files row by row, all lists of these bands, all well-formed templates, spectra, redshift ranges and grid sizes from 2", "why_tests_cant": "The claim ranges over a continuum of values and arrays of every size; tests only sample a few.", "anchors": ["src/kcorrect/data/responses/sdss_r0.dat", "src/kcorrect/data/responses/twomass_J.dat", "src/kcorrect/response.py:Response.fromdat", "src/kcorrect/kcorrect.py:KcorrectGST.__init__", "src/kcorrect/kcorrect.py:Kcorrect.__init__"]}
{"id": "C182", "title": "Nonnegative spectra have nonnegative maggies in the default bands", "statement": "A spectrum with no negative flux has no negative maggies in any of the ten default bands.", "quantifier": "the ten shipped files row by row, all spectra with nonnegative samples", "why_tests_cant": "The claim ranges over a continuum of values and arrays of every size; tests only sample a few.", "anchors": ["src/kcorrect/data/responses/sdss_r0.dat", "src/kcorrect/response.py:Response.project"]}
{"id": "C183", "title": "Galaxies made of the shipped templates", "statement": "For every galaxy made of the default templates (nonnegative coefficients, not all zero mass) derived returns a remaining mass between 52 and 95 per cent of the mass formed, a metallicity between 0.0056 and 0.051, and 0 <= b300 <= b1000 <= 1; b50 is 0 for every galaxy, since the shipped files have no M50. For the luminous red galaxy template all three fractions are 0, and the metallicity and the ratio of remaining to formed mass are those of the file for every galaxy. The order of the fractions and masses is exact in floating point.", "quantifier": "the star formation histories in the two shipped files value by value, all coefficients, redshifts, cosmologies, band shifts and objects", "why_tests_cant": "The claim ranges over a continuum of values and arrays of every size; tests only sample a few.", "anchors": ["src/kcorrect/data/templates/kcorrect-default-v4.fits", "src/kcorrect/data/templates/kcorrect-lrg1-v4.fits", "src/kcorrect/template.py:Template.fromfits", "src/kcorrect/kcorrect.py:Kcorrect.derived"]}
{"id": "C184", "title": "The solver behind the fits", "statement": "The algorithm of scipy.optimize.nnls (Lawson and Hanson, SciPy 1.12) in exact arithmetic returns nonnegative coefficients with the smallest sum of squared residuals whenever it does not reach its iteration limit, for every matrix, also with linearly dependent columns; stopped at a tolerance tol, it misses the smallest sum by at most 2 tol times the sum of the best coefficients. A limit of 2^n iterations is never reached, so with at most nine templates the second attempt of fit_coeffs (limit 100 n) never raises: every fit in range returns a best fit, also for tables, and every Monte Carlo draw is fitted. With at most three templates the first attempt suffices.", "quantifier": "all matrices, right-hand sides, tolerances, iteration limits; all objects with at most nine templates and more than one band, photometry with nonnegative weights and redshifts in range", "why_tests_cant": "The claim ranges over a continuum of values and arrays of every size; tests only sample a few.", "anchors": ["src/kcorrect/fitter.py:Fitter._fit_coeffs", "src/kcorrect/fitter.py:Fitter.fit_coeffs"]}
{"id": "C185", "title": "Sun and Vega in the default bands", "statement": "With the two shipped star models, every one of the ten default response files makes a Response whose solar_magnitude and vega2ab are defined and lie within 0.0001 of the values tabulated in the specification (sdss_u0 6.38696 and 0.93196, ..., twomass_Ks 5.13359 and 1.84730; the four values the repository's own tests expect are among them), and derived returns a result for every object whose output bands are default bands, for all coefficients and redshifts, whenever the output projection matrix covers the band shift.", "quantifier": "all libraries that return roots from brentq and read the two star files; all ten default bands; all objects, coefficients, redshifts and band shifts in range", "why_tests_cant": "The claim ranges over a continuum of values and arrays of every size; tests only sample a few.", "anchors": ["src/kcorrect/response.py:Response.set_solar_magnitude", "src/kcorrect/response.py:Response.set_vega2ab", "src/kcorrect/utils.py:read_basel", "src/kcorrect/kcorrect.py:Kcorrect.derived"]}
{"id": "C186", "title": "Magnitudes inside the range of the star models", "statement": "The solar magnitude and vega2ab of a shipped response are undefined only if the response lies outside the wavelength range of the star models, as documented.", "quantifier": "all shipped response files", "why_tests_cant": "The claim ranges over a continuum of values and arrays of every size; tests only sample a few.", "anchors": ["src/kcorrect/response.py:Response.set_solar_magnitude", "src/kcorrect/response.py:Response.set_vega2ab", "src/kcorrect/kcorrect.py:Kcorrect.derived"]}
{"id": "C187", "title": "The default objects work on every galaxy", "statement": "An object made with the shipped default templates, the shipped star models and any of the ten default bands exists, and for every galaxy (any photometry with nonnegative inverse variances, any redshift from 0 to 2) fit_coeffs returns a least squares fit with nonnegative coefficients, and with these coefficients kcorrect, absmag and derived return for every band shift from 0 to 2; b50 is 0, 0 <= b300 <= b1000 <= 1, the surviving mass is between 0.52 and 0.95 of the formed mass and the metallicity is between 0.0056 and 0.051 where there is mass.", "quantifier": "all lists of default bands in any order, all three classes, all photometry with nonnegative inverse variances, all redshifts and band shifts from 0 to 2", "why_tests_cant": "The claim ranges over a continuum of values and arrays of every size; tests only sample a few.", "anchors": ["src/kcorrect/kcorrect.py:Kcorrect.__init__", "src/kcorrect/kcorrect.py:KcorrectSDSS.__init__", "src/kcorrect/kcorrect.py:KcorrectGST.__init__", "src/kcorrect/template.py:Template.fromfits", "src/kcorrect/fitter.py:Fitter.fit_coeffs", "src/kcorrect/kcorrect.py:Kcorrect.derived"]}
{"id": "C188", "title": "The default templates cover the default bands", "statement": "Over the redshift range that a default object accepts, the default templates have flux values over the whole of each default band, so that reconstructed maggies are those of the whole band.", "quantifier": "all redshifts from 0 to 2, all ten default bands, both template files, all coefficients", "why_tests_cant": "The claim ranges over a continuum of values and arrays of every size; tests only sample a few.", "anchors": ["src/kcorrect/kcorrect.py:Kcorrect.__init__", "src/kcorrect/fitter.py:Fitter.reconstruct", "src/kcorrect/template.py:Template.fromfits", "src/kcorrect/response.py:Response.project"]}
{"id": "C189", "title": "Cubic spectra are interpolated exactly", "statement": "If the flux of a spectrum is a cubic polynomial of wavelength (a flat or linear spectrum, for instance), then however coarsely and unevenly it is sampled, its interpolation returns the polynomial at every wavelength inside the sampled range and 0 outside, and its projection on a band inside the sampled range is the photon-weighted ratio of the polynomial itself to the AB source.", "quantifier": "all cubic polynomials, all increasing lists of at least four wavelengths, all responses that vanish at their ends or are exceeded by the sampling", "why_tests_cant": "The claim ranges over a continuum of values and arrays of every size; tests only sample a few.", "anchors": ["src/kcorrect/template.py:SED.set_interp", "src/kcorrect/response.py:Response.project"]}
{"id": "C190", "title": "Effective wavelengths and widths of the default bands", "statement": "The effective wavelengths of the ten default bands are 1528.06, 2271.13, 3546.00, 4669.60, 6156.25, 7471.57, 8917.40, 12319.84, 16420.05 and 21567.42 Angstroms to within 0.01, and the limits of the full width at half maximum are wavelengths where the response is half the greatest sample, between the two adjacent samples of the file where it rises through half for the first time and falls through half for the last time (5580 to 5630 and 6730 to 6780 for sdss_r0).", "quantifier": "all ten default bands, all root finders that meet their contract", "why_tests_cant": "The values rest on the natural logarithm and on whatever root the root finder returns; a test sees one implementation of each, to the precision of its floating point.", "anchors": ["src/kcorrect/response.py:Response.set_lambda_eff", "src/kcorrect/response.py:Response.set_fwhm_limits", "src/kcorrect/response.py:Response.fromdat"]}
{"id": "C191", "title": "A response is read from the extension it was written to", "statement": "A Response written with tofits to the extension ext (FLUX by default) and read with fromfits from the same extension is the same response.", "quantifier": "all responses, extensions by name and by number, previous files", "why_tests_cant": "A test writes and reads with the default arguments, which differ (FLUX for writing, 1 for reading), and so never asks for a named extension.", "anchors": ["src/kcorrect/response.py:Response.tofits", "src/kcorrect/response.py:Response.fromfits"]}
{"id": "C192", "title": "Noise-free photometry gives the true masses", "statement": "For the maggies of a nonnegative mixture of the templates, without noise, derived on the fitted coefficients returns the mixture's current mass, integrated star formation, b50, b300, b1000 and metallicity, each of them whenever the photometry fixes it (all mixtures with the same maggies in the observed bands agree on it), even if it does not determine the mixture; for one galaxy and for tables of any length.", "quantifier": "all mixtures, redshifts in range, inverse variances including zero, solvers that keep the contract of nnls, templates, responses and classes", "why_tests_cant": "The claim ranges over a continuum of values and arrays of every size; tests only sample a few.", "anchors": ["src/kcorrect/kcorrect.py:Kcorrect.derived", "src/kcorrect/fitter.py:Fitter.fit_coeffs"]}
{"id": "C193", "title": "An interrupted save of a response is detected", "statement": "Whatever the moment at which Response.tofits is interrupted, reading what is on disk with fromfits, from any extension, raises unless the file is complete; a complete file gives the response that was saved.", "quantifier": "all responses, moments of interruption, extensions by name and by number", "why_tests_cant": "A test saves and reads without being interrupted.", "anchors": ["src/kcorrect/response.py:Response.tofits", "src/kcorrect/response.py:Response.fromfits"]}
{"id": "C194", "title": "Reading a file replaces what an SED or a Response holds", "statement": "When fromfits or fromdat of an existing SED or Response returns, the object is the one the constructor makes from that file: nothing of the earlier spectra, redshift, interpolator or magnitudes is left, whatever was done with the object before, failed reads included.", "quantifier": "all objects, histories of method calls, files and extensions", "why_tests_cant": "A test calls the method on a fresh object.", "anchors": ["src/kcorrect/response.py:Response.fromdat", "src/kcorrect/response.py:Response.fromfits", "src/kcorrect/template.py:SED.fromfits", "src/kcorrect/template.py:SED.set_redshift", "src/kcorrect/template.py:SED.set_interp"]}
{"id": "C195", "title": "A Template that reads another file becomes that template", "statement": "After template.fromfits(filename) the object has the spectra and the star-formation histories of the file, and masses computed with it are those of Template(filename).", "quantifier": "all pairs of template files", "why_tests_cant": "A test reads one file.", "anchors": ["src/kcorrect/template.py:Template", "src/kcorrect/template.py:SED.fromfits", "src/kcorrect/kcorrect.py:Kcorrect.derived"]}
{"id": "C196", "title": "A Kcorrect that reads a file gives the saved object's results", "statement": "After kc.fromfits(filename) an existing object of the saved object's class gives the coefficients, K-corrections, absolute magnitudes and derived quantities of the object that was saved.", "quantifier": "all saved objects, all objects that read, all inputs", "why_tests_cant": "A test reads into an object made with the same bands.", "anchors": ["src/kcorrect/kcorrect.py:Kcorrect.fromfits", "src/kcorrect/kcorrect.py:Kcorrect.tofits", "src/kcorrect/kcorrect.py:Kcorrect.kcorrect"]}
{"id": "C197", "title": "A read that fails leaves the object as it was", "statement": "When fromfits or fromdat of an existing object raises, the object has the contents it had before.", "quantifier": "all objects of the classes Response, SED and Kcorrect, all files", "why_tests_cant": "A test checks that the error is raised.", "anchors": ["src/kcorrect/kcorrect.py:Kcorrect.fromfits", "src/kcorrect/response.py:Response.fromdat", "src/kcorrect/template.py:SED.fromfits"]}
{"id": "C198", "title": "A galaxy made of two components has the sum of their fluxes and the means of their properties", "statement": "For coefficients that are the sum of two sets of coefficients, the model fluxes of reconstruct and reconstruct_out, the stellar mass and the integrated star-formation history are the sums of the two; the metallicity is the mass-weighted mean, b50, b300 and b1000 are means weighted with the integrated star formation, the mass-to-light ratio is the mean weighted with the light and the K-correction's flux ratio the mean weighted with the rest-frame flux, so it lies between those of the components.", "quantifier": "all pairs of coefficient vectors, all redshifts, distances and objects", "why_tests_cant": "The claim ranges over a continuum of values and arrays of every size; tests only sample a few.", "anchors": ["src/kcorrect/fitter.py:Fitter.reconstruct", "src/kcorrect/kcorrect.py:Kcorrect.reconstruct_out", "src/kcorrect/kcorrect.py:Kcorrect.derived", "src/kcorrect/kcorrect.py:Kcorrect.kcorrect"]}
{"id": "C199", "title": "The quality of the best fit is a continuous function of the redshift", "statement": "With the photometry held fixed, chi-squared of the best fit does not jump up when the redshift changes a little. If no template has negative flux and each has flux in a band that enters the fit, chi-squared of the best fit and the fitted fluxes of the bands that enter it are continuous functions of the redshift over the range of the object, grid redshifts included.", "quantifier": "all photometry, nonnegative inverse variances, redshifts in range, and solvers that meet the contract", "why_tests_cant": "The claim ranges over a continuum of values and arrays of every size; tests only sample a few.", "anchors": ["src/kcorrect/fitter.py:Fitter.fit_coeffs", "src/kcorrect/fitter.py:Fitter._fit_coeffs", "src/kcorrect/fitter.py:Fitter.reconstruct", "src/kcorrect/fitter.py:Fitter.to_ab"]}
{"id": "C200", "title": "Small changes of the input change coefficients, K-corrections and masses little", "statement": "Where the bands with positive inverse variance tell the templates apart, the fitted coefficients are continuous in redshift, maggies and inverse variances together; so are the K-corrections of the fitted model in every band where it has flux and, for a cosmology with continuous distance modulus, the absolute magnitudes in measured bands, its mass, integrated star formation, star-formation fractions and metallicity.", "quantifier": "all classes, photometry, nonnegative inverse variances (zero ones included), redshifts in range, and solvers that meet the contract", "why_tests_cant": "The claim ranges over a continuum of values and arrays of every size; tests only sample a few.", "anchors": ["src/kcorrect/fitter.py:Fitter.fit_coeffs", "src/kcorrect/fitter.py:Fitter._fit_coeffs", "src/kcorrect/kcorrect.py:Kcorrect.kcorrect", "src/kcorrect/kcorrect.py:Kcorrect.absmag", "src/kcorrect/kcorrect.py:Kcorrect.derived"]}
{"id": "C201", "title": "A fit uses no more templates than bands", "statement": "However many templates there are, the number of nonzero coefficients of a fit by the algorithm of Lawson and Hanson is at most the number of bands with positive inverse variance, and all are nonnegative; some best fit with so few templates always exists.", "quantifier": "all classes, template sets, photometry, nonnegative inverse variances, redshifts in range, tolerances, and tables of every length", "why_tests_cant": "The claim ranges over a continuum of values and arrays of every size; tests only sample a few.", "anchors": ["src/kcorrect/fitter.py:Fitter.fit_coeffs", "src/kcorrect/fitter.py:Fitter._fit_coeffs"]}
{"id": "C202", "title": "The fit is piecewise linear in the photometry", "statement": "At fixed redshift and inverse variances, where the bands tell the templates apart, the coefficients are a linear function of the maggies for each set of templates that a fit uses. If all coefficients of a fit are positive, the coefficients near it are one affine function of the maggies, given by the Hessian there (so that errors can be propagated with it); if coefficients are pinned at zero, no affine rule need hold: none does near zero photometry.", "quantifier": "all classes, photometry, nonnegative inverse variances, redshifts in range, and solvers that meet the contract", "why_tests_cant": "The claim ranges over a continuum of values and arrays of every size; tests only sample a few.", "anchors": ["src/kcorrect/fitter.py:Fitter.fit_coeffs", "src/kcorrect/fitter.py:Fitter._fit_coeffs"]}
{"id": "C203", "title": "A search over redshifts finds the best one", "statement": "For fixed photometry, trying redshifts close enough together finds a fit with chi-squared within any given tolerance of the smallest possible over the range of the object. If no template has negative flux and each has flux in a band that enters the fit at every redshift, some redshift attains the smallest chi-squared.", "quantifier": "all classes, photometry, nonnegative inverse variances, tolerances, grids of trial redshifts, and solvers that meet the contract and return", "why_tests_cant": "The claim ranges over a continuum of values and arrays of every size; tests only sample a few.", "anchors": ["src/kcorrect/fitter.py:Fitter.fit_coeffs", "src/kcorrect/fitter.py:Fitter.reconstruct"]}
{"id": "C204", "title": "Monte Carlo coefficients have the propagated errors as long as the same templates are used", "statement": "Among the fits at one redshift with given inverse variances, those that use the same templates as the fit to the data respond linearly to the photometry. Any linear combination of the coefficients of a Monte Carlo draw that uses these templates is the value of a normal deviate, whose mean is the combination for the fit to the data and whose variance is propagated through that linear response from the inverse variances of the bands; bands with zero inverse variance add nothing. The deviates of different draws are independent.", "quantifier": "all classes, photometry, nonnegative inverse variances that determine the coefficients, linear combinations, numbers of draws, and solvers that meet the contract", "why_tests_cant": "The claim ranges over a continuum of values and arrays of every size; tests only sample a few.", "anchors": ["src/kcorrect/fitter.py:Fitter.fit_coeffs", "src/kcorrect/fitter.py:Fitter._fit_coeffs"]}
{"id": "C205", "title": "The Monte Carlo scatter vanishes with the errors", "statement": "Multiplying all inverse variances by a factor leaves the coefficients of the fit as they are. A Monte Carlo draw whose sampled photometry is close enough to the data has coefficients as close as wanted to those of the fit, however large the errors are; and the probability that any of a given number of draws is farther from the fit than a given distance is as small as wanted once the factor is large enough.", "quantifier": "all classes, photometry, nonnegative inverse variances that determine the coefficients, factors, numbers of draws, distances, probabilities, and solvers that meet the contract", "why_tests_cant": "The claim ranges over a continuum of values and arrays of every size; tests only sample a few.", "anchors": ["src/kcorrect/fitter.py:Fitter.fit_coeffs", "src/kcorrect/fitter.py:Fitter._fit_coeffs"]}
{"id": "C206", "title": "Fits to noisy photometry tend to the truth", "statement": "For a galaxy that is a nonnegative combination of the templates, whose photometry is observed with normal errors of the stated inverse variances, the probability that the coefficients of the fit differ from the true ones by more than a given amount is as small as wanted once the inverse variances are large enough, provided the bands used determine the coefficients. The same holds for the K-correction computed from the fit in every band in which the galaxy has flux.", "quantifier": "all classes, nonnegative true coefficients, redshifts in range, inverse variances that determine the coefficients, common factors of them, amounts, probabilities, band shifts, bands, and solvers that meet the contract", "why_tests_cant": "The claim ranges over a continuum of values and arrays of every size; tests only sample a few.", "anchors": ["src/kcorrect/fitter.py:Fitter.fit_coeffs", "src/kcorrect/fitter.py:Fitter._fit_coeffs", "src/kcorrect/fitter.py:Fitter.reconstruct", "src/kcorrect/kcorrect.py:Kcorrect.kcorrect"]}
{"id": "C207", "title": "Chi-squared and errors of the fit to a galaxy made of the templates", "statement": "For a galaxy that is a nonnegative combination of the templates, chi-squared of the fit to its photometry with errors, plus the squared distance of the fitted model's fluxes from the true ones in units of the errors, is at most the sum of the squares of the errors in these units, over the bands with positive inverse variance. So for normal errors the sum of the two exceeds t with probability at most the number of these bands divided by t, and the fitted flux in such a band is off by d standard errors with probability at most that number divided by the square of d. The coefficients need not be determined by the bands.", "quantifier": "all classes, nonnegative true coefficients, redshifts in range, nonnegative inverse variances, errors, and solvers that meet the contract", "why_tests_cant": "The claim ranges over a continuum of values and arrays of every size; tests only sample a few.", "anchors": ["src/kcorrect/fitter.py:Fitter.fit_coeffs", "src/kcorrect/fitter.py:Fitter._fit_coeffs", "src/kcorrect/fitter.py:Fitter.reconstruct"]}
{"id": "C208", "title": "Redshifts from the colours of a galaxy made of the templates", "statement": "If no combination of the templates at another redshift in the range has the fluxes of a galaxy made of the templates, in the bands with positive inverse variance, then for photometry close enough to that of the galaxy every redshift at which the best fit is at least as good as at the true redshift is as close to the true one as wanted. For normal errors this holds with a probability as close to one as wanted once the inverse variances are large enough.", "quantifier": "all classes, templates without negative flux that each have flux in a band that enters the fit at every redshift, nonnegative true coefficients, inverse variances, distances, probabilities, and solvers that meet the contract", "why_tests_cant": "The claim ranges over a continuum of values and arrays of every size; tests only sample a few.", "anchors": ["src/kcorrect/fitter.py:Fitter.fit_coeffs", "src/kcorrect/fitter.py:Fitter._fit_coeffs", "src/kcorrect/fitter.py:Fitter.reconstruct"]}
{"id": "C209", "title": "Galaxies without positive flux", "statement": "If no template has negative flux and each has flux in a band with positive inverse variance, the coefficients of the fit are all zero if and only if no template has a positive inverse-variance-weighted product with the fluxes. In particular they are zero when no band with positive inverse variance has positive flux. The K-corrections computed from the fit are then zero in every output band, all absolute magnitudes are the -9999 placeholder, and the masses, star-formation fractions, metallicity and mass-to-light ratios are zero.", "quantifier": "all classes, redshifts in the range, templates without negative flux that each have flux in a band that enters the fit, fluxes, nonnegative inverse variances, band shifts, output filters, and solvers that meet the contract", "why_tests_cant": "The claim ranges over a continuum of values and arrays of every size; tests only sample a few.", "anchors": ["src/kcorrect/fitter.py:Fitter.fit_coeffs", "src/kcorrect/fitter.py:Fitter._fit_coeffs", "src/kcorrect/kcorrect.py:Kcorrect.kcorrect", "src/kcorrect/kcorrect.py:Kcorrect.absmag", "src/kcorrect/kcorrect.py:Kcorrect.derived"]}
{"id": "C210", "title": "Photometry prepared by the example scripts can be fitted", "statement": "The scripts that make the mass-to-light-ratio and GALEX-SDSS-2MASS test plots turn any catalogue with the expected columns into flux and inverse-variance tables in which every entry is finite and every inverse variance is nonnegative, whatever NaN, infinite or negative values the catalogue holds. GALEX and 2MASS entries marked as missing (-99 or zero flux or error; zero magnitude or error not positive) get flux and inverse variance zero.", "quantifier": "all catalogues: any number of rows, any float values including NaN and infinities, any AB magnitudes of Vega in the 2MASS bands", "why_tests_cant": "The claim ranges over a continuum of values and arrays of every size; tests only sample a few.", "anchors": ["bin/k_plot_test_mtol", "bin/k_plot_test_gst", "src/kcorrect/utils.py:sdss_ab_correct", "src/kcorrect/utils.py:error_floor"]}
{"id": "C211", "title": "Units, extinction and error floors in the example scripts", "statement": "A catalogue measurement whose unit flux has AB magnitude zp becomes, in the photometry that the scripts fit, a flux in maggies whose magnitude is the catalogue magnitude on the AB system less the Galactic extinction in the band; its fractional error is the larger of the catalogue's and the band's floor; inverse variance zero stays zero.", "quantifier": "all catalogues, rows and bands with a measurement: fluxes and magnitudes of any size, nonnegative inverse variances, extinctions, AB magnitudes of Vega", "why_tests_cant": "The claim ranges over a continuum of values and arrays of every size; tests only sample a few.", "anchors": ["bin/k_plot_test_mtol", "bin/k_plot_test_gst", "src/kcorrect/utils.py:sdss_ab_correct", "src/kcorrect/utils.py:error_floor"]}
{"id": "C212", "title": "Points of the mass-to-light plots", "statement": "The plots of mass-to-light ratio against colour draw each galaxy with positive V-band mass-to-light ratio and measured B and V magnitudes at its Vega B-V colour and at the logarithm of its mass per solar V-band luminosity, and draw no other galaxies.", "quantifier": "all galaxies, coefficients, redshifts, templates, filters and AB magnitudes of Vega", "why_tests_cant": "The claim ranges over a continuum of values and arrays of every size; tests only sample a few.", "anchors": ["bin/k_plot_test_mtol", "bin/k_plot_test_gst", "src/kcorrect/kcorrect.py:Kcorrect.derived", "src/kcorrect/kcorrect.py:Kcorrect.absmag"]}
{"id": "C213", "title": "Residual plots of the example scripts", "statement": "The residual plots of the GALEX-SDSS-2MASS script draw each galaxy with positive fluxes and model fluxes in the bands of the panel at its observed minus its model magnitude, or colour, and draw no other galaxies. The SDSS script draws the catalogue magnitude on the AB system, corrected for extinction, minus the model magnitude.", "quantifier": "all lists of galaxies, fluxes, extinctions and model fluxes", "why_tests_cant": "The claim ranges over a continuum of values and arrays of every size; tests only sample a few.", "anchors": ["bin/k_plot_test_gst", "bin/k_plot_test_sdss", "src/kcorrect/utils.py:sdss_ab_correct"]}
{"id": "C214", "title": "The spectrum drawn with a fit", "statement": "The scripts that plot a fit draw, on the axes of the observed photometry, the fitted spectrum at the redshift of the galaxy.", "quantifier": "all templates, responses, redshifts and photometry", "why_tests_cant": "The claim ranges over a continuum of values and arrays of every size; tests only sample a few.", "anchors": ["bin/k_plot_test_v4_default_fit", "bin/k_plot_test_v4_lrg1_fit", "src/kcorrect/fitter.py:Fitter.set_Amatrix", "src/kcorrect/template.py:SED.set_redshift"]}
{"id": "C215", "title": "Colour tracks of a template", "statement": "The colour-redshift tracks that the luminous-red-galaxy script draws have one point per redshift, at the middles of equal parts of the range from 0 to 0.55; each colour is the difference of the magnitudes of the template at that redshift through two neighbouring bands, and does not depend on the redshifts visited before.", "quantifier": "all spectra, responses and numbers of redshifts", "why_tests_cant": "The claim ranges over a continuum of values and arrays of every size; tests only sample a few.", "anchors": ["bin/k_plot_test_v4_lrg1_colors", "src/kcorrect/template.py:SED.set_redshift", "src/kcorrect/response.py:Response.project"]}
{"id": "C216", "title": "Errors of absolute magnitudes from samples", "statement": "The documented error estimate, the standard deviation of absmag_mc over the samples that are not -9999, is the scatter of magnitude minus K-correction over the samples with positive flux. It does not depend on the distances, the cosmology, the AB correction or the brightness of the galaxy, and is NaN where no sample has flux.", "quantifier": "all tables of galaxies, numbers of samples, fluxes, coefficients and distances", "why_tests_cant": "The claim ranges over a continuum of values and arrays of every size; tests only sample a few.", "anchors": ["docs/examples.rst", "src/kcorrect/kcorrect.py:Kcorrect.absmag_mc", "src/kcorrect/kcorrect.py:Kcorrect.absmag"]}
{"id": "C217", "title": "Errors free of K-corrections", "statement": "With the default output bands and the band shift equal to the redshift of a galaxy, or when the fits to all samples have the same mix of templates, the documented error of its absolute magnitude is the scatter of the observed magnitudes of its samples: the K-corrections add nothing.", "quantifier": "all tables of galaxies, samples, coefficients, redshifts and distances", "why_tests_cant": "The claim ranges over a continuum of values and arrays of every size; tests only sample a few.", "anchors": ["docs/basics.rst", "docs/examples.rst", "src/kcorrect/kcorrect.py:Kcorrect.absmag_mc", "src/kcorrect/kcorrect.py:Kcorrect.kcorrect"]}
{"id": "C218", "title": "Errors for many samples", "statement": "Let the Monte Carlo samples of a galaxy be independent draws of one law, with a normal flux in a band and a bounded K-correction. As the number of samples grows, the documented error of the absolute magnitude tends, with probability one, to the standard deviation of magnitude minus K-correction given a positive flux; where the K-correction is the same for all samples with flux, this is the standard deviation of the magnitude of a normal flux given that it is positive.", "quantifier": "all tables of galaxies, samples, laws, coefficients, redshifts and distances", "why_tests_cant": "The claim ranges over a continuum of values and arrays of every size; tests only sample a few.", "anchors": ["docs/examples.rst", "src/kcorrect/kcorrect.py:Kcorrect.absmag_mc"]}
{"id": "C219", "title": "Errors for many samples, from the photometry", "statement": "Fit a table of galaxies with more and more Monte Carlo samples drawn from independent standard normal deviates, compute the absolute magnitudes of the samples and take their documented errors. Where the K-correction is the same for all samples with flux, the error of a galaxy in a band with a positive inverse variance tends, with probability one, to the standard deviation of the magnitude of a normal flux, given that it is positive, with the AB corrected maggies as mean and the inverse of the AB corrected ivar as variance.", "quantifier": "all tables of galaxies, photometry, redshifts, distances and solvers that return", "why_tests_cant": "The claim ranges over a continuum of values and arrays of every size; tests only sample a few.", "anchors": ["docs/examples.rst", "src/kcorrect/kcorrect.py:Kcorrect.absmag_mc", "src/kcorrect/fitter.py:Fitter.fit_coeffs"]}
{"id": "C220", "title": "Errors for many samples, K-corrections included", "statement": "Fit a table of galaxies with more and more Monte Carlo samples drawn from independent standard normal deviates, compute the absolute magnitudes of the samples and take their documented errors. Where the bands with positive inverse variance tell the templates apart, and each template has flux in the two bands involved, the K-correction of the best fit is a function of the fluxes in these bands, and the error in such a band tends, with probability one, to the standard deviation of magnitude minus K-correction given a positive flux, for independent normal fluxes with the AB corrected maggies as means and the inverses of the AB corrected ivars as variances. The missing value -9999 is never taken for a measurement.", "quantifier": "all tables of galaxies, photometry, redshifts, band shifts, distances and solvers that meet the contract", "why_tests_cant": "The claim ranges over a continuum of values and arrays of every size; tests only sample a few.", "anchors": ["docs/examples.rst", "src/kcorrect/kcorrect.py:Kcorrect.absmag_mc", "src/kcorrect/fitter.py:Fitter.fit_coeffs", "src/kcorrect/kcorrect.py:Kcorrect.kcorrect"]}
{"id": "C221", "title": "Distribution of the Monte Carlo samples", "statement": "Fit a table of galaxies with more and more Monte Carlo samples drawn from independent standard normal deviates. Where the bands with positive inverse variance tell the templates apart, the distribution of the samples of a galaxy tends, with probability one, to the distribution of what the best fit gives for independent normal fluxes with the AB corrected maggies as means and the inverses of the AB corrected ivars as variances. This holds for the coefficients, for the derived quantities (masses, mass-to-light ratios, star-formation fractions, metallicity) computed from the samples, and for the absolute magnitudes in bands in which each template has flux: the fraction of samples in a set, or at most a threshold, tends to the probability under that law. Sample k of a table of derived quantities holds the values of the galaxy alone for the coefficients of sample k.", "quantifier": "all tables of galaxies, photometry, redshifts, band shifts, distances, sets or thresholds, and solvers that meet the contract", "why_tests_cant": "The claim ranges over a continuum of values and arrays of every size; tests only sample a few.", "anchors": ["docs/examples.rst", "src/kcorrect/fitter.py:Fitter.fit_coeffs", "src/kcorrect/kcorrect.py:Kcorrect.derived_mc", "src/kcorrect/kcorrect.py:Kcorrect.absmag_mc"]}
{"id": "C222", "title": "Mean and scatter of the sampled coefficients", "statement": "Fit a table of galaxies with more and more Monte Carlo samples drawn from independent standard normal deviates. Where the bands with positive inverse variance tell the templates apart, mean and scatter of the samples of each coefficient tend, with probability one, to mean and standard deviation of the best-fit coefficient for independent normal fluxes with the AB corrected maggies as means and the inverses of the AB corrected ivars as variances. For every template the mean and the fraction of samples with a positive coefficient tend to positive values: for a template the best fit does not use, the samples lie at or above the best-fit coefficient 0 and their mean does not tend to it. Mean and scatter of the stellar masses and of the integrated star formation of the samples tend to those of the best fit under the same law.", "quantifier": "all tables of galaxies, photometry, redshifts in range, templates and solvers that meet the contract", "why_tests_cant": "The claim ranges over a continuum of values and arrays of every size; tests only sample a few.", "anchors": ["docs/examples.rst", "src/kcorrect/fitter.py:Fitter.fit_coeffs", "src/kcorrect/kcorrect.py:Kcorrect.derived_mc"]}
{"id": "C223", "title": "How far the mean of the samples is off", "statement": "For every number mc of Monte Carlo samples, drawn from independent standard normal deviates, the mean of the samples of a coefficient, of the stellar mass and of the integrated star formation of a galaxy has as expectation the mean of the best-fit value over independent normal fluxes (AB corrected maggies as means, inverses of the AB corrected ivars as variances), its variance is the variance of that value divided by mc, and it differs from the expectation by more than any eps with probability at most that variance divided by mc eps^2. The square of the standard deviation that numpy gives for the samples is on average (1 - 1/mc) times the variance.", "quantifier": "all tables of galaxies and single galaxies, photometry, redshifts in range, templates, numbers of samples and solvers that meet the contract", "why_tests_cant": "The claim ranges over a continuum of values and arrays of every size; tests only sample a few.", "anchors": ["docs/examples.rst", "src/kcorrect/fitter.py:Fitter.fit_coeffs", "src/kcorrect/kcorrect.py:Kcorrect.derived"]}
{"id": "C224", "title": "How many Monte Carlo samples are enough", "statement": "For every number mc > 0 of Monte Carlo samples, drawn from independent standard normal deviates, the fraction of the samples of a galaxy whose coefficients are in a set, or with a derived quantity up to a value, or with an absolute magnitude in a set (-9999 without positive flux), has as expectation the probability of the same for the best fit to independent normal fluxes (AB corrected maggies as means, inverses of the AB corrected ivars as variances), and is off by eps or more with probability at most 2 exp(-2 mc eps^2). So log(2/delta)/(2 eps^2) samples are enough for an error below eps with probability 1 - delta, whatever the galaxy.", "quantifier": "all tables of galaxies and single galaxies, photometry, redshifts in range, templates, sets, numbers of samples and solvers that meet the contract", "why_tests_cant": "The claim ranges over a continuum of values and arrays of every size; tests only sample a few.", "anchors": ["docs/examples.rst", "src/kcorrect/fitter.py:Fitter.fit_coeffs", "src/kcorrect/kcorrect.py:Kcorrect.derived", "src/kcorrect/kcorrect.py:Kcorrect.absmag"]}
{"id": "C225", "title": "How far percentiles of the samples are off", "statement": "For every number mc > 0 of Monte Carlo samples, drawn from independent standard normal deviates, and every p in [0, 1]: the samples of a coefficient, a derived quantity or an absolute magnitude (-9999 without positive flux) are all present in the returned arrays, and their 100 p percentile, interpolated as numpy does by default, is above a and at most b except with probability at most 4 exp(-2 mc eps^2), whenever the best fit to independent normal fluxes (AB corrected maggies as means, inverses of the AB corrected ivars as variances) is up to a with probability at most p - p/mc - eps and up to b with probability at least p + (1 - p)/mc + eps. So medians and percentile intervals of the samples, which need no mean or variance to exist, estimate those of the distribution.", "quantifier": "all tables of galaxies and single galaxies, photometry, redshifts in range, templates, percentiles, numbers of samples and solvers that meet the contract", "why_tests_cant": "The claim ranges over a continuum of values and arrays of every size; tests only sample a few.", "anchors": ["docs/examples.rst", "src/kcorrect/fitter.py:Fitter.fit_coeffs", "src/kcorrect/kcorrect.py:Kcorrect.derived", "src/kcorrect/kcorrect.py:Kcorrect.absmag"]}
