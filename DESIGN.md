# Formal model of blanton144/kcorrect in Lean 4

## 1. What is modelled

Python package `src/kcorrect` at the pinned commit: `utils.py`, `response.py`,
`template.py`, `fitter.py`, `kcorrect.py`. The model lives in `lean/Verif/Model`,
the small independent specifications in `lean/Verif/Spec.lean` (and, where they need names of the API, at the head of
the `Props` file that uses them), the property theorems in `lean/Verif/Props`, helper lemmas in `lean/Verif/Lemmas`.

| module | source |
|---|---|
| `Model/Arith`, `Model/Arr`, `Model/Float` | numbers, exceptions, numpy arrays, floating point |
| `Model/Utils` | `utils.py`: `sed_ab`, `sdss_ab_correct`, `error_floor`, `sdss_asinh_to_maggies`, `maggies2flambda`, `read_basel` |
| `Model/Interp` | the `interp1d(kind='cubic', fill_value=0)` wrapper, `np.unique`, `np.argsort`, `trapezoid` |
| `Model/Spline` | the not-a-knot cubic spline behind `interp1d(kind='cubic')` |
| `Model/Template`, `Model/Fits` | `template.py`: `SED`, `Template`, their files; `Response` files |
| `Model/SedHeap` | template.py:89–139, 226–245 with the arrays as objects: which arrays an `SED` shares with the caller and with itself, edits in place |
| `Model/Ieee` | the arithmetic `Ie` |
| `Model/Plot` | `template.py`: `SED.plot`, the lines and axis limits handed to matplotlib |
| `Model/TemplateFiles` | star formation histories in the two shipped template files, every value (the spectra are not copied) |
| `Model/TemplateWaves` | the 10000 wavelengths of each of the two shipped template files |
| `Model/Nnls` | the algorithm of `scipy.optimize.nnls` (SciPy 1.12) in exact arithmetic, with its tolerance and iteration limit; a dependency, used in C184 only |
| `Model/StarFiles` | `data/basel/lcbsun.ori` and `lcbvega.ori` (1221 rows each) and `data/responses/iras_60.dat`, every row, copied by a script |
| `Model/BandFiles` | `data/responses/*.dat` of the ten default bands, every row (2262 rows, copied by a script) |
| `Model/Response`, `Model/Registry` | `response.py`: `Response`, `ResponseDict`, `all_responses`, threads |
| `Model/Fitter` | `fitter.py`: grid, `set_Amatrix`, `_process_inputs`, `fit_coeffs`, `reconstruct` |
| `Model/Kcorrect` | `kcorrect.py`: `Kcorrect`, `KcorrectSDSS`, `KcorrectGST`, files, crash points of a save |
| `Model/RespExt` | `Response.fromfits` from an extension given by name or number |
| `Model/Reread` | `fromfits` on objects that already have contents: statement by statement, with what is left when one raises |
| `Model/Saving` | `tofits` of `SED`, `Template`, `Response` on an existing file (`clobber`), crash points |
| `Model/Lists` | band lists as Python objects: mutable default arguments, lists kept by reference |
| `Model/Heap` | the same methods on array objects: which array is written, which is shared |
| `Model/CallThreads` | threads making lists of calls on shared arrays, one step per access to an array |
| `Model/Builders` | threads in `_calc_Amatrix`, one step per assignment, projection or `interp1d` call |
| `Model/Scripts` | `bin/k_plot_test_mtol`, `bin/k_plot_test_gst`: from the catalogue columns to the photometry that is fitted, and the points of the mass-to-light plots |
| `Model/ScriptPlots` | `bin/`: residuals of `k_plot_test_gst` and `k_plot_test_sdss`, spectrum and points of `k_plot_test_v4_default_fit` and `k_plot_test_v4_lrg1_fit`, colour tracks of `k_plot_test_v4_lrg1_colors` |
| `Model/SampleErrors` | `docs/examples.rst` (errors from Monte Carlo samples), numpy's `std` with `where` |

### Numbers
Model functions are generic in a type `α` with a class `Arith α` of *operations only*
(`+ - * / neg`, literals, `sqrt exp log log10 10**x sinh cosh abs`, Boolean `<` and `<=`,
rounding to float32, truncation to integer). No law is assumed. Five uses:

* theorems stated for every `[Arith α]` hold for any arithmetic at all, IEEE floats included
  (batch = per-object, shape checks, state machines, file round trips, caching);
* theorems stated for `ℝ` (instance `Arith ℝ`: exact arithmetic, float32 rounding = identity) carry
  the algebra. There `x/0 = 0`, so every such theorem has explicit guards where the real code would
  divide by zero or take the logarithm or square root of a non-positive number;
* theorems stated for `XR` (reals with `nan`, `+inf`, `-inf` and IEEE rules for them; signed zero not
  modelled) settle what happens at those excluded points;
* theorems stated for `Fl` (`Model/Float`) are about rounding: every operation is followed by rounding to nearest, ties to
  even, to 24 or 53 bits, the precision being the one numpy gives to the result (NEP 50: a Python `float` takes the precision of
  the array it meets; before NumPy 2 the same for arrays, while a float32 *scalar* with a Python float gave float64, so the
  rounding theorems about one scalar redshift are about NumPy 2). Exponents are unbounded: no overflow, no subnormal
  numbers. `exp`, `log10`, `10**x`, `sinh`, ... are taken to be correctly rounded; a C library may be off by a unit in the last place;
* theorems stated for `Ie` (`Model/Ieee`) are about IEEE-754 numbers: the rounding of `Fl` with the exponent ranges of float32 and float64
  (overflow to infinity, gradual underflow) and the NaN and infinity rules of `XR`. There is one zero (no sign).

Not modelled: the order in which numpy sums (in `Fl`, the last term first; C133 bounds every order), overflow except in `Ie`, numpy warnings.

### Arrays
`NDA α`: a 0-d scalar or an array given by its leading shape and its rows along the last axis.
`WF` says the row list has the shape it declares. Ragged nested lists never become arrays.

### Exceptions
`Except PyErr`, with the Python class (`ValueError`, `TypeError`, `IndexError`, `KeyError`, `AttributeError`, `OSError`,
`RuntimeError`, `UnboundLocalError`). `raise("text")` in `utils.py` is a `TypeError` in Python 3
and is modelled so. A path the model does not follow returns `PyErr.unmodelled`, and no theorem claims success there.

### External code, as parameters with stated contracts
* `scipy.interpolate.interp1d(kind='cubic', bounds_error=False, fill_value=0)`: the wrapper (bounds, fill, sorting, refusal of
  repeated abscissae and of fewer than four points) is modelled; the spline value is a parameter `spline`. Contracts used, each a
  hypothesis of the theorem that needs it: linear in the ordinates; equivariant under rescaling of abscissae; exact at the knots.
  The spline is also modelled (`Model/Spline`, not-a-knot cubic spline by moments and tridiagonal elimination); C159 proves that it is
  the only function meeting the not-a-knot conditions and that it meets these contracts, so the theorems hold for it without them.
* `interp1d(kind='linear', axis=0)` (the A matrix): modelled in full (sorting, searchsorted, clip, slope formula, bounds error).
* `scipy.optimize.nnls`: a parameter; contract `NNLSOK` (whatever it returns is nonnegative, of the right length and minimises
  the residual norm), `NnlsLen` (length only), `NnlsReturns` (it returns); it may raise `RuntimeError`. C161 shows that a solver
  meeting all three exists. C184 shows that the algorithm of SciPy 1.12 meets `NNLSOK` in exact arithmetic with tolerance 0, and how far it
  misses with another tolerance. SciPy's source is not in the sandbox: `Model/Nnls` was written from its documentation and the published
  algorithm, could differ in detail from the installed version, and leaves out rounding. C187 uses it too, no other theorem does.
* `scipy.optimize.brentq`: a parameter; contract: a returned root lies in the bracket and is a zero up to the tolerance; raises
  `ValueError` without sign change.
* `scipy.integrate.trapezoid(y, x)`: modelled in full. Note the argument order.
* `astropy.cosmology` distance modulus: a parameter `distmod`, applied elementwise; it is assumed not to raise. Its value at redshift 0 is -inf, used only where a theorem says so in a hypothesis (C151).
* `numpy.random.normal`: the stream of draws is an input (for C115, `Deviates`: independent standard normal variables).
* FITS: a file is an ordered list of named HDUs; reading finds the first HDU of a name; what was written is read back. Column dtypes
  (float32, int32, unicode-200) are modelled as casts. Bytes are not modelled. An interrupted write leaves a prefix of
  the HDUs, the last one possibly cut off; reading the data of a cut-off HDU raises.
* Directory listing and `astropy.io.ascii.read`: parameters (`Disk`), which may change between calls.
* `np.float32(x)` returns `x` itself when `x` is a float32 array (so the result shares memory with the argument), and a new
  array otherwise; `a[..., k]` is a view. These two facts of numpy are the aliasing assumptions of `Model/Heap`.
* Threads: each dictionary operation, each attribute assignment and each file read is one atomic step; steps of
  different threads interleave arbitrarily.

### Simplifications
Each definition's comment cites file and lines and names its simplifications. All functions and methods of the package
`src/kcorrect` are modelled. Of `bin/`, the preparation of the photometry and the points and curves of the plots are modelled (not the
choice of rows, file reading, axes and labels, and plots of values exactly as the package returns them); `docs/` and `benchmarks/` are not.

## 2. Trusted base
Lean 4.33.0 kernel; the axioms `propext`, `Classical.choice`, `Quot.sound` only (each property theorem depends on a subset of
these three; `vcheck` prints the check); Mathlib definitions of `ℝ`, `Real.log`, `Real.exp`, `Real.sqrt`, `Real.sinh`, `List`
operations; the contracts above where a theorem takes them as hypotheses; and my reading of the Python source. No axiom is
added, no `sorry`, no `native_decide`, no `bv_decide`.

Copied data: `Model/TemplateFiles`, `Model/TemplateWaves`, `Model/BandFiles` and `Model/StarFiles` were written by scripts from the files in `/repo`; that the
copies agree with the files is not proved. `Lemmas/SplineData` (generated as well) is not trusted: it holds approximate spline moments with
error bounds, which the kernel checks against the defining equations (`rows_sound`). C185 and C186 are about exact arithmetic: the rounding
of the stored star spectra to float32 is in the model but is the identity over `ℝ`.

## 3. Plan per property
(S = generic in the arithmetic; R = over the reals; X = over XR; SM = state machine, induction on histories; FL = over `Fl`; I = over `Ie`; N = the property is false
of the code as it stands, so the negation is proved with a witness and the true part is proved as `_partial`.)

| id | model | proof |
|---|---|---|
| C01 | `sedAb` | R: field arithmetic |
| C02-C04 | `sdssAbCorrect` on `NDA` | R: logb/rpow laws per entry, then rows |
| C05 | same, shape checks | S; N for last axis > 5 with 2 or more axes (extra bands returned as 0) |
| C06-C08 | `errorFloor` | R for the bounds (C06, C07), S for idempotence (C08); X for zero maggies |
| C09 | both branches of `errorFloor` | S: column loop commutes with row map |
| C10 | `errorFloor` with the store cast of the caller's dtype | N for integer arrays |
| C11-C13 | `asinhToMaggies` | R: arsinh/sinh, HasDerivAt; N for C13 with extinction |
| C14 | `maggies2flambda` | R + S |
| C15-C16 | `splitWS`, `readBasel` | S: list induction |
| C17 | `mkResponse` | R: mergeSort lemmas |
| C18 | `projectSed`, `projectArr`, `trapezoid` | R: summation by parts; N without vanishing ends |
| C19-C20 | `lambdaEffOf` | R; N without vanishing ends |
| C21-C24, C28 | `projectSed`, `projectArr` | R with spline contracts |
| C25-C26 | `keepMask`, `projGrid` | R; N for coarse sampling |
| C27 | `fwhmLimits` | R with brentq contract |
| C29-C35 | registry state machine, thread small-step model | SM; N for C30, C31, C33, second half of C35 |
| C36-C39 | `Sed` state machine | SM, R for C38; N for C39 after a failed call |
| C40-C42 | `Fits` | S; N for C40 with a single wavelength |
| C43-C46 | `redshiftGrid`, `AMat.at` | R |
| C47 | `calcAmatrix` | SM |
| C48 | `chunkRow` | S/R |
| C49-C52, C54-C57, C61-C62 | `fit1`, `Fitter.fitCoeffs` | R with `NNLSOK`, S for structure; N for parts of C50, C51, C52, C56, C57; every class by `Props/AbClasses`, arrays of every length by `Props/AnyBatch` and `Props/AnyBatch2` |
| C53 | `processInputs`, every method | S: exact characterisation, with and without AB correction |
| C58-C60 | `Fitter.reconstruct` | R, S |
| C63 | `Kc.init` | S |
| C64-C69 | `Kc.kcorrect` | R, S |
| C70-C75 | `Kc.absmag`, `Kc.absmagMc` | R, S, X; N for NaN, C72 off the diagonal, C73 zero coefficients, C75 different band counts |
| C76-C82 | `Kc.derived`, `Kc.derivedMc` | R, S; N for C79, C80, C81 |
| C83-C86 | `Kc.tofits`, `Kc.fromfits`, `Kc.saveStates` | S; N for C84, C85 and parts of C83 |
| C87 | heap model | SM, induction over histories of calls; N for KcorrectGST with float32 arrays |
| C88-C89 | `toAb`, `processInputs` | S, R; N for C88 without ivar |
| C90 | `Kc.fitCoeffsAsinh` | S; N without errors |
| C91 | `respSetup` | R with contracts: totality on well-formed curves |
| C92 | `Curve.tofits`, `respFromfits` | R: sorting a sorted curve changes nothing |
| C93 | `Fitter.setAmatrix` | R: totality, every step returns |
| C94-C95 | `Kc.absmag`, `Kc.derived` | R, S: row by row; N for C94 with more than five bands in `KcorrectSDSS` |
| C96 | `Kc.saveStates` | N: every save passes through a state that cannot be opened |
| C97 | `fitCoeffs` followed by `absmagMc` | S; N with AB correction |
| C98 | `TplOp` histories; every method and `tofits` | SM |
| C99 | `BWorld.run`: threads, any schedule | SM; N when a template object is shared |
| C100 | `fitCoeffs`, `absmag` over ℝ | R under `NNLSOK`; `Determined` says the observed bands fix the mixture |
| C101 | `derived` over ℝ | R from C76 and C79 |
| C102 | `fitCoeffs`, `reconstruct` over ℝ | R: chi-squared is strictly convex in the model maggies |
| C103 | `calcAmatrix`, `AMat.at` over ℝ | R: every row is the list of single projections (`calc_cells`), linear by the spline contract |
| C104 | `setAmatrix`, `reconstruct`, `Optimal` over ℝ | R from C103 |
| C105 | `setAmatrix`, `reconstruct`, `Optimal` over ℝ | R from C103 |
| C106 | `calcAmatrix` with both values of `interpolate` | R |
| C107 | `Kc.init`, `reconstruct`, `reconstructOut`, `projectArr` over ℝ | R: `Nodes` describes the matrices at the nodes as projections; `at_cell` between them |
| C108 | `kcorrect` over ℝ | R from C107, C67, C28, C63 |
| C109 | two objects | R from C107 |
| C110 | `reconstruct` over ℝ | R from C107 |
| C111 | `reconstruct`, `reconstructOut` over ℝ | R: affine on each of finitely many closed cells |
| C112 | `reconstruct`, `Optimal` over ℝ | R: chi-squared on a line, sign of the slope |
| C113 | two fitters | R from C104 |
| C114 | two fitters | R from C103: matrix of the longer list is that of the shorter followed by more rows |
| C115 | `fitCoeffs` with the deviates as a random variable | R from C55 and Gaussian laws of Mathlib |
| C116 | `errorFloor`, `sdssAbCorrect` over ℝ | R |
| C117 | `errorFloor` over ℝ | R |
| C118 | `sdssAsinh` over ℝ | R |
| C119 | `mkResponse` | R: strictly sorted permutations are equal |
| C120 | `mkResponse` | R with contract |
| C121 | `projectSed`, `projectArr`, histories of `set_redshift` | SM, from C39 |
| C122 | `lambdaEffOf` | R |
| C123 | `Sed.saveStates`, `Tmpl.saveStates` | S: `M1000` is written last and needed |
| C124 | `Sed.save`, `Tmpl.save`, `Curve.save` | S |
| C125 | `Kc.init`, `setAmatrix`, histories of the templates | SM: every build starts with `set_redshift` from the rest frame |
| C126 | `LWorld`: list objects, constructions, changes | SM: invariant of the default lists; witness |
| C127 | `LWorld`, `KObj.view` | SM: a list nobody changes keeps its contents; witness |
| C128 | `Fl` arithmetic, `redshiftGrid`, `fitCoeffs`, `reconstruct` | FL: rounding is monotone and fixes representable numbers; witnesses |
| C129 | `Fl` arithmetic, `redshiftGrid` | FL: monotone rounding, relative error calculus `Near` |
| C130 | `Fl` arithmetic, `sdssAbCorrect` | FL: error calculus `Near`; rows by unfolding |
| C131 | `Fl` arithmetic, `errorFloor` | FL: error calculus `Near`, monotone rounding |
| C132 | `Fl` arithmetic, `AMat.at`, `setAmatrix` | FL: error of one interpolated element, over all elements |
| C133 | `Fl` arithmetic, `reconstruct`; relation `Sums` for all summation orders | FL: induction on the sum; error calculus `Near` |
| C134 | `Fl` arithmetic, `Kc.hdus` | FL: witness; interpolation at a node |
| C135 | `Fl` arithmetic, `reconstruct` | FL: witness; corollary of C133 |
| C136 | `starSed`, `solarMagOf`, `vega2abOf` | R: unfold; explicit flux formula in the statement |
| C137 | `projectArr`, `mkInterp` | R: case analysis |
| C138 | `kcorrect` over `Fl` | F: rounding-error analysis with `Near`; positivity of the coefficient sum |
| C139 | `absmag` over `Fl` | F: rounding-error analysis of each of the three entries, then rows and batches; classes with AB correction: the object without it on corrected photometry, with three more roundings |
| C140 | `asinhToMaggies`, `errorFloor` | R: case analysis on shapes, both directions |
| C141 | `maggies2flambda` | R: broadcasting condition of each product; witness of a broadcast single value |
| C142 | `Sed.ofStored` | R: case analysis on the stored image, both directions |
| C143 | `Sed.plot` | R: membership in the filtered lists; minimum and maximum attained |
| C144 | `maggies2flambda` over `Ie` | I: error calculus `Near` with range conditions; N: overflow of the squared AB flux factor |
| C145 | `fitCoeffsAsinh` over `Ie` | I: sinh overflows, inf·0 = NaN, through `to_ab` and `_process_inputs` to the solver (N); equal right-hand sides; corrected fluxes stay below overflow |
| C146 | `fitCoeffs` over `XR` | X: which entries make the right-hand side finite (iff), then N; mapM over the batch; the AB factors are positive numbers |
| C147 | `kcorrect`, `absmag` over `XR` | X: case analysis of the ratio of model fluxes and its logarithm; counterexample evaluated |
| C148 | sessions over a heap of arrays (`Model/SedHeap`) | I on sessions: ownership of `sed.wave`, `sed.flux` after `set_redshift`; frame of the rest-frame arrays; refinement of `set_redshift` to the model on values |
| C149 | `Model/SedHeap` with `projectSed` | I on sessions: `project` reads `interp` and `wave` only |
| C150 | `Kc.init`, `fitCoeffs`, `reconstruct`, `kcorrect`, `absmag` together | R: the matrices of a constructed object are defined exactly on the range; U + case split on the redshifts of a batch; witness outside |
| C151 | `derived`, `absmag` over `XR` | finite sums stay finite, ratios cancel the distance factor; at -inf all masses are 0 and guarded ratios 0 |
| C152 | `tofits`, `fromfits` of all classes | R: rounding, name cutting and truncation are idempotent; I on generations |
| C153 | `fitCoeffs`, `fitMc` | R: variational inequality of the nonnegative least squares optimum, for both photometries added; the deviate of a band is weighted by its own standard deviation |
| C154 | `absmag`, `kcorrect`, `reconstruct` | R: C70 with C67 |
| C155 | `derived` | R: sums with nonnegative weights keep order; C95 for batches |
| C156 | `kcorrect` of a constructed object | R: C111 and continuity of the logarithm |
| C157 | `derived` | Fl: rounding is monotone, so every operation with nonnegative operands is; a quotient of ordered numbers rounds to at most 1 |
| C158 | `derived`, `reconstruct_out` | Fl: relative roundings (`Near`) through sums of nonnegative terms; the factor of the distance cancels in ratios |
| C159 | `interp1d(kind='cubic')`: the spline itself | R: diagonally dominant tridiagonal system, elimination never divides by zero, solution unique; pieces glued at knots |
| C160 | `Response.project` with the modelled spline | R: witness by the four-point spline (a cubic); knots for the true part |
| C161 | `fit_coeffs` | R: induction over faces of the orthant (dependent columns: move to a smaller face; independent: compactness) |
| C162 | `set_fwhm_limits` | R: bracket of the search, intermediate values of the cubic; witness by the four-point spline |
| C163 | `Response.project` | R: trapezoidal error on each interval of the merged wavelengths (the spline is C²), summed; the pieces are finitely many cubics, so the second derivative is bounded |
| C164 | `set_lambda_eff`, `data/responses/epsi_I.dat` | R: summation by parts; the sum over the file is bounded above in natural numbers and compared by the kernel |
| C165 | `maggies2flambda`, `load_response` | G: induction over the list of names for the first call; XR: NaN propagates through `sed_ab` for later calls |
| C166 | `set_interp`, `set_redshift` | G: induction over the calls |
| C167 | `absmag_mc`, `KcorrectGST.to_ab` on objects, samples as views | G: from C87; R: the caller's arrays after `n` calls, induction over samples and calls; false for `KcorrectGST` with `abcorrect` |
| C168 | `Fitter.fitCoeffs` with any solver, `Kc.kcorrect` | R: uniqueness of the optimum from linear independence (C102); another optimum by a small step in the kernel; rank and nullity |
| C169 | `Kc.callP`, `ShWorld.run` | G: the steps of a call alone are the call of `Model/Heap` (`run_call`); each step reads and writes only its arrays (`frame_call`); invariant over schedules; R: two schedules of a GST object (C169_false) |
| C170 | `Fitter.fitCoeffs`, `Fitter.reconstruct` | R: C153 for photometries that differ in one band, identities of chi-squared by induction over bands |
| C171 | `Fitter.fitCoeffs`, `Fitter.reconstruct` | R: each fit is no worse than the other for its own weights; the two inequalities added |
| C172 | `kcorrect`, `absmag`, `derived` | R: two instances of the magnitude formula (C67, C70, C101) with the same observed-frame part; tables: `Props/Tables` |
| C173 | `derived` | G: the chain of calls is followed through both runs; only the last array uses bands and solar magnitudes |
| C174 | `all_responses`, `load_response` | G: induction over the listing, each name fresh; counterexample with two directories |
| C175 | `kcorrect`, `derived` | R: the ratio of two sums with nonnegative weights lies between the ratios of the terms; tables: `Props/Tables` |
| C176 | `derived`, `load_response`, threads | G: induction over the history (solar magnitudes kept); invariant over schedules that no thread is about to touch the output bands; counterexamples: failed reload, lookup in the middle of a reload |
| C177 | `sdss_asinh_to_maggies` | F: error of the argument of sinh and cosh (logarithm of the softening in single, the product with the magnitude in double precision), addition theorems for sinh and cosh of nearby arguments, then counting of roundings |
| C178 | `fit_coeffs` with a repeated band | chi-square of two measurements of one band is that of the weighted mean plus a constant; equal rows of the matrix of a built fitter |
| C179 | `Response.project` | monotone photon integral over the grid of sample wavelengths, ratio to the AB source |
| C180 | `reconstruct`, `kcorrect`, `derived`, `error_floor`, `sdss_ab_correct` | F: rounding commutes with multiplication by a power of two; induction over sums and loops |
| C181 | the ten default response files, `Response`, `Kcorrect.__init__` | tables copied row by row; kernel evaluates order, ends, positivity; then C91, C18, C19, C93 for all spectra and objects |
| C182 | `Response.project` with the shipped files | sdss_r0 has a negative sample: counterexample; other nine bands by C160 |
| C183 | `Template.fromfits` on the shipped files, `derived` | histories copied value by value; weighted sums of ordered lists; C155, C157, C77 |
| C184 | `optimize.nnls` (SciPy), `_fit_coeffs` with its second attempt | independence of the passive columns as invariant; (residual, number of passive columns) falls in each pass, potential on passive sets bounds the iterations; optimality conditions at the end |
| C185 | `lcbsun.ori`, `lcbvega.ori`, the ten default response files, `read_basel`, `set_solar_magnitude`, `set_vega2ab`, `derived` | data copied row by row; moments of each spline certified by a diagonally dominant system (`nak_near`); interval bounds of the photon integrals evaluated by the kernel; powers of ten compared as integers |
| C186 | the same with `iras_60.dat` | N: the bounds show both integrals negative; the ten default bands by C185 |
| C187 | the wavelengths of `kcorrect-default-v4.fits` and `kcorrect-lrg1-v4.fits`, `Template.fromfits`, the constructors, `fit_coeffs`, `kcorrect`, `absmag`, `derived` | the file is read (kernel checks 10000 increasing wavelengths), C181 makes the object, C184 fits, C150, C185 and C183 give the rest; spectra arbitrary |
| C188 | the same with the ten response files | N: kernel bound of the part of `galex_FUV` above 1800 Å against the whole band, C107 and C181 at redshift 2; covered ranges from the first and last wavelengths |
| C189 | `SED.set_interp`, `project` | C159's uniqueness applied to the polynomial |
| C190 | the ten response files, `set_lambda_eff`, `set_fwhm_limits` | integer bounds of the logarithm summed over the rows of the file by the kernel; C162 for the limits |
| C191 | `FitsFile.select`, `respFromfitsExt`, `Curve.save` | cases on the name and number of the extension; C92 for the default |
| C192 | `Fitter.fitCoeffs`, `Kc.derived` | C61 for the photometry of the fit, `derived_vals`; C52 and C95 for tables |
| C193 | `Curve.tofits`, `writing`, `respFromfitsExt` | cases on the state of the file; C92 for the complete one |
| C194 | `RespObj.fromfits`, `fromdat`, `SedAttr.run`, `SedAttr.fromfits` | invariant (no interpolator without the setting) by induction over the history; equivalence with the constructor |
| C195 | `TmplAttr.fromfits` | C194 for the spectra; the histories are untouched; masses from `derived_vals` |
| C196 | `Kc.readFits` | what opens can be read; `SameAnswers` as in C83; C67 for another mapping |
| C197 | `Kc.readFits`, `fromdat`, `SedAttr.fromfits` | cases on the statement that raises; files without `A`, curves and spectra of fewer than four samples |
| C198 | `reconstruct`, `derived`, `kcorrect` on `together c1 c2` | linearity of the model in the coefficients; weighted means |
| C199 | `fitCoeffs`, `reconstruct` at two redshifts | entries of the interpolated matrix are continuous (Mathlib's locally finite closed covers); compactness of the coefficients that beat the zero model; convexity for the fitted fluxes |
| C200 | `fitCoeffs`, `kcorrect`, `derived` near an input | coercivity on the unit sphere near the input; uniqueness of the optimum by convexity; compactness of the remaining coefficients |
| C201 | `fitCoeffs` with `lhNnls` | loop invariant: the columns of the passive set are independent, so no more of them than rows that are not zero |
| C202 | `fitCoeffs` as a function of the photometry | normal equations of the templates that are used, an invertible matrix; C200 for the local statement |
| C203 | `fitCoeffs`, `reconstruct` at many redshifts | C199: chi-squared does not jump up near an almost best redshift; a continuous function on a compact interval has a minimum |
| C204 | Monte Carlo part of `fitCoeffs` | C55 and C115: draws are fits to independent normal photometry; C202: linear response for given templates; sums of independent normals are normal |
| C205 | Monte Carlo part of `fitCoeffs` | C55: draws are fits; C62: a common factor of the weights does not matter; C200: continuity; Chebyshev for the samples of C115 |
| C206 | `fitCoeffs`, `reconstruct`, `kcorrect` | the fit to the exact photometry is the truth (C161, uniqueness); C62: a common factor of the weights does not matter; C200: continuity; Chebyshev for each band |
| C207 | `fitCoeffs`, `reconstruct` | the truth is the best fit to the exact photometry; best fits are firmly nonexpansive (C153); Markov for the sum of squares of the deviates |
| C208 | `fitCoeffs` at several redshifts, `reconstruct` | chi-squared of the exact photometry is continuous (C199) and positive away from the true redshift, so bounded below there; triangle inequality; Markov as in C207 |
| C209 | `fitCoeffs`, `kcorrect`, `absmag`, `derived` | chi-squared expanded around zero coefficients: the cross terms have one sign, the quadratic term forces each coefficient to zero; for the converse a small step along one template; then C67, C70 and the values of `derived` at zero |
| C210 | `mtolPhotometry`, `gstPhotometry` over XR | entries of the tables computed through `sdss_ab_correct`, extinction, `error_floor` and the removal of bad entries; what is left after the removal is finite by definition of the test |
| C211 | the same over ℝ | entries of the tables; powers of ten collected into one zero point; `floorEntry_real` for the error |
| C212 | `mtolPoints` after `derived` and `absmag` | values of `derived` (C76–C78), C70 for the placeholder; the solar luminosity is the same on both systems |
| C213 | `gstMagPoints`, `gstColorPoints`, `sdssResiduals` | selection and value per galaxy; logarithm of a ratio; powers of ten of the AB correction and the extinction |
| C214 | `fitPlot`: `setAmatrix`, `fitCoeffs`, `reconstruct`, the curve from the template object | C47 for the state of the templates; shift of a spectrum in the plane of the plot; C93 and C184 for existence |
| C215 | `colorTracks`: `loadMissing`, `setRedshift` and `projectSed` in a loop | induction over the redshifts with the rest frame as invariant (`SameRest`) |
| C216 | `mcErrors` (recipe of the documentation) on `absmagMc` | C75 and C70 entry by entry; the standard deviation does not change under a shift |
| C217 | `mcErrors` on `absmagMc`, `kcorrect` | C216 with C65 (matched band shift) and C66 (brightness) |
| C218 | `mcErrors` on `absmagMc` | C216 with the strong law of large numbers; the squared logarithm is integrable under a normal law |
| C219 | `fitCoeffs`, `absmagMc`, `mcErrors` | C218 for the samples of C115; the arrays of the fit are cubes of galaxies, bands and samples |
| C220 | `fitCoeffs`, `kcorrect`, `absmagMc`, `mcErrors` | C218 for the vectors of fluxes that enter the fit; the optimum is continuous in them (C200), its K-correction bounded (C175); the magnitude changes along rays and the K-correction does not, so a single value is taken on a null set |
| C221 | `fitCoeffs`, `derivedMc`, `absmagMc` | strong law of large numbers for indicators of the vectors of fluxes that enter the fit (`sample_fits`); the derived quantities and K-corrections are measurable functions of the coefficients, the optimum a continuous one of the fluxes |
| C222 | `fitCoeffs`, `derivedMc` | strong law for the coefficient or mass and its square; finite because the optimum is continuous and homogeneous; positive because the fluxes of one template are fitted by it alone and open sets have positive probability |
| C223 | `fitCoeffs`, `derivedMc` | the samples are values of one function at independent vectors of fluxes (`sample_fits`, `sample_fits_one`); variance of sums of independent variables, Chebyshev's inequality |
| C224 | `fitCoeffs`, `derivedMc`, `absmagMc` | the samples are values of one function at independent vectors of fluxes, as for C221; Hoeffding's inequality |
| C225 | `fitCoeffs`, `derivedMc`, `absmagMc` | counts of samples up to a and up to b bracket the percentile (`percentile_between`), the counts by Hoeffding's inequality as for C224 |

## 4. Findings
Points where the code does not do what its users rely on. Each is a theorem about the model (name in brackets).

1. `utils.py` lines 161, 165, 170, 220, 223, 281, 286, 291 raise a string; Python turns this into a `TypeError`.
2. `sdss_ab_correct` on tables with more than five columns returns zeros in the extra columns [C05_false, C05_extra_columns_zero];
   `KcorrectSDSS` with other than five bands and `abcorrect` inherits it [C53_false].
3. `error_floor` truncates when `ivar` is an integer array [C10_false].
4. `sdss_asinh_to_maggies` applies extinction to the maggies and not to the inverse variances [C13_false, C13_asinh_ivar_factor].
5. `Response.project` and `set_lambda_eff` call `trapezoid(x, y)` where scipy has `trapezoid(y, x)`. Summation by parts makes the result
   right when the integrand vanishes at both ends [C18_project_ratio_partial]; otherwise it is wrong [C18_false, C19_false, C24_ends_needed].
6. `Response.project` returns the scalar 0 when no spectrum sample falls inside the band, even if the spectrum covers it [C25_false].
7. `ResponseDict.load_response` enters an empty `Response` before reading the file. A failure leaves it there: later calls take it for
   loaded [C30_false, C30_false_half], a failed reload destroys the good entry [C31_false], a second `all_responses` call returns every
   candidate [C33_false], a thread may return with an entry another thread has not filled yet [C35_false].
8. Two threads constructing the first `ResponseDict` get different objects [C34_false].
9. `all_responses` accepts file names ending in a newline [C32_false].
10. `set_redshift(-1)` raises after it has changed the wavelengths, and keeps the interpolator of the old redshift [C39_false].
11. An SED with one wavelength can be saved and not reopened [C40_false].
12. A grid of one redshift is NaN [C43_one_redshift_nan]; a failed build leaves the templates redshifted [C47_failed_build_shifted].
13. A NaN flux in a band of zero weight is not ignored [C50_false_nan].
14. `fit_coeffs(mc>0)` at a redshift outside the grid raises, in a batch for all objects [C51_false_mc, C51_false_mc_batch].
15. `fit_coeffs` with a one-element array and `mc>0` never returns [C56_false]; with one band and one object it never returns
    [C57_false, C52_false_one_band].
16. `absmag` gives 0 and not -9999 for NaN photometry [C70_false].
17. `absmag(reconstruct=True)` takes the output bands at the redshift of the object and then subtracts the K-correction between
    input and output bands: right only without band shift and for identical bands [C72_false, C72_actual].
18. `absmag(limit=True)` returns limits for objects whose fit failed [C73_false].
19. `absmag_mc` allocates its result with the number of input bands [C75_false_refused, C75_false_repeated].
20. `absmag_mc` on the samples of `fit_coeffs` corrects to AB twice [C97_samples, C97_false].
21. `derived(distance=...)` never returns: `dm` is not assigned [C79_false, C79_unbound].
22. `derived` on arrays needs as many output as input bands [C80_false] and solar magnitudes in all output bands [C81_false].
23. `Kcorrect.tofits` stores the redshift range as integers [C84_false] and cuts names at 200 characters [C83_false_names]; a saved
    `KcorrectSDSS`/`KcorrectGST` reopens as `Kcorrect` without correction [C83_false_class]; output responses are not loaded on
    reopening [C85_false, C85_false_out]; an object made from plain `SED` templates cannot be reopened [C85_false_sed].
    (`np.compat.unicode`, used at kcorrect.py:736, is gone in numpy 2; not modelled.)
24. Saving over an existing file passes through states that cannot be opened [C96_false]; they are detected on opening [C86_interrupted_save].
25. `KcorrectGST.to_ab` assigns into its arguments, and `np.float32` of a float32 array is that array: with `abcorrect=True` every call
    corrects the caller's float32 arrays once more [C87_compounds, C87_drift, C87_false]; without `ivar` it raises [C88_false].
26. `fit_coeffs_asinh` without magnitude errors raises, except for exactly two galaxies: it then fits the first with the second
    as inverse variances [C90_silent_split, C90_false].
27. `_calc_Amatrix` moves the template object it was given: two threads building from one `Template` can get matrices of the wrong
    redshift, without an exception [C99_false].
28. `clobber=False` is documented to add an HDU to an existing file; it raises and adds nothing [C124_never_appends].
29. `KcorrectSDSS` and `KcorrectGST` keep their default band list by reference: appending to `k.responses` changes the bands of every later object of the class, and an object built from the caller's list changes with it [C126_false, C127_false]. The object then refuses photometry in its original bands; for photometry in the new bands it silently returns coefficients that are all zero, because the `except ValueError` of `_fit_coeffs`, meant for redshifts out of range, also catches the mismatch between the number of bands and the rows of the matrix [C127_resized, C127_resized_silent, C127_resized_one_band].
30. The limits of `redshift_range` are lost to rounding: with `[0.01, 0.25]` (4000 redshifts) the grid ends below 0.25, so a fit at 0.25 returns zeros, and `reconstruct` of an array holding 0.01 raises `ValueError`, `1 + 0.01 - 1` being below 0.01 in float32 [C128_false_fit, C128_false_reconstruct].
31. `tofits` saves `Amatrix(redshifts)`, interpolated values: in float32 an element much smaller than its neighbour at the previous redshift is saved as 0, and all others may change in the last digits [C134_false, C134_saved_partial].
32. In float32 `reconstruct` can return a negative flux for nonnegative templates and coefficients, where a band leaves the templates [C135_false].
33. `maggies2flambda` does not check the number of bands: a single flux, or a single response, is broadcast over the other [C141_broadcasts].
34. `maggies2flambda` squares the AB flux in float32: the inverse variances of deep photometry given in float32 overflow to +inf [C144_overflow, C144_false].
35. A missing SDSS magnitude (-9999) becomes maggies=+inf, ivar=0, and `fit_coeffs_asinh` raises `ValueError` for the whole batch [C145_false].
36. Where a model flux is zero (templates that do not reach a band) `kcorrect` returns +inf, -inf or NaN, and `absmag` then returns an infinity or NaN, not the documented -9999 [C147_false].
37. Coefficients containing NaN silently give the K-correction 0 [C147_false_nan].
38. A NaN or infinite flux (even with inverse variance 0), a negative inverse variance or a NaN redshift raises `ValueError` for the whole batch; a redshift out of range does not, unless `mc` is given [C146_batch].
39. `SED(wave=w, flux=f)` keeps the caller's arrays, and until `set_redshift` is called `sed.flux` is `sed.restframe_flux`: editing either changes the rest frame [C148_false].
40. `project(sed=)` uses the interpolator made by the constructor, `set_interp` or `set_redshift`, not the current `sed.flux` [C149_snapshot].
41. `KcorrectSDSS(abcorrect=True)` with more than five responses: a single object is refused, a batch is accepted and its bands after the fifth are fitted with zero flux and zero weight, whatever was measured [C53_ab_iff, C53_false_extra, C94_false].
42. `fit_coeffs` returns zeros for a redshift outside the redshift range, without an error, and these coefficients cannot be used: `reconstruct`, `kcorrect` and `absmag` raise, for the whole batch if one redshift of it is outside [C150_false].
43. At redshift 0 (inside the default range) the distance modulus is -inf: `derived` returns 0 for metallicity, b50, b300, b1000 and mtol, which do not depend on distance, and `absmag` returns +inf [C151_false_derived, C151_false_absmag].
44. A spectrum and a response with nonnegative samples can project to negative maggies: the cubic spline undershoots between samples [C160_false].
45. `fwhm_low` (`fwhm_high`) looks at samples only: below (above) it the interpolated response can exceed half the maximum, and the maximum is that of the samples [C162_false].
46. `set_lambda_eff` integrates over the response alone, so the exchanged arguments of finding 5 matter for shipped curves: `epsi_I` (7305–9771 Å) gets an effective wavelength above 9771 Å [C164_false],
    which `maggies2flambda` then uses. (Computed outside Lean from the 333 shipped curves: 23 are off by more than 1%, among them `jwst_f2550w`, `spitzer_mips_70` and `cfht_megacam_z` by about 5%.)
47. After a failed load, whose entry stays in the dictionary (C30), `maggies2flambda` returns NaN wavelengths and fluxes for the band instead of raising, even when the file has been repaired [C165_nan, C165_false].
48. `absmag_mc` of `KcorrectGST` with `abcorrect=True` corrects the caller's array of samples in place (the samples `fit_coeffs` returns are float32, so nothing is copied), and float32 inverse variances once for every sample: a second call with the same arrays returns magnitudes one AB offset off the first [C167_samples, C167_drift, C167_false].
49. With fewer bands with positive inverse variance than templates (five by default), the coefficients and the K-corrections derived from them can depend on the implementation of nnls, not only on the photometry [C168_differs, C168_few, C168_kcorrect].
50. Threads that give the same float32 photometry to a `KcorrectGST` object with `abcorrect=True` get magnitudes that depend on which of them comes first (`to_ab` corrects the array in place, C87) [C169_false].
51. `all_responses(response_dir=d, check_validity=True)` checks the files of the same names in the default directory, not those in `d` (C174).
52. `derived` reads the solar magnitudes of the output bands from the shared dictionary at each call: after a failed reload of such a band, or while another thread
reloads it, it raises `TypeError` (C176).
53. The shipped `sdss_r0.dat`, a default band, is negative at one wavelength (5380 Å, −0.0013): a nonnegative spectrum can have negative r
   maggies [C182_false]. 45 of the shipped curves are negative somewhere.  `twomass_J.dat` has two rows out of order, which the sort of
   `Response` repairs.  `blah.dat` and `test.dat` are shipped among the responses: `all_responses()` lists them and they cannot be loaded.
54. The shipped template files have no `M50`, and `Template` then silently takes zero: `b50` is 0 for every galaxy, whatever its star formation
   [C183_default], while `b300` of the same galaxy can be 1.
55. Inside the range of the star models `solar_magnitude` and `vega2ab` can be `None`: beyond 20 µm the models have few points, and the cubic
   spline through them is negative between 40 and 60 µm. For `iras_60` both are `None` although the documentation promises a value, and
   `derived` then always raises [C186_false, C186_false_derived]. A computation outside Lean gives the same for `iras_100`,
   `sofia_hawc_bandA`, `sofia_hawc_bandC`, `jwst_f1800w` and `herschel_pacs_100`.
56. The default redshift range goes to 2, where the templates (from 600 Å) begin at 1801 Å: `galex_FUV` is cut above redshift 1.23 and
   `galex_NUV` above 1.81, both default bands of `KcorrectGST`. At redshift 2 the model has flux in the last 10 Å of `galex_FUV` only, and
   the reconstructed maggies are at most 1% of the brightest AB flux of the spectrum, without a warning [C188_false].
57. `Response.tofits` ignores `ext` (response.py:311): the table has no extension name, and reading it with the name that was given, or with the
   default name `FLUX`, raises `KeyError` [C191_false].
58. `Template` has no `fromfits` of its own: `template.fromfits(filename)` replaces the spectra and keeps the masses and star-formation histories
   of the file the object was made from; masses computed with it are wrong without any error [C195_false, C195_false_masses].
59. `Kcorrect.fromfits` on an existing object does not recompute the index map (kcorrect.py:172–177 is in the constructor): with another mapping
   the K-corrections of the read object compare the wrong bands [C196_false].
60. A `fromfits` or `fromdat` that raises leaves mixtures: a `Kcorrect` with new templates and bands and old matrices [C197_false_kcorrect], a
   `Response` with a new curve and the old interpolator and magnitudes [C197_false_response], an interpolating `SED` with new spectra and the
   old interpolator [C197_false_sed].
61. The mass-to-light plots of `bin/k_plot_test_mtol` and `bin/k_plot_test_gst` divide `mtol` by `10**(0.4 vega2ab)` "to be in Vega"; the ratio
   is in solar units and does not depend on the magnitude system, so every point is off by 0.4 `vega2ab` dex in V [C212_false].
62. The same plots select on `mtol > 0` only: galaxies whose B and V magnitudes are both the -9999 placeholder are drawn, all at one
   colour that depends on the filters only [C212_false].
63. `bin/k_plot_test_v4_default_fit` and `bin/k_plot_test_v4_lrg1_fit` draw the rest-frame template spectrum (`set_Amatrix` returns
   the templates to redshift 0) together with maggies observed at redshift 0.0532: the curve is off by log10(1+z) in both coordinates
   [C214_false].
64. `docs/examples.rst` says that the Monte Carlo samples give the error distribution around the best-fit value. Coefficients are never negative,
   so for a template the best fit does not use all samples lie on one side of it, and their mean tends to a positive value [C222_coeffs].
65. The same example takes the error as `std`, which divides by the number of samples. For coefficients and masses its square is on average
   `1 - 1/mc` of the variance of the samples [C223_coeffs, C223_mass] (one per cent low for 100 samples as there, half for two, and a single
   sample has error 0). The example takes it of absolute magnitudes, for which C223 says nothing: where a sample can have no positive flux
   it leaves out the -9999.

Also noted and not stated as a property: `sdss_ab_correct` rounds tables to float32 and vectors not; `fit_coeffs` returns float64 for one
object and float32 for several; `Kcorrect.fromfits` ignores `interpolate_templates`; `nredshift` and `abcorrect` come back as
one-element arrays; `docs/examples.rst` says that `absmag` uses the reconstructed maggies where the photometry is bad, and a few lines on
that it returns -9999 there, as the code does (C70); the example there takes the stellar mass from `derived['mtol']` instead of
`derived['mremain']`; `benchmarks/benchmarks.py` imports `kcorrect.example_benchmarks`, which does not exist.

## 5. Mutation tests
`seeded/LOG.jsonl` lists edits of the model that imitate bugs, with the theorems that then fail. The edits were made in a copy outside this
tree. A theorem counts as failed when its own proof or that of a lemma it rests on no longer compiles.
