{
 "claims": [
  {
   "property": "C01",
   "status": "proved",
   "theorems": [
    "KC.C01_sed_ab_flat"
   ],
   "note": "Real arithmetic, arrays of every shape, nonzero wavelengths."
  },
  {
   "property": "C02",
   "status": "proved",
   "theorems": [
    "KC.C02_ab_correct_offset",
    "KC.C02_default_offsets"
   ],
   "note": "Real arithmetic, every rank >= 1."
  },
  {
   "property": "C03",
   "status": "proved",
   "theorems": [
    "KC.C03_ab_correct_snr"
   ],
   "note": "Real arithmetic."
  },
  {
   "property": "C04",
   "status": "proved",
   "theorems": [
    "KC.C04_ab_correct_inverse"
   ],
   "note": "Real arithmetic; equality of whole arrays."
  },
  {
   "property": "C05",
   "status": "partial",
   "theorems": [
    "KC.C05_ab_correct_rejects_partial",
    "KC.C05_false",
    "KC.C05_returns_iff",
    "KC.C05_extra_columns_zero"
   ],
   "note": "The full claim is false of the code: arrays of rank >= 2 with more than 5 columns are accepted and the extra columns come back as zeros (C05_false). The partial theorem covers every other bad input; C05_returns_iff is the exact characterisation."
  },
  {
   "property": "C06",
   "status": "proved",
   "theorems": [
    "KC.C06_floor_no_confidence"
   ],
   "note": "Arithmetic with infinities and NaN, rank 1 and 2."
  },
  {
   "property": "C07",
   "status": "proved",
   "theorems": [
    "KC.C07_floor_enforced"
   ],
   "note": "Real arithmetic, rank 1 and 2."
  },
  {
   "property": "C08",
   "status": "proved",
   "theorems": [
    "KC.C08_floor_idempotent"
   ],
   "note": "Every arithmetic, every dtype, rank 1 and 2."
  },
  {
   "property": "C09",
   "status": "proved",
   "theorems": [
    "KC.C09_floor_rowwise"
   ],
   "note": "Every arithmetic, every dtype."
  },
  {
   "property": "C10",
   "status": "partial",
   "theorems": [
    "KC.C10_floor_precision_partial",
    "KC.C10_false"
   ],
   "note": "False of the code for integer ivar arrays (C10_false); proved for float arrays."
  },
  {
   "property": "C11",
   "status": "proved",
   "theorems": [
    "KC.C11_asinh_inverse"
   ],
   "note": "Real arithmetic."
  },
  {
   "property": "C12",
   "status": "proved",
   "theorems": [
    "KC.C12_asinh_decreasing"
   ],
   "note": "Real arithmetic."
  },
  {
   "property": "C13",
   "status": "partial",
   "theorems": [
    "KC.C13_asinh_errors_partial",
    "KC.C13_false",
    "KC.C13_asinh_ivar_factor"
   ],
   "note": "False of the code when extinction is given: ivar is too large by 10^(0.8 e) (C13_false, C13_asinh_ivar_factor). Proved without extinction."
  },
  {
   "property": "C14",
   "status": "proved",
   "theorems": [
    "KC.C14_maggies2flambda"
   ],
   "note": "Real arithmetic; responses in the dictionary or loadable."
  },
  {
   "property": "C15",
   "status": "proved",
   "theorems": [
    "KC.C15_read_basel"
   ],
   "note": "Word conversions are parameters."
  },
  {
   "property": "C16",
   "status": "proved",
   "theorems": [
    "KC.C16_read_basel_short"
   ],
   "note": "All files."
  },
  {
   "property": "C17",
   "status": "proved",
   "theorems": [
    "KC.C17_curve_sorted"
   ],
   "note": "Every length, input order arbitrary."
  },
  {
   "property": "C18",
   "status": "partial",
   "theorems": [
    "KC.C18_project_ratio_partial",
    "KC.C18_false",
    "KC.C18_project_exact"
   ],
   "note": "False of the code in general: the arguments of trapezoid are swapped, so the ratio is right only when the integrands vanish at both ends of the grid (C18_project_ratio_partial); C18_false exhibits the failure; C18_project_exact says what is computed."
  },
  {
   "property": "C19",
   "status": "partial",
   "theorems": [
    "KC.C19_lambda_eff_in_band_partial",
    "KC.C19_false",
    "KC.C164_inside_iff"
   ],
   "note": "False of the code for curves whose ends are not zero (C19_false); proved for curves vanishing at both ends."
  },
  {
   "property": "C20",
   "status": "proved",
   "theorems": [
    "KC.C20_lambda_eff_scale"
   ],
   "note": "Real arithmetic."
  },
  {
   "property": "C21",
   "status": "proved",
   "theorems": [
    "KC.C21_project_linear"
   ],
   "note": "Real arithmetic, the spline being linear in the data."
  },
  {
   "property": "C22",
   "status": "proved",
   "theorems": [
    "KC.C22_project_resp_scale"
   ],
   "note": "Real arithmetic, the spline being linear in the data."
  },
  {
   "property": "C23",
   "status": "proved",
   "theorems": [
    "KC.C23_ab_is_one",
    "KC.C23_every_curve"
   ],
   "note": "Real arithmetic. C23_every_curve: any response curve, whatever its sign and its ends, and any row of several spectra, unless the integral the code divides by is zero."
  },
  {
   "property": "C24",
   "status": "proved",
   "theorems": [
    "KC.C24_project_nonneg",
    "KC.C24_denominator_pos",
    "KC.C24_ends_needed"
   ],
   "note": "For curves vanishing at the ends; C24_ends_needed shows the condition cannot be dropped."
  },
  {
   "property": "C25",
   "status": "partial",
   "theorems": [
    "KC.C25_no_overlap_zero_partial",
    "KC.C25_false"
   ],
   "note": "Zero for disjoint ranges; the code also returns zero when the band lies inside the range of the spectrum between two samples (C25_false)."
  },
  {
   "property": "C26",
   "status": "proved",
   "theorems": [
    "KC.C26_grid_complete",
    "KC.C26_grid_exists",
    "KC.C26_project"
   ],
   "note": "All grids. C26_project: the grid as seen in what project returns."
  },
  {
   "property": "C27",
   "status": "proved",
   "theorems": [
    "KC.C27_fwhm"
   ],
   "note": "For the contract of brentq in the hypotheses."
  },
  {
   "property": "C28",
   "status": "proved",
   "theorems": [
    "KC.C28_redshift_is_blueshift"
   ],
   "note": "Real arithmetic."
  },
  {
   "property": "C29",
   "status": "proved",
   "theorems": [
    "KC.C29_load_cached",
    "KC.C29_load_contents"
   ],
   "note": "Induction over histories with arbitrary disk contents at each call."
  },
  {
   "property": "C30",
   "status": "partial",
   "theorems": [
    "KC.C30_failed_load_partial",
    "KC.C30_failed_load_poisons",
    "KC.C30_false",
    "KC.C30_false_half"
   ],
   "note": "False of the code: the failed name stays in the dictionary as an empty or half-filled Response. Proved: other entries are unchanged."
  },
  {
   "property": "C31",
   "status": "partial",
   "theorems": [
    "KC.C31_reload_partial",
    "KC.C31_reload_missing",
    "KC.C31_false"
   ],
   "note": "False of the code: a failed reload replaces the entry by an empty Response. Proved: other entries unchanged, and what a successful reload does."
  },
  {
   "property": "C32",
   "status": "partial",
   "theorems": [
    "KC.C32_all_responses_partial",
    "KC.C32_false"
   ],
   "note": "Proved for file names without newline; false for names ending in a newline."
  },
  {
   "property": "C33",
   "status": "partial",
   "theorems": [
    "KC.C33_valid_partial",
    "KC.C33_second_call",
    "KC.C33_false"
   ],
   "note": "False of the code: a second call returns every candidate name. Proved: names returned by a call in a process without failed loads are usable."
  },
  {
   "property": "C34",
   "status": "partial",
   "theorems": [
    "KC.C34_shared_partial",
    "KC.C34_threads_partial",
    "KC.C34_uninterrupted",
    "KC.C34_false"
   ],
   "note": "Proved for uninterrupted calls, and for any number of threads once the dictionary exists; false when two threads make the first construction at once."
  },
  {
   "property": "C35",
   "status": "partial",
   "theorems": [
    "KC.C35_concurrent_loads_partial",
    "KC.C35_finishes",
    "KC.C35_sequential",
    "KC.C35_false"
   ],
   "note": "First half proved for any number of threads and schedules; the second half is false (a returned thread may find an empty entry)."
  },
  {
   "property": "C36",
   "status": "proved",
   "theorems": [
    "KC.C36_set_redshift_absolute"
   ],
   "note": "Every arithmetic, induction over the calls."
  },
  {
   "property": "C37",
   "status": "proved",
   "theorems": [
    "KC.C37_rest_frame_kept",
    "KC.C37_back_to_rest",
    "KC.C37_back_to_rest_xr"
   ],
   "note": "Induction over the calls."
  },
  {
   "property": "C38",
   "status": "proved",
   "theorems": [
    "KC.C38_bolometric"
   ],
   "note": "Real arithmetic."
  },
  {
   "property": "C39",
   "status": "partial",
   "theorems": [
    "KC.C39_interp_current_partial",
    "KC.C39_false"
   ],
   "note": "False after a failed set_redshift(-1) (C39_false); proved for histories without failing calls."
  },
  {
   "property": "C40",
   "status": "partial",
   "theorems": [
    "KC.C40_sed_roundtrip_partial",
    "KC.C40_false",
    "KC.C40_one_wavelength"
   ],
   "note": "Every arithmetic; proved for at least two wavelengths; false for one (C40_false). astropy's write/read is trusted."
  },
  {
   "property": "C41",
   "status": "partial",
   "theorems": [
    "KC.C41_template_roundtrip_partial",
    "KC.C41_template_roundtrip_generic",
    "KC.C41_false"
   ],
   "note": "Proved for at least two wavelengths; false for one (C41_false). astropy's write/read is trusted."
  },
  {
   "property": "C42",
   "status": "proved",
   "theorems": [
    "KC.C42_vector_flux",
    "KC.C42_wrong_length"
   ],
   "note": "Every arithmetic."
  },
  {
   "property": "C43",
   "status": "proved",
   "theorems": [
    "KC.C43_grid",
    "KC.C43_one_redshift_nan",
    "KC.C43_object"
   ],
   "note": "Real arithmetic."
  },
  {
   "property": "C44",
   "status": "proved",
   "theorems": [
    "KC.C44_exact_at_grid"
   ],
   "note": "End to end: entries are the projections of the templates shifted to that redshift."
  },
  {
   "property": "C45",
   "status": "proved",
   "theorems": [
    "KC.C45_bracketed",
    "KC.C45_nonneg"
   ],
   "note": "Real arithmetic."
  },
  {
   "property": "C46",
   "status": "proved",
   "theorems": [
    "KC.C46_reconstruct",
    "KC.C46_reconstruct_one",
    "KC.C46_kcorrect",
    "KC.C46_absmag",
    "KC.C46_ab"
   ],
   "note": "Real arithmetic; reconstruct, kcorrect, absmag, one object and arrays. The _ab theorems hold for every class, with AB correction on or off, on the AB corrected photometry, for the bands the correction is made for (five for KcorrectSDSS, seven or more for KcorrectGST)."
  },
  {
   "property": "C47",
   "status": "proved",
   "theorems": [
    "KC.C47_restored",
    "KC.C47_rest_frame",
    "KC.C47_failed_build_shifted"
   ],
   "note": "Any history of builds ending in a successful one. A build that raises leaves the templates shifted (C47_failed_build_shifted)."
  },
  {
   "property": "C48",
   "status": "proved",
   "theorems": [
    "KC.C48_chunks"
   ],
   "note": "Real arithmetic, any group size."
  },
  {
   "property": "C49",
   "status": "proved",
   "theorems": [
    "KC.C49_optimal",
    "KC.C49_optimal_batch",
    "KC.C49_ab",
    "KC.C49_ab_batch",
    "KC.C49_every_length"
   ],
   "note": "Real arithmetic, ivar nonnegative, for any solver meeting the contract NNLSOK. The _ab theorems hold for every class, with AB correction on or off, on the AB corrected photometry, for the bands the correction is made for (five for KcorrectSDSS, seven or more for KcorrectGST). C49_every_length: arrays of every length, one included."
  },
  {
   "property": "C50",
   "status": "partial",
   "theorems": [
    "KC.C50_zero_ivar_partial",
    "KC.C50_zero_ivar_batch_partial",
    "KC.C50_false_nan",
    "KC.C50_ab_partial",
    "KC.C50_ab_batch_partial",
    "KC.C50_every_length_partial"
   ],
   "note": "Proved for finite maggies; false for NaN maggies (C50_false_nan). The _ab theorems hold for every class, with AB correction on or off, on the AB corrected photometry, for the bands the correction is made for (five for KcorrectSDSS, seven or more for KcorrectGST). C50_every_length_partial: arrays of every length, one included, without Monte Carlo."
  },
  {
   "property": "C51",
   "status": "partial",
   "theorems": [
    "KC.C51_scalar_partial",
    "KC.C51_batch_partial",
    "KC.C51_false_mc",
    "KC.C51_false_mc_batch",
    "KC.C51_ab_partial",
    "KC.C51_ab_batch_partial",
    "KC.C51_every_length_partial"
   ],
   "note": "Proved without Monte Carlo; with Monte Carlo the call raises and the results of the whole batch are lost. The _ab theorems hold for every class, with AB correction on or off, on the AB corrected photometry, for the bands the correction is made for (five for KcorrectSDSS, seven or more for KcorrectGST)."
  },
  {
   "property": "C52",
   "status": "partial",
   "theorems": [
    "KC.C52_batch_partial",
    "KC.C52_batch_of_one_partial",
    "KC.C52_false_one_band",
    "KC.C56_false",
    "KC.C52_ab_partial",
    "KC.C52_ab_batch_of_one_partial",
    "KC.C52_every_length_partial"
   ],
   "note": "Every arithmetic. Proved for every batch size except one band and batch of one with Monte Carlo, where it is false. The _ab theorems hold for every class, with AB correction on or off, on the AB corrected photometry, for the bands the correction is made for (five for KcorrectSDSS, seven or more for KcorrectGST). C52_every_length_partial: arrays of every length, one included, without Monte Carlo."
  },
  {
   "property": "C53",
   "status": "partial",
   "theorems": [
    "KC.C53_mismatch_refused",
    "KC.C53_match_accepted",
    "KC.C53_shapes_iff_partial",
    "KC.C53_fit_coeffs_refuses",
    "KC.C53_reconstruct_refuses",
    "KC.C53_kcorrect_refuses",
    "KC.C53_absmag_refuses",
    "KC.C53_derived_refuses",
    "KC.C53_absmag_distance",
    "KC.C53_ab_iff",
    "KC.C53_false",
    "KC.C53_false_extra"
   ],
   "note": "Refusal of mismatched shapes holds always, in every method. Without AB correction exactly the matching shapes are accepted; with it C53_ab_iff says exactly which are. The full property is false: KcorrectSDSS refuses matching single objects with other than five bands, fits batches with more than five bands as if the extra ones were not measured (C53_false_extra), and KcorrectGST needs an inverse variance."
  },
  {
   "property": "C54",
   "status": "proved",
   "theorems": [
    "KC.C54_retry",
    "KC.C54_ab"
   ],
   "note": "Every arithmetic, every solver behaviour. The _ab theorems hold for every class, with AB correction on or off, on the AB corrected photometry, for the bands the correction is made for (five for KcorrectSDSS, seven or more for KcorrectGST)."
  },
  {
   "property": "C55",
   "status": "proved",
   "theorems": [
    "KC.C55_monte_carlo",
    "KC.C55_ab"
   ],
   "note": "Real arithmetic, one object with at least two bands; batches by C52_batch_partial. The _ab theorems hold for every class, with AB correction on or off, on the AB corrected photometry, for the bands the correction is made for (five for KcorrectSDSS, seven or more for KcorrectGST)."
  },
  {
   "property": "C56",
   "status": "partial",
   "theorems": [
    "KC.C56_false",
    "KC.C56_ab_false"
   ],
   "note": "False: such a call never returns."
  },
  {
   "property": "C57",
   "status": "partial",
   "theorems": [
    "KC.C57_partial",
    "KC.C57_false",
    "KC.C57_ab_partial"
   ],
   "note": "False for one band; proved for every other number."
  },
  {
   "property": "C58",
   "status": "proved",
   "theorems": [
    "KC.C58_linear",
    "KC.C58_linear_batch"
   ],
   "note": "Real arithmetic."
  },
  {
   "property": "C59",
   "status": "proved",
   "theorems": [
    "KC.C59_batch"
   ],
   "note": "Every arithmetic."
  },
  {
   "property": "C60",
   "status": "proved",
   "theorems": [
    "KC.C60_nonneg",
    "KC.C60_nonneg_batch"
   ],
   "note": "Real arithmetic."
  },
  {
   "property": "C61",
   "status": "proved",
   "theorems": [
    "KC.C61_recovered",
    "KC.C61_ab",
    "KC.C61_every_length"
   ],
   "note": "Real arithmetic. The _ab theorems hold for every class, with AB correction on or off, on the AB corrected photometry, for the bands the correction is made for (five for KcorrectSDSS, seven or more for KcorrectGST). C61_every_length: arrays of every length."
  },
  {
   "property": "C62",
   "status": "proved",
   "theorems": [
    "KC.C62_flux_scale",
    "KC.C62_weight_scale",
    "KC.C62_fit_scale",
    "KC.C62_ab",
    "KC.C62_every_length"
   ],
   "note": "Real arithmetic. The _ab theorems hold for every class, with AB correction on or off, on the AB corrected photometry, for the bands the correction is made for (five for KcorrectSDSS, seven or more for KcorrectGST). C62_every_length: arrays of every length, with factors of their own for every object."
  },
  {
   "property": "C63",
   "status": "proved",
   "theorems": [
    "KC.C63_imap",
    "KC.C63_raises_iff",
    "KC.C63_defaults"
   ],
   "note": "Every arithmetic."
  },
  {
   "property": "C64",
   "status": "proved",
   "theorems": [
    "KC.C64_bands",
    "KC.C64_rest"
   ],
   "note": "Real arithmetic."
  },
  {
   "property": "C65",
   "status": "proved",
   "theorems": [
    "KC.C65_bands",
    "KC.C65_matched"
   ],
   "note": "Real arithmetic."
  },
  {
   "property": "C66",
   "status": "proved",
   "theorems": [
    "KC.C66_brightness"
   ],
   "note": "Real arithmetic."
  },
  {
   "property": "C67",
   "status": "proved",
   "theorems": [
    "KC.C67_model_magnitudes"
   ],
   "note": "Real arithmetic."
  },
  {
   "property": "C68",
   "status": "proved",
   "theorems": [
    "KC.C68_batch"
   ],
   "note": "Every arithmetic in which 0 is exact in single precision."
  },
  {
   "property": "C69",
   "status": "proved",
   "theorems": [
    "KC.C69_no_result",
    "KC.C69_value_error",
    "KC.C69_range"
   ],
   "note": "Real arithmetic."
  },
  {
   "property": "C70",
   "status": "partial",
   "theorems": [
    "KC.C70_formula_partial",
    "KC.C70_corrected_partial",
    "KC.C70_false",
    "KC.C70_batch_partial"
   ],
   "note": "Holds for real photometry; false for NaN maggies or ivar, where the entry is 0 and not -9999 (C70_false)."
  },
  {
   "property": "C71",
   "status": "proved",
   "theorems": [
    "KC.C71_flux",
    "KC.C71_distance",
    "KC.C71_ab_flux",
    "KC.C71_ab_distance",
    "KC.C71_batch_flux"
   ],
   "note": "Real arithmetic. The _ab theorems hold for every class, with AB correction on or off, on the AB corrected photometry, for the bands the correction is made for (five for KcorrectSDSS, seven or more for KcorrectGST)."
  },
  {
   "property": "C72",
   "status": "partial",
   "theorems": [
    "KC.C72_actual",
    "KC.C72_rest_partial",
    "KC.C72_false",
    "KC.C72_ab_partial",
    "KC.C72_batch_partial"
   ],
   "note": "False with a band shift and false for output bands different from the input bands (C72_false). Holds for the default output bands without band shift (C72_rest_partial). C72_actual says what is returned in every case. The _ab theorems hold for every class, with AB correction on or off, on the AB corrected photometry, for the bands the correction is made for (five for KcorrectSDSS, seven or more for KcorrectGST)."
  },
  {
   "property": "C73",
   "status": "partial",
   "theorems": [
    "KC.C73_limit_partial",
    "KC.C73_false",
    "KC.C73_ab_partial",
    "KC.C73_batch_partial"
   ],
   "note": "The limit is right for every band with positive ivar, but it is not -9999 for an object with zero coefficients (C73_false). The _ab theorems hold for every class, with AB correction on or off, on the AB corrected photometry, for the bands the correction is made for (five for KcorrectSDSS, seven or more for KcorrectGST)."
  },
  {
   "property": "C74",
   "status": "proved",
   "theorems": [
    "KC.C74_order"
   ],
   "note": "Every arithmetic, all arguments."
  },
  {
   "property": "C75",
   "status": "partial",
   "theorems": [
    "KC.C75_one_partial",
    "KC.C75_corrected_partial",
    "KC.C75_batch_partial",
    "KC.C75_false_refused",
    "KC.C75_false_repeated",
    "KC.C75_table_partial"
   ],
   "note": "Holds with as many output as input bands. Otherwise the arrays are allocated with the wrong shape: refused, or with a single output band repeated over the input bands."
  },
  {
   "property": "C76",
   "status": "partial",
   "theorems": [
    "KC.C76_masses_partial",
    "KC.C76_linear",
    "KC.C76_distance_no_bands",
    "KC.C79_false",
    "KC.C76_table_partial"
   ],
   "note": "Linear in the coefficients and proportional to the squared luminosity distance the cosmology gives. With an explicit distance it only returns for an object without output bands (proved); with output bands it never returns (C79_false)."
  },
  {
   "property": "C77",
   "status": "proved",
   "theorems": [
    "KC.C77_intensive",
    "KC.C77_no_mass",
    "KC.C77_metallicity_range",
    "KC.C77_table"
   ],
   "note": ""
  },
  {
   "property": "C78",
   "status": "proved",
   "theorems": [
    "KC.C78_formula",
    "KC.C78_independent",
    "KC.C78_table",
    "KC.C77_table"
   ],
   "note": ""
  },
  {
   "property": "C79",
   "status": "partial",
   "theorems": [
    "KC.C79_false",
    "KC.C79_unbound",
    "KC.C76_distance_no_bands"
   ],
   "note": "False of the code: with any output band a call with distance never returns (UnboundLocalError)."
  },
  {
   "property": "C80",
   "status": "partial",
   "theorems": [
    "KC.C80_partial",
    "KC.C80_false"
   ],
   "note": "False of the code unless there are as many output as input bands (IndexError)."
  },
  {
   "property": "C81",
   "status": "partial",
   "theorems": [
    "KC.C81_false",
    "KC.C81_type_error",
    "KC.C80_partial"
   ],
   "note": "False of the code: an output band without solar magnitude makes every call fail (TypeError). With solar magnitudes in all output bands it returns (C80_partial)."
  },
  {
   "property": "C82",
   "status": "proved",
   "theorems": [
    "KC.C82_one",
    "KC.C82_batch",
    "KC.C82_table"
   ],
   "note": ""
  },
  {
   "property": "C83",
   "status": "partial",
   "theorems": [
    "KC.C83_reopened_partial",
    "KC.C85_constructed_partial",
    "KC.constructed_savable",
    "KC.C83_false_names",
    "KC.C83_false_class"
   ],
   "note": "Proved for band names of at most 200 characters and objects without AB correction. False of longer names (they are cut) and of KcorrectSDSS or KcorrectGST objects with abcorrect, which reopen as Kcorrect and no longer correct."
  },
  {
   "property": "C84",
   "status": "partial",
   "theorems": [
    "KC.C84_settings_partial",
    "KC.C84_false"
   ],
   "note": "nredshift and abcorrect come back; the range comes back exactly when both ends are whole numbers. False otherwise: (0.1, 3) is reopened as (0, 3)."
  },
  {
   "property": "C85",
   "status": "partial",
   "theorems": [
    "KC.C85_constructed_partial",
    "KC.C85_false",
    "KC.C85_false_out",
    "KC.C85_false_sed"
   ],
   "note": "Proved when the output bands are among the input bands. False otherwise (derived never returns in a fresh process), and false of objects made from plain SEDs, whose files cannot be opened."
  },
  {
   "property": "C86",
   "status": "proved",
   "theorems": [
    "KC.C86_interrupted_save",
    "KC.C86_complete_at_end"
   ],
   "note": ""
  },
  {
   "property": "C87",
   "status": "partial",
   "theorems": [
    "KC.C87_unchanged_partial",
    "KC.C87_compounds",
    "KC.C87_drift",
    "KC.C87_false"
   ],
   "note": "Proved for every history of calls of every class, except KcorrectGST with abcorrect=True and float32 maggies or ivar (or the same float32 array for both). There it is false: each call corrects the caller's arrays once more (C87_compounds, C87_drift, C87_false)."
  },
  {
   "property": "C88",
   "status": "partial",
   "theorems": [
    "KC.C88_gst_partial",
    "KC.C88_false"
   ],
   "note": "With inverse variances proved for tables of any rank; without them the call raises (C88_false)."
  },
  {
   "property": "C89",
   "status": "proved",
   "theorems": [
    "KC.C89_off",
    "KC.C89_fit_once",
    "KC.C89_absmag_once"
   ],
   "note": ""
  },
  {
   "property": "C90",
   "status": "partial",
   "theorems": [
    "KC.C90_composition",
    "KC.C90_needs_errors_partial",
    "KC.C90_silent_split",
    "KC.C90_false"
   ],
   "note": "The composition is proved for all inputs. Without magnitude errors the call raises unless there are exactly two galaxies; then it returns the fit of the first with the second as inverse variances."
  },
  {
   "property": "C91",
   "status": "proved",
   "theorems": [
    "KC.C91_response_builds"
   ],
   "note": "With the library contracts in the hypotheses."
  },
  {
   "property": "C92",
   "status": "proved",
   "theorems": [
    "KC.C92_response_roundtrip"
   ],
   "note": "Real arithmetic; astropy's write/read is trusted."
  },
  {
   "property": "C93",
   "status": "proved",
   "theorems": [
    "KC.C93_build_succeeds",
    "KC.C93_fitter"
   ],
   "note": "Real arithmetic."
  },
  {
   "property": "C94",
   "status": "partial",
   "theorems": [
    "KC.C94_absmag_batch_partial",
    "KC.C94_ab_partial",
    "KC.C94_false"
   ],
   "note": "Real arithmetic. C94_absmag_batch_partial: classes without AB correction, with or without distances; C94_ab_partial: every class with the bands its correction is made for. False of KcorrectSDSS(abcorrect=True) with more than five bands: an object refused alone is accepted in an array, with -9999 in the extra bands (C94_false)."
  },
  {
   "property": "C95",
   "status": "proved",
   "theorems": [
    "KC.C95_batch"
   ],
   "note": ""
  },
  {
   "property": "C96",
   "status": "partial",
   "theorems": [
    "KC.C96_false"
   ],
   "note": "False of the code: every save passes through a state that cannot be opened."
  },
  {
   "property": "C97",
   "status": "partial",
   "theorems": [
    "KC.C97_samples",
    "KC.C97_partial",
    "KC.C97_false"
   ],
   "note": "False with abcorrect: the samples are of corrected maggies and absmag_mc corrects them again (C97_samples, C97_false). Proved without correction."
  },
  {
   "property": "C98",
   "status": "proved",
   "theorems": [
    "KC.C98_templates_moved",
    "KC.C98_calls_moved"
   ],
   "note": ""
  },
  {
   "property": "C99",
   "status": "partial",
   "theorems": [
    "KC.C99_separate_partial",
    "KC.C99_finishes",
    "KC.C99_false"
   ],
   "note": "Proved for threads with their own template objects, any number and any interleaving. False for two threads sharing a template object: a matrix can be built from templates at the other thread's redshift, without any exception."
  },
  {
   "property": "C100",
   "status": "proved",
   "theorems": [
    "KC.C100_true_absmag",
    "KC.C100_ab",
    "KC.C100_batch",
    "KC.C100_every_length"
   ],
   "note": "The _ab theorems hold for every class, with AB correction on or off, on the AB corrected photometry, for the bands the correction is made for (five for KcorrectSDSS, seven or more for KcorrectGST)."
  },
  {
   "property": "C101",
   "status": "proved",
   "theorems": [
    "KC.C101_mass_light",
    "KC.C101_batch"
   ],
   "note": ""
  },
  {
   "property": "C102",
   "status": "proved",
   "theorems": [
    "KC.C102_unique",
    "KC.C102_solver",
    "KC.C102_ab"
   ],
   "note": "The _ab theorems hold for every class, with AB correction on or off, on the AB corrected photometry, for the bands the correction is made for (five for KcorrectSDSS, seven or more for KcorrectGST)."
  },
  {
   "property": "C103",
   "status": "proved",
   "theorems": [
    "KC.C103_linear",
    "KC.C103_row"
   ],
   "note": "Linearity under the contract that the spline is linear in the ordinates; C103_row needs no contract."
  },
  {
   "property": "C104",
   "status": "proved",
   "theorems": [
    "KC.C104_reconstruct",
    "KC.C104_optimal",
    "KC.C104_rescaled",
    "KC.C104_fit"
   ],
   "note": ""
  },
  {
   "property": "C105",
   "status": "proved",
   "theorems": [
    "KC.C105_order",
    "KC.C105_fit"
   ],
   "note": "C105_fit: for the coefficients that fit_coeffs returns, without an AB correction (its offsets go by the position of the band)."
  },
  {
   "property": "C106",
   "status": "proved",
   "theorems": [
    "KC.C106_interpolation"
   ],
   "note": "Over the reals: with rounding, the path without interpolation casts wavelengths and fluxes to float32 first. One or more responses and a nonempty grid."
  },
  {
   "property": "C107",
   "status": "proved",
   "theorems": [
    "KC.C107_interpolated",
    "KC.C107_on_grid"
   ],
   "note": "Under the contract that the spline is linear in the ordinates."
  },
  {
   "property": "C108",
   "status": "proved",
   "theorems": [
    "KC.C108_definition"
   ],
   "note": "Under the spline contracts (linear in the ordinates, independent of the unit of wavelength); increasing template wavelengths."
  },
  {
   "property": "C109",
   "status": "proved",
   "theorems": [
    "KC.C109_grid_independent"
   ],
   "note": ""
  },
  {
   "property": "C110",
   "status": "proved",
   "theorems": [
    "KC.C110_error_bound"
   ],
   "note": ""
  },
  {
   "property": "C111",
   "status": "proved",
   "theorems": [
    "KC.C111_continuous"
   ],
   "note": ""
  },
  {
   "property": "C112",
   "status": "proved",
   "theorems": [
    "KC.C112_optimal_iff",
    "KC.C112_chi2",
    "KC.C112_templates",
    "KC.C112_fit",
    "KC.C112_converse"
   ],
   "note": "Optimal is the property the coefficients returned by fit_coeffs have under the nnls contract (C49). C112_fit: for the coefficients that fit_coeffs returns under the nnls contract, all classes; the others: for any best fit."
  },
  {
   "property": "C113",
   "status": "proved",
   "theorems": [
    "KC.C113_mixtures",
    "KC.C113_more_templates",
    "KC.C113_fit"
   ],
   "note": "Under the contract that the spline is linear in the ordinates."
  },
  {
   "property": "C114",
   "status": "proved",
   "theorems": [
    "KC.C114_more_bands",
    "KC.C114_zero_weight",
    "KC.C114_fit"
   ],
   "note": ""
  },
  {
   "property": "C115",
   "status": "proved",
   "theorems": [
    "KC.C115_one",
    "KC.C115_batch",
    "KC.C115_ab_batch"
   ],
   "note": "Every class, one object and batches; not for a single band, whose result has another shape (C52). Under the contract that np.random.normal supplies independent standard normal deviates."
  },
  {
   "property": "C116",
   "status": "proved",
   "theorems": [
    "KC.C116_units",
    "KC.C116_ab_correct"
   ],
   "note": ""
  },
  {
   "property": "C117",
   "status": "proved",
   "theorems": [
    "KC.C117_two_floors",
    "KC.C117_monotone"
   ],
   "note": ""
  },
  {
   "property": "C118",
   "status": "proved",
   "theorems": [
    "KC.C118_closed_form"
   ],
   "note": ""
  },
  {
   "property": "C119",
   "status": "proved",
   "theorems": [
    "KC.C119_sample_order"
   ],
   "note": ""
  },
  {
   "property": "C120",
   "status": "proved",
   "theorems": [
    "KC.C120_normalisation"
   ],
   "note": "Under the contract that the spline is linear in the ordinates."
  },
  {
   "property": "C121",
   "status": "proved",
   "theorems": [
    "KC.C121_sed_or_arrays"
   ],
   "note": "Exact arithmetic; with float64 templates project(wave=, flux=) rounds its arguments to float32 first."
  },
  {
   "property": "C122",
   "status": "proved",
   "theorems": [
    "KC.C122_units"
   ],
   "note": ""
  },
  {
   "property": "C123",
   "status": "proved",
   "theorems": [
    "KC.C123_sed",
    "KC.C123_template",
    "KC.C123_complete_at_end"
   ],
   "note": "Interruptions between and inside HDUs while a file is written; the astropy writer is assumed to write HDUs in order."
  },
  {
   "property": "C124",
   "status": "proved",
   "theorems": [
    "KC.C124_sed",
    "KC.C124_template",
    "KC.C124_response",
    "KC.C124_no_clobber",
    "KC.C124_never_appends"
   ],
   "note": "Calls that run to their end; interruptions are the subject of C96 and C123."
  },
  {
   "property": "C125",
   "status": "proved",
   "theorems": [
    "KC.C125_build_fresh",
    "KC.C125_fitter"
   ],
   "note": ""
  },
  {
   "property": "C126",
   "status": "partial",
   "theorems": [
    "KC.C126_defaults_partial",
    "KC.C126_shared",
    "KC.C126_false",
    "KC.C126_named_partial"
   ],
   "note": "False as stated: the default is one list object, shared by all objects and reachable as k.responses; true of sessions that leave it alone. C126_named_partial spells the names of the bands out."
  },
  {
   "property": "C127",
   "status": "partial",
   "theorems": [
    "KC.C127_unaffected_partial",
    "KC.C127_renamed",
    "KC.C127_resized",
    "KC.C127_false",
    "KC.C127_resized_silent",
    "KC.C127_resized_one_band"
   ],
   "note": "False as stated: the object keeps the caller's list itself; true as long as the lists it was made with are not changed. C127_renamed, C127_resized, C127_resized_silent and C127_resized_one_band say what a change does: the photometry of the original bands is refused, that of the new ones gets coefficients that are all zero, or, for an object made for one band, a fit as if all bands were that one."
  },
  {
   "property": "C128",
   "status": "partial",
   "theorems": [
    "KC.C128_range_partial",
    "KC.C128_false_fit",
    "KC.C128_false_reconstruct"
   ],
   "note": "False as stated: for the range [0.01, 0.25] with 4000 redshifts, a fit at 0.25 returns zeros and reconstruct([0.01]) raises; true of ranges whose limits cause no rounding, e.g. the default [0, 2]."
  },
  {
   "property": "C129",
   "status": "proved",
   "theorems": [
    "KC.C129_grid",
    "KC.C129_accuracy",
    "KC.C129_strict",
    "KC.C129_object"
   ],
   "note": ""
  },
  {
   "property": "C130",
   "status": "proved",
   "theorems": [
    "KC.C130_ab_correct_float",
    "KC.C130_ab_correct_rowwise"
   ],
   "note": ""
  },
  {
   "property": "C131",
   "status": "proved",
   "theorems": [
    "KC.C131_floor_float"
   ],
   "note": ""
  },
  {
   "property": "C132",
   "status": "proved",
   "theorems": [
    "KC.C132_matrix_accuracy",
    "KC.C132_constructed"
   ],
   "note": ""
  },
  {
   "property": "C133",
   "status": "proved",
   "theorems": [
    "KC.C133_reconstruct_accuracy",
    "KC.C133_dot_any_order"
   ],
   "note": ""
  },
  {
   "property": "C134",
   "status": "partial",
   "theorems": [
    "KC.C134_saved_partial",
    "KC.C134_false"
   ],
   "note": "False as stated: the file gets the interpolated matrix, and an element 2^-30 after an element 1 is saved as 0. Proved: the first redshift is exact, the others hold within rounding of the change from the previous redshift."
  },
  {
   "property": "C135",
   "status": "partial",
   "theorems": [
    "KC.C135_nonneg_partial",
    "KC.C135_false"
   ],
   "note": "False as stated: elements 7 and 0 at redshifts 0 and 1.625 give -2^-21 at 1.625. Proved: no flux is below minus nsed+22 roundings."
  },
  {
   "property": "C136",
   "status": "proved",
   "theorems": [
    "KC.C136_star_magnitudes",
    "KC.C136_distance_modulus"
   ],
   "note": "One spectrum per stellar file, as in the shipped ones."
  },
  {
   "property": "C137",
   "status": "proved",
   "theorems": [
    "KC.C137_project_accepts"
   ],
   "note": "wave of rank 1."
  },
  {
   "property": "C138",
   "status": "proved",
   "theorems": [
    "KC.C138_kcorrect_accuracy",
    "KC.C138_batch",
    "KC.C138_rest"
   ],
   "note": "Float model of DESIGN section 2: unbounded exponents, correctly rounded log10."
  },
  {
   "property": "C139",
   "status": "proved",
   "theorems": [
    "KC.C139_absmag_accuracy",
    "KC.C139_batch",
    "KC.C139_ab",
    "KC.C139_ab_batch"
   ],
   "note": "Same float model. C139_absmag_accuracy and C139_batch: photometry not AB corrected by the class (NoAb). C139_ab and C139_ab_batch: every class with its AB correction; the three roundings of a corrected flux are in the stated bound."
  },
  {
   "property": "C140",
   "status": "proved",
   "theorems": [
    "KC.C140_asinh",
    "KC.C140_floor"
   ],
   "note": "error_floor for one object or a table (ndim at most 2)."
  },
  {
   "property": "C141",
   "status": "proved",
   "theorems": [
    "KC.C141_returns_iff",
    "KC.C141_refuses",
    "KC.C141_broadcasts"
   ],
   "note": ""
  },
  {
   "property": "C142",
   "status": "proved",
   "theorems": [
    "KC.C142_images",
    "KC.C142_table"
   ],
   "note": ""
  },
  {
   "property": "C143",
   "status": "proved",
   "theorems": [
    "KC.C143_returns_iff",
    "KC.C143_lines",
    "KC.C143_limits",
    "KC.C143_default"
   ],
   "note": "Drawing commands handed to matplotlib; what was drawn before an exception is not modelled."
  },
  {
   "property": "C144",
   "status": "partial",
   "theorems": [
    "KC.C144_finite_partial",
    "KC.C144_overflow",
    "KC.C144_false"
   ],
   "note": "IEEE model of DESIGN section 2. Finite and accurate where the exact result is in the normal range; every float32 inverse variance of 2^129 or more in result units is returned as +inf, C144_false gives realistic values."
  },
  {
   "property": "C145",
   "status": "partial",
   "theorems": [
    "KC.C145_finite_partial",
    "KC.C145_finite_batch_partial",
    "KC.C145_conversion",
    "KC.C145_false",
    "KC.C145_false_single",
    "KC.C145_ab_partial",
    "KC.C145_ab_batch_partial",
    "KC.C145_every_length_partial"
   ],
   "note": "False: the missing magnitude becomes flux +inf with inverse variance 0, inf*0 is NaN, the solver refuses it and the whole call raises. What holds: a band of zero inverse variance and finite flux has no effect. C145_ab_partial and C145_ab_batch_partial: every class with its AB correction, for fluxes up to 2^126 in the band of zero inverse variance."
  },
  {
   "property": "C146",
   "status": "proved",
   "theorems": [
    "KC.C146_single",
    "KC.C146_batch",
    "KC.C146_ab",
    "KC.C146_ab_batch",
    "KC.C146_every_length"
   ],
   "note": "C146_single and C146_batch: no AB correction. Finite projection matrices. The solver contract (refuses non-finite systems with ValueError, solves finite ones) is stated as ChecksFinite. C146_ab and C146_ab_batch: every class with its AB correction; the condition is the same."
  },
  {
   "property": "C147",
   "status": "partial",
   "theorems": [
    "KC.C147_kcorrect_partial",
    "KC.C147_absmag_partial",
    "KC.C147_false",
    "KC.C147_false_nan",
    "KC.C147_absmag_ab_partial"
   ],
   "note": "False where the model flux of a band is zero: kcorrect is +inf, -inf or NaN and absmag follows it, with positive photometry. Proved: the exact value in each case, and that the K-correction is finite iff the coefficients sum to at most 0 or both model fluxes are positive. A NaN coefficient silently gives 0. C147_absmag_ab_partial: the absolute magnitudes in every class."
  },
  {
   "property": "C148",
   "status": "partial",
   "theorems": [
    "KC.C148_edits_partial",
    "KC.C148_frame_partial",
    "KC.C148_false"
   ],
   "note": "True after the first set_redshift (C148_edits_partial). False before it: wave and flux are the rest-frame arrays themselves, which are the caller's arrays (C148_false, for every grid and spectra)."
  },
  {
   "property": "C149",
   "status": "proved",
   "theorems": [
    "KC.C149_snapshot",
    "KC.C149_set_interp"
   ],
   "note": "interp1d copies its arguments (contract)."
  },
  {
   "property": "C150",
   "status": "partial",
   "theorems": [
    "KC.C150_single_partial",
    "KC.C150_batch_partial",
    "KC.C150_false"
   ],
   "note": "True exactly when every redshift is inside the redshift range (C150_single_partial, C150_batch_partial: result inside, ValueError outside). False outside: fit_coeffs returns zeros, and the other methods raise, for the whole batch (C150_false)."
  },
  {
   "property": "C151",
   "status": "partial",
   "theorems": [
    "KC.C151_derived_partial",
    "KC.C151_derived_batch_partial",
    "KC.C151_false_derived",
    "KC.C151_false_absmag"
   ],
   "note": "True when the distance modulus is finite. False at redshift 0, where astropy's distmod is -inf (contract): the ratios are 0 and the absolute magnitudes +inf."
  },
  {
   "property": "C152",
   "status": "proved",
   "theorems": [
    "KC.C152_sed",
    "KC.C152_template",
    "KC.C152_response",
    "KC.C152_kcorrect",
    "KC.C152_generations"
   ],
   "note": "For SED and Template in any arithmetic where rounding to float32 is idempotent (true of the reals and of floating point). A half-written or memory-mapped file is outside the FITS contract."
  },
  {
   "property": "C153",
   "status": "proved",
   "theorems": [
    "KC.C153_nonexpansive",
    "KC.C153_fit",
    "KC.C153_mc"
   ],
   "note": "Over the reals, for solvers that return an optimum (contract NNLSOK)."
  },
  {
   "property": "C154",
   "status": "proved",
   "theorems": [
    "KC.C154_residual",
    "KC.C154_colour",
    "KC.C154_table"
   ],
   "note": "For one galaxy; C70_batch_partial carries it to batches. Real arithmetic, every class with its AB correction; one galaxy and tables."
  },
  {
   "property": "C155",
   "status": "proved",
   "theorems": [
    "KC.C155_ordered",
    "KC.C155_batch"
   ],
   "note": "The order of the templates' masses is a hypothesis (SfHistory) about the template file."
  },
  {
   "property": "C156",
   "status": "proved",
   "theorems": [
    "KC.C156_continuous"
   ],
   "note": "Over the reals, splines linear in the values (SplineLinear, a contract of scipy interp1d)."
  },
  {
   "property": "C157",
   "status": "proved",
   "theorems": [
    "KC.C157_ordered",
    "KC.C157_batch"
   ],
   "note": "Floating point with unbounded exponents (Fl); masses of the template file in one dtype."
  },
  {
   "property": "C158",
   "status": "proved",
   "theorems": [
    "KC.C158_masses",
    "KC.C158_mtol",
    "KC.C158_batch"
   ],
   "note": "Floating point with unbounded exponents (Fl); the cosmology's distance modulus is a numpy float."
  },
  {
   "property": "C159",
   "status": "proved",
   "theorems": [
    "KC.C159_spline",
    "KC.C159_unique",
    "KC.C159_cubic",
    "KC.C159_contracts",
    "KC.C159_smooth"
   ],
   "note": "nakSpline solves the spline equations by elimination over any Arith; the theorems are over the reals. scipy solves the same equations in a B-spline basis; that it does is read from its documentation (bc_type not-a-knot), not modelled."
  },
  {
   "property": "C160",
   "status": "partial",
   "theorems": [
    "KC.C160_false",
    "KC.C160_partial"
   ],
   "note": "False with a witness; true for common sampling inside the band."
  },
  {
   "property": "C161",
   "status": "proved",
   "theorems": [
    "KC.C161_exists",
    "KC.C161_solver",
    "KC.C161_fit",
    "KC.C161_ab",
    "KC.C161_batch",
    "KC.C161_every_length"
   ],
   "note": "Real arithmetic. C161_ab and C161_batch: every class with its AB correction, and tables."
  },
  {
   "property": "C162",
   "status": "partial",
   "theorems": [
    "KC.C162_false",
    "KC.C162_partial"
   ],
   "note": "For the modelled spline; brentq by its contract."
  },
  {
   "property": "C163",
   "status": "proved",
   "theorems": [
    "KC.C163_integral",
    "KC.C163_bounded",
    "KC.C163_maggies"
   ],
   "note": "Real arithmetic, scipy's cubic spline as modelled in Model/Spline.lean. Real arithmetic, scipy's cubic spline as modelled in Model/Spline.lean. C163_maggies: the maggies themselves, for every spectrum of a table."
  },
  {
   "property": "C164",
   "status": "partial",
   "theorems": [
    "KC.C164_false",
    "KC.C164_inside_iff",
    "KC.C164_above"
   ],
   "note": "Real arithmetic; the samples of data/responses/epsi_I.dat are in the statement as integers."
  },
  {
   "property": "C165",
   "status": "partial",
   "theorems": [
    "KC.C165_first_partial",
    "KC.C165_nan",
    "KC.C165_false"
   ],
   "note": "The first call raises (generic arithmetic). For every dictionary whose entry has no effective wavelength the result is NaN in that column (extended reals)."
  },
  {
   "property": "C166",
   "status": "proved",
   "theorems": [
    "KC.C166_set_interp"
   ],
   "note": "Every arithmetic, induction over the calls."
  },
  {
   "property": "C167",
   "status": "partial",
   "theorems": [
    "KC.C167_repeat_partial",
    "KC.C167_samples",
    "KC.C167_drift",
    "KC.C167_false"
   ],
   "note": "Proved for every class, dtype and number of calls except KcorrectGST with abcorrect=True and float32 samples or inverse variances. There it is false, and the samples that fit_coeffs returns are float32: each call corrects the caller's samples once more (C167_samples, one galaxy), and each call returns magnitudes one AB offset further off (C167_drift, C167_false)."
  },
  {
   "property": "C168",
   "status": "proved",
   "theorems": [
    "KC.C168_same",
    "KC.C168_same_batch",
    "KC.C168_attained",
    "KC.C168_differs",
    "KC.C168_few",
    "KC.C168_kcorrect",
    "KC.C168_every_length"
   ],
   "note": "Every best fit is the answer of some correct solver (C168_attained). C168_kcorrect is an existence statement: two correct solvers, one object, different K-corrections. Batches for C168_same only."
  },
  {
   "property": "C169",
   "status": "partial",
   "theorems": [
    "KC.C169_alone_partial",
    "KC.C169_unchanged",
    "KC.C169_false"
   ],
   "note": "Proved for every schedule unless a thread is given a float32 array of photometry that another thread passes to a KcorrectGST object with abcorrect=True; there it is false (C169_false). One access to an array is one step."
  },
  {
   "property": "C170",
   "status": "proved",
   "theorems": [
    "KC.C170_optimal",
    "KC.C170_brighter"
   ],
   "note": "Real arithmetic; from the non-expansiveness of C153."
  },
  {
   "property": "C171",
   "status": "proved",
   "theorems": [
    "KC.C171_optimal",
    "KC.C171_closer"
   ],
   "note": "Real arithmetic; the two optimality conditions added."
  },
  {
   "property": "C172",
   "status": "proved",
   "theorems": [
    "KC.C172_kcorrect",
    "KC.C172_absmag",
    "KC.C172_batch",
    "KC.C172_mass_to_light",
    "KC.C172_kcorrect_table",
    "KC.C172_mass_to_light_table"
   ],
   "note": "Real arithmetic; every class with its AB correction."
  },
  {
   "property": "C173",
   "status": "proved",
   "theorems": [
    "KC.C173_masses",
    "KC.C173_solar"
   ],
   "note": "Every arithmetic."
  },
  {
   "property": "C174",
   "status": "partial",
   "theorems": [
    "KC.C174_fresh_partial",
    "KC.C174_false"
   ],
   "note": "False: the files checked are those of the default directory, whatever directory is listed. Proved exactly for that reading, so the property holds for the default directory."
  },
  {
   "property": "C175",
   "status": "proved",
   "theorems": [
    "KC.C175_kcorrect",
    "KC.C175_batch",
    "KC.C175_derived",
    "KC.C175_mass_to_light",
    "KC.C175_derived_table",
    "KC.C175_mass_to_light_table"
   ],
   "note": "Real arithmetic; one galaxy and tables."
  },
  {
   "property": "C176",
   "status": "partial",
   "theorems": [
    "KC.C176_masses_partial",
    "KC.C176_unchanged_partial",
    "KC.C176_threads_partial",
    "KC.C176_false",
    "KC.C176_threads_false"
   ],
   "note": "Only derived uses the response dictionary (solar magnitudes of the output bands). False for it: after a failed reload of an output band it raises, and while another thread reloads one it raises. Proved when reloads of output bands succeed with the same solar magnitude, and for threads that do not reload output bands, with the lookups of derived at any moments. The other methods have no access to the dictionary in the model, which is read off the code."
  },
  {
   "property": "C177",
   "status": "proved",
   "theorems": [
    "KC.C177_maggies",
    "KC.C177_ivar"
   ],
   "note": "Floating point with unbounded exponents; numpy functions log, sinh, cosh and powers of 10 correctly rounded (trusted base). That every magnitude is the asinh magnitude of one flux is asinhMag_flux."
  },
  {
   "property": "C178",
   "status": "proved",
   "theorems": [
    "KC.C178_same_band",
    "KC.C178_repeated",
    "KC.C178_fit"
   ],
   "note": "C178_same_band: the band anywhere twice in one fitter; C178_repeated: against the fitter without the repetition."
  },
  {
   "property": "C179",
   "status": "proved",
   "theorems": [
    "KC.C179_brighter",
    "KC.C179_between"
   ],
   "note": "Compared at the sample wavelengths of spectrum and band, with the spline values in between samples (KnotExact). EndsCovered excludes the bands for which C18 fails."
  },
  {
   "property": "C180",
   "status": "proved",
   "theorems": [
    "KC.C180_reconstruct",
    "KC.C180_kcorrect",
    "KC.C180_derived",
    "KC.C180_error_floor",
    "KC.C180_ab"
   ],
   "note": "Floating point with unbounded exponents. reconstruct, kcorrect, derived and sdss_ab_correct: equations for every input, errors included."
  },
  {
   "property": "C181",
   "status": "proved",
   "theorems": [
    "KC.C181_response",
    "KC.C181_ratio",
    "KC.C181_lambda_eff",
    "KC.C181_object"
   ],
   "note": "The ten files are copied row by row into Model/BandFiles.lean by a script; what is checked of the finite tables is evaluated by the kernel, the rest quantifies over all spectra, templates and objects. With the modelled cubic spline (C159) and the contract of brentq."
  },
  {
   "property": "C182",
   "status": "partial",
   "theorems": [
    "KC.C182_false",
    "KC.C182_partial"
   ],
   "note": "False of the shipped data: sdss_r0.dat has pass = -0.0013 at 5380 A, and a spectrum with flux there alone gets negative r maggies. C182_partial: the nine other bands, for spectra sampled inside the band at the wavelengths of the file (for other samplings see C160_false)."
  },
  {
   "property": "C183",
   "status": "proved",
   "theorems": [
    "KC.C183_default",
    "KC.C183_lrg1",
    "KC.C183_rounded",
    "KC.C183_table"
   ],
   "note": "The histories in the files are copied value by value into Model/TemplateFiles.lean by a script. C183_default, C183_lrg1: exact arithmetic; C183_rounded: floating point with unbounded exponents."
  },
  {
   "property": "C184",
   "status": "proved",
   "theorems": [
    "KC.C184_tolerance",
    "KC.C184_contract",
    "KC.C184_limit",
    "KC.C184_retry",
    "KC.C184_first",
    "KC.C184_fit",
    "KC.C184_batch",
    "KC.C184_mc",
    "KC.C184_every_length",
    "KC.C184_mc_best"
   ],
   "note": "Real arithmetic. The algorithm is a dependency, written down from SciPy 1.12 in Model/Nnls.lean; rounding inside it is not modelled."
  },
  {
   "property": "C185",
   "status": "proved",
   "theorems": [
    "KC.C185_read",
    "KC.C185_star",
    "KC.C185_response",
    "KC.C185_magnitudes",
    "KC.C185_derived"
   ],
   "note": "Real arithmetic with the modelled cubic spline. The rows of lcbsun.ori, lcbvega.ori and the ten response files are copied into the model; the kernel checks interval bounds of every spline value and of both photon integrals."
  },
  {
   "property": "C186",
   "status": "partial",
   "theorems": [
    "KC.C186_false",
    "KC.C186_false_derived",
    "KC.C186_partial"
   ],
   "note": "False of the shipped data: iras_60.dat lies well inside the models' range, both stars have positive flux at every tabulated wavelength there and the response is nonnegative, but the cubic spline through the sparse points swings negative, so both magnitudes are None and derived never returns with that band. Holds for the ten default bands."
  },
  {
   "property": "C187",
   "status": "proved",
   "theorems": [
    "KC.C187_template",
    "KC.C187_object",
    "KC.C187_table"
   ],
   "note": "Real arithmetic, modelled cubic spline, nnls the modelled Lawson-Hanson algorithm. The 10000 wavelengths and the histories of the template files are copied into the model; the spectra are arbitrary. Real arithmetic, modelled cubic spline, nnls the modelled Lawson-Hanson algorithm; more than one band (C57), and the bands that the AB correction of the class needs. C187_table: tables of every length. The 10000 wavelengths and the histories of the template files are copied into the model; the spectra are arbitrary."
  },
  {
   "property": "C188",
   "status": "partial",
   "theorems": [
    "KC.C188_false",
    "KC.C188_partial"
   ],
   "note": "False of the shipped data: the templates begin at 600 A, so galex_FUV is cut from redshift 1.23 on and galex_NUV from 1.81 on. At redshift 2 the galex_FUV maggies are those of the last 10 A of the band, at most 0.01 of the brightest AB flux, without a warning. Proved where it holds: all bands to 1.2, all but FUV to 1.8, SDSS and 2MASS to 2."
  },
  {
   "property": "C189",
   "status": "proved",
   "theorems": [
    "KC.C189_interp",
    "KC.C189_project",
    "KC.C189_default"
   ],
   "note": "Real arithmetic, modelled cubic spline (C159)."
  },
  {
   "property": "C190",
   "status": "proved",
   "theorems": [
    "KC.C190_table",
    "KC.C190_lambda_eff",
    "KC.C190_fwhm",
    "KC.C190_width"
   ],
   "note": "Real arithmetic. The kernel bounds the logarithmic moments of each file with integer bounds of the logarithm (fifteen terms and the remainder)."
  },
  {
   "property": "C191",
   "status": "partial",
   "theorems": [
    "KC.C191_default_partial",
    "KC.C191_false"
   ],
   "note": "False of the code: tofits ignores ext, so reading from the extension named in tofits raises KeyError. Whatever extension was named, the response is read back from extension 1 (the default of fromfits)."
  },
  {
   "property": "C192",
   "status": "proved",
   "theorems": [
    "KC.C192_one",
    "KC.C192_table"
   ],
   "note": "Real arithmetic, every class with its AB correction; the luminosity distance is the one the cosmology gives. C192_table covers every number of galaxies but, as C95, needs as many output as input bands (C80)."
  },
  {
   "property": "C193",
   "status": "proved",
   "theorems": [
    "KC.C193_detected",
    "KC.C193_complete"
   ],
   "note": "Interruptions between and inside HDUs while the file is written; the astropy writer is assumed to write HDUs in order."
  },
  {
   "property": "C194",
   "status": "proved",
   "theorems": [
    "KC.C194_response_dat",
    "KC.C194_response_fits",
    "KC.C194_sed",
    "KC.C194_later",
    "KC.C194_shifted"
   ],
   "note": "Generic in the arithmetic. SED objects from a constructor and any sequence of fromfits, set_redshift and set_interp, raising or not. C194_later, C194_shifted: calls of set_redshift after the read do what they do with a newly made object."
  },
  {
   "property": "C195",
   "status": "partial",
   "theorems": [
    "KC.C195_spectra_partial",
    "KC.C195_false",
    "KC.C195_false_masses"
   ],
   "note": "Template inherits SED.fromfits: the spectra are the file's, the histories stay those of the first file (false for all pairs of files whose histories differ)."
  },
  {
   "property": "C196",
   "status": "partial",
   "theorems": [
    "KC.C196_same_partial",
    "KC.C196_constructed_partial",
    "KC.C196_false"
   ],
   "note": "Proved for objects with the same class, mapping and cosmology. False otherwise: imap is computed by the constructor only."
  },
  {
   "property": "C197",
   "status": "partial",
   "theorems": [
    "KC.C197_kcorrect_partial",
    "KC.C197_response_partial",
    "KC.C197_sed_partial",
    "KC.C197_false_kcorrect",
    "KC.C197_false_response",
    "KC.C197_false_sed"
   ],
   "note": "The attributes that do keep their values are proved; the rest is false, for all files of the kind described."
  },
  {
   "property": "C198",
   "status": "proved",
   "theorems": [
    "KC.C198_fluxes",
    "KC.C198_derived",
    "KC.C198_mass_to_light",
    "KC.C198_kcorrect"
   ],
   "note": "Real arithmetic. Means need a nonzero total of the weights (each part positive)."
  },
  {
   "property": "C199",
   "status": "proved",
   "theorems": [
    "KC.C199_no_jump_up",
    "KC.C199_continuous",
    "KC.C199_fitted_fluxes"
   ],
   "note": "Real arithmetic, all classes. Any solver that meets the contract of DESIGN section 1 (met by the Lawson-Hanson model, C184)."
  },
  {
   "property": "C200",
   "status": "proved",
   "theorems": [
    "KC.C200_coefficients",
    "KC.C200_kcorrect",
    "KC.C200_derived",
    "KC.C200_absmag"
   ],
   "note": "Real arithmetic, all classes. Any two solvers that meet the contract of DESIGN section 1. Without bands that tell the templates apart the coefficients depend on the solver (C168)."
  },
  {
   "property": "C201",
   "status": "proved",
   "theorems": [
    "KC.C201_templates_used",
    "KC.C201_batch",
    "KC.C201_exists"
   ],
   "note": "Real arithmetic, every class, any number of templates. The solver is the model of the Lawson-Hanson algorithm that scipy's nnls runs (C184), for every tolerance and iteration limit; the contract alone does not give sparsity. C201_exists needs no solver."
  },
  {
   "property": "C202",
   "status": "proved",
   "theorems": [
    "KC.C202_piecewise",
    "KC.C202_local",
    "KC.C202_hessian",
    "KC.C202_pinned"
   ],
   "note": "Real arithmetic, all classes. docs/examples.rst says when the Hessian gives the errors of the coefficients and when it does not. C202_pinned needs a solver that returns."
  },
  {
   "property": "C203",
   "status": "proved",
   "theorems": [
    "KC.C203_grid",
    "KC.C203_best"
   ],
   "note": "Real arithmetic, all classes. The spacing depends on the photometry; nothing is said of its size."
  },
  {
   "property": "C204",
   "status": "proved",
   "theorems": [
    "KC.C204_errors"
   ],
   "note": "Real arithmetic, all classes, one object. The generator's deviates are taken as independent and standard normal (C115). Draws that use other templates are not covered by the law."
  },
  {
   "property": "C205",
   "status": "proved",
   "theorems": [
    "KC.C205_draws",
    "KC.C205_probability"
   ],
   "note": "Real arithmetic, all classes, one object. The generator's deviates are taken as independent and standard normal (C115)."
  },
  {
   "property": "C206",
   "status": "proved",
   "theorems": [
    "KC.C206_coefficients",
    "KC.C206_kcorrect"
   ],
   "note": "Real arithmetic, all classes, one object, no Monte Carlo. The errors of different bands need not be independent. Bands with inverse variance zero may hold anything."
  },
  {
   "property": "C207",
   "status": "proved",
   "theorems": [
    "KC.C207_bound",
    "KC.C207_probability",
    "KC.C207_band"
   ],
   "note": "Real arithmetic, all classes, one object. The errors of different bands need not be independent. Bands with inverse variance zero may hold anything."
  },
  {
   "property": "C208",
   "status": "proved",
   "theorems": [
    "KC.C208_close",
    "KC.C208_probability"
   ],
   "note": "Real arithmetic, all classes, one object; redshifts as in C203, by comparing chi-squared of fits at trial redshifts. The errors of different bands need not be independent. Bands with inverse variance zero may hold anything."
  },
  {
   "property": "C209",
   "status": "proved",
   "theorems": [
    "KC.C209_fit",
    "KC.C209_iff",
    "KC.C209_used"
   ],
   "note": "Real arithmetic, all classes, one object. The products in C209_iff are formed with the fluxes and inverse variances after the correction to AB."
  },
  {
   "property": "C210",
   "status": "proved",
   "theorems": [
    "KC.C210_mtol",
    "KC.C210_gst",
    "KC.C210_missing"
   ],
   "note": "Numbers with NaN and infinities (XR), any number of rows."
  },
  {
   "property": "C211",
   "status": "proved",
   "theorems": [
    "KC.C211_mtol",
    "KC.C211_gst"
   ],
   "note": "Real arithmetic. Measured lists the measurement of each band with its zero point; fractional errors are those of Spec.fracErr."
  },
  {
   "property": "C212",
   "status": "partial",
   "theorems": [
    "KC.C212_partial",
    "KC.C212_each",
    "KC.C212_false"
   ],
   "note": "False of the scripts: the mass-to-light ratio is divided by 10**(0.4 vega2ab) although the ratio in solar units does not depend on the magnitude system, and galaxies whose magnitudes are the -9999 placeholder are drawn (C212_false). Proved: the exact point of each galaxy and which galaxies are drawn (C212_partial), one by one (C212_each)."
  },
  {
   "property": "C213",
   "status": "proved",
   "theorems": [
    "KC.C213_mag",
    "KC.C213_color",
    "KC.C213_sdss",
    "KC.C213_sdss_color"
   ],
   "note": "Real arithmetic, galaxy by galaxy, for lists of any length."
  },
  {
   "property": "C214",
   "status": "partial",
   "theorems": [
    "KC.C214_partial",
    "KC.C214_false",
    "KC.C214_returns"
   ],
   "note": "False of the scripts: the templates have been returned to redshift 0 by set_Amatrix, so the curve is the rest-frame spectrum, displaced by log10(1+z) in both coordinates from the spectrum at the redshift of the photometry (C214_false). Proved: what the curve is (C214_partial) and that the plot is made (C214_returns)."
  },
  {
   "property": "C215",
   "status": "proved",
   "theorems": [
    "KC.C215_tracks",
    "KC.C215_returns"
   ],
   "note": "Real arithmetic. The 1000 redshifts of the script are nz."
  },
  {
   "property": "C216",
   "status": "proved",
   "theorems": [
    "KC.C216_errors",
    "KC.C216_distance",
    "KC.C216_none"
   ],
   "note": "Real arithmetic, every class, as many output bands as input bands (see C75), and no sample with flux at exactly the magnitude -9999. C216_none with NaN arithmetic."
  },
  {
   "property": "C217",
   "status": "proved",
   "theorems": [
    "KC.C217_matched",
    "KC.C217_mix"
   ],
   "note": "Real arithmetic, every class, as many output bands as input bands (see C75), and no sample with flux at exactly the magnitude -9999."
  },
  {
   "property": "C218",
   "status": "proved",
   "theorems": [
    "KC.C218_limit",
    "KC.C218_photometry"
   ],
   "note": "Real arithmetic, every class, as many output bands as input bands (see C75). C218_limit assumes that no sample has exactly the magnitude -9999; C218_photometry proves that this has probability zero."
  },
  {
   "property": "C219",
   "status": "proved",
   "theorems": [
    "KC.C219_fit"
   ],
   "note": "Real arithmetic, every class, tables of other than one galaxy and one band (see C52), as many output bands as input bands (see C75); the deviates of numpy.random are taken as independent standard normal, as in C115."
  },
  {
   "property": "C220",
   "status": "proved",
   "theorems": [
    "KC.C220_fit"
   ],
   "note": "Real arithmetic, every class, tables of other than one galaxy and one band (see C52), as many output bands as input bands (see C75); solvers that return the nonnegative least squares optimum (NNLSOK); the deviates of numpy.random are taken as independent standard normal, as in C115. That no sample has exactly the magnitude -9999 is proved to have probability one."
  },
  {
   "property": "C221",
   "status": "proved",
   "theorems": [
    "KC.C221_coeffs",
    "KC.C221_derived",
    "KC.C221_absmag",
    "KC.C82_table",
    "KC.C221_one",
    "KC.C221_derived_one",
    "KC.C221_absmag_one"
   ],
   "note": "Real arithmetic, every class, tables of other than one galaxy and one band (see C52), and single galaxies (C221_one, C221_derived_one, C221_absmag_one); solvers that return the nonnegative least squares optimum (NNLSOK); the deviates of numpy.random are taken as independent standard normal, as in C115. Coefficients: every measurable set of coefficient vectors. Derived quantities: every key, band and threshold. Absolute magnitudes: every measurable set, -9999 for samples without positive flux."
  },
  {
   "property": "C222",
   "status": "proved",
   "theorems": [
    "KC.C222_coeffs",
    "KC.C222_mass",
    "KC.C222_one",
    "KC.C222_mass_one"
   ],
   "note": "Real arithmetic, every class, tables of other than one galaxy and one band (see C52), and single galaxies (C222_one, C222_mass_one); solvers that return the nonnegative least squares optimum (NNLSOK); the deviates of numpy.random are taken as independent standard normal, as in C115. The mean square of the coefficient is proved finite (the optimum grows in proportion to the fluxes)."
  },
  {
   "property": "C223",
   "status": "proved",
   "theorems": [
    "KC.C223_coeffs",
    "KC.C223_one",
    "KC.C223_mass",
    "KC.C223_mass_one"
   ],
   "note": "Real arithmetic, every class; tables of other than one galaxy and one band (see C52) and single galaxies; where the bands with positive inverse variance tell the templates apart; solvers that return the nonnegative least squares optimum (NNLSOK); the deviates of numpy.random are taken as independent standard normal, as in C115."
  },
  {
   "property": "C224",
   "status": "proved",
   "theorems": [
    "KC.C224_coeffs",
    "KC.C224_one",
    "KC.C224_derived",
    "KC.C224_derived_one",
    "KC.C224_absmag",
    "KC.C224_absmag_one",
    "KC.C224_enough"
   ],
   "note": "Real arithmetic, every class; tables of other than one galaxy and one band (see C52) and single galaxies; where the bands with positive inverse variance tell the templates apart; for absolute magnitudes, templates with positive flux in the two bands of the K-correction and a band with positive inverse variance; solvers that return the nonnegative least squares optimum (NNLSOK); the deviates of numpy.random are taken as independent standard normal, as in C115."
  },
  {
   "property": "C225",
   "status": "proved",
   "theorems": [
    "KC.C225_coeffs",
    "KC.C225_one",
    "KC.C225_derived",
    "KC.C225_derived_one",
    "KC.C225_absmag",
    "KC.C225_absmag_one"
   ],
   "note": "Real arithmetic, every class; tables of other than one galaxy and one band (see C52) and single galaxies; where the bands with positive inverse variance tell the templates apart; for absolute magnitudes, templates with positive flux in the two bands of the K-correction and a band with positive inverse variance; solvers that return the nonnegative least squares optimum (NNLSOK); the deviates of numpy.random are taken as independent standard normal, as in C115. numpy.percentile is stated in the specification (Percentile), it is not part of kcorrect."
  }
 ]
}