{
 "claims": [
  {
   "property": "C01",
   "status": "proved",
   "theorems": [
    "Emva.C01_pvar_sample_variance"
   ],
   "note": "For the int64 computation inside the envelope of C04."
  },
  {
   "property": "C02",
   "status": "proved",
   "theorems": [
    "Emva.C02_pvar_nonneg"
   ],
   "note": ""
  },
  {
   "property": "C03",
   "status": "proved",
   "theorems": [
    "Emva.C03_order_independent",
    "Emva.C03_dmean_telescopes"
   ],
   "note": ""
  },
  {
   "property": "C04",
   "status": "proved",
   "theorems": [
    "Emva.C04_int64_exact",
    "Emva.C04_totals_exact",
    "Emva.C04_overflow_witness"
   ],
   "note": "Per pixel and for the totals; overflow witness outside the envelope."
  },
  {
   "property": "C05",
   "status": "proved",
   "theorems": [
    "Emva.C05_temporal_point",
    "Emva.C05_given_pixels",
    "Emva.C05_temporal_variance_nonneg"
   ],
   "note": "Floats exact; integer part with int64 wrap-around. With a given number of pixels different from height*width the variance is not drift invariant (C06_given_pixels_counterexample)."
  },
  {
   "property": "C06",
   "status": "proved",
   "theorems": [
    "Emva.C06_given_pixels_counterexample",
    "Emva.C06_drift_invariant",
    "Emva.C06_swap_invariant"
   ],
   "note": ""
  },
  {
   "property": "C07",
   "status": "proved",
   "theorems": [
    "Emva.C07_sound",
    "Emva.C07_complete",
    "Emva.C07_unambiguous"
   ],
   "note": "For every text and every behaviour of float()/int(); NaN keys excluded."
  },
  {
   "property": "C08",
   "status": "proved",
   "theorems": [
    "Emva.C08_no_overwrite",
    "Emva.C08_duplicate_rejected"
   ],
   "note": ""
  },
  {
   "property": "C09",
   "status": "proved",
   "theorems": [
    "Emva.C09_kind_by_count",
    "Emva.C09_short_series_rejected"
   ],
   "note": ""
  },
  {
   "property": "C10",
   "status": "proved",
   "theorems": [
    "Emva.C10_content_only",
    "Emva.C10_whitespace_irrelevant",
    "Emva.C10_ignorable_line",
    "Emva.C10_ignorable_line_ends",
    "Emva.C10_crlf"
   ],
   "note": ""
  },
  {
   "property": "C11",
   "status": "proved",
   "theorems": [
    "Emva.C11_decimal_comma"
   ],
   "note": ""
  },
  {
   "property": "C12",
   "status": "proved",
   "theorems": [
    "Emva.C12_error_classes",
    "Emva.C12_malformed_rejected",
    "Emva.C12_bad_image_line_rejected",
    "Emva.C12_second_format_rejected",
    "Emva.C12_dark_is_zero"
   ],
   "note": "An image line that follows no header is an unknown command and is skipped, as in the code."
  },
  {
   "property": "C13",
   "status": "proved",
   "theorems": [
    "Emva.C13_round_trip",
    "Emva.C13_key_accuracy",
    "Emva.C13_colliding_points_rejected",
    "Emva.C13_L2_loses_spatial",
    "Emva.C13_L_small_rejected"
   ],
   "note": "Numbers non-negative; round trip for L >= 3 and distinct rounded keys; rejection proved when keys collide, loss of the spatial data proved for L = 2, rejection for L < 2."
  },
  {
   "property": "C14",
   "status": "proved",
   "theorems": [
    "Emva.C14_saved_files",
    "Emva.C14_parsed_files"
   ],
   "note": "Output directory empty, without trailing slash or with exactly one."
  },
  {
   "property": "C15",
   "status": "proved",
   "theorems": [
    "Emva.C15_acceptance",
    "Emva.C15_content",
    "Emva.C15_error_classes"
   ],
   "note": ""
  },
  {
   "property": "C16",
   "status": "proved",
   "theorems": [
    "Emva.C16_order_independent"
   ],
   "note": ""
  },
  {
   "property": "C17",
   "status": "proved",
   "theorems": [
    "Emva.C17_acceptance",
    "Emva.C17_sorted_aligned",
    "Emva.C17_bright_unique",
    "Emva.C17_negative_photons_break",
    "Emva.C17_measured_values",
    "Emva.C17_measured_values_over",
    "Emva.C17_pixel_count"
   ],
   "note": ""
  },
  {
   "property": "C18",
   "status": "proved",
   "theorems": [
    "Emva.C18_lengths"
   ],
   "note": ""
  },
  {
   "property": "C19",
   "status": "proved",
   "theorems": [
    "Emva.C19_validation",
    "Emva.C19_constructor"
   ],
   "note": ""
  },
  {
   "property": "C20",
   "status": "proved",
   "theorems": [
    "Emva.C20_statistics",
    "Emva.C20_single_image"
   ],
   "note": ""
  },
  {
   "property": "C21",
   "status": "proved",
   "theorems": [
    "Emva.C21_decomposition",
    "Emva.C21_zero_division",
    "Emva.C21_only_two_by_two"
   ],
   "note": ""
  },
  {
   "property": "C22",
   "status": "proved",
   "theorems": [
    "Emva.C22_last_rise",
    "Emva.C22_single_peak",
    "Emva.C22_in_range",
    "Emva.C22_one_point"
   ],
   "note": ""
  },
  {
   "property": "C23",
   "status": "partial",
   "theorems": [
    "Emva.C23_forced_index_partial",
    "Emva.C23_forced_zero_ignored",
    "Emva.C23_forced_zero_counterexample"
   ],
   "note": "Holds for every forced index except 0: the code tests the truth value of the index, so a forced index 0 is ignored (C23_forced_zero_ignored, C23_forced_zero_counterexample)."
  },
  {
   "property": "C24",
   "status": "proved",
   "theorems": [
    "Emva.C24_reads_have_no_effect"
   ],
   "note": "All modelled attributes; exact reals."
  },
  {
   "property": "C25",
   "status": "proved",
   "theorems": [
    "Emva.C25_sensitivity_max",
    "Emva.C25_range_monotone"
   ],
   "note": ""
  },
  {
   "property": "C26",
   "status": "proved",
   "theorems": [
    "Emva.C26_linearity_max",
    "Emva.C26_linearity_min",
    "Emva.C26_min_before_saturation",
    "Emva.C26_max_before_saturation"
   ],
   "note": ""
  },
  {
   "property": "C27",
   "status": "proved",
   "theorems": [
    "Emva.C27_best_slope",
    "Emva.C27_exact",
    "Emva.C27_linear",
    "Emva.C27_rejected",
    "Emva.C27_fit_error"
   ],
   "note": "leastsq is a parameter assumed to return a minimiser of the sum of squares; an exact instance exists (exactLSQ_good)."
  },
  {
   "property": "C28",
   "status": "proved",
   "theorems": [
    "Emva.C28_best_line",
    "Emva.C28_exact",
    "Emva.C28_affine",
    "Emva.C28_rejected",
    "Emva.C28_fit_error"
   ],
   "note": "As C27."
  },
  {
   "property": "C29",
   "status": "proved",
   "theorems": [
    "Emva.C29_recovery"
   ],
   "note": ""
  },
  {
   "property": "C30",
   "status": "proved",
   "theorems": [
    "Emva.C30_consistency"
   ],
   "note": ""
  },
  {
   "property": "C31",
   "status": "proved",
   "theorems": [
    "Emva.C31_lower_limit",
    "Emva.C31_consequences"
   ],
   "note": ""
  },
  {
   "property": "C32",
   "status": "proved",
   "theorems": [
    "Emva.C32_area"
   ],
   "note": ""
  },
  {
   "property": "C33",
   "status": "proved",
   "theorems": [
    "Emva.C33_few_exposures",
    "Emva.C33_many_exposures",
    "Emva.C33_recovery"
   ],
   "note": ""
  },
  {
   "property": "C34",
   "status": "proved",
   "theorems": [
    "Emva.C34_dsnu_nan_rule",
    "Emva.C34_dsnu_squares",
    "Emva.C34_prnu"
   ],
   "note": ""
  },
  {
   "property": "C35",
   "status": "proved",
   "theorems": [
    "Emva.C35_best_relative_line",
    "Emva.C35_exact",
    "Emva.C35_error_signs"
   ],
   "note": "Closed formulas of linearity(); no leastsq involved."
  },
  {
   "property": "C36",
   "status": "proved",
   "theorems": [
    "Emva.C36_histogram",
    "Emva.C36_rejected",
    "Emva.C36_masked_counterexample",
    "Emva.C36_masked_values"
   ],
   "note": "For unmasked data (any integers); np.histogram ignores masks, so for masked data the counts include masked pixels (C36_masked_counterexample)."
  },
  {
   "property": "C37",
   "status": "proved",
   "theorems": [
    "Emva.C37_dsnu_accumulated",
    "Emva.C37_prnu_accumulated",
    "Emva.C37_dsnu",
    "Emva.C37_prnu",
    "Emva.C37_prnu_small"
   ],
   "note": ""
  },
  {
   "property": "C38",
   "status": "proved",
   "theorems": [
    "Emva.C38_mean_removed",
    "Emva.C38_linear",
    "Emva.C38_plane",
    "Emva.C38_rejected",
    "Emva.C38_one"
   ],
   "note": ""
  },
  {
   "property": "C39",
   "status": "proved",
   "theorems": [
    "Emva.C39_masked",
    "Emva.C39_irregular",
    "Emva.C39_bayer_green",
    "Emva.C39_bayer_single"
   ],
   "note": ""
  },
  {
   "property": "C40",
   "status": "proved",
   "theorems": [
    "Emva.C40_compress"
   ],
   "note": ""
  },
  {
   "property": "C41",
   "status": "proved",
   "theorems": [
    "Emva.C41_spectrum",
    "Emva.C41_constant",
    "Emva.C41_rejected",
    "Emva.C41_masked",
    "Emva.C41_masked_spectrum"
   ],
   "note": "Exact DFT over the complex numbers in place of numpy's fft; the float rounding is not modelled."
  },
  {
   "property": "C42",
   "status": "partial",
   "theorems": [
    "Emva.C42_frequencies_too_small",
    "Emva.C42_nyquist",
    "Emva.C42_frequencies_partial"
   ],
   "note": "The code violates the property: entry i is reported at i/(2n) with n = cols//2+1, which is below i/cols for every i >= 1 (C42_frequencies_too_small, C42_nyquist). Proved part: entry 0 exact, error below one frequency step."
  },
  {
   "property": "C43",
   "status": "proved",
   "theorems": [
    "Emva.C43_rounded",
    "Emva.C43_round_trip",
    "Emva.C43_collision",
    "Emva.C43_empty_array",
    "Emva.C43_rejected"
   ],
   "note": "lxml is an assumption: writing and parsing is the identity on element trees (empty text read as None), and float(str(x)) = x for numbers. Numbers under data come back as one-element arrays; empty arrays cannot be read back (C43_empty_array)."
  },
  {
   "property": "C44",
   "status": "proved",
   "theorems": [
    "Emva.C44_report",
    "Emva.C44_symmetric",
    "Emva.C44_self",
    "Emva.C44_none_fails",
    "Emva.C44_broadcast_counterexample",
    "Emva.C44_new_numpy_counterexample",
    "Emva.C44_unreadable"
   ],
   "note": "Verdicts only (the text layout of the lines is not modelled). Hypothesis: no value element with children beside a data element. None and NaN values fail even against themselves (C44_none_fails); broadcasting: C44_broadcast_counterexample; numpy >= 1.24: C44_new_numpy_counterexample."
  },
  {
   "property": "C45",
   "status": "proved",
   "theorems": [
    "Emva.C45_round_significant",
    "Emva.C45_digits",
    "Emva.C45_rejected",
    "Emva.C45_new_numpy_counterexample"
   ],
   "note": "Exact real arithmetic; np.int exists only in numpy < 1.24 (C45_new_numpy_counterexample for later versions)."
  },
  {
   "property": "C46",
   "status": "proved",
   "theorems": [
    "Emva.C46_sections",
    "Emva.C46_missing"
   ],
   "note": ""
  },
  {
   "property": "C47",
   "status": "proved",
   "theorems": [
    "Emva.C47_lines",
    "Emva.C47_doc",
    "Emva.C47_class",
    "Emva.C47_colons",
    "Emva.C47_no_leading_colon"
   ],
   "note": "str.lower is a parameter; docstrings are arbitrary strings."
  },
  {
   "property": "C48",
   "status": "proved",
   "theorems": [
    "Emva.C48_gain",
    "Emva.C48_blackoffset",
    "Emva.C48_exact",
    "Emva.C48_idempotent",
    "Emva.C48_nonfinite",
    "Emva.C48_rejected",
    "Emva.C48_grid",
    "Emva.C48_new"
   ],
   "note": "Exact arithmetic; the comparison of distances is exact."
  },
  {
   "property": "C49",
   "status": "proved",
   "theorems": [
    "Emva.C49_range",
    "Emva.C49_monotone_electrons",
    "Emva.C49_monotone_gain",
    "Emva.C49_accuracy",
    "Emva.C49_grab",
    "Emva.C49_grab_range"
   ],
   "note": "The four random draws are arbitrary arguments. Bit depths up to 64; exact arithmetic (float64 would round above 53 bits)."
  },
  {
   "property": "C50",
   "status": "proved",
   "theorems": [
    "Emva.C50_formula",
    "Emva.C50_photons_of_radiance",
    "Emva.C50_radiance_of_photons",
    "Emva.C50_errors",
    "Emva.C50_linear",
    "Emva.C50_constants",
    "Emva.C50_camera"
   ],
   "note": "Exact real arithmetic; np.pi is its decimal value. Exposure and area are python numbers."
  },
  {
   "property": "C51",
   "status": "proved",
   "theorems": [
    "Emva.C51_target",
    "Emva.C51_defaults",
    "Emva.C51_below_dark"
   ],
   "note": "C51_target covers the camera exposure and another exposure (the mean is then off by the difference of dark currents)."
  },
  {
   "property": "C52",
   "status": "proved",
   "theorems": [
    "Emva.C52_doubling",
    "Emva.C52_increasing"
   ],
   "note": "Exact real arithmetic."
  },
  {
   "property": "C53",
   "status": "proved",
   "theorems": [
    "Emva.C53_two",
    "Emva.C53_one",
    "Emva.C53_rejected",
    "Emva.C53_array_tile",
    "Emva.C53_array_tile_spectrum",
    "Emva.C53_array_tile_rows",
    "Emva.C53_array_tile_rows_counterexample"
   ],
   "note": "For 2-D arrays array_tile uses the number of wavelengths as width of the pattern (C53_array_tile_rows, C53_array_tile_rows_counterexample)."
  },
  {
   "property": "C54",
   "status": "proved",
   "theorems": [
    "Emva.C54_pixels",
    "Emva.C54_count",
    "Emva.C54_rejected",
    "Emva.C54_saturated"
   ],
   "note": "The drawn positions are an arbitrary argument below height*width. bad_value=None is documented but raises TypeError (C54_rejected)."
  },
  {
   "property": "C55",
   "status": "proved",
   "theorems": [
    "Emva.C55_gain",
    "Emva.C55_blackoffset",
    "Emva.C55_error",
    "Emva.C55_empty",
    "Emva.C55_simulator"
   ],
   "note": "Images of the searches are arbitrary; std > 0.5 is modelled as variance > 0.25. When grab raises, the tried setting stays (C55_error)."
  },
  {
   "property": "C56",
   "status": "proved",
   "theorems": [
    "Emva.C56_exposure",
    "Emva.C56_distinct",
    "Emva.C56_range",
    "Emva.C56_range_counterexample",
    "Emva.C56_merge_counterexample",
    "Emva.C56_photon",
    "Emva.C56_saturation"
   ],
   "note": "Counterexamples to the stricter reading: C56_range_counterexample (an exposure outside of the range), C56_merge_counterexample (fewer exposures than steps)."
  },
  {
   "property": "C57",
   "status": "proved",
   "theorems": [
    "Emva.C57_entries",
    "Emva.C57_id",
    "Emva.C57_name",
    "Emva.C57_ids",
    "Emva.C57_alias"
   ],
   "note": "Aliasing of a dictionary added twice: C57_alias. A failed add changes the dictionary but adds no entry. Making plots, directories and results is abstract (may fail at any point)."
  },
  {
   "property": "C58",
   "status": "partial",
   "theorems": [
    "Emva.C58_only_last",
    "Emva.C58_counterexample",
    "Emva.C58_single_partial",
    "Emva.C58_rejected",
    "Emva.C58_ids"
   ],
   "note": "The code violates the property: only the last test is plotted (C58_only_last, C58_counterexample). Proved for a single test (C58_single_partial)."
  },
  {
   "property": "C59",
   "status": "proved",
   "theorems": [
    "Emva.C59_curves",
    "Emva.C59_order"
   ],
   "note": "Arrays of the temporal data of one length; at u_p_min = u_p_sat np.arange raises. The example file gives a measurement meeting all hypotheses."
  },
  {
   "property": "C60",
   "status": "proved",
   "theorems": [
    "Emva.C60_profiles",
    "Emva.C60_order",
    "Emva.C60_plot",
    "Emva.C60_empty_mid",
    "Emva.C60_last_masked"
   ],
   "note": "For every image with at least one line across the profile: positions, mean/min/max/mid values, order, drawn lines, and the error cases. Two consequences a user may not expect are proved with witnesses: an empty middle profile and an IndexError if the middle line is the last one and masked."
  },
  {
   "property": "C61",
   "status": "partial",
   "theorems": [
    "Emva.C61_number",
    "Emva.C61_missing_partial",
    "Emva.C61_computed_nan",
    "Emva.C61_no_area",
    "Emva.C61_no_dark_current"
   ],
   "note": "The code violates the property: only the np.nan object is recognised, a computed NaN is printed as nan and an undefined name raises (C61_computed_nan). Proved: None and np.nan give the dash, numbers are shown correctly rounded with the requested digits."
  },
  {
   "property": "C62",
   "status": "proved",
   "theorems": [
    "Emva.C62_unequal_series",
    "Emva.C62_offset_invariance",
    "Emva.C62_emva1288"
   ],
   "note": "For all attributes of Results1288, after any reads, with the int64 sums of the code, from the descriptor file on; rejected datasets are rejected with the same exception. Temporal series of unequal length (only by hand-made dictionaries) are a counterexample, C62_unequal_series."
  },
  {
   "property": "C63",
   "status": "proved",
   "theorems": [
    "Emva.C63_evaluable",
    "Emva.C63_generated_dataset",
    "Emva.C63_exposure_variation"
   ],
   "note": "Through the descriptor text actually written by the generator; exact decimal arithmetic for the keys. Also instantiated for the points of an exposure variation. Exact acceptance condition of the evaluation in C63_evaluable."
  },
  {
   "property": "C64",
   "status": "proved",
   "theorems": [
    "Emva.C64_sigma_y_dark_does_not_scale",
    "Emva.C64_gain_equivariance",
    "Emva.C64_int64",
    "Emva.C64_emva1288"
   ],
   "note": "For all attributes whose unit is a power of DN (Spec.exponent), from the descriptor file on, with int64 sums. Attributes with an absolute threshold or bins do not scale: C64_sigma_y_dark_does_not_scale."
  },
  {
   "property": "C65",
   "status": "proved",
   "theorems": [
    "Emva.C65_separators",
    "Emva.C65_redundant_pieces",
    "Emva.C65_absolute"
   ],
   "note": ""
  },
  {
   "property": "C66",
   "status": "proved",
   "theorems": [
    "Emva.C66_responsivity",
    "Emva.C66_gain"
   ],
   "note": ""
  },
  {
   "property": "C67",
   "status": "proved",
   "theorems": [
    "Emva.C67_results",
    "Emva.C67_error",
    "Emva.C67_by_section"
   ],
   "note": ""
  },
  {
   "property": "C68",
   "status": "partial",
   "theorems": [
    "Emva.C68_limits_ignored",
    "Emva.C68_gain_ignored",
    "Emva.C68_camera",
    "Emva.C68_photon_limits_partial"
   ],
   "note": "The code violates the property: the given limits are overwritten (C68_limits_ignored); gain, blackref and the limits have no effect in exposure mode (C68_gain_ignored). Proved part: with one wavelength the radiances go from the one for the target to the one for the full scale."
  },
  {
   "property": "C69",
   "status": "proved",
   "theorems": [
    "Emva.C69_attributes",
    "Emva.C69_references",
    "Emva.C69_plots",
    "Emva.C69_cells"
   ],
   "note": "Docstrings and template references are transcribed by tools/gen_template.py. Missing values of the cells without filter appear as nan."
  },
  {
   "property": "C70",
   "status": "proved",
   "theorems": [
    "Emva.C70_sensitivity",
    "Emva.C70_photon_transfer",
    "Emva.C70_linearity",
    "Emva.C70_deviation",
    "Emva.C70_dark",
    "Emva.C70_dark_data",
    "Emva.C70_dark_unordered"
   ],
   "note": "Arrays of one length. Colours, labels and axis limits not modelled. The points/line decision of the dark plot needs ascending exposure times (C70_dark_unordered), which Data1288 produces (C70_dark_data)."
  },
  {
   "property": "C71",
   "status": "partial",
   "theorems": [
    "Emva.C71_dsnu_partial",
    "Emva.C71_dsnu_measured",
    "Emva.C71_prnu_partial",
    "Emva.C71_prnu_not_percent",
    "Emva.C71_dsnu_unequal"
   ],
   "note": "Dark spectrogram: proved when the dark and the bright series have as many images; otherwise the code divides the dark sum by the number of bright images and the curve is wrong (C71_dsnu_unequal). Bright spectrogram: the claim is false, the curve is not in percent (C71_prnu_not_percent); proved is what it is: mean square = variance / mean."
  },
  {
   "property": "C72",
   "status": "partial",
   "theorems": [
    "Emva.C72_normal_model_partial",
    "Emva.C72_never_expected",
    "Emva.C72_constant",
    "Emva.C72_rejected",
    "Emva.C72_example"
   ],
   "note": "False of the code: the curve is scaled with range / number of bins instead of the bin width. Proved: it is the expected count times one common factor in [1/2, 1), so always too low (C72_never_expected); a constant image gives NaN (C72_constant). Finite arithmetic is exact, exp and pi are real."
  },
  {
   "property": "C73",
   "status": "proved",
   "theorems": [
    "Emva.C73_dsnu",
    "Emva.C73_prnu",
    "Emva.C73_prnu_small",
    "Emva.C73_dsnu_accumulated",
    "Emva.C73_prnu_accumulated"
   ],
   "note": "The model is shown with the factor of C72. A bin with one pixel is drawn exactly on the lower border of the dark plot (limit 1.0)."
  },
  {
   "property": "C74",
   "status": "partial",
   "theorems": [
    "Emva.C74_pixel",
    "Emva.C74_prnu_partial",
    "Emva.C74_dsnu",
    "Emva.C74_prnu_unequal",
    "Emva.C74_profile"
   ],
   "note": "Proved for the dark histogram, and for the bright histogram and profile when both series have as many images. False otherwise (the sums are subtracted before dividing by the number of bright images): exact error of every pixel in C74_pixel and C74_profile, counterexample in C74_prnu_unequal."
  },
  {
   "property": "C75",
   "status": "partial",
   "theorems": [
    "Emva.C75_generated",
    "Emva.C75_given",
    "Emva.C75_rejected",
    "Emva.C75_filter_partial",
    "Emva.C75_filter_rejected",
    "Emva.C75_broadcast",
    "Emva.C75_argument_changed"
   ],
   "note": "All proved except that the array passed in is not changed, which is false: it is multiplied in place (C75_argument_changed), so building twice applies the filter twice. A wrong shape raises TypeError instead of ValueError unless the array has two dimensions (C75_rejected). Exact real arithmetic."
  },
  {
   "property": "C76",
   "status": "partial",
   "theorems": [
    "Emva.C76_bayer_partial",
    "Emva.C76_odd",
    "Emva.C76_rejected",
    "Emva.C76_truncated"
   ],
   "note": "Proved for even numbers of rows and columns; false otherwise: the filter is a row or column too small and Qe rejects it (C76_odd). Exact real arithmetic, no underflow of exp; wavelengths are not negative."
  },
  {
   "property": "C77",
   "status": "proved",
   "theorems": [
    "Emva.C77_iff",
    "Emva.C77_enough",
    "Emva.C77_failures",
    "Emva.C77_data"
   ],
   "note": "Exact finite arithmetic; the least squares solver is abstract (LSQ.Good). NaN or infinite data are outside the hypotheses."
  },
  {
   "property": "C78",
   "status": "proved",
   "theorems": [
    "Emva.C78_export",
    "Emva.C78_exactly",
    "Emva.C78_measurement",
    "Emva.C78_compare",
    "Emva.C78_no_area"
   ],
   "note": "lxml, str() and float() of numbers are abstract (StdEnv): a number is read back as rnd x, the value of its text. The documentation of the attributes is the one of results.py, extracted by tools/gen_template.py."
  },
  {
   "property": "C79",
   "status": "proved",
   "theorems": [
    "Emva.C79_depends",
    "Emva.C79_evaluate",
    "Emva.C79_arguments"
   ],
   "note": "The data each attribute is computed from are listed in Spec/Depend.lean (needs)."
  },
  {
   "property": "C80",
   "status": "proved",
   "theorems": [
    "Emva.C80_units",
    "Emva.C80_evaluate"
   ],
   "note": "For the fits to be determined, the first bright point has a photon count other than zero and a mean that differs from the dark mean. int64 sums within the envelope of C04, or exact sums."
  },
  {
   "property": "C81",
   "status": "proved",
   "theorems": [
    "Emva.C81_temporal",
    "Emva.C81_spatial",
    "Emva.C81_results",
    "Emva.C81_photon_transfer"
   ],
   "note": "Measures and integrals of Mathlib; grey values are measurable and bounded so that the int64 sums are exact. Columns, rows and pixels: the errors are proved, they are not zero."
  },
  {
   "property": "C82",
   "status": "partial",
   "theorems": [
    "Emva.C82_files_partial",
    "Emva.C82_keeps",
    "Emva.C82_succeeds",
    "Emva.C82_reuse_fails",
    "Emva.C82_same_name",
    "Emva.C82_stale_files",
    "Emva.C82_trailing_slash",
    "Emva.C82_upload_file",
    "Emva.C82_missing_entry"
   ],
   "note": "Proved if the output directory has no entry `files` and no file `upload` before, the names do not end in a slash, and files with the same base name are the same file. Without these the code violates the claim: C82_same_name (the second file overwrites the first), C82_stale_files, C82_trailing_slash, C82_upload_file. The dictionaries of the caller are modified, so that a second report with them fails (C82_reuse_fails). No links or permissions in the model."
  },
  {
   "property": "C83",
   "status": "proved",
   "theorems": [
    "Emva.C83_temporal",
    "Emva.C83_identical",
    "Emva.C83_negative"
   ],
   "note": "The rounding and the summation are parameters; Rounding.binary64 (53 digits, ties to even, without overflow and underflow) and the sum from left to right are instances. C83_negative: in float64 the variance of two images without noise can be negative, -2^-52."
  },
  {
   "property": "C84",
   "status": "proved",
   "theorems": [
    "Emva.C84_spatial",
    "Emva.C84_slip",
    "Emva.C84_float64"
   ],
   "note": "Rounding and summation are parameters; C84_float64 is the instance of binary64 and pairwise summation. No overflow or underflow."
  },
  {
   "property": "C85",
   "status": "proved",
   "theorems": [
    "Emva.C85_file",
    "Emva.C85_formats",
    "Emva.C85_evaluated",
    "Emva.C85_camera",
    "Emva.C85_clipped"
   ],
   "note": "The clipping of PIL's png writer for mode I images and the exactness of tiff are part of the model (trusted behaviour of PIL). C85_clipped: above 16 bits the png file of a bright image differs from the image. C85_camera: the images of the modelled camera meet the hypotheses."
  },
  {
   "property": "C86",
   "status": "proved",
   "theorems": [
    "Emva.C86_pixel",
    "Emva.C86_grab",
    "Emva.C86_draws_exist",
    "Emva.C86_images",
    "Emva.C86_measured",
    "Emva.C86_photon_transfer",
    "Emva.C86_quantisation",
    "Emva.C86_quantisation_average"
   ],
   "note": "Over the reals, with numpy's generators as ideal random variables (hypotheses GrabNoise; C86_draws_exist: they can be met for all parameters). Finding: since grab adds a uniform draw and then rounds, its quantisation noise is f(1-f), on average 1/6 DN^2 (C86_quantisation_average), while Results1288 takes 1/12 (_s2q) as the quantisation noise."
  },
  {
   "property": "C87",
   "status": "proved",
   "theorems": [
    "Emva.C87_printout",
    "Emva.C87_error",
    "Emva.C87_state",
    "Emva.C87_attributes",
    "Emva.C87_columns",
    "Emva.C87_which",
    "Emva.C87_same_label",
    "Emva.C87_interrupted"
   ],
   "note": "str of a number is an arbitrary function. Finding: the lines of s_2_y and s_2_y_dark cannot be told apart (C87_same_label)."
  },
  {
   "property": "C88",
   "status": "proved",
   "theorems": [
    "Emva.C88_text",
    "Emva.C88_fail",
    "Emva.C88_unreadable",
    "Emva.C88_columns",
    "Emva.C88_columns_merge"
   ],
   "note": "Names are assumed to have no line ends and category names not to end in FAIL (tag names in lower case). Findings: an unreadable file gives an empty report without FAIL (C88_unreadable); values of 20 or more characters run into each other (C88_columns_merge)."
  },
  {
   "property": "C89",
   "status": "proved",
   "theorems": [
    "Emva.C89_spatial",
    "Emva.C89_dark",
    "Emva.C89_light",
    "Emva.C89_prnu"
   ],
   "note": "The quotients DSNU1288 and PRNU1288 themselves (square roots and quotients of random values) are not integrated; the theorems are about the expected spatial variances and means they are formed of."
  },
  {
   "property": "C90",
   "status": "proved",
   "theorems": [
    "Emva.C90_gain",
    "Emva.C90_responsivity",
    "Emva.C90_efficiency"
   ],
   "note": "Exact arithmetic; rounding errors of the sums are C83 and C84."
  },
  {
   "property": "C91",
   "status": "proved",
   "theorems": [
    "Emva.C91_point",
    "Emva.C91_camera",
    "Emva.C91_gain",
    "Emva.C91_draws_exist"
   ],
   "note": "Chebyshev bounds; draws have exact Poisson, normal and uniform laws; int64 sums do not overflow (hypothesis)."
  },
  {
   "property": "C92",
   "status": "proved",
   "theorems": [
    "Emva.C92_report",
    "Emva.C92_complete",
    "Emva.C92_stylesheet",
    "Emva.C92_files",
    "Emva.C92_info",
    "Emva.C92_blank",
    "Emva.C92_results",
    "Emva.C92_session"
   ],
   "note": "templates transcribed by tools/gen_report.py; the lexer of jinja2 is not modelled; str of floats and containers is a parameter; the fixed LaTeX between the named parts of a sheet is not described by the specification."
  },
  {
   "property": "C93",
   "status": "partial",
   "theorems": [
    "Emva.C93_vendor_ignored",
    "Emva.C93_vendor_not",
    "Emva.C93_cover_ignored",
    "Emva.C93_cover_not",
    "Emva.C93_wavelength",
    "Emva.C93_information_partial"
   ],
   "note": "The code violates this: the style sheet reads marketing.vendor, so the vendor of basic never changes it (C93_vendor_ignored, C93_vendor_not); marketing's cover_page is never read (C93_cover_ignored, C93_cover_not); a missing Wavelength leaves an empty place (C93_wavelength). Proved: a vendor given to marketing, the cover_page argument and all documented basic fields do appear."
  },
  {
   "property": "C94",
   "status": "proved",
   "theorems": [
    "Emva.C94_slope",
    "Emva.C94_line",
    "Emva.C94_gain",
    "Emva.C94_responsivity",
    "Emva.C94_dark_current",
    "Emva.C94_close",
    "Emva.C94_ideal",
    "Emva.C94_results",
    "Emva.C94_exact"
   ],
   "note": "weakens the assumption LSQ.Good of C21, C33, C66 and C90 to a tolerance; tolerance zero is LSQ.Good (C94_exact)."
  },
  {
   "property": "C95",
   "status": "proved",
   "theorems": [
    "Emva.C95_results",
    "Emva.C95_index",
    "Emva.C95_slope",
    "Emva.C95_gain",
    "Emva.C95_responsivity",
    "Emva.C95_measurement",
    "Emva.C95_float64"
   ],
   "note": "rounding without overflow and underflow; the solver is a parameter with a tolerance (C94); linearity and the logarithms are C97."
  },
  {
   "property": "C96",
   "status": "proved",
   "theorems": [
    "Emva.C96_components",
    "Emva.C96_dsnu",
    "Emva.C96_prnu",
    "Emva.C96_stack",
    "Emva.C96_variances",
    "Emva.C96_float64",
    "Emva.C96_dsnu_DN"
   ],
   "note": "rounding without overflow and underflow; the bounds are worst cases over all images with numbers up to B."
  },
  {
   "property": "C97",
   "status": "proved",
   "theorems": [
    "Emva.C97_index_max",
    "Emva.C97_index_min",
    "Emva.C97_linearity",
    "Emva.C97_snr_db",
    "Emva.C97_snr_bit",
    "Emva.C97_dr_db",
    "Emva.C97_float64",
    "Emva.C97_pairwise"
   ],
   "note": "rounding without overflow and underflow; ** 2 of a number counts as one rounded product; np.log10 and np.log2 are a parameter with a relative error."
  },
  {
   "property": "C98",
   "status": "partial",
   "theorems": [
    "Emva.C98_limits",
    "Emva.C98_visible_partial",
    "Emva.C98_single",
    "Emva.C98_hidden",
    "Emva.C98_snr"
   ],
   "note": "the limits are proved for all inputs (C98_limits); everything is visible if the pixels are in a range [a, 1.1 a] (C98_visible_partial), but not in general: C98_single says exactly which values are visible and C98_hidden proves that a hot pixel is outside of the axis. In the SNR plot nothing is above the axis, but the theoretical and the total curve begin below it (C98_snr). The widening of equal limits by matplotlib is not modelled."
  },
  {
   "property": "C99",
   "status": "partial",
   "theorems": [
    "Emva.C99_indices_partial",
    "Emva.C99_steady_partial",
    "Emva.C99_jump",
    "Emva.C99_limit",
    "Emva.C99_linearity_partial",
    "Emva.C99_spatial_partial",
    "Emva.C99_dark_partial",
    "Emva.C99_dsnu_dn_partial",
    "Emva.C99_area_partial"
   ],
   "note": "proved for measurements with different variances without a zero (or a given saturation index), no signal exactly on the limit of a range, and positive gain and responsivity (C99_indices_partial, C99_steady_partial, C99_spatial_partial, C99_dark_partial, C99_dsnu_dn_partial, C99_area_partial, C99_linearity_partial). Not true in general: with zero variances at the saturated points an arbitrarily small change moves the saturation index from 2 to 0 and the saturation irradiation from 30 to 10 (C99_jump), and a signal on the limit of the sensitivity range moves its end (C99_limit). The constants are not explicit."
  },
  {
   "property": "C100",
   "status": "proved",
   "theorems": [
    "Emva.C100_plausible",
    "Emva.C100_no_response",
    "Emva.C100_no_gain",
    "Emva.C100_negative_gain",
    "Emva.C100_undetermined",
    "Emva.C100_capped"
   ],
   "note": "zero is counted as +0 and numbers do not overflow; C100_capped uses that leastsq stays at its starting value 1 if all abscissas are zero (KeepsStart), the other theorems hold for every solver that finds a minimum"
  },
  {
   "property": "C101",
   "status": "proved",
   "theorems": [
    "Emva.C101_few",
    "Emva.C101_currents",
    "Emva.C101_slope",
    "Emva.C101_offset",
    "Emva.C101_measurement",
    "Emva.C101_jump"
   ],
   "note": "no overflow or underflow; the solver is a parameter with tolerances, its own roundings are part of its tolerance. C101_jump shows that the proviso is needed"
  },
  {
   "property": "C102",
   "status": "proved",
   "theorems": [
    "Emva.C102_point",
    "Emva.C102_measurement",
    "Emva.C102_data"
   ],
   "note": "no overflow or underflow; the photons are taken as they are in the descriptor; the solver is a parameter with tolerances; at most two exposure times (for more, C101 from the temporal data on)"
  },
  {
   "property": "C103",
   "status": "proved",
   "theorems": [
    "Emva.C103_read",
    "Emva.C103_verbatim",
    "Emva.C103_unclosed",
    "Emva.C103_templates"
   ],
   "note": "the lexer and parser of jinja2 are modelled for the constructs that the templates use (names, attributes, formats, the filters missing and missingnumber, if/elif/else, for, include, comments, minus signs); trim_blocks and line statements are off, as in the package"
  },
  {
   "property": "C104",
   "status": "partial",
   "theorems": [
    "Emva.C104_units_partial",
    "Emva.C104_spectrogram_not_percent",
    "Emva.C104_accumulated_not_number",
    "Emva.C104_accumulated_not_percent",
    "Emva.C104_not_dark_value",
    "Emva.C104_histogram",
    "Emva.C104_snr_points"
   ],
   "note": "proved for the photon transfer, sensitivity, dark signal, linearity, deviation and dark spectrogram plots. Violated: the bright spectrograms are labelled in percent but follow the root of the gain, the accumulated histograms are labelled with numbers of pixels but show percentages (and the bright one has grey values along an axis in percent), the dark histogram is labelled with dark values but shows deviations from the mean. The points of the SNR plot are covered; its curves are not, since they contain the step of the digitisation"
  },
  {
   "property": "C105",
   "status": "proved",
   "theorems": [
    "Emva.C105_temporal",
    "Emva.C105_temporal_accuracy",
    "Emva.C105_spatial",
    "Emva.C105_spatial_accuracy"
   ],
   "note": "float64 with gradual underflow and overflow (round to nearest even); the summation tree of numpy is arbitrary with at most 2^52 additions per number"
  },
  {
   "property": "C106",
   "status": "proved",
   "theorems": [
    "Emva.C106_data",
    "Emva.C106_fits",
    "Emva.C106_results",
    "Emva.C106_overflow",
    "Emva.C106_measurement",
    "Emva.C106_zero_gain"
   ],
   "note": "the solver is a parameter: its own arithmetic is not modelled; photons and areas are inputs; the spatial results are C107, linearity and the logarithms C109"
  },
  {
   "property": "C107",
   "status": "proved",
   "theorems": [
    "Emva.C107_limits",
    "Emva.C107_accuracy"
   ],
   "note": "the solver of the gain is a parameter; linearity and the logarithms are C109"
  },
  {
   "property": "C108",
   "status": "proved",
   "theorems": [
    "Emva.C108_measurement",
    "Emva.C108_float64"
   ],
   "note": "the solver is a parameter with a tolerance (C94); linearity and the logarithms with the limits of float64 are C109"
  },
  {
   "property": "C109",
   "status": "proved",
   "theorems": [
    "Emva.C109_linearity",
    "Emva.C109_snr_db",
    "Emva.C109_snr_bit",
    "Emva.C109_dr_db"
   ],
   "note": "the linearity is compared with the exact evaluation of the rounded mean gray values, not of the images; np.log10 and np.log2 are parameters with a relative error"
  },
  {
   "property": "C110",
   "status": "partial",
   "theorems": [
    "Emva.C110_dsnu_partial",
    "Emva.C110_prnu_partial",
    "Emva.C110_dsnu_inside",
    "Emva.C110_prnu_inside",
    "Emva.C110_hidden"
   ],
   "note": "every histogram is drawn, and the one of the last test is inside of the limits. Violated for the others: the limits are set anew for each test (plotting.py lines 532, 555) and do not take the tests before into account; C110_hidden gives all pairs of an even camera and one with fewer than half its pixels; C110_dsnu_inside and C110_prnu_inside say exactly which histograms are inside: those whose tallest bin is at most twice as tall as the tallest of the last test. The constructor of Plotting1288 keeps one test only (C58), so this is about calling plot of one plot object for several tests, as the loop in lines 869-870 does for self.tests"
  },
  {
   "property": "C111",
   "status": "partial",
   "theorems": [
    "Emva.C111_brightest",
    "Emva.C111_full_scale_partial",
    "Emva.C111_overexposed"
   ],
   "note": "C111_full_scale_partial for one wavelength. Violated for different wavelengths: points_generator.py lines 107-110 use the mean over the wavelengths of a radiance that goes with 1/w^2 for all of them, so the brightest point is above the full scale (C111_overexposed), by the factor C111_brightest gives: the mean of the squared wavelengths times the mean of their inverse squares"
  }
 ]
}