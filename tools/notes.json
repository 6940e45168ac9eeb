{
 "C01": [
  "proved",
  "For the int64 computation inside the envelope of C04."
 ],
 "C04": [
  "proved",
  "Per pixel and for the totals; overflow witness outside the envelope."
 ],
 "C05": [
  "proved",
  "Floats exact; integer part with int64 wrap-around. With a given number of pixels different from height*width the variance is not drift invariant (C06_given_pixels_counterexample)."
 ],
 "C07": [
  "proved",
  "For every text and every behaviour of float()/int(); NaN keys excluded."
 ],
 "C12": [
  "proved",
  "An image line that follows no header is an unknown command and is skipped, as in the code."
 ],
 "C13": [
  "proved",
  "Numbers non-negative; round trip for L >= 3 and distinct rounded keys; rejection proved when keys collide, loss of the spatial data proved for L = 2, rejection for L < 2."
 ],
 "C14": [
  "proved",
  "Output directory empty, without trailing slash or with exactly one."
 ],
 "C23": [
  "partial",
  "Holds for every forced index except 0: the code tests the truth value of the index, so a forced index 0 is ignored (C23_forced_zero_ignored, C23_forced_zero_counterexample)."
 ],
 "C24": [
  "proved",
  "All modelled attributes; exact reals."
 ],
 "C27": [
  "proved",
  "leastsq is a parameter assumed to return a minimiser of the sum of squares; an exact instance exists (exactLSQ_good)."
 ],
 "C28": [
  "proved",
  "As C27."
 ],
 "C35": [
  "proved",
  "Closed formulas of linearity(); no leastsq involved."
 ],
 "C36": [
  "proved",
  "For unmasked data (any integers); np.histogram ignores masks, so for masked data the counts include masked pixels (C36_masked_counterexample)."
 ],
 "C41": [
  "proved",
  "Exact DFT over the complex numbers in place of numpy's fft; the float rounding is not modelled."
 ],
 "C42": [
  "partial",
  "The code violates the property: entry i is reported at i/(2n) with n = cols//2+1, which is below i/cols for every i >= 1 (C42_frequencies_too_small, C42_nyquist). Proved part: entry 0 exact, error below one frequency step."
 ],
 "C43": [
  "proved",
  "lxml is an assumption: writing and parsing is the identity on element trees (empty text read as None), and float(str(x)) = x for numbers. Numbers under data come back as one-element arrays; empty arrays cannot be read back (C43_empty_array)."
 ],
 "C44": [
  "proved",
  "Verdicts only (the text layout of the lines is not modelled). Hypothesis: no value element with children beside a data element. None and NaN values fail even against themselves (C44_none_fails); broadcasting: C44_broadcast_counterexample; numpy >= 1.24: C44_new_numpy_counterexample."
 ],
 "C45": [
  "proved",
  "Exact real arithmetic; np.int exists only in numpy < 1.24 (C45_new_numpy_counterexample for later versions)."
 ],
 "C47": [
  "proved",
  "str.lower is a parameter; docstrings are arbitrary strings."
 ],
 "C48": [
  "proved",
  "Exact arithmetic; the comparison of distances is exact."
 ],
 "C49": [
  "proved",
  "The four random draws are arbitrary arguments. Bit depths up to 64; exact arithmetic (float64 would round above 53 bits)."
 ],
 "C50": [
  "proved",
  "Exact real arithmetic; np.pi is its decimal value. Exposure and area are python numbers."
 ],
 "C51": [
  "proved",
  "C51_target covers the camera exposure and another exposure (the mean is then off by the difference of dark currents)."
 ],
 "C52": [
  "proved",
  "Exact real arithmetic."
 ],
 "C53": [
  "proved",
  "For 2-D arrays array_tile uses the number of wavelengths as width of the pattern (C53_array_tile_rows, C53_array_tile_rows_counterexample)."
 ],
 "C54": [
  "proved",
  "The drawn positions are an arbitrary argument below height*width. bad_value=None is documented but raises TypeError (C54_rejected)."
 ],
 "C55": [
  "proved",
  "Images of the searches are arbitrary; std > 0.5 is modelled as variance > 0.25. When grab raises, the tried setting stays (C55_error)."
 ],
 "C56": [
  "proved",
  "Counterexamples to the stricter reading: C56_range_counterexample (an exposure outside of the range), C56_merge_counterexample (fewer exposures than steps)."
 ],
 "C68": [
  "partial",
  "The code violates the property: the given limits are overwritten (C68_limits_ignored); gain, blackref and the limits have no effect in exposure mode (C68_gain_ignored). Proved part: with one wavelength the radiances go from the one for the target to the one for the full scale."
 ],
 "C57": [
  "proved",
  "Aliasing of a dictionary added twice: C57_alias. A failed add changes the dictionary but adds no entry. Making plots, directories and results is abstract (may fail at any point)."
 ],
 "C61": [
  "partial",
  "The code violates the property: only the np.nan object is recognised, a computed NaN is printed as nan and an undefined name raises (C61_computed_nan). Proved: None and np.nan give the dash, numbers are shown correctly rounded with the requested digits."
 ],
 "C69": [
  "proved",
  "Docstrings and template references are transcribed by tools/gen_template.py. Missing values of the cells without filter appear as nan."
 ],
 "C58": [
  "partial",
  "The code violates the property: only the last test is plotted (C58_only_last, C58_counterexample). Proved for a single test (C58_single_partial)."
 ],
 "C59": [
  "proved",
  "Arrays of the temporal data of one length; at u_p_min = u_p_sat np.arange raises. The example file gives a measurement meeting all hypotheses."
 ],
 "C70": [
  "proved",
  "Arrays of one length. Colours, labels and axis limits not modelled. The points/line decision of the dark plot needs ascending exposure times (C70_dark_unordered), which Data1288 produces (C70_dark_data)."
 ],
 "C60": [
  "proved",
  "For every image with at least one line across the profile: positions, mean/min/max/mid values, order, drawn lines, and the error cases. Two consequences a user may not expect are proved with witnesses: an empty middle profile and an IndexError if the middle line is the last one and masked."
 ],
 "C62": [
  "proved",
  "For all attributes of Results1288, after any reads, with the int64 sums of the code, from the descriptor file on; rejected datasets are rejected with the same exception. Temporal series of unequal length (only by hand-made dictionaries) are a counterexample, C62_unequal_series."
 ],
 "C64": [
  "proved",
  "For all attributes whose unit is a power of DN (Spec.exponent), from the descriptor file on, with int64 sums. Attributes with an absolute threshold or bins do not scale: C64_sigma_y_dark_does_not_scale."
 ],
 "C63": [
  "proved",
  "Through the descriptor text actually written by the generator; exact decimal arithmetic for the keys. Also instantiated for the points of an exposure variation. Exact acceptance condition of the evaluation in C63_evaluable."
 ],
 "C71": [
  "partial",
  "Dark spectrogram: proved when the dark and the bright series have as many images; otherwise the code divides the dark sum by the number of bright images and the curve is wrong (C71_dsnu_unequal). Bright spectrogram: the claim is false, the curve is not in percent (C71_prnu_not_percent); proved is what it is: mean square = variance / mean."
 ],
 "C72": [
  "partial",
  "False of the code: the curve is scaled with range / number of bins instead of the bin width. Proved: it is the expected count times one common factor in [1/2, 1), so always too low (C72_never_expected); a constant image gives NaN (C72_constant). Finite arithmetic is exact, exp and pi are real."
 ],
 "C73": [
  "proved",
  "The model is shown with the factor of C72. A bin with one pixel is drawn exactly on the lower border of the dark plot (limit 1.0)."
 ],
 "C74": [
  "partial",
  "Proved for the dark histogram, and for the bright histogram and profile when both series have as many images. False otherwise (the sums are subtracted before dividing by the number of bright images): exact error of every pixel in C74_pixel and C74_profile, counterexample in C74_prnu_unequal."
 ],
 "C75": [
  "partial",
  "All proved except that the array passed in is not changed, which is false: it is multiplied in place (C75_argument_changed), so building twice applies the filter twice. A wrong shape raises TypeError instead of ValueError unless the array has two dimensions (C75_rejected). Exact real arithmetic."
 ],
 "C76": [
  "partial",
  "Proved for even numbers of rows and columns; false otherwise: the filter is a row or column too small and Qe rejects it (C76_odd). Exact real arithmetic, no underflow of exp; wavelengths are not negative."
 ],
 "C77": [
  "proved",
  "Exact finite arithmetic; the least squares solver is abstract (LSQ.Good). NaN or infinite data are outside the hypotheses."
 ],
 "C78": [
  "proved",
  "lxml, str() and float() of numbers are abstract (StdEnv): a number is read back as rnd x, the value of its text. The documentation of the attributes is the one of results.py, extracted by tools/gen_template.py."
 ],
 "C79": [
  "proved",
  "The data each attribute is computed from are listed in Spec/Depend.lean (needs)."
 ],
 "C80": [
  "proved",
  "For the fits to be determined, the first bright point has a photon count other than zero and a mean that differs from the dark mean. int64 sums within the envelope of C04, or exact sums."
 ],
 "C81": [
  "proved",
  "Measures and integrals of Mathlib; grey values are measurable and bounded so that the int64 sums are exact. Columns, rows and pixels: the errors are proved, they are not zero."
 ],
 "C82": [
  "partial",
  "Proved if the output directory has no entry `files` and no file `upload` before, the names do not end in a slash, and files with the same base name are the same file. Without these the code violates the claim: C82_same_name (the second file overwrites the first), C82_stale_files, C82_trailing_slash, C82_upload_file. The dictionaries of the caller are modified, so that a second report with them fails (C82_reuse_fails). No links or permissions in the model."
 ],
 "C83": [
  "proved",
  "The rounding and the summation are parameters; Rounding.binary64 (53 digits, ties to even, without overflow and underflow) and the sum from left to right are instances. C83_negative: in float64 the variance of two images without noise can be negative, -2^-52."
 ],
 "C84": [
  "proved",
  "Rounding and summation are parameters; C84_float64 is the instance of binary64 and pairwise summation. No overflow or underflow."
 ],
 "C85": [
  "proved",
  "The clipping of PIL's png writer for mode I images and the exactness of tiff are part of the model (trusted behaviour of PIL). C85_clipped: above 16 bits the png file of a bright image differs from the image. C85_camera: the images of the modelled camera meet the hypotheses."
 ],
 "C86": [
  "proved",
  "Over the reals, with numpy's generators as ideal random variables (hypotheses GrabNoise; C86_draws_exist: they can be met for all parameters). Finding: since grab adds a uniform draw and then rounds, its quantisation noise is f(1-f), on average 1/6 DN^2 (C86_quantisation_average), while Results1288 takes 1/12 (_s2q) as the quantisation noise."
 ],
 "C87": [
  "proved",
  "str of a number is an arbitrary function. Finding: the lines of s_2_y and s_2_y_dark cannot be told apart (C87_same_label)."
 ],
 "C88": [
  "proved",
  "Names are assumed to have no line ends and category names not to end in FAIL (tag names in lower case). Findings: an unreadable file gives an empty report without FAIL (C88_unreadable); values of 20 or more characters run into each other (C88_columns_merge)."
 ],
 "C89": [
  "proved",
  "The quotients DSNU1288 and PRNU1288 themselves (square roots and quotients of random values) are not integrated; the theorems are about the expected spatial variances and means they are formed of."
 ],
 "C90": [
  "proved",
  "Exact arithmetic; rounding errors of the sums are C83 and C84."
 ],
 "C91": [
  "proved",
  "Chebyshev bounds; draws have exact Poisson, normal and uniform laws; int64 sums do not overflow (hypothesis)."
 ],
 "C92": [
  "proved",
  "templates transcribed by tools/gen_report.py; the lexer of jinja2 is not modelled; str of floats and containers is a parameter; the fixed LaTeX between the named parts of a sheet is not described by the specification."
 ],
 "C93": [
  "partial",
  "The code violates this: the style sheet reads marketing.vendor, so the vendor of basic never changes it (C93_vendor_ignored, C93_vendor_not); marketing's cover_page is never read (C93_cover_ignored, C93_cover_not); a missing Wavelength leaves an empty place (C93_wavelength). Proved: a vendor given to marketing, the cover_page argument and all documented basic fields do appear."
 ],
 "C94": [
  "proved",
  "weakens the assumption LSQ.Good of C21, C33, C66 and C90 to a tolerance; tolerance zero is LSQ.Good (C94_exact)."
 ],
 "C95": [
  "proved",
  "rounding without overflow and underflow; the solver is a parameter with a tolerance (C94); linearity and the logarithms are C97."
 ],
 "C96": [
  "proved",
  "rounding without overflow and underflow; the bounds are worst cases over all images with numbers up to B."
 ],
 "C97": [
  "proved",
  "rounding without overflow and underflow; ** 2 of a number counts as one rounded product; np.log10 and np.log2 are a parameter with a relative error."
 ],
 "C98": [
  "partial",
  "the limits are proved for all inputs (C98_limits); everything is visible if the pixels are in a range [a, 1.1 a] (C98_visible_partial), but not in general: C98_single says exactly which values are visible and C98_hidden proves that a hot pixel is outside of the axis. In the SNR plot nothing is above the axis, but the theoretical and the total curve begin below it (C98_snr). The widening of equal limits by matplotlib is not modelled."
 ],
 "C99": [
  "partial",
  "proved for measurements with different variances without a zero (or a given saturation index), no signal exactly on the limit of a range, and positive gain and responsivity (C99_indices_partial, C99_steady_partial, C99_spatial_partial, C99_dark_partial, C99_dsnu_dn_partial, C99_area_partial, C99_linearity_partial). Not true in general: with zero variances at the saturated points an arbitrarily small change moves the saturation index from 2 to 0 and the saturation irradiation from 30 to 10 (C99_jump), and a signal on the limit of the sensitivity range moves its end (C99_limit). The constants are not explicit."
 ],
 "C100": [
  "proved",
  "zero is counted as +0 and numbers do not overflow; C100_capped uses that leastsq stays at its starting value 1 if all abscissas are zero (KeepsStart), the other theorems hold for every solver that finds a minimum"
 ],
 "C101": [
  "proved",
  "no overflow or underflow; the solver is a parameter with tolerances, its own roundings are part of its tolerance. C101_jump shows that the proviso is needed"
 ],
 "C102": [
  "proved",
  "no overflow or underflow; the photons are taken as they are in the descriptor; the solver is a parameter with tolerances; at most two exposure times (for more, C101 from the temporal data on)"
 ],
 "C103": [
  "proved",
  "the lexer and parser of jinja2 are modelled for the constructs that the templates use (names, attributes, formats, the filters missing and missingnumber, if/elif/else, for, include, comments, minus signs); trim_blocks and line statements are off, as in the package"
 ],
 "C104": [
  "partial",
  "proved for the photon transfer, sensitivity, dark signal, linearity, deviation and dark spectrogram plots. Violated: the bright spectrograms are labelled in percent but follow the root of the gain, the accumulated histograms are labelled with numbers of pixels but show percentages (and the bright one has grey values along an axis in percent), the dark histogram is labelled with dark values but shows deviations from the mean. The points of the SNR plot are covered; its curves are not, since they contain the step of the digitisation"
 ],
 "C105": [
  "proved",
  "float64 with gradual underflow and overflow (round to nearest even); the summation tree of numpy is arbitrary with at most 2^52 additions per number"
 ],
 "C106": [
  "proved",
  "the solver is a parameter: its own arithmetic is not modelled; photons and areas are inputs; the spatial results are C107, linearity and the logarithms C109"
 ],
 "C107": [
  "proved",
  "the solver of the gain is a parameter; linearity and the logarithms are C109"
 ],
 "C108": [
  "proved",
  "the solver is a parameter with a tolerance (C94); linearity and the logarithms with the limits of float64 are C109"
 ],
 "C109": [
  "proved",
  "the linearity is compared with the exact evaluation of the rounded mean gray values, not of the images; np.log10 and np.log2 are parameters with a relative error"
 ],
 "C110": [
  "partial",
  "every histogram is drawn, and the one of the last test is inside of the limits. Violated for the others: the limits are set anew for each test (plotting.py lines 532, 555) and do not take the tests before into account; C110_hidden gives all pairs of an even camera and one with fewer than half its pixels; C110_dsnu_inside and C110_prnu_inside say exactly which histograms are inside: those whose tallest bin is at most twice as tall as the tallest of the last test. The constructor of Plotting1288 keeps one test only (C58), so this is about calling plot of one plot object for several tests, as the loop in lines 869-870 does for self.tests"
 ],
 "C111": [
  "partial",
  "C111_full_scale_partial for one wavelength. Violated for different wavelengths: points_generator.py lines 107-110 use the mean over the wavelengths of a radiance that goes with 1/w^2 for all of them, so the brightest point is above the full scale (C111_overexposed), by the factor C111_brightest gives: the mean of the squared wavelengths times the mean of their inverse squares"
 ]
}