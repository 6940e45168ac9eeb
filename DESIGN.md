# Formal model of EMVA1288/emva1288 in Lean 4

Source: `/repo` (python, pinned). Model and proofs: `/verif/lean/Verif`. Nothing was executed: the
model is a reading of the source, each definition cites file and lines.

## Layout

| directory | content |
|---|---|
| `Verif/Py` | python/numpy base: errors, floats with NaN/inf, dictionaries, text, 1-D and 2-D arrays |
| `Verif/Model` | the model, one Lean file per python file (or part of it) |
| `Verif/Spec` | small independent specifications used in theorem statements |
| `Verif/Lemmas` | helper lemmas |
| `Verif/Props` | the property theorems `C01_...` with non-vacuity examples beside them |

## Modelling decisions (apply everywhere)

* **Exceptions are values**: `Except PyErr α`.
* **float64** is modelled by `Fl F`: an element of an ordered field `F` (ℚ when computing, ℝ where
  square roots or logarithms occur), or `±inf`, or `nan`, with the IEEE rules for the special
  values. Finite arithmetic is exact, and there is one unsigned zero (treated as +0). *Rounding* is modelled
  separately, for the data of images and the results (C83, C84, C95-C97, C101, C102): there every operation is followed by a rounding
  (`Py/Rounding.lean`), and the distance to the exact result is bounded.
* **int64** pixel arithmetic is modelled with wrap-around modulo 2^64 at every operation
  (`Model/GetIntImgs.lean`), and shown to coincide with exact integers inside a stated envelope.
* **Images** are `rows × cols` with a pixel function on ℕ×ℕ (only indices below the shape are used).
* **dict** is an insertion-ordered association list (`Py/Dict.lean`).
* **str** is `List Char`; white space is python's `str.isspace` set.
* **External calls** (`scipy.optimize.leastsq`, random generator, file system, `float()`/`int()`
  parsing where only its result matters, lxml) are parameters; the assumption made about each of them
  is a structure field or a theorem hypothesis, never an axiom. For each of these structures an
  instance is given beside the theorems, so that no theorem holds because its assumptions cannot be
  met (`exactLSQ_good`, `unaryEnv_good`, `intEnv_std`).
* **Objects with state**: `Results1288` has one mutable cell (`_index_u_ysat`); its attributes are
  computations in a state monad `Results.M`. Report entries and Qe arrays are references into a heap,
  because aliasing is observable there.

## Trusted base

* Lean 4.33.0 kernel; axioms at most `propext`, `Classical.choice`, `Quot.sound` (checked with
  `#print axioms` by vcheck). No axiom, `sorry`, `native_decide` or `bv_decide`.
* The faithfulness of the transcription: every definition cites the lines it models.
* `tools/gen_template.py`, which copies the docstrings of results.py and the references of
  `report/templates/op.tex` into `Model/ResultsDocs.lean` and `Model/Template.lean` (read as text), and
  `tools/gen_report.py`, which copies the texts of the templates into `Model/TemplateFiles.lean`. (The syntax trees that it writes
  into `Model/ReportTex.lean` are not trusted: `C103_templates` proves that the texts are read as these trees by the model of
  jinja2's lexer and parser. `kernel_rfl` in `Py/Chars.lean` leaves that evaluation to the kernel.)
* The assumed behaviour of numpy / scipy / lxml / os functions, stated in the comments of the
  definitions that model them:
  * `leastsq` returns a minimiser of the sum of squares on finite data with enough points (`LSQ.Good`); C94 states what remains of the
    results if it only comes close to the minimum (`LSQ.Near`); C100_capped assumes in addition that it stays at its start value 1 if all abscissas are zero (`KeepsStart`);
  * `np.fft.fft` is the exact discrete Fourier transform;
  * lxml writing and parsing is the identity on element trees (an empty text is read as `None`),
    invalid tags and control characters are rejected with `ValueError`;
  * `float(str(x))` is a number `rnd x` (C78), or `x` itself (C43);
  * `scipy.ndimage.convolve` is exact.

## What is modelled, by source file

| source | model | not modelled |
|---|---|---|
| process/parser.py | Parser | log output, undecodable files |
| process/loader.py | Loader, GetIntImgs | log output; PIL decoding (a function from names to images) |
| process/data.py | Data, Temporal, Rounded, RoundedMeasurement, IeeeData | logging |
| process/results.py | Results, RoundedResults, IeeeResults, RoundedSpatial, IeeeSpatial, RoundedLinearity, IeeeLinearity, RoundedDark, IeeeDark, ResultsHist, HistModel, Attrs, Export, ResultsDocs, Print | python's `str` of a number |
| process/routines.py | GetIntImgs, Fit, FitErr, FFT, Compress, Histogram, HistModel, HighPass, Info, Xml, Compare, CompareText | python's text of a number |
| process/plotting.py | Plots, Profiles, AxisLimits, HistAxes, AxisLabels, Spectrograms, HistModel, Plotter | colours, legends, ticks, other axis limits, figure handling |
| process/__init__.py | Pipeline, Export | |
| camera/camera.py | Camera, Radiance | drawing of random numbers (arguments) |
| camera/routines.py | Camera, Radiance, Tile, Qe | |
| camera/points_generator.py | Points | |
| camera/dataset_generator.py | DatasetGenerator, Dataset, Search | PIL (png and tiff files: pixel values as in Model/Dataset), temporary directories |
| camera/bad_images.py | Search | |
| report/report.py | Report, Missing, Template, ReportDirs, ReportText | symbolic links and permissions of files |
| report/templates | Template (op.tex), Jinja, JinjaLexer, TemplateFiles, ReportTex | constructs of jinja2 that the templates do not use; attributes of objects that are no dictionaries; python's `str` of floats and containers (a parameter) |

Overflow and underflow of float64 are modelled for the data (C105), the results from the temporal data (C106), the spatial results (C107), the dark currents (C108), and linearity and logarithms (C109); not for the profiles, histograms and the camera. Never modelled: performance; memory; concurrency.

## Plan per property

| id | what is modelled | how it is proved |
|---|---|---|
| C01–C03 | `get_int_imgs` as the loop over the image list | algebra over finite sums; permutation invariance of sums; telescoping induction |
| C04 | the same loop with every int64 operation reduced mod 2^64 | `Int.bmod` is a ring map; bound of pvar by L^3·range²/4 |
| C05, C06 | `_get_imgs_data`, `_get_temporal_data` | finite-sum algebra, variance ≥ 0 |
| C07–C12 | `parser.py` completely (text level) | grammar specification, soundness and completeness by induction on lines |
| C13, C14 | `DatasetGenerator.run_test` as text + file-name producer | induction over operation points, decimal format/parse inverse |
| C15, C16 | `loader.py` with file system as a partial map | induction; permutation argument |
| C17–C20 | `data.py` | sorting lemmas, list induction, finite sums |
| C21–C35 | `results.py` with `leastsq` as a specified parameter | field arithmetic, induction over the backward scan, quadratic minimisation |
| C36, C37 | `Histogram1288`, accumulated histograms | integer division lemmas, counting |
| C38–C40 | `high_pass_filter`, `_row_wise_compress` | finite sums; loop invariant for the in-place loop |
| C41, C42 | `FFT1288`, `GetFrecs` with the exact DFT over ℂ | conjugate symmetry, Parseval |
| C43–C47, C67 | xml and documentation routines with an abstract element tree | structural induction |
| C48–C56, C65, C66, C68 | `camera/*` with the random generator as an oracle | argmin/clip/list lemmas, induction over grids |
| C57–C61, C69 | report, plot selection, number cells, template references | heap model for aliasing, correct rounding of decimal output, kernel evaluation over the transcribed documentation |
| C62, C64 | offset invariance and gain equivariance of the whole evaluation | a relation on results objects preserved by every attribute |
| C63 | composition of generator, parser, loader, data, results | composition of the above |
| C70–C74 | the arrays the plots draw | composition with the results theorems; Parseval; inequalities for the normal curve |
| C75, C76 | `Qe`, `get_bayer_filter`, `poisson` | real analysis (monotonicity of the Poisson probabilities), heap model for the in-place filter |
| C77 | all attributes of `Results1288` | exact characterisation of when none raises |
| C78 | `results`, `results_by_section`, `xml` on the real documentation | C43, C44, C46, C47, C67, C69, C77 composed |
| C79 | all attributes, `Emva1288`'s optional arguments | a frame relation on reads preserved by every attribute |
| C80 | `LoadImageData`, `Data1288`, all attributes | loading a relabelled descriptor gives the data in the new units; every attribute is homogeneous (relation on reads of two objects, least squares by invariance) |
| C81 | `get_int_imgs`, `_get_temporal_data`, `_get_spatial_data`, `s_2_y*` on random images | variances as squares of linear forms in the grey values; expected squares by the variance of a sum of uncorrelated variables |
| C82 | `Report1288.__init__`, `_make_dirs` | file systems as functions on paths, a frame relation that is kept by every operation, invariant of the copied files |
| C83 | rounding in `get_int_imgs`, `_get_temporal_data` | axiomatised rounding with binary64 as an instance, sums in any order as an inductive relation, exactness of integer sums, forward error analysis |
| C84 | rounding in `_get_spatial_data` | relative errors as factors, two-pass variance: mean square with perturbed deviations (Cauchy-Schwarz) |
| C85 | dataset generation with pixel content, evaluated | invariant of the run (n-th file = n-th grab), refinement to the text-only model, composition with C13, C15, C17-C19, C63 |
| C86 | noise of the simulated camera and its photon transfer | laws of Poisson and normal moments up to the fourth, dithered quantiser, error of clipping by Cauchy-Schwarz, composition with C81 |
| C87 | printout of the results | refinement of a printed table; recovery of the columns |
| C88 | text of the comparison of two files | refinement of a text; existence of a FAIL line iff the files disagree |
| C89 | nonuniformity of the simulated camera is recovered | expectation under the exact laws; stability of the standard deviation |
| C90 | errors of the points move gain, responsivity and quantum efficiency only a little | perturbation bound from optimality |
| C91 | mean, temporal variance and gain measured on the simulated camera are close to the camera's values with high probability | Chebyshev with fourth moments, union bound, C90 |
| C92 | text of the report: what it contains, when there is one, which files are written, the report of a history of `add` calls | model of jinja2's nodes, symbolic rendering, tokens in order, C57, C69, C77 |
| C93 | documented information reaches its place in the report (fails: vendor in the page head, cover page of marketing, missing wavelength) | C92 |
| C94 | results with a solver that only comes close to the minimum | normal equations: the excess of the sum of squares is the squared distance of the fitted values |
| C95 | accuracy of the results in floating point arithmetic | numbers that agree up to a factor, under each operation; C83's rounding, C94 |
| C96 | accuracy of the nonuniformities in floating point arithmetic | errors as a fraction of the scale of the terms, under each operation; C84, C20, C95 |
| C97 | accuracy of the linearity and of the decibel values in floating point arithmetic | the five sums agree up to a factor, then errors on scales (C96) through determinant, line and deviations; log(1+e) <= e |
| C98 | what is visible in the profile plots and in the SNR plot (violated) | python min and max over limits with nan, averages between bounds (C60), order of the SNR curves (C59); witness with a hot pixel |
| C99 | a small change of the data changes the results by little (violated) | filter of the measurements close to a given one, closure of Lipschitz behaviour under the operations used (sum, product, quotient, root, logarithm, list sums), agreement of the decisions of the saturation search; witnesses with zero variances and a signal on a limit |
| C100 | an implausible measurement is visible in the datasheet | all figures as expressions of gain, responsivity, dark noise and saturation irradiation, IEEE rules for inf and nan; a family of solvers that differ where every slope is best |
| C101 | dark noise and dark currents are accurate in floating point | slopes and offsets of a line found with tolerance against the best line, then one factor for each operation as in C95; numbers of either sign; a solver that tilts a constant line |
| C102 | the datasheet in floating point is accurate, from the images on | errors of the points from C83, perturbed regressions, orders that rounding cannot change, then C95; an instance with four pairs of images in float64 |
| C103 | the templates of the report say what is written in them | model of jinja2's lexer and parser against a layout of texts and tags (induction over both), evaluation of the files by the kernel |
| C104 | the axes of the plots carry the units written at them | equivariance of what is drawn under a gain (C64), unit read from the label; counterexamples for the wrong labels |
| C105 | the data of an evaluation neither overflow nor underflow | float64 with limits as floats with infinities; every intermediate number is a multiple of a power of two and bounded (kept by every rounded operation), so both roundings agree; then C83, C84 |
| C106 | the results of an evaluation neither overflow nor underflow | grid argument of C105 for the differences and the limit of the sensitivity range; positive magnitudes (2^-a to 2^a) through the formulas of the results; then C102 |
| C107 | the nonuniformities neither overflow nor underflow | grid argument of C105 for the variances and their differences; the root of a number on a grid is not a number, zero, or of moderate size; the quotient by a number on a grid; then C96 and C106 |
| C108 | the results of more than two exposure times are accurate from the images on | perturbation of the best line by errors of the points (sum of squares), spread and lever give the error of slope and offset; then the core of C102 and C101; the limits of float64 by sizes of slopes and C106 |
| C109 | linearity and decibels neither overflow nor underflow | multiples of a power of two stay multiples, rounded quotients are multiples of a smaller one: bits of every term of the fit are counted; the determinant is zero or not small; a float is 1 or away from 1, so its logarithm is zero or not small; then C97 |
| C110 | a histogram plot of several tests shows all of them | induction over the tests, the limits are those of the last one; C73 for each; counterexample with all pixels in one bin |
| C111 | the brightest point of a photon variation gives the full scale | exact formula for the mean grey value with any number of wavelengths; Cauchy-Schwarz by induction over the wavelengths for the negation |

## Where the code does not do what a user expects

Proved with witnesses; the properties concerned are `partial` in MANIFEST.json and the theorem of what
does hold is named `..._partial`.

| id | finding | theorem |
|---|---|---|
| C23 | a forced saturation index 0 is ignored (truth value test) | `C23_forced_zero_ignored` |
| C42 | spectrogram frequencies are too small for every entry but the first | `C42_frequencies_too_small` |
| C58 | `Plotting1288` with several tests plots only the last one | `C58_only_last` |
| C61 | a computed NaN is printed as `nan`, an undefined name raises | `C61_computed_nan` |
| C68 | radiance limits, gain and black level arguments are overwritten or unused | `C68_limits_ignored`, `C68_gain_ignored` |
| C71 | the bright spectrogram is not in percent; the dark one divides by the number of bright images | `C71_prnu_not_percent`, `C71_dsnu_unequal` |
| C72 | the normal curve uses range / bins instead of the bin width | `C72_never_expected` |
| C74 | sums of series of different lengths are subtracted | `C74_prnu_unequal` |
| C75 | the array given to `Qe` is multiplied in place | `C75_argument_changed` |
| C76 | the Bayer filter is too small for odd sizes | `C76_odd` |
| C82 | files with the same base name overwrite each other, an existing `files` directory is used as it is, the dictionaries of the caller are modified | `C82_same_name`, `C82_stale_files`, `C82_trailing_slash`, `C82_upload_file`, `C82_reuse_fails` |
| C93 | the vendor never reaches the head of the pages, the cover page of the marketing information is never read, a missing wavelength is no dash | `C93_vendor_not`, `C93_cover_not`, `C93_wavelength` |
| C98 | pixels far from the mean of a profile lie outside of the axes of the profile plots | `C98_hidden` |
| C99 | where two variances are equal, or a signal is exactly at 70 % of saturation, an arbitrarily small change of the data moves an index | `C99_jump`, `C99_limit` |
| C104 | the accumulated histograms are labelled with numbers of pixels but show percentages, the bright one has grey values on an axis in percent; the dark histogram is labelled with dark values but shows deviations from the mean; the bright spectrogram in percent follows the gain | `C104_accumulated_not_number`, `C104_accumulated_not_percent`, `C104_not_dark_value`, `C104_spectrogram_not_percent` |
| C110 | in a histogram plot of several tests the limits of the axis are those of the last test, tall bins of the others are outside | `C110_hidden`, `C110_dsnu_inside`, `C110_prnu_inside` |
| C111 | with several wavelengths the brightest point of a photon variation is above the full scale | `C111_overexposed`, `C111_brightest` |

Within proved properties: masked pixels are counted by the histogram (`C36_masked_counterexample`), empty
arrays cannot be read back (`C43_empty_array`), `None` and NaN never compare as equal
(`C44_none_fails`, `C78_no_area`), numpy ≥ 1.24 breaks `compare_xml` (`C44_new_numpy_counterexample`),
one-element arrays are broadcast (`C44_broadcast_counterexample`), `array_tile` confuses rows and
wavelengths (`C53_array_tile_rows_counterexample`), a dictionary added twice to a report is shared
(`C57_alias`), `sigma_y_dark` has an absolute threshold (`C64_sigma_y_dark_does_not_scale`), a given number of pixels other than
height × width makes the temporal variance depend on the drift (`C06_given_pixels_counterexample`), png files of cameras with more than 16 bits are
clipped at 65535 (`C85_clipped`), the quantisation noise of the simulated camera is 1/6 DN² on average, not the 1/12 of
`Results1288` (`C86_quantisation_average`), the printed lines of `s_2_y` and `s_2_y_dark` have the same label
(`C87_same_label`), `compare_xml` reports nothing for an unreadable file (`C88_unreadable`).

## Tests against wrong programs

`tools/mutate.py` edits definitions of the model in a scratch copy and rebuilds; every attempt is a line of
`seeded/LOG.jsonl`. An edit that no theorem notices leads to a stronger theorem (`theorems_tightened`) or
is recorded as equivalent.
