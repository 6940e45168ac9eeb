{"id": "C01", "title": "Pseudo-variance is the sample variance", "statement": "For any stack of L >= 2 equally shaped images, get_int_imgs returns L, the per-pixel sum, and a pvar image such that pvar/(L^2*(L-1)) is exactly the unbiased sample variance of that pixel over the stack, as the docstring promises.", "quantifier": "every number of images L >= 2, every shape, every integer pixel content", "why_tests_cant": "A test fixes one stack; the identity must hold for every stack length and content.", "anchors": ["src/emva1288/process/routines.py:get_int_imgs", "src/emva1288/process/data.py:Data1288._get_spatial_data"]}
{"id": "C02", "title": "Pseudo-variance is never negative and detects constant pixels", "statement": "pvar is >= 0 at every pixel, and is 0 at a pixel exactly when that pixel has the same value in all images of the stack.", "quantifier": "every stack of images and every pixel", "why_tests_cant": "Sign and equality cases over all integer stacks cannot be sampled.", "anchors": ["src/emva1288/process/routines.py:get_int_imgs"]}
{"id": "C03", "title": "Stack order does not matter; dmean telescopes", "statement": "Reordering the images of a stack changes neither sum nor pvar; dmean depends only on the first and last image (mean(last) - mean(first)), so for a two-image series swapping the images flips only the sign of dmean.", "quantifier": "every permutation of every stack", "why_tests_cant": "Factorially many orders.", "anchors": ["src/emva1288/process/routines.py:get_int_imgs"]}
{"id": "C04", "title": "64-bit integer reduction is exact inside a stated envelope", "statement": "With int64 arithmetic wrapping modulo 2^64 at every operation, the sum and pvar images (and their totals over the image) equal the exact integers whenever pixels are b-bit and L^3*(2^b-1)^2 < 2^65 (for totals: also times the pixel count); outside the envelope the wrapped result can be wrong.", "quantifier": "every bit depth, stack length, shape and pixel content within the envelope", "why_tests_cant": "Overflow depends on all values jointly; tests use tiny stacks.", "anchors": ["src/emva1288/process/routines.py:get_int_imgs", "src/emva1288/process/loader.py:LoadImageData._get_imgs_data"]}
{"id": "C05", "title": "Temporal mean and variance follow the EMVA two-image formulas", "statement": "For a two-image series the reported mean is the mean grey value over both images and the reported temporal variance is half the population variance of the pixel-wise difference image; in particular it is never negative.", "quantifier": "every pair of equally shaped images", "why_tests_cant": "Must hold for all pixel contents; a sign error only shows on particular data.", "anchors": ["src/emva1288/process/routines.py:get_int_imgs", "src/emva1288/process/loader.py:LoadImageData._get_imgs_data", "src/emva1288/process/data.py:Data1288._get_temporal_data", "src/emva1288/process/data.py:Data1288._get_temporal"]}
{"id": "C06", "title": "Temporal variance ignores illumination drift and image order", "statement": "Adding a constant to every pixel of one image of a pair (or different constants to both), or exchanging the two images, does not change the reported temporal variance; exchanging does not change the mean either.", "quantifier": "every image pair and every pair of constants", "why_tests_cant": "Metamorphic law over all inputs.", "anchors": ["src/emva1288/process/data.py:Data1288._get_temporal_data", "src/emva1288/process/routines.py:get_int_imgs"]}
{"id": "C07", "title": "Descriptor parsing is sound and complete for the documented grammar", "statement": "Parsing a descriptor succeeds exactly when its non-comment lines form a sequence of statements v/n/b+images/d+images (unknown commands ignored), and then the resulting dictionary contains exactly the described series: every image line following a b/d header, in order, none lost, none duplicated, none attributed to another header.", "quantifier": "every text file", "why_tests_cant": "Infinitely many files; tests parse generated files only.", "anchors": ["src/emva1288/process/parser.py:ParseEmvaDescriptorFile._fill_info", "src/emva1288/process/parser.py:ParseEmvaDescriptorFile._get_images_filenames"]}
{"id": "C08", "title": "No series is ever overwritten", "statement": "If two series of the same kind share exposure and photon count the parser raises SyntaxError; in every accepted file each (kind, exposure, photons) key holds the images of exactly one series.", "quantifier": "every descriptor text", "why_tests_cant": "Requires reasoning about all histories of insertions.", "anchors": ["src/emva1288/process/parser.py:ParseEmvaDescriptorFile._add_pcount"]}
{"id": "C09", "title": "Kind partition by image count", "statement": "In every accepted descriptor each temporal entry has exactly 2 image paths and each spatial entry at least 3; series with fewer than 2 images are rejected.", "quantifier": "every descriptor text", "why_tests_cant": "Invariant over every parse history.", "anchors": ["src/emva1288/process/parser.py:ParseEmvaDescriptorFile._get_kind", "src/emva1288/process/parser.py:ParseEmvaDescriptorFile._get_images_filenames"]}
{"id": "C10", "title": "Comments, blank lines, indentation and line endings are irrelevant", "statement": "Inserting or deleting comment lines (first non-blank character #) and blank lines anywhere, re-indenting lines, changing the white space between tokens, or using \\r\\n instead of \\n never changes the parse result.", "quantifier": "every descriptor text and every insertion point", "why_tests_cant": "Unbounded number of placements, including inside image lists.", "anchors": ["src/emva1288/process/parser.py:ParseEmvaDescriptorFile._load_file", "src/emva1288/process/parser.py:ParseEmvaDescriptorFile._split_line"]}
{"id": "C11", "title": "Decimal comma equals decimal point", "statement": "Replacing the decimal point of an exposure or photon count by a comma yields the same parsed dictionary.", "quantifier": "every decimal number and descriptor", "why_tests_cant": "Number syntax is infinite.", "anchors": ["src/emva1288/process/parser.py:ParseEmvaDescriptorFile._fill_info"]}
{"id": "C12", "title": "Malformed statements are rejected, never half-applied silently", "statement": "A file is rejected with an error if any processed line has fewer than two tokens, a b/d/n line or an image line has the wrong number of tokens, a second n line occurs, or a series has fewer than two images; a dark series is stored under photon count 0.0.", "quantifier": "every descriptor text", "why_tests_cant": "All malformed texts cannot be enumerated.", "anchors": ["src/emva1288/process/parser.py:ParseEmvaDescriptorFile._fill_info", "src/emva1288/process/parser.py:ParseEmvaDescriptorFile._split_line"]}
{"id": "C13", "title": "Generated descriptor round-trips through the parser", "statement": "For every dataset produced by the dataset generator (L >= 3 spatial images, distinct non-zero rounded photon counts per exposure) parsing the descriptor succeeds and yields exactly the generated operation points: version, format, and for every kind/exposure the photon counts (rounded to 3 decimals) with the right number of images. L <= 2 does not round-trip.", "quantifier": "every list of operation points, every L, every image format", "why_tests_cant": "Encoder/decoder inverse over all datasets.", "anchors": ["src/emva1288/camera/dataset_generator.py:DatasetGenerator.run_test", "src/emva1288/camera/dataset_generator.py:DatasetGenerator._get_descriptor_line", "src/emva1288/process/parser.py:ParseEmvaDescriptorFile"]}
{"id": "C14", "title": "Every generated image file is named once and is the file the parser points to", "statement": "Image names written by the generator are pairwise distinct, consecutively numbered from 0, and the parser-resolved paths are exactly the paths where the images were saved, in the same order.", "quantifier": "every dataset size and output directory", "why_tests_cant": "Counter correctness over unbounded runs.", "anchors": ["src/emva1288/camera/dataset_generator.py:DatasetGenerator.run_test", "src/emva1288/camera/dataset_generator.py:DatasetGenerator.save_image", "src/emva1288/process/parser.py:ParseEmvaDescriptorFile._get_images_filenames"]}
{"id": "C15", "title": "Loader acceptance and key preservation", "statement": "Loading succeeds exactly when both kinds together name at least one image, every exposure has a 0.0 photon entry and at least one other, every file exists, and all images share one (2-D) shape; the loaded dictionary then has the same kinds, exposures and photon counts, and height/width are the common shape.", "quantifier": "every images dictionary and file system content", "why_tests_cant": "All combinations of missing entries/files.", "anchors": ["src/emva1288/process/loader.py:LoadImageData._load_data", "src/emva1288/process/loader.py:LoadImageData._load_imgs"]}
{"id": "C16", "title": "Loader result is independent of set iteration order", "statement": "Exposures are visited through a Python set; whatever order the set is iterated in, the same lookups succeed with the same data, and the loader fails in one order iff it fails in every order.", "quantifier": "every permutation of exposures", "why_tests_cant": "Hash order is not controllable in a test.", "anchors": ["src/emva1288/process/loader.py:LoadImageData._load_data"]}
{"id": "C17", "title": "Temporal arrays are sorted and aligned", "statement": "Data1288 lists bright points ordered by exposure and then photon count, with u_p, u_y and s2_y at one index belonging to the same series; with non-negative photon counts no dark series appears among the bright points and every bright series appears exactly once. (Negative photon counts break this.)", "quantifier": "every loaded dictionary", "why_tests_cant": "Permutation/alignment for every dictionary.", "anchors": ["src/emva1288/process/data.py:Data1288._get_temporal"]}
{"id": "C18", "title": "Temporal array lengths agree for one-exposure or one-bright-per-exposure data", "statement": "With a single exposure, or when every exposure has exactly one bright point, texp, u_p, u_y, s2_y, u_ydark, s2_ydark have equal lengths and index i of the dark arrays is the dark series of the exposure of bright point i; for mixed datasets lengths differ.", "quantifier": "every loaded dictionary", "why_tests_cant": "All numbers of exposures/points.", "anchors": ["src/emva1288/process/data.py:Data1288._get_temporal"]}
{"id": "C19", "title": "Spatial data validation", "statement": "Data1288 accepts spatial data exactly when there is one exposure with exactly two photon counts, one of them 0.0 (the temporal part being valid); otherwise ValueError.", "quantifier": "every loaded dictionary", "why_tests_cant": "All malformed dictionaries.", "anchors": ["src/emva1288/process/data.py:Data1288._get_spatial"]}
{"id": "C20", "title": "Spatial statistics follow EMVA equations", "statement": "avg_mean is the mean grey value over all pixels and images, var_mean the mean over pixels of the temporal sample variance, avg_var the (MN-1)-normalised spatial variance of the averaged image, and avg_var_cav/avg_var_rav the column/row-average variances corrected by the temporal residue.", "quantifier": "every image stack with L >= 2 and shape M x N", "why_tests_cant": "Closed forms over all stacks.", "anchors": ["src/emva1288/process/data.py:Data1288._get_spatial_data"]}
{"id": "C21", "title": "Row + column + pixel variance equals the total spatial variance", "statement": "s_2_y_row + s_2_y_col + s_2_y_pixel = s_2_y (dark likewise), and s_2_y_cav = s_2_y_col + s_2_y_pixel/M, s_2_y_rav = s_2_y_row + s_2_y_pixel/N; this triple is the only solution. Raises ZeroDivisionError exactly when M*N = M+N.", "quantifier": "every spatial dictionary and image shape", "why_tests_cant": "Algebraic identity over all values.", "anchors": ["src/emva1288/process/results.py:Results1288.s_2_y_col", "src/emva1288/process/results.py:Results1288.s_2_y_row", "src/emva1288/process/results.py:Results1288.s_2_y_pixel"]}
{"id": "C22", "title": "Saturation index is a valid local peak of the photon transfer curve", "statement": "For every non-empty non-negative variance curve the saturation index is in range and is either 0 or a point strictly above both of its two predecessors; for a curve strictly rising to a single peak and not rising afterwards it is that peak. (A peak at index 1 is reported as 0.)", "quantifier": "every variance curve", "why_tests_cant": "Backward scan over arbitrary curves.", "anchors": ["src/emva1288/process/results.py:Results1288.index_u_ysat"]}
{"id": "C23", "title": "A forced saturation index is honoured", "statement": "If the user passes index_u_ysat to Results1288, that index is the reported saturation index.", "quantifier": "every index and dataset", "why_tests_cant": "Includes the falsy index 0, which the code ignores.", "anchors": ["src/emva1288/process/results.py:Results1288.index_u_ysat"]}
{"id": "C24", "title": "Reading results has no observable side effect", "statement": "For any sequence of reads of the result attributes, every attribute has the same value as when read first on a fresh object (the only mutable state is the cached saturation index).", "quantifier": "every sequence of attribute reads", "why_tests_cant": "Histories of reads are unbounded.", "anchors": ["src/emva1288/process/results.py:Results1288"]}
{"id": "C25", "title": "Sensitivity fit range", "statement": "index_sensitivity_max is the last index whose dark-corrected signal is <= 70% of the saturation signal; if no such index exists an error is raised; for non-decreasing signal the fit range is exactly the set of points <= 70%.", "quantifier": "every temporal dictionary and saturation index", "why_tests_cant": "Every curve.", "anchors": ["src/emva1288/process/results.py:Results1288.index_sensitivity_max"]}
{"id": "C26", "title": "Linearity fit range", "statement": "index_linearity_min/max are the first index with signal >= 5% and the last index with signal <= 95% of the saturation signal; for positive saturation signal index_linearity_min <= index_u_ysat.", "quantifier": "every temporal dictionary", "why_tests_cant": "Every curve.", "anchors": ["src/emva1288/process/results.py:Results1288.index_linearity_min", "src/emva1288/process/results.py:Results1288.index_linearity_max"]}
{"id": "C27", "title": "Zero-offset fit is the unique least-squares slope", "statement": "LinearB0 returns the slope minimising the squared error whenever some x is non-zero: sum(xy)/sum(x^2); it recovers m exactly from y = m*x, and scales/adds linearly with y.", "quantifier": "every data set with a non-zero x", "why_tests_cant": "Optimality over all slopes and data.", "anchors": ["src/emva1288/process/routines.py:LinearB0"]}
{"id": "C28", "title": "Linear fit is the unique least-squares line", "statement": "LinearB returns slope/offset minimising the squared error whenever two x differ; recovers (m,b) exactly from y = m*x+b; adding a constant to y changes only the offset.", "quantifier": "every data set with two distinct x", "why_tests_cant": "Optimality over all lines and data.", "anchors": ["src/emva1288/process/routines.py:LinearB"]}
{"id": "C29", "title": "System gain, responsivity and quantum efficiency are recovered from ideal data", "statement": "If in the fit range u_y-u_y.dark = K*eta*u_p and s2_y-s2_y.dark = K*(u_y-u_y.dark) (with K > 0 and a positive signal point in the range) then results report exactly K, R = K*eta and QE = 100*eta %.", "quantifier": "every ideal data set", "why_tests_cant": "Exact recovery for all parameters.", "anchors": ["src/emva1288/process/results.py:Results1288.K", "src/emva1288/process/results.py:Results1288.R", "src/emva1288/process/results.py:Results1288.QE"]}
{"id": "C30", "title": "Derived sensitivity figures are mutually consistent", "statement": "For K, R > 0: u_e_min = sigma_y_dark/K + 1/2, u_e_min = QE/100*u_p_min, u_e_sat = QE/100*u_p_sat, DR = u_p_sat/u_p_min = u_e_sat/u_e_min, SNR_max^2 = u_e_sat, inverse figures are inverses; dB/bit versions agree (SNR_max_dB = 10 log10 u_e_sat).", "quantifier": "every dataset with positive K and R", "why_tests_cant": "Identities over all values.", "anchors": ["src/emva1288/process/results.py:Results1288.u_p_min", "src/emva1288/process/results.py:Results1288.u_e_min", "src/emva1288/process/results.py:Results1288.DR", "src/emva1288/process/results.py:Results1288.SNR_max"]}
{"id": "C31", "title": "Temporal dark noise has the standard lower limit", "statement": "sigma_y_dark^2 >= 0.24 always (finite data), equality exactly when the measured/fitted dark variance is <= 0.24, hence sigma_d is real and positive for K > 0 and u_e_min > 1/2.", "quantifier": "every dataset", "why_tests_cant": "All fits/data.", "anchors": ["src/emva1288/process/results.py:Results1288.sigma_y_dark", "src/emva1288/process/results.py:Results1288.sigma_d"]}
{"id": "C32", "title": "Area-normalised figures exist exactly when a pixel area is given", "statement": "u_p_min_area, u_e_min_area, u_p_sat_area, u_e_sat_area are None iff pixel_area is None or 0, and otherwise equal the plain figure divided by the pixel area.", "quantifier": "every dataset and pixel area", "why_tests_cant": "All values.", "anchors": ["src/emva1288/process/results.py:Results1288.u_p_min_area"]}
{"id": "C33", "title": "Dark current: NaN rules and exact recovery", "statement": "u_I_mean(_DN) and u_I_var(_DN) are NaN when there are at most two distinct exposure times; u_I_var is NaN when the fitted slope is negative; for dark data exactly affine in exposure time the reported current is the slope times 1e9 (divided by K as documented).", "quantifier": "every dataset", "why_tests_cant": "All exposures/dark data.", "anchors": ["src/emva1288/process/results.py:Results1288.u_I_mean_DN", "src/emva1288/process/results.py:Results1288.u_I_var_DN", "src/emva1288/process/results.py:Results1288.u_I_var", "src/emva1288/process/results.py:Results1288.u_I_mean"]}
{"id": "C34", "title": "Non-uniformities: NaN rule and quadratic decomposition", "statement": "Each DSNU1288* is NaN iff its dark variance is negative (never an error or imaginary); when all are real, DSNU1288^2 = row^2 + col^2 + pixel^2 and PRNU1288^2 = row^2 + col^2 + pixel^2; DSNU1288_DN = DSNU1288*K.", "quantifier": "every spatial dictionary with K != 0", "why_tests_cant": "All values.", "anchors": ["src/emva1288/process/results.py:Results1288.DSNU1288", "src/emva1288/process/results.py:Results1288.PRNU1288"]}
{"id": "C35", "title": "Linearity fit is the relative least-squares line", "statement": "linearity() returns the unique line minimising the sum of squared relative deviations ((y-(ax+b))/y)^2 over the fit range; exactly linear data gives that line and LE_min = LE_max = 0; if the fit is positive on the range LE_min <= 0 <= LE_max.", "quantifier": "every dataset with non-zero signal and two distinct photon counts in range", "why_tests_cant": "Optimality over all lines.", "anchors": ["src/emva1288/process/results.py:Results1288.linearity"]}
{"id": "C36", "title": "Histogram conserves pixels and matches the reference algorithm", "statement": "For every non-empty integer image and Qmax >= 1, Histogram1288 uses at most Qmax bins of one positive integer width starting at the minimum, every pixel falls in exactly the bin floor((y-min)/W), and the counts sum to the number of pixels (the commented reference loop and the numpy version agree).", "quantifier": "every integer image, every Qmax", "why_tests_cant": "All images; boundary of last closed bin.", "anchors": ["src/emva1288/process/routines.py:Histogram1288"]}
{"id": "C37", "title": "Accumulated histograms are survival percentages", "statement": "histogram_DSNU_accumulated / histogram_PRNU_accumulated values start at 100, never increase, and value k is 100 * (fraction of pixels whose absolute deviation from the truncated mean is at least the lower edge of bin k).", "quantifier": "every spatial image", "why_tests_cant": "All images.", "anchors": ["src/emva1288/process/results.py:Results1288.histogram_DSNU_accumulated", "src/emva1288/process/results.py:Results1288.histogram_PRNU_accumulated"]}
{"id": "C38", "title": "High-pass filter removes smooth content exactly", "statement": "For an unmasked integer image and odd dim >= 3, output/multiplicator = pixel minus mean of its dim x dim window, of size (M-dim+1) x (N-dim+1); it is linear, independent of boundary handling, unaffected by adding any plane a+b*i+c*j; even dim raises ValueError; dim = 1 yields an empty image.", "quantifier": "every image and every odd kernel size", "why_tests_cant": "All images/sizes.", "anchors": ["src/emva1288/process/routines.py:high_pass_filter"]}
{"id": "C39", "title": "Masked high-pass filter", "statement": "For a masked image accepted by the filter, at every unmasked interior pixel output/multiplicator = pixel minus mean of the unmasked window pixels, independent of the masked values; masks with varying counts raise ValueError; the 2x2 Bayer green mask is accepted for dim 5.", "quantifier": "every masked image", "why_tests_cant": "All masks and values.", "anchors": ["src/emva1288/process/routines.py:high_pass_filter"]}
{"id": "C40", "title": "Row-wise compression keeps exactly the unmasked data", "statement": "Compression of a masked image returns, in order, for each row with unmasked pixels its first c unmasked values where c is the minimum count over those rows; in-place overwriting never corrupts rows still to be read; the input is not modified.", "quantifier": "every masked image", "why_tests_cant": "Aliasing bugs depend on mask layout.", "anchors": ["src/emva1288/process/routines.py:_row_wise_compress"]}
{"id": "C41", "title": "Spectrum: half-length, symmetric, energy preserving", "statement": "FFT1288 returns cols//2+1 non-negative values; the discarded half is the mirror image of the returned one; over the full spectrum the sum equals the per-row energy of the mean-free image averaged over rows and divided by n^2; adding a constant to the image changes nothing.", "quantifier": "every real image", "why_tests_cant": "All images/sizes.", "anchors": ["src/emva1288/process/routines.py:FFT1288"]}
{"id": "C42", "title": "Frequency axis", "statement": "GetFrecs assigns to entry i of the spectrum of a cols-wide image the frequency i/cols (Nyquist = 0.5 for even cols).", "quantifier": "every spectrum length", "why_tests_cant": "The implemented axis is i/(2n), n = cols//2+1, which differs for every even length.", "anchors": ["src/emva1288/process/routines.py:GetFrecs", "src/emva1288/process/routines.py:FFT1288"]}
{"id": "C43", "title": "XML results round-trip", "statement": "Writing a results dictionary (sections/attributes/info, values finite numbers, None, or arrays of numbers) to an XML file and reading it back yields the same dictionary with lower-cased keys; numbers and arrays are recovered exactly; keys differing only by case collide.", "quantifier": "every results dictionary", "why_tests_cant": "All nested dictionaries.", "anchors": ["src/emva1288/process/routines.py:dict_to_xml", "src/emva1288/process/routines.py:xml_to_dict"]}
{"id": "C44", "title": "XML comparison verdicts", "statement": "compare_xml of two files marks an entry OK only if it is present on both sides with equal rounded values or non-empty arrays under equal keys that are equal after rounding and numpy broadcasting (a one-element array equals a constant array); comparing is symmetric in its verdicts; comparing a file with itself marks every finite non-None value OK (with a numpy that still has np.int; with numpy >= 1.24 only zeros are OK); an unreadable input yields the empty string.", "quantifier": "every pair of result files", "why_tests_cant": "All pairs.", "anchors": ["src/emva1288/process/routines.py:compare_xml"]}
{"id": "C45", "title": "Significant-digit rounding", "statement": "round_significant(v) has the sign of v, relative error at most 0.5*10^(1-sig), is idempotent, and is 0 only for 0, with a numpy that still has np.int; with numpy >= 1.24 every non-zero argument raises AttributeError.", "quantifier": "every number and every sig >= 1", "why_tests_cant": "All magnitudes, including roll-over to the next power of ten.", "anchors": ["src/emva1288/process/routines.py:round_significant"]}
{"id": "C46", "title": "Grouping by section loses nothing", "statement": "results_by_section contains every result exactly once, under its own section, in the original order inside a section; the sections are sorted and non-empty.", "quantifier": "every results dictionary", "why_tests_cant": "All dictionaries.", "anchors": ["src/emva1288/process/routines.py:_sections_first"]}
{"id": "C47", "title": "Documentation tags extraction", "statement": "An attribute appears in the results exactly when its docstring has a non-empty emva1288 block; each well-formed :Tag: value line gives key lower(tag) with the full value (later colons kept); section defaults to other.", "quantifier": "every docstring", "why_tests_cant": "All docstrings.", "anchors": ["src/emva1288/process/routines.py:cls_1288_info"]}
{"id": "C48", "title": "Gain and black offset snap to the nearest available value", "statement": "After setting K or blackoffset to any value the camera reports an available value with minimal distance (the first on ties); setting an available value is exact; setting twice equals setting once.", "quantifier": "every value and setting grid", "why_tests_cant": "All values.", "anchors": ["src/emva1288/camera/routines.py:nearest_value", "src/emva1288/camera/camera.py:Camera.K", "src/emva1288/camera/camera.py:Camera.blackoffset"]}
{"id": "C49", "title": "Grabbed images are valid for the bit depth", "statement": "For every outcome of the random generator, every pixel of a grabbed image is an integer in [0, 2^bit_depth-1], the cast to the image type never wraps, and with fixed noise a pixel never decreases when its number of electrons or the gain increases.", "quantifier": "every random outcome, radiance, camera setting", "why_tests_cant": "Random outcomes can only be sampled.", "anchors": ["src/emva1288/camera/camera.py:Camera.grab", "src/emva1288/camera/camera.py:Camera.__init__"]}
{"id": "C50", "title": "Photon count and radiance conversions are inverse", "statement": "get_photons(get_radiance(p)) = p and get_radiance(get_photons(r)) = r for positive exposure, area and wavelength, element-wise; photons are linear in radiance and exposure.", "quantifier": "every positive parameter set", "why_tests_cant": "All parameter values.", "anchors": ["src/emva1288/camera/routines.py:get_photons", "src/emva1288/camera/routines.py:get_radiance"]}
{"id": "C51", "title": "Radiance for a target grey value", "statement": "With per-pixel quantum efficiencies of mean q > 0 and prnu 1, get_radiance_for(mean) at the camera exposure is a radiance whose mean light-induced plus thermal electrons times K equals the requested mean; a given exposure other than the camera exposure is not compensated for dark current; mean=0 means full scale; a target below the dark signal gives a negative radiance that grab rejects.", "quantifier": "every camera and target", "why_tests_cant": "All settings.", "anchors": ["src/emva1288/camera/camera.py:Camera.get_radiance_for", "src/emva1288/camera/camera.py:Camera._u_e", "src/emva1288/camera/camera.py:Camera._u_therm"]}
{"id": "C52", "title": "Dark current doubles every doubling temperature", "statement": "The simulated thermal signal equals dark_current_ref at temperature_ref, doubles when temperature rises by temperature_doubling, is proportional to exposure, and increases with temperature.", "quantifier": "every temperature and camera setting", "why_tests_cant": "Continuous domain.", "anchors": ["src/emva1288/camera/camera.py:Camera._u_i", "src/emva1288/camera/camera.py:Camera._u_therm"]}
{"id": "C53", "title": "Tiling has the requested shape and period", "statement": "get_tile returns a height x width array (1-D when height is 1) with entry (i,j) = pattern(i mod h, j mod w); array_tile of a 3-D pattern is periodic and has the requested shape iff the size is a multiple of the pattern size, otherwise it is smaller; a spectrum is repeated for every pixel; for a 2-D array the number of columns depends on the number of wavelengths.", "quantifier": "every pattern and size", "why_tests_cant": "All sizes.", "anchors": ["src/emva1288/camera/routines.py:get_tile", "src/emva1288/camera/routines.py:array_tile"]}
{"id": "C54", "title": "Bad pixel injection", "statement": "bad_pixel changes only valid positions, sets each chosen pixel to bad_value*full well, leaves the others unchanged and changes at most num_bad_pixel pixels (possibly fewer, positions are drawn with repetition).", "quantifier": "every random draw, camera size", "why_tests_cant": "Random draws.", "anchors": ["src/emva1288/camera/bad_images.py:bad_pixel"]}
{"id": "C55", "title": "Gain and black-offset searches leave the camera unchanged", "statement": "For every random outcome the searches return an available setting - the first whose test succeeds, else the last - and restore the setting the camera had.", "quantifier": "every random outcome and grid", "why_tests_cant": "Random outcomes.", "anchors": ["src/emva1288/camera/dataset_generator.py:_get_emva_gain", "src/emva1288/camera/dataset_generator.py:_get_emva_blackoffset"]}
{"id": "C56", "title": "Operation points", "statement": "For steps >= 1 the points dictionary has exactly one spatial exposure, which is also a temporal exposure; every temporal exposure has a bright and a dark radiance; exposures leave [exposure_min, exposure_max] by at most 0.05 ns, and not at all when the limits have at most one decimal; there are as many exposures as steps when they are more than 0.1 ns apart; in photon mode there are steps bright radiances plus one dark; in exposure mode the bright radiance reaches the full scale at the longest exposure.", "quantifier": "every step count and range", "why_tests_cant": "All sizes.", "anchors": ["src/emva1288/camera/points_generator.py:PointsGenerator._get_points", "src/emva1288/camera/points_generator.py:PointsGenerator._is_point_spatial"]}
{"id": "C57", "title": "Report operation points are uniquely numbered", "statement": "Adding operation points one after another gives ids OP1, OP2, ... in order, with plot paths under the own id and name defaulting to the id; adding the same dictionary object twice makes both entries alias the last id.", "quantifier": "every sequence of add calls", "why_tests_cant": "Histories of adds, aliasing.", "anchors": ["src/emva1288/report/report.py:Report1288.add"]}
{"id": "C58", "title": "All tests given to the plotter are plotted", "statement": "Plotting1288(t1,...,tn) plots every test it was given.", "quantifier": "every list of tests", "why_tests_cant": "The code keeps only the last test.", "anchors": ["src/emva1288/process/plotting.py:Plotting1288.__init__"]}
{"id": "C59", "title": "SNR curves and sensitivity threshold", "statement": "For QE in (0,100], K > 0: total SNR <= theoretical SNR <= ideal SNR at every photon count, theoretical SNR increases with photons, and at u_p_min the theoretical SNR lies in [sqrt(1/2), 1).", "quantifier": "every parameter set and photon count", "why_tests_cant": "Continuous domain.", "anchors": ["src/emva1288/process/plotting.py:PlotSNR.plot", "src/emva1288/process/results.py:Results1288.u_p_min"]}
{"id": "C60", "title": "Image profiles", "statement": "For every image, at every plotted index min <= mean <= max and min <= mid <= max; with masked images the returned x positions are exactly the unmasked ones, in order; vertical profiles are horizontal profiles of the transposed image.", "quantifier": "every image", "why_tests_cant": "All images/masks.", "anchors": ["src/emva1288/process/plotting.py:ProfileBase._get_image_profiles", "src/emva1288/process/plotting.py:ProfileBase._get_x_y"]}
{"id": "C61", "title": "Missing values in reports", "statement": "The report filters print - for None and NaN and the formatted number for everything else.", "quantifier": "every value", "why_tests_cant": "NaN objects other than the np.nan singleton are not recognised.", "anchors": ["src/emva1288/report/report.py:Report1288.template_renderer"]}
{"id": "C62", "title": "Offset invariance of the whole evaluation", "statement": "Adding one constant to every pixel of every image of a dataset changes no temporal variance, no dark-corrected signal, no spatial variance and no high-pass image; hence K, R, QE, DSNU, PRNU are unchanged.", "quantifier": "every dataset and constant", "why_tests_cant": "Metamorphic law across the pipeline.", "anchors": ["src/emva1288/process/data.py:Data1288", "src/emva1288/process/results.py:Results1288"]}
{"id": "C63", "title": "End to end: a generated dataset is always processable up to Data1288", "statement": "For every dataset the generator can produce (L >= 3, distinct non-zero photon counts) the chain parser, loader, Data1288 raises no error, and temporal arrays have one entry per bright operation point.", "quantifier": "every dataset and random outcome", "why_tests_cant": "Composition over all datasets.", "anchors": ["src/emva1288/camera/dataset_generator.py:DatasetGenerator", "src/emva1288/process/parser.py", "src/emva1288/process/loader.py", "src/emva1288/process/data.py"]}
{"id": "C64", "title": "Gain scaling equivariance", "statement": "Multiplying every pixel of every image by an integer g > 0 multiplies the means by g, temporal and spatial variances by g^2, hence K and R by g while QE, DSNU1288 (in electrons) and PRNU1288 are unchanged.", "quantifier": "every dataset and factor", "why_tests_cant": "Metamorphic law across the pipeline.", "anchors": ["src/emva1288/process/data.py:Data1288", "src/emva1288/process/results.py:Results1288"]}
{"id": "C65", "title": "Image names resolve to paths independently of separator style", "statement": "A relative image name made of ordinary components resolves to those components below the image directory whether it is written with /, with \\\\, or with any mixture; doubled slashes, . components and a component followed by .. are ignored; an absolute name does not depend on the image directory.", "quantifier": "every directory, every list of components, every choice of separators", "why_tests_cant": "Unboundedly many names; descriptors written on Windows are read on Linux and the reverse.", "anchors": ["src/emva1288/process/parser.py:ParseEmvaDescriptorFile._get_images_filenames"]}
{"id": "C66", "title": "Responsivity and gain use exactly the points of the sensitivity range", "statement": "R is the least squares slope (through the origin) of u_y-u_y.dark over u_p, and K of s2_y-s2_y.dark over u_y-u_y.dark, over exactly the points 0..index_sensitivity_max, both ends included; points above the range have no influence.", "quantifier": "every finite temporal data with a non-zero abscissa in the range", "why_tests_cant": "All data; off-by-one errors of a slice change the value only slightly.", "anchors": ["src/emva1288/process/results.py:Results1288.R", "src/emva1288/process/results.py:Results1288.K"]}
{"id": "C67", "title": "Results dictionary of an object", "statement": "results contains exactly the attributes with an emva1288 block in their docstring, in alphabetical order; every entry keeps its documentation tags and holds the attribute value under data if it is a dictionary and under value otherwise; an error of an attribute is passed on; results_by_section of a computable object never fails and contains every result once.", "quantifier": "every class and every attribute values", "why_tests_cant": "All classes, docstrings and values.", "anchors": ["src/emva1288/process/routines.py:obj_to_dict", "src/emva1288/process/routines.py:cls_1288_info", "src/emva1288/process/results.py:Results1288.results", "src/emva1288/process/results.py:Results1288.results_by_section"]}
{"id": "C68", "title": "Radiance limits given for the operation points are used", "statement": "PointsGenerator(cam, exposure_fixed=e, radiance_min=a, radiance_max=b) varies the radiance from a to b.", "quantifier": "every camera and every limits", "why_tests_cant": "All radiance limits.", "anchors": ["src/emva1288/camera/points_generator.py:PointsGenerator.__init__", "src/emva1288/camera/points_generator.py:PointsGenerator._get_points"]}
{"id": "C69", "title": "The datasheet template finds everything it refers to", "statement": "Every op.results.<section>.<attribute>.<key> of the operation point template is found in results_by_section whenever the results can be computed, with the value of the attribute under value and a text under the other keys; every plot it shows is one that add makes; every number it shows can be rendered for every value the attribute can take.", "quantifier": "every results object, all attribute values", "why_tests_cant": "A misspelled or renamed attribute is silently rendered as nothing by the template engine; needs all values.", "anchors": ["src/emva1288/report/templates/op.tex", "src/emva1288/process/results.py:Results1288", "src/emva1288/report/report.py:Report1288.add", "src/emva1288/process/routines.py:cls_1288_info"]}
{"id": "C70", "title": "The plots draw the data and the reported fits", "statement": "With arrays of one length the sensitivity, photon transfer, linearity and deviation plots can be drawn exactly when R, K or linearity() can be computed; they show the dark-corrected data, exactly the reported line, and markers on the data points at the ends of the range of the fit (and at saturation). The dark plot shows points instead of a line exactly when there is one exposure time.", "quantifier": "every results object with temporal arrays of one length", "why_tests_cant": "All data; a wrong index or slope in a picture is not seen by a test that only checks that a figure is produced.", "anchors": ["src/emva1288/process/plotting.py:PlotSensitivity.plot", "src/emva1288/process/plotting.py:PlotPTC.plot", "src/emva1288/process/plotting.py:PlotLinearity.plot", "src/emva1288/process/plotting.py:PlotDeviationLinearity.plot", "src/emva1288/process/plotting.py:PlotUyDark.plot"]}
{"id": "C71", "title": "The spectrograms carry the spatial variance they are compared with", "statement": "The dark spectrogram plots (horizontal and vertical) draw, for every measurement with pixels, a non-negative curve over the frequencies 0 .. 1/2 whose root mean square over the full spectrum is the spatial standard deviation of the averaged dark image in DN, and the bright ones that of the difference image in percent of its mean, so that the curve can be compared with the markers DSNU1288 / PRNU1288 drawn into them.", "quantifier": "every measurement with images of any size, both directions", "why_tests_cant": "All images; needs Parseval's identity for every size.", "anchors": ["src/emva1288/process/plotting.py:PlotHorizontalSpectrogramPRNU", "src/emva1288/process/plotting.py:PlotHorizontalSpectrogramDSNU", "src/emva1288/process/plotting.py:PlotVerticalSpectrogramPRNU", "src/emva1288/process/plotting.py:PlotVerticalSpectrogramDSNU", "src/emva1288/process/routines.py:FFT1288", "src/emva1288/process/routines.py:GetFrecs"]}
{"id": "C72", "title": "The normal curve of a histogram is the expected number of pixels", "statement": "The model entry of Histogram1288 has one value per bin, and that value is the number of pixels a normal distribution with the mean and the standard deviation of the pixels puts into the bin (number of pixels times bin width times density at the bin edge).", "quantifier": "every non-empty image and every maximal number of bins", "why_tests_cant": "All images, including those whose range does not fill the last bin and those with one value only.", "anchors": ["src/emva1288/process/routines.py:Histogram1288"]}
{"id": "C73", "title": "The histogram plots show every pixel", "statement": "The plots of the DSNU and PRNU histograms can be drawn for every measurement with pixels; they show the counts over the deviation in DN and, over the same abscissas, a multiple of the normal curve of the drawn values; every bin with a pixel lies within the limits of the axis. The accumulated plots show exactly the accumulated histogram.", "quantifier": "every measurement with pixels (5 x 5 at least for the bright ones)", "why_tests_cant": "All images; a wrong limit hides the outliers the plot is made for.", "anchors": ["src/emva1288/process/plotting.py:PlotLogarithmicHistogramDSNU", "src/emva1288/process/plotting.py:PlotLogarithmicHistogramPRNU", "src/emva1288/process/plotting.py:PlotAccumulatedLogHistogramDSNU", "src/emva1288/process/plotting.py:PlotAccumulatedLogHistogramPRNU", "src/emva1288/process/results.py:Results1288.histogram_DSNU", "src/emva1288/process/results.py:Results1288.histogram_PRNU"]}
{"id": "C74", "title": "Histograms and profiles do not depend on the number of averaged images", "statement": "The DSNU histogram counts the deviations of the averaged dark image from its mean, the PRNU histogram the deviations of the averaged bright image minus the averaged dark image from its local 5 x 5 mean, and the profiles show the averaged difference, in DN, however many images the bright and the dark series have.", "quantifier": "every measurement, every number of images of the two series", "why_tests_cant": "Tests use series of equal length.", "anchors": ["src/emva1288/process/results.py:Results1288.histogram_PRNU", "src/emva1288/process/results.py:Results1288.histogram_DSNU", "src/emva1288/process/plotting.py:ProfileBase.plot"]}
{"id": "C75", "title": "Quantum efficiencies are probabilities of the right shape", "statement": "Qe() generates for every camera size and every wavelengths an array of that shape with values in [0, 1] (positive up to 900 nm, largest at 450 nm); an array of the right shape is used as given, every other shape is rejected; a filter multiplies every value, so a filter in [0, 1] keeps the values in [0, 1]; the array passed in is not changed.", "quantifier": "every size, list of wavelengths, array and filter", "why_tests_cant": "All wavelengths and shapes.", "anchors": ["src/emva1288/camera/routines.py:Qe"]}
{"id": "C76", "title": "The Bayer filter fits the camera", "statement": "get_bayer_filter gives for every size a filter of the size of the image whose pixel (i, j) has the transmissions of its place in the 2 x 2 pattern: in (0, 1], 1 at the wavelength of the colour, falling on both sides as a Poisson distribution does; it can be used as the filter of Qe.", "quantifier": "every size, colours and wavelengths", "why_tests_cant": "All sizes (odd ones too) and wavelengths.", "anchors": ["src/emva1288/camera/routines.py:get_bayer_filter", "src/emva1288/camera/routines.py:poisson", "src/emva1288/camera/routines.py:array_tile", "src/emva1288/camera/routines.py:Qe"]}
{"id": "C77", "title": "Exactly the measurements whose results can all be computed", "statement": "For data that fit together (arrays of one length, images of the given size, as Data1288 makes them) every result attribute can be computed exactly when the saturation index is in range, some signal is at most 70 % of the saturation signal, the linearity range is not empty and the images are at least 5 x 5; otherwise the attribute that cannot raises a ValueError. For the user: images of at least 5 x 5 and one signal between 5 % and 70 % of saturation are enough.", "quantifier": "every results object with data that fit together", "why_tests_cant": "All data; an attribute that raises for some data set stops the report and the xml.", "anchors": ["src/emva1288/process/results.py:Results1288", "src/emva1288/process/data.py:Data1288"]}
{"id": "C78", "title": "The xml file of an evaluation contains every result", "statement": "Results1288.xml (Emva1288.xml) writes a file exactly when the documented attributes can be computed; xml_to_dict of that file contains every documented attribute in its section under its lower-case name, with its value (a number, None or the arrays of a histogram) and the texts of its documentation, and nothing else. The files of any two evaluations can be compared: a number is OK exactly when the two values agree to the digits, a None never.", "quantifier": "every results object, every pair of results objects", "why_tests_cant": "All data and all attributes of the class with their documentation.", "anchors": ["src/emva1288/process/results.py:Results1288.xml", "src/emva1288/process/results.py:Results1288.results", "src/emva1288/process/results.py:Results1288.results_by_section", "src/emva1288/process/routines.py:obj_to_dict", "src/emva1288/process/routines.py:dict_to_xml", "src/emva1288/process/routines.py:xml_to_dict", "src/emva1288/process/routines.py:compare_xml"]}
{"id": "C79", "title": "A result depends only on the data it is computed from", "statement": "Two evaluations whose measurements agree in the data a result is computed from have the same result (or raise the same error): giving another pixel area changes only the per-area results, another number of images of one kind only the results of that kind; and the optional arguments given to an evaluation (pixel area, saturation index, number of pixels) are the ones its results are computed with.", "quantifier": "every pair of measurements and arguments, every result attribute", "why_tests_cant": "All pairs of data sets and all attributes; a test compares a few.", "anchors": ["src/emva1288/process/results.py:Results1288", "src/emva1288/process/data.py:Data1288", "src/emva1288/process/__init__.py:Emva1288"]}
{"id": "C80", "title": "The results do not depend on the units of the descriptor file", "statement": "If the photon counts, the exposure times and the pixel area of a measurement are given in other units (multiplied by a, b and c), the evaluation succeeds for the same data sets and every result is the original one in the new units: responsivity, quantum efficiency and the slope of the linearity fit are divided by a, threshold and saturation irradiation multiplied by a, the dark currents divided by b, the per-area results divided by c; all other results (gain, SNR, DR, DSNU, PRNU, linearity error, histograms ...) are unchanged.", "quantifier": "every set of images and descriptor, all positive factors, every result attribute, every order of reads", "why_tests_cant": "All data sets and factors; a test compares two descriptor files.", "anchors": ["src/emva1288/process/results.py:Results1288", "src/emva1288/process/data.py:Data1288", "src/emva1288/process/loader.py:LoadImageData", "src/emva1288/process/__init__.py:Emva1288"]}
{"id": "C81", "title": "The variances are estimates of the noise and of the pattern of the sensor", "statement": "For images of a fixed scene with random noise (grey values of different pixels or images uncorrelated, variance depending on the pixel, light level of the two temporal images different): the recorded mean is expected to be the mean of the scene; the recorded temporal variance is expected to be the mean noise variance times 1 - 1/(number of pixels), independent of the scene and of the drift; the reported spatial variance (noise of the averaged images subtracted) is expected to be exactly the sample variance of the scene; the errors of its column, row and pixel parts are exact multiples of the mean noise variance. With shot noise the expected photon transfer points lie on a line through the origin with slope K(1 - 1/(number of pixels)).", "quantifier": "every scene, image size and number of images, every probability space and distribution of the noise within the pixel range", "why_tests_cant": "A statement about expected values over all distributions; a test sees samples.", "anchors": ["src/emva1288/process/data.py:Data1288._get_temporal_data", "src/emva1288/process/data.py:Data1288._get_spatial_data", "src/emva1288/process/results.py:Results1288.s_2_y", "src/emva1288/process/routines.py:get_int_imgs"]}
{"id": "C82", "title": "A report shows the files that were given to it", "statement": "After a report is constructed, the entries for the logo, the icon of missing plots and the plot of the quantum efficiency are names that, in the output directory, are files with the contents of the files the user gave, or of the files of the package if none was given. The constructor removes nothing, and of what existed it changes only files in the directory upload that have the name of a given file. It succeeds whenever the given files exist and the output directory can be created.", "quantifier": "every file system, working directory, output directory (existing or not), every dictionary of marketing and basic information, every outcome of the constructor", "why_tests_cant": "The outcome depends on what is in the output directory, on relations between the names of three files and on the working directory; tests use an empty directory without files.", "anchors": ["src/emva1288/report/report.py:Report1288.__init__", "src/emva1288/report/report.py:Report1288._make_dirs", "src/emva1288/report/report.py:info_marketing", "src/emva1288/report/report.py:info_basic"]}
{"id": "C83", "title": "Accuracy of the temporal data in floating point arithmetic", "statement": "The mean that is computed for a pair of images is the exact mean of all their pixels, rounded once. The temporal variance differs from the exact one by at most 4uV + 3uD\u00b2 + 2u\u03bc|D| + 2u\u00b2\u03bc\u00b2, where u is the unit roundoff (2^-53 in float64), V half of the mean square difference of the images, D the difference and \u03bc the sum of their means. Identical images have the variance 0 exactly.", "quantifier": "every pair of images with non-negative pixels up to B whose sums stay below 2^53 (16 bit images up to 2^36 pixels), every rounding with relative error u up to 1/100, every order and grouping of the additions of np.mean", "why_tests_cant": "The error is a statement on all images and on every order in which a numpy build adds; a test compares with another floating point computation on a few images.", "anchors": ["src/emva1288/process/data.py:Data1288._get_temporal_data", "src/emva1288/process/data.py:Data1288._get_temporal", "src/emva1288/process/routines.py:get_int_imgs", "src/emva1288/process/loader.py:LoadImageData._get_imgs_data"]}
{"id": "C84", "title": "Accuracy of the spatial data in floating point arithmetic", "statement": "For a stack of images the mean, the mean variance, the variance of the averages and the row and column variances that are computed in floating point arithmetic differ from the exact statistics by at most: for the means a factor (1+u)^k, where k is the number of roundings a pixel takes part in; for a variance v the same factor, if an error of the size of the rounding of the largest pixel value is added to the standard deviation: (1+u)^k (\u221av + e)\u00b2 - v. In float64 with pairwise summation and images up to 2^40 pixels the means are exact to 2^-44 and e is at most 2^-43 of the largest pixel value.", "quantifier": "every stack of at least two images of at least two pixels whose integer statistics fit in int64 and 2^53, every rounding, every order and grouping of the additions", "why_tests_cant": "The errors depend on all pixels and on the order of the additions in numpy; a test cannot tell rounding from an error in the formula.", "anchors": ["src/emva1288/process/data.py:Data1288._get_spatial_data", "src/emva1288/process/routines.py:get_int_imgs"]}
{"id": "C85", "title": "The data evaluated from a generated dataset are those of the images that were grabbed", "statement": "Emva1288 of the descriptor that DatasetGenerator writes raises no error, and its temporal data are, for each bright point in the order of exposure time and photon count, the mean and temporal variance of exactly the two images the camera grabbed at that exposure time and radiance, next to those of the two dark images of the same exposure time; the spatial data are those of the L images grabbed at the two spatial points. No image is lost, overwritten or attributed to another point, and the files show the grabbed grey values. Exception: a png file of a camera with more than 16 bits shows no grey value above 65535.", "quantifier": "every configuration with png or tiff files and up to 31 bits, every list of temporal points with a dark and a bright point at each exposure and rounded keys that are distinct, every spatial point pair, every L of at least 3, every sequence of grabbed images of the size and bit depth of the camera", "why_tests_cant": "The chain runs through file names, a text file with rounded numbers, image files and three dictionaries; a test sees a few points with random images and compares the results within tolerances.", "anchors": ["src/emva1288/camera/dataset_generator.py:DatasetGenerator.run_test", "src/emva1288/camera/dataset_generator.py:DatasetGenerator.save_image", "src/emva1288/process/routines.py:load_image", "src/emva1288/process/loader.py:LoadImageData", "src/emva1288/process/data.py:Data1288"]}
{"id": "C86", "title": "The simulated camera obeys the linear camera model", "statement": "When the draws of Camera.grab follow the laws it asks for (Poisson for thermal and light electrons, normal for the electronics, uniform for the quantisation, all independent), a pixel with expected e0 electrons and variance ve has the expected grey value K*e0 + blackoffset and a variance between K^2*ve and K^2*ve + 1/4, up to an explicit effect of the two clippings that vanishes with the distance from the ends of the full well and of the grey values; the variance never exceeds K^2*ve + 1/4. Hence, for a pair of grabbed images, the mean and temporal variance that the evaluation records have the expected values of the model, and between two radiances the recorded variance grows by K times the growth of the recorded mean (the photon transfer from which K is estimated). A pixel without other noise keeps its expected value exactly and gets the quantisation variance f(1-f) of the fractional part f of its signal.", "quantifier": "every camera (any bit depth up to 64, gain, black offset, full well, DSNU image, size), every radiance and temperature giving means that are not negative, every probability space with such draws, every distance from the ends", "why_tests_cant": "The statement is about expected values over random draws; a test sees one sample, with an error that decreases slowly with the number of pixels, and cannot separate the effect of clipping and quantisation from it.", "anchors": ["src/emva1288/camera/camera.py:Camera.grab", "src/emva1288/camera/camera.py:Camera._u_therm", "src/emva1288/camera/camera.py:Camera._u_e", "src/emva1288/process/data.py:Data1288._get_temporal", "src/emva1288/process/routines.py:get_int_imgs"]}
{"id": "C87", "title": "Printout of the results", "statement": "`print_results` prints every documented attribute that is not a histogram exactly once, on a line of its own under the heading of its section, with description, symbol and str of its value in fixed columns; the sections and the attributes of a section are in alphabetical order. Two lines are equal only if description, symbol and value are, so a line tells its attribute - except for s_2_y and s_2_y_dark, whose docstrings have the same description and symbol. If an attribute cannot be computed its error is raised and nothing is printed. Printing does not change any attribute.", "quantifier": "for all evaluated data sets, all least squares solvers, all attributes, all formats of numbers", "why_tests_cant": "tests see the printout of a few data sets; that no attribute is lost, printed twice or put under a wrong heading, for all values including None and nan, is a statement about all results objects", "anchors": ["src/emva1288/process/results.py:Results1288.print_results", "src/emva1288/process/results.py:Results1288.results_by_section", "src/emva1288/process/routines.py:_sections_first", "src/emva1288/process/routines.py:cls_1288_info"]}
{"id": "C88", "title": "Text of the comparison of two result files", "statement": "The text that compare_xml returns for two readable files has for every category of either file, in increasing order, a heading and below it one line per attribute of either file with its name, what the two files have for it ('Array' if it is compared by its data) and the verdict; a category missing in one file has one FAIL line saying in which. The text written to the file is the one returned. A line that ends in FAIL exists exactly when the two files do not have the same categories and attributes with matching contents. Name, values and verdict can be read off a line unless values are longer than their columns. If a file cannot be read the text is empty and nothing is written.", "quantifier": "for all pairs of result files, all formats of numbers, all values including None and texts with line ends", "why_tests_cant": "tests compare a few files; that no difference can be hidden in the text is a statement about all pairs of files", "anchors": ["src/emva1288/process/routines.py:compare_xml", "src/emva1288/process/routines.py:xml_to_dict", "src/emva1288/process/routines.py:round_significant"]}
{"id": "C89", "title": "Nonuniformity of the simulated camera is recovered", "statement": "Of L images grabbed by the simulated camera at one operating point the reported spatial variance is expected to be the square of K times the standard deviation of the pattern of electrons, and the reported spatial mean K times the mean number of electrons plus the black offset, up to an explicit bound for the clipping at the ends of the full well and the grey range. In the dark the pattern is dsnu; with uniform light and a dark signal without pattern it is prnu times the electrons of the light, so that spatial standard deviation and difference of the means have the relative standard deviation of prnu as quotient.", "quantifier": "for all cameras, image sizes, numbers of images L >= 2, means and variances of the draws, with the exact Poisson, normal and uniform laws", "why_tests_cant": "tests compare one camera within a tolerance chosen by hand; the expectation over all draws for all cameras is not a finite check", "anchors": ["src/emva1288/camera/camera.py:Camera.grab", "src/emva1288/camera/camera.py:Camera._u_e", "src/emva1288/process/routines.py:get_int_imgs", "src/emva1288/process/data.py:Data1288._get_spatial_data", "src/emva1288/process/results.py:Results1288.s_2_y_dark", "src/emva1288/process/results.py:Results1288.s_2_y"]}
{"id": "C90", "title": "Errors of the points move gain and responsivity only a little", "statement": "If the points 0..index_sensitivity_max of the photon transfer curve lie within e of a line of slope k through the origin, then K differs from k by at most e sqrt(n) / |x| for the abscissa x of every one of the n points; if they lie within d times their abscissa, K differs from k by at most d. The same holds for R and the sensitivity curve. If R is within a of rho and K within b < kappa of kappa, QE is within 100 (a + |rho| b / kappa) / (kappa - b) of 100 rho / kappa.", "quantifier": "for all finite temporal data, all solvers of the least squares problem, all slopes and tolerances", "why_tests_cant": "tests use data near one line with one tolerance; the bound is for all perturbations at once", "anchors": ["src/emva1288/process/results.py:Results1288.K", "src/emva1288/process/results.py:Results1288.R", "src/emva1288/process/results.py:Results1288.QE", "src/emva1288/process/routines.py:LinearB0"]}
{"id": "C91", "title": "Gain measured on the simulated camera is close to the camera's gain with high probability", "statement": "For a pair of images of the simulated camera with independent draws, the recorded mean and temporal variance differ from their expected values by more than a tolerance with a probability that falls like 1/(number of pixels) (explicit bounds, pixels clipped or not). For a data set of P0 such bright and dark pairs away from the ends of the range, except with P0 times that probability, every point lies near the line of slope K(1-1/MN), its signal is near K times the electrons of the light, and the system gain found from points 0..j among them differs from K(1-1/MN) by at most sqrt(j+1) times the distance from the line over the signal of any of these points.", "quantifier": "for all cameras, image sizes, numbers of points, lights, dark currents, tolerances and probability spaces carrying the draws", "why_tests_cant": "one run of a simulation shows one outcome of the draws, not the probability of a bad one", "anchors": ["src/emva1288/camera/camera.py:Camera.grab", "src/emva1288/process/data.py:Data1288", "src/emva1288/process/results.py:Results1288.K"]}
{"id": "C92", "title": "Text of the report", "statement": "The LaTeX report is fixed text around the watermark, the cover page, the basic information with its labels (dashes for what is not given), the setup, one entry per operation point and one sheet per operation point, in order and nothing else; each sheet names the operation point, its settings, its plots and a table of 33 results with symbol, number (rounded to the digits of the row) and unit, in a fixed order. There is a report exactly if every operation point has its dictionaries and numbers; otherwise an exception is raised and only the style sheet is written. After any history of add calls with computable results there is a report, with the k-th operation point labelled OP<k>, the plots of its own directory and the results of its own call.", "quantifier": "for all dictionaries of information, all operation points, all histories of add calls and all results", "why_tests_cant": "the text depends on every combination of present and missing entries, types and numbers; tests compare no text", "anchors": ["src/emva1288/report/report.py:Report1288.latex", "src/emva1288/report/report.py:Report1288.add", "src/emva1288/report/report.py:info_basic", "src/emva1288/report/templates/report.tex", "src/emva1288/report/templates/op.tex", "src/emva1288/report/templates/general_info.tex", "src/emva1288/report/templates/emvadatasheet.sty"]}
{"id": "C93", "title": "Documented information reaches its place in the report", "statement": "The vendor of info_basic stands in the head of the pages, the cover page of info_marketing is part of the report, and parameters that are not given show as a dash.", "quantifier": "for all dictionaries of information and all operation points", "why_tests_cant": "no test looks at the text of the report", "anchors": ["src/emva1288/report/report.py:info_basic", "src/emva1288/report/report.py:info_marketing", "src/emva1288/report/templates/emvadatasheet.sty", "src/emva1288/report/templates/report.tex"]}
{"id": "C94", "title": "Results with a solver that only comes close to the minimum", "statement": "If the solver of the fits returns slopes and lines whose sum of squares is at most (1 + tau) times the least one plus delta (what leastsq documents with its tolerance, rather than an exact minimiser), then K, R and the dark currents are within a bound of tau and delta of the best slopes and lines; points within eps of a line through the origin give its slope up to a bound of eps, tau and delta, and points on a line through the origin give exactly its slope if delta = 0, whatever tau is.", "quantifier": "for all data, all solvers with the tolerance and all tolerances", "why_tests_cant": "tests run one version of the solver on a few data sets and cannot separate the error of the solver from the one of the data", "anchors": ["src/emva1288/process/routines.py:LinearB0", "src/emva1288/process/routines.py:LinearB", "src/emva1288/process/results.py:Results1288.K", "src/emva1288/process/results.py:Results1288.R", "src/emva1288/process/results.py:Results1288.u_I_mean_DN", "src/emva1288/process/results.py:Results1288.u_I_var_DN"]}
{"id": "C95", "title": "Accuracy of the results in floating point arithmetic", "statement": "With every operation rounded, the sensitivity range is the one of exact arithmetic unless a signal lies within 4 units of 70 % of the saturation signal; K and R are within a factor (1-rho)(1-u)^4 of the exact ones, where rho is what the tolerance of the solver allows; and 1/K, QE, sigma_y_dark, sigma_d, u_p_min, u_e_min, u_e_sat, SNR_max, 1/SNR_max and DR follow within explicit factors. In float64 with an exact solver every relative error is at most 1e-14, with slopes good to four digits at most 1e-3.", "quantifier": "for all measurements with at most two exposure times, nonnegative signals and variances in the range and positive gain, all roundings of relative error u and all solvers with a tolerance; the derived figures for any number of exposure times, given the dark variance", "why_tests_cant": "tests compare a few rounded numbers with each other and cannot bound the error for all data", "anchors": ["src/emva1288/process/results.py:Results1288.index_sensitivity_max", "src/emva1288/process/results.py:Results1288.R", "src/emva1288/process/results.py:Results1288.K", "src/emva1288/process/results.py:Results1288.QE", "src/emva1288/process/results.py:Results1288.sigma_y_dark", "src/emva1288/process/results.py:Results1288.sigma_d", "src/emva1288/process/results.py:Results1288.u_p_min", "src/emva1288/process/results.py:Results1288.u_e_min", "src/emva1288/process/results.py:Results1288.u_e_sat", "src/emva1288/process/results.py:Results1288.SNR_max", "src/emva1288/process/results.py:Results1288.DR"]}
{"id": "C96", "title": "Accuracy of the nonuniformities in floating point arithmetic", "statement": "With every operation rounded, the spatial variance and its row, column and pixel parts differ from the exact ones by a number of roundings on the scale of the terms that are subtracted; for stacks of M x N images (M, N >= 4) with numbers up to B, evaluated in float64 with numpy's pairwise summation, by at most 12 B^2 / 2^42. If that is a fraction rho of the variance, DSNU1288 and its parts are numbers (not nan) and agree with the exact ones up to (1-rho) t and two roundings, where t is the accuracy of K; PRNU1288 and its parts agree up to (1-rho)(1-sigma) and three roundings; DSNU1288_DN up to (1-rho) and one rounding.", "quantifier": "for all stacks of at least two images within the int64 envelope, all image sizes up to 2^40 pixels, all gains with a relative accuracy; the error of the parts for all roundings, summation orders and spatial data", "why_tests_cant": "the error comes from cancellation and depends on all pixels; a test sees it for one set of images", "anchors": ["src/emva1288/process/results.py:Results1288.s_2_y", "src/emva1288/process/results.py:Results1288.s_2_y_row", "src/emva1288/process/results.py:Results1288.s_2_y_col", "src/emva1288/process/results.py:Results1288.s_2_y_pixel", "src/emva1288/process/results.py:Results1288.DSNU1288", "src/emva1288/process/results.py:Results1288.DSNU1288_DN", "src/emva1288/process/results.py:Results1288.PRNU1288", "src/emva1288/process/data.py:Data1288._get_spatial_data"]}
{"id": "C97", "title": "Accuracy of the linearity and of the decibel values in floating point arithmetic", "statement": "With every operation rounded, index_linearity_min and index_linearity_max are the exact ones unless a signal lies within a few roundings of 5 % or 95 % of the saturation signal. Then fit_slope, fit_offset, every element of relative_deviation and LE_min and LE_max are numbers (not nan) that differ from the exact ones by at most (g-1) times an explicit scale that depends on the condition of the fit, where g covers 31 + 4 d roundings and d is the depth of the summation; in float64 with up to 128 points g - 1 = 2^-43. SNR_max_dB, SNR_max_bit and DR_dB have an absolute error that follows from the relative error e of SNR_max and DR: 9 e / (1 - e) dB (3/2 e / (1 - e) bit) and the relative errors of the logarithm and of one rounding.", "quantifier": "for all measurements with nonnegative photon numbers and positive signals in the linearity range whose fit has a determinant (and a line) larger than its error, all roundings, all summation orders, all logarithms with a relative error", "why_tests_cant": "the error of the fit depends on cancellation in its determinant, on the order of summation and on all the points; a test sees one measurement", "anchors": ["src/emva1288/process/results.py:Results1288.linearity", "src/emva1288/process/results.py:Results1288.index_linearity_min", "src/emva1288/process/results.py:Results1288.index_linearity_max", "src/emva1288/process/results.py:Results1288.LE_min", "src/emva1288/process/results.py:Results1288.LE_max", "src/emva1288/process/results.py:Results1288.SNR_max_dB", "src/emva1288/process/results.py:Results1288.SNR_max_bit", "src/emva1288/process/results.py:Results1288.DR_dB"]}
{"id": "C98", "title": "What is visible in the profile plots and in the SNR plot", "statement": "The limits of the axes do not cut off what is drawn. In a profile plot with any number of tests the bright axis goes from 90 % of the least to 110 % of the greatest mean of the drawn mean profiles, the dark axis from 90 % of the least mean of the minimum profiles to 110 % of the greatest mean of the maximum profiles; without tests or without values in the first test setting the limits is a ValueError. In the SNR plot the axis goes from 1 to the greatest end of the ideal curves of all tests.", "quantifier": "for all lists of tests, images of any size, masks, and all measurements for which the SNR curves are drawn", "why_tests_cant": "the limits are set from means of the whole image and of all tests, a test with one even image sees everything; nothing raises when a curve is outside", "anchors": ["src/emva1288/process/plotting.py:ProfileBase.get_profiles", "src/emva1288/process/plotting.py:PlotHorizontalProfile.rearrange", "src/emva1288/process/plotting.py:PlotVerticalProfile.rearrange", "src/emva1288/process/plotting.py:PlotSNR.plot"]}
{"id": "C99", "title": "A small change of the measured data changes the results by little", "statement": "Two measurements with the same settings whose recorded numbers (means, variances, irradiations, spatial statistics) differ by little give nearly the same results: the indices of the saturation point and of the ranges are the same, and every result (system gain, responsivity, quantum efficiency, dark noise, sensitivity threshold, saturation capacity, SNR, dynamic range, DSNU, PRNU, dark current, linearity error) changes by at most a constant times the change of the data.", "quantifier": "for all measurements of any number of points and all measurements close enough to them, with irradiations, signals, variances and spatial numbers changed independently of each other", "why_tests_cant": "a test compares one evaluation with fixed numbers; that no nearby measurement falls on the other side of a comparison is a statement about all of them", "anchors": ["src/emva1288/process/results.py:Results1288.index_u_ysat", "src/emva1288/process/results.py:Results1288.index_sensitivity_max", "src/emva1288/process/results.py:Results1288.K", "src/emva1288/process/results.py:Results1288.R", "src/emva1288/process/results.py:Results1288.sigma_y_dark", "src/emva1288/process/results.py:Results1288.linearity", "src/emva1288/process/results.py:Results1288.DSNU1288", "src/emva1288/process/results.py:Results1288.PRNU1288"]}
{"id": "C100", "title": "An implausible measurement is visible in the datasheet", "statement": "The figures of the datasheet (inverse gain, quantum efficiency, dark noise, thresholds, saturation capacities, SNR, inverse SNR, dynamic range) are all positive numbers and the logarithmic figures are numbers exactly if gain, responsivity and saturation irradiation are positive. Without response to light the quantum efficiency and the dynamic range are 0 and the sensitivity threshold is infinite; without dependence of the noise on the signal the quantum efficiency is infinite and thresholds and dynamic range are nan; with a negative gain the SNR is nan. If bright and dark images have equal means the data do not determine the gain: every number is a result of the fit, and the reported gain is 1, where the solver starts.", "quantifier": "for all measurements of any number of points and every least squares solver", "why_tests_cant": "a test evaluates data of a working camera; which combination of nan, inf and plausible numbers a broken measurement gives depends on the order of all operations", "anchors": ["src/emva1288/process/results.py:Results1288.K", "src/emva1288/process/results.py:Results1288.QE", "src/emva1288/process/results.py:Results1288.sigma_d", "src/emva1288/process/results.py:Results1288.u_p_min", "src/emva1288/process/results.py:Results1288.u_e_min", "src/emva1288/process/results.py:Results1288.SNR_max", "src/emva1288/process/results.py:Results1288.DR", "src/emva1288/process/routines.py:LinearB0"]}
{"id": "C101", "title": "Dark noise and dark currents are accurate in floating point", "statement": "With at most two exposure times the four dark currents are np.nan, in floating point as in exact arithmetic. With more exposure times, the dark noise, the four dark currents and all results that use the dark noise, computed in float64 with a least squares solver that only comes close to the minimum, differ from the exact values by a small relative error, provided the tolerance of the solver is small against the slopes and the offset of the fits; the current from the variance is then np.nan exactly if the slope of the best line is negative. Without this proviso it is not so: for constant dark variances the exact current is 0, and for every tolerance there is a solver for which np.nan is reported.", "quantifier": "for all measurements of any number of points and exposure times, every rounding with relative error below u, every solver with a given tolerance", "why_tests_cant": "the errors of a fit and of five roundings accumulate differently for every measurement; whether the sign of a slope survives depends on the data", "anchors": ["src/emva1288/process/results.py:Results1288.u_I_var_DN", "src/emva1288/process/results.py:Results1288.u_I_var", "src/emva1288/process/results.py:Results1288.u_I_mean_DN", "src/emva1288/process/results.py:Results1288.u_I_mean", "src/emva1288/process/results.py:Results1288.sigma_y_dark", "src/emva1288/process/routines.py:LinearB"]}
{"id": "C102", "title": "The datasheet in floating point is accurate, from the images on", "statement": "The results of a measurement with at most two exposure times computed from its images in float64, by all operations of the evaluation (means and variances of the pairs of images, differences, regressions by a solver with tolerance, results), agree with the results of exact arithmetic on the same images up to a small relative error: gain, responsivity, quantum efficiency, dark noise, sensitivity threshold, saturation capacity, SNR and dynamic range. Saturation point and sensitivity range are the same. What is needed can be checked on the images: rounding cannot change the order of the variances (equal images have exactly no variance) or move a signal over 70 % of saturation, and the errors of the points are small against the sums of the regressions.", "quantifier": "for all images of any size and number of points with exact integer sums, every rounding with relative error below u, every order of the additions, every solver with a given tolerance", "why_tests_cant": "the errors of images, differences, fits and results add up differently for every measurement, tests compare a few numbers with a tolerance", "anchors": ["src/emva1288/process/data.py:Data1288._get_temporal", "src/emva1288/process/data.py:Data1288._get_temporal_data", "src/emva1288/process/routines.py:get_int_imgs", "src/emva1288/process/results.py:Results1288.K", "src/emva1288/process/results.py:Results1288.R", "src/emva1288/process/results.py:Results1288.index_sensitivity_max", "src/emva1288/process/results.py:Results1288.index_u_ysat", "src/emva1288/process/results.py:Results1288.DR"]}
{"id": "C103", "title": "The templates of the report say what is written in them", "statement": "A template of the report, read with the delimiters that the package chooses for LaTeX, means what is written in it: text outside of the delimiters (with any percent signs and braces) goes to the report as it is, comments leave no trace, a minus sign at a delimiter drops the white space on its side and nothing else does, and values, conditions, loops and includes are those written in the tags, however they are spaced. A tag without an end is an error, not a wrong report. The files of the package, letter by letter, are read as the statements that the properties of the report (C92, C93) are about.", "quantifier": "for all templates written with the constructs that the package uses, of any length and nesting, with any spacing; for the five files of the package as they are", "why_tests_cant": "tests render the report once, a delimiter inside of LaTeX text or a swallowed line shows only in the typeset page", "anchors": ["src/emva1288/report/report.py:Report1288.template_renderer", "src/emva1288/report/report.py:Report1288._stylesheet", "src/emva1288/report/report.py:Report1288._report"]}
{"id": "C104", "title": "The axes of the plots carry the units written at them", "statement": "What is drawn in a plot has the units written at its axes. If the camera counts with other digital numbers (all grey values times a factor g), then everything drawn along an axis in DN is multiplied by g, along an axis in DN^2 by its square, and along the axes in photons, ns, periods per pixel and percent it stays where it is; the points of the SNR plot, whose axis has no unit, stay where they are, also if the black level changes; an axis labelled with a number of pixels shows numbers of pixels, and one labelled with dark values shows dark values.", "quantifier": "for all image sets with a fixed number of images per exposure and irradiation, all positive factors, and all plots with one diagram; for the histograms all images", "why_tests_cant": "tests check that the figures are produced; nobody reads the axes, and a wrong unit needs two cameras to be seen", "anchors": ["src/emva1288/process/plotting.py:PlotPTC", "src/emva1288/process/plotting.py:PlotSensitivity", "src/emva1288/process/plotting.py:PlotUyDark", "src/emva1288/process/plotting.py:PlotLinearity", "src/emva1288/process/plotting.py:PlotDeviationLinearity", "src/emva1288/process/plotting.py:PlotHorizontalSpectrogramPRNU", "src/emva1288/process/plotting.py:PlotHorizontalSpectrogramDSNU", "src/emva1288/process/plotting.py:PlotAccumulatedLogHistogramDSNU", "src/emva1288/process/plotting.py:PlotAccumulatedLogHistogramPRNU", "src/emva1288/process/plotting.py:PlotLogarithmicHistogramDSNU"]}
{"id": "C105", "title": "The data of an evaluation neither overflow nor underflow", "statement": "In float64 as it is, with infinities and with numbers that lose digits or vanish when they become too small, the temporal and the spatial data of an evaluation are finite and the same numbers as in an arithmetic without these limits, whatever the images contain. The accuracy of the means and variances (C83, C84) is therefore the accuracy of the numbers that the computer delivers.", "quantifier": "for all images of int64 pixels of any size up to 2^53 pixels, all stacks of images whose number has a cube below 2^53, all orders and groupings of the additions in numpy", "why_tests_cant": "tests use images of moderate grey values; the extreme images at which a product or a difference could leave the range are not tried, and a lost digit is not noticed", "anchors": ["src/emva1288/process/routines.py:get_int_imgs", "src/emva1288/process/data.py:Data1288._get_temporal_data", "src/emva1288/process/data.py:Data1288._get_spatial_data"]}
{"id": "C106", "title": "The results of an evaluation neither overflow nor underflow", "statement": "In float64 as it is, with infinities and gradual underflow, the sensitivity range, the gain and the responsivity of a measurement are those of an arithmetic without these limits, whatever the images contain and whatever the solver answers. If gain, responsivity and saturation are between 2^-100 and 2^100, all results derived from them (inverse gain, quantum efficiency, dark noise, sensitivity thresholds, saturation capacity, signal to noise ratio, dynamic range) are finite, positive and unaffected by the limits, and within the relative error of C102 of the exact results of the images. Without such a condition a result can overflow: the inverse of a gain below 2^-1025 is infinite. A gain of zero (noise that does not grow with the signal) is not hidden: quantum efficiency, saturation capacity and SNR_max are infinite, u_p_min, u_e_min and DR are nan.", "quantifier": "for all measurements of any number of points, all images of up to 2^51 pixels, all solvers, all orders and groupings of the additions; the accuracy for measurements with at most two exposure times, as in C102", "why_tests_cant": "a test knows one measurement; whether some measurement exists at which an intermediate product leaves the range of float64 is a statement about all of them", "anchors": ["src/emva1288/process/data.py:Data1288._get_temporal_data", "src/emva1288/process/results.py:Results1288.K", "src/emva1288/process/results.py:Results1288.QE", "src/emva1288/process/results.py:Results1288.sigma_d", "src/emva1288/process/results.py:Results1288.u_p_min", "src/emva1288/process/results.py:Results1288.DR"]}
{"id": "C107", "title": "The nonuniformities neither overflow nor underflow", "statement": "In float64 as it is, with infinities and gradual underflow, the spatial variances (total, row, column, pixel), PRNU1288 and its parts and DSNU1288 in digital numbers are those of an arithmetic without these limits, whatever the images contain; this includes the cases in which they are not a number, infinite or raise ZeroDivisionError. The DSNU in electrons is so if the gain is between 2^-100 and 2^100. DSNU and PRNU are within the relative error of C96 of the exact ones of the same images.", "quantifier": "for all pairs of stacks of at least two images of one size (up to 2^53 pixels), all values of the pixels, all parts, all solvers, all orders and groupings of the additions; the accuracy for stacks and variances as in C96", "why_tests_cant": "a test knows a few stacks; that no stack exists at which a square, a quotient of the sizes or the root leaves the range of float64, or vanishes in it, is a statement about all stacks", "anchors": ["src/emva1288/process/data.py:Data1288._get_spatial_data", "src/emva1288/process/results.py:Results1288.s_2_y", "src/emva1288/process/results.py:Results1288.s_2_y_row", "src/emva1288/process/results.py:Results1288.s_2_y_col", "src/emva1288/process/results.py:Results1288.s_2_y_pixel", "src/emva1288/process/results.py:Results1288.DSNU1288", "src/emva1288/process/results.py:Results1288.PRNU1288"]}
{"id": "C108", "title": "The results of more than two exposure times are accurate from the images on", "statement": "Evaluated in float64 (rounded at every operation) from the images on, the twelve results of C102 are within a stated relative error of the exact ones of the same images, also if the measurement has more than two exposure times, where the dark noise is the offset of the line through the variances of the dark images. If rounding and the tolerance of the solver are small against the slopes, the four dark currents (from mean and variance, per second in digital numbers and electrons) are as accurate, too, and those from the variance are np.nan exactly if the slope is negative. With the limits of float64 the same holds: nothing overflows or underflows if gain, responsivity, photons and slopes are of ordinary size.", "quantifier": "for all lists of points with pairs of bright and dark images of one size, all values of the pixels within the range, all exposure times of which more than two differ, all orders of the additions, all solvers within the tolerance, and all roundings of the given relative error; the conditions say that no decision of the evaluation is closer than the errors and that the lines are steep against the errors", "why_tests_cant": "a test compares the dark current of a few measurements with a number and a tolerance; that the tolerance suffices for every measurement, and that the sign of the slope is decided rightly, is a statement about all images", "anchors": ["src/emva1288/process/data.py:Data1288._get_temporal_data", "src/emva1288/process/results.py:Results1288.sigma_y_dark", "src/emva1288/process/results.py:Results1288.u_I_var_DN", "src/emva1288/process/results.py:Results1288.u_I_var", "src/emva1288/process/results.py:Results1288.u_I_mean_DN", "src/emva1288/process/results.py:Results1288.u_I_mean", "src/emva1288/process/routines.py:LinearB"]}
{"id": "C109", "title": "Linearity and decibels neither overflow nor underflow", "statement": "Evaluated in float64 with its largest and smallest numbers from the images on, the line of the linearity, the deviations and the linearity errors are finite and off from the exact evaluation of the mean gray values held by the computer by no more than the stated factor on the scale of the terms of the fit; the mean gray values held are the exact means, rounded once. SNR_max_dB, SNR_max_bit and DR_dB are finite and as accurate as SNR_max, DR and the logarithm of the library, even if the logarithm is next to zero.", "quantifier": "for all lists of points with pairs of bright and dark images of one size, all values of the pixels within the range, all orders of the additions of np.sum, up to 2^20 points in the linearity range with photons and signals between 2^-31 and 2^31 and a line between 2^-58 and 2^58 there; all logarithms of relative error at most one half, all SNR_max and DR between 2^-700 and 2^700", "why_tests_cant": "the fit multiplies sums of squared quotients, and dividing by squares of signals can overflow or vanish for some data; tests see a few measurements, in which nothing does", "anchors": ["src/emva1288/process/results.py:Results1288.linearity", "src/emva1288/process/results.py:Results1288.index_linearity_min", "src/emva1288/process/results.py:Results1288.index_linearity_max", "src/emva1288/process/results.py:Results1288.LE_min", "src/emva1288/process/results.py:Results1288.LE_max", "src/emva1288/process/results.py:Results1288.SNR_max_dB", "src/emva1288/process/results.py:Results1288.SNR_max_bit", "src/emva1288/process/results.py:Results1288.DR_dB"]}
{"id": "C110", "title": "A histogram plot of several tests shows all of them", "statement": "If the results of several tests are drawn in one logarithmic histogram plot, one after the other, every test gets its two lines, and every bin that contains a pixel, of each of the tests, is inside of the limits of the axis of numbers.", "quantifier": "for all lists of tests with pixels (5 x 5 at least for the bright histograms), all images", "why_tests_cant": "tests draw one measurement; the limits of the axis are not looked at, and a missing point in a picture is not an error", "anchors": ["src/emva1288/process/plotting.py:PlotLogarithmicHistogramDSNU", "src/emva1288/process/plotting.py:PlotLogarithmicHistogramPRNU", "src/emva1288/process/plotting.py:Plotting1288.plot"]}
{"id": "C111", "title": "The brightest point of a photon variation gives the full scale", "statement": "In a photon variation of the simulator the last of the bright radiances is the one that gives the full scale: the mean number of electrons (light and dark current) times the gain is 2^bit_depth - 1, as in an exposure time variation at the longest exposure.", "quantifier": "for all cameras, optics, noise, numbers of steps from 2 on and lists of wavelengths, with a quantum efficiency that does not depend on the wavelength", "why_tests_cant": "tests generate the points with the default camera and look at their number; the mean grey value of the brightest point for several wavelengths is not compared with the full scale", "anchors": ["src/emva1288/camera/points_generator.py:PointsGenerator.__init__", "src/emva1288/camera/points_generator.py:PointsGenerator._get_points", "src/emva1288/camera/camera.py:Camera.get_radiance_for"]}
