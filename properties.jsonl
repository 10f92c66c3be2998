{"id": "C01", "title": "filter_wavelengths keeps exactly one row per in-range wavelength", "statement": "filter_wavelengths(lines, lo, hi) returns rows in strictly increasing wavelength order; a wavelength occurs in the output iff it occurs in the input and lo <= wavelength <= hi (both bounds inclusive); the row kept for a wavelength is the first input row that carries it.", "quantifier": "every row list (any length, order, duplicates) and every pair of bounds", "why_tests_cant": "the claim is about all orderings, duplicate patterns and boundary hits of an unbounded list", "anchors": ["src/rascal/util.py:filter_wavelengths"]}
{"id": "C02", "title": "filter_separation keeps exactly the isolated lines of a sorted list", "statement": "For an increasing wavelength list of at least two lines, the mask returned by filter_separation is True at position i iff every other line of the list is at distance >= min_separation from line i.", "quantifier": "every increasing list of length >= 2 and every threshold", "why_tests_cant": "only neighbours are compared in code; that this equals isolation from ALL lines needs a proof over all lists", "anchors": ["src/rascal/util.py:filter_separation"]}
{"id": "C03", "title": "filter_separation on degenerate lists", "statement": "A lone line has no neighbour, so it is kept whatever the threshold; an empty list yields an empty mask.", "quantifier": "every threshold, lists of length 0 and 1", "why_tests_cant": "needs all thresholds; the code in fact drops the lone line for every positive threshold and raises on the empty list", "anchors": ["src/rascal/util.py:filter_separation"]}
{"id": "C04", "title": "filter_intensity applies the threshold of each line's own element", "statement": "On success the mask has one entry per line and is True iff the line's intensity is >= the threshold of its element (scalar: the same for all; list: the entry at the element's (last) position in elements; None: 0). A list of the wrong length or a line whose element was not requested raises and returns nothing.", "quantifier": "every element list, line list and threshold argument", "why_tests_cant": "unbounded lists and all combinations of elements and thresholds", "anchors": ["src/rascal/util.py:filter_intensity"]}
{"id": "C05", "title": "load_calibration_lines returns exactly the requested lines", "statement": "With brightest_n_lines=None and min_distance<=0 in vacuum mode the returned lines are exactly one row per distinct wavelength (the first row of a requested element with that wavelength) with wavelength inside the inclusive limits and intensity >= the element's threshold, in increasing wavelength order.", "quantifier": "every line list, element selection, limits and threshold", "why_tests_cant": "composition of four filters over an arbitrary line list", "anchors": ["src/rascal/util.py:load_calibration_lines", "src/rascal/util.py:filter_wavelengths", "src/rascal/util.py:filter_intensity"]}
{"id": "C06", "title": "brightest_n_lines keeps the n brightest", "statement": "With brightest_n_lines = n (and min_distance<=0) exactly min(n, available) lines are returned, they are lines that passed the other filters, brightest first, and no line that was left out is brighter than a line that was kept.", "quantifier": "every line list, every n >= 0, and every tie-breaking choice of argsort", "why_tests_cant": "ties and unbounded lists; the sort is not stable so the claim must hold for every admissible order", "anchors": ["src/rascal/util.py:load_calibration_lines"]}
{"id": "C07", "title": "returned atlas lines respect min_distance", "statement": "Any two lines returned by load_calibration_lines(min_distance=d>0) are at least d apart (in vacuum mode).", "quantifier": "every line list, filter settings and d > 0", "why_tests_cant": "the separation filter compares list neighbours only, and the list is re-ordered by brightness first: true without brightest_n_lines, false with it", "anchors": ["src/rascal/util.py:load_calibration_lines", "src/rascal/util.py:filter_separation"]}
{"id": "C08", "title": "the three lists returned by load_calibration_lines stay aligned", "statement": "element, wavelength and intensity lists have the same length and position i of the three lists describes one line of the line list (its wavelength converted to air when vacuum=False), whatever the filters.", "quantifier": "every line list and every combination of arguments", "why_tests_cant": "alignment through five successive maskings and a re-ordering of parallel arrays", "anchors": ["src/rascal/util.py:load_calibration_lines"]}
{"id": "C09", "title": "air-mode lines respect the air wavelength limits", "statement": "With vacuum=False every returned air wavelength lies within the requested air limits up to a relative error of 1e-6, and (without distance and brightness limits) every bright enough line of a requested element whose air wavelength is inside the limits by that margin is returned, in increasing order.", "quantifier": "every line list, limits >= 2000 Angstrom, thresholds, pressure up to 110 kPa, temperature between -50 and 100 Celsius and relative humidity between 0 and 100 per cent", "why_tests_cant": "limits are converted with the index at the air wavelength, lines with the index at the vacuum wavelength: a continuum of inputs", "anchors": ["src/rascal/util.py:load_calibration_lines", "src/rascal/util.py:air_to_vacuum_wavelength", "src/rascal/util.py:vacuum_to_air_wavelength"]}
{"id": "C10", "title": "vacuum-to-air conversion preserves the order of lines", "statement": "For wavelengths from 2000 Angstrom, vacuum_to_air_wavelength is positive and strictly increasing in the wavelength, so no two lines swap or merge.", "quantifier": "every pair of wavelengths and every line list, pressure up to 110 kPa, temperature between -50 and 100 Celsius and relative humidity between 0 and 100 per cent", "why_tests_cant": "continuum of real inputs", "anchors": ["src/rascal/util.py:vacuum_to_air_wavelength", "src/rascal/util.py:edlen_refraction"]}
{"id": "C11", "title": "air-to-vacuum conversion preserves the order of lines", "statement": "For wavelengths from 2000 Angstrom air_to_vacuum_wavelength is positive and strictly increasing.", "quantifier": "every pair of wavelengths, pressure up to 110 kPa, temperature between -50 and 100 Celsius and relative humidity between 0 and 100 per cent", "why_tests_cant": "continuum of real inputs", "anchors": ["src/rascal/util.py:air_to_vacuum_wavelength", "src/rascal/util.py:edlen_refraction"]}
{"id": "C12", "title": "vacuum -> air -> vacuum round trip", "statement": "Converting a wavelength to air and back (or to vacuum and back) returns it with relative error below 1e-6; the two functions are not exact inverses: in dry air of positive pressure the round trip always ends strictly above the start.", "quantifier": "every wavelength >= 2000 Angstrom, pressure up to 110 kPa, temperature between -50 and 100 Celsius and relative humidity between 0 and 100 per cent", "why_tests_cant": "continuum of real inputs", "anchors": ["src/rascal/util.py:vacuum_to_air_wavelength", "src/rascal/util.py:air_to_vacuum_wavelength"]}
{"id": "C13", "title": "refractive index of dry air", "statement": "In dry air the index is >= 1 (so air wavelengths never exceed vacuum wavelengths); at any humidity it increases with pressure; without air it equals 1 and both conversions are the identity.", "quantifier": "every wavelength > 1700 Angstrom, pressure up to 110 kPa, temperature between -50 and 100 Celsius and relative humidity between 0 and 100 per cent", "why_tests_cant": "continuum of real inputs", "anchors": ["src/rascal/util.py:edlen_refraction"]}
{"id": "C14", "title": "saturation vapour pressure grows with temperature", "statement": "get_vapour_pressure(t in Celsius) is the NIST saturation pressure of water, in particular it increases with temperature between 0 and 100 Celsius and is proportional through get_vapour_partial_pressure to humidity.", "quantifier": "every pair of temperatures in [0,100] Celsius", "why_tests_cant": "continuum; false of the code, which feeds Celsius into the Kelvin formula", "anchors": ["src/rascal/util.py:get_vapour_pressure", "src/rascal/util.py:get_vapour_partial_pressure"]}
{"id": "C15", "title": "refine_peaks returns in-range positions derived from the given peaks", "statement": "Every returned position lies strictly between 0 and len(spectrum); there are at most as many as input peaks; each is peak - window_width + fitted centre for some input peak whose fit succeeded with non-negative height and a centre in [0, len(spectrum)]. A peak around which every sample is missing or at most zero, the largest being zero, is dropped without calling the fit.", "quantifier": "every spectrum, peak list, window width and every outcome of the Gaussian fit", "why_tests_cant": "the fit is an external optimiser whose outcome is arbitrary", "anchors": ["src/rascal/util.py:refine_peaks"]}
{"id": "C16", "title": "refine_peaks returns a unique set of peaks", "statement": "No two returned positions are equal up to rounding (np.isclose).", "quantifier": "every spectrum, peak list and fit outcome", "why_tests_cant": "documented claim; only list neighbours are compared, so it needs order assumptions - true for increasing fitted positions, false in general", "anchors": ["src/rascal/util.py:refine_peaks"]}
{"id": "C17", "title": "refine_peaks reports the centre in spectrum coordinates", "statement": "The reported position of a peak is (first pixel of its fitting window) + (fitted centre inside the window).", "quantifier": "every peak, window width and spectrum length", "why_tests_cant": "false for windows clipped at the left edge and for non-integer peaks; needs all positions", "anchors": ["src/rascal/util.py:refine_peaks"]}
{"id": "C18", "title": "refine_peaks treats peaks independently and leaves the caller's spectrum alone", "statement": "The refined position of a peak depends only on the original spectrum around it, not on which other peaks are refined; the caller's array is not modified.", "quantifier": "every spectrum and peak list", "why_tests_cant": "windows are normalised in place, so overlapping windows interfere: all overlap patterns matter", "anchors": ["src/rascal/util.py:refine_peaks"]}
{"id": "C19", "title": "polynomial evaluates highest-order-first coefficients", "statement": "polynomial(a, degree)(x) = sum_i a[degree-i] * x**i, and a coefficient list of the wrong length is rejected.", "quantifier": "every coefficient list, degree and x", "why_tests_cant": "unbounded degree", "anchors": ["src/rascal/models.py:polynomial", "src/rascal/models.py:poly_cost_function"]}
{"id": "C20", "title": "_derivative is the derivative", "statement": "Evaluating _derivative(p) (lowest order first) gives the derivative of the polynomial with coefficients p, of length len(p)-1.", "quantifier": "every coefficient list and every point", "why_tests_cant": "unbounded degree and continuum of points", "anchors": ["src/rascal/util.py:_derivative"]}
{"id": "C21", "title": "robust_polyfit undoes its normalisation", "statement": "Whatever coefficients the solver returns for the normalised problem, the polynomial with the returned (lowest-order-first) coefficients evaluated at x equals std(y) * (normalised solution)(x / std(x)); so residuals in user units are std(y) times the normalised residuals.", "quantifier": "every data set with non-constant x and y, every degree and every solver output", "why_tests_cant": "unbounded degree and arbitrary solver", "anchors": ["src/rascal/models.py:robust_polyfit", "src/rascal/models.py:normalise_input"]}
{"id": "C22", "title": "robust_polyfit is optimal when its solver is", "statement": "If the solver returns a global minimiser of the normalised cost, the returned polynomial minimises the robust cost of the residuals (in units of std(y)) over all polynomials of that degree; on data lying exactly on a polynomial of that degree with more than degree distinct x it returns exactly those coefficients.", "quantifier": "every data set with non-constant x and y, every degree and every non-negative loss vanishing only at 0", "why_tests_cant": "minimisation over a continuum", "anchors": ["src/rascal/models.py:robust_polyfit", "src/rascal/models.py:poly_cost_function"]}
{"id": "C23", "title": "robust_polyfit starts from the supplied guess", "statement": "When x0 is given, the normalised starting point represents the same polynomial as x0 (so the starting residuals are those of x0); the caller's x0 is not modified.", "quantifier": "every x0, data set and degree", "why_tests_cant": "false of the code (order and scaling mixed up): the counterexample must be a theorem, non-mutation must hold for all inputs", "anchors": ["src/rascal/models.py:robust_polyfit"]}
{"id": "C24", "title": "Hough points are exactly the in-range (slope, intercept) pairs", "statement": "generate_hough_points produces, for every slope of the grid (in order) and every data point (x, y) (in order), the point (slope, y - slope*x) iff min_intercept <= y - slope*x <= max_intercept, and nothing else.", "quantifier": "every data set, grid size and constraints", "why_tests_cant": "unbounded data and grid", "anchors": ["src/rascal/houghtransform.py:HoughTransform.generate_hough_points"]}
{"id": "C25", "title": "the slope grid spans the allowed range", "statement": "The slopes tried are num_slopes equally spaced values from min_slope to max_slope, both ends included for num_slopes >= 2, all within the range.", "quantifier": "every range and grid size", "why_tests_cant": "unbounded grid", "anchors": ["src/rascal/houghtransform.py:HoughTransform.generate_hough_points"]}
{"id": "C26", "title": "brute-force Hough points are exactly the lines through two data points", "statement": "generate_hough_points_brute_force yields exactly one (gradient, intercept) per unordered pair of data points with distinct x whose connecting line has gradient and intercept strictly inside the constraints; each such line passes through both points; the multiset of results does not depend on the order of the data.", "quantifier": "every data set of at least two points, every argsort tie-breaking, every permutation of the data", "why_tests_cant": "all permutations and sizes", "anchors": ["src/rascal/houghtransform.py:HoughTransform.generate_hough_points_brute_force"]}
{"id": "C27", "title": "extending Hough points appends", "statement": "add_hough_points appends the supplied points after the existing ones (array or HoughTransform object), and an unsupported type raises leaving the object unchanged; any history of extensions yields the concatenation.", "quantifier": "every history of extensions", "why_tests_cant": "unbounded histories", "anchors": ["src/rascal/houghtransform.py:HoughTransform.add_hough_points"]}
{"id": "C28", "title": "binning counts every Hough point exactly once", "statement": "bin_hough_points produces an xbins-by-ybins table of counts whose total is the number of Hough points; the count of a bin is the number of points whose coordinates fall in it (left edge included, right edge excluded except for the last bin).", "quantifier": "every non-empty set of Hough points and every bin numbers >= 1", "why_tests_cant": "points on edges, unbounded sets", "anchors": ["src/rascal/houghtransform.py:HoughTransform.bin_hough_points"]}
{"id": "C29", "title": "Hough lines are bin centres ranked by count", "statement": "hough_lines has exactly one entry per bin, the centre of that bin, and the counts of the bins are non-increasing along the list.", "quantifier": "every set of points, bin numbers and argsort tie-breaking", "why_tests_cant": "every tie-breaking and unbounded size", "anchors": ["src/rascal/houghtransform.py:HoughTransform.bin_hough_points"]}
{"id": "C30", "title": "every Hough point is close to the line of its bin", "statement": "Every Hough point is within half a bin width, in both coordinates, of the hough_lines entry of the bin it was counted in, and that entry is ranked before every bin with a smaller count.", "quantifier": "every set of points and bin numbers", "why_tests_cant": "unbounded sets, edge cases", "anchors": ["src/rascal/houghtransform.py:HoughTransform.bin_hough_points"]}
{"id": "C31", "title": "constraints must be finite", "statement": "set_constraints either stores four finite numbers or raises and changes nothing.", "quantifier": "every four floats including nan and infinities, every history", "why_tests_cant": "all float classes and histories", "anchors": ["src/rascal/houghtransform.py:HoughTransform.set_constraints"]}
{"id": "C32", "title": "saved Hough transforms load back", "statement": "After save(filename, ...) to disk in a format, load(filename, that format) restores hough points, histogram, edges and constraints.", "quantifier": "every HoughTransform content, filename and disk content", "why_tests_cant": "all filenames: false when the filename already carries the extension", "anchors": ["src/rascal/houghtransform.py:HoughTransform.save", "src/rascal/houghtransform.py:HoughTransform.load"]}
{"id": "C33", "title": "a loaded Hough transform is usable", "statement": "A HoughTransform loaded from disk can be binned / extended like the saved one, and a Calibrator that loads it uses it for fitting.", "quantifier": "every content and both formats", "why_tests_cant": "false for json (points stay a plain list) and for the Calibrator (hough_lines not restored)", "anchors": ["src/rascal/houghtransform.py:HoughTransform.load", "src/rascal/calibrator.py:Calibrator.load_hough_transform", "src/rascal/calibrator.py:Calibrator.fit"]}
{"id": "C34", "title": "save writes and returns exactly the requested formats", "statement": "save writes filename.npy iff 'npy' is among the delimiter-separated formats and filename.json iff 'json' is, touches no other file, and with to_disk=False writes nothing and returns exactly the requested representations.", "quantifier": "every filename, format string, delimiter and disk content", "why_tests_cant": "all strings", "anchors": ["src/rascal/houghtransform.py:HoughTransform.save"]}
{"id": "C35", "title": "load rejects unknown file types", "statement": "load with a file type other than npy/json raises ValueError, a missing file raises, and in both cases the object is unchanged.", "quantifier": "every object state, filename and file type", "why_tests_cant": "all strings and states", "anchors": ["src/rascal/houghtransform.py:HoughTransform.load"]}
{"id": "C36", "title": "synthetic wavelength limits stay ordered", "statement": "After any sequence of set_wavelength_limit calls (failing ones included) minimum < maximum; a failing call changes nothing and a successful call sets exactly the non-None arguments.", "quantifier": "every history of calls with arbitrary arguments", "why_tests_cant": "unbounded histories", "anchors": ["src/rascal/synthetic.py:SyntheticSpectrum.set_wavelength_limit"]}
{"id": "C37", "title": "get_pixels keeps exactly the lines strictly inside the limits", "statement": "get_pixels returns, in input order, exactly the wavelengths strictly between the limits, together with one pixel per returned wavelength.", "quantifier": "every wavelength list and limits", "why_tests_cant": "unbounded lists, boundary values", "anchors": ["src/rascal/synthetic.py:SyntheticSpectrum.get_pixels"]}
{"id": "C38", "title": "get_pixels inverts the model", "statement": "Evaluating the spectrum's own model at the returned pixels gives back the returned wavelengths.", "quantifier": "every coefficient list and wavelength list", "why_tests_cant": "false for linear models: the two conventions for coefficient order disagree", "anchors": ["src/rascal/synthetic.py:SyntheticSpectrum.get_pixels", "src/rascal/synthetic.py:SyntheticSpectrum.set_model"]}
{"id": "C39", "title": "set_model takes effect", "statement": "After set_model(coefficients) the pixels returned are those of the new model, as if the object had been created with the new coefficients.", "quantifier": "every pair of coefficient lists", "why_tests_cant": "false for models of degree 0 and 1, true for higher degrees: needs all coefficient lists", "anchors": ["src/rascal/synthetic.py:SyntheticSpectrum.set_model", "src/rascal/synthetic.py:SyntheticSpectrum.get_pixels"]}
{"id": "C40", "title": "an atlas behaves like a list of lines", "statement": "After any history of adding, removing and clearing, get_lines, get_elements, get_intensities and len describe one list of lines: what was added, in order, minus what was removed; position i of the three lists describes the same line.", "quantifier": "every history of atlas operations, failing ones included", "why_tests_cant": "unbounded histories", "anchors": ["src/rascal/atlas.py:Atlas.add", "src/rascal/atlas.py:Atlas.add_user_atlas", "src/rascal/atlas.py:Atlas.remove_atlas_lines_range", "src/rascal/atlas.py:Atlas.clear", "src/rascal/atlas.py:Atlas.get_lines"]}
{"id": "C41", "title": "remove_atlas_lines_range removes exactly the lines in range", "statement": "After remove_atlas_lines_range(w, tol) no line with |wavelength - w| < tol remains and every other line is kept in order.", "quantifier": "every atlas, wavelength and tolerance", "why_tests_cant": "false: the list is mutated while iterated; which lines survive must be characterised for all lists", "anchors": ["src/rascal/atlas.py:Atlas.remove_atlas_lines_range"]}
{"id": "C42", "title": "add_user_atlas is all-or-nothing", "statement": "add_user_atlas appends exactly one line per (element, wavelength, intensity) and sets the atlas limits to the extremes of the batch, or raises (length mismatch, empty batch) and changes nothing.", "quantifier": "every atlas and every argument lists", "why_tests_cant": "unbounded lists and every failing combination", "anchors": ["src/rascal/atlas.py:Atlas.add_user_atlas"]}
{"id": "C43", "title": "Atlas.add is all-or-nothing", "statement": "If Atlas.add raises for one of the requested elements, no line has been added.", "quantifier": "every element list and atlas", "why_tests_cant": "false for multi-element requests: failure point inside the loop", "anchors": ["src/rascal/atlas.py:Atlas.add"]}
{"id": "C44", "title": "Atlas.add adds the concatenation of the per-element selections", "statement": "A successful add appends, for every requested element in order, exactly the lines load_calibration_lines returns for it, labelled NIST; limits left out default to the atlas limits widened by range_tolerance.", "quantifier": "every element list, line list and limits", "why_tests_cant": "unbounded lists", "anchors": ["src/rascal/atlas.py:Atlas.add", "src/rascal/atlas.py:Atlas.__init__"]}
{"id": "C45", "title": "settings persist until changed", "statement": "After any history of set_hough_properties / set_ransac_properties calls each setting equals the last non-None value successfully supplied for it, or its default.", "quantifier": "every history of calls", "why_tests_cant": "unbounded histories", "anchors": ["src/rascal/calibrator.py:Calibrator.set_hough_properties", "src/rascal/calibrator.py:Calibrator.set_ransac_properties"]}
{"id": "C46", "title": "acceptance thresholds are always valid", "statement": "In every reachable state minimum_matches >= 0, 0 <= minimum_peak_utilisation <= 1 and minimum_fit_error >= 0; a call with an invalid threshold raises.", "quantifier": "every history of calls", "why_tests_cant": "unbounded histories including failing calls", "anchors": ["src/rascal/calibrator.py:Calibrator.set_ransac_properties"]}
{"id": "C47", "title": "Hough bounds follow the settings", "statement": "In every reachable state the intercept bounds are min_wavelength -/+ range_tolerance and the slope bounds are those of the current wavelength limits, tolerances and pixel range.", "quantifier": "every history of set_calibrator_properties / set_hough_properties calls", "why_tests_cant": "true for the intercepts, false for the slopes after a later change of pixel_list", "anchors": ["src/rascal/calibrator.py:Calibrator.set_hough_properties", "src/rascal/calibrator.py:Calibrator.set_calibrator_properties"]}
{"id": "C48", "title": "num_pix determines the pixel range", "statement": "After set_calibrator_properties(num_pix=n) without pixel_list the calibrator works on pixels 0..n-1.", "quantifier": "every calibrator and n", "why_tests_cant": "false: the pixel list of the constructor is kept", "anchors": ["src/rascal/calibrator.py:Calibrator.set_calibrator_properties", "src/rascal/calibrator.py:Calibrator.__init__"]}
{"id": "C49", "title": "the slope range covers every linear solution within tolerance", "statement": "Every straight-line solution starting within range_tolerance of min_wavelength and ending within range_tolerance of max_wavelength has its slope inside [min_slope, max_slope].", "quantifier": "every settings and every such line", "why_tests_cant": "continuum; upper bound always holds, lower bound only when range_tolerance <= 2*linearity_tolerance", "anchors": ["src/rascal/calibrator.py:Calibrator.set_hough_properties"]}
{"id": "C50", "title": "exactly one plotting library is selected", "statement": "In every reachable state at most one of matplotlib/plotly is active, which_plotting_library names it, and the last explicit choice wins.", "quantifier": "every history of use_* and set_calibrator_properties calls", "why_tests_cant": "unbounded histories; 'last choice wins' is false after a later set_calibrator_properties", "anchors": ["src/rascal/calibrator.py:Calibrator.use_matplotlib", "src/rascal/calibrator.py:Calibrator.use_plotly", "src/rascal/calibrator.py:Calibrator.which_plotting_library", "src/rascal/calibrator.py:Calibrator.set_calibrator_properties"]}
{"id": "C51", "title": "known pairs are validated and atomic", "statement": "set_known_pairs stores two equally long nan-free arrays or raises and keeps the previous ones.", "quantifier": "every history of calls with arbitrary arrays", "why_tests_cant": "unbounded histories, nan anywhere", "anchors": ["src/rascal/calibrator.py:Calibrator.set_known_pairs"]}
{"id": "C52", "title": "known pairs take part in every trial fit", "statement": "Once known pairs are set, every polynomial tried by fit is fitted to data that contains all known pairs with their wavelengths.", "quantifier": "every run of the sampler", "why_tests_cant": "all random schedules", "anchors": ["src/rascal/calibrator.py:Calibrator._solve_candidate_ransac", "src/rascal/calibrator.py:Calibrator.set_known_pairs"]}
{"id": "C53", "title": "pairs are all peak/line combinations", "statement": "Without the polygon constraint the search space is every (peak, atlas line) combination exactly once per occurrence; with it, exactly the combinations inside the quadrilateral spanned by the intercept range at pixel 0 and the end-wavelength range at the last pixel, widened by the candidate tolerance.", "quantifier": "every peak list, atlas and settings", "why_tests_cant": "unbounded lists and continuum", "anchors": ["src/rascal/calibrator.py:Calibrator._generate_pairs"]}
{"id": "C54", "title": "linear candidates are exactly the pairs near a Hough line", "statement": "For each Hough line the candidate set is exactly the pairs within candidate_tolerance (inclusive) of that line, each with a weight in (0,1] that decreases with the distance.", "quantifier": "every pairs list, Hough lines and tolerance", "why_tests_cant": "unbounded lists and continuum", "anchors": ["src/rascal/calibrator.py:Calibrator._get_candidate_points_linear"]}
{"id": "C55", "title": "most common candidates are the top-ranked wavelengths of each peak", "statement": "For each distinct peak, min(top_n, number of distinct candidate wavelengths) wavelengths are returned, they are the ones with the largest aggregated weight, and without repetition.", "quantifier": "every candidate list, top_n and tie-breaking", "why_tests_cant": "false: ranked positions index the wrong array; true for the number and provenance of the pairs", "anchors": ["src/rascal/calibrator.py:Calibrator._get_most_common_candidates"]}
{"id": "C56", "title": "filter_close leaves well separated wavelengths", "statement": "After close-line filtering any two distinct remaining candidate wavelengths differ by at least 3*ransac_tolerance, nothing else is removed than the lower member of a close pair, and pairs stay aligned.", "quantifier": "every candidate list and tolerance", "why_tests_cant": "unbounded lists", "anchors": ["src/rascal/calibrator.py:Calibrator._solve_candidate_ransac"]}
{"id": "C57", "title": "matching is one-to-one and locally optimal", "statement": "The inlier matching never uses a peak twice or a wavelength twice, every matched wavelength is a nearest candidate of its peak under the fit, of all peaks claiming a wavelength the nearest one gets it, and the consistency assertion can never fire.", "quantifier": "every candidate table, peak list and polynomial", "why_tests_cant": "unbounded tables, ties", "anchors": ["src/rascal/calibrator.py:Calibrator._match_bijective"]}
{"id": "C58", "title": "every peak can be sampled", "statement": "The sampling probabilities used by fit are positive for every candidate peak and sum to one.", "quantifier": "every set of peaks", "why_tests_cant": "false when a peak falls on a histogram bin edge: needs all positions", "anchors": ["src/rascal/calibrator.py:Calibrator._solve_candidate_ransac"]}
{"id": "C59", "title": "a trial never assigns one wavelength to two peaks", "statement": "In every random trial the sampled peaks are distinct, the sampled wavelengths are distinct candidates of their peaks, or the trial is abandoned.", "quantifier": "every random schedule", "why_tests_cant": "all schedules", "anchors": ["src/rascal/calibrator.py:Calibrator._solve_candidate_ransac"]}
{"id": "C60", "title": "accepted solutions meet the user's constraints", "statement": "If fit accepts a solution then: more than fit_deg pairs are matched, at least minimum_matches, at least minimum_peak_utilisation of the peaks, the rms is >= minimum_fit_error, and each matched pair was within ransac_tolerance of the trial polynomial, which starts inside the intercept bounds and increases over the peak range.", "quantifier": "every random schedule, numerical kernel outcome and setting", "why_tests_cant": "all schedules", "anchors": ["src/rascal/calibrator.py:Calibrator._solve_candidate_ransac"]}
{"id": "C61", "title": "the best trial wins", "statement": "The reported solution is the acceptable trial of lowest cost seen; its cost never exceeds the cost of any earlier accepted trial nor the starting cost, and trials that are rejected leave the result untouched.", "quantifier": "every random schedule", "why_tests_cant": "all schedules", "anchors": ["src/rascal/calibrator.py:Calibrator._solve_candidate_ransac"]}
{"id": "C62", "title": "fit's report is consistent", "statement": "On success matched_peaks and matched_atlas have equal length, no repeated peak or wavelength, every matched pair is a pair of the search space (in the polynomial mode, linear=False: a peak with an atlas line); rms is the root mean square of the returned residuals, which lie in [-tol, tol], so 0 <= rms <= ransac_tolerance; peak utilisation is matched/peaks and lies in [0,1].", "quantifier": "every schedule, kernel outcome and setting", "why_tests_cant": "all schedules", "anchors": ["src/rascal/calibrator.py:Calibrator.fit", "src/rascal/calibrator.py:Calibrator._solve_candidate_ransac"]}
{"id": "C63", "title": "fit's internal consistency checks never fire", "statement": "On any calibrator, whatever was done before, fit either returns a solution or fails with \"Couldn't fit\"; the internal sanity assertions never raise.", "quantifier": "every history and schedule", "why_tests_cant": "true on a fresh calibrator, false after an earlier successful fit", "anchors": ["src/rascal/calibrator.py:Calibrator._solve_candidate_ransac", "src/rascal/calibrator.py:Calibrator.fit"]}
{"id": "C64", "title": "fit terminates", "statement": "fit performs at most max_tries trial fits and then returns.", "quantifier": "every input and schedule", "why_tests_cant": "false: rejected trials are retried without limit (liveness under all schedules)", "anchors": ["src/rascal/calibrator.py:Calibrator._solve_candidate_ransac"]}
{"id": "C65", "title": "fit falls back to the supplied baseline", "statement": "If fit_coeff is supplied and no trial beats it, fit returns it.", "quantifier": "every input and schedule", "why_tests_cant": "documented, false of the code: it raises", "anchors": ["src/rascal/calibrator.py:Calibrator.fit"]}
{"id": "C66", "title": "a failed fit keeps the previous solution", "statement": "If fit raises, the coefficients and matches of the previous fit are still available.", "quantifier": "every history and schedule", "why_tests_cant": "failure point after partial updates", "anchors": ["src/rascal/calibrator.py:Calibrator.fit"]}
{"id": "C67", "title": "non-power bases are used consistently", "statement": "For fit_type legendre/chebyshev the returned coefficients are coefficients in that basis, i.e. evaluating them with the calibrator's polyval gives the robust fit, and the gradient used for weighting is its derivative.", "quantifier": "every degree and coefficients", "why_tests_cant": "false from degree 2 on, true up to degree 1", "anchors": ["src/rascal/calibrator.py:Calibrator.fit", "src/rascal/models.py:robust_polyfit", "src/rascal/util.py:_derivative"]}
{"id": "C68", "title": "the Hough weight is looked up at the solution's own gradient and intercept", "statement": "The cost weight of a trial is the Hough density at (gradient, intercept) of the trial's tangents.", "quantifier": "every trial and density", "why_tests_cant": "false: the two arguments are swapped", "anchors": ["src/rascal/calibrator.py:Calibrator._solve_candidate_ransac", "src/rascal/houghtransform.py:HoughTransform.bin_hough_points"]}
{"id": "C69", "title": "polynomial candidates", "statement": "With linear=False every candidate pair is a (peak, atlas line) within tolerance of the shifted guess; the number of peaks and atlas lines may differ.", "quantifier": "every peak list, atlas and random shifts", "why_tests_cant": "false when the numbers differ (raises); true pairs are only compared position by position", "anchors": ["src/rascal/calibrator.py:Calibrator._get_candidate_points_poly"]}
{"id": "C70", "title": "match_peaks reports exactly the peaks with a line within tolerance", "statement": "When match_peaks succeeds, matched_peaks are, in order, exactly the peaks whose predicted wavelength has an atlas line closer than tolerance, each matched to such a line; peak_utilisation is their fraction, in [0,1].", "quantifier": "every peak list, atlas, coefficients, tolerance and kernel outcome", "why_tests_cant": "unbounded lists", "anchors": ["src/rascal/calibrator.py:Calibrator.match_peaks"]}
{"id": "C71", "title": "match_peaks resolves ambiguous peaks", "statement": "If a peak has several lines within tolerance, match_peaks tries the alternatives and returns the best.", "quantifier": "every ambiguous input", "why_tests_cant": "false: every ambiguous input raises", "anchors": ["src/rascal/calibrator.py:Calibrator.match_peaks"]}
{"id": "C72", "title": "match_peaks works without refinement", "statement": "With refine=False and robust_refit=False match_peaks returns the list of lines well fitted by the current solution.", "quantifier": "every input", "why_tests_cant": "documented, false for every input: it raises", "anchors": ["src/rascal/calibrator.py:Calibrator.match_peaks"]}
{"id": "C73", "title": "match_peaks atlas utilisation is a fraction", "statement": "atlas_utilisation returned by match_peaks lies in [0,1] and no atlas line is matched to two peaks.", "quantifier": "every input", "why_tests_cant": "false: two peaks may share a line", "anchors": ["src/rascal/calibrator.py:Calibrator.match_peaks"]}
{"id": "C74", "title": "match_peaks' rms belongs to the returned solution", "statement": "The rms and residuals returned by match_peaks are those of the returned coefficients on the returned matches.", "quantifier": "every input and flag combination", "why_tests_cant": "true with robust_refit, false with refine only", "anchors": ["src/rascal/calibrator.py:Calibrator.match_peaks"]}
{"id": "C75", "title": "editing pixel-wavelength pairs keeps them aligned", "statement": "Any history of add_pix_wave_pair / remove_pix_wave_pair acts on one list of (pixel, wavelength) pairs: an addition inserts one pair, a removal deletes the pair shown at that position by get_pix_wave_pairs, a failing call changes nothing.", "quantifier": "every history of edits", "why_tests_cant": "unbounded histories", "anchors": ["src/rascal/calibrator.py:Calibrator.add_pix_wave_pair", "src/rascal/calibrator.py:Calibrator.remove_pix_wave_pair", "src/rascal/calibrator.py:Calibrator.get_pix_wave_pairs"]}
{"id": "C76", "title": "an added pair is placed in pixel order", "statement": "Adding a pair to a list sorted by pixel leaves it sorted, and any pixel can be added.", "quantifier": "every sorted list and pixel", "why_tests_cant": "false: inserted in front of the first smaller pixel; smallest pixels cannot be added", "anchors": ["src/rascal/calibrator.py:Calibrator.add_pix_wave_pair"]}
{"id": "C77", "title": "manual_refit validates and is atomic", "statement": "manual_refit either raises leaving coefficients, matches and rms untouched, or stores the refitted coefficients with residual = wavelength - fit and rms their root mean square; it only fits when 0 < degree < number of pairs.", "quantifier": "every calibrator state and arguments", "why_tests_cant": "all argument combinations and states", "anchors": ["src/rascal/calibrator.py:Calibrator.manual_refit"]}
{"id": "C78", "title": "removed atlas lines are not used any more", "statement": "After removing atlas lines (or clearing the atlas) a later fit never matches a removed line.", "quantifier": "every history", "why_tests_cant": "false until the pairs are regenerated: stale search space", "anchors": ["src/rascal/calibrator.py:Calibrator.remove_atlas_lines_range", "src/rascal/calibrator.py:Calibrator.clear_atlas", "src/rascal/calibrator.py:Calibrator._generate_pairs"]}
{"id": "C79", "title": "refinement objective", "statement": "The objective minimised by match_peaks(refine=True) is +inf or non-negative, is +inf for non-monotonic candidates and for too few matches, and counts each peak with its nearest line only when nearer than tolerance.", "quantifier": "every shift vector and state", "why_tests_cant": "continuum", "anchors": ["src/rascal/calibrator.py:Calibrator._adjust_polyfit"]}
{"id": "C80", "title": "raw pixel lookup inverts the pixel list", "statement": "For an increasing pixel_list the raw-pixel map sends pixel_list[i] to i and is increasing, also outside the range.", "quantifier": "every increasing pixel list of length >= 2 and every position", "why_tests_cant": "continuum", "anchors": ["src/rascal/calibrator.py:Calibrator.set_calibrator_properties"]}
{"id": "C81", "title": "the default pixel range covers the peaks", "statement": "With neither num_pix nor spectrum the default pixel range reaches the largest peak.", "quantifier": "every peak list with largest peak >= 10", "why_tests_cant": "continuum", "anchors": ["src/rascal/calibrator.py:Calibrator.set_calibrator_properties"]}
{"id": "C82", "title": "figures are saved exactly in the requested supported formats", "statement": "With save_fig the files written are filename.t for each supported format t in fig_type and nothing else; without save_fig nothing is written.", "quantifier": "every filename and fig_type string, both libraries", "why_tests_cant": "all strings", "anchors": ["src/rascal/plotting.py:plot_arc", "src/rascal/plotting.py:plot_fit", "src/rascal/plotting.py:plot_search_space"]}
{"id": "C83", "title": "plotting does not modify the data", "statement": "plot_fit leaves the calibrator's and the caller's spectrum unchanged.", "quantifier": "every spectrum and options", "why_tests_cant": "false with log_spectrum", "anchors": ["src/rascal/plotting.py:plot_fit"]}
{"id": "C84", "title": "the residual panel shows the residuals of the fit", "statement": "The residuals and rms plotted by plot_fit are those of the plotted solution.", "quantifier": "every fit", "why_tests_cant": "false with matplotlib: they are identically zero whenever the matches are atlas lines", "anchors": ["src/rascal/plotting.py:plot_fit"]}
{"id": "C85", "title": "candidate pairs are merged without distortion", "statement": "The merged candidate list contains exactly the candidate (peak, wavelength) pairs.", "quantifier": "every candidate list", "why_tests_cant": "false: each row is sorted internally", "anchors": ["src/rascal/calibrator.py:Calibrator._merge_candidates"]}
{"id": "C86", "title": "the requested line list is the one that is used", "statement": "load_calibration_lines with linelist='nist' selects from the packaged list, with a path of an existing file from that file, and raises ValueError for a missing file and for a linelist that is not a string; it never falls back to another list.", "quantifier": "all line list arguments, file systems and filter arguments", "why_tests_cant": "tests load one or two files; the absence of a fallback is a statement about all paths and file systems", "anchors": ["src/rascal/util.py:load_calibration_lines"]}
{"id": "C87", "title": "an element without matching lines selects nothing", "statement": "If no line of the requested elements lies in the wavelength range (or passes the intensity threshold), load_calibration_lines returns three empty lists instead of failing.", "quantifier": "all line lists, elements, limits, thresholds and minimum distances", "why_tests_cant": "the failing combination (empty selection with a positive minimum distance) is one corner of the argument space", "anchors": ["src/rascal/util.py:load_calibration_lines", "src/rascal/util.py:filter_separation"]}
{"id": "C88", "title": "a constructed atlas holds exactly the requested lines", "statement": "Atlas(elements, ...) either raises or holds, element by element in the given order, exactly the lines selected by load_calibration_lines for the limits as given (no tolerance is applied to them), and remembers these limits and the range tolerance; without elements it is empty.", "quantifier": "all constructor arguments and line lists", "why_tests_cant": "equality with the selection must hold for every line list and argument combination", "anchors": ["src/rascal/atlas.py:Atlas.__init__", "src/rascal/atlas.py:Atlas.add"]}
{"id": "C89", "title": "refine_peaks accepts any numeric spectrum", "statement": "refine_peaks returns (does not raise) for every list of intensities, integer counts included, as long as the peaks lie inside the spectrum and the window width is positive.", "quantifier": "every spectrum (integer or floating), peak list and window width", "why_tests_cant": "false for integer spectra because of the in-place division; for floating spectra it must hold for every fit outcome and window", "anchors": ["src/rascal/util.py:refine_peaks"]}
{"id": "C90", "title": "a rejected set_ransac_properties call changes nothing", "statement": "If set_ransac_properties raises because one of the given thresholds is invalid, all RANSAC settings are as before the call.", "quantifier": "every settings state and every combination of arguments", "why_tests_cant": "false: assignments made before the failing assertion stay; needs all argument combinations", "anchors": ["src/rascal/calibrator.py:Calibrator.set_ransac_properties"]}
{"id": "C91", "title": "fit does not change the settings", "statement": "A fit, successful or not, leaves all settings, known pairs, peaks, the atlas and the search space as they were.", "quantifier": "every calibrator state, arguments and random draws", "why_tests_cant": "false: sample_size and minimum_matches are overwritten with clamped values and stay clamped for later fits; for the others it must hold on every path including exceptions", "anchors": ["src/rascal/calibrator.py:Calibrator.fit", "src/rascal/calibrator.py:Calibrator._solve_candidate_ransac"]}
{"id": "C92", "title": "fit tries at least once", "statement": "Whenever there are more candidate peaks than the degree and max_tries is positive, fit makes at least one trial.", "quantifier": "every calibrator state and arguments", "why_tests_cant": "false: a sample_size above the number of candidate pairs leaves no combination to try, so fit always fails; depends on the interplay of atlas size, candidates and settings", "anchors": ["src/rascal/calibrator.py:Calibrator.fit", "src/rascal/calibrator.py:Calibrator._solve_candidate_ransac"]}
{"id": "C93", "title": "fit searches along the Hough lines of the current settings", "statement": "In the linear mode every matched pair lies within candidate_tolerance of a line of the Hough transform of the current search space and settings.", "quantifier": "every history of setting changes and fits", "why_tests_cant": "false after a first fit: the transform is not redone when the settings or the atlas change; needs histories", "anchors": ["src/rascal/calibrator.py:Calibrator.fit", "src/rascal/calibrator.py:Calibrator.do_hough_transform"]}
{"id": "C94", "title": "fit never returns a constant", "statement": "With fit_deg 0 (or a baseline with one coefficient) fit never returns a solution.", "quantifier": "every calibrator state, arguments, draws and fitting routine", "why_tests_cant": "the failure comes from evaluating the empty derivative of a constant; that no path avoids it needs all paths", "anchors": ["src/rascal/calibrator.py:Calibrator.fit", "src/rascal/util.py:_derivative"]}
{"id": "C95", "title": "fit's atlas utilisation is a fraction", "statement": "The atlas_utilisation of a successful fit is the number of matches divided by the number of atlas lines and lies in [0,1].", "quantifier": "every history of calls and every successful fit", "why_tests_cant": "false when the search space holds lines that have left the atlas (infinite after clear_atlas); otherwise needs that matches are distinct atlas lines", "anchors": ["src/rascal/calibrator.py:Calibrator.fit", "src/rascal/calibrator.py:Calibrator.clear_atlas"]}
{"id": "C96", "title": "a failed match_peaks keeps the earlier matches", "statement": "If match_peaks raises, the matched peaks and wavelengths held before are still available from get_pix_wave_pairs.", "quantifier": "every session state, arguments and fitting routine", "why_tests_cant": "false when no peak is matched: the matches are cleared before the failure; otherwise needs every failing path", "anchors": ["src/rascal/calibrator.py:Calibrator.match_peaks", "src/rascal/calibrator.py:Calibrator.get_pix_wave_pairs"]}
{"id": "C98", "title": "refined coefficients are used for matching", "statement": "With refine=True match_peaks matches and refits starting from the coefficients found by the refinement.", "quantifier": "every session state, arguments, minimiser and fitting routine", "why_tests_cant": "false: with robust_refit=True a successful refinement has no effect on any output, for every minimiser", "anchors": ["src/rascal/calibrator.py:Calibrator.match_peaks", "src/rascal/calibrator.py:Calibrator._adjust_polyfit"]}
{"id": "C99", "title": "every random sample determines its polynomial", "statement": "Each random sample fit draws has more distinct peaks than the degree of the polynomial fitted to it; the sample size is sample_size limited by atlas lines and candidate peaks but at least fit_deg + 1.", "quantifier": "every calibrator state, arguments and draw", "why_tests_cant": "false with a baseline of a higher degree than fit_deg; otherwise needs all adjustments of the sample size and all draws", "anchors": ["src/rascal/calibrator.py:Calibrator.fit", "src/rascal/calibrator.py:Calibrator._solve_candidate_ransac"]}
{"id": "C97", "title": "an added pixel is stored exactly", "statement": "The pair given to add_pix_wave_pair is in the list afterwards, with the pixel and wavelength as given.", "quantifier": "every state and pair", "why_tests_cant": "false if the matched peaks are integers: np.insert cuts the pixel off", "anchors": ["src/rascal/calibrator.py:Calibrator.add_pix_wave_pair"]}
{"id": "C100", "title": "configuring the calibrator keeps the solution", "statement": "No history of settings, atlas, Hough transform and known-pair calls, successful or not, changes the peaks or the solution, matches, residuals, rms and utilisations found before.", "quantifier": "every state and history of configuration calls", "why_tests_cant": "unbounded histories, failing calls included", "anchors": ["src/rascal/calibrator.py:Calibrator.set_calibrator_properties", "src/rascal/calibrator.py:Calibrator.set_hough_properties", "src/rascal/calibrator.py:Calibrator.set_ransac_properties", "src/rascal/calibrator.py:Calibrator.set_atlas", "src/rascal/calibrator.py:Calibrator.do_hough_transform", "src/rascal/calibrator.py:Calibrator.set_known_pairs"]}
{"id": "C101", "title": "looking for a solution keeps the configuration", "statement": "No history of fit, match_peaks, pair edits and manual_refit, successful or not, changes the peaks, settings, atlases, candidate pairs or known pairs, apart from the sample size and the number of matches required; and no call at all changes the peaks.", "quantifier": "every state and history of calls", "why_tests_cant": "unbounded histories, failing calls and all random draws included", "anchors": ["src/rascal/calibrator.py:Calibrator.fit", "src/rascal/calibrator.py:Calibrator.match_peaks", "src/rascal/calibrator.py:Calibrator.add_pix_wave_pair", "src/rascal/calibrator.py:Calibrator.remove_pix_wave_pair", "src/rascal/calibrator.py:Calibrator.manual_refit"]}
{"id": "C102", "title": "pairs can be added after a fit", "statement": "After a successful fit any pixel beyond some matched peak can be added with add_pix_wave_pair.", "quantifier": "every successful fit and pixel", "why_tests_cant": "false: fit stores Python lists, which cannot be compared with a float", "anchors": ["src/rascal/calibrator.py:Calibrator.fit", "src/rascal/calibrator.py:Calibrator.add_pix_wave_pair"]}
{"id": "C103", "title": "manual_refit() works after a fit", "statement": "Called without arguments straight after a successful fit, manual_refit passes its own checks: it refits the matches of the fit at the same degree from the coefficients found, and raises only what the fitting routine raises.", "quantifier": "every state, successful fit and fitting routine", "why_tests_cant": "needs the state every successful fit leaves", "anchors": ["src/rascal/calibrator.py:Calibrator.fit", "src/rascal/calibrator.py:Calibrator.manual_refit"]}
{"id": "C104", "title": "fit's residuals belong to its solution", "statement": "The residuals returned by fit are the differences between the returned solution and the returned matches.", "quantifier": "every state, schedule and successful fit", "why_tests_cant": "false: the final fit can move away from a match, whose residual is then replaced by +tolerance", "anchors": ["src/rascal/calibrator.py:Calibrator._solve_candidate_ransac", "src/rascal/calibrator.py:Calibrator.fit"]}
{"id": "C105", "title": "the documented figure options have their documented effect", "statement": "For each plotting method, display decides whether the figure is shown, save_fig and fig_type which files are written, filename the name, and return_jsonstring what is returned and that nothing is displayed.", "quantifier": "every call of plot_arc, plot_search_space and plot_fit that returns, both libraries, all option values", "why_tests_cant": "all strings and option combinations; three documented effects do not hold", "anchors": ["src/rascal/plotting.py:plot_arc", "src/rascal/plotting.py:plot_search_space", "src/rascal/plotting.py:plot_fit"]}
{"id": "C106", "title": "plot_arc returns for every documented input", "statement": "plot_arc with a non-empty spectrum of a documented type (a list) and a matching or missing pixel list returns.", "quantifier": "every calibrator, spectrum and pixel list, both libraries", "why_tests_cant": "quantifies over all inputs; false for lists", "anchors": ["src/rascal/plotting.py:plot_arc"]}
{"id": "C107", "title": "plot_fit works after every fit", "statement": "After a successful fit of a calibrator without a spectrum, plot_fit() with matplotlib draws a figure with one point for each matched pair, at the wavelength the solution gives its peak, and changes nothing; with plotly it draws a figure iff some peak is within the tolerance of a line, and raises ValueError otherwise.", "quantifier": "every calibrator, fit arguments, random draws and plotting options", "why_tests_cant": "all sessions with a successful fit, both libraries", "anchors": ["src/rascal/plotting.py:plot_fit", "src/rascal/calibrator.py:plot_fit", "src/rascal/calibrator.py:fit"]}
{"id": "C108", "title": "the simulated arc shows the loaded lines", "statement": "The spectrum drawn by plot_calibration_lines is the sum over the lines load_calibration_lines returns for the same arguments of the line's intensity times the Gaussian centred on its wavelength.", "quantifier": "every line list, elements, wavelength limits, brightest_n_lines and pixel scale for which a figure is drawn", "why_tests_cant": "all line lists; false with brightest_n_lines and for repeated elements", "anchors": ["src/rascal/plotting.py:plot_calibration_lines", "src/rascal/util.py:load_calibration_lines", "src/rascal/util.py:gauss"]}
{"id": "C109", "title": "plot_calibration_lines draws whenever there is something to draw", "statement": "With valid thresholds and at least one loaded line that is bright enough, plot_calibration_lines returns a figure.", "quantifier": "every line list, elements and limits", "why_tests_cant": "all line lists; false if two lines of an element agree to three decimals", "anchors": ["src/rascal/plotting.py:plot_calibration_lines", "src/rascal/util.py:filter_intensity", "src/rascal/util.py:filter_separation"]}
{"id": "C110", "title": "the markers of plot_calibration_lines respect min_intensity and min_distance", "statement": "The lines marked are those bright enough for their element and at least min_distance from the other bright lines.", "quantifier": "every line list, elements, thresholds and distances for which a figure is drawn", "why_tests_cant": "all line lists; false with brightest_n_lines", "anchors": ["src/rascal/plotting.py:plot_calibration_lines", "src/rascal/util.py:filter_intensity", "src/rascal/util.py:filter_separation"]}
{"id": "C111", "title": "brute_force solves all combinations", "statement": "fit(brute_force=True) tries every combination of sample_size candidate pairs once, returns the best, and terminates.", "quantifier": "every calibrator state, arguments and environment for which the search is reached", "why_tests_cant": "all candidate lists and both indexing rules of numpy; non-termination is not observable by a test", "anchors": ["src/rascal/calibrator.py:Calibrator._solve_candidate_ransac", "src/rascal/calibrator.py:Calibrator.fit"]}
{"id": "C112", "title": "more tries never lose matches", "statement": "If fit with max_tries=n matches all peaks, fit with more tries and the same first random numbers matches no fewer peaks (the search stops early once all peaks are matched).", "quantifier": "every calibrator state, kernels, tapes of draws, n and m >= n", "why_tests_cant": "quantifies over random draws and pairs of runs", "anchors": ["src/rascal/calibrator.py:Calibrator._solve_candidate_ransac"]}
{"id": "C113", "title": "a perfect sample is not lost", "statement": "If some trial's polynomial passes exactly through a candidate line at every candidate peak and is acceptable, the returned matches lie exactly on a trial polynomial.", "quantifier": "every calibrator state, kernels, tapes of draws", "why_tests_cant": "quantifies over all runs and all density functions", "anchors": ["src/rascal/calibrator.py:Calibrator._solve_candidate_ransac", "src/rascal/calibrator.py:Calibrator._match_bijective"]}
{"id": "C114", "title": "the returned solution respects the search bounds", "statement": "The returned polynomial's intercept lies in [min_intercept, max_intercept] and the polynomial increases over the peak range.", "quantifier": "every calibrator state, kernels, random draws for which fit returns", "why_tests_cant": "all fits; the trial passes the checks, the returned coefficients are other ones", "anchors": ["src/rascal/calibrator.py:Calibrator._solve_candidate_ransac"]}
{"id": "C115", "title": "known pairs constrain the returned solution", "statement": "The returned solution agrees with the pairs given to set_known_pairs within ransac_tolerance.", "quantifier": "every calibrator state with known pairs, kernels, random draws for which fit returns", "why_tests_cant": "all fits with known pairs", "anchors": ["src/rascal/calibrator.py:Calibrator._solve_candidate_ransac", "src/rascal/calibrator.py:Calibrator.set_known_pairs"]}
{"id": "C116", "title": "fits do not influence the configuration", "statement": "In any history of calls on a calibrator the settings, atlases, search space and known pairs are those the configuring calls alone would have produced (sample_size and minimum_matches aside), and every configuring call succeeds or raises exactly as it would without the fits, matches and edits in between.", "quantifier": "every starting state, every history of configuring calls, fits, matches, edits and refits (failing ones included)", "why_tests_cant": "quantifies over all interleavings of calls and all outcomes of the fits", "anchors": ["src/rascal/calibrator.py:Calibrator.fit", "src/rascal/calibrator.py:Calibrator.match_peaks", "src/rascal/calibrator.py:Calibrator.set_hough_properties", "src/rascal/calibrator.py:Calibrator.set_ransac_properties"]}
{"id": "C117", "title": "minimum_matches stays in force", "statement": "After set_ransac_properties(minimum_matches=m) every later fit reports at least m matches (or as many as there are atlas lines and peaks) until the setting is changed.", "quantifier": "every state, every history of calls that does not set minimum_matches", "why_tests_cant": "needs fits with different atlases in one history; all histories", "anchors": ["src/rascal/calibrator.py:Calibrator.fit", "src/rascal/calibrator.py:Calibrator.set_ransac_properties"]}
{"id": "C118", "title": "plot_search_space shows the candidates", "statement": "The points labelled 'Candidate Pairs' in plot_search_space are the pixel and wavelength of the candidates, so the 'Best Candidate Pairs' are among them.", "quantifier": "every calibrator state, every set of candidates left by a fit, both plotting libraries", "why_tests_cant": "needs the coordinates of all drawn points for all candidate sets; tests only check that the call returns", "anchors": ["src/rascal/plotting.py:plot_search_space", "src/rascal/calibrator.py:Calibrator._merge_candidates", "src/rascal/calibrator.py:Calibrator.plot_search_space"]}
{"id": "C119", "title": "the drawn tolerance region is the search space", "statement": "After set_atlas(constrain_poly=True) the pairs shown by plot_search_space are exactly the peak/line combinations inside the tolerance region it draws.", "quantifier": "every settings, peaks, atlas, candidate tolerance; after any fits", "why_tests_cant": "all pairs against the region, for all settings", "anchors": ["src/rascal/plotting.py:plot_search_space", "src/rascal/calibrator.py:Calibrator._generate_pairs", "src/rascal/calibrator.py:Calibrator.set_atlas"]}
{"id": "C120", "title": "the best candidate pairs are those of the search", "statement": "Right after a successful fit, plot_search_space shows every matched pair among the 'Best Candidate Pairs', which are the pairs the search draws from.", "quantifier": "every calibrator state, fit, random draws, plotting arguments", "why_tests_cant": "for all candidate sets and samples; depends on defaults of two functions", "anchors": ["src/rascal/plotting.py:plot_search_space", "src/rascal/calibrator.py:Calibrator._get_most_common_candidates", "src/rascal/calibrator.py:Calibrator.fit"]}
{"id": "C121", "title": "plot_search_space shows the solution", "statement": "The coefficients returned by a fit are overplotted as the fitted wavelength of every peak, and the axes show the whole tolerance region.", "quantifier": "every state, successful fit, basis, plotting arguments", "why_tests_cant": "for all coefficients and bases", "anchors": ["src/rascal/plotting.py:plot_search_space", "src/rascal/calibrator.py:Calibrator.plot_search_space"]}
{"id": "C122", "title": "combinations on an admissible line become candidates", "statement": "Every peak/line combination of the search space through which a line with slope and intercept within the configured bounds passes is among the candidates a linear-mode fit works with.", "quantifier": "every calibrator state before its first Hough transform, every settings, every combination, every slope and intercept", "why_tests_cant": "existence over all slopes, intercepts, bin counts and sampled weights; a test sees single spectra", "anchors": ["src/rascal/houghtransform.py:HoughTransform.generate_hough_points", "src/rascal/houghtransform.py:HoughTransform.bin_hough_points", "src/rascal/calibrator.py:Calibrator._get_candidate_points_linear", "src/rascal/calibrator.py:Calibrator.do_hough_transform"]}
{"id": "C123", "title": "the order of the peaks does not matter", "statement": "Giving the same peaks in another order changes neither what any call raises or returns nor the Hough lines, the histogram and the results of fits.", "quantifier": "every set of peaks, every permutation, every history of setters and fits, every random draws, every sorting routine", "why_tests_cant": "all permutations and all histories; relates two runs", "anchors": ["src/rascal/calibrator.py:Calibrator.__init__", "src/rascal/calibrator.py:Calibrator._generate_pairs", "src/rascal/calibrator.py:Calibrator.fit", "src/rascal/calibrator.py:Calibrator._get_candidate_points_poly", "src/rascal/houghtransform.py:HoughTransform.generate_hough_points"]}
{"id": "C124", "title": "a less restrictive selection never loses lines", "statement": "load_calibration_lines with a wider range, lower thresholds, a smaller min_distance or a larger brightest_n_lines returns every line it returned before.", "quantifier": "every line list, elements, pair of argument sets, sorting routine", "why_tests_cant": "relates two calls for all line lists", "anchors": ["src/rascal/util.py:load_calibration_lines", "src/rascal/util.py:filter_separation", "src/rascal/util.py:filter_intensity"]}
{"id": "C125", "title": "a range can be loaded in pieces", "statement": "Loading [a, c] gives the same lines as loading [a, b] and [b, c].", "quantifier": "every line list, every cut, elements, thresholds", "why_tests_cant": "relates three calls for all line lists", "anchors": ["src/rascal/util.py:load_calibration_lines", "src/rascal/util.py:filter_wavelengths"]}
{"id": "C126", "title": "the order of the elements does not matter", "statement": "Giving the elements (with their thresholds) in another order gives the same lines: identical for load_calibration_lines, rearranged for Atlas.add.", "quantifier": "every line list, every permutation of distinct elements; every atlas", "why_tests_cant": "all permutations", "anchors": ["src/rascal/util.py:load_calibration_lines", "src/rascal/util.py:filter_intensity", "src/rascal/atlas.py:Atlas.add"]}
{"id": "C127", "title": "element names are case insensitive", "statement": "As documented, the chemical symbol may be given in upper or lower case.", "quantifier": "every line list and elements", "why_tests_cant": "all spellings", "anchors": ["src/rascal/atlas.py:Atlas.__init__", "src/rascal/atlas.py:Atlas.add", "src/rascal/util.py:load_calibration_lines"]}
{"id": "C128", "title": "lines below the threshold have no influence", "statement": "As documented for Atlas, lines are filtered by intensity before they are compared, so lines below the threshold influence neither the separation filter nor the brightness limit.", "quantifier": "every line list, elements, thresholds, distance, limit", "why_tests_cant": "all positions of faint lines", "anchors": ["src/rascal/atlas.py:Atlas.__init__", "src/rascal/util.py:load_calibration_lines", "src/rascal/util.py:filter_wavelengths"]}
{"id": "C129", "title": "lines added by hand do not change later selections", "statement": "What Atlas.add selects does not depend on lines added before with add_user_atlas.", "quantifier": "every atlas, every batch of user lines, every later add", "why_tests_cant": "all histories of an atlas", "anchors": ["src/rascal/atlas.py:Atlas.add_user_atlas", "src/rascal/atlas.py:Atlas.add"]}
{"id": "C130", "title": "the order of configuration calls does not matter", "statement": "Calling set_calibrator_properties, set_hough_properties, set_ransac_properties, set_atlas and set_known_pairs once each, in any order, leaves the calibrator in the same state when nothing raises.", "quantifier": "every calibrator, every set of arguments, every permutation of the calls", "why_tests_cant": "all orders and all arguments", "anchors": ["src/rascal/calibrator.py:Calibrator.set_calibrator_properties", "src/rascal/calibrator.py:Calibrator.set_hough_properties", "src/rascal/calibrator.py:Calibrator.set_ransac_properties", "src/rascal/calibrator.py:Calibrator.set_atlas", "src/rascal/calibrator.py:Calibrator.set_known_pairs"]}
{"id": "C131", "title": "configuration calls can be repeated", "statement": "Repeating a call that declares settings (setters, set_atlas, set_known_pairs, clear_atlas, remove_atlas_lines_range, do_hough_transform, load_hough_transform) changes nothing and gives the same result.", "quantifier": "every calibrator in every state, every such call, also those that raise", "why_tests_cant": "all states and arguments", "anchors": ["src/rascal/calibrator.py:Calibrator.set_hough_properties", "src/rascal/calibrator.py:Calibrator.set_atlas", "src/rascal/calibrator.py:Calibrator.do_hough_transform", "src/rascal/calibrator.py:Calibrator.load_hough_transform", "src/rascal/atlas.py:Atlas.remove_atlas_lines_range"]}
{"id": "C132", "title": "repeating fit gives the same answer", "statement": "Calling fit again with the same arguments and the same random numbers has the same outcome (report, exception) and leaves the calibrator as the first call left it.", "quantifier": "every calibrator in every state, every argument of fit, every sequence of random numbers, every numerical kernel", "why_tests_cant": "the space of states and random draws; the tests seed nothing and call fit once", "anchors": ["src/rascal/calibrator.py:Calibrator.fit", "src/rascal/calibrator.py:Calibrator._solve_candidate_ransac", "src/rascal/calibrator.py:Calibrator.do_hough_transform"]}
{"id": "C133", "title": "the order of the lines of an atlas does not matter", "statement": "Two atlases with the same lines in a different order lead to the same exceptions, combinations, Hough lines and histogram, and to the same fit.", "quantifier": "every calibrator, every pair of atlases that are permutations of each other, every history of configuration calls and Hough transforms, every fit", "why_tests_cant": "all orders, all histories", "anchors": ["src/rascal/calibrator.py:Calibrator.set_atlas", "src/rascal/calibrator.py:Calibrator._generate_pairs", "src/rascal/calibrator.py:Calibrator.do_hough_transform", "src/rascal/calibrator.py:Calibrator.fit", "src/rascal/atlas.py:Atlas.remove_atlas_lines_range"]}
{"id": "C134", "title": "a loaded Hough transform is the one that is searched", "statement": "After load_hough_transform, fit searches along the lines of the loaded transform, with the same outcome as for the calibrator that saved it.", "quantifier": "every calibrator, every transform saved by do_hough_transform and save_hough_transform, every argument of fit and every sequence of random numbers", "why_tests_cant": "all transforms and all states; no test fits after loading", "anchors": ["src/rascal/calibrator.py:Calibrator.load_hough_transform", "src/rascal/calibrator.py:Calibrator.save_hough_transform", "src/rascal/calibrator.py:Calibrator.do_hough_transform", "src/rascal/calibrator.py:Calibrator.fit"]}
{"id": "C135", "title": "a transform saved by one calibrator can be loaded by another", "statement": "After do_hough_transform, saving the transform and loading the file in any other calibrator restores points, histogram, edges and constraints; saving again writes the same file; with to_disk=False nothing is written and the content is returned, as the docstring says.", "quantifier": "every calibrator with a transform, every other calibrator, both file types", "why_tests_cant": "all transforms and all receiving states", "anchors": ["src/rascal/calibrator.py:Calibrator.save_hough_transform", "src/rascal/calibrator.py:Calibrator.load_hough_transform", "src/rascal/houghtransform.py:HoughTransform.save", "src/rascal/houghtransform.py:HoughTransform.load"]}
{"id": "C136", "title": "a failed save or load of a transform leaves things as they were", "statement": "When save_hough_transform or load_hough_transform raises, neither the disk nor the calibrator has changed.", "quantifier": "every calibrator, every disk, every file name and file type", "why_tests_cant": "all failure points", "anchors": ["src/rascal/calibrator.py:Calibrator.save_hough_transform", "src/rascal/calibrator.py:Calibrator.load_hough_transform", "src/rascal/houghtransform.py:HoughTransform.save", "src/rascal/houghtransform.py:HoughTransform.load"]}
{"id": "C137", "title": "a candidate at the edge of the tolerance weighs half", "statement": "The candidates fit gathers are weighted by a bell whose half width is range_tolerance plus linearity_tolerance, as the comment in the code says: 1 on the line, one half at the edge of the tolerance.", "quantifier": "every calibrator state, every argument of fit, every random shift, linear and polynomial search", "why_tests_cant": "real valued weights for all states", "anchors": ["src/rascal/calibrator.py:Calibrator._get_candidate_points_linear", "src/rascal/calibrator.py:Calibrator._get_candidate_points_poly", "src/rascal/util.py:gauss"]}
{"id": "C138", "title": "Moving the zero point of all wavelengths moves the solution and nothing else", "statement": "If every wavelength given to a calibrator (atlas lines, limits, known wavelengths, baseline coefficients) is moved by the same amount, then fit matches the same peaks to the same lines, reports the same rms, residuals and utilisations, and the returned wavelength solution is the old one plus that amount at every pixel; a call that raised still raises the same exception.", "quantifier": "all peak lists, atlases, settings, histories of calls, random draws and shifts", "why_tests_cant": "A test compares one shifted run with one unshifted run; that no comparison, clipping or bin edge anywhere in the pipeline depends on the zero point is a statement about all of them.", "anchors": ["src/rascal/calibrator.py:Calibrator.fit", "src/rascal/calibrator.py:Calibrator._solve_candidate_ransac", "src/rascal/calibrator.py:Calibrator.set_hough_properties", "src/rascal/houghtransform.py:HoughTransformer.bin_hough_points"]}
{"id": "C139", "title": "All wavelengths may be given in any unit", "statement": "If every wavelength and every wavelength tolerance given to a calibrator is multiplied by the same positive factor, then fit matches the same peaks to the same lines with the same utilisations, rms and residuals are multiplied by the factor, and so is the returned wavelength solution at every pixel; a call that raised still raises the same exception.", "quantifier": "all peak lists, atlases, settings, histories of calls, random draws and positive factors", "why_tests_cant": "A test compares one unit with another on one data set; independence of the unit is a statement about every comparison with a hidden absolute constant in the pipeline.", "anchors": ["src/rascal/calibrator.py:Calibrator.fit", "src/rascal/calibrator.py:Calibrator._solve_candidate_ransac", "src/rascal/calibrator.py:Calibrator.set_ransac_properties", "src/rascal/houghtransform.py:HoughTransformer.bin_hough_points"]}
{"id": "C140", "title": "hough_weight: zero switches the density off, a non-finite value makes fit raise", "statement": "The density that scales the cost of a trial is an interpolation of the histogram counts over the midpoints of the bins, multiplied by hough_weight. With hough_weight=0 the result of fit does not depend on the interpolation at all. With hough_weight equal to nan or infinity, accepted by set_ransac_properties, a fit that would have returned a solution raises UnboundLocalError instead, whatever was drawn.", "quantifier": "all peak lists, atlases, settings, random draws, spline routines and weights", "why_tests_cant": "A test tries a few weights on one data set; that no draw and no data let a fit with a non-finite weight through, and that zero removes the density for every interpolation, is a statement about all searches.", "anchors": ["src/rascal/calibrator.py:Calibrator._solve_candidate_ransac", "src/rascal/calibrator.py:Calibrator.set_ransac_properties", "src/rascal/calibrator.py:Calibrator.fit"]}
{"id": "C141", "title": "The gain of the detector has no influence on refine_peaks", "statement": "Multiplying all counts of a spectrum by the same positive factor leaves the positions returned by refine_peaks unchanged.", "quantifier": "all spectra (nan and infinities included), peak lists, window widths, positive factors and fitting routines", "why_tests_cant": "A test scales one spectrum with separated peaks and sees no change; whether any spectrum with overlapping windows is affected is a statement about all spectra.", "anchors": ["src/rascal/util.py:refine_peaks"]}
{"id": "C142", "title": "refine_peaks only looks at samples near the peaks", "statement": "Two spectra of the same length that agree within window_width of every given peak give the same refined positions, whatever the remaining samples are, including nan and infinity.", "quantifier": "all pairs of spectra, peak lists inside the spectrum, positive window widths and fitting routines, overlapping windows included", "why_tests_cant": "A test changes a few samples; independence of all samples outside the windows is a statement about all pairs of spectra.", "anchors": ["src/rascal/util.py:refine_peaks"]}
{"id": "C143", "title": "Cutting samples off the front of a spectrum moves the refined positions by as much", "statement": "refine_peaks on a spectrum with n samples removed from the front, with the peaks given n pixels lower, returns positions n pixels lower.", "quantifier": "all spectra, peaks, numbers of removed samples and fitting routines", "why_tests_cant": "A test cuts one spectrum; that no position is kept in one frame and dropped in the other needs all spectra.", "anchors": ["src/rascal/util.py:refine_peaks"]}
{"id": "C144", "title": "match_peaks can be repeated", "statement": "Calling match_peaks again with the same arguments returns the same result.", "quantifier": "all sessions, arguments, minimisers, fitting routines and numbers of repetitions", "why_tests_cant": "A test repeats one call once; that any number of repetitions agree for all sessions is an induction over calls.", "anchors": ["src/rascal/calibrator.py:Calibrator.match_peaks"]}
{"id": "C145", "title": "manual_refit can be repeated and only depends on the matched pairs", "statement": "With a degree or x0 given, manual_refit gives the same result however often it is called, leaves the state of the first call, and its result depends on nothing but the matched pairs, the basis and its arguments, so it does not matter which call of match_peaks or which edits produced the pairs.", "quantifier": "all sessions, arguments, fitting routines and numbers of repetitions", "why_tests_cant": "A test calls it twice; independence of all other state and any number of repetitions are statements about all sessions.", "anchors": ["src/rascal/calibrator.py:Calibrator.manual_refit", "src/rascal/calibrator.py:Calibrator.match_peaks"]}
{"id": "C146", "title": "Adding a pair can be undone by removing it", "statement": "After add_pix_wave_pair succeeded there is a position at which the new pair is listed, and remove_pix_wave_pair at that position restores the list of pairs and changes nothing else.", "quantifier": "all sessions with as many matched peaks as lines, pixels and wavelengths", "why_tests_cant": "A test adds and removes one pair; that no pixel, wavelength or order of the list prevents the undo is a statement about all lists.", "anchors": ["src/rascal/calibrator.py:Calibrator.add_pix_wave_pair", "src/rascal/calibrator.py:Calibrator.remove_pix_wave_pair"]}
{"id": "C147", "title": "Removing a pair can be undone by adding it again", "statement": "After remove_pix_wave_pair, add_pix_wave_pair with the removed pixel and wavelength restores the list of pairs.", "quantifier": "all sessions with array-valued matched peaks, positions and pairs", "why_tests_cant": "A test puts one pair back; whether every pair of every list returns to its place is a statement about all lists.", "anchors": ["src/rascal/calibrator.py:Calibrator.add_pix_wave_pair", "src/rascal/calibrator.py:Calibrator.remove_pix_wave_pair"]}
{"id": "C148", "title": "The possible results of fit are exactly the acceptable samples", "statement": "Over all random draws, the reports fit can return (without brute_force) are exactly these: choose sample_size distinct candidate peaks and a different candidate wavelength for each of them, add the known pairs, and take the solution of this sample, if it meets all documented requirements (intercept bounds, monotonic, more than fit_deg matches within ransac_tolerance, minimum_matches, minimum_peak_utilisation, minimum_fit_error) and costs at most as much as the baseline. Nothing else can come out, and every such solution does come out for some draws.", "quantifier": "all peak lists, atlases, settings, known pairs, baselines, numerical routines and random draws", "why_tests_cant": "A test observes a few draws; that no draw gives anything else and that no admissible solution is unreachable are statements about all draws.", "anchors": ["src/rascal/calibrator.py:Calibrator.fit", "src/rascal/calibrator.py:Calibrator._solve_candidate_ransac"]}
{"id": "C149", "title": "max_tries does not influence which results are possible", "statement": "Any two positive values of max_tries admit the same reports; the argument only changes how likely they are.", "quantifier": "all peak lists, atlases, settings, numerical routines and positive values", "why_tests_cant": "A test compares a few seeds; equality of the sets of possible results is a statement about all draws.", "anchors": ["src/rascal/calibrator.py:Calibrator.fit", "src/rascal/calibrator.py:Calibrator._solve_candidate_ransac"]}
{"id": "C150", "title": "Relaxing the thresholds of acceptance never makes a result impossible", "statement": "If fit can return a report, it still can after minimum_matches, minimum_peak_utilisation and minimum_fit_error have been lowered with set_ransac_properties.", "quantifier": "all peak lists, atlases, settings, numerical routines and thresholds", "why_tests_cant": "A test lowers one threshold for one data set and a few draws; that no solution is lost is a statement about all draws.", "anchors": ["src/rascal/calibrator.py:Calibrator.set_ransac_properties", "src/rascal/calibrator.py:Calibrator.fit"]}
{"id": "C151", "title": "Values in a line-list file are used as written", "statement": "A user who passes a file name as linelist gets the lines that are written in that file. This is false: each field is read as at most twelve characters, so a number with an exponent behind a long mantissa (the default format of np.savetxt) loses its exponent and the wavelength is off by powers of ten, without any message. What holds: files whose fields have at most twelve characters are used as written; in general exactly the first twelve characters count; a plain decimal number with n digits before the point (n at most 11) is read too low by less than 10^(n-11). Exactly what happens to a number with sign, point and exponent: with n characters up to the end of the mantissa, the exponent is lost for n of at least 12, the file cannot be read for n = 11 (and n = 10 if the exponent has a sign), and only the first digits of the exponent count otherwise.", "quantifier": "all files of empty lines, comment lines and rows of three fields, all elements, limits and thresholds", "why_tests_cant": "A test reads the packaged list or a small file; that no text beyond the twelfth character is used, and that nothing else is lost, concerns all files.", "anchors": ["src/rascal/util.py:load_calibration_lines"]}
{"id": "C152", "title": "A line-list file with a single row cannot be loaded", "statement": "If the file given as linelist has one row of three fields or none, load_calibration_lines raises IndexError, whatever the elements, limits and thresholds: np.loadtxt returns a one-dimensional array.", "quantifier": "all files with at most one row, any number of comment and empty lines, all arguments", "why_tests_cant": "A test tries one such file; that no choice of arguments avoids the error concerns all of them.", "anchors": ["src/rascal/util.py:load_calibration_lines"]}
{"id": "C153", "title": "Rows of other elements in a line-list file do not matter", "statement": "Two line-list files with at least two rows each and the same rows for the elements asked for, in the same order, give the same result or the same error - even if the other rows contain headers or numbers that cannot be read.", "quantifier": "all pairs of files of rows of three fields, all elements, limits and thresholds", "why_tests_cant": "A test adds one row to one file; that no row of another element can have an influence concerns all files.", "anchors": ["src/rascal/util.py:load_calibration_lines"]}
{"id": "C154", "title": "An atlas contains every line of its elements between the limits", "statement": "Atlas(elements=..., min_atlas_wavelength=..., max_atlas_wavelength=...) without intensity and distance limits has every line of these elements between the limits. This is false: the constructor has no brightest_n_lines argument and always keeps at most the 1000 brightest lines of each element; so does Calibrator.add_atlas. What holds: never more than 1000 lines per element named; complete for elements with at most 1000 rows in the list.", "quantifier": "all line lists, elements, limits, argsort behaviours and earlier atlas contents", "why_tests_cant": "A test uses a lamp with few lines; the loss only occurs for elements with more than 1000 rows (thorium, neon in the packaged list).", "anchors": ["src/rascal/atlas.py:Atlas.__init__", "src/rascal/atlas.py:Atlas.add", "src/rascal/calibrator.py:Calibrator.add_atlas", "src/rascal/util.py:load_calibration_lines"]}
{"id": "C155", "title": "Atlas.list shows the whole atlas", "statement": "Two atlases print the same text with list() (or list_atlas) exactly if they have the same elements, wavelengths and intensities in the same order; nothing but the source of the lines and the limits is hidden, whatever the element names contain.", "quantifier": "all atlases; all injective renderings of numbers without blanks", "why_tests_cant": "A test compares one printed text; that no two different atlases print alike, also with blanks or the word 'at' in element names, concerns all atlases.", "anchors": ["src/rascal/atlas.py:Atlas.list", "src/rascal/calibrator.py:Calibrator.list_atlas"]}
{"id": "C156", "title": "The true calibration can be found", "statement": "If the candidates of every peak contain its true line, the settings do not exclude the true calibration (intercept, monotonicity, number of matches) and least squares reproduces exact data, then some draws make fit return the true coefficients with every candidate peak matched to its true line. This is false with the default settings: a solution without error is rejected as 'too small' an error. What holds: such draws exist if and only if minimum_fit_error is 0.", "quantifier": "all environments, calibrator states, arguments without brute_force, true polynomials of any degree, numbers of peaks and wrong candidates, known pairs", "why_tests_cant": "A test with noisy synthetic data and one seed shows that something is found; that the true solution is reachable at all, or unreachable for every seed, concerns all draws.", "anchors": ["src/rascal/calibrator.py:Calibrator.fit", "src/rascal/calibrator.py:Calibrator._solve_candidate_ransac", "src/rascal/calibrator.py:Calibrator.set_ransac_properties"]}
{"id": "C157", "title": "Data without noise: fit finds the truth at once or never ends", "statement": "If every candidate pair lies exactly on the true calibration and the settings do not exclude it, then fit either returns the true calibration for all draws, after one pass for each trial - when minimum_fit_error is 0 and enough peaks are matched - or never ends, whatever it draws and whatever max_tries is. With the default minimum_fit_error it never ends.", "quantifier": "all environments, calibrator states, arguments without brute_force, true polynomials of any degree, numbers of peaks, draws", "why_tests_cant": "A test cannot observe that a call never returns, nor that this is independent of the random draws and of max_tries.", "anchors": ["src/rascal/calibrator.py:Calibrator.fit", "src/rascal/calibrator.py:Calibrator._solve_candidate_ransac", "src/rascal/calibrator.py:Calibrator.set_ransac_properties"]}
{"id": "C158", "title": "With a large top_n_candidate every candidate takes part", "statement": "If top_n_candidate is at least the number of different candidate lines of a peak, all of them take part in the search of fit. This is false: a line near several Hough lines is listed several times and pushes out others. What holds: the lines tried are the first entries of the peak's list of candidates, as many as there are different lines; and every pair of the search space near the most voted Hough line takes part.", "quantifier": "all environments, calibrator states in the linear mode without filter_close, arguments, Hough lines, search spaces, tolerances", "why_tests_cant": "On small examples each candidate is near one Hough line and nothing is lost; which entries survive depends on the whole list of Hough lines and the scores.", "anchors": ["src/rascal/calibrator.py:Calibrator._get_most_common_candidates", "src/rascal/calibrator.py:Calibrator._get_candidate_points_linear", "src/rascal/calibrator.py:Calibrator.fit"]}
{"id": "C159", "title": "The true calibration of an almost linear instrument can be found", "statement": "If the true line of every peak is in the search space and within candidate_tolerance of the most voted Hough line, top_n_candidate is at least the number of candidate lines of each peak, the true calibration rises over the range of the peaks, the settings do not exclude it and least squares reproduces exact data, then some draws make fit return it with every peak matched to its true line. This is false with the default settings, because an error of zero is rejected. What holds: such draws exist if and only if minimum_fit_error is 0.", "quantifier": "all environments, calibrator states in the linear mode without filter_close, arguments without brute_force, true polynomials of any degree, peaks, atlases", "why_tests_cant": "A test shows one instrument with one seed; the guarantee links the search space, the Hough lines, the selection of candidates and the search for all instruments.", "anchors": ["src/rascal/calibrator.py:Calibrator._get_most_common_candidates", "src/rascal/calibrator.py:Calibrator._get_candidate_points_linear", "src/rascal/calibrator.py:Calibrator.fit", "src/rascal/calibrator.py:Calibrator._solve_candidate_ransac", "src/rascal/calibrator.py:Calibrator.set_ransac_properties"]}
{"id": "C160", "title": "A larger top_n_candidate never loses a candidate", "statement": "Raising top_n_candidate never removes a peak/line pair from those the search of fit draws from. This is false with filter_close: an added line close to another one removes it. What holds: without filter_close the candidates of each peak are the same, in the same order, followed by the added ones, in the linear and in the polynomial mode.", "quantifier": "all environments, calibrator states, arguments, values of top_n_candidate (also negative ones), random offsets", "why_tests_cant": "The selection is by position in a list sorted by scores; only tests of every combination of scores and repetitions would show that no entry is displaced.", "anchors": ["src/rascal/calibrator.py:Calibrator._get_most_common_candidates", "src/rascal/calibrator.py:Calibrator._get_candidate_points_linear", "src/rascal/calibrator.py:Calibrator._solve_candidate_ransac"]}
{"id": "C161", "title": "A larger candidate_tolerance never loses a candidate", "statement": "If top_n_candidate leaves room for all candidate lines of a peak, raising candidate_tolerance never removes one of its lines from the search. This is false: lines that become near to several Hough lines push out others. What holds: nothing is lost if, with the larger tolerance, no line of the peak is near two Hough lines.", "quantifier": "all environments, calibrator states in the linear mode without filter_close, tolerances, Hough lines, search spaces", "why_tests_cant": "A test compares two tolerances on one data set; that enlarging the tolerance loses the right line depends on the order of the Hough lines.", "anchors": ["src/rascal/calibrator.py:Calibrator._get_most_common_candidates", "src/rascal/calibrator.py:Calibrator._get_candidate_points_linear", "src/rascal/calibrator.py:Calibrator._solve_candidate_ransac"]}
{"id": "C162", "title": "The order of the known pairs does not matter", "statement": "Two calls of set_known_pairs with the same pairs in another order are both accepted or both rejected, and a following fit with the same random numbers has the same outcome; the calibrators differ only in the stored pairs. The pairs are reordered as pairs: reordering the wavelengths alone gives another result.", "quantifier": "for every calibrator state, all known pairs and orders, every atlas, all arguments of fit and all random draws", "why_tests_cant": "A test can compare two orders for one data set; that no part of the search uses the positions of the known pairs needs an argument about every trial of the loop.", "anchors": ["src/rascal/calibrator.py:Calibrator.set_known_pairs", "src/rascal/calibrator.py:Calibrator._solve_candidate_ransac", "src/rascal/calibrator.py:Calibrator.fit"]}
{"id": "C163", "title": "add_atlas adds the lines in the range of the calibrator", "statement": "A successful Calibrator.add_atlas keeps the lines there were and appends lines of the packaged list of the elements named, whose tabulated wavelength lies between min_atlas_wavelength and max_atlas_wavelength or, where these are not given, between min_wavelength - range_tolerance and max_wavelength + range_tolerance (limits and lines converted for vacuum=False). Without an intensity limit and a minimum distance every such line is added, if the list has at most 1000 rows of the element.", "quantifier": "for every calibrator state with or without an atlas, every packaged list and all arguments of a successful call", "why_tests_cant": "Tests use the packaged list and a few elements; the range has to be right for every setting of the calibrator, with a new and with an existing atlas.", "anchors": ["src/rascal/calibrator.py:Calibrator.add_atlas", "src/rascal/atlas.py:Atlas.add", "src/rascal/util.py:load_calibration_lines"]}
{"id": "C164", "title": "Humidity and temperature change air wavelengths as they should", "statement": "vacuum_to_air_wavelength and air_to_vacuum_wavelength use the index of moist air by the Edlen equation: dry index less a term proportional to the partial pressure of the vapour, which is relative_humidity of the saturation pressure at the temperature of the air. More humidity and (in dry air) more warmth lower the index.", "quantifier": "for all temperatures from -50 to 100 Celsius, pressures up to 110 kPa, humidities and wavelengths above 2000 Angstrom", "why_tests_cant": "Real functions of four continuous arguments; tests compare a few numbers with themselves.", "anchors": ["src/rascal/util.py:get_vapour_pressure", "src/rascal/util.py:edlen_refraction", "src/rascal/util.py:vacuum_to_air_wavelength", "src/rascal/util.py:air_to_vacuum_wavelength"]}
{"id": "C165", "title": "Wider settings never lose a combination of a peak and a line", "statement": "With constrain_poly=True a larger candidate_tolerance or range_tolerance, or a wider range from min_wavelength to max_wavelength, keeps all pairs of the search space; constrain_poly=False keeps them too.", "quantifier": "for every calibrator state, every atlas and all tolerances", "why_tests_cant": "The pairs come from a geometric test with four corners that move with the settings; tests see single corners.", "anchors": ["src/rascal/calibrator.py:Calibrator._generate_pairs", "src/rascal/calibrator.py:Calibrator.set_atlas", "src/rascal/calibrator.py:Calibrator.set_hough_properties"]}
{"id": "C166", "title": "A supplied solution is only replaced by a better one", "statement": "If fit is called with fit_coeff, the returned solution brings at least as many peaks within ransac_tolerance of an atlas line as the supplied one.", "quantifier": "for every calibrator state, every supplied solution and all random draws", "why_tests_cant": "Depends on comparing the cost of the supplied solution with the cost of every possible trial.", "anchors": ["src/rascal/calibrator.py:Calibrator.fit", "src/rascal/calibrator.py:Calibrator._solve_candidate_ransac"]}
{"id": "C167", "title": "fit_tolerance and the overfit check decide whether a fit is returned", "statement": "fit does not return a solution whose rms is above fit_tolerance (documented as: whether a fit found by RANSAC is considered acceptable) or that has at most fit_deg + 1 matches.", "quantifier": "for every calibrator state, all arguments of fit and all random draws", "why_tests_cant": "Tests look at successful fits; the warnings are the only sign of an unacceptable one.", "anchors": ["src/rascal/calibrator.py:Calibrator.fit", "src/rascal/calibrator.py:Calibrator._solve_candidate_ransac"]}
{"id": "C168", "title": "fit announces every setting it changes", "statement": "If fit changes sample_size or minimum_matches, it logs a warning about it; if it logs one, the setting is changed. The last warning about minimum_matches names the value that is used.", "quantifier": "for every calibrator state, all arguments of fit, all random draws and every outcome, including exceptions", "why_tests_cant": "Changes happen on many paths, and tests do not compare settings before and after.", "anchors": ["src/rascal/calibrator.py:Calibrator.fit", "src/rascal/calibrator.py:Calibrator._solve_candidate_ransac"]}
{"id": "C169", "title": "Matched wavelengths come from the line lists or from the user", "statement": "Every wavelength in the atlas, in the search space, in matched_atlas and among the matches returned by fit and match_peaks is one that was brought in by a call: a tabulated line selected by add_atlas, a line given to add_user_atlas, a known pair or a manual pair. With add_atlas alone, every matched wavelength is a tabulated line of a named element, converted to air if asked.", "quantifier": "for every sequence of calls of a session, every property of wavelengths and all random draws", "why_tests_cant": "Quantifies over all histories of calls; tests check single matches.", "anchors": ["src/rascal/calibrator.py:Calibrator.fit", "src/rascal/calibrator.py:Calibrator.match_peaks", "src/rascal/calibrator.py:Calibrator.add_atlas", "src/rascal/calibrator.py:Calibrator.add_user_atlas", "src/rascal/calibrator.py:Calibrator._generate_pairs", "src/rascal/calibrator.py:Calibrator.add_pix_wave_pair", "src/rascal/calibrator.py:Calibrator.manual_refit", "src/rascal/atlas.py:Atlas.add"]}
{"id": "C170", "title": "fit comes to an end whenever it can return a solution", "statement": "If some random draws make fit return a solution, then with fair draws fit ends: there is a choice of candidates such that fit has ended once it has been drawn max_tries times, whatever is drawn in between, and with independent draws that give every possible choice a positive chance fit ends with probability one; with chance p for such a choice, the chance that fit is still running after n*m passes for n trials is at most n(1-p)^m.", "quantifier": "for every calibrator state, all arguments of fit without brute_force and every sequence of draws", "why_tests_cant": "A liveness property over infinite random sequences; no test observes it.", "anchors": ["src/rascal/calibrator.py:Calibrator.fit", "src/rascal/calibrator.py:Calibrator._solve_candidate_ransac"]}
{"id": "C171", "title": "More tries make a bad solution unlikely", "statement": "If an acceptable choice of candidates has the chance p in each draw, the chance that fit returns a solution of higher cost is at most (1 - p)^n with n trials; it tends to 0 with max_tries.", "quantifier": "for every calibrator state, all arguments of fit without brute_force and every distribution of the draws", "why_tests_cant": "A statement about probabilities of results of a search; tests use a few seeds.", "anchors": ["src/rascal/calibrator.py:Calibrator.fit", "src/rascal/calibrator.py:Calibrator._solve_candidate_ransac"]}
{"id": "C172", "title": "A good sample keeps its matches", "statement": "Without the Hough density (hough_weight 0), if fit draws an acceptable sample whose polynomial passes within ransac_tolerance / n of a candidate wavelength of each of the n candidate peaks, the returned solution matches all candidate peaks.", "quantifier": "for every calibrator state, all arguments of fit without brute_force, every sequence of draws and every result", "why_tests_cant": "Compares the winner of a search with all samples drawn; tests look at the winner only.", "anchors": ["src/rascal/calibrator.py:Calibrator._match_bijective", "src/rascal/calibrator.py:Calibrator._solve_candidate_ransac", "src/rascal/calibrator.py:Calibrator.fit"]}
{"id": "C173", "title": "Refinement does not make the solution worse", "statement": "match_peaks with refine=True and robust_refit=False returns coefficients whose weighted squared residual (the quantity minimised, inf for a solution with too few matches) is at most that of the input coefficients, if the minimiser never returns a point worse than its start.", "quantifier": "for every session state, all arguments of match_peaks and every minimiser that is never worse than its start", "why_tests_cant": "Quantifies over all minimisers and data; tests see one optimiser run.", "anchors": ["src/rascal/calibrator.py:Calibrator.match_peaks", "src/rascal/calibrator.py:Calibrator._adjust_polyfit"]}
{"id": "C174", "title": "Lines given by hand can replace the lines of an element", "statement": "Giving the tabulated wavelengths, names and intensities of the lines of an element to add_user_atlas, with the same value of vacuum, makes the same atlas as adding the element.", "quantifier": "for every line list, all arguments of Atlas.add with given limits and all conversions between air and vacuum", "why_tests_cant": "Relates two ways of building an atlas for all tables and arguments; the tests look at each way alone.", "anchors": ["src/rascal/atlas.py:Atlas.add", "src/rascal/atlas.py:Atlas.add_user_atlas", "src/rascal/util.py:load_calibration_lines"]}
{"id": "C175", "title": "An element may be added twice", "statement": "Calling add_atlas a second time with the same arguments does not change what match_peaks matches.", "quantifier": "for every calibrator without an atlas, all arguments of add_atlas and match_peaks, every line list", "why_tests_cant": "All arguments and line lists; the tests never repeat an element.", "anchors": ["src/rascal/calibrator.py:Calibrator.add_atlas", "src/rascal/atlas.py:Atlas.add", "src/rascal/calibrator.py:Calibrator.match_peaks"]}
{"id": "C176", "title": "A true calibration that has been found is returned", "statement": "Let the data have no noise: the true line of every candidate peak is among its candidates, and only the true calibration passes exactly through a candidate of each candidate peak. If one of the first max_tries draws consists of true pairs and fit returns, it returns the true calibration, with every candidate peak matched to its true line; so with the chance p of such a draw, anything else is returned with probability at most (1 - p) ^ max_tries.", "quantifier": "for every calibrator, all arguments of fit without brute_force, every start of the search with such candidates, every tape of draws, every distribution of the draws", "why_tests_cant": "Speaks about all candidate tables and all sequences of draws, and about the probability of a wrong result; a test sees one seed.", "anchors": ["src/rascal/calibrator.py:Calibrator._solve_candidate_ransac", "src/rascal/calibrator.py:Calibrator._match_bijective", "src/rascal/calibrator.py:Calibrator.fit"]}
{"id": "C177", "title": "Lines outside the search space do not matter", "statement": "With constrain_poly, an atlas line that no peak can reach inside the search space (the quadrilateral of the documentation) has no influence: the pairs, the Hough transform and the candidates are the same with and without such lines, and fit returns the same solution, peaks and wavelengths, only the atlas utilisation is divided by the new number of lines.", "quantifier": "for every calibrator with peaks, any two atlases with the same lines inside the search space, every sequence of later calls that keep the atlas, all arguments of fit and all random draws", "why_tests_cant": "Relates two runs with different atlases, for all atlases and all sequences of draws; a test compares one pair of runs.", "anchors": ["src/rascal/calibrator.py:Calibrator._generate_pairs", "src/rascal/calibrator.py:Calibrator.set_atlas", "src/rascal/calibrator.py:Calibrator.fit"]}
{"id": "C178", "title": "match_peaks turns an approximate solution into the true one", "statement": "Let the data have no noise. If, for every peak that has a line within the tolerance of the wavelength predicted by an approximate solution, only its true line is that close, and there are more such peaks than fit_deg, then match_peaks returns and stores the true calibration, with these peaks, their true lines, residuals and rms 0. In particular, with lines at least twice the tolerance apart and a solution nowhere off by the tolerance, all peaks are matched.", "quantifier": "for every calibrator, every starting solution given or stored, every tolerance and degree, all peaks and atlas lines with this property", "why_tests_cant": "Speaks about all approximate solutions and all line lists; a test tries one.", "anchors": ["src/rascal/calibrator.py:Calibrator.match_peaks", "src/rascal/models.py:robust_polyfit"]}
{"id": "C179", "title": "Editing true pairs keeps the true solution", "statement": "If a calibrator holds the true solution and true pairs, then adding further true pairs, removing pairs, changing settings and refitting keep the true solution; with more pairs than the degree manual_refit() returns it with residuals and rms 0.", "quantifier": "for every calibrator holding a true solution, every history of such calls", "why_tests_cant": "Speaks about all histories of edits; a test makes a few.", "anchors": ["src/rascal/calibrator.py:Calibrator.add_pix_wave_pair", "src/rascal/calibrator.py:Calibrator.remove_pix_wave_pair", "src/rascal/calibrator.py:Calibrator.manual_refit"]}
{"id": "C180", "title": "Calibrating a synthetic spectrum gives back its coefficients", "statement": "Fitting the pixels SyntheticSpectrum.get_pixels returns against the wavelengths it returns, by manual_refit of the degree of the model, or by match_peaks from an approximate solution, gives the coefficients the synthetic spectrum was created with.", "quantifier": "for every synthetic spectrum of degree at least 1, every list of wavelengths, every calibrator", "why_tests_cant": "Combines two modules for all coefficient lists; a test checks one spectrum, and compares with a tolerance.", "anchors": ["src/rascal/synthetic.py:SyntheticSpectrum.get_pixels", "src/rascal/synthetic.py:SyntheticSpectrum.set_model", "src/rascal/calibrator.py:Calibrator.manual_refit", "src/rascal/calibrator.py:Calibrator.match_peaks"]}
{"id": "C181", "title": "The degree asked for is the degree returned", "statement": "fit returns fit_deg + 1 coefficients; match_peaks with robust_refit returns a solution of degree fit_deg, or else of the degree of the solution it started from; manual_refit one of the degree given, or of x0, or else of the stored solution. The solution returned is the stored one.", "quantifier": "for every calibrator, all arguments and random draws, whenever the call returns", "why_tests_cant": "Holds for every run and every argument; a test sees some.", "anchors": ["src/rascal/calibrator.py:Calibrator.fit", "src/rascal/calibrator.py:Calibrator.match_peaks", "src/rascal/calibrator.py:Calibrator.manual_refit"]}
{"id": "C182", "title": "A spectrum given to plot_fit is drawn, with the markers at its values", "statement": "After a successful fit, plot_fit with a spectrum of num_pix values draws the figure; the marker of a peak starts at the value of the spectrum at the peak.", "quantifier": "for every calibrator, every spectrum, every pixel list and all peaks, after any successful fit", "why_tests_cant": "Holds for all positions of the peaks and all pixel lists; a plotting test sees one figure, and only that it was made.", "anchors": ["src/rascal/plotting.py:plot_fit", "src/rascal/calibrator.py:Calibrator.set_calibrator_properties", "src/rascal/calibrator.py:Calibrator.plot_fit"]}
{"id": "C183", "title": "fit, match_peaks and manual_refit recover the true calibration from data without noise", "statement": "If every candidate pair lies on the true calibration and the settings allow it, fit returns it whatever is drawn; match_peaks afterwards, with atlas lines at least twice its tolerance apart and no wrong line within the tolerance of a peak, returns it with exactly the peaks whose true line is in the atlas (also those that were no candidates) and rms 0; manual_refit after that returns it again with the same pairs.", "quantifier": "for every calibrator, every true polynomial, every random tape long enough and every tolerance, for every kernel that fits exact data exactly", "why_tests_cant": "Holds for every sequence of random draws and every atlas; the tests of the pipeline use one seed, and accept a calibration within some Angstroms.", "anchors": ["src/rascal/calibrator.py:Calibrator.fit", "src/rascal/calibrator.py:Calibrator.match_peaks", "src/rascal/calibrator.py:Calibrator.manual_refit"]}
{"id": "C184", "title": "What fit depends on", "statement": "The outcome of fit (the value returned, that it raises, or that it goes on) is determined by the peaks, the pixel list, the Hough and RANSAC settings, the search space, the known pairs, the Hough transform and the wavelengths of the atlas: num_pix, the plotting library, elements and intensities of the atlas, the arguments of set_atlas and results of earlier fits, matches, pair edits and refits have no influence.", "quantifier": "for every two calibrators that agree in these inputs, for every history of inspecting calls before the fit, all arguments and all random numbers", "why_tests_cant": "A statement about pairs of executions over all states; tests compare a result with a number, not two results with each other.", "anchors": ["src/rascal/calibrator.py:Calibrator.fit", "src/rascal/calibrator.py:Calibrator._solve_candidate_ransac", "src/rascal/calibrator.py:Calibrator.do_hough_transform"]}
{"id": "C185", "title": "The simulated arc is the sum of its lines", "statement": "The script arc_lines/convolve_lines.py is meant to simulate the spectrum of a Xe lamp: at every wavelength of its grid, the sum over the Xe lines of nist_clean.csv of the intensity of the line times the Gaussian of the script centred on the line rounded to 0.01 Angstrom. That is false for a file whose lines are not in increasing order: the intensities are placed in the order of the file on the wavelengths in increasing order. The script runs exactly if there is a Xe line and no two Xe lines round to the same 0.01 Angstrom, and its spectrum is the intended one whenever the rounded wavelengths increase through the file.", "quantifier": "every list of rows, every kernel; the Gaussian of the script for real numbers", "why_tests_cant": "A test sees the one file that is shipped, whose Xe lines happen to be sorted and distinct; that the assignment by mask permutes the intensities of any other file, and that the convolution puts a Gaussian on each line whatever the positions, are statements about all files.", "anchors": ["src/rascal/arc_lines/convolve_lines.py:6-27", "src/rascal/arc_lines/convolve_lines.py:30-59"]}
{"id": "C186", "title": "A seed makes a fit reproducible", "statement": "set_calibrator_properties(seed=...) is documented to make fits deterministic for debugging. The seed given to a calibrator should determine its next fit whatever other calibrators do; that is false, because the seed goes to numpy's global generator, which all calibrators share: seeding another calibrator in between changes the fit. What holds: if two calibrators, in any two processes and with the generators in any state, agree in what a fit depends on and get the same seed in a call that does not raise, and no calibrator is seeded or fits before the fit, then the fits have the same outcome, however many other calls on any calibrators there are; and two runs from the same calibrators that begin with the same seed go through the same states whatever calls follow, fits included. A seed in a call that raises is not used.", "quantifier": "every generator, every number of calibrators, all histories of calls, all arguments of fit, any number of passes", "why_tests_cant": "Tests run one calibrator in one process; that nothing done before the seed and nothing but seeds and fits after it can matter is about all histories and all generators, and the interference needs two calibrators.", "anchors": ["src/rascal/calibrator.py:859-982", "src/rascal/calibrator.py:299", "src/rascal/calibrator.py:538-553", "src/rascal/calibrator.py:1552-1715"]}
{"id": "C187", "title": "Messages are printed once and from the chosen level", "statement": "However many calibrators a process makes and however often set_calibrator_properties is called, with valid arguments or not, no message of a calibrator is printed twice. A level chosen with log_level is meant to stay until another logger or level is given; that is false: set_calibrator_properties called for any other property resets the logger to 'Calibrator' and its level to WARNING, and so does making another calibrator, because both use the default arguments and the logger is shared by name. What holds: after a call that chooses a logger and a level other than NOTSET exactly the messages from that level on are printed until a call concerns that calibrator or that logger. An unknown level raises ValueError, after the calibrator has got the named logger.", "quantifier": "all histories of constructors and set_calibrator_properties calls, all loggers, levels and messages", "why_tests_cant": "Tests do not look at log output, and the number of handlers and the level of a shared logger depend on the whole history of all calibrators of the process.", "anchors": ["src/rascal/calibrator.py:82", "src/rascal/calibrator.py:859-908"]}
{"id": "C188", "title": "What match_peaks depends on", "statement": "What match_peaks returns, or raises, is determined by its arguments, the peaks, the pixel list, the wavelengths of the atlas, the type of polynomial and, unless coefficients are given, the stored solution. So no change of the Hough or RANSAC settings, the known pairs, the Hough transform or the plotting library, failing calls included, makes a difference. Given coefficients should moreover make it independent of earlier fits; that is false before the first fit, when match_peaks raises AttributeError because polyval is only set by fit. After a fit no history of such settings, fits of the same type, matches, pair edits and refits makes a difference to what match_peaks makes of coefficients it is given.", "quantifier": "all sessions, all arguments, all histories of such calls, all numerical kernels", "why_tests_cant": "Tests run match_peaks after one particular set-up; independence of dozens of settings and of everything done before is about all pairs of states and all histories.", "anchors": ["src/rascal/calibrator.py:1717-1956", "src/rascal/calibrator.py:754-820", "src/rascal/calibrator.py:984-1283"]}
{"id": "C189", "title": "Order of the matched wavelengths", "statement": "Of two peaks matched by fit the one at the larger pixel should have the longer wavelength, since the dispersion increases. That is false: the matching takes the nearest candidate of every peak, and a line need not be a candidate of both peaks, so matches can cross. For fits of degree 1 two matched peaks at least a pixel apart are in order whenever each of the two lines is a candidate of both peaks, and matches that cross bound the dispersion: over any two matches the wavelength grows by less than two tolerances, plus two tolerances for each distance of the crossing peaks that fits between them.", "quantifier": "all sessions, all arguments, all random draws, all fits of degree 1 that return, all pairs of matches", "why_tests_cant": "A test compares the matches of one spectrum with the expected list; whether matches can cross at all depends on the tolerances, the candidates and the draws.", "anchors": ["src/rascal/calibrator.py:317-395", "src/rascal/calibrator.py:558-700"]}
{"id": "C190", "title": "Lists of the user and lists of the calibrator", "statement": "What a user does in place with lists and arrays, their own, given to the calibrator or returned by it, should not change the pairs of the calibrator. That is false: fit, match_peaks and manual_refit return the lists of the calibrator itself, and arrays given as pixel_list, as known pairs (of floats) or as fit_coeff of a fit that raises are kept. What holds for all programs: no call ever changes a list or array the user has; the peaks are a private copy; after a successful edit the pairs are private, and after fit, match_peaks or manual_refit returns nothing the user had before is shared as matches; and a user who changes nothing in place that the calibrator has at that moment gets the results as if everything were copied.", "quantifier": "all programs of calls and in-place changes, all objects, all kernels and random draws", "why_tests_cant": "Tests use each result once; whether some later change of some list reaches the calibrator is about all interleavings of calls and changes.", "anchors": ["src/rascal/calibrator.py:37", "src/rascal/calibrator.py:708-709", "src/rascal/calibrator.py:934", "src/rascal/calibrator.py:1531-1550", "src/rascal/calibrator.py:1707-1715", "src/rascal/calibrator.py:1883-1956", "src/rascal/calibrator.py:1985-2124"]}
{"id": "C191", "title": "Spectra in which the wavelength decreases", "statement": "A detector can be read out from either end, so what fit can match in a spectrum it should be able to match in its mirror image. That is false: solutions must increase with the pixel, so from a matched peak to one at least a pixel further the wavelength never falls by two tolerances. For an instrument whose wavelengths fall by at least that much per pixel, of any two matches a pixel apart at least one is wrong, whatever the draws; the fit may still return, with a wrong increasing solution.", "quantifier": "all sessions, argument values, random draws and fitted lines (degree 1), all peaks at least a pixel apart, any decreasing truth", "why_tests_cant": "Tests use increasing dispersion; that no draw at all can find a decreasing solution is about all tapes of random numbers.", "anchors": ["src/rascal/calibrator.py:582-600", "src/rascal/calibrator.py:1717-1860"]}
{"id": "C192", "title": "Lines added to an atlas that is in use", "statement": "A line added to the atlas object of a calibrator (the atlas is shared, not copied) should be available to the next fit. That is false with linear candidates: whatever is done to the atlas, fit matches only combinations of the search space as it was made by the last set_atlas, add_atlas, add_user_atlas or set_hough_properties, for all draws. With polynomial candidates fit uses the lines the atlas has now. Calling set_hough_properties() without arguments makes the search space again, with exactly the combinations of the peaks and the present lines (if constrain_poly is off).", "quantifier": "all histories of changes of the atlas and calls other than the four above, all settings, arguments, random draws and kernels", "why_tests_cant": "Tests set the atlas once; that no draw finds the new line, after any history of changes, is about all executions.", "anchors": ["src/rascal/calibrator.py:86-133", "src/rascal/calibrator.py:219-263", "src/rascal/calibrator.py:265-315", "src/rascal/calibrator.py:1118-1119", "src/rascal/calibrator.py:1399-1423"]}
{"id": "C193", "title": "A larger tolerance in match_peaks", "statement": "With a larger tolerance match_peaks should return whenever it did with a smaller one, with all matches still there. That is false: a second line near a peak makes it raise TypeError. What holds: of two calls that return and start from the same coefficients, the one with more peaks, more atlas lines or a larger tolerance has all the pairs of the other.", "quantifier": "all sessions, pairs of calls, tolerances, sets of peaks and lines, kernels", "why_tests_cant": "Relates two calls, for all data; a test compares a call with a number.", "anchors": ["src/rascal/calibrator.py:1822-1876", "src/rascal/calibrator.py:1878-1956"]}
{"id": "C194", "title": "Where the pixels are counted from", "statement": "Adding a constant to all pixel numbers (peaks and pixel_list) should not change what fit can match. That is false: min_intercept and max_intercept, which set_hough_properties derives from min_wavelength, bound the solution at pixel 0 and not at the first pixel. What holds: the line through any two matches passes pixel 0 within these bounds, up to the tolerance. So if the first pixel is n and the true wavelength there is min_wavelength, two matches can only both be true if the truth changes by at most range_tolerance between pixel 0 and pixel n, up to the tolerance.", "quantifier": "all sessions, argument values, random draws and fitted lines (degree 1), all pairs of matches, all first pixels and dispersions", "why_tests_cant": "Tests count pixels from 0; that no draw calibrates a renumbered spectrum is about all tapes of random numbers.", "anchors": ["src/rascal/calibrator.py:577-582", "src/rascal/calibrator.py:1088-1090", "src/rascal/calibrator.py:932-941"]}
{"id": "C195", "title": "An explicit Hough transform before the first fit", "statement": "As long as the calibrator has no transform, calling do_hough_transform() somewhere among the calls before fit(), whether it succeeds or raises, makes no difference: fit gives the same result or the same exception, and leaves the same state, provided the calls in between do not concern the transform (calibrator and RANSAC settings, known pairs, the plotting library, lines of the atlas). The states differ only if fit is refused before it reaches the transform (unknown fit_type, no atlas).", "quantifier": "all calibrators without a transform, all calls before, all later calls of the named kinds, all fit arguments and random draws", "why_tests_cant": "Tests run one sequence; that no setting is read by only one of the two orders is about all settings and all sequences.", "anchors": ["src/rascal/calibrator.py:1425-1452", "src/rascal/calibrator.py:1651-1652", "src/rascal/calibrator.py:1552-1715"]}
{"id": "C196", "title": "A wrong match in robust_polyfit", "statement": "robust_polyfit uses the Huber loss, so one wrong wavelength among pairs that otherwise lie on a calibration should only move the answer by a limited amount, however wrong it is. That is false: the residuals are divided by the standard deviation of the wavelengths themselves, which grows with the error. What holds: whenever the residuals of the ordinary least-squares fit are below the standard deviation of the wavelengths, robust_polyfit returns exactly the ordinary least-squares fit. For five pixels on a line, with the last wavelength wrong by b, this is so for every b > 0, and the answer at the first pixel is wrong by b / 5.", "quantifier": "all data, degrees and starting points, all solvers that find a global minimum of the loss, all sizes of the error", "why_tests_cant": "That no solver and no size of the error gives robustness is a statement about all of them; a test shows one number.", "anchors": ["src/rascal/models.py:57-67", "src/rascal/models.py:106-112", "src/rascal/calibrator.py:653-656"]}
{"id": "C197", "title": "Noise in robust_polyfit", "statement": "Let the wavelengths given to robust_polyfit be those of a true calibration up to errors whose squares add up to less than their variance. Then the squared residuals of the answer and its squared deviations from the truth at the given pixels add up exactly to the squared errors: the reported rms is never larger than that of the errors, and at the given pixels the solution is not further from the truth than the errors. With errors of at most delta each, the wavelength found for any pixel is off by at most sqrt(n) delta times the sum of the absolute Lagrange polynomials of any degree + 1 of the given pixels.", "quantifier": "all data with enough different pixels, all true calibrations of the degree, all errors of the stated size, all pixels (also outside the range of the data), all solvers that find a global minimum of the loss", "why_tests_cant": "Error propagation is a statement about all errors; tests use one noise sample.", "anchors": ["src/rascal/models.py:70-123", "src/rascal/calibrator.py:653-656", "src/rascal/calibrator.py:1916", "src/rascal/calibrator.py:2106"]}
{"id": "C198", "title": "Noise in fit, match_peaks and manual_refit", "statement": "If the final fit of fit(), match_peaks() (robust_refit) or manual_refit() is a least-squares fit (which C196 and C197 establish for robust_polyfit when the errors are small compared with the spread of the wavelengths), then for every calibration of the degree, in particular the true one: the squared residuals of the returned solution and its squared deviations from that calibration at the matched peaks add up exactly to the squared errors of the matched pairs; the reported rms is at most that of the errors; and if the squared errors add up to at most beta ^ 2, the wavelength of any pixel is off by at most beta times the sum of the absolute Lagrange polynomials of any degree + 1 matched peaks.", "quantifier": "all sessions, settings, arguments and random draws with a successful call; all calibrations of the degree, all pixels", "why_tests_cant": "Error propagation is a statement about all errors and all pixels; tests use one noise sample.", "anchors": ["src/rascal/calibrator.py:653-668", "src/rascal/calibrator.py:1914-1956", "src/rascal/calibrator.py:2106-2124"]}
{"id": "C199", "title": "Removing pairs and raising the degree in manual_refit", "statement": "If manual_refit() solves the least squares problem: removing a pair with remove_pix_wave_pair() and calling manual_refit() again never makes the rms larger. (False: a pair on the solution.) What holds: the sum of the squared residuals falls by at least the square of the residual of the removed pair; the rms does not grow if that residual was at least the rms, in particular if it was the largest; and on the same pairs a higher degree never makes the rms larger.", "quantifier": "all sessions, arguments, indices (also negative) and degrees with successful calls", "why_tests_cant": "Holds for all data; a test removes one pair from one data set.", "anchors": ["src/rascal/calibrator.py:2009-2026", "src/rascal/calibrator.py:2028-2124"]}
{"id": "C200", "title": "Peaks that no line can reach", "statement": "With constrain_poly a spurious peak that reaches no line of the atlas inside the search space has no influence: two calibrators made for peaks that differ by such peaks (with the same largest peak, or with a spectrum), and configured alike, have the same pairs, Hough transform and candidates, and fit() with linear candidates returns, raises or goes on alike for the same random draws, with only the peak utilisation divided by the own number of peaks. This needs minimum_peak_utilisation 0 and minimum_matches not above the number of peaks, since both are counted in peaks.", "quantifier": "all peaks, spectra, atlases, histories of configuration calls, arguments of fit and random draws", "why_tests_cant": "Relates two runs for all data; tests run one list of peaks.", "anchors": ["src/rascal/calibrator.py:86-133", "src/rascal/calibrator.py:382-752", "src/rascal/calibrator.py:1552-1715"]}
{"id": "C201", "title": "Evenly spaced peaks", "statement": "When the peaks among the candidates are evenly spaced, the random trials of fit() can be drawn, each peak with a positive chance and the chances adding up to one, unless there are exactly 3, 5, 6, 7 or 9 of them. For those numbers fit() without brute_force raises ValueError on the first trial, whatever is drawn. So the claim that fit() on usable candidates never raises ValueError from sampling is false.", "quantifier": "all spacings, offsets, numbers of peaks from 2 up, calibrators, arguments of fit and random draws", "why_tests_cant": "The weights come from a histogram closed on the left read with bins closed on the right; a test sees one spacing.", "anchors": ["src/rascal/calibrator.py:518-545"]}
{"id": "C202", "title": "Calibration of a binned spectrum", "statement": "Multiplying all pixels by one factor, as binning or oversampling does, leaves the calibration where it was: with the peaks, the pixel list, the number of pixels and the known pixels multiplied, every configuration call succeeds or fails alike, and fit() with the same draws gives at the new pixel the wavelength it gave at the old one, matches the same lines to the same peaks and reports the same errors and utilisations. This is false with the default hough_weight, because the density is read with its axes exchanged, and for peaks less than 5/7 of a pixel apart, because the monotonicity check walks in steps of one pixel.", "quantifier": "all positive factors, peaks, pixel lists, histories of calls, atlases, arguments and draws", "why_tests_cant": "Compares two runs on two detectors; a test sees one factor and one spectrum.", "anchors": ["src/rascal/calibrator.py:110-127", "src/rascal/calibrator.py:518-523", "src/rascal/calibrator.py:585-600", "src/rascal/calibrator.py:1088-1116", "src/rascal/houghtransform.py:70-113", "src/rascal/houghtransform.py:170-190"]}
{"id": "C203", "title": "Wavelengths given as integers", "statement": "Lines of an own atlas given as whole numbers of Python type int are calibrated like the same numbers given as floats: fit() with the same draws returns the same result. This is false with candidate_weighted=True: the summed weights are stored in an array of the type of the wavelengths, the fractions are lost, and while every sum is below one the weights have no influence on which lines a peak is paired with.", "quantifier": "all environments, configured calibrators with integer peaks and lines, arguments and draws; all candidate lists for the ranking", "why_tests_cant": "Depends on the type of the numbers, not on their values; a test with float literals never meets it.", "anchors": ["src/rascal/calibrator.py:103-106", "src/rascal/calibrator.py:154-217", "src/rascal/atlas.py:206-281"]}
{"id": "C204", "title": "match_peaks keeps the matches of a fit", "statement": "Calling match_peaks() right after fit(), with a tolerance not below the ransac tolerance, keeps every match the fit reported. This is false: the robust final fit may leave a matched line further away than the ransac tolerance (its residual is then cut to that value), and match_peaks drops the peak. If no reported residual is at the ransac tolerance every pair is kept and the peak utilisation does not fall.", "quantifier": "all environments, sessions whose pairs lie on the peaks, fit arguments, draws, and match_peaks calls that return a report", "why_tests_cant": "Needs the state left by one call as the input of the next, for all solutions and residuals.", "anchors": ["src/rascal/calibrator.py:640-675", "src/rascal/calibrator.py:1552-1715", "src/rascal/calibrator.py:1717-1956"]}
{"id": "C205", "title": "When match_peaks returns a result", "statement": "match_peaks() with given coefficients and the robust fit returns a result exactly when some peak has a line within the tolerance, no peak has two, both fits of the matched pairs return and the first is not off by 10**9. With refine=True the minimiser must also return numbers, and a list of coefficients raises TypeError. Stored coefficients are used like the same coefficients given as an array. Lines at least twice the tolerance apart leave no peak with two lines. Choosing min_distance twice the tolerance in add_atlas() does not achieve this: the lines are compared in the order of their brightness, and close lines stay.", "quantifier": "all environments, sessions with a basis and an atlas, coefficients, tolerances and degrees; all line lists for the distance", "why_tests_cant": "An equivalence over all line lists and kernels; a test sees single calls that return or raise.", "anchors": ["src/rascal/calibrator.py:1717-1956", "src/rascal/atlas.py:96-204", "src/rascal/util.py:198-229", "src/rascal/util.py:399-411"]}
{"id": "C206", "title": "A larger ransac_tolerance", "statement": "With the same random draws, hough_weight 0, filter_close off and candidates in which no line belongs to two peaks, a fit with a larger ransac_tolerance matches at least as many peaks. In general it may match fewer: a peak whose nearest line belongs to another peak is dropped without cost, so a worse trial can win.", "quantifier": "all environments, calibrators, fit arguments and draws; all pairs of tolerances; no pass of the loop beyond the list of trials", "why_tests_cant": "Compares two fits over all data and draws; tests run single fits with one tolerance.", "anchors": ["src/rascal/calibrator.py:456-464", "src/rascal/calibrator.py:602-643", "src/rascal/calibrator.py:700-760", "src/rascal/calibrator.py:1121-1283"]}
{"id": "C207", "title": "Order of the matches in fits of low degree", "statement": "In a fit of degree 1 or 2 whose matched peaks span at least 7.5 pixels, the matched wavelength does not fall by two tolerances or more from a matched peak to a later one, however close together they are; if the two lines are candidates of both peaks, they are strictly in order. In fits of degree 3 this fails: the monotonicity check only looks at steps of a whole pixel, and a cubic can fall within one.", "quantifier": "all environments with a fit that returns as many coefficients as asked for, all calibrators, arguments and draws", "why_tests_cant": "Concerns every fitted polynomial and every pair of peaks; tests use a few well separated peaks.", "anchors": ["src/rascal/calibrator.py:575-600", "src/rascal/calibrator.py:602-643"]}
{"id": "C208", "title": "A peak given twice", "statement": "A peak that is given twice is matched at most once, so a fit matches at most as many peaks as there are different ones, and at most as many as there are different wavelengths in the combinations; the peak utilisation is still counted out of all peaks given. If minimum_peak_utilisation asks for more than that, no fit ever returns, whatever is drawn, and unlike minimum_matches it is not adjusted.", "quantifier": "all calibrators made by the constructor, all histories of calls, all fit arguments, draws and numbers of tries", "why_tests_cant": "A statement about every run of a random search, including those that never end; a test can only wait.", "anchors": ["src/rascal/calibrator.py:602-643", "src/rascal/calibrator.py:681-700", "src/rascal/calibrator.py:1654-1670"]}
{"id": "C209", "title": "The returned solution increases with the pixel", "statement": "In fits of degree 1 whose matched lines are at least two ransac_tolerances apart and whose matched peaks span at least 7.5 pixels, the wavelength of the returned solution increases with the pixel everywhere; the same holds for manual_refit with degree 1 and pairs in order. In fits of degree 2 this fails even between the matched peaks: the check for monotony looks at the sample, not at the solution fitted to all matches.", "quantifier": "all environments, calibrators, arguments and draws; every loss that grows with the size of the error, the Huber loss and squares included", "why_tests_cant": "A statement about every fitted solution at every pixel; tests look at single fits.", "anchors": ["src/rascal/calibrator.py:575-600", "src/rascal/calibrator.py:645-662", "src/rascal/models.py:robust_polyfit"]}
{"id": "C210", "title": "Order in which samples are drawn", "statement": "If each of the samples drawn is acceptable by itself, is given up for want of candidates, or fails the checks made before its cost is computed, and no two acceptable ones cost the same, the order of the draws has no influence on the result of fit or on the calibrator. In general it has: a sample that is rejected for too few matches is drawn again without using up a try while it would be the cheapest so far, and uses up a try once something cheaper has been found, so that with max_tries given the order decides which samples are evaluated at all. Two searches that evaluate the same samples return the same.", "quantifier": "all environments, calibrators, arguments, draws and permutations of them", "why_tests_cant": "A statement about all orders of all draws; a test sees single seeds.", "anchors": ["src/rascal/calibrator.py:525-735"]}
{"id": "C211", "title": "A threshold of brightness for each element", "statement": "Atlas.add() with a list of thresholds, one for each of several elements, as filter_intensity() allows, raises AssertionError and adds nothing, because each element is loaded by itself with the whole list. A list with a single threshold is used for all elements like the number. One call for each element with its threshold adds the lines of each element above its own threshold.", "quantifier": "all line lists, atlases, arguments, elements and thresholds", "why_tests_cant": "A statement about every list of elements and thresholds; tests use numbers.", "anchors": ["src/rascal/atlas.py:96-204", "src/rascal/util.py:232-290", "src/rascal/util.py:389-393"]}
{"id": "C212", "title": "Coefficients given as integers", "statement": "match_peaks gives the same result whether fit_coeff is an array of integers or an array of floats with the same values. This is false: with refine=True the refined values are stored in a copy of the integer array, which cuts off their fractions. With robust_refit=False the coefficients returned are whole numbers, each less than one from the refined value, and if the minimiser moves each coefficient by less than one away from zero they are the coefficients given. The objective seen by the minimiser does not change for such moves. Without refinement, or with the default robust_refit=True and a minimiser that returns numbers, result and state are the same.", "quantifier": "every calibrator state, every integer array of coefficients, every outcome of the minimiser", "why_tests_cant": "a test uses one array and one optimiser run; whether the type can matter, and for which options, is a statement about all of them", "anchors": ["src/rascal/calibrator.py:match_peaks", "src/rascal/calibrator.py:_adjust_polyfit"]}
{"id": "C213", "title": "A fit that has ended stays as it is, and seeds may differ arbitrarily", "statement": "Once fit has returned or raised, random numbers drawn later make no difference to its outcome or to the calibrator it leaves, so for one stream of random numbers a fit has at most one outcome. Two calibrators that agree in what a fit depends on and get the same seed right before the fit return the same report, or both raise, however long each of the two fits is watched, if only both end. Nothing more can be said about seeds: for any two runs of a fit there is a generator for which one seed gives the first run and another seed the second, on every calibrator.", "quantifier": "all calibrators, all arguments, all streams and tapes of draws, all numbers of passes, all generators", "why_tests_cant": "A test sees one run with one generator; that later draws cannot matter, for every stream and every moment at which the loop ends, and that no relation between the fits of two seeds may be relied on, are statements about all streams.", "anchors": ["src/rascal/calibrator.py:525-735", "src/rascal/calibrator.py:945-952", "src/rascal/calibrator.py:1552-1715"]}
{"id": "C214", "title": "Right matches and the other matches of a fit", "statement": "If degree + 1 of the matches of a fit are right, one expects all its matches to be right up to ransac_tolerance. That is false: the trial polynomial need only be within the tolerance of the right matches, and the difference grows away from them, so a wrong line far from them can be matched. What holds for every degree and basis: a match at pixel p is off by less than ransac_tolerance times one plus the sum of the absolute Lagrange polynomials of the right pixels at p; so if every other line is further from the true wavelength than that, the match is right. For powers, a calibration through degree + 1 matches is at pixel 0 within the bounds of the intercept up to the tolerance times that sum.", "quantifier": "all calibrators, all arguments, all random draws, all fits that return, all degrees, all calibrations of the degree through degree + 1 of the matches", "why_tests_cant": "A test compares the matches with the expected list for one spectrum; how far a wrong match can be from the truth given that others are right depends on all positions of the peaks and all tolerances.", "anchors": ["src/rascal/calibrator.py:573-735", "src/rascal/calibrator.py:1552-1715"]}
{"id": "C215", "title": "Line filters applied again", "statement": "Lines that passed a filter pass it again. For filter_wavelengths more holds: narrowing the range in two steps gives the rows, in the order, of one step with the common part of the ranges. Lines kept by filter_intensity are all kept again under the same thresholds. For filter_separation it is false: when one line alone is kept, the second filtering removes it. With at least two lines kept, filtering again with the same or a smaller distance keeps all of them; with a larger distance it keeps every line that one filtering with the larger distance keeps, and possibly more.", "quantifier": "all line lists, all ranges, thresholds and distances", "why_tests_cant": "A test filters one list twice; that the second pass changes nothing has to hold for every list, and the exception concerns lists with a single isolated line.", "anchors": ["src/rascal/util.py:165-195", "src/rascal/util.py:198-229", "src/rascal/util.py:232-290"]}
{"id": "C216", "title": "More slopes, wider bounds and more data in the Hough transform", "statement": "A user who raises num_slopes expects every Hough point found before to be found again. That is false in general: three slopes from 0 to 2 include 1, four do not. It holds when num_slopes - 1 is multiplied by a whole number. With a wider range of intercepts and further data points, the slopes being the same, all points found before are found, in the same order and at least as often. A wider range of slopes may lose points. The order of the data does not matter, and there are at most num_slopes points for each data point.", "quantifier": "all transforms with constraints, all data, all numbers of slopes, all bounds", "why_tests_cant": "A test compares two transforms of one data set; which numbers of slopes keep the points is a statement about all grids.", "anchors": ["src/rascal/houghtransform.py:60-92"]}
{"id": "C217", "title": "The unit of the intensities", "statement": "The intensities of a line list may be on any scale: when they and the thresholds are replaced by their values under a strictly increasing function, filter_intensity chooses the same lines, load_calibration_lines returns the same lines, with brightest_n_lines, min_distance and conversion to air included, and Atlas.add adds the same lines, all with their intensities on the new scale, or raises the same exceptions. The wavelengths used by a calibration are therefore the same. Only filter_intensity called without thresholds asks for the new scale to have the same zero.", "quantifier": "all line lists, files, thresholds, other arguments and atlases, all strictly increasing functions, all sorting routines that only compare", "why_tests_cant": "A test loads one list; that nothing but the ranking of the intensities and thresholds matters is a statement about all scales and all lists.", "anchors": ["src/rascal/util.py:232-290", "src/rascal/util.py:371-423", "src/rascal/atlas.py:96-204"]}
{"id": "C218", "title": "Lines in air and the minimum distance", "statement": "Loading lines with vacuum=False is loading them with vacuum=True between the converted limits and converting the wavelengths found, with the same exceptions. With min_distance one therefore expects two lines in air to be at least that far apart. That is false: the distance is taken in vacuum, and lines 10 Angstrom apart in vacuum are closer in air and both returned for min_distance 10. Without a limit on the number of lines the lines in air are at least 0.99953 times min_distance apart, for all temperatures, pressures and humidities considered.", "quantifier": "all line lists, elements, limits from 2000 Angstrom, thresholds and distances, temperatures from 223.15 to 373.15 K, pressures up to 110000 Pa, all humidities", "why_tests_cant": "A test looks at the distances in one list at one temperature; the bound has to hold for all wavelengths and all conditions.", "anchors": ["src/rascal/util.py:83-123", "src/rascal/util.py:198-229", "src/rascal/util.py:371-423"]}
{"id": "C219", "title": "Lines of several ranges removed one after the other", "statement": "After several calls of remove_atlas_lines_range the lines outside all ranges are kept, in order. When the ranges do not meet, one expects that the order of the calls does not matter. That is false: the call skips the line after each line it removes, and removing the lines of one range can make lines of another range neighbours, so that one of them stays. If the lines are in order of wavelength, the calls for ranges that do not meet may be made in any order, also repeated ones.", "quantifier": "all atlases, all numbers of calls, all wavelengths and tolerances", "why_tests_cant": "A test removes one or two ranges from one atlas; whether the order matters depends on the order of the lines, and has to be settled for all of them.", "anchors": ["src/rascal/atlas.py:314-329"]}
{"id": "C220", "title": "Adding lines and removing a range, in either order", "statement": "Atlas.add and add_user_atlas append the same lines and end in the same way whatever lines the atlas already has. Removing a range after them keeps no line that removing it before them would not keep, and all added lines are kept when the range is removed first. If none of the added lines is in range, the order of the two calls does not matter: the atlases are equal, limits included.", "quantifier": "all atlases, arguments of add and add_user_atlas, successful or not, wavelengths and tolerances", "why_tests_cant": "A test tries both orders on one atlas; that removal looks at neighbours makes it doubtful whether other lines could matter, which has to be excluded for all lists.", "anchors": ["src/rascal/atlas.py:96-204", "src/rascal/atlas.py:206-280", "src/rascal/atlas.py:314-329"]}
{"id": "C221", "title": "Order of the calls that add lines", "statement": "Lines may be added to an atlas in any order: calls of Atlas.add and add_user_atlas made in another order leave the same lines, in another order, and each call ends in the same way. That is false: add_user_atlas replaces the limits of the atlas, which a later add without limits uses. It holds for calls of Atlas.add alone, which also leave the limits as they were, and for calls of both kinds if each add is given its limits; in both cases calls that raise may be among them.", "quantifier": "all atlases, line lists, and sequences of calls of any length with any arguments", "why_tests_cant": "A test tries a few orders of a few calls that succeed; calls that fail halfway leave lines behind, and the number of orders grows with the factorial of the number of calls.", "anchors": ["src/rascal/atlas.py:96-204", "src/rascal/atlas.py:206-280"]}
