# Formal model of rascal: design

This directory holds a Lean 4 model of the Python package in `/repo/src/rascal` and machine-checked
proofs of the properties listed in `properties.jsonl`.  Nothing here runs the Python code.  The model
was written by reading the source; every definition cites the file and lines it models.

## Layout

| directory | content |
|---|---|
| `lean/Verif/Base` | Python / numpy primitives (errors, slices, boolean masks, argsort contract, unique, histogram bins ...) |
| `lean/Verif/Model` | the model, one file per source area, function by function |
| `lean/Verif/Spec` | small independent specifications used in the statements |
| `lean/Verif/Proofs` | helper lemmas |
| `lean/Verif/Props` | the property theorems (named after the property, e.g. `C01_...`) with a concrete example beside each |

`MANIFEST.json` maps each property to its theorems.  `seeded/LOG.jsonl` records wrong programs the
theorems were tried against.

## Conventions

* **Numbers.** Python floats are modelled as elements of an arbitrary linearly ordered field `K`
  (`[Field K] [LinearOrder K] [IsStrictOrderedRing K]`), or `ℝ` where `sqrt`, `exp` or derivatives are
  involved.  Rounding is *not* modelled.  `nan` and infinities are modelled only where the code
  tests for them (`isfinite`, `isnan`) or can produce them and branch on them (cost of a trial fit).
* **Exceptions** are values: `Except PyErr α`; a stateful operation returns the new state *and* the result, so
  mutation that happens before an exception is visible.
* **Non-determinism.** numpy's default `argsort` is not stable; it is a parameter constrained by the
  contract "a permutation that sorts".  Random draws are arbitrary oracle values on a tape; only C170, C171 and C176
  speak of chances, and there the draws of different passes are taken to be independent and equally distributed.
* **External numerical kernels** (`numpy.polynomial.*fit`, `scipy.optimize.curve_fit/minimize/least_squares`,
  `pynverse.inversefunc`, `RectBivariateSpline`) are arbitrary functions; a theorem that needs more about
  one of them states it as a hypothesis.  `Props/LeastSquaresProps.lean` shows that least squares of every degree
  meets the three contracts on fits (change of scale, order of the points, exact data).
* **Values and objects.** Lists are values in the model of a session.  Model/Sharing.lean puts them on a heap and C190
  shows which programs cannot tell the difference; spectra have a heap of their own (C83), atlases are shared by number.
* **False properties.** When a documented / expected property is false of the code the full statement is
  kept as a `def ..._Statement : Prop`, its negation is proved with a concrete witness (`..._refuted`)
  and the strongest true part is proved as `..._partial`.  MANIFEST status: `partial`.

## Trusted base

* Lean 4.33.0 kernel; axioms `propext`, `Classical.choice`, `Quot.sound` (Lean/Mathlib standard); no own axioms,
  no `sorry`, no `native_decide`, no `bv_decide`.
* Mathlib 4.33.0 definitions that occur in statements (ordered fields, lists, real sqrt/derivatives).
* The reading of the Python source and of numpy's documented behaviour recorded in the comments of the definitions.

## Properties: what is modelled and how it is proved

* **C01** filter_wavelengths keeps exactly one row per in-range wavelength. `filterWavelengths` over rows; `np.unique(return_index)` as insertion into a sorted list keeping first index; iff-characterisation of membership, strict order and first-row choice.
* **C02** filter_separation keeps exactly the isolated lines of a sorted list. `filterSeparation` element by element; index-wise iff with the spec 'isolated' quantifying over all other positions.
* **C03** filter_separation on degenerate lists. same model; refuted for lone lines with positive threshold and for the empty list (IndexError); partial: kept iff threshold <= 0.
* **C04** filter_intensity applies the threshold of each line's own element. `filterIntensity` with the dict as an association list built left to right; spec by last occurrence; error cases as iff.
* **C05** load_calibration_lines returns exactly the requested lines. `loadCalibrationLines` composed from the filters; membership iff + order, on top of C01 and C04.
* **C06** brightest_n_lines keeps the n brightest. same model, argsort an arbitrary function satisfying the contract; length, provenance, order, and kept-vs-dropped comparison.
* **C07** returned atlas lines respect min_distance. refuted with brightest_n_lines (concrete list, stable argsort); partial without it, from C02; with it, what is still guaranteed (C07_brightest_partial).
* **C08** the three lists returned by load_calibration_lines stay aligned. alignment: output is the image of a list of rows, each a row of the line list, for all arguments.
* **C09** air-mode lines respect the air wavelength limits. over R with the real Edlen formulas; relative error bound from C12's estimate.
* **C10** vacuum-to-air conversion preserves the order of lines. Edlen formula over R; algebra: n decreasing in wavelength when dry, bounded increments.
* **C11** air-to-vacuum conversion preserves the order of lines. monotonicity of w*n(w) over R, dry air.
* **C12** vacuum -> air -> vacuum round trip. relative error bound of the composition and a witness of non-exactness.
* **C13** refractive index of dry air. sign analysis of the Edlen formula.
* **C14** saturation vapour pressure grows with temperature. refuted: vp(20 C) < vp(0 C) by rational enclosure of the square root; partial: linear in humidity, non-negative.
* **C15** refine_peaks returns in-range positions derived from the given peaks. `refinePeaks` with curve_fit an oracle depending on the (mutated) window; soundness of all outputs.
* **C16** refine_peaks returns a unique set of peaks. refuted with three fitted centres; partial: pairwise distinctness when fitted positions are increasing.
* **C17** refine_peaks reports the centre in spectrum coordinates. refuted for a clipped window; partial: holds when the window is not clipped on the left and the peak is an integer.
* **C18** refine_peaks treats peaks independently and leaves the caller's spectrum alone. spectrum state threaded through the loop; refuted by an overlapping pair; partial: disjoint windows are independent, caller's array is copied.
* **C19** polynomial evaluates highest-order-first coefficients. `polynomial` as in code; equality with the finite sum; error iff wrong length.
* **C20** _derivative is the derivative. `derivative` vs Mathlib's `Polynomial.derivative` and `HasDerivAt`.
* **C21** robust_polyfit undoes its normalisation. de-normalisation as list arithmetic; evaluation identity for every coefficient list.
* **C22** robust_polyfit is optimal when its solver is. cost transfer lemma + solver optimality hypothesis; exact recovery by polynomial identity (number of roots).
* **C23** robust_polyfit starts from the supplied guess. refuted (concrete x0 of degree 1); partial: x0 unmodified and constant-scale case.
* **C24** Hough points are exactly the in-range (slope, intercept) pairs. `generateHoughPoints`; equality with a list comprehension spec + membership iff.
* **C25** the slope grid spans the allowed range. `linspace` in exact arithmetic: end points, spacing, bounds, length.
* **C26** brute-force Hough points are exactly the lines through two data points. `bruteForce` with argsort parameter and triu pairs; permutation invariance as multiset.
* **C27** extending Hough points appends. state machine of extensions; refinement to list append.
* **C28** binning counts every Hough point exactly once. `histogram2d` with uniform edges; bin index function; sum of counts.
* **C29** Hough lines are bin centres ranked by count. `binHoughPoints`: permutation of all bin centres with non-increasing counts.
* **C30** every Hough point is close to the line of its bin. half bin distance from C28's bin membership.
* **C31** constraints must be finite. floats as fin/inf/nan inductive; step function and histories.
* **C32** saved Hough transforms load back. disk as a function from file names; refuted for names with extension, partial iff on the name.
* **C33** a loaded Hough transform is usable. refuted for json and Calibrator; partial for npy points.
* **C34** save writes and returns exactly the requested formats. disk write log; iff on membership of the split string.
* **C35** load rejects unknown file types. step function; error branches leave the state unchanged.
* **C36** synthetic wavelength limits stay ordered. state machine over arbitrary python values (None, int, float).
* **C37** get_pixels keeps exactly the lines strictly inside the limits. filter characterisation.
* **C38** get_pixels inverts the model. refuted for degree 1; partial: identity for the lowest-first reading and, degree >= 2, under the inverse oracle's contract.
* **C39** set_model takes effect. refuted; partial for degree >= 2.
* **C40** an atlas behaves like a list of lines. atlas op histories refine a plain list of lines.
* **C41** remove_atlas_lines_range removes exactly the lines in range. Python's index-based list iteration under mutation as a function; refuted; exact characterisation + partial; exact number of calls needed (C41_calls_partial).
* **C42** add_user_atlas is all-or-nothing. step function with all error branches.
* **C43** Atlas.add is all-or-nothing. refuted; partial for a single element.
* **C44** Atlas.add adds the concatenation of the per-element selections. fold over elements = concatenation.
* **C45** settings persist until changed. record of optional updates; history theorem: last non-None.
* **C46** acceptance thresholds are always valid. reachability invariant with partial mutation on failing calls.
* **C47** Hough bounds follow the settings. intercepts invariant; slopes refuted after set_calibrator_properties.
* **C48** num_pix determines the pixel range. refuted.
* **C49** the slope range covers every linear solution within tolerance. linear arithmetic over K; iff for the lower bound.
* **C50** exactly one plotting library is selected. state machine of flags.
* **C51** known pairs are validated and atomic. step function with nan-aware values.
* **C52** known pairs take part in every trial fit. sampling step of the RANSAC model.
* **C53** pairs are all peak/line combinations. product of lists; hull of the four corner points = two linear inequalities.
* **C54** linear candidates are exactly the pairs near a Hough line. membership iff, weight bounds over R.
* **C55** most common candidates are the top-ranked wavelengths of each peak. refuted; partial: counts and provenance.
* **C56** filter_close leaves well separated wavelengths. list filter model; pairwise theorem.
* **C57** matching is one-to-one and locally optimal. `matchBijective` mirrored; nodup/nearest/assertion theorems.
* **C58** every peak can be sampled. histogram/digitize model; refuted at bin edges; partial when no peak lies on an interior edge.
* **C59** a trial never assigns one wavelength to two peaks. sampling loop over an arbitrary tape.
* **C60** accepted solutions meet the user's constraints. RANSAC loop as a state machine over an arbitrary tape and kernels.
* **C61** the best trial wins. loop invariant over all tapes.
* **C62** fit's report is consistent. end-to-end `fit` on top of the loop invariant.
* **C63** fit's internal consistency checks never fire. proved from the initial state; refuted after a previous fit.
* **C64** fit terminates. refuted: a tape/brute-force input on which the loop never ends, for every fuel; partial: bound on non-retry trials.
* **C65** fit falls back to the supplied baseline. refuted.
* **C66** a failed fit keeps the previous solution. refuted.
* **C67** non-power bases are used consistently. refuted at degree 2; partial degree <= 1.
* **C68** the Hough weight is looked up at the solution's own gradient and intercept. refuted with an asymmetric density; partial: symmetric case / the value actually used.
* **C69** polynomial candidates. refuted when counts differ; partial soundness.
* **C70** match_peaks reports exactly the peaks with a line within tolerance. `matchPeaks` mirrored; success characterisation.
* **C71** match_peaks resolves ambiguous peaks. refuted: every ambiguous input raises.
* **C72** match_peaks works without refinement. refuted: every input raises.
* **C73** match_peaks atlas utilisation is a fraction. refuted; partial: peak utilisation, and atlas utilisation when lines are not shared.
* **C74** match_peaks' rms belongs to the returned solution. refuted for refine only; partial for robust_refit.
* **C75** editing pixel-wavelength pairs keeps them aligned. history refinement to a list of pairs.
* **C76** an added pair is placed in pixel order. refuted; exact insertion position theorem.
* **C77** manual_refit validates and is atomic. step function; error branches.
* **C78** removed atlas lines are not used any more. aliasing model (heap of atlases + calibrator); refuted; partial after set_atlas.
* **C79** refinement objective. `adjustPolyfit` as extended-valued function.
* **C80** raw pixel lookup inverts the pixel list. piecewise linear interpolation with extrapolation over K.
* **C81** the default pixel range covers the peaks. arithmetic with floor.
* **C82** figures are saved exactly in the requested supported formats. Model/Plot: savedFiles is the code under save_fig; the files are exactly base.t for the fields t of fig_type (split at +, specified by FieldOf without the model's splitter) that the library supports, in all three methods.
* **C83** plotting does not modify the data. Model/Plot: the spectra live in a heap, plotFit returns the new heap; refuted with log_spectrum; partial: only negative counts of the plotted spectrum change, nothing changes without log_spectrum or for non-negative spectra, and the caller's spectrum passed to the constructor is never touched.
* **C84** the residual panel shows the residuals of the fit. Model/Plot: drawMatplotlib and drawPlotly return the points of the residual panel and the rms; refuted for matplotlib after a fit with non-zero residuals (always zero); partial: what each library shows, against NearestOffset.
* **C85** candidate pairs are merged without distortion. refuted; exact condition when rows are already sorted.
* **C86** the requested line list is the one that is used. `loadFromFile` with the file system as a function; case analysis, no fallback branch.
* **C87** an element without matching lines selects nothing. refuted for a positive minimum distance (IndexError of filter_separation on an empty list); partial: exact outcome for every empty selection.
* **C88** a constructed atlas holds exactly the requested lines. `Atlas.new` over `Atlas.add`; iff-characterisation from C44.
* **C89** refine_peaks accepts any numeric spectrum. refuted for integer spectra; partial: floating spectra never raise for peaks inside the spectrum, integer spectra raise exactly when there is a peak.
* **C90** a rejected set_ransac_properties call changes nothing. refuted with a negative minimum_fit_error; partial: fields a rejected call leaves alone.
* **C91** fit does not change the settings. refuted with a witness for both settings; partial: frame theorem for `fit` over all outcomes.
* **C92** fit tries at least once. refuted; partial: exact condition (iff) for the trial list to be non-empty.
* **C93** fit searches along the Hough lines of the current settings. refuted with a history fit / set_hough_properties / fit; partial: matches lie along the transform held, which is current on a fresh calibrator.
* **C94** fit never returns a constant. from the accepted-trial invariant: a trial that reaches the comparison has at least two coefficients.
* **C95** fit's atlas utilisation is a fraction. refuted via clear_atlas; partial: search space current (C78).
* **C96** a failed match_peaks keeps the earlier matches. refuted via get_pix_wave_pairs; partial: what a failed call leaves alone.
* **C98** refined coefficients are used for matching. refuted; partial: with robust_refit the outcome is the same with and without a successful refinement.
* **C99** every random sample determines its polynomial. refuted with a quadratic baseline and fit_deg=1; partial: degree at most fit_deg, random sampling; exact sample size.
* **C97** an added pixel is stored exactly. refuted with integer peaks; partial: exact otherwise, cut off towards zero by less than 1 with integer peaks.
* **C100** configuring the calibrator keeps the solution. frame theorem for each call, induction over the history.
* **C101** looking for a solution keeps the configuration. frame theorem for each call, induction over the history.
* **C102** pairs can be added after a fit. refuted for every successful fit; partial: numpy floats, with the exact condition.
* **C103** manual_refit() works after a fit. from the state a successful fit leaves (C62) and the cases of manual_refit.
* **C104** fit's residuals belong to its solution. refuted with least-squares lines; partial: if all are within the tolerance; the rms never overstates.
* **C105** the documented figure options have their documented effect. Model/Plot: finishMatplotlib and finishPlotly return the events (files, shown) and the result. Partial: the events are files followed by a show iff display, and the return value is the figure with matplotlib and the string or None with plotly. Refuted: a documented format is always written; a filename with the extension is used as it is; nothing is displayed with return_jsonstring.
* **C106** plot_arc returns for every documented input. Model/Plot: plotArc. Partial: exactly characterised when plot_arc returns. Refuted: a list has no max method, so the documented type raises.
* **C107** plot_fit works after every fit. Model/Plot composed with the model of fit: totality of the drawing functions on the state fit leaves.
* **C108** the simulated arc shows the loaded lines. Model/PlotLines: the grid in units of 0.001 (exact arithmetic), the masked addition with numpy's shape rule, the convolution as a sum. Refuted with brightest_n_lines and with a repeated element. Partial: without these, whenever a figure is drawn the spectrum is exactly the sum; also instantiated with the real Gaussian.
* **C109** plot_calibration_lines draws whenever there is something to draw. Model/PlotLines. Refuted with two lines that agree to three decimals. Partial: exactly when a figure is returned; a string as elements raises KeyError.
* **C110** the markers of plot_calibration_lines respect min_intensity and min_distance. Model/PlotLines. Refuted with brightest_n_lines (the neighbours compared are neighbours in brightness). Partial: exactly the bright isolated lines, in order of wavelength.
* **C111** brute_force solves all combinations. refuted twice: current numpy raises at the first combination; older numpy repeats a rejected combination for ever. Partial: no randomness; a returned call has accepted the polynomial of every combination; exact exception with current numpy.
* **C112** more tries never lose matches. refuted with four peaks: a trial with three exact matches replaces one with four. Partial: a run with more tries extends the run with fewer; the cost never increases.
* **C113** a perfect sample is not lost. from C61 and the cost formula: cost 0 is minimal if weights are non-negative. Refuted with a density that dips below zero, as an interpolating spline can.
* **C114** the returned solution respects the search bounds. refuted with least-squares lines; partial: the checks hold of the trial polynomial, which passes within the tolerance of every match.
* **C115** known pairs constrain the returned solution. refuted with one known pair; partial: trials are fitted to the known pairs (C52, C114), the returned robust fit only to the matches.
* **C116** fits do not influence the configuration. simulation: two states that differ only in results, sample_size and minimum_matches stay so under every configuring call and give the same outcomes; a fit, match or edit leads to such a state
* **C117** minimum_matches stays in force. refuted: a fit with a small atlas lowers the setting for good; proved: it is never raised, and kept as long as every fit has at least m lines and peaks
* **C118** plot_search_space shows the candidates. refuted: _merge_candidates sorts each row, so the markers are at (weight, pixel); proved: exact position of every marker, and that no best pair is among them for weights of at most 1
* **C119** the drawn tolerance region is the search space. refuted: the search space is wider than the drawn region by candidate_tolerance; proved: pairs shown = combinations within range_tolerance + candidate_tolerance of the expected wavelength, and the three lines are at the expected wavelength and range_tolerance around it
* **C120** the best candidate pairs are those of the search. refuted: the plot keeps three candidates per peak by default, the search five; proved for plotting arguments that agree with the RANSAC properties (at least their top_n_candidate for the matched pairs)
* **C121** plot_search_space shows the solution. from the drawn data; the basis is the one of the last fit; inequalities for the axis ranges
* **C122** combinations on an admissible line become candidates. refuted for candidate tolerances smaller than what binning loses; proved when candidate_tolerance is at least |pixel| * half a slope bin + half an intercept bin, for grid slopes and (with a margin of half a slope step for the intercept) any slope; then the peak also has an entry in the search lists
* **C123** the order of the peaks does not matter. simulation relation between the two runs (same but for the order of pairs, points), preserved by every setter and by fit in the linear mode; refuted in the polynomial mode
* **C124** a less restrictive selection never loses lines. refuted for thresholds and ranges together with min_distance > 0; proved for min_distance alone (any other arguments), and for range, thresholds and brightness limit without the separation filter
* **C125** a range can be loaded in pieces. refuted with min_distance > 0; proved without it, in vacuum and in air
* **C126** the order of the elements does not matter. the outcome depends only on the set of requested lines; per-element selections permuted for the atlas
* **C127** element names are case insensitive. refuted; proved that names not in the list in exactly this spelling have no effect
* **C128** lines below the threshold have no influence. refuted for equal wavelengths; proved when no faint line has exactly the wavelength of a bright one
* **C129** lines added by hand do not change later selections. refuted when the limits are left to the atlas; proved (for any two atlases) when both limits are given
* **C130** the order of configuration calls does not matter. refuted when a pixel list is given; proved for all permutations of calls that do not give a new pixel list
* **C131** configuration calls can be repeated. refuted for remove_atlas_lines_range; proved for all the other calls, also after errors
* **C132** repeating fit gives the same answer. refuted: fit overwrites sample_size; proved when the first call leaves sample_size as it was, and unconditionally from the third call on
* **C133** the order of the lines of an atlas does not matter. simulation: the two runs stay related by permuted combinations and points; refuted for fit with top_n_candidate 1
* **C134** a loaded Hough transform is the one that is searched. refuted; proved: calls of load_hough_transform can be dropped from every history up to the transform object, fit without a previous transform ignores what was loaded, fit after a transform depends on the loaded one only through the fitted surface
* **C135** a transform saved by one calibrator can be loaded by another. round trip through the disk model at the level of the calibrator; refuted for to_disk=False
* **C136** a failed save or load of a transform leaves things as they were. case analysis on the first statement that raises; refuted for files saved before a transform and for npy+json
* **C137** a candidate at the edge of the tolerance weighs half. the rows of the candidate lists are characterised exactly over the reals; bounds on exp; refuted at the edge
* **C138** Moving the zero point of all wavelengths moves the solution and nothing else. The change of scale is a small specification (Spec/Affine.lean) on states, calls, arguments and reports; every model function is proved to commute with it and the session theorem composes them. The library routines enter through a contract (fits of moved data are the moved fits, for polyfit only when the data determine the polynomial); lsqKern_affine shows that least squares of every degree meets it.
* **C139** All wavelengths may be given in any unit. Same specification of a change of scale as C138, with a factor and no shift.
* **C140** hough_weight: zero switches the density off, a non-finite value makes fit raise. Midpoints are specified independently (Spec.midpoints); the search is run twice, with two densities, and the weights are compared trial by trial.
* **C141** The gain of the detector has no influence on refine_peaks. False: each window is divided by its maximum in place, so a window that overlaps an earlier one mixes relative values with raw counts; witness in C141_refuted. Proved for peaks at least 2 window_width + 1 pixels apart and for a single peak.
* **C142** refine_peaks only looks at samples near the peaks. Induction over the peaks with the two working copies, which agree on all windows still to come.
* **C143** Cutting samples off the front of a spectrum moves the refined positions by as much. False: a fitted position is dropped if it is close to the left end of the spectrum relative to its own size (isclose), so the same fit is kept or dropped depending on the frame; witness in C143_refuted. The partial theorem gives the conditions on the fitted positions under which the claim holds.
* **C144** match_peaks can be repeated. False for calls without fit_coeff: they start from the stored solution, which they replace (C144_refuted). Proved for given coefficients, for any number of repetitions and exceptions included, and, without given coefficients, from the first repeated result on.
* **C145** manual_refit can be repeated and only depends on the matched pairs. Congruence of the model of manual_refit in the parts of the state it reads, and induction over the calls.
* **C146** Adding a pair can be undone by removing it. From the specification of the two edits (C75): the list is split at the insertion position and the pair erased from there.
* **C147** Removing a pair can be undone by adding it again. False for lists in ascending order, which match_peaks produces: the pair is inserted in front of the first smaller pixel (C147_refuted). Proved for strictly descending lists and all pairs but the last.
* **C148** The possible results of fit are exactly the acceptable samples. The outcome set is specified as a relation (Spec.Outcome) from the list of requirements of C60, which is shown to be sufficient as well as necessary; reachability by repeating the draw in all trials.
* **C149** max_tries does not influence which results are possible. From C148: the outcome relation only depends on max_tries through the existence of a trial.
* **C150** Relaxing the thresholds of acceptance never makes a result impossible. From C148 and monotonicity of the requirements, including the silent adjustment of minimum_matches to the number of lines and peaks.
* **C151** Values in a line-list file are used as written. Text of the file modelled as lists of characters (np.loadtxt with comments, delimiter, dtype and squeeze; float of a decimal number); refuted by a two-row file in the default format of np.savetxt; four partial theorems, one of them for every sign, mantissa and exponent (C151_exponent_partial).
* **C152** A line-list file with a single row cannot be loaded. Case split on the rows found by the text model.
* **C153** Rows of other elements in a line-list file do not matter. The conversion of numbers is modelled as happening after the selection by element, with errors as values.
* **C154** An atlas contains every line of its elements between the limits. From C88, C44 and C06; refuted by a counting argument with a list of 1001 rows.
* **C155** Atlas.list shows the whole atlas. Text modelled as strings; injectivity by cutting at the last blank.
* **C156** The true calibration can be found. From C148 with contracts for the fitting routines (they find a polynomial from exact data on it; met by least squares of every degree, lsqKern_findsExact); refuted by a toy calibrator with the default minimum_fit_error.
* **C157** Data without noise: fit finds the truth at once or never ends. Every sample gives the true polynomial, so every pass ends alike: by the loop model it is accepted for every trial or retried for ever.
* **C158** With a large top_n_candidate every candidate takes part. Permutation of the block of a peak (C55) when it has room for all; the entries of the first Hough line come first and are distinct; refuted by a toy calibrator with three candidates and top_n_candidate 5.
* **C159** The true calibration of an almost linear instrument can be found. C158 shows that the candidates contain the truth, C156 that then it can be found; refuted by a toy calibrator with the default minimum_fit_error.
* **C160** A larger top_n_candidate never loses a candidate. The candidates do not depend on top_n_candidate, and the selection of each peak is a prefix; refuted by a toy calibrator with two close lines and filter_close.
* **C161** A larger candidate_tolerance never loses a candidate. The lists of near lines grow with the tolerance; with C158 nothing is lost if they have no repetitions; refuted by a toy calibrator with six lines and the tolerances 80 and 100.
* **C162** The order of the known pairs does not matter. The search with the two sets of pairs is compared step by step: sample, trial fit, evaluation, loop, fit. Contract: the fitting routine of the basis does not depend on the order of its data points (met by least squares of every degree, lsqKern_orderFree).
* **C163** add_atlas adds the lines in the range of the calibrator. The call is reduced to the selections of load_calibration_lines for the elements (C44, C88) with the limits filled in, and these to rows of the list (C06, C08).
* **C164** Humidity and temperature change air wavelengths as they should. The index is split into the dry index and a humidity term; signs by interval estimates over the reals. The size is refuted: get_vapour_pressure is called with Celsius but expects Kelvin, so at 20 Celsius the effect is less than a tenth of what it should be.
* **C165** Wider settings never lose a combination of a peak and a line. The polygon of the wider tolerances contains the other one; the pairs are filtered lists, so the old list is a sublist of the new one, and the call still succeeds. Wider wavelength limits are refuted by a concrete calibrator: the limits are the wavelengths of the ends of the detector, so moving one moves the polygon.
* **C166** A supplied solution is only replaced by a better one. Refuted by a concrete fit: the cost of the supplied solution is the plain sum of its errors, the cost of a trial is clipped, divided by the degrees of freedom and by the Hough density. Proved: a supplied solution without errors is only replaced by a trial without errors at any candidate peak (density not negative).
* **C167** fit_tolerance and the overfit check decide whether a fit is returned. The warnings of fit are modelled as a list (Model/FitLog.lean). Refuted: such fits are returned with a warning. Proved: the warnings are logged exactly in these cases, and with fit_tolerance >= ransac_tolerance (the defaults are equal) the rms warning is never logged by a fit that returns.
* **C168** fit announces every setting it changes. Frame argument over all paths of fit together with the model of the warnings. Refuted for sample_size, which is raised to fit_deg + 1 (and set to the number of candidate peaks) silently; proved for minimum_matches.
* **C169** Matched wavelengths come from the line lists or from the user. For an arbitrary predicate on wavelengths: if the initial atlas lines and everything the calls bring in satisfy it, an invariant over the steps of the session gives it for all lines, pairs and matches.
* **C170** fit comes to an end whenever it can return a solution. A pass on an acceptable sample is never repeated, in whatever state: it is accepted or too expensive. Hence each occurrence ends one trial. Probability one by the second Borel-Cantelli lemma for the product measure. C64 shows that without a possible solution fit may run for ever.
* **C171** More tries make a bad solution unlikely. A finished search has used each of the first n draws for a pass (each trial takes at least one); by C61 the result costs at most as much as any acceptable pass. The product measure of the sequences without the choice among the first n is (1 - p)^n.
* **C172** A good sample keeps its matches. False: a peak whose nearest line is claimed by another peak is left out of the cost, so a solution matching two of four peaks beats one passing near all four (C172_refuted). Proved when no line is a candidate of two peaks: the cost is then the sum of the clipped errors over all candidate peaks, so at most n ε / ransac_tolerance of them are unmatched.
* **C173** Refinement does not make the solution worse. False: the minimiser starts at a change of a thousandth of the coefficients, not at no change, and can stop there (C173_refuted: an exact solution becomes one that is 3 units off). Proved: the result is not worse than the input with its first n_delta coefficients enlarged by a thousandth.
* **C174** Lines given by hand can replace the lines of an element. False: add converts to air unless vacuum is set, add_user_atlas converts to air if vacuum is set (C174_refuted). Proved: with the opposite value of vacuum the lines are the same up to the recorded source.
* **C175** An element may be added twice. False: the lines are in the atlas twice, every peak near a line has two candidate lines and the resolution of ambiguous peaks raises TypeError (C175_refuted). Proved: the second call adds exactly the same lines again, and whenever every line is listed twice match_peaks never returns matched pairs, whatever its arguments.
* **C176** A true calibration that has been found is returned. False: a later draw through two wrong lines, all other peaks of which are dropped in the one-to-one matching, also costs nothing and replaces the true calibration (C176_refuted). Proved, if no line is a candidate of two peaks: the truth is returned once drawn, with all peaks matched and rms 0, and the bound on the probability of anything else.
* **C177** Lines outside the search space do not matter. False: sample_size and minimum_matches are reduced to the number of lines of the atlas, those outside included (C177_refuted: the same data, nothing is accepted once there is one more far line). Proved: the pairs are the same (C177_same_pairs); the outcome of fit is the same, but for the utilisation, if both atlases have at least sample_size and minimum_matches lines.
* **C178** match_peaks turns an approximate solution into the true one. Least squares and the robust fit are assumed to find a polynomial from data on it (C22 for the robust fit). The matching is computed, the fits are exact, and the truth is returned (C178_restored, C178_separated).
* **C179** Editing true pairs keeps the true solution. False: among integer peaks a pixel with a fraction is stored without it, so that the next refit loses the truth (C179_refuted). Proved for pixels that are new and stored exactly, and refits of the degree of the solution.
* **C180** Calibrating a synthetic spectrum gives back its coefficients. False: from degree 2 on the model takes its coefficients highest order first, the fit returns them lowest order first (C180_refuted: [1, 10, 50] becomes [50, 10, 1]). Proved for linear models, with manual_refit and match_peaks; for higher degrees the coefficients come back in reverse order. Least squares, the robust fit and the inverse function are assumed to be exact.
* **C181** The degree asked for is the degree returned. False for fit: with fit_coeff its length decides and fit_deg is ignored (C181_refuted). Proved: what decides the number of coefficients in each of the three calls, given that the robust fit keeps the degree (C21).
* **C182** A spectrum given to plot_fit is drawn, with the markers at its values. False twice: num_pix set after construction does not change the pixel list, so that a spectrum of that length raises ValueError (C182_refuted); a peak one pixel or more before the first pixel is marked at a height counted from the end of the spectrum (C182_marker_refuted). Proved: exactly when the figure is drawn and which exception is raised otherwise; which pixel is read for peaks on the detector and to the left of it.
* **C183** fit, match_peaks and manual_refit recover the true calibration from data without noise. Composition of the theorems about the three calls through the attributes they leave behind: fit by C157, then match_peaks from fit_coeff of that fit, then manual_refit from the pairs match_peaks has stored.
* **C184** What fit depends on. Simulation: the search started from other leftovers of earlier fits makes the same decisions, and if nothing is accepted both calls raise; then each inspecting call is shown to keep the inputs.
* **C185** The simulated arc is the sum of its lines. `convolveScript` models the script up to the plot, with the grid in units of 0.01. `C185_runs` characterises the files it accepts, `C185_refuted` gives two lines that swap their intensities, `C185_arc_partial` is the formula for any kernel and `C185_gaussian_partial` for the Gaussian of the script.
* **C186** A seed makes a fit reproducible. `Process` holds the calibrators and the shared generator `Rng`, whose numbers and state after a fit are parameters. `C186_refuted` seeds a second calibrator between seed and fit; `C186_reproducible_partial` reduces to C184; `C186_replay_partial` and `C186_refused` follow the state.
* **C187** Messages are printed once and from the chosen level. `Logs` holds the loggers by name and the logger of each calibrator. `C187_once` is an invariant of the number of handlers; `C187_level_partial` follows level and handler through the calls of others; `C187_refuted` and `C187_new_refuted` are the two ways of losing a level; `C187_unknown` is the failing call.
* **C188** What match_peaks depends on. `Spec.SameMatchInputs` lists what may matter. `C188_inputs` compares two sessions that agree in it, `C188_settings` and `C188_given_partial` show that histories keep it, `C188_refuted` matches before and after a first fit.
* **C189** Order of the matched wavelengths. `trial_line` takes the straight line of the accepted trial: its slope is positive by the monotonicity check, and every match is the nearest candidate of its peak. `C189_shared_partial` and `C189_crossing_partial` follow by comparing distances; `C189_refuted` has matches (11, 4590) and (10, 4680).
* **C190** Lists of the user and lists of the calibrator. `Shared` (Model/Sharing.lean) puts the list-valued attributes of a `Session` on a heap with the addresses the user can reach; calls run on the session read from the heap. `C190_untouched_partial`, `C190_peaks_partial`, `C190_edited_partial` and `C190_earlier_partial` are invariants of programs, `C190_by_value_partial` is a simulation by the model without a heap, which also justifies that model; `C190_refuted` changes a list returned by fit.
* **C191** Spectra in which the wavelength decreases. `C191_direction_partial` uses the accepted trial of a successful fit (`trial_line`): its line passes the monotonicity check, and matches lie within the tolerance of it; `C191_decreasing_partial` applies it to a decreasing truth. `C191_refuted` mirrors the toy session (`Spec.mirror`) and shows for all draws that the mirrored matches are not returned. For higher degrees the check is only on a grid of unit steps (C189), so nothing is claimed there.
* **C192** Lines added to an atlas that is in use. `C192_linear_partial` and `C192_poly_partial` follow the candidates of an accepted trial back to the pairs or to the lines of the atlas (`enter_spec`); `keeps_steps` shows that the pairs stay. `C192_refresh_partial` characterises the search space after `set_hough_properties()`. `C192_refuted` adds a line to the toy atlas.
* **C193** A larger tolerance in match_peaks. `match_pairs` characterises the pairs returned as the peaks with exactly one line within the tolerance; `C193_monotone_partial` compares two calls with it. `C193_refuted` widens the tolerance from 3 to 10 with lines at 5900 and 5905.
* **C194** Where the pixels are counted from. `trial_intercept` takes the accepted trial of a successful fit, whose value at pixel 0 passed the check; `C194_matches_partial` compares with the line through two matches and `C194_first_pixel_partial` with a true line. `C194_refuted` renumbers the toy session (`Spec.renumber`, with an example that the calls lead there) and excludes all draws. For higher degrees the same check is made, but two matches do not determine the value at 0.
* **C195** An explicit Hough transform before the first fit. `doHough_others` (the transform does not read the other settings), `ensureHough_done` (a transform made before and one made inside fit; a failing transform fails again in the same way) and `apart_step` for the calls in between give `C195_explicit_transform`.
* **C196** A wrong match in robust_polyfit. `huber_tangent` (the loss stays above its tangents) and `Spec.OrdinaryFit.orthogonal` show that a least-squares fit with residuals below the spread is the only minimiser of the robust loss: `C196_least_squares_partial`. `C196_refuted` applies this to five pairs, with an actual minimising solver (`Spec.OrdinaryFit.solver`).
* **C197** Noise in robust_polyfit. The least-squares fit exists (`ordinaryFit_exists`), its residuals are below the spread, so it is the answer (C196); its residuals are orthogonal to all polynomials of the degree, which gives `C197_noise` (Pythagoras). `C197_everywhere` interpolates the deviation through degree + 1 pixels.
* **C198** Noise in fit, match_peaks and manual_refit. `Spec.BestSquares.limited` (orthogonality and interpolation) is the rule `Spec.LimitedByNoise`; `C198_fit`, `C198_match` and `C198_manual` take the last fit out of a successful call. `C198_robust_polyfit` derives the contract for the model of robust_polyfit. The cases are noisy toy sessions.
* **C199** Removing pairs and raising the degree in manual_refit. `refit_facts` takes the fit, the lists and what is stored out of a successful manual_refit; `Spec.Pruned` is the sequence of the three calls. `C199_sum_partial` and `C199_worst_partial` compare the new solution with the old one on the remaining pairs, `C199_degree_partial` pads the coefficients. `C199_refuted`: five pairs, the third on the line, mean square 2 and then 5/2.
* **C200** Peaks that no line can reach. `Spec.CanReach` is the search space of the documentation. `C200_same_pairs` shows that `_generate_pairs` gives the same, `C200_fit` that nothing else in fit looks at the peaks but the two counts, `C200_far_peaks` and `C200_calibration` put the calls together. The case is a calibration with a fifth peak at pixel 16.
* **C201** Evenly spaced peaks. `C201_even_partial` computes the histogram and the bins for every number of evenly spaced peaks, `C201_fit_partial` carries it to fit(). `C201_refuted` is a calibrator with three peaks at 10, 25 and 40.
* **C202** Calibration of a binned spectrum. `C202_history_partial` (state), `C202_calibration_partial` (construction, calls and fit), `C202_lines_partial` (straight lines, where peaks more than 5/7 of a pixel apart suffice for the check). `C202_refuted` and `C202_monotone_refuted` are the two counterexamples. The library routines enter through `PixelKernels`: fits follow the scale where the polynomial is unique.
* **C203** Wavelengths given as integers. `C203_refuted`: four peaks, solution off by 100. `C203_unweighted_partial`: the two fits are equal without weights. `C203_rank_partial`: a left-out wavelength has less than one unit of weight more than a returned one. `C203_blind`: below one the weights are ignored.
* **C204** match_peaks keeps the matches of a fit. `C204_refuted`: three matches of which the third is lost with tolerance 5.2 above the ransac tolerance 5. `C204_near_partial`: pairs within the tolerance are in the result. `C204_kept_partial`: all are, when no residual was cut; utilisation does not fall.
* **C205** When match_peaks returns a result. `C205_returns_partial`: the equivalence. `C205_apart_partial`: lines twice the tolerance apart. `C205_min_distance_partial`: one element, vacuum, no limit on the number. `C205_refuted`: three lines of one element, all kept, TypeError.
* **C206** A larger ransac_tolerance. `C206_matches_partial`: sums of clipped errors grow by at most the difference of the tolerances for each peak that is not matched. `C206_refuted`: five peaks, tolerance 1 matches four of them, tolerance 15 three.
* **C207** Order of the matches in fits of low degree. `C207_direction_partial`, `C207_order_partial`: a parabola that does not fall over steps of a pixel does not fall between points of the range apart from its last pixel. `C207_refuted`: a cubic through three lines, peaks half a pixel apart in reverse order.
* **C208** A peak given twice. `C208_bound_partial`: from the report of a fit in reachable states (C62). `C208_never`: with C60. `C208_refuted`: a fit that matches all of its peaks, one given twice, and cannot return once all peaks are required.
* **C209** The returned solution increases with the pixel. `C209_line_partial`: the matches are in order by C207, and a line that falls through pairs in order is improved by turning it about the point where its residuals change sign (`best_line_rises`). `C209_robust_polyfit`: the same for `robust_polyfit` with its normalisation. `C209_refuted`: four peaks, a sample of three on a parabola that rises up to pixel 40, a least-squares solution that turns at 34.35.
* **C210** Order in which samples are drawn. `C210_order_partial`: a run over samples whose fate does not depend on what was found before ends with the cheapest, by induction (`run_steady`). `C210_same_samples_partial`: from C61 applied to both runs. `C210_refuted`: three samples, one of them with two matches where three are required, two tries; drawn in another order the better solution is not reached.
* **C211** A threshold of brightness for each element. `C211_several_partial`: the assertion in filter_intensity fails in the first call of load_calibration_lines. `C211_single_partial`: both give the same dictionary. `C211_each`: C44 for each call. `C211_refuted`: two elements with two thresholds.
* **C212** Coefficients given as integers. Model/IntCoeff.lean repeats the refinement with sums cut to whole numbers; a toy minimiser that moves by a half refutes the claim, and the partial theorems give what holds and what happens instead.
* **C213** A fit that has ended stays as it is, and seeds may differ arbitrarily. Model/Seed.lean, Model/Ransac.lean, Model/Fit.lean. Proved by induction on the tape (the loop reads the tape only while trials remain), lifted through solve, fitSearch, fitWith, fit and the session; the seeded version uses C186_reproducible_partial. C213_any_two constructs the generator.
* **C214** Right matches and the other matches of a fit. Model/Ransac.lean, Model/Fit.lean. The trial polynomial behind the matches of an accepted solution (fit_success) and the true one differ by at most the tolerance at the right pixels; Lagrange interpolation of the difference bounds it elsewhere. Refuted by the toy fit of four peaks whose last match is off by 7 with a tolerance of 5.
* **C215** Line filters applied again. Model/UtilFilters.lean. Ranges: both lists are strictly sorted (C01) with the same members. Thresholds: from the description of the mask (C04). Distances: from C02; the kept lines are pairwise at the distance. Refuted by the list 0, 1, 50 with distance 10.
* **C216** More slopes, wider bounds and more data in the Hough transform. Model/Hough.lean (Hough.generate, houghGrid). The members of the grid are described slope by slope (C24); the coarse slopes are among the fine ones by arithmetic, the other parts compare the lists slope by slope. Refuted by one data point with three and four slopes.
* **C217** The unit of the intensities. Model/UtilFilters.lean, Model/Atlas.lean. The change of scale commutes with each step of the loading, by induction over the lists; the sorting routine is asked to depend on comparisons only (shown for the stable sort).
* **C218** Lines in air and the minimum distance. Model/UtilFilters.lean, Model/Atmosphere.lean. The first part commutes the conversion with the steps of loading; the bound follows from the index being monotone in the wavelength and at most 1 + 4.7e-4 (AtmosLemmas) and C07. Refuted by the lines 5000 and 5010 at 0 Celsius and 101325 Pa.
* **C219** Lines of several ranges removed one after the other. Model/Atlas.lean (removeRange). Sorted lines split at a wavelength between two ranges, and the removal acts on one part only; permutations of calls by induction. Refuted by two elements whose lines interleave.
* **C220** Adding lines and removing a range, in either order. Model/Atlas.lean. Every branch of the two calls appends a list that does not depend on the lines; the removal on a concatenation is compared with the concatenation of the removal by induction along the loop.
* **C221** Order of the calls that add lines. Model/Atlas.lean. Each call appends a list that depends only on its arguments (and on the limits, when they are left to the atlas), so a sequence appends the concatenation, which a permutation of the calls rearranges.

## What is not modelled

* Floating-point rounding, overflow and subnormals (numbers are exact); `nan`/`inf` only where the code tests for
  them or branches on them.
* The numerical kernels named under "Conventions": arbitrary functions.
* What is logged (except the warnings of `fit`, see Model/FitLog.lean; the set-up of the loggers is C187), `tqdm` progress bars, docstrings, Python warnings.
* What is drawn: colours, axes, widgets.  The plotting methods are modelled for their checks, the files they
  write, whether the figure is shown, their effect on the calibrator and the numbers they plot
  (residuals, matched peaks, simulated arc, points and lines of the search space).
* `plotting._import_matplotlib` and `plotting._import_plotly` (the libraries are assumed to be installed).
* The plotting at the end of the script `arc_lines/convolve_lines.py` (lines 61-71), the data files themselves, the
  wheel packaging and the example notebooks.
* The algorithm of numpy's generator: its numbers are parameters (C186 models how seeds reach it).

## Functions of the package and the definitions that model them

| function in /repo/src/rascal | lines | model definitions that cite it |
|---|---|---|
| `arc_lines/convolve_lines.py` `gaus` | 6-27 | `gausFn` |
| `atlas.py` `AtlasLine.__init__` | 7-11 | `AtlasLine` |
| `atlas.py` `Atlas.__init__` | 15-94 | `Atlas`, `AddArgs.atMost1000`, `Atlas.new`, `HoughSet.fillLimits`, `CalEnv`, `affAtlasLine`, `unaffAtlas` |
| `atlas.py` `Atlas.add` | 96-204 | `PyFloat`, `ElementsArg`, `ElementsArg.toList`, `AddArgs`, `Env`, `PyFloat.map`, `AddArgs.load`, `LineArrays.nistLines`, `addLoop`, `addLimit`, `Atlas.add`, `World.modifyAtlas`, `HoughSet.fillLimits`, `affAtlas` ... |
| `atlas.py` `Atlas.add_user_atlas` | 206-280 | `SeqArg`, `UserElems`, `UserElems.toList`, `SeqArg.toList`, `userIntensities`, `Atlas.addUser`, `World.modifyAtlas` |
| `atlas.py` `Atlas.get_lines` | 282-290 | `Atlas.getLines`, `World.modifyAtlas` |
| `atlas.py` `Atlas.get_elements` | 292-301 | `Atlas.getElements`, `World.modifyAtlas` |
| `atlas.py` `Atlas.get_intensities` | 303-312 | `Atlas.getIntensities`, `World.modifyAtlas` |
| `atlas.py` `Atlas.remove_atlas_lines_range` | 314-329 | `removeLoop`, `Atlas.removeRange`, `World.modifyAtlas` |
| `atlas.py` `Atlas.list` | 331-345 | `World.modifyAtlas`, `AtlasLine.describe`, `Atlas.printed` |
| `atlas.py` `Atlas.clear` | 347-353 | `Atlas.clear`, `World.modifyAtlas` |
| `atlas.py` `Atlas.__len__` | 355-356 | `Atlas.len` |
| `calibrator.py` `Calibrator.__init__` | 21-84 | `CalProps.init`, `RansacSet.init`, `Cal`, `Cal.new`, `LogOp`, `Logs.step`, `Logs.steps`, `AtlasKind`, `Session.new`, `SpecKind`, `SpecArr`, `Heap`, `Heap.copySpectrum`, `Process` ... |
| `calibrator.py` `Calibrator._generate_pairs` | 86-133 | `PairStore`, `Cal.polygon`, `Cal.generatePairs`, `World.atlasLines`, `allPairs`, `Polygon`, `Polygon.inside`, `Polygon.flat`, `generatePairs`, `FitEnv.intWaves`, `affPair`, `affPairStore`, `pixPair`, `pixPairStore` |
| `calibrator.py` `Calibrator._merge_candidates` | 135-152 | `mergeCandidates` |
| `calibrator.py` `Calibrator._get_most_common_candidates` | 154-217 | `npUnique`, `mostCommonOf`, `mostCommon`, `intSum`, `mostCommonOfInt`, `mostCommonInt`, `FitEnv.intWaves` |
| `calibrator.py` `Calibrator._get_candidate_points_linear` | 219-261 | `Cand`, `candidatesLinear`, `linearWeight`, `FitEnv`, `World.fitCandidates` |
| `calibrator.py` `Calibrator._get_candidate_points_poly` | 263-315 | `Cand`, `polyCandidate`, `candidatesPoly`, `FitEnv`, `FitRandom`, `World.fitCandidates`, `Rng`, `Rng.random` |
| `calibrator.py` `Calibrator._match_bijective` | 317-380 | `argminFrom`, `argmin`, `nearestCandidates`, `resolveWavelength`, `resolveAll`, `matchBijective` |
| `calibrator.py` `Calibrator._solve_candidate_ransac` | 382-752 | `outerEdges`, `npUnique`, `filterClose`, `candTable`, `digitizeRight`, `histogram10`, `peakCount`, `sampleProb`, `SolveOut`, `CallRes`, `Cal.candidates`, `Cal.candidateLists`, `binCentres`, `Cal.density` ... |
| `calibrator.py` `Calibrator._adjust_polyfit` | 754-820 | `addDeltaInt`, `Session.objectiveInt`, `addDelta`, `nearestLine`, `adjustMatches`, `adjustPolyfit` |
| `calibrator.py` `Calibrator.which_plotting_library` | 822-839 | `CalProps.whichLibrary`, `SetOp`, `World.step`, `World.steps`, `Session.step`, `SessionCall`, `Session.call`, `Session.calls`, `ProcCall.target`, `Process.call`, `Process.calls`, `Shared.absorb`, `Shared.run`, `SharedOp.asCall` ... |
| `calibrator.py` `Calibrator.use_matplotlib` | 841-848 | `CalProps.useMatplotlib`, `SetOp`, `World.step`, `World.steps`, `Session.step`, `SessionCall`, `Session.call`, `Session.calls`, `ProcCall.target`, `Process.call`, `Process.calls`, `Shared.absorb`, `Shared.run`, `SharedOp.asCall` ... |
| `calibrator.py` `Calibrator.use_plotly` | 850-857 | `CalProps.usePlotly`, `SetOp`, `World.step`, `World.steps`, `Session.step`, `SessionCall`, `Session.call`, `Session.calls`, `ProcCall.target`, `Process.call`, `Process.calls`, `Shared.absorb`, `Shared.run`, `SharedOp.asCall` ... |
| `calibrator.py` `Calibrator.set_calibrator_properties` | 859-982 | `PlotLib`, `CalProps`, `CalProps.applyLibrary`, `arangeTo`, `CalProps.set`, `defaultNumPix`, `World.setCalibrator`, `searchLeft`, `rawPixel`, `SetOp`, `CalEnv`, `World.step`, `World.steps`, `levelName` ... |
| `calibrator.py` `Calibrator.set_hough_properties` | 984-1119 | `keepOr`, `HoughSet`, `HoughArgs`, `ptp`, `HoughSet.setIntercepts`, `HoughSet.setSlopes`, `HoughSet.apply`, `World.generatePairs`, `World.setHough`, `SetOp`, `World.step`, `World.steps`, `Session.step`, `SessionCall` ... |
| `calibrator.py` `Calibrator.set_ransac_properties` | 1121-1283 | `keepOr`, `RansacSet`, `RansacArgs`, `RansacSet.init`, `RansacArgs.matchesOk`, `RansacArgs.utilOk`, `RansacArgs.errorOk`, `RansacSet.set`, `World.setRansac`, `SetOp`, `World.step`, `World.steps`, `Session.step`, `SessionCall` ... |
| `calibrator.py` `Calibrator.add_atlas` | 1285-1341 | `World.generatePairs`, `HoughSet.fillLimits`, `World.addAtlas`, `SetOp`, `World.step`, `World.steps`, `Session.step`, `SessionCall`, `Session.call`, `Session.calls`, `ProcCall.target`, `Process.call`, `Process.calls`, `SharedOp` ... |
| `calibrator.py` `Calibrator.remove_atlas_lines_range` | 1343-1348 | `World.removeRange`, `SetOp`, `World.step`, `World.steps`, `Session.step`, `SessionCall`, `Session.call`, `Session.calls`, `ProcCall.target`, `Process.call`, `Process.calls`, `SharedOp`, `Shared.absorb`, `Shared.run` ... |
| `calibrator.py` `Calibrator.list_atlas` | 1350-1355 | `SetOp`, `World.step`, `World.steps`, `Atlas.printed`, `Session.step`, `SessionCall`, `Session.call`, `Session.calls`, `ProcCall.target`, `Process.call`, `Process.calls`, `SharedOp`, `Shared.absorb`, `Shared.run` ... |
| `calibrator.py` `Calibrator.clear_atlas` | 1357-1362 | `World.clearAtlas`, `SetOp`, `World.step`, `World.steps`, `Session.step`, `SessionCall`, `Session.call`, `Session.calls`, `ProcCall.target`, `Process.call`, `Process.calls`, `SharedOp`, `Shared.absorb`, `Shared.run` ... |
| `calibrator.py` `Calibrator.add_user_atlas` | 1364-1397 | `World.generatePairs`, `World.ensureAtlas`, `World.addUserAtlas`, `SetOp`, `CalEnv`, `World.step`, `World.steps`, `Session.step`, `SessionCall`, `Session.call`, `Session.calls`, `ProcCall.target`, `Process.call`, `Process.calls` ... |
| `calibrator.py` `Calibrator.set_atlas` | 1399-1423 | `World`, `World.generatePairs`, `World.setAtlas`, `SetOp`, `World.step`, `World.steps`, `Session.step`, `SessionCall`, `Session.call`, `Session.calls`, `ProcCall.target`, `Process.call`, `Process.calls`, `SharedOp` ... |
| `calibrator.py` `Calibrator.do_hough_transform` | 1425-1452 | `Cal.doHough`, `SetOp`, `World.step`, `World.steps`, `Session.step`, `SessionCall`, `Session.call`, `Session.calls`, `ProcCall.target`, `Process.call`, `Process.calls`, `SharedOp`, `Shared.absorb`, `Shared.run` ... |
| `calibrator.py` `Calibrator.save_hough_transform` | 1454-1488 | `Cal.saveHough`, `SetOp`, `World.step`, `World.steps`, `Session.step`, `SessionCall`, `Session.call`, `Session.calls`, `ProcCall.target`, `Process.call`, `Process.calls`, `SharedOp`, `Shared.absorb`, `Shared.run` ... |
| `calibrator.py` `Calibrator.load_hough_transform` | 1490-1505 | `Cal.loadHough`, `SetOp`, `World.step`, `World.steps`, `Session.step`, `SessionCall`, `Session.call`, `Session.calls`, `ProcCall.target`, `Process.call`, `Process.calls`, `SharedOp`, `Shared.absorb`, `Shared.run` ... |
| `calibrator.py` `Calibrator.set_known_pairs` | 1507-1550 | `Cal.setKnown`, `SetOp`, `World.step`, `World.steps`, `Session.step`, `SessionCall`, `Session.call`, `Session.calls`, `ProcCall.target`, `Process.call`, `Process.calls`, `SharedOp`, `Shared.kobj`, `Shared.absorb` ... |
| `calibrator.py` `Calibrator.fit` | 1552-1715 | `npPolyval`, `legStep`, `npLegval`, `chebStep`, `npChebval`, `basisVal`, `FitType`, `FitArgs`, `FitReport`, `utilisation`, `Cal.finishFit`, `adjustSampleSize`, `adjustMinMatches`, `Cal.ensureHough` ... |
| `calibrator.py` `Calibrator.match_peaks` | 1717-1956 | `addDeltaInt`, `intCoeff`, `Session.objectiveInt`, `Session.refineStepInt`, `Session.matchPeaksInt`, `CoeffKind`, `AtlasKind`, `MatchKernels`, `MatchArgs`, `MatchReport`, `MatchOut`, `Refined`, `addDelta`, `Session.inputCoeff` ... |
| `calibrator.py` `Calibrator.get_pix_wave_pairs` | 1958-1983 | `Session.getPairs`, `SessionCall`, `Session.call`, `Session.calls`, `ProcCall.target`, `Process.call`, `Process.calls`, `SharedOp`, `Shared.absorb`, `Shared.run`, `SharedOp.asCall`, `Shared.ops`, `listing` |
| `calibrator.py` `Calibrator.add_pix_wave_pair` | 1985-2007 | `AtlasKind`, `Session.setPairs`, `Session.storedPix`, `Session.addPair`, `SessionCall`, `Session.call`, `Session.calls`, `ProcCall.target`, `Process.call`, `Process.calls`, `SharedOp`, `Renewed`, `Shared.absorb`, `Shared.run` ... |
| `calibrator.py` `Calibrator.remove_pix_wave_pair` | 2009-2026 | `Session.setPairs`, `npDelete`, `Session.removePair`, `SessionCall`, `Session.call`, `Session.calls`, `ProcCall.target`, `Process.call`, `Process.calls`, `SharedOp`, `Renewed`, `Shared.absorb`, `Shared.run`, `SharedOp.asCall` ... |
| `calibrator.py` `Calibrator.manual_refit` | 2028-2124 | `CoeffKind`, `RefitArgs`, `RefitReport`, `Session.refitStart`, `Session.refitLists`, `Session.storeRefit`, `Session.finishRefit`, `Session.manualRefit`, `SessionCall`, `Session.call`, `Session.calls`, `ProcCall.target`, `Process.call`, `Process.calls` ... |
| `calibrator.py` `Calibrator.plot_arc` | 2126-2184 | `FigOpts`, `Session.plotArc`, `Documented` |
| `calibrator.py` `Calibrator.plot_search_space` | 2186-2249 | `FigOpts`, `Session.plotSearchSpace`, `SearchPlotArgs`, `Session.drawSearchSpace`, `Documented` |
| `calibrator.py` `Calibrator.plot_fit` | 2251-2324 | `Heap`, `FigOpts`, `FitPlotArgs`, `Session.plotCoeff`, `Session.plotFit`, `Documented` |
| `houghtransform.py` `HoughTransform.__init__` | 11-20 | `PointStore`, `Hough`, `Hough.init`, `affHough`, `pixHough` |
| `houghtransform.py` `HoughTransform.set_constraints` | 22-58 | `PyFloat`, `PyFloat.toFinite`, `Hough.setConstraints` |
| `houghtransform.py` `HoughTransform.generate_hough_points` | 60-92 | `linspace`, `PointStore`, `houghGrid`, `Hough.generate`, `affLine`, `affPointStore`, `pixLine`, `pixPointStore` |
| `houghtransform.py` `HoughTransform.generate_hough_points_brute_force` | 94-140 | `IsArgsort`, `PointStore`, `lineThrough`, `pairLines`, `bruteLines`, `Hough.generateBrute`, `ScaleFreeSort` |
| `houghtransform.py` `HoughTransform.add_hough_points` | 142-165 | `PointStore`, `HoughArg`, `vstackPoints`, `Hough.add` |
| `houghtransform.py` `HoughTransform.bin_hough_points` | 167-210 | `listMin`, `listMax`, `outerEdges`, `binEdges`, `searchRight`, `binNumber`, `IsArgsort`, `Hough`, `histogram2d`, `histSortedArg`, `houghLines`, `Hough.bin`, `SpreadPoints`, `SpreadSlopes` |
| `houghtransform.py` `HoughTransform.save` | 212-289 | `pySplitGo`, `pySplit`, `HoughData`, `Hough.data`, `DiskFile`, `Disk`, `Disk.write`, `SaveResult`, `Hough.jsonData`, `Hough.save`, `Movable`, `Rescalable` |
| `houghtransform.py` `HoughTransform.load` | 291-339 | `PointStore`, `Disk`, `withExt`, `Hough.assign`, `Hough.load`, `Movable`, `Rescalable` |
| `models.py` `polynomial` | 10-27 | `polyLoop`, `polynomial` |
| `models.py` `poly_cost_function` | 30-54 | `polyCost` |
| `models.py` `normalise_input` | 57-67 | `npMean`, `npStd`, `normaliseInput` |
| `models.py` `robust_polyfit` | 70-123 | `npStd`, `normaliseInit`, `denormalise`, `robustPolyfit` |
| `plotting.py` `_import_matplotlib` | 13-24 | *not modelled* |
| `plotting.py` `_import_plotly` | 27-60 | *not modelled* |
| `plotting.py` `plot_calibration_lines` | 63-252 | `PlotEvent`, `imageFormats`, `rint`, `milli`, `arcGrid`, `addMasked`, `maskedAdd`, `impulseLoop`, `convolveSame`, `arcKernel`, `PlotElems`, `PlotElems.iter`, `LinesArgs`, `LinesFigure` ... |
| `plotting.py` `plot_search_space` | 255-673 | `PlotEvent`, `PlotOut`, `imageFormats`, `savedFiles`, `finishMatplotlib`, `finishPlotly`, `Session.plotSearchSpace`, `SearchFig`, `rowPoint`, `inclined`, `Cal.searchFig`, `Session.drawSearchSpace`, `Supported` |
| `plotting.py` `plot_fit` | 676-1154 | `PlotEvent`, `PlotOut`, `imageFormats`, `finishMatplotlib`, `finishPlotly`, `PyFloat.isNeg`, `SpecKind.tiny`, `SpecArr.clip`, `prepareSpectrum`, `plotResidual`, `readable`, `markerHeight`, `matplotlibPoints`, `plotlyPoints` ... |
| `plotting.py` `plot_arc` | 1157-1372 | `PlotEvent`, `PlotOut`, `imageFormats`, `finishMatplotlib`, `finishPlotly`, `normalisable`, `Session.plotArc` |
| `synthetic.py` `SyntheticSpectrum.__init__` | 7-31 | `Synth`, `ListArg`, `Synth.new` |
| `synthetic.py` `SyntheticSpectrum.set_model` | 33-43 | `Synth`, `ListArg`, `Synth.setModel` |
| `synthetic.py` `SyntheticSpectrum.set_wavelength_limit` | 45-92 | `PyFloat.lt`, `Synth`, `LimitArg`, `newLimits`, `Synth.setLimit` |
| `synthetic.py` `SyntheticSpectrum.get_pixels` | 94-118 | `PyFloat.lt`, `ListArg`, `Synth.getPixels` |
| `util.py` `get_vapour_pressure` | 8-28 | `vpOmega`, `vpA`, `vpB`, `vpC`, `vpDisc`, `vpX`, `vapourPressure` |
| `util.py` `get_vapour_partial_pressure` | 31-36 | `vapourPartialPressure` |
| `util.py` `edlen_refraction` | 39-80 | `edlenRefraction` |
| `util.py` `vacuum_to_air_wavelength` | 83-123 | `refractiveIndex`, `vacuumToAir` |
| `util.py` `air_to_vacuum_wavelength` | 126-162 | `refractiveIndex`, `airToVacuum` |
| `util.py` `filter_wavelengths` | 165-195 | `boolMask`, `takeIdx`, `uniqIns`, `npUniqueIndex`, `mapRes`, `TextRow`, `readWavelength`, `digitsVal`, `splitPoint`, `splitSign`, `parseExponent`, `parseMantissa`, `parseFloat`, `filterWavelengthsBy` ... |
| `util.py` `filter_separation` | 198-229 | `PyErr`, `diffs`, `filterSeparation` |
| `util.py` `filter_intensity` | 232-290 | `PyErr`, `PyRes`, `mapRes`, `TextRow`, `readIntensity`, `thresholdsOk`, `digitsVal`, `splitPoint`, `splitSign`, `parseExponent`, `parseMantissa`, `parseFloat`, `PlotElems.iter`, `MinIntensity` ... |
| `util.py` `load_calibration_lines` | 293-423 | `boolMask`, `takeIdx`, `pyBound`, `pyTake`, `IsArgsort`, `Env`, `beforeHash`, `splitComma`, `fileRows`, `TextTable`, `loadtxt`, `mapRes`, `rowElement`, `readIntensity` ... |
| `util.py` `gauss` | 426-447 | `gaussFn` |
| `util.py` `refine_peaks` | 450-523 | `pyBound`, `pyInt`, `PyFloat.div`, `PyFloat.isFinite`, `PyFloat.fmax`, `nanMax`, `normaliseWindow`, `FitOut`, `windowStart`, `windowStop`, `peakWindow`, `divideWindow`, `refineLoop`, `isClose` ... |
| `util.py` `_derivative` | 526-545 | `derivativeCoeffs` |

## Axioms of each property theorem

From `#print axioms` on the committed sources.

* **Classical.choice, Quot.sound, propext**: `C01_filter_wavelengths`, `C01_wavelength_mem`, `C02_filter_separation`, `C05_load_exact`, `C06_brightest`, `C07_brightest_partial`, `C07_refuted`, `C07_min_distance_partial`, `C08_aligned`, `C09_air_limits`, `C09_air_complete`, `C10_vacuum_to_air`, `C10_list`, `C11_air_to_vacuum`, `C12_round_trip`, `C12_not_exact`, `C13_index_ge_one`, `C13_pressure`, `C13_no_air`, `C14_refuted`, `C14_kelvin_partial`, `C14_defined_partial`, `C14_humidity_partial`, `C15_inside`, `C16_refuted`, `C16_unique_partial`, `C17_refuted`, `C17_centre_partial`, `C17_normalised`, `C18_refuted`, `C18_independent_partial`, `C19_polynomial`, `C19_residuals`, `C20_derivative`, `C21_denormalisation`, `C21_error`, `C22_optimal`, `C22_exact_recovery`, `C23_refuted`, `C23_start_partial`, `C24_points`, `C25_slope_grid`, `C26_brute_force`, `C26_lines_through_points`, `C28_bin_counts`, `C29_lines_ranked`, `C30_half_bin`, `C32_refuted`, `C32_npy_partial`, `C32_json_partial`, `C33_refuted`, `C33_npy_partial`, `C33_json_add_partial`, `C34_save`, `C34_save_joined`, `C34_save_frame`, `C35_load_errors`, `C35_only_reads`, `C38_refuted`, `C38_high_degree_partial`, `C38_linear_partial`, `C39_refuted`, `C41_remove_partial`, `C41_repeat_partial`, `C41_count_partial`, `C41_apart_partial`, `C41_calls_partial`, `C43_add_failure_partial`, `C43_single_partial`, `C45_settings_persist`, `C46_session_thresholds`, `C46_thresholds`, `C46_invalid_rejected`, `C47_session_intercepts`, `C47_intercepts`, `C47_slopes_partial`, `C47_refuted`, `C48_refuted`, `C48_pixels_partial`, `C49_max_slope`, `C49_min_slope_partial`, `C49_refuted`, `C50_session_library`, `C50_one_library`, `C51_session_known`, `C51_history`, `C52_known_pairs_used`, `C53_all_pairs`, `C53_polygon`, `C53_calibrator`, `C54_linear_candidates`, `C55_refuted`, `C55_most_common_partial`, `C56_filter_close`, `C56_fit_spacing`, `C57_matching`, `C57_assertion_never_fires`, `C57_candidate_pairs`, `C58_refuted`, `C58_single_peak`, `C58_sampling_partial`, `C59_distinct_samples`, `C59_every_sample_possible`, `C60_fit_constraints`, `C60_accepted_constraints`, `C61_best_wins`, `C62_report`, `C62_reachable`, `C63_no_internal_assertion_partial`, `C63_refuted`, `C64_passes_partial`, `C64_never_returns`, `C64_refuted`, `C65_baseline_bounds_cost_partial`, `C65_refuted`, `C66_failed_fit_partial`, `C66_refuted`, `C67_legval`, `C67_power_partial`, `C67_quadratic_partial`, `C67_gradient_partial`, `C67_gradient_quadratic_partial`, `C67_refuted`, `C67_gradient_refuted`, `C67_fit_refuted`, `C67_fit_partial`, `C68_weight_partial`, `C68_refuted`, `C69_refuted`, `C69_poly_candidates_partial`, `C70_matched_peaks`, `C71_ambiguous_partial`, `C71_ambiguous_raises_partial`, `C71_refuted`, `C72_never_returns`, `C72_stored_partial`, `C72_refuted`, `C73_atlas_utilisation_partial`, `C73_refuted`, `C74_robust_partial`, `C74_plain_partial`, `C74_refuted`, `C75_add`, `C75_remove`, `C75_history`, `C75_reachable`, `C76_descending_partial`, `C76_ascending_front_partial`, `C76_refuted`, `C76_order_refuted`, `C77_refuted`, `C78_fit_refuted`, `C78_regenerated_partial`, `C78_refuted`, `C79_objective`, `C79_nonneg`, `C80_raw_pixel`, `C81_covers_peaks`, `C82_lines`, `C82_files`, `C83_refuted`, `C83_only_negatives_partial`, `C83_nonnegative_partial`, `C83_constructor_copy_partial`, `C84_matplotlib_partial`, `C84_blind_partial`, `C84_zero_partial`, `C84_after_fit_partial`, `C84_plotly_partial`, `C84_refuted`, `C85_refuted`, `C87_refuted`, `C87_empty_partial`, `C88_new`, `C89_refuted`, `C89_numbers_partial`, `C89_far_peak`, `C90_refuted`, `C90_rejected_partial`, `C91_settings_kept_partial`, `C91_refuted`, `C92_some_trial_partial`, `C92_refuted`, `C93_hough_lines_partial`, `C93_refuted`, `C94_no_constant_fit`, `C95_atlas_utilisation_partial`, `C95_refuted`, `C96_pairs_partial`, `C96_failed_match_partial`, `C96_refuted`, `C98_refuted`, `C99_sample_size`, `C99_determined_partial`, `C99_refuted`, `C97_stored_pixel_partial`, `C97_refuted`, `C100_solution_kept`, `C101_settings_kept`, `C101_peaks_forever`, `C102_float_refused_partial`, `C102_numpy_partial`, `C102_refuted`, `C103_refit_after_fit`, `C104_residual_partial`, `C104_rms_partial`, `C104_refuted`, `C105_effects_partial`, `C105_formats_refuted`, `C105_extension_refuted`, `C105_json_refuted`, `C106_returns_partial`, `C106_refuted`, `C107_plot_after_fit`, `C108_arc_partial`, `C108_gaussian_partial`, `C108_refuted`, `C108_repeated_refuted`, `C109_line_outside`, `C109_only_line_outside`, `C109_returns_partial`, `C109_string_partial`, `C109_refuted`, `C110_markers_partial`, `C110_refuted`, `C111_deterministic_partial`, `C111_every_combination_partial`, `C111_current_numpy_partial`, `C111_refuted`, `C111_never_returns_refuted`, `C112_more_tries_partial`, `C112_refuted`, `C113_perfect_sample_partial`, `C113_refuted`, `C114_trial_admissible_partial`, `C114_refuted`, `C115_matches_are_candidates_partial`, `C115_refuted`, `C116_interleaved`, `C117_minimum_matches_partial`, `C117_in_force_partial`, `C117_refuted`, `C118_markers_partial`, `C118_disjoint_partial`, `C118_refuted`, `C119_region_partial`, `C119_refuted`, `C120_best_pairs_partial`, `C120_refuted`, `C121_solution`, `C121_draws`, `C121_window`, `C122_grid_partial`, `C122_any_slope_partial`, `C122_peak_partial`, `C122_refuted`, `C123_peak_order_partial`, `C123_refuted`, `C124_refuted`, `C124_selection_partial`, `C124_brightest_partial`, `C124_distance`, `C125_refuted`, `C125_pieces_partial`, `C126_load`, `C126_thresholds`, `C127_refuted`, `C127_exact_partial`, `C128_refuted`, `C128_faint_partial`, `C130_order_partial`, `C130_refuted`, `C131_repeat_partial`, `C131_refuted`, `C131_remove_partial`, `C132_repeat_partial`, `C132_settles_partial`, `C132_refuted`, `C133_line_order_partial`, `C133_refuted`, `C133_remove_partial`, `C134_dropped_partial`, `C134_ignored_partial`, `C134_weights_only_partial`, `C134_refuted`, `C135_shared_partial`, `C135_refuted`, `C136_load_partial`, `C136_save_partial`, `C136_refuted`, `C136_save_refuted`, `C137_linear_partial`, `C137_polynomial_partial`, `C137_refuted`, `C138_history_partial`, `C138_calibration_partial`, `C138_refuted`, `C138_empty_refuted`, `C139_history_partial`, `C139_calibration_partial`, `C139_refuted`, `C140_density`, `C140_nonfinite`, `C141_refuted`, `C141_gain_partial`, `C141_single`, `C142_local`, `C143_refuted`, `C143_moved_partial`, `C144_repeat_partial`, `C144_settles_partial`, `C144_refuted`, `C145_after_match`, `C146_undo`, `C147_put_back_partial`, `C147_refuted`, `C148_outcomes`, `C149_max_tries`, `C150_relaxed`, `C151_as_written_partial`, `C151_cut_partial`, `C151_decimal_partial`, `C151_refuted`, `C152_single_row`, `C152_one_column`, `C152_two_columns`, `C153_other_elements`, `C154_at_most_partial`, `C154_complete_partial`, `C154_add_atlas_partial`, `C154_refuted`, `C155_listing`, `C156_recoverable_partial`, `C156_refuted`, `C157_unambiguous`, `C158_first_entries_partial`, `C158_best_line_partial`, `C158_refuted`, `C159_instrument_partial`, `C159_refuted`, `C160_top_n_partial`, `C160_refuted`, `C161_tolerance_partial`, `C161_refuted`, `C162_known_order`, `C163_range`, `C163_complete`, `C164_humidity_partial`, `C164_temperature_partial`, `C164_small_partial`, `C164_refuted`, `C165_candidate_partial`, `C165_range_partial`, `C165_refuted`, `C166_perfect_partial`, `C166_refuted`, `C167_default_partial`, `C167_refuted`, `C168_refuted`, `C169_sources`, `C169_catalogue`, `C170_ends`, `C170_almost_surely`, `C170_speed`, `C171_chance`, `C171_limit`, `C172_matches_partial`, `C172_refuted`, `C173_start_partial`, `C173_refuted`, `C174_refuted`, `C175_lines_twice_partial`, `C175_never_matches_partial`, `C175_add_twice_partial`, `C175_refuted`, `C176_found_partial`, `C176_chance_partial`, `C176_refuted`, `C177_same_pairs`, `C177_far_lines_partial`, `C177_refuted`, `C178_restored`, `C178_separated`, `C179_kept_partial`, `C179_refuted`, `C179_matching_partial`, `C179_match_after_partial`, `C180_linear_partial`, `C180_high_degree_partial`, `C180_match_partial`, `C180_refuted`, `C181_fit_partial`, `C181_match_partial`, `C181_refined_partial`, `C181_refuted`, `C182_lookup_partial`, `C182_marker_partial`, `C182_wrapped_partial`, `C182_drawn_partial`, `C182_plotly_partial`, `C182_default_partial`, `C182_refuted`, `C182_marker_refuted`, `C183_pipeline`, `C184_history`, `C185_runs`, `C185_arc_partial`, `C185_refuted`, `C185_gaussian_partial`, `C186_reproducible_partial`, `C186_replay_partial`, `C186_others`, `C186_refused`, `C186_refuted`, `C187_once`, `C187_handlers_partial`, `C187_level_partial`, `C187_unknown`, `C187_refuted`, `C187_new_refuted`, `C188_settings`, `C188_given_partial`, `C188_refuted`, `C189_shared_partial`, `C189_crossing_partial`, `C189_refuted`, `C190_failed_match_partial`, `C190_failed_refit_partial`, `C190_untouched_partial`, `C190_peaks_partial`, `C190_by_value_partial`, `C190_edited_partial`, `C190_earlier_partial`, `C190_shared`, `C190_refuted`, `C191_direction_partial`, `C191_decreasing_partial`, `C191_refuted`, `C191_quadratic_partial`, `C192_linear_partial`, `C192_poly_partial`, `C192_refresh_partial`, `C192_refuted`, `C193_monotone_partial`, `C193_refuted`, `C194_matches_partial`, `C194_first_pixel_partial`, `C194_refuted`, `C195_explicit_transform`, `C196_least_squares_partial`, `C196_refuted`, `C197_noise`, `C197_everywhere`, `C198_fit`, `C198_match`, `C198_manual`, `C198_robust_polyfit`, `C199_sum_partial`, `C199_worst_partial`, `C199_degree_partial`, `C199_refuted`, `C200_same_pairs`, `C200_far_peaks`, `C200_calibration`, `C201_even_partial`, `C201_fit_partial`, `C201_refuted`, `C202_history_partial`, `C202_calibration_partial`, `C202_lines_partial`, `C202_leastSquares_partial`, `C202_refuted`, `C202_monotone_refuted`, `C203_unweighted_partial`, `C203_rank_partial`, `C203_blind`, `C203_refuted`, `C204_near_partial`, `C204_kept_partial`, `C204_refuted`, `C205_returns_partial`, `C205_apart_partial`, `C205_min_distance_partial`, `C205_refuted`, `C206_matches_partial`, `C206_refuted`, `C207_direction_partial`, `C207_order_partial`, `C207_refuted`, `C208_bound_partial`, `C208_never`, `C208_refuted`, `C209_manual`, `C209_line_partial`, `C209_robust_polyfit`, `C209_refuted`, `C210_order_partial`, `C210_same_samples_partial`, `C210_refuted`, `C212_whole_partial`, `C212_flat_partial`, `C212_stuck_partial`, `C212_refuted`, `C213_seeded`, `C213_any_two`, `C214_bases`, `C214_other_matches_partial`, `C214_right_partial`, `C214_match_peaks_partial`, `C214_pixel_zero_partial`, `C214_refuted`, `C215_ranges`, `C215_refuted`, `C215_distance_again_partial`, `C215_growing_distance`, `C216_refuted`, `C216_finer_partial`, `C216_wider`, `C216_wider_slopes_lose`, `C218_distance_partial`, `C218_refuted`, `C219_apart_partial`, `C219_one_element_partial`, `C219_two_partial`, `C219_order_partial`, `C219_refuted`, `C219_repeat_partial`, `C219_repeat_order_partial`, `C221_add_partial`, `C221_limits_partial`, `C221_last_limits`
* **Quot.sound, propext**: `C03_degenerate_partial`, `C04_mask`, `C04_error`, `C15_dark`, `C15_positions`, `C15_errors`, `C17_window`, `C24_points_failure`, `C31_history`, `C36_set_limit`, `C36_ordered`, `C37_filter`, `C37_strict`, `C39_high_degree_partial`, `C39_linear_stale_partial`, `C40_history`, `C42_add_user`, `C44_add`, `C50_refuted`, `C50_choice_partial`, `C51_known_pairs`, `C67_chebval`, `C77_manual_refit_partial`, `C77_rejected`, `C85_merge_partial`, `C98_refine_without_effect_partial`, `C126_add`, `C140_zero`, `C144_given`, `C145_given`, `C145_repeat`, `C151_exponent_partial`, `C165_unconstrained_partial`, `C167_warnings_partial`, `C168_matches_partial`, `C174_by_hand_partial`, `C177_fit_partial`, `C179_refit_partial`, `C181_refit_partial`, `C184_inputs`, `C188_inputs`, `C200_fit`, `C205_refined_partial`, `C205_refined_list`, `C205_stored`, `C211_single_partial`, `C211_each`, `C212_plain_partial`, `C212_robust_partial`, `C213_final`, `C213_one_outcome`, `C213_waiting`, `C215_thresholds`, `C216_order`, `C217_filter`, `C217_load`, `C217_atlas`, `C219_kept`, `C220_user_appends`, `C220_order`
* **propext**: `C03_refuted`, `C27_add`, `C27_history`, `C27_error_unchanged`, `C31_constraints`, `C41_refuted`, `C43_refuted`, `C44_no_elements`, `C86_linelist`, `C129_refuted`, `C129_limits_partial`, `C211_several_partial`, `C211_refuted`, `C215_growing_keeps_more`, `C218_air_is_converted`, `C220_add_appends`, `C221_refuted`

## Where the code does not do what is documented or expected

For each, `..._refuted` proves the negation on a concrete case and `..._partial` what holds instead.

* **C03** filter_separation on degenerate lists. Refuted: filter_separation drops a lone line for every positive threshold and raises IndexError on an empty list; the partial theorem gives the exact behaviour.
* **C07** returned atlas lines respect min_distance. Refuted with brightest_n_lines (lines are re-ordered by brightness before neighbours are compared); proved without it. With it, C07_brightest_partial: an isolated line is always returned, and each returned line is at least min_distance from some other one (but not from all).
* **C14** saturation vapour pressure grows with temperature. Refuted: the conversions pass Celsius to a formula for Kelvin; the value falls from 0 to 20 Celsius. Partial: NIST formula in Kelvin, well-definedness and bounds over the Celsius range used, proportionality to humidity.
* **C16** refine_peaks returns a unique set of peaks. Refuted: only neighbours in the list are compared. Proved when the fitted positions come in increasing order.
* **C17** refine_peaks reports the centre in spectrum coordinates. `C17_normalised` says what the fit is given, infinite and nan samples included.
* **C18** refine_peaks treats peaks independently and leaves the caller's spectrum alone. Refuted: windows are normalised in place, so overlapping windows interfere. Proved for peaks at least 2*window_width+1 apart.
* **C23** robust_polyfit starts from the supplied guess. Refuted: a non-constant x0 is used un-normalised; the partial theorem gives the case that works.
* **C32** saved Hough transforms load back. Refuted: the name given to save is not always the name load finds / the format loses content; proved for npy and json with a well-formed extensionless name.
* **C33** a loaded Hough transform is usable. Refuted for json (lists instead of arrays); proved for npy and for the json operations that do work.
* **C38** get_pixels inverts the model. Refuted for a linear model (the inverse of degree-one models is computed wrongly); proved for higher degree relative to the inverter contract.
* **C39** set_model takes effect. Refuted: set_model keeps a stale model in the linear case; proved for the other case.
* **C41** remove_atlas_lines_range removes exactly the lines in range. C41_apart_partial: one call is right if the lines are at least twice the tolerance apart, in any order. C41_count_partial: n calls are enough if fewer than 2^n lines are in range; for lines in order of wavelength only then.
* **C43** Atlas.add is all-or-nothing. Refuted: elements loaded before the failing one stay in the atlas. Exact effect of failure proved; single-element requests are all-or-nothing.
* **C47** Hough bounds follow the settings. intercepts proved in full; slopes refuted: a pixel_list given later leaves the slope bounds of the old range; proved: they match after set_hough_properties until the pixel list is replaced
* **C48** num_pix determines the pixel range. refuted: num_pix alone keeps the pixel list of the constructor; proved: constructor with a spectrum, explicit pixel_list
* **C49** the slope range covers every linear solution within tolerance. upper bound proved; lower bound refuted for the default tolerances; proved: it holds exactly if range_tolerance <= 2 * linearity_tolerance
* **C50** exactly one plotting library is selected. at most one library active and named correctly: proved; last choice wins: refuted (use_plotly is forgotten by set_calibrator_properties), exact effect of each call proved
* **C55** most common candidates are the top-ranked wavelengths of each peak. C158 gives the consequence for fit when top_n_candidate is large.
* **C58** every peak can be sampled. false as documented: a peak on an interior bin edge can look up an empty bin (C58_refuted, peaks 0, 5, 10), and a single distinct peak always does (C58_single_peak); proved: the exact condition for positive probabilities summing to one
* **C63** fit's internal consistency checks never fire. refuted: matches of an earlier fit make the assertions fire when nothing is accepted; proved: this is the only way
* **C64** fit terminates. C157 gives the general situation in which the loop never ends.
* **C65** fit falls back to the supplied baseline. refuted: with no accepted trial fit raises although a baseline is given; proved: a returned solution costs at most the sum of the baseline's errors
* **C66** a failed fit keeps the previous solution. refuted: fit_coeff is overwritten first; proved: what a failing fit leaves alone
* **C67** non-power bases are used consistently. refuted from degree 2 on (values, gradient, and a fit of exact data that reports residuals of 5); proved: numpy series evaluation, agreement up to degree 1 and for poly, the exact error at degree 2
* **C68** the Hough weight is looked up at the solution's own gradient and intercept. refuted: the density is looked up at (intercept, gradient) while its axes are (gradient, intercept); proved: the formula actually used
* **C69** polynomial candidates. false as documented: atlas lines and predicted wavelengths are subtracted as arrays (C69_refuted); proved: exactly what is returned, and ValueError for different numbers of peaks and lines
* **C71** match_peaks resolves ambiguous peaks. refuted: trying the alternatives raises; proved: what happens for every ambiguous input
* **C72** match_peaks works without refinement. refuted: without refine and robust_refit no call returns a report; proved: what is stored
* **C73** match_peaks atlas utilisation is a fraction. refuted: one line can be matched to several peaks; proved when no line is shared
* **C74** match_peaks' rms belongs to the returned solution. refuted: refine-only reports quantities of other coefficients; proved: the exact quantities reported
* **C76** an added pair is placed in pixel order. refuted: 15 added to 10, 20 goes to the front, and 5 cannot be added; proved: descending lists stay descending, in an ascending list every pair goes to the front
* **C77** manual_refit validates and is atomic. refuted: before any fit the coefficients and pairs are stored and then AttributeError is raised; proved once a fit has set the basis, and rejection of bad arguments in every state
* **C78** removed atlas lines are not used any more. refuted: remove_atlas_lines_range and clear_atlas leave the search space as it was; proved: set_atlas and set_hough_properties rebuild it from the current atlas; a fit after clear_atlas matches removed lines
* **C83** plotting does not modify the data. Refuted: with log_spectrum negative counts are overwritten in place in the calibrator's spectrum or in the array passed by the caller, even if the call then raises. Partial: nothing else is ever changed, and nothing at all for non-negative spectra.
* **C84** the residual panel shows the residuals of the fit. Refuted: with matplotlib the offset is computed from the matched line to the nearest line of the atlas, hence zero after every fit whatever the coefficients. Partial: what both libraries show, exactly; plotly shows the residuals of the solution.
* **C85** candidate pairs are merged without distortion. false as documented: np.sort sorts inside each row (C85_refuted); proved: each row is the sorted triple of a candidate and every candidate is there
* **C87** an element without matching lines selects nothing. Refuted: an empty selection with a positive minimum distance raises IndexError; the partial theorem gives the exact outcome for all empty selections.
* **C89** refine_peaks accepts any numeric spectrum. C89_far_peak: a first peak beyond the end by the window width or more raises ValueError for either kind of spectrum.
* **C90** a rejected set_ransac_properties call changes nothing. refuted: values checked earlier, and all unchecked ones, are stored before the failing assertion; proved: what a rejected call leaves alone
* **C91** fit does not change the settings. refuted: sample_size and minimum_matches change; proved: nothing else does
* **C92** fit tries at least once. refuted: sample_size above the number of candidate pairs; proved: exact condition
* **C93** fit searches along the Hough lines of the current settings. refuted: an existing transform is not redone; proved: matches lie along the transform held, which is current if none was held before
* **C95** fit's atlas utilisation is a fraction. refuted: infinite after clear_atlas; proved while the search space only has lines of the current atlas
* **C96** a failed match_peaks keeps the earlier matches. refuted: matched_atlas becomes None and get_pix_wave_pairs raises; proved: what a failed call leaves alone C96_pairs_partial: after a call that raised nothing has changed, or there are no pairs, or there are new pairs beside the old solution.
* **C98** refined coefficients are used for matching. refuted: with robust_refit=True a successful refinement changes nothing; proved as such
* **C99** every random sample determines its polynomial. refuted: a quadratic baseline with fit_deg=1 is fitted to samples of two points; proved for degree at most fit_deg with random sampling, and the exact sample size
* **C97** an added pixel is stored exactly. refuted: with integer peaks 15.5 is stored as 15; proved: exact unless the peaks are integers, then cut off by less than 1
* **C102** pairs can be added after a fit. refuted: after every successful fit a Python float raises TypeError; proved: numpy floats can be added exactly if some matched peak is smaller
* **C104** fit's residuals belong to its solution. refuted with least-squares lines and six peaks: two residuals beyond the tolerance are returned as +5; proved: exact if all are within the tolerance, mean square never overstated
* **C105** the documented figure options have their documented effect. iframe is documented for every method but matplotlib ignores it; the extension is always appended (arc.png becomes arc.png.png); return_jsonstring does not suppress the display.
* **C106** plot_arc returns for every documented input. A Python list raises AttributeError; with no spectrum and no pixel list the call raises, with plotly it always raises when the spectrum is missing.
* **C108** the simulated arc shows the loaded lines. The intensities are assigned in list order to ascending grid positions: with brightest_n_lines the list is in order of brightness and intensities end up at the wrong wavelengths; an element named twice is added twice.
* **C109** plot_calibration_lines draws whenever there is something to draw. C109_line_outside and C109_only_line_outside describe lines that the conversion to air moves off the grid: with two or more lines of the element ValueError is raised, a lone line leaves the spectrum at zero.
* **C110** the markers of plot_calibration_lines respect min_intensity and min_distance. With brightest_n_lines the separation filter sees the lines in order of brightness; a lone line with positive min_distance is not marked.
* **C111** brute_force solves all combinations. refuted: x[[sample]] is two-dimensional with current numpy, so TypeError (ValueError with known pairs); with older numpy one rejected combination is tried for ever; proved: deterministic, and a call that returns had every combination within the bounds
* **C112** more tries never lose matches. refuted: the early break only leaves the inner loop, and a cheaper solution with fewer matches replaces a complete one; proved: the cost never increases with more tries
* **C113** a perfect sample is not lost. refuted: where the interpolated density is negative the cost is negative and wins; proved for densities that are never negative
* **C114** the returned solution respects the search bounds. refuted: the bounds are checked for the trial polynomial only, the robust fit that is returned may leave them; proved for the trial
* **C115** known pairs constrain the returned solution. refuted: the final robust fit leaves the known pairs out; proved: what the final fit is made of
* **C117** minimum_matches stays in force. False: fit stores the lowered minimum_matches; after a fit with two lines a later fit with four lines returns three matches although four were required.
* **C118** plot_search_space shows the candidates. False: np.sort in _merge_candidates sorts every row (pixel, wavelength, weight); with weights of at most 1 all candidate markers are drawn at abscissa <= 1 with the pixel as ordinate.
* **C119** the drawn tolerance region is the search space. False: a line up to candidate_tolerance outside the drawn region is still paired.
* **C120** the best candidate pairs are those of the search. C160 gives the dependence of the search itself on top_n_candidate.
* **C122** combinations on an admissible line become candidates. False: the Hough lines are bin centres, so with few bins a combination on an admissible line can be further than candidate_tolerance from every line.
* **C123** the order of the peaks does not matter. False with linear=False: _get_candidate_points_poly subtracts the atlas lines from the predicted wavelengths element by element, so the order decides which peak is compared with which line.
* **C124** a less restrictive selection never loses lines. False with min_distance: a fainter line that is let in removes its bright neighbour.
* **C125** a range can be loaded in pieces. False with min_distance: lines close to each other on both sides of the cut are dropped only from the whole.
* **C127** element names are case insensitive. False: names are compared exactly; 'ar' selects nothing, with min_distance the call raises IndexError.
* **C128** lines below the threshold have no influence. False for lines with exactly the same wavelength: filter_wavelengths keeps the first of them before intensities are looked at.
* **C129** lines added by hand do not change later selections. False: add_user_atlas replaces the limits of the atlas by the extremes of the user's lines.
* **C130** the order of configuration calls does not matter. False when set_calibrator_properties gives a pixel list: the slope bounds of set_hough_properties are those of the pixel list at the time of that call.
* **C131** configuration calls can be repeated. False for remove_atlas_lines_range: it skips the line after each one it removes, so a second call may remove more. C131_remove_partial: it can be repeated without effect exactly if no two neighbouring lines are in range.
* **C132** repeating fit gives the same answer. False as stated: fit stores the sample size it has reduced, so with sample_size above the number of candidate peaks the first call fails and the identical second call succeeds.
* **C133** the order of the lines of an atlas does not matter. False for fit: the candidates of a peak are ranked by increasing wavelength but looked up in atlas order (C55), so swapping two lines changes the solution although no weights tie. Proved for all configuration calls and Hough transforms except remove_atlas_lines_range; for that C133_remove_partial: n calls leave the same lines if fewer than 2^n are in range.
* **C134** a loaded Hough transform is the one that is searched. False: load_hough_transform stores the transform in self.ht, but fit reads self.hough_lines, which only do_hough_transform sets, and makes its own transform (overwriting the loaded one) when there is none.
* **C135** a transform saved by one calibrator can be loaded by another. False for to_disk=False: Calibrator.save_hough_transform drops the value that HoughTransform.save returns. Proved for everything else.
* **C136** a failed save or load of a transform leaves things as they were. False: a file saved before any transform holds None, and loading it raises AttributeError after the points were overwritten; npy+json saved before a transform writes the npy file and then raises. Proved for disks whose files hold whole transforms, and for single file types.
* **C137** a candidate at the edge of the tolerance weighs half. False: the width is multiplied by 1.1775 where it should be divided, so the weight at the edge is about 0.7. Proved: exact rows and weights of both searches, strict decrease, bounds 3/5 and 3/4 at the edge, shifts within range_tolerance.
* **C138** Moving the zero point of all wavelengths moves the solution and nothing else. The claim is false as stated: the Hough density is read with slope and intercept exchanged (C68), so with hough_weight other than 0 the winning trial depends on the zero point (C138_refuted), and a transform without any line in range gets bins of the unit square whatever the zero point (C138_empty_refuted). Proved with hough_weight 0, a non-empty transform and samples that determine the polynomial (no brute force, degree of the baseline at most fit_deg); not covered: packaged line lists (in Angstrom) and transforms from files.
* **C139** All wavelengths may be given in any unit. The claim is false as stated: numpy widens a degenerate histogram range by 0.5 in whatever unit, so with num_slopes=1 a fit that succeeds in Angstrom fails in micrometre (C139_refuted). Proved when the points of the transform have two slopes and two intercepts, for any hough_weight with a baseline, and for hough_weight 0 without one (the search then starts from the absolute cost 1e50). The Gaussian weights of the code contain an absolute constant, so the theorem asks that they are off or independent of the unit.
* **C141** The gain of the detector has no influence on refine_peaks. 
* **C143** Cutting samples off the front of a spectrum moves the refined positions by as much. 
* **C144** match_peaks can be repeated. 
* **C147** Removing a pair can be undone by adding it again. 
* **C151** Values in a line-list file are used as written. 
* **C154** An atlas contains every line of its elements between the limits. 
* **C156** The true calibration can be found. 
* **C158** With a large top_n_candidate every candidate takes part. 
* **C159** The true calibration of an almost linear instrument can be found. 
* **C160** A larger top_n_candidate never loses a candidate. 
* **C161** A larger candidate_tolerance never loses a candidate. 
* **C164** Humidity and temperature change air wavelengths as they should. refuted: the saturation pressure is evaluated at the Celsius temperature, the effect of humidity at 20 C is less than a tenth of the right one; proved: the directions of the effects of humidity and, in dry air, of temperature
* **C165** Wider settings never lose a combination of a peak and a line. refuted for the wavelength limits: moving max_wavelength up loses every pair of a small calibrator; proved for both tolerances and for the unconstrained search space
* **C166** A supplied solution is only replaced by a better one. refuted: a solution that is right at four peaks is replaced by one that misses a peak by 60, because the two costs are on different scales; proved for a supplied solution without errors
* **C167** fit_tolerance and the overfit check decide whether a fit is returned. refuted: unacceptable fits are returned, with a warning only; proved: the warnings are logged exactly then, and the rms warning cannot occur unless fit_tolerance is below ransac_tolerance
* **C168** fit announces every setting it changes. refuted: sample_size is raised to fit_deg + 1 without a warning; proved: minimum_matches changes exactly if one of its warnings is logged
* **C172** A good sample keeps its matches. Refuted; the partial theorem adds the hypothesis that no line is a candidate of two different peaks, and bounds the number of unmatched candidate peaks.
* **C173** Refinement does not make the solution worse. Refuted; the partial theorem compares with the start of the minimiser instead of the input.
* **C174** Lines given by hand can replace the lines of an element. Refuted; the partial theorem uses the opposite value of vacuum.
* **C175** An element may be added twice. Refuted; the partial theorems describe what happens instead: the lines are doubled and match_peaks never returns pairs.
* **C176** A true calibration that has been found is returned. Refuted; the partial theorems need that no line is a candidate of two peaks.
* **C177** Lines outside the search space do not matter. Refuted; the partial theorems need atlases with at least sample_size and minimum_matches lines.
* **C179** Editing true pairs keeps the true solution. C179_matching_partial and C179_match_after_partial: the same with calls of match_peaks among the edits, which find the true lines and drop pairs added by hand.
* **C180** Calibrating a synthetic spectrum gives back its coefficients. Refuted for degree at least 2; the partial theorems cover linear models, and the reversed order for higher degrees.
* **C181** The degree asked for is the degree returned. Refuted for fit with fit_coeff; the partial theorems say which degree is returned. `C181_refined_partial`: with robust_refit=False fit_deg has no influence on the number of coefficients.
* **C182** A spectrum given to plot_fit is drawn, with the markers at its values. Refuted; the partial theorems give the exact conditions for matplotlib and for plotly, and the pixel each marker is read from.
* **C185** The simulated arc is the sum of its lines. The claim is refuted for unsorted files; the partial theorems need increasing rounded wavelengths. The number of points of np.arange is the exact one; the plotting calls of the script are not modelled.
* **C186** A seed makes a fit reproducible. C186_others: calls on other calibrators leave a calibrator as it is.
* **C187** Messages are printed once and from the chosen level. Level names are specified by a table, in any capitalisation; `C187_handlers_partial` covers loggers that the user has given handlers.
* **C188** What match_peaks depends on. Refuted before the first fit only.
* **C189** Order of the matched wavelengths. Refuted: candidates of one peak only.
* **C190** Lists of the user and lists of the calibrator. C190_failed_refit_partial: the same for a manual_refit that raises AttributeError before the first fit.
* **C191** Spectra in which the wavelength decreases. Refuted: only increasing solutions pass the monotonicity check. `C191_quadratic_partial` covers degrees 1 and 2 for matches that span 7.5 pixels; the other theorems are for degree 1.
* **C192** Lines added to an atlas that is in use. Refuted: the pairs are not made again when the atlas changes. C78 is about removed lines.
* **C193** A larger tolerance in match_peaks. Refuted: ambiguous peaks raise (C71).
* **C194** Where the pixels are counted from. Refuted: intercepts are meant at pixel 0 whatever pixel_list is. The theorems are for degree 1.
* **C196** A wrong match in robust_polyfit. Refuted: with f_scale 1 in units of std(y) the loss is quadratic for every error that is smaller than the spread of the wavelengths.
* **C199** Removing pairs and raising the degree in manual_refit. The claim for all pairs is false; the parts are the cases in which it holds. The least squares contract for robust_polyfit is C196/C197.
* **C201** Evenly spaced peaks. In exact arithmetic; rounding of the bin edges can move a peak that lies exactly on an edge.
* **C202** Calibration of a binned spectrum. The default pixel list is in unit steps whatever the peaks, so the session starts with the pixels given explicitly.
* **C203** Wavelengths given as integers. With `linear` the pairs array is of integer type only if the peaks are integers too, as those of scipy's find_peaks.
* **C204** match_peaks keeps the matches of a fit. 
* **C205** When match_peaks returns a result. Calls with refine=True or robust_refit=False are not covered by the equivalence.
* **C206** A larger ransac_tolerance. Matching one line to two peaks, filter_close, a positive hough_weight and repeated passes are excluded; the first is refuted.
* **C207** Order of the matches in fits of low degree. Refuted for degree 3; proved for degrees 1 and 2.
* **C208** A peak given twice. The natural expectation, that a fit matching every peak also passes with all peaks required, is refuted.
* **C209** The returned solution increases with the pixel. Proved for degree 1 (fit, robust_polyfit, manual_refit), refuted for degree 2.
* **C210** Order in which samples are drawn. Refuted in general; proved for samples that are not rejected after their cost was compared, and for searches that evaluate the same samples.
* **C211** A threshold of brightness for each element. Refuted: lists of several thresholds raise AssertionError. The partial theorems give the effect of every list.
* **C212** Coefficients given as integers. false for refine=True, robust_refit=False; C212_refuted, C212_plain_partial, C212_robust_partial, C212_whole_partial, C212_flat_partial, C212_stuck_partial
* **C214** Right matches and the other matches of a fit. C214_bases: the contract on the kernels holds for numpy's evaluation in all three bases; C214_match_peaks_partial: the same rule for the matches of match_peaks.
* **C215** Line filters applied again. 
* **C216** More slopes, wider bounds and more data in the Hough transform. 
* **C218** Lines in air and the minimum distance. 
* **C219** Lines of several ranges removed one after the other. C219_apart_partial: with lines at least twice every tolerance apart exactly the lines outside all ranges stay, also if ranges meet. C219_repeat_partial: a sequence of calls made as often as there are lines leaves just the lines outside all ranges. C219_repeat_order_partial: so the order of the calls does not matter then.
* **C221** Order of the calls that add lines. refuted: add_user_atlas replaces the limits that a later add uses; proved: for calls of add alone, for calls that are given their limits, and which limits are left
