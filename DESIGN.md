# Formal model of echidna: design

The code under study is the python 2 package in `/repo/echidna`. It is read as
text and never run. The model is written in Lean 4 (4.33.0) with Mathlib and
lives in `lean/Verif`. `properties.jsonl` states the properties, `MANIFEST.json`
maps each one to the theorems that settle it, `seeded/LOG.jsonl` records the
mutation tests.

## Layout

* `Verif/Model/*.lean` – the model: one definition per python function, each
  with a comment citing the file and lines it models and any simplification.
* `Verif/Spec/*.lean` – small specifications that do not use model helpers.
* `Verif/Lemmas/*.lean` – helper lemmas.
* `Verif/Props/*.lean` – property theorems, each followed by an `example` that
  shows that its hypotheses are met by a concrete non-trivial case.

## Trusted base

* Lean's kernel, and the axioms `propext`, `Classical.choice`, `Quot.sound`
  (those of Mathlib). No axiom is added; no `sorry`, `native_decide`,
  `bv_decide`, `implemented_by` or `unsafe`.
* The translation python -> Lean, done by hand and described by the comments.

## Modelling decisions that apply everywhere

* **Numbers.** Floats are exact rationals (`ℚ`), or reals (`ℝ`) where the code
  takes logarithms, exponentials or square roots. Overflow, NaN and infinity are
  not modelled. Rounding errors are modelled in `Model/Float`, `Model/FloatSum`, `Model/FloatShift`, `Model/FloatSmear` and `Model/FloatStat` (C125–C129, C135, C139, C140, C148, C149) for
  filling, shrinking, scaling, adding, projecting, rebinning, summing, shifting by whole bins, weighted smearing, test statistics, penalty terms and the bins of an axis: there every operation is
  followed by a rounding, which is any monotone function with a relative error
  bound that is exact on whole numbers up to a bound; rounding to `p` binary
  digits, half to even, is proved to be one (`binary`). Elsewhere there are no
  rounding errors. A division by zero is an explicit error
  value of the model (`.zeroDivision`), whether python raises or numpy yields
  inf/nan with a warning; the comment at each place says which.
* **Integers.** `int(x)` truncates towards zero, python 2 `round` rounds half
  away from zero, `numpy.rint` half to even, `%` has the sign of the divisor,
  int `/` floors. Numbers that python 2 would treat as ints if written without a
  decimal point are meant as floats, except in `Model/Whole` (C142, C143), where
  both kinds occur. `numpy.isclose(a, b)` is `|a-b| <= 1e-8 + 1e-5*|b|`.
* **Arrays.** Slice bounds that are floats with integral values (`numpy.ceil` in
  `shrink`) are accepted, as by the numpy of the python 2 era. A numpy array is a shape and a function from index lists; two
  arrays are equal when the shapes agree and all in-range entries agree.
  `reshape` goes through the row-major flat index as in numpy.
* **Exceptions** are values of `Except`. For mutating methods the model returns
  the state after the exception too where the code mutates before raising.
* **Dictionaries** are association lists in insertion order; where python 2's
  order is arbitrary the theorems quantify over all orders.
* **Sharing.** `copy.copy` copies share their configuration. The spectrum-level
  theorems are about values; programs with several spectra that share
  configurations are in `Model/Sharing` (C141); for fits the sharing itself is modelled with a
  store of objects (`FitState` in `Model/Fit`: configurations, spectra,
  parameters, cache), used by `Model/Fit`, `Model/FitGrid`,
  `Model/FitSession`, `Model/FitInit` and `Model/Sensitivity`; `Limit` on such a fit is in `Model/FitLimit`.
* **Not modelled**: of plotting everything but the numbers handed to matplotlib
  and ROOT (styles, titles, image files), the script part of the deprecated
  `output/plot_chi_squared.py` (its `main`), ROOT/RAT bindings beyond what `dsextract` reads
  from them, logging (except the summary of a limit, C155), of the command line scripts `argparse` itself,
  `zero_nu_limit.py`, `plot_summary.py` and the
  tutorials, of `klz_majoron_limits.py` what comes after its fit (never reached), `limit/summary.py` (does not exist in
  the repository although `output/store.py:6` imports it), HDF5 and JSON/YAML
  encodings themselves (a file is a tree of attributes and datasets, JSON
  encoding is taken to be faithful), scipy's interpolation (an arbitrary
  function), numpy's random generator (an arbitrary sequence of draws).

## Properties

For each property: what is modelled, how it is proved. "Negation" means that
the code violates the property; a concrete counterexample is proved and the
part that does hold is proved under an explicit hypothesis (`_partial`).

| id | model | proof |
|----|-------|-------|
| C01 | `Spectra.fill`, any dimension | floor arithmetic, pointwise on cells |
| C02 | `Spectra.fill` error branches | case split; complete characterisation of success |
| C03 | fold of `fill` over a history | induction over the history |
| C04 | `fill`, fill-from-file loops | negation for `fill`; induction for the loops |
| C05 | `Spectra.add` | pointwise, sum linearity, state after error |
| C06 | fold of `add` | induction, permutation invariance |
| C07 | `add` acceptance | negation (relative tolerance is asymmetric); partial for equal edges; `c07_add_asymmetric` bounds every asymmetric pair |
| C08 | `add` with reordered axes | negation; partial for equal order |
| C09 | `Spectra.scale` | field arithmetic |
| C10 | `Spectra.project` loop | induction over the loop for any dimension |
| C11 | `Spectra.nd_project` loop | negation (3-d onto 1-d); partial for at most one removed axis; exact axes summed in general by induction over the removals |
| C12 | `Spectra.surface` | negation (4-d); partial for 2-d, 3-d; exact axes summed in general as C11 |
| C13 | `Spectra.rebin` through reshape | ravel/unravel lemmas, block sums |
| C14 | same | composition of block sums |
| C15 | same, state after error | negation; partial: single-axis failure, first failing axis; `c15_exactly`: unchanged iff all entries before the first refused one are the old counts |
| C16 | `Spectra.shrink` | floor/ceil arithmetic on edges |
| C17 | same | floor/ceil bounds |
| C18 | same | negation for unaligned axes; partial for aligned ones |
| C19 | same | composition |
| C20 | same, validation loop | induction over keywords |
| C21 | `Spectra.cut` | arithmetic on the result of shrink |
| C22 | `Spectra.shrink_to_roi` | monotonicity of sums |
| C23 | all mutators as a transition system | invariant by induction; negation through failed rebin |
| C24 | `get_bin`, `get_bin_centre` | floor arithmetic |
| C25 | `get_bin` at the upper edge | negation; partial for x < high |
| C26 | boundaries, centres | arithmetic |
| C27 | `shift_by_bin` | floor arithmetic, loop over bins |
| C28 | same | composition |
| C29 | `Shift.shift`, interpolation arbitrary | sum over bins, renormalisation; `Props/ShiftSlices` adds which slices are filled |
| C30 | `Scale.scale`, interpolation arbitrary | same engine; `Props/ShiftSlices` adds which slices are filled |
| C31 | same | negation (everything out of range); characterisation |
| C32 | `weighted_smear` for the three classes | negation (clipped last bin); partial for non-empty windows |
| C33 | `calc_smear_ly`, `calc_smear_resoluton` | real arithmetic |
| C34 | `random_smear`, draws arbitrary | induction over draws |
| C35 | test statistics over ℝ | log inequality per bin |
| C36 | `_compute` and `_get_stats` | induction; negation for the upward-only statistic |
| C37 | same | permutation and append of sums |
| C38 | same | real arithmetic |
| C39 | penalty terms | real arithmetic; negation for the extended likelihood |
| C40 | in-place clamping | negation; partial for values above the threshold |
| C41 | `compute_statistic` | case split |
| C42 | `_get_values` recursion | induction over parameters |
| C43 | `minimise` loop | induction; negation for repeated values; `c43_exactly` for all grids (first occurrence of every combination) |
| C44 | `minimise` | argmin lemmas |
| C45 | `find_minimum`, `_update_coords` | induction over dimensions |
| C46 | lexicographic index check | negation; partial; `c46_exactly` for all integer tuples by induction over the axes |
| C47 | `get_values` linear | arithmetic |
| C48 | `get_values` log deviation | negation on length; partial; `c48_exactly`, `c48_count` for all bin counts (rounding to even of the share below the prior) |
| C49 | `get_limit` around an arbitrary fitter | first-crossing lemma; negations (per bin, no sigma, array); `Props/LimitBins`: `c49_per_bin`, exactly, for per-bin statistics |
| C50 | same | monotonicity of first index |
| C51 | `get_array_limit` | first-index lemmas |
| C52 | `DBIsotope` converters over ℝ | field arithmetic, sqrt |
| C53 | `get_n_atoms`, constructor | real arithmetic, case split |
| C54 | `SpectraConfig.dump/load` | induction over parameters |
| C55 | `GlobalFitConfig`, `SpectraFitConfig` dump/load | negation (penalty term); partial |
| C56 | `Config` operations | induction over histories |
| C57 | `add_config` | induction; negation for colliding names |
| C58 | name splitting | list lemmas |
| C59 | `store.dump`/`load` on an attribute tree | case split; negation for empty style and empty fit config |
| C60 | `dict_to_string`/`string_to_dict` | string splitting; negation with separators |
| C61 | `get_pre_convolved`, path in `load_pre_made` | induction over the parts of the name and over the parameters; injectivity of split and of the cut text; negations for cut zeros, look-alike parts, several dimensions, substrings |
| C62 | `_funct` cache | object store; invariant of the state by induction over evaluations; negation for equal names and for zero rates |
| C63 | `make_fixed_background`, `append_fixed_background` | object store; frame lemmas, induction over the spectra, permutation; negations for the caller's spectra, shared configurations and an empty dictionary |
| C64 | `check_roi`, `set_roi` | case split, induction over the dictionary; negation for wrong lengths |
| C65 | `_funct` penalty loop | induction over the parameters; frame lemmas over the object store |
| C66 | fill-from-file loops | induction over events; negation for the last coincidence candidate |
| C67 | `get_valid_*` | case split |
| C68 | `function_factory` | case split; negation for the signed z-radius extractors |
| C69 | `get_array_errors` | negation; partial |
| C70 | `reset_grids` names | induction over resets, split/join lemma |
| C71 | `shrink` validation and edge correction | negation (wide tolerance); partial |
| C72 | `interpolate1d`, spline arbitrary | projection lemma |
| C73 | smearing objects: settings, `calc_gaussian`, `calc_poisson_energy` over ℝ | induction over settings; real arithmetic; negation for the default resolution class |
| C74 | `BakerCousinsChiUp` | sum over filtered bins |
| C75 | `minimise` after `minimise`, `reset_grids` | the result depends on the shape of the grids only; negation after a reset |
| C76 | `get_penalty_at`, `get_raw_stats_at` | lookup lemma; negations; `c76_exactly` (first value within tolerance), raw statistics per bin with axes of length one removed at both ends |
| C77 | `set_par` with its exceptions | invariant over the keyword list, permutation; negations |
| C78 | `check_values` (two warnings as booleans) | rounding lemma; negation for prior 0 |
| C79 | `get_values`, logarithmic scale | real arithmetic; negation for low ≤ 0 |
| C80 | `LimitResults` | store laws; negation for `get_limit_stat` |
| C81 | `load` of the three configuration classes, `load_from_file` names | unfolding of the load loop; negations for the overwritten argument and the blank name |
| C82 | `dump_to_file` on a file system as dictionary | dictionary laws; negation for blank names |
| C83 | `get_value_…` of the extractors | real arithmetic, case analysis |
| C84 | `get_valid_…` of the extractors | case analysis; negations for root files |
| C85 | `get_background_name` | list lemmas on the first occurrence; negation for labels inside the background |
| C86 | `store.dump` with its file modes | case split on the file; negation for failing saves |
| C87 | `dump_fit_results`, `load_fit_results` | composition of the configuration round trips; negations |
| C88 | `dump_limit_results`, `load_limit_results` | induction over the loop on the scalings; negation for the single results |
| C89 | `dump_ndarray`, `load_ndarray` | induction over the attributes; negation |
| C90 | `load_old` | induction over the attribute loop |
| C91 | `Model/Fit`: `funct` in the object store | `c91_expected_partial`: the invariant of C62 reduces any history to the computation by value, whose projections are summed; linearity of projections gives the factor rate / decays. Negation for two global parameters |
| C92 | `Model/Fit`: `funct` in the object store | invariant of C62; negation for spectra in finer bins than the data |
| C93 | `Model/FitGrid`: the grid search loop over `funct` in the object store | invariant of C62 carried through the loop, then C43/C44; the numbers returned (best values, penalties, sum of the statistic) from the best point; negation for grids with a zero rate |
| C94 | `Model/FitSession`: the checks of `check_all_spectra`/`check_fitter`, `fit` | equivalence of the checks with a declarative list of conditions; error cases; negations for globals without dimension, empty lists and floating backgrounds |
| C95 | `Model/FitSession`: `fit` without floating backgrounds | projections by C11, sum and flattening cell by cell; frame |
| C96 | `Model/FitSession`: the setters | shrinking to bin edges (C16–C18) carried to the object store; frame for refused calls; negations for signal, floating backgrounds and replaced regions |
| C97 | `Model/FitSession`: sequences of calls (`FitCall`) | invariant by induction over the sequence: data, fixed background (and signal) fit the region whenever the checked flag is set; negation for unshrunk signals |
| C98 | `Model/Shift`: loop bodies of `Shift.shift`/`Scale.scale` | closed form of each slice (source bins, trapezium areas), then product spectra stay products |
| C99 | `Model/FitInit`: `Fit.__init__` on the setters of `Model/FitSession` | invariant carried through the four setters and `shrink_all`; shrinking twice is shrinking once (C18/C19); negations for unaligned axes and `shrink=False`; `c99_raises` and `c99_region` without suppositions on the arguments |
| C100 | `Model/FitLimit`: `Limit.__init__`, `get_limit` and `get_statistics` with the fit they change (`Fit.fit` with its grid search, `set_signal`, `remove_signal`, `scale`) | refinement: the loops over the changing fit give what the loops of `Model/Limit` give for a fitter that always starts anew; instances with a fixed background and with grid search (invariants of C62, C93; stored convolutions of the signal scale with it by C119) |
| C101 | `Model/Plot`: `_produce_axis`, `_produce_bins`, `plot_projection` with matplotlib's `hist` as a step histogram of weighted points | edges, centres and the projection of C10; every centre falls in its own bin |
| C102 | `spectral_plot`: check of the axes, loop with the two sums, limit; types carry whether they are the interned literal | induction over the list of spectra; witnesses for the identity comparison and the unchecked limit |
| C103 | `plot_root.plot_projection`: `TH1`, `SetBinContent`, `FindBin` | loop invariant over the filled cells, `FindBin` against the cell of a value |
| C104 | `plot_root.plot_surface`: `TH2` | double loop invariant, order of the axes in `surface` (C12) |
| C105 | `plot_surface` up to `pcolormesh`, and the rectangles drawn by it | case distinction on the order of the dimensions; membership in the list of rectangles |
| C106 | `Model/PlotResults`: `get_raw_stats`, `get_penalty_terms`, `nd_project_stat(s)` | sums over trailing axes (C43); the failing branches by evaluation |
| C107 | `plot_raw_stats_vs_pars`, `plot_stats_vs_pars`: histogram with real contents, double loop, `FindBin` | invariant of the double loop over pairwise different cells, C76 for the penalties, floor of the scaled value |
| C108 | `plot_per_bin` for one and two dimensions | as C107, with the statistics of C76 per bin |
| C109 | the functions returning `TGraph`: first `n` entries of the flat buffers; `plot_sigma_best_fit_vs_scale` on the stored table | flat positions of row-major arrays, in-place updates of a column |
| C110 | `get_bin_boundaries` | explicit formulas for `linspace` |
| C111 | `Model/Scripts`: a disk maps paths to files; `rebin.py` on it | C13, C59/C85 for saving and loading, lemmas on path slicing |
| C112 | `dump_shrink.py` with its table of bounds | C16–C22 for the order of keywords, as C111 |
| C113 | `dump_shifted.py`, `dump_scaled.py` | C27–C31 and their finiteness, as C111 |
| C114 | `dump_smeared.py`, `dump_smeared_energy.py`: loop over the axes | induction over the axes with C32–C34, as C111 |
| C115 | the output paths of these scripts | injectivity of path slicing; every branch writes at one path only |
| C116 | `create_combined_ntuple_spectrum` | induction over the files with C66, permutation invariance |
| C117 | `read_and_dump_ntuple`, `read_and_dump_root`, `read_tab_delim_file` | C66, C85; evaluation of the failing branches |
| C118 | `combine_hdf5.py` on a disk | induction over the files, C06 |
| C119 | `Model/Smear`, `Model/Shift`, `Model/Spectra` | the loops map multiplied contents to multiplied results step by step (a map of folds); thresholds at zero and ratios of sums do not change |
| C120 | as C119 | closed form of smeared cells (C32) and of shifts by bins (C27), both linear; witness with an additive interpolation for other shifts |
| C121 | `Model/Fill`, `Model/Rebin`, `Model/Shrink`, `Model/Project` | closed form of a history of fills (C03); the cell of an event after merging, cutting or dropping axes; sums over cells exchanged with sums over events; witness on an axis that is not aligned |
| C122 | as C121, `Model/Spectra` | closed forms of rebinning (C13) and shrinking (C16) are linear in the contents; blocks of a cut axis are cut blocks |
| C123 | `Model/LimitSave` over `Model/Limit`, `Model/Store`, `Model/Scripts` | case analysis of the search reduced to C49's `getLimit`; round trip of C88 for the written file; binding of call arguments for `store.dump` |
| C124 | `Model/Klz` over `Model/Utilities`; files and the fit itself are parameters | induction over the lists of backgrounds, C69 for the factors, broadcasting by cases; negations |
| C125 | `Model/Float`: `fill` with a rounding after every operation | error analysis of the bin number; gap between neighbouring floats for the exact list of refused points; negation with 53 digits |
| C126 | `Model/Float`: histories of fills, `sum` along any tree of additions | induction: whole numbers up to 2⁵³ are exact; C125 for the cells; C03 for the exact histogram |
| C127 | `Model/Float`: `shrink` with a rounding after every operation | error analysis of bin numbers and edges; case analysis of the correction by one bin |
| C128 | `Model/Float`: `get_bin`, `get_bin_centre(s)`, `get_bin_boundaries` | error analysis, also of the growing error of `arange` |
| C129 | `Model/Float`: `scale` with a rounding after every operation | error bounds, monotonicity and idempotence of rounding; negation with 53 digits |
| C130 | `Model/TestStatistic`, `rebin`, `nd_project`, `Fit._funct` with `single_bin` | tangent lines of each bin statistic summed over a group; C11 and C13 give the groups; counterexamples for the conditions |
| C131 | `Model/TestStatistic`, `scale` | each bin is homogeneous of degree one; induction over the bins |
| C132 | `Model/TestStatistic`, `Model/Limit`, `Model/FitLimit` | convexity of every bin from its tangent lines; C49 for the first crossing, C100 for earlier calls |
| C133 | `Model/Fit`, `Model/FitGrid`, `Model/Minimise`, `Model/TestStatistic` | C93 (least value of all combinations), C35-C40 (zero only at agreement), C74 for the one-sided statistic, negation by a fit of two rates, C91 (contents are linear in the rates) |
| C134 | `Model/Fit`, `Model/FitGrid`, `Model/Minimise` | contents of two states compared step by step; the two inequalities of C93 added |
| C135 | `Model/FloatSum` | induction over the tree of additions (error exponent = number of leaves), then over the chain of sums along axes; whole numbers are never rounded |
| C136 | `Model/Fit`, `Model/FitGrid` | one round of the loop over backgrounds commutes with the next, likewise one penalty with the next; induction over permutations; combinations of the one search correspond to those of the other |
| C137 | `Model/FitInit`, `Model/FitSession`, `Model/Fit` | frame of the constructor (cache, names, parameters stay) and the invariant of C99 give `FitReady`; the spectra of the evaluated fit are the given ones; then C91 |
| C138 | `Model/Spectra`, `Model/Smear`, `Model/Shift` | sums over cells: push-forwards compose (rebin), slices that keep the left-out axes whole (shrink), redistribution along one axis (smear, shift) |
| C139 | `Model/FloatShift` | the rounded quotient stays within a quarter of a bin of the exact one, so its integer part is the right bin; contents are copied and `0 + x` is exact; remainder of floats exact; negation by a computed case |
| C140 | `Model/FloatSmear` | float window within a small part of a bin of the exact one, so `numpy.arange` yields the centres of a range of bins; contents by an invariant of the loops (relative error counted by fills); negations by computed windows of python's floats |
| C141 | `Model/Sharing` | programs as lists of statements on a heap of spectra, configurations and dictionaries of regions; invariants by induction on the program (which configuration a spectrum refers to); negation in general and by evaluating a program |
| C142 | `Model/Whole` | numbers are integers or floats, as in python 2; case distinction; negations from properties of rounded division |
| C143 | `Model/Whole` | induction over the bins, each bin compared with the one over the reals; negations likewise |
| C144 | `Model/FitInit`, `Model/FitSession`, `Model/FitGrid` | C137 gives the contents on the grid, C133 the best fit; contents of a region are a linear function of the contents of the spectrum that depends only on the axes; independence gives uniqueness |
| C145 | `Model/PlotChi`: the graphs of `plot_chi_squared_root.py`, `chi_squared_vs_signal` | induction over the loop that sets the points; conversions by C52's closed forms; the failing branches by evaluation |
| C146 | `Model/PlotChi`: the maps of `plot_chi_squared.py` | averages of sums, bounds of averages; the failing branches by evaluation |
| C147 | `Model/FitInit`, `Model/FitSession`, `Model/FitLimit`: constructors of `Fit` and `Limit`, `get_limit` | the run of both constructors as one invariant on the objects (`Prog`, with the signal shrunk last); contents of the region as in C137; then C100 for the limit and C132 for what is excluded; with floating backgrounds every fit of the limit is a grid search (C93) whose evaluations are those contents, with the scaled signal added |
| C148 | `Model/FloatStat`: `test_statistic.py` with a rounding after every operation | relative errors counted in roundings (`Rel`: a preorder, closed under products, quotients and sums of numbers that are not negative); the difference of two floats is rounded once, so squares keep relative accuracy |
| C149 | `Model/FloatStat`; `numpy.log` is any function with a relative error bound | absolute error of a bin by the triangle inequality, the logarithm of a quotient that is off by two roundings by `log (1 - u) ≥ -u/(1-u)`; sums by `sumTree_near` and Bernoulli's inequality; negation by a bin of two neighbouring floats |
| C150 | `Model/FitPreMade`: `_funct` with `use_pre_made`, `load_pre_made`, `set_pre_made_dir`; what `store.load` gives is a parameter | invariant over all evaluations: every loaded spectrum is the one in its file, or that one cut to the data, times a number (cutting commutes with scaling, and cutting a cut spectrum changes nothing); agreement with convolving through C91; files through C61 |
| C151 | `Model/Sensitivity`: making the data from the backgrounds in `klz_majoron_limits.py`, on the fit of `Model/FitInit`; the parameter called rate of a spectrum and the conversion of its prior are parameters | induction over the backgrounds: only contents, decays and counts change; setting data that have exactly the region changes nothing; projections are linear; the fit through the argument of C144 |
| C152 | `Model/Sensitivity` and `Model/FitLimit`: `Limit` made from a fit after its study | what is evaluated after the study (C151) put into the argument of C147; with empty data the statistic is not negative, and zero at the priors, where the penalty is zero as well |
| C153 | `Model/Fit`, `Model/FitLimit`: a fit or limit made before and after calls of `scale` | the states differ by one factor for every spectrum (`Renormalised`), which commutes with shrinking and projecting and cancels in every term `prior / num_decays * contents`; then C137 and C147 say the same for both executions |
| C154 | `Model/FitLimit`: limits set with the same signal for data and fixed backgrounds of another exposure, or with two signals of different efficiency | by C147 both outcomes are first crossings; the statistics at corresponding scalings differ by the factor k (C131, contents that count) or are equal (efficiency), so best scaling and crossing correspond (`outcome_times`) |
| C155 | `Model/LimitSummary`: `get_limit` with the numbers in its log summary and in the message of its `LimitError` | lookups in the limit results (C80) at the offset of the limit from the best scaling; partial; negations when the best scaling is not the first, and when a parameter has no sigma |
| C156 | the constructor, `fit()` and the grid search of C137, with global parameters | contents of C91 with the spectra of C99, then the grid search of C93; recovery from the minimum property of the statistics (C35, C38) and penalties; partial |
| C157 | `get_bin` with its fallback formula, `get_penalty_at` | equally spaced values in closed form, then the floor of the formula is one of the two neighbours; indices by C46; negations for values below the range and for other spacings; partial |
| C158 | `set_stats`, `set_penalty_terms`, `set_stat`, `set_penalty_term`, `get_stats`, `get_stat` | induction over the order in which the points are set; sums over bins by C46 |
| C159 | the constructors of `Fit` and `Limit`, and `get_limit`, with global parameters | the run of both constructors as for C147; what is evaluated from C91 and C156, where the signal scaled before the convolution is the convolved signal scaled (C119); then the grid search (C93) at every scaling and C100 for the limit; partial |
| C160 | as C147 | the statistic is convex in signal and rates together, as what is expected is linear in both (C132 along the segment between two points), and so are the penalties; then C147; partial, with an example of a coarse grid for which signals stronger than the limit are allowed |
| C161 | as C137 and C147, two fits | the sums of C137 are equal term by term; a parameter with one value can be left out of the order of the grid; then uniqueness of the first best combination, and C147 for limits; partial |
| C162 | as C137 and C147, two states of the store | shrinking to the region gives equal spectra, so the sums of C137 are equal; shrink commutes with an outer cut at bin edges (C19); then uniqueness of the first best combination, and C147 for limits; partial |
| C163 | as C137 and C147, two fits | contents of the region are zero, so the sums of C137 are equal; a parameter on which only its own penalty depends separates from the grid; C147 with constant statistics for signals; partial, negation for signals with floating backgrounds |
| C164 | as C100, several thresholds | the threshold is used after all fits, so the state is the same; the first crossing of a higher threshold is one of a lower threshold; induction over the thresholds with C100; partial |
| C165 | as C147, two lists of scalings | the statistic as function of the scaling has no minimum between larger values (C153), so a first crossing is below all scalings that exceed; partial; for expected limits the smallest statistic at a scaling does not depend on the list (`c165_expected_partial`) |
| C166 | as C137 and C147, two collections | induction over the fixed backgrounds with C05 and C09; the sums of C137 are equal cell by cell; partial |
| C167 | as C137 and C147 with `singleBin`, two sets of spectra | the sum of the contents the fit compares is the sum over the cells of the region (induction over the axes); with the bounds on edges a block of rebinned cells is inside the region or outside of it; sums of sums are exchanged; partial |
| C168 | as C147, two programs; statistics as in C35 | differences of a bin's statistic decrease with the observed number (case by case, with the clamps) and increase with the background (convexity, C132); then the best scaling and the first crossing of the two programs are ordered; partial, negation with floating backgrounds |
| C169 | as C147, two programs | C147 for both programs; where the profiled statistic crosses the threshold, so does the statistic at the best rates, and by convexity (C132) not before the best scaling; partial, negation for the same threshold when the best rates have a penalty |
| C170 | as C137 and C147, two programs that differ in the statistic | one statistic is an affine function of the other (C38), and so is the penalty; best combinations, best scalings and crossings of affine functions agree; partial, negation for the extended likelihood with sigmas |
| C171 | as C147 and C137, two programs with different bins | merging bins does not raise the statistic (C130); with the expected background observed the best scaling is zero in both programs, so that the first crossings are ordered; the extended likelihood differs from the one of Baker and Cousins by what does not depend on the scaling; partial, negation for other data |
| C172 | as C147, two programs | the statistic is a sum over bins, and the bins without signal add the same for all scalings; best scalings and excesses agree; partial, negation with floating backgrounds (from C168) |
| C173 | as C171, two programs in which the expected background is observed | the excess of a bin decreases with the background, increases with the signal and is proportional to the exposure (by logarithm inequalities for the likelihoods); first crossings as in C171; with floating backgrounds a counterexample for signal (`c173_floating_negation`), and for exposure a proof for every combination of rates, each of which is `k` times one of the first program (`c173_exposure_floating_partial`, suppositions in `FitArgs.Expects`); partial |
| C174 | as C147 and C168: the outcome of a limit as first crossing, with the rates fitted at each scaling | every bin with signal tends to infinity with the scaling, for all six statistics; the other bins are bounded from below; there are finitely many combinations of rates, so one scaling serves all; partial |
| C175 | as C152, two programs that differ in sigmas and grids of rates | the smallest sum of statistic and penalty (C152) is a minimum over more combinations of smaller terms; first crossings; partial; the values with a background fixed are among those with it floating, where its penalty at the prior is zero (`c175_fixing_partial`) |

## Axioms per theorem

`AXIOMS.md` lists for every theorem named in `MANIFEST.json` the axioms it depends
on, as printed by `#print axioms`: always a subset of `propext`,
`Classical.choice`, `Quot.sound`. `decide +kernel` appears in examples and in
counterexamples only; it adds no axiom.

## Mutation tests

`seeded/LOG.jsonl` has one line per wrong program: `definition` and `edit` are
the definition of the model and the replacement made, `claims_broken` the
properties whose English claim is false for the edited program,
`theorems_failed` the property theorems that no longer have a proof (their own
proof fails, or that of a lemma they depend on), `proofs_broken` the proofs in
which errors occurred, `survivors` the claims that should have failed and did
not, `theorems_tightened` what was changed in consequence.

## Findings

Where the code violates a property, the negation is proved with a concrete
witness (the theorem in brackets). Behaviour found while modelling that is not
the negation of a listed property has no bracket.

Spectra:

* `fill` never counts raw events (`c04_raw_events_negation`).
* Whether two spectra can be added depends on their order, as the tolerance is
  relative to the second one; spectra that list their parameters in different
  orders are added cell by cell, not by coordinates
  (`c07_add_symmetric_negation`, `c08_add_coordinates_negation`).
* `nd_project` in three or more dimensions and `surface` in four sum over wrong
  axes (`c11_nd_project_negation`, `c12_surface_negation`); a fit without floating
  backgrounds raises if its region leaves out the last two axes
  (`c95_projection_negation`).
* A rejected `rebin` has already changed the configuration
  (`c15_rejected_rebin_negation`, `c23_failed_rebin_negation`).
* On axes whose bounds are not whole multiples of the bin width `shrink` loses
  half a bin and, called without arguments, moves the axis; an identical second
  call raises (`c17_unaligned_negation`, `c18_shrink_moves_axis_negation`,
  `c19_idempotent_negation`). So the constructor of a fit raises for such axes
  (`c99_unaligned_negation`).
* Reversed bounds give negative numbers of bins (`c23_reversed_bounds_negation`);
  the tolerance of the shrink check accepts 6000.05 for 6000
  (`c71_tolerance_negation`).
* `get_bin` accepts the upper edge and gives a bin that does not exist
  (`c25_upper_edge_negation`).

Shifting, scaling, smearing:

* Shifting or scaling out of range gives nan silently; the interpolation is
  evaluated outside the bin centres for the second overlap
  (`c31_finite_negation`).
* Weighted smearing never fills the last bin on aligned axes and loses its
  contents with narrow windows (`c32_conserved_negation`).
* A shifted, scaled or smeared spectrum shares its configuration with the
  original: cutting or rebinning one spoils the other (`c141_shared_negation`).
* Python 2 divides whole numbers by rounding down. Counts and livetime given as
  whole numbers yield a half-life that is too long or a division by zero
  (`c142_half_life_negation`), a whole light yield is rounded down
  (`c142_light_yield_negation`), four of the six penalty terms are wrong
  (`c142_penalty_negation`), and Pearson, Neyman and the Baker-Cousins likelihood
  are wrong or not finite for arrays of integers (`c143_chi_squared_negation`,
  `c143_likelihood_negation`).
* Slices with a negative total are lost in a shift (`c119_negative_negation`); a
  shift that is not by whole bins is not additive (`c120_shift_negation`).
* `RadialSmear.random_smear` always raises `TypeError`; `calc_smear_ly` with
  equal yields divides by zero; `EnergySmearRes` with Poisson smearing ignores
  the resolution (`c73_resolution_negation`).

Test statistics, parameters, minimisers:

* Per-bin `BakerCousinsChiUp` raises (`c36_up_negation`); the per-bin values of
  `ExtendedLL` do not add up to the total below the threshold, and its penalty
  is not halved (`c36_extended_negation`, `c39_extended_negation`; so limits differ from those
  with the likelihood of Baker and Cousins, `c170_extended_negation`); three
  statistics change their inputs (`c40_unchanged_negation`).
* Grid search with repeated values leaves cells at zero
  (`c43_repeated_negation`); negative indices wrap (`c46_negative_negation`);
  the default name of a search is lost (`c70_default_name_negation`);
  `reset_grids` breaks searches that are not per bin (`c75_reset_negation`);
  close values are confused by `get_bin` (`c76_close_negation`);
  `get_raw_stats_at` raises without per-bin statistics
  (`c76_raw_stats_negation`).
* The logarithmic deviation has a wrong number of values and misses the prior
  (`c48_count_negation`, `c48_prior_negation`); logarithmic scales with a low
  edge of zero or below start at `1/high` (`c79_low_negation`); `set_par` raises
  `TypeError` for legal values and keeps stale values (`c77_logscale_negation`,
  `c77_stale_negation`); `check_values` warns always for prior zero
  (`c78_zero_negation`).
* `nd_project_stat` uses an undefined name.

Limits and isotopes:

* Per-bin statistics use the flat argmin of the array (`c49_per_bin_negation`,
  `c49_per_bin_error_negation`); parameters without sigma raise `TypeError`
  (`c49_sigma_negation`); an array as minimum raises (`c49_array_negation`);
  `get_array_limit` of an empty array raises `IndexError`
  (`c51_empty_negation`); `get_limit_stat` raises `AttributeError`
  (`c80_limit_stat_negation`).
* The log text of a limit uses the bin number counted from the minimum, and the
  message of the `LimitError` has the scaling in place of the threshold
  (`c155_results_negation`, `c155_message_negation`). With
  global parameters but no floating backgrounds the penalties are nan, so no
  limit is ever found.
* The penalties are added to the statistic of every scaling, but not to the statistic
  of the fit without signal that is subtracted: with rates away from their priors a
  limit is reported for a signal that is not there (`c163_signal_negation`), and a
  background that floats makes a limit stronger than one that is fixed
  (`c169_negation`).
* `get_limit` leaves the signal scaled to the last scaling that was tried
  (allowed for in C100).
* A loading or radius of zero is silently replaced (`c53_zero_negation`).
* With python's floats `fill` accepts some points just below the upper end of an
  axis in its check of the range and then raises `IndexError`
  (`c125_index_negation`).
* If no limit is found `get_limit` saves its results under a default name, whatever
  name was given (`c123_given_name_negation`); with stored spectra it always raises,
  as `store.dump` takes no group name (`c123_spectra_negation`).

Plots:

* `spectral_plot` compares the type with `is "background"`, so equal strings
  from files or from string operations are not recognised
  (`c102_background_negation`); the axis of the limit is not checked
  (`c102_limit_negation`).
* `plot_root.plot_surface` transposes the histogram when the first dimension
  comes later in the configuration (`c104_root_surface_negation`).
* `plot_surface` gives bin centres to `pcolormesh` as corners: rectangles are
  shifted by half a bin and the last bins are not drawn
  (`c105_surface_quads_negation`).
* `get_raw_stats` with a parameter, `nd_project_stat` and `nd_project_stats` always
  raise; `get_penalty_terms` takes a row of the wrong axis for several
  parameters (`c106_slice_negation`, `c106_projection_negation`,
  `c106_penalty_terms_negation`).
* Plots against two parameters put the last value of a parameter on the upper
  edge, where ROOT finds the overflow (`c107_last_value_negation`); they cannot be
  made for fits with more parameters (`c107_three_negation`).
* `plot_per_bin` compares the index of the first dimension with itself and so
  always transposes (`c108_two_negation`).
* Graphs against one of several parameters, or of statistics with several
  numbers for each scaling, read the wrong entries (`c109_fit_negation`,
  `c109_limit_stats_negation`); `plot_sigma_best_fit_vs_scale` changes the
  stored best fits (`c109_sigma_negation`).
* `get_bin_boundaries` adds half a width at the lower end where it should
  subtract it (`c110_linear_negation`), takes logarithms twice
  (`c110_log_negation`) and returns one boundary too few for an even number of
  bins on the deviation scale (`c110_deviation_negation`).
* `plot_root.spectral_plot` overwrites its histogram `summed_total` by an array
  and so always raises.

Scripts:

* Without a dot in its path, an input loses the last character in the name of the
  output of `rebin.py`, `dump_shifted.py` and `dump_smeared.py`; with a dot in the
  directory only, the name is lost altogether (`c115_no_extension_negation`,
  `c115_dotted_directory_negation`).
* `dump_shrink.py` and `dump_scaled.py` save in the root directory if the input is
  given without a directory (`c115_bare_name_negation`).
* A shift or a factor of 0 counts as not given, a resolution of 0 selects the light
  yield. `str_sc.rstrip('0')` (`dump_scaled.py:67`) has no effect.
* A shift beyond the axis saves nan (`c113_shift_negation`); random smearing of a
  radius raises `TypeError` (`c114_random_radial_negation`).
* A parameter named twice for `dump_shrink.py`: the last bounds win silently.
* `dump_spectra_root.py` calls `config.getpars()` and never saves
  (`c117_root_negation`); text files are read as two lines of paths and half lives
  (`c117_list_negation`).
* `multi_ntuple_spectrum.py` loses the last entry of every file with the
  coincidence cut (`c116_bipo_last_negation`), leaves a broken file if the name has
  no label (`c116_unlabelled_negation`), and cuts the default name
  (`c116_default_name_negation`). Its save path is glued to the name if it does not
  end with a slash.
* `combine_hdf5.py` replaces an input named `combined.hdf5`
  (`c118_overwrites_negation`).
* `klz_majoron_limits.py` calls `Fit.get_fit_results`, which does not exist, so it
  never sets a limit (`c124_never_ends_negation`); its error bounds go the wrong way
  (`c124_direction_negation`), fail for two axes (`c124_two_axes_negation`), and its
  default lists are kept between calls (`c124_second_call_negation`). Without a
  region of interest it raises `UnboundLocalError`; further down it passes keywords
  that `Limit` and `get_limit` do not have.
* The sensitivity study of that script needs a fixed background
  (`c151_no_fixed_negation`), and a prior of zero makes every later evaluation raise
  (`c151_zero_prior_negation`).

Configurations:

* Round trips lose or refuse: empty spectra configurations
  (`c54_empty_negation`), global parameters without dimension
  (`c55_no_dimension_negation`), configurations without spectral parameters
  (`c55_no_spectral_negation`), interleaved dimensions (`c55_order_negation`),
  penalty terms (`c55_penalty_negation`), ambiguous names
  (`c55_ambiguous_negation`).
* `add_config` with equal names loses parameters and renames those of its source
  (`c57_collision_negation`); `get_type` returns a name (`c58_type_negation`).
* Blank names overwrite files, and are unreachable on loading
  (`c81_blank_name_negation`, `c82_blank_negation`); the name given to
  `GlobalFitConfig.load` is overwritten (`c81_global_name_negation`).

Files:

* Empty style, empty fit configuration, parameters that are not rates, and the
  spectrum's name are lost (`c59_*_negation`); the old string format loses
  strings with `:`, `,`, `;`, long floats, and fails on empty dictionaries
  (`c60_*_negation`).
* Background names that contain a label are cut wrongly
  (`c85_label_inside_negation`); a failing dump destroys the existing file
  (`c86_failed_save_negation`); arrays are skipped on loading where the attribute
  is no array (`c89_array_skipped_negation`).
* Fit results: without spectral parameters saved but not loadable, default-named
  searches cannot be saved, interleaved dimensions get wrong axes
  (`c87_*_negation`); single limit results lose flag and name
  (`c88_single_results_negation`).
* File names of pre-convolved spectra (`c61_*_negation`).

Event loops:

* `zradial3` extractors can never be created (`c68_zradial3_negation`); a
  fiducial radius of zero switches the cut off (`c67_zero_radius_negation`);
  methods compared without being called select untriggered events
  (`c84_*_negation`); the last bismuth–polonium candidate is never filled and a
  failing append has changed the decays (`c66_*_negation`).
* `get_array_errors` returns a flat array and treats fractional errors wrongly
  (`c69_*_negation`).

Fits:

* The cache of convolved spectra confuses equal names and equal twelve-digit
  texts; zero rates lead to division by zero at the next evaluation, which aborts
  grid searches (`c62_*_negation`, `c93_zero_negation`); rebinning and shrinking
  the copies corrupts the originals (`c62_bins_negation`, `c92_bins_negation`);
  the signal gets only the last global parameter (`c91_signal_negation`).
* `make_fixed_background` changes the supplied spectra through shared
  configurations and fails on an empty dictionary (`c63_*_negation`); regions
  with a wrong number of bounds raise the wrong exception
  (`c64_length_negation`).
* Setters: `set_signal(shrink=False)` is not checked (`c96_signal_negation`,
  `c97_signal_negation`), floating backgrounds are not compared with the region
  (`c94_floating_negation`, `c96_floating_negation`), an empty list of floating
  backgrounds passes the checks and then raises (`c94_no_background_negation`),
  the flag that checks were passed is set before a check that can raise
  (`c94_dimension_negation`), `set_roi` leaves stale parameter lists
  (`c96_stale_negation`), the constructor ignores `shrink=False`
  (`c99_shrink_negation`).
* Pre-made spectra: a zero rate leads to division by zero at the next evaluation
  (`c150_zero_negation`), spectra loaded by a bare file name have their pre-made ones looked
  for under the root directory (`c150_bare_name_negation`), a base directory needs its
  slash (`c150_slash_negation`), `set_pre_made_dir` sets an attribute that nothing reads
  (`c150_set_dir_negation`). With several global parameters the convolving fit applies only
  the last one to the signal, whereas the file of the signal is the one for all of them.
* C145: matplotlib's chi-squared plot refuses the effective mass even with a converter, and with a
  converter the half-life fails on `ndarray.append`.
* C146: `turn_on` does not notice missing chi-squareds; `penalty_vs_systematic` cannot save (`kwagrs`).
