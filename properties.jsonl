{"id": "C01", "title": "A fill lands in exactly the cell that contains the point", "statement": "Filling a spectrum at a point that lies inside the range of every parameter adds the weight to exactly one cell, namely the cell whose lower edges are at or below and upper edges strictly above the point on every axis, and leaves every other cell, the configuration and the decay count unchanged.", "quantifier": "every spectrum of any number of dimensions, every binning, every in-range point and every weight", "why_tests_cant": "The binning formula is evaluated on an unbounded set of points, edges and dimension counts; a test can only sample some of them.", "anchors": ["echidna/core/spectra.py:Spectra.fill", "echidna/core/parameter.py:SpectraParameter"]}
{"id": "C02", "title": "A rejected fill changes nothing", "statement": "A fill with a parameter the spectrum does not have, with a missing parameter, or with any coordinate outside [low, high) raises, and the spectrum is exactly what it was; every other fill succeeds.", "quantifier": "every spectrum and every set of keyword coordinates", "why_tests_cant": "Rejection has to be complete over all combinations of names and values, and the absence of partial updates has to hold for each of them.", "anchors": ["echidna/core/spectra.py:Spectra.fill"]}
{"id": "C03", "title": "Histogram contents depend only on the accepted points, not on their order", "statement": "After any sequence of fills, some accepted and some rejected, each cell holds its starting content plus the sum of the weights of the accepted points that lie in that cell; the total grows by the sum of accepted weights; permuting the sequence gives the same spectrum.", "quantifier": "every finite sequence of fill calls and every permutation of it", "why_tests_cant": "Quantifies over all histories and reorderings.", "anchors": ["echidna/core/spectra.py:Spectra.fill", "echidna/core/spectra.py:Spectra.sum"]}
{"id": "C04", "title": "The raw event counter counts fills", "statement": "The documentation promises that the number of raw events stored with a spectrum increases by one for each event filled.", "quantifier": "every spectrum and every accepted fill", "why_tests_cant": "A statement about all fills; the existing tests never read the counter after a fill.", "anchors": ["echidna/core/spectra.py:Spectra.fill", "echidna/core/fill_spectrum.py:fill_from_root", "echidna/core/fill_spectrum.py:fill_from_ntuple"]}
{"id": "C05", "title": "Adding spectra adds contents, totals and decay counts", "statement": "When an add is accepted, every cell becomes the sum of the two cells, the total, the raw event counts and the decay counts become the sums, and the added spectrum and the axes of the receiver are unchanged. A rejected add leaves the receiver unchanged.", "quantifier": "every pair of spectra", "why_tests_cant": "All pairs of configurations and contents, including all ways of being rejected.", "anchors": ["echidna/core/spectra.py:Spectra.add"]}
{"id": "C06", "title": "Combining a collection of spectra does not depend on the order", "statement": "Accumulating any list of spectra with identical axes into a first one succeeds and yields contents, total, raw event count and decay count that are the sums over the whole list, for every order of the list.", "quantifier": "every list of spectra with the same axes and every permutation", "why_tests_cant": "Quantifies over list lengths and permutations.", "anchors": ["echidna/core/spectra.py:Spectra.add", "echidna/scripts/combine_hdf5.py"]}
{"id": "C07", "title": "Add accepts or rejects symmetrically", "statement": "Whether two spectra can be added does not depend on which one is the receiver.", "quantifier": "all pairs of spectra with the same parameter names, of any number of axes", "why_tests_cant": "The acceptance test is a relative tolerance; symmetry is a statement about all pairs of edges.", "anchors": ["echidna/core/spectra.py:Spectra.add"]}
{"id": "C08", "title": "Add respects coordinates", "statement": "When an add is accepted, the content at every physical coordinate (identified by parameter name, not by axis position) is the sum of the contents of the two spectra at that coordinate.", "quantifier": "every accepted pair of spectra, including pairs whose configurations list the same parameters in different orders", "why_tests_cant": "Only particular axis orderings expose it; the existing tests always use the same order.", "anchors": ["echidna/core/spectra.py:Spectra.add", "echidna/core/config.py:Config.get_pars"]}
{"id": "C09", "title": "Scaling preserves shape and is determined by the last scaling only", "statement": "Scaling a spectrum with a non-zero decay count to n decays multiplies every cell and the total by n over the old decay count and records n; scaling to n then to m gives the same spectrum as scaling to m, for n non-zero; scaling to the present decay count changes nothing. With a zero decay count the call does not produce a finite spectrum.", "quantifier": "every spectrum and every pair of targets", "why_tests_cant": "Composition law over all values.", "anchors": ["echidna/core/spectra.py:Spectra.scale"]}
{"id": "C10", "title": "One-dimensional projection", "statement": "Projecting onto a parameter returns an array as long as that parameter has bins, whose entry i is the sum of all cells whose index along that parameter is i; its total equals the total of the spectrum. An unknown parameter raises.", "quantifier": "every number of dimensions, every shape, every parameter", "why_tests_cant": "The loop over axes behaves differently for each dimension count and target axis; tests use three dimensions.", "anchors": ["echidna/core/spectra.py:Spectra.project"]}
{"id": "C11", "title": "Projection onto several parameters", "statement": "Projecting onto a list of distinct parameters returns the array obtained by summing over every other axis (and only those), so its total equals the total of the spectrum.", "quantifier": "every number of dimensions and every subset of the parameters", "why_tests_cant": "All subsets of all dimension counts; existing tests only remove at most one axis.", "anchors": ["echidna/core/spectra.py:Spectra.nd_project"]}
{"id": "C12", "title": "Surface projection", "statement": "The surface of two distinct parameters is the two-dimensional array obtained by summing over all other axes.", "quantifier": "every number of dimensions at least two and every pair of distinct parameters", "why_tests_cant": "The axis bookkeeping differs per dimension count and pair.", "anchors": ["echidna/core/spectra.py:Spectra.surface"]}
{"id": "C13", "title": "Rebinning merges whole blocks and conserves the total", "statement": "An accepted rebin replaces each block of old/new consecutive cells along every axis by their sum, keeps the range of every parameter, sets the number of bins to the requested one, and conserves the total. It is rejected exactly when the number of entries differs from the number of dimensions or some old bin count is not a multiple of the new one.", "quantifier": "every spectrum of any dimension and every requested list of bin counts", "why_tests_cant": "The reshape and sum over interleaved axes has to be right for every dimension count and shape.", "anchors": ["echidna/core/spectra.py:Spectra.rebin"]}
{"id": "C14", "title": "Rebinning in two steps equals rebinning in one", "statement": "Rebinning to a finer then to a coarser binning gives the same spectrum as rebinning directly to the coarser one, and rebinning to the current binning changes nothing.", "quantifier": "every spectrum and every chain of divisible bin counts", "why_tests_cant": "Composition law over all shapes.", "anchors": ["echidna/core/spectra.py:Spectra.rebin"]}
{"id": "C15", "title": "A rejected rebin leaves the spectrum unchanged", "statement": "If rebin raises, neither the contents nor the configuration of the spectrum have changed.", "quantifier": "every spectrum and every rejected request", "why_tests_cant": "Depends on which axis fails first; tests only check that an exception is raised.", "anchors": ["echidna/core/spectra.py:Spectra.rebin"]}
{"id": "C16", "title": "Shrinking keeps exactly the sub-histogram", "statement": "Shrinking a parameter to bounds that are bin edges keeps exactly the cells between these edges with their contents, records these edges and the number of kept bins, keeps the bin width, and leaves the other parameters alone.", "quantifier": "every spectrum of any dimension whose axes have a lower edge that is a multiple of the bin width (the recorded edges of other axes are C18; the kept cells are proved for every axis), every choice of bin edges on any subset of parameters", "why_tests_cant": "All shapes, all edges, all subsets of parameters.", "anchors": ["echidna/core/spectra.py:Spectra.shrink", "echidna/core/parameter.py:SpectraParameter.round"]}
{"id": "C17", "title": "Shrinking to arbitrary bounds keeps the requested range up to one per cent of a bin", "statement": "For any bounds inside the range, the kept edges are bin edges of the original axis, the lower one is at most one bin below and less than 1% of a bin above the requested lower bound, and symmetrically for the upper one; every kept cell keeps its content.", "quantifier": "every spectrum, every pair of bounds", "why_tests_cant": "Rounding of arbitrary rational bounds.", "anchors": ["echidna/core/spectra.py:Spectra.shrink"]}
{"id": "C18", "title": "Shrink never moves the axis under the data", "statement": "After shrinking, the coordinate interval recorded for each kept cell is the interval it had before.", "quantifier": "every spectrum, including axes whose lower edge is not a multiple of the bin width", "why_tests_cant": "Existing tests only use axes that start at zero.", "anchors": ["echidna/core/spectra.py:Spectra.shrink", "echidna/core/parameter.py:SpectraParameter.round"]}
{"id": "C19", "title": "Shrink is idempotent and nested shrinks compose", "statement": "Shrinking twice to the same edges is the same as shrinking once; shrinking to an outer then to an inner range of edges equals shrinking to the inner range.", "quantifier": "every spectrum and every nested pair of edge ranges", "why_tests_cant": "Composition law.", "anchors": ["echidna/core/spectra.py:Spectra.shrink"]}
{"id": "C20", "title": "Rejected shrinks change nothing", "statement": "A shrink that names an unknown parameter, a suffix other than low or high, or a bound outside the present range by more than the tolerance raises, and the spectrum is unchanged.", "quantifier": "every spectrum and every set of keyword bounds in any order", "why_tests_cant": "All orders of the keywords and all combinations of good and bad bounds.", "anchors": ["echidna/core/spectra.py:Spectra.shrink"]}
{"id": "C21", "title": "Cut keeps the ratio of contents to decays", "statement": "After a cut, the total divided by the decay count is what it was before, so scaling to a number of decays commutes with cutting; the decay count is multiplied by the fraction of the total that was kept. Cutting an empty spectrum does not succeed.", "quantifier": "every spectrum with non-zero total and every cut", "why_tests_cant": "All contents and cuts.", "anchors": ["echidna/core/spectra.py:Spectra.cut"]}
{"id": "C22", "title": "Region of interest efficiency", "statement": "Shrinking to a region of interest records for the dimension the edges after shrinking and an efficiency equal to kept total over former total; for a spectrum with non-negative contents and positive total the efficiency lies between 0 and 1.", "quantifier": "every spectrum, every dimension of it and every accepted region", "why_tests_cant": "All contents and regions.", "anchors": ["echidna/core/spectra.py:Spectra.shrink_to_roi"]}
{"id": "C23", "title": "Data shape always matches the configuration", "statement": "After any finite sequence of fill, add, scale, rebin, shrink and cut calls, accepted or rejected, the shape of the stored array equals the bin counts in the configuration.", "quantifier": "every history of operations on one spectrum", "why_tests_cant": "An invariant over unbounded histories.", "anchors": ["echidna/core/spectra.py:Spectra"]}
{"id": "C24", "title": "Bin number and bin centre are inverse", "statement": "For every valid bin, the bin of its centre is the bin itself; for every value with low <= x < high the bin is a valid index whose edges contain the value; centres outside the valid bins and values outside [low, high] raise.", "quantifier": "every axis, every bin, every value", "why_tests_cant": "All axes and values.", "anchors": ["echidna/core/parameter.py:SpectraParameter.get_bin", "echidna/core/parameter.py:SpectraParameter.get_bin_centre"]}
{"id": "C25", "title": "The upper edge has a valid bin or is rejected", "statement": "Asking for the bin of any value either raises or returns an index smaller than the number of bins.", "quantifier": "every axis and every value, including the upper edge", "why_tests_cant": "Boundary value over all axes.", "anchors": ["echidna/core/parameter.py:SpectraParameter.get_bin"]}
{"id": "C26", "title": "Bin boundaries, centres and filling agree", "statement": "There are bins+1 boundaries from low to high, bins centres, centre i is midway between boundaries i and i+1, boundary i plus the width is boundary i+1, and filling at the centre of bin i puts the event in cell i.", "quantifier": "every axis with low < high and at least one bin", "why_tests_cant": "Agreement of four formulas over all axes.", "anchors": ["echidna/core/parameter.py:SpectraParameter.get_bin_boundaries", "echidna/core/parameter.py:SpectraParameter.get_bin_centres", "echidna/core/spectra.py:Spectra.fill"]}
{"id": "C27", "title": "Shifting by whole bins moves contents exactly", "statement": "Shifting a spectrum with non-negative contents by k bin widths moves each slice by k bins along the axis; slices moved outside are lost, vacated bins are empty, no counts are created, and the input spectrum is unchanged. A shift that is not a multiple of the width raises.", "quantifier": "every spectrum with non-negative contents, every axis, every integer k of either sign", "why_tests_cant": "All shapes and shifts.", "anchors": ["echidna/core/shift.py:Shift.shift_by_bin"]}
{"id": "C28", "title": "Opposite bin shifts cancel away from the edges", "statement": "Shifting by k bins and then by -k bins restores every slice that stayed in range and empties the others; a shift by zero is the identity; shifts by k and l of the same sign compose to k+l.", "quantifier": "every spectrum with non-negative contents and every k, l", "why_tests_cant": "Composition law.", "anchors": ["echidna/core/shift.py:Shift.shift_by_bin"]}
{"id": "C29", "title": "Interpolated shift conserves the total", "statement": "For any interpolation function, if at least one bin receives contents, a shift that is not a whole number of bins returns a spectrum with the same total, the same decay count and the same axes as the input, non-negative contents when the input is non-negative, and a projection onto the shifted axis that is proportional to the interpolation evaluated at the back-shifted bin centres.", "quantifier": "every spectrum, axis, shift and interpolation function", "why_tests_cant": "Conservation over all data and all interpolants.", "anchors": ["echidna/core/shift.py:Shift.shift", "echidna/core/spectra.py:Spectra.interpolate1d"]}
{"id": "C30", "title": "Energy scaling conserves the total", "statement": "For any interpolation function and any positive scale factor, if at least one bin receives contents, the scaled spectrum has the same total, the same decay count and the same axes as the input and non-negative contents when the input is non-negative; non-positive scale factors are rejected and leave the factor unchanged.", "quantifier": "every spectrum, axis, factor and interpolation function", "why_tests_cant": "Conservation over all data and all interpolants.", "anchors": ["echidna/core/scale.py:Scale.scale", "echidna/core/scale.py:Scale.set_scale_factor"]}
{"id": "C31", "title": "A shift or scaling that leaves the range is detected", "statement": "Shifting or scaling never silently returns a spectrum without finite contents.", "quantifier": "every spectrum, shift and factor", "why_tests_cant": "Needs the shifts that push everything out of range.", "anchors": ["echidna/core/shift.py:Shift.shift", "echidna/core/scale.py:Scale.scale", "echidna/core/spectra.py:Spectra.scale"]}
{"id": "C32", "title": "Weighted smearing conserves the contents of each bin", "statement": "Smearing with any positive weight function distributes the contents of each cell over cells that differ only along the smeared axis, in proportion to the weights, so the total and the sums over the other axes are conserved.", "quantifier": "every spectrum, axis, resolution and positive weight function", "why_tests_cant": "Windows, clipping and weights differ for each bin; conservation has to hold for all.", "anchors": ["echidna/core/smear.py:EnergySmearLY.weighted_smear", "echidna/core/smear.py:EnergySmearRes.weighted_smear", "echidna/core/smear.py:RadialSmear.weighted_smear"]}
{"id": "C33", "title": "Smearing in two steps", "statement": "The light yield (or resolution) computed for smearing an already smeared spectrum to a worse resolution is such that the variances add: the variance of the new resolution is the sum of the variance of the current one and that of the computed one. A better target than the current one is rejected.", "quantifier": "every pair of light yields or resolutions and every energy", "why_tests_cant": "Algebraic law over all values.", "anchors": ["echidna/core/smear.py:EnergySmearLY.calc_smear_ly", "echidna/core/smear.py:EnergySmearRes.calc_smear_resoluton", "echidna/core/smear.py:RadialSmear.calc_smear_resoluton"]}
{"id": "C34", "title": "Random smearing never creates events", "statement": "For every outcome of the random draws, the total after random smearing is at most the sum of the whole-number parts of the cells, every event stays in its slice of the other axes, and an event is lost only if its drawn value is out of range.", "quantifier": "every spectrum with non-negative contents and every sequence of random draws", "why_tests_cant": "Quantifies over all random outcomes.", "anchors": ["echidna/core/smear.py:EnergySmearLY.random_smear", "echidna/core/smear.py:EnergySmearRes.random_smear"]}
{"id": "C35", "title": "Chi-squared statistics are non-negative and vanish only on agreement", "statement": "The Baker-Cousins chi-squared, its likelihood version, Pearson's and Neyman's statistics are non-negative for all non-negative observations and expectations; with expectations and observations at or above the zero threshold they are zero exactly when observed equals expected in every bin.", "quantifier": "every pair of arrays of the same length", "why_tests_cant": "An inequality over real numbers with logarithms.", "anchors": ["echidna/fit/test_statistic.py:BakerCousinsChi", "echidna/fit/test_statistic.py:BakerCousinsLL", "echidna/fit/test_statistic.py:Pearson", "echidna/fit/test_statistic.py:Neyman"]}
{"id": "C36", "title": "Per-bin values add up to the total", "statement": "For each test statistic, the values returned per bin sum to the value returned for the whole array, and the per-bin call succeeds whenever the total call does.", "quantifier": "every statistic and every pair of arrays of the same length", "why_tests_cant": "Two separate code paths compared on all inputs.", "anchors": ["echidna/fit/test_statistic.py:TestStatistic.compute_statistic"]}
{"id": "C37", "title": "Statistics are independent of bin order and add over disjoint sets of bins", "statement": "Permuting bins jointly in observed and expected leaves the statistic unchanged, and the statistic of a concatenation is the sum of the statistics.", "quantifier": "every statistic, pair of arrays and permutation", "why_tests_cant": "Quantifies over permutations and splits.", "anchors": ["echidna/fit/test_statistic.py:TestStatistic.compute_statistic"]}
{"id": "C38", "title": "The two likelihood statistics rank models identically", "statement": "For fixed observations and any two expectations at or above the threshold, the difference of the Baker-Cousins chi-squared is exactly twice the difference of the extended log likelihood and of the Baker-Cousins likelihood, so all three select the same best model.", "quantifier": "every observation and every pair of expectations", "why_tests_cant": "Identity over real-valued arrays.", "anchors": ["echidna/fit/test_statistic.py:BakerCousinsChi", "echidna/fit/test_statistic.py:BakerCousinsLL", "echidna/fit/test_statistic.py:ExtendedLL"]}
{"id": "C39", "title": "Penalty terms", "statement": "The penalty of a parameter is non-negative, zero exactly at the prior, symmetric about the prior, and grows with the distance from it; the likelihood versions are half the chi-squared one.", "quantifier": "every value, prior and non-zero sigma", "why_tests_cant": "Inequalities over all values.", "anchors": ["echidna/fit/test_statistic.py:BakerCousinsChi.get_penalty_term", "echidna/fit/test_statistic.py:BakerCousinsLL.get_penalty_term"]}
{"id": "C40", "title": "Computing a statistic does not change its inputs", "statement": "Computing a test statistic leaves the observed and expected arrays as they were.", "quantifier": "every statistic and every pair of arrays", "why_tests_cant": "Only inputs below the threshold expose it.", "anchors": ["echidna/fit/test_statistic.py:Pearson", "echidna/fit/test_statistic.py:Neyman", "echidna/fit/test_statistic.py:BakerCousinsLL", "echidna/fit/test_statistic.py:BakerCousinsChi"]}
{"id": "C41", "title": "Shape errors", "statement": "Arrays that are not one-dimensional raise a type error, different lengths raise a value error, and everything else is computed.", "quantifier": "every pair of arrays", "why_tests_cant": "Complete case split over shapes.", "anchors": ["echidna/fit/test_statistic.py:TestStatistic.compute_statistic"]}
{"id": "C42", "title": "The grid search visits every combination exactly once", "statement": "The sequence of parameter combinations tried by the grid search is the full product of the parameter values, each combination once, in row-major order, with matching indices.", "quantifier": "every number of parameters and every list of distinct values", "why_tests_cant": "Recursion over an arbitrary number of parameters.", "anchors": ["echidna/fit/minimise.py:GridSearch._get_fit_par_values", "echidna/fit/minimise.py:GridSearch._get_values"]}
{"id": "C43", "title": "After minimising, every grid point holds the function value", "statement": "After a grid search, the stored statistic and penalty at each grid point are the values the function returned for the parameter values of that grid point.", "quantifier": "every objective function and every grid, including grids with repeated values", "why_tests_cant": "All functions and grids.", "anchors": ["echidna/fit/minimise.py:GridSearch.minimise", "echidna/fit/minimise.py:GridSearch.set_stat", "echidna/core/parameter.py:FitParameter.get_value_index"]}
{"id": "C44", "title": "The best fit is a global minimum of the grid", "statement": "The values reported as best fit are grid values at which statistic plus penalty is smallest over all combinations, and the returned pair is the statistic and penalty there; among equal minima the one whose index is first in row-major order is reported.", "quantifier": "every objective function and grid of distinct values, with and without the built-in numpy minimum", "why_tests_cant": "All functions and all dimension counts.", "anchors": ["echidna/fit/minimise.py:GridSearch.minimise", "echidna/fit/minimise.py:GridSearch.find_minimum"]}
{"id": "C45", "title": "The two minimum finders agree", "statement": "The dimension-by-dimension minimum finder returns the minimum of the whole array and the lexicographically lowest position where it is attained, for arrays of any number of dimensions.", "quantifier": "every non-empty array of any dimension", "why_tests_cant": "Coordinate bookkeeping over any number of dimensions.", "anchors": ["echidna/fit/minimise.py:GridSearch.find_minimum", "echidna/fit/minimise.py:GridSearch._update_coords"]}
{"id": "C46", "title": "Index checks of the grid reject out-of-range indices", "statement": "Asking for or setting the statistic or penalty at indices outside the grid raises an index error and changes nothing; indices inside the grid are never refused.", "quantifier": "every grid shape and every index tuple", "why_tests_cant": "Needs the tuples for which lexicographic and componentwise order differ.", "anchors": ["echidna/fit/minimise.py:GridSearch.get_stat", "echidna/fit/minimise.py:GridSearch.set_stat", "echidna/fit/minimise.py:GridSearch.get_penalty_term"]}
{"id": "C47", "title": "Values of a linear fit parameter", "statement": "A linear fit parameter with at least two bins has exactly that many values, equally spaced and increasing from low to high, and value and index lookups are mutually inverse.", "quantifier": "every parameter with low < high", "why_tests_cant": "All bins and ranges.", "anchors": ["echidna/core/parameter.py:FitParameter.get_values", "echidna/core/parameter.py:FitParameter.get_value_at", "echidna/core/parameter.py:FitParameter.get_value_index"]}
{"id": "C48", "title": "Values of a logarithmic-deviation fit parameter", "statement": "A parameter with values spaced logarithmically about its prior has as many values as bins, contains the prior, low and high, and is strictly increasing.", "quantifier": "every prior, range and bin count", "why_tests_cant": "Rounding of the two halves for all priors.", "anchors": ["echidna/core/parameter.py:FitParameter.get_values"]}
{"id": "C49", "title": "Limit is the first crossing at or after the best fit", "statement": "The returned limit is the smallest signal scaling, at or after the one with the smallest raw statistic, for which the statistic relative to the background-only fit plus penalties exceeds the threshold; a limit error is raised exactly when there is none.", "quantifier": "every list of scalings, statistics, penalties and thresholds", "why_tests_cant": "All arrays of statistics, including non-monotone ones.", "anchors": ["echidna/limit/limit.py:Limit.get_limit", "echidna/fit/fit_results.py:LimitResults.get_full_stats"]}
{"id": "C50", "title": "A higher confidence level gives a weaker limit", "statement": "For increasing scalings, raising the threshold never lowers the limit, and a limit error at a threshold implies one at every higher threshold.", "quantifier": "every list of statistics and every pair of thresholds", "why_tests_cant": "Monotonicity over all arrays.", "anchors": ["echidna/limit/limit.py:Limit.get_limit", "echidna/limit/limit.py:Limit.get_array_limit"]}
{"id": "C51", "title": "Limit from an array of statistics", "statement": "The limit of an array is the scaling of the first entry above the threshold; arrays of a different length than the scalings raise a compatibility error, and arrays without such an entry raise a limit error.", "quantifier": "every array and threshold", "why_tests_cant": "All arrays.", "anchors": ["echidna/limit/limit.py:Limit.get_array_limit", "echidna/limit/limit.py:Limit.sum_entries"]}
{"id": "C52", "title": "Decay conversions are inverse to each other", "statement": "Half-life to activity and back, effective mass to half-life and back, activity to counts and back, counts to half-life and back and counts to effective mass and back return the starting value, and each conversion is monotone in the physical direction.", "quantifier": "every isotope, loading, radius, livetime and positive starting value", "why_tests_cant": "Algebraic identities over real parameters.", "anchors": ["echidna/calc/decay.py:DBIsotope"]}
{"id": "C53", "title": "Number of atoms scales with loading and volume", "statement": "The number of isotope atoms is proportional to the loading and to the target mass, is positive, and when computed from a radius grows with the cube of the radius; out-of-range abundance, loading or radius raises.", "quantifier": "every isotope and argument combination", "why_tests_cant": "All argument combinations including defaults.", "anchors": ["echidna/calc/decay.py:DBIsotope.get_n_atoms", "echidna/calc/decay.py:DBIsotope.__init__"]}
{"id": "C54", "title": "Spectral configuration round trip", "statement": "Dumping a spectral configuration and loading it again gives a configuration with the same parameters in the same order with the same ranges, bins and values derived from them.", "quantifier": "every spectral configuration with at least one parameter", "why_tests_cant": "All configurations.", "anchors": ["echidna/core/config.py:SpectraConfig.dump", "echidna/core/config.py:SpectraConfig.load", "echidna/core/parameter.py:Parameter.to_dict"]}
{"id": "C55", "title": "Fit configuration round trip", "statement": "Dumping a fit configuration (spectral or global) and loading it again gives a configuration with the same parameters, types, order and settings.", "quantifier": "every fit configuration", "why_tests_cant": "All mixtures of global and spectral parameters and of unset and set values.", "anchors": ["echidna/core/config.py:GlobalFitConfig.dump", "echidna/core/config.py:GlobalFitConfig.load", "echidna/core/config.py:SpectraFitConfig.dump", "echidna/core/config.py:SpectraFitConfig.load", "echidna/core/parameter.py:FitParameter.to_dict"]}
{"id": "C56", "title": "Parameter order and index agree", "statement": "The index of a parameter is its position among the listed parameters; looking up by that index returns that parameter; the shape lists the bins in that order; unknown names raise.", "quantifier": "every configuration built by any sequence of parameter additions", "why_tests_cant": "All insertion histories, including overwriting.", "anchors": ["echidna/core/config.py:Config.get_index", "echidna/core/config.py:Config.get_par_by_index", "echidna/core/config.py:Config.get_shape", "echidna/core/config.py:Config.add_par"]}
{"id": "C57", "title": "Adding spectra to a global fit keeps their parameters apart", "statement": "Adding the fit configurations of spectra with different names to a global configuration keeps every parameter of every spectrum retrievable under the spectrum name and parameter name, keeps global parameters, and separates the two kinds. A parameter added by hand is of the kind given, any kind other than global or spectra raises; adding another global configuration adds its parameters with their kinds.", "quantifier": "every list of spectral fit configurations", "why_tests_cant": "Name collisions over all names.", "anchors": ["echidna/core/config.py:GlobalFitConfig.add_config", "echidna/core/config.py:GlobalFitConfig.add_par"]}
{"id": "C58", "title": "Dimension and type of a parameter name", "statement": "For a parameter named dimension_type, the dimension reported is the part before the last underscore, and dimension, underscore, reported type is again a parameter of the configuration.", "quantifier": "every configuration of parameter names", "why_tests_cant": "All strings.", "anchors": ["echidna/core/config.py:SpectraConfig.get_dim", "echidna/core/config.py:SpectraConfig.get_dims", "echidna/core/config.py:SpectraConfig.get_dim_type"]}
{"id": "C59", "title": "Saved spectra load back unchanged", "statement": "Saving a spectrum and loading the file gives back the same contents, axes, decay count, raw event count, flags, style, regions of interest, names and fit configuration.", "quantifier": "every spectrum, including ones with no style, no region of interest or an empty fit configuration", "why_tests_cant": "All optional parts present or absent.", "anchors": ["echidna/output/store.py:dump", "echidna/output/store.py:load"]}
{"id": "C60", "title": "Style dictionaries survive the old string encoding", "statement": "Encoding a dictionary of strings, integers and floats into a string and decoding it returns the same dictionary.", "quantifier": "every dictionary", "why_tests_cant": "All strings, including those with separators.", "anchors": ["echidna/output/store.py:dict_to_string", "echidna/output/store.py:string_to_dict"]}
{"id": "C61", "title": "Names of pre-convolved files", "statement": "The file name computed for a parameter value replaces an existing tag of the same kind or appends one, keeps all other components, is idempotent for the same value, and different values give different names.", "quantifier": "every file name, directory and value", "why_tests_cant": "All strings and values.", "anchors": ["echidna/core/parameter.py:ResolutionParameter.get_pre_convolved", "echidna/core/parameter.py:ScaleParameter.get_pre_convolved", "echidna/core/parameter.py:ShiftParameter.get_pre_convolved", "echidna/fit/fit.py:Fit.load_pre_made"]}
{"id": "C62", "title": "Caching convolved spectra is invisible", "statement": "Whether a convolved spectrum comes from the cache or is computed afresh, the expected spectrum for given fit parameter values is the same, for every order in which the values are tried.", "quantifier": "every set of floating backgrounds and signal, every sequence of evaluations", "why_tests_cant": "Quantifies over call histories.", "anchors": ["echidna/fit/fit.py:Fit._funct"]}
{"id": "C63", "title": "The fixed background is the sum of the scaled spectra", "statement": "Building the fixed background from any collection of spectra and expected counts yields, in every cell of the region of interest, the sum of the individually shrunk and scaled spectra, whatever the iteration order, and leaves the supplied spectra unchanged.", "quantifier": "every collection of spectra and every iteration order", "why_tests_cant": "Iteration order of a dictionary is arbitrary; object sharing.", "anchors": ["echidna/fit/fit.py:Fit.make_fixed_background", "echidna/fit/fit.py:Fit.append_fixed_background"]}
{"id": "C64", "title": "Region of interest bounds are put in order", "statement": "After setting a region of interest, the lower bound of every dimension is not above the upper bound, the pair of values is unchanged up to order, and setting it again changes nothing; malformed regions raise the documented exception.", "quantifier": "every region of interest", "why_tests_cant": "All dictionaries.", "anchors": ["echidna/fit/fit.py:Fit.check_roi", "echidna/fit/fit.py:Fit.set_roi"]}
{"id": "C65", "title": "Total penalty of a fit", "statement": "The penalty returned with the test statistic is the sum over all fit parameters with a sigma of their penalty terms at the values being tried, and parameters without sigma contribute nothing.", "quantifier": "every fit configuration and every value tuple", "why_tests_cant": "All mixtures of parameters with and without sigma.", "anchors": ["echidna/fit/fit.py:Fit._funct"]}
{"id": "C66", "title": "Every valid event of an input file is filled once", "statement": "Filling from a file increases the raw event count by the number of events inside the spectrum ranges that pass selection, ignores out-of-range ones, adds the number of entries to the decay count when appending, and for coincidence events keeps each candidate unless it is rejected by the coincidence tag.", "quantifier": "every sequence of events", "why_tests_cant": "All event sequences.", "anchors": ["echidna/core/fill_spectrum.py:fill_from_ntuple", "echidna/core/fill_spectrum.py:fill_from_root", "echidna/core/fill_spectrum.py:_bipo_ntuple"]}
{"id": "C67", "title": "Fiducial volume selection", "statement": "An event passes the selection of an extractor only if its position lies strictly inside the fiducial radius when one is given; a larger radius accepts a superset; without a radius no position cut is applied.", "quantifier": "every event and every pair of radii", "why_tests_cant": "All events.", "anchors": ["echidna/core/dsextract.py:EnergyExtractMC", "echidna/core/dsextract.py:EnergyExtractReco", "echidna/core/dsextract.py:EnergyExtractTruth", "echidna/core/dsextract.py:RadialExtractMC"]}
{"id": "C68", "title": "Every documented extractor can be created", "statement": "Asking for an extractor for any documented dimension returns one, and any other dimension raises an index error.", "quantifier": "every dimension string and argument combination", "why_tests_cant": "All strings and argument combinations.", "anchors": ["echidna/core/dsextract.py:function_factory"]}
{"id": "C69", "title": "Errors on arrays", "statement": "The error array computed for an array has the shape of that array, and each entry is the given linear error, or the given fraction of the value when a fractional error is requested.", "quantifier": "every array of any shape; with logarithms every array without negative entries; every linear and fractional error", "why_tests_cant": "All arrays and shapes; no test calls it.", "anchors": ["echidna/utilities.py:get_array_errors"]}
{"id": "C70", "title": "Names after resetting a grid search", "statement": "After k resets the name of a grid search is its original name followed by an underscore and k.", "quantifier": "every name, including names with underscores and the default name, and every number of resets", "why_tests_cant": "Induction over resets.", "anchors": ["echidna/fit/minimise.py:GridSearch.reset_grids"]}
{"id": "C71", "title": "Accepted shrink bounds outside the range act like the edge", "statement": "A shrink bound that lies slightly outside the range and is accepted because of the tolerance gives the same result as the edge of the range; in particular the bin counts still match the data.", "quantifier": "every spectrum and every accepted set of bounds", "why_tests_cant": "The tolerance is relative to the edge, the correction relative to the bin width; which one is larger depends on the binning.", "anchors": ["echidna/core/spectra.py:Spectra.shrink"]}
{"id": "C72", "title": "Interpolation passes through the bin contents", "statement": "If the interpolating spline passes through its points, the one-dimensional interpolation of a spectrum along an axis takes at each bin centre the contents of that bin summed over all other axes.", "quantifier": "every spectrum, axis and interpolating spline", "why_tests_cant": "The spectrum is first projected onto the axis; the values must line up with the centres for every shape.", "anchors": ["echidna/core/spectra.py:Spectra.interpolate1d"]}
{"id": "C73", "title": "Smearing weights follow the configured resolution", "statement": "With Gaussian smearing the weight of a point is the density of the normal distribution whose width is the configured one; with Poisson smearing it is the Poisson probability at the configured light yield. All weights are positive. A resolution is accepted exactly when it is positive (and below one for an energy resolution), and is then the one the object has; no sequence of accepted or rejected settings makes the resolution or the window non-positive, and different resolutions give different weights.", "quantifier": "every smearing object, sequence of settings, energy and point", "why_tests_cant": "Ranges over all real resolutions and energies; the defaulted Poisson switch of the resolution class is easy to miss in tests.", "anchors": ["echidna/core/smear.py:Smear.calc_gaussian", "echidna/core/smear.py:EnergySmearLY.calc_poisson_energy", "echidna/core/smear.py:EnergySmearRes.weighted_smear", "echidna/core/smear.py:Smear.set_num_sigma"]}
{"id": "C74", "title": "The one-sided statistic", "statement": "The one-sided Baker-Cousins chi-squared is the chi-squared of those bins in which no more events are observed than expected; it is zero exactly when no bin falls short of its expectation.", "quantifier": "every pair of arrays of the same length", "why_tests_cant": "Law over all arrays; the sign convention is easily reversed.", "anchors": ["echidna/fit/test_statistic.py:BakerCousinsChiUp._compute"]}
{"id": "C75", "title": "A grid search can be used again, also after a reset", "statement": "Minimising the same function again gives the same answer whatever the grid held before, and a search that was reset works like a new one.", "quantifier": "every grid, function and previous contents, with and without one number per spectrum bin", "why_tests_cant": "Needs arbitrary earlier contents of the grid and call sequences.", "anchors": ["echidna/fit/minimise.py:GridSearch.reset_grids", "echidna/fit/minimise.py:GridSearch.minimise"]}
{"id": "C76", "title": "Grid contents looked up by parameter value", "statement": "Asking for the penalty or the raw statistic at parameter values that lie on the grid gives what is stored for that grid point.", "quantifier": "every grid and every combination of values on it", "why_tests_cant": "All value lists, including very close ones, and all grid shapes.", "anchors": ["echidna/fit/minimise.py:GridSearch.get_penalty_at", "echidna/fit/minimise.py:GridSearch.get_raw_stats_at", "echidna/core/parameter.py:FitParameter.get_bin"]}
{"id": "C77", "title": "Changing a fit parameter", "statement": "After a parameter is changed with set_par every given attribute has the new value, all others the old one, and the values are those of the new settings; any documented keyword can be changed, in any order.", "quantifier": "every parameter, every set of keyword arguments and every order in which python hands them over", "why_tests_cant": "All keyword sets and orders, and the state left behind by calls that raise.", "anchors": ["echidna/core/parameter.py:FitParameter.set_par", "echidna/core/parameter.py:FitParameter.get_values"]}
{"id": "C78", "title": "Warnings about the values of a fit parameter", "statement": "check_values warns about values outside the allowed range exactly when there are some, and about a missing prior exactly when no value agrees with the prior.", "quantifier": "every parameter, every prior and every allowed range", "why_tests_cant": "All value lists; the prior zero is special.", "anchors": ["echidna/core/parameter.py:FitParameter.check_values"]}
{"id": "C79", "title": "Values of a logarithmic fit parameter", "statement": "A logarithmic fit parameter with at least two bins has exactly that many values, increasing from low to high, with equally spaced logarithms.", "quantifier": "every range and bin count", "why_tests_cant": "All bins and ranges, including those that start at or below zero.", "anchors": ["echidna/core/parameter.py:FitParameter.get_values"]}
{"id": "C80", "title": "Limit results read back what was recorded", "statement": "A best fit or penalty term recorded for a scaling and a parameter is read back, alone and in the column of the parameter, and changes nothing else; the full statistic of a scaling is its statistic plus its penalty terms; a recorded statistic is read back.", "quantifier": "every number of scalings and parameters and every sequence of recorded values", "why_tests_cant": "All tables and indices.", "anchors": ["echidna/fit/fit_results.py:LimitResults"]}
{"id": "C81", "title": "Names of loaded configurations", "statement": "A configuration loaded under a given name has that name; a configuration loaded from a file with a blank name is called like the file.", "quantifier": "every configuration dictionary, every name and every file name", "why_tests_cant": "All names; the name is computed in a loop over the parameters.", "anchors": ["echidna/core/config.py:GlobalFitConfig.load", "echidna/core/config.py:GlobalFitConfig.load_from_file", "echidna/core/config.py:SpectraFitConfig.load", "echidna/core/config.py:SpectraConfig.load"]}
{"id": "C82", "title": "Files of a dumped fit configuration", "statement": "Writing a global fit configuration to files leaves one file with the global and one with the spectral parameters, and touches no other file. A file name that is given is used as it is when it contains the extension .yml, and gets it appended otherwise.", "quantifier": "every configuration, path and pair of file names", "why_tests_cant": "All file names, including blank ones.", "anchors": ["echidna/core/config.py:GlobalFitConfig.dump_to_file"]}
{"id": "C83", "title": "Values taken from events", "statement": "The value filled for an energy axis is the stored energy, for a radial axis the distance from the centre, for a radial3 axis the cube of the ratio of that distance to the outer radius, which is below one exactly inside it; root files and ntuples holding the same quantities give the same value.", "quantifier": "every event, every extractor the factory can create, every outer radius", "why_tests_cant": "All positions and energies.", "anchors": ["echidna/core/dsextract.py:EnergyExtractMC.get_value_ntuple", "echidna/core/dsextract.py:Radial3ExtractMC.get_value_ntuple", "echidna/core/dsextract.py:RadialExtractReco.get_value_root"]}
{"id": "C84", "title": "Unusable events are rejected", "statement": "Events of external backgrounds without a triggered, reconstructed event, events without simulated particles, and events without a valid value of the requested quantity are not selected.", "quantifier": "every event", "why_tests_cant": "All events; the tests need rat and ROOT and never meet such events.", "anchors": ["echidna/core/dsextract.py:EnergyExtractMC.get_valid_root", "echidna/core/dsextract.py:Radial3ExtractReco.get_valid_root"]}
{"id": "C85", "title": "Background names", "statement": "The background a spectrum stands for is the name given to it, or else the part of its name before the data type label; once known it stays the same when the spectrum is renamed, and it is refused exactly when no name was given and the spectrum's name has no label.", "quantifier": "every spectrum name and every background name", "why_tests_cant": "All strings; the tests use one naming scheme.", "anchors": ["echidna/core/spectra.py:Spectra.get_background_name"]}
{"id": "C86", "title": "Saving keeps the rest of the file", "statement": "Appending a spectrum to a file keeps the fit and limit results in it; appending a second spectrum is refused and leaves file and spectrum as they were unless overwriting is asked for; a save that fails does not destroy what the file held.", "quantifier": "every file content, every spectrum, every combination of append and overwrite", "why_tests_cant": "All prior contents of the file and all failing saves.", "anchors": ["echidna/output/store.py:dump"]}
{"id": "C87", "title": "Saved fit results load back unchanged", "statement": "Saving the results of a fit and loading the file gives back name, statistics, penalty terms, resets, per-bin flag, spectral axes and fit parameters, with every axis of the statistics still belonging to the same parameter.", "quantifier": "every grid search, every fit configuration", "why_tests_cant": "All configurations, orders of parameters and shapes.", "anchors": ["echidna/output/store.py:dump_fit_results", "echidna/output/store.py:load_fit_results"]}
{"id": "C88", "title": "Saved limit results load back unchanged", "statement": "Saving limit results and loading the file gives back configurations, statistics, penalty terms and best fits for every scaling, and for every scaling that has one the result of its fit.", "quantifier": "every number of scalings and fit parameters, every pattern of present and absent fit results", "why_tests_cant": "Loop over scalings with optional parts.", "anchors": ["echidna/output/store.py:dump_limit_results", "echidna/output/store.py:load_limit_results"]}
{"id": "C89", "title": "Other objects load back unchanged", "statement": "Saving an object with dump_ndarray and loading the file into another object of the same kind restores every array and every other attribute; absent attributes stay as they were; objects that cannot be stored are refused.", "quantifier": "every object with array, plain and missing attributes", "why_tests_cant": "All attribute dictionaries.", "anchors": ["echidna/output/store.py:dump_ndarray", "echidna/output/store.py:load_ndarray"]}
{"id": "C90", "title": "Files of the old format can still be read", "statement": "Loading a file of the old format gives a spectrum with the axes, counts, flag, style and regions of interest written in it, whatever the order of the attributes; files that are neither old nor new are refused.", "quantifier": "every old file with known settings, every attribute order", "why_tests_cant": "All attribute orders and parameter names.", "anchors": ["echidna/output/store.py:_load_old"]}
{"id": "C91", "title": "Expected spectrum of a fit", "statement": "When a fit is evaluated at given parameter values, the expected contents are, bin by bin, the fixed background plus, for each floating background, its spectrum with all global parameters applied, scaled from its number of decays to the value of its rate, plus the signal with the global parameters applied.", "quantifier": "every fit, every sequence of earlier evaluations, every argument values, every bin", "why_tests_cant": "Quantifies over all spectra, values and call histories; tests compare single numbers.", "anchors": ["echidna/fit/fit.py:Fit._funct", "echidna/core/parameter.py:RateParameter.apply_to", "echidna/core/parameter.py:ResolutionParameter.apply_to", "echidna/core/parameter.py:ScaleParameter.apply_to", "echidna/core/parameter.py:ShiftParameter.apply_to"]}
{"id": "C92", "title": "Evaluations leave the supplied spectra alone", "statement": "Evaluating a fit any number of times leaves data, fixed background and signal as they were supplied; floating backgrounds are unchanged when there are global parameters and at most rescaled otherwise; of the fit parameters only the current values change, to those of the last evaluation.", "quantifier": "every fit, every sequence of evaluations", "why_tests_cant": "Quantifies over all call histories and all fits.", "anchors": ["echidna/fit/fit.py:Fit._funct"]}
{"id": "C93", "title": "Fits by grid search find the best combination", "statement": "A fit with floating backgrounds and a grid search reports, whatever was evaluated or fitted before, the first combination of parameter values with the smallest statistic plus penalty; at every grid point statistic and penalty are those of the fresh fit at these values, so neither the order of the grid points nor earlier fits matter. The fit returns exactly if the fresh fit can be evaluated at every combination.", "quantifier": "every fit, every grid of parameter values, every sequence of earlier evaluations and fits", "why_tests_cant": "The loop changes spectra, parameters and the cache at each of arbitrarily many points; tests run small grids on fresh fits.", "anchors": ["echidna/fit/fit.py:Fit.fit", "echidna/fit/fit.py:Fit._funct", "echidna/fit/minimise.py:GridSearch.minimise"]}
{"id": "C94", "title": "A fit runs only when it is completely and consistently set up", "statement": "Fit.fit() of a fit that has not been checked runs exactly when data and at least one background have been set, the data, fixed background and signal have the range of the region of interest (within numpy's tolerance), parameter lists, minimiser and the three per-bin flags go together; otherwise it raises and neither the fit nor any spectrum changes. Missing data or background is a CompatibilityError, a wrong range a ValueError.", "quantifier": "all states of a fit, all spectra with axes of different dimensions, all minimisers", "why_tests_cant": "The combinations of missing and inconsistent settings are many, and the exceptions are raised in an order that depends on the state; tests visit a few of them.", "anchors": ["echidna/fit/fit.py:Fit.fit", "echidna/fit/fit.py:Fit.check_fitter", "echidna/fit/fit.py:Fit.check_all_spectra", "echidna/fit/fit.py:Fit.check_spectra"]}
{"id": "C95", "title": "A fit without floating backgrounds compares data with fixed background plus signal", "statement": "Without floating backgrounds Fit.fit() returns the test statistic of the data, projected onto the region's parameters, and the bin-by-bin sum of the equally projected fixed background and signal (of the totals with single_bin); no spectrum and no attribute changes, the minimiser plays no role, and repeating the fit returns the same.", "quantifier": "all checked fits without floating backgrounds, all spectra, all test statistics", "why_tests_cant": "The value is a function of whole arrays of any size and number of dimensions; tests compare single numbers.", "anchors": ["echidna/fit/fit.py:Fit.fit", "echidna/core/spectra.py:Spectra.nd_project", "echidna/fit/test_statistic.py:TestStatistic.compute_statistic"]}
{"id": "C96", "title": "Setting a spectrum leaves it exactly on the region, or changes nothing", "statement": "set_data, set_fixed_background and set_signal with shrink=True leave the spectrum with exactly the region of interest and remember the parameters of the region; with shrink=False set_data and set_fixed_background accept exactly the spectra with the range of the region. A call that raises leaves the attributes of the fit and all spectra as they were. set_roi puts each pair in order, keeps the dimensions, and makes the checks be done again. make_fixed_background gives the sum of the shrunk and scaled spectra with the parameters of the region; after remove_signal the fit does what it does if no signal was ever set. set_floating_backgrounds that succeeds enters all parameters of the backgrounds into the fit configuration, leaves every background with the range of the region, keeps the parameters of the region of each in order, and changes nothing else. After shrink_all data, fixed background, signal and floating backgrounds have exactly the region.", "quantifier": "all regions on bin edges, all spectra, all states of a fit", "why_tests_cant": "Needs all regions and axes, and that nothing else changes after an exception.", "anchors": ["echidna/fit/fit.py:Fit.set_data", "echidna/fit/fit.py:Fit.set_fixed_background", "echidna/fit/fit.py:Fit.set_signal", "echidna/fit/fit.py:Fit.set_floating_backgrounds", "echidna/fit/fit.py:Fit.set_roi", "echidna/fit/fit.py:Fit.shrink_spectra", "echidna/fit/fit.py:Fit.get_roi_pars"]}
{"id": "C97", "title": "A fit that counts as checked stays consistent under later calls", "statement": "After any sequence of calls of the setters, set_roi, shrink_all, make_fixed_background, check_fitter and fit, whether they raise or not, a fit that counts as checked has data and a background, and data, fixed background and signal have the range of the current region of interest; so every fit() that returns a value has used spectra with that range.", "quantifier": "all finite sequences of calls with any arguments for which shrinking is on bin edges or refused", "why_tests_cant": "The flag that skips the checks is kept over calls, so the property is about all histories.", "anchors": ["echidna/fit/fit.py:Fit.fit", "echidna/fit/fit.py:Fit.check_fitter", "echidna/fit/fit.py:Fit.set_roi", "echidna/fit/fit.py:Fit.set_data", "echidna/fit/fit.py:Fit.set_fixed_background", "echidna/fit/fit.py:Fit.set_signal", "echidna/fit/fit.py:Fit.shrink_all", "echidna/fit/fit.py:Fit.make_fixed_background"]}
{"id": "C98", "title": "A shifted or scaled axis leaves the other axes alone", "statement": "Each slice of an interpolated shift or scaling is, up to one factor common to all slices, the interpolation at the position its centre came from, spread over the other axes like the contents of the bin of that position and of its neighbour on the near side, in proportion to the trapezium areas of the overlaps; slices from out of range or with non-positive interpolation are empty. So a spectrum whose contents are a product of a function of the shifted axis and one of the other axes stays one, with the same function of the other axes.", "quantifier": "every spectrum with any number of axes, every shift that is not a whole number of bins, every positive scale factor, every interpolation function", "why_tests_cant": "Which bins feed which is a matter of all positions, boundaries and widths; a test sees a few of them.", "anchors": ["echidna/core/shift.py:Shift.shift", "echidna/core/scale.py:Scale.scale"]}
{"id": "C99", "title": "A fit constructed with all its spectra has them cut to the region and is ready to run", "statement": "A fit constructed with data, fixed or floating backgrounds or both, and perhaps a signal, holds every one of them cut exactly to the region of interest, as if it had been shrunk once; its fixed background is the total of the supplied ones scaled to their priors; it has a minimiser, and the first call of fit() passes all checks. Constructed without data or without any background it exists all the same, without minimiser, and fit() is refused without changing anything. The region may be given with its bounds in either order. When setting one of the spectra or shrinking raises, the constructor raises the same exception and takes no further step; it also raises when a cut spectrum does not match the region (bounds not on bin edges), so a fit that has a minimiser always compares spectra that match its region.", "quantifier": "every region, every collection of spectra each with its own configuration and with the region's bounds on bin edges, every combination of present and missing arguments, either value of the shrink argument, every configuration of parameters", "why_tests_cant": "The constructor shrinks each spectrum twice and passes through four setters whose effects meet in shared configurations; a test covers one combination of arguments.", "anchors": ["echidna/fit/fit.py:Fit.__init__", "echidna/fit/fit.py:Fit.shrink_all", "echidna/fit/fit.py:Fit.set_minimiser", "echidna/fit/fit.py:Fit.check_all_spectra"]}
{"id": "C100", "title": "A limit does not depend on what the fit was used for before", "statement": "get_limit and get_statistics of a limit judge every scaling of the signal as a newly prepared fit would: without signal for a scaling close to zero, otherwise with the signal scaled to this number of decays. So after any earlier calls of the two, also ones that raised, the limit is the first scaling from the best one on at which the statistic relative to the fit without signal, together with the penalties of the best fit at this scaling, is above the threshold. The calls leave data and fixed background as they are, change no setting of the fit but its signal, and leave the signal's spectrum as it was or scaled. A signal without fit configuration is refused by the constructor.", "quantifier": "every fit that passes its checks with and without the signal, with a fixed background only or with floating backgrounds, any rates and a grid search whose evaluations succeed; with global parameters for positive numbers of decays and an interpolation that follows multiplied contents; every sequence of earlier calls, every list of scalings, every threshold and every given minimum", "why_tests_cant": "The loop changes the signal, the rates of the backgrounds and the arrays of the grid search at each scaling and never restores them; a test sees one list of scalings on one new fit, not the traces left by earlier ones.", "anchors": ["echidna/limit/limit.py:Limit.get_limit", "echidna/limit/limit.py:Limit.get_statistics", "echidna/limit/limit.py:Limit.__init__", "echidna/fit/fit.py:Fit.fit", "echidna/fit/fit.py:Fit.set_signal", "echidna/fit/fit.py:Fit.remove_signal", "echidna/fit/fit_results.py:FitResults.get_summary"]}
{"id": "C101", "title": "A plotted projection shows the contents of each bin at its place", "statement": "plot_projection draws a step histogram whose edges are the bin edges of the dimension, from low to high, and whose height in every bin is the sum of the spectrum over all cells with that bin of the dimension; the heights add up to the sum of the spectrum. The axis used for plots consists of the bin centres. A dimension that the spectrum does not have raises KeyError.", "quantifier": "every spectrum with any number of dimensions and any bins, every dimension", "why_tests_cant": "numpy.arange, numpy.linspace and the binning of the histogram each compute the positions anew; a test compares pictures or one array, not all ranges and numbers of bins.", "anchors": ["echidna/output/plot.py:plot_projection", "echidna/output/plot.py:_produce_axis", "echidna/output/plot.py:_produce_bins", "echidna/core/spectra.py:Spectra.project"]}
{"id": "C102", "title": "A spectral plot shows each spectrum, their sum and the summed background", "statement": "spectral_plot draws one step histogram for each spectrum, one for the sum of all spectra, one for the sum of those of type background and one for the limit, each with the bins of the dimension and with the contents it stands for in every bin. Spectra with another lower or upper limit or number of bins in the dimension than the first one raise AssertionError.", "quantifier": "every dictionary of spectra with the dimension, with any types, with or without limit", "why_tests_cant": "Whether a type given by the user is recognised depends on the identity of strings, which tests with literals never see.", "anchors": ["echidna/output/plot.py:spectral_plot", "echidna/output/plot_root.py:spectral_plot"]}
{"id": "C103", "title": "A projection as ROOT histogram can be looked up by value", "statement": "The histogram returned by plot_projection for ROOT has the bins and limits of the dimension; the bin that ROOT finds for a value holds the contents of the spectrum in the bin of this value. Underflow and overflow are empty and the integral is the sum of the spectrum.", "quantifier": "every spectrum, every dimension, every value within the dimension's range", "why_tests_cant": "ROOT counts bins from one with an underflow bin before; a test looks at one histogram.", "anchors": ["echidna/output/plot_root.py:plot_projection", "echidna/core/spectra.py:Spectra.project"]}
{"id": "C104", "title": "A surface as ROOT histogram can be looked up by two values", "statement": "The two-dimensional histogram returned by plot_surface for ROOT has the bins and limits of the first dimension on its x axis and those of the second one on its y axis; the cell that ROOT finds for a pair of values holds the contents of the spectrum in the bins of these values.", "quantifier": "every spectrum with at most three dimensions, every pair of different dimensions in either order, all values within range", "why_tests_cant": "With the dimensions in the order of the configuration, or with symmetric contents, nothing is seen of a transposition.", "anchors": ["echidna/output/plot_root.py:plot_surface", "echidna/core/spectra.py:Spectra.surface"]}
{"id": "C105", "title": "A plotted surface colours each pair of bins by its contents", "statement": "plot_surface puts one of its two dimensions on the x axis and the other one on the y axis, labelled accordingly; every pair of bins is drawn as the rectangle of these bins, coloured by the contents of the spectrum in this pair of bins.", "quantifier": "every spectrum with at most three dimensions, every pair of different dimensions in either order", "why_tests_cant": "Pictures are not compared in tests; a shift by half a bin and a missing last row are hard to see.", "anchors": ["echidna/output/plot.py:plot_surface", "echidna/output/plot.py:_produce_axis", "echidna/core/spectra.py:Spectra.surface"]}
{"id": "C106", "title": "The results of a fit can be read by grid point and by parameter", "statement": "get_raw_stats returns one number for each combination of parameter values: the statistic stored for it, summed over the bins of the spectrum. Given values for some parameters, it returns the part of the grid at these values; get_penalty_terms returns the penalty terms of a parameter for each of its values; nd_project_stat and nd_project_stats project the statistics onto parameters.", "quantifier": "every fit with any parameters and bins, per bin or not, all grid points and keyword arguments", "why_tests_cant": "Each accessor builds an index expression as text and evaluates it; the branches for several parameters or with keyword arguments are only reached with such fits.", "anchors": ["echidna/fit/minimise.py:GridSearch.get_raw_stats", "echidna/fit/minimise.py:GridSearch.get_penalty_terms", "echidna/fit/minimise.py:GridSearch.nd_project_stat", "echidna/fit/minimise.py:GridSearch.nd_project_stats"]}
{"id": "C107", "title": "A plot of statistics against two parameters can be read at their values", "statement": "plot_raw_stats_vs_pars and plot_stats_vs_pars return a histogram with the bins and ranges of the two parameters; the cell found for a value of the first and a value of the second parameter holds the statistic stored for this combination, without and with the penalty; the other parameters are kept at the values given.", "quantifier": "every fit with two or more parameters, every pair of parameters in either order, all values", "why_tests_cant": "The histogram needs to be right for both orders of the parameters and at all values; a test looks at one fit, usually with as many values for both parameters.", "anchors": ["echidna/output/plot_root.py:plot_raw_stats_vs_pars", "echidna/output/plot_root.py:plot_stats_vs_pars", "echidna/fit/minimise.py:GridSearch.get_penalty_at", "echidna/core/parameter.py:FitParameter.get_value_at"]}
{"id": "C108", "title": "A plot of the statistic per bin shows each bin of the spectrum at its place", "statement": "plot_per_bin returns a histogram with the bins and range of one dimension, or of two, of the spectrum; every bin holds the statistic of that bin of the spectrum, at the best fit or at the parameter values given. Asking for the best fit before a fit has been done raises ValueError.", "quantifier": "every fit per bin with spectra of one or two dimensions, any parameters and values on the grid, either order of the dimensions", "why_tests_cant": "With as many bins in both dimensions a transposed histogram looks like any other one.", "anchors": ["echidna/output/plot_root.py:plot_per_bin", "echidna/fit/minimise.py:GridSearch.get_raw_stats_at"]}
{"id": "C109", "title": "Graphs against scalings show the results stored for each scaling", "statement": "The graphs of statistics, penalty terms and best fits against the values of a parameter or against the signal scalings have one point for each value, with the number stored for it; in units of sigma, the best fit's distance from the prior divided by sigma. Making a graph leaves the results as they are.", "quantifier": "all results of fits and limits with any number of parameters and scalings, any values", "why_tests_cant": "Results that are changed by looking at them are only noticed when they are looked at twice.", "anchors": ["echidna/output/plot_root.py:plot_stats_vs_scale", "echidna/output/plot_root.py:plot_raw_stats_vs_par_scale", "echidna/output/plot_root.py:plot_stats_vs_par_scale", "echidna/output/plot_root.py:plot_best_fit_vs_scale", "echidna/output/plot_root.py:plot_sigma_best_fit_vs_scale", "echidna/output/plot_root.py:plot_penalty_term_vs_par_scale", "echidna/output/plot_root.py:plot_penalty_term_vs_scale", "echidna/fit/fit_results.py:LimitResults.get_best_fits"]}
{"id": "C110", "title": "The bin boundaries of a fit parameter enclose its values", "statement": "get_bin_boundaries returns one boundary more than the parameter has bins, in increasing order, such that each value of the parameter lies between the two boundaries of its bin.", "quantifier": "all fit parameters on the linear, logarithmic and logarithmic deviation scales, all ranges and numbers of bins", "why_tests_cant": "Which values fall outside depends on the position in the range and on the number of bins being even or odd.", "anchors": ["echidna/core/parameter.py:FitParameter.get_bin_boundaries", "echidna/core/parameter.py:FitParameter.get_values"]}
{"id": "C111", "title": "rebin.py saves the rebinned spectrum and nothing else", "statement": "rebin.py with numbers of bins that divide those of the axes saves the rebinned spectrum at the path asked for, or beside the input with _rebin.hdf5 in place of the extension: blocks of cells are merged, ranges, total, decays, name, labels and fit parameters are kept, and no other file changes. With numbers that do not fit, without numbers or without the input file nothing is written.", "quantifier": "all disks, paths, saved spectra of any dimension and numbers of bins", "why_tests_cant": "The script is only run by hand; a file that is overwritten or an attribute that is lost is noticed much later.", "anchors": ["echidna/scripts/rebin.py", "echidna/core/spectra.py:Spectra.rebin", "echidna/output/store.py:dump", "echidna/output/store.py:load"]}
{"id": "C112", "title": "dump_shrink.py saves the part of the spectrum within the bounds", "statement": "dump_shrink.py with bounds at bin edges for any of the axes saves the part of the spectrum between them, with ranges that end exactly at the bounds and all labels kept, at the path asked for or beside the input with _shrunk.hdf5 in place of the extension. Without bounds, with another number of bounds than parameters, or with bounds out of range nothing is written.", "quantifier": "all disks, paths, saved spectra, sets of named parameters, lower and upper bounds in any combination", "why_tests_cant": "The bounds are matched with the parameters by position, with a branch for each of the options that may be missing.", "anchors": ["echidna/scripts/dump_shrink.py", "echidna/core/spectra.py:Spectra.shrink", "echidna/output/store.py:dump"]}
{"id": "C113", "title": "dump_shifted.py and dump_scaled.py save the shifted or scaled spectrum", "statement": "dump_shifted.py saves beside the input, and dump_scaled.py in the directory asked for or beside the input, the spectrum with one axis shifted by a distance or scaled by a factor, keeping the number of events and all other axes; no other file changes. Missing options, unknown parameters, factors that are not positive and directories that do not exist are refused and nothing is written.", "quantifier": "all disks, paths, saved spectra, axes, shifts and factors, any interpolation", "why_tests_cant": "Which branch is taken depends on the shift being a whole number of bins; a value of zero is taken for a missing option.", "anchors": ["echidna/scripts/dump_shifted.py", "echidna/scripts/dump_scaled.py", "echidna/core/shift.py:Shift.shift", "echidna/core/scale.py:Scale.scale"]}
{"id": "C114", "title": "dump_smeared.py and dump_smeared_energy.py save the smeared spectrum without losing events", "statement": "With the method weight the scripts save the spectrum smeared along its energy axes (and radial axes for dump_smeared.py), with the total and the distribution over the other axes unchanged; with the method random no events are gained. Any other method, a missing file, a refused resolution or a missing directory leaves all files as they are.", "quantifier": "all disks, paths, saved spectra with any axes, resolutions and light yields, all draws for random smearing", "why_tests_cant": "The loop smears one axis after the other and renames the spectrum each time; draws are random.", "anchors": ["echidna/scripts/dump_smeared.py", "echidna/scripts/dump_smeared_energy.py", "echidna/core/smear.py:Smear.weighted_smear", "echidna/core/smear.py:Smear.random_smear"]}
{"id": "C115", "title": "Scripts do not overwrite their inputs or the results of other inputs", "statement": "No script that changes a spectrum touches the file it was given, unless told to, however it ends; and the results for two inputs that differ in more than the extension, or for two factors, are kept in two files beside their inputs.", "quantifier": "all disks, all pairs of paths, all options, any way of ending including exceptions", "why_tests_cant": "Output names are made by slicing the input path at dots and slashes; which paths collide depends on where these are.", "anchors": ["echidna/scripts/rebin.py", "echidna/scripts/dump_shrink.py", "echidna/scripts/dump_shifted.py", "echidna/scripts/dump_scaled.py", "echidna/scripts/dump_smeared.py", "echidna/scripts/dump_smeared_energy.py"]}
{"id": "C116", "title": "multi_ntuple_spectrum.py makes one spectrum of all files of a directory", "statement": "The script saves one spectrum that stands for as many decays as the ntuples have entries altogether, with every entry that all axes accept (and, with the coincidence cut, that is not followed by another trigger of the same event) counted exactly once, whatever the order of the files; its name is the one given or else the name of the directory. Unusable input is refused and nothing is written.", "quantifier": "all lists of files of any length in any order, all configurations with documented axes, cuts and names", "why_tests_cant": "The order of os.listdir is arbitrary, and the first file is treated differently from the others.", "anchors": ["echidna/scripts/multi_ntuple_spectrum.py:create_combined_ntuple_spectrum", "echidna/core/fill_spectrum.py:fill_from_ntuple"]}
{"id": "C117", "title": "dump_spectra_ntuple.py and dump_spectra_root.py save the spectrum of each file", "statement": "The scripts save for each file given, directly or in a text file, a spectrum named after the file in the directory asked for; it stands for as many decays as there are entries and counts each accepted entry once. Unusable input is refused and nothing is written.", "quantifier": "all files, configurations with documented axes, cuts, paths and lists of files", "why_tests_cant": "The scripts need ROOT and files from a simulation; they have no tests at all.", "anchors": ["echidna/scripts/dump_spectra_ntuple.py:read_and_dump_ntuple", "echidna/scripts/dump_spectra_ntuple.py:read_tab_delim_file", "echidna/scripts/dump_spectra_root.py:read_and_dump_root"]}
{"id": "C118", "title": "combine_hdf5.py saves the sum of the spectra and keeps its inputs", "statement": "combine_hdf5.py with two or more files of spectra with the same axes saves their sum in combined.hdf5: contents, raw events and decays are the sums over the files, in whatever order they are given; everything else is that of the first file; the input files are kept. Fewer than two files, a missing file, and any file whose numbers of bins or axes are not those of the first are refused and nothing is written.", "quantifier": "all disks, lists of two or more paths in any order, saved spectra of any dimension", "why_tests_cant": "An order or a number of files that was not tried, or an input that is also the output, only shows with such a call.", "anchors": ["echidna/scripts/combine_hdf5.py", "echidna/core/spectra.py:Spectra.add"]}
{"id": "C119", "title": "Scaling to a number of decays commutes with smearing, shifting and scaling an axis", "statement": "A spectrum may be scaled to a number of decays before or after it is smeared with weights, shifted, or scaled along an axis: both orders give the same spectrum, with the same name and the same number of decays, or the same exception. Projections of a scaled spectrum are scaled projections.", "quantifier": "every spectrum, number of decays not zero, dimension, resolution and weight function; shifts and axis scalings for numbers of decays of the same sign and every interpolation that follows multiplied contents", "why_tests_cant": "Convolved spectra are kept and scaled afterwards in a fit; a test on one spectrum and one factor cannot show that all thresholds inside the loops are free of the scale.", "anchors": ["echidna/core/spectra.py:Spectra.scale", "echidna/core/smear.py:EnergySmearRes.weighted_smear", "echidna/core/smear.py:EnergySmearLY.weighted_smear", "echidna/core/shift.py:Shift.shift", "echidna/core/shift.py:Shift.shift_by_bin", "echidna/core/scale.py:Scale.scale", "echidna/core/spectra.py:Spectra.project"]}
{"id": "C120", "title": "Smearing and shifting a sum of spectra is adding the smeared or shifted spectra", "statement": "For two spectra with the same axes, adding and then smearing with weights gives cell by cell what smearing and then adding gives, with the same decays and raw events; so does adding and then shifting by a whole number of bins. Neither raises.", "quantifier": "every two spectra with the same valid axes of any dimension, every axis, positive weight function, window and resolution; for shifts every whole number of bins and contents that are not negative", "why_tests_cant": "Linearity speaks of all pairs of spectra; the loops skip empty cells and slices, and whether the skipped ones matter depends on the contents of both.", "anchors": ["echidna/core/spectra.py:Spectra.add", "echidna/core/smear.py:EnergySmearRes.weighted_smear", "echidna/core/smear.py:EnergySmearLY.weighted_smear", "echidna/core/shift.py:Shift.shift_by_bin", "echidna/core/shift.py:Shift.shift"]}
{"id": "C121", "title": "A filled histogram, rebinned, shrunk or projected, is the histogram made that way", "statement": "Whatever events have been filled, rebinning the spectrum gives the spectrum one gets by filling the same events into the coarser bins; shrinking to bin edges gives what filling the same events into the shrunk spectrum gives; projecting gives the histogram of the remaining coordinates of the events the whole spectrum accepted.", "quantifier": "every spectrum with valid axes of any dimension, every sequence of fills with any weights, inside or outside the range, every accepted list of bin numbers, every shrink to bin edges of aligned axes and every set of parameters projected onto", "why_tests_cant": "The statement relates two whole histories of fills and every cell of the results; a test compares one data set and one binning.", "anchors": ["echidna/core/spectra.py:Spectra.fill", "echidna/core/spectra.py:Spectra.rebin", "echidna/core/spectra.py:Spectra.shrink", "echidna/core/spectra.py:Spectra.project", "echidna/core/spectra.py:Spectra.nd_project"]}
{"id": "C122", "title": "Adding, scaling, rebinning and shrinking may be done in any order", "statement": "Scaling to a number of decays commutes with rebinning and with shrinking; adding two spectra with the same axes commutes with rebinning both and with shrinking both; rebinning and then shrinking to edges of the new bins is shrinking to these edges and then merging the same numbers of bins. Both orders succeed or both raise.", "quantifier": "every pair of spectra with the same valid axes of any dimension, every number of decays, list of bins and set of bounds; for the order of rebinning and shrinking every axis aligned after rebinning and bounds at edges of the new bins", "why_tests_cant": "Analyses combine these steps in different orders and must agree for all contents, binnings and bounds; tests check single operations on single arrays.", "anchors": ["echidna/core/spectra.py:Spectra.add", "echidna/core/spectra.py:Spectra.scale", "echidna/core/spectra.py:Spectra.rebin", "echidna/core/spectra.py:Spectra.shrink"]}
{"id": "C123", "title": "Setting a limit saves its results where it was asked to", "statement": "get_limit returns the same limit, or raises the same exception, whether or not it stores its results. Stored results go to the given file name, with .hdf5 at its end, or to a name made from that of the results and the time; a file that was there is replaced, no other file is touched, and loading it gives the statistics, penalty terms and best fits of all scalings. Without store_limit nothing is written, and nothing is written if a fit fails.", "quantifier": "every list of scalings, fit, threshold and given minimum; every set of files; every given name, time and directory; limit results that can be loaded again (C88)", "why_tests_cant": "All outcomes of the search, found or not, times all options times all earlier contents of the files; tests never look for stored files.", "anchors": ["echidna/limit/limit.py:Limit.get_limit", "echidna/output/store.py:dump_limit_results", "echidna/output/store.py:load_limit_results", "echidna/output/store.py:dump"]}
{"id": "C124", "title": "The Majoron limits script fits what its configuration says, within its error bounds", "statement": "klz_majoron_limits.py makes its fit from the configured data, the configured fixed backgrounds with their numbers of decays, and as floating backgrounds first those passed to it and then the configured ones whose names were not passed, in order. With a bound requested every content of these spectra is multiplied by one factor (10 to the 0.02 times the square root of 3, or its inverse; upwards for the upper bound and downwards for the lower), empty bins stay empty and everything else in the spectra stays. It then sets a limit for every signal; every call starts from its own arguments.", "quantifier": "every configuration, set of loadable files, list of passed spectra and bound; spectra of one axis without negative contents for the part that holds", "why_tests_cant": "All configurations times all contents of the files; no test runs the script.", "anchors": ["echidna/scripts/klz_majoron_limits.py:main", "echidna/utilities.py:get_array_errors", "echidna/fit/fit.py:Fit"]}
{"id": "C125", "title": "Filling with floats puts every event in its bin up to rounding at the edges", "statement": "With floats instead of exact numbers, a fill of a point in range adds the weight (rounded once) to exactly one cell. On each axis the cell is found by one rule that does not depend on the contents, is monotone in the coordinate, gives the first bin at the lower end, and is right for all points further than 5 times the machine precision times the length of the axis from a bin edge. Points out of range are refused and leave the spectrum as it was. Every point in range is accepted.", "quantifier": "every spectrum, point and weight; every monotone rounding with relative error at most 1/16, in particular binary floats with any number of digits from 4 on", "why_tests_cant": "Rounding errors show up at single floats next to bin edges; there are 2^64 floats per axis.", "anchors": ["echidna/core/spectra.py:Spectra.fill"]}
{"id": "C126", "title": "Counting events with floats is exact", "statement": "With whole weights, and as long as the numbers stay below 2^53, a spectrum filled with floats holds exactly the counts it would hold without rounding, for events that are not within rounding errors of a bin edge; the order of the fills does not matter wherever the events are; and the sum over the contents is exact in whatever order numpy adds them up.", "quantifier": "every spectrum, history of fills (also refused ones), rounding and order of summation", "why_tests_cant": "All histories of up to 2^53 events.", "anchors": ["echidna/core/spectra.py:Spectra.fill", "echidna/core/spectra.py:Spectra.sum"]}
{"id": "C127", "title": "Shrinking to bin edges with floats gives exactly the bins asked for", "statement": "Shrinking to bounds that are bin edges up to a thousandth of a bin width, as floats like 0.29 for the 29th edge of bins of 0.01 are, keeps exactly the bins between these edges with unchanged contents, although the quotients that give the bin numbers may be rounded to the wrong side: the correction by one bin applies exactly when needed. The new edges are right up to the same tolerance plus rounding errors.", "quantifier": "every spectrum whose axes start at a whole number of bin widths (up to the tolerance), every bounds and every rounding whose relative error times the number of bin widths is at most 1/10000", "why_tests_cant": "Whether a quotient of floats is just above or just below a whole number depends on every digit of the axis and of the bounds.", "anchors": ["echidna/core/spectra.py:Spectra.shrink", "echidna/core/parameter.py:SpectraParameter.round"]}
{"id": "C128", "title": "Bins, bin centres and boundaries of an axis agree with floats", "statement": "With floats, the centre of a bin is found in that bin again and is filled into that bin; points that are not close to an edge are found in the bin that contains them; the list of centres has exactly one entry per bin, each in its own bin; the boundaries increase strictly, are one more than the bins and end exactly at the upper end. Errors of centres and boundaries are bounded.", "quantifier": "every axis and every rounding whose relative error times the number of bin widths from zero is at most 1/1000 (times the number of bins for the list of centres)", "why_tests_cant": "numpy.arange may give one entry too many or too few with floats; whether it does depends on the digits of the axis.", "anchors": ["echidna/core/parameter.py:SpectraParameter.get_bin", "echidna/core/parameter.py:SpectraParameter.get_bin_centre", "echidna/core/parameter.py:SpectraParameter.get_bin_centres", "echidna/core/parameter.py:SpectraParameter.get_bin_boundaries"]}
{"id": "C129", "title": "Scaling with floats is accurate, keeps the order of the contents and is exact where it should be", "statement": "With floats, scaling stores the requested number of decays, keeps empty cells empty, never reverses the order of two contents under a positive factor and is right up to twice the machine precision. Scaling to the number of decays a spectrum has changes nothing at all; scaling twice to one number is scaling once; scaling to another number and back gives the contents back.", "quantifier": "every spectrum and number of decays; every rounding", "why_tests_cant": "All contents, factors and roundings.", "anchors": ["echidna/core/spectra.py:Spectra.scale"]}
{"id": "C130", "title": "Coarser bins never make a disagreement larger", "statement": "Merging bins does not raise any of the six test statistics, whichever bins are merged: rebinning data and model, projecting both onto fewer parameters, or fitting with a single bin gives at most the statistic of the finer bins. It holds as long as the contents count: observed numbers are zero or at or above the zero threshold, and something is expected where something is observed (Neyman's: both at or above the threshold in every bin); without this it fails.", "quantifier": "every data and model spectrum with the same axes, every way of merging", "why_tests_cant": "An inequality over all contents of all bins and all ways of merging them, with logarithms.", "anchors": ["echidna/fit/test_statistic.py:TestStatistic.compute_statistic", "echidna/core/spectra.py:Spectra.rebin", "echidna/core/spectra.py:Spectra.nd_project", "echidna/fit/fit.py:Fit._funct"]}
{"id": "C131", "title": "Statistics are proportional to the exposure", "statement": "Multiplying data and model by the same positive factor multiplies the Baker-Cousins, Pearson's and Neyman's statistics by this factor, and for the extended likelihood the difference between two models; in particular when data and model spectrum are scaled to so many times their numbers of decays. Contents must be at or above the zero threshold before and after (observed ones may be zero, but for Neyman's statistic).", "quantifier": "every data and model and every positive factor", "why_tests_cant": "An identity over all contents and factors, with logarithms.", "anchors": ["echidna/fit/test_statistic.py:TestStatistic.compute_statistic", "echidna/core/spectra.py:Spectra.scale"]}
{"id": "C132", "title": "A limit excludes every stronger signal, not only the tested ones", "statement": "For fixed data and background each of the six statistics is a convex function of the strength of the signal. So if a limit is set with a fit without floating backgrounds, and some tested scaling is allowed, then every scaling from the limit on is excluded at the confidence level, tested or not, and the true crossing lies between the limit and the tested scaling before it. The same holds after any earlier calls of the fit or of the limit setting. A finer list of scalings gives a limit at most the coarser one, and above every coarser scaling below it.", "quantifier": "every data, background, non-negative signal, list of increasing scalings and threshold; all real scalings", "why_tests_cant": "Only finitely many scalings can be tried; the claim is about all real ones.", "anchors": ["echidna/limit/limit.py:Limit.get_limit", "echidna/fit/fit.py:Fit.fit", "echidna/fit/test_statistic.py:TestStatistic.compute_statistic"]}
{"id": "C133", "title": "A fit to data that the model describes finds the true values", "statement": "If for one combination of the values on the grid the model is exactly the data and constrained parameters have their priors, then the fit by grid search reports a combination for which this is so, with penalty zero and (but for the extended likelihood) statistic zero, whatever was evaluated before. If the floating backgrounds are linearly independent, data made of the fixed background, the backgrounds at true rates and the signal give back exactly these rates.", "quantifier": "every fit with a grid search, every grid that contains the truth, every history of evaluations, all six statistics", "why_tests_cant": "Quantifies over all data, models, grids and earlier evaluations; uses that the statistics vanish only at agreement.", "anchors": ["echidna/fit/fit.py:Fit.fit", "echidna/fit/fit.py:Fit._funct", "echidna/fit/minimise.py:GridSearch.minimise", "echidna/fit/test_statistic.py:TestStatistic.compute_statistic", "echidna/fit/test_statistic.py:TestStatistic.get_penalty_term"]}
{"id": "C134", "title": "Priors, sigmas and grids act on a fit as they should", "statement": "Priors and sigmas do not enter the observed and expected contents. Tightening the constraint of one parameter (a smaller sigma, or one where there was none) never moves its best fit value further from its prior and never lowers the best statistic plus penalty. Trying more values of the parameters never raises it.", "quantifier": "every fit with a grid search, all priors and sigmas, all grids, all histories of evaluations", "why_tests_cant": "Compares two fits over all data, priors and grids; the minimum is over all combinations.", "anchors": ["echidna/fit/fit.py:Fit.fit", "echidna/fit/fit.py:Fit._funct", "echidna/fit/minimise.py:GridSearch.minimise", "echidna/fit/test_statistic.py:TestStatistic.get_penalty_term", "echidna/core/parameter.py:FitParameter"]}
{"id": "C135", "title": "Adding, projecting, rebinning and summing are accurate in floating point arithmetic", "statement": "With a rounding after every addition, and whatever order numpy adds in, project, nd_project, surface and rebin fail exactly as with exact numbers, and otherwise each cell differs from the exact one by at most one rounding per bin merged along each axis, relative to the sum of the absolute values. For spectra of whole numbers with a total below 2^53 they are exact, as is sum; then shrink_to_roi records the true fraction of counts in the region with a single rounding, between 0 and 1. Adding two spectra rounds each cell once, does not depend on their order, and a spectrum without negative contents lowers no cell.", "quantifier": "every spectrum, every rounding that is monotone with bounded relative error, every order of summation in every cell, all dimensions and bin counts", "why_tests_cant": "Quantifies over all contents, all orders of summation and all roundings; a test sees one platform's order.", "anchors": ["echidna/core/spectra.py:Spectra.project", "echidna/core/spectra.py:Spectra.nd_project", "echidna/core/spectra.py:Spectra.surface", "echidna/core/spectra.py:Spectra.rebin", "echidna/core/spectra.py:Spectra.sum", "echidna/core/spectra.py:Spectra.add", "echidna/core/spectra.py:Spectra.shrink_to_roi"]}
{"id": "C136", "title": "Results of a fit do not depend on the order of backgrounds and parameters", "statement": "Listing the floating backgrounds or the fit parameters in another order changes neither whether an evaluation succeeds nor its statistic and penalty, and a fit by grid search over the same values returns with one order if and only if it does with the other, finds the same smallest statistic plus penalty and, if only one combination has it, the same best fit of every parameter.", "quantifier": "every fit with floating backgrounds in the supposed initial state, every permutation of backgrounds and of parameters, every history of evaluations with either order, all values and value lists", "why_tests_cant": "Quantifies over all permutations, spectra and histories; evaluations go through a cache keyed by background names, so an order-dependent defect shows only in particular fits.", "anchors": ["echidna/fit/fit.py:Fit._funct", "echidna/fit/fit.py:Fit.set_floating_backgrounds", "echidna/fit/fit.py:Fit.fit", "echidna/fit/minimise.py:GridSearch.minimise"]}
{"id": "C137", "title": "A fit evaluates exactly the spectra and parameters it was constructed with", "statement": "A fit constructed with data, floating backgrounds and perhaps fixed backgrounds and a signal compares, in every evaluation, the contents of the data in the region of interest with the sum of the contents in the region of each given spectrum: fixed backgrounds scaled to the given numbers of decays, floating ones to the values of their rates, the signal as it is. Its parameters are those of the given configuration followed by those of the backgrounds, and the first fit() hands exactly this to the minimiser. With grid search and one rate for every background, the rates that fit() finds are those of the grid at which statistic plus penalty of these contents are smallest, the first one of the grid in case of ties, and the statistic and penalty it returns are those of these rates. Without floating backgrounds the fit returns the statistic of the data and the sum of fixed backgrounds and signal, whatever the minimiser, and changes no object.", "quantifier": "every region, every collection of spectra on the axes of the data with the region's bounds on bin edges, every configuration of parameters, all values, every history of evaluations before, every minimiser", "why_tests_cant": "The path from the constructor's arguments to an evaluated bin goes through four setters, two rounds of shrinking, lists of backgrounds and of region parameters that are zipped, and a shared cache; tests check single stages on one example.", "anchors": ["echidna/fit/fit.py:Fit.__init__", "echidna/fit/fit.py:Fit.fit", "echidna/fit/fit.py:Fit._funct", "echidna/fit/fit.py:Fit.set_floating_backgrounds", "echidna/fit/fit.py:Fit.make_fixed_background"]}
{"id": "C138", "title": "Projecting can be done before or after other operations", "statement": "Projecting a spectrum (project, nd_project or surface) and changing it can be done in either order: rebinning, cutting at bin edges of the kept axes, smearing and shifting by whole bins along a kept axis, and adding another spectrum give, applied to the projection as a spectrum of its own, exactly the projection of the changed spectrum, with the same axes, numbers of decays and raw events. Smearing along an axis that is left out does not change the projection when no counts are lost.", "quantifier": "every spectrum with any number of axes, every call of the three methods, every accepted rebinning, every set of bounds on bin edges of the kept axes, every sigma and positive weight, every shift by whole bins, every accepted sum", "why_tests_cant": "Each operation locates its axes by position or by name and works cell by cell; that an error in one is not hidden by the other on some shape or order of axes needs an argument over all of them, where tests compare a few totals.", "anchors": ["echidna/core/spectra.py:Spectra.project", "echidna/core/spectra.py:Spectra.nd_project", "echidna/core/spectra.py:Spectra.surface", "echidna/core/spectra.py:Spectra.rebin", "echidna/core/spectra.py:Spectra.shrink", "echidna/core/spectra.py:Spectra.add", "echidna/core/smear.py:EnergySmearLY.weighted_smear", "echidna/core/shift.py:Shift.shift_by_bin"]}
{"id": "C139", "title": "Shifting by whole bins with floats", "statement": "With every operation rounded as in python and numpy, a shift by whole bins either moves every content, to the last digit, by the number of bins that the shift stands for, with zeros where nothing moved to and nothing but the name changed otherwise, or it raises a ValueError. A shift by a multiple of the bin width is accepted.", "quantifier": "every rounding with relative error u, every order of adding up slices, every spectrum with non-negative float contents and any number of axes, every axis whose position, number of bins and shift in units of the bin width are small against 1/u and whose bins are at least 1e-7 wide, every shift up or down", "why_tests_cant": "The source bin is found by computing a bin centre, subtracting the shift and dividing by the width, each with a rounding error; a test on some axes cannot exclude that on another axis or for another shift the quotient falls into the neighbouring bin, and the remainder that decides about acceptance jumps from 0 to the bin width with the last digit of the shift.", "anchors": ["echidna/core/shift.py:Shift.shift_by_bin", "echidna/core/parameter.py:SpectraParameter.get_bin", "echidna/core/parameter.py:Parameter.get_width"]}
{"id": "C140", "title": "Weighted smearing with floats", "statement": "With every operation rounded as in python and numpy, weighted smearing returns a spectrum in which the contents of each cell are distributed over the cells within the window along the smeared axis, in proportion to the weights at their centres; every cell, every sum along the smeared axis and the total are right up to a relative error of 2 (3 bins + 2) u, and nothing but the name and the contents changes.", "quantifier": "every rounding with relative error u, every order of adding up weights, every spectrum with non-negative contents and any number of axes, every smeared axis, every sigma and positive weight function and number of sigmas", "why_tests_cant": "The window is rounded to bin edges, clipped and handed to numpy.arange, whose number of points jumps by one with the last digit of its arguments; a test on some axes says nothing on the others, and rounding errors add up over all bins.", "anchors": ["echidna/core/smear.py:EnergySmearLY.weighted_smear", "echidna/core/smear.py:EnergySmearRes.weighted_smear", "echidna/core/smear.py:RadialSmear.weighted_smear", "echidna/core/smear.py:Smear.get_bounds", "echidna/core/parameter.py:SpectraParameter.round"]}
{"id": "C141", "title": "Spectra are independent of each other", "statement": "In a program that makes several spectra, by the constructor, from files, and by smearing, shifting and scaling other spectra, a spectrum changes only by calls of its own methods: cutting, rebinning, filling, adding to or scaling one spectrum leaves all others as they were.", "quantifier": "every program: any number of spectra and configurations, made from each other in any way, any sequence of method calls, accepted or raising", "why_tests_cant": "Which objects are shared depends on how the spectra of a program came about; the effect shows up in another variable than the one operated on, after any number of further statements.", "anchors": ["echidna/core/spectra.py:Spectra.__init__", "echidna/core/spectra.py:Spectra.shrink", "echidna/core/spectra.py:Spectra.rebin", "echidna/core/spectra.py:Spectra.cut", "echidna/core/spectra.py:Spectra.shrink_to_roi", "echidna/core/shift.py:Shift.shift", "echidna/core/shift.py:Shift.shift_by_bin", "echidna/core/scale.py:Scale.scale", "echidna/core/smear.py:EnergySmearLY.weighted_smear", "echidna/core/smear.py:EnergySmearLY.random_smear"]}
{"id": "C142", "title": "Numbers written without a decimal point", "statement": "Conversions of counts to activities, half-lives and effective masses, light yields for a second smearing and penalty terms do not depend on whether a whole number is written as an integer or as a float.", "quantifier": "every count, livetime, light yield, parameter value, prior and sigma, each an integer or a float", "why_tests_cant": "The docstrings ask for floats, so tests use floats; with integers the result is silently rounded down, and by how much depends on divisibility.", "anchors": ["echidna/calc/decay.py:DBIsotope.counts_to_activity", "echidna/calc/decay.py:DBIsotope.counts_to_half_life", "echidna/calc/decay.py:DBIsotope.counts_to_eff_mass", "echidna/core/smear.py:EnergySmearLY.calc_smear_ly", "echidna/fit/test_statistic.py:TestStatistic.get_penalty_term"]}
{"id": "C143", "title": "Arrays of integers", "statement": "A test statistic of two arrays does not depend on whether whole numbers are stored as integers or as floats. In particular a bin with events where none are expected counts against the expectation.", "quantifier": "every test statistic and every pair of arrays of the same length, each of integers or of floats", "why_tests_cant": "Whether the value differs depends on the divisibility of every bin.", "anchors": ["echidna/fit/test_statistic.py:TestStatistic.compute_statistic"]}
{"id": "C144", "title": "A fit recovers the rates its data have been made of", "statement": "If the data are the sum of the spectra given to the constructor of a fit, fixed backgrounds scaled to the given numbers of decays, floating backgrounds to rates that are on the grid, and the signal, then constructing the fit and calling fit() with a grid search reports exactly these rates as best fit, with penalty zero and (but for the extended likelihood) statistic zero, provided that the floating backgrounds are linearly independent in the region of interest, constrained rates have their priors and no expected content is below the threshold.", "quantifier": "every region with bounds on bin edges, every collection of spectra with the axes of the data, every number of floating backgrounds, every grid that contains the true rates, five of the six statistics", "why_tests_cant": "Quantifies over all spectra, regions and grids, and goes from the constructor through shrinking, scaling, projecting, summing and comparing to the best position on the grid.", "anchors": ["echidna/fit/fit.py:Fit.__init__", "echidna/fit/fit.py:Fit.fit", "echidna/fit/fit.py:Fit._funct", "echidna/fit/minimise.py:GridSearch.minimise", "echidna/core/spectra.py:Spectra.shrink", "echidna/core/spectra.py:Spectra.nd_project"]}
{"id": "C145", "title": "Plots of chi-squared against counts, half-life and mass", "statement": "The graphs of chi-squared against the signal have one point for every count, in the order of the counts: at the count itself; at the inverse half-life, which is proportional to the counts; or at the effective mass, whose square is proportional to the inverse half-life. With a penalty configuration there is a second line at the same counts. Without a converter, plots against half-life or mass are refused. The histogram of chi-squared per bin has each chi-squared in its bin.", "quantifier": "every list of counts (also zero) and chi-squareds, every isotope with a positive number of atoms", "why_tests_cant": "Quantifies over all lists of counts and all isotopes; an exact proportionality on the axis is invisible in a picture.", "anchors": ["echidna/output/plot_chi_squared_root.py:chi_squared_vs_signal", "echidna/output/plot_chi_squared_root.py:chi_squared_vs_half_life", "echidna/output/plot_chi_squared_root.py:chi_squared_vs_mass", "echidna/output/plot_chi_squared.py:chi_squared_vs_signal", "echidna/output/plot_root.py:plot_chi_squared_per_bin"]}
{"id": "C146", "title": "Maps of chi-squared, turn-on and push-pull", "statement": "The map of chi-squareds has a row for every value of the systematic and a column for every count, with the average over the trials. The turn-on map shows by how much floating the systematic raises the chi-squared on average. The push-pull map shows the penalty minus the average of the rest of the chi-squared, so it is positive exactly where the penalty dominates. The plot of the penalty shows its values and can be saved.", "quantifier": "every number of counts, values and trials (not zero), all chi-squareds and penalties", "why_tests_cant": "Quantifies over all arrays of chi-squareds; a transposed or averaged-over-the-wrong-axis map looks plausible on a sample.", "anchors": ["echidna/output/plot_chi_squared.py:chi_squared_map", "echidna/output/plot_chi_squared.py:turn_on", "echidna/output/plot_chi_squared.py:push_pull", "echidna/output/plot_chi_squared.py:penalty_vs_systematic"]}
{"id": "C147", "title": "Limits from data, backgrounds and a signal", "statement": "A fit is constructed from data, fixed backgrounds and possibly floating backgrounds, a limit from this fit and a signal, and a limit is asked for. Both constructors accept their arguments, and the limit is determined by the given spectra alone: with the expected contents in the region being the fixed backgrounds scaled to the given decays, plus the floating ones scaled to their rates, plus the signal scaled to the tested number of decays, it is the first tested scaling, from the one with the smallest statistic on, at which the statistic (plus penalties) exceeds that without signal by more than the threshold; if there is none, LimitError is raised. Rates of floating backgrounds are fitted anew by the grid search for every scaling, at the first combination of values with the smallest sum of statistic and penalties. Earlier calls make no difference. If the signal is nowhere negative and no background floats, every scaling above the limit is excluded too, tested or not, and the tested scaling directly below is allowed.", "quantifier": "every data, fixed and floating backgrounds, signal and region that can be cut at bin edges, every statistic, every grid of rates, every list of scalings and thresholds, every sequence of earlier calls", "why_tests_cant": "Quantifies over all spectra, regions and call histories from the constructor to the limit; a sample cannot show that what lies between the tested scalings or outside the region has no influence.", "anchors": ["echidna/fit/fit.py:Fit.__init__", "echidna/fit/fit.py:Fit.set_signal", "echidna/limit/limit.py:Limit.__init__", "echidna/limit/limit.py:Limit.get_limit"]}
{"id": "C148", "title": "Accuracy of chi-squareds computed with floats", "statement": "In floating point arithmetic the chi-squareds of Pearson and Neyman, in total or per bin, and the penalty terms are the exact ones up to the relative error of a few roundings: seven per bin, one more for every bin added up, six for a penalty term. No accuracy is lost by cancellation. They are never negative, and they are zero exactly when the exact ones are (a penalty exactly when the parameter is at its prior). A model that is not worse than another by the computed sums of statistic and penalties is not worse by more than twice that relative error.", "quantifier": "every rounding with a relative error of at most 1/4, python's floats among them; every data and expectation of any number of bins whose contents are zero or at least 1e-30; every number of parameters with values, priors and sigmas; every set of models", "why_tests_cant": "Rounding errors depend on all bits of all contents; tests compare with a tolerance on samples, which shows neither that no contents cause a larger error nor that the computed zero is the exact zero.", "anchors": ["echidna/fit/test_statistic.py:Pearson._compute", "echidna/fit/test_statistic.py:Pearson._get_stats", "echidna/fit/test_statistic.py:Neyman._compute", "echidna/fit/test_statistic.py:Neyman._get_stats", "echidna/fit/test_statistic.py:BakerCousinsLL.get_penalty_term", "echidna/fit/test_statistic.py:TestStatistic.compute_statistic"]}
{"id": "C149", "title": "Accuracy of statistics with logarithms computed with floats", "statement": "In floating point arithmetic the Baker-Cousins statistics and the extended likelihood are off by at most a few roundings of the numbers they are computed from: with logarithms right up to the relative error w, by 2w plus 3n+8 roundings times the sum over the n bins of contents, expectation and contents times logarithm; per bin by w plus eight roundings. They are not negative, and exactly zero when data and expectation agree in every bin. BakerCousinsChi per bin, which compares the sum of the bins with the total, does not raise because of rounding errors. A model that is not worse than another by the computed sums of statistic and penalties is not worse by more than the two errors.", "quantifier": "every rounding, python's floats among them; every logarithm with a relative error of at most 1/100; every data and expectation of any number of bins n with (n+6)u at most 1/100 whose contents are zero or at least 1e-30; every set of models with any number of parameters", "why_tests_cant": "Cancellation depends on all bits of all contents; a test with a tolerance does not show how large the error can become, nor that data exist for which the computed statistic is negative.", "anchors": ["echidna/fit/test_statistic.py:BakerCousinsChi._compute", "echidna/fit/test_statistic.py:BakerCousinsChi._get_stats", "echidna/fit/test_statistic.py:BakerCousinsChiUp._compute", "echidna/fit/test_statistic.py:BakerCousinsLL._compute", "echidna/fit/test_statistic.py:BakerCousinsLL._get_stats", "echidna/fit/test_statistic.py:ExtendedLL._compute", "echidna/fit/test_statistic.py:ExtendedLL._get_stats"]}
{"id": "C150", "title": "Fits with pre-made spectra", "statement": "A fit with pre-made spectra expects in every bin the fixed background, plus for every floating background the spectrum in the file for the current values of the global parameters, cut to the range and bins of the data and scaled from the number of decays in the file to the value of the rate, plus the spectrum in the file of the signal scaled to the number of decays of the signal. This does not depend on what has been evaluated before, and the spectra of the fit are not changed. If the files hold what applying the global parameters gives, with any number of decays, the fit expects what the fit expects that applies them itself. The file for a spectrum has the name of the file of the spectrum with one tag per global parameter, in the folder of the dimension below the base directory with one folder per parameter; the base directory can be changed with set_pre_made_dir. Without a file the evaluation raises what loading raises.", "quantifier": "every fit with any number of global parameters, floating backgrounds and axes, with and without fixed background and signal; every collection of files that fit the data; every sequence of evaluations before, with nonzero rates, evaluations that raise among them; every location and base directory", "why_tests_cant": "What is in the dictionary of loaded spectra depends on the whole sequence of evaluations: spectra in it have been rescaled and cut, and unit tests look at one evaluation with files that are there.", "anchors": ["echidna/fit/fit.py:Fit._funct", "echidna/fit/fit.py:Fit.load_pre_made", "echidna/fit/fit.py:Fit.set_pre_made_dir", "echidna/core/parameter.py:ResolutionParameter.get_pre_convolved", "echidna/core/parameter.py:ScaleParameter.get_pre_convolved", "echidna/core/parameter.py:ShiftParameter.get_pre_convolved"]}
{"id": "C151", "title": "Sensitivity studies", "statement": "The sensitivity study of a fit adds to its data, in every bin, the fixed background and every floating background scaled from its decays to the prior of its rate, and leaves the floating backgrounds scaled to their priors and everything else as it was. Afterwards rates still are numbers of decays of the backgrounds as they were given: an evaluation compares the blank data plus backgrounds at their priors with the backgrounds at the current rates. If the data were empty in the region, the following fit finds exactly the priors, with statistic and penalty zero. The study works for fits without fixed background and with priors that are zero.", "quantifier": "every fit made from data, fixed and floating backgrounds with any number of axes and backgrounds; every prior; every sequence of evaluations after the study; every grid that contains the priors", "why_tests_cant": "The study rescales the spectra that the fit shares with the caller and refills its data in place; whether rates keep their meaning depends on all spectra, priors and earlier evaluations, and the script has no tests.", "anchors": ["echidna/scripts/klz_majoron_limits.py:main", "echidna/fit/fit.py:Fit.set_data", "echidna/fit/fit.py:Fit.get_fixed_background", "echidna/core/spectra.py:Spectra.scale", "echidna/core/spectra.py:Spectra.add"]}
{"id": "C152", "title": "Expected limits", "statement": "A limit set after the sensitivity study of a fit is the limit of the filled-up data: the rates are fitted anew for every scaling of the signal, and the limit is the first tested scaling, from the best one on, at which statistic plus penalty exceed the statistic of the best fit without signal by more than the threshold, where data are the given ones plus the backgrounds at their priors, and rates and scalings are numbers of decays of the spectra as they were given. If the data were empty in the region and the priors are on the grid, the expected limit is the first tested scaling at which the smallest sum of statistic and penalty over all rates exceeds the threshold; this sum is zero without signal, so the best scaling is zero.", "quantifier": "every fit made from data, fixed and floating backgrounds with one rate each, with any number of axes and backgrounds; every signal; every prior that is not zero; every grid of rates; every increasing list of scalings; every threshold; every sequence of earlier limits and statistics", "why_tests_cant": "The study rescales the backgrounds in place, the limit rescales the signal in place and fits anew for every scaling; the limit depends on all contents, priors, grids and earlier calls, and only a script that needs data files combines study and limit.", "anchors": ["echidna/scripts/klz_majoron_limits.py:main", "echidna/limit/limit.py:Limit.get_limit", "echidna/limit/limit.py:Limit.__init__", "echidna/fit/fit.py:Fit"]}
{"id": "C153", "title": "Results do not depend on earlier normalisation", "statement": "Scaling spectra before a fit is made from them changes no result. The fixed and floating backgrounds may have been scaled to any non-zero numbers of decays, any number of times; then fit() finds the same best rates with the same statistic and the same penalty. For a limit the signal may have been scaled as well, and the outcome, the limit or LimitError, is the same: priors, rates and scalings are numbers of decays, not factors of the spectrum handed in.", "quantifier": "every fit made from data, fixed and floating backgrounds with one rate each, with any number of axes and backgrounds; every list of scalings of its backgrounds and signal; every grid of rates; every increasing list of tested scalings; every threshold; every sequences of earlier limits and statistics", "why_tests_cant": "The equality holds between two whole executions, for all contents and all numbers of decays; every spectrum is shrunk, projected and rescaled several times between the scaling and the result, and one forgotten factor shows only for spectra that are not normalised to their prior.", "anchors": ["echidna/core/spectra.py:Spectra.scale", "echidna/fit/fit.py:Fit", "echidna/fit/fit.py:Fit.fit", "echidna/limit/limit.py:Limit", "echidna/limit/limit.py:Limit.get_limit"]}
{"id": "C154", "title": "Limits scale with exposure and with efficiency", "statement": "A limit that was set once can be carried over to a larger exposure or another efficiency. When the data are scaled to k times their decays and the fixed backgrounds are given with k times their decays, then testing k times the scalings against k times the threshold gives k times the limit, or LimitError exactly when it was LimitError. When another signal has in every bin of the region e times the contents per decay, then testing the scalings divided by e against the same threshold gives the limit divided by e, or LimitError exactly when it was. Neither depends on limits and statistics asked for before.", "quantifier": "every fit with fixed backgrounds (and, for the efficiency, any number of floating ones), any number of axes and bins, each of the six statistics; every factor above zero; every increasing list of tested scalings; every threshold; every sequences of earlier limits and statistics", "why_tests_cant": "The relation is between two whole executions for all contents, factors and thresholds. It fails for bins that the statistics treat as empty (less than about 1e-34), so it can only be claimed once it is known exactly which contents those are.", "anchors": ["echidna/core/spectra.py:Spectra.scale", "echidna/fit/fit.py:Fit", "echidna/limit/limit.py:Limit.get_limit", "echidna/limit/limit.py:Limit.get_statistics", "echidna/fit/test_statistic.py:BakerCousinsChi", "echidna/fit/test_statistic.py:Pearson", "echidna/fit/test_statistic.py:Neyman"]}
{"id": "C155", "title": "The summary of a limit describes that limit", "statement": "The summary that get_limit logs names the scaling of the limit, and its best fits, penalty terms and test statistic are the results of the fit at that scaling, for every fit parameter with its name, prior and sigma. When there is no limit, the summary is about the scaling with the largest test statistic, and the message of the LimitError gives the largest test statistic and the threshold. Writing the summary changes neither the limit nor the exception.", "quantifier": "every increasing list of scalings; every fit with a plain number as statistic, any number of differently named parameters, with or without sigma; every threshold and given minimum", "why_tests_cant": "Which results are shown depends on where among the scalings the lowest statistic is. A test whose best scaling is the first one sees nothing wrong, because there the position of the limit and its distance from the best scaling are the same; the claim is about every position.", "anchors": ["echidna/limit/limit.py:Limit.get_limit", "echidna/fit/fit_results.py:LimitResults.get_best_fit", "echidna/fit/fit_results.py:LimitResults.get_penalty_term", "echidna/fit/fit_results.py:LimitResults.get_full_stats"]}
{"id": "C156", "title": "A fit with systematic parameters finds the best combination", "statement": "A Fit is made from data, floating backgrounds with one rate each, global parameters that shift, scale or smear an axis, and perhaps fixed backgrounds and a signal. Its first fit() by grid search then finds the first combination of the values of all parameters with the smallest sum of statistic and penalties, where for each combination the floating backgrounds are the given spectra, cut to the region, with the global parameters applied one after the other, and scaled to the rates, and the signal is the given one, cut, with the last global parameter applied (of several the code applies only the last to the signal, see C91); and it returns statistic and penalty there. When the data are what is expected at one of the combinations and at no other, exactly this combination is found, with statistic and penalty zero.", "quantifier": "every data spectrum, fixed and floating backgrounds and signal, every region, every number of global parameters and rates, every grid of values", "why_tests_cant": "The convolved spectra are remembered under names made of texts of values while the grid is searched, and the objects are changed at every point of the grid; whether each point of the grid gets its own spectra depends on the whole history of the search. Tests evaluate single points.", "anchors": ["echidna/fit/fit.py:Fit.__init__", "echidna/fit/fit.py:Fit.fit", "echidna/fit/fit.py:Fit._funct", "echidna/fit/minimise.py:GridSearch.minimise", "echidna/core/config.py:GlobalFitConfig"]}
{"id": "C157", "title": "Results looked up between the values of a grid", "statement": "Asking a grid search for the penalty at parameter values that are not on the grid gives the penalty of a neighbouring grid point: no other value of a parameter lies between the value asked for and the value of the point, or the two agree up to numpy's tolerance. Values outside the range of a parameter are refused with an IndexError.", "quantifier": "every grid of any number of parameters and all values asked for", "why_tests_cant": "Which grid value is taken depends on a formula with the edges and the number of bins that counts one step more than there are; at the edges and for other numbers of bins an index could be one too large. Tests look up a few values.", "anchors": ["echidna/core/parameter.py:FitParameter.get_bin", "echidna/fit/minimise.py:GridSearch.get_penalty_at"]}
{"id": "C158", "title": "Results put into a grid as a whole or point by point", "statement": "A grid search accepts an array of statistics exactly when it has an axis for every fit parameter, followed by the axes of the spectrum if it keeps one number per bin, and an array of penalty terms exactly when it has an axis for every fit parameter; others raise a ValueError. Afterwards the total of every grid point, asked for alone or for all points together, is the statistic, summed over bins, plus the penalty term put in. Setting statistic and penalty term of every grid point one after the other, in any order, gives the same answers.", "quantifier": "every grid of any number of parameters, with and without statistics per bin, all arrays and all orders of the grid points", "why_tests_cant": "The order of the points and the shapes of the arrays are unbounded, and later assignments could overwrite earlier points through broadcasting. Tests set and read a few points.", "anchors": ["echidna/fit/minimise.py:GridSearch.set_stats", "echidna/fit/minimise.py:GridSearch.set_penalty_terms", "echidna/fit/minimise.py:GridSearch.set_stat", "echidna/fit/minimise.py:GridSearch.set_penalty_term", "echidna/fit/minimise.py:GridSearch.get_stats"]}
{"id": "C159", "title": "Limits with systematic parameters", "statement": "A fit by grid search is constructed from data, floating backgrounds with one rate each, global parameters that shift, scale or smear an axis, and perhaps fixed backgrounds, a limit from this fit and a signal, and a limit is asked for. Both constructors accept their arguments. For every tested scaling of the signal all parameters, global ones and rates, are fitted anew: at the first combination of their values with the smallest sum of statistic and penalties, where for each combination the floating backgrounds are the given spectra, cut to the region, with the global parameters applied one after the other, scaled to their rates, and the signal is the given one with the last global parameter applied, scaled to the tested number of decays. The limit is the first tested scaling, from the one with the smallest statistic on, at which the statistic with the penalties exceeds that of the best fit without signal by more than the threshold; if there is none, LimitError is raised. Earlier limits and requests for statistics make no difference.", "quantifier": "every data, fixed and floating backgrounds, signal and region that can be cut at bin edges, every number of global parameters, every statistic, every grid of values, every list of positive scalings and every threshold, every sequence of earlier calls", "why_tests_cant": "The convolved signal is remembered with the number of decays it had when it was made, and rescaled in later fits; that each tested scaling still gets the signal scaled to it, for every parameter value and after every earlier call, is a statement about unbounded histories. Tests set single limits.", "anchors": ["echidna/fit/fit.py:Fit.__init__", "echidna/fit/fit.py:Fit._funct", "echidna/fit/fit.py:Fit.fit", "echidna/fit/minimise.py:GridSearch.minimise", "echidna/limit/limit.py:Limit.__init__", "echidna/limit/limit.py:Limit.get_limit"]}
{"id": "C160", "title": "Signals stronger than the limit, with floating backgrounds", "statement": "A limit is set with a fit by grid search over the rates of the floating backgrounds. Call a signal strength allowed at some rates if the statistic there, with the penalties, is above that of the best fit without signal by no more than the threshold. At the limit no combination of values of the grid is allowed. If a weaker and a stronger signal are both allowed, at rates in the range of the grid, then the limit itself is allowed at some rates in that range: a stronger allowed signal, tested or not, can only be missed because of the steps of the grid. That no stronger signal is allowed at values of the grid does not hold: the rates can be such that the scalings 0, 6 and 12 give the limit 6, while 0 and 12 alone give no limit.", "quantifier": "every data, fixed and floating backgrounds, signal and region that can be cut at bin edges, every statistic, every grid of values, every list of scalings and every threshold, every sequence of earlier calls; every weaker and every stronger signal, whether tested or not, and all rates between the values of the grid", "why_tests_cant": "It is about all signal strengths and all rates between the values of the grid, none of which the code evaluates. Tests can only look at the ones evaluated.", "anchors": ["echidna/limit/limit.py:Limit.get_limit", "echidna/fit/fit.py:Fit._funct", "echidna/fit/minimise.py:GridSearch.minimise", "echidna/core/spectra.py:Spectra.scale"]}
{"id": "C161", "title": "A floating background with one possible rate is a fixed background", "statement": "A fit by grid search whose rate of one floating background has a single value finds the same values of the other rates and the same statistic as the fit that is given this background as a fixed one with as many decays; its penalty is larger by the penalty of that rate at the value. When the rate has other values too, statistic plus penalty are at most those of the fit with the background fixed, plus the penalty of the rate at the fixed value: a floating background never fits worse. A limit set with the one fit and a limit set with the other have the same outcome when the threshold of the one with the floating background is larger by this penalty; so for the same threshold the limits agree if the rate has no sigma or its value is the prior. All of this also holds when every floating background is given as a fixed one, so that nothing floats any more.", "quantifier": "every fit made from data, fixed and floating backgrounds and perhaps a signal, with any number of axes and backgrounds, every position of the background among the floating ones and among the fixed ones, every grid, every list of scalings and threshold, every sequence of earlier limits and statistics", "why_tests_cant": "It compares two differently configured programs, in which the background goes through different code (constructor of the total fixed background, or evaluation with the cache of convolved spectra), for all spectra and grids.", "anchors": ["echidna/fit/fit.py:Fit.__init__", "echidna/fit/fit.py:Fit.make_fixed_background", "echidna/fit/fit.py:Fit._funct", "echidna/fit/minimise.py:GridSearch.minimise", "echidna/limit/limit.py:Limit.get_limit"]}
{"id": "C162", "title": "Results of fits and limits depend on the contents of the region only", "statement": "A fit by grid search finds the same best values, statistic and penalty, and a limit has the same outcome, when the spectra are replaced by others with the same axes, settings and contents inside the region of interest but other contents outside it, and other numbers of raw events. The same holds when all spectra have been cut with shrink, in any order, to a range that contains the region and whose bounds are bin edges.", "quantifier": "every fit made from data, fixed and floating backgrounds and perhaps a signal, with any number of axes and backgrounds, every grid, every list of scalings and threshold, every sequence of earlier limits and statistics, all contents outside the region, every order of cutting", "why_tests_cant": "It compares two runs whose inputs differ in all the bins outside the region; a test fixes both spectra, and cannot exclude that some bin outside matters through scaling, projection or the cache.", "anchors": ["echidna/fit/fit.py:Fit.__init__", "echidna/fit/fit.py:Fit.shrink_spectra", "echidna/fit/fit.py:Fit._funct", "echidna/core/spectra.py:Spectra.shrink", "echidna/fit/minimise.py:GridSearch.minimise", "echidna/limit/limit.py:Limit.get_limit"]}
{"id": "C163", "title": "Spectra that hold nothing in the region change nothing", "statement": "A background that holds nothing in the region of interest does not influence a fit or a limit. As a fixed background, it can be left out with the same best fits, statistic, penalty and outcome of limits. As a floating background, it can be left out with the same best values of the other rates and the same statistic; its own rate is set to the first of its values with the smallest penalty, and this penalty is all that is added. A limit on a signal that holds nothing in the region does not exist: get_limit raises LimitError for every list of scalings and every threshold that is not negative.", "quantifier": "every fit made from data, fixed and floating backgrounds and perhaps a signal, with any number of axes and backgrounds, every position of the background, every contents outside the region, every grid, every list of scalings and threshold, every sequence of earlier limits and statistics", "why_tests_cant": "It compares differently configured programs for all spectra, grids and histories; a test shows one list of scalings and one threshold, and the case in which a limit is reported for a signal that is not there appears only for particular penalties and thresholds.", "anchors": ["echidna/fit/fit.py:Fit.__init__", "echidna/fit/fit.py:Fit.make_fixed_background", "echidna/fit/fit.py:Fit._funct", "echidna/fit/minimise.py:GridSearch.minimise", "echidna/limit/limit.py:Limit.get_limit"]}
{"id": "C164", "title": "Limits at several confidence levels with one fit", "statement": "The limits at several confidence levels may be read from one Limit object, in any order. The threshold has no influence on the state left behind by get_limit, so later calls return the same whatever thresholds were used before. A limit at a higher threshold is never below the limit at a lower threshold, and if there is a limit at the higher threshold, there is one at the lower. If LimitError is raised for a threshold, it is raised for every higher one, and if any exception is raised for a threshold, a higher one raises an exception as well.", "quantifier": "every fit and limit whose scalings increase, every state of fit and spectra, every number and order of thresholds, every sequence of other calls between", "why_tests_cant": "The order of thresholds and calls is unlimited, and the claim compares the outcome of every order with the outcome of one call on a new object; a test fixes one order and one spectrum.", "anchors": ["echidna/limit/limit.py:Limit.get_limit", "echidna/fit/fit.py:Fit.fit"]}
{"id": "C165", "title": "Limits from different lists of scalings agree up to their steps", "statement": "Limits on the same signal with the same threshold, but with different lists of scalings, agree up to the steps of the lists: every scaling tested for one list below its limit is also below the limit from the other list, and if the limit from one list is itself a scaling of the other list, the limit from the other list is not above it. If LimitError is raised for one list, all of its scalings are below the limit found with the other. In particular a finer list that contains the coarser one gives a limit that is not above the limit of the coarser one. For expected limits, after the sensitivity study, the last sentence also holds when rates of backgrounds are fitted; both limits are the same when the finer list finds a scaling of the coarser one, and if the finer list gives LimitError, so does the coarser one.", "quantifier": "every counting fit made from data and fixed backgrounds, with any number of axes, every signal without negative contents, every two lists of scalings with an allowed scaling, every threshold, every sequence of earlier calls on both limits; for expected limits also every number of floating backgrounds, every grid, and every signal", "why_tests_cant": "It compares two programs for all spectra and all pairs of lists; a test of one pair says nothing about another one, and the first crossing could be missed by a coarse list if the statistic had several minima.", "anchors": ["echidna/limit/limit.py:Limit.__init__", "echidna/limit/limit.py:Limit.get_limit", "echidna/fit/fit.py:Fit.__init__", "echidna/fit/test_statistic.py"]}
{"id": "C166", "title": "Fixed backgrounds may be combined before a fit", "statement": "Instead of several fixed backgrounds with their numbers of decays, one spectrum can be given that was made by scaling each of them to its number of decays and adding them up, with the sum of the numbers. Fits find the same rates, statistic and penalty, and limits have the same outcome. More generally only the sum of the scaled contents of the fixed backgrounds in each bin of the region matters for fits and limits.", "quantifier": "every fit made from data, fixed and floating backgrounds and perhaps a signal, with any number of axes and backgrounds, every two collections of fixed backgrounds with the same sum of contents in the region, every grid, list of scalings and threshold, every sequence of earlier limits and statistics", "why_tests_cant": "It compares two programs for all spectra, collections, grids and histories, and the two programs scale, shrink and add in different orders; a test compares them for one collection.", "anchors": ["echidna/fit/fit.py:Fit.make_fixed_background", "echidna/fit/fit.py:Fit.__init__", "echidna/core/spectra.py:Spectra.scale", "echidna/core/spectra.py:Spectra.add", "echidna/limit/limit.py:Limit.get_limit"]}
{"id": "C167", "title": "With single_bin only the numbers of events in the region matter", "statement": "With single_bin a fit or a limit depends on each spectrum only through the number of its events in the region of interest (and its number of decays). Two programs with spectra of different binning or different shapes in the region, but the same numbers of events in the region, find the same rates, statistic and penalty, and have the same outcome of every limit. In particular all spectra may be rebinned before, as long as the bounds of the region are still edges of bins.", "quantifier": "every fit with single_bin made from data, fixed and floating backgrounds and perhaps a signal, with any number of axes and bins, every other binning and contents with the same numbers of events in the region, every numbers of bins for rebin that divide the old ones, every grid, list of scalings and threshold, every sequence of earlier limits and statistics", "why_tests_cant": "It compares two programs for all pairs of binnings and contents; shrinking to the region, projecting, scaling and adding happen on arrays of different shapes before the sum is taken. A test compares them for one pair.", "anchors": ["echidna/fit/fit.py:Fit._funct", "echidna/fit/fit.py:Fit.__init__", "echidna/core/spectra.py:Spectra.rebin", "echidna/core/spectra.py:Spectra.shrink", "echidna/limit/limit.py:Limit.get_limit"]}
{"id": "C168", "title": "Limits move the right way with more events, background or signal", "statement": "For limits without floating backgrounds: with more observed events in some bins and everything else the same, the limit on a signal is not smaller; with more expected background and the same observed events it is not larger; with a signal that leaves more events for each decay, in the same proportions, it is not larger. When no limit is found in one of these cases (LimitError), none is found in a case with more events, less background or less signal. Behind this, more observed events never make a larger expectation look worse compared to a smaller one, for any of the six statistics. With floating backgrounds more events can make a limit smaller, as they may be taken for background.", "quantifier": "all observations and expectations in any number of bins, all six statistics, every two programs with data, fixed backgrounds and a signal without negative contents, every list of scalings that are not negative, every threshold, every sequence of earlier limits and statistics", "why_tests_cant": "It orders the outcomes of all pairs of programs; get_limit looks for the first crossing after the best of the tested scalings, and both the best scaling and the crossing move. A test checks the order for one pair.", "anchors": ["echidna/limit/limit.py:Limit.get_limit", "echidna/fit/test_statistic.py:BakerCousinsChi", "echidna/fit/test_statistic.py:BakerCousinsChiUp", "echidna/fit/test_statistic.py:BakerCousinsLL", "echidna/fit/test_statistic.py:Neyman", "echidna/fit/test_statistic.py:Pearson", "echidna/fit/test_statistic.py:ExtendedLL"]}
{"id": "C169", "title": "Freedom of the backgrounds weakens a limit", "statement": "A limit set with floating backgrounds is not stronger than the limit set with the same backgrounds fixed at the rates of the best fit without signal: it is not smaller, and when the limit with fixed backgrounds raises LimitError, so does the one with floating backgrounds. This holds for the same threshold when the best rates have no penalty (rates without sigma, or at their priors), and otherwise when the threshold with floating backgrounds is larger by their penalty. For the same threshold it is false otherwise: Limit adds the penalties to the statistic of every scaling but not to that of the fit without signal it subtracts, so a background that floats can make the limit stronger.", "quantifier": "every fit made from data, fixed and floating backgrounds with one rate each, with any number of axes and backgrounds; every signal without negative contents; every grid of rates; every increasing list of scalings that contains zero; every threshold that is not negative; all six statistics; every sequence of earlier limits and statistics", "why_tests_cant": "It orders the outcomes of two differently configured programs for all spectra, grids and thresholds; the order rests on the convexity of the statistics and on the best rates. A test checks one pair, and finds the exception only with particular priors and sigmas.", "anchors": ["echidna/limit/limit.py:Limit.get_limit", "echidna/limit/limit.py:Limit.__init__", "echidna/fit/fit.py:Fit.__init__", "echidna/fit/fit.py:Fit.make_fixed_background", "echidna/fit/minimise.py:GridSearch.minimise"]}
{"id": "C170", "title": "Chi-squared and likelihood give the same limits", "statement": "A fit by grid search with the chi-squared of Baker and Cousins and the same fit with their likelihood find the same rates, and statistic and penalty of the first are twice those of the second. A limit set with the chi-squared has the same outcome as the limit set with the likelihood and half the threshold. The limits set with the likelihood of Baker and Cousins and with the extended likelihood agree for every threshold, if no floating background has a sigma and no bin is compared with an expectation that counts as zero. When rates have sigmas this is false: the penalty is halved for the one likelihood but not for the other, and the limits differ.", "quantifier": "every fit made from data, fixed and perhaps floating backgrounds with one rate each, with any number of axes and backgrounds; every signal; every grid of rates; every increasing list of scalings; every threshold; every sequence of earlier limits and statistics", "why_tests_cant": "It equates the outcomes of two differently configured programs for all spectra, grids and thresholds, through the statistic, the penalties, the minimisation and the search for the limit. Tests compare statistics of given arrays, and one of the three classes computes its penalty in another way, which shows only with sigmas.", "anchors": ["echidna/fit/test_statistic.py:BakerCousinsChi", "echidna/fit/test_statistic.py:BakerCousinsLL", "echidna/fit/test_statistic.py:ExtendedLL", "echidna/fit/test_statistic.py:TestStatistic.get_penalty_term", "echidna/fit/minimise.py:GridSearch.minimise", "echidna/limit/limit.py:Limit.get_limit"]}
{"id": "C171", "title": "Expected limits are never stronger with coarser bins", "statement": "When the expected background is what is observed, the limit set bin by bin is not larger than the limit set from merged bins, in particular not larger than the limit set with single_bin; and if no tested scaling is excluded bin by bin, none is with merged bins. A fit by grid search with single_bin finds a sum of statistic and penalty that is not larger than that of the same fit bin by bin. For observed data that fluctuate the statement about limits is false: merging bins may strengthen the limit.", "quantifier": "every grouping of bins into merged ones; every background that counts in every bin and every signal that is not negative; every increasing list of scalings that contains zero; every threshold; all six statistics; every sequence of earlier limits and statistics; for fits every grid of rates and any number of backgrounds", "why_tests_cant": "It orders the outcomes of two programs for all spectra and groupings; behind it is the inequality of C130 (merging does not raise a statistic), which holds for each statistic for another reason, and the fact that the best scaling of the expected background is zero. Tests compare statistics of a few given arrays and never limits with different bins.", "anchors": ["echidna/fit/fit.py:Fit._funct", "echidna/fit/fit.py:Fit.fit", "echidna/fit/test_statistic.py:TestStatistic.compute_statistic", "echidna/limit/limit.py:Limit.get_limit"]}
{"id": "C172", "title": "Bins without signal do not matter for limits over fixed backgrounds", "statement": "A limit on a signal over fixed backgrounds, compared bin by bin, depends on the bins with signal only: two programs with the same observed events, background and signal in those bins, in whatever order, have the same outcome, whatever is observed and expected in bins without signal and however many of these there are. With floating backgrounds this is false, because there the bins without signal decide about the rates.", "quantifier": "every two programs, with any spectra and any number of axes and bins, whose bins with signal agree up to their order; all six statistics; every increasing list of scalings that are not negative; every threshold; every sequence of earlier limits and statistics", "why_tests_cant": "It says that a part of the data has no influence on the result, for all contents of that part; a test can only vary a few contents. The best scaling and the subtraction of the statistic without signal are both needed for it: without either the side bands would shift the limit.", "anchors": ["echidna/fit/fit.py:Fit._funct", "echidna/fit/test_statistic.py:TestStatistic.compute_statistic", "echidna/limit/limit.py:Limit.get_limit"]}
{"id": "C173", "title": "Expected limits move the right way with background, signal and exposure", "statement": "When the expected background is what is observed, the limit does not get smaller with more background in any of the bins, and does not get larger with more signal for each decay in any of the bins, nor with a larger exposure (background and signal times one factor); and where one of the two programs tested finds no limit, the weaker one finds none either. (With the observed events held fixed, more background strengthens a limit instead, C168. When rates of backgrounds are fitted, more signal can weaken an expected limit, when it makes the signal look like a background.) More exposure never weakens an expected limit when rates are fitted either, if their priors and values grow with the exposure and their uncertainties no faster.", "quantifier": "every two programs with fixed backgrounds whose backgrounds, signals or exposures are ordered bin by bin, with any number of axes and bins; all six statistics; every increasing list of scalings that contains zero; every threshold; every sequence of earlier limits and statistics; for exposure also every two programs with floating backgrounds, each with one rate of its own, and every grid of values that contains the priors (not the extended likelihood)", "why_tests_cant": "Monotonicity over all backgrounds and signals is an inequality between functions (for the likelihoods it needs b log(1 + s/b) to grow with b); tests compare a few numbers and would not notice a wrong sign or clamp elsewhere. It passes through the constructors, the best scaling and the search for the limit.", "anchors": ["echidna/fit/fit.py:Fit._funct", "echidna/fit/test_statistic.py:TestStatistic.compute_statistic", "echidna/limit/limit.py:Limit.get_limit"]}
{"id": "C174", "title": "A range of scalings that goes far enough gives a limit", "statement": "If somewhere in the region there is some signal, then for every threshold a limit is found, instead of LimitError, in every list of scalings that goes far enough; how far depends on neither the other scalings nor the calls made before. This holds whatever the observed events and backgrounds, also when rates of backgrounds are fitted anew for every scaling, and also for expected limits, after the sensitivity study. (For the extended likelihood the signal must be nowhere negative. Without signal there is no limit at all, C163.)", "quantifier": "every data, fixed and floating backgrounds, signal and region; all six statistics; every grid of rates; every threshold; every increasing list of scalings; every sequence of earlier limits and statistics", "why_tests_cant": "That some scaling is far enough for every threshold is a statement about the behaviour of the statistic at infinity, with the rates fitted at each scaling; no finite number of scalings shows it.", "anchors": ["echidna/fit/fit.py:Fit._funct", "echidna/fit/test_statistic.py:TestStatistic.compute_statistic", "echidna/limit/limit.py:Limit.get_limit"]}
{"id": "C175", "title": "Weaker constraints and finer grids never give stronger expected limits", "statement": "Expected limits are set by sensitivity study and limit. With a larger sigma on the rate of any background, or none, and with more values on the grids of rates, the expected limit is never smaller: if a limit is found then, one that is not larger is found with the tighter constraints and coarser grid; and if LimitError is raised with these, it is raised without them too. In the same way a background that floats never gives a stronger expected limit than the same background fixed at its prior.", "quantifier": "every two programs that differ in sigmas of rates and in grids that contain the priors; any number of axes and backgrounds; every statistic but the extended likelihood; every increasing list of scalings that contains zero; every threshold; every sequence of earlier limits and statistics", "why_tests_cant": "It relates two programs for all data, grids and sigmas, through constructor, study and a fit of the rates at each scaling; a test compares two numbers.", "anchors": ["echidna/fit/fit.py:Fit._funct", "echidna/fit/test_statistic.py:TestStatistic.get_penalty_term", "echidna/fit/minimise.py:GridSearch.minimise", "echidna/limit/limit.py:Limit.get_limit"]}
