{"id": "C01", "title": "Combining scans conserves counts", "statement": "When one data set is combined with another that has the same columns, the sum of the detector column of the result equals the sum of the two input detector columns, and likewise for monitor and time: no count is lost, duplicated or invented, whatever matches and whatever is appended.", "quantifier": "all pairs of rectangular data sets with equal column names (any number of rows, any number of extra columns, any tolerances)", "why_tests_cant": "Tests combine two scans on one identical grid; loss or duplication depends on which rows match, on repeated rows and on row order, which range over an unbounded set.", "anchors": ["neutronpy/data/data.py: Data.combine_data", "neutronpy/data/data.py: Data.__add__"]}
{"id": "C02", "title": "Combining never invents coordinates", "statement": "Every coordinate row (all non-count columns) in a combined data set is, unchanged, a coordinate row of the left operand or of the right operand; every left row is kept exactly once, a right row is added exactly when no left row lies within tolerance of it, and the number of rows is therefore the left length plus the number of unmatched right rows.", "quantifier": "all pairs of rectangular data sets and all tolerance vectors", "why_tests_cant": "Provenance of every row for every input needs a proof over the whole loop nest, tests only check one grid.", "anchors": ["neutronpy/data/data.py: Data.combine_data"]}
{"id": "C03", "title": "Combined counts go to the first left row within tolerance", "statement": "After combining, the counts of a left row are its own counts plus the counts of exactly those right rows for which it is the first (lowest index) left row with every coordinate within the tolerance (inclusive); no right row contributes to two rows.", "quantifier": "all pairs of rectangular data sets, all tolerance vectors, every row index", "why_tests_cant": "Overlapping tolerance windows and duplicate coordinates give combinatorially many match patterns.", "anchors": ["neutronpy/data/data.py: Data.combine_data"]}
{"id": "C04", "title": "Combined data is sorted", "statement": "The rows of a combined data set are a stable reordering that is non-decreasing lexicographically with the last coordinate column as the primary key and the first one as the last key, and all columns are permuted together so that rows stay intact.", "quantifier": "all pairs of rectangular data sets", "why_tests_cant": "Sortedness plus row integrity for all inputs is a universally quantified statement about a permutation.", "anchors": ["neutronpy/data/data.py: Data.combine_data"]}
{"id": "C05", "title": "a + b leaves both operands unchanged", "statement": "Evaluating `a + b` (combine_data with ret=True) changes no column of a or b, and its column table equals the one that `a.combine_data(b)` in place would leave in a.", "quantifier": "all pairs of data objects", "why_tests_cant": "Absence of aliasing effects must hold for every matching pattern.", "anchors": ["neutronpy/data/data.py: Data.__add__", "neutronpy/data/data.py: Data.combine_data"]}
{"id": "C06", "title": "Combining exact scans is addition of coordinate-to-counts maps", "statement": "For scans without repeated coordinate rows combined with zero tolerance, the result represents the pointwise sum of the two coordinate-to-counts maps, so combining is commutative and associative and a multi-file load does not depend on file order. (With a positive tolerance the full statement fails: order matters.)", "quantifier": "all data sets with pairwise distinct coordinate rows; all orders of any number of files", "why_tests_cant": "Order independence over all permutations of all file lists cannot be sampled.", "anchors": ["neutronpy/data/data.py: Data.combine_data", "neutronpy/fileio/data.py: load_data"]}
{"id": "C07", "title": "Augmented assignment leaves the updated data set in the variable", "statement": "After `d += x`, `d -= x`, `d *= c`, `d /= c` the variable d refers to the updated data set, i.e. the same data as `d + x`, `d - x`, `d * c`, `d / c`.", "quantifier": "all data sets and operands, all sequences of augmented assignments", "why_tests_cant": "Concerns the value bound to a variable after arbitrary statement histories.", "anchors": ["neutronpy/data/data.py: Data.__iadd__", "neutronpy/data/data.py: Data.__isub__", "neutronpy/data/data.py: Data.__imul__", "neutronpy/data/data.py: Data.__itruediv__", "neutronpy/data/data.py: Data.__ifloordiv__"]}
{"id": "C08", "title": "Normalised intensity refers to the current monitor or time", "statement": "The intensity reported after any history of operations equals detector/monitor times the largest monitor value of the data set as it now is (or the same with counting time), so that a point measured with the largest monitor reports its raw counts.", "quantifier": "all histories of combine / assign / scale operations on a data set", "why_tests_cant": "The normaliser is cached in the object, so the claim is about all histories.", "anchors": ["neutronpy/data/data.py: Data.intensity", "neutronpy/data/data.py: Data.combine_data", "neutronpy/data/data.py: Data.__init__"]}
{"id": "C09", "title": "Rebinning averages exactly the points in the bin", "statement": "Each row returned by bin() corresponds to one cell of the requested grid; each averaged column in it is the arithmetic mean of that column over exactly the input points whose binned coordinates all lie within half a step (inclusive) of the cell centre, and the error is the root mean square of the errors of those points.", "quantifier": "all data sets, all bin specifications, all cells", "why_tests_cant": "Tests check averages of one uniform scan.", "anchors": ["neutronpy/data/data.py: Data.bin", "neutronpy/data/data.py: Data._bin_parallel"]}
{"id": "C10", "title": "Rebinning does not depend on the number of processors", "statement": "The result of bin() is the same for every number of worker processes: the chunks handed to workers partition the grid in order.", "quantifier": "all grids, all process counts >= 1", "why_tests_cant": "Depends on the host's core count, which a test run fixes.", "anchors": ["neutronpy/data/data.py: Data.bin", "neutronpy/data/data.py: _call_bin_parallel"]}
{"id": "C11", "title": "Rebinning drops exactly the empty cells", "statement": "bin() returns one row for each grid cell containing at least one point, in grid order, with the cell centre as coordinates, and no row for a cell with no point.", "quantifier": "all data sets without NaN and all bin specifications", "why_tests_cant": "Which cells are empty depends on the whole input.", "anchors": ["neutronpy/data/data.py: Data.bin", "neutronpy/data/data.py: Data._bin_parallel"]}
{"id": "C12", "title": "Rebinning covers the requested range without double counting", "statement": "Every input point inside the requested range falls in at least one cell; it falls in exactly one cell unless it lies exactly on a cell boundary. (The stronger claim that no point is ever counted twice is false on boundaries.)", "quantifier": "all points, all uniform grids with at least two points per axis, and single-cell axes", "why_tests_cant": "Boundary coincidences have measure zero in random tests but are typical for regular scans.", "anchors": ["neutronpy/data/data.py: Data.bin", "neutronpy/data/data.py: Data._bin_parallel"]}
{"id": "C13", "title": "Averaging over the whole range averages every point", "statement": "A single-cell axis covers its closed range, so binning with one cell per axis spanning min..max returns a single row holding the mean of each column over all points.", "quantifier": "all non-empty data sets", "why_tests_cant": "Must hold for all data, including extreme points on the cell edge.", "anchors": ["neutronpy/data/data.py: Data.bin"]}
{"id": "C14", "title": "The error of rebinned data is on the scale of its intensity", "statement": "For data with equal monitor counts, the error reported by the rebinned data set equals the root mean square of the errors reported by the original points of the bin (errors are normalised once).", "quantifier": "all data sets and bins", "why_tests_cant": "Involves the interplay of two normalisations for every normaliser value.", "anchors": ["neutronpy/data/data.py: Data.bin", "neutronpy/data/data.py: Data._bin_parallel", "neutronpy/data/data.py: Data.error"]}
{"id": "C15", "title": "Background subtraction subtracts normalised intensities", "statement": "The intensity reported by `a - b` is, point by point, the intensity of a minus the intensity of b, whatever the normalisers, monitors and counting times of a and b; a and b are unchanged.", "quantifier": "all pairs of data sets of equal length and all normalisation modes", "why_tests_cant": "Quantifies over all normalisers and both normalisation modes.", "anchors": ["neutronpy/data/data.py: Data.subtract_background", "neutronpy/data/data.py: Data.__sub__", "neutronpy/data/data.py: Data.intensity"]}
{"id": "C16", "title": "Background subtraction error is the larger of the two errors", "statement": "The error reported by `a - b` at each point is the larger of the two errors of a and b in absolute value; subtracting a data set from itself gives zero intensity everywhere with the error unchanged.", "quantifier": "all pairs of data sets of equal length", "why_tests_cant": "Pointwise over all inputs; also needs non-negativity of the two reported errors.", "anchors": ["neutronpy/data/data.py: Data.subtract_background", "neutronpy/data/data.py: Data.error"]}
{"id": "C17", "title": "Intensity does not depend on the unit of the monitor", "statement": "Building a data set with the monitor column multiplied by any positive constant gives exactly the same intensities and errors.", "quantifier": "all data sets with positive monitors, all positive constants", "why_tests_cant": "Universally quantified scaling law.", "anchors": ["neutronpy/data/data.py: Data.__init__", "neutronpy/data/data.py: Data.intensity", "neutronpy/data/data.py: Data.error"]}
{"id": "C18", "title": "Scaling a data set scales its intensity", "statement": "(d * c).intensity = c * d.intensity and (d / c).intensity = d.intensity / c for non-zero c, coordinates and d itself unchanged; d * c / c has the intensity of d.", "quantifier": "all data sets and all factors", "why_tests_cant": "Universally quantified.", "anchors": ["neutronpy/data/data.py: Data.__mul__", "neutronpy/data/data.py: Data.__truediv__"]}
{"id": "C19", "title": "Coordinate assignment keeps all columns the same length", "statement": "After any sequence of assignments to h, k, l, e, temp and error with scalars or arrays, all coordinate columns have the length of the detector column; an assignment with the wrong length raises an error and leaves the data set unchanged.", "quantifier": "all histories of assignments on a rectangular data set", "why_tests_cant": "Invariant over arbitrary histories including failing ones.", "anchors": ["neutronpy/data/data.py: Data.h", "neutronpy/data/data.py: Data.k", "neutronpy/data/data.py: Data.l", "neutronpy/data/data.py: Data.e", "neutronpy/data/data.py: Data.temp", "neutronpy/data/data.py: Data.error"]}
{"id": "C20", "title": "Equality of data sets is an equivalence relation", "statement": "Comparison of data sets with == is reflexive, symmetric and transitive, and two equal data sets have the same columns with the same lengths and values, regardless of column order.", "quantifier": "all triples of data sets", "why_tests_cant": "Transitivity and symmetry range over triples; broadcasting makes exceptions rare.", "anchors": ["neutronpy/data/data.py: Data.__eq__"]}
{"id": "C21", "title": "A data set built from a Q matrix has one count per point", "statement": "Data(Q=Q, detector=c, monitor=m, time=t) with scalar counts yields columns of the same length as the number of points in Q, like the constructor with separate h, k, l, e, temp does.", "quantifier": "all Q matrices and scalar or array counts", "why_tests_cant": "Depends on the shape of Q; a 5-point Q hides the failure.", "anchors": ["neutronpy/data/data.py: Data.__init__"]}
{"id": "C22", "title": "Integration covers all points when no bounds are given", "statement": "integrate() without bounds equals the sum over the coordinate axes of the trapezoidal integral of the background-subtracted intensity over all points of the data set; with bounds it is over exactly the selected points.", "quantifier": "all data sets and all bounds masks", "why_tests_cant": "Whether points are dropped depends on coordinate values.", "anchors": ["neutronpy/data/analysis.py: Analysis.integrate", "neutronpy/data/analysis.py: Analysis.get_bounds"]}
{"id": "C23", "title": "Peak position lies inside the scan", "statement": "For a scan along one axis with increasing coordinate, non-negative background-subtracted intensity and positive integral, the position reported for the scanned axis lies between the smallest and largest scanned value, and the position on every constant axis is that constant.", "quantifier": "all one-axis scans of any length", "why_tests_cant": "A convexity statement over all intensity profiles.", "anchors": ["neutronpy/data/analysis.py: Analysis.position", "neutronpy/data/analysis.py: Analysis.integrate"]}
{"id": "C24", "title": "Width and position behave under shifts of the axis", "statement": "Shifting the scanned coordinate by a constant shifts position() by the same constant and leaves width() unchanged; width() is non-negative for non-negative intensities.", "quantifier": "all one-axis scans, all shifts", "why_tests_cant": "Universally quantified over data and shift.", "anchors": ["neutronpy/data/analysis.py: Analysis.position", "neutronpy/data/analysis.py: Analysis.width"]}
{"id": "C25", "title": "Percent background is the mean of the lowest non-negative intensities", "statement": "estimate_background({'type':'percent','value':v}) is the average of the floor(v*n/100) smallest of the n non-negative intensities, hence lies between the smallest and the average non-negative intensity when that number is positive; it does not depend on the order of the points. Unknown types and None give 0.", "quantifier": "all intensity lists, all percentages between 0 and 100", "why_tests_cant": "Order statistics over all lists.", "anchors": ["neutronpy/data/analysis.py: Analysis.estimate_background"]}
{"id": "C26", "title": "Detailed balance", "statement": "The detailed balance factor at energy transfer E and temperature T>0 has the sign of E, is less than 1, and satisfies f(-E) = -exp(E/kT) f(E), so that intensities obeying detailed balance give an odd dynamic susceptibility.", "quantifier": "all energies and all positive temperatures", "why_tests_cant": "Real-variable identity.", "anchors": ["neutronpy/data/analysis.py: Analysis.detailed_balance_factor", "neutronpy/data/analysis.py: Analysis.dynamic_susceptibility"]}
{"id": "C27", "title": "Scan collections report one value per scan after any history of updates", "statement": "After constructing a collection of scans and any sequence of updates, per-scan summaries (mean, minimum, maximum of a column) have exactly one entry for each stored scan, in insertion order.", "quantifier": "all histories of updates with new and existing keys", "why_tests_cant": "Claim about histories; tests construct once.", "anchors": ["neutronpy/data/scans.py: Scans.__init__", "neutronpy/data/scans.py: Scans.update", "neutronpy/data/scans.py: Scans.mean_col"]}
{"id": "C28", "title": "Energy attributes always describe one neutron", "statement": "After constructing an Energy from any positive quantity and after any sequence of assignments to energy, wavelength, velocity, wavevector, temperature or frequency, all six attributes are mutually consistent: E = h^2/(2 m lambda^2) = m v^2/2 = (hbar k)^2/(2m) = k_B T = h nu in the documented units.", "quantifier": "all histories of assignments of positive values", "why_tests_cant": "Invariant over histories of six setters.", "anchors": ["neutronpy/energy.py: Energy._update_values", "neutronpy/energy.py: Energy.__init__"]}
{"id": "C29", "title": "Assigning a quantity reads back the same quantity", "statement": "Whichever of the six quantities was assigned last (positive value), reading it back returns the assigned value.", "quantifier": "all six quantities, all positive values, any previous state", "why_tests_cant": "Real-number round trip through squares and roots for all values.", "anchors": ["neutronpy/energy.py: Energy._update_values", "neutronpy/energy.py: Energy.wavelength", "neutronpy/energy.py: Energy.wavevector"]}
{"id": "C30", "title": "Energy construction argument priority", "statement": "With several arguments the first of energy, wavelength, velocity, wavevector, temperature, frequency that is given decides and the rest are ignored; with none the constructor fails with an error and creates nothing.", "quantifier": "all combinations of given and missing arguments", "why_tests_cant": "64 combinations times all values.", "anchors": ["neutronpy/energy.py: Energy._update_values"]}
{"id": "C31", "title": "Energy of arrays agrees with energy of scalars", "statement": "Every attribute computed for an array of energies has at each position the value computed for the scalar at that position, including arrays containing zeros.", "quantifier": "all arrays of non-negative energies", "why_tests_cant": "Depends on presence of zeros among arbitrarily many entries.", "anchors": ["neutronpy/energy.py: Energy._update_values"]}
{"id": "C32", "title": "Energy equality", "statement": "Equality of Energy objects is reflexive, symmetric and transitive, and objects that differ by less than 1e-6 meV compare equal.", "quantifier": "all triples of energies", "why_tests_cant": "Transitivity ranges over triples.", "anchors": ["neutronpy/energy.py: Energy.__eq__"]}
{"id": "C33", "title": "Gaussian profile area", "statement": "For positive FWHM parameters, the integral over the real line of gaussian(p, .) minus its linear background is the sum of the area parameters of all peaks.", "quantifier": "all parameter vectors with any number of peaks", "why_tests_cant": "An integral over the real line for every parameter vector.", "anchors": ["neutronpy/functions.py: gaussian"]}
{"id": "C34", "title": "Gaussian profile width and maximum", "statement": "A single gaussian peak takes its unique maximum at the position parameter and half of the maximum exactly at position +- FWHM/2, and is symmetric about the position.", "quantifier": "all positions, areas, FWHM > 0, all q", "why_tests_cant": "Real-variable statement.", "anchors": ["neutronpy/functions.py: gaussian"]}
{"id": "C35", "title": "Lorentzian profile area and width", "statement": "For positive FWHM the integral of lorentzian(p, .) minus background is the sum of the areas; a single peak takes half its maximum exactly at position +- FWHM/2.", "quantifier": "all parameter vectors", "why_tests_cant": "Improper integral for every parameter vector.", "anchors": ["neutronpy/functions.py: lorentzian"]}
{"id": "C36", "title": "Peak profiles are additive", "statement": "Appending a peak's parameters to p adds that peak's profile; the result does not depend on the order of the peaks; trailing parameters that do not form a complete peak have no effect; this holds for gaussian, lorentzian, voigt, gaussian2d, resolution and gaussian_ring.", "quantifier": "all parameter vectors of any length, all q", "why_tests_cant": "Any number of peaks; index arithmetic for every peak number.", "anchors": ["neutronpy/functions.py: gaussian", "neutronpy/functions.py: lorentzian", "neutronpy/functions.py: voigt", "neutronpy/functions.py: gaussian2d", "neutronpy/functions.py: resolution", "neutronpy/functions.py: gaussian_ring"]}
{"id": "C37", "title": "Two-dimensional profile volumes", "statement": "For positive widths the integral over the plane of gaussian2d minus background is the sum of the volume parameters; for a positive definite resolution matrix the same holds for resolution(), independently of R0.", "quantifier": "all parameter vectors", "why_tests_cant": "Double integral for every parameter vector.", "anchors": ["neutronpy/functions.py: gaussian2d", "neutronpy/functions.py: resolution"]}
{"id": "C38", "title": "Metric tensors and volumes", "statement": "For every physically valid cell, G is symmetric positive definite, Gstar*G = 4 pi^2 times the identity, volume^2 = a^2 b^2 c^2 (1 + 2 cos a cos b cos g - cos^2 a - cos^2 b - cos^2 g), and volume * reciprocal_volume = (2 pi)^3.", "quantifier": "all cells with positive lengths and valid angles", "why_tests_cant": "Real identities for all cells.", "anchors": ["neutronpy/crystal/lattice.py: Lattice.G", "neutronpy/crystal/lattice.py: Lattice.Gstar", "neutronpy/crystal/lattice.py: Lattice.volume", "neutronpy/crystal/lattice.py: Lattice.reciprocal_volume"]}
{"id": "C39", "title": "Reciprocal constants agree with the reciprocal metric", "statement": "astar, bstar, cstar and the reciprocal angles are exactly the lengths and angles described by Gstar: Gstar = [[a*^2, a*b*cos g*, a*c*cos b*], ...].", "quantifier": "all valid cells", "why_tests_cant": "Trigonometric identity for all cells; tests use one cubic cell.", "anchors": ["neutronpy/crystal/lattice.py: Lattice.astar", "neutronpy/crystal/lattice.py: Lattice.alphastar_rad", "neutronpy/crystal/lattice.py: Lattice.Gstar"]}
{"id": "C40", "title": "The B matrix reproduces the reciprocal metric", "statement": "For every valid cell and reciprocal vectors p, q the Cartesian images under Bmatrix have the scalar product given by Gstar (B^T B = Gstar), and the documented relation B B^T = Gstar.", "quantifier": "all valid cells", "why_tests_cant": "True for orthogonal cells, so tests on a cubic cell pass.", "anchors": ["neutronpy/crystal/lattice.py: Lattice.Bmatrix", "neutronpy/crystal/lattice.py: Lattice.Gstar"]}
{"id": "C41", "title": "d-spacing, momentum transfer and Bragg angle agree", "statement": "For hkl != 0: d > 0, q*d = 2 pi, d(n*hkl) = d(hkl)/|n|, d(-hkl) = d(hkl), q^2 = hkl Gstar hkl, and when a reflection is reachable (lambda <= 2d) lambda = 2 d sin(two_theta/2) with two_theta in [0,180] degrees.", "quantifier": "all valid cells, all non-zero hkl, all wavelengths", "why_tests_cant": "Real-variable statement.", "anchors": ["neutronpy/crystal/lattice.py: Lattice.get_d_spacing", "neutronpy/crystal/lattice.py: Lattice.get_q", "neutronpy/crystal/lattice.py: Lattice.get_two_theta"]}
{"id": "C42", "title": "Angle between planes", "statement": "The angle between two non-zero reciprocal vectors is in [0,180] degrees, symmetric, unchanged by positive scaling of either, 0 for parallel and 180 for antiparallel vectors, and supplementary when one vector is reversed.", "quantifier": "all valid cells, all non-zero vectors", "why_tests_cant": "Real-variable statement requiring Cauchy-Schwarz for the reciprocal metric.", "anchors": ["neutronpy/crystal/lattice.py: Lattice.get_angle_between_planes"]}
{"id": "C43", "title": "Lattice type classification", "statement": "lattice_type returns a crystal system only for constants satisfying that system's metric conditions, at most one system matches, and every valid cell is classified.", "quantifier": "all lattice constants and angles", "why_tests_cant": "Decision over real constants; tests try eight cells.", "anchors": ["neutronpy/crystal/lattice.py: Lattice.lattice_type"]}
{"id": "C44", "title": "U is a rotation", "statement": "For linearly independent orientation vectors u, v the matrix U is orthogonal with determinant +1, its first row is u normalised and its second row is the normalised part of v orthogonal to u.", "quantifier": "all linearly independent u, v", "why_tests_cant": "Real identity for all vectors.", "anchors": ["neutronpy/crystal/sample.py: Sample.Umatrix", "neutronpy/crystal/tools.py: gram_schmidt"]}
{"id": "C45", "title": "UB places the orientation vectors in the scattering plane", "statement": "UB maps the reciprocal vector u onto the positive x axis and v into the x-y plane.", "quantifier": "all valid cells and linearly independent u, v", "why_tests_cant": "Holds for cubic cells which are what tests use.", "anchors": ["neutronpy/crystal/sample.py: Sample.UBmatrix", "neutronpy/crystal/sample.py: Sample.Umatrix", "neutronpy/crystal/lattice.py: Lattice.Bmatrix"]}
{"id": "C46", "title": "Crystal and instrument code use the same geometry", "statement": "The cell volume, reciprocal constants and scalar products used in the resolution code (from lattice angles in radians) are equal to those of the Lattice class for the same cell.", "quantifier": "all valid cells, all vectors", "why_tests_cant": "Two independent formulas must agree for all real parameters.", "anchors": ["neutronpy/instrument/tools.py: _star", "neutronpy/instrument/tools.py: _scalar", "neutronpy/instrument/tools.py: _modvec", "neutronpy/crystal/lattice.py: Lattice.volume", "neutronpy/crystal/lattice.py: Lattice.Gstar"]}
{"id": "C47", "title": "Generated symmetry operations form a group", "statement": "Whenever the list of symmetry operations of a space group is produced by saturation, it contains the generators, has no duplicates, and is closed under composition with translations reduced to [0,1).", "quantifier": "all generator lists", "why_tests_cant": "Closure is quantified over all pairs of operations and all generator sets.", "anchors": ["neutronpy/crystal/symmetry.py: SpaceGroup._symmetry_operations_from_generators"]}
{"id": "C48", "title": "Symmetry operation strings round trip", "statement": "Formatting an operation as a string and parsing it back returns the same operation, and parsing a database generator string and formatting it gives the string back.", "quantifier": "all operations with entries -1, 0, 1 and crystallographic translations", "why_tests_cant": "Finite but large family (27^3 rotations x translations); the failing shapes are not in the tests.", "anchors": ["neutronpy/crystal/symmetry.py: get_generator_from_str", "neutronpy/crystal/symmetry.py: get_str_from_generator"]}
{"id": "C49", "title": "Symmetrised positions form one orbit", "statement": "symmetrize_position returns one position per operation; the set of positions modulo lattice translations is closed under all operations of the group and contains the input.", "quantifier": "all positions and all operation lists that are groups modulo translations", "why_tests_cant": "Quantifies over real positions and groups.", "anchors": ["neutronpy/crystal/symmetry.py: SpaceGroup.symmetrize_position"]}
{"id": "C50", "title": "Structure factor is additive over atoms", "statement": "The nuclear structure factor is the sum of per-atom contributions: independent of atom order, additive when compositions are concatenated, zero for no atoms, and proportional to occupancy.", "quantifier": "all atom lists and hkl", "why_tests_cant": "Any number of atoms.", "anchors": ["neutronpy/crystal/structure_factors.py: NuclearStructureFactor.calc_nuc_str_fac"]}
{"id": "C51", "title": "Friedel symmetry of the nuclear structure factor", "statement": "For real scattering lengths F(-h,-k,-l) is the complex conjugate of F(h,k,l), so the intensities |F|^2 agree; |F| is bounded by the sum of |occupancy * b| times Debye-Waller factors.", "quantifier": "all atom lists and hkl", "why_tests_cant": "Complex identity for all inputs.", "anchors": ["neutronpy/crystal/structure_factors.py: NuclearStructureFactor.calc_nuc_str_fac"]}
{"id": "C52", "title": "Equivalent reflections have equal structure factors up to phase", "statement": "Translating all atoms by integer lattice vectors does not change F at integer hkl, and translating all atoms by a common vector changes F only by a phase (for atoms without displacement parameters).", "quantifier": "all atom lists, translations and integer hkl", "why_tests_cant": "All real translations.", "anchors": ["neutronpy/crystal/structure_factors.py: NuclearStructureFactor.calc_nuc_str_fac"]}
{"id": "C53", "title": "Crystal names and tau values", "statement": "Looking up a crystal name is case-insensitive; numbers pass through; looking up the label of a table value returns a name with that same value; an arbitrary value gets a label only if within 5e-4 of that label's value, and otherwise the empty label.", "quantifier": "all strings and numbers", "why_tests_cant": "All real inputs.", "anchors": ["neutronpy/instrument/tools.py: GetTau"]}
{"id": "C54", "title": "Argument broadcasting", "statement": "_CleanArgs (used for H,K,L,W everywhere) returns the maximal length and arrays all of that length, each having its input as a prefix with its last value repeated; arguments already of equal length are unchanged; the operation is idempotent.", "quantifier": "any number of arguments of any non-zero lengths", "why_tests_cant": "Any number and length of arguments.", "anchors": ["neutronpy/instrument/tools.py: _CleanArgs"]}
{"id": "C55", "title": "Projection of the resolution ellipsoid is the Gaussian marginal", "statement": "Projecting a symmetric positive definite resolution matrix along an axis yields a symmetric positive definite matrix whose Gaussian is the integral of the original Gaussian over that axis, with prefactor scaled by sqrt(2 pi / M_ii); projecting out two axes gives the same result in either order.", "quantifier": "all symmetric positive definite matrices, all axes", "why_tests_cant": "Integral identity over all matrices.", "anchors": ["neutronpy/instrument/tools.py: project_into_plane", "neutronpy/instrument/tools.py: get_phonon_width"]}
{"id": "C56", "title": "Ellipse principal axes", "statement": "calculate_projection_hwhm returns the rotation angle that makes the 2x2 matrix diagonal and half widths computed from its eigenvalues; the points of ellipse() with those half widths and angle lie on a level set of the quadratic form.", "quantifier": "all symmetric positive definite 2x2 matrices", "why_tests_cant": "Trigonometric identity in arctan2 for all matrices.", "anchors": ["neutronpy/instrument/tools.py: calculate_projection_hwhm", "neutronpy/instrument/tools.py: ellipse"]}
{"id": "C57", "title": "Scattering triangle angle", "statement": "When get_angle_ki_Q returns, the angle closes the scattering triangle: kf^2 = ki^2 + Q^2 - 2 ki Q cos(angle), with sign given by the goniometer direction; it raises an error exactly when no such triangle exists.", "quantifier": "all positive ki, kf and non-negative Q", "why_tests_cant": "Real-variable decision.", "anchors": ["neutronpy/instrument/tools.py: get_angle_ki_Q"]}
{"id": "C58", "title": "Energy conservation fixes the free wavevector", "statement": "For a fixed wavevector k and energy transfer W the free wavevector satisfies the kinematic relation Ei - Ef = W in both modes, for energy loss and gain, and an error is raised exactly when no real solution exists.", "quantifier": "all W (both signs) and positive k", "why_tests_cant": "Sign-dependent real-variable statement.", "anchors": ["neutronpy/instrument/tools.py: get_kfree", "neutronpy/energy.py: Energy._update_values"]}
{"id": "C59", "title": "Chop only removes values within tolerance of zero", "statement": "chop(x, tol) replaces numbers of absolute value below tol by zero and leaves every other number unchanged, for scalars, arrays and nested containers alike, without modifying its argument.", "quantifier": "all numbers, arrays, nested lists and tolerances", "why_tests_cant": "All real inputs and nesting depths.", "anchors": ["neutronpy/instrument/tools.py: chop"]}
{"id": "C60", "title": "Resolution always reflects the current instrument settings", "statement": "After changing any instrument or sample setting, asking for the resolution at a point returns the resolution for the new settings, also when the same point was asked for before.", "quantifier": "all histories of setting changes and queries", "why_tests_cant": "A cache-coherence statement over histories.", "anchors": ["neutronpy/instrument/general.py: GeneralInstrument.get_resolution"]}
{"id": "C61", "title": "Resolution matrix is symmetric positive definite", "statement": "For positive mosaics, collimations and wavevectors with a closed scattering triangle, the computed resolution matrix in the Q frame is symmetric and positive definite, so that Bragg and phonon widths are real and positive.", "quantifier": "all valid instrument parameters", "why_tests_cant": "Linear-algebra statement over a continuum of parameters.", "anchors": ["neutronpy/instrument/tas_instrument.py: TripleAxisInstrument.calc_resolution_in_Q_coords"]}
{"id": "C62", "title": "Resolution at a point does not depend on the other points in the batch", "statement": "The resolution computed for a list of points is, point by point, the resolution computed for each point alone.", "quantifier": "all instrument settings and all lists of points", "why_tests_cant": "State leaking between loop iterations depends on the whole list.", "anchors": ["neutronpy/instrument/tas_instrument.py: TripleAxisInstrument.calc_resolution_in_Q_coords"]}
{"id": "C63", "title": "Computing the resolution has no side effects", "statement": "Computing the resolution twice with the same arguments returns the same result; it does not change the instrument or the sample.", "quantifier": "all instruments and any number of repeated calls", "why_tests_cant": "Claim about repeated calls in any history.", "anchors": ["neutronpy/instrument/tas_instrument.py: TripleAxisInstrument.calc_resolution"]}
{"id": "C64", "title": "Standard coordinate system is orthonormal", "statement": "For non-collinear orientation vectors the x, y, z axes of the standard coordinate system are orthonormal in the reciprocal metric, x is along the first orientation vector and the second one is in the x-y plane; collinear vectors raise an error.", "quantifier": "all valid cells and orientation vectors", "why_tests_cant": "Metric identity for every cell.", "anchors": ["neutronpy/instrument/tas_instrument.py: TripleAxisInstrument._StandardSystem"]}
{"id": "C65", "title": "Instrument files round trip", "statement": "Saving a triple-axis instrument to the ASCII format and loading it returns the same value for each saved attribute.", "quantifier": "all instruments with numeric, string and vector attributes", "why_tests_cant": "All attribute values and vector lengths.", "anchors": ["neutronpy/fileio/instrument.py: save_tas_instrument", "neutronpy/fileio/instrument.py: load_instrument"]}
{"id": "C66", "title": "File type detection", "statement": "For the first line(s) of a file the detector returns a type determined by the documented marker; the decision is total up to the error case, and each format's own header is detected as that format.", "quantifier": "all file contents", "why_tests_cant": "All strings.", "anchors": ["neutronpy/fileio/data.py: detect_filetype"]}
{"id": "C67", "title": "Loading several files", "statement": "load_data(f1,...,fn) yields the combination, in order, of the individually loaded files, each parsed according to its own type.", "quantifier": "all lists of files", "why_tests_cant": "All file lists with mixed types.", "anchors": ["neutronpy/fileio/data.py: load_data"]}
{"id": "C68", "title": "Saving data does not change it", "statement": "Saving a data set leaves all its columns unchanged and an existing file is only replaced when overwrite is requested.", "quantifier": "all data sets, formats and flags", "why_tests_cant": "Side effects over all histories.", "anchors": ["neutronpy/fileio/data.py: save_data"]}
{"id": "C69", "title": "Fitting never changes fixed parameters and respects limits", "statement": "After a fit, parameters declared fixed have their initial values and limited parameters are within their limits; the reported parameters are in the order of the initial ones; a problem with all parameters fixed is rejected.", "quantifier": "all parameter lists and parameter information", "why_tests_cant": "All parameter configurations and solver outcomes.", "anchors": ["neutronpy/lsfit/fitter.py: Fitter.fit", "neutronpy/lsfit/tools.py: convert_params"]}
{"id": "C70", "title": "Fitter calls are independent of earlier fits", "statement": "Calling fit with new initial parameters after an earlier fit behaves as on a fresh Fitter with the same residual function, data and parameter information.", "quantifier": "all histories of fit calls", "why_tests_cant": "Claim about histories.", "anchors": ["neutronpy/lsfit/fitter.py: Fitter.fit"]}
{"id": "C71", "title": "Monochromator tau and d-spacing stay consistent", "statement": "After any sequence of assignments to tau on a monochromator or analyzer, d * tau_value = 2 pi.", "quantifier": "all histories of assignments with known names or positive numbers", "why_tests_cant": "Invariant over histories.", "anchors": ["neutronpy/instrument/monochromator.py: Monochromator.tau", "neutronpy/instrument/analyzer.py: Analyzer.tau"]}
{"id": "C72", "title": "Constructor arguments are honoured", "statement": "Every keyword passed when constructing a sample, material, monochromator or analyzer is readable back from the object under its name.", "quantifier": "all combinations of keyword arguments", "why_tests_cant": "All argument combinations.", "anchors": ["neutronpy/instrument/analyzer.py: Analyzer.__init__", "neutronpy/crystal/material.py: Material.__init__", "neutronpy/crystal/sample.py: Sample.__init__", "neutronpy/instrument/monochromator.py: Monochromator.__init__"]}
{"id": "C73", "title": "The sum of two data sets keeps the naming of its columns", "statement": "If a and b use the same names for their detector, monitor, time and coordinate columns, then detector, monitor, time and the coordinates can be read from a + b just as from a.", "quantifier": "all pairs of combinable data sets with any column naming", "why_tests_cant": "Tests only add data sets with the default names; the file loaders produce several other namings.", "anchors": ["neutronpy/data/data.py: Data.combine_data", "neutronpy/data/data.py: Data.__add__"]}
{"id": "C74", "title": "Results of data arithmetic are independent objects", "statement": "The results of a + b, a - b and a * c share no array with a or b: changing an entry of the result in place changes neither operand.", "quantifier": "all data sets and all later in-place writes", "why_tests_cant": "Aliasing shows only when a result is modified later; tests compare values right after the operation.", "anchors": ["neutronpy/data/data.py: Data.subtract_background", "neutronpy/data/data.py: Data.__mul__"]}
{"id": "C75", "title": "Background subtraction on an axis uses the nearest background point", "statement": "subtract_background(b, x=axis) subtracts at each point the intensity of b at a background point nearest along that axis, for data sets of different lengths.", "quantifier": "all pairs of data sets of any lengths having the named axis", "why_tests_cant": "Grids of different lengths and spacing range over an unbounded set.", "anchors": ["neutronpy/data/data.py: Data.subtract_background"]}
{"id": "C76", "title": "Binning honours the requested axes whatever the columns are called", "statement": "Data.bin(to_bin) bins the axis that the caller names: a to_bin entry for an axis of the data set selects the limits and number of cells of that axis, whatever the column carrying that coordinate is called in the file.", "quantifier": "for all data sets, all Q_keys name tables and all to_bin dictionaries", "why_tests_cant": "Tests use a handful of files whose columns are called h, k, l, e, temp; the claim ranges over every name table and every dictionary.", "anchors": ["neutronpy/data/data.py:Data.bin"]}
{"id": "C77", "title": "The width is measured about the reported position", "statement": "For a one-axis scan, width() on an axis is the intensity-weighted second moment about the value that position() reports for that axis.", "quantifier": "all scans and all selections, with any further recorded columns", "why_tests_cant": "Depends on every column of the file, including motor columns that tests do not vary.", "anchors": ["neutronpy/data/analysis.py: Analysis.width", "neutronpy/data/analysis.py: Analysis.position"]}
{"id": "C78", "title": "Updating a collection of scans leaves the caller's dictionaries alone", "statement": "Scans(d).update(e) changes neither the dictionary d the collection was constructed from nor the dictionary e.", "quantifier": "all dictionaries and collections", "why_tests_cant": "An aliasing claim over all histories; tests do not look at the caller's dictionary.", "anchors": ["neutronpy/data/scans.py: Scans.__init__", "neutronpy/data/scans.py: Scans.update"]}
{"id": "C79", "title": "Updating a collection replaces known scans and appends new ones", "statement": "After update(e) the collection holds e's scan under each key of e and the old scan under every other key; known keys keep their place and new keys follow in the order of e.", "quantifier": "all dictionaries", "why_tests_cant": "Unbounded dictionaries with every overlap pattern.", "anchors": ["neutronpy/data/scans.py: Scans.update"]}
{"id": "C80", "title": "Every scan of a colour map lies in its own cell", "statement": "For two or more scans with increasing mean coordinate, pcolor() uses cell boundaries such that each scan's coordinate lies strictly inside its own cell and cells do not overlap.", "quantifier": "all increasing coordinate lists of length at least two", "why_tests_cant": "A statement about every list of centres.", "anchors": ["neutronpy/data/scans.py: Scans.pcolor"]}
{"id": "C81", "title": "The scattering function of a point depends on that point only", "statement": "scattering_function(material, ei) at each point with final energy Ef > 0 equals 4 pi/sigma * sqrt(Ei/Ef) * counts, whatever the other points of the data set are.", "quantifier": "all data sets and incident energies", "why_tests_cant": "The interference between points happens only for special combinations of energies.", "anchors": ["neutronpy/data/analysis.py: Analysis.scattering_function", "neutronpy/energy.py: Energy._update_values"]}
{"id": "C82", "title": "Voigt and ring profiles are normalised", "statement": "Voigt with positive widths integrates, above its background, to the sum of the area parameters; gaussian_ring with positive width and eccentricity and non-negative radius integrates over the plane to the sum of its area parameters.", "quantifier": "for all backgrounds, all lists of peaks of any length, all positive widths, all incomplete trailing parameters", "why_tests_cant": "the area is an integral over the whole line or plane for every parameter choice; a test sums a few samples on a finite grid", "anchors": ["neutronpy/functions.py: voigt", "neutronpy/functions.py: gaussian_ring"]}
{"id": "C83", "title": "Every space group can be built, under each of its names", "statement": "SpaceGroup(n) exists exactly for n = 1..230; naming a group by number, key, Hermann-Mauguin symbol or full name gives the same group; its operations are as many as recorded and form a group modulo lattice translations.", "quantifier": "all integers and all groups of the database", "why_tests_cant": "The tests build a handful of the 230 groups; a wrong generator or a colliding name in any of the others goes unnoticed.", "anchors": ["neutronpy/crystal/symmetry.py: SpaceGroup.__init__", "neutronpy/database/symmetry.json"]}
{"id": "C84", "title": "An unknown space group is rejected", "statement": "Constructing a space group, or setting its symbol, with a name or number that is not in the database raises an error.", "quantifier": "all names and numbers", "why_tests_cant": "Tests try few unknown names and not the setter on an existing object.", "anchors": ["neutronpy/crystal/symmetry.py: SpaceGroup.__init__", "neutronpy/crystal/symmetry.py: SpaceGroup.symbol"]}
{"id": "C85", "title": "Symmetry-equivalent reflections have equal intensity", "statement": "For a material built with a space group and atoms without displacement parameters, |F| is the same at hkl and at every reflection equivalent to it under an operation of the group, and reflections forbidden by a screw axis, glide plane or centring have F = 0.", "quantifier": "all space groups of the database, all compositions, all integer hkl and all operations", "why_tests_cant": "Infinitely many positions and reflections, 230 groups.", "anchors": ["neutronpy/crystal/material.py: Material.__init__", "neutronpy/crystal/structure_factors.py: NuclearStructureFactor.calc_nuc_str_fac"]}
{"id": "C86", "title": "An atom on a special position is counted once", "statement": "The atoms of a material with a space group sit on pairwise inequivalent positions for each entry of the composition.", "quantifier": "all groups and positions", "why_tests_cant": "Depends on the stabiliser of the position; tests use one structure.", "anchors": ["neutronpy/crystal/material.py: Material.__init__"]}
{"id": "C87", "title": "Anisotropic displacement parameters given for an atom are used", "statement": "Every atom of a material has the Uaniso given in its entry of the composition, and zero if none is given.", "quantifier": "all compositions, with or without space group", "why_tests_cant": "Depends on which other entries give the key.", "anchors": ["neutronpy/crystal/material.py: Material.__init__"]}
{"id": "C88", "title": "The optimal thickness has the requested transmission", "statement": "exp(-Sigma_T d) equals the requested transmission for the thickness d returned; it is positive and decreasing in the transmission; the default transmission 1/e maximises the scattered intensity d exp(-Sigma_T d).", "quantifier": "all materials, energies and transmissions", "why_tests_cant": "Maximality over all thicknesses.", "anchors": ["neutronpy/crystal/material.py: Material.calc_optimal_thickness"]}
{"id": "C89", "title": "Magnetic form factors are normalised, even and bounded", "statement": "The form factor is even in q, does not depend on g at q = 0, equals j0 for g = 2 or no g, is 1 at q = 0 to within half a percent for every ion of the database, and the spin-only one stays bounded for large q.", "quantifier": "all ions, q and g", "why_tests_cant": "All q and all 95 ions.", "anchors": ["neutronpy/crystal/structure_factors.py: MagneticFormFactor.calc_mag_form_fac", "neutronpy/database/magnetic_form_factors.json"]}
{"id": "C90", "title": "Phonon and projection widths are half-maximum widths of integrated intensities", "statement": "get_phonon_width returns the prefactor and full width at half maximum of the resolution function integrated over planes parallel to the given dispersion plane, and an error if the plane is parallel to the energy axis; fproject returns the half width of the marginal along the chosen axis and rejects other axes.", "quantifier": "all symmetric positive definite resolution matrices, all planes, all axes", "why_tests_cant": "An integral identity over a continuous family of matrices; the existing test only calls fproject.", "anchors": ["neutronpy/instrument/tools.py: get_phonon_width", "neutronpy/instrument/tools.py: fproject"]}
{"id": "C91", "title": "Bragg widths are full widths at half maximum", "statement": "The widths returned by get_bragg_widths (shown as FWHM in the plots) are the full widths at half maximum of the resolution function along the three momentum axes and the energy axis, and of its energy marginal.", "quantifier": "all symmetric positive definite resolution matrices", "why_tests_cant": "Tests compare one matrix with numbers computed by the same formula.", "anchors": ["neutronpy/instrument/tools.py: get_bragg_widths", "neutronpy/instrument/plot.py: PlotInstrument.description_string"]}
{"id": "C92", "title": "Chopper time resolution", "statement": "A time resolution given explicitly is used; otherwise it is computed for disk and Fermi choppers (other kinds and a Fermi chopper without depth are errors), is inversely proportional to the speed, and a wider opening never makes it better. A chopper can be printed.", "quantifier": "all choppers with positive dimensions", "why_tests_cant": "A monotonicity over continuous parameters in three formulas; tests evaluate single choppers.", "anchors": ["neutronpy/instrument/chopper.py: Chopper.tau", "neutronpy/instrument/chopper.py: Chopper.__repr__"]}
{"id": "C93", "title": "Goniometer matrices", "statement": "The matrices of the goniometer angles and their product R are rotations; the orientation matrix U exists exactly if the two reflections are not parallel and maps them to the unit vectors given by the measured angles.", "quantifier": "all angles and reflections", "why_tests_cant": "All angles; the module has no tests.", "anchors": ["neutronpy/instrument/goniometer.py: Goniometer.N", "neutronpy/instrument/goniometer.py: Goniometer.M", "neutronpy/instrument/goniometer.py: Goniometer.R", "neutronpy/instrument/goniometer.py: Goniometer.U"]}
{"id": "C94", "title": "Out-of-plane angle", "statement": "get_phi returns 90 degrees (to the normal) exactly for the scattering vectors in the plane of the orientation vectors u and v.", "quantifier": "all cells, orientation vectors and scattering vectors", "why_tests_cant": "A geometric identity over all cells; tests use one cubic cell.", "anchors": ["neutronpy/crystal/sample.py: Sample.get_phi"]}
{"id": "C95", "title": "Resolution matrix in the crystal frame", "statement": "The matrix returned by calc_resolution in the crystallographic frame (RMS) describes the same resolution ellipsoid as the matrix in the frame of the scattering vector (RM): evaluating either on the components of the same deviation gives the same number, and RMS is symmetric positive definite.", "quantifier": "all cells, orientations, instruments and reachable points", "why_tests_cant": "A change-of-basis identity over all cells, orientations and instruments.", "anchors": ["neutronpy/instrument/tas_instrument.py: TripleAxisInstrument.calc_resolution"]}
{"id": "C96", "title": "Unreachable points are rejected", "statement": "Asking for the resolution at a point the instrument cannot reach raises ScatteringTriangleError, wherever the point stands in the list.", "quantifier": "all instruments, all lists of points", "why_tests_cant": "Decision over a continuum of points and list positions.", "anchors": ["neutronpy/instrument/tas_instrument.py: TripleAxisInstrument.calc_resolution_in_Q_coords"]}
{"id": "C97", "title": "A loaded instrument keeps the scattering plane", "statement": "After save_instrument and load_instrument the loaded triple-axis instrument has the scattering plane of the saved sample: orient1 and orient2 equal the sample's u and v.", "quantifier": "all saved triple-axis instruments", "why_tests_cant": "All orientations; the existing test compares saved attributes only.", "anchors": ["neutronpy/fileio/instrument.py: load_instrument", "neutronpy/instrument/tas_instrument.py: TripleAxisInstrument.__init__"]}
{"id": "C98", "title": "Saving an instrument writes the named file", "statement": "save_instrument(obj, name, overwrite) writes the instrument, of either kind, to the file name.instr; the file is created if it does not exist, and without overwrite what is in an existing file is kept.", "quantifier": "all instruments of both kinds, all prior file contents, both flags", "why_tests_cant": "Side effects on the file system over all histories.", "anchors": ["neutronpy/fileio/instrument.py: save_instrument"]}
{"id": "C99", "title": "Data files round trip", "statement": "A data set written with save_data (ASCII or HDF5) and loaded again has the same columns with the same values, the same data_keys and Q_keys, the same error bars and the same original header.", "quantifier": "all data sets with named numeric columns of one length, with or without error bars and header", "why_tests_cant": "All column names, sizes and headers; existing tests save and load one file.", "anchors": ["neutronpy/fileio/data.py: save_data", "neutronpy/fileio/loaders/neutronpy.py: Neutronpy.load"]}
{"id": "C100", "title": "Kinds of initial parameters and data", "statement": "Initial parameters given to Fitter.fit as a list, a tuple or an array with the same values give the same fit, and data that cannot be used is rejected when it is assigned.", "quantifier": "all parameter values, residual functions and minimiser outcomes", "why_tests_cant": "All inputs of each kind; tests use lists.", "anchors": ["neutronpy/lsfit/fitter.py: Fitter.params0", "neutronpy/lsfit/fitter.py: Fitter.data", "neutronpy/lsfit/tools.py: convert_params"]}
{"id": "C101", "title": "Counts of a fit", "statement": "After a fit, nfree is the number of parameters that were varied and dof is the number of data points minus that number.", "quantifier": "all parameter lists and fits", "why_tests_cant": "All parameter configurations.", "anchors": ["neutronpy/lsfit/fitter.py: Fitter.nfree", "neutronpy/lsfit/fitter.py: Fitter.dof"]}
{"id": "C102", "title": "Standard errors of a fit", "statement": "stderr gives the standard errors of the fitted parameters: the same numbers as xerror.", "quantifier": "all fits with all parameters varied", "why_tests_cant": "All covariance matrices and reduced chi-squares.", "anchors": ["neutronpy/lsfit/fitter.py: Fitter.stderr", "neutronpy/lsfit/fitter.py: Fitter.xerror"]}
{"id": "C103", "title": "Displacement parameters damp reflections", "statement": "In calc_nuc_str_fac the displacement parameters Uiso and Uaniso multiply the amplitude of an atom by its Debye-Waller factor at the reflection: never more than one, smaller for larger displacements and for reflections at larger scattering angles.", "quantifier": "all lattices, wavelengths, atoms and reflections", "why_tests_cant": "The dependence on displacement, position and reflection is a statement about all of them; the tests compare a few numbers.", "anchors": ["neutronpy/crystal/structure_factors.py: NuclearStructureFactor.calc_nuc_str_fac"]}
{"id": "C104", "title": "Total scattering cross section", "statement": "total_scattering_cross_section is the sum over the atoms of the unit cell of coherent plus incoherent cross section weighted with the occupancy, as calc_optimal_thickness computes it.", "quantifier": "all lists of atoms and occupancies", "why_tests_cant": "Tests use fully occupied cells.", "anchors": ["neutronpy/crystal/material.py: Material.total_scattering_cross_section"]}
{"id": "C105", "title": "Number of atoms in a sample", "statement": "N_atoms(mass) is the number of atoms contained in a sample of the given mass in grams.", "quantifier": "all compositions, occupancies and masses", "why_tests_cant": "A statement about all compositions; a test pins one number.", "anchors": ["neutronpy/crystal/material.py: Material.N_atoms"]}
{"id": "C106", "title": "Incoherent elastic cross section", "statement": "calc_incoh_elas_xs is the occupancy-weighted sum of the incoherent cross sections of the atoms per unit solid angle, reduced by the Debye-Waller factors, and with a mass it is multiplied by the number of units in the sample.", "quantifier": "all lists of atoms, wavelengths and masses", "why_tests_cant": "Quantifies over all atoms, displacements and occupancies.", "anchors": ["neutronpy/crystal/material.py: Material.calc_incoh_elas_xs"]}
{"id": "C107", "title": "Assigning counts keeps a data set well formed", "statement": "Assigning detector, monitor or time stores the new column and nothing else, and rejects columns whose length differs from the number of points, as assigning a coordinate does.", "quantifier": "all data sets, column names and arrays", "why_tests_cant": "Holds for every object and array; tests assign arrays of the right length.", "anchors": ["neutronpy/data/data.py: Data.detector", "neutronpy/data/data.py: Data.monitor", "neutronpy/data/data.py: Data.time"]}
{"id": "C108", "title": "Loading SPICE files keeps every column", "statement": "Loading a SPICE file gives one array per named column with the values of that column in the order of the lines, the header lines, and the default plot axes the file announces.", "quantifier": "all SPICE files: any number of header lines, columns and points", "why_tests_cant": "Quantifies over all files of the format; tests load a handful of sample files.", "anchors": ["neutronpy/fileio/loaders/spice.py: Spice.load"]}
{"id": "C109", "title": "Loading MAD files keeps every point", "statement": "Loading a MAD file gives every column under its name with every point of the file.", "quantifier": "all MAD files", "why_tests_cant": "Quantifies over all files of the format; tests load a handful of sample files.", "anchors": ["neutronpy/fileio/loaders/mad.py: Mad.load"]}
{"id": "C110", "title": "Loading ICE files keeps every column", "statement": "Loading an ICE file gives every column of the file under its name with all its values.", "quantifier": "all ICE files", "why_tests_cant": "Quantifies over all files of the format; tests load a handful of sample files.", "anchors": ["neutronpy/fileio/loaders/ice.py: Ice.load"]}
{"id": "C111", "title": "Loading ICP files", "statement": "Loading an ICP file gives every column under its name with all its values, and a monitor that is the monitor count times the prefactor at every point, whatever the length of the header.", "quantifier": "all ICP files", "why_tests_cant": "Quantifies over all files of the format; tests load a handful of sample files.", "anchors": ["neutronpy/fileio/loaders/icp.py: Icp.load"]}
{"id": "C112", "title": "Loading GRASP text files", "statement": "Loading a GRASP text file gives every column under its name as an array of its values, monitor and time of one at every point and the errors of the file.", "quantifier": "all GRASP text files", "why_tests_cant": "Quantifies over all files of the format; tests load a handful of sample files.", "anchors": ["neutronpy/fileio/loaders/grasp.py: Grasp.load_dat"]}
{"id": "C113", "title": "DCS formats are recognised by the contents", "statement": "Each of the four DCS_MSLICE formats IEXY, XYIE, SPE and XYE is recognised from the first two lines, whatever the name of the file.", "quantifier": "all file names and contents", "why_tests_cant": "Quantifies over names and contents; tests use files with the usual endings.", "anchors": ["neutronpy/fileio/loaders/dcs_mslice.py: DcsMslice.determine_subtype"]}
{"id": "C114", "title": "Loading column formats of DCS", "statement": "Loading an IEXY or XYE file gives the columns of the file, with monitor and time of one at every point and the errors stored.", "quantifier": "all IEXY and XYE files", "why_tests_cant": "Quantifies over all files of the format; tests load a handful of sample files.", "anchors": ["neutronpy/fileio/loaders/dcs_mslice.py: DcsMslice.load_iexy", "neutronpy/fileio/loaders/dcs_mslice.py: DcsMslice.load_xye"]}
{"id": "C115", "title": "Loading an XYIE grid", "statement": "Loading an XYIE file gives one point per pair of values of the two axes, with these values as x and y and the intensity and error of the file there, and the intensity of the result can be read.", "quantifier": "all XYIE files", "why_tests_cant": "Quantifies over all files of the format; tests load a handful of sample files.", "anchors": ["neutronpy/fileio/loaders/dcs_mslice.py: DcsMslice.load_xyie"]}
{"id": "C116", "title": "Loading an SPE grid", "statement": "Loading an SPE file gives one point per value of the first axis and value of the second, with these as x and y and the intensity and error of the corresponding block there.", "quantifier": "all SPE files: any lengths of the axes and any split of the numbers into lines", "why_tests_cant": "Quantifies over all files of the format; tests load a handful of sample files. The loops stop on lengths, so the lengths of the axes matter.", "anchors": ["neutronpy/fileio/loaders/dcs_mslice.py: DcsMslice.load_spe"]}
{"id": "C117", "title": "Instrument settings from SPICE headers", "statement": "With load_instrument the collimations and the lattice of the sample are the numbers of the corresponding header lines, in order.", "quantifier": "all header lines", "why_tests_cant": "Quantifies over all files of the format; tests load a handful of sample files.", "anchors": ["neutronpy/fileio/loaders/spice.py: Spice.load"]}
{"id": "C118", "title": "Simple harmonic oscillator", "statement": "simple_harmonic_oscillator(p, t) oscillates around p[0] with amplitude p[1], period p[2] and phase p[3], as documented.", "quantifier": "all parameters and times", "why_tests_cant": "Being periodic with a given period is a statement about all times; the tests evaluate the function at a few.", "anchors": ["neutronpy/models.py: simple_harmonic_oscillator"]}
{"id": "C119", "title": "Damped harmonic oscillator", "statement": "damped_harmonic_oscillator solves the equation of motion of an oscillator around p[0] with friction p[4], is the undamped oscillator for p[4] = 0, stays within its decaying envelope and comes to rest at p[0].", "quantifier": "all parameters and times", "why_tests_cant": "A differential equation, a bound for all times and a limit.", "anchors": ["neutronpy/models.py: damped_harmonic_oscillator"]}
{"id": "C120", "title": "Dispersions have the documented amplitude and period", "statement": "The acoustic, ferromagnetic and antiferromagnetic dispersions are non-negative, even, zero at the zone centre, have the greatest value p[0] (amplitude) and the period p[1], as documented.", "quantifier": "all positive amplitudes, non-zero periods and all positions", "why_tests_cant": "Extrema and periods are statements about all positions.", "anchors": ["neutronpy/models.py: acoustic_phonon_dispersion", "neutronpy/models.py: ferromagnetic_disperion", "neutronpy/models.py: antiferromagnetic_disperion"]}
{"id": "C121", "title": "Dispersions at long wavelengths", "statement": "Near the zone centre the acoustic and the antiferromagnetic dispersion are linear and the ferromagnetic one is quadratic in the wavevector.", "quantifier": "all parameters", "why_tests_cant": "A limit.", "anchors": ["neutronpy/models.py: acoustic_phonon_dispersion", "neutronpy/models.py: ferromagnetic_disperion", "neutronpy/models.py: antiferromagnetic_disperion"]}
{"id": "C122", "title": "The Cooper-Nathans matrix describes the flight of the neutrons", "statement": "With the Cooper-Nathans method and a flat analyzer the resolution matrix of calc_resolution_in_Q_coords is the one that follows from the flight of the neutrons: Bragg's law at monochromator and analyzer, the directions of flight limited by the collimations, the crystals and the sample turned within their mosaics. To first order in the angles, the form of the matrix at a deviation in momentum and energy is the least cost of a neutron with that deviation.", "quantifier": "all instruments with valid parameters, scattering senses, collimations, mosaics and all points in momentum and energy they reach", "why_tests_cant": "The correctness of the matrix for every instrument is a statement about derivatives in eight variables; the tests compare numbers of an earlier run.", "anchors": ["neutronpy/instrument/tas_instrument.py: TripleAxisInstrument.calc_resolution_in_Q_coords"]}
{"id": "C123", "title": "A sample mosaic conserves the integrated intensity", "statement": "Giving the sample a mosaic redistributes intensity and does not create or destroy it: the integral of the resolution function over momentum and energy (prefactor over root of the determinant) is the same with and without mosaic.", "quantifier": "all instruments, points and pairs of mosaics", "why_tests_cant": "A relation between two calculations for all instruments and mosaics.", "anchors": ["neutronpy/instrument/tas_instrument.py: TripleAxisInstrument.calc_resolution_in_Q_coords"]}
{"id": "C124", "title": "The Popovici matrix describes the flight from guide to detector", "statement": "With method=1 (Popovici) and arms given, the resolution matrix of calc_resolution_in_Q_coords is the one that follows from the straight flight of neutrons between points of guide, monochromator, sample, analyzer and detector of the given sizes, with bent crystals, collimators and mosaics: to first order, its form at a deviation in momentum and energy is the least cost of a path with that deviation.", "quantifier": "all instruments with valid sizes, arms, curvatures, scattering senses, collimations, mosaics; flat analyzer setting; samples that are boxes or given by one matrix; all points they reach", "why_tests_cant": "The derivatives of twelve quantities in thirteen coordinates for every instrument; the tests compare numbers of an earlier run.", "anchors": ["neutronpy/instrument/tas_instrument.py: TripleAxisInstrument.calc_resolution_in_Q_coords"]}
{"id": "C125", "title": "Cylindrical samples", "statement": "For a sample declared 'cylindrical' with depth, width and height the resolution calculation uses the variances of a point uniformly distributed in an upright cylinder: along and across the momentum transfer those of an ellipse, vertically that of a segment of the given height.", "quantifier": "all instruments, cylinders and lists of points", "why_tests_cant": "No test uses a cylinder; the claim relates code to integrals.", "anchors": ["neutronpy/instrument/tas_instrument.py: TripleAxisInstrument.calc_resolution_in_Q_coords", "neutronpy/crystal/sample.py: Sample.__init__"]}
{"id": "C126", "title": "Queries of the resolution as numbers or lists", "statement": "get_resolution answers for exactly the points asked for, one result for each, in whatever form they are given (numbers, lists, lists of different lengths) and whatever was asked before.", "quantifier": "all instruments, all earlier queries, all forms of arguments", "why_tests_cant": "The answer depends on what is stored from earlier queries and on broadcasting rules; tests ask once.", "anchors": ["neutronpy/instrument/general.py: GeneralInstrument.get_resolution", "neutronpy/instrument/tools.py: _CleanArgs"]}
{"id": "C127", "title": "Quantities of a loaded file", "statement": "After loading a SPICE, MAD, ICE or ICP file with build_hkl=True, the properties h, k, l, e, temp, detector, monitor and time of the object are the values the file has for them.", "quantifier": "all files of the four formats, any number of columns, in any order, and points", "why_tests_cant": "Quantifies over all files; tests load a handful of sample files and do not look at all columns.", "anchors": ["neutronpy/fileio/loaders/spice.py: Spice.load", "neutronpy/fileio/loaders/mad.py: Mad.load", "neutronpy/fileio/loaders/ice.py: Ice.load", "neutronpy/fileio/loaders/icp.py: Icp.load", "neutronpy/data/data.py: Data.h, Data.detector"]}
{"id": "C128", "title": "Angles of monochromator and analyzer", "statement": "get_angles_and_Q turns monochromator and analyzer, each in its sense, to the Bragg angles A1 and A5 of the neutrons before and after the sample, A2 and A6 are twice these, one of the two energies is the fixed one and they differ by the energy transfer; where a crystal cannot reflect the neutrons its angles are nan.", "quantifier": "all instruments with a positive fixed energy, fixed before or after the sample, all points and energy transfers", "why_tests_cant": "A real-valued law over a continuum of settings; the tests compare the angles of one point.", "anchors": ["neutronpy/instrument/tas_instrument.py: TripleAxisInstrument.get_angles_and_Q"]}
{"id": "C129", "title": "Q and the scattering condition", "statement": "get_angles_and_Q returns the modulus of the scattering vector, and turning the crystal by A3 with the detector arm at A4 brings every point of the scattering plane into the scattering condition Q = ki - kf.", "quantifier": "all cells, orientations, senses of scattering and points of the plane", "why_tests_cant": "A geometrical law over all cells and orientations; tests use one cubic crystal.", "anchors": ["neutronpy/instrument/tas_instrument.py: TripleAxisInstrument.get_angles_and_Q"]}
{"id": "C130", "title": "Currat-Axe warnings", "statement": "currat_axe_peaks takes Bragg positions [qx, qy] and warns for exactly those points of the scan, both ends included, at which sample and detector angle are within the tolerance of those of one of the Bragg peaks at zero energy transfer.", "quantifier": "all instruments, scans, lists of Bragg positions and tolerances", "why_tests_cant": "Quantifies over all scans and peaks; no test calls the function.", "anchors": ["neutronpy/spurion.py: currat_axe_peaks"]}
{"id": "C131", "title": "Curves of calc_projections", "statement": "calc_projections returns for every point and each of the planes QxQy, QxW and QyW the contour at half height of the resolution function in that plane (Slice) and of its integral over the other components, centred at the point, in reciprocal lattice units along the orientation vectors and meV, and _fwhm holds the full widths at half maximum along the axes of the contour.", "quantifier": "all valid instruments and samples, all lists of reachable points of the scattering plane, all numbers of curve points", "why_tests_cant": "The tests only call the function; that a curve is the contour of an integral is a statement about all points of a continuum.", "anchors": ["neutronpy/instrument/general.py: GeneralInstrument.calc_projections", "neutronpy/instrument/tools.py: project_into_plane, ellipse, _projection_hwhm"]}
{"id": "C132", "title": "Parameters of the resolution Gaussian", "statement": "get_resolution_params returns for each documented plane and mode the height and the matrix elements of the resolution Gaussian in that plane (slice), or integrated over the other component (project), at the position asked for.", "quantifier": "all valid instruments, points, documented planes and modes, and histories of queries", "why_tests_cant": "Equality of a Gaussian with an integral for all arguments; the tests check only that no exception is raised.", "anchors": ["neutronpy/instrument/general.py: GeneralInstrument.get_resolution_params"]}
{"id": "C133", "title": "Vertical resolution is independent", "statement": "For a sample that looks the same from above and below, the vertical component of the momentum transfer is not correlated with the other components nor with the energy in any resolution matrix that is returned, in the frame of Q and in the frame of the crystal.", "quantifier": "all settings and methods, all sequences of queries, all lists of points", "why_tests_cant": "A symmetry of every matrix over all settings, methods and histories.", "anchors": ["neutronpy/instrument/tas_instrument.py: TripleAxisInstrument.calc_resolution_in_Q_coords, calc_resolution", "neutronpy/instrument/general.py: GeneralInstrument.get_resolution"]}
{"id": "C134", "title": "Widths scale with the divergences", "statement": "Making all collimations, mosaics and sizes t times as large makes the resolution t times as wide in every direction of (Q, energy), at every point; with the Cooper-Nathans method sizes do not matter.", "quantifier": "all valid instruments, both methods, flat or focusing analyzer, all t > 0, all lists of reachable points", "why_tests_cant": "A relation between two runs for all settings and scale factors.", "anchors": ["neutronpy/instrument/tas_instrument.py: TripleAxisInstrument.calc_resolution_in_Q_coords"]}
{"id": "C135", "title": "Resolution of a time-of-flight spectrometer is error propagation", "statement": "The resolution matrix of a time-of-flight instrument is the inverse of the covariance of (Q, energy), in the axes along and across Q, obtained by propagating the uncertainties of the times, lengths and angles to first order through the flight of the neutron from the choppers to the pixel that detects it, for each shape of detector.", "quantifier": "all instruments, detectors, points and energies for which a matrix is returned", "why_tests_cant": "A derivative at every point of a continuum; the tests check that no exception is raised.", "anchors": ["neutronpy/instrument/tof_instrument.py: TimeOfFlightInstrument.calc_resolution_in_Q_coords"]}
{"id": "C136", "title": "The direction of a neutron in a time-of-flight calculation fits the transfer", "statement": "A neutron with the nominal times and the angles used by the calculation has the momentum and energy transfer for which the resolution is asked.", "quantifier": "all lattices, points, energies", "why_tests_cant": "The tests do not reconstruct the transfer; elastic points hide the difference.", "anchors": ["neutronpy/instrument/tof_instrument.py: TimeOfFlightInstrument.calc_resolution_in_Q_coords"]}
{"id": "C137", "title": "Matrix and prefactor of a time-of-flight instrument are positive", "statement": "For every point that the instrument reaches a resolution matrix is returned, it is symmetric and positive definite, and the prefactor is positive.", "quantifier": "all instruments with nonzero uncertainties, all reachable points and energies", "why_tests_cant": "Positivity over a continuum of settings.", "anchors": ["neutronpy/instrument/tof_instrument.py: TimeOfFlightInstrument.calc_resolution_in_Q_coords"]}
{"id": "C138", "title": "Time-of-flight resolution in the frame of the crystal", "statement": "The matrix RMS of a time-of-flight instrument gives a displacement in reciprocal lattice units the exponent that the matrix RM gives the components of the same displacement along and across Q.", "quantifier": "all lattices, orientations and points", "why_tests_cant": "The matrices are not compared by any test, and cubic cells hide the difference.", "anchors": ["neutronpy/instrument/tof_instrument.py: TimeOfFlightInstrument.calc_resolution"]}
{"id": "C139", "title": "Larger uncertainties never sharpen a time-of-flight resolution", "statement": "If two time-of-flight instruments differ only in their uncertainties and none of the second is smaller, the exponent of the resolution function of the second is nowhere larger.", "quantifier": "all pairs of instruments, points and displacements", "why_tests_cant": "An order between two runs for all displacements.", "anchors": ["neutronpy/instrument/tof_instrument.py: TimeOfFlightInstrument.calc_resolution_in_Q_coords"]}
{"id": "C140", "title": "Shape and orientation of the detector", "statement": "A resolution is returned for spherical and for vertical cylindrical detectors; every other shape, and a horizontal cylinder, raises DetectorError.", "quantifier": "all detectors, shapes and orientations", "why_tests_cant": "The exception for a horizontal cylinder is never tested; the claim is about every string.", "anchors": ["neutronpy/instrument/tof_instrument.py: TimeOfFlightInstrument.calc_resolution_in_Q_coords", "neutronpy/instrument/detector.py: Detector"]}
{"id": "C141", "title": "Choppers of a time-of-flight instrument", "statement": "A chopper or a list of choppers in any order defines the instrument; the choppers are used in the order of their distance from the source.", "quantifier": "all lists of choppers and their permutations", "why_tests_cant": "All permutations of lists of any length; the tests use the default only.", "anchors": ["neutronpy/instrument/tof_instrument.py: TimeOfFlightInstrument.__init__"]}
{"id": "C142", "title": "Units of a time-of-flight instrument", "statement": "Times in microseconds, lengths in centimetres, mosaics and pixels in minutes of arc and divergences in radian enter the resolution as the same physical quantities in one system of units.", "quantifier": "all instruments", "why_tests_cant": "No test compares the uncertainties with the documented units.", "anchors": ["neutronpy/instrument/tof_instrument.py: TimeOfFlightInstrument.calc_resolution_in_Q_coords", "neutronpy/instrument/detector.py: Detector", "neutronpy/instrument/guide.py: Guide"]}
{"id": "C143", "title": "Time-of-flight resolution does not depend on the choice of cell", "statement": "Describing the same crystal by a cell with edges s times as long, and the same point by indices s times as large, gives the same resolution matrix in the frame of Q and the same prefactor.", "quantifier": "all lattices, points, energies and s > 0", "why_tests_cant": "A relation between two runs for all cells.", "anchors": ["neutronpy/instrument/tof_instrument.py: TimeOfFlightInstrument.calc_resolution_in_Q_coords"]}
{"id": "C144", "title": "Variables of the convolution", "statement": "The variables that resolution_convolution integrates over are those in which the resolution function is a product of four Gaussians of width one: the exponent of the displacement sampled for (tx, ty, tz, tw) is (tx^2 + ty^2 + tz^2 + tw^2)/2, and the Jacobian is 1/sqrt(det RMS).", "quantifier": "all positive definite matrices without elements between the vertical component and the others, all values of the variables", "why_tests_cant": "An identity over a continuum of matrices and displacements.", "anchors": ["neutronpy/instrument/tas_instrument.py: TripleAxisInstrument.resolution_convolution"]}
{"id": "C145", "title": "The grid converges to the convolution with the resolution function", "statement": "As both numbers of ACCURACY grow, the values of the method 'fix' converge to the integral of the cross section times R0 exp(-x RMS x/2) over all displacements in Q and energy, with the prefactors of the modes, plus the background; with ACCURACY [M, 0] they converge to the same for cross sections without dispersion perpendicular to the scattering plane.", "quantifier": "all instruments, matrices, points, bounded continuous cross sections, prefactors and backgrounds", "why_tests_cant": "A limit, for all cross sections; the tests run one cross section with one accuracy.", "anchors": ["neutronpy/instrument/tas_instrument.py: TripleAxisInstrument.resolution_convolution"]}
{"id": "C146", "title": "The convolution is linear and acts on each point separately", "statement": "The convolution of a combination of cross sections is the combination of the convolutions, the background is added once, and the value at a point does not depend on the other points of the call.", "quantifier": "all cross sections, coefficients, methods, accuracies, seeds, points and orders of points", "why_tests_cant": "Relations between runs for all cross sections.", "anchors": ["neutronpy/instrument/tas_instrument.py: TripleAxisInstrument.resolution_convolution"]}
{"id": "C147", "title": "Arguments accepted by the convolution", "statement": "resolution_convolution returns one value per point for any number of points with the default accuracy and with any list of two numbers (method 'fix') or positive number (method 'mc'); an unknown METHOD, a wrong nargout, and a wrong ACCURACY raise ValueError.", "quantifier": "all numbers of points, methods, accuracies, prefactors and values of nargout", "why_tests_cant": "A decision table over unbounded arguments; single points are not tested.", "anchors": ["neutronpy/instrument/tas_instrument.py: TripleAxisInstrument.resolution_convolution"]}
{"id": "C148", "title": "Monte Carlo convolution", "statement": "The mean of the values of the method 'mc' is the convolution with the resolution function for every ACCURACY, and a larger ACCURACY averages over more random points, with and without a seed.", "quantifier": "all instruments, points, cross sections, accuracies and seeds", "why_tests_cant": "An expectation over random numbers.", "anchors": ["neutronpy/instrument/tas_instrument.py: TripleAxisInstrument.resolution_convolution"]}
{"id": "C149", "title": "Grids of one point", "statement": "With ACCURACY [0, 0] the method 'fix' returns the cross section at the point itself times the volume of the resolution function, so that a constant cross section gives exactly its convolution.", "quantifier": "all instruments, points, cross sections, prefactors and backgrounds", "why_tests_cant": "An equation for all instruments and cross sections.", "anchors": ["neutronpy/instrument/tas_instrument.py: TripleAxisInstrument.resolution_convolution"]}
{"id": "C150", "title": "Convolution of single modes", "statement": "As both numbers of ACCURACY grow, the values of resolution_convolution_SMA with the method 'fix' come to the convolution of the resolution function with modes that have a dispersion, an intensity and a Lorentzian profile in energy of unit area and the given half width (a sharp line for width zero), with the prefactors of the modes, plus the background, up to the accuracy of the Voigt profile: 1e-4 of the greatest intensities times the volume of the resolution function at the most likely energy.", "quantifier": "all instruments, points, dispersions, intensities, widths, prefactors and backgrounds", "why_tests_cant": "A limit, for all modes; the tests run one mode with one accuracy.", "anchors": ["neutronpy/instrument/tas_instrument.py: TripleAxisInstrument.resolution_convolution_SMA", "neutronpy/instrument/tools.py: _voigt"]}
{"id": "C151", "title": "Arguments accepted by the convolution of single modes", "statement": "resolution_convolution_SMA returns one value per point for any number of points, with and without prefactor, with the default accuracy and with any list of two numbers (method 'fix') or positive number (method 'mc'); an unknown METHOD, a wrong nargout, and a wrong ACCURACY raise ValueError.", "quantifier": "all numbers of points, methods, accuracies, prefactors and values of nargout", "why_tests_cant": "A decision table over unbounded arguments; single points and calls without prefactor are not tested.", "anchors": ["neutronpy/instrument/tas_instrument.py: TripleAxisInstrument.resolution_convolution_SMA"]}
{"id": "C152", "title": "The Voigt profile", "statement": "_voigt(x, a) is symmetric in x, is the Gaussian exp(-x^2) for a = 0, and is the convolution of that Gaussian with the Lorentzian of half width a and unit area for a > 0, up to 1e-4 everywhere.", "quantifier": "all x and all widths a >= 0", "why_tests_cant": "A bound over a plane, with four approximations that change along curves.", "anchors": ["neutronpy/instrument/tools.py: _voigt"]}
{"id": "C153", "title": "Monte Carlo convolution of single modes", "statement": "The mean of the values of resolution_convolution_SMA with the method 'mc' is the convolution of the resolution function with the modes for every ACCURACY, up to the accuracy of the Voigt profile (1.01e-4 of the greatest intensities times the volume of the resolution function at the most likely energy), and a larger ACCURACY averages over more random points, with and without a seed.", "quantifier": "all instruments, points, modes, accuracies and seeds", "why_tests_cant": "An expectation over random numbers.", "anchors": ["neutronpy/instrument/tas_instrument.py: TripleAxisInstrument.resolution_convolution_SMA"]}
{"id": "C154", "title": "Normalisation to the monitor", "statement": "With the default normalisation to a monitor (moncor = 1) the integral of the Cooper-Nathans resolution function over momentum and energy is the contribution of the analyzer side alone: the final wavevector times the volume in final wavevectors transmitted by the collimators and the analyzer. With fixed final energy it is therefore the same at every point of a scan and does not change with the monochromator, the collimation before the sample, the guide, the monitor, the detector, the sample size or an isotropic sample mosaic.", "quantifier": "all valid Cooper-Nathans instruments with flat analyzer and collimators (not guides) after the sample, all lists of points", "why_tests_cant": "An integral over a continuous family of settings and points; a test compares prefactors at a few points.", "anchors": ["neutronpy/instrument/tas_instrument.py: TripleAxisInstrument.calc_resolution_in_Q_coords"]}
{"id": "C155", "title": "Divergence of guides", "statement": "A negative collimation -m stands for a guide of that m-value: the result is that of a collimator whose Gaussian has the variance of the uniform distribution within the critical angle (0.1 degrees times m times the wavelength of the neutrons in the guide), to within one percent of the collimation.", "quantifier": "all instruments, all four horizontal and vertical collimations, all points", "why_tests_cant": "Holds for a continuous family of wavelengths; a test fixes one energy and has no independent value.", "anchors": ["neutronpy/instrument/tas_instrument.py: TripleAxisInstrument.calc_resolution_in_Q_coords", "neutronpy/instrument/tas_instrument.py: TripleAxisInstrument.hcol", "neutronpy/instrument/tas_instrument.py: TripleAxisInstrument.vcol"]}
{"id": "C156", "title": "Smoothing of the resolution", "statement": "When the attribute Smooth gives widths (FWHM) along x, y, the vertical direction and the energy, calc_resolution returns the resolution function convolved with a Gaussian of these widths: finite numbers, with the variances of the widths added to the inverse resolution matrix, each to its own coordinate; a width of zero leaves its direction as it is.", "quantifier": "all instruments, points and widths", "why_tests_cant": "No test sets Smooth, and the statement is about all matrices; special values of floating point must be followed through the formula.", "anchors": ["neutronpy/instrument/tas_instrument.py: TripleAxisInstrument.calc_resolution", "neutronpy/instrument/tas_instrument.py: TripleAxisInstrument.Smooth"]}
{"id": "C157", "title": "Horizontally focusing analyzer", "statement": "With the flag horifoc of the analyzer set to 1 as documented, and the Cooper-Nathans method, the resolution matrix is that of an analyzer of blades around the sample, seen under the angle hcol[2], each turned to reflect the nominal wavevector: direction and length of the final wavevector are independent, the first limited by the size of the analyzer, the second by its mosaic; everything else is as with a flat analyzer.", "quantifier": "all valid Cooper-Nathans instruments, all points", "why_tests_cant": "Compares matrices with the flight of neutrons for a continuous family of instruments; no test sets the flag.", "anchors": ["neutronpy/instrument/tas_instrument.py: TripleAxisInstrument.calc_resolution_in_Q_coords", "neutronpy/instrument/tas_instrument.py: TripleAxisInstrument.ana", "neutronpy/instrument/analyzer.py: Analyzer.__init__"]}
{"id": "C158", "title": "Instruments from par and cfg files", "statement": "load_instrument((par, cfg), 'parcfg') of two files in the documented format returns the instrument the files describe: the lattice and orientation, fixed energy, collimations (with a guide the smaller of guide and collimator), distances, reflections, mosaics of crystals and sample, scattering senses, curvatures, and the sizes of source, crystals, sample, monitor and detector, so that its resolution is that of the same instrument set up by hand.", "quantifier": "all pairs of files in the documented format", "why_tests_cant": "The test only checks that one pair of files loads without an exception; what the loaded values mean shows only in a resolution calculation, for a continuous family of files.", "anchors": ["neutronpy/fileio/instrument.py: load_instrument", "neutronpy/crystal/sample.py: Sample.__init__", "neutronpy/instrument/tas_instrument.py: TripleAxisInstrument.calc_resolution_in_Q_coords"]}
{"id": "C159", "title": "Equality of instruments and their parts", "statement": "Two instruments (and two samples, monochromators, guides, monitors or detectors) are equal under == exactly if every attribute of the one is an attribute of the other with the same value, whatever the order in which they were set; the comparison is reflexive, symmetric and transitive, never raises, and calculating a resolution does not change its answer.", "quantifier": "all pairs and triples of instruments and parts, whatever their attributes", "why_tests_cant": "The tests compare a few instruments with themselves and with one other; equality is a relation on all pairs, and transitivity speaks about triples.", "anchors": ["neutronpy/instrument/tas_instrument.py: TripleAxisInstrument.__eq__", "neutronpy/instrument/tools.py: _Dummy.__eq__", "neutronpy/instrument/monochromator.py: Monochromator.__eq__", "neutronpy/crystal/sample.py: Sample.__eq__"]}
{"id": "C160", "title": "Instruments in taz files", "statement": "An instrument saved with filetype 'taz' and loaded again has the same collimations, distances, method, reflections, mosaics, scattering senses, curvatures and sizes; quantities that the saved instrument did not have get the defaults of the format; every documented instrument can be saved, and the resolution of a loaded one can be calculated.", "quantifier": "all instruments, and all taz files", "why_tests_cant": "The tests only check that one file is written and one is read without an exception; what is read back, for every combination of set and unset attributes, is not looked at.", "anchors": ["neutronpy/fileio/instrument.py: taz_keys", "neutronpy/fileio/instrument.py: load_instrument", "neutronpy/fileio/instrument.py: save_tas_instrument"]}
{"id": "C161", "title": "Contour plots are drawn at the spacing of the data", "statement": "For data on a regular grid plot(x, y, z) draws a mesh whose columns and rows are the values of the data on the two axes, so that every measured point is shown.", "quantifier": "all data on regular axes, of any number of values, start and spacing (a multiple of 1e-4)", "why_tests_cant": "The tests only check that a plot is produced for one data set; the mesh is not looked at, and whether it is right depends on the start, end and spacing of the axes.", "anchors": ["neutronpy/data/plot.py: PlotData.plot_contour"]}
{"id": "C162", "title": "The list of aluminum rings is that of the metal", "statement": "spurion.aluminum(energy) prints each of the reflections 111, 200, 220 and 311 of aluminum for the wavelength, its half and its third, with the scattering angle of Bragg's law (nan if out of reach) in increasing order, and with |F|^2 of the cell of four atoms.", "quantifier": "all positive energies", "why_tests_cant": "The test only calls the function for one energy and looks at no number; the order and the reach of the rings change with the energy.", "anchors": ["neutronpy/spurion.py: aluminum", "neutronpy/crystal/material.py: Material.__init__", "neutronpy/crystal/symmetry.py: SpaceGroup.symmetrize_position"]}
{"id": "C163", "title": "The ellipsoid drawn is the half-maximum surface of the resolution function", "statement": "plot_ellipsoid(hkle) draws, for every position given, the surface in Qx, Qy and energy on which the resolution function has half of its maximum.", "quantifier": "all positive definite resolution matrices, positions and numbers of positions", "why_tests_cant": "The tests only check that a plot is produced; the surface itself is not looked at, and its size and tilt depend on the matrix.", "anchors": ["neutronpy/instrument/plot.py: PlotInstrument.plot_ellipsoid", "neutronpy/instrument/tools.py: fproject"]}
{"id": "C164", "title": "plot_projections draws the curves of the positions asked for", "statement": "plot_projections(hkle, npts) draws, for each of the positions, the curves calc_projections gives for the present settings of the instrument with npts points to a curve, whatever was calculated or plotted before; the limits of each panel contain all closed curves, and each axis is labelled with what is drawn along it.", "quantifier": "all instruments, lists of reachable points, numbers of points to a curve and sequences of calls on one object", "why_tests_cant": "Stored curves are used again depending on the history of calls; the tests make a few calls and do not look at the drawing.", "anchors": ["neutronpy/instrument/plot.py: PlotInstrument.plot_projections", "neutronpy/instrument/plot.py: PlotInstrument.plot_slice", "neutronpy/instrument/general.py: GeneralInstrument.calc_projections"]}
{"id": "C165", "title": "description_string tells what the last resolution calculation was and gave", "statement": "After a resolution calculation of a triple-axis instrument, description_string names the method that was used and which energy is fixed, and gives the positions and, for the first of them, the elements of the resolution matrix in units of 10^4, the volume of the resolution function, the intensity prefactor, the full widths at half maximum of the resolution function along its axes and of its projection on energy, and the angles of the instrument.", "quantifier": "all instruments, methods and lists of reachable points", "why_tests_cant": "The text is only seen to exist; whether its numbers are the integral and the widths of the resolution function is an analytic statement about every matrix.", "anchors": ["neutronpy/instrument/plot.py: PlotInstrument.description_string", "neutronpy/instrument/tools.py: get_bragg_widths"]}
{"id": "C166", "title": "plot_instrument draws the spectrometer in the configuration for the position asked for", "statement": "plot_instrument(hkle) draws the beam from the source through monochromator, sample and analyzer to the detector in straight lines of the lengths of the arms, turned by the angles A2, A4 and A6 that get_angles_and_Q gives for the position; each component is drawn at its place with its width and height, the crystals in the planes that reflect the beam, the detector across the beam.", "quantifier": "all instruments, arms, sizes and positions that the instrument can reach", "why_tests_cant": "The tests only see that a figure is made; the geometry holds or fails for every set of angles.", "anchors": ["neutronpy/instrument/plot.py: PlotInstrument.plot_instrument", "neutronpy/instrument/tas_instrument.py: TripleAxisInstrument.get_angles_and_Q"]}
{"id": "C167", "title": "plot draws the points asked for, with their errors and the fit", "statement": "data.plot(x, y) draws every row of the data (of the rebinned data, if to_bin is given) at the values of the two columns, or at the normalised intensity for y='intensity', with error bars that are the errors of the values; a fit asked for is drawn as the graph of the fitted function over the range of the points; plot_line(x, y) draws the same; the kind of plot follows from which of z and w are given.", "quantifier": "all data objects, columns, bins, options and fit functions", "why_tests_cant": "The tests only see that no exception is raised for a few calls; what is drawn, and which combinations of options raise, is not observed.", "anchors": ["neutronpy/data/plot.py: PlotData.plot", "neutronpy/data/plot.py: PlotData.plot_line"]}
{"id": "C168", "title": "plot_unit_cell draws the unit cell with its atoms", "statement": "Material.plot_unit_cell() draws the twelve edges of the unit cell and no other lines, and every atom at its place, so that the distances of atoms and corners in the drawing are those in the crystal; the size of a point is the mass of the atom.", "quantifier": "all lattices and lists of atoms", "why_tests_cant": "The test only calls the method for one cubic material; which lines are drawn depends on the values of the lattice constants.", "anchors": ["neutronpy/crystal/plot.py: PlotMaterial.plot_unit_cell", "neutronpy/crystal/atom.py: Atom"]}
{"id": "C169", "title": "The table of a fit shows every parameter with the digits that its error leaves meaningful", "statement": "Fitter.build_param_table(function_str) returns, after any fit, a text with the title, one line for each parameter in the order of the parameters with its value and its error, and chi squared; rounding changes no value by more than a twentieth of its error, the digits of value and error end at the same place if the value is not smaller than the error, and chi squared is recognisable.", "quantifier": "all fitted values, errors and values of chi squared", "why_tests_cant": "The number of digits follows from logarithms of values and errors of any size; the tests only draw the table for one fit and look at no text.", "anchors": ["neutronpy/lsfit/plot.py: PlotFit.build_param_table"]}
{"id": "C170", "title": "A new instrument has the settings that were asked for", "statement": "Instrument(*args, instrument_type=..., engine=..., **settings) returns an instrument of that type and engine that has the settings given, by place or by documented name, and the documented defaults for all others, and whose calc_resolution calculates the resolution; a type, an engine or a setting that does not exist is refused.", "quantifier": "all calls: any values by place and by keyword", "why_tests_cant": "The tests create a few instruments; which keywords are taken, ignored or lost can only be seen over all calls.", "anchors": ["neutronpy/instrument/instrument.py: Instrument.__init__", "neutronpy/instrument/tas_instrument.py: TripleAxisInstrument.__init__", "neutronpy/instrument/tof_instrument.py: TimeOfFlightInstrument.__init__", "neutronpy/instrument/takin.py"]}
{"id": "C171", "title": "A waterfall plot shows every scan, one above the other", "statement": "Scans.waterfall draws one curve for each scan, in the order of the collection; the curve number k has exactly the points of its scan, moved up by k times the offset, and its label shows the mean of the label column to three decimals. If the offset exceeds the spread of the data no two curves touch. Without scans, or if a column is missing, an exception is raised.", "quantifier": "all collections of scans, columns and offsets", "why_tests_cant": "The tests only check that a figure is returned; which points it has, for any number of scans and any offset, they do not look at.", "anchors": ["neutronpy/data/scans.py: Scans.waterfall", "neutronpy/data/scans.py: Scans.scans_check"]}
{"id": "C172", "title": "A colour map shows every datum at its place, on a scale from the least to the greatest", "statement": "Scans.pcolor shows, at the coordinates of every datum of every scan, the value of this datum and no other; the colour scale has the limits given or, as documented, by default the minimum and maximum of all data.", "quantifier": "all collections of scans, columns and limits", "why_tests_cant": "The tests only check that a figure is returned; the cells overlap or vanish, and the scale is wrong, only for some orders and some ranges of values.", "anchors": ["neutronpy/data/scans.py: Scans.pcolor", "neutronpy/data/scans.py: Scans.mean_col"]}
{"id": "C173", "title": "Settings of a fitter are checked, kept and used", "statement": "Every setting of a Fitter (ftol, xtol, gtol, epsfcn, stepfactor, covtol, maxiter, maxfev, nofinitecheck, nan_policy), given to the constructor or assigned later, reads afterwards as the latest value that was accepted, None standing for the documented default; a value of the wrong kind is refused with ValueError and changes nothing; and LMFIT gets the settings as they read.", "quantifier": "all settings given to the constructor and all later sequences of assignments, accepted or refused", "why_tests_cant": "The tests assign a few values; that no sequence of accepted and refused assignments loses or mixes settings needs an induction.", "anchors": ["neutronpy/lsfit/fitter.py: Fitter.__init__", "neutronpy/lsfit/fitter.py: Fitter.ftol", "neutronpy/lsfit/fitter.py: Fitter.maxfev", "neutronpy/lsfit/fitter.py: Fitter.nofinitecheck", "neutronpy/lsfit/fitter.py: Fitter.fit"]}
{"id": "C174", "title": "The plot of a fit shows the data, the fitted function and the residuals", "statement": "After a fit of data (x, y, err), as documented, Fitter.plot(function) draws every datum with its error, the function with the fitted parameters at every x, on request the residuals with the fitted parameters at every x, and the table of the parameters. Before a fit an exception is raised.", "quantifier": "all data, fits and functions", "why_tests_cant": "The test plots one fit of data that begin with the function, and does not look at the figure.", "anchors": ["neutronpy/lsfit/plot.py: PlotFit.plot", "neutronpy/lsfit/fitter.py: Fitter"]}
{"id": "C175", "title": "The window for resolution calculations calculates and shows the resolution of what is entered", "statement": "neutronpy.gui opens a window in which the resolution is calculated for exactly the instrument, the sample and the point that are entered (numbers separated by commas, crystals by name or by their spacing, curvatures or None, fixed energy in any of three units), and the description of the result is shown.", "quantifier": "all texts and choices entered", "why_tests_cant": "There is no test of the window, and no number of tests covers all combinations of entries.", "anchors": ["neutronpy/gui.py: MainWindow.__init__", "neutronpy/gui.py: MainWindow.load_instrument", "neutronpy/gui.py: launch"]}
{"id": "C176", "title": "Plots of four columns show every point with its value", "statement": "plot(x, y, z, w) and plot_volume draw one mark for every datum with positive w (a column or the intensity) at its values of x, y and z, and no other marks; colours tell larger values of w from smaller ones; a column that is missing is refused.", "quantifier": "all data and columns", "why_tests_cant": "The tests draw one set of data and do not look at the figure.", "anchors": ["neutronpy/data/plot.py: PlotData.plot_volume", "neutronpy/data/plot.py: PlotData.plot"]}
{"id": "C177", "title": "A material can be made of every ion whose scattering length is tabulated", "statement": "Material accepts every composition of ions, isotopes included, whose coherent scattering lengths are tabulated; it then has one atom for every position of every ion, and its total, incoherent and absorption cross-sections can be calculated. Ions without a tabulated scattering length are refused.", "quantifier": "all compositions, all entries of both tables", "why_tests_cant": "The tests use a handful of elements; the tables have 109 elements and 362 scattering lengths.", "anchors": ["neutronpy/crystal/material.py: Material.__init__", "neutronpy/crystal/atom.py: Atom.__init__", "neutronpy/database/scattering_lengths.json", "neutronpy/database/periodic_table.json"]}
{"id": "C178", "title": "A magnetic unit cell keeps what it is given", "statement": "MagneticUnitCell keeps the chirality, phase, propagation vector and lattice of its description; its atoms are those described or, with a space group, every position equivalent to them once, each with ion, moment and occupancy of its description. A Material described with a magnetic_unit_cell has it.", "quantifier": "all descriptions, all space groups of the database", "why_tests_cant": "The tests never make a magnetic cell.", "anchors": ["neutronpy/crystal/material.py: MagneticUnitCell.__init__", "neutronpy/crystal/material.py: Material.__init__", "neutronpy/crystal/atom.py: MagneticAtom"]}
{"id": "C179", "title": "The magnetic form factor is given at the points asked for", "statement": "calc_mag_form_fac gives the form factor for a number, list or array q at exactly these q; without q at the points of qrange (0 to 2 by default), from its first to its last value in equal steps of about 0.025. An ion that is not tabulated is refused with a ValueError saying so.", "quantifier": "all q, ranges, g and ions", "why_tests_cant": "The tests use one number and the range 0 to 2.", "anchors": ["neutronpy/crystal/structure_factors.py: MagneticFormFactor.__init__", "neutronpy/crystal/structure_factors.py: MagneticFormFactor.calc_mag_form_fac"]}
{"id": "C180", "title": "Instruments in HDF5 files", "statement": "save_instrument with filetype 'hdf5' writes an instrument of either kind to a new file, or with overwrite over an old one, otherwise adds it; load_instrument then returns an instrument with the same value for every saved attribute.", "quantifier": "all instruments, all values of their attributes, all states of the file", "why_tests_cant": "The tests save and load one instrument with the attributes of Instrument().", "anchors": ["neutronpy/fileio/instrument.py: save_tas_instrument", "neutronpy/fileio/instrument.py: save_tof_instrument", "neutronpy/fileio/instrument.py: load_instrument"]}
{"id": "C181", "title": "Rotations and translations of symmetry operations", "statement": "get_rotation and get_translation give, for one operation or several, in any of the forms that the module uses (texts, matrices, lists, the array of operations of a space group), the rotation and the translation of each, which determine the operation and move positions as symmetrize_position does.", "quantifier": "all operations and forms", "why_tests_cant": "The tests only use them for single matrices, inside symmetrize_position.", "anchors": ["neutronpy/crystal/symmetry.py: get_rotation", "neutronpy/crystal/symmetry.py: get_translation", "neutronpy/crystal/symmetry.py: get_formatted_operations"]}
{"id": "C182", "title": "A file that is recognised is read by the reader for its format", "statement": "Whenever the type of a data file is recognised by its name or its first lines, the loader of that type reads it, with the reader for the format that the name or the lines show, and does not refuse it; a NeXus file of GRASP comes back with the intensities, momenta, angles and errors of its data sets, monitor and time of one at every point.", "quantifier": "all file names and contents", "why_tests_cant": "The tests load the few sample files of the package; detection and loader each look at name and lines with their own conditions, whose agreement is a statement about all names and lines.", "anchors": ["neutronpy/fileio/loaders/grasp.py: Grasp.load", "neutronpy/fileio/loaders/grasp.py: Grasp.load_nxs", "neutronpy/fileio/loaders/neutronpy.py: Neutronpy.load", "neutronpy/fileio/data.py: detect_filetype"]}
{"id": "C183", "title": "The results that a fitter shows belong to one fit", "statement": "After any history of fits, successful ones and ones that raise, the documented results of a Fitter (params, xerror, covar, chi2_min, orignorm, rchi2_min, npar, npegged, resid, niter, nfev) are all those of the latest fit that ended, with the values that LMFIT reported for it in the order of the parameters; while no fit has ended, none of them can be read.", "quantifier": "all residual functions, data and parameter information, all histories of fits", "why_tests_cant": "Tests run one successful fit on one object and read a few attributes; which attributes are stale or mixed after failed fits is a statement about all histories.", "anchors": ["neutronpy/lsfit/fitter.py: Fitter.fit", "neutronpy/lsfit/fitter.py: Fitter.orignorm", "neutronpy/lsfit/fitter.py: Fitter.npar", "neutronpy/lsfit/fitter.py: Fitter.niter", "neutronpy/lsfit/fitter.py: Fitter.nfev", "neutronpy/lsfit/fitter.py: Fitter.npegged"]}
{"id": "C184", "title": "The printed description of a time-of-flight instrument is true", "statement": "After a calculation, description_string of a time-of-flight instrument gives the times, lengths, angles and uncertainties that the calculation used, and the matrix, the prefactor, the volume, the widths along the axes in the units that are printed with them, the vanadium width and the crystal that belong to the results.", "quantifier": "all time-of-flight instruments, points and lists of points for which the calculation succeeds with a positive definite matrix", "why_tests_cant": "Tests check that a string is returned for one instrument; whether its numbers are those of the calculation is a statement about all instruments.", "anchors": ["neutronpy/instrument/plot.py: PlotInstrument.description_string", "neutronpy/instrument/tof_instrument.py: TimeOfFlightInstrument.calc_resolution_in_Q_coords"]}
{"id": "C185", "title": "The printed form of an object makes it again", "statement": "repr of a Lattice, Sample, SpaceGroup, Energy, Atom, MagneticAtom, Monochromator, Analyzer, Detector, Chopper, Goniometer or Instrument, which looks like the call of its class, is Python that makes an object with the same attributes.", "quantifier": "all objects of these classes with attributes that are numbers, names, lists or vectors", "why_tests_cant": "Tests compare the text of one object with a string, or only check that there is one; that the text can be read back is a statement about a printer and a parser for all values.", "anchors": ["neutronpy/crystal/lattice.py: Lattice.__repr__", "neutronpy/crystal/sample.py: Sample.__repr__", "neutronpy/crystal/symmetry.py: SpaceGroup.__repr__", "neutronpy/crystal/atom.py: Atom.__repr__", "neutronpy/crystal/atom.py: MagneticAtom.__repr__", "neutronpy/energy.py: Energy.__repr__", "neutronpy/instrument/monochromator.py: Monochromator.__repr__", "neutronpy/instrument/analyzer.py: Analyzer.__repr__", "neutronpy/instrument/detector.py: Detector.__repr__", "neutronpy/instrument/chopper.py: Chopper.__repr__", "neutronpy/instrument/goniometer.py: Goniometer.__repr__", "neutronpy/instrument/tas_instrument.py: TripleAxisInstrument.__repr__", "neutronpy/instrument/tof_instrument.py: TimeOfFlightInstrument.__repr__"]}
{"id": "C186", "title": "Scaling a data set scales its errors", "statement": "(d * c).error is |c| * d.error and (d / c).error is d.error / |c|, whether the errors were given or follow from the counts.", "quantifier": "all data sets with given or counted errors, all numbers c (not zero for the quotient)", "why_tests_cant": "Tests scale the counts of one data set and look at the detector column; the errors, given or not, depend on where the factor enters.", "anchors": ["neutronpy/data/data.py: Data.__mul__", "neutronpy/data/data.py: Data.__truediv__", "neutronpy/data/data.py: Data.error"]}
{"id": "C187", "title": "Combined data sets have the errors and the normalisation of their parts", "statement": "a + b and a.combine_data(b) give at each point the error that follows from the errors of the points that are put together, whether these were given or counted, and are normalised by time or monitor as a and b are.", "quantifier": "all pairs of data sets with the same columns, with or without given errors, normalised by time or by monitor", "why_tests_cant": "Tests combine data sets without given errors and with the default normalisation; what happens to attributes outside the table is a matter of every combination of them.", "anchors": ["neutronpy/data/data.py: Data.combine_data", "neutronpy/data/data.py: Data.__add__", "neutronpy/data/data.py: Data.error", "neutronpy/data/data.py: Data.intensity"]}
{"id": "C188", "title": "Data sets of whole numbers behave as data sets of the same numbers", "statement": "A data set whose counts are whole numbers gives the same values under +, *, /, //, ** and their in-place forms as one that has the same counts as floating point numbers.", "quantifier": "all columns of integers or of floating point numbers, all numbers of both types, all sequences of matching and appended rows", "why_tests_cant": "Tests use arrays of floats, or integers with integers; the rules for the types of arrays make a difference only for some pairs of types, and then silently.", "anchors": ["neutronpy/data/data.py: Data.combine_data", "neutronpy/data/data.py: Data.__mul__", "neutronpy/data/data.py: Data.__imul__", "neutronpy/data/data.py: Data.__itruediv__", "neutronpy/data/data.py: Data.__pow__"]}
{"id": "C189", "title": "Instruments do not change one another", "statement": "Setting orient1, orient2 or a collimation of a triple-axis instrument sets it for that instrument, and changes neither another instrument nor the sample or the array that the instrument was given; an instrument can be made with any sample.", "quantifier": "all histories of making samples, arrays and instruments, assigning samples and arrays to instruments and setting vectors and collimations", "why_tests_cant": "Tests look at one instrument at a time; whether objects are shared shows only in histories with several of them.", "anchors": ["neutronpy/instrument/tas_instrument.py: TripleAxisInstrument.__init__", "neutronpy/instrument/tas_instrument.py: TripleAxisInstrument.orient1", "neutronpy/instrument/tas_instrument.py: TripleAxisInstrument.orient2", "neutronpy/instrument/tas_instrument.py: TripleAxisInstrument.hcol", "neutronpy/crystal/sample.py: Sample.u"]}
{"id": "C190", "title": "A setting that is left out acts as its documented default", "statement": "The resolution of an instrument with a setting left out is the one with the documented default: Cooper-Nathans, monitor correction on, final energy fixed, flat analyzer, isotropic mosaics, no sample mosaic, no reflectivity correction if thickness or Q is left out or negative, and 1 cm for a size of the sample that is not given.", "quantifier": "all settings of a triple-axis instrument and all lists of points", "why_tests_cant": "Tests set some values of some instruments; that leaving out a value and giving its default are the same is a statement about pairs of all instruments and all points.", "anchors": ["neutronpy/instrument/tas_instrument.py: TripleAxisInstrument.calc_resolution_in_Q_coords", "neutronpy/instrument/tas_instrument.py: TripleAxisInstrument.ana", "neutronpy/instrument/tas_instrument.py: TripleAxisInstrument.sample", "neutronpy/crystal/sample.py: Sample"]}
{"id": "C191", "title": "Coarser settings never sharpen a triple-axis resolution", "statement": "If the collimations, guide m-values, mosaics or, with the Popovici method, the sizes of guide, crystals, sample and detector of an instrument are increased and nothing else is changed, then the resolution function falls off no faster in any direction of momentum and energy transfer, at every point of every scan.", "quantifier": "all pairs of valid instruments of which one is coarser, both methods, with and without a focusing analyzer, all lists of points that can be reached", "why_tests_cant": "Tests compare single matrices to stored numbers; that each of some twenty settings can only widen the resolution in all directions at once is an order relation over all instruments.", "anchors": ["neutronpy/instrument/tas_instrument.py: TripleAxisInstrument.calc_resolution_in_Q_coords"]}
{"id": "C192", "title": "Opening an instrument never loses integrated intensity", "statement": "If the collimations, guide m-values or, with the Popovici method, the sizes of guide, crystals, sample and detector of an instrument are increased and nothing else is changed, then the integrated intensity (prefactor divided by the root of the determinant of the resolution matrix) does not decrease at any point of any scan. For an intensity per monitor count, everything up to the monitor has to be the same.", "quantifier": "all pairs of valid instruments of which one is more open, both methods, with and without a focusing analyzer, all lists of points that can be reached", "why_tests_cant": "Tests compare single prefactors and matrices to stored numbers; that the product of a prefactor and a volume grows with each of the openings is an inequality between determinants for all instruments.", "anchors": ["neutronpy/instrument/tas_instrument.py: TripleAxisInstrument.calc_resolution_in_Q_coords"]}
{"id": "C193", "title": "Resolution and lattice geometry do not depend on the choice of cell", "statement": "If a crystal is described by another cell (edges that are linear combinations of the old ones, also oblique or larger ones) and all indices and orientation vectors are changed along with it, then d-spacings, momentum transfers, scattering angles and angles between planes stay the same, the volume of the cell is multiplied by the determinant of the change, and get_resolution returns the same R0, RM and RMS for every list of points, or raises the same error.", "quantifier": "all pairs of valid cells of one crystal, all orientation vectors that are not collinear, all instruments, all lists of points", "why_tests_cant": "Tests use one cubic cell; that two descriptions of one crystal give the same result is a relation between all pairs of cells.", "anchors": ["neutronpy/instrument/tas_instrument.py: TripleAxisInstrument.calc_resolution", "neutronpy/instrument/tools.py: _modvec, _scalar, _star", "neutronpy/instrument/tas_instrument.py: TripleAxisInstrument._StandardSystem", "neutronpy/crystal/lattice.py: Lattice"]}
{"id": "C194", "title": "A saved and loaded instrument has the same resolution", "statement": "A triple-axis instrument that was saved with save_instrument and loaded with load_instrument gives the same resolution at every point as the instrument that was saved.", "quantifier": "all triple-axis instruments, ASCII and HDF5 files, all points", "why_tests_cant": "Tests save one default instrument and compare a few attributes; whether everything that the calculation reads is in the file is a statement about all attributes and all their values.", "anchors": ["neutronpy/fileio/instrument.py: save_tas_instrument, load_instrument", "neutronpy/instrument/tas_instrument.py: TripleAxisInstrument.calc_resolution_in_Q_coords"]}
{"id": "C195", "title": "The Voigt profile is the convolution of a Gaussian with a Lorentzian", "statement": "voigt with one peak of positive widths equals the convolution of gaussian (area one, centred at zero, the Gaussian width) with lorentzian (the area, the position, the Lorentzian width); it is symmetric about its position and decreases strictly with the distance from it, so that the position is its only maximum.", "quantifier": "all areas, positions, positive widths and arguments", "why_tests_cant": "Tests compare the profile with stored values on a grid; that it is the convolution, and that it falls everywhere, are statements about an integral for all parameters.", "anchors": ["neutronpy/functions.py: voigt", "neutronpy/functions.py: gaussian", "neutronpy/functions.py: lorentzian"]}
{"id": "C196", "title": "Two-dimensional profiles have the documented positions and widths", "statement": "A single gaussian2d peak has its only maximum at its position and half of it exactly on the ellipse whose axes are the two FWHM; a single resolution peak with a positive definite matrix has its only maximum at its position and half of it where the quadratic form of the matrix is 2 ln 2; a single gaussian_ring is maximal exactly on the ellipse with semi-axes radius and radius/eccentricity and takes half of the maximum exactly where the distance from the centre in units of the ellipse differs from the radius by half the FWHM.", "quantifier": "all peaks with positive volume and widths, all points of the plane", "why_tests_cant": "Tests integrate or sample one profile; where it takes its maximum and half of it is a statement about all points and parameters.", "anchors": ["neutronpy/functions.py: gaussian2d", "neutronpy/functions.py: resolution", "neutronpy/functions.py: gaussian_ring"]}
{"id": "C197", "title": "Structure factors do not depend on the choice of a larger cell", "statement": "Describing the same crystal with a cell that is n times as large along each axis, with all copies of the atoms, multiplies calc_nuc_str_fac by the number of cells at the reflections of the small cell and gives zero at the additional reflections.", "quantifier": "all materials without space group, all multiples along the three axes, all reflections", "why_tests_cant": "Tests use a few materials in one description; equality of descriptions is a statement about sums over any number of atoms and cells.", "anchors": ["neutronpy/crystal/structure_factors.py: NuclearStructureFactor.calc_nuc_str_fac", "neutronpy/crystal/material.py: Material.__init__"]}
{"id": "C198", "title": "Thickness and incoherent cross section of a sample do not depend on the choice of a larger cell", "statement": "calc_optimal_thickness and calc_incoh_elas_xs of a sample with a given mass give the same values when the crystal is described with a cell that is n times as large along each axis.", "quantifier": "all materials without space group, all multiples along the three axes, all energies, transmissions and masses", "why_tests_cant": "Tests use one description of one material; equality of descriptions is a statement about sums over any number of atoms and cells.", "anchors": ["neutronpy/crystal/material.py: Material.calc_optimal_thickness", "neutronpy/crystal/material.py: Material.calc_incoh_elas_xs", "neutronpy/crystal/material.py: Material.N_atoms"]}
{"id": "C199", "title": "The mirror image of a triple-axis instrument has the mirrored resolution", "statement": "Reversing the scattering senses of monochromator, sample and analyzer together (and mirroring a sample shape given by a matrix) leaves the prefactor R0 unchanged and reverses the second component of Q in the resolution matrix of calc_resolution_in_Q_coords; points that raise an error raise the same error.", "quantifier": "all instrument settings, both methods, all lists of points", "why_tests_cant": "Tests compute one arrangement of senses; the symmetry relates the whole calculation for two instruments at every point and for every combination of settings.", "anchors": ["neutronpy/instrument/tas_instrument.py: TripleAxisInstrument.calc_resolution_in_Q_coords"]}
{"id": "C200", "title": "The unit of length does not matter for the resolution", "statement": "The resolution of a triple-axis instrument depends on the ratios of its lengths only: if arms, radii of curvature, sizes of guide, monitor, crystals, sample and detector, and the thickness of the analyzer (with its inverse, the Q of the crystal) are all given in another unit, calc_resolution_in_Q_coords returns the same prefactors and matrices, or raises the same error. With method=0 this holds whichever lengths are given, with method=1 if all lengths that the method reads are given, since the stand-ins for missing ones are plain numbers.", "quantifier": "all instrument settings with method 0 or 1 or none, all units, all lists of points, including those that raise an error", "why_tests_cant": "Tests compute single instruments in centimetres; that no place of the calculation combines lengths of different powers or adds a fixed length concerns all settings at once.", "anchors": ["neutronpy/instrument/tas_instrument.py: TripleAxisInstrument.calc_resolution_in_Q_coords"]}
{"id": "C201", "title": "Passing the instrument in the opposite direction gives the same resolution", "statement": "Exchanging the two sides of a triple-axis instrument with a flat analyzer (monochromator with analyzer, guide with detector, the collimators and the distances in reverse order, the other energy fixed, the shape of the sample mirrored) and asking for the point (q, -w) in place of (q, w) gives the resolution matrix of the original with the second component of Q and the energy reversed. Without monitor and without the reflectivity of a thick crystal the prefactors of the two directions are in the ratio of the incident and the final energy.", "quantifier": "all valid instrument settings with a flat analyzer and all lists of reachable points", "why_tests_cant": "Tests evaluate single instruments; that the incident and the outgoing side are treated alike in every matrix of the calculation is a relation between two calculations for all settings.", "anchors": ["neutronpy/instrument/tas_instrument.py: TripleAxisInstrument.calc_resolution_in_Q_coords"]}
{"id": "C202", "title": "Resolution at the opposite point of reciprocal space", "statement": "For a sample that looks the same from above and below, get_resolution at (-h, -k, -l, w) returns the same R0 and the same RM as at (h, k, l, w), and the same RMS except that the elements between the components of Q and the energy have the opposite sign; a query raises an error at the one points exactly if it raises the same error at the others.", "quantifier": "all cells, orientation vectors, instrument settings and methods, all lists of points", "why_tests_cant": "Tests look at single points on one side; that nothing but the direction of Q enters, and enters with the right sign at every place, concerns all points and all instruments.", "anchors": ["neutronpy/instrument/tas_instrument.py: TripleAxisInstrument.calc_resolution", "neutronpy/instrument/general.py: GeneralInstrument.get_resolution"]}
{"id": "C203", "title": "SPE files that end early are not accepted", "statement": "Loading an SPE file that ends before all the values announced in its first line raises an error, so that no values are made up.", "quantifier": "all SPE files cut off at the end of a line, whatever the lengths of the axes", "why_tests_cant": "Test files are complete; what happens at each place where a transfer or a measurement may have stopped concerns all files.", "anchors": ["neutronpy/fileio/loaders/dcs_mslice.py: DcsMslice.load_spe"]}
{"id": "C204", "title": "Scaling the counts scales the integral and leaves position and width", "statement": "When the counts of a data set are multiplied or divided by a positive number, its integral is multiplied or divided by it, and peak position and width (with and without fwhm) stay as they are; a background given as a number is to be scaled along, a background estimated from the data follows by itself. With no background or a given one the same holds for every factor but zero.", "quantifier": "all data sets whose counts have a column of their own, all factors, bounds, kinds of background and both values of hkle, including the calls that raise and the results that are nan", "why_tests_cant": "Tests compare single numbers for one normalisation; that analysis does not depend on the units of the counts concerns all data sets and factors.", "anchors": ["neutronpy/data/data.py: Data.__mul__, Data.__truediv__, Data.intensity", "neutronpy/data/analysis.py: Analysis.integrate, position, width, estimate_background"]}
{"id": "C205", "title": "The size of the monitor matters in its own directions", "statement": "With the Popovici method and normalisation to the monitor, a larger monitor leaves the resolution matrices as they are and lowers the prefactor, because it counts more neutrons; the width of the monitor acts in the horizontal direction and its height in the vertical direction.", "quantifier": "all instruments whose numbers are physically meaningful, all pairs of monitor sizes, all scans, all settings of the vertical direction", "why_tests_cant": "Tests use one monitor; which of its two sizes enters, and in which direction, shows only when sizes and collimations are varied independently.", "anchors": ["neutronpy/instrument/tas_instrument.py: calc_resolution_in_Q_coords, lines 642-649 and 853-884", "neutronpy/instrument/monitor.py: Monitor"]}
{"id": "C206", "title": "Integral, position and width do not depend on the order of the points", "statement": "The integral, the peak position and the peak width of a data set do not depend on the order in which its points were measured; in particular they are the same for a scan measured in the opposite direction.", "quantifier": "all data sets with columns of one length, all orders of the points, all bounds, kinds of background and both values of hkle", "why_tests_cant": "Tests analyse scans with increasing coordinates; a scan downwards, or one filled in later, is a different order of the same points.", "anchors": ["neutronpy/data/analysis.py: Analysis.integrate, position, width, estimate_background, get_bounds"]}
{"id": "C207", "title": "Rebinning does not depend on the order of the points", "statement": "The data set returned by bin() does not depend on the order in which the points were measured: it has the same rows, in the same order, with the same averages and errors.", "quantifier": "all data sets with columns (and stored errors) of one length, all orders of the points, all bin specifications, all numbers of processes, including the calls that raise", "why_tests_cant": "Tests rebin a few files in the order in which they were measured; the number of orders of the points grows factorially.", "anchors": ["neutronpy/data/data.py: Data.bin, Data._bin_parallel"]}
{"id": "C208", "title": "Structure factors of many reflections are those of the single ones", "statement": "Asking calc_nuc_str_fac for arrays of h, k and l gives an array with, for every reflection in its place, exactly the structure factor that asking for this reflection alone gives. A number among the three stands for every reflection, and arrays that do not fit together are refused.", "quantifier": "for every material, every wavelength, every number of reflections, every mixture of lists or arrays with numbers", "why_tests_cant": "Tests ask for a few reflections of one material; they do not show that no mixture of arrays and numbers, of whatever length, mixes up reflections.", "anchors": ["neutronpy/crystal/structure_factors.py:22-58"]}
{"id": "C209", "title": "Popovici's method is not applied without the distances it needs", "statement": "With Popovici's method the resolution is calculated from the distances between the components that the user gave: if arms is not set, or has fewer than four entries, the calculation is refused with an error. The distance of the monitor is that of the sample if it is not given and has no effect without normalisation to the monitor. With the Cooper-Nathans method the distances have no effect.", "quantifier": "all settings of a triple-axis instrument, all lists of distances and all lists of points", "why_tests_cant": "Tests set all the distances of one instrument; a default used silently in place of a missing distance gives plausible numbers that no test compares with anything.", "anchors": ["neutronpy/instrument/tas_instrument.py:690-695", "neutronpy/instrument/tas_instrument.py:829"]}
{"id": "C210", "title": "Another unit on the scanned axis scales integral, position and width accordingly", "statement": "When the coordinate along which a scan was made is multiplied by a number (another unit, or the opposite sign), the integral and the peak position on this axis are multiplied by it, the mean squared width by its square and the full width at half maximum by its absolute value; positions and widths on the other axes stay as they are.", "quantifier": "all scans along one axis of any length with an integral that is not zero, all numbers but zero, all bounds and kinds of background", "why_tests_cant": "Tests integrate scans in one unit; that selection, background and division by the integral treat every unit alike is a statement about all scans and all factors.", "anchors": ["neutronpy/data/analysis.py: Analysis.integrate, position, width, get_bounds"]}
{"id": "C211", "title": "Rebinning a second time changes nothing", "statement": "Rebinning a data set that has been rebinned, with the same specification, gives the same rows again: the same coordinates, counts, other columns and errors.", "quantifier": "all data sets, all bin specifications with increasing axes, any numbers of processes", "why_tests_cant": "Tests rebin once; that no row is dropped, moved, mixed with a neighbour or counted twice the second time depends on every grid and on the range that axes without specification get from the data.", "anchors": ["neutronpy/data/data.py: Data.bin, Data._bin_parallel, Data.error"]}
{"id": "C212", "title": "Rebinning does not depend on units and origins of the axes", "statement": "When columns of a data set are given in other units (positive factors) or counted from other origins, and the bounds of the grid with them, bin() returns the same rows in the new units: coordinates and averages are those of the original, converted, and counts and errors are the same.", "quantifier": "all data sets, all bin specifications with increasing axes, all positive factors and all origins for all columns but the counts, any numbers of processes", "why_tests_cant": "Tests rebin in one unit; that the selection of points, the ranges of axes without specification and the order of the rows are the same in every unit is a statement about all data and all factors.", "anchors": ["neutronpy/data/data.py: Data.bin, Data._bin_parallel"]}
{"id": "C213", "title": "An orbit can be given by any of its atoms", "statement": "When a material is described with a space group, each atom of the composition stands for its whole orbit: giving another atom of the same orbit instead (its image under an operation of the group, in any cell) leaves every nuclear structure factor at integer reflections the same.", "quantifier": "all lattices, wavelengths, groups of operations, compositions with any number of atoms, all choices of atoms from the orbits, all integer reflections, with and without mass normalisation", "why_tests_cant": "Tests use one description of a material; that descriptions are interchangeable is a statement about all groups and all choices of atoms.", "anchors": ["neutronpy/crystal/material.py: Material.__init__; neutronpy/crystal/structure_factors.py: NuclearStructureFactor.calc_nuc_str_fac", "neutronpy/crystal/symmetry.py: SpaceGroup.symmetrize_position"]}
{"id": "C214", "title": "The resolution for faster neutrons", "statement": "An instrument whose monochromator and analyzer have planes t times as close (tau t times as large), with t squared times the fixed energy and guides of t times the m-value, has the same angles at t times the wavevector transfer and t squared times the energy transfer; there calc_resolution_in_Q_coords returns a resolution t times as wide in wavevector and t squared times as wide in energy, with the prefactor multiplied by t, or divided by it when normalised to the monitor, or raises the same error. If the cell of the sample is smaller as well, its edges divided by t, get_resolution does the same at the same Miller indices, also for the matrix in the frame of the crystal.", "quantifier": "all instrument settings (both methods, focusing analyzer, mosaics, curvatures, reflectivity), cells and orientations, all t > 0, all lists of points, including those that raise an error", "why_tests_cant": "Tests compare numbers at a few points of one instrument; that the conversion between energy and wavevector is the same in the kinematics, in the matrices and in the prefactor shows only in a statement about all scales.", "anchors": ["neutronpy/instrument/tas_instrument.py: TripleAxisInstrument.calc_resolution_in_Q_coords", "neutronpy/instrument/tas_instrument.py: TripleAxisInstrument.calc_resolution"]}
{"id": "C215", "title": "The resolution of a larger time-of-flight instrument", "statement": "A time-of-flight instrument with all distances between its parts, guide sections and length uncertainties s times as large, and all times (chopper windows, detector time, overrides) s times as large, the choppers having the same discs but turning s times as slowly, has the same resolution: calc_resolution_in_Q_coords returns the same prefactor and matrix, and calc_resolution the same stored results in both frames, or the same error.", "quantifier": "all instruments (any choppers, guides, detector shape, overridden attributes), all s > 0, all points and lists of points", "why_tests_cant": "Tests compare numbers of one instrument; that each derivative carries the right powers of lengths and times shows only in a statement about all scales.", "anchors": ["neutronpy/instrument/tof_instrument.py: TimeOfFlightInstrument.calc_resolution_in_Q_coords", "neutronpy/instrument/tof_instrument.py: TimeOfFlightInstrument.calc_resolution", "neutronpy/instrument/chopper.py: Chopper.tau", "neutronpy/instrument/guide.py: Guide.sigma_l"]}
{"id": "C216", "title": "The time-of-flight resolution for faster neutrons", "statement": "A time-of-flight instrument for neutrons t times as fast (t squared times the incident energy, choppers t times as quick, detector time and given times t times as short) with a crystal whose cell is t times as small and with a given beam divergence has a resolution at the same Miller indices and t squared times the energy transfer just when the first instrument has one, and the matrix of calc_resolution_in_Q_coords is that of a resolution t times as wide in wavevector and t squared times as wide in energy.", "quantifier": "all instruments with a valid cell and given beam divergence (both detector shapes, any choppers, guides and overridden attributes), all t > 0, all points", "why_tests_cant": "Tests compare numbers of one instrument; that energies, speeds, wavevectors and flight times are converted consistently in the kinematics and in all derivatives shows only in a statement about all scales.", "anchors": ["neutronpy/instrument/tof_instrument.py: TimeOfFlightInstrument.calc_resolution_in_Q_coords", "neutronpy/energy.py: Energy", "neutronpy/instrument/tools.py: get_kfree"]}
{"id": "C217", "title": "The time-of-flight resolution at the opposite point", "statement": "At the opposite point -Q and the same energy transfer, with the incident beam inclined to the other side of the plane (or not inclined), a time-of-flight instrument has a resolution just when it has one at Q, and the matrix of calc_resolution_in_Q_coords is the mirror image with respect to the plane of the orientation vectors.", "quantifier": "all instruments with a valid cell (both detector shapes, any angles theta_i and phi_i), all points in and out of the plane, all energy transfers", "why_tests_cant": "Tests look at points in the plane, where the mirror image cannot be told from the original; signs of the out-of-plane terms show only in a statement about all points.", "anchors": ["neutronpy/instrument/tof_instrument.py: TimeOfFlightInstrument.calc_resolution_in_Q_coords", "neutronpy/crystal/sample.py: Sample.get_phi"]}
{"id": "C218", "title": "The convolution preserves order and sign", "statement": "If one cross section is nowhere larger than another, resolution_convolution of the first is not larger at any of the points than of the second; a cross section that is nowhere negative gives values that are not negative. The factors of the modes (and, for the sign, the background) are not negative.", "quantifier": "all cross sections with any number of modes, both methods, every accuracy and seed, every random generator, all points that can be reached, all instruments with valid settings and a level sample", "why_tests_cant": "Every test uses one cross section; that no cross section at all gives a negative intensity, or a larger one a smaller intensity, is a statement about all of them.", "anchors": ["neutronpy/instrument/tas_instrument.py: TripleAxisInstrument.resolution_convolution"]}
{"id": "C219", "title": "The convolution of single modes is linear in the intensities and acts on each point separately", "statement": "For modes with the same dispersions and widths, resolution_convolution_SMA of a combination of intensities is the combination of the results; the background is added once to each point; by the method 'fix', and by 'mc' with a seed, the value at a point depends on the other points of the call, their number and order, and on earlier calls only through the resolution at the point.", "quantifier": "all dispersions, widths, intensities, coefficients, prefactors, backgrounds, methods, accuracies, seeds, instruments, points and orders of points for which the call returns", "why_tests_cant": "Tests convolve one set of modes at one list of points; that intensities superpose and that points do not mix are statements about all pairs of calls.", "anchors": ["neutronpy/instrument/tas_instrument.py: TripleAxisInstrument.resolution_convolution_SMA"]}
{"id": "C220", "title": "The counts can be scaled before or after rebinning", "statement": "(d * c).bin(grid) is d.bin(grid) * c: the same coordinates, averages, counts, names, normalisation and errors.", "quantifier": "all data sets with given or counted errors, all grids with increasing axes that do not bin the counts, all factors c, any numbers of processes", "why_tests_cant": "Tests rebin one data set; that two operations commute is a statement about all data sets, grids and factors.", "anchors": ["neutronpy/data/data.py: Data.bin", "neutronpy/data/data.py: Data.__mul__"]}
{"id": "C221", "title": "The profile of a line is never negative, and the convolution of single modes preserves order and sign", "statement": "_voigt(x, a) is not negative for any x and any width a >= 0, although it is put together from approximations that may be wrong by more than its value. For modes with the same dispersions and widths, where the intensities are nowhere larger than others, resolution_convolution_SMA is not larger at any of the points; intensities that are nowhere negative give values that are not negative. The widths and the factors of the modes (and, for the sign, the background) are not negative.", "quantifier": "all x and a >= 0; all modes, both methods, every accuracy and seed, every random generator, all points that can be reached, all instruments with valid settings and a level sample", "why_tests_cant": "The profile is a difference of an exponential and a quotient of polynomials far from the line, where the exact value is smaller than the error of the approximations; no finite number of points shows that the difference does not become negative.", "anchors": ["neutronpy/instrument/tools.py: _voigt", "neutronpy/instrument/tas_instrument.py: TripleAxisInstrument.resolution_convolution_SMA"]}
{"id": "C222", "title": "A projection of the resolution ellipsoid is its shadow and never narrower than a cut", "statement": "The ellipse of project_into_plane is the shadow of the ellipsoid: a point belongs to it exactly if some point of the ellipsoid lies above or below it. It contains the cut through the ellipsoid, and is the same exactly if the component that is projected out is not correlated with the others. The width that get_bragg_widths gives for vanadium is never smaller than the energy width at a Bragg peak, and the half width of fproject is never smaller than that of the cut along its axis; they are equal exactly if the quantity on the axis is not correlated with the others.", "quantifier": "all symmetric positive definite matrices, all axes, all sizes of the ellipsoid", "why_tests_cant": "The order of the widths and the condition for equality are statements on all matrices; for the usual matrices, with strong correlations, a wrong formula gives plausible widths too.", "anchors": ["neutronpy/instrument/tools.py: project_into_plane, get_bragg_widths, get_phonon_width, fproject"]}
{"id": "C223", "title": "Intensities do not depend on the origin nor on the cell in which an atom is listed", "statement": "Moving all atoms of a material by the same vector multiplies calc_nuc_str_fac by a phase that is common to all and leaves its squared modulus at every reflection; listing an atom at a position in another unit cell (a coordinate larger or smaller by a whole number) changes nothing.", "quantifier": "all materials without space group, with and without mass normalisation, all shifts, all reflections and wavelengths", "why_tests_cant": "Tests use one choice of origin; that the sum over atoms depends on their distances only, for all compositions and shifts, is not visible in any finite number of them.", "anchors": ["neutronpy/crystal/structure_factors.py: NuclearStructureFactor.calc_nuc_str_fac", "neutronpy/crystal/material.py: Material.__init__"]}
{"id": "C224", "title": "How often the atoms of an orbit are counted", "statement": "symmetrize_position lists every position of an orbit equally often: once for each operation that leaves the given position where it is, up to lattice translations. The number of different positions (the multiplicity) times the number of these operations is the number of operations of the group. For a material with a space group, without displacement parameters and mass normalisation, calc_nuc_str_fac at a reflection is, where it is a number, the sum over the different atoms of each orbit, each orbit weighted with the number of operations that leave its atoms where they are.", "quantifier": "all positions and all operation lists that are groups modulo translations, in particular all space groups of the database; all compositions, reflections, lattices and wavelengths", "why_tests_cant": "That all positions of an orbit have the same weight is a counting argument on cosets; tests look at single positions in single groups.", "anchors": ["neutronpy/crystal/symmetry.py: SpaceGroup.symmetrize_position", "neutronpy/crystal/material.py: Material.__init__", "neutronpy/crystal/structure_factors.py: NuclearStructureFactor.calc_nuc_str_fac"]}
{"id": "C225", "title": "Integrals over parts of a scan", "statement": "integrate over a range of points is the sum of integrate over two parts of the range that meet at a measured point, which belongs to both, whatever the background. Along an increasing axis the integral divided by the length of the range lies between the least and the greatest background-corrected intensity, and, if none of these is negative, extending the range never makes the integral smaller.", "quantifier": "all data sets, backgrounds and masks for which the integral is defined; scans along one axis of any length for the last two", "why_tests_cant": "The integral of one data set over one range is compared with one number in the tests; how it depends on the range is a statement on all data sets and masks.", "anchors": ["neutronpy/data/analysis.py: Analysis.integrate, Analysis.get_bounds"]}
{"id": "C226", "title": "A flat background is removed", "statement": "When every point of a data set has counted the same number of background counts per monitor count (or per second, with time normalisation) more, and the background is estimated from the data ('minimum' or 'percent'), then integrate, position and width (also with fwhm) return what they returned before. With 'percent' this holds if no intensity is negative before or after; negative intensities are left out of that estimate, and there are data sets with one for which the integral changes. With a given background the integral changes.", "quantifier": "all data sets whose counts have a column of their own, all flat backgrounds, masks and both values of hkle", "why_tests_cant": "The tests estimate the background of one data set; that the whole analysis does not depend on a flat background is a relation between two runs for all data.", "anchors": ["neutronpy/data/analysis.py: Analysis.estimate_background, Analysis.integrate, Analysis.position, Analysis.width", "neutronpy/data/data.py: Data.intensity"]}
{"id": "C227", "title": "Wavevectors of the planes of one crystal", "statement": "The wavevectors that the table of monochromator and analyzer crystals holds for different planes of the same cubic crystal are proportional to the square root of h^2+k^2+l^2, within a relative error of one thousandth of the square, and graphite (004) has twice the wavevector of graphite (002).", "quantifier": "all pairs of planes of the same crystal in the table", "why_tests_cant": "The tests look up single names; that the numbers belong together, and that of two lines with the same key the right one wins, is a relation between all entries of the table as the dictionary holds them.", "anchors": ["neutronpy/instrument/tools.py: GetTau"]}
{"id": "C228", "title": "How much background is taken away", "statement": "A larger percentage never lowers the background that estimate_background takes in percent, and it gives a number wherever a smaller percentage does; from 100 on it is the average of all intensities that are not negative. The integral along a line falls by the difference of two backgrounds times the length of the range, whatever kinds of background are compared, so along an increasing axis a larger percentage never gives a larger integral.", "quantifier": "all intensities, all percentages from zero on; all scans along one axis and masks for the integral", "why_tests_cant": "How the result depends on the percentage is a statement on all data and all pairs of percentages.", "anchors": ["neutronpy/data/analysis.py: Analysis.estimate_background, Analysis.integrate"]}
{"id": "C229", "title": "How the attributes of neutrons compare", "statement": "When one attribute of an Energy is multiplied by a positive number, every attribute is multiplied by the power of the number that follows from their dependence on the velocity: energy, temperature and frequency go with its square, the wavevector with the velocity and the wavelength with its inverse. Of two neutrons the one with more of any attribute but the wavelength has more of all of them and a shorter wavelength.", "quantifier": "all pairs of attributes, all positive values and factors, all positive values of the physical constants", "why_tests_cant": "The tests construct single energies; how all attributes follow a change of one of them is a relation between two objects for all values.", "anchors": ["neutronpy/energy.py: Energy"]}
{"id": "C230", "title": "Units and origins of the axes of the profiles", "statement": "When positions are given in another unit and from another origin and counts in another unit, and the parameters are converted accordingly (areas in counts times positions, volumes in counts times squared positions, matrix elements in inverse squared positions, eccentricity and R0 unchanged), gaussian, lorentzian, voigt, gaussian2d, gaussian_ring and resolution return the same values in the new unit of counts.", "quantifier": "all positions, all numbers of peaks with positive widths, all positive units of positions (one for both axes), all origins and units of counts", "why_tests_cant": "The tests compare single curves with numbers; that all of them are the same in any units is a relation between evaluations with different parameters.", "anchors": ["neutronpy/functions.py: gaussian, lorentzian, voigt, gaussian2d, gaussian_ring, resolution"]}
{"id": "C231", "title": "The unit of length of a lattice", "statement": "When the lengths of a lattice are given in another unit, volume scales with its third power, reciprocal_volume with the inverse third power, astar, bstar, cstar, the B matrix and get_q with its inverse, and get_d_spacing with the unit itself. The reciprocal angles and get_angle_between_planes stay as they are, and so does get_two_theta when the wavelength is given in the same unit. Inputs that give no number give none in the new unit either, for the same reason.", "quantifier": "all lattices (also impossible ones), all reflections and wavelengths, all positive factors", "why_tests_cant": "The tests compute single lattices; the behaviour under a change of units is a relation between two lattices for all lengths and angles.", "anchors": ["neutronpy/crystal/lattice.py: Lattice"]}
{"id": "C232", "title": "Thickness of stacked and mixed samples", "statement": "The thickness that calc_optimal_thickness returns for the product of two transmissions is the sum of the thicknesses for the two. For a cell with the atoms of two others in the same volume the inverse thicknesses add. For faster neutrons it is never smaller, and without absorption it does not depend on the energy.", "quantifier": "all cells, all atoms with occupancies and cross sections that are not negative, all energies and transmissions for which there is a thickness", "why_tests_cant": "The tests compute one thickness; these are relations between thicknesses for all cells, energies and transmissions.", "anchors": ["neutronpy/crystal/material.py: Material.calc_optimal_thickness"]}
{"id": "C233", "title": "Detailed balance at low and at high temperatures", "statement": "detailed_balance_factor grows with the energy transfer, depends on the ratio of energy and temperature only, and falls with the temperature if energy is transferred to the sample (and grows if energy is taken from it). It is never larger than the classical value E/kT, tends to one at low temperatures for E > 0, and its product with the temperature tends to E/k at high temperatures. Where E is not negative and the scattering function is not negative, dynamic_susceptibility lies between zero and the scattering function.", "quantifier": "all energies and positive temperatures; all data sets for the susceptibility", "why_tests_cant": "Order and limits are statements on all energies and temperatures.", "anchors": ["neutronpy/data/analysis.py: Analysis.detailed_balance_factor, Analysis.dynamic_susceptibility"]}
{"id": "C234", "title": "What the Currat-Axe warnings depend on", "statement": "No warning of currat_axe_peaks is lost if the tolerance is larger, if further Bragg positions are given, or if each step of the scan is divided into smaller ones. The points warned of for two lists of Bragg positions together are those warned of for either, and a scan of more than one point taken in the opposite direction is warned of at the same points.", "quantifier": "all instruments, scans, lists of Bragg positions and tolerances", "why_tests_cant": "Compares the warnings of pairs of calls for all scans and peaks; no test calls the function.", "anchors": ["neutronpy/spurion.py: currat_axe_peaks"]}
{"id": "C235", "title": "How oscillators and dispersions follow their parameters", "statement": "For the oscillators a later start is a smaller phase, the opposite amplitude is a phase of half a turn, the damped oscillator shrinks by the same factor in every turn, and two with the same frequency and friction together are again one, whose amplitude follows from the amplitudes and the difference of the phases. The dispersions do not depend on the unit of the wavevector, follow the first parameter proportionally (as its root for phonons), rise from the zone centre to the first maximum, and the ferromagnetic one is twice the square of the acoustic one with half of p[1].", "quantifier": "all parameters, times and wavevectors; non-negative p[0] where a root is taken", "why_tests_cant": "Relations between pairs of parameter sets, for all of them and at all times and wavevectors.", "anchors": ["neutronpy/models.py: simple_harmonic_oscillator, damped_harmonic_oscillator, acoustic_phonon_dispersion, ferromagnetic_disperion, antiferromagnetic_disperion"]}
{"id": "C236", "title": "The time of a chopper and the descriptions of its opening", "statement": "Chopper.tau is the documented standard deviation in microseconds of the time for which the disk is open, whether the opening is given by its angle in degrees or by its size and the radius in cm, so that both descriptions of one opening give the same time. Two disks with opposite sense have half of that time, and neither the unit of length nor the width of the beam matters.", "quantifier": "all choppers without an explicit tau, with non-zero speed and opening", "why_tests_cant": "Compares descriptions of the same chopper for all openings, radii and speeds.", "anchors": ["neutronpy/instrument/chopper.py: Chopper.tau"]}
{"id": "C237", "title": "Chopping what is chopped", "statement": "Applying chop to its own result changes nothing. Of two tolerances used for an array one after the other, in either order, the larger counts, and no entry of an array moves by the tolerance or more or changes its sign.", "quantifier": "all values nested to any depth and all tolerances; all arrays", "why_tests_cant": "Quantifies over nested values of any depth; the tests chop single values once.", "anchors": ["neutronpy/instrument/tools.py: chop"]}
{"id": "C238", "title": "How the angle of the scattering triangle follows its sides", "statement": "get_angle_ki_Q depends on the ratios of ki, kf and Q only; the opposite direction of the goniometer gives the opposite angle, and the angle outside the triangle is the supplement of the one inside. The projections of the two wavevectors on Q, with the angles for ki and kf and for kf and ki, add up to Q; for elastic scattering Q is 2 k sin(theta). The angle grows with the final wavevector.", "quantifier": "all positive ki, kf and Q (also Q = 0 for ratios, direction and supplement)", "why_tests_cant": "Relations between pairs of calls, for all triangles; the tests have single triangles.", "anchors": ["neutronpy/instrument/tools.py: get_angle_ki_Q"]}
{"id": "C239", "title": "Free wavevectors of successive energy transfers", "statement": "get_kfree from the final wavevector to the initial one and back, with the same or with the opposite energy transfer, gives the final wavevector again; two transfers one after the other are one of their sum. A larger transfer needs a longer initial and leaves a shorter final wavevector, and a longer fixed wavevector goes with a longer free one.", "quantifier": "all energy transfers and wavevectors", "why_tests_cant": "Relations between the results of several calls for all transfers and wavevectors.", "anchors": ["neutronpy/instrument/tools.py: get_kfree"]}
