# Formal model of neutronpy in Lean 4

## 1. What this is

`lean/Verif` contains a Lean 4 model of parts of neutronpy (source read as text
in /repo, never run) and theorems about it.  Every definition of the model has
a comment with the file and lines it models and the simplifications made.

Layout (one directory per subject):

* `Model.lean` (or `Arith`, `Bin`, `Scans`, `Heap`, `Loaders`, `Save`, `Detect`,
  `Instr`, `Instrument`, ...) – the model of the code, branch by branch
* `Spec.lean` – small independent specifications (most are stated directly in the
  theorems or beside them, as definitions that do not use the model)
* `*Lemmas.lean` – helper lemmas
* `*Props*.lean` – the property theorems, named `Cnn_...`, with a concrete
  `example` beside each showing that the hypotheses can be met
* `Audit.lean` – `#print axioms` for every theorem of the manifest (generated)

`properties.jsonl` has the properties, `MANIFEST.json` the theorems per property,
`seeded/LOG.jsonl` the trials with wrong programs.

## 2. Trusted base

* Lean 4.33.0 kernel, Mathlib 4.33.0 sources as installed.
* Axioms: only `propext`, `Classical.choice`, `Quot.sound` (checked with
  `#print axioms` in `Verif/Audit.lean`).
* Own axioms: none.  No `sorry`, `admit`, `native_decide`, `bv_decide`.
* That the model says what the code does.  Nothing connects the two but the
  reading of the source; each definition cites the lines it was read from.
* Numbers: floating point is idealised as exact arithmetic in an ordered field
  (`ℚ`, `ℝ` or a generic linearly ordered field).  Rounding, overflow, signed
  zeros, infinities and NaN are *not* modelled except where a definition
  explicitly has a NaN/undefined value (`Option`, or a `nan` of the reader of
  numbers in files).  A division whose divisor may be zero is guarded by an
  explicit hypothesis or by an `Option`.
* Python: mutation is modelled by returning the new object; aliasing only where
  a property is about it (`Data/Heap.lean`, `Data/Scans.lean`, the instrument
  state of `Resolution/`).  Exceptions are values; which exception is raised is
  modelled, its message is not.  Attribute lookups that fail, unbound names and
  missing keys are modelled where the code can reach them.  Text is a list of
  characters; `str.split`, `strip`, `replace`, `lower` are modelled for ASCII.
* NumPy and SciPy: elementwise arithmetic, broadcasting of one-dimensional
  arrays, `lexsort` as a stable sort, `linspace`, `trapz`, `inv`, `det`, `arccos`,
  `arctan2`, `meshgrid`, `squeeze` by their documented meaning.  `wofz` and `erf`
  are parameters or their integral definitions.
* `np.genfromtxt` / `np.loadtxt`: text after `#` is cut, blank lines skipped,
  rows of different lengths are a `ValueError`; a token that is not a number is `nan`
  for the former and an error for the latter; a file with one row or one column
  comes back squeezed.  Blank lines together with `skip_footer` are simplified
  (said in the comment).  What a numeral means is a parameter (`Reader`).
* LMFIT: the optimiser is a parameter with the laws `Env.Lawful` (keeps names
  and order, keeps fixed parameters, stays within the limits, clips the start) and, for C102,
  `Scaled`.  Nothing else is assumed of it.
* h5py and pickle: what is stored under a key comes back, except that text
  attributes come back as bytes where the code then applies `str`.

## 3. What is modelled and what is not

| Source file | Modelled | Not modelled |
|----|----|----|
| `data/data.py` | constructor, attributes and setters, operators, comparison, `combine_data`, `subtract_background`, `bin` with its worker split, heap of arrays for aliasing, types of columns (integers or floats) with `__pow__` (C188) | – |
| `data/analysis.py` | `integrate`, `position`, `width`, `detailed_balance_factor`, `scattering_function`, `dynamic_susceptibility`, `estimate_background`, `get_keys`, `get_bounds` | – |
| `data/scans.py` | constructor, `update`, `func_col` and the summaries, cell edges of `pcolor`, what the plots show (C171, C172) | matplotlib itself |
| `data/plot.py` | which columns, errors, fits and labels are drawn (C161, C167, C176) | matplotlib itself |
| `energy.py` | all | printing of units |
| `functions.py` | all profile functions | – |
| `models.py` | both oscillators and the three dispersions with a body | `optical_phonon_disperion` (empty) |
| `spurion.py` | `currat_axe_peaks`, `aluminum` (C162) | – |
| `crystal/lattice.py` | all | – |
| `crystal/symmetry.py` | parser, printer, closure, lookup in the database, every entry of the database | – |
| `crystal/structure_factors.py`, `crystal/material.py`, `crystal/atom.py` | structure factors, form factors, masses, cross sections, placing of atoms by symmetry, what the plots of the unit cell and the structure factor show (C168) | matplotlib itself |
| `crystal/sample.py` | attributes, `get_phi` and the plane, comparison (C159), printing (C185) | – |
| `crystal/tools.py` | all | – |
| `instrument/tools.py` | crystal table, `_CleanArgs`, `_scalar`, `_star`, `_modvec`, scattering triangle, projections and widths, standard system, `_voigt` | – |
| `instrument/tas_instrument.py` | `calc_resolution_in_Q_coords`, `calc_resolution` with `Smooth` (C156), scattering-plane geometry, `get_angles_and_Q`, `resolution_convolution`, `resolution_convolution_SMA`, attribute handling used by files, printing (C185) | – |
| `instrument/general.py` | all: `get_resolution` with its cache, `calc_projections`, `get_resolution_params` | the reshaping of arrays for one point |
| `instrument/monochromator.py`, `analyzer.py`, `chopper.py`, `goniometer.py` | attributes, time resolution, rotation matrices, printing (C185) | – |
| `instrument/tof_instrument.py`, `guide.py`, `detector.py` | constructor, `calc_resolution_in_Q_coords`, `calc_resolution`, the printed table (C184) | – |
| `fileio/data.py` | save (ASCII, HDF5, pickle), detection, loading several files | – |
| `fileio/instrument.py` | saving and loading of `.instrument` text files | – |
| `fileio/loaders/*` | `neutronpy`, `spice`, `mad`, `ice`, `icp`, `dcs_mslice`, `grasp` (text files, and the attributes read from NeXus files, C182) | the HDF5 library |
| `lsfit/fitter.py`, `lsfit/tools.py` | object state, parameter passing, results, the table and the plot of a fit (C169, C174, C183) | LMFIT itself |
| `instrument/plot.py` | ellipses, slices and the description (C163, C164, C165, C166) | matplotlib itself |
| `gui.py` | the path from the input fields to the resolution (C175) | Qt, layout of the windows |
| `logger.py` | – | logging |

## 4. How each property is modelled and proved

(Rows C01–C72 were the plan written before the proofs.)

| Id | Model and method |
|----|----------------------|
| C01–C06 | `Data/`: column tables as ordered association lists over a linearly ordered field; `combine` mirrors the double loop of `combine_data` (first match, break/else, append, lexsort, permute). Closed form of the loop by induction over right rows, then per-column corollaries; C06 by refinement to finitely supported maps. |
| C07 | `Data/`: statement semantics of `x op= y` (rebinding to the return value). Expected false (methods return None); negation plus partial. |
| C08 | `Data/`: object with cached `m0`, `t0`; histories of operations. Expected false; negation plus partial for fresh results. |
| C09–C14 | `Bin/`: bin keys, grid, chunking, membership, averages, NaN removal. C10 by a partition lemma for `n*N//p`; C12 by grid arithmetic, negation for boundary points; C14 expected false. |
| C15–C18 | `Data/`: intensity/error/subtract_background/mul/div. |
| C19 | `Data/`: state machine of setters with failure as value; invariant by induction on histories. |
| C20, C21 | `Data/`: broadcasting equality and constructor; expected false in general, partial theorems. |
| C22–C25 | `Analysis/`: trapz over lists; get_bounds; convexity; order statistics by sorting. C22 expected false for h = 0. |
| C26 | `Analysis/`: real exponential identities. |
| C27 | `Scans/`: state machine; expected false after update. |
| C28–C32 | `Energy/`: state machine over ℝ, invariant by induction over histories; array branch expected false; equality not transitive. |
| C33–C37 | `Functions/`: profile functions over lists of parameters; Mathlib integrals. |
| C38–C43 | `Crystal/`: real matrices, trigonometric identities. C40 expected false for oblique cells; C43 classification partly false. |
| C44, C45 | `Crystal/`: Gram–Schmidt; C45 expected false for non-cubic cells. |
| C46 | `Crystal/`: Heron type identity for the volume, equality of metrics. |
| C47–C49 | `Symmetry/`: affine operations with rational translations, saturation loop, parser/printer on characters. |
| C50–C52 | `StructureFactor/`: sums of complex exponentials. |
| C53, C54 | `Tools/`: table lookup; list padding. |
| C55, C56 | `Tools/`: Schur complement, Gaussian integral, rotation diagonalisation. |
| C57, C58 | `Tools/`: law of cosines; kinematics; C58 expected false for energy gain (nan). |
| C59 | `Tools/`: nested values; expected false for scalars. |
| C60 | `Resolution/`: cache state machine; expected false. |
| C61–C63 | `Resolution/`: Cooper–Nathans matrix pipeline; per-point loop with carried state. |
| C64 | `Resolution/`: standard system in the reciprocal metric. |
| C65 | `FileIO/`: line format writer and parser on characters. |
| C66–C68 | `FileIO/`: decision logic and state. |
| C69, C70 | `Fitter/`: state machine with the optimiser as a parameter. |
| C71, C72 | `Instrument/`: attribute state machines. |
| C73–C78 | `Data/`: roles and column names as a parameter of the object; heap model for aliasing of results with operands; witnesses for other column names. |
| C79, C80 | `Data/Scans`: store of dictionaries, induction over histories of updates; cell edges over an ordered field. |
| C81 | `Data/Analysis`: closed form over ℝ; zero final energy as a case of its own. |
| C82 | `Functions/`: integrals over ℝ and ℝ² by Mathlib. |
| C83, C84 | `Symmetry/`: the whole database transcribed, a closure check proved sound and evaluated by the kernel on every entry; state machine of the setter. |
| C85–C89 | `Structure/`: finite sums of complex exponentials under a change of origin or symmetry operation; form factors as sums of exponentials with the tables of the database. |
| C90, C91 | `Tools/`: quadratic forms and their projections. |
| C92, C93 | `Instrument/`: formulas over ℝ with failure cases; unbounded recursion by fuel. |
| C94 | `Crystal/`: reciprocal metric. |
| C95, C96 | `Resolution/`: determinants under the frame change; rejection of open triangles. |
| C97–C99 | `FileIO/`: writer and reader on characters. |
| C100–C102 | `Fitter/`: state machine with a lawful optimiser. |
| C103–C106 | `Structure/`: sums over atoms. |
| C107 | `Data/`: setters of counts. |
| C108–C117 | `FileIO/Loaders`: the readers on lists of lines with a parameter for numerals; a description of the file format as specification, closed form of the result by induction on lines. |
| C118–C121 | `Models/`: the functions over ℝ; derivatives and limits by Mathlib, the sets of periods and of values exactly. |
| C122 | `Resolution/Flight`: the flight of a neutron in three dimensions as functions of the eight angles of its directions (Bragg's law at both crystals), differentiated by Mathlib; the resolution matrix is the least cost over the neutrons with a given deviation. Independent of the matrices A, B, C of the code, of its treatment of guides and of its choice of mosaics; the vertical mosaic of the monochromator is ignored by the code, which changes every matrix (`Resolution/PropsVmosaic`), and guides after the sample get the wrong wavevector, which changes every inelastic one (`Resolution/PropsGuideFalse`). |
| C123 | `Resolution/PropsIntegral`: determinants; an exact condition, and by C122 instruments for which it fails. |
| C124 | `Resolution/Paths`: the path of a neutron through points of the five elements, its angles of flight as arctangents, bent crystals, variances as integrals; derivatives by Mathlib; two nested minimisations give the form of the Popovici matrix (`Resolution/PropsPaths`). |
| C125 | `Resolution/PropsCylinder`: integrals over ellipse and segment against the shape matrix of the code; equality of the answers with those of a smaller box for all lists of points. |
| C126 | `Resolution/PropsForms`: `get_resolution` on objects with any stored state and arguments in any form, against the points the arguments mean. |
| C127 | `FileIO/LoadersKeys`: the properties of `Data` as look-ups with the names set by each loader; every file of each format, with literal column names in the statements. |
| C128 | `Angles/Props`: wave numbers from the energy model (C28), Bragg's law as a relation between angle, wave number and spacing; the constant of the code against the constants of nature by interval bounds. |
| C129 | `Angles/PropsQ`: Q against the reciprocal vectors of any realisation of the cell; the scattering condition as two components of ki - kf after turning the crystal; counterexamples for all lattices with right angles. |
| C130 | `Angles/PropsSpurion`: membership in the list of warnings for any scan and any list of peaks; the points as an arithmetic progression between the ends. |
| C131 | `Resolution/PropsProjections`, `PropsView`: the function whose contour a curve shows is written as a slice or as a double integral of the Gaussian; a curve is an `Outline` of it: all its points at half height, every contour point near one of them, widths along perpendicular axes. |
| C132 | `Resolution/PropsParams`: the Gaussian with the returned parameters is compared with the slice and the integral; exact condition for the height and a counterexample from scaling (C134); error branches for any stored state. |
| C133 | `Resolution/PropsMirror`: every matrix of the calculation intertwines the reflection up/down; induction over the loop and over the sequence of queries. |
| C134 | `Resolution/PropsScale`: relation between two runs of the loop, by induction over the points. |
| C135 | `Tof/Flight` describes the flight from chopper to pixel as a function of nine measured quantities; `Tof/Derivs` differentiates it by Mathlib; the matrix is compared with the inverse of the propagated covariance. Negations from the bench spectrometer of `Tof/Bench`. |
| C136 | `Tof/PropsTriangle`: transfer of the nominal neutron; exact condition in the plane, witnesses elsewhere. |
| C137 | `Tof/Props`: congruence with a positive diagonal; full rank of the derivatives for existence. `Tof/PropsBeam`: beams from any direction; the direction left free when the beam points to the detector. |
| C138 | `Tof/PropsCrystal`: components of a displacement along the direction of Q as specification; orthorhombic counterexample. |
| C139 | `Tof/PropsMore`: the inverse of positive definite matrices reverses the order. |
| C140–C142 | `Tof/PropsMore`: decision logic; sorting by permutation lemmas; conversion of each attribute. |
| C143 | `Tof/PropsMore`: scaling of the reciprocal metric, relation between two runs. |
| C144 | `Convolution/Props`: completing the square, determinant of the transformation. |
| C145 | `Convolution/Grid`, `Limit`: grid sums as integrals of functions constant on cells, dominated convergence, substitution of the tangent, Fubini; specification in `Convolution/Spec`. `Convolution/PropsMore` compares determinants for coupled matrices. |
| C146 | `Convolution/PropsForm`: induction over blocks and points with the state of the random numbers; relations between runs. |
| C147 | `Convolution/PropsForm`: decision table, for all arguments. |
| C148 | `Convolution/PropsMC`: the random numbers are an abstract state with `seed` and `randn`. `Convolution/Theta`, `Law`, `Mean`, `PropsMean`: a probability measure on that state under which the numbers of each sample are independent with a given law; the law of the tangent of a normal number by Poisson summation, the mean by linearity of the integral; random numbers with these laws are constructed from an infinite product measure. `Variance`, `PropsVariance`: variance of sums of independent samples, Chebyshev. |
| C149 | `Convolution/PropsForm`: the Gaussian integral of a positive definite matrix, bounds on pi. |
| C150 | `Single/Model`: the function and `_voigt`, real numbers for complex64; `Lemmas`: the three variables reproduce the quadratic form with the energy completed to a square, grids of three dimensions; `Props`: the mean over the energies of a mode is the complex error function, the limit. `PropsCoupled`: a matrix with an element that is not read. |
| C151 | `Single/Props`: the table of outcomes against a specification of its own. |
| C152 | `Single/Voigt`: the axis, conjugation; `Plasma`: the complex error function, its values on the axis, its bound, and a maximum principle for unbounded regions; `Check`, `Exp`: verified checkers for bounds of rational functions and of the exponential along lines (integer polynomials with nonnegative coefficients after a change of variable); `Pieces`: their certificates, by `decide +kernel`; `Regions`: zeros of the denominators, the four regions one after the other. |
| C153 | `Single/Mean`, `PropsMean`: as C148, with three random numbers for each sample; the error of the profile is carried through the mean. |
| C154 | `PropsMonitor`: the Cooper-Nathans form is block diagonal, so its determinant is that of the primary side, which cancels against the flux on the monitor, times that of the analyzer side; induction over the list of points. The specification is Dorner's closed form of the transmitted volume, times the reflectivity of a thick crystal. |
| C155 | `PropsGuide`: the result for a guide equals, for all settings, that for a collimator with the code's constant; this is compared with the variance of the uniform distribution. After the sample the determinant in the prefactor, which is strictly monotonic in each divergence, tells the two apart for either method, with or without mosaic, monitor and focusing. |
| C156 | `Smooth`, `PropsSmooth`: infinities and `nan` of floating point are values of the model; element-wise division followed through the formula for arbitrary matrices, compared with the inverse of the sum of the covariances. |
| C157 | `PropsFocus`: specification: the flight of C122 with blades turned by the direction in which they are seen; the replaced block of the inverse covariance is shown to be the least cost by block algebra; flat and focusing matrices are always different (correlation of direction and length). |
| C158 | `ParCfg` models the reading of both files and the settings made; `ParCfgProps` compares with `byHand`, the settings read off the documentation's tables; meaning of lines as `Says` (last line about a name); induction over the lines. |
| C159 | `Equality` models the `__dict__` as an association list and numpy's comparison with broadcasting; `EqualityProps` compares with agreement of the attribute maps, for all objects. |
| C160 | `Taz` models both directions between objects and lists of XML elements (XML syntax itself is trusted); `TazProps` proves the round trip by induction over the table of keys and the failures for all files. |
| C161 | `Data/Contour`: the coordinates of the mesh as lists, with the exceptions of numpy; sorted lists without duplicates are unique, which gives the step and the ends of an axis; the interpolation and the drawing are not modelled. |
| C162 | `Structure/Spurion`: the rows and their sorting, on top of the models of the energy, the lattice, the database of groups and the structure factor; every operation of Fm-3m is shown to be a signed permutation with a face-centring translation by induction over the generated group. The rounding of the printed numbers is left out. |
| C163 | `Resolution/Ellipsoid`: the drawn surface as a set of points, `marching_cubes` idealised as the level set; Cauchy-Schwarz for positive definite forms shows that the ellipsoid fits into the box. `Resolution/EllipsoidOdd`: odd numbers of intervals, where the centre is not on the grid. |
| C164 | `Resolution/Figure`: object with stored curves, loop over positions with the running limits, labels; invariant over sequences of calls; the centre of an ellipse is determined by three of its points, which tells figures apart. |
| C165 | `Resolution/Report`: the numbers of the text before rounding and the exceptions, for `tas`; compared with the integral over the four coordinates and with half maxima (C91) for any positive definite matrix. |
| C166 | `Angles/Layout`: walk along the beam and outlines of the components as lists of points; compared with rotations of the beam direction, rectangles, mirror planes. |
| C167 | `Data/Line`: the columns drawn, the error bars, the curve of the fit, the defaults and exceptions; gaussian_filter and the fitter are parameters. |
| C168 | `Structure/Cell`: combinations of corners with the test of the code, points of the atoms; compared with the edges of a box and with distances in any realisation of the lattice. |
| C169 | `Fitter/Table`: the number of decimals from the logarithms and the decimal values written; compared with bounds on the rounding relative to the error. |
| C170 | `Instrument/Create`: Python's binding of arguments, the dispatch and the constructors; compared with the values given in the call. |
| C171 | `Data/ScansPlot`: the loop over the scans; compared with the points of each scan and the offset. |
| C172 | `Data/ScansPlot`: the cells between the boundaries and the search for the limits; compared with the data at their places and `IsLeast`/`IsGreatest`. |
| C173 | `Fitter/Settings`: the setters with their checks, the constructor and what is passed to LMFIT; compared with the latest fitting value in the history of assignments. |
| C174 | `Fitter/Plot`: the elements taken from the tuple and what is drawn; compared with the data, the function and the residuals one by one. |
| C175 | `Gui/Model`: the texts and choices, their conversion and the settings of the instrument; compared field by field with what is entered. |
| C176 | `Data/Volume`: the columns, the mask and the logarithmic colour scale; compared with the points with positive value one by one. |
| C177 | `Structure/Ions`: the look-ups in both tables (generated into `Structure/IonTable`) and the missing values; facts about the whole tables by kernel computation, lifted to all compositions by induction. |
| C178 | `Structure/Magnetic`: the constructor with missing keys, over any field; compared with the images of the described atoms under the operations of `SpaceGroup`. |
| C179 | `Structure/Magnetic`: the choice of points and the look-up of the ion; the points compared with an equally spaced division of the range. |
| C180 | `FileIO/InstrH5`: the attributes written, group by group, and the assignments of the loader in the order of h5py; values compared as in C65. What h5py does with an attribute is part of the model. |
| C181 | `Symmetry/Parts`: the forms of the argument and the slices, also of three-dimensional arrays; compared entry by entry with the operation. |
| C182 | `FileIO/Grasp`: which reader each loader takes, and the data sets of NeXus files (h5py is the map from paths to arrays); compared with the marks by which C66 recognises files. |
| C183 | `Fitter/Results`: the attributes as they are read from the state of `Fitter/Model`; an induction over histories of fits, failed ones included. |
| C184 | `Tof/Report`: the numbers put into the text, function of the settings and the stored results; compared with the measures and kinematics of `Tof/Model`; widths and volume by the Gaussian integral as in C165. |
| C185 | `Instrument/Printed`: printing to tokens, a parser and evaluator for calls with literals, the constructors with their argument binding; round trip by induction over the arguments. |
| C186 | `Data/ErrorProps`: closed forms of the errors of the product for given and counted errors, and the exact condition under which they are those of the scaled data set. |
| C187 | `Data/ErrorProps`: errors after `combine_data` with and without `ret`, for all tables; witnesses for the order of errors and the normalisation. |
| C188 | `Data/Whole`: columns with their type, the rules of numpy for new arrays, arrays in place and assignment to elements; induction over the rows that are added. |
| C189 | `Instrument/Shared`: store of samples, arrays and instruments with references; separation as an invariant over histories, and what is shared otherwise. |
| C190 | `Resolution/PropsDefaults`: equality of whole answers with and without each setting, over all instruments and points; counterexamples over all valid instruments. |
| C191 | `Resolution/PropsMonotone`: order of quadratic forms through each stage of both methods, with inversion reversing it; induction over the points, since guides and curvatures are changed in the loop. |
| C192 | `Resolution/PropsOpen`: the determinant in the prefactor is the one of the whole matrix of divergences, which shrinks with each opening; for mosaics, an inequality between a marginal and the determinant (`marginal_ratio`); induction over the points. Missing: reflectivity of thick analyzers between collimators that change, tilted samples with a mosaic, anisotropic mosaics with a focusing analyzer. |
| C193 | `Resolution/PropsCell`: both cells are given by their edges in space; the axes of the standard system are unique (`Recell.axes`), so that all scalar products agree, and by induction over the points. |
| C194 | `FileIO/InstrReso`: the attribute accesses of the calculation; `FileIO/InstrResoProps`: all of them are saved except four, by evaluation of the list; the rest from C65, C180, C157 and C125. |
| C195 | `Functions/PropsShape`: the real part of the Faddeeva function as an integral (C82) and a change of variables; monotonicity by reflecting the integral at the middle of the two positions. |
| C196 | `Functions/PropsShape`: from the closed forms of C36. |
| C197 | `Structure/SupercellProps`: geometric sums of the phases of the cells along each axis, induction over the atoms; counterexamples in every unit cell. |
| C198 | `Structure/SupercellProps`: volume and sums over the copies both scale with the number of cells. |
| C199 | `Resolution/MirrorSides`, `Resolution/PropsMirrorSides`: every matrix of the calculation is the other one with signs on rows and columns, carried through products, inverses and determinants, including the errors; `Resolution/PropsMirrorScan`: a valid instrument whose mean square vertical resolution at the second point is 13/12 to one side and 21/22 to the other. |
| C200 | `Resolution/PropsUnits`: specification `Settings.inUnits` (all lengths times t) and `Settings.Measured` (all lengths given). Every matrix of the calculation is a power of t times the other one; products, inverses, determinants and divisions by zero are carried along as equalities of outcomes, then induction over the points. For Cooper-Nathans only the success of the inversion of the sizes matters. `Resolution/PropsUnitsNamed`: with the undocumented method='popovici' the arms are taken to be one, and the covariance is at most t² times a fixed matrix. |
| C201 | `Resolution/ReverseSides`, `Resolution/PropsReverse`: specification `Settings.reversed` and `backward`. Every matrix of one direction is that of the other with rows and columns exchanged and with signs; products, inverses and determinants are carried along. Induction over the points. `PropsReverseVmosaic`, `PropsReverseGuide`: the two cases in which it fails, for all instruments of the kind. |
| C202 | `Resolution/PropsOpposite`: specification `Opposite` by elements of the returned matrices. The direction of Q is odd and its length even in the indices, also in the error branches; a flat sample shape does not change by half a turn; the rest by C133. |
| C203 | `FileIO/LoadersCut`: specification `IsCutSpe` of files with fewer blocks than announced. `C203_cut_false` gives the result in full for all such files whose axes are read to their ends: the position in the file does not move at its end, so that the last block is read again (induction over the number of missing blocks). `C203_axis_partial` for files that end within the first axis. |
| C204 | `Data/ScaleProps`: specification `Bg.times` (the background argument for scaled counts), `OwnCounts` (the counts are not also monitor, time or coordinate). `intensity_scaled` and `bg_positive` follow the factor through `intensity` and `estimate_background` (sorting commutes with the factor), `trapz_scaled` and `sumKeys_scaled` through the sums; positions and widths are quotients. |
| C205 | `Resolution/PropsMonitorSize`, `Resolution/PropsMonitorHeight`: specification `Settings.monitorOf` (the instrument with another monitor) and `Settings.vertical` (the instrument with other vertical settings). Rescaling the fifth coordinate leaves the matrices `t` and `d` as they are (their column is zero), so the width drops out; a larger monitor has a smaller inverse shape, and determinants are monotone; for the height all matrices split into blocks for the horizontal and the vertical direction (`Splits`), the determinant is a product `denH * denV`, and the height is in `denH`. |
| C206 | `Data/ReverseProps`: specification `DataObj.reversed` and `boundsReversed` (the same points in the opposite order). `take_where` describes the choice of points by a mask without indices, so it commutes with reversing; `steps_reverse` shows that the trapezoidal sum changes its sign; positions and widths are quotients of such sums, and the background does not depend on the order (`C25_order`). |
| C207 | `Data/BinOrder`: specification `DataObj.ordered` (the same points in another order). Ranges of the axes (`nanmax_perm`, `colMin_perm`), errors (`error_ordered`) and the averages over the points of a cell (`chosen_perm`, `avg_perm`) do not depend on the order; the cells are enumerated from the axes alone. |
| C208 | `Structure/Arrays`: numpy's broadcasting of h, k, l and the sum that starts with a number; induction over the atoms with the array kept equal to the single sums; `_false` for a material without atoms. |
| C209 | `Resolution/PropsArms`: what `decodeArms` reads decides the answers of `calcInQ`; the distance of the monitor enters the monitor correction only (`pointAt_mon`). |
| C210 | `Data/StretchProps`: specification `stretchAxis` (one column multiplied); the same points are selected (`Selects.stretch`), and the trapezoidal sum is homogeneous (`trapSum_stretch`). |
| C211 | `Data/RebinProps`: C09 is applied twice; the second grid is the first one (`gridOrder_unique`, axes without specification shrink to their centre) and every cell holds exactly its own row (`centre_only`). |
| C212 | `Data/BinUnits`: specification `inUnits`; C09 is applied to both, the converted grid is the grid of the converted specification in the same order (`sorted_inUnits`), the same points are in corresponding cells, and means are converted like values. |
| C213 | `Structure/OrbitProps`: specification `SameOrbit`; multiplication by an operation from the right permutes a group (`comp_perm_right`), so the sum of phases over an orbit is the same for all its atoms; the two failures in every unit cell. |
| C214 | `Resolution/PropsWavelength`: specification `Settings.faster`, `fasterResult`; square roots, quotients and `arctan2` are homogeneous, `A` is multiplied by `t`, `B` by `t` in the row of the energy, the others are unchanged; induction over the points, since the divergence of a guide is computed at the first point only. `Resolution/PropsWavelengthCrystal`: the same for `get_resolution` with a smaller cell; the axes of the plane have the same directions (`smallerCell_axes`). |
| C215 | `Tof/PropsSize`: specification `Inst.larger`; the widths decoded from the larger instrument are `s` times as large for times and lengths and equal for angles, the columns of the Jacobian belonging to times and lengths are divided by `s`, so the covariance is the same. |
| C216 | `Tof/PropsFaster`: specification `Inst.faster`; wavevectors and speeds are `t` times as large and the angles the same, the covariance is stretched by `fasterAxes`, which commutes with the rotation into the frame of Q; the converse follows from going back with `1 / t`. |
| C217 | `Tof/PropsUpside`: specification `Inst.upside`, `upsideMatrix`; the angle to the plane changes sign, the vertical row of the Jacobian and the columns of the two angles to the plane change sign, so the covariance is mirrored; the mirror commutes with the rotation into the frame of Q. |
| C218 | `Convolution/PropsMonotone`: the weights, the steps, the correction factors and the root of `detM` are not negative, so sums over the grid and over the blocks of random numbers are monotone in the cross section; induction over the blocks and over the points; `R0 > 0` from `calc_points`. |
| C219 | `Single/PropsForm`: every term is proportional to the intensity of its mode; induction over the blocks of random numbers and over the points; two calls with the same resolution at a point have the same value there. |
| C220 | `Data/BinScale`: the grid, the cells and the points in them do not depend on the counts, and a mean of multiples is the multiple of the mean; the errors of both orders in closed form. |
| C221 | `Single/PropsMonotone`, `Single/Positive`, `Single/Check2`: where the exact profile is above 1e-4 by bounds from below of the integral, C152 suffices; the first approximation has a positive real part; for the fourth a computed and proved check of a polynomial in two variables (coefficients in the basis of Bernstein) gives the sign of the quotient, and a bound that outweighs the exponential where its real part is negative. Then induction over the blocks and points. |
| C222 | `Tools/PropsShadow`: completing the square; the three projections of the vanadium width as Schur complements one after the other, each of which takes away a square. |
| C223 | `Structure/OriginProps`: the phases of the shift are taken out of the sum; witnesses for the two failures in every unit cell. |
| C224 | `Structure/MultiplicityProps`: left multiplication permutes the operations, so the numbers of operations that lead to two positions of an orbit agree; then induction over the different positions. |
| C225 | `Data/PartsProps`: the sum of the trapezoidal rule is split at the point; telescoping for a constant intensity and comparison with it. |
| C226 | `Data/FlatProps`: the intensities rise by one number, an estimated background rises by the same one, so the intensities without background, and with them the whole analysis including its errors, are equal. |
| C227 | `Tools/PropsPlanes`: the square of each wavevector divided by h²+k²+l² is bounded between two numbers, with bounds on π for the entries given as spacings; the copper (111) entry is shown to lie outside. |
| C228 | `Data/PercentProps`: the k smallest of a sorted list are the smallest of the k' smallest, so their mean is not larger; linearity of the trapezoidal rule for the integral. |
| C229 | `Energy/ScaleProps`: every attribute is a fixed number times a power of the energy; the value given is read back; laws of powers. |
| C230 | `Functions/PropsUnits`: each single peak is shown to be covariant, the background is converted, and the sum over peaks of C36 is used. |
| C231 | `Crystal/PropsUnits`: the metric tensor scales with the square of the unit; square roots and quotients are followed through each function, with their error branches. |
| C232 | `Structure/ThicknessProps`: additivity of the logarithm and of the cross section per volume; the absorption falls with the energy. |
| C233 | `Data/BalanceLimits`: monotonicity of the exponential, exp x ≥ 1 + x, limits by the derivative at zero. |
| C234 | `Angles/PropsWarnings`: from the membership of C130; points of reversed and of refined scans. |
| C235 | `Models/PropsRelations`: addition theorems, amplitude and phase of the sum from a complex number. |
| C236 | `Instrument/PropsChopper`: closed forms of tau, compared with the time of opening defined apart from the model. |
| C237 | `Tools/PropsChop`: induction over nested values, with the tolerance that the recursive calls use. |
| C238 | `Tools/PropsTriangle`: from the closed form and the law of cosines of C57. |
| C239 | `Tools/PropsFree`: from the conservation of energy of C58 and the order of kinetic energies. |

## 5. Outcome per property

86 proved, 153 partial. Theorem names are in `MANIFEST.json`.  A
partial property is one whose statement is contradicted by the code, or of which
only a part is proved; the contradiction is itself a theorem (names ending in
`_false` or describing the behaviour), with a concrete witness.

| Id | Property | Area | Status | Outcome |
|----|----|----|----|----|
| C01 | Combining scans conserves counts | Data | partial | All rectangular data sets with equal columns, any tolerances, for columns of one type of exact numbers. False if the counts of the first are an array of integers and those of the second are not whole: the fraction is cut off at each matching row (proved, with a bound for the loss). |
| C02 | Combining never invents coordinates | Data | proved | Proved as stated. |
| C03 | Combined counts go to the first left row within tolerance | Data | partial | For columns of one type of exact numbers. False if the left counts are an array of integers and a right count is not whole: the fraction is cut off (proved). |
| C04 | Combined data is sorted | Data | proved | Proved as stated. |
| C05 | a + b leaves both operands unchanged | Data | proved | Heap model of combine_data with mutable arrays. |
| C06 | Combining exact scans is addition of coordinate-to-counts maps | Data | partial | For columns of one type of exact numbers; order matters with a positive tolerance, as the statement says. False for an array of integers combined with counts that are not whole: the result depends on the order (proved). |
| C07 | Augmented assignment leaves the updated data set in the variable | Data | partial | False in the code: the in-place methods return None, so the variable is lost (proved). The object itself is updated as the binary operator would. |
| C08 | Normalised intensity refers to the current monitor or time | Data | partial | False after in-place combination or monitor assignment (witness proved); holds for all histories of +, -, *, / and reads. |
| C09 | Rebinning averages exactly the points in the bin | Data | proved | Every output row of bin is the cell average of exactly the points inside the closed cell, in grid order; refinement against a separate mean/InCell specification, for any number of processes. |
| C10 | Rebinning does not depend on the number of processors | Data | proved | The result does not depend on the number of worker processes; the chunks partition the cells in order. |
| C11 | Rebinning drops exactly the empty cells | Data | proved | C09 characterises every row including empty cells. |
| C12 | Rebinning covers the requested range without double counting | Data | proved | Every point in the requested range falls in at least one cell, in exactly one if it is interior; points on a common boundary are counted twice (witness), which the statement allows for. |
| C13 | Averaging over the whole range averages every point | Data | proved | Omitted axes get a single cell containing every point. |
| C14 | The error of rebinned data is on the scale of its intensity | Data | partial | The claim as stated is false of the code: the error is divided by the normalisation twice (witness proved); the scaling law that does hold is proved. |
| C15 | Background subtraction subtracts normalised intensities | Data | proved | Proved as stated. |
| C16 | Background subtraction error is the larger of the two errors | Data | proved | Proved as stated. |
| C17 | Intensity does not depend on the unit of the monitor | Data | proved | Proved as stated. |
| C18 | Scaling a data set scales its intensity | Data | proved | Proved as stated. |
| C19 | Coordinate assignment keeps all columns the same length | Data | proved | Proved as stated. |
| C20 | Equality of data sets is an equivalence relation | Data | partial | Transitivity and the length claim are false because of broadcasting (witness proved). What == means is determined for all pairs of data sets. |
| C21 | A data set built from a Q matrix has one count per point | Data | partial | False for Q=: the number of columns is used (proved); holds for separate coordinates. |
| C22 | Integration covers all points when no bounds are given | Data | partial | False without bounds: points with h = 0 are dropped (witness). Exact characterisation proved for any bounds, and for no bounds when no h is zero. One selected point raises. |
| C23 | Peak position lies inside the scan | Data | proved | Any scan along one axis, any length, any background; exact arithmetic over an ordered field. |
| C24 | Width and position behave under shifts of the axis | Data | partial | Exact arithmetic. The moments themselves behave as claimed for all data; the shift law is missing for scans along h without bounds, where it fails: a point moved to h = 0 is dropped (C24_shift_false). |
| C25 | Percent background is the mean of the lowest non-negative intensities | Data | proved | Percentages 0..100; order statistics stated by selection, not by the sort used in the model. |
| C26 | Detailed balance | Data | proved | Over the reals. |
| C27 | Scan collections report one value per scan after any history of updates | Data | partial | False after update (witness). Proved: exact condition under which summaries work after any history; otherwise IndexError. |
| C28 | Energy attributes always describe one neutron | Energy | proved | Induction over histories of assignments; over the reals, constants any positive numbers with hbar = h/2pi. |
| C29 | Assigning a quantity reads back the same quantity | Energy | proved | Over the reals. |
| C30 | Energy construction argument priority | Energy | proved | All combinations of arguments. |
| C31 | Energy of arrays agrees with energy of scalars | Energy | partial | False for the wavevector in arrays containing a zero: infinite (proved). All other attributes agree. |
| C32 | Energy equality | Energy | partial | Transitivity is false (witness); reflexivity, symmetry and tolerance proved. |
| C33 | Gaussian profile area | Functions | proved | Exact real arithmetic; every number of peaks and every incomplete tail. |
| C34 | Gaussian profile width and maximum | Functions | proved | Maximum at the centre, symmetry and half height at half the width. A peak has a positive area; with a negative one the same holds upside down (C34_negative). |
| C35 | Lorentzian profile area and width | Functions | proved | Exact real arithmetic. A peak has a positive area; with a negative one the same holds upside down (C35_negative). |
| C36 | Peak profiles are additive | Functions | proved | All six profiles and all parameters (C36_additive); the closed forms for positive widths. wofz and erf enter as parameters; the statement holds for every choice of them. A width of zero, a division by zero in the code, is not described. |
| C37 | Two-dimensional profile volumes | Functions | proved | Proved as stated. |
| C38 | Metric tensors and volumes | Crystal | proved | Exact real arithmetic; the cell is specified by three Cartesian vectors. |
| C39 | Reciprocal constants agree with the reciprocal metric | Crystal | proved | Proved as stated. |
| C40 | The B matrix reproduces the reciprocal metric | Crystal | partial | The code contradicts the property for rhombohedral and triclinic cells (sin(alphastar) in place of sin(alpha)) and the documented B*B.T = Gstar for hexagonal cells; both negations are proved, and the exact condition under which B.T*B = Gstar holds. |
| C41 | d-spacing, momentum transfer and Bragg angle agree | Crystal | proved | Proved as stated. |
| C42 | Angle between planes | Crystal | proved | Proved as stated. |
| C43 | Lattice type classification | Crystal | partial | Returned exactly for conforming constants; completeness is false (negation proved: a valid triclinic cell with two equal lengths is rejected). |
| C44 | U is a rotation | Crystal | proved | Proved as stated. |
| C45 | UB places the orientation vectors in the scattering plane | Crystal | partial | False for non-cubic cells (negation proved); the exact condition is proved. |
| C46 | Crystal and instrument code use the same geometry | Crystal | proved | Proved as stated. |
| C47 | Generated symmetry operations form a group | Symmetry | partial | For the groups of the database (the only generators a user can reach) the operations are proved to form a group without repetition, closed under composition. For all generator lists the claim is false: C47_wrong_total_false is a list with a wrong recorded number that is not closed (closure holds exactly when the number is right, C47_closed_iff), and C47_repeated_false shows that a generator given twice stays twice. Rotation entries are integers and translations exact rationals with the tolerances kept. |
| C48 | Symmetry operation strings round trip | Symmetry | partial | The code violates the first half: rows with a positive variable after another one, and pure translations, are not read back (negations with witnesses). C48_roundtrip_partial gives the exact set of operations for which it holds; the second half (database strings) is proved in full. |
| C49 | Symmetrised positions form one orbit | Symmetry | proved | Proved as stated. |
| C50 | Structure factor is additive over atoms | Structure | partial | Additivity, order and the empty case in full. Proportionality to the occupancy holds without mass normalisation; with it the code uses the occupancy three times (C50_massnorm_cubic, C50_massnorm_false). |
| C51 | Friedel symmetry of the nuclear structure factor | Structure | proved | Proved as stated. |
| C52 | Equivalent reflections have equal structure factors up to phase | Structure | partial | Holds whenever both structure factors are numbers. C52_nan: in every cell some lattice translation makes the result nan, because the code evaluates the scattering angle at the atom position. |
| C53 | Crystal names and tau values | Tools | proved | ASCII names. The first of the two entries for Cu(111) is never returned (C53_known). |
| C54 | Argument broadcasting | Tools | proved | One-dimensional arguments. |
| C55 | Projection of the resolution ellipsoid is the Gaussian marginal | Tools | proved | Exact real arithmetic. |
| C56 | Ellipse principal axes | Tools | proved | The constant 1.17741 makes the contour the half-maximum one to within 1e-7 (C56_half). |
| C57 | Scattering triangle angle | Tools | partial | Holds for Q > 0. At Q = 0 an angle is returned although no triangle exists for different wavevectors (C57_zero). |
| C58 | Energy conservation fixes the free wavevector | Tools | partial | Holds for energy loss and elastic scattering; for every energy gain the result is nan (C58_gain). |
| C59 | Chop only removes values within tolerance of zero | Tools | partial | Arrays and non-negative scalars with the default tolerance. Negative scalars become zero, the tolerance is not passed to items of containers, real arrays are changed in place. |
| C60 | Resolution always reflects the current instrument settings | Resolution | partial | Every query is answered as by a new object as long as no setting changes and all queries succeed. False in general: after any change of settings the same query returns the old result (a changed mosaic gives a different true matrix), and a query that raised an error returns the previous point's result when repeated. |
| C61 | Resolution matrix is symmetric positive definite | Resolution | proved | For every valid instrument and list of reachable points: the calculation succeeds, returns one result per point, every matrix is symmetric positive definite and every prefactor positive. Both methods, monitor correction, sample mosaic, focusing and reflectivity included. |
| C62 | Resolution at a point does not depend on the other points in the batch | Resolution | partial | Holds when no guide limits the divergence or Ei is fixed, and for Popovici with scattering senses +1. False with a guide and fixed Ef: the divergence computed for the first point is kept. Curvatures change sign from point to point when the scattering sense is -1. |
| C63 | Computing the resolution has no side effects | Resolution | partial | Holds for samples without a shape matrix. With one, it is replaced by a stack: after two or more points every later calculation raises ValueError, after one point it is turned again each time. |
| C64 | Standard coordinate system is orthonormal | Crystal | partial | Proved for independent vectors and for collinear ones of which the first is not zero. A zero first vector is not rejected but gives nan (C64_zero_first_false). |
| C65 | Instrument files round trip | FileIO | partial | Every saved scalar, string and unpadded array comes back (proved for any lawful number formatting and for whole numbers outright). The full statement is false: an array whose printed cells are padded, or a Python list of two or more numbers, cannot be loaded, so a loaded instrument cannot be saved and loaded again; a Smooth part is not restored. |
| C66 | File type detection | FileIO | partial | The answer is decided by the name ending, then by markers in the first lines; unknown files raise; saved files are recognised. False in full: a file with markers of two formats gets the first one tested (an ICP file can be read as GRASP), and the ending .XYIE is not recognised in upper case. |
| C67 | Loading several files | FileIO | partial | Proved when all files have one type. In general false: with automatic detection the type of the first file is used for all. |
| C68 | Saving data does not change it | FileIO | partial | Proved for objects without error bars, and for HDF5/pickle. False in full: an ASCII save adds a column 'error' to the saved object, fails with a corrupted object once d.error was read, and ASCII/pickle saves replace an existing file without overwrite. |
| C69 | Fitting never changes fixed parameters and respects limits | Fitter | partial | Under the stated assumptions on LMFIT (Env.Lawful): one value per parameter in order, limits respected, fixed parameters kept when they start within their limits, all-fixed problems rejected, residual function called with values in order. False in full: a fixed parameter outside its limits is moved to the limit. |
| C70 | Fitter calls are independent of earlier fits | Fitter | partial | Proved over all histories of fits when parinfo was given or the number of parameters stays the same; calling an object without a fit is the fit from the parameters passed (C70_call). False in full: without parinfo the first fit settles the number of parameters, and calling the object after a fit returns the old parameters whatever is passed. |
| C71 | Monochromator tau and d-spacing stay consistent | Instrument | proved | Over histories of known names and positive numbers. After a caught error the object keeps the bad name beside the old spacing (C71_failed_assignment). |
| C72 | Constructor arguments are honoured | Instrument | partial | False for Analyzer (seven keywords dropped), Material (five keys permuted) and the shape of a Sample. |
| C73 | The sum of two data sets keeps the naming of its columns | Data | partial | False for data sets with other column names (witness proved). |
| C74 | Results of data arithmetic are independent objects | Data | partial | False for differences (witness proved); sums are covered by C05. |
| C75 | Background subtraction on an axis uses the nearest background point | Data | proved | Proved as stated. |
| C76 | Binning honours the requested axes whatever the columns are called | Data | partial | False when the columns have other names than the role names (witness proved); holds when they coincide. |
| C77 | The width is measured about the reported position | Data | partial | False when a further column varies along the scan (witness); proved when the others are constant. |
| C78 | Updating a collection of scans leaves the caller's dictionaries alone | Data | partial | False for the dictionary passed to the constructor (witness); the argument of update is unchanged. |
| C79 | Updating a collection replaces known scans and appends new ones | Data | proved | Proved as stated. |
| C80 | Every scan of a colour map lies in its own cell | Data | proved | Exact arithmetic. |
| C81 | The scattering function of a point depends on that point only | Data | partial | False when some point has zero final energy (proved for every such data set); closed form proved otherwise. |
| C82 | Voigt and ring profiles are normalised | Functions | proved | wofz and erf are given by their integral definitions. |
| C83 | Every space group can be built, under each of its names | Symmetry | proved | The database is transcribed into Lean and every entry checked by the kernel with a proved-sound closure search. |
| C84 | An unknown space group is rejected | Symmetry | partial | The constructor always raises. The setter accepts unknown names silently and keeps the old group (C84_setter_silent, C84_not_rejected). |
| C85 | Symmetry-equivalent reflections have equal intensity | Structure | proved | For atoms without displacement parameters, where the structure factor is a number. |
| C86 | An atom on a special position is counted once | Structure | partial | True exactly for general positions; false on special ones (C86_not_once). |
| C87 | Anisotropic displacement parameters given for an atom are used | Structure | partial | True without a space group and when all entries give the key; otherwise the parameters are discarded or a KeyError is raised. |
| C88 | The optimal thickness has the requested transmission | Structure | proved | Proved as stated. |
| C89 | Magnetic form factors are normalised, even and bounded | Structure | partial | Boundedness fails for Cr2+, Mn2+ and Mn3+, whose database entries have a negative exponent: C89_diverges proves it for Mn2+, C89_bounded_partial covers all other ions. |
| C90 | Phonon and projection widths are half-maximum widths of integrated intensities | Tools | proved | Proved as stated. |
| C91 | Bragg widths are full widths at half maximum | Tools | partial | False: the result is twice the full width, for every matrix. |
| C92 | Chopper time resolution | Instrument | partial | The dependence on the opening is inverted for Fermi choppers and disks without a radius; printing always fails. |
| C93 | Goniometer matrices | Instrument | partial | The rotation about the vertical axis calls itself for ever, so Omega and R never return. |
| C94 | Out-of-plane angle | Crystal | partial | Holds for cubic cells. In general the cross product of indices is not the normal of the plane: in a tetragonal cell v itself is reported out of the plane. |
| C95 | Resolution matrix in the crystal frame | Resolution | partial | Holds for points in the scattering plane, and only there: outside it the determinant changes, and along the normal the matrix is singular. |
| C96 | Unreachable points are rejected | Resolution | partial | Open triangles are rejected at any place in the list. A crystal that cannot reflect the energy yields nan instead. |
| C97 | A loaded instrument keeps the scattering plane | FileIO | partial | Proved for every instrument whose saved attributes are read back: orientation vectors are those of the sample, which are saved and loaded. False in full: an instrument with an orientation vector that numpy pads, like [1, -1, 0], cannot be loaded at all. A line with orient1 or orient2 written by hand sets that vector and leaves the other. |
| C98 | Saving an instrument writes the named file | FileIO | partial | With overwrite a triple-axis instrument is written. False otherwise: without overwrite a missing file is an error, an existing file's beginning is overwritten in place, and a time-of-flight instrument is not written at all. |
| C99 | Data files round trip | FileIO | partial | Columns, values and keys come back from an ASCII file with at least two rows and columns, names without white space and no error bars. False in full: the header loses its last line and gains tabs, error bars come back as a plain column, a single point gives numbers instead of arrays, one column loses all but its first value, names with spaces shift the columns, HDF5 key names come back as b'...'. |
| C100 | Kinds of initial parameters and data | Fitter | partial | Lists and arrays agree. False in full: a tuple always makes the fit fail, and data that is not a tuple is silently ignored. |
| C101 | Counts of a fit | Fitter | partial | The statement is false; proved instead: nfree is the number of degrees of freedom and dof the number of varied parameters (under Env.Lawful). |
| C102 | Standard errors of a fit | Fitter | partial | The statement is false; proved instead: stderr is xerror times the root of the reduced chi-square (LMFIT scales the covariance already, hypothesis Scaled). |
| C103 | Displacement parameters damp reflections | Structure | partial | Proved: never above the bound for atoms at rest, monotone in Uiso. False: the factor is evaluated at the position of the atom, so it does not depend on the reflection and is one for an atom at the origin. |
| C104 | Total scattering cross section | Structure | partial | The occupancies are ignored; agrees for full occupancy. |
| C105 | Number of atoms in a sample | Structure | partial | What is returned is the number of formula units, not of atoms. |
| C106 | Incoherent elastic cross section | Structure | partial | The occupancies are ignored; value for atoms at rest, bound with displacements, and the factor for the mass are proved. |
| C107 | Assigning counts keeps a data set well formed | Data | partial | Columns of a wrong length are accepted; the intensity then fails. |
| C108 | Loading SPICE files keeps every column | FileIO | partial | Holds for files of one scan with two or more points; a file with one point gives single numbers instead of arrays, and a file with two scans gives all points under the column names of the second. |
| C109 | Loading MAD files keeps every point | FileIO | partial | Holds when one line of other text follows the numbers; otherwise the last point is left out. |
| C110 | Loading ICE files keeps every column | FileIO | partial | Only the first nine columns are loaded; files with fewer fail. |
| C111 | Loading ICP files | FileIO | partial | Holds for the usual twelve lines before the numbers; with another line the names become a point of nan. |
| C112 | Loading GRASP text files | FileIO | partial | Holds for two or more points; one point gives single numbers. |
| C113 | DCS formats are recognised by the contents | FileIO | partial | Proved for three formats; XYIE is never recognised by the contents. |
| C114 | Loading column formats of DCS | FileIO | partial | Holds for two or more points; a file with one point is not loaded. |
| C115 | Loading an XYIE grid | FileIO | partial | Intensity, error and x are right; y is a copy of x, and reading the intensity always raises ValueError. |
| C116 | Loading an SPE grid | FileIO | partial | Intensity, error and x are right when both axes are read to their ends; y is a copy of x; with a first axis of full lines or longer than the second the coordinates are empty. Lines are split into their numbers for columns of fixed width; numbers with a capital letter before a negative exponent are split in two. |
| C117 | Instrument settings from SPICE headers | FileIO | proved | Among any other readable header lines; of several lines of one kind the last counts. |
| C118 | Simple harmonic oscillator | Models | partial | Centre, amplitude, phase proved. False: p[2] is not the period but the angular frequency; the exact set of periods is proved. |
| C119 | Damped harmonic oscillator | Models | proved | Proved as stated. |
| C120 | Dispersions have the documented amplitude and period | Models | partial | Shape, greatest values and periods proved exactly. False: greatest values are 2 sqrt p[0], 8 p[0], p[0] and the periods pi/p[1], 2 pi/p[1], pi/p[1]. |
| C121 | Dispersions at long wavelengths | Models | proved | Proved as stated. |
| C122 | The Cooper-Nathans matrix describes the flight of the neutrons | Resolution | partial | Holds for every instrument without guides after the sample and without vertical mosaic of the monochromator, without and with sample mosaic, for any scattering senses and either fixed energy. False with a vertical mosaic of the monochromator: with the Cooper-Nathans method it is ignored, and the matrix is wrong for every such instrument at every point. False with a vertical guide after the sample, which is treated with the wavevector before the sample: the matrix is wrong for every such instrument at every inelastic point. Collimators and mosaics as Gaussian weights. The horizontally focusing analyzer and the Popovici method are outside the statement. |
| C123 | A sample mosaic conserves the integrated intensity | Resolution | partial | All methods, flat and focusing analyzers, samples that look the same from above and below: conserved exactly if both mosaics are equal or the resolution happens to be equal in and out of the plane. False for different mosaics: the prefactor pairs each mosaic with the other direction. For samples of a tilted shape an exact condition is proved. |
| C124 | The Popovici matrix describes the flight from guide to detector | Resolution | partial | Without and with sample mosaic. Missing: guides after the sample, for which the code uses the wavelength before the sample (that this changes every inelastic result, prefactor and matrix together, is C155_after_false). Spatial distributions enter as Gaussians with the variances of uniform ones (the variances are proved from integrals); collimators and mosaics as Gaussian weights. |
| C125 | Cylindrical samples | Resolution | partial | The base is right. False for the height: its variance is h^2/16 in place of h^2/12, so that a cylinder is treated exactly as a box with all edges scaled by sqrt(3)/2 (proved for all lists of points). |
| C126 | Queries of the resolution as numbers or lists | Resolution | partial | Answers are computed anew or are the stored ones, and then every argument agrees with the stored points. False in full: after a query for the same point twice, the point given as numbers gets two results (C126_false, for every valid instrument and reachable point). |
| C127 | Quantities of a loaded file | FileIO | partial | Every quantity is that of its column. False for the temperature of SPICE files without a column tvti, and where columns or points are lost (C108-C111). |
| C128 | Angles of monochromator and analyzer | Angles | partial | Bragg's law and the fixed energy exactly; the energies differ by the energy transfer up to one part in 10^4 (the constant 0.4826), with the constants of nature known to five digits. To the letter false: with the constants of nature to seven digits they are always off by more than five parts in a million. |
| C129 | Q and the scattering condition | Angles | partial | True for cells with right angles, u along a* and v in the plane of a* and b*, and the positive sense. False in full: for u=[1,1,0], v=[0,0,1] Q is 0 at every (0,0,l); in the negative sense A3 is wrong for every point off the first axis. |
| C130 | Currat-Axe warnings | Angles | partial | Exact for positions given by three indices. False in full: positions in the documented form with two components always raise IndexError. |
| C131 | Curves of calc_projections | Resolution | partial | Contours, integrals, centres in the code's own coordinates and widths proved for lists of points. False in full: the ellipse is in 1/Å while centre and axes are in r.l.u.; with u.v != 0 the centre is not at the coordinates of the point. |
| C132 | Parameters of the resolution Gaussian | Resolution | partial | The Gaussian has the right shape in each plane. False in full: its height has an additional factor sqrt(2 pi / B); planes named ...Slice return None; more than one stored point raises UnboundLocalError; another point than the stored one raises InstrumentError. |
| C133 | Vertical resolution is independent | Resolution | proved | Exact arithmetic. For all methods, settings and sequences of queries. |
| C134 | Widths scale with the divergences | Resolution | proved | Exact arithmetic. With the Popovici method all sizes have to be given (a missing one is a constant in the code). |
| C135 | Resolution of a time-of-flight spectrometer is error propagation | Tof | partial | Error propagation with the derivatives of the actual flight proved for spherical detectors, and for cylinders at points in the plane; for cylinders at every elevation the matrix is that of the momentum and of the energy of the horizontal motion. False in full: the two flight times are treated as independent although they share the opening of the second chopper, which underestimates the energy width; for a cylinder out of the plane the length of the path is not used. |
| C136 | The direction of a neutron in a time-of-flight calculation fits the transfer | Tof | partial | The energy is right always; in the plane the momentum is right exactly for W = 0 or q^2 = ki^2 - ki kf (the elastic Bragg angle is used). False for other inelastic points and out of the plane. |
| C137 | Matrix and prefactor of a time-of-flight instrument are positive | Tof | partial | Positive whenever a matrix is returned. Existence proved for 0 <= W with a beam from any direction, except elastic points where the beam points to the detector, for which there is none (C137_beam_false); energy gain gives nan (C137_gain_false). |
| C138 | Time-of-flight resolution in the frame of the crystal | Tof | partial | Proved for cubic cells oriented along the axes; false otherwise (rows and columns are scaled by the wrong reciprocal axes). Stored entries are within 1e-12 of the computed ones. |
| C139 | Larger uncertainties never sharpen a time-of-flight resolution | Tof | proved | Exact arithmetic; both detector shapes. Besides, uncertainties that are all s times as large give the matrix divided by s squared. |
| C140 | Shape and orientation of the detector | Tof | partial | Shapes are decided as documented. False for a horizontal cylinder: the orientation is never looked at. |
| C141 | Choppers of a time-of-flight instrument | Tof | partial | Order is of no consequence for distinct distances. False for one chopper: IndexError in the constructor, or in every calculation. |
| C142 | Units of a time-of-flight instrument | Tof | partial | Times, chopper and detector distances, mosaics and the spread of lengths of the guides are converted. False for the distance of the sample, the pixels, the height of the detector and the divergence of the guide. |
| C143 | Time-of-flight resolution does not depend on the choice of cell | Tof | partial | The matrix is the same. The prefactor is not: it changes by s^2 at elastic points. |
| C144 | Variables of the convolution | Convolution | proved | Exact arithmetic. Matrices with elements between the vertical component and the others: see C145. |
| C145 | The grid converges to the convolution with the resolution function | Convolution | partial | Convergence proved, through calc_resolution, for every valid instrument with a sample that is the same seen from above and below and points in the plane. ACCURACY [M, 0] converges to the convolution at the level of the plane within 1e-5. False for matrices that couple the vertical component with the others (tilted samples), whose elements are not read. |
| C146 | The convolution is linear and acts on each point separately | Convolution | proved | Own points: method 'fix', or 'mc' with a seed. |
| C147 | Arguments accepted by the convolution | Convolution | partial | The full decision table is proved. The property is false in three entries: a single point always raises IndexError, a number as ACCURACY with 'fix' raises TypeError, a list that is too short IndexError; 'mc' with zero gives nan. |
| C148 | Monte Carlo convolution | Convolution | partial | Without a seed the mean is the convolution within 1e-7 of that of the absolute cross section, but not exactly: the code draws normal numbers where its transformation assumes uniform ones (with those the mean is exact). The variance is inversely proportional to ACCURACY and the values converge in probability. With a seed ACCURACY has no effect. Valid instruments and points as in C145. |
| C149 | Grids of one point | Convolution | partial | The value is that of the property times 0.79788^4 (pi/2)^2; for constant cross sections it is always too small, by less than 1e-4. |
| C150 | Convolution of single modes | Single | partial | All widths. Through calc_resolution for every valid instrument with a sample that is the same seen from above and below and points in the plane; a single point raises IndexError (C151). False for matrices that couple the vertical component with the others (tilted samples), whose elements are not read. |
| C151 | Arguments accepted by the convolution of single modes | Single | partial | The full decision table is proved. The property is false: a call without prefactor always raises TypeError (numpy.ones(modes, points)), a single point IndexError, a number as ACCURACY with 'fix' TypeError, a list that is too short IndexError; 'mc' with zero gives nan. |
| C152 | The Voigt profile | Single | proved | In exact arithmetic; the rounding to single precision in the code is not modelled. For width zero the bound is 5e-5 and the profile is the Gaussian exactly beyond 0.91 (C152_sharp_false: not nearer to the centre). |
| C153 | Monte Carlo convolution of single modes | Single | partial | Without a seed the mean is proved for every number of blocks, the variance is inversely proportional to it, and the values converge in probability; for valid instruments and points as in C145. False with a seed: the random numbers start again for every block, so that ACCURACY has no effect. |
| C154 | Normalisation to the monitor | Resolution | proved | For lists of any length, without sample mosaic or with an isotropic one, including the reflectivity of thick analyzers; guides after the sample are in C155. |
| C155 | Divergence of guides | Resolution | partial | Proved for guides before the sample, one point per call. False after the sample, where the wavelength of the incident neutrons is used: for every instrument and either method, at every point at which the wavelengths differ by two percent no collimation within one percent gives the same result (horizontal guides: without the reflectivity of a thick analyzer). Further points of a call keep the divergence of the first (C62). |
| C156 | Smoothing of the resolution | Resolution | partial | Holds when all widths are zero. False otherwise: the matrices are divided element by element, so that the prefactor and all elements outside the diagonal are nan; the widths in energy and along the vertical are exchanged; without a width along x the others are ignored. |
| C157 | Horizontally focusing analyzer | Resolution | partial | Holds, with and without sample mosaic, without guides after the sample and vertical mosaic of the monochromator, if the flag is set on the instrument instead. False as documented: the flag of the analyzer is never read, and the matrix is then different from that of a focusing analyzer for every instrument and point. |
| C158 | Instruments from par and cfg files | FileIO | partial | Lattice, orientation, energy, collimations, distances and the crystals' reflections, mosaics and sizes are right. False: the sample mosaic is passed as orientation vector and lost; the senses are always -1, 1, -1; with senses -1 in the file the crystals are bent the wrong way; source, monitor and detector have a twelfth of their variance; the sample shape is not squared and its first two axes are exchanged; a file with the documented names only raises KeyError. The senses relative to each other are right in dir1, dir2 and mondir. |
| C159 | Equality of instruments and their parts | Instrument | partial | Right whenever attributes of the same name are of the same kind and length; symmetric and reflexive for all parts. False: arrays of one element equal longer ones, the relation is not transitive, an instrument differs from itself after its resolution was calculated, and comparing a part with None raises AttributeError. |
| C160 | Instruments in taz files | FileIO | partial | Collimations and distances come back, the other numbers as texts. False: after loading any file, method, mosaics, senses, curvatures and sizes are strings, reflections, energy and lattice are those of Instrument(); unset quantities get the defaults of other elements, since the two tables have different orders; four distances raise IndexError. A file with an empty collimation or distance raises TypeError, though the loader means to leave it out. A file in which an element is missing raises AttributeError. |
| C161 | Contour plots are drawn at the spacing of the data | Data | partial | The exact condition is proved. Right for unit spacing and for axes ending at zero. False otherwise: the number of columns is int(max - min / step) + 1 in place of (max - min) / step + 1; axes from zero with a spacing below one always lose columns, and axes that start far from zero compared to the spacing raise ValueError. |
| C162 | The list of aluminum rings is that of the metal | Structure | partial | Angles, order and completeness of the list are proved for every positive energy. The printed /F/^2 is proved to be 2304 times that of the cell for every ring (wavelengths up to 11.4 Angstrom): the atom at the origin is counted once for each of the 192 operations of Fm-3m. |
| C163 | The ellipsoid drawn is the half-maximum surface of the resolution function | Resolution | partial | Proved exactly what is drawn: the half-maximum surface without the correlations between Q and energy (entries [0,2] and [1,2] are read instead of [0,3] and [1,3]), at half of its size (the spacing given to marching_cubes is half of that of the grid). With several positions an exception is raised; with four the matrices are taken apart along the wrong axis and nothing can be drawn (C163_four_false). For odd numbers of grid intervals half of the largest value on the grid takes the place of half of the maximum (C163_odd_partial). |
| C164 | plot_projections draws the curves of the positions asked for | Resolution | partial | Right for any sequence of calc_projections and plot_projections on one object, and in any state if the last calculation was for other points. False in full: after get_resolution at other points, with another npts, or after a change of settings the curves stored before are drawn; and the first axis of the QyW panel is labelled as Q along the first orientation vector although the second is drawn. After a figure that failed, asking for it again draws the curves of the figure before. |
| C165 | description_string tells what the last resolution calculation was and gave | Resolution | partial | Right as to the method (given by number), fixed energy, positions, matrix, prefactor and angles. False in full: the volume is always twice the integral of the resolution function and the widths are always twice the full widths at half maximum; with a method given by name, which the calculation accepts, there is a TypeError; a method set after the calculation is named beside the matrix of the other method; and an object made as TripleAxisInstrument has no instrument_type, so there is an AttributeError. |
| C166 | plot_instrument draws the spectrometer in the configuration for the position asked for | Angles | partial | Right as to the path of the beam, the places and heights of all components and the widths of source and detector. False in full: for every angle below 90 degrees monochromator and analyzer are drawn narrower than they are, and the monochromator not in the reflecting plane; the detector is across the beam only if the beam has turned by a multiple of 180 degrees; objects made as TripleAxisInstrument raise AttributeError, fewer than four arms IndexError. |
| C167 | plot draws the points asked for, with their errors and the fit | Data | partial | Right for intensities, for counts without stored errors, for bins, for the choice of the kind of plot, and for fits with the default options or a format. False in full: plot_line with its own defaults always raises; a fit together with plot_options that do not name fmt raises as if the fit had failed; columns that are not counts get the roots of their values as error bars; stored errors, as after a background subtraction, are not used for the counts. |
| C168 | plot_unit_cell draws the unit cell with its atoms | Structure | partial | Right for cells with right angles of which no side is the sum of the two others, of materials with massNorm. False in full: if one side is the sum of the others a diagonal is drawn too; other angles are ignored, so that distances are wrong; without massNorm there is an AttributeError. |
| C169 | The table of a fit shows every parameter with the digits that its error leaves meaningful | Fitter | partial | Right if no error is zero or None. False in full: an error that is zero (as LMFIT gives for a fixed parameter) or None raises an exception instead of a table, and chi squared below 5e-7 is shown as zero. |
| C170 | A new instrument has the settings that were asked for | Instrument | partial | Proved for triple-axis instruments, and for time-of-flight instruments with guides, with the engine neutronpy. False in full: an unknown type or engine yields an object without settings and no exception; the documented mono_tau and ana_tau have no effect; with the engine takin nothing is calculated and a time-of-flight instrument ignores its settings; a time-of-flight instrument with one chopper needs explicit guides. |
| C171 | A waterfall plot shows every scan, one above the other | Data | proved | Exact arithmetic; matplotlib is not modelled beyond the points and labels it is given. |
| C172 | A colour map shows every datum at its place, on a scale from the least to the greatest | Data | partial | Proved for two or more scans with increasing coordinates, and for positive values of which one is at most 1. False in full: if all values are above 1 the scale begins at 1; a scan containing a value that is not positive is left out of the search for the minimum; a single scan at zero has no height; scans in another order cover each other. |
| C173 | Settings of a fitter are checked, kept and used | Fitter | partial | Proved for all settings but one. False in full: nofinitecheck can be assigned but never read. |
| C174 | The plot of a fit shows the data, the fitted function and the residuals | Fitter | partial | Proved for tuples with some element before x, y and err, if every parameter has an error that is not zero. False in full: for the documented (x, y, err) an IndexError is raised; with a fourth element after them the columns are confused; with a fixed parameter nothing is shown. |
| C175 | The window for resolution calculations calculates and shows the resolution of what is entered | Gui | partial | Proved: what is calculated is what is entered, if no crystal is curved vertically, for crystals from the list. False in full: the window never opens and no result is shown; the vertical curvature of the analyzer is taken for its horizontal one, and only if the monochromator is curved; Custom crystals fail. |
| C176 | Plots of four columns show every point with its value | Data | partial | The places are right for all data; the colours only for values between 0.0001 and 0.1. False in full: all values of 0.1 and more have one colour, and plot_volume with its documented defaults raises TypeError. |
| C177 | A material can be made of every ion whose scattering length is tabulated | Structure | partial | True for elements; false for isotopes: Material always looks the ion up in the periodic table for its mass, so every one of the 266 isotopes raises KeyError, though Atom accepts 246 of them. |
| C178 | A magnetic unit cell keeps what it is given | Structure | partial | Atoms, propagation vector and lattice are as described. False in full: a given chirality or phase is lost and reading it raises AttributeError; special positions are listed several times; Material asks for the key magnetic_unit_cell but reads magnetic_cell. |
| C179 | The magnetic form factor is given at the points asked for | Structure | partial | True for numbers, arrays and ranges of at least 0.025 (exact arithmetic). False in full: a list or tuple raises TypeError, a shorter range has only its first point, a reversed one raises or is empty, and an unknown ion raises KeyError. |
| C180 | Instruments in HDF5 files | FileIO | partial | True for triple-axis instruments whose saved attributes are numbers, texts of parts, arrays and lists (also those that ASCII files lose). False in full: without overwrite an existing file raises ValueError, None raises TypeError, an instrument with Smooth cannot be loaded, and time-of-flight instruments are not written in any format. A text among the attributes of the instrument itself is loaded as bytes. |
| C181 | Rotations and translations of symmetry operations | Symmetry | partial | True for single operations and lists of two or more. False in full: for the array SpaceGroup.symmetry_operations the slices are taken of the wrong dimensions, so that every translation is (0, 0, 0, 1) and all but three operations are missing; an empty list raises IndexError. |
| C182 | A file that is recognised is read by the reader for its format | FileIO | partial | The exact conditions are proved, and the contents of NeXus files. False in full: a GRASP file whose first line names the program in other than capitals is recognised and then refused with IOError; so is every .npy file without the mark of the package; an .xye file with a comment of four words in its first line is read as a file of four columns. |
| C183 | The results that a fitter shows belong to one fit | Fitter | partial | Proved for the attributes that fit assigns at its end, over all histories (LMFIT as in C69). False in full: niter, nfev and npegged are never assigned and raise AttributeError always; a fit that LMFIT gives up leaves its own orignorm beside the other results of the fit before; a fit that is refused leaves its own npar. |
| C184 | The printed description of a time-of-flight instrument is true | Tof | partial | Right for one point as to times, lengths, angles, matrix, prefactor and crystal (before rounding). False in full: the volume is always twice the integral of the resolution function; the widths are always twice the full widths at half maximum; those said to be in inverse Angstrom are in reciprocal lattice units; for points given by a list there is a ValueError or TypeError instead of a text; an object made as TimeOfFlightInstrument has no instrument_type, so there is an AttributeError. |
| C185 | The printed form of an object makes it again | Instrument | partial | True for lattices, space groups (every one of the database), energies, goniometers with lists, samples without vectors, distance and special shape, crystals given by a number, analyzers as the constructor leaves them. False otherwise: vectors are printed without commas, which is not Python or a list of one number; names of crystals and shapes are printed without quotes; distance and shape are not printed; arguments of Analyzer are not kept; a detector prints an argument that does not exist, a chopper raises, atoms print no position, a triple axis instrument gives the energy twice, a time-of-flight instrument prints a table. |
| C186 | Scaling a data set scales its errors | Data | partial | False in the code: given errors stay as they are, right only if /c/ = 1 or all are zero; counted errors are multiplied by the root of c, right only if c is 0 or 1 or all are zero. |
| C187 | Combined data sets have the errors and the normalisation of their parts | Data | partial | True for counted errors. False otherwise: a + b forgets given errors and the normalisation by time; in place the given errors of the first are kept as they are, in the old order, and with new points reading the error raises ValueError. |
| C188 | Data sets of whole numbers behave as data sets of the same numbers | Data | partial | True for *, / and //. False in place and for powers: whole counts cannot be multiplied by a float, divided, or raised to a negative or fractional power (TypeError, ValueError). Combining whole counts with fractional ones cuts off the fraction at each matching row without an error; at most one count for each is lost, and none if the first are floats or the second whole. |
| C189 | Instruments do not change one another | Instrument | partial | True over all histories in which nothing is handed to two instruments. False otherwise: the orientation is kept in the sample, so it is set for every instrument with the same sample and for the caller; arrays assigned to hcol are kept, those given to the constructor are copied. A sample without both vectors is refused by an AttributeError. |
| C190 | A setting that is left out acts as its documented default | Resolution | partial | True for method, moncor, infin, horifoc, the mosaics and a missing thickness or Q. False for negative values: both negative act as both positive, one negative makes the prefactor of a thin analyzer negative. False for sample sizes: with one size missing the sample is a cube of sqrt(12) cm and the sizes that are given are ignored. The last part is stated for the covariance of the sample that enters the calculation and as equality of answers to those for the cube. |
| C191 | Coarser settings never sharpen a triple-axis resolution | Resolution | proved | Over exact real numbers. A size has to be given in both or in neither instrument, since a missing size counts as sqrt(12) cm (C190). The sample has its three edges and the same shape type in both, or the same shape in both. |
| C192 | Opening an instrument never loses integrated intensity | Resolution | partial | Over exact real numbers. Including mosaics of flat samples, and thick analyzers between unchanged horizontal collimators. Missing: the reflectivity of thick analyzers when the collimation at the analyzer changes, tilted samples with a mosaic, and anisotropic mosaics with a focusing analyzer. |
| C193 | Resolution and lattice geometry do not depend on the choice of cell | Resolution | proved | Over exact real numbers; Smooth is not set. |
| C194 | A saved and loaded instrument has the same resolution | FileIO | partial | True for instruments that can be loaded (C65, C180), with a rectangular sample given by its sizes, a monitor without size and no focusing analyzer: all settings that the calculation reads, the cell and the orientation are the same. False for the others: the flag horifoc of the instrument, the size of the monitor and shape_type of the sample are not saved; with a focusing analyzer the matrix is another one at every point, and a cylinder is loaded as a box. Matrices as sample.shape are not modelled (they are not saved either). |
| C195 | The Voigt profile is the convolution of a Gaussian with a Lorentzian | Functions | proved | wofz is given by its integral in the upper half plane; exact real arithmetic. For the maximum the area is positive; with a negative area the same holds upside down (C195_negative). |
| C196 | Two-dimensional profiles have the documented positions and widths | Functions | proved | erf is given by its integral; exact real arithmetic. |
| C197 | Structure factors do not depend on the choice of a larger cell | Structure | partial | True without mass normalisation (false with it: the number of cells enters twice, once through the mass of the cell) and without displacement parameters (false otherwise: the attenuation is evaluated at the position of the atom), as long as both structure factors are numbers. |
| C198 | Thickness and incoherent cross section of a sample do not depend on the choice of a larger cell | Structure | partial | The thickness is the same for all materials. The incoherent cross section is the same without displacement parameters (as long as both are numbers) and false with them: the attenuation is evaluated at the position of the atom. |
| C199 | The mirror image of a triple-axis instrument has the mirrored resolution | Resolution | partial | Holds for all settings with the Cooper-Nathans method and for one point at a time with the Popovici method. False for lists with the Popovici method and curved crystals: the curvatures are multiplied by the senses again at every point. |
| C200 | The unit of length does not matter for the resolution | Resolution | proved | Equality of the outcomes, errors included. Outside the statement: with method='popovici', a name that the documentation does not mention but the code accepts, the arms are not read, and the resolution depends on the unit at every point (C200_named_false). |
| C201 | Passing the instrument in the opposite direction gives the same resolution | Resolution | partial | False with method=0 for every monochromator with a vertical mosaic of its own (it is ignored, that of the analyzer is not), and for guides: their divergence is computed with the wavelength in front of the sample wherever they stand. The partial theorem leaves out these two cases. |
| C202 | Resolution at the opposite point of reciprocal space | Resolution | proved | Exact arithmetic; Smooth is not set. No condition on the cell or the settings, so errors and degenerate cells are included. New instrument object. |
| C203 | SPE files that end early are not accepted | FileIO | partial | Holds for files that end within the first axis. False for files that end after any of the blocks of intensities or errors: a grid of the announced size is returned in which the last block of the file stands for all the missing ones, intensities for errors or errors for intensities. |
| C204 | Scaling the counts scales the integral and leaves position and width | Data | proved | Proved as an equality of outcomes, errors and nan included, in exact arithmetic. The last two theorems show that the conditions are needed: a background estimated from the data does not follow a negative factor, and a number that is not scaled along moves the position. |
| C205 | The size of the monitor matters in its own directions | Resolution | partial | Proved: a larger monitor leaves the matrices and does not raise the prefactor. The statement about the directions is false in the code, for all settings: the width of the monitor has no effect at all, and its height acts in the horizontal direction, for the change of the prefactors with the height does not depend on any setting of the vertical direction. Strictness of the decrease is not proved. |
| C206 | Integral, position and width do not depend on the order of the points | Data | partial | Proved for the opposite direction: position and width are the same, with errors and nan. False for the integral, which becomes its negative for every data set, and false for other orders: exchanging two points of a scan with its peak at 2 puts the peak at 1 and makes the integral 5 instead of 30. |
| C207 | Rebinning does not depend on the order of the points | Data | proved | Proved as an equality of outcomes, errors included, in exact arithmetic (the averages of floating point numbers depend on the order in the last digits). |
| C208 | Structure factors of many reflections are those of the single ones | Structure | partial | Proved for materials with at least one atom and one-dimensional arrays of a common length n > 0, errors included. False for a material without atoms: the answer to a query for arrays is the number 0 (C208_empty_false). Arrays of more dimensions, and arrays of length one beside longer ones, are not covered by the theorem. |
| C209 | Popovici's method is not applied without the distances it needs | Resolution | partial | Lists of fewer than four distances are refused, and the rules for the monitor and for Cooper-Nathans hold. False without arms: four arms of 1 cm are used silently (C209_missing_false). False for method='popovici': Popovici's formulas are used with arms of 1 cm whatever distances are given (C209_named_false). |
| C210 | Another unit on the scanned axis scales integral, position and width accordingly | Data | proved | Exact arithmetic. C210_two_axes shows that the condition on the scan is needed: when two axes move together the integral is the sum over both. |
| C211 | Rebinning a second time changes nothing | Data | partial | All columns come back unchanged for every data set with a row on the grid. The errors are normalised once more and change unless the monitor counts are the normaliser (witness); a result without rows cannot be rebinned when axes are left out (witness). |
| C212 | Rebinning does not depend on units and origins of the axes | Data | proved | Exact arithmetic (points on a boundary between two cells may change sides in floating point). |
| C213 | An orbit can be given by any of its atoms | Structure | partial | Proved for atoms without displacement parameters whenever both descriptions give a number. False in general: the code evaluates the scattering angle at the position of the atom (see C52, C103), so one description can give nan and the other not, and displacement parameters attenuate the two differently. |
| C214 | The resolution for faster neutrons | Resolution | proved | Equality of the outcomes, errors included. Exact arithmetic; Smooth is not set. |
| C215 | The resolution of a larger time-of-flight instrument | Tof | proved | Equality of the outcomes, errors included. Exact arithmetic. |
| C216 | The time-of-flight resolution for faster neutrons | Tof | proved | The prefactor is not part of the statement: the code computes it from the matrix at the Miller indices, which do not scale. Exact arithmetic. |
| C217 | The time-of-flight resolution at the opposite point | Tof | proved | The prefactor is not part of the statement. Exact arithmetic. |
| C218 | The convolution preserves order and sign | Convolution | proved | For an instrument outside of the quantifier `convolve_mono` has the same with the hypothesis that the prefactors of the resolution are not negative. Exact arithmetic. |
| C219 | The convolution of single modes is linear in the intensities and acts on each point separately | Single | proved | Linearity with the background zero (nargout 1); C219_background adds it. Exact arithmetic. |
| C220 | The counts can be scaled before or after rebinning | Data | partial | Everything but the errors agrees, and so do errors that were given. False for errors of counting: those of (d * c).bin(grid) are the root of c times those of d.bin(grid) * c, since rebinning turns counted errors into given ones, which a product leaves as they are (C186). Exact arithmetic. |
| C221 | The profile of a line is never negative, and the convolution of single modes preserves order and sign | Single | proved | Exact arithmetic; the rounding to single precision in _voigt is not modelled. |
| C222 | A projection of the resolution ellipsoid is its shadow and never narrower than a cut | Tools | proved | Exact real arithmetic. The widths compared are those returned; that they are twice the full widths is C91. |
| C223 | Intensities do not depend on the origin nor on the cell in which an atom is listed | Structure | partial | True for atoms without displacement parameters as long as both structure factors are numbers. False otherwise: the attenuation is evaluated at the position of the atom as if it were a reflection, so that it changes with the origin (C223_displaced_false, in every unit cell and at every reflection), and an atom that is listed far from the origin has no structure factor at all (nan), also when it is at rest (C223_far_false). |
| C224 | How often the atoms of an orbit are counted | Structure | proved | Exact arithmetic. This tells how much is wrong in C86: relative intensities of orbits with the same number of such operations are right, others are not. |
| C225 | Integrals over parts of a scan | Data | proved | Exact arithmetic over an ordered field. Each part has at least two points (one point raises, C22). |
| C226 | A flat background is removed | Data | proved | Exact arithmetic over an ordered field; every point was counted for a monitor count (or time) that is not zero. |
| C227 | Wavevectors of the planes of one crystal | Tools | partial | False for copper (111): the display has two lines for it and the second (2.095), which replaces the first, does not fit copper (002) and (220); the first (2.087) does. Holds for graphite and the five germanium planes. |
| C228 | How much background is taken away | Data | proved | Exact arithmetic over an ordered field with a floor. |
| C229 | How the attributes of neutrons compare | Energy | proved | Real arithmetic. Values that are not positive are treated in C28-C31. |
| C230 | Units and origins of the axes of the profiles | Functions | proved | Real arithmetic; for all functions in place of wofz and erf. resolution in its default mode. |
| C231 | The unit of length of a lattice | Crystal | proved | Real arithmetic; nan, infinities and LinAlgError are error values. |
| C232 | Thickness of stacked and mixed samples | Structure | proved | Real arithmetic. |
| C233 | Detailed balance at low and at high temperatures | Data | proved | Over the reals. |
| C234 | What the Currat-Axe warnings depend on | Angles | partial | For positions given by three indices. False in full: positions in the documented form with two components raise IndexError (C130). |
| C235 | How oscillators and dispersions follow their parameters | Models | proved | Over the reals. |
| C236 | The time of a chopper and the descriptions of its opening | Instrument | partial | Opposite disks, unit of length and width proved. False: with a radius the time is always 2 pi / 10^6 of the documented one; with an angle it is right for an opening of about 1.5 degrees only; the two descriptions agree for one opening only, of about 612 degrees. |
| C237 | Chopping what is chopped | Tools | partial | False for complex scalars whose imaginary part is chopped: the result is a complex number without imaginary part, on which chop raises TypeError. Proved for all other values. |
| C238 | How the angle of the scattering triangle follows its sides | Tools | proved | Over the reals. |
| C239 | Free wavevectors of successive energy transfers | Tools | partial | Proved for energy loss and elastic scattering. False for the opposite transfer: energy gain gives nan (C58). |

## 6. Where the code disagrees with its documentation

Each line below is a theorem (see the notes of section 5).

* Augmented assignment on data sets (`+=`, `-=`, `*=`, `/=`) leaves `None` in the variable (C07).
* The normalising monitor is not refreshed when the monitor changes (C08).
* Errors of binned data are divided by the monitor twice (C14).
* Equality of data sets broadcasts (C20); `Data(Q=...)` takes the number of columns for the number of points (C21).
* Summaries without bounds drop points with `h = 0` (C22).
* `Scans.update` breaks the summaries (C27) and changes the caller's dictionary (C78).
* `Energy` of an array with a zero has an infinite wavevector (C31); equality of energies is not transitive (C32).
* The B matrix is wrong for rhombohedral and triclinic cells (C40); some triclinic cells are rejected (C43).
* Angles between directions use the wrong metric for non-cubic cells (C45, C94).
* Symmetry operations are not always read back as printed (C48); unknown space groups are accepted (C84).
* Occupancies enter structure factors three times with mass normalisation (C50) and are ignored in cross sections (C104, C106).
* Debye-Waller factors are evaluated at the atom instead of the reflection (C52, C103).
* Scattering angles for energy gain are nan (C58); the resolution cache returns stale results (C60).
* With a guide the divergence of the first point is kept (C62); the sample shape is turned again at each calculation (C63).
* Q and the sample angle of `get_angles_and_Q` are wrong outside special orientations and in the negative sense (C129); `currat_axe_peaks` rejects the documented form of its arguments (C130).
* Curves of `calc_projections` mix 1/Å and r.l.u., and their centres are wrong for u·v ≠ 0 (C131); `get_resolution_params` has a factor too much in its height, returns `None` for half of the documented planes and fails with several stored points (C132).
* Time of flight: see C135 (instants of choppers taken as independent, cylinders out of the plane), C136 (elastic Bragg angle for inelastic points), C137 (energy gain gives nan, no matrix where the beam points to the detector), C138 (frame of the crystal for cells that are not cubic), C140 (horizontal cylinder), C141 (one chopper), C142 (distance of the sample, pixels, height, divergence), C143 (prefactor).
* Convolution: a single point raises `IndexError` and a number as `ACCURACY` of the grid `TypeError` (C147); with a seed `ACCURACY` has no effect, and normal random numbers are used where uniform ones are meant, which shifts the mean by up to 1e-7 (C148); matrices that couple the vertical component are cut (C145); one point is weighted by 0.79788 instead of sqrt(2/pi) (C149).
* Single modes: without prefactor `resolution_convolution_SMA` raises `TypeError`, `numpy.ones(modes, points)` (C151); `_voigt` at width zero is not exactly the Gaussian, since the third approximation overwrites it (C152); with a seed `ACCURACY` has no effect on the Monte Carlo method (C153).
* Guides after the sample: their divergence is computed with the wavelength of the incident neutrons (C155).
* `Smooth`: results are `nan`, widths exchanged or ignored (C156).
* With the Cooper-Nathans method the vertical mosaic of the monochromator is ignored, that of the analyzer is not (C122).
* The flag `horifoc` of the analyzer is ignored; only an undocumented attribute of the instrument works (C157).
* `load_instrument(..., 'parcfg')` loses the sample mosaic, ignores the scattering senses, inverts curvatures for sense -1, divides sizes by √12 twice, takes lengths for squares in the sample shape, and needs the undocumented name KFIX (C158).
* `__eq__` of instruments broadcasts arrays, counts the stored results of `calc_resolution` as attributes and raises when a part is compared with something else (C159).
* taz files: numbers come back as strings, reflections are not restored, the table of defaults is in another order than the table of keys, and four distances cannot be saved (C160).
* `plot_contour` divides only the minimum by the step, so that the mesh has the wrong number of columns and rows or an exception is raised (C161).
* `spurion.aluminum` prints intensities 2304 times too large, because the special position of the atom is not taken into account (C162, cf. C86).
* `plot_ellipsoid` draws the ellipsoid at half of its size and without its tilt against the energy axis, and draws nothing for two or more positions (C163).
* `plot_projections` takes curves stored for other points, another `npts` or other settings, if the last resolution calculation was for the points asked for; the QyW panel names the wrong vector at its first axis (C164).
* `description_string` prints twice the volume of the resolution function and twice its widths, raises TypeError for a method given by name, and names the present method rather than the one of the calculation (C165).
* `plot_instrument` draws crystals too narrow and in the wrong plane (`Y = X * cos(a)` after `X` was multiplied by `sin(a)`), and the detector not turned with the beam (C166).
* `plot_line(x, y)` raises TypeError for its default `smooth_options=None`; `plot_options` without `fmt` make every fit fail; error bars of a column are the roots of its values, whatever the column and whatever errors are stored (C167).
* `plot_unit_cell` draws boxes whatever the angles of the cell, draws diagonals if one side is the sum of the others, and raises AttributeError without `massNorm` (C168).
* `build_param_table`, and with it `plot` of a fit, fails if a parameter was fixed, and shows small chi squared as zero (C169).
* `Instrument` accepts unknown types, engines and settings silently; the documented names `mono_tau` and `ana_tau` have no effect (C170).
* The default colour scale of `Scans.pcolor` never begins above 1 nor ends below 0, whatever the data; a single scan is drawn between zero and twice its coordinate (C172).
* `Fitter.nofinitecheck` reads an attribute that is never assigned and raises `AttributeError` (C173).
* `Fitter.plot` takes x, y and err from the elements 1, 2 and 3 of the data, while the documentation and the tutorials use `(x, y, err)` (C174).
* `MainWindow.load_instrument` calls `description_string()`, a property whose value is a text, so the window never opens; it assigns the vertical curvature of the analyzer to `ana.rh`, on the condition of the text for the monochromator; and it converts a widget with `float` for Custom crystals (C175).
* `plot_volume` has the fixed colour scale from 1e-4 to 0.1, so that one count and a thousand have the same colour; its default `smooth_options=None` raises `TypeError` (C176).
* `Material` cannot be made of isotopes: `KeyError` from the periodic table, which is only needed for the mass (C177).
* `MagneticUnitCell` assigns chirality and phase only when they are not given, and `Material` asks for `magnetic_unit_cell` but reads `magnetic_cell` (C178).
* `calc_mag_form_fac` refuses the lists that its documentation allows, and `MagneticFormFactor` catches `ValueError` where `KeyError` is raised (C179).
* Instruments in HDF5 files: adding to an existing file raises `ValueError`, `None` raises `TypeError`, and `Smooth` is saved but cannot be loaded (C180).
* `get_rotation` and `get_translation` of the operations of a space group, which are a three-dimensional array, slice the wrong dimensions (C181).
* `Grasp.load` asks for `GRASP` in capitals where `detect_filetype` does not, so a recognised file is refused (C182).
* `niter`, `nfev` and `npegged` of a `Fitter` are documented but never assigned; after a failed fit `orignorm` and `npar` belong to another fit than the other results (C183).
* The text for a time-of-flight instrument has widths and volume that are twice too large, widths in reciprocal lattice units that are said to be in inverse Angstrom, and none at all for lists of points (C184).
* The printed forms of samples with vectors, crystals given by name, analyzers, detectors, choppers, atoms and instruments do not make the object again, or raise (C185).
* Scaling a data set leaves given errors unchanged and multiplies counted errors by the root of the factor (C186).
* Combining forgets given errors and the normalisation by time, and in place keeps the errors of the first data set in the old order (C187).
* Whole counts cannot be divided or scaled by a float in place or raised to such a power, and combining cuts off fractions (C188, C01).
* Setting the orientation of an instrument changes the sample that it was given and every other instrument with it (C189).
* A negative analyzer thickness or Q, documented as switching the reflectivity correction off, does not; one negative value gives a negative prefactor. A sample with one size missing counts as a cube of sqrt(12) cm (C190).
* The flag `horifoc` of an instrument, the size of its monitor and the `shape_type` of its sample are not written to instrument files: the resolution of a loaded instrument is that of a flat analyzer and a box (C194).
* With mass normalisation the structure factor of a crystal described with N cells is N² times that of one cell; with displacement parameters it is no multiple at all (C197).
* The incoherent cross section of displaced atoms depends on the cell with which the crystal is described (C198).
* With the Popovici method and curved crystals an instrument and its mirror image agree at the first point of a list only (C199).
* C201: with `method=0` the vertical mosaic of the monochromator is ignored but that of the analyzer is used (`tas_instrument.py:594-604`), and the divergence of guides is computed with `ki` also behind the sample (lines 754-757), so the two directions of an instrument have different resolutions.
* C203: an SPE file that ends early is loaded without an error, the last block repeated in place of the missing ones (`Verif.FileIO.C203_cut_false`).
* **Width and height of the monitor (C205).** The matrices for the monitor (`tas_instrument.py` 866-879) have seven columns: guide width and height, monochromator depth, width and height, monitor width and height. The column of the monitor width is zero in both, and the column of the monitor height holds the entries of the horizontal direction. So the width of a monitor has no effect (`C205_width_false`), and its height acts horizontally (`C205_height_false`). For the detector the columns are in their places.
* **Direction of a scan (C206).** `integrate` is a sum of `np.trapz` over the points in the order in which they are stored, without sorting. For a scan measured from high to low values the integral is the negative of what it should be (`C206_integral_false`), and with points in mixed order integral, position and width are wrong (`C206_order_false`).
* C208: a material without atoms answers the query for an array of reflections with the number 0 instead of an array (crystal/structure_factors.py 51-58).
* C209: without `arms` Popovici's method silently uses arms of 1 cm; with the method given as 'popovici' it does so even if the arms are set (instrument/tas_instrument.py 690, 829).
* C211: `Data.bin` applied to its own result normalises the errors a second time (they shrink by monitor/normaliser each time), and raises `ValueError` on a result without rows when an axis is left to its range.
* C213: the structure factor depends on which atom of an orbit is given: `nan` for some descriptions only, and a different attenuation with displacement parameters. Cause as in C52 and C103.
* C220: `(d * c).bin(grid)` and `d.bin(grid) * c` have different errors if the errors follow from the counts: `bin` stores errors, and a product leaves stored errors as they are (`C220_counted_false`).
* C223: the Debye-Waller factor of `calc_nuc_str_fac` uses the scattering angle at the position of the atom. The intensity therefore depends on the origin when there are displacement parameters, and the result is `nan` for an atom whose coordinates, taken as Miller indices, cannot be reached with the wavelength, even without displacement parameters.
* C227: `GetTau` has two lines for copper (111) (neutronpy/instrument/tools.py 215-230). The second, with a spacing of 2.095, replaces the first, with 2.087. Only the first fits the spacings given for copper (002) and (220).
* `Chopper.tau` is not in microseconds for disks with a radius, and inverted in the opening for the others; the two descriptions of an opening disagree (C236).
* `chop` cannot be applied to its own result for complex scalars whose imaginary part was chopped (C237).
* Files: see C65–C68, C97–C99, C108–C116.
* Fits: see C69, C70, C100–C102.
* Attributes: see C72; choppers and goniometers: C92, C93.

## 7. Trials with wrong programs

`seeded/LOG.jsonl` has one line per trial: the definition edited in a scratch
copy, the edit, the claim it breaks, the declarations that stopped compiling
(`failed`), the theorems of the manifest that use them and so lose their proof
(`without_proof`), and theorems tightened or added when an edit was not noticed.
