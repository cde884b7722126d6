{"claims": [
{"property": "C01", "status": "partial", "theorems": ["Verif.Data.C01_combine_conserves_counts_partial", "Verif.Data.Whole.C188_combine_false", "Verif.Data.Whole.C188_lost_partial"], "note": "All rectangular data sets with equal columns, any tolerances, for columns of one type of exact numbers. False if the counts of the first are an array of integers and those of the second are not whole: the fraction is cut off at each matching row (proved, with a bound for the loss)."},
{"property": "C02", "status": "proved", "theorems": ["Verif.Data.C02_combine_coordinates"], "note": ""},
{"property": "C03", "status": "partial", "theorems": ["Verif.Data.C03_first_match_partial", "Verif.Data.Whole.C06_types_false"], "note": "For columns of one type of exact numbers. False if the left counts are an array of integers and a right count is not whole: the fraction is cut off (proved)."},
{"property": "C04", "status": "proved", "theorems": ["Verif.Data.C04_sorted"], "note": ""},
{"property": "C05", "status": "proved", "theorems": ["Verif.Data.C05_add_leaves_operands_unchanged"], "note": "Heap model of combine_data with mutable arrays."},
{"property": "C06", "status": "partial", "theorems": ["Verif.Data.C06_combine_is_map_addition_partial", "Verif.Data.C06_load_order_irrelevant_partial", "Verif.Data.C06_commutative_partial", "Verif.Data.C06_associative_partial", "Verif.Data.C06_load_order_matters_with_tolerance", "Verif.Data.Whole.C06_types_false"], "note": "For columns of one type of exact numbers; order matters with a positive tolerance, as the statement says. False for an array of integers combined with counts that are not whole: the result depends on the order (proved)."},
{"property": "C07", "status": "partial", "theorems": ["Verif.Data.C07_augmented_assignment_gives_None", "Verif.Data.C07_object_updated_partial"], "note": "False in the code: the in-place methods return None, so the variable is lost (proved). The object itself is updated as the binary operator would."},
{"property": "C08", "status": "partial", "theorems": ["Verif.Data.C08_stale_normaliser", "Verif.Data.C08_intensity_current_partial"], "note": "False after in-place combination or monitor assignment (witness proved); holds for all histories of +, -, *, / and reads."},
{"property": "C09", "status": "proved", "theorems": ["Verif.Data.C09_bin_averages"], "note": "Every output row of bin is the cell average of exactly the points inside the closed cell, in grid order; refinement against a separate mean/InCell specification, for any number of processes."},
{"property": "C10", "status": "proved", "theorems": ["Verif.Data.C10_bin_processors", "Verif.Data.C10_chunks_partition"], "note": "The result does not depend on the number of worker processes; the chunks partition the cells in order."},
{"property": "C100", "status": "partial", "theorems": ["Verif.Fitter.C100_list_array_partial", "Verif.Fitter.C100_tuple", "Verif.Fitter.C100_data_ignored"], "note": "Lists and arrays agree. False in full: a tuple always makes the fit fail, and data that is not a tuple is silently ignored."},
{"property": "C101", "status": "partial", "theorems": ["Verif.Fitter.C101_swapped", "Verif.Fitter.C101_before"], "note": "The statement is false; proved instead: nfree is the number of degrees of freedom and dof the number of varied parameters (under Env.Lawful)."},
{"property": "C102", "status": "partial", "theorems": ["Verif.Fitter.C102_scaled_twice"], "note": "The statement is false; proved instead: stderr is xerror times the root of the reduced chi-square (LMFIT scales the covariance already, hypothesis Scaled)."},
{"property": "C103", "status": "partial", "theorems": ["Verif.Structure.C103_damped", "Verif.Structure.C103_monotone", "Verif.Structure.C103_not_by_reflection", "Verif.Structure.C103_origin_ignored", "Verif.Structure.C103_false"], "note": "Proved: never above the bound for atoms at rest, monotone in Uiso. False: the factor is evaluated at the position of the atom, so it does not depend on the reflection and is one for an atom at the origin."},
{"property": "C104", "status": "partial", "theorems": ["Verif.Structure.C104_total_partial", "Verif.Structure.C104_occupancy_ignored", "Verif.Structure.C104_false"], "note": "The occupancies are ignored; agrees for full occupancy."},
{"property": "C105", "status": "partial", "theorems": ["Verif.Structure.C105_units_partial", "Verif.Structure.C105_atoms", "Verif.Structure.C105_false"], "note": "What is returned is the number of formula units, not of atoms."},
{"property": "C106", "status": "partial", "theorems": ["Verif.Structure.C106_mass", "Verif.Structure.C106_bound", "Verif.Structure.C106_occupancy_ignored", "Verif.Structure.C106_false"], "note": "The occupancies are ignored; value for atoms at rest, bound with displacements, and the factor for the mass are proved."},
{"property": "C107", "status": "partial", "theorems": ["Verif.Data.C107_assign_count_partial", "Verif.Data.C107_right_length", "Verif.Data.C107_wrong_length_accepted"], "note": "Columns of a wrong length are accepted; the intensity then fails."},
{"property": "C108", "status": "partial", "theorems": ["Verif.FileIO.C108_columns_partial", "Verif.FileIO.C108_single", "Verif.FileIO.C108_no_names", "Verif.FileIO.C108_plot_default", "Verif.FileIO.C108_appended_false", "Verif.FileIO.C108_false"], "note": "Holds for files of one scan with two or more points; a file with one point gives single numbers instead of arrays, and a file with two scans gives all points under the column names of the second."},
{"property": "C109", "status": "partial", "theorems": ["Verif.FileIO.C109_points_partial", "Verif.FileIO.C109_last_lost", "Verif.FileIO.C109_false"], "note": "Holds when one line of other text follows the numbers; otherwise the last point is left out."},
{"property": "C11", "status": "proved", "theorems": ["Verif.Data.C09_bin_averages"], "note": "C09 characterises every row including empty cells."},
{"property": "C110", "status": "partial", "theorems": ["Verif.FileIO.C110_first_nine_partial", "Verif.FileIO.C110_rest_lost", "Verif.FileIO.C110_few", "Verif.FileIO.C110_false"], "note": "Only the first nine columns are loaded; files with fewer fail."},
{"property": "C111", "status": "partial", "theorems": ["Verif.FileIO.C111_columns_partial", "Verif.FileIO.C111_extra_line", "Verif.FileIO.C111_false"], "note": "Holds for the usual twelve lines before the numbers; with another line the names become a point of nan."},
{"property": "C112", "status": "partial", "theorems": ["Verif.FileIO.C112_columns_partial", "Verif.FileIO.C112_false", "Verif.FileIO.C112_counts_partial"], "note": "Holds for two or more points; one point gives single numbers."},
{"property": "C113", "status": "partial", "theorems": ["Verif.FileIO.C113_iexy", "Verif.FileIO.C113_xye", "Verif.FileIO.C113_spe", "Verif.FileIO.C113_xyie_never", "Verif.FileIO.C113_by_name", "Verif.FileIO.C113_false"], "note": "Proved for three formats; XYIE is never recognised by the contents."},
{"property": "C114", "status": "partial", "theorems": ["Verif.FileIO.C114_iexy_partial", "Verif.FileIO.C114_xye_partial", "Verif.FileIO.C114_single", "Verif.FileIO.C114_false"], "note": "Holds for two or more points; a file with one point is not loaded."},
{"property": "C115", "status": "partial", "theorems": ["Verif.FileIO.C115_values_partial", "Verif.FileIO.C115_never_usable", "Verif.FileIO.C115_false"], "note": "Intensity, error and x are right; y is a copy of x, and reading the intensity always raises ValueError."},
{"property": "C116", "status": "partial", "theorems": ["Verif.FileIO.C116_values_partial", "Verif.FileIO.C116_not_usable", "Verif.FileIO.C116_full_lines", "Verif.FileIO.C116_longer_first", "Verif.FileIO.C116_false", "Verif.FileIO.C116_line", "Verif.FileIO.C116_mark", "Verif.FileIO.C116_capital_false"], "note": "Intensity, error and x are right when both axes are read to their ends; y is a copy of x; with a first axis of full lines or longer than the second the coordinates are empty. Lines are split into their numbers for columns of fixed width; numbers with a capital letter before a negative exponent are split in two."},
{"property": "C117", "status": "proved", "theorems": ["Verif.FileIO.C117_collimation", "Verif.FileIO.C117_lattice"], "note": "Among any other readable header lines; of several lines of one kind the last counts."},
{"property": "C118", "status": "partial", "theorems": ["Verif.Models.C118_parameters", "Verif.Models.C118_meaning_partial", "Verif.Models.C118_period_iff", "Verif.Models.C118_false"], "note": "Centre, amplitude, phase proved. False: p[2] is not the period but the angular frequency; the exact set of periods is proved."},
{"property": "C119", "status": "proved", "theorems": ["Verif.Models.C119_parameters", "Verif.Models.C119_equation", "Verif.Models.C119_undamped", "Verif.Models.C119_decay"], "note": ""},
{"property": "C12", "status": "proved", "theorems": ["Verif.Data.C12_range_covered", "Verif.Data.C12_one_cell", "Verif.Data.C12_boundary_counted_twice"], "note": "Every point in the requested range falls in at least one cell, in exactly one if it is interior; points on a common boundary are counted twice (witness), which the statement allows for."},
{"property": "C120", "status": "partial", "theorems": ["Verif.Models.C120_shape_partial", "Verif.Models.C120_false", "Verif.Models.C120_negative"], "note": "Shape, greatest values and periods proved exactly. False: greatest values are 2 sqrt p[0], 8 p[0], p[0] and the periods pi/p[1], 2 pi/p[1], pi/p[1]."},
{"property": "C121", "status": "proved", "theorems": ["Verif.Models.C121_long_waves"], "note": ""},
{"property": "C122", "status": "partial", "theorems": ["Verif.Resolution.C122_flight_partial", "Verif.Resolution.C122_flight_mosaic_partial", "Verif.Resolution.C122_vmosaic_false", "Verif.Resolution.C122_guide_false"], "note": "Holds for every instrument without guides after the sample and without vertical mosaic of the monochromator, without and with sample mosaic, for any scattering senses and either fixed energy. False with a vertical mosaic of the monochromator: with the Cooper-Nathans method it is ignored, and the matrix is wrong for every such instrument at every point. False with a vertical guide after the sample, which is treated with the wavevector before the sample: the matrix is wrong for every such instrument at every inelastic point. Collimators and mosaics as Gaussian weights. The horizontally focusing analyzer and the Popovici method are outside the statement."},
{"property": "C123", "status": "partial", "theorems": ["Verif.Resolution.C123_iff", "Verif.Resolution.C123_equal_partial", "Verif.Resolution.C123_false", "Verif.Resolution.C123_any_iff", "Verif.Resolution.C123_level_iff", "Verif.Resolution.C123_level_partial"], "note": "All methods, flat and focusing analyzers, samples that look the same from above and below: conserved exactly if both mosaics are equal or the resolution happens to be equal in and out of the plane. False for different mosaics: the prefactor pairs each mosaic with the other direction. For samples of a tilted shape an exact condition is proved."},
{"property": "C124", "status": "partial", "theorems": ["Verif.Resolution.C124_paths_partial", "Verif.Resolution.C124_paths_mosaic_partial"], "note": "Without and with sample mosaic. Missing: guides after the sample, for which the code uses the wavelength before the sample (that this changes every inelastic result, prefactor and matrix together, is C155_after_false). Spatial distributions enter as Gaussians with the variances of uniform ones (the variances are proved from integrals); collimators and mosaics as Gaussian weights."},
{"property": "C125", "status": "partial", "theorems": ["Verif.Resolution.C125_base_partial", "Verif.Resolution.C125_height_false", "Verif.Resolution.C125_as_box"], "note": "The base is right. False for the height: its variance is h^2/16 in place of h^2/12, so that a cylinder is treated exactly as a box with all edges scaled by sqrt(3)/2 (proved for all lists of points)."},
{"property": "C126", "status": "partial", "theorems": ["Verif.Resolution.C126_form", "Verif.Resolution.C126_any_partial", "Verif.Resolution.C126_number", "Verif.Resolution.C126_false"], "note": "Answers are computed anew or are the stored ones, and then every argument agrees with the stored points. False in full: after a query for the same point twice, the point given as numbers gets two results (C126_false, for every valid instrument and reachable point)."},
{"property": "C127", "status": "partial", "theorems": ["Verif.FileIO.C127_spice_partial", "Verif.FileIO.C127_spice_temperature", "Verif.FileIO.C127_mad_partial", "Verif.FileIO.C127_ice_partial", "Verif.FileIO.C127_icp_partial"], "note": "Every quantity is that of its column. False for the temperature of SPICE files without a column tvti, and where columns or points are lost (C108-C111)."},
{"property": "C128", "status": "partial", "theorems": ["Verif.Angles.C128_bragg_partial", "Verif.Angles.C128_unreachable", "Verif.Angles.C128_energy", "Verif.Angles.C128_energy_false"], "note": "Bragg's law and the fixed energy exactly; the energies differ by the energy transfer up to one part in 10^4 (the constant 0.4826), with the constants of nature known to five digits. To the letter false: with the constants of nature to seven digits they are always off by more than five parts in a million."},
{"property": "C129", "status": "partial", "theorems": ["Verif.Angles.C129_q_partial", "Verif.Angles.C129_q_false", "Verif.Angles.C129_turn", "Verif.Angles.C129_condition_partial", "Verif.Angles.C129_sense_false", "Verif.Angles.C129_axes_partial"], "note": "True for cells with right angles, u along a* and v in the plane of a* and b*, and the positive sense. False in full: for u=[1,1,0], v=[0,0,1] Q is 0 at every (0,0,l); in the negative sense A3 is wrong for every point off the first axis."},
{"property": "C13", "status": "proved", "theorems": ["Verif.Data.C13_whole_range"], "note": "Omitted axes get a single cell containing every point."},
{"property": "C130", "status": "partial", "theorems": ["Verif.Angles.C130_points", "Verif.Angles.C130_warnings_partial", "Verif.Angles.C130_peak", "Verif.Angles.C130_documented_false"], "note": "Exact for positions given by three indices. False in full: positions in the documented form with two components always raise IndexError."},
{"property": "C131", "status": "partial", "theorems": ["Verif.Resolution.C131_curves_partial", "Verif.Resolution.C131_centre_partial", "Verif.Resolution.C131_centre_false", "Verif.Resolution.C131_units_false"], "note": "Contours, integrals, centres in the code's own coordinates and widths proved for lists of points. False in full: the ellipse is in 1/\u00c5 while centre and axes are in r.l.u.; with u.v != 0 the centre is not at the coordinates of the point."},
{"property": "C132", "status": "partial", "theorems": ["Verif.Resolution.C132_params_partial", "Verif.Resolution.C132_height", "Verif.Resolution.C132_height_false", "Verif.Resolution.C132_planes_false", "Verif.Resolution.C132_several_false", "Verif.Resolution.C132_elsewhere_false"], "note": "The Gaussian has the right shape in each plane. False in full: its height has an additional factor sqrt(2 pi / B); planes named ...Slice return None; more than one stored point raises UnboundLocalError; another point than the stored one raises InstrumentError."},
{"property": "C133", "status": "proved", "theorems": ["Verif.Resolution.C133_vertical", "Verif.Resolution.C133_Q"], "note": "Exact arithmetic. For all methods, settings and sequences of queries."},
{"property": "C134", "status": "proved", "theorems": ["Verif.Resolution.C134_stretch"], "note": "Exact arithmetic. With the Popovici method all sizes have to be given (a missing one is a constant in the code)."},
{"property": "C135", "status": "partial", "theorems": ["Verif.Tof.C135_sphere_partial", "Verif.Tof.C135_cylinder_partial", "Verif.Tof.C135_instants", "Verif.Tof.C135_instants_false", "Verif.Tof.C135_cylinder_false", "Verif.Tof.C135_cylinder_level_partial"], "note": "Error propagation with the derivatives of the actual flight proved for spherical detectors, and for cylinders at points in the plane; for cylinders at every elevation the matrix is that of the momentum and of the energy of the horizontal motion. False in full: the two flight times are treated as independent although they share the opening of the second chopper, which underestimates the energy width; for a cylinder out of the plane the length of the path is not used."},
{"property": "C136", "status": "partial", "theorems": ["Verif.Tof.C136_triangle_partial", "Verif.Tof.C136_inelastic_false", "Verif.Tof.C136_vertical", "Verif.Tof.C136_vertical_false"], "note": "The energy is right always; in the plane the momentum is right exactly for W = 0 or q^2 = ki^2 - ki kf (the elastic Bragg angle is used). False for other inelastic points and out of the plane."},
{"property": "C137", "status": "partial", "theorems": ["Verif.Tof.C137_spd", "Verif.Tof.C137_exists_partial", "Verif.Tof.C137_gain_false", "Verif.Tof.C137_exists_beam_partial", "Verif.Tof.C137_beam_false"], "note": "Positive whenever a matrix is returned. Existence proved for 0 <= W with a beam from any direction, except elastic points where the beam points to the detector, for which there is none (C137_beam_false); energy gain gives nan (C137_gain_false)."},
{"property": "C138", "status": "partial", "theorems": ["Verif.Tof.C138_cubic_partial", "Verif.Tof.C138_ortho_false", "Verif.Tof.C138_stored", "Verif.Tof.C138_points"], "note": "Proved for cubic cells oriented along the axes; false otherwise (rows and columns are scaled by the wrong reciprocal axes). Stored entries are within 1e-12 of the computed ones."},
{"property": "C139", "status": "proved", "theorems": ["Verif.Tof.C139_monotone", "Verif.Tof.C139_scale"], "note": "Exact arithmetic; both detector shapes. Besides, uncertainties that are all s times as large give the matrix divided by s squared."},
{"property": "C14", "status": "partial", "theorems": ["Verif.Data.C14_error_scale_partial", "Verif.Data.C14_error_normalised_twice"], "note": "The claim as stated is false of the code: the error is divided by the normalisation twice (witness proved); the scaling law that does hold is proved."},
{"property": "C140", "status": "partial", "theorems": ["Verif.Tof.C140_shape", "Verif.Tof.C140_other", "Verif.Tof.C140_orientation", "Verif.Tof.C140_horizontal_false"], "note": "Shapes are decided as documented. False for a horizontal cylinder: the orientation is never looked at."},
{"property": "C141", "status": "partial", "theorems": ["Verif.Tof.C141_order", "Verif.Tof.C141_sorted", "Verif.Tof.C141_single_false", "Verif.Tof.C141_single_guides"], "note": "Order is of no consequence for distinct distances. False for one chopper: IndexError in the constructor, or in every calculation."},
{"property": "C142", "status": "partial", "theorems": ["Verif.Tof.C142_units_partial", "Verif.Tof.C142_distance_false", "Verif.Tof.C142_pixel_false", "Verif.Tof.C142_height_false", "Verif.Tof.C142_guide_false", "Verif.Tof.C142_lengths_partial"], "note": "Times, chopper and detector distances, mosaics and the spread of lengths of the guides are converted. False for the distance of the sample, the pixels, the height of the detector and the divergence of the guide."},
{"property": "C143", "status": "partial", "theorems": ["Verif.Tof.C143_cell_partial", "Verif.Tof.C143_prefactor_false"], "note": "The matrix is the same. The prefactor is not: it changes by s^2 at elastic points."},
{"property": "C144", "status": "proved", "theorems": ["Verif.Convolution.C144_variables"], "note": "Exact arithmetic. Matrices with elements between the vertical component and the others: see C145."},
{"property": "C145", "status": "partial", "theorems": ["Verif.Convolution.C145_grid_partial", "Verif.Convolution.C145_level", "Verif.Convolution.C145_coupled_false"], "note": "Convergence proved, through calc_resolution, for every valid instrument with a sample that is the same seen from above and below and points in the plane. ACCURACY [M, 0] converges to the convolution at the level of the plane within 1e-5. False for matrices that couple the vertical component with the others (tilted samples), whose elements are not read."},
{"property": "C146", "status": "proved", "theorems": ["Verif.Convolution.C146_linear", "Verif.Convolution.C146_background", "Verif.Convolution.C146_own"], "note": "Own points: method 'fix', or 'mc' with a seed."},
{"property": "C147", "status": "partial", "theorems": ["Verif.Convolution.C147_outcome", "Verif.Convolution.C147_single", "Verif.Convolution.C147_default"], "note": "The full decision table is proved. The property is false in three entries: a single point always raises IndexError, a number as ACCURACY with 'fix' raises TypeError, a list that is too short IndexError; 'mc' with zero gives nan."},
{"property": "C148", "status": "partial", "theorems": ["Verif.Convolution.C148_mean_partial", "Verif.Convolution.C148_uniform", "Verif.Convolution.C148_normal_false", "Verif.Convolution.C148_seed", "Verif.Convolution.C148_variance", "Verif.Convolution.C148_converges_partial"], "note": "Without a seed the mean is the convolution within 1e-7 of that of the absolute cross section, but not exactly: the code draws normal numbers where its transformation assumes uniform ones (with those the mean is exact). The variance is inversely proportional to ACCURACY and the values converge in probability. With a seed ACCURACY has no effect. Valid instruments and points as in C145."},
{"property": "C149", "status": "partial", "theorems": ["Verif.Convolution.C149_centre", "Verif.Convolution.C149_constant"], "note": "The value is that of the property times 0.79788^4 (pi/2)^2; for constant cross sections it is always too small, by less than 1e-4."},
{"property": "C15", "status": "proved", "theorems": ["Verif.Data.C15_subtract_intensities"], "note": ""},
{"property": "C150", "status": "partial", "theorems": ["Verif.Single.C150_lines_partial", "Verif.Single.C150_coupled_false"], "note": "All widths. Through calc_resolution for every valid instrument with a sample that is the same seen from above and below and points in the plane; a single point raises IndexError (C151). False for matrices that couple the vertical component with the others (tilted samples), whose elements are not read."},
{"property": "C151", "status": "partial", "theorems": ["Verif.Single.C151_outcome", "Verif.Single.C151_pref_false", "Verif.Single.C151_default"], "note": "The full decision table is proved. The property is false: a call without prefactor always raises TypeError (numpy.ones(modes, points)), a single point IndexError, a number as ACCURACY with 'fix' TypeError, a list that is too short IndexError; 'mc' with zero gives nan."},
{"property": "C152", "status": "proved", "theorems": ["Verif.Single.C152_symmetric", "Verif.Single.C152_sharp", "Verif.Single.C152_profile"], "note": "In exact arithmetic; the rounding to single precision in the code is not modelled. For width zero the bound is 5e-5 and the profile is the Gaussian exactly beyond 0.91 (C152_sharp_false: not nearer to the centre)."},
{"property": "C153", "status": "partial", "theorems": ["Verif.Single.C153_mean_partial", "Verif.Single.C153_seed_false", "Verif.Single.C153_variance", "Verif.Single.C153_converges_partial"], "note": "Without a seed the mean is proved for every number of blocks, the variance is inversely proportional to it, and the values converge in probability; for valid instruments and points as in C145. False with a seed: the random numbers start again for every block, so that ACCURACY has no effect."},
{"property": "C154", "status": "proved", "theorems": ["Verif.Resolution.C154_monitor", "Verif.Resolution.C154_same"], "note": "For lists of any length, without sample mosaic or with an isotropic one, including the reflectivity of thick analyzers; guides after the sample are in C155."},
{"property": "C155", "status": "partial", "theorems": ["Verif.Resolution.C155_before_partial", "Verif.Resolution.C155_after_false"], "note": "Proved for guides before the sample, one point per call. False after the sample, where the wavelength of the incident neutrons is used: for every instrument and either method, at every point at which the wavelengths differ by two percent no collimation within one percent gives the same result (horizontal guides: without the reflectivity of a thick analyzer). Further points of a call keep the divergence of the first (C62)."},
{"property": "C156", "status": "partial", "theorems": ["Verif.Resolution.C156_zero_partial", "Verif.Resolution.C156_nan", "Verif.Resolution.C156_calc_false", "Verif.Resolution.C156_swapped", "Verif.Resolution.C156_ignored_false", "Verif.Resolution.C156_calc_partial"], "note": "Holds when all widths are zero. False otherwise: the matrices are divided element by element, so that the prefactor and all elements outside the diagonal are nan; the widths in energy and along the vertical are exchanged; without a width along x the others are ignored."},
{"property": "C157", "status": "partial", "theorems": ["Verif.Resolution.C157_focus_partial", "Verif.Resolution.C157_focus_mosaic_partial", "Verif.Resolution.C157_flag_false"], "note": "Holds, with and without sample mosaic, without guides after the sample and vertical mosaic of the monochromator, if the flag is set on the instrument instead. False as documented: the flag of the analyzer is never read, and the matrix is then different from that of a focusing analyzer for every instrument and point."},
{"property": "C158", "status": "partial", "theorems": ["Verif.FileIO.C158_partial", "Verif.FileIO.C158_fixed_partial", "Verif.FileIO.C158_mosaic_false", "Verif.FileIO.C158_senses_false", "Verif.FileIO.C158_bent_false", "Verif.FileIO.C158_bent_partial", "Verif.FileIO.C158_windows_false", "Verif.FileIO.C158_sample_false", "Verif.FileIO.C158_names_false", "Verif.FileIO.C158_senses_partial", "Verif.FileIO.C158_blank_false"], "note": "Lattice, orientation, energy, collimations, distances and the crystals' reflections, mosaics and sizes are right. False: the sample mosaic is passed as orientation vector and lost; the senses are always -1, 1, -1; with senses -1 in the file the crystals are bent the wrong way; source, monitor and detector have a twelfth of their variance; the sample shape is not squared and its first two axes are exchanged; a file with the documented names only raises KeyError. The senses relative to each other are right in dir1, dir2 and mondir."},
{"property": "C159", "status": "partial", "theorems": ["Verif.Instrument.Equality.C159_part_partial", "Verif.Instrument.Equality.C159_instr_partial", "Verif.Instrument.Equality.C159_symm_partial", "Verif.Instrument.Equality.C159_length_false", "Verif.Instrument.Equality.C159_trans_false", "Verif.Instrument.Equality.C159_calc_false", "Verif.Instrument.Equality.C159_raises_false"], "note": "Right whenever attributes of the same name are of the same kind and length; symmetric and reflexive for all parts. False: arrays of one element equal longer ones, the relation is not transitive, an instrument differs from itself after its resolution was calculated, and comparing a part with None raises AttributeError."},
{"property": "C16", "status": "proved", "theorems": ["Verif.Data.C16_subtract_error", "Verif.Data.C16_subtract_self"], "note": ""},
{"property": "C160", "status": "partial", "theorems": ["Verif.FileIO.C160_partial", "Verif.FileIO.C160_text_false", "Verif.FileIO.C160_reflection_false", "Verif.FileIO.C160_default_false", "Verif.FileIO.C160_short_false", "Verif.FileIO.C160_empty_false", "Verif.FileIO.C160_missing"], "note": "Collimations and distances come back, the other numbers as texts. False: after loading any file, method, mosaics, senses, curvatures and sizes are strings, reflections, energy and lattice are those of Instrument(); unset quantities get the defaults of other elements, since the two tables have different orders; four distances raise IndexError. A file with an empty collimation or distance raises TypeError, though the loader means to leave it out. A file in which an element is missing raises AttributeError."},
{"property": "C161", "status": "partial", "theorems": ["Verif.Data.Contour.C161_exact", "Verif.Data.Contour.C161_partial", "Verif.Data.Contour.C161_columns_false", "Verif.Data.Contour.C161_raises_false"], "note": "The exact condition is proved. Right for unit spacing and for axes ending at zero. False otherwise: the number of columns is int(max - min / step) + 1 in place of (max - min) / step + 1; axes from zero with a spacing below one always lose columns, and axes that start far from zero compared to the spacing raise ValueError."},
{"property": "C162", "status": "partial", "theorems": ["Verif.Structure.Spurion.C162_rings_partial", "Verif.Structure.Spurion.C162_intensity_partial", "Verif.Structure.Spurion.C162_intensity_false"], "note": "Angles, order and completeness of the list are proved for every positive energy. The printed |F|^2 is proved to be 2304 times that of the cell for every ring (wavelengths up to 11.4 Angstrom): the atom at the origin is counted once for each of the 192 operations of Fm-3m."},
{"property": "C163", "status": "partial", "theorems": ["Verif.Resolution.Ellipsoid.C163_drawn_partial", "Verif.Resolution.Ellipsoid.C163_size_false", "Verif.Resolution.Ellipsoid.C163_tilt_false", "Verif.Resolution.Ellipsoid.C163_several_false", "Verif.Resolution.Ellipsoid.C163_four_false", "Verif.Resolution.Ellipsoid.C163_odd_partial"], "note": "Proved exactly what is drawn: the half-maximum surface without the correlations between Q and energy (entries [0,2] and [1,2] are read instead of [0,3] and [1,3]), at half of its size (the spacing given to marching_cubes is half of that of the grid). With several positions an exception is raised; with four the matrices are taken apart along the wrong axis and nothing can be drawn (C163_four_false). For odd numbers of grid intervals half of the largest value on the grid takes the place of half of the maximum (C163_odd_partial)."},
{"property": "C164", "status": "partial", "theorems": ["Verif.Resolution.Figure.C164_other_partial", "Verif.Resolution.Figure.C164_session_partial", "Verif.Resolution.Figure.C164_labels_partial", "Verif.Resolution.Figure.C164_stale_false", "Verif.Resolution.Figure.C164_npts_false", "Verif.Resolution.Figure.C164_settings_false", "Verif.Resolution.Figure.C164_label_false", "Verif.Resolution.Figure.C164_error_false"], "note": "Right for any sequence of calc_projections and plot_projections on one object, and in any state if the last calculation was for other points. False in full: after get_resolution at other points, with another npts, or after a change of settings the curves stored before are drawn; and the first axis of the QyW panel is labelled as Q along the first orientation vector although the second is drawn. After a figure that failed, asking for it again draws the curves of the figure before."},
{"property": "C165", "status": "partial", "theorems": ["Verif.Resolution.Report.C165_text_partial", "Verif.Resolution.Report.C165_volume_false", "Verif.Resolution.Report.C165_widths_false", "Verif.Resolution.Report.C165_name_false", "Verif.Resolution.Report.C165_settings_false", "Verif.Resolution.Report.C165_class_false"], "note": "Right as to the method (given by number), fixed energy, positions, matrix, prefactor and angles. False in full: the volume is always twice the integral of the resolution function and the widths are always twice the full widths at half maximum; with a method given by name, which the calculation accepts, there is a TypeError; a method set after the calculation is named beside the matrix of the other method; and an object made as TripleAxisInstrument has no instrument_type, so there is an AttributeError."},
{"property": "C166", "status": "partial", "theorems": ["Verif.Angles.Layout.C166_beam_partial", "Verif.Angles.Layout.C166_outlines_partial", "Verif.Angles.Layout.C166_width_false", "Verif.Angles.Layout.C166_plane_false", "Verif.Angles.Layout.C166_detector_false", "Verif.Angles.Layout.C166_class_false", "Verif.Angles.Layout.C166_arms_false"], "note": "Right as to the path of the beam, the places and heights of all components and the widths of source and detector. False in full: for every angle below 90 degrees monochromator and analyzer are drawn narrower than they are, and the monochromator not in the reflecting plane; the detector is across the beam only if the beam has turned by a multiple of 180 degrees; objects made as TripleAxisInstrument raise AttributeError, fewer than four arms IndexError."},
{"property": "C167", "status": "partial", "theorems": ["Verif.Data.Line.C167_intensity_partial", "Verif.Data.Line.C167_counts_partial", "Verif.Data.Line.C167_bins", "Verif.Data.Line.C167_kind", "Verif.Data.Line.C167_fit_partial", "Verif.Data.Line.C167_direct_false", "Verif.Data.Line.C167_fit_false", "Verif.Data.Line.C167_bars_false", "Verif.Data.Line.C167_stored_false"], "note": "Right for intensities, for counts without stored errors, for bins, for the choice of the kind of plot, and for fits with the default options or a format. False in full: plot_line with its own defaults always raises; a fit together with plot_options that do not name fmt raises as if the fit had failed; columns that are not counts get the roots of their values as error bars; stored errors, as after a background subtraction, are not used for the counts."},
{"property": "C168", "status": "partial", "theorems": ["Verif.Structure.Cell.C168_edges_partial", "Verif.Structure.Cell.C168_atoms_partial", "Verif.Structure.Cell.C168_diagonal_false", "Verif.Structure.Cell.C168_angles_false", "Verif.Structure.Cell.C168_mass_false"], "note": "Right for cells with right angles of which no side is the sum of the two others, of materials with massNorm. False in full: if one side is the sum of the others a diagonal is drawn too; other angles are ignored, so that distances are wrong; without massNorm there is an AttributeError."},
{"property": "C169", "status": "partial", "theorems": ["Verif.Fitter.Table.C169_table_partial", "Verif.Fitter.Table.C169_digits_partial", "Verif.Fitter.Table.C169_fixed_false", "Verif.Fitter.Table.C169_chi2_false"], "note": "Right if no error is zero or None. False in full: an error that is zero (as LMFIT gives for a fixed parameter) or None raises an exception instead of a table, and chi squared below 5e-7 is shown as zero."},
{"property": "C17", "status": "proved", "theorems": ["Verif.Data.C17_monitor_unit"], "note": ""},
{"property": "C170", "status": "partial", "theorems": ["Verif.Instrument.Create.C170_tas_partial", "Verif.Instrument.Create.C170_tof_partial", "Verif.Instrument.Create.C170_unknown_false", "Verif.Instrument.Create.C170_documented_false", "Verif.Instrument.Create.C170_takin_false", "Verif.Instrument.Create.C170_chopper_false", "Verif.Instrument.Create.C170_refused", "Verif.Instrument.Create.C170_tas_places_partial", "Verif.Instrument.Create.C170_tof_places_partial"], "note": "Proved for triple-axis instruments, and for time-of-flight instruments with guides, with the engine neutronpy. False in full: an unknown type or engine yields an object without settings and no exception; the documented mono_tau and ana_tau have no effect; with the engine takin nothing is calculated and a time-of-flight instrument ignores its settings; a time-of-flight instrument with one chopper needs explicit guides."},
{"property": "C171", "status": "proved", "theorems": ["Verif.Data.Scans.Plot.C171_curves", "Verif.Data.Scans.Plot.C171_apart", "Verif.Data.Scans.Plot.C171_errors"], "note": "Exact arithmetic; matplotlib is not modelled beyond the points and labels it is given."},
{"property": "C172", "status": "partial", "theorems": ["Verif.Data.Scans.Plot.C172_places_partial", "Verif.Data.Scans.Plot.C172_given_partial", "Verif.Data.Scans.Plot.C172_scale_partial", "Verif.Data.Scans.Plot.C172_scale_false", "Verif.Data.Scans.Plot.C172_zero_false", "Verif.Data.Scans.Plot.C172_single_false", "Verif.Data.Scans.Plot.C172_order_false"], "note": "Proved for two or more scans with increasing coordinates, and for positive values of which one is at most 1. False in full: if all values are above 1 the scale begins at 1; a scan containing a value that is not positive is left out of the search for the minimum; a single scan at zero has no height; scans in another order cover each other."},
{"property": "C173", "status": "partial", "theorems": ["Verif.Fitter.Settings.C173_create", "Verif.Fitter.Settings.C173_latest_partial", "Verif.Fitter.Settings.C173_latest_exists", "Verif.Fitter.Settings.C173_refused", "Verif.Fitter.Settings.C173_passed", "Verif.Fitter.Settings.C173_passes", "Verif.Fitter.Settings.C173_nofinitecheck_false", "Verif.Fitter.Settings.C173_documented_partial"], "note": "Proved for all settings but one. False in full: nofinitecheck can be assigned but never read."},
{"property": "C174", "status": "partial", "theorems": ["Verif.Fitter.Plot.C174_shown_partial", "Verif.Fitter.Plot.C174_residuals_partial", "Verif.Fitter.Plot.C174_before", "Verif.Fitter.Plot.C174_documented_false", "Verif.Fitter.Plot.C174_other_false", "Verif.Fitter.Plot.C174_fixed_false"], "note": "Proved for tuples with some element before x, y and err, if every parameter has an error that is not zero. False in full: for the documented (x, y, err) an IndexError is raised; with a fourth element after them the columns are confused; with a fixed parameter nothing is shown."},
{"property": "C175", "status": "partial", "theorems": ["Verif.Gui.C175_calculates_partial", "Verif.Gui.C175_catalogue", "Verif.Gui.C175_opens_false", "Verif.Gui.C175_curved_false", "Verif.Gui.C175_mono_false", "Verif.Gui.C175_custom_false"], "note": "Proved: what is calculated is what is entered, if no crystal is curved vertically, for crystals from the list. False in full: the window never opens and no result is shown; the vertical curvature of the analyzer is taken for its horizontal one, and only if the monochromator is curved; Custom crystals fail."},
{"property": "C176", "status": "partial", "theorems": ["Verif.Data.Volume.C176_marks_partial", "Verif.Data.Volume.C176_intensity_partial", "Verif.Data.Volume.C176_missing", "Verif.Data.Volume.C176_colours_false", "Verif.Data.Volume.C176_direct_false"], "note": "The places are right for all data; the colours only for values between 0.0001 and 0.1. False in full: all values of 0.1 and more have one colour, and plot_volume with its documented defaults raises TypeError."},
{"property": "C177", "status": "partial", "theorems": ["Verif.Structure.Ions.C177_usable_partial", "Verif.Structure.Ions.C177_isotopes_false", "Verif.Structure.Ions.C177_unknown", "Verif.Structure.Ions.C177_needed"], "note": "True for elements; false for isotopes: Material always looks the ion up in the periodic table for its mass, so every one of the 266 isotopes raises KeyError, though Atom accepts 246 of them."},
{"property": "C178", "status": "partial", "theorems": ["Verif.Structure.Magnetic.C178_cell_partial", "Verif.Structure.Magnetic.C178_accepts", "Verif.Structure.Magnetic.C178_given_false", "Verif.Structure.Magnetic.C178_special_false", "Verif.Structure.Magnetic.C178_material_false"], "note": "Atoms, propagation vector and lattice are as described. False in full: a given chirality or phase is lost and reading it raises AttributeError; special positions are listed several times; Material asks for the key magnetic_unit_cell but reads magnetic_cell."},
{"property": "C179", "status": "partial", "theorems": ["Verif.Structure.Magnetic.C179_points_partial", "Verif.Structure.Magnetic.C179_zero", "Verif.Structure.Magnetic.C179_list_false", "Verif.Structure.Magnetic.C179_range_false", "Verif.Structure.Magnetic.C179_unknown_false"], "note": "True for numbers, arrays and ranges of at least 0.025 (exact arithmetic). False in full: a list or tuple raises TypeError, a shorter range has only its first point, a reversed one raises or is empty, and an unknown ion raises KeyError."},
{"property": "C18", "status": "proved", "theorems": ["Verif.Data.C18_mul_scales", "Verif.Data.C18_div_scales", "Verif.Data.C18_mul_div_cancel", "Verif.Data.C18_history", "Verif.Data.C18_floor_division"], "note": ""},
{"property": "C180", "status": "partial", "theorems": ["Verif.FileIO.C180_roundtrip_partial", "Verif.FileIO.C180_existing_false", "Verif.FileIO.C180_none_false", "Verif.FileIO.C180_smooth_false", "Verif.FileIO.C180_tof_false", "Verif.FileIO.C180_text_false"], "note": "True for triple-axis instruments whose saved attributes are numbers, texts of parts, arrays and lists (also those that ASCII files lose). False in full: without overwrite an existing file raises ValueError, None raises TypeError, an instrument with Smooth cannot be loaded, and time-of-flight instruments are not written in any format. A text among the attributes of the instrument itself is loaded as bytes."},
{"property": "C181", "status": "partial", "theorems": ["Verif.Symmetry.C181_one_partial", "Verif.Symmetry.C181_list_partial", "Verif.Symmetry.C181_determined", "Verif.Symmetry.C181_stack_false", "Verif.Symmetry.C181_missing_false", "Verif.Symmetry.C181_empty_false"], "note": "True for single operations and lists of two or more. False in full: for the array SpaceGroup.symmetry_operations the slices are taken of the wrong dimensions, so that every translation is (0, 0, 0, 1) and all but three operations are missing; an empty list raises IndexError."},
{"property": "C182", "status": "partial", "theorems": ["Verif.FileIO.C182_read_partial", "Verif.FileIO.C182_grasp", "Verif.FileIO.C182_nxs", "Verif.FileIO.C182_nxs_missing", "Verif.FileIO.C182_case_false", "Verif.FileIO.C182_npy_false", "Verif.FileIO.C182_comment_false"], "note": "The exact conditions are proved, and the contents of NeXus files. False in full: a GRASP file whose first line names the program in other than capitals is recognised and then refused with IOError; so is every .npy file without the mark of the package; an .xye file with a comment of four words in its first line is read as a file of four columns."},
{"property": "C183", "status": "partial", "theorems": ["Verif.Fitter.C183_ended_partial", "Verif.Fitter.C183_latest_partial", "Verif.Fitter.C183_never_false", "Verif.Fitter.C183_orignorm_false", "Verif.Fitter.C183_npar_false"], "note": "Proved for the attributes that fit assigns at its end, over all histories (LMFIT as in C69). False in full: niter, nfev and npegged are never assigned and raise AttributeError always; a fit that LMFIT gives up leaves its own orignorm beside the other results of the fit before; a fit that is refused leaves its own npar."},
{"property": "C184", "status": "partial", "theorems": ["Verif.Tof.Report.C184_text_partial", "Verif.Tof.Report.C184_volume_false", "Verif.Tof.Report.C184_widths_false", "Verif.Tof.Report.C184_several_false", "Verif.Tof.Report.C184_class_false", "Verif.Tof.Report.C184_unit_false"], "note": "Right for one point as to times, lengths, angles, matrix, prefactor and crystal (before rounding). False in full: the volume is always twice the integral of the resolution function; the widths are always twice the full widths at half maximum; those said to be in inverse Angstrom are in reciprocal lattice units; for points given by a list there is a ValueError or TypeError instead of a text; an object made as TimeOfFlightInstrument has no instrument_type, so there is an AttributeError."},
{"property": "C185", "status": "partial", "theorems": ["Verif.Instrument.Printed.C185_lattice", "Verif.Instrument.Printed.C185_group", "Verif.Instrument.Printed.C185_energy", "Verif.Instrument.Printed.C185_goniometer_partial", "Verif.Instrument.Printed.C185_sample_partial", "Verif.Instrument.Printed.C185_mono_partial", "Verif.Instrument.Printed.C185_ana_partial", "Verif.Instrument.Printed.C185_distance_false", "Verif.Instrument.Printed.C185_vectors_false", "Verif.Instrument.Printed.C185_name_false", "Verif.Instrument.Printed.C185_analyzer_false", "Verif.Instrument.Printed.C185_detector_false", "Verif.Instrument.Printed.C185_chopper_false", "Verif.Instrument.Printed.C185_atom_false", "Verif.Instrument.Printed.C185_tas_false", "Verif.Instrument.Printed.C185_tof_false"], "note": "True for lattices, space groups (every one of the database), energies, goniometers with lists, samples without vectors, distance and special shape, crystals given by a number, analyzers as the constructor leaves them. False otherwise: vectors are printed without commas, which is not Python or a list of one number; names of crystals and shapes are printed without quotes; distance and shape are not printed; arguments of Analyzer are not kept; a detector prints an argument that does not exist, a chopper raises, atoms print no position, a triple axis instrument gives the energy twice, a time-of-flight instrument prints a table."},
{"property": "C186", "status": "partial", "theorems": ["Verif.Data.C186_errors_partial", "Verif.Data.C186_quotient", "Verif.Data.C186_given_false", "Verif.Data.C186_counted_false"], "note": "False in the code: given errors stay as they are, right only if |c| = 1 or all are zero; counted errors are multiplied by the root of c, right only if c is 0 or 1 or all are zero."},
{"property": "C187", "status": "partial", "theorems": ["Verif.Data.C187_counted_partial", "Verif.Data.C187_given_false", "Verif.Data.C187_kept_false", "Verif.Data.C187_order_false", "Verif.Data.C187_time_false"], "note": "True for counted errors. False otherwise: a + b forgets given errors and the normalisation by time; in place the given errors of the first are kept as they are, in the old order, and with new points reading the error raises ValueError."},
{"property": "C188", "status": "partial", "theorems": ["Verif.Data.Whole.C188_binary", "Verif.Data.Whole.C188_inplace_partial", "Verif.Data.Whole.C188_inplace_false", "Verif.Data.Whole.C188_power_false", "Verif.Data.Whole.C188_combine_partial", "Verif.Data.Whole.C188_combine_false", "Verif.Data.Whole.C188_lost_partial"], "note": "True for *, / and //. False in place and for powers: whole counts cannot be multiplied by a float, divided, or raised to a negative or fractional power (TypeError, ValueError). Combining whole counts with fractional ones cuts off the fraction at each matching row without an error; at most one count for each is lost, and none if the first are floats or the second whole."},
{"property": "C189", "status": "partial", "theorems": ["Verif.Instrument.Shared.C189_sets", "Verif.Instrument.Shared.C189_separate_partial", "Verif.Instrument.Shared.C189_copied", "Verif.Instrument.Shared.C189_shared_false", "Verif.Instrument.Shared.C189_history_false", "Verif.Instrument.Shared.C189_assigned_false", "Verif.Instrument.Shared.C189_needed"], "note": "True over all histories in which nothing is handed to two instruments. False otherwise: the orientation is kept in the sample, so it is set for every instrument with the same sample and for the caller; arrays assigned to hcol are kept, those given to the constructor are copied. A sample without both vectors is refused by an AttributeError."},
{"property": "C19", "status": "proved", "theorems": ["Verif.Data.C19_assign_coord", "Verif.Data.C19_assign_error", "Verif.Data.C19_assign_rejects", "Verif.Data.C19_assignments_keep_lengths"], "note": ""},
{"property": "C190", "status": "partial", "theorems": ["Verif.Resolution.C190_defaults_partial", "Verif.Resolution.C190_mosaic", "Verif.Resolution.C190_both_negative_false", "Verif.Resolution.C190_negative_false", "Verif.Resolution.C190_size_false"], "note": "True for method, moncor, infin, horifoc, the mosaics and a missing thickness or Q. False for negative values: both negative act as both positive, one negative makes the prefactor of a thin analyzer negative. False for sample sizes: with one size missing the sample is a cube of sqrt(12) cm and the sizes that are given are ignored. The last part is stated for the covariance of the sample that enters the calculation and as equality of answers to those for the cube."},
{"property": "C191", "status": "proved", "theorems": ["Verif.Resolution.C191_coarser"], "note": "Over exact real numbers. A size has to be given in both or in neither instrument, since a missing size counts as sqrt(12) cm (C190). The sample has its three edges and the same shape type in both, or the same shape in both."},
{"property": "C192", "status": "partial", "theorems": ["Verif.Resolution.C192_open_partial"], "note": "Over exact real numbers. Including mosaics of flat samples, and thick analyzers between unchanged horizontal collimators. Missing: the reflectivity of thick analyzers when the collimation at the analyzer changes, tilted samples with a mosaic, and anisotropic mosaics with a focusing analyzer."},
{"property": "C193", "status": "proved", "theorems": ["Verif.Resolution.C193_lattice", "Verif.Resolution.C193_resolution"], "note": "Over exact real numbers; Smooth is not set."},
{"property": "C194", "status": "partial", "theorems": ["Verif.FileIO.C194_ascii_partial", "Verif.FileIO.C194_hdf5_partial", "Verif.FileIO.C194_horifoc_false", "Verif.FileIO.C194_cylinder_false", "Verif.FileIO.C194_monitor_false", "Verif.FileIO.C194_reads", "Verif.FileIO.C194_reads_cell"], "note": "True for instruments that can be loaded (C65, C180), with a rectangular sample given by its sizes, a monitor without size and no focusing analyzer: all settings that the calculation reads, the cell and the orientation are the same. False for the others: the flag horifoc of the instrument, the size of the monitor and shape_type of the sample are not saved; with a focusing analyzer the matrix is another one at every point, and a cylinder is loaded as a box. Matrices as sample.shape are not modelled (they are not saved either)."},
{"property": "C195", "status": "proved", "theorems": ["Verif.Functions.C195_convolution", "Verif.Functions.C195_shape", "Verif.Functions.C195_negative"], "note": "wofz is given by its integral in the upper half plane; exact real arithmetic. For the maximum the area is positive; with a negative area the same holds upside down (C195_negative)."},
{"property": "C196", "status": "proved", "theorems": ["Verif.Functions.C196_gaussian2d", "Verif.Functions.C196_resolution", "Verif.Functions.C196_ring"], "note": "erf is given by its integral; exact real arithmetic."},
{"property": "C197", "status": "partial", "theorems": ["Verif.Structure.C197_scales_partial", "Verif.Structure.C197_absent_partial", "Verif.Structure.C197_massnorm_square", "Verif.Structure.C197_massnorm_false", "Verif.Structure.C197_displaced_false"], "note": "True without mass normalisation (false with it: the number of cells enters twice, once through the mass of the cell) and without displacement parameters (false otherwise: the attenuation is evaluated at the position of the atom), as long as both structure factors are numbers."},
{"property": "C198", "status": "partial", "theorems": ["Verif.Structure.C198_thickness", "Verif.Structure.C198_incoherent_partial", "Verif.Structure.C198_incoherent_false"], "note": "The thickness is the same for all materials. The incoherent cross section is the same without displacement parameters (as long as both are numbers) and false with them: the attenuation is evaluated at the position of the atom."},
{"property": "C199", "status": "partial", "theorems": ["Verif.Resolution.C199_mirror_partial", "Verif.Resolution.C199_scan_false"], "note": "Holds for all settings with the Cooper-Nathans method and for one point at a time with the Popovici method. False for lists with the Popovici method and curved crystals: the curvatures are multiplied by the senses again at every point."},
{"property": "C20", "status": "partial", "theorems": ["Verif.Data.C20_reflexive", "Verif.Data.C20_symmetric", "Verif.Data.C20_not_transitive", "Verif.Data.C20_equal_lengths_partial", "Verif.Data.C20_meaning_partial"], "note": "Transitivity and the length claim are false because of broadcasting (witness proved). What == means is determined for all pairs of data sets."},
{"property": "C200", "status": "proved", "theorems": ["Verif.Resolution.C200_popovici", "Verif.Resolution.C200_cooperNathans", "Verif.Resolution.C200_named_false"], "note": "Equality of the outcomes, errors included. Outside the statement: with method='popovici', a name that the documentation does not mention but the code accepts, the arms are not read, and the resolution depends on the unit at every point (C200_named_false)."},
{"property": "C201", "status": "partial", "theorems": ["Verif.Resolution.C201_reversed_partial", "Verif.Resolution.C201_vmosaic_false", "Verif.Resolution.C201_guide_false"], "note": "False with method=0 for every monochromator with a vertical mosaic of its own (it is ignored, that of the analyzer is not), and for guides: their divergence is computed with the wavelength in front of the sample wherever they stand. The partial theorem leaves out these two cases."},
{"property": "C202", "status": "proved", "theorems": ["Verif.Resolution.C202_opposite"], "note": "Exact arithmetic; Smooth is not set. No condition on the cell or the settings, so errors and degenerate cells are included. New instrument object."},
{"property": "C203", "status": "partial", "theorems": ["Verif.FileIO.C203_axis_partial", "Verif.FileIO.C203_cut_false"], "note": "Holds for files that end within the first axis. False for files that end after any of the blocks of intensities or errors: a grid of the announced size is returned in which the last block of the file stands for all the missing ones, intensities for errors or errors for intensities."},
{"property": "C204", "status": "proved", "theorems": ["Verif.Data.C204_scaled", "Verif.Data.C204_divided", "Verif.Data.C204_fwhm", "Verif.Data.C204_given", "Verif.Data.C204_negative_factor", "Verif.Data.C204_fixed_background"], "note": "Proved as an equality of outcomes, errors and nan included, in exact arithmetic. The last two theorems show that the conditions are needed: a background estimated from the data does not follow a negative factor, and a number that is not scaled along moves the position."},
{"property": "C205", "status": "partial", "theorems": ["Verif.Resolution.C205_larger_partial", "Verif.Resolution.C205_width_false", "Verif.Resolution.C205_height_false"], "note": "Proved: a larger monitor leaves the matrices and does not raise the prefactor. The statement about the directions is false in the code, for all settings: the width of the monitor has no effect at all, and its height acts in the horizontal direction, for the change of the prefactors with the height does not depend on any setting of the vertical direction. Strictness of the decrease is not proved."},
{"property": "C206", "status": "partial", "theorems": ["Verif.Data.C206_direction_partial", "Verif.Data.C206_fwhm_partial", "Verif.Data.C206_integral_false", "Verif.Data.C206_order_false"], "note": "Proved for the opposite direction: position and width are the same, with errors and nan. False for the integral, which becomes its negative for every data set, and false for other orders: exchanging two points of a scan with its peak at 2 puts the peak at 1 and makes the integral 5 instead of 30."},
{"property": "C207", "status": "proved", "theorems": ["Verif.Data.C207_order"], "note": "Proved as an equality of outcomes, errors included, in exact arithmetic (the averages of floating point numbers depend on the order in the last digits)."},
{"property": "C208", "status": "partial", "theorems": ["Verif.Structure.C208_array_partial", "Verif.Structure.C208_number", "Verif.Structure.C208_shapes", "Verif.Structure.C208_empty_false"], "note": "Proved for materials with at least one atom and one-dimensional arrays of a common length n > 0, errors included. False for a material without atoms: the answer to a query for arrays is the number 0 (C208_empty_false). Arrays of more dimensions, and arrays of length one beside longer ones, are not covered by the theorem."},
{"property": "C209", "status": "partial", "theorems": ["Verif.Resolution.C209_short_partial", "Verif.Resolution.C209_fifth", "Verif.Resolution.C209_unused", "Verif.Resolution.C209_missing_false", "Verif.Resolution.C209_named_false"], "note": "Lists of fewer than four distances are refused, and the rules for the monitor and for Cooper-Nathans hold. False without arms: four arms of 1 cm are used silently (C209_missing_false). False for method='popovici': Popovici's formulas are used with arms of 1 cm whatever distances are given (C209_named_false)."},
{"property": "C21", "status": "partial", "theorems": ["Verif.Data.C21_Q_matrix_lengths", "Verif.Data.C21_wrong_number_of_counts", "Verif.Data.C21_constructor_lengths_partial"], "note": "False for Q=: the number of columns is used (proved); holds for separate coordinates."},
{"property": "C210", "status": "proved", "theorems": ["Verif.Data.C210_units", "Verif.Data.C210_fwhm", "Verif.Data.C210_two_axes"], "note": "Exact arithmetic. C210_two_axes shows that the condition on the scan is needed: when two axes move together the integral is the sum over both."},
{"property": "C211", "status": "partial", "theorems": ["Verif.Data.C211_again_partial", "Verif.Data.C211_errors", "Verif.Data.C211_errors_false", "Verif.Data.C211_empty_false"], "note": "All columns come back unchanged for every data set with a row on the grid. The errors are normalised once more and change unless the monitor counts are the normaliser (witness); a result without rows cannot be rebinned when axes are left out (witness)."},
{"property": "C212", "status": "proved", "theorems": ["Verif.Data.C212_units"], "note": "Exact arithmetic (points on a boundary between two cells may change sides in floating point)."},
{"property": "C213", "status": "partial", "theorems": ["Verif.Structure.C213_any_atom_partial", "Verif.Structure.C213_nan_false", "Verif.Structure.C213_displaced_false"], "note": "Proved for atoms without displacement parameters whenever both descriptions give a number. False in general: the code evaluates the scattering angle at the position of the atom (see C52, C103), so one description can give nan and the other not, and displacement parameters attenuate the two differently."},
{"property": "C214", "status": "proved", "theorems": ["Verif.Resolution.C214_faster", "Verif.Resolution.C214_crystal"], "note": "Equality of the outcomes, errors included. Exact arithmetic; Smooth is not set."},
{"property": "C215", "status": "proved", "theorems": ["Verif.Tof.C215_larger", "Verif.Tof.C215_crystal"], "note": "Equality of the outcomes, errors included. Exact arithmetic."},
{"property": "C216", "status": "proved", "theorems": ["Verif.Tof.C216_faster"], "note": "The prefactor is not part of the statement: the code computes it from the matrix at the Miller indices, which do not scale. Exact arithmetic."},
{"property": "C217", "status": "proved", "theorems": ["Verif.Tof.C217_opposite", "Verif.Tof.C217_level"], "note": "The prefactor is not part of the statement. Exact arithmetic."},
{"property": "C218", "status": "proved", "theorems": ["Verif.Convolution.C218_order", "Verif.Convolution.C218_nonneg"], "note": "For an instrument outside of the quantifier `convolve_mono` has the same with the hypothesis that the prefactors of the resolution are not negative. Exact arithmetic."},
{"property": "C219", "status": "proved", "theorems": ["Verif.Single.C219_linear", "Verif.Single.C219_background", "Verif.Single.C219_own"], "note": "Linearity with the background zero (nargout 1); C219_background adds it. Exact arithmetic."},
{"property": "C22", "status": "partial", "theorems": ["Verif.Data.C22_integrate_partial", "Verif.Data.C22_all_points_partial", "Verif.Data.C22_zero_h_dropped", "Verif.Data.C22_single_point_raises"], "note": "False without bounds: points with h = 0 are dropped (witness). Exact characterisation proved for any bounds, and for no bounds when no h is zero. One selected point raises."},
{"property": "C220", "status": "partial", "theorems": ["Verif.Data.C220_scaled_partial", "Verif.Data.C220_counted_false"], "note": "Everything but the errors agrees, and so do errors that were given. False for errors of counting: those of (d * c).bin(grid) are the root of c times those of d.bin(grid) * c, since rebinning turns counted errors into given ones, which a product leaves as they are (C186). Exact arithmetic."},
{"property": "C221", "status": "proved", "theorems": ["Verif.Single.C221_profile", "Verif.Single.C221_order", "Verif.Single.C221_nonneg"], "note": "Exact arithmetic; the rounding to single precision in _voigt is not modelled."},
{"property": "C222", "status": "proved", "theorems": ["Verif.Tools.C222_shadow", "Verif.Tools.C222_cut", "Verif.Tools.C222_vanadium", "Verif.Tools.C222_fproject"], "note": "Exact real arithmetic. The widths compared are those returned; that they are twice the full widths is C91."},
{"property": "C223", "status": "partial", "theorems": ["Verif.Structure.C223_origin_partial", "Verif.Structure.C223_cells_partial", "Verif.Structure.C223_displaced_false", "Verif.Structure.C223_far_false"], "note": "True for atoms without displacement parameters as long as both structure factors are numbers. False otherwise: the attenuation is evaluated at the position of the atom as if it were a reflection, so that it changes with the origin (C223_displaced_false, in every unit cell and at every reflection), and an atom that is listed far from the origin has no structure factor at all (nan), also when it is at rest (C223_far_false)."},
{"property": "C224", "status": "proved", "theorems": ["Verif.Structure.C224_equally", "Verif.Structure.C224_multiplicity", "Verif.Structure.C224_weights", "Verif.Structure.C224_database"], "note": "Exact arithmetic. This tells how much is wrong in C86: relative intensities of orbits with the same number of such operations are right, others are not."},
{"property": "C225", "status": "proved", "theorems": ["Verif.Data.C225_parts", "Verif.Data.C225_mean", "Verif.Data.C225_grows"], "note": "Exact arithmetic over an ordered field. Each part has at least two points (one point raises, C22)."},
{"property": "C226", "status": "proved", "theorems": ["Verif.Data.C226_flat", "Verif.Data.C226_fwhm", "Verif.Data.C226_given", "Verif.Data.C226_negative"], "note": "Exact arithmetic over an ordered field; every point was counted for a monitor count (or time) that is not zero."},
{"property": "C227", "status": "partial", "theorems": ["Verif.Tools.C227_graphite", "Verif.Tools.C227_germanium_near", "Verif.Tools.C227_germanium", "Verif.Tools.C227_copper_partial", "Verif.Tools.C227_copper_false", "Verif.Tools.C227_copper_first_line"], "note": "False for copper (111): the display has two lines for it and the second (2.095), which replaces the first, does not fit copper (002) and (220); the first (2.087) does. Holds for graphite and the five germanium planes."},
{"property": "C228", "status": "proved", "theorems": ["Verif.Data.C228_percent", "Verif.Data.C228_all", "Verif.Data.C228_integral", "Verif.Data.C228_falls"], "note": "Exact arithmetic over an ordered field with a floor."},
{"property": "C229", "status": "proved", "theorems": ["Verif.Energy.C229_scaled", "Verif.Energy.C229_order"], "note": "Real arithmetic. Values that are not positive are treated in C28-C31."},
{"property": "C23", "status": "proved", "theorems": ["Verif.Data.C23_position_inside", "Verif.Data.C23_constant_axis"], "note": "Any scan along one axis, any length, any background; exact arithmetic over an ordered field."},
{"property": "C230", "status": "proved", "theorems": ["Verif.Functions.C230_curves", "Verif.Functions.C230_surfaces"], "note": "Real arithmetic; for all functions in place of wofz and erf. resolution in its default mode."},
{"property": "C231", "status": "proved", "theorems": ["Verif.Crystal.C231_cell", "Verif.Crystal.C231_Bmatrix", "Verif.Crystal.C231_planes"], "note": "Real arithmetic; nan, infinities and LinAlgError are error values."},
{"property": "C232", "status": "proved", "theorems": ["Verif.Structure.C232_stacked", "Verif.Structure.C232_mixed", "Verif.Structure.C232_energy", "Verif.Structure.C232_no_absorption"], "note": "Real arithmetic."},
{"property": "C233", "status": "proved", "theorems": ["Verif.Data.C233_order", "Verif.Data.C233_ratio", "Verif.Data.C233_classical_bound", "Verif.Data.C233_cold", "Verif.Data.C233_hot", "Verif.Data.C233_susceptibility"], "note": "Over the reals."},
{"property": "C234", "status": "partial", "theorems": ["Verif.Angles.C234_more_partial", "Verif.Angles.C234_together_partial", "Verif.Angles.C234_backwards_partial", "Verif.Angles.C234_finer_partial", "Verif.Angles.C130_documented_false"], "note": "For positions given by three indices. False in full: positions in the documented form with two components raise IndexError (C130)."},
{"property": "C235", "status": "proved", "theorems": ["Verif.Models.C235_phase", "Verif.Models.C235_decrement", "Verif.Models.C235_superposition", "Verif.Models.C235_units", "Verif.Models.C235_compared", "Verif.Models.C235_rising"], "note": "Over the reals."},
{"property": "C236", "status": "partial", "theorems": ["Verif.Instrument.C236_relations_partial", "Verif.Instrument.C236_radius_false", "Verif.Instrument.C236_angle_iff", "Verif.Instrument.C236_angle_false", "Verif.Instrument.C236_same_opening_iff"], "note": "Opposite disks, unit of length and width proved. False: with a radius the time is always 2 pi / 10^6 of the documented one; with an angle it is right for an opening of about 1.5 degrees only; the two descriptions agree for one opening only, of about 612 degrees."},
{"property": "C237", "status": "partial", "theorems": ["Verif.Tools.C237_twice_partial", "Verif.Tools.C237_complex_false", "Verif.Tools.C237_tolerances", "Verif.Tools.C237_near"], "note": "False for complex scalars whose imaginary part is chopped: the result is a complex number without imaginary part, on which chop raises TypeError. Proved for all other values."},
{"property": "C238", "status": "proved", "theorems": ["Verif.Tools.C238_ratios", "Verif.Tools.C238_direction", "Verif.Tools.C238_projections", "Verif.Tools.C238_elastic", "Verif.Tools.C238_order"], "note": "Over the reals."},
{"property": "C239", "status": "partial", "theorems": ["Verif.Tools.C239_back_partial", "Verif.Tools.C239_sum_partial", "Verif.Tools.C239_order_partial", "Verif.Tools.C239_gain_false"], "note": "Proved for energy loss and elastic scattering. False for the opposite transfer: energy gain gives nan (C58)."},
{"property": "C24", "status": "partial", "theorems": ["Verif.Data.C24_shift_partial", "Verif.Data.C24_shift_false", "Verif.Data.C24_width_nonneg", "Verif.Data.C24_fwhm"], "note": "Exact arithmetic. The moments themselves behave as claimed for all data; the shift law is missing for scans along h without bounds, where it fails: a point moved to h = 0 is dropped (C24_shift_false)."},
{"property": "C25", "status": "proved", "theorems": ["Verif.Data.C25_percent", "Verif.Data.C25_between", "Verif.Data.C25_order", "Verif.Data.C25_default"], "note": "Percentages 0..100; order statistics stated by selection, not by the sort used in the model."},
{"property": "C26", "status": "proved", "theorems": ["Verif.Data.C26_sign", "Verif.Data.C26_detailed_balance", "Verif.Data.C26_odd_susceptibility"], "note": "Over the reals."},
{"property": "C27", "status": "partial", "theorems": ["Verif.Data.Scans.C27_constructed_partial", "Verif.Data.Scans.C27_history_partial", "Verif.Data.Scans.C27_update_breaks_summaries"], "note": "False after update (witness). Proved: exact condition under which summaries work after any history; otherwise IndexError."},
{"property": "C28", "status": "proved", "theorems": ["Verif.Energy.C28_consistent"], "note": "Induction over histories of assignments; over the reals, constants any positive numbers with hbar = h/2pi."},
{"property": "C29", "status": "proved", "theorems": ["Verif.Energy.C29_read_back"], "note": "Over the reals."},
{"property": "C30", "status": "proved", "theorems": ["Verif.Energy.C30_priority", "Verif.Energy.C30_nothing_given"], "note": "All combinations of arguments."},
{"property": "C31", "status": "partial", "theorems": ["Verif.Energy.C31_arrays_partial", "Verif.Energy.C31_zero_spoils_wavevectors"], "note": "False for the wavevector in arrays containing a zero: infinite (proved). All other attributes agree."},
{"property": "C32", "status": "partial", "theorems": ["Verif.Energy.C32_reflexive", "Verif.Energy.C32_symmetric", "Verif.Energy.C32_not_transitive", "Verif.Energy.C32_equality_partial"], "note": "Transitivity is false (witness); reflexivity, symmetry and tolerance proved."},
{"property": "C33", "status": "proved", "theorems": ["Verif.Functions.C33_gaussian_area"], "note": "Exact real arithmetic; every number of peaks and every incomplete tail."},
{"property": "C34", "status": "proved", "theorems": ["Verif.Functions.C34_gaussian_shape", "Verif.Functions.C34_negative"], "note": "Maximum at the centre, symmetry and half height at half the width. A peak has a positive area; with a negative one the same holds upside down (C34_negative)."},
{"property": "C35", "status": "proved", "theorems": ["Verif.Functions.C35_lorentzian_area", "Verif.Functions.C35_lorentzian_shape", "Verif.Functions.C35_negative"], "note": "Exact real arithmetic. A peak has a positive area; with a negative one the same holds upside down (C35_negative)."},
{"property": "C36", "status": "proved", "theorems": ["Verif.Functions.C36_gaussian", "Verif.Functions.C36_lorentzian", "Verif.Functions.C36_order", "Verif.Functions.C36_voigt", "Verif.Functions.C36_gaussian2d", "Verif.Functions.C36_resolution", "Verif.Functions.C36_gaussian_ring", "Verif.Functions.C36_short", "Verif.Functions.C36_additive"], "note": "All six profiles and all parameters (C36_additive); the closed forms for positive widths. wofz and erf enter as parameters; the statement holds for every choice of them. A width of zero, a division by zero in the code, is not described."},
{"property": "C37", "status": "proved", "theorems": ["Verif.Functions.C37_gaussian2d_volume", "Verif.Functions.C37_resolution_volume", "Verif.Functions.C37_other_mode"], "note": ""},
{"property": "C38", "status": "proved", "theorems": ["Verif.Crystal.C38_metric", "Verif.Crystal.C38_inverse", "Verif.Crystal.C38_volume", "Verif.Crystal.C38_reciprocal_volume"], "note": "Exact real arithmetic; the cell is specified by three Cartesian vectors."},
{"property": "C39", "status": "proved", "theorems": ["Verif.Crystal.C39_reciprocal_constants", "Verif.Crystal.C39_cartesian"], "note": ""},
{"property": "C40", "status": "partial", "theorems": ["Verif.Crystal.C40_b_matrix_partial", "Verif.Crystal.C40_two_right_angles_partial", "Verif.Crystal.C40_rhombohedral_false", "Verif.Crystal.C40_documented_false"], "note": "The code contradicts the property for rhombohedral and triclinic cells (sin(alphastar) in place of sin(alpha)) and the documented B*B.T = Gstar for hexagonal cells; both negations are proved, and the exact condition under which B.T*B = Gstar holds."},
{"property": "C41", "status": "proved", "theorems": ["Verif.Crystal.C41_spacing", "Verif.Crystal.C41_origin", "Verif.Crystal.C41_scaling", "Verif.Crystal.C41_opposite", "Verif.Crystal.C41_bragg", "Verif.Crystal.C41_unreachable"], "note": ""},
{"property": "C42", "status": "proved", "theorems": ["Verif.Crystal.C42_angle", "Verif.Crystal.C42_range", "Verif.Crystal.C42_scaling", "Verif.Crystal.C42_parallel", "Verif.Crystal.C42_zero"], "note": ""},
{"property": "C43", "status": "partial", "theorems": ["Verif.Crystal.C43_exclusive", "Verif.Crystal.C43_lattice_type_partial", "Verif.Crystal.C43_unclassified"], "note": "Returned exactly for conforming constants; completeness is false (negation proved: a valid triclinic cell with two equal lengths is rejected)."},
{"property": "C44", "status": "proved", "theorems": ["Verif.Crystal.C44_rotation", "Verif.Crystal.C44_dependent"], "note": ""},
{"property": "C45", "status": "partial", "theorems": ["Verif.Crystal.C45_orientation_partial", "Verif.Crystal.C45_cubic_partial", "Verif.Crystal.C45_tetragonal_false"], "note": "False for non-cubic cells (negation proved); the exact condition is proved."},
{"property": "C46", "status": "proved", "theorems": ["Verif.Crystal.C46_star", "Verif.Crystal.C46_scalar"], "note": ""},
{"property": "C47", "status": "partial", "theorems": ["Verif.Symmetry.C47_contents_partial", "Verif.Symmetry.C47_exhausted", "Verif.Symmetry.C47_closed_iff", "Verif.Symmetry.C47_builds", "Verif.Symmetry.C47_group", "Verif.Symmetry.C47_wrong_total_false", "Verif.Symmetry.C47_repeated_false", "Verif.Symmetry.C47_database"], "note": "For the groups of the database (the only generators a user can reach) the operations are proved to form a group without repetition, closed under composition. For all generator lists the claim is false: C47_wrong_total_false is a list with a wrong recorded number that is not closed (closure holds exactly when the number is right, C47_closed_iff), and C47_repeated_false shows that a generator given twice stays twice. Rotation entries are integers and translations exact rationals with the tolerances kept."},
{"property": "C48", "status": "partial", "theorems": ["Verif.Symmetry.C48_roundtrip_partial", "Verif.Symmetry.C48_database", "Verif.Symmetry.C48_not_hexagonal", "Verif.Symmetry.C48_not_dropped"], "note": "The code violates the first half: rows with a positive variable after another one, and pure translations, are not read back (negations with witnesses). C48_roundtrip_partial gives the exact set of operations for which it holds; the second half (database strings) is proved in full."},
{"property": "C49", "status": "proved", "theorems": ["Verif.Symmetry.C49_orbit", "Verif.Symmetry.C49_translation", "Verif.Symmetry.C49_database"], "note": ""},
{"property": "C50", "status": "partial", "theorems": ["Verif.Structure.C50_empty", "Verif.Structure.C50_additive", "Verif.Structure.C50_order", "Verif.Structure.C50_occupancy_partial", "Verif.Structure.C50_massnorm_cubic", "Verif.Structure.C50_massnorm_false", "Verif.Structure.C50_lengths"], "note": "Additivity, order and the empty case in full. Proportionality to the occupancy holds without mass normalisation; with it the code uses the occupancy three times (C50_massnorm_cubic, C50_massnorm_false)."},
{"property": "C51", "status": "proved", "theorems": ["Verif.Structure.C51_friedel", "Verif.Structure.C51_bound", "Verif.Structure.C51_forward"], "note": ""},
{"property": "C52", "status": "partial", "theorems": ["Verif.Structure.C52_common_partial", "Verif.Structure.C52_lattice_partial", "Verif.Structure.C52_nan"], "note": "Holds whenever both structure factors are numbers. C52_nan: in every cell some lattice translation makes the result nan, because the code evaluates the scattering angle at the atom position."},
{"property": "C53", "status": "proved", "theorems": ["Verif.Tools.C53_case", "Verif.Tools.C53_number", "Verif.Tools.C53_known", "Verif.Tools.C53_unknown", "Verif.Tools.C53_roundtrip", "Verif.Tools.C53_label_close", "Verif.Tools.C53_no_label"], "note": "ASCII names. The first of the two entries for Cu(111) is never returned (C53_known)."},
{"property": "C54", "status": "proved", "theorems": ["Verif.Tools.C54_clean", "Verif.Tools.C54_equal", "Verif.Tools.C54_idempotent", "Verif.Tools.C54_errors"], "note": "One-dimensional arguments."},
{"property": "C55", "status": "proved", "theorems": ["Verif.Tools.C55_marginal", "Verif.Tools.C55_order", "Verif.Tools.C55_error"], "note": "Exact real arithmetic."},
{"property": "C56", "status": "proved", "theorems": ["Verif.Tools.C56_axes", "Verif.Tools.C56_contour", "Verif.Tools.C56_half", "Verif.Tools.C56_whole_ellipse"], "note": "The constant 1.17741 makes the contour the half-maximum one to within 1e-7 (C56_half)."},
{"property": "C57", "status": "partial", "theorems": ["Verif.Tools.C57_error_partial", "Verif.Tools.C57_angle_partial", "Verif.Tools.C57_zero"], "note": "Holds for Q > 0. At Q = 0 an angle is returned although no triangle exists for different wavevectors (C57_zero)."},
{"property": "C58", "status": "partial", "theorems": ["Verif.Tools.C58_loss_partial", "Verif.Tools.C58_gain"], "note": "Holds for energy loss and elastic scattering; for every energy gain the result is nan (C58_gain)."},
{"property": "C59", "status": "partial", "theorems": ["Verif.Tools.C59_array_partial", "Verif.Tools.C59_nested_partial", "Verif.Tools.C59_negative", "Verif.Tools.C59_tolerance", "Verif.Tools.C59_in_place", "Verif.Tools.C59_type_error"], "note": "Arrays and non-negative scalars with the default tolerance. Negative scalars become zero, the tolerance is not passed to items of containers, real arrays are changed in place."},
{"property": "C60", "status": "partial", "theorems": ["Verif.Resolution.C60_queries_partial", "Verif.Resolution.C60_stale", "Verif.Resolution.C60_mosaic_false", "Verif.Resolution.C60_after_error", "Verif.Resolution.C60_after_error_false"], "note": "Every query is answered as by a new object as long as no setting changes and all queries succeed. False in general: after any change of settings the same query returns the old result (a changed mosaic gives a different true matrix), and a query that raised an error returns the previous point's result when repeated."},
{"property": "C61", "status": "proved", "theorems": ["Verif.Resolution.C61_spd"], "note": "For every valid instrument and list of reachable points: the calculation succeeds, returns one result per point, every matrix is symmetric positive definite and every prefactor positive. Both methods, monitor correction, sample mosaic, focusing and reflectivity included."},
{"property": "C62", "status": "partial", "theorems": ["Verif.Resolution.C62_batch_partial", "Verif.Resolution.C62_guide_leaks", "Verif.Resolution.C62_curvature_alternates", "Verif.Resolution.C62_curvature_leaks"], "note": "Holds when no guide limits the divergence or Ei is fixed, and for Popovici with scattering senses +1. False with a guide and fixed Ef: the divergence computed for the first point is kept. Curvatures change sign from point to point when the scattering sense is -1."},
{"property": "C63", "status": "partial", "theorems": ["Verif.Resolution.C63_repeat_partial", "Verif.Resolution.C63_shape_second_fails", "Verif.Resolution.C63_shape_turned_again"], "note": "Holds for samples without a shape matrix. With one, it is replaced by a stack: after two or more points every later calculation raises ValueError, after one point it is turned again each time."},
{"property": "C64", "status": "partial", "theorems": ["Verif.Crystal.C64_standard_system", "Verif.Crystal.C64_collinear_partial", "Verif.Crystal.C64_zero_first_false"], "note": "Proved for independent vectors and for collinear ones of which the first is not zero. A zero first vector is not rejected but gives nan (C64_zero_first_false)."},
{"property": "C65", "status": "partial", "theorems": ["Verif.FileIO.C65_roundtrip_partial", "Verif.FileIO.C65_padded_array", "Verif.FileIO.C65_list", "Verif.FileIO.C65_second_save", "Verif.FileIO.C65_smooth", "Verif.FileIO.C65_whole_numbers"], "note": "Every saved scalar, string and unpadded array comes back (proved for any lawful number formatting and for whole numbers outright). The full statement is false: an array whose printed cells are padded, or a Python list of two or more numbers, cannot be loaded, so a loaded instrument cannot be saved and loaded again; a Smooth part is not restored."},
{"property": "C66", "status": "partial", "theorems": ["Verif.FileIO.C66_sound", "Verif.FileIO.C66_name", "Verif.FileIO.C66_lines_partial", "Verif.FileIO.C66_unknown", "Verif.FileIO.C66_saved", "Verif.FileIO.C66_two_markers", "Verif.FileIO.C66_case_false", "Verif.FileIO.C66_default_names"], "note": "The answer is decided by the name ending, then by markers in the first lines; unknown files raise; saved files are recognised. False in full: a file with markers of two formats gets the first one tested (an ICP file can be read as GRASP), and the ending .XYIE is not recognised in upper case."},
{"property": "C67", "status": "partial", "theorems": ["Verif.FileIO.C67_same_type_partial", "Verif.FileIO.C67_mixed", "Verif.FileIO.C67_mixed_false", "Verif.FileIO.C67_unknown_type"], "note": "Proved when all files have one type. In general false: with automatic detection the type of the first file is used for all."},
{"property": "C68", "status": "partial", "theorems": ["Verif.FileIO.C68_unchanged_partial", "Verif.FileIO.C68_binary_unchanged", "Verif.FileIO.C68_error_column", "Verif.FileIO.C68_none_error", "Verif.FileIO.C68_after_reading", "Verif.FileIO.C68_replaced", "Verif.FileIO.C68_hdf5_kept"], "note": "Proved for objects without error bars, and for HDF5/pickle. False in full: an ASCII save adds a column 'error' to the saved object, fails with a corrupted object once d.error was read, and ASCII/pickle saves replace an existing file without overwrite."},
{"property": "C69", "status": "partial", "theorems": ["Verif.Fitter.C69_fixed_and_limits_partial", "Verif.Fitter.C69_fixed_moved", "Verif.Fitter.C69_all_fixed", "Verif.Fitter.C69_residual_order"], "note": "Under the stated assumptions on LMFIT (Env.Lawful): one value per parameter in order, limits respected, fixed parameters kept when they start within their limits, all-fixed problems rejected, residual function called with values in order. False in full: a fixed parameter outside its limits is moved to the limit."},
{"property": "C70", "status": "partial", "theorems": ["Verif.Fitter.C70_fresh_partial", "Verif.Fitter.C70_other_number", "Verif.Fitter.C70_other_number_false", "Verif.Fitter.C70_call", "Verif.Fitter.C70_call_ignores", "Verif.Fitter.C70_failed_keeps"], "note": "Proved over all histories of fits when parinfo was given or the number of parameters stays the same; calling an object without a fit is the fit from the parameters passed (C70_call). False in full: without parinfo the first fit settles the number of parameters, and calling the object after a fit returns the old parameters whatever is passed."},
{"property": "C71", "status": "proved", "theorems": ["Verif.Instrument.C71_consistent", "Verif.Instrument.C71_failed_assignment"], "note": "Over histories of known names and positive numbers. After a caught error the object keeps the bad name beside the old spacing (C71_failed_assignment)."},
{"property": "C72", "status": "partial", "theorems": ["Verif.Instrument.C72_monochromator_partial", "Verif.Instrument.C72_sample_partial", "Verif.Instrument.C72_sample_shape", "Verif.Instrument.C72_analyzer_partial", "Verif.Instrument.C72_analyzer_drops", "Verif.Instrument.C72_material_permuted", "Verif.Instrument.C72_material_default"], "note": "False for Analyzer (seven keywords dropped), Material (five keys permuted) and the shape of a Sample."},
{"property": "C73", "status": "partial", "theorems": ["Verif.Data.C73_sum_loses_naming", "Verif.Data.C73_naming_partial"], "note": "False for data sets with other column names (witness proved)."},
{"property": "C74", "status": "partial", "theorems": ["Verif.Data.C74_product_independent_partial", "Verif.Data.C74_difference_shares_arrays", "Verif.Data.C74_difference_partial"], "note": "False for differences (witness proved); sums are covered by C05."},
{"property": "C75", "status": "proved", "theorems": ["Verif.Data.C75_subtract_nearest", "Verif.Data.C75_by_role", "Verif.Data.C75_subtract_nearest_error"], "note": ""},
{"property": "C76", "status": "partial", "theorems": ["Verif.Data.C76_bin_other_names", "Verif.Data.C76_axes_partial"], "note": "False when the columns have other names than the role names (witness proved); holds when they coincide."},
{"property": "C77", "status": "partial", "theorems": ["Verif.Data.C77_width_about_position_partial", "Verif.Data.C77_width_not_about_position"], "note": "False when a further column varies along the scan (witness); proved when the others are constant."},
{"property": "C78", "status": "partial", "theorems": ["Verif.Data.Scans.C78_argument_unchanged_partial", "Verif.Data.Scans.C78_caller_dictionary_changed"], "note": "False for the dictionary passed to the constructor (witness); the argument of update is unchanged."},
{"property": "C79", "status": "proved", "theorems": ["Verif.Data.Scans.C79_update_contents", "Verif.Data.Scans.C79_history"], "note": ""},
{"property": "C80", "status": "proved", "theorems": ["Verif.Data.Scans.C80_edges"], "note": "Exact arithmetic."},
{"property": "C81", "status": "partial", "theorems": ["Verif.Data.C81_scattering_function_partial", "Verif.Data.C81_zero_final_energy"], "note": "False when some point has zero final energy (proved for every such data set); closed form proved otherwise."},
{"property": "C82", "status": "proved", "theorems": ["Verif.Functions.C82_voigt_area", "Verif.Functions.C82_ring_volume"], "note": "wofz and erf are given by their integral definitions."},
{"property": "C83", "status": "proved", "theorems": ["Verif.Symmetry.C83_names", "Verif.Symmetry.C83_numbers"], "note": "The database is transcribed into Lean and every entry checked by the kernel with a proved-sound closure search."},
{"property": "C84", "status": "partial", "theorems": ["Verif.Symmetry.C84_constructor", "Verif.Symmetry.C84_setter_partial", "Verif.Symmetry.C84_setter_silent", "Verif.Symmetry.C84_not_rejected"], "note": "The constructor always raises. The setter accepts unknown names silently and keeps the old group (C84_setter_silent, C84_not_rejected)."},
{"property": "C85", "status": "proved", "theorems": ["Verif.Structure.C85_equivalent", "Verif.Structure.C85_absent", "Verif.Structure.C85_database"], "note": "For atoms without displacement parameters, where the structure factor is a number."},
{"property": "C86", "status": "partial", "theorems": ["Verif.Structure.C86_distinct_partial", "Verif.Structure.C86_not_once"], "note": "True exactly for general positions; false on special ones (C86_not_once)."},
{"property": "C87", "status": "partial", "theorems": ["Verif.Structure.C87_plain", "Verif.Structure.C87_all_given_partial", "Verif.Structure.C87_discarded", "Verif.Structure.C87_key_error"], "note": "True without a space group and when all entries give the key; otherwise the parameters are discarded or a KeyError is raised."},
{"property": "C88", "status": "proved", "theorems": ["Verif.Structure.C88_transmission", "Verif.Structure.C88_positive", "Verif.Structure.C88_maximum"], "note": ""},
{"property": "C89", "status": "partial", "theorems": ["Verif.Structure.C89_origin", "Verif.Structure.C89_formula", "Verif.Structure.C89_normalised", "Verif.Structure.C89_bounded_partial", "Verif.Structure.C89_diverges", "Verif.Structure.C89_orders"], "note": "Boundedness fails for Cr2+, Mn2+ and Mn3+, whose database entries have a negative exponent: C89_diverges proves it for Mn2+, C89_bounded_partial covers all other ions."},
{"property": "C90", "status": "proved", "theorems": ["Verif.Tools.C90_phonon", "Verif.Tools.C90_parallel", "Verif.Tools.C90_fproject", "Verif.Tools.C90_fproject_error"], "note": ""},
{"property": "C91", "status": "partial", "theorems": ["Verif.Tools.C91_double", "Verif.Tools.C91_half_partial"], "note": "False: the result is twice the full width, for every matrix."},
{"property": "C92", "status": "partial", "theorems": ["Verif.Instrument.C92_cases", "Verif.Instrument.C92_speed", "Verif.Instrument.C92_opening_partial", "Verif.Instrument.C92_opening_inverted", "Verif.Instrument.C92_repr_fails"], "note": "The dependence on the opening is inverted for Fermi choppers and disks without a radius; printing always fails."},
{"property": "C93", "status": "partial", "theorems": ["Verif.Instrument.C93_tilts_partial", "Verif.Instrument.C93_recursion", "Verif.Instrument.C93_orientation", "Verif.Instrument.C93_unit", "Verif.Instrument.C93_sense"], "note": "The rotation about the vertical axis calls itself for ever, so Omega and R never return."},
{"property": "C94", "status": "partial", "theorems": ["Verif.Crystal.C94_orthogonal_partial", "Verif.Crystal.C94_cubic_partial", "Verif.Crystal.C94_tetragonal_false"], "note": "Holds for cubic cells. In general the cross product of indices is not the normal of the plane: in a tetragonal cell v itself is reported out of the plane."},
{"property": "C95", "status": "partial", "theorems": ["Verif.Resolution.C95_crystal_frame_partial", "Verif.Resolution.C95_volume", "Verif.Resolution.C95_normal_false"], "note": "Holds for points in the scattering plane, and only there: outside it the determinant changes, and along the normal the matrix is singular."},
{"property": "C96", "status": "partial", "theorems": ["Verif.Resolution.C96_open_triangle_partial", "Verif.Resolution.C96_no_reflection"], "note": "Open triangles are rejected at any place in the list. A crystal that cannot reflect the energy yields nan instead."},
{"property": "C97", "status": "partial", "theorems": ["Verif.FileIO.C97_partial", "Verif.FileIO.C97_padded_false", "Verif.FileIO.C97_orient_line"], "note": "Proved for every instrument whose saved attributes are read back: orientation vectors are those of the sample, which are saved and loaded. False in full: an instrument with an orientation vector that numpy pads, like [1, -1, 0], cannot be loaded at all. A line with orient1 or orient2 written by hand sets that vector and leaves the other."},
{"property": "C98", "status": "partial", "theorems": ["Verif.FileIO.C98_overwrite_partial", "Verif.FileIO.C98_no_new_file", "Verif.FileIO.C98_existing_lost", "Verif.FileIO.C98_tof_not_saved"], "note": "With overwrite a triple-axis instrument is written. False otherwise: without overwrite a missing file is an error, an existing file's beginning is overwritten in place, and a time-of-flight instrument is not written at all."},
{"property": "C99", "status": "partial", "theorems": ["Verif.FileIO.C99_roundtrip_partial", "Verif.FileIO.C99_header_lost", "Verif.FileIO.C99_error_lost", "Verif.FileIO.C99_one_point", "Verif.FileIO.C99_one_column", "Verif.FileIO.C99_space", "Verif.FileIO.C99_hdf5_keys"], "note": "Columns, values and keys come back from an ASCII file with at least two rows and columns, names without white space and no error bars. False in full: the header loses its last line and gains tabs, error bars come back as a plain column, a single point gives numbers instead of arrays, one column loses all but its first value, names with spaces shift the columns, HDF5 key names come back as b'...'."}
]}
