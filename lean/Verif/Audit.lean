import Verif.Data.Props
import Verif.Data.ArithProps
import Verif.Data.ObjectProps
import Verif.Data.BinProps
import Verif.Data.AnalysisProps
import Verif.Data.ScansProps
import Verif.Data.BalanceProps
import Verif.Energy.Props
import Verif.Functions.Props
import Verif.Functions.PropsAdd
import Verif.Functions.Props2D
import Verif.Functions.PropsArea
import Verif.Crystal.PropsSystem
import Verif.Symmetry.Props
import Verif.Symmetry.PropsStrings
import Verif.Symmetry.PropsDatabase
import Verif.Structure.Props
import Verif.Structure.PropsGroup
import Verif.Structure.PropsXs
import Verif.Tools.Props
import Verif.Tools.PropsKin
import Verif.Tools.PropsProj
import Verif.Tools.PropsWidths
import Verif.Instrument.Props
import Verif.Crystal.PropsPhi
import Verif.Resolution.PropsBatch
import Verif.Resolution.PropsSide
import Verif.FileIO.InstrWhole
import Verif.FileIO.DetectProps
import Verif.FileIO.SaveRound
import Verif.Fitter.History
import Verif.Structure.PropsMore
import Verif.Data.TightProps
import Verif.Tools.PropsEllipse
import Verif.FileIO.Loaders
import Verif.FileIO.LoadersLemmas
import Verif.FileIO.LoadersProps
import Verif.FileIO.LoadersGrid
import Verif.FileIO.LoadersSpe
import Verif.FileIO.LoadersSpeLine
import Verif.Data.Fwhm
import Verif.Models.Props
import Verif.Resolution.PropsFlight
import Verif.Resolution.PropsMosaic
import Verif.Resolution.PropsIntegral
import Verif.Resolution.PropsIntegralAll
import Verif.Resolution.PropsPaths
import Verif.Resolution.PropsCylinder
import Verif.Resolution.PropsForms
import Verif.FileIO.LoadersKeys
import Verif.Angles.Model
import Verif.Angles.Props
import Verif.Angles.PropsQ
import Verif.Angles.PropsSpurion
import Verif.Resolution.Projections
import Verif.Resolution.PropsProjections
import Verif.Resolution.PropsMirror
import Verif.Resolution.PropsView
import Verif.Resolution.PropsScale
import Verif.Resolution.PropsParams
import Verif.Angles.PropsB
import Verif.Tof.Model
import Verif.Tof.Flight
import Verif.Tof.Derivs
import Verif.Tof.Lemmas
import Verif.Tof.Kin
import Verif.Tof.Props
import Verif.Tof.Bench
import Verif.Tof.PropsBeam
import Verif.Tof.PropsFlight
import Verif.Tof.PropsTriangle
import Verif.Tof.PropsCrystal
import Verif.Tof.PropsMore
import Verif.Convolution.Model
import Verif.Convolution.Grid
import Verif.Convolution.Limit
import Verif.Convolution.Spec
import Verif.Convolution.Lemmas
import Verif.Convolution.Reach
import Verif.Convolution.Props
import Verif.Convolution.PropsMore
import Verif.Convolution.PropsForm
import Verif.Convolution.PropsMC
import Verif.Convolution.Theta
import Verif.Convolution.Law
import Verif.Convolution.Mean
import Verif.Convolution.PropsMean
import Verif.Single.Model
import Verif.Single.Voigt
import Verif.Single.Lemmas
import Verif.Single.Plasma
import Verif.Single.Check
import Verif.Single.Exp
import Verif.Single.Pieces
import Verif.Single.Regions
import Verif.Single.Props
import Verif.Single.PropsCoupled
import Verif.Tof.PropsTight
import Verif.Single.Mean
import Verif.Single.PropsMean
import Verif.Convolution.Variance
import Verif.Convolution.PropsVariance
import Verif.Single.PropsVariance
import Verif.Resolution.PropsMonitor
import Verif.Resolution.PropsGuide
import Verif.Resolution.PropsGuideFalse
import Verif.Resolution.PropsSmooth
import Verif.Resolution.PropsFocus
import Verif.Resolution.PropsVmosaic
import Verif.FileIO.ParCfg
import Verif.FileIO.ParCfgProps
import Verif.Instrument.Equality
import Verif.Instrument.EqualityProps
import Verif.FileIO.Taz
import Verif.FileIO.TazProps
import Verif.Data.Contour
import Verif.Data.ContourProps
import Verif.Structure.Spurion
import Verif.Structure.SpurionProps
import Verif.Resolution.Ellipsoid
import Verif.Resolution.EllipsoidProps
import Verif.Resolution.EllipsoidOdd
import Verif.Resolution.Figure
import Verif.Resolution.FigureProps
import Verif.Resolution.Report
import Verif.Resolution.ReportProps
import Verif.Angles.Layout
import Verif.Angles.LayoutProps
import Verif.Data.Line
import Verif.Data.LineProps
import Verif.Structure.Cell
import Verif.Structure.CellProps
import Verif.Fitter.Table
import Verif.Fitter.TableProps
import Verif.Instrument.Create
import Verif.Instrument.CreateProps
import Verif.Data.ScansPlot
import Verif.Data.ScansPlotProps
import Verif.Fitter.Settings
import Verif.Fitter.SettingsProps
import Verif.Fitter.Plot
import Verif.Fitter.PlotProps
import Verif.Gui.Model
import Verif.Gui.Props
import Verif.Data.Volume
import Verif.Data.VolumeProps
import Verif.Structure.IonTable
import Verif.Structure.Ions
import Verif.Structure.IonsProps
import Verif.Structure.Magnetic
import Verif.Structure.MagneticProps
import Verif.FileIO.InstrH5
import Verif.FileIO.InstrH5Props
import Verif.Symmetry.Parts
import Verif.Symmetry.PartsProps
import Verif.FileIO.Grasp
import Verif.FileIO.GraspProps
import Verif.Fitter.Results
import Verif.Fitter.ResultsProps
import Verif.Tof.Report
import Verif.Tof.ReportProps
import Verif.Instrument.Printed
import Verif.Instrument.PrintedLemmas
import Verif.Instrument.PrintedProps
import Verif.Data.ErrorProps
import Verif.Data.Whole
import Verif.Data.WholeProps
import Verif.Instrument.Shared
import Verif.Instrument.SharedProps
import Verif.Resolution.PropsDefaults
import Verif.Resolution.PropsMonotone
import Verif.Resolution.PropsOpen
import Verif.Resolution.PropsCell
import Verif.FileIO.InstrResoProps
import Verif.Functions.PropsShape
import Verif.Functions.PropsSign
import Verif.Structure.SupercellProps
import Verif.Resolution.PropsMirrorScan
import Verif.Resolution.PropsUnits
import Verif.Resolution.PropsUnitsNamed
import Verif.Resolution.PropsReverse
import Verif.Resolution.PropsReverseVmosaic
import Verif.Resolution.PropsReverseGuide
import Verif.Resolution.PropsOpposite
import Verif.FileIO.LoadersCut
import Verif.Data.ScaleProps
import Verif.Resolution.PropsMonitorSize
import Verif.Resolution.PropsMonitorHeight
import Verif.Data.ReverseProps
import Verif.Data.BinOrder
import Verif.Structure.Arrays
import Verif.Structure.ArraysProps
import Verif.Resolution.PropsArms
import Verif.Data.StretchProps
import Verif.Data.RebinProps
import Verif.Data.BinUnits
import Verif.Structure.OrbitProps
import Verif.Resolution.PropsWavelength
import Verif.Resolution.PropsWavelengthCrystal
import Verif.Tof.PropsSize
import Verif.Tof.PropsFaster
import Verif.Tof.PropsUpside
import Verif.Convolution.PropsMonotone
import Verif.Single.PropsForm
import Verif.Data.BinScale
import Verif.Single.PropsMonotone
import Verif.Tools.PropsShadow
import Verif.Structure.OriginProps
import Verif.Structure.MultiplicityProps
import Verif.Data.PartsProps
import Verif.Data.FlatProps
import Verif.Tools.PropsPlanes
import Verif.Data.PercentProps
import Verif.Energy.ScaleProps
import Verif.Functions.PropsUnits
import Verif.Crystal.PropsUnits
import Verif.Structure.ThicknessProps
import Verif.Data.BalanceLimits
import Verif.Angles.PropsWarnings
import Verif.Models.PropsRelations
import Verif.Instrument.PropsChopper
import Verif.Tools.PropsChop
import Verif.Tools.PropsTriangle
import Verif.Tools.PropsFree

/-!
# Axioms of the property theorems

Every theorem named in `MANIFEST.json`; the build log must show only `propext`,
`Classical.choice` and `Quot.sound`.
-/

#print axioms Verif.Data.C01_combine_conserves_counts_partial
#print axioms Verif.Data.Whole.C188_combine_false
#print axioms Verif.Data.Whole.C188_lost_partial
#print axioms Verif.Data.C02_combine_coordinates
#print axioms Verif.Data.C03_first_match_partial
#print axioms Verif.Data.Whole.C06_types_false
#print axioms Verif.Data.C04_sorted
#print axioms Verif.Data.C05_add_leaves_operands_unchanged
#print axioms Verif.Data.C06_combine_is_map_addition_partial
#print axioms Verif.Data.C06_load_order_irrelevant_partial
#print axioms Verif.Data.C06_commutative_partial
#print axioms Verif.Data.C06_associative_partial
#print axioms Verif.Data.C06_load_order_matters_with_tolerance
#print axioms Verif.Data.C07_augmented_assignment_gives_None
#print axioms Verif.Data.C07_object_updated_partial
#print axioms Verif.Data.C08_stale_normaliser
#print axioms Verif.Data.C08_intensity_current_partial
#print axioms Verif.Data.C09_bin_averages
#print axioms Verif.Data.C10_bin_processors
#print axioms Verif.Data.C10_chunks_partition
#print axioms Verif.Fitter.C100_list_array_partial
#print axioms Verif.Fitter.C100_tuple
#print axioms Verif.Fitter.C100_data_ignored
#print axioms Verif.Fitter.C101_swapped
#print axioms Verif.Fitter.C101_before
#print axioms Verif.Fitter.C102_scaled_twice
#print axioms Verif.Structure.C103_damped
#print axioms Verif.Structure.C103_monotone
#print axioms Verif.Structure.C103_not_by_reflection
#print axioms Verif.Structure.C103_origin_ignored
#print axioms Verif.Structure.C103_false
#print axioms Verif.Structure.C104_total_partial
#print axioms Verif.Structure.C104_occupancy_ignored
#print axioms Verif.Structure.C104_false
#print axioms Verif.Structure.C105_units_partial
#print axioms Verif.Structure.C105_atoms
#print axioms Verif.Structure.C105_false
#print axioms Verif.Structure.C106_mass
#print axioms Verif.Structure.C106_bound
#print axioms Verif.Structure.C106_occupancy_ignored
#print axioms Verif.Structure.C106_false
#print axioms Verif.Data.C107_assign_count_partial
#print axioms Verif.Data.C107_right_length
#print axioms Verif.Data.C107_wrong_length_accepted
#print axioms Verif.FileIO.C108_columns_partial
#print axioms Verif.FileIO.C108_single
#print axioms Verif.FileIO.C108_no_names
#print axioms Verif.FileIO.C108_plot_default
#print axioms Verif.FileIO.C108_appended_false
#print axioms Verif.FileIO.C108_false
#print axioms Verif.FileIO.C109_points_partial
#print axioms Verif.FileIO.C109_last_lost
#print axioms Verif.FileIO.C109_false
#print axioms Verif.FileIO.C110_first_nine_partial
#print axioms Verif.FileIO.C110_rest_lost
#print axioms Verif.FileIO.C110_few
#print axioms Verif.FileIO.C110_false
#print axioms Verif.FileIO.C111_columns_partial
#print axioms Verif.FileIO.C111_extra_line
#print axioms Verif.FileIO.C111_false
#print axioms Verif.FileIO.C112_columns_partial
#print axioms Verif.FileIO.C112_false
#print axioms Verif.FileIO.C112_counts_partial
#print axioms Verif.FileIO.C113_iexy
#print axioms Verif.FileIO.C113_xye
#print axioms Verif.FileIO.C113_spe
#print axioms Verif.FileIO.C113_xyie_never
#print axioms Verif.FileIO.C113_by_name
#print axioms Verif.FileIO.C113_false
#print axioms Verif.FileIO.C114_iexy_partial
#print axioms Verif.FileIO.C114_xye_partial
#print axioms Verif.FileIO.C114_single
#print axioms Verif.FileIO.C114_false
#print axioms Verif.FileIO.C115_values_partial
#print axioms Verif.FileIO.C115_never_usable
#print axioms Verif.FileIO.C115_false
#print axioms Verif.FileIO.C116_values_partial
#print axioms Verif.FileIO.C116_not_usable
#print axioms Verif.FileIO.C116_full_lines
#print axioms Verif.FileIO.C116_longer_first
#print axioms Verif.FileIO.C116_false
#print axioms Verif.FileIO.C116_line
#print axioms Verif.FileIO.C116_mark
#print axioms Verif.FileIO.C116_capital_false
#print axioms Verif.FileIO.C117_collimation
#print axioms Verif.FileIO.C117_lattice
#print axioms Verif.Models.C118_parameters
#print axioms Verif.Models.C118_meaning_partial
#print axioms Verif.Models.C118_period_iff
#print axioms Verif.Models.C118_false
#print axioms Verif.Models.C119_parameters
#print axioms Verif.Models.C119_equation
#print axioms Verif.Models.C119_undamped
#print axioms Verif.Models.C119_decay
#print axioms Verif.Data.C12_range_covered
#print axioms Verif.Data.C12_one_cell
#print axioms Verif.Data.C12_boundary_counted_twice
#print axioms Verif.Models.C120_shape_partial
#print axioms Verif.Models.C120_false
#print axioms Verif.Models.C120_negative
#print axioms Verif.Models.C121_long_waves
#print axioms Verif.Resolution.C122_flight_partial
#print axioms Verif.Resolution.C122_flight_mosaic_partial
#print axioms Verif.Resolution.C122_vmosaic_false
#print axioms Verif.Resolution.C122_guide_false
#print axioms Verif.Resolution.C123_iff
#print axioms Verif.Resolution.C123_equal_partial
#print axioms Verif.Resolution.C123_false
#print axioms Verif.Resolution.C123_any_iff
#print axioms Verif.Resolution.C123_level_iff
#print axioms Verif.Resolution.C123_level_partial
#print axioms Verif.Resolution.C124_paths_partial
#print axioms Verif.Resolution.C124_paths_mosaic_partial
#print axioms Verif.Resolution.C125_base_partial
#print axioms Verif.Resolution.C125_height_false
#print axioms Verif.Resolution.C125_as_box
#print axioms Verif.Resolution.C126_form
#print axioms Verif.Resolution.C126_any_partial
#print axioms Verif.Resolution.C126_number
#print axioms Verif.Resolution.C126_false
#print axioms Verif.FileIO.C127_spice_partial
#print axioms Verif.FileIO.C127_spice_temperature
#print axioms Verif.FileIO.C127_mad_partial
#print axioms Verif.FileIO.C127_ice_partial
#print axioms Verif.FileIO.C127_icp_partial
#print axioms Verif.Angles.C128_bragg_partial
#print axioms Verif.Angles.C128_unreachable
#print axioms Verif.Angles.C128_energy
#print axioms Verif.Angles.C128_energy_false
#print axioms Verif.Angles.C129_q_partial
#print axioms Verif.Angles.C129_q_false
#print axioms Verif.Angles.C129_turn
#print axioms Verif.Angles.C129_condition_partial
#print axioms Verif.Angles.C129_sense_false
#print axioms Verif.Angles.C129_axes_partial
#print axioms Verif.Data.C13_whole_range
#print axioms Verif.Angles.C130_points
#print axioms Verif.Angles.C130_warnings_partial
#print axioms Verif.Angles.C130_peak
#print axioms Verif.Angles.C130_documented_false
#print axioms Verif.Resolution.C131_curves_partial
#print axioms Verif.Resolution.C131_centre_partial
#print axioms Verif.Resolution.C131_centre_false
#print axioms Verif.Resolution.C131_units_false
#print axioms Verif.Resolution.C132_params_partial
#print axioms Verif.Resolution.C132_height
#print axioms Verif.Resolution.C132_height_false
#print axioms Verif.Resolution.C132_planes_false
#print axioms Verif.Resolution.C132_several_false
#print axioms Verif.Resolution.C132_elsewhere_false
#print axioms Verif.Resolution.C133_vertical
#print axioms Verif.Resolution.C133_Q
#print axioms Verif.Resolution.C134_stretch
#print axioms Verif.Tof.C135_sphere_partial
#print axioms Verif.Tof.C135_cylinder_partial
#print axioms Verif.Tof.C135_instants
#print axioms Verif.Tof.C135_instants_false
#print axioms Verif.Tof.C135_cylinder_false
#print axioms Verif.Tof.C135_cylinder_level_partial
#print axioms Verif.Tof.C136_triangle_partial
#print axioms Verif.Tof.C136_inelastic_false
#print axioms Verif.Tof.C136_vertical
#print axioms Verif.Tof.C136_vertical_false
#print axioms Verif.Tof.C137_spd
#print axioms Verif.Tof.C137_exists_partial
#print axioms Verif.Tof.C137_gain_false
#print axioms Verif.Tof.C137_exists_beam_partial
#print axioms Verif.Tof.C137_beam_false
#print axioms Verif.Tof.C138_cubic_partial
#print axioms Verif.Tof.C138_ortho_false
#print axioms Verif.Tof.C138_stored
#print axioms Verif.Tof.C138_points
#print axioms Verif.Tof.C139_monotone
#print axioms Verif.Tof.C139_scale
#print axioms Verif.Data.C14_error_scale_partial
#print axioms Verif.Data.C14_error_normalised_twice
#print axioms Verif.Tof.C140_shape
#print axioms Verif.Tof.C140_other
#print axioms Verif.Tof.C140_orientation
#print axioms Verif.Tof.C140_horizontal_false
#print axioms Verif.Tof.C141_order
#print axioms Verif.Tof.C141_sorted
#print axioms Verif.Tof.C141_single_false
#print axioms Verif.Tof.C141_single_guides
#print axioms Verif.Tof.C142_units_partial
#print axioms Verif.Tof.C142_distance_false
#print axioms Verif.Tof.C142_pixel_false
#print axioms Verif.Tof.C142_height_false
#print axioms Verif.Tof.C142_guide_false
#print axioms Verif.Tof.C142_lengths_partial
#print axioms Verif.Tof.C143_cell_partial
#print axioms Verif.Tof.C143_prefactor_false
#print axioms Verif.Convolution.C144_variables
#print axioms Verif.Convolution.C145_grid_partial
#print axioms Verif.Convolution.C145_level
#print axioms Verif.Convolution.C145_coupled_false
#print axioms Verif.Convolution.C146_linear
#print axioms Verif.Convolution.C146_background
#print axioms Verif.Convolution.C146_own
#print axioms Verif.Convolution.C147_outcome
#print axioms Verif.Convolution.C147_single
#print axioms Verif.Convolution.C147_default
#print axioms Verif.Convolution.C148_mean_partial
#print axioms Verif.Convolution.C148_uniform
#print axioms Verif.Convolution.C148_normal_false
#print axioms Verif.Convolution.C148_seed
#print axioms Verif.Convolution.C148_variance
#print axioms Verif.Convolution.C148_converges_partial
#print axioms Verif.Convolution.C149_centre
#print axioms Verif.Convolution.C149_constant
#print axioms Verif.Data.C15_subtract_intensities
#print axioms Verif.Single.C150_lines_partial
#print axioms Verif.Single.C150_coupled_false
#print axioms Verif.Single.C151_outcome
#print axioms Verif.Single.C151_pref_false
#print axioms Verif.Single.C151_default
#print axioms Verif.Single.C152_symmetric
#print axioms Verif.Single.C152_sharp
#print axioms Verif.Single.C152_profile
#print axioms Verif.Single.C153_mean_partial
#print axioms Verif.Single.C153_seed_false
#print axioms Verif.Single.C153_variance
#print axioms Verif.Single.C153_converges_partial
#print axioms Verif.Resolution.C154_monitor
#print axioms Verif.Resolution.C154_same
#print axioms Verif.Resolution.C155_before_partial
#print axioms Verif.Resolution.C155_after_false
#print axioms Verif.Resolution.C156_zero_partial
#print axioms Verif.Resolution.C156_nan
#print axioms Verif.Resolution.C156_calc_false
#print axioms Verif.Resolution.C156_swapped
#print axioms Verif.Resolution.C156_ignored_false
#print axioms Verif.Resolution.C156_calc_partial
#print axioms Verif.Resolution.C157_focus_partial
#print axioms Verif.Resolution.C157_focus_mosaic_partial
#print axioms Verif.Resolution.C157_flag_false
#print axioms Verif.FileIO.C158_partial
#print axioms Verif.FileIO.C158_fixed_partial
#print axioms Verif.FileIO.C158_mosaic_false
#print axioms Verif.FileIO.C158_senses_false
#print axioms Verif.FileIO.C158_bent_false
#print axioms Verif.FileIO.C158_bent_partial
#print axioms Verif.FileIO.C158_windows_false
#print axioms Verif.FileIO.C158_sample_false
#print axioms Verif.FileIO.C158_names_false
#print axioms Verif.FileIO.C158_senses_partial
#print axioms Verif.FileIO.C158_blank_false
#print axioms Verif.Instrument.Equality.C159_part_partial
#print axioms Verif.Instrument.Equality.C159_instr_partial
#print axioms Verif.Instrument.Equality.C159_symm_partial
#print axioms Verif.Instrument.Equality.C159_length_false
#print axioms Verif.Instrument.Equality.C159_trans_false
#print axioms Verif.Instrument.Equality.C159_calc_false
#print axioms Verif.Instrument.Equality.C159_raises_false
#print axioms Verif.Data.C16_subtract_error
#print axioms Verif.Data.C16_subtract_self
#print axioms Verif.FileIO.C160_partial
#print axioms Verif.FileIO.C160_text_false
#print axioms Verif.FileIO.C160_reflection_false
#print axioms Verif.FileIO.C160_default_false
#print axioms Verif.FileIO.C160_short_false
#print axioms Verif.FileIO.C160_empty_false
#print axioms Verif.FileIO.C160_missing
#print axioms Verif.Data.Contour.C161_exact
#print axioms Verif.Data.Contour.C161_partial
#print axioms Verif.Data.Contour.C161_columns_false
#print axioms Verif.Data.Contour.C161_raises_false
#print axioms Verif.Structure.Spurion.C162_rings_partial
#print axioms Verif.Structure.Spurion.C162_intensity_partial
#print axioms Verif.Structure.Spurion.C162_intensity_false
#print axioms Verif.Resolution.Ellipsoid.C163_drawn_partial
#print axioms Verif.Resolution.Ellipsoid.C163_size_false
#print axioms Verif.Resolution.Ellipsoid.C163_tilt_false
#print axioms Verif.Resolution.Ellipsoid.C163_several_false
#print axioms Verif.Resolution.Ellipsoid.C163_four_false
#print axioms Verif.Resolution.Ellipsoid.C163_odd_partial
#print axioms Verif.Resolution.Figure.C164_other_partial
#print axioms Verif.Resolution.Figure.C164_session_partial
#print axioms Verif.Resolution.Figure.C164_labels_partial
#print axioms Verif.Resolution.Figure.C164_stale_false
#print axioms Verif.Resolution.Figure.C164_npts_false
#print axioms Verif.Resolution.Figure.C164_settings_false
#print axioms Verif.Resolution.Figure.C164_label_false
#print axioms Verif.Resolution.Figure.C164_error_false
#print axioms Verif.Resolution.Report.C165_text_partial
#print axioms Verif.Resolution.Report.C165_volume_false
#print axioms Verif.Resolution.Report.C165_widths_false
#print axioms Verif.Resolution.Report.C165_name_false
#print axioms Verif.Resolution.Report.C165_settings_false
#print axioms Verif.Resolution.Report.C165_class_false
#print axioms Verif.Angles.Layout.C166_beam_partial
#print axioms Verif.Angles.Layout.C166_outlines_partial
#print axioms Verif.Angles.Layout.C166_width_false
#print axioms Verif.Angles.Layout.C166_plane_false
#print axioms Verif.Angles.Layout.C166_detector_false
#print axioms Verif.Angles.Layout.C166_class_false
#print axioms Verif.Angles.Layout.C166_arms_false
#print axioms Verif.Data.Line.C167_intensity_partial
#print axioms Verif.Data.Line.C167_counts_partial
#print axioms Verif.Data.Line.C167_bins
#print axioms Verif.Data.Line.C167_kind
#print axioms Verif.Data.Line.C167_fit_partial
#print axioms Verif.Data.Line.C167_direct_false
#print axioms Verif.Data.Line.C167_fit_false
#print axioms Verif.Data.Line.C167_bars_false
#print axioms Verif.Data.Line.C167_stored_false
#print axioms Verif.Structure.Cell.C168_edges_partial
#print axioms Verif.Structure.Cell.C168_atoms_partial
#print axioms Verif.Structure.Cell.C168_diagonal_false
#print axioms Verif.Structure.Cell.C168_angles_false
#print axioms Verif.Structure.Cell.C168_mass_false
#print axioms Verif.Fitter.Table.C169_table_partial
#print axioms Verif.Fitter.Table.C169_digits_partial
#print axioms Verif.Fitter.Table.C169_fixed_false
#print axioms Verif.Fitter.Table.C169_chi2_false
#print axioms Verif.Data.C17_monitor_unit
#print axioms Verif.Instrument.Create.C170_tas_partial
#print axioms Verif.Instrument.Create.C170_tof_partial
#print axioms Verif.Instrument.Create.C170_unknown_false
#print axioms Verif.Instrument.Create.C170_documented_false
#print axioms Verif.Instrument.Create.C170_takin_false
#print axioms Verif.Instrument.Create.C170_chopper_false
#print axioms Verif.Instrument.Create.C170_refused
#print axioms Verif.Instrument.Create.C170_tas_places_partial
#print axioms Verif.Instrument.Create.C170_tof_places_partial
#print axioms Verif.Data.Scans.Plot.C171_curves
#print axioms Verif.Data.Scans.Plot.C171_apart
#print axioms Verif.Data.Scans.Plot.C171_errors
#print axioms Verif.Data.Scans.Plot.C172_places_partial
#print axioms Verif.Data.Scans.Plot.C172_given_partial
#print axioms Verif.Data.Scans.Plot.C172_scale_partial
#print axioms Verif.Data.Scans.Plot.C172_scale_false
#print axioms Verif.Data.Scans.Plot.C172_zero_false
#print axioms Verif.Data.Scans.Plot.C172_single_false
#print axioms Verif.Data.Scans.Plot.C172_order_false
#print axioms Verif.Fitter.Settings.C173_create
#print axioms Verif.Fitter.Settings.C173_latest_partial
#print axioms Verif.Fitter.Settings.C173_latest_exists
#print axioms Verif.Fitter.Settings.C173_refused
#print axioms Verif.Fitter.Settings.C173_passed
#print axioms Verif.Fitter.Settings.C173_passes
#print axioms Verif.Fitter.Settings.C173_nofinitecheck_false
#print axioms Verif.Fitter.Settings.C173_documented_partial
#print axioms Verif.Fitter.Plot.C174_shown_partial
#print axioms Verif.Fitter.Plot.C174_residuals_partial
#print axioms Verif.Fitter.Plot.C174_before
#print axioms Verif.Fitter.Plot.C174_documented_false
#print axioms Verif.Fitter.Plot.C174_other_false
#print axioms Verif.Fitter.Plot.C174_fixed_false
#print axioms Verif.Gui.C175_calculates_partial
#print axioms Verif.Gui.C175_catalogue
#print axioms Verif.Gui.C175_opens_false
#print axioms Verif.Gui.C175_curved_false
#print axioms Verif.Gui.C175_mono_false
#print axioms Verif.Gui.C175_custom_false
#print axioms Verif.Data.Volume.C176_marks_partial
#print axioms Verif.Data.Volume.C176_intensity_partial
#print axioms Verif.Data.Volume.C176_missing
#print axioms Verif.Data.Volume.C176_colours_false
#print axioms Verif.Data.Volume.C176_direct_false
#print axioms Verif.Structure.Ions.C177_usable_partial
#print axioms Verif.Structure.Ions.C177_isotopes_false
#print axioms Verif.Structure.Ions.C177_unknown
#print axioms Verif.Structure.Ions.C177_needed
#print axioms Verif.Structure.Magnetic.C178_cell_partial
#print axioms Verif.Structure.Magnetic.C178_accepts
#print axioms Verif.Structure.Magnetic.C178_given_false
#print axioms Verif.Structure.Magnetic.C178_special_false
#print axioms Verif.Structure.Magnetic.C178_material_false
#print axioms Verif.Structure.Magnetic.C179_points_partial
#print axioms Verif.Structure.Magnetic.C179_zero
#print axioms Verif.Structure.Magnetic.C179_list_false
#print axioms Verif.Structure.Magnetic.C179_range_false
#print axioms Verif.Structure.Magnetic.C179_unknown_false
#print axioms Verif.Data.C18_mul_scales
#print axioms Verif.Data.C18_div_scales
#print axioms Verif.Data.C18_mul_div_cancel
#print axioms Verif.Data.C18_history
#print axioms Verif.Data.C18_floor_division
#print axioms Verif.FileIO.C180_roundtrip_partial
#print axioms Verif.FileIO.C180_existing_false
#print axioms Verif.FileIO.C180_none_false
#print axioms Verif.FileIO.C180_smooth_false
#print axioms Verif.FileIO.C180_tof_false
#print axioms Verif.FileIO.C180_text_false
#print axioms Verif.Symmetry.C181_one_partial
#print axioms Verif.Symmetry.C181_list_partial
#print axioms Verif.Symmetry.C181_determined
#print axioms Verif.Symmetry.C181_stack_false
#print axioms Verif.Symmetry.C181_missing_false
#print axioms Verif.Symmetry.C181_empty_false
#print axioms Verif.FileIO.C182_read_partial
#print axioms Verif.FileIO.C182_grasp
#print axioms Verif.FileIO.C182_nxs
#print axioms Verif.FileIO.C182_nxs_missing
#print axioms Verif.FileIO.C182_case_false
#print axioms Verif.FileIO.C182_npy_false
#print axioms Verif.FileIO.C182_comment_false
#print axioms Verif.Fitter.C183_ended_partial
#print axioms Verif.Fitter.C183_latest_partial
#print axioms Verif.Fitter.C183_never_false
#print axioms Verif.Fitter.C183_orignorm_false
#print axioms Verif.Fitter.C183_npar_false
#print axioms Verif.Tof.Report.C184_text_partial
#print axioms Verif.Tof.Report.C184_volume_false
#print axioms Verif.Tof.Report.C184_widths_false
#print axioms Verif.Tof.Report.C184_several_false
#print axioms Verif.Tof.Report.C184_class_false
#print axioms Verif.Tof.Report.C184_unit_false
#print axioms Verif.Instrument.Printed.C185_lattice
#print axioms Verif.Instrument.Printed.C185_group
#print axioms Verif.Instrument.Printed.C185_energy
#print axioms Verif.Instrument.Printed.C185_goniometer_partial
#print axioms Verif.Instrument.Printed.C185_sample_partial
#print axioms Verif.Instrument.Printed.C185_mono_partial
#print axioms Verif.Instrument.Printed.C185_ana_partial
#print axioms Verif.Instrument.Printed.C185_distance_false
#print axioms Verif.Instrument.Printed.C185_vectors_false
#print axioms Verif.Instrument.Printed.C185_name_false
#print axioms Verif.Instrument.Printed.C185_analyzer_false
#print axioms Verif.Instrument.Printed.C185_detector_false
#print axioms Verif.Instrument.Printed.C185_chopper_false
#print axioms Verif.Instrument.Printed.C185_atom_false
#print axioms Verif.Instrument.Printed.C185_tas_false
#print axioms Verif.Instrument.Printed.C185_tof_false
#print axioms Verif.Data.C186_errors_partial
#print axioms Verif.Data.C186_quotient
#print axioms Verif.Data.C186_given_false
#print axioms Verif.Data.C186_counted_false
#print axioms Verif.Data.C187_counted_partial
#print axioms Verif.Data.C187_given_false
#print axioms Verif.Data.C187_kept_false
#print axioms Verif.Data.C187_order_false
#print axioms Verif.Data.C187_time_false
#print axioms Verif.Data.Whole.C188_binary
#print axioms Verif.Data.Whole.C188_inplace_partial
#print axioms Verif.Data.Whole.C188_inplace_false
#print axioms Verif.Data.Whole.C188_power_false
#print axioms Verif.Data.Whole.C188_combine_partial
#print axioms Verif.Instrument.Shared.C189_sets
#print axioms Verif.Instrument.Shared.C189_separate_partial
#print axioms Verif.Instrument.Shared.C189_copied
#print axioms Verif.Instrument.Shared.C189_shared_false
#print axioms Verif.Instrument.Shared.C189_history_false
#print axioms Verif.Instrument.Shared.C189_assigned_false
#print axioms Verif.Instrument.Shared.C189_needed
#print axioms Verif.Data.C19_assign_coord
#print axioms Verif.Data.C19_assign_error
#print axioms Verif.Data.C19_assign_rejects
#print axioms Verif.Data.C19_assignments_keep_lengths
#print axioms Verif.Resolution.C190_defaults_partial
#print axioms Verif.Resolution.C190_mosaic
#print axioms Verif.Resolution.C190_both_negative_false
#print axioms Verif.Resolution.C190_negative_false
#print axioms Verif.Resolution.C190_size_false
#print axioms Verif.Resolution.C191_coarser
#print axioms Verif.Resolution.C192_open_partial
#print axioms Verif.Resolution.C193_lattice
#print axioms Verif.Resolution.C193_resolution
#print axioms Verif.FileIO.C194_ascii_partial
#print axioms Verif.FileIO.C194_hdf5_partial
#print axioms Verif.FileIO.C194_horifoc_false
#print axioms Verif.FileIO.C194_cylinder_false
#print axioms Verif.FileIO.C194_monitor_false
#print axioms Verif.FileIO.C194_reads
#print axioms Verif.FileIO.C194_reads_cell
#print axioms Verif.Functions.C195_convolution
#print axioms Verif.Functions.C195_shape
#print axioms Verif.Functions.C195_negative
#print axioms Verif.Functions.C196_gaussian2d
#print axioms Verif.Functions.C196_resolution
#print axioms Verif.Functions.C196_ring
#print axioms Verif.Structure.C197_scales_partial
#print axioms Verif.Structure.C197_absent_partial
#print axioms Verif.Structure.C197_massnorm_square
#print axioms Verif.Structure.C197_massnorm_false
#print axioms Verif.Structure.C197_displaced_false
#print axioms Verif.Structure.C198_thickness
#print axioms Verif.Structure.C198_incoherent_partial
#print axioms Verif.Structure.C198_incoherent_false
#print axioms Verif.Resolution.C199_mirror_partial
#print axioms Verif.Resolution.C199_scan_false
#print axioms Verif.Data.C20_reflexive
#print axioms Verif.Data.C20_symmetric
#print axioms Verif.Data.C20_not_transitive
#print axioms Verif.Data.C20_equal_lengths_partial
#print axioms Verif.Data.C20_meaning_partial
#print axioms Verif.Resolution.C200_popovici
#print axioms Verif.Resolution.C200_cooperNathans
#print axioms Verif.Resolution.C200_named_false
#print axioms Verif.Resolution.C201_reversed_partial
#print axioms Verif.Resolution.C201_vmosaic_false
#print axioms Verif.Resolution.C201_guide_false
#print axioms Verif.Resolution.C202_opposite
#print axioms Verif.FileIO.C203_axis_partial
#print axioms Verif.FileIO.C203_cut_false
#print axioms Verif.Data.C204_scaled
#print axioms Verif.Data.C204_divided
#print axioms Verif.Data.C204_fwhm
#print axioms Verif.Data.C204_given
#print axioms Verif.Data.C204_negative_factor
#print axioms Verif.Data.C204_fixed_background
#print axioms Verif.Resolution.C205_larger_partial
#print axioms Verif.Resolution.C205_width_false
#print axioms Verif.Resolution.C205_height_false
#print axioms Verif.Data.C206_direction_partial
#print axioms Verif.Data.C206_fwhm_partial
#print axioms Verif.Data.C206_integral_false
#print axioms Verif.Data.C206_order_false
#print axioms Verif.Data.C207_order
#print axioms Verif.Structure.C208_array_partial
#print axioms Verif.Structure.C208_number
#print axioms Verif.Structure.C208_shapes
#print axioms Verif.Structure.C208_empty_false
#print axioms Verif.Resolution.C209_short_partial
#print axioms Verif.Resolution.C209_fifth
#print axioms Verif.Resolution.C209_unused
#print axioms Verif.Resolution.C209_missing_false
#print axioms Verif.Resolution.C209_named_false
#print axioms Verif.Data.C21_Q_matrix_lengths
#print axioms Verif.Data.C21_wrong_number_of_counts
#print axioms Verif.Data.C21_constructor_lengths_partial
#print axioms Verif.Data.C210_units
#print axioms Verif.Data.C210_fwhm
#print axioms Verif.Data.C210_two_axes
#print axioms Verif.Data.C211_again_partial
#print axioms Verif.Data.C211_errors
#print axioms Verif.Data.C211_errors_false
#print axioms Verif.Data.C211_empty_false
#print axioms Verif.Data.C212_units
#print axioms Verif.Structure.C213_any_atom_partial
#print axioms Verif.Structure.C213_nan_false
#print axioms Verif.Structure.C213_displaced_false
#print axioms Verif.Resolution.C214_faster
#print axioms Verif.Resolution.C214_crystal
#print axioms Verif.Tof.C215_larger
#print axioms Verif.Tof.C215_crystal
#print axioms Verif.Tof.C216_faster
#print axioms Verif.Tof.C217_opposite
#print axioms Verif.Tof.C217_level
#print axioms Verif.Convolution.C218_order
#print axioms Verif.Convolution.C218_nonneg
#print axioms Verif.Single.C219_linear
#print axioms Verif.Single.C219_background
#print axioms Verif.Single.C219_own
#print axioms Verif.Data.C22_integrate_partial
#print axioms Verif.Data.C22_all_points_partial
#print axioms Verif.Data.C22_zero_h_dropped
#print axioms Verif.Data.C22_single_point_raises
#print axioms Verif.Data.C220_scaled_partial
#print axioms Verif.Data.C220_counted_false
#print axioms Verif.Single.C221_profile
#print axioms Verif.Single.C221_order
#print axioms Verif.Single.C221_nonneg
#print axioms Verif.Tools.C222_shadow
#print axioms Verif.Tools.C222_cut
#print axioms Verif.Tools.C222_vanadium
#print axioms Verif.Tools.C222_fproject
#print axioms Verif.Structure.C223_origin_partial
#print axioms Verif.Structure.C223_cells_partial
#print axioms Verif.Structure.C223_displaced_false
#print axioms Verif.Structure.C223_far_false
#print axioms Verif.Structure.C224_equally
#print axioms Verif.Structure.C224_multiplicity
#print axioms Verif.Structure.C224_weights
#print axioms Verif.Structure.C224_database
#print axioms Verif.Data.C225_parts
#print axioms Verif.Data.C225_mean
#print axioms Verif.Data.C225_grows
#print axioms Verif.Data.C226_flat
#print axioms Verif.Data.C226_fwhm
#print axioms Verif.Data.C226_given
#print axioms Verif.Data.C226_negative
#print axioms Verif.Tools.C227_graphite
#print axioms Verif.Tools.C227_germanium_near
#print axioms Verif.Tools.C227_germanium
#print axioms Verif.Tools.C227_copper_partial
#print axioms Verif.Tools.C227_copper_false
#print axioms Verif.Tools.C227_copper_first_line
#print axioms Verif.Data.C228_percent
#print axioms Verif.Data.C228_all
#print axioms Verif.Data.C228_integral
#print axioms Verif.Data.C228_falls
#print axioms Verif.Energy.C229_scaled
#print axioms Verif.Energy.C229_order
#print axioms Verif.Data.C23_position_inside
#print axioms Verif.Data.C23_constant_axis
#print axioms Verif.Functions.C230_curves
#print axioms Verif.Functions.C230_surfaces
#print axioms Verif.Crystal.C231_cell
#print axioms Verif.Crystal.C231_Bmatrix
#print axioms Verif.Crystal.C231_planes
#print axioms Verif.Structure.C232_stacked
#print axioms Verif.Structure.C232_mixed
#print axioms Verif.Structure.C232_energy
#print axioms Verif.Structure.C232_no_absorption
#print axioms Verif.Data.C233_order
#print axioms Verif.Data.C233_ratio
#print axioms Verif.Data.C233_classical_bound
#print axioms Verif.Data.C233_cold
#print axioms Verif.Data.C233_hot
#print axioms Verif.Data.C233_susceptibility
#print axioms Verif.Angles.C234_more_partial
#print axioms Verif.Angles.C234_together_partial
#print axioms Verif.Angles.C234_backwards_partial
#print axioms Verif.Angles.C234_finer_partial
#print axioms Verif.Models.C235_phase
#print axioms Verif.Models.C235_decrement
#print axioms Verif.Models.C235_superposition
#print axioms Verif.Models.C235_units
#print axioms Verif.Models.C235_compared
#print axioms Verif.Models.C235_rising
#print axioms Verif.Instrument.C236_relations_partial
#print axioms Verif.Instrument.C236_radius_false
#print axioms Verif.Instrument.C236_angle_iff
#print axioms Verif.Instrument.C236_angle_false
#print axioms Verif.Instrument.C236_same_opening_iff
#print axioms Verif.Tools.C237_twice_partial
#print axioms Verif.Tools.C237_complex_false
#print axioms Verif.Tools.C237_tolerances
#print axioms Verif.Tools.C237_near
#print axioms Verif.Tools.C238_ratios
#print axioms Verif.Tools.C238_direction
#print axioms Verif.Tools.C238_projections
#print axioms Verif.Tools.C238_elastic
#print axioms Verif.Tools.C238_order
#print axioms Verif.Tools.C239_back_partial
#print axioms Verif.Tools.C239_sum_partial
#print axioms Verif.Tools.C239_order_partial
#print axioms Verif.Tools.C239_gain_false
#print axioms Verif.Data.C24_shift_partial
#print axioms Verif.Data.C24_shift_false
#print axioms Verif.Data.C24_width_nonneg
#print axioms Verif.Data.C24_fwhm
#print axioms Verif.Data.C25_percent
#print axioms Verif.Data.C25_between
#print axioms Verif.Data.C25_order
#print axioms Verif.Data.C25_default
#print axioms Verif.Data.C26_sign
#print axioms Verif.Data.C26_detailed_balance
#print axioms Verif.Data.C26_odd_susceptibility
#print axioms Verif.Data.Scans.C27_constructed_partial
#print axioms Verif.Data.Scans.C27_history_partial
#print axioms Verif.Data.Scans.C27_update_breaks_summaries
#print axioms Verif.Energy.C28_consistent
#print axioms Verif.Energy.C29_read_back
#print axioms Verif.Energy.C30_priority
#print axioms Verif.Energy.C30_nothing_given
#print axioms Verif.Energy.C31_arrays_partial
#print axioms Verif.Energy.C31_zero_spoils_wavevectors
#print axioms Verif.Energy.C32_reflexive
#print axioms Verif.Energy.C32_symmetric
#print axioms Verif.Energy.C32_not_transitive
#print axioms Verif.Energy.C32_equality_partial
#print axioms Verif.Functions.C33_gaussian_area
#print axioms Verif.Functions.C34_gaussian_shape
#print axioms Verif.Functions.C34_negative
#print axioms Verif.Functions.C35_lorentzian_area
#print axioms Verif.Functions.C35_lorentzian_shape
#print axioms Verif.Functions.C35_negative
#print axioms Verif.Functions.C36_gaussian
#print axioms Verif.Functions.C36_lorentzian
#print axioms Verif.Functions.C36_order
#print axioms Verif.Functions.C36_voigt
#print axioms Verif.Functions.C36_gaussian2d
#print axioms Verif.Functions.C36_resolution
#print axioms Verif.Functions.C36_gaussian_ring
#print axioms Verif.Functions.C36_short
#print axioms Verif.Functions.C36_additive
#print axioms Verif.Functions.C37_gaussian2d_volume
#print axioms Verif.Functions.C37_resolution_volume
#print axioms Verif.Functions.C37_other_mode
#print axioms Verif.Crystal.C38_metric
#print axioms Verif.Crystal.C38_inverse
#print axioms Verif.Crystal.C38_volume
#print axioms Verif.Crystal.C38_reciprocal_volume
#print axioms Verif.Crystal.C39_reciprocal_constants
#print axioms Verif.Crystal.C39_cartesian
#print axioms Verif.Crystal.C40_b_matrix_partial
#print axioms Verif.Crystal.C40_two_right_angles_partial
#print axioms Verif.Crystal.C40_rhombohedral_false
#print axioms Verif.Crystal.C40_documented_false
#print axioms Verif.Crystal.C41_spacing
#print axioms Verif.Crystal.C41_origin
#print axioms Verif.Crystal.C41_scaling
#print axioms Verif.Crystal.C41_opposite
#print axioms Verif.Crystal.C41_bragg
#print axioms Verif.Crystal.C41_unreachable
#print axioms Verif.Crystal.C42_angle
#print axioms Verif.Crystal.C42_range
#print axioms Verif.Crystal.C42_scaling
#print axioms Verif.Crystal.C42_parallel
#print axioms Verif.Crystal.C42_zero
#print axioms Verif.Crystal.C43_exclusive
#print axioms Verif.Crystal.C43_lattice_type_partial
#print axioms Verif.Crystal.C43_unclassified
#print axioms Verif.Crystal.C44_rotation
#print axioms Verif.Crystal.C44_dependent
#print axioms Verif.Crystal.C45_orientation_partial
#print axioms Verif.Crystal.C45_cubic_partial
#print axioms Verif.Crystal.C45_tetragonal_false
#print axioms Verif.Crystal.C46_star
#print axioms Verif.Crystal.C46_scalar
#print axioms Verif.Symmetry.C47_contents_partial
#print axioms Verif.Symmetry.C47_exhausted
#print axioms Verif.Symmetry.C47_closed_iff
#print axioms Verif.Symmetry.C47_builds
#print axioms Verif.Symmetry.C47_group
#print axioms Verif.Symmetry.C47_wrong_total_false
#print axioms Verif.Symmetry.C47_repeated_false
#print axioms Verif.Symmetry.C47_database
#print axioms Verif.Symmetry.C48_roundtrip_partial
#print axioms Verif.Symmetry.C48_database
#print axioms Verif.Symmetry.C48_not_hexagonal
#print axioms Verif.Symmetry.C48_not_dropped
#print axioms Verif.Symmetry.C49_orbit
#print axioms Verif.Symmetry.C49_translation
#print axioms Verif.Symmetry.C49_database
#print axioms Verif.Structure.C50_empty
#print axioms Verif.Structure.C50_additive
#print axioms Verif.Structure.C50_order
#print axioms Verif.Structure.C50_occupancy_partial
#print axioms Verif.Structure.C50_massnorm_cubic
#print axioms Verif.Structure.C50_massnorm_false
#print axioms Verif.Structure.C50_lengths
#print axioms Verif.Structure.C51_friedel
#print axioms Verif.Structure.C51_bound
#print axioms Verif.Structure.C51_forward
#print axioms Verif.Structure.C52_common_partial
#print axioms Verif.Structure.C52_lattice_partial
#print axioms Verif.Structure.C52_nan
#print axioms Verif.Tools.C53_case
#print axioms Verif.Tools.C53_number
#print axioms Verif.Tools.C53_known
#print axioms Verif.Tools.C53_unknown
#print axioms Verif.Tools.C53_roundtrip
#print axioms Verif.Tools.C53_label_close
#print axioms Verif.Tools.C53_no_label
#print axioms Verif.Tools.C54_clean
#print axioms Verif.Tools.C54_equal
#print axioms Verif.Tools.C54_idempotent
#print axioms Verif.Tools.C54_errors
#print axioms Verif.Tools.C55_marginal
#print axioms Verif.Tools.C55_order
#print axioms Verif.Tools.C55_error
#print axioms Verif.Tools.C56_axes
#print axioms Verif.Tools.C56_contour
#print axioms Verif.Tools.C56_half
#print axioms Verif.Tools.C56_whole_ellipse
#print axioms Verif.Tools.C57_error_partial
#print axioms Verif.Tools.C57_angle_partial
#print axioms Verif.Tools.C57_zero
#print axioms Verif.Tools.C58_loss_partial
#print axioms Verif.Tools.C58_gain
#print axioms Verif.Tools.C59_array_partial
#print axioms Verif.Tools.C59_nested_partial
#print axioms Verif.Tools.C59_negative
#print axioms Verif.Tools.C59_tolerance
#print axioms Verif.Tools.C59_in_place
#print axioms Verif.Tools.C59_type_error
#print axioms Verif.Resolution.C60_queries_partial
#print axioms Verif.Resolution.C60_stale
#print axioms Verif.Resolution.C60_mosaic_false
#print axioms Verif.Resolution.C60_after_error
#print axioms Verif.Resolution.C60_after_error_false
#print axioms Verif.Resolution.C61_spd
#print axioms Verif.Resolution.C62_batch_partial
#print axioms Verif.Resolution.C62_guide_leaks
#print axioms Verif.Resolution.C62_curvature_alternates
#print axioms Verif.Resolution.C62_curvature_leaks
#print axioms Verif.Resolution.C63_repeat_partial
#print axioms Verif.Resolution.C63_shape_second_fails
#print axioms Verif.Resolution.C63_shape_turned_again
#print axioms Verif.Crystal.C64_standard_system
#print axioms Verif.Crystal.C64_collinear_partial
#print axioms Verif.Crystal.C64_zero_first_false
#print axioms Verif.FileIO.C65_roundtrip_partial
#print axioms Verif.FileIO.C65_padded_array
#print axioms Verif.FileIO.C65_list
#print axioms Verif.FileIO.C65_second_save
#print axioms Verif.FileIO.C65_smooth
#print axioms Verif.FileIO.C65_whole_numbers
#print axioms Verif.FileIO.C66_sound
#print axioms Verif.FileIO.C66_name
#print axioms Verif.FileIO.C66_lines_partial
#print axioms Verif.FileIO.C66_unknown
#print axioms Verif.FileIO.C66_saved
#print axioms Verif.FileIO.C66_two_markers
#print axioms Verif.FileIO.C66_case_false
#print axioms Verif.FileIO.C66_default_names
#print axioms Verif.FileIO.C67_same_type_partial
#print axioms Verif.FileIO.C67_mixed
#print axioms Verif.FileIO.C67_mixed_false
#print axioms Verif.FileIO.C67_unknown_type
#print axioms Verif.FileIO.C68_unchanged_partial
#print axioms Verif.FileIO.C68_binary_unchanged
#print axioms Verif.FileIO.C68_error_column
#print axioms Verif.FileIO.C68_none_error
#print axioms Verif.FileIO.C68_after_reading
#print axioms Verif.FileIO.C68_replaced
#print axioms Verif.FileIO.C68_hdf5_kept
#print axioms Verif.Fitter.C69_fixed_and_limits_partial
#print axioms Verif.Fitter.C69_fixed_moved
#print axioms Verif.Fitter.C69_all_fixed
#print axioms Verif.Fitter.C69_residual_order
#print axioms Verif.Fitter.C70_fresh_partial
#print axioms Verif.Fitter.C70_other_number
#print axioms Verif.Fitter.C70_other_number_false
#print axioms Verif.Fitter.C70_call
#print axioms Verif.Fitter.C70_call_ignores
#print axioms Verif.Fitter.C70_failed_keeps
#print axioms Verif.Instrument.C71_consistent
#print axioms Verif.Instrument.C71_failed_assignment
#print axioms Verif.Instrument.C72_monochromator_partial
#print axioms Verif.Instrument.C72_sample_partial
#print axioms Verif.Instrument.C72_sample_shape
#print axioms Verif.Instrument.C72_analyzer_partial
#print axioms Verif.Instrument.C72_analyzer_drops
#print axioms Verif.Instrument.C72_material_permuted
#print axioms Verif.Instrument.C72_material_default
#print axioms Verif.Data.C73_sum_loses_naming
#print axioms Verif.Data.C73_naming_partial
#print axioms Verif.Data.C74_product_independent_partial
#print axioms Verif.Data.C74_difference_shares_arrays
#print axioms Verif.Data.C74_difference_partial
#print axioms Verif.Data.C75_subtract_nearest
#print axioms Verif.Data.C75_by_role
#print axioms Verif.Data.C75_subtract_nearest_error
#print axioms Verif.Data.C76_bin_other_names
#print axioms Verif.Data.C76_axes_partial
#print axioms Verif.Data.C77_width_about_position_partial
#print axioms Verif.Data.C77_width_not_about_position
#print axioms Verif.Data.Scans.C78_argument_unchanged_partial
#print axioms Verif.Data.Scans.C78_caller_dictionary_changed
#print axioms Verif.Data.Scans.C79_update_contents
#print axioms Verif.Data.Scans.C79_history
#print axioms Verif.Data.Scans.C80_edges
#print axioms Verif.Data.C81_scattering_function_partial
#print axioms Verif.Data.C81_zero_final_energy
#print axioms Verif.Functions.C82_voigt_area
#print axioms Verif.Functions.C82_ring_volume
#print axioms Verif.Symmetry.C83_names
#print axioms Verif.Symmetry.C83_numbers
#print axioms Verif.Symmetry.C84_constructor
#print axioms Verif.Symmetry.C84_setter_partial
#print axioms Verif.Symmetry.C84_setter_silent
#print axioms Verif.Symmetry.C84_not_rejected
#print axioms Verif.Structure.C85_equivalent
#print axioms Verif.Structure.C85_absent
#print axioms Verif.Structure.C85_database
#print axioms Verif.Structure.C86_distinct_partial
#print axioms Verif.Structure.C86_not_once
#print axioms Verif.Structure.C87_plain
#print axioms Verif.Structure.C87_all_given_partial
#print axioms Verif.Structure.C87_discarded
#print axioms Verif.Structure.C87_key_error
#print axioms Verif.Structure.C88_transmission
#print axioms Verif.Structure.C88_positive
#print axioms Verif.Structure.C88_maximum
#print axioms Verif.Structure.C89_origin
#print axioms Verif.Structure.C89_formula
#print axioms Verif.Structure.C89_normalised
#print axioms Verif.Structure.C89_bounded_partial
#print axioms Verif.Structure.C89_diverges
#print axioms Verif.Structure.C89_orders
#print axioms Verif.Tools.C90_phonon
#print axioms Verif.Tools.C90_parallel
#print axioms Verif.Tools.C90_fproject
#print axioms Verif.Tools.C90_fproject_error
#print axioms Verif.Tools.C91_double
#print axioms Verif.Tools.C91_half_partial
#print axioms Verif.Instrument.C92_cases
#print axioms Verif.Instrument.C92_speed
#print axioms Verif.Instrument.C92_opening_partial
#print axioms Verif.Instrument.C92_opening_inverted
#print axioms Verif.Instrument.C92_repr_fails
#print axioms Verif.Instrument.C93_tilts_partial
#print axioms Verif.Instrument.C93_recursion
#print axioms Verif.Instrument.C93_orientation
#print axioms Verif.Instrument.C93_unit
#print axioms Verif.Instrument.C93_sense
#print axioms Verif.Crystal.C94_orthogonal_partial
#print axioms Verif.Crystal.C94_cubic_partial
#print axioms Verif.Crystal.C94_tetragonal_false
#print axioms Verif.Resolution.C95_crystal_frame_partial
#print axioms Verif.Resolution.C95_volume
#print axioms Verif.Resolution.C95_normal_false
#print axioms Verif.Resolution.C96_open_triangle_partial
#print axioms Verif.Resolution.C96_no_reflection
#print axioms Verif.FileIO.C97_partial
#print axioms Verif.FileIO.C97_padded_false
#print axioms Verif.FileIO.C97_orient_line
#print axioms Verif.FileIO.C98_overwrite_partial
#print axioms Verif.FileIO.C98_no_new_file
#print axioms Verif.FileIO.C98_existing_lost
#print axioms Verif.FileIO.C98_tof_not_saved
#print axioms Verif.FileIO.C99_roundtrip_partial
#print axioms Verif.FileIO.C99_header_lost
#print axioms Verif.FileIO.C99_error_lost
#print axioms Verif.FileIO.C99_one_point
#print axioms Verif.FileIO.C99_one_column
#print axioms Verif.FileIO.C99_space
#print axioms Verif.FileIO.C99_hdf5_keys
