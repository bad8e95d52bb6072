import Verif.Props.Acf
import Verif.Props.Ages
import Verif.Props.Akima
import Verif.Props.AkimaC
import Verif.Props.AkimaSmooth
import Verif.Props.AkimaTracks
import Verif.Props.Angles
import Verif.Props.Annual
import Verif.Props.AnnualFit
import Verif.Props.AnnualProb
import Verif.Props.Arange64
import Verif.Props.Archive
import Verif.Props.Autoreg
import Verif.Props.Azimuth
import Verif.Props.Balance
import Verif.Props.Balanced
import Verif.Props.Binary64
import Verif.Props.Boundary
import Verif.Props.Cdf
import Verif.Props.CellStats
import Verif.Props.Cells
import Verif.Props.Circular
import Verif.Props.Climate
import Verif.Props.Closest
import Verif.Props.Compiled
import Verif.Props.Config
import Verif.Props.Consistent
import Verif.Props.Convex
import Verif.Props.Counts
import Verif.Props.Crossing
import Verif.Props.CurveRuns
import Verif.Props.DataDownload
import Verif.Props.DataProc
import Verif.Props.Database
import Verif.Props.Datasets
import Verif.Props.DateColumns
import Verif.Props.DateText
import Verif.Props.Dates
import Verif.Props.Defaults
import Verif.Props.Dispatch
import Verif.Props.DispatchFail
import Verif.Props.DomainMesh
import Verif.Props.Draws
import Verif.Props.DynArray
import Verif.Props.Ekman
import Verif.Props.EkmanHolland
import Verif.Props.EvalSave
import Verif.Props.Evaluate
import Verif.Props.EvaluateStats
import Verif.Props.Evd
import Verif.Props.Event
import Verif.Props.EventTable
import Verif.Props.Extract
import Verif.Props.Figures
import Verif.Props.Folders
import Verif.Props.Foliation
import Verif.Props.Fuzzy
import Verif.Props.Geometry
import Verif.Props.GevNewton
import Verif.Props.Grid
import Verif.Props.GustFiles
import Verif.Props.HazardEvents
import Verif.Props.HazardRun
import Verif.Props.Humidity
import Verif.Props.Impact
import Verif.Props.JtwcPosition
import Verif.Props.Kde
import Verif.Props.LMoments
import Verif.Props.LMomentsAll
import Verif.Props.LMomentsGev
import Verif.Props.LandDecay
import Verif.Props.LandMask
import Verif.Props.Landfall
import Verif.Props.LandfallGates
import Verif.Props.LandfallSummary
import Verif.Props.LoadTrack
import Verif.Props.LocalSeries
import Verif.Props.LocalWind
import Verif.Props.LowRes
import Verif.Props.Mesh
import Verif.Props.Mirror
import Verif.Props.MultiplierFiles
import Verif.Props.MultiplierTiles
import Verif.Props.Multipliers
import Verif.Props.NcGrid
import Verif.Props.NewHolland
import Verif.Props.Origin
import Verif.Props.OriginCdf
import Verif.Props.Pipeline
import Verif.Props.Places
import Verif.Props.Plots
import Verif.Props.Pressure
import Verif.Props.PressureWind
import Verif.Props.Profiles
import Verif.Props.Profiles2
import Verif.Props.Progress
import Verif.Props.QuantilePlot
import Verif.Props.Rates
import Verif.Props.RawTiles
import Verif.Props.Register
import Verif.Props.Registry
import Verif.Props.RemoteRun
import Verif.Props.Rerun
import Verif.Props.RingFile
import Verif.Props.ScaleBar
import Verif.Props.SeasonalPressure
import Verif.Props.Seasons
import Verif.Props.Selection
import Verif.Props.SeriesPlots
import Verif.Props.ShapeTable
import Verif.Props.Shapes
import Verif.Props.SimRates
import Verif.Props.SizeDraw
import Verif.Props.SizeFit
import Verif.Props.SizeTable
import Verif.Props.Smooth
import Verif.Props.Sphere
import Verif.Props.Startup
import Verif.Props.StatPlots
import Verif.Props.StatRange
import Verif.Props.StationRuns
import Verif.Props.Stations
import Verif.Props.Storms
import Verif.Props.Template
import Verif.Props.TextFiles
import Verif.Props.TextGrid
import Verif.Props.TileScript
import Verif.Props.Tiles
import Verif.Props.Times64
import Verif.Props.Timing
import Verif.Props.TrackDates
import Verif.Props.TrackDomain
import Verif.Props.TrackFiles
import Verif.Props.TrackGen
import Verif.Props.TrackInterp
import Verif.Props.TrackMap
import Verif.Props.TrackModel
import Verif.Props.TrackPressure
import Verif.Props.Unbiased
import Verif.Props.Units
import Verif.Props.UtmBand
import Verif.Props.Variates
import Verif.Props.Vmax
import Verif.Props.WindCurl
import Verif.Props.WindDir
import Verif.Props.WindRun
import Verif.Props.WindRunEvents
import Verif.Props.WindTable
import Verif.Props.Windfield
import Verif.Props.WindfieldAll
/-!
The axioms each property theorem depends on (printed during the build).
-/
#print axioms Tcrm.Tiles.C01_tiles_partition
#print axioms Tcrm.Tiles.C01_grid_error_iff
#print axioms Tcrm.Dispatch.C02_every_run_is_finite
#print axioms Tcrm.Dispatch.C02_no_deadlock
#print axioms Tcrm.Dispatch.C02_every_tile_once
#print axioms Tcrm.Hazard.C02_parallel_output_equals_serial
#print axioms Tcrm.Dispatch.C02_database_runs
#print axioms Tcrm.Dispatch.C02_wrong_tag_deadlocks
#print axioms Tcrm.Balanced.C03_item_goes_to_one_rank
#print axioms Tcrm.Balanced.C03_rank_items
#print axioms Tcrm.Balanced.C03_partition
#print axioms Tcrm.Balanced.C03_tracks_shared
#print axioms Tcrm.TrackGen.C04_split_partial
#print axioms Tcrm.TrackGen.C04_first_simulation_partial
#print axioms Tcrm.TrackGen.C04_split_changes_tracks
#print axioms Tcrm.Cdf.C05_cdf_is_distribution_function
#print axioms Tcrm.Cdf.C05_scale_invariant
#print axioms Tcrm.Cdf.C05_zero_density
#print axioms Tcrm.Cdf.C05_error_iff
#print axioms Tcrm.Cdf.C06_quantile
#print axioms Tcrm.Cdf.C06_index_error_iff
#print axioms Tcrm.Cdf.C06_monotone
#print axioms Tcrm.Cdf.C06_positive_probability
#print axioms Tcrm.Cdf.C06_zero_variate_selects_first
#print axioms Tcrm.Cdf.C06_generateSamples
#print axioms Tcrm.Cdf.C07_origin_in_support
#print axioms Tcrm.Cdf.C07_zero_variate_counterexample
#print axioms Tcrm.Cdf.C08_cdf2d
#print axioms Tcrm.Cdf.C08_zero_total_and_errors
#print axioms Tcrm.Cells.C09_cell_number_partial
#print axioms Tcrm.Cells.C09_same_number_iff_same_cell_partial
#print axioms Tcrm.Cells.C09_valid_iff
#print axioms Tcrm.Cells.C09_straddling_meridian_fails
#print axioms Tcrm.Cells.C09_straddling_equator_fails
#print axioms Tcrm.Cells.C09_non_dividing_cell_size_fails
#print axioms Tcrm.Cells.C09_in_range
#print axioms Tcrm.Cells.C10_rejected_iff_rounded_point_outside
#print axioms Tcrm.Cells.C10_rejected_iff_outside_partial
#print axioms Tcrm.Cells.C10_fractional_limits_fail
#print axioms Tcrm.Cells.C10_zero_spacing
#print axioms Tcrm.Evaluate.C100_one_cell
#print axioms Tcrm.Evaluate.C100_cell
#print axioms Tcrm.Evaluate.C100_total
#print axioms Tcrm.Evaluate.C100_additive
#print axioms Tcrm.Evaluate.C100_order
#print axioms Tcrm.Evaluate.C100_genesis
#print axioms Tcrm.Evaluate.C100_genesis_le
#print axioms Tcrm.Evaluate.C100_edges
#print axioms Tcrm.Evaluate.C100_domain_fails
#print axioms Tcrm.Evaluate.C101_historic_partial
#print axioms Tcrm.Evaluate.C101_historic_fails
#print axioms Tcrm.Evaluate.C101_synthetic
#print axioms Tcrm.Evaluate.C101_empty
#print axioms Tcrm.Evaluate.C102_cell
#print axioms Tcrm.Evaluate.C102_grid
#print axioms Tcrm.Evaluate.C102_same_cells_partial
#print axioms Tcrm.Evaluate.C102_edge_fails
#print axioms Tcrm.Evaluate.C102_minimum
#print axioms Tcrm.Evaluate.C103_leg
#print axioms Tcrm.Evaluate.C103_crossings
#print axioms Tcrm.Evaluate.C103_directions
#print axioms Tcrm.Evaluate.C103_distribution
#print axioms Tcrm.Evaluate.C103_rate_fails
#print axioms Tcrm.Evaluate.C103_on_gate_fails
#print axioms Tcrm.Evaluate.C104_gates_partial
#print axioms Tcrm.Evaluate.C104_once
#print axioms Tcrm.Evaluate.C104_rates
#print axioms Tcrm.Evaluate.C104_last_gate_fails
#print axioms Tcrm.Evaluate.C105_landfalls
#print axioms Tcrm.Evaluate.C105_direction
#print axioms Tcrm.Evaluate.C105_row
#print axioms Tcrm.Evaluate.C105_columns_fail
#print axioms Tcrm.Evaluate.C105_on_gate_fails
#print axioms Tcrm.Evaluate.C105_location_fails
#print axioms Tcrm.Evaluate.C105_category
#print axioms Tcrm.Evaluate.C106_percentile
#print axioms Tcrm.Evaluate.C106_monotone
#print axioms Tcrm.Evaluate.C106_summary
#print axioms Tcrm.Pipeline.C107_order_partial
#print axioms Tcrm.Pipeline.C107_once_partial
#print axioms Tcrm.Pipeline.C107_never_partial
#print axioms Tcrm.Pipeline.C107_progress_partial
#print axioms Tcrm.Pipeline.C107_terminates_partial
#print axioms Tcrm.Pipeline.C107_failure_blocks
#print axioms Tcrm.Pipeline.C107_failure_fails
#print axioms Tcrm.Pipeline.C107_failure_single_partial
#print axioms Tcrm.Pipeline.C108_crossing_fails
#print axioms Tcrm.Pipeline.C108_crossing_deadlock
#print axioms Tcrm.Pipeline.C108_files_partial
#print axioms Tcrm.Pipeline.C108_files_fails
#print axioms Tcrm.Pipeline.C108_single_partial
#print axioms Tcrm.Rerun.C109_model_partial
#print axioms Tcrm.Rerun.C109_format_fails
#print axioms Tcrm.Rerun.C109_age_fails
#print axioms Tcrm.Rerun.C109_plots_partial
#print axioms Tcrm.Rerun.C109_any_directory
#print axioms Tcrm.Rerun.C109_generation
#print axioms Tcrm.Extract.C11_sea_sample
#print axioms Tcrm.Extract.C11_land_sample
#print axioms Tcrm.Extract.C11_distribution_sample
#print axioms Tcrm.Extract.C11_never_fails_if_domain_suffices
#print axioms Tcrm.Extract.C11_invalid_cell
#print axioms Tcrm.Extract.C11_northern_edge_never_used
#print axioms Tcrm.Rerun.C110_calibration_partial
#print axioms Tcrm.Rerun.C110_radii_fails
#print axioms Tcrm.Rerun.C110_input_radii_fails
#print axioms Tcrm.Rerun.C110_frequency_fails
#print axioms Tcrm.Rerun.C110_tracks
#print axioms Tcrm.Rerun.C110_tracks_partial
#print axioms Tcrm.Rerun.C110_winds_fail
#print axioms Tcrm.Rerun.C110_winds_partial
#print axioms Tcrm.DataProc.C111_whole_tracks_partial
#print axioms Tcrm.DataProc.C111_numbered_partial
#print axioms Tcrm.DataProc.C111_merge_fails
#print axioms Tcrm.DataProc.C112_years
#print axioms Tcrm.DataProc.C112_one_year
#print axioms Tcrm.DataProc.C112_days
#print axioms Tcrm.DataProc.C112_written
#print axioms Tcrm.Kde.C113_plain_iff
#print axioms Tcrm.Kde.C113_plain_range
#print axioms Tcrm.Kde.C113_angular_iff
#print axioms Tcrm.Kde.C113_angular_range
#print axioms Tcrm.Kde.C113_periodic_iff
#print axioms Tcrm.Kde.C113_periodic_range
#print axioms Tcrm.Kde.C113_periodic_uneven
#print axioms Tcrm.Kde.C113_distribution
#print axioms Tcrm.Kde.C113_cells
#print axioms Tcrm.Kde.C113_sample
#print axioms Tcrm.Kde.C114_days_partial
#print axioms Tcrm.Kde.C114_days_table_partial
#print axioms Tcrm.Kde.C114_infinite_kernel_fails
#print axioms Tcrm.Kde.C114_not_closed_fails
#print axioms Tcrm.Kde.C114_bearings_fail
#print axioms Tcrm.Kde.C114_bearings_table_fails
#print axioms Tcrm.Kde.C114_genesis_days_fail
#print axioms Tcrm.Kde.C114_circular_fails
#print axioms Tcrm.Kde.C114_genesis_days_table
#print axioms Tcrm.Kde.C115_orientation
#print axioms Tcrm.Kde.C115_points
#print axioms Tcrm.Kde.C115_origin
#print axioms Tcrm.Kde.C115_genesis_partial
#print axioms Tcrm.Kde.C115_other_cell_fails
#print axioms Tcrm.Kde.C115_no_cell_fails
#print axioms Tcrm.HazardRun.C116_value
#print axioms Tcrm.HazardRun.C116_no_error
#print axioms Tcrm.HazardRun.C116_event_value
#print axioms Tcrm.HazardRun.C117_gev
#print axioms Tcrm.HazardRun.C117_gpd
#print axioms Tcrm.HazardRun.C117_gpd_fit
#print axioms Tcrm.HazardRun.C118_gev_partial
#print axioms Tcrm.HazardRun.C118_other_methods_fail
#print axioms Tcrm.HazardRun.C118_empirical_fails
#print axioms Tcrm.HazardRun.C119_other_names
#print axioms Tcrm.HazardRun.C119_gev_partial
#print axioms Tcrm.HazardRun.C119_ignored_fails
#print axioms Tcrm.HazardRun.C119_zero_winds_fail
#print axioms Tcrm.HazardRun.C119_no_wind
#print axioms Tcrm.Acf.C12_lag_is_sum
#print axioms Tcrm.Acf.C12_acf_bounds
#print axioms Tcrm.Acf.C12_coefficients
#print axioms Tcrm.HazardRun.C120_power_partial
#print axioms Tcrm.HazardRun.C120_unchecked_fails
#print axioms Tcrm.HazardRun.C120_fitted_days
#print axioms Tcrm.WindRun.C121_near_is_chosen
#print axioms Tcrm.WindRun.C121_others_have_no_wind
#print axioms Tcrm.WindRun.C121_files
#print axioms Tcrm.WindRun.C121_file_rows
#print axioms Tcrm.WindRun.C122_inside_partial
#print axioms Tcrm.WindRun.C122_outside_fails
#print axioms Tcrm.WindRun.C123_first_track_partial
#print axioms Tcrm.WindRun.C123_single_track_partial
#print axioms Tcrm.WindRun.C123_second_track_fails
#print axioms Tcrm.WindRun.C123_processes_fails
#print axioms Tcrm.WindRun.C124_tracks_to_hazard
#print axioms Tcrm.WindRun.C124_tracks_to_hazard_stored
#print axioms Tcrm.WindRun.C124_tracks_to_hazard_events
#print axioms Tcrm.TrackGen.C125_filling_partial
#print axioms Tcrm.TrackGen.C125_weakens_partial
#print axioms Tcrm.TrackGen.C125_second_landfall_fails
#print axioms Tcrm.TrackGen.C125_negative_rate_fails
#print axioms Tcrm.TrackGen.C126_not_too_deep
#print axioms Tcrm.TrackGen.C126_floor
#print axioms Tcrm.Climate.C127_rows_from_south_partial
#print axioms Tcrm.Climate.C127_rows_from_north_partial
#print axioms Tcrm.Climate.C127_longitude_partial
#print axioms Tcrm.Climate.C127_observed
#print axioms Tcrm.Climate.C127_hemisphere_fails
#print axioms Tcrm.Climate.C127_wrapping_fails
#print axioms Tcrm.Climate.C127_west_fails
#print axioms Tcrm.LoadTrack.C128_load
#print axioms Tcrm.LoadTrack.C128_speed
#print axioms Tcrm.LoadTrack.C129_nonneg
#print axioms Tcrm.LoadTrack.C129_missing
#print axioms Tcrm.LoadTrack.C129_positive
#print axioms Tcrm.LoadTrack.C129_no_deficit
#print axioms Tcrm.LoadTrack.C129_deeper_is_stronger
#print axioms Tcrm.LoadTrack.C129_surplus_gives_wind
#print axioms Tcrm.LoadTrack.C129_formula
#print axioms Tcrm.TrackGen.C13_single_track
#print axioms Tcrm.TrackGen.C13_generated_tracks
#print axioms Tcrm.Shapes.C130_points
#print axioms Tcrm.Shapes.C130_segment_records
#print axioms Tcrm.Shapes.C130_segments_partial
#print axioms Tcrm.Shapes.C130_lines_partial
#print axioms Tcrm.Shapes.C130_category
#print axioms Tcrm.Shapes.C130_east_crossing_fails
#print axioms Tcrm.Shapes.C130_west_crossing_fails
#print axioms Tcrm.Shapes.C130_missing_pressure_fails
#print axioms Tcrm.Smooth.C131_within
#print axioms Tcrm.Smooth.C131_mean
#print axioms Tcrm.Smooth.C131_missing_cells_fails
#print axioms Tcrm.Smooth.C131_spread
#print axioms Tcrm.TextFiles.C132_table_partial
#print axioms Tcrm.TextFiles.C132_column_partial
#print axioms Tcrm.TextFiles.C132_whole_partial
#print axioms Tcrm.TextFiles.C132_exact
#print axioms Tcrm.TextFiles.C132_one_row_fails
#print axioms Tcrm.TextFiles.C132_width
#print axioms Tcrm.TextFiles.C132_half
#print axioms Tcrm.Plots.C133_points_partial
#print axioms Tcrm.Plots.C133_interval_partial
#print axioms Tcrm.Plots.C133_curve
#print axioms Tcrm.Plots.C133_years_fails
#print axioms Tcrm.Plots.C133_units_fails
#print axioms Tcrm.Plots.C133_kmh_fails
#print axioms Tcrm.Plots.C134_levels
#print axioms Tcrm.Plots.C134_from_zero
#print axioms Tcrm.Plots.C134_narrow_range
#print axioms Tcrm.CellStats.C135_statistics
#print axioms Tcrm.CellStats.C135_map
#print axioms Tcrm.CellStats.C135_storm_partial
#print axioms Tcrm.CellStats.C135_single_cell_fails
#print axioms Tcrm.CellStats.C135_plot_without_first_cell
#print axioms Tcrm.CellStats.C135_other_grid_fails
#print axioms Tcrm.Circular.C136_range
#print axioms Tcrm.Circular.C136_closest
#print axioms Tcrm.Circular.C136_turns
#print axioms Tcrm.Circular.C136_order
#print axioms Tcrm.Circular.C136_rotation
#print axioms Tcrm.Circular.C136_spread
#print axioms Tcrm.Circular.C136_units
#print axioms Tcrm.Circular.C136_variance
#print axioms Tcrm.Closest.C137_planar
#print axioms Tcrm.Closest.C137_never_short_partial
#print axioms Tcrm.Closest.C137_latitude_fails
#print axioms Tcrm.Closest.C137_greenwich_fails
#print axioms Tcrm.Event.C138_single_event_partial
#print axioms Tcrm.Event.C138_simulated_event_fails
#print axioms Tcrm.Event.C138_several_events_fails
#print axioms Tcrm.Event.C138_earlier_event_fails
#print axioms Tcrm.TextGrid.C139_export_partial
#print axioms Tcrm.TextGrid.C139_upside_down_fails
#print axioms Tcrm.TextGrid.C139_wind_fields_descend
#print axioms Tcrm.TextGrid.C139_rectangular_fails
#print axioms Tcrm.TextGrid.C139_overwrite_fails
#print axioms Tcrm.TextGrid.C139_read_back
#print axioms Tcrm.TrackGen.C14_generateTracks
#print axioms Tcrm.TrackGen.C14_may_run_forever
#print axioms Tcrm.TrackGen.C14_rejected_only
#print axioms Tcrm.SeriesPlots.C140_own_plot_partial
#print axioms Tcrm.SeriesPlots.C140_image_name
#print axioms Tcrm.SeriesPlots.C140_other_files
#print axioms Tcrm.SeriesPlots.C140_same_image_fails
#print axioms Tcrm.SeriesPlots.C140_title_fails
#print axioms Tcrm.SeriesPlots.C140_short_series_fails
#print axioms Tcrm.Datasets.C141_complete_partial
#print axioms Tcrm.Datasets.C141_all_partial
#print axioms Tcrm.Datasets.C141_never_changed
#print axioms Tcrm.Datasets.C141_broken_transfer_fails
#print axioms Tcrm.Datasets.C141_interrupted_fails
#print axioms Tcrm.Datasets.C141_zip_fails
#print axioms Tcrm.Datasets.C141_same_name_fails
#print axioms Tcrm.Datasets.C141_stored_name
#print axioms Tcrm.Defaults.C142_stage_iff
#print axioms Tcrm.Defaults.C142_accepts_iff_partial
#print axioms Tcrm.Defaults.C142_kernel_fails
#print axioms Tcrm.Defaults.C142_documented_kernels_fails
#print axioms Tcrm.Defaults.C142_years_fails
#print axioms Tcrm.Defaults.C142_database_fails
#print axioms Tcrm.Defaults.C142_source_fails
#print axioms Tcrm.Startup.C143_begun
#print axioms Tcrm.Startup.C143_status_partial
#print axioms Tcrm.Startup.C143_status_fails
#print axioms Tcrm.Startup.C143_event_fails
#print axioms Tcrm.Startup.C143_missing
#print axioms Tcrm.Startup.C143_refused
#print axioms Tcrm.Startup.C143_logged
#print axioms Tcrm.Startup.C143_event_logged
#print axioms Tcrm.Startup.C144_event
#print axioms Tcrm.Startup.C144_main_partial
#print axioms Tcrm.Startup.C144_main_fails
#print axioms Tcrm.Startup.C145_log_files
#print axioms Tcrm.Startup.C145_first
#print axioms Tcrm.Startup.C145_dated
#print axioms Tcrm.TrackGen.C146_single_track
#print axioms Tcrm.TrackGen.C146_determined
#print axioms Tcrm.TrackGen.C147_genesis
#print axioms Tcrm.TrackGen.C147_hour
#print axioms Tcrm.Evd.C148_skewness
#print axioms Tcrm.Evd.C148_record
#print axioms Tcrm.Evd.C148_below
#print axioms Tcrm.Evd.C148_all
#print axioms Tcrm.Evd.C148_record_all
#print axioms Tcrm.Evd.C149_all_orders
#print axioms Tcrm.Evd.C149_when
#print axioms Tcrm.Evd.C149_definitions
#print axioms Tcrm.TrackGen.C15_prescribed_partial
#print axioms Tcrm.TrackGen.C15_one_environment_pressure
#print axioms Tcrm.TrackGen.C15_environment_pressure_leaks
#print axioms Tcrm.TrackGen.C15_zero_bearing_ignored
#print axioms Tcrm.Ages.C150_clock
#print axioms Tcrm.Ages.C150_whole_minutes
#print axioms Tcrm.Ages.C150_steps
#print axioms Tcrm.Ages.C150_day
#print axioms Tcrm.Ages.C151_time_partial
#print axioms Tcrm.Ages.C151_hours_fail
#print axioms Tcrm.Ages.C151_example
#print axioms Tcrm.Balance.C152_holland_partial
#print axioms Tcrm.Balance.C152_rmax_fails
#print axioms Tcrm.Balance.C152_equator_fails
#print axioms Tcrm.Balance.C152_double_partial
#print axioms Tcrm.Balance.C152_double_south_fails
#print axioms Tcrm.Balance.C152_double_default_fails
#print axioms Tcrm.NcGrid.C153_saved_partial
#print axioms Tcrm.NcGrid.C153_refused_partial
#print axioms Tcrm.NcGrid.C153_earlier_file_lost_fails
#print axioms Tcrm.NcGrid.C153_cannot_open
#print axioms Tcrm.NcGrid.C153_no_data
#print axioms Tcrm.NcGrid.C153_axis_twice
#print axioms Tcrm.NcGrid.C154_map
#print axioms Tcrm.NcGrid.C154_empty_iff
#print axioms Tcrm.NcGrid.C155_file_partial
#print axioms Tcrm.NcGrid.C155_range_fails
#print axioms Tcrm.NcGrid.C155_limits_fails
#print axioms Tcrm.WindDir.C156_grid_partial
#print axioms Tcrm.WindDir.C156_annual_maxima
#print axioms Tcrm.WindDir.C156_mirrored_fails
#print axioms Tcrm.WindDir.C156_raster_fails
#print axioms Tcrm.WindDir.C156_grid_cases
#print axioms Tcrm.WindDir.C156_extent_fails
#print axioms Tcrm.LocalWind.C157_fails_iff
#print axioms Tcrm.LocalWind.C157_configured_fails
#print axioms Tcrm.LocalWind.C157_values_fails
#print axioms Tcrm.LocalWind.C157_folder_partial
#print axioms Tcrm.LocalWind.C157_one_track_fails
#print axioms Tcrm.LocalWind.C157_all_tracks_partial
#print axioms Tcrm.LocalWind.C157_paths
#print axioms Tcrm.Storms.C158_units
#print axioms Tcrm.Storms.C158_maximum
#print axioms Tcrm.Storms.C158_no_storm
#print axioms Tcrm.Storms.C158_deeper
#print axioms Tcrm.Storms.C158_set_partial
#print axioms Tcrm.Storms.C158_zero_fails
#print axioms Tcrm.Storms.C158_radius_fails
#print axioms Tcrm.OriginCdf.C159_distribution_partial
#print axioms Tcrm.OriginCdf.C159_between_partial
#print axioms Tcrm.OriginCdf.C159_west_fails
#print axioms Tcrm.OriginCdf.C159_south_fails
#print axioms Tcrm.OriginCdf.C159_inverse_fails
#print axioms Tcrm.OriginCdf.C159_column_fails
#print axioms Tcrm.OriginCdf.C159_save_fails
#print axioms Tcrm.OriginCdf.C159_density_saved
#print axioms Tcrm.OriginCdf.C159_empty_column
#print axioms Tcrm.OriginCdf.C159_grid
#print axioms Tcrm.TrackGen.C16_keys_partial
#print axioms Tcrm.TrackGen.C16_neighbouring_seeds_share_streams
#print axioms Tcrm.SizeFit.C160_fit_partial
#print axioms Tcrm.SizeFit.C160_lengths
#print axioms Tcrm.SizeFit.C160_constant_fails
#print axioms Tcrm.SizeFit.C160_coefficients_fails
#print axioms Tcrm.SizeFit.C160_defaults
#print axioms Tcrm.Archive.C161_archived
#print axioms Tcrm.Archive.C161_kept_partial
#print axioms Tcrm.Archive.C161_names
#print axioms Tcrm.Archive.C161_dated
#print axioms Tcrm.Archive.C161_not_archived
#print axioms Tcrm.Archive.C161_overwritten_fails
#print axioms Tcrm.Archive.C161_undated_fails
#print axioms Tcrm.Archive.C161_no_folder_fails
#print axioms Tcrm.Archive.C161_folder
#print axioms Tcrm.Places.C162_numbered
#print axioms Tcrm.Places.C162_keyed
#print axioms Tcrm.Places.C162_no_field_fails
#print axioms Tcrm.Places.C162_field
#print axioms Tcrm.Places.C162_stations_partial
#print axioms Tcrm.Places.C162_same_id_fails
#print axioms Tcrm.Places.C162_locations
#print axioms Tcrm.Places.C162_later_file_fails
#print axioms Tcrm.Places.C162_csv_partial
#print axioms Tcrm.Places.C162_one_line_fails
#print axioms Tcrm.Places.C162_names_fails
#print axioms Tcrm.LocalSeries.C163_completes
#print axioms Tcrm.LocalSeries.C163_series
#print axioms Tcrm.LocalSeries.C163_record
#print axioms Tcrm.LocalSeries.C163_tables
#print axioms Tcrm.LocalSeries.C163_input_kept
#print axioms Tcrm.LocalSeries.C163_others_kept
#print axioms Tcrm.LocalSeries.C163_error
#print axioms Tcrm.LocalSeries.C163_again
#print axioms Tcrm.LocalSeries.C163_no_field
#print axioms Tcrm.LocalSeries.C163_left_out_fails
#print axioms Tcrm.LocalSeries.C163_repeated_fails
#print axioms Tcrm.LocalSeries.C163_stopped_fails
#print axioms Tcrm.LocalSeries.C163_files
#print axioms Tcrm.EvalSave.C164_track_density
#print axioms Tcrm.EvalSave.C164_genesis
#print axioms Tcrm.EvalSave.C164_pressure
#print axioms Tcrm.EvalSave.C164_crossings_partial
#print axioms Tcrm.EvalSave.C164_incomplete
#print axioms Tcrm.EvalSave.C164_genesis_per_year_fails
#print axioms Tcrm.EvalSave.C164_percentile_fails
#print axioms Tcrm.EvalSave.C164_no_record_fails
#print axioms Tcrm.Folders.C165_nothing_lost
#print axioms Tcrm.Folders.C165_succeeds_iff
#print axioms Tcrm.Folders.C165_created
#print axioms Tcrm.Folders.C165_restart
#print axioms Tcrm.Folders.C165_again
#print axioms Tcrm.Folders.C165_tcrm_folders
#print axioms Tcrm.Folders.C165_tcevent_folders
#print axioms Tcrm.Folders.C165_tcrm_processes
#print axioms Tcrm.Folders.C165_tcevent_race_fails
#print axioms Tcrm.ShapeTable.C166_observed
#print axioms Tcrm.ShapeTable.C166_simulated
#print axioms Tcrm.ShapeTable.C166_events
#print axioms Tcrm.ShapeTable.C166_simulated_events_fails
#print axioms Tcrm.ShapeTable.C166_no_category_fails
#print axioms Tcrm.ShapeTable.C166_old_tables_fails
#print axioms Tcrm.DateText.C167_read_back
#print axioms Tcrm.DateText.C167_sound
#print axioms Tcrm.DateText.C167_column
#print axioms Tcrm.DateText.C167_each
#print axioms Tcrm.DateText.C167_short_year
#print axioms Tcrm.DateText.C167_loader_partial
#print axioms Tcrm.DateText.C167_default
#print axioms Tcrm.DateText.C167_leading_zero_fails
#print axioms Tcrm.DateText.C167_processing_fails
#print axioms Tcrm.DateText.C167_format
#print axioms Tcrm.DateText.C168_file_fails
#print axioms Tcrm.DateText.C168_dictionary_partial
#print axioms Tcrm.DateText.C168_hours_partial
#print axioms Tcrm.DateText.C168_no_years_partial
#print axioms Tcrm.DateText.C168_february_fails
#print axioms Tcrm.DateText.C168_leap_day_fails
#print axioms Tcrm.DateText.C168_date_column
#print axioms Tcrm.LandMask.C169_storm
#print axioms Tcrm.LandMask.C169_observation
#print axioms Tcrm.LandMask.C169_coefficients
#print axioms Tcrm.LandMask.C169_track
#print axioms Tcrm.LandMask.C169_time_over_land
#print axioms Tcrm.LandMask.C169_beyond_fails
#print axioms Tcrm.LandMask.C169_nearest_fails
#print axioms Tcrm.LandMask.C169_mirrored_fails
#print axioms Tcrm.Windfield.C17_regional_extremes
#print axioms Tcrm.Windfield.C17_whenever
#print axioms Tcrm.Windfield.C17_full_domain
#print axioms Tcrm.ScaleBar.C170_end_right
#print axioms Tcrm.ScaleBar.C170_end_found
#print axioms Tcrm.ScaleBar.C170_endless
#print axioms Tcrm.ScaleBar.C170_nice_length
#print axioms Tcrm.ScaleBar.C170_bar
#print axioms Tcrm.ScaleBar.C170_map
#print axioms Tcrm.ScaleBar.C170_narrow_fails
#print axioms Tcrm.StatPlots.C171_lag
#print axioms Tcrm.StatPlots.C171_within
#print axioms Tcrm.StatPlots.C171_starts
#print axioms Tcrm.StatPlots.C171_pressure_fails
#print axioms Tcrm.StatPlots.C171_minimum
#print axioms Tcrm.StatPlots.C171_minimum_partial
#print axioms Tcrm.StatPlots.C171_last_fails
#print axioms Tcrm.StatPlots.C171_steps
#print axioms Tcrm.StatPlots.C171_lon_partial
#print axioms Tcrm.StatPlots.C171_west_fails
#print axioms Tcrm.StatPlots.C171_step_labels_fails
#print axioms Tcrm.StatPlots.C171_step_pairs
#print axioms Tcrm.StatPlots.C171_bearing_fails
#print axioms Tcrm.StatPlots.C171_anomalies
#print axioms Tcrm.Progress.C172_completion
#print axioms Tcrm.Progress.C172_percentage
#print axioms Tcrm.Progress.C172_silent
#print axioms Tcrm.Progress.C172_off_fails
#print axioms Tcrm.Progress.C172_behind
#print axioms Tcrm.Progress.C172_throttle
#print axioms Tcrm.Progress.C172_end_fails
#print axioms Tcrm.MultTiles.C173_collect
#print axioms Tcrm.MultTiles.C173_tiles_partial
#print axioms Tcrm.MultTiles.C173_prefix_fails
#print axioms Tcrm.MultTiles.C173_folders
#print axioms Tcrm.MultTiles.C173_missing_fails
#print axioms Tcrm.MultTiles.C173_written
#print axioms Tcrm.MultTiles.C173_s3
#print axioms Tcrm.MultTiles.C173_s3_fails
#print axioms Tcrm.Figures.C174_layout
#print axioms Tcrm.Figures.C174_empty
#print axioms Tcrm.Figures.C174_graticule
#print axioms Tcrm.Figures.C174_small_fails
#print axioms Tcrm.Figures.C174_curve_shown
#print axioms Tcrm.Figures.C174_upper_fails
#print axioms Tcrm.Figures.C174_range
#print axioms Tcrm.Figures.C174_range_fails
#print axioms Tcrm.Figures.C174_colours
#print axioms Tcrm.Figures.C174_colours_error
#print axioms Tcrm.Impact.C175_each
#print axioms Tcrm.Impact.C175_failure
#print axioms Tcrm.Impact.C175_event_files
#print axioms Tcrm.Impact.C175_wanted
#print axioms Tcrm.Impact.C175_section_fails
#print axioms Tcrm.Impact.C175_exposure_fails
#print axioms Tcrm.Impact.C175_without_actions
#print axioms Tcrm.AkimaC.C176_succeeds
#print axioms Tcrm.AkimaC.C176_memory
#print axioms Tcrm.AkimaC.C176_observed
#print axioms Tcrm.AkimaC.C176_agrees
#print axioms Tcrm.AkimaC.C176_akima
#print axioms Tcrm.AkimaC.C176_tracks
#print axioms Tcrm.AkimaC.C176_turn_fails
#print axioms Tcrm.AkimaC.C176_order_fails
#print axioms Tcrm.AkimaC.C176_outside_fails
#print axioms Tcrm.LowRes.C177_outputs_partial
#print axioms Tcrm.LowRes.C177_inputs_kept
#print axioms Tcrm.LowRes.C177_distinct
#print axioms Tcrm.LowRes.C177_nothing_fails
#print axioms Tcrm.LowRes.C177_folder_fails
#print axioms Tcrm.LowRes.C177_grid_fails
#print axioms Tcrm.LowRes.C177_complete
#print axioms Tcrm.LowRes.C177_missing
#print axioms Tcrm.SizeTable.C178_moments
#print axioms Tcrm.SizeTable.C178_mean_partial
#print axioms Tcrm.SizeTable.C178_columns
#print axioms Tcrm.SizeTable.C178_table
#print axioms Tcrm.SizeTable.C178_sampled
#print axioms Tcrm.SizeTable.C178_total
#print axioms Tcrm.SizeTable.C178_mean_fails
#print axioms Tcrm.SizeTable.C178_deviation_fails
#print axioms Tcrm.SimRates.C179_landfall_partial
#print axioms Tcrm.SimRates.C179_total
#print axioms Tcrm.SimRates.C179_landfall_fails
#print axioms Tcrm.SimRates.C179_percentiles
#print axioms Tcrm.SimRates.C179_rate_fails
#print axioms Tcrm.SimRates.C179_order
#print axioms Tcrm.SimRates.C179_crossings
#print axioms Tcrm.SimRates.C179_crossing_area
#print axioms Tcrm.SimRates.C179_pressure
#print axioms Tcrm.SimRates.C179_minimum_partial
#print axioms Tcrm.Windfield.C18_window_inside
#print axioms Tcrm.Windfield.C18_shapes_match_iff
#print axioms Tcrm.Windfield.C18_shapes_partial
#print axioms Tcrm.Windfield.C18_displacement
#print axioms Tcrm.Windfield.C18_reach
#print axioms Tcrm.Windfield.C18_full_domain
#print axioms Tcrm.Windfield.C18_mismatch_fails
#print axioms Tcrm.Windfield.C18_full_domain_zero_limit_fails
#print axioms Tcrm.Windfield.C18_fine_resolution_fails
#print axioms Tcrm.Windfield.C18_coarse
#print axioms Tcrm.WindTable.C180_entries
#print axioms Tcrm.WindTable.C180_run
#print axioms Tcrm.WindTable.C180_same
#print axioms Tcrm.WindTable.C180_axes
#print axioms Tcrm.Binary64.C181_nearest
#print axioms Tcrm.Binary64.C181_hundredths_partial
#print axioms Tcrm.Binary64.C181_quarters_partial
#print axioms Tcrm.Binary64.C181_margins_fail
#print axioms Tcrm.Binary64.C181_resolutions_fail
#print axioms Tcrm.Binary64.C181_succeeds_partial
#print axioms Tcrm.Binary64.C181_fails
#print axioms Tcrm.Binary64.C181_margin_fails
#print axioms Tcrm.Binary64.C181_full_fails
#print axioms Tcrm.Binary64.C181_exact
#print axioms Tcrm.Binary64.C182_region_partial
#print axioms Tcrm.Binary64.C182_quarters_partial
#print axioms Tcrm.Binary64.C182_run_partial
#print axioms Tcrm.Binary64.C182_row_fails
#print axioms Tcrm.Binary64.C182_shift_fails
#print axioms Tcrm.Times64.C183_exact_partial
#print axioms Tcrm.Times64.C183_error
#print axioms Tcrm.Times64.C183_total
#print axioms Tcrm.Times64.C183_pressure_fails
#print axioms Tcrm.DispatchFail.C184_finite_partial
#print axioms Tcrm.DispatchFail.C184_stored_partial
#print axioms Tcrm.DispatchFail.C184_never_ends_fails
#print axioms Tcrm.DispatchFail.C184_stuck_fails
#print axioms Tcrm.DispatchFail.C184_regular_partial
#print axioms Tcrm.DispatchFail.C184_single_partial
#print axioms Tcrm.Fuzzy.C185_nextafter
#print axioms Tcrm.Fuzzy.C185_between
#print axioms Tcrm.Fuzzy.C185_between_exclusive
#print axioms Tcrm.Fuzzy.C185_inside
#print axioms Tcrm.Fuzzy.C185_extract
#print axioms Tcrm.Fuzzy.C185_start_inside
#print axioms Tcrm.Template.C186_replace
#print axioms Tcrm.Template.C186_missing
#print axioms Tcrm.Template.C186_missing_files
#print axioms Tcrm.Template.C186_in_place_fails
#print axioms Tcrm.Template.C186_backslash_fails
#print axioms Tcrm.Template.C186_again_fails
#print axioms Tcrm.Template.C186_number_fails
#print axioms Tcrm.Template.C186_control_fails
#print axioms Tcrm.Arange64.C187_exact_partial
#print axioms Tcrm.Arange64.C187_cells_partial
#print axioms Tcrm.Arange64.C187_points
#print axioms Tcrm.Arange64.C187_step_down_fails
#print axioms Tcrm.Arange64.C187_origin_grid_partial
#print axioms Tcrm.Arange64.C187_origin_grid_fails
#print axioms Tcrm.Arange64.C187_fine_cells_fail
#print axioms Tcrm.TrackDates.C188_times
#print axioms Tcrm.TrackDates.C188_whole
#print axioms Tcrm.TrackDates.C188_date
#print axioms Tcrm.TrackDates.C188_grid_partial
#print axioms Tcrm.TrackDates.C188_minute_fails
#print axioms Tcrm.TrackDates.C188_event_fails
#print axioms Tcrm.LandfallSummary.C189_shown
#print axioms Tcrm.LandfallSummary.C189_totals_partial
#print axioms Tcrm.LandfallSummary.C189_categories
#print axioms Tcrm.LandfallSummary.C189_order
#print axioms Tcrm.LandfallSummary.C189_numbers_fails
#print axioms Tcrm.LandfallSummary.C189_refused
#print axioms Tcrm.LandfallSummary.C189_mean_partial
#print axioms Tcrm.LandfallSummary.C189_mean_fails
#print axioms Tcrm.Windfield.C19_extremes_partial
#print axioms Tcrm.Windfield.C19_components_of_first_track
#print axioms Tcrm.Windfield.C19_counterexample
#print axioms Tcrm.QuantilePlot.C190_points
#print axioms Tcrm.QuantilePlot.C190_ascending
#print axioms Tcrm.QuantilePlot.C190_diagonal
#print axioms Tcrm.QuantilePlot.C190_lines
#print axioms Tcrm.QuantilePlot.C190_made
#print axioms Tcrm.QuantilePlot.C190_bounds
#print axioms Tcrm.CurveRuns.C191_first_partial
#print axioms Tcrm.CurveRuns.C191_never_fails
#print axioms Tcrm.CurveRuns.C191_stale_fails
#print axioms Tcrm.CurveRuns.C191_again
#print axioms Tcrm.CurveRuns.C191_again_fails
#print axioms Tcrm.CurveRuns.C191_many_fails
#print axioms Tcrm.Boundary.C192_solution
#print axioms Tcrm.Boundary.C192_unique
#print axioms Tcrm.Boundary.C192_surface
#print axioms Tcrm.Boundary.C192_components
#print axioms Tcrm.Boundary.C192_translation
#print axioms Tcrm.Compiled.C192_holland
#print axioms Tcrm.Compiled.C192_steep_fails
#print axioms Tcrm.Vorticity.C193_slope
#print axioms Tcrm.Vorticity.C193_missing
#print axioms Tcrm.Vorticity.C193_mean_value
#print axioms Tcrm.Vorticity.C193_quadratic
#print axioms Tcrm.Vorticity.C193_quadratic_error
#print axioms Tcrm.Vorticity.C193_shear
#print axioms Tcrm.Vorticity.C193_vorticity
#print axioms Tcrm.Vorticity.C193_rotation
#print axioms Tcrm.Vorticity.C193_rotation_error
#print axioms Tcrm.Vorticity.C193_poles
#print axioms Tcrm.Vorticity.C193_holes
#print axioms Tcrm.Vorticity.C193_absolute
#print axioms Tcrm.Windfield.C194_points_partial
#print axioms Tcrm.Windfield.C194_grid
#print axioms Tcrm.Windfield.C194_extra_fails
#print axioms Tcrm.Windfield.C194_shift_fails
#print axioms Tcrm.Timing.C195_shows
#print axioms Tcrm.Timing.C195_distinct
#print axioms Tcrm.Timing.C195_transparent
#print axioms Tcrm.Timing.C195_bar
#print axioms Tcrm.Timing.C195_remaining
#print axioms Tcrm.Timing.C195_ends
#print axioms Tcrm.Registry.C196_discovered
#print axioms Tcrm.Registry.C196_selected
#print axioms Tcrm.Registry.C196_name
#print axioms Tcrm.Registry.C196_arguments
#print axioms Tcrm.Registry.C196_values
#print axioms Tcrm.Registry.C196_profiles
#print axioms Tcrm.Registry.C196_package
#print axioms Tcrm.Autoreg.C197_noise
#print axioms Tcrm.Autoreg.C197_mean_partial
#print axioms Tcrm.Autoreg.C197_lag_partial
#print axioms Tcrm.Autoreg.C197_spread
#print axioms Tcrm.Autoreg.C197_spread_fails
#print axioms Tcrm.Autoreg.C197_limit_fails
#print axioms Tcrm.Autoreg.C197_speed
#print axioms Tcrm.Autoreg.C197_speed_first
#print axioms Tcrm.Draws.C198_value
#print axioms Tcrm.Draws.C198_origin
#print axioms Tcrm.Draws.C198_value_share
#print axioms Tcrm.Draws.C198_origin_share
#print axioms Tcrm.Draws.C198_hour
#print axioms Tcrm.Draws.C198_year
#print axioms Tcrm.Draws.C198_pressure_partial
#print axioms Tcrm.Draws.C198_pressure_fails_without_lower
#print axioms Tcrm.SizeDraw.C199_ends
#print axioms Tcrm.SizeDraw.C199_law_partial
#print axioms Tcrm.SizeDraw.C199_radius
#print axioms Tcrm.SizeDraw.C199_variate
#print axioms Tcrm.SizeDraw.C199_mean_fails
#print axioms Tcrm.GustFiles.C20_names_injective
#print axioms Tcrm.GustFiles.C20_pattern_selects_year
#print axioms Tcrm.GustFiles.C20_evolution_not_selected
#print axioms Tcrm.Unbiased.C200_three
#print axioms Tcrm.Unbiased.C200_all
#print axioms Tcrm.Unbiased.C200_fit
#print axioms Tcrm.Counts.C201_joint
#print axioms Tcrm.Counts.C201_total
#print axioms Tcrm.Counts.C201_drawn
#print axioms Tcrm.Counts.C201_frequency
#print axioms Tcrm.Counts.C201_refused
#print axioms Tcrm.Counts.C201_seeds
#print axioms Tcrm.Variates.C202_logistic
#print axioms Tcrm.Variates.C202_lognormal
#print axioms Tcrm.Variates.C202_zero_fails
#print axioms Tcrm.Variates.C202_refused
#print axioms Tcrm.Unbiased.C203_three
#print axioms Tcrm.Unbiased.C203_all
#print axioms Tcrm.Unbiased.C203_fit_partial
#print axioms Tcrm.Unbiased.C203_reported
#print axioms Tcrm.Unbiased.C203_skewed_fails
#print axioms Tcrm.Annual.C204_probability
#print axioms Tcrm.Annual.C204_frequency
#print axioms Tcrm.Annual.C205_moments
#print axioms Tcrm.Annual.C205_fit_partial
#print axioms Tcrm.Annual.C205_reported
#print axioms Tcrm.Annual.C205_skewed_fails
#print axioms Tcrm.TrackMap.C206_lines
#print axioms Tcrm.TrackMap.C206_one_label
#print axioms Tcrm.TrackMap.C206_missing_fails
#print axioms Tcrm.TrackMap.C206_all
#print axioms Tcrm.TrackMap.C206_error
#print axioms Tcrm.DataDownload.C207_fetched_partial
#print axioms Tcrm.DataDownload.C207_unknown
#print axioms Tcrm.DataDownload.C207_succeeds
#print axioms Tcrm.DataDownload.C207_again
#print axioms Tcrm.DataDownload.C207_blank_fails
#print axioms Tcrm.StatRange.C208_max_partial
#print axioms Tcrm.StatRange.C208_min_partial
#print axioms Tcrm.StatRange.C208_rejects
#print axioms Tcrm.StatRange.C208_accepts
#print axioms Tcrm.StatRange.C208_tenths_fail
#print axioms Tcrm.StatRange.C208_small_step_fails
#print axioms Tcrm.RingFile.C209_rings_partial
#print axioms Tcrm.RingFile.C209_open_fails
#print axioms Tcrm.GustFiles.C21_annual_maxima
#print axioms Tcrm.GustFiles.C21_listing_order
#print axioms Tcrm.GustFiles.C21_rounding
#print axioms Tcrm.RawTiles.C210_files
#print axioms Tcrm.RawTiles.C210_complete_partial
#print axioms Tcrm.RawTiles.C210_silent_fails
#print axioms Tcrm.RawTiles.C210_ends
#print axioms Tcrm.RawTiles.C210_names
#print axioms Tcrm.Windfield.C211_points_partial
#print axioms Tcrm.Windfield.C211_grid
#print axioms Tcrm.Windfield.C211_covers
#print axioms Tcrm.Windfield.C211_extra_fails
#print axioms Tcrm.RemoteRun.C212_uploaded
#print axioms Tcrm.RemoteRun.C212_local
#print axioms Tcrm.RemoteRun.C212_interrupted
#print axioms Tcrm.RemoteRun.C212_succeeds
#print axioms Tcrm.RemoteRun.C212_directory_fails
#print axioms Tcrm.RemoteRun.C212_directories
#print axioms Tcrm.MultTiles.C213_merged
#print axioms Tcrm.MultTiles.C213_first_partial
#print axioms Tcrm.MultTiles.C213_earlier_fails
#print axioms Tcrm.MultTiles.C213_folders
#print axioms Tcrm.MultTiles.C213_missing_fails
#print axioms Tcrm.SeasonalPressure.C214_mean
#print axioms Tcrm.SeasonalPressure.C214_set
#print axioms Tcrm.SeasonalPressure.C214_between
#print axioms Tcrm.SeasonalPressure.C214_refused
#print axioms Tcrm.SeasonalPressure.C214_month_zero_fails
#print axioms Tcrm.SeasonalPressure.C214_no_month_fails
#print axioms Tcrm.SeasonalPressure.C214_sample
#print axioms Tcrm.SeasonalPressure.C214_sample_partial
#print axioms Tcrm.SeasonalPressure.C214_edge_fails
#print axioms Tcrm.SeasonalPressure.C214_nearest_fails
#print axioms Tcrm.SeasonalPressure.C214_file
#print axioms Tcrm.SeasonalPressure.C214_file_fails
#print axioms Tcrm.Database.C215_events
#print axioms Tcrm.Database.C215_order
#print axioms Tcrm.Database.C215_bad_file
#print axioms Tcrm.Database.C215_committed_partial
#print axioms Tcrm.Database.C215_again_fails
#print axioms Tcrm.Database.C215_leftover_fails
#print axioms Tcrm.Database.C215_listing
#print axioms Tcrm.LandDecay.C216_sea
#print axioms Tcrm.LandDecay.C216_below
#print axioms Tcrm.LandDecay.C216_fills
#print axioms Tcrm.LandDecay.C216_longer
#print axioms Tcrm.LandDecay.C216_intense
#print axioms Tcrm.LandDecay.C216_run
#print axioms Tcrm.LandDecay.C216_twice
#print axioms Tcrm.LandDecay.C216_deepens_fails
#print axioms Tcrm.Jtwc.C217_latitude
#print axioms Tcrm.Jtwc.C217_longitude
#print axioms Tcrm.Jtwc.C217_refused
#print axioms Tcrm.Jtwc.C217_hemispheres
#print axioms Tcrm.Jtwc.C217_longitude_partial
#print axioms Tcrm.Jtwc.C217_longitude_fails_at_zero_west
#print axioms Tcrm.AnnualProb.C218_poisson
#print axioms Tcrm.AnnualProb.C218_bounds
#print axioms Tcrm.AnnualProb.C218_decreasing
#print axioms Tcrm.AnnualProb.C218_years
#print axioms Tcrm.AnnualProb.C218_inverse
#print axioms Tcrm.AnnualProb.C218_refused
#print axioms Tcrm.UtmBand.C219_band
#print axioms Tcrm.UtmBand.C219_outside
#print axioms Tcrm.UtmBand.C219_hemisphere_partial
#print axioms Tcrm.UtmBand.C219_hemisphere_fails
#print axioms Tcrm.GustFiles.C22_restart_partial
#print axioms Tcrm.GustFiles.C22_same_as_uninterrupted_partial
#print axioms Tcrm.GustFiles.C22_kept_gusts_correct_partial
#print axioms Tcrm.GustFiles.C22_finished_not_rewritten
#print axioms Tcrm.GustFiles.C22_torn_file_fails
#print axioms Tcrm.GustFiles.C22_local_wind_fails
#print axioms Tcrm.GustFiles.C22_grid_limit_fails
#print axioms Tcrm.GustFiles.C22_counts_as_complete
#print axioms Tcrm.Evd.C23_reported_only_if_usable
#print axioms Tcrm.Evd.C23_unusable_is_missing
#print axioms Tcrm.Evd.C23_levels_increase
#print axioms Tcrm.Evd.C23_levels_bounded
#print axioms Tcrm.Evd.C23_levels_reported
#print axioms Tcrm.Evd.C23_record_order
#print axioms Tcrm.Evd.C23_skewed_missing
#print axioms Tcrm.Evd.C23_usable_reported
#print axioms Tcrm.Evd.C24_period_of_level
#print axioms Tcrm.Evd.C24_level_of_period
#print axioms Tcrm.Evd.C24_levels_increase
#print axioms Tcrm.Evd.C24_above_threshold_iff
#print axioms Tcrm.Evd.C24_bounded
#print axioms Tcrm.Evd.C24_fit_levels
#print axioms Tcrm.Evd.C24_fit_missing
#print axioms Tcrm.Evd.C25_intervals_increase
#print axioms Tcrm.Evd.C25_level_of_rank
#print axioms Tcrm.Evd.C25_levels_increase
#print axioms Tcrm.Config.C26_one_handle
#print axioms Tcrm.Config.C26_first_file_wins
#print axioms Tcrm.Config.C26_later_reads_ignored
#print axioms Tcrm.Config.C26_absent_path
#print axioms Tcrm.Config.C26_unopenable_fails
#print axioms Tcrm.Config.C26_set_seen
#print axioms Tcrm.Config.C26_reset_defaults
#print axioms Tcrm.Config.C26_stale_handle_counterexample
#print axioms Tcrm.Config.C27_default_if_missing
#print axioms Tcrm.Config.C27_default_ignored_if_present
#print axioms Tcrm.Config.C27_typed_partial
#print axioms Tcrm.Config.C27_values
#print axioms Tcrm.Config.C27_list_default_fails
#print axioms Tcrm.Config.C27_dict_default_untyped
#print axioms Tcrm.Config.C27_list_roundtrip
#print axioms Tcrm.Config.C27_empty_list_fails
#print axioms Tcrm.Config.C27_set_items
#print axioms Tcrm.Config.C27_capitals_fail
#print axioms Tcrm.Config.C27_truth_values_differ
#print axioms Tcrm.Config.C27_text_option
#print axioms Tcrm.Config.C27_switches
#print axioms Tcrm.Config.C27_switches_fail
#print axioms Tcrm.Config.C27_stored
#print axioms Tcrm.Register.C28_set_get
#print axioms Tcrm.Register.C28_already_iff
#print axioms Tcrm.Register.C28_load_ok_iff
#print axioms Tcrm.Register.C28_register_is_map
#print axioms Tcrm.Register.C28_separator_fails
#print axioms Tcrm.Register.C28_return_code
#print axioms Tcrm.Geometry.C29_point_on_both
#print axioms Tcrm.Geometry.C29_no_common_point
#print axioms Tcrm.Geometry.C29_intersection_iff
#print axioms Tcrm.Geometry.C29_coincident_iff
#print axioms Tcrm.Geometry.C29_degenerate_coincident
#print axioms Tcrm.Geometry.C29_parallel_iff
#print axioms Tcrm.Geometry.C30_points
#print axioms Tcrm.Geometry.C30_all_points
#print axioms Tcrm.Geometry.C30_outside
#print axioms Tcrm.Geometry.C30_inside
#print axioms Tcrm.Geometry.C30_tangent_fails
#print axioms Tcrm.Geometry.C30_tangent_counterexample
#print axioms Tcrm.Geometry.C31_crossing_number
#print axioms Tcrm.Geometry.C31_no_false_land_partial
#print axioms Tcrm.Geometry.C31_tests_agree_partial
#print axioms Tcrm.Geometry.C31_outside_box
#print axioms Tcrm.Geometry.C31_convex_partial
#print axioms Tcrm.Geometry.C31_triangle_inside_partial
#print axioms Tcrm.Geometry.C31_triangle_outside_partial
#print axioms Tcrm.Geometry.C31_clockwise_fails
#print axioms Tcrm.Geometry.C31_counterexample
#print axioms Tcrm.TrackFiles.C32_round_trip
#print axioms Tcrm.TrackFiles.C32_round_trip_any_order
#print axioms Tcrm.TrackFiles.C32_names_out_of_order
#print axioms Tcrm.TrackFiles.C32_names_distinct
#print axioms Tcrm.TrackFiles.C32_empty
#print axioms Tcrm.TrackFiles.C32_units_fail
#print axioms Tcrm.TrackFiles.C32_fraction_dropped
#print axioms Tcrm.TrackFiles.C32_identifier
#print axioms Tcrm.Grid.C33_within_range
#print axioms Tcrm.Grid.C33_ascending
#print axioms Tcrm.Grid.C33_descending_fails
#print axioms Tcrm.Grid.C33_find_nearest
#print axioms Tcrm.DataProc.C34_contains_region
#print axioms Tcrm.DataProc.C34_contains_until_last_inside_partial
#print axioms Tcrm.DataProc.C34_whole_degrees_and_tight
#print axioms Tcrm.DataProc.C34_after_leaving_not_covered
#print axioms Tcrm.DataProc.C34_no_data
#print axioms Tcrm.DataProc.C35_mean_without_last_year_partial
#print axioms Tcrm.DataProc.C35_last_year_ignored
#print axioms Tcrm.DataProc.C35_one_year_fails
#print axioms Tcrm.DataProc.C35_one_track_fails
#print axioms Tcrm.DataProc.C36_extract
#print axioms Tcrm.DataProc.C37_markers
#print axioms Tcrm.DataProc.C37_columns
#print axioms Tcrm.DataProc.C37_split
#print axioms Tcrm.DataProc.C37_split_identifiers
#print axioms Tcrm.DataProc.C37_leading_records_lost
#print axioms Tcrm.DataProc.C38_jump_partial
#print axioms Tcrm.DataProc.C38_west_south_fails
#print axioms Tcrm.DataProc.C38_greenwich_fails
#print axioms Tcrm.Rates.C39_pressure_screened
#print axioms Tcrm.Rates.C39_speed_screened
#print axioms Tcrm.Rates.C39_no_rate_at_start
#print axioms Tcrm.Rates.C39_bearing_rate
#print axioms Tcrm.Rates.C39_pressure_rate
#print axioms Tcrm.Rates.C39_speed_rate
#print axioms Tcrm.Rates.C39_rates_kept
#print axioms Tcrm.Rates.C39_rmax_rate_partial
#print axioms Tcrm.Rates.C39_rmax_rate_fails
#print axioms Tcrm.Rates.C39_negative_wind_fails
#print axioms Tcrm.Rates.C39_wind
#print axioms Tcrm.Rates.C39_bearing_rate_direct
#print axioms Tcrm.Rates.C39_rmax_rate_missing
#print axioms Tcrm.Dates.C40_elapsed
#print axioms Tcrm.Dates.C40_elapsed_unbound
#print axioms Tcrm.Dates.C40_elapsed_jump_fails
#print axioms Tcrm.Dates.C40_day_partial
#print axioms Tcrm.Dates.C40_day_before_1900_fails
#print axioms Tcrm.Dates.C40_day_century_fails
#print axioms Tcrm.Dates.C40_no_such_day
#print axioms Tcrm.DynArray.C41_like_list
#print axioms Tcrm.DynArray.C41_append
#print axioms Tcrm.DynArray.C41_room
#print axioms Tcrm.Units.C42_same
#print axioms Tcrm.Units.C42_right_partial
#print axioms Tcrm.Units.C42_round_trip_partial
#print axioms Tcrm.Units.C42_temperature_partial
#print axioms Tcrm.Units.C42_unknown_fails
#print axioms Tcrm.Units.C42_no_unit_fails
#print axioms Tcrm.Units.C42_kelvin_fails
#print axioms Tcrm.Units.C42_argument_changed
#print axioms Tcrm.Humidity.C43_rh_range
#print axioms Tcrm.Humidity.C43_dew_point_rh
#print axioms Tcrm.Humidity.C43_dew_point_round_trip
#print axioms Tcrm.Humidity.C43_round_trips
#print axioms Tcrm.Humidity.C43_round_trip_ratio
#print axioms Tcrm.Humidity.C43_rh_dew_point
#print axioms Tcrm.Humidity.C43_dry_air_fails
#print axioms Tcrm.Humidity.C43_wet_bulb_fails
#print axioms Tcrm.Humidity.C43_specific_fails
#print axioms Tcrm.Humidity.C43_air_pressure
#print axioms Tcrm.Humidity.C43_relative_humidity
#print axioms Tcrm.Humidity.C43_dew_point_value
#print axioms Tcrm.Humidity.C43_wet_bulb_pressure
#print axioms Tcrm.Humidity.C43_wet_bulb_dew_point
#print axioms Tcrm.Humidity.C43_globe
#print axioms Tcrm.Angles.C44_range
#print axioms Tcrm.Angles.C44_inverse
#print axioms Tcrm.Angles.C44_direction
#print axioms Tcrm.Evd.C45_sample_moments
#print axioms Tcrm.Evd.C45_too_few
#print axioms Tcrm.Evd.C45_second_nonneg
#print axioms Tcrm.Evd.C45_second_pos_iff
#print axioms Tcrm.Evd.C45_skewness_bound
#print axioms Tcrm.Evd.C45_shift_scale
#print axioms Tcrm.Evd.C45_fast_equals_general
#print axioms Tcrm.Evd.C45_pareto_recovered
#print axioms Tcrm.Evd.C45_two_moments
#print axioms Tcrm.Evd.C45_invalid
#print axioms Tcrm.Vmax.C46_error
#print axioms Tcrm.Vmax.C46_inverse_partial
#print axioms Tcrm.Vmax.C46_inverse'
#print axioms Tcrm.Vmax.C46_atkinson_fails
#print axioms Tcrm.Vmax.C46_atkinson_nan
#print axioms Tcrm.Vmax.C46_monotone
#print axioms Tcrm.Vmax.C46_exists
#print axioms Tcrm.Profiles.C46_models_agree
#print axioms Tcrm.Profiles.C47_hemisphere
#print axioms Tcrm.Profiles.C47_jelesnianski
#print axioms Tcrm.Profiles.C47_rankine
#print axioms Tcrm.Profiles.C47_core
#print axioms Tcrm.Profiles.C47_outer
#print axioms Tcrm.Profiles.C47_holland_step_fails
#print axioms Tcrm.Profiles.C47_holland_exceeds_fails
#print axioms Tcrm.Profiles.C47_outer_bound_partial
#print axioms Tcrm.Profiles.C47_holland_bound_partial
#print axioms Tcrm.Profiles.C47_second
#print axioms Tcrm.Profiles.C47_powell_beta
#print axioms Tcrm.Profiles.C47_double_fails
#print axioms Tcrm.Profiles.C47_second_weak
#print axioms Tcrm.Profiles.C47_double_core_partial
#print axioms Tcrm.Profiles.C47_double_curvature_fails
#print axioms Tcrm.Profiles.C47_newHolland_fails
#print axioms Tcrm.Profiles.C47_coriolis
#print axioms Tcrm.Profiles.C47_newHolland_partial
#print axioms Tcrm.Pressure.C48_bounds
#print axioms Tcrm.Pressure.C48_increasing
#print axioms Tcrm.Pressure.C48_limits
#print axioms Tcrm.Pressure.C48_decreasing
#print axioms Tcrm.Pressure.C48_willoughby_fails
#print axioms Tcrm.Pressure.C48_deficits
#print axioms Tcrm.Pressure.C48_double_bounds
#print axioms Tcrm.Pressure.C48_double_increasing
#print axioms Tcrm.Pressure.C48_powell_increasing
#print axioms Tcrm.Pressure.C48_willoughby_partial
#print axioms Tcrm.Pressure.C48_powell_parameter
#print axioms Tcrm.Boundary.C49_mcconochie_inflow
#print axioms Tcrm.Boundary.C49_factor_bounds
#print axioms Tcrm.Boundary.C49_factor_antitone
#print axioms Tcrm.Boundary.C49_factor_partial
#print axioms Tcrm.Boundary.C49_factor_fails
#print axioms Tcrm.Boundary.C49_surface_wind_fails
#print axioms Tcrm.Boundary.C49_hubbert_inflow_fails
#print axioms Tcrm.Boundary.C49_components
#print axioms Tcrm.Multipliers.C50_inside
#print axioms Tcrm.Multipliers.C50_cover
#print axioms Tcrm.Multipliers.C50_count
#print axioms Tcrm.Multipliers.C50_once
#print axioms Tcrm.Multipliers.C50_result
#print axioms Tcrm.Multipliers.C50_bounded
#print axioms Tcrm.Multipliers.C50_stuck_partial
#print axioms Tcrm.Multipliers.C50_one_thread_partial
#print axioms Tcrm.Multipliers.C50_hangs_fails
#print axioms Tcrm.Multipliers.C51_bearing
#print axioms Tcrm.Multipliers.C51_unique
#print axioms Tcrm.Multipliers.C51_selects
#print axioms Tcrm.Multipliers.C51_bands
#print axioms Tcrm.Multipliers.C51_rounded_fails
#print axioms Tcrm.Database.C52_exceeding
#print axioms Tcrm.Database.C52_exceeding_unknown
#print axioms Tcrm.Database.C52_records
#print axioms Tcrm.Database.C52_levels
#print axioms Tcrm.Database.C52_passage_wind
#print axioms Tcrm.Database.C52_passage_partial
#print axioms Tcrm.Database.C52_passage_fails
#print axioms Tcrm.Database.C52_return_partial
#print axioms Tcrm.Database.C52_return_none_fails
#print axioms Tcrm.TrackGen.C53_several_simulations_partial
#print axioms Tcrm.TrackGen.C53_single_simulation_fails
#print axioms Tcrm.TrackGen.C53_event_sets
#print axioms Tcrm.TrackGen.C54_genesis_pressure_partial
#print axioms Tcrm.TrackGen.C54_generated_tracks
#print axioms Tcrm.TrackGen.C54_wraps_around
#print axioms Tcrm.TrackGen.C55_size_distribution_unusable
#print axioms Tcrm.TrackGen.C55_prescribed_radius_unusable
#print axioms Tcrm.GustFiles.C56_only_last_track_kept
#print axioms Tcrm.GustFiles.C56_counterexample
#print axioms Tcrm.GustFiles.C56_single_track_partial
#print axioms Tcrm.GustFiles.C57_listing_order
#print axioms Tcrm.GustFiles.C57_records_partial
#print axioms Tcrm.GustFiles.C57_fails_with_other_files
#print axioms Tcrm.Evd.C58_moments_reproduced
#print axioms Tcrm.Evd.C58_quantile
#print axioms Tcrm.Evd.C58_distribution
#print axioms Tcrm.Evd.C58_shape
#print axioms Tcrm.Evd.C58_gumbel
#print axioms Tcrm.Evd.C58_record
#print axioms Tcrm.Evd.C58_all
#print axioms Tcrm.Evd.C59_full_period_iff
#print axioms Tcrm.Evd.C59_counterexample
#print axioms Tcrm.Evd.C60_zero_cell_fails
#print axioms Tcrm.Evd.C60_missing_partial
#print axioms Tcrm.Evd.C61_fails
#print axioms Tcrm.Register.C62_interrupted_write_fails
#print axioms Tcrm.Register.C62_next_record_fails
#print axioms Tcrm.Register.C62_complete_write_partial
#print axioms Tcrm.Register.C62_written
#print axioms Tcrm.Register.C63_deleted
#print axioms Tcrm.Register.C63_reports_failure
#print axioms Tcrm.Register.C63_entries_stay
#print axioms Tcrm.Geometry.C64_line_always_intersects
#print axioms Tcrm.Geometry.C64_line_points_partial
#print axioms Tcrm.Geometry.C64_last_edge_missed
#print axioms Tcrm.Geometry.C64_circle_counterexample
#print axioms Tcrm.Geometry.C64_circle_partial
#print axioms Tcrm.Geometry.C64_circle_meets_partial
#print axioms Tcrm.Geometry.C64_circle_points
#print axioms Tcrm.Geometry.C64_circle_list_partial
#print axioms Tcrm.Geometry.C64_examined
#print axioms Tcrm.Geometry.C64_examined_closed
#print axioms Tcrm.TrackFiles.C65_tracks
#print axioms Tcrm.TrackFiles.C65_no_record_lost_partial
#print axioms Tcrm.TrackFiles.C65_number_zero_lost
#print axioms Tcrm.TrackFiles.C65_single_record_fails
#print axioms Tcrm.TrackFiles.C65_bad_line_empties
#print axioms Tcrm.TrackFiles.C66_load_path
#print axioms Tcrm.TrackFiles.C66_no_directory
#print axioms Tcrm.TrackFiles.C66_stops_at_error
#print axioms Tcrm.TrackFiles.C67_other_columns_partial
#print axioms Tcrm.TrackFiles.C67_second_save_fails
#print axioms Tcrm.Grid.C68_first_not_below_partial
#print axioms Tcrm.Grid.C68_at_grid_point_partial
#print axioms Tcrm.Grid.C68_not_nearest
#print axioms Tcrm.Grid.C68_mirrored
#print axioms Tcrm.Grid.C68_ascii_fails
#print axioms Tcrm.Grid.C68_west_fails
#print axioms Tcrm.Rates.C69_initial
#print axioms Tcrm.Rates.C69_not_initial
#print axioms Tcrm.Rates.C69_partition
#print axioms Tcrm.Rates.C69_values
#print axioms Tcrm.Dates.C70_clock_partial
#print axioms Tcrm.Dates.C70_after_midnight_fails
#print axioms Tcrm.Dates.C71_steps_partial
#print axioms Tcrm.Dates.C71_whole_hours
#print axioms Tcrm.Dates.C71_short_steps_fail
#print axioms Tcrm.Dates.C72_extremes
#print axioms Tcrm.Dates.C72_poci
#print axioms Tcrm.Dates.C72_missing_pressure_fails
#print axioms Tcrm.Dates.C72_poci_maxsize
#print axioms Tcrm.Humidity.C73_wet_bulb
#print axioms Tcrm.Profiles.C74_core_partial
#print axioms Tcrm.Profiles.C74_outer_fails
#print axioms Tcrm.Profiles.C74_jelesnianski_fails
#print axioms Tcrm.Profiles.C74_jelesnianski_size
#print axioms Tcrm.Profiles.C74_rankine_fails
#print axioms Tcrm.Profiles.C74_double_outer_fails
#print axioms Tcrm.Profiles.C74_double_core_fails
#print axioms Tcrm.Profiles.C74_rankine_outer
#print axioms Tcrm.Profiles.C74_rankine_outer_fails
#print axioms Tcrm.Compiled.C75_velocity
#print axioms Tcrm.Compiled.C75_velocity_agrees
#print axioms Tcrm.Compiled.C75_equator_fails
#print axioms Tcrm.Compiled.C75_vorticity_partial
#print axioms Tcrm.Compiled.C75_vorticity_fails
#print axioms Tcrm.Compiled.C75_kepert
#print axioms Tcrm.Compiled.C75_kepert_agrees
#print axioms Tcrm.Compiled.C75_distance
#print axioms Tcrm.Boundary.C76_kepert_mirror
#print axioms Tcrm.Boundary.C76_kepert_speed
#print axioms Tcrm.Boundary.C76_mcconochie
#print axioms Tcrm.Boundary.C76_hubbert_fails
#print axioms Tcrm.Boundary.C76_angle_fails
#print axioms Tcrm.Boundary.C76_profiles_mirror
#print axioms Tcrm.Boundary.C76_vorticity_mirror
#print axioms Tcrm.Boundary.C76_rankine_vorticity_fails
#print axioms Tcrm.Boundary.C76_double_mirror_fails
#print axioms Tcrm.Boundary.C76_kepert_field
#print axioms Tcrm.Boundary.C76_mcconochie_field
#print axioms Tcrm.Boundary.C76_hubbert_field_fails
#print axioms Tcrm.Selection.C77_usable_partial
#print axioms Tcrm.Selection.C77_unusable_fails
#print axioms Tcrm.Selection.C77_exactly
#print axioms Tcrm.Pressure.C78_powell_fails
#print axioms Tcrm.Pressure.C78_willoughby_fails
#print axioms Tcrm.Pressure.C78_double_partial
#print axioms Tcrm.Multipliers.C79_files_partial
#print axioms Tcrm.Multipliers.C79_direct_fails
#print axioms Tcrm.MultiplierFiles.C80_product_partial
#print axioms Tcrm.Multipliers.C80_filled
#print axioms Tcrm.MultiplierFiles.C80_missing_fails
#print axioms Tcrm.MultiplierFiles.C81_segments
#print axioms Tcrm.MultiplierFiles.C81_refused
#print axioms Tcrm.MultiplierFiles.C81_directory
#print axioms Tcrm.MultiplierFiles.C82_intersection
#print axioms Tcrm.MultiplierFiles.C82_given
#print axioms Tcrm.MultiplierFiles.C82_image_partial
#print axioms Tcrm.MultiplierFiles.C82_south_up_fails
#print axioms Tcrm.MultiplierFiles.C82_disjoint_fails
#print axioms Tcrm.Database.C83_first_partial
#print axioms Tcrm.Database.C83_again_fails
#print axioms Tcrm.Database.C83_twice_fails
#print axioms Tcrm.Database.C83_stale_fails
#print axioms Tcrm.Database.C84_same
#print axioms Tcrm.Database.C84_distinct
#print axioms Tcrm.Database.C84_other_fails
#print axioms Tcrm.Database.C84_interrupted_fails
#print axioms Tcrm.Database.C85_inside_partial
#print axioms Tcrm.Database.C85_west_fails
#print axioms Tcrm.Stations.C86_records
#print axioms Tcrm.Stations.C86_total
#print axioms Tcrm.Stations.C86_tables
#print axioms Tcrm.Stations.C86_files
#print axioms Tcrm.Stations.C86_same_id_fails
#print axioms Tcrm.Stations.C86_minimum_fails
#print axioms Tcrm.Stations.C86_west_fails
#print axioms Tcrm.Stations.C87_upper
#print axioms Tcrm.Stations.C87_grid_point_partial
#print axioms Tcrm.Stations.C87_between_fails
#print axioms Tcrm.Stations.C88_single_partial
#print axioms Tcrm.Stations.C88_last_writer
#print axioms Tcrm.Stations.C88_parallel_fails
#print axioms Tcrm.Stations.C88_restart_fails
#print axioms Tcrm.Stations.C89_between_partial
#print axioms Tcrm.Stations.C89_direction_fails
#print axioms Tcrm.Stations.C89_jump_fails
#print axioms Tcrm.Stations.C89_uniform
#print axioms Tcrm.Stations.C89_bearing
#print axioms Tcrm.Foliation.C90_file_partial
#print axioms Tcrm.Foliation.C90_labels_fail
#print axioms Tcrm.Foliation.C90_inside
#print axioms Tcrm.Foliation.C90_axis
#print axioms Tcrm.Foliation.C90_axis_refused
#print axioms Tcrm.Akima.C91_succeeds
#print axioms Tcrm.Akima.C91_observed
#print axioms Tcrm.Akima.C91_line
#print axioms Tcrm.Akima.C91_units
#print axioms Tcrm.Akima.C91_smooth
#print axioms Tcrm.Akima.C91_range_fails
#print axioms Tcrm.Akima.C91_akima
#print axioms Tcrm.TrackInterp.C92_times_partial
#print axioms Tcrm.TrackInterp.C92_uniform_partial
#print axioms Tcrm.TrackInterp.C92_total
#print axioms Tcrm.TrackInterp.C92_parse
#print axioms Tcrm.TrackInterp.C92_start_fails
#print axioms Tcrm.TrackInterp.C92_step_fails
#print axioms Tcrm.TrackInterp.C92_seconds_fails
#print axioms Tcrm.TrackInterp.C93_lines
#print axioms Tcrm.TrackInterp.C93_observed
#print axioms Tcrm.TrackInterp.C93_meridian_fails
#print axioms Tcrm.TrackInterp.C94_speed_partial
#print axioms Tcrm.TrackInterp.C94_last
#print axioms Tcrm.TrackInterp.C94_speed_fails
#print axioms Tcrm.TrackInterp.C94_single
#print axioms Tcrm.TrackInterp.C95_pressure_partial
#print axioms Tcrm.TrackInterp.C95_wind_partial
#print axioms Tcrm.TrackInterp.C95_few
#print axioms Tcrm.TrackInterp.C95_one_none
#print axioms Tcrm.TrackInterp.C95_last_fails
#print axioms Tcrm.TrackInterp.C95_wind_one_none
#print axioms Tcrm.TrackInterp.C95_wind_few
#print axioms Tcrm.TrackInterp.C95_few_fails
#print axioms Tcrm.Sphere.C96_destination
#print axioms Tcrm.Sphere.C96_distance
#print axioms Tcrm.Sphere.C96_bearing
#print axioms Tcrm.Sphere.C96_turns
#print axioms Tcrm.Sphere.C96_range
#print axioms Tcrm.Sphere.C96_legs
#print axioms Tcrm.Sphere.C96_reach
#print axioms Tcrm.Sphere.C96_pole_fails
#print axioms Tcrm.Sphere.C97_grid
#print axioms Tcrm.Sphere.C97_metric
#print axioms Tcrm.Sphere.C97_distGC
#print axioms Tcrm.Sphere.C98_displacement
#print axioms Tcrm.Sphere.C98_range
#print axioms Tcrm.Sphere.C98_injective
#print axioms Tcrm.Sphere.C98_legs
#print axioms Tcrm.Sphere.C98_meridian
#print axioms Tcrm.Sphere.C98_reverse_fails
#print axioms Tcrm.Sphere.C98_dateline_fails
#print axioms Tcrm.Sphere.C98_roundtrip_fails
#print axioms Tcrm.Sphere.C99_shape_fails
#print axioms Tcrm.Sphere.C99_value_fails
#print axioms Tcrm.Sphere.C99_one_row
