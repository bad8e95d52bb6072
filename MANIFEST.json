{
 "claims": [
  {
   "property": "C01",
   "status": "proved",
   "theorems": [
    "Tcrm.Tiles.C01_tiles_partition",
    "Tcrm.Tiles.C01_grid_error_iff"
   ],
   "note": "Axis coordinates are integers in the model (any ordered unit); the tiling is index arithmetic."
  },
  {
   "property": "C02",
   "status": "proved",
   "theorems": [
    "Tcrm.Dispatch.C02_every_run_is_finite",
    "Tcrm.Dispatch.C02_no_deadlock",
    "Tcrm.Dispatch.C02_every_tile_once",
    "Tcrm.Hazard.C02_parallel_output_equals_serial",
    "Tcrm.Dispatch.C02_database_runs",
    "Tcrm.Dispatch.C02_wrong_tag_deadlocks"
   ],
   "note": "All schedules of an asynchronous message-passing model; MPI delivery guarantees are assumed, the per-tile calculation is an arbitrary non-raising function."
  },
  {
   "property": "C03",
   "status": "proved",
   "theorems": [
    "Tcrm.Balanced.C03_item_goes_to_one_rank",
    "Tcrm.Balanced.C03_rank_items",
    "Tcrm.Balanced.C03_partition",
    "Tcrm.Balanced.C03_tracks_shared"
   ],
   "note": "Includes the file/track sharing of the wind-field stage for differing directory orders."
  },
  {
   "property": "C04",
   "status": "partial",
   "theorems": [
    "Tcrm.TrackGen.C04_split_partial",
    "Tcrm.TrackGen.C04_first_simulation_partial",
    "Tcrm.TrackGen.C04_split_changes_tracks"
   ],
   "note": "The property is false of the code (C04_split_changes_tracks: sizes come from the global numpy generator, which is not re-seeded per simulation). Proved: it holds if that generator's variates do not depend on history, and for the first simulation of each rank."
  },
  {
   "property": "C05",
   "status": "proved",
   "theorems": [
    "Tcrm.Cdf.C05_cdf_is_distribution_function",
    "Tcrm.Cdf.C05_scale_invariant",
    "Tcrm.Cdf.C05_zero_density",
    "Tcrm.Cdf.C05_error_iff"
   ],
   "note": "Exact arithmetic; a grid whose first two points coincide is excluded (the code then returns all zeros)."
  },
  {
   "property": "C06",
   "status": "proved",
   "theorems": [
    "Tcrm.Cdf.C06_quantile",
    "Tcrm.Cdf.C06_index_error_iff",
    "Tcrm.Cdf.C06_monotone",
    "Tcrm.Cdf.C06_positive_probability",
    "Tcrm.Cdf.C06_zero_variate_selects_first",
    "Tcrm.Cdf.C06_generateSamples"
   ],
   "note": "searchsorted is modelled by its contract. The boundary u = 0, outside the property, is shown to select the first entry."
  },
  {
   "property": "C07",
   "status": "proved",
   "theorems": [
    "Tcrm.Cdf.C07_origin_in_support",
    "Tcrm.Cdf.C07_zero_variate_counterexample"
   ],
   "note": "Exactly the stated range (0,1]; the counterexample shows it cannot be extended to u = 0."
  },
  {
   "property": "C08",
   "status": "proved",
   "theorems": [
    "Tcrm.Cdf.C08_cdf2d",
    "Tcrm.Cdf.C08_zero_total_and_errors"
   ],
   "note": "Exact arithmetic."
  },
  {
   "property": "C09",
   "status": "partial",
   "theorems": [
    "Tcrm.Cells.C09_cell_number_partial",
    "Tcrm.Cells.C09_same_number_iff_same_cell_partial",
    "Tcrm.Cells.C09_valid_iff",
    "Tcrm.Cells.C09_straddling_meridian_fails",
    "Tcrm.Cells.C09_straddling_equator_fails",
    "Tcrm.Cells.C09_non_dividing_cell_size_fails",
    "Tcrm.Cells.C09_in_range"
   ],
   "note": "Proved for domains on one side of the meridian and of the equator; proved false for straddling domains (cells get the same number)."
  },
  {
   "property": "C10",
   "status": "partial",
   "theorems": [
    "Tcrm.Cells.C10_rejected_iff_rounded_point_outside",
    "Tcrm.Cells.C10_rejected_iff_outside_partial",
    "Tcrm.Cells.C10_fractional_limits_fail",
    "Tcrm.Cells.C10_zero_spacing"
   ],
   "note": "Proved for whole-degree limits; proved false for fractional limits; exact behaviour for all limits given."
  },
  {
   "property": "C100",
   "status": "partial",
   "theorems": [
    "Tcrm.Evaluate.C100_one_cell",
    "Tcrm.Evaluate.C100_cell",
    "Tcrm.Evaluate.C100_total",
    "Tcrm.Evaluate.C100_additive",
    "Tcrm.Evaluate.C100_order",
    "Tcrm.Evaluate.C100_genesis",
    "Tcrm.Evaluate.C100_genesis_le",
    "Tcrm.Evaluate.C100_edges",
    "Tcrm.Evaluate.C100_domain_fails"
   ],
   "note": "Counts, totals, additivity and order are proved for the grid of edges; np.histogram2d is modelled by its documentation. The grid covers the domain if the spacing divides the extent (and is at least 0.1); otherwise positions inside the domain beyond the last edge are in no cell (C100_domain_fails). Density maps by kernel estimation are not modelled."
  },
  {
   "property": "C101",
   "status": "partial",
   "theorems": [
    "Tcrm.Evaluate.C101_historic_partial",
    "Tcrm.Evaluate.C101_historic_fails",
    "Tcrm.Evaluate.C101_synthetic",
    "Tcrm.Evaluate.C101_empty"
   ],
   "note": "Refuted for the historical record: the divisor is the last year minus the first, so that every non-zero rate is too large and a record of one year has no rates. The theorem for simulations (in one process) is complete."
  },
  {
   "property": "C102",
   "status": "partial",
   "theorems": [
    "Tcrm.Evaluate.C102_cell",
    "Tcrm.Evaluate.C102_grid",
    "Tcrm.Evaluate.C102_same_cells_partial",
    "Tcrm.Evaluate.C102_edge_fails",
    "Tcrm.Evaluate.C102_minimum"
   ],
   "note": "The statistics of a cell and the distribution of minima are complete. Records on the last edge are in no cell, although the density maps count them there (C102_edge_fails). numpy's mean, median and histogram are modelled by their documentation."
  },
  {
   "property": "C103",
   "status": "partial",
   "theorems": [
    "Tcrm.Evaluate.C103_leg",
    "Tcrm.Evaluate.C103_crossings",
    "Tcrm.Evaluate.C103_directions",
    "Tcrm.Evaluate.C103_distribution",
    "Tcrm.Evaluate.C103_rate_fails",
    "Tcrm.Evaluate.C103_on_gate_fails"
   ],
   "note": "Legs are characterised completely. The columns are normalised to area one, so they are not numbers per year (C103_rate_fails), and a storm observed on the meridian is counted twice or, if it turns back, once in either direction (C103_on_gate_fails)."
  },
  {
   "property": "C104",
   "status": "partial",
   "theorems": [
    "Tcrm.Evaluate.C104_gates_partial",
    "Tcrm.Evaluate.C104_once",
    "Tcrm.Evaluate.C104_rates",
    "Tcrm.Evaluate.C104_last_gate_fails"
   ],
   "note": "All gates but the last two sides of the coast are characterised. Landfalls across these are never recorded (C104_last_gate_fails); without any landfall the rates are undefined (nan). Which positions are on land is C31."
  },
  {
   "property": "C105",
   "status": "partial",
   "theorems": [
    "Tcrm.Evaluate.C105_landfalls",
    "Tcrm.Evaluate.C105_direction",
    "Tcrm.Evaluate.C105_row",
    "Tcrm.Evaluate.C105_columns_fail",
    "Tcrm.Evaluate.C105_on_gate_fails",
    "Tcrm.Evaluate.C105_location_fails",
    "Tcrm.Evaluate.C105_category"
   ],
   "note": "Number, mean and minimum are complete. Refuted for the categories: the columns are shifted by one and category 5 is in none (C105_columns_fail); a record on the gate is missed; the version for locations raises as soon as a leg crosses an area. shapely's `crosses` is modelled for two segments in general position."
  },
  {
   "property": "C106",
   "status": "proved",
   "theorems": [
    "Tcrm.Evaluate.C106_percentile",
    "Tcrm.Evaluate.C106_monotone",
    "Tcrm.Evaluate.C106_summary"
   ],
   "note": "scipy's scoreatpercentile is modelled with its interpolation on the sorted values."
  },
  {
   "property": "C107",
   "status": "partial",
   "theorems": [
    "Tcrm.Pipeline.C107_order_partial",
    "Tcrm.Pipeline.C107_once_partial",
    "Tcrm.Pipeline.C107_never_partial",
    "Tcrm.Pipeline.C107_progress_partial",
    "Tcrm.Pipeline.C107_terminates_partial",
    "Tcrm.Pipeline.C107_failure_blocks",
    "Tcrm.Pipeline.C107_failure_fails",
    "Tcrm.Pipeline.C107_failure_single_partial"
   ],
   "note": "Order, once-only, absence of deadlock and termination are proved for all schedules without failures, with the evaluation represented by its barriers (see C108 for several processes). Refuted for failures: the exception is logged and only that process ends; the others wait at the next barrier for ever (C107_failure_blocks, C107_failure_fails); a single process does end."
  },
  {
   "property": "C108",
   "status": "partial",
   "theorems": [
    "Tcrm.Pipeline.C108_crossing_fails",
    "Tcrm.Pipeline.C108_crossing_deadlock",
    "Tcrm.Pipeline.C108_files_partial",
    "Tcrm.Pipeline.C108_files_fails",
    "Tcrm.Pipeline.C108_single_partial"
   ],
   "note": "Refuted: on two or more processes every run of the longitude crossings ends in a deadlock, and every evaluation fails with fewer files than workers. On a single process the main program with its evaluation always gets to its end. That results agree is not stated, since no run on several processes gets there."
  },
  {
   "property": "C109",
   "status": "partial",
   "theorems": [
    "Tcrm.Rerun.C109_model_partial",
    "Tcrm.Rerun.C109_format_fails",
    "Tcrm.Rerun.C109_age_fails",
    "Tcrm.Rerun.C109_plots_partial",
    "Tcrm.Rerun.C109_any_directory",
    "Tcrm.Rerun.C109_generation"
   ],
   "note": "Exactly characterised: calibration and start of the track generator get through iff the output format is txt, times are given as dates, and radii are in the input if wanted; plots need several years in addition. Refuted for netCDF output and for ages, where the run fails in data processing."
  },
  {
   "property": "C11",
   "status": "proved",
   "theorems": [
    "Tcrm.Extract.C11_sea_sample",
    "Tcrm.Extract.C11_land_sample",
    "Tcrm.Extract.C11_distribution_sample",
    "Tcrm.Extract.C11_never_fails_if_domain_suffices",
    "Tcrm.Extract.C11_invalid_cell",
    "Tcrm.Extract.C11_northern_edge_never_used"
   ],
   "note": "Termination is 'for all sufficiently large fuel'. The window test is half-open to the north, so an observation exactly on the northern edge is never used although the cell numbering accepts it (C11_northern_edge_never_used)."
  },
  {
   "property": "C110",
   "status": "partial",
   "theorems": [
    "Tcrm.Rerun.C110_calibration_partial",
    "Tcrm.Rerun.C110_radii_fails",
    "Tcrm.Rerun.C110_input_radii_fails",
    "Tcrm.Rerun.C110_frequency_fails",
    "Tcrm.Rerun.C110_tracks",
    "Tcrm.Rerun.C110_tracks_partial",
    "Tcrm.Rerun.C110_winds_fail",
    "Tcrm.Rerun.C110_winds_partial"
   ],
   "note": "Holds for calibration up to the radii; for tracks if there were no more simulations before; for wind fields in an empty directory. Refuted otherwise: each exception has its own theorem."
  },
  {
   "property": "C111",
   "status": "partial",
   "theorems": [
    "Tcrm.DataProc.C111_whole_tracks_partial",
    "Tcrm.DataProc.C111_numbered_partial",
    "Tcrm.DataProc.C111_merge_fails"
   ],
   "note": "Holds if every track is of one season, which is the case where tracks are told apart by season and number. Refuted otherwise: the remaining records of a track lose their marker and join the track before."
  },
  {
   "property": "C112",
   "status": "proved",
   "theorems": [
    "Tcrm.DataProc.C112_years",
    "Tcrm.DataProc.C112_one_year",
    "Tcrm.DataProc.C112_days",
    "Tcrm.DataProc.C112_written"
   ],
   "note": "Years and days are whole numbers. Nothing is written if all records are of one year. The last bin of days holds days 365 and 366; after the correction for leap years (C40) day 366 does not occur."
  },
  {
   "property": "C113",
   "status": "proved",
   "theorems": [
    "Tcrm.Kde.C113_plain_iff",
    "Tcrm.Kde.C113_plain_range",
    "Tcrm.Kde.C113_angular_iff",
    "Tcrm.Kde.C113_angular_range",
    "Tcrm.Kde.C113_periodic_iff",
    "Tcrm.Kde.C113_periodic_range",
    "Tcrm.Kde.C113_periodic_uneven",
    "Tcrm.Kde.C113_distribution",
    "Tcrm.Kde.C113_cells",
    "Tcrm.Kde.C113_sample"
   ],
   "note": "The density estimator of the library is an arbitrary non-negative function; arithmetic is exact. Periods that are a whole number of steps (the only use: 365 days, quarter-day steps); otherwise the table begins before day 1 (C113_periodic_uneven). A cell whose speeds or pressures differ by no more than a step ends the whole calibration. The bandwidth computed is only checked; the library chooses its own."
  },
  {
   "property": "C114",
   "status": "partial",
   "theorems": [
    "Tcrm.Kde.C114_days_partial",
    "Tcrm.Kde.C114_days_table_partial",
    "Tcrm.Kde.C114_infinite_kernel_fails",
    "Tcrm.Kde.C114_not_closed_fails",
    "Tcrm.Kde.C114_bearings_fail",
    "Tcrm.Kde.C114_bearings_table_fails",
    "Tcrm.Kde.C114_genesis_days_fail",
    "Tcrm.Kde.C114_circular_fails",
    "Tcrm.Kde.C114_genesis_days_table"
   ],
   "note": "Proved for days with kernels of finite width up to the period: three times the density of the repeated data equals the density with any number of repetitions, and the density column of the table written is that density. Refuted for kernels of infinite width (the default Gaussian): the density falls short of that of the circle and does not close at the end of the year. Refuted for bearings (for the estimator and for the table written), for generateGenesisDateCDF and for circularKDE."
  },
  {
   "property": "C115",
   "status": "partial",
   "theorems": [
    "Tcrm.Kde.C115_orientation",
    "Tcrm.Kde.C115_points",
    "Tcrm.Kde.C115_origin",
    "Tcrm.Kde.C115_genesis_partial",
    "Tcrm.Kde.C115_other_cell_fails",
    "Tcrm.Kde.C115_no_cell_fails"
   ],
   "note": "Orientation, points and origins are proved for every domain wider than a step; that an origin is given a cell with tables, for all domains of whole degrees and cells. In domains on one side of the equator and of Greenwich it is the cell where the origin lies; in others it may be another one (C115_other_cell_fails), and if the western limit is no whole degree an origin can have no cell at all (C115_no_cell_fails). Coordinates are stored as 32-bit numbers in the code and exact here."
  },
  {
   "property": "C116",
   "status": "proved",
   "theorems": [
    "Tcrm.HazardRun.C116_value",
    "Tcrm.HazardRun.C116_no_error",
    "Tcrm.HazardRun.C116_event_value"
   ],
   "note": "Annual maxima: the composition of C01 (tiles), C02 (processes), C21 (annual maxima) and the fit of C23; the files of a year are recognised by name (C20), other files must not match. Other methods: the fit to all winds in ascending order; there must be no other files (C57). The winds are the numbers stored in the files; for the effect of storing them see C21_rounding and C124."
  },
  {
   "property": "C117",
   "status": "proved",
   "theorems": [
    "Tcrm.HazardRun.C117_gev",
    "Tcrm.HazardRun.C117_gpd",
    "Tcrm.HazardRun.C117_gpd_fit"
   ],
   "note": "The distribution functions are written in the statement. The Pareto parameters are those of the library; its fit is not modelled."
  },
  {
   "property": "C118",
   "status": "partial",
   "theorems": [
    "Tcrm.HazardRun.C118_gev_partial",
    "Tcrm.HazardRun.C118_other_methods_fail",
    "Tcrm.HazardRun.C118_empirical_fails"
   ],
   "note": "Holds for annual maxima. For the Pareto, empirical and power-law methods the years per simulation have no influence, although the number of events of a simulation is drawn for them: the periods are too short by that factor."
  },
  {
   "property": "C119",
   "status": "partial",
   "theorems": [
    "Tcrm.HazardRun.C119_other_names",
    "Tcrm.HazardRun.C119_gev_partial",
    "Tcrm.HazardRun.C119_ignored_fails",
    "Tcrm.HazardRun.C119_zero_winds_fail",
    "Tcrm.HazardRun.C119_no_wind"
   ],
   "note": "Holds for annual maxima. The empirical and power-law methods do not use the number; the Pareto method counts events without wind at the place."
  },
  {
   "property": "C12",
   "status": "proved",
   "theorems": [
    "Tcrm.Acf.C12_lag_is_sum",
    "Tcrm.Acf.C12_acf_bounds",
    "Tcrm.Acf.C12_coefficients"
   ],
   "note": "Real arithmetic; a stronger (strict) bound is proved."
  },
  {
   "property": "C120",
   "status": "partial",
   "theorems": [
    "Tcrm.HazardRun.C120_power_partial",
    "Tcrm.HazardRun.C120_unchecked_fails",
    "Tcrm.HazardRun.C120_fitted_days"
   ],
   "note": "Proved exactly for answers of the library with factor and exponent of opposite signs (limit: positive factor); nothing in the code checks the answer, and for the same signs the levels fall."
  },
  {
   "property": "C121",
   "status": "proved",
   "theorems": [
    "Tcrm.WindRun.C121_near_is_chosen",
    "Tcrm.WindRun.C121_others_have_no_wind",
    "Tcrm.WindRun.C121_files",
    "Tcrm.WindRun.C121_file_rows"
   ],
   "note": "Bounded domain, margin and resolution in whole hundredths of a degree with the step dividing twice the margin (as in C17); directory empty at the beginning."
  },
  {
   "property": "C122",
   "status": "partial",
   "theorems": [
    "Tcrm.WindRun.C122_inside_partial",
    "Tcrm.WindRun.C122_outside_fails"
   ],
   "note": "Holds for positions inside the region. Positions outside it do not count, however near (timesInRegion has no margin): a storm passing any distance outside the boundary leaves zero wind in the whole region."
  },
  {
   "property": "C123",
   "status": "partial",
   "theorems": [
    "Tcrm.WindRun.C123_first_track_partial",
    "Tcrm.WindRun.C123_single_track_partial",
    "Tcrm.WindRun.C123_second_track_fails",
    "Tcrm.WindRun.C123_processes_fails"
   ],
   "note": "Holds for the first track of each process. Its domain is kept for all others: a track outside it gets zero wind, so the content of a file depends on the number of processes."
  },
  {
   "property": "C124",
   "status": "proved",
   "theorems": [
    "Tcrm.WindRun.C124_tracks_to_hazard",
    "Tcrm.WindRun.C124_tracks_to_hazard_stored",
    "Tcrm.WindRun.C124_tracks_to_hazard_events"
   ],
   "note": "For the tracks in the files of the wind-field stage, which begins with an empty directory. Rounding of the winds on storage (32-bit numbers) is covered by C124_tracks_to_hazard_stored and C124_tracks_to_hazard_events. The wind a position brings to a grid point is `contribution` (none for positions outside the region, C122)."
  },
  {
   "property": "C125",
   "status": "partial",
   "theorems": [
    "Tcrm.TrackGen.C125_filling_partial",
    "Tcrm.TrackGen.C125_weakens_partial",
    "Tcrm.TrackGen.C125_second_landfall_fails",
    "Tcrm.TrackGen.C125_negative_rate_fails"
   ],
   "note": "The law holds with the total time over land since genesis: the time over land is not reset at sea, so a second landfall begins with the decay of the first. The rate can be negative for the variates that occur; then the cyclone deepens over land."
  },
  {
   "property": "C126",
   "status": "proved",
   "theorems": [
    "Tcrm.TrackGen.C126_not_too_deep",
    "Tcrm.TrackGen.C126_floor"
   ],
   "note": "Exact numbers."
  },
  {
   "property": "C127",
   "status": "partial",
   "theorems": [
    "Tcrm.Climate.C127_rows_from_south_partial",
    "Tcrm.Climate.C127_rows_from_north_partial",
    "Tcrm.Climate.C127_longitude_partial",
    "Tcrm.Climate.C127_observed",
    "Tcrm.Climate.C127_hemisphere_fails",
    "Tcrm.Climate.C127_wrapping_fails",
    "Tcrm.Climate.C127_west_fails"
   ],
   "note": "True of longitudes. The theorems say exactly which day and latitude are read instead: the next day, a latitude up to two rows too far north, and with rows from the north the mirrored latitude. Interpolation is taken to be exact, so the errors are those of the coordinates alone."
  },
  {
   "property": "C128",
   "status": "proved",
   "theorems": [
    "Tcrm.LoadTrack.C128_load",
    "Tcrm.LoadTrack.C128_speed"
   ],
   "note": "Markers are 0 or 1 and the first is 1. Jumps are as the program defines them (C38), hours rounded as it does (C71); elapsed time is C40. Exact numbers."
  },
  {
   "property": "C129",
   "status": "proved",
   "theorems": [
    "Tcrm.LoadTrack.C129_nonneg",
    "Tcrm.LoadTrack.C129_missing",
    "Tcrm.LoadTrack.C129_positive",
    "Tcrm.LoadTrack.C129_no_deficit",
    "Tcrm.LoadTrack.C129_deeper_is_stronger",
    "Tcrm.LoadTrack.C129_surplus_gives_wind",
    "Tcrm.LoadTrack.C129_formula"
   ],
   "note": "Within the ranges of the hypotheses: deficit up to 215 hPa (|latitude| ≤ 60) for positivity, surplus up to 25 hPa, deficit up to 150 hPa and speed up to 10 m/s for monotonicity. Far outside them (centre 90 hPa above the environment) the formula gives wind again, which is proved too."
  },
  {
   "property": "C13",
   "status": "proved",
   "theorems": [
    "Tcrm.TrackGen.C13_single_track",
    "Tcrm.TrackGen.C13_generated_tracks"
   ],
   "note": "Domain limits integer for the genesis point (the cell test uses floor/ceil)."
  },
  {
   "property": "C130",
   "status": "partial",
   "theorems": [
    "Tcrm.Shapes.C130_points",
    "Tcrm.Shapes.C130_segment_records",
    "Tcrm.Shapes.C130_segments_partial",
    "Tcrm.Shapes.C130_lines_partial",
    "Tcrm.Shapes.C130_category",
    "Tcrm.Shapes.C130_east_crossing_fails",
    "Tcrm.Shapes.C130_west_crossing_fails",
    "Tcrm.Shapes.C130_missing_pressure_fails"
   ],
   "note": "True of points, records and categories of known pressures, and of tracks that do not cross the meridian where longitudes wrap. An eastward crossing loses a position of the dissolved line, a westward crossing draws a line round the globe, and a missing pressure (0) becomes category 5."
  },
  {
   "property": "C131",
   "status": "partial",
   "theorems": [
    "Tcrm.Smooth.C131_within",
    "Tcrm.Smooth.C131_mean",
    "Tcrm.Smooth.C131_missing_cells_fails",
    "Tcrm.Smooth.C131_spread"
   ],
   "note": "True of complete maps. Missing cells enter with their fill value, so every value within the smoothing length of one is too low. A smoothing length of 0 (resolutions above one degree) gives NaN and is excluded by the division in the model."
  },
  {
   "property": "C132",
   "status": "partial",
   "theorems": [
    "Tcrm.TextFiles.C132_table_partial",
    "Tcrm.TextFiles.C132_column_partial",
    "Tcrm.TextFiles.C132_whole_partial",
    "Tcrm.TextFiles.C132_exact",
    "Tcrm.TextFiles.C132_one_row_fails",
    "Tcrm.TextFiles.C132_width",
    "Tcrm.TextFiles.C132_half"
   ],
   "note": "True of files with two rows or more and two columns or more (tables), and of one-column files of two or more entries. A file of one storm comes back without its first axis and taking its columns raises IndexError. Text is modelled character by character; exponents and binary rounding of numbers are not."
  },
  {
   "property": "C133",
   "status": "partial",
   "theorems": [
    "Tcrm.Plots.C133_points_partial",
    "Tcrm.Plots.C133_interval_partial",
    "Tcrm.Plots.C133_curve",
    "Tcrm.Plots.C133_years_fails",
    "Tcrm.Plots.C133_units_fails",
    "Tcrm.Plots.C133_kmh_fails"
   ],
   "note": "True of plots in m/s with one year per simulation. Other units convert the curve but not the points; with several years per simulation the periods are too short; the unit kmh changes the label only."
  },
  {
   "property": "C134",
   "status": "proved",
   "theorems": [
    "Tcrm.Plots.C134_levels",
    "Tcrm.Plots.C134_from_zero",
    "Tcrm.Plots.C134_narrow_range"
   ],
   "note": "Exact numbers; the refusal (IndexError) is stated as such. All callers in the program start from zero."
  },
  {
   "property": "C135",
   "status": "proved",
   "theorems": [
    "Tcrm.CellStats.C135_statistics",
    "Tcrm.CellStats.C135_map",
    "Tcrm.CellStats.C135_storm_partial",
    "Tcrm.CellStats.C135_single_cell_fails",
    "Tcrm.CellStats.C135_plot_without_first_cell",
    "Tcrm.CellStats.C135_other_grid_fails"
   ],
   "note": "Proved for every cell number of the grid; for the cell of a position within the limits of C09. Land statistics come from sea observations when the domain has too few over land, as documented. The axes of the file are not checked on loading, and a domain of one cell fails; both are proved. Exact numbers (the file is in single precision)."
  },
  {
   "property": "C136",
   "status": "proved",
   "theorems": [
    "Tcrm.Circular.C136_range",
    "Tcrm.Circular.C136_closest",
    "Tcrm.Circular.C136_turns",
    "Tcrm.Circular.C136_order",
    "Tcrm.Circular.C136_rotation",
    "Tcrm.Circular.C136_spread",
    "Tcrm.Circular.C136_units",
    "Tcrm.Circular.C136_variance"
   ],
   "note": "Real arithmetic. Limits other than the default 0 and 2π (the only ones a caller uses) are covered by C136_units and C136_variance."
  },
  {
   "property": "C137",
   "status": "partial",
   "theorems": [
    "Tcrm.Closest.C137_planar",
    "Tcrm.Closest.C137_never_short_partial",
    "Tcrm.Closest.C137_latitude_fails",
    "Tcrm.Closest.C137_greenwich_fails"
   ],
   "note": "Refuted: distances are measured in degrees in the plane and multiplied by 111.1251, so an east-west distance is overstated by 1/cos(latitude), and across Greenwich it is wrong. Proved: which rows there are and that each holds the planar minimum over the whole course; the true distance never exceeds the stored one by more than a millionth."
  },
  {
   "property": "C138",
   "status": "partial",
   "theorems": [
    "Tcrm.Event.C138_single_event_partial",
    "Tcrm.Event.C138_simulated_event_fails",
    "Tcrm.Event.C138_several_events_fails",
    "Tcrm.Event.C138_earlier_event_fails"
   ],
   "note": "Refuted: the map never appears for a TCRM track file, nor for a table of several events or a BoM file of one event, as the name of the wind field is guessed wrongly; after an earlier event in the same directory its wind field is mapped again. Proved for a table of one event in a new directory: the map has exactly the cells of the grid within the region, with the values of the wind field of the event. Interpolation of the track is C91 to C95, the wind field itself C17."
  },
  {
   "property": "C139",
   "status": "partial",
   "theorems": [
    "Tcrm.TextGrid.C139_export_partial",
    "Tcrm.TextGrid.C139_upside_down_fails",
    "Tcrm.TextGrid.C139_wind_fields_descend",
    "Tcrm.TextGrid.C139_rectangular_fails",
    "Tcrm.TextGrid.C139_overwrite_fails",
    "Tcrm.TextGrid.C139_read_back"
   ],
   "note": "Refuted: files with descending latitudes, which all wind fields are, export upside down; cells that are not square are placed wrongly; exporting over an existing file raises. Proved for ascending latitudes and square cells, with the round trip of writing and reading. Printed precision is a parameter."
  },
  {
   "property": "C14",
   "status": "proved",
   "theorems": [
    "Tcrm.TrackGen.C14_generateTracks",
    "Tcrm.TrackGen.C14_may_run_forever",
    "Tcrm.TrackGen.C14_rejected_only"
   ],
   "note": "Conditional on return, as stated; C14_may_run_forever shows that return is not guaranteed."
  },
  {
   "property": "C140",
   "status": "partial",
   "theorems": [
    "Tcrm.SeriesPlots.C140_own_plot_partial",
    "Tcrm.SeriesPlots.C140_image_name",
    "Tcrm.SeriesPlots.C140_other_files",
    "Tcrm.SeriesPlots.C140_same_image_fails",
    "Tcrm.SeriesPlots.C140_title_fails",
    "Tcrm.SeriesPlots.C140_short_series_fails"
   ],
   "note": "Refuted: removing the extension and the prefix removes sets of characters, so identifiers ending in c, s, v or a full stop share images and titles lose leading letters t and s; a series of fewer than two records ends the plotting of the rest. Proved for identifiers without such letters at their ends; the image name is characterised exactly."
  },
  {
   "property": "C141",
   "status": "partial",
   "theorems": [
    "Tcrm.Datasets.C141_complete_partial",
    "Tcrm.Datasets.C141_all_partial",
    "Tcrm.Datasets.C141_never_changed",
    "Tcrm.Datasets.C141_broken_transfer_fails",
    "Tcrm.Datasets.C141_interrupted_fails",
    "Tcrm.Datasets.C141_zip_fails",
    "Tcrm.Datasets.C141_same_name_fails",
    "Tcrm.Datasets.C141_stored_name"
   ],
   "note": "Refuted: a broken transfer, or a stop while writing, leaves a part of the dataset which all later attempts report as downloaded; zipped datasets are never unpacked, but an empty file counts as downloaded at the next attempt; two datasets whose addresses end alike share a file. Proved for all histories without stops in which the server is unreachable or sends everything; a file once there is never changed, in any history. The directory is assumed to be there and the size to be announced."
  },
  {
   "property": "C142",
   "status": "partial",
   "theorems": [
    "Tcrm.Defaults.C142_stage_iff",
    "Tcrm.Defaults.C142_accepts_iff_partial",
    "Tcrm.Defaults.C142_kernel_fails",
    "Tcrm.Defaults.C142_documented_kernels_fails",
    "Tcrm.Defaults.C142_years_fails",
    "Tcrm.Defaults.C142_database_fails",
    "Tcrm.Defaults.C142_source_fails"
   ],
   "note": "Refuted: the default kernel is unknown to the calibration, as are all kernels named in its documentation; the years per simulation, optional for the tracks, have no default for the hazard and the evaluation; the database and the hazard plots need a section without defaults; formats of input data do not take the defaults of section Source. Proved exactly which settings are required by each stage, for all files whose own settings fit. The names of kernels of statsmodels and conversions of decimal texts are a contract."
  },
  {
   "property": "C143",
   "status": "partial",
   "theorems": [
    "Tcrm.Startup.C143_begun",
    "Tcrm.Startup.C143_status_partial",
    "Tcrm.Startup.C143_status_fails",
    "Tcrm.Startup.C143_event_fails",
    "Tcrm.Startup.C143_missing",
    "Tcrm.Startup.C143_refused",
    "Tcrm.Startup.C143_logged",
    "Tcrm.Startup.C143_event_logged"
   ],
   "note": "Refuted: without --debug every exception is caught, logged and swallowed, so the status is zero. Proved: exactly which stages are begun for every combination of endings, and that with --debug the status is zero iff all wanted stages ended regularly. One process; the stages are abstract."
  },
  {
   "property": "C144",
   "status": "partial",
   "theorems": [
    "Tcrm.Startup.C144_event",
    "Tcrm.Startup.C144_main_partial",
    "Tcrm.Startup.C144_main_fails"
   ],
   "note": "Refuted for tcrm.py: it changes to its own directory before reading, so a relative name means a file there: another file of that name is used silently, or an existing file is not found. Proved for absolute names or when started in that directory, and always for tcevent.py."
  },
  {
   "property": "C145",
   "status": "proved",
   "theorems": [
    "Tcrm.Startup.C145_log_files",
    "Tcrm.Startup.C145_first",
    "Tcrm.Startup.C145_dated"
   ],
   "note": "Paths are texts; directories that cannot be created and symbolic links are not modelled. `os.path.splitext` is modelled on characters."
  },
  {
   "property": "C146",
   "status": "proved",
   "theorems": [
    "Tcrm.TrackGen.C146_single_track",
    "Tcrm.TrackGen.C146_determined"
   ],
   "note": "The model is stated in closed form (hours over land as a count, the coast as the last step at sea, the day modulo 365) in Spec/TrackModel. Exact arithmetic; exp, degrees, the movement on the sphere, the pressure field and the land mask are parameters; the code stores columns as float32."
  },
  {
   "property": "C147",
   "status": "proved",
   "theorems": [
    "Tcrm.TrackGen.C147_genesis",
    "Tcrm.TrackGen.C147_hour"
   ],
   "note": "Tables are lists of rows; the sampler of origins and the calendar are parameters (the sampler is C07). Without prescribed values, as in every run."
  },
  {
   "property": "C148",
   "status": "proved",
   "theorems": [
    "Tcrm.Evd.C148_skewness",
    "Tcrm.Evd.C148_record",
    "Tcrm.Evd.C148_below",
    "Tcrm.Evd.C148_all",
    "Tcrm.Evd.C148_record_all"
   ],
   "note": "L-moments of the distribution are integrals of its quantile function, shape 0 (Gumbel) included. The hypothesis that 1 + L-skewness is at least 2^-1000 holds for every double above -1; closer to -1 the starting value, which uses a rounded logarithm of two, is too far off. Exact reals."
  },
  {
   "property": "C149",
   "status": "proved",
   "theorems": [
    "Tcrm.Evd.C149_all_orders",
    "Tcrm.Evd.C149_when",
    "Tcrm.Evd.C149_definitions"
   ],
   "note": "Exact reals."
  },
  {
   "property": "C15",
   "status": "partial",
   "theorems": [
    "Tcrm.TrackGen.C15_prescribed_partial",
    "Tcrm.TrackGen.C15_one_environment_pressure",
    "Tcrm.TrackGen.C15_environment_pressure_leaks",
    "Tcrm.TrackGen.C15_zero_bearing_ignored"
   ],
   "note": "False of the code: the environmental pressure of the first candidate is used for all tracks of a call, and prescribed zeros are ignored. Proved: prescribed non-zero values are used by every track; all tracks of a call share one environmental pressure."
  },
  {
   "property": "C150",
   "status": "proved",
   "theorems": [
    "Tcrm.Ages.C150_clock",
    "Tcrm.Ages.C150_whole_minutes",
    "Tcrm.Ages.C150_steps",
    "Tcrm.Ages.C150_day"
   ],
   "note": "Minutes are truncated after rounding to microseconds, so a step may differ from the exact one by up to 31 minutes; for whole hours it is exact. Every storm is dated from 1 January, so that the day of the year is not that of the storm. The later extraction of statistics does not accept ages (C109)."
  },
  {
   "property": "C151",
   "status": "partial",
   "theorems": [
    "Tcrm.Ages.C151_time_partial",
    "Tcrm.Ages.C151_hours_fail",
    "Tcrm.Ages.C151_example"
   ],
   "note": "Refuted: the times are stored in single precision, whose spacing is an hour and a half for these day numbers, and without minutes. Exact at multiples of three hours, otherwise within half an hour of the hour."
  },
  {
   "property": "C152",
   "status": "partial",
   "theorems": [
    "Tcrm.Balance.C152_holland_partial",
    "Tcrm.Balance.C152_rmax_fails",
    "Tcrm.Balance.C152_equator_fails",
    "Tcrm.Balance.C152_double_partial",
    "Tcrm.Balance.C152_double_south_fails",
    "Tcrm.Balance.C152_double_default_fails"
   ],
   "note": "Holds for Holland and Schloemer outside the radius of maximum wind, and for the double vortex north of the equator outside its core when the same second radius is given to both. Refuted at the radius of maximum wind (cubic core), on the equator, for the double vortex south of the equator, and for its default second radius, which is 150 m for the wind and 250 km for the pressure. Willoughby and Powell use different parameters for wind and pressure (C78); the other profiles have no pressure (C77)."
  },
  {
   "property": "C153",
   "status": "partial",
   "theorems": [
    "Tcrm.NcGrid.C153_saved_partial",
    "Tcrm.NcGrid.C153_refused_partial",
    "Tcrm.NcGrid.C153_earlier_file_lost_fails",
    "Tcrm.NcGrid.C153_cannot_open",
    "Tcrm.NcGrid.C153_no_data",
    "Tcrm.NcGrid.C153_axis_twice"
   ],
   "note": "Round trip and refusals are proved. The last clause is refuted: the file is opened for writing, and emptied, before the arguments are checked. The netCDF library is taken to keep what is assigned; what it does with an array of another shape is a parameter; attributes other than the missing value, range and percentile are left out."
  },
  {
   "property": "C154",
   "status": "proved",
   "theorems": [
    "Tcrm.NcGrid.C154_map",
    "Tcrm.NcGrid.C154_empty_iff"
   ],
   "note": "For maps without smoothing; what smoothing does to missing places is C131. Numbers are those of the file (single precision, a parameter). Unit conversion is C42. Drawing is not modelled. The longitudes of a region east of 180 degrees are drawn 360 degrees less, the same meridians."
  },
  {
   "property": "C155",
   "status": "partial",
   "theorems": [
    "Tcrm.NcGrid.C155_file_partial",
    "Tcrm.NcGrid.C155_range_fails",
    "Tcrm.NcGrid.C155_limits_fails"
   ],
   "note": "Levels and parameters are proved. Refuted: with any missing level the stated range starts at the missing value (-9999); the limits are labelled 95 and 5 whatever range is configured; and without confidence limits (they cannot be calculated at all, C61) the file has limits of 0 everywhere."
  },
  {
   "property": "C156",
   "status": "partial",
   "theorems": [
    "Tcrm.WindDir.C156_grid_partial",
    "Tcrm.WindDir.C156_annual_maxima",
    "Tcrm.WindDir.C156_mirrored_fails",
    "Tcrm.WindDir.C156_raster_fails",
    "Tcrm.WindDir.C156_grid_cases",
    "Tcrm.WindDir.C156_extent_fails"
   ],
   "note": "Proved without optional output. Refuted with it: the grid is taken from the first file listed. If that is a file of all time steps, whose latitudes run the other way, every level is saved with the latitude of another place (C156_mirrored_fails); if it is a raster of local winds, the stage fails. The annual maxima themselves are not disturbed."
  },
  {
   "property": "C157",
   "status": "partial",
   "theorems": [
    "Tcrm.LocalWind.C157_fails_iff",
    "Tcrm.LocalWind.C157_configured_fails",
    "Tcrm.LocalWind.C157_values_fails",
    "Tcrm.LocalWind.C157_folder_partial",
    "Tcrm.LocalWind.C157_one_track_fails",
    "Tcrm.LocalWind.C157_all_tracks_partial",
    "Tcrm.LocalWind.C157_paths"
   ],
   "note": "Refuted: the configured file only gives the grid; the multipliers are read from the folder of the wind fields, into which nothing in the program puts them. Where they are not there the run ends with an exception after the first track. Proved: the product with the multiplier of the nearest direction in that folder. See C56 for the file written."
  },
  {
   "property": "C158",
   "status": "partial",
   "theorems": [
    "Tcrm.Storms.C158_units",
    "Tcrm.Storms.C158_maximum",
    "Tcrm.Storms.C158_no_storm",
    "Tcrm.Storms.C158_deeper",
    "Tcrm.Storms.C158_set_partial",
    "Tcrm.Storms.C158_zero_fails",
    "Tcrm.Storms.C158_radius_fails"
   ],
   "note": "Proved for units, maximum wind and its monotonicity. Refuted: a maximum wind of 0 that is set is ignored, and the radius, documented in km, is taken in metres, the unit of the distances. The maximum of Atkinson for a central pressure above 1010 hPa (a complex number in Python) is left out."
  },
  {
   "property": "C159",
   "status": "partial",
   "theorems": [
    "Tcrm.OriginCdf.C159_distribution_partial",
    "Tcrm.OriginCdf.C159_between_partial",
    "Tcrm.OriginCdf.C159_west_fails",
    "Tcrm.OriginCdf.C159_south_fails",
    "Tcrm.OriginCdf.C159_inverse_fails",
    "Tcrm.OriginCdf.C159_column_fails",
    "Tcrm.OriginCdf.C159_save_fails",
    "Tcrm.OriginCdf.C159_density_saved",
    "Tcrm.OriginCdf.C159_empty_column",
    "Tcrm.OriginCdf.C159_grid"
   ],
   "note": "Proved: north-east of the first grid point it is the probability of a strictly lower value, so between grid longitudes the distribution function. Refuted: at the first grid longitude or latitude and before it the value is 1 (index -1); at a sampled point it is below the variate that gave it; the conditional distribution is that of the column to the west; saving it raises after erasing an earlier file."
  },
  {
   "property": "C16",
   "status": "partial",
   "theorems": [
    "Tcrm.TrackGen.C16_keys_partial",
    "Tcrm.TrackGen.C16_neighbouring_seeds_share_streams"
   ],
   "note": "First half proved; the second half is false (key = seed + index)."
  },
  {
   "property": "C160",
   "status": "partial",
   "theorems": [
    "Tcrm.SizeFit.C160_fit_partial",
    "Tcrm.SizeFit.C160_lengths",
    "Tcrm.SizeFit.C160_constant_fails",
    "Tcrm.SizeFit.C160_coefficients_fails",
    "Tcrm.SizeFit.C160_defaults"
   ],
   "note": "Proved for observations that follow the form without a constant. Refuted: there is no constant in the fit; for observations with one a spread is reported where there is none, and the result in the place of the coefficients of the size model (as in the test of the project) shifts them by one."
  },
  {
   "property": "C161",
   "status": "partial",
   "theorems": [
    "Tcrm.Archive.C161_archived",
    "Tcrm.Archive.C161_kept_partial",
    "Tcrm.Archive.C161_names",
    "Tcrm.Archive.C161_dated",
    "Tcrm.Archive.C161_not_archived",
    "Tcrm.Archive.C161_overwritten_fails",
    "Tcrm.Archive.C161_undated_fails",
    "Tcrm.Archive.C161_no_folder_fails",
    "Tcrm.Archive.C161_folder"
   ],
   "note": "Proved: effect of one call, names in the archive meet just if name and date are the same, and files stay in histories without such meetings. Refuted: two files of one name changed in the same minute replace one another with success reported; the date in the name cannot be turned off; without an archive folder files are moved into the current one."
  },
  {
   "property": "C162",
   "status": "partial",
   "theorems": [
    "Tcrm.Places.C162_numbered",
    "Tcrm.Places.C162_keyed",
    "Tcrm.Places.C162_no_field_fails",
    "Tcrm.Places.C162_field",
    "Tcrm.Places.C162_stations_partial",
    "Tcrm.Places.C162_same_id_fails",
    "Tcrm.Places.C162_locations",
    "Tcrm.Places.C162_later_file_fails",
    "Tcrm.Places.C162_csv_partial",
    "Tcrm.Places.C162_one_line_fails",
    "Tcrm.Places.C162_names_fails"
   ],
   "note": "Proved: entries of a shape file by number and by key, values of a field, the location table (rows, numbering, longitudes, refusal), stations with distinct identifiers, text files of two or more lines. Refuted: of places with one identifier only the last is kept; an unknown identifier field gives numbers; a text file with one station raises; names in a text file become NaN; a changed location file has no effect once there is a table."
  },
  {
   "property": "C163",
   "status": "partial",
   "theorems": [
    "Tcrm.LocalSeries.C163_completes",
    "Tcrm.LocalSeries.C163_series",
    "Tcrm.LocalSeries.C163_record",
    "Tcrm.LocalSeries.C163_tables",
    "Tcrm.LocalSeries.C163_input_kept",
    "Tcrm.LocalSeries.C163_others_kept",
    "Tcrm.LocalSeries.C163_error",
    "Tcrm.LocalSeries.C163_again",
    "Tcrm.LocalSeries.C163_no_field",
    "Tcrm.LocalSeries.C163_left_out_fails",
    "Tcrm.LocalSeries.C163_repeated_fails",
    "Tcrm.LocalSeries.C163_stopped_fails",
    "Tcrm.LocalSeries.C163_files"
   ],
   "note": "Proved: exactly when a run completes; the local series of each station with a record (the last record counts); one row of each table per record with a series, first largest gust and first lowest pressure of the local series; original series kept always, other files kept; tables kept after an error; a second run changes nothing. Refuted: stations without a record in the Input location file are left out without an error; a station with two records has two rows in the tables, one of them not from its series; a record without numbers ends the run. (The module itself cannot be imported as it is: it takes shapefile from Utilities, where there is no such module. The theorems are about its functions.) How the factor belongs to the direction is C89."
  },
  {
   "property": "C164",
   "status": "partial",
   "theorems": [
    "Tcrm.EvalSave.C164_track_density",
    "Tcrm.EvalSave.C164_genesis",
    "Tcrm.EvalSave.C164_pressure",
    "Tcrm.EvalSave.C164_crossings_partial",
    "Tcrm.EvalSave.C164_incomplete",
    "Tcrm.EvalSave.C164_genesis_per_year_fails",
    "Tcrm.EvalSave.C164_percentile_fails",
    "Tcrm.EvalSave.C164_no_record_fails"
   ],
   "note": "Proved from tracks to file for all four files: place, name and statistic of every number, and an error without a change of the file if results of the simulations are missing. Refuted: the density of genesis is labelled 'per year' but does not depend on years; the upper percentiles of crossings are labelled 90 but are the 95th; without results of the record save returns normally and an earlier file stays. In one process; on several see C108. Kernel density estimation is a parameter; units other than the two refuted, and the text files of minimum pressures, are not modelled."
  },
  {
   "property": "C165",
   "status": "partial",
   "theorems": [
    "Tcrm.Folders.C165_nothing_lost",
    "Tcrm.Folders.C165_succeeds_iff",
    "Tcrm.Folders.C165_created",
    "Tcrm.Folders.C165_restart",
    "Tcrm.Folders.C165_again",
    "Tcrm.Folders.C165_tcrm_folders",
    "Tcrm.Folders.C165_tcevent_folders",
    "Tcrm.Folders.C165_tcrm_processes",
    "Tcrm.Folders.C165_tcevent_race_fails"
   ],
   "note": "All parts are proved for a run with one process and, for tcrm.py, for any number of processes in any order. Refuted for several processes of tcevent.py (or two runs with the same output path): creation is not restricted to the first process, and the folder may appear between the test and its creation, which ends one of them with FileExistsError. Symbolic links and changes by other programs are not modelled; os.makedirs is modelled after the Python library."
  },
  {
   "property": "C166",
   "status": "partial",
   "theorems": [
    "Tcrm.ShapeTable.C166_observed",
    "Tcrm.ShapeTable.C166_simulated",
    "Tcrm.ShapeTable.C166_events",
    "Tcrm.ShapeTable.C166_simulated_events_fails",
    "Tcrm.ShapeTable.C166_no_category_fails",
    "Tcrm.ShapeTable.C166_old_tables_fails"
   ],
   "note": "Proved for the tables of points and segments of observed and of netCDF tracks, and for the rows of whole observed tracks. Refuted: for whole tracks from netCDF files the row is that of the first record (age, pressure and category at genesis); formatJTWC.py writes the tables without categories; the functions of the same names in shptools.py do not remove the date, so that every column from the longitude on holds its left neighbour. Shapes are C130. How the shape-file library writes values as text (width, cutting of long numbers) is not modelled."
  },
  {
   "property": "C167",
   "status": "partial",
   "theorems": [
    "Tcrm.DateText.C167_read_back",
    "Tcrm.DateText.C167_sound",
    "Tcrm.DateText.C167_column",
    "Tcrm.DateText.C167_each",
    "Tcrm.DateText.C167_short_year",
    "Tcrm.DateText.C167_loader_partial",
    "Tcrm.DateText.C167_default",
    "Tcrm.DateText.C167_leading_zero_fails",
    "Tcrm.DateText.C167_processing_fails",
    "Tcrm.DateText.C167_format"
   ],
   "note": "Proved for the reading of texts in every format. Refuted for files: columns of digits that do not begin with the year lose leading zeros (1 February becomes 10 February), and data processing ignores the configured format and refuses files in another than the default one."
  },
  {
   "property": "C168",
   "status": "partial",
   "theorems": [
    "Tcrm.DateText.C168_file_fails",
    "Tcrm.DateText.C168_dictionary_partial",
    "Tcrm.DateText.C168_hours_partial",
    "Tcrm.DateText.C168_no_years_partial",
    "Tcrm.DateText.C168_february_fails",
    "Tcrm.DateText.C168_leap_day_fails",
    "Tcrm.DateText.C168_date_column"
   ],
   "note": "Refuted for files: the array that the reader returns raises ValueError for a missing column of dates, and parseDates expects KeyError. Proved for dictionaries of columns; without years the dates are those of 2000 or 2001, which have different Februaries (refuted)."
  },
  {
   "property": "C169",
   "status": "partial",
   "theorems": [
    "Tcrm.LandMask.C169_storm",
    "Tcrm.LandMask.C169_observation",
    "Tcrm.LandMask.C169_coefficients",
    "Tcrm.LandMask.C169_track",
    "Tcrm.LandMask.C169_time_over_land",
    "Tcrm.LandMask.C169_beyond_fails",
    "Tcrm.LandMask.C169_nearest_fails",
    "Tcrm.LandMask.C169_mirrored_fails"
   ],
   "note": "The two stages agree with each other and with the mask for masks with ascending coordinates whose rows are stored from north to south, at positions from 0 to 360 degrees that the mask reaches; the grid point is the next one to the north-east, not the nearest (refuted), and a mask with rows in the order of its latitudes is mirrored (refuted). One observation beyond the mask ends the calibration. Positions exact; the process files have two decimals."
  },
  {
   "property": "C17",
   "status": "proved",
   "theorems": [
    "Tcrm.Windfield.C17_regional_extremes",
    "Tcrm.Windfield.C17_whenever",
    "Tcrm.Windfield.C17_full_domain"
   ],
   "note": "Bounded domain, margins and resolutions in hundredths of a degree: for every resolution up to twice the margin, the calculation succeeds exactly if the remainder condition of C18 holds at every position in the region, and whenever it succeeds the cells record the extremes (C17_whenever); always if the resolution divides twice the margin. Full domain: for limits other than 0 and a resolution dividing the extended extents (C17_full_domain; zero limits: C18)."
  },
  {
   "property": "C170",
   "status": "partial",
   "theorems": [
    "Tcrm.ScaleBar.C170_end_right",
    "Tcrm.ScaleBar.C170_end_found",
    "Tcrm.ScaleBar.C170_endless",
    "Tcrm.ScaleBar.C170_nice_length",
    "Tcrm.ScaleBar.C170_bar",
    "Tcrm.ScaleBar.C170_map",
    "Tcrm.ScaleBar.C170_narrow_fails"
   ],
   "note": "Proved for maps at least 5 km wide on which the points tried reach the length: the bar is never shorter than its label and at most 1 % (and 10 nanometres) longer. Refuted for maps narrower than 4.75 km, which end with an error, and if no point is far enough the search does not end. Real numbers; the geodesic distance between points of the axes and the width of the map are parameters."
  },
  {
   "property": "C171",
   "status": "partial",
   "theorems": [
    "Tcrm.StatPlots.C171_lag",
    "Tcrm.StatPlots.C171_within",
    "Tcrm.StatPlots.C171_starts",
    "Tcrm.StatPlots.C171_pressure_fails",
    "Tcrm.StatPlots.C171_minimum",
    "Tcrm.StatPlots.C171_minimum_partial",
    "Tcrm.StatPlots.C171_last_fails",
    "Tcrm.StatPlots.C171_steps",
    "Tcrm.StatPlots.C171_lon_partial",
    "Tcrm.StatPlots.C171_west_fails",
    "Tcrm.StatPlots.C171_step_labels_fails",
    "Tcrm.StatPlots.C171_step_pairs",
    "Tcrm.StatPlots.C171_bearing_fails",
    "Tcrm.StatPlots.C171_anomalies"
   ],
   "note": "Proved: plots of speeds, bearings and rates of change never mix storms; minimum pressures are right but for the last observation of the data; steps are those of each storm. Refuted: the plot of pressure has a point mixing storms for each storm but the first; the last observation of the data is ignored in the minimum pressures; steps westwards across Greenwich are shown the long way round; the axis labels of the plots of successive steps are swapped; the plot of bearings treats degrees as radians, so that it is right only for storms moving due north. Drawing is not modelled."
  },
  {
   "property": "C172",
   "status": "partial",
   "theorems": [
    "Tcrm.Progress.C172_completion",
    "Tcrm.Progress.C172_percentage",
    "Tcrm.Progress.C172_silent",
    "Tcrm.Progress.C172_off_fails",
    "Tcrm.Progress.C172_behind",
    "Tcrm.Progress.C172_throttle",
    "Tcrm.Progress.C172_end_fails"
   ],
   "note": "Proved: completion is reported, percentages are rounded down, an unreported update is less than five per cent ahead of a reported one, and below 99 per cent at most one line is written for five per cent. Refuted: the setting ProgressBar=False has no effect, because any text counts as true; from 99 per cent on every update is reported. Exact numbers."
  },
  {
   "property": "C173",
   "status": "partial",
   "theorems": [
    "Tcrm.MultTiles.C173_collect",
    "Tcrm.MultTiles.C173_tiles_partial",
    "Tcrm.MultTiles.C173_prefix_fails",
    "Tcrm.MultTiles.C173_folders",
    "Tcrm.MultTiles.C173_missing_fails",
    "Tcrm.MultTiles.C173_written",
    "Tcrm.MultTiles.C173_s3",
    "Tcrm.MultTiles.C173_s3_fails"
   ],
   "note": "Proved: which files are merged, for every working directory whose three folders are all there or all missing; files of earlier runs and merged files never enter; if no configured text begins the files of another tile, the files are those of the configured tiles. Refuted: a text that begins the name of another tile (or an empty text) brings that tile along; a folder missing beside shielding, or a working directory given without a slash at its end, stops the run; the tiles of the example configuration, which end with an underscore, are not found on S3. glob and shell special characters do not occur; gdal is a parameter."
  },
  {
   "property": "C174",
   "status": "partial",
   "theorems": [
    "Tcrm.Figures.C174_layout",
    "Tcrm.Figures.C174_empty",
    "Tcrm.Figures.C174_graticule",
    "Tcrm.Figures.C174_small_fails",
    "Tcrm.Figures.C174_curve_shown",
    "Tcrm.Figures.C174_upper_fails",
    "Tcrm.Figures.C174_range",
    "Tcrm.Figures.C174_range_fails",
    "Tcrm.Figures.C174_colours",
    "Tcrm.Figures.C174_colours_error"
   ],
   "note": "Proved: the arrangement, the graticule (spacing, position, both edges), the curve within its axis, when the range is drawn and which colours are chosen. Refuted: a map between two even degrees has no line inside; the upper confidence limit may be outside the axis; a range missing for the first period is not drawn at all; levels that are all equal, or of a numpy type other than float64, are errors. Drawing itself is not modelled."
  },
  {
   "property": "C175",
   "status": "partial",
   "theorems": [
    "Tcrm.Impact.C175_each",
    "Tcrm.Impact.C175_failure",
    "Tcrm.Impact.C175_event_files",
    "Tcrm.Impact.C175_wanted",
    "Tcrm.Impact.C175_section_fails",
    "Tcrm.Impact.C175_exposure_fails",
    "Tcrm.Impact.C175_without_actions"
   ],
   "note": "Proved: the calls made, the files written, failures, and the decision by the switch. Refuted: a section with the exposure data alone does not start the calculation, since the defaults always have the section of actions; the switch without exposure data fails after the wind fields. hazimp is a parameter and writes nothing if it fails; the path has no characters special to glob."
  },
  {
   "property": "C176",
   "status": "partial",
   "theorems": [
    "Tcrm.AkimaC.C176_succeeds",
    "Tcrm.AkimaC.C176_memory",
    "Tcrm.AkimaC.C176_observed",
    "Tcrm.AkimaC.C176_agrees",
    "Tcrm.AkimaC.C176_akima",
    "Tcrm.AkimaC.C176_tracks",
    "Tcrm.AkimaC.C176_turn_fails",
    "Tcrm.AkimaC.C176_order_fails",
    "Tcrm.AkimaC.C176_outside_fails"
   ],
   "note": "Proved: when it succeeds, independence of the memory beyond the arrays (one element of which is read), observed positions, the curve as a continuously differentiable piecewise cubic with Akima's velocities, agreement with the Python code where the motion changes or is steady, and interpolated tracks. Refuted: at a turn between two steady motions the Python code takes the velocity before, the compiled code the mean; new times out of order give wrong positions even at observations; new times outside the observations are extrapolated instead of refused. No rounding."
  },
  {
   "property": "C177",
   "status": "partial",
   "theorems": [
    "Tcrm.LowRes.C177_outputs_partial",
    "Tcrm.LowRes.C177_inputs_kept",
    "Tcrm.LowRes.C177_distinct",
    "Tcrm.LowRes.C177_nothing_fails",
    "Tcrm.LowRes.C177_folder_fails",
    "Tcrm.LowRes.C177_grid_fails",
    "Tcrm.LowRes.C177_complete",
    "Tcrm.LowRes.C177_missing"
   ],
   "note": "Refuted: the program never writes anything, as the check of the output folder asks for os.path.path, which does not exist; with that mended, nothing is written beside the wind fields if the path of the folder contains 'gust', and wind fields on another grid than the first get multipliers of other places. Proved for the rest of the program given a working check: the outputs, their names and values, that inputs are kept and outputs distinct. GDAL's reprojection is a parameter; no missing gusts, no rounding."
  },
  {
   "property": "C178",
   "status": "partial",
   "theorems": [
    "Tcrm.SizeTable.C178_moments",
    "Tcrm.SizeTable.C178_mean_partial",
    "Tcrm.SizeTable.C178_columns",
    "Tcrm.SizeTable.C178_table",
    "Tcrm.SizeTable.C178_sampled",
    "Tcrm.SizeTable.C178_total",
    "Tcrm.SizeTable.C178_mean_fails",
    "Tcrm.SizeTable.C178_deviation_fails"
   ],
   "note": "Density, all its moments, the table and sampling from it are proved. Refuted: the second parameter is the deviation of the logarithm, so that the sizes of the default configuration have a standard deviation of more than 20 km, not 0.5; and as the table ends at 119 km its mean is below every configured mean from 119 km on."
  },
  {
   "property": "C179",
   "status": "partial",
   "theorems": [
    "Tcrm.SimRates.C179_landfall_partial",
    "Tcrm.SimRates.C179_total",
    "Tcrm.SimRates.C179_landfall_fails",
    "Tcrm.SimRates.C179_percentiles",
    "Tcrm.SimRates.C179_rate_fails",
    "Tcrm.SimRates.C179_order",
    "Tcrm.SimRates.C179_crossings",
    "Tcrm.SimRates.C179_crossing_area",
    "Tcrm.SimRates.C179_pressure",
    "Tcrm.SimRates.C179_minimum_partial"
   ],
   "note": "Crossings and maps of pressure are as stated. A single simulation without landfall makes the mean of every gate nan (C179_landfall_fails), and one whose storms are all weaker than 1015 hPa or outside the region makes the whole distribution of minimum pressure nan (C179_minimum_partial). The rates of landfall are shares, unchanged if all storms occur twice (C179_rate_fails). One process; numpy's mean and sort with nan are modelled by their documentation."
  },
  {
   "property": "C18",
   "status": "partial",
   "theorems": [
    "Tcrm.Windfield.C18_window_inside",
    "Tcrm.Windfield.C18_shapes_match_iff",
    "Tcrm.Windfield.C18_shapes_partial",
    "Tcrm.Windfield.C18_displacement",
    "Tcrm.Windfield.C18_reach",
    "Tcrm.Windfield.C18_full_domain",
    "Tcrm.Windfield.C18_mismatch_fails",
    "Tcrm.Windfield.C18_full_domain_zero_limit_fails",
    "Tcrm.Windfield.C18_fine_resolution_fails",
    "Tcrm.Windfield.C18_coarse"
   ],
   "note": "The window is always inside the grid; its shape is that of the local field iff the stated remainder condition holds, so the property is false when the resolution does not divide twice the margin (C18_mismatch_fails)."
  },
  {
   "property": "C180",
   "status": "proved",
   "theorems": [
    "Tcrm.WindTable.C180_entries",
    "Tcrm.WindTable.C180_run",
    "Tcrm.WindTable.C180_same",
    "Tcrm.WindTable.C180_axes"
   ],
   "note": "The wind models are a parameter: C180 is about which arguments they are given, and which entry their maximum becomes. km/h become m/s with the factor 0.2777778 of C42. Messages as in C02 (buffered sends, in order between two processes). Exact reals."
  },
  {
   "property": "C181",
   "status": "partial",
   "theorems": [
    "Tcrm.Binary64.C181_nearest",
    "Tcrm.Binary64.C181_hundredths_partial",
    "Tcrm.Binary64.C181_quarters_partial",
    "Tcrm.Binary64.C181_margins_fail",
    "Tcrm.Binary64.C181_resolutions_fail",
    "Tcrm.Binary64.C181_succeeds_partial",
    "Tcrm.Binary64.C181_fails",
    "Tcrm.Binary64.C181_margin_fails",
    "Tcrm.Binary64.C181_full_fails",
    "Tcrm.Binary64.C181_exact"
   ],
   "note": "Double precision is modelled as rounding to 53 binary digits, to nearest, ties to even, with unlimited exponent (C181_nearest). C181_exact ties the model to that of C18: without rounding it says whether the calculation of C18 gets through. The full statement is refuted (C181_margin_fails, C181_full_fails; C181_fails for every track with a position just north of a grid line)."
  },
  {
   "property": "C182",
   "status": "partial",
   "theorems": [
    "Tcrm.Binary64.C182_region_partial",
    "Tcrm.Binary64.C182_quarters_partial",
    "Tcrm.Binary64.C182_run_partial",
    "Tcrm.Binary64.C182_row_fails",
    "Tcrm.Binary64.C182_shift_fails"
   ],
   "note": "As C181 for double precision. Coordinates are doubles in the saved files. The full statement is refuted."
  },
  {
   "property": "C183",
   "status": "partial",
   "theorems": [
    "Tcrm.Times64.C183_exact_partial",
    "Tcrm.Times64.C183_error",
    "Tcrm.Times64.C183_total",
    "Tcrm.Times64.C183_pressure_fails"
   ],
   "note": "Double precision as in C181, for the times of the observations only: the new times are exact for whole hours and taken as exact in general, and the interpolated values are not rounded. The full statement is refuted by C183_pressure_fails."
  },
  {
   "property": "C184",
   "status": "partial",
   "theorems": [
    "Tcrm.DispatchFail.C184_finite_partial",
    "Tcrm.DispatchFail.C184_stored_partial",
    "Tcrm.DispatchFail.C184_never_ends_fails",
    "Tcrm.DispatchFail.C184_stuck_fails",
    "Tcrm.DispatchFail.C184_regular_partial",
    "Tcrm.DispatchFail.C184_single_partial"
   ],
   "note": "As C02 for messages. Refuted by C184_never_ends_fails and C184_stuck_fails. Proved: no schedule goes on for ever, everything stored is right, runs without failure are those of C02. What MPI does when a process ends (finalisation waits for the others) is not modelled; a failure of the master is covered by C107."
  },
  {
   "property": "C185",
   "status": "proved",
   "theorems": [
    "Tcrm.Fuzzy.C185_nextafter",
    "Tcrm.Fuzzy.C185_between",
    "Tcrm.Fuzzy.C185_between_exclusive",
    "Tcrm.Fuzzy.C185_inside",
    "Tcrm.Fuzzy.C185_extract",
    "Tcrm.Fuzzy.C185_start_inside"
   ],
   "note": "Doubles by bit pattern (sign and magnitude), with subnormal numbers; no infinities or NaN, no overflow. Representable numbers are specified without bit patterns."
  },
  {
   "property": "C186",
   "status": "partial",
   "theorems": [
    "Tcrm.Template.C186_replace",
    "Tcrm.Template.C186_missing",
    "Tcrm.Template.C186_missing_files",
    "Tcrm.Template.C186_in_place_fails",
    "Tcrm.Template.C186_backslash_fails",
    "Tcrm.Template.C186_again_fails",
    "Tcrm.Template.C186_number_fails",
    "Tcrm.Template.C186_control_fails"
   ],
   "note": "Holds for values without braces and backslashes, keys that are words and not numbers, and an output file other than the input. Otherwise: a value with a backslash (a Windows path) raises re.error or is changed (also when the template does not use it) and leaves an empty output; a value with a placeholder is filled in again depending on the order; a template filled in place is emptied without error. Octal escapes and \\g<0> in values are not modelled."
  },
  {
   "property": "C187",
   "status": "partial",
   "theorems": [
    "Tcrm.Arange64.C187_exact_partial",
    "Tcrm.Arange64.C187_cells_partial",
    "Tcrm.Arange64.C187_points",
    "Tcrm.Arange64.C187_step_down_fails",
    "Tcrm.Arange64.C187_origin_grid_partial",
    "Tcrm.Arange64.C187_origin_grid_fails",
    "Tcrm.Arange64.C187_fine_cells_fail"
   ],
   "note": "Limits in tenths of a degree can give a grid point on the eastern limit that should be excluded (100 to 100.2: three points); a step of 0.7 over 21 degrees gives 31 points; cells of a tenth of a degree are numbered in rows of 99 where there are 100 (Python's // on doubles), so the number of a position is that of a cell elsewhere. np.arange is modelled as numpy calculates it."
  },
  {
   "property": "C188",
   "status": "partial",
   "theorems": [
    "Tcrm.TrackDates.C188_times",
    "Tcrm.TrackDates.C188_whole",
    "Tcrm.TrackDates.C188_date",
    "Tcrm.TrackDates.C188_grid_partial",
    "Tcrm.TrackDates.C188_minute_fails",
    "Tcrm.TrackDates.C188_event_fails"
   ],
   "note": "The times are right (within a millionth of an hour), and the number of records too. The dates are right within a millisecond, but hour and minute are cut off, not rounded: for tracks that begin at midnight (1900 to 2039) four of nine records at five minutes are dated one minute early, and one o'clock becomes 00:59, because the part of the day is added to a day number counted from year 1 before the epoch is subtracted. At multiples of 45 minutes all is exact. matplotlib's num2date is a contract (rounding to microseconds, and to 20 microseconds far from 1970)."
  },
  {
   "property": "C189",
   "status": "partial",
   "theorems": [
    "Tcrm.LandfallSummary.C189_shown",
    "Tcrm.LandfallSummary.C189_totals_partial",
    "Tcrm.LandfallSummary.C189_categories",
    "Tcrm.LandfallSummary.C189_order",
    "Tcrm.LandfallSummary.C189_numbers_fails",
    "Tcrm.LandfallSummary.C189_refused",
    "Tcrm.LandfallSummary.C189_mean_partial",
    "Tcrm.LandfallSummary.C189_mean_fails"
   ],
   "note": "Totals, rates and lowest pressures are complete and independent of the order of the files, if the gates are numbered from 0 in the order of the shape file. The summary is joined by position instead of the number of the gate: gates numbered from 1 are shown with the landfalls of their neighbour (refuted). The mean pressure is a mean of the means of simulations (refuted; right if all simulations have equally many landfalls). A single file without tracks stops it. Standard deviations and quantiles are not modelled."
  },
  {
   "property": "C19",
   "status": "partial",
   "theorems": [
    "Tcrm.Windfield.C19_extremes_partial",
    "Tcrm.Windfield.C19_components_of_first_track",
    "Tcrm.Windfield.C19_counterexample"
   ],
   "note": "Gust and pressure parts proved; bearing and components are always those of the first track, so that part is false."
  },
  {
   "property": "C190",
   "status": "proved",
   "theorems": [
    "Tcrm.QuantilePlot.C190_points",
    "Tcrm.QuantilePlot.C190_ascending",
    "Tcrm.QuantilePlot.C190_diagonal",
    "Tcrm.QuantilePlot.C190_lines",
    "Tcrm.QuantilePlot.C190_made",
    "Tcrm.QuantilePlot.C190_bounds"
   ],
   "note": "For a run on one processor. What is drawn is modelled, not the limits of the axes (850 to 1000 hPa), beyond which points are not visible. Random draws are arbitrary positions within the data."
  },
  {
   "property": "C191",
   "status": "partial",
   "theorems": [
    "Tcrm.CurveRuns.C191_first_partial",
    "Tcrm.CurveRuns.C191_never_fails",
    "Tcrm.CurveRuns.C191_stale_fails",
    "Tcrm.CurveRuns.C191_again",
    "Tcrm.CurveRuns.C191_again_fails",
    "Tcrm.CurveRuns.C191_many_fails"
   ],
   "note": "Holds for the first run in a folder that makes the database. Refuted otherwise: without a database plotting stops with an error (no such table) before the first curve; with the database of an earlier run the events of that one are plotted with the new levels; after updates in the same folder the events of all runs are plotted together. Maps, smoothing and the drawing itself are not modelled here."
  },
  {
   "property": "C192",
   "status": "proved",
   "theorems": [
    "Tcrm.Boundary.C192_solution",
    "Tcrm.Boundary.C192_unique",
    "Tcrm.Boundary.C192_surface",
    "Tcrm.Boundary.C192_components",
    "Tcrm.Boundary.C192_translation",
    "Tcrm.Compiled.C192_holland",
    "Tcrm.Compiled.C192_steep_fails"
   ],
   "note": "Existence, uniqueness (energy argument) and the identity of the surface values. The condition on the vorticity is met by Holland's profile up to a shape parameter of 2 (C192_holland); C192_steep_fails shows a steeper storm where it is not and the program takes roots of negative numbers. At a resonance the program divides by zero. Exact reals; the speed the layer moves with is the program's own adjusted speed (C192_translation)."
  },
  {
   "property": "C193",
   "status": "proved",
   "theorems": [
    "Tcrm.Vorticity.C193_slope",
    "Tcrm.Vorticity.C193_missing",
    "Tcrm.Vorticity.C193_mean_value",
    "Tcrm.Vorticity.C193_quadratic",
    "Tcrm.Vorticity.C193_quadratic_error",
    "Tcrm.Vorticity.C193_shear",
    "Tcrm.Vorticity.C193_vorticity",
    "Tcrm.Vorticity.C193_rotation",
    "Tcrm.Vorticity.C193_rotation_error",
    "Tcrm.Vorticity.C193_poles",
    "Tcrm.Vorticity.C193_holes",
    "Tcrm.Vorticity.C193_absolute"
   ],
   "note": "Mean value theorem on both axes; solid rotation in closed form with an error bound. Winds and derivatives below 9e19 so that they are not taken for missing values. Exact reals. The spectral algorithms (package sphere) are not modelled; nothing else in the repository calls the module."
  },
  {
   "property": "C194",
   "status": "partial",
   "theorems": [
    "Tcrm.Windfield.C194_points_partial",
    "Tcrm.Windfield.C194_grid",
    "Tcrm.Windfield.C194_extra_fails",
    "Tcrm.Windfield.C194_shift_fails"
   ],
   "note": "Holds if the resolution divides the width and the centre is given to a thousandth of a degree or is further than the margin from the equator and Greenwich (C194_points_partial). Otherwise it fails: a row and a column too many when the resolution does not divide the width (C194_extra_fails), and coordinates a thousandth of a degree off within the margin of the equator or Greenwich (C194_shift_fails; the case east or north of it). Exact rationals, not floats."
  },
  {
   "property": "C195",
   "status": "proved",
   "theorems": [
    "Tcrm.Timing.C195_shows",
    "Tcrm.Timing.C195_distinct",
    "Tcrm.Timing.C195_transparent",
    "Tcrm.Timing.C195_bar",
    "Tcrm.Timing.C195_remaining",
    "Tcrm.Timing.C195_ends"
   ],
   "note": "Exact numbers, not floats. The bar's durations are for times that are not negative. The words around the duration and the drawing of the bar are not modelled."
  },
  {
   "property": "C196",
   "status": "proved",
   "theorems": [
    "Tcrm.Registry.C196_discovered",
    "Tcrm.Registry.C196_selected",
    "Tcrm.Registry.C196_name",
    "Tcrm.Registry.C196_arguments",
    "Tcrm.Registry.C196_values",
    "Tcrm.Registry.C196_profiles",
    "Tcrm.Registry.C196_package"
   ],
   "note": "Classes with several bases (found twice by the discovery, entered once in the dictionary) are not modelled. C196_profiles ties the table of C77 to the tree of classes, for every name."
  },
  {
   "property": "C197",
   "status": "partial",
   "theorems": [
    "Tcrm.Autoreg.C197_noise",
    "Tcrm.Autoreg.C197_mean_partial",
    "Tcrm.Autoreg.C197_lag_partial",
    "Tcrm.Autoreg.C197_spread",
    "Tcrm.Autoreg.C197_spread_fails",
    "Tcrm.Autoreg.C197_limit_fails",
    "Tcrm.Autoreg.C197_speed",
    "Tcrm.Autoreg.C197_speed_first"
   ],
   "note": "Mean (C197_mean_partial) and autocorrelation (C197_lag_partial) hold. The spread does not: the noise is a logistic variate of scale 1, whose variance is π²/3 and not 1 (C197_noise), so that the variance is π²/3·(1-∏α²) times the calibrated one (C197_spread), which exceeds it from the second step on for autocorrelations up to 0.9 (C197_spread_fails) and tends to more than three times it (C197_limit_fails). The speed is the modulus of such a value: C197_speed gives its mean square. The cells passed through are given (not random); bearings before they are wrapped to the circle; random numbers are exactly uniform and independent; exact reals."
  },
  {
   "property": "C198",
   "status": "partial",
   "theorems": [
    "Tcrm.Draws.C198_value",
    "Tcrm.Draws.C198_origin",
    "Tcrm.Draws.C198_value_share",
    "Tcrm.Draws.C198_origin_share",
    "Tcrm.Draws.C198_hour",
    "Tcrm.Draws.C198_year",
    "Tcrm.Draws.C198_pressure_partial",
    "Tcrm.Draws.C198_pressure_fails_without_lower"
   ],
   "note": "Partial: where no tabulated pressure is below that of the surroundings, the pressure is drawn from the whole table (C198_pressure_fails_without_lower); all else is proved. About what is drawn; tracks that are discarded after the draw (see C14) are not accounted for. Random numbers are exactly uniform and independent, exact reals; the positions in the random sequence of the numbers used for storm k are given, not random."
  },
  {
   "property": "C199",
   "status": "partial",
   "theorems": [
    "Tcrm.SizeDraw.C199_ends",
    "Tcrm.SizeDraw.C199_law_partial",
    "Tcrm.SizeDraw.C199_radius",
    "Tcrm.SizeDraw.C199_variate",
    "Tcrm.SizeDraw.C199_mean_fails"
   ],
   "note": "Drawing ends with probability one (C199_ends). The deviation kept has the distribution of a single draw given a radius of at most 100 km (C199_law_partial), hence not the fitted one: its mean is negative for every pressure deficit and latitude (C199_mean_fails), and it is used for the whole life of the storm, not only for its beginning. Random numbers are exactly normal and independent, exact reals."
  },
  {
   "property": "C20",
   "status": "proved",
   "theorems": [
    "Tcrm.GustFiles.C20_names_injective",
    "Tcrm.GustFiles.C20_pattern_selects_year",
    "Tcrm.GustFiles.C20_evolution_not_selected"
   ],
   "note": "For all natural track numbers and years. glob special characters in the directory path are not modelled."
  },
  {
   "property": "C200",
   "status": "proved",
   "theorems": [
    "Tcrm.Unbiased.C200_three",
    "Tcrm.Unbiased.C200_all",
    "Tcrm.Unbiased.C200_fit"
   ],
   "note": "Exact reals; random numbers exactly uniform and independent, values by the quantile function. The numbers returned from the third on are ratios; the theorem says of their numerators that they are unbiased (a ratio of unbiased statistics is not unbiased). C200_fit speaks of the cells at which a distribution with shape above -1 and not 0 is reported."
  },
  {
   "property": "C201",
   "status": "proved",
   "theorems": [
    "Tcrm.Counts.C201_joint",
    "Tcrm.Counts.C201_total",
    "Tcrm.Counts.C201_drawn",
    "Tcrm.Counts.C201_frequency",
    "Tcrm.Counts.C201_refused",
    "Tcrm.Counts.C201_seeds"
   ],
   "note": "Numbers from numpy's generator are exactly Poisson and independent (contract). C201_drawn and C201_frequency speak of runs that succeed on every process (C53, C14 say when they do not)."
  },
  {
   "property": "C202",
   "status": "partial",
   "theorems": [
    "Tcrm.Variates.C202_logistic",
    "Tcrm.Variates.C202_lognormal",
    "Tcrm.Variates.C202_zero_fails",
    "Tcrm.Variates.C202_refused"
   ],
   "note": "Distributions are proved for exact reals and an exact inverse normal distribution function. Not always defined: the generator delivers numbers from 0 (included) to 1 (excluded), and 0 raises an exception in the logistic variate (C202_zero_fails)."
  },
  {
   "property": "C203",
   "status": "partial",
   "theorems": [
    "Tcrm.Unbiased.C203_three",
    "Tcrm.Unbiased.C203_all",
    "Tcrm.Unbiased.C203_fit_partial",
    "Tcrm.Unbiased.C203_reported",
    "Tcrm.Unbiased.C203_skewed_fails"
   ],
   "note": "Proved for the moments of all orders without restriction (C203_three, C203_all). The fitted distribution gets the L-skewness only to within 0.005 and, for shapes that the fit rounds to 0, the mean to within a thousandth of the L-scale (C203_fit_partial). Return levels are reported if the L-skewness is between -0.8 and 0.1698 (C203_reported), but above 0.17 none is, however long the simulation, with probability one (C203_skewed_fails)."
  },
  {
   "property": "C204",
   "status": "proved",
   "theorems": [
    "Tcrm.Annual.C204_probability",
    "Tcrm.Annual.C204_frequency"
   ],
   "note": "Storms are assumed independent of each other and of their numbers, and identically distributed; the numbers have the Poisson distribution (C201). Wind speeds are exact reals (C21_rounding covers the rounding on storing)."
  },
  {
   "property": "C205",
   "status": "partial",
   "theorems": [
    "Tcrm.Annual.C205_moments",
    "Tcrm.Annual.C205_fit_partial",
    "Tcrm.Annual.C205_reported",
    "Tcrm.Annual.C205_skewed_fails"
   ],
   "note": "Partial: the fitted distribution matches only to within the tolerances of the fit (a thousandth of the L-scale for the mean, 0.005 for the L-skewness; see C148), and where the annual maxima have an L-skewness above 0.17 no return level is reported however long the simulation (C205_skewed_fails): so, for example, where a year without storms has the probability 0.81 and winds of 30 and 60 are equally likely. Between 0.1698 and 0.17 nothing is claimed. Storms are independent and identically distributed, their numbers Poisson."
  },
  {
   "property": "C206",
   "status": "partial",
   "theorems": [
    "Tcrm.TrackMap.C206_lines",
    "Tcrm.TrackMap.C206_one_label",
    "Tcrm.TrackMap.C206_missing_fails",
    "Tcrm.TrackMap.C206_all",
    "Tcrm.TrackMap.C206_error"
   ],
   "note": "Partial: lines and colours are proved, but 'No data' is the label of all wind speeds below category 1, and a line whose wind speed is missing gets none of the legend's colours (C206_missing_fails). What LineCollection, BoundaryNorm and ListedColormap do is taken from the documentation of matplotlib; the map projection is a parameter."
  },
  {
   "property": "C207",
   "status": "partial",
   "theorems": [
    "Tcrm.DataDownload.C207_fetched_partial",
    "Tcrm.DataDownload.C207_unknown",
    "Tcrm.DataDownload.C207_succeeds",
    "Tcrm.DataDownload.C207_again",
    "Tcrm.DataDownload.C207_blank_fails"
   ],
   "note": "Partial: names must be separated by commas only; with a blank after a comma the section is not found and nothing is fetched (C207_blank_fails). Two datasets with the same place share a file (C141). The settings are a parameter (C27 models the parser); exceptions and sys.exit(1) are one outcome."
  },
  {
   "property": "C208",
   "status": "partial",
   "theorems": [
    "Tcrm.StatRange.C208_max_partial",
    "Tcrm.StatRange.C208_min_partial",
    "Tcrm.StatRange.C208_rejects",
    "Tcrm.StatRange.C208_accepts",
    "Tcrm.StatRange.C208_tenths_fail",
    "Tcrm.StatRange.C208_small_step_fails"
   ],
   "note": "Partial: for bounds and steps with few binary digits; in tenths of a degree the bound can be a step too far (C208_tenths_fail), and a step lost in rounding ends in an IndexError (C208_small_step_fails). np.arange is the model of C187."
  },
  {
   "property": "C209",
   "status": "partial",
   "theorems": [
    "Tcrm.RingFile.C209_rings_partial",
    "Tcrm.RingFile.C209_open_fails"
   ],
   "note": "Partial: for rings that are closed (end with their first point), as the format requires; the last point of an open ring is lost if the polygon has another ring, and kept if it has not (C209_open_fails). What pyshp does with the parts (closing them) is taken from its source."
  },
  {
   "property": "C21",
   "status": "proved",
   "theorems": [
    "Tcrm.GustFiles.C21_annual_maxima",
    "Tcrm.GustFiles.C21_listing_order",
    "Tcrm.GustFiles.C21_rounding"
   ],
   "note": "Rounding on storage (32-bit numbers) is covered by C21_rounding, for every rounding that preserves order and zero."
  },
  {
   "property": "C210",
   "status": "partial",
   "theorems": [
    "Tcrm.RawTiles.C210_files",
    "Tcrm.RawTiles.C210_complete_partial",
    "Tcrm.RawTiles.C210_silent_fails",
    "Tcrm.RawTiles.C210_ends",
    "Tcrm.RawTiles.C210_names"
   ],
   "note": "Partial: if all files can be fetched they all are, in every schedule, and every schedule ends; but an exception in a thread is not seen by the program, which goes on without the tile and those after it (C210_silent_fails). That the storage is read correctly is a contract; where the files are read from is C81."
  },
  {
   "property": "C211",
   "status": "partial",
   "theorems": [
    "Tcrm.Windfield.C211_points_partial",
    "Tcrm.Windfield.C211_grid",
    "Tcrm.Windfield.C211_covers",
    "Tcrm.Windfield.C211_extra_fails"
   ],
   "note": "Partial: the points and their cover of the domain are proved in general, the agreement of coordinates and points if the resolution divides the size of the domain with its margins; otherwise there is a column of coordinates without points (C211_extra_fails). Numbers are exact; the distances and bearings themselves are C97."
  },
  {
   "property": "C212",
   "status": "partial",
   "theorems": [
    "Tcrm.RemoteRun.C212_uploaded",
    "Tcrm.RemoteRun.C212_local",
    "Tcrm.RemoteRun.C212_interrupted",
    "Tcrm.RemoteRun.C212_succeeds",
    "Tcrm.RemoteRun.C212_directory_fails",
    "Tcrm.RemoteRun.C212_directories"
   ],
   "note": "Partial: proved but for the last sentence: a gust file is fetched into the working directory before that is made, so with a new local (or configured temporary) directory the run fails (C212_directory_fails). The storage client and the calculation are parameters; the multipliers fetched are C210, the calculation C51 and C79."
  },
  {
   "property": "C213",
   "status": "partial",
   "theorems": [
    "Tcrm.MultTiles.C213_merged",
    "Tcrm.MultTiles.C213_first_partial",
    "Tcrm.MultTiles.C213_earlier_fails",
    "Tcrm.MultTiles.C213_folders",
    "Tcrm.MultTiles.C213_missing_fails"
   ],
   "note": "Partial: what is merged in every history is proved (C213_merged), and that it is right for the first run with a new folder and texts that match one tile each (C213_first_partial). The folders are never cleaned, so every later run also merges the tiles of the earlier ones (C213_earlier_fails), and folders that are only partly there stop the run (C213_folders, C213_missing_fails). The translation and merging programs are external."
  },
  {
   "property": "C214",
   "status": "partial",
   "theorems": [
    "Tcrm.SeasonalPressure.C214_mean",
    "Tcrm.SeasonalPressure.C214_set",
    "Tcrm.SeasonalPressure.C214_between",
    "Tcrm.SeasonalPressure.C214_refused",
    "Tcrm.SeasonalPressure.C214_month_zero_fails",
    "Tcrm.SeasonalPressure.C214_no_month_fails",
    "Tcrm.SeasonalPressure.C214_sample",
    "Tcrm.SeasonalPressure.C214_sample_partial",
    "Tcrm.SeasonalPressure.C214_edge_fails",
    "Tcrm.SeasonalPressure.C214_nearest_fails",
    "Tcrm.SeasonalPressure.C214_file",
    "Tcrm.SeasonalPressure.C214_file_fails"
   ],
   "note": "Partial: the mean over the set of months is proved. The rows are reversed but the latitudes are not (C214_mean), so that a sample is taken at the mirrored latitude, and always to the west of the place, not at the nearest point (C214_sample, C214_nearest_fails; right latitude only for mirrored values, C214_sample_partial); west of the first longitude the last one is used (C214_edge_fails). Months 0 to -11 count from the end (C214_refused, C214_month_zero_fails), no months give nan (C214_no_month_fails). Sampling is modelled for increasing axes only; exact arithmetic."
  },
  {
   "property": "C215",
   "status": "partial",
   "theorems": [
    "Tcrm.Database.C215_events",
    "Tcrm.Database.C215_order",
    "Tcrm.Database.C215_bad_file",
    "Tcrm.Database.C215_committed_partial",
    "Tcrm.Database.C215_again_fails",
    "Tcrm.Database.C215_leftover_fails",
    "Tcrm.Database.C215_listing"
   ],
   "note": "Partial: proved but for the last sentence. A second call always fails, as the numbers begin at 0 again (C215_again_fails), and a call that fails after some rows leaves them in the open transaction, for the next commit to keep (C215_leftover_fails); the committed table is not changed by the failed call itself (C215_committed_partial). SQL by its meaning; dates, versions and the track file are left out."
  },
  {
   "property": "C216",
   "status": "partial",
   "theorems": [
    "Tcrm.LandDecay.C216_sea",
    "Tcrm.LandDecay.C216_below",
    "Tcrm.LandDecay.C216_fills",
    "Tcrm.LandDecay.C216_longer",
    "Tcrm.LandDecay.C216_intense",
    "Tcrm.LandDecay.C216_run",
    "Tcrm.LandDecay.C216_twice",
    "Tcrm.LandDecay.C216_deepens_fails"
   ],
   "note": "Partial: the random term is normal and may make the rate negative; then the cyclone becomes more intense over land (C216_fills says exactly when, C216_deepens_fails). The method has no caller in the repository; C216_run and C216_twice are for calls at each step, where the time over land counts again at every step. Exact real arithmetic; the random term is a parameter."
  },
  {
   "property": "C217",
   "status": "partial",
   "theorems": [
    "Tcrm.Jtwc.C217_latitude",
    "Tcrm.Jtwc.C217_longitude",
    "Tcrm.Jtwc.C217_refused",
    "Tcrm.Jtwc.C217_hemispheres",
    "Tcrm.Jtwc.C217_longitude_partial",
    "Tcrm.Jtwc.C217_longitude_fails_at_zero_west"
   ],
   "note": "Partial: the meridian of Greenwich is read as 0 when written as east and as 360 when written as west (C217_longitude_fails_at_zero_west). Python's float is a parameter; the reading of the columns by numpy and the rest of the script are not modelled. Texts that consist of letters only are left out. Exact rationals."
  },
  {
   "property": "C218",
   "status": "proved",
   "theorems": [
    "Tcrm.AnnualProb.C218_poisson",
    "Tcrm.AnnualProb.C218_bounds",
    "Tcrm.AnnualProb.C218_decreasing",
    "Tcrm.AnnualProb.C218_years",
    "Tcrm.AnnualProb.C218_inverse",
    "Tcrm.AnnualProb.C218_refused"
   ],
   "note": "Exact reals; single numbers, not arrays. Negative return periods are not refused (C218_refused). The function has no caller in the repository."
  },
  {
   "property": "C219",
   "status": "partial",
   "theorems": [
    "Tcrm.UtmBand.C219_band",
    "Tcrm.UtmBand.C219_outside",
    "Tcrm.UtmBand.C219_hemisphere_partial",
    "Tcrm.UtmBand.C219_hemisphere_fails"
   ],
   "note": "Partial: the letter Z is after N, so south of 80 degrees south the letter is that of the northern hemisphere (C219_hemisphere_fails); all else is proved. The conversion itself is not modelled: it takes the name of a type for the longitude and always raises TypeError."
  },
  {
   "property": "C22",
   "status": "partial",
   "theorems": [
    "Tcrm.GustFiles.C22_restart_partial",
    "Tcrm.GustFiles.C22_same_as_uninterrupted_partial",
    "Tcrm.GustFiles.C22_kept_gusts_correct_partial",
    "Tcrm.GustFiles.C22_finished_not_rewritten",
    "Tcrm.GustFiles.C22_torn_file_fails",
    "Tcrm.GustFiles.C22_local_wind_fails",
    "Tcrm.GustFiles.C22_grid_limit_fails",
    "Tcrm.GustFiles.C22_counts_as_complete"
   ],
   "note": "Proved for gust files when the grid limit is configured and unclosed files cannot be opened; without the latter, every kept file still has correct axes, gusts and components. Refuted otherwise: torn files accepted if readable (pressure missing), local wind skipped after a crash, grid limit taken from a different track after a restart."
  },
  {
   "property": "C23",
   "status": "proved",
   "theorems": [
    "Tcrm.Evd.C23_reported_only_if_usable",
    "Tcrm.Evd.C23_unusable_is_missing",
    "Tcrm.Evd.C23_levels_increase",
    "Tcrm.Evd.C23_levels_bounded",
    "Tcrm.Evd.C23_levels_reported",
    "Tcrm.Evd.C23_record_order",
    "Tcrm.Evd.C23_skewed_missing",
    "Tcrm.Evd.C23_usable_reported"
   ],
   "note": "Exact reals; the Newton iteration of the shape is modelled as written, the results hold for whatever shape it returns."
  },
  {
   "property": "C24",
   "status": "proved",
   "theorems": [
    "Tcrm.Evd.C24_period_of_level",
    "Tcrm.Evd.C24_level_of_period",
    "Tcrm.Evd.C24_levels_increase",
    "Tcrm.Evd.C24_above_threshold_iff",
    "Tcrm.Evd.C24_bounded",
    "Tcrm.Evd.C24_fit_levels",
    "Tcrm.Evd.C24_fit_missing"
   ],
   "note": "Exact reals. The maximum-likelihood fit (scipy) is a parameter."
  },
  {
   "property": "C25",
   "status": "proved",
   "theorems": [
    "Tcrm.Evd.C25_intervals_increase",
    "Tcrm.Evd.C25_level_of_rank",
    "Tcrm.Evd.C25_levels_increase"
   ],
   "note": "Exact reals; scipy interp1d by its contract."
  },
  {
   "property": "C26",
   "status": "partial",
   "theorems": [
    "Tcrm.Config.C26_one_handle",
    "Tcrm.Config.C26_first_file_wins",
    "Tcrm.Config.C26_later_reads_ignored",
    "Tcrm.Config.C26_absent_path",
    "Tcrm.Config.C26_unopenable_fails",
    "Tcrm.Config.C26_set_seen",
    "Tcrm.Config.C26_reset_defaults",
    "Tcrm.Config.C26_stale_handle_counterexample"
   ],
   "note": "All histories of obtain/read/set/reset. False of the code in one clause: a path that exists but cannot be opened is accepted silently and blocks later reads. Handles kept across a reset (meant for tests) are stale."
  },
  {
   "property": "C27",
   "status": "partial",
   "theorems": [
    "Tcrm.Config.C27_default_if_missing",
    "Tcrm.Config.C27_default_ignored_if_present",
    "Tcrm.Config.C27_typed_partial",
    "Tcrm.Config.C27_values",
    "Tcrm.Config.C27_list_default_fails",
    "Tcrm.Config.C27_dict_default_untyped",
    "Tcrm.Config.C27_list_roundtrip",
    "Tcrm.Config.C27_empty_list_fails",
    "Tcrm.Config.C27_set_items",
    "Tcrm.Config.C27_capitals_fail",
    "Tcrm.Config.C27_truth_values_differ",
    "Tcrm.Config.C27_text_option",
    "Tcrm.Config.C27_switches",
    "Tcrm.Config.C27_switches_fail",
    "Tcrm.Config.C27_stored"
   ],
   "note": "False of the code for list defaults (None is returned), dictionary defaults (any type), the empty list, and list options written with capitals; proved for text, truth value, integer and float defaults and for non-empty lists without commas (exact characterisation). Switches read with a section are true exactly for the word True (C27_switches); three listed with capitals stay texts, and a non-empty text counts as true (C27_switches_fail)."
  },
  {
   "property": "C28",
   "status": "partial",
   "theorems": [
    "Tcrm.Register.C28_set_get",
    "Tcrm.Register.C28_already_iff",
    "Tcrm.Register.C28_load_ok_iff",
    "Tcrm.Register.C28_register_is_map",
    "Tcrm.Register.C28_separator_fails",
    "Tcrm.Register.C28_return_code"
   ],
   "note": "All histories of records, reloads and restarts with names free of separators and line breaks; false of the code for names containing the separator."
  },
  {
   "property": "C29",
   "status": "proved",
   "theorems": [
    "Tcrm.Geometry.C29_point_on_both",
    "Tcrm.Geometry.C29_no_common_point",
    "Tcrm.Geometry.C29_intersection_iff",
    "Tcrm.Geometry.C29_coincident_iff",
    "Tcrm.Geometry.C29_degenerate_coincident",
    "Tcrm.Geometry.C29_parallel_iff"
   ],
   "note": "Exact arithmetic over any ordered field. A segment of length zero is reported as coincident with everything (C29_degenerate_coincident)."
  },
  {
   "property": "C30",
   "status": "partial",
   "theorems": [
    "Tcrm.Geometry.C30_points",
    "Tcrm.Geometry.C30_all_points",
    "Tcrm.Geometry.C30_outside",
    "Tcrm.Geometry.C30_inside",
    "Tcrm.Geometry.C30_tangent_fails",
    "Tcrm.Geometry.C30_tangent_counterexample"
   ],
   "note": "Everything but tangency: the tangent point is never reported, and the status does not depend on whether it lies on the segment."
  },
  {
   "property": "C31",
   "status": "partial",
   "theorems": [
    "Tcrm.Geometry.C31_crossing_number",
    "Tcrm.Geometry.C31_no_false_land_partial",
    "Tcrm.Geometry.C31_tests_agree_partial",
    "Tcrm.Geometry.C31_outside_box",
    "Tcrm.Geometry.C31_convex_partial",
    "Tcrm.Geometry.C31_triangle_inside_partial",
    "Tcrm.Geometry.C31_triangle_outside_partial",
    "Tcrm.Geometry.C31_clockwise_fails",
    "Tcrm.Geometry.C31_counterexample"
   ],
   "note": "False as stated: the winding test never counts downward crossings, so inside points of clockwise triangles and of some counter-clockwise polygons are reported outside. Proved: no false positives by the crossing number, points outside the bounding box, agreement if the point is left of all edges, and the full property for strictly convex polygons traversed counter-clockwise."
  },
  {
   "property": "C32",
   "status": "partial",
   "theorems": [
    "Tcrm.TrackFiles.C32_round_trip",
    "Tcrm.TrackFiles.C32_round_trip_any_order",
    "Tcrm.TrackFiles.C32_names_out_of_order",
    "Tcrm.TrackFiles.C32_names_distinct",
    "Tcrm.TrackFiles.C32_empty",
    "Tcrm.TrackFiles.C32_units_fail",
    "Tcrm.TrackFiles.C32_fraction_dropped",
    "Tcrm.TrackFiles.C32_identifier"
   ],
   "note": "Proved for the default time units and times of whole seconds, any number of tracks when groups are listed in creation order (netCDF4), and up to 10000 tracks when they are listed by name. Refuted for other time units (the file always states the default units) and for fractions of seconds. The netCDF library is a contract."
  },
  {
   "property": "C33",
   "status": "partial",
   "theorems": [
    "Tcrm.Grid.C33_within_range",
    "Tcrm.Grid.C33_ascending",
    "Tcrm.Grid.C33_descending_fails",
    "Tcrm.Grid.C33_find_nearest"
   ],
   "note": "Proved for values within the range of any axis and for all values on ascending axes; refuted for all values outside the range of a descending axis."
  },
  {
   "property": "C34",
   "status": "partial",
   "theorems": [
    "Tcrm.DataProc.C34_contains_region",
    "Tcrm.DataProc.C34_contains_until_last_inside_partial",
    "Tcrm.DataProc.C34_whole_degrees_and_tight",
    "Tcrm.DataProc.C34_after_leaving_not_covered",
    "Tcrm.DataProc.C34_no_data"
   ],
   "note": "The domain contains the region, has whole-degree limits, is the smallest such box, and contains each entering track up to its last observation inside. Observations after leaving are not covered (counterexample theorem)."
  },
  {
   "property": "C35",
   "status": "partial",
   "theorems": [
    "Tcrm.DataProc.C35_mean_without_last_year_partial",
    "Tcrm.DataProc.C35_last_year_ignored",
    "Tcrm.DataProc.C35_one_year_fails",
    "Tcrm.DataProc.C35_one_track_fails"
   ],
   "note": "The frequency is the mean over the years before the last, of origins strictly inside, to two decimals; the full statement fails: origins in the last year have no influence and a one-year record gives NaN."
  },
  {
   "property": "C36",
   "status": "proved",
   "theorems": [
    "Tcrm.DataProc.C36_extract"
   ],
   "note": "Exact characterisation of the kept indices, in order and without repetition."
  },
  {
   "property": "C37",
   "status": "partial",
   "theorems": [
    "Tcrm.DataProc.C37_markers",
    "Tcrm.DataProc.C37_columns",
    "Tcrm.DataProc.C37_split",
    "Tcrm.DataProc.C37_split_identifiers",
    "Tcrm.DataProc.C37_leading_records_lost"
   ],
   "note": "Markers from identifiers and the split are correct for all records; for a file with its own index column not beginning with a marker the first records are lost (theorem)."
  },
  {
   "property": "C38",
   "status": "partial",
   "theorems": [
    "Tcrm.DataProc.C38_jump_partial",
    "Tcrm.DataProc.C38_west_south_fails",
    "Tcrm.DataProc.C38_greenwich_fails"
   ],
   "note": "Exact rule for the markers. Fails: westward and southward jumps never split, a small step west over 0 degrees always does."
  },
  {
   "property": "C39",
   "status": "partial",
   "theorems": [
    "Tcrm.Rates.C39_pressure_screened",
    "Tcrm.Rates.C39_speed_screened",
    "Tcrm.Rates.C39_no_rate_at_start",
    "Tcrm.Rates.C39_bearing_rate",
    "Tcrm.Rates.C39_pressure_rate",
    "Tcrm.Rates.C39_speed_rate",
    "Tcrm.Rates.C39_rates_kept",
    "Tcrm.Rates.C39_rmax_rate_partial",
    "Tcrm.Rates.C39_rmax_rate_fails",
    "Tcrm.Rates.C39_negative_wind_fails",
    "Tcrm.Rates.C39_wind",
    "Tcrm.Rates.C39_bearing_rate_direct",
    "Tcrm.Rates.C39_rmax_rate_missing"
   ],
   "note": "Bearing, speed and pressure parts hold. Fails for the radius (garbage rate after a missing value) and negative wind speeds are not screened."
  },
  {
   "property": "C40",
   "status": "partial",
   "theorems": [
    "Tcrm.Dates.C40_elapsed",
    "Tcrm.Dates.C40_elapsed_unbound",
    "Tcrm.Dates.C40_elapsed_jump_fails",
    "Tcrm.Dates.C40_day_partial",
    "Tcrm.Dates.C40_day_before_1900_fails",
    "Tcrm.Dates.C40_day_century_fails",
    "Tcrm.Dates.C40_no_such_day"
   ],
   "note": "Elapsed times are right for the original markers; they do not restart at tracks split off at jumps. Day numbers are right except after February in non-multiples of four before 1900 and in 1900, 2100, ..."
  },
  {
   "property": "C41",
   "status": "proved",
   "theorems": [
    "Tcrm.DynArray.C41_like_list",
    "Tcrm.DynArray.C41_append",
    "Tcrm.DynArray.C41_room"
   ],
   "note": "Appending any sequence of records to the growable array: its contents are the records in order, whatever the internal growth; each append adds exactly one record at the end."
  },
  {
   "property": "C42",
   "status": "partial",
   "theorems": [
    "Tcrm.Units.C42_same",
    "Tcrm.Units.C42_right_partial",
    "Tcrm.Units.C42_round_trip_partial",
    "Tcrm.Units.C42_temperature_partial",
    "Tcrm.Units.C42_unknown_fails",
    "Tcrm.Units.C42_no_unit_fails",
    "Tcrm.Units.C42_kelvin_fails",
    "Tcrm.Units.C42_argument_changed"
   ],
   "note": "Proved: same unit unchanged; every pair of units of one kind in the tables is converted right up to 1/1000 and round trips up to 2/1000; temperatures. The claim that an unsupported pair is reported is false of the code (values come back unchanged, also F<->K), Kelvin is 0.15 off, and F->C changes the caller's array."
  },
  {
   "property": "C43",
   "status": "partial",
   "theorems": [
    "Tcrm.Humidity.C43_rh_range",
    "Tcrm.Humidity.C43_dew_point_rh",
    "Tcrm.Humidity.C43_dew_point_round_trip",
    "Tcrm.Humidity.C43_round_trips",
    "Tcrm.Humidity.C43_round_trip_ratio",
    "Tcrm.Humidity.C43_rh_dew_point",
    "Tcrm.Humidity.C43_dry_air_fails",
    "Tcrm.Humidity.C43_wet_bulb_fails",
    "Tcrm.Humidity.C43_specific_fails",
    "Tcrm.Humidity.C43_air_pressure",
    "Tcrm.Humidity.C43_relative_humidity",
    "Tcrm.Humidity.C43_dew_point_value",
    "Tcrm.Humidity.C43_wet_bulb_pressure",
    "Tcrm.Humidity.C43_wet_bulb_dew_point",
    "Tcrm.Humidity.C43_globe"
   ],
   "note": "Proved: ranges and round trips for vapour pressure, mixing ratio, specific humidity, dew point. The range claim is false of spHumToRH (any value is attained), wetBulbToRH mixes hPa and kPa and answers 100 from 10 percent on, and rHToDewPoint raises UnboundLocalError for 0."
  },
  {
   "property": "C44",
   "status": "proved",
   "theorems": [
    "Tcrm.Angles.C44_range",
    "Tcrm.Angles.C44_inverse",
    "Tcrm.Angles.C44_direction"
   ],
   "note": "Over the exact reals, for every angle."
  },
  {
   "property": "C45",
   "status": "proved",
   "theorems": [
    "Tcrm.Evd.C45_sample_moments",
    "Tcrm.Evd.C45_too_few",
    "Tcrm.Evd.C45_second_nonneg",
    "Tcrm.Evd.C45_second_pos_iff",
    "Tcrm.Evd.C45_skewness_bound",
    "Tcrm.Evd.C45_shift_scale",
    "Tcrm.Evd.C45_fast_equals_general",
    "Tcrm.Evd.C45_pareto_recovered",
    "Tcrm.Evd.C45_two_moments",
    "Tcrm.Evd.C45_invalid"
   ],
   "note": "Exact reals; every shape above -1, 0 (the exponential distribution) included."
  },
  {
   "property": "C46",
   "status": "partial",
   "theorems": [
    "Tcrm.Vmax.C46_error",
    "Tcrm.Vmax.C46_inverse_partial",
    "Tcrm.Vmax.C46_inverse'",
    "Tcrm.Vmax.C46_atkinson_fails",
    "Tcrm.Vmax.C46_atkinson_nan",
    "Tcrm.Vmax.C46_monotone",
    "Tcrm.Vmax.C46_exists",
    "Tcrm.Profiles.C46_models_agree"
   ],
   "note": "Inverse holds for the Holland and Willoughby relations and, for Atkinson and Holliday, only at 1010 hPa (refuted otherwise); error and monotonicity proved."
  },
  {
   "property": "C47",
   "status": "partial",
   "theorems": [
    "Tcrm.Profiles.C47_hemisphere",
    "Tcrm.Profiles.C47_jelesnianski",
    "Tcrm.Profiles.C47_rankine",
    "Tcrm.Profiles.C47_core",
    "Tcrm.Profiles.C47_outer",
    "Tcrm.Profiles.C47_holland_step_fails",
    "Tcrm.Profiles.C47_holland_exceeds_fails",
    "Tcrm.Profiles.C47_outer_bound_partial",
    "Tcrm.Profiles.C47_holland_bound_partial",
    "Tcrm.Profiles.C47_second",
    "Tcrm.Profiles.C47_powell_beta",
    "Tcrm.Profiles.C47_double_fails",
    "Tcrm.Profiles.C47_second_weak",
    "Tcrm.Profiles.C47_double_core_partial",
    "Tcrm.Profiles.C47_double_curvature_fails",
    "Tcrm.Profiles.C47_newHolland_fails",
    "Tcrm.Profiles.C47_coriolis",
    "Tcrm.Profiles.C47_newHolland_partial"
   ],
   "note": "Proved for Jelesnianski and Rankine. For Holland: the cubic core joins with equal first and second derivative, but not equal value, and exceeds the maximum wind just inside (both refuted, with bounds on the excess). The double vortex is unbounded south of the equator (refuted); its core has the value, slope and curvature it was built with, but that curvature is not the one of the outer profile (refuted). The profile of 2010 takes its radius of gales in metres and exceeds 1000 m/s (refuted); with a radius of gales in the unit of the other distances it peaks at the radius of maximum wind and is 17 m/s at the radius of gales (C47_newHolland_partial)."
  },
  {
   "property": "C48",
   "status": "partial",
   "theorems": [
    "Tcrm.Pressure.C48_bounds",
    "Tcrm.Pressure.C48_increasing",
    "Tcrm.Pressure.C48_limits",
    "Tcrm.Pressure.C48_decreasing",
    "Tcrm.Pressure.C48_willoughby_fails",
    "Tcrm.Pressure.C48_deficits",
    "Tcrm.Pressure.C48_double_bounds",
    "Tcrm.Pressure.C48_double_increasing",
    "Tcrm.Pressure.C48_powell_increasing",
    "Tcrm.Pressure.C48_willoughby_partial",
    "Tcrm.Pressure.C48_powell_parameter"
   ],
   "note": "Proved for every profile with a positive shape parameter; the shape parameter of willoughby can be negative, and then the pressure falls with radius (refuted)."
  },
  {
   "property": "C49",
   "status": "partial",
   "theorems": [
    "Tcrm.Boundary.C49_mcconochie_inflow",
    "Tcrm.Boundary.C49_factor_bounds",
    "Tcrm.Boundary.C49_factor_antitone",
    "Tcrm.Boundary.C49_factor_partial",
    "Tcrm.Boundary.C49_factor_fails",
    "Tcrm.Boundary.C49_surface_wind_fails",
    "Tcrm.Boundary.C49_hubbert_inflow_fails",
    "Tcrm.Boundary.C49_components"
   ],
   "note": "Inflow of McConochie continuous and bounded; reduction factor bounded but with two jumps, inflow of Hubbert with one (refuted)."
  },
  {
   "property": "C50",
   "status": "partial",
   "theorems": [
    "Tcrm.Multipliers.C50_inside",
    "Tcrm.Multipliers.C50_cover",
    "Tcrm.Multipliers.C50_count",
    "Tcrm.Multipliers.C50_once",
    "Tcrm.Multipliers.C50_result",
    "Tcrm.Multipliers.C50_bounded",
    "Tcrm.Multipliers.C50_stuck_partial",
    "Tcrm.Multipliers.C50_one_thread_partial",
    "Tcrm.Multipliers.C50_hangs_fails"
   ],
   "note": "Cover, exactly-once and equality with the whole raster are proved for every interleaving. Missing: the pool always finishes only with one thread; with two or more a thread can wait for ever on the emptied queue (C50_hangs_fails)."
  },
  {
   "property": "C51",
   "status": "partial",
   "theorems": [
    "Tcrm.Multipliers.C51_bearing",
    "Tcrm.Multipliers.C51_unique",
    "Tcrm.Multipliers.C51_selects",
    "Tcrm.Multipliers.C51_bands",
    "Tcrm.Multipliers.C51_rounded_fails"
   ],
   "note": "Proved for exact bearings. Missing: a bearing rounded up to 360 in single precision selects no multiplier (C51_rounded_fails)."
  },
  {
   "property": "C52",
   "status": "partial",
   "theorems": [
    "Tcrm.Database.C52_exceeding",
    "Tcrm.Database.C52_exceeding_unknown",
    "Tcrm.Database.C52_records",
    "Tcrm.Database.C52_levels",
    "Tcrm.Database.C52_passage_wind",
    "Tcrm.Database.C52_passage_partial",
    "Tcrm.Database.C52_passage_fails",
    "Tcrm.Database.C52_return_partial",
    "Tcrm.Database.C52_return_none_fails"
   ],
   "note": "Proved for locationRecordsExceeding, locationRecords, locationAllReturnLevels and locationPassageWindSpeed. Refuted for locationPassage, which returns the winds of all locations; locationReturnPeriodEvents is proved when one level is recorded and raises IndexError when none is."
  },
  {
   "property": "C53",
   "status": "partial",
   "theorems": [
    "Tcrm.TrackGen.C53_several_simulations_partial",
    "Tcrm.TrackGen.C53_single_simulation_fails",
    "Tcrm.TrackGen.C53_event_sets"
   ],
   "note": "False for one simulation (division by zero); for two or more proved on any number of ranks: only the generation of an event set can fail (C53_several_simulations_partial), and the files of all ranks are one event set for each simulation with the number of tracks drawn for it (C53_event_sets)."
  },
  {
   "property": "C54",
   "status": "partial",
   "theorems": [
    "Tcrm.TrackGen.C54_genesis_pressure_partial",
    "Tcrm.TrackGen.C54_generated_tracks",
    "Tcrm.TrackGen.C54_wraps_around"
   ],
   "note": "Second half proved; the first half holds when the table starts below the environment and fails otherwise (index -1)."
  },
  {
   "property": "C55",
   "status": "partial",
   "theorems": [
    "Tcrm.TrackGen.C55_size_distribution_unusable",
    "Tcrm.TrackGen.C55_prescribed_radius_unusable"
   ],
   "note": "The property is false; the theorems prove the negations for all inputs."
  },
  {
   "property": "C56",
   "status": "partial",
   "theorems": [
    "Tcrm.GustFiles.C56_only_last_track_kept",
    "Tcrm.GustFiles.C56_counterexample",
    "Tcrm.GustFiles.C56_single_track_partial"
   ],
   "note": "False in the code: output name does not depend on the track, so only the last track's local wind field remains. Holds for one track."
  },
  {
   "property": "C57",
   "status": "partial",
   "theorems": [
    "Tcrm.GustFiles.C57_listing_order",
    "Tcrm.GustFiles.C57_records_partial",
    "Tcrm.GustFiles.C57_fails_with_other_files"
   ],
   "note": "Holds when the directory contains event files only; any other regular file without vmax (e.g. the evolution files) stops the calculation."
  },
  {
   "property": "C58",
   "status": "proved",
   "theorems": [
    "Tcrm.Evd.C58_moments_reproduced",
    "Tcrm.Evd.C58_quantile",
    "Tcrm.Evd.C58_distribution",
    "Tcrm.Evd.C58_shape",
    "Tcrm.Evd.C58_gumbel",
    "Tcrm.Evd.C58_record",
    "Tcrm.Evd.C58_all"
   ],
   "note": "L-moments as integrals of the quantile function. Shape 0: to within the rounding of the constants in the code. The shape is above -1 for every L-skewness; below -0.8 this follows from the convergence of the Newton-Raphson iterations (C148)."
  },
  {
   "property": "C59",
   "status": "partial",
   "theorems": [
    "Tcrm.Evd.C59_full_period_iff",
    "Tcrm.Evd.C59_counterexample"
   ],
   "note": "False of the code: the period equal to the number of simulated years is accepted if and only if that number is a multiple of four."
  },
  {
   "property": "C60",
   "status": "partial",
   "theorems": [
    "Tcrm.Evd.C60_zero_cell_fails",
    "Tcrm.Evd.C60_missing_partial"
   ],
   "note": "False of the code for cells without any wind, which get 0; proved for cells with at least one positive value."
  },
  {
   "property": "C61",
   "status": "partial",
   "theorems": [
    "Tcrm.Evd.C61_fails"
   ],
   "note": "False of the code: TypeError for every input."
  },
  {
   "property": "C62",
   "status": "partial",
   "theorems": [
    "Tcrm.Register.C62_interrupted_write_fails",
    "Tcrm.Register.C62_next_record_fails",
    "Tcrm.Register.C62_complete_write_partial",
    "Tcrm.Register.C62_written"
   ],
   "note": "False of the code: an unfinished line makes the register unreadable for all later runs. Proved for stops before the first or after the last character."
  },
  {
   "property": "C63",
   "status": "partial",
   "theorems": [
    "Tcrm.Register.C63_deleted",
    "Tcrm.Register.C63_reports_failure",
    "Tcrm.Register.C63_entries_stay"
   ],
   "note": "Holds for later runs; false of the code for the running process and for the return code."
  },
  {
   "property": "C64",
   "status": "partial",
   "theorems": [
    "Tcrm.Geometry.C64_line_always_intersects",
    "Tcrm.Geometry.C64_line_points_partial",
    "Tcrm.Geometry.C64_last_edge_missed",
    "Tcrm.Geometry.C64_circle_counterexample",
    "Tcrm.Geometry.C64_circle_partial",
    "Tcrm.Geometry.C64_circle_meets_partial",
    "Tcrm.Geometry.C64_circle_points",
    "Tcrm.Geometry.C64_circle_list_partial",
    "Tcrm.Geometry.C64_examined",
    "Tcrm.Geometry.C64_examined_closed"
   ],
   "note": "False: the line test reports an intersection for every polygon with an edge, the circle test on a list of polygons skips the last edge. Proved: the listed points, and the circle test on one polygon that is not a list, up to tangency."
  },
  {
   "property": "C65",
   "status": "partial",
   "theorems": [
    "Tcrm.TrackFiles.C65_tracks",
    "Tcrm.TrackFiles.C65_no_record_lost_partial",
    "Tcrm.TrackFiles.C65_number_zero_lost",
    "Tcrm.TrackFiles.C65_single_record_fails",
    "Tcrm.TrackFiles.C65_bad_line_empties"
   ],
   "note": "Proved for files of at least two well-formed records with positive storm numbers; the exceptions are proved to lose records."
  },
  {
   "property": "C66",
   "status": "proved",
   "theorems": [
    "Tcrm.TrackFiles.C66_load_path",
    "Tcrm.TrackFiles.C66_no_directory",
    "Tcrm.TrackFiles.C66_stops_at_error"
   ],
   "note": ""
  },
  {
   "property": "C67",
   "status": "partial",
   "theorems": [
    "Tcrm.TrackFiles.C67_other_columns_partial",
    "Tcrm.TrackFiles.C67_second_save_fails"
   ],
   "note": "All columns but the date column are unchanged; the date column is overwritten, and a second save fails."
  },
  {
   "property": "C68",
   "status": "partial",
   "theorems": [
    "Tcrm.Grid.C68_first_not_below_partial",
    "Tcrm.Grid.C68_at_grid_point_partial",
    "Tcrm.Grid.C68_not_nearest",
    "Tcrm.Grid.C68_mirrored",
    "Tcrm.Grid.C68_ascii_fails",
    "Tcrm.Grid.C68_west_fails"
   ],
   "note": "At grid points of a file with ascending coordinates and rows from north to south the value is that of the point; between grid points the next one east and north is taken, not the nearest. For rows in the order of the latitudes, for ascii grids and for western longitudes the result is wrong, as proved."
  },
  {
   "property": "C69",
   "status": "proved",
   "theorems": [
    "Tcrm.Rates.C69_initial",
    "Tcrm.Rates.C69_not_initial",
    "Tcrm.Rates.C69_partition",
    "Tcrm.Rates.C69_values"
   ],
   "note": "For all 0/1 marker columns of any length."
  },
  {
   "property": "C70",
   "status": "partial",
   "theorems": [
    "Tcrm.Dates.C70_clock_partial",
    "Tcrm.Dates.C70_after_midnight_fails"
   ],
   "note": "Both notations are read correctly if some hhmm time is 01:00 or later; otherwise minutes become hours. Whether a file gets there is the subject of C168."
  },
  {
   "property": "C71",
   "status": "partial",
   "theorems": [
    "Tcrm.Dates.C71_steps_partial",
    "Tcrm.Dates.C71_whole_hours",
    "Tcrm.Dates.C71_short_steps_fail"
   ],
   "note": "Steps are rounded to whole hours: exact for whole hours, within half an hour otherwise, zero below half an hour."
  },
  {
   "property": "C72",
   "status": "partial",
   "theorems": [
    "Tcrm.Dates.C72_extremes",
    "Tcrm.Dates.C72_poci",
    "Tcrm.Dates.C72_missing_pressure_fails",
    "Tcrm.Dates.C72_poci_maxsize"
   ],
   "note": "Extremes hold; the outer pressure of loaded track files is computed from missing pressures because the marks differ."
  },
  {
   "property": "C73",
   "status": "proved",
   "theorems": [
    "Tcrm.Humidity.C73_wet_bulb"
   ],
   "note": "Exact reals, before the final rounding to three decimals; dew point above -237.3 degrees (the pole of the formula), pressure not negative."
  },
  {
   "property": "C74",
   "status": "partial",
   "theorems": [
    "Tcrm.Profiles.C74_core_partial",
    "Tcrm.Profiles.C74_outer_fails",
    "Tcrm.Profiles.C74_jelesnianski_fails",
    "Tcrm.Profiles.C74_jelesnianski_size",
    "Tcrm.Profiles.C74_rankine_fails",
    "Tcrm.Profiles.C74_double_outer_fails",
    "Tcrm.Profiles.C74_double_core_fails",
    "Tcrm.Profiles.C74_rankine_outer",
    "Tcrm.Profiles.C74_rankine_outer_fails"
   ],
   "note": "Holds for the core of Holland's profile; refuted outside it, for Jelesnianski and Rankine, and for both parts of the double vortex."
  },
  {
   "property": "C75",
   "status": "partial",
   "theorems": [
    "Tcrm.Compiled.C75_velocity",
    "Tcrm.Compiled.C75_velocity_agrees",
    "Tcrm.Compiled.C75_equator_fails",
    "Tcrm.Compiled.C75_vorticity_partial",
    "Tcrm.Compiled.C75_vorticity_fails",
    "Tcrm.Compiled.C75_kepert",
    "Tcrm.Compiled.C75_kepert_agrees",
    "Tcrm.Compiled.C75_distance"
   ],
   "note": "Agreement proved off the equator for shape parameters up to 2 (wind: up to 3); refuted on the equator and for the vorticity of steep profiles. Single-precision literals of the Fortran source are taken exactly."
  },
  {
   "property": "C76",
   "status": "partial",
   "theorems": [
    "Tcrm.Boundary.C76_kepert_mirror",
    "Tcrm.Boundary.C76_kepert_speed",
    "Tcrm.Boundary.C76_mcconochie",
    "Tcrm.Boundary.C76_hubbert_fails",
    "Tcrm.Boundary.C76_angle_fails",
    "Tcrm.Boundary.C76_profiles_mirror",
    "Tcrm.Boundary.C76_vorticity_mirror",
    "Tcrm.Boundary.C76_rankine_vorticity_fails",
    "Tcrm.Boundary.C76_double_mirror_fails",
    "Tcrm.Boundary.C76_kepert_field",
    "Tcrm.Boundary.C76_mcconochie_field",
    "Tcrm.Boundary.C76_hubbert_field_fails"
   ],
   "note": "Mirror symmetry of the Kepert and McConochie fields (both components of the wind) and of the profiles of Jelesnianski, Rankine, Holland and 2010, and the place of the maximum in McConochie, proved; refuted for Hubbert's field (mirrored exactly where the motion adds nothing), for the vorticity of Rankine's profile and for the double vortex; the configured angle is converted to radians three times (refuted)."
  },
  {
   "property": "C77",
   "status": "partial",
   "theorems": [
    "Tcrm.Selection.C77_usable_partial",
    "Tcrm.Selection.C77_unusable_fails",
    "Tcrm.Selection.C77_exactly"
   ],
   "note": "Exactly four profiles work; jelesnianski and doubleHolland are documented but fail."
  },
  {
   "property": "C78",
   "status": "partial",
   "theorems": [
    "Tcrm.Pressure.C78_powell_fails",
    "Tcrm.Pressure.C78_willoughby_fails",
    "Tcrm.Pressure.C78_double_partial"
   ],
   "note": "Refuted for powell and willoughby; holland and schloemer take the same parameter by construction, and the two vortices of doubleholland have the same deficits and default shapes."
  },
  {
   "property": "C79",
   "status": "partial",
   "theorems": [
    "Tcrm.Multipliers.C79_files_partial",
    "Tcrm.Multipliers.C79_direct_fails"
   ],
   "note": "True of wind fields read from gust files; refuted for wind fields passed on directly, whose rows are mirrored."
  },
  {
   "property": "C80",
   "status": "partial",
   "theorems": [
    "Tcrm.MultiplierFiles.C80_product_partial",
    "Tcrm.Multipliers.C80_filled",
    "Tcrm.MultiplierFiles.C80_missing_fails"
   ],
   "note": "Product proved when none is missing, and the missing mark when terrain is missing (which leaves the wind unchanged); refuted for missing topography or shielding, which count as 1."
  },
  {
   "property": "C81",
   "status": "proved",
   "theorems": [
    "Tcrm.MultiplierFiles.C81_segments",
    "Tcrm.MultiplierFiles.C81_refused",
    "Tcrm.MultiplierFiles.C81_directory"
   ],
   "note": "For every location text."
  },
  {
   "property": "C82",
   "status": "partial",
   "theorems": [
    "Tcrm.MultiplierFiles.C82_intersection",
    "Tcrm.MultiplierFiles.C82_given",
    "Tcrm.MultiplierFiles.C82_image_partial",
    "Tcrm.MultiplierFiles.C82_south_up_fails",
    "Tcrm.MultiplierFiles.C82_disjoint_fails"
   ],
   "note": "The extent is the intersection for images with north at the top; refuted for images with south at the top, and rasters without overlap are not reported."
  },
  {
   "property": "C83",
   "status": "partial",
   "theorems": [
    "Tcrm.Database.C83_first_partial",
    "Tcrm.Database.C83_again_fails",
    "Tcrm.Database.C83_twice_fails",
    "Tcrm.Database.C83_stale_fails"
   ],
   "note": "Proved for the first update; refuted for later ones, which duplicate winds, levels and passages and keep the old events."
  },
  {
   "property": "C84",
   "status": "partial",
   "theorems": [
    "Tcrm.Database.C84_same",
    "Tcrm.Database.C84_distinct",
    "Tcrm.Database.C84_other_fails",
    "Tcrm.Database.C84_interrupted_fails"
   ],
   "note": "Identifiers proved to agree and to be distinct; refuted for directories with other files, which end the update."
  },
  {
   "property": "C85",
   "status": "partial",
   "theorems": [
    "Tcrm.Database.C85_inside_partial",
    "Tcrm.Database.C85_west_fails"
   ],
   "note": "Proved for domains within 0 to 360; refuted for domains in negative longitudes."
  },
  {
   "property": "C86",
   "status": "partial",
   "theorems": [
    "Tcrm.Stations.C86_records",
    "Tcrm.Stations.C86_total",
    "Tcrm.Stations.C86_tables",
    "Tcrm.Stations.C86_files",
    "Tcrm.Stations.C86_same_id_fails",
    "Tcrm.Stations.C86_minimum_fails",
    "Tcrm.Stations.C86_west_fails"
   ],
   "note": "Records, tables and files proved; refuted: stations with the same identifier share a file, the minimum can be taken from a time when the station was outside the grid, and stations of csv files in western longitudes are never inside."
  },
  {
   "property": "C87",
   "status": "partial",
   "theorems": [
    "Tcrm.Stations.C87_upper",
    "Tcrm.Stations.C87_grid_point_partial",
    "Tcrm.Stations.C87_between_fails"
   ],
   "note": "Upper bound for all stations, equality for stations at grid points; refuted for stations just outside the local grid."
  },
  {
   "property": "C88",
   "status": "partial",
   "theorems": [
    "Tcrm.Stations.C88_single_partial",
    "Tcrm.Stations.C88_last_writer",
    "Tcrm.Stations.C88_parallel_fails",
    "Tcrm.Stations.C88_restart_fails"
   ],
   "note": "Proved for one process and no wind field complete beforehand; refuted for parallel runs (the last process replaces the files) and resumed runs."
  },
  {
   "property": "C89",
   "status": "partial",
   "theorems": [
    "Tcrm.Stations.C89_between_partial",
    "Tcrm.Stations.C89_direction_fails",
    "Tcrm.Stations.C89_jump_fails",
    "Tcrm.Stations.C89_uniform",
    "Tcrm.Stations.C89_bearing"
   ],
   "note": "The factor lies between the two neighbouring multipliers; refuted: the weights are interchanged, so a wind from a direction gets the multiplier of the next one and the factor jumps."
  },
  {
   "property": "C90",
   "status": "partial",
   "theorems": [
    "Tcrm.Foliation.C90_file_partial",
    "Tcrm.Foliation.C90_labels_fail",
    "Tcrm.Foliation.C90_inside",
    "Tcrm.Foliation.C90_axis",
    "Tcrm.Foliation.C90_axis_refused"
   ],
   "note": "Proved for settings in whole hundredths of a degree with the resolution dividing the size of the domain; refuted otherwise."
  },
  {
   "property": "C91",
   "status": "partial",
   "theorems": [
    "Tcrm.Akima.C91_succeeds",
    "Tcrm.Akima.C91_observed",
    "Tcrm.Akima.C91_line",
    "Tcrm.Akima.C91_units",
    "Tcrm.Akima.C91_smooth",
    "Tcrm.Akima.C91_range_fails",
    "Tcrm.Akima.C91_akima"
   ],
   "note": "All parts proved for the Python implementation (exact arithmetic), except that positions stay in the observed range, which is refuted: Akima's curve overshoots."
  },
  {
   "property": "C92",
   "status": "partial",
   "theorems": [
    "Tcrm.TrackInterp.C92_times_partial",
    "Tcrm.TrackInterp.C92_uniform_partial",
    "Tcrm.TrackInterp.C92_total",
    "Tcrm.TrackInterp.C92_parse",
    "Tcrm.TrackInterp.C92_start_fails",
    "Tcrm.TrackInterp.C92_step_fails",
    "Tcrm.TrackInterp.C92_seconds_fails"
   ],
   "note": "Proved: times, with the exact range of the final step, and success for all tracks; uniform when the step divides the duration. Refuted: the final step is otherwise up to twice as long, a step longer than the track loses its start, seconds are dropped."
  },
  {
   "property": "C93",
   "status": "partial",
   "theorems": [
    "Tcrm.TrackInterp.C93_lines",
    "Tcrm.TrackInterp.C93_observed",
    "Tcrm.TrackInterp.C93_meridian_fails"
   ],
   "note": "Proved for the methods linear and akima; the default scipy spline is a parameter. Refuted across the zero meridian."
  },
  {
   "property": "C94",
   "status": "partial",
   "theorems": [
    "Tcrm.TrackInterp.C94_speed_partial",
    "Tcrm.TrackInterp.C94_last",
    "Tcrm.TrackInterp.C94_speed_fails",
    "Tcrm.TrackInterp.C94_single"
   ],
   "note": "Proved for all legs but the final one; refuted there whenever the step does not divide the duration (distance is divided by the nominal step)."
  },
  {
   "property": "C95",
   "status": "partial",
   "theorems": [
    "Tcrm.TrackInterp.C95_pressure_partial",
    "Tcrm.TrackInterp.C95_wind_partial",
    "Tcrm.TrackInterp.C95_few",
    "Tcrm.TrackInterp.C95_one_none",
    "Tcrm.TrackInterp.C95_last_fails",
    "Tcrm.TrackInterp.C95_wind_one_none",
    "Tcrm.TrackInterp.C95_wind_few",
    "Tcrm.TrackInterp.C95_few_fails"
   ],
   "note": "Proved (for the wind speed too) except for the last record with a known pressure, which repeats the pressure of the record before on tracks of four or more observations (refutation). With three observations, one of them without pressure, interpolated pressures between known ones are marked missing (C95_few_fails)."
  },
  {
   "property": "C96",
   "status": "partial",
   "theorems": [
    "Tcrm.Sphere.C96_destination",
    "Tcrm.Sphere.C96_distance",
    "Tcrm.Sphere.C96_bearing",
    "Tcrm.Sphere.C96_turns",
    "Tcrm.Sphere.C96_range",
    "Tcrm.Sphere.C96_legs",
    "Tcrm.Sphere.C96_reach",
    "Tcrm.Sphere.C96_pole_fails"
   ],
   "note": "Proved in exact real arithmetic for every starting latitude strictly between the poles (the distance also at the poles). At the pole itself the bearing is ignored (C96_pole_fails)."
  },
  {
   "property": "C97",
   "status": "proved",
   "theorems": [
    "Tcrm.Sphere.C97_grid",
    "Tcrm.Sphere.C97_metric",
    "Tcrm.Sphere.C97_distGC"
   ],
   "note": "Exact real arithmetic; units other than kilometres are the subject of the unit conversion properties."
  },
  {
   "property": "C98",
   "status": "partial",
   "theorems": [
    "Tcrm.Sphere.C98_displacement",
    "Tcrm.Sphere.C98_range",
    "Tcrm.Sphere.C98_injective",
    "Tcrm.Sphere.C98_legs",
    "Tcrm.Sphere.C98_meridian",
    "Tcrm.Sphere.C98_reverse_fails",
    "Tcrm.Sphere.C98_dateline_fails",
    "Tcrm.Sphere.C98_roundtrip_fails"
   ],
   "note": "Displacement, range, recovery of the track and lengths along meridians are proved. Refuted: the length depends on the direction (the parallel of the end point is used), a step across the meridian where longitudes restart is measured the long way round, and the length is not the distance the position was moved by. The rounding of bearings to single precision is not modelled."
  },
  {
   "property": "C99",
   "status": "partial",
   "theorems": [
    "Tcrm.Sphere.C99_shape_fails",
    "Tcrm.Sphere.C99_value_fails",
    "Tcrm.Sphere.C99_one_row"
   ],
   "note": "Refuted: a grid with three or more latitudes raises, a grid with one latitude comes back with two rows, and points of the line itself are reported away from it."
  }
 ]
}
