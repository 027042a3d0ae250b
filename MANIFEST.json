{
 "claims": [
  {
   "property": "C01",
   "status": "proved",
   "theorems": [
    "config_latest_wins",
    "config_no_duplicates"
   ],
   "note": "Values are stored with lists turned into tuples (Leaf.freeze)."
  },
  {
   "property": "C02",
   "status": "proved",
   "theorems": [
    "diff_exact",
    "diff_overlay",
    "diff_fails_iff"
   ],
   "note": ""
  },
  {
   "property": "C03",
   "status": "proved",
   "theorems": [
    "update_history"
   ],
   "note": ""
  },
  {
   "property": "C04",
   "status": "proved",
   "theorems": [
    "as_dict_roundtrip",
    "as_dict_roundtrip_exact"
   ],
   "note": ""
  },
  {
   "property": "C05",
   "status": "partial",
   "theorems": [
    "dump_load_not_faithful",
    "dump_load_partial"
   ],
   "note": "False when two sections have the same time (witness); holds for strictly increasing times."
  },
  {
   "property": "C06",
   "status": "proved",
   "theorems": [
    "config_files_found"
   ],
   "note": ""
  },
  {
   "property": "C07",
   "status": "partial",
   "theorems": [
    "files_sections_ignored",
    "files_sections_partial"
   ],
   "note": "False for a file with several sections (witness); holds for one section per file."
  },
  {
   "property": "C08",
   "status": "proved",
   "theorems": [
    "match_fails_iff",
    "match_value"
   ],
   "note": ""
  },
  {
   "property": "C09",
   "status": "partial",
   "theorems": [
    "hemipelagic_not_shared",
    "shared_parameters_partial",
    "unshared_parameters"
   ],
   "note": "False for sediments.hemipelagic (witness); holds for the other shared parameters."
  },
  {
   "property": "C10",
   "status": "proved",
   "theorems": [
    "components_order",
    "components_fail_iff",
    "sea_level_class",
    "output_last"
   ],
   "note": ""
  },
  {
   "property": "C100",
   "status": "partial",
   "theorems": [
    "byCurvature_bend_partial",
    "byCurvature_invariant",
    "byCurvature_bend_first"
   ],
   "note": "False for a bend at the second node."
  },
  {
   "property": "C101",
   "status": "partial",
   "theorems": [
    "ignored_parameters",
    "hemipelagic_change_ignored",
    "shoreline_alpha_refused",
    "read_only_refused",
    "density_change_checked",
    "sea_level_time_change",
    "interval_change",
    "fields_change",
    "filepath_change",
    "shoreline_alpha_never_changed",
    "change_is_local",
    "fluvial_change_partial",
    "sea_level_file_change_partial",
    "subsidence_file_change_partial",
    "diffuser_change_partial",
    "load_change_uses_old_sea_level"
   ],
   "note": "False for the ignored parameters, shoreline.alpha, shared parameters and loads that depend on sea level."
  },
  {
   "property": "C102",
   "status": "proved",
   "theorems": [
    "run_without_changes"
   ],
   "note": ""
  },
  {
   "property": "C103",
   "status": "partial",
   "theorems": [
    "dry_run_partial",
    "dry_run_deletes"
   ],
   "note": "False with clobber (witness)."
  },
  {
   "property": "C104",
   "status": "proved",
   "theorems": [
    "run_touches_only_outputs",
    "run_command_touches_only_outputs"
   ],
   "note": "Paths are names; two names of one file are not modelled."
  },
  {
   "property": "C105",
   "status": "proved",
   "theorems": [
    "existing_files_kept",
    "run_command_keeps_existing"
   ],
   "note": "Paths are names; two names of one file are not modelled."
  },
  {
   "property": "C106",
   "status": "partial",
   "theorems": [
    "unknown_parameters_partial",
    "unknown_parameter_later_ignored",
    "unknown_section_ignored"
   ],
   "note": "False for unknown sections at the start and unknown parameters later (witnesses)."
  },
  {
   "property": "C107",
   "status": "proved",
   "theorems": [
    "run_ends",
    "run_needs_stop_and_step",
    "running_means_steps",
    "backwards_never_stops"
   ],
   "note": ""
  },
  {
   "property": "C108",
   "status": "proved",
   "theorems": [
    "setup_clock",
    "setup_processes",
    "setup_parameters",
    "setup_isostasy",
    "setup_curves",
    "setup_grid",
    "setup_surface",
    "setup_output",
    "setup_porosity",
    "setup_later_files",
    "setup_clobber"
   ],
   "note": ""
  },
  {
   "property": "C109",
   "status": "proved",
   "theorems": [
    "unused_sections"
   ],
   "note": "With later sections it does not hold: a value that repeats an earlier unused one is not reported as a change."
  },
  {
   "property": "C11",
   "status": "proved",
   "theorems": [
    "model_run_steps",
    "model_run_times",
    "model_run_error",
    "cli_run_steps"
   ],
   "note": "Number and times of the steps for components that succeed; a failing component ends the run. The clock is left one step past the last executed step."
  },
  {
   "property": "C110",
   "status": "proved",
   "theorems": [
    "change_needs_component",
    "no_start_file",
    "no_start_file_rounds"
   ],
   "note": "A component that raises StopIteration ends a run without an error; no_start_file leaves that case open."
  },
  {
   "property": "C111",
   "status": "partial",
   "theorems": [
    "datum_partial",
    "datum_run_partial",
    "datum_waterFlexure_fails",
    "bathymetry_moved",
    "file_moved",
    "sinusoid_moved"
   ],
   "note": "False with water flexure (witness) or load_sealevel, and for the water depth of the first layer."
  },
  {
   "property": "C112",
   "status": "proved",
   "theorems": [
    "calendar",
    "file_moved",
    "sinusoid_moved"
   ],
   "note": "Assumes that compaction does not look at ages."
  },
  {
   "property": "C113",
   "status": "proved",
   "theorems": [
    "sea_level_to_come",
    "sea_level_after_stop",
    "sections_to_come",
    "files_after_stop"
   ],
   "note": "Later files have to be readable; each earlier file has at least one section."
  },
  {
   "property": "C114",
   "status": "proved",
   "theorems": [
    "setup_accepts_iff"
   ],
   "note": "For values of the right types and readable later files; where find_shoreline succeeds is left to C29 to C31."
  },
  {
   "property": "C115",
   "status": "partial",
   "theorems": [
    "setup_then_run_partial",
    "setup_options_run",
    "sea_level_file_refused"
   ],
   "note": "Accepted without options; with options exactly if the configuration is fine (C114); always refused if an option sea_level.filepath names a sea-level file. That written toml and csv files are read back, which keywords landlab and compaction take and that scipy interpolates are assumed (UsualWorld)."
  },
  {
   "property": "C116",
   "status": "partial",
   "theorems": [
    "generate_toml_partial",
    "generate_yaml_unreadable",
    "generate_yaml_section",
    "generate_null"
   ],
   "note": "Holds for toml without null options; false for yaml with options for parameters, true if an option replaces the values of the grid section. tomlkit and yaml are external and modelled by what they do to tuples."
  },
  {
   "property": "C117",
   "status": "partial",
   "theorems": [
    "shoreline_found",
    "process_stops",
    "step_stops_partial",
    "flat_land_goes_on",
    "no_zero_divisor",
    "rising_sea_stops"
   ],
   "note": "Exact but for the fluvial process on flat nodes and a diffusivity divided by zero, where the code goes on with NaN or infinity and the model stops. scipy finds roots, landlab solves and a spline interpolates (Usable)."
  },
  {
   "property": "C118",
   "status": "partial",
   "theorems": [
    "formats_supported",
    "format_of_name",
    "found_files_readable",
    "formats_agree",
    "from_file_iff",
    "load_config_shape",
    "dump_formats",
    "grid_from_toml",
    "grid_from_dump_fails"
   ],
   "note": "False of the grid made from a dumped file. The parsers are external: they give the sections or an exception; names without a slash."
  },
  {
   "property": "C119",
   "status": "partial",
   "theorems": [
    "chained_commands_partial",
    "command_defaults",
    "chained_options_leak",
    "chained_option_stays"
   ],
   "note": "False: later commands use the options of earlier ones. Independent if the earlier commands have no options or the same ones."
  },
  {
   "property": "C12",
   "status": "partial",
   "theorems": [
    "clock_not_elapsed_time",
    "clock_elapsed_time_partial"
   ],
   "note": "False in general: with a dt other than the clock step the clock still advances by its own step. Proved when every call uses the clock step."
  },
  {
   "property": "C120",
   "status": "partial",
   "theorems": [
    "null_not_given_partial",
    "null_refused",
    "setup_null",
    "generate_null",
    "plot_verbose_null"
   ],
   "note": "Holds for clock.stop, output.fields and output.rows. False for the parameters of processes, generated files and sequence --verbose plot. That tomlkit raises on None is assumed."
  },
  {
   "property": "C121",
   "status": "proved",
   "theorems": [
    "new_components",
    "new_fields"
   ],
   "note": "Attributes of external classes (landlab, compaction) are not modelled."
  },
  {
   "property": "C122",
   "status": "partial",
   "theorems": [
    "progress_numbers",
    "progress_full_partial",
    "progress_not_full",
    "finished_bar"
   ],
   "note": "The bar counts the steps, but is full only if the clock starts at 0 (or within a step of it). tqdm is external: a bar is a number."
  },
  {
   "property": "C123",
   "status": "partial",
   "theorems": [
    "message_lines",
    "isLines_unique",
    "stdout_is_directory",
    "silent_quiet_partial",
    "silent_verbose_talks",
    "default_messages",
    "procs_enabled",
    "components_reported",
    "disabled_reported",
    "all_disabled_but_two"
   ],
   "note": "False of --silent with --verbose and of an empty list of processes. Runs that no error stops; styles, the bar itself and messages of other packages (python warnings) are not modelled."
  },
  {
   "property": "C124",
   "status": "partial",
   "theorems": [
    "left_fits",
    "left_touches_only_outputs",
    "left_keeps_existing",
    "failed_step_keeps",
    "failed_change_keeps",
    "left_complete",
    "left_keeps_records",
    "rows_leave_unfinished",
    "some_rows_leave_record"
   ],
   "note": "False of rows that are not in the grid: the first step fails while writing. Completeness assumes no output.rows and a grid that fits its fields; otherwise the records before the one that fails are kept (left_keeps_records)."
  },
  {
   "property": "C125",
   "status": "partial",
   "theorems": [
    "change_order_free_partial",
    "finishes_in_any_order_partial",
    "leftByRunIn_model",
    "order_of_error",
    "order_of_files",
    "order_of_success"
   ],
   "note": "False of the error and the files if a change fails, and false with dictionaries deeper than two levels. Assumes that reading and evaluating curves does not raise StopIteration."
  },
  {
   "property": "C126",
   "status": "proved",
   "theorems": [
    "old_files_irrelevant",
    "old_files_overwritten",
    "left_directories",
    "run_again"
   ],
   "note": "The directory and run-again statements assume distinct keys in the configuration files (yaml and toml dictionaries have them)."
  },
  {
   "property": "C127",
   "status": "partial",
   "theorems": [
    "float_until_exact",
    "float_until_bounds_partial",
    "float_until_steps_partial",
    "float_until_short",
    "float_until_extra",
    "float_single_step_twice"
   ],
   "note": "Exact on grids of powers of two, with bounds in general. False without: run(until=1.0, dt=0.1) ends at 0.9999999999999999, run(until=2.2, dt=0.1) makes an additional update of length zero, and run() at 0.2 with steps of 0.1 makes two updates. Overflow and subnormal numbers are left out."
  },
  {
   "property": "C128",
   "status": "proved",
   "theorems": [
    "output_settings_only_select",
    "running_rounds",
    "shown_is_written"
   ],
   "note": "A run that a bad output setting makes fail is compared up to the round in which it fails."
  },
  {
   "property": "C129",
   "status": "proved",
   "theorems": [
    "section_options",
    "section_items",
    "section_refused"
   ],
   "note": "What yaml makes of the text is any dictionary or value. Keys that are not texts and dictionaries inside of lists are not modelled."
  },
  {
   "property": "C13",
   "status": "proved",
   "theorems": [
    "sequence_run",
    "sequence_run_zero"
   ],
   "note": ""
  },
  {
   "property": "C130",
   "status": "proved",
   "theorems": [
    "sand_lighter_than_water",
    "sand_as_dense_as_water"
   ],
   "note": "NaN and infinities as numpy has them; exp and sqrt are arbitrary functions with sqrt 0 = 0."
  },
  {
   "property": "C131",
   "status": "proved",
   "theorems": [
    "idle_subsidence",
    "idle_compaction",
    "idle_sea_level"
   ],
   "note": "The compaction solver is external. The sea level starts without a recorded increment."
  },
  {
   "property": "C132",
   "status": "proved",
   "theorems": [
    "key_order"
   ],
   "note": "Assumes that classes of other packages do not look at the order of their keyword arguments. The order of dictionaries inside of parameters is not covered, that of parameters in later sections of time is C125."
  },
  {
   "property": "C133",
   "status": "proved",
   "theorems": [
    "file_holds_quantities"
   ],
   "note": "Fields that external components create for themselves are not modelled."
  },
  {
   "property": "C134",
   "status": "proved",
   "theorems": [
    "run_in_parts",
    "run_in_parts_iff",
    "run_is_update"
   ],
   "note": "In exact arithmetic; C127 is about rounding."
  },
  {
   "property": "C135",
   "status": "partial",
   "theorems": [
    "netcdf_calls_partial",
    "effective_iff_asked",
    "unknown_names_mean_all",
    "unmentioned_location_means_all",
    "empty_names_mean_all",
    "unknown_names_in_dict",
    "var_names_distinct",
    "var_names_not_coordinates",
    "coordinate_names_distinct"
   ],
   "note": "False where none of the names exists at a location, and for a dictionary that leaves a location out: all fields of the location are written. The exact rule is proved, and that it is what was asked for where something asked for exists. Numbers of links, faces, cells, patches and corners and data types are not modelled."
  },
  {
   "property": "C136",
   "status": "partial",
   "theorems": [
    "default_layers_fail",
    "default_shore_fails",
    "location_twice_fails",
    "netcdf_calls_partial"
   ],
   "note": "False: with layers the call fails unless the grid has a single cell, with a shoreline unless it has a single row. Proved for grids without both, or without layers being asked for."
  },
  {
   "property": "C137",
   "status": "partial",
   "theorems": [
    "rows_chosen",
    "rows_reordered",
    "alike_rows_stay_alike",
    "middle_row_alone",
    "middle_row_differs",
    "flexureDueToWater_rows"
   ],
   "note": "False of the middle row: a model all of whose rows are alike does not stay so. Everything else is proved. The diffusion solver, the compaction and the elastic response to water are assumed to treat rows alike."
  },
  {
   "property": "C138",
   "status": "proved",
   "theorems": [
    "other_rows_have_no_sand",
    "other_rows_weigh_as_mud"
   ],
   "note": "Runs in which the fluvial component stores a NaN in the middle row are not runs of the model (C41)."
  },
  {
   "property": "C139",
   "status": "proved",
   "theorems": [
    "failed_write_keeps_records",
    "failed_write_keeps_layers",
    "write_touches_only",
    "wrong_format_writes_nothing",
    "write_outcome",
    "failed_write_leaves_record"
   ],
   "note": "netCDF4 writes what has been assigned when a dataset is collected without having been closed (assumed). Data types that netCDF does not have are not modelled."
  },
  {
   "property": "C14",
   "status": "proved",
   "theorems": [
    "add_layer_column",
    "add_layer_fails_iff",
    "layer_tops_are_lowest_surfaces"
   ],
   "note": "Columns after adding a layer, when adding fails, and the layer tops of a whole history."
  },
  {
   "property": "C140",
   "status": "partial",
   "theorems": [
    "clocks_agree",
    "sea_level_at_clock",
    "labels_exact_on_grid",
    "labels_near_partial",
    "labels_off"
   ],
   "note": "The sea level part and the cases with exact labels are proved in full; labels in general only up to accumulated rounding, since they are not exact. Only the sums of time steps are rounded; sea_level.time is not set during the run. Overflow and subnormal numbers are left out."
  },
  {
   "property": "C141",
   "status": "partial",
   "theorems": [
    "handlers_restored_partial",
    "level_not_restored",
    "block_prints"
   ],
   "note": "Holds of the handlers; false of the level. Blocks are any that leave the list of handlers as they find it."
  },
  {
   "property": "C142",
   "status": "partial",
   "theorems": [
    "unit_partial",
    "unit_changes_sand",
    "sea_file_timed",
    "subsidence_file_timed",
    "sinusoid_timed"
   ],
   "note": "Holds of models without a river, and of all models if the transport capacity of the river is converted too; false of the river as it is. Assumes that the diffusion solver depends on diffusivity times time, that compaction does not look at ages and that no isostasy time crosses 1e-8."
  },
  {
   "property": "C143",
   "status": "partial",
   "theorems": [
    "drivers_agree_partial",
    "drivers_run_partial",
    "drivers_ends_differ",
    "drivers_sea_levels_differ"
   ],
   "note": "Holds of models with sea level, diffusion, fluvial and shoreline from a grid with the sea at 0 and 100 m of sediment, apart from the water depths and the record of the oldest layer; false with subsidence (seq_bedrock_differs), for recorded water depths (water_depth_differs), for an end between steps and for another sea level of the diffuser without a sea-level process."
  },
  {
   "property": "C144",
   "status": "partial",
   "theorems": [
    "higher_sea_partial",
    "higher_sea_rows_partial",
    "more_emerged_partial",
    "higher_land_partial",
    "transgression_partial",
    "linear_keeps_constants",
    "higher_sea_seaward"
   ],
   "note": "Holds of profiles that start on land or are all under water, for kinds of interpolation that go through the nodes and keep constants; higher land for linear interpolation only. False when the first node is flooded and there is land further out (higher_sea_seaward)."
  },
  {
   "property": "C145",
   "status": "partial",
   "theorems": [
    "type_holds",
    "writable_iff",
    "first_type",
    "values_held_partial",
    "netcdf4_accepts",
    "classic_accepts",
    "type_changes",
    "types_refused"
   ],
   "note": "Exactly which types can be written, and that their values are held as long as the type of a field does not change; false otherwise (type_changes, types_refused). The types that netCDF formats have are external. NaN and infinities are left out."
  },
  {
   "property": "C146",
   "status": "partial",
   "theorems": [
    "shore_of_step",
    "shore_of_update",
    "shore_last_unless_listed",
    "shore_current_partial",
    "shore_lags_partial",
    "shore_not_current",
    "shore_of_last_sea"
   ],
   "note": "False (shore_not_current; shore_of_last_sea for shorelines listed before the sea level). Proved instead: which surface the shorelines belong to, for both drivers; that they are current if the surface stays, and on which side they are if it sinks or rises (linear interpolation, no diffusion)."
  },
  {
   "property": "C147",
   "status": "partial",
   "theorems": [
    "step_size_bedrock_partial",
    "step_size_sea_level",
    "step_size_shoreline"
   ],
   "note": "Proved of the sea level, and of the bedrock without flexure; false of shorelines (step_size_shoreline)."
  },
  {
   "property": "C148",
   "status": "partial",
   "theorems": [
    "timing_report",
    "timing_shares",
    "timing_components",
    "timing_rounded",
    "timing_fails_iff",
    "timing_coarse_clock",
    "timing_set_back"
   ],
   "note": "Proved if the clock moves and is not set back; exactly when the report fails is proved (timing_fails_iff). Readings of time.time() and the rounding of python are external."
  },
  {
   "property": "C149",
   "status": "partial",
   "theorems": [
    "mismatch_message_tells",
    "mismatch_message_plural",
    "missing_message_tells",
    "invalid_row_message_tells",
    "invalid_row_message_text",
    "plot_file_message_tells",
    "plot_file_quotes_twice"
   ],
   "note": "Proved but for plot_file, whose text has the name in quotes twice. Characters that cannot be printed, other than line breaks and tabs, are left as they are in the model of repr."
  },
  {
   "property": "C15",
   "status": "proved",
   "theorems": [
    "archive_ok_iff",
    "archive_ok_of_same_names",
    "archive_keeps_boundaries",
    "archive_thickness",
    "archive_properties"
   ],
   "note": "Archived stack is the merge of groups of ten of the stack without archiving."
  },
  {
   "property": "C150",
   "status": "proved",
   "theorems": [
    "record_shorelines",
    "record_coast"
   ],
   "note": ""
  },
  {
   "property": "C151",
   "status": "partial",
   "theorems": [
    "layers_fill_partial",
    "layers_overfill",
    "layers_compacted"
   ],
   "note": "Proved without compaction for the intervals of C47 (multiples of ten, or tens and last digit adding up to nine or more); false otherwise, with witnesses."
  },
  {
   "property": "C152",
   "status": "proved",
   "theorems": [
    "record_shelf_edges",
    "record_edge_seaward",
    "edge_last_unless_listed",
    "edge_of_no_deposit"
   ],
   "note": "For runs in which the shoreline comes last; edge_of_no_deposit shows that this is needed."
  },
  {
   "property": "C153",
   "status": "partial",
   "theorems": [
    "read_first_partial",
    "reread_forgotten",
    "reread_undone",
    "reader_z_when_read",
    "reader_z_of_run"
   ],
   "note": "Holds of a bathymetry that is read before the model is made, without compaction; false between steps (reread_forgotten says what happens, reread_undone is a witness), and of z after a step."
  },
  {
   "property": "C154",
   "status": "partial",
   "theorems": [
    "steps_then_run",
    "steps_raise_as_run",
    "run_again_partial",
    "clock_moves_anyway",
    "clock_runs_on",
    "model_quiet",
    "stop_of_component_hidden"
   ],
   "note": "Proved but for the clock, which moves with every call (clock_moves_anyway, clock_runs_on); for components that do not raise StopIteration, which run() takes for the end (stop_of_component_hidden)."
  },
  {
   "property": "C155",
   "status": "partial",
   "theorems": [
    "seq_init_surface",
    "seq_init_no_bedrock",
    "seq_first_partial",
    "second_sequence",
    "model_first_surface",
    "model_first_partial",
    "second_model"
   ],
   "note": "False of grids that have layers (second_sequence, second_model) and, for SequenceModel, of sediment that is not 100 m thick (model_first_partial is an equivalence). Where the surface goes is proved for every grid."
  },
  {
   "property": "C16",
   "status": "proved",
   "theorems": [
    "archive_count"
   ],
   "note": "Closed form of the number of layers."
  },
  {
   "property": "C17",
   "status": "proved",
   "theorems": [
    "archive_ages_sorted"
   ],
   "note": ""
  },
  {
   "property": "C18",
   "status": "proved",
   "theorems": [
    "model_step_topo",
    "model_step_nonneg",
    "topo_above_bedrock",
    "model_init_topo",
    "model_run_topo",
    "seq_update_topo",
    "seq_update_nonneg",
    "seq_init_topo",
    "seq_run_topo"
   ],
   "note": "Single steps and whole runs of both drivers, with arbitrary components that never make a layer thickness negative."
  },
  {
   "property": "C19",
   "status": "proved",
   "theorems": [
    "archive_range",
    "archive_t0_conserved",
    "model_t0"
   ],
   "note": ""
  },
  {
   "property": "C20",
   "status": "partial",
   "theorems": [
    "archive_sand_volume_not_conserved",
    "archive_sand_volume_change",
    "archive_sand_volume_iff",
    "archive_sand_volume_partial"
   ],
   "note": "False in general (witness). The change is given exactly, with the condition under which there is none; that condition holds when the merged layers are equally thick or equally sandy."
  },
  {
   "property": "C21",
   "status": "proved",
   "theorems": [
    "model_bedrock"
   ],
   "note": "Any history of steps, arbitrary components that do not write the bedrock themselves."
  },
  {
   "property": "C22",
   "status": "partial",
   "theorems": [
    "seq_bedrock_never_moves",
    "seq_bedrock_differs",
    "seq_increment_partial"
   ],
   "note": "False: a Sequence never applies bedrock increments (proved for every history, with a witness). The increments stay in their field."
  },
  {
   "property": "C23",
   "status": "partial",
   "theorems": [
    "bedrock_movers_commute_partial",
    "litho_depends_on_order"
   ],
   "note": "All orders of any number of the components give the same state except the scratch field lithosphere_surface__increment_of_elevation, which depends on the order (witness)."
  },
  {
   "property": "C24",
   "status": "proved",
   "theorems": [
    "sea_level_history",
    "sea_level_error",
    "sea_level_out_of_range"
   ],
   "note": "For any curve; the component time has advanced even when a step raises."
  },
  {
   "property": "C25",
   "status": "proved",
   "theorems": [
    "sinusoidal_defined",
    "sinusoidal_value",
    "sinusoidal_periodic",
    "sinusoidal_bounded",
    "sinusoidal_phase",
    "sinusoidal_crest"
   ],
   "note": "Real arithmetic."
  },
  {
   "property": "C26",
   "status": "proved",
   "theorems": [
    "interp_defined_iff",
    "table_too_short",
    "interp_between",
    "interp_at_node",
    "interp_bounds",
    "interp_monotone"
   ],
   "note": "Linear interpolation."
  },
  {
   "property": "C27",
   "status": "proved",
   "theorems": [
    "subsidence_total",
    "subsidence_split"
   ],
   "note": ""
  },
  {
   "property": "C28",
   "status": "proved",
   "theorems": [
    "bathymetry_rows",
    "bathymetry_range"
   ],
   "note": ""
  },
  {
   "property": "C29",
   "status": "proved",
   "theorems": [
    "shoreline_index_iff",
    "shoreline_index_error_iff",
    "shoreline_index_rows"
   ],
   "note": ""
  },
  {
   "property": "C30",
   "status": "partial",
   "theorems": [
    "shoreline_all",
    "shoreline_bracket_partial",
    "shoreline_separates",
    "shoreline_barrier_fails"
   ],
   "note": "False for a profile that starts and ends below sea level with land in between: ValueError (proved). Proved for profiles that start on dry land, for any interpolation through the nodes, and for entirely wet or dry profiles."
  },
  {
   "property": "C31",
   "status": "proved",
   "theorems": [
    "shoreline_is_crossing",
    "continuous_crosses",
    "shoreline_linear"
   ],
   "note": "Any continuous interpolant through the nodes; scipy.bisect modelled. Profiles that start on dry land."
  },
  {
   "property": "C32",
   "status": "proved",
   "theorems": [
    "shelf_edge_spec",
    "shelf_edge_seaward",
    "finder_row"
   ],
   "note": ""
  },
  {
   "property": "C33",
   "status": "proved",
   "theorems": [
    "diffusivity_value",
    "diffusivity_positive",
    "wave_base_factor",
    "lagoon_diffusivity_negative",
    "diffusivity_boundary"
   ],
   "note": "The condition on the row is needed (witness of a negative value). The last boundary row of kd is never written."
  },
  {
   "property": "C34",
   "status": "partial",
   "theorems": [
    "identical_rows_differ",
    "identical_rows_partial"
   ],
   "note": "False for the first row when the load changed since the last step (witness); holds for the other rows or an unchanged load."
  },
  {
   "property": "C35",
   "status": "proved",
   "theorems": [
    "diffusion_deposit",
    "diffusion_error"
   ],
   "note": "Any diffusion solver."
  },
  {
   "property": "C36",
   "status": "proved",
   "theorems": [
    "deflection_conserved",
    "deflection_bounded"
   ],
   "note": ""
  },
  {
   "property": "C37",
   "status": "partial",
   "theorems": [
    "response_split_partial",
    "immediate_partial",
    "immediate_many_rows",
    "response_split_many_rows",
    "isostasy_time_valid"
   ],
   "note": "False for more than one active row: the fraction is divided by the number of rows (proved for all states). Proved for one row."
  },
  {
   "property": "C38",
   "status": "proved",
   "theorems": [
    "loading_parts",
    "loading_additive",
    "loading_reverses",
    "loading_bounds"
   ],
   "note": ""
  },
  {
   "property": "C39",
   "status": "proved",
   "theorems": [
    "loads_counted_once",
    "flexure_of_total_load",
    "flexure_of_total_load_immediate"
   ],
   "note": "For any additive solver."
  },
  {
   "property": "C40",
   "status": "proved",
   "theorems": [
    "densities_validated",
    "densities_consistent"
   ],
   "note": ""
  },
  {
   "property": "C41",
   "status": "partial",
   "theorems": [
    "sand_fraction_range_partial",
    "fluvial_in_range",
    "fluvial_zero_parameter",
    "sand_fraction_finite",
    "fluvial_other_rows",
    "fluvial_step_succeeds",
    "fluvial_keeps_fractions",
    "flat_land_sand",
    "sand_fraction_number",
    "flat_plain_nan"
   ],
   "note": "In [0,1] or NaN always; a number if no land node is flat, or if the land does not rise and the river carries both sand and mud (a flat node is then given no sand at all). NaN on a flat plain with a river without mud (witness). A zero parameter raises ZeroDivisionError."
  },
  {
   "property": "C42",
   "status": "partial",
   "theorems": [
    "offshore_fraction_zero",
    "offshore_fraction_partial"
   ],
   "note": "False: offshore the fraction is always 0 (proved); it is as expected exactly where only mud was deposited."
  },
  {
   "property": "C43",
   "status": "proved",
   "theorems": [
    "hemipelagic_mud",
    "hemipelagic_bounds",
    "hemipelagic_scales",
    "first_node_mud"
   ],
   "note": "The amount exceeds hemipelagic*dt only at the first node (witness)."
  },
  {
   "property": "C44",
   "status": "proved",
   "theorems": [
    "writer_history",
    "fixed_interval_times"
   ],
   "note": "For a writer of all rows on grids of fixed sizes."
  },
  {
   "property": "C45",
   "status": "partial",
   "theorems": [
    "labels_behind_clock",
    "labels_are_clock_partial",
    "labels_any_steps"
   ],
   "note": "False unless start + step = 0 in runs with constant step, where the label is the clock minus start + step; with other steps the difference is given exactly."
  },
  {
   "property": "C46",
   "status": "proved",
   "theorems": [
    "writer_history",
    "slices_kept"
   ],
   "note": "For a writer of all rows on grids of fixed sizes."
  },
  {
   "property": "C47",
   "status": "partial",
   "theorems": [
    "file_layers_partial",
    "file_layers_stale",
    "layers_after_write_iff",
    "stale_layers"
   ],
   "note": "Exact: true for all runs if the interval is a multiple of ten or interval/10 + interval%10 >= 9, otherwise false in every long enough run."
  },
  {
   "property": "C48",
   "status": "proved",
   "theorems": [
    "existing_file_kept",
    "filepath_touches_only",
    "filepath_ok",
    "bad_interval_keeps_file",
    "writer_history"
   ],
   "note": "Proved for regular files; a dangling link is removed without clobber."
  },
  {
   "property": "C49",
   "status": "partial",
   "theorems": [
    "interval_accepted_iff",
    "interval_stored",
    "interval_zero_fails",
    "interval_positive_partial"
   ],
   "note": "False: 0 (and the booleans) are accepted and 0 makes every step raise. With a positive interval no step raises ZeroDivisionError."
  },
  {
   "property": "C50",
   "status": "proved",
   "theorems": [
    "grid_shape",
    "grid_one_dimension",
    "grid_invalid",
    "grid_from_dict"
   ],
   "note": ""
  },
  {
   "property": "C51",
   "status": "proved",
   "theorems": [
    "profile_rows",
    "profile_write"
   ],
   "note": ""
  },
  {
   "property": "C52",
   "status": "proved",
   "theorems": [
    "row_layers_record_every_row",
    "row_layers_created_late",
    "row_layers_missing",
    "row_layers_fit"
   ],
   "note": ""
  },
  {
   "property": "C53",
   "status": "partial",
   "theorems": [
    "set_option_lost",
    "set_options_partial",
    "set_options_one_equal_sign"
   ],
   "note": "False for two options of one group (witness); holds for the last option of each group. Options for a whole group are C129."
  },
  {
   "property": "C54",
   "status": "partial",
   "theorems": [
    "setup_not_atomic",
    "setup_partial",
    "setup_null"
   ],
   "note": "False for invalid and for null options (an empty file is left behind); holds otherwise."
  },
  {
   "property": "C55",
   "status": "proved",
   "theorems": [
    "run_parameters",
    "run_changes_only_components"
   ],
   "note": ""
  },
  {
   "property": "C56",
   "status": "partial",
   "theorems": [
    "layersToPlot_error_iff",
    "layers_count_partial",
    "too_many_layers"
   ],
   "note": "False: up to nearly twice as many layers are drawn. Exact bounds and the exact condition for failure are proved for ranges with a layer and a positive number."
  },
  {
   "property": "C57",
   "status": "proved",
   "theorems": [
    "outline_path",
    "outline_connected",
    "outline_in_range",
    "outline_lengths",
    "outline_between",
    "outline_jumps"
   ],
   "note": "The outline is given exactly for all limits; connectedness needs limits that are the right way round."
  },
  {
   "property": "C58",
   "status": "proved",
   "theorems": [
    "water_loading_value",
    "half_plane_linear",
    "water_flexure_additive",
    "half_plane_edge"
   ],
   "note": "For any additive solver."
  },
  {
   "property": "C59",
   "status": "proved",
   "theorems": [
    "initial_profile_decreasing",
    "initial_profile_continuous",
    "initial_shore_position",
    "initial_profile_list"
   ],
   "note": "Real arithmetic; positive slopes, nonnegative height and alpha."
  },
  {
   "property": "C60",
   "status": "partial",
   "theorems": [
    "water_depth_differs",
    "seq_water_depth",
    "model_water_depth"
   ],
   "note": "True of Sequence; false of SequenceModel (witness), which records the depth before the deposit (proved)."
  },
  {
   "property": "C61",
   "status": "proved",
   "theorems": [
    "model_run_completes",
    "model_layer_count",
    "model_thickness",
    "model_ages",
    "model_sand_range",
    "seq_thickness",
    "seq_layer_count"
   ],
   "note": ""
  },
  {
   "property": "C62",
   "status": "partial",
   "theorems": [
    "model_initial_water_depth",
    "seq_initial_water_depth"
   ],
   "note": "False: exact value recorded by each driver; it is the depth of the water exactly where there is no initial sediment."
  },
  {
   "property": "C63",
   "status": "proved",
   "theorems": [
    "model_sea_level",
    "model_sea_level_clock"
   ],
   "note": ""
  },
  {
   "property": "C64",
   "status": "proved",
   "theorems": [
    "model_subsidence"
   ],
   "note": ""
  },
  {
   "property": "C65",
   "status": "proved",
   "theorems": [
    "shoreline_update_rows",
    "shoreline_update_succeeds"
   ],
   "note": ""
  },
  {
   "property": "C66",
   "status": "partial",
   "theorems": [
    "k_land_consistent",
    "set_load_uses_old_sea_level",
    "load_follows_sea_level_partial",
    "diffuser_init"
   ],
   "note": "k_land part proved; the load after the setter uses the sea level at construction (witness)."
  },
  {
   "property": "C67",
   "status": "proved",
   "theorems": [
    "diffusivity_decreases",
    "diffusivity_grows"
   ],
   "note": ""
  },
  {
   "property": "C68",
   "status": "proved",
   "theorems": [
    "bedrock_budget"
   ],
   "note": "For any additive solver."
  },
  {
   "property": "C69",
   "status": "partial",
   "theorems": [
    "water_increments_partial",
    "water_increment_ignores_sea_level",
    "water_increment_differs"
   ],
   "note": "False when sea level changes (proved generally, and a witness); holds when components leave sea level and topography alone."
  },
  {
   "property": "C70",
   "status": "partial",
   "theorems": [
    "never_braided",
    "braided_partial"
   ],
   "note": "False on every plain that falls towards the sea; holds on plains that rise towards the sea."
  },
  {
   "property": "C71",
   "status": "partial",
   "theorems": [
    "muddier_river_sandier_plain",
    "muddier_river_partial",
    "muddier_is_sandier",
    "sand_fraction_local",
    "nodeSand_seaward",
    "nodeSand_landward"
   ],
   "note": "False, strictly, for every plain that falls towards the sea without uplift; holds for plains that rise towards the sea."
  },
  {
   "property": "C72",
   "status": "partial",
   "theorems": [
    "coordinates_shifted",
    "file_coordinates"
   ],
   "note": "False on every grid (proved for all histories); the other coordinates are right."
  },
  {
   "property": "C73",
   "status": "partial",
   "theorems": [
    "some_rows_fail",
    "all_rows_partial",
    "reordered_rows",
    "rows_swapped"
   ],
   "note": "False for every proper selection on a grid with several rows, which fails, and for all rows in another order, which are labelled wrongly. Naming all rows in order is the same as naming none."
  },
  {
   "property": "C74",
   "status": "partial",
   "theorems": [
    "fields_exact_partial",
    "no_fields_means_all",
    "setup_text_fields",
    "text_fields_nothing",
    "later_text_fields"
   ],
   "note": "False for the empty list, and for a text in place of a list; holds for every other list."
  },
  {
   "property": "C75",
   "status": "proved",
   "theorems": [
    "output_step_same",
    "output_history_same"
   ],
   "note": ""
  },
  {
   "property": "C76",
   "status": "proved",
   "theorems": [
    "run_with_output",
    "worldView_sizes"
   ],
   "note": "For grids whose arrays have the right sizes, proved for the fields of the drivers."
  },
  {
   "property": "C77",
   "status": "partial",
   "theorems": [
    "top_corner_iff",
    "bottom_corner_iff",
    "corners_cut"
   ],
   "note": "False: exact conditions proved."
  },
  {
   "property": "C78",
   "status": "partial",
   "theorems": [
    "plotLayers_ok",
    "plotLayers_positions",
    "stackAt_spec",
    "water_level",
    "default_shelf",
    "land_connected",
    "uncoloured_not_drawn"
   ],
   "note": "All parts but the level of the water and the default shelf hold; for these what is drawn instead is proved."
  },
  {
   "property": "C79",
   "status": "proved",
   "theorems": [
    "plotFile_invalidRow_iff",
    "plotFile_missing_iff"
   ],
   "note": ""
  },
  {
   "property": "C80",
   "status": "partial",
   "theorems": [
    "plotFile_spec",
    "plot_of_run",
    "plot_in_place_partial",
    "plot_elevation_wrong"
   ],
   "note": "False: plot_in_place_partial says exactly when it holds, plot_of_run what is drawn otherwise."
  },
  {
   "property": "C81",
   "status": "partial",
   "theorems": [
    "plotFile_spec",
    "plot_of_run",
    "run_not_plotted"
   ],
   "note": "False (witness run_not_plotted): plot_of_run gives the exact condition and the exception otherwise."
  },
  {
   "property": "C82",
   "status": "partial",
   "theorems": [
    "plotFile_spec",
    "plot_of_run",
    "plot_fixed_shore_partial",
    "plot_shore_wrong"
   ],
   "note": "False: the shoreline of the time start + step later is drawn."
  },
  {
   "property": "C83",
   "status": "partial",
   "theorems": [
    "plot_grid_run",
    "plot_grid_rows"
   ],
   "note": "Holds for grids with one row and at least two layers; otherwise the exact exception is proved."
  },
  {
   "property": "C84",
   "status": "proved",
   "theorems": [
    "file_sections",
    "files_numbered"
   ],
   "note": ""
  },
  {
   "property": "C85",
   "status": "proved",
   "theorems": [
    "sediment_load_sum"
   ],
   "note": ""
  },
  {
   "property": "C86",
   "status": "partial",
   "theorems": [
    "load_of_sediment_partial",
    "load_below_bedrock"
   ],
   "note": "False when a step erodes more sediment than there is (witness load_below_bedrock); holds otherwise."
  },
  {
   "property": "C87",
   "status": "partial",
   "theorems": [
    "mud_budget_partial",
    "upstream_deposit_ignored",
    "even_plain_sand"
   ],
   "note": "False: mud_budget_partial gives the exact budget, upstream_deposit_ignored the failure."
  },
  {
   "property": "C88",
   "status": "proved",
   "theorems": [
    "compaction_record",
    "compaction_ages"
   ],
   "note": ""
  },
  {
   "property": "C89",
   "status": "proved",
   "theorems": [
    "compaction_thickness"
   ],
   "note": ""
  },
  {
   "property": "C90",
   "status": "proved",
   "theorems": [
    "step_fails_in_components"
   ],
   "note": ""
  },
  {
   "property": "C91",
   "status": "proved",
   "theorems": [
    "package_fields",
    "bare_model_fails"
   ],
   "note": "Assumes the external functions raise no KeyError and that compaction keeps the record."
  },
  {
   "property": "C92",
   "status": "proved",
   "theorems": [
    "package_edges"
   ],
   "note": ""
  },
  {
   "property": "C93",
   "status": "partial",
   "theorems": [
    "surface_follows_bedrock_partial",
    "edge_does_not_subside"
   ],
   "note": "Holds at the cells; false at the last column (witness) and, by package_edges, in the boundary rows."
  },
  {
   "property": "C94",
   "status": "proved",
   "theorems": [
    "package_sand"
   ],
   "note": "For runs in which the fluvial component stores no NaN (C41) and compaction keeps the record."
  },
  {
   "property": "C95",
   "status": "proved",
   "theorems": [
    "package_budgets"
   ],
   "note": ""
  },
  {
   "property": "C96",
   "status": "proved",
   "theorems": [
    "order_of_independent",
    "order_matters"
   ],
   "note": "Independence is spelled out in Spec/Order from the fields each process reads, sets and adds to."
  },
  {
   "property": "C97",
   "status": "partial",
   "theorems": [
    "float_run_exact",
    "float_run_steps_partial",
    "binary64_rounding",
    "float_run_short"
   ],
   "note": "Exact on grids of powers of two; in general with a margin for rounding; false for 0, 0.3, 0.1. Overflow and subnormal numbers are left out."
  },
  {
   "property": "C98",
   "status": "partial",
   "theorems": [
    "plot_options_partial",
    "plot_unknown_name",
    "plot_file_title",
    "plot_ignores_name",
    "plot_verbose_null"
   ],
   "note": "False for the title, and with --verbose for null. Options of the form key=value; the plot section holds plain values."
  },
  {
   "property": "C99",
   "status": "partial",
   "theorems": [
    "param_file_partial",
    "param_file_lost",
    "param_file_reversed"
   ],
   "note": "False for several values per group and for deeper dictionaries (witnesses). No command passes a parameter file."
  }
 ]
}