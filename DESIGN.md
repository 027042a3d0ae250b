# Design of the Lean model of `sequence`

The subject is the python package in `/repo/sequence` (read as text, never run).
The model is in `lean/Verif/Model`, the specifications in `lean/Verif/Spec`,
helper lemmas in `lean/Verif/Lemmas`, the property theorems in `lean/Verif/Props`.
`MANIFEST.json` maps each property of `properties.jsonl` to its theorems;
`seeded/LOG.jsonl` lists the wrong programs the theorems were tried against.

How to read the log: `claim` is the property the edit was aimed at, as written down before the run; for batches that
went through the model definition by definition this is often only a guess. `claims_with_failed_theorems` are the
properties that have a theorem that no longer compiles, and `target_failed` says whether the target is one of them
(for 729 of 1077 lines it is; for 279 only other properties have one; for 69 none has). A theorem that no longer
compiles need not be false of the edited program: its proof may only have lost its shape. Apart from lines whose
`note` says so, this was not told apart, so the log shows which edits go unnoticed, but does not prove that each
other edit is excluded by the statement of a theorem. Earlier versions of the log gave, in `claim`, a property that had
a failing theorem in place of the target if the target had none.

## Trusted base

* The Lean 4.33.0 kernel. Mathlib is used as a library of proved theorems. No own axioms, no
  `sorry`, no `native_decide` or `bv_decide`. Every theorem depends on at most `propext`,
  `Classical.choice` and `Quot.sound`; the table at the end says which, per property. Concrete cases
  are checked by kernel evaluation (`decide +kernel`).
* The reading of the python text: every model definition cites the file and lines it mirrors and says
  where it simplifies. This reading is not checked by any tool.
* The statement of the properties: the definitions in `Spec` and those named in the theorems.

### Numbers

Floating point is modelled by an ordered field: a generic `K`, which is `ℚ` in concrete cases and `ℝ`
where `exp`, `sin` and `sqrt` matter. Rounding is modelled for the clocks only (`Model/Float`, `Model/Ticks`, C97, C127, C140), where
the number of steps depends on it; overflow, subnormal numbers and signed zeros are not modelled. A NaN that
the code stores on purpose (no shelf edge, fill values of a file) is `none`. Division by zero: python
numbers raise (`ZeroDivisionError` in the model), numpy numbers give an infinity or NaN (`XNum`, used
for the fluvial component; where a sand fraction or a diffusivity would be stored as one, the step of
the model fails with `runtimeError`, which the code does not raise). Elsewhere a divisor is zero only where the model has an error branch or a
theorem excludes it.

### Exceptions and state

Exceptions are values (`Except Err α`). The grid and the state of the components are passed on
explicitly (`World`); where the code leaves something behind before it raises and it matters (the clock,
files, the output path, the parameters), the model returns the state together with the error.
Components not in `/repo` are arbitrary functions on parameters and `World`, constrained only by the
hypotheses of a theorem (for example `Keeps c f`: the component does not write `f`).

### External libraries

They are not in `/repo` and are modelled from their documentation and source as known:

* landlab `EventLayers`: `add` always appends one layer; a positive thickness goes to the new layer,
  a negative one removes material from the top down; the tracked names are fixed by the first call and
  other names raise; `reduce` replaces a run of layers by one, thickness summed, each property by its
  reducer; `z` are the cumulative thicknesses. `EventLayers`' property arrays are allocated by the first
  call with the shape of its values (this decides when `Sequence` fails for several rows, C52).
* landlab `TimeStepper.advance`: `time += step`, then `StopIteration` if `time > stop`. Assigning
  `clock.dt` sets an attribute that nothing reads.
* landlab grids: node numbering by rows, `at_grid[...] = v` makes a new array, fields at rows.
* landlab `LinearDiffuser.run_one_step` changes only `topographic__elevation`, by an arbitrary function.
  `Flexure1D.update` replaces the deflection of each active row by a function of its pressure (additive
  where a theorem says so). `compaction.landlab.Compact` is an arbitrary function of the layers.
* numpy: `searchsorted` (NaN sorted last), `argmax`, `gradient`, `interp`, `cumsum`, `clip`, basic slices
  as views and boolean or integer indices as copies (so `out=a[mask]` has no effect on `a`).
* scipy: `interp1d` sorts its table, is exact at the nodes, raises `ValueError` out of range; `linear`
  is written out, other kinds are any function through the nodes; `optimize.bisect` is written out.
* python `bisect`, `sorted` on pairs, dictionaries in insertion order.
* netCDF4: a file is what can be read back from it, slices along unlimited dimensions; assignment
  reshapes if sizes agree, else broadcasts, else `ValueError`; creating a variable twice is a
  `RuntimeError`; opening what is not a netCDF file an `OSError`. xarray shows fill values as NaN.
* yaml, toml: parsing and printing are not modelled, documents are nested dictionaries.
* `os.remove`, `os.path.isfile` on files, directories and links.
* Python values in configurations are taken up to python `==` (so `1`, `1.0`, `True` are one value).

## What is modelled

| file | modelled | model |
|------|----------|-------|
| `bathymetry.py` | all | `SeaLevel`, `Reader` |
| `cli.py` | `_time_from_filename`, `_find_config_files`, `run`, `setup`, `generate`, `plot`, `_load_params_from_strings`, `_dots_to_dict`, `_dict_to_dots`, `_walk_dict`, `_load_model_params`, `_contents_of_input_file` for the file names | `Cli`, `Params`, `Clock`, `Live`, `RunCommand`, `PlotCommand`, `Formats`, `Progress`, `Messages`, `Failure`, `SetOrder`, `OldFiles`, `OutputSettings`, `Sections` |
| `errors.py` | the exception classes as constructors of `Err`; the texts of those that have one of their own | `Err`, `ErrorText`, `RowText` |
| `fluvial.py` | all; fields are created by the caller | `Fluvial`, `XNum` |
| `grid.py` | all | `Grid`, `Formats` |
| `input_reader.py` | `load_config`, all of `TimeVaryingConfig`, `_flatten_dict`, `_add_flattened_item`, `_expand_dict`, `_walk_dict` | `Config`, `Formats`, `Search`, `PyDict` |
| `logging.py` | all but styles | `Messages`, `Logger` |
| `netcdf.py` | all but attributes; data types apart from the values | `Output`, `Unfinished`, `VarNames`, `DataTypes` (a failed run: `WrittenRun`) |
| `output_writer.py` | all | `Output`, `OutputRun` |
| `plot.py` | all the data handed to matplotlib | `Plot`, `PlotFile` |
| `processes.py` | the processes as components of a driver, with the fields their constructors create | `Params`, `Processes` |
| `sea_level.py` | all | `SeaLevel`, `Interp` |
| `sediment_flexure.py` | all but the solver | `Flexure`, `Loading` |
| `sequence.py` | all | `Driver`, `Clock`, `Layers`, `Float`, `Ticks` |
| `sequence_model.py` | all but log messages | `Driver`, `Clock`, `Layers`, `Params`, `Live`, `Timers` |
| `shoreline.py` | all but `_find_shoreline_polyfit` (nothing calls it) | `Shoreline`, `Interp`, `Curvature` |
| `submarine.py` | all but the solver | `Submarine` |
| `subsidence.py` | all | `SeaLevel`, `Interp` |

Not modelled: colours and other styles of terminal output, python's warnings, the text of the input templates,
units and attributes, drawing, the readings of the computer's clock, the numerical diffusion, flexure and compaction
solvers.

## Structure of the proofs

* *Layers* (C14–C20): columns are lists; archiving is related to the same history without archiving by a
  merge of groups of ten, by induction over histories.
* *Configuration* (C01–C07, C53, C54, C84, C98, C99): ordered dictionaries keyed by paths; overlays as "last writer wins".
* *Drivers* (C11–C13, C18, C21–C23, C60–C64, C68, C69, C85, C86, C88, C89, C134, C153, C154, C155): one step as a function of the state,
  histories as an inductive relation, invariants and sums by induction. Components are arbitrary.
* *Components* (C24–C43, C58, C59, C65–C67, C70, C71, C87, C100, C130, C144): pointwise equations for each step.
* *Whole models* (C90–C96, C117, C131): the package's own processes in any order, from what each of them reads, writes
  and keeps, to every run; independent neighbours commute.
* *Changing parameters* (C55, C101, C102): `setattr` on each class of the package, in the loop of
  `sequence run`.
* *The command* (C103–C110, C114–C116, C118–C126, C128, C129, C132, C148, C149): `sequence run` from the names in a directory to the files it leaves; the
  model that it makes of a configuration, and which configurations it accepts. Two names
  of one file (`./a.nc` and `a.nc`, links) count as different files. What a failed run
  leaves is in `Failure`, apart from the contents of a file whose writing failed half way.
* *Symmetries* (C111–C113, C137, C138, C142, C143, C147): two runs side by side, step by step: another datum,
  another calendar, another unit of time, other rows, the other driver, another future, other steps.
* *Shorelines* (C30, C65, C144, C146, C150, C152): roots in their brackets; what they do when the sea or the land moves, and
  which surface they belong to.
* *Rounding* (C97, C127, C140): the same loops over numbers whose sums are rounded.
* *Output and plots* (C44–C49, C56, C57, C72–C83, C133, C135, C136, C139, C145, C150, C151): a file as slices; the history of a run fixes its
  contents; plots are functions of the contents.

## Where the code and the expected behaviour differ

Each is a theorem (or a concrete case in the `Props` files) unless marked "text".

1. A configuration file with several `_time` sections passed to `sequence run`: sections after the first
   are ignored (C07). Duplicate times lose sections in `dump` (C05). `as_dict` at time 0 shows only the
   first section (text).
2. `sediments.hemipelagic` is not shared with the fluvial component (C09).
3. `run_one_step(dt)` advances components by `dt` but the clock by its own step (C12).
4. Archiving ten layers averages the sand fraction without weights, so the volume of sand changes (C20).
5. `Sequence` never applies the bedrock increment: subsidence and flexure have no effect (C22). Its row
   layers fail for several rows if the shoreline component is created late (C52).
6. `lithosphere_surface__increment_of_elevation` depends on the order of components (C23).
7. A sea level file must cover the whole run; a step out of range has already advanced the time of the
   component; the first increment is relative to 0 (C24).
8. A profile with a barrier island makes `find_shoreline` raise `ValueError` (C30).
9. `calc_diffusion_coef`: row 0 uses a stale load, the last boundary row is never written, and land
   behind the shore can give negative diffusivity (C33, C34).
10. With several rows the deflection of a step is divided by the number of rows (C37). The density
    parameters of `SedimentFlexure` have no effect on the load computed by the driver (text).
11. Fluvial: the slope is negative on a plain that falls seaward, so channels are never braided (C70) and
    more mud gives more sand (C71); offshore sand fractions are always 0 (C42); NaN on a flat plain
    (C41); the first node can get more mud than `hemipelagic * dt` (C43); the river loses mud to the
    rise of the bedrock and not to its deposits (C87); zero parameters raise (C41).
12. Output: times start at 0 and lag the clock by start + step, and the writer runs before the layer of
    the step is added (C45); layers of earlier slices stay when the number of layers falls (C47); an
    empty list of fields writes all of them (C74); `interval=0` is accepted and raises later (C49); row
    and column coordinates are shifted by one (C72); `rows` fails on a grid of several rows, and all rows in another order are labelled wrongly (C73); a
    dangling link is removed without `clobber` (C48).
13. `--set` twice in one group loses the first (C53); `sequence setup` with an invalid option leaves an
    empty file (C54); unknown groups are ignored and `DEFAULT_PARAMS` is mutated (C119).
14. `set_params` raises for sections that are not components and silently sets attributes that nothing
    reads (C55); the sediment load setter uses the sea level at construction (C66).
15. Configurations: a key that is also a prefix of another raises `TypeError`; empty sub-dictionaries
    vanish; nested lists cannot be hashed in `diff` (C02, C04).
16. Plots: nearly twice as many layers as asked for (C56); outlines cut corners where limits coincide
    (C77); the water is drawn at the bed of the first stack seaward of the shore (C78); `plot_file` uses the
    wrong bedrock row (C80), fails for one slice and for runs that do not start at 0 (C81), and draws
    shorelines late (C82); `plot_grid` fails for several rows (C83).
17. The drivers record different water depths (C60) and both a wrong initial one (C62).
    `water__increment_of_depth` ignores changes of sea level (C69).
18. Erosion beyond the sediment still reduces the load by its nominal weight (C86), and topography is off
    until the next update (C18 is stated for layers that stay nonnegative).
19. The topography of the last column never changes, so the seaward edge does not subside with its
    bedrock and a step grows between it and the last cell (C92, C93).
20. The clock adds up its step, so with a step that is not a binary fraction a run can end one step early:
    0 to 0.3 by 0.1 takes two steps (C97).
21. `sequence plot` never writes the name of the file above the plot, although `plot_file` does (C98); it
    reads the section `plot` of `sequence.toml` only, not of other configuration files (text).
22. `_load_model_params` with a parameter file, which no command passes, loses values and mixes up groups
    (C99). `find_shelf_edge_by_curvature` reports a bend at the second node at the first (C100).
23. Arguments of constructors that change in a later section: `kind`, `start`, the arguments of the
    sinusoidal sea level, `load_sealevel`, `basin_width`, `hemipelagic`, `isostasytime`, `clobber` and `rows`
    are silently ignored (also any misspelled name); `shoreline.alpha` ends the run with `AttributeError`;
    what `submarine_diffusion` shares with other components at the start is not shared after a change; a
    new sediment load is first used with the sea level of the start (C101).
24. `sequence run --dry-run` creates the output writer: with `clobber` it deletes the output file of an
    earlier run (C103). Without `stop` or with step 0 a run fails because of its progress bar; a clock that
    runs backwards never stops (C107). Misspelled sections are ignored at the start and misspelled parameters
    later (C106).
25. Sections of processes that are not turned on have no effect, so `sand_frac`, the densities and
    `hemipelagic` of the section `sediments`, which `SequenceModel.DEFAULT_PARAMS` lists, are never read
    (C109). `sea_level.start` is overwritten by `clock.start` (C108).
26. If the first configuration file is not for time 0 (for example only `sequence5.toml`), it is used at the
    start, and again as a change at its own time; that change includes `grid`, so the run stops with an
    error (C110).
27. The constructor of `SequenceModel` measures from elevation 0: the sea level is 0 until the first step,
    so the first layer gets the water depth `-bedrock` and the first increment of the sea level is the
    sea level itself. With water flexure the basin therefore subsides in its first step under water that
    was there before (C111, `datum_waterFlexure_fails`).
28. `sequence setup --set sea_level.filepath=sealevel.csv` writes a configuration that `sequence run` always
    refuses, because the parameters of the sine stay in the section `sea_level` and `SeaLevelTimeSeries` does
    not take them (C115, `sea_level_file_refused`). The `sealevel.csv` that is written is therefore of no use
    without editing; it also covers only a third of the default duration.
29. `sequence generate sequence.yaml` prints a file that `sequence run` cannot read, unless an option gives the
    whole section `grid` anew (`generate_yaml_section`): the grid's shape or spacing is a python tuple, which `yaml.dump` writes with a tag that `yaml.safe_load` does
    not accept (C116, `generate_yaml_unreadable`). The toml file is fine.
30. A rising sea that floods the landward end of a row before its highest node makes the next step raise
    `ValueError` from scipy's bisection; nothing else about the surface can stop a run (C117,
    `rising_sea_stops`, `step_stops_partial`).
31. `SequenceModelGrid.from_toml` raises `TypeError` on every file written by `TimeVaryingConfig.dump`, which
    writes an array of tables even for one section (C118, `grid_from_dump_fails`).
32. In `sequence generate --set clock.stop=7 sequence.toml generate sequence.toml` the second file has the
    stop time 7 as well (C119, `chained_options_leak`).
33. A null parameter of a process that is turned on is always refused, also `isostasytime: null`, for which the
    constructor has a meaning: `load_processes` writes the parameters as toml for a message in the log. With a
    null option `sequence setup` fails and leaves an empty `bathymetry.csv` (C120, `null_refused`,
    `setup_null`, `generate_null`, `plot_verbose_null`).
34. `fields: topographic__elevation` in the section `output`, a text and not a list, asks for the fields `t`,
    `o`, `p`, …; no field of the nodes is written (C74, `setup_text_fields`, `text_fields_nothing`).
35. The progress bar's total is `stop // step`, without the start: a run from 10 to 12 in steps of 1 ends at
    2 of 12 (C122, `progress_not_full`).
36. `sequence --silent --verbose run` still writes "Finished" or "Nothing to do" (C123,
    `silent_verbose_talks`).
37. With an empty list of processes the command warns that all processes have been disabled; `fluvial` and
    `shoreline` run (C123, `all_disabled_but_two`).
38. Rows of the output that are not in the grid are accepted when the model is made; the first step fails with
    `IndexError` while the file is written and leaves it unfinished (C124, `rows_leave_unfinished`).
    With some of the rows it fails after it has written the fields and leaves a record without layers
    (`some_rows_leave_record`).
39. If two parameters change at the same time and one of them can not be set, the error that is raised, and whether
    an existing output file has already been removed, depend on the hash seed of python, because
    `TimeVaryingConfig.diff` goes through a set (C125, `order_of_error`, `order_of_files`).
40. If two files for the same time give a parameter as a number and as a dictionary, whether the run succeeds depends
    on the hash seed (C125, `order_of_success`).
41. `Sequence.run` in floating point: `run(until=1.0, dt=0.1)` ends at 0.9999999999999999 (`float_until_short`),
    `run(until=2.2, dt=0.1)` makes 23 updates, the last with a step of zero, which adds another layer
    (`float_until_extra`), and `run()`, documented as a single time step, makes two updates at 0.2 with steps of 0.1
    (`float_single_step_twice`, C127).
42. `Fluvial` does not check `sand_density`: with less than 1000 every sand fraction on land where something was
    deposited is NaN, with 1000 it is 1 whatever the slope (`sand_lighter_than_water`, `sand_as_dense_as_water`,
    C130).
43. `to_netcdf(grid, path)` fails for every grid that has layers and more than one cell, because the layers of the
    cells are assigned to variables with a value for every node (`default_layers_fail`), and for every grid with
    several rows that has a shoreline, because that is given for the rows of cells and the dimension counts the rows
    of nodes (`default_shore_fails`). With one row the shoreline is written three times. `OutputWriter` gives the
    numbers of rows and columns and is not affected (C136).
44. `to_netcdf(names=...)` with names of which none exists at a location writes all fields of the location, so a
    misspelt name gives a file with everything, and `names="var0"` everything at links, faces and cells
    (`unknown_names_mean_all`). In a dictionary a location that is left out or has an empty list gets all fields,
    one with a list of unknown names none (`unmentioned_location_means_all`, `empty_names_mean_all`,
    `unknown_names_in_dict`, C135).
45. `Fluvial` works on the middle row only. In all other rows no hemipelagic mud is deposited and the sand fraction
    stays zero, so a model whose rows are all alike does not stay so (`middle_row_differs`, C137), and the other rows
    are recorded and weighed as pure mud (`other_rows_have_no_sand`, `other_rows_weigh_as_mud`, C138).
46. A call of `to_netcdf` that fails leaves a record behind: its time, and the fields assigned so far
    (`failed_write_leaves_record`, C139). The dataset is not closed.
47. In floating point the times in an output file are not those of the clock counted from its start, because both are
    sums that are rounded separately (`labels_off`, C140).
48. `with logging_handler()` is to change the logger temporarily, but the level stays `INFO` (`level_not_restored`, C141).
49. `Fluvial` divides the sediment load, in square metres per year, by a transport capacity in square
    metres per second (a comment keeps the lost factor 31536000), so that the sand fraction depends
    on the unit of time (`unit_changes_sand`, C142).
50. `SequenceModel` sets the sea level to 0 after `SubmarineDiffuser` has set it to its `sea_level`;
    `Sequence` keeps it. Without a sea-level process the two run with different seas
    (`drivers_sea_levels_differ`, C143).
51. When a rising sea floods the first node of a profile that has land further out, the shoreline
    jumps seaward past that land (`higher_sea_seaward`, C144).
52. A field keeps the type it is first written with: whole numbers that become floating-point
    numbers are still stored as whole numbers. Half precision and arrays in the other byte order
    raise `KeyError` (`type_changes`, `types_refused`, C145).
53. Shorelines are found by a component, before the surface moves at the end of the step: what is
    stored is the shoreline of the surface before, under the new sea. On a sinking coast it is
    seaward of the true one, and where it is depends on the length of the step. If shorelines are
    listed before the sea level, they are those under the old sea too (`shore_not_current`,
    `shore_of_last_sea`, `step_size_shoreline`, C146, C147).
54. `sequence --verbose run` divides by the time that the components took: if the clock of the computer
    has not moved since the first step, a run that is finished ends with `ZeroDivisionError`. A clock that is set
    back gives negative shares (`timing_coarse_clock`, `timing_set_back`, C148).
55. `plot_file` puts the name of a missing variable in quotes twice (`plot_file_quotes_twice`, C149).
56. The layers in an output file do not add up to the sediment between bedrock and topography of the record they
    were written with: with compaction the layers are compacted before they are written and the surface is moved
    after that; and layers left over from earlier records add to the sum (`layers_compacted`, `layers_overfill`, C151).
57. If `shoreline` is listed among the processes before those that deposit, the shelf edge is found in a deposit
    that has just been set to zero: it is always the first node beyond the limit (`edge_of_no_deposit`, C152).
58. Running a `BathymetryReader` between two steps of a `SequenceModel` has no lasting effect on the cells: the next
    step puts the surface back on top of the layers. Only the nodes around the cells keep the profile that was
    read. `BathymetryReader.z`, "the elevations along the grid", is the bottom row, which never moves
    (`reread_forgotten`, `reader_z_of_run`, C153).
59. The clock of a `SequenceModel` moves with every call of `run_one_step`, also if a component raises and after the
    end: after `run()` it shows a time past the end, after another `run()` one step more, and a step that is
    repeated after an exception counts twice (`clock_moves_anyway`, `clock_runs_on`, C154). A component that raises
    `StopIteration` ends `run()` without a word (`stop_of_component_hidden`).
60. A second `Sequence` on a grid adds the sediment to the layers that are there, so the surface is raised by the
    thickness of the sediment. A `SequenceModel` adds 100 m whatever the surface and the bedrock are: the first step
    moves the surface to 100 m above the bedrock of a fresh grid and raises that of a used one by 100 m
    (`second_sequence`, `model_first_partial`, `second_model`, C155).

## Status per property

**proved**: the property holds of the model as stated. **partial**: the property is false of the code in
general; the theorems contain a refutation or an exact characterisation and a `_partial` theorem with
what does hold. Axioms: p `propext`, c `Classical.choice`, q `Quot.sound`.

| id | title | status | axioms | theorems |
|----|-------|--------|--------|----------|
| C01 | Time-varying configuration: the latest section wins, per parameter | proved | pcq | `config_latest_wins`, `config_no_duplicates` |
| C02 | diff(start, stop) is exactly the set of changed parameters | proved | pcq | `diff_exact`, `diff_overlay`, `diff_fails_iff` |
| C03 | update(inc) keeps the configuration in step with its clock | proved | pcq | `update_history` |
| C04 | as_dict gives back the nested dictionary that was loaded | proved | pq | `as_dict_roundtrip`, `as_dict_roundtrip_exact` |
| C05 | dump followed by load preserves the configuration at every time | partial | pcq | `dump_load_not_faithful`, `dump_load_partial` |
| C06 | Configuration files are applied in time order, each at its own time | proved | pcq | `config_files_found` |
| C07 | `sequence run` applies every section of the configuration files at its time | partial | pcq | `files_sections_ignored`, `files_sections_partial` |
| C08 | Shared parameters agree between two sections | proved | pcq | `match_fails_iff`, `match_value` |
| C09 | Parameters shared by two processes reach both constructors | partial | pcq | `hemipelagic_not_shared`, `shared_parameters_partial`, `unshared_parameters` |
| C10 | Processes run in the listed order, output last | proved | pcq | `components_order`, `components_fail_iff`, `sea_level_class`, `output_last` |
| C11 | model.run executes exactly floor((stop - start)/step) steps | proved | pcq | `model_run_steps`, `model_run_times`, `model_run_error`, `cli_run_steps` |
| C12 | Clock time equals the time the components have been advanced | partial | pcq | `clock_not_elapsed_time`, `clock_elapsed_time_partial` |
| C13 | Sequence.run(until) stops exactly at until | proved | pcq | `sequence_run`, `sequence_run_zero` |
| C14 | Layer thickness responds to deposition and erosion without going negative | proved | pcq | `add_layer_column`, `add_layer_fails_iff`, `layer_tops_are_lowest_surfaces` |
| C15 | Archiving old layers does not move any retained layer boundary | proved | pcq | `archive_ok_iff`, `archive_ok_of_same_names`, `archive_keeps_boundaries`, `archive_thickness`, `archive_properties` |
| C16 | Archiving bounds the number of stored layers | proved | pcq | `archive_count` |
| C17 | Layer ages never decrease upward | proved | pcq | `archive_ages_sorted` |
| C18 | Topography is bedrock plus sediment after every step | proved | pcq | `model_step_topo`, `model_step_nonneg`, `topo_above_bedrock`, `model_init_topo`, `model_run_topo`, `seq_update_topo`, `seq_update_nonneg`, `seq_init_topo`, `seq_run_topo` |
| C19 | Layer properties stay physical | proved | pcq | `archive_range`, `archive_t0_conserved`, `model_t0` |
| C20 | Archiving preserves the volume of sand | partial | pcq | `archive_sand_volume_not_conserved`, `archive_sand_volume_change`, `archive_sand_volume_iff`, `archive_sand_volume_partial` |
| C21 | Subsidence increments move the bedrock exactly once (SequenceModel) | proved | pcq | `model_bedrock` |
| C22 | Subsidence lowers the bedrock under the Sequence driver | partial | pcq | `seq_bedrock_never_moves`, `seq_bedrock_differs`, `seq_increment_partial` |
| C23 | Subsidence and flexure do not depend on component order | partial | pcq | `bedrock_movers_commute_partial`, `litho_depends_on_order` |
| C24 | Sea level follows its curve and increments telescope | proved | pcq | `sea_level_history`, `sea_level_error`, `sea_level_out_of_range` |
| C25 | Sinusoidal sea level is periodic about its trend and bounded | proved | pcq | `sinusoidal_defined`, `sinusoidal_value`, `sinusoidal_periodic`, `sinusoidal_bounded`, `sinusoidal_phase`, `sinusoidal_crest` |
| C26 | Tabulated curves are interpolated faithfully | proved | pcq | `interp_defined_iff`, `table_too_short`, `interp_between`, `interp_at_node`, `interp_bounds`, `interp_monotone` |
| C27 | Subsidence is proportional to elapsed time | proved | pcq | `subsidence_total`, `subsidence_split` |
| C28 | Bathymetry is applied to every row | proved | pq | `bathymetry_rows`, `bathymetry_range` |
| C29 | The shoreline index is the first submerged node | proved | pcq | `shoreline_index_iff`, `shoreline_index_error_iff`, `shoreline_index_rows` |
| C30 | The shoreline lies between the last dry and the first wet node | partial | pcq | `shoreline_all`, `shoreline_bracket_partial`, `shoreline_separates`, `shoreline_barrier_fails` |
| C31 | The shoreline is where the interpolated profile crosses sea level | proved | pcq | `shoreline_is_crossing`, `continuous_crosses`, `shoreline_linear` |
| C32 | The shelf edge is seaward of the shoreline | proved | pcq | `shelf_edge_spec`, `shelf_edge_seaward`, `finder_row` |
| C33 | Diffusivity is positive everywhere | proved | pcq | `diffusivity_value`, `diffusivity_positive`, `wave_base_factor`, `lagoon_diffusivity_negative`, `diffusivity_boundary` |
| C34 | Identical rows get identical submarine diffusivity | partial | pcq | `identical_rows_differ`, `identical_rows_partial` |
| C35 | Diffusion is recorded as deposit, not as topography | proved | pcq | `diffusion_deposit`, `diffusion_error` |
| C36 | Isostatic deflection is never lost or created | proved | pcq | `deflection_conserved`, `deflection_bounded` |
| C37 | Isostatic response does not depend on how time is split | partial | pcq | `response_split_partial`, `immediate_partial`, `immediate_many_rows`, `response_split_many_rows`, `isostasy_time_valid` |
| C38 | Sediment load depends only on where the surface starts and ends | proved | pcq | `loading_parts`, `loading_additive`, `loading_reverses`, `loading_bounds` |
| C39 | Each load increment bends the lithosphere once | proved | pcq | `loads_counted_once`, `flexure_of_total_load`, `flexure_of_total_load_immediate` |
| C40 | Densities are validated and derived densities stay consistent | proved | pcq | `densities_validated`, `densities_consistent` |
| C41 | Sand fraction on land is a fraction | partial | pcq | `sand_fraction_range_partial`, `fluvial_in_range`, `fluvial_zero_parameter`, `sand_fraction_finite`, `fluvial_other_rows`, `fluvial_step_succeeds`, `fluvial_keeps_fractions`, `flat_land_sand`, `sand_fraction_number`, `flat_plain_nan` |
| C42 | Sand fraction offshore accounts for hemipelagic mud | partial | pcq | `offshore_fraction_zero`, `offshore_fraction_partial` |
| C43 | Hemipelagic mud only falls in deep water | proved | pcq | `hemipelagic_mud`, `hemipelagic_bounds`, `hemipelagic_scales`, `first_node_mud` |
| C44 | Output is written every `interval` steps | proved | pcq | `writer_history`, `fixed_interval_times` |
| C45 | Output times are model times | partial | pcq | `labels_behind_clock`, `labels_are_clock_partial`, `labels_any_steps` |
| C46 | Appending output never changes earlier slices | proved | pcq | `writer_history`, `slices_kept` |
| C47 | Layers in the output file are the layers of the model | partial | pcq | `file_layers_partial`, `file_layers_stale`, `layers_after_write_iff`, `stale_layers` |
| C48 | An existing output file is not overwritten without clobber | proved | pcq | `existing_file_kept`, `filepath_touches_only`, `filepath_ok`, `bad_interval_keeps_file`, `writer_history` |
| C49 | The output interval is validated | partial | pcq | `interval_accepted_iff`, `interval_stored`, `interval_zero_fails`, `interval_positive_partial` |
| C50 | Grid construction is consistent | proved | pcq | `grid_shape`, `grid_one_dimension`, `grid_invalid`, `grid_from_dict` |
| C51 | Profiles are the active rows | proved | pcq | `profile_rows`, `profile_write` |
| C52 | A Sequence with a shoreline component works on any grid | proved | pcq | `row_layers_record_every_row`, `row_layers_created_late`, `row_layers_missing`, `row_layers_fit` |
| C53 | Every --set option takes effect | partial | pcq | `set_option_lost`, `set_options_partial`, `set_options_one_equal_sign` |
| C54 | `sequence setup` writes all input files or none | partial | pcq | `setup_not_atomic`, `setup_partial`, `setup_null` |
| C55 | Changing parameters while running takes effect from the next step | proved | pcq | `run_parameters`, `run_changes_only_components` |
| C56 | The number of layers plotted is about what was asked for | partial | pcq | `layersToPlot_error_iff`, `layers_count_partial`, `too_many_layers` |
| C57 | Layer outlines are connected closed paths | proved | pcq | `outline_path`, `outline_connected`, `outline_in_range`, `outline_lengths`, `outline_between`, `outline_jumps` |
| C58 | Water load is the weight of the change of the water column | proved | pcq | `water_loading_value`, `half_plane_linear`, `water_flexure_additive`, `half_plane_edge` |
| C59 | The default initial profile is continuous and slopes seaward | proved | pcq | `initial_profile_decreasing`, `initial_profile_continuous`, `initial_shore_position`, `initial_profile_list` |
| C60 | Each layer records the water depth above the new surface | partial | pcq | `water_depth_differs`, `seq_water_depth`, `model_water_depth` |
| C61 | A run of working components completes | proved | pcq | `model_run_completes`, `model_layer_count`, `model_thickness`, `model_ages`, `model_sand_range`, `seq_thickness`, `seq_layer_count` |
| C62 | The initial layer records the water depth above it | partial | pcq | `model_initial_water_depth`, `seq_initial_water_depth` |
| C63 | Sea level in a run follows the model clock | proved | pcq | `model_sea_level`, `model_sea_level_clock` |
| C64 | Subsidence moves the bedrock of a run by rate times time | proved | pcq | `model_subsidence` |
| C65 | The shoreline step treats rows independently and fails cleanly | proved | pcq | `shoreline_update_rows`, `shoreline_update_succeeds` |
| C66 | The sediment load follows sea level | partial | pcq | `k_land_consistent`, `set_load_uses_old_sea_level`, `load_follows_sea_level_partial`, `diffuser_init` |
| C67 | Diffusivity falls with depth and grows offshore | proved | pcq | `diffusivity_decreases`, `diffusivity_grows` |
| C68 | Bedrock moves by subsidence and by each load exactly once | proved | pcq | `bedrock_budget` |
| C69 | Recorded changes of water depth add up | partial | pcq | `water_increments_partial`, `water_increment_ignores_sea_level`, `water_increment_differs` |
| C70 | Steep plains have braided rivers | partial | pcq | `never_braided`, `braided_partial` |
| C71 | A muddier river does not leave a sandier plain | partial | pcq | `muddier_river_sandier_plain`, `muddier_river_partial`, `muddier_is_sandier`, `sand_fraction_local`, `nodeSand_seaward`, `nodeSand_landward` |
| C72 | Row and column coordinates in the output are those of the data | partial | pcq | `coordinates_shifted`, `file_coordinates` |
| C73 | A writer can be restricted to some rows | partial | pcq | `some_rows_fail`, `all_rows_partial`, `reordered_rows`, `rows_swapped` |
| C74 | The file holds the node fields that were asked for | partial | pcq | `fields_exact_partial`, `no_fields_means_all`, `setup_text_fields`, `text_fields_nothing`, `later_text_fields` |
| C75 | Writing output does not change the run | proved | pcq | `output_step_same`, `output_history_same` |
| C76 | A run with output completes and writes the expected slices | proved | pcq | `run_with_output`, `worldView_sizes` |
| C77 | The outline of a layer includes its corners | partial | pcq | `top_corner_iff`, `bottom_corner_iff`, `corners_cut` |
| C78 | What plot_layers draws | partial | pcq | `plotLayers_ok`, `plotLayers_positions`, `stackAt_spec`, `water_level`, `default_shelf`, `land_connected`, `uncoloured_not_drawn` |
| C79 | plot_file says what is wrong with a file or a row | proved | pcq | `plotFile_invalidRow_iff`, `plotFile_missing_iff` |
| C80 | plot_file draws layers where they are | partial | pcq | `plotFile_spec`, `plot_of_run`, `plot_in_place_partial`, `plot_elevation_wrong` |
| C81 | The output of a run can be plotted | partial | pcq | `plotFile_spec`, `plot_of_run`, `run_not_plotted` |
| C82 | plot_file draws every layer with the shoreline of its time | partial | pcq | `plotFile_spec`, `plot_of_run`, `plot_fixed_shore_partial`, `plot_shore_wrong` |
| C83 | plot_grid draws every layer with the shoreline of its time | partial | pcq | `plot_grid_run`, `plot_grid_rows` |
| C84 | Sections without a time are numbered | proved | pcq | `file_sections`, `files_numbered` |
| C85 | The sediment load is the weight of all deposits | proved | pcq | `sediment_load_sum` |
| C86 | The sediment load is the weight of the sediment | partial | pcq | `load_of_sediment_partial`, `load_below_bedrock` |
| C87 | The mud that is deposited is taken out of the river | partial | pcq | `mud_budget_partial`, `upstream_deposit_ignored`, `even_plain_sand` |
| C88 | Compaction keeps what the layers record | proved | pcq | `compaction_record`, `compaction_ages` |
| C89 | Compaction never adds sediment | proved | pcq | `compaction_thickness` |
| C90 | Only a component can make a step fail | proved | pcq | `step_fails_in_components` |
| C91 | The processes of a model find their fields | proved | pcq | `package_fields`, `bare_model_fails` |
| C92 | The edges of the grid do not move | proved | pcq | `package_edges` |
| C93 | Where nothing is deposited the surface moves with the bedrock | partial | pcq | `surface_follows_bedrock_partial`, `edge_does_not_subside` |
| C94 | Sand fractions are fractions throughout a run | proved | pcq | `package_sand` |
| C95 | The budgets of a run | proved | pcq | `package_budgets` |
| C96 | Independent processes can be listed in any order | proved | pcq | `order_of_independent`, `order_matters` |
| C97 | The number of steps in floating point | partial | pcq | `float_run_exact`, `float_run_steps_partial`, `binary64_rounding`, `float_run_short` |
| C98 | Options of sequence plot | partial | pcq | `plot_options_partial`, `plot_unknown_name`, `plot_file_title`, `plot_ignores_name`, `plot_verbose_null` |
| C99 | Parameters from a file | partial | pcq | `param_file_partial`, `param_file_lost`, `param_file_reversed` |
| C100 | The shelf edge by curvature | partial | pcq | `byCurvature_bend_partial`, `byCurvature_invariant`, `byCurvature_bend_first` |
| C101 | Parameters that change during a run | partial | pcq | `ignored_parameters`, `hemipelagic_change_ignored`, `shoreline_alpha_refused`, `read_only_refused`, `density_change_checked`, `sea_level_time_change`, `interval_change`, `fields_change`, `filepath_change`, `shoreline_alpha_never_changed`, `change_is_local`, `fluvial_change_partial`, `sea_level_file_change_partial`, `subsidence_file_change_partial`, `diffuser_change_partial`, `load_change_uses_old_sea_level` |
| C102 | sequence run and SequenceModel.run | proved | pcq | `run_without_changes` |
| C103 | A dry run changes nothing | partial | pcq | `dry_run_partial`, `dry_run_deletes` |
| C104 | Files that sequence run touches | proved | pcq | `run_touches_only_outputs`, `run_command_touches_only_outputs` |
| C105 | Existing files are safe without clobber | proved | pcq | `existing_files_kept`, `run_command_keeps_existing` |
| C106 | Unknown parameters are rejected | partial | pcq | `unknown_parameters_partial`, `unknown_parameter_later_ignored`, `unknown_section_ignored` |
| C107 | sequence run comes to an end | proved | pcq | `run_ends`, `run_needs_stop_and_step`, `running_means_steps`, `backwards_never_stops` |
| C108 | The configuration reaches the model | proved | pcq | `setup_clock`, `setup_processes`, `setup_parameters`, `setup_isostasy`, `setup_curves`, `setup_grid`, `setup_surface`, `setup_output`, `setup_porosity`, `setup_later_files`, `setup_clobber` |
| C109 | Unused sections have no effect | proved | pcq | `unused_sections` |
| C110 | Later sections change components only | proved | pcq | `change_needs_component`, `no_start_file`, `no_start_file_rounds` |
| C111 | The datum makes no difference | partial | pcq | `datum_partial`, `datum_run_partial`, `datum_waterFlexure_fails`, `bathymetry_moved`, `file_moved`, `sinusoid_moved` |
| C112 | The calendar makes no difference | proved | pcq | `calendar`, `file_moved`, `sinusoid_moved` |
| C113 | The future has no effect | proved | pcq | `sea_level_to_come`, `sea_level_after_stop`, `sections_to_come`, `files_after_stop` |
| C114 | Exactly the fine configurations are accepted | proved | pcq | `setup_accepts_iff` |
| C115 | A fresh simulation can be run | partial | pcq | `setup_then_run_partial`, `setup_options_run`, `sea_level_file_refused` |
| C116 | Generated configuration files can be read | partial | pcq | `generate_toml_partial`, `generate_yaml_unreadable`, `generate_yaml_section`, `generate_null` |
| C117 | What can stop a simulation | partial | pcq | `shoreline_found`, `process_stops`, `step_stops_partial`, `flat_land_goes_on`, `no_zero_divisor`, `rising_sea_stops` |
| C118 | Formats of configuration files | partial | pcq | `formats_supported`, `format_of_name`, `found_files_readable`, `formats_agree`, `from_file_iff`, `load_config_shape`, `dump_formats`, `grid_from_toml`, `grid_from_dump_fails` |
| C119 | Commands in one call are independent | partial | pcq | `chained_commands_partial`, `command_defaults`, `chained_options_leak`, `chained_option_stays` |
| C120 | Null stands for a value that is not given | partial | pcq | `null_not_given_partial`, `null_refused`, `setup_null`, `generate_null`, `plot_verbose_null` |
| C121 | What a new model remembers | proved | pcq | `new_components`, `new_fields` |
| C122 | The progress bar | partial | pcq | `progress_numbers`, `progress_full_partial`, `progress_not_full`, `finished_bar` |
| C123 | Messages of a run | partial | pcq | `message_lines`, `isLines_unique`, `stdout_is_directory`, `silent_quiet_partial`, `silent_verbose_talks`, `default_messages`, `procs_enabled`, `components_reported`, `disabled_reported`, `all_disabled_but_two` |
| C124 | A simulation that fails keeps what it has written | partial | pcq | `left_fits`, `left_touches_only_outputs`, `left_keeps_existing`, `failed_step_keeps`, `failed_change_keeps`, `left_complete`, `left_keeps_records`, `rows_leave_unfinished`, `some_rows_leave_record` |
| C125 | Parameters that change together can change in any order | partial | pcq | `change_order_free_partial`, `finishes_in_any_order_partial`, `leftByRunIn_model`, `order_of_error`, `order_of_files`, `order_of_success` |
| C126 | Files from before a run make no difference | proved | pcq | `old_files_irrelevant`, `old_files_overwritten`, `left_directories`, `run_again` |
| C127 | Sequence.run(until) in floating point | partial | pcq | `float_until_exact`, `float_until_bounds_partial`, `float_until_steps_partial`, `float_until_short`, `float_until_extra`, `float_single_step_twice` |
| C128 | Output settings only select what is written | proved | pcq | `output_settings_only_select`, `running_rounds`, `shown_is_written` |
| C129 | An option can set a whole section | proved | pcq | `section_options`, `section_items`, `section_refused` |
| C130 | Sand that is no denser than water | proved | pcq | `sand_lighter_than_water`, `sand_as_dense_as_water` |
| C131 | A process with nothing to do makes no difference | proved | pcq | `idle_subsidence`, `idle_compaction`, `idle_sea_level` |
| C132 | The order of the keys in a configuration makes no difference | proved | pcq | `key_order` |
| C133 | Every variable of an output file holds the quantity it is named after | proved | pcq | `file_holds_quantities` |
| C134 | Running a Sequence in parts | proved | pcq | `run_in_parts`, `run_in_parts_iff`, `run_is_update` |
| C135 | `to_netcdf` writes the fields that are asked for | partial | pcq | `netcdf_calls_partial`, `effective_iff_asked`, `unknown_names_mean_all`, `unmentioned_location_means_all`, `empty_names_mean_all`, `unknown_names_in_dict`, `var_names_distinct`, `var_names_not_coordinates`, `coordinate_names_distinct` |
| C136 | A grid can be written with the default arguments | partial | pcq | `default_layers_fail`, `default_shore_fails`, `location_twice_fails`, `netcdf_calls_partial` |
| C137 | Rows are treated alike | partial | pcq | `rows_chosen`, `rows_reordered`, `alike_rows_stay_alike`, `middle_row_alone`, `middle_row_differs`, `flexureDueToWater_rows` |
| C138 | Rows beside the middle row are mud | proved | pcq | `other_rows_have_no_sand`, `other_rows_weigh_as_mud` |
| C139 | A write that fails keeps the records before it | proved | pcq | `failed_write_keeps_records`, `failed_write_keeps_layers`, `write_touches_only`, `wrong_format_writes_nothing`, `write_outcome`, `failed_write_leaves_record` |
| C140 | The clocks of a model agree in floating point | partial | pcq | `clocks_agree`, `sea_level_at_clock`, `labels_exact_on_grid`, `labels_near_partial`, `labels_off` |
| C141 | A log handler that is temporary | partial | pcq | `handlers_restored_partial`, `level_not_restored`, `block_prints` |
| C142 | The unit of time makes no difference | partial | pcq | `unit_partial`, `unit_changes_sand`, `sea_file_timed`, `subsidence_file_timed`, `sinusoid_timed` |
| C143 | Both drivers give the same result | partial | pcq | `drivers_agree_partial`, `drivers_run_partial`, `drivers_ends_differ`, `drivers_sea_levels_differ` |
| C144 | A higher sea does not move the shoreline seaward | partial | pcq | `higher_sea_partial`, `higher_sea_rows_partial`, `more_emerged_partial`, `higher_land_partial`, `transgression_partial`, `linear_keeps_constants`, `higher_sea_seaward` |
| C145 | Fields are stored in a type that holds their values | partial | pcq | `type_holds`, `writable_iff`, `first_type`, `values_held_partial`, `netcdf4_accepts`, `classic_accepts`, `type_changes`, `types_refused` |
| C146 | Stored shorelines are those of the stored surface | partial | pcq | `shore_of_step`, `shore_of_update`, `shore_last_unless_listed`, `shore_current_partial`, `shore_lags_partial`, `shore_not_current`, `shore_of_last_sea` |
| C147 | The time step makes no difference to what depends on time only | partial | pcq | `step_size_bedrock_partial`, `step_size_sea_level`, `step_size_shoreline` |
| C148 | The report of how long the components took | partial | pcq | `timing_report`, `timing_shares`, `timing_components`, `timing_rounded`, `timing_fails_iff`, `timing_coarse_clock`, `timing_set_back` |
| C149 | The texts of errors tell what is wrong | partial | pcq | `mismatch_message_tells`, `mismatch_message_plural`, `missing_message_tells`, `invalid_row_message_tells`, `invalid_row_message_text`, `plot_file_message_tells`, `plot_file_quotes_twice` |
| C150 | The shorelines in a record are those of its topography | proved | pcq | `record_shorelines`, `record_coast` |
| C151 | The layers in a file fill the space between bedrock and topography | partial | pcq | `layers_fill_partial`, `layers_overfill`, `layers_compacted` |
| C152 | The shelf edges in a record are those of its deposits | proved | pcq | `record_shelf_edges`, `record_edge_seaward`, `edge_last_unless_listed`, `edge_of_no_deposit` |
| C153 | A bathymetry is where the model goes on from | partial | pcq | `read_first_partial`, `reread_forgotten`, `reread_undone`, `reader_z_when_read`, `reader_z_of_run` |
| C154 | Running a SequenceModel in parts | partial | pcq | `steps_then_run`, `steps_raise_as_run`, `run_again_partial`, `clock_moves_anyway`, `clock_runs_on`, `model_quiet`, `stop_of_component_hidden` |
| C155 | The surface that a new model starts from | partial | pcq | `seq_init_surface`, `seq_init_no_bedrock`, `seq_first_partial`, `second_sequence`, `model_first_surface`, `model_first_partial`, `second_model` |
