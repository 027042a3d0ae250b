{"id": "C01", "title": "Time-varying configuration: the latest section wins, per parameter", "statement": "Calling a TimeVaryingConfig at time t gives, for every parameter path, the value from the last section whose time is <= t that sets that path, and nothing for a path no such section sets.", "quantifier": "all lists of sections with non-decreasing times, all times t, all parameter paths", "why_tests_cant": "There are unboundedly many sections, orders of overriding and query times; a test fixes a few of each.", "anchors": ["sequence/input_reader.py:TimeVaryingConfig.__call__", "sequence/input_reader.py:TimeVaryingConfig.__init__", "sequence/input_reader.py:TimeVaryingConfig._bisect_times"]}
{"id": "C02", "title": "diff(start, stop) is exactly the set of changed parameters", "statement": "For start <= stop, the dictionary returned by diff holds exactly those parameters whose value at stop differs from (or is absent at) start, with the value at stop; overlaying it on the configuration at start gives the configuration at stop. It raises TypeError exactly when one of the two configurations holds an unhashable value such as a list inside a list.", "quantifier": "all section lists with non-decreasing times, all start <= stop", "why_tests_cant": "The claim relates two arbitrary points of an unbounded timeline.", "anchors": ["sequence/input_reader.py:TimeVaryingConfig.diff"]}
{"id": "C03", "title": "update(inc) keeps the configuration in step with its clock", "statement": "After any history of non-negative update calls that has crossed at least one section time, as_dict is the configuration at the accumulated time, and the overlaid return values of the calls carry the configuration at time 0 to it. Before any section time is crossed as_dict is the first section.", "quantifier": "all lists of sections in order of time whose dictionaries agree on which keys are sections and hold no tuples and no unhashable list items (anything read from TOML or YAML without nested lists), all finite sequences of non-negative increments", "why_tests_cant": "Histories are unbounded and the state is carried between calls.", "anchors": ["sequence/input_reader.py:TimeVaryingConfig.update", "sequence/input_reader.py:TimeVaryingConfig.as_dict"]}
{"id": "C04", "title": "as_dict gives back the nested dictionary that was loaded", "statement": "For a single nested parameter dictionary (string keys, no empty sub-dictionary, no tuple values), flattening and expanding it returns the same dictionary, key order included. An empty sub-dictionary is dropped.", "quantifier": "all finite nested dictionaries with distinct keys at each level", "why_tests_cant": "Arbitrary nesting depth and width.", "anchors": ["sequence/input_reader.py:_flatten_dict", "sequence/input_reader.py:_expand_dict", "sequence/input_reader.py:_walk_dict", "sequence/input_reader.py:_add_flattened_item"]}
{"id": "C05", "title": "dump followed by load preserves the configuration at every time", "statement": "Loading the documents written by dump gives a configuration that agrees with the original one at every time t.", "quantifier": "all TimeVaryingConfig objects and all times t", "why_tests_cant": "A round-trip over all timelines; a test checks one file. (False when two sections share a time.)", "anchors": ["sequence/input_reader.py:TimeVaryingConfig.dump", "sequence/input_reader.py:TimeVaryingConfig.load_toml", "sequence/input_reader.py:TimeVaryingConfig.load_yaml", "sequence/input_reader.py:TimeVaryingConfig.from_file"]}
{"id": "C06", "title": "Configuration files are applied in time order, each at its own time", "statement": "The file discovery used by `sequence run` pairs each name with its own time (number in the file name, or position if there is none), returns the pairs in non-decreasing order of time, loses and invents none, and ignores yaml files when any toml file exists.", "quantifier": "all finite sets of file names", "why_tests_cant": "Sorting two parallel lists can break pairing in ways that depend on the data.", "anchors": ["sequence/cli.py:_find_config_files", "sequence/cli.py:_time_from_filename"]}
{"id": "C07", "title": "`sequence run` applies every section of the configuration files at its time", "statement": "The configuration built from the discovered files applies every section found in the files at its `_time` (or the file's time).", "quantifier": "all lists of files, each with any number of sections", "why_tests_cant": "Interaction of file count and section count. (False when a file has more than one section: later sections are dropped or shifted.)", "anchors": ["sequence/input_reader.py:TimeVaryingConfig.from_files", "sequence/cli.py:run"]}
{"id": "C08", "title": "Shared parameters agree between two sections", "statement": "Matching the listed keys of two parameter groups fails with ParameterMismatchError exactly when both define a key with different values, naming exactly those keys; otherwise the result maps each listed key defined by either group to its value.", "quantifier": "all pairs of parameter groups, all key lists", "why_tests_cant": "Universally quantified over dictionaries and key lists.", "anchors": ["sequence/sequence_model.py:_match_values", "sequence/errors.py:ParameterMismatchError"]}
{"id": "C09", "title": "Parameters shared by two processes reach both constructors", "statement": "After load_processes, each pair of groups (fluvial/submarine_diffusion, shoreline/submarine_diffusion, water_flexure/flexure) that has no conflicting shared key receives the same value for every shared key defined by either enabled group; `sediments.hemipelagic` reaches the fluvial component.", "quantifier": "all process lists and all configuration contexts", "why_tests_cant": "Depends on the interplay of the process list and several overlapping groups. (The hemipelagic part is false of the code.)", "anchors": ["sequence/sequence_model.py:SequenceModel.load_processes"]}
{"id": "C10", "title": "Processes run in the listed order, output last", "statement": "The components of a model are the distinct listed processes in order of first appearance, followed by fluvial and shoreline if they were not listed, followed by the output writer; an unknown name raises KeyError.", "quantifier": "all process lists", "why_tests_cant": "Arbitrary lists including repeats and omissions.", "anchors": ["sequence/sequence_model.py:SequenceModel.load_processes", "sequence/sequence_model.py:SequenceModel.__init__"]}
{"id": "C11", "title": "model.run executes exactly floor((stop - start)/step) steps", "statement": "Running a model from start to stop with a positive step executes exactly floor((stop-start)/step) steps (none if stop < start), the k-th at clock time start + k*step, and never calls a component after stop.", "quantifier": "all start, stop, step > 0", "why_tests_cant": "Loop termination and count for arbitrary real parameters.", "anchors": ["sequence/sequence_model.py:SequenceModel.run", "sequence/sequence_model.py:SequenceModel.run_one_step", "landlab TimeStepper"]}
{"id": "C12", "title": "Clock time equals the time the components have been advanced", "statement": "After any history of run_one_step(dt) calls, clock.time - clock.start is the sum of the time steps given to the components.", "quantifier": "all sequences of optional dt arguments", "why_tests_cant": "Stateful history. (False when dt differs from clock.step: the clock advances by step; dt=0 is taken as step.)", "anchors": ["sequence/sequence_model.py:SequenceModel.run_one_step"]}
{"id": "C13", "title": "Sequence.run(until) stops exactly at until", "statement": "With dt > 0, run(until, dt) performs ceil((until-time)/dt) updates when until > time, all of size dt except possibly a shorter last one, and leaves time equal to until; if until <= time it does nothing.", "quantifier": "all times, until, dt > 0", "why_tests_cant": "Floor/modulo arithmetic over all reals.", "anchors": ["sequence/sequence.py:Sequence.run", "sequence/sequence.py:Sequence.update"]}
{"id": "C14", "title": "Layer thickness responds to deposition and erosion without going negative", "statement": "Adding a layer of thickness dz gives each column total thickness max(0, old + dz); deposition changes no older layer; erosion removes material from the top down, so the elevation of every older layer top becomes min(old, new surface); no layer is ever negative.", "quantifier": "all layer stacks, all signed dz per column, all histories", "why_tests_cant": "Unbounded stack heights and histories.", "anchors": ["sequence/sequence.py:Sequence.add_layer", "sequence/sequence_model.py:SequenceModel.advance_components", "landlab EventLayers.add"]}
{"id": "C15", "title": "Archiving old layers does not move any retained layer boundary", "statement": "For any history of deposition and erosion the archived stack is the un-archived stack with every group of ten archived events merged into one: merged thickness is the sum of the group (after all later erosion), age the maximum, t0 the sum, water depth, porosity and sand fraction the mean.", "quantifier": "all finite histories of layer additions (any sign of dz, any properties)", "why_tests_cant": "The archiving policy interleaves with later erosion over unbounded histories.", "anchors": ["sequence/sequence.py:Sequence.add_layer", "sequence/sequence.py:Sequence.layer_reducers", "sequence/sequence_model.py:SequenceModel.advance_components", "sequence/sequence_model.py:SequenceModel.layer_reducers"]}
{"id": "C16", "title": "Archiving bounds the number of stored layers", "statement": "After N layer additions the stack has N layers if N < 20 and N - 9*(N//10 - 1) otherwise; fewer than 20 of them are un-archived, and the last ten events are never merged.", "quantifier": "all N", "why_tests_cant": "Closed form over all N needs induction.", "anchors": ["sequence/sequence.py:Sequence.add_layer", "sequence/sequence_model.py:SequenceModel.advance_components"]}
{"id": "C17", "title": "Layer ages never decrease upward", "statement": "With non-negative time steps the layers' ages are non-decreasing from bottom to top in every column at all times, archived layers included, and the top layer's age is the current time.", "quantifier": "all histories with non-negative time steps", "why_tests_cant": "Invariant over unbounded histories including archiving.", "anchors": ["sequence/sequence.py:Sequence.layer_properties", "sequence/sequence_model.py:SequenceModel.layer_properties"]}
{"id": "C18", "title": "Topography is bedrock plus sediment after every step", "statement": "At every interior node, after construction and after each completed step of Sequence or SequenceModel, topographic elevation equals bedrock elevation plus total layer thickness, and so is never below bedrock, whatever the components do.", "quantifier": "all component behaviours, all histories, all interior nodes", "why_tests_cant": "Invariant quantified over arbitrary components and histories.", "anchors": ["sequence/sequence.py:Sequence.update", "sequence/sequence.py:Sequence.__init__", "sequence/sequence_model.py:SequenceModel._update_fields", "sequence/sequence_model.py:SequenceModel.__init__"]}
{"id": "C19", "title": "Layer properties stay physical", "statement": "If each added layer has sand fraction in [0,1], porosity in [0, porosity_max] and t0 >= 0, so has every stored layer, archived or not; the column sum of t0 equals the total amount ever deposited.", "quantifier": "all histories of layers with properties in range", "why_tests_cant": "Invariant under an unbounded mix of adds and reductions.", "anchors": ["sequence/sequence.py:Sequence.layer_properties", "sequence/sequence.py:Sequence.layer_reducers", "sequence/sequence_model.py:SequenceModel.layer_reducers"]}
{"id": "C20", "title": "Archiving preserves the volume of sand", "statement": "The column total of layer thickness times sand fraction is unchanged by archiving.", "quantifier": "all stacks", "why_tests_cant": "Universal over stacks. (False: the mean is not weighted by thickness; true when the merged layers are equally thick or equally sandy.)", "anchors": ["sequence/sequence.py:Sequence.layer_reducers", "sequence/sequence_model.py:SequenceModel.layer_reducers"]}
{"id": "C21", "title": "Subsidence increments move the bedrock exactly once (SequenceModel)", "statement": "Each step of SequenceModel changes bedrock by exactly the total increment left by its components and resets the increment to zero, so after any history bedrock = initial bedrock + sum of all increments.", "quantifier": "all histories and component behaviours that only write increments", "why_tests_cant": "Accumulation over unbounded histories.", "anchors": ["sequence/sequence_model.py:SequenceModel._update_fields"]}
{"id": "C22", "title": "Subsidence lowers the bedrock under the Sequence driver", "statement": "When a Sequence is run with a subsidence component, bedrock elevation changes by the accumulated increments.", "quantifier": "all histories", "why_tests_cant": "Only visible as an effect over time. (False: Sequence never applies the increments.)", "anchors": ["sequence/sequence.py:Sequence.update", "sequence/subsidence.py:SubsidenceTimeSeries.run_one_step"]}
{"id": "C23", "title": "Subsidence and flexure do not depend on component order", "statement": "Any reordering of the subsidence, sediment-flexure and water-flexure components within a step gives the same grid state and component states.", "quantifier": "all grid states, time steps and permutations", "why_tests_cant": "All interleavings and states.", "anchors": ["sequence/subsidence.py:SubsidenceTimeSeries.run_one_step", "sequence/sediment_flexure.py:SedimentFlexure.update", "sequence/sediment_flexure.py:WaterFlexure.update"]}
{"id": "C24", "title": "Sea level follows its curve and increments telescope", "statement": "After any sequence of steps, sea level equals the curve at the component's time, and the sum of the reported increments is the current level minus the initial level. Outside the range of the file a step raises ValueError and changes neither level nor increment.", "quantifier": "all curves, all step sequences", "why_tests_cant": "Unbounded histories.", "anchors": ["sequence/sea_level.py:SeaLevelTimeSeries.run_one_step", "sequence/sea_level.py:SeaLevelTimeSeries.__init__"]}
{"id": "C25", "title": "Sinusoidal sea level is periodic about its trend and bounded", "statement": "The level at t + wave_length is the level at t plus linear*wave_length, the departure from mean + linear*t is at most 1.3*|amplitude|, and at t = phase the level is on the trend.", "quantifier": "all amplitudes, wave lengths != 0, phases, means, trends and times", "why_tests_cant": "Real-valued identity.", "anchors": ["sequence/sea_level.py:SinusoidalSeaLevel.__init__"]}
{"id": "C26", "title": "Tabulated curves are interpolated faithfully", "statement": "Linear interpolation of a table with increasing abscissae is defined exactly on [first, last], equals the tabulated value at every node, lies between the two neighbouring values inside an interval, and raises ValueError outside.", "quantifier": "all tables and query points", "why_tests_cant": "All tables of any length.", "anchors": ["sequence/sea_level.py:SeaLevelTimeSeries._sea_level_interpolator", "sequence/subsidence.py:SubsidenceTimeSeries", "sequence/bathymetry.py:BathymetryReader"]}
{"id": "C27", "title": "Subsidence is proportional to elapsed time", "statement": "After steps dt_1..dt_n the subsidence component has added rate(x)*(dt_1+...+dt_n) to the increment of every node of every active row, and nothing elsewhere; the way the time is split is irrelevant.", "quantifier": "all rates, grids and step sequences", "why_tests_cant": "Additivity over unbounded histories.", "anchors": ["sequence/subsidence.py:SubsidenceTimeSeries.run_one_step"]}
{"id": "C28", "title": "Bathymetry is applied to every row", "statement": "One step of the bathymetry reader gives every row of the grid, boundary rows included, the profile interpolated from the file, touches nothing else, and repeating it changes nothing; if a column lies outside the range of the file the step raises ValueError.", "quantifier": "all profiles and grids", "why_tests_cant": "All grids and profiles.", "anchors": ["sequence/bathymetry.py:BathymetryReader.run_one_step"]}
{"id": "C29", "title": "The shoreline index is the first submerged node", "statement": "find_shoreline_index returns the least index whose elevation is below sea level; it raises ShorelineError exactly when every node or no node is below sea level.", "quantifier": "all profiles and sea levels", "why_tests_cant": "All profiles.", "anchors": ["sequence/shoreline.py:find_shoreline_index"]}
{"id": "C30", "title": "The shoreline lies between the last dry and the first wet node", "statement": "find_shoreline returns x[0] for an all-submerged profile, x[-1] for an all-emerged one, and otherwise a position in [x[i-1], x[i]] where i is the first submerged node.", "quantifier": "all profiles with increasing x, all sea levels, all interpolation kinds", "why_tests_cant": "All profiles. (False when x[0] is submerged but some node is dry: ValueError or a position elsewhere.)", "anchors": ["sequence/shoreline.py:find_shoreline"]}
{"id": "C31", "title": "The shoreline is where the interpolated profile crosses sea level", "statement": "When the interpolant is continuous the returned position is within the root-finder's tolerance of a point where the interpolated elevation equals sea level; with linear interpolation that crossing is unique in its interval.", "quantifier": "all profiles with a dry first node", "why_tests_cant": "Convergence of an iterative algorithm for all inputs.", "anchors": ["sequence/shoreline.py:find_shoreline"]}
{"id": "C32", "title": "The shelf edge is seaward of the shoreline", "statement": "With alpha > 0 find_shelf_edge returns the position of the largest deposit among nodes with x > x_of_shore + 3/alpha (first one on ties) and raises ShelfEdgeError exactly when there is no such node, so the assertion in ShorelineFinder.update never fails.", "quantifier": "all increasing x, all deposits, all shorelines, alpha > 0", "why_tests_cant": "An assertion that must hold for all inputs.", "anchors": ["sequence/shoreline.py:find_shelf_edge", "sequence/shoreline.py:ShorelineFinder.update"]}
{"id": "C33", "title": "Diffusivity is positive everywhere", "statement": "For positive load, slope and scale parameters and a profile whose first node is dry or which is entirely submerged, every active node gets a strictly positive diffusivity, and below wave base the value is reduced by the factor exp(-(d-wb)/wb) <= 1.", "quantifier": "all profiles and parameters in range", "why_tests_cant": "All profiles; composes shoreline and diffusivity.", "anchors": ["sequence/submarine.py:SubmarineDiffuser.calc_diffusion_coef", "sequence/submarine.py:SubmarineDiffuser.run_one_step"]}
{"id": "C34", "title": "Identical rows get identical submarine diffusivity", "statement": "Two rows with the same profile and shoreline get the same diffusivity at their submerged nodes.", "quantifier": "all grids and sea-level histories", "why_tests_cant": "State leaks from row to row. (False when the load depends on sea level: row 0 uses the previous load.)", "anchors": ["sequence/submarine.py:SubmarineDiffuser.calc_diffusion_coef"]}
{"id": "C35", "title": "Diffusion is recorded as deposit, not as topography", "statement": "A step of SubmarineDiffuser leaves topography unchanged except at the first column of the active rows, which is set plain_slope*dx above its neighbour, and adds to the deposit exactly the elevation change computed by the diffusion solver from that topography.", "quantifier": "all grids, all solvers", "why_tests_cant": "All solver behaviours.", "anchors": ["sequence/submarine.py:SubmarineDiffuser.run_one_step"]}
{"id": "C36", "title": "Isostatic deflection is never lost or created", "statement": "Over any history the deflections applied plus the deflection still pending equal the sum of the isostatic deflections supplied.", "quantifier": "all sequences of deflections and time steps, all isostasy times", "why_tests_cant": "Conservation over unbounded histories.", "anchors": ["sequence/sediment_flexure.py:DynamicFlexure.calc_dynamic_deflection"]}
{"id": "C37", "title": "Isostatic response does not depend on how time is split", "statement": "Without new load, responding for dt1 then dt2 equals responding for dt1+dt2; with isostasytime None (or 0) the full deflection is applied at once.", "quantifier": "all pools, dt1, dt2, isostasy times and grids", "why_tests_cant": "Real-valued identity. (True for one active row; false for more, where the fraction is divided by the number of rows.)", "anchors": ["sequence/sediment_flexure.py:DynamicFlexure.calc_isostasy_fraction", "sequence/sediment_flexure.py:DynamicFlexure.calc_dynamic_deflection"]}
{"id": "C38", "title": "Sediment load depends only on where the surface starts and ends", "statement": "The load of a deposit of thickness dz at elevation z is (dry bulk density) * (thickness above sea level) + (wet bulk density) * (thickness below): depositing dz1 then dz2 gives the same load as dz1+dz2, and erosion exactly reverses deposition, across sea level too.", "quantifier": "all dz, z, densities and porosities", "why_tests_cant": "All real values across the three cases of the code.", "anchors": ["sequence/sediment_flexure.py:SedimentFlexure._calc_loading"]}
{"id": "C39", "title": "Each load increment bends the lithosphere once", "statement": "Over any history of load totals the loads handed to the flexure solver by SedimentFlexure sum to the final total minus the initial one; with a linear solver and immediate isostasy on one row the accumulated deflection is that of the total load.", "quantifier": "all load histories", "why_tests_cant": "Telescoping over unbounded histories.", "anchors": ["sequence/sediment_flexure.py:SedimentFlexure.update"]}
{"id": "C40", "title": "Densities are validated and derived densities stay consistent", "statement": "Construction and every setter of SedimentFlexure reject a density <= 0 with ValueError leaving the state unchanged, and after any history of setter calls the bulk densities equal those computed from the current grain and water densities, lying between water and grain density.", "quantifier": "all histories of constructor and setter calls", "why_tests_cant": "Histories of setters.", "anchors": ["sequence/sediment_flexure.py:SedimentFlexure.__init__", "sequence/sediment_flexure.py:SedimentFlexure.sand_density", "sequence/sediment_flexure.py:SedimentFlexure.mud_density", "sequence/sediment_flexure.py:SedimentFlexure.water_density", "sequence/sediment_flexure.py:SedimentFlexure.validate_density", "sequence/sediment_flexure.py:SedimentFlexure.calc_bulk_density"]}
{"id": "C41", "title": "Sand fraction on land is a fraction", "statement": "After a fluvial step the sand fraction is in [0,1] at every node of the channel row, zero where nothing was deposited, and other rows are untouched; no array access is out of range.", "quantifier": "all topographies, deposits, parameters and time steps", "why_tests_cant": "All real inputs through a data-dependent loop.", "anchors": ["sequence/fluvial.py:Fluvial.run_one_step"]}
{"id": "C42", "title": "Sand fraction offshore accounts for hemipelagic mud", "statement": "After a fluvial step the sand fraction at a submerged node with positive deposit is (deposit before mud)/(deposit after mud), clipped to [0,1].", "quantifier": "all inputs", "why_tests_cant": "All inputs. (False: the result is written to a temporary copy and the fraction offshore is always 0.)", "anchors": ["sequence/fluvial.py:Fluvial.run_one_step"]}
{"id": "C43", "title": "Hemipelagic mud only falls in deep water", "statement": "A fluvial step adds to the deposit of the channel row: nothing landward of the shoreline or at depth <= wave base, a linear ramp up to hemipelagic*dt between wave base and twice wave base, and a non-negative seaward taper below that; the amount is linear in dt and never negative.", "quantifier": "all profiles and parameters", "why_tests_cant": "All profiles through a stateful loop.", "anchors": ["sequence/fluvial.py:Fluvial.run_one_step"]}
{"id": "C44", "title": "Output is written every `interval` steps", "statement": "From any start, the writer writes at exactly the calls whose index is a multiple of interval, labelling each with the sum of the earlier time steps; a different or changed interval applies to the same running count.", "quantifier": "all step sequences and intervals", "why_tests_cant": "Unbounded histories.", "anchors": ["sequence/output_writer.py:OutputWriter.run_one_step", "sequence/output_writer.py:OutputWriter.interval"]}
{"id": "C45", "title": "Output times are model times", "statement": "The time stored with each output slice is the model clock's time at that output.", "quantifier": "all clocks and intervals", "why_tests_cant": "History dependent. (False: labels start at 0 and lag the clock by start + step.)", "anchors": ["sequence/output_writer.py:OutputWriter.run_one_step", "sequence/sequence_model.py:SequenceModel.__init__"]}
{"id": "C46", "title": "Appending output never changes earlier slices", "statement": "After k writes the file has k time slices, and slice i of every field written from the start is the field's value at write i.", "quantifier": "all write histories", "why_tests_cant": "Unbounded histories with append mode.", "anchors": ["sequence/netcdf.py:to_netcdf", "sequence/netcdf.py:_set_field"]}
{"id": "C47", "title": "Layers in the output file are the layers of the model", "statement": "After a write the layer variables in the file are exactly the model's layers at that moment.", "quantifier": "all histories and intervals", "why_tests_cant": "Needs the interplay of archiving and append mode. (False when the layer count dropped since an earlier write; true when the interval is a multiple of ten.)", "anchors": ["sequence/netcdf.py:_set_layers", "sequence/sequence_model.py:SequenceModel.advance_components", "sequence/output_writer.py:OutputWriter.run_one_step"]}
{"id": "C48", "title": "An existing output file is not overwritten without clobber", "statement": "Setting the file path to an existing file raises an error and leaves the file alone unless clobber is set; with clobber the old contents are gone after the first write.", "quantifier": "all file systems and paths", "why_tests_cant": "All file-system states.", "anchors": ["sequence/output_writer.py:OutputWriter.filepath"]}
{"id": "C49", "title": "The output interval is validated", "statement": "The interval setter accepts exactly the positive integers, so a running writer never fails because of its interval.", "quantifier": "all values", "why_tests_cant": "All integers. (False: 0 is accepted and the next step raises ZeroDivisionError.)", "anchors": ["sequence/output_writer.py:OutputWriter.interval"]}
{"id": "C50", "title": "Grid construction is consistent", "statement": "A grid of shape (rows, cols) and matching spacing has rows+2 node rows and rows active rows; one-dimensional shape means one row with unit spacing; mismatched or >2 dimensions raise ValueError; from_dict with xy_spacing (a, b) equals spacing (b, a), with n_cols equals a one-row shape.", "quantifier": "all shapes, spacings and dictionaries", "why_tests_cant": "All inputs.", "anchors": ["sequence/grid.py:SequenceModelGrid.__init__", "sequence/grid.py:SequenceModelGrid.from_dict"]}
{"id": "C51", "title": "Profiles are the active rows", "statement": "get_profile returns exactly the values of the non-boundary rows, row by row, and writing through it changes only those nodes.", "quantifier": "all grids and fields", "why_tests_cant": "Index arithmetic over all sizes.", "anchors": ["sequence/grid.py:SequenceModelGrid.get_profile"]}
{"id": "C52", "title": "A Sequence with a shoreline component works on any grid", "statement": "If the shoreline component exists when the Sequence is created, adding a layer never fails for reasons of shape and records the shoreline position of every active row; if it is created afterwards, adding a layer fails unless there is one row.", "quantifier": "all numbers of rows, all histories of layers", "why_tests_cant": "Array shapes depend on the number of rows and on the first layer added.", "anchors": ["sequence/sequence.py:Sequence.__init__", "sequence/sequence.py:Sequence.add_layer"]}
{"id": "C53", "title": "Every --set option takes effect", "statement": "`sequence generate --set a.b=v ...` writes every given value for a known group.", "quantifier": "all lists of options", "why_tests_cant": "All option lists. (False: two options for the same group keep only the last; values with '=' raise.)", "anchors": ["sequence/cli.py:_load_params_from_strings", "sequence/cli.py:_load_model_params", "sequence/cli.py:_dots_to_dict"]}
{"id": "C54", "title": "`sequence setup` writes all input files or none", "statement": "If any of the files to be created exists the command aborts and no file is created or changed; otherwise all of them are created and nothing else changes.", "quantifier": "all directory states", "why_tests_cant": "All directory states.", "anchors": ["sequence/cli.py:setup"]}
{"id": "C55", "title": "Changing parameters while running takes effect from the next step", "statement": "In `sequence run`, step k (from 1) is run with the component parameters of the configuration at time k-1, for parameters of enabled components that can be set; a changed parameter of any other section stops the run with an error.", "quantifier": "all configurations and step counts", "why_tests_cant": "Unbounded interleaving of stepping and updating.", "anchors": ["sequence/cli.py:run", "sequence/sequence_model.py:SequenceModel.set_params", "sequence/input_reader.py:TimeVaryingConfig.update"]}
{"id": "C56", "title": "The number of layers plotted is about what was asked for", "statement": "The layer selection lies in [start, stop), is evenly spaced, and has fewer than twice the requested number of layers; it has at most the requested number.", "quantifier": "all start, stop, num", "why_tests_cant": "All integers. (The 'at most' part is false.)", "anchors": ["sequence/plot.py:_get_layers_to_plot"]}
{"id": "C57", "title": "Layer outlines are connected closed paths", "statement": "Walking the outline of a layer, cyclically, each vertex is at the same or a neighbouring column of the previous one, the columns visited stay inside the two column ranges, each vertex lies between the bottom and the top surface at its column, and x and y have equal length.", "quantifier": "all surfaces and column ranges", "why_tests_cant": "All lengths.", "anchors": ["sequence/plot.py:_outline_layer", "sequence/plot.py:_interp_between_layers"]}
{"id": "C58", "title": "Water load is the weight of the change of the water column", "statement": "The water loading for a change of depth is proportional to it; additive over successive changes; the far-field load of a sea-level change is antisymmetric in the change.", "quantifier": "all depth changes", "why_tests_cant": "All real values.", "anchors": ["sequence/sediment_flexure.py:WaterFlexure.calc_water_loading", "sequence/sediment_flexure.py:WaterFlexure.calc_half_plane_deflection"]}
{"id": "C59", "title": "The default initial profile is continuous and slopes seaward", "statement": "The default initial elevation profile is 0 at the shore, positive landward, negative seaward, strictly decreasing and continuous.", "quantifier": "all slopes > 0 and positions", "why_tests_cant": "All positions.", "anchors": ["sequence/bathymetry.py:_create_initial_profile"]}
{"id": "C60", "title": "Each layer records the water depth above the new surface", "statement": "The water depth stored with the layer of a step is sea level minus the topography that the step leaves behind, whichever of the two drivers is used.", "quantifier": "all states, components and deposits", "why_tests_cant": "All states. (True of Sequence when erosion stays above bedrock, false of SequenceModel, which records the depth before the deposit.)", "anchors": ["sequence/sequence_model.py:SequenceModel.layer_properties", "sequence/sequence.py:Sequence.layer_properties", "sequence/sequence.py:Sequence.add_layer"]}
{"id": "C61", "title": "A run of working components completes", "statement": "If the components never fail, leave the layers alone, and provide a sand fraction where there is a sediment load, SequenceModel.run on a fresh grid ends without an error after floor((stop-start)/step) steps, one recorded layer per step plus the initial one, archived as in C16, with ages that do not decrease upwards.", "quantifier": "all components, initial grids, start/stop/step", "why_tests_cant": "Unbounded number of steps and arbitrary components.", "anchors": ["sequence/sequence_model.py:SequenceModel.run", "sequence/sequence_model.py:SequenceModel.advance_components"]}
{"id": "C62", "title": "The initial layer records the water depth above it", "statement": "The water depth stored with the layer that a new driver puts on the grid is sea level minus topography.", "quantifier": "all grids", "why_tests_cant": "All grids. (False of both drivers wherever there is initial sediment.)", "anchors": ["sequence/sequence_model.py:SequenceModel.__init__", "sequence/sequence.py:Sequence.__init__"]}
{"id": "C63", "title": "Sea level in a run follows the model clock", "statement": "In a run of SequenceModel with a sea-level component anywhere among the components, the sea level used in each step is the curve at the time the clock shows for that step, and the reported increments sum to the final level minus the level 0 that the constructor sets.", "quantifier": "all runs, curves, component lists and positions", "why_tests_cant": "Unbounded runs and arbitrary other components.", "anchors": ["sequence/sea_level.py:SeaLevelTimeSeries.run_one_step", "sequence/sequence_model.py:SequenceModel.__init__", "sequence/sequence_model.py:SequenceModel.advance_components"]}
{"id": "C64", "title": "Subsidence moves the bedrock of a run by rate times time", "statement": "Over any run of SequenceModel in which only subsidence moves the bedrock, the bedrock of every node of the active rows moves by rate(x) times the elapsed time and the boundary rows stay where they are.", "quantifier": "all runs, rates, other components", "why_tests_cant": "Unbounded runs and arbitrary other components.", "anchors": ["sequence/subsidence.py:SubsidenceTimeSeries.run_one_step", "sequence/sequence_model.py:SequenceModel._update_fields"]}
{"id": "C65", "title": "The shoreline step treats rows independently and fails cleanly", "statement": "A step of ShorelineFinder gives every row the shoreline and shelf edge of that row's own profile, changes no other field, and if any row fails changes nothing; it succeeds whenever every row begins on dry land.", "quantifier": "all grids, profiles and numbers of rows", "why_tests_cant": "All profiles and any number of rows.", "anchors": ["sequence/shoreline.py:ShorelineFinder.update", "sequence/shoreline.py:ShorelineFinder.run_one_step"]}
{"id": "C66", "title": "The sediment load follows sea level", "statement": "At all times k_land is the current load divided by plain_slope, and the current load is sediment_load*(1 + load_sealevel*sea level), after steps and after setting sediment_load or plain_slope.", "quantifier": "all histories of steps and setter calls", "why_tests_cant": "Unbounded histories. (False after setting sediment_load once sea level has moved: the sea level at construction is used.)", "anchors": ["sequence/submarine.py:SubmarineDiffuser.sediment_load", "sequence/submarine.py:SubmarineDiffuser.plain_slope", "sequence/submarine.py:SubmarineDiffuser.calc_diffusion_coef"]}
{"id": "C67", "title": "Diffusivity falls with depth and grows offshore", "statement": "At a given distance from the shoreline a deeper node has a strictly smaller diffusivity, across wave base too; at a given depth it is proportional to the distance from the shoreline plus one column.", "quantifier": "all depths, distances and positive parameters", "why_tests_cant": "All real values.", "anchors": ["sequence/submarine.py:SubmarineDiffuser.calc_diffusion_coef"]}
{"id": "C68", "title": "Bedrock moves by subsidence and by each load exactly once", "statement": "Over any run of SequenceModel whose bedrock is moved only by subsidence, sediment flexure and water flexure, the bedrock of the active rows plus the deflection of the total sediment load seen, with deflections still pending applied, moves by the subsidence rate times elapsed time and the water deflections of the steps, whatever the time steps, isostasy times and order of the components.", "quantifier": "all runs, linear flexure solvers, orders and numbers of the components, other components", "why_tests_cant": "Unbounded runs and arbitrary other components.", "anchors": ["sequence/sediment_flexure.py:SedimentFlexure.update", "sequence/sediment_flexure.py:WaterFlexure.update", "sequence/subsidence.py:SubsidenceTimeSeries.run_one_step", "sequence/sequence_model.py:SequenceModel._update_fields"]}
{"id": "C69", "title": "Recorded changes of water depth add up", "statement": "Over any run of SequenceModel the increments in water__increment_of_depth add up to the change of the water depth.", "quantifier": "all runs and components", "why_tests_cant": "Unbounded runs. (False when sea level changes: the old depth is taken with the new sea level, so WaterFlexure never sees the load of the risen water on the grid. True when components leave sea level and topography alone.)", "anchors": ["sequence/sequence_model.py:SequenceModel._update_fields", "sequence/sediment_flexure.py:WaterFlexure.update"]}
{"id": "C70", "title": "Steep plains have braided rivers", "statement": "A node on land is treated as braided (channel-belt ratio 0.4) exactly if the channel is more than 75 times as wide as it is deep, where the depth is (rho-1000)/1000*grain divided by the slope of the plain towards the sea.", "quantifier": "all slopes, widths and densities", "why_tests_cant": "All real values. (False: on every plain that falls towards the sea the computed slope, and so the depth, is negative and the channel is never braided.)", "anchors": ["sequence/fluvial.py:Fluvial.run_one_step"]}
{"id": "C71", "title": "A muddier river does not leave a sandier plain", "statement": "Lowering sand_frac, all else equal, does not raise the sand fraction of any node on land.", "quantifier": "all profiles, deposits and parameters", "why_tests_cant": "All profiles through a data-dependent loop. (False: wherever the plain falls towards the sea the fraction strictly rises at every node with a deposit.)", "anchors": ["sequence/fluvial.py:Fluvial.run_one_step"]}
{"id": "C72", "title": "Row and column coordinates in the output are those of the data", "statement": "In a file of an OutputWriter the coordinates stored for a row and a column of layers are those of the cells that the layers belong to.", "quantifier": "all grids, writers and run histories", "why_tests_cant": "All grids and histories; the existing tests compare with the same shifted values. (False on every grid: both are shifted by one, starting with the boundary row and column. Node, link, face and cell coordinates are right.)", "anchors": ["sequence/output_writer.py:OutputWriter.run_one_step", "sequence/netcdf.py:_set_grid_coordinates", "sequence/grid.py:SequenceModelGrid"]}
{"id": "C73", "title": "A writer can be restricted to some rows", "statement": "An OutputWriter created with `rows` writes the layers and coordinates of these rows.", "quantifier": "all grids, rows and states", "why_tests_cant": "All grids and rows. (False: with fewer rows than the grid has, and more than one row in the grid, the first write with a layer raises.)", "anchors": ["sequence/output_writer.py:OutputWriter.__init__", "sequence/netcdf.py:_set_layers"]}
{"id": "C74", "title": "The file holds the node fields that were asked for", "statement": "The node fields in each slice are exactly the requested fields that exist.", "quantifier": "all lists of fields and grids", "why_tests_cant": "All lists of fields. (False for the empty list, which is the default: all node fields are written; and for a text in place of a list, which is taken for its letters.)", "anchors": ["sequence/output_writer.py:OutputWriter.__init__", "sequence/netcdf.py:_set_field", "sequence/netcdf.py:to_netcdf"]}
{"id": "C75", "title": "Writing output does not change the run", "statement": "A SequenceModel with output goes through exactly the same states (components, fields, layers) as the same model without output.", "quantifier": "all components, writers and histories", "why_tests_cant": "Unbounded histories and arbitrary components.", "anchors": ["sequence/sequence_model.py:SequenceModel.__init__", "sequence/sequence_model.py:SequenceModel.advance_components", "sequence/output_writer.py:OutputWriter.run_one_step"]}
{"id": "C76", "title": "A run with output completes and writes the expected slices", "statement": "SequenceModel.run with a new output writer with a positive interval does not fail if its other components do not; afterwards the file has one time slice for every started interval, labelled 0, interval*step, 2*interval*step and so on, or does not exist if there was no step, and no other file has changed.", "quantifier": "all clocks, intervals, file systems and components", "why_tests_cant": "Unbounded runs.", "anchors": ["sequence/sequence_model.py:SequenceModel.run", "sequence/output_writer.py:OutputWriter.run_one_step", "sequence/netcdf.py:to_netcdf"]}
{"id": "C77", "title": "The outline of a layer includes its corners", "statement": "The polygon drawn for a layer between two columns has the ends of its bottom and top surface among its vertices.", "quantifier": "all surfaces and column ranges", "why_tests_cant": "All lengths; the existing tests enshrine the missing corners. (False: the left end of the top is a vertex exactly if the left ends of top and bottom differ, and likewise the right end of the bottom, so land and shelf patches always lack a corner.)", "anchors": ["sequence/plot.py:_outline_layer", "sequence/plot.py:_fill_between_layers"]}
{"id": "C78", "title": "What plot_layers draws", "statement": "plot_layers over increasing positions fails only if the range of layers is one short of empty; otherwise land, shoreface and shelf have one polygon between each pair of layers, bounded by the stacks of shoreline and shelf edge, the topmost layer is always drawn, parts without a colour are not drawn, the water surface is drawn at sea level, and without shelf edges no shelf is drawn over land.", "quantifier": "all layers, positions, shorelines, shelf edges and layer selections", "why_tests_cant": "All lengths. (The last two parts are false: the water is drawn at the bed elevation of the first stack offshore and the default shelf covers the whole section.)", "anchors": ["sequence/plot.py:plot_layers", "sequence/plot.py:_fill_between_layers"]}
{"id": "C79", "title": "plot_file says what is wrong with a file or a row", "statement": "plot_file raises InvalidRowError exactly if a row is given that is not one of the rows of the file (counted from the front, or from the back with negative numbers), and MissingRequiredVariable exactly if the row is acceptable and the file lacks a dimension or variable that the plot needs.", "quantifier": "all files and rows", "why_tests_cant": "All datasets and integers.", "anchors": ["sequence/plot.py:plot_file"]}
{"id": "C80", "title": "plot_file draws layers where they are", "statement": "In the plot of the output of a run, the top of every layer is at the elevation that it had in the model when the last slice was written.", "quantifier": "all runs with output, rows, intervals and components", "why_tests_cant": "Unbounded runs and all grids. (False: the bedrock is taken from another row of nodes, the one in front of the row, or the one behind it for negative row numbers; the error is the difference of the bedrock elevations, exactly.)", "anchors": ["sequence/plot.py:plot_file", "sequence/netcdf.py:to_netcdf", "sequence/sequence_model.py:SequenceModel.advance_components"]}
{"id": "C81", "title": "The output of a run can be plotted", "statement": "plot_file does not fail on the output of a run of at least one step with the default fields.", "quantifier": "all runs with output with constant time step", "why_tests_cant": "Unbounded runs. (False: IndexError with a single time slice; ValueError unless the clock starts at zero, or started less than ten steps before zero and at least nineteen steps before the last write.)", "anchors": ["sequence/plot.py:plot_file", "sequence/output_writer.py:OutputWriter.run_one_step"]}
{"id": "C82", "title": "plot_file draws every layer with the shoreline of its time", "statement": "In the plot of the output of a run, the shoreline and shelf edge of a layer are those that the model had at the time of the layer, interpolated between the times that were written.", "quantifier": "all runs with output with constant time step", "why_tests_cant": "Unbounded runs. (False: they are those of the time start + step later.)", "anchors": ["sequence/plot.py:plot_file", "sequence/output_writer.py:OutputWriter.run_one_step", "sequence/sequence_model.py:SequenceModel.advance_components"]}
{"id": "C83", "title": "plot_grid draws every layer with the shoreline of its time", "statement": "plot_grid on the grid of a Sequence draws the top of every layer where it is, with the shoreline and shelf edge that were recorded at the time of the layer (for merged layers, of the youngest).", "quantifier": "all runs of a Sequence with increasing times and the row chosen by plot_grid", "why_tests_cant": "Unbounded runs with archived layers. (False on grids with several rows, where it always raises ValueError, and with fewer than two layers; true otherwise.)", "anchors": ["sequence/plot.py:plot_grid", "sequence/sequence.py:Sequence.add_layer", "sequence/sequence.py:Sequence.plot"]}
{"id": "C84", "title": "Sections without a time are numbered", "statement": "The configuration read from one file is, at every time, the overlay of the sections in force, a section being in force from its own _time or else from the number of sections before it; without times, several files of one section each are in force from 0, 1, 2, \u2026.", "quantifier": "all files, keys and times, for sections in order of time", "why_tests_cant": "All documents and all times.", "anchors": ["sequence/input_reader.py:TimeVaryingConfig.from_file", "sequence/input_reader.py:TimeVaryingConfig.from_files", "sequence/input_reader.py:load_config"]}
{"id": "C85", "title": "The sediment load is the weight of all deposits", "statement": "Over any number of steps of a SequenceModel the increment of the sediment load at a node of the grid's active rows is the sum, over the steps, of the weight of what was deposited or eroded: saturated below sea level and dry above it, mixed by its sand fraction, and zero where nothing was deposited.", "quantifier": "all runs whose components leave the load alone", "why_tests_cant": "Unbounded runs with deposits that cross sea level.", "anchors": ["sequence/sequence_model.py:SequenceModel._update_fields", "sequence/sediment_flexure.py:SedimentFlexure._calc_loading"]}
{"id": "C86", "title": "The sediment load is the weight of the sediment", "statement": "In a run of a fresh SequenceModel on a cell that stays under water with constant sand fraction the load added since the start is the weight of the sediment added to the layers.", "quantifier": "all runs", "why_tests_cant": "Unbounded runs. (False when a step erodes more than there is: the load still loses the weight of the full nominal erosion. Holds when erosion never reaches the bottom.)", "anchors": ["sequence/sequence_model.py:SequenceModel._update_fields", "sequence/grid.py:SequenceModelGrid"]}
{"id": "C87", "title": "The mud that is deposited is taken out of the river", "statement": "The mud the river carries to a node of the plain is what it carried to the head of the plain less the mud in what it deposited on the way.", "quantifier": "all profiles, deposits, fractions and parameters", "why_tests_cant": "All profiles through a data-dependent loop. (False: it is less the mud in the rise of the bedrock instead, where that is positive; on a plain that does not rise, upstream deposits make no difference.)", "anchors": ["sequence/fluvial.py:Fluvial.run_one_step"]}
{"id": "C88", "title": "Compaction keeps what the layers record", "statement": "In a SequenceModel whose components change, of the layers, at most thicknesses and porosities (as compaction does), the number of layers, their ages, initial thicknesses, water depths and sand fractions are those recorded when the layers were deposited, merged by archiving as usual, and ages do not decrease upward.", "quantifier": "all runs, any number of steps and merges", "why_tests_cant": "Unbounded runs with an external component that rewrites the layers.", "anchors": ["sequence/sequence_model.py:SequenceModel.advance_components", "sequence/processes.py"]}
{"id": "C89", "title": "Compaction never adds sediment", "statement": "In a run of a SequenceModel whose components never thicken the sediment of a cell (as compaction) the sediment at a cell is never negative and at most what the same deposits and erosion leave without compaction.", "quantifier": "all runs", "why_tests_cant": "Unbounded runs with erosion and archiving.", "anchors": ["sequence/sequence_model.py:SequenceModel.advance_components"]}
{"id": "C90", "title": "Only a component can make a step fail", "statement": "In a SequenceModel that started from a fresh grid, after any number of steps a further step raises an exception if and only if one of its components raises it: adding the layer, updating the fields and archiving old layers never fail.", "quantifier": "all runs, components that keep the record of the layers, times and step sizes", "why_tests_cant": "Unbounded runs, any states the components can produce.", "anchors": ["sequence/sequence_model.py:SequenceModel.advance_components", "sequence/sequence_model.py:SequenceModel._update_fields"]}
{"id": "C91", "title": "The processes of a model find their fields", "statement": "With the processes that load_processes always adds, a SequenceModel made of any of the package's processes in any order can be constructed whenever its processes can, each process finds the grid fields it reads in every step of every run, and no step raises KeyError. Without them the constructor raises KeyError for x_of_shore.", "quantifier": "all lists of processes, grids, parameters and runs", "why_tests_cant": "All combinations and orders of processes and unbounded runs.", "anchors": ["sequence/sequence_model.py:SequenceModel.load_processes", "sequence/sequence_model.py:SequenceModel.__init__", "sequence/sequence_model.py:SequenceModel.advance_components"]}
{"id": "C92", "title": "The edges of the grid do not move", "statement": "In every run of the package's processes the topography of the two boundary rows and of the last column never changes, and neither does the bedrock of the boundary rows.", "quantifier": "all lists of processes and runs", "why_tests_cant": "Unbounded runs of any combination of processes.", "anchors": ["sequence/sequence_model.py:SequenceModel._update_fields", "sequence/submarine.py:SubmarineDiffuser.run_one_step", "sequence/subsidence.py:SubsidenceTimeSeries.run_one_step"]}
{"id": "C93", "title": "Where nothing is deposited the surface moves with the bedrock", "statement": "Over any number of steps in which nothing is deposited or eroded at a node and the layers are not compacted, the topography of the node changes exactly as its bedrock does.", "quantifier": "all runs and nodes", "why_tests_cant": "Unbounded runs. (False at the last column, whose bedrock subsides while its topography stays; holds at the cells.)", "anchors": ["sequence/sequence_model.py:SequenceModel._update_fields"]}
{"id": "C94", "title": "Sand fractions are fractions throughout a run", "statement": "In every run of the package's processes from a fresh grid with sand fractions in [0, 1], all sand fractions at nodes and all sand fractions recorded in layers stay in [0, 1].", "quantifier": "all lists of processes and runs", "why_tests_cant": "Unbounded runs through merging of layers and an external compaction.", "anchors": ["sequence/fluvial.py:Fluvial.run_one_step", "sequence/sequence_model.py:SequenceModel.advance_components"]}
{"id": "C95", "title": "The budgets of a run", "statement": "In every run of the package's processes, in any order: the bedrock has moved by exactly the increments the processes left; the load has changed by the weight of the deposits; and with a sea-level process the sea stands, after the processes of every step, where the curve says for the time of the clock.", "quantifier": "all lists of processes with different names, runs with constant steps (for the sea level)", "why_tests_cant": "Unbounded runs and any order of processes.", "anchors": ["sequence/sequence_model.py:SequenceModel.advance_components", "sequence/sequence_model.py:SequenceModel._update_fields", "sequence/sea_level.py:SeaLevelTimeSeries.run_one_step"]}
{"id": "C96", "title": "Independent processes can be listed in any order", "statement": "Exchanging neighbouring processes of the package that do not read what the other writes leaves every run of the model unchanged: the same runs with the same grids, layers and clocks, and one fails exactly if the other does. The shoreline and the sea level are not independent: their order changes the result.", "quantifier": "all lists of processes that differ by exchanges of independent neighbours, all runs", "why_tests_cant": "The lists, runs and states are unbounded.", "anchors": ["sequence/sequence_model.py:SequenceModel.__init__", "sequence/sequence_model.py:SequenceModel.advance_components"]}
{"id": "C97", "title": "The number of steps in floating point", "statement": "A run with times in floating point takes the number of steps that the times written in the configuration suggest.", "quantifier": "all starts, stops and steps, all roundings that keep 53-bit numbers or have a small relative error", "why_tests_cant": "All times and any number of steps. (False: 0 to 0.3 by 0.1 takes two steps. Holds for whole years and multiples of powers of two, and whenever stop is not within the accumulated rounding of a multiple of the step.)", "anchors": ["sequence/sequence_model.py:SequenceModel.run", "sequence/cli.py:run"]}
{"id": "C98", "title": "Options of sequence plot", "statement": "`sequence plot` draws with every keyword taken from the last `--set` option for it, else from the `plot` section of `sequence.toml`, else from the defaults; a name that cannot be set stops the command; and without a title the name of the file is written above the plot.", "quantifier": "all lists of options, configuration files, output files and file names", "why_tests_cant": "All combinations of options and sections. (False for the title: the defaults always contain one, so the name of the file never has an effect.)", "anchors": ["sequence/cli.py:plot", "sequence/plot.py:plot_file", "sequence/cli.py:_load_params_from_strings"]}
{"id": "C99", "title": "Parameters from a file", "statement": "`_load_model_params` with a parameter file gives every parameter the value from the options, else from the file, else the default.", "quantifier": "all files, options and defaults", "why_tests_cant": "All nested files. (False: of several values of one group in the file only the last survives, and values three levels deep change their group. Holds for files with one value per group.)", "anchors": ["sequence/cli.py:_load_model_params", "sequence/cli.py:_dict_to_dots", "sequence/cli.py:_walk_dict"]}
{"id": "C100", "title": "The shelf edge by curvature", "statement": "`find_shelf_edge_by_curvature` finds the bend of a profile of two straight pieces exactly, for any spacing; the result does not depend on the sea level, on the units of elevation or on a constant slope added to the profile.", "quantifier": "all increasing positions and profiles", "why_tests_cant": "Profiles of any length and spacing. (False for a bend at the second node, which is reported at the first.)", "anchors": ["sequence/shoreline.py:find_shelf_edge_by_curvature"]}
{"id": "C101", "title": "Parameters that change during a run", "statement": "When a section of the configuration changes a parameter of a component during `sequence run`, the component goes on as if it had been created with the new value.", "quantifier": "all processes and models, all values, all histories of changes, steps and other changes of the grid", "why_tests_cant": "All parameters at all times of a run. (False: sixteen arguments of the constructors are ignored when they change later, the `alpha` of the shorelines ends the run with an error, shared parameters are not shared any more, and a load that depends on sea level first uses the sea level of the start. Holds for the other fluvial parameters, the files of sea level and subsidence, and the diffuser when its load does not depend on sea level.)", "anchors": ["sequence/sequence_model.py:SequenceModel.set_params", "sequence/cli.py:run", "sequence/submarine.py:SubmarineDiffuser", "sequence/fluvial.py:Fluvial.__init__", "sequence/shoreline.py:ShorelineFinder"]}
{"id": "C102", "title": "sequence run and SequenceModel.run", "statement": "If the configuration does not change after the start, or only in parameters that are ignored, `sequence run` does exactly what `SequenceModel.run` does: the same clock, the same error or the same components, grid and files.", "quantifier": "all models of the package's processes with an output writer, all configurations, clocks and numbers of rounds", "why_tests_cant": "All runs of any length and all contents of the configuration.", "anchors": ["sequence/sequence_model.py:SequenceModel.run", "sequence/sequence_model.py:SequenceModel.set_params", "sequence/cli.py:run", "sequence/input_reader.py:TimeVaryingConfig.update"]}
{"id": "C103", "title": "A dry run changes nothing", "statement": "`sequence run --dry-run` leaves all files as they are.", "quantifier": "all directories, configurations and files", "why_tests_cant": "All configurations and states of the disk. (False: with `clobber` the output file of an earlier run is deleted. Holds if the first section does not set `clobber` or the output file does not exist, and the output path is not a link to nothing.)", "anchors": ["sequence/cli.py:run", "sequence/output_writer.py:OutputWriter.__init__"]}
{"id": "C104", "title": "Files that sequence run touches", "statement": "At every moment of `sequence run`, and in whatever way it ends, the only files that have changed are those that some section of the configuration names as `output.filepath`.", "quantifier": "all configurations, external functions, clocks, numbers of rounds and initial files", "why_tests_cant": "Unbounded runs with output files that change at any time.", "anchors": ["sequence/cli.py:run", "sequence/sequence_model.py:SequenceModel.set_params", "sequence/output_writer.py:OutputWriter.filepath"]}
{"id": "C105", "title": "Existing files are safe without clobber", "statement": "If the first section does not set `output.clobber`, no file or directory that exists before `sequence run` is ever changed or removed, whatever later sections say.", "quantifier": "all configurations, external functions, clocks, numbers of rounds and initial files", "why_tests_cant": "Unbounded runs; later sections can name other files and set clobber.", "anchors": ["sequence/cli.py:run", "sequence/output_writer.py:OutputWriter.__init__", "sequence/output_writer.py:OutputWriter.filepath"]}
{"id": "C106", "title": "Unknown parameters are rejected", "statement": "`sequence run` fails if the configuration has a section or parameter that no component has.", "quantifier": "all configurations and external functions", "why_tests_cant": "All names. (False for sections of unknown names in the first section and for parameters in later ones. Holds for parameters of the processes that are turned on, in the first section.)", "anchors": ["sequence/cli.py:run", "sequence/sequence_model.py:SequenceModel.load_processes", "sequence/sequence_model.py:SequenceModel.set_params"]}
{"id": "C107", "title": "sequence run comes to an end", "statement": "With a positive step `sequence run` ends, by itself or with an error, and a run that goes on after n rounds has start + n * step <= stop. Without `stop` or with step 0 it fails before the first step; with a negative step the clock never stops it.", "quantifier": "all models, configurations and clocks", "why_tests_cant": "Unbounded runs.", "anchors": ["sequence/cli.py:run", "sequence/sequence_model.py:SequenceModel.run_one_step"]}
{"id": "C108", "title": "The configuration reaches the model", "statement": "When `sequence run` has set up its model, the clock, the grid, the initial surface, the processes and their parameters, the sea level and subsidence curves, the porosity and the output file are those the first section gives, with the documented defaults and with the parameters that groups share.", "quantifier": "all configurations without tuples and repeated keys, all file systems and external functions", "why_tests_cant": "All configurations; the sharing of parameters, the defaults and the conversions meet in one place.", "anchors": ["sequence/cli.py:run", "sequence/sequence_model.py:SequenceModel.load_grid", "sequence/sequence_model.py:SequenceModel.load_processes", "sequence/sequence_model.py:SequenceModel.__init__", "sequence/output_writer.py:OutputWriter.__init__"]}
{"id": "C109", "title": "Unused sections have no effect", "statement": "With one configuration file for the start, what the configuration says in sections of unknown names, in sections of processes that are turned off and in `plot` makes no difference to `sequence run`: not to the files, the error or the model.", "quantifier": "all configurations, numbers of rounds, file systems and external functions", "why_tests_cant": "All contents of the unused sections and runs of any length.", "anchors": ["sequence/cli.py:run", "sequence/sequence_model.py:SequenceModel.load_processes"]}
{"id": "C110", "title": "Later sections change components only", "statement": "A configuration whose first file is for a time t > 0 fails in round t at the latest, although it is accepted at the start; more generally `sequence run` fails in a round in which the configuration changes outside the components of the model (for example `clock`, `grid`, `processes` or a process that is turned off).", "quantifier": "all configurations, models, clocks and numbers of rounds", "why_tests_cant": "Unbounded runs and any contents of the files.", "anchors": ["sequence/cli.py:run", "sequence/sequence_model.py:SequenceModel.set_params", "sequence/input_reader.py:TimeVaryingConfig.update", "sequence/input_reader.py:TimeVaryingConfig.__call__"]}
{"id": "C111", "title": "The datum makes no difference", "statement": "Raising the initial topography, the sea-level curve and the sea level of the diffuser by the same height raises the topography, the bedrock and the sea level of the model by that height at all times and changes nothing else.", "quantifier": "all grids, curves, clocks, processes and numbers of steps", "why_tests_cant": "All heights and runs of any length through all components. (False: the constructor measures the first layer and the first sea-level increment from 0, so that water flexure depends on the datum, and so does `load_sealevel`. Holds without these, but for the water depth of the first layer.)", "anchors": ["sequence/sequence_model.py:SequenceModel.__init__", "sequence/sequence_model.py:SequenceModel.run_one_step", "sequence/sea_level.py:SeaLevelTimeSeries.run_one_step", "sequence/submarine.py:SubmarineDiffuser.run_one_step", "sequence/fluvial.py:Fluvial.run_one_step", "sequence/shoreline.py:ShorelineFinder.run_one_step"]}
{"id": "C112", "title": "The calendar makes no difference", "statement": "Starting and stopping the clock later by tau with the sea-level curve shifted by tau gives the same model with all ages shifted by tau, after the constructor, after any steps and after `run`; or the same exception.", "quantifier": "all grids, curves, clocks, processes, shifts and numbers of steps", "why_tests_cant": "All shifts and runs of any length.", "anchors": ["sequence/sequence_model.py:SequenceModel.__init__", "sequence/sequence_model.py:SequenceModel.run", "sequence/sequence_model.py:SequenceModel.run_one_step", "sequence/sea_level.py:SeaLevelTimeSeries.run_one_step", "sequence/sea_level.py:SinusoidalSeaLevel.__init__"]}
{"id": "C113", "title": "The future has no effect", "statement": "What the sea-level curve says about times that have not been reached, and configuration files for times that have not been reached, make no difference to the model; a file for a time after the end makes no difference to `sequence run` at all.", "quantifier": "all curves, configurations, processes, clocks, numbers of steps and file systems", "why_tests_cant": "All curves and files that differ only later, and runs of any length.", "anchors": ["sequence/cli.py:run", "sequence/input_reader.py:TimeVaryingConfig.update", "sequence/input_reader.py:TimeVaryingConfig.__call__", "sequence/sea_level.py:SeaLevelTimeSeries.run_one_step", "sequence/sequence_model.py:SequenceModel.run_one_step"]}
{"id": "C114", "title": "Exactly the fine configurations are accepted", "statement": "A configuration whose values have the right types is accepted by `sequence run` exactly if: the sections grid, bathymetry, clock and output exist; sizes and spacings fit together; bathymetry, clock, output and the processes turned on have known parameters only; the curves can be read and cover the grid; slopes, densities and isostasytime are in range; a shore is found on the initial surface; no parameter of a process that is turned on is null; and the output file may be written. Nothing else in the configuration can make it refuse.", "quantifier": "all configurations with values of the right types, all file systems and external functions", "why_tests_cant": "Both directions: every refusal has one of the listed reasons and every listed fault is refused.", "anchors": ["sequence/cli.py:run", "sequence/sequence_model.py:SequenceModel.load_grid", "sequence/sequence_model.py:SequenceModel.load_processes", "sequence/sequence_model.py:SequenceModel.__init__", "sequence/output_writer.py:OutputWriter.__init__"]}
{"id": "C115", "title": "A fresh simulation can be run", "statement": "In a directory without the files that `sequence setup` writes and without other configuration files, `sequence setup` writes a simulation that `sequence run` accepts: 600000 years in steps of 100 years, all six processes, 100 columns of 1 km. With options (`--set`) it is accepted exactly if the configuration with these options is.", "quantifier": "all directories, file systems, options and external functions that read back what was written", "why_tests_cant": "All options and directories. (False of options that name a sea-level file: the parameters of the sine stay in the section and the configuration is always refused, so that the `sealevel.csv` which is written cannot be used this way.)", "anchors": ["sequence/cli.py:setup", "sequence/cli.py:_contents_of_input_file", "sequence/cli.py:_load_model_params", "sequence/cli.py:run", "sequence/sequence_model.py:SequenceModel.DEFAULT_PARAMS"]}
{"id": "C116", "title": "Generated configuration files can be read", "statement": "What `sequence generate sequence.toml` and `sequence generate sequence.yaml` print, with any options, can be read back by `sequence run` and holds the parameters with the options applied.", "quantifier": "all options", "why_tests_cant": "All combinations of options. (False of yaml: at least one of the grid's shape and spacing is a tuple, which is written with a tag that the reader does not accept. With an option that is null nothing can be generated.)", "anchors": ["sequence/cli.py:generate", "sequence/cli.py:_contents_of_input_file", "sequence/input_reader.py:load_config", "sequence/input_reader.py:_tomlkit_to_popo"]}
{"id": "C117", "title": "What can stop a simulation", "statement": "`find_shoreline` fails exactly on a profile with water at both ends and land in between. A step of a model made of the package's processes fails exactly if, when its turn comes, a process cannot take it: the sea-level curve is not defined at the new time, compaction raises, a row (for the fluvial process: the middle row) is such an island, or a parameter of the fluvial process is 0. Subsidence and flexure never fail, and nothing but a process does.", "quantifier": "all grids, processes, parameters, states that a run can reach and external functions that work", "why_tests_cant": "Both directions for every reachable state. (A rising sea that comes in behind a dune ends a run with `ValueError`. The model also stops where the code stores NaN, which needs a flat node.)", "anchors": ["sequence/sequence_model.py:SequenceModel.run_one_step", "sequence/shoreline.py:find_shoreline", "sequence/fluvial.py:Fluvial.run_one_step", "sequence/submarine.py:SubmarineDiffuser.run_one_step", "sequence/sediment_flexure.py:SedimentFlexure.run_one_step"]}
{"id": "C118", "title": "Formats of configuration files", "statement": "Configuration files are toml or yaml, told apart by what follows the last dot of the name or by an argument; another format raises `ValueError` before the file is looked for, and every file that `sequence run` finds has one of the two. A file is accepted exactly if it can be parsed and consists of dictionaries that fit together; the same sections in the two formats, in one yaml document or several, give the same configuration. What `dump` writes reads back as the same sections in both formats, and the grid can be made from it.", "quantifier": "all names, formats, parsed contents and configurations", "why_tests_cant": "All names and contents. (False of the grid: `SequenceModelGrid.from_toml` raises `TypeError` on every file that `dump` writes.)", "anchors": ["sequence/input_reader.py:load_config", "sequence/input_reader.py:TimeVaryingConfig.get_loader", "sequence/input_reader.py:TimeVaryingConfig.from_file", "sequence/input_reader.py:TimeVaryingConfig.dump", "sequence/grid.py:SequenceModelGrid.from_toml"]}
{"id": "C119", "title": "Commands in one call are independent", "statement": "`sequence generate` and `sequence setup` can be given several times in one call, each with its own options; each does what it does alone.", "quantifier": "all lists of commands, options and directories", "why_tests_cant": "All lists of commands. (False: options change the shared default parameters, so that every later command in the call uses them too. Commands are independent if those before have no options or the same ones.)", "anchors": ["sequence/cli.py:sequence", "sequence/cli.py:generate", "sequence/cli.py:setup", "sequence/cli.py:_load_model_params", "sequence/sequence_model.py:SequenceModel.DEFAULT_PARAMS"]}
{"id": "C120", "title": "Null stands for a value that is not given", "statement": "A value that is null (`null` in yaml, `--set key=` on the command line) counts as not given: `sequence run` does the same with it and without it, files can be generated with it, and `sequence plot` accepts it for the row, with and without `--verbose`.", "quantifier": "all configurations, options, file systems and external functions", "why_tests_cant": "All configurations. (True of the stop time and of the fields and rows of the output. False of the parameters of processes: `load_processes` writes all of them as toml for a message, shown or not, so that a null in any process that is turned on is refused, also where the constructor takes `None`; `generate` and `setup` fail for the same reason, and `sequence --verbose plot` refuses what `sequence plot` accepts.)", "anchors": ["sequence/sequence_model.py:SequenceModel.load_processes", "sequence/cli.py:run", "sequence/cli.py:_contents_of_input_file", "sequence/cli.py:plot", "sequence/output_writer.py:OutputWriter.__init__"]}
{"id": "C121", "title": "What a new model remembers", "statement": "Before the first step of a model that `sequence run` has set up, every component holds the parameters it was given, also if it is listed twice: the rates of subsidence are those of the file at the columns, the diffuser has the load that goes with its sea level and no diffusivity yet, the flexures have empty pools and have seen no load, and an isostasy time of practically zero means an immediate response. The fields added by the components are zero and no shore is known.", "quantifier": "all configurations, file systems and external functions for which `sequence run` gets to the loop", "why_tests_cant": "All configurations and all lists of processes, with repetitions.", "anchors": ["sequence/sequence_model.py:SequenceModel.load_processes", "sequence/sequence_model.py:SequenceModel.__init__", "sequence/submarine.py:SubmarineDiffuser.__init__", "sequence/subsidence.py:SubsidenceTimeSeries.__init__", "sequence/sediment_flexure.py:DynamicFlexure.__init__", "sequence/sediment_flexure.py:SedimentFlexure.__init__"]}
{"id": "C122", "title": "The progress bar", "statement": "The bar of `sequence run` counts one for every step that has been taken before the stop time is reached, whatever the parameters change to, and is full at the end of a run.", "quantifier": "all configurations, file systems and external functions for which `sequence run` finishes", "why_tests_cant": "All times and steps. (False unless the clock starts near 0: the total is `stop // step` without the start. A run that starts a step or more after 0 never fills its bar, and one that starts a step or more before 0 goes beyond the end.)", "anchors": ["sequence/cli.py:run", "sequence/sequence_model.py:SequenceModel.run_one_step"]}
{"id": "C123", "title": "Messages of a run", "statement": "`sequence run` writes the directory, and nothing else, to the standard output. A message of several lines is written with its level before the first line and `+` before the others. With `--silent` nothing is written to the standard error; without options warnings, the processes that are off and a message at the end are; with `--verbose` every component is named. What is said to be off does not run.", "quantifier": "all options, messages and configurations", "why_tests_cant": "All texts, options and configurations. (False with `--silent --verbose`, which writes the message at the end, and with an empty list of processes, where all processes are said to be disabled and two of them run.)", "anchors": ["sequence/cli.py:run", "sequence/cli.py:sequence", "sequence/cli.py:out", "sequence/logging.py:LoggingHandler.emit"]}
{"id": "C124", "title": "A simulation that fails keeps what it has written", "statement": "When a step of `sequence run` or a change of parameters raises an error, the files are what a simulation that ends at the last time reached would have left: every record written by then is complete. No other file is touched, and where no configuration turns `output.clobber` on, no existing file is.", "quantifier": "all configurations with any number of parameter changes, file systems, external functions and errors", "why_tests_cant": "All points of failure. (False with `output.rows` that are not in the grid: the first step fails while the file is being written and leaves it unfinished.)", "anchors": ["sequence/cli.py:run", "sequence/sequence_model.py:SequenceModel.run_one_step", "sequence/sequence_model.py:SequenceModel.set_params", "sequence/output_writer.py:OutputWriter.run_one_step", "sequence/netcdf.py:to_netcdf"]}
{"id": "C125", "title": "Parameters that change together can change in any order", "statement": "`TimeVaryingConfig.diff` goes through a python set, so the order in which the parameters of one time are changed varies from one start of python to the next. For configurations that are sections of plain parameters `sequence run` nevertheless stops at the same place, with an error or without, and leaves the same files, whatever the order; unless it is the change itself that fails, the error is the same too.", "quantifier": "all configurations of two levels, all orders at every time, all grids, files and external functions that do not raise StopIteration", "why_tests_cant": "All orders: a test sees the order of one hash seed. (False if a change fails: the error, and whether an existing output file has been removed, depend on the order; false with deeper dictionaries: success itself may depend on the order.)", "anchors": ["sequence/input_reader.py:TimeVaryingConfig.diff", "sequence/input_reader.py:TimeVaryingConfig.update", "sequence/sequence_model.py:SequenceModel.set_params", "sequence/cli.py:run"]}
{"id": "C126", "title": "Files from before a run make no difference", "statement": "Whatever files are there before `sequence run`, it stops at the same place in the same way and leaves the same in every file that it changes, unless it is stopped because an output file is already there. With `clobber: true` in the first section nothing but a directory can stop it; a second run with the same configuration ends just like the first and leaves every file as it is, also if both fail. No run makes or removes a directory.", "quantifier": "all pairs of file systems, all configurations, grids, external functions and numbers of steps, with and without --dry-run", "why_tests_cant": "Pairs of runs on arbitrary files: a test has one directory.", "anchors": ["sequence/output_writer.py:OutputWriter", "sequence/netcdf.py:to_netcdf", "sequence/sequence_model.py:SequenceModel.set_params", "sequence/cli.py:run"]}
{"id": "C127", "title": "Sequence.run(until) in floating point", "statement": "With python floats, run(until, dt) with dt > 0 makes the updates of exact arithmetic (C13) when the times are on a grid of a power of two; in general it makes as many updates as the rounded difference until - time has steps, none longer than dt, and ends within one rounding error per update of until.", "quantifier": "all times, until, dt > 0 and roundings that keep numbers of 53 bits", "why_tests_cant": "Rounding of all float times; which numbers go wrong is not visible from a few cases.", "anchors": ["sequence/sequence.py:Sequence.run", "sequence/sequence.py:Sequence.update"]}
{"id": "C128", "title": "Output settings only select what is written", "statement": "Two sets of configuration files that differ in their output sections only, also at later times, give the same simulation: after each round that both runs complete, the clock, the processes with their parameters, the grid and the layers are the same, and each writer has been shown the same grids.", "quantifier": "all configuration files and times, both runs starting from any files, all numbers of rounds", "why_tests_cant": "Pairs of configurations and whole runs; a dependency of the simulation on an output setting would show only for some of them.", "anchors": ["sequence/cli.py:run", "sequence/sequence_model.py:SequenceModel.set_params", "sequence/sequence_model.py:SequenceModel.advance_components", "sequence/output_writer.py:OutputWriter.run_one_step"]}
{"id": "C129", "title": "An option can set a whole section", "statement": "`--set \"section={a: 1, b: 2}\"` sets every parameter in the dictionary and leaves the other parameters and sections alone; a list or tuple of pairs does the same, with the last of several pairs for a parameter; anything else that is not empty (a number, null, a text, a list with other elements) stops the command.", "quantifier": "all default parameters made of sections, all dictionaries and lists of pairs, all section names", "why_tests_cant": "Dictionaries of any size and nesting; a test tries a few options.", "anchors": ["sequence/cli.py:_load_params_from_strings", "sequence/cli.py:_dots_to_dict", "sequence/cli.py:_load_model_params"]}
{"id": "C130", "title": "Sand that is no denser than water", "statement": "`Fluvial` accepts any `sand_density`. With less than 1000 the sand fraction of the middle row is NaN wherever something was deposited on land; with exactly 1000 it is 1 there if no land is flat.", "quantifier": "all landscapes, sea levels, deposits and other parameters for which the step does not fail", "why_tests_cant": "A test has to hit on a density that no one would enter on purpose.", "anchors": ["sequence/fluvial.py:Fluvial.run_one_step", "sequence/fluvial.py:Fluvial.__init__"]}
{"id": "C131", "title": "A process with nothing to do makes no difference", "statement": "In a model with `fluvial`, enabling a subsidence with rate zero everywhere gives the same run, grid and layers at every step, as leaving it out. The same for a compaction that changes no layer, if new layers have the same porosity. The same for a sea level that stays at zero, but for the time and the increment that it keeps itself.", "quantifier": "all lists of other processes in any order, all grids and numbers of steps", "why_tests_cant": "Two runs of arbitrary length are compared; a test compares two runs.", "anchors": ["sequence/subsidence.py:SubsidenceTimeSeries.run_one_step", "sequence/sequence_model.py:SequenceModel.advance_components"]}
{"id": "C132", "title": "The order of the keys in a configuration makes no difference", "statement": "`sequence run` does the same, up to the files written and the error raised, if the sections of the configuration file or the parameters within a section are in another order.", "quantifier": "all configurations of one section of time with distinct keys, all orders, all files in the directory, dry runs or not", "why_tests_cant": "There are factorially many orders.", "anchors": ["sequence/cli.py:run", "sequence/sequence_model.py:SequenceModel.load_grid", "sequence/sequence_model.py:SequenceModel.load_processes", "sequence/input_reader.py:load_config"]}
{"id": "C133", "title": "Every variable of an output file holds the quantity it is named after", "statement": "After a run with output every n steps, slice q of the variable of a node field holds at position row * columns + column the value that the field of that name had at that node in step q * n, or nothing if there was no such field; the same for sea level, its increment and the shorelines of rows, and every layer variable holds the layers of the last write.", "quantifier": "all runs with steps of one length, all intervals, sets of fields and components", "why_tests_cant": "Mixed up names or transposed arrays show only in files with more than one row and fields that differ.", "anchors": ["sequence/netcdf.py:to_netcdf", "sequence/output_writer.py:OutputWriter.run_one_step"]}
{"id": "C134", "title": "Running a Sequence in parts", "statement": "If a time is a whole number of steps away, `run(until=first)` followed by `run(until=last)` is the same as `run(until=last)`, also when a component fails on the way. For other times between now and the end the updates have other sizes. `run()` is one update by the time step of the model.", "quantifier": "all components, clocks, positive steps and times, in exact arithmetic", "why_tests_cant": "Layers differ only by an additional short step in the middle of a run.", "anchors": ["sequence/sequence.py:Sequence.run", "sequence/sequence.py:Sequence.update"]}
{"id": "C135", "title": "`to_netcdf` writes the fields that are asked for", "statement": "Calls of `to_netcdf`, the first of which makes the file and the others append, write one slice for each call that holds, at the locations in `at`, the fields in `names` as they are at the call, of the nodes in `ids`, and no others.", "quantifier": "all numbers of calls on grids of one size without layers and without the shoreline of rows, all values of the fields, sets of locations and numbers of nodes", "why_tests_cant": "Names that do not exist at one of several locations are a combination that tests leave out; the tests give names at one location.", "anchors": ["sequence/netcdf.py:to_netcdf", "sequence/netcdf.py:_set_field"]}
{"id": "C136", "title": "A grid can be written with the default arguments", "statement": "`to_netcdf(grid, path)` writes the coordinates, the fields and the layers of a grid.", "quantifier": "all grids, fields, layers, times, locations and paths", "why_tests_cant": "The tests write grids without layers and without a shoreline.", "anchors": ["sequence/netcdf.py:to_netcdf", "sequence/netcdf.py:_set_layers", "sequence/netcdf.py:_set_grid_coordinates"]}
{"id": "C137", "title": "Rows are treated alike", "statement": "The rows of a grid may be reordered, left out or repeated if the middle row, and only it, stays in the middle: a model of the chosen rows can be created and run whenever the model can, takes steps at the same times, and has in every row the topography, bedrock, layers and shoreline of the row it was chosen from. Rows that are alike at the beginning stay alike, except for the middle row. Without diffusion and flexure the middle row is what a model of that row alone computes.", "quantifier": "all processes of the package, numbers of rows, choices of rows, settings, initial fields, sizes and numbers of steps; external solvers that treat rows alike; if the sediment load depends on sea level the first row must stay first, with flexure the number of rows must stay the same", "why_tests_cant": "The tests use a single row, or rows that are all the same, and never compare rows.", "anchors": ["sequence/fluvial.py:Fluvial.run_one_step", "sequence/submarine.py:SubmarineDiffuser.run_one_step", "sequence/shoreline.py:ShorelineFinder.update", "sequence/sequence_model.py:SequenceModel._update_fields", "sequence/grid.py:SequenceModelGrid.get_profile"]}
{"id": "C138", "title": "Rows beside the middle row are mud", "statement": "In a row that is not the middle one the sand fraction is zero after every step, whatever the fraction of sand of the fluvial component; the layers of the row have the sand fraction zero except for the lowest, which has one half as long as there are fewer than 19 steps and one twentieth afterwards; and what is deposited there adds the load of mud.", "quantifier": "all runs of the package's processes that begin without a sand fraction, all rows but the middle one, all numbers of steps, compaction that keeps the record", "why_tests_cant": "The tests look at the sand fraction of the middle row only; the value one twentieth appears after nineteen steps.", "anchors": ["sequence/fluvial.py:Fluvial.run_one_step", "sequence/sequence_model.py:SequenceModel.advance_components", "sequence/sequence_model.py:SequenceModel._update_fields"]}
{"id": "C139", "title": "A write that fails keeps the records before it", "statement": "When a call of `to_netcdf` that appends to a file raises, for whatever reason, the records already in the file, its coordinates and dimensions, its layers above those of the grid and all other files are as they were. The time of the call has been appended all the same, and each variable of that record holds the field of the grid or nothing. With layers and a format that cannot hold them nothing is written at all.", "quantifier": "all grids, files, arguments and reasons, all orders in which python goes through the set of names", "why_tests_cant": "Failing in the middle of a write needs a grid that does not fit its file; which variables have been written by then depends on the order of a set.", "anchors": ["sequence/netcdf.py:to_netcdf", "sequence/netcdf.py:_set_field", "sequence/netcdf.py:_set_layers"]}
{"id": "C140", "title": "The clocks of a model agree in floating point", "statement": "In a run of a SequenceModel whose times are python floats, the sea level is always taken from its curve at the time of the clock, bit for bit, so that a curve from start to stop suffices; and the times in the output file are those of the clock, counted from the start: exactly if start is 0 or the times are on a grid of a power of two.", "quantifier": "all roundings of sums (all additions, for the sea level and for start 0), starts, stops, steps, numbers of rounds and components", "why_tests_cant": "Sums of rounded numbers depend on the number of steps. (False of output times in general: from 1 by steps of 0.1 the second record is labelled 0.1 when the clock has advanced by 0.10000000000000009.)", "anchors": ["sequence/sea_level.py:SeaLevelTimeSeries.run_one_step", "sequence/output_writer.py:OutputWriter.run_one_step", "sequence/sequence_model.py:SequenceModel.run_one_step"]}
{"id": "C141", "title": "A log handler that is temporary", "statement": "`with logging_handler():` prints the messages of the package of level INFO and above in the block, and leaves the logger as it was when the block ends, normally or by an exception.", "quantifier": "all loggers, blocks, results and messages", "why_tests_cant": "All previous states of the logger and all blocks, nested ones in particular. (False of the level, which stays INFO; and where there is a handler already, as after an import of sequence.cli, messages appear once more than before.)", "anchors": ["sequence/logging.py:logging_handler", "sequence/logging.py:LoggingHandler.emit"]}
{"id": "C142", "title": "The unit of time makes no difference", "statement": "With the clock, the times of the sea level, the isostasy times, the subsidence rates, the sediment loads and the hemipelagic rate all expressed in another unit of time, the constructor, any steps and `run` give the same lengths and the same sand fractions, and ages that are the same times in that unit; or the same exception.", "quantifier": "all units, grids, curves, clocks, processes, time steps and numbers of steps", "why_tests_cant": "All units and all models; a test compares a few runs in years, and one unit never shows a constant that has a unit of its own. (False of `Fluvial`: the channel width divides the load by a transport capacity in square metres per second, whatever the unit of the load.)", "anchors": ["sequence/fluvial.py:Fluvial.run_one_step", "sequence/submarine.py:SubmarineDiffuser.calc_diffusion_coef", "sequence/sediment_flexure.py:DynamicFlexure.calc_isostasy_fraction", "sequence/subsidence.py:SubsidenceTimeSeries.run_one_step", "sequence/sequence_model.py:SequenceModel.run"]}
{"id": "C143", "title": "Both drivers give the same result", "statement": "`SequenceModel` and `Sequence`, given the same components and grid and both starting at time 0 with the same time step, have after every step the same topography, bedrock, sand fraction, sea level, shorelines and component attributes, and layers of the same thickness, age, sand fraction and porosity; or both raise the same exception in the same step. `Sequence.run(until=n * dt, dt=dt)` and `SequenceModel.run()` with the end at `n * dt` give the same result.", "quantifier": "all grids, processes, parameters, curves, time steps and numbers of steps", "why_tests_cant": "The drivers are separate copies of the same loop; tests run one of them for a few steps and never compare them, and nothing shows a difference that only appears with an unusual process or after layers are merged. (False with subsidence or flexure, for the recorded water depth and the oldest layer, and for an end that is not a whole number of steps away.)", "anchors": ["sequence/sequence.py:Sequence.update", "sequence/sequence.py:Sequence.run", "sequence/sequence.py:Sequence.add_layer", "sequence/sequence_model.py:SequenceModel.advance_components", "sequence/sequence_model.py:SequenceModel.run"]}
{"id": "C144", "title": "A higher sea does not move the shoreline seaward", "statement": "On the same topography, `find_shoreline` (and so `ShorelineFinder`, row by row) with a higher sea level never returns a shoreline further seaward; and with the same sea level, a topography that is nowhere lower never has its shoreline further landward.", "quantifier": "all profiles, column positions, sea levels, kinds of interpolation and tolerances", "why_tests_cant": "Bisection stops at a tolerance and starts from a bracket that depends on the sea level, so nearby sea levels take different branches; tests compare a few computed shorelines with known ones and cannot show order for all pairs of sea levels. (False when the sea floods the first node and there is land further out.)", "anchors": ["sequence/shoreline.py:find_shoreline", "sequence/shoreline.py:find_shoreline_index", "sequence/shoreline.py:ShorelineFinder.update"]}
{"id": "C145", "title": "Fields are stored in a type that holds their values", "statement": "A field that `to_netcdf` writes is stored in a variable whose type holds every number that the type of the field has, at the first write and at every later one; every array of numbers can be written.", "quantifier": "all types of arrays, values, formats and series of writes to one file", "why_tests_cant": "The package's own fields are all double-precision, so tests see one type only; extreme values of the others and files to which several types are written are not tried. (False of half and extended precision, complex numbers and the other byte order, of 64-bit and unsigned numbers in formats other than NETCDF4, and of fields whose type changes.)", "anchors": ["sequence/netcdf.py:_netcdf_type", "sequence/netcdf.py:_create_field", "sequence/netcdf.py:_create_layers"]}
{"id": "C146", "title": "Stored shorelines are those of the stored surface", "statement": "After a step of `SequenceModel` or an update of `Sequence`, `x_of_shore` of every row is the shoreline of that row of `topographic__elevation` under `sea_level__elevation`.", "quantifier": "all processes in any order, grids, states and steps", "why_tests_cant": "Tests look at shorelines of still grids, or at the surface, and never at both after a step. (False: the shorelines are found before the surface moves, and stay those of the surface that the step began with.)", "anchors": ["sequence/sequence_model.py:SequenceModel.advance_components", "sequence/sequence.py:Sequence.update", "sequence/shoreline.py:ShorelineFinder.update"]}
{"id": "C147", "title": "The time step makes no difference to what depends on time only", "statement": "Two simulations of one grid with the same processes that have come to the same time have the same sea level, bedrock and shorelines if nothing is deposited and nothing is loaded, whatever their time steps.", "quantifier": "all processes, grids, start times and series of time steps of two simulations", "why_tests_cant": "A comparison of two runs with different steps; tests run one. (False of shorelines: they lag by one step, whatever its length. Proved of sea level, and of the bedrock if nothing but subsidence moves it.)", "anchors": ["sequence/sequence_model.py:SequenceModel.advance_components", "sequence/sequence_model.py:SequenceModel._update_fields", "sequence/sea_level.py:SeaLevelTimeSeries.run_one_step", "sequence/subsidence.py:SubsidenceTimeSeries.run_one_step"]}
{"id": "C148", "title": "The report of how long the components took", "statement": "`sequence --verbose run` ends with one line for every component of the model, the fastest first, with the seconds it took and its share of all the time; the shares are between 0 and 100 % and add up to 100 % up to rounding.", "quantifier": "all components, numbers of steps, and readings of the clock of the computer", "why_tests_cant": "Tests of the command do not look at the report, and the readings of a clock cannot be controlled. (False if the clock shows the same time during the whole run: `ZeroDivisionError`; and if it is set back.)", "anchors": ["sequence/cli.py:run", "sequence/sequence_model.py:SequenceModel.advance_components"]}
{"id": "C149", "title": "The texts of errors tell what is wrong", "statement": "The text of a `ParameterMismatchError` tells all the keys that do not match, whatever characters they contain, that of `MissingRequiredVariable` the name of the variable, and that of `InvalidRowError` the row and the number of rows; the text that `plot_file` raises for a missing variable is that for its name.", "quantifier": "all lists of keys and all names", "why_tests_cant": "Tests compare the text for one key. (False of `plot_file`, which passes the text of a `KeyError`: the name is in quotes twice.)", "anchors": ["sequence/errors.py:ParameterMismatchError.__str__", "sequence/errors.py:MissingRequiredVariable.__str__", "sequence/errors.py:InvalidRowError.__str__", "sequence/plot.py:plot_file"]}
{"id": "C150", "title": "The shorelines in a record are those of its topography", "statement": "In every record of the output file of a run the shoreline of every row is the one that the topography of the row has under the sea level of the same record: with linear interpolation, the point where the line between the last node of land and the first node of water meets the sea level, up to the tolerance of the root finding.", "quantifier": "all grids, processes of the package with the shoreline after the sea level and the diffusion (as it is if it is not listed), settings, intervals, numbers of records", "why_tests_cant": "Tests compare no two variables of a file. Every record of every run is a matter of when the writer runs among the components: after the step the model itself does not have this property (C146).", "anchors": ["sequence/output_writer.py:OutputWriter.run_one_step", "sequence/sequence_model.py:SequenceModel.advance_components", "sequence/shoreline.py:ShorelineFinder.run_one_step"]}
{"id": "C151", "title": "The layers in a file fill the space between bedrock and topography", "statement": "When a record has been written, the thicknesses of all layers in the file add up, for every stack, to the topography minus the bedrock of that record.", "quantifier": "all grids, processes, settings, intervals and numbers of steps; topography and bedrock among the fields", "why_tests_cant": "Tests do not add up the layers of a file. (False with compaction, because the surface follows in the next step only, and for most intervals once layers have been archived, because layers of earlier records stay in the file.)", "anchors": ["sequence/netcdf.py:to_netcdf", "sequence/output_writer.py:OutputWriter.run_one_step", "sequence/sequence_model.py:SequenceModel.advance_components"]}
{"id": "C152", "title": "The shelf edges in a record are those of its deposits", "statement": "In every record of the output file of a run the shelf edge of every row is, of the nodes farther than 3 / alpha from the shoreline of the record, the one with the thickest deposit of the record, the first if there are several; it is missing exactly if no node is so far out; and so it is never landward of the shoreline.", "quantifier": "all grids, processes of the package with the shoreline after all that deposit (as it is if it is not listed), settings, intervals, time steps, numbers of records", "why_tests_cant": "Tests compare no two variables of a file. (False if the shoreline is listed before the other processes: it then looks at a deposit that has just been set to zero.)", "anchors": ["sequence/output_writer.py:OutputWriter.run_one_step", "sequence/sequence_model.py:SequenceModel.advance_components", "sequence/shoreline.py:ShorelineFinder.update", "sequence/shoreline.py:find_shelf_edge"]}
{"id": "C153", "title": "A bathymetry is where the model goes on from", "statement": "After `BathymetryReader.run_one_step`, before a model is made or between two of its steps, the next step starts from the profile of the file: afterwards the surface is that profile with the movement of the bedrock and the deposit of the step. `BathymetryReader.z` is the elevation along the rows of the grid.", "quantifier": "all grids, files, processes of the package, settings and steps", "why_tests_cant": "Tests run the reader on its own. (False between steps: the cells go back to where they were, since the surface is put on top of the layers; and z is the profile of the last reading whatever happens.)", "anchors": ["sequence/bathymetry.py:BathymetryReader.run_one_step", "sequence/bathymetry.py:BathymetryReader.z", "sequence/sequence_model.py:SequenceModel.advance_components", "sequence/sequence_model.py:SequenceModel._update_fields"]}
{"id": "C154", "title": "Running a SequenceModel in parts", "statement": "Steps taken with `run_one_step()` and then `run()` give what `run()` alone gives, or raise the same exception at the same time. A model that has been run to its end is not changed by another `run()`, and `run_one_step` on it raises StopIteration; and the clock shows the time of the last step that was taken.", "quantifier": "all models, clocks, numbers of steps and of runs", "why_tests_cant": "Tests make one run. (False of the clock: it moves with every call, also with those that raise, so it is past the end after a run and further past it after another; and a step that raised and is repeated counts twice.)", "anchors": ["sequence/sequence_model.py:SequenceModel.run", "sequence/sequence_model.py:SequenceModel.run_one_step"]}
{"id": "C155", "title": "The surface that a new model starts from", "statement": "Making a Sequence or a SequenceModel on a grid does not move the surface of the cells: the layers are made such that their top is at `topographic__elevation`, whatever the bedrock is and whether or not the grid has been used before.", "quantifier": "all grids, surfaces, bedrocks and layers, and all components that leave the layers alone", "why_tests_cant": "Tests make one model for each grid, with the default bedrock. (False of the code in both drivers: Sequence adds the sediment to the layers that are there, so that a second one on the same grid has it twice; SequenceModel always adds 100 m, so that the first step moves the surface to 100 m above the bedrock, and a second one raises it by 100 m.)", "anchors": ["sequence/sequence_model.py:SequenceModel.__init__", "sequence/sequence_model.py:SequenceModel.advance_components", "sequence/sequence.py:Sequence.__init__"]}
