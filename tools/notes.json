{
 "C05": {
  "status": "partial",
  "note": "Holds for every grid with a flow axis; fails on the single-cell grid, where the only cell is listed as interior and as boundary (C05_single_cell_fails)."
 },
 "C13": {
  "status": "partial",
  "note": "By id for all cells; by coordinates for unified or 3D grids and for interior cells. On non-unified 1D/2D grids boundary cells with a zero flow coordinate are refused (C13_coords_refused)."
 },
 "C20": {
  "status": "partial",
  "note": "All interior pairs, and boundary pairs when the interior permeability is not uniform. On a uniform interior a boundary pair gets the arithmetic mean instead (C20_boundary_differs)."
 },
 "C21": {
  "status": "partial",
  "note": "Proved for 1D and 2D. False on every 3D grid (C21_three_d_fails): get_cells_G_diag_3 zeroes one entry instead of one per row, leaving links between layers; C21_three_d_partial says all other pairs are right."
 },
 "C22": {
  "status": "partial",
  "note": "Proved for 1D and 2D. On every 3D grid the two matrices differ, only on the wrapped pairs (C22_three_d_partial)."
 },
 "C23": {
  "status": "partial",
  "note": "Bounds for every pair; blocking and monotonicity for interior pairs. Fails for boundary pairs when a change switches the formula (C23_boundary_not_monotone)."
 },
 "C17": {
  "status": "partial",
  "note": "Setting all cells (number or list) proved for every grid. Setting one cell works only on 1D grids created with unify=False and not at the first cell (C17_set_cell_partial); everywhere else the call raises, proved in C17_cell_refused: the property indexes a flat array with a multi-dimensional index."
 },
 "C18": {
  "status": "partial",
  "note": "Holds for every history in which the settings of a grid precede the questions about it (C18_latest_partial). Otherwise false: the caches are never invalidated (C18_k_stale, C18_G_stale, C18_isotropic_stale, C18_stale_history)."
 },
 "C31": {
  "status": "partial",
  "note": "Pressures independent for every history (C31_pressures). Rates independent only if another get_zeros call came between the two creations (C31_rates_partial); two models created in a row on one grid share one rate array for ever (C31_rates_shared)."
 },
 "C24": {
  "status": "partial",
  "note": "Classification and total compressibility proved for every value; the claim that a refused value leaves the object unchanged is false (C24_refused_mutates): the value is stored before the check."
 },
 "C25": {
  "status": "partial",
  "note": "Units and factors follow set_units for every history; the fluid gravity term follows only if the density is set after the last change of units (C25_gravity_partial), otherwise it is stale (C25_gravity_stale)."
 },
 "C26": {
  "status": "partial",
  "note": "Value, sign, skin, 1D and proportional permeability growth, isotropic radius proved for all positive reals. Growth of one permeability alone on a 2D grid can lower the index, because the equivalent radius changes too (C26_not_monotone)."
 },
 "C52": {
  "status": "partial",
  "note": "Types fully; methods except the spellings 2d1p and 3d1p, each listed for three methods and resolving to the first; 2d2p, 2d3p, 3d2p, 3d3p are refused (C52_shared)."
 },
 "C53": {
  "status": "partial",
  "note": "Both layouts proved for every size and request when the counters agree with the tables (after run). After solve() alone the step counter stays at one and the melted table loses all later steps (C53_rows_bounded, C53_solve_only); lists of well pressures of different length make the wide table raise (C53_unequal_wells). Label texts with units are pairwise different (C53_labels). Scaled tables are C70."
 },
 "C54": {
  "status": "partial",
  "note": "Inverses, range, order, refusal, what fit accepts and fit_transform for all data with non-constant features; constant features give no number (C54_constant_fails)."
 },
 "C55": {
  "status": "partial",
  "note": "Named quantities proved for all dictionaries; 'all' only changes time (C55_all_only_time), and a refused dictionary keeps the settings before the unknown name (C55_refused_mutates). C55_default: the documented default settings."
 },
 "C57": {
  "status": "partial",
  "note": "The claim is false for every grid: run stores (nsteps+1)*n rows (C57_rows, C57_one_row_per_step_fails); C57_repeated_partial says where the solution of each step is."
 },
 "C60": {
  "status": "partial",
  "note": "Everything except sets asked for as arrays (C60_set_to_array) and points looked up in arrays of ids (C60_isin_point_in_ids)."
 },
 "C34": {
  "status": "partial",
  "note": "Symmetry and signs for both assemblers after any history (C34_symmetric, C34_signs). Row sums while no well has left its limit and, vectorised, no well is held at pressure 0; both exceptions are shown to break the row sums (C34_released_well, C34_zero_bottom_hole_pressure)."
 },
 "C35": {
  "status": "partial",
  "note": "For every model and history with the same two exceptions as C34; C35_zero_bottom_hole_pressure shows an incompressible model whose only anchor is a well at pressure 0 and whose vectorised matrix is singular."
 },
 "C36": {
  "status": "partial",
  "note": "Vectorised and symbolic assembly, histories in which no well has left its limit; afterwards it is false (C36_released_wells_fail: the bottom-hole-pressure terms stay in the matrix, so that the matrix is regular and unbalanced rates have a solution)."
 },
 "C37": {
  "status": "partial",
  "note": "One step and whole histories, any calls, for models without imposed rates, level or without gravity, while no well leaves its limit and none is held at pressure 0 (vectorised). Unconditional for models whose wells are given non-zero bottom-hole pressures (C37_pressure_wells). Both exceptions break the claim: C37_released_well, C37_zero_bottom_hole_pressure. C37_inclined_partial: vectorised runs whatever the depths, wells without target rates; each boundary pressure counts less the weight of the fluid between the boundary and its cell. Symbolic assembler on slopes: C102."
 },
 "C38": {
  "status": "partial",
  "note": "Every model and history of calls with non-zero pressure (or without wells) whose equations determine the pressures. At bottom-hole pressure 0 the claim fails (C37_zero_bottom_hole_pressure)."
 },
 "C39": {
  "status": "partial",
  "note": "One step and whole runs, any combination of raised conditions, with wells switching to their limits in either run; not when a well leaves its limit, where the claim fails (C39_released_well). C39_inclined_partial: inclined reservoirs with the vectorised assembler, if no well has a target rate. With target rates it fails there (C39_vectorised_fails). C39_tilted_partial: inclined reservoirs with the vectorised assembler and target rates, while no well changes its constraint."
 },
 "C40": {
  "status": "partial",
  "note": "C40_exact gives the exact account for every model and history in which no well has left its limit: inflow = stored volume + what is booked for boundary cells at edges and corners (which have no face). C40_balance_partial: the balance itself when rate conditions sit on faces. Gradient conditions are covered for steps with the vectorised assembler. C40_released_well, C40_zero_bottom_hole_pressure and C40_gradient_fails (gradient, symbolic assembler) show the exceptions are real."
 },
 "C41": {
  "status": "partial",
  "note": "Totals over whole histories, same conditions as C40."
 },
 "C42": {
  "status": "partial",
  "note": "Reported error while the net flow is not zero (C42_error_partial) and with no flow at all (C42_no_flow). The cumulative report is 1/tstep instead of 1 (C42_cumulative, C42_cumulative_fails)."
 },
 "C43": {
  "status": "proved",
  "note": "Every model, every linear solver, every history of solve and run calls including failing and repeated ones (state at the exception modelled in Fail.lean)."
 },
 "C44": {
  "status": "partial",
  "note": "nsteps after run calls that return (C44_nsteps_partial), the exact change by every call (C44_counters), one reported bottom-hole pressure per well and step (C44_bottom_hole_pressures), at least one matrix per step (C44_matrices_partial). Fails: nsteps after solve and after a failing run, As and ds after a repeated step, w_pressures of a well whose limit was given twice, ctime (wall-clock time)."
 },
 "C45": {
  "status": "proved",
  "note": "Every model and every history of calls, whatever the linear solver returns; the limit is the one given before the simulation."
 },
 "C46": {
  "status": "partial",
  "note": "Histories in which no well leaves its limit. C46_released_well shows that a well that leaves its limit reports a rate and a bottom-hole pressure that do not belong together."
 },
 "C47": {
  "status": "partial",
  "note": "Bound n in histories in which no well leaves its limit, exact solver (C47_once_partial). Bound 2^n - 1 in every history and for every solver (C47_terminates), so that solve does not depend on a larger recursion limit (C47_limit). The bound n is false in general: C47_more_than_wells is a run of a closed model with three wells whose third step is repeated four times."
 },
 "C27": {
  "status": "partial",
  "note": "Calls that return merge the fields (C27_merge_partial) and compose (C27_two_calls); calls refused for their cell change nothing. A call without a radius raises KeyError after storing an unusable well: C27_missing_radius_fails (every model), C27_missing_radius_breaks (the next step raises)."
 },
 "C28": {
  "status": "partial",
  "note": "Symbolic assembler, and both assemblers when pressure conditions are spelled \"pressure\". C28_vectorised_fails: the vectorised assembler takes \"p\" for a rate of 0."
 },
 "C30": {
  "status": "partial",
  "note": "Only the tables agree. C30_ignored: in every model without conditions set_all_boundaries has no effect on the simulation; C30_fails gives a witness."
 },
 "C29": {
  "status": "partial",
  "note": "Vectorised assembler: proved for every flat reservoir and calm history. The symbolic assembler uses the gradient itself as the rate: C29_symbolic_fails proves it for every model, C29_symbolic_unbalanced is a witness."
 },
 "C48": {
  "status": "partial",
  "note": "Symbolic assembler: proved. The vectorised assembler treats a well at bottom-hole pressure 0 as one with the fixed rate -G/(mu*B) (C48_vectorised_fails, every model) and refuses boundary pressures of 0 (C48_boundary_fails, every model)."
 },
 "C49": {
  "status": "partial",
  "note": "Symbolic assembler: proved (C49_symbolic_partial). Vectorised assembler: C49_vectorised_exact gives the exact difference; gravity between cells enters only while some well is under rate constraint, and then correctly in a column with one transmissibility (C49_column_partial); without such a well it is missing (C49_switch_partial), and C49_vectorised_fails shows the claim false for every reservoir that is not flat. Whole simulations without target rates: C49_depths_ignored (the vectorised run, exceptions included, is the same for all depths and densities with the same heads at pressure faces), C49_levelled and C49_simulates_level (it reports what the cell-by-cell assembler reports for the levelled reservoir); C49_target_rate_fails: with a target rate this is not so."
 },
 "C58": {
  "status": "partial",
  "note": "Proved for every session (steps, set_well, set_boundaries in any order) that a set_boundaries call which BoundsTake admits is used by the next step: with the symbolic assembler before the first step, with the vectorised one changed pressure conditions before the first step and changed rates/gradients after it. The property is false in the other cases, and that is proved for every model: C58_symbolic_fails (after a step the symbolic equations do not change at all), C58_first_rates_fails (vectorised: rates set between compile and the first step are ignored), C58_pressures_kept (vectorised: changed pressures are ignored after a step), C58_new_pressure_fails (vectorised: a new pressure condition makes the next step raise)."
 },
 "C59": {
  "status": "partial",
  "note": "Proved for every session that a set_well call which WellTakes admits is used by the next step, for new and existing wells. False otherwise: C59_symbolic_rate_fails (every model: a changed or new rate is ignored by the symbolic assembler after a step), and witnesses C59_released_well, C59_released_well_symbolic, C59_new_well_symbolic, C59_changed_index in which the next step does not balance with the new settings."
 },
 "C33": {
  "status": "partial",
  "note": "Every schedule of both thread pools gives the A, d and terms of the sequential assembly, and whole runs give the same pressures and rates, whenever the sequential one does not raise; an exception while the equations are made is the same. Missing, because false: a right-hand side that keeps symbols raises TypeError without threads, with threads the exception is lost and the row keeps the previous step's values (C33_lost_exception, C33_wrong_pressures). Grids without a direction of flow (one cell) cannot be assembled either way."
 },
 "C61": {
  "status": "partial",
  "note": "Placing a rate-controlled object in a cell without a well is the keyword call except that the well gets no target rate (C61_set_partial); the first step has the same pressures (C61_first_step_partial). The full claim is false: an object's rate is never kept, every recorded step has the rate of a well at bottom-hole pressure 0 (C61_object_rate, any object, any history), the first recorded rate differs whenever the keyword well meets its rate (C61_rates_differ), and pressures differ from the second step on (C61_pressures_differ). A shut-in object (rate 0) loses its rate and produces from the first step (C61_shut_in_fails). One object placed in two cells shares its dictionary: see C84."
 },
 "C50": {
  "status": "partial",
  "note": "Any number of FDM solutions of one model, any sequence of compile and solve calls with either assembler: if no well changes its constraint in the solutions' own runs (in particular without wells), every solution ends in exactly its own state (C50_independent_partial, C50_no_wells). The full claim is false: the record of bottom-hole pressures gets an entry per step of every solution (C50_shared_record, any wells), and a limit reached in one solution changes the pressures of another (C50_changed). set_well and set_boundaries between the calls are in C58/C59; the analytical solution has no shared state and is not part of this model."
 },
 "C32": {
  "status": "partial",
  "note": "Proved for one- and two-dimensional grids, cells at one depth (or no gravity), rate and pressure conditions, a pressure condition somewhere (or a compressible model), no bottom-hole pressure 0, no well leaving its limit: every symbolic row is a nonzero multiple of the vectorised one at any point of any history (C32_rows_partial), the systems have the same solutions (C32_solutions_partial) and whole runs report the same pressures (C32_run_partial). The full claim is false: on every three-dimensional grid (C32_three_d_fails), with a gradient condition, under gravity, with a bottom-hole pressure of 0, after a well leaves its limit (C32_*_fails), and the symbolic assembly raises whenever the numbers in a compressible cell's balance cancel (C32_symbolic_raises, any history)."
 },
 "C63": {
  "status": "partial",
  "note": "Proved against an SI specification of every label: Darcy rate (C63_darcy_partial, metric only with permeability in square micrometres), accumulation (C63_volume), gravity (C63_gravity), derived labels (C63_derived_labels_partial). False for three labels: metric permeability is labelled m^2 but the factor is for square micrometres (10^12 off for all data, C63_metric_permeability_fails), metric transmissibility per bar instead of kPa, lab liquid rate per day instead of second (C63_derived_labels_fail)."
 },
 "C64": {
  "status": "proved",
  "note": "For every sequence of steps and dry solves from a fresh solution, with the state kept at exceptions (C64_looks). A dry solve with the steps' own assembler leaves the assembled caches and assembling again gives the same system (assemble_again); the other assembler only touches its own caches. An exception in the middle of an assembly is taken to leave the caches as they were."
 },
 "C65": {
  "status": "proved",
  "note": "C65_split: same outcome, model and solution, time adds up; C65_steps: run is repeated solve. For all states, with or without exceptions in the second part."
 },
 "C66": {
  "status": "partial",
  "note": "vectorize=False: printing changes nothing (C66_symbolic, any state). vectorize=True: a printed step solves the symbolic system (C66_vectorised_is_symbolic), so results change wherever the assemblers differ (C66_printing_fails). Under the conditions of C32 any sequence of vectorize and print_arrays flags gives the same report (C66_mixed_partial)."
 },
 "C67": {
  "status": "partial",
  "note": "Vectorised: every solve and run(n) succeeds in every history (including wells released from their limit) if initial pressures are known, pressure conditions are on conducting faces with pressures different from the gravity term, something holds the pressure level, and the linear solver solves regular systems (C67_solve_partial, C67_run_partial; the recursion limit must be at least 2^wells). Symbolic, in runs in which no well is released: completes, or the model is compressible and stops with TypeError exactly where the numbers of a cell's balance cancel (C67_symbolic_partial); incompressible models complete (C67_symbolic_incompressible_partial). The full claim fails: a pressure condition on an edge or corner cell is accepted and no step can ever be made (C67_corner_fails); see also C48_boundary_fails and C32_symbolic_raises. Floating-point overflow and iterative solvers that do not converge are outside the model."
 },
 "C68": {
  "status": "partial",
  "note": "Proved for one step from any two histories and for run(n), both assemblers, wells going to their limits at different steps allowed (C68_step_partial, C68_run_partial). Missing: runs in which a well leaves its limit again; there the claim is false (C68_released_well: a boundary pressure of 10.1 instead of 10 moves a later pressure by more than 1). Vectorised: no gravity over different depths, no limit of 0. Exact arithmetic. C68_inclined_partial: inclined reservoirs with the vectorised assembler, if no well has a target rate. With target rates it fails there (C68_vectorised_fails). C68_tilted_partial: inclined reservoirs with the vectorised assembler and target rates, while no well changes its constraint."
 },
 "C69": {
  "status": "partial",
  "note": "C69_forget_partial gives constants A and r < 1 that depend only on grid, fluid, time step and on which conditions are pressures: differences after j steps are at most d + A r^j D (D initial difference, d difference of the given pressures). C69_settle_partial: all later pressures stay within A r^j D of those after step j (D change in the first step, compressible). Missing: runs in which a well leaves its limit again (see C68_released_well). C69_inclined_partial: inclined reservoirs with the vectorised assembler, if no well has a target rate. C69_tilted_partial, C69_tilted_settle_partial: both there with target rates as well, for runs in which no well changes its constraint."
 },
 "C70": {
  "status": "partial",
  "note": "C70_mapped_partial: scaling is applied to the whole table before anything is dropped. C70_press_range, C70_rate_range, C70_space_range, C70_value, C70_pressures_partial, C70_time: fitted ranges and values. C70_label: labels say [scaled] exactly for quantities with a MinMax scaler. Fails: coordinates carry no such label (C70_axis_label_fails); a cell with both NaN and numbers makes every scaled pressure NaN and the pressure table empty (C70_nan_fails), which happens in every simulation without initial pressures (C70_incompressible_fails); before the first step times are NaN (C70_time_fails); equal pressures become NaN (C70_constant_fails); drop_zero drops other columns than in the unscaled table (C70_zero_column_fails); well pressures leave the output range (C70_well_outside)."
 },
 "C71": {
  "status": "partial",
  "note": "C71_run_partial: any finite family of models and any number of steps, for an exact linear solver, if some pressure is imposed or the fluid is compressible, and no well changes its constraint in any of the runs. Missing and false: wells that reach their pressure limit (C71_limit_fails), for both assemblers. C71_inclined_partial: inclined reservoirs with the vectorised assembler, if no well has a target rate. C71_tilted_partial: there also with target rates, while no well changes its constraint (weights adding up to 1)."
 },
 "C72": {
  "status": "partial",
  "note": "C72_balance_partial: every step of every history. C72_uniform_partial: one constant for all solvers, tolerances and numbers of steps where a pressure is imposed (errors of steps do not add up). C72_storage_partial: compressible models without imposed pressures. Rows of the symbolic system that sympy divides by up to S enter the bounds with the factor S. C72_inclined_partial, C72_inclined_storage_partial: the pressures of inclined reservoirs with the vectorised assembler, if no well has a target rate. Missing: wells that leave their limit, and gravity with the vectorised assembler where wells have target rates."
 },
 "C73": {
  "status": "partial",
  "note": "C73_dense, C73_run_dense and C73_unknown hold in full. C73_step_partial, C73_run_partial: the chosen solver is used while no step is repeated. Missing and false: a repeated step is solved by the default 'cgs' whatever was chosen (C73_repeated, C73_fails)."
 },
 "C74": {
  "status": "partial",
  "note": "C74_attribute_partial: attributes and k follow get_prop in every history without set_prop calls for all cells. C74_long_name_partial: long names follow until the array is replaced. C74_values: set_prop acts on values as in C17 (no two properties share an array). C74_one_by_one holds in full. Missing and false: C74_set_prop_stale (transmissibilities then use other values than wells, storage and gravity), C74_long_name_stale, C74_comp_not_stored."
 },
 "C75": {
  "status": "partial",
  "note": "C75_fresh_partial: changes of viscosity, density, permeabilities and depths right after creation are taken over (incompressible models: also volume factor, porosity, time step). False otherwise: C75_ignored (porosity, time step and the compressibilities of fluid and grid never have an effect on an existing model, every model and session; C75_time_step_fails, C75_porosity_fails), C75_permeability_kept (vectorised steps after the first, any wells and rates), C75_set_comp_zero (model.set_comp(0) makes the next vectorised step set every pressure to 0, every compressible grid model without wells and boundaries)."
 },
 "C76": {
  "status": "proved",
  "note": "C76_closed_form gives every stored pressure of every history; C76_converges is the limit over all models, C76_limit_solves says what the limit is (diffusion equation, end pressures, initial pressure), C76_steady the late times; C76_instances and C76_instances_fine show that such models exist for every size and can be run for any number of steps. C76_analytic_differs: on a fixed grid D1P1 and finite differences differ in every cell but the middle one from some step on. Exact arithmetic and exact linear solver; no wells."
 },
 "C77": {
  "status": "partial",
  "note": "C77_meaning and C77_interior_only: a computed flag says exactly what the specification `FlagSpec` says, interior cells only. C77_answers_partial: after every history in which what a flag is about was not set for the grid since the pair was first asked of it, the answer is current and the two flags are complementary; C77_regular: always for regularity. The full statement is false: C77_stale, C77_stale_second (answers repeated whatever is set), C77_contradiction and C77_neither (a grid that is neither homogeneous nor heterogeneous), C77_isotropic_unequal (isotropic whatever the three permeabilities are)."
 },
 "C78": {
  "status": "partial",
  "note": "Proved for every layout map that keeps adjacency (mirrors, exchange of axes and their compositions are shown to be such), all scale factors, both assemblers, any number of steps, wells by rate, pressure or with a limit, run with exact solvers: C78_run_partial; with the vectorised assembler also that both runs succeed (C78_vectorised_partial); datum and amplitude on one grid (C78_datum_partial); inclined reservoirs with the vectorised assembler, if no well has a target rate (C78_inclined_partial). Missing: attempts in which a well leaves its pressure limit (the code's equations are then not balances, C36), gravity on inclined reservoirs with the vectorised assembler and target rates (C37), unanchored incompressible systems. False with the vectorised assembler in three dimensions: C78_three_d_fails, a 2x2x2 reservoir whose mirrored run does not give mirrored pressures."
 },
 "C79": {
  "status": "partial",
  "note": "Proved for all sets of changes (C79_run_partial), for two wells under rate control (C79_wells_partial) and for a well and a boundary cell (C79_boundary_partial), for both assemblers, every step, any exact solver; C79_gradients_partial: for all sets of changes, gradient conditions among them, with the vectorised assembler. Missing: runs in which a well changes its constraint, for which it is false (C79_limit_fails). C79_inclined_partial: inclined reservoirs with the vectorised assembler, if no well has a target rate. C79_tilted_partial: there also with target rates, while no well changes its constraint."
 },
 "C80": {
  "status": "partial",
  "note": "Proved for any map of cells that lays a reservoir on a smaller one: C80_run_partial and C80_fluxes_partial (pressures, inflows over boundaries) while wells keep their constraints, C80_limits_partial, C80_limit_fluxes_partial and C80_limit_wells_partial (pressures, inflows, well rates) also when wells reach their limits, at any step and in any order; layout_collapse, looks_layers (layers) and layout_half, looks_half (halves) show that the maps of the statement are such maps. Both assemblers, every step, any exact solver. C80_gradients_partial and C80_gradient_fluxes_partial: the same for gradient conditions with the vectorised assembler. Missing: runs in which a well leaves its limit, for which it is false (C80_limit_fails: not even a symmetric reservoir keeps symmetric pressures); the vectorised assembler on three-dimensional grids (C35) and on inclined reservoirs with target rates (C37). C80_inclined_partial: inclined reservoirs with the vectorised assembler, if no well has a target rate."
 },
 "C81": {
  "status": "partial",
  "note": "C81_setup proves the part about set-up in full: a rearranged script goes through if the script does, and leaves the same data. C81_order_partial proves the part about runs for runs in which no well leaves its limit (wells may reach their limits at any step, in any order): all pressures, rates and reported bottom-hole pressures agree, with any exact linear solver. When a well leaves its limit the order of set_well calls changes the pressures (C81_order_fails). C81_inclined_partial: the vectorised assembler on inclined reservoirs, if no well has a target rate. C81_tilted_partial: there with target rates as well, for runs in which no well changes its constraint. Also missing: the vectorised assembler on inclined reservoirs with target rates when a well reaches its limit, and incompressible systems without any given pressure."
 },
 "C82": {
  "status": "partial",
  "note": "C82_frames, C82_refusal, C82_labels and C82_marks prove the part about values, places, steps, text, limits, labels and marks in full for histories in which nsteps is the number of steps made (C44_nsteps_partial: runs without exceptions). False otherwise: after solve() the picture that opens is not the last step (C82_solve_fails), after a run that raised an exception no picture can be made (C82_failed_run_fails). \"icoords\" labels: C82_icoords_partial; they cannot be drawn with boundary cells on one- and two-dimensional grids that are not unified (C82_icoords_fails). Wells stand on the vertical through the centre of their cell (C82_wells) and begin inside it if it is at least two units high (C82_well_begins_partial), below it if it is lower than 1/5 (C82_thin_cell_fails)."
 },
 "C83": {
  "status": "partial",
  "note": "Fluids: C83_fluid_values, C83_fluid_type and C83_fluid_props prove the values, comp_type and set_props in full for numbers; C83_fluid_gravity_partial misses set_units after the density; C83_fluid_long_partial misses values set after allow_synonyms (C83_fluid_long_fails); a fluid never gets a long name for compressibility (C83_fluid_compressibility_fails). Wells: C83_well_values_partial and C83_well_long_partial; false for zeros in set_props (C83_well_zero_fails), for the constraint (C83_well_constraint_fails) and for values set after allow_synonyms (C83_well_long_fails). Reports: C83_report, in full."
 },
 "C84": {
  "status": "partial",
  "note": "For objects placed at most once: calls do to the models what they do in the model without references (C84_alone_partial), other models keep their state (C84_others_partial), and the object shows rate and bottom-hole pressure of the last step (C84_shows_partial). A setter changes exactly the wells that have the object (C84_setter, no restriction). False: an object in two cells or two models gives the first well the index of the second (C84_shared_fails, C84_models_fail) and reports of different lengths; radius and skin set after the placement change no result (C84_geometry_fails), nor does a rate set after the first step (C84_rate_fails). A step that raises is taken to change nothing, as in the other models of solve."
 },
 "C85": {
  "status": "partial",
  "note": "C85_start, C85_pressures and C85_rates cover every script in terms of the latest condition of each kind. False for replaced conditions: a boundary whose pressure condition is replaced by a rate keeps showing the old pressure (C85_replaced_fails). C85_rates leaves out boundaries with a pressure condition, whose recorded rate is the flow through the face (C40), and cells with wells (C46)."
 },
 "C86": {
  "status": "partial",
  "note": "C86_trend_partial, C86_steady_partial (both for compressible or anchored models), C86_drawdown_partial, C86_buildup_partial (level reservoirs) and C86_rates_partial need runs in which no well leaves its limit; with a well that does the claim is false (C86_released_well_fails). C86_inclined_partial: inclined reservoirs with the vectorised assembler, if no well has a target rate. With target rates it fails there (C86_vectorised_fails). C86_tilted_partial: inclined reservoirs with the vectorised assembler and target rates, while no well changes its constraint."
 },
 "C87": {
  "status": "partial",
  "note": "C87_mean_partial, C87_pseudo_partial and C87_cells_partial hold for histories in which the wells stay at their targets (a well at its limit imposes a pressure: C69), conditions given as rates on faces, and, with the vectorised assembler, no gravity between cells (the exceptions of C40)."
 },
 "C88": {
  "status": "partial",
  "note": "C88_darcy_partial and C88_uniform_partial assume that the boundary cells have the permeability of the cells next to them (otherwise a row that counts as isotropic gets an arithmetic mean at its ends, C23) and, with the vectorised assembler, no gravity between cells (left out there, C32)."
 },
 "C89": {
  "status": "partial",
  "note": "C89_evolution_partial (existence and uniqueness), C89_first_order_partial, C89_converges_partial and C89_rates_partial speak about steps in which no well leaves its limit, made by one assembler (the vectorised one without gravity between cells and with rate conditions that are stored as given), with an exact linear solver and exact arithmetic. C89_instances gives runs with every time step that meet the hypotheses."
 },
 "C90": {
  "status": "partial",
  "note": "The property is false (C90_fails). C90_own_data_partial: it holds for a grid in every history in which writes go into answers about other grids or into answers of get_prop and get_cells_k. C90_no_writes: without writes always. C90_sizes_fails, C90_copies_fails, C90_ones_fails and C90_ids_fails say, for every grid, what writes into its own answers do: sizes change but not areas and volumes; copies are cached; get_ones feeds set_prop; get_cells_id selects the cells of later answers."
 },
 "C91": {
  "status": "partial",
  "note": "The property is false (C91_fails: the repeated call can give other pressures; C91_stuck: after an interruption between counting a step and storing its rows every later solve() raises). Proved: nothing stored earlier is lost (C91_kept, C91_run_kept); where the tables are complete (C91_tables); a call interrupted before it counts its step can be repeated, and a run interrupted so any number of times ends like the run without interruptions (C91_resume_solve_partial, C91_resume_run_partial; missing: after the first step, points where the vectorised assembler makes its matrix anew or adds a well). The traced calls return what the calls of the model return (solveT_out, runLoopT_out)."
 },
 "C92": {
  "status": "partial",
  "note": "Exactly equal histories fail, since the conversion factors are rounded (C92_exact_fails), and so does the radius (C92_radius_fails: every system divides the radius by 12). Proved: exactly equal histories when permeability, compressibility and density carry, besides the conversion, factors that depend on the two systems only and are within 1/2400 of 1 (C92_run_partial, C92_factors); the well index of the code is then the same physical quantity (C92_well_index). With nothing but the conversion by labels, the simulations of a compressible fluid differ by at most one part in 1199 of what changes in the reservoir (C92_close_partial), pressures of incompressible flow driven by given pressures only are exactly the same (C92_flow_partial), and the well index is the same up to the factor of permeability (C92_label_index). Missing: metric permeabilities in the labelled unit (C63), given gradients, what C78 leaves out."
 },
 "C93": {
  "status": "partial",
  "note": "Fails without a restriction (C93_jump_fails): with boundary cells of a permeability other than that of a uniform interior, an arbitrarily small error in one permeability switches the formula for the geometric factor and moves a pressure by 8 in a band of 70. Proved where boundary cells have the permeability of a uniform interior: bound independent of the number of steps if a pressure is held (C93_uniform_partial), with bands implied where nothing is injected or produced (C93_sourceless_partial), and growing linearly with the step in closed compressible reservoirs (C93_storage_partial). Errors of up to 1/32; the constant is the same for all of them. Missing: wells that leave their limit, given gradients other than by their rates, vectorised assembly on 3-D grids or inclined reservoirs."
 },
 "C94": {
  "status": "partial",
  "note": "Fails where boundary cells have another permeability than a uniform interior (C94_edge_fails): raising one permeability from 1 to 1.1 then switches the formula at the faces from an arithmetic to a harmonic mean and lowers the flow. C94_flow_partial: proved for all data in which boundary cells have the permeability of a uniform interior, any two completed steps of any two histories with the same assembler. On inclined reservoirs it fails with the vectorised assembler (C94_vectorised_fails): fluid is recorded as leaving at the higher head, and more of it when another opening is made. C94_inclined_partial: there, without target rates, it holds between two pressures, given pressures being carried to the depth of the cells behind the faces. Missing: vectorised assembly on 3-D grids, bottom-hole pressures of zero with it (C22, C48)."
 },
 "C95": {
  "status": "partial",
  "note": "C95_spread_partial: proved for every convex function and any two completed steps of any history with one assembler. Fails for vectorised assembly of inclined reservoirs, which leaves out gravity between cells (C95_vectorised_fails, cf. C32). C95_inclined_partial: there pressures instead of heads even out, in reservoirs that are closed or held at one pressure, given pressures being carried to the depth of the cells behind the faces. Not claimed and not covered: wells with target rates and non-zero rates at boundaries, for which heads need not even out."
 },
 "C96": {
  "status": "proved",
  "note": "C96_measured. pyvista's measures are taken as specified: cells with the first axis running fastest, volume of a cell as the sum of five tetrahedra, centre as the mean of the eight corners."
 },
 "C97": {
  "status": "partial",
  "note": "C97_setup for scripts; C97_run_partial for runs; C97_limit_fails shows that the condition on the limit is needed. C97_inclined_partial: conditions of rate 0 on inclined reservoirs with the vectorised assembler, if no well has a target rate. With wells that are shut in it fails there (C97_vectorised_fails). C97_tilted_partial: it holds there if a well with a target rate remains, for runs in which no well changes its constraint. Missing: incompressible reservoirs without a given pressure (their pressures are not determined), wells that leave a limit during the run, scripts that call set_boundaries several times."
 },
 "C98": {
  "status": "partial",
  "note": "C98_net_partial. C98_inclined_partial: inclined reservoirs with the vectorised assembler, if no well has a target rate. With target rates it fails there (C98_vectorised_fails). C98_tilted_partial: it holds there if both models or neither have a well with a target rate, for runs in which no well changes its constraint. Missing: incompressible reservoirs without a given pressure, wells that do not meet their targets."
 },
 "C99": {
  "status": "partial",
  "note": "C99_control_partial; C99_steps_fails shows that one step or incompressibility is needed. On inclined reservoirs it fails with the vectorised assembler (C99_vectorised_fails). C99_tilted_partial: it holds there if a well with a target rate remains, for runs in which no well changes its constraint. Missing: incompressible reservoirs without a given pressure."
 },
 "C100": {
  "status": "partial",
  "note": "C100_strict_partial. Missing: wells that leave their limit (there already the weak form fails, C39_released_well), incompressible reservoirs without a given pressure. C100_inclined_partial: inclined reservoirs with the vectorised assembler, if no well has a target rate. With target rates it fails there (C100_vectorised_fails). C100_tilted_partial: inclined reservoirs with the vectorised assembler and target rates, while no well changes its constraint."
 },
 "C101": {
  "status": "partial",
  "note": "C101_others_partial (everything unchanged loses), C101_own_partial (the raised place does not lose); C101_target_fails: a raised target rate may give a lower rate in a later step when the well has a limit. Missing: wells that leave their limit, incompressible reservoirs without a given pressure. C101_inclined_partial (and C100_inclined_partial): inclined reservoirs with the vectorised assembler, if no well has a target rate. With target rates it fails there (C101_vectorised_fails). C101_tilted_partial, C101_tilted_own_partial: inclined reservoirs with the vectorised assembler and target rates, while no well changes its constraint."
 },
 "C102": {
  "status": "partial",
  "note": "C102_heads_partial (bounds of the heads from any step on), C102_pressure_wells (any calls, wells without target rates), C102_direction_partial (signs of recorded rates), C102_hydrostatic_partial (pressures and rates at rest); C102_vectorised_fails: with the vectorised assembler on a slope fluid flows for ever although everything is given at one head. Missing: the vectorised assembler on slopes (false; see C37_inclined_partial for what holds instead), wells that leave their limit, a bottom-hole pressure of 0 with the vectorised assembler, incompressible reservoirs without a given pressure."
 }
}