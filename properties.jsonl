{"id": "C01", "title": "Cell numbering is a bijection", "statement": "On a grid with nx, ny, nz cells, get_cell_coords maps every id in 0..n-1 to coordinates inside the grid shape, get_cell_id maps them back to the same id, every in-shape coordinate triple comes from exactly one id, ids grow fastest along x then y then z, and ids or coordinates outside the grid are not given a cell.", "quantifier": "all grid sizes nx, ny, nz >= 1, both boundary settings, all ids and coordinate triples", "why_tests_cant": "Tests fix a handful of grid sizes; the claim is about every size.", "anchors": ["reservoirflow/grids/regular_cartesian.py: get_cell_id, get_cell_coords, get_cells_id, get_shape, get_n"]}
{"id": "C02", "title": "Flow directions and boundary padding", "statement": "The grid's flow directions are exactly the axes with more than one cell, D is their number, and the shape with boundaries adds two cells along each flow axis and none along the others; this stays true whichever shape query was answered last.", "quantifier": "all nx, ny, nz >= 1 and both possible values of the remembered shape", "why_tests_cant": "Tests fix a handful of grid sizes; the claim is about every size.", "anchors": ["reservoirflow/grids/regular_cartesian.py: get_D, get_fdir, get_shape, get_n, get_n_max"]}
{"id": "C03", "title": "Flow shape holds all cells", "statement": "For both unify settings, the flow shape has exactly as many entries as there are cells, so every per-cell array can be reshaped to it without losing or inventing values; with unify the shape always has three axes, without it exactly max(D,1) axes.", "quantifier": "all sizes, both boundary settings, both unify settings", "why_tests_cant": "Tests fix a handful of grid sizes; the claim is about every size.", "anchors": ["reservoirflow/grids/regular_cartesian.py: get_fshape, get_order, get_cells_i"]}
{"id": "C04", "title": "Interior cells are listed exactly", "statement": "get_cells_id(boundary=False) lists, in increasing order and without repetition, exactly the cells that are not on the outermost layer of any flow axis, and there are nx*ny*nz of them.", "quantifier": "all sizes, both unify settings", "why_tests_cant": "Tests fix a handful of grid sizes; the claim is about every size.", "anchors": ["reservoirflow/grids/regular_cartesian.py: get_cells_id, remove_boundaries, get_order"]}
{"id": "C05", "title": "Boundary and interior cells partition the grid", "statement": "For a grid with at least one flow axis, get_boundaries lists in increasing order and without repetition exactly the cells that are not interior, so every cell is in exactly one of the two lists.", "quantifier": "all sizes with D >= 1, both unify settings", "why_tests_cant": "Tests fix a handful of grid sizes; the claim is about every size.", "anchors": ["reservoirflow/grids/regular_cartesian.py: get_boundaries, extract_boundaries, remove_boundaries, get_cells_id"]}
{"id": "C06", "title": "Splitting an array into interior and boundary values loses nothing", "statement": "For any per-cell array, remove_boundaries returns the values at the interior cells in cell order, extract_boundaries returns the values at the boundary cells, and together they are a rearrangement of the input; a wrongly sized array is rejected.", "quantifier": "all sizes with D >= 1, both unify settings, all arrays of scalars or points", "why_tests_cant": "Tests fix a handful of grid sizes; the claim is about every size.", "anchors": ["reservoirflow/grids/regular_cartesian.py: remove_boundaries, extract_boundaries", "reservoirflow/utils/helpers.py: ispoints"]}
{"id": "C07", "title": "Lists of coordinates and lists of ids describe the same cells in the same order", "statement": "The i-th entry of get_cells_coords is the coordinates of the i-th entry of get_cells_id, for both boundary settings, and get_boundaries('coords') and get_boundaries('id') name the same cells.", "quantifier": "all sizes, both boundary settings", "why_tests_cant": "Tests fix a handful of grid sizes; the claim is about every size.", "anchors": ["reservoirflow/grids/regular_cartesian.py: get_cells_coords, get_cells_id, get_boundaries"]}
{"id": "C08", "title": "Neighbours are exactly the adjacent cells", "statement": "get_cell_neighbors(id, boundary=True) of an interior cell returns exactly the cells whose coordinates differ by one along one flow axis, grouped under that axis, and with boundary=False exactly those that are interior; ids never wrap around a row or layer end. With boundary=True a boundary cell is refused.", "quantifier": "all sizes, every cell id, both boundary settings", "why_tests_cant": "Tests fix a handful of grid sizes; the claim is about every size. Wrap-around errors show only at particular sizes.", "anchors": ["reservoirflow/grids/regular_cartesian.py: get_cell_neighbors"]}
{"id": "C09", "title": "Neighbour relation is symmetric and has the right degree", "statement": "If b is an interior neighbour of interior cell a then a is an interior neighbour of b along the same axis; no cell is its own neighbour; an interior cell has exactly 2*D neighbours when boundaries are included, and all are distinct.", "quantifier": "all sizes and all pairs of interior cells", "why_tests_cant": "Tests fix a handful of grid sizes; the claim is about every size.", "anchors": ["reservoirflow/grids/regular_cartesian.py: get_cell_neighbors"]}
{"id": "C10", "title": "Asking by id and asking by coordinates give the same answer", "statement": "get_cell_neighbors and get_cell_boundaries asked with a cell's coordinates return the coordinates of the cells they return when asked with its id.", "quantifier": "all sizes, all cells, both boundary settings", "why_tests_cant": "Tests fix a handful of grid sizes; the claim is about every size.", "anchors": ["reservoirflow/grids/regular_cartesian.py: get_cell_neighbors, get_cell_boundaries"]}
{"id": "C11", "title": "A boundary cell touches at most one interior cell", "statement": "Every boundary cell on a face has exactly one interior neighbour and every boundary cell on an edge or corner has none, so setting a gradient or pressure on a face cell always finds its unique interior cell while on an edge or corner it fails.", "quantifier": "all sizes with D >= 1, every boundary cell", "why_tests_cant": "Tests fix a handful of grid sizes; the claim is about every size.", "anchors": ["reservoirflow/grids/regular_cartesian.py: get_cell_neighbors", "reservoirflow/models/black_oil.py: set_boundary", "reservoirflow/solutions/numerical/fdm.py: __init_A"]}
{"id": "C12", "title": "A cell's boundaries and interior neighbours split its surroundings", "statement": "For an interior cell, get_cell_boundaries returns exactly the adjacent cells that are boundary cells, and together with its interior neighbours they are all 2*D adjacent cells with none in both.", "quantifier": "all sizes, all interior cells", "why_tests_cant": "Tests fix a handful of grid sizes; the claim is about every size.", "anchors": ["reservoirflow/grids/regular_cartesian.py: get_cell_boundaries, get_cell_neighbors"]}
{"id": "C13", "title": "Per-cell size, area and volume lookups use that cell's own axis entries", "statement": "For a grid with any per-axis cell sizes, the dx, dy, dz stored for a cell are the axis entries at its own i, j, k, its areas are the products of the two other sizes and its volume the product of all three, for id and coordinate queries and for lists with and without boundaries.", "quantifier": "all sizes, all per-axis size lists, every cell", "why_tests_cant": "The code builds these through meshgrid and transposes whose index bookkeeping happens to agree on cubes; only a proof covers all shapes.", "anchors": ["reservoirflow/grids/regular_cartesian.py: __calc_cells_d_, __calc_cells_d, get_cells_d, get_cell_d, get_cells_A, get_cell_A, get_cells_V, get_cell_V"]}
{"id": "C14", "title": "Total volume is the product of the axis lengths", "statement": "get_Vt(boundary=True) equals the product of the three summed axis sizes and get_Vt(boundary=False) equals the product of the interior sums.", "quantifier": "all sizes, all per-axis size lists", "why_tests_cant": "Tests fix a handful of grid sizes; the claim is about every size.", "anchors": ["reservoirflow/grids/regular_cartesian.py: get_Vt, get_cells_V"]}
{"id": "C15", "title": "Cell centres lie in the middle of their cells", "statement": "get_cells_center(boundary=True) lists, in cell order, for each cell the sum of the preceding sizes plus half its own size along each axis, so centres increase along each axis and the distance of adjacent centres is the mean of the two sizes.", "quantifier": "all sizes, all per-axis size lists, every cell", "why_tests_cant": "Tests fix a handful of grid sizes; the claim is about every size.", "anchors": ["reservoirflow/grids/regular_cartesian.py: get_cells_center"]}
{"id": "C16", "title": "Mesh corners surround their own cells", "statement": "The corner list used to build the mesh gives each cell eight corners whose coordinates are the start and end of that cell's own interval along each axis, for uniform sizes, with and without boundaries.", "quantifier": "all sizes, every cell", "why_tests_cant": "Tests fix a handful of grid sizes; the claim is about every size.", "anchors": ["reservoirflow/grids/regular_cartesian.py: get_corners, get_pyvista_grid"]}
{"id": "C17", "title": "Setting a property of one cell changes only that cell", "statement": "set_props or set_prop with an id or coords changes the property at exactly that cell, and setting without an id sets every cell; get_prop afterwards returns what was set.", "quantifier": "all sizes, both unify settings, every cell, all values", "why_tests_cant": "The indexing used depends on the dimension and on unify.", "anchors": ["reservoirflow/grids/regular_cartesian.py: set_props, set_prop, set_cell_value, get_prop, get_cell_icoords"]}
{"id": "C18", "title": "A property query returns the most recently set value", "statement": "After any sequence of property settings and queries, get_cell_k, get_cell_G and is_isotropic answer from the values set last.", "quantifier": "all interleavings of settings and queries", "why_tests_cant": "Depends on the history of calls through a cache, not on a single call.", "anchors": ["reservoirflow/grids/regular_cartesian.py: get_cell_k, get_cell_G, is_isotropic, is_regular, set_props", "reservoirflow/utils/helpers.py: _lru_cache"]}
{"id": "C19", "title": "Caching is invisible for queries of fixed data", "statement": "For a query whose answer depends only on its arguments, the cached version returns the same answer as the uncached one after any sequence of calls, for every cache size, and never stores more than its size.", "quantifier": "all functions, all call sequences, all cache sizes", "why_tests_cant": "Quantifies over all call histories and eviction patterns.", "anchors": ["reservoirflow/utils/helpers.py: _lru_cache"]}
{"id": "C20", "title": "Geometric factors are symmetric, positive and equal the series formula", "statement": "The geometric factor between two adjacent cells does not depend on the order of the cells, is positive for positive permeability and sizes, and equals conversion constant divided by the sum of the two half-cell resistances, whether the grid is treated as homogeneous or not.", "quantifier": "all permeabilities, sizes, pairs of adjacent interior cells", "why_tests_cant": "An identity between two formulas over all real inputs.", "anchors": ["reservoirflow/grids/regular_cartesian.py: get_cell_G, get_cells_G, get_cells_G_diag_1"]}
{"id": "C21", "title": "The connection matrix links exactly the adjacent cells", "statement": "get_cells_G(boundary=False) is symmetric and has a non-zero entry exactly for pairs of adjacent interior cells.", "quantifier": "all sizes, all positive property values", "why_tests_cant": "Tests fix a handful of grid sizes; the claim is about every size. The existing tests compare with stored matrices only.", "anchors": ["reservoirflow/grids/regular_cartesian.py: get_cells_G, get_cells_G_diag_1, get_cells_G_diag_2, get_cells_G_diag_3"]}
{"id": "C22", "title": "Vectorised and cell-by-cell connections agree", "statement": "get_cells_trans(vectorize=True) and get_cells_trans(vectorize=False) give the same matrix, i.e. every matrix entry equals the factor returned by get_cell_trans for that pair of cells.", "quantifier": "all sizes, all positive property values", "why_tests_cant": "Tests fix a handful of grid sizes; the claim is about every size.", "anchors": ["reservoirflow/models/black_oil.py: get_cells_trans, get_cell_trans", "reservoirflow/grids/regular_cartesian.py: get_cells_G, get_cell_G"]}
{"id": "C23", "title": "Connection strength respects the weaker cell", "statement": "In any direction the connection of two cells lies between the connection two copies of the weaker cell and two copies of the stronger cell would have, it vanishes if either cell is impermeable (harmonic form), and it does not decrease when a permeability increases.", "quantifier": "all non-negative permeabilities and positive sizes", "why_tests_cant": "Inequalities over all reals.", "anchors": ["reservoirflow/grids/regular_cartesian.py: get_cells_G_diag_1, get_cell_G"]}
{"id": "C24", "title": "Compressibility classification", "statement": "After set_comp of a grid, fluid or model the type is 'incompressible' exactly for 0 and 'compressible' exactly for positive values; a negative value raises an error and leaves the object as it was.", "quantifier": "all values, all previous states", "why_tests_cant": "Claim about every prior state and value, including the failing ones.", "anchors": ["reservoirflow/grids/grid.py: set_comp", "reservoirflow/fluids/fluid.py: set_comp", "reservoirflow/models/model.py: set_comp", "reservoirflow/models/black_oil.py: __calc_comp"]}
{"id": "C25", "title": "Unit system changes are atomic and constants stay consistent", "statement": "set_units accepts exactly the known unit systems, replaces the unit labels and factors together, and an unknown name changes nothing; the fluid gravity term used by the simulator always equals density times the current unit system's constants.", "quantifier": "all sequences of set_units and set_rho calls", "why_tests_cant": "Depends on call order.", "anchors": ["reservoirflow/base.py: set_units, UNITS, FACTORS", "reservoirflow/fluids/single_phase.py: set_rho, set_props"]}
{"id": "C26", "title": "Well index is positive and falls with skin", "statement": "For positive sizes, permeabilities and radius with the equivalent radius above the wellbore radius, the well geometric factor is positive, strictly decreases with skin and increases with permeability; with equal permeabilities the 2D equivalent radius reduces to 0.14*sqrt(dx^2+dy^2).", "quantifier": "all positive real inputs", "why_tests_cant": "Real-analytic identity with logarithms and fourth roots.", "anchors": ["reservoirflow/models/black_oil.py: __calc_well_G, __calc_well_r_eq, set_well"]}
{"id": "C27", "title": "set_well is all-or-nothing and merges", "statement": "set_well on an interior cell updates exactly the given fields of exactly that cell's well and keeps the rest, on a non-interior cell is refused, and a refused or failing call leaves the model unchanged. The list of pressures reported for the well grows by the present pressure of its cell (the last one stored) if a bottom-hole pressure is given or the well had none, and not otherwise.", "quantifier": "all models, all sequences of set_well calls, all argument combinations", "why_tests_cant": "Sequences of calls with partial arguments.", "anchors": ["reservoirflow/models/black_oil.py: set_well", "reservoirflow/wells/single_cell.py: set_props"]}
{"id": "C28", "title": "All spellings of a boundary condition mean the same", "statement": "set_boundaries with any accepted spelling of a condition (pressure/press/p, rate/q, gradient/grad/g, any letter case) leads to the same equations and pressures.", "quantifier": "all grids, all boundary values, all accepted spellings, both assemblers", "why_tests_cant": "Combination of spelling with assembler and every grid.", "anchors": ["reservoirflow/models/black_oil.py: set_boundary, set_boundaries", "reservoirflow/solutions/numerical/fdm.py: __init_A, __init_d, get_matrices_vect, __calc_b_term"]}
{"id": "C29", "title": "A gradient condition injects trans * d * gradient in both assemblers", "statement": "For a gradient condition the flow entering the equations of the adjacent cell is the rate recorded for the boundary cell, with the symbolic and with the vectorised assembler.", "quantifier": "all grids, all face cells, all gradient values", "why_tests_cant": "All values.", "anchors": ["reservoirflow/models/black_oil.py: set_boundary", "reservoirflow/solutions/numerical/fdm.py: __calc_b_term, __init_d"]}
{"id": "C30", "title": "Setting all boundaries equals setting each boundary", "statement": "set_all_boundaries(cond, v) has the same effect on the simulation as set_boundaries with that condition for every boundary cell.", "quantifier": "all grids and conditions", "why_tests_cant": "All grids; effect only visible in the equations.", "anchors": ["reservoirflow/models/black_oil.py: set_all_boundaries, set_boundaries, set_boundary"]}
{"id": "C31", "title": "Models sharing a grid are independent", "statement": "Configuring or running one model does not change the initial pressures or rates of another model, even if both use the same grid object.", "quantifier": "all sequences of model creations, boundary settings and compilations", "why_tests_cant": "Depends on aliasing across call histories.", "anchors": ["reservoirflow/models/black_oil.py: __get_arrays, set_boundary, get_init_arrays", "reservoirflow/grids/regular_cartesian.py: get_zeros"]}
{"id": "C32", "title": "Symbolic and vectorised assembly give equivalent systems", "statement": "For every cell the equation assembled symbolically has the same solutions as the row assembled by the vectorised path, hence run(vectorize=True) and run(vectorize=False) give the same pressures.", "quantifier": "all grids, properties, boundary conditions, well constraints and previous pressures", "why_tests_cant": "Tests fix a handful of grid sizes; the claim is about every size.", "anchors": ["reservoirflow/solutions/numerical/fdm.py: get_cell_eq, get_matrices_symb, get_matrices_vect, __init_A, __init_d"]}
{"id": "C33", "title": "Threaded assembly gives the same matrix under every schedule", "statement": "With threading=True the assembled A and d equal those with threading=False whatever order or interleaving the worker threads run in.", "quantifier": "all schedules of all worker threads, all numbers of cells", "why_tests_cant": "Schedules cannot be enumerated by tests.", "anchors": ["reservoirflow/solutions/numerical/fdm.py: get_matrices_symb, __update_matrices_symb, get_cells_eq"]}
{"id": "C34", "title": "The assembled matrix is symmetric with the right row sums and signs", "statement": "For positive properties the vectorised matrix is symmetric, has non-negative off-diagonal entries and each row sums to minus (accumulation term + pressure-boundary terms + bottom-hole-pressure terms).", "quantifier": "all grids, properties, boundary conditions and wells", "why_tests_cant": "Tests fix a handful of grid sizes; the claim is about every size.", "anchors": ["reservoirflow/solutions/numerical/fdm.py: __init_A, get_matrices_vect"]}
{"id": "C35", "title": "The pressure system has exactly one solution when it should", "statement": "If the model is compressible, or at least one face has a pressure condition, or at least one well is pressure-constrained, then for positive properties the assembled system has exactly one solution, whatever the right-hand side.", "quantifier": "all grids, positive properties, boundary conditions and wells", "why_tests_cant": "Invertibility for all sizes.", "anchors": ["reservoirflow/solutions/numerical/fdm.py: get_matrices_vect, solve"]}
{"id": "C36", "title": "A closed incompressible model is under-determined", "statement": "If the model is incompressible with no pressure condition and no pressure-constrained well, the assembled matrix is singular, and the system has a solution only if the imposed rates sum to zero.", "quantifier": "all grids, properties and rates", "why_tests_cant": "All sizes.", "anchors": ["reservoirflow/solutions/numerical/fdm.py: __init_A, __init_d, solve"]}
{"id": "C37", "title": "No new extremes (maximum principle)", "statement": "Without rate sources, every new pressure lies between the smallest and the largest of the previous pressures (compressible only), the boundary pressures and the bottom-hole pressures.", "quantifier": "all grids, properties, boundary pressures and previous pressures", "why_tests_cant": "Inequality for all inputs and sizes.", "anchors": ["reservoirflow/solutions/numerical/fdm.py: solve, get_matrices_vect"]}
{"id": "C38", "title": "Equilibrium is preserved", "statement": "A reservoir at uniform pressure with all pressure conditions and bottom-hole pressures at the same value and no rates stays at that pressure after any number of steps.", "quantifier": "all grids, properties, any number of steps", "why_tests_cant": "Induction over steps.", "anchors": ["reservoirflow/solutions/numerical/fdm.py: solve, run"]}
{"id": "C39", "title": "More injection never lowers any pressure", "statement": "If some imposed rates, boundary pressures or previous pressures are increased and the rest kept, then no new pressure decreases.", "quantifier": "all grids, properties, pairs of conditions", "why_tests_cant": "Inverse positivity for all sizes.", "anchors": ["reservoirflow/solutions/numerical/fdm.py: solve"]}
{"id": "C40", "title": "Material balance closes at every step", "statement": "After each accepted step the sum of all recorded rates (wells and boundaries) equals the change of stored volume, i.e. zero for an incompressible model and sum of RHS*(p_new-p_old) for a compressible one, provided the system is solved exactly.", "quantifier": "all grids, properties, wells, face boundary conditions, steps", "why_tests_cant": "Holds for all configurations by cancellation of internal flow.", "anchors": ["reservoirflow/solutions/numerical/fdm.py: solve, __update_wells, __update_boundaries, check_MB"]}
{"id": "C41", "title": "Material balance closes over a whole run", "statement": "After any number of steps the total of the recorded rates over all steps equals the change of stored volume between the first and the last step.", "quantifier": "all runs of any length", "why_tests_cant": "Induction over steps.", "anchors": ["reservoirflow/solutions/numerical/fdm.py: run, check_MB"]}
{"id": "C42", "title": "Reported material balance errors are right", "statement": "When material balance closes, check_MB reports error 0 for an incompressible model, and incremental error 0 and cumulative error 0 for a compressible model.", "quantifier": "all histories", "why_tests_cant": "Depends on full history.", "anchors": ["reservoirflow/solutions/numerical/fdm.py: check_MB"]}
{"id": "C43", "title": "History is append-only", "statement": "solve and run never change the stored pressures and rates of earlier steps; after each of them pressures and rates have exactly tstep+1 rows, and solve(update=False) changes neither.", "quantifier": "all sequences of solve and run calls, including retries", "why_tests_cant": "All histories.", "anchors": ["reservoirflow/solutions/numerical/fdm.py: solve, run"]}
{"id": "C44", "title": "Step counters agree with the stored history", "statement": "After any sequence of calls, nsteps equals the number of stored pressure rows, ctime equals the number of solved steps times dt, and the per-step arrays (pressures, rates, As, ds, w_pressures) all have one entry per stored step.", "quantifier": "all sequences of solve and run calls, including retries", "why_tests_cant": "All histories.", "anchors": ["reservoirflow/solutions/numerical/fdm.py: solve, run, __update_wells", "reservoirflow/models/black_oil.py: set_well, __get_time_vector"]}
{"id": "C45", "title": "A well's bottom-hole pressure never falls below its limit", "statement": "After each accepted step every well with a pressure limit reports a bottom-hole pressure not below the limit, and a well that cannot deliver its target rate at the limit is produced at the limit.", "quantifier": "all well configurations, pressures and histories", "why_tests_cant": "All histories of constraint switches.", "anchors": ["reservoirflow/solutions/numerical/fdm.py: __update_wells, __calc_w_term"]}
{"id": "C46", "title": "Reported well rate and bottom-hole pressure are consistent", "statement": "After each accepted step each well's reported rate and bottom-hole pressure satisfy rate = -G/(mu*B)*(p - pwf) with the new cell pressure, and the reported rate is the one used in the solved equation.", "quantifier": "all well configurations and histories, including switches between constraints", "why_tests_cant": "All histories.", "anchors": ["reservoirflow/solutions/numerical/fdm.py: __update_wells, get_matrices_vect"]}
{"id": "C47", "title": "Constraint switching terminates", "statement": "The automatic re-solving after a well switches to its pressure limit stops after at most as many repetitions as there are wells.", "quantifier": "all numbers of wells, all pressures", "why_tests_cant": "Termination claim.", "anchors": ["reservoirflow/solutions/numerical/fdm.py: solve, __update_wells"]}
{"id": "C48", "title": "A zero bottom-hole pressure is a pressure like any other", "statement": "A well constrained at bottom-hole pressure 0 contributes -G/(mu*B)*(p-0) to its cell's equation in both assemblers, and a boundary pressure of 0 is accepted.", "quantifier": "all wells and boundary pressures including 0", "why_tests_cant": "Boundary value of a continuous family in combination with every grid.", "anchors": ["reservoirflow/solutions/numerical/fdm.py: get_matrices_vect, __init_A"]}
{"id": "C49", "title": "Gravity is balanced in a hydrostatic column", "statement": "For cells of different depth with pressures in hydrostatic balance, no boundaries and no active wells, the assembled equations are satisfied by the hydrostatic pressures, i.e. nothing flows.", "quantifier": "all depths, properties, 1D grids", "why_tests_cant": "All depth profiles.", "anchors": ["reservoirflow/solutions/numerical/fdm.py: __update_z, __calc_n_term, __calc_b_term"]}
{"id": "C50", "title": "Solutions compiled from one model are independent", "statement": "Running one compiled solution of a model does not change the results of another compiled solution of the same model.", "quantifier": "all orders of compile, run and set_solution", "why_tests_cant": "Shared mutable state across histories.", "anchors": ["reservoirflow/models/model.py: compile, set_solution", "reservoirflow/solutions/numerical/fdm.py: __update_wells, get_cell_eq"]}
{"id": "C51", "title": "The solution registry behaves like a dictionary of configurations", "statement": "After any sequence of compile and set_solution calls, solve and run belong to the solution compiled or selected last, set_solution(name) selects the solution most recently compiled under that name, unknown names and failed compilations raise an error and change nothing, and names are unique per (type, method, sparse).", "quantifier": "all sequences of compile and set_solution calls", "why_tests_cant": "All histories.", "anchors": ["reservoirflow/models/model.py: compile, set_solution, get_solutions", "reservoirflow/solutions/compiler.py: Compiler"]}
{"id": "C52", "title": "Solution type and method names resolve consistently", "statement": "Every documented spelling of a solution type or method, in any letter case, resolves to its own method and no spelling resolves to two; compile goes through exactly for a boolean sparse flag and resolved names of the methods that can be constructed.", "quantifier": "all strings in all letter cases", "why_tests_cant": "All strings.", "anchors": ["reservoirflow/solutions/compiler.py: STYPES, METHODS, __set_stype, __set_method"]}
{"id": "C53", "title": "Result tables line up cell, step, position and value", "statement": "In get_df(melt=True) each row's step, cell id, coordinates, time and value belong together, one row per (step, cell) pair; in the wide table, column names and columns belong together, and no two columns carry the same label, with or without units.", "quantifier": "all numbers of cells and steps, both boundary settings", "why_tests_cant": "Tests fix a handful of grid sizes; the claim is about every size.", "anchors": ["reservoirflow/models/black_oil.py: get_df, get_time, get_centers, __get_time_vector"]}
{"id": "C54", "title": "Scalers invert exactly", "statement": "For fitted scalers, inverse_transform(transform(v)) = v and transform(inverse_transform(w)) = w, fitted data map into the output range with minimum and maximum reaching its ends, order is preserved, and using an unfitted scaler raises an error.", "quantifier": "all data, all output ranges, all values", "why_tests_cant": "All real inputs.", "anchors": ["reservoirflow/scalers/minmax.py: fit, transform, inverse_transform, fit_transform", "reservoirflow/scalers/dummy.py"]}
{"id": "C55", "title": "Scaler settings apply to the requested quantities", "statement": "set_scalers changes the scalers of exactly the named quantities, 'all' changes all of them, and unknown names are refused without changes.", "quantifier": "all dictionaries of settings, all previous states", "why_tests_cant": "All sequences.", "anchors": ["reservoirflow/models/black_oil.py: set_scalers"]}
{"id": "C56", "title": "The analytical 1D solution honours its boundary values", "statement": "calc_solution returns, at the two ends of the domain, exactly the boundary values for every time and every number of series terms, and with clipping every value lies in [0,1], so rescaled pressures lie between the two boundary pressures.", "quantifier": "all times, positions, numbers of terms", "why_tests_cant": "All reals and all truncation orders.", "anchors": ["reservoirflow/solutions/analytical/d1p1.py: calc_solution, run"]}
{"id": "C57", "title": "The analytical run stores one pressure row per step", "statement": "After D1P1.run(nsteps) the pressures array has nsteps+1 rows, the row for step s holding the solution at time s*dt.", "quantifier": "all numbers of steps and cells", "why_tests_cant": "All sizes.", "anchors": ["reservoirflow/solutions/analytical/d1p1.py: run", "reservoirflow/models/black_oil.py: get_alpha, get_time"]}
{"id": "C58", "title": "Boundary conditions set after compiling take effect", "statement": "After set_boundaries the next solved step uses the new conditions, whether or not the model was compiled or run before.", "quantifier": "all sequences of set_boundaries, compile, solve", "why_tests_cant": "All histories.", "anchors": ["reservoirflow/models/black_oil.py: set_boundaries, set_boundary", "reservoirflow/solutions/numerical/fdm.py: __init_A, __calc_b_term, get_matrices_vect"]}
{"id": "C59", "title": "Well settings changed between steps take effect", "statement": "After set_well the next solved step uses the new rate or pressure, with both assemblers, for new and existing wells.", "quantifier": "all sequences of set_well and solve", "why_tests_cant": "All histories.", "anchors": ["reservoirflow/models/black_oil.py: set_well", "reservoirflow/solutions/numerical/fdm.py: get_cell_eq, get_matrices_vect"]}
{"id": "C60", "title": "Container helpers preserve content", "statement": "reformat keeps the elements (as a set for 'set', in order otherwise), intersection returns exactly the common points, isin tells exactly whether a point is in a list, and remove_diag keeps exactly the off-diagonal entries in row order; ispoints recognises exactly arrays of points and non-empty lists and tuples of points.", "quantifier": "all inputs", "why_tests_cant": "All inputs.", "anchors": ["reservoirflow/utils/helpers.py: reformat, intersection, isin, remove_diag"]}
{"id": "C61", "title": "Well objects and keyword wells are equivalent", "statement": "set_well(well=w) leads to the same simulation as set_well with the fields of w given as keyword arguments.", "quantifier": "all wells", "why_tests_cant": "All wells.", "anchors": ["reservoirflow/models/black_oil.py: set_well", "reservoirflow/wells/single_cell.py: SingleCell"]}
{"id": "C62", "title": "The analytical series solves the diffusion equation", "statement": "Cut off after any number of terms, the series the analytical solution computes satisfies dp/dt = alpha d2p/dx2 exactly at every time and position, and tends to the straight line between the boundary pressures for late times.", "quantifier": "all truncation orders, times, positions, boundary and initial values", "why_tests_cant": "Tests compare a few values with another solver; the equation must hold at every real point and for every number of terms.", "anchors": ["reservoirflow/solutions/analytical/d1p1.py: calc_solution, run"]}
{"id": "C63", "title": "Conversion factors match the unit labels", "statement": "In every unit system the transmissibility, volume and gravity factors make the code's formulas agree with the physical law when each quantity is given in the unit its label names, up to the rounding of the factors (one part in five thousand); derived labels (transmissibility, flow rate, compressibility) agree with the base labels.", "quantifier": "all unit systems and all values of permeability, area, viscosity, distance, pressure difference, volume, time and density", "why_tests_cant": "Tests compare printed numbers of one case per unit system with textbook values; whether the labels and factors agree is a statement about every value.", "anchors": ["reservoirflow/base.py: UNITS, FACTORS", "reservoirflow/fluids/single_phase.py: set_rho", "reservoirflow/models/black_oil.py: __calc_RHS"]}
{"id": "C64", "title": "Looking at the equations does not change a simulation", "statement": "Any number of solve(update=False) calls, with either assembler, before, between and after the steps of a simulation leave the stored pressures, rates, wells, bottom-hole pressures, matrices and step number exactly as without them, and the next step returns or raises the same.", "quantifier": "all models, all sequences of steps and dry solves with either assembler, including steps that raise", "why_tests_cant": "The assemblers cache terms, matrices and boundary data across calls; whether a cache is ever stale depends on the whole sequence of calls.", "anchors": ["reservoirflow/solutions/numerical/fdm.py: solve, get_matrices_vect, get_matrices_symb, get_cell_eq"]}
{"id": "C65", "title": "Runs can be split", "statement": "run(a + b) and run(a) followed by run(b) end in the same way with the same model and the same stored results, and the computing time of the parts adds up; run(n) is n calls of solve().", "quantifier": "all models and states, both assemblers, all numbers of steps, including runs that raise", "why_tests_cant": "It is a statement about every number of steps and every state in which a run can be interrupted.", "anchors": ["reservoirflow/solutions/numerical/fdm.py: run, solve"]}
{"id": "C66", "title": "Printing the arrays does not change the results", "statement": "solve and run with print_arrays=True store the same results as without it, whichever assembler is chosen; more generally the assembler may be changed from step to step without changing the results.", "quantifier": "all models, histories and sequences of vectorize and print_arrays flags", "why_tests_cant": "It compares two histories of arbitrary length with different internal caches for every model.", "anchors": ["reservoirflow/solutions/numerical/fdm.py: solve, run, __print_arrays"]}
{"id": "C67", "title": "A well-posed model can be simulated for any number of steps", "statement": "If the wells and boundary conditions of a model were accepted and its equations determine the pressures (initial pressures are known, and something holds the pressure level), then solve() and run(n) do not raise an exception, and run(n) stores n further steps.", "quantifier": "all grids, fluids, wells, boundary conditions, numbers of steps and preceding histories, both assemblers", "why_tests_cant": "A test shows that particular simulations finish; whether some accepted model makes a later step raise depends on all values of pressures and rates that can come up, and on how often wells change their control.", "anchors": ["reservoirflow/solutions/numerical/fdm.py: solve, run, get_matrices_vect, get_matrices_symb, __update_boundaries, __update_wells", "reservoirflow/models/black_oil.py: set_boundaries, set_well"]}
{"id": "C68", "title": "Small changes of the given pressures have small effects", "statement": "If two models differ only in initial pressures, boundary pressures and bottom-hole pressures of wells, none by more than d, then no pressure stored by run(n) differs by more than d, for every n: errors in the input are not amplified, whatever the time step.", "quantifier": "all grids, fluids, wells, boundary conditions, sizes of the change, time steps and numbers of steps, both assemblers", "why_tests_cant": "Stability is a statement about all perturbations and all times; a test perturbs one model once, and the wells may change their control at different steps in the two simulations.", "anchors": ["reservoirflow/solutions/numerical/fdm.py: solve, run, get_matrices_vect, get_matrices_symb, __update_wells", "reservoirflow/models/black_oil.py: set_boundaries, set_well"]}
{"id": "C69", "title": "The initial state is forgotten and simulations settle down", "statement": "If a pressure is imposed somewhere (a pressure boundary or a pressure-controlled well), then simulations of the same model from different initial pressures approach each other geometrically, and the pressures of each simulation converge: the change after step j is bounded by a constant times r^j with r < 1 depending only on the model.", "quantifier": "all grids, fluids, wells, boundary conditions, initial pressures, time steps and numbers of steps, both assemblers", "why_tests_cant": "It is a statement about the limit of infinitely many steps for every starting state.", "anchors": ["reservoirflow/solutions/numerical/fdm.py: solve, run, get_matrices_vect, get_matrices_symb, __update_wells", "reservoirflow/models/black_oil.py: set_boundaries, set_well"]}
{"id": "C70", "title": "Scaled tables are the tables, scaled", "statement": "After set_scalers, get_df(scale=True) shows the same table as get_df(scale=False) with every number sent through the scaler of its quantity; with MinMax scalers times, coordinates and cell pressures lie in the requested output range, the extremes map to its ends, and the inverse formula gives the original back. Labels with units say whether a column is scaled.", "quantifier": "all models, numbers of steps and cells, stored pressures (NaN included), scaler settings, requested columns and layouts", "why_tests_cant": "The fitted range depends on all stored values of all cells and steps; rare patterns of NaN, constant or zero columns change the result and no finite set of tables covers them.", "anchors": ["reservoirflow/models/black_oil.py: get_df, set_scalers, update_scalers, get_time, get_centers", "reservoirflow/scalers/minmax.py: MinMax.fit, MinMax.transform, MinMax.inverse_transform"]}
{"id": "C71", "title": "Superposition", "statement": "While wells keep their constraints, pressures are linear in the data: if the initial pressures, boundary values, well rates and bottom-hole pressures of one model are the weighted sums of those of several models of the same layout, then so are its pressures in every cell after every step (weights adding up to 1, or any weights without gravity).", "quantifier": "all grids, fluids, layouts of wells and boundary conditions, finite families of models, weights, and numbers of steps, both assemblers", "why_tests_cant": "It relates arbitrarily many simulations with arbitrary weights over every number of steps; tests can only compare a few.", "anchors": ["reservoirflow/solutions/numerical/fdm.py: solve, run, get_matrices_vect, get_matrices_symb, __update_wells", "reservoirflow/models/black_oil.py: set_boundaries, set_well"]}
{"id": "C72", "title": "Approximate linear solvers", "statement": "If the linear solver leaves residuals of at most eps in the equations of the cells, the recorded rates of every step balance the change of the stored volume up to eps per cell, and two runs of the same model with solvers of accuracy eps and eps' stay within C (eps + eps') of each other in every cell after every number of steps, with a constant C that depends only on the model where a pressure is imposed, and within j (eps + eps') / rho after j steps where only storage (at least rho per cell) holds the pressures.", "quantifier": "all grids, fluids, models, numbers of steps, solvers and tolerances (also relative to the right-hand side), both assemblers", "why_tests_cant": "The error bound ranges over every way a solver may miss its equations in every step of arbitrarily long runs; tests see one solver's rounding on a few systems.", "anchors": ["reservoirflow/solutions/numerical/fdm.py: solve (l.739-760), run, check_MB", "reservoirflow/solutions/numerical/solvers.py: get_isolver"]}
{"id": "C73", "title": "The chosen linear solver is the one that is used", "statement": "The solver named by isolver (or the direct solver for None) solves every system of a call of solve or run with sparse arrays; with dense arrays the argument changes nothing; an unknown name is refused without changing pressures, rates or wells.", "quantifier": "all models, states, solver names, behaviours of the scipy solvers, numbers of steps, both assemblers", "why_tests_cant": "Whether a step is repeated depends on the state reached by the history, and the results of two solvers agree to within a tolerance, so a test cannot see which one was used.", "anchors": ["reservoirflow/solutions/numerical/fdm.py: solve (l.690-775), run (l.784-844)", "reservoirflow/solutions/numerical/solvers.py: get_isolver"]}
{"id": "C74", "title": "All names of a property show the same values", "statement": "After any sequence of set_props, set_prop and allow_synonyms calls on a grid, also calls that raise, get_prop(name), the attribute (grid.kx, grid.phi, ...), the entry of grid.k and the long name (grid.permeability_x, ...) give the same array; set_props with several properties does the same as one call per property.", "quantifier": "all grids, values, cells and histories of calls, including failing ones", "why_tests_cant": "The names are references to arrays that are sometimes replaced and sometimes assigned into, so that whether they still agree depends on the whole history of calls.", "anchors": ["reservoirflow/grids/regular_cartesian.py: set_props (l.2260-2339), set_prop (l.2362-2427), get_prop, allow_synonyms (l.3016-3046)", "reservoirflow/grids/grid.py: set_comp"]}
{"id": "C75", "title": "A model follows changes of its data", "statement": "If viscosity, volume factor, density, permeabilities, depths, porosity, compressibilities or the time step are changed after a model was created, the model's later steps are those of a model created from the changed data.", "quantifier": "all models, all sequences of changes mixed with set_boundaries, set_well, compile and steps of either assembler", "why_tests_cant": "Which of the values is read again, remembered or cached depends on the order of all earlier calls.", "anchors": ["reservoirflow/models/black_oil.py: __init__ (l.84-103), __calc_RHS, get_cell_trans", "reservoirflow/fluids/single_phase.py: set_mu, set_B, set_rho", "reservoirflow/models/model.py: set_comp", "reservoirflow/solutions/numerical/fdm.py: __init_A, __init_d, get_matrices_vect"]}
{"id": "C76", "title": "Finite differences converge to the exact solution of the one-dimensional problem", "statement": "For a homogeneous row of equal cells at one initial pressure with pressures given at both ends, the pressures stored by the numerical solution tend, as cells and time steps become small, to the exact solution of the diffusion equation, which is also the limit of the series of the analytical solution. At late times they settle on the straight line between the end pressures taken on the end faces. (The analytical solution of the same model takes them in the middles of the boundary cells, so on a given grid the two differ.)", "quantifier": "all numbers of cells, sizes, diffusivities, pressures, places and times after the start, and all histories of calls", "why_tests_cant": "A limit statement: tests see finitely many grids and compare with a tolerance.", "anchors": ["reservoirflow/solutions/numerical/fdm.py: solve, run, __calc_b_term", "reservoirflow/models/black_oil.py: get_alpha (l.635-646), get_domain (l.860-863)", "reservoirflow/solutions/analytical/d1p1.py: calc_solution (l.27-85)"]}
{"id": "C77", "title": "A grid classifies itself correctly", "statement": "grid.is_homogeneous, is_isotropic and is_regular are true exactly if porosity, every permeability that is set, and the three cell sizes, respectively, are constant over the interior cells now; is_heterogeneous, is_anisotropic and is_irregular are their negations. (False once a property is set after the flag was read: each flag is remembered, and the two flags of a pair can then contradict each other. Isotropic compares cells, not directions, and boundary cells do not count.)", "quantifier": "all grids, all property values, all histories of set_prop and flag reads over any number of grid objects", "why_tests_cant": "Each flag has a class-level cache with one entry, so an answer depends on which grids were asked what, and in which order, since the last change.", "anchors": ["reservoirflow/grids/regular_cartesian.py: is_homogeneous, is_heterogeneous, is_isotropic, is_anisotropic, is_regular, is_irregular, set_prop", "reservoirflow/utils/helpers.py: _lru_cache"]}
{"id": "C78", "title": "Similar reservoirs have similar histories", "statement": "If a second reservoir is the first one laid out differently (mirrored along an axis, axes exchanged) with permeabilities, face areas, cell lengths, storage and gravity heads multiplied by constants, and its initial pressures, boundary conditions and wells are transformed accordingly (pressures p to alpha*p+beta, rates multiplied by alpha times the factor of the conductances), then model.run gives for it, at every step, the transformed pressures, rates and well states. In particular: mirror images have mirrored solutions, x and y are treated alike, the pressure datum does not matter, doubling all pressures and rates doubles the solution, and a reservoir T times as thick produces T times as much at equal pressures. (False in three dimensions with the vectorised assembler, whose matrix links cells that do not touch.)", "quantifier": "all layouts, data, scale factors, boundary conditions, wells, both assemblers, any number of steps", "why_tests_cant": "Symmetry and similarity relate the outcomes of two simulations for every geometry, factor and step; numbering of cells, boundary lists and slices of the matrix are different in the two runs.", "anchors": ["reservoirflow/models/black_oil.py: set_boundaries, set_well, get_cell_trans, get_cells_trans", "reservoirflow/solutions/numerical/fdm.py: get_matrices_symb, get_matrices_vect, __update_wells, __update_boundaries, solve, run", "reservoirflow/grids/regular_cartesian.py: get_cell_neighbors, get_cells_G_diag_1"]}
{"id": "C79", "title": "Reciprocity of interference", "statement": "Compare three runs of the same reservoir from the same initial pressures: one as it is, one with the rate of well A changed, one with the rate of well B changed by the same amount. At every step, the change of pressure at B in the second run is the change of pressure at A in the third. In the same way, what a change of a boundary pressure does to the pressure at a well is what a change of the well's rate does to the inflow over that boundary; and for any two sets of changes of rates, bottom-hole pressures and boundary values, the first set weighted with the pressure changes of the second is the second weighted with those of the first. (False once a well reaches its pressure limit.)", "quantifier": "all grids, fluids, boundary conditions, wells and their targets, any sizes of changes, both assemblers, every step of runs of any length", "why_tests_cant": "Relates three simulations at every step for every geometry and every pair of wells; rests on the symmetry of the matrices of all steps together.", "anchors": ["reservoirflow/models/black_oil.py: set_well, set_boundaries, get_cells_trans", "reservoirflow/solutions/numerical/fdm.py: get_matrices_vect, get_matrices_symb, solve, run"]}
{"id": "C80", "title": "Part of a reservoir stands for all of it", "statement": "A reservoir made of layers that do not differ (same sizes in the layer, same permeability, porosity, conditions and wells; the layers may have different thickness, then rates and well indices go with the thickness) has in every layer the pressures of a one-layer reservoir, at every step. A reservoir that is its own mirror image has in both halves the pressures of its half, simulated with a closed face at the plane of symmetry. Inflows over boundaries under a pressure condition are those of the smaller reservoir, times the thickness. (False once a well leaves its limit.)", "quantifier": "all grids with any number of layers, or any even number of cells, along any axis; all sizes, rock properties, conditions, wells, both assemblers, every step of runs of any length", "why_tests_cant": "Compares simulations on two different grids for every number and thickness of layers and every step.", "anchors": ["reservoirflow/grids/regular_cartesian.py: get_cells_G, get_cell_neighbors", "reservoirflow/models/black_oil.py: get_cells_trans, set_well, set_boundaries", "reservoirflow/solutions/numerical/fdm.py: get_matrices_vect, get_matrices_symb, solve, run"]}
{"id": "C81", "title": "The order of set-up calls does not matter", "statement": "Two scripts that make the same set_boundaries and set_well calls, with calls about different wells and about the boundaries interleaved differently and dictionaries listing their entries in another order, either both go through or both raise an exception; the models they leave record the same pressures and rates for every cell and report the same bottom-hole pressures for every well, at every step. (False once a well leaves its pressure limit.)", "quantifier": "all scripts of any length and all rearrangements of them that keep the order of the calls about each well and about the boundaries; all grids, both assemblers, every step of runs of any length", "why_tests_cant": "The number of rearrangements grows factorially and the claim concerns every later step of every run.", "anchors": ["reservoirflow/models/black_oil.py: set_well, set_boundaries, set_boundary", "reservoirflow/solutions/numerical/fdm.py: __update_wells, __update_boundaries, solve, run"]}
{"id": "C82", "title": "A picture shows every cell's own value in its own place", "statement": "show_model and save_gif draw every shown cell exactly once, as the box that the cell sizes cut out, and colour it in the frame of step t with the pressure (or rate) stored for that cell at step t; an animation has one frame per step, and the text beside it gives that step's number, day, average, minimum and maximum; the colours range from the smallest to the largest number of all steps. Labels of the grid stand at the centre of the cell they describe and are true of it; a well is drawn in its cell; the slider shows any step, and the picture that opens shows the last one.", "quantifier": "all grids, cell sizes, boundary settings, spellings of the property, labels, opacities, well cells, histories of any length and slider positions", "why_tests_cant": "The order in which values reach the mesh must agree with the order of the mesh cells for every grid shape; a test that looks at one picture cannot see a permutation that needs another shape.", "anchors": ["reservoirflow/utils/pyvista.py: show_model, save_gif, get_model_values, get_limits_fmt, get_annotations, add_grid_labels, add_wells", "reservoirflow/grids/regular_cartesian.py: get_pyvista_grid, get_corners, get_cells_icoords"]}
{"id": "C83", "title": "Fluid and well objects show what was set last", "statement": "After the constructor and any sequence of set_... calls, set_props, set_units and allow_synonyms on a fluid or a well, also calls that raise, every property reads as the last value given for it (density and compressibility of a fluid read 0 if never given); set_props with several properties does the same as one setter per property; after allow_synonyms the long names read and set the same as the short names; a fluid's comp_type and gravity term follow the values they are derived from; report() lists every attribute once with the value it shows.", "quantifier": "all arguments of the constructor (given or not), all sequences of calls with any numbers of arguments, all values", "why_tests_cant": "Setters can be called in any order and number, some raise half-way, and an attribute that was derived or copied earlier goes stale only in particular orders; a test tries a few orders.", "anchors": ["reservoirflow/fluids/single_phase.py: SinglePhase.__init__, set_props, set_mu, set_B, set_rho, allow_synonyms", "reservoirflow/fluids/fluid.py: set_comp", "reservoirflow/wells/single_cell.py: SingleCell.__init__, set_props, set_cell_id, set_q, set_s, set_r, set_constrain, allow_synonyms", "reservoirflow/base.py: Base.report, Base.set_units"]}
{"id": "C84", "title": "Well objects can be placed, shared and changed", "statement": "A well object placed with model.set_well(well=...) is the model's well: the model starts with the object's settings, the object shows the well's rate and bottom-hole pressure after every step, a setter of the object changes the model's wells that use it, and results computed afterwards use the new setting. The same object can be placed in several cells or models, and every well gets the well index of its own cell. What is done to one model does not change another.", "quantifier": "all sequences of calls on any number of objects and models: new objects, setters, set_well with an object or with keywords, set_boundaries, compile, solve; all grids, fluids and solvers", "why_tests_cant": "The model keeps a reference to the object's own attribute dictionary, so effects pass between objects, cells and models in any order of calls; a test with one object in one model never sees the sharing.", "anchors": ["reservoirflow/models/black_oil.py: BlackOil.set_well", "reservoirflow/wells/single_cell.py: SingleCell.set_q, set_s, set_r, set_constrain", "reservoirflow/solutions/numerical/fdm.py: FDM.__update_wells, solve"]}
{"id": "C85", "title": "Stored tables show what was given", "statement": "After any sequence of set_boundaries and set_well calls, compile() stores as step 0 the initial pressure pi and the rate 0 for every cell of the reservoir. After any number of steps, every stored row has, for a boundary, the pressure imposed on it and NaN if none is imposed, and the imposed rate or the flow that belongs to the imposed gradient; cells without wells have the rate 0.", "quantifier": "all grids, all initial pressures, all sequences of successful set-up calls with any spelling of the conditions, all numbers of steps with both assemblers, all stored rows", "why_tests_cant": "The rows are copied from step to step and partly overwritten, and conditions may be given several times; a test looks at a few rows of one set-up.", "anchors": ["reservoirflow/models/black_oil.py: BlackOil.__init__, set_boundary, set_boundaries, __set_pressure, __set_rate", "reservoirflow/solutions/numerical/fdm.py: FDM.__init__, solve"]}
{"id": "C86", "title": "Pressures keep the direction in which they move", "statement": "During a run with constant boundary conditions and wells, once the pressures of all cells have fallen (risen) in one step they fall (rise) in every later step, also while wells go over to their bottom-hole pressure limits. A reservoir that starts at one pressure and is only produced from, by boundaries and wells, falls in every cell at every step; one that is only fed rises; an incompressible one is steady from the first step on. While pressures fall no producer's rate grows, and while they rise no producer's rate shrinks.", "quantifier": "all grids, rock and fluid data, all boundary conditions and wells, all numbers of steps, both assemblers, all exact linear solvers", "why_tests_cant": "Monotone behaviour in time is a statement about every cell and every step of every run; a test sees some curves fall.", "anchors": ["reservoirflow/solutions/numerical/fdm.py: FDM.solve, FDM.run, get_matrices_symb, get_matrices_vect", "reservoirflow/models/black_oil.py: set_well, set_boundaries"]}
{"id": "C87", "title": "Pseudo-steady state", "statement": "In a compressible reservoir where only rates are given (no boundary pressures, wells at their target rates), the capacity-weighted mean pressure changes in every step by the total of the given rates divided by the total capacity, and the pressure change of every single cell tends to this common value, geometrically with a ratio below 1 that depends only on the reservoir and not on the rates, the wells, the initial pressure or the number of steps.", "quantifier": "all grids, rock and fluid data of compressible models, all rate conditions and wells, all histories of solve and run calls of any length, both assemblers, all exact linear solvers", "why_tests_cant": "A limit with a rate of convergence common to all set-ups cannot be observed in finitely many runs.", "anchors": ["reservoirflow/solutions/numerical/fdm.py: FDM.solve, FDM.run, get_matrices_symb, get_matrices_vect", "reservoirflow/models/black_oil.py: __calc_RHS, set_well, set_boundaries"]}
{"id": "C88", "title": "Darcy's law", "statement": "A row of incompressible cells along x with pressures given at both ends and no wells carries, from the first completed step on, the flow of Darcy's law: the difference between the heads at the ends (pressure less weight of fluid) divided by the sum of the resistances of the cells in series, recorded as entering at the left end and leaving at the right one; every cell has the head that the resistance up to its centre implies. For equal cells the flow is beta k A (head difference) / (mu B L).", "quantifier": "all numbers of cells, all lengths and permeabilities, all fluids, depths and end pressures, all histories of solve and run calls, both assemblers, all exact linear solvers", "why_tests_cant": "A closed form for every number of cells and all lengths and permeabilities; tests compare with a handful of rows.", "anchors": ["reservoirflow/solutions/numerical/fdm.py: FDM.solve, FDM.run, __calc_b_term, __calc_n_term", "reservoirflow/models/black_oil.py: get_cell_trans, get_cells_trans", "reservoirflow/grids/regular_cartesian.py: get_cell_G"]}
{"id": "C89", "title": "Time step and the continuous equations", "statement": "For a compressible reservoir the grid, the wells and the boundary conditions determine exactly one continuous evolution of the cell pressures in which at every time every cell stores what flows into it. The pressures of a run with time step dt differ from it at time t by at most a constant times t times dt, the constant not depending on dt, and so do the recorded rates of wells; as dt goes to zero, the run's pressures at any time go to the evolution's.", "quantifier": "all compressible grids, wells and boundary conditions, all time steps (none is too large), all histories of solve and run calls, all exact linear solvers", "why_tests_cant": "A limit over all time steps and a bound with one constant for all of them; a test compares a few step sizes.", "anchors": ["reservoirflow/solutions/numerical/fdm.py: FDM.solve, FDM.run, __calc_a_term", "reservoirflow/models/black_oil.py: BlackOil.__calc_RHS, get_cell_trans"]}
{"id": "C90", "title": "What callers write into answers", "statement": "Whatever a caller writes into arrays obtained from get_cells_d, get_cells_A, get_cells_V, get_ones, get_zeros, get_cells_id or get_prop, later answers of any grid are computed from the sizes that grid was made with and the properties set last through set_prop.", "quantifier": "all histories of creating grids, setting properties for all cells or one cell, asking queries and writing into any earlier answer, in any order, for any number of grids", "why_tests_cant": "Answers share memory with the grid, with caches of the class and with later answers; which write is visible where depends on the whole history of calls and evictions.", "anchors": ["reservoirflow/grids/regular_cartesian.py: get_cells_d, get_cells_A, get_cells_V, get_ones, get_zeros, get_cells_id, set_prop, get_prop, cells_id", "reservoirflow/utils/helpers.py: _lru_cache"]}
{"id": "C91", "title": "Interrupted calls", "statement": "Whatever statement of solve() or run() an interruption (Ctrl-C, a signal handler, an exception of a library) hits: nothing stored by earlier steps is lost or changed, the tables have one row per counted step, and calling solve() again (or run() with the steps that are left) gives the pressures, rates and bottom-hole pressures of the call without interruption.", "quantifier": "all simulations set up through the API, all histories of calls, all statements of solve and run at which the interruption can hit, any number of interruptions, either assembler", "why_tests_cant": "A test hits one statement of one call; the claim is about every statement of every call, repeated steps included, and about all calls that follow.", "anchors": ["reservoirflow/solutions/numerical/fdm.py: FDM.solve, FDM.run, get_matrices_vect, get_matrices_symb, __update_boundaries, __update_wells, check_MB"]}
{"id": "C92", "title": "Simulations in another system of units", "statement": "Describing one reservoir, its fluid, wells, boundary conditions and initial state in two of the unit systems field, metric and lab, with every quantity converted according to the labels of the units table, gives the same physical history: the same pressures, rates and well states at every step. The well index the code computes is the same physical quantity, and is Peaceman's index for a well radius in the labelled unit of length. Since the tables are rounded: the two simulations differ by no more than the rounding of the tables times what changes in the reservoir.", "quantifier": "all pairs of unit systems, all grids, rocks, fluids, boundary conditions, wells, time steps, numbers of steps, either assembler", "why_tests_cant": "A test converts one case; the claim is about all data and steps, and a wrong factor in one table hides behind rounding in any single comparison.", "anchors": ["reservoirflow/base.py: UNITS, FACTORS, set_units", "reservoirflow/models/black_oil.py: BlackOil.__calc_well_G, __calc_well_r_eq, __calc_RHS", "reservoirflow/fluids/single_phase.py: SinglePhase.set_rho", "reservoirflow/grids/regular_cartesian.py: get_cell_G", "reservoirflow/solutions/numerical/fdm.py: FDM.solve, FDM.run"]}
{"id": "C93", "title": "Small errors of the data", "statement": "Small relative errors in permeability, porosity, cell sizes, depth differences, viscosity, formation volume factor, compressibility, density, time step, conversion factors and well indices change the computed pressures of all steps of a run by at most a constant times that error times the spread of pressures, where the constant depends on the reservoir but neither on the error nor, if some pressure is held, on the number of steps.", "quantifier": "all grids, rocks, fluids, boundary conditions, wells, pairs of data sets within a relative error of at most 1/32 of each other, numbers of steps, either assembler (outside 3-D grids and inclined reservoirs for the vectorised one)", "why_tests_cant": "A test perturbs one case by one amount; the bound has to hold for every simultaneous perturbation of all data, with a constant that does not grow with the run.", "anchors": ["reservoirflow/grids/regular_cartesian.py: get_cell_G, get_cells_G, is_homogeneous, is_isotropic", "reservoirflow/models/black_oil.py: BlackOil.get_cell_trans, __calc_RHS, set_well, set_boundaries", "reservoirflow/solutions/numerical/fdm.py: FDM.solve, FDM.run"]}
{"id": "C94", "title": "Better rock never lowers the flow", "statement": "An incompressible reservoir is held at one head (pressure less weight of fluid) at some boundary cells and wells and at a lower head at others; nothing else is imposed. Raising permeabilities anywhere, lowering viscosity or formation volume factor, enlarging well factors, or opening further boundary cells or wells at one of the two heads never lowers the flow recorded as entering at the higher head.", "quantifier": "all grids, cell sizes, depths, pairs of rock and fluid data of which the second is nowhere worse, sets of boundary conditions and wells between two heads, exact linear solvers, histories of calls, completed steps, either assembler (outside 3-D grids and inclined reservoirs for the vectorised one)", "why_tests_cant": "A test compares one pair of reservoirs; pressures go up in some cells and down in others when rock gets better, and the total has to obey for every simultaneous change of all cells.", "anchors": ["reservoirflow/grids/regular_cartesian.py: get_cell_G, get_cells_G, is_isotropic", "reservoirflow/models/black_oil.py: BlackOil.get_cell_trans, get_cells_trans, set_boundaries, set_well", "reservoirflow/solutions/numerical/fdm.py: FDM.solve, FDM.run"]}
{"id": "C95", "title": "Heads even out", "statement": "A compressible reservoir is closed, or all its pressure conditions and wells hold it at one head (pressure less weight of fluid). Then the sum over the cells of pore volume times any convex function of the recorded head never grows from one step to a later one (if something is held at a head, any convex function least at that head): mean square and mean distance from the head outside only shrink, whatever the rock, the steps and the calls in between.", "quantifier": "all grids, cell sizes, depths, rock and fluid data, closed or held at one head by any set of boundary cells and wells, convex functions, exact linear solvers, histories of calls, pairs of completed steps, either assembler (the vectorised one without gravity between cells)", "why_tests_cant": "A test follows a few steps of one reservoir and one measure of distance; that no measure ever grows, for any rock and any number of steps, is a statement about all of them.", "anchors": ["reservoirflow/solutions/numerical/fdm.py: FDM.solve, FDM.run, get_cell_eq, get_matrices_vect, get_matrices_symb", "reservoirflow/models/black_oil.py: BlackOil.__calc_RHS, get_cells_trans, set_boundaries, set_well"]}
{"id": "C96", "title": "Volumes and centres measured on the mesh", "statement": "get_cells_V, get_Vt and get_cells_center give the same with pyvista=True, where the mesh of the grid is built and measured, as without: the same volume and centre for every cell in the same order, the same total volume, with boundary cells and without.", "quantifier": "all grids, numbers of dimensions, positive cell sizes given as numbers or per layer, boundary flags", "why_tests_cant": "A test measures a few meshes; that eight corner points per cell, repeated, tiled and transposed axis by axis, surround every cell of every grid so that the measured boxes are the cells must hold for all shapes and sizes.", "anchors": ["reservoirflow/grids/regular_cartesian.py: get_cells_V, get_Vt, get_cells_center, get_pyvista_grid, get_corners"]}
{"id": "C97", "title": "A shut-in well and a closed face change nothing", "statement": "A well given rate 0 and a boundary given rate or gradient 0 might as well not have been set: leaving these calls and entries out of the script gives a script that also goes through, and the runs record the same pressures and rates for every cell, boundary cells included, and report the same bottom-hole pressures for the other wells, at every step. For the shut-in well itself the reported bottom-hole pressure is the pressure of its cell. (False when the pressure limit of the shut-in well is above the pressure in its cell: then it injects.)", "quantifier": "all scripts with at most one set_boundaries call, any number of shut-in wells and closed faces, all grids, both assemblers, every step of runs of any length", "why_tests_cant": "A test compares a few scripts; that an idle well or condition leaves no trace in the equations, in the tables and in the limits of other wells must hold for all positions, all companions and all steps.", "anchors": ["reservoirflow/models/black_oil.py: set_well, set_boundaries, set_boundary", "reservoirflow/solutions/numerical/fdm.py: __update_wells, __update_boundaries, solve, run"]}
{"id": "C98", "title": "Only the net rate into a cell matters", "statement": "A rate may enter or leave a cell through a well, over any of the boundary faces of the cell, or divided between them: as long as the sum is the same for every cell, the pressures of all cells are the same at every step, and so are the flows recorded for the pressure boundaries and for the wells held at a pressure.", "quantifier": "all grids, all pairs of models with the same pressure conditions, wells held at a pressure and initial pressures and the same net rate into every cell, both assemblers, every step of runs of any length in which wells meet their targets", "why_tests_cant": "There are infinitely many ways to divide the rates, on every grid; a test compares two.", "anchors": ["reservoirflow/models/black_oil.py: set_well, set_boundaries", "reservoirflow/solutions/numerical/fdm.py: get_cell_eq, get_matrices_symb, get_matrices_vect, solve, run"]}
{"id": "C99", "title": "Rate control and pressure control are equivalent", "statement": "When a well is produced at a rate and the bottom-hole pressure reported for it is then prescribed instead of the rate, the same pressures result everywhere, and the well delivers the rate that was prescribed before. This holds for one step, and for any number of steps with an incompressible fluid. (False for several steps with a compressible fluid, where the bottom-hole pressure changes from step to step.)", "quantifier": "all grids, any number of wells exchanged at the same time, both assemblers, one step or, with an incompressible fluid, every step of runs of any length", "why_tests_cant": "A test inverts one well on one grid; that the reported pressure, the well index in the matrix and the recorded rate fit together must hold for all wells, companions and grids.", "anchors": ["reservoirflow/models/black_oil.py: set_well", "reservoirflow/solutions/numerical/fdm.py: __update_wells, __calc_w_term, solve, run"]}
{"id": "C100", "title": "Every cause is felt everywhere in the first step", "statement": "The time steps are implicit: when one boundary pressure, boundary rate, well rate, well pressure or initial pressure is raised and nothing is lowered, the pressure of every cell, however far away, is strictly higher after the first step and at every later step.", "quantifier": "all grids (connected by positive transmissibilities), all pairs of ordered models that differ in at least one effective value, both assemblers, every step of runs of any length, every cell; wells may go to their pressure limits", "why_tests_cant": "Strict positivity of all entries of the inverse of the matrix, for every grid size and every history of wells going to their limits; a test looks at one cell of one grid.", "anchors": ["reservoirflow/solutions/numerical/fdm.py: get_matrices_vect, get_matrices_symb, solve, run", "reservoirflow/models/black_oil.py: set_well, set_boundaries"]}
{"id": "C101", "title": "What one place gains, the others lose", "statement": "When a rate or a pressure is raised somewhere and nothing is lowered, then at every step strictly less flows in at every boundary with an unchanged given pressure and through every unchanged well held at a pressure, and no unchanged well has a higher rate. At a place whose given pressure was raised (by the largest amount) no less flows in than before. (False for a raised target rate of a well with a limit: it may produce more later.)", "quantifier": "all grids, all pairs of ordered models that differ in at least one effective value, both assemblers, every step of runs of any length, every boundary and well", "why_tests_cant": "The sign of every interference coefficient, at every step and through every change of wells to their limits, on every grid; a test looks at one pair of wells.", "anchors": ["reservoirflow/solutions/numerical/fdm.py: __update_wells, __update_boundaries, solve, run", "reservoirflow/models/black_oil.py: set_well, set_boundaries"]}
{"id": "C102", "title": "In an inclined reservoir heads stay between the given heads, and a fluid at rest stays at rest", "statement": "Call pressure less the weight of the fluid above (gravity times depth) the head. Without imposed rates, at every step the heads of all cells lie between the lowest and the highest of the heads of the given boundary pressures and bottom-hole pressures and, of a compressible fluid, of the earlier cell pressures, whatever the depths of cells and boundaries. At a boundary or well with the highest of these heads fluid is never produced, at one with the lowest never injected. If all given heads are equal, the pressures are hydrostatic and every recorded rate is zero. (False with the vectorised assembler when cells are at different depths.)", "quantifier": "all grids, depths, fluids, permeabilities, any sequence of solve and run calls, every cell, boundary and well, every step", "why_tests_cant": "An inequality for every cell of every inclined grid, by a maximum principle on the network and induction over the steps; the state at rest is only one case.", "anchors": ["reservoirflow/solutions/numerical/fdm.py: solve, run, get_matrices_symb, get_matrices_vect, __update_boundaries, __update_wells", "reservoirflow/models/black_oil.py: set_boundaries, set_well"]}
