# Formal model of reservoirflow — design

Source: `/repo` (hiesabx/reservoirflow, pinned commit). Model and proofs: `lean/Verif/`.
Properties: `properties.jsonl`. Status per property: `MANIFEST.json`. Wrong-program tests: `seeded/LOG.jsonl`.

## 1. Layout

* `Verif/<Area>/Model.lean` — the code, function by function, each definition citing file and lines.
* `Verif/<Area>/Spec.lean` — a small specification written without the model's helpers.
* `Verif/<Area>/Lemmas*.lean` — helper lemmas.
* `Verif/<Area>/Props.lean` — the property theorems (`C01_…`, `C02_…`), each followed by a concrete instance.

Areas: `Grid` (shape, numbering, interior/boundary, neighbours), `Geom` (sizes, volumes, centres, corners),
`Props` (cell properties), `Trans` (geometric factors, transmissibility), `Cache` (lru_cache, aliasing),
`Fdm` (assembly, solution step, wells, boundaries, material balance, history), `Linalg` (M-matrix facts),
`Registry` (compile / set_solution / names), `Scaler`, `Units`, `Wellbore`, `Analytic`, `Table`, `Helpers`.

## 2. Trusted base

* Lean 4.33.0 kernel. Theorems depend at most on `propext`, `Classical.choice`, `Quot.sound`.
  No own axioms, no `sorry`, no `native_decide`, no `bv_decide`.
* The reading of the Python source into Lean (every definition cites its lines).
* Floating point is idealised: numbers are elements of an arbitrary linearly ordered field (ℚ in concrete
  instances, ℝ where logarithm, root or sine occur). Rounding, overflow and dtype are not modelled. NaN is modelled
  as `none` where the code stores it.
* Library behaviour taken as specified: numpy reshape (C order), slicing, fancy indexing by one list, meshgrid,
  transpose, diag, arange, tile; Python dict insertion order, `functools.lru_cache` (LRU, key = all arguments);
  pyvista `cell_id` / `cell_coords` (ravel/unravel in Fortran order, `None` outside); sympy linear arithmetic,
  `as_coefficients_dict` (constant term first) and `simplify` of a linear equation (same solutions, constants right).
* `str.lower` is a parameter of the solver model (`LowerOK`): it is only assumed to leave "pressure" and "rate" as they are.
* The linear solvers (scipy) are parameters: the theorems about a step assume that the returned vector solves the
  assembled system exactly. C72 replaces this by bounded residuals; C73 models which solver is called.
* Threads (`threading=True`): a thread is a list of atomic steps (one Python statement touching shared state); any
  interleaving of the steps of the threads is possible. Finer interleavings (inside one statement) are not modelled.
* Not modelled: drawing itself (cameras, windows, colour maps, rulers and the pyvista functions that receive what C82 describes), the text that is printed and progress bars (what printing does to the
  state is modelled, C66), pandas display details, dtype strings, documentation helpers, `utils/profme.py`, the stub
  classes (FVM, FEM, PINN, DeepONet, two/three-phase), backends, `tests/`, `backup/`, `examples/`.

## 3. Where the code does not satisfy the property

If the code violates a property, the full property stays in `properties.jsonl`; the model reproduces the code, a
theorem `…_fails`/`…_counterexample` proves the violation on a concrete reachable input, and a theorem with suffix
`_partial` proves what does hold. The manifest says `partial` and explains.

## 4. Plan per property

| id | modelled | proof |
|----|----------|-------|
| C01 | `get_cell_id`, `get_cell_coords` (pyvista ravel/unravel), `get_shape`, `get_n` | arithmetic of div/mod; bijection |
| C02 | `get_D`, `get_fdir` incl. argmax/argmin on the remembered shape, `get_shape` | case analysis over which sizes are 1 |
| C03 | `get_fshape` for both unify values | case analysis; product of shape |
| C04 | `remove_boundaries` slices on the id array | membership + strict monotonicity of the selected list |
| C05 | `extract_boundaries` slices + sort | membership both ways, no duplicates; D=0 counterexample |
| C06 | both on arbitrary arrays, shape check | selection commutes with map; permutation |
| C07 | `get_cells_coords`, `get_cells_id` | map lemma |
| C08 | `get_cell_neighbors` (id branch) | id arithmetic ⇔ coordinate adjacency |
| C09 | same | from C08 |
| C10 | coords branch of neighbours and boundaries | both sides reduced to adjacency |
| C11 | neighbours of boundary cells | case analysis per face |
| C12 | `get_cell_boundaries` | from C08, C05 |
| C13 | meshgrid/transposes of `__calc_cells_d`, A, V, lookups | index arithmetic |
| C14 | `get_Vt` | factorisation of triple sums |
| C15 | `get_cells_center` | prefix sums, index arithmetic |
| C16 | `get_corners` | index arithmetic |
| C17 | `set_prop` with numpy indexing of a flat array by a tuple | counterexamples for 2D/3D/unify; partial for 1D |
| C18 | property store + cached queries as a state machine | counterexample history; partial: fresh keys |
| C19 | generic LRU cache with eviction | invariant over all call sequences |
| C20 | both formulas of G | field algebra |
| C21 | `get_cells_G_diag_1/2/3`, `get_cells_G` | 1D/2D structure theorem; 3D counterexample |
| C22 | `get_cell_G`, `get_cells_G`, transmissibility | entrywise equality for D≤2; 3D counterexample |
| C23 | harmonic formula | inequalities |
| C24 | three `set_comp` methods | decision logic; failing call mutates: counterexample |
| C25 | `set_units`, `set_rho` | state machine; counterexample for stale g |
| C26 | `__calc_well_G`, `__calc_well_r_eq` over ℝ | real analysis |
| C27 | `set_well` as transition on dicts | frame theorem; counterexamples |
| C28 | `set_boundary`, both assemblers' tests of the condition string | counterexample; partial for symbolic |
| C29 | gradient branch in both assemblers | counterexample; partial for vectorised |
| C30 | `set_all_boundaries` | counterexample |
| C31 | heap with cached zeros array | counterexample; partial under eviction |
| C32 | both assemblers | row equivalence under stated conditions |
| C33 | per-thread write programs, arbitrary interleavings | commutation of disjoint writes |
| C34 | vectorised assembly | symmetry and row sums |
| C35 | same | irreducible diagonal dominance via maximum argument on the connected grid |
| C36 | same | constant vector in the kernel; sum of rows |
| C37–C39 | same | M-matrix comparison principle |
| C40–C41 | step function with rate updates | summation, cancellation, induction over steps |
| C42 | `check_MB` | algebra; cumulative value is 1/tstep-like: counterexample |
| C43–C44 | step / run state machine | invariants over call sequences; counterexamples for counters |
| C45–C46 | `__update_wells` | case analysis; counterexample after switch-back |
| C47 | retry recursion | measure on wells at their target; ties excluded |
| C48 | coefficient extraction | counterexample; partial for non-zero |
| C49 | `__update_z` | counterexample; partial. `Verif/Fdm/PropsLevel.lean`: without target rates every vectorised assembly, boundary update and well update is unchanged when depths and density change with the heads at pressure faces kept; induction over attempts and steps; C32 for the levelled reservoir. `Verif/Fdm/PropsInclined.lean`: corollaries of C39, C68, C69, C71, C79, C81, C86, C97, C98, C100, C101 for inclined reservoirs without target rates. `Verif/Fdm/PropsSlopes.lean`: counterexamples to C39, C68, C86, C97 to C101 on inclined reservoirs with target rates. `Verif/Fdm/PropsTilt.lean`: C71 and C79 there, since what is entered for gravity is one vector while no well changes its constraint; `Verif/Fdm/PropsTiltOrder.lean`: C39, C68 and C86 there, by the comparison principle; `Verif/Fdm/PropsTiltStrict.lean`: C100 there; `Verif/Fdm/PropsTiltShare.lean`: C101 there; `Verif/Fdm/PropsTiltForget.lean`: C69 there, by the decaying profile of C69; `Verif/Fdm/PropsTiltScript.lean`: C81 there; `Verif/Fdm/PropsTiltIdle.lean`: C97 and C98 there, as long as both models or neither have a target rate; `Verif/Fdm/PropsTiltControl.lean`: C99 there, under the same condition. `Verif/Fdm/PropsTiltFlow.lean`: counterexample to C94 on inclined reservoirs |
| C50 | wells/terms shared in the model | counterexample |
| C51–C52 | registry and alias tables | invariants; alias counterexample |
| C53 | melt layout by tile/repeat/flatten; label texts (`Table/Labels`) | index arithmetic; the name is what precedes the first space |
| C54–C55 | scalers, `set_scalers` | algebra; counterexample for 'all' |
| C56–C57 | `calc_solution`, shapes in `run` | sin(nπ)=0; shape counterexample |
| C58–C59 | state machine with caches | counterexamples; partial |
| C60 | helpers | list lemmas |
| C61 | well objects | counterexample |
| C62 | `calc_solution` over ℝ | termwise derivatives: equation and boundary values for every partial sum |
| C63 | `UNITS`, `FACTORS` against an SI specification of the labels | rational arithmetic per unit system; counterexamples |
| C64 | dry calls of the assemblers and of `solve` between steps (`Look`) | assembling twice = once; invariant over call sequences |
| C65 | `run` with its counters and time | induction on the number of steps |
| C66 | `solve(print_arrays=True)` | which system is solved; equality under C32's conditions, counterexample otherwise |
| C67 | every exception of `solve`/`run` | progress: hypotheses exclude each exception; induction over histories |
| C68 | two simulations of models of the same layout | comparison principle with a shifted solution |
| C69 | same | contraction factor from the distance to an anchor; geometric series |
| C70 | `get_df(scale=True)`, MinMax fitted per call (`Table/Scaled`) | list lemmas on min/max ignoring NaN; counterexamples |
| C71 | finite families of simulations | linearity of the cell balance + uniqueness; counterexample at a limit |
| C72 | solvers as any function with bounded residuals; two runs with two solvers | residuals of the systems bound the balances of the cells; comparison with a profile of unit sources, by induction on steps; inclined reservoirs through the levelled reservoir of C49 (`Verif/Fdm/PropsTiltSolver.lean`) |
| C73 | `get_isolver`, the choice in `solve`, the default on repetition | induction on the recursion; counterexample: repeated step |
| C74 | grid object with a heap of arrays and four tables of references (`Cache/Attrs.lean`) | invariants over all histories; refinement to the value model of C17; counterexamples: names left behind |
| C75 | data, model object (`RHS`, `comp`, remembered transmissibilities) and calls that change either (`Fdm/PropsData.lean`) | equality of sessions; invariants; counterexamples: frozen coefficients |
| C76 | a homogeneous row of cells (`Fdm/Bar.lean`), closed form of the implicit scheme by sine waves (`Analytic/Modes.lean`), its limit (`Analytic/Converge.lean`) | the closed form satisfies the balances, which determine the pressures; dominated convergence; counterexample: D1P1 on a fixed grid |
| C77 | the six flags with their six one-entry caches over several grid objects (`Cache/Flags.lean`) | constancy check against `FlagSpec`; invariants over histories: entries of an object are current, or held whatever is set; counterexample: contradictory flags |
| C78 | two runs of the model of C01–C36 on two grids related by a map of cells (`Fdm/Similar.lean`, `Fdm/SimGrid.lean`) | relational invariant through assembly, solve, well switching, boundary update and the step loop; uniqueness of the solution of an anchored system identifies the two linear solutions; inclined reservoirs by levelling both (C49, `Fdm/PropsTiltSimilar.lean`); counterexample: 2x2x2 in a mirror |
| C79 | three runs of the model of C01–C36 on one grid (`Fdm/PropsReciprocal.lean`) | the balances of all recorded steps (induction over the step loop); differences of two runs solve a symmetric network with constant sources; summation by parts in time gives the identity for the sums over steps, hence for every step; counterexample: a well at its limit |
| C80 | two runs of the model of C01–C36 on a grid and a smaller grid, related by a map that lays cells on cells (`Fdm/Fold.lean`, `Fdm/FoldGrid.lean`) | the pressures of the smaller grid, lifted, satisfy the balances of the larger one: no flow between cells over the same cell, one neighbour over each neighbour; uniqueness of the solution of an anchored system; induction over the step loop; with limits (`Fdm/Limits.lean`, `Fdm/FoldLimits.lean`): while no well leaves its limit, a step solves a monotone problem that does not know when wells reached their limits, and it has one solution; gradients (`Fdm/FoldGradients.lean`) by the model with the rates that are stored for them; inclined reservoirs (`Fdm/PropsTiltFold.lean`) by levelling the smaller one (C49) and giving its depths to the cells above; counterexample: a well that leaves its limit |
| C81 | scripts of `set_boundaries` and `set_well` calls, then two runs of the model of C01–C36 (`Fdm/PropsOrder.lean`) | a call succeeds and acts depending on its own topic only (one well, or the boundaries): project a script on its topics and glue the projections of the other script; the runs solve the same monotone problem (`Fdm/Limits.lean`); counterexample: four wells in two orders |
| C82 | what `show_model`, `save_gif`, `add_grid_labels` and `add_wells` hand to pyvista: mesh, values, limits, text, labels, cylinders (`Plot/Model.lean`) | the position of a cell among the interior cells is its position in the mesh (nested `flatMap`), corners from C16, minimum and maximum by folds; counterexamples from the counters of C44, thin cells and grids that are not unified |
| C83 | fluid and well objects as attribute dictionaries that every method changes and that calls look up first, with exceptions that keep the assignments made before them (`Objects/Model.lean`) | invariants of the dictionary under any call (which names exist, which hold methods), then induction on the sequence of calls against the list of values given |
| C84 | a heap of well dictionaries, models whose wells are references into it, and calls on objects and models in any order (`Fdm/Heap.lean`) | objects placed once: invariant that no two wells share a dictionary, then every call is the call on values; shared objects: invariant of the shared dictionary along the steps; setters: relation between worlds that no equation can tell apart |
| C85 | the set-up scripts of C81 and the histories of steps | induction on the script: initial rows are a fold over all conditions given; the fold ends with the latest condition of each kind; then the invariant of histories on rows outside the reservoir |
| C86 | the steps and histories of C67/C68 | two consecutive steps are compared like two runs (comparison principle for steps); the first step by looking at the cell with the largest or smallest pressure; recorded rates are a decreasing function of pressure by induction on the history |
| C87 | the balance equations of steps (C40) and networks of cells | by induction on histories every step satisfies the balance with constant sources; the differences of consecutive steps solve the equations without sources; their weighted sum of squares contracts by an inequality of Poincaré type on connected networks |
| C88 | the balance equations of steps (C40) on rows of cells | the balance of every cell of a row in terms of heads and resistances; a chain of resistances solved by induction along the row; the recorded flows by induction on histories |
| C89 | the balance equations of steps (C40) with the time step as a parameter; the continuous evolution as a differential equation | the right-hand side is Lipschitz and dissipative in the maximum norm; existence by Picard-Lindelöf, uniqueness and the error bound of the implicit Euler method from dissipativity (`Verif/Analytic/Euler.lean`) |
| C90 | memory with references: grids hold arrays, caches hold arrays, answers are references or copies, callers write into answers (`Verif/Cache/Alias.lean`) | invariant: every array has one owner, and the owner's data are right as long as nobody writes into its arrays; histories by induction |
| C91 | `solve` and `run` statement by statement: all states between two statements (`Verif/Fdm/Crash.lean`), the traced calls return what `solve` and `run` return (`CrashLemmas.lean`); left out: threads, half-done library calls | induction over the attempts of a call, invariants of the assembly's points (assembling again gives the same system), induction over interruptions |
| C92 | the models of C63 (units and factors tables), C26 (well index) and of whole simulations; the same physical quantity = same number times the SI size of its unit (`Verif/Fdm/PropsUnits.lean`) | corollary of C78 (similar reservoirs) once the conversion is shown to be a similarity; the factors from the rounding bounds of C63; scaling of powers and logarithms for the well index. `Verif/Fdm/PropsUnitsClose.lean`: the pressures of the second simulation balance the first reservoir up to the rounding; comparison principle for the balances |
| C93 | the model of whole simulations; relative error of data = `|y - x| ≤ ε |x|` (`Rel`, `NearData`, `NearModel` in `Verif/Fdm/PropsCoeff.lean`) | relative errors of transmissibilities (harmonic means) and storages, then the comparison of the stability proof (C72) for two environments (`Verif/Fdm/Coeff.lean`) with one barrier for all nearby networks (`Verif/Fdm/Barrier.lean`); the failure by a family of reservoirs with a permeability just off the uniform one (`Verif/Fdm/CoeffJump.lean`) |
| C94 | the model of whole simulations; better rock, more openings, two heads and the flow entering (`BetterRock`, `MoreOpen`, `TwoHeads`, `feed` in `Verif/Fdm/PropsBetter.lean`) | harmonic means are monotone; every completed step is a steady state of a network between two heads; Rayleigh's law by least dissipation (`Verif/Fdm/Energy.lean`); the failure by the reservoirs of C93 (`Verif/Fdm/BetterExamples.lean`); on inclined reservoirs a counterexample (`Verif/Fdm/PropsTiltFlow.lean`) and, between two pressures carried to the cells behind, the levelled reservoir of C49 (`Verif/Fdm/PropsTiltFlowLevel.lean`) |
| C95 | the model of whole simulations; the pore-volume weighted sum of a function of the heads (`scatter`, `Shut` in `Verif/Fdm/PropsSpread.lean`) | new heads are weighted means of the old ones and the head outside, and no old head is given more weight than its pore volume (`Verif/Fdm/Spread.lean`); Jensen's inequality; induction over steps; the failure and instances in `Verif/Fdm/SpreadExamples.lean`; inclined reservoirs through the levelled reservoir of C49 (`Verif/Fdm/PropsTiltSpread.lean`) |
| C96 | the `pyvista=True` branches of `get_cells_V`, `get_Vt`, `get_cells_center` on the mesh of C82 (`Verif/Plot/Measure.lean`) | the mesh draws every cell's box (C16, C82); volume and centre of a box; compared with C13-C15 |
| C97 | scripts of set-up calls as in C81, with the idle calls and entries left out (`Verif/Fdm/PropsIdle.lean`) | calls on different topics do not interfere (C81), so the models differ in idle wells and conditions only; these add nothing to the balances with limits, whose solution is unique |
| C98 | two models with the same net rate into every cell (`Verif/Fdm/PropsNet.lean`) | the balances of the two models are the same functions of the pressures; their solution is unique, step by step |
| C99 | a model with wells held at the bottom-hole pressures reported in a run of another (`Verif/Fdm/PropsNet.lean`) | the pressures of the first run satisfy the balances of the second model; uniqueness |
| C100 | two models, one nowhere lower and somewhere higher (`Verif/Fdm/PropsStrict.lean`) | C39, and a strong maximum principle: where the pressures of the two runs are equal all terms of the difference of the balances vanish, so they are equal in the neighbours and, by connectedness, where something was raised |
| C101 | recorded rates in two runs of ordered models (`Verif/Fdm/PropsShare.lean`) | recorded rates are antitone functions of the cell pressures (C46 and the recorded boundary flows); C100 for the others, C68 for the place itself; counterexample for target rates |
| C102 | heads (pressure less gravity times depth) along any history (`Verif/Fdm/PropsHeads.lean`) | net inflow when all cells are at one head; comparison on the leaky network (as C37), induction over histories; recorded rates by Darcy's law at faces and wells; counterexample for the vectorised assembler; C37 for vectorised runs on slopes by the levelled reservoir (C49) |

## 5. Modules of `Fdm`

* Code: `Model` (assemblers, attempt, solve, run, wells), `Fail` (state left behind by exceptions), `Look` (dry calls),
  `Session` (settings changed after compiling), `Threads` (pools of threads), `FromGrid`/`FromGrid2` (the environment
  built by the real grid model, so that the abstract hypotheses `Env.Wf`, `Flat`, `Level` are met by grids).
* Specification: `Spec` (balance of a cell, leaks, potentials), `History` (`Setup`: models a user can build; `Hist`: states
  that calls can reach). Each `Props*` file begins with the specification of its own property.
* Proof machinery: `Linear` (networks with leaks, comparison principle), `Assemble`/`Assemble2`/`Symb` (what the two
  assemblers produce), `Wells`, `Balance`, `Calm`, `Compare`, `Recorded`, `Alike`, `Ready`, `SetupOK`.
* Witnesses: `Examples` (two cells, all coefficients 1), `Examples2`, `PropsRepeat` (three cells).

Conditions that recur in the theorems about simulations:

* `Ready c m`: the model was built by `set_boundaries`/`set_well`, the grid environment is well formed.
* `Exact lin`: a vector returned by the linear solver solves the system. `Complete lin n`: it returns one if there is one.
* `Anchored`: compressible, or some pressure is imposed. `Level`: no gravity term or all cells at one depth.
* `Calm`: no well leaves its pressure limit during the call (and the vectorised assembler is not used with bottom-hole
  pressure 0). The code lets a well that left its limit keep its column of the matrix; `C39_released_well`,
  `C46_released_well` show that properties fail there, so the condition cannot be dropped.
