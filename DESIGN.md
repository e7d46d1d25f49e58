# Formal model of PyVRP in Lean 4

Source: `/repo` (PyVRP at the pinned commit). Nothing was executed; every
definition in the model cites the file and lines it models.

## Layout

| directory | content |
|---|---|
| `lean/Verif/Model/` | the model: one Lean file per C++/Python file (or small group of files), mirroring functions branch by branch |
| `lean/Verif/Spec/` | small specifications, written without looking at the model's helpers (driving a list of stops, load on board, valid schedules, ...) |
| `lean/Verif/Lemmas/` | helper lemmas |
| `lean/Verif/Props/` | the property theorems, with a non-vacuity `example` beside each |
| `lean/Verif/Checks/` | tests of the model: values which the test suite of the project expects of the code, compared with the values of the model |

## Trusted base

* Lean 4.33.0's kernel; the axioms `propext`, `Classical.choice`, `Quot.sound`
  (checked with `#print axioms`; no other axiom is used, no `sorry`,
  no `native_decide`, no `bv_decide`).
* The reading of the source: the theorems are about the model. As evidence
  that the reading is right, `Verif/Checks` evaluates the model on the cases of the
  project's own test suite: segments, the random number generator, routes,
  solutions, costs, all operators, neighbourhoods, perturbation, local search,
  penalties, iterated local search, `solve` and `minimise_fleet`. All values
  agree. These are tests and not theorems; no property rests on them.
* Machine integers. `Duration`, `Distance`, `Load`, `Cost` are `int64_t`
  wrappers (`Measure.h`) and are modelled by unbounded `Int`; `size_t` indices
  by `Nat`. Where the code itself branches on `numeric_limits::max()` the
  constant `MAX = 2^63-1` is used literally. Overflow of routes,
  solutions and objective values is covered by C55, of routes and evaluations
  in the search by C58, of the operators by C61, of a whole call of the
  local search by C62, and of `solve` by C63; elsewhere (instances without the bounds of these, and
  vehicles that may reload without limit) it is outside the model.
* `double` penalties (`CostEvaluator`) and Python floats (`PenaltyManager`)
  are modelled by an abstract/ideal arithmetic, stated where used. Rounding is
  not modelled.
* `std::` containers and algorithms, pybind11, numpy are assumed to behave as
  documented.

## Plan per property

| id | model | proof |
|---|---|---|
| C01 | `DurationSegment` (all fields, saturating merge) | refinement: a segment represents the two functions "duration from start t" and "time warp from start t"; merge = composition; induction over the list of stops |
| C02 | `DurationSegment.merge`, `LoadSegment.merge` | algebraic law |
| C03 | `LoadSegment` | refinement to maximum over prefixes of the load on board |
| C04 | `Route.setLoad` | induction over the activities, per trip |
| C05 | `Route.validate` | decision logic against a declarative `WellFormed` predicate |
| C06 | same | expected to be false of the code (no check of `reloadDepots`): negation with witness, plus what does hold |
| C07 | `Route.setSchedule`, counters | induction |
| C08 | `Route.setDistance` | induction |
| C09 | `Route.setSchedule` backward pass | corollary of C01 extended to several trips |
| C10 | same | existence of schedules iff zero time warp, both directions |
| C11 | forward pass of `setSchedule` | induction; the sum claim is expected to need side conditions (vehicle shift end, release after depot closing) |
| C12 | `isFeasible` | combination of C04, C08, C10 |
| C13–C15 | `Solution` constructor and `evaluate` | decision logic, induction over routes |
| C16 | `CostEvaluator` | algebra; penalties abstracted to a truncated product |
| C17 | `operator==`, hash | permutation argument |
| C18 | random constructor with an oracle stream | induction |
| C19 | `__getstate__`/`__setstate__` | expected false (fixed cost and unplanned are dropped): negation plus partial |
| C20 | `search::Route::update` and mutators | refinement to C09/C04/C08 |
| C21 | `Proposal` | refinement: proposal = evaluation of concatenated activities |
| C22 | `deltaCost` | case analysis on the early exits |
| C23 | `hasDistanceCost`, `hasDurationCost`, `hasTimeWindows` | induction over stops |
| C24 | operators as functions on activity lists | C21 + C22 + list algebra |
| C25 | search loop as a transition system | well-founded measure |
| C26 | `search::Solution::load/unload` | list algebra |
| C27 | `PerturbationManager` | induction |
| C28, C29 | ILS loop as `step` over an abstract search method | invariant by induction |
| C30–C32 | Python classes as state machines | induction over calls |
| C33 | xorshift on `BitVec 32` | explicit inverse; permutation lemma |
| C34 | list of 64-bit blocks | pointwise lemmas |
| C35 | constructor and evaluation | induction over points |
| C36, C37 | constructors as `Except` | decision logic |
| C38 | printing/parsing over `List Char` | round trip |
| C39 | fold over edges | induction |
| C40 | sort-and-take | list lemmas |
| C41 | loop over abstract solver | invariant; crash case negated with witness |
| C42 | `Statistics`, `Result` | round trip over rows |
| C43 | `SearchSpace` | state machine |
| C44 | pickled tuples and reconstruction | round trip through the validating constructors |
| C45 | `DurationSegment.finaliseBack/finaliseFront` over trips | refinement; `slack` and `end_early` false in general: negations |
| C46 | `LocalSearch.operator()` | invariant over moves, perturbation and repair, for any history of calls |
| C47 | `solve`, from the seed to the result | invariant over iterations with the state of the local search; well-founded stopping |
| C48 | the moves of each operator as a relation between plans (`Spec/Moves.lean`) | completeness of `evaluate`: lower bounds on `deltaCost` of the matching proposal; `Swap<N, N>` negated with a witness |
| C49 | `LocalSearch::search` with its time stamps | invariant: a pair that was tested since its routes changed has no improving move; with C48; negated with a witness for unvisited clients |
| C50 | `search::Solution::insert` with its incremental segments | costs of places equal the change in cost (C22); minimum over the loops by induction; negated with a witness for unused vehicles |
| C51 | `write_solution` and `read_solution` on the text of the file | split and join are inverse; invariant of the assignment of routes to vehicles; permutation of routes gives an equal solution (C17) |
| C52 | `read` on the dictionary of sections that `vrplib` returns | a small specification that looks up each number of the file (`Spec/File`); inversion of every step of the reader; grouping of vehicles as an invariant of the loop |
| C53 | a whole call of the local search with assertions enabled (`Checked`, `CheckedSearch`, `CheckedRun`): a failed assertion, an index out of bounds or an unsigned number below zero is a value | equality with the model without assertions, function by function, under the invariant of the search |
| C54 | `supports` of the operators, and the local search with any set of operators | an operator that does not support the instance never applies in a complete search state; simulation of the search with all operators by the one with the supported ones |
| C55 | routes, solutions and objective values on 64-bit integers (`Int64`): overflow is a value | equality with the model on unbounded integers; bounds on segments that grow linearly with the number of stops, by induction over the route |
| C56 | solving one instance file from the command line (`Cli`), with the files it writes, and the table | composition of C47, C42, C51 and C52: what `read` builds satisfies the conditions of `solve`; writing and reading preserves feasibility and cost since plans are permuted only; columns by induction over the widths |
| C57 | a call of the local search that counts evaluations and applications of each operator (`SearchStatistics`), and `LocalSearch.statistics` | forgetting the counts gives the model without them; invariant of the counts through the loops; the repairs counted by the change of what is visited; negated with witnesses for perturbations and for inexact evaluations |
| C58 | `Route::update` of the search, segments, proposals and `deltaCost` on 64-bit integers (`Int64Search`): overflow is a value | equality with the model on unbounded integers; bounds on the segments kept forwards and backwards, by induction over the route, then over the parts of a proposal; a witness that some bound is needed |
| C59 | the stream printers of `Route` and `Solution`, `Result.summary` and `Result.__str__` (`Printers`) | splitting the text at spaces and line ends, round trip of activities (C38); counts from C07 and C15 |
| C60 | `ProgressPrinter`, and the loop of `IteratedLocalSearch.run` with its calls (`Progress`) | invariant of the printer over any sequence of calls: last time and lowest cost printed; forgetting the log gives the model without it; the log as a replay of calls with the statistics of each iteration |
| C61 | `evaluate` of every operator of the local search on 64-bit integers (`Int64Operators`): overflow is a value, and so is a failed assertion | refinement of the operators with assertions (C53), step by step: each segment, proposal and cost stays within bounds (C58), including the costs that operators keep for later; a witness that some bound is needed |
| C62 | a whole call of the local search on 64-bit integers (`Int64Run`), on top of C61: loading, perturbing, repairing, improving | refinement of the search with assertions (C53), function by function; routes stay within the length given by the counts of clients, shipments and trips; a witness that some bound is needed |
| C63 | `solve` on 64-bit integers (`Int64Solve`), on top of C55 and C62: random initial solution, search method, acceptance, statistics | refinement of `Solve.solve` (C47): all solutions that occur are accepted ones, hence short; all penalties stay below the maximum penalty; a witness that some bound is needed |
| C64 | `read` as in C52; well-formed files without shipments (`Spec/FileGood`) | every step of the reader succeeds: lists have the right lengths, groups are entered at the right places by induction over the groups; what it passes on meets the conditions of the constructors (C36, C37); the converse by inversion, as in C52 |
| C65 | `SolveParams.from_file` on what the TOML parser returns; each section is a call with keyword arguments | lookup in an association list without repeated keys is membership; each section by unfolding its constructor and C29, C31; names of operators by a check of the whole table and a case distinction over the operators; GoodParams of C47 for what is read |
| C66 | `Model.solve` is `Model.data` (C39) followed by `solve` (C47); the size of numbers is stated about the calls | what the calls make is within the same bounds (C36, C39; induction over the edges for the matrices), so the data satisfies the conditions of C47 |
| C67 | `benchmark` for several instance files (`Benchmark`): sorting, the table, the averages, and the directories after all files are written in any order | C56 for each instance; insertion sort with a lexicographic order gives the one sorted permutation; induction over the order of writing for the files. Full claim false: files with the same name in different directories overwrite each other (`C67_overwritten`), and long names are cut (`C67_cut_names`) |
| C68 | the points and lines that `plot_route_schedule` hands to `matplotlib` (`Plot`) | induction over the schedule, with the drive of C09, the schedule of C11 and the loads of C10. Full claim false with reloads and with initial loads: negated with witnesses |
| C69 | the points and lines that `plot_solution` hands to `matplotlib` (`PlotSolution`) | closed form of the loop that splits a schedule into trips; induction over the activities with the current trip; unvisited activities from C15. Full claim false for trips without visits: negated with a witness |
| C70 | what the other plotting functions hand to `matplotlib` (`PlotResult`); lines of different lengths raise | one datum per iteration (C42), the incumbent's history (C28) and C69 for results; normal equations for the trend line; insertion sort gives the sorted permutation for instances. Full claim false of the position of the trend line, and without statistics, clients or load dimensions: negated |

## What is modelled

| model file | source |
|---|---|
| `Measure`, `DurationSegment`, `LoadSegment` | `Measure.h`, `DurationSegment.{h,cpp}`, `LoadSegment.{h,cpp}` |
| `Activity`, `Text` | `Activity.{h,cpp}`: kinds, parsing, printing |
| `Data` | `Client`, `Depot`, `ClientGroup`, `Shipment`, `VehicleType`, `Location`, `Matrix`, `ProblemData` with their constructors and `replace` |
| `Route`, `Solution` | `Route.{h,cpp}`, `Solution.{h,cpp}` |
| `Int64` | the arithmetic of `Measure.h`, `DurationSegment`, `LoadSegment`, `Route`, `Solution` and of objective values on 64-bit integers |
| `Int64Operators` | the operators of the local search on 64-bit integers |
| `Int64Run` | the whole local search on 64-bit integers; building the returned solution is in `Int64` (C55) |
| `Int64Solve` | `solve` on 64-bit integers: the local search with the solution that it returns, random solutions, iterated local search; numbers of Python code are unbounded |
| `Int64Search` | the arithmetic of `search/Route`, its segments and proposals, and of `CostEvaluator::deltaCost` on 64-bit integers |
| `CostEvaluator` | `CostEvaluator.{h,cpp}`, including `deltaCost` with and without early exit |
| `Rng`, `DynamicBitset`, `Pwl`, `RingBuffer`, `Statistics`, `Stop`, `Penalty`, `Csv` | the classes of those names |
| `Pickle` | the `py::pickle` definitions of `bindings.cpp` |
| `Ils` | `IteratedLocalSearch.py` over an abstract search method |
| `SearchRoute`, `Proposal`, `SearchSolution`, `SearchInsert`, `SearchSpace` | `search/Route.{h,cpp}` with segments and proposals, `search/Solution`, `search/SearchSpace` |
| `Perturbation`, `Operators`, `LocalSearch` | `search/PerturbationManager`, all local search operators, `search/LocalSearch.cpp` |
| `SearchStatistics` | the counters of the operators, and `LocalSearch::statistics` |
| `Neighbourhood` | `search/neighbourhood.cpp` |
| `ModelApi`, `ModelSolve` | `Model.py` |
| `MinimiseFleet` | `minimise_fleet.py` |
| `Solve` | `solve.py`, and `supports` of the operators |
| `Config` | `SolveParams.from_file` in `solve.py`; values of other types than the parameters' raise in the model |
| `SolutionFile` | `write_solution` of `cli.py`, `read_solution` of `read.py`, and what `vrplib` does with the lines of a solution |
| `Cli` | `tabulate` and `_solve` of `cli.py` for one instance: the limits, the report and the contents of the files |
| `Benchmark` | `benchmark` of `cli.py`, and `PurePath.stem` and the order of paths; averages are exact and not formatted, and processes are not modelled except for the order of writing |
| `Plot` | `plot_route_schedule.py`: points and lines, without axes, colours and labels |
| `PlotSolution` | `plot_solution.py`: points and lines, without axes, colours and labels |
| `PlotResult` | `plot_objectives.py`, `plot_runtimes.py`, `plot_result.py`, `plot_time_windows.py`, `plot_demands.py`, `plot_coordinates.py`, `plot_instance.py`: points, lines and bars, without axes and titles; `np.polyfit` is modelled by the exact formula |
| `Read` | `read` of `read.py`: the parser of sections and the builder of the data, with the named rounding functions; the text of the file is read by `vrplib` |
| `Printers`, `Progress` | the stream printers of routes and solutions, `Result.summary`, `ProgressPrinter.py` and its use in `IteratedLocalSearch.py` |
| `Checked`, `CheckedSearch`, `CheckedRun` | the operators, `LocalSearch::search`, and loading, perturbing, repairing and unloading solutions once more, as compiled with assertions and bounds checks |

Not modelled: the rest of the command line (parsing arguments, processes, formatting averages), the parsing of instance files (done by the
external package `vrplib`), parsing TOML, plotting other than the points, lines and bars that are drawn, the configuration of logging, the pybind11
glue other than pickling, and `__str__`/`operator<<` other than for activities, routes, solutions and results.

Simplifications that apply throughout:

* Node pointers of the search are modelled by the activity and the pair (route, position). A dangling
  pointer cannot be expressed; where the code could form one this is listed below.
* Loops whose end is not evident (the local search, the solver loops) carry a `fuel` argument. The
  result `none` means that the fuel ran out. Theorems say that enough fuel gives a result, or hold for
  every amount of fuel.
* Random numbers come from an arbitrary generator `next : σ → Nat × σ`, so the theorems hold for every
  sequence of random numbers.
* Undefined behaviour guarded by `assert` only is excluded by a hypothesis. C53 proves that it does not occur
  in a call of the local search.

## Confirmed disagreements between the properties and the code

Each is proved by a concrete witness where a theorem is named.

* **C06** A route may reload at any depot: `reload_depots` is not checked (`C06_reloads_elsewhere_accepted`).
* **C11** `schedule()` ignores the end of the vehicle's shift, and its first entry may start before the
  depot opens (`C11_sums_fail`, `C11_window_fails`).
* **C19** Pickling a route loses `fixed_vehicle_cost`; pickling a solution loses `unplanned`
  (`C19_negation`).
* **C21, C22, C24, C25** `DurationSegment::timeWarp(maxDuration)` does not subtract the time warp that
  release times cause in a trip that is not yet closed. A proposal and the updated route therefore
  disagree when release times, reloads and a limit on the duration meet
  (`C21_negation_time_warp`, `C21_negation_duration`, `C22_negation`, `C24_negation`). As a consequence
  the local search may return a worse solution (`C25_negation_cost`, 135 to 145) or run for ever
  (`C25_negation_stops`, with the default operators).
* **C27** With a range of `SIZE_MAX` the number of perturbations is computed modulo zero. Neighbourhoods
  that are incomplete or out of range raise or read out of bounds.
* **C28** The result of the exhaustive search on a new best solution replaces it without comparison
  (`C28_negation`).
* **C29** `num_iters_no_improvement = 0` is accepted (`C29_zero`).
* **C35** The monotonicity test of piecewise linear functions is too strict on integers
  (`C35_negation`).
* **C38** Strings such as `C1x` and `D-1` are accepted (`C38_negation`).
* **C39** An edge for a profile of another model is dropped silently
  (`C39_negation_foreign_profile`); `from_data` shares the client groups with the data
  (`C39_negation_shared_groups`) and raises on negative matrix entries (`C39_from_data_negative`).
* **C40** The number of neighbours is limited by (clients - 1) + 2 (shipments - 1), which can be smaller
  than the number of possible neighbours (`C40_negation`).
* **C41** `minimise_fleet` raises `ValueError` when the bound is zero (`C41_negation`).
* **C42** Statistics that were not collected do not survive the CSV round trip
  (`C42_negation_not_collected`); without quotes some delimiters raise (`C42_negation_no_quotes`).
* **C43** With no clients and shipments the number of neighbourhoods is not checked on replacement.
* **C45** `slack()` and `end_early()` are wrong after a trip that could not end late enough
  (`C45_negation_slack`, `C45_negation_end_early`).
* **C48** `Swap<N, N>` compares indices only, to consider each pair once. A client and a pickup with the
  same index are therefore never swapped, from either side (`C48_negation`).
* **C49** Searching the result of an exhaustive search again may improve it. A client that is not visited
  counts as one whose route never changed, so pairs with it that were tested before are skipped, also when
  it was in a route at that time (`C49_negation`).
* **C50** `Solution::insert` stops at the first unused vehicle that is better than the places next to
  neighbours. So it may not insert an optional client although another unused vehicle would lower the
  cost, and may choose a more expensive vehicle for a required one (`C50_negation`).
* **C51** Solutions can only be read for instances whose vehicle types are named after their vehicles, as
  `read` does. With the default name, the empty one, `read_solution` always raises, also with one vehicle
  type, where the names are not needed to write (`C51_unnamed_vehicles_cannot_be_read`).
* **C52** With several depots, shipments are read with the wrong delivery: the index is shifted by the number
  of depots instead of by one (`C52_shipments_negation`). A line of allowed clients that lists a client twice
  can make the reader ignore the restriction (`C52_allowed_clients_negation`). Unit distance costs that are
  not integers are truncated, so that distances may cost nothing (`C52_unit_costs_truncated`).
* **C53** Debug builds may abort: with negative distances, which `ProblemData` accepts, on the assertion that a
  segment's distance is not negative (`C53_negation_distance`); and where evaluations are not exact, see
  C21, on the assertion that a move changes the cost as evaluated (`C53_negation_cost`).
* **C55** With negative distances and the default maximum distance, subtracting the maximum from a route's
  distance overflows. This is undefined behaviour; wrapped around, a feasible route has a huge excess distance
  (`C55_negation_distance`).
* **C56** Limits per client count clients only. For instances with shipments only, `--per_client` makes every
  finite limit zero, so that no iterations are done (`C56_no_iterations_for_shipments`), and infinite limits
  become NaN, which never stop.
* **C57** The documentation of `num_updates` says that it is the total number of changes to the solution. What
  the perturbation inserts and removes is not counted (`C57_negation_updates`). A move counted as improving may
  make the solution worse where evaluations are not exact, see C21 (`C57_negation_improving`).
* **C67** Instance files with the same name in different directories overwrite each other's solution and
  statistics files (`C67_overwritten`). Names of more than 37 characters are cut in the table, so that rows
  of different instances may look alike (`C67_cut_names`).
* **C68** The plotted load of a route with reloads starts with what all trips deliver, and so may exceed the
  capacity although there is no excess load (`C68_reloads_negation`). The initial load of a vehicle is not
  plotted (`C68_initial_load_negation`). The documentation says that slack is shown for routes without time
  warp; it is also shown for routes with time warp from the maximum duration (`C68_slack_negation`).
* **C69** A trip without visits is not drawn, even if it goes from one depot to another (`C69_depots_negation`).
* **C70** `plot_result` raises for a result without statistics if there was an iteration
  (`C70_without_statistics`). `plot_instance` raises for valid instances without clients or without load
  dimensions (`C70_instance_negation`). The trend line of the runtimes is drawn at 0, 1, ... instead of at the
  iterations 1, 2, ... (`C70_trend_negation`).

Seen while reading, without a theorem:

* The search `Route::insert` grows its list of depots before it throws.
* The search `Route::clear` of an empty route does not update the cached values.
* `VehicleType.replace(tw_late=...)` keeps the old `start_late` and may therefore raise.
* `PenaltyParams` accepts NaN, `CostEvaluator` accepts NaN.
* Binary operations on `DynamicBitset`s of different lengths read out of bounds in release builds.
* `ProblemData` accepts negative distances and durations.
* `PenaltyManager.register` with a different number of load dimensions attributes violations wrongly or
  raises `IndexError`.

## Limits of the partial theorems

* **C25** is proved for `Moderate` instances (`Spec/SearchSpec.lean`): the numbers are small enough that
  no route can reach the limits of the integer type, and release times do not meet both reloads and a
  limit on the duration. The bound involves the number of reloads a vehicle may make, so an instance
  with reload depots must limit `max_reloads`. Vehicles that may reload without limit, the default, are
  covered for single calls of the search (`C25_unlimited_partial`,
  `C49_unlimited_partial`, `C53_unlimited_partial`): a move adds at most one visit to a reload depot and
  then lowers the cost, so that the visits are bounded by the cost in the beginning (`StaysModerate`).
* **C47** that `solve` returns is proved for `Moderate` instances, since it needs C25. That it never raises
  and what it returns is proved for all instances.
* **C24** is proved in full for the structure of the result; the reported cost is exact under the
  conditions of C21.
* **C48** needs the conditions of C21 for the routes of the cheaper plan. `Relocate` and `Swap` consider
  only activities before and after which the vehicle carries no shipment; this is part of
  `Spec.Movable`.
* **C49** is proved in full for clients and pickups that are visited, and for all of them when a search
  finds nothing to improve. The moves are those of C48, the instances those of C25.
* **C50** is proved in full for places next to neighbours. Of the unused vehicles only the first one that
  is better than those places is known to be tried. Instances are those of C25.
* **C53** needs distances that are not negative, and for the improvement loop the instances of C25. The assertion on
  counters of applied operators in `LocalSearch::statistics` is part of C57. The assertions in the constructors of
  `pyvrp::Route` and `pyvrp::Solution` are part of C55.
* **C56** that the command ends is proved for the instances of C25. What it reports is proved for all files
  with sensible numbers; files with reload depots must fit the memory of the search (`FitsMemory`), which a
  file without a limit on reloads does not.
* **C57** that each improving move lowers the cost, or keeps it with a depot less, is proved for the instances of
  C25. Each operator of the list is counted as an object of its own: an object that is added twice has both
  counts in the code.
* **C58** is about the evaluation of proposals. The few additions that an operator makes itself, such as
  subtracting a prize before the evaluation, are covered only by the starting value being arbitrary.
