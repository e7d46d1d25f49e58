{"id": "C01", "title": "Duration segments compute the true schedule", "statement": "Concatenating visits with DurationSegment.merge gives exactly the duration and time warp of driving those visits in order: for every moment at which the vehicle could start, duration() and time_warp() of the merged segment determine the total waiting, travel and service time and the total lateness of that drive, and start_early/start_late delimit exactly the start moments with minimal duration and minimal time warp.", "quantifier": "every non-empty sequence of visits (non-negative travel and service, 0 <= early <= late, any late up to the int64 maximum), every start time", "why_tests_cant": "Tests check a few merges; the claim is about arbitrarily long sequences, every start time, and the saturating branch at INT64_MAX.", "anchors": ["pyvrp/cpp/DurationSegment.h: DurationSegment::merge, duration, timeWarp, startEarly, startLate, endEarly", "pyvrp/cpp/DurationSegment.cpp: slack"]}
{"id": "C02", "title": "Merging is independent of the split point", "statement": "DurationSegment.merge and LoadSegment.merge are associative (with edge durations inserted between segments), so statistics of a route do not depend on where the search splits it into prefix, middle and suffix.", "quantifier": "all triples of segments that arise from visits, all edge durations", "why_tests_cant": "The search caches prefixes and suffixes and joins them at arbitrary points; only a law covers all of them.", "anchors": ["pyvrp/cpp/DurationSegment.h: merge", "pyvrp/cpp/LoadSegment.h: merge"]}
{"id": "C03", "title": "Load segments compute the peak load", "statement": "For any sequence of visits in one trip, LoadSegment.load() of the merged segment equals the largest amount on board at any moment of the trip when all client deliveries are loaded at the start, and excess_load(capacity) is the amount by which that peak exceeds the capacity plus the excess of earlier finalised trips.", "quantifier": "every sequence of client, pickup and delivery visits, every capacity", "why_tests_cant": "The peak is over all prefixes of an unbounded sequence.", "anchors": ["pyvrp/cpp/LoadSegment.h: merge, load, excessLoad, finalise", "pyvrp/cpp/LoadSegment.cpp: constructors"]}
{"id": "C04", "title": "Route load statistics", "statement": "For every accepted route and load dimension, Route.excess_load() is the sum over the route's trips of max(0, peak load of the trip - capacity), where each trip starts with the deliveries of its own clients on board (the first trip also with the vehicle's initial load); delivery() and pickup() are the totals of the clients' deliveries and pickups (pickup including the initial load).", "quantifier": "all problem data, all vehicle types, all activity sequences accepted by the Route constructor", "why_tests_cant": "Sequences, trips and dimensions are unbounded.", "anchors": ["pyvrp/cpp/Route.cpp: Route::setLoad"]}
{"id": "C05", "title": "The Route constructor accepts exactly the well-formed activity sequences", "statement": "Route(data, activities, vehicle_type) succeeds if and only if every index is in range, each shipment visited has exactly one pickup followed by exactly one delivery within the same trip, and the number of trips does not exceed the vehicle type's maximum; otherwise it raises ValueError.", "quantifier": "all activity sequences over all problem data", "why_tests_cant": "Accept/reject must be right on every sequence, including interleavings of shipments with reload depots.", "anchors": ["pyvrp/cpp/Route.cpp: Route::validate", "pyvrp/cpp/VehicleType.cpp: VehicleType::maxTrips"]}
{"id": "C06", "title": "Routes only reload where the vehicle may reload", "statement": "Every reload depot visited by an accepted Route is one of the vehicle type's reload_depots.", "quantifier": "all accepted routes", "why_tests_cant": "Needs every activity sequence; a test only checks the sequences it writes.", "anchors": ["pyvrp/cpp/Route.cpp: Route::validate", "pyvrp/cpp/VehicleType.h: reloadDepots"]}
{"id": "C07", "title": "Route counts", "statement": "For every accepted route, num_clients(), num_shipments(), num_trips(), num_depots() and len() equal the numbers of client visits, pickups, reload depots plus one, depots including start and end, and activities including start and end depot; the schedule lists exactly start depot, the given activities in order, end depot, and the trip index of each entry is the number of reload depots visited up to it.", "quantifier": "all accepted routes", "why_tests_cant": "The counts are derived indirectly (for example num_clients by subtraction), so agreement must hold for every mix of activities.", "anchors": ["pyvrp/cpp/Route.cpp: numClients, numShipments, numTrips, numDepots, setSchedule, setOtherStatistics"]}
{"id": "C08", "title": "Route distance and distance cost", "statement": "Route.distance() is the sum of the profile's distances over consecutive visited locations from start depot to end depot, distance_cost() is that times the unit distance cost, and excess_distance() is the part above max_distance.", "quantifier": "all accepted routes, all distance matrices", "why_tests_cant": "Every length and every matrix.", "anchors": ["pyvrp/cpp/Route.cpp: Route::setDistance"]}
{"id": "C09", "title": "Route start time, duration, time warp and slack are optimal", "statement": "For every accepted route: leaving at start_time() gives the reported duration() and (apart from the maximum duration excess) time_warp(); no other start time gives a smaller duration or a smaller time warp; no earlier start time within the release time attains both minima; delaying the start by up to slack() changes neither, and delaying by more strictly increases the time warp.", "quantifier": "all accepted routes (including multiple trips, release times and overtime limits) and all start times at or after the release time", "why_tests_cant": "An optimality claim over all start times.", "anchors": ["pyvrp/cpp/Route.cpp: setSchedule", "pyvrp/cpp/Route.h: startTime, slack docs", "pyvrp/cpp/DurationSegment.cpp: slack"]}
{"id": "C10", "title": "A route without time warp is exactly a route that can be driven", "statement": "Route.has_time_warp() is False if and only if there are times at which every activity can start such that all time windows (clients, shipments, depots, vehicle shift and latest start) and trip release times are respected, travel and service times fit in between, and the total duration is at most shift duration plus maximum overtime.", "quantifier": "all accepted routes; existence over all schedules", "why_tests_cant": "Both directions quantify over all conceivable schedules.", "anchors": ["pyvrp/cpp/Route.cpp: setSchedule, hasTimeWarp", "pyvrp/cpp/DurationSegment.h"]}
{"id": "C11", "title": "The reported schedule is consistent", "statement": "The entries of Route.schedule() are consecutive in time: each entry starts when the previous one ended plus travel plus its wait minus its time warp, no entry starts outside its time window, waits and time warps are non-negative, and the waits and time warps of the entries add up to the route's wait_duration() and time_warp().", "quantifier": "all accepted routes", "why_tests_cant": "The schedule is computed by a separate forward pass; agreement with the segment calculus must hold for all routes.", "anchors": ["pyvrp/cpp/Route.cpp: setSchedule, waitDuration, endTime"]}
{"id": "C12", "title": "Route feasibility", "statement": "Route.is_feasible() holds exactly when no trip ever carries more than the capacity in any dimension, the distance limit is respected, and a schedule respecting all time constraints exists.", "quantifier": "all accepted routes", "why_tests_cant": "Combines three universally quantified constraints.", "anchors": ["pyvrp/cpp/Route.cpp: isFeasible, hasExcessLoad, hasExcessDistance, hasTimeWarp"]}
{"id": "C13", "title": "The Solution constructor accepts exactly the valid solutions", "statement": "Solution(data, routes) succeeds if and only if there are no more routes than vehicles, no route is empty, no client and no shipment is visited more than once, no mutually exclusive group has more than one visited client, and no vehicle type is used more often than it is available; otherwise it raises.", "quantifier": "all lists of routes", "why_tests_cant": "All combinations of routes, groups and vehicle types.", "anchors": ["pyvrp/cpp/Solution.cpp: Solution(ProblemData, Routes)"]}
{"id": "C14", "title": "Completeness and feasibility of solutions", "statement": "num_missing_clients/groups/shipments count exactly the required clients, required groups and required shipments that are not visited; is_complete() holds iff all are visited; is_feasible() holds iff it is complete and every route is feasible.", "quantifier": "all accepted solutions", "why_tests_cant": "Every data set and every solution.", "anchors": ["pyvrp/cpp/Solution.cpp: isFeasible, isComplete, constructor"]}
{"id": "C15", "title": "Solution totals and unplanned activities", "statement": "Distance, duration, time warp, excess, cost and prize totals of a Solution are the sums over its routes; unplanned() lists exactly the client and shipment activities not visited, each once; uncollected_prizes() equals the total prize of unplanned clients and shipments.", "quantifier": "all accepted solutions", "why_tests_cant": "All data and all solutions.", "anchors": ["pyvrp/cpp/Solution.cpp: evaluate, unplanned"]}
{"id": "C16", "title": "Objective value", "statement": "CostEvaluator.penalised_cost(solution) is the sum over routes of distance cost, duration cost and fixed cost, plus uncollected prizes, plus the penalties for excess load, time warp and excess distance; penalties are zero for feasible solutions so cost() of a feasible solution does not depend on the penalty values; cost() of an infeasible solution is the maximal cost value.", "quantifier": "all solutions, all penalty values", "why_tests_cant": "Universally quantified over solutions and penalty parameters.", "anchors": ["pyvrp/cpp/CostEvaluator.h: penalisedCost, cost, loadPenalty, twPenalty, distPenalty, excessLoadPenalties", "pyvrp/cpp/Route.cpp: penalisedCost", "pyvrp/cpp/Solution.cpp: penalisedCost"]}
{"id": "C17", "title": "Solution equality ignores route order", "statement": "Two solutions of the same instance compare equal exactly when their routes are the same up to order (same vehicle types and same activity sequences); equality is reflexive, symmetric and transitive, and equal solutions have equal hash.", "quantifier": "all pairs and triples of solutions", "why_tests_cant": "Permutations of unbounded lists.", "anchors": ["pyvrp/cpp/Solution.cpp: operator==, std::hash<Solution>", "pyvrp/cpp/Route.cpp: operator=="]}
{"id": "C18", "title": "Random solutions are valid and complete", "statement": "Solution.make_random never raises, whatever the random numbers are: it uses no more routes than vehicles, visits every required client, required group and required shipment, visits at most one client of each group, never splits or reorders a shipment, and hence the result has no missing clients, groups or shipments.", "quantifier": "all valid problem data, all random number streams", "why_tests_cant": "All random streams.", "anchors": ["pyvrp/cpp/Solution.cpp: Solution(ProblemData, RandomNumberGenerator)"]}
{"id": "C19", "title": "Pickling preserves routes and solutions", "statement": "Unpickling a pickled Route or Solution yields an equal object that answers every query as the original did, including fixed_vehicle_cost(), unplanned() and its cost under any CostEvaluator.", "quantifier": "all routes and solutions", "why_tests_cant": "Equality in tests does not compare all fields.", "anchors": ["pyvrp/cpp/bindings.cpp: Route/Solution __getstate__/__setstate__", "pyvrp/cpp/Route.cpp: unserialising constructor", "pyvrp/cpp/Solution.cpp: unserialising constructor"]}
{"id": "C20", "title": "Search routes agree with routes", "statement": "After any sequence of insertions, removals and swaps followed by an update, the search representation of a route reports exactly the distance, duration, time warp, excess load and costs that a Route constructed from the same activities reports.", "quantifier": "all activity sequences, including reload depots and release times", "why_tests_cant": "The two classes use different recurrences; agreement must hold for all routes.", "anchors": ["pyvrp/cpp/search/Route.cpp: update, insert, remove, swap", "pyvrp/cpp/Route.cpp: setSchedule, setLoad, setDistance"]}
{"id": "C21", "title": "Proposed routes are evaluated exactly", "statement": "The distance, duration, time warp and excess load of a proposal assembled from a prefix, inserted or reused segments and a suffix equal those of the route that results from actually performing the change.", "quantifier": "all routes, all split points, all segment combinations used by the operators, including segments starting or ending at reload depots", "why_tests_cant": "All combinations of split points, trips and release times.", "anchors": ["pyvrp/cpp/search/Route.h: Proposal::distance, duration, excessLoad, SegmentBefore/Between/After"]}
{"id": "C22", "title": "Delta costs are exact when they matter", "statement": "CostEvaluator's delta evaluation of a proposal returns either the exact difference in penalised cost, or (when it stops early) a non-negative number in a case where the exact difference is non-negative too; so no improving move is missed by the early exit and no worsening move is accepted.", "quantifier": "all proposals, all penalty values, one- and two-route moves", "why_tests_cant": "The early exits depend on partial sums; all sign combinations matter.", "anchors": ["pyvrp/cpp/CostEvaluator.h: deltaCost"]}
{"id": "C23", "title": "Skipping distance or duration evaluation is safe", "statement": "Whenever the delta evaluation skips distance (no distance cost and no distance limit) or duration (no time windows, no duration or overtime cost, no duration limit) the skipped terms are zero for every route of that vehicle type, also in presence of release times.", "quantifier": "all problem data and routes for which the skip applies", "why_tests_cant": "The skip condition inspects the data only; the claim is about all routes.", "anchors": ["pyvrp/cpp/search/Route.h: hasDistanceCost, hasDurationCost", "pyvrp/cpp/ProblemData.cpp: hasTimeWindows"]}
{"id": "C24", "title": "Local search moves do what they claim", "statement": "For every local search operator, the cost change reported for an applicable move equals the change in penalised cost caused by applying it, the move keeps every client and shipment visited at most once, and it never separates a pickup from its delivery or puts the delivery first.", "quantifier": "all operators, all routes and nodes to which they apply", "why_tests_cant": "All positions in all routes.", "anchors": ["pyvrp/cpp/search/Relocate.h", "pyvrp/cpp/search/Swap.h", "pyvrp/cpp/search/SwapTails.cpp", "pyvrp/cpp/search/InsertOptionalClient.cpp", "pyvrp/cpp/search/RemoveOptionalClient.cpp", "pyvrp/cpp/search/ReplaceOptionalClient.cpp", "pyvrp/cpp/search/RelocateShipment.cpp"]}
{"id": "C25", "title": "Local search never makes a complete solution worse and terminates", "statement": "Every move the local search applies strictly lowers the penalised cost, or keeps it and removes a reload depot; hence on integer costs the search stops after finitely many moves and the returned solution's penalised cost is not higher than that of the solution it started improving from.", "quantifier": "all start solutions, all operator sets, all orders in which moves are tried", "why_tests_cant": "All runs of the search.", "anchors": ["pyvrp/cpp/search/LocalSearch.cpp: search, applyUnaryOps, applyBinaryOps"]}
{"id": "C26", "title": "Loading and unloading a solution in the search loses nothing", "statement": "Loading a Solution into the local search and exporting it again gives an equal solution.", "quantifier": "all solutions", "why_tests_cant": "All solutions, all vehicle type distributions.", "anchors": ["pyvrp/cpp/search/Solution.cpp: load, unload"]}
{"id": "C27", "title": "Perturbation is bounded", "statement": "A perturbation step changes at most the drawn number of perturbations, that number always lies between the configured minimum and maximum, and no client or shipment is both removed and re-inserted within one step.", "quantifier": "all parameters, all solutions, all random streams", "why_tests_cant": "All random draws.", "anchors": ["pyvrp/cpp/search/PerturbationManager.cpp"]}
{"id": "C28", "title": "The solver returns the best solution seen", "statement": "The solution returned by the iterated local search is the initial solution or one produced by the search, a feasible incumbent is never replaced by an infeasible one, and its cost is never higher than the cost of any earlier incumbent, provided the exhaustive search does not turn a feasible new best solution into a costlier one (without exhaustive_on_best no condition is needed).", "quantifier": "all search methods, all stopping criteria, all histories of iterations", "why_tests_cant": "All histories.", "anchors": ["pyvrp/IteratedLocalSearch.py: run"]}
{"id": "C29", "title": "Restart and late acceptance", "statement": "The current solution is replaced by a candidate exactly when the candidate's penalised cost is below that of the current solution or of the solution of history_length iterations ago; after num_iters_no_improvement >= 1 iterations without a new best the search restarts from the best solution with an empty history.", "quantifier": "all histories of iterations", "why_tests_cant": "All histories.", "anchors": ["pyvrp/IteratedLocalSearch.py: run", "pyvrp/RingBuffer.py"]}
{"id": "C30", "title": "Stopping criteria", "statement": "MaxIterations(n) lets exactly n iterations run; NoImprovement(n) stops at the first call at which the best cost has not strictly improved during the last n calls; FirstFeasible stops iff the best cost is finite; MultipleCriteria stops iff one of its criteria does; MaxRuntime stops iff more than the given time has passed since its first call. The solver itself performs exactly n iterations under MaxIterations(n).", "quantifier": "all sequences of best costs", "why_tests_cant": "All histories of calls.", "anchors": ["pyvrp/stop/MaxIterations.py", "pyvrp/stop/NoImprovement.py", "pyvrp/stop/FirstFeasible.py", "pyvrp/stop/MultipleCriteria.py", "pyvrp/stop/MaxRuntime.py"]}
{"id": "C31", "title": "Penalties stay within bounds and move in the right direction", "statement": "The penalty manager's penalties always lie within [min_penalty, max_penalty], change only once every solutions_between_updates registrations, increase (up to the maximum) when too few registered solutions were feasible, decrease (down to the minimum) when too many were, and cost_evaluator() never raises. At an update other than the first, one warning is given for each penalty at its maximum with too few feasible solutions and an average violation that did not become smaller; otherwise there are no warnings. The default initial penalties are half-way between the bounds, the same for each kind of violation.", "quantifier": "all sequences of registered solutions, all valid parameters", "why_tests_cant": "All histories of registrations.", "anchors": ["pyvrp/PenaltyManager.py"]}
{"id": "C32", "title": "Ring buffer", "statement": "RingBuffer(n) behaves like a circular window of length n: peek returns the element stored n appends/skips ago (or None), append overwrites exactly that element, skip keeps it, clear empties, and len never exceeds n.", "quantifier": "all sequences of operations, all n > 0", "why_tests_cant": "All operation sequences.", "anchors": ["pyvrp/RingBuffer.py"]}
{"id": "C33", "title": "Random number generator", "statement": "The generator never gets stuck: its state never becomes all zero from a seed, distinct states have distinct successors, randint(high) is always in [0, high), and shuffle always produces a permutation.", "quantifier": "all seeds, all states, all lists", "why_tests_cant": "2^128 states.", "anchors": ["pyvrp/cpp/RandomNumberGenerator.cpp", "pyvrp/cpp/RandomNumberGenerator.h"]}
{"id": "C34", "title": "Dynamic bitset", "statement": "A DynamicBitset of any size behaves as a set of indices: reading an index returns the last value written to it and writing one index never changes another, and |, &, ^, ~ and count/any/none/all agree with the set operations on the indices below len.", "quantifier": "all sizes, all indices, all operation sequences", "why_tests_cant": "All sizes across block boundaries.", "anchors": ["pyvrp/cpp/DynamicBitset.cpp", "pyvrp/cpp/DynamicBitset.h"]}
{"id": "C35", "title": "Piecewise linear functions", "statement": "A PiecewiseLinearFunction built from points passes through every given point that is not overridden by a later point at the same x, is linear between consecutive points, is right-continuous at jumps, and is_monotonically_increasing() is True exactly when the function is non-decreasing.", "quantifier": "all accepted point lists, all arguments", "why_tests_cant": "All arguments and point lists.", "anchors": ["pyvrp/cpp/PiecewiseLinearFunction.h"]}
{"id": "C36", "title": "Constructors reject malformed data", "statement": "Client, Depot, Shipment, VehicleType and ClientGroup constructors raise exactly on the documented malformed inputs, pad load vectors to equal length, and VehicleType.max_duration is shift_duration + max_overtime saturated at the maximum; replace() with no arguments gives an equal object and replace() with arguments changes exactly those attributes.", "quantifier": "all argument combinations", "why_tests_cant": "All argument combinations.", "anchors": ["pyvrp/cpp/Client.cpp", "pyvrp/cpp/Depot.cpp", "pyvrp/cpp/Shipment.cpp", "pyvrp/cpp/VehicleType.cpp", "pyvrp/cpp/ClientGroup.cpp"]}
{"id": "C37", "title": "Problem data is internally consistent", "statement": "Every ProblemData that can be constructed has in-range cross references (locations, depots, groups, profiles), group membership lists agreeing with the clients' group fields, equal load dimensions everywhere, and square zero-diagonal matrices; replace() of nothing yields the same data.", "quantifier": "all argument combinations", "why_tests_cant": "All data sets.", "anchors": ["pyvrp/cpp/ProblemData.cpp: validate, replace"]}
{"id": "C38", "title": "Activity text form", "statement": "str() of an Activity can be parsed back to the same activity, different activities have different text, and other strings are rejected.", "quantifier": "all activity types and indices", "why_tests_cant": "Unbounded indices.", "anchors": ["pyvrp/cpp/Activity.cpp", "pyvrp/cpp/Activity.h"]}
{"id": "C39", "title": "Model edges become matrix entries", "statement": "Model.data() gives, for each profile and ordered pair of locations, the distance and duration of the last profile edge added for that pair, else of the last base edge, else the missing value, and zero on the diagonal; data entered is never silently dropped. A call that adds something succeeds exactly if what it refers to is in the model and its arguments are acceptable (in particular, a required client cannot join a group), and raises ValueError otherwise.", "quantifier": "all sequences of add_location/add_edge/add_profile calls", "why_tests_cant": "All build sequences.", "anchors": ["pyvrp/Model.py: add_edge, data"]}
{"id": "C40", "title": "Neighbourhoods", "statement": "compute_neighbours gives every client and pickup a duplicate-free list of the requested length (or all possible neighbours if fewer) that never contains the node itself or, for a pickup, its own delivery, and every listed neighbour is at least as close as every unlisted one.", "quantifier": "all problem data, all parameters", "why_tests_cant": "All instances.", "anchors": ["pyvrp/cpp/search/neighbourhood.cpp"]}
{"id": "C41", "title": "Fleet minimisation", "statement": "minimise_fleet returns a vehicle type with at least one and at most the original number of vehicles, never goes below the load-based lower bound, that bound is never higher than the number of vehicles of any feasible solution, and it does not raise for single-vehicle-type instances. If it saves vehicles, some feasible solution that was found uses exactly the returned number of vehicles; if the result is above the bound, one vehicle less was tried without success.", "quantifier": "all instances, all solver behaviours", "why_tests_cant": "All instances and solver outcomes.", "anchors": ["pyvrp/minimise_fleet.py"]}
{"id": "C42", "title": "Statistics", "statement": "Statistics collects exactly one datum per iteration, survives a write/read CSV round trip, and Result.cost() is the best solution's cost if feasible and infinite otherwise.", "quantifier": "all histories", "why_tests_cant": "All histories.", "anchors": ["pyvrp/Statistics.py", "pyvrp/Result.py"]}
{"id": "C43", "title": "Search space bookkeeping", "statement": "Marking a client, pickup or delivery as promising affects exactly that node (and shipment) and never another, unmarking all clears everything, and the search orders always remain permutations of all nodes and routes.", "quantifier": "all sequences of mark/unmark/shuffle operations", "why_tests_cant": "All operation sequences and index combinations.", "anchors": ["pyvrp/cpp/search/SearchSpace.cpp"]}
{"id": "C44", "title": "Pickling preserves problem data", "statement": "Unpickling a pickled Client, Depot, Shipment, ClientGroup, VehicleType or ProblemData never raises and yields exactly the original object, including derived values such as padded load vectors and the maximum duration.", "quantifier": "all objects made by their constructors", "why_tests_cant": "Every combination of arguments; the constructors validate and normalise again on unpickling.", "anchors": ["pyvrp/cpp/bindings.cpp: pickling of Location, Client, Depot, Shipment, ClientGroup, VehicleType, ProblemData"]}
{"id": "C45", "title": "Duration segments over several trips", "statement": "After closing any number of trips with finalise_back(), merging in the next trip gives a duration() and time_warp() that are the least possible over all departure times for driving all trips one after the other; closing keeps both; end_early() and end_late() are the ends of the current trip; slack() is the amount of time by which the start of the current trip can be delayed without increasing the overall duration.", "quantifier": "all sequences of trips of any length", "why_tests_cant": "All sequences of trips, release times and windows; the tests use two trips with fixed numbers.", "anchors": ["pyvrp/cpp/DurationSegment.h: finaliseBack, finaliseFront, duration, timeWarp, endEarly, endLate", "pyvrp/cpp/DurationSegment.cpp: slack"]}
{"id": "C46", "title": "The local search returns a valid solution", "statement": "Calling the local search with any valid solution, after any history of construction, adding operators, setting neighbours, shuffling and earlier calls, either never returns or returns a solution that the Solution and Route constructors accept, in which no required client, shipment or group is missing; it never raises.", "quantifier": "all instances, solutions, cost evaluators, neighbourhoods, operator lists, perturbation parameters, random numbers and histories of calls", "why_tests_cant": "The result depends on the whole history of moves, perturbations and repairs; every one of them edits shared mutable routes.", "anchors": ["pyvrp/cpp/search/LocalSearch.cpp: operator(), search, applyUnaryOps, applyBinaryOps, ensureStructuralFeasibility, loadSolution", "pyvrp/cpp/search/Solution.cpp: load, unload, insert", "pyvrp/cpp/search/PerturbationManager.cpp"]}
{"id": "C47", "title": "solve returns a valid result", "statement": "solve() called with valid arguments never raises; when it returns, the best solution of the result is one that the Solution and Route constructors accept, and it is complete unless it is the caller's own incomplete initial solution. If the stopping criterion eventually says stop, then solve() returns, and the result is not worse than a feasible initial solution. Without an initial solution, the run starts from a solution that is locally optimal for the largest penalties and no worse than a random one, and its result is not worse than that solution if it is feasible. With MaxIterations(n) the result reports exactly n iterations.", "quantifier": "all instances, parameters, operators, initial solutions, stopping criteria, clocks and random numbers", "why_tests_cant": "A run goes through arbitrarily many iterations of a randomised search; tests sample a few seeds and instances.", "anchors": ["pyvrp/solve.py: solve, SolveParams", "pyvrp/IteratedLocalSearch.py: run", "pyvrp/search/LocalSearch.py: __call__", "pyvrp/stop"]}
{"id": "C48", "title": "Operators find every improving move of their kind", "statement": "Whenever a move that an operator is documented to make (moving, swapping, inserting, removing or replacing these activities at this place) would lower the penalised cost, evaluating the operator at the nodes concerned says that there is a move to apply; a reload depot is also removed when that costs nothing.", "quantifier": "all instances, cost evaluators, search solutions, pairs of nodes, operators, moves of an operator and histories of its cache", "why_tests_cant": "Operators skip pairs by many conditions (trips, shipments on board, adjacency, symmetry, caches, early exits); tests try a few pairs on a few routes and cannot show that no improving pair is skipped.", "anchors": ["pyvrp/cpp/search/Relocate.h: evaluate", "pyvrp/cpp/search/Swap.h: evaluate", "pyvrp/cpp/search/SwapTails.cpp: evaluate", "pyvrp/cpp/search/RelocateWithDepot.cpp", "pyvrp/cpp/search/RelocateAlternative.cpp", "pyvrp/cpp/search/InsertOptionalClient.cpp", "pyvrp/cpp/search/ReplaceOptionalClient.cpp", "pyvrp/cpp/search/InsertOptionalShipment.cpp", "pyvrp/cpp/search/ReplaceOptionalShipment.cpp", "pyvrp/cpp/search/RelocateShipment.cpp", "pyvrp/cpp/search/RelocatePickup.cpp", "pyvrp/cpp/search/RelocateDelivery.cpp", "pyvrp/cpp/search/RemoveAdjacentDepot.cpp", "pyvrp/cpp/search/RemoveOptionalClient.cpp", "pyvrp/cpp/search/RemoveOptionalShipment.cpp", "pyvrp/cpp/search/ReplaceGroup.cpp"]}
{"id": "C49", "title": "What an exhaustive local search returns is locally optimal", "statement": "After an exhaustive call of the local search, no move of a registered operator lowers the penalised cost of the returned solution: with any client or pickup and the first unused vehicle of each type, and with any client or pickup next to its neighbours in the routes. Searching the result again finds nothing to improve.", "quantifier": "all instances, cost evaluators, registered operators and neighbourhoods, histories of the search object, and initial solutions", "why_tests_cant": "The search skips pairs of nodes whose routes it believes have not changed since it last tested them; that this bookkeeping never skips an improving pair depends on the whole history of the search.", "anchors": ["pyvrp/cpp/search/LocalSearch.cpp: search, applyUnaryOps, applyBinaryOps, applyEmptyRouteMoves, update", "pyvrp/cpp/search/LocalSearch.h: lastTest_, lastUpdate_", "tests/search/test_LocalSearch.py: tests that say the result is locally optimal"]}
{"id": "C50", "title": "Clients and shipments are inserted where that is cheapest", "statement": "Inserting a client or shipment that is not visited puts it in the cheapest of the places considered: next to a neighbour that is visited (for a shipment, with the delivery anywhere later on the same trip) or in an unused vehicle. If it is not required it is inserted exactly if one of these lowers the penalised cost; otherwise nothing changes.", "quantifier": "all instances, cost evaluators, search spaces, search solutions and clients or shipments that are not visited", "why_tests_cant": "The cost of each place is computed from cached segments, for shipments from segments that grow along the route. That these agree with the cost of the solution one gets, for all routes and places, is beyond what a few instances show.", "anchors": ["pyvrp/cpp/search/Solution.cpp: insert, insertCost, IncrementalSegmentBetween", "pyvrp/cpp/search/Solution.h: insert", "pyvrp/search/_search.pyi: Solution.insert"]}
{"id": "C51", "title": "Solution files", "statement": "For an instance as read() makes it, a solution written to a file by the command line program is read back by read_solution() as an equal solution, for one and for several vehicle types. Whatever read_solution() returns has the routes that the file lists, in order and without the empty ones, with the vehicle types of the vehicles that the line numbers stand for.", "quantifier": "all instances with one activity per location and vehicle types named after their vehicles, all solutions, all files", "why_tests_cant": "Writing maps routes to vehicles through the names of vehicle types and activities to numbers of locations; reading has to invert both, for every fleet and every mix of depots, clients and shipments. A few files do not show that.", "anchors": ["pyvrp/cli.py: write_solution", "pyvrp/read.py: read_solution"]}
{"id": "C52", "title": "Instance files", "statement": "read() turns the sections of a VRPLIB file into the problem that the file describes: the depots are the first locations, the clients are the following ones with the rounded demands, backhauls, service times, time windows, release times and prizes of their lines; groups are those of the file with several members; every vehicle belongs to exactly one vehicle type, whose attributes are those of the vehicle and whose distances are the edge weights, prohibitive to and from places the vehicle may not visit; shipments pair the lines of the file. A warning is given if and only if a distance is too large, depots elsewhere are rejected, and solutions of an instance that was read can be written and read back.", "quantifier": "all files (as dictionaries of sections), all rounding functions that keep zero", "why_tests_cant": "Each section is optional and comes in several shapes, indices are shifted by one or by the number of depots, and vehicles are grouped by nine attributes. Tests read a handful of files, and none with two depots and shipments.", "anchors": ["pyvrp/read.py: read, _InstanceParser, _ProblemDataBuilder", "pyvrp/cpp/bindings.h: type_caster"]}
{"id": "C53", "title": "Assertions never fail", "statement": "A build of PyVRP with assertions enabled does the same as one without. While the local search loads, perturbs and repairs a solution, evaluates moves, applies them and returns the improved solution, no assertion fails, no array is accessed outside of its bounds, no route is evaluated before it was updated, and no unsigned index becomes negative. In particular a move changes the penalised cost by exactly what its evaluation said.", "quantifier": "all instances whose distances are not negative and whose routes are evaluated exactly, all cost evaluators, all histories of the local search, all sets and orders of operators, all solutions, any number of rounds", "why_tests_cant": "The assertions guard undefined behaviour in release builds, where they are compiled out. Whether one can fail depends on the state the search has reached after any number of moves, and on every pair of nodes it looks at.", "anchors": ["pyvrp/cpp/search/LocalSearch.cpp: search, applyUnaryOps, applyBinaryOps, applyEmptyRouteMoves, update", "pyvrp/cpp/search/LocalSearch.cpp: operator(), ensureStructuralFeasibility", "pyvrp/cpp/search/Solution.cpp: load, unload, insert", "pyvrp/cpp/search/PerturbationManager.cpp: perturb", "pyvrp/cpp/search/Route.h: SegmentBefore, SegmentAfter, SegmentBetween, Proposal", "pyvrp/cpp/search/: Relocate, Swap, SwapTails, RelocateWithDepot, RelocateAlternative, RelocateShipment, RemoveAdjacentDepot, and the operators on optional clients and shipments"]}
{"id": "C54", "title": "Operators that do not support an instance can be left out", "statement": "`solve` adds an operator to the local search only if `supports(data)` is true. This loses nothing: an operator for which `supports(data)` is false finds no move to apply in any state of the local search, and a local search without these operators returns the same solution as one to which they are added.", "quantifier": "all instances, all operators, all states of the local search in which what is required is visited, all histories of the local search, all sets and orders of operators, all solutions and cost evaluators, any number of rounds", "why_tests_cant": "`supports` looks only at the instance, but stands for a claim about every solution of the instance and every pair of nodes in it. A test compares the answer for a few instances with what the author expected.", "anchors": ["pyvrp/solve.py: solve", "pyvrp/cpp/search/: supports of Relocate, Swap, SwapTails, RelocateWithDepot, RelocateAlternative, RelocateShipment, RelocatePickup, RelocateDelivery, RemoveAdjacentDepot, ReplaceGroup, and the operators on optional clients and shipments", "pyvrp/cpp/search/LocalSearch.cpp: operator(), search"]}
{"id": "C55", "title": "Numbers of moderate size do not overflow", "statement": "Distances, durations, loads and costs are 64-bit integers. Let distances, travel times, opening, release and service times, loads and prizes lie between 0 and B, let unit costs and penalties be at most M, and fixed costs within M*B. Then as long as (2 * load dimensions + 20) * M * B * n fits into 64 bits, constructing routes and solutions with n stops, clients and shipments in total, and computing their objective values, never overflows: all results are those of exact arithmetic. Upper limits (closing times, capacities, maximum distances and durations) may be as large as the largest 64-bit integer, as they are by default. Negative distances are excluded: with them an overflow can happen with small numbers.", "quantifier": "all instances that the constructors accept with times that are not negative, all bounds B and M, all routes, plans and solutions, all penalties up to M", "why_tests_cant": "An overflow happens only for particular combinations of numbers and lengths of routes, also in intermediate results that no test sees, and release builds do not report it.", "anchors": ["pyvrp/cpp/Measure.h: operator+, operator-, operator*", "pyvrp/cpp/DurationSegment.h: merge, timeWarp", "pyvrp/cpp/LoadSegment.h: merge", "pyvrp/cpp/Route.cpp: Route", "pyvrp/cpp/Solution.cpp: Solution, evaluate", "pyvrp/cpp/CostEvaluator.h: penalisedCost, cost"]}
{"id": "C56", "title": "What the command line reports is true, and its files can be read", "statement": "Solving an instance file from the command line does not raise when the file can be read and its numbers are sensible and no limit is negative. It ends if one of the limits is reached. The reported instance is marked OK exactly if the solution found is feasible, and then the reported cost is its objective value, otherwise it is infinite. A solution file, if asked for, ends with the reported cost, and reading it gives a solution equal to the one found up to the order of routes, which is just as feasible and costs the same. A statistics file, if asked for, can be read, has one line per iteration, and its last line agrees with the report. The number of iterations is within the limit, times the number of clients if limits are per client. A negative limit is rejected. The table of several instances has lines of equal length with each cell unabridged in its column.", "quantifier": "all instance files as parsed by vrplib, all seeds, limits and options, all clocks that do not go backwards, all parameters of the solver in their ranges, all tables", "why_tests_cant": "The reported values come from a randomised search on an arbitrary file and pass through two text formats; tests compare a few instances with known files.", "anchors": ["pyvrp/cli.py: _solve, tabulate, write_solution", "pyvrp/read.py: read, read_solution", "pyvrp/Statistics.py: to_csv, from_csv", "pyvrp/solve.py: solve", "pyvrp/stop: MaxIterations, MaxRuntime, NoImprovement, MultipleCriteria"]}
{"id": "C57", "title": "The statistics of the local search mean what they say", "statement": "After a call of the local search, `statistics` gives the number of evaluated moves, the number of improving moves and the number of updates. The first two are the sums over the operators. Each operator was evaluated as often as the one before it was evaluated without being applied, and applied at most as often as evaluated. The number of updates is the number of improving moves, plus the number of required clients, groups and shipments that had to be inserted, or removed, to complete the solution; so for a complete solution and an exhaustive search both are equal. Each improving move lowers the penalised cost, or keeps it and removes a depot. If an exhaustive search counts no update then it returns the given solution. The number of evaluated moves is at most (improving moves + 1) times clients and shipments times the number of operators, with binary operators counted twice per neighbour and once per vehicle type. Counting does not change what the search does.", "quantifier": "all instances that the constructors accept, all histories of the local search, all sets and orders of operators, all solutions and cost evaluators, exhaustive or not, any number of rounds", "why_tests_cant": "The numbers count events inside a search whose course depends on the instance, the solution and the order of operators. A test compares a few runs with bounds such as greater than zero.", "anchors": ["pyvrp/cpp/search/LocalSearch.cpp: statistics, search, applyUnaryOps, applyBinaryOps, applyEmptyRouteMoves, ensureStructuralFeasibility, update", "pyvrp/cpp/search/LocalSearch.h: Statistics", "pyvrp/cpp/search/LocalSearchOperator.h: OperatorStatistics, init, statistics"]}
{"id": "C58", "title": "Updating and evaluating routes in the local search does not overflow", "statement": "The local search keeps distances, duration segments and load segments for each position of each route, and combines them to evaluate a change. Let the numbers of the instance be bounded by B and M as in C55. Then as long as (4 * load dimensions + 200) * M * B * n plus the value that the evaluation starts from fits into 64 bits, updating a route with up to n stops after any sequence of changes, and evaluating the change in cost of one or two proposed routes of up to n stops, never overflows: the results are those of exact arithmetic. So where the evaluation is exact (C22), the 64-bit computation gives the difference of the objective values of the routes before and after the change.", "quantifier": "all instances that the constructors accept with times that are not negative, all bounds B and M, all histories of routes, all proposals made of the start of a route followed by any parts of routes and single stops, all starting values, all penalties up to M, with and without early exit", "why_tests_cant": "An overflow happens only for particular combinations of numbers, lengths of routes and positions, in intermediate results that no test sees, and release builds do not report it.", "anchors": ["pyvrp/cpp/search/Route.cpp: update", "pyvrp/cpp/search/Route.h: SegmentBefore, SegmentAfter, SegmentBetween, Proposal", "pyvrp/cpp/search/ClientSegment.h", "pyvrp/cpp/search/DepotSegment.h", "pyvrp/cpp/search/PickupSegment.h", "pyvrp/cpp/search/DeliverySegment.h", "pyvrp/cpp/CostEvaluator.h: deltaCost"]}
{"id": "C59", "title": "The printed text of routes, solutions and results is complete and true", "statement": "The text of a route lists its clients, pickups and deliveries in order, separated by spaces, with a bar for each visit to a reload depot: reading it gives these visits back, and it has one bar less than the route has trips. Two routes have the same text exactly if their visits are the same up to the choice of the reload depots; the text tells neither these nor the vehicle type. The text of a solution has one line per route, in order and numbered from one, so two solutions have the same text exactly if they have the same routes in the same order, up to reload depots and vehicle types. The text of a result states the numbers of routes, trips, clients and shipments of the best solution, its objective value (or that it is infeasible), its distance and duration, the number of iterations and the runtime, and then the routes.", "quantifier": "all instances, all routes and solutions that the constructors accept, all results", "why_tests_cant": "Whether the text can be read back without ambiguity depends on all combinations of visits and numbers; a test compares the text of a few solutions.", "anchors": ["pyvrp/cpp/Route.cpp: operator<<", "pyvrp/cpp/Solution.cpp: operator<<", "pyvrp/cpp/Activity.cpp: operator<<", "pyvrp/Result.py: summary, __str__"]}
{"id": "C60", "title": "The displayed progress is true and does not influence the run", "statement": "A run with display returns the same result as without, and raises exactly when it would without, except that a negative display interval is rejected. Nothing is displayed when display is off. Otherwise a line about an iteration is displayed exactly if statistics are collected and at least the display interval has passed since the last such line, so two lines are never closer than that. It gives the number of iterations, the time, and the costs and feasibility of the current, candidate and best solutions recorded for that iteration, and is marked exactly if the best solution is feasible and cheaper than every feasible best solution displayed before. Restarts are always displayed. The log of a run is the header, these lines in order, and the summary of the result.", "quantifier": "all search methods, stopping criteria and clock readings, all runs of any length, all display intervals, with or without statistics; and all sequences of calls of the printer", "why_tests_cant": "When lines appear depends on the clock and on the history of the run; tests call the printer once.", "anchors": ["pyvrp/ProgressPrinter.py: ProgressPrinter", "pyvrp/IteratedLocalSearch.py: run"]}
{"id": "C61", "title": "The operators of the local search do not overflow", "statement": "Let the numbers of the instance be bounded by B and M as in C55. As long as (40 * load dimensions + 2000) * M * B * n fits into 64 bits, every operator of the local search evaluates its moves without overflow in every state whose routes have at most n stops: the cost it reports, the decision to apply the move and the place it remembers are those of exact arithmetic. This includes the costs that operators keep and reuse in later evaluations, which stay within bounds.", "quantifier": "all instances that the constructors accept with times and distances that are not negative, all bounds B and M, all states of the local search between moves, all operators with their parameters, all clients and shipments and all places to move them to, all penalties up to M, all costs kept from earlier evaluations", "why_tests_cant": "An overflow happens only for particular combinations of numbers, routes, operators and moves, in intermediate results that no test sees, and release builds do not report it.", "anchors": ["pyvrp/cpp/search/Relocate.h", "pyvrp/cpp/search/Swap.h", "pyvrp/cpp/search/SwapTails.cpp", "pyvrp/cpp/search/RelocateWithDepot.cpp", "pyvrp/cpp/search/RemoveAdjacentDepot.cpp", "pyvrp/cpp/search/RelocateAlternative.cpp", "pyvrp/cpp/search/InsertOptionalClient.cpp", "pyvrp/cpp/search/RemoveOptionalClient.cpp", "pyvrp/cpp/search/ReplaceOptionalClient.cpp", "pyvrp/cpp/search/ReplaceGroup.cpp", "pyvrp/cpp/search/InsertOptionalShipment.cpp", "pyvrp/cpp/search/RemoveOptionalShipment.cpp", "pyvrp/cpp/search/ReplaceOptionalShipment.cpp", "pyvrp/cpp/search/RelocateShipment.cpp", "pyvrp/cpp/search/RelocatePickup.cpp", "pyvrp/cpp/search/RelocateDelivery.cpp"]}
{"id": "C62", "title": "A call of the local search does not overflow", "statement": "Let the numbers of the instance be bounded by B and M as in C55, and let n be at least the number of clients, plus twice the number of shipments, plus the number of trips of a vehicle, plus one. As long as (40 * load dimensions + 2000) * M * B * n fits into 64 bits, a call of the local search does not overflow: loading the given solution, perturbing it, repairing it and improving it for however many rounds give the solution, and leave the search object in the state, that exact arithmetic would.", "quantifier": "all instances that the constructors accept with times and distances that are not negative, all bounds B and M, all accepted solutions, exhaustive or not, all operators and neighbourhoods, all earlier uses of the search object, all penalties up to M, any number of rounds", "why_tests_cant": "Overflow depends on which moves are tried in which states, of which there are too many to try, and release builds do not report it.", "anchors": ["pyvrp/cpp/search/LocalSearch.cpp: LocalSearch::operator(), search, ensureStructuralFeasibility, update", "pyvrp/cpp/search/Solution.cpp: load, insert", "pyvrp/cpp/search/Route.cpp: update, clear", "pyvrp/cpp/search/PerturbationManager.cpp: perturb"]}
{"id": "C63", "title": "A run of solve does not overflow", "statement": "Let the numbers of the instance and the maximum penalty be bounded by B and M as in C55 and C62, and let n bound the length of routes as in C62. If (40 * load dimensions + 2000) * M * B * n and (2 * load dimensions + 20) * M * B * (clients + shipments + vehicles * n) fit into 64 bits, then solve does not overflow, however long it runs: the random initial solution, every call of the local search, the solutions it returns, and the costs by which solutions are accepted, compared and collected are those of exact arithmetic, and so is the result and its cost. With such numbers and a stopping criterion that stops, solve thus returns an accepted solution.", "quantifier": "all instances that the constructors accept with times and distances that are not negative, all bounds B and M, all parameters that the parameter classes accept, all seeds and random number generators, all stopping criteria, all accepted initial solutions or none, any number of iterations", "why_tests_cant": "Overflow depends on the solutions and penalties that occur during a run, which differ for each seed and each instance, and release builds do not report it.", "anchors": ["pyvrp/solve.py: solve", "pyvrp/IteratedLocalSearch.py: IteratedLocalSearch.run", "pyvrp/PenaltyManager.py: PenaltyManager", "pyvrp/cpp/Solution.cpp: Solution", "pyvrp/cpp/search/Solution.cpp: unload", "pyvrp/cpp/CostEvaluator.h: penalisedCost, cost"]}
{"id": "C64", "title": "Well-formed instance files are read, malformed ones refused", "statement": "An instance file without pickup-and-delivery pairs is read without an error, with each named rounding function, if it is well-formed: the depots are the first places and there is a vehicle, every section has a line per place or per vehicle (or one number for all where that is allowed), the rounded numbers are not negative, time windows are in order and clients are released before they end, groups consist of clients none of which is listed twice, vehicles name existing depots and places, load dimensions agree, and the edge weights are a square matrix with a zero diagonal. Conversely, a file that is read has its depots in the first places, a vehicle, a line for each vehicle in the sections about vehicles, clients with acceptable numbers, and groups of clients none of which is listed twice; a file that breaks one of these is refused with an error.", "quantifier": "all dictionaries of sections that the file parser may return, all named rounding functions, any number of places, vehicles and groups", "why_tests_cant": "Which sections a file has, in which of their shapes, and how groups, depots and vehicles refer to each other combine in unboundedly many ways; the test files exercise a few.", "anchors": ["pyvrp/read.py: read, _InstanceParser, _ProblemDataBuilder", "pyvrp/cpp/ProblemData.cpp: ProblemData"]}
{"id": "C65", "title": "Parameters read from a file", "statement": "SolveParams.from_file returns exactly the parameters that the file gives, with the documented default for each parameter it does not give; it raises if a section has a key that is not a parameter, a value is out of range, or an operator does not exist. Operators are those with the given names, in the given order. The order of the entries does not matter, and other entries at the top level are ignored, so that a section whose name is misspelt changes nothing. Every set of valid parameters can be given in a file. What has been read is fit for a run: solve does not raise because of it.", "quantifier": "all parsed TOML files whose finite values have the types of the parameters, with any number of entries, keys and operators", "why_tests_cant": "The test reads one file; which parameters are given, in which order and with which values combine in unboundedly many ways, and a wrong default or a swapped key goes unnoticed unless that combination is tried.", "anchors": ["pyvrp/solve.py: SolveParams.from_file", "pyvrp/IteratedLocalSearch.py: IteratedLocalSearchParams", "pyvrp/PenaltyManager.py: PenaltyParams", "pyvrp/cpp/search/bindings.cpp: NeighbourhoodParams, PerturbationParams"]}
{"id": "C66", "title": "Building a model and solving it", "statement": "A model built by calls of Model's methods can be solved: if the numbers in the calls, and the value for missing edges after it is capped, are moderate (such that the longest possible route does not overflow), and there are no release times or no vehicles that may reload, then Model.solve raises exactly when Model.data raises, with the same error; otherwise, for every seed, every valid parameters and a stopping criterion that eventually stops, it returns a result whose solution belongs to the data and visits everything required, or is the initial solution, and is not worse than a feasible initial solution. With the default value for missing edges this covers models with tens of thousands of stops.", "quantifier": "all sequences of calls of Model's methods that succeed, all missing values, seeds, parameters, stopping criteria and initial solutions", "why_tests_cant": "Tests solve a handful of models; which objects are added in which order, which edges are missing and what the solver then does with the resulting matrices varies without bound.", "anchors": ["pyvrp/Model.py: Model.solve, Model.data", "pyvrp/solve.py: solve"]}
{"id": "C67", "title": "The command line with several instances", "statement": "Solving several instance files from the command line solves each of them once and prints a table with one row per instance, in the order of their paths; each row, and each file that is written, is true about that instance's solution as for a single instance. The averages and the number of infeasible instances are those of the rows, and the average objective is infinite if some solution is infeasible. The order of the arguments does not matter. If the names of the instances differ, every instance's solution and statistics files are there afterwards, in whichever order the processes write them, and no other file is touched. If one instance raises, the command raises. (False without different names: same-named files in different directories overwrite each other's output. Names longer than 37 characters are cut in the table.)", "quantifier": "all non-empty lists of paths, all contents of their files that can be read and have sensible numbers, all limits, seeds and parameter files, all orders in which files are written", "why_tests_cant": "The number of instances, their names, the outcome of each run and the order in which processes finish vary without bound.", "anchors": ["pyvrp/cli.py: benchmark, _solve, tabulate", "pyvrp/solve.py: SolveParams.from_file"]}
{"id": "C68", "title": "The plotted schedule of a route", "statement": "The lines drawn by plot_route_schedule are true about the route: every entry of its schedule gives three points at the distance travelled so far, on arrival, at the start and at the end, with the time, the driving time, and the driving and service time so far, and a line for its time window. The lines end at the route's distance, travel duration and service duration. There is a mark exactly for each late entry, from the time at which the vehicle arrives to the end of the time window. If there is slack, it is shown as the time line moved up by the slack; for a route without time warp the slack is exactly how much later all entries can be with every one of them in its time window and the vehicle leaving and returning in time. For routes of one trip whose vehicle is empty in the beginning, the load is what is on board. (False: with reloads the load of all trips is shown on board from the start, and an initial load of the vehicle is not shown; the slack is also shown for routes with time warp, against the documentation.)", "quantifier": "all consistent instances, all routes that can be constructed, all load dimensions", "why_tests_cant": "Tests of plots compare images of a few routes; the number of visits, trips and load dimensions and all their numbers vary without bound.", "anchors": ["pyvrp/plotting/plot_route_schedule.py: plot_route_schedule"]}
{"id": "C69", "title": "The plotted solution", "statement": "plot_solution never raises for a solution and shows the truth about it: the arrows and lines drawn for each route are, in order, the legs of its schedule between the coordinates of the places, other than legs from a depot to a depot; every visit is a point of its trip's line, or a dot if it is alone in its trip; with plot_locations every visit is a dot, and what is not visited is shown as separate dots exactly if there is something. All depots are shown. (False for legs from a depot to a depot: a trip without visits is not drawn, even if its depots are at different places.)", "quantifier": "all instances, all routes and solutions that can be constructed, both values of plot_locations", "why_tests_cant": "Tests of plots compare images of a few solutions; the number of routes, trips and visits vary without bound.", "anchors": ["pyvrp/plotting/plot_solution.py: plot_solution"]}
{"id": "C70", "title": "The plots of results and instances", "statement": "The plot of a result of a run that collected statistics shows, for each iteration that is not skipped, the recorded current, candidate and best costs at the number of that iteration (by default the first twentieth is skipped), the line of best costs not increasing from the first feasible one on (if exhaustive search never makes a feasible solution costlier) and ending at the cost of the result, within the limits of the axis, if that is feasible, the runtime of each iteration, the line that fits these best (if there is more than one iteration), and the best solution; it never raises. The plot of an instance shows one bar per client from opening to closing time, sorted by these, the sorted delivery amounts, and every depot, client, pickup and delivery at its coordinates. (False: the fitted line is drawn one iteration too early; plotting a result without statistics raises if there was an iteration; plotting a valid instance without clients or without load dimensions raises.)", "quantifier": "all runs with any search method, stopping criterion and number of iterations, all numbers of iterations to skip, all instances and load dimensions", "why_tests_cant": "Tests of plots compare images of a few results and instances; the number of iterations, clients and load dimensions vary without bound.", "anchors": ["pyvrp/plotting/plot_result.py: plot_result", "pyvrp/plotting/plot_objectives.py: plot_objectives", "pyvrp/plotting/plot_runtimes.py: plot_runtimes", "pyvrp/plotting/plot_instance.py: plot_instance", "pyvrp/plotting/plot_time_windows.py: plot_time_windows", "pyvrp/plotting/plot_demands.py: plot_demands", "pyvrp/plotting/plot_coordinates.py: plot_coordinates"]}
