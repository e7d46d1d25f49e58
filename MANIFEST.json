{
 "claims": [
  {
   "property": "C01",
   "status": "proved",
   "theorems": [
    "PyVRP.C01_release_time",
    "PyVRP.C01_segment_computes_drive",
    "PyVRP.C01_start_window_is_optimal",
    "PyVRP.C01_time_warp_max_duration"
   ],
   "note": "For every tree of merges: duration/time warp/start window of the merged segment are those of driving the flat list of stops."
  },
  {
   "property": "C02",
   "status": "proved",
   "theorems": [
    "PyVRP.C02_duration_merge_assoc",
    "PyVRP.C02_duration_split_independent",
    "PyVRP.C02_load_merge_assoc",
    "PyVRP.C02_load_split_independent"
   ],
   "note": "Associativity and independence of the split point for duration and load segments."
  },
  {
   "property": "C03",
   "status": "proved",
   "theorems": [
    "PyVRP.C03_excess_load",
    "PyVRP.C03_initial_load",
    "PyVRP.C03_load_is_peak"
   ],
   "note": "load() is the maximum of the amounts on board; excess adds up over finalised trips."
  },
  {
   "property": "C04",
   "status": "proved",
   "theorems": [
    "PyVRP.C04_delivery_and_pickup",
    "PyVRP.C04_excess_load"
   ],
   "note": "Excess load as sum over trips of peak above capacity; delivery and pickup totals."
  },
  {
   "property": "C05",
   "status": "proved",
   "theorems": [
    "PyVRP.C05_route_accepts_exactly_wellformed"
   ],
   "note": "Accepts iff well-formed (independent spec), any failure is a ValueError. Hypotheses: list shorter than SIZE_MAX, max_reloads fits size_t."
  },
  {
   "property": "C06",
   "status": "partial",
   "theorems": [
    "PyVRP.C06_reloads_elsewhere_accepted",
    "PyVRP.C06_reloads_partial"
   ],
   "note": "False of the code: C06_reloads_elsewhere_accepted exhibits an accepted route that reloads at a depot not in reload_depots. Proved: reloads are existing depots and bounded by max_reloads."
  },
  {
   "property": "C07",
   "status": "proved",
   "theorems": [
    "PyVRP.C07_counts",
    "PyVRP.C07_getitem",
    "PyVRP.C07_schedule_lists_activities",
    "PyVRP.C07_trip_indices"
   ],
   "note": "Schedule activities, trip indices, counts, indexing."
  },
  {
   "property": "C08",
   "status": "proved",
   "theorems": [
    "PyVRP.C08_distance"
   ],
   "note": "Distance as sum over consecutive places; cost and excess."
  },
  {
   "property": "C09",
   "status": "proved",
   "theorems": [
    "PyVRP.C09_duration_parts",
    "PyVRP.C09_slack",
    "PyVRP.C09_start_time_is_earliest",
    "PyVRP.C09_start_time_is_optimal",
    "PyVRP.C09_time_warp"
   ],
   "note": "Optimality of start time, slack, duration and time warp against an explicit drive simulation; assumes earliest and release times at most half the integer range and non-negative durations."
  },
  {
   "property": "C10",
   "status": "proved",
   "theorems": [
    "PyVRP.C10_no_time_warp_iff_drivable"
   ],
   "note": "has_time_warp() is false iff a timetable exists (same data assumptions as C09)."
  },
  {
   "property": "C11",
   "status": "partial",
   "theorems": [
    "PyVRP.C11_entries_follow",
    "PyVRP.C11_sums_fail",
    "PyVRP.C11_sums_partial",
    "PyVRP.C11_sums_without_time_warp",
    "PyVRP.C11_window_fails"
   ],
   "note": "False in general (C11_sums_fail, C11_window_fails). Proved: entries follow each other and lie in their windows (first entry: if the start is not after start_late); sums exact under three explicit conditions, and always for routes without time warp."
  },
  {
   "property": "C12",
   "status": "proved",
   "theorems": [
    "PyVRP.C12_feasible_iff"
   ],
   "note": "is_feasible() iff loads, distance and times are all within limits."
  },
  {
   "property": "C13",
   "status": "proved",
   "theorems": [
    "PyVRP.C13_solution_accepts_exactly_valid",
    "PyVRP.C13_visits"
   ],
   "note": "For every plan and the routes the Route constructor makes of it: accepted iff ValidPlan (Spec/SolutionSpec.lean), else RuntimeError."
  },
  {
   "property": "C14",
   "status": "proved",
   "theorems": [
    "PyVRP.C14_feasible_iff",
    "PyVRP.C14_missing"
   ],
   "note": "Missing counts, is_complete and is_feasible against the plan; feasibility iff complete and every route feasible."
  },
  {
   "property": "C15",
   "status": "proved",
   "theorems": [
    "PyVRP.C15_totals",
    "PyVRP.C15_unplanned"
   ],
   "note": "Totals are sums over routes; unplanned lists exactly the unvisited; uncollected prizes are those of the unplanned."
  },
  {
   "property": "C16",
   "status": "proved",
   "theorems": [
    "PyVRP.C16_cost",
    "PyVRP.C16_penalised_cost"
   ],
   "note": "For every penalty function with the properties of the code's rounding (IsPenalty; ratPenalty instantiates it). Values in unbounded Int."
  },
  {
   "property": "C17",
   "status": "proved",
   "theorems": [
    "PyVRP.C17_equal_iff",
    "PyVRP.C17_equivalence",
    "PyVRP.C17_fields"
   ],
   "note": "Equality iff plans are permutations of each other; equivalence relation; equal hash."
  },
  {
   "property": "C18",
   "status": "proved",
   "theorems": [
    "PyVRP.C18_random_valid_complete"
   ],
   "note": "For every generator and state, all data accepted by the constructors (Consistent, duplicate-free groups, positive numAvailable, sizes below SIZE_MAX)."
  },
  {
   "property": "C19",
   "status": "partial",
   "theorems": [
    "PyVRP.C19_negation",
    "PyVRP.C19_route_equal_partial",
    "PyVRP.C19_route_partial",
    "PyVRP.C19_solution_cost_partial",
    "PyVRP.C19_solution_equal_partial",
    "PyVRP.C19_solution_partial"
   ],
   "note": "False of the code: C19_negation gives a witness (fixed_vehicle_cost of routes, hence cost, and unplanned are lost). The partial theorems say exactly what is preserved and by how much the cost changes."
  },
  {
   "property": "C20",
   "status": "proved",
   "theorems": [
    "PyVRP.C20_append",
    "PyVRP.C20_insert_rejects_exactly_too_many_trips",
    "PyVRP.C20_load",
    "PyVRP.C20_nodes",
    "PyVRP.C20_search_route_agrees",
    "PyVRP.C20_search_route_agrees_unchecked"
   ],
   "note": "Every history of insert, remove, swap, clear and update, then update; statistics, feasibility flags and penalised cost equal those of Route; the load of a dimension is the sum of the trips' peak loads; insert fails exactly on too many trips."
  },
  {
   "property": "C21",
   "status": "partial",
   "theorems": [
    "PyVRP.C21_negation_duration",
    "PyVRP.C21_negation_time_warp",
    "PyVRP.C21_parts",
    "PyVRP.C21_parts_reload",
    "PyVRP.C21_pieces",
    "PyVRP.C21_proposal_exact_partial",
    "PyVRP.C21_proposal_exact_unchecked_partial",
    "PyVRP.C21_proposal_exact_without_releases"
   ],
   "note": "Distance, loads and counts of a proposal are those of the new route in all cases; duration and time warp under stated conditions on release times (always when no client of the new route has a release time). Every segment of a proposal truly tells its first and last activities, where they are, its numbers of activities, clients and pickups, and whether it starts or ends at a reload depot (C21_parts, C21_parts_reload, C21_pieces). In full the property is false of the code: C21_negation_time_warp and C21_negation_duration."
  },
  {
   "property": "C22",
   "status": "partial",
   "theorems": [
    "PyVRP.C22_early_exit_is_safe",
    "PyVRP.C22_negation",
    "PyVRP.C22_one_route_partial",
    "PyVRP.C22_two_routes_partial"
   ],
   "note": "Early exit is safe for every proposal (C22_early_exit_is_safe). Exactness relative to real routes holds where C21 holds; C22_negation shows a case where it does not."
  },
  {
   "property": "C23",
   "status": "proved",
   "theorems": [
    "PyVRP.C23_has_time_windows",
    "PyVRP.C23_skipped_distance_is_zero",
    "PyVRP.C23_skipped_duration_is_zero",
    "PyVRP.C23_skipped_terms_of_proposal"
   ],
   "note": "Skipped terms are zero for every route and for every proposal."
  },
  {
   "property": "C24",
   "status": "partial",
   "theorems": [
    "PyVRP.C24_binary_partial",
    "PyVRP.C24_negation",
    "PyVRP.C24_unary_partial"
   ],
   "note": "Proved for every operator and every state the search can be in: an applicable move can be applied, keeps every client and shipment visited at most once, keeps pickup before delivery in the same trip, touches no other route, loses nothing required; the reported cost is the exact change in penalised cost when the new routes satisfy the exactness conditions of C21. In general the cost claim is false of the code: C24_negation (reported -5, actual +5)."
  },
  {
   "property": "C25",
   "status": "partial",
   "theorems": [
    "PyVRP.C25_cost_partial",
    "PyVRP.C25_move_partial",
    "PyVRP.C25_moves_partial",
    "PyVRP.C25_negation_cost",
    "PyVRP.C25_negation_stops",
    "PyVRP.C25_unlimited_partial"
   ],
   "note": "Proved for instances of moderate size without the combination of release times, reloads and duration limits (Moderate): every move lowers the penalised cost or keeps it and removes a depot, the search stops, and the result is not worse than the solution it started improving from. C25_unlimited_partial is the same for vehicles that may reload without limit. In general the property is false of the code: C25_negation_stops (the default operators loop for ever) and C25_negation_cost (135 to 145)."
  },
  {
   "property": "C26",
   "status": "proved",
   "theorems": [
    "PyVRP.C26_load_unload",
    "PyVRP.C26_loaded_state"
   ],
   "note": "Load into a search solution that had any number of solutions loaded before, then unload, gives an equal Solution; the loaded state is described (vehicle types, ownership, up-to-date statistics). The solution loaded is one accepted by the Solution constructor on routes accepted by the Route constructor. Random-access node pointers are modelled by activity and route index."
  },
  {
   "property": "C27",
   "status": "proved",
   "theorems": [
    "PyVRP.C27_every_number",
    "PyVRP.C27_loaded",
    "PyVRP.C27_number",
    "PyVRP.C27_perturb"
   ],
   "note": "For parameters whose range is below the largest size_t (otherwise the code computes a remainder modulo 0), for any random numbers, and for search spaces after any history whose neighbourhoods cover all clients and pickups and stay in range (otherwise the code raises or reads out of bounds). Exactly min(number, clients + shipments) clients and shipments change; the rest keeps route and order."
  },
  {
   "property": "C28",
   "status": "proved",
   "theorems": [
    "PyVRP.C28_feasible_kept",
    "PyVRP.C28_negation",
    "PyVRP.C28_never_raises",
    "PyVRP.C28_never_worse",
    "PyVRP.C28_never_worse_without_exhaustive",
    "PyVRP.C28_result",
    "PyVRP.C28_returned_was_found"
   ],
   "note": "Over an abstract search method, penalty manager and clock: every history of iterations. Cost monotonicity is under the hypothesis NeverWorse on the exhaustive search (unnecessary without exhaustive_on_best); C28_negation shows the code does not compare costs there, so the condition cannot be dropped."
  },
  {
   "property": "C29",
   "status": "proved",
   "theorems": [
    "PyVRP.C29_every_state_remembers",
    "PyVRP.C29_late_acceptance",
    "PyVRP.C29_params",
    "PyVRP.C29_restart",
    "PyVRP.C29_zero"
   ],
   "note": "num_iters_no_improvement = 0 is a corner, stated in C29_zero. C29_params says which parameters are accepted."
  },
  {
   "property": "C30",
   "status": "proved",
   "theorems": [
    "PyVRP.C30_first_feasible",
    "PyVRP.C30_max_iterations",
    "PyVRP.C30_max_runtime",
    "PyVRP.C30_multiple_criteria",
    "PyVRP.C30_no_improvement",
    "PyVRP.C30_run_max_iterations"
   ],
   "note": "The clock of MaxRuntime is a list of readings. C30_run_max_iterations is about the solver loop as a whole."
  },
  {
   "property": "C31",
   "status": "proved",
   "theorems": [
    "PyVRP.C31_direction",
    "PyVRP.C31_in_bounds",
    "PyVRP.C31_midpoint",
    "PyVRP.C31_midpoint_exact",
    "PyVRP.C31_midpoint_same",
    "PyVRP.C31_no_warnings",
    "PyVRP.C31_only_at_updates",
    "PyVRP.C31_params",
    "PyVRP.C31_warnings"
   ],
   "note": "Over an arbitrary monotone idempotent rounding of rationals (floating point), including exact arithmetic. NaN is not modelled. The initial penalties: C31_midpoint, C31_midpoint_exact, C31_midpoint_same."
  },
  {
   "property": "C32",
   "status": "proved",
   "theorems": [
    "PyVRP.C32_len",
    "PyVRP.C32_order",
    "PyVRP.C32_peek"
   ],
   "note": "All operation sequences."
  },
  {
   "property": "C33",
   "status": "proved",
   "theorems": [
    "PyVRP.C33_never_zero",
    "PyVRP.C33_ranges",
    "PyVRP.C33_shuffle_in_bounds",
    "PyVRP.C33_shuffle_permutes",
    "PyVRP.C33_streams_distinct",
    "PyVRP.C33_successor_injective"
   ],
   "note": "State transition as BitVec 32; shuffle for arbitrary generators."
  },
  {
   "property": "C34",
   "status": "proved",
   "theorems": [
    "PyVRP.C34_behaves_as_set",
    "PyVRP.C34_equality",
    "PyVRP.C34_new",
    "PyVRP.C34_queries",
    "PyVRP.C34_read_write"
   ],
   "note": "All sizes, indices and operation sequences; binary operations for bitsets of equal length, as the code assumes."
  },
  {
   "property": "C35",
   "status": "partial",
   "theorems": [
    "PyVRP.C35_accepts",
    "PyVRP.C35_evalRat",
    "PyVRP.C35_interpolates",
    "PyVRP.C35_monotone_partial",
    "PyVRP.C35_negation",
    "PyVRP.C35_valid"
   ],
   "note": "Acceptance and interpolation in full. The monotonicity test is exact on rational arguments, and sufficient on integers; on integers it is too strict (C35_negation)."
  },
  {
   "property": "C36",
   "status": "proved",
   "theorems": [
    "PyVRP.C36_client_accepts",
    "PyVRP.C36_client_fields",
    "PyVRP.C36_depot_accepts",
    "PyVRP.C36_group_accepts",
    "PyVRP.C36_replace_changes_exactly",
    "PyVRP.C36_replace_nothing",
    "PyVRP.C36_shipment_accepts",
    "PyVRP.C36_step_accepts",
    "PyVRP.C36_vehicle_accepts",
    "PyVRP.C36_vehicle_fields"
   ],
   "note": "Each constructor accepts exactly the arguments in the spec; field values; replace."
  },
  {
   "property": "C37",
   "status": "proved",
   "theorems": [
    "PyVRP.C37_accepts_exactly_consistent",
    "PyVRP.C37_derived",
    "PyVRP.C37_replace_changes_exactly",
    "PyVRP.C37_replace_nothing"
   ],
   "note": "ProblemData constructor accepts exactly the consistent data; replace."
  },
  {
   "property": "C38",
   "status": "partial",
   "theorems": [
    "PyVRP.C38_accepts_exactly_partial",
    "PyVRP.C38_hash",
    "PyVRP.C38_injective",
    "PyVRP.C38_negation",
    "PyVRP.C38_round_trip"
   ],
   "note": "Round trip and injectivity in full, and an exact description of the accepted strings (white space and digits are listed). The claim that other strings are rejected is false: C38_negation."
  },
  {
   "property": "C39",
   "status": "partial",
   "theorems": [
    "PyVRP.C39_call_accepted",
    "PyVRP.C39_edge_accepted",
    "PyVRP.C39_from_data_negative",
    "PyVRP.C39_from_data_partial",
    "PyVRP.C39_matrices",
    "PyVRP.C39_negation_foreign_profile",
    "PyVRP.C39_negation_shared_groups",
    "PyVRP.C39_objects",
    "PyVRP.C39_unknown_location",
    "PyVRP.C39_unknown_object"
   ],
   "note": "Matrix entries are those of the last edge (C39_matrices), everything else added is in the data in order (C39_objects), unknown locations raise KeyError in data() (C39_unknown_location) and unknown objects ValueError (C39_unknown_object), edges accepted exactly when non-negative (C39_edge_accepted); from_data gives back the same data (C39_from_data_partial) unless some entry is negative, when it raises (C39_from_data_negative). The claim that nothing is silently dropped is false: C39_negation_foreign_profile. C39_negation_shared_groups: a model made from data shares its groups with the data. Calls succeed exactly on acceptable arguments: C39_call_accepted."
  },
  {
   "property": "C40",
   "status": "partial",
   "theorems": [
    "PyVRP.C40_accepted",
    "PyVRP.C40_arc_cost",
    "PyVRP.C40_closest",
    "PyVRP.C40_negation",
    "PyVRP.C40_params",
    "PyVRP.C40_shape_partial"
   ],
   "note": "Proved for all data and parameters and any rounding of doubles (overflow and NaN from absurd weights not modelled), including that closeness is the cheapest arc over all vehicle types although types with equal cost profile are skipped. Missing: 'all possible neighbours if fewer' is false of the code (C40_negation); the exact limit used instead is proved."
  },
  {
   "property": "C41",
   "status": "partial",
   "theorems": [
    "PyVRP.C41_lower_bound",
    "PyVRP.C41_negation",
    "PyVRP.C41_rejects",
    "PyVRP.C41_result_or_error",
    "PyVRP.C41_result_partial"
   ],
   "note": "Proved for every solver and stopping criterion, with rounding of the division to double precision abstracted as monotone and exact on integers: the loop ends, the result is between one and the original number of vehicles and not below the bound, the bound never exceeds the number of vehicles of a feasible solution. Missing: 'does not raise' is false of the code when the bound is zero (C41_negation)."
  },
  {
   "property": "C42",
   "status": "partial",
   "theorems": [
    "PyVRP.C42_csv_round_trip",
    "PyVRP.C42_csv_written",
    "PyVRP.C42_negation_no_quotes",
    "PyVRP.C42_negation_not_collected",
    "PyVRP.C42_one_datum_per_iteration",
    "PyVRP.C42_result_cost",
    "PyVRP.C42_run_complete"
   ],
   "note": "One datum per iteration (C42_one_datum_per_iteration), Result.cost() (C42_result_cost), CSV round trip for every delimiter and quoting strategy and every collected history (C42_csv_round_trip, C42_run_complete), with the text of floating point numbers as a parameter that can be read back. The round trip fails for statistics that were not collected (C42_negation_not_collected), and writing raises with some delimiters when quotes are off (C42_negation_no_quotes)."
  },
  {
   "property": "C43",
   "status": "proved",
   "theorems": [
    "PyVRP.C43_accepts",
    "PyVRP.C43_neighbours",
    "PyVRP.C43_neighbours_of",
    "PyVRP.C43_orders",
    "PyVRP.C43_promising"
   ],
   "note": "For every sequence of operations, including marking nodes of search routes with any history, and any random number generator. With no clients and shipments the number of neighbourhoods is not checked when they are replaced."
  },
  {
   "property": "C44",
   "status": "proved",
   "theorems": [
    "PyVRP.C44_client",
    "PyVRP.C44_depot",
    "PyVRP.C44_group",
    "PyVRP.C44_problem_data",
    "PyVRP.C44_shipment",
    "PyVRP.C44_step",
    "PyVRP.C44_vehicle_type"
   ],
   "note": "Round trip for every object made by the constructors."
  },
  {
   "property": "C45",
   "status": "partial",
   "theorems": [
    "PyVRP.C45_duration",
    "PyVRP.C45_end_times_first_trip",
    "PyVRP.C45_end_times_partial",
    "PyVRP.C45_finalise_back",
    "PyVRP.C45_negation_end_early",
    "PyVRP.C45_negation_slack",
    "PyVRP.C45_slack_partial",
    "PyVRP.C45_time_warp"
   ],
   "note": "Duration, time warp and closing are proved in full for any number of trips. end_early()/end_late() are proved when the earlier trips can end as late as the current one starts, and slack() when the current trip waits for nothing but release times; C45_negation_end_early and C45_negation_slack show that the code is wrong otherwise."
  },
  {
   "property": "C46",
   "status": "proved",
   "theorems": [
    "PyVRP.C46_result"
   ],
   "note": "For every history of the local search (construction, operators, neighbourhoods, shuffles, earlier calls), every cost evaluator and any operators: a call never raises, and if it returns the result is accepted and complete. Assumes a neighbourhood for each task (otherwise the code raises or reads out of bounds), duplicate-free groups, fewer than 2^64-1 possible numbers of perturbations, and that the longest possible route fits in memory (FitsMemory). That the search returns is C25."
  },
  {
   "property": "C47",
   "status": "partial",
   "theorems": [
    "PyVRP.C47_criteria",
    "PyVRP.C47_iterations",
    "PyVRP.C47_returns_partial",
    "PyVRP.C47_start_partial",
    "PyVRP.C47_valid"
   ],
   "note": "Proved for all instances, parameters, operators, criteria, clocks and generators: solve never raises, its result is accepted and complete (or the caller's own initial solution), and MaxIterations(n) gives exactly n iterations. That it returns whenever the criterion stops, and never worsens a feasible initial solution, is proved for Moderate instances (see C25); C47_criteria shows which criteria stop. C47_start_partial: without an initial solution the run starts from a local optimum in the sense of C49."
  },
  {
   "property": "C48",
   "status": "partial",
   "theorems": [
    "PyVRP.C48_binary_partial",
    "PyVRP.C48_negation",
    "PyVRP.C48_unary_partial"
   ],
   "note": "Completeness of all operators, for moves given by Spec.BinaryMove and Spec.UnaryMove (lists only). Proved when the routes of the cheaper plan can be evaluated exactly (C21). Swap<N, N> between a client and a pickup with the same index is excluded: C48_negation shows that this improving move is found from neither side."
  },
  {
   "property": "C49",
   "status": "partial",
   "theorems": [
    "PyVRP.C49_again_partial",
    "PyVRP.C49_negation",
    "PyVRP.C49_optimal_partial",
    "PyVRP.C49_unlimited_partial"
   ],
   "note": "An exhaustive search returns a solution that no move of a registered operator improves: proved for visited clients and pickups with their neighbours, and for all with the first unused vehicle of each type; for unvisited ones with their neighbours it is proved when the search finds nothing to improve and false in general (C49_negation: a second search improves). Moves as in C48, Moderate instances, or unlimited reloads as in C25 (C49_unlimited_partial)."
  },
  {
   "property": "C50",
   "status": "partial",
   "theorems": [
    "PyVRP.C50_client_partial",
    "PyVRP.C50_negation",
    "PyVRP.C50_shipment_partial"
   ],
   "note": "Inserting a client or shipment never fails, changes nothing else, and finds the exact minimum over all places next to visited neighbours (for shipments: with every later delivery on the same trip); it lowers the cost if not required. Missing: of the unused vehicles only the first one that beats those places is taken, so the full claim is false: C50_negation. Instances are moderate as in C25."
  },
  {
   "property": "C51",
   "status": "proved",
   "theorems": [
    "PyVRP.C51_reads_what_the_file_says",
    "PyVRP.C51_unnamed_vehicles_cannot_be_read",
    "PyVRP.C51_written_solution_reads_back"
   ],
   "note": "In full, for instances as read() makes them (one activity per location, vehicle types named after their vehicles). With the default, empty name of a vehicle type reading always raises (proved). What vrplib does with the lines of a file is an assumption of the model, as it is not part of the repository; the cost is an arbitrary text without line breaks or the letter R."
  },
  {
   "property": "C52",
   "status": "partial",
   "theorems": [
    "PyVRP.C52_allowed_clients_negation",
    "PyVRP.C52_clients",
    "PyVRP.C52_depots_first",
    "PyVRP.C52_file_data",
    "PyVRP.C52_groups",
    "PyVRP.C52_places",
    "PyVRP.C52_round_functions",
    "PyVRP.C52_rounding",
    "PyVRP.C52_shipments_negation",
    "PyVRP.C52_shipments_partial",
    "PyVRP.C52_solutions_read_back",
    "PyVRP.C52_unit_costs_truncated",
    "PyVRP.C52_vehicles",
    "PyVRP.C52_warning"
   ],
   "note": "Everything except shipments is proved in full, also what the named rounding functions do (C52_round_functions). Shipments are proved for files with one depot; with several depots the code pairs the wrong lines (C52_shipments_negation). Distances assume that the edge weights are a square matrix and that lines of allowed clients list clients without repetition (C52_allowed_clients_negation shows what happens otherwise). The dictionary of sections is what the external package vrplib returns; numbers are rational."
  },
  {
   "property": "C53",
   "status": "partial",
   "theorems": [
    "PyVRP.C53_apply",
    "PyVRP.C53_evaluate_partial",
    "PyVRP.C53_negation_cost",
    "PyVRP.C53_negation_distance",
    "PyVRP.C53_prepare_partial",
    "PyVRP.C53_run_partial",
    "PyVRP.C53_search_partial",
    "PyVRP.C53_unlimited_partial"
   ],
   "note": "Proved for a whole call of the local search (load, perturb, repair, improve, unload) when distances are not negative and, for the improvement loop, routes are evaluated exactly; C53_unlimited_partial is for vehicles that may reload without limit. Both conditions are needed, see C53_negation_distance and C53_negation_cost. The assertion on the counters in LocalSearch::statistics is C57, the assertions in the constructors of pyvrp::Route and pyvrp::Solution are in C55."
  },
  {
   "property": "C54",
   "status": "proved",
   "theorems": [
    "PyVRP.C54_never",
    "PyVRP.C54_search",
    "PyVRP.C54_solve"
   ],
   "note": "The solution of run is the same for the same order of operators and visits. With __call__, which shuffles the operators first, the orders differ for the same seed, as the number of operators does."
  },
  {
   "property": "C55",
   "status": "proved",
   "theorems": [
    "PyVRP.C55_cost",
    "PyVRP.C55_negation_distance",
    "PyVRP.C55_route",
    "PyVRP.C55_solution"
   ],
   "note": "Routes, solutions and objective values on 64-bit integers equal those on unbounded integers. C55_negation_distance shows that negative distances must be excluded."
  },
  {
   "property": "C56",
   "status": "partial",
   "theorems": [
    "PyVRP.C56_negative_limit",
    "PyVRP.C56_no_iterations_for_shipments",
    "PyVRP.C56_reported",
    "PyVRP.C56_returns_partial",
    "PyVRP.C56_table"
   ],
   "note": "C56_reported is proved in full for files with sensible numbers that fit the memory of the search; that the command ends (C56_returns_partial) is proved for the instances of C25, see C47."
  },
  {
   "property": "C57",
   "status": "partial",
   "theorems": [
    "PyVRP.C57_counting",
    "PyVRP.C57_effort",
    "PyVRP.C57_improving_partial",
    "PyVRP.C57_negation_improving",
    "PyVRP.C57_negation_updates",
    "PyVRP.C57_no_updates",
    "PyVRP.C57_operators",
    "PyVRP.C57_updates_partial"
   ],
   "note": "Sums, order of evaluations, number of updates, effort and the unchanged solution are proved for all instances. That each improving move improves is proved for the instances of C25 and negated otherwise. Changes by perturbation are not counted as updates, against the documentation (C57_negation_updates)."
  },
  {
   "property": "C58",
   "status": "proved",
   "theorems": [
    "PyVRP.C58_bound_needed",
    "PyVRP.C58_exact",
    "PyVRP.C58_one_route",
    "PyVRP.C58_two_routes",
    "PyVRP.C58_update"
   ],
   "note": "Routes of the search after any history, all proposals and both forms of deltaCost. The operators' own additions before the evaluation are covered by the arbitrary starting value."
  },
  {
   "property": "C59",
   "status": "proved",
   "theorems": [
    "PyVRP.C59_negation",
    "PyVRP.C59_result",
    "PyVRP.C59_route",
    "PyVRP.C59_same_route",
    "PyVRP.C59_same_solution",
    "PyVRP.C59_solution",
    "PyVRP.C59_trips"
   ],
   "note": "Texts are lists of characters; how a floating-point number is written is a parameter without line breaks. Indices of activities fit into size_t. The negation C59_negation shows what the text does not tell: the reload depots and the vehicle type."
  },
  {
   "property": "C60",
   "status": "proved",
   "theorems": [
    "PyVRP.C60_disabled",
    "PyVRP.C60_heading",
    "PyVRP.C60_log",
    "PyVRP.C60_printed",
    "PyVRP.C60_restarts",
    "PyVRP.C60_same_result",
    "PyVRP.C60_spacing",
    "PyVRP.C60_words"
   ],
   "note": "The printer reads the clock itself; its readings are an arbitrary sequence, and do not decrease in C60_spacing only. Logging is a list of lines. C60_heading says what the header tells about the instance."
  },
  {
   "property": "C61",
   "status": "proved",
   "theorems": [
    "PyVRP.C61_binary",
    "PyVRP.C61_bound_needed",
    "PyVRP.C61_caches",
    "PyVRP.C61_unary"
   ],
   "note": "All operators. Routes of at most n stops; the bound on the numbers is needed (C61_bound_needed)."
  },
  {
   "property": "C62",
   "status": "proved",
   "theorems": [
    "PyVRP.C62_bound_needed",
    "PyVRP.C62_prepare",
    "PyVRP.C62_run"
   ],
   "note": "Loading, perturbing, repairing and improving, for any number of rounds. Not covered: vehicles that may reload without limit, since the bound on the length of routes is then too large to fit. Counters such as the number of updates are not bounded. Building the returned solution is C55."
  },
  {
   "property": "C63",
   "status": "proved",
   "theorems": [
    "PyVRP.C63_bound_needed",
    "PyVRP.C63_cost",
    "PyVRP.C63_returns",
    "PyVRP.C63_solve"
   ],
   "note": "All of solve: random initial solution, calls of the local search with the returned solutions, costs for accepting and comparing, statistics, cost of the result. C63_returns combines this with C47. Not covered: as C62, vehicles that may reload without limit; the computation of neighbourhoods, which is in floating point (C40); numbers of Python code are unbounded there."
  },
  {
   "property": "C64",
   "status": "proved",
   "theorems": [
    "PyVRP.C64_malformed_file_is_refused",
    "PyVRP.C64_well_formed_file_is_read"
   ],
   "note": "Both directions. The first is for files without a section on pickups and deliveries (C64_well_formed_file_is_read); the second is for all files (C64_malformed_file_is_refused) but does not list every condition of the first. The dictionary of sections is what the external package vrplib returns; numbers are rational."
  },
  {
   "property": "C65",
   "status": "proved",
   "theorems": [
    "PyVRP.C65_expressible",
    "PyVRP.C65_ignored",
    "PyVRP.C65_ils",
    "PyVRP.C65_neighbourhood",
    "PyVRP.C65_order",
    "PyVRP.C65_penalty",
    "PyVRP.C65_perturbation",
    "PyVRP.C65_read",
    "PyVRP.C65_usable"
   ],
   "note": "C65_read gives both directions for whole files, C65_ils, C65_penalty, C65_neighbourhood and C65_perturbation for sections. The file is what tomllib returns. Restricted to values of the types of the parameters: Python does not check the types of some parameters, and the model raises on other types."
  },
  {
   "property": "C66",
   "status": "proved",
   "theorems": [
    "PyVRP.C66_raises",
    "PyVRP.C66_solves"
   ],
   "note": "C66_solves and C66_raises. Moderate numbers are a condition of the property, stated about the calls (ModestCalls); the limits on fuel and rounds are those of C47 (enough of both always suffices). The display is not part of the model."
  },
  {
   "property": "C67",
   "status": "partial",
   "theorems": [
    "PyVRP.C67_cut_names",
    "PyVRP.C67_name",
    "PyVRP.C67_one_raises",
    "PyVRP.C67_order",
    "PyVRP.C67_overwritten",
    "PyVRP.C67_reported",
    "PyVRP.C67_returns_partial"
   ],
   "note": "Proved for all lists of instances: rows, order, averages, number not OK, and the files for different names. The full claim is false of the code: files of the same name in different directories overwrite each other (C67_overwritten, with a run as an example), and names of more than 37 characters are cut (C67_cut_names). C67_returns_partial is partial for the reason given with C56_returns_partial. Averages are exact rationals, not formatted floats."
  },
  {
   "property": "C68",
   "status": "partial",
   "theorems": [
    "PyVRP.C68_ends",
    "PyVRP.C68_initial_load_negation",
    "PyVRP.C68_late",
    "PyVRP.C68_load_partial",
    "PyVRP.C68_points",
    "PyVRP.C68_reloads_negation",
    "PyVRP.C68_slack",
    "PyVRP.C68_slack_negation"
   ],
   "note": "The lines of time, driving and service, the windows, the marks of lateness and the slack are proved for all routes. The load is proved for one trip with an empty vehicle; with reloads or an initial load the plotted load is wrong (witnesses), and slack is also shown with time warp (witness)."
  },
  {
   "property": "C69",
   "status": "partial",
   "theorems": [
    "PyVRP.C69_depots_negation",
    "PyVRP.C69_route_partial",
    "PyVRP.C69_solution"
   ],
   "note": "Proved for all routes and solutions, other than legs from a depot to a depot, which are not drawn (witness)."
  },
  {
   "property": "C70",
   "status": "partial",
   "theorems": [
    "PyVRP.C70_best_line",
    "PyVRP.C70_best_line_decreases",
    "PyVRP.C70_demands",
    "PyVRP.C70_instance_negation",
    "PyVRP.C70_instance_partial",
    "PyVRP.C70_limits",
    "PyVRP.C70_no_trend",
    "PyVRP.C70_objectives",
    "PyVRP.C70_result",
    "PyVRP.C70_runtimes",
    "PyVRP.C70_time_windows",
    "PyVRP.C70_trend_negation",
    "PyVRP.C70_trend_partial",
    "PyVRP.C70_without_statistics"
   ],
   "note": "Proved for results with statistics and for instances with clients and load dimensions; plotting others raises (proved for all results, witnesses for instances). The heights of the trend line are proved to be those of the best fitting line; that it is drawn at the iterations is false (C70_trend_negation)."
  }
 ]
}