{
 "claims": [
  {
   "property": "C01",
   "status": "proved",
   "theorems": [
    "Sidermit.C01_total_is_cell_sum",
    "Sidermit.C01_total_over_node_pairs"
   ],
   "note": "all constructors, all histories including rejected calls and reads of arbitrary cells"
  },
  {
   "property": "C02",
   "status": "proved",
   "theorems": [
    "Sidermit.C02_change_vij_outcome",
    "Sidermit.C02_change_vij_effect"
   ],
   "note": "acceptance iff, precedence of exceptions, frame; object unchanged on rejection"
  },
  {
   "property": "C03",
   "status": "proved",
   "theorems": [
    "Sidermit.C03_parametric_total"
   ],
   "note": "every well-formed city with distinct ids; n=0 gives 0"
  },
  {
   "property": "C04",
   "status": "proved",
   "theorems": [
    "Sidermit.C04_parametric_cells",
    "Sidermit.C04_parametric_generation"
   ],
   "note": "cell values and row sums"
  },
  {
   "property": "C05",
   "status": "proved",
   "theorems": [
    "Sidermit.C05_demand_parameters_exact",
    "Sidermit.C05_demand_parameters_errors",
    "Sidermit.C05_build_accepts_iff"
   ],
   "note": "validator exact, first violated condition, builder raises nothing else"
  },
  {
   "property": "C06",
   "status": "proved",
   "theorems": [
    "Sidermit.C06_content_stored",
    "Sidermit.C06_content_errors"
   ],
   "note": ""
  },
  {
   "property": "C07",
   "status": "proved",
   "theorems": [
    "Sidermit.C07_csv_round_trip"
   ],
   "note": "number formatting round trip is a hypothesis on the cell values (PrintsWell), satisfied by the fraction printer used in the examples"
  },
  {
   "property": "C08",
   "status": "proved",
   "theorems": [
    "Sidermit.C08_parametric_city_nodes"
   ],
   "note": "all n, l, g, p and all optional asymmetry lists"
  },
  {
   "property": "C09",
   "status": "proved",
   "theorems": [
    "Sidermit.C09_edge_exist_iff_street",
    "Sidermit.C09_edge_relation"
   ],
   "note": "every well-formed city with distinct ids; parametric_city_well_formed shows the parametric builder meets the hypotheses"
  },
  {
   "property": "C10",
   "status": "proved",
   "theorems": [
    "Sidermit.C10_edge_list"
   ],
   "note": "edge count is 0/4/10/6n"
  },
  {
   "property": "C11",
   "status": "proved",
   "theorems": [
    "Sidermit.C11_strongly_connected",
    "Sidermit.C11_within_four_edges"
   ],
   "note": "paths of at most four edges"
  },
  {
   "property": "C12",
   "status": "proved",
   "theorems": [
    "Sidermit.C12_parameters_validator_exact",
    "Sidermit.C12_parameters_validator_errors"
   ],
   "note": "validator accepts iff documented; errors in documented order"
  },
  {
   "property": "C13",
   "status": "proved",
   "theorems": [
    "Sidermit.C13_asymmetries_only_move_nodes",
    "Sidermit.C13_positions",
    "Sidermit.C13_cbd_position"
   ],
   "note": "exact arithmetic; cos/sin abstract except in C15"
  },
  {
   "property": "C14",
   "status": "proved",
   "theorems": [
    "Sidermit.C14_edge_distances",
    "Sidermit.C14_missing_entry"
   ],
   "note": "over the reals"
  },
  {
   "property": "C15",
   "status": "proved",
   "theorems": [
    "Sidermit.C15_polar_round_trip"
   ],
   "note": "over the reals with Mathlib's cos, sin, arccos"
  },
  {
   "property": "C16",
   "status": "proved",
   "theorems": [
    "Sidermit.C16_refused",
    "Sidermit.C16_parameters",
    "Sidermit.C16_centred",
    "Sidermit.C16_displaced",
    "Sidermit.C16_text",
    "Sidermit.C16_round_trip",
    "Sidermit.C16_kept",
    "Sidermit.C16_imported",
    "Sidermit.C16_too_many_zones"
   ],
   "note": "the text of a number reading back as the same number (as Python prints its floats) is a hypothesis on the numbers of the city; over the reals for the cities from parameters. C16_refused: accepted cities whose export is refused by the derived parameters; C16_too_many_zones: more than 4999 zones"
  },
  {
   "property": "C17",
   "status": "partial",
   "theorems": [
    "Sidermit.C17_shared_id",
    "Sidermit.C17_no_cbd",
    "Sidermit.C17_short_file",
    "Sidermit.C17_reading",
    "Sidermit.C17_exact",
    "Sidermit.C17_well_formed",
    "Sidermit.C17_distinct_partial",
    "Sidermit.C17_number_of_rows",
    "Sidermit.C17_bad_line"
   ],
   "note": "exact characterization of the accepted contents and of the city they give. Distinctness fails in the code: C17_shared_id is an accepted file with equal ids inside a zone, C17_distinct_partial says exactly when ids are distinct; C17_no_cbd (n = 0) and C17_short_file are further findings"
  },
  {
   "property": "C18",
   "status": "proved",
   "theorems": [
    "Sidermit.C18_mode_ranges",
    "Sidermit.C18_constructor_exact",
    "Sidermit.C18_assignment_effect",
    "Sidermit.C18_assignment_rejected",
    "Sidermit.C18_default_modes"
   ],
   "note": "Invariant over all histories of construction and assignments; exact acceptance and frame of every setter and of the constructor."
  },
  {
   "property": "C19",
   "status": "proved",
   "theorems": [
    "Sidermit.C19_manager_is_dictionary",
    "Sidermit.C19_add_mode",
    "Sidermit.C19_remove_mode",
    "Sidermit.C19_assign_mode"
   ],
   "note": "Refinement to a dictionary for every reachable manager; effect and frame of add, remove, get and of assignments to held modes."
  },
  {
   "property": "C20",
   "status": "proved",
   "theorems": [
    "Sidermit.C20_valid_to_assignment"
   ],
   "note": "Iff characterisation."
  },
  {
   "property": "C21",
   "status": "proved",
   "theorems": [
    "Sidermit.C21_passenger_ranges",
    "Sidermit.C21_assignment_outcome",
    "Sidermit.C21_constructor_exact",
    "Sidermit.C21_default_passenger"
   ],
   "note": "As C18."
  },
  {
   "property": "C22",
   "status": "proved",
   "theorems": [
    "Sidermit.C22_sequence_round_trip"
   ],
   "note": ""
  },
  {
   "property": "C23",
   "status": "proved",
   "theorems": [
    "Sidermit.C23_custom_route_exact",
    "Sidermit.C23_custom_route_of_lists",
    "Sidermit.C23_custom_route_errors"
   ],
   "note": ""
  },
  {
   "property": "C24",
   "status": "partial",
   "theorems": [
    "Sidermit.C24_stops_out_of_order_accepted",
    "Sidermit.C24_stops_in_travel_order_partial",
    "Sidermit.C24_any_order",
    "Sidermit.C24_repeated_accepted",
    "Sidermit.C24_out_of_order_iff"
   ],
   "note": "The code violates the property on every route: any stops on the nodes between the ends are accepted, in any order and with repetitions (C24_any_order, C24_repeated_accepted), and different stops out of order exactly when the way has four nodes or more (C24_out_of_order_iff). Proved: stops lie on the route, ends coincide, and the order holds for at most three different stops."
  },
  {
   "property": "C25",
   "status": "proved",
   "theorems": [
    "Sidermit.C25_network_invariant",
    "Sidermit.C25_raising_calls_change_nothing",
    "Sidermit.C25_add_mode_outcome",
    "Sidermit.C25_modes_of_routes_registered"
   ],
   "note": ""
  },
  {
   "property": "C26",
   "status": "proved",
   "theorems": [
    "Sidermit.C26_add_route",
    "Sidermit.C26_remove_and_get_route"
   ],
   "note": ""
  },
  {
   "property": "C27",
   "status": "partial",
   "theorems": [
    "Sidermit.C27_inbound_streets_not_checked",
    "Sidermit.C27_routes_use_streets_partial",
    "Sidermit.C27_way_back_never_read",
    "Sidermit.C27_any_way_back",
    "Sidermit.C27_bad_way_back_iff"
   ],
   "note": "The code violates the property: the inbound sequence is never read (C27_way_back_never_read), in every city with a zone (C27_inbound_streets_not_checked); any loop-free way back between the same ends is accepted (C27_any_way_back), even through nodes the city does not have, exactly when the route has two nodes or more (C27_bad_way_back_iff). Proved for the outbound sequence of every route of every reachable network and for reversed inbound sequences."
  },
  {
   "property": "C28",
   "status": "partial",
   "theorems": [
    "Sidermit.C28_remove_mode_effect",
    "Sidermit.C28_remove_mode_partial",
    "Sidermit.C28_routes_of_removed_mode_remain",
    "Sidermit.C28_remove_mode_iff",
    "Sidermit.C28_repeated_calls",
    "Sidermit.C28_blocks_assignment"
   ],
   "note": "The code violates the property: routes are skipped while the list is iterated (C28_routes_of_removed_mode_remain). Proved: the exact list of remaining routes; the property holds exactly when no two consecutive routes have the mode (C28_remove_mode_iff); each call removes at least half of the routes of the mode, so k calls remove them all when there are fewer than 2^k (C28_repeated_calls). C28_blocks_assignment: a mode is removed and another one added, both without error, and the network cannot be assigned any more."
  },
  {
   "property": "C29",
   "status": "proved",
   "theorems": [
    "Sidermit.C29_circular_routes"
   ],
   "note": ""
  },
  {
   "property": "C30",
   "status": "proved",
   "theorems": [
    "Sidermit.C30_feeder_routes"
   ],
   "note": ""
  },
  {
   "property": "C31",
   "status": "proved",
   "theorems": [
    "Sidermit.C31_radial_routes"
   ],
   "note": ""
  },
  {
   "property": "C32",
   "status": "proved",
   "theorems": [
    "Sidermit.C32_diametral_routes",
    "Sidermit.C32_each_pair_once",
    "Sidermit.C32_jump_rejected"
   ],
   "note": ""
  },
  {
   "property": "C33",
   "status": "proved",
   "theorems": [
    "Sidermit.C33_tangential_routes",
    "Sidermit.C33_jump_rejected"
   ],
   "note": ""
  },
  {
   "property": "C34",
   "status": "proved",
   "theorems": [
    "Sidermit.C34_accepted",
    "Sidermit.C34_unknown_stop_rejected",
    "Sidermit.C34_stop_nodes",
    "Sidermit.C34_route_nodes"
   ],
   "note": "Exact characterisation of stop nodes and route nodes, uniqueness, grouping; construction succeeds for routes whose stops are city nodes."
  },
  {
   "property": "C35",
   "status": "proved",
   "theorems": [
    "Sidermit.C35_edges",
    "Sidermit.C35_no_parallel_edges",
    "Sidermit.C35_default_frequency",
    "Sidermit.C35_ends_of_directions"
   ],
   "note": "Exact characterisation of access, boarding and alighting edges with times and frequencies; no two edges with the same ends."
  },
  {
   "property": "C36",
   "status": "partial",
   "theorems": [
    "Sidermit.C36_route_edges",
    "Sidermit.C36_leg_time_served_nodes",
    "Sidermit.C36_leg_time_partial",
    "Sidermit.C36_stops_in_order",
    "Sidermit.C36_ring_leg_time",
    "Sidermit.C36_skipped_nodes"
   ],
   "note": "The code violates the property when an intermediate node has no stop of any route (C36_skipped_nodes, over the reals). Proved: existence and uniqueness of the route edges, the exact time computed, the property when all intermediate nodes are served (C36_leg_time_partial), and on rings."
  },
  {
   "property": "C37",
   "status": "proved",
   "theorems": [
    "Sidermit.C37_terminates",
    "Sidermit.C37_paths_terminate",
    "Sidermit.C37_no_value_of_time_fails"
   ],
   "note": "Termination and absence of exceptions by an invariant of the label-setting loop; pv > 0 is needed (C37_no_value_of_time_fails)."
  },
  {
   "property": "C38",
   "status": "proved",
   "theorems": [
    "Sidermit.C38_attained"
   ],
   "note": "Every finite label is the cost of an inductively generated strategy, plus access at the origin stops."
  },
  {
   "property": "C39",
   "status": "proved",
   "theorems": [
    "Sidermit.C39_optimal",
    "Sidermit.C39_unreachable"
   ],
   "note": "Optimal-strategy theorem: no strategy below the label, infinite iff no strategy."
  },
  {
   "property": "C40",
   "status": "proved",
   "theorems": [
    "Sidermit.C40_lines",
    "Sidermit.C40_attractive",
    "Sidermit.C40_legs"
   ],
   "note": "Accumulated frequency, label formula, exact characterisation of attractive lines and of single legs."
  },
  {
   "property": "C41",
   "status": "proved",
   "theorems": [
    "Sidermit.C41_paths",
    "Sidermit.C41_well_formed",
    "Sidermit.C41_all_pairs"
   ],
   "note": "Paths are exactly the ways along successors, each once, no node twice; one result per cell with trips."
  },
  {
   "property": "C42",
   "status": "proved",
   "theorems": [
    "Sidermit.C42_validator",
    "Sidermit.C42_same_node_rejected"
   ],
   "note": "Exact characterisation of acceptance, the two error kinds, and rejection of trips from a node to itself."
  },
  {
   "property": "C43",
   "status": "partial",
   "theorems": [
    "Sidermit.C43_pairs_partial",
    "Sidermit.C43_twin_lines_lose_trips",
    "Sidermit.C43_odd_lines_misplaced",
    "Sidermit.C43_shares_partial",
    "Sidermit.C43_tie_loses_trips",
    "Sidermit.C43_walk"
   ],
   "note": "Holds except when the walk of indifference is exactly the way to the last line looked at (e.g. equal labels of two modes with one line each): then no stop gets a share and the trips are lost (C43_tie_loses_trips, C43_twin_lines_lose_trips through the whole pipeline). C43_shares_partial states the exact exclusion. The meaning of the shares (C43_walk) fails for an odd number of lines >= 3 (C43_odd_lines_misplaced)."
  },
  {
   "property": "C44",
   "status": "proved",
   "theorems": [
    "Sidermit.C44_terminates",
    "Sidermit.C44_line_balance",
    "Sidermit.C44_city_balance",
    "Sidermit.C44_stop_balance",
    "Sidermit.C44_first_stop_balance",
    "Sidermit.C44_nonneg",
    "Sidermit.C44_superposition",
    "Sidermit.C44_split",
    "Sidermit.C44_applies",
    "Sidermit.C44_zero_frequencies_fail"
   ],
   "note": "Frequencies must let one line run at each boarding stop; all frequencies 0 end with a division by zero (C44_zero_frequencies_fail)."
  },
  {
   "property": "C45",
   "status": "proved",
   "theorems": [
    "Sidermit.C45_maximum"
   ],
   "note": ""
  },
  {
   "property": "C46",
   "status": "proved",
   "theorems": [
    "Sidermit.C46_streets_exist",
    "Sidermit.C46_mode_length",
    "Sidermit.C46_cost",
    "Sidermit.C46_frequency_irrelevant"
   ],
   "note": "Cities of the shape the constructors give, with distinct ids; modes listed once. The streets a mode uses are any list with each unordered pair once; a mode without an active line has no entry; only whether a frequency is zero matters."
  },
  {
   "property": "C47",
   "status": "proved",
   "theorems": [
    "Sidermit.C47_values",
    "Sidermit.C47_feasible_iff",
    "Sidermit.C47_no_lines"
   ],
   "note": "d > 0; a mode with d = 0, which its constructor accepts, makes the call end with ZeroDivisionError (C47_no_lines). A route that drives an edge twice in a cycle counts twice."
  },
  {
   "property": "C48",
   "status": "proved",
   "theorems": [
    "Sidermit.C48_vehicle_capacity"
   ],
   "note": "Composed with most_loaded_section: the value is positive iff some section of the route is overloaded."
  },
  {
   "property": "C49",
   "status": "proved",
   "theorems": [
    "Sidermit.C49_travel_time",
    "Sidermit.C49_nonneg_symmetric"
   ],
   "note": "Routes on the streets of the city; v > 0. Sign for any sequences."
  },
  {
   "property": "C50",
   "status": "proved",
   "theorems": [
    "Sidermit.C50_cycle_time",
    "Sidermit.C50_simultaneous_between",
    "Sidermit.C50_tables_unchanged",
    "Sidermit.C50_applies",
    "Sidermit.C50_sequential_loading"
   ],
   "note": "Both kinds of boarding; the calls add keys to the tables but do not change what they read; the tables of the loading meet the hypotheses (C50_applies)."
  },
  {
   "property": "C51",
   "status": "proved",
   "theorems": [
    "Sidermit.C51_sum",
    "Sidermit.C51_inactive",
    "Sidermit.C51_monotone"
   ],
   "note": "Monotone in sizes, cycle times and frequencies for modes in range."
  },
  {
   "property": "C52",
   "status": "partial",
   "theorems": [
    "Sidermit.C52_terminates",
    "Sidermit.C52_scaling_partial",
    "Sidermit.C52_access_exact",
    "Sidermit.C52_access_partial",
    "Sidermit.C52_access_fails"
   ],
   "note": "C52_scaling_partial: waiting, in-vehicle time and transfers for every network. Access time does not scale when passengers walk between stops of two modes (C52_access_fails, concrete network); C52_access_exact gives the exact dependence in all networks, C52_access_partial the property for one mode or no access time."
  },
  {
   "property": "C53",
   "status": "proved",
   "theorems": [
    "Sidermit.C53_users_cost",
    "Sidermit.C53_lower_bound"
   ],
   "note": "C53_users_cost is an equality for every network under the stated conditions, C53_lower_bound a bound without the condition on waiting at stops."
  },
  {
   "property": "C54",
   "status": "proved",
   "theorems": [
    "Sidermit.C54_start",
    "Sidermit.C54_dictionary",
    "Sidermit.C54_too_long",
    "Sidermit.C54_round_trip",
    "Sidermit.C54_restart",
    "Sidermit.C54_default"
   ],
   "note": "all routes with distinct ids and all vectors; includes the error for vectors that are too long"
  },
  {
   "property": "C55",
   "status": "proved",
   "theorems": [
    "Sidermit.C55_best",
    "Sidermit.C55_none_iff"
   ],
   "note": "all lists of results, with ties and infinite objectives (not a number is outside the model)"
  },
  {
   "property": "C56",
   "status": "proved",
   "theorems": [
    "Sidermit.C56_choice",
    "Sidermit.C56_result",
    "Sidermit.C56_rounds",
    "Sidermit.C56_terminates",
    "Sidermit.C56_converges",
    "Sidermit.C56_errors"
   ],
   "note": "the solver is an arbitrary function of the call and of the optimizer; the loop of the model has fuel, shown irrelevant with a limit of iterations and for every search that ends"
  },
  {
   "property": "C57",
   "status": "proved",
   "theorems": [
    "Sidermit.C57_total_cost",
    "Sidermit.C57_constraints",
    "Sidermit.C57_constructor",
    "Sidermit.C57_stopped_line_fails",
    "Sidermit.C57_zero_start_fails"
   ],
   "note": "witnesses show that a vector that stops a line used by a path raises ZeroDivisionError, and that initial frequencies 0 make the constructor fail"
  },
  {
   "property": "C58",
   "status": "partial",
   "theorems": [
    "Sidermit.C58_circular_exact",
    "Sidermit.C58_exact",
    "Sidermit.C58_other_way_fails",
    "Sidermit.C58_time_on_board_partial",
    "Sidermit.C58_circular_fails"
   ],
   "note": "The code violates the property: on some legs it reads the delays of the other direction (C58_circular_fails, C58_other_way_fails). C58_exact gives the exact value in all networks, C58_circular_exact what that means for circular lines (the waiting at the second stop of a circular line in direction I is left out), C58_time_on_board_partial is the property for lines that go back over the same stops."
  },
  {
   "property": "C59",
   "status": "proved",
   "theorems": [
    "Sidermit.C59_transfers",
    "Sidermit.C59_nonneg"
   ],
   "note": ""
  },
  {
   "property": "C60",
   "status": "partial",
   "theorems": [
    "Sidermit.C60_alighting_missed",
    "Sidermit.C60_empty_line",
    "Sidermit.C60_empty_ring_full",
    "Sidermit.C60_ring_without_stop",
    "Sidermit.C60_unserved",
    "Sidermit.C60_no_solution",
    "Sidermit.C60_last_iteration",
    "Sidermit.C60_rows",
    "Sidermit.C60_loads_partial",
    "Sidermit.C60_extremes_partial",
    "Sidermit.C60_cost",
    "Sidermit.C60_defined_iff",
    "Sidermit.C60_circular_loads_partial",
    "Sidermit.C60_circular_empty",
    "Sidermit.C60_circular_fails",
    "Sidermit.C60_no_stop_no_ride",
    "Sidermit.C60_circular_cost"
   ],
   "note": "the loads of the sections need that alightings are shown (C60_alighting_missed gives the witness otherwise); for circular lines the loads need somebody riding from each node, the other cases are shown to fail or to report full vehicles"
  },
  {
   "property": "C61",
   "status": "proved",
   "theorems": [
    "Sidermit.C61_no_solution",
    "Sidermit.C61_no_trips",
    "Sidermit.C61_overall",
    "Sidermit.C61_objective",
    "Sidermit.C61_agrees"
   ],
   "note": "for the last iteration of any result with one non-negative frequency per line; the layout hypotheses (lines on streets, two ways of boarding) hold for every network of the library"
  },
  {
   "property": "C62",
   "status": "proved",
   "theorems": [
    "Sidermit.C62_rebuild",
    "Sidermit.C62_positions",
    "Sidermit.C62_symmetric",
    "Sidermit.C62_cbd_lost"
   ],
   "note": "C62_cbd_lost: a CBD off every direction of a subcentre is moved to the origin by the derived parameters"
  },
  {
   "property": "C63",
   "status": "proved",
   "theorems": [
    "Sidermit.C63_ids",
    "Sidermit.C63_together"
   ],
   "note": ""
  },
  {
   "property": "C64",
   "status": "proved",
   "theorems": [
    "Sidermit.C64_file",
    "Sidermit.C64_rebuild",
    "Sidermit.C64_types_lost"
   ],
   "note": "the quoting of cells by the csv writer of pandas is stated in Model/RoutesFile as library behaviour; C64_types_lost: the file does not tell the types"
  },
  {
   "property": "C65",
   "status": "proved",
   "theorems": [
    "Sidermit.C65_better_service",
    "Sidermit.C65_still_served"
   ],
   "note": "the passenger must value time in the vehicle and waiting (Admissible), as for C38"
  },
  {
   "property": "C66",
   "status": "partial",
   "theorems": [
    "Sidermit.C66_more_lines_partial",
    "Sidermit.C66_still_served",
    "Sidermit.C66_order_of_lines",
    "Sidermit.C66_line_more_hurts"
   ],
   "note": "the first claim fails for the code when the new line brings a stop to a node on the way of another line where no line stopped before (C66_line_more_hurts: the way of the other line is then measured longer, see C36); proved with the proviso (C66_more_lines_partial). Service of the demand and independence of the order hold without it."
  },
  {
   "property": "C67",
   "status": "proved",
   "theorems": [
    "Sidermit.C67_same_choices",
    "Sidermit.C67_costs",
    "Sidermit.C67_social_values",
    "Sidermit.C67_scaled_choices",
    "Sidermit.C67_same_optimum"
   ],
   "note": ""
  },
  {
   "property": "C68",
   "status": "proved",
   "theorems": [
    "Sidermit.C68_strategies",
    "Sidermit.C68_validator",
    "Sidermit.C68_which_lines_run",
    "Sidermit.C68_chain_of_lines",
    "Sidermit.C68_there_and_back"
   ],
   "note": "the values must be admissible as for C38; the last two statements are for circular routes with stops in one direction and for routes valid as custom routes"
  },
  {
   "property": "C69",
   "status": "proved",
   "theorems": [
    "Sidermit.C69_prepare_iff",
    "Sidermit.C69_constructor_iff",
    "Sidermit.C69_radial_joins",
    "Sidermit.C69_diametral_joins",
    "Sidermit.C69_feeder_trunk_joins",
    "Sidermit.C69_tangential_no_cbd",
    "Sidermit.C69_feeder_zones",
    "Sidermit.C69_radial_variants",
    "Sidermit.C69_families",
    "Sidermit.C69_joining_families",
    "Sidermit.C69_from_parameters",
    "Sidermit.C69_defaults",
    "Sidermit.C69_quick_start"
   ],
   "note": ""
  },
  {
   "property": "C70",
   "status": "proved",
   "theorems": [
    "Sidermit.C70_same_failures",
    "Sidermit.C70_same_paths",
    "Sidermit.C70_loads",
    "Sidermit.C70_cost",
    "Sidermit.C70_constraints",
    "Sidermit.C70_more_trips",
    "Sidermit.C70_parameters"
   ],
   "note": "the cost formula needs nonnegative prices and widths, distinct modes, and modes within the range their constructor accepts"
  },
  {
   "property": "C71",
   "status": "proved",
   "theorems": [
    "Sidermit.C71_economies",
    "Sidermit.C71_same_room",
    "Sidermit.C71_frequency_factor"
   ],
   "note": "same hypotheses as C70"
  },
  {
   "property": "C72",
   "status": "proved",
   "theorems": [
    "Sidermit.C72_read_back",
    "Sidermit.C72_line_break",
    "Sidermit.C72_semicolon"
   ],
   "note": "the numbers printed with {} are assumed to be read back and to have only digits, signs and points (NumText); names of lines as stated"
  },
  {
   "property": "C73",
   "status": "proved",
   "theorems": [
    "Sidermit.C73_numbers",
    "Sidermit.C73_consistent",
    "Sidermit.C73_frequencies"
   ],
   "note": ""
  },
  {
   "property": "C74",
   "status": "partial",
   "theorems": [
    "Sidermit.C74_outline_partial",
    "Sidermit.C74_access_in_hours"
   ],
   "note": "everything is proved except the access time: the code prints the hours and calls them minutes (C74_access_in_hours)"
  },
  {
   "property": "C75",
   "status": "proved",
   "theorems": [
    "Sidermit.C75_more_trips",
    "Sidermit.C75_exists"
   ],
   "note": "same hypotheses as C70; existence for number systems with square roots, such as the real numbers; the constraints are not considered"
  },
  {
   "property": "C76",
   "status": "proved",
   "theorems": [
    "Sidermit.C76_listing",
    "Sidermit.C76_complete",
    "Sidermit.C76_only_boarded_routes"
   ],
   "note": "names without line breaks; two modes of the same name are not told apart by the text"
  },
  {
   "property": "C77",
   "status": "proved",
   "theorems": [
    "Sidermit.C77_report",
    "Sidermit.C77_falls",
    "Sidermit.C77_falls_single",
    "Sidermit.C77_counts",
    "Sidermit.C77_graph",
    "Sidermit.C77_origin"
   ],
   "note": "names without line breaks and tabulators"
  },
  {
   "property": "C78",
   "status": "proved",
   "theorems": [
    "Sidermit.C78_summary"
   ],
   "note": "names without line breaks and commas"
  },
  {
   "property": "C79",
   "status": "proved",
   "theorems": [
    "Sidermit.C79_via",
    "Sidermit.C79_connected",
    "Sidermit.C79_hub"
   ],
   "note": ""
  },
  {
   "property": "C80",
   "status": "proved",
   "theorems": [
    "Sidermit.C80_straight_line",
    "Sidermit.C80_direct_line"
   ],
   "note": "the lower bound for distances with the triangle inequality, shown for the reals"
  },
  {
   "property": "C81",
   "status": "proved",
   "theorems": [
    "Sidermit.C81_any_first_stop",
    "Sidermit.C81_skipping_circular_line",
    "Sidermit.C81_names",
    "Sidermit.C81_accepted",
    "Sidermit.C81_moved",
    "Sidermit.C81_relabelled"
   ],
   "note": ""
  },
  {
   "property": "C82",
   "status": "proved",
   "theorems": [
    "Sidermit.C82_symmetric",
    "Sidermit.C82_city",
    "Sidermit.C82_zones",
    "Sidermit.C82_default_frequencies",
    "Sidermit.C82_distance",
    "Sidermit.C82_all_requests",
    "Sidermit.C82_half_way_tangential_lines_differ"
   ],
   "note": ""
  },
  {
   "property": "C83",
   "status": "proved",
   "theorems": [
    "Sidermit.C83_city",
    "Sidermit.C83_no_zones",
    "Sidermit.C83_unknown_route",
    "Sidermit.C83_network",
    "Sidermit.C83_complete",
    "Sidermit.C83_unknown_node_on_the_way_back"
   ],
   "note": "the positions and the calls of NetworkX are modelled, not what it paints"
  },
  {
   "property": "C84",
   "status": "proved",
   "theorems": [
    "Sidermit.C84_optimizer",
    "Sidermit.C84_costs",
    "Sidermit.C84_same_money",
    "Sidermit.C84_same_optimum",
    "Sidermit.C84_results",
    "Sidermit.C84_fair",
    "Sidermit.C84_city",
    "Sidermit.C84_demand",
    "Sidermit.C84_units"
   ],
   "note": "scipy is an arbitrary function of the start, the objective and the constraints; for another currency it is assumed to be indifferent to it, which floating point tolerances make only approximately true"
  },
  {
   "property": "C85",
   "status": "proved",
   "theorems": [
    "Sidermit.C85_mixed_objective",
    "Sidermit.C85_concave",
    "Sidermit.C85_best_between",
    "Sidermit.C85_same_usage",
    "Sidermit.C85_bill",
    "Sidermit.C85_rise",
    "Sidermit.C85_between",
    "Sidermit.C85_law_of_demand",
    "Sidermit.C85_dearer_not_more",
    "Sidermit.C85_same_feasible",
    "Sidermit.C85_nonneg",
    "Sidermit.C85_dearer_costs"
   ],
   "note": "the optima are those of the objective that the solver is given (paths of the initial frequencies); the outer iteration is not compared"
  },
  {
   "property": "C86",
   "status": "proved",
   "theorems": [
    "Sidermit.C86_shows",
    "Sidermit.C86_ways",
    "Sidermit.C86_unambiguous",
    "Sidermit.C86_picture",
    "Sidermit.C86_same_text"
   ],
   "note": "where dots are put on the page (spring layout), sizes, title and window are not modelled"
  },
  {
   "property": "C87",
   "status": "proved",
   "theorems": [
    "Sidermit.C87_loads",
    "Sidermit.C87_undefined",
    "Sidermit.C87_problem"
   ],
   "note": "what the solver of scipy does with the problem is not modelled; nor is the log line written afterwards"
  },
  {
   "property": "C88",
   "status": "partial",
   "theorems": [
    "Sidermit.C88_result_partial",
    "Sidermit.C88_summary_partial",
    "Sidermit.C88_cut_fails",
    "Sidermit.C88_summary_differs"
   ],
   "note": "C88_result_partial: cost and capacities hold for the point chosen, before frequencies below 1/24 are replaced by 0 (C88_cut_fails: passengers are left without a line) and with the paths of the round it comes from; C88_summary_partial: the summary shows the cost returned when these paths are those for the frequencies returned (C88_summary_differs: a converged search where they are not)"
  },
  {
   "property": "C89",
   "status": "partial",
   "theorems": [
    "Sidermit.C89_city_text",
    "Sidermit.C89_city_partial",
    "Sidermit.C89_city_lost",
    "Sidermit.C89_city_unreadable",
    "Sidermit.C89_demand",
    "Sidermit.C89_results",
    "Sidermit.C89_results_read",
    "Sidermit.C89_city_renamed"
   ],
   "note": "C89_city_partial: cities come back on machines that write utf-8, and on those that write ASCII as it is when names and numbers are ASCII; missing: the other machines, where it is false (C89_city_unreadable: for every machine with Latin-1 and every city whose first character outside ASCII is in a name before an ASCII one; C89_city_renamed; C89_city_lost: what the path held is lost when the text cannot be encoded). Demands and results hold on all machines"
  },
  {
   "property": "C90",
   "status": "proved",
   "theorems": [
    "Sidermit.C90_line_ends",
    "Sidermit.C90_every_text",
    "Sidermit.C90_demand_mark",
    "Sidermit.C90_city_mark",
    "Sidermit.C90_city_mark_needed"
   ],
   "note": "C90_city_mark_needed: a city file that begins with the line of the number of nodes is refused when a mark is put before it"
  },
  {
   "property": "C91",
   "status": "partial",
   "theorems": [
    "Sidermit.C91_two_way",
    "Sidermit.C91_families",
    "Sidermit.C91_express",
    "Sidermit.C91_express_diametral",
    "Sidermit.C91_express_faster",
    "Sidermit.C91_vehicle_time",
    "Sidermit.C91_exact",
    "Sidermit.C91_clocks_agree_partial",
    "Sidermit.C91_one_line",
    "Sidermit.C91_shortcut_for_nothing",
    "Sidermit.C91_ring",
    "Sidermit.C91_circular_routes",
    "Sidermit.C91_passengers_not_slower",
    "Sidermit.C91_express_tangential_short",
    "Sidermit.C91_express_radial",
    "Sidermit.C91_express_tangential"
   ],
   "note": "The code violates the property in two ways: parts of the way back without streets take the vehicle no time (C91_shortcut_for_nothing, in every city with a zone), and passengers of lines past nodes that are not served fly straight (C91_express; C91_express_diametral: exactly sin(pi j/n) times the time of the vehicle for diametral express lines of a symmetric city, strictly less when 2j < n by C91_express_faster; C91_express_tangential gives both times for tangential express lines between peripheries). The clocks agree on radial express lines of a symmetric city (C91_express_radial) and on short tangential express lines of every city (C91_express_tangential_short). C91_exact gives the difference for every line with stops in travel order whose nodes are all served, C91_one_line for every line alone that stops everywhere; C91_clocks_agree_partial is the property on streets; C91_two_way for well formed two-way lines and C91_families for all predefined feeder, radial, diametral and tangential lines that stop everywhere; C91_ring and C91_circular_routes for circular lines. On streets the passengers are never slower (C91_passengers_not_slower)."
  },
  {
   "property": "C92",
   "status": "proved",
   "theorems": [
    "Sidermit.C92_buildable_iff",
    "Sidermit.C92_optimizer_raises",
    "Sidermit.C92_accepted_but_useless"
   ],
   "note": ""
  },
  {
   "property": "C93",
   "status": "partial",
   "theorems": [
    "Sidermit.C93_trips_partial",
    "Sidermit.C93_accepted",
    "Sidermit.C93_accepted_partial",
    "Sidermit.C93_streets",
    "Sidermit.C93_street_limits",
    "Sidermit.C93_operators",
    "Sidermit.C93_infrastructure",
    "Sidermit.C93_idle_line_hurts",
    "Sidermit.C93_idle_mode_rejected"
   ],
   "note": "The code violates the property in two ways: C93_idle_line_hurts (a line without vehicles makes a trip with another line longer, see C36) and C93_idle_mode_rejected (its mode still counts in the validation). C93_trips_partial: the labels are the same when the further lines bring no stop to a node that a running line passes and where none stops. C93_accepted says exactly which demands are accepted, C93_accepted_partial is the property when the modes of all lines suit. Streets, limits, operators and infrastructure hold without proviso."
  },
  {
   "property": "C94",
   "status": "proved",
   "theorems": [
    "Sidermit.C94_trips",
    "Sidermit.C94_accepted",
    "Sidermit.C94_starts",
    "Sidermit.C94_shares",
    "Sidermit.C94_users",
    "Sidermit.C94_streets",
    "Sidermit.C94_street_limits",
    "Sidermit.C94_operators",
    "Sidermit.C94_infrastructure"
   ],
   "note": "C94_trips (labels at stops, city nodes and on board of every part), C94_accepted, C94_starts and C94_shares (pairs; the shares unless both modes have a single line per street or both have several), C94_streets, C94_street_limits, C94_infrastructure, C94_operators (given equal vehicles and cycles), C94_users (under the hypotheses of C53: equal values of time, no boarding time, one mode or no access time). That the parts get the load of the line per vehicle is not proved: it depends on how ties between equally good continuations are resolved."
  },
  {
   "property": "C95",
   "status": "proved",
   "theorems": [
    "Sidermit.C95_accepted",
    "Sidermit.C95_fewer_pairs",
    "Sidermit.C95_loads",
    "Sidermit.C95_sum",
    "Sidermit.C95_fewer_trips",
    "Sidermit.C95_more_passengers",
    "Sidermit.C95_room",
    "Sidermit.C95_more_room",
    "Sidermit.C95_times",
    "Sidermit.C95_more_hours",
    "Sidermit.C95_more_cost",
    "Sidermit.C95_fewer_feasible"
   ],
   "note": "C95_accepted, C95_fewer_pairs, C95_fewer_trips (acceptance); C95_loads, C95_sum (tables); C95_more_passengers, C95_room, C95_more_room (loads and the fullest section); C95_times, C95_more_hours (hours of the users); C95_more_cost (total cost at the same positive frequencies); C95_fewer_feasible (constraints)."
  },
  {
   "property": "C96",
   "status": "proved",
   "theorems": [
    "Sidermit.C96_trips_are_remembered",
    "Sidermit.C96_report_at_once",
    "Sidermit.C96_results_are_new",
    "Sidermit.C96_social_values_are_read",
    "Sidermit.C96_added_lines_cost_nothing",
    "Sidermit.C96_removed_lines_carry_on",
    "Sidermit.C96_trips_not_seen",
    "Sidermit.C96_removed_line_is_free",
    "Sidermit.C96_name_is_reused"
   ],
   "note": "C96_trips_are_remembered (cost, constraints, loads), C96_report_at_once and C96_results_are_new (tables of results), C96_social_values_are_read, C96_added_lines_cost_nothing, C96_removed_lines_carry_on; with the witnesses C96_trips_not_seen (the report divides by the old number of trips), C96_removed_line_is_free (a cost for a network on which no optimizer can be built) and C96_name_is_reused. Assignments to attributes of modes and routes are not among the calls."
  },
  {
   "property": "C97",
   "status": "proved",
   "theorems": [
    "Sidermit.C97_lines_show_the_present_values",
    "Sidermit.C97_as_if_assigned_before",
    "Sidermit.C97_registration_checks_present_values",
    "Sidermit.C97_registered_modes_are_not_checked",
    "Sidermit.C97_same_name",
    "Sidermit.C97_no_single_lines"
   ],
   "note": "C97_lines_show_the_present_values (all histories), C97_as_if_assigned_before (histories without assignments of names and parallel lines), C97_registration_checks_present_values, C97_registered_modes_are_not_checked, and the two ways to break a network: C97_same_name, C97_no_single_lines. The attributes of routes are plain attributes without setters; assignments to them are not among the steps."
  },
  {
   "property": "C98",
   "status": "proved",
   "theorems": [
    "Sidermit.C98_late_values_are_read",
    "Sidermit.C98_initial_frequencies_are_not_seen",
    "Sidermit.C98_speed_is_seen_by_vehicles_only"
   ],
   "note": "C98_late_values_are_read for the seven attributes co, c1, c2, t, bya, fmax, kmax; C98_initial_frequencies_are_not_seen for fini; the negative half for speeds is the witness C98_speed_is_seen_by_vehicles_only. What later assignments of theta, tat, d and name do is not stated."
  },
  {
   "property": "C99",
   "status": "proved",
   "theorems": [
    "Sidermit.C99_calls_act_on_present_values",
    "Sidermit.C99_found_by_the_name_it_had",
    "Sidermit.C99_names_shown_without_renaming",
    "Sidermit.C99_renamed_line",
    "Sidermit.C99_removing_the_mode_of_a_renamed_line",
    "Sidermit.C99_not_checked",
    "Sidermit.C99_wrong_line_removed"
   ],
   "note": "All parts, for networks whose routes are references to objects (Model/Depot); modes do not change here (that is C97) and assigned values have the type of the attribute."
  },
  {
   "property": "C100",
   "status": "proved",
   "theorems": [
    "Sidermit.C100_given_for_each_parallel_line",
    "Sidermit.C100_assigned_for_all_together"
   ],
   "note": "C100_given_for_each_parallel_line for built optimizers with at least one parallel line per mode, C100_assigned_for_all_together for single modes."
  }
 ]
}