{"id": "C01", "title": "Total trips always equals the sum of the matrix", "statement": "Whatever constructor produced a Demand object and whatever sequence of change_vij calls (accepted or rejected) follows, get_total_trips() equals the sum of all cells of get_matrix().", "quantifier": "every city graph, every constructor, every finite history of change_vij calls with arbitrary arguments and of reads of arbitrary cells of get_matrix()", "why_tests_cant": "The counter is maintained incrementally (old value subtracted, new one added); a test visits a few histories, drift can only be excluded by induction over all of them.", "anchors": ["sidermit/city/demand.py:Demand.__init__", "sidermit/city/demand.py:Demand.change_vij", "sidermit/city/demand.py:Demand.get_total_trips"]}
{"id": "C02", "title": "change_vij updates exactly one cell or nothing", "statement": "If change_vij(o,d,v) returns, cell (o,d) reads v and every other cell reads what it read before; if it raises, the matrix and the total are unchanged; and it raises exactly when v<0 (trips value), o is not a node (origin not found) or d is not a node (destination not found), in that order of precedence.", "quantifier": "every demand object produced by a constructor, change_vij calls and reads of node pairs; every o, d, v (reading the cell of a non-node through get_matrix() inserts that cell, after which change_vij accepts it: shown as an example; the effect/frame part holds for every object)", "why_tests_cant": "The frame condition speaks about all other cells and all argument combinations.", "anchors": ["sidermit/city/demand.py:Demand.change_vij"]}
{"id": "C03", "title": "Parametric demand generates exactly y trips", "statement": "For every city with n>=1 zones and every accepted (y,a,alpha,beta), Demand.build_from_parameters yields total trips equal to y. For n=0 it yields 0 whatever y is.", "quantifier": "every n, every accepted real y, a, alpha, beta (n=1 redefines beta)", "why_tests_cant": "A sum over n^2 cells for a parametric n with real parameters; sample tests fix n and the parameters.", "anchors": ["sidermit/city/demand.py:Demand.build_from_parameters", "sidermit/city/demand.py:Demand.parameters_validator"]}
{"id": "C04", "title": "Parametric demand has the documented spatial pattern", "statement": "In a parametric demand the CBD generates no trips, peripheries attract no trips, no node has trips to itself, every cell is non-negative, each periphery generates a*y/n and each subcentre (1-a)*y/n, and of the trips of a periphery the CBD receives the alpha share, the own subcentre the beta share and the other subcentres the rest in equal parts.", "quantifier": "every n>=1 and every accepted y,a,alpha,beta, every pair of nodes", "why_tests_cant": "Quantifies over all node pairs of arbitrarily large cities.", "anchors": ["sidermit/city/demand.py:Demand.build_from_parameters"]}
{"id": "C05", "title": "Parametric demand parameters are accepted exactly on the documented domain", "statement": "build_from_parameters accepts (y,a,alpha,beta) iff y>=0, 0<=a<=1, 0<=alpha<=1, 0<=beta<1 and alpha+beta<=1, and otherwise raises the exception of the first violated condition.", "quantifier": "every tuple of real arguments", "why_tests_cant": "Decision logic over a continuum including all boundary points.", "anchors": ["sidermit/city/demand.py:Demand.parameters_validator"]}
{"id": "C06", "title": "A demand matrix given as content is stored cell by cell", "statement": "Demand.build_from_content(graph, m) either raises because m has a wrong number of rows or columns or a negative entry, or yields a demand whose cell (i-th node, j-th node) equals m[i][j] for all i,j.", "quantifier": "every graph with distinct node ids, every matrix", "why_tests_cant": "All matrices of all shapes; and index/ids confusion appears only with non-consecutive ids.", "anchors": ["sidermit/city/demand.py:Demand.build_from_content"]}
{"id": "C07", "title": "Demand CSV export/import round trip", "statement": "Writing a demand with matrix_to_file and reading it back with build_from_file for the same graph reproduces the same matrix and total (given that number formatting round-trips).", "quantifier": "every demand reachable by constructors and change_vij", "why_tests_cant": "Round trip over all matrices; tests compare one file.", "anchors": ["sidermit/city/demand.py:Demand.matrix_to_file", "sidermit/city/demand.py:Demand.build_from_file"]}
{"id": "C08", "title": "Parametric city has the documented node set", "statement": "Graph.build_from_parameters(n,...) with accepted parameters yields 2n+1 nodes with pairwise distinct ids 0..2n: one CBD (id 0, zone 0) and for each zone z=1..n a periphery (id 2z-1) and a subcentre (id 2z).", "quantifier": "every n and every accepted parameter vector, including every asymmetry", "why_tests_cant": "Induction over n; tests use n<=8.", "anchors": ["sidermit/city/graph.py:Graph.build_from_parameters", "sidermit/city/graph.py:Graph.__add_cbd", "sidermit/city/graph.py:Graph.__add_zone", "sidermit/city/graph.py:Graph.__add_nodes"]}
{"id": "C09", "title": "Edge set of the city", "statement": "In a city with n zones there is an edge a->b iff {a,b} is a periphery and the subcentre of its zone, a subcentre and the CBD, or two subcentres of cyclically adjacent different zones. In particular the relation is symmetric, has no self loops, and never joins periphery-periphery or periphery-CBD.", "quantifier": "every n, every pair of nodes of the city (parametric or imported)", "why_tests_cant": "All n and all node pairs; the ring closure and the n=1,2 special cases are separate branches.", "anchors": ["sidermit/city/graph.py:Graph.__build_edges", "sidermit/city/graph.py:Graph.edge_exist", "sidermit/city/graph.py:Edge.parameters_validator"]}
{"id": "C10", "title": "Edge list is duplicate free with consecutive ids", "statement": "No ordered pair of nodes appears twice in get_edges(); edge ids are 1..m; m is 0, 4, 10 for n=0,1,2 and 6n for n>=3.", "quantifier": "every n", "why_tests_cant": "Counting for all n.", "anchors": ["sidermit/city/graph.py:Graph.__build_edges"]}
{"id": "C11", "title": "The city graph is strongly connected", "statement": "For n>=1 there is a directed path of edges between any two nodes of the city.", "quantifier": "every n and every pair of nodes", "why_tests_cant": "Path existence for unbounded n.", "anchors": ["sidermit/city/graph.py:Graph.__build_edges"]}
{"id": "C12", "title": "City parameter validation is exact", "statement": "Graph.parameters_validator accepts iff n>=0, l>=0, g>=0, p>=0, etha in [0,1] with a zone in 1..n (when given), angles/Gi/Hi (when given) have length n with entries in range; otherwise raises.", "quantifier": "every argument combination", "why_tests_cant": "Boundary points of a many-branch decision over real and list arguments.", "anchors": ["sidermit/city/graph.py:Graph.parameters_validator"]}
{"id": "C13", "title": "Asymmetries relocate nodes without changing the topology", "statement": "The angles, Gi, Hi and etha options change only coordinates; ids, zones, node kinds and edges are those of the symmetric city; and the final periphery/subcentre/CBD positions are the documented functions of radius (l, l+g*l scaled by Gi, Hi) and angle.", "quantifier": "every n and accepted parameters", "why_tests_cant": "The mutations run sequentially over shared node objects; composition for all n and parameters.", "anchors": ["sidermit/city/graph.py:Graph.build_from_parameters", "sidermit/city/graph.py:Graph.__angles_asymmetry", "sidermit/city/graph.py:Graph.__Gi_asymmetry", "sidermit/city/graph.py:Graph.__Hi_asymmetry", "sidermit/city/graph.py:Graph.__etha_asymmetry"]}
{"id": "C14", "title": "Edge distances form a symmetric non-negative Euclidean table", "statement": "get_edges_distance() contains, for every edge a->b, the Euclidean distance of its end nodes; the table is symmetric and non-negative and contains no other pair.", "quantifier": "every graph", "why_tests_cant": "All coordinates, all graphs.", "anchors": ["sidermit/city/graph.py:Graph.get_edges_distance"]}
{"id": "C15", "title": "Polar/Cartesian conversion round trip", "statement": "For every radius r>0 and angle in [0,360), get_angle(get_xy(r,angle)) = angle, and get_angle always returns a value in [0,360].", "quantifier": "every real radius and angle", "why_tests_cant": "A continuum with quadrant case splits.", "anchors": ["sidermit/city/graph.py:Graph.get_angle", "sidermit/city/graph.py:Graph.get_xy"]}
{"id": "C16", "title": "Pajek export/import round trip", "statement": "Exporting a city in Pajek format and building a graph from that content gives, whenever it is accepted, a city with the same nodes (ids, names, coordinates, types, zones, widths, in the same order), zones and edges; an imported city comes back exactly, with all its parameters.", "quantifier": "every city: exact conditions for acceptance, in particular every centred city from accepted parameters with at most 4999 zones, no subcentre at the origin and peripheries on average at least as far as the subcentres; numbers whose text reads back", "why_tests_cant": "Round trip over all cities; tests use one file.", "anchors": ["sidermit/city/graph.py:Graph.export_graph", "sidermit/city/graph.py:Graph.pajekfile_to_dataframe", "sidermit/city/graph.py:Graph.build_from_content"]}
{"id": "C17", "title": "Imported cities are well formed", "statement": "Every graph accepted by build_from_content/build_from_file with n>=1 zones has exactly one CBD in zone 0, exactly one periphery and one subcentre per zone 1..n and pairwise distinct node ids.", "quantifier": "every file content", "why_tests_cant": "All possible input files. (Distinctness is violated by the code when a zone's periphery and subcentre share an id; see negation.)", "anchors": ["sidermit/city/graph.py:Graph.build_from_content", "sidermit/city/graph.py:Graph.pajekfile_to_dataframe", "sidermit/city/graph.py:Graph.__add_nodes"]}
{"id": "C18", "title": "Mode attributes stay in their documented ranges", "statement": "In every reachable state of a TransportMode (successful construction followed by any sequence of attribute assignments, some raising) co,c1,c2,t,fmax,kmax,tat,d,fini>=0, v>0, theta in [0,1], bya in {0,1}; a raising assignment changes nothing; a successful one changes only its attribute.", "quantifier": "every history of assignments", "why_tests_cant": "Histories are unbounded.", "anchors": ["sidermit/publictransportsystem/mode.py:mode_property", "sidermit/publictransportsystem/mode.py:TransportMode.__init__"]}
{"id": "C19", "title": "Mode manager behaves as a name-indexed collection", "statement": "For every history of add_mode/remove_mode/get_mode, the manager's observable content is that of a map from names to modes in insertion order: add succeeds iff the name is new, remove/get succeed iff the name is present, get returns the mode last added under that name, removed names are gone and others untouched.", "quantifier": "every history of operations", "why_tests_cant": "Two parallel Python lists must stay aligned across unbounded histories.", "anchors": ["sidermit/publictransportsystem/mode.py:TransportModeManager.add_mode", "sidermit/publictransportsystem/mode.py:TransportModeManager.remove_mode", "sidermit/publictransportsystem/mode.py:TransportModeManager.get_mode"]}
{"id": "C20", "title": "Mode set check before assignment is exact", "statement": "is_valid_to_assignment_step returns True iff there is exactly one mode, or exactly two modes one of which has d=1; in every other case it raises (never returns False).", "quantifier": "every list of modes", "why_tests_cant": "Decision logic over all lists.", "anchors": ["sidermit/publictransportsystem/mode.py:TransportModeManager.is_valid_to_assignment_step"]}
{"id": "C21", "title": "Passenger attributes stay in their documented ranges", "statement": "In every reachable state of a Passenger va>0 and all monetary values and penalties are >=0, and failing assignments change nothing.", "quantifier": "every history of assignments", "why_tests_cant": "Histories are unbounded.", "anchors": ["sidermit/publictransportsystem/passenger.py:passenger_property", "sidermit/publictransportsystem/passenger.py:Passenger.__init__"]}
{"id": "C22", "title": "Route sequence text round trip", "statement": "sequences_to_list(sequences_to_string(l)) = l for every list of integers.", "quantifier": "every list of integers", "why_tests_cant": "Unbounded lists and integers.", "anchors": ["sidermit/publictransportsystem/network.py:Route.sequences_to_string", "sidermit/publictransportsystem/network.py:Route.sequences_to_list"]}
{"id": "C23", "title": "Custom route acceptance is exact", "statement": "A custom route is accepted iff the four texts are lists of integers, both node sequences are non-empty and without repeated nodes (a single node is accepted), the inbound end is the outbound start and vice versa, each stop lies on its node sequence, and stop sequences start/end where the node sequences do. Otherwise the exception of the first failing check is raised.", "quantifier": "every quadruple of sequences", "why_tests_cant": "Decision logic over unbounded lists.", "anchors": ["sidermit/publictransportsystem/network.py:Route.parameters_validator", "sidermit/publictransportsystem/network.py:Route.stops_validator", "sidermit/publictransportsystem/network.py:Route.direction_validator", "sidermit/publictransportsystem/network.py:Route.sequences_validator"]}
{"id": "C24", "title": "Stops of an accepted custom route are visited in travel order", "statement": "For every accepted custom route the stop sequence is a subsequence of the node sequence.", "quantifier": "every accepted custom route", "why_tests_cant": "Quantifies over all accepted routes. (Violated: order and repetition of stops are not checked; negation proved and the provable part kept.)", "anchors": ["sidermit/publictransportsystem/network.py:Route.stops_validator"]}
{"id": "C25", "title": "Network bookkeeping invariant", "statement": "After any history of add_route/remove_route/add_transport_mode/remove_transport_mode on a network, ids reported and routes stored are aligned, route ids are pairwise distinct, registered mode names are distinct, there are at most two modes, and if two, one has d=1; raising operations leave the network unchanged.", "quantifier": "every history of network operations", "why_tests_cant": "Unbounded histories of four mutating operations on parallel lists.", "anchors": ["sidermit/publictransportsystem/network.py:TransportNetwork.add_route", "sidermit/publictransportsystem/network.py:TransportNetwork.remove_route", "sidermit/publictransportsystem/network.py:TransportNetwork.add_transport_mode", "sidermit/publictransportsystem/network.py:TransportNetwork.remove_transport_mode"]}
{"id": "C26", "title": "Adding and removing routes has the documented effect", "statement": "After a successful add_route(r), get_route(r.id) returns r, and every other id resolves as before; after a successful remove_route(id), get_route(id) raises and every other id resolves as before; add_route of an existing id and remove_route/get_route of an unknown id raise.", "quantifier": "every network state and every route/id", "why_tests_cant": "Frame conditions over all other ids.", "anchors": ["sidermit/publictransportsystem/network.py:TransportNetwork.add_route", "sidermit/publictransportsystem/network.py:TransportNetwork.remove_route", "sidermit/publictransportsystem/network.py:TransportNetwork.get_route"]}
{"id": "C27", "title": "Routes in a network only use existing streets", "statement": "Every consecutive pair of nodes in the outbound and inbound sequence of every route stored in a network is an edge of the city.", "quantifier": "every network state reachable by add_route", "why_tests_cant": "All reachable states. (Violated for the inbound sequence: only the outbound one is checked; negation proved, outbound part kept.)", "anchors": ["sidermit/publictransportsystem/network.py:TransportNetwork.add_route", "sidermit/publictransportsystem/network.py:TransportNetwork.__edges_validator"]}
{"id": "C28", "title": "Removing a mode removes its routes", "statement": "After remove_transport_mode(m) no route of the network uses m.", "quantifier": "every network state", "why_tests_cant": "All states. (Violated when two routes of the mode are consecutive: the list is mutated while iterated; negation proved and the exact surviving set characterised.)", "anchors": ["sidermit/publictransportsystem/network.py:TransportNetwork.remove_transport_mode"]}
{"id": "C29", "title": "Predefined circular routes are well formed", "statement": "For every city with n>=2 zones get_circular_routes returns two opposite routes visiting every subcentre once and returning to the start along existing edges, all nodes being stops; for n<2 it raises.", "quantifier": "every n", "why_tests_cant": "All n.", "anchors": ["sidermit/publictransportsystem/network.py:TransportNetwork.get_circular_routes"]}
{"id": "C30", "title": "Predefined feeder routes are well formed", "statement": "get_feeder_routes returns for each zone exactly one route periphery-subcentre and back, accepted by route validation and by add_route.", "quantifier": "every n", "why_tests_cant": "All n.", "anchors": ["sidermit/publictransportsystem/network.py:TransportNetwork.get_feeder_routes"]}
{"id": "C31", "title": "Predefined radial routes are well formed", "statement": "get_radial_routes returns n routes with pairwise distinct ids; each runs over existing edges in both directions, the inbound sequence is the reverse of the outbound one, stops are a subsequence with the same ends, route validation and add_route accept them, for all four short/express variants (short wins when both are given).", "quantifier": "every n and all variants", "why_tests_cant": "All n.", "anchors": ["sidermit/publictransportsystem/network.py:TransportNetwork.get_radial_routes"]}
{"id": "C32", "title": "Predefined diametral routes are well formed", "statement": "For 1<=jump<=n/2 get_diametral_routes returns n routes (n/2 if jump=n/2) joining each pair of zones at distance jump exactly once, with distinct ids, valid over existing edges in both directions and accepted by route validation; otherwise it raises.", "quantifier": "every n, jump and variants", "why_tests_cant": "All n and jumps, modular wrap-around.", "anchors": ["sidermit/publictransportsystem/network.py:TransportNetwork.get_diametral_routes"]}
{"id": "C33", "title": "Predefined tangential routes are well formed", "statement": "For 1<=jump<=n/2 get_tangencial_routes returns n routes (n/2 if jump=n/2), each following the subcentre ring through jump steps along existing edges in both directions, with distinct ids and accepted by route validation; otherwise it raises.", "quantifier": "every n, jump and variants", "why_tests_cant": "All n and jumps, wrap-around of intermediate zones.", "anchors": ["sidermit/publictransportsystem/network.py:TransportNetwork.get_tangencial_routes"]}
{"id": "C34", "title": "One stop per served city node and mode", "statement": "The extended graph has exactly one stop node for each (city node, mode) such that some route of the mode stops at the node, and one route node per route, direction and stop (circular routes: one less).", "quantifier": "every graph and list of routes", "why_tests_cant": "All networks.", "anchors": ["sidermit/optimization/preoptimization/extended_graph.py:ExtendedGraph.build_stop_nodes", "sidermit/optimization/preoptimization/extended_graph.py:ExtendedGraph.build_route_nodes", "sidermit/optimization/preoptimization/extended_graph.py:ExtendedGraph.build_tree_graph"]}
{"id": "C35", "title": "Boarding and alighting edges are exactly the possible ones", "statement": "Each route node has one boarding edge from its stop unless it is the last stop of its direction, and one alighting edge to its stop unless it is the first; circular routes have both everywhere; boarding frequency is frequency/d; access edges join each stop with its city node both ways.", "quantifier": "every extended graph", "why_tests_cant": "All networks.", "anchors": ["sidermit/optimization/preoptimization/extended_graph.py:ExtendedGraph.build_access_edges", "sidermit/optimization/preoptimization/extended_graph.py:ExtendedGraph.build_boarding_edges", "sidermit/optimization/preoptimization/extended_graph.py:ExtendedGraph.build_alighting_edges"]}
{"id": "C36", "title": "In-vehicle time between consecutive stops is travelled length over speed", "statement": "The extended graph has one route edge between consecutive route nodes of a direction and its time equals the length of the node sequence travelled between the two stops divided by the mode speed.", "quantifier": "every extended graph built from a network with in-order stops", "why_tests_cant": "All networks. (Violated when an intermediate node has no stop of any route: the code then measures a straight line; negation proved, the rest kept.)", "anchors": ["sidermit/optimization/preoptimization/extended_graph.py:ExtendedGraph.build_route_edges"]}
{"id": "C37", "title": "Hyperpath search always terminates normally", "statement": "The hyperpath search and the expansion into elementary paths return without exception for every extended graph built from a city and routes whose modes have theta>0, speed>0 and lines per street>0, every frequencies not negative, origin and destination, when pv>0 and pw>0. With pv=0, which the passenger constructor accepts, the search ends with a division by zero.", "quantifier": "every extended graph, frequencies, OD pair and admissible passenger", "why_tests_cant": "Loop with data dependent deletions and divisions.", "anchors": ["sidermit/optimization/preoptimization/hyper_path.py:Hyperpath.build_hyperpath_graph"]}
{"id": "C38", "title": "Labels are attained by a travel strategy", "statement": "Whenever the label reported for a node is finite, there is a strategy (choices of legs, sets of attractive lines at stops) that reaches the destination with exactly that expected generalised time.", "quantifier": "every extended graph and OD pair, every node", "why_tests_cant": "Strategies are an inductively generated infinite family.", "anchors": ["sidermit/optimization/preoptimization/hyper_path.py:Hyperpath.build_hyperpath_graph"]}
{"id": "C39", "title": "Labels are optimal", "statement": "No strategy from a node to the destination (not passing through the origin city node) has an expected generalised time below the reported label; in particular an infinite label means no strategy exists.", "quantifier": "every extended graph and OD pair, every node and every strategy", "why_tests_cant": "Universal over all strategies (optimal-strategy theorem).", "anchors": ["sidermit/optimization/preoptimization/hyper_path.py:Hyperpath.build_hyperpath_graph"]}
{"id": "C40", "title": "Attractive-line sets and frequencies are consistent with the label", "statement": "At every stop with a boarding strategy the reported accumulated frequency is the sum of the frequencies of the reported successor lines and the label is (theta*pw/pv + sum f*t)/sum f; a line of positive frequency is among the successors exactly when its label is below that of the stop; every other reached node has one successor whose time and label add up to its label.", "quantifier": "every extended graph and OD pair", "why_tests_cant": "Incremental updates over any processing order.", "anchors": ["sidermit/optimization/preoptimization/hyper_path.py:Hyperpath.build_hyperpath_graph"]}
{"id": "C41", "title": "Elementary paths are well formed", "statement": "get_hyperpath_OD terminates; every path it reports starts at the origin city node, then the given origin stop, follows successor edges and ends at the destination; every successor path appears; no node repeats.", "quantifier": "every extended graph and OD pair", "why_tests_cant": "Worklist expansion over graphs of any shape; acyclicity is global.", "anchors": ["sidermit/optimization/preoptimization/hyper_path.py:Hyperpath.get_hyperpath_OD"]}
{"id": "C42", "title": "Network validation accepts exactly connected networks", "statement": "network_validator returns True iff the network has a valid mode set and every OD pair with trips has a strategy from some origin stop; otherwise it raises. Trips from a node to itself are never accepted.", "quantifier": "every OD matrix and network", "why_tests_cant": "All matrices and networks.", "anchors": ["sidermit/optimization/preoptimization/hyper_path.py:Hyperpath.network_validator"]}
{"id": "C43", "title": "Trip shares of an OD pair add up to 100 percent", "statement": "For every OD pair with stops at its origin the percentages assigned are in [0,100], go only to those stops and sum to 100, so all the trips of the pair are assigned. Their meaning: the stop of a mode with one line is in the middle of the street and the parallel lines of the other mode are evenly spaced; the share of the first is the part of the street from which walking to it is not worse.", "quantifier": "all lists of origin stops, labels, street widths, numbers of lines, walking speeds and values of time; all positions across the street", "why_tests_cant": "Continuum of inputs with thresholds. (Violated at exact ties; negation proved with the exact exclusion.)", "anchors": ["sidermit/optimization/preoptimization/assignment.py:Assignment.get_assignment"]}
{"id": "C44", "title": "Loading conserves passengers", "statement": "For every list of OD pairs computed by the hyperpath search and all frequencies under which every stop where assigned passengers wait has a running line among those they would take: the loading ends without exception; on every route and direction boardings equal alightings; the load leaving a stop equals the load arriving plus boardings minus alightings; at the stops of each city node boardings minus alightings equal the assigned trips that start there minus those that end there; no entry is negative; pairs add up; and lines that are attractive together take the same number of passengers per vehicle.", "quantifier": "every city, set of routes and values of time, every list of OD pairs computed by the search, every assignment of shares, demand and frequency vector", "why_tests_cant": "Flow propagation over unbounded graphs.", "anchors": ["sidermit/optimization/preoptimization/assignment.py:Assignment.get_alighting_and_boarding"]}
{"id": "C45", "title": "Most loaded section is the maximum section load", "statement": "most_loaded_section has an entry for exactly the routes with section loads: the maximum over directions and stops of the section load, and at least 0.", "quantifier": "every load table", "why_tests_cant": "All tables.", "anchors": ["sidermit/optimization/preoptimization/assignment.py:Assignment.most_loaded_section"]}
{"id": "C46", "title": "Infrastructure length counts each used street once", "statement": "get_mode_network_distance gives for each mode d times the total length of the undirected edges traversed by at least one route of the mode with non-zero frequency, each counted once; a mode without such a route has no entry; the infrastructure cost is the sum over modes of c2 times that, and does not change while the set of active routes is the same.", "quantifier": "every city, network and frequency vector", "why_tests_cant": "All networks; double counting appears only with overlapping routes and directions.", "anchors": ["sidermit/optimization/infrastructure_cost.py:InfrastructureCost.get_mode_network_distance", "sidermit/optimization/infrastructure_cost.py:InfrastructureCost.get_infrastruture_cost"]}
{"id": "C47", "title": "Street capacity constraint list is exact", "statement": "fmax_constrains yields one value per (edge, mode), in this order, which is the vehicles of the mode per hour on the edge (frequency times the passes of each route in a cycle) minus the mode's fmax, divided by d; no value is positive iff on no street, in no direction, a mode exceeds its fmax; a mode with d = 0 makes the call fail.", "quantifier": "every city, network and frequency vector", "why_tests_cant": "All networks.", "anchors": ["sidermit/optimization/constrains.py:Constrains.fmax_constrains"]}
{"id": "C48", "title": "Vehicle capacity constraint list is exact", "statement": "most_loaded_section_constrains, given the most loaded sections, yields one value per route, load minus the mode's kmax; it is <= 0 iff every section of the route has at most kmax passengers per vehicle.", "quantifier": "every network", "why_tests_cant": "All networks.", "anchors": ["sidermit/optimization/constrains.py:Constrains.most_loaded_section_constrains"]}
{"id": "C49", "title": "Line travel time is route length over speed", "statement": "lines_travel_time gives for each route the sum of the lengths of consecutive nodes both ways divided by the speed; additive, non-negative, and symmetric when the inbound is the reverse of the outbound.", "quantifier": "every network and distance table", "why_tests_cant": "Unbounded sequences.", "anchors": ["sidermit/optimization/operators_cost.py:OperatorsCost.lines_travel_time"]}
{"id": "C50", "title": "Cycle time accounts for every boarding and alighting once", "statement": "get_cycle_time equals travel time plus t times the sum over stops of (boardings + alightings) for sequential modes and of the maximum of both for simultaneous modes; simultaneous is never slower than sequential and takes at least half of the dwell; the call does not change any value of the tables and repeating it gives the same times; with the tables of the loading the sequential dwell is twice t per boarding.", "quantifier": "every boarding/alighting table", "why_tests_cant": "All tables; key sets of both tables differ in general.", "anchors": ["sidermit/optimization/operators_cost.py:OperatorsCost.get_cycle_time"]}
{"id": "C51", "title": "Operator cost is non-negative and ignores inactive lines", "statement": "get_operators_cost is the sum over active lines of (co+c1*k)*f*tc; it does not depend on k and tc of lines with zero frequency; it is non-negative and monotone.", "quantifier": "every network and frequency vector", "why_tests_cant": "All vectors.", "anchors": ["sidermit/optimization/operators_cost.py:OperatorsCost.get_operators_cost"]}
{"id": "C52", "title": "User resources scale with demand", "statement": "The costing of users ends without an exception. Multiplying all trips by a factor (boarding/alighting tables fixed) multiplies access, waiting, in-vehicle time and transfers by that factor.", "quantifier": "every network and demand", "why_tests_cant": "All networks, all demands. (Violated for access time at intermodal transfers: the factor of passengers is missing; negation proved, the exact behaviour and the other parts kept.)", "anchors": ["sidermit/optimization/users_cost.py:UsersCost.resources_consumer"]}
{"id": "C53", "title": "User cost equals demand-weighted optimal labels", "statement": "When the frequencies used for costing are those used for routing, vehicles do not wait at stops, social values equal perceived ones, and the lines are of one mode or modes have no access time, the users cost equals the value of in-vehicle time multiplied by the trips times the label of the stops where they start, corrected for the walk across the street and for the access time at the destination, which only the label has. Vehicles that wait at stops only add to it.", "quantifier": "every network and demand", "why_tests_cant": "Cross-module refinement of routing and costing.", "anchors": ["sidermit/optimization/users_cost.py:UsersCost.get_users_cost", "sidermit/optimization/preoptimization/hyper_path.py:Hyperpath.build_hyperpath_graph"]}
{"id": "C54", "title": "Frequency vector and dictionary agree", "statement": "At the start there is one component and one dictionary entry per route, in the order of the network: the vector holds the initial frequencies of the modes, the dictionary the given frequencies if any. fopt_to_f gives the i-th component to the i-th route, the vector is read back from the dictionary, a vector with more components than routes raises KeyError, and an optimizer built with the dictionary of a vector works with exactly that dictionary.", "quantifier": "every network with distinct route ids", "why_tests_cant": "All networks.", "anchors": ["sidermit/optimization/optimizer.py:Optimizer.f0", "sidermit/optimization/optimizer.py:Optimizer.fopt_to_f"]}
{"id": "C55", "title": "Selected optimisation result is valid and best", "statement": "get_better_result returns a result that ended well (status other than 0, 3, -1), violates the constraints by less than 0.001, has no negative frequency and a finite objective, minimal among all the acceptable results and the first of those; it returns nothing exactly when no acceptable result has a finite objective.", "quantifier": "every list of solver results", "why_tests_cant": "All lists, ties and infinities.", "anchors": ["sidermit/optimization/optimizer.py:Optimizer.get_better_result"]}
{"id": "C56", "title": "External optimisation is safe for every solver", "statement": "Whatever the internal solver returns, external_optimization only returns a result whose frequencies are 0 or at least 1/24, equal to those of the acceptable solver result of minimal objective except that those below 1/24 are 0; it raises NoOptimalSolutionFound exactly when there is none. The results come from successive internal optimisations each built with the latest frequencies; the search goes on exactly while the frequencies move by the tolerance or more and the number of iterations is not reached; with max_number_of_iteration=N it performs at most N+1 internal optimisations and ends.", "quantifier": "every solver behaviour (oracle)", "why_tests_cant": "The solver is an arbitrary stateful oracle.", "anchors": ["sidermit/optimization/optimizer.py:Optimizer.external_optimization", "sidermit/optimization/optimizer.py:Optimizer.get_better_result"]}
{"id": "C57", "title": "Total cost is the sum of its reported parts", "statement": "VRC of a vector of frequencies that leaves a running line wherever passengers wait equals the operators' cost of the running lines (vehicles sized by the fullest section, fleet from the cycle time) plus the cost of the streets used by each mode plus the worth of the users' times. The constraint vector has one entry per route and per edge-mode pair, and none is positive iff every vehicle has room on every section and no street carries more vehicles of a mode than it can take. Building an optimizer with positive initial frequencies does not fail in the evaluation of the constraints.", "quantifier": "every network and frequency vector", "why_tests_cant": "All inputs.", "anchors": ["sidermit/optimization/optimizer.py:Optimizer.VRC", "sidermit/optimization/optimizer.py:Optimizer.get_constrains", "sidermit/optimization/optimizer.py:Optimizer.__init__"]}
{"id": "C58", "title": "Time on board agrees with the loads", "statement": "The in-vehicle time of all users equals the load of every section times its driving time, plus for those who alight half the alighting time at the stop, plus for those who stay on board the boarding and alighting time at the stop, all read from the tables of loads, boardings and alightings.", "quantifier": "every network, demand and frequency vector", "why_tests_cant": "Two modules compute the same aggregate in different ways, passenger by passenger and vehicle by vehicle. (Violated for circular lines: delays are looked up under the wrong direction; negation proved.)", "anchors": ["sidermit/optimization/users_cost.py:UsersCost.resources_consumer", "sidermit/optimization/preoptimization/assignment.py:Assignment.get_alighting_and_boarding"]}
{"id": "C59", "title": "Transfers and signs of user resources", "statement": "The transfers counted in an hour are the boardings of the hour less the trips; no resource is negative.", "quantifier": "every network, demand and frequency vector", "why_tests_cant": "Conservation over all networks and demands.", "anchors": ["sidermit/optimization/users_cost.py:UsersCost.resources_consumer", "sidermit/optimization/preoptimization/assignment.py:Assignment.get_alighting_and_boarding"]}
{"id": "C60", "title": "The table of lines describes the solution", "statement": "The table of results has one row per line in the order of the network. A line that does not run has zeros. A line that runs has its frequency, the frequency of each parallel line, the passengers on its fullest section as vehicle capacity, frequency times cycle time as fleet, and its operators' cost per boarding passenger; each section between successive nodes has the share of the capacity taken by the passengers that are on board there, between 0 and 1, some section is full, and the least load reported is the smallest of the shares. The table exists iff every running line carries passengers.", "quantifier": "every city, network, demand and solution of the solver", "why_tests_cant": "The table is computed by following the vehicles from stop to stop, while the capacities come from the passengers' paths; agreement has to hold for all networks. (Violated: alightings are not followed when boarding and alighting are sequential and nobody boards; circular lines count boardings at the first node twice, are reported full when empty, and fail when a node is no stop; negations proved.)", "anchors": ["sidermit/optimization/optimizer.py:Optimizer.get_network_results", "sidermit/optimization/optimizer.py:Optimizer.last_iteration"]}
{"id": "C61", "title": "Overall results agree with the solution and with the table of lines", "statement": "The overall results exist iff there are trips. The cost reported is the sum of the three parts reported and, times the trips, equals VRC of the solution on the network with the passengers who adapt to it; the operators' part is the cost of the vehicles of the lines that run, the infrastructure part the cost of the streets they use, the users' part the worth of the access, waiting and on-board minutes and transfers reported. Vehicles and number of lines per mode are those of the rows of the table of lines, the capacity per mode is the average over its running lines; a mode without running lines does not appear.", "quantifier": "every city, network, demand and solution of the solver", "why_tests_cant": "Two reports and the objective are computed by separate passes, with tables that the passes touch; they have to agree for all networks and frequencies.", "anchors": ["sidermit/optimization/optimizer.py:Optimizer.get_overall_results", "sidermit/optimization/optimizer.py:Optimizer.last_iteration"]}
{"id": "C62", "title": "The parameters of an imported city describe it", "statement": "The parameters that build_from_content derives (L, g, P, etha, etha_zone, angles, Gi, Hi) are always accepted by build_from_parameters and give back the radius of every node and the direction and position of every subcentre; Gi and Hi have mean 1. Peripheries come back in the direction of their subcentre; the CBD at its radius towards the subcentre it is aligned with (within a thousandth of a degree), otherwise at the origin. For a symmetric city L, g and P are recovered exactly.", "quantifier": "every accepted content with nodes; every symmetric city with 1 to 4999 zones and l>0", "why_tests_cant": "The parameters are averages and ratios over all zones of any file; tests compare one file.", "anchors": ["sidermit/city/graph.py:Graph.build_from_content", "sidermit/city/graph.py:Graph.build_from_parameters", "sidermit/city/graph.py:Graph.get_parameters"]}
{"id": "C63", "title": "The predefined families can share one network", "statement": "The calls of get_circular_routes, get_feeder_routes, get_radial_routes, get_diametral_routes and get_tangencial_routes that a city allows, with any variants and jumps and for any modes that can run together, return routes that can all be added to one network exactly when no lines are asked for twice; the network then holds them all, each found under its id, in the order of the requests, and the modes are those asked for. Otherwise an add_route raises RouteIdDuplicatedException. Express short radial lines are the same lines as short radial ones.", "quantifier": "every city with zones, every list of requests for one or two modes with any names (also names that look like parts of ids), every jump and variant", "why_tests_cant": "The requests, jumps, numbers of zones and names of modes are unbounded; the ids are text built from all of them.", "anchors": ["sidermit/publictransportsystem/network.py:TransportNetwork.get_circular_routes", "sidermit/publictransportsystem/network.py:TransportNetwork.get_feeder_routes", "sidermit/publictransportsystem/network.py:TransportNetwork.get_radial_routes", "sidermit/publictransportsystem/network.py:TransportNetwork.get_diametral_routes", "sidermit/publictransportsystem/network.py:TransportNetwork.get_tangencial_routes", "sidermit/publictransportsystem/network.py:TransportNetwork.add_route"]}
{"id": "C64", "title": "The file of routes can be read back", "statement": "routes_to_file writes a table with the documented columns and one row per route, in the order of the network, from which the id, the name of the mode and the four sequences of every route are read back, whatever characters ids and names have; with the city, the modes and the types of the routes the network can be built again, and holds the same routes under the same ids. The types of the routes are not in the file.", "quantifier": "every network (for building it again: every network reachable by calls on a well formed city whose routes have registered modes)", "why_tests_cant": "Ids, names, sequences and numbers of routes are arbitrary.", "anchors": ["sidermit/publictransportsystem/network.py:TransportNetwork.routes_to_file", "sidermit/publictransportsystem/network.py:Route.sequences_to_string", "sidermit/publictransportsystem/network.py:Route.sequences_to_list"]}
{"id": "C65", "title": "A better service never makes a trip longer", "statement": "For the same city, routes, origin and destination: if no line becomes less frequent, the transfer penalty does not grow, and waiting and access do not weigh more against the time in the vehicle, then no label of the hyperpath search grows at any node; and a demand accepted by the network validation stays accepted.", "quantifier": "every city with distinct node ids, every list of routes, every two frequency dictionaries (or the default), penalties and passengers, every origin, destination and node", "why_tests_cant": "It compares the results of two searches with lines dropped and added from the attractive sets; it holds for unboundedly many networks and frequencies only because the search is optimal.", "anchors": ["sidermit/optimization/preoptimization/hyper_path.py:Hyperpath.build_hyperpath_graph", "sidermit/optimization/preoptimization/hyper_path.py:Hyperpath.network_validator", "sidermit/optimization/preoptimization/extended_graph.py:ExtendedGraph.__init__"]}
{"id": "C66", "title": "More lines never make a trip longer; the order of the lines does not matter", "statement": "Adding lines to a network (with the others running at least as often) does not raise the label of any node or stop of the city, and a demand that was served stays served as long as the modes suit the assignment. The labels do not depend on the order in which the lines were added.", "quantifier": "every city with distinct node ids, every network with distinct route ids and every larger network or reordering of it, every passenger, frequencies, origin and destination", "why_tests_cant": "Networks are unbounded, and the added lines change the numbering of all nodes of the extended graph.", "anchors": ["sidermit/optimization/preoptimization/hyper_path.py:Hyperpath.build_hyperpath_graph", "sidermit/optimization/preoptimization/hyper_path.py:Hyperpath.network_validator", "sidermit/optimization/preoptimization/extended_graph.py:ExtendedGraph.build_route_edges"]}
{"id": "C67", "title": "What the values of time of the passenger decide", "statement": "Hyperpaths, shares of the stops, loads and constraints depend on the passenger only through the walking speed, the transfer penalty and the ratios pw/pv and pa/pv; passengers that agree in these get the same optimizer object but for the passenger (or the same error), the same costs of operators and infrastructure, and the same hours and transfers priced with the social values. Multiplying the social values of access, waiting and time in the vehicle multiplies the cost of the users by the same number; multiplying pv, pw and pa changes nothing, and an optimisation whose solver looks only at objective and constraints ends with the same frequencies.", "quantifier": "every city, demand, network and initial frequencies, every two passengers with pv different from 0, every solver", "why_tests_cant": "It relates two whole runs for all networks, demands and passengers; a dependence on an absolute value may show only near ties between lines or stops.", "anchors": ["sidermit/optimization/optimizer.py:Optimizer.__init__", "sidermit/optimization/optimizer.py:Optimizer.VRC", "sidermit/optimization/optimizer.py:Optimizer.external_optimization", "sidermit/optimization/preoptimization/hyper_path.py:Hyperpath.get_all_hyperpaths", "sidermit/optimization/preoptimization/assignment.py:Assignment.get_assignment", "sidermit/optimization/users_cost.py:UsersCost.get_users_cost"]}
{"id": "C68", "title": "A demand is accepted exactly when it can be travelled on the lines that run", "statement": "The network validation accepts a demand exactly when for every cell with trips the two nodes are different and one can get from one to the other by boarding lines that run and alighting further on, changing lines at nodes where they stop, and the modes of the lines suit the assignment. Acceptance depends on which lines run only, not on how often they run, on speeds, on prices of time or on the transfer penalty. For valid routes it does not matter in which direction a line runs or where in it the stops are: a chain of lines with common stops is enough, and one can travel back whenever one can travel there.", "quantifier": "every city with distinct node ids, every list of routes, every frequencies, penalty and passenger, every demand matrix", "why_tests_cant": "Chains of transfers are of any length over any network; the code decides by searching hyperpaths with times and frequencies, and only a proof shows that none of these numbers matters.", "anchors": ["sidermit/optimization/preoptimization/hyper_path.py:Hyperpath.network_validator", "sidermit/optimization/preoptimization/hyper_path.py:Hyperpath.build_hyperpath_graph", "sidermit/optimization/preoptimization/extended_graph.py:ExtendedGraph.__init__"]}
{"id": "C69", "title": "When the optimizer can be constructed", "statement": "With sensible values the constructor of the optimizer succeeds exactly when every cell of the demand with trips is between different nodes joined by a chain of lines that run and the modes suit the assignment; otherwise it raises the mode error or the network error and no other. Radial lines, diametral lines (neither short nor express) and feeders with radial lines of any variant join all nodes; feeders alone join only the two nodes of a zone, tangential lines never reach the CBD, short radial lines never the periphery, express radial lines never a subcentre. From the parameters of a city with at least one zone and of a demand, with the default modes and passenger, the optimizer of radial buses and that of feeder buses with short radial metro lines can always be constructed.", "quantifier": "every city, every demand; every network of sound routes with every initial frequencies; and, with the default initial frequencies, every list of possible predefined families of usable modes that go together", "why_tests_cant": "It ties the whole pipeline from the parameters to the first assignment for unboundedly many cities, demands and line plans, including that no other error can be raised on the way.", "anchors": ["sidermit/optimization/optimizer.py:Optimizer.__init__", "sidermit/optimization/preoptimization/hyper_path.py:Hyperpath.network_validator", "sidermit/publictransportsystem/network.py:TransportNetwork.get_radial_routes", "sidermit/publictransportsystem/network.py:TransportNetwork.get_feeder_routes", "sidermit/publictransportsystem/network.py:TransportNetwork.get_diametral_routes", "sidermit/publictransportsystem/network.py:TransportNetwork.get_tangential_routes"]}
{"id": "C70", "title": "What happens when all trips are multiplied by a number", "statement": "For every positive c, building a demand from parameters with c times the total gives c times the trips of each pair (or the same exception). The constructor of the optimizer with c times the trips succeeds in the same cases and fails with the same exceptions; the hyperpaths, labels and shares of the stops are the same and passengers per vehicle are c times as many. With c times the trips and e times the frequencies, passengers on the fullest section are c/e times as many, vehicles on each street e times, and the total cost is q0 + q1 e + q2 c + q3 c/e + q4 c^2/e with nonnegative numbers that depend neither on c nor on e. Hence at given frequencies the total cost grows with the trips, and each further trip costs at least as much as the one before.", "quantifier": "every city, passenger, demand without negative cells, network and frequencies from which an optimizer is built, every positive c and e and all positive frequencies", "why_tests_cant": "It is an identity in two real factors through the hyperpath search, the assignment, the loads and the three costs, for networks of any size.", "anchors": ["sidermit/city/demand.py:Demand.build_from_parameters", "sidermit/optimization/optimizer.py:Optimizer.__init__", "sidermit/optimization/optimizer.py:Optimizer.VRC", "sidermit/optimization/users_cost.py:UsersCost.resources_consumer", "sidermit/optimization/operators_cost.py:OperatorsCost.get_operators_cost", "sidermit/optimization/constrains.py:Constrains.most_loaded_section_constrains"]}
{"id": "C71", "title": "Economies of scale", "statement": "When the trips and all frequencies are multiplied by the same number, the room left in the vehicles of every line is the same, the total cost does not fall as the number grows, and the total cost divided by the trips does not rise. With given trips the total cost is a convex function of a common factor on all frequencies.", "quantifier": "every city, passenger, demand without negative cells and with trips, network and positive frequencies from which an optimizer is built; every pair of positive numbers", "why_tests_cant": "It compares infinitely many pairs of scenarios for networks of any size; it is the qualitative conclusion users of the tool draw from its costs.", "anchors": ["sidermit/optimization/optimizer.py:Optimizer.VRC", "sidermit/optimization/users_cost.py:UsersCost.resources_consumer", "sidermit/optimization/operators_cost.py:OperatorsCost.get_operators_cost", "sidermit/optimization/infrastructure_cost.py:InfrastructureCost.get_infrastruture_cost", "sidermit/optimization/constrains.py:Constrains.most_loaded_section_constrains"]}
{"id": "C72", "title": "The file of results of the lines can be read back", "statement": "Whoever splits the file of results at line breaks and semicolons gets exactly one row for each line of the network, in their order, with the name of the line, every number within half a hundredth of the computed one (and inf exactly when it is infinite), and the loads of all sections exactly with their stops. This needs names of lines without semicolons and line breaks: with a line break in a name two different results give the same file, and with a semicolon the row has too many columns.", "quantifier": "every optimizer whose table of results is computed, networks of any size", "why_tests_cant": "A round trip over all tables of results, with numbers of any size and any number of sections and lines.", "anchors": ["sidermit/optimization/optimizer.py:Optimizer.string_network_results", "sidermit/optimization/optimizer.py:Optimizer.write_file_network_results", "sidermit/optimization/optimizer.py:Optimizer.network_results"]}
{"id": "C73", "title": "The printed summary says the computed values", "statement": "The summary of an optimization can be read line by line: each cost, time and number of transfers is printed within half a hundredth of the computed value, and each mode with its fleet, vehicle size and number of lines; hence the printed costs and times add up to the printed totals within two hundredths. The report of the optimization shows the frequency of each line beside its name, in the order of the network.", "quantifier": "every optimizer with computed results, any number of modes whose names have no line break; every result of the minimizer with as many entries as lines", "why_tests_cant": "It ranges over all values and over networks of any size; rounding of each printed number interacts with the sums.", "anchors": ["sidermit/optimization/optimizer.py:Optimizer.string_overall_results", "sidermit/optimization/optimizer.py:Optimizer.string_network_optimization", "sidermit/optimization/optimizer.py:Optimizer.get_overall_results"]}
{"id": "C74", "title": "The description of the extended graph says what the graph contains", "statement": "Printing an extended graph lists every city node with its stops, every stop with its mode, its access time in minutes and its route nodes, and every route node with the frequency where it can be boarded, the penalty of a transfer in minutes where passengers can alight, and the previous stop with the hours from it.", "quantifier": "every city, list of routes, transfer penalty and frequencies from which an extended graph is built", "why_tests_cant": "The text depends on searches for edges between all pairs of nodes of graphs of any size; a unit written wrong is seen only by relating the text to the parameters.", "anchors": ["sidermit/optimization/preoptimization/extended_graph.py:ExtendedGraph.__str__", "sidermit/optimization/preoptimization/extended_graph.py:ExtendedGraph.build_access_edges"]}
{"id": "C75", "title": "The best frequencies grow with the trips, between their square root and their number", "statement": "For given relative frequencies of the lines there is at most one common factor on all frequencies with the least total cost, and exactly one as soon as somewhere more service is costlier and somewhere else less service is. When the trips are multiplied by k >= 1, the best factor is multiplied by a number between the square root of k and k.", "quantifier": "every city, passenger, demand without negative cells, network and positive relative frequencies from which an optimizer is built; all pairs of positive multiples of the demand", "why_tests_cant": "It compares minima over a continuum of frequencies for all pairs of demands and networks of any size.", "anchors": ["sidermit/optimization/optimizer.py:Optimizer.VRC", "sidermit/optimization/optimizer.py:Optimizer.__init__", "sidermit/optimization/users_cost.py:UsersCost.resources_consumer", "sidermit/optimization/operators_cost.py:OperatorsCost.get_operators_cost"]}
{"id": "C76", "title": "The listing of boardings and alightings is complete", "statement": "Whoever reads the text of the boardings and alightings line by line finds every boarding of the tables exactly once, under its route and its direction, with mode, place and the passengers per vehicle to two decimals; and likewise every alighting of a route that is boarded. Since the passengers assigned to a line board it before they alight, no alighting of an assignment is missing.", "quantifier": "all tables of boardings and alightings whose names have no line breaks; for the last sentence all cities, networks, frequencies and demands without negative trips that can be assigned", "why_tests_cant": "The tables have any number of routes, directions and stops; the reading must come out for all of them.", "anchors": ["sidermit/optimization/preoptimization/assignment.py:Assignment.str_boarding_alighting", "sidermit/optimization/preoptimization/assignment.py:Assignment.get_alighting_and_boarding"]}
{"id": "C77", "title": "The printed itineraries can be followed", "statement": "Whoever reads the text of the itineraries of a pair line by line finds, stop by stop and itinerary by itinerary, exactly the places of the computed itineraries, in their order, each with its label to four decimals. From the second place on, the remaining time (the label less the walk to the stops of the origin) never rises along an itinerary, and it is 0 at its end; if the origin has only one stop the labels themselves never rise. Beside the origin itself stands inf. Every attractive line of a stop begins an itinerary and every itinerary begins with an attractive line, so that there are at least as many itineraries as attractive lines, and at least one. The listing of the whole graph of a pair has exactly one label and one frequency for each node, in the order of the nodes.", "quantifier": "all results whose names have no line breaks and tabulators; for the statements on times all cities, networks and frequencies that are accepted, and all pairs of origin and destination", "why_tests_cant": "The number of stops, itineraries and places is not bounded, and that the times fall along every itinerary follows from the optimality of the strategies only.", "anchors": ["sidermit/optimization/preoptimization/hyper_path.py:Hyperpath.string_hyperpaths_OD", "sidermit/optimization/preoptimization/hyper_path.py:Hyperpath.string_hyperpath_graph", "sidermit/optimization/preoptimization/hyper_path.py:Hyperpath.get_hyperpath_OD", "sidermit/optimization/preoptimization/hyper_path.py:Hyperpath.build_hyperpath_graph"]}
{"id": "C78", "title": "The summary of all pairs can be read back", "statement": "The summary of the itineraries has exactly two lines for each stop of the origin of each pair with trips, in the order of the results; reading them gives back the names of origin, destination and mode, the number of itineraries and of attractive lines exactly, and the trips and the label up to half a hundredth (inf as inf).", "quantifier": "all lists of results whose names have no line breaks and commas", "why_tests_cant": "Any number of pairs and stops, and all numbers: the rounded text must be within half a hundredth of each of them.", "anchors": ["sidermit/optimization/preoptimization/hyper_path.py:Hyperpath.string_all_hyperpaths", "sidermit/optimization/preoptimization/hyper_path.py:Hyperpath.get_all_hyperpaths"]}
{"id": "C79", "title": "Trips over a third node, and hubs", "statement": "Going over a third node never saves more than a transfer costs: for all different nodes i, j and every third node k, some stop of i has an expected generalised time to j that is not larger than the time from any stop of i to k, plus one transfer penalty, plus the time from any stop of k to j. In particular, if k can be reached from i and j from k then j can be reached from i; and a network that connects every node with one hub in both directions accepts every demand between different nodes, if its modes suit the assignment.", "quantifier": "all cities with distinct ids, all networks, frequencies and passengers with admissible values, all triples of nodes, all demands", "why_tests_cant": "It is a triangle inequality over all triples of nodes of all networks, and rests on the optimality of the strategies among infinitely many.", "anchors": ["sidermit/optimization/preoptimization/hyper_path.py:Hyperpath.build_hyperpath_graph", "sidermit/optimization/preoptimization/hyper_path.py:Hyperpath.network_validator", "sidermit/optimization/preoptimization/extended_graph.py:ExtendedGraph.build_alighting_edges", "sidermit/optimization/preoptimization/extended_graph.py:ExtendedGraph.build_access_edges"]}
{"id": "C80", "title": "How short and how long a trip can be", "statement": "The time given for a pair from a stop of the origin is at least the walk to that stop, the walk out of it at the other end, the wait for the first of all vehicles that stop there and the straight line between the nodes at the speed of the fastest mode. And it is at most what any one line that goes there takes: walk, wait for this line alone, time in its vehicle, walk at the destination.", "quantifier": "all cities with distinct ids in the plane, all networks whose lines stop only at nodes they pass, all admissible frequencies and passengers, all pairs, stops and direct lines", "why_tests_cant": "Both bounds range over all itineraries with any number of transfers; the lower one rests on the triangle inequality of the plane along each of them.", "anchors": ["sidermit/optimization/preoptimization/hyper_path.py:Hyperpath.build_hyperpath_graph", "sidermit/optimization/preoptimization/extended_graph.py:ExtendedGraph.build_route_edges", "sidermit/optimization/preoptimization/extended_graph.py:ExtendedGraph.build_boarding_edges", "sidermit/optimization/preoptimization/extended_graph.py:ExtendedGraph.build_access_edges"]}
{"id": "C81", "title": "Names, numbering and the position of the city do not matter", "statement": "Two descriptions of the same network give the same times: if the nodes, modes and lines have other ids, names or numbers, the lines are listed in another order, the directions of lines are exchanged, or the whole city is moved, turned or mirrored, then corresponding stops and nodes have the same expected times for corresponding pairs. A circular line that stops at all nodes it passes may be described from any of them; for one that skips nodes this makes a difference. The corresponding demand is accepted for both or for neither, as long as modes of different names keep different names.", "quantifier": "all pairs of cities with distinct ids and networks on them that correspond to each other, all admissible frequencies and passengers, all pairs of nodes, all demands", "why_tests_cant": "It relates the results for all pairs of corresponding networks; the search picks edges and labels in an order that depends on the numbering, and a test compares single runs.", "anchors": ["sidermit/optimization/preoptimization/hyper_path.py:Hyperpath.build_hyperpath_graph", "sidermit/optimization/preoptimization/hyper_path.py:Hyperpath.network_validator", "sidermit/optimization/preoptimization/extended_graph.py:ExtendedGraph.build_stop_nodes", "sidermit/optimization/preoptimization/extended_graph.py:ExtendedGraph.build_route_nodes", "sidermit/optimization/preoptimization/extended_graph.py:ExtendedGraph.build_route_edges", "sidermit/optimization/preoptimization/extended_graph.py:ExtendedGraph.build_boarding_edges"]}
{"id": "C82", "title": "In a symmetric city with a symmetric network all zones are alike", "statement": "In a city described by the number of zones and the distances alone, with any families of predefined lines (feeder, radial, diametral, tangential, circular) that all run at the same frequency within a family, the expected time between two places depends only on how far apart their zones are round the city: turning the city by some zones, or mirroring it, maps trips to trips of the same time. Exception: tangential lines that go half way round the city; they leave part of the ring unused, so neighbouring zones can have different times. In general, whenever a symmetry of the city maps each line to a line of the same frequency, corresponding trips take the same time.", "quantifier": "all numbers of zones, distances, requests for predefined lines, frequencies equal within families, passengers, pairs of nodes; in general all cities, networks and symmetries", "why_tests_cant": "It compares the search for all pairs of zones in cities of any size; the numbering of zones makes each run different, and a test compares finitely many pairs in finitely many cities.", "anchors": ["sidermit/city/graph.py:Graph.build_from_parameters", "sidermit/publictransportsystem/network.py:TransportNetwork.get_feeder_routes", "sidermit/publictransportsystem/network.py:TransportNetwork.get_radial_routes", "sidermit/publictransportsystem/network.py:TransportNetwork.get_diametral_routes", "sidermit/publictransportsystem/network.py:TransportNetwork.get_tangencial_routes", "sidermit/publictransportsystem/network.py:TransportNetwork.get_circular_routes", "sidermit/optimization/preoptimization/hyper_path.py:Hyperpath.build_hyperpath_graph", "sidermit/optimization/preoptimization/extended_graph.py:ExtendedGraph.build_route_edges"]}
{"id": "C83", "title": "Pictures show the city and the lines asked for", "statement": "The picture of a city with zones shows each node once, in the colour of its kind and with its label, at its coordinates, and each street once per direction, and nothing else. The picture of a network shows in addition the ways of the routes asked for, in the directions asked for, and each of their stops. It is refused exactly when a route is asked for that the network does not have. It can be drawn whenever the routes asked for pass nodes of the city only; a city without zones, and a network with an unknown node on the way back of a route (which can be added), cannot be drawn, because some node has no position.", "quantifier": "all well formed cities with distinct ids, all reachable networks, all lists of routes and directions asked for", "why_tests_cant": "A test would have to look at the picture; the claim is about all networks and all choices of routes and directions, including the failing ones.", "anchors": ["sidermit/city/graph.py:Graph.plot", "sidermit/publictransportsystem/network.py:TransportNetwork.plot"]}
{"id": "C84", "title": "Units, names and the place of the city do not matter for the optimisation", "statement": "Describe the same problem a second time: lengths and speeds in another unit, money in another currency (with costs per length converted accordingly), nodes with other numbers, lines and modes with other names, the city drawn at another place. Then the optimizer can be built exactly when it could before (else the same exception is raised), it starts with the same frequencies, has the same constraints, and each of the three costs and the objective is the old one in the new money. A solver that does not care about the currency ends with the same frequencies (any solver, if the currency is kept), and the tables of lines and of overall results are the same but for the names and the currency. A city built from parameters with L and p in the other unit is the city in the second description, and so is the demand built for it.", "quantifier": "all cities, demands, passengers, networks and given frequencies, all positive factors, all injective renamings, all similarities of the plane, all solvers, tolerances and limits, including the inputs that are refused", "why_tests_cant": "The claim compares two runs of the whole pipeline for all inputs; a hidden constant with a unit, or an order that depends on names, would show only for particular inputs.", "anchors": ["sidermit/optimization/optimizer.py:Optimizer", "sidermit/optimization/users_cost.py:UsersCost", "sidermit/optimization/operators_cost.py:OperatorsCost", "sidermit/optimization/infrastructure_cost.py:InfrastructureCost", "sidermit/optimization/preoptimization/extended_graph.py:ExtendedGraph", "sidermit/optimization/preoptimization/assignment.py:Assignment", "sidermit/city/graph.py:Graph.build_from_parameters"]}
{"id": "C85", "title": "Prices are only prices: the objective is a bill, and what gets dearer is not used more", "statement": "Change the costs per vehicle, per place and per length of any mode and the social values of access, waiting, time in vehicles and transfers. Then the optimizer is built (or refused) as before, with the same initial frequencies and constraints, and for all frequencies the same vehicles, places, streets, hours and transfers are used; the objective is their sum, each times its price. Hence, comparing two optima over the same frequencies (for instance all that keep the constraints, which are the same), the rise of the smallest objective lies between the rises of the prices times what is used after and before; and if a single thing gets dearer, the optimum does not use more of it. Nothing is used a negative number of times, so with no price falling no frequencies get cheaper. Mixed prices give the mixture of the objectives, so the smallest objective is a concave function of the prices, and frequencies that are best for two sets of prices are best for all between.", "quantifier": "all cities, demands, passengers with a value of time that is not zero, networks, given frequencies, all changes of the prices of each mode object and of the social values, all sets of frequencies to choose from and all optima in them", "why_tests_cant": "It is a statement about all pairs of price systems and all minimisers over arbitrary sets; a test compares two numerical optimisations whose error hides the effect.", "anchors": ["sidermit/optimization/optimizer.py:Optimizer.VRC", "sidermit/optimization/users_cost.py:UsersCost.get_users_cost", "sidermit/optimization/operators_cost.py:OperatorsCost.get_operators_cost", "sidermit/optimization/infrastructure_cost.py:InfrastructureCost.get_infrastruture_cost", "sidermit/publictransportsystem/mode.py:TransportMode", "sidermit/publictransportsystem/passenger.py:Passenger"]}
{"id": "C86", "title": "The picture of the itineraries of a pair shows the itineraries and nothing else", "statement": "Hyperpath.plot draws a yellow dot for each node of the city, a red one for each stop and a green one for each call of a line that is on one of the given itineraries, an orange arrow for each step of one of them, and nothing else; each text is written once, and every dot and every end of an arrow has its text. For the itineraries found for a pair, when names can be told apart (different names of nodes without dashes, modes with different names without spaces, different line names, no line calling twice at a stop in a direction), the ways along arrows from the origin to the destination are exactly the itineraries, each one once: the picture shows no detour that no passenger takes, although itineraries share dots. Without such names the picture can mislead: for a mode called \"a I\" and a line \"a\" it shows a way that is no itinerary.", "quantifier": "all dictionaries of itineraries; for the ways: all cities, networks and frequencies for which the search is defined, all pairs and all sequences of texts", "why_tests_cant": "Drawings are looked at, not asserted on; and that overlaid itineraries never combine into a wrong one depends on what the search can return for any network.", "anchors": ["sidermit/optimization/preoptimization/hyper_path.py:Hyperpath.plot", "sidermit/optimization/preoptimization/hyper_path.py:Hyperpath.get_hyperpath_OD"]}
{"id": "C87", "title": "The optimisation problem is defined exactly where passengers can be carried, and its feasible points are the operable frequencies", "statement": "internal_optimization hands the solver the initial frequencies of the modes as the start, VRC as the objective, and bounds and constraints of matching sizes for every vector of one value per line. A vector is allowed by these bounds and constraints if and only if it has one frequency per line, none negative, at every stop to which the paths lead trips one of the lines they would take runs, every vehicle has room for its passengers on every section, and no street carries more vehicles of a mode than it can take; at every allowed vector VRC has a value. For non-negative frequencies that leave some stop where passengers wait without a running line among those they would take, and only for them, the loading, VRC and get_constrains raise ZeroDivisionError; building an optimizer raises it when the initial frequencies of the modes are such. Lines that no trips are led to may stop.", "quantifier": "every city, network, demand, passenger and initial frequencies for which the paths can be computed, and every vector of numbers of any length", "why_tests_cant": "The solver probes points nobody chose; where an exception or a size mismatch lurks depends on which stops the paths of all pairs lead to.", "anchors": ["sidermit/optimization/optimizer.py:Optimizer.internal_optimization", "sidermit/optimization/optimizer.py:Optimizer.VRC", "sidermit/optimization/optimizer.py:Optimizer.get_constrains", "sidermit/optimization/optimizer.py:Optimizer.__init__"]}
{"id": "C88", "title": "The result of the optimisation tells the truth when the solver does", "statement": "If the solver of every round reports the objective at its point and how far the constraints are violated there, then the frequencies returned by external_optimization carry all passengers at the cost returned, exceed the capacity of vehicles and streets by less than a thousandth, and the summary printed for them shows that cost.", "quantifier": "every city, network, demand, passenger, initial frequencies, tolerance, number of iterations and truthful solver", "why_tests_cant": "The solver may return any point; the result chosen may come from any round, with paths of passengers from the round before. (Violated: frequencies below 1/24 are replaced by 0 after the choice, and the best round need not be one in which passengers travel as they do with its frequencies; both negations proved.)", "anchors": ["sidermit/optimization/optimizer.py:Optimizer.external_optimization", "sidermit/optimization/optimizer.py:Optimizer.get_better_result", "sidermit/optimization/optimizer.py:Optimizer.internal_optimization", "sidermit/optimization/optimizer.py:Optimizer.get_overall_results"]}
{"id": "C89", "title": "Files written by the library are read back from it on every machine", "statement": "A city written with graph_to_pajek_file gives, when read with build_from_file, what its exported text gives; a demand written with matrix_to_file is read back as the same object; the file of the network results holds the rows of the results, and a call without results leaves the path as it was. This holds whatever the default encoding of the machine and its end of line.", "quantifier": "every city, demand, optimizer, result, machine (default encoding and end of line) and earlier content of the path", "why_tests_cant": "Tests run on one machine, with one encoding and one end of line, and with names in ASCII. (Violated for cities: the file is written in the default encoding and read as utf-8, and it is emptied before the text is encoded.)", "anchors": ["sidermit/city/graph.py:Graph.graph_to_pajek_file", "sidermit/city/graph.py:Graph.build_from_file", "sidermit/city/demand.py:Demand.matrix_to_file", "sidermit/city/demand.py:Demand.build_from_file", "sidermit/optimization/optimizer.py:Optimizer.write_file_network_results"]}
{"id": "C90", "title": "Ends of lines and byte order marks of other programs do not change what is read", "statement": "Files of the same text in utf-8 with lines ended in \\n, \\r\\n or \\r, even mixed, give the same city and the same demand; a byte order mark before the text changes nothing for a demand, nor for a city whose first line is not the one of the number of nodes.", "quantifier": "every text and every choice of the end of each of its lines", "why_tests_cant": "The files of the tests come from one editor; there are infinitely many texts and ways to end their lines.", "anchors": ["sidermit/city/graph.py:Graph.build_from_file", "sidermit/city/demand.py:Demand.build_from_file", "sidermit/city/graph.py:Graph.build_from_content"]}
{"id": "C91", "title": "The clock of the passengers and the clock of the vehicles agree", "statement": "The running time that is charged to the operator for a cycle of a line is the sum of the in-vehicle times of its passengers between consecutive stops over the cycle.", "quantifier": "every city, every set of lines, every line of it, every speed", "why_tests_cant": "Two modules compute the two times in two ways (a table of street lengths, coordinates of served nodes); a test compares them for a few lines at most. (Violated in two ways: the way back of an accepted line need not follow streets, and what does not is driven in no time, while passengers spend time on it, negation proved for every city with a zone; and passengers of express lines skip the nodes that no line serves, negation proved for every symmetric city with three zones or more.)", "anchors": ["sidermit/optimization/operators_cost.py:OperatorsCost.lines_travel_time", "sidermit/optimization/preoptimization/extended_graph.py:ExtendedGraph.build_route_edges", "sidermit/publictransportsystem/network.py:TransportNetwork.add_route"]}
{"id": "C92", "title": "A network can be assigned exactly when all stops are in the city", "statement": "For lines of modes with a speed and a number of parallel lines that are not zero, the extended graph is built exactly when every stop is a node of the city; otherwise AttributeError is raised and no optimizer can be constructed, whatever demand, passenger and frequencies are given. add_route does not prevent that: every accepted custom line of two nodes or more has an accepted variant with the same way out for which it happens.", "quantifier": "every city, every list of lines, every demand, passenger and frequencies", "why_tests_cant": "All lists of lines and all demands; the exception appears in another module than the one that accepts the line.", "anchors": ["sidermit/optimization/preoptimization/extended_graph.py:ExtendedGraph.__init__", "sidermit/optimization/preoptimization/extended_graph.py:ExtendedGraph.build_route_nodes", "sidermit/optimization/optimizer.py:Optimizer.__init__", "sidermit/publictransportsystem/network.py:TransportNetwork.add_route"]}
{"id": "C93", "title": "Lines that do not run change nothing", "statement": "Lines of frequency zero change neither the expected times of the trips, nor which demands are accepted, nor the vehicles on the streets and their limits, nor the cost of the operators, nor the cost of the infrastructure.", "quantifier": "every city, every list of lines, every set of further lines of frequency zero, every origin, destination, demand and passenger", "why_tests_cant": "A test compares a few networks; the optimisation itself sets frequencies to zero, so every reported result relies on it. (Violated for trips: a line without vehicles still has stops, and a stop at a node that another line passes makes that line slower; and for demands: a line without vehicles of a third mode makes the validation raise. Negations proved.)", "anchors": ["sidermit/optimization/preoptimization/extended_graph.py:ExtendedGraph.build_route_edges", "sidermit/optimization/preoptimization/hyper_path.py:Hyperpath.build_hyperpath_graph", "sidermit/optimization/preoptimization/hyper_path.py:Hyperpath.network_validator", "sidermit/optimization/infrastructure_cost.py:InfrastructureCost.get_infrastruture_cost", "sidermit/optimization/operators_cost.py:OperatorsCost.get_operators_cost", "sidermit/optimization/constrains.py:Constrains.fmax_constrains"]}
{"id": "C94", "title": "Splitting a line into parallel lines that share its vehicles changes nothing", "statement": "When a line is replaced by several lines of the same mode, way and stops whose frequencies add up to its own, the stops and the expected times of all trips are the same, the same demands are accepted and shared alike between the stops, the streets carry the same vehicles and keep the same limits, and nothing more is built. The operators pay the same when the parts have the vehicles and the cycle of the line, and so do the users when they value time as the assignment does and board without delay.", "quantifier": "every city, every list of lines, every way to split any of them into any number of parts (some possibly without vehicles, listed in any order), every origin, destination, demand and passenger", "why_tests_cant": "A test splits one line of one network once. The claim is about all common-line strategies over all ways to share the vehicles: the attractive sets of the two networks have different sizes and are found in different orders.", "anchors": ["sidermit/optimization/preoptimization/extended_graph.py:ExtendedGraph.build_boarding_edges", "sidermit/optimization/preoptimization/hyper_path.py:Hyperpath.build_hyperpath_graph", "sidermit/optimization/preoptimization/hyper_path.py:Hyperpath.network_validator", "sidermit/optimization/preoptimization/assignment.py:Assignment.get_assignment", "sidermit/optimization/infrastructure_cost.py:InfrastructureCost.get_infrastruture_cost", "sidermit/optimization/operators_cost.py:OperatorsCost.get_operators_cost", "sidermit/optimization/users_cost.py:UsersCost.get_users_cost", "sidermit/optimization/constrains.py:Constrains.fmax_constrains"]}
{"id": "C95", "title": "Trips do not influence each other's ways, so demands add up and more trips never cost less", "statement": "A demand is accepted exactly when each of its pairs with trips is accepted on its own. The passengers that board, alight and ride at every stop are the sum, over the pairs, of the trips times what one trip of that pair causes; hence the tables of two demands add up to the tables of the demand in which both travel. More trips never lower boarding, loads, the fullest section, the users' hours or the total cost at given frequencies, the room two demands need together is at most the sum of what each needs, and frequencies that are feasible for a demand are feasible for every demand with fewer trips.", "quantifier": "every city, every list of lines, every passenger, every pair of demand matrices of any size with nonnegative trips, every list of positive frequencies", "why_tests_cant": "A test compares two demands on one network. The claim is about all matrices at once: it depends on each pair's share being found without looking at the others and on every cost being nondecreasing in the tables, including dwell times that lengthen the cycle of every line.", "anchors": ["sidermit/optimization/preoptimization/hyper_path.py:Hyperpath.get_all_hyperpaths", "sidermit/optimization/preoptimization/assignment.py:Assignment.get_assignment", "sidermit/optimization/preoptimization/assignment.py:Assignment.get_alighting_and_boarding", "sidermit/optimization/optimizer.py:Optimizer.VRC", "sidermit/optimization/users_cost.py:UsersCost.get_users_cost", "sidermit/optimization/operators_cost.py:OperatorsCost.get_operators_cost", "sidermit/optimization/constrains.py:Constrains.most_loaded_section_constrains"]}
{"id": "C96", "title": "What an optimizer remembers of its inputs", "statement": "An optimizer is not a snapshot of the objects it was given. Whatever calls are made on the demand, the network and the passenger after it was built: its cost, constraints and tables of loads never see changes of the trips; its table of lines is that of an optimizer built from the objects as they are now (if the names of the lines are the same); its table of the whole network has the new costs and hours divided by the old number of trips; assignments to the social values of time, accepted or not, leave exactly the optimizer that would be built now; lines and modes that are added neither change the cost at any frequencies nor which frequencies are feasible, but change the number of constraints; lines that are removed keep carrying their passengers and are no longer paid for, so the cost falls by their price, the users' cost is the same, and feasible frequencies stay feasible.", "quantifier": "every built optimizer, every history of calls on the three input objects (of any length, raising or not), every list of nonnegative frequencies that still carries the passengers, every result of the solver", "why_tests_cant": "A test changes one object once. The claim says which of all histories of calls reach which of the outputs; it depends on which values the constructor copies and which it keeps as references, and mixtures of the two give results that are plausible and wrong.", "anchors": ["sidermit/optimization/optimizer.py:Optimizer.__init__", "sidermit/optimization/optimizer.py:Optimizer.VRC", "sidermit/optimization/optimizer.py:Optimizer.get_constrains", "sidermit/optimization/optimizer.py:Optimizer.last_iteration", "sidermit/optimization/optimizer.py:Optimizer.get_network_results", "sidermit/optimization/optimizer.py:Optimizer.get_overall_results", "sidermit/publictransportsystem/network.py:TransportNetwork.add_route", "sidermit/publictransportsystem/network.py:TransportNetwork.remove_route", "sidermit/city/demand.py:Demand.change_vij", "sidermit/publictransportsystem/passenger.py:Passenger"]}
{"id": "C97", "title": "Assigning attributes of modes that a network already uses", "statement": "A mode is an object that its lines share, and its attributes can be assigned at any time. After any history of calls on a network and of assignments to modes, accepted or not, each line and the list of modes show the present values of the mode objects (so all lines of a mode agree), all values are in their ranges, the list of line names is that of the lines and has no repetition, and at most two mode objects are registered, each once. If no name and no number of parallel lines is assigned, the network is one that calls alone give, so every claim on networks made by calls holds for it. Names and numbers of parallel lines are looked at only when a mode is registered: registering a new mode compares the present values of all modes, and a line of a registered mode is accepted or not regardless of them. Hence an accepted assignment can give two registered modes the same name, or leave no mode with a single line per street, which registration refuses; if lines of both modes run, every attempt to build an optimizer from the network then raises.", "quantifier": "every city, every table of mode objects with values in range, every history (of any length) of adding and removing lines and modes and of assignments to the thirteen attributes, accepted or refused; for the last claim every demand and passenger and all starting frequencies that make sense", "why_tests_cant": "A test assigns one attribute at one moment. Which checks still protect a network depends on the order of calls and assignments, of which there are infinitely many, and the two assignments that break a network raise nothing until an optimizer is built.", "anchors": ["sidermit/publictransportsystem/mode.py:mode_property", "sidermit/publictransportsystem/mode.py:TransportMode", "sidermit/publictransportsystem/network.py:Route.__init__", "sidermit/publictransportsystem/network.py:TransportNetwork.add_transport_mode", "sidermit/publictransportsystem/network.py:TransportNetwork.remove_transport_mode", "sidermit/publictransportsystem/network.py:TransportNetwork.add_route", "sidermit/publictransportsystem/network.py:TransportNetwork.remove_route", "sidermit/publictransportsystem/mode.py:TransportModeManager", "sidermit/optimization/optimizer.py:Optimizer.__init__"]}
{"id": "C98", "title": "Assigning attributes of modes after the optimizer was built", "statement": "The prices of modes (per vehicle, per place, per length of street), the time to board, the order of boarding and alighting and the limits of frequency and of places can be assigned after an optimizer was built. Whatever history of calls and assignments made the network, and whatever such values are assigned later, to any of its modes, accepted or not: the old optimizer then is the very optimizer that would be built from the network as it is now, so its start, its cost and constraints at all frequencies and its tables are the same; and where none could be built, none can be built now, with the same exception. An initial frequency that is assigned later is not seen: the start of the old optimizer and its cost and constraints at all frequencies stay as they were. For speeds neither holds: a speed that is assigned later is seen by the vehicles but not by the passengers, so the old optimizer gives a cost that belongs to no speed.", "quantifier": "every network made by any history of calls and assignments, every demand, passenger and starting frequencies, every list of assignments of these seven attributes, or of initial frequencies, to any mode objects, every list of frequencies; for speeds a concrete network", "why_tests_cant": "It depends on which numbers the constructor computes once and which it reads from shared objects at each evaluation; equality is claimed for all frequencies and all later assignments, and for speeds the wrong result looks plausible.", "anchors": ["sidermit/optimization/optimizer.py:Optimizer.__init__", "sidermit/optimization/optimizer.py:Optimizer.VRC", "sidermit/optimization/optimizer.py:Optimizer.get_constrains", "sidermit/publictransportsystem/mode.py:TransportMode", "sidermit/optimization/preoptimization/extended_graph.py:ExtendedGraph", "sidermit/optimization/preoptimization/hyper_path.py:Hyperpath"]}
{"id": "C99", "title": "Assigning attributes of routes that are already in a network", "statement": "The attributes of a route (name, mode, ways and stops of both directions) can be assigned at any time, also while it is in a network; nothing is checked then. After any history of calls and assignments: a line is found and can be removed under the name that it had when it was added, until it is removed under it, and under no other. A line that gets a name under which no line was added shows the new name and is found by the old one only; the old name stays taken and the new one is free, so that a further line can be added, or the same once more, and two lines show one name. Removing the mode whose first line was renamed raises an exception when the mode is already out of the list, with all its lines still there; when two lines exchange their names, removing the mode of the one removes the other line. As long as no names are assigned, the lines show exactly the registered names, all different. Assigning the return way or the stops before or after the line is added makes no difference, exceptions included; neither does the forward way if it is accepted, but one that is not on streets is refused before and taken after. Calls act on the present values of the routes.", "quantifier": "every history of calls and assignments to any route objects (the same object may be added more than once), all names, ways and stops, every city; the wrong removal is shown on a concrete network", "why_tests_cant": "It depends on aliasing between the caller's objects and the network over arbitrary histories; the two lists of the network go out of step silently and a wrong removal raises nothing.", "anchors": ["sidermit/publictransportsystem/network.py:Route", "sidermit/publictransportsystem/network.py:TransportNetwork.get_route", "sidermit/publictransportsystem/network.py:TransportNetwork.add_route", "sidermit/publictransportsystem/network.py:TransportNetwork.remove_route", "sidermit/publictransportsystem/network.py:TransportNetwork.remove_transport_mode"]}
{"id": "C100", "title": "Frequencies of modes with parallel lines: given for each line, assigned for all together", "statement": "The limit of frequency and the initial frequency that the constructor of a mode gets count for each of its parallel lines: in an optimizer of such modes the constraints hold at given frequencies exactly if every vehicle has room and on no street a parallel line of a mode has more vehicles than its limit, and the optimizer starts with the initial frequency on each parallel line. Values assigned to the attributes afterwards count for all parallel lines together: assigning the limit that the constructor got changes the mode unless there is one parallel line or the limit is 0, and so with the initial frequency; assigning the number of parallel lines leaves the sums, so that the mode is not the one that the constructor makes from the same values unless the number is as before or both frequencies are 0.", "quantifier": "every optimizer built from any city, demand, passenger and network of modes made by the constructor, all frequencies at which passengers can be carried; every mode made by the constructor and every number of parallel lines", "why_tests_cant": "The factor is applied in the constructor and divided out in the constraints, so that tests with one parallel line, or tests of one place alone, cannot see a factor too many or too few; the claim is an equivalence for all frequencies.", "anchors": ["sidermit/publictransportsystem/mode.py:TransportMode.__init__", "sidermit/publictransportsystem/mode.py:mode_property", "sidermit/optimization/optimizer.py:Optimizer.f0", "sidermit/optimization/constrains.py:Constrains.fmax_constrains"]}
