# Verification of `sidermit` (Epilef-coder/optimizer) in Lean 4

## What is modelled and how

The model follows the Python source function by function; every Lean definition cites the file and the lines it
mirrors and states its simplifications. Layout of `lean/Verif`:

* `Base.lean`, `Text.lean`  – Python basics: exceptions as values (`Except PyErr`), dictionaries as insertion-ordered
  association lists, `int()`/`str()`/`split`.
* `Model/*.lean`  – the model of the code (city graph, demand, modes, passengers, routes and network, extended graph,
  hyperpaths, assignment, costs, constraints, optimizer).
* `Spec/*.lean`   – small independent specifications used in the statements.
* `Proofs/*.lean` – helper lemmas.
* `Props/*.lean`  – the property theorems, named `Cxx_...`, each with an `example` that its hypotheses are met.
* `Replay/*.lean` – the test suite of the repository (`/repo/tests`) played on the model: every number and every exception
  which those tests assert comes out of the model (graph, demand, modes, passengers, routes, families, extended graph,
  itineraries, assignment, loads, cycle times, the three costs, the constraints). These are tests of the model, not
  proofs; they back the reading of the source. Left out: assertions on values the types rule out, figures, angles of 45°.
  `Replay/Notebook.lean` plays outputs of real runs recorded in `/repo/examples/examples_sidermit.ipynb`: itinerary texts,
  and the objective and constraints at the optimum found there.

General conventions

* **Numbers.** Python floats are idealised as elements of an arbitrary linearly ordered field `K` (so theorems hold for
  `ℚ` and `ℝ` alike); `sqrt`, `cos`, `sin`, `acos` come from a class `PyMath K` whose instance on `ℝ` is the real one.
  `float('inf')` is `⊤ : WithTop K`. NaN, rounding and overflow are not modelled.
* **Exceptions** are values: each function returns `Except PyErr α`; `ZeroDivisionError`, `IndexError`,
  `AttributeError`, `TypeError` are modelled where the code can raise them.
* **Objects and identity.** City graph nodes are referenced by their position in the node list (so a mutation is seen
  through zones and edges, as with Python references). Modes carry an object number; routes, stop nodes and route nodes
  are values that differ whenever the Python objects differ inside one network.
* **Dictionaries** keep insertion order; `defaultdict` reads of a missing key return the default (insertion by reading is
  modelled where it is observable: cycle time / network results).
* **Loops** are folds; `while` loops are fuel-free folds when the number of rounds is known, or come with a proof that
  the fuel suffices.

## Trusted base

* Lean 4.33.0 kernel, Mathlib definitions. Every theorem depends at most on `propext`, `Classical.choice`,
  `Quot.sound`. No own axioms, no `sorry`, no `native_decide`, no `bv_decide`.
* The faithfulness of the model (reading of the Python source; citations are given), in particular the idealisation of
  floats, and that `repr`/`float` round-trip for the text round-trip properties.
* Not modelled: what NetworkX and Matplotlib paint (the positions and the calls are, C83; for itineraries the calls, C86), logging, pandas internals (only the tabular effect), SciPy's `minimize` (an arbitrary oracle),
  the reports other than those of C72 to C78, the file system beyond the bytes of the files of C89 and C90 (paths can be opened, no lone surrogates).
* Division by zero is `ZeroDivisionError`, as for Python floats. SciPy calls the objective with NumPy numbers, which give
  `nan` with a warning instead; what SciPy does with it is inside the oracle.

## Per property

| id | property | model and proof |
|---|---|---|
| C01 | Total trips always equals the sum of the matrix | `Model/Demand`: matrix as dict of dicts plus counter. Invariant over all histories by induction. |
| C02 | change_vij updates exactly one cell or nothing | Decision/frame theorem on `change_vij`. |
| C03 | Parametric demand generates exactly y trips | Fold of `change_vij` over all cells; sum evaluated in closed form for every n; n=0 shown separately. |
| C04 | Parametric demand has the documented spatial pattern | Closed form of every cell of the parametric matrix. |
| C05 | Parametric demand parameters are accepted exactly on the documented domain | Iff characterisation of `parameters_validator` against the documented domain, exceptions in order. |
| C06 | A demand matrix given as content is stored cell by cell | Cell-wise specification of the nested loop. |
| C07 | Demand CSV export/import round trip | Text model of the CSV (characters); number formatting abstract with the round-trip assumption. |
| C08 | Parametric city has the documented node set | `Model/Graph`: node list with references; closed form of the node list by induction on n. |
| C09 | Edge set of the city | Edge list as index pairs; membership characterised by a declarative adjacency relation. |
| C10 | Edge list is duplicate free with consecutive ids | Counting and Nodup of the closed form edge list. |
| C11 | The city graph is strongly connected | Path construction via the CBD from the adjacency characterisation. |
| C12 | City parameter validation is exact | Iff characterisation. |
| C13 | Asymmetries relocate nodes without changing the topology | Sequential mutation passes proved to act zone-wise; closed form of positions. |
| C14 | Edge distances form a symmetric non-negative Euclidean table | Distance table against Euclidean distance over the reals. |
| C15 | Polar/Cartesian conversion round trip | Real analysis with Mathlib's arccos. |
| C16 | Pajek export/import round trip | Model/Pajek: export, reading of lines, import. Rows of the exported text by induction on the nodes (`pajekRows_export`), sorting leaves them in place, `cityFrom_iff` gives the closed form of the construction; over the reals radius and angle come back by the polar round trip (C15). |
| C17 | Imported cities are well formed | Model/Pajek. Exact rows of a text (`pajekRows_iff`), sorted rows with enough of every kind force the order of a city (`cityFrom_order`), so that acceptance is equivalent to a small specification (`buildFromContent_iff`). |
| C18 | Mode attributes stay in their documented ranges | State machine of setters, invariant by induction on histories. |
| C19 | Mode manager behaves as a name-indexed collection | Refinement of two parallel lists to an abstract insertion-ordered map. |
| C20 | Mode set check before assignment is exact | Iff characterisation. |
| C21 | Passenger attributes stay in their documented ranges | As C18. |
| C22 | Route sequence text round trip | Character-level round trip of decimal printing and parsing. |
| C23 | Custom route acceptance is exact | Iff characterisation of the validators. |
| C24 | Stops of an accepted custom route are visited in travel order | Counterexample route; provable part: stops lie on the route and ends match. The converse: whatever meets that part is accepted, so the order fails on every way of four nodes and repetition on every way. |
| C25 | Network bookkeeping invariant | Invariant over all histories of the four operations. |
| C26 | Adding and removing routes has the documented effect | Effect and frame of add/remove/get. |
| C27 | Routes in a network only use existing streets | Invariant for the outbound direction; counterexample for the inbound one. Also: add_route does not depend on the inbound sequence at all, and a bad way back exists for every accepted custom route of two nodes or more. |
| C28 | Removing a mode removes its routes | Model of list mutation during iteration; counterexample and exact survivors. Also: an equivalence for when one call is enough, and a halving argument for repeated calls. |
| C29 | Predefined circular routes are well formed | Generator evaluated on every well formed city; validity against the adjacency relation. |
| C30 | Predefined feeder routes are well formed | As C29. |
| C31 | Predefined radial routes are well formed | As C29. |
| C32 | Predefined diametral routes are well formed | As C29, modular arithmetic on zones. |
| C33 | Predefined tangential routes are well formed | As C29, wrap-around lists. |
| C34 | One stop per served city node and mode | `Model/ExtGraph`: dictionary building as folds; membership and uniqueness. |
| C35 | Boarding and alighting edges are exactly the possible ones | Membership characterisation of the edge builders. |
| C36 | In-vehicle time between consecutive stops is travelled length over speed | Segment length of the scan over the node sequence; counterexample for a skipped node. |
| C37 | Hyperpath search always terminates normally | Loop invariant of the label-setting algorithm (never divides by zero, list deletion never fires). |
| C38 | Labels are attained by a travel strategy | Invariant: each finite label is the cost of an inductively defined strategy. |
| C39 | Labels are optimal | Invariant: processed labels bound every strategy from below (Dijkstra argument with convex combination). |
| C40 | Attractive-line sets and frequencies are consistent with the label | Invariant tying frequency, label and successor list. |
| C41 | Elementary paths are well formed | Acyclic successor relation gives a measure; path expansion terminates; membership characterisation. |
| C42 | Network validation accepts exactly connected networks | Composition of C37-C39 with C20. |
| C43 | Trip shares of an OD pair add up to 100 percent | Case analysis over the real parameters; exact exclusion set; counterexample. |
| C44 | Loading conserves passengers | Flow propagation over the successor DAG; conservation per node. |
| C45 | Most loaded section is the maximum section load | Fold-max specification. |
| C46 | Infrastructure length counts each used street once | Scan with the seen-list proved equal to a sum over used undirected edges. |
| C47 | Street capacity constraint list is exact | Closed form and iff. |
| C48 | Vehicle capacity constraint list is exact | Closed form and iff. |
| C49 | Line travel time is route length over speed | Telescoping sums over consecutive pairs. |
| C50 | Cycle time accounts for every boarding and alighting once | Sum over the union of keys. |
| C51 | Operator cost is non-negative and ignores inactive lines | Closed form, non-negativity, independence. |
| C52 | User resources scale with demand | Model/UsersCost mirrors resources_consumer; Proofs/Users turns the totals into weighted sums over the elements visited by the loading; scaling commutes with the visit list. |
| C53 | User cost equals demand-weighted optimal labels | Potential argument: the label less the access time at the origin is a potential whose mean decrease at each node is the generalised cost of the leg, so the costs telescope to the label. |
| C54 | Frequency vector and dictionary agree | `f0`, `fopt_to_f` modelled in Model/Optimizer; closed forms of both folds by induction, properties in Props/Optimizer. |
| C55 | Selected optimisation result is valid and best | `get_better_result` as a filter and a fold; the invariant says that the accumulator is the first smallest of what was read. |
| C56 | External optimisation is safe for every solver | `external_optimization` with the solver as an arbitrary function. The loop is related to the inductive predicate `Rounds` (Spec/Optimizer), with the bound on its length, the reason why it ended, and independence of the fuel. |
| C57 | Total cost is the sum of its reported parts | `VRC`, `get_constrains` and the constructor composed from the modelled parts; the tables mutated by the cycle time read the same (C50), then C44, C46, C49-C52 and C47, C48 give the explicit sum in Props/TotalCost. |
| C58 | Time on board agrees with the loads | Weighted sums over visited elements, decomposed edge by edge; those who stay on board from the balance at the route nodes. For circular lines the direction found in `users_cost.py` is computed exactly: wrong only on the leg to the second stop, where the tables read are empty. For all lines, the comparison of last occurrences is characterised (`comesAfter`), so the entries that are read are known exactly. |
| C59 | Transfers and signs of user resources | Balance of a potential that is 1 on board and at stops; signs of every weight. |
| C60 | The table of lines describes the solution | `network_results` and `last_iteration` in Model/Results; the charge of a two-way line is followed along the nodes with an invariant (charge at node i = load of the last stop passed), from the balance at the stops (C44); circular lines from the table of loads. Concrete networks and the excluded cases in Props/ResultsCases. |
| C61 | Overall results agree with the solution and with the table of lines | `get_overall_results` in Model/Results; the tables touched by the first cycle time read the same (C50), the loop over the lines keeps sums per mode (`ModeTable.Ok`), agreement with C60 by pairing lines and rows. |
| C62 | The parameters of an imported city describe it | From the closed forms of both constructions (`describedCity`, C13): the factors times the means give the radii back. |
| C63 | The predefined families can share one network | Spec/Families: requests. The first underscore of an id ends the family, the variant and the jump, the last one begins the number of the zone, so that ids determine requests; `addAllRoutes_decided` by induction on the routes. |
| C64 | The file of routes can be read back | Model/RoutesFile: the text written; Spec/RoutesFile: a reader of tables with quoted cells. Reading back by induction on the characters of a cell, on the cells of a row and on the rows. |
| C65 | A better service never makes a trip longer | Proofs/Transport: a strategy is carried over edge by edge to a graph that is nowhere worse; at a stop the lines that lead on later than the old value are dropped, and the value of the rest is not larger. With C38 and C39. |
| C66 | More lines never make a trip longer; the order of the lines does not matter | The same, with route nodes renumbered by the position of their route; reachability alone is carried over without the times. A witness in a city with exact distances. |
| C67 | What the values of time of the passenger decide | Proofs/Behaviour: every function of the search and of the assignment is shown equal for the two passengers, from the bottom up; induction on the rounds for the loops. |
| C68 | A demand is accepted exactly when it can be travelled on the lines that run | Spec/Rides: rides, travel and chains of lines from the stops of the routes alone. A strategy is turned into rides by induction on it, and rides into a strategy ride by ride; with C42. Valid routes: both directions together are a closed walk over the stops. |
| C69 | When the optimizer can be constructed | C68 with the absence of other errors in every step of the constructor (C41, C45 and the costs); the stops of the families from C30 to C33, put together with C63. |
| C70 | What happens when all trips are multiplied by a number | Spec/Scale: the demand with all cells multiplied. Every step of the constructor commutes with the multiplication (simulation, as an equation of results including exceptions); the loads by the linearity of the walk over hyperpaths; the costs from the closed forms of C49 to C53, collected by powers of c and e. |
| C71 | Economies of scale | From the formula of C70 by the order of the field. |
| C72 | The file of results of the lines can be read back | Model/Report builds the text character by character; Spec/Report is an independent reader (splitting, decimals). Round trip by induction over rows and sections; the error of {:.2f} from the floor. |
| C73 | The printed summary says the computed values | The same texts; each label occurs on one line only, so a search for it finds that line; sums by the triangle inequality; frequencies through fopt_to_f. |
| C74 | The description of the extended graph says what the graph contains | Model/GraphText mirrors `__str__`; Spec/GraphText gives the lines from the parameters. Each search for an edge finds exactly the edge of C35/C36 because no two edges have the same ends. The access time is printed in hours with the unit minutes: C74_access_in_hours. |
| C75 | The best frequencies grow with the trips, between their square root and their number | From the formula of C70 the cost is p + q e + r(c)/e; a strict minimum is where q e^2 = r(c) = q3 c + q4 c^2, and the comparison is algebra in an ordered field. |
| C76 | The listing of boardings and alightings is complete | The text is split into lines by induction; a reader defined apart from the model collects the stops, and the groups by route and direction are shown to rearrange the table. The last sentence follows from the balance of each line (C44). |
| C77 | The printed itineraries can be followed | The text is split into lines by induction and read by a reader defined apart from the model. The fall of the times follows from the equations of the optimal labels (C39) along each edge of the strategy; the counts from the exact description of the itineraries (C41). |
| C78 | The summary of all pairs can be read back | A reader defined apart from the model splits the lines at commas and reads the numbers; induction over pairs and stops. |
| C79 | Trips over a third node, and hubs | A finite label is the time of a strategy (C38). The strategy to the third node is continued, by induction over it, with the strategy from there: where it alighted at the stop of the third node it now changes to the second strategy, which costs the transfer penalty of the alighting. The result is a strategy for the pair, and labels are minimal (C39). |
| C80 | How short and how long a trip can be | Induction over strategies, with the straight distance left as potential: each leg takes at least the straight line at full speed (triangle inequality along the nodes passed), and the combined wait is at least the one for all vehicles at once. The upper bound is the time of the strategy that boards one line only, and labels are minimal (C39). |
| C81 | Names, numbering and the position of the city do not matter | The correspondence maps the edges of one extended graph to edges of the other with the same times and frequencies, so every strategy has a counterpart of the same time (NoWorse); labels are the minimal times of strategies (C38, C39), so they are not larger in the second graph. The correspondence can be undone, which gives the other inequality. Acceptance is existence of strategies plus a condition on modes (C42). For circular lines the edges at the new start correspond to the old ones one position later. |
| C82 | In a symmetric city with a symmetric network all zones are alike | Turning by 2 pi k / n and mirroring keep all distances (real cosines and sines), and map each family of predefined lines to itself, up to the direction and the first stop of a line; then C81 applies. The half-way tangential lines are a witness. |
| C83 | Pictures show the city and the lines asked for | Model/Plot gives the positions and the calls of the drawing functions. Positions by induction over the edges (first entry wins, all entries of an id agree); the lists of routes by induction over the ids asked for. |
| C84 | Units, names and the place of the city do not matter for the optimisation | Spec/Units defines the second description. Proofs/Sim relates two computations that go the same way; every function of the pipeline is shown to commute with the description (Proofs/UnitsNet, UnitsSearch, UnitsLoad, UnitsCost, UnitsUsers, UnitsOpt, UnitsCity, UnitsDemand), and the theorems compose these. |
| C85 | Prices are only prices: the objective is a bill, and what gets dearer is not used more | Spec/Prices defines what is used, prices and the bill. New prices are one more description of the same things (Terms.Keeps of Spec/Units), so the lemmas of C84 show that usage does not change; the optima are compared by the usual exchange argument. The bill is linear in the prices, which gives concavity of the smallest cost. |
| C86 | The picture of the itineraries of a pair shows the itineraries and nothing else | Model/PathPlot collects the lists handed to NetworkX with prev_node reset for each path. The lists are computed in closed form (filterMap and consecutive pairs); ways are led back to itineraries by following successors, which C41 shows to be all that is needed. |
| C87 | The optimisation problem is defined exactly where passengers can be carried, and its feasible points are the operable frequencies | Model/Problem holds the arguments of `minimize`; Spec/Problem says which points bounds and constraints allow. The stops to which trips are led are defined inductively along successors (Spec/Assignment `LedTo`); the breadth-first traversal is shown to visit exactly these, so the loading fails iff one of them has lines of total frequency 0. Sizes follow from C47 and C48, values from C57. |
| C88 | The result of the optimisation tells the truth when the solver does | A truthful result is specified in Spec/Honest. Induction over the rounds gives an optimizer built for each result; the constraints are then read with a slack as in C57 and C87. The negations are computed with a solver that looks at one point. |
| C89 | Files written by the library are read back from it on every machine | Files are lists of bytes; utf-8 is that of Lean's core library, with its proof that decoding inverts encoding. Machines are a default encoding and an end of line. C16, C07 and C72 are carried through the bytes; that Latin-1 is not utf-8 comes from the shape of the bytes of a character. |
| C90 | Ends of lines and byte order marks of other programs do not change what is read | Texts that differ in the ends of their lines are specified by an inductive relation; reading maps both to the same text. The first line of a demand is skipped, and lines before the number of nodes are, so a mark there is not read. |
| C91 | The clock of the passengers and the clock of the vehicles agree | The times of the rides are specified as lists of times of edges between consecutive stops; induction over the stops splits the way of the line. The table of distances is compared with the coordinates leg by leg, which gives the exact difference. Over the reals the triangle inequality bounds ways with nodes that are skipped. The predefined families meet the hypotheses by C30 to C33. Express lines: the only ride is a straight line, whose length in a symmetric city is a chord of a circle. |
| C92 | A network can be assigned exactly when all stops are in the city | All exceptions of the construction of route nodes are followed through the two loops; the converse from the specification of the entries (each stop has an entry whose node is in the city). The useless networks come from C27. |
| C93 | Lines that do not run change nothing | A strategy of the larger network is turned into one of the smaller network by induction: nobody boards a line of frequency zero, stops that only such lines have are left on foot, and the other lines keep their times when no new node is served; with C66 and the optimality of the labels this gives equality. Costs: sums over permuted lists of lines with zero terms left out, and the specification of used streets. |
| C94 | Splitting a line into parallel lines that share its vehicles changes nothing | Strategies are translated in both directions by induction. Waiting is balanced by what the lines boarded gain over the mean (wait_balance), and conversely any set of lines whose gains make up for waiting yields a strategy (wait_from_all); the gains over the boarding edges of a stop are summed by whole line (Finset.sum_fiberwise_of_maps_to), where the frequencies of the parts add up. With C38 and C39 the labels are equal. Costs and limits: sums over lines weighted by frequency. Users: C53 writes their cost in labels. |
| C95 | Trips do not influence each other's ways, so demands add up and more trips never cost less | The result of a pair is shown to be the result of one trip scaled by the trips (odResult_scale); the flattened list of results is matched cell by cell with the matrix (odAll_cells), so every table is a sum over cells with rows and columns listed once (sum_cells, cells_cover). Monotonicity: each unit table is nonnegative; the cost is a sum of monotone terms in the tables, dwell times enter cycle and riding time with nonnegative weights. |
| C96 | What an optimizer remembers of its inputs | A call on an input is modelled by its effect on the fields net, demand and pas, with the total of trips kept apart, since only these are references (Spec/Shared). Induction over the calls; for lines, the networks before and after are compared through costs_now: the times and cycles of shared lines are equal (times_same, cycles_same), added lines are idle (C93), removed lines leave a sublist of the lines, of the streets used and of the flows. |
| C97 | Assigning attributes of modes that a network already uses | The mode objects are a table by identity next to the network; an assignment changes the table and, through the sharing, what the lines show (Spec/Assigned). Induction over histories of calls and assignments; the calls are described for lists of modes that no longer pass the check (addTransportMode_any, addRoute_any, removeTransportMode_any). For assignments that no check reads, calls and assignments commute (call_mapModes), so the history can be replayed with the final values from the start. |
| C98 | Assigning attributes of modes after the optimizer was built | The optimizer after assignments is the old one with the modes in the network, the extended graph and the paths replaced by their present values, the computed numbers kept and the tables read by the old keys (Spec/Later). Exchanging the old and the new values of each object is an involution (turn_turn) that keeps all that the constructor reads (turn_late), so by the machinery of C84, in the part that needs only the shape of the terms, the newly built optimizer describes the old one in other terms, and is determined by it (same_seen). The constructor also evaluates the constraints at the start; their values may differ but they can be evaluated in both or in none (constrains_alike). The network has the present values by C97 (turn_net). For initial frequencies the old optimizer with the present values describes the old one in other terms (seen_same) that differ in initial frequencies only, which cost and constraints do not read (vrc_terms, constrains_terms with butStart_bills). |
| C99 | Assigning attributes of routes that are already in a network | Model/Depot has the calls once more with references to route objects in place of values; each is shown to act as the call of Model/Network on the present values (C99_calls_act_on_present_values). The two lists have one length and names without repetition after any history (depot_kept), so that lookups follow by induction over both lists (refAt_append, refAt_erase). The loop of remove_transport_mode stops at the first line of the mode whose name is not registered (removeLoop_stops); the wrong removal is a witness. |
| C100 | Frequencies of modes with parallel lines: given for each line, assigned for all together | What the constructor makes is known exactly (C18), the constraints mean limits on vehicles per street (C57); dividing by the positive number of parallel lines gives the limit of one of them. The second part from the effect of the setters and cancellation. |
