{"id": "C01", "title": "Headway is kept by every solution", "statement": "For every problem built by create_linear_problem and every assignment the solver may return (all constraints hold, every variable inside its declared domain), two distinct trains listed in the same group of Jd[s][s'] leave s at least the tabulated headway apart in one of the two orders: either the second leaves no earlier than the first plus headway(first,second,s,s'), or the other way round.", "quantifier": "all train sets, timetables, d_max, categories and all feasible assignments (not only optimal ones)", "why_tests_cant": "the statement ranges over infinitely many train sets, timetables and solver answers; a test fixes one instance and one solution", "anchors": ["railway_solvers/railway_solvers/linear_solver.py:minimal_span", "railway_solvers/railway_solvers/linear_solver.py:minimal_span_constrain", "railway_solvers/railway_solvers/linear_solver.py:create_linear_problem", "railway_solvers/railway_solvers/helpers_functions.py:get_M"]}
{"id": "C02", "title": "No two opposing trains meet on a single-track line", "statement": "For every feasible assignment and every pair (j,j') listed in Josingle[(s,s')] whose trains are not the same rolling stock, one of them enters the line only after the other has left it: departure(j,s) >= departure(j',s') + pass(j',s',s) or departure(j',s') >= departure(j,s) + pass(j,s,s').", "quantifier": "all train sets, timetables, d_max and all feasible assignments", "why_tests_cant": "the statement ranges over infinitely many train sets, timetables and solver answers; a test fixes one instance and one solution", "anchors": ["railway_solvers/railway_solvers/linear_solver.py:single_line", "railway_solvers/railway_solvers/linear_solver.py:single_line_constrain", "railway_solvers/railway_solvers/helpers_functions.py:not_the_same_rolling_stock"]}
{"id": "C03", "title": "Running and dwell times are respected along the whole path", "statement": "For every feasible assignment, for every train in J and every two consecutive stations of its path with delay variables, departure(s) >= departure(previous) + pass + stop; hence the departure at any later station is at least the departure at any earlier one plus the sum of all passing and stopping times in between.", "quantifier": "all trains, all paths of any length, all feasible assignments", "why_tests_cant": "the statement ranges over infinitely many train sets, timetables and solver answers; a test fixes one instance and one solution", "anchors": ["railway_solvers/railway_solvers/linear_solver.py:minimal_stay", "railway_solvers/railway_solvers/linear_solver.py:minimal_stay_constrin"]}
{"id": "C04", "title": "Two trains never occupy the same station track", "statement": "For every feasible assignment and every two distinct trains of the same group of Jtrack[s] that are different rolling stock and both continue from s under their own number, one of them arrives at s (running time after its previous departure; after the arrival of the train it takes the rolling stock from; or its earliest departure at s if it starts there) no earlier than the departure of the other (plus the switch reservation time when s is in add_swithes_at_s). The pair must get these constraints whenever neither train skips s.", "quantifier": "all train sets with any station names, all timetables, all feasible assignments", "why_tests_cant": "the statement ranges over infinitely many train sets, timetables and solver answers; a test fixes one instance and one solution; the code exempts trains by a substring test on station names, which only shows for particular name pairs", "anchors": ["railway_solvers/railway_solvers/linear_solver.py:track_occuparion", "railway_solvers/railway_solvers/linear_solver.py:trains_order_at_s", "railway_solvers/railway_solvers/linear_solver.py:keep_trains_order", "railway_solvers/railway_solvers/helpers_functions.py:skip_station"]}
{"id": "C05", "title": "A train does not start before its rolling stock is ready", "statement": "For every feasible assignment and every pair (j,j') in Jround[s], departure(j',s) >= departure(j,previous station) + pass(j,previous,s) + prep(j',s).", "quantifier": "all train sets, timetables and feasible assignments", "why_tests_cant": "the statement ranges over infinitely many train sets, timetables and solver answers; a test fixes one instance and one solution", "anchors": ["railway_solvers/railway_solvers/linear_solver.py:rolling_stock_circ"]}
{"id": "C06", "title": "Switches are never used by two trains within the reservation time", "statement": "For every feasible assignment and every pair in Jswitch[s] of different rolling stock, the two moments at which the trains pass the switch area of s (departure at s for 'out', departure at the previous station plus running time for 'in') differ by at least the reservation time res.", "quantifier": "all train sets, timetables and feasible assignments, all four in/out combinations", "why_tests_cant": "the statement ranges over infinitely many train sets, timetables and solver answers; a test fixes one instance and one solution", "anchors": ["railway_solvers/railway_solvers/linear_solver.py:switch_occupation", "railway_solvers/railway_solvers/linear_solver.py:switch_occ", "railway_solvers/railway_solvers/helpers_functions.py:departure_station4switches", "railway_solvers/railway_solvers/helpers_functions.py:can_MO_on_line"]}
{"id": "C07", "title": "No train leaves before schedule or before its initial condition", "statement": "In every feasible assignment the departure time of any train at any station is not before its scheduled time, not before its initial condition where one is given, and at most d_max after the earliest possible departure.", "quantifier": "all timetables, all feasible assignments", "why_tests_cant": "the statement ranges over infinitely many train sets, timetables and solver answers; a test fixes one instance and one solution", "anchors": ["railway_solvers/railway_solvers/helpers_functions.py:earliest_dep_time", "railway_solvers/railway_solvers/linear_solver.py:delay_varibles"]}
{"id": "C08", "title": "The big-M constant is valid and minimal", "statement": "For delays in [0,d_max] the conditional inequality LHS+d >= RHS+d'-M*y holds for every pair of delays when y=1, is exactly LHS+d >= RHS+d' when y=0, and whenever the returned M exceeds 1 no smaller constant makes the y=1 case hold for all delays.", "quantifier": "all rational LHS, RHS, d_max >= 0 and all delays in range", "why_tests_cant": "a numeric test checks finitely many (LHS,RHS,d_max,d,d') tuples; validity is a statement about all of them", "anchors": ["railway_solvers/railway_solvers/helpers_functions.py:get_M"]}
{"id": "C09", "title": "Constraints left out as 'redundant' never matter", "statement": "Whenever the builders skip a constraint because it is 'always fulfilled' (minimal span, single line, track occupation, switch, circulation), that constraint holds for all delays in [0,d_max] and both values of the order variable, so the feasible set is the same as if it had been added.", "quantifier": "all train sets, timetables, d_max and all delays in range", "why_tests_cant": "the statement ranges over infinitely many train sets, timetables and solver answers; a test fixes one instance and one solution", "anchors": ["railway_solvers/railway_solvers/linear_solver.py:minimal_span_constrain", "railway_solvers/railway_solvers/linear_solver.py:single_line_constrain", "railway_solvers/railway_solvers/linear_solver.py:trains_order_at_s", "railway_solvers/railway_solvers/linear_solver.py:switch_occ", "railway_solvers/railway_solvers/linear_solver.py:rolling_stock_circ"]}
{"id": "C10", "title": "The ILP excludes no conflict-free timetable", "statement": "Take any delays in [0,d_max] and any decision of the precedences for which the dispatching rules hold (headway, single line, minimal stay, station track, circulation, switch and the order-coupling rules); then the corresponding assignment satisfies every constraint of the built problem. Together with C01-C06: an in-domain assignment satisfies the ILP if and only if it satisfies the rules.", "quantifier": "all train sets, timetables, delays and precedence decisions", "why_tests_cant": "needs a converse for arbitrary timetables; tests only check that one known timetable is accepted", "anchors": ["railway_solvers/railway_solvers/linear_solver.py:create_linear_problem"]}
{"id": "C11", "title": "Each precedence decision has one variable and both readings agree", "statement": "After order_variables, for no pair of trains and place do both orientations of an order variable exist, and whenever one exists the two readings add up to one: get_y3(j,j',s)+get_y3(j',j,s)=1 and likewise for the two-station and 'in' variables.", "quantifier": "all train sets and all insertion orders of pairs (any history of update_y3/update_y4/update_y4_in calls)", "why_tests_cant": "depends on the order in which an arbitrary sequence of pairs is inserted", "anchors": ["railway_solvers/railway_solvers/linear_solver.py:order_variables", "railway_solvers/railway_solvers/linear_solver.py:update_y3", "railway_solvers/railway_solvers/linear_solver.py:update_y4", "railway_solvers/railway_solvers/linear_solver.py:update_y4_in", "railway_solvers/railway_solvers/linear_solver.py:get_y3", "railway_solvers/railway_solvers/linear_solver.py:get_y4_singleline", "railway_solvers/railway_solvers/linear_solver.py:get_y4_in"]}
{"id": "C12", "title": "Constraint builders find every order variable they need", "statement": "For every train set, the order-variable lookups made while building the minimal span, single line, track occupation (p-type) and switch constraints never raise KeyError: order_variables created the variable in one of the two orientations.", "quantifier": "all train sets", "why_tests_cant": "a missing variable shows only on inputs where two constraint families disagree about a pair", "anchors": ["railway_solvers/railway_solvers/linear_solver.py:order_variables", "railway_solvers/railway_solvers/linear_solver.py:minimal_span", "railway_solvers/railway_solvers/linear_solver.py:single_line", "railway_solvers/railway_solvers/linear_solver.py:track_occuparion", "railway_solvers/railway_solvers/linear_solver.py:switch_occupation"]}
{"id": "C13", "title": "Trains that cannot overtake keep their order", "statement": "If two trains run s'->s on the same track (they cannot meet and overtake on the line) and use the same track group of s, then in every feasible assignment their order at s equals their order at s', regardless of the order in which the two trains are listed in Jd and Jtrack.", "quantifier": "all train sets including all list orders, all feasible assignments", "why_tests_cant": "only shows when the list orders of Jd and Jtrack disagree", "anchors": ["railway_solvers/railway_solvers/linear_solver.py:keep_trains_order", "railway_solvers/railway_solvers/helpers_functions.py:can_MO_on_line"]}
{"id": "C14", "title": "earliest_dep_time is the earliest schedule-respecting departure", "statement": "earliest_dep_time(S, timetable, train, station) is at least the schedule and the initial condition, satisfies edt(s) >= edt(prev)+pass+stop unless an initial condition cuts the recursion, and is the least function with these properties: any run of the train that respects schedule, initial conditions and running times departs no earlier.", "quantifier": "all paths of any length without repeated stations, all timetables", "why_tests_cant": "the recursion depth and the position of schedule/initial entries are arbitrary", "anchors": ["railway_solvers/railway_solvers/helpers_functions.py:earliest_dep_time", "railway_solvers/railway_solvers/helpers_functions.py:previous_station", "railway_solvers/railway_solvers/helpers_functions.py:tau"]}
{"id": "C15", "title": "Earliest departures react monotonically and boundedly to initial delays", "statement": "If initial conditions are increased by amounts between 0 and D (and nothing else changes) every earliest departure time increases by an amount between 0 and D; schedules and other trains are unaffected.", "quantifier": "all timetables, all increments, all stations", "why_tests_cant": "needs all increments and all paths", "anchors": ["railway_solvers/railway_solvers/helpers_functions.py:earliest_dep_time"]}
{"id": "C16", "title": "Delay variables exist exactly where they should, with bounds [0,d_max]", "statement": "When delay_varibles succeeds, a delay variable for (j,s) exists if and only if j is in J, s is on its path, s is not skipped by j and j is not continued by another train at s; its bounds are [0,d_max] and its category the requested one. If some (j,s) is to be created twice the function raises instead of sharing or overwriting a variable.", "quantifier": "all train sets", "why_tests_cant": "repeated stations / trains and arbitrary skip dictionaries cannot be enumerated", "anchors": ["railway_solvers/railway_solvers/linear_solver.py:delay_varibles", "railway_solvers/railway_solvers/helpers_functions.py:update_dictofdicts", "railway_solvers/railway_solvers/helpers_functions.py:skip_station", "railway_solvers/railway_solvers/helpers_functions.py:subsequent_train_at_Jround"]}
{"id": "C17", "title": "The objective is the weighted sum of delays over d_max", "statement": "The objective of the built problem evaluates to the sum over trains of J and stations of their paths of weight*delay/d_max; for non-negative weights and in-domain delays it lies between 0 and the sum of the weights and is 0 exactly when every positively weighted delay is 0.", "quantifier": "all train sets, weights, d_max and assignments", "why_tests_cant": "the statement ranges over infinitely many train sets, timetables and solver answers; a test fixes one instance and one solution", "anchors": ["railway_solvers/railway_solvers/linear_solver.py:objective", "railway_solvers/railway_solvers/helpers_functions.py:penalty_weights"]}
{"id": "C18", "title": "Reported impacts add up to the objective", "statement": "The sum of impact_to_objective over all trains and stations equals the objective value of the solution.", "quantifier": "all train sets with arbitrary train and station names, all solutions", "why_tests_cant": "depends on PuLP's renaming of variables, which only some names trigger", "anchors": ["railway_solvers/railway_solvers/linear_solver.py:impact_to_objective", "railway_solvers/railway_solvers/linear_solver.py:objective"]}
{"id": "C19", "title": "Reported departure is earliest departure plus solver delay", "statement": "For every train and station with a delay variable, delay_and_acctual_time returns (delay, earliest+delay, earliest) of that very variable; it returns (0,0,0) only for train/station pairs without a delay variable.", "quantifier": "all train sets with arbitrary names, all solutions", "why_tests_cant": "depends on names and on which variables PuLP keeps", "anchors": ["railway_solvers/railway_solvers/linear_solver.py:delay_and_acctual_time"]}
{"id": "C20", "title": "Every constraint of a built problem has a penalty class and a unique name", "statement": "Every constraint name produced by create_linear_problem is recognised by the BQM converter's penalty selection (no ValueError), the class is the one of the dispatching rule that produced it, and no two constraints of a built problem share a name.", "quantifier": "all train sets with arbitrary names", "why_tests_cant": "names are built from arbitrary train and station names", "anchors": ["railway_solvers/railway_solvers/converter_bqm.py:_get_placeholder", "railway_solvers/railway_solvers/linear_solver.py:create_linear_problem"]}
{"id": "C21", "title": "CQM and ILP have the same feasible points and objective", "statement": "A point x of the CQM produced by convert_to_cqm satisfies all its constraints and domains if and only if x + lower bounds is a feasible point of the ILP, and the CQM objective of x equals the ILP objective there; a raw CQM sample read as an ILP sample (as solve_on_quantum does) is correct when all lower bounds are 0.", "quantifier": "all integer programs with bounded integer variables, all points", "why_tests_cant": "equivalence over all points", "anchors": ["railway_solvers/railway_solvers/converter_cqm.py:convert_to_cqm", "railway_solvers/railway_solvers/converter_cqm.py:_is_binary"]}
{"id": "C22", "title": "Integer encoding hits exactly the declared range", "statement": "The bits of an encoded integer variable with range [lb,ub] (lb<ub) decode to every integer between lb and ub, and to nothing else.", "quantifier": "all integer bounds lb<ub and all bit patterns", "why_tests_cant": "all ranges and all bit patterns", "anchors": ["railway_solvers/railway_solvers/converter_bqm.py:convert_to_pyqubo"]}
{"id": "C23", "title": "QUBO penalties vanish exactly on feasible points", "statement": "For integer data, if x satisfies a constraint then some setting of its slack bits makes its penalty term 0; if x violates it then every slack setting costs at least the penalty constant of its class. The slack range computed by the converter is large enough for every feasible x.", "quantifier": "all integer programs, all points, all slack settings", "why_tests_cant": "quantifies over all points and slack settings", "anchors": ["railway_solvers/railway_solvers/converter_bqm.py:convert_to_pyqubo", "railway_solvers/railway_solvers/converter_bqm.py:_get_slack_ub"]}
{"id": "C24", "title": "QUBO ground states are optimal ILP solutions when penalties dominate", "statement": "If every penalty constant is larger than the difference between the largest and smallest objective value and the ILP is feasible, every minimum-energy bit string decodes to an optimal ILP solution with energy equal to the optimum (times the objective weight). With fixed penalties as used in the scripts (2.5) this is not guaranteed for arbitrary weights.", "quantifier": "all integer programs, all penalty dictionaries", "why_tests_cant": "a statement about global minima of all instances", "anchors": ["railway_solvers/railway_solvers/converter_bqm.py:convert_to_bqm", "solve_KO_GLC_problems.py"]}
{"id": "C25", "title": "Feasibility flag and ordering of analysed samples are right", "statement": "get_results marks a sample feasible exactly when it satisfies every constraint of the problem, reports the exact objective, keeps one record per sample, and returns the records in non-decreasing objective.", "quantifier": "all problems, all sample sets", "why_tests_cant": "all sample sets", "anchors": ["railway_solvers/railway_solvers/results_manipulation.py:get_results", "railway_solvers/railway_solvers/results_manipulation.py:analyze_constraints", "railway_solvers/railway_solvers/results_manipulation.py:get_objective"]}
{"id": "C26", "title": "The chosen sample is the best one available", "statement": "get_best_feasible_sample applied to get_results returns a feasible sample of minimal objective among the feasible samples if there is any feasible sample, otherwise a sample of minimal energy; on an empty sample set it raises IndexError.", "quantifier": "all problems, all sample sets", "why_tests_cant": "all sample sets", "anchors": ["railway_solvers/railway_solvers/results_manipulation.py:get_best_feasible_sample", "helpers.py:solve_on_quantum"]}
{"id": "C27", "title": "Broken-constraint count is the number of violated constraints", "statement": "number of constraints minus the second component of analyze_constraints equals the number of violated constraints; it is 0 exactly for feasible samples.", "quantifier": "all problems and samples", "why_tests_cant": "all problems and samples", "anchors": ["railway_solvers/railway_solvers/results_manipulation.py:analyze_constraints", "solve_KO_GLC_problems.py"]}
{"id": "C28", "title": "Station-track groups are the classes of trains using the same blocks", "statement": "jtrack puts every train that stops in a non-excluded way at s in exactly one group of s, and two trains share a group exactly when their lists of station blocks are equal; no group is empty. Consequently two trains that use a common station block are in the same group.", "quantifier": "all train dictionaries and station maps", "why_tests_cant": "partition property over all inputs", "anchors": ["data_formatting/data_formatting/make_J_taus.py:jtrack", "data_formatting/data_formatting/make_J_taus.py:jtrack_subroutine", "data_formatting/data_formatting/make_J_taus.py:jtrack_dict_generation", "data_formatting/data_formatting/utils.py:blocks_list_4station"]}
{"id": "C29", "title": "Following-train groups cover all departures", "statement": "jd lists every train that continues from s to s' in exactly one group of Jd[s][s'] and lists nothing else; trains in a common group use the same blocks between s and s'.", "quantifier": "all train dictionaries", "why_tests_cant": "order-dependent grouping over arbitrary inputs", "anchors": ["data_formatting/data_formatting/make_J_taus.py:jd", "data_formatting/data_formatting/utils.py:common_path", "data_formatting/data_formatting/utils.py:check_common_specific_elements_lists", "data_formatting/data_formatting/utils.py:sublist"]}
{"id": "C30", "title": "Every opposing pair on a shared line is recorded for the single-line rule", "statement": "For any two trains j, j' with j running s->s' and j' running s'->s over the same (non-empty) blocks, josingle contains the pair [j,j'] under (s,s') or [j',j] under (s',s), and everything it contains is such a pair.", "quantifier": "all train dictionaries", "why_tests_cant": "termination stations and insertion order matter", "anchors": ["data_formatting/data_formatting/make_J_taus.py:josingle", "data_formatting/data_formatting/make_J_taus.py:josingle_dict_generate", "data_formatting/data_formatting/utils.py:get_trains_at_station"]}
{"id": "C31", "title": "Rolling-stock pairs are listed in running order at the right station", "statement": "get_jround lists under station s exactly the pairs of trains n and 10n+9 such that the first ends in the block of s where the second begins; pairs that do not meet are rejected.", "quantifier": "all train dictionaries", "why_tests_cant": "depends on arbitrary sequences of pairs", "anchors": ["data_formatting/data_formatting/make_J_taus.py:get_jround", "data_formatting/data_formatting/make_J_taus.py:get_trains_pair9"]}
{"id": "C32", "title": "Switch conflicts are listed exactly when the switch sets intersect", "statement": "For a station outside the special list, jswitch lists {j:in|out, j':in|out} exactly for those pairs of trains at the station and those places whose switch sets have a common switch.", "quantifier": "all train dictionaries and switch tables", "why_tests_cant": "all switch tables", "anchors": ["data_formatting/data_formatting/make_J_taus.py:jswitch", "data_formatting/data_formatting/make_J_taus.py:make_jswitch_dict", "data_formatting/data_formatting/make_switch_set.py:z_in", "data_formatting/data_formatting/make_switch_set.py:z_out", "data_formatting/data_formatting/make_switch_set.py:block_indices_to_interprete_switches"]}
{"id": "C33", "title": "Keeping the tabulated headway keeps the blocks apart", "statement": "If the second of two trains running over the same blocks leaves at least get_taus_headway (unrounded) after the first, then for every block x the second enters x no earlier than the first has left the k-th block from x on (k=2, or 1 on the listed lines); and no smaller separation guarantees this. With rounding the guarantee holds up to half a minute.", "quantifier": "all block sequences, passing times and departure times", "why_tests_cant": "all passing times and lengths", "anchors": ["data_formatting/data_formatting/make_J_taus.py:get_taus_headway", "data_formatting/data_formatting/utils.py:get_passing_time_block"]}
{"id": "C34", "title": "Headways are computed on all common blocks", "statement": "If two trains of Jd[s][s'] have a common block with positive passing time between s and s' then their headway is positive.", "quantifier": "all train dictionaries", "why_tests_cant": "depends on how common blocks are interleaved with others", "anchors": ["data_formatting/data_formatting/make_J_taus.py:get_taus_headway", "data_formatting/data_formatting/utils.py:common_path", "data_formatting/data_formatting/utils.py:check_common_specific_elements_lists"]}
{"id": "C35", "title": "Passing times cover exactly the consecutive station pairs", "statement": "get_taus_pass has an entry for every train and every two consecutive important stations of its path, equal to the sum of the passing times of the blocks strictly between them (rounded if r=1), and no other entries.", "quantifier": "all train dictionaries", "why_tests_cant": "all timetables", "anchors": ["data_formatting/data_formatting/make_J_taus.py:get_taus_pass", "data_formatting/data_formatting/utils.py:minimal_passing_time", "data_formatting/data_formatting/utils.py:get_blocks_b2win_station4train"]}
{"id": "C36", "title": "Turnaround time counts as stop except at the first station", "statement": "get_taus_stop returns for every stop of a train the passing time of its station blocks plus the turnaround time when the station is not the train's first, and puts the turnaround time at the first station into the preparation times.", "quantifier": "all train dictionaries", "why_tests_cant": "depends on loop state carried over stations and trains", "anchors": ["data_formatting/data_formatting/make_J_taus.py:get_taus_stop", "data_formatting/data_formatting/utils.py:minimal_stay"]}
{"id": "C37", "title": "Clock differences are signed minutes", "statement": "calc_time_diff(t1,t2) is the number of minutes from t1 to t2, negative if t2 is earlier, so calc_time_diff(t1,t2)+calc_time_diff(t2,t3)=calc_time_diff(t1,t3); malformed times raise ValueError.", "quantifier": "all strings", "why_tests_cant": "all strings", "anchors": ["data_formatting/data_formatting/scheduling_tools.py:calc_time_diff"]}
{"id": "C38", "title": "Schedule and initial conditions reflect the timetable", "statement": "get_schedule has an entry exactly for each train and important station with a departure time and it is the minutes from the reference time; get_initial_conditions has exactly one entry per train, at its first important station, from Dep, else Approx_enter, else 0.", "quantifier": "all train dictionaries", "why_tests_cant": "all timetables", "anchors": ["data_formatting/data_formatting/scheduling_tools.py:get_schedule", "data_formatting/data_formatting/scheduling_tools.py:get_initial_conditions", "data_formatting/data_formatting/scheduling_tools.py:get_schedule_per_train"]}
{"id": "C39", "title": "add_delay delays exactly the given train", "statement": "add_delay(initial_conditions, train, d) increases exactly the entries of the given train by d and leaves every other train's entry unchanged, and does not modify its argument.", "quantifier": "all initial conditions, trains and delays", "why_tests_cant": "the failure depends on digit patterns of other train numbers", "anchors": ["data_formatting/data_formatting/scheduling_tools.py:add_delay", "solve_KO_GLC_problems.py"]}
{"id": "C40", "title": "Penalty weights sit at each train's last served station", "statement": "make_weights gives exactly one weight per train, by train type, at its last non-skipped important station; exactly the shunting trains (number 10n+9 of a pair) get the empty weight.", "quantifier": "all train dictionaries", "why_tests_cant": "depends on number patterns", "anchors": ["data_formatting/data_formatting/scheduling_tools.py:make_weights"]}
{"id": "C41", "title": "Skip stations are exactly the terminal stations", "statement": "get_skip_stations maps a train to s exactly when the train's last block belongs to important station s.", "quantifier": "all train dictionaries", "why_tests_cant": "all timetables", "anchors": ["data_formatting/data_formatting/utils.py:get_skip_stations"]}
{"id": "C42", "title": "Reading the CSV recovers every train", "statement": "timetable_to_train_dict applied to a sheet consisting of well-formed train sections returns exactly those trains with their info and block rows.", "quantifier": "all sheets of any number of trains of any length", "why_tests_cant": "round trip over all sheets; repeated numbers occur in the shipped data", "anchors": ["data_formatting/data_formatting/time_table_check.py:timetable_to_train_dict"]}
{"id": "C43", "title": "Discontinuous paths are rejected", "statement": "check_path_continuity raises AssertionError whenever two consecutive blocks of a path are not joined by a row of the path table.", "quantifier": "all paths and tables", "why_tests_cant": "all paths and tables", "anchors": ["data_formatting/data_formatting/time_table_check.py:check_path_continuity"]}
{"id": "C44", "title": "Block passing times use the right direction and category", "statement": "passing_times_4blocks returns one value per block (NaN for the last) and for each consecutive pair the value of the table row joining the two blocks, in the column of the travel direction and of the train's speed class.", "quantifier": "all timetables and path tables", "why_tests_cant": "rows in both orders", "anchors": ["data_formatting/data_formatting/new_time_tables.py:passing_times_4blocks", "data_formatting/data_formatting/new_time_tables.py:single_passing_time", "data_formatting/data_formatting/utils.py:get_path_type_colunm", "data_formatting/data_formatting/utils.py:get_indexes"]}
{"id": "C45", "title": "Blocks between stations are exactly the open-line blocks", "statement": "get_blocks_b2win_station4train returns, for stations in travel order, exactly the blocks of the timetable strictly between the two stations; it returns the reversed flag for stations in opposite order and no blocks for stations not served.", "quantifier": "all timetables", "why_tests_cant": "repeated stations and adjacency", "anchors": ["data_formatting/data_formatting/utils.py:get_blocks_b2win_station4train"]}
{"id": "C46", "title": "Common path of two trains contains all common blocks", "statement": "common_path(t1,t2,s,s') lists exactly the blocks that both trains use between s and s', in the order of the first.", "quantifier": "all timetables", "why_tests_cant": "depends on interleavings of common and own blocks and on block names that are substrings of others", "anchors": ["data_formatting/data_formatting/utils.py:common_path", "data_formatting/data_formatting/utils.py:check_common_specific_elements_lists", "data_formatting/data_formatting/utils.py:sublist"]}
{"id": "C47", "title": "Generated data never makes the ILP builder fail on a missing time", "statement": "If taus, schedule, initial conditions and train sets are generated by the data_formatting functions from train tables in which each station occurs once per train, then every pass, stop and headway lookup made while building earliest departure times, minimal span and minimal stay constraints succeeds.", "quantifier": "all well-formed train dictionaries", "why_tests_cant": "needs key agreement between two packages on all inputs", "anchors": ["helpers.py:make_taus", "helpers.py:make_train_set", "helpers.py:make_timetable", "railway_solvers/railway_solvers/helpers_functions.py:tau"]}
{"id": "C48", "title": "End to end: following trains on a line stay k blocks apart", "statement": "For data generated by data_formatting (unrounded times), in every feasible assignment of the built ILP any two trains of a Jd group that run over the same blocks between s and s' never enter a block before the train ahead has left the k-th block from there, at minimal running times.", "quantifier": "all train dictionaries, all feasible assignments", "why_tests_cant": "composition of the data pipeline with all solver answers", "anchors": ["data_formatting/data_formatting/make_J_taus.py:get_taus_headway", "railway_solvers/railway_solvers/linear_solver.py:minimal_span", "helpers.py:make_train_set"]}
{"id": "C49", "title": "Relaxing d_max never loses solutions", "statement": "If delays are feasible for d_max, the same delays and precedences are feasible for any larger d_max; so the best total weighted delay does not get worse.", "quantifier": "all instances and all pairs d_max <= d_max'", "why_tests_cant": "compares the feasible sets of two problems for all instances", "anchors": ["railway_solvers/railway_solvers/linear_solver.py:create_linear_problem"]}
{"id": "C50", "title": "Printed arrivals agree with the optimised plan", "statement": "In print_optimisation_results, for a feasible integer solution the printed arrival at s equals the reference time plus departure at the previous served station plus the passing time used in the optimisation, and is not after the printed departure at s.", "quantifier": "all instances and solutions", "why_tests_cant": "all instances and solutions", "anchors": ["helpers.py:print_optimisation_results"]}
{"id": "C51", "title": "Variable counts split into order and delay variables", "statement": "count_vars reports as order variables exactly the precedence variables of the problem and as integer variables exactly the delay variables.", "quantifier": "all train sets with arbitrary names", "why_tests_cant": "depends on names", "anchors": ["helpers.py:count_vars"]}
{"id": "C52", "title": "Timetable keys identify train and station", "statement": "The string keys under which passing, stop, headway, schedule and weight entries are stored and looked up are different for different (train, station, ...) tuples.", "quantifier": "all train numbers and station names", "why_tests_cant": "key collisions depend on underscores in names", "anchors": ["railway_solvers/railway_solvers/helpers_functions.py:tau", "railway_solvers/railway_solvers/helpers_functions.py:penalty_weights", "railway_solvers/railway_solvers/helpers_functions.py:earliest_dep_time"]}
{"id": "C53", "title": "Grouping and list helpers obey their laws", "statement": "reverse_dict_of_lists is the inverse relation with multiplicities; flatten is concatenation; common_elements keeps exactly the elements of the first list that occur in the second, in order; sub_lists lists exactly the contiguous non-empty sublists (of length >= 2 if asked); getSizeOfNestedList counts the leaves.", "quantifier": "all lists and dictionaries", "why_tests_cant": "all inputs", "anchors": ["data_formatting/data_formatting/utils.py:reverse_dict_of_lists", "data_formatting/data_formatting/utils.py:flatten", "data_formatting/data_formatting/utils.py:common_elements", "data_formatting/data_formatting/utils.py:sub_lists", "data_formatting/data_formatting/utils.py:getSizeOfNestedList"]}
{"id": "C54", "title": "Same rolling stock is exempt, and only it", "statement": "Single-line, station-track and switch rules are left out for a pair of trains exactly when the two trains occur together in some pair of Jround; the relation is symmetric.", "quantifier": "all train sets", "why_tests_cant": "all train sets", "anchors": ["railway_solvers/railway_solvers/helpers_functions.py:not_the_same_rolling_stock", "railway_solvers/railway_solvers/helpers_functions.py:occurs_as_pair", "railway_solvers/railway_solvers/linear_solver.py:single_line", "railway_solvers/railway_solvers/linear_solver.py:track_occuparion", "railway_solvers/railway_solvers/linear_solver.py:switch_occupation"]}
{"id": "C55", "title": "Generated input always gives a well-formed optimisation problem", "statement": "From every train set and timetable computed from the data tables, create_linear_problem returns a problem: no key is missing and no constraint name is used twice, whatever trains, stations and delays.", "quantifier": "all tables, delays, d_max other than 0, kinds of variables", "why_tests_cant": "missing keys and name clashes depend on combinations of trains, lines and names; a test fixes one table", "anchors": ["railway_solvers/railway_solvers/linear_solver.py:create_linear_problem", "helpers.py:make_train_set", "helpers.py:make_timetable"]}
{"id": "C56", "title": "Readable tables can be processed to the end", "statement": "If all cells of the tables can be read (times of day, known types of trains, readable switches), every train leaves some station and trains with common rolling stock meet in a station, then the scripts compute train sets, timetable and optimisation problem without an exception.", "quantifier": "all tables, reference times, delays", "why_tests_cant": "all tables", "anchors": ["helpers.py:make_train_set", "helpers.py:make_timetable", "helpers.py:make_taus", "railway_solvers/railway_solvers/linear_solver.py:create_linear_problem"]}
{"id": "C57", "title": "In every plan for the data tables opposite trains do not meet on a line", "statement": "Whenever two trains of different rolling stock run in opposite directions over the same blocks between two stations, in every feasible solution of the problem generated from the tables one of them departs only after the other has arrived.", "quantifier": "all tables, delays, d_max, feasible solutions, pairs of trains", "why_tests_cant": "needs all pairs of trains in all tables and all solutions", "anchors": ["data_formatting/data_formatting/make_J_taus.py:josingle", "railway_solvers/railway_solvers/linear_solver.py:single_line"]}
{"id": "C58", "title": "In every plan for the data tables two trains do not occupy the same track", "statement": "Whenever two trains of different rolling stock arrive on the same block of a station and go on, in every feasible solution of the generated problem the second arrives only after the first has left.", "quantifier": "all tables, delays, d_max, feasible solutions, pairs of trains", "why_tests_cant": "needs all pairs of trains in all tables and all solutions", "anchors": ["data_formatting/data_formatting/make_J_taus.py:jtrack", "data_formatting/data_formatting/utils.py:get_skip_stations", "railway_solvers/railway_solvers/linear_solver.py:track_occuparion"]}
{"id": "C59", "title": "In every plan for the data tables rolling stock is taken over after the turnaround", "statement": "If a train ends in the block in which its successor (number 10 n + 9) begins, in every feasible solution of the generated problem the successor departs no earlier than arrival plus turnaround time of the table.", "quantifier": "all tables, delays, d_max, feasible solutions", "why_tests_cant": "needs all tables and all solutions", "anchors": ["data_formatting/data_formatting/make_J_taus.py:get_jround", "data_formatting/data_formatting/make_J_taus.py:get_taus_prep", "railway_solvers/railway_solvers/linear_solver.py:rolling_stock_circ"]}
{"id": "C60", "title": "In every plan for the data tables trains pass a common switch one minute apart", "statement": "Two trains of different rolling stock whose ways into or out of a station use a common switch pass it at least one minute apart in every feasible solution of the generated problem.", "quantifier": "all tables, delays, d_max, feasible solutions, pairs of trains", "why_tests_cant": "needs all tables and all solutions", "anchors": ["data_formatting/data_formatting/make_J_taus.py:jswitch", "railway_solvers/railway_solvers/linear_solver.py:switch_occupation"]}
{"id": "C61", "title": "In every plan for the data tables no train is ahead of its timetable or of its delay", "statement": "In every feasible solution of the generated problem no train departs before the departure time in its table, nor before it can have come from the station before and stopped; and a train reported late by d minutes departs from its first station at least d minutes late.", "quantifier": "all tables, delays, d_max, feasible solutions", "why_tests_cant": "needs all tables, delays and solutions", "anchors": ["helpers.py:make_timetable", "data_formatting/data_formatting/utils.py:add_delay", "railway_solvers/railway_solvers/linear_solver.py:minimal_stay"]}
{"id": "C62", "title": "In every plan for the data tables trains do not overtake on a line", "statement": "Two trains of different rolling stock that run over the same blocks to a station and use the same track there leave it in the order in which they left the station before, in every feasible solution of the generated problem.", "quantifier": "all tables with non-negative passing times, delays, d_max, feasible solutions", "why_tests_cant": "needs all tables and all solutions", "anchors": ["data_formatting/data_formatting/make_J_taus.py:jd", "data_formatting/data_formatting/make_J_taus.py:jtrack", "railway_solvers/railway_solvers/linear_solver.py:track_occuparion"]}
{"id": "C63", "title": "From every good sheet the problem is built", "statement": "From every timetable sheet in good order (well-formed sections with different numbers, known types, blocks joined in the path table, readable switches, times of day, rolling stock handed over in stations) the timetables, the input and the optimisation problem are built without an exception for every set of delays, and the timetables have exactly the trains and rows of the sheet.", "quantifier": "all sheets, stations, path tables, delays, roundings, d_max other than zero, categories", "why_tests_cant": "needs all sheets and all delays", "anchors": ["data_formatting/data_formatting/time_table_check.py:timetable_to_train_dict", "helpers.py:make_train_set", "helpers.py:make_timetable", "railway_solvers/railway_solvers/linear_solver.py:create_linear_problem"]}
{"id": "C64", "title": "The problem is built from the shipped data whatever the delays", "statement": "From each of the seven timetables in the data directory, with the stations and the path table that belong to it, the timetables, the input and the optimisation problem are built without an exception, whatever trains are delayed by whatever times.", "quantifier": "all delays of all trains, roundings, d_max other than zero, categories", "why_tests_cant": "infinitely many delays; the scripts try a few", "anchors": ["solve_real_problem.py", "solve_KO_GLC_problems.py", "helpers.py:make_train_set", "helpers.py:make_timetable"]}
{"id": "C65", "title": "No train of the shipped sheets is lost", "statement": "Every section of a shipped sheet is a train in the timetables read from it.", "quantifier": "all sections of the seven sheets", "why_tests_cant": "a lost train shows in no output; the numbers of variables and constraints still look plausible", "anchors": ["data_formatting/data_formatting/time_table_check.py:timetable_to_train_dict", "solve_KO_GLC_problems.py"]}
{"id": "C66", "title": "All guarantees together hold for every plan of a good and safe sheet", "statement": "From a sheet in good order, with trains of which one goes on after every single-track line used both ways, a path table without contradicting switches and without negative times: every feasible plan, for all delays, gives each train exactly one departure from each station it leaves, keeps to timetable, initial delays, run and stop times, turnaround, block distances, opposite trains, tracks, order and switches (with the exceptions of C58 and C60).", "quantifier": "all sheets, stations, path tables, delays, roundings, d_max, categories, feasible plans", "why_tests_cant": "needs all sheets, all delays and all feasible plans; solvers return one plan", "anchors": ["helpers.py:make_train_set", "helpers.py:make_timetable", "railway_solvers/railway_solvers/linear_solver.py:create_linear_problem"]}
{"id": "C67", "title": "All guarantees hold for every plan of the shipped data", "statement": "For each of the seven shipped timetables, whatever trains are delayed by whatever times and whatever d_max, every feasible plan of the problem built from it has all the guarantees of C66.", "quantifier": "all delays, roundings, d_max, categories, feasible plans of the seven sheets", "why_tests_cant": "infinitely many delays and plans; the scripts look at a few optimal ones", "anchors": ["solve_real_problem.py", "solve_KO_GLC_problems.py", "railway_solvers/railway_solvers/linear_solver.py:create_linear_problem"]}
{"id": "C68", "title": "No two trains of the shipped data conflict", "statement": "In every feasible plan of a shipped timetable, without exception, no two trains meet on a line used both ways, occupy the same track of a station, or pass a common switch within a minute.", "quantifier": "all delays, roundings, d_max, categories, feasible plans of the seven sheets", "why_tests_cant": "a conflict need not be in the one plan that a solver returns", "anchors": ["solve_real_problem.py", "solve_KO_GLC_problems.py", "railway_solvers/railway_solvers/linear_solver.py:track_occuparion", "data_formatting/data_formatting/make_J_taus.py:jswitch"]}
{"id": "C69", "title": "Delays can be absorbed by waiting", "statement": "If d_max is large enough, the problem built from the train sets and the timetable has a feasible plan, whatever the initial delays: trains can wait until the others are out of the way.", "quantifier": "all train sets, timetables, initial delays, categories, large d_max", "why_tests_cant": "infinitely many delays; the scripts only solve problems that have plans", "anchors": ["railway_solvers/railway_solvers/linear_solver.py:create_linear_problem", "railway_solvers/railway_solvers/linear_solver.py:track_occuparion", "railway_solvers/railway_solvers/helpers_functions.py:earliest_dep_time", "solve_KO_GLC_problems.py"]}
{"id": "C70", "title": "Earliest departures are those told by the timetable", "statement": "For every station that a train leaves, the earliest departure used by the optimisation is the one told by its timetable and the delays given: scheduled departure plus delay at the first station; later the larger of the scheduled departure and the earliest departure from the station before plus passing and stopping time. In every feasible plan the train leaves between this time and d_max minutes later.", "quantifier": "all tables, delays, roundings, trains, stations, d_max, feasible plans", "why_tests_cant": "unboundedly many tables and delays; the value passes through five dictionaries with text keys", "anchors": ["railway_solvers/railway_solvers/helpers_functions.py:earliest_dep_time", "data_formatting/data_formatting/utils.py:get_initial_conditions", "data_formatting/data_formatting/utils.py:get_schedule", "data_formatting/data_formatting/utils.py:add_delay", "data_formatting/data_formatting/make_J_taus.py:get_taus_pass"]}
{"id": "C71", "title": "The problem excludes no timetable that keeps the rules of the tables, and admits no other", "statement": "Departure times of the trains are those of a feasible solution exactly when they keep the rules that can be read off the tables: no train leaves early or more than d_max late; run, stop and turnaround times; headways; single lines, tracks and switches one train at a time, with an order of the trains that is kept between stations without overtaking.", "quantifier": "all tables, delays, roundings, categories, d_max, departure times", "why_tests_cant": "quantifies over all timetables and over all solutions; a test shows only that some known timetable is admitted or refused", "anchors": ["railway_solvers/railway_solvers/linear_solver.py:create_linear_problem", "railway_solvers/railway_solvers/linear_solver.py:order_variables", "railway_solvers/railway_solvers/linear_solver.py:track_occuparion", "railway_solvers/railway_solvers/linear_solver.py:switch_occupation", "data_formatting/data_formatting/make_J_taus.py:jd", "data_formatting/data_formatting/make_J_taus.py:jswitch"]}
{"id": "C72", "title": "An optimal solution is a timetable with the smallest sum of delays", "statement": "The value of the objective is the sum, over the trains, of weight times delay in the last station that the train leaves, divided by d_max; a solution is optimal exactly when no timetable that keeps the rules of the tables has a smaller sum.", "quantifier": "all tables, delays, roundings, categories, positive d_max, solutions, timetables", "why_tests_cant": "optimality is a statement about all other timetables", "anchors": ["railway_solvers/railway_solvers/linear_solver.py:create_linear_problem", "railway_solvers/railway_solvers/linear_solver.py:objective", "data_formatting/data_formatting/scheduling_tools.py:make_weights"]}
{"id": "C73", "title": "The smallest d_max for which the shipped problems have a solution", "statement": "Without given delays, the problems made from the four sheets of solve_real_problem.py have a solution exactly when d_max is at least 19 minutes; of those of solve_KO_GLC_problems.py the first has one without any delay, the second one exactly when d_max is at least 18, the third one exactly when d_max is at least 1. With d_max = 40, as in the scripts, all seven have a solution.", "quantifier": "all positive d_max, categories of variables, and all assignments of the variables", "why_tests_cant": "that no solution exists for any smaller d_max is a statement about all timetables; the solver's report of infeasibility is not a proof", "anchors": ["solve_real_problem.py", "solve_KO_GLC_problems.py", "railway_solvers/railway_solvers/linear_solver.py:create_linear_problem"]}
{"id": "C74", "title": "The problem of wisla_problems.py", "statement": "The problem of the script is built; its least objective is 0.54, and in every optimal plan Ic1 waits for Ks2 at station 5 until minute 46 while all other departures with a weight are the earliest possible; the headways given in the script are kept in every feasible plan; the sample and the timetable stored in the repository are judged and printed as the program recorded them.", "quantifier": "all assignments of the variables of this problem", "why_tests_cant": "that no plan is better, and that headways hold in all plans, are statements about all assignments; a run shows one", "anchors": ["wisla_problems.py", "railway_solvers/railway_solvers/linear_solver.py:create_linear_problem", "railway_solvers/railway_solvers/results_manipulation.py:get_results", "helpers.py:print_optimisation_results"]}
{"id": "C75", "title": "The printed timetables of whole sheets", "statement": "For every good sheet, whole delays and d_max, every solution of the problem is printed by print_optimisation_results: all trains, each with the stations of its timetable in order; no arrival at the first station, elsewhere the arrival is the departure from the station before plus the time of the run; departures, secondary delays (departure minus earliest departure) and impacts are those of the solution; conflicted times are the earliest ones; at the station where a train ends there is nothing but the arrival. This holds for every train whose delays occur in the problem, which the tables tell; for the shipped sheets these are all trains. A train whose delays do not occur can be printed as leaving at the reference time.", "quantifier": "all good sheets, whole delays, d_max, feasible assignments and reference times", "why_tests_cant": "a test prints one solution of one problem; which trains are printed with wrong times depends on constraints that are left out for late trains", "anchors": ["helpers.py:print_optimisation_results", "railway_solvers/railway_solvers/linear_solver.py:delay_and_acctual_time", "railway_solvers/railway_solvers/linear_solver.py:impact_to_objective", "solve_real_problem.py"]}
{"id": "C76", "title": "The train diagrams", "statement": "From a printed solution the diagram of a segment shows exactly the trains with at least two of its stations (other than KO and KO(STM)) or listed as fixed, each as resolved and as conflicted, with matching numbers of data blocks and styles 1 and 2. The path of a train has the stations of its timetable in order, with the departures of the solution (resolved) or the earliest ones (conflicted) and the arrivals that follow; the points drawn are the arrivals and departures at the stations of the segment and nothing else; the times along a drawn line never decrease; labels lie in the middle between two stations and between the departure and the arrival.", "quantifier": "all printed dictionaries (diagram), all good sheets, delays, d_max and feasible assignments (paths, lines), all segments", "why_tests_cant": "the stations are sorted by printed arrivals; that this is the order of travel holds because of the constraints and is seen for one plan only in a picture", "anchors": ["solutions_quantum/data4diagrams/train_utils.py:kdtrain2trainpath", "solutions_quantum/data4diagrams/echo_gnuplot_file.py:echo_gnuplot_train", "solutions_quantum/data4diagrams/echo_gnuplot_file.py:echo_gnuplot_train_labels", "solutions_quantum/data4diagrams/railway_lines.py:train_on_segment"]}
{"id": "C77", "title": "The statistics of delays", "statement": "For every station the secondary delays of the trains are collected in the order of the trains, appended to those already there; for a solution these are, for each train that leaves the station, the minutes by which it leaves later than its earliest departure, between 0 and d_max. The statistics of a station are ordered: minimum, lower quartile, upper quartile, maximum, with the mean between minimum and maximum; a station without delays raises KeyError, which does not happen for the stations considered in the script with the four sheets of solve_real_problem.py.", "quantifier": "all printed dictionaries and lists of delays; for the shipped sheets all delays, d_max and feasible assignments", "why_tests_cant": "the script is run on ten recorded solutions; bounds and absence of KeyError for all solutions are not visible there", "anchors": ["solutions_quantum/data4diagrams/visualise_statistics.py:add_delays_one_realisation", "solutions_quantum/data4diagrams/visualise_statistics.py:get_print_statistics"]}
{"id": "C78", "title": "The kilometres of the diagrams", "statement": "In every segment the kilometres increase, each station is found under its name and call sign at its kilometre, and the distances are those of the railway lines.", "quantifier": "all segments, lines and pairs of stations of the tables", "why_tests_cant": "nothing in the program compares the two tables, and a diagram with wrong distances is drawn without complaint", "anchors": ["solutions_quantum/data4diagrams/railway_lines.py:station2km", "solutions_quantum/data4diagrams/railway_lines.py"]}
{"id": "C79", "title": "The optimum of the shipped problems", "statement": "With the delays given in the scripts and d_max = 40, the least value of the objective over all solutions of the problem is v / 40, where v is, for the cases 0 to 6 of solve_real_problem.py, 0, 1, 6, 7.5, 78.25, 114.75, 91.25 minutes; for the twelve disturbances of the first sheet of solve_KO_GLC_problems.py 0, 1, 3, 21, 3, 35.5, 57, 40.5, 85.5, 60.5, 14, 45.5; for the third sheet 0, 3, 12, 16, 14, 41.5, 44, 44, 42, 52, 64, 55.5. Some solution has this value and none has less. These are the values that the program recorded.", "quantifier": "all assignments of the variables of each of 31 problems, both categories of variables", "why_tests_cant": "a run of the solver gives a value; that no better assignment exists, for the problem as the code states it, rests on the solver", "anchors": ["solve_real_problem.py", "solve_KO_GLC_problems.py", "railway_solvers/railway_solvers/linear_solver.py:create_linear_problem", "railway_solvers/railway_solvers/linear_solver.py:objective", "data_formatting/data_formatting/utils.py:add_delay"]}
{"id": "C80", "title": "The results asserted by the solver tests", "statement": "For each of the 17 test problems of test_linear_solver.py and test_linear_solver_large.py every optimal answer of a solver passes the test: the asserted objective is the optimum, and all optimal assignments have the asserted values of variables, times and impacts. So the outcome of the tests does not depend on the solver.", "quantifier": "all optimal assignments of the problems built in the tests", "why_tests_cant": "a test sees the one optimum that the installed solver returns; whether another one exists, for which the assertion fails, is a statement about all of them", "anchors": ["railway_solvers/test/test_linear_solver.py", "railway_solvers/test/test_linear_solver_large.py", "railway_solvers/railway_solvers/linear_solver.py:create_linear_problem", "railway_solvers/railway_solvers/linear_solver.py:delay_and_acctual_time", "railway_solvers/railway_solvers/linear_solver.py:impact_to_objective"]}
{"id": "C81", "title": "The QUBOs of the shipped problems have the best solutions as ground states", "statement": "A problem made of timetables, with whole turnaround times, delays and d_max, can be converted to a QUBO if it has a solution with a smaller d_max; if all penalties exceed the value of the objective in one solution, the bit strings of least energy are exactly those of the best solutions, and the least energy is the best value. For the cases 0 to 6 of solve_real_problem.py this holds with every penalty larger than the best value; in the scripts' own penalties (1.0 by default, 2.5 in solve_KO_GLC_problems.py) for the cases 0 to 6 and for the first and third sheet of KO_GLC with all their disturbances.", "quantifier": "all bit strings and all assignments of the variables, all penalties above the bound, all timetables meeting the conditions", "why_tests_cant": "the QUBOs have thousands of bits; a sampler gives some strings, not the ground state", "anchors": ["railway_solvers/railway_solvers/converter_bqm.py:convert_to_bqm", "railway_solvers/railway_solvers/converter_bqm.py:convert_to_pyqubo", "railway_solvers/railway_solvers/converter_bqm.py:_get_slack_ub", "helpers.py:solve_on_quantum", "solve_real_problem.py", "solve_KO_GLC_problems.py"]}
{"id": "C82", "title": "What the annealing test of the QUBOs tells", "statement": "Each of the ten inputs of test_solving_QUBO.py is converted to a QUBO, and with the penalties of the test the bit strings of least energy are exactly those of the best solutions; if one of them is sampled, all assertions of the test hold. The test passes for a set of samples exactly if one sample is a solution with an objective as asserted; for the two inputs with an asserted value (0.2 and 0.4) exactly if a best solution is sampled.", "quantifier": "all sets of samples that an annealer may return for the ten inputs", "why_tests_cant": "the test is probabilistic and sees the samples of one run; whether its failure tells of an error in the code or of bad luck is a statement about all sample sets", "anchors": ["railway_solvers/test/test_solving_QUBO.py:compute_single_file", "railway_solvers/test/test_solving_QUBO.py:test_all_files", "railway_solvers/railway_solvers/converter_bqm.py:convert_to_bqm", "railway_solvers/railway_solvers/results_manipulation.py:get_results", "railway_solvers/railway_solvers/results_manipulation.py:get_best_feasible_sample"]}
