{
 "claims": [
  {
   "property": "C01",
   "status": "proved",
   "theorems": [
    "Verif.C01_headway"
   ],
   "note": "For every train set, timetable, d_max and category for which the model of create_linear_problem succeeds, and every feasible assignment."
  },
  {
   "property": "C02",
   "status": "proved",
   "theorems": [
    "Verif.C02_singleLine"
   ],
   "note": "As C01."
  },
  {
   "property": "C03",
   "status": "proved",
   "theorems": [
    "Verif.C03_step",
    "Verif.C03_runningTimes"
   ],
   "note": "One step and, by induction, the whole path."
  },
  {
   "property": "C04",
   "status": "partial",
   "theorems": [
    "Verif.C04_stationTrack_partial",
    "Verif.C04_stationTrack_false"
   ],
   "note": "The full claim StationTrackKept is false: track_occuparion tests the skipped station with a substring test; C04_stationTrack_false exhibits a collision. The partial theorem covers trains whose skipped station does not contain the name of s."
  },
  {
   "property": "C05",
   "status": "proved",
   "theorems": [
    "Verif.C05_circulation"
   ],
   "note": ""
  },
  {
   "property": "C06",
   "status": "proved",
   "theorems": [
    "Verif.C06_switches"
   ],
   "note": ""
  },
  {
   "property": "C07",
   "status": "proved",
   "theorems": [
    "Verif.C07_notEarly"
   ],
   "note": ""
  },
  {
   "property": "C08",
   "status": "proved",
   "theorems": [
    "Verif.C08_bigM"
   ],
   "note": ""
  },
  {
   "property": "C09",
   "status": "proved",
   "theorems": [
    "Verif.C09_headway",
    "Verif.C09_singleLine",
    "Verif.C09_circulation",
    "Verif.C09_stationTrack",
    "Verif.C09_switches"
   ],
   "note": "One theorem for each constraint family with a redundancy test."
  },
  {
   "property": "C10",
   "status": "proved",
   "theorems": [
    "Verif.C10_iff",
    "Verif.C10_complete",
    "Verif.C10_converse"
   ],
   "note": "Feasible assignments are exactly those obeying the dispatching rules; every valid plan has a feasible assignment and conversely."
  },
  {
   "property": "C11",
   "status": "proved",
   "theorems": [
    "Verif.C11_readings",
    "Verif.C11_history"
   ],
   "note": "For clash-free names; also for any sequence of update calls."
  },
  {
   "property": "C12",
   "status": "proved",
   "theorems": [
    "Verif.C12_lookups"
   ],
   "note": ""
  },
  {
   "property": "C13",
   "status": "partial",
   "theorems": [
    "Verif.C13_orderKept_partial",
    "Verif.C13_orderKept_false"
   ],
   "note": "The full claim OrderKept is false: keep_trains_order reads y[j][jp] in one orientation only. The partial theorem covers pairs that all lists name in the same order and that are not exempt at s."
  },
  {
   "property": "C14",
   "status": "proved",
   "theorems": [
    "Verif.C14_possible",
    "Verif.C14_least",
    "Verif.C14_exists"
   ],
   "note": "The value satisfies the lower bounds (possible), is below every schedule-respecting run (least), and exists whenever the needed times are tabulated."
  },
  {
   "property": "C15",
   "status": "proved",
   "theorems": [
    "Verif.C15_lipschitz"
   ],
   "note": ""
  },
  {
   "property": "C16",
   "status": "proved",
   "theorems": [
    "Verif.C16_exactly",
    "Verif.C16_once"
   ],
   "note": ""
  },
  {
   "property": "C17",
   "status": "proved",
   "theorems": [
    "Verif.C17_objective"
   ],
   "note": ""
  },
  {
   "property": "C18",
   "status": "partial",
   "theorems": [
    "Verif.C18_impacts_partial",
    "Verif.C18_impacts_false"
   ],
   "note": "The full claim ImpactsAddUp is false when PuLP changes a variable name (e.g. a space in a station name). Proved for clean names."
  },
  {
   "property": "C19",
   "status": "partial",
   "theorems": [
    "Verif.C19_reported_partial",
    "Verif.C19_departures_partial",
    "Verif.C19_reported_false"
   ],
   "note": "The full claim ReportsDepartures is false for changed names and for variables occurring in no constraint. Proved for clean names where the departure matters."
  },
  {
   "property": "C20",
   "status": "proved",
   "theorems": [
    "Verif.C20_classes"
   ],
   "note": ""
  },
  {
   "property": "C21",
   "status": "proved",
   "theorems": [
    "Verif.C21_points",
    "Verif.C21_onto",
    "Verif.C21_built",
    "Verif.C21_succeeds",
    "Verif.C21_built_succeeds",
    "Verif.C21_raw_false"
   ],
   "note": "C21_raw_false: with a non-zero lower bound (never built by this code) the raw CQM sample is not the value of the variable."
  },
  {
   "property": "C22",
   "status": "proved",
   "theorems": [
    "Verif.C22_range"
   ],
   "note": ""
  },
  {
   "property": "C23",
   "status": "proved",
   "theorems": [
    "Verif.C23_penalties",
    "Verif.C23_excess",
    "Verif.C23_succeeds",
    "Verif.C23_converts",
    "Verif.C23_converts_false"
   ],
   "note": "C23_excess: the least penalty of a constraint is the square of its violation. C23_converts: exactly when the conversion succeeds. C23_converts_false: the conversion raises AssertionError for some feasible built problems (slack with empty range)."
  },
  {
   "property": "C24",
   "status": "proved",
   "theorems": [
    "Verif.C24_groundState",
    "Verif.C24_soft",
    "Verif.C24_hard",
    "Verif.C24_known",
    "Verif.C24_built",
    "Verif.C24_pipeline",
    "Verif.C24_fixed_false"
   ],
   "note": ""
  },
  {
   "property": "C25",
   "status": "proved",
   "theorems": [
    "Verif.C25_results"
   ],
   "note": ""
  },
  {
   "property": "C26",
   "status": "proved",
   "theorems": [
    "Verif.C26_best"
   ],
   "note": ""
  },
  {
   "property": "C27",
   "status": "proved",
   "theorems": [
    "Verif.C27_broken"
   ],
   "note": ""
  },
  {
   "property": "C28",
   "status": "partial",
   "theorems": [
    "Verif.C28_groups",
    "Verif.C28_others",
    "Verif.C28_found",
    "Verif.C28_common_statement",
    "Verif.C28_common_partial",
    "Verif.C28_common_false"
   ],
   "note": "The groups are the classes of trains with equal lists of station blocks, for all data; the consequence is proved for trains with one block in the station and refuted for trains with several."
  },
  {
   "property": "C29",
   "status": "partial",
   "theorems": [
    "Verif.C29_statement",
    "Verif.C29_cover_partial",
    "Verif.C29_groups_partial",
    "Verif.C29_found",
    "Verif.C29_false",
    "Verif.C29_twice"
   ],
   "note": "The trains in the groups are exactly those running to the next station, for all data. Exactly one group and equal blocks are refuted by examples; proved if the blocks of no train are contained in those of another one."
  },
  {
   "property": "C30",
   "status": "partial",
   "theorems": [
    "Verif.C30_statement",
    "Verif.C30_computed",
    "Verif.C30_sound_partial",
    "Verif.C30_pair_partial",
    "Verif.C30_complete_partial",
    "Verif.C30_false",
    "Verif.C30_order"
   ],
   "note": "What is listed is stated exactly (C30_computed) and everything listed is such a pair. The converse is false for trains that end at the other end of the line (C30_false) and proved for all others."
  },
  {
   "property": "C31",
   "status": "partial",
   "theorems": [
    "Verif.C31_statement",
    "Verif.C31_computed",
    "Verif.C31_round_partial",
    "Verif.C31_found",
    "Verif.C31_first_rejected",
    "Verif.C31_false",
    "Verif.C31_both"
   ],
   "note": "Proved if every pair meets at exactly one end. A pair that does not meet is not rejected but listed under the station of the pair before (C31_false), as sys.exit is not called; of a pair that meets at both ends one order is listed (C31_both)."
  },
  {
   "property": "C32",
   "status": "partial",
   "theorems": [
    "Verif.C32_statement",
    "Verif.C32_switch_partial",
    "Verif.C32_stations_partial",
    "Verif.C32_complete",
    "Verif.C32_special",
    "Verif.C32_found",
    "Verif.C32_unbound",
    "Verif.C32_false"
   ],
   "note": "Proved for trains with one block per station and tables in which rows for the same blocks agree. C32_complete (no conflict is missed) holds for all readable tables; the other direction needs that no whole number is stored as a float: 3.0 is read as the set {3, 0} (C32_false). At KO(STM) movements from and to KO are left out, at KO(IC) and KO(KS) nothing is listed (C32_special)."
  },
  {
   "property": "C33",
   "status": "proved",
   "theorems": [
    "Verif.C33_formula",
    "Verif.C33_defined",
    "Verif.C33_headway",
    "Verif.C33_rounded",
    "Verif.C33_half_attained",
    "Verif.C33_table",
    "Verif.C33_table_same"
   ],
   "note": ""
  },
  {
   "property": "C34",
   "status": "partial",
   "theorems": [
    "Verif.C34_statement",
    "Verif.C34_positive_partial",
    "Verif.C34_false"
   ],
   "note": "The full claim C34_statement is false when the two trains share no block after the stations: C34_false."
  },
  {
   "property": "C35",
   "status": "proved",
   "theorems": [
    "Verif.C35_pass",
    "Verif.C35_once_needed"
   ],
   "note": "Trains with one block per station and no repeated block, station names not empty and without underscore (WfTrains, StationNamesOK); C35_once_needed shows a train visiting a station twice must be excluded."
  },
  {
   "property": "C36",
   "status": "partial",
   "theorems": [
    "Verif.C36_statement",
    "Verif.C36_computed",
    "Verif.C36_stop_partial",
    "Verif.C36_false",
    "Verif.C36_prep",
    "Verif.C36_prep_found",
    "Verif.C36_stay"
   ],
   "note": "The full claim is false: the code never resets first_station, so turnaround times at later stations are treated as preparation times (C36_false). C36_computed states exactly what is computed."
  },
  {
   "property": "C37",
   "status": "proved",
   "theorems": [
    "Verif.C37_minutes",
    "Verif.C37_malformed",
    "Verif.C37_additive"
   ],
   "note": ""
  },
  {
   "property": "C38",
   "status": "proved",
   "theorems": [
    "Verif.C38_schedule",
    "Verif.C38_schedule_found",
    "Verif.C38_initial",
    "Verif.C38_initial_found",
    "Verif.C38_cells"
   ],
   "note": ""
  },
  {
   "property": "C39",
   "status": "partial",
   "theorems": [
    "Verif.C39_statement",
    "Verif.C39_keys",
    "Verif.C39_computed",
    "Verif.C39_delay_partial",
    "Verif.C39_false"
   ],
   "note": "The delay is added to every key containing the number of the train followed by an underscore; proved if no other key does so, refuted by an example."
  },
  {
   "property": "C40",
   "status": "partial",
   "theorems": [
    "Verif.C40_statement",
    "Verif.C40_computed",
    "Verif.C40_weights_partial",
    "Verif.C40_found",
    "Verif.C40_false"
   ],
   "note": "What is computed is stated exactly (C40_computed). The full claim is false: the code compares train // 10 with the numbers of all pairs, so other trains of the same tens can get the empty weight (C40_false); proved where that does not happen."
  },
  {
   "property": "C41",
   "status": "proved",
   "theorems": [
    "Verif.C41_skip",
    "Verif.C41_succeeds"
   ],
   "note": "Stations with no block in common (DisjointStations)."
  },
  {
   "property": "C42",
   "status": "partial",
   "theorems": [
    "Verif.C42_statement",
    "Verif.C42_general",
    "Verif.C42_sheet_partial",
    "Verif.C42_last",
    "Verif.C42_false"
   ],
   "note": ""
  },
  {
   "property": "C43",
   "status": "partial",
   "theorems": [
    "Verif.C43_statement",
    "Verif.C43_rejects_partial",
    "Verif.C43_only_assertion",
    "Verif.C43_accepts",
    "Verif.C43_false"
   ],
   "note": ""
  },
  {
   "property": "C44",
   "status": "partial",
   "theorems": [
    "Verif.C44_statement",
    "Verif.C44_shape",
    "Verif.C44_value_partial",
    "Verif.C44_raises",
    "Verif.C44_passing_partial",
    "Verif.C44_false"
   ],
   "note": ""
  },
  {
   "property": "C45",
   "status": "proved",
   "theorems": [
    "Verif.C45_general",
    "Verif.C45_between",
    "Verif.C45_reversed",
    "Verif.C45_not_served"
   ],
   "note": ""
  },
  {
   "property": "C46",
   "status": "partial",
   "theorems": [
    "Verif.C46_statement",
    "Verif.C46_prefix_partial",
    "Verif.C46_common_path_partial",
    "Verif.C46_sublist",
    "Verif.C46_false"
   ],
   "note": "The full claim C46_statement is false (trailing common blocks are lost): C46_false."
  },
  {
   "property": "C47",
   "status": "proved",
   "theorems": [
    "Verif.C47_lookups",
    "Verif.C47_built"
   ],
   "note": "For tables as in GoodData: no train, block or station twice, right station column, station names not empty and without underscore. C47_built needs in addition that the trains n and 10n+9 meet (delay variables)."
  },
  {
   "property": "C48",
   "status": "proved",
   "theorems": [
    "Verif.C48_blocks"
   ],
   "note": "For all trains with the same blocks (they always share a group of Jd); with rounded times up to half a minute."
  },
  {
   "property": "C49",
   "status": "proved",
   "theorems": [
    "Verif.C49_relax"
   ],
   "note": ""
  },
  {
   "property": "C50",
   "status": "partial",
   "theorems": [
    "Verif.PrintsPlan",
    "Verif.C50_arrivals_partial",
    "Verif.roundsTo_generated",
    "Verif.C50_false"
   ],
   "note": "Proved for whole-number data, trains that are not continued by another one, and passing times that round to those of the optimisation (which the generated ones do, roundsTo_generated). The full claim is false: for a fractional passing time the arrival is rounded, and a train continued by another one is printed to leave its last station at the reference time (C50_false)."
  },
  {
   "property": "C51",
   "status": "partial",
   "theorems": [
    "Verif.C51_counts_partial",
    "Verif.C51_counts_false"
   ],
   "note": "The full claim CountsRight is false, e.g. for station \"Nowy Bytom\". Proved for clean names with trains not ending in y/z."
  },
  {
   "property": "C52",
   "status": "partial",
   "theorems": [
    "Verif.C52_keys_partial",
    "Verif.C52_intTrains_partial",
    "Verif.C52_keys_false"
   ],
   "note": "The full claim KeysIdentify is false (underscores in names). Proved for names without underscores and for numeric train names."
  },
  {
   "property": "C53",
   "status": "proved",
   "theorems": [
    "Verif.C53_flatten",
    "Verif.C53_common_elements",
    "Verif.C53_sub_lists",
    "Verif.C53_sub_lists_count",
    "Verif.C53_nested_size",
    "Verif.C53_reverse"
   ],
   "note": ""
  },
  {
   "property": "C54",
   "status": "proved",
   "theorems": [
    "Verif.C54_sameRollingStock"
   ],
   "note": ""
  },
  {
   "property": "C55",
   "status": "proved",
   "theorems": [
    "Verif.C55_built",
    "Verif.C55_nested",
    "Verif.C55_called",
    "Verif.C55_turnaround",
    "Verif.C55_dmax"
   ],
   "note": "For tables as in GoodData whose trains n and 10n+9 meet with a turnaround time, with non-negative train numbers, station names without characters that PuLP replaces and other than p, and no line whose blocks are a part of those of another one between the same stations. Each condition is needed: C55_nested, C55_called, C55_turnaround, C55_dmax."
  },
  {
   "property": "C56",
   "status": "proved",
   "theorems": [
    "Verif.C56_input",
    "Verif.C56_problem"
   ],
   "note": "ReadableData says which cells are readable; C56_problem needs the conditions of C55 in addition."
  },
  {
   "property": "C57",
   "status": "partial",
   "theorems": [
    "Verif.C57_opposite_partial",
    "Verif.C57_false",
    "Verif.C57_false2"
   ],
   "note": "Proved if at least one of the trains goes on at the other end and, if the other one ends there, the condition of GoesOn holds (goesOn_of_both: enough that neither ends). False otherwise: C57_false (both end), C57_false2 (one ends), with feasible plans in which the trains meet on the line."
  },
  {
   "property": "C58",
   "status": "partial",
   "theorems": [
    "Verif.C58_stays_partial",
    "Verif.C58_tracks_partial",
    "Verif.C58_false"
   ],
   "note": "C58_stays_partial: for all trains that leave the station, whether they come from another one, take over rolling stock, or begin there; outside the stations and blocks the code leaves out, and not for trains ending in another station whose name contains the name of this one. C58_tracks_partial: the same for two trains coming from stations before. C58_false: two trains on the same track in a feasible plan, because they end in KO and the station is K."
  },
  {
   "property": "C59",
   "status": "proved",
   "theorems": [
    "Verif.C59_stock"
   ],
   "note": "For pairs n, 10n+9 that meet in one direction."
  },
  {
   "property": "C60",
   "status": "partial",
   "theorems": [
    "Verif.C60_switches_partial",
    "Verif.C60_false",
    "Verif.C60_false2"
   ],
   "note": "Proved for all tables with agreeing rows, outside the stations KO(IC), KO(KS) and at KO(STM) for movements that do not come from or go to KO. In these places it is false of the code: plans are feasible in which two trains pass a switch at the same time (C60_false, C60_false2)."
  },
  {
   "property": "C61",
   "status": "proved",
   "theorems": [
    "Verif.C61_timetable",
    "Verif.C61_late"
   ],
   "note": "C61_late for reported delays that are not negative."
  },
  {
   "property": "C62",
   "status": "partial",
   "theorems": [
    "Verif.C62_statement",
    "Verif.C62_order_partial",
    "Verif.Real.C62_false"
   ],
   "note": "Proved for trains outside the stations and blocks the code leaves out that do not end in a station whose name contains the name of this one. For those no order is kept: in a solution of the first shipped sheet a train leaves KO before another that stands on the same track and came before it (C62_false)."
  },
  {
   "property": "C63",
   "status": "proved",
   "theorems": [
    "Verif.C63_sheet",
    "Verif.C63_data",
    "Verif.CodedNet.goodSheet_of_checks"
   ],
   "note": "The conditions of GoodSheet are met by the seven shipped sheets (Real.shipped_read)."
  },
  {
   "property": "C64",
   "status": "proved",
   "theorems": [
    "Verif.Real.C64_shipped",
    "Verif.Real.shipped_read"
   ],
   "note": "The data files are transcribed by tools/gen_real.py into Verif/Real; that transcription is trusted."
  },
  {
   "property": "C65",
   "status": "partial",
   "theorems": [
    "Verif.Real.C65_kept_partial",
    "Verif.Real.C65_false",
    "Verif.Real.C65_lost"
   ],
   "note": "Holds for the four sheets of solve_real_problem.py. False for the three sheets of KO_GLC: a number is given to two trains and the earlier one is lost."
  },
  {
   "property": "C66",
   "status": "proved",
   "theorems": [
    "Verif.C66_sheet",
    "Verif.C66_data",
    "Verif.C66_trains"
   ],
   "note": "The conditions of SafeSheet are met by the seven shipped sheets (Real.shipped_safe)."
  },
  {
   "property": "C67",
   "status": "proved",
   "theorems": [
    "Verif.Real.C67_shipped",
    "Verif.Real.shipped_safe"
   ],
   "note": "The data files are transcribed by tools/gen_real.py into Verif/Real; that transcription is trusted."
  },
  {
   "property": "C68",
   "status": "partial",
   "theorems": [
    "Verif.Real.C68_statement",
    "Verif.Real.C68_clear_partial",
    "Verif.Real.C68_exceptions",
    "Verif.Real.C68_false",
    "Verif.Real.C68_optimal_false"
   ],
   "note": "Holds without exceptions for the three sheets of KO_GLC. False for the four sheets of solve_real_problem.py (C68_false): the code leaves out five trains at KO (C68_exceptions), and there are solutions, in four cases of the script also optimal ones (C68_optimal_false), with two trains on the same track at the same time."
  },
  {
   "property": "C69",
   "status": "partial",
   "theorems": [
    "Verif.C69_statement",
    "Verif.C69_waiting_partial",
    "Verif.C69_start_order",
    "Verif.C69_blocked",
    "Verif.Real.C69_false"
   ],
   "note": "Holds if the trains can be put in an order in which no train begins on a track used by an earlier one (Serial). False in general: a train occupies its first track from its earliest departure on, so three trains that begin on one track at the same time have no plan; C69_false shows this for a shipped sheet with two delays."
  },
  {
   "property": "C70",
   "status": "proved",
   "theorems": [
    "Verif.C70_earliest",
    "Verif.C70_found",
    "Verif.C70_departs",
    "Verif.addDelays_exact"
   ],
   "note": "The delay of a train is the sum of all delays given for numbers with whose digits its number ends (addedDelay, see C39); if no other number ends so it is the delay given for the train (addedDelay_eq)."
  },
  {
   "property": "C71",
   "status": "proved",
   "theorems": [
    "Verif.C71_complete",
    "Verif.C71_exact",
    "Verif.C71_sheet",
    "Verif.Real.C71_shipped"
   ],
   "note": "TableRules states the rules on the tables. Among them is one that the trains do not need: a train that begins on a track must have the same order with a train that comes to it, both there and in the station where that one comes from (orderBegins). C71_complete (no timetable is excluded) holds for all readable tables; C71_exact also needs, besides the conditions of C66, that trains against each other go on (OppositeGoOn) and that one train only hands its rolling stock to another (OneStock). The seven shipped sheets meet all conditions, whatever the delays."
  },
  {
   "property": "C72",
   "status": "proved",
   "theorems": [
    "Verif.C72_objective",
    "Verif.C72_optimal",
    "Verif.counted_all",
    "Verif.Real.C71_shipped"
   ],
   "note": "For the tables of C71_exact. The counted delay of a train is taken in the last station that it leaves, times the weight of its type, and is 0 for the trains taken for shunting trains (see C36)."
  },
  {
   "property": "C73",
   "status": "proved",
   "theorems": [
    "Verif.Real.C73_real",
    "Verif.Real.C73_ko1",
    "Verif.Real.C73_ko2",
    "Verif.Real.C73_ko3",
    "Verif.Real.C73_shipped"
   ],
   "note": "Exact for all seven sheets. Plans give the solutions; a pair of trains (14006 and 40477 at KO) forces the 19 minutes, a tree of 3247 cases over the orders of trains, checked by the kernel, the 18 minutes of the second sheet of the KO_GLC problems."
  },
  {
   "property": "C74",
   "status": "partial",
   "theorems": [
    "Verif.Wisla.C74_optimum",
    "Verif.Wisla.C74_headway_false",
    "Verif.Wisla.C74_headway_partial",
    "Verif.Wisla.C74_meant_keyError",
    "Verif.Wisla.C74_meant",
    "Verif.Wisla.C74_recorded"
   ],
   "note": "Optimum and recorded output as stated. The claim about headways is false at station 10: a brace closed too early leaves a group out, and a misspelt key would make the repaired script fail; with both repaired the headways hold and the optimum is the same."
  },
  {
   "property": "C75",
   "status": "proved",
   "theorems": [
    "Verif.C75_printed",
    "Verif.C75_sheet",
    "Verif.C75_false",
    "Verif.Real.C75_shipped"
   ],
   "note": "Shown tells by the tables which trains have their delays in the problem: those not taken for shunting trains (see C36), those that leave two stations, and those that take over rolling stock unless they leave too late for the constraint to be made. C75_false shows another train printed at the reference time. For the shipped sheets all trains, unless train 343199 is delayed before by more than d_max."
  },
  {
   "property": "C76",
   "status": "proved",
   "theorems": [
    "Verif.C76_diagram",
    "Verif.C76_train",
    "Verif.C76_sheet",
    "Verif.Real.C76_shipped"
   ],
   "note": "C76_diagram holds for all printed dictionaries. C76_train, C76_sheet: trains as in C75, no negative passing times, no arrival before 1899. For samples that break the constraints the stations may be drawn in another order (C76_unordered). Text and scale of the gnuplot script are not modelled."
  },
  {
   "property": "C77",
   "status": "proved",
   "theorems": [
    "Verif.C77_collected",
    "Verif.C77_numbers",
    "Verif.C77_printed",
    "Verif.C77_delays",
    "Verif.Real.C76_shipped",
    "Verif.Real.C77_shipped"
   ],
   "note": "Quantiles and mean are exact rational numbers in the model, numpy rounds them."
  },
  {
   "property": "C78",
   "status": "partial",
   "theorems": [
    "Verif.C78_found",
    "Verif.C78_distances_partial",
    "Verif.C78_false"
   ],
   "note": "Order and look-up hold for all segments. The distances agree with the lines for one segment, 137138GLYKZ; they are wrong for the two others (C78_false), so the full claim is false of the tables."
  },
  {
   "property": "C79",
   "status": "proved",
   "theorems": [
    "Verif.Real.C79_real",
    "Verif.Real.C79_ko1",
    "Verif.Real.C79_ko3"
   ],
   "note": "31 of the 46 problems of the two scripts; the cases 7 to 9 of solve_real_problem.py and the second sheet of the KO_GLC problems are not treated. For each a plan that keeps the rules (C71, C72) and a proof by cases that no plan is better, both checked by the kernel. The values agree with those recorded by the real program."
  },
  {
   "property": "C80",
   "status": "partial",
   "theorems": [
    "Verif.SolverTests.C80_statement",
    "Verif.SolverTests.C80_attained",
    "Verif.SolverTests.C80_objective",
    "Verif.SolverTests.C80_settled",
    "Verif.SolverTests.C80_open",
    "Verif.SolverTests.C80_false",
    "Verif.SolverTests.C80_open_partial"
   ],
   "note": "All 17 asserted objectives are the optima, and 12 tests pass for every optimal answer. False for the five others (C80_open): each asserts a value that the problem leaves open, so that another optimal answer fails the test; C80_open_partial: without these values they pass for all optimal answers. Certificates (trees of cases with Farkas multipliers) are checked by the kernel."
  },
  {
   "property": "C81",
   "status": "partial",
   "theorems": [
    "Verif.C81_generated",
    "Verif.C81_iff",
    "Verif.Real.C81_real",
    "Verif.Real.C81_statement",
    "Verif.Real.C81_default_partial",
    "Verif.Real.C81_case5",
    "Verif.Real.C81_default_false",
    "Verif.Real.C81_readme",
    "Verif.Real.C81_ko1",
    "Verif.Real.C81_ko3"
   ],
   "note": "Proved in general and for 30 of the 31 shipped problems with the penalties of the scripts, also where the penalty is smaller than the best value. With the default penalty 1.0 it is false for case 5 of solve_real_problem.py (C81_default_false); there it holds exactly for the penalties larger than 5/4 (C81_case5), so with the 2.5 of the README in all cases (C81_readme)."
  },
  {
   "property": "C82",
   "status": "proved",
   "theorems": [
    "Verif.C82_tests",
    "Verif.C82_passes",
    "Verif.C82_optimal"
   ],
   "note": "The inputs are transcribed from the files. The annealer is not modelled; the theorems hold for every set of samples."
  }
 ]
}