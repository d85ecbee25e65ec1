# Formal model of railways_dispatching_silesia

The Lean project in `lean/` contains a shallow model of the Python code in `/repo` (read as text;
no script or module of it was run; section 6 has one qualification) and proofs of the properties listed in `properties.jsonl`. `MANIFEST.json`
maps each property to its theorems. `seeded/LOG.jsonl` records the mutation tests.

Reading order for a reviewer: `Spec/*` (what is claimed), `Props/*` (the theorems, with witnesses),
`Model/*` (the code), `Proofs/*` (everything else).

## 1. Trusted base

1. **Lean 4.33.0's kernel**, and Mathlib's definitions of ℚ, lists, sums. No own axioms, no `sorry`,
   no `native_decide`, no `bv_decide`, no `unsafe`, no `implemented_by`. `decide +kernel` is evaluation
   by the kernel.
2. **Axioms.** At most `propext`, `Classical.choice`, `Quot.sound`. Of the theorems and definitions
   named in `MANIFEST.json`:

   | axioms | number | names |
   |---|---|---|
   | propext, Classical.choice, Quot.sound | 261 | all others |
   | propext, Quot.sound | 11 | `C28_common_false`, `C28_others`, `C31_statement`, `C41_skip`, `C41_succeeds`, `C44_passing_partial`, `C44_shape`, `C44_value_partial`, `C45_not_served`, `C53_common_elements`, `C77_collected` |
   | propext | 6 | `C32_statement`, `C43_only_assertion`, `C43_statement`, `C52_keys_false`, `C53_flatten`, `C53_nested_size` |
   | none | 4 | `C28_common_statement`, `C29_statement`, `C30_statement`, `C44_statement` |

3. **The reading of the Python source.** Every definition in `Model/*` cites file and lines. It was
   compared with recorded outputs of the real program (section 6).
4. **Library behaviour**, from documentation and source of the libraries:
   * Python: dicts are insertion ordered and updating a key keeps its place; `list.index` is the first
     occurrence; `x in str` is a substring test; f-strings use `str()`; `round` rounds halves to even;
     comparison chains, slices, truthiness of lists and `None`.
   * PuLP: `LpVariable.dicts(name, (I1,..), lo, up, cat)` names variables `name_i1_.._in`; the
     characters `-+[] >/` in names become `_`; variables are compared by identity;
     `problem += c, name` raises `PulpError` for a repeated name; `problem.variables()` are those in the
     objective or in a constraint, sorted by name; `.varValue`, `.value()`.
   * dimod: `Integer(label, upper_bound=u)` ranges over 0..u; a label has one type; a plain number is no
     constraint (`TypeError`).
   * pyqubo: `LogEncInteger(label, (l, u))` asserts `l < u`; weights 1, 2, 4, .., remainder on the last
     bit; `compile` keeps energies; `decode_sample` evaluates.
   * pandas: filters keep row order; `.values[0]` is the first match (`IndexError` if there is none);
     an empty cell is NaN; a column with numbers and text holds `int`, `float` or `str` cells.
5. **The transcription of the data files** in `Real/*` (only for C64–C73, C75–C77, C79), made by
   `tools/gen_real.py` from `/repo/data`: CSV rows, `.npz` tables of stations, `.ods` path table; and of the
   literals of `wisla_problems.py` in `Model/Wisla` (only for C74) and of the tests in `Tests/*` (only for C80).

## 2. Conventions and simplifications

* Exceptions are values: `Py α = Except PyErr α`. Builders first collect the constraints and then add
  them to the problem; if two different exceptions would be possible the model may report another one
  than Python. Whether one is raised is the same.
* Floats are exact rationals. So equality of floats, and `round` of a value that a float
  represents only approximately, may differ from Python in the last digit.
* A train or station name is `int` or `str` (`Val`). `json`-like dictionaries are association lists;
  sets of switches are lists of which only membership is used.
* A table is the list of its rows. Times of day are strings, parsed as Python's `datetime.strptime` does for
  one or two digits for hour and minute.
* `earliest_dep_time` is recursive; Python's recursion limit (1000 stations) is not modelled.
* `isnumeric` knows the digits 0–9 only.
* `sys.exit` without a call is an expression without effect, as in Python.

## 3. What is modelled

| source | model | left out |
|---|---|---|
| `railway_solvers/.../helpers_functions.py` | `Model/Helpers` | nothing |
| `railway_solvers/.../linear_solver.py` | `Model/Linear`, `Model/Pulp` | printing |
| `railway_solvers/.../converter_cqm.py` | `Model/Cqm` | nothing |
| `railway_solvers/.../converter_bqm.py` | `Model/Bqm`, `Model/Report` | compilation inside pyqubo |
| `railway_solvers/.../results_manipulation.py` | `Model/Results` | timing and solver information |
| `data_formatting/.../time_table_check.py` | `Model/Table` | nothing |
| `data_formatting/.../utils.py` | `Model/Utils`, `Model/Sched` | deprecated variants that read `./important_stations.npz` |
| `data_formatting/.../make_J_taus.py` | `Model/JTaus` | nothing |
| `data_formatting/.../make_switch_set.py` | `Model/Switch` | nothing |
| `data_formatting/.../scheduling_tools.py` | `Model/Sched` | nothing |
| `data_formatting/.../new_time_tables.py` | `Model/NewTT` | nothing |
| `helpers.py` | `Model/Top`, `Model/Print`, `Model/Report` | reading files, printed text |
| `wisla_problems.py` | `Model/Wisla` | command line, calls of solvers |
| `solutions_quantum/data4diagrams/*.py` | `Model/Diagram` | text of the gnuplot script, figures, `read_quantum_pickle.py`, unused functions |
| `data/*.csv`, `*.npz`, `*.ods` | `Real/*` | columns that no function reads |

Not modelled: the solvers (CBC, CPLEX, D-Wave) — the properties quantify over *every* answer they may
give —, `d_wave_solves.py` (calls of the D-Wave service), file and spreadsheet formats, plotting, printing, run times, command
line parsing; `data_formatting/print_timetable.py`, which cannot run (its input files do not exist, and it calls `get_arrdep` with two
arguments).

`Model/Top.lean` composes these functions in the order of the scripts: `buildTimetables` (sheet →
train dictionary), `makeInput` (train dictionary, stations, path table, delays → train sets and
timetable), `buildProblem` (`create_linear_problem`).

## 4. Layout

| modules | content |
|---|---|
| `Verif/Py` | errors, values, dictionaries, loops, substring test |
| `Verif/Model/*` | the code |
| `Verif/Spec/*` | notions for the statements, written without the model's helper functions: feasible assignments, dispatching rules, plans, objective, facts about tables |
| `Verif/Proofs/*` | lemmas |
| `Verif/Props/*` | property theorems, refutations, and examples that meet the hypotheses |
| `Verif/Examples/*` | instances used in examples and refutations, and a verified checker for feasibility |
| `Verif/Real/*` | the shipped data, and checks of them by the kernel |
| `Verif/Tests/*` | the repository's tests, and certificates for C80 |

## 5. The properties

"False" means: refuted by a theorem with a concrete witness; the theorem ending in `_partial` proves
what holds, the full statement stays in view as a definition (`..._statement` or a named `Prop`).

### The linear problem (C01–C20, C49, C51, C52, C54)

* **C01–C07, C54** (`Props/Rules`, `Props/Rules2`). `Feasible b σ` ranges over every assignment of the
  built problem within bounds. Each builder loop is characterised by membership of its constraints
  (`Proofs/Families*`); the big-M constraints of a pair are split by the value of the order variable. The
  rules in `Spec/Rules` speak of departure times, not of constraints. C04 is false: `s in
  skip_station[jp]` is a substring test on a string.
* **C08, C09** (`Props/BigM`): M is large enough, and no smaller one is; constraints left out by the
  redundancy tests follow from bounds and running times.
* **C10, C49** (`Props/Equiv`): the same characterisation in both directions: feasible assignments are the
  plans that keep the rules; enlarging `d_max` keeps all plans.
* **C11–C13** (`Props/Order`): invariant of the nested dictionary under its updates. C13 is false: `keep_trains_order`
  looks at one orientation of a pair only.
* **C14, C15** (`Props/Edt`): the recursion is the least solution of the inequalities; Lipschitz in the initial
  delays.
* **C16, C17** (`Props/Vars`, `Props/Objective`): fold lemmas.
* **C18, C19, C20, C51, C52** (`Props/Names`, `Reported`, `Keys`): names as data. C18, C19, C51, C52 are false for names with
  characters that PuLP replaces, or with underscores.

### Converters and results (C21–C27)

* **C21** (`Props/Cqm`): the points of the CQM are those of the linear problem.
* **C22–C24** (`Props/Bqm`, `Qubo`, `QuboBuilt`, `QuboConvert`): the encoded integers take exactly their values; penalties vanish exactly at
  feasible points, and else the least penalty is the square of the violation; ground states are optimal if the penalties dominate, also
  for built problems.
* **C25–C27** (`Props/Results`): stable sort, first feasible sample, counting.

### Data formatting (C28–C46, C53)

Tables are row lists, loops are folds. `..._computed` theorems say exactly what the code returns.
* False as stated: **C28** (trains with several blocks in a station), **C29** (blocks of one train
  contained in those of another), **C30** (trains that end at the far end), **C31** (pairs that do not meet: `sys.exit` is not
  called, so the pair is put under the station of the pair before; pairs that meet at both ends), **C32** (whole numbers
  stored as float: 3.0 is read as switches 3 and 0; KO(IC), KO(KS), KO(STM) treated apart), **C34** (no
  common block), **C36** (`first_station` never reset), **C39** (`"2_" in "12_KO"`), **C40** (train // 10), **C42** (repeated
  numbers), **C43** (only one of the blocks is looked up), **C44** (assertion on one station only), **C46** (common end of paths).
* Proved: C33, C35, C37, C38, C41, C45, C53.

### From tables to plans (C47, C48, C50, C55–C62)

* **C47, C55, C56** (`Props/Generated`, `Solvable`, `Loaded`; `Proofs/Gen*`): what is generated from readable tables has every
  key the optimisation looks up, and no two constraints get one name; so the problem is built. Each condition is shown to be needed (`C55_*`).
* **C48, C57–C62** (`Props/Safe`, `Stays`): guarantees of *every* feasible plan of generated input, stated on the tables
  alone (who runs where, over which blocks and switches). C57, C58, C60 are false in the
  places named in the manifest, with feasible plans in which trains collide (`Props/SafeFalse`). C62 is false for a shipped
  sheet (`Props/RealOvertakes`).
* **C50** (`Props/Printed`): false for fractional passing times and for continued trains.

### The shipped data, the rules of the tables, and the output (C63–C78)

* **C63** (`Props/Sheets`): `GoodSheet` is a condition on the rows of a sheet; such sheets are processed to the end.
* **C64, C65** (`Props/RealData`): the seven shipped sheets are good, checked by the kernel on numbered block
  names (`Proofs/Coded` proves the checks sound). C65 is false: see below.
* **C66** (`Props/SafePlan`): C48 and C57–C62 for all trains of a sheet, as one structure `SafePlan`, with conditions on
  the rows of the sheet (`SafeSheet`). It also says that every train has exactly one departure from each station it leaves.
* **C67** (`Props/RealSafe`): the seven shipped sheets meet these conditions, so every feasible plan for them, whatever the
  delays, is a `SafePlan`.
* **C68** (`Props/RealExceptions`): the exceptions in `SafePlan` do not occur in the KO_GLC sheets; in the other four
  the exception for names concerns exactly the trains 94766, 40518, 343199, 44862 and 541019 at KO. `Props/RealCollisions`:
  for each of the four there is a solution in which one of these trains and another one are on the same track of KO at the
  same time. A check on plans (`Proofs/PlanHits`) finds the collision, and C71 turns the plan into a solution. In four
  of the ten cases of the script the colliding plan is optimal (C79).
* **C69** (`Props/Waiting`, `Waiting2`, `RealWaiting`): the serial plan, in which each train waits for all before it, keeps
  all rules if no train begins on a track used before. False in general, also for a shipped sheet with two delays.
* **C70** (`Props/Earliest`): induction along the stations of a train; the dictionaries are looked up as in C33, C38, C39.
* **C71** (`Props/TableRules`, `TableRulesExact`, `RealRules`): `TableRules` are the rules of the tables, with an order of
  the trains at each place. Every plan that keeps them gives values of all variables that satisfy the problem
  (`C71_complete`); every solution gives orders that keep them (`C71_exact`). The seven shipped sheets
  meet the conditions whatever the delays (`Real.C71_shipped`). The rules contain those that the code imposes without need
  (`orderBegins`), and exempt what the code exempts (`GoesOnFrom`, which is the substring test on names).
* **C72** (`Props/Optimal`): the objective is the sum of `CountedDelay` over the trains; with C71_exact the optimum is the
  least sum over all plans that keep the rules.
* **C73** (`Props/RealPlans`): a plan is a list of departures for each section of a sheet, with positions in the
  orders (`Proofs/CodedPlan`). Executable checks on numbered blocks (`PlanOK`) imply `TableRules` (`Proofs/PlanRules`), and C71
  turns the plan into a solution; the plans are in `Real/Plan*` and the kernel runs the checks. Lower bounds: two
  trains that need one track, one line or one switch, with times such that either order costs `D` minutes
  (`Proofs/PlanBound`), whatever the rest of the plan. For the second KO_GLC sheet no single pair is enough: a tree of
  cases over the orders of pairs of trains (`Real/CasesKo2`, written by a script, checked by the kernel) has in each leaf
  a chain of rules that is impossible with delays under 18 minutes. `Proofs/PlanTree` proves that such a tree is a
  refutation, `Proofs/PlanArcs` that each of its links is a rule of the tables. Nothing is trusted about the script.
* **C79** (`Props/RealOptimum`): by C71 and C72 the optimum is the least weighted sum of delays over all plans that keep
  the rules. For each problem `Real/Opt*` has a plan with this sum and a tree of cases over the orders of pairs of trains. On the
  way down the tree the inequalities of the rules raise lower bounds of the departures; a leaf is closed when the sum of the lower
  bounds is large enough, a bound exceeds its limit, or inequalities contradict each other (`Proofs/SumTree`, up to 5437 leaves).
  `Proofs/PlanSum` connects the weighted sum with the objective. The plans share most checks with the plan of the same sheet
  without delays (`Proofs/PlanAgain`). Trees and plans were written by scripts that are not trusted. Not treated: cases 7 to 9 of
  `solve_real_problem.py` and the second sheet of the KO_GLC problems, whose trees are too large.
* **C74** (`Props/Wisla`): a feasible assignment is checked by the kernel; the lower bound follows from the rule for
  single lines (C02) and that for the order of departures of one train (C03). Recorded output is compared by the kernel.
  False as stated: the headway at station 10 is not imposed (`C74_headway_false`).
* **C75** (`Props/PrintedSheet`, `RealPrinted`): along the stations of a train, the rows of C50 with the look-ups of C18,
  C19 and C70. `Shown` tells by the tables whether the delays of a train occur in the problem. For the shipped sheets
  only train 343199 needs the third case of `Shown`.
* **C76** (`Props/Diagram`, `RealDiagram`): the times along the stations of a plan never decrease, by C61 and C70, so that
  sorting by arrivals, with stations without one first, changes nothing. The numbering of the blocks by induction on the trains.
* **C77** (`Props/Statistics`, `RealDiagram`): collecting by induction; bounds from C70. For the four sheets some train leaves
  each of the five stations, checked by the kernel.
* **C78** (`Props/RealDiagram`): the kernel compares the tables.
* **C80** (`Props/SolverTests`, `Proofs/LpTree`, `Proofs/TestCase`): the built problem is coded into vectors, with a proof that
  the code has the same feasible points and objective. A certificate is a tree of cases `x ≤ k` or `x ≥ k + 1` with a non-negative
  combination of the constraints in each leaf; `LpTree.check` is proved sound and evaluated by the kernel. The trees were found by a
  search in exact arithmetic outside of Lean, which need not be trusted. `C80_objective` and `C80_attained`: the asserted objectives
  are the optima. `C80_settled`: 12 tests pass for all optimal answers. `C80_open`: five do not (`C80_false`), as they assert
  `Delays_2_B`, `Delays_1_A`, `Delays_0_B`, `Delays_j1_S2`, `Delays_0_B`, which other optimal answers give other values.
* **C81** (`Props/QuboConvert`, `QuboGenerated`, `RealQubo`, `RealDefault`, `LooseQubo`, `RealPenalty`,
  `Proofs/GenVars`, `Near`, `PlanNear`, `Loose*`): `C23_converts` tells when the conversion succeeds: in
  every constraint the slack must have a range that is not empty. A solution for a smaller `d_max` gives this
  (`room_of_solution`). Names of variables are distinct (`varNames_generated`), all times whole (`intTimes_generated`), and the
  objective is not negative, so that C24 applies with the objective of a known solution as bound (`C24_known`). For the shipped
  problems the plans of C79 delay no train by 40 minutes. `C81_iff` reduces the
  claim to points: it holds exactly if every point that breaks a constraint costs more than the best value, where the cost is the
  objective plus the penalties times the squares of the violations (`softCost`, `C24_soft`). So it is false for case 5 with
  penalties up to 5/4 (`C81_small`, `C81_default_false`): in the plan `real5NearPlan` train 5312 leaves CB in the minute in which 26103
  arrives there, one switch constraint is violated by 1, and the weighted delays are 259/4 instead of 459/4.
  `TableRulesCore.near` turns a plan that breaks rules at switches into a point of the problem, with the violations bounded.
  Conversely (`LooseBounds.qubo`) a point that is not a solution violates one constraint by 1, or several by 1, or one by 2 at
  least, and pays 1, 2 or 4 penalties. What it can save is bounded by the kernel: `rules_of_loose` gives the rules of
  the tables with a slack for each violated constraint, and `LooseTree` is a proof by cases with the additional case which
  rule is the broken one (`Real/LooseReal4`, `LooseReal5`, `LooseReal6`; `Planned.loose_bound`). So 5/4 is exact for case 5
  (`C81_case5`), the default 1.0 is enough in all other cases (`C81_default_partial`) and 2.5 in all cases (`C81_readme`).
* **C82** (`Props/QuboTests`, `Tests/QuboInputs`, `Tests/Track`): the ten inputs of `test_solving_QUBO.py`, transcribed by a script that
  reads the files as text. Nine of them give problems of C80 (`*_input`: the same numbers), so that their optima are known; the
  tenth has its own certificate. `qubo_exact` (from C81) gives the ground states; `chosen_best` and `chosen_sound` follow a set of
  samples through interpreter, analysis and choice. The annealer is not modelled: all sets of samples are considered.

## 6. Validation of the model

Recorded results of the real program, compared with the model (`lake env lean --run` outside the project; programs in
`tools/validate`; files are unpickled with a reader that constructs only plain data, numbers and dates):

* `/repo/results_KO_GLC/results_PULP_CBC_CMD__{1,2,3}_Integer.pkl`: numbers of integer variables, order variables
  and constraints of 36 problems. The model, run on `Real/*` with the delays of the script, gives the same numbers in all
  36 cases (for example 592, 79, 3044 for case 3 without delays).
* The same files, and `results_CPLEX_CMD__{1,3}_Integer.pkl`: the recorded objectives of the 24 problems of sheets 1 and 3 are the
  optima proved in C79; likewise the sums of the recorded impacts in
  `/repo/solutions_quantum/data4diagrams/PULP_CBC_CMD_case{0..6}_Integer.pkl`. This compares the model with the real
  program at the optimum: a constraint too many or too few in the model would be expected to show here.
* `/repo/solutions_quantum/cqm*_case*_Integer.pkl`: 140 samples (28 files of 5) for the problems of
  `solve_real_problem.py`, cases 0–9. In all of them the names of variables, the names of constraints and their order, the truth of
  every constraint, and the objective are those computed by the model.
* `/repo/solutions_quantum/data4diagrams/cqm5_case{0..9}_*`: 50 printed timetables. All fields are equal to those of the model's
  `printOptimisationResults`.
* `/repo/solutions_quantum/wisla`: one sample and one printed timetable; here the comparison is a theorem
  (`Wisla.C74_recorded`). The printed timetable has the key `conflicted departure` where the present code writes
  `conflicted_departure`; it was written by an earlier version.

The repository's own tests, transcribed and checked on every build: `Tests/Cases` (problems and assertions of
`test_linear_solver.py`, `test_linear_solver_large.py`; the theorem is C80), `Tests/Helpers` (`test_helpers.py`, names of variables
and constraints; checked by the kernel), `Tests/Data` (all assertions of `data_formatting/test/*.py`, on the shipped sheet
as in `Real/*`; evaluated by `#guard`, so this is evidence about the model and no part of a proof). All assertions hold for the model.

Qualification to "no script was run": the lines 57-92 of `wisla_problems.py`, which are dictionary literals, were first
obtained by letting Python evaluate these lines. They have been extracted again by parsing the text
(`tools/validate/wisla_literals.py`), with the same result.

## 7. Findings in the code and data

Behaviour worth a fix; each is a theorem unless marked (read).
* `timetable_to_train_dict`: a repeated number replaces the earlier train. All three KO_GLC sheets
  repeat one (102, 102, 103), so one train of each is not scheduled (`Real.C65_false`).
* `track_occuparion`: substring test; at `KO` trains that end in `KO(STM)` or `KO(IC)` are exempt (`C04_stationTrack_false`, `C58_false`).
* `josingle` misses pairs in which trains end at the far end of the line (`C57_false`, `C57_false2`).
* `jswitch`: nothing at KO(IC) and KO(KS); float cells `3.0` read as {3, 0}; an `int` cell
  raises `TypeError`, an empty one `NameError` (`C32_*`, `C60_false*`).
* `get_jround`: `sys.exit` is not called (`C31_false`).
* `jd`: trains with contained block lists are grouped together, or twice, which makes
  `create_linear_problem` fail with a repeated constraint name (`C55_nested`).
* `add_delay`: delaying train 2 also delays 12, 102, 4602 (`C39_false`).
* `make_weights`: compares `train // 10` (`C40_false`).
* `get_taus_stop`: `first_station` never reset (`C36_false`).
* A train occupies its first track from its earliest departure on, even if it could wait elsewhere. In
  `KO_GLC`, delaying train 4 by 20 and train 6 by 10 minutes leaves no plan at all (`C69_false`).
* `minimal_passing_time`: the assertion checks the second station only.
* `print_optimisation_results`: a continued train is printed to leave at the reference time (`C50_false`); in generated problems
  this happens when it leaves so late that the constraint for its rolling stock is left out (`C75_false`).
* `railway_lines.py`: wrong kilometres in the segments `137139GLYTy` from Ligota on and `138139KZTY` (`C78_false`).
* `create_linear_problem` with `d_max = 0`: `ZeroDivisionError` (`C55_dmax`). A station named `p`
  breaks the dictionaries (`C55_called`).
* `analyze_constraints` does not look at bounds of variables.
* `wisla_problems.py` line 63: a brace closes `"Jd"` too early, so no headway is imposed at station 10
  (`Wisla.C74_headway_false`); line 81: the key `Ic2_Ks2_5_10` should be `Ic2_Ks2_10_5`, without which the repaired
  brace raises `KeyError` (`Wisla.C74_meant_keyError`).
* The default penalty 1.0 of `solve_real_problem.py` is too small for its case 5: a point in which a train leaves CB in the minute in which
  another arrives over the same switch has less energy than every solution (`Real.C81_default_false`).
* Five tests of `test_linear_solver.py` assert a value that the problem leaves open, and depend on the solver (`SolverTests.C80_open`).
* (read) `print_timetable.py` calls `get_arrdep` with two arguments; `railway_lines.route_on_lines` calls the
  undefined `station_on_line`; `important_stations.py` misses a space in `"KO","ST", 3, "(2)"`.
