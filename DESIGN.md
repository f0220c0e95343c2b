# Formal model of hadar: design

## Method

The Python code in `/repo/hadar` is read as text and transcribed, function by function, into total
computable Lean 4 functions under `lean/Verif/Model`. Each definition cites the file and lines it
models, and says where it simplifies. Independent specifications are in `lean/Verif/Spec`, helper
lemmas in `lean/Verif/Proofs`, property theorems with their non-vacuity examples in
`lean/Verif/Props`. A property the code violates is kept in full in `properties.jsonl`; the model
proves its negation with a concrete witness (`..._refuted`) and the part that holds (`..._partial`).

Conventions:

* numbers are exact rationals `ℚ` (floating point rounding is not modelled, but answers of the solver up to a tolerance are, C101; NaN is, in tables, in workflow
  frames and where the API looks at the numbers it is given (`Model/Special.lean`, C128), as a value apart from numbers; the infinite bound `max / 0` of numpy is, in the optimizer, and `0 / 0` there is a refusal, what
  ortools does with such a bound being unknown; in tables `x / 0` is an infinity and `0 / 0` NaN);
* Python exceptions are values of `PyErr`, results `Except PyErr α`; calls that mutate before
  raising return the mutated state next to the error (`PyM σ α`);
* `dict` is an insertion-ordered association list;
* numpy arrays are a shape and a row-major list of numbers;
* object sharing is modelled with explicit heaps where the code relies on it (builder selectors, analyzer
  selectors, plug output lists, pipeline stage lists) and ignored elsewhere.

## Trusted base

* Lean 4.33.0 kernel, Mathlib for Lean 4.33.0 (modules imported one by one);
* axioms: only `propext`, `Classical.choice`, `Quot.sound`; the section on properties lists those of each theorem. No
  axiom is added, and there is no `sorry`, `admit`, `native_decide`, `bv_decide`;
* the transcription of the Python code into `lean/Verif/Model`, done by reading. It is corroborated by the unit tests of the repository,
  run on the model in `lean/Verif/Conform` (nothing of the code itself is run, what the tests assert is asserted of the model). The
  tests that solve a study hold for every solver whose answers are optimal: multipliers prove optimal the answer the test expects, and
  that there is no other. This found one mistake of the model: pandas puts the columns of a pivot table in alphabetical order. Left
  out: `TestFault` and the random half of the workflow integration test, which are statistical, and the hashes of figures in
  `tests/viewer` (what is checked is that each figure is drawn). `Conform/Docs` draws with the model the figures kept in
  `/repo/docs/source/examples` (`Get Started`, `Cost and Prioritization`, bars and colours of `Storage` and of the maps, titles), which
  real runs of the code drew: areas, lines, arrows, nodes, bars, texts and titles are the same. These modules are tests of the model, not proofs of properties: no
  claim of `MANIFEST.json` rests on them;
* what the model says of code that is not in `/repo`:
  * **ortools** (`Model/LP.lean`, last section): calls make a log of variables, rows, coefficients (`SetCoefficient` on the
    same row and variable replaces the former value), objective coefficients; the meaning of a log is a linear program. The
    solver is a function from logs to answers, about which theorems assume what they need: answers within the bounds of
    variables, feasible, or optimal. The code never looks at the solver status, and `C23_infeasible_unnoticed` shows
    what follows;
  * **multiprocessing** (`Model/Pool.lean`): `Pool.map` of CPython, chunks, any order of completion, first failure; a sampler
    bound to a generator is sent with the state of the generator, once per chunk (`Model/Sampling.lean`);
  * **numpy, pandas** (`Model/Json.lean`, `Model/Frame.lean`, `Model/Pipeline.lean`): indexing, reshaping, `np.empty` (its
    content is a parameter), column assignment on slices, masks, pivot tables (lines whose values are all missing are dropped,
    keys and columns sorted), `sort_values` (not stable: the order of equal values is a parameter), `clip`, `drop`, `reindex`, `tile`,
    random numbers (a parameter with the laws `Rng.Lawful`);
  * **Python objects** (`Model/Dto.lean`): trees with identities; comparison of dicts and lists tries identity first; the truth value of an
    array of several booleans is an error; hash functions are parameters, and so are the texts of numbers, quoted strings, arrays and
    addresses (`Model/Text.lean`, laws `LawfulTexts`);
  * **requests, json** (`Model/Remote.lean`, `Model/Json.lean`): a server is the list of its answers; JSON text is the tree it
    encodes.

## What is modelled

| file of /repo/hadar | model | left out |
|---|---|---|
| `optimizer/domain/numeric.py` | `Model/Numeric.lean` (all classes and the factory), `Model/Share.lean` (which arrays are kept by reference), `Model/Special.lean` (NaN and infinities) | rounding, types of numbers |
| `optimizer/domain/input.py` | `Model/Study.lean` (elements, `Study`), `Model/Fluent.lean` (selectors), `Model/Defaults.lean` (parameters left out), `Model/Serial.lean` (JSON), `Model/Special.lean` (checks of numbers that are not finite) | docstrings, type hints |
| `optimizer/domain/output.py` | `Model/Output.lean` | |
| `optimizer/utils.py` | `Model/Serial.lean` (`JSON`), `Model/Wire.lean` (`JSON.convert` on typed numbers), `Model/Dto.lean` (`DTO.__eq__`, `DTO.__hash__`), `Model/Text.lean` (`DTO.__str__`, `DTO.__repr__`) | NaN in `DTO.__eq__` |
| `optimizer/lp/domain.py`, `mapper.py`, `optimizer.py` | `Model/LP.lean`, `Model/Pool.lean`, `Model/Wire.lean` (`JSONLP`, messages of the workers), `Model/Clock.lean` (times of the benchmark; what clocks read is a parameter) | profiler wrapper, log messages |
| `optimizer/remote/optimizer.py`, `optimizer/optimizer.py` | `Model/Remote.lean` | progress bar, spinner, sleeping (what makes them raise is kept) |
| `analyzer/result.py` | `Model/Frame.lean`, `Model/Analyzer.lean` (tables, indexes, queries, aggregates), `Model/Selectors.lean` (selectors as objects) | |
| `workflow/pipeline.py` | `Model/Pipeline.lean` (frames, plugs, stages, pipelines as objects) | log messages |
| `workflow/shuffler.py` | `Model/Shuffler.lean`, `Model/Sampling.lean` (default sampler in the workers) | log messages |
| `viewer/abc.py`, `viewer/html.py` | `Model/Viewer.lean`: the data drawn by each chart, and the exceptions raised; `Model/Drawing.lean`: curve of gaussian charts (over real numbers), arrows and nodes of maps, time axis; `Model/Titles.lean`: titles; `Model/Marks.lean`: bars of storage charts with their texts, colours of maps; `Model/Legend.lean`: names, fills and colours of stack charts, names and opacity of timelines | colours picked by plotly, units, other hover texts, rounding of floats, plotly itself |

`tests`, `docs` and `examples` are not modelled; `docs/source/mathematics/linear-model.rst` is the source of the
specification of the optimizer (`Spec/LP.lean`).

## Disagreements between the code and the properties

Each has a theorem with a concrete witness. Studies in witnesses are built by calls of the API.

* Negative quantities in a series are accepted as soon as one value is not negative (`np.all`): `C05_refuted`.
* A refused `to_converter` or `converter` call leaves a converter behind: `C08_refuted`, `C08_refuted_dest`.
* `node()` called again on a network handle moves the handles it gave before: `C12_refuted`.
* Empty names escape the single assignment of converter ends: `C13_refuted`.
* JSON: a name with `::` is not read back, an incomplete converter changes, reading a result consumes it: `C14_refuted_*`, `C15_refuted`,
  `C16_refuted`, `C17_refuted`.
* A link from a node to itself creates energy: `C19_refuted`, `C22_refuted`, `C71_refuted`, `C80_refuted`. So do a second storage of a node
  (`C80_storage_refuted`) and a converter without sources (`C80_free_energy`).
* Two sources of one converter written alike (`a:`, `b` and `a`, `:b`) are confused in the result: `C21_refuted`.
* A ratio of zero given in an array is no error: the converter takes any quantity of its source and gives nothing: `C18_zero_refuted`.
* Only the first storage of a node is constrained (`return` inside the loop of `StorageBuilder.add_node`): `C20_refuted`. So the order in which storages are declared changes the cost of the solution: `C77_refuted`.
* The solver status is ignored: `C23_infeasible_unnoticed`.
* The table of storages keeps the last storage only (index never moved), others are uninitialised memory: `C34_refuted`; so costs, candles,
  stacks, queries and monotone charts are wrong: `C42_refuted`, `C28_refuted`, `C59_refuted`, `C60_refuted`, `C60_raises_refuted`, `C69_refuted`, `C37_refuted`, `C64_refuted`.
* The table of converter outputs is sized by the number of sources: `C35_refuted`. The table of intakes mislabels scenarios with two sources,
  and the analyzer cannot be built with three: `C36_refuted`, `C36_raises_refuted`; so its timeline has one curve for two scenarios: `C68_refuted`.
* Query slices: an omitted start selects nothing, an omitted stop raises: `C39_start_refuted`, `C39_stop_refuted`. Fully specified queries
  raise: `C40_refuted`. Converter queries raise without converter: `C40_converter_refuted`. Reusing a selector object adds up its filters:
  `C41_refuted`. A network with an empty name raises in aggregates: `C46_refuted`.
* The constructor of pipelines checks each link with the previous stage only, and mutates the plugs of stages, so that reused stages accept
  wrong pipelines: `C48_refuted`, `C48_reuse_refuted`, `C55_refuted`, `C55_add_refuted`, `C58_stale_refuted`.
* `RepeatScenario` mislabels columns that are not grouped by scenario: `C50_refuted`.
* Focus stages lose values when rows are not labelled 0, 1, ...: `C53_refuted`, `C54_refuted`, `C54_shift_refuted`. A fault with a
  negative downtime hits steps until the end of the horizon: `C53_negative_refuted`.
* Running a pipeline on plain data changes the caller's columns: `C56_refuted`. Seed 0 is no seed: `C66_refuted`.
* The shuffler keeps columns with an empty name: `C58_refuted`.
* The adequacy matrix cannot be drawn unless some cell is positive and some negative: `C63_refuted`. The gaussian chart of a converter in a
  scenario raises with several scenarios: `C67_converter_refuted`. The curve of gaussian charts is not the density of a normal law, and nothing
  is drawn when all values are the same: `C94_refuted`, `C94_flat_refuted`.
* `==` raises `ValueError` on two studies with the same data as soon as one series is an array of several numbers, and on results with more
  than one cell: `C82_refuted`, `C82_result_refuted`.
* The text of a study has the address of its factory, whose class defines no text: no copy of a study has its text: `C110_refuted`. Names
  are written as they are, so that one consumption can look like two: `C110_names_refuted`.
* `benchmark.solver` also counts the time to build the problem: `C112_refuted`. The total is read before the time of the mapper, which can
  therefore be longer: `C112_total_refuted`.
* A link from a node to itself is not what a converter of ratio one from the node to itself is: `C113_refuted` (the self-link of C19 again).
* In a stack chart, a production called `import` has the name of the band of imports, elements of different kinds may share a name, and the eleventh line has the colour of the first: `C115_refuted`, `C115_colours_refuted`.
* `JSON.convert` and `JSONLP.to_json` turn `np.int64` and `np.float64` into Python numbers only: a study with an array of another type
  (`np.float32`) is accepted, can be sent as JSON, and raises `TypeError` when it is solved: `C103_refuted`. An initial level of a storage of
  another type cannot be sent either: `C103_json_refuted`.
* Titles of charts do not tell the network, nor the column of monotone and gaussian charts, nor the scenario of stacks: `C105_refuted`;
  blanks in names make titles ambiguous: `C105_blank_refuted`.
* The documentation of `Fault` calls `occur_freq` the probability of a fault for each timestamp. Beginnings are drawn with replacement, so
  with faults of one step a step is hit with chance 1 - (1 - f/h)^h, less than f: `C116_refuted`. The mean loss is as expected, but for the
  first steps, which no fault that began earlier reaches: `C116_mean_partial`, `C116_early`. Chances are those of ideal draws
  (`FairFaults`); numpy's generator, seeded with 32 bits, only comes near them.
* The default sampler of the shuffler, `np.random.randint`, is a method bound to numpy's generator; `pool.map` pickles it with the state of this
  generator in each chunk of timelines. Timelines of different chunks (all of them, up to four per process) with as many rows are drawn at the
  same indexes, and calling `shuffle` again draws the same scenarios: `C106_together_refuted`, `C106_again_refuted`. So each timeline taken alone is
  represented fairly (`C117_partial`), but two timelines are not drawn apart from each other: `C117_refuted`.
* A numpy array given to the API is kept by reference: writing in it later changes the study without any check: `C100_refuted`. The other
  modules treat values as immutable.

Numbers have a type in `Model/Wire.lean` only (C103), where complex numbers and booleans are left out. What ortools accepts as coefficient depends on
these types too (its wrapper may refuse `np.int64`); that is not in /repo and not modelled.

## Properties: plan, outcome, axioms

The digit after a theorem is the axioms it depends on, as printed by `#print axioms`: `3` for `propext`, `Classical.choice`,
`Quot.sound`; `2` for `propext`, `Quot.sound`; `1` for `propext`; `0` for none. All names are in `Hadar.Props`.

### C01 Broadcasting of quantities and costs

Whatever form a quantity or cost is given in (number, one value per time step, one value per scenario, or a full scenario x time matrix), the study uses, at scenario s and time t, the number itself, the t-th value, the s-th value, or the (s,t) cell respectively.

* Plan: `create` on every raw form, refinement to a 4-line broadcast function (Spec/Numeric).
* Outcome: **proved**.
* Theorems: `C01_broadcast` (3), `C01_broadcast_unique` (2), `C01_negative` (3)

### C02 Flattened view agrees with lookup

Flattening any accepted value gives exactly nb_scn*horizon numbers, and position s*horizon+t of it is the value looked up at scenario s, time t.

* Plan: length and element of the flattened list by index arithmetic (`s*h+t`).
* Outcome: **proved**.
* Theorems: `C02_flatten` (3)

### C03 Wrongly sized data is always refused

A value is accepted exactly when it is a number, already a study value, or an array of shape (horizon,), (nb_scn,1) or (nb_scn,horizon); anything else raises an error and nothing is silently reinterpreted.

* Plan: decision logic: `create` succeeds iff the shape predicate holds; result characterised.
* Outcome: **proved**.
* Theorems: `C03_accepts_iff` (2)

### C04 Out-of-range lookups raise IndexError

Looking up a scenario >= nb_scn or a time >= horizon in any accepted value raises IndexError and never returns a number.

* Plan: case analysis over the four forms, numpy index rule for `Int` indices.
* Outcome: **proved**.
* Theorems: `C04_out_of_range` (3)

### C05 Negative capacities are refused

Adding a consumption, production, storage or link with a negative quantity (or flow, capacity, initial capacity; or an efficiency outside [0,1]) anywhere in the horizon or scenarios raises ValueError, and values with no such entry are not refused for their sign.

* Plan: full claim refuted (comparison uses `np.all`); exact characterisation of what is refused, and the full claim for scalars, as `_partial`.
* Outcome: **partial**. False of the code for series of mixed signs (only series negative everywhere are refused); exact acceptance condition proved, full claim for plain numbers.
* Theorems: `C05_consumption_partial` (3), `C05_production_partial` (3), `C05_link_partial` (3), `C05_link_same` (2), `C05_storage_partial` (3), `C05_number` (1), `C05_refuted` (2)

### C06 Names stay unique

In any study built through the API, network names, node names within a network, consumption, production and storage names within a node, link destinations within a node, converter names and converter sources are unique.

* Plan: invariant over all histories of builder calls (`Reachable`), including failing ones.
* Outcome: **proved**.
* Theorems: `C06_unique_names` (3)

### C07 Link endpoints always exist

In any study built through the API every link starts and ends on a node of its own network.

* Plan: same invariant induction.
* Outcome: **proved**.
* Theorems: `C07_links_exist` (3)

### C08 A refused call changes nothing

If an API call that adds an element raises, the study is left exactly as it was before the call.

* Plan: refuted for converter calls by a concrete witness; proved for all other calls as `_partial`.
* Outcome: **partial**. False of the code for converter calls; proved for every other call.
* Theorems: `C08_refused_partial` (3), `C08_converter` (2), `C08_converter_set` (2), `C08_refuted` (2), `C08_refuted_dest` (2)

### C09 Elements are never lost or altered by later calls

Once a network, node, consumption, production, storage, link or converter source has been added, it stays in the study, with the same data and at the same rank, whatever API calls follow; an accepted add call adds exactly one element, at the end of its own list, and touches nothing else.

* Plan: preorder `extends` on studies, monotone under every call; frame theorems for single calls.
* Outcome: **proved**.
* Theorems: `C09_kept` (3), `C09_consumption` (3), `C09_production` (3), `C09_storage` (3), `C09_link` (3), `C09_converter_source` (3)

### C10 Every stored series has the study's size

In any study built through the API from numbers, lists or arrays, every stored quantity, cost, flow, capacity, efficiency and ratio can be looked up at every scenario < nb_scn and time < horizon, and flattens to nb_scn*horizon values.

* Plan: invariant over histories with raw values.
* Outcome: **proved**.
* Theorems: `C10_sized` (3)

### C11 Selecting a network or node is idempotent

Selecting a network or node that already exists changes nothing; selecting a new one adds it empty and leaves all others unchanged.

* Plan: equational reasoning on association lists.
* Outcome: **proved**.
* Theorems: `C11_network` (2), `C11_node` (3)

### C12 Builder handles act on the node they were made for

An element added through the object returned by .node(n) of network g is added to node n of network g, whichever other handles were created in between.

* Plan: heap of selector dicts; refuted by an interleaving; proved for handles not re-targeted in between as `_partial`.
* Outcome: **partial**. False of the code when node() is called again on the same network handle; proved otherwise.
* Theorems: `C12_handle_partial` (3), `C12_exact` (3), `C12_refuted` (2)

### C13 Converters are well formed

In any study built through the API a converter has at most one declared destination, which exists in the study and is never changed once set; each source is an existing node; a second destination is refused.

* Plan: invariant over histories; single assignment refuted for empty names, proved for non-empty ones as `_partial`.
* Outcome: **partial**. Single assignment is false of the code for empty names; proved otherwise; well-formedness proved in full.
* Theorems: `C13_well_formed` (3), `C13_dest_kept_partial` (3), `C13_second_refused_partial` (2), `C13_second_refused_node_partial` (2), `C13_refuted` (2)

### C14 Study JSON round trip

Serialising a study to JSON and reading it back gives an equal study.

* Plan: `fromJson (toJson s) = s` for reachable studies with splittable names, complete converters and nb_scn > 0 (`_partial`); witnesses for each excluded case.
* Outcome: **partial**. The full claim is false of the code (two counterexamples proved). Proved for every study built from numbers, lists and arrays with at least one scenario and sources whose names the separator does not confuse; a converter without destination is read back with the series 0 instead of the integer 0.
* Theorems: `C14_roundtrip_partial` (3), `C14_roundtrip_complete_partial` (3), `C14_refuted_incomplete` (3), `C14_refuted_separator` (3)

### C15 Composite keys survive serialisation

A converter source (network, node) is recovered unchanged from its JSON key, and two different sources never share a key.

* Plan: characterisation of when split(join) is the identity, on character lists; refuted in general.
* Outcome: **partial**. False for names with the separator; the exact condition is proved as an equivalence.
* Theorems: `C15_recovered_partial` (3), `C15_distinct_partial` (3), `C15_refuted` (3)

### C16 Result JSON round trip

Serialising a result to JSON and reading it back gives an equal result.

* Plan: round trip by structural induction, same conditions as C14.
* Outcome: **partial**. False for names with the separator; proved for all other results whose arrays have at least one scenario.
* Theorems: `C16_roundtrip_partial` (3), `C16_optimizer` (3), `C16_refuted` (3)

### C17 Reading JSON does not consume it

Reading a study or a result from a decoded JSON object leaves that object unchanged, so that reading it a second time gives the same answer.

* Plan: decoding modelled as returning the mutated argument as well; proved for studies, refuted for results.
* Outcome: **partial**. Proved for studies; false for results, whose second reading raises (counterexample proved). What a result leaves of the object, and when a second reading raises, is given exactly.
* Theorems: `C17_study_partial` (3), `C17_study_twice_partial` (3), `C17_left_partial` (3), `C17_second_partial` (3), `C17_same_partial` (3), `C17_refuted` (3)

### C18 Dispatch respects every limit

In a result, for every scenario and time: 0 <= given <= asked for every consumption, 0 <= used <= available for every production and link, storage level and flows within their limits, 0 <= converter output <= max and 0 <= converter input <= max/ratio.

* Plan: bounds of every created variable, through OutputMapper.
* Outcome: **partial**. False of the code when a converter has two sources with the same text 'network::node' (C21_refuted), and max/ratio is no limit where a ratio in an array is zero: the converter takes any energy and gives nothing (C18_zero_refuted). Proved for every other study that solve_lp solves, and every solver answer within the declared variable bounds.
* Theorems: `C18_solved_partial` (3), `C18_bounds` (3), `C18_given` (3), `C18_zero_refuted` (3), `C21_refuted` (3)

### C19 Energy is conserved at every node

In a result, at every node, scenario and time: production used + storage outflow + link imports + converter output to the node = consumption given + storage inflow + link exports + converter intake from the node.

* Plan: coefficient computation over the event list of the builders; refuted for self-links, proved otherwise (`_partial`).
* Outcome: **partial**. False of the code for a link from a node to itself: the import coefficient overrides the export one, so the link creates energy (C19_refuted, optimal answer). Proved for studies without such a link; the exact error term is proved for all studies.
* Theorems: `C19_solved_partial` (3), `C19_balance_partial` (3), `C19_balance_self_partial` (3), `C19_refuted` (3)

### C20 Storage levels evolve by their flows

In a result, for every storage: level(t) = level(t-1) + efficiency(t)*inflow(t) - outflow(t), with the declared initial capacity as level(-1).

* Plan: same for the storage rows; refuted for the second storage of a node, proved for the first (`_partial`).
* Outcome: **partial**. False of the code: StorageBuilder.add_node returns inside its loop, so only the first storage of a node is constrained (C20_refuted). Proved for the first storage of every node.
* Theorems: `C20_solved_partial` (3), `C20_first_storage_partial` (3), `C20_one_storage_partial` (3), `C20_refuted` (3)

### C21 Converters respect their ratios

In a result, for every converter, every source, scenario and time: intake from the source * ratio = converter output.

* Plan: same for converter rows.
* Outcome: **partial**. False of the code when a converter has two sources with the same text 'network::node': the result gives the flow of one to the other (C21_refuted). Proved for every other study that solve_lp solves.
* Theorems: `C21_solved_partial` (3), `C21_ratios` (3), `C21_refuted` (3)

### C22 The dispatch is least-cost

The result's dispatch is feasible for the adequacy problem of the documentation (limits, node balance, storage dynamics, converter ratios) and no feasible dispatch costs less, cost being unserved load*cost + production*cost + link flow*cost + storage level*cost + converter output*cost.

* Plan: LP feasible set and objective are those of the independent spec (no self link, at most one storage per node), solver contract gives optimality (`_partial`).
* Outcome: **partial**. False of the code with a self link or two storages on a node; C22_exact says for every study what the code does: the least cost among the dispatches it allows (a self link brings energy for free, only the first storage of a node is constrained). Proved for all other studies; the objective sent to the solver equals the documented cost for every study.
* Theorems: `C22_solved_partial` (3), `C22_least_cost_partial` (3), `C22_no_cheaper_partial` (3), `C22_exact` (3), `C22_objective` (3), `C22_refuted` (3)

### C23 A valid study always has a feasible dispatch

If all limits are non-negative and no storage starts above its capacity, the problem sent to the solver has a feasible solution, for every scenario.

* Plan: explicit feasible point (serve nothing, keep storages level).
* Outcome: **proved**. The last theorem shows the hypothesis is needed and that an infeasible problem still gives a result; for Ready studies, that is studies solve_lp accepts (C70), no converter of which has two sources with the same text.
* Theorems: `C23_feasible` (3), `C23_documented` (3), `C23_infeasible_unnoticed` (3)

### C24 Merit order

In a result, at any node and time, a production is not used while a strictly cheaper production of the same node has spare capacity, and no consumption is left unserved while a production of the same node costing less than the unavailability cost has spare capacity.

* Plan: exchange argument on the spec.
* Outcome: **proved**. Exchange argument, any number of nodes, links, storages, converters; for Ready studies, that is studies solve_lp accepts (C70), no converter of which has two sources with the same text.
* Theorems: `C24_productions` (3), `C24_consumptions` (3)

### C25 Scenarios are independent

The result for a scenario depends only on that scenario's data: two studies with the same structure that agree on scenario s get the same dispatch for s.

* Plan: congruence of the whole LP construction in the scenario data.
* Outcome: **proved**. Also across different scenario indexes and numbers of scenarios; for Ready studies, that is studies solve_lp accepts (C70), no converter of which has two sources with the same text.
* Theorems: `C25_independent` (3)

### C26 The result mirrors the study

A result has the same networks, nodes, consumptions, productions, storages, links, converters and converter sources as the study, in the same order and with the same names, each with a full (nb_scn, horizon) array, and each cell holds the value of its own variable.

* Plan: structural induction on OutputMapper and the solve loop.
* Outcome: **proved**. For Ready studies, that is studies solve_lp accepts (C70), no converter of which has two sources with the same text.
* Theorems: `C26_mirrors` (3), `C26_cells` (3)

### C27 Worker scheduling does not matter

The result of a solve does not depend on the order in which the worker processes finish their scenarios.

* Plan: results are keyed by scenario; permutation invariance.
* Outcome: **proved**. Multiprocessing.Pool.map is modelled from CPython (chunks, completion order, first failure); on failure which exception is raised may depend on the order, but not whether one is.
* Theorems: `C27_schedule` (3), `C27_result` (3)

### C28 Reported cost equals optimised cost

The analyzer's total cost, summed over time for a scenario, equals the objective value of the solution the optimizer returned for it.

* Plan: sum manipulation linking analyzer tables and the LP objective.
* Outcome: **partial**. True with at most one storage in the study, no network with an empty name, when the analyzer can be built (shown for converters with one source); false with two storages.
* Theorems: `C28_partial` (3), `init_total` (3), `C28_refuted` (3)

### C29 Remote solving returns the finished job's result

solve on a remote server polls the job until it is neither queued nor computing, then returns the decoded result, or raises if the job ended in error; it never returns early and stops at the first final answer.

* Plan: state machine over the list of server responses.
* Outcome: **proved**. Server = list of its successive answers (any).
* Theorems: `C29_requests` (3), `C29_returns` (3), `C29_completes` (3), `C29_job_error` (3), `C29_waits` (3), `C29_stops` (3)

### C30 Remote failures surface

A 404, 403 or 500 answer to the submission or to any poll raises, and no later request is made.

* Plan: same state machine.
* Outcome: **proved**.
* Theorems: `C30_submission` (3), `C30_poll` (3), `C30_no_result` (3)

### C31 Consumption table is complete and exact

The consumption table has exactly one row per (network, node, consumption, scenario, time), carrying that element's asked, given and cost at that scenario and time.

* Plan: block decomposition of the column arrays.
* Outcome: **proved**.
* Theorems: `C31` (3), `C31_unique` (3)

### C32 Production table is complete and exact

The production table has exactly one row per (network, node, production, scenario, time), carrying that element's available, used and cost.

* Plan: same.
* Outcome: **proved**.
* Theorems: `C32` (3), `C32_unique` (3)

### C33 Link table is complete and exact

The link table has exactly one row per (network, node, link, scenario, time), carrying that link's available, used and cost.

* Plan: same.
* Outcome: **proved**.
* Theorems: `C33` (3), `C33_unique` (3)

### C34 Storage table is complete and exact

The storage table has exactly one row per (network, node, storage, scenario, time), carrying that storage's level, flows, limits, cost and efficiency.

* Plan: refuted for two storages, proved for at most one (`_partial`).
* Outcome: **partial**. The row index of the storage table is never moved: with more than one storage only the last one is in the table, the other rows are uninitialised memory; exact for at most one storage.
* Theorems: `C34_partial` (3), `C34_exact` (3), `C34_iff_partial` (3), `C34_refuted` (3)

### C35 Converter output table is complete and exact

The converter destination table has exactly one row per (converter, scenario, time), carrying its flow, cost and max.

* Plan: refuted, proved when sources count equals converters count (`_partial`).
* Outcome: **partial**. The table is sized by the number of sources: with several sources per converter it has extra empty rows (without time); exact with one source each.
* Theorems: `C35_partial` (3), `C35_one_partial` (3), `C35_unique` (3), `C35_refuted` (3)

### C36 Converter intake table is complete and exact

The converter source table has exactly one row per (converter, source, scenario, time), carrying its flow, ratio and max divided by ratio.

* Plan: refuted, proved for one converter with one source, or one scenario and two sources (`_partial`).
* Outcome: **partial**. Exact with one source per converter; with two sources scenarios are mislabelled, with three the analyzer cannot be built.
* Theorems: `C36_partial` (3), `C36_exact` (3), `C36_iff_partial` (3), `C36_unique` (3), `C36_refuted` (3), `C36_raises_refuted` (3)

### C37 Queries return exactly the asked rows

A query returns one line per table row that matches every given filter, with that row's values in the columns of the table that are not used as filters, in alphabetical order, and no other line.

* Plan: relational specification of filter + pivot.
* Outcome: **partial**. Any order of the calls, any filters, for the tables that are right (see C34, C36); not covered: slices with an omitted bound (C39).
* Theorems: `C37_partial` (3), `C37_refuted` (3)

### C38 Incomplete queries are refused

A query that lacks the time, node, network or scenario dimension raises instead of returning data.

* Plan: decision logic.
* Outcome: **proved**.
* Theorems: `C38` (3), `C38_chain` (3)

### C39 Slices select the Python range

time(slice(a,b,c)) or scn(slice(a,b,c)) selects the indices of Python's range over the horizon (or scenarios), with omitted bounds meaning the beginning and the end.

* Plan: refuted; proved for fully bounded slices (`_partial`).
* Outcome: **partial**. Exact when both bounds are given; an omitted start selects nothing, an omitted stop raises TypeError.
* Theorems: `C39_partial` (3), `C39_start_refuted` (2), `C39_stop_refuted` (2)

### C40 Every complete query succeeds

A query giving network, node, time, scenario and one element kind returns data whatever single values or lists are given.

* Plan: refuted for fully specified queries; proved otherwise (`_partial`).
* Outcome: **partial**. A query that gives a single value for every dimension raises IndexError whenever there is a row; queries on converters raise KeyError in a study without converter.
* Theorems: `C40_partial` (3), `C40_refuted` (3), `C40_converter_refuted` (3)

### C41 A partial query can be reused

Continuing the same partial query twice gives two independent queries.

* Plan: heap of selector objects; refuted; proved for linear use (`_partial`).
* Outcome: **partial**. True as long as no selector object is called twice; once a selector has given a table it never gives another one (C41_again_refuted), and a second call on a shorter selector keeps the filter of the first one (C41_second).
* Theorems: `C41_partial` (3), `C41_refuted` (3), `C41_again_refuted` (3), `C41_second` (3)

### C42 Node cost is the cost of its elements

get_cost of a node gives, at each scenario and time, the sum over its elements of unserved load*cost, used*cost, level*cost, link flow*cost and incoming converter flow*cost.

* Plan: sum over matching rows.
* Outcome: **partial**. True of every node, except nodes with storages when the study has several storages (the storage table is wrong then, see C34).
* Theorems: `C42_partial` (3), `C42_default_partial` (3), `C42_refuted` (3)

### C43 Costs add up

The cost of a network is the sum of its nodes' costs and the cost of the study the sum of its networks' costs.

* Plan: sums over nodes.
* Outcome: **partial**. True with at most one storage and no network with an empty name (KeyError).
* Theorems: `C43_network_partial` (3), `C43_study_partial` (3), `C46_refuted` (3), `C42_refuted` (3)

### C44 Balances are exports minus imports and cancel out

get_balance of a node is the sum of its link exports minus the sum of its link imports, at each scenario and time, and balances of all nodes of a network sum to zero.

* Plan: double counting over links.
* Outcome: **proved**. Whenever the analyzer can be built.
* Theorems: `C44` (3), `C44_zero` (3)

### C45 Remaining available capacity

get_rac is, at each scenario and time, unused production minus unserved consumption over the network.

* Plan: sum over matching rows.
* Outcome: **proved**. Whenever the analyzer can be built.
* Theorems: `C45` (3)

### C46 Element counts

get_elements_inside counts the consumptions, productions, storages, links, converters taking from and converters giving to a node; counts of a network or study are the sums over nodes or networks.

* Plan: counting.
* Outcome: **partial**. True, except that a network with an empty name raises KeyError, and that nothing can be counted in a study that has one, wherever it stands.
* Theorems: `C46_node` (3), `C46_default` (3), `C46_network_partial` (3), `C46_study_partial` (3), `C46_refuted` (3)

### C47 A pipeline is the composition of its stages

Calling a pipeline on data gives what calling its stages one after the other gives, and fails when one of them fails or when the data lacks a required column.

* Plan: fold of stages.
* Outcome: **proved**. The result, the generator's state and the failures of a pipeline are those of the chain of its stages.
* Theorems: `C47` (2), `C47_fails` (3), `C47_stage` (2)

### C48 An accepted pipeline never lacks a column midway

If building a pipeline succeeds and the input data has the columns the pipeline requires, then no stage is refused its input while running.

* Plan: refuted; proved for pipelines of restricted plugs (`_partial`).
* Outcome: **partial**. True for pipelines built by adding stages one by one, and for constructor calls where free stages come first or last, with stages not used in a pipeline before; the constructor checks each link against the previous stage only, so it is false with a free stage in between, and false with reused stages.
* Theorems: `C48_partial` (3), `C48_add` (3), `C48_run` (2), `C48_one` (2), `C48_added` (3), `C48_library` (3), `C48_refuted` (3), `C48_reuse_refuted` (2)

### C49 Plug arithmetic

Linking plugs follows the documented rules: free+free=free, p+free=p, free+p=p, [a->x,y]+[x->z]=[a->z,y], and linking is refused exactly when a required input is missing.

* Plan: decision logic.
* Outcome: **proved**.
* Theorems: `C49` (1), `C49_refused` (2), `C49_stages` (2)

### C50 Repeating scenarios

RepeatScenario(n) on data with m scenarios gives n*m scenarios where scenario k*m+i is a copy of scenario i.

* Plan: index arithmetic on tiled columns.
* Outcome: **partial**. True when columns are grouped scenario by scenario; other frames get mislabelled columns (C50_columns says exactly which column gets which label).
* Theorems: `C50_partial` (3), `C50_columns` (3), `C50_refuted` (2)

### C51 Clipping

Clip keeps every value within its bounds, leaves values already within unchanged, and applying it twice is the same as once.

* Plan: pointwise.
* Outcome: **proved**.
* Theorems: `C51` (3), `C51_value` (3), `C51_twice` (3)

### C52 Renaming and dropping columns

Rename replaces exactly the listed column names in every scenario and Drop removes exactly the listed columns from every scenario; data of other columns is unchanged.

* Plan: pointwise.
* Outcome: **proved**.
* Theorems: `C52_rename` (3), `C52_to_shuffler` (3), `C52_drop` (2)

### C53 Faults only remove the announced loss

After Fault, every quantity is the original minus loss times the number of drawn faults covering that time step; each fault covers at most downtime_max-1 steps, and no other column appears.

* Plan: random draws as parameters; induction on faults.
* Outcome: **partial**. True for rows labelled 0, 1, ...; with other labels values are lost (NaN); with a negative downtime, a fault that should end before the first step lasts until as many steps before the end (C53_negative_refuted; C53_any_partial says exactly which steps).
* Theorems: `C53_partial` (3), `C53_passing_partial` (3), `C53_any_partial` (3), `C53_refuted` (3), `C53_negative_refuted` (3)

### C54 Scenario-wise stages treat scenarios independently

A stage defined scenario by scenario produces, for each scenario, the output computed from that scenario's columns only, restricted to its declared output columns.

* Plan: per-scenario decomposition.
* Outcome: **partial**. True when row labels are 0, 1, ... and kept by the function; with other labels values are lost or moved.
* Theorems: `C54_partial` (3), `C54_independent` (3), `C54_refuted` (2), `C54_shift_refuted` (2)

### C55 Building a pipeline does not alter its parts

Building a pipeline, or adding a stage to one, leaves the given stages and the original pipeline unchanged, so that they can be reused.

* Plan: heap of plug output lists; refuted; what is and is not altered proved (`_partial`).
* Outcome: **partial**. The theorems say exactly what is left unchanged and what is changed: the outputs of linked stages, the list of stages given to the constructor, the pipeline on the left of +.
* Theorems: `C55_partial` (3), `C55_one_partial` (3), `C55_add_partial` (3), `C55_refuted` (1), `C55_add_refuted` (2)

### C56 Running a pipeline leaves the input data intact

Calling a pipeline or stage does not change the data frame it is given.

* Plan: refuted for single-level columns; proved for standard columns (`_partial`).
* Outcome: **partial**. True for data with scenarios; plain data gets a level of column labels in place.
* Theorems: `C56_stage` (2), `C56_pipeline` (2), `C56_plain_partial` (2), `C56_refuted` (2)

### C57 Sampling draws existing scenarios

sample(nb) returns nb rows, each of them one of the rows of the data, for any sampler drawing in range.

* Plan: sampler as parameter.
* Outcome: **proved**. For any sampler in range; numpy's randint is shown to be one under the stated laws of its generator.
* Theorems: `C57` (2), `C57_any` (3), `C57_out` (2), `C57_fails` (2), `C57_randint` (2), `C57_default` (2), `C57_kept` (3), `C57_draws` (3)

### C58 Shuffling keeps timelines apart

shuffle(nb) returns for each registered name nb rows drawn from that name's own data (for a pipeline, the to_shuffler columns of its output, one row per scenario), whatever the order in which workers finish; a pipeline that does not produce to_shuffler is refused when added.

* Plan: per-name decomposition.
* Outcome: **partial**. A column with an empty name beside to_shuffler is not dropped; a pipeline whose stages were used before may be accepted though it does not produce to_shuffler; true otherwise, for any order of workers.
* Theorems: `C58_partial` (3), `C58_fails` (3), `C58_schedule` (3), `C58_added` (2), `C58_accepted` (2), `C58_rows` (2), `C58_refuted` (2), `C58_stale_refuted` (2)

### C59 Storage candles show the storage level

In the storage chart each candle opens where the previous one closed, the first opens at the initial capacity, and each closes at the level reported in the result.

* Plan: telescoping sum with C20.
* Outcome: **partial**. True for a study with one storage solved by the LP optimizer; with several storages the table of results is wrong and there may be no candles.
* Theorems: `C59_partial` (3), `C59_refuted` (3)

### C60 Node stack is balanced

In the stack chart of a node with prod_kind='used' and cons_kind='given', the top of the areas equals the top of the lines at every time step.

* Plan: consequence of C19 and analyzer tables.
* Outcome: **partial**. True for a study with at most one storage (in all) and one source per converter, solved by the LP optimizer; otherwise result tables are wrong: stacks lack bands (C60_refuted) or raise (C60_raises_refuted).
* Theorems: `C60_partial` (3), `C60_asked_partial` (3), `C60_bands_partial` (3), `C60_refuted` (3), `C60_raises_refuted` (3)

### C61 Exchange map shows net flows

In the exchange map, each pair of linked nodes is drawn with the non-negative net flow in the direction it goes, and node values are their balances, within the colour limit.

* Plan: case analysis.
* Outcome: **proved**. Coordinates of the nodes must be given.
* Theorems: `C61` (3), `C61_no_coordinates` (3)

### C62 Monotone charts

The monotone chart shows exactly the selected values, sorted from highest to lowest.

* Plan: sortedness and permutation.
* Outcome: **proved**. For any values; C64 says which values are given to the chart.
* Theorems: `C62_drawn` (3)

### C63 RAC matrix

The adequacy percentage of the RAC chart is the share of (scenario,time) cells with non-negative RAC, between 0 and 100; the colour matrix keeps the sign of every cell and stays in [-1,1].

* Plan: pointwise.
* Outcome: **partial**. True when some cells are positive and some negative; otherwise the chart raises ValueError.
* Theorems: `C63_partial` (3), `C63_refuted` (3)

### C64 Charts take a time or a scenario, not both

Every monotone or gaussian chart call with both t and scn raises ValueError; with exactly one it plots the values of that time (over scenarios) or scenario (over time).

* Plan: decision logic.
* Outcome: **partial**. False of storages when a study has several, and of intakes of converters with several sources, as their tables are wrong.
* Theorems: `C64_both` (3), `C64_neither` (3), `C64_time_partial` (3), `C64_scn_partial` (3), `C64_storage_partial` (3), `C64_refuted` (3)

### C65 Remote and local solving agree

When the server decodes the study it receives, solves it with the same solver and sends the encoded result, RemoteOptimizer.solve returns exactly what LPOptimizer.solve returns for that study.

* Plan: composition of C14, C16, C29 with the optimizer on the server side.
* Outcome: **proved**. For studies the optimizer accepts, with at least one scenario (others do not survive JSON, see C14); for Ready studies, that is studies solve_lp accepts (C70), no converter of which has two sources with the same text.
* Theorems: `C65_same` (3)

### C66 Seeded faults are reproducible

Running a Fault stage built with a seed on the same data gives the same result, whatever happened before in the process and whatever the operating system's entropy gives.

* Plan: the generator's state after seeding is a function of the seed.
* Outcome: **partial**. True for every seed but 0, which is treated as no seed.
* Theorems: `C66_partial` (3), `C66_refuted` (3)

### C67 Gaussian charts mark adequacy

In the gaussian chart of an element at a time (resp. in a scenario), every value over scenarios (resp. over time) is drawn once, green when the network has a non-negative margin (RAC) in that scenario and time, red otherwise.

* Plan: pointwise, from the tables of C31-C36 and C45.
* Outcome: **partial**. The chart of a converter in a scenario raises IndexError when there are several scenarios; true otherwise where tables are right.
* Theorems: `C67_time` (3), `C67_scn` (3), `C67_converter_partial` (3), `C67_converter_refuted` (3)

### C68 Timeline charts

The timeline of an element has exactly one curve per scenario, in order, showing the value of the element at each time step of that scenario, in order.

* Plan: grouping of the pivot table by scenario.
* Outcome: **partial**. A number that the table lacks raises KeyError; false of intakes of converters with several sources, as their table is wrong (C36).
* Theorems: `C68_partial` (3), `C68_column` (3), `C68_refuted` (3)

### C69 Stacks pile costly elements first

The bands of the productions (and of the storage outflows) in the stack chart of a node are each element of the node once, with its values, piled from the highest peak cost to the lowest.

* Plan: stable grouping of lines sorted by cost.
* Outcome: **partial**. Under the hypotheses under which the tables of results are right (at most one storage, one source per converter); the order between elements of same cost is any.
* Theorems: `C60_bands_partial` (3), `C69_refuted` (3)

### C70 What the optimizer accepts

solve_lp returns a result for a study built through the API exactly when every converter has been given a destination, wherever a ratio is zero the ratio or the maximum of the converter was given as an array and the maximum is not zero there, and no source of a converter has names that '::' makes ambiguous; otherwise it raises. (Studies with a converter having two sources with the same text network::node are not concerned.)

* Plan: an exception-free run of each loop gives an exception-free run of each step; the steps say which values they need.
* Outcome: **proved**. Two sources of one converter with the same text 'network::node' are excluded by the statement; what happens with them is C21_refuted.
* Theorems: `C70` (3), `C70_zero` (3)

### C71 There is a dispatch of least cost

For every study whose limits are not negative, the problem given to the solver has an optimal solution, so a solver that answers optimally exists and LPOptimizer with it returns a feasible dispatch of least cost in every scenario. More generally, wherever some answer respects all constraints, some answer is optimal.

* Plan: elimination of variables (Fourier-Motzkin) gives the set of values of the objective as an interval closed below.
* Outcome: **partial**. Existence of an optimal answer is proved for every accepted study (C71_solver, C71_feasible); that the answer is a feasible dispatch of the documented problem needs no link from a node to itself and at most one storage per node (C18, C20).
* Theorems: `C71_solver` (3), `C71_feasible` (3), `C71_dispatch_partial` (3), `C71_solved_partial` (3), `C71_refuted` (3)

### C72 More means never cost more

If one study differs from another only by larger capacities of productions, links, storages or converters, or by lower costs, the cost of its solution is never higher than that of the other.

* Plan: what is feasible stays feasible and costs no more.
* Outcome: **proved**. Ratios of converters must not be negative; what is said of all dispatches of the documented problem is for studies without link from a node to itself and with at most one storage per node, what is said of solutions is for any; for Ready studies, that is studies solve_lp accepts (C70), no converter of which has two sources with the same text.
* Theorems: `C72` (3), `C72_feasible` (3)

### C73 Units do not matter

Multiplying all costs of a study by x > 0 and all quantities by y > 0 multiplies its least cost by x y, and its least cost dispatches by y.

* Plan: scaling is a bijection of dispatches.
* Outcome: **proved**. Ratios of converters must not be negative; what is said of all dispatches of the documented problem is for studies without link from a node to itself and with at most one storage per node, what is said of solutions is for any; for Ready studies, that is studies solve_lp accepts (C70), no converter of which has two sources with the same text.
* Theorems: `C73` (3), `C73_flows` (3)

### C74 Independent parts are optimized independently

The solution costs the least in each part of the study that shares no link, storage or converter with the rest: what the part costs does not depend on the data of the rest. In particular, without storages each time step costs the least it can, and without converters so does each network.

* Plan: a dispatch of the part and a dispatch of the rest make a dispatch; costs add up.
* Outcome: **proved**. By time step and by network (C74_time, C74_network): for studies without link from a node to itself, compared with the dispatches of the documented problem; for Ready studies, that is studies solve_lp accepts (C70), no converter of which has two sources with the same text.
* Theorems: `C74` (3), `C74_equal` (3), `C74_time` (3), `C74_network` (3)

### C75 Least cost dispatches have prices

In a study without link from a node to itself, the solution comes with prices of energy at each node and time step (and values of stored and converted energy) at which no production, cut consumption, link, storage or converter would rather run at another level: what costs less than the price runs fully, what costs more does not run. Conversely a feasible dispatch that has such prices costs the least.

* Plan: lemma of Farkas by elimination of variables gives multipliers of the rows of the solver's problem; summation by parts over nodes and time turns them into prices; conversely weak duality.
* Outcome: **proved**. The equivalence (C75_iff) is stated for studies with at most one storage per node, as the solution is not feasible for the documented problem otherwise (C20); for Ready studies, that is studies solve_lp accepts (C70), no converter of which has two sources with the same text.
* Theorems: `C75` (3), `C75_certificate` (3), `C75_iff` (3)

### C76 No cheaper way is left unused

In the solution of a study without link from a node to itself, energy that would save v at a node (by lowering a production or serving a cut consumption) cannot be had for less elsewhere: neither produced at another node and carried along links with room (or by relieving opposite links), nor produced earlier and kept in a storage with room, nor obtained from a converter with room. No circulation of energy saves money.

* Plan: prices along the path, by induction on the path or on the duration.
* Outcome: **proved**. For Ready studies, that is studies solve_lp accepts (C70), no converter of which has two sources with the same text.
* Theorems: `C76` (3), `C76_loops` (3), `C76_storage` (3), `C76_converter` (3)

### C77 The order of declarations does not matter

Two studies with the same nodes, elements, converters and sources, declared in different orders, are both accepted or both refused by the optimizer and have solutions of the same cost.

* Plan: a dispatch is carried from one order to the other by the position of each element; sums over permuted lists are equal.
* Outcome: **partial**. False of the code when a node has several storages, as only the first one declared is constrained (C20): C77_refuted has two orders that cost 0 and 1000. True when each node has the same storage first; the documented problem does not depend on the order (C77_dispatch).
* Theorems: `C77_partial` (3), `C77_one_storage_partial` (3), `C77_accepted` (3), `C77_dispatch` (3), `C77_refuted` (3)

### C78 A solved study has no dangling link or converter

When solve_lp returns a result, every link goes to a node of its own network, every converter has a destination that is a node of the study, and every source of a converter is a pair (network, node) of the study. This holds of any study object, also one read from JSON or edited by hand; otherwise solve_lp raises.

* Plan: the adequacy constraints are those of nodes (invariant of the loops), and setting a coefficient needs one.
* Outcome: **proved**.
* Theorems: `C78` (3)

### C79 Which studies the analyzer accepts

Given a study whose converters all have a destination and at least one source, and its result, ResultAnalyzer(study, result) succeeds exactly when every converter but the last declared has one source and the last has at most two; otherwise it raises. A solved study can thus be impossible to analyse.

* Plan: the slice of the second source of a converter has two blocks unless the table ends; invariant on the position and the size of the table.
* Outcome: **proved**. Each converter has at least one source; some versions of pandas accept arrays of one value in larger slices, hence more than one pair (scenario, time step).
* Theorems: `C79` (3)

### C80 Energy accounts of the whole study

In the result of solve_lp, at each time step, all that consumptions get, storages take in and converters use equals all that productions give, storages give out and converters give: links neither make nor lose energy. Over the study, what is served, used by converters, lost by storages and left in them equals what is produced, given by converters and stored at first. If storages and converters do not make energy, no more is served than what is produced and stored at first.

* Plan: sum the balances of all nodes: each link appears once at each end; telescope the levels of storages; ratios give what converters use.
* Outcome: **partial**. False of the code with a link from a node to itself (C80_refuted) and with two storages at a node (C80_storage_refuted), which make energy from nothing; so does a converter without source (C80_free_energy).
* Theorems: `C80_self_partial` (3), `C80_step_partial` (3), `C80_total_partial` (3), `C80_bound_partial` (3), `C80_refuted` (3), `C80_storage_refuted` (3), `C80_free_energy` (3)

### C81 Prices explain the cost and say what more load costs

The optimal result comes with prices of energy such that the cost is what consumptions pay at these prices (or the cost of cutting them, if less), less what productions, links, storages, converters and initial levels earn at them. Conversely a dispatch that costs what the study is worth at some prices is one at which nobody would rather do something else. If only the loads of the study change, the new least cost is at least the old one plus the change of load counted at the price (or the cost of cutting, if less). (Where a converter has a ratio of zero the new prices of its source must not be negative.)

* Plan: rows plus reduced costs (C75): the rows are constant on feasible dispatches, each reduced cost is bounded below by its worth, with equality at equilibrium.
* Outcome: **proved**. For Ready studies, that is studies solve_lp accepts (C70), no converter of which has two sources with the same text.
* Theorems: `C81_lower` (3), `C81_equal` (3), `C81_worth` (3), `C81_loads` (3), `C81_iff` (3)

### C82 Equality of studies and results is equality of data

For two studies made through the fluent API (or two results): `a == b` always answers, and is True exactly when both hold the same networks, nodes, elements, converters, series, horizon and number of scenarios (networks, nodes and converters in any order). In particular a study equals what from_json reads from its to_json, and `a == a`. Equal objects have the same hash when they have one. (The code only answers when no two different arrays of several numbers meet; otherwise it raises ValueError.)

* Plan: Python objects as trees with identities; soundness, completeness and totality of `==` by mutual induction; sharing by a memory that gives one content to each identity; hash by permutation invariance of sorting on distinct names; existence of two disjoint copies of any study by allocating identities in ranges
* Outcome: **partial**. Answers of == are right whenever there is one, and when there is one is characterised for objects that share nothing. Refuted: == raises ValueError on a study with an array series and its copy, and on any result with more than one cell and its copy.
* Theorems: `C82_true_partial` (3), `C82_false_partial` (3), `C82_raises` (1), `C82_self` (2), `C82_numbers_partial` (3), `C82_copy_partial` (3), `C82_json_partial` (3), `C82_result_true_partial` (3), `C82_result_false_partial` (3), `C82_result_copy_partial` (3), `C82_hash` (3), `C82_unhashable` (3), `C82_hashable` (3), `C82_refuted` (3), `C82_result_refuted` (3)

### C83 Adding means never costs more

After further calls of the fluent API (more nodes, productions, links, storages, converters, loads), the least cost is at most the old one plus the cost of cutting all added loads and of leaving the added storages as they start. So adding productions, links, converters and empty storages never makes a study cost more. (No converter that was there may be given a further source: then the cost may rise, since a converter needs all its sources.)

* Plan: extend the old dispatch by idle new elements; sums over a list extended at the end; show it feasible in the new study; the new optimum is below.
* Outcome: **proved**. Limits of what is added must not be negative, and storages added must be able to hold what they start with; what is said of all dispatches of the documented problem is for studies without link from a node to itself and with at most one storage per node, what is said of solutions is for any; for Ready studies, that is studies solve_lp accepts (C70), no converter of which has two sources with the same text.
* Theorems: `C83` (3), `C83_means` (3), `C83_feasible` (3), `C83_source` (3)

### C84 Elements that can do nothing change nothing

Adding, by further API calls, elements whose limits are all zero (loads of 0, productions and links of quantity 0, storages of flows and level 0, converters of max 0) leaves the least cost exactly as it was.

* Plan: both ways: extend a dispatch by zeros, restrict a dispatch to the old elements, whose balance the idle elements do not touch.
* Outcome: **proved**. For Ready studies, that is studies solve_lp accepts (C70), no converter of which has two sources with the same text.
* Theorems: `C84` (3)

### C85 Mixtures of studies

If the loads and initial levels of a study are x times those of a first study (or scenario) plus y times those of a second one, its limits are that or more, and the three have the same elements, costs, ratios and efficiencies, then its least cost is at most x times the cost of the first plus y times that of the second. If the costs are mixed instead, all else being the same, its cost is at least that.

* Plan: mix the dispatches: limits, balances, storages and ratios are linear; the cost of the mixture is the mixture of costs.
* Outcome: **proved**. What is said of all dispatches of the documented problem is for studies without link from a node to itself and with at most one storage per node, what is said of solutions is for any; for Ready studies, that is studies solve_lp accepts (C70), no converter of which has two sources with the same text.
* Theorems: `C85` (3), `C85_costs` (3), `C85_feasible` (3)

### C86 The mean scenario never costs more than the mean of the costs

For a study with several scenarios whose costs, ratios, efficiencies and initial levels do not depend on the scenario, the study of the mean scenario (any weights) has a least cost at most the mean of the costs of the scenarios.

* Plan: the mean of the dispatches is feasible for the mean scenario; sums over scenarios commute with all sums of the problem.
* Outcome: **proved**. What is said of all dispatches of the documented problem is for studies without link from a node to itself and with at most one storage per node, what is said of solutions is for any; for Ready studies, that is studies solve_lp accepts (C70), no converter of which has two sources with the same text.
* Theorems: `C86` (3), `C86_feasible` (3)

### C87 Names do not matter

Give other names to the networks, nodes, converters and elements of a study, distinct names staying distinct: every call of the fluent API returns or raises what it did, the study built is the same under the new names, its dispatches are the same under the new names at the same cost, and solve_lp finds the same least cost. The empty name must stay the empty name: a converter going to a node called '' can be sent elsewhere.

* Plan: logical relation between the two worlds, call by call; then a bijection between the dispatches of the two problems.
* Outcome: **proved**. For Ready studies, that is studies solve_lp accepts (C70), no converter of which has two sources with the same text.
* Theorems: `C87` (3), `C87_call` (2), `C87_build` (2), `C87_ready` (3), `C87_dispatch` (3), `C87_onto` (3), `C87_empty` (2)

### C88 Part of the time steps of a study

Take some consecutive time steps of a study as a study of their own, whose storages start at the levels that a solution of the whole has reached. Solving it costs no more than these steps cost in that solution; when they are the last steps and the solution of the whole is optimal, it costs exactly the same. Conversely the first steps solved alone, then the next ones from the levels reached, never cost less than the whole, and exactly the same when there is no storage. With a storage they can cost more (10 + 130 in place of 50) though each part is solved at its least cost. When no cost is negative a study never costs less than its first steps alone.

* Plan: dispatches are read one step at a time; a window of a feasible dispatch, and two dispatches put one after the other, are feasible.
* Outcome: **proved**. For Ready studies, that is studies solve_lp accepts (C70), no converter of which has two sources with the same text.
* Theorems: `C88` (3), `C88_window` (3), `C88_rolling` (3), `C88_apart` (3), `C88_shorter` (3), `C88_myopic` (3)

### C89 What a JSON file says

The files that can be read have a grammar: which keys each object must have, may have and must not have, and what each of them holds. Reading a plain JSON file gives a study exactly when the file says that study. A key that hadar does not know inside a network, a node, an element or a converter makes the reading fail, at the top of the file it does not count; a consumption or production without name gets the default name, a false version gets the version of the library; quantities may be bare numbers or lists, or the objects that hadar writes. A file says at most one study. Any study that was read, whoever wrote the file, is written to a file that is read as that study. The same holds of results.

* Plan: one lemma per decoder: it succeeds with a value exactly when the object says that value; lists and dicts by induction.
* Outcome: **proved**.
* Theorems: `C89` (3), `C89_result` (3), `C89_one` (3), `C89_one_result` (3), `C89_again` (3), `C89_again_result` (3), `C89_extra` (3), `C89_unknown` (3), `C89_plain` (3)

### C90 Elements that cost the same can be put together

Take a study, and in each of its nodes put consumptions that cost the same at all time steps in groups, and productions likewise; build the study that has one consumption or production per group, with the sum of the quantities. Both studies have the same least cost, whatever the groups. The flows of any dispatch of the first study, added up by group, are a dispatch of the second study at the same cost, and those of a least cost dispatch are a least cost dispatch.

* Plan: sums over groups; a dispatch of the grouped study is shared out in proportion of the quantities.
* Outcome: **proved**. Optimal answers of the solver are a hypothesis (the LP solver is not modelled); what is said of all dispatches of the documented problem is for studies without link from a node to itself and with at most one storage per node; for Ready studies, that is studies solve_lp accepts (C70), no converter of which has two sources with the same text.
* Theorems: `C90` (3), `C90_flows` (3), `C90_least` (3)

### C91 Bounds on the cost and on the loss of load

When no cost is negative, a study never costs less than zero, and never less than the cost of its loss of load: where losing a unit costs at least v, the load lost is at most the cost of the study divided by v; a study that costs nothing serves all of its loads. When limits are not negative and storages can hold their initial level, a study solved at its least cost never costs more than losing all loads while storages keep their initial level.

* Plan: sum of nonnegative terms for the lower bounds, the idle dispatch is feasible for the upper bound.
* Outcome: **proved**. Feasible or optimal answers of the solver are hypotheses (the LP solver is not modelled); for Ready studies, that is studies solve_lp accepts (C70), no converter of which has two sources with the same text.
* Theorems: `C91_nonneg` (3), `C91_idle` (3), `C91_loss` (3), `C91_adequate` (3)

### C92 Comparing a series with a number

Comparing a quantity of a study with a number says so of all of its values: q < x when every value, at every time step of every scenario, is below x, and likewise for q > x, q <= x and q >= x.

* Plan: what each operator answers in terms of the values that the argument means (C01).
* Outcome: **partial**. True of < and >, and of all four on numbers; <= and >= are defined as the negation of > and <, so on series they only say so of some value: the series 1, 9 is both <= 5 and >= 5.
* Theorems: `C92_partial` (3), `C92_number_partial` (3), `C92_refuted` (3)

### C93 Storages do not fill and empty at the same time

In the answer of the optimizer, a storage that loses energy never takes in and gives back energy at the same time step, and for a storage that loses nothing, taking what goes in and out at once off both flows gives a dispatch with the same cost.

* Plan: prices of a least cost dispatch (C75) for the first part, a change of the dispatch for the second one.
* Outcome: **partial**. True where one more unit of energy would save a cost; false elsewhere: a full storage with a cost per unit held, in a node that needs nothing, fills and empties at once to lose what it holds, whatever the optimal solver; optimal answers of the solver are a hypothesis (the LP solver is not modelled).
* Theorems: `C93_partial` (3), `C93_lossless` (3), `C93_refuted` (3)

### C94 Gaussian charts draw the normal law

The gaussian chart of an element at a time (resp. in a scenario) draws every value over scenarios (resp. over time) as a point on the density of the normal law that has the mean and the variance of these values, and draws this density from 0 to 1.2 times the highest value.

* Plan: the formula of the code over real numbers against the density of Mathlib (gaussianPDFReal).
* Outcome: **partial**. The points and the curve are on the density multiplied by a factor between 1.41421 and 1.41422: the constant of the code is the square root of pi in place of 2 pi; when all values are the same every ordinate is NaN, so that nothing is drawn; roundings of floats are left out.
* Theorems: `C94_time_partial` (3), `C94_scn_partial` (3), `C94_converter_partial` (3), `C94_refuted` (3), `C94_flat_refuted` (3)

### C95 Arrows of the exchange map point where energy goes

On the exchange map every node is drawn at its coordinates with its balance, and each pair of linked nodes has an arrow from the coordinates of the node that the net flow leaves to those of the node it reaches: the tip of its head lies on the segment at nine tenths of the way, its base is across the segment, centred on it, behind the tip. Its text is the net flow and its colour grows with it. The map is centred on the mean of the coordinates of the nodes, and its zoom is the inverse of the size, up to a constant.

* Plan: C61 for the flows, plane geometry for the arrows.
* Outcome: **proved**. A size of 0 raises; colours are the places given to the colour map.
* Theorems: `C95` (3), `C95_size` (3)

### C96 Time axis

Charts over time have one abscissa per time step: 0, 1, 2, ... without dates, evenly spaced dates from time_start to time_end, both included, with two dates; giving only one of them raises ValueError.

* Plan: arithmetic on the axis built from the horizon and the dates.
* Outcome: **proved**. Dates are numbers; pd.date_range is taken to give evenly spaced dates (it rounds to nanoseconds).
* Theorems: `C96` (3)

### C97 Loss of load is the greatest deficit of a region

Whatever the solver answers within the limits of a study, each set of nodes loses at least what its consumptions ask for less all that its productions and storages can give, all that links from outside can bring and all that converters can give to its nodes (its deficit). In a study without storage or converter, where losing load costs more than producing and carrying energy through all the nodes, an optimal answer loses at every time exactly the greatest deficit of a set of nodes: no load is lost if and only if no set of nodes has a deficit, and no dispatch within the limits loses less. So a study that has the same elements with no less means and no more needs never loses more, and a study that differs in costs only, losing load being still the worst, loses the same.

* Plan: the balance of the nodes of a region (C19) gives the bound; the prices of an optimal answer (C75) have a gap under the price of a node that loses load, and the nodes above that gap are the region.
* Outcome: **proved**. The bound holds for storages, converters and any answer within the limits; the equality needs an optimal answer, no storage and no converter, and costs of links that are not negative; for Ready studies, that is studies solve_lp accepts (C70), no converter of which has two sources with the same text.
* Theorems: `C97_bound` (3), `C97` (3), `C97_adequate` (3), `C97_least` (3), `C97_more` (3), `C97_costs` (3)

### C98 Optimal results differ at the margin only

Two optimal results of the same study, from any two solvers or runs, have the same prices, and may only differ on elements that break even with these prices: where some production that costs c runs without running fully, or some consumption that costs c is cut without being cut fully, every production and every consumption of the node whose cost is not c has the same quantity in all optimal results, and so has a link to a node where energy is worth something else than c and the cost of the link.

* Plan: complementary slackness: prices of one answer (C75) are prices of every dispatch of the same cost.
* Outcome: **proved**. Optimal answers of the solvers are hypotheses (the LP solver is not modelled); for Ready studies, that is studies solve_lp accepts (C70), no converter of which has two sources with the same text.
* Theorems: `C98` (3), `C98_worth` (3)

### C99 Series given by the shuffler fit a study

After any registrations, the rows that shuffle(nb_scn) gives for a name, when what was last registered under that name has as many values in each row as the horizon of the study and no NaN, are accepted as a quantity or a cost by a study with nb_scn scenarios, and refused by a study with another number of scenarios or, unless rows have one value, another horizon. A production or a consumption added with them has, in each scenario and over the whole horizon, one same row of what was registered under that name.

* Plan: C58 gives rows of the registered data; C01, C03 and C09 say what the study stores.
* Outcome: **partial**. Same gap as C58: pipelines whose result has a column with an empty name as only column to drop, for which the claim is false (C99_refuted).
* Theorems: `C99_partial` (3), `C99_array` (2), `C99_fits` (3), `C99_rows` (3), `C99_production` (3), `C99_consumption` (3), `C99_refuted` (3)

### C100 Data given to the API is not changed afterwards

A quantity or cost given to the API keeps, in the study, the values that it had when it was given and checked, whatever the caller does afterwards with the objects they gave.

* Plan: model of objects: arrays of the caller in a memory, stored values that own or share; invariant over the operations.
* Outcome: **partial**. False for numpy arrays, which are kept by reference (C100_refuted); C100_shared says exactly what is read then; proved for numbers, lists, decoded JSON, DataFrames and Series.
* Theorems: `C100_partial` (1), `C100_create` (2), `C100_shared` (3), `C100_refuted` (3)

### C101 Results of a solver that breaks limits and constraints a little

Solvers work up to a tolerance. When the solver breaks no bound and no constraint by more than e, in a study without link from a node to itself and with at most one storage per node, every flow and level of the result is within its limits, every node is balanced, every storage follows its flows at each step and every converter its ratios, give or take e. Errors on the level of a storage add up over time, one e per step and no more. The result costs at least the least cost less e times what one unit of error is worth at the prices of an exact result; if the solver besides is within a gap of the best objective, it costs at most the least cost plus the gap.

* Plan: value of the rows of C14 to C19 with a slack; duality of C75 and C81 with slacks priced.
* Outcome: **proved**. For Ready studies, that is studies solve_lp accepts (C70), no converter of which has two sources with the same text.
* Theorems: `C101_near` (3), `C101_level` (3), `C101_lower` (3), `C101_cost` (3), `C101_gap` (3), `C101_exact` (3)

### C102 What a program says is what its result shows

A call of the fluent API that is accepted, anywhere in a program and whatever calls come before and after, accepted or refused, shows in the result of solve: at the node for which the selector stood when the call was made there is exactly one element of the name given. Each consumption, production, link, storage and converter stays, at each step of each scenario, between zero and the number which the call gave for that step, and is charged at the cost which the call gave; a storage follows its flows from init_capacity with the efficiency eff; what a converter takes at a source times the ratio of the call is what it gives. Parameters left out count as documented: cost 0, init_capacity 0, eff 0.99, ratio 1.

* Plan: what a call stores (C09), what is kept (C09_kept, C13), limits and laws of solved studies (C18, C20, C21), read in the result.
* Outcome: **partial**. Missing: evolution of storages other than the first of a node (C20_refuted) and converters to a network or node with an empty name (C13_refuted), of which it is false; sources of converters whose texts are confused (C21_refuted).
* Theorems: `C102_consumption` (3), `C102_production` (3), `C102_link` (3), `C102_storage_partial` (3), `C102_to_converter` (3), `C102_converter_partial` (3), `C20_refuted` (3), `C13_refuted` (2)

### C103 Types of numbers do not matter

A study that was accepted and a result can be sent as JSON, and the study can be solved, whatever the types of its numbers (Python int and float, numpy arrays of any type). What arrives, and the result of solve, are the same for all types.

* Plan: Python objects as trees with typed numbers; `JSON.convert`, `JSONLP.to_json`, what json and msgpack take, and the readers of lp/domain.py function by function; induction over lists and dicts, then the shape of the time steps made by `_solve_batch`.
* Outcome: **partial**. Missing: numbers of other types than int, float, int64 and float64, of which it is false (C103_refuted, C103_json_refuted); C103_exact says which studies are concerned.
* Theorems: `C103_json` (3), `C103_result` (3), `C103_known_partial` (3), `C103_exact` (3), `C103_refuted` (3), `C103_json_refuted` (3)

### C104 The merit order as a formula

In a result, at any node and time, the productions that cost c together produce what the consumptions that cost more ask for, less what the node receives from its storages, links and converters and less what cheaper productions can produce, or the nearest bound of what they can do. The consumptions that cost c together are given what cheaper productions can produce, plus what the node receives, less what consumptions that cost more ask for, or the nearest bound. A node without storage, link and converter receives nothing: its result follows from its own data, whatever the solver.

* Plan: Two more exchange arguments (a production against a served consumption, two consumptions), then sums split by cost.
* Outcome: **proved**. Optimal answers of the solver are hypotheses (the LP solver is not modelled); for Ready studies, that is studies solve_lp accepts (C70), no converter of which has two sources with the same text.
* Theorems: `C104_productions` (3), `C104_consumptions` (3), `C104_production` (3), `C104_consumption` (3), `C104_isolated` (3)

### C105 Titles tell charts apart

The title of a chart tells what it shows: two charts of one result with the same title are of the same sort and show the same values of the same element of the same node, at the same time step or in the same scenario. The matrix of margins announces the share of margins that are not negative, in percents cut to an integer.

* Plan: Titles are read back word by word; decimal writing is injective.
* Outcome: **partial**. The title tells neither the network, nor the column of monotone and gaussian charts, nor the scenario of stacks, and names with blanks can be taken for others; it tells the rest (proved for names without blanks).
* Theorems: `C105_partial` (3), `C105_same` (3), `C105_matrix` (3), `C105_refuted` (3), `C105_blank_refuted` (3)

### C106 Shuffled timelines are drawn independently and anew

With the default sampler, shuffle gives each timeline scenarios of its own, drawn apart from those of the other timelines and from those of former calls.

* Plan: Model of chunks that carry a copy of the generator of the caller; the state each timeline draws from is given exactly, by induction on the chunk.
* Outcome: **partial**. The default sampler is a method bound to numpy's generator, and is pickled with its state in each chunk: timelines with as many rows, in different chunks, are drawn at the same indexes, and the next call draws the same again. What each timeline draws from is given exactly. The behaviour of pickle and multiprocessing is part of the trusted base.
* Theorems: `C106_partial` (3), `C106_alone` (1), `C106_together_refuted` (3), `C106_again_refuted` (3)

### C107 Bars of storage charts

In the chart of a storage there is one bar for each time step, at its time. It opens at the level before the time step and closes at the level after it, lies between its low and its high, and its text says both levels and their difference, which agree.

* Plan: From the levels (C59) to the bars given to plotly; an independent notion of whole part for the texts.
* Outcome: **partial**. Places, opens, closes and texts are right for a study with one storage; high is the open and low the close, so that high is below low exactly when the level rises; the text cuts decimals, so that the flow it says can differ by one from the difference of the levels it says.
* Theorems: `C107_partial` (3), `C107_text` (3), `C107_refuted` (3), `C107_text_refuted` (3)

### C108 Colours of the exchange map

On the exchange map an arrow and the scale of nodes are given the colours of the colour map: red, green and blue from 0 to 255.

* Plan: The colour map is a parameter with values in [0, 1]; the colour written is compared with 255 times that of the map.
* Outcome: **partial**. True of the scale of nodes; false of arrows: the numbers of the colour map, between 0 and 1, are written in rgb() without the factor 255, so that every arrow is black whatever the flow and the map.
* Theorems: `C108_scale_partial` (3), `C108_one_partial` (3), `C108_refuted` (2), `C108_arrow_refuted` (3)

### C109 What is charged more is done less

Charging x more for each unit of weight of what elements do (unmet load, production, level kept, link flow, converter flow), for instance a price on emissions, never makes the weight of what the optimal solution does grow; the least cost grows by at most what the former solution would be charged and by at least what the new one is charged. In particular when the cost of one element is raised at one time step, it does not do more there.

* Plan: Both programs have the same feasible dispatches (the rows do not read costs); the cost of a dispatch in the charged study is its former cost plus x times its weight; each solution is the better one at its own costs.
* Outcome: **proved**. For Ready studies, that is studies solve_lp accepts (C70), no converter of which has two sources with the same text.
* Theorems: `C109` (3), `C109_costs` (3), `C109_one` (3), `C109_step` (3)

### C110 Texts of objects tell their data

str() and repr() of a study or of a result write the class and the attributes in alphabetical order, down to each element and series. Two of them have the same text exactly when they have the same data.

* Plan: A separate printer for each class in Spec/Text, shown to agree with the generic one; each text is then read back from its start.
* Outcome: **partial**. Proved: the form of texts; studies and results with the same text have the same data when names have no comma and no closing parenthesis. False: no copy of a study has the text of the study (the factory is written with its address), and a name can make one consumption look like two.
* Theorems: `C110_study` (3), `C110_result` (3), `C110_repr` (3), `C110_partial` (3), `C110_result_partial` (3), `C110_factory` (3), `C110_copy` (3), `C110_refuted` (3), `C110_names_refuted` (3)

### C111 The order of the calls of a query is free

After analyzer.network(..), the calls node, time, scn and one kind of element can be made in any order: the query raises in all orders or in none, and the tables show the same lines with the same values. The order of the calls is the order of the levels and of the sort; leading levels with one value are left out. The order of the values given to one call does not matter.

* Plan: The groups of a pivot table do not depend on the order of the key; the removal of levels is followed level by level.
* Outcome: **proved**.
* Theorems: `C111` (3), `C111_values` (3)

### C112 Measured times

The benchmark of a result gives for each scenario, in order, the time to build the problem and the time in the solver, then the time to write the result and the total. The times are non-negative and fit in the total. Measuring changes nothing else in the result.

* Plan: What clocks read is a parameter of the model; the loop of solve_lp is shown to write the same result as without times.
* Outcome: **partial**. Proved: one time per scenario in order, non-negative, bounded by the total up to the time between the last two readings; measuring changes nothing. False: the list solver also counts the time to build; the mapper may take more than the total.
* Theorems: `C112_same` (3), `C112_measures` (3), `C112_partial` (3), `C112_refuted` (3), `C112_total_refuted` (3)

### C113 A link is a converter of ratio one

Replacing a link of a study by a converter that takes from the node of the link, at ratio one, and gives to the node the link goes to, with the quantity of the link as maximum and its cost, does not change the least cost, and what goes through one can go through the other.

* Plan: Dispatches of the two studies are related through what goes through the link or the converter; balances, limits and costs are carried over both ways.
* Outcome: **partial**. Proved for links between different nodes, and for every link in the documented problem. False for a link from a node to itself: the code lets it make energy, the converter does not.
* Theorems: `C113_partial` (3), `C113_feasible` (3), `C113_refuted` (3)

### C114 Networks only say which nodes can be linked

Putting the nodes of a study in other networks, under other names, such that nodes that are linked stay in one network and links and converters follow the nodes, changes neither the dispatches nor the least cost. One network can so be cut in several, and several put together.

* Plan: Dispatches are read at the other places; sums over the nodes of the two studies are matched by the place of nodes, which is one to one.
* Outcome: **proved**. For Ready studies, that is studies solve_lp accepts (C70), no converter of which has two sources with the same text.
* Theorems: `C114` (3), `C114_dispatch` (3), `C114_onto` (3), `C114_ready` (3)

### C115 Bands, lines and curves can be told apart

In the stack chart of a node, each element that brings energy has one band with its name and each element that takes energy has one line with its name; a band import or a line export is added exactly when there is something to show; names and colours tell them apart. The curves of a timeline are named after their scenarios, no two alike, and none is invisible.

* Plan: The names of traces are those of the entries piled up (C60); colours come back every ten lines; scenario numbers are written one to one.
* Outcome: **partial**. Proved where C60 and C68 are, with names that differ within each side of the node and at most ten lines. False otherwise: a production can be called import, and the eleventh line has the colour of the first.
* Theorems: `C115_partial` (3), `C115_names` (3), `C115_colours` (3), `C115_timeline_partial` (3), `C115_refuted` (3), `C115_colours_refuted` (3)

### C116 Faults occur as often as announced

With a Fault stage, each timestamp has the probability occur_freq that a fault begins there, each fault lasts on average the mean of the durations allowed, and the quantity lost at a timestamp is on average loss times occur_freq times that mean.

* Plan: Weigh each list of faults by its chance; the mean number of faults of a sort and the chance of none follow from the binomial theorem; fair draws exist for all parameters.
* Outcome: **partial**. Proved for rows labelled 0, 1, 2, ..., no seed and durations that are not negative: the mean loss is loss x frequency x mean number of steps back within a duration, which is the mean duration except at the first steps; the chance that a step is spared is (1 - f x that number / h)^h. False: with faults of one step and two steps or more, a step is hit less often than occur_freq, for beginnings are drawn with replacement.
* Theorems: `C116_mean_partial` (3), `C116_spared_partial` (3), `C116_steady` (3), `C116_early` (3), `C116_possible` (3), `C116_refuted` (3)

### C117 Sampled scenarios represent the data

With the default sampler, shuffle draws scenarios such that any number read off a scenario has, on average, the average it has over the scenarios of the data; the average over the scenarios drawn is the nearer to that of the data the more are drawn; and what is drawn for one timeline says nothing of what is drawn for another.

* Plan: Each list of indexes has the same weight; means, mean squares and the chance of being far are sums over lists of indexes, by induction on their length.
* Outcome: **partial**. Proved for raw timelines that come first in a chunk (all of them up to four per process): mean of each scenario and of the average, mean square of the distance divided by the number drawn, and how many scenarios are enough. False: two timelines with as many scenarios are drawn at the same indexes, so they go together as in the data (C117_together, C117_refuted).
* Theorems: `C117_partial` (3), `C117_enough_partial` (3), `C117_together` (3), `C117_refuted` (3)

### C118 The same program with other data

Running the same calls with other data behaves the same as far as the data agree: if a scenario of one study and a scenario of another are given the same values by the same calls, the same calls are accepted or refused, and the two scenarios have the same optimal cost and, with the same solver, the same flows; if the values are only ordered, so are the two studies: larger capacities or lower costs given to the same calls never make the study cost more, and multiplying all costs by x and all quantities by y multiplies its least cost by x y.

* Plan: A relation between the two studies is kept by each call (relational invariant over the program), and passed to the linear program of the scenario.
* Outcome: **proved**. Calls of all sixteen kinds; both data must be accepted or refused alike by the checks of the builder (negative quantities, efficiencies), which hold of data with the same values; for Ready studies, that is studies solve_lp accepts (C70), no converter of which has two sources with the same text.
* Theorems: `C118_outcomes` (3), `C118_compared` (3), `C118_scenario` (3), `C118_flows` (3), `C118_cost` (3), `C118_easier` (3), `C118_units` (3)

### C119 Costs estimated on sampled scenarios

A study built with data drawn by the shuffler estimates the costs of the study built with all the data: the mean cost over the scenarios drawn is, on average, the mean cost over the scenarios of the data, its mean square error is the spread of the costs divided by the number drawn, so with enough scenarios it is within any distance but for a chance as small as wanted; the same holds of the energy not served when the same solver is used.

* Plan: Each scenario drawn is a scenario of the data (C106, C117), so has its cost (C118); then means over lists of indexes.
* Outcome: **proved**. Timelines of the program come first in a chunk (all of them up to four per process, see C106 and C117) and have as many scenarios as each other; since they are drawn at the same indexes, they stay together as in the data, which is what makes the estimate right; for Ready studies, that is studies solve_lp accepts (C70), no converter of which has two sources with the same text.
* Theorems: `C119` (3), `C119_enough` (3), `C119_unserved` (3), `C119_unserved_enough` (3), `C119_shuffle` (3)

### C120 Stages that can be swapped or merged

A stage that clips can be put before or after one that renames, drops or repeats, with the same outcome on all data, errors included. Two stages that clip are one that clips to the higher of the lower bounds and the lower of the upper bounds, when some value is within all bounds. Two stages that drop are one that drops all the columns, and raise if they share a column. Two stages that rename are one that renames from the first names to the last, and renaming back gives the data back. Repeating m times then n times is repeating m*n times, and a stage that renames can be put before or after one that repeats, unless two columns get the same name.

* Plan: These stages draw nothing, so each is a function of the labelled frame; compare the compositions.
* Outcome: **proved**. The second number of repetitions is at least one; dictionaries of names have no key twice, as Python's.
* Theorems: `C120_clip_rename` (2), `C120_clip_drop` (2), `C120_clip_repeat` (2), `C120_clips` (3), `C120_drops` (2), `C120_drop_again` (2), `C120_renames` (3), `C120_back` (3), `C120_repeats` (3), `C120_rename_repeat` (3)

### C121 What an investment is worth

When further calls add elements to a study, the cost saved by the optimal dispatch lies between two bounds given by prices: at most what the added elements, taken alone, would earn at the prices of the study before, and at least what they earn at the prices after. For one added production: at most, over time steps, its quantity times what the price before exceeds its cost by, and at least what it is asked to produce times what the price after exceeds its cost by; for one added link, the same with the difference of prices between its ends.

* Plan: The worth of a study at prices (C81) is the worth of the study before plus the worth of what is added; weak duality for each study at the prices of the other.
* Outcome: **proved**. For Ready studies, that is studies solve_lp accepts (C70), without self-link and with at most one storage per node; prices not negative where an added converter takes energy at ratio zero (its drain is unlimited).
* Theorems: `C121_most` (3), `C121_least` (3), `C121_production` (3), `C121_link` (3)

### C122 What the answer of a worker says

The messages that worker processes send back have a grammar: which keys each object must have, may have (a consumption, production or link without cost costs nothing, a storage without cost, first level or efficiency has 0, 0 and 0.99) and must not have. A message is read as values of variables exactly when it says them, and says one thing at most; what a worker sends for a study is such a message and says the values the solver gave.

* Plan: As C89: each reader succeeds exactly on what the grammar says, element by element.
* Outcome: **proved**. Values that Python would store without looking at them (a text where a number is expected) are taken to be refused.
* Theorems: `C122` (3), `C122_one` (3), `C122_sent` (3)

### C123 Energy takes the cheapest ways

In an optimal result energy does not go from a node to another by links that cost more, all together, than other links that all have room left. It does not go in a circle of links whose costs add up to more than zero; in particular, of two opposite links one carries nothing if carrying there and back costs something. When going round costs nothing it may.

* Plan: Along a way that carries energy the price grows at least by what the links cost, along a way with room left at most (C75).
* Outcome: **proved**. For Ready studies, that is studies solve_lp accepts (C70), without self-link.
* Theorems: `C123` (3), `C123_circle` (3), `C123_opposite` (3), `C123_idle` (3)

### C124 Whole units in, whole units out

When storages lose nothing and converters give what they take from one node, data in whole units give answers in whole units. If costs are whole multiples of u, an optimal result has prices that are whole multiples of u. If quantities are whole multiples of v too, the least cost is a whole multiple of u v. If quantities are whole multiples of v, whatever the costs, every flow and level of an optimal result can be rounded up or down to whole multiples of v such that all limits and balances still hold and the cost is the same; any feasible dispatch can be rounded so without costing more. With a converter of another ratio or a storage that loses this is false.

* Plan: Prices rounded down stay an equilibrium, because each flow compares two prices at most. Of the dispatches that differ from a given one by less than a unit, one with the fewest flows not whole has none: such flows form a circle round which energy can be moved without costing more.
* Outcome: **proved**. For Ready studies, that is studies solve_lp accepts (C70), without self-link and with one storage per node (except C124_prices); C124_losses_refuted shows that energy must not be lost or multiplied.
* Theorems: `C124_prices` (3), `C124_cost` (3), `C124_rounded` (3), `C124_feasible` (3), `C124_losses_refuted` (3)

### C125 Which exception a refused call raises

While a study is built, in any order of calls, accepted or not, a call that is refused raises ValueError, so that catching ValueError is enough, except in two cases. It raises KeyError exactly when it does not say where: the handle it is made on has no network (such as the one converter returns) or, for what goes in a node, no node, or the call is made on the study and names an unknown network. It raises IndexError only when data is a numpy array without dimension.

* Plan: What a composed program raises is raised by one of its parts; handles that name a place name one that exists (C11).
* Outcome: **proved**. Exceptions of pandas and numpy on data that is no number (texts in lists) are taken to be ValueError.
* Theorems: `C125` (3), `C125_key` (3), `C125_index` (2)

### C126 Stored energy is used at the best times

In an optimal result storages are filled and emptied at the best times. Energy held for later while it could be given now is worth at least as much later, with the cost of holding it; energy given now while it could be held is worth at least as much now, but for that cost. Energy is put in to be given back later only if it is worth it, with what is lost, and at a time that is not dearer than another when the storage could be filled. What is left in a storage at the end is left because it could not save anything: a storage not paid to hold energy, that is not empty from a time to the end, has given all it could at that time if one more unit would have saved something, at its node or carried elsewhere.

* Plan: The value of what a storage holds, given by the prices of C75, rises by at least the cost of holding where the storage is not empty and by at most that cost where it is not full, and is nothing after the end.
* Outcome: **proved**. For Ready studies, that is studies solve_lp accepts (C70), no converter of which has two sources with the same text; efficiencies are taken positive where they divide; optimal answers of the solver are a hypothesis (the LP solver is not modelled).
* Theorems: `C126_left` (3), `C126_all` (3), `C126_unused` (3), `C126_sooner` (3), `C126_later` (3), `C126_worth` (3), `C126_fill_later` (3), `C126_fill_sooner` (3)

### C127 Few elements need to be partly used

In an optimal result, the productions and consumptions that are partly used at the same node and time all cost the same, so where costs differ at most one is partly used; between the ends of a link that is partly used, these costs differ by the cost of the link. And an optimal result can always be replaced, at the same cost and leaving what is at zero or at its limit, by a dispatch where all quantities are at zero or at their limit but at most one for each node, each storage and each source of a converter at each time.

* Plan: The program has one row for each node, storage and source of a converter; while more variables are strictly between their bounds, some change of them is seen by no row, costs nothing by optimality, and can be carried on until one more is at a bound.
* Outcome: **proved**. For Ready studies, that is studies solve_lp accepts (C70), no converter of which has two sources with the same text; the answer of the solver need not be such a dispatch itself, see C127_result_refuted; optimal answers of the solver are a hypothesis (the LP solver is not modelled).
* Theorems: `C127` (3), `C127_same` (3), `C127_one` (3), `C127_link` (3), `C127_result_refuted` (3)

### C128 Data that is not a number

Data with NaN in it is refused like negative data is, and infinite numbers are taken for what they are: a capacity without limit is accepted, a quantity of minus infinity is refused, and so is an efficiency without limit. What is accepted is read back as given.

* Plan: The comparison of each class asked with 0 says so of all numbers given, and no comparison with NaN is true.
* Outcome: **partial**. True of infinite numbers, for series in so far as only those below 0 everywhere are refused (C05); false of NaN, which is never refused: one NaN even lets a series pass whose other numbers are all negative. What ortools does with such a bound is unknown.
* Theorems: `C128_quantity` (2), `C128_kept` (2), `C128_nan` (2), `C128_compare` (2), `C128_storage` (3), `C128_finite` (2), `C128_finite_create` (1), `C128_refuted` (2)

### C129 Small errors in the data make small errors in the least cost

When two studies have the same elements, ratios and efficiencies, their costs differ by at most e and their quantities, limits and first levels by at most f, then their least costs differ by at most e for each unit that can be cut, produced, sent, stored or converted, plus what f more of every quantity is worth at the prices of the dearer study. When only costs differ, the difference is at most e for each unit that the solutions actually do, and the solution for the wrong costs, charged at the right ones, exceeds the least cost by at most e for each unit that both solutions do.

* Plan: The least cost is what the study is worth at its prices (C81), the other study costs at least what it is worth at the same prices, and what a study is worth changes little with its data; for costs alone, each solution is the better one at its own costs (C109).
* Outcome: **proved**. For Ready studies, that is studies solve_lp accepts (C70); C129 and C129_both also ask for no link from a node to itself and at most one storage per node; errors on ratios and efficiencies are not covered; optimal answers of the solver are a hypothesis (the LP solver is not modelled).
* Theorems: `C129` (3), `C129_both` (3), `C129_costs` (3), `C129_use` (3), `C129_volume` (3)

### C130 What charts show is what the program said

A call that adds a consumption, a production or a link, anywhere in a program of calls whose study is solved and analysed, can be read off the charts: the timeline of what was asked or available, for the node or network for which the selector stood and the name given, has one curve per scenario, in order, that shows at each time step what the data of the call means there. The timeline of what was given or used stays between zero and that. The timeline of what a converter brings to the node that its call names stays between zero and the given maximum. A consumption given the rows of a shuffle shows exactly these rows. Two programs with a consumption of the same quantity show the same curves, whatever else they do and whatever their solvers answer.

* Plan: The call leaves its data in the study (C09) and later calls keep it (C13), the result has the elements of the study in order with what is served within limits (C18), and the chart shows the cells of the tables (C68); the meaning of data is unique (C01).
* Outcome: **proved**. The study is solved with texts of sources that are not confused (SolvedBy, as C102) and ResultAnalyzer accepts it, see C35 and C36 for when it does; names of destinations of converters are not empty; a feasible answer of the solver is a hypothesis.
* Theorems: `C130_consumption` (3), `C130_production` (3), `C130_link` (3), `C130_converter` (3), `C130_shuffled` (3), `C130_same` (3)

### C131 Putting nodes together never costs more

When nodes of a study are put together into fewer nodes, and their consumptions, productions, storages and links are put together as well, with the sum of what was asked, at least the sum of the limits, the sum of the first levels and no greater cost, and links inside a new node are left out, then the least cost of the coarser study is at most the cost of any result of the study. Adding up the flows of any dispatch of the study gives a dispatch of the coarser study that costs no more and loses as much load at each time step; so what the study can serve, the coarser study can serve.

* Plan: Sums over the elements of the coarser study are sums over the elements they are made of; with them the accounts of energy of any new node are those of the nodes put there, and costs are compared element by element.
* Outcome: **proved**. For Ready studies, that is studies solve_lp accepts (C70), C131 and C131_served without link from a node to itself and with at most one storage per node in the study, C131 without link from a node to itself in the coarser one; storages put together have one efficiency, links left out have no negative cost; optimal answers of the solver are a hypothesis (the LP solver is not modelled).
* Theorems: `C131` (3), `C131_flows` (3), `C131_served` (3)

### C132 Longer time steps never cost more

When the time steps of a study are put together into longer ones, with the sum of what was asked during each long step, at least the sum of the limits of productions, links and flows of storages, the sum of the maxima of converters, the same first levels, efficiencies and ratios, and no greater cost, then the least cost of the study with longer steps is at most the cost of any result of the study. Adding up the flows of any dispatch over each long step, and taking levels at its end, gives a dispatch of the study with longer steps that costs no more and loses in each long step what was lost during it; so what the study can serve, the study with longer steps can serve.

* Plan: Sums over the horizon are sums over long steps of sums over their steps; levels at the ends of long steps are obtained by following the storage through each long step, balances and bounds by adding them up.
* Outcome: **proved**. For Ready studies, that is studies solve_lp accepts (C70), C132_served without link from a node to itself and with at most one storage per node; efficiencies and ratios are constant within each long step and holding energy within a long step has no negative cost; optimal answers of the solver are a hypothesis (the LP solver is not modelled).
* Theorems: `C132` (3), `C132_flows` (3), `C132_served` (3)

### C133 Asking for more never costs less

When no cost and no ratio of a converter is negative, and each storage is empty at first or can keep what it holds for nothing, the optimal result comes with prices of energy none of which is negative. Then, if consumptions ask for more and nothing else changes, the least cost does not fall; whatever the storages, it rises by at most what it costs to lose all that is asked in addition. With a storage that is dear to keep full, asking for more can cost less (0 in place of 10).

* Plan: Leaving out the negative parts of prices never lowers what the study is worth at them (C81): each element earns no more, and what storages hold at first is made up for over time, by a telescoping sum. A dispatch that costs what the study is worth has these prices as equilibrium.
* Outcome: **proved**. For Ready studies, that is studies solve_lp accepts (C70), C133 and C133_prices without link from a node to itself and with at most one storage per node; optimal answers of the solver are a hypothesis (the LP solver is not modelled).
* Theorems: `C133` (3), `C133_prices` (3), `C133_upper` (3), `C133_storage` (3)

### C134 What can be declared is what makes sense

The studies that some sequence of building calls gives are exactly the studies that make sense: names are unique, links end on nodes of their network, converters join existing nodes, every series is a number, one number per time step, per scenario or per both, quantities, flows and capacities are not all negative, first levels are not negative and efficiencies not all outside 0 to 1. The order of elements does not matter, and some of the elements of such a study make such a study. Calls that are all accepted give exactly those of them whose converters have a destination, or at least one source. So a study read from a file that makes sense could have been declared, and all that is proved of declared studies holds for it.

* Plan: One way, invariants over all calls. The other way, a program is built: networks, nodes, then the elements of each node, then converters; each call is shown to be accepted and to add just what is wanted.
* Outcome: **proved**. Studies of the version of the library; calls pass numbers, lists and arrays only. A call that raises counts as a call: it may leave a converter without source and destination (C08).
* Theorems: `C134` (3), `C134_accepted` (3), `C134_ready` (3), `C134_part` (3)

### C135 Whether a pipeline runs to the end is known beforehand

For a pipeline of stages of the library and data where every scenario has the same columns, the names of the columns, the labels of the rows and the parameters of the stages say whether the run goes to the end, which columns and rows the result has, and otherwise which exception is raised. Values and random draws play no part. On any data a stage of the library raises nothing but ValueError, except for faults on data where some scenario has no quantity (KeyError). Sampling scenarios fails only if there is none, by ValueError.

* Plan: An outline of frames is carried through the stages, one lemma per kind of stage; for faults, each scenario is shown to run for every draw.
* Outcome: **proved**. Nothing is told when two columns get the same name, or when a stage of faults allows no duration; numpy's generator is assumed lawful (Spec/Pipeline).
* Theorems: `C135` (3), `C135_stage` (3), `C135_turns` (3), `C135_fate` (3), `C135_errors` (3), `C135_sample` (2)

### C136 Which exception a query raises

For a study built with the API and its answer, the filters and the rows of the study say exactly which queries analyzer.network(..).f(..)... raise, and what. AttributeError: a filter already given (or a second kind of element), or a call after the table. TypeError: a slice without last bound. ValueError: a slice of step zero. KeyError: converters in a study without any. IndexError: no network at all, or one value for each of the five filters when such a row exists. Anything else returns, also when nothing matches.

* Plan: The chain of calls is followed by induction; then the pivot table is empty exactly when no row matches, and levels are removed until a filter with several values.
* Outcome: **proved**. Slices are given to time and scenario and have their first bound (C39 for the others); storages when there are several and intakes of converters with several sources are left out, since their tables are wrong (C34, C36).
* Theorems: `C136` (3), `C136_calls` (3)

### C137 Charts and totals of what the study does not have

A chart or a total for an element, node, network, scenario or time that the study does not have raises, and nothing else is shown instead. Timelines, monotones and gaussians of an unknown element, or at a time or in a scenario out of range, raise (KeyError, or ZeroDivisionError for timelines), candles too; so do costs and counts of unknown nodes and networks, the matrix and the map of an unknown network, and the stack of an unknown node. It is false of balances and margins (zero everywhere for a node or network that does not exist), of maps at a time counted from the end (balances of that time, without any exchange) and of stacks of nodes with links only in a scenario counted from the end.

* Plan: Every row of a table is that of an element of the study at one of its positions; so the answer to the question of the chart has no line, and each chart is followed on an empty table. Balances and maps are computed from the sums of links.
* Outcome: **partial**. The property is false of the code in the cases of the _refuted theorems; storages when there are several and intakes of converters with several sources are left out, since their tables are wrong (C34, C36); gaussians of converters in a scenario ignore it (C67).
* Theorems: `C137_element_partial` (3), `C137_position_partial` (3), `C137_candles_partial` (3), `C137_totals_partial` (3), `C137_matrix_partial` (3), `C137_map_partial` (3), `C137_stack_partial` (3), `C137_balance_refuted` (3), `C137_rac_refuted` (3), `C137_map_refuted` (3), `C137_stack_refuted` (3)

### C138 A study can be saved half way and completed later

A study written to a file before it is finished, read again and completed by further calls is the study of the whole program: each further call returns or raises the same way, and the final study is the same (up to the zero cost and maximum of converters still without destination, which become series when read). Completing any study that makes sense, wherever its file comes from, gives a study that could have been declared in one go, and nothing that was in the file is lost, altered or moved. It is false of converters fed by nodes whose names contain the separator '::' : a call refused in the whole program is accepted after reading.

* Plan: The study read is the study written up to the zeros of converters without destination (C14). A simulation between the two programs: studies equal up to these zeros, lists of selectors shifted; every method keeps it and gives the same outcome. Well-formedness is kept by every call from any well-formed study.
* Outcome: **partial**. The property is false of the code for converters whose sources contain the separator (C138_refuted, CleanSources) and for studies without scenario (C14).
* Theorems: `C138_partial` (3), `C138_built` (3), `C138_kept` (3), `C138_refuted` (3)

### C139 Questions on parts add up to the question on the whole

When a question to the analyzer is cut in two by one of its filters (times before and after a date, some nodes and the others, some scenarios and the others), the lines of the two answers are together those of the whole answer, each once and with the same values; so totals of columns and numbers of lines add up. A question that asks for less shows some of the lines of the one that asks for more, with the same values. It is false of slices whose start is omitted, which select nothing.

* Plan: Each answer is, up to order, the rows that match (C37), read in the columns of the table be they levels or values; rows of a table have positions of the study, on which the filters of the parts select each value of the whole filter exactly once.
* Outcome: **partial**. Slices with an omitted bound (C139_refuted, C39), storages when there are several and intakes of converters with several sources (C34, C36) are left out since the property is false of the code there; whether each question returns a table is C40.
* Theorems: `C139_partial` (3), `C139_totals_partial` (3), `C139_less_partial` (3), `C139_refuted` (3)

### C140 Costs are relative

When energy of each node is given another value, that is added to the costs of what is produced and of what is not served there, its value where it comes less its value where it goes from to the cost of links, its value less that of what it is made of to the cost of converters, and its value later less its value now to the cost of keeping it in storages, then what can be done is the same, every dispatch costs the same amount more (the value of what is asked less that of what storages hold at first), and results of least cost are the same. In particular, raising by the same amount all productions and all costs of unserved load changes no choice where there are no storages and no converters. It is false with a link from a node to itself and with two storages at a node.

* Plan: With any prices, the cost of a dispatch is that of the constraints weighted by the prices plus that of flows at reduced costs (C75). Taken with the given values, the first part does not depend on the feasible dispatch and the second is the cost less what is added.
* Outcome: **partial**. For Ready studies, that is studies solve_lp accepts (C70), without link from a node to itself and with at most one storage per node since the property is false of the code otherwise; optimal answers of the solver are a hypothesis (the LP solver is not modelled).
* Theorems: `C140_partial` (3), `C140_goods_partial` (3), `C140_refuted` (3), `C140_storage_refuted` (3)

### C141 Each network has its own unit of energy

Energy of each network can be counted in a unit of its own (electricity in MWh, gas in cubic metres): when the quantities of each network are multiplied by a factor, its costs by unit divided by it, and the ratio of each source of a converter multiplied by the factor of its destination and divided by that of the source, then the least cost is the same, and what can be done and what costs least are the same flows in the new units.

* Plan: The translation of flows maps what the code asks of a dispatch to what it asks in the other units, constraint by constraint, and keeps the cost; the inverse translation does the same back, so least costs are equal.
* Outcome: **proved**. For Ready studies, that is studies solve_lp accepts (C70); optimal answers of the solver are a hypothesis (the LP solver is not modelled).
* Theorems: `C141` (3), `C141_flows` (3), `C141_back` (3)

### C142 Data can be processed piece by piece

Clip, Rename, ToShuffler, Drop and RepeatScenario treat each time step for itself. Running any sequence of them, or a pipeline made of them, on some of the rows of a frame (any rows, in any order, some of them several times) gives those rows of what it gives on the whole frame: the same columns with the same labels, and the same exception when it raises. So a period can be cut in two, each part processed apart, and the results put one after the other. Rows keep their labels as long as nothing is repeated; RepeatScenario numbers them again from 0.

* Plan: `atPlaces` chooses rows, `SameRowsAt` and `FollowedBy` compare outcomes; induction on the stages, for any way to choose rows that goes with maps
* Outcome: **proved**. For the stages named; stages written by the user and Fault, which looks at the whole period, are not covered.
* Theorems: `C142` (2), `C142_labels` (2), `C142_pipeline` (2), `C142_cut` (2), `C142_cut_pipeline` (2)

### C143 Accounts and charts of results with small errors

When the solver breaks no bound and no constraint by more than e, what is read from the result closes up to that error and no more: the energy account of the study at a time step up to e for each node, the account over the whole study up to e for each node and each storage at each time step, the two stacks of a node up to e. Candles of a storage still follow one another from the initial capacity; the candle of step t closes within (t + 1) e of the recorded level and within (t + 2) e of the limits of the storage.

* Plan: Sums of the inequalities of C101 over nodes, storages and time steps; charts as in C59 and C60.
* Outcome: **partial**. For Ready studies, that is studies solve_lp accepts (C70), without link from a node to itself and with at most one storage per node (accounts are wrong otherwise: C80), charts in the cases of C59 and C60; the error of the answers of the solver is a hypothesis (the LP solver is not modelled).
* Theorems: `C143_step_partial` (3), `C143_total_partial` (3), `C143_stack_partial` (3), `C143_candles_partial` (3)

### C144 Arrows of the map add up to balances

On the exchange map of a network, for every group of nodes, arrows drawn from the group to the other nodes less arrows drawn the other way are the sum of the values drawn at the nodes of the group. When the solver gives a feasible dispatch, they are also what the nodes of the group have left: productions used, storage outputs and converter outputs, less consumptions given, storage inputs and what converters take.

* Plan: Sum of arrows over pairs of nodes: each pair gives the positive part of its net flow; the sum over a group telescopes into balances (C61, C44), then the constraint of each node.
* Outcome: **partial**. The first part is proved in full; the second for Ready studies, that is studies solve_lp accepts (C70), without link from a node to itself: C144_surplus says what is counted twice otherwise and C144_surplus_refuted shows a map without arrow around a node that misses 10; the LP solver is not modelled.
* Theorems: `C144` (3), `C144_surplus` (3), `C144_surplus_partial` (3), `C144_surplus_refuted` (3)

### C145 Places that are alike

When exchanging some names gives the same study up to the order of declarations, so that each place has a twin with the same elements, links and converters, doing at each place what a least cost dispatch does at its twin is of least cost, and if names are exchanged by pairs some least cost dispatch does the same at twin places. The result of solve_lp does the same with twin productions, consumptions and links that would earn or lose with its prices, and with everything when only one dispatch is of least cost.

* Plan: The twin of a dispatch is feasible at the same cost (C77 and C87); half of a dispatch and half of its twin is feasible at the same cost; dispatches of the same cost agree off the margin (C98).
* Outcome: **partial**. What is said of least cost dispatches is proved in full; results for Ready studies, that is studies solve_lp accepts (C70), without link from a node to itself and with at most one storage per node; C145_refuted: with ties, the solver may cut one town and not its twin; the LP solver is not modelled.
* Theorems: `C145` (3), `C145_twin` (3), `C145_margin_partial` (3), `C145_unique_partial` (3), `C145_refuted` (3)

### C146 A node that only passes on changes nothing

A node without any element but one link in and one link out can be left out: with one link straight from the node before to the node after, of the smaller of the two quantities and the sum of the two costs, solve_lp finds a solution of the same total cost. Every dispatch with the relay is one with the straight link at the same cost and the other way round, and in the result with the relay as much leaves the relay as reaches it.

* Plan: At the relay balance says that the second flow is the first one, so bounds on both are the bound on the smaller quantity, and costs add up; sums over nodes differ only at the two nodes.
* Outcome: **partial**. Feasible dispatches and costs for all built studies (C146_feasible); results for Ready studies, that is studies solve_lp accepts (C70), when the straight link goes to another node; C146_refuted: a relay that gives back to the node it gets from serves nothing, but a link from a node to itself makes energy; the relay stays as a bare node in the study with the straight link (C84 for nodes without elements); the LP solver is not modelled.
* Theorems: `C146_feasible` (3), `C146_partial` (3), `C146_refuted` (3)

### C147 Without storages time steps are solved on their own

In a study without storage what a time step costs depends on its data only: time steps with the same data, of one study or of two, of one scenario or of two, cost the same in the results of solve_lp. So a study made of time steps of another one costs what these steps cost there, the order of time steps does not matter, and a study whose time steps come back n times costs n times as much.

* Plan: One step of a dispatch can be replaced by a step with the same data from elsewhere (C88), so a step of a least cost dispatch costs no more than any such step.
* Outcome: **partial**. For Ready studies, that is studies solve_lp accepts (C70), without storage; C147_refuted: with a storage two time steps cost 50 in one order and 140 in the other one; the LP solver is not modelled.
* Theorems: `C147_partial` (3), `C147_chosen_partial` (3), `C147_order_partial` (3), `C147_repeated_partial` (3), `C147_refuted` (3)

### C148 A production behind a link

A production at a node of its own, from where one link goes to the rest of the network, can be declared at the end of this link with the smaller of the two quantities and the sum of the two costs: solve_lp finds a solution of the same total cost, every dispatch of one study is one of the other at the same cost, and all that is produced behind the link goes through it.

* Plan: Balance at the node of the plant says that the flow is what is produced; sums over nodes differ at the two nodes only.
* Outcome: **proved**. For Ready studies, that is studies solve_lp accepts (C70); the node of the plant stays as a bare node in the study with the plant at the end of the link (C84 for nodes without elements); optimal answers of the solver are a hypothesis (the LP solver is not modelled).
* Theorems: `C148` (3), `C148_feasible` (3)

### C149 A load behind a link

A consumption at a node of its own, to where one link comes from the rest of the network, can be declared at the start of this link with the smaller of the two quantities and the cost of the consumption less the one of the link: solve_lp finds a solution whose total cost differs by what is paid in any case (loss of load for what the link cannot bring, the cost of the link for what it can bring), every dispatch of one study gives one of the other with this difference, and all that is served behind the link came through it.

* Plan: Balance at the node of the load says that the flow is what is served; sums over nodes differ at the two nodes only.
* Outcome: **proved**. For Ready studies, that is studies solve_lp accepts (C70); the node of the load stays as a bare node in the study with the load at the start of the link; the link is the last one of its node and the moved load the last one (order of elements: C77); optimal answers of the solver are a hypothesis (the LP solver is not modelled).
* Theorems: `C149` (3), `C149_feasible` (3)

### C150 Two converters in a row

A converter that gives to a node where nothing is but a second converter that takes from there can be declared together with it as one converter, with the product of the two ratios, the most both can give, and the cost of the second plus the cost of the first for what the second gives: solve_lp finds a solution of the same total cost, every dispatch of one study gives one of the other at the same cost, and all that the first converter gives the second one takes.

* Plan: Balance at the node between says that the second converter takes what the first one gives; sums over converters differ in the two only.
* Outcome: **proved**. For Ready studies, that is studies solve_lp accepts (C70); the node between stays as a bare node in the study with one converter; the two converters are the last ones declared (order of declarations: C77); optimal answers of the solver are a hypothesis (the LP solver is not modelled).
* Theorems: `C150` (3), `C150_feasible` (3)

### C151 A production behind a converter

A production of fuel at a node where nothing is but one converter that takes it can be declared at the node the converter gives to, without converter, with the smaller of the converted quantity and the maximum of the converter, and with the cost of the converter plus the cost of the fuel divided by the ratio: solve_lp finds a solution of the same total cost, every dispatch of one study gives one of the other at the same cost, and the converter takes all fuel that is produced.

* Plan: Balance at the node of the fuel says that the converter takes what is produced; sums over nodes differ at two nodes and sums over converters in one.
* Outcome: **proved**. For Ready studies, that is studies solve_lp accepts (C70); the node of the fuel stays as a bare node in the study without converter; the converter is the last one and the new production the last one of its node (order of declarations: C77); optimal answers of the solver are a hypothesis (the LP solver is not modelled).
* Theorems: `C151` (3), `C151_feasible` (3)

### C152 A load behind a converter

A consumption at a node where nothing is but one converter that gives to it can be declared at the node the converter takes from, without converter, with the smaller of its quantity and the maximum of the converter, divided by the ratio, and with the cost of the consumption less the one of the converter, times the ratio: solve_lp finds a solution whose total cost differs by what is paid in any case (loss of load for what the converter cannot give, the cost of the converter for what it can give), every dispatch of one study gives one of the other with this difference, and the consumption gets all that the converter gives.

* Plan: Balance at the node of the load says that it gets what the converter gives; sums over nodes differ at two nodes and sums over converters in one.
* Outcome: **proved**. For Ready studies, that is studies solve_lp accepts (C70); the node of the load stays as a bare node in the study without converter; the converter is the last one and the moved load the last one of its node (order of declarations: C77); optimal answers of the solver are a hypothesis (the LP solver is not modelled).
* Theorems: `C152` (3), `C152_feasible` (3)

### C153 A source of a converter with its own production

When one of the sources of a converter is a node where nothing is but one production, and which nothing else uses, this source can be left out of the converter: with the smaller of the maximum of the converter and of what can be made of the production as maximum, and with the cost of the production divided by its ratio added to the cost of the converter, solve_lp finds a solution of the same total cost; every dispatch with the source is one without, and every dispatch without gives one with the source, at the same cost; and the converter takes all that is produced there.

* Plan: Balance at the node of the source says that the converter takes what is produced, and its ratio how much this is; sums over nodes differ at one node and sums over converters in the last one.
* Outcome: **proved**. For Ready studies, that is studies solve_lp accepts (C70); the node of the source stays as a bare node in the study without it; the converter is the last one and the source its last one (order of declarations: C77); optimal answers of the solver are a hypothesis (the LP solver is not modelled).
* Theorems: `C153` (3), `C153_feasible` (3)

### C154 A converter without sources is a production

A converter that was given a destination but no source (no node was linked with to_converter) is accepted and acts as a production at its destination, with the maximum of the converter as quantity and the cost of the converter as cost: solve_lp finds a solution of the same total cost for the study with this production in place of the converter, and every dispatch of one study gives one of the other at the same cost.

* Plan: A converter without sources has no mix constraint; sums over nodes differ at its destination and sums over converters in the last one.
* Outcome: **proved**. For Ready studies, that is studies solve_lp accepts (C70); the converter is the last one and the production the last one of its node (order of declarations: C77); optimal answers of the solver are a hypothesis (the LP solver is not modelled).
* Theorems: `C154` (3), `C154_feasible` (3)

