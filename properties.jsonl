{"id": "C01", "title": "Broadcasting of quantities and costs", "statement": "Whatever form a quantity or cost is given in (number, one value per time step, one value per scenario, or a full scenario x time matrix), the study uses, at scenario s and time t, the number itself, the t-th value, the s-th value, or the (s,t) cell respectively.", "quantifier": "every horizon, number of scenarios, accepted input value, scenario s < nb_scn and time t < horizon", "why_tests_cant": "Four input forms times unbounded sizes; a transposed or shifted index only shows for some shapes (horizon = nb_scn, horizon = 1, ...).", "anchors": ["hadar/optimizer/domain/numeric.py:NumericalValueFactory.create", "hadar/optimizer/domain/numeric.py:ScalarNumericalValue.__getitem__", "hadar/optimizer/domain/numeric.py:RowNumericValue.__getitem__", "hadar/optimizer/domain/numeric.py:ColumnNumericValue.__getitem__", "hadar/optimizer/domain/numeric.py:MatrixNumericalValue.__getitem__"]}
{"id": "C02", "title": "Flattened view agrees with lookup", "statement": "Flattening any accepted value gives exactly nb_scn*horizon numbers, and position s*horizon+t of it is the value looked up at scenario s, time t.", "quantifier": "every accepted value, all s < nb_scn, t < horizon", "why_tests_cant": "tile/repeat mistakes are invisible on constant or square data.", "anchors": ["hadar/optimizer/domain/numeric.py:ScalarNumericalValue.flatten", "hadar/optimizer/domain/numeric.py:RowNumericValue.flatten", "hadar/optimizer/domain/numeric.py:ColumnNumericValue.flatten", "hadar/optimizer/domain/numeric.py:MatrixNumericalValue.flatten"]}
{"id": "C03", "title": "Wrongly sized data is always refused", "statement": "A value is accepted exactly when it is a number, already a study value, or an array of shape (horizon,), (nb_scn,1) or (nb_scn,horizon); anything else raises an error and nothing is silently reinterpreted.", "quantifier": "every input value of any dimension and shape, every horizon and nb_scn", "why_tests_cant": "The set of shapes is infinite; tests sample a few.", "anchors": ["hadar/optimizer/domain/numeric.py:NumericalValueFactory.create"]}
{"id": "C04", "title": "Out-of-range lookups raise IndexError", "statement": "Looking up a scenario >= nb_scn or a time >= horizon in any accepted value raises IndexError and never returns a number.", "quantifier": "every accepted value and every non-negative out-of-range index pair", "why_tests_cant": "Needs all four representations and all indices.", "anchors": ["hadar/optimizer/domain/numeric.py:ScalarNumericalValue.__getitem__", "hadar/optimizer/domain/numeric.py:RowNumericValue.__getitem__", "hadar/optimizer/domain/numeric.py:ColumnNumericValue.__getitem__", "hadar/optimizer/domain/numeric.py:MatrixNumericalValue.__getitem__"]}
{"id": "C05", "title": "Negative capacities are refused", "statement": "Adding a consumption, production, storage or link with a negative quantity (or flow, capacity, initial capacity; or an efficiency outside [0,1]) anywhere in the horizon or scenarios raises ValueError, and values with no such entry are not refused for their sign.", "quantifier": "every value form, every position of the offending entry", "why_tests_cant": "A single negative entry can be anywhere in an arbitrarily large matrix.", "anchors": ["hadar/optimizer/domain/input.py:Study._add_production", "hadar/optimizer/domain/input.py:Study._add_consumption", "hadar/optimizer/domain/input.py:Study._add_storage", "hadar/optimizer/domain/input.py:Study.add_link", "hadar/optimizer/domain/numeric.py:NumpyNumericalValue.__lt__", "hadar/optimizer/domain/numeric.py:ScalarNumericalValue.__lt__"]}
{"id": "C06", "title": "Names stay unique", "statement": "In any study built through the API, network names, node names within a network, consumption, production and storage names within a node, link destinations within a node, converter names and converter sources are unique.", "quantifier": "every sequence of API calls, including calls that raise", "why_tests_cant": "Quantifies over all histories of builder calls.", "anchors": ["hadar/optimizer/domain/input.py:Study._add_production", "hadar/optimizer/domain/input.py:Study._add_consumption", "hadar/optimizer/domain/input.py:Study._add_storage", "hadar/optimizer/domain/input.py:Study.add_link", "hadar/optimizer/domain/input.py:Study._add_converter_src"]}
{"id": "C07", "title": "Link endpoints always exist", "statement": "In any study built through the API every link starts and ends on a node of its own network.", "quantifier": "every sequence of API calls, including calls that raise", "why_tests_cant": "Quantifies over all histories of builder calls.", "anchors": ["hadar/optimizer/domain/input.py:Study.add_link", "hadar/optimizer/domain/input.py:Study.add_node"]}
{"id": "C08", "title": "A refused call changes nothing", "statement": "If an API call that adds an element raises, the study is left exactly as it was before the call.", "quantifier": "every study, every builder call and every argument for which the call raises", "why_tests_cant": "All error points of all calls, in all states.", "anchors": ["hadar/optimizer/domain/input.py:Study.add_link", "hadar/optimizer/domain/input.py:Study._add_production", "hadar/optimizer/domain/input.py:Study._add_consumption", "hadar/optimizer/domain/input.py:Study._add_storage", "hadar/optimizer/domain/input.py:NetworkFluentAPISelector.converter", "hadar/optimizer/domain/input.py:NodeFluentAPISelector.to_converter"]}
{"id": "C09", "title": "Elements are never lost or altered by later calls", "statement": "Once a network, node, consumption, production, storage, link or converter source has been added, it stays in the study, with the same data and at the same rank, whatever API calls follow; an accepted add call adds exactly one element, at the end of its own list, and touches nothing else.", "quantifier": "every study and every sequence of later API calls", "why_tests_cant": "Quantifies over all later histories.", "anchors": ["hadar/optimizer/domain/input.py:Study", "hadar/optimizer/domain/input.py:NetworkFluentAPISelector", "hadar/optimizer/domain/input.py:NodeFluentAPISelector"]}
{"id": "C10", "title": "Every stored series has the study's size", "statement": "In any study built through the API from numbers, lists or arrays, every stored quantity, cost, flow, capacity, efficiency and ratio can be looked up at every scenario < nb_scn and time < horizon, and flattens to nb_scn*horizon values.", "quantifier": "every sequence of API calls with raw (not pre-wrapped) values", "why_tests_cant": "Quantifies over all histories and shapes.", "anchors": ["hadar/optimizer/domain/input.py:Study", "hadar/optimizer/domain/numeric.py:NumericalValueFactory.create"]}
{"id": "C11", "title": "Selecting a network or node is idempotent", "statement": "Selecting a network or node that already exists changes nothing; selecting a new one adds it empty and leaves all others unchanged.", "quantifier": "every study, every name", "why_tests_cant": "All states.", "anchors": ["hadar/optimizer/domain/input.py:Study.add_network", "hadar/optimizer/domain/input.py:Study.add_node"]}
{"id": "C12", "title": "Builder handles act on the node they were made for", "statement": "An element added through the object returned by .node(n) of network g is added to node n of network g, whichever other handles were created in between.", "quantifier": "every interleaving of calls on every handle obtained from one study", "why_tests_cant": "Aliasing between handles depends on the interleaving of calls.", "anchors": ["hadar/optimizer/domain/input.py:NetworkFluentAPISelector.node", "hadar/optimizer/domain/input.py:NodeFluentAPISelector"]}
{"id": "C13", "title": "Converters are well formed", "statement": "In any study built through the API a converter has at most one declared destination, which exists in the study and is never changed once set; each source is an existing node; a second destination is refused.", "quantifier": "every sequence of API calls", "why_tests_cant": "Quantifies over histories, including failing calls.", "anchors": ["hadar/optimizer/domain/input.py:Study._add_converter", "hadar/optimizer/domain/input.py:Study._add_converter_src", "hadar/optimizer/domain/input.py:Study._set_converter_dest"]}
{"id": "C14", "title": "Study JSON round trip", "statement": "Serialising a study to JSON and reading it back gives an equal study.", "quantifier": "every study built through the API", "why_tests_cant": "All studies of all sizes, names and value forms.", "anchors": ["hadar/optimizer/domain/input.py:Study.to_json", "hadar/optimizer/domain/input.py:Study.from_json", "hadar/optimizer/domain/input.py:Converter.to_json", "hadar/optimizer/domain/input.py:Converter.from_json", "hadar/optimizer/domain/numeric.py:NumericalValueFactory.create"]}
{"id": "C15", "title": "Composite keys survive serialisation", "statement": "A converter source (network, node) is recovered unchanged from its JSON key, and two different sources never share a key.", "quantifier": "every pair of network and node names", "why_tests_cant": "All strings.", "anchors": ["hadar/optimizer/domain/input.py:Converter.to_json", "hadar/optimizer/domain/input.py:Converter.from_json", "hadar/optimizer/domain/output.py:OutputConverter.to_json", "hadar/optimizer/lp/domain.py:LPConverter.from_json"]}
{"id": "C16", "title": "Result JSON round trip", "statement": "Serialising a result to JSON and reading it back gives an equal result.", "quantifier": "every result produced by the optimizer", "why_tests_cant": "All results of all sizes and names.", "anchors": ["hadar/optimizer/domain/output.py:Result.from_json", "hadar/optimizer/domain/output.py:OutputConverter.to_json", "hadar/optimizer/domain/output.py:OutputConverter.from_json", "hadar/optimizer/utils.py:JSON.convert"]}
{"id": "C17", "title": "Reading JSON does not consume it", "statement": "Reading a study or a result from a decoded JSON object leaves that object unchanged, so that reading it a second time gives the same answer.", "quantifier": "every JSON object produced by serialising a study or a result", "why_tests_cant": "Side effects on nested arguments, all sizes.", "anchors": ["hadar/optimizer/domain/input.py:Study.from_json", "hadar/optimizer/domain/output.py:Result.from_json", "hadar/optimizer/domain/output.py:OutputNetwork.from_json"]}
{"id": "C18", "title": "Dispatch respects every limit", "statement": "In a result, for every scenario and time: 0 <= given <= asked for every consumption, 0 <= used <= available for every production and link, storage level and flows within their limits, 0 <= converter output <= max and 0 <= converter input <= max/ratio.", "quantifier": "every study and every solver answer that satisfies the variable bounds the optimizer declared", "why_tests_cant": "All studies; a swapped bound only matters when the limit binds.", "anchors": ["hadar/optimizer/lp/mapper.py:InputMapper.get_node_var", "hadar/optimizer/lp/mapper.py:InputMapper.get_conv_var", "hadar/optimizer/lp/mapper.py:OutputMapper.set_node_var", "hadar/optimizer/lp/mapper.py:OutputMapper.set_converter_var"]}
{"id": "C19", "title": "Energy is conserved at every node", "statement": "In a result, at every node, scenario and time: production used + storage outflow + link imports + converter output to the node = consumption given + storage inflow + link exports + converter intake from the node.", "quantifier": "every study built through the API and every feasible solver answer", "why_tests_cant": "All topologies; a missing or overwritten coefficient only shows on particular graphs.", "anchors": ["hadar/optimizer/lp/optimizer.py:AdequacyBuilder", "hadar/optimizer/lp/optimizer.py:_solve_batch"]}
{"id": "C20", "title": "Storage levels evolve by their flows", "statement": "In a result, for every storage: level(t) = level(t-1) + efficiency(t)*inflow(t) - outflow(t), with the declared initial capacity as level(-1).", "quantifier": "every study, every storage of every node, every scenario and time", "why_tests_cant": "All horizons and all numbers of storages per node.", "anchors": ["hadar/optimizer/lp/optimizer.py:StorageBuilder.add_node"]}
{"id": "C21", "title": "Converters respect their ratios", "statement": "In a result, for every converter, every source, scenario and time: intake from the source * ratio = converter output.", "quantifier": "every study, converter, source, scenario, time", "why_tests_cant": "All converter shapes.", "anchors": ["hadar/optimizer/lp/optimizer.py:ConverterMixBuilder"]}
{"id": "C22", "title": "The dispatch is least-cost", "statement": "The result's dispatch is feasible for the adequacy problem of the documentation (limits, node balance, storage dynamics, converter ratios) and no feasible dispatch costs less, cost being unserved load*cost + production*cost + link flow*cost + storage level*cost + converter output*cost.", "quantifier": "every study built through the API, every scenario, every competing dispatch", "why_tests_cant": "Optimality quantifies over all alternatives; needs the LP to be exactly the documented problem.", "anchors": ["hadar/optimizer/lp/optimizer.py:ObjectiveBuilder", "hadar/optimizer/lp/optimizer.py:AdequacyBuilder", "hadar/optimizer/lp/optimizer.py:StorageBuilder", "hadar/optimizer/lp/optimizer.py:ConverterMixBuilder", "docs/source/mathematics/linear-model.rst"]}
{"id": "C23", "title": "A valid study always has a feasible dispatch", "statement": "If all limits are non-negative and no storage starts above its capacity, the problem sent to the solver has a feasible solution, for every scenario.", "quantifier": "every such study", "why_tests_cant": "All studies.", "anchors": ["hadar/optimizer/lp/optimizer.py:_solve_batch", "hadar/optimizer/lp/mapper.py:InputMapper"]}
{"id": "C24", "title": "Merit order", "statement": "In a result, at any node and time, a production is not used while a strictly cheaper production of the same node has spare capacity, and no consumption is left unserved while a production of the same node costing less than the unavailability cost has spare capacity.", "quantifier": "every study, scenario, node, time, pair of elements", "why_tests_cant": "Consequence of optimality over all studies.", "anchors": ["hadar/optimizer/lp/optimizer.py:ObjectiveBuilder", "hadar/optimizer/lp/optimizer.py:AdequacyBuilder"]}
{"id": "C25", "title": "Scenarios are independent", "statement": "The result for a scenario depends only on that scenario's data: two studies with the same structure that agree on scenario s get the same dispatch for s.", "quantifier": "every pair of studies that agree on scenario s", "why_tests_cant": "Relational property over pairs of inputs.", "anchors": ["hadar/optimizer/lp/optimizer.py:_solve_batch", "hadar/optimizer/lp/optimizer.py:solve_lp", "hadar/optimizer/lp/mapper.py:InputMapper"]}
{"id": "C26", "title": "The result mirrors the study", "statement": "A result has the same networks, nodes, consumptions, productions, storages, links, converters and converter sources as the study, in the same order and with the same names, each with a full (nb_scn, horizon) array, and each cell holds the value of its own variable.", "quantifier": "every study", "why_tests_cant": "All structures and sizes; index mix-ups need asymmetric data.", "anchors": ["hadar/optimizer/lp/mapper.py:OutputMapper", "hadar/optimizer/domain/output.py:OutputNode.build_like_input", "hadar/optimizer/lp/optimizer.py:solve_lp"]}
{"id": "C27", "title": "Worker scheduling does not matter", "statement": "The result of a solve does not depend on the order in which the worker processes finish their scenarios.", "quantifier": "every completion order of the scenario jobs", "why_tests_cant": "All schedules.", "anchors": ["hadar/optimizer/lp/optimizer.py:solve_lp"]}
{"id": "C28", "title": "Reported cost equals optimised cost", "statement": "The analyzer's total cost, summed over time for a scenario, equals the objective value of the solution the optimizer returned for it.", "quantifier": "every study and feasible solver answer", "why_tests_cant": "Two independent code paths must agree on all inputs.", "anchors": ["hadar/analyzer/result.py:ResultAnalyzer.get_cost", "hadar/optimizer/lp/optimizer.py:ObjectiveBuilder"]}
{"id": "C29", "title": "Remote solving returns the finished job's result", "statement": "solve on a remote server polls the job until it is neither queued nor computing, then returns the decoded result, or raises if the job ended in error; it never returns early and stops at the first final answer.", "quantifier": "every sequence of server responses", "why_tests_cant": "All response histories.", "anchors": ["hadar/optimizer/remote/optimizer.py:solve_remote"]}
{"id": "C30", "title": "Remote failures surface", "statement": "A 404, 403 or 500 answer to the submission or to any poll raises, and no later request is made.", "quantifier": "every position of the failing response", "why_tests_cant": "All response histories.", "anchors": ["hadar/optimizer/remote/optimizer.py:check_code", "hadar/optimizer/remote/optimizer.py:solve_remote"]}
{"id": "C31", "title": "Consumption table is complete and exact", "statement": "The consumption table has exactly one row per (network, node, consumption, scenario, time), carrying that element's asked, given and cost at that scenario and time.", "quantifier": "every study and matching result", "why_tests_cant": "All structures and sizes.", "anchors": ["hadar/analyzer/result.py:ResultAnalyzer._build_consumption"]}
{"id": "C32", "title": "Production table is complete and exact", "statement": "The production table has exactly one row per (network, node, production, scenario, time), carrying that element's available, used and cost.", "quantifier": "every study and matching result", "why_tests_cant": "All structures and sizes.", "anchors": ["hadar/analyzer/result.py:ResultAnalyzer._build_production"]}
{"id": "C33", "title": "Link table is complete and exact", "statement": "The link table has exactly one row per (network, node, link, scenario, time), carrying that link's available, used and cost.", "quantifier": "every study and matching result", "why_tests_cant": "All structures and sizes.", "anchors": ["hadar/analyzer/result.py:ResultAnalyzer._build_link"]}
{"id": "C34", "title": "Storage table is complete and exact", "statement": "The storage table has exactly one row per (network, node, storage, scenario, time), carrying that storage's level, flows, limits, cost and efficiency.", "quantifier": "every study and matching result", "why_tests_cant": "All numbers of storages.", "anchors": ["hadar/analyzer/result.py:ResultAnalyzer._build_storage"]}
{"id": "C35", "title": "Converter output table is complete and exact", "statement": "The converter destination table has exactly one row per (converter, scenario, time), carrying its flow, cost and max.", "quantifier": "every study and matching result", "why_tests_cant": "All numbers of converters and sources.", "anchors": ["hadar/analyzer/result.py:ResultAnalyzer._build_dest_converter"]}
{"id": "C36", "title": "Converter intake table is complete and exact", "statement": "The converter source table has exactly one row per (converter, source, scenario, time), carrying its flow, ratio and max divided by ratio.", "quantifier": "every study and matching result", "why_tests_cant": "All numbers of converters, sources and scenarios.", "anchors": ["hadar/analyzer/result.py:ResultAnalyzer._build_src_converter"]}
{"id": "C37", "title": "Queries return exactly the asked rows", "statement": "A query returns one line per table row that matches every given filter, with that row's values in the columns of the table that are not used as filters, in alphabetical order, and no other line.", "quantifier": "every table, every combination of filters, in every order of the calls", "why_tests_cant": "All tables and filter combinations.", "anchors": ["hadar/analyzer/result.py:ResultAnalyzer.filter", "hadar/analyzer/result.py:ResultAnalyzer._pivot", "hadar/analyzer/result.py:Index.filter"]}
{"id": "C38", "title": "Incomplete queries are refused", "statement": "A query that lacks the time, node, network or scenario dimension raises instead of returning data.", "quantifier": "every list of filters", "why_tests_cant": "All combinations.", "anchors": ["hadar/analyzer/result.py:ResultAnalyzer.filter", "hadar/analyzer/result.py:ResultAnalyzer._assert_index"]}
{"id": "C39", "title": "Slices select the Python range", "statement": "time(slice(a,b,c)) or scn(slice(a,b,c)) selects the indices of Python's range over the horizon (or scenarios), with omitted bounds meaning the beginning and the end.", "quantifier": "every slice", "why_tests_cant": "All slices including omitted bounds.", "anchors": ["hadar/analyzer/result.py:IntIndex.__init__"]}
{"id": "C40", "title": "Every complete query succeeds", "statement": "A query giving network, node, time, scenario and one element kind returns data whatever single values or lists are given.", "quantifier": "every combination of filters", "why_tests_cant": "All combinations, including fully specified ones.", "anchors": ["hadar/analyzer/result.py:ResultAnalyzer._remove_useless_index_level", "hadar/analyzer/result.py:ResultAnalyzer._pivot"]}
{"id": "C41", "title": "A partial query can be reused", "statement": "Continuing the same partial query twice gives two independent queries.", "quantifier": "every sequence of calls on selector objects", "why_tests_cant": "Aliasing depends on call history.", "anchors": ["hadar/analyzer/result.py:NetworkFluentAPISelector._append"]}
{"id": "C42", "title": "Node cost is the cost of its elements", "statement": "get_cost of a node gives, at each scenario and time, the sum over its elements of unserved load*cost, used*cost, level*cost, link flow*cost and incoming converter flow*cost.", "quantifier": "every study, result, node, scenario, time", "why_tests_cant": "All structures.", "anchors": ["hadar/analyzer/result.py:ResultAnalyzer.get_cost"]}
{"id": "C43", "title": "Costs add up", "statement": "The cost of a network is the sum of its nodes' costs and the cost of the study the sum of its networks' costs.", "quantifier": "every study and result", "why_tests_cant": "All structures.", "anchors": ["hadar/analyzer/result.py:ResultAnalyzer.get_cost", "hadar/analyzer/result.py:ResultAnalyzer.get_elements_inside"]}
{"id": "C44", "title": "Balances are exports minus imports and cancel out", "statement": "get_balance of a node is the sum of its link exports minus the sum of its link imports, at each scenario and time, and balances of all nodes of a network sum to zero.", "quantifier": "every study, result, node", "why_tests_cant": "All graphs.", "anchors": ["hadar/analyzer/result.py:ResultAnalyzer.get_balance"]}
{"id": "C45", "title": "Remaining available capacity", "statement": "get_rac is, at each scenario and time, unused production minus unserved consumption over the network.", "quantifier": "every study, result, network", "why_tests_cant": "All structures, including networks without production or consumption.", "anchors": ["hadar/analyzer/result.py:ResultAnalyzer.get_rac"]}
{"id": "C46", "title": "Element counts", "statement": "get_elements_inside counts the consumptions, productions, storages, links, converters taking from and converters giving to a node; counts of a network or study are the sums over nodes or networks.", "quantifier": "every study, node, network", "why_tests_cant": "All structures.", "anchors": ["hadar/analyzer/result.py:ResultAnalyzer.get_elements_inside"]}
{"id": "C47", "title": "A pipeline is the composition of its stages", "statement": "Calling a pipeline on data gives what calling its stages one after the other gives, and fails when one of them fails or when the data lacks a required column.", "quantifier": "every list of stages and every data frame", "why_tests_cant": "All pipelines.", "anchors": ["hadar/workflow/pipeline.py:Pipeline.__call__", "hadar/workflow/pipeline.py:Stage.__call__"]}
{"id": "C48", "title": "An accepted pipeline never lacks a column midway", "statement": "If building a pipeline succeeds and the input data has the columns the pipeline requires, then no stage is refused its input while running.", "quantifier": "every list of stages accepted by the constructor, every data frame accepted by the pipeline", "why_tests_cant": "All stage sequences.", "anchors": ["hadar/workflow/pipeline.py:Pipeline.__init__", "hadar/workflow/pipeline.py:RestrictedPlug.linkable_to", "hadar/workflow/pipeline.py:RestrictedPlug.__add__", "hadar/workflow/pipeline.py:FreePlug.linkable_to"]}
{"id": "C49", "title": "Plug arithmetic", "statement": "Linking plugs follows the documented rules: free+free=free, p+free=p, free+p=p, [a->x,y]+[x->z]=[a->z,y], and linking is refused exactly when a required input is missing.", "quantifier": "every pair of plugs", "why_tests_cant": "All column sets.", "anchors": ["hadar/workflow/pipeline.py:FreePlug.__add__", "hadar/workflow/pipeline.py:RestrictedPlug.__add__"]}
{"id": "C50", "title": "Repeating scenarios", "statement": "RepeatScenario(n) on data with m scenarios gives n*m scenarios where scenario k*m+i is a copy of scenario i.", "quantifier": "every data frame with the same columns for every scenario, every n", "why_tests_cant": "All sizes.", "anchors": ["hadar/workflow/pipeline.py:RepeatScenario._process_timeline", "hadar/workflow/pipeline.py:Stage.build_multi_index"]}
{"id": "C51", "title": "Clipping", "statement": "Clip keeps every value within its bounds, leaves values already within unchanged, and applying it twice is the same as once.", "quantifier": "every data frame and bounds with lower <= upper", "why_tests_cant": "All values.", "anchors": ["hadar/workflow/pipeline.py:Clip._process_timeline"]}
{"id": "C52", "title": "Renaming and dropping columns", "statement": "Rename replaces exactly the listed column names in every scenario and Drop removes exactly the listed columns from every scenario; data of other columns is unchanged.", "quantifier": "every data frame and every renaming or list of names", "why_tests_cant": "All frames.", "anchors": ["hadar/workflow/pipeline.py:Rename._process_timeline", "hadar/workflow/pipeline.py:Drop._process_timeline", "hadar/workflow/pipeline.py:ToShuffler"]}
{"id": "C53", "title": "Faults only remove the announced loss", "statement": "After Fault, every quantity is the original minus loss times the number of drawn faults covering that time step; each fault covers at most downtime_max-1 steps, and no other column appears.", "quantifier": "every data frame and every outcome of the random draws", "why_tests_cant": "All random outcomes.", "anchors": ["hadar/workflow/pipeline.py:Fault._process_scenarios", "hadar/workflow/pipeline.py:FocusStage._process_timeline"]}
{"id": "C54", "title": "Scenario-wise stages treat scenarios independently", "statement": "A stage defined scenario by scenario produces, for each scenario, the output computed from that scenario's columns only, restricted to its declared output columns.", "quantifier": "every per-scenario function and every data frame", "why_tests_cant": "All stages and frames.", "anchors": ["hadar/workflow/pipeline.py:FocusStage._process_timeline"]}
{"id": "C55", "title": "Building a pipeline does not alter its parts", "statement": "Building a pipeline, or adding a stage to one, leaves the given stages and the original pipeline unchanged, so that they can be reused.", "quantifier": "every pipeline, stage and sequence of additions", "why_tests_cant": "Aliasing depends on history.", "anchors": ["hadar/workflow/pipeline.py:Pipeline.__init__", "hadar/workflow/pipeline.py:Pipeline.__add__", "hadar/workflow/pipeline.py:RestrictedPlug.__add__"]}
{"id": "C56", "title": "Running a pipeline leaves the input data intact", "statement": "Calling a pipeline or stage does not change the data frame it is given.", "quantifier": "every pipeline and data frame", "why_tests_cant": "Side effects on all inputs.", "anchors": ["hadar/workflow/pipeline.py:Stage.standardize_column", "hadar/workflow/pipeline.py:Pipeline.__call__"]}
{"id": "C57", "title": "Sampling draws existing scenarios", "statement": "sample(nb) returns nb rows, each of them one of the rows of the data, for any sampler drawing in range.", "quantifier": "every data matrix, nb and sampler outcome", "why_tests_cant": "All random outcomes.", "anchors": ["hadar/workflow/shuffler.py:Timeline.sample"]}
{"id": "C58", "title": "Shuffling keeps timelines apart", "statement": "shuffle(nb) returns for each registered name nb rows drawn from that name's own data (for a pipeline, the to_shuffler columns of its output, one row per scenario), whatever the order in which workers finish; a pipeline that does not produce to_shuffler is refused when added.", "quantifier": "every set of registrations, every worker schedule", "why_tests_cant": "All registrations and schedules.", "anchors": ["hadar/workflow/shuffler.py:Shuffler.shuffle", "hadar/workflow/shuffler.py:Shuffler.add_pipeline", "hadar/workflow/shuffler.py:TimelinePipeline.compute"]}
{"id": "C59", "title": "Storage candles show the storage level", "statement": "In the storage chart each candle opens where the previous one closed, the first opens at the initial capacity, and each closes at the level reported in the result.", "quantifier": "every solved study and storage", "why_tests_cant": "Relies on the LP constraint over all horizons.", "anchors": ["hadar/viewer/abc.py:StorageFluentAPISelector.candles"]}
{"id": "C60", "title": "Node stack is balanced", "statement": "In the stack chart of a node with prod_kind='used' and cons_kind='given', the top of the areas equals the top of the lines at every time step.", "quantifier": "every solved study, node, scenario, time", "why_tests_cant": "End-to-end over all studies.", "anchors": ["hadar/viewer/abc.py:NodeFluentAPISelector.stack", "hadar/viewer/html.py:HTMLElementPlotting.stack"]}
{"id": "C61", "title": "Exchange map shows net flows", "statement": "In the exchange map, each pair of linked nodes is drawn with the non-negative net flow in the direction it goes, and node values are their balances, within the colour limit.", "quantifier": "every result, scenario, time", "why_tests_cant": "All graphs.", "anchors": ["hadar/viewer/abc.py:NetworkFluentAPISelector.map"]}
{"id": "C62", "title": "Monotone charts", "statement": "The monotone chart shows exactly the selected values, sorted from highest to lowest.", "quantifier": "every value vector", "why_tests_cant": "All vectors.", "anchors": ["hadar/viewer/html.py:HTMLElementPlotting.monotone"]}
{"id": "C63", "title": "RAC matrix", "statement": "The adequacy percentage of the RAC chart is the share of (scenario,time) cells with non-negative RAC, between 0 and 100; the colour matrix keeps the sign of every cell and stays in [-1,1].", "quantifier": "every RAC matrix", "why_tests_cant": "All matrices.", "anchors": ["hadar/viewer/abc.py:NetworkFluentAPISelector.rac_matrix", "hadar/viewer/html.py:HTMLElementPlotting.matrix"]}
{"id": "C64", "title": "Charts take a time or a scenario, not both", "statement": "Every monotone or gaussian chart call with both t and scn raises ValueError; with exactly one it plots the values of that time (over scenarios) or scenario (over time).", "quantifier": "every chart call", "why_tests_cant": "All calls.", "anchors": ["hadar/viewer/abc.py:FluentAPISelector.not_both", "hadar/viewer/abc.py:ConsumptionFluentAPISelector.monotone"]}
{"id": "C65", "title": "Remote and local solving agree", "statement": "When the server decodes the study it receives, solves it with the same solver and sends the encoded result, RemoteOptimizer.solve returns exactly what LPOptimizer.solve returns for that study.", "quantifier": "every study with complete converters and separator-free source names, every solver, any number of polls", "why_tests_cant": "Composes two round trips and a protocol over all studies and histories; a lossy field anywhere breaks it.", "anchors": ["hadar/optimizer/optimizer.py:RemoteOptimizer.solve", "hadar/optimizer/optimizer.py:LPOptimizer.solve", "hadar/optimizer/remote/optimizer.py:solve_remote"]}
{"id": "C66", "title": "Seeded faults are reproducible", "statement": "Running a Fault stage built with a seed on the same data gives the same result, whatever happened before in the process and whatever the operating system's entropy gives.", "quantifier": "every seed, every fault parameters, every data frame, every generator state", "why_tests_cant": "A test compares two runs of one seed; the claim is for all seeds (0 behaves differently), all states of numpy's global generator and all entropy.", "anchors": ["hadar/workflow/pipeline.py:Fault._process_scenarios", "hadar/workflow/pipeline.py:Stage.__call__"]}
{"id": "C67", "title": "Gaussian charts mark adequacy", "statement": "In the gaussian chart of an element at a time (resp. in a scenario), every value over scenarios (resp. over time) is drawn once, green when the network has a non-negative margin (RAC) in that scenario and time, red otherwise.", "quantifier": "every result, element, time or scenario", "why_tests_cant": "All networks, all combinations of adequacy.", "anchors": ["hadar/viewer/abc.py:ConsumptionFluentAPISelector.gaussian", "hadar/viewer/abc.py:DestConverterFluentAPISelector.gaussian", "hadar/viewer/html.py:HTMLElementPlotting.gaussian"]}
{"id": "C68", "title": "Timeline charts", "statement": "The timeline of an element has exactly one curve per scenario, in order, showing the value of the element at each time step of that scenario, in order.", "quantifier": "every result and element", "why_tests_cant": "All horizons, numbers of scenarios and tables.", "anchors": ["hadar/viewer/abc.py:ConsumptionFluentAPISelector.timeline", "hadar/viewer/html.py:HTMLElementPlotting.timeline"]}
{"id": "C69", "title": "Stacks pile costly elements first", "statement": "The bands of the productions (and of the storage outflows) in the stack chart of a node are each element of the node once, with its values, piled from the highest peak cost to the lowest.", "quantifier": "every result, node and scenario", "why_tests_cant": "All sets of elements and costs; ties.", "anchors": ["hadar/viewer/abc.py:NodeFluentAPISelector.stack"]}
{"id": "C70", "title": "What the optimizer accepts", "statement": "solve_lp returns a result for a study built through the API exactly when every converter has been given a destination, wherever a ratio is zero the ratio or the maximum of the converter was given as an array and the maximum is not zero there, and no source of a converter has names that '::' makes ambiguous; otherwise it raises. (Studies with a converter having two sources with the same text network::node are not concerned.)", "quantifier": "every study built through the API with at least one scenario and one time step, every solver", "why_tests_cant": "All studies, names, ratios and solver answers.", "anchors": ["hadar/optimizer/lp/optimizer.py:solve_lp", "hadar/optimizer/lp/mapper.py:InputMapper", "hadar/optimizer/lp/mapper.py:OutputMapper"]}
{"id": "C71", "title": "There is a dispatch of least cost", "statement": "For every study whose limits are not negative, the problem given to the solver has an optimal solution, so a solver that answers optimally exists and LPOptimizer with it returns a feasible dispatch of least cost in every scenario. More generally, wherever some answer respects all constraints, some answer is optimal.", "quantifier": "every study accepted by the optimizer, every scenario", "why_tests_cant": "Existence of a minimum over infinitely many dispatches, for all studies.", "anchors": ["hadar/optimizer/lp/optimizer.py:solve_lp", "hadar/optimizer/lp/optimizer.py:ObjectiveBuilder", "hadar/optimizer/lp/optimizer.py:AdequacyBuilder"]}
{"id": "C72", "title": "More means never cost more", "statement": "If one study differs from another only by larger capacities of productions, links, storages or converters, or by lower costs, the cost of its solution is never higher than that of the other.", "quantifier": "every pair of such studies, every scenario, all solvers that answer optimally, ratios of converters not negative", "why_tests_cant": "Compares optima over all dispatches of all pairs of studies.", "anchors": ["hadar/optimizer/lp/optimizer.py:solve_lp", "hadar/optimizer/lp/optimizer.py:ObjectiveBuilder", "hadar/optimizer/lp/optimizer.py:AdequacyBuilder"]}
{"id": "C73", "title": "Units do not matter", "statement": "Multiplying all costs of a study by x > 0 and all quantities by y > 0 multiplies its least cost by x y, and its least cost dispatches by y.", "quantifier": "every study and all positive factors, ratios of converters not negative", "why_tests_cant": "All studies and rational factors; optimum over all dispatches.", "anchors": ["hadar/optimizer/lp/optimizer.py:solve_lp", "hadar/optimizer/lp/optimizer.py:ObjectiveBuilder", "hadar/optimizer/lp/optimizer.py:AdequacyBuilder"]}
{"id": "C74", "title": "Independent parts are optimized independently", "statement": "The solution costs the least in each part of the study that shares no link, storage or converter with the rest: what the part costs does not depend on the data of the rest. In particular, without storages each time step costs the least it can, and without converters so does each network.", "quantifier": "every study, every part that does not interact with the rest", "why_tests_cant": "All studies, partitions and data of the other parts.", "anchors": ["hadar/optimizer/lp/optimizer.py:solve_lp", "hadar/optimizer/lp/optimizer.py:ObjectiveBuilder", "hadar/optimizer/lp/optimizer.py:AdequacyBuilder"]}
{"id": "C75", "title": "Least cost dispatches have prices", "statement": "In a study without link from a node to itself, the solution comes with prices of energy at each node and time step (and values of stored and converted energy) at which no production, cut consumption, link, storage or converter would rather run at another level: what costs less than the price runs fully, what costs more does not run. Conversely a feasible dispatch that has such prices costs the least.", "quantifier": "every study accepted by the optimizer without link from a node to itself, every scenario", "why_tests_cant": "Existence of prices over all studies; optimality against all dispatches.", "anchors": ["hadar/optimizer/lp/optimizer.py:solve_lp", "hadar/optimizer/lp/optimizer.py:ObjectiveBuilder", "hadar/optimizer/lp/optimizer.py:AdequacyBuilder", "hadar/optimizer/lp/optimizer.py:StorageBuilder", "hadar/optimizer/lp/optimizer.py:ConverterMixBuilder"]}
{"id": "C76", "title": "No cheaper way is left unused", "statement": "In the solution of a study without link from a node to itself, energy that would save v at a node (by lowering a production or serving a cut consumption) cannot be had for less elsewhere: neither produced at another node and carried along links with room (or by relieving opposite links), nor produced earlier and kept in a storage with room, nor obtained from a converter with room. No circulation of energy saves money.", "quantifier": "every study, pair of nodes, path of any length, storage, duration and converter", "why_tests_cant": "Paths of any length and all studies.", "anchors": ["hadar/optimizer/lp/optimizer.py:solve_lp", "hadar/optimizer/lp/optimizer.py:ObjectiveBuilder", "hadar/optimizer/lp/optimizer.py:AdequacyBuilder", "hadar/optimizer/lp/optimizer.py:StorageBuilder", "hadar/optimizer/lp/optimizer.py:ConverterMixBuilder"]}
{"id": "C77", "title": "The order of declarations does not matter", "statement": "Two studies with the same nodes, elements, converters and sources, declared in different orders, are both accepted or both refused by the optimizer and have solutions of the same cost.", "quantifier": "every pair of studies built through the API that differ by the order of declarations, every scenario and every optimal answer of the solver", "why_tests_cant": "All permutations of all studies; a test compares a few orders of one study.", "anchors": ["hadar/optimizer/lp/optimizer.py:solve_lp", "hadar/optimizer/lp/optimizer.py:StorageBuilder.add_node", "hadar/optimizer/lp/mapper.py:InputMapper.get_node_var", "hadar/optimizer/domain/input.py:Study"]}
{"id": "C78", "title": "A solved study has no dangling link or converter", "statement": "When solve_lp returns a result, every link goes to a node of its own network, every converter has a destination that is a node of the study, and every source of a converter is a pair (network, node) of the study. This holds of any study object, also one read from JSON or edited by hand; otherwise solve_lp raises.", "quantifier": "every study object with at least one scenario and one time step, every solver", "why_tests_cant": "All malformed study objects; a test tries a few.", "anchors": ["hadar/optimizer/lp/optimizer.py:AdequacyBuilder", "hadar/optimizer/lp/optimizer.py:solve_lp", "hadar/optimizer/domain/input.py:Study.from_json"]}
{"id": "C79", "title": "Which studies the analyzer accepts", "statement": "Given a study whose converters all have a destination and at least one source, and its result, ResultAnalyzer(study, result) succeeds exactly when every converter but the last declared has one source and the last has at most two; otherwise it raises. A solved study can thus be impossible to analyse.", "quantifier": "every study built through the API with more than one pair (scenario, time step), every result of it, any content of uninitialised memory", "why_tests_cant": "All studies and results; a test has one converter.", "anchors": ["hadar/analyzer/result.py:ResultAnalyzer.__init__", "hadar/analyzer/result.py:ResultAnalyzer._build_src_converter", "hadar/analyzer/result.py:ResultAnalyzer._build_dest_converter"]}
{"id": "C80", "title": "Energy accounts of the whole study", "statement": "In the result of solve_lp, at each time step, all that consumptions get, storages take in and converters use equals all that productions give, storages give out and converters give: links neither make nor lose energy. Over the study, what is served, used by converters, lost by storages and left in them equals what is produced, given by converters and stored at first. If storages and converters do not make energy, no more is served than what is produced and stored at first.", "quantifier": "every study built through the API that solve_lp accepts, every feasible answer of the solver, every scenario", "why_tests_cant": "A sum over any number of nodes, links, storages, converters and steps; tests check the result of a few small studies.", "anchors": ["hadar/optimizer/lp/optimizer.py:AdequacyBuilder", "hadar/optimizer/lp/optimizer.py:StorageBuilder", "hadar/optimizer/lp/optimizer.py:ConverterMixBuilder", "hadar/optimizer/lp/optimizer.py:solve_lp"]}
{"id": "C81", "title": "Prices explain the cost and say what more load costs", "statement": "The optimal result comes with prices of energy such that the cost is what consumptions pay at these prices (or the cost of cutting them, if less), less what productions, links, storages, converters and initial levels earn at them. Conversely a dispatch that costs what the study is worth at some prices is one at which nobody would rather do something else. If only the loads of the study change, the new least cost is at least the old one plus the change of load counted at the price (or the cost of cutting, if less). (Where a converter has a ratio of zero the new prices of its source must not be negative.)", "quantifier": "every study built through the API that solve_lp accepts, without link from a node to itself and with at most one storage per node, every optimal answer of the solver, every change of loads", "why_tests_cant": "Any network and any change of loads; a test compares two optima of one study.", "anchors": ["hadar/optimizer/lp/optimizer.py:ObjectiveBuilder", "hadar/optimizer/lp/optimizer.py:AdequacyBuilder", "hadar/optimizer/lp/optimizer.py:solve_lp"]}
{"id": "C82", "title": "Equality of studies and results is equality of data", "statement": "For two studies made through the fluent API (or two results): `a == b` always answers, and is True exactly when both hold the same networks, nodes, elements, converters, series, horizon and number of scenarios (networks, nodes and converters in any order). In particular a study equals what from_json reads from its to_json, and `a == a`. Equal objects have the same hash when they have one. (The code only answers when no two different arrays of several numbers meet; otherwise it raises ValueError.)", "quantifier": "for all sequences of API calls building the two studies, all results, all ways in which the two objects share parts in memory, all versions of numpy allowed by the requirements, all hash functions of numbers and strings", "why_tests_cant": "The answer depends on the shape of every series, on which arrays are shared by the two objects and on the order of keys; tests of the repository compare small studies of one time step or scalar series, where the comparison never meets an array of two numbers.", "anchors": ["hadar/optimizer/utils.py:11-34", "hadar/optimizer/domain/numeric.py:157-165", "hadar/optimizer/domain/numeric.py:23-26", "hadar/optimizer/domain/input.py:281-286", "hadar/optimizer/domain/output.py:270-272"]}
{"id": "C83", "title": "Adding means never costs more", "statement": "After further calls of the fluent API (more nodes, productions, links, storages, converters, loads), the least cost is at most the old one plus the cost of cutting all added loads and of leaving the added storages as they start. So adding productions, links, converters and empty storages never makes a study cost more. (No converter that was there may be given a further source: then the cost may rise, since a converter needs all its sources.)", "quantifier": "every list of API calls, every further list of API calls, every feasible answer before and every optimal answer after, all horizons and scenarios", "why_tests_cant": "Any study, any extension: the solver may choose another dispatch everywhere; a test compares two optima of one pair of studies.", "anchors": ["hadar/optimizer/lp/optimizer.py:solve_lp", "hadar/optimizer/lp/optimizer.py:ObjectiveBuilder", "hadar/optimizer/lp/optimizer.py:AdequacyBuilder", "hadar/optimizer/lp/optimizer.py:ConverterMixBuilder", "hadar/optimizer/domain/input.py:NetworkFluentAPISelector"]}
{"id": "C84", "title": "Elements that can do nothing change nothing", "statement": "Adding, by further API calls, elements whose limits are all zero (loads of 0, productions and links of quantity 0, storages of flows and level 0, converters of max 0) leaves the least cost exactly as it was.", "quantifier": "every list of API calls, every further list of API calls adding only elements with zero limits, every optimal answer before and after; ratios of the added converters are not negative, and no converter that was there is given a further source", "why_tests_cant": "Any study, any number of added elements, in any place; a test adds one.", "anchors": ["hadar/optimizer/lp/optimizer.py:solve_lp", "hadar/optimizer/lp/optimizer.py:ObjectiveBuilder", "hadar/optimizer/lp/optimizer.py:AdequacyBuilder", "hadar/optimizer/lp/optimizer.py:ConverterMixBuilder", "hadar/optimizer/domain/input.py:NetworkFluentAPISelector"]}
{"id": "C85", "title": "Mixtures of studies", "statement": "If the loads and initial levels of a study are x times those of a first study (or scenario) plus y times those of a second one, its limits are that or more, and the three have the same elements, costs, ratios and efficiencies, then its least cost is at most x times the cost of the first plus y times that of the second. If the costs are mixed instead, all else being the same, its cost is at least that.", "quantifier": "every three studies built through the API that solve_lp accepts, every scenario of each, all x, y >= 0, feasible answers for the mixed studies and optimal ones for the mixture (the other way for costs), ratios not negative", "why_tests_cant": "Any network, any data: a test compares three optima of chosen data.", "anchors": ["hadar/optimizer/lp/optimizer.py:solve_lp", "hadar/optimizer/lp/optimizer.py:ObjectiveBuilder", "hadar/optimizer/lp/optimizer.py:AdequacyBuilder", "hadar/optimizer/lp/optimizer.py:StorageBuilder", "hadar/optimizer/lp/optimizer.py:ConverterMixBuilder"]}
{"id": "C86", "title": "The mean scenario never costs more than the mean of the costs", "statement": "For a study with several scenarios whose costs, ratios, efficiencies and initial levels do not depend on the scenario, the study of the mean scenario (any weights) has a least cost at most the mean of the costs of the scenarios.", "quantifier": "every study built through the API with any number of scenarios, all weights, every feasible answer for the scenarios and every optimal one for the mean; ratios of converters are not negative", "why_tests_cant": "Any number of scenarios and any data; a test compares optima of a few scenarios.", "anchors": ["hadar/optimizer/lp/optimizer.py:solve_lp", "hadar/optimizer/lp/optimizer.py:ObjectiveBuilder", "hadar/optimizer/lp/optimizer.py:AdequacyBuilder", "hadar/optimizer/lp/optimizer.py:StorageBuilder", "hadar/optimizer/lp/optimizer.py:ConverterMixBuilder"]}
{"id": "C87", "title": "Names do not matter", "statement": "Give other names to the networks, nodes, converters and elements of a study, distinct names staying distinct: every call of the fluent API returns or raises what it did, the study built is the same under the new names, its dispatches are the same under the new names at the same cost, and solve_lp finds the same least cost. The empty name must stay the empty name: a converter going to a node called '' can be sent elsewhere.", "quantifier": "every injective renaming keeping the empty network and node name, every sequence of calls of the fluent API, every study that solve_lp accepts before, and whose new source names do not contain the separator, every optimal answer", "why_tests_cant": "All renamings of all studies: a test tries one renaming of one study.", "anchors": ["hadar/optimizer/domain/input.py:NetworkFluentAPISelector", "hadar/optimizer/domain/input.py:NodeFluentAPISelector", "hadar/optimizer/domain/input.py:Study", "hadar/optimizer/lp/optimizer.py:solve_lp"]}
{"id": "C88", "title": "Part of the time steps of a study", "statement": "Take some consecutive time steps of a study as a study of their own, whose storages start at the levels that a solution of the whole has reached. Solving it costs no more than these steps cost in that solution; when they are the last steps and the solution of the whole is optimal, it costs exactly the same. Conversely the first steps solved alone, then the next ones from the levels reached, never cost less than the whole, and exactly the same when there is no storage. With a storage they can cost more (10 + 130 in place of 50) though each part is solved at its least cost. When no cost is negative a study never costs less than its first steps alone.", "quantifier": "every study that solve_lp accepts, every cut of its time steps, every scenario, every feasible (or optimal where said) answer of the solver", "why_tests_cant": "All studies, all horizons and all cuts: a test solves one study cut in one place.", "anchors": ["hadar/optimizer/lp/optimizer.py:solve_lp", "hadar/optimizer/lp/optimizer.py:StorageBuilder", "hadar/optimizer/lp/optimizer.py:ObjectiveBuilder", "hadar/optimizer/lp/optimizer.py:AdequacyBuilder"]}
{"id": "C89", "title": "What a JSON file says", "statement": "The files that can be read have a grammar: which keys each object must have, may have and must not have, and what each of them holds. Reading a plain JSON file gives a study exactly when the file says that study. A key that hadar does not know inside a network, a node, an element or a converter makes the reading fail, at the top of the file it does not count; a consumption or production without name gets the default name, a false version gets the version of the library; quantities may be bare numbers or lists, or the objects that hadar writes. A file says at most one study. Any study that was read, whoever wrote the file, is written to a file that is read as that study. The same holds of results.", "quantifier": "every plain JSON value (distinct keys in every object, any nesting and size), every study and result", "why_tests_cant": "The grammar is over all files: a test reads the few files hadar wrote itself.", "anchors": ["hadar/optimizer/domain/input.py:Study.from_json", "hadar/optimizer/domain/input.py:InputNode.from_json", "hadar/optimizer/domain/input.py:Converter.from_json", "hadar/optimizer/domain/numeric.py:NumericalValueFactory.create", "hadar/optimizer/domain/output.py:Result.from_json", "hadar/optimizer/utils.py:JSON"]}
{"id": "C90", "title": "Elements that cost the same can be put together", "statement": "Take a study, and in each of its nodes put consumptions that cost the same at all time steps in groups, and productions likewise; build the study that has one consumption or production per group, with the sum of the quantities. Both studies have the same least cost, whatever the groups. The flows of any dispatch of the first study, added up by group, are a dispatch of the second study at the same cost, and those of a least cost dispatch are a least cost dispatch.", "quantifier": "every pair of studies built with the API where the second one groups the first one, every scenario, every time series, every solver that answers the optimum; quantities of the first study are not negative (for the equality of least costs)", "why_tests_cant": "Over all studies and groupings: a test compares one pair, for the solutions that one solver gives.", "anchors": ["hadar/optimizer/lp/optimizer.py:ObjectiveBuilder", "hadar/optimizer/lp/optimizer.py:AdequacyBuilder", "hadar/optimizer/lp/optimizer.py:solve_lp", "hadar/optimizer/lp/mapper.py:InputMapper.get_node_var"]}
{"id": "C91", "title": "Bounds on the cost and on the loss of load", "statement": "When no cost is negative, a study never costs less than zero, and never less than the cost of its loss of load: where losing a unit costs at least v, the load lost is at most the cost of the study divided by v; a study that costs nothing serves all of its loads. When limits are not negative and storages can hold their initial level, a study solved at its least cost never costs more than losing all loads while storages keep their initial level.", "quantifier": "every study built with the API that meets the sign conditions, every scenario, every solver whose answers are feasible (optimal for the upper bound)", "why_tests_cant": "Over all studies, series and answers of the solver: a test checks one cost.", "anchors": ["hadar/optimizer/lp/optimizer.py:ObjectiveBuilder", "hadar/optimizer/lp/optimizer.py:AdequacyBuilder", "hadar/optimizer/lp/optimizer.py:solve_lp", "hadar/optimizer/lp/mapper.py:InputMapper.get_node_var"]}
{"id": "C92", "title": "Comparing a series with a number", "statement": "Comparing a quantity of a study with a number says so of all of its values: q < x when every value, at every time step of every scenario, is below x, and likewise for q > x, q <= x and q >= x.", "quantifier": "every horizon, number of scenarios, number or array given as quantity, every number compared", "why_tests_cant": "Over all shapes and values of arrays: a test compares a few arrays.", "anchors": ["hadar/optimizer/domain/numeric.py:NumericalValue.__lt__", "hadar/optimizer/domain/numeric.py:NumericalValue.__gt__", "hadar/optimizer/domain/numeric.py:NumericalValue.__le__", "hadar/optimizer/domain/numeric.py:NumericalValue.__ge__"]}
{"id": "C93", "title": "Storages do not fill and empty at the same time", "statement": "In the answer of the optimizer, a storage that loses energy never takes in and gives back energy at the same time step, and for a storage that loses nothing, taking what goes in and out at once off both flows gives a dispatch with the same cost.", "quantifier": "every study built with the API without link from a node to itself, every scenario, every storage and time step, every solver that answers the optimum", "why_tests_cant": "Over all studies, series and optimal answers of the solver: a test looks at the answer of one solver on one study.", "anchors": ["hadar/optimizer/lp/optimizer.py:StorageBuilder", "hadar/optimizer/lp/optimizer.py:AdequacyBuilder", "hadar/optimizer/lp/optimizer.py:ObjectiveBuilder", "hadar/optimizer/lp/optimizer.py:solve_lp"]}
{"id": "C94", "title": "Gaussian charts draw the normal law", "statement": "The gaussian chart of an element at a time (resp. in a scenario) draws every value over scenarios (resp. over time) as a point on the density of the normal law that has the mean and the variance of these values, and draws this density from 0 to 1.2 times the highest value.", "quantifier": "every study built with the API and result of the same shape, every element, time step or scenario", "why_tests_cant": "A statement about real functions for all lists of values: a test compares a few ordinates, computed with the same formula.", "anchors": ["hadar/viewer/html.py:HTMLElementPlotting.gaussian", "hadar/viewer/abc.py:ConsumptionFluentAPISelector.gaussian", "hadar/viewer/abc.py:ProductionFluentAPISelector.gaussian", "hadar/viewer/abc.py:LinkFluentAPISelector.gaussian"]}
{"id": "C95", "title": "Arrows of the exchange map point where energy goes", "statement": "On the exchange map every node is drawn at its coordinates with its balance, and each pair of linked nodes has an arrow from the coordinates of the node that the net flow leaves to those of the node it reaches: the tip of its head lies on the segment at nine tenths of the way, its base is across the segment, centred on it, behind the tip. Its text is the net flow and its colour grows with it. The map is centred on the mean of the coordinates of the nodes, and its zoom is the inverse of the size, up to a constant.", "quantifier": "every study built with the API and result of the same shape, every network with nodes, coordinates of all nodes, time step, scenario, colour limit and size other than 0", "why_tests_cant": "Over all studies, flows and coordinates: a test checks the figure of one map.", "anchors": ["hadar/viewer/html.py:HTMLElementPlotting.map_exchange", "hadar/viewer/html.py:HTMLElementPlotting._plot_links", "hadar/viewer/abc.py:NetworkFluentAPISelector.map"]}
{"id": "C96", "title": "Time axis", "statement": "Charts over time have one abscissa per time step: 0, 1, 2, ... without dates, evenly spaced dates from time_start to time_end, both included, with two dates; giving only one of them raises ValueError.", "quantifier": "every horizon, every start and end", "why_tests_cant": "Over all horizons and dates: a test checks one axis.", "anchors": ["hadar/viewer/abc.py:ABCPlotting.__init__"]}
{"id": "C97", "title": "Loss of load is the greatest deficit of a region", "statement": "Whatever the solver answers within the limits of a study, each set of nodes loses at least what its consumptions ask for less all that its productions and storages can give, all that links from outside can bring and all that converters can give to its nodes (its deficit). In a study without storage or converter, where losing load costs more than producing and carrying energy through all the nodes, an optimal answer loses at every time exactly the greatest deficit of a set of nodes: no load is lost if and only if no set of nodes has a deficit, and no dispatch within the limits loses less. So a study that has the same elements with no less means and no more needs never loses more, and a study that differs in costs only, losing load being still the worst, loses the same.", "quantifier": "every study built with the API that solve_lp accepts and has no link from a node to itself, every scenario, time step and set of nodes", "why_tests_cant": "A max-flow min-cut statement over all studies and all sets of nodes: a test checks the loss of load of one study.", "anchors": ["hadar/optimizer/lp/optimizer.py:solve_lp", "hadar/optimizer/lp/optimizer.py:AdequacyBuilder", "hadar/optimizer/lp/optimizer.py:ObjectiveBuilder", "hadar/optimizer/lp/mapper.py:OutputMapper"]}
{"id": "C98", "title": "Optimal results differ at the margin only", "statement": "Two optimal results of the same study, from any two solvers or runs, have the same prices, and may only differ on elements that break even with these prices: where some production that costs c runs without running fully, or some consumption that costs c is cut without being cut fully, every production and every consumption of the node whose cost is not c has the same quantity in all optimal results, and so has a link to a node where energy is worth something else than c and the cost of the link.", "quantifier": "every study built with the API that solve_lp accepts, with no link from a node to itself and at most one storage per node, every pair of optimal answers, every scenario and time step", "why_tests_cant": "Over all optimal answers of a linear problem: a test sees the answer of one solver only.", "anchors": ["hadar/optimizer/lp/optimizer.py:solve_lp", "hadar/optimizer/lp/optimizer.py:ObjectiveBuilder", "hadar/optimizer/lp/optimizer.py:AdequacyBuilder"]}
{"id": "C99", "title": "Series given by the shuffler fit a study", "statement": "After any registrations, the rows that shuffle(nb_scn) gives for a name, when what was last registered under that name has as many values in each row as the horizon of the study and no NaN, are accepted as a quantity or a cost by a study with nb_scn scenarios, and refused by a study with another number of scenarios or, unless rows have one value, another horizon. A production or a consumption added with them has, in each scenario and over the whole horizon, one same row of what was registered under that name.", "quantifier": "every sequence of registrations, sampler within range, number of workers, order of completion and random state of workers; every study and node of it", "why_tests_cant": "Over all samplers, random states, interleavings of workers and sizes: a test draws once.", "anchors": ["hadar/workflow/shuffler.py:Shuffler.shuffle", "hadar/optimizer/domain/numeric.py:NumericalValueFactory.create", "hadar/optimizer/domain/input.py:Study._add_production", "hadar/optimizer/domain/input.py:Study._add_consumption"]}
{"id": "C100", "title": "Data given to the API is not changed afterwards", "statement": "A quantity or cost given to the API keeps, in the study, the values that it had when it was given and checked, whatever the caller does afterwards with the objects they gave.", "quantifier": "every value given, every sequence of later calls and of changes in place of the caller's arrays", "why_tests_cant": "Over all later sequences of writes by the caller: a test does not write in its inputs after building the study.", "anchors": ["hadar/optimizer/domain/numeric.py:NumericalValueFactory.create", "hadar/optimizer/domain/numeric.py:NumpyNumericalValue"]}
{"id": "C101", "title": "Results of a solver that breaks limits and constraints a little", "statement": "Solvers work up to a tolerance. When the solver breaks no bound and no constraint by more than e, in a study without link from a node to itself and with at most one storage per node, every flow and level of the result is within its limits, every node is balanced, every storage follows its flows at each step and every converter its ratios, give or take e. Errors on the level of a storage add up over time, one e per step and no more. The result costs at least the least cost less e times what one unit of error is worth at the prices of an exact result; if the solver besides is within a gap of the best objective, it costs at most the least cost plus the gap.", "quantifier": "every study built through the API, scenario, tolerance, gap and answer of the solver", "why_tests_cant": "Over all answers within a tolerance and all studies: tests compare a few results of one solver, rounded.", "anchors": ["hadar/optimizer/lp/optimizer.py:solve_lp", "hadar/optimizer/lp/optimizer.py:AdequacyBuilder", "hadar/optimizer/lp/optimizer.py:StorageBuilder", "hadar/optimizer/lp/optimizer.py:ConverterMixBuilder", "hadar/optimizer/lp/optimizer.py:ObjectiveBuilder"]}
{"id": "C102", "title": "What a program says is what its result shows", "statement": "A call of the fluent API that is accepted, anywhere in a program and whatever calls come before and after, accepted or refused, shows in the result of solve: at the node for which the selector stood when the call was made there is exactly one element of the name given. Each consumption, production, link, storage and converter stays, at each step of each scenario, between zero and the number which the call gave for that step, and is charged at the cost which the call gave; a storage follows its flows from init_capacity with the efficiency eff; what a converter takes at a source times the ratio of the call is what it gives. Parameters left out count as documented: cost 0, init_capacity 0, eff 0.99, ratio 1.", "quantifier": "every program of calls of the fluent API passing numbers, lists and arrays, every accepted call in it, every answer of the solver that respects limits and constraints", "why_tests_cant": "Over all programs, with calls refused and calls made on shared selectors, and all answers of the solver: tests look at results of a few fixed programs.", "anchors": ["hadar/optimizer/domain/input.py:NodeFluentAPISelector", "hadar/optimizer/domain/input.py:NetworkFluentAPISelector", "hadar/optimizer/domain/input.py:Study", "hadar/optimizer/lp/optimizer.py:solve_lp"]}
{"id": "C103", "title": "Types of numbers do not matter", "statement": "A study that was accepted and a result can be sent as JSON, and the study can be solved, whatever the types of its numbers (Python int and float, numpy arrays of any type). What arrives, and the result of solve, are the same for all types.", "quantifier": "every program of calls of the fluent API, every type for each number or array it passes, every answer of the solver, every result", "why_tests_cant": "Over all programs and all ways to give types to their numbers: tests use Python numbers, lists and float64 arrays, the types for which it works.", "anchors": ["hadar/optimizer/utils.py:JSON.convert", "hadar/optimizer/lp/domain.py:JSONLP.to_json", "hadar/optimizer/lp/domain.py:LPTimeStep.from_json", "hadar/optimizer/lp/optimizer.py:_solve_batch", "hadar/optimizer/lp/optimizer.py:solve_lp"]}
{"id": "C104", "title": "The merit order as a formula", "statement": "In a result, at any node and time, the productions that cost c together produce what the consumptions that cost more ask for, less what the node receives from its storages, links and converters and less what cheaper productions can produce, or the nearest bound of what they can do. The consumptions that cost c together are given what cheaper productions can produce, plus what the node receives, less what consumptions that cost more ask for, or the nearest bound. A node without storage, link and converter receives nothing: its result follows from its own data, whatever the solver.", "quantifier": "every study without link from a node to itself, every scenario, node, time and cost c that is not both the cost of a production and of a consumption", "why_tests_cant": "The result is given as a function of the data for all studies and all optimal solvers.", "anchors": ["hadar/optimizer/lp/optimizer.py:ObjectiveBuilder", "hadar/optimizer/lp/optimizer.py:AdequacyBuilder", "hadar/optimizer/lp/optimizer.py:_solve_batch"]}
{"id": "C105", "title": "Titles tell charts apart", "statement": "The title of a chart tells what it shows: two charts of one result with the same title are of the same sort and show the same values of the same element of the same node, at the same time step or in the same scenario. The matrix of margins announces the share of margins that are not negative, in percents cut to an integer.", "quantifier": "every chart, every name, every time step and scenario", "why_tests_cant": "Titles are texts put together from names chosen by users; that no two of them meet is a claim about all pairs of charts.", "anchors": ["hadar/viewer/abc.py:ConsumptionFluentAPISelector.timeline", "hadar/viewer/abc.py:StorageFluentAPISelector.monotone", "hadar/viewer/abc.py:NodeFluentAPISelector.stack", "hadar/viewer/abc.py:NetworkFluentAPISelector.rac_matrix", "hadar/viewer/abc.py:NetworkFluentAPISelector.map"]}
{"id": "C106", "title": "Shuffled timelines are drawn independently and anew", "statement": "With the default sampler, shuffle gives each timeline scenarios of its own, drawn apart from those of the other timelines and from those of former calls.", "quantifier": "every shuffler, number of scenarios, number of processes, order of workers and state of numpy's generators", "why_tests_cant": "A test with two small data sets and one call cannot tell independent draws from copies; what is drawn depends on how the pool cuts and pickles the timelines.", "anchors": ["hadar/workflow/shuffler.py:Shuffler.shuffle", "hadar/workflow/shuffler.py:Timeline.sample", "hadar/workflow/shuffler.py:compute"]}
{"id": "C107", "title": "Bars of storage charts", "statement": "In the chart of a storage there is one bar for each time step, at its time. It opens at the level before the time step and closes at the level after it, lies between its low and its high, and its text says both levels and their difference, which agree.", "quantifier": "every solved study, storage and scenario, every time axis", "why_tests_cant": "A test on one storage looks at one figure; whether a bar is well formed depends on whether the level rises, and what the text says on decimals.", "anchors": ["hadar/viewer/html.py:HTMLElementPlotting.candles", "hadar/viewer/abc.py:StorageFluentAPISelector.candles"]}
{"id": "C108", "title": "Colours of the exchange map", "statement": "On the exchange map an arrow and the scale of nodes are given the colours of the colour map: red, green and blue from 0 to 255.", "quantifier": "every colour map, flow and number of colours", "why_tests_cant": "A test compares the figure with itself for one flow; that a colour written is that of the map, at all places, is a statement on numbers.", "anchors": ["hadar/viewer/html.py:HTMLElementPlotting.matplotlib_to_plotly", "hadar/viewer/html.py:HTMLElementPlotting.map_exchange"]}
{"id": "C109", "title": "What is charged more is done less", "statement": "Charging x more for each unit of weight of what elements do (unmet load, production, level kept, link flow, converter flow), for instance a price on emissions, never makes the weight of what the optimal solution does grow; the least cost grows by at most what the former solution would be charged and by at least what the new one is charged. In particular when the cost of one element is raised at one time step, it does not do more there.", "quantifier": "every pair of studies built with the API that differ by these costs only, every optimal answers of any two solvers, every weights and price", "why_tests_cant": "A test compares two solutions of one study; that no optimal answer of any study does more of what is charged more is a statement on all feasible dispatches of both programs.", "anchors": ["hadar/optimizer/lp/optimizer.py:ObjectiveBuilder", "hadar/optimizer/lp/optimizer.py:_solve_batch", "hadar/optimizer/lp/mapper.py:InputMapper"]}
{"id": "C110", "title": "Texts of objects tell their data", "statement": "str() and repr() of a study or of a result write the class and the attributes in alphabetical order, down to each element and series. Two of them have the same text exactly when they have the same data.", "quantifier": "every study and result, every names and series, every object in memory that is this study or result", "why_tests_cant": "A test compares the text of one small object; that a text can be read in one way only is a statement on all texts, and equal texts of copies depend on what is shared in memory.", "anchors": ["hadar/optimizer/utils.py:DTO.__str__", "hadar/optimizer/utils.py:DTO.__repr__", "hadar/optimizer/domain/numeric.py:NumericalValueFactory"]}
{"id": "C111", "title": "The order of the calls of a query is free", "statement": "After analyzer.network(..), the calls node, time, scn and one kind of element can be made in any order: the query raises in all orders or in none, and the tables show the same lines with the same values. The order of the calls is the order of the levels and of the sort; leading levels with one value are left out. The order of the values given to one call does not matter.", "quantifier": "every analyzer (even with wrong tables), every filters, every permutation of the calls and of the values", "why_tests_cant": "A test tries one or two orders; that no order loses, merges or alters a line concerns all permutations and all tables.", "anchors": ["hadar/analyzer/result.py:ResultAnalyzer._pivot", "hadar/analyzer/result.py:ResultAnalyzer._remove_useless_index_level", "hadar/analyzer/result.py:NetworkFluentAPISelector"]}
{"id": "C112", "title": "Measured times", "statement": "The benchmark of a result gives for each scenario, in order, the time to build the problem and the time in the solver, then the time to write the result and the total. The times are non-negative and fit in the total. Measuring changes nothing else in the result.", "quantifier": "every study, solver, schedule of the workers, and every clock (that never goes back, for the bounds)", "why_tests_cant": "Tests cannot control the clock nor the order in which workers finish; they do not look at the benchmark at all.", "anchors": ["hadar/optimizer/lp/optimizer.py:_solve_batch", "hadar/optimizer/lp/optimizer.py:solve_lp", "hadar/optimizer/domain/output.py:Benchmark"]}
{"id": "C113", "title": "A link is a converter of ratio one", "statement": "Replacing a link of a study by a converter that takes from the node of the link, at ratio one, and gives to the node the link goes to, with the quantity of the link as maximum and its cost, does not change the least cost, and what goes through one can go through the other.", "quantifier": "every two studies built through the API that differ only by this link and this converter, every scenario, all optimal answers of solvers", "why_tests_cant": "A test compares one pair of studies and relies on one solver; the claim is about all dispatches of all pairs.", "anchors": ["hadar/optimizer/lp/optimizer.py:AdequacyBuilder.add_node", "hadar/optimizer/lp/optimizer.py:AdequacyBuilder.add_converter", "hadar/optimizer/lp/optimizer.py:ConverterMixBuilder", "docs/source/mathematics/linear-model.rst"]}
{"id": "C114", "title": "Networks only say which nodes can be linked", "statement": "Putting the nodes of a study in other networks, under other names, such that nodes that are linked stay in one network and links and converters follow the nodes, changes neither the dispatches nor the least cost. One network can so be cut in several, and several put together.", "quantifier": "every study the optimizer accepts, every way to place its nodes, every scenario, all optimal answers of solvers", "why_tests_cant": "There are as many ways to place nodes as studies; a test tries one and relies on one solver.", "anchors": ["hadar/optimizer/lp/optimizer.py:AdequacyBuilder", "hadar/optimizer/lp/optimizer.py:ObjectiveBuilder", "hadar/optimizer/domain/input.py:Study", "docs/source/mathematics/linear-model.rst"]}
{"id": "C115", "title": "Bands, lines and curves can be told apart", "statement": "In the stack chart of a node, each element that brings energy has one band with its name and each element that takes energy has one line with its name; a band import or a line export is added exactly when there is something to show; names and colours tell them apart. The curves of a timeline are named after their scenarios, no two alike, and none is invisible.", "quantifier": "every study built through the API and every result of its shape, every node, scenario, kind of quantity and order of equal costs", "why_tests_cant": "A test looks at one chart with few elements; names that meet and colours that come back need other studies.", "anchors": ["hadar/viewer/html.py:HTMLElementPlotting.stack", "hadar/viewer/html.py:HTMLElementPlotting.timeline", "hadar/viewer/abc.py:NodeFluentAPISelector.stack"]}
{"id": "C116", "title": "Faults occur as often as announced", "statement": "With a Fault stage, each timestamp has the probability occur_freq that a fault begins there, each fault lasts on average the mean of the durations allowed, and the quantity lost at a timestamp is on average loss times occur_freq times that mean.", "quantifier": "every loss, frequency, durations, frame, scenario and timestamp, over all that a fair generator can draw", "why_tests_cant": "A test draws a few times and compares with a tolerance; chances and means are sums over everything that can be drawn.", "anchors": ["hadar/workflow/pipeline.py:Fault.__init__", "hadar/workflow/pipeline.py:Fault._process_scenarios"]}
{"id": "C117", "title": "Sampled scenarios represent the data", "statement": "With the default sampler, shuffle draws scenarios such that any number read off a scenario has, on average, the average it has over the scenarios of the data; the average over the scenarios drawn is the nearer to that of the data the more are drawn; and what is drawn for one timeline says nothing of what is drawn for another.", "quantifier": "every shuffler of raw data, every number of scenarios, every function of a scenario, every distance and chance, over all that a fair generator can draw", "why_tests_cant": "A test draws one sample; averages over all samples, the speed at which they come near and independence are statements about every possible draw.", "anchors": ["hadar/workflow/shuffler.py:Timeline.sample", "hadar/workflow/shuffler.py:Shuffler.shuffle"]}
{"id": "C118", "title": "The same program with other data", "statement": "Running the same calls with other data behaves the same as far as the data agree: if a scenario of one study and a scenario of another are given the same values by the same calls, the same calls are accepted or refused, and the two scenarios have the same optimal cost and, with the same solver, the same flows; if the values are only ordered, so are the two studies: larger capacities or lower costs given to the same calls never make the study cost more, and multiplying all costs by x and all quantities by y multiplies its least cost by x y.", "quantifier": "every program of the fluent builder, any number of calls, any shapes of data (numbers, columns, matrices), any pair of scenarios, any solver", "why_tests_cant": "Tests run one program with one set of data; this relates the runs of all programs on all pairs of data.", "anchors": ["hadar/optimizer/domain/input.py:Study", "hadar/optimizer/domain/input.py:NetworkFluentAPISelector", "hadar/optimizer/domain/input.py:NodeFluentAPISelector", "hadar/optimizer/domain/numeric.py:NumericalValueFactory.create", "hadar/optimizer/lp/optimizer.py:solve_lp"]}
{"id": "C119", "title": "Costs estimated on sampled scenarios", "statement": "A study built with data drawn by the shuffler estimates the costs of the study built with all the data: the mean cost over the scenarios drawn is, on average, the mean cost over the scenarios of the data, its mean square error is the spread of the costs divided by the number drawn, so with enough scenarios it is within any distance but for a chance as small as wanted; the same holds of the energy not served when the same solver is used.", "quantifier": "every program, all data, any number of scenarios in the data and drawn, over all that a fair generator can draw, any solver that gives optimal answers", "why_tests_cant": "It speaks of all possible draws and of the whole chain from shuffler to optimiser; a test runs one draw.", "anchors": ["hadar/workflow/shuffler.py:Shuffler.shuffle", "hadar/workflow/shuffler.py:Timeline.sample", "hadar/optimizer/domain/input.py:Study", "hadar/optimizer/lp/optimizer.py:solve_lp"]}
{"id": "C120", "title": "Stages that can be swapped or merged", "statement": "A stage that clips can be put before or after one that renames, drops or repeats, with the same outcome on all data, errors included. Two stages that clip are one that clips to the higher of the lower bounds and the lower of the upper bounds, when some value is within all bounds. Two stages that drop are one that drops all the columns, and raise if they share a column. Two stages that rename are one that renames from the first names to the last, and renaming back gives the data back. Repeating m times then n times is repeating m*n times, and a stage that renames can be put before or after one that repeats, unless two columns get the same name.", "quantifier": "all data, bounds, names and numbers of repetitions, any random states", "why_tests_cant": "The laws compare two pipelines on every frame, with any scenarios, names, missing values and errors; tests run few frames.", "anchors": ["hadar/workflow/pipeline.py:Clip", "hadar/workflow/pipeline.py:Rename", "hadar/workflow/pipeline.py:Drop", "hadar/workflow/pipeline.py:RepeatScenario", "hadar/workflow/pipeline.py:Stage.__call__"]}
{"id": "C121", "title": "What an investment is worth", "statement": "When further calls add elements to a study, the cost saved by the optimal dispatch lies between two bounds given by prices: at most what the added elements, taken alone, would earn at the prices of the study before, and at least what they earn at the prices after. For one added production: at most, over time steps, its quantity times what the price before exceeds its cost by, and at least what it is asked to produce times what the price after exceeds its cost by; for one added link, the same with the difference of prices between its ends.", "quantifier": "every program and every further calls that add no source to a converter already there, every scenario, any two solvers with prices that go with their answers (an optimal answer has some, C75)", "why_tests_cant": "Bounds hold for all feasible dispatches of the two programs and all prices; a test compares two solutions on one study.", "anchors": ["hadar/optimizer/lp/optimizer.py:solve_lp", "hadar/optimizer/domain/input.py:NodeFluentAPISelector.production", "hadar/optimizer/domain/input.py:NetworkFluentAPISelector.link"]}
{"id": "C122", "title": "What the answer of a worker says", "statement": "The messages that worker processes send back have a grammar: which keys each object must have, may have (a consumption, production or link without cost costs nothing, a storage without cost, first level or efficiency has 0, 0 and 0.99) and must not have. A message is read as values of variables exactly when it says them, and says one thing at most; what a worker sends for a study is such a message and says the values the solver gave.", "quantifier": "every plain JSON value, of any nesting and size; every study built with the API whose numbers have types that can be sent, every scenario, every answer of the solver", "why_tests_cant": "Over all messages and all answers of solvers; tests read back a few messages.", "anchors": ["hadar/optimizer/lp/domain.py:LPTimeStep.from_json", "hadar/optimizer/lp/domain.py:LPNode.from_json", "hadar/optimizer/lp/domain.py:LPConverter.from_json", "hadar/optimizer/lp/optimizer.py:_solve_batch", "hadar/optimizer/lp/optimizer.py:solve_lp"]}
{"id": "C123", "title": "Energy takes the cheapest ways", "statement": "In an optimal result energy does not go from a node to another by links that cost more, all together, than other links that all have room left. It does not go in a circle of links whose costs add up to more than zero; in particular, of two opposite links one carries nothing if carrying there and back costs something. When going round costs nothing it may.", "quantifier": "every study built with the API, every way along any number of links, every time step and scenario, all optimal answers of solvers", "why_tests_cant": "Over all paths in all networks and all optimal answers; a test looks at one solution.", "anchors": ["hadar/optimizer/lp/optimizer.py:solve_lp", "hadar/optimizer/lp/optimizer.py:ObjectiveBuilder", "hadar/optimizer/lp/optimizer.py:AdequacyBuilder.add_node"]}
{"id": "C124", "title": "Whole units in, whole units out", "statement": "When storages lose nothing and converters give what they take from one node, data in whole units give answers in whole units. If costs are whole multiples of u, an optimal result has prices that are whole multiples of u. If quantities are whole multiples of v too, the least cost is a whole multiple of u v. If quantities are whole multiples of v, whatever the costs, every flow and level of an optimal result can be rounded up or down to whole multiples of v such that all limits and balances still hold and the cost is the same; any feasible dispatch can be rounded so without costing more. With a converter of another ratio or a storage that loses this is false.", "quantifier": "every study built with the API, networks of any size and shape, every horizon, all units, all optimal answers of solvers", "why_tests_cant": "Over all networks and all optimal answers; solvers return vertices that look whole in tests, and no test looks at the others.", "anchors": ["hadar/optimizer/lp/optimizer.py:solve_lp", "hadar/optimizer/lp/optimizer.py:AdequacyBuilder", "hadar/optimizer/lp/optimizer.py:StorageBuilder.add_node", "hadar/optimizer/lp/optimizer.py:ConverterMixBuilder", "hadar/optimizer/lp/optimizer.py:ObjectiveBuilder"]}
{"id": "C125", "title": "Which exception a refused call raises", "statement": "While a study is built, in any order of calls, accepted or not, a call that is refused raises ValueError, so that catching ValueError is enough, except in two cases. It raises KeyError exactly when it does not say where: the handle it is made on has no network (such as the one converter returns) or, for what goes in a node, no node, or the call is made on the study and names an unknown network. It raises IndexError only when data is a numpy array without dimension.", "quantifier": "all sequences of calls on handles that exist, any arguments, any study size", "why_tests_cant": "Over all sequences of calls; tests try a few refused calls, each on a fresh study.", "anchors": ["hadar/optimizer/domain/input.py:Study.add_link", "hadar/optimizer/domain/input.py:Study._add_storage", "hadar/optimizer/domain/input.py:Study._set_converter_dest", "hadar/optimizer/domain/input.py:NodeFluentAPISelector", "hadar/optimizer/domain/input.py:NetworkFluentAPISelector", "hadar/optimizer/domain/numeric.py:NumericalValueFactory.create"]}
{"id": "C126", "title": "Stored energy is used at the best times", "statement": "In an optimal result storages are filled and emptied at the best times. Energy held for later while it could be given now is worth at least as much later, with the cost of holding it; energy given now while it could be held is worth at least as much now, but for that cost. Energy is put in to be given back later only if it is worth it, with what is lost, and at a time that is not dearer than another when the storage could be filled. What is left in a storage at the end is left because it could not save anything: a storage not paid to hold energy, that is not empty from a time to the end, has given all it could at that time if one more unit would have saved something, at its node or carried elsewhere.", "quantifier": "every study built with the API that solve_lp accepts, without link from a node to itself, every storage, pair of time steps and scenario, ways along links of any length, every solver that answers the optimum", "why_tests_cant": "Over all pairs of time steps and all ways through the network; tests check the flows of one storage in one study.", "anchors": ["hadar/optimizer/lp/optimizer.py:solve_lp", "hadar/optimizer/lp/optimizer.py:StorageBuilder.add_node", "hadar/optimizer/lp/optimizer.py:AdequacyBuilder", "hadar/optimizer/lp/optimizer.py:ObjectiveBuilder"]}
{"id": "C127", "title": "Few elements need to be partly used", "statement": "In an optimal result, the productions and consumptions that are partly used at the same node and time all cost the same, so where costs differ at most one is partly used; between the ends of a link that is partly used, these costs differ by the cost of the link. And an optimal result can always be replaced, at the same cost and leaving what is at zero or at its limit, by a dispatch where all quantities are at zero or at their limit but at most one for each node, each storage and each source of a converter at each time.", "quantifier": "every study built with the API that solve_lp accepts, without link from a node to itself and with at most one storage per node, every scenario, any number of elements, every solver that answers the optimum", "why_tests_cant": "It counts over all elements and times of any study, and speaks of the existence of another optimum; a test looks at the one answer of the solver.", "anchors": ["hadar/optimizer/lp/optimizer.py:solve_lp", "hadar/optimizer/lp/optimizer.py:AdequacyBuilder", "hadar/optimizer/lp/optimizer.py:StorageBuilder.add_node", "hadar/optimizer/lp/optimizer.py:ConverterMixBuilder", "hadar/optimizer/lp/mapper.py:InputMapper"]}
{"id": "C128", "title": "Data that is not a number", "statement": "Data with NaN in it is refused like negative data is, and infinite numbers are taken for what they are: a capacity without limit is accepted, a quantity of minus infinity is refused, and so is an efficiency without limit. What is accepted is read back as given.", "quantifier": "every horizon and number of scenarios, every number or array of one of the accepted shapes, NaN and infinities anywhere in it", "why_tests_cant": "Missing data may stand anywhere in a series of any size; a test tries one.", "anchors": ["hadar/optimizer/domain/numeric.py:NumpyNumericalValue", "hadar/optimizer/domain/numeric.py:ScalarNumericalValue", "hadar/optimizer/domain/numeric.py:NumericalValueFactory.create", "hadar/optimizer/domain/input.py:Study.add_link", "hadar/optimizer/domain/input.py:Study._add_production", "hadar/optimizer/domain/input.py:Study._add_consumption", "hadar/optimizer/domain/input.py:Study._add_storage"]}
{"id": "C129", "title": "Small errors in the data make small errors in the least cost", "statement": "When two studies have the same elements, ratios and efficiencies, their costs differ by at most e and their quantities, limits and first levels by at most f, then their least costs differ by at most e for each unit that can be cut, produced, sent, stored or converted, plus what f more of every quantity is worth at the prices of the dearer study. When only costs differ, the difference is at most e for each unit that the solutions actually do, and the solution for the wrong costs, charged at the right ones, exceeds the least cost by at most e for each unit that both solutions do.", "quantifier": "all pairs of studies built with the API that solve_lp accepts, any errors e and f, every scenario, any number of elements, all solvers that answer the optimum", "why_tests_cant": "It bounds the effect of every error on every number of a study at once; tests solve a few studies with exact data.", "anchors": ["hadar/optimizer/lp/optimizer.py:solve_lp", "hadar/optimizer/lp/optimizer.py:ObjectiveBuilder", "hadar/optimizer/lp/optimizer.py:AdequacyBuilder", "hadar/optimizer/lp/optimizer.py:StorageBuilder.add_node", "hadar/optimizer/lp/optimizer.py:ConverterMixBuilder", "hadar/optimizer/lp/mapper.py:InputMapper"]}
{"id": "C130", "title": "What charts show is what the program said", "statement": "A call that adds a consumption, a production or a link, anywhere in a program of calls whose study is solved and analysed, can be read off the charts: the timeline of what was asked or available, for the node or network for which the selector stood and the name given, has one curve per scenario, in order, that shows at each time step what the data of the call means there. The timeline of what was given or used stays between zero and that. The timeline of what a converter brings to the node that its call names stays between zero and the given maximum. A consumption given the rows of a shuffle shows exactly these rows. Two programs with a consumption of the same quantity show the same curves, whatever else they do and whatever their solvers answer.", "quantifier": "all programs of calls of the fluent API passing numbers, lists and arrays, every accepted call in it, all horizons, numbers of scenarios and shapes of data, every answer of the solver that respects limits and constraints", "why_tests_cant": "It is about the whole way from the call through the study, the solver, the result and the tables to the chart, for all programs; tests look at each part alone on a few fixed inputs.", "anchors": ["hadar/optimizer/domain/input.py:NodeFluentAPISelector.consumption", "hadar/optimizer/domain/input.py:NodeFluentAPISelector.production", "hadar/optimizer/domain/input.py:NetworkFluentAPISelector.link", "hadar/optimizer/domain/input.py:NetworkFluentAPISelector.converter", "hadar/optimizer/domain/numeric.py:NumericalValueFactory", "hadar/optimizer/lp/optimizer.py:solve_lp", "hadar/analyzer/result.py:ResultAnalyzer", "hadar/viewer/abc.py:ConsumptionFluentAPISelector.timeline"]}
{"id": "C131", "title": "Putting nodes together never costs more", "statement": "When nodes of a study are put together into fewer nodes, and their consumptions, productions, storages and links are put together as well, with the sum of what was asked, at least the sum of the limits, the sum of the first levels and no greater cost, and links inside a new node are left out, then the least cost of the coarser study is at most the cost of any result of the study. Adding up the flows of any dispatch of the study gives a dispatch of the coarser study that costs no more and loses as much load at each time step; so what the study can serve, the coarser study can serve.", "quantifier": "all pairs of studies built with the API that solve_lp accepts, any way of putting nodes and elements together, every scenario, any number of nodes, elements and time steps, all solvers that answer the optimum", "why_tests_cant": "It compares all studies with all their aggregations; tests solve a few studies and never compare a study with a coarser one.", "anchors": ["hadar/optimizer/lp/optimizer.py:solve_lp", "hadar/optimizer/lp/optimizer.py:AdequacyBuilder", "hadar/optimizer/lp/optimizer.py:ObjectiveBuilder", "hadar/optimizer/lp/optimizer.py:StorageBuilder.add_node", "hadar/optimizer/lp/optimizer.py:ConverterMixBuilder", "hadar/optimizer/lp/mapper.py:InputMapper"]}
{"id": "C132", "title": "Longer time steps never cost more", "statement": "When the time steps of a study are put together into longer ones, with the sum of what was asked during each long step, at least the sum of the limits of productions, links and flows of storages, the sum of the maxima of converters, the same first levels, efficiencies and ratios, and no greater cost, then the least cost of the study with longer steps is at most the cost of any result of the study. Adding up the flows of any dispatch over each long step, and taking levels at its end, gives a dispatch of the study with longer steps that costs no more and loses in each long step what was lost during it; so what the study can serve, the study with longer steps can serve.", "quantifier": "all pairs of studies built with the API that solve_lp accepts, any way of cutting the horizon into long steps of any lengths, every scenario, any number of nodes, elements and time steps, all solvers that answer the optimum", "why_tests_cant": "It compares all studies with all coarser horizons; tests solve a few studies and never compare a study with one of fewer time steps.", "anchors": ["hadar/optimizer/lp/optimizer.py:solve_lp", "hadar/optimizer/lp/optimizer.py:AdequacyBuilder", "hadar/optimizer/lp/optimizer.py:ObjectiveBuilder", "hadar/optimizer/lp/optimizer.py:StorageBuilder.add_node", "hadar/optimizer/lp/optimizer.py:ConverterMixBuilder", "hadar/optimizer/lp/mapper.py:InputMapper"]}
{"id": "C133", "title": "Asking for more never costs less", "statement": "When no cost and no ratio of a converter is negative, and each storage is empty at first or can keep what it holds for nothing, the optimal result comes with prices of energy none of which is negative. Then, if consumptions ask for more and nothing else changes, the least cost does not fall; whatever the storages, it rises by at most what it costs to lose all that is asked in addition. With a storage that is dear to keep full, asking for more can cost less (0 in place of 10).", "quantifier": "all pairs of studies built with the API that solve_lp accepts and that differ by what consumptions ask for only, any increase at any nodes and time steps, every scenario, all solvers that answer the optimum", "why_tests_cant": "It compares all studies with all increases of their loads; tests solve a few studies and never compare their costs.", "anchors": ["hadar/optimizer/lp/optimizer.py:solve_lp", "hadar/optimizer/lp/optimizer.py:AdequacyBuilder", "hadar/optimizer/lp/optimizer.py:ObjectiveBuilder", "hadar/optimizer/lp/optimizer.py:StorageBuilder.add_node", "hadar/optimizer/lp/mapper.py:InputMapper.get_node_var"]}
{"id": "C134", "title": "What can be declared is what makes sense", "statement": "The studies that some sequence of building calls gives are exactly the studies that make sense: names are unique, links end on nodes of their network, converters join existing nodes, every series is a number, one number per time step, per scenario or per both, quantities, flows and capacities are not all negative, first levels are not negative and efficiencies not all outside 0 to 1. The order of elements does not matter, and some of the elements of such a study make such a study. Calls that are all accepted give exactly those of them whose converters have a destination, or at least one source. So a study read from a file that makes sense could have been declared, and all that is proved of declared studies holds for it.", "quantifier": "all studies, any number of networks, nodes, elements, converters, time steps and scenarios", "why_tests_cant": "It speaks of all studies and of the existence of a program for each of them; tests run a few programs.", "anchors": ["hadar/optimizer/domain/input.py:Study", "hadar/optimizer/domain/input.py:Study.add_link", "hadar/optimizer/domain/input.py:Study._add_production", "hadar/optimizer/domain/input.py:Study._add_consumption", "hadar/optimizer/domain/input.py:Study._add_storage", "hadar/optimizer/domain/input.py:Study._add_converter", "hadar/optimizer/domain/input.py:Study._add_converter_src", "hadar/optimizer/domain/input.py:Study._set_converter_dest", "hadar/optimizer/domain/input.py:NetworkFluentAPISelector", "hadar/optimizer/domain/input.py:NodeFluentAPISelector", "hadar/optimizer/domain/numeric.py:NumericalValueFactory.create"]}
{"id": "C135", "title": "Whether a pipeline runs to the end is known beforehand", "statement": "For a pipeline of stages of the library and data where every scenario has the same columns, the names of the columns, the labels of the rows and the parameters of the stages say whether the run goes to the end, which columns and rows the result has, and otherwise which exception is raised. Values and random draws play no part. On any data a stage of the library raises nothing but ValueError, except for faults on data where some scenario has no quantity (KeyError). Sampling scenarios fails only if there is none, by ValueError.", "quantifier": "all lists of stages with any parameters, all frames, values and draws", "why_tests_cant": "The outcome of a run depends on all stages, on columns that plugs let through and on random draws; tests run a few pipelines with a few draws.", "anchors": ["hadar/workflow/pipeline.py:Pipeline.__call__", "hadar/workflow/pipeline.py:Stage.__call__", "hadar/workflow/pipeline.py:FocusStage._process_timeline", "hadar/workflow/pipeline.py:Fault._process_scenarios", "hadar/workflow/pipeline.py:Drop", "hadar/workflow/pipeline.py:Rename", "hadar/workflow/pipeline.py:RepeatScenario", "hadar/workflow/shuffler.py:Timeline.sample"]}
{"id": "C136", "title": "Which exception a query raises", "statement": "For a study built with the API and its answer, the filters and the rows of the study say exactly which queries analyzer.network(..).f(..)... raise, and what. AttributeError: a filter already given (or a second kind of element), or a call after the table. TypeError: a slice without last bound. ValueError: a slice of step zero. KeyError: converters in a study without any. IndexError: no network at all, or one value for each of the five filters when such a row exists. Anything else returns, also when nothing matches.", "quantifier": "all studies built with the API, all answers that mirror them, all chains of calls of any length with any filters", "why_tests_cant": "The refusal depends on the order of the calls, on the data and on the number of values of each filter; tests try some queries that succeed.", "anchors": ["hadar/analyzer/result.py:NetworkFluentAPISelector", "hadar/analyzer/result.py:Index", "hadar/analyzer/result.py:IntIndex", "hadar/analyzer/result.py:ResultAnalyzer.filter", "hadar/analyzer/result.py:ResultAnalyzer._pivot", "hadar/analyzer/result.py:ResultAnalyzer._remove_useless_index_level"]}
{"id": "C137", "title": "Charts and totals of what the study does not have", "statement": "A chart or a total for an element, node, network, scenario or time that the study does not have raises, and nothing else is shown instead. Timelines, monotones and gaussians of an unknown element, or at a time or in a scenario out of range, raise (KeyError, or ZeroDivisionError for timelines), candles too; so do costs and counts of unknown nodes and networks, the matrix and the map of an unknown network, and the stack of an unknown node. It is false of balances and margins (zero everywhere for a node or network that does not exist), of maps at a time counted from the end (balances of that time, without any exchange) and of stacks of nodes with links only in a scenario counted from the end.", "quantifier": "all studies built with the API, all answers that mirror them, all names, all integers as times and scenarios, all plotting methods for gaussians", "why_tests_cant": "A misspelt name or an index off by one is not in any test; whether something is drawn depends on the data, on pandas filters that do not count from the end and on numpy indexes that do.", "anchors": ["hadar/viewer/abc.py:ConsumptionFluentAPISelector", "hadar/viewer/abc.py:StorageFluentAPISelector.candles", "hadar/viewer/abc.py:NodeFluentAPISelector.stack", "hadar/viewer/abc.py:NetworkFluentAPISelector.map", "hadar/viewer/abc.py:NetworkFluentAPISelector.rac_matrix", "hadar/analyzer/result.py:ResultAnalyzer.get_balance", "hadar/analyzer/result.py:ResultAnalyzer.get_rac", "hadar/analyzer/result.py:ResultAnalyzer.get_cost", "hadar/analyzer/result.py:ResultAnalyzer.get_elements_inside"]}
{"id": "C138", "title": "A study can be saved half way and completed later", "statement": "A study written to a file before it is finished, read again and completed by further calls is the study of the whole program: each further call returns or raises the same way, and the final study is the same (up to the zero cost and maximum of converters still without destination, which become series when read). Completing any study that makes sense, wherever its file comes from, gives a study that could have been declared in one go, and nothing that was in the file is lost, altered or moved. It is false of converters fed by nodes whose names contain the separator '::' : a call refused in the whole program is accepted after reading.", "quantifier": "all programs with raw data cut at any point, all further calls with any arguments, accepted or not, for studies with at least one scenario and sources without the separator", "why_tests_cant": "Tests write finished studies. Whether the checks of the builder (names already used, nodes that must exist, sources already declared) see the same things on a study that was read depends on every field and every later call.", "anchors": ["hadar/optimizer/domain/input.py:Study.from_json", "hadar/optimizer/domain/input.py:Study.network", "hadar/optimizer/domain/input.py:Study.add_node", "hadar/optimizer/domain/input.py:Study.add_link", "hadar/optimizer/domain/input.py:Study._add_consumption", "hadar/optimizer/domain/input.py:Study._add_production", "hadar/optimizer/domain/input.py:Study._add_storage", "hadar/optimizer/domain/input.py:Study._add_converter_src", "hadar/optimizer/domain/input.py:Study._set_converter_dest", "hadar/optimizer/domain/input.py:Converter.from_json"]}
{"id": "C139", "title": "Questions on parts add up to the question on the whole", "statement": "When a question to the analyzer is cut in two by one of its filters (times before and after a date, some nodes and the others, some scenarios and the others), the lines of the two answers are together those of the whole answer, each once and with the same values; so totals of columns and numbers of lines add up. A question that asks for less shows some of the lines of the one that asks for more, with the same values. It is false of slices whose start is omitted, which select nothing.", "quantifier": "all studies built with the API, all results that mirror them, all complete questions that return a table, all kinds of elements, all ways of cutting one filter in two", "why_tests_cant": "It relates three answers for all data and all cuts; tests look at one answer at a time. The masks, the pivot table, the sorted levels and the levels left out when they hold one value differ between the three.", "anchors": ["hadar/analyzer/result.py:ResultAnalyzer.filter", "hadar/analyzer/result.py:ResultAnalyzer._pivot", "hadar/analyzer/result.py:ResultAnalyzer._remove_useless_index_level", "hadar/analyzer/result.py:Index.filter", "hadar/analyzer/result.py:IntIndex", "hadar/analyzer/result.py:NetworkFluentAPISelector"]}
{"id": "C140", "title": "Costs are relative", "statement": "When energy of each node is given another value, that is added to the costs of what is produced and of what is not served there, its value where it comes less its value where it goes from to the cost of links, its value less that of what it is made of to the cost of converters, and its value later less its value now to the cost of keeping it in storages, then what can be done is the same, every dispatch costs the same amount more (the value of what is asked less that of what storages hold at first), and results of least cost are the same. In particular, raising by the same amount all productions and all costs of unserved load changes no choice where there are no storages and no converters. It is false with a link from a node to itself and with two storages at a node.", "quantifier": "all pairs of studies solve_lp accepts that differ by such costs, all values by node and time, storages without losses and usable ratios where the value is not zero, all scenarios, all optimal answers of any two solvers", "why_tests_cant": "It compares the sets of all optimal dispatches of two studies for all values; a test compares one pair of results, which may differ when several are optimal. A cost attached to the wrong element, time or end of a link, or an energy balance that leaks, breaks it.", "anchors": ["hadar/optimizer/lp/optimizer.py:ObjectiveBuilder", "hadar/optimizer/lp/optimizer.py:AdequacyBuilder", "hadar/optimizer/lp/optimizer.py:StorageBuilder", "hadar/optimizer/lp/optimizer.py:ConverterMixBuilder", "hadar/optimizer/lp/optimizer.py:solve_lp", "hadar/optimizer/lp/mapper.py:OutputMapper"]}
{"id": "C141", "title": "Each network has its own unit of energy", "statement": "Energy of each network can be counted in a unit of its own (electricity in MWh, gas in cubic metres): when the quantities of each network are multiplied by a factor, its costs by unit divided by it, and the ratio of each source of a converter multiplied by the factor of its destination and divided by that of the source, then the least cost is the same, and what can be done and what costs least are the same flows in the new units.", "quantifier": "all pairs of studies solve_lp accepts that differ by units, one positive factor by network, all scenarios, all dispatches, all optimal answers of any two solvers", "why_tests_cant": "It holds for all factors, networks and converters at once and for all optimal results; a test fixes some. Dividing by a ratio where it should be multiplied, or counting the cost or the limit of a converter on the wrong side, breaks it and no crash shows it.", "anchors": ["hadar/optimizer/lp/mapper.py:InputMapper", "hadar/optimizer/lp/optimizer.py:AdequacyBuilder", "hadar/optimizer/lp/optimizer.py:StorageBuilder", "hadar/optimizer/lp/optimizer.py:ConverterMixBuilder", "hadar/optimizer/lp/optimizer.py:ObjectiveBuilder", "hadar/optimizer/lp/optimizer.py:solve_lp"]}
{"id": "C142", "title": "Data can be processed piece by piece", "statement": "Clip, Rename, ToShuffler, Drop and RepeatScenario treat each time step for itself. Running any sequence of them, or a pipeline made of them, on some of the rows of a frame (any rows, in any order, some of them several times) gives those rows of what it gives on the whole frame: the same columns with the same labels, and the same exception when it raises. So a period can be cut in two, each part processed apart, and the results put one after the other. Rows keep their labels as long as nothing is repeated; RepeatScenario numbers them again from 0.", "quantifier": "all frames, with or without scenario labels, all choices of rows, all sequences of such stages of any length, all sessions in which they were made, all random states", "why_tests_cant": "It quantifies over every choice of rows and every sequence of stages; a test runs one pipeline on one frame.", "anchors": ["hadar/workflow/pipeline.py:Pipeline.__call__", "hadar/workflow/pipeline.py:Stage.__call__", "hadar/workflow/pipeline.py:Clip", "hadar/workflow/pipeline.py:Rename", "hadar/workflow/pipeline.py:Drop", "hadar/workflow/pipeline.py:RepeatScenario", "hadar/workflow/pipeline.py:ToShuffler"]}
{"id": "C143", "title": "Accounts and charts of results with small errors", "statement": "When the solver breaks no bound and no constraint by more than e, what is read from the result closes up to that error and no more: the energy account of the study at a time step up to e for each node, the account over the whole study up to e for each node and each storage at each time step, the two stacks of a node up to e. Candles of a storage still follow one another from the initial capacity; the candle of step t closes within (t + 1) e of the recorded level and within (t + 2) e of the limits of the storage.", "quantifier": "all studies solve_lp accepts without link from a node to itself and with at most one storage per node, all answers of the solver up to any tolerance, all scenarios and times", "why_tests_cant": "Real solvers always err a little, and errors add up over nodes, storages and time steps; no test can show that they never add up to more than this for all studies.", "anchors": ["hadar/optimizer/lp/optimizer.py:solve_lp", "hadar/optimizer/lp/optimizer.py:AdequacyBuilder", "hadar/optimizer/lp/optimizer.py:StorageBuilder", "hadar/viewer/abc.py:NodeFluentAPISelector.stack", "hadar/viewer/abc.py:StorageFluentAPISelector.candles"]}
{"id": "C144", "title": "Arrows of the map add up to balances", "statement": "On the exchange map of a network, for every group of nodes, arrows drawn from the group to the other nodes less arrows drawn the other way are the sum of the values drawn at the nodes of the group. When the solver gives a feasible dispatch, they are also what the nodes of the group have left: productions used, storage outputs and converter outputs, less consumptions given, storage inputs and what converters take.", "quantifier": "all networks of all studies, all groups of their nodes, all results of the shape of the study (for the second part: all studies solve_lp accepts without link from a node to itself, all feasible answers of the solver), all scenarios, times, coordinates and colour limits", "why_tests_cant": "Arrows are computed from pairs of links in two directions, the values of nodes from two other queries, and the balance of nodes is a constraint of the linear program; a test can compare them on one map, not for all networks and all groups of nodes.", "anchors": ["hadar/viewer/abc.py:NetworkFluentAPISelector.map", "hadar/analyzer/result.py:ResultAnalyzer.get_balance", "hadar/optimizer/lp/optimizer.py:AdequacyBuilder"]}
{"id": "C145", "title": "Places that are alike", "statement": "When exchanging some names gives the same study up to the order of declarations, so that each place has a twin with the same elements, links and converters, doing at each place what a least cost dispatch does at its twin is of least cost, and if names are exchanged by pairs some least cost dispatch does the same at twin places. The result of solve_lp does the same with twin productions, consumptions and links that would earn or lose with its prices, and with everything when only one dispatch is of least cost.", "quantifier": "all studies solve_lp accepts without link from a node to itself and with at most one storage per node (least cost dispatches: all built studies), all exchanges of names, all optimal answers of the solver, all prices, all scenarios and times", "why_tests_cant": "A test can compare two places of one study; that no order of declarations and no name gives a place an advantage has to hold for all symmetries of all studies, and ties leave the solver free.", "anchors": ["hadar/optimizer/lp/optimizer.py:solve_lp", "hadar/optimizer/lp/optimizer.py:AdequacyBuilder", "hadar/optimizer/lp/optimizer.py:ObjectiveBuilder", "hadar/optimizer/domain/input.py:Study"]}
{"id": "C146", "title": "A node that only passes on changes nothing", "statement": "A node without any element but one link in and one link out can be left out: with one link straight from the node before to the node after, of the smaller of the two quantities and the sum of the two costs, solve_lp finds a solution of the same total cost. Every dispatch with the relay is one with the straight link at the same cost and the other way round, and in the result with the relay as much leaves the relay as reaches it.", "quantifier": "all studies solve_lp accepts, all networks, nodes and links, straight links between different nodes, all optimal answers of the solver for both studies, all scenarios and times", "why_tests_cant": "A test can compare one study with a substation with one study without; that a finer map of the same network costs nothing has to hold whatever surrounds the relay.", "anchors": ["hadar/optimizer/lp/optimizer.py:AdequacyBuilder", "hadar/optimizer/lp/optimizer.py:ObjectiveBuilder", "hadar/optimizer/lp/optimizer.py:solve_lp", "hadar/optimizer/domain/input.py:Link"]}
{"id": "C147", "title": "Without storages time steps are solved on their own", "statement": "In a study without storage what a time step costs depends on its data only: time steps with the same data, of one study or of two, of one scenario or of two, cost the same in the results of solve_lp. So a study made of time steps of another one costs what these steps cost there, the order of time steps does not matter, and a study whose time steps come back n times costs n times as much.", "quantifier": "all studies solve_lp accepts without storage, all pairs of time steps and scenarios with the same data, all optimal answers of the solver, all horizons, orders and numbers of repetitions", "why_tests_cant": "A test can swap two time steps of one study; that no constraint or cost ties a time step to another one has to hold for all studies, horizons and orders.", "anchors": ["hadar/optimizer/lp/optimizer.py:solve_lp", "hadar/optimizer/lp/optimizer.py:_solve_batch", "hadar/optimizer/lp/optimizer.py:AdequacyBuilder", "hadar/optimizer/lp/optimizer.py:ObjectiveBuilder"]}
{"id": "C148", "title": "A production behind a link", "statement": "A production at a node of its own, from where one link goes to the rest of the network, can be declared at the end of this link with the smaller of the two quantities and the sum of the two costs: solve_lp finds a solution of the same total cost, every dispatch of one study is one of the other at the same cost, and all that is produced behind the link goes through it.", "quantifier": "all studies solve_lp accepts, all networks, nodes, productions and links, all optimal answers of the solver for both studies, all scenarios and times", "why_tests_cant": "A test can compare a plant at sea with the same plant ashore in one study; that it does not matter where a plant is declared, whatever the rest of the network, cannot be enumerated.", "anchors": ["hadar/optimizer/lp/optimizer.py:AdequacyBuilder", "hadar/optimizer/lp/optimizer.py:ObjectiveBuilder", "hadar/optimizer/lp/optimizer.py:solve_lp", "hadar/optimizer/domain/input.py:Production", "hadar/optimizer/domain/input.py:Link"]}
{"id": "C149", "title": "A load behind a link", "statement": "A consumption at a node of its own, to where one link comes from the rest of the network, can be declared at the start of this link with the smaller of the two quantities and the cost of the consumption less the one of the link: solve_lp finds a solution whose total cost differs by what is paid in any case (loss of load for what the link cannot bring, the cost of the link for what it can bring), every dispatch of one study gives one of the other with this difference, and all that is served behind the link came through it.", "quantifier": "all studies solve_lp accepts, all networks, nodes, consumptions and links, all optimal answers of the solver for both studies, all scenarios and times", "why_tests_cant": "A test can compare a farm at the end of a cable with the same farm in town in one study; that the difference of costs does not depend on the rest of the network cannot be enumerated.", "anchors": ["hadar/optimizer/lp/optimizer.py:AdequacyBuilder", "hadar/optimizer/lp/optimizer.py:ObjectiveBuilder", "hadar/optimizer/lp/optimizer.py:solve_lp", "hadar/optimizer/domain/input.py:Consumption", "hadar/optimizer/domain/input.py:Link"]}
{"id": "C150", "title": "Two converters in a row", "statement": "A converter that gives to a node where nothing is but a second converter that takes from there can be declared together with it as one converter, with the product of the two ratios, the most both can give, and the cost of the second plus the cost of the first for what the second gives: solve_lp finds a solution of the same total cost, every dispatch of one study gives one of the other at the same cost, and all that the first converter gives the second one takes.", "quantifier": "all studies solve_lp accepts, all converters with one source each and positive ratios, all optimal answers of the solver for both studies, all scenarios and times", "why_tests_cant": "A test can compare one pair of converters with one converter in one study; that ratios multiply and costs add up whatever the rest of the study cannot be enumerated.", "anchors": ["hadar/optimizer/lp/optimizer.py:AdequacyBuilder", "hadar/optimizer/lp/optimizer.py:ConverterMixBuilder", "hadar/optimizer/lp/optimizer.py:ObjectiveBuilder", "hadar/optimizer/lp/optimizer.py:solve_lp", "hadar/optimizer/domain/input.py:Converter"]}
{"id": "C151", "title": "A production behind a converter", "statement": "A production of fuel at a node where nothing is but one converter that takes it can be declared at the node the converter gives to, without converter, with the smaller of the converted quantity and the maximum of the converter, and with the cost of the converter plus the cost of the fuel divided by the ratio: solve_lp finds a solution of the same total cost, every dispatch of one study gives one of the other at the same cost, and the converter takes all fuel that is produced.", "quantifier": "all studies solve_lp accepts, all converters with one source and positive ratios, all optimal answers of the solver for both studies, all scenarios and times", "why_tests_cant": "A test can compare gas and a turbine with a gas plant in one study; that fuel costs are divided by the ratio whatever the rest of the study cannot be enumerated.", "anchors": ["hadar/optimizer/lp/optimizer.py:AdequacyBuilder", "hadar/optimizer/lp/optimizer.py:ConverterMixBuilder", "hadar/optimizer/lp/optimizer.py:ObjectiveBuilder", "hadar/optimizer/lp/optimizer.py:solve_lp", "hadar/optimizer/domain/input.py:Converter", "hadar/optimizer/domain/input.py:Production"]}
{"id": "C152", "title": "A load behind a converter", "statement": "A consumption at a node where nothing is but one converter that gives to it can be declared at the node the converter takes from, without converter, with the smaller of its quantity and the maximum of the converter, divided by the ratio, and with the cost of the consumption less the one of the converter, times the ratio: solve_lp finds a solution whose total cost differs by what is paid in any case (loss of load for what the converter cannot give, the cost of the converter for what it can give), every dispatch of one study gives one of the other with this difference, and the consumption gets all that the converter gives.", "quantifier": "all studies solve_lp accepts, all converters with one source and positive ratios, all optimal answers of the solver for both studies, all scenarios and times", "why_tests_cant": "A test can compare homes with a heat pump with a load of power in one study; that the difference of costs does not depend on the rest of the study cannot be enumerated.", "anchors": ["hadar/optimizer/lp/optimizer.py:AdequacyBuilder", "hadar/optimizer/lp/optimizer.py:ConverterMixBuilder", "hadar/optimizer/lp/optimizer.py:ObjectiveBuilder", "hadar/optimizer/lp/optimizer.py:solve_lp", "hadar/optimizer/domain/input.py:Converter", "hadar/optimizer/domain/input.py:Consumption"]}
{"id": "C153", "title": "A source of a converter with its own production", "statement": "When one of the sources of a converter is a node where nothing is but one production, and which nothing else uses, this source can be left out of the converter: with the smaller of the maximum of the converter and of what can be made of the production as maximum, and with the cost of the production divided by its ratio added to the cost of the converter, solve_lp finds a solution of the same total cost; every dispatch with the source is one without, and every dispatch without gives one with the source, at the same cost; and the converter takes all that is produced there.", "quantifier": "all studies solve_lp accepts, all converters with any number of other sources and positive ratios, all optimal answers of the solver for both studies, all scenarios and times", "why_tests_cant": "A test can leave the water out of one electrolysis; that the remaining sources are used in the same way whatever their number and the rest of the study cannot be enumerated.", "anchors": ["hadar/optimizer/lp/optimizer.py:AdequacyBuilder", "hadar/optimizer/lp/optimizer.py:ConverterMixBuilder", "hadar/optimizer/lp/optimizer.py:ObjectiveBuilder", "hadar/optimizer/lp/optimizer.py:solve_lp", "hadar/optimizer/domain/input.py:Converter", "hadar/optimizer/domain/input.py:Production"]}
{"id": "C154", "title": "A converter without sources is a production", "statement": "A converter that was given a destination but no source (no node was linked with to_converter) is accepted and acts as a production at its destination, with the maximum of the converter as quantity and the cost of the converter as cost: solve_lp finds a solution of the same total cost for the study with this production in place of the converter, and every dispatch of one study gives one of the other at the same cost.", "quantifier": "all studies solve_lp accepts, all converters without sources, all optimal answers of the solver for both studies, all scenarios and times", "why_tests_cant": "A test can forget the fuel of one converter; that what it gives is neither refused nor limited by anything else, whatever the rest of the study, cannot be enumerated.", "anchors": ["hadar/optimizer/lp/optimizer.py:AdequacyBuilder", "hadar/optimizer/lp/optimizer.py:ConverterMixBuilder", "hadar/optimizer/lp/optimizer.py:ObjectiveBuilder", "hadar/optimizer/lp/optimizer.py:solve_lp", "hadar/optimizer/domain/input.py:Converter", "hadar/optimizer/domain/input.py:Production"]}
