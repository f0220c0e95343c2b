{"claims": [
 {"property": "C01", "status": "proved", "theorems": ["Hadar.Props.C01_broadcast", "Hadar.Props.C01_broadcast_unique", "Hadar.Props.C01_negative"], "note": ""},
 {"property": "C02", "status": "proved", "theorems": ["Hadar.Props.C02_flatten"], "note": ""},
 {"property": "C03", "status": "proved", "theorems": ["Hadar.Props.C03_accepts_iff"], "note": ""},
 {"property": "C04", "status": "proved", "theorems": ["Hadar.Props.C04_out_of_range"], "note": ""},
 {"property": "C05", "status": "partial", "theorems": ["Hadar.Props.C05_consumption_partial", "Hadar.Props.C05_production_partial", "Hadar.Props.C05_link_partial", "Hadar.Props.C05_link_same", "Hadar.Props.C05_storage_partial", "Hadar.Props.C05_number", "Hadar.Props.C05_refuted"], "note": "False of the code for series of mixed signs (only series negative everywhere are refused); exact acceptance condition proved, full claim for plain numbers."},
 {"property": "C06", "status": "proved", "theorems": ["Hadar.Props.C06_unique_names"], "note": ""},
 {"property": "C07", "status": "proved", "theorems": ["Hadar.Props.C07_links_exist"], "note": ""},
 {"property": "C08", "status": "partial", "theorems": ["Hadar.Props.C08_refused_partial", "Hadar.Props.C08_converter", "Hadar.Props.C08_converter_set", "Hadar.Props.C08_refuted", "Hadar.Props.C08_refuted_dest"], "note": "False of the code for converter calls; proved for every other call."},
 {"property": "C09", "status": "proved", "theorems": ["Hadar.Props.C09_kept", "Hadar.Props.C09_consumption", "Hadar.Props.C09_production", "Hadar.Props.C09_storage", "Hadar.Props.C09_link", "Hadar.Props.C09_converter_source"], "note": ""},
 {"property": "C10", "status": "proved", "theorems": ["Hadar.Props.C10_sized"], "note": ""},
 {"property": "C11", "status": "proved", "theorems": ["Hadar.Props.C11_network", "Hadar.Props.C11_node"], "note": ""},
 {"property": "C12", "status": "partial", "theorems": ["Hadar.Props.C12_handle_partial", "Hadar.Props.C12_exact", "Hadar.Props.C12_refuted"], "note": "False of the code when node() is called again on the same network handle; proved otherwise."},
 {"property": "C13", "status": "partial", "theorems": ["Hadar.Props.C13_well_formed", "Hadar.Props.C13_dest_kept_partial", "Hadar.Props.C13_second_refused_partial", "Hadar.Props.C13_second_refused_node_partial", "Hadar.Props.C13_refuted"], "note": "Single assignment is false of the code for empty names; proved otherwise; well-formedness proved in full."},
 {"property": "C14", "status": "partial", "theorems": ["Hadar.Props.C14_roundtrip_partial", "Hadar.Props.C14_roundtrip_complete_partial", "Hadar.Props.C14_refuted_incomplete", "Hadar.Props.C14_refuted_separator"], "note": "The full claim is false of the code (two counterexamples proved). Proved for every study built from numbers, lists and arrays with at least one scenario and sources whose names the separator does not confuse; a converter without destination is read back with the series 0 instead of the integer 0."},
 {"property": "C15", "status": "partial", "theorems": ["Hadar.Props.C15_recovered_partial", "Hadar.Props.C15_distinct_partial", "Hadar.Props.C15_refuted"], "note": "False for names with the separator; the exact condition is proved as an equivalence."},
 {"property": "C16", "status": "partial", "theorems": ["Hadar.Props.C16_roundtrip_partial", "Hadar.Props.C16_optimizer", "Hadar.Props.C16_refuted"], "note": "False for names with the separator; proved for all other results whose arrays have at least one scenario."},
 {"property": "C17", "status": "partial", "theorems": ["Hadar.Props.C17_study_partial", "Hadar.Props.C17_study_twice_partial", "Hadar.Props.C17_left_partial", "Hadar.Props.C17_second_partial", "Hadar.Props.C17_same_partial", "Hadar.Props.C17_refuted"], "note": "Proved for studies; false for results, whose second reading raises (counterexample proved). What a result leaves of the object, and when a second reading raises, is given exactly."},
 {"property": "C18", "status": "partial", "theorems": ["Hadar.Props.C18_solved_partial", "Hadar.Props.C18_bounds", "Hadar.Props.C18_given", "Hadar.Props.C18_zero_refuted", "Hadar.Props.C21_refuted"], "note": "false of the code when a converter has two sources with the same text 'network::node' (C21_refuted), and max/ratio is no limit where a ratio in an array is zero: the converter takes any energy and gives nothing (C18_zero_refuted). Proved for every other study that solve_lp solves, and every solver answer within the declared variable bounds"},
 {"property": "C19", "status": "partial", "theorems": ["Hadar.Props.C19_solved_partial", "Hadar.Props.C19_balance_partial", "Hadar.Props.C19_balance_self_partial", "Hadar.Props.C19_refuted"], "note": "false of the code for a link from a node to itself: the import coefficient overrides the export one, so the link creates energy (C19_refuted, optimal answer). Proved for studies without such a link; the exact error term is proved for all studies"},
 {"property": "C20", "status": "partial", "theorems": ["Hadar.Props.C20_solved_partial", "Hadar.Props.C20_first_storage_partial", "Hadar.Props.C20_one_storage_partial", "Hadar.Props.C20_refuted"], "note": "false of the code: StorageBuilder.add_node returns inside its loop, so only the first storage of a node is constrained (C20_refuted). Proved for the first storage of every node"},
 {"property": "C21", "status": "partial", "theorems": ["Hadar.Props.C21_solved_partial", "Hadar.Props.C21_ratios", "Hadar.Props.C21_refuted"], "note": "false of the code when a converter has two sources with the same text 'network::node': the result gives the flow of one to the other (C21_refuted). Proved for every other study that solve_lp solves"},
 {"property": "C22", "status": "partial", "theorems": ["Hadar.Props.C22_solved_partial", "Hadar.Props.C22_least_cost_partial", "Hadar.Props.C22_no_cheaper_partial", "Hadar.Props.C22_exact", "Hadar.Props.C22_objective", "Hadar.Props.C22_refuted"], "note": "false of the code with a self link or two storages on a node; C22_exact says for every study what the code does: the least cost among the dispatches it allows (a self link brings energy for free, only the first storage of a node is constrained). Proved for all other studies; the objective sent to the solver equals the documented cost for every study"},
 {"property": "C23", "status": "proved", "theorems": ["Hadar.Props.C23_feasible", "Hadar.Props.C23_documented", "Hadar.Props.C23_infeasible_unnoticed"], "note": "the last theorem shows the hypothesis is needed and that an infeasible problem still gives a result; for Ready studies, that is studies solve_lp accepts (C70), no converter of which has two sources with the same text"},
 {"property": "C24", "status": "proved", "theorems": ["Hadar.Props.C24_productions", "Hadar.Props.C24_consumptions"], "note": "exchange argument, any number of nodes, links, storages, converters; for Ready studies, that is studies solve_lp accepts (C70), no converter of which has two sources with the same text"},
 {"property": "C25", "status": "proved", "theorems": ["Hadar.Props.C25_independent"], "note": "also across different scenario indexes and numbers of scenarios; for Ready studies, that is studies solve_lp accepts (C70), no converter of which has two sources with the same text"},
 {"property": "C26", "status": "proved", "theorems": ["Hadar.Props.C26_mirrors", "Hadar.Props.C26_cells"], "note": "for Ready studies, that is studies solve_lp accepts (C70), no converter of which has two sources with the same text"},
 {"property": "C27", "status": "proved", "theorems": ["Hadar.Props.C27_schedule", "Hadar.Props.C27_result"], "note": "multiprocessing.Pool.map is modelled from CPython (chunks, completion order, first failure); on failure which exception is raised may depend on the order, but not whether one is"},
 {"property": "C29", "status": "proved", "theorems": ["Hadar.Props.C29_requests", "Hadar.Props.C29_returns", "Hadar.Props.C29_completes", "Hadar.Props.C29_job_error", "Hadar.Props.C29_waits", "Hadar.Props.C29_stops"], "note": "server = list of its successive answers (any)"},
 {"property": "C30", "status": "proved", "theorems": ["Hadar.Props.C30_submission", "Hadar.Props.C30_poll", "Hadar.Props.C30_no_result"], "note": ""},
 {"property": "C65", "status": "proved", "theorems": ["Hadar.Props.C65_same"], "note": "for studies the optimizer accepts, with at least one scenario (others do not survive JSON, see C14); for Ready studies, that is studies solve_lp accepts (C70), no converter of which has two sources with the same text"},
 {"property": "C31", "status": "proved", "theorems": ["Hadar.Props.C31", "Hadar.Props.C31_unique"], "note": ""},
 {"property": "C32", "status": "proved", "theorems": ["Hadar.Props.C32", "Hadar.Props.C32_unique"], "note": ""},
 {"property": "C33", "status": "proved", "theorems": ["Hadar.Props.C33", "Hadar.Props.C33_unique"], "note": ""},
 {"property": "C34", "status": "partial", "theorems": ["Hadar.Props.C34_partial", "Hadar.Props.C34_exact", "Hadar.Props.C34_iff_partial", "Hadar.Props.C34_refuted"], "note": "the row index of the storage table is never moved: with more than one storage only the last one is in the table, the other rows are uninitialised memory; exact for at most one storage"},
 {"property": "C35", "status": "partial", "theorems": ["Hadar.Props.C35_partial", "Hadar.Props.C35_one_partial", "Hadar.Props.C35_unique", "Hadar.Props.C35_refuted"], "note": "the table is sized by the number of sources: with several sources per converter it has extra empty rows (without time); exact with one source each"},
 {"property": "C36", "status": "partial", "theorems": ["Hadar.Props.C36_partial", "Hadar.Props.C36_exact", "Hadar.Props.C36_iff_partial", "Hadar.Props.C36_unique", "Hadar.Props.C36_refuted", "Hadar.Props.C36_raises_refuted"], "note": "exact with one source per converter; with two sources scenarios are mislabelled, with three the analyzer cannot be built"},
 {"property": "C37", "status": "partial", "theorems": ["Hadar.Props.C37_partial", "Hadar.Props.C37_refuted"], "note": "any order of the calls, any filters, for the tables that are right (see C34, C36); not covered: slices with an omitted bound (C39)"},
 {"property": "C38", "status": "proved", "theorems": ["Hadar.Props.C38", "Hadar.Props.C38_chain"], "note": ""},
 {"property": "C39", "status": "partial", "theorems": ["Hadar.Props.C39_partial", "Hadar.Props.C39_start_refuted", "Hadar.Props.C39_stop_refuted"], "note": "exact when both bounds are given; an omitted start selects nothing, an omitted stop raises TypeError"},
 {"property": "C40", "status": "partial", "theorems": ["Hadar.Props.C40_partial", "Hadar.Props.C40_refuted", "Hadar.Props.C40_converter_refuted"], "note": "a query that gives a single value for every dimension raises IndexError whenever there is a row; queries on converters raise KeyError in a study without converter"},
 {"property": "C41", "status": "partial", "theorems": ["Hadar.Props.C41_partial", "Hadar.Props.C41_refuted", "Hadar.Props.C41_again_refuted", "Hadar.Props.C41_second"], "note": "true as long as no selector object is called twice; once a selector has given a table it never gives another one (C41_again_refuted), and a second call on a shorter selector keeps the filter of the first one (C41_second)"},
 {"property": "C42", "status": "partial", "theorems": ["Hadar.Props.C42_partial", "Hadar.Props.C42_default_partial", "Hadar.Props.C42_refuted"], "note": "true of every node, except nodes with storages when the study has several storages (the storage table is wrong then, see C34)"},
 {"property": "C43", "status": "partial", "theorems": ["Hadar.Props.C43_network_partial", "Hadar.Props.C43_study_partial", "Hadar.Props.C46_refuted", "Hadar.Props.C42_refuted"], "note": "true with at most one storage and no network with an empty name (KeyError)"},
 {"property": "C44", "status": "proved", "theorems": ["Hadar.Props.C44", "Hadar.Props.C44_zero"], "note": "whenever the analyzer can be built"},
 {"property": "C45", "status": "proved", "theorems": ["Hadar.Props.C45"], "note": "whenever the analyzer can be built"},
 {"property": "C46", "status": "partial", "theorems": ["Hadar.Props.C46_node", "Hadar.Props.C46_default", "Hadar.Props.C46_network_partial", "Hadar.Props.C46_study_partial", "Hadar.Props.C46_refuted"], "note": "true, except that a network with an empty name raises KeyError, and that nothing can be counted in a study that has one, wherever it stands"},
 {"property": "C28", "status": "partial", "theorems": ["Hadar.Props.C28_partial", "Hadar.Props.init_total", "Hadar.Props.C28_refuted"], "note": "true with at most one storage in the study, no network with an empty name, when the analyzer can be built (shown for converters with one source); false with two storages"},
 {"property": "C47", "status": "proved", "theorems": ["Hadar.Props.C47", "Hadar.Props.C47_fails", "Hadar.Props.C47_stage"], "note": "the result, the generator's state and the failures of a pipeline are those of the chain of its stages"},
 {"property": "C48", "status": "partial", "theorems": ["Hadar.Props.C48_partial", "Hadar.Props.C48_add", "Hadar.Props.C48_run", "Hadar.Props.C48_one", "Hadar.Props.C48_added", "Hadar.Props.C48_library", "Hadar.Props.C48_refuted", "Hadar.Props.C48_reuse_refuted"], "note": "true for pipelines built by adding stages one by one, and for constructor calls where free stages come first or last, with stages not used in a pipeline before; the constructor checks each link against the previous stage only, so it is false with a free stage in between, and false with reused stages"},
 {"property": "C49", "status": "proved", "theorems": ["Hadar.Props.C49", "Hadar.Props.C49_refused", "Hadar.Props.C49_stages"], "note": ""},
 {"property": "C50", "status": "partial", "theorems": ["Hadar.Props.C50_partial", "Hadar.Props.C50_columns", "Hadar.Props.C50_refuted"], "note": "true when columns are grouped scenario by scenario; other frames get mislabelled columns (C50_columns says exactly which column gets which label)"},
 {"property": "C51", "status": "proved", "theorems": ["Hadar.Props.C51", "Hadar.Props.C51_value", "Hadar.Props.C51_twice"], "note": ""},
 {"property": "C52", "status": "proved", "theorems": ["Hadar.Props.C52_rename", "Hadar.Props.C52_to_shuffler", "Hadar.Props.C52_drop"], "note": ""},
 {"property": "C53", "status": "partial", "theorems": ["Hadar.Props.C53_partial", "Hadar.Props.C53_passing_partial", "Hadar.Props.C53_any_partial", "Hadar.Props.C53_refuted", "Hadar.Props.C53_negative_refuted"], "note": "true for rows labelled 0, 1, ...; with other labels values are lost (NaN); with a negative downtime, a fault that should end before the first step lasts until as many steps before the end (C53_negative_refuted; C53_any_partial says exactly which steps)"},
 {"property": "C54", "status": "partial", "theorems": ["Hadar.Props.C54_partial", "Hadar.Props.C54_independent", "Hadar.Props.C54_refuted", "Hadar.Props.C54_shift_refuted"], "note": "true when row labels are 0, 1, ... and kept by the function; with other labels values are lost or moved"},
 {"property": "C55", "status": "partial", "theorems": ["Hadar.Props.C55_partial", "Hadar.Props.C55_one_partial", "Hadar.Props.C55_add_partial", "Hadar.Props.C55_refuted", "Hadar.Props.C55_add_refuted"], "note": "the theorems say exactly what is left unchanged and what is changed: the outputs of linked stages, the list of stages given to the constructor, the pipeline on the left of +"},
 {"property": "C56", "status": "partial", "theorems": ["Hadar.Props.C56_stage", "Hadar.Props.C56_pipeline", "Hadar.Props.C56_plain_partial", "Hadar.Props.C56_refuted"], "note": "true for data with scenarios; plain data gets a level of column labels in place"},
 {"property": "C66", "status": "partial", "theorems": ["Hadar.Props.C66_partial", "Hadar.Props.C66_refuted"], "note": "true for every seed but 0, which is treated as no seed"},
 {"property": "C57", "status": "proved", "theorems": ["Hadar.Props.C57", "Hadar.Props.C57_any", "Hadar.Props.C57_out", "Hadar.Props.C57_fails", "Hadar.Props.C57_randint", "Hadar.Props.C57_default", "Hadar.Props.C57_kept", "Hadar.Props.C57_draws"], "note": "for any sampler in range; numpy's randint is shown to be one under the stated laws of its generator"},
 {"property": "C58", "status": "partial", "theorems": ["Hadar.Props.C58_partial", "Hadar.Props.C58_fails", "Hadar.Props.C58_schedule", "Hadar.Props.C58_added", "Hadar.Props.C58_accepted", "Hadar.Props.C58_rows", "Hadar.Props.C58_refuted", "Hadar.Props.C58_stale_refuted"], "note": "a column with an empty name beside to_shuffler is not dropped; a pipeline whose stages were used before may be accepted though it does not produce to_shuffler; true otherwise, for any order of workers"},
 {"property": "C59", "status": "partial", "theorems": ["Hadar.Props.C59_partial", "Hadar.Props.C59_refuted"], "note": "true for a study with one storage solved by the LP optimizer; with several storages the table of results is wrong and there may be no candles"},
 {"property": "C62", "status": "proved", "theorems": ["Hadar.Props.C62_drawn"], "note": "for any values; C64 says which values are given to the chart"},
 {"property": "C63", "status": "partial", "theorems": ["Hadar.Props.C63_partial", "Hadar.Props.C63_refuted"], "note": "true when some cells are positive and some negative; otherwise the chart raises ValueError"},
 {"property": "C64", "status": "partial", "theorems": ["Hadar.Props.C64_both", "Hadar.Props.C64_neither", "Hadar.Props.C64_time_partial", "Hadar.Props.C64_scn_partial", "Hadar.Props.C64_storage_partial", "Hadar.Props.C64_refuted"], "note": "false of storages when a study has several, and of intakes of converters with several sources, as their tables are wrong"},
 {"property": "C67", "status": "partial", "theorems": ["Hadar.Props.C67_time", "Hadar.Props.C67_scn", "Hadar.Props.C67_converter_partial", "Hadar.Props.C67_converter_refuted"], "note": "the chart of a converter in a scenario raises IndexError when there are several scenarios; true otherwise where tables are right"},
 {"property": "C68", "status": "partial", "theorems": ["Hadar.Props.C68_partial", "Hadar.Props.C68_column", "Hadar.Props.C68_refuted"], "note": "a number that the table lacks raises KeyError; false of intakes of converters with several sources, as their table is wrong (C36)"},
 {"property": "C60", "status": "partial", "theorems": ["Hadar.Props.C60_partial", "Hadar.Props.C60_asked_partial", "Hadar.Props.C60_bands_partial", "Hadar.Props.C60_refuted", "Hadar.Props.C60_raises_refuted"], "note": "true for a study with at most one storage (in all) and one source per converter, solved by the LP optimizer; otherwise result tables are wrong: stacks lack bands (C60_refuted) or raise (C60_raises_refuted)"},
 {"property": "C61", "status": "proved", "theorems": ["Hadar.Props.C61", "Hadar.Props.C61_no_coordinates"], "note": "coordinates of the nodes must be given"},
 {"property": "C69", "status": "partial", "theorems": ["Hadar.Props.C60_bands_partial", "Hadar.Props.C69_refuted"], "note": "under the hypotheses under which the tables of results are right (at most one storage, one source per converter); the order between elements of same cost is any"},
 {"property": "C70", "status": "proved", "theorems": ["Hadar.Props.C70", "Hadar.Props.C70_zero"], "note": "two sources of one converter with the same text 'network::node' are excluded by the statement; what happens with them is C21_refuted"},
 {"property": "C71", "status": "partial", "theorems": ["Hadar.Props.C71_solver", "Hadar.Props.C71_feasible", "Hadar.Props.C71_dispatch_partial", "Hadar.Props.C71_solved_partial", "Hadar.Props.C71_refuted"], "note": "existence of an optimal answer is proved for every accepted study (C71_solver, C71_feasible); that the answer is a feasible dispatch of the documented problem needs no link from a node to itself and at most one storage per node (C18, C20)"},
 {"property": "C72", "status": "proved", "theorems": ["Hadar.Props.C72", "Hadar.Props.C72_feasible"], "note": "ratios of converters must not be negative; what is said of all dispatches of the documented problem is for studies without link from a node to itself and with at most one storage per node, what is said of solutions is for any; for Ready studies, that is studies solve_lp accepts (C70), no converter of which has two sources with the same text"},
 {"property": "C73", "status": "proved", "theorems": ["Hadar.Props.C73", "Hadar.Props.C73_flows"], "note": "ratios of converters must not be negative; what is said of all dispatches of the documented problem is for studies without link from a node to itself and with at most one storage per node, what is said of solutions is for any; for Ready studies, that is studies solve_lp accepts (C70), no converter of which has two sources with the same text"},
 {"property": "C74", "status": "proved", "theorems": ["Hadar.Props.C74", "Hadar.Props.C74_equal", "Hadar.Props.C74_time", "Hadar.Props.C74_network"], "note": "by time step and by network (C74_time, C74_network): for studies without link from a node to itself, compared with the dispatches of the documented problem; for Ready studies, that is studies solve_lp accepts (C70), no converter of which has two sources with the same text"},
 {"property": "C75", "status": "proved", "theorems": ["Hadar.Props.C75", "Hadar.Props.C75_certificate", "Hadar.Props.C75_iff"], "note": "the equivalence (C75_iff) is stated for studies with at most one storage per node, as the solution is not feasible for the documented problem otherwise (C20); for Ready studies, that is studies solve_lp accepts (C70), no converter of which has two sources with the same text"},
 {"property": "C76", "status": "proved", "theorems": ["Hadar.Props.C76", "Hadar.Props.C76_loops", "Hadar.Props.C76_storage", "Hadar.Props.C76_converter"], "note": "for Ready studies, that is studies solve_lp accepts (C70), no converter of which has two sources with the same text"},
 {"property": "C77", "status": "partial", "theorems": ["Hadar.Props.C77_partial", "Hadar.Props.C77_one_storage_partial", "Hadar.Props.C77_accepted", "Hadar.Props.C77_dispatch", "Hadar.Props.C77_refuted"], "note": "false of the code when a node has several storages, as only the first one declared is constrained (C20): C77_refuted has two orders that cost 0 and 1000. True when each node has the same storage first; the documented problem does not depend on the order (C77_dispatch)"},
 {"property": "C78", "status": "proved", "theorems": ["Hadar.Props.C78"], "note": ""},
 {"property": "C79", "status": "proved", "theorems": ["Hadar.Props.C79"], "note": "each converter has at least one source; some versions of pandas accept arrays of one value in larger slices, hence more than one pair (scenario, time step)"},
 {"property": "C80", "status": "partial", "theorems": ["Hadar.Props.C80_self_partial", "Hadar.Props.C80_step_partial", "Hadar.Props.C80_total_partial", "Hadar.Props.C80_bound_partial", "Hadar.Props.C80_refuted", "Hadar.Props.C80_storage_refuted", "Hadar.Props.C80_free_energy"], "note": "false of the code with a link from a node to itself (C80_refuted) and with two storages at a node (C80_storage_refuted), which make energy from nothing; so does a converter without source (C80_free_energy)"},
 {"property": "C81", "status": "proved", "theorems": ["Hadar.Props.C81_lower", "Hadar.Props.C81_equal", "Hadar.Props.C81_worth", "Hadar.Props.C81_loads", "Hadar.Props.C81_iff"], "note": "for Ready studies, that is studies solve_lp accepts (C70), no converter of which has two sources with the same text"},
 {"property": "C82", "status": "partial", "theorems": ["Hadar.Props.C82_true_partial", "Hadar.Props.C82_false_partial", "Hadar.Props.C82_raises", "Hadar.Props.C82_self", "Hadar.Props.C82_numbers_partial", "Hadar.Props.C82_copy_partial", "Hadar.Props.C82_json_partial", "Hadar.Props.C82_result_true_partial", "Hadar.Props.C82_result_false_partial", "Hadar.Props.C82_result_copy_partial", "Hadar.Props.C82_hash", "Hadar.Props.C82_unhashable", "Hadar.Props.C82_hashable", "Hadar.Props.C82_refuted", "Hadar.Props.C82_result_refuted"], "note": "Answers of == are right whenever there is one, and when there is one is characterised for objects that share nothing. Refuted: == raises ValueError on a study with an array series and its copy, and on any result with more than one cell and its copy."},
 {"property": "C83", "status": "proved", "theorems": ["Hadar.Props.C83", "Hadar.Props.C83_means", "Hadar.Props.C83_feasible", "Hadar.Props.C83_source"], "note": "limits of what is added must not be negative, and storages added must be able to hold what they start with; what is said of all dispatches of the documented problem is for studies without link from a node to itself and with at most one storage per node, what is said of solutions is for any; for Ready studies, that is studies solve_lp accepts (C70), no converter of which has two sources with the same text"},
 {"property": "C84", "status": "proved", "theorems": ["Hadar.Props.C84"], "note": "for Ready studies, that is studies solve_lp accepts (C70), no converter of which has two sources with the same text"},
 {"property": "C85", "status": "proved", "theorems": ["Hadar.Props.C85", "Hadar.Props.C85_costs", "Hadar.Props.C85_feasible"], "note": "what is said of all dispatches of the documented problem is for studies without link from a node to itself and with at most one storage per node, what is said of solutions is for any; for Ready studies, that is studies solve_lp accepts (C70), no converter of which has two sources with the same text"},
 {"property": "C86", "status": "proved", "theorems": ["Hadar.Props.C86", "Hadar.Props.C86_feasible"], "note": "what is said of all dispatches of the documented problem is for studies without link from a node to itself and with at most one storage per node, what is said of solutions is for any; for Ready studies, that is studies solve_lp accepts (C70), no converter of which has two sources with the same text"},
 {"property": "C87", "status": "proved", "theorems": ["Hadar.Props.C87", "Hadar.Props.C87_call", "Hadar.Props.C87_build", "Hadar.Props.C87_ready", "Hadar.Props.C87_dispatch", "Hadar.Props.C87_onto", "Hadar.Props.C87_empty"], "note": "for Ready studies, that is studies solve_lp accepts (C70), no converter of which has two sources with the same text"},
 {"property": "C88", "status": "proved", "theorems": ["Hadar.Props.C88", "Hadar.Props.C88_window", "Hadar.Props.C88_rolling", "Hadar.Props.C88_apart", "Hadar.Props.C88_shorter", "Hadar.Props.C88_myopic"], "note": "for Ready studies, that is studies solve_lp accepts (C70), no converter of which has two sources with the same text"},
 {"property": "C89", "status": "proved", "theorems": ["Hadar.Props.C89", "Hadar.Props.C89_result", "Hadar.Props.C89_one", "Hadar.Props.C89_one_result", "Hadar.Props.C89_again", "Hadar.Props.C89_again_result", "Hadar.Props.C89_extra", "Hadar.Props.C89_unknown", "Hadar.Props.C89_plain"], "note": ""},
 {"property": "C90", "status": "proved", "theorems": ["Hadar.Props.C90", "Hadar.Props.C90_flows", "Hadar.Props.C90_least"], "note": "optimal answers of the solver are a hypothesis (the LP solver is not modelled); what is said of all dispatches of the documented problem is for studies without link from a node to itself and with at most one storage per node; for Ready studies, that is studies solve_lp accepts (C70), no converter of which has two sources with the same text"},
 {"property": "C91", "status": "proved", "theorems": ["Hadar.Props.C91_nonneg", "Hadar.Props.C91_idle", "Hadar.Props.C91_loss", "Hadar.Props.C91_adequate"], "note": "feasible or optimal answers of the solver are hypotheses (the LP solver is not modelled); for Ready studies, that is studies solve_lp accepts (C70), no converter of which has two sources with the same text"},
 {"property": "C92", "status": "partial", "theorems": ["Hadar.Props.C92_partial", "Hadar.Props.C92_number_partial", "Hadar.Props.C92_refuted"], "note": "true of < and >, and of all four on numbers; <= and >= are defined as the negation of > and <, so on series they only say so of some value: the series 1, 9 is both <= 5 and >= 5"},
 {"property": "C93", "status": "partial", "theorems": ["Hadar.Props.C93_partial", "Hadar.Props.C93_lossless", "Hadar.Props.C93_refuted"], "note": "true where one more unit of energy would save a cost; false elsewhere: a full storage with a cost per unit held, in a node that needs nothing, fills and empties at once to lose what it holds, whatever the optimal solver; optimal answers of the solver are a hypothesis (the LP solver is not modelled)"},
 {"property": "C94", "status": "partial", "theorems": ["Hadar.Props.C94_time_partial", "Hadar.Props.C94_scn_partial", "Hadar.Props.C94_converter_partial", "Hadar.Props.C94_refuted", "Hadar.Props.C94_flat_refuted"], "note": "the points and the curve are on the density multiplied by a factor between 1.41421 and 1.41422: the constant of the code is the square root of pi in place of 2 pi; when all values are the same every ordinate is NaN, so that nothing is drawn; roundings of floats are left out"},
 {"property": "C95", "status": "proved", "theorems": ["Hadar.Props.C95", "Hadar.Props.C95_size"], "note": "a size of 0 raises; colours are the places given to the colour map"},
 {"property": "C96", "status": "proved", "theorems": ["Hadar.Props.C96"], "note": "dates are numbers; pd.date_range is taken to give evenly spaced dates (it rounds to nanoseconds)"},
 {"property": "C97", "status": "proved", "theorems": ["Hadar.Props.C97_bound", "Hadar.Props.C97", "Hadar.Props.C97_adequate", "Hadar.Props.C97_least", "Hadar.Props.C97_more", "Hadar.Props.C97_costs"], "note": "the bound holds for storages, converters and any answer within the limits; the equality needs an optimal answer, no storage and no converter, and costs of links that are not negative; for Ready studies, that is studies solve_lp accepts (C70), no converter of which has two sources with the same text"},
 {"property": "C98", "status": "proved", "theorems": ["Hadar.Props.C98", "Hadar.Props.C98_worth"], "note": "optimal answers of the solvers are hypotheses (the LP solver is not modelled); for Ready studies, that is studies solve_lp accepts (C70), no converter of which has two sources with the same text"},
 {"property": "C99", "status": "partial", "theorems": ["Hadar.Props.C99_partial", "Hadar.Props.C99_array", "Hadar.Props.C99_fits", "Hadar.Props.C99_rows", "Hadar.Props.C99_production", "Hadar.Props.C99_consumption", "Hadar.Props.C99_refuted"], "note": "same gap as C58: pipelines whose result has a column with an empty name as only column to drop, for which the claim is false (C99_refuted)"},
 {"property": "C100", "status": "partial", "theorems": ["Hadar.Props.C100_partial", "Hadar.Props.C100_create", "Hadar.Props.C100_shared", "Hadar.Props.C100_refuted"], "note": "false for numpy arrays, which are kept by reference (C100_refuted); C100_shared says exactly what is read then; proved for numbers, lists, decoded JSON, DataFrames and Series"},
 {"property": "C101", "status": "proved", "theorems": ["Hadar.Props.C101_near", "Hadar.Props.C101_level", "Hadar.Props.C101_lower", "Hadar.Props.C101_cost", "Hadar.Props.C101_gap", "Hadar.Props.C101_exact"], "note": "for Ready studies, that is studies solve_lp accepts (C70), no converter of which has two sources with the same text"},
 {"property": "C102", "status": "partial", "theorems": ["Hadar.Props.C102_consumption", "Hadar.Props.C102_production", "Hadar.Props.C102_link", "Hadar.Props.C102_storage_partial", "Hadar.Props.C102_to_converter", "Hadar.Props.C102_converter_partial", "Hadar.Props.C20_refuted", "Hadar.Props.C13_refuted"], "note": "missing: evolution of storages other than the first of a node (C20_refuted) and converters to a network or node with an empty name (C13_refuted), of which it is false; sources of converters whose texts are confused (C21_refuted)"},
 {"property": "C103", "status": "partial", "theorems": ["Hadar.Props.C103_json", "Hadar.Props.C103_result", "Hadar.Props.C103_known_partial", "Hadar.Props.C103_exact", "Hadar.Props.C103_refuted", "Hadar.Props.C103_json_refuted"], "note": "missing: numbers of other types than int, float, int64 and float64, of which it is false (C103_refuted, C103_json_refuted); C103_exact says which studies are concerned"},
 {"property": "C104", "status": "proved", "theorems": ["Hadar.Props.C104_productions", "Hadar.Props.C104_consumptions", "Hadar.Props.C104_production", "Hadar.Props.C104_consumption", "Hadar.Props.C104_isolated"], "note": "optimal answers of the solver are hypotheses (the LP solver is not modelled); for Ready studies, that is studies solve_lp accepts (C70), no converter of which has two sources with the same text"},
 {"property": "C105", "status": "partial", "theorems": ["Hadar.Props.C105_partial", "Hadar.Props.C105_same", "Hadar.Props.C105_matrix", "Hadar.Props.C105_refuted", "Hadar.Props.C105_blank_refuted"], "note": "the title tells neither the network, nor the column of monotone and gaussian charts, nor the scenario of stacks, and names with blanks can be taken for others; it tells the rest (proved for names without blanks)"},
 {"property": "C106", "status": "partial", "theorems": ["Hadar.Props.C106_partial", "Hadar.Props.C106_alone", "Hadar.Props.C106_together_refuted", "Hadar.Props.C106_again_refuted"], "note": "the default sampler is a method bound to numpy's generator, and is pickled with its state in each chunk: timelines with as many rows, in different chunks, are drawn at the same indexes, and the next call draws the same again. What each timeline draws from is given exactly. The behaviour of pickle and multiprocessing is part of the trusted base"},
 {"property": "C107", "status": "partial", "theorems": ["Hadar.Props.C107_partial", "Hadar.Props.C107_text", "Hadar.Props.C107_refuted", "Hadar.Props.C107_text_refuted"], "note": "places, opens, closes and texts are right for a study with one storage; high is the open and low the close, so that high is below low exactly when the level rises; the text cuts decimals, so that the flow it says can differ by one from the difference of the levels it says"},
 {"property": "C108", "status": "partial", "theorems": ["Hadar.Props.C108_scale_partial", "Hadar.Props.C108_one_partial", "Hadar.Props.C108_refuted", "Hadar.Props.C108_arrow_refuted"], "note": "true of the scale of nodes; false of arrows: the numbers of the colour map, between 0 and 1, are written in rgb() without the factor 255, so that every arrow is black whatever the flow and the map"},
 {"property": "C109", "status": "proved", "theorems": ["Hadar.Props.C109", "Hadar.Props.C109_costs", "Hadar.Props.C109_one", "Hadar.Props.C109_step"], "note": "for Ready studies, that is studies solve_lp accepts (C70), no converter of which has two sources with the same text"},
 {"property": "C110", "status": "partial", "theorems": ["Hadar.Props.C110_study", "Hadar.Props.C110_result", "Hadar.Props.C110_repr", "Hadar.Props.C110_partial", "Hadar.Props.C110_result_partial", "Hadar.Props.C110_factory", "Hadar.Props.C110_copy", "Hadar.Props.C110_refuted", "Hadar.Props.C110_names_refuted"], "note": "proved: the form of texts; studies and results with the same text have the same data when names have no comma and no closing parenthesis. False: no copy of a study has the text of the study (the factory is written with its address), and a name can make one consumption look like two"},
 {"property": "C111", "status": "proved", "theorems": ["Hadar.Props.C111", "Hadar.Props.C111_values"], "note": ""},
 {"property": "C112", "status": "partial", "theorems": ["Hadar.Props.C112_same", "Hadar.Props.C112_measures", "Hadar.Props.C112_partial", "Hadar.Props.C112_refuted", "Hadar.Props.C112_total_refuted"], "note": "proved: one time per scenario in order, non-negative, bounded by the total up to the time between the last two readings; measuring changes nothing. False: the list solver also counts the time to build; the mapper may take more than the total"},
 {"property": "C113", "status": "partial", "theorems": ["Hadar.Props.C113_partial", "Hadar.Props.C113_feasible", "Hadar.Props.C113_refuted"], "note": "proved for links between different nodes, and for every link in the documented problem. False for a link from a node to itself: the code lets it make energy, the converter does not"},
 {"property": "C114", "status": "proved", "theorems": ["Hadar.Props.C114", "Hadar.Props.C114_dispatch", "Hadar.Props.C114_onto", "Hadar.Props.C114_ready"], "note": "for Ready studies, that is studies solve_lp accepts (C70), no converter of which has two sources with the same text"},
 {"property": "C115", "status": "partial", "theorems": ["Hadar.Props.C115_partial", "Hadar.Props.C115_names", "Hadar.Props.C115_colours", "Hadar.Props.C115_timeline_partial", "Hadar.Props.C115_refuted", "Hadar.Props.C115_colours_refuted"], "note": "proved where C60 and C68 are, with names that differ within each side of the node and at most ten lines. False otherwise: a production can be called import, and the eleventh line has the colour of the first"},
 {"property": "C116", "status": "partial", "theorems": ["Hadar.Props.C116_mean_partial", "Hadar.Props.C116_spared_partial", "Hadar.Props.C116_steady", "Hadar.Props.C116_early", "Hadar.Props.C116_possible", "Hadar.Props.C116_refuted"], "note": "proved for rows labelled 0, 1, 2, ..., no seed and durations that are not negative: the mean loss is loss x frequency x mean number of steps back within a duration, which is the mean duration except at the first steps; the chance that a step is spared is (1 - f x that number / h)^h. False: with faults of one step and two steps or more, a step is hit less often than occur_freq, for beginnings are drawn with replacement"},
 {"property": "C117", "status": "partial", "theorems": ["Hadar.Props.C117_partial", "Hadar.Props.C117_enough_partial", "Hadar.Props.C117_together", "Hadar.Props.C117_refuted"], "note": "proved for raw timelines that come first in a chunk (all of them up to four per process): mean of each scenario and of the average, mean square of the distance divided by the number drawn, and how many scenarios are enough. False: two timelines with as many scenarios are drawn at the same indexes, so they go together as in the data (C117_together, C117_refuted)"},
 {"property": "C118", "status": "proved", "theorems": ["Hadar.Props.C118_outcomes", "Hadar.Props.C118_compared", "Hadar.Props.C118_scenario", "Hadar.Props.C118_flows", "Hadar.Props.C118_cost", "Hadar.Props.C118_easier", "Hadar.Props.C118_units"], "note": "calls of all sixteen kinds; both data must be accepted or refused alike by the checks of the builder (negative quantities, efficiencies), which hold of data with the same values; for Ready studies, that is studies solve_lp accepts (C70), no converter of which has two sources with the same text"},
 {"property": "C119", "status": "proved", "theorems": ["Hadar.Props.C119", "Hadar.Props.C119_enough", "Hadar.Props.C119_unserved", "Hadar.Props.C119_unserved_enough", "Hadar.Props.C119_shuffle"], "note": "timelines of the program come first in a chunk (all of them up to four per process, see C106 and C117) and have as many scenarios as each other; since they are drawn at the same indexes, they stay together as in the data, which is what makes the estimate right; for Ready studies, that is studies solve_lp accepts (C70), no converter of which has two sources with the same text"},
 {"property": "C120", "status": "proved", "theorems": ["Hadar.Props.C120_clip_rename", "Hadar.Props.C120_clip_drop", "Hadar.Props.C120_clip_repeat", "Hadar.Props.C120_clips", "Hadar.Props.C120_drops", "Hadar.Props.C120_drop_again", "Hadar.Props.C120_renames", "Hadar.Props.C120_back", "Hadar.Props.C120_repeats", "Hadar.Props.C120_rename_repeat"], "note": "the second number of repetitions is at least one; dictionaries of names have no key twice, as Python's"},
 {"property": "C121", "status": "proved", "theorems": ["Hadar.Props.C121_most", "Hadar.Props.C121_least", "Hadar.Props.C121_production", "Hadar.Props.C121_link"], "note": "for Ready studies, that is studies solve_lp accepts (C70), without self-link and with at most one storage per node; prices not negative where an added converter takes energy at ratio zero (its drain is unlimited)"},
 {"property": "C122", "status": "proved", "theorems": ["Hadar.Props.C122", "Hadar.Props.C122_one", "Hadar.Props.C122_sent"], "note": "values that Python would store without looking at them (a text where a number is expected) are taken to be refused"},
 {"property": "C123", "status": "proved", "theorems": ["Hadar.Props.C123", "Hadar.Props.C123_circle", "Hadar.Props.C123_opposite", "Hadar.Props.C123_idle"], "note": "for Ready studies, that is studies solve_lp accepts (C70), without self-link"},
 {"property": "C124", "status": "proved", "theorems": ["Hadar.Props.C124_prices", "Hadar.Props.C124_cost", "Hadar.Props.C124_rounded", "Hadar.Props.C124_feasible", "Hadar.Props.C124_losses_refuted"], "note": "for Ready studies, that is studies solve_lp accepts (C70), without self-link and with one storage per node (except C124_prices); C124_losses_refuted shows that energy must not be lost or multiplied"},
 {"property": "C125", "status": "proved", "theorems": ["Hadar.Props.C125", "Hadar.Props.C125_key", "Hadar.Props.C125_index"], "note": "exceptions of pandas and numpy on data that is no number (texts in lists) are taken to be ValueError"},
 {"property": "C126", "status": "proved", "theorems": ["Hadar.Props.C126_left", "Hadar.Props.C126_all", "Hadar.Props.C126_unused", "Hadar.Props.C126_sooner", "Hadar.Props.C126_later", "Hadar.Props.C126_worth", "Hadar.Props.C126_fill_later", "Hadar.Props.C126_fill_sooner"], "note": "for Ready studies, that is studies solve_lp accepts (C70), no converter of which has two sources with the same text; efficiencies are taken positive where they divide; optimal answers of the solver are a hypothesis (the LP solver is not modelled)"},
 {"property": "C127", "status": "proved", "theorems": ["Hadar.Props.C127", "Hadar.Props.C127_same", "Hadar.Props.C127_one", "Hadar.Props.C127_link", "Hadar.Props.C127_result_refuted"], "note": "for Ready studies, that is studies solve_lp accepts (C70), no converter of which has two sources with the same text; the answer of the solver need not be such a dispatch itself, see C127_result_refuted; optimal answers of the solver are a hypothesis (the LP solver is not modelled)"},
 {"property": "C128", "status": "partial", "theorems": ["Hadar.Props.C128_quantity", "Hadar.Props.C128_kept", "Hadar.Props.C128_nan", "Hadar.Props.C128_compare", "Hadar.Props.C128_storage", "Hadar.Props.C128_finite", "Hadar.Props.C128_finite_create", "Hadar.Props.C128_refuted"], "note": "true of infinite numbers, for series in so far as only those below 0 everywhere are refused (C05); false of NaN, which is never refused: one NaN even lets a series pass whose other numbers are all negative. What ortools does with such a bound is unknown"},
 {"property": "C129", "status": "proved", "theorems": ["Hadar.Props.C129", "Hadar.Props.C129_both", "Hadar.Props.C129_costs", "Hadar.Props.C129_use", "Hadar.Props.C129_volume"], "note": "for Ready studies, that is studies solve_lp accepts (C70); C129 and C129_both also ask for no link from a node to itself and at most one storage per node; errors on ratios and efficiencies are not covered; optimal answers of the solver are a hypothesis (the LP solver is not modelled)"},
 {"property": "C130", "status": "proved", "theorems": ["Hadar.Props.C130_consumption", "Hadar.Props.C130_production", "Hadar.Props.C130_link", "Hadar.Props.C130_converter", "Hadar.Props.C130_shuffled", "Hadar.Props.C130_same"], "note": "the study is solved with texts of sources that are not confused (SolvedBy, as C102) and ResultAnalyzer accepts it, see C35 and C36 for when it does; names of destinations of converters are not empty; a feasible answer of the solver is a hypothesis"},
 {"property": "C131", "status": "proved", "theorems": ["Hadar.Props.C131", "Hadar.Props.C131_flows", "Hadar.Props.C131_served"], "note": "for Ready studies, that is studies solve_lp accepts (C70), C131 and C131_served without link from a node to itself and with at most one storage per node in the study, C131 without link from a node to itself in the coarser one; storages put together have one efficiency, links left out have no negative cost; optimal answers of the solver are a hypothesis (the LP solver is not modelled)"},
 {"property": "C132", "status": "proved", "theorems": ["Hadar.Props.C132", "Hadar.Props.C132_flows", "Hadar.Props.C132_served"], "note": "for Ready studies, that is studies solve_lp accepts (C70), C132_served without link from a node to itself and with at most one storage per node; efficiencies and ratios are constant within each long step and holding energy within a long step has no negative cost; optimal answers of the solver are a hypothesis (the LP solver is not modelled)"},
 {"property": "C133", "status": "proved", "theorems": ["Hadar.Props.C133", "Hadar.Props.C133_prices", "Hadar.Props.C133_upper", "Hadar.Props.C133_storage"], "note": "for Ready studies, that is studies solve_lp accepts (C70), C133 and C133_prices without link from a node to itself and with at most one storage per node; optimal answers of the solver are a hypothesis (the LP solver is not modelled)"},
 {"property": "C134", "status": "proved", "theorems": ["Hadar.Props.C134", "Hadar.Props.C134_accepted", "Hadar.Props.C134_ready", "Hadar.Props.C134_part"], "note": "studies of the version of the library; calls pass numbers, lists and arrays only. A call that raises counts as a call: it may leave a converter without source and destination (C08)"},
 {"property": "C135", "status": "proved", "theorems": ["Hadar.Props.C135", "Hadar.Props.C135_stage", "Hadar.Props.C135_turns", "Hadar.Props.C135_fate", "Hadar.Props.C135_errors", "Hadar.Props.C135_sample"], "note": "nothing is told when two columns get the same name, or when a stage of faults allows no duration; numpy's generator is assumed lawful (Spec/Pipeline)"},
 {"property": "C136", "status": "proved", "theorems": ["Hadar.Props.C136", "Hadar.Props.C136_calls"], "note": "slices are given to time and scenario and have their first bound (C39 for the others); storages when there are several and intakes of converters with several sources are left out, since their tables are wrong (C34, C36)"},
 {"property": "C137", "status": "partial", "theorems": ["Hadar.Props.C137_element_partial", "Hadar.Props.C137_position_partial", "Hadar.Props.C137_candles_partial", "Hadar.Props.C137_totals_partial", "Hadar.Props.C137_matrix_partial", "Hadar.Props.C137_map_partial", "Hadar.Props.C137_stack_partial", "Hadar.Props.C137_balance_refuted", "Hadar.Props.C137_rac_refuted", "Hadar.Props.C137_map_refuted", "Hadar.Props.C137_stack_refuted"], "note": "the property is false of the code in the cases of the _refuted theorems; storages when there are several and intakes of converters with several sources are left out, since their tables are wrong (C34, C36); gaussians of converters in a scenario ignore it (C67)"},
 {"property": "C138", "status": "partial", "theorems": ["Hadar.Props.C138_partial", "Hadar.Props.C138_built", "Hadar.Props.C138_kept", "Hadar.Props.C138_refuted"], "note": "the property is false of the code for converters whose sources contain the separator (C138_refuted, CleanSources) and for studies without scenario (C14)"},
 {"property": "C139", "status": "partial", "theorems": ["Hadar.Props.C139_partial", "Hadar.Props.C139_totals_partial", "Hadar.Props.C139_less_partial", "Hadar.Props.C139_refuted"], "note": "slices with an omitted bound (C139_refuted, C39), storages when there are several and intakes of converters with several sources (C34, C36) are left out since the property is false of the code there; whether each question returns a table is C40"},
 {"property": "C140", "status": "partial", "theorems": ["Hadar.Props.C140_partial", "Hadar.Props.C140_goods_partial", "Hadar.Props.C140_refuted", "Hadar.Props.C140_storage_refuted"], "note": "for Ready studies, that is studies solve_lp accepts (C70), without link from a node to itself and with at most one storage per node since the property is false of the code otherwise; optimal answers of the solver are a hypothesis (the LP solver is not modelled)"},
 {"property": "C141", "status": "proved", "theorems": ["Hadar.Props.C141", "Hadar.Props.C141_flows", "Hadar.Props.C141_back"], "note": "for Ready studies, that is studies solve_lp accepts (C70); optimal answers of the solver are a hypothesis (the LP solver is not modelled)"},
 {"property": "C142", "status": "proved", "theorems": ["Hadar.Props.C142", "Hadar.Props.C142_labels", "Hadar.Props.C142_pipeline", "Hadar.Props.C142_cut", "Hadar.Props.C142_cut_pipeline"], "note": "for the stages named; stages written by the user and Fault, which looks at the whole period, are not covered"},
 {"property": "C143", "status": "partial", "theorems": ["Hadar.Props.C143_step_partial", "Hadar.Props.C143_total_partial", "Hadar.Props.C143_stack_partial", "Hadar.Props.C143_candles_partial"], "note": "for Ready studies, that is studies solve_lp accepts (C70), without link from a node to itself and with at most one storage per node (accounts are wrong otherwise: C80), charts in the cases of C59 and C60; the error of the answers of the solver is a hypothesis (the LP solver is not modelled)"},
 {"property": "C144", "status": "partial", "theorems": ["Hadar.Props.C144", "Hadar.Props.C144_surplus", "Hadar.Props.C144_surplus_partial", "Hadar.Props.C144_surplus_refuted"], "note": "the first part is proved in full; the second for Ready studies, that is studies solve_lp accepts (C70), without link from a node to itself: C144_surplus says what is counted twice otherwise and C144_surplus_refuted shows a map without arrow around a node that misses 10; the LP solver is not modelled"},
 {"property": "C145", "status": "partial", "theorems": ["Hadar.Props.C145", "Hadar.Props.C145_twin", "Hadar.Props.C145_margin_partial", "Hadar.Props.C145_unique_partial", "Hadar.Props.C145_refuted"], "note": "what is said of least cost dispatches is proved in full; results for Ready studies, that is studies solve_lp accepts (C70), without link from a node to itself and with at most one storage per node; C145_refuted: with ties, the solver may cut one town and not its twin; the LP solver is not modelled"},
 {"property": "C146", "status": "partial", "theorems": ["Hadar.Props.C146_feasible", "Hadar.Props.C146_partial", "Hadar.Props.C146_refuted"], "note": "feasible dispatches and costs for all built studies (C146_feasible); results for Ready studies, that is studies solve_lp accepts (C70), when the straight link goes to another node; C146_refuted: a relay that gives back to the node it gets from serves nothing, but a link from a node to itself makes energy; the relay stays as a bare node in the study with the straight link (C84 for nodes without elements); the LP solver is not modelled"},
 {"property": "C147", "status": "partial", "theorems": ["Hadar.Props.C147_partial", "Hadar.Props.C147_chosen_partial", "Hadar.Props.C147_order_partial", "Hadar.Props.C147_repeated_partial", "Hadar.Props.C147_refuted"], "note": "for Ready studies, that is studies solve_lp accepts (C70), without storage; C147_refuted: with a storage two time steps cost 50 in one order and 140 in the other one; the LP solver is not modelled"},
 {"property": "C148", "status": "proved", "theorems": ["Hadar.Props.C148", "Hadar.Props.C148_feasible"], "note": "for Ready studies, that is studies solve_lp accepts (C70); the node of the plant stays as a bare node in the study with the plant at the end of the link (C84 for nodes without elements); optimal answers of the solver are a hypothesis (the LP solver is not modelled)"},
 {"property": "C149", "status": "proved", "theorems": ["Hadar.Props.C149", "Hadar.Props.C149_feasible"], "note": "for Ready studies, that is studies solve_lp accepts (C70); the node of the load stays as a bare node in the study with the load at the start of the link; the link is the last one of its node and the moved load the last one (order of elements: C77); optimal answers of the solver are a hypothesis (the LP solver is not modelled)"},
 {"property": "C150", "status": "proved", "theorems": ["Hadar.Props.C150", "Hadar.Props.C150_feasible"], "note": "for Ready studies, that is studies solve_lp accepts (C70); the node between stays as a bare node in the study with one converter; the two converters are the last ones declared (order of declarations: C77); optimal answers of the solver are a hypothesis (the LP solver is not modelled)"},
 {"property": "C151", "status": "proved", "theorems": ["Hadar.Props.C151", "Hadar.Props.C151_feasible"], "note": "for Ready studies, that is studies solve_lp accepts (C70); the node of the fuel stays as a bare node in the study without converter; the converter is the last one and the new production the last one of its node (order of declarations: C77); optimal answers of the solver are a hypothesis (the LP solver is not modelled)"},
 {"property": "C152", "status": "proved", "theorems": ["Hadar.Props.C152", "Hadar.Props.C152_feasible"], "note": "for Ready studies, that is studies solve_lp accepts (C70); the node of the load stays as a bare node in the study without converter; the converter is the last one and the moved load the last one of its node (order of declarations: C77); optimal answers of the solver are a hypothesis (the LP solver is not modelled)"},
 {"property": "C153", "status": "proved", "theorems": ["Hadar.Props.C153", "Hadar.Props.C153_feasible"], "note": "for Ready studies, that is studies solve_lp accepts (C70); the node of the source stays as a bare node in the study without it; the converter is the last one and the source its last one (order of declarations: C77); optimal answers of the solver are a hypothesis (the LP solver is not modelled)"},
 {"property": "C154", "status": "proved", "theorems": ["Hadar.Props.C154", "Hadar.Props.C154_feasible"], "note": "for Ready studies, that is studies solve_lp accepts (C70); the converter is the last one and the production the last one of its node (order of declarations: C77); optimal answers of the solver are a hypothesis (the LP solver is not modelled)"}
]}
