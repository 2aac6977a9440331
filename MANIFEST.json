{"claims": [
 {"property": "C01", "status": "proved", "theorems": ["Leaf.C01_ids_unique", "Leaf.C01_current_is_own", "Leaf.C01_idle_thread", "Leaf.C01_every_call", "Leaf.C01_history", "Leaf.C01_threads"], "note": "Ids unique across any interleaving within a window of 2^30 generations, for threads that only generate ids and for threads running arbitrary programs; every call yields one id; a thread's current id is the last one it generated, and empty until it generates one."},
 {"property": "C02", "status": "proved", "theorems": ["Leaf.C02_ids_valid", "Leaf.C02_threads", "Leaf.C02_new_error", "Leaf.C02_result_error"], "note": "Id generators alone (C02_ids_valid), threads running any programs (C02_threads), what new_error returns (C02_new_error), and results made from it."},
 {"property": "C03", "status": "proved", "theorems": ["Leaf.C03_serial_injective", "Leaf.C03_serials_distinct", "Leaf.C03_collision"], "note": ""},
 {"property": "C04", "status": "proved", "theorems": ["Leaf.C04_round_trip", "Leaf.C04_zero", "Leaf.C04_foreign", "Leaf.C04_not_an_id", "Leaf.C04_like_new_error", "Leaf.C04_is_error_id"], "note": "Round trip, zero codes, foreign codes, in every consistent thread state. C04_not_an_id: a non-zero code of the LEAF category that holds no id fails the assertion (undefined). C04_like_new_error: importing a foreign code does exactly what new_error with the code does. C04_is_error_id: when is_error_id is true, false, or fails its assertion."},
 {"property": "C05", "status": "partial", "theorems": ["Leaf.C05_refuted_current_error", "Leaf.C05_refuted_check", "Leaf.C05_refuted_result", "Leaf.C05_partial"], "note": "False as stated: make_error_id(0) is 1, which converts to true; negation proved for all quiet states. C05_partial: the internal id is zero and 1 is never the id of an error within the first 2^30-1."},
 {"property": "C06", "status": "proved", "theorems": ["Leaf.C06_operations", "Leaf.C06_observers", "Leaf.C06_value_kept", "Leaf.C06_error_kept", "Leaf.C06_value_arrives", "Leaf.C06_error_arrives", "Leaf.C06_captured_arrives"], "note": "All histories of allowed operations over any number of results."},
 {"property": "C07", "status": "proved", "theorems": ["Leaf.C07_lifetimes", "Leaf.C07_exactly_once", "Leaf.C07_self_move"], "note": "Self move assignment, outside the claim, is shown to be undefined behaviour."},
 {"property": "C08", "status": "proved", "theorems": ["Leaf.C08_lookup", "Leaf.C08_lifetimes", "Leaf.C08_exactly_once", "Leaf.C08_last_loaded", "Leaf.C08_misuse"], "note": "Includes throwing copy constructors. C08_misuse: the conditions on histories are exact."},
 {"property": "C09", "status": "partial", "theorems": ["Leaf.C09_load_partial", "Leaf.C09_new_error_partial", "Leaf.C09_on_error_partial", "Leaf.C09_refuted_nested_capture"], "note": "Exact description of where objects go, all consistent states. As stated the claim is false for nested capturing scopes (witness)."},
 {"property": "C10", "status": "proved", "theorems": ["Leaf.C10_bindings_restored", "Leaf.C10_nothing_bound"], "note": "Pointer-level storage, all well-formed programs."},
 {"property": "C11", "status": "partial", "theorems": ["Leaf.C11_no_dead_storage_partial", "Leaf.C11_refuted_accumulate", "Leaf.C11_refuted_capture_void"], "note": "False in the code for accumulation inside a capturing scope and for void try_capture_all (witnesses); proved for all other programs."},
 {"property": "C12", "status": "partial", "theorems": ["Leaf.C12_unwanted_load_partial", "Leaf.C12_unwanted_on_error_partial", "Leaf.C12_refuted_deferred"], "note": "Storage part holds without restriction; with CAPTURE the function returning the object is called although nobody wants it (witness)."},
 {"property": "C13", "status": "proved", "theorems": ["Leaf.C13_own_objects", "Leaf.C13_fresh_thread"], "note": "Invariant over all executions of all well-formed programs, capture included. The lists printed by diagnostics are covered for every non-zero id (an exception with a zero id is outside well-formed programs)."},
 {"property": "C14", "status": "proved", "theorems": ["Leaf.C14_last_wins", "Leaf.C14_guard_keeps", "Leaf.C14_propagation_keeps"], "note": ""},
 {"property": "C15", "status": "proved", "theorems": ["Leaf.C15_select_some", "Leaf.C15_select_all", "Leaf.C15_handle_some_result", "Leaf.C15_handle_some_exception", "Leaf.C15_try_catch", "Leaf.C15_handle_all"], "note": "Selection for all contents; program level for try_handle_all, try_handle_some and try_catch."},
 {"property": "C16", "status": "proved", "theorems": ["Leaf.C16_same_handler", "Leaf.C16_compiles_iff", "Leaf.C16_same_handler_some", "Leaf.C16_same_slots"], "note": "Nested tuples against flat lists; compile-time restriction on empty tuples described by compilesTree."},
 {"property": "C17", "status": "proved", "theorems": ["Leaf.C17_deduction", "Leaf.C17_lookup"], "note": ""},
 {"property": "C18", "status": "proved", "theorems": ["Leaf.C18_always_handled", "Leaf.C18_valid"], "note": "C18_valid: what the static assertion accepts is what is always suitable."},
 {"property": "C19", "status": "proved", "theorems": ["Leaf.C19_handle_some", "Leaf.C19_handle_all", "Leaf.C19_try_catch", "Leaf.C19_capture_all"], "note": ""},
 {"property": "C20", "status": "proved", "theorems": ["Leaf.C20_unhandled_result"], "note": ""},
 {"property": "C21", "status": "proved", "theorems": ["Leaf.C21_unhandled_exception_some", "Leaf.C21_unhandled_exception_try_catch", "Leaf.C21_same_exception"], "note": ""},
 {"property": "C22", "status": "partial", "theorems": ["Leaf.C22_handle_all_partial", "Leaf.C22_handle_some_partial", "Leaf.C22_try_catch_partial", "Leaf.C22_guards_keep", "Leaf.C22_objects", "Leaf.C22_refuted_try_catch"], "note": "Induction over any list of intermediate layers (try_handle_some, try_catch for exceptions, on_error guards, result forwarding). As stated the claim is false for try_catch scopes left by a failed result (witness)."},
 {"property": "C23", "status": "proved", "theorems": ["Leaf.C23_new_error_replaces", "Leaf.C15_handle_some_result", "Leaf.C15_handle_some_exception"], "note": ""},
 {"property": "C24", "status": "partial", "theorems": ["Leaf.C24_success", "Leaf.C24_failure_partial", "Leaf.C24_exception", "Leaf.C24_last_reported", "Leaf.C24_refuted_reset", "Leaf.C24_refuted", "Leaf.C24_refuted_received"], "note": "All exits of the scope are covered; false as stated when the current id was reset to 0 in the scope (items dropped although an exception is in flight: C24_refuted), and when a captured result of an earlier error was handled in the scope (C24_refuted_received). C24_last_reported holds for all scopes without captured results and capturing scopes."},
 {"property": "C25", "status": "partial", "theorems": ["Leaf.C25_assigned_partial", "Leaf.C25_check_partial", "Leaf.C25_refuted", "Leaf.C25_refuted_check", "Leaf.C25_refuted_received"], "note": "False as stated when a leaf::exception thrown in the scope was destroyed uninspected (gives id 1: C25_refuted), and when a captured result of an earlier error was handled in the scope (C25_refuted_received). The partial theorems exclude these."},
 {"property": "C26", "status": "proved", "theorems": ["Leaf.C26_destroy", "Leaf.C26_others", "Leaf.C26_once", "Leaf.C26_examined", "Leaf.C26_swallowed", "Leaf.C26_swallowed_by_user"], "note": "Exception objects are modelled apart from Prog, with a ghost number for each throw; an independent spec says which copy is responsible. C26_swallowed_by_user: the same in Prog, for exceptions swallowed in a catch block."},
 {"property": "C27", "status": "partial", "theorems": ["Leaf.C27_partial", "Leaf.C27_block_partial", "Leaf.C27_captured_partial", "Leaf.C27_received", "Leaf.C27_as_loaded", "Leaf.C27_refuted_abandoned", "Leaf.C27_refuted_nested"], "note": "False as stated: objects are lost when the block first reports and abandons another error (C27_refuted_abandoned), or returns a captured result (C27_refuted_nested). Proved: any block whose capturing scope first stored for the failing error; any report through any layers; receiving side in full."},
 {"property": "C28", "status": "partial", "theorems": ["Leaf.C28_thrown", "Leaf.C28_returned_partial", "Leaf.C28_unloaded", "Leaf.C27_received", "Leaf.C28_refuted"], "note": "Thrown part and rethrow part proved in full; 'no exception otherwise' is false inside a catch block (C28_refuted) and proved when no exception is being handled."},
 {"property": "C29", "status": "partial", "theorems": ["Leaf.C29_contents_partial", "Leaf.C29_ownership_partial", "Leaf.C29_exactly_once_partial", "Leaf.C29_refuted_throw", "Leaf.C29_unload_capture"], "note": "False if the constructor of a captured object throws: the list keeps a pointer to the freed node (C29_refuted_throw, for every list). Proved for all histories without that; an unloaded dynamic_allocator must not be used again (C29_unload_capture)."},
 {"property": "C30", "status": "proved", "theorems": ["Leaf.C30_match", "Leaf.C30_match_value", "Leaf.C30_match_member", "Leaf.C30_catch", "Leaf.C30_if_not", "Leaf.C30_receives"], "note": "Equality and projection functions are arbitrary. A predicate over an object type also accepts a caught exception that casts to that type (Sees)."},
 {"property": "C31", "status": "proved", "theorems": ["Leaf.C31_forward", "Leaf.C31_first_failure", "Leaf.C31_first_exception", "Leaf.C31_all_succeed"], "note": ""},
 {"property": "C32", "status": "proved", "theorems": ["Leaf.C32_returned", "Leaf.C32_thrown", "Leaf.C32_no_exception"], "note": "Availability of the loaded objects is stated for a thread state that does not hold objects under the fresh id already (C01)."},
 {"property": "C33", "status": "proved", "theorems": ["Leaf.C33_value", "Leaf.C33_failure"], "note": ""},
 {"property": "C34", "status": "proved", "theorems": ["Leaf.C34_accumulation"], "note": "Where accumulation is undefined (C11_refuted_accumulate) is excluded by hypothesis."},
 {"property": "C35", "status": "proved", "theorems": ["Leaf.C35_step", "Leaf.C35_as_if_alone", "Leaf.C35_independent"], "note": "Interleaving machine over shared memory and counter; any number of threads, any schedule at the granularity of the model's memory operations. Ids: one-to-one renaming, for code that does not inspect id values, while fewer than 2^30 ids were generated."},
 {"property": "C36", "status": "proved", "theorems": ["Leaf.C36_uint", "Leaf.C36_variables", "Leaf.C36_capacity", "Leaf.C36_refuted_minimum"], "note": "SIZE-1-START variables fit: the last array element is never used (C36_capacity); the current id is one of them, so the documented minimum size fails (C36_refuted_minimum, F60). Variables are initialised before first write, reads may come earlier."},
 {"property": "C37", "status": "proved", "theorems": ["Leaf.C37_diagnostic_info", "Leaf.C37_diagnostic_details", "Leaf.C37_context", "Leaf.C37_result", "Leaf.C37_entries", "Leaf.C37_serial"], "note": "The stream is a string; print classes give an arbitrary text or none. Serial numbers are printed signed, so C37_serial covers ids below 2^31."},
 {"property": "C38", "status": "proved", "theorems": ["Leaf.C38_exact", "Leaf.C38_only"], "note": "For msvc the announced kind (struct/class/enum) is not part of the name; unannounced type names that begin with such a keyword do not exist in that format (Admits)."},
 {"property": "C39", "status": "partial", "theorems": ["Leaf.C39_move_partial", "Leaf.C39_refuted_nested", "Leaf.C39_refuted_unloaded"], "note": "Proved for contexts that were not active inside a scope with a slot for one of their types and whose captured objects were not unloaded; the two remaining cases are refuted by witnesses (assertion x.prev_ == nullptr in slot(slot &&); dangling last_)."},
 {"property": "C40", "status": "proved", "theorems": ["Leaf.C40_value_plain", "Leaf.C40_value_captured", "Leaf.C40_value_swallowed", "Leaf.C40_value"], "note": "Error states in the program model, value state in the result model."},
 {"property": "C41", "status": "partial", "theorems": ["Leaf.C41_contexts_partial", "Leaf.C41_inactive_unchanged", "Leaf.C41_bindings_restored", "Leaf.C41_unload", "Leaf.C41_handle", "Leaf.C41_refuted_reactivate"], "note": "Refinement of all allowed sequences of operations; effect of unloading and handling. Missing: activating again a context that captured objects, for which the claim is false (witness)."},
 {"property": "C42", "status": "proved", "theorems": ["Leaf.C42_compiles", "Leaf.C42_new_error", "Leaf.C42_given_error", "Leaf.C42_empty_id", "Leaf.C42_reports", "Leaf.C42_refuted_empty_id"], "note": "An exception with an empty id, thrown by passing an empty error_id, makes LEAF fail an assertion when it leaves a scope (C42_refuted_empty_id); programs doing so are excluded from the whole-program theorems."},
 {"property": "C43", "status": "proved", "theorems": ["Leaf.C43_new_error", "Leaf.C43_throw_exception", "Leaf.C43_empty_id", "Leaf.C43_handled", "Leaf.C43_refuted_error_info"], "note": "The end-to-end theorem is for try_handle_all, as C22."},
 {"property": "C44", "status": "proved", "theorems": ["Leaf.C44_failed", "Leaf.C44_value"], "note": "Uses that objects are delivered as in C09."},
 {"property": "C45", "status": "proved", "theorems": ["Leaf.C45_step", "Leaf.C45_as_if_alone", "Leaf.C45_between", "Leaf.C45_ids", "Leaf.C45_crosses"], "note": "Scripts: lists of events (an operation of a thread, or a program given to a thread that is done), all quantified over. Condition of C45_crosses: the current error of the capturing thread is none or one generated by LEAF in this process, and less than 2^30 ids have been generated."},
 {"property": "C46", "status": "partial", "theorems": ["Leaf.C46_moved_partial", "Leaf.C46_block", "Leaf.C46_caught", "Leaf.C46_caught_inside", "Leaf.C46_refuted_moved_twice"], "note": "Proved for all histories in which no guard is moved that was moved from already; otherwise the claim is false (witness): the constructor does not take over moved_."},
 {"property": "C47", "status": "partial", "theorems": ["Leaf.C47_same_partial", "Leaf.C47_no_exception", "Leaf.C47_refuted_try_catch"], "note": "Equality of the two interpreters on all exception-free programs without try_catch. With try_catch the claim is false (witness): in builds without exceptions it is a plain call, in builds with exceptions it destroys the objects of failed results."},
 {"property": "C48", "status": "proved", "theorems": ["Leaf.start_of_earlier", "Leaf.C48_ideal", "Leaf.C48_unique", "Leaf.C48_independent", "Leaf.C48_threads", "Leaf.C48_refuted_no_id", "Leaf.C48_refuted_handler", "Leaf.C48_refuted_in_place", "Leaf.C48_jobs", "Leaf.C48_jobs_next"], "note": "Refinement: every run of the model is a run of the ideal semantics (C48_ideal), which is deterministic if no handler takes diagnostic listings (C48_unique); hence independence of the surroundings (C48_independent). C48_threads: the same in the machine with several threads; C48_jobs: in threads that are given one program after another, and C48_jobs_next: its condition is kept from one to the next. Restrictions of the language are part of the statement; the C48_refuted theorems are witnesses that the first three are needed, C22_refuted_try_catch that the fourth is. try_capture_all is not in the language (see C27, C28). Functions called by on_error and load are represented by their results. Start: the ids the thread knows are none of those it is going to generate; start_of_earlier: this is so if they were generated in this process, by whichever thread."},
 {"property": "C49", "status": "partial", "theorems": ["Leaf.C49_in_order_partial", "Leaf.C49_new_error_partial", "Leaf.C49_on_error_partial", "Leaf.C49_refuted_lost", "Leaf.C49_refuted_current", "Leaf.C49_refuted_capture"], "note": "Proved: no undefined behaviour, the functions are called exactly when needed, items take effect in order, the object returned by a last function is available; excluding functions that make a capturing scope capture an object of the type they return. False in the code (witnesses): in that case an assertion fails; objects passed before the function may be lost; the current error may be another one."},
 {"property": "C50", "status": "partial", "theorems": ["Leaf.C50_handled", "Leaf.C50_preserved_partial", "Leaf.C50_no_change", "Leaf.C50_refuted_older", "Leaf.C50_refuted_thrown"], "note": "Proved for both ways the block can fail: the first suitable handler's changes, and nothing else, are in the scope when it returns (C50_handled); if it returns the same error they arrive in the enclosing scopes, unless these have an object of the type for this error already (C50_preserved_partial). False in the code otherwise (witnesses): the older object wins; a handler that rethrows loses the objects. C50_no_change: without changes the model is that of Prog."},
 {"property": "C51", "status": "proved", "theorems": ["Leaf.C51_same", "Leaf.C51_handlers", "Leaf.C51_functions", "Leaf.evalB_true", "Leaf.C51_refuted_details"], "note": "Comparison of eval (with diagnostics) and evalB on pointer-level storage; C51_refuted_details shows that the exclusion of capturing scopes is needed (F33)."},
 {"property": "C52", "status": "proved", "theorems": ["Leaf.C52_array"], "note": "End-to-end: any defined execution on thread_local variables is reproduced on the TLS array. The current id is not moved to the array here (C36_uint covers it)."},
 {"property": "C53", "status": "proved", "theorems": ["Leaf.C53_guards", "Leaf.C53_guards_allowed", "Leaf.C53_already_deactivated"], "note": "Guards are block structured; early exit is a shorter body."},
 {"property": "C54", "status": "proved", "theorems": ["Leaf.C54_captured", "Leaf.C54_received", "Leaf.C54_received_some", "Leaf.C54_received_catch", "Leaf.C54_remote", "Leaf.C54_remote_some", "Leaf.C54_remote_catch", "Leaf.C54_refuted"], "note": "C54_remote, C54_remote_some, C54_remote_catch: one ideal run of try_handle_all, try_handle_some, or try_catch and value(), around the function, split between the threads. C54_captured and the theorems C54_received...: the two halves, in any thread state. The condition that a failing function reported one error only is needed (C54_refuted, finding F5). Handlers of try_handle_some that return the error they were called for are not covered by C54_remote_some."},
 {"property": "C55", "status": "proved", "theorems": ["Leaf.C55_safe", "Leaf.C55_leaf", "Leaf.C55_ideal", "Leaf.C55_passes", "Leaf.C55_handled_all", "Leaf.C55_handled_some", "Leaf.C55_refuted_guard", "Leaf.C55_refuted_identity", "Leaf.C55_refuted_zero"], "note": "For codes of foreign categories, what does not hold as with leaf::result is stated in C55_refuted_guard and C55_refuted_identity; results holding a zero code are excluded (C55_refuted_zero). C55_ideal leaves out error monitors and handlers that return the error they were called for."},
 {"property": "C56", "status": "partial", "theorems": ["Leaf.C56_error_id_partial", "Leaf.C56_unload_first", "Leaf.C56_refuted", "Leaf.C56_refuted_load", "Leaf.C56_refuted_concrete"], "note": "Proved: the id returned, for all results; the full claim for results that hold no captured objects; r.unload() before r.load(items...) gives the documented behaviour. Refuted: the conversion does not load captured objects, so return r.load(items...) loses them (F37)."},
 {"property": "C57", "status": "partial", "theorems": ["Leaf.C57_handle_all_partial", "Leaf.C57_handle_some_partial", "Leaf.C57_try_catch_partial", "Leaf.C57_refuted_handled"], "note": "Proved for all layers, handler lists, exceptions and states in which no object of the thread's current error is stored in an active scope (not needed if the innermost layer that is a scope or a guard is a guard). Missing: the remaining states, where the claim is false (C57_refuted_handled). If no guard is on the way, the id seen is the current one of the thread (foreignId)."},
 {"property": "C58", "status": "proved", "theorems": ["Leaf.C58_value", "Leaf.C58_reference", "Leaf.C58_reference_moved", "Leaf.C58_error", "Leaf.C58_void"], "note": "All histories of operations on results. value() of a result with captured objects also loads these (C40)."},
 {"property": "C59", "status": "proved", "theorems": ["Leaf.C59_order", "Leaf.C59_chronological", "Leaf.C59_limit"], "note": "Found missing by a mutant of operator< that no theorem noticed."},
 {"property": "C60", "status": "partial", "theorems": ["Leaf.C60_items_partial", "Leaf.C60_guard_partial", "Leaf.C60_enough"], "note": "All items, failing allocations, states, bodies. Missing: functions taking E &, when the innermost capturing scope captured objects of another error first (finding F4: storage in use is destroyed, whatever the memory). new_error, load and the rest: C67."},
 {"property": "C61", "status": "proved", "theorems": ["Leaf.C61_accounted", "Leaf.C61_thread"], "note": "All programs, all states: the run that records constructions and destructions does the same as the run on the pointer-level storage, and at its end every object was destroyed once or is held by one slot of an active scope. C61_thread: nothing is left in a new thread, for all programs without undefined behaviour by C11. What a captured result holds afterwards is C07 and C29."},
 {"property": "C62", "status": "proved", "theorems": ["Leaf.PrintFile.C62_print_file", "Leaf.PrintFile.C62_print_file_system", "Leaf.PrintFile.C62_print_file_exceptions", "Leaf.ErrorTrace.C62_error_trace", "Leaf.ErrorLog.C62_error_log", "Leaf.ErrorLog.C62_error_log_disabled", "Leaf.PrintHalf.C62_print_half", "Leaf.LuaCallback.C62_lua_callback", "Leaf.ExceptionToResult.C62_exception_to_result", "Leaf.Tasks.C62_tasks", "Leaf.Tasks.C62_tasks_throwing", "Leaf.PrintFile.C62_refuted_print_file"], "note": "One theorem per program. The condition that the buffer can be allocated is needed (C62_refuted_print_file, finding F40)."},
 {"property": "C63", "status": "proved", "theorems": ["Leaf.C63_finishes", "Leaf.C63_all_finish", "Leaf.C63_as_if_alone"], "note": "Programs are finite trees of operations (C++ code that loops for ever by itself is not a program of the model); the atomic counter and thread-local accesses are single steps, as the C++ memory model makes them appear."},
 {"property": "C64", "status": "partial", "theorems": ["Leaf.C64_safe", "Leaf.C64_new_build", "Leaf.C64_old_build", "Leaf.C64_builds_partial", "Leaf.C64_guard", "Leaf.C64_new_guard", "Leaf.C64_old_guard", "Leaf.C64_new_monitor", "Leaf.C64_old_monitor", "Leaf.C64_monitor_unwinding", "Leaf.C64_keeps_partial", "Leaf.C64_handle_all", "Leaf.C64_same_handler_partial", "Leaf.C64_refuted_old_build", "Leaf.C64_refuted_lost", "Leaf.C64_refuted_guard"], "note": "Safety for all programs and both builds. The error is unaffected by destructors that have slots for all objects they report and use no captured results (induction over the program); guards attach to the last error reported in their scope. The full claim is false (three witnesses): guards in destructors in builds without std::uncaught_exceptions, destructors without slots of their own, guards around destructors that report errors."},
 {"property": "C65", "status": "proved", "theorems": ["Leaf.C65_append", "Leaf.C65_unique", "Leaf.C65_remove_if", "Leaf.C65_first_rest", "Leaf.C65_sequence", "Leaf.C65_type_index", "Leaf.C65_context", "Leaf.C65_find"], "note": "Templates as functions on lists; the slots of the model used everywhere else (deduce, findCell) are those the templates compute."},
 {"property": "C66", "status": "partial", "theorems": ["Leaf.C66_handlers_partial", "Leaf.C66_items_partial", "Leaf.C66_objects", "Leaf.C66_pointers_partial", "Leaf.C66_object_pointers", "Leaf.C66_params_partial", "Leaf.C66_refuted_noexcept", "Leaf.C66_refuted_pointer", "Leaf.C66_refuted_copy", "Leaf.C66_refuted_info"], "note": "Proved for the callables in Supported (exactly those for which the traits work). The full statement is false: noexcept functions by name in C++17, pointer variables as error objects, functions taking a copy, error_info by pointer or non-const reference (C66_refuted_*)."},
 {"property": "C67", "status": "partial", "theorems": ["Leaf.C67_enough", "Leaf.C67_unused", "Leaf.C67_disabled", "Leaf.C67_safe_partial", "Leaf.C67_guard", "Leaf.C67_unload", "Leaf.C67_load", "Leaf.C67_new_error", "Leaf.C67_import", "Leaf.C67_propagate", "Leaf.C67_propagate_captured", "Leaf.C67_capture_exception", "Leaf.C67_captured_lost", "Leaf.C67_capture_retry"], "note": "All programs, configurations, states, and patterns of failing allocations. Missing in C67_safe_partial: functions taking E & in capturing scopes (undefined behaviour even with enough memory, finding F4). C67_captured_lost, C67_capture_retry: what happens to captured exceptions (F49, F50)."},
 {"property": "C68", "status": "proved", "theorems": ["Leaf.C68_new_error_same", "Leaf.C68_on_error_same", "Leaf.C68_argument", "Leaf.C68_arguments", "Leaf.C68_swallowed", "Leaf.C68_guard", "Leaf.C68_inconsistent"], "note": "Proved as stated, with functions that throw (FnThrowModel). C68_argument and C68_arguments: exactly when the program is terminated; C68_swallowed and C68_inconsistent: the case where the exception is ignored, F51."},
 {"property": "C69", "status": "proved", "theorems": ["Leaf.C69_called", "Leaf.C69_order", "Leaf.C69_terminate", "Leaf.C69_last", "Leaf.C69_chosen", "Leaf.C69_subject", "Leaf.C69_all", "Leaf.C69_same", "Leaf.C69_pack"], "note": "Handler selection with predicates that may throw and a record of calls (CheckModel); C69_same: the selection of Handlers if none throws."},
 {"property": "C70", "status": "partial", "theorems": ["Leaf.C70_same", "Leaf.C70_same_new_error", "Leaf.C70_otherwise", "Leaf.C70_ignored", "Leaf.C70_argument", "Leaf.C70_arguments_partial", "Leaf.C70_guard", "Leaf.C70_unload", "Leaf.C70_handler", "Leaf.C70_refuted_reference"], "note": "The claim that nothing is undefined is false: on_error with a function returning a reference to an object whose copy constructor throws, captured, leaves a dangling pointer (C70_refuted_reference; C70_argument says exactly when). All else is proved; C70_arguments_partial excludes only such functions from on_error."},
 {"property": "C71", "status": "partial", "theorems": ["Leaf.C71_value", "Leaf.C71_error_id", "Leaf.C71_code_partial", "Leaf.C71_enum", "Leaf.C71_result", "Leaf.C71_other", "Leaf.C71_reaches", "Leaf.C71_reaches_partial", "Leaf.C71_sequences", "Leaf.C71_exactly_once", "Leaf.C71_refuted_throw", "Leaf.C71_refuted_arguments", "Leaf.C71_refuted_code"], "note": "Two parts of the claim are false: error codes when T can be constructed from one (C71_refuted_code), and exceptions reaching the caller with compilers other than clang or with several arguments (C71_refuted_throw, C71_refuted_arguments). C71_reaches says exactly which exceptions reach the caller. All else is proved."},
 {"property": "C72", "status": "partial", "theorems": ["Leaf.C72_unique", "Leaf.C72_text_partial", "Leaf.C72_same_partial", "Leaf.C72_result_value", "Leaf.C72_refuted_null", "Leaf.C72_refuted_result"], "note": "False for null pointers of type char * (C72_refuted_null) and for results whose value is a null pointer to characters (C72_refuted_result); all else is proved, for all types and objects."},
 {"property": "C73", "status": "proved", "theorems": ["Leaf.C73_same", "Leaf.C73_program", "Leaf.C73_new_error", "Leaf.C73_load", "Leaf.C73_scope", "Leaf.C73_layers", "Leaf.C73_constant", "Leaf.C73_calls", "Leaf.C73_nested"], "note": "Accesses counted over every run of the interpreter's operations in every reachable thread state; upper bounds for all programs of the cost table, a lower bound for nested scopes that have a slot of the type."},
 {"property": "C74", "status": "partial", "theorems": ["Leaf.C74_message_partial", "Leaf.C74_print_partial", "Leaf.C74_refuted_short", "Leaf.C74_refuted_unknown", "Leaf.C74_errno", "Leaf.C74_errno_readable"], "note": "Full claim false for messages consisting of one line feed (C74_refuted_short) and for numbers without message (C74_refuted_unknown); proved for all others. e_errno: proved."},
 {"property": "C75", "status": "proved", "theorems": ["Leaf.C75_iff", "Leaf.C75_standard", "Leaf.C75_refuted_default", "Leaf.C75_leaf_condition", "Leaf.C75_match", "Leaf.C75_message"], "note": "All ids, conditions and categories. C75_refuted_default: the code does not equal its own default condition."},
 {"property": "C76", "status": "proved", "theorems": ["Leaf.C76_moved", "Leaf.C76_responsible", "Leaf.C76_end", "Leaf.C76_allowed", "Leaf.C76_refuted_order", "Leaf.C76_refuted_stale"], "note": "Guards are objects in a pool; contexts at pointer level (ContextModel). C76_moved: the program does what guardsMeaning says, including undefined behaviour. The two refuted theorems show what happens if guards end in another order, and if a context is deactivated by hand under a guard (finding F59)."},
 {"property": "C77", "status": "proved", "theorems": ["Leaf.C77_same", "Leaf.C77_calls", "Leaf.C77_agree", "Leaf.C77_functions", "Leaf.C77_no_functions", "Leaf.C77_refuted_capture"], "note": "For programs that capture nothing. Functions returning an object stay (with capturing enabled they are called although nobody takes the object, C12_refuted_deferred). C77_refuted_capture: the hypothesis on capturing is needed."},
 {"property": "C78", "status": "proved", "theorems": ["Leaf.C78_all", "Leaf.C78_some", "Leaf.C78_catch", "Leaf.C78_chain_all", "Leaf.C78_chain_some", "Leaf.C78_chain_catch", "Leaf.C78_refuted_enclosing", "Leaf.C78_refuted_returned"], "note": "Nested scopes and the joined list do the same for all blocks: simulation of the block on two stacks of scopes, then calculation of selection and unloading (order of unloading does not matter); C78_chain_*: any number of scopes, by induction. Handlers of the inner scopes return values; positions of handlers in their lists are not compared. The two refuted theorems show that the condition on enclosing scopes and the condition on returned errors are needed."},
 {"property": "C79", "status": "proved", "theorems": ["Leaf.C79_refactor", "Leaf.C79_guards", "Leaf.C79_guard_empty", "Leaf.C79_refuted_repeat", "Leaf.C79_refuted_empty"], "note": "Equality of the two programs as functions of the state, for every store. The condition of C79_guards (the next id is not the current one) is needed: C79_refuted_repeat, finding F64. C79_refuted_empty is the last sentence of the statement."}
]}
