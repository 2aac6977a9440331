{"id": "C01", "title": "Error ids are unique across all threads", "statement": "In any execution, two different calls that produce a fresh error id (new_error, throwing without an explicit id, importing a foreign std::error_code, error_monitor assigning an id), made on any threads and interleaved in any way, never produce the same error_id, unless at least 2^30 - 1 other ids were produced in between. At distance exactly 2^30 the value does repeat.", "quantifier": "all numbers of threads, all interleavings of id-producing calls, all pairs of calls in the history", "why_tests_cant": "Needs every interleaving and histories of a billion calls; a test only samples a few ids on a few schedules.", "anchors": ["include/boost/leaf/error.hpp:534-561 id_factory::generate_next_id, new_id", "include/boost/leaf/error.hpp:756-765 new_error"]}
{"id": "C02", "title": "A fresh error id is always a valid, truthy id", "statement": "Every id returned by new_error is non-zero (converts to true), carries the tag bits 01 that result<T> relies on, and a result<T> initialised with it is in an error state, never in a value state, even after the 32-bit id counter has wrapped around.", "quantifier": "all numbers of previously generated ids, including after wrap-around of the counter", "why_tests_cant": "The wrap happens after 2^30 calls; tests never get there.", "anchors": ["include/boost/leaf/error.hpp:534-561 id_factory", "include/boost/leaf/result.hpp:113-161 result_discriminant"]}
{"id": "C03", "title": "Printed serial numbers identify the error", "statement": "Streaming an error_id prints a serial number; two ids produced by at most 2^30 - 1 consecutive generations from program start print differently iff they are different ids. The only two valid id values printing the same serial are the value 1 and the value -3.", "quantifier": "all pairs of valid 32-bit id values", "why_tests_cant": "Two's-complement truncating division over the whole 32-bit range cannot be sampled.", "anchors": ["include/boost/leaf/error.hpp:731-735 operator<<(error_id)", "include/boost/leaf/error.hpp:149-158 slot::print"]}
{"id": "C04", "title": "error_id and std::error_code round trip", "statement": "Converting any valid error_id to std::error_code and back gives the same error_id, generates no new id and loads nothing. Importing a foreign error_code with non-zero value generates exactly one new id and makes exactly that error_code available to the enclosing handling scope under the new id; a zero-valued error_code of any category imports as the empty id. is_error_id tells the codes made from ids from all codes of other categories.", "quantifier": "all 32-bit id values, all error codes, all states of the enclosing scopes", "why_tests_cant": "Quantifies over all values and all enclosing-scope states.", "anchors": ["include/boost/leaf/error.hpp:601-628 import_error_code, is_error_id", "include/boost/leaf/error.hpp:660-681 error_id conversions"]}
{"id": "C05", "title": "No error means a falsy id", "statement": "current_error() on a thread where no error was ever reported, error_monitor::check() when nothing failed, and error() of a result initialised with a default error_id all give an error_id that converts to false.", "quantifier": "all thread states with no current error, all monitors whose scope saw no failure", "why_tests_cant": "It is a statement about all quiet states; the existing tests never test the returned id in a quiet state (and it turns out false).", "anchors": ["include/boost/leaf/error.hpp:749-770 make_error_id, current_error", "include/boost/leaf/on_error.hpp:58-66 error_monitor::check", "include/boost/leaf/result.hpp:156-160 get_error_id"]}
{"id": "C06", "title": "result<T> keeps its state through every move and conversion", "statement": "A result<T> is at any time in exactly one of the states value, error, error with captured objects; has_value, has_error and operator bool agree; and any sequence of move construction, move assignment between distinct objects, conversion to result<U>, and error() forwarding keeps the value, respectively the error id (and captured objects), it was created with.", "quantifier": "all values, all valid ids, all finite sequences of operations on any pool of results", "why_tests_cant": "Sequences and bit patterns are unbounded; tests enumerate a few.", "anchors": ["include/boost/leaf/result.hpp:113-161 result_discriminant", "include/boost/leaf/result.hpp:197-281 error_result, destroy, move_from", "include/boost/leaf/result.hpp:328-442 move_assign and constructors"]}
{"id": "C07", "title": "Objects held by result<T> are destroyed exactly once", "statement": "In any sequence of construction, move construction, move assignment and destruction of results, every stored value and captured list that is constructed is destroyed exactly once, nothing is read or destroyed outside its lifetime. (Self move assignment of a result holding a value is outside: it reads the value after destroying it.)", "quantifier": "all finite sequences of operations over any number of result objects", "why_tests_cant": "Lifetime balance over every history; a test sees one history.", "anchors": ["include/boost/leaf/result.hpp:240-281 destroy, move_from", "include/boost/leaf/result.hpp:328-332 move_assign", "include/boost/leaf/result.hpp:432-448 destructor, operator="]}
{"id": "C08", "title": "Error-object storage behaves like an optional with a tag", "statement": "The storage in which a context keeps an error object holds, after any sequence of loads, resets, moves and lookups, exactly the last object loaded and not reset or moved away, tagged with the id it was loaded for; lookups with any other id find nothing; each object constructed there is destroyed exactly once.", "quantifier": "all finite sequences of operations on any number of storage cells, all ids and values", "why_tests_cant": "Needs induction over histories with lifetime accounting.", "anchors": ["include/boost/leaf/detail/optional.hpp:18-195 optional", "include/boost/leaf/error.hpp:107-165 slot"]}
{"id": "C09", "title": "Error objects go to the innermost active scope that wants them", "statement": "An error object passed to new_error / load / on_error is stored in the innermost currently active error-handling scope of this thread whose handlers take an argument of that type (or, if there is none, in the innermost active scope that captures all error objects), and nowhere else, whatever nesting of scopes, on_error guards, exceptions and captures led to this point.", "quantifier": "all programs built from the LEAF primitives with any nesting depth, all types and values", "why_tests_cant": "All nesting structures; requires an invariant linking the chained thread-local pointers to the scope stack.", "anchors": ["include/boost/leaf/error.hpp:135-144 slot::activate/deactivate", "include/boost/leaf/error.hpp:429-445 load_slot", "include/boost/leaf/error.hpp:318-397 dynamic_load", "include/boost/leaf/context.hpp:180-230 tuple_for_each"]}
{"id": "C10", "title": "Leaving a scope restores the thread's bindings", "statement": "After any try_handle_all, try_handle_some, try_catch, try_capture_all or on_error scope finishes, in whatever way (value, error, exception), the thread-local binding of every error type is the same as before the scope was entered, except that a type with no binding may have gained storage inside an enclosing capturing scope. With no scope active nothing remains bound.", "quantifier": "all programs, all nesting depths, all exits", "why_tests_cant": "All exits of all programs.", "anchors": ["include/boost/leaf/error.hpp:135-144 slot::activate/deactivate", "include/boost/leaf/context.hpp:283-358 raii_deactivator, activate, deactivate", "include/boost/leaf/handle_errors.hpp:577-702 try_catch_, try_handle_all, try_handle_some, try_catch"]}
{"id": "C11", "title": "No access to dead error storage", "statement": "No sequence of LEAF operations makes a thread-local pointer refer to, or makes LEAF access, error-object storage that has been destroyed.", "quantifier": "all programs built from the LEAF primitives", "why_tests_cant": "Memory safety over all executions.", "anchors": ["include/boost/leaf/error.hpp:128-144 slot destructor, activate, deactivate", "include/boost/leaf/error.hpp:318-355 slot<dynamic_allocator>::deactivate, dynamic_load_, dynamic_accumulate_", "include/boost/leaf/handle_errors.hpp:708-815 try_capture_all"]}
{"id": "C12", "title": "Error objects nobody wants are discarded without effect", "statement": "Loading an error object of a type that no active scope of the thread handles or captures changes no stored object, and a function passed to load or on_error to produce such an object is not called.", "quantifier": "all programs and states, all types without a listener", "why_tests_cant": "A statement about all states.", "anchors": ["include/boost/leaf/error.hpp:429-465 load_slot, load_slot_deferred", "doc/leaf.adoc load/on_error"]}
{"id": "C13", "title": "Handlers only see objects of the error being handled", "statement": "Every error object passed to a handler (by value, reference, pointer or through a predicate) was loaded for, or transported with, exactly the error id being handled, or is part of the exception being handled; objects left behind by other errors, handled or abandoned earlier in the same scope, are never passed.", "quantifier": "all programs, all handler invocations in their executions", "why_tests_cant": "Needs every interleaving of abandoned and live errors.", "anchors": ["include/boost/leaf/handle_errors.hpp:227-294 peek_tuple, peek", "include/boost/leaf/detail/optional.hpp:131-144 has_value"]}
{"id": "C14", "title": "Last loaded object wins; guards never overwrite", "statement": "If several objects of a type are loaded for the same error with new_error/load, handlers see the last one; objects supplied by on_error or propagated from an inner scope never replace an object already stored for that error, but do replace an object stored for a different error.", "quantifier": "all sequences of loads of both kinds on a scope", "why_tests_cant": "All sequences of loads.", "anchors": ["include/boost/leaf/error.hpp:412-486 unload, load_slot, load_slot_deferred, load_slot_accumulate", "include/boost/leaf/on_error.hpp:90-164 preloaded_item"]}
{"id": "C15", "title": "The first suitable handler is the one called", "statement": "try_handle_all, try_handle_some, try_catch and context::handle_error call exactly one handler: the first in list order all of whose arguments are available; no later handler is called, and a handler with an unavailable argument is never called.", "quantifier": "all handler lists, all argument lists, all contents of the scope, all errors and exceptions", "why_tests_cant": "Unbounded handler lists and contents.", "anchors": ["include/boost/leaf/handle_errors.hpp:330-474 check_arguments, handle_error_", "include/boost/leaf/context.hpp:40-133 handler_argument_traits"]}
{"id": "C16", "title": "Passing handlers in tuples does not change anything", "statement": "Grouping handlers in arbitrarily nested std::tuples selects the same handler and deduces the same storage types as passing them flat in the same order.", "quantifier": "all nestings of tuples and handlers", "why_tests_cant": "Unbounded nesting.", "anchors": ["include/boost/leaf/handle_errors.hpp:431-474 handle_error_tuple_", "include/boost/leaf/context.hpp:405-445 fn_mp_args_fwd, context_type_from_handlers"]}
{"id": "C17", "title": "Every handler argument has storage, each type once", "statement": "The set of types for which a scope allocates storage contains every type needed by any argument of any handler exactly once, in order of first use, and nothing else, so that argument lookup is always well-defined.", "quantifier": "all lists of handler argument lists", "why_tests_cant": "Template metaprogram over all type lists.", "anchors": ["include/boost/leaf/context.hpp:236-264 deduce_e_type_list", "include/boost/leaf/context.hpp:405-445", "include/boost/leaf/detail/mp11.hpp mp_append, mp_unique, mp_remove_if"]}
{"id": "C18", "title": "try_handle_all always produces a value", "statement": "For every try block outcome (value, error, exception), try_handle_all either returns the block's value unchanged with no handler called, or returns exactly what one handler returned (or propagates an exception a handler threw); it never returns unhandled.", "quantifier": "all blocks, all handler lists ending in a match-all handler, all states", "why_tests_cant": "All outcomes and handler lists.", "anchors": ["include/boost/leaf/handle_errors.hpp:615-634 try_handle_all", "include/boost/leaf/handle_errors.hpp:415-421 static_assert"]}
{"id": "C19", "title": "Success passes through untouched", "statement": "If the try block succeeds, try_handle_all / try_handle_some / try_catch / try_capture_all return its value unchanged and call no handler.", "quantifier": "all successful blocks, all handlers, all states", "why_tests_cant": "All blocks.", "anchors": ["include/boost/leaf/handle_errors.hpp:577-702", "include/boost/leaf/handle_errors.hpp:708-815"]}
{"id": "C20", "title": "An unhandled error keeps its identity and its objects", "statement": "If no handler passed to try_handle_some matches, the result returned carries the same error id, and every object of that error stored in this scope becomes available in the enclosing scope that wants its type, unless that scope already has one for this error; objects of other errors do not leave the scope.", "quantifier": "all scopes contents, all enclosing scopes, all errors", "why_tests_cant": "All contents of inner and outer scopes.", "anchors": ["include/boost/leaf/handle_errors.hpp:636-666 try_handle_some", "include/boost/leaf/context.hpp:205-213 tuple_for_each::unload", "include/boost/leaf/error.hpp:412-426 slot::unload"]}
{"id": "C21", "title": "An unhandled exception continues unchanged", "statement": "If no handler passed to try_catch / try_handle_some matches an exception thrown by the block, the very same exception propagates, and the error objects stored for its error id move to the enclosing scope just like for results.", "quantifier": "all blocks, all exceptions, all handler lists without a suitable handler, all states", "why_tests_cant": "All contents, all exception kinds.", "anchors": ["include/boost/leaf/handle_errors.hpp:577-612 try_catch_", "include/boost/leaf/handle_errors.hpp:668-702 try_catch", "include/boost/leaf/handle_errors.hpp:23-30 unpack_error_id"]}
{"id": "C22", "title": "Errors travel through any number of scopes", "statement": "An error object reported arbitrarily deep below any number of intermediate error-handling scopes that do not handle the error (whether or not they mention its type) reaches the first enclosing handler that takes it, with the value it was reported with.", "quantifier": "all depths, all intermediate scopes' argument types, all values", "why_tests_cant": "Unbounded depth.", "anchors": ["include/boost/leaf/handle_errors.hpp:636-666", "include/boost/leaf/error.hpp:412-445"]}
{"id": "C23", "title": "A new error from a handler replaces the old one", "statement": "If a handler of try_handle_some returns a different error, the objects of the handled error stored in the scope are not propagated, while objects stored in this scope under the new id are.", "quantifier": "all handlers, all contents", "why_tests_cant": "All contents.", "anchors": ["include/boost/leaf/handle_errors.hpp:651-664 try_handle_some", "include/boost/leaf/error.hpp:412-416"]}
{"id": "C24", "title": "on_error attaches its objects exactly when its scope fails", "statement": "An on_error guard loads its items, in the order given, iff its scope is left with a new current error or by an exception; they are attached to the error that was reported last in the scope, or to a freshly assigned id if an exception without id is in flight; on success nothing is loaded and no supplied function is called.", "quantifier": "all scope bodies, all item lists, all states", "why_tests_cant": "All bodies and nestings.", "anchors": ["include/boost/leaf/on_error.hpp:13-67 error_monitor", "include/boost/leaf/on_error.hpp:166-198 preloaded"]}
{"id": "C25", "title": "error_monitor reports the right id", "statement": "assigned_error_id() returns the id of the last error reported in the monitored scope if there was one, and otherwise a fresh id; check() returns the id of the last error reported in the scope, or a fresh id if an exception is in flight, or the empty id.", "quantifier": "all monitored bodies, all states", "why_tests_cant": "All bodies, including those that throw and swallow exceptions.", "anchors": ["include/boost/leaf/on_error.hpp:13-67 error_monitor"]}
{"id": "C26", "title": "A swallowed LEAF exception does not leave a current error behind", "statement": "When an exception thrown by throw_exception is destroyed without having been examined by a LEAF handling function, the thread's current error id is reset iff it still is that exception's id; copies and moves of the exception object transfer this duty, so that it happens at most once and exactly at the destruction of the responsible copy; exceptions examined by LEAF leave the current id alone.", "quantifier": "all sequences of copy, move, examine, destroy on exception objects and of id changes", "why_tests_cant": "All object histories.", "anchors": ["include/boost/leaf/exception.hpp:80-153 exception<Ex>"]}
{"id": "C27", "title": "Captured errors arrive complete", "statement": "try_capture_all returns a result that contains every error object loaded for the failing error inside the block that was not stored in an enclosing scope; when such a result is later handled (same or another thread), handlers see these objects as if they had been loaded there directly.", "quantifier": "all blocks, all sequences of loads and abandoned errors in the block, all receiving scopes", "why_tests_cant": "All load histories and all receiving scopes.", "anchors": ["include/boost/leaf/handle_errors.hpp:708-815 try_capture_all", "include/boost/leaf/error.hpp:174-315 dynamic_allocator", "include/boost/leaf/detail/capture_list.hpp:86-96 unload"]}
{"id": "C28", "title": "A captured exception is rethrown, after its objects", "statement": "If the captured failure was an exception, handling the captured result first makes all captured objects available and then rethrows the same exception so that exception handlers see it; if the failure was not an exception, no exception is rethrown.", "quantifier": "all captured lists, all receiving scopes", "why_tests_cant": "All lists and scopes.", "anchors": ["include/boost/leaf/error.hpp:228-255 capturing_exception_node", "include/boost/leaf/error.hpp:301-311 extract_capture_list", "include/boost/leaf/detail/capture_list.hpp:86-96"]}
{"id": "C29", "title": "Capture lists own their nodes", "statement": "The singly linked list in which objects are captured contains the nodes in order of capture after any sequence of captures, moves, extraction and unloading; every node is freed exactly once and no freed node is accessed.", "quantifier": "all finite sequences of list operations on any number of lists", "why_tests_cant": "Pointer structure over all histories.", "anchors": ["include/boost/leaf/detail/capture_list.hpp:23-116 capture_list", "include/boost/leaf/error.hpp:257-311 dynamic_allocator"]}
{"id": "C30", "title": "Predicates match exactly the listed values", "statement": "match, match_value, match_member accept an error object iff (a projection of) it equals one of the listed values or satisfies one of the listed predicate functions; if_not<P> accepts iff an object is available and P rejects it; catch_<Ex...> accepts iff an exception was caught and it is of one of the listed types, catch_<> iff any std::exception was caught.", "quantifier": "all value packs, all objects, all exceptions", "why_tests_cant": "Unbounded packs.", "anchors": ["include/boost/leaf/pred.hpp:20-296 cmp_value_pack, match, match_value, match_member, if_not, catch_"]}
{"id": "C31", "title": "Short-circuit macros forward the error unchanged", "statement": "BOOST_LEAF_ASSIGN/AUTO/CHECK on a failed result leave the function at once with a result carrying the same error id and captured objects and evaluate nothing after it; on success they yield the value and execution continues. Chains of such statements return the first failure.", "quantifier": "all chains of checked calls", "why_tests_cant": "Unbounded chains.", "anchors": ["include/boost/leaf/error.hpp:25-59 BOOST_LEAF_ASSIGN, BOOST_LEAF_AUTO, BOOST_LEAF_CHECK", "include/boost/leaf/result.hpp:197-238 error_result"]}
{"id": "C32", "title": "exception_to_result converts every exception", "statement": "exception_to_result never lets an exception out; the returned result is the function's result, or carries a fresh id for which the exception_ptr and exactly those listed exception types that the caught exception is an instance of are loaded.", "quantifier": "all functions, all lists of exception types, all states", "why_tests_cant": "All exception types and lists.", "anchors": ["include/boost/leaf/exception.hpp:233-280 catch_exceptions_helper, exception_to_result"]}
{"id": "C33", "title": "to_variant reports exactly the available objects", "statement": "to_variant<E...> returns the value on success; otherwise the tuple whose i-th optional is engaged iff an object of the i-th type is available for the error, with that value.", "quantifier": "all type lists, all blocks, all states", "why_tests_cant": "All lists and contents.", "anchors": ["include/boost/leaf/to_variant.hpp:19-43 to_variant"]}
{"id": "C34", "title": "Accumulation folds over all contributions", "statement": "If a function taking E& is loaded repeatedly for one error, the object finally seen by handlers is the composition, in call order, of these functions applied to the object present before, or to a default-constructed object if there was none for this error.", "quantifier": "all sequences of accumulating loads", "why_tests_cant": "Unbounded sequences.", "anchors": ["include/boost/leaf/error.hpp:468-486 load_slot_accumulate", "include/boost/leaf/on_error.hpp:144-164 accumulating_item"]}
{"id": "C35", "title": "Threads do not interfere", "statement": "Operations performed on one thread never change what error objects, current error or scopes another thread observes; the only effect across threads is that generated ids differ, and everything a thread observes is independent of the other threads up to the choice of ids.", "quantifier": "all numbers of threads and interleavings", "why_tests_cant": "All schedules.", "anchors": ["include/boost/leaf/config/tls_cpp11.hpp:26-60 ptr, tagged_uint", "include/boost/leaf/error.hpp:534-561"]}
{"id": "C36", "title": "The TLS array backend implements per-type storage", "statement": "With the array based thread-local storage, the binding of each type behaves like a separate variable that starts null: what is read for a type is what was last written for that type, writes for other types never show, for every order of first use of the types, as long as the number of types fits the configured array; 32-bit ids survive being stored as pointers.", "quantifier": "all sequences of reads and writes over all types, all configured sizes and start indices", "why_tests_cant": "All allocation orders and sizes.", "anchors": ["include/boost/leaf/config/tls_array.hpp:63-141 index_counter, tls_index, read_ptr, write_ptr, read_uint, write_uint"]}
{"id": "C37", "title": "Diagnostics print exactly this error's objects", "statement": "Printing diagnostic_info / diagnostic_details for an error prints, in storage order, every stored showable object of that error once and none of other errors; the section header is printed once, before the first object, and only if there is one; printing a whole context prints every stored showable object with its serial number.", "quantifier": "all contents, all ids, all printability classes", "why_tests_cant": "All contents.", "anchors": ["include/boost/leaf/error.hpp:149-158 slot::print", "include/boost/leaf/context.hpp:215-230 tuple_for_each::print, print_tuple_contents", "include/boost/leaf/detail/print.hpp:50-157", "include/boost/leaf/diagnostics.hpp:18-45", "include/boost/leaf/detail/capture_list.hpp:98-113"]}
{"id": "C38", "title": "Type names in diagnostics are exact", "statement": "For every type name and each of the supported compiler signature formats, the parsed type name is exactly that name, never a truncated or wrongly cut string.", "quantifier": "all type name strings, all supported formats", "why_tests_cant": "All strings.", "anchors": ["include/boost/leaf/detail/demangle.hpp:53-198 cpp11_prefix, cpp11_suffix, n::p"]}
{"id": "C39", "title": "Moving an inactive context moves its objects", "statement": "Moving a context that is not active transfers each stored object with its id to the new context and leaves the source empty; error handling on the moved-to context gives what it would have given on the source.", "quantifier": "all contents", "why_tests_cant": "All contents.", "anchors": ["include/boost/leaf/context.hpp:309-314 context(context &&)", "include/boost/leaf/error.hpp:121-126 slot(slot &&)", "include/boost/leaf/error.hpp:269-277 dynamic_allocator(dynamic_allocator &&)"]}
{"id": "C40", "title": "value() on a failed result reports that error", "statement": "value() on a result in error state throws bad_result carrying the result's error id, after making captured objects available, or rethrows the captured exception; user code that swallows the bad_result leaves no current error behind if it was this one; on a result in value state it returns the value and has no other effect.", "quantifier": "all results, all scopes", "why_tests_cant": "All results and receiving scopes.", "anchors": ["include/boost/leaf/result.hpp:309-325 enforce_value_state", "include/boost/leaf/result.hpp:464-503 value"]}
{"id": "C41", "title": "User-managed contexts: activation is a stack, contents are private", "statement": "For any sequence of creating, activating, deactivating (in reverse order), moving, unloading and destroying context objects, handling errors with them, and running arbitrary code in between, there is no undefined behaviour; deactivating a context restores the bindings that were in effect before it was activated; the content of an inactive context changes only by operations on that context, and survives until it is destroyed. Unloading a context for an error moves the context's objects of that error to the enclosing scopes (each to the innermost slot of its type, unless that has an object of the same error) and leaves the objects of other errors, except captured ones, in the context.", "quantifier": "all sequences of operations, all programs run in between, all numbers of contexts and error types", "why_tests_cant": "Unbounded sequences of operations over unboundedly many contexts.", "anchors": ["include/boost/leaf/context.hpp:265-418 context", "include/boost/leaf/context.hpp:335-362 activate, deactivate, unload", "include/boost/leaf/error.hpp:135-144 slot::activate, deactivate", "include/boost/leaf/error.hpp:291-331 dynamic_allocator::deactivate, unload"]}
{"id": "C42", "title": "throw_exception throws what it is given, with the right id and objects", "statement": "A call throw_exception(args...) compiles exactly when args are an optional error_id, then an optional object derived from std::exception, then error objects. Without an error_id it generates exactly one new id; with a valid one it generates none. The error objects are delivered for that id, in order, as if by new_error/load, before the exception leaves; the exception thrown derives from std::exception, is the given exception object (or a plain std::exception), and carries exactly that id. With an empty error_id the objects are discarded. A call without error_id is indistinguishable from new_error followed by throwing, so exception and objects arrive at the first suitable handler through any number of scopes.", "quantifier": "all argument lists, all thread states, all sets of active scopes", "why_tests_cant": "Six overloads times arbitrarily long argument lists times arbitrary active scopes; tests cover a few fixed argument lists.", "anchors": ["include/boost/leaf/exception.hpp:168-222 make_exception, throw_exception", "include/boost/leaf/error.hpp:683-702 error_id::load"]}
{"id": "C43", "title": "The macros record the source location, and handlers are shown it", "statement": "BOOST_LEAF_NEW_ERROR(items...) and BOOST_LEAF_THROW_EXCEPTION(args...) do exactly what new_error and throw_exception do with an e_source_location as an additional last error object (given an empty error_id, the latter fails an assertion). After travelling through any number of scopes that do not handle the error, and that do not drop objects (no try_catch on the way of a failed result), every error_info, diagnostic_info and diagnostic_details argument of the handler called by try_handle_all shows that location, provided some handler of the scope takes diagnostic_info, diagnostic_details or e_source_location. A lone error_info argument does not show it.", "quantifier": "all items/argument lists, all layers of scopes, guards and forwarding code, all handler lists, all thread states", "why_tests_cant": "Universally quantified over nesting of scopes and handler lists.", "anchors": ["include/boost/leaf/error.hpp:61, 563-575, 737-744 BOOST_LEAF_NEW_ERROR, inject_loc, load_source_location_", "include/boost/leaf/exception.hpp:52-70 BOOST_LEAF_THROW_EXCEPTION, throw_with_loc", "include/boost/leaf/handle_errors.hpp:41-110 error_info", "include/boost/leaf/context.hpp:384-389 context::get"]}
{"id": "C44", "title": "result::load attaches objects to that result's error", "statement": "r.load(items...) on a failed result delivers the items, in order, for the error id of the result and returns that id, changing nothing else; on a result with a value it does nothing at all (no object is stored, no function called) and returns an id that converts to false.", "quantifier": "all results, all item lists, all thread states", "why_tests_cant": "All states of the thread and of the result, with any number of items.", "anchors": ["include/boost/leaf/result.hpp:584-588 result::load", "include/boost/leaf/result.hpp:231-237 error_result::operator error_id"]}
{"id": "C45", "title": "Threads may exchange work and captured errors", "statement": "Threads run programs and, when done, are given other programs, which may depend on the outcome of any thread (in particular on captured results). Under every interleaving every operation is defined and changes nothing of any other thread; each program runs as if alone, from the state its thread was in when it was started (outside of any scope, handling no exception), except that the id counter advances in between; ids less than 2^30 apart in the history of all threads differ. If one thread captures an error with try_capture_all and hands the result to another thread (or itself) which handles it with try_handle_all, the error id is one generated by the first thread, the first thread calls no handler, and the handler called by the second thread and the arguments it receives are determined by the objects attached to the error in the first thread.", "quantifier": "all numbers of threads, all programs, all scripts of operations and program starts, all layers the error passes, all handler lists", "why_tests_cant": "Interleavings of operations of any number of threads, each running any sequence of programs; a test sees a handful of schedules.", "anchors": ["include/boost/leaf/config/tls_cpp11.hpp:26-60 thread_local storage", "include/boost/leaf/error.hpp:534-561 id_factory", "include/boost/leaf/handle_errors.hpp:711-815 try_capture_all", "include/boost/leaf/result.hpp:240-330,590-595 result with a capture_list", "test/capture_exception_async_test.cpp", "test/capture_result_async_test.cpp"]}
{"id": "C46", "title": "on_error guards may be moved", "statement": "However a guard made by on_error is moved between objects (for instance returned from the function making it), the thread behaves as if the guard had stayed one object: it is examined exactly once, when its last owner is destroyed, against the error state and the number of uncaught exceptions at the time it was made, and attaches the original items. Objects moved from do nothing when destroyed. A guard made before a piece of code and destroyed after it does what a guard around that code does (C24).", "quantifier": "all histories of making, moving and destroying any number of guards in any order, with arbitrary programs and exceptions in between, all items", "why_tests_cant": "Lifetimes of guards need not nest, and moves, reports, exceptions and destructions can be interleaved in unboundedly many ways.", "anchors": ["include/boost/leaf/on_error.hpp:166-198 preloaded", "include/boost/leaf/on_error.hpp:15-56 error_monitor", "include/boost/leaf/on_error.hpp:222-228 on_error"]}
{"id": "C47", "title": "Building without exceptions does not change programs that do not use them", "statement": "A program that does not use exceptions (no throw, try, exception_to_result, value() on failed results), started while no exception is being handled, behaves the same in builds with and without BOOST_LEAF_NO_EXCEPTIONS: same outcome, same state of error storage and of the current error afterwards, same handlers called with the same arguments, same on_error functions called. In a build with exceptions it does not throw, and results it returns hold no captured exception.", "quantifier": "all exception-free programs (arbitrary nesting of try_handle_all, try_handle_some, try_capture_all, guards, monitors), all thread states, all configurations", "why_tests_cant": "Two builds cannot be linked into one test program; tests run each build on the same few programs, which do not exhaust the nestings.", "anchors": ["include/boost/leaf/handle_errors.hpp:518-572 functions of builds without exceptions", "include/boost/leaf/handle_errors.hpp:262-294 peek", "include/boost/leaf/handle_errors.hpp:708-754 try_capture_all", "include/boost/leaf/on_error.hpp:30-47 check_id", "include/boost/leaf/error.hpp:300-311 extract_capture_list"]}
{"id": "C48", "title": "LEAF implements ideal error handling", "statement": "Consider an ideal semantics in which an error is simply a value carrying its objects: new_error makes a fresh error from its arguments, and returning a std::error_code makes one from the code; on_error, load, and error_monitor around code that tells only whether it succeeded, add objects; the error passes unchanged through calls and scopes that do not handle it, result::value and exception_to_result convert it, each scope calls its first suitable handler with arguments determined by the error's objects alone, a handler of try_handle_some may return the error it was called for with all its objects, some replaced or added; and an abandoned error vanishes. There is no error storage and no current error. Every program composed of these constructs, whose exceptions all carry an error id, whose handlers report no other error before returning the one they handle and do not modify its objects in place, and which uses try_catch only around code not returning failed results, behaves under LEAF as in this semantics as long as fewer than 2^30 ids are generated: same values, failures and exceptions, same handlers called in the same order with the same arguments, same objects left for enclosing scopes. The ideal run is unique, so (listings of diagnostic_info and diagnostic_details apart) what such a program does is independent of the scopes around it, their content, and errors reported before. With several threads, under every schedule, what each thread does is an ideal run in which the other threads took some of the ids.", "quantifier": "all programs of the language (arbitrary nesting of handling scopes, guards, loads, conversions, abandoned errors), all thread states in which only ids generated by the process occur, all configurations and interference by other threads on the id counter, all schedules of any number of threads", "why_tests_cant": "It is a refinement statement about all programs: LEAF's slots, keys, thread-local pointers and current id must be unobservable in every nesting and order of errors, of which tests try a few.", "anchors": ["include/boost/leaf/error.hpp:400-500 slots, unload, loading of objects", "include/boost/leaf/error.hpp:534-561 id_factory", "include/boost/leaf/error.hpp:678-771 load, new_error, current_error", "include/boost/leaf/handle_errors.hpp:414-470 handler selection", "include/boost/leaf/handle_errors.hpp:574-705 try_handle_all, try_handle_some, try_catch", "include/boost/leaf/on_error.hpp:166-228 on_error", "include/boost/leaf/result.hpp:464-500 value", "include/boost/leaf/exception.hpp:246-290 exception_to_result", "include/boost/leaf/error.hpp:601-620,660-674 import_error_code, error_id(std::error_code)", "include/boost/leaf/on_error.hpp:15-80 error_monitor"]}
{"id": "C49", "title": "Functions passed to new_error, load and on_error may use LEAF", "statement": "A function without arguments passed to new_error, load or on_error may itself use LEAF: report, handle and abandon errors of its own, enter and leave scopes. Calling it never leads to undefined behaviour or a violated assertion; it is called exactly when its result is needed; the items take effect one after the other in the order given; when new_error returns, the object the function returned and all objects passed before it are available for the error reported, and this is the thread's current error.", "quantifier": "all lists of items, all programs as functions, all states of the thread, all configurations", "why_tests_cant": "The slot is looked up before the function is called and written afterwards; what the function may do in between is unlimited, and tests use functions that only compute a value.", "anchors": ["include/boost/leaf/error.hpp:447-465 load_slot_deferred", "include/boost/leaf/error.hpp:333-376 dynamic_load", "include/boost/leaf/error.hpp:279-289 dynamic_allocator::dynamic_load", "include/boost/leaf/error.hpp:683-702 error_id::load", "include/boost/leaf/error.hpp:756-765 new_error", "include/boost/leaf/on_error.hpp:73-198 on_error items"]}
{"id": "C50", "title": "Changes handlers make to error objects are preserved", "statement": "If a handler of try_handle_some takes error objects by mutable reference or pointer, changes it makes to them are preserved when the error is communicated to the caller: when the handler passes on the error it was called for, the objects it changed reach the enclosing scopes that want them in their changed state, and all other objects of the error unchanged; objects of other errors are not affected. If handlers change nothing, this makes no difference to handlers that take objects by value.", "quantifier": "all handlers and changes, all programs as block and handler bodies, all states of the thread, all configurations", "why_tests_cant": "Which object a reference argument denotes depends on the slots of the scope and on the exception caught, and what happens to it on what the enclosing scopes hold; tests change one object in one situation.", "anchors": ["doc/leaf.adoc:432", "include/boost/leaf/context.hpp:40-57 handler_argument_traits_defaults", "include/boost/leaf/context.hpp:119-127 handler_argument_traits<E *>", "include/boost/leaf/handle_errors.hpp:262-294 peek", "include/boost/leaf/handle_errors.hpp:383-404 handler_caller", "include/boost/leaf/handle_errors.hpp:636-666 try_handle_some"]}
{"id": "C51", "title": "Build options do not change programs that do not use them", "statement": "Disabling BOOST_LEAF_CFG_CAPTURE, BOOST_LEAF_CFG_DIAGNOSTICS or both does not change the behaviour of a well-formed program that makes no capturing scope (no try_capture_all; with CAPTURE enabled, no handler taking diagnostic_details), sees no captured results, and whose handlers do not depend on what diagnostics list: same outcome, same state of error storage, current error and id counter, same ids generated, same handlers called in the same order with the same arguments. Only two things differ: without DIAGNOSTICS, diagnostic_info and diagnostic_details list no objects; with CAPTURE, functions passed to make error objects are also called if no scope takes the object. Functions called in the build with fewer options are a subsequence of those called in the other; they are the same if CAPTURE is the same.", "quantifier": "all such programs (arbitrary nesting of try_handle_all, try_handle_some, try_catch, guards, monitors, C++ exceptions), all thread states without capturing scope, all pairs of builds where the second has the same or fewer options", "why_tests_cant": "Two builds cannot be linked into one test program; tests run each build on the same few programs, which do not exhaust the nestings.", "anchors": ["include/boost/leaf/error.hpp:411-486 slot::unload, load_slot, load_slot_deferred, load_slot_accumulate", "include/boost/leaf/diagnostics.hpp:70-118 diagnostic_info without diagnostics", "include/boost/leaf/diagnostics.hpp:124-236 diagnostic_details", "include/boost/leaf/diagnostics.hpp:238-287 diagnostic_details without diagnostics"]}
{"id": "C52", "title": "Programs behave the same with the array based thread-local storage", "statement": "In a build that keeps the thread-local slot pointers in a platform-supplied array of void pointers (tls_array.hpp), every program does in a new thread what it does with thread_local variables: it returns the same, calls the same handlers with the same arguments, leaves the same current error and, at the end, the same slot bound for every type; no array element outside the array is accessed, no index assertion fails and the arrays of other threads are not touched. Conditions: the types with an index fit the array, every type whose slots get bound has an index (types that are only looked up need none), addresses fit a pointer.", "quantifier": "all programs, all sets and orders of indexed types that fit, all start indices and array sizes, all pointer widths >= 32, all threads", "why_tests_cant": "The embedded configurations run the ordinary tests with one start index, one array size and one order of static initialization; index collisions or wrong lookups show only for particular allocation orders and nestings.", "anchors": ["include/boost/leaf/config/tls_array.hpp:64-147 index_counter, tls_index, read_ptr, write_ptr", "include/boost/leaf/error.hpp:107-165 slot", "include/boost/leaf/error.hpp:279-323 dynamic_allocator, slot<dynamic_allocator>"]}
{"id": "C53", "title": "Activation guards nest", "statement": "A guard made by activate_context for a context that is already active does nothing, neither when it is made nor when it is destroyed: the context stays active until the outermost guard for it ends. Any other guard activates the context when it is made and deactivates it when its block is left. After a block with guards, in any nesting and however it is left, exactly the same contexts are active as before it, in the same order. A guard whose context was deactivated by hand does nothing at its end.", "quantifier": "all block structured programs with guards for any contexts in any nesting, all states of the thread and its contexts", "why_tests_cant": "The test uses one context, twice; it cannot show the absence of double deactivation or of a leaked activation for other nestings.", "anchors": ["include/boost/leaf/context.hpp:283-305 raii_deactivator", "include/boost/leaf/context.hpp:335-356 activate, deactivate", "include/boost/leaf/context.hpp:396-399 activate_context"]}
{"id": "C54", "title": "Calling a function in another thread is like calling it directly", "statement": "A function composed of the constructs of C48 is run in one thread under try_capture_all, outside of any other scope, and its result is handed to another thread (or stays in the same), which handles it with try_handle_all, or with try_handle_some, or takes the value out of it with value() inside a try_catch. Whatever the threads did before and do meanwhile, the two threads together do what a direct call of the same function (try_handle_all, try_handle_some, or try_catch and value()) around the function does in the ideal semantics of C48: the handlers called inside the function, and then the handler called by the receiving thread (or none, if none is suitable), are called for the same errors with the same arguments, and the receiving thread ends with the same value, error id or exception. If no handler is suitable, the scopes around the receiving one have the objects of the error. This holds as long as the function, if it fails, reported no other error than the one it fails with, the current errors of the threads are of this process, and at most 2^30 ids are generated.", "quantifier": "all functions and handlers of the language of C48, all numbers of threads, all schedules and all programs run by the threads before, in between and meanwhile", "why_tests_cant": "Equivalence of two executions for all programs and all schedules; tests try one function and one schedule.", "anchors": ["include/boost/leaf/handle_errors.hpp:708-815 try_capture_all", "include/boost/leaf/detail/capture_list.hpp:64-96 capture_list", "include/boost/leaf/result.hpp:240-330,590-595 result with a capture_list", "include/boost/leaf/error.hpp:174-315 dynamic_allocator", "include/boost/leaf/result.hpp:309-325 enforce_value_state", "include/boost/leaf/handle_errors.hpp:639-705 try_handle_some, try_catch", "example/try_capture_all_result.cpp", "example/try_capture_all_exceptions.cpp", "test/capture_result_async_test.cpp"]}
{"id": "C55", "title": "External result types", "statement": "try_handle_all, try_handle_some, try_catch and on_error also work with result types other than leaf::result, whose error is a std::error_code. Every well-formed program using such a type runs without undefined behaviour. If all error codes it returns were made from error ids (return new_error(...)), it does exactly what it does with leaf::result; so programs written with the constructs of C48 implement ideal error handling also with such a type. A code of a foreign category, different from zero, passes unchanged through any number of scopes that have no handler for it, through on_error guards, try_catch and code that returns it again, without any handler being called; the first enclosing scope with a handler that is suitable given only this code calls the first such handler, once, with the code as its std::error_code object, independently of what is stored for other errors. (Objects attached by guards on the way are not available for foreign codes, and each scope uses a new id for it.)", "quantifier": "all programs, all nestings of scopes, guards and handlers, all error codes and categories, all states of the thread; for foreign codes as long as at most 2^30 ids have been generated", "why_tests_cant": "Tests with external result types use single scopes and fixed codes; that results pass any nesting unchanged, and equivalence with leaf::result for all programs, is not testable.", "anchors": ["include/boost/leaf/handle_errors.hpp:503-514 unload_result", "include/boost/leaf/handle_errors.hpp:590-702 try_handle_all, try_handle_some, try_catch", "include/boost/leaf/error.hpp:601-620,660-681 import_error_code, error_id(std::error_code), to_error_code", "include/boost/leaf/on_error.hpp:166-198 on_error", "test/_test_res.hpp", "include/boost/leaf/error.hpp:25-60 BOOST_LEAF_ASSIGN, BOOST_LEAF_AUTO, BOOST_LEAF_CHECK"]}
{"id": "C56", "title": "The error id of a captured result", "statement": "Converting r.error() to error_id gives the empty id if r has a value, and otherwise the id of the error of r. If r holds captured error objects, these are first loaded in the calling thread (doc/leaf.adoc, result::error), so that `return r.load(items...)` passes on the error with its captured objects and the items: the handler called further up is the one for an error with all these objects.", "quantifier": "all results, captured objects, items, handler lists, states of the thread", "why_tests_cant": "The library's tests use load only on results that hold an id; which handler gets called depends on the captured objects, the scopes and the items, which are unbounded.", "anchors": ["include/boost/leaf/result.hpp:231-237 error_result::operator error_id", "include/boost/leaf/result.hpp:584-596 load, unload", "doc/leaf.adoc:4577-4587 result::error", "include/boost/leaf/detail/capture_list.hpp:86-96 unload"]}
{"id": "C57", "title": "Exceptions thrown by code that does not use the library", "statement": "An exception that carries no error id, thrown by code that knows nothing about the library, passes through any number of scopes without suitable handlers, on_error guards, and functions that forward errors, without any handler being called, and reaches the first enclosing scope with a suitable handler. The first suitable handler is called, with the exception and exactly the objects attached to it by the guards on the way (for each type the one attached first), whatever errors have been reported and handled before. The error id it sees is a new one generated by the innermost guard.", "quantifier": "all nestings of scopes, guards and forwarding code, all handler lists, all exception types and objects, all states of the thread", "why_tests_cant": "Tests throw such exceptions through at most one or two scopes from a fresh thread; the claim is about all nestings and about what previous errors leave behind in the state of the thread.", "anchors": ["include/boost/leaf/handle_errors.hpp:23-30 unpack_error_id", "include/boost/leaf/handle_errors.hpp:590-702 try_handle_all, try_handle_some, try_catch", "include/boost/leaf/on_error.hpp:30-47 error_monitor::check_id", "include/boost/leaf/error.hpp:767-770 current_error"]}
{"id": "C58", "title": "What the accessors of a result refer to", "statement": "After any history of constructing, moving, assigning, forwarding, unloading and destroying results: if a result<T> has a value, then value(), operator*, operator-> and printing refer to one and the same object, the living value held by this very result and no other, const through a const result and as an rvalue through an rvalue. For a result<T &>, they all refer to the original object the reference was created from, wherever the result was moved to, always as an lvalue and with no constness added; the result moved from still refers to it. In an error state, operator-> is null, operator* is a violated assertion, and value() throws with the id of the error; no accessor ever refers to anything. The same for result<void>.", "quantifier": "all histories of operations on any number of results, all values, references, ids, and cv/ref-qualified accessors", "why_tests_cant": "Tests access results right after creating them or after one or two moves; a stale or aliased union member, or a wrong discriminant, would show only after particular histories.", "anchors": ["include/boost/leaf/result.hpp:69-111 detail::stored", "include/boost/leaf/result.hpp:289-325 get, enforce_value_state", "include/boost/leaf/result.hpp:481-577 value, operator->, operator*", "include/boost/leaf/result.hpp:598-606, 679-707 operator<<, result<void>"]}
{"id": "C59", "title": "Order of error ids", "statement": "operator< on error_id is a strict total order consistent with operator== (so error ids can be keys of ordered containers) and with the printed serial numbers. Of the first 2^29 - 1 ids generated by a program, on any threads and interleaved in any way, the one generated earlier is less than the one generated later, and prints a smaller number; the next id generated is less than all these.", "quantifier": "all triples of 32-bit id values; all schedules, all pairs of generated ids", "why_tests_cant": "All 32-bit values and all interleavings; the limit needs half a billion generations.", "anchors": ["include/boost/leaf/error.hpp:715-735 operator==, operator<, operator<<", "include/boost/leaf/error.hpp:534-561 id_factory::generate_next_id, new_id"]}
{"id": "C60", "title": "on_error when memory runs out", "statement": "If memory runs out while an on_error guard stores its items in a capturing scope, the guard still completes and the guarded code ends as it would: the same error, or the same exception, is passed on. The objects for which no memory was available are missing; every other item is stored exactly where it would be stored otherwise, no object of any other error is lost or changed, the storage of all scopes remains consistent, and the current error id, the id counter and the exceptions being handled are as without the shortage.", "quantifier": "all lists of items, all choices of the allocations that fail, all states of the thread, all ways the guarded code can end", "why_tests_cant": "Needs failing each allocation separately, in every state of nested capturing scopes; the library has no such tests.", "anchors": ["include/boost/leaf/error.hpp:333-397 dynamic_load_, dynamic_accumulate_, dynamic_load, dynamic_load_accumulate", "include/boost/leaf/error.hpp:428-486 load_slot, load_slot_deferred, load_slot_accumulate", "include/boost/leaf/on_error.hpp:71-198 preloaded"]}
{"id": "C61", "title": "Error objects in scopes are destroyed exactly once", "statement": "Every error object that LEAF constructs in a slot of a scope (a handler scope, or a capturing scope's list of captured objects) is destroyed exactly once: when another object replaces it, when its capturing scope starts over for another error, or when its scope ends; no destructor is ever called for an object that is not there, and no object is constructed over a living one. When a program finishes, the objects not yet destroyed are exactly those held by slots of scopes that are still active, and no storage is allocated but that of scopes that are still active; a program run in a new thread leaves nothing behind.", "quantifier": "all programs built from the library's operations whose execution has no undefined behaviour, all states of the thread, all nestings of scopes and all ways they can be left", "why_tests_cant": "Leak checkers see only the runs of the tests; objects constructed in place in aligned storage and destroyed by explicit destructor calls are invisible to them.", "anchors": ["include/boost/leaf/detail/optional.hpp:63-134 operator=, ~optional, reset, load", "include/boost/leaf/error.hpp:107-165 slot", "include/boost/leaf/error.hpp:174-331 dynamic_allocator, slot<dynamic_allocator>", "include/boost/leaf/context.hpp:183-204 activate, deactivate, unload", "include/boost/leaf/detail/capture_list.hpp:76-96 ~capture_list"]}
{"id": "C62", "title": "The example programs do what their comments say", "statement": "The example programs of the library react to each way they can fail as their comments say, whatever the command line, the operating system and the called functions do. print_file (with results, with boost::system::result, and with exceptions) calls, for each failing system call, the one handler meant for it, with the error code, the errno and the file name, and exits with its code; its last handler is never called, as long as the buffer can be allocated. error_trace, for any number of functions and runs, calls its handler for each failed run with the full path of the error, innermost first. error_log prints this path if the log is enabled; if it is disabled, none of the functions that print records is called, and the handler that prints an error is called for each failed run. print_half handles a number that is too long within print_half and other errors in main. lua_callback_result: the error of the C++ function called by Lua reaches the handler together with the message from Lua, and an error of Lua itself reaches the second handler. exception_to_result: exceptions of the listed types are handled as error objects, others by the last handler, which gets the exception. try_capture_all_result and try_capture_all_exceptions: if the task run in another thread fails, the handler in the main thread is called with the objects of the error, whatever the threads do meanwhile.", "quantifier": "all command lines, all results of the system calls, all numbers of functions and runs, all exceptions, all states of the thread outside of capturing scopes, all schedules of the threads", "why_tests_cant": "The examples are not tests: nobody makes each of their system calls fail, and random failures are not reproduced.", "anchors": ["example/print_file/print_file_leaf_result.cpp:53-202", "example/print_file/print_file_system_result.cpp:35-41,61-210", "example/print_file/print_file_exceptions.cpp:47-193", "example/error_trace.cpp:59-129", "example/error_log.cpp:18-127", "example/print_half.cpp:16-97", "example/lua_callback_result.cpp:51-153", "example/exception_to_result.cpp:14-105", "example/try_capture_all_result.cpp:34-101", "example/try_capture_all_exceptions.cpp:34-101"]}
{"id": "C63", "title": "No thread waits for another one", "statement": "No operation of the library waits for another thread: a thread that runs a program built from the library's operations, and is scheduled again and again, finishes, whatever the other threads do, are given to do, or leave undone meanwhile (a thread may stop for ever in the middle of any operation: the others still finish). When it is done, its outcome, its state and what it did are those of the program run alone in the state the thread was in, but for the ids. If no more programs are given to some threads, and each of them is scheduled again and again, a time comes from which on all of them are done.", "quantifier": "all programs built from the library's operations, all numbers of threads, all infinite schedules in which the thread is scheduled infinitely often (the others need not be), all programs given to the other threads meanwhile", "why_tests_cant": "A test runs for a finite time under the schedules the machine happens to produce; that a thread finishes under every fair schedule is a statement about infinite executions.", "anchors": ["include/boost/leaf/error.hpp:535-544 id_factory::generate_next_id", "include/boost/leaf/error.hpp:556-561 new_id", "include/boost/leaf/config/tls_cpp11.hpp:14-72 thread-local storage", "include/boost/leaf/handle_errors.hpp:639-705 try_handle_all, try_handle_some", "include/boost/leaf/context.hpp:183-204 activate, deactivate, unload"]}
{"id": "C64", "title": "LEAF in destructors that run during stack unwinding", "statement": "A destructor may report and handle errors, and use on_error and error_monitor, while an exception is on its way to a handler, in builds with std::uncaught_exceptions and in builds without: there is no undefined behaviour, the error being reported keeps all of its objects, is handled by the same handler, with the same arguments, as if the destructor did nothing, and on_error guards in and around the destructor attach their objects to the error that leaves their scope. Programs do the same in both builds.", "quantifier": "all programs with local objects whose destructors run such programs, nested to any depth; all numbers of exceptions in flight; both builds; all states of the thread", "why_tests_cant": "The tests have no destructors that use LEAF during unwinding, and each run of the tests is one build.", "anchors": ["include/boost/leaf/on_error.hpp:13-66 error_monitor", "include/boost/leaf/on_error.hpp:72-198 preloaded items, on_error", "include/boost/leaf/config.hpp:205-212 BOOST_LEAF_STD_UNCAUGHT_EXCEPTIONS", "include/boost/leaf/error.hpp:432-480 load_slot"]}
{"id": "C65", "title": "The compile-time computations on types are exact", "statement": "mp_append concatenates lists of types; mp_unique can be instantiated for every list, keeps one of each type in the order in which they occur first, and never asks mp_set_contains about a list with repetitions (which would not compile); mp_remove_if keeps exactly the types without the property, in order; mp_first and mp_rest take a non-empty list apart; make_index_sequence<N> is 0, 1, ..., N-1 for every N; type_index is the position of the first occurrence of the type, and does not compile exactly if the type does not occur. The slots computed from handlers by context_type_from_handlers, through tuples of handlers nested to any depth, are those the handlers ask for (C17), and the computation never fails. find_in_tuple and std::get with tuple_type_index find the slot of the type asked for exactly if the context has one.", "quantifier": "all lists of types of any length; all N; all handlers in nested tuples; all contexts", "why_tests_cant": "Each program instantiates the templates for a few lists; the recursion of the templates has to be right for lists of every length and every pattern of repetitions.", "anchors": ["include/boost/leaf/detail/mp11.hpp:30-280 mp_if, mp_set_contains, mp_unique, mp_append, mp_rest, mp_remove_if, make_index_sequence", "include/boost/leaf/context.hpp:139-173 get_dispatch, find_in_tuple", "include/boost/leaf/context.hpp:242-264 deduce_e_type_list, deduce_e_tuple", "include/boost/leaf/context.hpp:419-445 fn_mp_args_fwd, context_type_from_handlers", "include/boost/leaf/handle_errors.hpp:124-147 type_index, tuple_type_index", "include/boost/leaf/handle_errors.hpp:224-260 peek_tuple"]}
{"id": "C66", "title": "Functions, error objects and handler parameters are told apart", "statement": "For every callable that is not overloaded or a template, the parameters of a handler are determined correctly from its signature. A function passed to new_error, load or on_error is called (deferred if it has no parameters, with the object of its parameter's type if it has one, by reference), and never stored as an error object; everything that is neither a function nor a pointer is stored as an error object; a pointer is never stored as an error object. A handler parameter asks for an object of its type (by value or reference), for one that may be missing (pointer), for a predicate (by value) or for the library's information types (by reference to const); all other parameter types are rejected.", "quantifier": "all signatures with any number of parameters, const or not, noexcept or not; function objects, functions, and pointers to functions, passed as variables or temporaries; C++14 and C++17; all types of handler parameters", "why_tests_cant": "Programs that must not compile, or that silently mean something else, are hardly covered by tests; the cases depend on the language version, value category and qualifiers.", "anchors": ["include/boost/leaf/detail/function_traits.hpp:12-95 remove_noexcept, function_traits", "include/boost/leaf/error.hpp:428-524 load_slot, load_slot_deferred, load_slot_accumulate, load_item", "include/boost/leaf/on_error.hpp:72-219 preloaded_item, deferred_item, accumulating_item, deduce_item_type", "include/boost/leaf/context.hpp:25-135 handler_argument_traits", "include/boost/leaf/diagnostics.hpp:61-70 handler_argument_traits<diagnostic_info const &>"]}
{"id": "C67", "title": "Running out of memory", "statement": "LEAF allocates memory only to capture error objects and exceptions: while no capturing scope is active, programs that do not use try_capture_all and have no handler taking diagnostic_details run the same with no memory at all; built without capturing, all programs do. When memory runs out, there is no undefined behaviour: on_error drops the object and neither terminates the program nor changes how its block ends; result::unload either does its work or throws std::bad_alloc, leaving the id of the result current; error_id::load, new_error, the conversion of a foreign std::error_code, and passing on the object of an error that was not handled terminate the program exactly if the object goes to a new node of a capturing scope for which there is no memory; try_capture_all terminates it if there is no memory for the exception thrown by its block. With enough memory, all programs run as they do in the other properties.", "quantifier": "all programs, configurations, storage states, and all patterns of allocations succeeding and failing", "why_tests_cant": "Tests cannot make each allocation of each program fail in turn, let alone all combinations; and std::terminate ends the test.", "anchors": ["include/boost/leaf/error.hpp:279-314 dynamic_allocator", "include/boost/leaf/error.hpp:333-397 dynamic_load, dynamic_load_accumulate", "include/boost/leaf/error.hpp:683-702 error_id::load", "include/boost/leaf/error.hpp:756-765 new_error", "include/boost/leaf/on_error.hpp:73-198 preloaded", "include/boost/leaf/detail/capture_list.hpp:76-96 capture_list", "include/boost/leaf/result.hpp:590-596 result::unload", "include/boost/leaf/handle_errors.hpp:503-702 try_handle_all, try_handle_some, try_catch", "include/boost/leaf/handle_errors.hpp:708-814 try_capture_all"]}
{"id": "C68", "title": "Functions passed to new_error, load and on_error that throw", "statement": "A function passed to new_error or load that throws when it is called terminates the program: one returning an object of type E is called exactly if a slot for E is available or capturing is enabled (even if nothing captures), one taking E & exactly if a slot for E is available or capturing is enabled and a scope captures. In on_error, a function returning void always terminates the program when it throws; one returning E is called, and terminates it, unless the slot has an object of this error already; one taking E & terminates it if there is a slot for E, but if the object is captured instead, the exception is ignored and the object, as modified so far, stays captured. The arguments are loaded left to right, the first that fails ends the program; nothing is ever undefined. A guard that does not terminate the program ends like its block. With functions that do not throw, all is as in the other properties.", "quantifier": "all lists of arguments, functions (returning or throwing, after any modification), storage states, configurations and patterns of failing allocations; with a function taking E & in the list, the innermost capturing scope, if any, has captured nothing yet or first captured an object of the same error (otherwise see C11)", "why_tests_cant": "std::terminate ends the test; whether the function is called, and whether its exception is ignored, depends on what the active scopes of the thread handle and capture.", "anchors": ["include/boost/leaf/error.hpp:345-397 dynamic_accumulate_, dynamic_load, dynamic_load_accumulate", "include/boost/leaf/error.hpp:447-486 load_slot_deferred, load_slot_accumulate", "include/boost/leaf/error.hpp:493-524 load_item", "include/boost/leaf/error.hpp:683-702 error_id::load", "include/boost/leaf/error.hpp:756-765 new_error", "include/boost/leaf/on_error.hpp:73-198 preloaded, trigger"]}
{"id": "C69", "title": "Which predicates are called, and predicates that throw", "statement": "While a handler is chosen, predicates are called in the order of the handlers and of their arguments, each at most once. One is called exactly if all handlers before its own are not suitable, all arguments before it in its handler are suitable, and the error has an object (or exception) for it; it is called with that object. The program is terminated exactly if a predicate that is called throws; no other is called after it. Otherwise handler k is chosen exactly if its arguments are suitable and no handler before it is, whatever the predicates of later arguments and handlers would do. match and the like compare with one value after the other, up to the first that matches or whose comparison throws. With predicates that do not throw, the handler chosen is that of the other properties.", "quantifier": "all lists of handlers, predicates (returning true, false, or throwing), contexts, error ids and exceptions; all packs of values", "why_tests_cant": "Predicates in tests do not record calls; std::terminate ends the test. Which predicates have their turn depends on the error objects of all handlers.", "anchors": ["include/boost/leaf/context.hpp:47-94 handler_argument_traits_defaults", "include/boost/leaf/handle_errors.hpp:301-433 check, check_arguments, handle_error_", "include/boost/leaf/pred.hpp:22-48 cmp_value_pack"]}
{"id": "C70", "title": "Error objects whose constructors throw", "statement": "If copying or moving the arguments of on_error into the guard throws, the caller gets the exception, the guarded code is not run and nothing is changed. Otherwise no exception of a constructor leaves new_error, load or on_error: it terminates the program exactly if the constructor is called, which is if the object goes to a slot (in on_error: to one without an object of this error), or to a capturing scope and there is memory for it; objects that no scope takes are not copied or moved. A function taking E & needs the default and the move constructor only if it is to get a new object; if on_error would capture that object and the default constructor throws, the exception is ignored and the function is not called. The first argument that fails ends the program, and nothing is ever undefined (false for on_error with a function returning a reference to an object whose copy constructor throws, when the copy is captured). When a scope ends and passes an object on, a move constructor that throws terminates the program if the object is moved: to a slot without an object of this error, or, without a slot, as soon as capturing is enabled, even if no scope captures. A handler that takes an error object by value, whose copy constructor throws, is not called: the program is terminated. With constructors that do not throw, all is as in the other properties.", "quantifier": "all lists of arguments, constructors (throwing or not), storage states, configurations and patterns of failing allocations; with a function taking E & in the list, the innermost capturing scope, if any, has captured nothing yet or first captured an object of the same error (otherwise see C11)", "why_tests_cant": "std::terminate ends the test; which constructors are called depends on what the active scopes of the thread handle and capture, and on whether an object of this error is there already. The undefined case leaves a dangling pointer that is used only later.", "anchors": ["include/boost/leaf/detail/optional.hpp:74-83 operator=", "include/boost/leaf/detail/optional.hpp:118-134 load", "include/boost/leaf/detail/optional.hpp:179-186 value", "include/boost/leaf/error.hpp:215-222 capturing_slot_node", "include/boost/leaf/error.hpp:280-289 dynamic_allocator::dynamic_load", "include/boost/leaf/error.hpp:333-397 dynamic_load, dynamic_load_accumulate", "include/boost/leaf/error.hpp:411-486 slot::unload, load_slot, load_slot_deferred, load_slot_accumulate", "include/boost/leaf/error.hpp:493-524 load_item", "include/boost/leaf/on_error.hpp:90-228 item, preloaded, on_error", "include/boost/leaf/context.hpp:53-57 handler_argument_traits_defaults::get", "include/boost/leaf/handle_errors.hpp:383-404 handler_caller::call"]}
{"id": "C71", "title": "What a result is initialized with, and values whose constructors throw", "statement": "A result<T> initialized with an object of type T, of a derived class, or of another type from which T can be constructed implicitly is in value state; initialized with an error_id, a std::error_code or an error code enumeration, it is in error state, whatever T is (false for error codes if T can be constructed from one; with enumerations such a T does not compile). A result<U> that is an rvalue is moved from if U converts to T; results that are lvalues or const are never moved from or copied. If a constructor of T throws, the caller gets the exception, no result comes into being and nothing else is changed (false: in builds with compilers other than clang, all constructors but the default one and the copy from a const variable terminate the program; with clang, the one with several arguments does). Moving from a result terminates the program exactly if there is a value and the constructor called throws. In all sequences of operations, whichever constructors throw, nothing is undefined, and every value constructed is destroyed exactly once.", "quantifier": "all types of arguments, lvalues and rvalues, const or not; all T, by what they can be constructed from; all sequences of operations on any number of results, with constructors that throw or not; with the constructor templates for clang and for other compilers", "why_tests_cant": "Which constructor is chosen depends on T, on the type of the argument, on const, and on the compiler; std::terminate ends the test, and copying in tests does not throw.", "anchors": ["include/boost/leaf/result.hpp:260-281 move_from", "include/boost/leaf/result.hpp:327-332 move_assign", "include/boost/leaf/result.hpp:359-442 constructors of result", "include/boost/leaf/result.hpp:444-462 destructor, assignment", "doc/leaf.adoc:4495-4553 result constructors"]}
{"id": "C72", "title": "How an object is printed", "statement": "For every type of error objects there is exactly one way in which diagnostics print them: not at all if the type is hidden; types derived from std::exception by what(), in quotes (even if they have an operator <<); others by their operator <<, or that of their member value, enumerations by their number, everything else by name only; always after the delimiter or pending header and the type's name. Null pointers are printed as <nullptr> and never written to the stream (false for pointers of type char *). A result in value state prints its value by operator <<, or {not printable} (undefined for null pointers to characters).", "quantifier": "all types, by what compiles for them; all objects, null pointers included; all names, delimiters and headers", "why_tests_cant": "The specializations are chosen by five properties of the type; tests try a few combinations, and no null pointers to non-const.", "anchors": ["include/boost/leaf/detail/print.hpp:17-45 show_in_diagnostics, is_printable, has_printable_member_value", "include/boost/leaf/detail/print.hpp:47-79 print_name, print_impl", "include/boost/leaf/detail/print.hpp:83-156 diagnostic", "include/boost/leaf/result.hpp:35-63 result_value_printer", "include/boost/leaf/result.hpp:598-605 operator<<"]}
{"id": "C73", "title": "Error objects are handled in constant time, independent of call stack depth", "statement": "The number of accesses LEAF makes to memory that outlives a call (the id counter, the thread-local id, the thread-local pointers, slots and captured objects) does not depend on how deep the call stack is or on how many scopes are active: new_error with n objects makes at most 2 + 13n, whatever the state of the thread; a scope makes at most 34 per slot it has, and 4, entering, leaving, and passing on objects included; a failed result or an exception that passes through functions costs none. An object loaded below any number of functions, on_error guards and scopes that do not mention its type, and handled above them, costs at most 23 accesses to storage of its type. Scopes that do have a slot of the type add to this in proportion to their number.", "quantifier": "all programs that capture nothing (within capturing scopes of callers, too), all types, objects and handlers, any number of layers, all states of the thread (functions taking E & only where nothing might be captured)", "why_tests_cant": "The claim is about all depths and all numbers of active scopes; tests and benchmarks measure a few.", "anchors": ["README.md:15 Error objects are handled in constant time", "include/boost/leaf/error.hpp:107-165 slot", "include/boost/leaf/error.hpp:411-524 unload, load_slot", "include/boost/leaf/context.hpp:175-235 tuple_for_each activate, deactivate, unload", "include/boost/leaf/handle_errors.hpp:555-702 try_handle_all, try_handle_some, try_catch", "include/boost/leaf/config/tls_cpp11.hpp:26-79 read_ptr, write_ptr"]}
{"id": "C74", "title": "How system errors are printed", "statement": "On Windows, an e_LastError is printed as its number, followed by the system's message in quotes, without the line break (carriage return and line feed, or either) at its end; the buffer of the message is freed exactly once, even if the stream throws, and only memory within it is accessed. (False for messages that consist of a line feed only, where the character before the buffer is read. Numbers without a message are not printed at all.) An e_errno is printed in the same form, from which number and message can be told.", "quantifier": "all messages, all numbers, all points at which the stream may throw", "why_tests_cant": "No test prints an e_LastError; messages depend on the system and its language.", "anchors": ["include/boost/leaf/common.hpp:65-105 e_LastError", "include/boost/leaf/common.hpp:57-61 e_errno"]}
{"id": "C75", "title": "LEAF's error codes and conditions", "statement": "The std::error_code made from an error_id equals a std::error_condition exactly if the condition's category is not LEAF's and says so; so it equals no condition of the standard categories, and predicates match<condition<Enum>, ...> on such conditions never accept it. (It does not even equal its own default condition, as codes of other categories do.)", "quantifier": "all ids, all conditions and categories, all lists of values", "why_tests_cant": "Equality depends on virtual functions of both categories, including ones of users; tests try two categories.", "anchors": ["include/boost/leaf/error.hpp:580-599 leaf_error_category", "include/boost/leaf/pred.hpp:50-130 condition, match", "include/boost/leaf/error.hpp:676-681 operator T"]}
{"id": "C76", "title": "Activation guards may be moved", "statement": "Guards made by activate_context may be moved and destroyed anywhere. The activation made by a guard is undone exactly once: when the guard it was last moved to is destroyed; a guard that was moved from does nothing at its end. At any time a context is active if and only if it was active before there were guards or exactly one existing guard is responsible for it, and when all guards are gone exactly the contexts are active that were before. If the context activated last is always deactivated first, everything else behaves as specified for contexts; the library does not enforce that order, and if it is not kept, active contexts miss error objects, contexts that are not active receive them, and the thread keeps references to destroyed slots.", "quantifier": "all sequences of operations on any number of guards and contexts, all states of the thread", "why_tests_cant": "The tests keep guards in the block where they are made; the histories of moves and ends of several guards are unbounded.", "anchors": ["include/boost/leaf/context.hpp:283-305 raii_deactivator", "include/boost/leaf/context.hpp:335-356 activate, deactivate", "include/boost/leaf/error.hpp:135-144 slot::activate, slot::deactivate"]}
{"id": "C77", "title": "Error objects that no handler takes make no difference", "statement": "If no handler of a program and no scope around it takes objects of certain types, and nothing captures (no try_capture_all, no handler taking diagnostic_details with capturing enabled, no capturing scope around it), then leaving out all items of new_error, load and on_error that report objects of these types changes nothing: the program ends the same way, with the same error storage, current error and id counter; it generates the same ids, calls the same functions and the same handlers in the same order with the same arguments. The functions called are among those passed as the remaining items, so a function that modifies an object nobody takes is not called. So code that reports errors may attach whatever it likes. With BOOST_LEAF_CFG_CAPTURE, a function that returns the object is called even though nobody takes it, so these items may only be left out in builds without capturing. In a scope that captures, objects that nobody takes can change which handler is called.", "quantifier": "all well-formed programs, all sets of types none of their handlers takes, all states of the thread without scopes that capture or take these types", "why_tests_cant": "Compares all programs with the same programs without some of their error objects.", "anchors": ["include/boost/leaf/error.hpp:333-355 dynamic_load_, dynamic_accumulate_", "include/boost/leaf/error.hpp:428-524 load_slot, load_slot_deferred, load_slot_accumulate, load_item", "include/boost/leaf/on_error.hpp:73-198", "include/boost/leaf/handle_errors.hpp:577-702", "doc/leaf.adoc:858-864, 1831-1852, 3652"]}
{"id": "C78", "title": "Handlers may be given in one list or in nested scopes", "statement": "A try_handle_some whose handlers H1 return values, directly in a try_handle_all with handlers H2, does the same as a single try_handle_all with the handlers H1 followed by H2: it ends the same way, with the same error storage, current error, id counter and exceptions; in the same order it generates the same ids, calls the same functions, reports the same objects and calls handlers for the same errors with the same arguments. The same holds for try_handle_some in try_handle_some if the handlers H2 return no errors, and for try_catch in try_catch. The same holds for any number of nested scopes. Conditions: no handler of these lists takes diagnostic_info, diagnostic_details or e_source_location, and no scope around captures or has a slot for a type that H1 takes and H2 does not. Without the condition on the scopes around, nested scopes leave objects of a handled error in them. If the handlers H2 return errors, a single scope may pass on objects that nested ones do not.", "quantifier": "all well-formed blocks, any number of nested scopes, all handler lists with these argument types, all functions from arguments to values for H1, all well-formed handler bodies for H2, all states of the thread", "why_tests_cant": "Compares two ways to write a program, for all blocks (reporting, handling, throwing and capturing errors in any way) and all handlers.", "anchors": ["include/boost/leaf/handle_errors.hpp:383-433 handler_caller, handle_error_", "include/boost/leaf/handle_errors.hpp:577-702 try_handle_all, try_handle_some, try_catch", "include/boost/leaf/error.hpp:411-426 slot::unload", "include/boost/leaf/context.hpp:197-204, 236-252, 359-363", "doc/leaf.adoc:240, 347-352, 401, 3373"]}
{"id": "C79", "title": "Refactoring does not change programs", "statement": "A program does exactly the same (outcome, error storage, ids, functions and handlers called, or undefined behaviour) after any number of the following changes anywhere in it, in either direction: new_error(a..., b...) is written as new_error(a...).load(b...); id.load(a..., b...) as id.load(a...).load(b...); id.load() is removed; a call and what follows it, or a call of new_error or load, is moved to a function of its own, the result of which is forwarded as by BOOST_LEAF_AUTO, BOOST_LEAF_ASSIGN and BOOST_LEAF_CHECK; a value, error or exception that is returned to be used at once is used directly; try { ... } catch(...) { throw; } is removed. Two on_error guards, one after the other, do the same as one guard with the items of the second followed by those of the first, unless ids repeat (after 2^30 errors). A guard without items does nothing if no exception is thrown; otherwise it assigns an id to the exception.", "quantifier": "all programs, all sequences of such changes at all places, all configurations, all implementations of error storage, all states", "why_tests_cant": "Compares all programs with all their refactored versions in all states; a test compares one pair of programs.", "anchors": ["include/boost/leaf/error.hpp:676-701 error_id::load", "include/boost/leaf/error.hpp:756-765 new_error", "include/boost/leaf/on_error.hpp:30-47 error_monitor::check_id", "include/boost/leaf/on_error.hpp:187-197 preloaded", "include/boost/leaf/error.hpp:25-58 BOOST_LEAF_ASSIGN, BOOST_LEAF_AUTO, BOOST_LEAF_CHECK"]}
