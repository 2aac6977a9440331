# Formal model of Boost LEAF

Lean 4.33.0, core library only (no Mathlib import). Source modelled: `/repo/include/boost/leaf` at the pinned commit, read as text.
Properties: `properties.jsonl`. Which theorem proves which property: `MANIFEST.json`. Wrong models tried against the theorems: `seeded/LOG.jsonl` (`theorems_failed`: property theorems whose proof, or the proof of a lemma they use, no longer checks).

## Trusted base

* Lean's kernel.
* Axioms: at most `propext`, `Classical.choice`, `Quot.sound`; none of our own. The list per theorem is at the end of this file.
* The transcription of C++ into Lean definitions. Each definition cites file and lines. It was made by reading; nothing was compiled or run.
* C++ semantics as used by the transcription: object lifetimes, stack unwinding, order of evaluation in braced lists, `std::atomic` read-modify-write,
  `thread_local`, `dynamic_cast`, order of `std::tuple` elements, `std::current_exception`, `std::uncaught_exceptions`.

Configuration modelled: exceptions enabled (`NoExcModel`, C47: disabled), diagnostics enabled (`BuildModel`, C51: disabled), `std::error_code` enabled; with `std::uncaught_exceptions` (`UnwindModel`, C64: also without); `BOOST_LEAF_CFG_CAPTURE` is a parameter (`Cfg.capture`).
A violated `BOOST_LEAF_ASSERT`, an access to storage that is not alive, and other undefined behaviour are the outcome `none`.

## Parts of the model

Model (transcribed code):

| Module | Code | What |
|---|---|---|
| `Ids` | error.hpp:534-628, 660-753 | 32-bit ids, counter, `make_error_id`, serials, `std::error_code` |
| `Threads` | error.hpp:534-561 | id generator, steps of several threads interleaved |
| `Types` | - | data: error objects, exceptions, results, handler arguments |
| `Store` | error.hpp:300-524, 683-765; on_error.hpp:30-164; result.hpp:590-596; capture_list.hpp:86-96; context.hpp:197-204 | interface to error storage; loading, unloading, `new_error`, guards, monitors |
| `PtrStore` | error.hpp:107-323; context.hpp:183-195 | storage with addresses, `prev_` chains, thread-local pointers |
| `Handlers` | context.hpp:26-252; handle_errors.hpp:154-433; mp11.hpp | argument traits, deduction of context types, handler selection |
| `Prog` | handle_errors.hpp:590-806; exception.hpp:233-280; on_error.hpp:166-198; result.hpp:309-325 | syntax of user programs over the API (arbitrary nesting; continuations are Lean functions) and their interpreter |
| `ContextModel` | context.hpp:265-418; handle_errors.hpp:478-499 | context objects managed by the user |
| `ResultModel` | result.hpp:113-596 | memory of `result<T>` objects |
| `InitModel` | result.hpp:260-281, 327-332, 359-442 | which constructor of `result<T>` is chosen (the rules of C++ for these candidates, written out), and constructors of `T` that throw (C71). `T` is an object type, not one of the library's types or `std::error_code`; copy-initialization |
| `LifeModel` | detail/optional.hpp:85-134, error.hpp:130-133, 279-331 | The storage of `PtrStore` with a record of the objects constructed and destroyed in slots |
| `MemModel` | error.hpp:333-397, 428-486, on_error.hpp:73-198 | `on_error` when allocations fail |
| `AccessModel` | result.hpp:69-111, 289-325, 464-577, 598-606, 679-707 | accessors of `result<T>`, `result<T &>`, `result<void>` |
| `OptionalModel` | detail/optional.hpp | memory of `optional<T>` objects |
| `CaptureListModel` | detail/capture_list.hpp; error.hpp:195-311 | linked lists with `first_`, `last_`, `next_` pointers |
| `ExcObjModel` | exception.hpp:80-151 | exception objects and the current id |
| `ThrowModel` | exception.hpp:52-70, 80-222; error.hpp:61, 563-575, 737-744; result.hpp:231-237, 584-588 | `throw_exception`, `BOOST_LEAF_THROW_EXCEPTION`, `BOOST_LEAF_NEW_ERROR`, `result::load`, written with `Prog` |
| `GuardModel` | on_error.hpp:15-56, 166-198 | `on_error` guards as objects that are moved and destroyed at any time |
| `RefModel` | handle_errors.hpp:262-294, 383-404, 590-611, 636-666; context.hpp:40-57, 119-127 | handlers of `try_handle_some` that modify error objects |
| `FnModel` | error.hpp:447-465, 493-524, 683-702, 756-765; on_error.hpp:73-198 | functions passed to `new_error`, `load`, `on_error` that run arbitrary programs |
| `NoExcModel` | handle_errors.hpp:262-294, 518-572, 708-738; on_error.hpp:30-47; error.hpp:300-311 | the functions that are different in builds with `BOOST_LEAF_NO_EXCEPTIONS`, and the interpreter built on them |
| `BuildModel` | diagnostics.hpp:53-287; as `Prog` | the functions that are different in builds with `BOOST_LEAF_CFG_DIAGNOSTICS=0`, and the interpreter built on them |
| `UnwantedSpec` | (specification for C77) | a program without the items that report objects of given types; which programs take none of them; which functions a program passes |
| `SplitSpec` | (specification for C78) | handlers in one list or in two scopes: which arguments they have, what they take, the joined list |
| `PropRefactor` (`Refactor`) | (specification for C79) | the changes that count as refactoring; anywhere in a program, any number of times |
| `UnwindModel` | on_error.hpp:13-66, 166-198; config.hpp:205-212 | programs `UProg`: those of `Prog`, with local objects whose destructors use LEAF; run with a number of exceptions in flight; builds with and without `std::uncaught_exceptions` (C64) |
| `MpModel` | detail/mp11.hpp:30-280; context.hpp:139-173, 242-264, 419-445; handle_errors.hpp:124-147, 224-260 | the compile-time list functions, as functions on lists; `none`: does not compile (C65) |
| `SigModel` | detail/function_traits.hpp; error.hpp:428-524; on_error.hpp:72-219; context.hpp:25-135 | which callables are recognised as functions, what becomes of items, what handler parameters ask for; template specialisations as cases (C66) |
| `AllocModel` | error.hpp:279-397, 411-524, 601-765; on_error.hpp:73-198; detail/capture_list.hpp:76-96; result.hpp:309-325, 590-596; context.hpp:197-204, 359-363; handle_errors.hpp:383-404, 503-814; exception.hpp:233-280 | the functions of `Store` and `Prog` again, where each allocation of a node may fail: `std::bad_alloc` is swallowed, thrown or terminates the program (C67). Memory for throwing exceptions and for the error objects themselves is not modelled |
| `FnThrowModel` | error.hpp:345-397, 447-524, 683-702, 756-765; on_error.hpp:73-198 | the loading functions of `AllocModel` again, with functions that may throw, after modifying the object (C68). Constructors of error objects do not throw (`CtorModel`: they do) |
| `CheckModel` | context.hpp:44-106; handle_errors.hpp:301-433; pred.hpp:22-48 | choosing a handler as in `Handlers`, with predicates that may throw, and the list of calls (C69). Predicates have no other effects |
| `CtorModel` | detail/optional.hpp:74-83, 118-134, 179-186; error.hpp:215-222, 280-289, 333-397, 411-524, 756-765; on_error.hpp:90-198, 222-228 | the loading functions of `AllocModel` again, with error objects whose default, copy and move constructors may throw (C70). A node that is freed while still in the list is undefined behaviour at once, not only when the list is used. A handler's parameter taken by value is copied in `handler_argument_traits_defaults::get`, context.hpp:53-57 (`getArgsC`). Not modelled: constructors of the functions themselves, destructors that throw |
| `ExtModel` | handle_errors.hpp:383-404, 503-514, 590-702; on_error.hpp:166-198; error.hpp:660-681 | result types other than `leaf::result`, whose error is a `std::error_code`; programs `XProg` that use them |
| `ActivatorModel` | context.hpp:283-305, 396-399 | `raii_deactivator`, `activate_context`, on top of `ContextModel` |
| `GuardMoveModel` | context.hpp:283-305, 396-399 | guards as objects: moved, destroyed in any order |
| `TlsModel` | config/tls_array.hpp | array backend of thread-local storage |
| `ArrModel` | error.hpp, context.hpp, config/tls_array.hpp | the storage of `PtrStore` with every access to a slot pointer going through `TlsModel`; programs run on it too (`GenSim`, C52) |
| `TypeNameModel` | detail/demangle.hpp:53-198 | parsing of type names |
| `PredModel` | pred.hpp | predicates |
| `DiagModel` | detail/print.hpp; diagnostics.hpp; context.hpp:206-229; error.hpp:148-158 | printing |
| `PrintModel` | detail/print.hpp:17-156; result.hpp:35-63, 598-605 | what `DiagModel` takes as given: which specialization of `diagnostic` and which overload of `print_impl` is used (C72). Narrow streams; character arrays always have a text |
| `CostModel` | error.hpp:107-165, 174-331, 411-524, 540-575; context.hpp:175-235; config/tls_cpp11.hpp:26-79 | the operations of `PtrStore` again, recording each access to the counter, the current id, a thread-local pointer, a slot or an allocator (C73); proved to give the same results. Choosing a handler reads the slots of the scope's own context; these reads are counted once per slot. Local variables, results and exceptions are not counted, nor is the time taken by constructors of error objects |
| `CommonModel` | common.hpp:51-105; error.hpp:580-590 | printing `e_LastError` (the buffer as a list of characters; `FormatMessageA` gives one or fails) and `e_errno` (C74); `equivalent` of LEAF's category, and of others as arbitrary functions (C75) |
| `Small`, `ConcModel` | as `Store`, `Prog` | the same functions as sequences of single operations; machine interleaving threads over shared memory and counter; threads that are done may be started again with another program (`Sys.start`, `Sys.play`). `hist` records the ids generated, in order; the code does not read it |

Specification (not code):

| Module | What |
|---|---|
| `AbsStore` | error storage as a stack of scopes, each a finite map; no pointers |
| `ContextSpec` | user-managed contexts as values |
| `Wf` | well-formed programs: what the type system, `static_assert`s and asserts demand of callers, and the exclusions named in the `_partial` theorems |
| `Rename` | one-to-one renaming of ids |
| `Lifetimes` | every object destroyed exactly once |
| `Direct` | programs that report every error to LEAF (`Direct`, translated to `Prog`), and the ideal semantics `Ideal` in which errors carry their objects (C48) |
| `Examples` | the programs of /repo/example in the language `Direct`, or as `Prog` (C62). What they print is not modelled; `lua_callback_exceptions` is not covered |
| `BuildSpec` | which builds and records of events are compared (C51) |
| definitions in `Prop*` files | the vocabulary of each property |

Property theorems are in the files `Prop*`; all other files are lemmas. The main lemmas:

* `PtrRefine`, `Sim`, `PtrKeep`, `KeepLemmas`: the interpreter on `PtrStore` does what it does on `AbsStore`, and touches only storage of active scopes.
* `Total`, `Wf`: well-formed programs have no undefined behaviour.
* `Sources`, `CurTrack`, `Handling`, `Stored`: invariants of all executions.
* `ContextRefine` and the other `Context*` files: refinement of `ContextModel` to `ContextSpec`.
* `SmallLemmas`: sequences of operations (`Small`) do what the interpreter does. `CostLemmas`: so do those that record accesses. `CostBase`, `CostProg`: how many accesses operations and programs make. `ConcLemmas`: in the machine, each thread runs as if alone; `JobLemmas`: also if threads are started again. `HistLemmas`: the history of ids.
* `Ticks`, `DirectBound`: bounds on the number of ids a program generates; an ideal run that exists is the one the program does (`ideal_determines`).
* `AllocBase`, `AllocTotal`, `AllocEq`: programs when memory runs out (`AllocModel`): pointers against scopes, no undefined behaviour, and no difference where no memory is needed.
* `RenameEval`, `RenameRun`: the interpreter commutes with renaming of ids.

`Tests`, `TestsHandling`, `TestsExceptions`, `TestsObjects`: programs from `/repo/test` run in the model, with the results the library's authors expect. These are tests of the
model (`decide +kernel` on samples), not proofs, and no claim rests on them.

The interpreter is written once over the interface `Store`. On `PtrStore` it is the model of the code. Theorems about programs are stated for that; `scopes w` reads off
what the slots of the active contexts contain.

Other threads affect a thread only by advancing the id counter. In `Prog` this is an arbitrary function `Cfg.interf` (how many ids others generate before each of this
thread's ids). `C35_as_if_alone` proves, in the machine `ConcModel`, that this describes every schedule of any threads.

## Simplifications

* Error objects, values and types are numbers; user functions are arbitrary Lean functions on them. In `Prog`, user functions passed as items do not call LEAF themselves (`FnModel`: they do); they do not throw (`FnThrowModel`: they do; most callers are `noexcept`, so a throw terminates the program, but not always, F51).
* In `Prog`, handlers receive copies of error objects (they do not modify the stored ones). In `RefModel` handlers of `try_handle_some` modify them; changes to a caught exception object are not modelled, and the listings of `diagnostic_info` are made before the handler runs.
* In `Prog`, a context is taken out by value when it is deactivated (only its owner reads it afterwards). User-managed contexts are in `ContextModel`.
* In `Prog`, exceptions are values; how long an exception object lives is not tracked, except that the object is destroyed when a `catch` block that does not rethrow ends
  (`destroyExc`). `ExcObjModel` has the objects.
* Addresses and node addresses are never reused, so a dangling pointer is visible as such.
* `ResultModel`, `OptionalModel`: moved-from values are `mv v` for an arbitrary `mv`. Copy constructors may throw in `OptionalModel` and in `CaptureListModel` (`captureThrow`), not elsewhere.
  `optional::load` with a reference to the optional's own value is not modelled.
* `LifeModel`: as in `PtrStore`, a context is destroyed when it is deactivated; captured nodes are destroyed with their scope and the `result` holds copies (in the code the nodes move to the result's list: C07, C29);
  a function that accumulates replaces the object.
* `CaptureListModel`: loops have fuel = number of nodes allocated; running out of it means a node was visited twice and counts as undefined.
* `ActivatorModel`: guards live in blocks; leaving a block early is a shorter body. `GuardMoveModel` has guards as objects with names.
* `ArrModel`: the slot pointers are in the array; the current id stays a field of `World` (C36 covers ids in the array). `boundTypes` is computed by running the program on the pointer-level storage with a record of the
  types bound (`LogStore`); an address that does not fit a pointer is undefined behaviour (the model's allocator never reuses addresses).
* `UnwindModel`: a destructor catches the exceptions of its own code, `X::~X() { try { q } catch( ... ) { } }` (one that lets an exception out during unwinding ends the program). The objects handlers and results hold have no destructors that use LEAF.
* `ExtModel`: one external result type; its constructors and accessors do what they say. A result type whose error is an `error_id` behaves as one with codes of LEAF's own category (C55_leaf); other errors that convert to `error_id` are not modelled.
* `TlsModel`: the dynamic initializer of `alloc_tls_index<T>::idx` is an event `init`, at most once per type.
* `DiagModel`: the stream is a string; the text of each object is an arbitrary function.
* `ContextModel`: one thread; activating or moving a context whose captured objects were unloaded (dangling `last_`) counts as undefined.
* `ConcModel`: one operation is one access to storage, to the counter or to a thread-local variable. Threads exchange results only between programs: a program started later may depend
  on outcomes of earlier ones (C45). That a result is handed over safely (future, queue) is not modelled.
  `counter+=4` is one step: an atomic addition that the hardware may retry without end is not modelled (C63).
* C13: the lists shown by diagnostics are covered for ids other than 0 (with id 0 everything is printed, by design).

## Not modelled

* `BOOST_LEAF_CFG_STD_SYSTEM_ERROR=0`, `BOOST_LEAF_CFG_WIN32`, `e_LastError` and other ready-made error types. (Handler arguments of type `boost::error_info<Tag, T>`, handle_errors.hpp:820-883,
  are arguments `.catch_ p` where `p` says that the exception is a `boost::exception` with the info: they need no slot, are not always available, and the value is read from the exception.) File, line and function
  of an `e_source_location` are one number.
* `std::bad_alloc` other than from allocating the nodes of capture lists (`MemModel`, `AllocModel`); throwing constructors other than said above.
* Compile-time rejection, except where stated (`compilesTree`, well-formedness). Ill-formed uses are outside the model or have outcome `none`.
* The C++ memory model below single operations. (The only shared variable is the atomic counter.)
* `config/tls_cpp11.hpp`: taken as variables per type and thread. `tls_globals.hpp` (plain globals, for builds without threads): the same with one thread.

## Findings: where the code does not do what the property says

Each is proved by a concrete witness (`*_refuted*`) or, where noted, follows from the model; the property is then marked `partial` and the theorem covers the rest.

| | Finding | Theorem |
|---|---|---|
| F1 | `current_error()`, `error_monitor::check()` and `result::error()` return id 1 instead of an empty id, because `make_error_id(0) == 1`, which converts to `true` | `C05_refuted_current_error`, `C05_refuted_check`, `C05_refuted_result` |
| F2 | ids repeat after 2^30 generations; 1 and -3 print the same serial | `C01_ids_unique`, `C03_collision` |
| F3 | with `CAPTURE=1`, a function given to `load`/`on_error` is called although no scope takes its result | `C12_refuted_deferred` |
| F4 | loading a function taking `E &` in a capturing scope that holds captured objects of another error destroys active slots | `C11_refuted_accumulate` |
| F5 | `try_capture_all` loses the objects of the failing error if the block reported and abandoned another error before | `C27_refuted_abandoned` |
| F6 | `try_capture_all` with a function returning `void` does not deactivate its slot on success | `C11_refuted_capture_void` |
| F7 | `try_capture_all` on a failed result inside a `catch` block captures the unrelated current exception and rethrows it later | `C28_refuted` |
| F8 | after `capture_list::unload` of a `dynamic_allocator`, `last_` dangles | `C29_unload_capture`, `C39_refuted_unloaded` |
| F9 | `error_monitor::assigned_error_id()` and `check()` may return id 1 after the current id was reset | `C25_refuted`, `C25_refuted_check` |
| F10 | self move assignment of a `result` holding a value reads a destroyed object; self assignment of `optional` loses the value | `C07_self_move` |
| F11 | a `result` made from a foreign `error_code` with value 0 is in an error state with empty id | `C04_zero`, `C02_result_error` |
| F12 | `try_capture_all` drops objects inside a captured result returned by the block (the documentation excludes nesting of `try_capture_all` in other scopes, the code does not reject it) | `C27_refuted_nested` |
| F13 | `try_catch` destroys its objects when the block returns a failed result | `C22_refuted_try_catch` |
| F14 | with nested capturing scopes, an object goes to the outer scope if that holds a captured object of the same type (nesting: see F12) | `C09_refuted_nested_capture` |
| F15 | an `on_error` guard left by an exception whose id was generated before the guard attaches its items to a fresh id, not to the exception's id | `C24_exception` (description) |
| F16 | if the constructor of a captured object throws, the capture list keeps a pointer to the freed node | `C29_refuted_throw` |
| F17 | moving a context that was active inside another scope with a common type violates `x.prev_ == nullptr` (`deactivate` does not reset `prev_`) | `C39_refuted_nested` |
| F18 | serials are printed signed: negative for ids from 2^31 | `C37_serial` (hypothesis) |
| F19 | activating again a context that captured objects: deactivating it unbinds the slot of an enclosing scope | `C41_refuted_reactivate` |
| F20 | an exception thrown by `throw_exception` that was destroyed unexamined resets the current id; a guard or monitor around it then misses the error | `C24_refuted`, `C24_refuted_reset`, `C25_refuted` |
| F21 | `throw_exception` with an empty `error_id` as first argument violates an assertion as soon as the exception leaves a scope; with `BOOST_LEAF_THROW_EXCEPTION` at once | `C42_refuted_empty_id`, `C43_empty_id` |
| F22 | a handler whose only argument is `error_info const &` does not show the source location, because no slot for it is allocated | `C43_refuted_error_info` |
| F23 | unloading a context for one error destroys what it captured of other errors | `C41_unload` (`ElemUnloaded.captured`) |
| F24 | moving a moved-from `on_error` guard gives a guard not marked as moved: items are attached twice, or what the first move left of them | `C46_refuted_moved_twice` |
| F25 | code that returns failed results through `try_catch` behaves differently in builds with and without exceptions, though it does not throw | `C47_refuted_try_catch` |
| F26 | an exception not carrying an error id, thrown after another error was reported and abandoned, is handled as that error, with its objects | `C48_refuted_no_id` |
| F27 | a handler of `try_handle_some` that reports another error and then returns the one it was called for loses objects of the latter | `C48_refuted_handler` |
| F28 | in a capturing scope, a function passed to `new_error`/`load`/`on_error` that reports an error with an object of the type it returns makes an assertion fail | `C49_refuted_capture` |
| F29 | objects passed to `new_error` before a function are lost if the function reports an error with objects of the same types | `C49_refuted_lost` |
| F30 | after `new_error(f)`, the current error is the one `f` reported last, not the one returned, even if `f` handled it; enclosing `on_error` guards attach their objects to the wrong error | `C49_refuted_current` |
| F31 | an object loaded inside a scope for an error reported outside does not reach the caller, with or without changes made by a handler, if an object of the same type was loaded outside | `C50_refuted_older` |
| F32 | a handler that rethrows the exception it was called for loses the error objects, with the changes it made | `C50_refuted_thrown` |
| F33 | with `CAPTURE=1`, a handler taking `diagnostic_details`, even if not called, changes the current error when its scope propagates an error; which handler then deals with the error depends on `BOOST_LEAF_CFG_DIAGNOSTICS` | `C51_refuted_details` |
| F34 | objects attached by `on_error` do not reach the handler if the function returns an error code of a foreign category in an external result type; with `leaf::result` they do | `C55_refuted_guard` |
| F35 | an error code of a foreign category gets a new error id in every scope, and a second one each time it leaves a `try_handle_some`; handlers and guards in different scopes see different ids for one error | `C55_refuted_identity` |
| F36 | an external result that holds an error code with value 0 makes an assertion fail in `try_handle_some` | `C55_refuted_zero` |
| F37 | asking a captured result for its `error_id` (also `r.load(...)`) does not load the captured objects, although documented; they are lost when the id is returned | `C56_refuted`, `C56_refuted_load`, `C56_refuted_concrete` |
| F38 | a handler of `try_handle_some` that returns the error it was called for, having modified an object of it in place (`load` with a function taking `E &`), loses the object it was given: the function gets a new object, which replaces the original | `C48_refuted_in_place` |
| F39 | an exception that carries no error id is handled as the thread's current error even if that error *has been handled* before: its objects, still stored in enclosing scopes, decide which handler is called and are passed to it; an `on_error` guard around the throwing call (but not around both calls) avoids this | `C57_refuted_handled` |
| F40 | example print_file: the comment of the last handler says "In this program this handler will never be called", but it is called (exit code 6) if the allocation of the buffer throws, e.g. because `ftell` on a directory gives `LONG_MAX` | `PrintFile.C62_refuted_print_file` |
| F41 | handling a captured result (e.g. one received from another thread) of an earlier error inside the scope of an `on_error` guard or `error_monitor`, after an error was reported there, hides that error from the guard or monitor: objects are not attached, `assigned_error_id()` gives another id | `C24_refuted_received`, `C25_refuted_received` |
| F42 | in builds without `std::uncaught_exceptions`, an `on_error` guard (or `error_monitor::check`) in a destructor that runs during unwinding takes the exception in flight for a failure of the code it guards: it generates a new id, and its objects replace those of the error being reported | `C64_refuted_old_build`, `C64_old_guard` |
| F43 | a destructor that runs during unwinding and reports an error, even if it handles it, replaces objects of the error being reported, unless it has slots of its own for all the objects | `C64_refuted_lost` |
| F44 | if a destructor that runs during unwinding reports and handles an error, enclosing `on_error` guards attach their objects to that error, not to the one that leaves their scope | `C64_refuted_guard` |
| F45 | in C++17, a `noexcept` function passed by name to `new_error` or `load` (or a pointer variable to one) is not called: a pointer to it is stored as an error object, without diagnostic; as a handler or on_error item it does not compile (`remove_noexcept` does not look behind references) | `C66_refuted_noexcept` |
| F46 | `static_assert(!std::is_pointer<E>::value)` in `load_slot` (error.hpp:432) looks at the deduced `E`, a reference for variables: a pointer variable is accepted as error object, a pointer temporary is not | `C66_refuted_pointer` |
| F47 | `load` accepts a one-argument function taking its parameter by value: it gets a copy and its effect is lost (`on_error` rejects it) | `C66_refuted_copy` |
| F48 | a handler parameter `error_info const *` or `error_info &` (also `diagnostic_info`, `diagnostic_details`) passes the assertions meant to reject it; in `try_handle_all` the pointer is always null, the handler with the reference is never called | `C66_refuted_info` |
| F49 | memory runs out while `try_handle_some` (or `_all`) unloads a captured result for an outer capturing scope: its handlers get `std::bad_alloc` instead of the captured exception, which is lost | `C67_captured_lost` |
| F50 | no memory for the exception in `try_capture_all`: in its `catch` clauses the program is terminated; called in a `catch` block, with a block that fails without throwing, it captures `std::bad_alloc` | `C67_capture_exception`, `C67_capture_retry` |
| F51 | a function taking `E &`, passed to `on_error`, throws: the program is terminated if an active scope handles `E`; if the object is captured, the exception is silently ignored and the partially modified object captured | `C68_inconsistent`, `C68_swallowed` |
| F52 | a function passed to `on_error` returns a reference to an object whose copy constructor throws, and the copy is captured: the exception is ignored, but the list of captured objects keeps a pointer to the freed node (F16), undefined behaviour | `C70_refuted_reference`, `C70_argument` |
| F53 | documented: initializing a `result<T>` in value state may throw. But with compilers other than clang, the constructor template that takes anything is `noexcept`, and is preferred for variables that are not `const`: an exception (`std::bad_alloc` when a `std::string` is copied, or made from a literal) terminates the program; with several arguments, with all compilers | `C71_refuted_throw`, `C71_refuted_arguments` |
| F54 | documented: initialized with a `std::error_code`, a result is in error state. If `T` can be constructed from `std::error_code` and the argument is not a `const` variable, it is in value state | `C71_refuted_code` |
| F55 | `print_impl` guards against null pointers, but is not used for pointers to non-`const`: printing an error object whose member `value` is a null `char *` is undefined | `C72_refuted_null` |
| F56 | printing a `result<char const *>` whose value is a null pointer is undefined | `C72_refuted_result` |
| F57 | printing an `e_LastError` whose message consists of a line feed only reads memory before the message; if the number has no message, nothing is printed, not even the number | `C74_refuted_short`, `C74_refuted_unknown` |
| F58 | `std::error_code(id)` is not equal to `std::error_code(id).default_error_condition()` (documented nowhere, but so for all other categories) | `C75_refuted_default` |
| F59 | activation guards (and contexts deactivated by hand) depend on the reverse order, which the documentation asks for ("must happen in a LIFO manner") and nothing checks: after guards end in the order they were made, an active context receives no objects, an inactive one does, and the thread refers to the slot of a destroyed context. A guard whose context was deactivated by hand ends a later activation by another guard | `C76_refuted_order`, `C76_refuted_stale` |
| F60 | the documented minimum size of the TLS array (leaf.adoc:5580: number of types in handlers plus one) fails the assertion of tls_array.hpp:76 in every program; one element more is needed, since the current id takes an index and the last element is never used | `C36_refuted_minimum` |
| F61 | with a handler taking `diagnostic_details`, reporting an object that no handler takes can change which handler of an enclosing scope is called: the scope has captured something, so passing the error on makes it the current one | `C77_refuted_capture` |
| F62 | an error handled by the outer one of two nested scopes leaves its objects in scopes further out if only the inner one has slots for them: they are unloaded past the scope that handles the error, and are found later by F39 | `C78_refuted_enclosing` |
| F63 | a handler of `try_handle_some` that returns an error reported earlier passes on the objects its own scope has for it, but not those in scopes nested in it, which pass on objects of the error being handled only | `C78_refuted_returned` |
| F64 | if the next id is the one that was current when two guards were constructed (ids repeat after 2^30 errors), an exception is assigned two ids: the second guard does not see that the first assigned one | `C79_refuted_repeat` |

Further observations: the array TLS backend never uses one element (`C36_capacity`); predicates over an object type also accept a caught exception of that type (`C30_receives`); handler tuples
that are empty compile only in some positions (`C16_compiles_iff`); the header printed by `context::print` has no delimiter before the first object (`C37_context`); `error_result` of a
result in value state converts to a failed result with empty id (`ResultModel`, `.forward`); a `.value` of type pointer to non-const is printed by the overload for references
(detail/print.hpp:60), so a null `char *` is passed to `operator<<` (F55);
`activate_context` on a context that is active but not innermost does not make it innermost, so objects still go to the inner context (last example in `PropActivator`);
the accessors of `result` take addresses with `&`, so a type with its own `operator&` gives the result of that operator (not modelled);
example/lua_callback_exceptions.cpp calls `luaL_error` (which uses `longjmp` unless Lua is compiled as C++) from a handler within `try_catch`, so destructors of LEAF's scope are skipped.

The reference documentation (doc/leaf.adoc) and the code also differ in the following, found by reading: `load` is documented to take functions returning `void`
(the code accepts these in `on_error` only); `context::unload` is documented to accept an empty id (the code asserts that it is not) and to discard objects of other errors (the code leaves them
in the context); `error_info::exception_caught` does not exist; `diagnostic_info` is documented to print only the type of the first object (it prints objects stored in the scope);
`current_error` is documented to return the id last returned by `new_error` (false after a captured result was unloaded or the id was reset: C24, F20, F30).

## Properties and theorems

* **C01 Error ids are unique across all threads** (proved): `C01_ids_unique`, `C01_current_is_own`, `C01_idle_thread`, `C01_every_call`, `C01_history`, `C01_threads`. Ids unique across any interleaving within a window of 2^30 generations, for threads that only generate ids and for threads running arbitrary programs; every call yields one id; a thread's current id is the last one it generated, and empty until it generates one.
* **C02 A fresh error id is always a valid, truthy id** (proved): `C02_ids_valid`, `C02_threads`, `C02_new_error`, `C02_result_error`. Id generators alone (C02_ids_valid), threads running any programs (C02_threads), what new_error returns (C02_new_error), and results made from it.
* **C03 Printed serial numbers identify the error** (proved): `C03_serial_injective`, `C03_serials_distinct`, `C03_collision`.
* **C04 error_id and std::error_code round trip** (proved): `C04_round_trip`, `C04_zero`, `C04_foreign`, `C04_not_an_id`, `C04_like_new_error`, `C04_is_error_id`. Round trip, zero codes, foreign codes, in every consistent thread state. C04_not_an_id: a non-zero code of the LEAF category that holds no id fails the assertion (undefined). C04_like_new_error: importing a foreign code does exactly what new_error with the code does. C04_is_error_id: when is_error_id is true, false, or fails its assertion.
* **C05 No error means a falsy id** (partial): `C05_refuted_current_error`, `C05_refuted_check`, `C05_refuted_result`, `C05_partial`. False as stated: make_error_id(0) is 1, which converts to true; negation proved for all quiet states. C05_partial: the internal id is zero and 1 is never the id of an error within the first 2^30-1.
* **C06 result<T> keeps its state through every move and conversion** (proved): `C06_operations`, `C06_observers`, `C06_value_kept`, `C06_error_kept`, `C06_value_arrives`, `C06_error_arrives`, `C06_captured_arrives`. All histories of allowed operations over any number of results.
* **C07 Objects held by result<T> are destroyed exactly once** (proved): `C07_lifetimes`, `C07_exactly_once`, `C07_self_move`. Self move assignment, outside the claim, is shown to be undefined behaviour.
* **C08 Error-object storage behaves like an optional with a tag** (proved): `C08_lookup`, `C08_lifetimes`, `C08_exactly_once`, `C08_last_loaded`, `C08_misuse`. Includes throwing copy constructors. C08_misuse: the conditions on histories are exact.
* **C09 Error objects go to the innermost active scope that wants them** (partial): `C09_load_partial`, `C09_new_error_partial`, `C09_on_error_partial`, `C09_refuted_nested_capture`. Exact description of where objects go, all consistent states. As stated the claim is false for nested capturing scopes (witness).
* **C10 Leaving a scope restores the thread's bindings** (proved): `C10_bindings_restored`, `C10_nothing_bound`. Pointer-level storage, all well-formed programs.
* **C11 No access to dead error storage** (partial): `C11_no_dead_storage_partial`, `C11_refuted_accumulate`, `C11_refuted_capture_void`. False in the code for accumulation inside a capturing scope and for void try_capture_all (witnesses); proved for all other programs.
* **C12 Error objects nobody wants are discarded without effect** (partial): `C12_unwanted_load_partial`, `C12_unwanted_on_error_partial`, `C12_refuted_deferred`. Storage part holds without restriction; with CAPTURE the function returning the object is called although nobody wants it (witness).
* **C13 Handlers only see objects of the error being handled** (proved): `C13_own_objects`, `C13_fresh_thread`. Invariant over all executions of all well-formed programs, capture included. The lists printed by diagnostics are covered for every non-zero id (an exception with a zero id is outside well-formed programs).
* **C14 Last loaded object wins; guards never overwrite** (proved): `C14_last_wins`, `C14_guard_keeps`, `C14_propagation_keeps`.
* **C15 The first suitable handler is the one called** (proved): `C15_select_some`, `C15_select_all`, `C15_handle_some_result`, `C15_handle_some_exception`, `C15_try_catch`, `C15_handle_all`. Selection for all contents; program level for try_handle_all, try_handle_some and try_catch.
* **C16 Passing handlers in tuples does not change anything** (proved): `C16_same_handler`, `C16_compiles_iff`, `C16_same_handler_some`, `C16_same_slots`. Nested tuples against flat lists; compile-time restriction on empty tuples described by compilesTree.
* **C17 Every handler argument has storage, each type once** (proved): `C17_deduction`, `C17_lookup`.
* **C18 try_handle_all always produces a value** (proved): `C18_always_handled`, `C18_valid`. C18_valid: what the static assertion accepts is what is always suitable.
* **C19 Success passes through untouched** (proved): `C19_handle_some`, `C19_handle_all`, `C19_try_catch`, `C19_capture_all`.
* **C20 An unhandled error keeps its identity and its objects** (proved): `C20_unhandled_result`.
* **C21 An unhandled exception continues unchanged** (proved): `C21_unhandled_exception_some`, `C21_unhandled_exception_try_catch`, `C21_same_exception`.
* **C22 Errors travel through any number of scopes** (partial): `C22_handle_all_partial`, `C22_handle_some_partial`, `C22_try_catch_partial`, `C22_guards_keep`, `C22_objects`, `C22_refuted_try_catch`. Induction over any list of intermediate layers (try_handle_some, try_catch for exceptions, on_error guards, result forwarding). As stated the claim is false for try_catch scopes left by a failed result (witness).
* **C23 A new error from a handler replaces the old one** (proved): `C23_new_error_replaces`, `C15_handle_some_result`, `C15_handle_some_exception`.
* **C24 on_error attaches its objects exactly when its scope fails** (partial): `C24_success`, `C24_failure_partial`, `C24_exception`, `C24_last_reported`, `C24_refuted_reset`, `C24_refuted`, `C24_refuted_received`. All exits of the scope are covered; false as stated when the current id was reset to 0 in the scope (items dropped although an exception is in flight: C24_refuted), and when a captured result of an earlier error was handled in the scope (C24_refuted_received). C24_last_reported holds for all scopes without captured results and capturing scopes.
* **C25 error_monitor reports the right id** (partial): `C25_assigned_partial`, `C25_check_partial`, `C25_refuted`, `C25_refuted_check`, `C25_refuted_received`. False as stated when a leaf::exception thrown in the scope was destroyed uninspected (gives id 1: C25_refuted), and when a captured result of an earlier error was handled in the scope (C25_refuted_received). The partial theorems exclude these.
* **C26 A swallowed LEAF exception does not leave a current error behind** (proved): `C26_destroy`, `C26_others`, `C26_once`, `C26_examined`, `C26_swallowed`, `C26_swallowed_by_user`. Exception objects are modelled apart from Prog, with a ghost number for each throw; an independent spec says which copy is responsible. C26_swallowed_by_user: the same in Prog, for exceptions swallowed in a catch block.
* **C27 Captured errors arrive complete** (partial): `C27_partial`, `C27_block_partial`, `C27_captured_partial`, `C27_received`, `C27_as_loaded`, `C27_refuted_abandoned`, `C27_refuted_nested`. False as stated: objects are lost when the block first reports and abandons another error (C27_refuted_abandoned), or returns a captured result (C27_refuted_nested). Proved: any block whose capturing scope first stored for the failing error; any report through any layers; receiving side in full.
* **C28 A captured exception is rethrown, after its objects** (partial): `C28_thrown`, `C28_returned_partial`, `C28_unloaded`, `C27_received`, `C28_refuted`. Thrown part and rethrow part proved in full; 'no exception otherwise' is false inside a catch block (C28_refuted) and proved when no exception is being handled.
* **C29 Capture lists own their nodes** (partial): `C29_contents_partial`, `C29_ownership_partial`, `C29_exactly_once_partial`, `C29_refuted_throw`, `C29_unload_capture`. False if the constructor of a captured object throws: the list keeps a pointer to the freed node (C29_refuted_throw, for every list). Proved for all histories without that; an unloaded dynamic_allocator must not be used again (C29_unload_capture).
* **C30 Predicates match exactly the listed values** (proved): `C30_match`, `C30_match_value`, `C30_match_member`, `C30_catch`, `C30_if_not`, `C30_receives`. Equality and projection functions are arbitrary. A predicate over an object type also accepts a caught exception that casts to that type (Sees).
* **C31 Short-circuit macros forward the error unchanged** (proved): `C31_forward`, `C31_first_failure`, `C31_first_exception`, `C31_all_succeed`.
* **C32 exception_to_result converts every exception** (proved): `C32_returned`, `C32_thrown`, `C32_no_exception`. Availability of the loaded objects is stated for a thread state that does not hold objects under the fresh id already (C01).
* **C33 to_variant reports exactly the available objects** (proved): `C33_value`, `C33_failure`.
* **C34 Accumulation folds over all contributions** (proved): `C34_accumulation`. Where accumulation is undefined (C11_refuted_accumulate) is excluded by hypothesis.
* **C35 Threads do not interfere** (proved): `C35_step`, `C35_as_if_alone`, `C35_independent`. Interleaving machine over shared memory and counter; any number of threads, any schedule at the granularity of the model's memory operations. Ids: one-to-one renaming, for code that does not inspect id values, while fewer than 2^30 ids were generated.
* **C36 The TLS array backend implements per-type storage** (proved): `C36_uint`, `C36_variables`, `C36_capacity`, `C36_refuted_minimum`. SIZE-1-START variables fit: the last array element is never used (C36_capacity); the current id is one of them, so the documented minimum size fails (C36_refuted_minimum, F60). Variables are initialised before first write, reads may come earlier.
* **C37 Diagnostics print exactly this error's objects** (proved): `C37_diagnostic_info`, `C37_diagnostic_details`, `C37_context`, `C37_result`, `C37_entries`, `C37_serial`. The stream is a string; print classes give an arbitrary text or none. Serial numbers are printed signed, so C37_serial covers ids below 2^31.
* **C38 Type names in diagnostics are exact** (proved): `C38_exact`, `C38_only`. For msvc the announced kind (struct/class/enum) is not part of the name; unannounced type names that begin with such a keyword do not exist in that format (Admits).
* **C39 Moving an inactive context moves its objects** (partial): `C39_move_partial`, `C39_refuted_nested`, `C39_refuted_unloaded`. Proved for contexts that were not active inside a scope with a slot for one of their types and whose captured objects were not unloaded; the two remaining cases are refuted by witnesses (assertion x.prev_ == nullptr in slot(slot &&); dangling last_).
* **C40 value() on a failed result reports that error** (proved): `C40_value_plain`, `C40_value_captured`, `C40_value_swallowed`, `C40_value`. Error states in the program model, value state in the result model.
* **C41 User-managed contexts: activation is a stack, contents are private** (partial): `C41_contexts_partial`, `C41_inactive_unchanged`, `C41_bindings_restored`, `C41_unload`, `C41_handle`, `C41_refuted_reactivate`. Refinement of all allowed sequences of operations; effect of unloading and handling. Missing: activating again a context that captured objects, for which the claim is false (witness).
* **C42 throw_exception throws what it is given, with the right id and objects** (proved): `C42_compiles`, `C42_new_error`, `C42_given_error`, `C42_empty_id`, `C42_reports`, `C42_refuted_empty_id`. An exception with an empty id, thrown by passing an empty error_id, makes LEAF fail an assertion when it leaves a scope (C42_refuted_empty_id); programs doing so are excluded from the whole-program theorems.
* **C43 The macros record the source location, and handlers are shown it** (proved): `C43_new_error`, `C43_throw_exception`, `C43_empty_id`, `C43_handled`, `C43_refuted_error_info`. The end-to-end theorem is for try_handle_all, as C22.
* **C44 result::load attaches objects to that result's error** (proved): `C44_failed`, `C44_value`. Uses that objects are delivered as in C09.
* **C45 Threads may exchange work and captured errors** (proved): `C45_step`, `C45_as_if_alone`, `C45_between`, `C45_ids`, `C45_crosses`. Scripts: lists of events (an operation of a thread, or a program given to a thread that is done), all quantified over. Condition of C45_crosses: the current error of the capturing thread is none or one generated by LEAF in this process, and less than 2^30 ids have been generated.
* **C46 on_error guards may be moved** (partial): `C46_moved_partial`, `C46_block`, `C46_caught`, `C46_caught_inside`, `C46_refuted_moved_twice`. Proved for all histories in which no guard is moved that was moved from already; otherwise the claim is false (witness): the constructor does not take over moved_.
* **C47 Building without exceptions does not change programs that do not use them** (partial): `C47_same_partial`, `C47_no_exception`, `C47_refuted_try_catch`. Equality of the two interpreters on all exception-free programs without try_catch. With try_catch the claim is false (witness): in builds without exceptions it is a plain call, in builds with exceptions it destroys the objects of failed results.
* **C48 LEAF implements ideal error handling** (proved): `start_of_earlier`, `C48_ideal`, `C48_unique`, `C48_independent`, `C48_threads`, `C48_refuted_no_id`, `C48_refuted_handler`, `C48_refuted_in_place`, `C48_jobs`, `C48_jobs_next`. Refinement: every run of the model is a run of the ideal semantics (C48_ideal), which is deterministic if no handler takes diagnostic listings (C48_unique); hence independence of the surroundings (C48_independent). C48_threads: the same in the machine with several threads; C48_jobs: in threads that are given one program after another, and C48_jobs_next: its condition is kept from one to the next. Restrictions of the language are part of the statement; the C48_refuted theorems are witnesses that the first three are needed, C22_refuted_try_catch that the fourth is. try_capture_all is not in the language (see C27, C28). Functions called by on_error and load are represented by their results. Start: the ids the thread knows are none of those it is going to generate; start_of_earlier: this is so if they were generated in this process, by whichever thread.
* **C49 Functions passed to new_error, load and on_error may use LEAF** (partial): `C49_in_order_partial`, `C49_new_error_partial`, `C49_on_error_partial`, `C49_refuted_lost`, `C49_refuted_current`, `C49_refuted_capture`. Proved: no undefined behaviour, the functions are called exactly when needed, items take effect in order, the object returned by a last function is available; excluding functions that make a capturing scope capture an object of the type they return. False in the code (witnesses): in that case an assertion fails; objects passed before the function may be lost; the current error may be another one.
* **C50 Changes handlers make to error objects are preserved** (partial): `C50_handled`, `C50_preserved_partial`, `C50_no_change`, `C50_refuted_older`, `C50_refuted_thrown`. Proved for both ways the block can fail: the first suitable handler's changes, and nothing else, are in the scope when it returns (C50_handled); if it returns the same error they arrive in the enclosing scopes, unless these have an object of the type for this error already (C50_preserved_partial). False in the code otherwise (witnesses): the older object wins; a handler that rethrows loses the objects. C50_no_change: without changes the model is that of Prog.
* **C51 Build options do not change programs that do not use them** (proved): `C51_same`, `C51_handlers`, `C51_functions`, `evalB_true`, `C51_refuted_details`. Comparison of eval (with diagnostics) and evalB on pointer-level storage; C51_refuted_details shows that the exclusion of capturing scopes is needed (F33).
* **C52 Programs behave the same with the array based thread-local storage** (proved): `C52_array`. End-to-end: any defined execution on thread_local variables is reproduced on the TLS array. The current id is not moved to the array here (C36_uint covers it).
* **C53 Activation guards nest** (proved): `C53_guards`, `C53_guards_allowed`, `C53_already_deactivated`. Guards are block structured; early exit is a shorter body.
* **C54 Calling a function in another thread is like calling it directly** (proved): `C54_captured`, `C54_received`, `C54_received_some`, `C54_received_catch`, `C54_remote`, `C54_remote_some`, `C54_remote_catch`, `C54_refuted`. C54_remote, C54_remote_some, C54_remote_catch: one ideal run of try_handle_all, try_handle_some, or try_catch and value(), around the function, split between the threads. C54_captured and the theorems C54_received...: the two halves, in any thread state. The condition that a failing function reported one error only is needed (C54_refuted, finding F5). Handlers of try_handle_some that return the error they were called for are not covered by C54_remote_some.
* **C55 External result types** (proved): `C55_safe`, `C55_leaf`, `C55_ideal`, `C55_passes`, `C55_handled_all`, `C55_handled_some`, `C55_refuted_guard`, `C55_refuted_identity`, `C55_refuted_zero`. For codes of foreign categories, what does not hold as with leaf::result is stated in C55_refuted_guard and C55_refuted_identity; results holding a zero code are excluded (C55_refuted_zero). C55_ideal leaves out error monitors and handlers that return the error they were called for.
* **C56 The error id of a captured result** (partial): `C56_error_id_partial`, `C56_unload_first`, `C56_refuted`, `C56_refuted_load`, `C56_refuted_concrete`. Proved: the id returned, for all results; the full claim for results that hold no captured objects; r.unload() before r.load(items...) gives the documented behaviour. Refuted: the conversion does not load captured objects, so return r.load(items...) loses them (F37).
* **C57 Exceptions thrown by code that does not use the library** (partial): `C57_handle_all_partial`, `C57_handle_some_partial`, `C57_try_catch_partial`, `C57_refuted_handled`. Proved for all layers, handler lists, exceptions and states in which no object of the thread's current error is stored in an active scope (not needed if the innermost layer that is a scope or a guard is a guard). Missing: the remaining states, where the claim is false (C57_refuted_handled). If no guard is on the way, the id seen is the current one of the thread (foreignId).
* **C58 What the accessors of a result refer to** (proved): `C58_value`, `C58_reference`, `C58_reference_moved`, `C58_error`, `C58_void`. All histories of operations on results. value() of a result with captured objects also loads these (C40).
* **C59 Order of error ids** (proved): `C59_order`, `C59_chronological`, `C59_limit`. Found missing by a mutant of operator< that no theorem noticed.
* **C60 on_error when memory runs out** (partial): `C60_items_partial`, `C60_guard_partial`, `C60_enough`. All items, failing allocations, states, bodies. Missing: functions taking E &, when the innermost capturing scope captured objects of another error first (finding F4: storage in use is destroyed, whatever the memory). new_error, load and the rest: C67.
* **C61 Error objects in scopes are destroyed exactly once** (proved): `C61_accounted`, `C61_thread`. All programs, all states: the run that records constructions and destructions does the same as the run on the pointer-level storage, and at its end every object was destroyed once or is held by one slot of an active scope. C61_thread: nothing is left in a new thread, for all programs without undefined behaviour by C11. What a captured result holds afterwards is C07 and C29.
* **C62 The example programs do what their comments say** (proved): `PrintFile.C62_print_file`, `PrintFile.C62_print_file_system`, `PrintFile.C62_print_file_exceptions`, `ErrorTrace.C62_error_trace`, `ErrorLog.C62_error_log`, `ErrorLog.C62_error_log_disabled`, `PrintHalf.C62_print_half`, `LuaCallback.C62_lua_callback`, `ExceptionToResult.C62_exception_to_result`, `Tasks.C62_tasks`, `Tasks.C62_tasks_throwing`, `PrintFile.C62_refuted_print_file`. One theorem per program. The condition that the buffer can be allocated is needed (C62_refuted_print_file, finding F40).
* **C63 No thread waits for another one** (proved): `C63_finishes`, `C63_all_finish`, `C63_as_if_alone`. Programs are finite trees of operations (C++ code that loops for ever by itself is not a program of the model); the atomic counter and thread-local accesses are single steps, as the C++ memory model makes them appear.
* **C64 LEAF in destructors that run during stack unwinding** (partial): `C64_safe`, `C64_new_build`, `C64_old_build`, `C64_builds_partial`, `C64_guard`, `C64_new_guard`, `C64_old_guard`, `C64_new_monitor`, `C64_old_monitor`, `C64_monitor_unwinding`, `C64_keeps_partial`, `C64_handle_all`, `C64_same_handler_partial`, `C64_refuted_old_build`, `C64_refuted_lost`, `C64_refuted_guard`. Safety for all programs and both builds. The error is unaffected by destructors that have slots for all objects they report and use no captured results (induction over the program); guards attach to the last error reported in their scope. The full claim is false (three witnesses): guards in destructors in builds without std::uncaught_exceptions, destructors without slots of their own, guards around destructors that report errors.
* **C65 The compile-time computations on types are exact** (proved): `C65_append`, `C65_unique`, `C65_remove_if`, `C65_first_rest`, `C65_sequence`, `C65_type_index`, `C65_context`, `C65_find`. Templates as functions on lists; the slots of the model used everywhere else (deduce, findCell) are those the templates compute.
* **C66 Functions, error objects and handler parameters are told apart** (partial): `C66_handlers_partial`, `C66_items_partial`, `C66_objects`, `C66_pointers_partial`, `C66_object_pointers`, `C66_params_partial`, `C66_refuted_noexcept`, `C66_refuted_pointer`, `C66_refuted_copy`, `C66_refuted_info`. Proved for the callables in Supported (exactly those for which the traits work). The full statement is false: noexcept functions by name in C++17, pointer variables as error objects, functions taking a copy, error_info by pointer or non-const reference (C66_refuted_*).
* **C67 Running out of memory** (partial): `C67_enough`, `C67_unused`, `C67_disabled`, `C67_safe_partial`, `C67_guard`, `C67_unload`, `C67_load`, `C67_new_error`, `C67_import`, `C67_propagate`, `C67_propagate_captured`, `C67_capture_exception`, `C67_captured_lost`, `C67_capture_retry`. All programs, configurations, states, and patterns of failing allocations. Missing in C67_safe_partial: functions taking E & in capturing scopes (undefined behaviour even with enough memory, finding F4). C67_captured_lost, C67_capture_retry: what happens to captured exceptions (F49, F50).
* **C68 Functions passed to new_error, load and on_error that throw** (proved): `C68_new_error_same`, `C68_on_error_same`, `C68_argument`, `C68_arguments`, `C68_swallowed`, `C68_guard`, `C68_inconsistent`. Proved as stated, with functions that throw (FnThrowModel). C68_argument and C68_arguments: exactly when the program is terminated; C68_swallowed and C68_inconsistent: the case where the exception is ignored, F51.
* **C69 Which predicates are called, and predicates that throw** (proved): `C69_called`, `C69_order`, `C69_terminate`, `C69_last`, `C69_chosen`, `C69_subject`, `C69_all`, `C69_same`, `C69_pack`. Handler selection with predicates that may throw and a record of calls (CheckModel); C69_same: the selection of Handlers if none throws.
* **C70 Error objects whose constructors throw** (partial): `C70_same`, `C70_same_new_error`, `C70_otherwise`, `C70_ignored`, `C70_argument`, `C70_arguments_partial`, `C70_guard`, `C70_unload`, `C70_handler`, `C70_refuted_reference`. The claim that nothing is undefined is false: on_error with a function returning a reference to an object whose copy constructor throws, captured, leaves a dangling pointer (C70_refuted_reference; C70_argument says exactly when). All else is proved; C70_arguments_partial excludes only such functions from on_error.
* **C71 What a result is initialized with, and values whose constructors throw** (partial): `C71_value`, `C71_error_id`, `C71_code_partial`, `C71_enum`, `C71_result`, `C71_other`, `C71_reaches`, `C71_reaches_partial`, `C71_sequences`, `C71_exactly_once`, `C71_refuted_throw`, `C71_refuted_arguments`, `C71_refuted_code`. Two parts of the claim are false: error codes when T can be constructed from one (C71_refuted_code), and exceptions reaching the caller with compilers other than clang or with several arguments (C71_refuted_throw, C71_refuted_arguments). C71_reaches says exactly which exceptions reach the caller. All else is proved.
* **C72 How an object is printed** (partial): `C72_unique`, `C72_text_partial`, `C72_same_partial`, `C72_result_value`, `C72_refuted_null`, `C72_refuted_result`. False for null pointers of type char * (C72_refuted_null) and for results whose value is a null pointer to characters (C72_refuted_result); all else is proved, for all types and objects.
* **C73 Error objects are handled in constant time, independent of call stack depth** (proved): `C73_same`, `C73_program`, `C73_new_error`, `C73_load`, `C73_scope`, `C73_layers`, `C73_constant`, `C73_calls`, `C73_nested`. Accesses counted over every run of the interpreter's operations in every reachable thread state; upper bounds for all programs of the cost table, a lower bound for nested scopes that have a slot of the type.
* **C74 How system errors are printed** (partial): `C74_message_partial`, `C74_print_partial`, `C74_refuted_short`, `C74_refuted_unknown`, `C74_errno`, `C74_errno_readable`. Full claim false for messages consisting of one line feed (C74_refuted_short) and for numbers without message (C74_refuted_unknown); proved for all others. e_errno: proved.
* **C75 LEAF's error codes and conditions** (proved): `C75_iff`, `C75_standard`, `C75_refuted_default`, `C75_leaf_condition`, `C75_match`, `C75_message`. All ids, conditions and categories. C75_refuted_default: the code does not equal its own default condition.
* **C76 Activation guards may be moved** (proved): `C76_moved`, `C76_responsible`, `C76_end`, `C76_allowed`, `C76_refuted_order`, `C76_refuted_stale`. Guards are objects in a pool; contexts at pointer level (ContextModel). C76_moved: the program does what guardsMeaning says, including undefined behaviour. The two refuted theorems show what happens if guards end in another order, and if a context is deactivated by hand under a guard (finding F59).
* **C77 Error objects that no handler takes make no difference** (proved): `C77_same`, `C77_calls`, `C77_agree`, `C77_functions`, `C77_no_functions`, `C77_refuted_capture`. For programs that capture nothing. Functions returning an object stay (with capturing enabled they are called although nobody takes the object, C12_refuted_deferred). C77_refuted_capture: the hypothesis on capturing is needed.
* **C78 Handlers may be given in one list or in nested scopes** (proved): `C78_all`, `C78_some`, `C78_catch`, `C78_chain_all`, `C78_chain_some`, `C78_chain_catch`, `C78_refuted_enclosing`, `C78_refuted_returned`. Nested scopes and the joined list do the same for all blocks: simulation of the block on two stacks of scopes, then calculation of selection and unloading (order of unloading does not matter); C78_chain_*: any number of scopes, by induction. Handlers of the inner scopes return values; positions of handlers in their lists are not compared. The two refuted theorems show that the condition on enclosing scopes and the condition on returned errors are needed.
* **C79 Refactoring does not change programs** (proved): `C79_refactor`, `C79_guards`, `C79_guard_empty`, `C79_refuted_repeat`, `C79_refuted_empty`. Equality of the two programs as functions of the state, for every store. The condition of C79_guards (the next id is not the current one) is needed: C79_refuted_repeat, finding F64. C79_refuted_empty is the last sentence of the statement.

## Axioms of each theorem

As printed by `#print axioms`.

* none: C03_collision, C29_unload_capture, C75_message.
* propext: C01_current_is_own, C01_idle_thread, C16_same_slots, C21_same_exception, C22_guards_keep, C22_objects, C26_others, C36_uint, C66_handlers_partial, C66_objects, C66_object_pointers, C66_params_partial, C66_refuted_noexcept, C66_refuted_pointer, C66_refuted_copy, C66_refuted_info, C69_last, C71_value, C71_error_id, C71_code_partial, C71_enum, C71_result, C71_other, C71_reaches, C71_refuted_code, C72_unique, C72_result_value, C72_refuted_null, C72_refuted_result, C74_refuted_short, C74_refuted_unknown, C75_iff, C75_refuted_default, C75_leaf_condition.
* propext, Quot.sound: C01_ids_unique, C01_every_call, C04_zero, C04_not_an_id, C05_refuted_current_error, C05_refuted_check, C05_refuted_result, C05_partial, C06_value_kept, C07_self_move, C08_lookup, C08_lifetimes, C08_exactly_once, C08_last_loaded, C08_misuse, C09_refuted_nested_capture, C10_nothing_bound, C11_refuted_accumulate, C11_refuted_capture_void, C12_refuted_deferred, C16_same_handler, C16_compiles_iff, C16_same_handler_some, C18_valid, C22_refuted_try_catch, C24_refuted, C24_refuted_received, C25_refuted, C25_refuted_check, C25_refuted_received, C26_destroy, C26_once, C26_examined, C26_swallowed, C26_swallowed_by_user, C27_refuted_abandoned, C27_refuted_nested, C28_refuted, C30_match, C30_match_value, C30_match_member, C30_catch, C30_if_not, C30_receives, C31_first_failure, C31_first_exception, C31_all_succeed, C32_returned, C32_no_exception, C37_context, C37_entries, C37_serial, C39_refuted_nested, C39_refuted_unloaded, C41_refuted_reactivate, C42_compiles, C42_empty_id, C42_reports, C42_refuted_empty_id, C43_empty_id, C43_refuted_error_info, C44_value, C46_moved_partial, C46_block, C46_caught, C46_caught_inside, C46_refuted_moved_twice, C47_same_partial, C47_no_exception, C47_refuted_try_catch, C48_unique, C48_refuted_no_id, C48_refuted_handler, C48_refuted_in_place, C49_refuted_lost, C49_refuted_current, C49_refuted_capture, C50_no_change, C50_refuted_older, C50_refuted_thrown, evalB_true, C51_refuted_details, C53_guards, C53_already_deactivated, C54_refuted, C55_refuted_guard, C55_refuted_identity, C55_refuted_zero, C56_error_id_partial, C56_refuted, C56_refuted_concrete, C57_refuted_handled, C59_limit, C60_enough, C61_accounted, PrintFile.C62_refuted_print_file, C64_new_build, C64_old_build, C64_builds_partial, C64_new_guard, C64_new_monitor, C64_refuted_old_build, C64_refuted_lost, C64_refuted_guard, C65_append, C65_remove_if, C65_first_rest, C65_sequence, C65_context, C65_find, C66_items_partial, C66_pointers_partial, C67_enough, C67_unused, C67_disabled, C67_guard, C67_unload, C67_captured_lost, C67_capture_retry, C68_on_error_same, C68_guard, C68_inconsistent, C69_subject, C69_all, C69_same, C70_same, C70_same_new_error, C70_guard, C70_refuted_reference, C71_reaches_partial, C71_refuted_throw, C71_refuted_arguments, C72_text_partial, C72_same_partial, C73_same, C73_nested, C74_message_partial, C74_print_partial, C74_errno, C74_errno_readable, C75_standard, C75_match, C76_refuted_order, C76_refuted_stale, C77_refuted_capture, C78_refuted_enclosing, C78_refuted_returned, C79_refactor, C79_guard_empty, C79_refuted_repeat, C79_refuted_empty.
* propext, Classical.choice, Quot.sound: C01_history, C01_threads, C02_ids_valid, C02_threads, C02_new_error, C02_result_error, C03_serial_injective, C03_serials_distinct, C04_round_trip, C04_foreign, C04_like_new_error, C04_is_error_id, C06_operations, C06_observers, C06_error_kept, C06_value_arrives, C06_error_arrives, C06_captured_arrives, C07_lifetimes, C07_exactly_once, C09_load_partial, C09_new_error_partial, C09_on_error_partial, C10_bindings_restored, C11_no_dead_storage_partial, C12_unwanted_load_partial, C12_unwanted_on_error_partial, C13_own_objects, C13_fresh_thread, C14_last_wins, C14_guard_keeps, C14_propagation_keeps, C15_select_some, C15_select_all, C15_handle_some_result, C15_handle_some_exception, C15_try_catch, C15_handle_all, C17_deduction, C17_lookup, C18_always_handled, C19_handle_some, C19_handle_all, C19_try_catch, C19_capture_all, C20_unhandled_result, C21_unhandled_exception_some, C21_unhandled_exception_try_catch, C22_handle_all_partial, C22_handle_some_partial, C22_try_catch_partial, C23_new_error_replaces, C15_handle_some_result, C15_handle_some_exception, C24_success, C24_failure_partial, C24_exception, C24_last_reported, C24_refuted_reset, C25_assigned_partial, C25_check_partial, C27_partial, C27_block_partial, C27_captured_partial, C27_received, C27_as_loaded, C28_thrown, C28_returned_partial, C28_unloaded, C27_received, C29_contents_partial, C29_ownership_partial, C29_exactly_once_partial, C29_refuted_throw, C31_forward, C32_thrown, C33_value, C33_failure, C34_accumulation, C35_step, C35_as_if_alone, C35_independent, C36_variables, C36_capacity, C36_refuted_minimum, C37_diagnostic_info, C37_diagnostic_details, C37_result, C38_exact, C38_only, C39_move_partial, C40_value_plain, C40_value_captured, C40_value_swallowed, C40_value, C41_contexts_partial, C41_inactive_unchanged, C41_bindings_restored, C41_unload, C41_handle, C42_new_error, C42_given_error, C43_new_error, C43_throw_exception, C43_handled, C44_failed, C45_step, C45_as_if_alone, C45_between, C45_ids, C45_crosses, start_of_earlier, C48_ideal, C48_independent, C48_threads, C48_jobs, C48_jobs_next, C49_in_order_partial, C49_new_error_partial, C49_on_error_partial, C50_handled, C50_preserved_partial, C51_same, C51_handlers, C51_functions, C52_array, C53_guards_allowed, C54_captured, C54_received, C54_received_some, C54_received_catch, C54_remote, C54_remote_some, C54_remote_catch, C55_safe, C55_leaf, C55_ideal, C55_passes, C55_handled_all, C55_handled_some, C56_unload_first, C56_refuted_load, C57_handle_all_partial, C57_handle_some_partial, C57_try_catch_partial, C58_value, C58_reference, C58_reference_moved, C58_error, C58_void, C59_order, C59_chronological, C60_items_partial, C60_guard_partial, C61_thread, PrintFile.C62_print_file, PrintFile.C62_print_file_system, PrintFile.C62_print_file_exceptions, ErrorTrace.C62_error_trace, ErrorLog.C62_error_log, ErrorLog.C62_error_log_disabled, PrintHalf.C62_print_half, LuaCallback.C62_lua_callback, ExceptionToResult.C62_exception_to_result, Tasks.C62_tasks, Tasks.C62_tasks_throwing, C63_finishes, C63_all_finish, C63_as_if_alone, C64_safe, C64_guard, C64_old_guard, C64_old_monitor, C64_monitor_unwinding, C64_keeps_partial, C64_handle_all, C64_same_handler_partial, C65_unique, C65_type_index, C67_safe_partial, C67_load, C67_new_error, C67_import, C67_propagate, C67_propagate_captured, C67_capture_exception, C68_new_error_same, C68_argument, C68_arguments, C68_swallowed, C69_called, C69_order, C69_terminate, C69_chosen, C69_pack, C70_otherwise, C70_ignored, C70_argument, C70_arguments_partial, C70_unload, C70_handler, C71_sequences, C71_exactly_once, C73_program, C73_new_error, C73_load, C73_scope, C73_layers, C73_constant, C73_calls, C76_moved, C76_responsible, C76_end, C76_allowed, C77_same, C77_calls, C77_agree, C77_functions, C77_no_functions, C78_all, C78_some, C78_catch, C78_chain_all, C78_chain_some, C78_chain_catch, C79_guards.
