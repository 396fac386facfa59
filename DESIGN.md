# Formal model of tiny-optional: design

Target: `/repo/include/tiny/optional.h` (plus `/repo/include/tiny_optional.natvis` for C43).
Everything is Lean 4.33 in `/verif/lean`. Line numbers below refer to `optional.h`.

## 1. Trusted base

* Lean's kernel, and the three standard axioms `propext`, `Classical.choice`, `Quot.sound`.
  `Verif/Axioms.lean` prints the axioms of the theorems listed in the manifest.
  No own axioms, no `sorry`, no `native_decide`, no `bv_decide`.
* That the model transcribes the C++ correctly. Every definition cites the lines it transcribes and
  names its simplifications. As a check by samples the model is evaluated on the repository's own tests: the
  compile-time expectations in `RepoTests.lean`; ConstructionTests, SpecialMonadicTests, ComparisonTests and the
  overload resolution part of CompilationErrorTests in `RepoTestsRuntime.lean`; Exercises.h symbolically (C65).
  No deviation was found on the configurations that the repository builds.
* The reading of the C++ standard in the *specification* files (`Verif/Spec/*`): what `std::optional`
  must do, what usual arithmetic conversions do, what an IEEE-754 NaN is, how structs are laid out.

### Modelled

| Code | Lean |
|---|---|
| storage, lifetimes, `SeparateFlagStorage`, `InplaceStorage` (516-544) | `Model/Machine.lean` |
| the three decompositions (572-646) | `Model/Flag.lean` |
| the flag manipulators: separate, memcpy, assignment, `sentinel_flag_manipulator`, custom (230-247, 680-850) | `Model/Flag.lean` |
| the functions of the flag type that the manipulators execute, and the `static_assert`s on them (230-247, 714-726, 818-849, 925-943) | `Model/FlagOps.lean` (elsewhere the flag of the assignment manipulator can be copied without running user code) |
| `StorageBase` (916-1148), all functions, noexcept specifications and asserts | `Model/Storage.lean` |
| move/copy construction/assignment bases (1168-1382), `TinyOptionalImpl` (1391-1838), free `swap`, `make_optional` | `Model/Optional.lean` |
| comparison operators and `<=>` (2398-2764), `std::hash` (2778-2805) | `Model/Compare.lean` |
| sentinel bit patterns (419-506) | `Model/Bits.lean` |
| `IsIntegralInRange` (354-380), `ConvertSentinelToFlagType` (775-812), integer conversions in `sentinel_flag_manipulator` (230-247) | `Model/Integral.lean` |
| `SentinelForExploitingUnusedBitsIsKnown`, `HasCustomInplaceFlagManipulator`, `SelectDecomposition`, `optional`, `optional_sentinel_via_type`, `optional_inplace`, `optional_aip` (864-898, 1874-2384) | `Model/Select.lean`; checked against all compile-time expectations of the repository's tests in `RepoTests.lean` |
| type sizes, alignments, member offsets, value representation | `Spec/Layout.lean` (ABI rule), `Model/Instance.lean` (`Sem`: meaning of types; joins the result of the selection with the run-time configuration) |
| translation units: which specialisations of `optional_flag_manipulator` precede which uses; completeness of types | `Model/Units.lean` |
| which special members exist and which are trivial (1168-1382, 1441-1446) | `Model/SpecialMembers.lean`; language rules in `Spec/SpecialMembers.lean`, `Spec/Trivial.lean` |
| version/namespace macros (55-130) | `Model/Version.lean` |
| all preprocessor directives of `optional.h` and `optional_flag_manipulator_fwd.h`, with the text between them cut into pieces | `Model/Preprocessor.lean`; the preprocessor itself in `Spec/Preprocessor.lean` |
| natvis `IsEmpty` intrinsics | `Model/Natvis.lean` |
| the choice among the comparison operators (2398-2764, 88-98) | `Model/Overload.lean`; language rules in `Spec/Overload.lean` |
| the choice among constructors and assignment operators (1400-1530, 2195-2245) | `Model/Assign.lean` |
| the choice among the `make_optional` overloads and class template argument deduction (2274-2308) | `Model/Make.lean` |
| the partial specialisations of `std::hash` (308-325, 2778-2805) | `Model/Hash.lean` |
| overloads that differ in `const`, `&`, `&&`; requirements on the results of functions (1554-1653, 1682-1838, 2250-2270) | `Model/Quals.lean` |
| `const` and `volatile` payloads and flags: types of the storage, references, the read of the flag (510-645, 680-850, 883-889, 917-1148) | `Model/Qualified.lean` (C80) |
| `constexpr` specifiers and calls of all functions (233-2804), initialisation of static objects | `Model/Constexpr.lean` (C81) |
| Placement of `mStorage` (1147) and its bytes (516-544) in one address space | `Model/FlatMemory.lean` (C82) |
| the conditional expressions in `value_or` and `or_else` (1640, 1651-1652, 1825, 1835, 2258, 2268) | `Model/Conditional.lean`; the language rules in `Spec/Conditional.lean` |
| the expressions of the comparison operators if the payloads compare to something else than `bool` (2437-2694) | `Model/ResultType.lean`; the language rules for `&&`, `||`, `?:` with operands of class type in `Spec/ResultType.lean` |
| the overloads of the `in_place_t` constructors and of `emplace`, perfect forwarding (1455-1470, 1532-1553, 962-975, 1049-1072) | `Model/InPlace.lean` |
| the choice between the free `swap` (1842-1855) and `std::swap` | `Model/FreeSwap.lean` |
| the examples of the README for sentinels, member flags, custom flag manipulators (README:79-90, 196-209, 337-395, 509-530, 569-656) | `Model/Readme.lean`; what the README says about the values in `Spec/Readme.lean`. A flag in a member is represented by a value of the payload type of which only that member matters |
| the exception specifications of all functions of the interface (955-2803) | `Model/ExceptSpec.lean`; those of `std::optional` in `Spec/ExceptSpec.lean`. Assumed of payloads: trivial functions do not have an explicit `noexcept(false)`, destructors are `noexcept` |
| every expression that takes an address of a payload or flag, or constructs one (240, 733, 746, 837, 840, 1062, 1067, 1096, 1101, 1564, 1570) | `Model/Address.lean`; the language rules in `Spec/Address.lean` |
| optionals as payloads of optionals; programs of calls run by user code | `Model/Nested.lean` |
| `is_tiny_optional_v` (250-269), class member lookup | `Model/Trait.lean` |
| the library functions with user code that calls the library again | `Model/Reentrant.lean`; specification in `Spec/Reentrant.lean` |
| the same functions in single memory accesses, several threads, `and_then`/`transform` of const optionals (1694-1704, 1720-1730, 1756-1773, 1796-1814) | `Model/Steps.lean`, `Model/Threads.lean`; with optionals that are handed over: `Model/Handover.lean`; with weak memory: `Model/Weak.lean` |
| the same functions with flag manipulators that are arbitrary code | `Model/Any.lean`; their contract in `Spec/Manipulator.lean` |

### Not modelled

* Overload resolution in general. Modelled are the decomposition selection, the special members, the comparison
  operators (C51), the constructors and assignments with one argument (C52), the free `swap` (C53),
  `make_optional` (C54), the specialisations of `std::hash` (C55), the qualified overloads of accessors (C56), and `in_place`/`emplace` (C57). The run-time operations (`Op`) name the function that is called.
* `[[nodiscard]]`, pragmas about warnings. Of the preprocessor (C72): `#` and variadic macros do not
  occur; an identifier made by `##` is not a macro itself; `#if` compares a macro with a number, nothing else.
  The macros that the included standard headers define are there from the beginning.
* User code that uses an optional whose payload is just being constructed or destroyed (but see C50 and C70). All other re-entrancy
  is covered by C62, optionals as payloads of optionals by C59. Everywhere else user
  code does not use optionals. User code is an arbitrary deterministic function of its arguments and a global user state `G`,
  with an optional exception. Payload destructors are assumed noexcept (except in C62, C70 and C77). `is_empty`, `init_empty_flag`,
  `invalidate_empty_flag` of custom manipulators are assumed not to touch `G`; `init_empty_flag` is assumed
  to create one flag object with a fixed value (except in C64, where `is_empty` may read `G` and the effect of the other two is arbitrary).
* Atomics (weak memory: C89), user code that communicates between threads during calls of the library (threads as such: C61, communication between calls: C88). `volatile` beyond the qualifiers of types and the read of the flag (C80). Strict formalities of C++ lifetimes beyond "object alive / not alive" - in particular
  the library's own acknowledged UB (applying a member pointer to a payload that does not exist yet) is treated
  as address arithmetic.
* Template instantiation itself: a configuration (decomposition + manipulator) is a Lean value.

## 2. The machine

`World V G` = memory `Id -> Option Storage`, counter for object ids, event log, user state `G`.
`Storage` = bytes (`none` = indeterminate) + the live payload object (if any) + the live flag object (if any).
`M a = World -> Res a x World` with `Res` = `ok | throw | abort` and `abort` = assertion failure | `std::terminate` | UB.
`Ty V G` = storage configuration `Config V` + payload operations `Ops V G`. `V` and `G` are arbitrary types.
UB outcomes: access to a missing optional, to a dead payload or flag, construction over a live object,
destroying a dead object, reading an indeterminate byte or a bool byte other than 0/1, out-of-bounds.

A configuration is *well formed* when the manipulator fits the decomposition, its own empty value is recognised as
empty, the sentinel fits, and the bytes of the flag member are those of the payload's member.
`Storable cfg v` = v is not reserved by cfg.

The specification world (`Spec/StdOptional.lean`) maps variables to `Option V`, has its own result type with `undef`
for violated preconditions, and records every value any payload ever takes, so that "no reserved value is stored"
can be said. It is written from the standard's Effects clauses and mentions no configuration.

Main argument: a simulation relation `R` between worlds. Each model operation is shown to simulate its specification
operation, from which the history theorem follows by induction over the operation list. Lifetime bookkeeping
(C03, C34) is an invariant of each primitive, combined with absence of leak events from the simulation.

For C61 there is a second machine, `Steps.M`, whose programs are trees of single accesses (read or write the memory of one
optional, get an object id, record an event, run user code). A program of `M` is a function and does not show its accesses;
in particular writing a value back that was read is invisible in `M`, but would be a data race in a const function. The
library functions are therefore written down once and compiled twice (`twice`): the text of the definition is elaborated a second time
in the namespace `Steps`, where `M`, its primitives and all functions compiled before have their counterparts. Nothing is trusted about this except that
the reader can see the text: `C61_same_code` proves that both meanings agree in effect.

For C64 there is a third machine, `Any.M`, in which the memory of an optional has no bytes: it is in one of the phases raw, prepared
(after `invalidate_empty_flag`), empty, engaged, and the only record is the sequence of calls (`init_empty_flag`, `invalidate_empty_flag`, payload
constructed, changed, destroyed). `is_empty` is an arbitrary function of this sequence and of the user state. A call out of order is UB. The commands `thrice`
(functions of the library) and `alsoAny` (statements and proofs that mention primitives through lemmas only) of `Model/Compile.lean` elaborate the same text
for it. Lemmas about primitives are proved separately (`Lemmas/AnyBasic.lean`); all proofs above them are the same text. `C64_agrees` compares it with
the byte machine.

## 3. Properties

| Id | What is modelled / how proved |
|---|---|
| C01 | simulation of each operation, induction over histories; unconditional corollary for the separate flag |
| C02 | corollary of the simulation: no `abort` outcome |
| C03 | log invariant by induction + no leak events |
| C04-C16, C18 | per-operation theorems about arbitrary reachable worlds, stated with the observers `has_value`/`*`. Reachable (`Reach`, `Spec/Reachable.lean`; in all properties) is what legal calls and legal programs of C62 leave behind, in any order |
| C17 | false in the code if the result is nothrow constructible from what `f` returns (`T`: nothrow move, `T const`: nothrow copy constructor): negation with witness, `_partial` for the rest, exact characterisation |
| C19 | equality of each model operator with the standard's table, for all operand kinds |
| C20 | order axioms transported through C19 |
| C21 | direct, plus hash/equality compatibility |
| C22-C24 | bit-vector reasoning about all patterns via byte-wise memcmp |
| C25 | NaN propagation rule as a relation, induction over operation sequences |
| C26 | `IsIntegralInRange` = representability for arbitrary widths |
| C27 | false for unscoped enumeration constants: witness + `_partial`; `C27_accepted` lists which constants are accepted for which flag type |
| C28 | selection as matching over the list of partial specialisations; at most one matches; equivalence with the README's table (`Spec/Documented.lean`), characterisation of every rejection; false for extended floating point types: witness + `_partial` |
| C29 | arithmetic of sizes/alignments for the generic layout |
| C30 | false with explicit `UseDefaultValue` or member pointer + macro: witness + `_partial` |
| C31 | layout algorithm for arbitrary member lists, frame of flag writes |
| C32, C33 | evaluation of every storing operation (construction, assignment, `emplace`, copy and move, `transform`) on reserved values, asserts on/off |
| C34 | false (destructor of an empty optional never invalidates): witness, exact accounting `_partial` |
| C35 | exact characterisation, NaN witness |
| C36 | frame theorem for each operation; for user code that calls the library again (`Props/ReentrantFrame.lean`) the closure argument runs over the programs of C62, `Prog.Changes` says what a program with its user code names |
| C37 | per-operation theorem; consequences of noexcept traits |
| C38 | small calculus of deleted/defaulted special members, compared to the standard's table |
| C39 | selection theorem + Storable everywhere |
| C40 | injectivity of the namespace name in version and settings (`Nat.toDigits` is injective and free of underscores); settings with equal names select the same code (`C40_mixing`) |
| C41 | self-argument assignment safe, emplace(*o) reaches UB |
| C42 | equivalence of the temporary path |
| C43 | natvis expressions evaluated on all storages as little endian reads, compared with `has_value()`; false for qualified types, `void*` and user specialisations of built-in types: witnesses + `_partial` |
| C44 | the code run in lockstep in two environments (`Lemmas/Lockstep`): a relation between programs closed under control flow and respected by the primitives relates every operation and history; the same for re-entrant programs (`Lemmas/LockstepReentrant`) |
| C45 | evaluation of each const operation: the world afterwards differs at most in the user state |
| C46 | invariant over all histories (`Closed`): bytes beyond the object are never written, and are kept if they belong to something else; the outcome `outOfBounds` never occurs (`Lemmas/Bounds.lean`); `is_empty` depends on bytes inside only; the same for the programs of C62 (`Props/ReentrantFrame.lean`) |
| C47 | lockstep with equality of programs, also re-entrant ones |
| C48 | integer conversions: `T(s)` in init against the usual arithmetic conversions in `==`; false: witness, exact characterisation, `_partial` for representable constants |
| C49 | C28_wf joined with C01-C03: environments whose configurations come from `compile`; `C49_reentrant` joins it with C62 |
| C50 | the constructor is an arbitrary program run inside `constructWith`; state after `invalidate_empty_flag` computed from the simulation relation; false: exact description of what is seen |
| C51 | overload resolution as a function (`Model/Overload`): declared operator templates as pairs of parameter patterns, deduction, conversion ranks, partial ordering, constraints, rewritten candidates; the best candidate is shown to beat every declared one, whether or not the constraints of the others hold |
| C52 | the same for the assignment operators and constructors with implicit conversion sequences of `{}`, `nullopt`, values and optionals; also for classes derived from the optional or from its base class only (the case distinction is exhaustive, `C52_cases`); constraints compared with the standard's |
| C53 | candidates `impl::swap` and `std::swap` with deduction, constraints (those of `std::swap` from the special members of C38) and ranking; the generic `std::swap` executed on the machine |
| C54 | the three overloads of `make_optional` and the deduction guides (user-declared, implicit, copy deduction candidate) with ranking; the selected constructor from C52 |
| C55 | the two partial specialisations of `std::hash` with their constraint; the hash function from C21 |
| C56 | overload resolution on the implicit object parameter, types of the expressions in the bodies; compared with the language's rule for member access; complete case distinction |
| C57 | deduction, constraints and partial ordering of the two overloads, chain of forwarding; compared with a relation between arguments and what the payload's constructor receives |
| C58 | the payload operations of the outer optional are the functions of the inner one, run in a memory of their own (`Model/Nested.lean`); the specification is shown to be parametric in the payload type (`Lemmas/Param.lean`), so that the simulation of the inner layer carries over, and by induction to any number of layers (`Level`, `C58_deep_partial`); false for `swap` of two engaged `tiny::optional<tiny::optional<T>>` (C53) |
| C59 | the user state of one machine is the world of another one; user code consists of programs of calls on it (`Model/Nested.lean`); by the same parametricity theorem |
| C60 | class member lookup for the name `is_tiny_optional` along base classes, access, substitution failure, and the two overloads of `IsTinyOptionalHelper` (`Model/Trait.lean`); true for the library's optionals with any qualifiers, an exact characterisation for all types by an independent inductive definition of name lookup, false for all types without a class of the library or a member of that name among their bases; the full statement is false: classes derived from an optional, and user classes with such a member |
| C61 | a second machine whose programs are trees of single memory accesses (`Model/Steps.lean`); the command `twice` compiles each library function for both machines from the same text; the two agree (`C61_same_code`). Footprint of every call by a walk over all functions, for arbitrary interference; then an invariant over arbitrary schedules: every thread is where it would be if it had run alone. The same for the programs of C62, which are compiled for the second machine too (`Props/ThreadsReentrant.lean`) |
| C62 | every library function that calls user code is written again with the user code as a program of the machine (`Model/Reentrant.lean`); equations show that for user code without re-entrancy this is the original function. Programs are trees (`Prog`), the specification marks busy optionals. Simulation by induction over programs: user code of a call with busy optional `x` is simulated in the world without `x`, and does not depend on the memory of `x` (`Runs`). Threads with such programs: `C62_threads_partial`, by C61 |
| C63 | `Model/FlagOps.lean`: the flag is an object of a class whose `==`, copy constructor, assignment and destructor are functions that may throw; `noexcept` functions turn an exception into `terminate`; `accepts` is the conjunction of the `static_assert`s. The conditions under which nothing terminates are proved to be the weakest ones by comparing with the worst type with the same declarations |
| C64 | the third machine (section 2). The simulation proof of C01 is elaborated for it; `is_empty` enters only by the two conditions of the contract. The order of calls is an automaton over call sequences (`Spec/Manipulator.lean`), with its final state given by the specification's optionals. Contract fulfilled by: a table beside the optionals (`C64_table`, no value reserved), the library's own manipulators (`C64_own`, `C64_agrees`). Violated by the README's bad example: `C64_needed`. For re-entrant programs (C62): `C64_reentrant`; since `is_empty` may depend on all calls, the independence from busy optionals is relational (`Lemmas/AnyLocal`): two worlds with the same memory of the other optionals and call lists in order behave alike as long as only values that the manipulators recognise are stored |
| C65 | `Spec/Exercise.lean` transcribes tests/Exercises.h with symbolic type and values. The specification passes the tests (`spec_passes`, by evaluation with the equations of a regular payload), the model by C01 and C64. This is at the same time a check of the specification: the repository runs the same tests with `std::optional`. `C65_compiled` is for all types that the library accepts. An example shows that the test fails if the reserved value is one that a move leaves behind. Not transcribed: assertions about types and addresses, `o = {}` (C52). |
| C66 | `withoutTricks` is the documented effect of the macro on an instantiated type; `C66_compiles_partial` shows that compiling the same text with the macro gives exactly that, by going through the specialisations of `SelectDecomposition`. `C66_same` and `C66_reentrant` apply C49 to both builds. The claim is false for `optional_aip` (`C66_false`, `C66_aip`), its converse is false, and so are the analogous claim for `..._UNUSED_BITS` alone and the README's remark that the member pointer is ignored. |
| C67 | `Spec/Trivial.lean` has the language rules (which functions of a derived class are trivial, the type traits), the model the declarations of all classes in the hierarchy. All 64 combinations of payload traits by cases; derived classes by induction. The README names this as a limitation; `C67_std_false` and `C67_std_copyable` give the difference to `std::optional`. |
| C68 | a translation unit is a list of declarations, definitions, specialisations and uses; `seen` is the program with those specialisations that precede a use; completeness of types ([basic.types], forward declared enumerations) and of the class of a member pointer is required of the units. `C68_local` goes through the selection (C28). `C68_same_file` replaces the placement by the language rule about late specialisations. The consequences of a violation: sizes from C29, undefined behaviour from C46 and the simulation. |
| C69 | `Spec/Identity.lean` says which calls of `std::optional` end the lifetime of the contained value. The objects of the machine carry identities. Calls that engage or disengage other optionals only: closure of `Keep` under all primitives (`Lemmas/Walk.lean`, now with a separate set of optionals whose payload may be assigned). The others: their branch is known from the simulation (C01), and the branch that is taken only assigns (`Quiet`). Destroyed objects do not come back because identities are fresh (`Home`). Both closures also hold for the programs of C62. |
| C70 | `Re.destroyPayload` and its callers (`Model/Reentrant.lean`) with a destructor that is an arbitrary program. The destructor starts in exactly the state before the call (after the move construction for `swap`), hence the equations for every observation. A destructor that overwrites its object is equal, as a function on all states, to one that does not, since the bytes become indeterminate and the empty state is written afterwards. `C70_twice`: nested `reset`, via the simulation. |
| C71 | the rules of the conditional operator for operands of one class type ([expr.cond]/4-7, both wordings) as a function; the operands are those of the overloads that `Model/Quals.lean` selects. Case analysis over all qualifications gives the exact set of callables and payload types for which the result is initialised differently |
| C72 | the preprocessor (conditional inclusion, macro expansion with `##`, `#pragma once`) runs on all directives of the two headers. Rejection, text, and namespace are computed for arbitrary predefined macros; the order of inclusions by induction over the lines of the translation unit, comparing with the run of the user's lines alone. `C72_text` also derives the namespace name of `Model/Version.lean` from the macros |
| C73 | definitions are read off the preprocessed text (`definition`); the pieces present are equal if the namespaces are (C40). Witnesses for the violations. The mangling of names is a small model of its own (`mangle`) |
| C74 | the comparison expressions as trees (`E`); their types and evaluation follow the language rules for `&&`, `||`, `?:` with a class operand and possibly a user's operator. By cases over operators and states. `C74_exact` gives the exact set of types. The agreement of the same operators with `std::optional` for `bool` is C19, on the machine |
| C75 | the value of `noexcept(e)` for every expression `e` of the interface, on both sides; special members through the calculus of C38 and C67 (specified `noexcept`, or trivial). By cases over all payload traits. The exact set of differences is given: copies of trivially copyable payloads, and `swap` where C53 selects `std::swap`. That the promises are kept is C37 |
| C76 | for each example: the configuration is well formed, the storable values are exactly the documented ones, and the size is that of the payload. Programs: C01 with the documented predicate in place of `Storable`; violations: C32. `C76_programs` and `C76_reported` are stated once, for everything that is `AsDocumented`. `C76_selected` and the `_type` theorems (`Props/ReadmeSelect`) connect the types as written in the README with these configurations, through `compile` and `Sem.config` |
| C77 | As C70: the destructor is an arbitrary program, here one that may throw. Replacing its exceptions by `terminate` does not change any function; explicit outcome of each function; no exception leaves `reset` and the destructor, and handlers in programs (`runProg`) for these do not matter |
| C78 | `Model/Address.lean`: the address expressions of the library as terms, evaluated by the language rules (`Spec/Address.lean`) for a type with arbitrary overloads. False at 240 and 837: witnesses and `_partial` |
| C79 | On the machine in single steps (as C61), each step in an arbitrary world: no precondition, in particular no `Compatible` and no legality. `Spec/Cost.lean` has a table of upper bounds per function (not all are attained). User code that does not call the library counts as one step however long it runs; for user code that does (programs as in C62) `Spec/CostReentrant.lean` has a second table with what the functions add to the steps of the user code. `is_empty` of a custom manipulator, a pure function in the model, is part of the read |
| C80 | `Model/Qualified.lean`: the qualifiers of every type in the storage layer, for each instantiation that `compile` (C28) accepts; rules of the language in `Spec/Qualified.lean`. False for `volatile` flags marked by unused bits: witness and `_partial`. `C80_named_*`: [basic.life]/8 in the text of C++17 and C++20 |
| C81 | `Model/Constexpr.lean`: `constexpr` specifiers and the calls on each path of every function; `Spec/Constexpr.lean` defines which calls can be constant expressions (a least fixed point). The state before dynamic initialisation is the zeroed storage of the machine |
| C82 | `Model/FlatMemory.lean`: the programs of `Steps.M` in a single memory with addresses. An optional is a window on all bytes from its address on, without an end, so a write that is too long hits what is behind it. `Spec/FlatMemory.lean` says which bytes belong to an optional (payload and separate flag, not padding) and when the memory agrees with separate ones. Also for the programs of C62 (`Props/FlatMemoryReentrant.lean`) |
| C83 | Sequences of calls and of copies of bytes to another address (`Spec/Relocation.lean`), in the memory of C82. The payload is assumed to survive the copy. Also with the programs of C62 in the place of calls (`Spec/RelocationReentrant.lean`); relocations while library code runs are not modelled, since the library holds `this` |
| C84 | An invariant of the machine ties the bytes of the flag to the flag object (`Lemmas/FlagBytes.lean`); the rest is the simulation relation of C01. The invariant also holds for the programs of C62 |
| C85 | `Spec/Provenance.lean` says when user code keeps a family of sets. An invariant of the specification machine (`Lemmas/Provenance.lean`: all values in variables and in the trace are in the sets), then C01. For re-entrant programs the condition is read off the text of the program (`Prog.Keeps`, `Spec/ProvenanceReentrant.lean`), each piece of user code with what it may rely on; then C62 |
| C86 | False for exactly one signalling NaN of each type (finding 25): `C86_exact` and a run of the machine as witness. `C86_double_partial` and `C86_float_partial` are C85 (`C85_uniform`) with the set of all NaNs that have another payload than the reserved pattern, and all other patterns; that the empty state survives is `C86_empty_kept`. Each single copy may be made either way (`Spec/Fpu.lean`) |
| C87 | `Spec/Laws.lean`: composition of callables, and when two blocks of calls are the same for the caller. Both sides are evaluated for `std::optional` (all cases of the content and of what the callables do) and transferred to the machine call by call by C01 (`Lemmas/Laws.lean`). The condition on the intermediate type is shown to be needed by a run in which the two sides differ |
| C88 | C61 gives every thread fixed optionals; here the ownership changes. Unit is the *section*: a program with a declared footprint (optionals read, optionals written). `Model/Handover.lean` runs a list of turns (a thread begins a section, executes one access, ends a section, or hears of another thread outside of sections); `Spec/Handover.lean` has the discipline (`Disciplined`: a section may begin only if its footprint is compatible with those of the running ones - what a mutex per optional, a mutex for all, or a reader-writer lock guarantees; how the lock works is not modelled), the machine in which a section is one step, and the same machine with `std::optional`. Invariant: the atomic machine is, for each running section, where the rest of the section would lead from the current memory. `C88_needed`: without the discipline results arise that no atomic execution has |
| C89 | `Model/Weak.lean`: every thread has its own picture of the memory, on which its steps work; beginning a section takes over the published memory; single optionals are published at any time and in any order during a section, all that the section may modify at the latest before it ends; everything else in the picture of a thread may change arbitrarily at any time (`stale`). This is what [intro.races] leaves of memory for programs without data races: a read sees the last write that happened before. The atomic machine and `LegalTurns` are those of C88, invariant as there |
| C90 | `Model/Benchmark.lean` is `Tester` of performance/main.cpp as a program of C62, `Spec/Benchmark.lean` what it computes, as functions on lists. Loop invariants for the run with `std::optional` (`Lemmas/Benchmark.lean`: the variables are `layout cells`); C85 with the set of all doubles that can be computed without NaNs as inputs (C25) shows that nothing reserved is stored; then C62 |
| C91 | `Spec/Rearrange.lean`: `Prog.InPlace A` (the only calls that modify are swaps within `A`), `PermOn A` (a bijection of the variables that moves only those in `A`), insertion sort as a program. Induction over programs for the run with `std::optional`, then C62 from any reachable state. That nothing reserved is stored is shown, not assumed: only values that were there, and what is left after moving from them, are written. Insertion sort is client code, not code of the repository; it is there to have one complete algorithm. |
| C92 | `Spec/Growth.lean`: the loop of `std::vector` that fills a new buffer (`std::move_if_noexcept`, roll back), as a program of C62; client code, written from [vector.modifiers] and [vector.capacity]. Loop invariant for the run with `std::optional`, then C62 from any reachable state. The payload's copy constructor is an arbitrary function of the user state. The trait that selects moves is the exception specification which the library gives its move constructor (1179, C38, C75). |
| C93 | `Spec/Erasure.lean`: the loop of `std::vector::erase` (move assignments, then a destructor) as a program of C62; client code, written from [vector.modifiers]. Loop invariant for the run with `std::optional` (before the hole: moved up; the hole: engaged as before, some storable value; behind: unchanged), then C62 from any reachable state. Payload moves are arbitrary functions of the user state that may throw after having changed both operands. |
| C94 | `Spec/Insertion.lean`: the loop of `std::vector::insert` without reallocation, as a program of C62; client code. The new element is an optional `t` outside of the vector. Invariant and proof as for C93, backwards. |

## 4. Disagreements between code and documentation found while modelling

1. `transform(f)`: `ConstructPayloadFromFunction` is `noexcept(is_nothrow_constructible<U, U>)` although it calls `f`.
   A throwing `f` with e.g. `int` result calls `std::terminate` (1083-1085). `std::optional` propagates. If `f` returns a `const`
   object of class type the condition asks for the copy constructor instead, although neither constructor is ever called. (C17)
2. `~StorageBase` (978-983) never calls `invalidate_empty_flag`; a flag object created by `init_empty_flag` is
   abandoned when an empty optional dies, and also when a constructor throws. Documentation demands balance. (C34)
3. `AssignmentFlagManipulator` with a sentinel that is not equal to itself (NaN): the default constructed optional
   claims to have a value. (C35)
4. `optional_aip` is not "always in place" if `UseDefaultValue` is passed explicitly, or a member pointer is passed with
   `TINY_OPTIONAL_USE_SEPARATE_BOOL_INSTEAD_OF_MEMBER`. (C30)
5. The check that a sentinel is not changed by conversion does not cover unscoped enumeration constants: the
   fall-through `return SentinelValue::value;` (807-811) converts implicitly and may truncate. (C27)
6. Extended floating point types (`std::float16_t`, `__float128` where `std::is_floating_point` holds):
   `SentinelForExploitingUnusedBitsIsKnown` is true for them (864-873 only excludes `long double`), but there is no
   `SentinelForExploitingUnusedBits`, so that every `tiny::optional` of them - even with an explicit sentinel - is rejected
   with "This is a bug in the tiny-optional library". (C28)
7. Natvis: `optional<const double>`, `optional<void*>` etc. are compressed but get no visualizer; a user's explicit
   specialisation of `optional_flag_manipulator` for `bool`/`float`/`double`/pointers is shown with the library's bit
   pattern and therefore wrongly. (C43)
8. `sentinel_flag_manipulator<T, s>` has none of the checks of `AssignmentFlagManipulator`: `init_empty_flag` converts
   with `T(s)`, `is_empty` compares `payload == s` after the usual arithmetic conversions. For
   `sentinel_flag_manipulator<unsigned char, -1>` (or `300`) the two disagree, and every optional, even a default
   constructed one, claims to have a value. (C48)
9. `ConstructPayload` (1051-1074) and `ConstructPayloadFromFunction` (1083-1110) end the empty state before they run the
   payload's constructor. A constructor that looks at the optional it is constructed in (for instance through a registry)
   sees `has_value() == true` with a separate flag, and in place the read is undefined behaviour. `std::optional` is
   empty until the constructor is done. (C50)
10. C++20: the `operator<=>` templates in `impl` (2706-2727, 2756-2762) have the same template parameters as the relational
   operators plus a requires-clause, so they are more constrained and win against the non-rewritten `<`, `<=`, `>`, `>=`:
   `tiny < tiny` uses `<=>` of the payload although it has a `<`. `std::optional` avoids this by type-constraints in the
   template head, as do the operators in namespace `tiny` (2729-2743). Results differ for payloads with inconsistent
   operators. (C51)
11. gcc without CWG 2445: there is no `operator<=>(std::optional, TinyOptionalImpl)` in the workaround (only one for
   `tiny::optional`, 2735-2743). `std::optional{} <=> optional_inplace{}` therefore calls the standard's comparison with a
   value and gives `less` for two empty optionals. The test of this pair (tests/ComparisonTests.cpp) compares 42 and 43 only. (C51)
12. A class derived from a tiny optional is compared as value with `std::optional` (an empty one is unequal to an empty
   `std::optional`); a class derived from `std::optional` makes the comparison with `tiny::optional` ambiguous. (C51)
13. `optional<bool>` can be constructed explicitly from any other optional (tiny or `std`), through `explicit operator bool`:
   `tiny::optional<bool>(std::optional<int>{})` is engaged and `false`. `std::optional<bool>` has a converting constructor
   for this case, and LWG 3836 removed the value constructor from it. (C52)
14. Classes derived from an optional: `EnableConvertingConstructor` (1405-1414) excludes them, `EnableConvertingAssignment`
   (1419-1425) does not. With a payload like `std::any` construction copies the optional and assignment stores the whole
   object. `optional_inplace x = tiny::optional` is an instance if the latter derives from the former. `std::optional` treats
   both as value. (C52)
15. `using std::swap; swap(a, b)` for two `tiny::optional`s calls the generic `std::swap`: `impl::swap` (1842-1855) takes the
   base class `TinyOptionalImpl`, and the exact match of `std::swap` beats the derived-to-base conversion. Without the
   using-declaration the same happens if a template argument associates namespace `std` (`tiny::optional<std::string>`).
   Consequences: the payload's own `swap` is not used, payloads are moved three times, the exception specification is a
   different one, and a payload whose moved-from state is the reserved value is lost or trips an assert, although the member
   `swap` works for it. `optional_inplace` etc. are not affected. The test of the free function cannot tell the two apart. (C53)
   Line 1664 itself makes such a call, so that `tiny::optional<tiny::optional<T>>::swap` moves the inner payloads around. (C58)
16. With asserts enabled the library checks the engagement after user code has returned: `AssignValue` (1130-1132), copy and
   move constructor and assignment (1193, 1247, 1305, 1362). A payload whose `operator=` empties the optional it lives in (the
   `delete this` idiom), or whose copy constructor empties the source after having taken the value, makes the program abort.
   By the effects that the standard describes `std::optional` goes on (although [reentrancy] does not promise it), and so does
   the library with `NDEBUG`. (C62)
17. `AssignmentFlagManipulator::init_empty_flag` checks that the *assignment* of the flag type is `noexcept` (836-838), but
   executes its *copy constructor* (840-841). A flag type with `noexcept` assignment and throwing copy constructor is accepted
   (README:642 asks for `==` and `=` only), and the program ends with `std::terminate` when an optional becomes empty and the
   sentinel cannot be copied. Conversely a flag type that can be copied but not assigned is rejected without need.
   `sentinel_flag_manipulator` (230-247) checks neither `==` nor the constructor. (C63)
18. `return has_value() ? A : B` in `or_else` (1825, 1835, 2258, 2268) and `value_or` (1651-1652) is not the same as the standard's
   `if (*this) return A; else return B;`, since the conditional operator gives both operands one type and value category.
   `std::move(o).or_else(f)` copies the payload of an engaged `o` if `f` returns an `optional const &` (since C++20) or `optional const &&`.
   `o.or_else(f)` copies from the result of `f` if `f` returns an `optional &&` (since C++20). `std::move(o).value_or(d)` for a
   const payload type makes a temporary of `d` and copies it, because `static_cast<std::remove_cv_t<PayloadType>>` (1652) has a
   different type than the payload. A copy instead of a move is observable, but no case fails to compile. (C71)
19. README:676 says about translation units with different settings: "If you try to mix different configurations, you will get errors
   related to missing or mismatching symbols". The linker notices only functions and variables whose name mentions a class of the
   library. A function that takes a class of the user with an `optional<bool>` as member has the same name in both configurations,
   while the size of the class is 1 in one of them and 2 in the other (C73_user_class). Furthermore `optional_flag_manipulator`
   (217-220, 883-889) is not in the inline namespace, in order to be declared in the other header, but its base classes are: every
   program that mixes configurations or versions violates the one definition rule (C73_primary), and
   `optional_flag_manipulator<bool>` is another class in each (C73_bool). No function with linkage depends on it.
20. Translation units compiled with and without concepts (C++20 and C++17) share the inline namespace, but the classes `optional` and
   `TinyOptionalImpl` have `or_else` (1817-1837, 2250-2270) only in one of them, another violation of the one definition rule
   (C73_concepts). Implementations of `std::optional` do the same, but are part of the implementation.
21. The comparisons between two optionals (2437-2662) combine `has_value()` with the comparison of the payloads by `&&` and `||`. If the
   comparison of the payloads has a class type with its own `&&` or `||` (a three-valued logic, an expression template), the user's
   operator evaluates both operands, and the payloads of empty optionals are read (C74_false; C74_exact: for exactly these types).
   [optional.relops] demands only that the result is convertible to `bool`, and does not evaluate the comparison. (libstdc++ has the same
   expressions.) The comparisons with values use `?:`, as the standard does, and are correct (C74_values).

22. Copying an optional is never `noexcept`: the copy constructor (1236) and copy assignment (1353) are user-provided without exception
   specification. `std::optional` has to make them trivial for trivially copyable payloads, which makes them `noexcept` as well, so
   `std::is_nothrow_copy_constructible_v<tiny::optional<int>>` is false while it is true for `std::optional<int>`. The comments (820-821,
   924-928) promise the same specifications (C75_false; C75_copy, C75_rvalue: exactly for these payloads). The second difference,
   `std::is_nothrow_swappable`, follows from finding 15 (C75_swap). C38 compares the written specifications only.
23. `MemcpyAndCmpFlagManipulator::is_empty` (729-737) casts the qualifiers of the flag away and reads it with `memcmp`. The payload of
   `optional<double volatile>` is created as a `double volatile` (1062), so `has_value()` of an optional with a value reads a volatile object
   through a glvalue that is not volatile, which is undefined ([dcl.type.cv]). The tests do this
   (tests/ExerciseTinyOptionalPayload2.cpp:38-41). The comments there and at 732 refer to the cast of the pointer for placement new, where it is
   harmless. The same for members such as `bool volatile` that hold the flag. Explicit sentinels and separate flags are fine (C80_false, C80_reads_exact).
24. No constructor is `constexpr` (955-975; README:155 says so), so a `tiny::optional` with static storage duration is initialised at run time, in contrast to a `std::optional`, which is
   constant-initialised. Until then its storage is zero, and zero means "has a value": `isEmptyFlag` (524) is inverted, and none of the bit patterns (426-497) is
   zero. Code that runs before its constructor (constructors of globals in other translation units) sees an optional with the value zero instead of an empty one. Only with
   an explicit sentinel that equals zero is it empty (C81_static_init, C81_zero_separate, C81_zero_bits, C81_zero_sentinel).
25. On x86 (69-70, 413-416) with x87 code a `double` that is loaded into a register and stored again loses the signalling bit of a NaN. The reserved patterns (437, 451) are
   quiet NaNs with a counterpart among the signalling NaNs: 0x7ff0fedcba987654 and 0x7fadcba9 can be stored (C22), but a copy of the optional may be empty, or trip the
   assert (1077). The comments (435-436, 449-450) consider the loading of the *reserved* pattern only, for which a quiet NaN is the right choice:
   it survives such a copy (C86_empty_kept), while a signalling one would not. Only the default NaNs have neither problem (C86_choice). (C86)

Smaller observations, stated or used in theorems:

* `and_then`, `transform` and `or_else` (1682-1837, 2253-2263) are declared `constexpr` although every path calls `has_value`, which is not; `transform` and `or_else` return optionals,
  which are not literal types, so no specialisation meets the requirements for `constexpr` functions: ill-formed, no diagnostic required, until C++20 (C81_in_vain, C81_not_literal). README:155 says that methods
  are not `constexpr`.
* By the text of C++17 ([basic.life]/8), `GetPayload` (585, 606) does not refer to a payload that replaces a `const` one, or one with a `const` member, without
  `std::launder`: `optional<int const>` after the second `emplace`, `optional<int const, 42>` after the first. C++20 lifts the rule (C80_named_cpp17, C80_named_cpp20).
* A specialisation `optional_flag_manipulator<Foo>` is not found for `optional<Foo const>`, which gets a separate flag (C80_lookup), although
  the library's own specialisation (883-889) covers qualified types; a manipulator with parameters `Foo &` would fit (C80_user).
* README:630 calls `o.empty()` on an `optional_inplace`; there is no such member function. README:456 constructs an optional of the
  aggregate `TypeBecomingEmptyAfterMove` from a `std::vector`, which needs C++20's parenthesized initialisation of aggregates. README:488 speaks of
  the move assignment operator where the move constructor is called. Not expressible in the model.
* `emplace(*o)` reads the payload after destroying it (C41). `std::optional` has the same problem.
* A user specialisation of `optional_flag_manipulator<T>` does not apply to `const T`; `optional<const S, &S::m>` is
  rejected because `is_same<PayloadType, ClassType>` compares the cv-qualified type (C28, `Documented`).
* With `TINY_OPTIONAL_USE_SEPARATE_BOOL_INSTEAD_OF_MEMBER` the null member pointer is accepted.
* With five-level paging the x64 pointer sentinel is a canonical address (C24_five_level).
* The third parameter of `optional` is silently ignored when the second one is no member pointer (C28).
* A reserved value stored through a reference or left behind by `swap` is not noticed by any assert (C32, C33);
  after such a `swap` both optionals look right, but the payload that was moved from is never destroyed (C91_needed).
* The library relies on `bit`, `noBit`, `mem`, `noMem` not being macros. With `#define bit noBit` in front of the header two
  different configurations share one namespace (C72_user_macro).
* Two copies of `optional.h` (say of two versions, below two directories) cannot be included in one translation unit in spite of the
  namespaces that contain the version: `#pragma once` does not recognise them, and `optional_flag_manipulator` (217-220) and the macros
  (e.g. 55) are defined twice (C72_two_copies).
* README ("Details" of `optional_flag_manipulator`, twice) says that an optional whose payload became reserved "ends up
  calling `invalidate_empty_flag()`" when it is destroyed. `~StorageBase` (978-983) calls neither that nor the payload's
  destructor (C33, C34).
* `sentinel_flag_manipulator::init_empty_flag` (240) writes `::new (&uninitializedPayloadMemory)` where all other places use
  `std::addressof`. For a flag type with an overloaded unary `&` it does not compile or constructs at a different address. The pointer
  is not cast to `void *` either: a `const` or `volatile` payload does not compile, and a user's `::operator new(std::size_t, T *)` is called.
  The `static_assert` at 837 also uses `&`: it rejects flag types whose `&` is not noexcept or does not return a pointer, with the
  message that the assignment is not noexcept (C78).
* README says that `std::chrono::microseconds::min()` cannot be a template argument because `duration` is "not a literal class type". It is
  one; it is not *structural*, because of its private member.
* `is_tiny_optional_v<T>` is also true for classes derived from an optional and for unrelated classes with a static member
  `is_tiny_optional`; README: "false for any other type". (C60)
* README says `#include <tiny/optional>`; the file is
  `tiny/optional.h`.
* `o = {}` assigns `0` for a `volatile` scalar payload, since `decay_t<U>` never equals a qualified payload type; so does
  `std::optional` (C52).
* `make_optional<const T>(e)` with a const rvalue `e` of type `T` returns an `optional<T>`, because the first overload decays also an
  explicitly given type; so does `std::make_optional` (C54).
* `TINY_OPTIONAL_USE_SEPARATE_BOOL_INSTEAD_OF_UNUSED_BITS` (not documented, but tested for by `#ifndef`) cannot be defined alone:
  `optional<C, &C::member>` then stops to compile for members of type `bool`, `double`, pointer, and with it the repository's
  own tests (C66, `RepoTests.lean`). CI only uses the macro that defines both.
* README:670 says that the member pointer is ignored when the tricks are disabled. For a class with a user's manipulator,
  `optional<C>` is in place, `optional<C, &C::member>` is not (C66_ignored_false).
* tests/IntermediateTests.cpp:96-98 could not compile if its `#if` conditions held: the specialisation then has a failing
  `static_assert` and no member `test`. They never hold, because both macros are always defined together. See `RepoTests.lean`.
* The class `LiteralClass` of the repository's tests has a copy constructor that is not `noexcept` and is accepted as flag
  type, an instance of C63_false.
* `reset()` and the destructor destroy the payload first and mark the optional as empty afterwards. The destructor of the payload
  therefore sees the optional engaged, and calling `reset()` from there is undefined (C70). The standard leaves this open; libstdc++ marks
  the optional as empty first.

## 5. What the seeded errors show

`seeded/LOG.jsonl` has one line per edit of a definition in a scratch copy. About 500 were rebuilt completely, and a property theorem failed or
depended on a lemma that failed. For about 890, marked "the build was stopped at the first failing theorems", only the first failures are known; for 550 of
these they are helper lemmas. A failing helper lemma shows that the edit is noticed, but is weaker evidence than a property theorem that is
false: in principle another proof of the theorem might still exist. About 70 have no failing theorem; their notes say why the claim stays
true. About 20 led to a theorem being tightened. 10 are marked as invalid: a definition did not elaborate any more, so they show nothing.
