{"id": "C01", "title": "Drop-in behaviour of std::optional over whole histories", "statement": "Run any finite sequence of construct / copy / move / assign / emplace / reset / swap / mutate-through-reference / observe / monadic / destroy operations on any number of tiny optionals. Let the use be valid: every call is meaningful for std::optional, no step stores a payload value that the optional's configuration reserves for 'empty', and no callable handed to transform throws while the result type has a noexcept move constructor (that case is C17). Then every step has exactly the outcome (returned value, thrown exception) that std::optional prescribes, user code is called exactly as std::optional calls it, and every variable ends up empty or holding exactly the value std::optional would hold. If the flag is a separate bool there is no reserved value and the second condition is void.", "quantifier": "every payload type with arbitrary (stateful, throwing) user operations, every storage configuration, every number of optionals, every finite operation history, asserts on or off", "why_tests_cant": "Histories, payload types and throw schedules are unbounded; tests exercise a handful of fixed sequences on fixed types.", "anchors": ["include/tiny/optional.h: StorageBase", "include/tiny/optional.h: MoveConstructionBase", "include/tiny/optional.h: CopyConstructionBase", "include/tiny/optional.h: MoveAssignmentBase", "include/tiny/optional.h: CopyAssignmentBase", "include/tiny/optional.h: TinyOptionalImpl", "include/tiny/optional.h: optional"]}
{"id": "C02", "title": "No undefined behaviour and no assertion failure under valid use", "statement": "Under valid use in the sense of C01 no operation ever reads an indeterminate flag, accesses or destroys a payload that is not alive, constructs a payload over a live object, touches memory outside the optional, terminates, or trips one of the library's assert()s.", "quantifier": "every configuration, payload, history and throw schedule with valid use", "why_tests_cant": "UB is not observable by a passing test, and the absence of assertion failures must hold on every path.", "anchors": ["include/tiny/optional.h: StorageBase::ConstructPayload", "include/tiny/optional.h: StorageBase::AssignValue", "include/tiny/optional.h: StorageBase::reset", "include/tiny/optional.h: StorageBase::~StorageBase", "include/tiny/optional.h: InitializeIsEmptyFlagScope"]}
{"id": "C03", "title": "Each payload is constructed once and destroyed exactly once", "statement": "Over any history, including ones in which payload constructors, assignments and swaps throw, every payload object the optionals create is destroyed at most once, only after it was created, and never leaked: it is alive exactly while some optional holds it, and once all optionals are destroyed every created payload has been destroyed exactly once.", "quantifier": "every history, configuration and throw schedule with valid use", "why_tests_cant": "Leaks and double destruction depend on the interleaving of throws and operations; a probe type checks a few paths only.", "anchors": ["include/tiny/optional.h: StorageBase::DestroyPayload", "include/tiny/optional.h: StorageBase::~StorageBase", "include/tiny/optional.h: StorageBase::reset", "include/tiny/optional.h: InitializeIsEmptyFlagScope"]}
{"id": "C04", "title": "Empty on construction", "statement": "A default constructed or nullopt constructed optional has no value; construction never throws; value() on it throws bad_optional_access.", "quantifier": "every well-formed configuration of storage and sentinel, asserts on or off", "why_tests_cant": "Holds for all payload types and sentinels, including user supplied manipulators.", "anchors": ["include/tiny/optional.h: StorageBase::StorageBase()", "include/tiny/optional.h: TinyOptionalImpl(std::nullopt_t)"]}
{"id": "C05", "title": "Store/read round trip", "statement": "After constructing, assigning or emplacing with a payload value v that is not reserved for 'empty', has_value() is true and *o / value() yield exactly v.", "quantifier": "every payload value not reserved, every configuration, every prior state of the optional", "why_tests_cant": "The value domain is unbounded; tests use two sample values per type.", "anchors": ["include/tiny/optional.h: StorageBase::ConstructPayload", "include/tiny/optional.h: StorageBase::AssignValue", "include/tiny/optional.h: TinyOptionalImpl::emplace", "include/tiny/optional.h: TinyOptionalImpl::value"]}
{"id": "C06", "title": "emplace and constructing assignment are exception safe", "statement": "If the payload constructor throws during emplace() the old payload has been destroyed exactly once and the optional is empty and usable; if it throws while assigning to an empty optional the optional stays empty; if it throws inside an optional constructor no optional exists and no payload leaks. The exception reaches the caller.", "quantifier": "every configuration, every prior state, every exception point of the payload constructor", "why_tests_cant": "Needs every storage configuration crossed with every throw point, including flags that overlap the payload bytes.", "anchors": ["include/tiny/optional.h: StorageBase::ConstructPayload", "include/tiny/optional.h: InitializeIsEmptyFlagScope", "include/tiny/optional.h: TinyOptionalImpl::emplace"]}
{"id": "C07", "title": "Throwing payload assignment keeps the optional engaged", "statement": "Assigning to an engaged optional whose payload assignment throws leaves the optional engaged, holding whatever the payload assignment left behind, with no construction or destruction; the exception reaches the caller.", "quantifier": "every configuration and payload assignment, wherever it throws, as long as the left-behind value is not reserved", "why_tests_cant": "Exception points and left-behind values are unbounded.", "anchors": ["include/tiny/optional.h: StorageBase::AssignValue"]}
{"id": "C08", "title": "Copy construction and copy assignment", "statement": "Copying yields an optional with the same engagement whose payload is the result of the payload's copy operation; the source is unchanged; an empty source empties the target; payload copy assignment is used iff both are engaged, copy construction iff only the source is.", "quantifier": "every pair of states of two optionals of the same type, every configuration and payload copy operation incl. throwing", "why_tests_cant": "All state pairs times all payload behaviours.", "anchors": ["include/tiny/optional.h: CopyConstructionBase", "include/tiny/optional.h: CopyAssignmentBase"]}
{"id": "C09", "title": "Moved-from optionals stay engaged", "statement": "After move construction or move assignment from an engaged optional the source is still engaged and holds the payload's moved-from value; after moving from an empty optional both are empty.", "quantifier": "every configuration, every payload move operation that does not produce a reserved value", "why_tests_cant": "Depends on every possible moved-from value and flag location.", "anchors": ["include/tiny/optional.h: MoveConstructionBase", "include/tiny/optional.h: MoveAssignmentBase"]}
{"id": "C10", "title": "swap exchanges engagement and value", "statement": "a.swap(b) (and the library's free swap, where it is the function that is called, see C53) exchanges emptiness and contents: two engaged optionals have their payloads swapped in place, an engaged and an empty one exchange roles by one payload move and one destruction, two empty ones do nothing. If the payload move throws, engagement of both is unchanged.", "quantifier": "every pair of states, every configuration, every payload swap/move incl. throwing", "why_tests_cant": "All state pairs and throw points.", "anchors": ["include/tiny/optional.h: TinyOptionalImpl::swap", "include/tiny/optional.h: swap"]}
{"id": "C11", "title": "Self assignment and self swap are safe", "statement": "o = o, o = std::move(o) and o.swap(o) never destroy or re-create the payload, keep engagement, and only apply the payload's own self-operation once (nothing if empty).", "quantifier": "every state, configuration and payload self-operation", "why_tests_cant": "Aliasing cases over all configurations.", "anchors": ["include/tiny/optional.h: CopyAssignmentBase", "include/tiny/optional.h: MoveAssignmentBase", "include/tiny/optional.h: TinyOptionalImpl::swap"]}
{"id": "C12", "title": "reset and nullopt assignment", "statement": "reset() and = nullopt leave the optional empty, destroy the payload exactly once if there was one and do nothing otherwise; they never throw and are idempotent. So does = {} (an assignment of a default constructed optional) whenever it selects the move assignment; exactly when is C52.", "quantifier": "every state and configuration", "why_tests_cant": "Unbounded payload types and histories.", "anchors": ["include/tiny/optional.h: StorageBase::reset", "include/tiny/optional.h: TinyOptionalImpl::operator=(std::nullopt_t)"]}
{"id": "C13", "title": "value() and dereference", "statement": "value() throws bad_optional_access iff the optional is empty, and otherwise gives the contained payload; neither value(), operator*, operator->, has_value() nor operator bool changes any state.", "quantifier": "every state and configuration", "why_tests_cant": "All states/configurations.", "anchors": ["include/tiny/optional.h: TinyOptionalImpl::value", "include/tiny/optional.h: TinyOptionalImpl::operator*", "include/tiny/optional.h: TinyOptionalImpl::operator->"]}
{"id": "C14", "title": "value_or", "statement": "value_or(d) yields a copy (lvalue) or move (rvalue) of the payload if engaged and the converted default otherwise; the default is converted only when empty; an lvalue optional is not modified, an rvalue one stays engaged with the moved-from value. (How the conditional operator in it treats const payloads and defaults of other types: C71.)", "quantifier": "every state, default and payload copy/move incl. throwing", "why_tests_cant": "All states and user operations.", "anchors": ["include/tiny/optional.h: TinyOptionalImpl::value_or"]}
{"id": "C15", "title": "and_then", "statement": "and_then(f) calls f exactly once with the payload if engaged and returns exactly f's optional (or propagates f's exception); if empty it returns an empty optional and never calls f. f may mutate or move out the payload.", "quantifier": "every state, every f (stateful, throwing, mutating)", "why_tests_cant": "Quantifies over all functions.", "anchors": ["include/tiny/optional.h: TinyOptionalImpl::and_then"]}
{"id": "C16", "title": "transform on the non-throwing path", "statement": "transform(f) on an engaged optional calls f exactly once and returns an engaged tiny::optional whose payload is exactly f's result, constructed in place without any copy or move; on an empty one it returns an empty optional and never calls f.", "quantifier": "every state, every f that does not throw, every result configuration whose reserved value f does not return", "why_tests_cant": "Quantifies over all functions and result types, including immovable ones.", "anchors": ["include/tiny/optional.h: TinyOptionalImpl::transform", "include/tiny/optional.h: StorageBase::ConstructPayloadFromFunction"]}
{"id": "C17", "title": "transform propagates exceptions thrown by f", "statement": "If f throws inside transform(f), the exception reaches the caller (as with std::optional), no result optional exists and the source stays engaged.", "quantifier": "every f that throws, every source and result type", "why_tests_cant": "No test lets f throw; depends on the noexcept condition of an internal function for every result type.", "anchors": ["include/tiny/optional.h: StorageBase::ConstructPayloadFromFunction"]}
{"id": "C18", "title": "or_else", "statement": "For f that returns an optional by value (references: C71), or_else(f) on an engaged optional returns a copy (lvalue) / move (rvalue) of it without calling f; on an empty one it returns exactly f's result.", "quantifier": "every state, every f incl. throwing", "why_tests_cant": "Quantifies over all functions.", "anchors": ["include/tiny/optional.h: TinyOptionalImpl::or_else", "include/tiny/optional.h: optional::or_else"]}
{"id": "C19", "title": "Comparison operators follow std::optional", "statement": "==, !=, <, <=, >, >= and <=> between tiny optionals of any two configurations, tiny and std::optional, an optional and nullopt, and an optional and a plain value, give exactly the result std::optional prescribes; the payload comparison runs at most once and only when both sides have a value.", "quantifier": "every pair of states, every pair of configurations, every payload comparison (stateful, throwing, partial such as NaN)", "why_tests_cant": "All pairs of states, configurations and payload relations.", "anchors": ["include/tiny/optional.h: TINY_OPTIONAL_IMPL_COMPARE_BETWEEN_OPTIONALS", "include/tiny/optional.h: operator==", "include/tiny/optional.h: operator<=>"]}
{"id": "C20", "title": "Ordering is a total order with empty at the bottom", "statement": "If the payload's comparisons form a total order, the comparisons of optionals form a total order in which the empty optional is the least element; the six operators and <=> are mutually consistent.", "quantifier": "every totally ordered payload type, all triples of optionals of possibly different configurations", "why_tests_cant": "Transitivity and totality quantify over triples of unbounded values.", "anchors": ["include/tiny/optional.h: operator<", "include/tiny/optional.h: operator<=", "include/tiny/optional.h: operator<=>"]}
{"id": "C21", "title": "Hash is consistent with equality", "statement": "std::hash of an engaged optional equals std::hash of its payload, the hash of an empty one is 0, hence equal optionals (even of different configurations over the same payload) hash equally whenever the payload hash respects payload equality.", "quantifier": "all values, states and configurations", "why_tests_cant": "Holds for all pairs of equal values.", "anchors": ["include/tiny/optional.h: std::hash"]}
{"id": "C22", "title": "optional<double>/optional<float> keep every ordinary value", "statement": "With the built-in exploitation of unused bits exactly one bit pattern of double (one of float) is reserved; it is a quiet NaN, so every finite number, subnormal, zero and infinity, and every NaN with another bit pattern (in particular the default quiet and signalling NaNs) can be stored without the optional becoming empty.", "quantifier": "all 2^64 double and all 2^32 float bit patterns", "why_tests_cant": "The domain is far too large to enumerate for double.", "anchors": ["include/tiny/optional.h: SentinelForExploitingUnusedBits<double>", "include/tiny/optional.h: SentinelForExploitingUnusedBits<float>", "include/tiny/optional.h: MemcpyAndCmpFlagManipulator"]}
{"id": "C23", "title": "optional<bool> distinguishes empty, true and false", "statement": "true and false can be stored in optional<bool> without it becoming empty, in one byte, and the reserved byte is not the representation of any bool.", "quantifier": "all bool values and histories", "why_tests_cant": "Must hold for every history, combined with C01.", "anchors": ["include/tiny/optional.h: SentinelForExploitingUnusedBits<bool>"]}
{"id": "C24", "title": "optional<T*> keeps nullptr and every canonical address", "statement": "On x64 exactly one pointer value is reserved; it is non-canonical (the highest one), so nullptr and every canonical address can be stored; on x86 the reserved value is odd, not null, and none of the pseudo handles -1..-6. On both it is not 2-byte aligned.", "quantifier": "all 2^64 / 2^32 pointer bit patterns", "why_tests_cant": "Domain too large.", "anchors": ["include/tiny/optional.h: SentinelForExploitingUnusedBits<T *>"]}
{"id": "C25", "title": "Arithmetic never manufactures the floating point sentinel", "statement": "Under the x86 SSE NaN propagation rule (a NaN result is a quieted NaN operand or the default NaN), an operation on doubles/floats yields the reserved pattern only if an operand already carries the sentinel's NaN payload; programs whose inputs are non-NaN or default NaNs never produce it, after any number of operations.", "quantifier": "all operand bit patterns, all operation sequences", "why_tests_cant": "Unbounded sequences over huge domains.", "anchors": ["include/tiny/optional.h: SentinelForExploitingUnusedBits<double>", "README.md: How the library exploits platform specific behavior"]}
{"id": "C26", "title": "Integral sentinel range check is exact", "statement": "An integral sentinel constant for an integral payload/member compiles iff its numeric value is representable in the payload type, and then the reserved payload value is numerically that constant.", "quantifier": "all integral types (any width and signedness, any width of int) and all constants", "why_tests_cant": "The promotion/conversion lattice over all width and sign combinations is not enumerable by a few static_asserts.", "anchors": ["include/tiny/optional.h: IsIntegralInRange", "include/tiny/optional.h: AssignmentFlagManipulator::ConvertSentinelToFlagType"]}
{"id": "C27", "title": "No sentinel constant is silently changed", "statement": "Whatever kind of constant is given as sentinel, either the program is rejected at compile time or the reserved payload value equals the constant (as the library's comment on the conversion promises).", "quantifier": "all combinations of flag type kind and sentinel constant kind and value", "why_tests_cant": "Quantifies over all constants and type kinds.", "anchors": ["include/tiny/optional.h: AssignmentFlagManipulator::ConvertSentinelToFlagType"]}
{"id": "C28", "title": "Template parameters select the documented storage", "statement": "For every payload type and template arguments exactly one storage decomposition is chosen or the program is rejected with the documented error: no arguments and no known unused bits -> separate bool; known/custom manipulator -> in place; sentinel -> in place with that sentinel (overriding a manipulator); member pointer -> in that member; member of another class or member without known sentinel -> error.", "quantifier": "all payload types, cv qualifications, template arguments, user specializations and macro settings", "why_tests_cant": "The product of types, arguments, specializations and macro settings is unbounded.", "anchors": ["include/tiny/optional.h: SelectDecomposition", "include/tiny/optional.h: SelectSentinelValueAndMemPtrFromConstants", "include/tiny/optional.h: HasCustomInplaceFlagManipulator"]}
{"id": "C29", "title": "Size guarantee", "statement": "sizeof(optional) == sizeof(payload) (is_compressed) exactly when the flag is stored in place, and otherwise the optional is as large as std::optional (payload plus one byte rounded up to the alignment).", "quantifier": "all payload sizes and alignments, all configurations", "why_tests_cant": "All sizes and alignments.", "anchors": ["include/tiny/optional.h: StorageBase::is_compressed", "include/tiny/optional.h: SeparateFlagStorage", "include/tiny/optional.h: InplaceStorage"]}
{"id": "C30", "title": "optional_aip is always in place", "statement": "optional_aip<T> either does not compile or has the size of T; default sentinels are the maximum for unsigned and the minimum for signed integers; characters, enums and unknown classes are rejected without an explicit sentinel.", "quantifier": "all payload types, sentinels, data models and macro settings", "why_tests_cant": "Quantifies over all types and settings.", "anchors": ["include/tiny/optional.h: optional_aip", "include/tiny/optional.h: SwallowingDefaultSentinel", "include/tiny/optional.h: SelectSentinelValueWithSwallowing"]}
{"id": "C31", "title": "Flag in a member variable", "statement": "optional<S, &S::m> (with or without sentinel) is empty iff the memory of m holds the reserved value; entering/leaving the empty state writes only the bytes of m, never other bytes of the optional or of other objects; a stored S is non-empty iff its member m is not reserved, regardless of its other members.", "quantifier": "all struct layouts (any number, size, alignment of members), all members, all values", "why_tests_cant": "All layouts and values.", "anchors": ["include/tiny/optional.h: InplaceDecompositionViaMemPtr", "include/tiny/optional.h: SelectDecomposition"]}
{"id": "C32", "title": "Storing the reserved value is caught", "statement": "With asserts enabled, every operation that would leave a reserved value as payload through construct, assign, emplace, copy or move triggers an assertion instead of returning; with NDEBUG the optional then reports has_value() == false.", "quantifier": "every configuration with an in-place flag, every reserved value, every storing operation", "why_tests_cant": "All reserved values and store paths.", "anchors": ["include/tiny/optional.h: StorageBase::ConstructPayload", "include/tiny/optional.h: StorageBase::AssignValue"]}
{"id": "C33", "title": "A payload that becomes reserved when moved from is caught", "statement": "If moving from an engaged optional turns the source payload into a reserved value (README: TypeBecomingEmptyAfterMove), then with asserts enabled move construction/assignment triggers an assertion; with NDEBUG the source reports empty and its payload is never destroyed (leak).", "quantifier": "every custom manipulator and payload violating the guideline", "why_tests_cant": "Needs arbitrary manipulators and payload moves.", "anchors": ["include/tiny/optional.h: MoveConstructionBase", "include/tiny/optional.h: MoveAssignmentBase", "README.md: Details"]}
{"id": "C34", "title": "Empty-flag objects are created and destroyed in balance", "statement": "Every flag object created by init_empty_flag is destroyed by exactly one invalidate_empty_flag (README: 'invalidate_empty_flag() must destroy the emptiness flag that was created by init_empty_flag()').", "quantifier": "every history, every manipulator", "why_tests_cant": "Quantifies over histories; a leak of the flag object is invisible for trivially destructible flags.", "anchors": ["include/tiny/optional.h: StorageBase::~StorageBase", "include/tiny/optional.h: StorageBase::ConstructPayload", "include/tiny/optional.h: FlagManipulator concept comment"]}
{"id": "C35", "title": "Sentinel equality must be reflexive", "statement": "A default constructed optional<T, sentinel> is empty iff the sentinel compares equal to itself; with a NaN sentinel (allowed since C++20 / optional_sentinel_via_type) it is not empty.", "quantifier": "all sentinel values and equality operators", "why_tests_cant": "Depends on the payload's operator== for all sentinels, incl. NaN and signed zeros.", "anchors": ["include/tiny/optional.h: AssignmentFlagManipulator::is_empty", "include/tiny/optional.h: AssignmentFlagManipulator::init_empty_flag", "include/tiny/optional.h: sentinel_flag_manipulator"]}
{"id": "C36", "title": "Operations touch only the optionals they name", "statement": "Every operation leaves all optionals other than its operands bit-for-bit unchanged.", "quantifier": "every history, every set of optionals", "why_tests_cant": "All states.", "anchors": ["include/tiny/optional.h: StorageBase", "include/tiny/optional.h: TinyOptionalImpl"]}
{"id": "C37", "title": "noexcept promises are kept", "statement": "default/nullopt construction, reset, = nullopt, has_value and destruction never throw; move construction, move assignment and swap never throw nor terminate when the payload's corresponding operations are noexcept.", "quantifier": "every state, configuration and payload", "why_tests_cant": "All states and payloads.", "anchors": ["include/tiny/optional.h: StorageBase::reset", "include/tiny/optional.h: MoveConstructionBase", "include/tiny/optional.h: MoveAssignmentBase", "include/tiny/optional.h: TinyOptionalImpl::swap"]}
{"id": "C38", "title": "Special members follow the payload's traits", "statement": "The optional is copy constructible / move constructible / copy assignable / move assignable exactly as std::optional prescribes from the payload's traits, and an rvalue of a copyable but non-movable payload falls back to copying.", "quantifier": "all combinations of the payload's four traits", "why_tests_cant": "The table results from overload resolution through six levels of defaulted/deleted members.", "anchors": ["include/tiny/optional.h: MoveConstructionBase", "include/tiny/optional.h: CopyConstructionBase", "include/tiny/optional.h: MoveAssignmentBase", "include/tiny/optional.h: CopyAssignmentBase", "include/tiny/optional.h: TinyOptionalImpl"]}
{"id": "C39", "title": "Disabling the tricks yields pure std::optional storage", "statement": "With TINY_OPTIONAL_USE_SEPARATE_BOOL_INSTEAD_OF_UB_TRICKS no configuration inspects bytes of bool/float/double/pointers or stores the flag in a member: every optional without explicit sentinel or user manipulator uses a separate bool, and no value is reserved by it.", "quantifier": "all payload types and template arguments", "why_tests_cant": "All types and arguments.", "anchors": ["include/tiny/optional.h: TINY_OPTIONAL_USE_SEPARATE_BOOL_INSTEAD_OF_UB_TRICKS", "include/tiny/optional.h: SelectDecomposition"]}
{"id": "C40", "title": "Configurations cannot be mixed silently", "statement": "Different library versions or macro settings live in differently named inline namespaces.", "quantifier": "all versions and macro settings", "why_tests_cant": "All versions.", "anchors": ["include/tiny/optional.h: TINY_OPTIONAL_CONCAT_NS", "include/tiny/optional.h: TINY_OPTIONAL_INLINE_NS_BEGIN"]}
{"id": "C41", "title": "emplace/assignment with arguments referring into the optional", "statement": "Assigning an optional's own payload to it (o = *o, o = std::move(*o)) is safe. o.emplace(*o) is not: the payload is destroyed before it is read, as in std::optional.", "quantifier": "every engaged state, configuration and payload", "why_tests_cant": "Aliasing UB is invisible to tests.", "anchors": ["include/tiny/optional.h: StorageBase::AssignValue", "include/tiny/optional.h: TinyOptionalImpl::emplace"]}
{"id": "C42", "title": "make_optional and converting assignment of scalars", "statement": "make_optional(args...) equals in-place construction; assigning a scalar of exactly the payload type goes through a temporary optional and yields the same state as direct assignment.", "quantifier": "all values, configurations and prior states", "why_tests_cant": "All values/states.", "anchors": ["include/tiny/optional.h: make_optional", "include/tiny/optional.h: EnableConvertingAssignment"]}
{"id": "C43", "title": "Debugger view agrees with has_value", "statement": "The shipped natvis visualizers for separate flag, bool, float, double and pointer payloads (whole payload or member) classify every storage state as empty exactly when has_value() is false.", "quantifier": "all storage states / bit patterns", "why_tests_cant": "All bit patterns.", "anchors": ["include/tiny_optional.natvis: IsEmpty intrinsics", "include/tiny/optional.h: MemcpyAndCmpFlagManipulator"]}
{"id": "C44", "title": "Asserts are transparent", "statement": "For any program, legal or not: as long as the debug build is not stopped by an assertion (or by undefined behaviour), the build with NDEBUG does exactly the same: same results, same exceptions, same memory, same lifetimes, same user-visible effects. When the debug build is stopped, everything before was the same.", "quantifier": "all histories of API calls and all programs whose user code calls the library again, all start states, all configurations (well formed or not), all user code", "why_tests_cant": "The two builds are different programs; a test suite runs a few histories in each.", "anchors": ["include/tiny/optional.h: assert(...) in StorageBase, TinyOptionalImpl and the special member bases"]}
{"id": "C45", "title": "Const operations write nothing", "statement": "has_value, operator*, value, value_or on a const optional, all comparison operators and std::hash change no byte and no object of any optional and create or destroy no object; copying writes nothing to its source. (Concurrent const access is therefore free of data races as far as the library is concerned.)", "quantifier": "all states, operands, configurations, user comparison/hash functions", "why_tests_cant": "All interleavings of readers cannot be tested; absence of writes is universal.", "anchors": ["include/tiny/optional.h: has_value, operator*, value, value_or, operator== ... operator<=>, std::hash"]}
{"id": "C46", "title": "All accesses stay within the object", "statement": "No operation writes a byte outside of sizeof(payload) bytes (plus the separate flag byte), and whether an optional is empty depends on no byte outside of it.", "quantifier": "all histories, all well formed configurations, arbitrary payload sizes and flag offsets", "why_tests_cant": "All configurations and histories; an out of bounds byte write is usually not observable.", "anchors": ["include/tiny/optional.h: GetIsEmptyFlag, MemcpyAndCmpFlagManipulator, SeparateFlagStorage, InplaceStorage"]}
{"id": "C47", "title": "sentinel_flag_manipulator equals an explicit sentinel", "statement": "A specialisation derived from sentinel_flag_manipulator<T, s> behaves exactly like tiny::optional<T, s> (same type of s): every history gives the same results, the same bytes and the same lifetimes.", "quantifier": "all histories, all programs whose user code calls the library again, start states, sentinels, equality operators, user code", "why_tests_cant": "All histories.", "anchors": ["include/tiny/optional.h: sentinel_flag_manipulator", "include/tiny/optional.h: AssignmentFlagManipulator", "README.md: Enumerations"]}
{"id": "C48", "title": "sentinel_flag_manipulator marks the empty state for integer sentinels", "statement": "With sentinel_flag_manipulator<T, s> and an integer constant s, the state written by init_empty_flag is recognised as empty by is_empty, and no other value is.", "quantifier": "all data models, integer types of payload and constant, all constants", "why_tests_cant": "All types and values; the conversion in init and the one in == differ.", "anchors": ["include/tiny/optional.h: sentinel_flag_manipulator"]}
{"id": "C49", "title": "Every type that compiles is a drop-in replacement", "statement": "Whatever the template arguments, macros, member pointers, sentinels and user specialisations are: if the compiler accepts the optional types of a program, and the reserved values compare equal to themselves, then every history of valid use (C01) on variables of these types has exactly the results of std::optional, no undefined behaviour, no failing assert, and balanced constructors and destructors.", "quantifier": "all programs, macro settings, architectures, template arguments, class layouts, histories, user code, also user code that calls the library again", "why_tests_cant": "Joins all instantiations with all histories.", "anchors": ["include/tiny/optional.h: SelectDecomposition", "include/tiny/optional.h: TinyOptionalImpl", "include/tiny/optional.h: optional, optional_sentinel_via_type, optional_inplace, optional_aip"]}
{"id": "C50", "title": "Looking at an optional from inside its payload's constructor", "statement": "While the payload's constructor (emplace, assignment to an empty optional) or the function of transform runs, the optional under construction is seen as empty, as for std::optional.", "quantifier": "all reachable states, configurations, constructors that inspect the optional they are called for", "why_tests_cant": "Tests have no re-entrant payloads; all configurations.", "anchors": ["include/tiny/optional.h: ConstructPayload", "include/tiny/optional.h: ConstructPayloadFromFunction"]}
{"id": "C51", "title": "Comparison expressions resolve to the right operator", "statement": "For every pair of operand types of which at least one is a tiny optional (tiny::optional, other TinyOptionalImpl, std::optional, nullopt, any other value; arbitrarily nested), and every operator == != < <= > >= <=>, overload resolution among the operators of the library and of <optional> (including the C++20 rewritten and reversed candidates) is unambiguous, never selects a function for the wrong pair of operand kinds, and keeps the order of the operands; the comparison thus gives the result prescribed for std::optional by means of the same operator of the payloads.", "quantifier": "all operand types, operators, language modes (C++17, C++20, gcc with and without CWG 2445, with and without P2468/P2113), all answers of the three_way_comparable_with constraints and of the constraints in the standard library", "why_tests_cant": "Only a few type combinations are instantiated by tests, each in one compiler.", "anchors": ["include/tiny/optional.h: TINY_OPTIONAL_IMPL_COMPARE_BETWEEN_OPTIONALS", "include/tiny/optional.h: operator== ... operator<=>", "include/tiny/optional.h: TINY_OPTIONAL_GCC_WORKAROUND_CWG2445"]}
{"id": "C52", "title": "Assignment and construction select the right function", "statement": "o = nullopt and o = {} empty the optional, o = v with a value assigns the payload, o = other with an optional of the same type copies or moves the optional; construction from nullopt, {}, in_place, a value and an optional of the same type likewise; the conditions on U agree with those of std::optional.", "quantifier": "all payload types (described by their traits) and argument types", "why_tests_cant": "All payload types and argument types.", "anchors": ["include/tiny/optional.h: EnableConvertingConstructor", "include/tiny/optional.h: EnableConvertingAssignment", "include/tiny/optional.h: optional::operator=", "include/tiny/optional.h: TinyOptionalImpl::TinyOptionalImpl"]}
{"id": "C53", "title": "The free function swap exchanges via the member swap", "statement": "swap(a, b), called without qualification as generic code does (with std::swap visible), calls the member function swap: engaged payloads are exchanged with the payload's own swap, nothing is moved, and it is noexcept exactly if the member is. If another function is selected, the contents are exchanged nevertheless for payloads whose moves transfer the value.", "quantifier": "all optional types, payload traits, operand types, with and without std::swap being visible; for the effect all reachable states", "why_tests_cant": "Which function is called cannot be seen from the results for ordinary payloads, and depends on associated namespaces and traits.", "anchors": ["include/tiny/optional.h: impl::swap", "include/tiny/optional.h: TinyOptionalImpl::swap", "include/tiny/optional.h: optional"]}
{"id": "C54", "title": "make_optional and the deduction guide make the intended optional", "statement": "make_optional(v) and optional(v) have payload type decay_t of the argument's type and hold v; make_optional<T>(args...) has payload type T and constructs it in place from the arguments, whatever the arguments are; optional(o) for a tiny::optional o is a copy; sentinel arguments are passed on.", "quantifier": "all argument types and value categories, all numbers of arguments, with and without explicit template arguments", "why_tests_cant": "All argument types.", "anchors": ["include/tiny/optional.h: make_optional", "include/tiny/optional.h: optional(T) -> optional<T, UseDefaultValue, UseDefaultValue>"]}
{"id": "C55", "title": "std::hash is enabled exactly when it is for std::optional", "statement": "hash<O> is enabled for a tiny optional O exactly if hash of the payload type without const is enabled; then all tiny optionals with equal contents and the same payload type have the same hash, equal to that of the payload, independently of the way the empty state is stored.", "quantifier": "all payload types, all optional types, all states", "why_tests_cant": "All payload types and storage layouts.", "anchors": ["include/tiny/optional.h: EnableHashHelper", "include/tiny/optional.h: std::hash"]}
{"id": "C56", "title": "Accessors and monadic operations keep constness and value category", "statement": "For an expression o of every constness and value category exactly one overload of value(), operator*, operator->, value_or, and_then, transform and or_else is selected; value(), *o and the argument that and_then and transform pass to f are the payload with the constness and value category of a member access o.m; the type that the static assertions and the result type are computed from is the type of the call that is made; the operand from which value_or and or_else make their result in the engaged case is a modifiable rvalue exactly if o is one (what the conditional operator makes of it is C71).", "quantifier": "all object expressions, const and non-const payload types, all result types of f", "why_tests_cant": "Wrong const or && overloads compile and give correct values for most payloads; only the unnecessary copy or a move from an lvalue shows.", "anchors": ["include/tiny/optional.h: TinyOptionalImpl::operator*", "include/tiny/optional.h: TinyOptionalImpl::value", "include/tiny/optional.h: TinyOptionalImpl::value_or", "include/tiny/optional.h: TinyOptionalImpl::and_then", "include/tiny/optional.h: TinyOptionalImpl::transform", "include/tiny/optional.h: TinyOptionalImpl::or_else"]}
{"id": "C57", "title": "in_place construction and emplace pass on all arguments", "statement": "optional(in_place, args...) and emplace(args...) construct the payload from exactly these arguments in their order with their types and value categories, where a std::initializer_list or a braced list as first argument arrives as lvalue of type std::initializer_list if the payload can be constructed from it. No call is ambiguous, the constructor takes part in overload resolution exactly if the payload can be constructed like that, and an in_place_t is never stored.", "quantifier": "all argument lists of any length, all payload types given by which argument lists they can be constructed from", "why_tests_cant": "All argument lists.", "anchors": ["include/tiny/optional.h: TinyOptionalImpl::TinyOptionalImpl(std::in_place_t, ...)", "include/tiny/optional.h: TinyOptionalImpl::emplace", "include/tiny/optional.h: StorageBase::ConstructPayload"]}
{"id": "C58", "title": "Optionals of optionals", "statement": "A tiny optional whose payload is again a tiny optional (and so on, to any depth) behaves, over every history, like std::optional<std::optional<T>>: all calls have the corresponding outcomes, all variables show the corresponding nested contents, and the innermost payload operations and user functions are called in the same order with the same arguments.", "quantifier": "all payload types, any number of layers, all configurations of every layer, all histories of valid use (C01) over any number of nested optionals, including functions that modify the inner optional through a reference", "why_tests_cant": "Unbounded histories of any number of layers, each with any configuration, with exceptions at any point.", "anchors": ["include/tiny/optional.h: TinyOptionalImpl", "include/tiny/optional.h: TinyOptionalImpl::swap", "include/tiny/optional.h: StorageBase"]}
{"id": "C59", "title": "User code may use other optionals", "statement": "If the payload operations and the callables handed to an optional themselves construct, read, modify and destroy other tiny optionals, everything still behaves as with std::optional: the calls on the outer optionals have the prescribed outcomes, and the other optionals show the prescribed contents afterwards.", "quantifier": "all payload types on both sides, all configurations, all histories, all programs run by the user code, valid use (C01) on both levels", "why_tests_cant": "Quantifies over programs that are run inside of payload operations and callables.", "anchors": ["include/tiny/optional.h: TinyOptionalImpl", "include/tiny/optional.h: TinyOptionalImpl::and_then", "include/tiny/optional.h: StorageBase"]}
{"id": "C60", "title": "is_tiny_optional_v recognises the optionals of the library", "statement": "tiny::is_tiny_optional_v<T> is true for every optional type of the library, with or without const and volatile, and false for every other type: references, pointers, arrays, functions, void, std::optional, and all classes defined elsewhere.", "quantifier": "all types, including classes with arbitrary base classes and members", "why_tests_cant": "Quantifies over all types; classes can declare a member with the name that the trait looks for, inherit it over any number of levels, make it inaccessible or ambiguous.", "anchors": ["include/tiny/optional.h:250-269", "include/tiny/optional.h:1434", "README.md:264-265"]}
{"id": "C61", "title": "Threads", "statement": "Threads may use distinct optionals concurrently, and may share optionals that all of them only read: every call of the library accesses only the optionals it is given and writes only to those it may modify (const member functions, comparisons and std::hash write to none, the source of a copy is only read). Then no data race occurs, every thread finishes, and has the results it would have had alone, whatever the schedule.", "quantifier": "all thread programs made of calls of the library (also with user code that calls the library again), any number of threads, all schedules, all configurations and payloads, all starting states", "why_tests_cant": "The number of interleavings is unbounded; a data race (e.g. a const function that writes a value back) usually has no visible effect in a test, and a thread sanitizer only sees the executed schedule.", "anchors": ["include/tiny/optional.h:916-1148", "include/tiny/optional.h:1168-1383", "include/tiny/optional.h:1391-1855", "include/tiny/optional.h:2398-2805"]}
{"id": "C62", "title": "Re-entrancy", "statement": "User code that the library calls (payload constructors, assignments, swaps and destructors, comparison operators, hash functions, callables of and_then, transform, or_else) may itself use optionals, including the very ones the calling function works on, to any depth; only an optional whose payload is just being constructed or destroyed must not be used. Every such program has the results, exceptions and final state it would have with std::optional, and leaks no payload.", "quantifier": "all programs (any nesting depth, any control flow depending on results and exceptions), all configurations and payload types", "why_tests_cant": "Which optionals user code modifies, and at which of the library's call sites, are unbounded choices; a cached has_value() or a check after the call of user code goes wrong only for particular combinations.", "anchors": ["include/tiny/optional.h:955-1143", "include/tiny/optional.h:1179-1194", "include/tiny/optional.h:1236-1248", "include/tiny/optional.h:1293-1308", "include/tiny/optional.h:1353-1364", "include/tiny/optional.h:1532-1552", "include/tiny/optional.h:1632-1838", "include/tiny/optional.h:2437-2804"]}
{"id": "C63", "title": "Setting the empty state is always possible", "statement": "For every flag type and flag manipulator that the library accepts, becoming empty (default construction, reset, nullopt, and the cleanup after a payload constructor has thrown) neither throws nor terminates the program, and afterwards has_value() is false.", "quantifier": "all flag types (any behaviour of copy constructor, ==, assignment that their noexcept declarations permit), all manipulators, all states", "why_tests_cant": "Quantifies over all class types and over when their functions throw; the static_asserts are the only protection, and a test only shows that particular types are accepted or rejected.", "anchors": ["include/tiny/optional.h:230-247", "include/tiny/optional.h:709-759", "include/tiny/optional.h:815-850", "include/tiny/optional.h:925-959", "include/tiny/optional.h:1024-1080", "include/tiny/optional.h:1136-1143", "README.md:424-427", "README.md:642"]}
{"id": "C64", "title": "Any flag manipulator that fulfils the documented contract works", "statement": "Let is_empty be arbitrary code that returns true for every optional after init_empty_flag and false for every optional holding one of the values that are actually stored, whatever else happened before. Then every history of operations has the outcomes prescribed for std::optional, no assertion fails, and the library calls the manipulator's functions in the documented order only: init_empty_flag on memory without an object, invalidate_empty_flag on an initialised empty flag once before a payload is constructed (after which either the payload is constructed or init_empty_flag is called again), is_empty never on raw memory.", "quantifier": "all manipulators (is_empty an arbitrary function of all previous events and the global state), all payload types, all histories and all programs whose user code calls the library re-entrantly", "why_tests_cant": "A test fixes one manipulator; a call out of order stays unnoticed unless that manipulator happens to depend on it, e.g. by owning resources or by storing the flag elsewhere.", "anchors": ["include/tiny/optional.h:650-678", "include/tiny/optional.h:916-1148", "include/tiny/optional.h:1168-1383", "include/tiny/optional.h:1391-1838", "README.md:410-472"]}
{"id": "C65", "title": "The repository's own test suite of common operations passes for every instantiation", "statement": "The test ExerciseOptional (which the repository runs for std::optional as well as for selected tiny optionals) passes for every payload type whose copies equal the original, every way of storing the empty state (including arbitrary flag manipulators), and all test values that are not reserved: every call has exactly the asserted outcome, with swap being the member function as well as the generic std::swap.", "quantifier": "all payload types with regular copies and moves, all configurations, all flag manipulators fulfilling the contract, all test values, all effects of user code", "why_tests_cant": "The test is instantiated for a few dozen types with two values each; the claim is about all types, all sentinels and all values.", "anchors": ["tests/Exercises.h:89-785", "tests/ExerciseStdOptional.cpp", "include/tiny/optional.h:916-1148", "include/tiny/optional.h:1168-1838"]}
{"id": "C66", "title": "Defining TINY_OPTIONAL_USE_SEPARATE_BOOL_INSTEAD_OF_UB_TRICKS changes only the storage", "statement": "Every optional type that is accepted with some settings on some platform is also accepted, on every platform, when the macro that disables the platform specific tricks is defined; then nothing is stored in unused bits or in members (a separate bool takes their place) while explicit sentinels and user specialisations stay. No additional values become reserved, and every program that is legal with the tricks has the same observable results without them. (Exception that the code makes: optional_aip without sentinel for types whose unused bits were exploited is rejected.)", "quantifier": "all programs (types, specialisations, platforms), all settings, all uses of the library, all legal histories, and programs whose user code calls the library again", "why_tests_cant": "The repository runs its tests for two settings and a few dozen types; the claim relates both builds of arbitrary programs.", "anchors": ["README.md:660-676", "include/tiny/optional.h:60-130", "include/tiny/optional.h:1874-2088", "include/tiny/optional.h:2326-2385"]}
{"id": "C67", "title": "No special member function is trivial", "statement": "For every payload type, none of the default constructor, copy/move constructor, copy/move assignment operator and destructor of an optional is trivial, so std::is_trivially_copyable and all other std::is_trivially_* traits are false, also for classes derived from an optional. std::optional differs: it is trivially copyable for trivial payload types.", "quantifier": "all payload types (all combinations of their special members), all chains of derived classes", "why_tests_cant": "The repository does not test triviality at all; a test could sample types but not quantify over payloads or derived classes.", "anchors": ["README.md:154", "include/tiny/optional.h:1168-1383", "include/tiny/optional.h:1441-1446", "include/tiny/optional.h:978-983"]}
{"id": "C68", "title": "Specialisations of optional_flag_manipulator placed next to the type are seen by all instantiations", "statement": "If every specialisation of optional_flag_manipulator is placed before the definition of its type or close behind it (no use of the library in between), and the type cannot be used without its definition (a class, or an enumeration within a class), then in every translation unit that the compiler accepts every use of the library is compiled as if all specialisations were visible everywhere; in particular all translation units agree on the storage of every optional type. The storage depends only on the specialisations for the type of the flag. Without this the units silently get types of different size, and looking at an optional with the wrong one is undefined behaviour (optional_aip is rejected instead); forward declared enumerations are such a case.", "quantifier": "all programs of any number of translation units, all sets of explicit and partial specialisations, all uses of the library; for the run-time part all histories", "why_tests_cant": "The repository's tests are single programs whose specialisations are in place; a violation of the one-definition rule is not observable by a test within one translation unit.", "anchors": ["README.md:398-410", "README.md:530-545", "include/tiny/optional.h:217-220", "include/tiny/optional.h:864-898", "include/tiny/optional.h:1874-2088"]}
{"id": "C69", "title": "References to the contained value stay valid until std::optional ends its lifetime", "statement": "The contained value of a tiny optional is one object at one place. Every legal call, completed or left by an exception, keeps this object if std::optional keeps it: assigning a value, assigning from an engaged optional, moving from the optional, swapping two engaged optionals, a swap that fails, modification through references, value_or and the monadic functions. It is destroyed, exactly once, by the calls for which the standard says so: destruction, reset, = nullopt, emplace, assignment from an empty optional, swap with an empty one. Hence over whole histories a pointer or reference to the contained value is valid exactly as long as with std::optional, and reads the value std::optional contains. No call, legal or not, moves an object to another optional or brings a destroyed one back.", "quantifier": "all payload types, all configurations, all calls and legal histories over any number of optionals, all outcomes of user code", "why_tests_cant": "A reference can be taken at any point of any history and used at any later one; in-place construction over the old object gives the same address, so a test that compares addresses cannot tell whether the object was replaced.", "anchors": ["include/tiny/optional.h: TinyOptionalImpl", "include/tiny/optional.h: StorageBase", "include/tiny/optional.h: TinyOptionalImpl::swap", "include/tiny/optional.h:1168-1383"]}
{"id": "C70", "title": "A payload's destructor sees its optional engaged and may leave any value behind", "statement": "While reset, = nullopt, the destructor, emplace, assignment of an empty optional, or swap with an empty optional run the destructor of the contained value, that destructor sees the same state as just before (for swap: after the move construction): in every configuration the optional itself is still engaged with the value that is being destroyed, and all others are as before. What the destructor leaves behind in the object does not matter, not even if it is the reserved value (e.g. a pointer set to null whose null state is the sentinel): every call has the same effect as with a destructor that leaves the object alone. Emptying the optional again from there is undefined behaviour in every configuration.", "quantifier": "all payload types, all configurations, all destructors that observe anything or overwrite their object with any value, all states", "why_tests_cant": "The destructor is arbitrary user code; the repository has no test with a destructor that looks at its optional or clears its members.", "anchors": ["include/tiny/optional.h:978-983", "include/tiny/optional.h:1018-1021", "include/tiny/optional.h:1136-1143", "include/tiny/optional.h:1532-1552", "include/tiny/optional.h:1656-1678"]}
{"id": "C71", "title": "The results of value_or and or_else are initialised as for std::optional", "statement": "value_or and or_else return `has_value() ? A : B`. The conditional operator first converts A and B to a common type and value category. Nevertheless the result is copied, moved or constructed in place in each of the two cases exactly as [optional.observe] and [optional.monadic] prescribe: for a modifiable rvalue optional the payload is moved, otherwise copied; what the callable of or_else returns, and the default of value_or, initialises the result directly. No temporary is made, and the functions compile exactly if those of std::optional do.", "quantifier": "all qualifications of the optional, all return types of the callable (value, reference, const or not), payload types with any combination of copy and move constructors, const payload types, the wordings of [expr.cond] in C++17 and C++20", "why_tests_cant": "The common type depends on the combination of the optional's qualification with the callable's return type, and on the version of the language; the repository's tests of or_else return by value, where the operator happens to do no harm.", "anchors": ["include/tiny/optional.h:1630-1653", "include/tiny/optional.h:1817-1837", "include/tiny/optional.h:2250-2270"]}
{"id": "C72", "title": "The headers can be included in any order, any number of times, and depend only on the documented macros", "statement": "optional.h is rejected by #error exactly if the language is older than C++17, or the architecture is unknown and not all tricks are switched off. Otherwise the compiler sees exactly the pieces of the library that belong to the macros of the user and the compiler, each once, everything but optional_flag_manipulator and std::hash in the inline namespace tiny<version>_<bits>_<member>. If optional.h and optional_flag_manipulator_fwd.h are included any number of times, in any order, among #define, #undef and specialisations of optional_flag_manipulator, then the text of the library is the one for the macros at the first inclusion of optional.h, optional_flag_manipulator is declared once, at the first inclusion of any of the two, and the result obeys the language rules if every specialisation follows an inclusion. The forward header alone yields only the declaration. Two different copies of optional.h in one translation unit are always an error.", "quantifier": "all sets of macros defined by compiler and user (except the internal names of the library), all sequences of lines of a translation unit, all versions", "why_tests_cant": "The tests of the repository compile with a few compilers and settings; the orders of inclusion and the sets of macros are unbounded.", "anchors": ["include/tiny/optional.h:55-156", "include/tiny/optional.h:411-507", "include/tiny/optional.h:611-647", "include/tiny/optional.h:866-873", "include/tiny/optional.h:2702-2766", "include/tiny/optional_flag_manipulator_fwd.h:1-44"]}
{"id": "C73", "title": "Translation units with different settings can be linked, or the linker notices", "statement": "Whatever is defined in two translation units that include optional.h - with whatever versions, settings and compiler flags - has either different names in the two or the same definition. Functions that exchange objects of different layout have different names.", "quantifier": "all pairs of versions and of sets of macros, all entities of the header, all function signatures", "why_tests_cant": "Violations of the one definition rule need no diagnostic and usually show no symptoms.", "anchors": ["include/tiny/optional.h:106-130", "include/tiny/optional.h:217-220", "include/tiny/optional.h:883-889", "include/tiny/optional.h:1817-1837", "README.md:675-676"]}
{"id": "C74", "title": "Comparisons work for payloads whose comparison does not yield bool", "statement": "Two optionals, or an optional and a value, can be compared if the comparison of the payloads has a type that is convertible to bool. The result is that of std::optional; the payloads are compared once if both exist, and otherwise not at all.", "quantifier": "all result types (bool and classes with arbitrary conversions and operators), all six operators, all states of the two optionals", "why_tests_cant": "The types of users are unlimited, and the operators && and || that change the meaning of the comparison can be found by argument dependent lookup anywhere.", "anchors": ["include/tiny/optional.h:2437-2441", "include/tiny/optional.h:2465", "include/tiny/optional.h:2482-2486", "include/tiny/optional.h:2527-2530", "include/tiny/optional.h:2571-2574", "include/tiny/optional.h:2615-2618", "include/tiny/optional.h:2659-2662"]}
{"id": "C75", "title": "The exception specifications are those of std::optional", "statement": "For every expression of the interface, noexcept(e) has the same value for a tiny optional as for std::optional with the same payload.", "quantifier": "all payload types (all combinations of copy, move, assignment and swap traits, throwing or not, trivial or not), both class templates, all functions of the interface", "why_tests_cant": "A static_assert checks one payload and one function; the values result from overload resolution through six levels of defaulted members, and from rules about trivial functions.", "anchors": ["include/tiny/optional.h:820-821", "include/tiny/optional.h:924-928", "include/tiny/optional.h:1179", "include/tiny/optional.h:1236", "include/tiny/optional.h:1293-1294", "include/tiny/optional.h:1353", "include/tiny/optional.h:1656-1657", "include/tiny/optional.h:1852"]}
{"id": "C76", "title": "The examples of the README work as documented", "statement": "For each example in the README of a sentinel, a member flag or a custom flag manipulator: the manipulator fulfils its contract, exactly the values that the README allows can be stored, the optional is as large as the payload, programs that store only allowed values behave as with std::optional, and an attempt to assign another value to an empty optional triggers an assert.", "quantifier": "all nine optional types of the examples, all values of the payloads, all programs", "why_tests_cant": "The sets of allowed values have up to 2^160 elements, and programs are unlimited.", "anchors": ["README.md:79-90", "README.md:196-209", "README.md:337-395", "README.md:509-530", "README.md:569-656", "include/tiny/optional.h:230-247", "include/tiny/optional.h:593-646", "include/tiny/optional.h:765-850"]}
{"id": "C77", "title": "Throwing payload destructors end the program", "statement": "If the destructor of a contained value throws, the program ends with std::terminate at this point, in every function that destroys contained values. No such exception reaches a caller, and no handler in the program can see it.", "quantifier": "all configurations, all states, all destructors (arbitrary programs, which may use the library), all of reset, nullopt assignment, destructor, emplace, copy and move assignment, swap", "why_tests_cant": "std::terminate ends the test process, and the set of destructors is infinite.", "anchors": ["include/tiny/optional.h:978-983", "include/tiny/optional.h:1018-1021", "include/tiny/optional.h:1136-1143", "include/tiny/optional.h:1293-1308", "include/tiny/optional.h:1353-1364", "include/tiny/optional.h:1532-1552", "include/tiny/optional.h:1656-1678"]}
{"id": "C78", "title": "Payload and flag types may overload the unary & and allocation functions", "statement": "Wherever the library takes the address of a payload or flag or constructs an object in its place, it uses the address of the object, regardless of overloaded unary & operators, class-specific operator new and global placement operator new, and of const and volatile. The check that the assignment of the flag is noexcept depends on the assignment only.", "quantifier": "all types with arbitrary overloads of & and of allocation functions, all addresses, all expressions of the library that take an address", "why_tests_cant": "No test uses types with such overloads; there are infinitely many.", "anchors": ["include/tiny/optional.h:238-241", "include/tiny/optional.h:730-749", "include/tiny/optional.h:832-842", "include/tiny/optional.h:1049-1072", "include/tiny/optional.h:1086-1106", "include/tiny/optional.h:1561-1571"]}
{"id": "C79", "title": "Every call takes a bounded number of steps; threads never wait", "statement": "Every function of the library ends after a constant number of accesses to memory, calls of user code and beginnings and ends of lifetimes (at most 104, with a smaller number given for each function), whatever the memory contains and whatever other threads write between two steps. It calls user code a constant number of times; has_value, *, ->, value, default construction and comparisons with nullopt call none. If the user code itself calls the library, then what a function adds to the steps of its user code is constant as well. Hence a thread is finished after a number of its own steps that depends only on the number of its calls, including those of its user code, even in the presence of data races.", "quantifier": "all configurations, types, arguments and user functions; all contents of the memory at each step; all programs of all threads and all schedules", "why_tests_cant": "Tests see single executions; interference between two accesses inside of a function cannot be produced systematically, and a race is undefined behaviour for the test itself.", "anchors": ["include/tiny/optional.h:955-1143", "include/tiny/optional.h:1179-1194", "include/tiny/optional.h:1236-1248", "include/tiny/optional.h:1293-1308", "include/tiny/optional.h:1353-1364", "include/tiny/optional.h:1441-1855", "include/tiny/optional.h:2437-2764", "include/tiny/optional.h:2786-2804"]}
{"id": "C80", "title": "const and volatile payloads and flags", "statement": "For every optional that the library compiles, whatever the qualifiers of the payload and of the member that holds the flag: all references in the storage layer bind without a cast, has_value() reads the flag through a type that the language allows for the object (no read of a volatile object through a type that is not volatile), and the expression that denotes the payload refers to the payload that was constructed last, after every sequence of operations.", "quantifier": "all programs, ways to write the optional type, qualifiers of payload and member, manipulators; optionals with and without a value; all histories", "why_tests_cant": "Tests instantiate a few qualified types, and undefined behaviour of a volatile access or of a stale name is not visible in their results; the tests in the repository contain it.", "anchors": ["include/tiny/optional.h:510-547", "include/tiny/optional.h:578-645", "include/tiny/optional.h:680-850", "include/tiny/optional.h:883-898", "include/tiny/optional.h:917-1148", "tests/ExerciseTinyOptionalPayload2.cpp:33-57"]}
{"id": "C81", "title": "Nothing but the sentinel helpers is usable at compile time; static optionals", "statement": "No constructor, destructor, observer, modifier, comparison, hash or monadic function of an optional can be called in a constant expression, even if all user code is constexpr, and the type is not a literal type; exactly the helpers for the selection of types and the conversion of sentinels can. Hence an optional with static storage duration is not initialised at compile time: before its constructor runs it answers that it has a value, with a separate flag, with every bit pattern of the library, and with every explicit sentinel different from zero.", "quantifier": "all functions, all flag manipulators, all types, both editions of the standard", "why_tests_cant": "That no call is a constant expression would need a test that fails to compile for each function; the state before dynamic initialisation is only seen by code that runs earlier, which no test does.", "anchors": ["include/tiny/optional.h:355-380", "include/tiny/optional.h:517-547", "include/tiny/optional.h:775-814", "include/tiny/optional.h:955-1143", "include/tiny/optional.h:1682-1838", "include/tiny/optional.h:2253-2270", "README.md:155"]}
{"id": "C82", "title": "Optionals in one memory do not disturb each other or their surroundings", "statement": "However optionals are placed in memory (adjacent, in arrays, as members or bases, with other objects in the padding behind a separate flag, in memory that another optional occupied before), every program has the results it would have if each optional had a memory of its own, and hence those of std::optional for legal histories, provided that no two optionals that exist at the same time have a payload or flag byte in common. No byte is changed except payload and flag bytes of optionals that the program may modify. This includes user code that calls the library while the library is calling it.", "quantifier": "all programs of library calls, with all user code in them that calls the library, all placements, all contents of the memory, all payload types and flag manipulators", "why_tests_cant": "A write that is one byte too long is only visible if something else is there and is looked at afterwards; the tests use single optionals and never place objects into tail padding.", "anchors": ["include/tiny/optional.h:516-544", "include/tiny/optional.h:682-700", "include/tiny/optional.h:729-758", "include/tiny/optional.h:955-1143", "include/tiny/optional.h:1147"]}
{"id": "C83", "title": "Optionals can be relocated by copying their bytes", "statement": "An optional contains nothing that depends on its address. If at any time between two calls the payload and flag bytes of an optional are copied to another place (as containers do for types declared trivially relocatable) and the optional is used there from then on, all later calls have the results that they have without relocation, provided the payload itself can be relocated and the new place is free. Padding need not be copied.", "quantifier": "all sequences of calls (or of programs whose user code calls the library) and relocations between them, all placements, all payload types and flag manipulators", "why_tests_cant": "The tests never move the bytes of an optional; a hidden pointer to itself or a flag outside of the object would go unnoticed.", "anchors": ["include/tiny/optional.h:516-544", "include/tiny/optional.h:577-655", "include/tiny/optional.h:1147"]}
{"id": "C84", "title": "The bytes of an optional determine its state", "statement": "Two optionals of one type that hold the same payload and flag bytes are both empty or hold the same value, if values of the payload and flag type are determined by their bytes. Two optionals with the same value have the same bytes, and so have the flags of two empty ones. Hence bytewise comparison, serialisation and bytewise copies of optionals of such types are faithful.", "quantifier": "all reachable states, all payload types whose bytes determine the value, all flag manipulators", "why_tests_cant": "It is a statement about all pairs of reachable states; the tests never look at the bytes of an optional.", "anchors": ["include/tiny/optional.h:230-247", "include/tiny/optional.h:516-544", "include/tiny/optional.h:682-700", "include/tiny/optional.h:729-758", "include/tiny/optional.h:818-849"]}
{"id": "C85", "title": "The library stores no value that user code did not make", "statement": "Every value that an optional contains was made by a constructor, an assignment, a swap or a callable of the user from values that were there before. Hence, if every piece of user code makes only values of a set (one set per optional) from values of these sets, and no set contains a reserved value, then every optional contains only values of its set at any time, no reserved value is ever stored, and every history that has a meaning for std::optional has the results that it has with std::optional. Nobody has to look at the values that occur at run time. The same holds for programs whose user code calls the library while the library is calling it, with the exceptions of C62; user code can then rely on reading only values of the sets.", "quantifier": "all sets of values, all payload types and functions of the user that keep them, all configurations, all histories, all re-entrant programs", "why_tests_cant": "It turns the precondition of the library (never store the reserved value), which concerns all values at run time, into one about each function of the user separately; tests only check the histories that they execute.", "anchors": ["include/tiny/optional.h:1043-1114", "include/tiny/optional.h:1117-1143", "include/tiny/optional.h:1179-1194", "include/tiny/optional.h:1236-1248", "include/tiny/optional.h:1293-1308", "include/tiny/optional.h:1353-1364", "include/tiny/optional.h:1656-1678", "README.md:105-116"]}
{"id": "C86", "title": "optional<double> and optional<float> work if values are copied through x87 registers", "statement": "On x86, which the library supports, compilers may copy a double or float through a register of the x87 FPU, which makes a signalling NaN quiet. However each single copy is made: a copy of an optional with a value has a value, and the sign of an empty optional is recognised.", "quantifier": "all bit patterns, all ways to make each copy (as integer or through a register), all histories", "why_tests_cant": "The tests copy one signalling NaN, and the way in which copies are made is the compiler's choice.", "anchors": ["include/tiny/optional.h:67-70", "include/tiny/optional.h:431-454", "include/tiny/optional.h:729-749", "README.md:108", "README.md:798-801"]}
{"id": "C87", "title": "The monadic operations obey the monad laws", "statement": "Chains of monadic calls can be regrouped and fused: x.and_then(f).and_then(g) is x.and_then(v -> f(v).and_then(g)), also if f or g throws; x.and_then(make) and x.transform(identity) are copies of x; an optional made from v followed by and_then(f) is f(v); x.transform(f).transform(g) is x.transform(g after f); x.transform(f) is x.and_then of f followed by make; x.or_else(f).or_else(g) is x.or_else(f, then g if that is empty). Same: the same result or exception, the same effects of user code in the same order, the same optionals afterwards. The intermediate optional may have any type, with any sentinel, provided it can store what f returns; without this the laws fail.", "quantifier": "all callables (with effects, possibly throwing where C17 permits), all contents, all configurations of source, intermediate and result, all reachable states", "why_tests_cant": "The tests call single operations with a few callables; equality of chains for all callables is a statement about all values, effects and exceptions.", "anchors": ["include/tiny/optional.h:1681-1731", "include/tiny/optional.h:1733-1814", "include/tiny/optional.h:1817-1841", "include/tiny/optional.h:1293-1308"]}
{"id": "C88", "title": "Optionals handed over between threads", "statement": "Threads may pass optionals on to each other, e.g. by means of a mutex: if sections of calls that run at the same time never use an optional in common that one of them modifies, then no data race occurs, and all results, all user states and all contents are those of an execution in which every section runs in one go at the moment it begins. In particular every optional behaves like a std::optional under the same lock. Between sections threads may communicate in any way, and may choose what they do next and which optionals they use depending on it.", "quantifier": "all numbers of threads, all sequences of sections (any calls of the library, also with user code that calls the library again), all footprints of sections, all interleavings of their single accesses, all configurations and payloads", "why_tests_cant": "The tests have one thread. Atomicity of sections is a statement about all interleavings of single memory accesses with hand-overs at arbitrary moments; e.g. a function that still touches its optional after it reported its result would only fail in rare schedules.", "anchors": ["include/tiny/optional.h:916-1148", "include/tiny/optional.h:1168-1383", "include/tiny/optional.h:1391-1855", "include/tiny/optional.h:2398-2805"]}
{"id": "C89", "title": "Weak memory", "statement": "C88 does not need sequentially consistent memory. It suffices that what a section wrote is visible to later sections that use the same optionals (what locking and unlocking a mutex guarantees); apart from this, writes may become visible to other threads early, late, partially, in any order, and a thread may see arbitrary outdated or invented contents of optionals that its section does not use. Results, user states and contents are nevertheless those of the execution in which every section runs in one go when it begins, and no data race occurs.", "quantifier": "all numbers of threads, all sequences of sections and footprints, all interleavings, all orders and moments at which writes become visible, all contents of memory that no section may rely on", "why_tests_cant": "Effects of weak memory depend on the processor and the optimiser; a dependency on memory outside of the declared footprint (e.g. a check of a neighbouring optional) would only show on some machines.", "anchors": ["include/tiny/optional.h:916-1148", "include/tiny/optional.h:1168-1383", "include/tiny/optional.h:1391-1855", "include/tiny/optional.h:2398-2805"]}
{"id": "C90", "title": "The benchmark measures the same work", "statement": "The program with which the repository compares the speed of tiny::optional<double> and std::optional<double> (performance/main.cpp) computes with both the same: the same number of empty optionals, and the same total in every iteration, namely the sum of the squared lengths of all rows that have at least one coordinate, missing ones counting as zero. It stores the reserved NaN in no optional, whatever the random numbers are and whatever the rounding mode is, has no undefined behaviour, throws nothing, terminates, destroys all optionals and leaks nothing.", "quantifier": "all generators of random numbers and seeds, all moduli, all numbers of elements and iterations, all double arithmetic whose results are as IEEE 754 and x86 SSE say, builds with and without asserts", "why_tests_cant": "The measured times mean something only if both halves do the same for all of the 28 workloads, up to 10^10 calls each; the program prints the totals but compares nothing.", "anchors": ["performance/main.cpp:32-36", "performance/main.cpp:43-87", "performance/main.cpp:95-125", "performance/main.cpp:144-163", "include/tiny/optional.h:431-440", "include/tiny/optional.h:1532-1552", "include/tiny/optional.h:1632-1653"]}
{"id": "C91", "title": "In-place algorithms permute optionals", "statement": "An algorithm that changes optionals only by swapping them (std::sort, std::reverse, std::rotate, std::partition and the like, if implemented with swaps), and that otherwise only compares them and looks at them, leaves a permutation of the optionals that were there: no value and no empty state is lost or duplicated, also if a comparison throws halfway, or itself swaps elements. In particular, insertion sort with operator< sorts any number of tiny optionals, empty ones first. Payloads may have any value after they have been moved from, as long as it is not the reserved one.", "quantifier": "all programs made of swaps, comparisons, accesses and user code, all reachable states, all sets of optionals of one type, all payload types whose swap exchanges and whose move keeps the value, all strict weak orders", "why_tests_cant": "There are n! permutations and unboundedly many algorithms; a loss shows only for particular patterns of empty and engaged optionals, since swap has four different cases.", "anchors": ["include/tiny/optional.h:1656-1678", "include/tiny/optional.h:2525-2533", "include/tiny/optional.h:1136-1143"]}
{"id": "C92", "title": "Growing a vector of optionals has the strong exception guarantee", "statement": "When std::vector<tiny::optional<T>> gets a larger buffer, it moves its elements if their move constructor is noexcept and copies them otherwise, and destroys what it has made if a copy throws. With the noexcept specification of the library this gives what it gives for std::optional: either all elements are in the new buffer, with the same values and the same empty ones, and the old ones are destroyed; or an exception leaves the function, which happens only if T's move constructor may throw, and the old elements are exactly as they were, the new ones are gone. If T can not be copied and its move constructor throws, the old elements have at least kept whether they have a value. Other optionals are not touched and nothing is leaked in either case.", "quantifier": "all payload types whose copies and moves keep the value, with copy constructors that throw at arbitrary times and depending on the state of the program; all reachable states, all numbers of elements, all patterns of empty elements", "why_tests_cant": "The copy may throw at any element, with any pattern of empty elements before it; tests of the repository count constructor calls of single optionals only.", "anchors": ["include/tiny/optional.h:1165-1195", "include/tiny/optional.h:1222-1249", "include/tiny/optional.h:978-983"]}
{"id": "C93", "title": "Erasing an element of a vector of optionals", "statement": "std::vector<tiny::optional<T>>::erase move-assigns every element behind the position to the one before it and destroys the last one. For tiny optionals this does what it does for std::optional: if nothing throws, the elements before the position are unchanged and those behind it, with and without values, have moved up by one; the last one is destroyed. If T's move assignment or move constructor throws, which happens only if one of them is not noexcept, there is one element at which it happened: everything before it has moved up, everything behind its successor is unchanged, and these two have kept whether they have a value. In both cases optionals outside of the vector are unchanged, nothing is leaked or destroyed twice.", "quantifier": "all payload types whose moves keep the value and leave storable values behind, with moves that throw at arbitrary times and depending on the state of the program; all reachable states, all numbers of elements and positions, all patterns of empty elements", "why_tests_cant": "All four cases of move assignment (with and without value on both sides) occur in every order, with moved-from targets, and any of them may throw; the tests of the repository assign pairs of fresh optionals.", "anchors": ["include/tiny/optional.h:1280-1311", "include/tiny/optional.h:1117-1134", "include/tiny/optional.h:978-983"]}
{"id": "C94", "title": "Inserting an element into a vector of optionals", "statement": "std::vector<tiny::optional<T>>::insert into the middle of a vector with spare capacity move-constructs a new last element from the previous last one, move-assigns the others from the back to the front, and finally move-assigns the new element. For tiny optionals this does what it does for std::optional: if nothing throws, the elements before the position are unchanged, at the position is the new element, the others, with and without values, have moved down by one. If T's move constructor or move assignment throws, which happens only if one of them is not noexcept, every element still exists and is empty or holds a value that can be stored, and those before the position are unchanged. In both cases optionals outside of the vector are unchanged, nothing is leaked or destroyed twice.", "quantifier": "all payload types whose moves keep the value and leave storable values behind, with moves that throw at arbitrary times and depending on the state of the program; all reachable states, all numbers of elements and positions, all patterns of empty elements, new elements with and without value", "why_tests_cant": "All four cases of move assignment (with and without value on both sides) occur in every order, with moved-from targets, and any of them may throw; the tests of the repository assign pairs of fresh optionals.", "anchors": ["include/tiny/optional.h:1165-1195", "include/tiny/optional.h:1280-1311", "include/tiny/optional.h:1117-1134"]}
