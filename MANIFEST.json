{
 "claims": [
  {
   "property": "C01",
   "status": "proved",
   "theorems": [
    "Verif.Props.C01_drop_in",
    "Verif.Props.C01_drop_in_separate",
    "Verif.Props.C01_step",
    "Verif.Props.C01_sees"
   ],
   "note": "transform with a callable that can throw and a nothrow movable result is excluded by StepOK when the callable actually throws, see C17."
  },
  {
   "property": "C02",
   "status": "proved",
   "theorems": [
    "Verif.Props.C02_no_abort",
    "Verif.Props.C02_ndebug_irrelevant"
   ],
   "note": "Same exclusion as C01."
  },
  {
   "property": "C03",
   "status": "proved",
   "theorems": [
    "Verif.Props.C03_accounting",
    "Verif.Props.C03_balance",
    "Verif.Props.C03_all_destroyed"
   ],
   "note": ""
  },
  {
   "property": "C04",
   "status": "proved",
   "theorems": [
    "Verif.Props.C04_default_ctor"
   ],
   "note": ""
  },
  {
   "property": "C05",
   "status": "proved",
   "theorems": [
    "Verif.Props.C05_ctor",
    "Verif.Props.C05_emplace_engaged",
    "Verif.Props.C05_emplace_empty",
    "Verif.Props.C05_assign_empty",
    "Verif.Props.C05_assign_engaged",
    "Verif.Props.C05_read_back"
   ],
   "note": ""
  },
  {
   "property": "C06",
   "status": "proved",
   "theorems": [
    "Verif.Props.C06_emplace_throws_engaged",
    "Verif.Props.C06_emplace_throws_empty",
    "Verif.Props.C06_assign_throws_empty",
    "Verif.Props.C06_ctor_throws"
   ],
   "note": ""
  },
  {
   "property": "C07",
   "status": "proved",
   "theorems": [
    "Verif.Props.C07_assign_throws",
    "Verif.Props.C08_copy_assign_engaged",
    "Verif.Props.C09_move_assign_engaged"
   ],
   "note": ""
  },
  {
   "property": "C08",
   "status": "proved",
   "theorems": [
    "Verif.Props.C08_copy_ctor_empty",
    "Verif.Props.C08_copy_ctor",
    "Verif.Props.C08_copy_ctor_throws",
    "Verif.Props.C08_copy_assign_engaged",
    "Verif.Props.C08_copy_assign_to_empty",
    "Verif.Props.C08_copy_assign_to_empty_throws",
    "Verif.Props.C08_assign_from_empty",
    "Verif.Props.C08_assign_empty_empty"
   ],
   "note": ""
  },
  {
   "property": "C09",
   "status": "proved",
   "theorems": [
    "Verif.Props.C09_move_ctor",
    "Verif.Props.C09_move_ctor_throws",
    "Verif.Props.C09_move_ctor_empty",
    "Verif.Props.C09_move_assign_engaged",
    "Verif.Props.C09_move_assign_to_empty",
    "Verif.Props.C09_move_assign_to_empty_throws",
    "Verif.Props.C08_assign_from_empty",
    "Verif.Props.C08_assign_empty_empty"
   ],
   "note": ""
  },
  {
   "property": "C10",
   "status": "proved",
   "theorems": [
    "Verif.Props.C10_swap_engaged",
    "Verif.Props.C10_swap_mixed",
    "Verif.Props.C10_swap_mixed_throws",
    "Verif.Props.C10_swap_empty"
   ],
   "note": ""
  },
  {
   "property": "C11",
   "status": "proved",
   "theorems": [
    "Verif.Props.C11_self_copy_assign",
    "Verif.Props.C11_self_move_assign",
    "Verif.Props.C11_self_swap",
    "Verif.Props.C11_self_empty"
   ],
   "note": ""
  },
  {
   "property": "C12",
   "status": "proved",
   "theorems": [
    "Verif.Props.C12_reset_engaged",
    "Verif.Props.C12_reset_empty",
    "Verif.Props.C52_braces_empties"
   ],
   "note": ""
  },
  {
   "property": "C13",
   "status": "proved",
   "theorems": [
    "Verif.Props.C13_value_throws_iff",
    "Verif.Props.C13_observers_pure"
   ],
   "note": ""
  },
  {
   "property": "C14",
   "status": "proved",
   "theorems": [
    "Verif.Props.C14_value_or_lvalue",
    "Verif.Props.C14_value_or_rvalue",
    "Verif.Props.C14_value_or_empty"
   ],
   "note": ""
  },
  {
   "property": "C15",
   "status": "proved",
   "theorems": [
    "Verif.Props.C15_and_then",
    "Verif.Props.C15_and_then_throws",
    "Verif.Props.C15_monadic_empty"
   ],
   "note": ""
  },
  {
   "property": "C16",
   "status": "proved",
   "theorems": [
    "Verif.Props.C16_transform",
    "Verif.Props.C15_monadic_empty"
   ],
   "note": ""
  },
  {
   "property": "C17",
   "status": "partial",
   "theorems": [
    "Verif.Props.C17_transform_throws_partial",
    "Verif.Props.C17_transform_terminates",
    "Verif.Props.C17_result_type_partial",
    "Verif.Props.C17_false"
   ],
   "note": "False if the result is nothrow constructible from what f returns (nothrow move constructor, or nothrow copy constructor if f returns a const object; C17_result_type_partial is exact): std::terminate is called (C17_false is a concrete witness)."
  },
  {
   "property": "C18",
   "status": "proved",
   "theorems": [
    "Verif.Props.C18_or_else_lvalue",
    "Verif.Props.C18_or_else_rvalue",
    "Verif.Props.C18_or_else_empty"
   ],
   "note": ""
  },
  {
   "property": "C19",
   "status": "proved",
   "theorems": [
    "Verif.Props.C19_between_tiny",
    "Verif.Props.C19_with_std",
    "Verif.Props.C19_spaceship",
    "Verif.Props.C19_spaceship_std",
    "Verif.Props.C19_nullopt",
    "Verif.Props.C19_spaceship_nullopt",
    "Verif.Props.C19_value",
    "Verif.Props.C19_spaceship_value",
    "Verif.Props.C19_value_spaceship",
    "Verif.Props.C19_views"
   ],
   "note": ""
  },
  {
   "property": "C20",
   "status": "proved",
   "theorems": [
    "Verif.Props.C20_total_order"
   ],
   "note": ""
  },
  {
   "property": "C21",
   "status": "proved",
   "theorems": [
    "Verif.Props.C21_hash",
    "Verif.Props.C21_hash_eq"
   ],
   "note": ""
  },
  {
   "property": "C22",
   "status": "proved",
   "theorems": [
    "Verif.Props.C22_double_reserved",
    "Verif.Props.C22_float_reserved",
    "Verif.Props.C22_double_ordinary",
    "Verif.Props.C22_float_ordinary",
    "Verif.Props.C22_sentinels_quiet",
    "Verif.Props.C22_is_empty",
    "Verif.Props.C22_sizes",
    "Verif.Props.C22_wf",
    "Verif.Props.C22_double_round_trip"
   ],
   "note": ""
  },
  {
   "property": "C23",
   "status": "proved",
   "theorems": [
    "Verif.Props.C23_bool",
    "Verif.Props.C23_is_empty",
    "Verif.Props.C23_drop_in"
   ],
   "note": ""
  },
  {
   "property": "C24",
   "status": "proved",
   "theorems": [
    "Verif.Props.C24_x64",
    "Verif.Props.C24_x86",
    "Verif.Props.C24_x64_aligned",
    "Verif.Props.C24_five_level"
   ],
   "note": ""
  },
  {
   "property": "C25",
   "status": "proved",
   "theorems": [
    "Verif.Props.C25_double_op",
    "Verif.Props.C25_float_op",
    "Verif.Props.C25_programs",
    "Verif.Props.C25_default_inputs"
   ],
   "note": ""
  },
  {
   "property": "C26",
   "status": "proved",
   "theorems": [
    "Verif.Props.C26_range_check",
    "Verif.Props.C26_convert"
   ],
   "note": ""
  },
  {
   "property": "C27",
   "status": "partial",
   "theorems": [
    "Verif.Props.C27_unchanged_partial",
    "Verif.Props.C27_enum",
    "Verif.Props.C27_accepted",
    "Verif.Props.C27_rejected",
    "Verif.Props.C27_false"
   ],
   "note": "False for unscoped enumeration constants with an integral flag type: they are truncated without diagnostics (C27_false is a concrete witness, C27_enum says exactly when the value survives, C27_accepted which constants are accepted at all). All other kinds are proved."
  },
  {
   "property": "C28",
   "status": "partial",
   "theorems": [
    "Verif.Props.C28_never_ambiguous",
    "Verif.Props.C28_documented_partial",
    "Verif.Props.C28_rejected_partial",
    "Verif.Props.C28_extended",
    "Verif.Props.C28_false",
    "Verif.Props.C28_wf"
   ],
   "note": "False for extended floating point types (C28_false; C28_extended says what happens: always rejected with an internal error). For all other flag types the selection equals the documented table and every rejection is characterised."
  },
  {
   "property": "C29",
   "status": "proved",
   "theorems": [
    "Verif.Props.C29_in_place",
    "Verif.Props.C29_separate",
    "Verif.Props.C29_flag_offset",
    "Verif.Props.C29_compiled"
   ],
   "note": ""
  },
  {
   "property": "C30",
   "status": "partial",
   "theorems": [
    "Verif.Props.C30_in_place_partial",
    "Verif.Props.C30_automatic",
    "Verif.Props.C30_integers",
    "Verif.Props.C30_rejected",
    "Verif.Props.C30_false",
    "Verif.Props.C30_false_member"
   ],
   "note": "False with an explicit UseDefaultValue and for a member pointer with the macro that disables storage in members (two witnesses). C30_in_place_partial says these are the only exceptions."
  },
  {
   "property": "C31",
   "status": "proved",
   "theorems": [
    "Verif.Props.C31_location",
    "Verif.Props.C31_enter",
    "Verif.Props.C31_leave",
    "Verif.Props.C31_storable",
    "Verif.Props.C31_other_members",
    "Verif.Props.C31_empty_bits",
    "Verif.Props.C31_empty_value"
   ],
   "note": ""
  },
  {
   "property": "C32",
   "status": "proved",
   "theorems": [
    "Verif.Props.C32_returns_engaged",
    "Verif.Props.C33_transfer_returns",
    "Verif.Props.C32_ctor",
    "Verif.Props.C32_assign_empty",
    "Verif.Props.C32_assign_engaged",
    "Verif.Props.C32_emplace",
    "Verif.Props.C32_copy_ctor",
    "Verif.Props.C32_move_ctor",
    "Verif.Props.C32_copy_assign_empty",
    "Verif.Props.C32_move_assign_empty",
    "Verif.Props.C32_copy_assign_engaged",
    "Verif.Props.C32_move_assign_engaged",
    "Verif.Props.C32_move_assign_self",
    "Verif.Props.C32_transform"
   ],
   "note": ""
  },
  {
   "property": "C33",
   "status": "proved",
   "theorems": [
    "Verif.Props.C33_transfer_returns",
    "Verif.Props.C33_move_ctor",
    "Verif.Props.C33_move_assign_empty",
    "Verif.Props.C33_move_assign_engaged"
   ],
   "note": ""
  },
  {
   "property": "C34",
   "status": "partial",
   "theorems": [
    "Verif.Props.C34_flag_accounting_partial",
    "Verif.Props.C34_no_abandon_partial",
    "Verif.Props.C34_flag_balance_false",
    "Verif.Props.C34_dtor_empty_abandons"
   ],
   "note": "The property as documented is false: the destructor of an empty optional does not call invalidate_empty_flag. Witness, generality of the failure, and exact accounting are proved."
  },
  {
   "property": "C35",
   "status": "proved",
   "theorems": [
    "Verif.Props.C35_default",
    "Verif.Props.C35_double",
    "Verif.Props.C35_double_reserved"
   ],
   "note": ""
  },
  {
   "property": "C36",
   "status": "proved",
   "theorems": [
    "Verif.Props.C36_frame",
    "Verif.Props.C36_existence",
    "Verif.Props.C36_frame_history",
    "Verif.Props.C36_frame_reentrant",
    "Verif.Props.C36_existence_reentrant"
   ],
   "note": ""
  },
  {
   "property": "C37",
   "status": "proved",
   "theorems": [
    "Verif.Props.C37_always",
    "Verif.Props.C37_payload",
    "Verif.Props.C37_no_terminate"
   ],
   "note": ""
  },
  {
   "property": "C38",
   "status": "proved",
   "theorems": [
    "Verif.Props.C38_derived",
    "Verif.Props.C38_derived_implicit",
    "Verif.Props.C38_std",
    "Verif.Props.C38_hierarchy",
    "Verif.Props.C38_fallback"
   ],
   "note": ""
  },
  {
   "property": "C39",
   "status": "proved",
   "theorems": [
    "Verif.Props.C39_no_tricks",
    "Verif.Props.C39_std",
    "Verif.Props.C39_compiles"
   ],
   "note": ""
  },
  {
   "property": "C40",
   "status": "proved",
   "theorems": [
    "Verif.Props.C40_injective",
    "Verif.Props.C40_versions",
    "Verif.Props.C40_mixing"
   ],
   "note": ""
  },
  {
   "property": "C41",
   "status": "proved",
   "theorems": [
    "Verif.Props.C41_assign_own_payload",
    "Verif.Props.C41_move_assign_own_payload",
    "Verif.Props.C41_emplace_own_payload"
   ],
   "note": ""
  },
  {
   "property": "C42",
   "status": "proved",
   "theorems": [
    "Verif.Props.C42_assign_scalar",
    "Verif.Props.C42_ctor_eq_emplace"
   ],
   "note": ""
  },
  {
   "property": "C43",
   "status": "partial",
   "theorems": [
    "Verif.Props.C43_agrees_partial",
    "Verif.Props.C43_sound",
    "Verif.Props.C43_namespace",
    "Verif.Props.C43_false",
    "Verif.Props.C43_false_user"
   ],
   "note": "Qualified bool/float/double and void* get no visualizer (C43_false), and a user's explicit specialisation for one of the built-in types is misread (C43_false_user). For all other optionals in the claim the debugger agrees with has_value on every storage state, and it is never wrong for library manipulators."
  },
  {
   "property": "C44",
   "status": "proved",
   "theorems": [
    "Verif.Props.C44_call",
    "Verif.Props.C44_run",
    "Verif.Props.C44_until_stop",
    "Verif.Props.C44_reentrant"
   ],
   "note": ""
  },
  {
   "property": "C45",
   "status": "proved",
   "theorems": [
    "Verif.Props.C45_observers",
    "Verif.Props.C45_comparisons",
    "Verif.Props.C45_nullopt",
    "Verif.Props.C45_value_hash",
    "Verif.Props.C45_copy_source"
   ],
   "note": ""
  },
  {
   "property": "C46",
   "status": "proved",
   "theorems": [
    "Verif.Props.C46_writes",
    "Verif.Props.C46_keeps",
    "Verif.Props.C46_no_out_of_bounds",
    "Verif.Props.C46_reads",
    "Verif.Props.C46_writes_reentrant",
    "Verif.Props.C46_keeps_reentrant",
    "Verif.Props.C46_no_out_of_bounds_reentrant"
   ],
   "note": ""
  },
  {
   "property": "C47",
   "status": "proved",
   "theorems": [
    "Verif.Props.C47_run",
    "Verif.Props.C47_observers",
    "Verif.Props.C47_reentrant"
   ],
   "note": ""
  },
  {
   "property": "C48",
   "status": "partial",
   "theorems": [
    "Verif.Props.C48_marks_partial",
    "Verif.Props.C48_exact",
    "Verif.Props.C48_wide",
    "Verif.Props.C48_false",
    "Verif.Props.C48_explicit_rejected",
    "Verif.Props.C48_false_default"
   ],
   "note": "False in the code for constants that are not values of a payload type narrower than int (or narrower than the constant's type): nothing is ever recognised as empty (C48_false, C48_false_default). Proved for all constants of the payload type and for all payload types at least as wide as int and the constant; C48_exact describes every case."
  },
  {
   "property": "C49",
   "status": "proved",
   "theorems": [
    "Verif.Props.C49_drop_in",
    "Verif.Props.C49_reentrant",
    "Verif.Props.C49_sharp"
   ],
   "note": ""
  },
  {
   "property": "C50",
   "status": "partial",
   "theorems": [
    "Verif.Props.C50_others_partial",
    "Verif.Props.C50_false",
    "Verif.Props.C50_separate",
    "Verif.Props.C50_in_place"
   ],
   "note": "False in every configuration (C50_false): with a separate flag the optional under construction claims to have a value and reading it is undefined behaviour (C50_separate), in place already has_value() is undefined behaviour (C50_in_place). The part that holds: all other optionals are seen unchanged."
  },
  {
   "property": "C51",
   "status": "partial",
   "theorems": [
    "Verif.Props.C51_selects",
    "Verif.Props.C51_selects_three",
    "Verif.Props.C51_same_operator",
    "Verif.Props.C51_ordering",
    "Verif.Props.C51_meaning",
    "Verif.Props.C51_meaning_three",
    "Verif.Props.C51_result_partial",
    "Verif.Props.C51_false",
    "Verif.Props.C51_false_gcc",
    "Verif.Props.C51_false_derived",
    "Verif.Props.C51_ambiguous_derived",
    "Verif.Props.C51_better_asymm",
    "Verif.Props.C51_unique"
   ],
   "note": "Selection is proved for all operand types, modes and constraint answers. False: in C++20 ordering operators use <=> of the payloads (C51_false; C51_ordering says exactly when), and gcc without CWG 2445 lacks an overload for std::optional <=> optional_inplace (C51_false_gcc). C51_result_partial: the prescribed result for payloads with consistent <=>. Classes derived from an optional and compared with std::optional are outside of the positive theorems (C51_false_derived, C51_ambiguous_derived)."
  },
  {
   "property": "C52",
   "status": "partial",
   "theorems": [
    "Verif.Props.C52_assign_nullopt",
    "Verif.Props.C52_assign_self",
    "Verif.Props.C52_assign_braces",
    "Verif.Props.C52_assign_braces_iff",
    "Verif.Props.C52_braces_empties",
    "Verif.Props.C52_assign_value",
    "Verif.Props.C52_assign_constraints",
    "Verif.Props.C52_construct_nullopt",
    "Verif.Props.C52_construct_self",
    "Verif.Props.C52_construct_in_place",
    "Verif.Props.C52_construct_value",
    "Verif.Props.C52_construct_braces",
    "Verif.Props.C52_construct_constraints_partial",
    "Verif.Props.C52_false_bool",
    "Verif.Props.C52_false_derived",
    "Verif.Props.C52_construct_vs_assign",
    "Verif.Props.C52_cases",
    "Verif.Props.C52_assign_derived",
    "Verif.Props.C52_construct_derived",
    "Verif.Props.C52_assign_base",
    "Verif.Props.C52_assign_base_derived",
    "Verif.Props.C52_construct_base",
    "Verif.Props.C52_assign_unique",
    "Verif.Props.C52_construct_unique"
   ],
   "note": "All selections are proved for all payload and argument types. The agreement of the converting constructor's constraints with the standard is false for optional<bool> from other optionals (C52_false_bool) and for classes derived from the optional (C52_false_derived); otherwise proved (C52_construct_constraints_partial)."
  },
  {
   "property": "C53",
   "status": "partial",
   "theorems": [
    "Verif.Props.C53_impl_partial",
    "Verif.Props.C53_adl_partial",
    "Verif.Props.C53_generic_iff",
    "Verif.Props.C53_not_swappable",
    "Verif.Props.C53_mixed",
    "Verif.Props.C53_hierarchy",
    "Verif.Props.C53_noexcept",
    "Verif.Props.C53_generic_exchanges",
    "Verif.Props.C53_false",
    "Verif.Props.C53_false_noexcept",
    "Verif.Props.C53_false_payload",
    "Verif.Props.C53_false_moved_from"
   ],
   "note": "False for tiny::optional with std::swap visible: the generic function is selected exactly if the payload can be assigned (C53_generic_iff), with a different exception specification (C53_false_noexcept), without the payload's swap (C53_false_payload), and wrongly for payloads whose moved-from state is reserved (C53_false_moved_from). Proved for optional_inplace etc. and without std::swap; the generic function exchanges the contents for payloads whose moves transfer the value (C53_generic_exchanges)."
  },
  {
   "property": "C54",
   "status": "partial",
   "theorems": [
    "Verif.Props.C54_deduced",
    "Verif.Props.C54_explicit_partial",
    "Verif.Props.C54_qualified",
    "Verif.Props.C54_false",
    "Verif.Props.C54_list",
    "Verif.Props.C54_list_temporary",
    "Verif.Props.C54_deduce",
    "Verif.Props.C54_copy",
    "Verif.Props.C54_value",
    "Verif.Props.C54_make_asymm",
    "Verif.Props.C54_guide_asymm"
   ],
   "note": "Proved for all arguments and unqualified payload types. False for an explicit const payload type with a const rvalue of that type as only argument: the result is optional<T> (C54_false; C54_qualified says that this is the only exception). std::make_optional does the same."
  },
  {
   "property": "C55",
   "status": "proved",
   "theorems": [
    "Verif.Props.C55_enabled",
    "Verif.Props.C55_determined",
    "Verif.Props.C55_one_specialization",
    "Verif.Props.C55_same_hash"
   ],
   "note": ""
  },
  {
   "property": "C56",
   "status": "proved",
   "theorems": [
    "Verif.Props.C56_value",
    "Verif.Props.C56_deref",
    "Verif.Props.C56_arrow",
    "Verif.Props.C56_value_or",
    "Verif.Props.C56_and_then",
    "Verif.Props.C56_transform",
    "Verif.Props.C56_transform_noexcept",
    "Verif.Props.C56_or_else",
    "Verif.Props.C56_transform_accepts",
    "Verif.Props.C56_and_then_accepts",
    "Verif.Props.C56_or_else_accepts",
    "Verif.Props.C56_asymm"
   ],
   "note": ""
  },
  {
   "property": "C57",
   "status": "proved",
   "theorems": [
    "Verif.Props.C57_in_place",
    "Verif.Props.C57_participates",
    "Verif.Props.C57_emplace",
    "Verif.Props.C57_unique",
    "Verif.Props.C57_forwards"
   ],
   "note": "in_place_t as the only argument is part of C52."
  },
  {
   "property": "C58",
   "status": "partial",
   "theorems": [
    "Verif.Props.C58_nested_partial",
    "Verif.Props.C58_deep_partial",
    "Verif.Props.C58_deep_shows",
    "Verif.Props.C58_deep_call",
    "Verif.Props.C58_deep_create",
    "Verif.Props.C58_represents",
    "Verif.Props.C58_inner_call",
    "Verif.Props.C58_inner_create",
    "Verif.Props.C58_false"
   ],
   "note": "False for swap of two engaged optionals whose payload type is tiny::optional, because std::swap is selected for the inner optionals (C58_false, a consequence of C53). Proved for everything else, for any number of layers (C58_deep_partial), and including swap if the payload type is optional_inplace, optional_sentinel_via_type etc. (k = tiny)."
  },
  {
   "property": "C59",
   "status": "proved",
   "theorems": [
    "Verif.Props.C59_user_code",
    "Verif.Props.C59_program",
    "Verif.Props.C59_ctor",
    "Verif.Props.C59_callable"
   ],
   "note": "The other optionals must not be the ones whose member function is being executed (see C50 for re-entrance)."
  },
  {
   "property": "C60",
   "status": "partial",
   "theorems": [
    "Verif.Props.C60_library",
    "Verif.Props.C60_not_class",
    "Verif.Props.C60_exact",
    "Verif.Props.C60_other_partial",
    "Verif.Props.C60_false_derived",
    "Verif.Props.C60_false_member",
    "Verif.Props.C60_ambiguous",
    "Verif.Props.C60_private"
   ],
   "note": "False for classes derived from an optional and for user classes with a member named is_tiny_optional (both witnessed). The exact condition is C60_exact."
  },
  {
   "property": "C61",
   "status": "proved",
   "theorems": [
    "Verif.Props.C61_same_code",
    "Verif.Props.C61_footprint",
    "Verif.Props.C61_const",
    "Verif.Props.C61_and_then_const",
    "Verif.Props.C61_transform_const",
    "Verif.Props.C61_no_race",
    "Verif.Props.C61_isolated",
    "Verif.Props.C61_finishes",
    "Verif.Props.C61_deterministic",
    "Verif.Props.C61_drop_in",
    "Verif.Props.C61_same_code_reentrant",
    "Verif.Props.C61_footprint_reentrant",
    "Verif.Props.C61_no_race_reentrant",
    "Verif.Props.C61_isolated_reentrant",
    "Verif.Props.C61_finishes_reentrant",
    "Verif.Props.C61_deterministic_reentrant"
   ],
   "note": "Assumptions: sequentially consistent memory (justified by the absence of races, see C89), user code of different threads does not communicate, custom manipulators only read in is_empty."
  },
  {
   "property": "C62",
   "status": "partial",
   "theorems": [
    "Verif.Props.C62_program_partial",
    "Verif.Props.C62_reentrant_partial",
    "Verif.Props.C62_reentrant_release_partial",
    "Verif.Props.C62_threads_partial",
    "Verif.Props.C62_accounting",
    "Verif.Props.C62_same_destroy",
    "Verif.Props.C62_same_reset",
    "Verif.Props.C62_same_dtor",
    "Verif.Props.C62_same_construct",
    "Verif.Props.C62_same_transfer",
    "Verif.Props.C62_same_assign",
    "Verif.Props.C62_same_assign_from",
    "Verif.Props.C62_same_emplace",
    "Verif.Props.C62_same_swap",
    "Verif.Props.C62_same_value_or",
    "Verif.Props.C62_same_transform",
    "Verif.Props.C62_same_and_then",
    "Verif.Props.C62_same_or_else",
    "Verif.Props.C62_same_compare",
    "Verif.Props.C62_same_compare_std",
    "Verif.Props.C62_same_compare_value",
    "Verif.Props.C62_false_transform",
    "Verif.Props.C62_false_assign",
    "Verif.Props.C62_false_copy"
   ],
   "note": "False for throwing callables of transform (C17), and in builds with asserts if user code empties the optional being assigned to, or the source of a copy or move (all witnessed), and for callables of or_else that return certain references (C71_false). Everything else is proved; with NDEBUG the exception about asserts disappears."
  },
  {
   "property": "C63",
   "status": "partial",
   "theorems": [
    "Verif.Props.C63_partial",
    "Verif.Props.C63_checked",
    "Verif.Props.C63_pattern",
    "Verif.Props.C63_empty_partial",
    "Verif.Props.C63_exact",
    "Verif.Props.C63_false",
    "Verif.Props.C63_needless"
   ],
   "note": "False: AssignmentFlagManipulator checks the assignment but executes the copy constructor, sentinel_flag_manipulator checks nothing (C63_false). Proved for flag types whose copy constructor and == are noexcept, which is exactly what would have to be checked (C63_exact)."
  },
  {
   "property": "C64",
   "status": "proved",
   "theorems": [
    "Verif.Props.C64_drop_in",
    "Verif.Props.C64_order",
    "Verif.Props.C64_no_abort",
    "Verif.Props.C64_compare",
    "Verif.Props.C64_table",
    "Verif.Props.C64_own",
    "Verif.Props.C64_agrees",
    "Verif.Props.C64_needed",
    "Verif.Props.C64_reentrant",
    "Verif.Props.C64_reentrant_agrees"
   ],
   "note": "Manipulators are arbitrary code; the library code is compiled from the same text as for the other claims. C64_needed shows that the condition on stored values cannot be dropped. C64_reentrant is the claim for programs whose user code calls the library itself."
  },
  {
   "property": "C65",
   "status": "proved",
   "theorems": [
    "Verif.Props.spec_passes",
    "Verif.Props.C65_exercise",
    "Verif.Props.C65_exercise_any",
    "Verif.Props.C65_compiled"
   ],
   "note": "The 48 tests are transcribed with symbolic payload type, values and configuration. spec_passes: the specification of std::optional passes them; the other two: so do the model and the model with arbitrary manipulators. C65_compiled: for every type that the library accepts."
  },
  {
   "property": "C66",
   "status": "partial",
   "theorems": [
    "Verif.Props.C66_compiles_partial",
    "Verif.Props.C66_aip",
    "Verif.Props.C66_no_reserve",
    "Verif.Props.C66_same",
    "Verif.Props.C66_reentrant",
    "Verif.Props.C66_false",
    "Verif.Props.C66_converse_false",
    "Verif.Props.C66_unused_bits_false",
    "Verif.Props.C66_ignored_false"
   ],
   "note": "False in general: optional_aip<T> without sentinel for T = bool, float, double, T* stops to compile (C66_false; C66_aip: all of them do). Proved for everything else: it compiles on every platform with the documented storage, reserves no additional values and behaves the same at run time. Also false: the converse, the same for the undocumented macro for unused bits alone, and that the member pointer is ignored."
  },
  {
   "property": "C67",
   "status": "proved",
   "theorems": [
    "Verif.Props.C67_members",
    "Verif.Props.C67_not_trivial",
    "Verif.Props.C67_derived",
    "Verif.Props.C67_std_false",
    "Verif.Props.C67_std_copyable"
   ],
   "note": "Language rules for triviality are a separate specification; C67_std_false and C67_std_copyable state the difference to std::optional that the README mentions as a limitation."
  },
  {
   "property": "C68",
   "status": "proved",
   "theorems": [
    "Verif.Props.C68_local",
    "Verif.Props.C68_flag_complete",
    "Verif.Props.C68_consistent",
    "Verif.Props.C68_agree",
    "Verif.Props.C68_same_file",
    "Verif.Props.C68_needs_definition",
    "Verif.Props.C68_mismatch",
    "Verif.Props.C68_mismatch_generic",
    "Verif.Props.C68_aip",
    "Verif.Props.C68_runtime",
    "Verif.Props.C68_runtime'",
    "Verif.Props.C68_forward_declared"
   ],
   "note": "C68_forward_declared shows that the restriction to types that need a definition is necessary, as the README warns. C68_mismatch, C68_runtime and C68_runtime' describe what happens if the advice is not followed."
  },
  {
   "property": "C69",
   "status": "proved",
   "theorems": [
    "Verif.Props.C69_step",
    "Verif.Props.C69_never_migrates",
    "Verif.Props.C69_history",
    "Verif.Props.C69_never_migrates_reentrant",
    "Verif.Props.C69_kept_reentrant"
   ],
   "note": "The standard's rules on when the lifetime of the contained value ends are a separate specification (Spec/Identity.lean). Object identity is that of the ghost state of the machine; an object never changes its place."
  },
  {
   "property": "C70",
   "status": "proved",
   "theorems": [
    "Verif.Props.C70_sees_old_state",
    "Verif.Props.C70_sees_itself",
    "Verif.Props.C70_swap",
    "Verif.Props.C70_clearing",
    "Verif.Props.C70_clearing_calls",
    "Verif.Props.C70_clearing_assign",
    "Verif.Props.C70_clearing_swap",
    "Verif.Props.C70_twice"
   ],
   "note": "Destructors as programs of the machine (Model/Reentrant.lean). Simplification: the destructor body runs while all members are alive; the order in which members die afterwards is not modelled."
  },
  {
   "property": "C71",
   "status": "partial",
   "theorems": [
    "Verif.Props.C71_or_else_exact",
    "Verif.Props.C71_or_else_partial",
    "Verif.Props.C71_value_or_exact",
    "Verif.Props.C71_value_or_partial",
    "Verif.Props.C71_compiles",
    "Verif.Props.C71_false"
   ],
   "note": "False in the code (finding 18): a copy where the standard prescribes a move or no operation, for callables that return const references or rvalue references and for const payload types. The _exact theorems characterise all cases."
  },
  {
   "property": "C72",
   "status": "proved",
   "theorems": [
    "Verif.Props.C72_rejected",
    "Verif.Props.C72_archCheck",
    "Verif.Props.C72_text",
    "Verif.Props.C72_order",
    "Verif.Props.C72_accepted",
    "Verif.Props.C72_wellFormed",
    "Verif.Props.C72_needs_include",
    "Verif.Props.C72_forward",
    "Verif.Props.C72_two_copies",
    "Verif.Props.C72_user_macro"
   ],
   "note": ""
  },
  {
   "property": "C73",
   "status": "partial",
   "theorems": [
    "Verif.Props.C73_partial",
    "Verif.Props.C73_same",
    "Verif.Props.C73_primary",
    "Verif.Props.C73_concepts",
    "Verif.Props.C73_bool",
    "Verif.Props.C73_linker",
    "Verif.Props.C73_unnoticed",
    "Verif.Props.C73_user_class"
   ],
   "note": "False in the code (findings 19 and 20): the primary template optional_flag_manipulator is outside of the inline namespace, C++17 and C++20 translation units share it, and functions that take a class of the user with an optional as member have the same name in all configurations. C73_partial covers all other definitions."
  },
  {
   "property": "C74",
   "status": "partial",
   "theorems": [
    "Verif.Props.C74_between_partial",
    "Verif.Props.C74_compiles_partial",
    "Verif.Props.C74_exact",
    "Verif.Props.C74_values",
    "Verif.Props.C74_explicit",
    "Verif.Props.C74_false"
   ],
   "note": "False in the code for two optionals if the comparison of the payloads has a class type with its own && or || (finding 21; C74_exact: exactly then). C74_between_partial covers all other types, C74_values the comparisons with values."
  },
  {
   "property": "C75",
   "status": "partial",
   "theorems": [
    "Verif.Props.C75_same_partial",
    "Verif.Props.C75_copy",
    "Verif.Props.C75_rvalue",
    "Verif.Props.C75_no_more",
    "Verif.Props.C75_swap",
    "Verif.Props.C75_growth",
    "Verif.Props.C75_false"
   ],
   "note": "False in the code for copies of trivially copyable payloads and for std::is_nothrow_swappable (finding 22; C75_copy, C75_rvalue, C75_swap give the exact sets). C75_same_partial covers everything else."
  },
  {
   "property": "C76",
   "status": "proved",
   "theorems": [
    "Verif.Props.C76_index_pair",
    "Verif.Props.C76_iterator",
    "Verif.Props.C76_index",
    "Verif.Props.C76_enum",
    "Verif.Props.C76_micro",
    "Verif.Props.C76_data1",
    "Verif.Props.C76_data2",
    "Verif.Props.C76_data3",
    "Verif.Props.C76_enum_sentinel",
    "Verif.Props.C76_programs",
    "Verif.Props.C76_reported",
    "Verif.Props.C76_reported_engaged",
    "Verif.Props.C76_reported_ctor",
    "Verif.Props.C76_selected",
    "Verif.Props.C76_index_pair_type",
    "Verif.Props.C76_iterator_type",
    "Verif.Props.C76_index_type",
    "Verif.Props.C76_enum_type",
    "Verif.Props.C76_enum_sentinel_type",
    "Verif.Props.C76_micro_type",
    "Verif.Props.C76_data1_type",
    "Verif.Props.C76_data2_type",
    "Verif.Props.C76_data3_type"
   ],
   "note": "Nine configurations of the example types; the `_type` theorems state that the types as written in the README select them, through the model of the selection (C28)."
  },
  {
   "property": "C77",
   "status": "proved",
   "theorems": [
    "Verif.Props.C77_ends",
    "Verif.Props.C77_terminates",
    "Verif.Props.C77_swap_terminates",
    "Verif.Props.C77_nothing_leaves",
    "Verif.Props.C77_only_others",
    "Verif.Props.C77_no_handler"
   ],
   "note": "Destructors as programs of the machine (Model/Reentrant.lean)."
  },
  {
   "property": "C78",
   "status": "partial",
   "theorems": [
    "Verif.Props.C78_constructs_partial",
    "Verif.Props.C78_pointers",
    "Verif.Props.C78_nothrow",
    "Verif.Props.C78_sentinel_partial",
    "Verif.Props.C78_sentinel_exact",
    "Verif.Props.C78_false",
    "Verif.Props.C78_check_partial",
    "Verif.Props.C78_check_false",
    "Verif.Props.C78_check_sound"
   ],
   "note": "False for sentinel_flag_manipulator (line 240 uses &, and the pointer is not cast to void*), and for the static_assert of line 837, which uses & (witnesses C78_false, C78_check_false). Holds for all other expressions, and for sentinel_flag_manipulator with types without such overloads."
  },
  {
   "property": "C79",
   "status": "proved",
   "theorems": [
    "Verif.Props.C79_bounded",
    "Verif.Props.C79_constant",
    "Verif.Props.C79_user",
    "Verif.Props.C79_no_user",
    "Verif.Props.C79_wait_free",
    "Verif.Props.C79_overhead",
    "Verif.Props.C79_reentrant",
    "Verif.Props.C79_wait_free_reentrant"
   ],
   "note": "One step is one access, one call of user code or one event; user functions are assumed to end. With user code that calls the library, its steps are counted like those of the program itself, and what a function adds to them is constant. Stronger than C61_finishes: no hypothesis on the threads, and an explicit bound."
  },
  {
   "property": "C80",
   "status": "partial",
   "theorems": [
    "Verif.Props.C80_compiles",
    "Verif.Props.C80_user",
    "Verif.Props.C80_reads_partial",
    "Verif.Props.C80_reads_exact",
    "Verif.Props.C80_false",
    "Verif.Props.C80_named_cpp20",
    "Verif.Props.C80_named_cpp17",
    "Verif.Props.C80_lookup"
   ],
   "note": "False for volatile flags marked by unused bits, such as optional<double volatile> (witness C80_false; C80_reads_exact says exactly when); false by the text of C++17 for const payloads that are replaced (C80_named_cpp17), true by that of C++20."
  },
  {
   "property": "C81",
   "status": "proved",
   "theorems": [
    "Verif.Props.C81_usable",
    "Verif.Props.C81_in_vain",
    "Verif.Props.C81_not_literal",
    "Verif.Props.C81_static_init",
    "Verif.Props.C81_zero_separate",
    "Verif.Props.C81_zero_bits",
    "Verif.Props.C81_zero_sentinel"
   ],
   "note": "The call table is the model of the code (one entry per function, with lines); asserts are taken as disabled and user code as constexpr, to the advantage of the library."
  },
  {
   "property": "C82",
   "status": "proved",
   "theorems": [
    "Verif.Props.C82_same",
    "Verif.Props.C82_foreign",
    "Verif.Props.C82_apart",
    "Verif.Props.C82_array",
    "Verif.Props.C82_when",
    "Verif.Props.C82_drop_in",
    "Verif.Props.C82_same_reentrant",
    "Verif.Props.C82_foreign_reentrant",
    "Verif.Props.C82_apart_reentrant",
    "Verif.Props.C82_drop_in_reentrant"
   ],
   "note": "Payload functions are assumed to write only the bytes of the payload itself, as everywhere. The separate flag is one byte directly behind the payload (sizeof(bool) = 1). Also for user code that calls the library (C82_..._reentrant; the comparison with std::optional there has the exceptions of C62)."
  },
  {
   "property": "C83",
   "status": "proved",
   "theorems": [
    "Verif.Props.C83_move",
    "Verif.Props.C83_same",
    "Verif.Props.C83_drop_in",
    "Verif.Props.C83_same_reentrant"
   ],
   "note": "In the memory of C82. The payload is assumed to survive being copied bytewise. Target free and all bytes copied; both are shown to be necessary by examples."
  },
  {
   "property": "C84",
   "status": "proved",
   "theorems": [
    "Verif.Props.C84_represented",
    "Verif.Props.C84_represented_reentrant",
    "Verif.Props.C84_empty_bytes",
    "Verif.Props.C84_empty_iff",
    "Verif.Props.C84_value_bytes",
    "Verif.Props.C84_same_bytes",
    "Verif.Props.C84_same_value",
    "Verif.Props.C84_both_empty"
   ],
   "note": "Across programs and times. Hypotheses: storable values have other flag bytes than the sentinel (shown necessary by an example), and other payload bytes than each other."
  },
  {
   "property": "C85",
   "status": "proved",
   "theorems": [
    "Verif.Props.C85_values",
    "Verif.Props.C85_legal",
    "Verif.Props.C85_drop_in",
    "Verif.Props.C85_uniform",
    "Verif.Props.C85_contains",
    "Verif.Props.C85_storable",
    "Verif.Props.C85_values_reentrant",
    "Verif.Props.C85_legal_reentrant",
    "Verif.Props.C85_drop_in_reentrant",
    "Verif.Props.C85_contains_reentrant"
   ],
   "note": "User code is a parameter; the hypothesis is about each of its functions separately, not about the values at run time. Also for user code that calls the library (C85_..._reentrant; the comparison with std::optional there has the exceptions of C62)."
  },
  {
   "property": "C86",
   "status": "partial",
   "theorems": [
    "Verif.Props.C86_exact",
    "Verif.Props.C86_exotic",
    "Verif.Props.C86_empty_kept",
    "Verif.Props.C86_choice",
    "Verif.Props.C86_double_partial",
    "Verif.Props.C86_float_partial",
    "Verif.Props.C86_false"
   ],
   "note": "False for exactly one signalling NaN of each type (C86_exact, witness C86_false; finding 25). C86_double_partial and C86_float_partial hold for programs that do not make NaNs with the payload of the reserved pattern."
  },
  {
   "property": "C87",
   "status": "proved",
   "theorems": [
    "Verif.Props.C87_and_then_assoc",
    "Verif.Props.C87_transform_compose",
    "Verif.Props.C87_transform_is_and_then",
    "Verif.Props.C87_identity",
    "Verif.Props.C87_left_identity",
    "Verif.Props.C87_or_else_assoc",
    "Verif.Props.C87_needed"
   ],
   "note": "Callables take the payload by reference to const. transform: only if no callable throws where C17 is violated. C87_needed shows that the condition on the type in the middle is needed."
  },
  {
   "property": "C88",
   "status": "proved",
   "theorems": [
    "Verif.Props.C88_atomic",
    "Verif.Props.C88_atomic_end",
    "Verif.Props.C88_no_race",
    "Verif.Props.C88_ends",
    "Verif.Props.C88_atomic_reentrant",
    "Verif.Props.C88_std",
    "Verif.Props.C88_needed"
   ],
   "note": "The lock itself is not modelled, only what it guarantees (Disciplined). Assumptions as in C61, except that threads may communicate between sections. C88_needed: two sections that conflict can end in undefined behaviour that no order of the two has."
  },
  {
   "property": "C89",
   "status": "proved",
   "theorems": [
    "Verif.Props.C89_atomic",
    "Verif.Props.C89_atomic_reentrant",
    "Verif.Props.C89_same",
    "Verif.Props.C89_std",
    "Verif.Props.C89_needed"
   ],
   "note": "Assumed of the memory: what [intro.races] says of programs without data races, i.e. a section finds what the previous sections that used the same optionals have written. C89_needed: without this the claim fails."
  },
  {
   "property": "C90",
   "status": "proved",
   "theorems": [
    "Verif.Props.C90_std",
    "Verif.Props.C90_keeps",
    "Verif.Props.C90_tiny",
    "Verif.Props.C90_same"
   ],
   "note": "For every generator of random numbers and arithmetic of doubles in every rounding mode (DoubleArith: NaN results as the processor makes them). Output, time measurement and the memory of std::vector are left out."
  },
  {
   "property": "C91",
   "status": "proved",
   "theorems": [
    "Verif.Props.C91_permutes",
    "Verif.Props.C91_sort",
    "Verif.Props.C91_needed"
   ],
   "note": "Insertion sort is client code that stands for one complete algorithm; C91_permutes is for all algorithms made of swaps, comparisons and accesses. C91_needed: if the moved-from value is the reserved one, swap leaks a payload and no assertion notices."
  },
  {
   "property": "C92",
   "status": "proved",
   "theorems": [
    "Verif.Props.C92_growth",
    "Verif.Props.C92_basic",
    "Verif.Props.C92_needed"
   ],
   "note": "The loop of std::vector is client code, written from the standard; left out are the memory of the buffers and the element that is added. C92_basic: payloads that can not be copied and whose move may throw. C92_needed: with a move constructor that is noexcept although the payload may throw, the guarantee fails."
  },
  {
   "property": "C93",
   "status": "proved",
   "theorems": [
    "Verif.Props.C93_erasure"
   ],
   "note": "The loop of std::vector::erase is client code, written from the standard; the memory and the size of the vector are left out."
  },
  {
   "property": "C94",
   "status": "proved",
   "theorems": [
    "Verif.Props.C94_insertion"
   ],
   "note": "The loop of std::vector::insert without reallocation is client code, written from the standard; the memory and the size of the vector are left out."
  }
 ]
}