import Verif.Props.Access
import Verif.Props.Address
import Verif.Props.Assign
import Verif.Props.Benchmark
import Verif.Props.Bits
import Verif.Props.Builds
import Verif.Props.Bytes
import Verif.Props.Compare
import Verif.Props.Conditional
import Verif.Props.Constexpr
import Verif.Props.Construct
import Verif.Props.CopyMove
import Verif.Props.Cost
import Verif.Props.CostReentrant
import Verif.Props.Destruct
import Verif.Props.EndToEnd
import Verif.Props.EndToEndReentrant
import Verif.Props.Erasure
import Verif.Props.ExceptSpec
import Verif.Props.Exercise
import Verif.Props.FlagOps
import Verif.Props.FlatMemory
import Verif.Props.FlatMemoryReentrant
import Verif.Props.Fpu
import Verif.Props.FreeSwap
import Verif.Props.Growth
import Verif.Props.Handover
import Verif.Props.Hash
import Verif.Props.Headers
import Verif.Props.Identity
import Verif.Props.InPlace
import Verif.Props.Insertion
import Verif.Props.Integral
import Verif.Props.Laws
import Verif.Props.Lifetime
import Verif.Props.Make
import Verif.Props.Manipulator
import Verif.Props.ManipulatorReentrant
import Verif.Props.Member
import Verif.Props.Mixing
import Verif.Props.Monadic
import Verif.Props.Natvis
import Verif.Props.Nested
import Verif.Props.NestedDeep
import Verif.Props.Noexcept
import Verif.Props.Overload
import Verif.Props.Portability
import Verif.Props.Provenance
import Verif.Props.ProvenanceReentrant
import Verif.Props.Qualified
import Verif.Props.Quals
import Verif.Props.Readme
import Verif.Props.ReadmeSelect
import Verif.Props.Rearrange
import Verif.Props.Reentrant
import Verif.Props.ReentrantFrame
import Verif.Props.Refinement
import Verif.Props.Relocation
import Verif.Props.Reserved
import Verif.Props.ResultType
import Verif.Props.Select
import Verif.Props.SentinelManip
import Verif.Props.SpecialMembers
import Verif.Props.Threads
import Verif.Props.ThreadsReentrant
import Verif.Props.ThrowingDtor
import Verif.Props.Trait
import Verif.Props.Trivial
import Verif.Props.Units
import Verif.Props.Version
import Verif.Props.Weak
import Verif.Props.Window

/-! Axioms used by the theorems in the manifest: only `propext`, `Classical.choice`, `Quot.sound` may appear. -/

#print axioms Verif.Props.C01_drop_in
#print axioms Verif.Props.C01_drop_in_separate
#print axioms Verif.Props.C01_step
#print axioms Verif.Props.C01_sees
#print axioms Verif.Props.C02_no_abort
#print axioms Verif.Props.C02_ndebug_irrelevant
#print axioms Verif.Props.C03_accounting
#print axioms Verif.Props.C03_balance
#print axioms Verif.Props.C03_all_destroyed
#print axioms Verif.Props.C04_default_ctor
#print axioms Verif.Props.C05_ctor
#print axioms Verif.Props.C05_emplace_engaged
#print axioms Verif.Props.C05_emplace_empty
#print axioms Verif.Props.C05_assign_empty
#print axioms Verif.Props.C05_assign_engaged
#print axioms Verif.Props.C05_read_back
#print axioms Verif.Props.C06_emplace_throws_engaged
#print axioms Verif.Props.C06_emplace_throws_empty
#print axioms Verif.Props.C06_assign_throws_empty
#print axioms Verif.Props.C06_ctor_throws
#print axioms Verif.Props.C07_assign_throws
#print axioms Verif.Props.C08_copy_assign_engaged
#print axioms Verif.Props.C09_move_assign_engaged
#print axioms Verif.Props.C08_copy_ctor_empty
#print axioms Verif.Props.C08_copy_ctor
#print axioms Verif.Props.C08_copy_ctor_throws
#print axioms Verif.Props.C08_copy_assign_engaged
#print axioms Verif.Props.C08_copy_assign_to_empty
#print axioms Verif.Props.C08_copy_assign_to_empty_throws
#print axioms Verif.Props.C08_assign_from_empty
#print axioms Verif.Props.C08_assign_empty_empty
#print axioms Verif.Props.C09_move_ctor
#print axioms Verif.Props.C09_move_ctor_throws
#print axioms Verif.Props.C09_move_ctor_empty
#print axioms Verif.Props.C09_move_assign_engaged
#print axioms Verif.Props.C09_move_assign_to_empty
#print axioms Verif.Props.C09_move_assign_to_empty_throws
#print axioms Verif.Props.C08_assign_from_empty
#print axioms Verif.Props.C08_assign_empty_empty
#print axioms Verif.Props.C10_swap_engaged
#print axioms Verif.Props.C10_swap_mixed
#print axioms Verif.Props.C10_swap_mixed_throws
#print axioms Verif.Props.C10_swap_empty
#print axioms Verif.Props.C11_self_copy_assign
#print axioms Verif.Props.C11_self_move_assign
#print axioms Verif.Props.C11_self_swap
#print axioms Verif.Props.C11_self_empty
#print axioms Verif.Props.C12_reset_engaged
#print axioms Verif.Props.C12_reset_empty
#print axioms Verif.Props.C52_braces_empties
#print axioms Verif.Props.C13_value_throws_iff
#print axioms Verif.Props.C13_observers_pure
#print axioms Verif.Props.C14_value_or_lvalue
#print axioms Verif.Props.C14_value_or_rvalue
#print axioms Verif.Props.C14_value_or_empty
#print axioms Verif.Props.C15_and_then
#print axioms Verif.Props.C15_and_then_throws
#print axioms Verif.Props.C15_monadic_empty
#print axioms Verif.Props.C16_transform
#print axioms Verif.Props.C15_monadic_empty
#print axioms Verif.Props.C17_transform_throws_partial
#print axioms Verif.Props.C17_transform_terminates
#print axioms Verif.Props.C17_result_type_partial
#print axioms Verif.Props.C17_false
#print axioms Verif.Props.C18_or_else_lvalue
#print axioms Verif.Props.C18_or_else_rvalue
#print axioms Verif.Props.C18_or_else_empty
#print axioms Verif.Props.C19_between_tiny
#print axioms Verif.Props.C19_with_std
#print axioms Verif.Props.C19_spaceship
#print axioms Verif.Props.C19_spaceship_std
#print axioms Verif.Props.C19_nullopt
#print axioms Verif.Props.C19_spaceship_nullopt
#print axioms Verif.Props.C19_value
#print axioms Verif.Props.C19_spaceship_value
#print axioms Verif.Props.C19_value_spaceship
#print axioms Verif.Props.C19_views
#print axioms Verif.Props.C20_total_order
#print axioms Verif.Props.C21_hash
#print axioms Verif.Props.C21_hash_eq
#print axioms Verif.Props.C22_double_reserved
#print axioms Verif.Props.C22_float_reserved
#print axioms Verif.Props.C22_double_ordinary
#print axioms Verif.Props.C22_float_ordinary
#print axioms Verif.Props.C22_sentinels_quiet
#print axioms Verif.Props.C22_is_empty
#print axioms Verif.Props.C22_sizes
#print axioms Verif.Props.C22_wf
#print axioms Verif.Props.C22_double_round_trip
#print axioms Verif.Props.C23_bool
#print axioms Verif.Props.C23_is_empty
#print axioms Verif.Props.C23_drop_in
#print axioms Verif.Props.C24_x64
#print axioms Verif.Props.C24_x86
#print axioms Verif.Props.C24_x64_aligned
#print axioms Verif.Props.C24_five_level
#print axioms Verif.Props.C25_double_op
#print axioms Verif.Props.C25_float_op
#print axioms Verif.Props.C25_programs
#print axioms Verif.Props.C25_default_inputs
#print axioms Verif.Props.C26_range_check
#print axioms Verif.Props.C26_convert
#print axioms Verif.Props.C27_unchanged_partial
#print axioms Verif.Props.C27_enum
#print axioms Verif.Props.C27_accepted
#print axioms Verif.Props.C27_rejected
#print axioms Verif.Props.C27_false
#print axioms Verif.Props.C28_never_ambiguous
#print axioms Verif.Props.C28_documented_partial
#print axioms Verif.Props.C28_rejected_partial
#print axioms Verif.Props.C28_extended
#print axioms Verif.Props.C28_false
#print axioms Verif.Props.C28_wf
#print axioms Verif.Props.C29_in_place
#print axioms Verif.Props.C29_separate
#print axioms Verif.Props.C29_flag_offset
#print axioms Verif.Props.C29_compiled
#print axioms Verif.Props.C30_in_place_partial
#print axioms Verif.Props.C30_automatic
#print axioms Verif.Props.C30_integers
#print axioms Verif.Props.C30_rejected
#print axioms Verif.Props.C30_false
#print axioms Verif.Props.C30_false_member
#print axioms Verif.Props.C31_location
#print axioms Verif.Props.C31_enter
#print axioms Verif.Props.C31_leave
#print axioms Verif.Props.C31_storable
#print axioms Verif.Props.C31_other_members
#print axioms Verif.Props.C31_empty_bits
#print axioms Verif.Props.C31_empty_value
#print axioms Verif.Props.C32_returns_engaged
#print axioms Verif.Props.C33_transfer_returns
#print axioms Verif.Props.C32_ctor
#print axioms Verif.Props.C32_assign_empty
#print axioms Verif.Props.C32_assign_engaged
#print axioms Verif.Props.C32_emplace
#print axioms Verif.Props.C32_copy_ctor
#print axioms Verif.Props.C32_move_ctor
#print axioms Verif.Props.C32_copy_assign_empty
#print axioms Verif.Props.C32_move_assign_empty
#print axioms Verif.Props.C32_copy_assign_engaged
#print axioms Verif.Props.C32_move_assign_engaged
#print axioms Verif.Props.C32_move_assign_self
#print axioms Verif.Props.C32_transform
#print axioms Verif.Props.C33_transfer_returns
#print axioms Verif.Props.C33_move_ctor
#print axioms Verif.Props.C33_move_assign_empty
#print axioms Verif.Props.C33_move_assign_engaged
#print axioms Verif.Props.C34_flag_accounting_partial
#print axioms Verif.Props.C34_no_abandon_partial
#print axioms Verif.Props.C34_flag_balance_false
#print axioms Verif.Props.C34_dtor_empty_abandons
#print axioms Verif.Props.C35_default
#print axioms Verif.Props.C35_double
#print axioms Verif.Props.C35_double_reserved
#print axioms Verif.Props.C36_frame
#print axioms Verif.Props.C36_existence
#print axioms Verif.Props.C36_frame_history
#print axioms Verif.Props.C36_frame_reentrant
#print axioms Verif.Props.C36_existence_reentrant
#print axioms Verif.Props.C37_always
#print axioms Verif.Props.C37_payload
#print axioms Verif.Props.C37_no_terminate
#print axioms Verif.Props.C38_derived
#print axioms Verif.Props.C38_derived_implicit
#print axioms Verif.Props.C38_std
#print axioms Verif.Props.C38_hierarchy
#print axioms Verif.Props.C38_fallback
#print axioms Verif.Props.C39_no_tricks
#print axioms Verif.Props.C39_std
#print axioms Verif.Props.C39_compiles
#print axioms Verif.Props.C40_injective
#print axioms Verif.Props.C40_versions
#print axioms Verif.Props.C40_mixing
#print axioms Verif.Props.C41_assign_own_payload
#print axioms Verif.Props.C41_move_assign_own_payload
#print axioms Verif.Props.C41_emplace_own_payload
#print axioms Verif.Props.C42_assign_scalar
#print axioms Verif.Props.C42_ctor_eq_emplace
#print axioms Verif.Props.C43_agrees_partial
#print axioms Verif.Props.C43_sound
#print axioms Verif.Props.C43_namespace
#print axioms Verif.Props.C43_false
#print axioms Verif.Props.C43_false_user
#print axioms Verif.Props.C44_call
#print axioms Verif.Props.C44_run
#print axioms Verif.Props.C44_until_stop
#print axioms Verif.Props.C44_reentrant
#print axioms Verif.Props.C45_observers
#print axioms Verif.Props.C45_comparisons
#print axioms Verif.Props.C45_nullopt
#print axioms Verif.Props.C45_value_hash
#print axioms Verif.Props.C45_copy_source
#print axioms Verif.Props.C46_writes
#print axioms Verif.Props.C46_keeps
#print axioms Verif.Props.C46_no_out_of_bounds
#print axioms Verif.Props.C46_reads
#print axioms Verif.Props.C46_writes_reentrant
#print axioms Verif.Props.C46_keeps_reentrant
#print axioms Verif.Props.C46_no_out_of_bounds_reentrant
#print axioms Verif.Props.C47_run
#print axioms Verif.Props.C47_observers
#print axioms Verif.Props.C47_reentrant
#print axioms Verif.Props.C48_marks_partial
#print axioms Verif.Props.C48_exact
#print axioms Verif.Props.C48_wide
#print axioms Verif.Props.C48_false
#print axioms Verif.Props.C48_explicit_rejected
#print axioms Verif.Props.C48_false_default
#print axioms Verif.Props.C49_drop_in
#print axioms Verif.Props.C49_reentrant
#print axioms Verif.Props.C49_sharp
#print axioms Verif.Props.C50_others_partial
#print axioms Verif.Props.C50_false
#print axioms Verif.Props.C50_separate
#print axioms Verif.Props.C50_in_place
#print axioms Verif.Props.C51_selects
#print axioms Verif.Props.C51_selects_three
#print axioms Verif.Props.C51_same_operator
#print axioms Verif.Props.C51_ordering
#print axioms Verif.Props.C51_meaning
#print axioms Verif.Props.C51_meaning_three
#print axioms Verif.Props.C51_result_partial
#print axioms Verif.Props.C51_false
#print axioms Verif.Props.C51_false_gcc
#print axioms Verif.Props.C51_false_derived
#print axioms Verif.Props.C51_ambiguous_derived
#print axioms Verif.Props.C51_better_asymm
#print axioms Verif.Props.C51_unique
#print axioms Verif.Props.C52_assign_nullopt
#print axioms Verif.Props.C52_assign_self
#print axioms Verif.Props.C52_assign_braces
#print axioms Verif.Props.C52_assign_braces_iff
#print axioms Verif.Props.C52_braces_empties
#print axioms Verif.Props.C52_assign_value
#print axioms Verif.Props.C52_assign_constraints
#print axioms Verif.Props.C52_construct_nullopt
#print axioms Verif.Props.C52_construct_self
#print axioms Verif.Props.C52_construct_in_place
#print axioms Verif.Props.C52_construct_value
#print axioms Verif.Props.C52_construct_braces
#print axioms Verif.Props.C52_construct_constraints_partial
#print axioms Verif.Props.C52_false_bool
#print axioms Verif.Props.C52_false_derived
#print axioms Verif.Props.C52_construct_vs_assign
#print axioms Verif.Props.C52_cases
#print axioms Verif.Props.C52_assign_derived
#print axioms Verif.Props.C52_construct_derived
#print axioms Verif.Props.C52_assign_base
#print axioms Verif.Props.C52_assign_base_derived
#print axioms Verif.Props.C52_construct_base
#print axioms Verif.Props.C52_assign_unique
#print axioms Verif.Props.C52_construct_unique
#print axioms Verif.Props.C53_impl_partial
#print axioms Verif.Props.C53_adl_partial
#print axioms Verif.Props.C53_generic_iff
#print axioms Verif.Props.C53_not_swappable
#print axioms Verif.Props.C53_mixed
#print axioms Verif.Props.C53_hierarchy
#print axioms Verif.Props.C53_noexcept
#print axioms Verif.Props.C53_generic_exchanges
#print axioms Verif.Props.C53_false
#print axioms Verif.Props.C53_false_noexcept
#print axioms Verif.Props.C53_false_payload
#print axioms Verif.Props.C53_false_moved_from
#print axioms Verif.Props.C54_deduced
#print axioms Verif.Props.C54_explicit_partial
#print axioms Verif.Props.C54_qualified
#print axioms Verif.Props.C54_false
#print axioms Verif.Props.C54_list
#print axioms Verif.Props.C54_list_temporary
#print axioms Verif.Props.C54_deduce
#print axioms Verif.Props.C54_copy
#print axioms Verif.Props.C54_value
#print axioms Verif.Props.C54_make_asymm
#print axioms Verif.Props.C54_guide_asymm
#print axioms Verif.Props.C55_enabled
#print axioms Verif.Props.C55_determined
#print axioms Verif.Props.C55_one_specialization
#print axioms Verif.Props.C55_same_hash
#print axioms Verif.Props.C56_value
#print axioms Verif.Props.C56_deref
#print axioms Verif.Props.C56_arrow
#print axioms Verif.Props.C56_value_or
#print axioms Verif.Props.C56_and_then
#print axioms Verif.Props.C56_transform
#print axioms Verif.Props.C56_transform_noexcept
#print axioms Verif.Props.C56_or_else
#print axioms Verif.Props.C56_transform_accepts
#print axioms Verif.Props.C56_and_then_accepts
#print axioms Verif.Props.C56_or_else_accepts
#print axioms Verif.Props.C56_asymm
#print axioms Verif.Props.C57_in_place
#print axioms Verif.Props.C57_participates
#print axioms Verif.Props.C57_emplace
#print axioms Verif.Props.C57_unique
#print axioms Verif.Props.C57_forwards
#print axioms Verif.Props.C58_nested_partial
#print axioms Verif.Props.C58_deep_partial
#print axioms Verif.Props.C58_deep_shows
#print axioms Verif.Props.C58_deep_call
#print axioms Verif.Props.C58_deep_create
#print axioms Verif.Props.C58_represents
#print axioms Verif.Props.C58_inner_call
#print axioms Verif.Props.C58_inner_create
#print axioms Verif.Props.C58_false
#print axioms Verif.Props.C59_user_code
#print axioms Verif.Props.C59_program
#print axioms Verif.Props.C59_ctor
#print axioms Verif.Props.C59_callable
#print axioms Verif.Props.C60_library
#print axioms Verif.Props.C60_not_class
#print axioms Verif.Props.C60_exact
#print axioms Verif.Props.C60_other_partial
#print axioms Verif.Props.C60_false_derived
#print axioms Verif.Props.C60_false_member
#print axioms Verif.Props.C60_ambiguous
#print axioms Verif.Props.C60_private
#print axioms Verif.Props.C61_same_code
#print axioms Verif.Props.C61_footprint
#print axioms Verif.Props.C61_const
#print axioms Verif.Props.C61_and_then_const
#print axioms Verif.Props.C61_transform_const
#print axioms Verif.Props.C61_no_race
#print axioms Verif.Props.C61_isolated
#print axioms Verif.Props.C61_finishes
#print axioms Verif.Props.C61_deterministic
#print axioms Verif.Props.C61_drop_in
#print axioms Verif.Props.C61_same_code_reentrant
#print axioms Verif.Props.C61_footprint_reentrant
#print axioms Verif.Props.C61_no_race_reentrant
#print axioms Verif.Props.C61_isolated_reentrant
#print axioms Verif.Props.C61_finishes_reentrant
#print axioms Verif.Props.C61_deterministic_reentrant
#print axioms Verif.Props.C62_program_partial
#print axioms Verif.Props.C62_reentrant_partial
#print axioms Verif.Props.C62_reentrant_release_partial
#print axioms Verif.Props.C62_threads_partial
#print axioms Verif.Props.C62_accounting
#print axioms Verif.Props.C62_same_destroy
#print axioms Verif.Props.C62_same_reset
#print axioms Verif.Props.C62_same_dtor
#print axioms Verif.Props.C62_same_construct
#print axioms Verif.Props.C62_same_transfer
#print axioms Verif.Props.C62_same_assign
#print axioms Verif.Props.C62_same_assign_from
#print axioms Verif.Props.C62_same_emplace
#print axioms Verif.Props.C62_same_swap
#print axioms Verif.Props.C62_same_value_or
#print axioms Verif.Props.C62_same_transform
#print axioms Verif.Props.C62_same_and_then
#print axioms Verif.Props.C62_same_or_else
#print axioms Verif.Props.C62_same_compare
#print axioms Verif.Props.C62_same_compare_std
#print axioms Verif.Props.C62_same_compare_value
#print axioms Verif.Props.C62_false_transform
#print axioms Verif.Props.C62_false_assign
#print axioms Verif.Props.C62_false_copy
#print axioms Verif.Props.C63_partial
#print axioms Verif.Props.C63_checked
#print axioms Verif.Props.C63_pattern
#print axioms Verif.Props.C63_empty_partial
#print axioms Verif.Props.C63_exact
#print axioms Verif.Props.C63_false
#print axioms Verif.Props.C63_needless
#print axioms Verif.Props.C64_drop_in
#print axioms Verif.Props.C64_order
#print axioms Verif.Props.C64_no_abort
#print axioms Verif.Props.C64_compare
#print axioms Verif.Props.C64_table
#print axioms Verif.Props.C64_own
#print axioms Verif.Props.C64_agrees
#print axioms Verif.Props.C64_needed
#print axioms Verif.Props.C64_reentrant
#print axioms Verif.Props.C64_reentrant_agrees
#print axioms Verif.Props.spec_passes
#print axioms Verif.Props.C65_exercise
#print axioms Verif.Props.C65_exercise_any
#print axioms Verif.Props.C65_compiled
#print axioms Verif.Props.C66_compiles_partial
#print axioms Verif.Props.C66_aip
#print axioms Verif.Props.C66_no_reserve
#print axioms Verif.Props.C66_same
#print axioms Verif.Props.C66_reentrant
#print axioms Verif.Props.C66_false
#print axioms Verif.Props.C66_converse_false
#print axioms Verif.Props.C66_unused_bits_false
#print axioms Verif.Props.C66_ignored_false
#print axioms Verif.Props.C67_members
#print axioms Verif.Props.C67_not_trivial
#print axioms Verif.Props.C67_derived
#print axioms Verif.Props.C67_std_false
#print axioms Verif.Props.C67_std_copyable
#print axioms Verif.Props.C68_local
#print axioms Verif.Props.C68_flag_complete
#print axioms Verif.Props.C68_consistent
#print axioms Verif.Props.C68_agree
#print axioms Verif.Props.C68_same_file
#print axioms Verif.Props.C68_needs_definition
#print axioms Verif.Props.C68_mismatch
#print axioms Verif.Props.C68_mismatch_generic
#print axioms Verif.Props.C68_aip
#print axioms Verif.Props.C68_runtime
#print axioms Verif.Props.C68_runtime'
#print axioms Verif.Props.C68_forward_declared
#print axioms Verif.Props.C69_step
#print axioms Verif.Props.C69_never_migrates
#print axioms Verif.Props.C69_history
#print axioms Verif.Props.C69_never_migrates_reentrant
#print axioms Verif.Props.C69_kept_reentrant
#print axioms Verif.Props.C70_sees_old_state
#print axioms Verif.Props.C70_sees_itself
#print axioms Verif.Props.C70_swap
#print axioms Verif.Props.C70_clearing
#print axioms Verif.Props.C70_clearing_calls
#print axioms Verif.Props.C70_clearing_assign
#print axioms Verif.Props.C70_clearing_swap
#print axioms Verif.Props.C70_twice
#print axioms Verif.Props.C71_or_else_exact
#print axioms Verif.Props.C71_or_else_partial
#print axioms Verif.Props.C71_value_or_exact
#print axioms Verif.Props.C71_value_or_partial
#print axioms Verif.Props.C71_compiles
#print axioms Verif.Props.C71_false
#print axioms Verif.Props.C72_rejected
#print axioms Verif.Props.C72_archCheck
#print axioms Verif.Props.C72_text
#print axioms Verif.Props.C72_order
#print axioms Verif.Props.C72_accepted
#print axioms Verif.Props.C72_wellFormed
#print axioms Verif.Props.C72_needs_include
#print axioms Verif.Props.C72_forward
#print axioms Verif.Props.C72_two_copies
#print axioms Verif.Props.C72_user_macro
#print axioms Verif.Props.C73_partial
#print axioms Verif.Props.C73_same
#print axioms Verif.Props.C73_primary
#print axioms Verif.Props.C73_concepts
#print axioms Verif.Props.C73_bool
#print axioms Verif.Props.C73_linker
#print axioms Verif.Props.C73_unnoticed
#print axioms Verif.Props.C73_user_class
#print axioms Verif.Props.C74_between_partial
#print axioms Verif.Props.C74_compiles_partial
#print axioms Verif.Props.C74_exact
#print axioms Verif.Props.C74_values
#print axioms Verif.Props.C74_explicit
#print axioms Verif.Props.C74_false
#print axioms Verif.Props.C75_same_partial
#print axioms Verif.Props.C75_copy
#print axioms Verif.Props.C75_rvalue
#print axioms Verif.Props.C75_no_more
#print axioms Verif.Props.C75_swap
#print axioms Verif.Props.C75_growth
#print axioms Verif.Props.C75_false
#print axioms Verif.Props.C76_index_pair
#print axioms Verif.Props.C76_iterator
#print axioms Verif.Props.C76_index
#print axioms Verif.Props.C76_enum
#print axioms Verif.Props.C76_micro
#print axioms Verif.Props.C76_data1
#print axioms Verif.Props.C76_data2
#print axioms Verif.Props.C76_data3
#print axioms Verif.Props.C76_enum_sentinel
#print axioms Verif.Props.C76_programs
#print axioms Verif.Props.C76_reported
#print axioms Verif.Props.C76_reported_engaged
#print axioms Verif.Props.C76_reported_ctor
#print axioms Verif.Props.C76_selected
#print axioms Verif.Props.C76_index_pair_type
#print axioms Verif.Props.C76_iterator_type
#print axioms Verif.Props.C76_index_type
#print axioms Verif.Props.C76_enum_type
#print axioms Verif.Props.C76_enum_sentinel_type
#print axioms Verif.Props.C76_micro_type
#print axioms Verif.Props.C76_data1_type
#print axioms Verif.Props.C76_data2_type
#print axioms Verif.Props.C76_data3_type
#print axioms Verif.Props.C77_ends
#print axioms Verif.Props.C77_terminates
#print axioms Verif.Props.C77_swap_terminates
#print axioms Verif.Props.C77_nothing_leaves
#print axioms Verif.Props.C77_only_others
#print axioms Verif.Props.C77_no_handler
#print axioms Verif.Props.C78_constructs_partial
#print axioms Verif.Props.C78_pointers
#print axioms Verif.Props.C78_nothrow
#print axioms Verif.Props.C78_sentinel_partial
#print axioms Verif.Props.C78_sentinel_exact
#print axioms Verif.Props.C78_false
#print axioms Verif.Props.C78_check_partial
#print axioms Verif.Props.C78_check_false
#print axioms Verif.Props.C78_check_sound
#print axioms Verif.Props.C79_bounded
#print axioms Verif.Props.C79_constant
#print axioms Verif.Props.C79_user
#print axioms Verif.Props.C79_no_user
#print axioms Verif.Props.C79_wait_free
#print axioms Verif.Props.C79_overhead
#print axioms Verif.Props.C79_reentrant
#print axioms Verif.Props.C79_wait_free_reentrant
#print axioms Verif.Props.C80_compiles
#print axioms Verif.Props.C80_user
#print axioms Verif.Props.C80_reads_partial
#print axioms Verif.Props.C80_reads_exact
#print axioms Verif.Props.C80_false
#print axioms Verif.Props.C80_named_cpp20
#print axioms Verif.Props.C80_named_cpp17
#print axioms Verif.Props.C80_lookup
#print axioms Verif.Props.C81_usable
#print axioms Verif.Props.C81_in_vain
#print axioms Verif.Props.C81_not_literal
#print axioms Verif.Props.C81_static_init
#print axioms Verif.Props.C81_zero_separate
#print axioms Verif.Props.C81_zero_bits
#print axioms Verif.Props.C81_zero_sentinel
#print axioms Verif.Props.C82_same
#print axioms Verif.Props.C82_foreign
#print axioms Verif.Props.C82_apart
#print axioms Verif.Props.C82_array
#print axioms Verif.Props.C82_when
#print axioms Verif.Props.C82_drop_in
#print axioms Verif.Props.C82_same_reentrant
#print axioms Verif.Props.C82_foreign_reentrant
#print axioms Verif.Props.C82_apart_reentrant
#print axioms Verif.Props.C82_drop_in_reentrant
#print axioms Verif.Props.C83_move
#print axioms Verif.Props.C83_same
#print axioms Verif.Props.C83_drop_in
#print axioms Verif.Props.C83_same_reentrant
#print axioms Verif.Props.C84_represented
#print axioms Verif.Props.C84_represented_reentrant
#print axioms Verif.Props.C84_empty_bytes
#print axioms Verif.Props.C84_empty_iff
#print axioms Verif.Props.C84_value_bytes
#print axioms Verif.Props.C84_same_bytes
#print axioms Verif.Props.C84_same_value
#print axioms Verif.Props.C84_both_empty
#print axioms Verif.Props.C85_values
#print axioms Verif.Props.C85_legal
#print axioms Verif.Props.C85_drop_in
#print axioms Verif.Props.C85_uniform
#print axioms Verif.Props.C85_contains
#print axioms Verif.Props.C85_storable
#print axioms Verif.Props.C85_values_reentrant
#print axioms Verif.Props.C85_legal_reentrant
#print axioms Verif.Props.C85_drop_in_reentrant
#print axioms Verif.Props.C85_contains_reentrant
#print axioms Verif.Props.C86_exact
#print axioms Verif.Props.C86_exotic
#print axioms Verif.Props.C86_empty_kept
#print axioms Verif.Props.C86_choice
#print axioms Verif.Props.C86_double_partial
#print axioms Verif.Props.C86_float_partial
#print axioms Verif.Props.C86_false
#print axioms Verif.Props.C87_and_then_assoc
#print axioms Verif.Props.C87_transform_compose
#print axioms Verif.Props.C87_transform_is_and_then
#print axioms Verif.Props.C87_identity
#print axioms Verif.Props.C87_left_identity
#print axioms Verif.Props.C87_or_else_assoc
#print axioms Verif.Props.C87_needed
#print axioms Verif.Props.C88_atomic
#print axioms Verif.Props.C88_atomic_end
#print axioms Verif.Props.C88_no_race
#print axioms Verif.Props.C88_ends
#print axioms Verif.Props.C88_atomic_reentrant
#print axioms Verif.Props.C88_std
#print axioms Verif.Props.C88_needed
#print axioms Verif.Props.C89_atomic
#print axioms Verif.Props.C89_atomic_reentrant
#print axioms Verif.Props.C89_same
#print axioms Verif.Props.C89_std
#print axioms Verif.Props.C89_needed
#print axioms Verif.Props.C90_std
#print axioms Verif.Props.C90_keeps
#print axioms Verif.Props.C90_tiny
#print axioms Verif.Props.C90_same
#print axioms Verif.Props.C91_permutes
#print axioms Verif.Props.C91_sort
#print axioms Verif.Props.C91_needed
#print axioms Verif.Props.C92_growth
#print axioms Verif.Props.C92_basic
#print axioms Verif.Props.C92_needed
#print axioms Verif.Props.C93_erasure
#print axioms Verif.Props.C94_insertion
