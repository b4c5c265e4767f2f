{
 "claims": [
  {
   "property": "C01",
   "status": "proved",
   "theorems": [
    "Verif.Props.C01_history_no_undefined_behaviour",
    "Verif.Props.C01_call_no_undefined_behaviour",
    "Verif.Props.C01_histories_reach"
   ],
   "note": ""
  },
  {
   "property": "C02",
   "status": "proved",
   "theorems": [
    "Verif.Props.C02_exclusive_ownership",
    "Verif.Props.C02_engaged_iff_owns"
   ],
   "note": ""
  },
  {
   "property": "C03",
   "status": "proved",
   "theorems": [
    "Verif.Props.C03_allocated_iff_owned",
    "Verif.Props.C03_trace_follows_protocol",
    "Verif.Props.C03_owned_balance",
    "Verif.Props.C03_unowned_balance",
    "Verif.Props.C03_no_leak"
   ],
   "note": ""
  },
  {
   "property": "C04",
   "status": "proved",
   "theorems": [
    "Verif.Props.C04_deallocate_matches_allocate",
    "Verif.Props.C04_storage_of_own_allocator"
   ],
   "note": ""
  },
  {
   "property": "C05",
   "status": "proved",
   "theorems": [
    "Verif.Props.C05_copy_engaged",
    "Verif.Props.C05_copy_valueless",
    "Verif.Props.C05_copy_throws",
    "Verif.Props.C05_copy_outcome"
   ],
   "note": ""
  },
  {
   "property": "C06",
   "status": "proved",
   "theorems": [
    "Verif.Props.C06_call_independent",
    "Verif.Props.C06_history_independent"
   ],
   "note": ""
  },
  {
   "property": "C07",
   "status": "proved",
   "theorems": [
    "Verif.Props.C07_copy_engaged",
    "Verif.Props.C07_copy_valueless",
    "Verif.Props.C07_copy_throws",
    "Verif.Props.C07_copy_outcome"
   ],
   "note": ""
  },
  {
   "property": "C08",
   "status": "proved",
   "theorems": [
    "Verif.Props.C08_move_transfers",
    "Verif.Props.C08_move_transfers_alwaysEqual"
   ],
   "note": "Proved for allocators with reflexive == or is_always_equal, which the Cpp17Allocator requirements guarantee."
  },
  {
   "property": "C09",
   "status": "partial",
   "theorems": [
    "Verif.Props.C09_moveA_transfers",
    "Verif.Props.C09_moveA_unequal_partial",
    "Verif.Props.C09_moveA_valueless",
    "Verif.Props.C09_moveA_throws",
    "Verif.Props.C09_source_not_always_valueless"
   ],
   "note": "The paper's postcondition that the source is valueless is false for unequal allocators (C09_source_not_always_valueless); what holds then is C09_moveA_unequal_partial."
  },
  {
   "property": "C10",
   "status": "proved",
   "theorems": [
    "Verif.Props.C10_from_valueless",
    "Verif.Props.C10_in_place",
    "Verif.Props.C10_copy",
    "Verif.Props.C10_copy_assignment"
   ],
   "note": ""
  },
  {
   "property": "C11",
   "status": "proved",
   "theorems": [
    "Verif.Props.C11_assignment_threw",
    "Verif.Props.C11_strong",
    "Verif.Props.C11_copy_assignment_throws"
   ],
   "note": ""
  },
  {
   "property": "C12",
   "status": "partial",
   "theorems": [
    "Verif.Props.C12_from_valueless",
    "Verif.Props.C12_equal_allocators",
    "Verif.Props.C12_unequal_allocators_partial",
    "Verif.Props.C12_source_not_always_valueless"
   ],
   "note": "The paper's postcondition that the source is valueless is false for unequal allocators (C12_source_not_always_valueless); what holds then is C12_unequal_allocators_partial."
  },
  {
   "property": "C13",
   "status": "partial",
   "theorems": [
    "Verif.Props.C13_move_assignment_throws_partial",
    "Verif.Props.C13_effects_despite_exception"
   ],
   "note": "'No effects if an exception is thrown' is false for the source when T's move constructor throws (C13_effects_despite_exception); C13_move_assignment_throws_partial states what holds: the target is untouched and nothing leaks."
  },
  {
   "property": "C14",
   "status": "proved",
   "theorems": [
    "Verif.Props.C14_self_copy_assign",
    "Verif.Props.C14_self_move_assign",
    "Verif.Props.C14_self_swap",
    "Verif.Props.C14_self_friend_swap",
    "Verif.Props.C14_self_swap_legal"
   ],
   "note": ""
  },
  {
   "property": "C15",
   "status": "proved",
   "theorems": [
    "Verif.Props.C15_swap",
    "Verif.Props.C15_friend_swap",
    "Verif.Props.C15_swap_twice",
    "Verif.Props.C15_swap_undefined"
   ],
   "note": ""
  },
  {
   "property": "C16",
   "status": "partial",
   "theorems": [
    "Verif.Props.C16_terminates_iff",
    "Verif.Props.C16_noexcept_kept_partial",
    "Verif.Props.C16_noexcept_violated"
   ],
   "note": "False for allocators that propagate on move assignment and compare unequal (C16_noexcept_violated); C16_terminates_iff characterises termination exactly, C16_noexcept_kept_partial proves the promise for all other allocators."
  },
  {
   "property": "C17",
   "status": "proved",
   "theorems": [
    "Verif.Props.C17_engaged_arg",
    "Verif.Props.C17_engaged_copy",
    "Verif.Props.C17_engaged_move",
    "Verif.Props.C17_valueless_arg",
    "Verif.Props.C17_valueless_copy",
    "Verif.Props.C17_valueless_move",
    "Verif.Props.C17_engaged_afterwards"
   ],
   "note": ""
  },
  {
   "property": "C18",
   "status": "proved",
   "theorems": [
    "Verif.Props.C18_constructed_engaged",
    "Verif.Props.C18_becomes_valueless",
    "Verif.Props.C18_exceptions"
   ],
   "note": ""
  },
  {
   "property": "C19",
   "status": "proved",
   "theorems": [
    "Verif.Props.C19_failed_construction"
   ],
   "note": ""
  },
  {
   "property": "C20",
   "status": "proved",
   "theorems": [
    "Verif.Props.C20_deref",
    "Verif.Props.C20_arrow",
    "Verif.Props.C20_same_object",
    "Verif.Props.C20_valueless",
    "Verif.Props.C20_get_allocator",
    "Verif.Props.C20_write"
   ],
   "note": ""
  },
  {
   "property": "C21",
   "status": "proved",
   "theorems": [
    "Verif.Props.C21_destroy_engaged",
    "Verif.Props.C21_destroy_valueless"
   ],
   "note": ""
  },
  {
   "property": "C22",
   "status": "proved",
   "theorems": [
    "Verif.Props.C22_cost",
    "Verif.Props.C22_at_most_one",
    "Verif.Props.C22_cost_of_exception",
    "Verif.Props.C22_new_before_old",
    "Verif.Props.C22_cxx14_cost",
    "Verif.Props.C22_cxx14_cost_of_exception"
   ],
   "note": ""
  },
  {
   "property": "C23",
   "status": "proved",
   "theorems": [
    "Verif.Props.C23_history_is_value_history",
    "Verif.Props.C23_call_is_value_call"
   ],
   "note": ""
  },
  {
   "property": "C24",
   "status": "proved",
   "theorems": [
    "Verif.Props.C24_equal",
    "Verif.Props.C24_equal_mixed_types",
    "Verif.Props.C24_equal_exact",
    "Verif.Props.C24_equivalence"
   ],
   "note": ""
  },
  {
   "property": "C25",
   "status": "proved",
   "theorems": [
    "Verif.Props.C25_three_way",
    "Verif.Props.C25_three_way_mixed_types",
    "Verif.Props.C25_three_way_exact",
    "Verif.Props.C25_order",
    "Verif.Props.C25_operators",
    "Verif.Props.C25_consistent_with_equal"
   ],
   "note": ""
  },
  {
   "property": "C26",
   "status": "proved",
   "theorems": [
    "Verif.Props.C26_with_value",
    "Verif.Props.C26_with_value_exact",
    "Verif.Props.C26_same_as_engaged",
    "Verif.Props.C26_reversed"
   ],
   "note": ""
  },
  {
   "property": "C27",
   "status": "proved",
   "theorems": [
    "Verif.Props.C27_three_way",
    "Verif.Props.C27_from_less",
    "Verif.Props.C27_from_less_throws",
    "Verif.Props.C27_value",
    "Verif.Props.C27_weak_order"
   ],
   "note": ""
  },
  {
   "property": "C28",
   "status": "proved",
   "theorems": [
    "Verif.Props.C28_hash",
    "Verif.Props.C28_equal_hash"
   ],
   "note": ""
  },
  {
   "property": "C29",
   "status": "proved",
   "theorems": [
    "Verif.Props.C29_operators",
    "Verif.Props.C29_operators_exact",
    "Verif.Props.C29_negations",
    "Verif.Props.C29_mirrors",
    "Verif.Props.C29_same_as_cxx20",
    "Verif.Props.C29_mixed_left",
    "Verif.Props.C29_mixed_right",
    "Verif.Props.C29_mixed_exact",
    "Verif.Props.C29_mixed_same_as_cxx20"
   ],
   "note": ""
  },
  {
   "property": "C30",
   "status": "proved",
   "theorems": [
    "Verif.Props.C30_same_call",
    "Verif.Props.C30_same_history",
    "Verif.Props.C30_any_type",
    "Verif.Props.C30_only_copy_assignment"
   ],
   "note": ""
  },
  {
   "property": "C31",
   "status": "proved",
   "theorems": [
    "Verif.Props.C31_history_no_undefined_behaviour",
    "Verif.Props.C31_call_no_undefined_behaviour",
    "Verif.Props.C31_histories_reach",
    "Verif.Props.C31_control_blocks_complete"
   ],
   "note": ""
  },
  {
   "property": "C32",
   "status": "proved",
   "theorems": [
    "Verif.Props.C32_exclusive_ownership",
    "Verif.Props.C32_allocated_iff_owned",
    "Verif.Props.C32_trace_follows_protocol",
    "Verif.Props.C32_owned_balance",
    "Verif.Props.C32_unowned_balance",
    "Verif.Props.C32_no_leak",
    "Verif.Props.C32_deallocate_matches_allocate",
    "Verif.Props.C32_storage_of_own_allocator"
   ],
   "note": ""
  },
  {
   "property": "C33",
   "status": "proved",
   "theorems": [
    "Verif.Props.C33_copyA_engaged",
    "Verif.Props.C33_copy_engaged",
    "Verif.Props.C33_copyA_valueless",
    "Verif.Props.C33_copy_valueless",
    "Verif.Props.C33_copyA_outcome",
    "Verif.Props.C33_copyA_throws",
    "Verif.Props.C33_call_independent",
    "Verif.Props.C33_history_independent"
   ],
   "note": ""
  },
  {
   "property": "C34",
   "status": "proved",
   "theorems": [
    "Verif.Props.C34_construct_args",
    "Verif.Props.C34_construct_copy",
    "Verif.Props.C34_construct_move",
    "Verif.Props.C34_failed_construction"
   ],
   "note": ""
  },
  {
   "property": "C35",
   "status": "proved",
   "theorems": [
    "Verif.Props.C35_from_valueless",
    "Verif.Props.C35_copy_assignment",
    "Verif.Props.C35_strong"
   ],
   "note": ""
  },
  {
   "property": "C36",
   "status": "proved",
   "theorems": [
    "Verif.Props.C36_move_transfers",
    "Verif.Props.C36_move_transfers_alwaysEqual",
    "Verif.Props.C36_moveA_transfers",
    "Verif.Props.C36_moveA_unequal",
    "Verif.Props.C36_moveA_valueless",
    "Verif.Props.C36_assign_from_valueless",
    "Verif.Props.C36_assign_equal",
    "Verif.Props.C36_assign_unequal",
    "Verif.Props.C36_assign_throws",
    "Verif.Props.C36_moveA_throws"
   ],
   "note": "As for C09/C12: with unequal allocators the source keeps the moved-from object, the paper says valueless; the property is stated as the code behaves."
  },
  {
   "property": "C37",
   "status": "proved",
   "theorems": [
    "Verif.Props.C37_self_copy_assign",
    "Verif.Props.C37_self_move_assign",
    "Verif.Props.C37_self_swap",
    "Verif.Props.C37_swap",
    "Verif.Props.C37_friend_swap",
    "Verif.Props.C37_swap_undefined"
   ],
   "note": ""
  },
  {
   "property": "C38",
   "status": "proved",
   "theorems": [
    "Verif.Props.C38_deref",
    "Verif.Props.C38_same_object",
    "Verif.Props.C38_arrow",
    "Verif.Props.C38_valueless",
    "Verif.Props.C38_write",
    "Verif.Props.C38_call_keeps_reference",
    "Verif.Props.C38_call_keeps_type",
    "Verif.Props.C38_reference_valid",
    "Verif.Props.C38_history_keeps_value",
    "Verif.Props.C38_destroy_engaged",
    "Verif.Props.C38_careful_reference_valid",
    "Verif.Props.C38_careful_history_keeps_value"
   ],
   "note": ""
  },
  {
   "property": "C39",
   "status": "partial",
   "theorems": [
    "Verif.Props.C39_terminates_iff",
    "Verif.Props.C39_noexcept_kept_partial",
    "Verif.Props.C39_noexcept_violated"
   ],
   "note": "False for allocators that propagate on move assignment and compare unequal (C39_noexcept_violated); C39_terminates_iff characterises termination exactly, C39_noexcept_kept_partial proves the promise for all other allocators."
  },
  {
   "property": "C40",
   "status": "proved",
   "theorems": [
    "Verif.Props.C40_history_is_value_history",
    "Verif.Props.C40_call_is_value_call"
   ],
   "note": ""
  },
  {
   "property": "C41",
   "status": "partial",
   "theorems": [
    "Verif.Props.C41_careful_storage_of_own_allocator_partial",
    "Verif.Props.C41_careful_needed",
    "Verif.Props.C41_storage_of_own_allocator_partial",
    "Verif.Props.C41_steals_foreign_storage",
    "Verif.Props.C41_violated"
   ],
   "note": "False: polymorphic_cxx14.h:336 asks for propagate_on_container_copy_assignment instead of is_always_equal (C41_steals_foreign_storage for all allocators with that trait, C41_violated as a whole program). C41_storage_of_own_allocator_partial proves the property for all other allocators. C41_careful_storage_of_own_allocator_partial proves it for all allocators and all histories without an allocator-extended move of a value to an unequal allocator; C41_careful_needed shows that this call always goes wrong."
  },
  {
   "property": "C42",
   "status": "partial",
   "theorems": [
    "Verif.Props.C42_creates_base",
    "Verif.Props.C42_violated",
    "Verif.Props.C42_creates_requested_partial"
   ],
   "note": "False for U other than T: polymorphic_cxx14.h:240 creates a control block for T (C42_creates_base, C42_violated). C42_creates_requested_partial is the case U = T."
  },
  {
   "property": "C43",
   "status": "proved",
   "theorems": [
    "Verif.Props.C43_careful_history",
    "Verif.Props.C43_careful_call",
    "Verif.Props.C43_other_calls",
    "Verif.Props.C43_alloc_move",
    "Verif.Props.C43_ilist",
    "Verif.Props.C43_same_history"
   ],
   "note": ""
  },
  {
   "property": "C44",
   "status": "proved",
   "theorems": [
    "Verif.Props.C44_deep_copy",
    "Verif.Props.C44_deep_copy_with_allocator",
    "Verif.Props.C44_structurally_equal",
    "Verif.Props.C44_source_unchanged",
    "Verif.Props.C44_polymorphic_deep_copy",
    "Verif.Props.C44_polymorphic_deep_copy_with_allocator"
   ],
   "note": "C44_polymorphic_*, C45_polymorphic_*, C58_polymorphic_*, C59_polymorphic_* and C60_polymorphic_* are the same statements for polymorphic members of any dynamic types."
  },
  {
   "property": "C45",
   "status": "proved",
   "theorems": [
    "Verif.Props.C45_destroy",
    "Verif.Props.C45_exactly_once",
    "Verif.Props.C45_lifecycle",
    "Verif.Props.C45_partial_copy_undone",
    "Verif.Props.C45_no_leak",
    "Verif.Props.C45_polymorphic_destroy",
    "Verif.Props.C45_polymorphic_exactly_once",
    "Verif.Props.C45_polymorphic_lifecycle",
    "Verif.Props.C45_polymorphic_partial_copy_undone",
    "Verif.Props.C45_polymorphic_no_leak"
   ],
   "note": "C44_polymorphic_*, C45_polymorphic_*, C58_polymorphic_*, C59_polymorphic_* and C60_polymorphic_* are the same statements for polymorphic members of any dynamic types."
  },
  {
   "property": "C46",
   "status": "partial",
   "theorems": [
    "Verif.Props.C46_move_from_part_undefined",
    "Verif.Props.C46_move_from_part_never_completes",
    "Verif.Props.C46_move_from_part_partial",
    "Verif.Props.C46_copy_from_part_partial",
    "Verif.Props.C46_copy_from_last_members",
    "Verif.Props.C46_copy_from_part_replaced",
    "Verif.Props.C46_copy_from_part_undefined",
    "Verif.Props.C46_copy_from_part_never_completes",
    "Verif.Props.C46_witness_move",
    "Verif.Props.C46_witness_copy",
    "Verif.Props.C46_polymorphic_move_from_part_undefined",
    "Verif.Props.C46_polymorphic_move_from_part_never_completes",
    "Verif.Props.C46_polymorphic_move_from_part_partial",
    "Verif.Props.C46_polymorphic_copy_from_part",
    "Verif.Props.C46_polymorphic_copy_from_part_never_completes",
    "Verif.Props.C46_polymorphic_witness_move",
    "Verif.Props.C46_polymorphic_witness_copy"
   ],
   "note": "False. Move assignment from a part with a value and an equal allocator is always undefined behaviour (C46_move_from_part_undefined, C46_polymorphic_move_from_part_undefined); with propagating allocators move and copy assignment from a part never complete; for indirect, copy assignment from a part not in the last member is undefined behaviour when the nodes are assigned (C46_copy_from_part_undefined). The other theorems cover the cases where the property holds: copy assignment of a polymorphic from a part, without propagation, is always right (C46_polymorphic_copy_from_part), for indirect when the node is replaced (C46_copy_from_part_replaced) or the part is in the last members."
  },
  {
   "property": "C47",
   "status": "proved",
   "theorems": [
    "Verif.Props.C47_indirect_members",
    "Verif.Props.C47_indirect14_members",
    "Verif.Props.C47_polymorphic_members",
    "Verif.Props.C47_no_undefined_behaviour",
    "Verif.Props.C47_all_members_or_none",
    "Verif.Props.C47_make",
    "Verif.Props.C47_copy",
    "Verif.Props.C47_move",
    "Verif.Props.C47_assign_copy",
    "Verif.Props.C47_assign_move",
    "Verif.Props.C47_assign_self",
    "Verif.Props.C47_destroy",
    "Verif.Props.C47_independent",
    "Verif.Props.C47_indirect_storage",
    "Verif.Props.C47_indirect_copy_throws",
    "Verif.Props.C47_indirect_no_leak",
    "Verif.Props.C47_polymorphic_storage",
    "Verif.Props.C47_polymorphic_copy_throws",
    "Verif.Props.C47_polymorphic_no_leak",
    "Verif.Props.C47_polymorphic14_members",
    "Verif.Props.C47_indirect14_storage",
    "Verif.Props.C47_indirect14_no_leak",
    "Verif.Props.C47_polymorphic14_storage",
    "Verif.Props.C47_polymorphic14_no_leak"
   ],
   "note": "Composite.call is the rule of C++ for defaulted special members, for any number of members; Spec.Behaves is what it uses of a member type and C47_*_members shows that indirect and polymorphic of both headers have it."
  },
  {
   "property": "C48",
   "status": "partial",
   "theorems": [
    "Verif.Props.C48_equal_iff_same_counters",
    "Verif.Props.C48_engaged_finite",
    "Verif.Props.C48_counters",
    "Verif.Props.C48_counters_partial",
    "Verif.Props.C48_all_destroyed",
    "Verif.Props.C48_engaged_finite_polymorphic",
    "Verif.Props.C48_counters_polymorphic",
    "Verif.Props.C48_counters_polymorphic_partial",
    "Verif.Props.C48_violated",
    "Verif.Props.C48_cxx14_counters"
   ],
   "note": "False when an allocation is refused: allocate counts before it asks for storage (C48_violated). C48_counters gives the exact difference for every history: engaged objects plus refused allocations, modulo 2^w; the _partial theorems are the case without refusals."
  },
  {
   "property": "C49",
   "status": "partial",
   "theorems": [
    "Verif.Props.C49_construct",
    "Verif.Props.C49_construct_with_allocator",
    "Verif.Props.C49_assign",
    "Verif.Props.C49_construct_cxx14",
    "Verif.Props.C49_construct_polymorphic",
    "Verif.Props.C49_assign_polymorphic",
    "Verif.Props.C49_tag_is_not_a_value",
    "Verif.Props.C49_value_is_forwarded",
    "Verif.Props.C49_value_is_assigned",
    "Verif.Props.C49_derived_is_forwarded",
    "Verif.Props.C49_assign_cxx14_partial",
    "Verif.Props.C49_assign_cxx14_violated"
   ],
   "note": "Holds for every constructor and assignment of indirect.h and polymorphic.h and for the constructors of indirect_cxx14.h. False for operator=(U&&) of indirect_cxx14.h: it is preferred for a non-const or volatile lvalue of the class itself when T accepts it (C49_assign_cxx14_violated); C49_assign_cxx14_partial says exactly when."
  },
  {
   "property": "C50",
   "status": "proved",
   "theorems": [
    "Verif.Props.C50_threads_do_not_interfere",
    "Verif.Props.C50_thread_could_be_alone",
    "Verif.Props.C50_polymorphic_threads_do_not_interfere",
    "Verif.Props.C50_polymorphic_thread_could_be_alone",
    "Verif.Props.C50_cxx14_thread_could_be_alone"
   ],
   "note": ""
  },
  {
   "property": "C51",
   "status": "proved",
   "theorems": [
    "Verif.Props.C51_no_undefined_behaviour",
    "Verif.Props.C51_exclusive_ownership",
    "Verif.Props.C51_no_leak",
    "Verif.Props.C51_deallocate_matches_allocate",
    "Verif.Props.C51_call_is_value_call"
   ],
   "note": ""
  },
  {
   "property": "C52",
   "status": "proved",
   "theorems": [
    "Verif.Props.C52_construct_args",
    "Verif.Props.C52_construct_copy",
    "Verif.Props.C52_construct_move"
   ],
   "note": ""
  },
  {
   "property": "C53",
   "status": "proved",
   "theorems": [
    "Verif.Props.C53_cost",
    "Verif.Props.C53_cost_of_exception",
    "Verif.Props.C53_new_before_old",
    "Verif.Props.C53_careful_cost",
    "Verif.Props.C53_careful_cost_of_exception"
   ],
   "note": ""
  },
  {
   "property": "C54",
   "status": "proved",
   "theorems": [
    "Verif.Props.C54_call_keeps_reference",
    "Verif.Props.C54_reference_valid",
    "Verif.Props.C54_call_keeps_value",
    "Verif.Props.C54_history_keeps_value",
    "Verif.Props.C54_cxx14_call_keeps_reference",
    "Verif.Props.C54_cxx14_reference_valid",
    "Verif.Props.C54_cxx14_history_keeps_value"
   ],
   "note": ""
  },
  {
   "property": "C55",
   "status": "proved",
   "theorems": [
    "Verif.Props.C55_careful_no_undefined_behaviour",
    "Verif.Props.C55_careful_exclusive_ownership",
    "Verif.Props.C55_careful_no_leak",
    "Verif.Props.C55_careful_value_history",
    "Verif.Props.C55_no_undefined_behaviour",
    "Verif.Props.C55_exclusive_ownership",
    "Verif.Props.C55_no_leak",
    "Verif.Props.C55_deallocate_matches_allocate",
    "Verif.Props.C55_call_is_value_call",
    "Verif.Props.C55_terminates_iff",
    "Verif.Props.C55_noexcept_needs_reflexivity"
   ],
   "note": ""
  },
  {
   "property": "C56",
   "status": "proved",
   "theorems": [
    "Verif.Props.C56_touches_only_operands",
    "Verif.Props.C56_polymorphic_touches_only_operands",
    "Verif.Props.C56_cxx14_touches_only_operands"
   ],
   "note": ""
  },
  {
   "property": "C57",
   "status": "proved",
   "theorems": [
    "Verif.Props.C57_calls_commute",
    "Verif.Props.C57_polymorphic_calls_commute",
    "Verif.Props.C57_cxx14_calls_commute"
   ],
   "note": ""
  },
  {
   "property": "C58",
   "status": "proved",
   "theorems": [
    "Verif.Props.C58_statements",
    "Verif.Props.C58_polymorphic_statements",
    "Verif.Props.C58_polymorphic_copy_assignment"
   ],
   "note": "C44_polymorphic_*, C45_polymorphic_*, C58_polymorphic_*, C59_polymorphic_* and C60_polymorphic_* are the same statements for polymorphic members of any dynamic types."
  },
  {
   "property": "C59",
   "status": "proved",
   "theorems": [
    "Verif.Props.C59_apart_unchanged",
    "Verif.Props.C59_polymorphic_apart_unchanged"
   ],
   "note": "C44_polymorphic_*, C45_polymorphic_*, C58_polymorphic_*, C59_polymorphic_* and C60_polymorphic_* are the same statements for polymorphic members of any dynamic types."
  },
  {
   "property": "C60",
   "status": "proved",
   "theorems": [
    "Verif.Props.C60_trees",
    "Verif.Props.C60_no_sharing",
    "Verif.Props.C60_allocated_iff_owned",
    "Verif.Props.C60_determined",
    "Verif.Props.C60_polymorphic_trees",
    "Verif.Props.C60_polymorphic_no_sharing",
    "Verif.Props.C60_polymorphic_allocated_iff_owned",
    "Verif.Props.C60_polymorphic_determined"
   ],
   "note": "C44_polymorphic_*, C45_polymorphic_*, C58_polymorphic_*, C59_polymorphic_* and C60_polymorphic_* are the same statements for polymorphic members of any dynamic types."
  },
  {
   "property": "C61",
   "status": "proved",
   "theorems": [
    "Verif.Props.C61_equal",
    "Verif.Props.C61_equivalence",
    "Verif.Props.C61_three_way",
    "Verif.Props.C61_lexicographic",
    "Verif.Props.C61_order",
    "Verif.Props.C61_consistent",
    "Verif.Props.C61_hash",
    "Verif.Props.C61_throws",
    "Verif.Props.C61_copy_equal"
   ],
   "note": ""
  },
  {
   "property": "C62",
   "status": "proved",
   "theorems": [
    "Verif.Props.C62_writes_only",
    "Verif.Props.C62_const_operand",
    "Verif.Props.C62_polymorphic_writes_only",
    "Verif.Props.C62_polymorphic_const_operand",
    "Verif.Props.C62_cxx14_writes_only",
    "Verif.Props.C62_cxx14_const_operand"
   ],
   "note": ""
  },
  {
   "property": "C63",
   "status": "partial",
   "theorems": [
    "Verif.Props.C63_indirect14_never_valueless_partial",
    "Verif.Props.C63_polymorphic14_never_valueless",
    "Verif.Props.C63_indirect14_storage",
    "Verif.Props.C63_indirect14_no_leak",
    "Verif.Props.C63_polymorphic14_storage",
    "Verif.Props.C63_polymorphic14_no_leak",
    "Verif.Props.C63_no_undefined_behaviour",
    "Verif.Props.C63_make",
    "Verif.Props.C63_copy",
    "Verif.Props.C63_move",
    "Verif.Props.C63_assign_copy",
    "Verif.Props.C63_assign_move",
    "Verif.Props.C63_assign_self",
    "Verif.Props.C63_emplace",
    "Verif.Props.C63_destroy",
    "Verif.Props.C63_independent",
    "Verif.Props.C63_never_valueless_partial",
    "Verif.Props.C63_indirect_never_valueless_partial",
    "Verif.Props.C63_polymorphic_never_valueless_partial",
    "Verif.Props.C63_indirect_storage",
    "Verif.Props.C63_indirect_no_leak",
    "Verif.Props.C63_polymorphic_storage",
    "Verif.Props.C63_polymorphic_no_leak",
    "Verif.Props.C63_assignment_can_leave_valueless"
   ],
   "note": "The last sentence is false for allocators that are not always equal, because the headers declare the move constructors noexcept only for always equal allocators, where the paper says noexcept: copy assignment then goes through emplace (C63_assignment_can_leave_valueless). C63_never_valueless_partial proves it for the other allocators; the rest is proved in full. polymorphic of the C++14 header has an unconditionally noexcept move constructor, so there it is proved for all allocators (C63_polymorphic14_never_valueless)."
  },
  {
   "property": "C64",
   "status": "proved",
   "theorems": [
    "Verif.Props.C64_elements_polymorphic14",
    "Verif.Props.C64_elements_indirect14_scoped",
    "Verif.Props.C64_indirect14_no_leak",
    "Verif.Props.C64_polymorphic14_no_leak",
    "Verif.Props.C64_polymorphic14_growth_keeps_objects",
    "Verif.Props.C64_polymorphic14_reserve_keeps_objects",
    "Verif.Props.C64_indirect14_growth_keeps_objects",
    "Verif.Props.C64_scoped_indirect14_allocator",
    "Verif.Props.C64_polymorphic14_scoped_violated",
    "Verif.Props.C64_elements_indirect",
    "Verif.Props.C64_elements_indirect14",
    "Verif.Props.C64_elements_polymorphic",
    "Verif.Props.C64_elements_indirect_scoped",
    "Verif.Props.C64_elements_polymorphic_scoped",
    "Verif.Props.C64_no_undefined_behaviour",
    "Verif.Props.C64_emplace_back",
    "Verif.Props.C64_push_back_copy",
    "Verif.Props.C64_push_back_move",
    "Verif.Props.C64_pop_back",
    "Verif.Props.C64_reserve",
    "Verif.Props.C64_erase",
    "Verif.Props.C64_empty",
    "Verif.Props.C64_copy",
    "Verif.Props.C64_move",
    "Verif.Props.C64_assign_copy",
    "Verif.Props.C64_assign_self",
    "Verif.Props.C64_assign_move",
    "Verif.Props.C64_swap",
    "Verif.Props.C64_destroy",
    "Verif.Props.C64_modify",
    "Verif.Props.C64_variables",
    "Verif.Props.C64_indirect_no_leak",
    "Verif.Props.C64_polymorphic_no_leak",
    "Verif.Props.C64_growth_keeps_objects",
    "Verif.Props.C64_reserve_keeps_objects",
    "Verif.Props.C64_erase_keeps_objects",
    "Verif.Props.C64_polymorphic_growth_keeps_objects",
    "Verif.Props.C64_polymorphic_reserve_keeps_objects",
    "Verif.Props.C64_polymorphic_erase_keeps_objects",
    "Verif.Props.C64_scoped_indirect_allocator",
    "Verif.Props.C64_scoped_polymorphic_allocator",
    "Verif.Props.C64_growth_can_change_allocators",
    "Verif.Props.C64_push_back_move_can_lose_source"
   ],
   "note": "C64_polymorphic14_scoped_violated: the C++14 polymorphic in vectors that pass an allocator on to their elements has undefined behaviour if copy assignment propagates allocators, by the defect of C41; such vectors are outside the quantifier."
  },
  {
   "property": "C65",
   "status": "proved",
   "theorems": [
    "Verif.Props.C65_indirect_call",
    "Verif.Props.C65_indirect14_call",
    "Verif.Props.C65_polymorphic_call",
    "Verif.Props.C65_polymorphic14_call",
    "Verif.Props.C65_indirect_history",
    "Verif.Props.C65_indirect_fixed",
    "Verif.Props.C65_indirect_origin",
    "Verif.Props.C65_polymorphic_history",
    "Verif.Props.C65_polymorphic_fixed",
    "Verif.Props.C65_polymorphic_origin",
    "Verif.Props.C65_indirect14_history",
    "Verif.Props.C65_indirect14_fixed",
    "Verif.Props.C65_polymorphic14_history",
    "Verif.Props.C65_polymorphic14_fixed",
    "Verif.Props.C65_tracking_counters",
    "Verif.Props.C65_tagged_tag"
   ],
   "note": ""
  },
  {
   "property": "C66",
   "status": "proved",
   "theorems": [
    "Verif.Props.C66_no_undefined_behaviour",
    "Verif.Props.C66_no_data_race",
    "Verif.Props.C66_threads_run_as_if_alone",
    "Verif.Props.C66_shared_objects_stay",
    "Verif.Props.C66_terminates_only_as_alone",
    "Verif.Props.C66_nothing_leaks",
    "Verif.Props.C66_wait_free",
    "Verif.Props.C66_uninterrupted",
    "Verif.Props.C66_sharing_matters",
    "Verif.Props.C66_polymorphic_no_undefined_behaviour",
    "Verif.Props.C66_polymorphic_no_data_race",
    "Verif.Props.C66_polymorphic_threads_run_as_if_alone",
    "Verif.Props.C66_polymorphic_shared_objects_stay",
    "Verif.Props.C66_polymorphic_terminates_only_as_alone",
    "Verif.Props.C66_polymorphic_nothing_leaks",
    "Verif.Props.C66_polymorphic_wait_free",
    "Verif.Props.C66_polymorphic_uninterrupted",
    "Verif.Props.C66_indirect14_no_undefined_behaviour",
    "Verif.Props.C66_indirect14_no_data_race",
    "Verif.Props.C66_indirect14_threads_run_as_if_alone",
    "Verif.Props.C66_indirect14_shared_objects_stay",
    "Verif.Props.C66_indirect14_terminates_only_as_alone",
    "Verif.Props.C66_indirect14_nothing_leaks",
    "Verif.Props.C66_indirect14_wait_free",
    "Verif.Props.C66_indirect14_uninterrupted",
    "Verif.Props.C66_polymorphic14_no_undefined_behaviour",
    "Verif.Props.C66_polymorphic14_no_data_race",
    "Verif.Props.C66_polymorphic14_threads_run_as_if_alone",
    "Verif.Props.C66_polymorphic14_shared_objects_stay",
    "Verif.Props.C66_polymorphic14_terminates_only_as_alone",
    "Verif.Props.C66_polymorphic14_nothing_leaks",
    "Verif.Props.C66_polymorphic14_wait_free",
    "Verif.Props.C66_polymorphic14_uninterrupted"
   ],
   "note": ""
  },
  {
   "property": "C67",
   "status": "partial",
   "theorems": [
    "Verif.Props.C67_no_undefined_behaviour_partial",
    "Verif.Props.C67_values_partial",
    "Verif.Props.C67_always_a_value_partial",
    "Verif.Props.C67_exclusive_ownership_partial",
    "Verif.Props.C67_no_leak_partial",
    "Verif.Props.C67_equal",
    "Verif.Props.C67_self_assignment",
    "Verif.Props.C67_assignment_shares",
    "Verif.Props.C67_assignment_violated"
   ],
   "note": "False for assignments: the classes have the implicit copy assignment operator, which copies the pointer. C67_assignment_shares proves for every assignment between different objects that one T is lost and the other deleted twice; everything else is proved."
  },
  {
   "property": "C68",
   "status": "proved",
   "theorems": [
    "Verif.Props.C68_no_undefined_behaviour",
    "Verif.Props.C68_no_data_race",
    "Verif.Props.C68_threads_run_as_if_alone",
    "Verif.Props.C68_shared_objects_stay",
    "Verif.Props.C68_terminates_only_as_alone",
    "Verif.Props.C68_nothing_leaks",
    "Verif.Props.C68_wait_free",
    "Verif.Props.C68_uninterrupted",
    "Verif.Props.C68_readers",
    "Verif.Props.C68_cxx14_no_undefined_behaviour",
    "Verif.Props.C68_cxx14_no_data_race",
    "Verif.Props.C68_cxx14_threads_run_as_if_alone",
    "Verif.Props.C68_cxx14_shared_objects_stay",
    "Verif.Props.C68_cxx14_terminates_only_as_alone",
    "Verif.Props.C68_cxx14_nothing_leaks",
    "Verif.Props.C68_cxx14_wait_free",
    "Verif.Props.C68_cxx14_uninterrupted",
    "Verif.Props.C68_cxx14_readers"
   ],
   "note": ""
  },
  {
   "property": "C69",
   "status": "proved",
   "theorems": [
    "Verif.Props.C69_own_results",
    "Verif.Props.C69_idle_threads",
    "Verif.Props.C69_no_undefined_behaviour",
    "Verif.Props.C69_no_data_race",
    "Verif.Props.C69_as_if_one_after_the_other",
    "Verif.Props.C69_terminates_only_as_serially",
    "Verif.Props.C69_nothing_leaks",
    "Verif.Props.C69_serial_reasoning",
    "Verif.Props.C69_polymorphic_no_undefined_behaviour",
    "Verif.Props.C69_polymorphic_no_data_race",
    "Verif.Props.C69_polymorphic_as_if_one_after_the_other",
    "Verif.Props.C69_polymorphic_terminates_only_as_serially",
    "Verif.Props.C69_polymorphic_nothing_leaks",
    "Verif.Props.C69_polymorphic_serial_reasoning",
    "Verif.Props.C69_indirect14_no_undefined_behaviour",
    "Verif.Props.C69_indirect14_no_data_race",
    "Verif.Props.C69_indirect14_as_if_one_after_the_other",
    "Verif.Props.C69_indirect14_terminates_only_as_serially",
    "Verif.Props.C69_indirect14_nothing_leaks",
    "Verif.Props.C69_indirect14_serial_reasoning",
    "Verif.Props.C69_polymorphic14_no_undefined_behaviour",
    "Verif.Props.C69_polymorphic14_no_data_race",
    "Verif.Props.C69_polymorphic14_as_if_one_after_the_other",
    "Verif.Props.C69_polymorphic14_terminates_only_as_serially",
    "Verif.Props.C69_polymorphic14_nothing_leaks",
    "Verif.Props.C69_polymorphic14_serial_reasoning",
    "Verif.Props.C69_conflicts_matter"
   ],
   "note": ""
  },
  {
   "property": "C70",
   "status": "proved",
   "theorems": [
    "Verif.Props.C70_one_access",
    "Verif.Props.C70_const_exactly",
    "Verif.Props.C70_const_propagates",
    "Verif.Props.C70_only_observers",
    "Verif.Props.C70_all_members",
    "Verif.Props.C70_access_compiles",
    "Verif.Props.C70_lvalues_stay",
    "Verif.Props.C70_rvalues_propagate",
    "Verif.Props.C70_polymorphic_gives_lvalues",
    "Verif.Props.C70_rvalues_exactly",
    "Verif.Props.C70_const_exactly_all",
    "Verif.Props.C70_pointers_do_not_propagate"
   ],
   "note": ""
  },
  {
   "property": "C71",
   "status": "proved",
   "theorems": [
    "Verif.Props.C71_from_value",
    "Verif.Props.C71_from_indirect",
    "Verif.Props.C71_from_derived",
    "Verif.Props.C71_with_allocator_from_value",
    "Verif.Props.C71_with_allocator_from_indirect",
    "Verif.Props.C71_with_other_allocator",
    "Verif.Props.C71_with_allocator_from_derived",
    "Verif.Props.C71_well_formed"
   ],
   "note": ""
  },
  {
   "property": "C72",
   "status": "proved",
   "theorems": [
    "Verif.Props.C72_same_statement",
    "Verif.Props.C72_same_program",
    "Verif.Props.C72_same_states",
    "Verif.Props.C72_trees",
    "Verif.Props.C72_no_sharing",
    "Verif.Props.C72_allocated_iff_owned",
    "Verif.Props.C72_determined",
    "Verif.Props.C72_statements",
    "Verif.Props.C72_apart_unchanged",
    "Verif.Props.C72_deep_copy",
    "Verif.Props.C72_deep_copy_with_allocator",
    "Verif.Props.C72_destroy",
    "Verif.Props.C72_exactly_once",
    "Verif.Props.C72_lifecycle",
    "Verif.Props.C72_partial_copy_undone",
    "Verif.Props.C72_no_leak",
    "Verif.Props.C72_polymorphic_same_statement",
    "Verif.Props.C72_polymorphic_states",
    "Verif.Props.C72_polymorphic_same_states",
    "Verif.Props.C72_polymorphic_trees",
    "Verif.Props.C72_polymorphic_no_sharing",
    "Verif.Props.C72_polymorphic_allocated_iff_owned",
    "Verif.Props.C72_polymorphic_determined",
    "Verif.Props.C72_polymorphic_statements",
    "Verif.Props.C72_polymorphic_copy_assignment",
    "Verif.Props.C72_polymorphic_apart_unchanged",
    "Verif.Props.C72_polymorphic_deep_copy",
    "Verif.Props.C72_polymorphic_deep_copy_with_allocator",
    "Verif.Props.C72_polymorphic_destroy",
    "Verif.Props.C72_polymorphic_exactly_once",
    "Verif.Props.C72_polymorphic_lifecycle",
    "Verif.Props.C72_polymorphic_partial_copy_undone",
    "Verif.Props.C72_polymorphic_no_leak",
    "Verif.Props.C72_polymorphic_condition_needed"
   ],
   "note": ""
  },
  {
   "property": "C73",
   "status": "proved",
   "theorems": [
    "Verif.Props.C73_as_on_values",
    "Verif.Props.C73_no_undefined_behaviour",
    "Verif.Props.C73_addresses_do_not_matter",
    "Verif.Props.C73_nothing_leaks",
    "Verif.Props.C73_cxx14_as_on_values",
    "Verif.Props.C73_cxx14_no_undefined_behaviour",
    "Verif.Props.C73_cxx14_addresses_do_not_matter",
    "Verif.Props.C73_cxx14_nothing_leaks",
    "Verif.Props.C73_polymorphic_as_on_values",
    "Verif.Props.C73_polymorphic_no_undefined_behaviour",
    "Verif.Props.C73_polymorphic_addresses_do_not_matter",
    "Verif.Props.C73_polymorphic_nothing_leaks",
    "Verif.Props.C73_polymorphic14_as_on_values",
    "Verif.Props.C73_polymorphic14_no_undefined_behaviour",
    "Verif.Props.C73_polymorphic14_addresses_do_not_matter",
    "Verif.Props.C73_polymorphic14_nothing_leaks"
   ],
   "note": ""
  },
  {
   "property": "C74",
   "status": "proved",
   "theorems": [
    "Verif.Props.C74_swap_by_moves_unequal",
    "Verif.Props.C74_cxx14_swap_by_moves_unequal",
    "Verif.Props.C74_polymorphic_swap_by_moves_unequal",
    "Verif.Props.C74_polymorphic14_swap_by_moves_unequal",
    "Verif.Props.C74_swap_by_moves_loses_value",
    "Verif.Props.C74_sorts",
    "Verif.Props.C74_whatever_comparisons_do",
    "Verif.Props.C74_cxx14_sorts",
    "Verif.Props.C74_cxx14_whatever_comparisons_do",
    "Verif.Props.C74_swap_by_moves",
    "Verif.Props.C74_swap_by_moves_is_swap",
    "Verif.Props.C74_cxx14_swap_by_moves",
    "Verif.Props.C74_polymorphic_swap_by_moves",
    "Verif.Props.C74_polymorphic14_swap_by_moves"
   ],
   "note": ""
  },
  {
   "property": "C75",
   "status": "proved",
   "theorems": [
    "Verif.Props.C75_locals_end",
    "Verif.Props.C75_nothing_left",
    "Verif.Props.C75_rules_suffice",
    "Verif.Props.C75_safe_programs",
    "Verif.Props.C75_cxx14_locals_end",
    "Verif.Props.C75_cxx14_nothing_left",
    "Verif.Props.C75_cxx14_rules_suffice",
    "Verif.Props.C75_cxx14_safe_programs",
    "Verif.Props.C75_polymorphic_locals_end",
    "Verif.Props.C75_polymorphic_nothing_left",
    "Verif.Props.C75_polymorphic_rules_suffice",
    "Verif.Props.C75_polymorphic_safe_programs",
    "Verif.Props.C75_polymorphic14_locals_end",
    "Verif.Props.C75_polymorphic14_nothing_left",
    "Verif.Props.C75_polymorphic14_rules_suffice",
    "Verif.Props.C75_polymorphic14_safe_programs"
   ],
   "note": ""
  },
  {
   "property": "C76",
   "status": "partial",
   "theorems": [
    "Verif.Props.C76_calls",
    "Verif.Props.C76_own_memory",
    "Verif.Props.C76_nothing_left",
    "Verif.Props.C76_cxx14_calls",
    "Verif.Props.C76_cxx14_own_memory",
    "Verif.Props.C76_cxx14_nothing_left",
    "Verif.Props.C76_polymorphic_calls",
    "Verif.Props.C76_polymorphic_own_memory",
    "Verif.Props.C76_polymorphic_nothing_left",
    "Verif.Props.C76_polymorphic14_calls_partial",
    "Verif.Props.C76_polymorphic14_own_memory_partial",
    "Verif.Props.C76_polymorphic14_nothing_left_partial",
    "Verif.Props.C76_polymorphic14_violated",
    "Verif.Props.C76_careful_calls_partial",
    "Verif.Props.C76_careful_own_memory_partial",
    "Verif.Props.C76_careful_nothing_left_partial"
   ],
   "note": "False for polymorphic_cxx14.h with allocators that propagate on copy assignment and can compare unequal: its allocator-extended move constructor takes over the object of the other memory resource (C76_polymorphic14_violated, the bug of C41). C76_polymorphic14_*_partial are for all other allocators; complete for the three other headers. The C76_careful_*_partial theorems are for all allocators and all histories without an allocator-extended move of a value to an unequal allocator."
  },
  {
   "property": "C77",
   "status": "partial",
   "theorems": [
    "Verif.Props.C77_careful_calls_partial",
    "Verif.Props.C77_careful_paired_partial",
    "Verif.Props.C77_careful_counts_partial",
    "Verif.Props.C77_careful_balanced_partial",
    "Verif.Props.C77_calls",
    "Verif.Props.C77_paired",
    "Verif.Props.C77_counts",
    "Verif.Props.C77_balanced",
    "Verif.Props.C77_cxx14_calls",
    "Verif.Props.C77_cxx14_paired",
    "Verif.Props.C77_cxx14_counts",
    "Verif.Props.C77_cxx14_balanced",
    "Verif.Props.C77_polymorphic_calls",
    "Verif.Props.C77_polymorphic_paired_partial",
    "Verif.Props.C77_polymorphic_counts_partial",
    "Verif.Props.C77_polymorphic_balanced_partial",
    "Verif.Props.C77_polymorphic_blocks",
    "Verif.Props.C77_polymorphic14_calls_partial",
    "Verif.Props.C77_polymorphic14_paired_partial",
    "Verif.Props.C77_polymorphic14_counts_partial",
    "Verif.Props.C77_polymorphic14_balanced_partial",
    "Verif.Props.C77_polymorphic14_blocks_partial",
    "Verif.Props.C77_polymorphic_violated",
    "Verif.Props.C77_polymorphic14_violated"
   ],
   "note": "False for the control blocks of both polymorphic headers: they are constructed with construct and never destroyed with destroy (C77_polymorphic_violated, C77_polymorphic14_violated; C77_polymorphic_blocks says for all reachable states what happens). For the objects owned by polymorphic it is proved (C77_polymorphic_*_partial), for polymorphic_cxx14.h for allocators outside the bug of C41; complete for both indirect headers. The C77_careful_*_partial theorems are for all allocators and all histories without an allocator-extended move of a value to an unequal allocator."
  },
  {
   "property": "C78",
   "status": "proved",
   "theorems": [
    "Verif.Props.C78_no_undefined_behaviour",
    "Verif.Props.C78_no_data_race",
    "Verif.Props.C78_as_if_one_after_the_other",
    "Verif.Props.C78_terminates_only_as_serially",
    "Verif.Props.C78_nothing_leaks",
    "Verif.Props.C78_mutual_exclusion",
    "Verif.Props.C78_polymorphic_no_undefined_behaviour",
    "Verif.Props.C78_polymorphic_no_data_race",
    "Verif.Props.C78_polymorphic_as_if_one_after_the_other",
    "Verif.Props.C78_polymorphic_terminates_only_as_serially",
    "Verif.Props.C78_polymorphic_nothing_leaks",
    "Verif.Props.C78_indirect14_no_undefined_behaviour",
    "Verif.Props.C78_indirect14_no_data_race",
    "Verif.Props.C78_indirect14_as_if_one_after_the_other",
    "Verif.Props.C78_indirect14_terminates_only_as_serially",
    "Verif.Props.C78_indirect14_nothing_leaks",
    "Verif.Props.C78_polymorphic14_no_undefined_behaviour",
    "Verif.Props.C78_polymorphic14_no_data_race",
    "Verif.Props.C78_polymorphic14_as_if_one_after_the_other",
    "Verif.Props.C78_polymorphic14_terminates_only_as_serially",
    "Verif.Props.C78_polymorphic14_nothing_leaks",
    "Verif.Props.C78_locks_matter"
   ],
   "note": ""
  },
  {
   "property": "C79",
   "status": "proved",
   "theorems": [
    "Verif.Props.C79_swaps_indirect",
    "Verif.Props.C79_swaps_indirect14",
    "Verif.Props.C79_swaps_polymorphic",
    "Verif.Props.C79_swaps_polymorphic14",
    "Verif.Props.C79_no_undefined_behaviour",
    "Verif.Props.C79_default",
    "Verif.Props.C79_in_place",
    "Verif.Props.C79_from_value",
    "Verif.Props.C79_copy",
    "Verif.Props.C79_move",
    "Verif.Props.C79_destroy",
    "Verif.Props.C79_reset",
    "Verif.Props.C79_emplace",
    "Verif.Props.C79_assign_copy",
    "Verif.Props.C79_assign_move",
    "Verif.Props.C79_assign_self",
    "Verif.Props.C79_assign_value",
    "Verif.Props.C79_swap",
    "Verif.Props.C79_swap_self",
    "Verif.Props.C79_value",
    "Verif.Props.C79_bad_optional_access",
    "Verif.Props.C79_independent",
    "Verif.Props.C79_variables",
    "Verif.Props.C79_indirect_storage",
    "Verif.Props.C79_indirect_no_leak",
    "Verif.Props.C79_indirect14_storage",
    "Verif.Props.C79_indirect14_no_leak",
    "Verif.Props.C79_polymorphic_storage",
    "Verif.Props.C79_polymorphic_no_leak",
    "Verif.Props.C79_polymorphic14_storage",
    "Verif.Props.C79_polymorphic14_no_leak"
   ],
   "note": ""
  },
  {
   "property": "C80",
   "status": "proved",
   "theorems": [
    "Verif.Props.C80_no_undefined_behaviour",
    "Verif.Props.C80_default",
    "Verif.Props.C80_emplace_new",
    "Verif.Props.C80_emplace_existing",
    "Verif.Props.C80_try_emplace_new",
    "Verif.Props.C80_try_emplace_existing",
    "Verif.Props.C80_insert_or_assign_new",
    "Verif.Props.C80_insert_or_assign_existing",
    "Verif.Props.C80_erase",
    "Verif.Props.C80_clear",
    "Verif.Props.C80_copy",
    "Verif.Props.C80_move",
    "Verif.Props.C80_assign_copy",
    "Verif.Props.C80_self",
    "Verif.Props.C80_assign_move",
    "Verif.Props.C80_swap",
    "Verif.Props.C80_merge",
    "Verif.Props.C80_at",
    "Verif.Props.C80_at_missing",
    "Verif.Props.C80_independent",
    "Verif.Props.C80_leaves_alone",
    "Verif.Props.C80_variables",
    "Verif.Props.C80_indirect_storage",
    "Verif.Props.C80_indirect_no_leak",
    "Verif.Props.C80_indirect14_storage",
    "Verif.Props.C80_indirect14_no_leak",
    "Verif.Props.C80_polymorphic_storage",
    "Verif.Props.C80_polymorphic_no_leak",
    "Verif.Props.C80_polymorphic14_storage",
    "Verif.Props.C80_polymorphic14_no_leak",
    "Verif.Props.C80_indirect_references",
    "Verif.Props.C80_indirect14_references",
    "Verif.Props.C80_polymorphic_references",
    "Verif.Props.C80_polymorphic14_references",
    "Verif.Props.C80_indirect_scoped",
    "Verif.Props.C80_indirect14_scoped",
    "Verif.Props.C80_polymorphic_scoped",
    "Verif.Props.C80_indirect_scoped_no_leak",
    "Verif.Props.C80_polymorphic_scoped_no_leak"
   ],
   "note": ""
  },
  {
   "property": "C81",
   "status": "proved",
   "theorems": [
    "Verif.Props.C81_constant",
    "Verif.Props.C81_value",
    "Verif.Props.C81_one_value",
    "Verif.Props.C81_polymorphic_constant",
    "Verif.Props.C81_polymorphic_value",
    "Verif.Props.C81_int",
    "Verif.Props.C81_answers",
    "Verif.Props.C81_static_assertions",
    "Verif.Props.C81_static_assertion_hash",
    "Verif.Props.C81_polymorphic_static_assertions"
   ],
   "note": ""
  },
  {
   "property": "C82",
   "status": "partial",
   "theorems": [
    "Verif.Props.C82_no_redefinition",
    "Verif.Props.C82_declared_before_use_partial",
    "Verif.Props.C82_declared_before_use_with_includes",
    "Verif.Props.C82_missing_includes",
    "Verif.Props.C82_provides_partial",
    "Verif.Props.C82_hidden_by_other_version",
    "Verif.Props.C82_first_indirect",
    "Verif.Props.C82_first_polymorphic",
    "Verif.Props.C82_one_definition_partial",
    "Verif.Props.C82_versions_clash"
   ],
   "note": "Proved for all sequences of includes: no #error, no second definition, which version a translation unit gets. Partial: a header does not provide what it documents if the other version of it comes first (C82_hidden_by_other_version); remove_cvref_t and size_t are used without including their headers (C82_missing_includes), all other names are declared before use, and these too if the translation unit includes <type_traits> and <cstddef>; translation units with different versions clash (C82_versions_clash)."
  },
  {
   "property": "C83",
   "status": "partial",
   "theorems": [
    "Verif.Props.C83_language_macros",
    "Verif.Props.C83_deduction_guides",
    "Verif.Props.C83_memory_resource_partial",
    "Verif.Props.C83_memory_resource_missed"
   ],
   "note": "Complete but for XYZ_HAS_STD_MEMORY_RESOURCE, which is not defined if only _MSVC_LANG says C++17 (C83_memory_resource_missed); it is never defined wrongly."
  },
  {
   "property": "C84",
   "status": "proved",
   "theorems": [
    "Verif.Props.C84_destroy",
    "Verif.Props.C84_destructors_nested",
    "Verif.Props.C84_copy",
    "Verif.Props.C84_copy_with_allocator",
    "Verif.Props.C84_hash",
    "Verif.Props.C84_equal",
    "Verif.Props.C84_move_swap",
    "Verif.Props.C84_unbounded",
    "Verif.Props.C84_cxx14_destroy",
    "Verif.Props.C84_cxx14_copy",
    "Verif.Props.C84_polymorphic_destroy",
    "Verif.Props.C84_polymorphic_copy",
    "Verif.Props.C84_polymorphic_cxx14_destroy",
    "Verif.Props.C84_polymorphic_cxx14_copy"
   ],
   "note": ""
  },
  {
   "property": "C85",
   "status": "partial",
   "theorems": [
    "Verif.Props.C85_construct",
    "Verif.Props.C85_construct_with_allocator",
    "Verif.Props.C85_assign_partial",
    "Verif.Props.C85_default_partial",
    "Verif.Props.C85_default_with_allocator_partial",
    "Verif.Props.C85_member_construct",
    "Verif.Props.C85_member_assign_partial",
    "Verif.Props.C85_member_exactly",
    "Verif.Props.C85_stable",
    "Verif.Props.C85_remembering",
    "Verif.Props.C85_unit_stable",
    "Verif.Props.C85_complete_construct",
    "Verif.Props.C85_complete_construct_with_allocator",
    "Verif.Props.C85_complete_assign",
    "Verif.Props.C85_complete_construct14",
    "Verif.Props.C85_complete_assign14",
    "Verif.Props.C85_polymorphic_from",
    "Verif.Props.C85_polymorphic_from14",
    "Verif.Props.C85_value_needs_complete",
    "Verif.Props.C85_polymorphic_unit",
    "Verif.Props.C85_indirect_unit",
    "Verif.Props.C85_indirect_unit14_partial",
    "Verif.Props.C85_assign_violation",
    "Verif.Props.C85_default_violation",
    "Verif.Props.C85_construct_relies_on_order",
    "Verif.Props.C85_wrappers",
    "Verif.Props.C85_soft_questions"
   ],
   "note": "Partial: in indirect_cxx14.h no question about assignment can be asked while T is incomplete (C85_assign_violation), in polymorphic_cxx14.h none about default construction (C85_default_violation); indirect.h relies on the order of CWG 2369 (C85_construct_relies_on_order). All else is proved for the four headers."
  },
  {
   "property": "C86",
   "status": "partial",
   "theorems": [
    "Verif.Props.C86_handed_on",
    "Verif.Props.C86_indirect",
    "Verif.Props.C86_moves",
    "Verif.Props.C86_expected",
    "Verif.Props.C86_copies_partial",
    "Verif.Props.C86_copies_exactly",
    "Verif.Props.C86_source_constant_exactly",
    "Verif.Props.C86_violation",
    "Verif.Props.C86_violation_const"
   ],
   "note": "Proved for all moves, for copy construction of indirect and for copy assignment to an existing object. Partial: copies of polymorphic, and copy assignments of indirect that make a new object, hand the source on as T& (C86_violation, C86_violation_const); they select the copy constructor exactly for types that do not tell T& from const T& (C86_copies_exactly)."
  },
  {
   "property": "C87",
   "status": "partial",
   "theorems": [
    "Verif.Props.C87_cxx14",
    "Verif.Props.C87_equality",
    "Verif.Props.C87_three_way_partial",
    "Verif.Props.C87_three_way_same_type",
    "Verif.Props.C87_operators_partial",
    "Verif.Props.C87_operators_same_type",
    "Verif.Props.C87_agree",
    "Verif.Props.C87_equivalence",
    "Verif.Props.C87_order",
    "Verif.Props.C87_compiles",
    "Verif.Props.C87_compiled",
    "Verif.Props.C87_derived_violation",
    "Verif.Props.C87_derived_valueless_violation",
    "Verif.Props.C87_derived_exactly",
    "Verif.Props.C87_unordered_violation"
   ],
   "note": "Proved for the six operators of the C++14 header, for equality in C++20, for <=> of operands of one type, and for <=> of all operands if the values are totally ordered. Partial: values that are not ordered are taken for equivalent in mixed comparisons (C87_unordered_violation), objects of classes derived from indirect cannot be compared with each other (C87_derived_violation) and are taken for plain values (C87_derived_valueless_violation, C87_derived_exactly)."
  },
  {
   "property": "C88",
   "status": "partial",
   "theorems": [
    "Verif.Props.C88_same_call",
    "Verif.Props.C88_same_history",
    "Verif.Props.C88_pointer_type_not_observable",
    "Verif.Props.C88_no_undefined_behaviour",
    "Verif.Props.C88_history_is_value_history",
    "Verif.Props.C88_allocated_iff_owned",
    "Verif.Props.C88_compiles_partial",
    "Verif.Props.C88_violation",
    "Verif.Props.C88_cxx14_exactly",
    "Verif.Props.C88_cxx14_uses",
    "Verif.Props.C88_polymorphic_uses",
    "Verif.Props.C88_polymorphic_exactly"
   ],
   "note": "Proved for indirect.h: all calls and histories, for every pointer type that meets the requirements (owned types without owners as members), and it needs of pointers only what the requirements promise. Partial: the other three headers do not compile with pointers that are not plain (C88_violation; exactly which pointer types they accept: C88_cxx14_exactly, C88_polymorphic_exactly)."
  },
  {
   "property": "C89",
   "status": "proved",
   "theorems": [
    "Verif.Props.C89_keys_sorted",
    "Verif.Props.C89_valueless_key",
    "Verif.Props.C89_find",
    "Verif.Props.C89_insert",
    "Verif.Props.C89_erase",
    "Verif.Props.C89_whatever_comparisons_do",
    "Verif.Props.C89_hash_keys",
    "Verif.Props.C89_hash_find",
    "Verif.Props.C89_hash_insert",
    "Verif.Props.C89_hash_erase",
    "Verif.Props.C89_hash_whatever_comparisons_do",
    "Verif.Props.C89_cxx14_keys_sorted",
    "Verif.Props.C89_cxx14_valueless_key",
    "Verif.Props.C89_cxx14_find",
    "Verif.Props.C89_cxx14_insert",
    "Verif.Props.C89_cxx14_erase",
    "Verif.Props.C89_cxx14_whatever_comparisons_do",
    "Verif.Props.C89_cxx14_hash_keys",
    "Verif.Props.C89_cxx14_hash_find",
    "Verif.Props.C89_cxx14_hash_insert",
    "Verif.Props.C89_cxx14_hash_erase",
    "Verif.Props.C89_cxx14_hash_whatever_comparisons_do"
   ],
   "note": ""
  },
  {
   "property": "C90",
   "status": "partial",
   "theorems": [
    "Verif.Props.C90_class",
    "Verif.Props.C90_owner",
    "Verif.Props.C90_free",
    "Verif.Props.C90_padded",
    "Verif.Props.C90_sum",
    "Verif.Props.C90_cxx14_owner",
    "Verif.Props.C90_cxx14_same_partial",
    "Verif.Props.C90_violation_cxx14_final",
    "Verif.Props.C90_polymorphic",
    "Verif.Props.C90_members",
    "Verif.Props.C90_block"
   ],
   "note": "Proved for both C++20 headers, and for the C++14 headers except that an empty allocator class that is final costs room there (C90_violation_cxx14_final; C90_cxx14_same_partial is the rest)."
  },
  {
   "property": "C91",
   "status": "partial",
   "theorems": [
    "Verif.Props.C91_copy_init",
    "Verif.Props.C91_copy_init_how",
    "Verif.Props.C91_same",
    "Verif.Props.C91_derived_differs",
    "Verif.Props.C91_braces_owners",
    "Verif.Props.C91_braces_only_owners",
    "Verif.Props.C91_braces_single",
    "Verif.Props.C91_braces_cxx14_partial",
    "Verif.Props.C91_violation_cxx14_empty",
    "Verif.Props.C91_violation_cxx14_in_place",
    "Verif.Props.C91_violation_cxx14_list",
    "Verif.Props.C91_assign_braces",
    "Verif.Props.C91_violation_assign_braces",
    "Verif.Props.C91_assign_braces_cxx14",
    "Verif.Props.C91_braces_value",
    "Verif.Props.C91_violation_braces_value"
   ],
   "note": "Proved in full for the C++20 headers, and for the C++14 headers for copy initialization and single expressions in braces. The C++14 headers also make owners from empty braces, from an allocator and from tags with arguments (C91_violation_cxx14_*); C91_braces_cxx14_partial says that this is all."
  },
  {
   "property": "C92",
   "status": "proved",
   "theorems": [
    "Verif.Props.C92_indirect",
    "Verif.Props.C92_indirect_cxx14",
    "Verif.Props.C92_referred_indirect",
    "Verif.Props.C92_referred_indirect_cxx14",
    "Verif.Props.C92_polymorphic",
    "Verif.Props.C92_polymorphic_cxx14",
    "Verif.Props.C92_referred_polymorphic",
    "Verif.Props.C92_referred_polymorphic_cxx14",
    "Verif.Props.C92_reentry_indirect",
    "Verif.Props.C92_reentry_polymorphic"
   ],
   "note": ""
  },
  {
   "property": "C93",
   "status": "proved",
   "theorems": [
    "Verif.Props.C93_unchanged_indirect",
    "Verif.Props.C93_unchanged_indirect_cxx14",
    "Verif.Props.C93_only_indirect",
    "Verif.Props.C93_only_indirect_cxx14",
    "Verif.Props.C93_none_lost_indirect",
    "Verif.Props.C93_none_lost_indirect_cxx14",
    "Verif.Props.C93_memory_indirect",
    "Verif.Props.C93_memory_indirect_cxx14",
    "Verif.Props.C93_destructor_indirect",
    "Verif.Props.C93_destructor_indirect_cxx14",
    "Verif.Props.C93_never_indirect",
    "Verif.Props.C93_never_indirect_cxx14",
    "Verif.Props.C93_unchanged_polymorphic",
    "Verif.Props.C93_unchanged_polymorphic_cxx14",
    "Verif.Props.C93_only_polymorphic",
    "Verif.Props.C93_only_polymorphic_cxx14",
    "Verif.Props.C93_none_lost_polymorphic",
    "Verif.Props.C93_none_lost_polymorphic_cxx14",
    "Verif.Props.C93_memory_polymorphic",
    "Verif.Props.C93_memory_polymorphic_cxx14",
    "Verif.Props.C93_destructor_polymorphic",
    "Verif.Props.C93_destructor_polymorphic_cxx14",
    "Verif.Props.C93_never_polymorphic",
    "Verif.Props.C93_never_polymorphic_cxx14"
   ],
   "note": ""
  },
  {
   "property": "C94",
   "status": "proved",
   "theorems": [
    "Verif.Props.C94_indirect",
    "Verif.Props.C94_indirect_cxx14",
    "Verif.Props.C94_history_indirect",
    "Verif.Props.C94_history_indirect_cxx14",
    "Verif.Props.C94_invariant_indirect",
    "Verif.Props.C94_invariant_indirect_cxx14",
    "Verif.Props.C94_polymorphic",
    "Verif.Props.C94_polymorphic_cxx14",
    "Verif.Props.C94_history_polymorphic",
    "Verif.Props.C94_history_polymorphic_cxx14",
    "Verif.Props.C94_invariant_polymorphic",
    "Verif.Props.C94_invariant_polymorphic_cxx14"
   ],
   "note": ""
  },
  {
   "property": "C95",
   "status": "proved",
   "theorems": [
    "Verif.Props.C95_same_polymorphic",
    "Verif.Props.C95_same_polymorphic_cxx14",
    "Verif.Props.C95_objects",
    "Verif.Props.C95_history_polymorphic",
    "Verif.Props.C95_history_polymorphic_cxx14",
    "Verif.Props.C95_layout_polymorphic",
    "Verif.Props.C95_layout_polymorphic_cxx14",
    "Verif.Props.C95_safe_polymorphic",
    "Verif.Props.C95_safe_polymorphic_cxx14",
    "Verif.Props.C95_refers_polymorphic",
    "Verif.Props.C95_refers_polymorphic_cxx14",
    "Verif.Props.C95_distinct_polymorphic",
    "Verif.Props.C95_distinct_polymorphic_cxx14",
    "Verif.Props.C95_kept_polymorphic",
    "Verif.Props.C95_kept_polymorphic_cxx14",
    "Verif.Props.C95_moved_polymorphic",
    "Verif.Props.C95_moved_polymorphic_cxx14",
    "Verif.Props.C95_assigned_polymorphic",
    "Verif.Props.C95_assigned_polymorphic_cxx14",
    "Verif.Props.C95_swapped_polymorphic",
    "Verif.Props.C95_swapped_polymorphic_cxx14",
    "Verif.Props.C95_copied_polymorphic",
    "Verif.Props.C95_copied_polymorphic_cxx14"
   ],
   "note": ""
  },
  {
   "property": "C96",
   "status": "proved",
   "theorems": [
    "Verif.Props.C96_no_undefined_behaviour",
    "Verif.Props.C96_values",
    "Verif.Props.C96_always_a_value",
    "Verif.Props.C96_exclusive_ownership",
    "Verif.Props.C96_no_leak",
    "Verif.Props.C96_equal"
   ],
   "note": ""
  },
  {
   "property": "C97",
   "status": "partial",
   "theorems": [
    "Verif.Props.C97_no_undefined_behaviour_partial",
    "Verif.Props.C97_values_partial",
    "Verif.Props.C97_always_a_value_partial",
    "Verif.Props.C97_exclusive_ownership_partial",
    "Verif.Props.C97_no_leak_partial",
    "Verif.Props.C97_equal",
    "Verif.Props.C97_assignment_shares",
    "Verif.Props.C97_assignment_violated",
    "Verif.Props.C97_strong_guarantee_violated"
   ],
   "note": "False of the code for assignments between different objects that both hold a wrapper (C97_assignment_shares, C97_assignment_violated), and a throwing assignment may leave its target valueless (C97_strong_guarantee_violated). Everything else is proved for all programs without such assignments."
  },
  {
   "property": "C98",
   "status": "partial",
   "theorems": [
    "Verif.Props.C98_indirect_partial",
    "Verif.Props.C98_indirect_cxx14_partial",
    "Verif.Props.C98_value_indirect_cxx14_partial",
    "Verif.Props.C98_polymorphic_partial",
    "Verif.Props.C98_polymorphic_cxx14_partial",
    "Verif.Props.C98_body_indirect",
    "Verif.Props.C98_body_polymorphic_partial",
    "Verif.Props.C98_throwing_destructor_violated",
    "Verif.Props.C98_void_assignment_violated",
    "Verif.Props.C98_explicit_copy_violated",
    "Verif.Props.C98_volatile_violated",
    "Verif.Props.C98_list_violated",
    "Verif.Props.C98_conversion_violated",
    "Verif.Props.C98_private_base_violated",
    "Verif.Props.C98_const_type_violated",
    "Verif.Props.C98_allocator_violated"
   ],
   "note": "Code and paper differ for unusual types: each difference is proved with a witness (the _violated theorems). The _partial theorems are equivalences that say exactly what each header asks for in addition and for which arguments it coincides with the paper."
  },
  {
   "property": "C99",
   "status": "partial",
   "theorems": [
    "Verif.Props.C99_ordinary",
    "Verif.Props.C99_default_indirect_partial",
    "Verif.Props.C99_copy_indirect_partial",
    "Verif.Props.C99_move_indirect_partial",
    "Verif.Props.C99_indirect_cxx14_partial",
    "Verif.Props.C99_polymorphic_partial",
    "Verif.Props.C99_polymorphic_cxx14_partial",
    "Verif.Props.C99_block",
    "Verif.Props.C99_block_cxx14_partial",
    "Verif.Props.C99_in_place_cxx14",
    "Verif.Props.C99_in_place_partial",
    "Verif.Props.C99_move_violated",
    "Verif.Props.C99_move_only_violated",
    "Verif.Props.C99_in_place_violated",
    "Verif.Props.C99_block_violated",
    "Verif.Props.C99_not_assignable"
   ],
   "note": "Code and paper differ for types with deleted or unusual operations: each difference is proved with a witness (the _violated theorems). C99_ordinary settles all members of all headers for ordinary classes; the _partial theorems are equivalences that say exactly what each header asks for."
  },
  {
   "property": "C100",
   "status": "partial",
   "theorems": [
    "Verif.Props.C100_kept_careful_partial",
    "Verif.Props.C100_declared_indirect_partial",
    "Verif.Props.C100_declared_indirect_cxx14_partial",
    "Verif.Props.C100_declared_polymorphic_partial",
    "Verif.Props.C100_declared_polymorphic_cxx14",
    "Verif.Props.C100_declared_violated",
    "Verif.Props.C100_enforced_indirect",
    "Verif.Props.C100_enforced_indirect_cxx14",
    "Verif.Props.C100_enforced_polymorphic",
    "Verif.Props.C100_enforced_polymorphic_cxx14",
    "Verif.Props.C100_kept_indirect_partial",
    "Verif.Props.C100_kept_indirect_cxx14_partial",
    "Verif.Props.C100_kept_polymorphic_partial",
    "Verif.Props.C100_kept_polymorphic_cxx14_partial",
    "Verif.Props.C100_equal_indirect",
    "Verif.Props.C100_equal_indirect_cxx14",
    "Verif.Props.C100_not_more"
   ],
   "note": "Three headers do not declare the move constructor noexcept for allocators that are not always equal, and == is not declared noexcept (C100_declared_violated); the _partial equivalences say that nothing else differs. Both promises would be true (C100_kept_*, C100_equal_*). Move assignment between unequal propagating allocators is declared noexcept and ends the program (C16, C39). C100_kept_careful_partial is for polymorphic_cxx14.h with any allocator after such histories (see C41)."
  },
  {
   "property": "C101",
   "status": "proved",
   "theorems": [
    "Verif.Props.C101_raw_statement",
    "Verif.Props.C101_unique_statement",
    "Verif.Props.C101_raw_history",
    "Verif.Props.C101_unique_history",
    "Verif.Props.C101_indirect_iteration",
    "Verif.Props.C101_raw_iteration",
    "Verif.Props.C101_unique_iteration",
    "Verif.Props.C101_polymorphic_iteration",
    "Verif.Props.C101_polymorphic_statement",
    "Verif.Props.C101_polymorphic_unique_statement",
    "Verif.Props.C101_polymorphic_history",
    "Verif.Props.C101_indirect_accumulate",
    "Verif.Props.C101_polymorphic_accumulate",
    "Verif.Props.C101_raw_accumulate",
    "Verif.Props.C101_unique_accumulate",
    "Verif.Props.C101_indirect_iteration_ends",
    "Verif.Props.C101_polymorphic_iteration_ends",
    "Verif.Props.C101_raw_iteration_ends"
   ],
   "note": ""
  }
 ]
}