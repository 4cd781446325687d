import Verif.Props.CString
import Verif.Props.Framework1
import Verif.Props.Framework2
import Verif.Props.Framework3
import Verif.Props.Framework4
import Verif.Props.Mocked
import Verif.Props.Matcher
import Verif.Props.CmdLine
import Verif.Props.Types
import Verif.Props.Types2
import Verif.Props.StructCmp
import Verif.Props.Gen
import Verif.Props.Gen2
import Verif.Props.Gen3
import Verif.Props.Gen4
import Verif.Props.Gen5
import Verif.Props.MockCode
import Verif.Props.Reference
import Verif.Props.File
import Verif.Props.Emit
import Verif.Props.Parser
import Verif.Props.ParserTypes
import Verif.Props.Attr
import Verif.Props.CDecl
import Verif.Props.CFile
import Verif.Props.Source
import Verif.Props.Typed
import Verif.Props.TypedProgram
import Verif.Props.TypedCpp
import Verif.Props.Output
import Verif.Props.CmpType
import Verif.Props.TypedFile
import Verif.Props.TypedCppFile
import Verif.Props.Member
import Verif.Props.TypesText
import Verif.Props.LocalDecl
import Verif.Props.Backtrace
import Verif.Props.Defined
import Verif.Props.Disk
import Verif.Props.Flags
import Verif.Props.Macro
import Verif.Props.MacroText
import Verif.Props.ProgCmp
import Verif.Props.CallCmp
import Verif.Props.ReadCmp
import Verif.Props.Threads
import Verif.Props.Nested
import Verif.Props.TypedefCmp
import Verif.Props.Members
import Verif.Props.Format

/-!
The axioms every property theorem depends on, printed during the build.
-/

#print axioms EasyMock.C01_observations_follow_history
#print axioms EasyMock.C01_kth_call_uses_kth_expectation
#print axioms EasyMock.C01_interleaved_calls
#print axioms EasyMock.C02_unexpected_call
#print axioms EasyMock.C02_message
#print axioms EasyMock.C03_verdict_exact
#print axioms EasyMock.C03_check_reports
#print axioms EasyMock.C04_ordered_mode_exact
#print axioms EasyMock.C04_order_message
#print axioms EasyMock.C05_unordered_mode_exact
#print axioms EasyMock.C05_interleaving_irrelevant
#print axioms EasyMock.C06_init_forgets_history
#print axioms EasyMock.C06_init_is_fresh_start
#print axioms EasyMock.C07_options_persist
#print axioms EasyMock.C07_options_set
#print axioms EasyMock.C07_defaults_partial
#print axioms EasyMock.C07_order_option_effect
#print axioms EasyMock.C07_documented_default_refuted
#print axioms EasyMock.C08_call_independent
#print axioms EasyMock.C08_result_independent
#print axioms EasyMock.C08_count_independent
#print axioms EasyMock.C09_all_rejections_reported
#print axioms EasyMock.C09_no_rejection
#print axioms EasyMock.C10_only_configured_outputs_written
#print axioms EasyMock.C10_configured_outputs_written
#print axioms EasyMock.C10_defined_when_mapped
#print axioms EasyMock.C11_no_internal_error
#print axioms EasyMock.C11_termination_only_by_overflow
#print axioms EasyMock.C11_undefined_only_by_caller
#print axioms EasyMock.C11_counter_wrap
#print axioms EasyMock.C12_capacity_c
#print axioms EasyMock.C12_capacity_cpp
#print axioms EasyMock.C12_exactly_256
#print axioms EasyMock.C13_backends_equivalent
#print axioms EasyMock.C13_cpp_beyond_limit
#print axioms EasyMock.C13_framework_equivalent
#print axioms EasyMock.C14_init_frees_everything
#print axioms EasyMock.C14_unload_frees_file
#print axioms EasyMock.C14_every_copy_has_one_owner
#print axioms EasyMock.C14_no_invalid_release
#print axioms EasyMock.C15_log_append_only
#print axioms EasyMock.C15_log_changes
#print axioms EasyMock.C15_getters
#print axioms EasyMock.C15_text
#print axioms EasyMock.C16_failure_sticky
#print axioms EasyMock.C16_failed_check_sticky
#print axioms EasyMock.C16_check_repeatable
#print axioms EasyMock.C16_check_changes_no_result
#print axioms EasyMock.C16_premature_check_poisons
#print axioms EasyMock.C17_register_idempotent
#print axioms EasyMock.C17_unregister
#print axioms EasyMock.C17_unloaded_file_not_checked
#print axioms EasyMock.C17_other_files_unaffected
#print axioms EasyMock.C17_unload_no_influence_partial
#print axioms EasyMock.C17_unload_leaves_order_queue
#print axioms EasyMock.C18_numbers_right
#print axioms EasyMock.C18_numbers_printed
#print axioms EasyMock.C18_bound_needed
#print axioms EasyMock.C19_early_call_not_forgiven
#print axioms EasyMock.C20_queue_length
#print axioms EasyMock.C20_queue_content
#print axioms EasyMock.CString.C21_program_refines_spec
#print axioms EasyMock.CString.C21_appends_concatenate
#print axioms EasyMock.CString.C21_length_limit_is_real
#print axioms EasyMock.CString.C21_length_limit_reachable
#print axioms EasyMock.CString.C21_self_append
#print axioms EasyMock.CString.C22_storage_boundary
#print axioms EasyMock.CString.C22_reachable_storage
#print axioms EasyMock.CString.C22_append_stays_on_heap
#print axioms EasyMock.CString.C23_ownership
#print axioms EasyMock.CString.C23_free
#print axioms EasyMock.CString.C23_text_after_free
#print axioms EasyMock.CString.C23_allocation_failure
#print axioms EasyMock.CString.C23_malloc_failure_unchecked
#print axioms EasyMock.CString.C24_compare_spec
#print axioms EasyMock.CString.C24_compare_const_char
#print axioms EasyMock.CString.C24_compare_const_cstring
#print axioms EasyMock.Matcher.C25_scalar_exact
#print axioms EasyMock.Matcher.C25_value
#print axioms EasyMock.Matcher.C25_c_values
#print axioms EasyMock.Matcher.C25_float_exact
#print axioms EasyMock.Matcher.C25_int128_exact
#print axioms EasyMock.Matcher.C25_deref_exact
#print axioms EasyMock.Matcher.C25_deref_invalid
#print axioms EasyMock.Matcher.C25_cpp_exact
#print axioms EasyMock.Matcher.C25_in_mock
#print axioms EasyMock.Matcher.C26_message_determines
#print axioms EasyMock.Matcher.C26_char_determines_partial
#print axioms EasyMock.Matcher.C26_char_nul_refuted
#print axioms EasyMock.Matcher.C26_int128_refuted
#print axioms EasyMock.Matcher.C26_int128_partial
#print axioms EasyMock.Matcher.C26_int128_same_half_partial
#print axioms EasyMock.Matcher.C27_str_exact
#print axioms EasyMock.Matcher.C27_invalid_pointer
#print axioms EasyMock.StructCmp.C28_exact_partial
#print axioms EasyMock.StructCmp.C28_exact_plain_partial
#print axioms EasyMock.StructCmp.C28_refuted_typedef_pointer
#print axioms EasyMock.StructCmp.C28_refuted_name_clash
#print axioms EasyMock.StructCmp.C28_refuted_not_requested
#print axioms EasyMock.StructCmp.C29_first_difference_partial
#print axioms EasyMock.StructCmp.C29_format
#print axioms EasyMock.StructCmp.C29_refuted_int128
#print axioms EasyMock.StructCmp.C29_flat_program
#print axioms EasyMock.StructCmp.C29_flat_message
#print axioms EasyMock.StructCmp.C29_array_message
#print axioms EasyMock.StructCmp.C29_nested_owner
#print axioms EasyMock.StructCmp.C29_anonymous_owner
#print axioms EasyMock.StructCmp.C30_calls_resolved_partial
#print axioms EasyMock.StructCmp.C30_once
#print axioms EasyMock.StructCmp.C30_refuted_two_depths
#print axioms EasyMock.CmdLine.C31_accepted_complete
#print axioms EasyMock.CmdLine.C31_accepted_fields
#print axioms EasyMock.CmdLine.C31_complete_accepted
#print axioms EasyMock.CmdLine.C31_problem_named
#print axioms EasyMock.CmdLine.C32_round_trip
#print axioms EasyMock.CmdLine.C33_forwarded_partial
#print axioms EasyMock.CmdLine.C33_complete_forwarded
#print axioms EasyMock.CmdLine.C33_reach_parser
#print axioms EasyMock.CmdLine.C33_reach_generator
#print axioms EasyMock.CmdLine.C33_trailing_option_forwarded
#print axioms EasyMock.CmdLine.C34_order_irrelevant
#print axioms EasyMock.CmdLine.C34_repeat_irrelevant
#print axioms EasyMock.CmdLine.C35_twice_rejected
#print axioms EasyMock.CmdLine.C35_cwd_twice_rejected_partial
#print axioms EasyMock.CmdLine.C35_empty_cwd_twice_accepted
#print axioms EasyMock.CmdLine.C35_twice_exit
#print axioms EasyMock.CmdLine.C36_used_in_cwd_partial
#print axioms EasyMock.CmdLine.C36_checked_in_start_directory
#print axioms EasyMock.CmdLine.C36_refuted
#print axioms EasyMock.CmdLine.C37_exit_partial
#print axioms EasyMock.CmdLine.C37_written
#print axioms EasyMock.CmdLine.C37_refuted
#print axioms EasyMock.Types.C38_equal_iff_same_type
#print axioms EasyMock.Types.C38_reflexive
#print axioms EasyMock.Types.C38_symmetric
#print axioms EasyMock.Types.C38_transitive
#print axioms EasyMock.Types.C38_parameters
#print axioms EasyMock.Types.C38_functions
#print axioms EasyMock.Types.C38_functions_equivalence
#print axioms EasyMock.Types.C39_equal_hash_partial
#print axioms EasyMock.Types.C39_functions_equal_hash_partial
#print axioms EasyMock.Types.C39_refuted_converted_char
#print axioms EasyMock.Types.C39_refuted_forward_reference
#print axioms EasyMock.Types.C39_refuted_methods
#print axioms EasyMock.Types.C39_cache_exact
#print axioms EasyMock.Types.C39_uncached_exact
#print axioms EasyMock.Types.C39_stale_until_recached
#print axioms EasyMock.Types.C39_refuted_stale_method
#print axioms EasyMock.Types.C40_same_hash
#print axioms EasyMock.Types.C40_same_hash_equal
#print axioms EasyMock.Types.C40_free_hash_iff
#print axioms EasyMock.Types.C40_function_hash_iff
#print axioms EasyMock.Types.C40_raw_hash_partial
#print axioms EasyMock.Types.C40_refuted_namespaces
#print axioms EasyMock.Types.C40_refuted_methods
#print axioms EasyMock.Types.C40_refuted_nested_typedef
#print axioms EasyMock.Types.C41_unqualify_partial
#print axioms EasyMock.Types.C41_refuted_nested_qualifier
#print axioms EasyMock.Types.C41_raw_type
#print axioms EasyMock.Types.C41_most_pointed
#print axioms EasyMock.Types.C41_untypedef
#print axioms EasyMock.Types.C41_most_defined_typee
#print axioms EasyMock.Types.C41_dereferenced
#print axioms EasyMock.Types.C41_contains_typedef
#print axioms EasyMock.Types.C41_typedef_of
#print axioms EasyMock.Types.C42_success_iff
#print axioms EasyMock.Types.C42_result
#print axioms EasyMock.Types.C42_round_trip
#print axioms EasyMock.Types.C42_name
#print axioms EasyMock.Types.C42_text
#print axioms EasyMock.Types.C43_first_of_value
#print axioms EasyMock.Types.C43_preserved_partial
#print axioms EasyMock.Types.C43_refuted_duplicate
#print axioms EasyMock.Types.C43_refuted_value
#print axioms EasyMock.Types.C43_dummy
#print axioms EasyMock.Types.C43_text
#print axioms EasyMock.Gen.C44_only_allowed
#print axioms EasyMock.Gen.C44_allowed_covered
#print axioms EasyMock.Gen.C44_exact_partial
#print axioms EasyMock.Gen.C44_refuted_self_macro
#print axioms EasyMock.Gen.C45_sublist
#print axioms EasyMock.Gen.C45_once
#print axioms EasyMock.Gen.C45_none_lost_partial
#print axioms EasyMock.Gen.C45_refuted_namespaces
#print axioms EasyMock.Gen.C45_refuted_methods
#print axioms EasyMock.Gen.C45_refuted_twice
#print axioms EasyMock.Gen.C46_pointer_partial
#print axioms EasyMock.Gen.C46_no_pointer
#print axioms EasyMock.Gen.C46_levels
#print axioms EasyMock.Gen.C46_implicit
#print axioms EasyMock.Gen.C46_refuted_typedef_pointer
#print axioms EasyMock.Gen.C46_refuted_typedef_const
#print axioms EasyMock.Gen.C46_refuted_typedef_void
#print axioms EasyMock.Gen.C46_refuted_levels
#print axioms EasyMock.CDecl.C46_program_partial
#print axioms EasyMock.CDecl.C46_offered_partial
#print axioms EasyMock.CDecl.C46_refuted_program_const
#print axioms EasyMock.CDecl.C46_refuted_program_typedef
#print axioms EasyMock.CDecl.C46_refuted_program_levels
#print axioms EasyMock.Gen.C47_distinct_partial
#print axioms EasyMock.Gen.C47_names
#print axioms EasyMock.Gen.C47_nested_partial
#print axioms EasyMock.Gen.C47_numbers_partial
#print axioms EasyMock.Gen.C47_file_partial
#print axioms EasyMock.Gen.C47_refuted
#print axioms EasyMock.Gen.C48_header_name
#print axioms EasyMock.Gen.C48_include_partial
#print axioms EasyMock.Gen.C48_refuted_extension
#print axioms EasyMock.Gen.C48_guard
#print axioms EasyMock.Gen.C48_guard_injective_partial
#print axioms EasyMock.Gen.C48_refuted_guard
#print axioms EasyMock.Gen.C48_guard_identifier_partial
#print axioms EasyMock.Gen.C48_refuted_guard_identifier
#print axioms EasyMock.Gen.C49_mock
#print axioms EasyMock.Gen.C49_expect_partial
#print axioms EasyMock.Gen.C49_expect_output_partial
#print axioms EasyMock.Gen.C49_member_partial
#print axioms EasyMock.Gen.C49_refuted_member
#print axioms EasyMock.Gen.C49_refuted_member_no_parameter
#print axioms EasyMock.Gen.C50_known
#print axioms EasyMock.Gen.C50_once
#print axioms EasyMock.Gen.C50_definition_partial
#print axioms EasyMock.Gen.C50_refuted_redefinition
#print axioms EasyMock.Gen.C50_text_object
#print axioms EasyMock.Gen.C50_text_empty
#print axioms EasyMock.Gen.C50_text_function
#print axioms EasyMock.Gen.C50_refuted_no_parameters
#print axioms EasyMock.Parser.C51_partial
#print axioms EasyMock.Parser.C51_refuted_two
#print axioms EasyMock.Parser.C51_refuted_merge
#print axioms EasyMock.Parser.C51_refuted_carriage_return
#print axioms EasyMock.Parser.C51_refuted_nested
#print axioms EasyMock.Parser.C52_args
#print axioms EasyMock.Parser.C52_none
#print axioms EasyMock.Parser.C52_join
#print axioms EasyMock.Parser.C52_refuted_literal
#print axioms EasyMock.Parser.C53_partial
#print axioms EasyMock.Parser.C53_keys
#print axioms EasyMock.Parser.C53_apart_partial
#print axioms EasyMock.Parser.C53_refuted_key
#print axioms EasyMock.Parser.C53_refuted_namespaces
#print axioms EasyMock.Parser.C53_refuted_tag
#print axioms EasyMock.Parser.C53_refuted_anonymous
#print axioms EasyMock.Emit.C54_once
#print axioms EasyMock.Emit.C54_members
#print axioms EasyMock.Emit.C54_sound
#print axioms EasyMock.Emit.C54_valid_partial
#print axioms EasyMock.Emit.C54_refuted_typedef_of_typedef
#print axioms EasyMock.Emit.C54_refuted_callback
#print axioms EasyMock.Emit.C54_refuted_typedef_of_enum
#print axioms EasyMock.Emit.C54_refuted_const_bit_field
#print axioms EasyMock.Emit.C54_refuted_enclosing
#print axioms EasyMock.Emit.C54_refuted_guard
#print axioms EasyMock.Emit.C54_refuted_guard_typedef
#print axioms EasyMock.Emit.C54_refuted_reference
#print axioms EasyMock.Emit.C54_refuted_iteration
#print axioms EasyMock.Emit.C54_refuted_empty_enum
#print axioms EasyMock.C55_instance_checked
#print axioms EasyMock.C55_message
#print axioms EasyMock.Types.C56_predicates
#print axioms EasyMock.Types.C56_struct_or_union
#print axioms EasyMock.Types.C56_implicit
#print axioms EasyMock.Types.C56_anonymous
#print axioms EasyMock.Types.C56_refuted_pointer_anonymous
#print axioms EasyMock.Types.C57_round_trip_partial
#print axioms EasyMock.Types.C57_function
#print axioms EasyMock.Types.C57_declare_string
#print axioms EasyMock.Types.C57_refuted_function_pointer
#print axioms EasyMock.Types.C57_prototype_sensitive
#print axioms EasyMock.StructCmp.C58_only_requested
#print axioms EasyMock.StructCmp.C58_requested_generated
#print axioms EasyMock.StructCmp.C58_refuted_tag
#print axioms EasyMock.StructCmp.C58_refuted_class
#print axioms EasyMock.Gen.C59_parameter_partial
#print axioms EasyMock.Gen.C59_global_partial
#print axioms EasyMock.Gen.C59_globals
#print axioms EasyMock.Gen.C59_refuted_check
#print axioms EasyMock.Gen.C59_refuted_local
#print axioms EasyMock.Gen.C60_output_partial
#print axioms EasyMock.Gen.C60_no_output_partial
#print axioms EasyMock.Gen.C60_member_partial
#print axioms EasyMock.Gen.C61_distinct_partial
#print axioms EasyMock.Gen.C61_offered
#print axioms EasyMock.Gen.C61_refuted_names
#print axioms EasyMock.Gen.C61_refuted_overloads
#print axioms EasyMock.CFile.C61_source_partial
#print axioms EasyMock.CFile.C61_text_partial
#print axioms EasyMock.CFile.C61_needed
#print axioms EasyMock.CFile.C61_refuted_namespaces
#print axioms EasyMock.CFile.C61_refuted_classes
#print axioms EasyMock.CFile.C61_refuted_data
#print axioms EasyMock.CFile.C61_refuted_comparators
#print axioms EasyMock.Gen.C62_expect_names_partial
#print axioms EasyMock.Gen.C62_members_partial
#print axioms EasyMock.Gen.C62_refuted_size
#print axioms EasyMock.Gen.C62_refuted_class
#print axioms EasyMock.Gen.C62_refuted_names
#print axioms EasyMock.MockCode.C62_references
#print axioms EasyMock.MockCode.C62_refuted_default
#print axioms EasyMock.Gen.C63_attributes
#print axioms EasyMock.Gen.C63_signature
#print axioms EasyMock.CDecl.C63_read_partial
#print axioms EasyMock.Gen.C63_literal_partial
#print axioms EasyMock.Gen.C63_refuted_literal
#print axioms EasyMock.CDecl.C64_read_partial
#print axioms EasyMock.Gen.C64_pointer_partial
#print axioms EasyMock.Gen.C64_typedef
#print axioms EasyMock.Gen.C64_refuted_variadic
#print axioms EasyMock.Gen.C64_refuted_pointer_to_typedef
#print axioms EasyMock.Gen.C65_return_partial
#print axioms EasyMock.Gen.C65_refuted
#print axioms EasyMock.MockCode.C66_output_partial
#print axioms EasyMock.MockCode.C66_no_output_partial
#print axioms EasyMock.MockCode.C66_text
#print axioms EasyMock.MockCode.C66_references_partial
#print axioms EasyMock.MockCode.C66_refuted_size
#print axioms EasyMock.MockCode.C66_refuted_local
#print axioms EasyMock.MockCode.C66_refuted_member
#print axioms EasyMock.MockCode.C67_mock_partial
#print axioms EasyMock.MockCode.C67_kth_call_partial
#print axioms EasyMock.MockCode.C67_unexpected_partial
#print axioms EasyMock.MockCode.C67_limit
#print axioms EasyMock.MockCode.C67_refuted_name
#print axioms EasyMock.Gen.C68_header_partial
#print axioms EasyMock.Gen.C68_member_partial
#print axioms EasyMock.Gen.C68_defined
#print axioms EasyMock.Parser.C69_field_partial
#print axioms EasyMock.Parser.C69_type_partial
#print axioms EasyMock.Parser.C69_body
#print axioms EasyMock.Parser.C69_refuted_second
#print axioms EasyMock.Parser.C69_refuted_reference
#print axioms EasyMock.Parser.C70_partial
#print axioms EasyMock.Parser.C70_attribute_partial
#print axioms EasyMock.Parser.C70_refuted_macro_part
#print axioms EasyMock.Parser.C70_refuted_word_end
#print axioms EasyMock.Parser.C70_refuted_static
#print axioms EasyMock.Parser.C70_refuted_last
#print axioms EasyMock.Parser.C70_refuted_attributes
#print axioms EasyMock.Parser.C71_partial
#print axioms EasyMock.Parser.C71_refuted_bits
#print axioms EasyMock.Parser.C71_refuted_builtin
#print axioms EasyMock.Parser.C72_partial
#print axioms EasyMock.Parser.C72_refuted
#print axioms EasyMock.Parser.C73_partial
#print axioms EasyMock.Parser.C73_refuted_signed_char
#print axioms EasyMock.Parser.C73_refuted_bool
#print axioms EasyMock.Parser.C73_refuted_const
#print axioms EasyMock.Parser.C74_partial
#print axioms EasyMock.Parser.C74_refuted_global
#print axioms EasyMock.Parser.C74_refuted_nested
#print axioms EasyMock.Parser.C74_refuted_order
#print axioms EasyMock.Parser.C75_partial
#print axioms EasyMock.Parser.C75_refuted_format
#print axioms EasyMock.Parser.C75_refuted_section
#print axioms EasyMock.Parser.C75_refuted_sections
#print axioms EasyMock.Parser.C75_refuted_literal
#print axioms EasyMock.CDecl.C76_partial
#print axioms EasyMock.CDecl.C76_functions_partial
#print axioms EasyMock.CDecl.C76_refuted_volatile
#print axioms EasyMock.CDecl.C76_refuted_array
#print axioms EasyMock.CDecl.C76_refuted_variadic
#print axioms EasyMock.CDecl.C76_refuted_builtin
#print axioms EasyMock.CDecl.C76_refuted_pointer_to_typedef
#print axioms EasyMock.CDecl.C76_refuted_reference
#print axioms EasyMock.CDecl.C76_refuted_result
#print axioms EasyMock.CDecl.C76_refuted_nested
#print axioms EasyMock.CDecl.C76_refuted_volatile_member
#print axioms EasyMock.CDecl.C76_refuted_const_result
#print axioms EasyMock.MockCode.C77_partial
#print axioms EasyMock.MockCode.C77_verdict_partial
#print axioms EasyMock.MockCode.C77_refuted_same_name
#print axioms EasyMock.MockCode.C77_refuted_object
#print axioms EasyMock.CFile.C78_header_partial
#print axioms EasyMock.CFile.C78_again_partial
#print axioms EasyMock.CFile.C78_sequence_partial
#print axioms EasyMock.CFile.C78_all_partial
#print axioms EasyMock.CFile.C78_refuted_guard
#print axioms EasyMock.CFile.C78_refuted_dot
#print axioms EasyMock.CFile.C78_refuted_operator
#print axioms EasyMock.CFile.C79_source_partial
#print axioms EasyMock.CFile.C79_common
#print axioms EasyMock.CFile.C79_members
#print axioms EasyMock.CFile.C79_expect_partial
#print axioms EasyMock.CFile.C79_offered_partial
#print axioms EasyMock.CFile.C79_declared_partial
#print axioms EasyMock.CFile.C79_typed_partial
#print axioms EasyMock.CFile.C79_generated_partial
#print axioms EasyMock.CFile.C80_members_partial
#print axioms EasyMock.CFile.C80_result_partial
#print axioms EasyMock.CFile.C80_program_partial
#print axioms EasyMock.CFile.C80_cpp_partial
#print axioms EasyMock.CFile.C80_refuted_const
#print axioms EasyMock.CFile.C80_refuted_reference
#print axioms EasyMock.CFile.C80_refuted_anonymous
#print axioms EasyMock.CFile.C80_refuted_matcher
#print axioms EasyMock.CFile.C81_expect_partial
#print axioms EasyMock.CFile.C81_program_partial
#print axioms EasyMock.CFile.C81_cpp_partial
#print axioms EasyMock.CFile.C81_refuted_namespace
#print axioms EasyMock.CFile.C81_refuted_callback
#print axioms EasyMock.CDecl.C82_partial
#print axioms EasyMock.CDecl.C82_refuted_struct
#print axioms EasyMock.CDecl.C82_refuted_struct_mock
#print axioms EasyMock.CDecl.C82_refuted_typedef
#print axioms EasyMock.MockCode.C83_kth_call
#print axioms EasyMock.MockCode.C83_dead
#print axioms EasyMock.MockCode.C83_process
#print axioms EasyMock.MockCode.C83_check
#print axioms EasyMock.MockCode.C83_registered_partial
#print axioms EasyMock.MockCode.C83_passing_partial
#print axioms EasyMock.MockCode.C83_refuted_capture
#print axioms EasyMock.MockCode.C83_refuted_temporary
#print axioms EasyMock.MockCode.C83_refuted_typedef
#print axioms EasyMock.MockCode.C84_unexpected
#print axioms EasyMock.MockCode.C84_passing_partial
#print axioms EasyMock.MockCode.C84_zero_partial
#print axioms EasyMock.MockCode.C84_refuted_written
#print axioms EasyMock.CFile.C85_header_partial
#print axioms EasyMock.CFile.C85_source_partial
#print axioms EasyMock.CFile.C85_cpp_header_partial
#print axioms EasyMock.CFile.C85_cpp_source_partial
#print axioms EasyMock.StructCmp.C86_view_partial
#print axioms EasyMock.StructCmp.C86_hash_partial
#print axioms EasyMock.StructCmp.C86_refuted_hash
#print axioms EasyMock.Backtrace.C87_lines_partial
#print axioms EasyMock.Backtrace.C87_off
#print axioms EasyMock.Backtrace.C87_ends
#print axioms EasyMock.Backtrace.C87_unavailable
#print axioms EasyMock.Backtrace.C87_unsafe_iff
#print axioms EasyMock.Backtrace.C87_refuted_file
#print axioms EasyMock.Backtrace.C87_refuted_report
#print axioms EasyMock.Backtrace.C87_unexpected_partial
#print axioms EasyMock.CFile.TypeDecl.C88_types_partial
#print axioms EasyMock.CFile.TypeDecl.C88_header_partial
#print axioms EasyMock.CFile.TypeDecl.C88_program_partial
#print axioms EasyMock.CFile.TypeDecl.Ex.C88_refuted_const_callback
#print axioms EasyMock.CFile.TypeDecl.Ex.C88_refuted_function
#print axioms EasyMock.CFile.TypeDecl.Ex.C88_refuted_nameless_pointer
#print axioms EasyMock.CFile.TypeDecl.Ex.C88_refuted_nameless_twice
#print axioms EasyMock.CFile.TypeDecl.Ex.C88_refuted_callback_twice
#print axioms EasyMock.CFile.TypeDecl.Ex.C88_refuted_variadic
#print axioms EasyMock.CFile.TypeDecl.Ex.C88_refuted_callback_parameter
#print axioms EasyMock.CFile.TypeDecl.Ex.C88_refuted_callback_result
#print axioms EasyMock.CFile.TypeDecl.Ex.C88_refuted_same_name
#print axioms EasyMock.CFile.TypeDecl.Ex.C88_refuted_nameless_member
#print axioms EasyMock.Disk.C89_success_partial
#print axioms EasyMock.Disk.C89_touched
#print axioms EasyMock.Disk.C89_build_partial
#print axioms EasyMock.Disk.C89_paths
#print axioms EasyMock.Disk.C89_apart
#print axioms EasyMock.Disk.C89_agrees
#print axioms EasyMock.Disk.C89_refuted_same_stem
#print axioms EasyMock.Disk.C89_refuted_both_languages
#print axioms EasyMock.Disk.C89_refuted_close
#print axioms EasyMock.Disk.C89_refuted_both
#print axioms EasyMock.Parser.C90_directories_partial
#print axioms EasyMock.Parser.C90_prefix
#print axioms EasyMock.Parser.C90_run_partial
#print axioms EasyMock.Parser.C90_refuted_empty
#print axioms EasyMock.Parser.C90_refuted_incomplete
#print axioms EasyMock.CFile.TypeDecl.C91_local_partial
#print axioms EasyMock.CFile.TypeDecl.C91_source_partial
#print axioms EasyMock.CFile.TypeDecl.C91_valid
#print axioms EasyMock.CFile.TypeDecl.C91_only
#print axioms EasyMock.CFile.TypeDecl.LocalEx.C91_refuted_enum
#print axioms EasyMock.CFile.TypeDecl.LocalEx.C91_refuted_const
#print axioms EasyMock.CFile.TypeDecl.LocalEx.C91_refuted_parameter
#print axioms EasyMock.Macro.C92_partial
#print axioms EasyMock.Macro.C92_refuted_named
#print axioms EasyMock.Macro.C92_refuted_no_parameters
#print axioms EasyMock.Macro.C92_refuted_unknown
#print axioms EasyMock.Macro.C92_refuted_redefinition
#print axioms EasyMock.Macro.C92_refuted_spacing
#print axioms EasyMock.Macro.C93_partial
#print axioms EasyMock.Macro.C93_refuted_later
#print axioms EasyMock.Macro.C93_refuted_undef
#print axioms EasyMock.CFile.TypeDecl.C94_types_partial
#print axioms EasyMock.CFile.TypeDecl.C94_program_partial
#print axioms EasyMock.CFile.TypeDecl.MemberEx.C94_refuted_matrix
#print axioms EasyMock.CFile.TypeDecl.MemberEx.C94_refuted_array_typedef
#print axioms EasyMock.CFile.TypeDecl.MemberEx.C94_refuted_flexible
#print axioms EasyMock.CFile.TypeDecl.MemberEx.C94_refuted_bool
#print axioms EasyMock.CFile.TypeDecl.MemberEx.C94_refuted_second
#print axioms EasyMock.StructCmp.C95_exact_partial
#print axioms EasyMock.StructCmp.C95_plain_partial
#print axioms EasyMock.StructCmp.C95_typedef_partial
#print axioms EasyMock.StructCmp.C95_ignored
#print axioms EasyMock.StructCmp.C95_refuted_matrix
#print axioms EasyMock.StructCmp.C96_calls_partial
#print axioms EasyMock.StructCmp.C96_typedef_partial
#print axioms EasyMock.StructCmp.C97_partial
#print axioms EasyMock.StructCmp.C97_unique
#print axioms EasyMock.StructCmp.C97_distinct
#print axioms EasyMock.StructCmp.C97_seen
#print axioms EasyMock.StructCmp.C97_source
#print axioms EasyMock.StructCmp.C97_refuted_wide
#print axioms EasyMock.StructCmp.C97_refuted_enum
#print axioms EasyMock.StructCmp.C97_refuted_index
#print axioms EasyMock.StructCmp.C97_refuted_reference
#print axioms EasyMock.StructCmp.C97_refuted_seen
#print axioms EasyMock.StructCmp.C98_readable
#print axioms EasyMock.StructCmp.C98_reads_partial
#print axioms EasyMock.StructCmp.C98_pointers_partial
#print axioms EasyMock.StructCmp.C98_refuted_unreadable
#print axioms EasyMock.StructCmp.C98_refuted_null
#print axioms EasyMock.Threads.C99_locked_partial
#print axioms EasyMock.Threads.C99_finishes
#print axioms EasyMock.Threads.C99_refuted_two
#print axioms EasyMock.Threads.C99_refuted_count
#print axioms EasyMock.Nested.C100_served_partial
#print axioms EasyMock.Nested.C100_agrees
#print axioms EasyMock.Nested.C100_ordinal
#print axioms EasyMock.Nested.C100_order
#print axioms EasyMock.Nested.C100_no_internal_error
#print axioms EasyMock.Nested.Ex.C100_refuted_ordinal
#print axioms EasyMock.Nested.Ex.C100_refuted_order
