{"claims": [
{"property": "C01", "status": "proved", "theorems": ["EasyMock.C01_observations_follow_history", "EasyMock.C01_kth_call_uses_kth_expectation", "EasyMock.C01_interleaved_calls"], "note": "For every history shorter than 2^32 operations."},
{"property": "C02", "status": "proved", "theorems": ["EasyMock.C02_unexpected_call", "EasyMock.C02_message"], "note": ""},
{"property": "C03", "status": "proved", "theorems": ["EasyMock.C03_verdict_exact", "EasyMock.C03_check_reports"], "note": ""},
{"property": "C04", "status": "proved", "theorems": ["EasyMock.C04_ordered_mode_exact", "EasyMock.C04_order_message"], "note": ""},
{"property": "C05", "status": "proved", "theorems": ["EasyMock.C05_unordered_mode_exact", "EasyMock.C05_interleaving_irrelevant"], "note": ""},
{"property": "C06", "status": "proved", "theorems": ["EasyMock.C06_init_forgets_history", "EasyMock.C06_init_is_fresh_start"], "note": ""},
{"property": "C07", "status": "partial", "theorems": ["EasyMock.C07_options_persist", "EasyMock.C07_options_set", "EasyMock.C07_defaults_partial", "EasyMock.C07_order_option_effect", "EasyMock.C07_documented_default_refuted"], "note": "Persistence proved; the documented default of the order option is wrong (refuted)."},
{"property": "C08", "status": "proved", "theorems": ["EasyMock.C08_call_independent", "EasyMock.C08_result_independent", "EasyMock.C08_count_independent"], "note": ""},
{"property": "C09", "status": "proved", "theorems": ["EasyMock.C09_all_rejections_reported", "EasyMock.C09_no_rejection"], "note": ""},
{"property": "C10", "status": "proved", "theorems": ["EasyMock.C10_only_configured_outputs_written", "EasyMock.C10_configured_outputs_written", "EasyMock.C10_defined_when_mapped"], "note": ""},
{"property": "C11", "status": "proved", "theorems": ["EasyMock.C11_no_internal_error", "EasyMock.C11_termination_only_by_overflow", "EasyMock.C11_undefined_only_by_caller", "EasyMock.C11_counter_wrap"], "note": "Holds below 2^32 operations; C11_counter_wrap shows that the bound is needed."},
{"property": "C12", "status": "proved", "theorems": ["EasyMock.C12_capacity_c", "EasyMock.C12_capacity_cpp", "EasyMock.C12_exactly_256"], "note": ""},
{"property": "C13", "status": "proved", "theorems": ["EasyMock.C13_backends_equivalent", "EasyMock.C13_cpp_beyond_limit", "EasyMock.C13_framework_equivalent"], "note": ""},
{"property": "C14", "status": "proved", "theorems": ["EasyMock.C14_init_frees_everything", "EasyMock.C14_unload_frees_file", "EasyMock.C14_every_copy_has_one_owner", "EasyMock.C14_no_invalid_release", "EasyMock.C11_undefined_only_by_caller"], "note": ""},
{"property": "C15", "status": "proved", "theorems": ["EasyMock.C15_log_append_only", "EasyMock.C15_log_changes", "EasyMock.C15_getters", "EasyMock.C15_text"], "note": ""},
{"property": "C16", "status": "proved", "theorems": ["EasyMock.C16_failure_sticky", "EasyMock.C16_failed_check_sticky", "EasyMock.C16_check_repeatable", "EasyMock.C16_check_changes_no_result", "EasyMock.C16_premature_check_poisons"], "note": ""},
{"property": "C17", "status": "partial", "theorems": ["EasyMock.C17_register_idempotent", "EasyMock.C17_unregister", "EasyMock.C17_unloaded_file_not_checked", "EasyMock.C17_other_files_unaffected", "EasyMock.C17_unload_no_influence_partial", "EasyMock.C17_unload_leaves_order_queue"], "note": "An unloaded file leaves its entries in the order queue and so can influence later order errors (C17_unload_leaves_order_queue)."},
{"property": "C18", "status": "proved", "theorems": ["EasyMock.C18_numbers_right", "EasyMock.C18_numbers_printed", "EasyMock.C18_bound_needed"], "note": ""},
{"property": "C19", "status": "proved", "theorems": ["EasyMock.C19_early_call_not_forgiven"], "note": ""},
{"property": "C20", "status": "proved", "theorems": ["EasyMock.C20_queue_length", "EasyMock.C20_queue_content"], "note": ""},
{"property": "C21", "status": "proved", "theorems": ["EasyMock.CString.C21_program_refines_spec", "EasyMock.CString.C21_appends_concatenate", "EasyMock.CString.C21_length_limit_is_real", "EasyMock.CString.C21_length_limit_reachable", "EasyMock.CString.C21_self_append"], "note": ""},
{"property": "C22", "status": "proved", "theorems": ["EasyMock.CString.C22_storage_boundary", "EasyMock.CString.C22_reachable_storage", "EasyMock.CString.C22_append_stays_on_heap"], "note": ""},
{"property": "C23", "status": "partial", "theorems": ["EasyMock.CString.C23_ownership", "EasyMock.CString.C23_free", "EasyMock.CString.C23_text_after_free", "EasyMock.CString.C23_allocation_failure", "EasyMock.CString.C23_malloc_failure_unchecked"], "note": "malloc failure is not checked by the code (C23_malloc_failure_unchecked)."},
{"property": "C24", "status": "proved", "theorems": ["EasyMock.CString.C24_compare_spec", "EasyMock.CString.C24_compare_const_char", "EasyMock.CString.C24_compare_const_cstring"], "note": ""},
{"property": "C25", "status": "proved", "theorems": ["EasyMock.Matcher.C25_scalar_exact", "EasyMock.Matcher.C25_value", "EasyMock.Matcher.C25_c_values", "EasyMock.Matcher.C25_float_exact", "EasyMock.Matcher.C25_int128_exact", "EasyMock.Matcher.C25_deref_exact", "EasyMock.Matcher.C25_deref_invalid", "EasyMock.Matcher.C25_cpp_exact", "EasyMock.Matcher.C25_in_mock"], "note": ""},
{"property": "C26", "status": "partial", "theorems": ["EasyMock.Matcher.C26_message_determines", "EasyMock.Matcher.C26_char_determines_partial", "EasyMock.Matcher.C26_char_nul_refuted", "EasyMock.Matcher.C26_int128_refuted", "EasyMock.Matcher.C26_int128_partial", "EasyMock.Matcher.C26_int128_same_half_partial"], "note": "Proved for all integer types up to 64 bits and pointers; false for the NUL character and for 128-bit values (refuted with witnesses)."},
{"property": "C27", "status": "proved", "theorems": ["EasyMock.Matcher.C27_str_exact", "EasyMock.Matcher.C27_invalid_pointer"], "note": ""},
{"property": "C28", "status": "partial", "theorems": ["EasyMock.StructCmp.C28_exact_partial", "EasyMock.StructCmp.C28_exact_plain_partial", "EasyMock.StructCmp.C28_refuted_typedef_pointer", "EasyMock.StructCmp.C28_refuted_name_clash", "EasyMock.StructCmp.C28_refuted_not_requested"], "note": "Exact for all values of all regular types (nested types, arrays, unions, anonymous members, bit-fields, typedefs) when names are unambiguous; false for typedefs hiding a pointer to a struct and for clashing names (witnesses proved). Inner dimensions of multi-dimensional arrays are not represented in the types (C95_refuted_matrix shows what that leads to)."},
{"property": "C29", "status": "partial", "theorems": ["EasyMock.StructCmp.C29_first_difference_partial", "EasyMock.StructCmp.C29_format", "EasyMock.StructCmp.C29_refuted_int128", "EasyMock.StructCmp.C29_flat_program", "EasyMock.StructCmp.C29_flat_message", "EasyMock.StructCmp.C29_array_message", "EasyMock.StructCmp.C29_nested_owner", "EasyMock.StructCmp.C29_anonymous_owner"], "note": "First real difference under the hypotheses of C28; texts exact; 128-bit members are printed with a wrong format (proved)."},
{"property": "C30", "status": "partial", "theorems": ["EasyMock.StructCmp.C30_calls_resolved_partial", "EasyMock.StructCmp.C30_once", "EasyMock.StructCmp.C30_refuted_two_depths"], "note": "Holds for regular types; false for a type declared inside others and used at two depths (witness proved)."},
{"property": "C31", "status": "proved", "theorems": ["EasyMock.CmdLine.C31_accepted_complete", "EasyMock.CmdLine.C31_accepted_fields", "EasyMock.CmdLine.C31_complete_accepted", "EasyMock.CmdLine.C31_problem_named"], "note": ""},
{"property": "C32", "status": "proved", "theorems": ["EasyMock.CmdLine.C32_round_trip"], "note": ""},
{"property": "C33", "status": "partial", "theorems": ["EasyMock.CmdLine.C33_forwarded_partial", "EasyMock.CmdLine.C33_complete_forwarded", "EasyMock.CmdLine.C33_reach_parser", "EasyMock.CmdLine.C33_reach_generator", "EasyMock.CmdLine.C33_trailing_option_forwarded"], "note": "Exact for every accepted vector up to one exception in the code: a -i or -o at the very end is forwarded too (witness proved)."},
{"property": "C34", "status": "proved", "theorems": ["EasyMock.CmdLine.C34_order_irrelevant", "EasyMock.CmdLine.C34_repeat_irrelevant"], "note": ""},
{"property": "C35", "status": "partial", "theorems": ["EasyMock.CmdLine.C35_twice_rejected", "EasyMock.CmdLine.C35_cwd_twice_rejected_partial", "EasyMock.CmdLine.C35_empty_cwd_twice_accepted", "EasyMock.CmdLine.C35_twice_exit"], "note": "Proved for -i, -o and for --cwd with a non-empty first value; false for --cwd \"\" (witness proved)."},
{"property": "C36", "status": "partial", "theorems": ["EasyMock.CmdLine.C36_used_in_cwd_partial", "EasyMock.CmdLine.C36_checked_in_start_directory", "EasyMock.CmdLine.C36_refuted"], "note": "The tool runs in the --cwd directory, but the paths are first checked relative to the start directory, so the property is false (witness proved)."},
{"property": "C37", "status": "partial", "theorems": ["EasyMock.CmdLine.C37_exit_partial", "EasyMock.CmdLine.C37_written", "EasyMock.CmdLine.C37_refuted"], "note": "Exit status characterised exactly; write failures are ignored by the code (witness proved)."},
{"property": "C38", "status": "proved", "theorems": ["EasyMock.Types.C38_equal_iff_same_type", "EasyMock.Types.C38_reflexive", "EasyMock.Types.C38_symmetric", "EasyMock.Types.C38_transitive", "EasyMock.Types.C38_parameters", "EasyMock.Types.C38_functions", "EasyMock.Types.C38_functions_equivalence"], "note": ""},
{"property": "C39", "status": "partial", "theorems": ["EasyMock.Types.C39_equal_hash_partial", "EasyMock.Types.C39_functions_equal_hash_partial", "EasyMock.Types.C39_refuted_converted_char", "EasyMock.Types.C39_refuted_forward_reference", "EasyMock.Types.C39_refuted_methods", "EasyMock.Types.C39_cache_exact", "EasyMock.Types.C39_uncached_exact", "EasyMock.Types.C39_stale_until_recached", "EasyMock.Types.C39_refuted_stale_method"], "note": "Proved for every hash arithmetic on types without converted chars, class-kind forward references and methods; false there (witnesses proved)."},
{"property": "C40", "status": "partial", "theorems": ["EasyMock.Types.C40_same_hash", "EasyMock.Types.C40_same_hash_equal", "EasyMock.Types.C40_free_hash_iff", "EasyMock.Types.C40_function_hash_iff", "EasyMock.Types.C40_raw_hash_partial", "EasyMock.Types.C40_refuted_namespaces", "EasyMock.Types.C40_refuted_methods", "EasyMock.Types.C40_refuted_nested_typedef"], "note": "Full hash: injective up to collisions of the arithmetic. Raw hash (used to drop duplicates): characterised exactly; it identifies functions of different namespaces/classes, so the property is false (witnesses proved)."},
{"property": "C41", "status": "partial", "theorems": ["EasyMock.Types.C41_unqualify_partial", "EasyMock.Types.C41_refuted_nested_qualifier", "EasyMock.Types.C41_raw_type", "EasyMock.Types.C41_most_pointed", "EasyMock.Types.C41_untypedef", "EasyMock.Types.C41_most_defined_typee", "EasyMock.Types.C41_dereferenced", "EasyMock.Types.C41_contains_typedef", "EasyMock.Types.C41_typedef_of"], "note": "All normalisations terminate and are characterised except unqualify on a qualifier nested directly in a qualifier, where it loops forever (proved)."},
{"property": "C42", "status": "proved", "theorems": ["EasyMock.Types.C42_success_iff", "EasyMock.Types.C42_result", "EasyMock.Types.C42_round_trip", "EasyMock.Types.C42_name", "EasyMock.Types.C42_text"], "note": ""},
{"property": "C43", "status": "partial", "theorems": ["EasyMock.Types.C43_first_of_value", "EasyMock.Types.C43_preserved_partial", "EasyMock.Types.C43_refuted_duplicate", "EasyMock.Types.C43_refuted_value", "EasyMock.Types.C43_dummy", "EasyMock.Types.C43_text"], "note": "Exact for distinct values that fit in unsigned int; duplicates, negative and wide values are lost or changed by the code (witnesses proved)."},
{"property": "C44", "status": "partial", "theorems": ["EasyMock.Gen.C44_only_allowed", "EasyMock.Gen.C44_allowed_covered", "EasyMock.Gen.C44_exact_partial", "EasyMock.Gen.C44_refuted_self_macro"], "note": "Exact for all options; a function that has a macro of its own name is silently skipped (witness proved)."},
{"property": "C45", "status": "partial", "theorems": ["EasyMock.Gen.C45_sublist", "EasyMock.Gen.C45_once", "EasyMock.Gen.C45_none_lost_partial", "EasyMock.Gen.C45_refuted_namespaces", "EasyMock.Gen.C45_refuted_methods", "EasyMock.Gen.C45_refuted_twice"], "note": "At most once per raw hash and none lost up to raw-hash equality; the raw hash ignores namespace and class, so functions are lost (witnesses proved)."},
{"property": "C46", "status": "partial", "theorems": ["EasyMock.Gen.C46_pointer_partial", "EasyMock.Gen.C46_no_pointer", "EasyMock.Gen.C46_levels", "EasyMock.Gen.C46_implicit", "EasyMock.Gen.C46_refuted_typedef_pointer", "EasyMock.Gen.C46_refuted_typedef_const", "EasyMock.Gen.C46_refuted_typedef_void", "EasyMock.Gen.C46_refuted_levels", "EasyMock.CDecl.C46_program_partial", "EasyMock.CDecl.C46_offered_partial", "EasyMock.CDecl.C46_refuted_program_const", "EasyMock.CDecl.C46_refuted_program_typedef", "EasyMock.CDecl.C46_refuted_program_levels"], "note": "Exact for pointers to plain types, for the type objects and from the types of a program; C46_offered_partial says what is offered for every other type of a program. Typedefs hiding pointer, const or void and pointers to pointers deviate (witnesses proved)."},
{"property": "C47", "status": "partial", "theorems": ["EasyMock.Gen.C47_distinct_partial", "EasyMock.Gen.C47_names", "EasyMock.Gen.C47_nested_partial", "EasyMock.Gen.C47_numbers_partial", "EasyMock.Gen.C47_file_partial", "EasyMock.Gen.C47_refuted"], "note": "Distinct, and numbered consecutively through the whole file, unless a source name looks like a generated one (witness proved)."},
{"property": "C48", "status": "partial", "theorems": ["EasyMock.Gen.C48_header_name", "EasyMock.Gen.C48_include_partial", "EasyMock.Gen.C48_refuted_extension", "EasyMock.Gen.C48_guard", "EasyMock.Gen.C48_guard_injective_partial", "EasyMock.Gen.C48_refuted_guard", "EasyMock.Gen.C48_guard_identifier_partial", "EasyMock.Gen.C48_refuted_guard_identifier"], "note": "Proved for headers called <name>.h; other extensions include a file that is not generated, and names differing only in case share a guard (witnesses proved)."},
{"property": "C49", "status": "partial", "theorems": ["EasyMock.Gen.C49_mock", "EasyMock.Gen.C49_expect_partial", "EasyMock.Gen.C49_expect_output_partial", "EasyMock.Gen.C49_member_partial", "EasyMock.Gen.C49_refuted_member", "EasyMock.Gen.C49_refuted_member_no_parameter"], "note": "Well-formed in C and for free functions; member functions without parameters get an empty entry (witnesses proved)."},
{"property": "C50", "status": "partial", "theorems": ["EasyMock.Gen.C50_known", "EasyMock.Gen.C50_once", "EasyMock.Gen.C50_definition_partial", "EasyMock.Gen.C50_refuted_redefinition", "EasyMock.Gen.C50_text_object", "EasyMock.Gen.C50_text_empty", "EasyMock.Gen.C50_text_function", "EasyMock.Gen.C50_refuted_no_parameters"], "note": "The set of known macros is exact; after a redefinition without #undef the first definition is kept, and a macro with an empty parameter list is written without it (witnesses proved)."},
{"property": "C51", "status": "partial", "theorems": ["EasyMock.Parser.C51_partial", "EasyMock.Parser.C51_refuted_two", "EasyMock.Parser.C51_refuted_merge", "EasyMock.Parser.C51_refuted_carriage_return", "EasyMock.Parser.C51_refuted_nested"], "note": "Any number of line comments and at most one block comment. False for two block comments, carriage returns, comments in comments; words around a comment are merged (witnesses proved)."},
{"property": "C52", "status": "proved", "theorems": ["EasyMock.Parser.C52_args", "EasyMock.Parser.C52_none", "EasyMock.Parser.C52_join", "EasyMock.Parser.C52_refuted_literal"], "note": "For every attribute text; as C52_refuted_literal shows, the arguments are the texts between commas, also between commas of a string literal."},
{"property": "C53", "status": "partial", "theorems": ["EasyMock.Parser.C53_partial", "EasyMock.Parser.C53_keys", "EasyMock.Parser.C53_apart_partial", "EasyMock.Parser.C53_refuted_key", "EasyMock.Parser.C53_refuted_namespaces", "EasyMock.Parser.C53_refuted_tag", "EasyMock.Parser.C53_refuted_anonymous"], "note": "For every program in which a name or cache entry belongs to one record and no typedef'd record without tag leads back to itself. False without either (witnesses proved)."},
{"property": "C54", "status": "partial", "theorems": ["EasyMock.Emit.C54_once", "EasyMock.Emit.C54_members", "EasyMock.Emit.C54_sound", "EasyMock.Emit.C54_valid_partial", "EasyMock.Emit.C54_refuted_typedef_of_typedef", "EasyMock.Emit.C54_refuted_callback", "EasyMock.Emit.C54_refuted_typedef_of_enum", "EasyMock.Emit.C54_refuted_const_bit_field", "EasyMock.Emit.C54_refuted_enclosing", "EasyMock.Emit.C54_refuted_guard", "EasyMock.Emit.C54_refuted_guard_typedef", "EasyMock.Emit.C54_refuted_reference", "EasyMock.Emit.C54_refuted_iteration", "EasyMock.Emit.C54_refuted_empty_enum"], "note": "Once, faithful and only for used types: every program. Accepted by a checker of C declarations: programs of Clean. False for typedefs of typedefs or enumerations, callback typedefs with typedef parameters, shared guards, references and others (witnesses proved)."},
{"property": "C55", "status": "proved", "theorems": ["EasyMock.C55_instance_checked", "EasyMock.C55_message"], "note": ""},
{"property": "C56", "status": "partial", "theorems": ["EasyMock.Types.C56_predicates", "EasyMock.Types.C56_struct_or_union", "EasyMock.Types.C56_implicit", "EasyMock.Types.C56_anonymous", "EasyMock.Types.C56_refuted_pointer_anonymous"], "note": "isAnonymous is exact on composite types and enums; a pointer to a named struct wrongly claims to be anonymous (proved)."},
{"property": "C57", "status": "partial", "theorems": ["EasyMock.Types.C57_round_trip_partial", "EasyMock.Types.C57_function", "EasyMock.Types.C57_declare_string", "EasyMock.Types.C57_refuted_function_pointer", "EasyMock.Types.C57_prototype_sensitive"], "note": "Pointers to functions get an incomplete text (proved); everything else reads back exactly."},
{"property": "C58", "status": "partial", "theorems": ["EasyMock.StructCmp.C58_only_requested", "EasyMock.StructCmp.C58_requested_generated", "EasyMock.StructCmp.C58_refuted_tag", "EasyMock.StructCmp.C58_refuted_class"], "note": "Both directions proved for tags not starting with union_; for such tags and for classes requested by their bare name the request is not honoured (witnesses proved)."},
{"property": "C59", "status": "partial", "theorems": ["EasyMock.Gen.C59_parameter_partial", "EasyMock.Gen.C59_global_partial", "EasyMock.Gen.C59_globals", "EasyMock.Gen.C59_refuted_check", "EasyMock.Gen.C59_refuted_local"], "note": "Holds unless a parameter has the name of a local variable of the mock (witnesses proved)."},
{"property": "C60", "status": "partial", "theorems": ["EasyMock.Gen.C60_output_partial", "EasyMock.Gen.C60_no_output_partial", "EasyMock.Gen.C60_member_partial"], "note": "Free functions, and the member functions whose lists are well-formed (C49): one parameter, or neither parameters nor result."},
{"property": "C61", "status": "partial", "theorems": ["EasyMock.Gen.C61_distinct_partial", "EasyMock.Gen.C61_offered", "EasyMock.Gen.C61_refuted_names", "EasyMock.Gen.C61_refuted_overloads", "EasyMock.CFile.C61_source_partial", "EasyMock.CFile.C61_text_partial", "EasyMock.CFile.C61_needed", "EasyMock.CFile.C61_refuted_namespaces", "EasyMock.CFile.C61_refuted_classes", "EasyMock.CFile.C61_refuted_data", "EasyMock.CFile.C61_refuted_comparators"], "note": "Read from the text of the generated source, in C and in C++: exactly which names it defines, and that none is defined twice when the names of the functions are distinct and do not look generated (functions without attributes whose results are no pointers to functions). False for names that look generated, overloads, equal names in different namespaces or classes, a::b_c with a_b::c, and comparators x with deref_ptr_x (witnesses proved)."},
{"property": "C62", "status": "partial", "theorems": ["EasyMock.Gen.C62_expect_names_partial", "EasyMock.Gen.C62_members_partial", "EasyMock.Gen.C62_refuted_size", "EasyMock.Gen.C62_refuted_class", "EasyMock.Gen.C62_refuted_names", "EasyMock.MockCode.C62_references", "EasyMock.MockCode.C62_refuted_default"], "note": "Free and member functions, with and without references. False for f(T &a, U default_a), for f(void *a, int *a_size), for a class called out or a parameter called instance and for parameters called to_return or out_x (witnesses proved)."},
{"property": "C63", "status": "partial", "theorems": ["EasyMock.Gen.C63_attributes", "EasyMock.Gen.C63_signature", "EasyMock.CDecl.C63_read_partial", "EasyMock.Gen.C63_literal_partial", "EasyMock.Gen.C63_refuted_literal"], "note": "Attributes and signature exact; an attribute with a string argument breaks the C literal (witness proved)."},
{"property": "C64", "status": "partial", "theorems": ["EasyMock.CDecl.C64_read_partial", "EasyMock.Gen.C64_pointer_partial", "EasyMock.Gen.C64_typedef", "EasyMock.Gen.C64_refuted_variadic", "EasyMock.Gen.C64_refuted_pointer_to_typedef"], "note": "Read back by an independent reader of C declarations for every nesting. False for variadic pointed functions and for pointers to a typedef of a function pointer (witnesses proved)."},
{"property": "C65", "status": "partial", "theorems": ["EasyMock.Gen.C65_return_partial", "EasyMock.Gen.C65_refuted"], "note": "False for a typedef of void (witness proved)."},
{"property": "C66", "status": "partial", "theorems": ["EasyMock.MockCode.C66_output_partial", "EasyMock.MockCode.C66_no_output_partial", "EasyMock.MockCode.C66_text", "EasyMock.MockCode.C66_references_partial", "EasyMock.MockCode.C66_refuted_size", "EasyMock.MockCode.C66_refuted_local", "EasyMock.MockCode.C66_refuted_member"], "note": "Interpreter of the generated Expect bodies; holds for plain parameter names and, among member functions, for those with one parameter or with neither parameters nor result (the witnesses show why), with and without references."},
{"property": "C67", "status": "partial", "theorems": ["EasyMock.MockCode.C67_mock_partial", "EasyMock.MockCode.C67_kth_call_partial", "EasyMock.MockCode.C67_unexpected_partial", "EasyMock.MockCode.C67_limit", "EasyMock.MockCode.C67_refuted_name"], "note": "Interpreter of the generated mock body, proved equal to the framework model in every reachable state for plain parameter names, for free and member functions. Reference parameters and results: C83, C84."},
{"property": "C68", "status": "partial", "theorems": ["EasyMock.Gen.C68_header_partial", "EasyMock.Gen.C68_member_partial", "EasyMock.Gen.C68_defined"], "note": "Free functions, and the member functions whose lists are well-formed (C49)."},
{"property": "C69", "status": "partial", "theorems": ["EasyMock.Parser.C69_field_partial", "EasyMock.Parser.C69_type_partial", "EasyMock.Parser.C69_body", "EasyMock.Parser.C69_refuted_second", "EasyMock.Parser.C69_refuted_reference"], "note": "Types without comment whose text ends where the name starts. False for the second declarator of a declaration with a pointer and for references (witnesses proved)."},
{"property": "C70", "status": "partial", "theorems": ["EasyMock.Parser.C70_partial", "EasyMock.Parser.C70_attribute_partial", "EasyMock.Parser.C70_refuted_macro_part", "EasyMock.Parser.C70_refuted_word_end", "EasyMock.Parser.C70_refuted_static", "EasyMock.Parser.C70_refuted_last", "EasyMock.Parser.C70_refuted_attributes"], "note": "Return types of identifiers and stars separated by one blank each, with macros or one attribute written in place. False if a word contains the name of an empty macro or ends like a storage class, and if two attributes are written (witnesses proved)."},
{"property": "C71", "status": "partial", "theorems": ["EasyMock.Parser.C71_partial", "EasyMock.Parser.C71_refuted_bits", "EasyMock.Parser.C71_refuted_builtin"], "note": "For every finite program with the builtin types the parser knows. It stops at other builtin types and at bit-fields of a typedef'd enumeration (witnesses proved)."},
{"property": "C72", "status": "partial", "theorems": ["EasyMock.Parser.C72_partial", "EasyMock.Parser.C72_refuted"], "note": "For every program of C53_partial in which no named record is a member of a record it refers to. False otherwise (witness proved)."},
{"property": "C73", "status": "partial", "theorems": ["EasyMock.Parser.C73_partial", "EasyMock.Parser.C73_refuted_signed_char", "EasyMock.Parser.C73_refuted_bool", "EasyMock.Parser.C73_refuted_const"], "note": "All builtin types but signed char, _Bool, and const unsigned char where plain char is unsigned, for which it is false (witnesses proved)."},
{"property": "C74", "status": "partial", "theorems": ["EasyMock.Parser.C74_partial", "EasyMock.Parser.C74_refuted_global", "EasyMock.Parser.C74_refuted_nested", "EasyMock.Parser.C74_refuted_order"], "note": "For functions all of whose scopes declare no other namespace. False otherwise (witnesses proved)."},
{"property": "C75", "status": "partial", "theorems": ["EasyMock.Parser.C75_partial", "EasyMock.Parser.C75_refuted_format", "EasyMock.Parser.C75_refuted_section", "EasyMock.Parser.C75_refuted_sections", "EasyMock.Parser.C75_refuted_literal"], "note": "From the attributes clang knows to the text of the mock, up to blanks. False for a second format attribute and for section attributes; string arguments break the string literal of the registration (witnesses proved)."},
{"property": "C76", "status": "partial", "theorems": ["EasyMock.CDecl.C76_partial", "EasyMock.CDecl.C76_functions_partial", "EasyMock.CDecl.C76_refuted_volatile", "EasyMock.CDecl.C76_refuted_array", "EasyMock.CDecl.C76_refuted_variadic", "EasyMock.CDecl.C76_refuted_builtin", "EasyMock.CDecl.C76_refuted_pointer_to_typedef", "EasyMock.CDecl.C76_refuted_reference", "EasyMock.CDecl.C76_refuted_result", "EasyMock.CDecl.C76_refuted_nested", "EasyMock.CDecl.C76_refuted_volatile_member", "EasyMock.CDecl.C76_refuted_const_result"], "note": "From clang's declarations through parser and generator to the text, which an independent reader of C declarations reads back. Functions and member functions whose types are plain or written by macros, and whose result is written in words (C70) or is a pointer to a function. False for volatile and arrays behind pointers, pointers to variadic functions, signed char and _Bool, pointers and references to (typedefs of) function pointers, references as results, members of nested classes, volatile members, members whose class is not known any more (C82), constant members returning a pointer to a function (witnesses proved)."},
{"property": "C77", "status": "partial", "theorems": ["EasyMock.MockCode.C77_partial", "EasyMock.MockCode.C77_verdict_partial", "EasyMock.MockCode.C77_refuted_same_name", "EasyMock.MockCode.C77_refuted_object"], "note": "Interpreter of the statements of whole generated files, for files whose functions have distinct names and data types, no parameter named like the object, and signatures that need no escapes in a literal. False for two functions of one name (overloads) in a file and for a parameter named like the object (proved in general)."},
{"property": "C78", "status": "partial", "theorems": ["EasyMock.CFile.C78_header_partial", "EasyMock.CFile.C78_again_partial", "EasyMock.CFile.C78_sequence_partial", "EasyMock.CFile.C78_all_partial", "EasyMock.CFile.C78_refuted_guard", "EasyMock.CFile.C78_refuted_dot", "EasyMock.CFile.C78_refuted_operator"], "note": "The text of whole headers, read by an independent reader of C and C++ files. Names of files that can stand in a directive, identifiers as names of functions, classes and namespaces, signatures that do not end a comment. False for files whose names differ in - and _ only or behind an inner dot (one guard, the second header declares nothing) and for C++ operators (not readable); witnesses proved."},
{"property": "C79", "status": "partial", "theorems": ["EasyMock.CFile.C79_source_partial", "EasyMock.CFile.C79_common", "EasyMock.CFile.C79_members", "EasyMock.CFile.C79_expect_partial", "EasyMock.CFile.C79_offered_partial", "EasyMock.CFile.C79_declared_partial", "EasyMock.CFile.C79_typed_partial", "EasyMock.CFile.C79_generated_partial"], "note": "The text of whole sources, read by an independent reader of C and C++ files and of the statements in bodies, then matched with the abstract syntax that C66, C67, C77 (MockCode) and C28-C30 (StructCmp) are about. Names that are identifiers, texts of types with matching brackets and without quotes; not: C++ results that are function pointers (the reader takes their initialiser for a body); argument lists of member functions as in C49. C79_typed_partial derives the conditions on the texts of functions from their types; C79_generated_partial the conditions on comparators from the names in the types they are generated for, the declarations of types without name inside comparators included (in C)."},
{"property": "C80", "status": "partial", "theorems": ["EasyMock.CFile.C80_members_partial", "EasyMock.CFile.C80_result_partial", "EasyMock.CFile.C80_program_partial", "EasyMock.CFile.C80_cpp_partial", "EasyMock.CFile.C80_refuted_const", "EasyMock.CFile.C80_refuted_reference", "EasyMock.CFile.C80_refuted_anonymous", "EasyMock.CFile.C80_refuted_matcher"], "note": "C functions with the types of C76, from clang's declarations to the text of the data structure, read by the reader of C declarations; parameters written by macros are left out. False for constant pointers (constant member that is written to) and in C++ for references to pointers or to typedefs of structures without tag and for matchers of function pointers (witnesses proved). C++: C80_cpp_partial for the generator's functions without parameters that are function pointers, references with std::reference_wrapper and matchers as templates; the types of the objects in front of the structure are not read."},
{"property": "C81", "status": "partial", "theorems": ["EasyMock.CFile.C81_expect_partial", "EasyMock.CFile.C81_program_partial", "EasyMock.CFile.C81_cpp_partial", "EasyMock.CFile.C81_refuted_namespace", "EasyMock.CFile.C81_refuted_callback"], "note": "C functions with the types of C76, from clang's declarations to the text of the header, read by the reader of C declarations. C++: C81_cpp_partial for the generator's functions, free functions and members, without parameters that are function pointers; members have one parameter, or none and return nothing (C49 refutes the rest). False in C++ for members of classes in namespaces (the object is of a global class) and for parameters that are function pointers (witnesses proved)."},
{"property": "C82", "status": "partial", "theorems": ["EasyMock.CDecl.C82_partial", "EasyMock.CDecl.C82_refuted_struct", "EasyMock.CDecl.C82_refuted_struct_mock", "EasyMock.CDecl.C82_refuted_typedef"], "note": "Lifetime of the record objects after parsing. Proved for named classes that have members or are not called by a typedef name, and for records mentioned by their tag in a parameter or a result. False for every structure or union that nothing mentions by its tag (proved in general: the mock is no member) and for classes without members for which a typedef name is used first (witness proved)."},
{"property": "C83", "status": "partial", "theorems": ["EasyMock.MockCode.C83_kth_call", "EasyMock.MockCode.C83_dead", "EasyMock.MockCode.C83_process", "EasyMock.MockCode.C83_check", "EasyMock.MockCode.C83_registered_partial", "EasyMock.MockCode.C83_passing_partial", "EasyMock.MockCode.C83_refuted_capture", "EasyMock.MockCode.C83_refuted_temporary", "EasyMock.MockCode.C83_refuted_typedef"], "note": "Every history of a process with such functions: the comparison is with the content at the time of the call, undefined if the object is gone, and the rest of the process follows the framework. Comparison with the value at the registration is proved if nothing is written in between and false otherwise (witnesses: changed variable, temporary). A typedef of a reference is not treated as one (witness)."},
{"property": "C84", "status": "partial", "theorems": ["EasyMock.MockCode.C83_kth_call", "EasyMock.MockCode.C84_unexpected", "EasyMock.MockCode.C84_passing_partial", "EasyMock.MockCode.C84_zero_partial", "EasyMock.MockCode.C84_refuted_written"], "note": "Result of an expected call in C83_kth_call. Zeros are proved if nobody writes memory in the process; false if the code under test writes through an unexpected result, also after easyMock_init (witness proved)."},
{"property": "C85", "status": "partial", "theorems": ["EasyMock.CFile.C85_header_partial", "EasyMock.CFile.C85_source_partial", "EasyMock.CFile.C85_cpp_header_partial", "EasyMock.CFile.C85_cpp_source_partial"], "note": "Functions of C with the types of C76, without -t and attributes: from clang's declarations to the text of both files, read as C; the comparators are any whose texts are in order (C79_generated_partial: those of a generation). The members of the data structures for functions without parameters written by macros. C++ (C85_cpp_header_partial, C85_cpp_source_partial): free functions in namespaces and members of classes, with references to types without qualifier, pointer or typedef of an unnamed type in the sources; without parameters and results that are function pointers and without results that are references."},
{"property": "C86", "status": "partial", "theorems": ["EasyMock.StructCmp.C86_view_partial", "EasyMock.StructCmp.C86_hash_partial", "EasyMock.StructCmp.C86_refuted_hash"], "note": "Under the condition that the hash tells the types with a typedef from the other types; without it the claim is refuted. The declaration of a local type inside comparators of members without tag (1933-1945, 2287-2291) is the subject of C91."},
{"property": "C87", "status": "partial", "theorems": ["EasyMock.Backtrace.C87_lines_partial", "EasyMock.Backtrace.C87_off", "EasyMock.Backtrace.C87_ends", "EasyMock.Backtrace.C87_unavailable", "EasyMock.Backtrace.C87_unsafe_iff", "EasyMock.Backtrace.C87_refuted_file", "EasyMock.Backtrace.C87_refuted_report", "EasyMock.Backtrace.C87_unexpected_partial"], "note": "All answers of libunwind and libdwfl. The last part is false: a file name without directory is undefined behaviour and a failing report of libdwfl ends the process; exactly these cases are unsafe (C87_unsafe_iff)."},
{"property": "C88", "status": "partial", "theorems": ["EasyMock.CFile.TypeDecl.C88_types_partial", "EasyMock.CFile.TypeDecl.C88_header_partial", "EasyMock.CFile.TypeDecl.C88_program_partial", "EasyMock.CFile.TypeDecl.Ex.C88_refuted_const_callback", "EasyMock.CFile.TypeDecl.Ex.C88_refuted_function", "EasyMock.CFile.TypeDecl.Ex.C88_refuted_nameless_pointer", "EasyMock.CFile.TypeDecl.Ex.C88_refuted_nameless_twice", "EasyMock.CFile.TypeDecl.Ex.C88_refuted_callback_twice", "EasyMock.CFile.TypeDecl.Ex.C88_refuted_variadic", "EasyMock.CFile.TypeDecl.Ex.C88_refuted_callback_parameter", "EasyMock.CFile.TypeDecl.Ex.C88_refuted_callback_result", "EasyMock.CFile.TypeDecl.Ex.C88_refuted_same_name", "EasyMock.CFile.TypeDecl.Ex.C88_refuted_nameless_member"], "note": "C; types that satisfy TypeOk: names are identifiers, members and typedefs are spelled by their type or by a source text that says the same. The text of the types is read by the reader of files of C78 and the reader of declarations of C76. False for typedefs of constant, doubly named, variadic and nested pointers to functions, of functions, of pointers to and typedefs of types without tag, for an enumeration with a typedef of its name, and for members that point to a type without tag (witnesses proved). That the order of the declarations is one a compiler accepts is C54. The number of the first unnamed parameter of a callback is arbitrary."},
{"property": "C89", "status": "partial", "theorems": ["EasyMock.Disk.C89_success_partial", "EasyMock.Disk.C89_touched", "EasyMock.Disk.C89_build_partial", "EasyMock.Disk.C89_paths", "EasyMock.Disk.C89_apart", "EasyMock.Disk.C89_agrees", "EasyMock.Disk.C89_refuted_same_stem", "EasyMock.Disk.C89_refuted_both_languages", "EasyMock.Disk.C89_refuted_close", "EasyMock.Disk.C89_refuted_both"], "note": "All disks and failures. False when text is lost in fclose (its result is ignored), for two headers with the same name up to the last dot, and for one header mocked in both languages: witnesses proved."},
{"property": "C90", "status": "partial", "theorems": ["EasyMock.Parser.C90_directories_partial", "EasyMock.Parser.C90_prefix", "EasyMock.Parser.C90_run_partial", "EasyMock.Parser.C90_refuted_empty", "EasyMock.Parser.C90_refuted_incomplete"], "note": "False for an empty entry in the list of implicit directories and for a last argument which waits for a value (witnesses proved)."},
{"property": "C91", "status": "partial", "theorems": ["EasyMock.CFile.TypeDecl.C91_local_partial", "EasyMock.CFile.TypeDecl.C91_source_partial", "EasyMock.CFile.TypeDecl.C91_valid", "EasyMock.CFile.TypeDecl.C91_only", "EasyMock.CFile.TypeDecl.LocalEx.C91_refuted_enum", "EasyMock.CFile.TypeDecl.LocalEx.C91_refuted_const", "EasyMock.CFile.TypeDecl.LocalEx.C91_refuted_parameter"], "note": "C; members that can be spelled (FieldsOk). C91_source_partial: the declaration stands in the comparators of the generated source, before the first use. C91_valid is exact: the declaration is accepted if and only if objects of the types of all members can be declared. False for a member that is an enumeration without name, for a constant member of a type without name, and for a parameter whose type is declared in the parameter list (witnesses proved). Attributes such as packed are not represented in types."},
{"property": "C92", "status": "partial", "theorems": ["EasyMock.Macro.C92_partial", "EasyMock.Macro.C92_refuted_named", "EasyMock.Macro.C92_refuted_no_parameters", "EasyMock.Macro.C92_refuted_unknown", "EasyMock.Macro.C92_refuted_redefinition", "EasyMock.Macro.C92_refuted_spacing"], "note": "All headers whose tokens are identifiers, punctuators or literals, read by a preprocessor written from the standard. False for variadic macros of the form name..., for function-like macros without parameters, for tokens clang has no kind for, for redefinitions, and for the white space between tokens (witnesses proved)."},
{"property": "C93", "status": "partial", "theorems": ["EasyMock.Macro.C93_partial", "EasyMock.Macro.C93_refuted_later", "EasyMock.Macro.C93_refuted_undef"], "note": "Macros which are not defined or undefined behind the text (false otherwise, witnesses proved). Replacement lists with # or ## are not expanded by the reader."},
{"property": "C94", "status": "partial", "theorems": ["EasyMock.CFile.TypeDecl.C94_types_partial", "EasyMock.CFile.TypeDecl.C94_program_partial", "EasyMock.CFile.TypeDecl.MemberEx.C94_refuted_matrix", "EasyMock.CFile.TypeDecl.MemberEx.C94_refuted_array_typedef", "EasyMock.CFile.TypeDecl.MemberEx.C94_refuted_flexible", "EasyMock.CFile.TypeDecl.MemberEx.C94_refuted_bool", "EasyMock.CFile.TypeDecl.MemberEx.C94_refuted_second"], "note": "C; members that satisfy MemberOk: a source text that says the type with at most one written bound, pointers to functions, objects of records, bit-fields of types that keep their name; types named by --ignore-field-generation-of are defined without members. From clang's declarations through the parser and the generator to the text, which is read by the readers of C78 and C76. False for arrays of arrays, typedefs of arrays, flexible array members, bit-fields of bool, and members behind a pointer in one declaration (witnesses proved). Attributes such as packed and alignment are not represented."},
{"property": "C95", "status": "partial", "theorems": ["EasyMock.StructCmp.C95_exact_partial", "EasyMock.StructCmp.C95_plain_partial", "EasyMock.StructCmp.C95_typedef_partial", "EasyMock.StructCmp.C95_ignored", "EasyMock.StructCmp.C95_refuted_matrix"], "note": "From clang's declarations through the parser and the generator to the verdict of the generated function, for all objects. Records without arrays of arrays (false there, witness proved), without members that are references, and the conditions of C28 on names and of C72 on the order of records. C95_typedef_partial has these conditions in terms of the program: structures and unions with tags or typedefs at file scope, names of one type each, different hashes. Members of types named by --ignore-field-generation-of are not compared (C95_ignored)."},
{"property": "C96", "status": "partial", "theorems": ["EasyMock.StructCmp.C96_calls_partial", "EasyMock.StructCmp.C96_typedef_partial"], "note": "Histories of the framework (C09) with the comparators of C95 as matchers, beside any matchers of the other parameters, for any layout of objects. Programs that C95 covers, with structures and unions declared at file scope, by tag or typedef. Messages are not cut at 255 characters here (see C97); null pointers are the subject of C98 (the objects must exist here)."},
{"property": "C97", "status": "partial", "theorems": ["EasyMock.StructCmp.C97_partial", "EasyMock.StructCmp.C97_unique", "EasyMock.StructCmp.C97_distinct", "EasyMock.StructCmp.C97_seen", "EasyMock.StructCmp.C97_source", "EasyMock.StructCmp.C97_refuted_wide", "EasyMock.StructCmp.C97_refuted_enum", "EasyMock.StructCmp.C97_refuted_index", "EasyMock.StructCmp.C97_refuted_reference", "EasyMock.StructCmp.C97_refuted_seen"], "note": "From clang's declarations through the parser and the generator to the text printed by a printf written from the standard. False for __int128, for enumerations longer than int, for indices from 2^31 on, for members that are references; and the text is printed but not seen behind a character with value zero or behind 255 characters (witnesses proved). Arrays of arrays are outside (C95_refuted_matrix). The text of floating-point numbers is a parameter."},
{"property": "C98", "status": "partial", "theorems": ["EasyMock.StructCmp.C98_readable", "EasyMock.StructCmp.C98_reads_partial", "EasyMock.StructCmp.C98_pointers_partial", "EasyMock.StructCmp.C98_refuted_unreadable", "EasyMock.StructCmp.C98_refuted_null"], "note": "Comparators of C95 on objects of which some members cannot be read. A comparator reads only members of both objects and is defined if they can be read. The second part is false for every type with a compared scalar: a null pointer in the call or in the expectation, or in both, is undefined behaviour (proved for all such types). A null pointer is taken to be undefined when a scalar is read through it, not when the address of a member is computed."},
{"property": "C99", "status": "partial", "theorems": ["EasyMock.Threads.C99_locked_partial", "EasyMock.Threads.C99_finishes", "EasyMock.Threads.C99_refuted_two", "EasyMock.Threads.C99_refuted_count"], "note": "Holds for threads which hold a lock while they call the mock. False without a lock: a block is freed twice, the process ends, or a call too many is not counted (witnesses proved). The MockedFunction of C mocks only; the accesses of the threads take place one after the other, which is the most benign reading of a data race."},
{"property": "C100", "status": "partial", "theorems": ["EasyMock.Nested.C100_served_partial", "EasyMock.Nested.C100_agrees", "EasyMock.Nested.C100_ordinal", "EasyMock.Nested.C100_order", "EasyMock.Nested.C100_no_internal_error", "EasyMock.Nested.Ex.C100_refuted_ordinal", "EasyMock.Nested.Ex.C100_refuted_order"], "note": "Expectations and results hold for all nestings. The number in a report is right exactly if no call of the same function started during the call, and the order is checked when calls end (both exact, with witnesses that the claim is false otherwise). Output parameters are left out; matchers set no expectations and change no options."}
]}
