# Axioms of every property theorem

Generated by `tools/axioms.py` from `#print axioms`.

**no axioms** (17 theorems):

CodeSink.C01_balanced_restores, Lifetime.C38_base_pointer_counterexample, Lifetime.C45_helper_counterexample, Custodian.C46_negative_index, Seq.C67_index_counterexample, Seq.C67_length, Seq.C67_length_protocol_partial, Seq.C67_negative_length_counterexample, Seq.C67_length_masks_counterexample, Seq.C67_contains_counterexample, Seq.C67_assign_leak_counterexample, Seq.C67_delete_counterexample, VirtualCalls.C108_given_away_counterexample, VirtualCalls.C108_destroyed_counterexample, Shared.C110_clear_counterexample, Shared.C110_reinit_counterexample, Shared.C110_second_wrapper_counterexample


**`Classical.choice`, `Quot.sound`, `propext`** (646 theorems):

CodeSink.C01_unindent_fails_iff, CodeSink.C02_flush_to_mem, CodeSink.C02_flush_to_file, CodeSink.C02_chain, CodeSink.C02_flush_string, CodeSink.C02_flush_like_file, CodeSink.C02_chain_any, CodeBlock.C03_cleanup_lifo, CodeBlock.C03_cancel_ok_iff, CodeBlock.C03_cancel_twice, CodeBlock.C04_stale_handle_counterexample, CodeBlock.C04_cancel_removes_own_partial, CodeBlock.C05_error_check_text, CodeBlock.C05_emitted_text_stable, Params.C06_raises_iff, DeclScope.C09_clash_counterexample, DeclScope.C09_names_distinct_partial, DeclScope.C10_declare, DeclScope.C10_declare_fails, DeclScope.C10_reserve, DeclScope.C10_clear, DeclScope.C11_join, DeclScope.C11_join_keeps_both, CType.C12_terminates_partial, CType.C12_unterminated_comment_counterexample, CType.C12_lossless_partial, CType.C12_lossless_counterexample, CType.C13_not_idempotent_counterexample, CType.C13_idempotent_partial, CType.C13_normalizes_iff_grammatical, CType.C13_parse_terminates, CType.C14_same_type_same_string, CType.C14_double_star_counterexample, CType.C14_tokens_independent_of_spacing, CType.C15_same_string_same_type_partial, CType.C15_normal_form_same_type_partial, CType.C15_meaning_lost_counterexample, CType.C16_traits_value, CType.C16_traits_pointer, CType.C16_double_star_counterexample, CType.C16_double_amp_counterexample, CType.C17_make_const, CType.C17_make_target_const, CType.C17_no_const_no_ref_stale_counterexample, CType.C17_not_canonical_counterexample, Matcher.C18_first_registration_wins, Matcher.C18_duplicate_refused, Matcher.C18_registered_found_partial, Matcher.C18_modifier_name_unreachable_counterexample, Matcher.C19_terminates, Matcher.C19_finds_only_aliases, Matcher.C20_second_alias_not_tried_counterexample, Matcher.C20_overwritten_alias_counterexample, Matcher.C20_typedef_chain_partial, Matcher.C21_lookup_ok_iff, Matcher.C21_lookup_error, Matcher.C21_registration_order, Overload.C22_kept_exactly, Overload.C22_single, Overload.C22_uniform, Overload.C22_no_handler_counterexample, Overload.C23_first_accepting_wins, Overload.C23_all_reject, Overload.C23_delegates, Overload.C23_delegate_names_distinct, Overload.C23_generate, Overload.C23_dispatcher_arguments, Overload.C24_released_once, Overload.C25_product_partial, Utils.C26_charwise, Utils.C26_concat, Utils.C26_identifier, Utils.C26_no_punctuation, Utils.C26_unknown_punctuation_counterexample, Utils.C26_template_instance, Utils.C27_not_injective_counterexample, Utils.C27_injective_plain_partial, Module.C29_declare_once, Module.C29_at_most_one, Module.C30_single_file, Module.C30_split_files, Module.C30_section_files, Module.C30_main_section_counterexample, Module.C30_includes_collected, Module.C30_include_syntax, Module.C30_mixed_quotes_counterexample, Module.C31_sections_partial, Module.C31_end_without_begin_counterexample, Module.C31_function_section, Module.C32_root_paths, Module.C32_sub_paths, Module.C32_namespace_idempotent, Module.C32_namespace_new, Module.C32_namespace_components, Module.C32_prefix_collision_counterexample, Module.C32_global_namespace, Module.C32_paths_unique, Module.C32_duplicate_submodule_counterexample, CppClass.C33_mro_mem, CppClass.C33_is_subclass, CppClass.C33_mro_order, CppClass.C34_single_inheritance_partial, CppClass.C34_unimplemented, CppClass.C34_query_current_partial, CppClass.C34_sibling_counterexample, Operators.C36_cases, Operators.C36_other_slots, Operators.C36_richcompare, IntRange.C39_exact_partial, IntRange.C39_accepted, IntRange.C39_unchecked, IntRange.C39_complete_partial, IntRange.C39_in_type, Wrap.C40_flags_partial, Wrap.C40_function_signature_partial, Wrap.C40_function_signature_counterexample, Wrap.C40_method_signature_partial, Wrap.C40_method_signature_counterexample, Wrap.C40_static, Wrap.C40_delegate_signature, Wrap.C40_constructor_signature, Trial.C40_cached_partial, Trial.C40_stale_counterexample, Handlers.C41_classes_partial, Wrap.C41_handlers_partial, Wrap.C41_char_return_counterexample, Wrap.C41_cstring_return_counterexample, Wrap.C41_container_retval_counterexample, Wrap.C41_value_partial, Wrap.C41_void_partial, Wrap.C41_text_partial, Wrap.C41_clash_counterexample, Exceptions.C42_constructor_partial, Exceptions.C42_constructor_counterexample, Flow.C42_undisciplined_counterexample, Flow.C42_bare_return_counterexample, Wrap.C42_forward_partial, Wrap.C42_function_partial, Wrap.C43_general_partial, Wrap.C43_proxy_partial, Wrap.C43_pure_virtual_counterexample, Wrap.C44_general_partial, Wrap.C44_function_partial, Wrap.C44_exception_counterexample, Wrap.C44_parent_caller_counterexample, Wrap.C44_constructor_counterexample, Lifetime.C45_no_double_free_partial, Lifetime.C45_accounting_partial, Custodian.C46_alive_iff, Custodian.C46_wards_list, Custodian.C46_kept_alive_partial, Custodian.C46_one_reference_per_custodian, Custodian.C46_idempotent, Custodian.C46_no_dict_counterexample, Custodian.C46_equal_wards_counterexample, Custodian.C46_call_partial, Overload.C48_docstring, Overload.C48_docstring_conflict, Module.C49_register_type, Module.C49_lookup_last, Module.C49_unregistered, Module.C50_overload_sets, Module.C50_strip_prefix_merges_counterexample, Module.C50_functions, Module.C51_definitions_before_uses, Module.C51_every_module, Module.C51_exactly_once, CppClass.C53_hooks, CppClass.C54_nearest, CppClass.C54_own, CppClass.C54_policy_partial, CppClass.C55_overrides, CppClass.C55_complete_partial, CppClass.C55_unwrappable, CppClass.C55_base_unwrappable_counterexample, CppClass.C55_has_helper, Wrap.C56_single_partial, Wrap.C56_several_counterexample, Wrap.C56_reference_counterexample, Names.C57_class, Names.C57_function, Names.C57_exception_enum, Names.C57_distinct, Names.C57_enum_namespace_counterexample, Names.C58_constants_partial, Names.C58_imported, Names.C58_prefix_counterexample, Names.C59_identifier, Names.C59_distinct_partial, Names.C59_qualified, Names.C59_clash_counterexample, Container.C60_adapters_counterexample, Container.C60_kinds, Container.C61_iteration_partial, Container.C62_no_crash_partial, Container.C62_memory_partial, Slots.C64_type_layout, Slots.C64_type_layout2, Slots.C64_type_required, Slots.C64_number_layout, Slots.C64_number_layout2, Slots.C64_number_layout_old, Slots.C64_sequence_layout, Slots.C64_sequence_layout2, Slots.C64_methods_required, Slots.C65_user_slot_partial, Slots.C65_provided, Slots.C65_name, Slots.C65_complete_partial, Slots.C65_nested_order, Slots.C65_gc, Slots.C65_number_counterexample, CppClass.C66_readable_partial, Seq.C67_contains_partial, Seq.C67_contains_protocol_partial, Seq.C67_assign_partial, Slots.C68_table, Slots.C68_special, Slots.C68_error, Slots.C68_sequence_partial, Slots.C68_slice_counterexample, Slots.C68_skipped_counterexample, CppClass.C69_exact, CppClass.C69_right_object_partial, CppClass.C69_override_counterexample, CppClass.C69_private_counterexample, CppClass.C69_function_counterexample, CppClass.C69_special_never, CppClass.C69_own_sets, CppClass.C69_late_counterexample, Wrap.C70_dispatch_partial, Wrap.C70_builtin_counterexample, Wrap.C71_arguments_partial, Wrap.C72_parameter, Wrap.C72_return, Wrap.C72_skipped, Wrap.C72_skipped_return, Wrap.C72_reverse_counterexample, Exceptions.C73_constructor_partial, Exceptions.C73_make, Exceptions.C73_message, Exceptions.C73_caught_partial, Exceptions.C73_closest, Exceptions.C73_order_counterexample, Exceptions.C73_type, Exceptions.C74_same_module_partial, Exceptions.C74_parent_text, Exceptions.C74_nested_counterexample, Exceptions.C74_parent_counterexample, Exceptions.C74_base_counterexample, Exceptions.C74_outer_counterexample, Attr.C75_table, Attr.C75_duplicate, Attr.C75_constant, Attr.C75_skipped, Attr.C75_complete, Attr.C76_distinct_partial, Attr.C76_method_counterexample, Attr.C76_overload_counterexample, Attr.C76_static_counterexample, Attr.C76_customName_counterexample, Attr.C77_getter_partial, Attr.C77_value_partial, Attr.C77_shared_counterexample, Attr.C78_inPlace_partial, Attr.C78_viaVar_partial, Attr.C78_shared_counterexample, Attr.C79_constant_partial, Attr.C79_delete_counterexample, Handlers.C80_arguments_partial, Handlers.C80_const_ref_converting, Handlers.C80_type_checked, Handlers.C80_self, Handlers.C80_const_ref_copy_counterexample, Handlers.C80_const_ref_default_counterexample, Handlers.C80_pointer_default_counterexample, Handlers.C80_emptied_counterexample, Handlers.C80_proxy_counterexample, Handlers.C80_raising_class_counterexample, Handlers.C80_second_base_counterexample, Handlers.C80_none_transfer_counterexample, Handlers.C80_ownership, Handlers.C80_order, Schedule.C82_terminates, Schedule.C82_once, Schedule.C82_accounted, Schedule.C82_complete_partial, Schedule.C82_conversions_partial, Annot.C83_block, Annot.C83_used, Annot.C83_total, Annot.C83_unused, Annot.C83_first_line_counterexample, Annot.C83_wrap_counterexample, Annot.C83_indented_counterexample, Annot.C83_same_parameter_counterexample, Annot.C83_spaces_counterexample, Annot.C83_parse_boolean, Annot.C83_flag_counterexample, Scan.C84_function_partial, Scan.C84_member_function, Scan.C84_class_partial, Scan.C84_policies_counterexample, Scan.C84_method_partial, Scan.C84_no_such_parameter_counterexample, Scan.C84_constructor_counterexample, Scan.C84_throw_counterexample, Scan.C84_as_method_counterexample, Scan.C84_function_counterexample, Scan.C84_class_counterexample, Scan.C84_return_partial, Scan.C84_caller_owns_return_counterexample, Scan.C84_parameter_partial, Scan.C84_default_counterexample, Pygen.C85_script_line, Pygen.C85_unambiguous, Pygen.C85_string, Pygen.C85_keywords, Scan.C86_class_partial, Scan.C86_class_marks_partial, Scan.C86_function, Scan.C86_virtual_counterexample, Scan.C86_pure_counterexample, Structure.C87_distinct_partial, Structure.C87_script_partial, Structure.C87_names_counterexample, Structure.C87_classes_counterexample, Structure.C87_order_counterexample, Scan.C88_class_partial, Scan.C88_nested_operator_counterexample, Scan.C88_ignored_operator_counterexample, Scan.C89_default_partial, Scan.C89_copy_partial, Scan.C89_ignore_counterexample, Scan.C89_anonymous_counterexample, Wrap.C90_in_partial, Wrap.C90_default, Wrap.C90_out, Wrap.C90_return, Wrap.C90_call_partial, Wrap.C90_glib_zero_counterexample, Wrap.C90_char_counterexample, Wrap.C91_in_partial, Wrap.C91_default_partial, Wrap.C91_out, Wrap.C91_raises_counterexample, Wrap.C92_in_partial, Wrap.C92_out, Wrap.C92_unsigned_counterexample, Wrap.C92_element_counterexample, Wrap.C93_container, Wrap.C93_object, Wrap.C93_null, Returns.C94_null_counterexample, Returns.C94_unannotated_counterexample, Returns.C94_freed, Returns.C94_smart_value_counterexample, Returns.C94_smart_helper_counterexample, Returns.C94_copy_counterexample, Overrides.C95_written, Overrides.C95_gil, Overrides.C95_dangerous_counterexample, Overrides.C95_registry_counterexample, Convert.C96_from_python_partial, Convert.C96_integers, Convert.C96_glib, Convert.C96_refused, Convert.C96_accepted, Convert.C96_defined_partial, Convert.C96_from_python_counterexample, Convert.C96_to_python_partial, Convert.C96_free_counterexample, Convert.C96_round_trip_partial, Convert.C96_round_trip_counterexample, Convert.C96_defined_once, Convert.C96_answered_partial, Convert.C96_right_function_partial, Convert.C96_shared_counterexample, Convert.C96_missing_counterexample, Convert.C96_container_counterexample, Construct.C97_constructor, Construct.C97_compiles_partial, Construct.C97_slot, Construct.C97_type_partial, Construct.C97_first, Construct.C97_abstract_partial, Construct.C97_dispatch, Construct.C97_creation, Construct.C97_skipped_counterexample, Construct.C97_empty_counterexample, Construct.C97_policy_counterexample, Construct.C97_shared_helper_counterexample, Construct.C97_private_helper_counterexample, Construct.C97_again_counterexample, Copy.C98_subclass_counterexample, Copy.C98_attributes_counterexample, Copy.C98_sliced_counterexample, Copy.C98_hook_counterexample, Ledger.C99_balanced_partial, Ledger.C99_success_partial, Ledger.C99_ustring_counterexample, Ledger.C99_transfer_string_counterexample, Ledger.C99_container_counterexample, Ledger.C99_pyobject_counterexample, Ledger.C99_out_reference_counterexample, Ledger.C99_thrown_transfer_counterexample, Dispatch.C100_not_overridden_partial, Dispatch.C100_super_partial, Dispatch.C100_super_inherited_counterexample, Dispatch.C100_named_base_counterexample, Dispatch.C100_no_helper_counterexample, Dispatch.C100_call_text, Register.C101_class_partial, Register.C101_enum_accepted_iff, Register.C101_enum_partial, Register.C101_container_partial, Register.C101_smart_pointer_partial, Register.C101_short_name_steals_counterexample, Register.C101_enum_clash_counterexample, Register.C101_container_pointer_counterexample, Register.C101_smart_pointer_counterexample, Register.C101_short_ctype_counterexample, Exchange.C102_exchange_partial, Exchange.C102_memory_partial, Exchange.C102_leak_counterexample, Exchange.C102_dangling_counterexample, Exchange.C102_transfer_partial, Exchange.C102_transfer_counterexample, Exchange.C102_exact, Exchange.C103_exchange_partial, Exchange.C103_references_partial, Exchange.C103_references_counterexample, Exchange.C103_truth_counterexample, Exchange.C103_none_counterexample, Exchange.C103_output_counterexample, Exchange.C103_refused_counterexample, Exchange.C103_borrowed_counterexample, Exchange.C103_exact, Exchange.C103_reference_refused, Imports.C104_shared_partial, Imports.C104_narrowing_partial, Imports.C104_names, Imports.C104_missing_counterexample, Imports.C104_named_counterexample, Imports.C104_nested_counterexample, Imports.C104_prefix_counterexample, Imports.C104_submodule_counterexample, Imports.C104_compile_counterexample, Imports.C104_compiles_partial, Imports.C105_bases_partial, Imports.C105_submodule_counterexample, Imports.C105_imported_counterexample, Imports.C105_missing_counterexample, HelperCode.C106_defined, HelperCode.C106_overrides, HelperCode.C106_abandoned, HelperCode.C106_callers, HelperCode.C106_distinct_partial, HelperCode.C106_renamed_counterexample, ClassIter.C107_iteration_partial, ClassIter.C107_defined_partial, ClassIter.C107_generated_partial, ClassIter.C107_names_partial, ClassIter.C107_nested_counterexample, ClassIter.C107_names_counterexample, ClassIter.C107_two_containers_counterexample, ClassIter.C107_changed_counterexample, ClassIter.C107_transferred_counterexample, ClassIter.C107_made_by_hand_counterexample, ClassIter.C107_uninitialised_counterexample, ClassIter.C107_null_value_counterexample, ClassIter.C107_char_key_counterexample, ClassIter.C107_owner_partial, ClassIter.C107_keeps_alive, ClassIter.C107_text, VirtualCalls.C108_neutral_partial, VirtualCalls.C108_accounting_partial, Wrap.C108_release_every_path_partial, Wrap.C108_rule_bool, Wrap.C108_rule_class, Wrap.C108_rule_return, Wrap.C108_rule_return_via, Clone.C109_exact, Clone.C109_same_partial, Clone.C109_defined, Clone.C109_signature, Clone.C109_throw_counterexample, Clone.C109_settings_counterexample, Clone.C109_wards_counterexample, Clone.C109_lost, Shared.C110_alive_while_held_partial, Shared.C110_plain_classes, Shared.C110_returned_partial, Shared.C110_one_wrapper_partial, Docs.C111_literal_exact, Docs.C111_function_partial, Docs.C111_kept, Docs.C111_overloads_partial, Docs.C111_conflict, Docs.C111_class_partial, Docs.C111_module_partial, Docs.C111_lines_counterexample, Docs.C111_quotes_counterexample, Docs.C111_backslash_counterexample, Docs.C111_overloads_counterexample, Docs.C111_parent_caller_counterexample, Docs.C111_empty_module_counterexample, Arith.C112_binary_partial, Arith.C112_inplace_partial, Arith.C112_negate_partial, Arith.C112_compare, Arith.C112_compare_same, Arith.C112_alias_counterexample, Arith.C112_slicing_counterexample, Arith.C112_hidden_counterexample, Arith.C112_given_up_counterexample, Arith.C112_not_equal_counterexample, Bindings.C113_names_partial, Bindings.C113_pointers_hidden, Bindings.C113_generation, Bindings.C113_import_succeeds, Bindings.C113_function_lost_counterexample, Bindings.C113_submodules_py2_partial, Bindings.C113_submodules_py3_counterexample, Bindings.C113_prefix_counterexample, Bindings.C113_iterator_counterexample, Bindings.C113_scoped_enum_counterexample, Bindings.C113_long_counterexample, Bindings.C113_member_counterexample, Bindings.C113_inner_container_counterexample, Bindings.C113_order_counterexample, Static.C114_read_partial, Static.C114_exists, Static.C114_write_partial, Static.C114_python_classes, Static.C114_only_assignments, Static.C114_kept, Static.C114_roundtrip_partial, Static.C114_second_base_counterexample, Static.C114_instance_counterexample, Static.C114_metaclass_conflict_counterexample, Static.C114_stale_counterexample, Replies.C115_stale_counterexample, Replies.C115_not_owned_counterexample, Replies.C115_rule, Replies.C115_accounting_partial, Sections.C116_links_partial, Sections.C116_generates, Sections.C116_same_container, Sections.C116_division, Sections.C116_header, Sections.C116_included, Sections.C116_metaclass_counterexample, Collector.C117_truthful, Collector.C117_keeps_partial, Collector.C117_clears, Collector.C117_clears_unused_partial, Collector.C117_freed_partial, Collector.C117_untouched, Collector.C117_given, Collector.C117_untracked_counterexample, Collector.C117_dying_counterexample, Templ.C118_recognised, Templ.C118_parameters_partial, Templ.C118_call_partial, Templ.C118_plain_partial, Templ.C118_named_partial, Templ.C118_blank_counterexample, Templ.C118_two_arguments, Templ.C118_substring_counterexample, Templ.C118_nested_counterexample, Sinks.C119_belongs, Sinks.C119_section, Sinks.C119_section_found_partial, Sinks.C119_runs_partial, Sinks.C119_equal_counterexample, Sinks.C119_precedence_counterexample, Location.C120_neighbour_counterexample, Location.C120_slashes_counterexample, Containers.C121_once, Containers.C121_elements_first, Containers.C121_registered_iff, Containers.C121_complete_partial, Containers.C121_flat_partial, Containers.C121_script_iff, Containers.C121_kind_partial, Containers.C121_priority_counterexample, Containers.C121_namespace_counterexample, Containers.C121_inner_counterexample, ClassNotes.C122_options, ClassNotes.C122_refused_iff, ClassNotes.C122_order_partial, ClassNotes.C122_order_counterexample, ClassNotes.C122_counted_partial, ClassNotes.C122_single_counterexample, ClassNotes.C122_exception_iff, ClassNotes.C122_exception_counterexample, ClassNotes.C122_subclassable_iff, ClassNotes.C122_base_counterexample, ClassNotes.C122_second_counterexample, Custom.C123_method, Custom.C123_function_partial, Custom.C123_function_without_text_counterexample, Custom.C123_function_flags_counterexample, Custom.C123_function_flags_lost, Custom.C123_method_declaration_counterexample, Custom.C123_kept, Str.C124_text_partial, Str.C124_repr_iff, Str.C124_source, Str.C124_first_base, Str.C124_second_base_counterexample, Str.C124_zero_counterexample, Str.C124_encoding_counterexample, Str.C124_uninitialised_counterexample, Str.C124_includes, Throws.C125_function_partial, Throws.C125_method_partial, Throws.C125_constructor_partial, Throws.C125_annotation_partial, Throws.C125_accounted, Throws.C125_const_counterexample, Throws.C125_value_counterexample, Throws.C125_as_method_counterexample, Throws.C125_annotation_counterexample, Throws.C125_both_counterexample, FnMethods.C126_called_partial, FnMethods.C126_accepted, FnMethods.C126_unnamed_counterexample, FnMethods.C126_two_classes_counterexample, FnMethods.C126_several_bases_counterexample, FnMethods.C126_copied_callee_counterexample, Trial.C127_calls_agree, Trial.C127_constructors_partial, Trial.C127_flags_partial, Trial.C127_functions_take, Trial.C127_overloads_partial, Trial.C127_overrides_partial, Trial.C127_override_twice_counterexample, Trial.C127_agree_partial, Trial.C127_failed_partial, Trial.C127_afresh, Trial.C127_functions, Trial.C127_twice_counterexample, Trial.C127_shared_counterexample, Trial.C127_functions_agree


**`Quot.sound`, `propext`** (140 theorems):

CodeSink.C01_line_prefix, CodeSink.C01_line_prefix_file, CodeSink.C01_history_ok_iff_open, Params.C06_item_order, Params.C06_is_empty_iff, Params.C07_keywords, Params.C08_build_value, Overload.C25_product_mem, Overload.C25_product_once, Utils.C28_classes, Module.C30_each_once, CppClass.C33_duplicate_counterexample, CppClass.C33_mro_once_partial, CppClass.C34_stale_counterexample, CppClass.C35_created, CppClass.C35_policy_root, CppClass.C35_has_policy_iff, CppClass.C35_descendants_share_partial, CppClass.C35_second_policy_dropped_counterexample, CppClass.C35_deprecated_arguments, Operators.C36_rejected, Operators.C36_dispatch, Operators.C36_unary_dispatch, Operators.C36_slot, Operators.C36_inplace_twice_counterexample, Operators.C36_spec_twice_counterexample, Operators.C36_unary_only_counterexample, Operators.C36_failed_operand_counterexample, CppClass.C37_narrowing_root, CppClass.C37_same_map, TypeMap.C37_registered, TypeMap.C37_order, TypeMap.C37_lookup_partial, TypeMap.C37_fallback, TypeMap.C37_sound, TypeMap.C37_declared_type, TypeMap.C37_root_counterexample, Lifetime.C38_one_wrapper_partial, Lifetime.C38_identity_partial, Lifetime.C38_constructor_counterexample, Lifetime.C38_unregister_counterexample, Lifetime.C38_clear_counterexample, Lifetime.C38_null_registry_counterexample, Wrap.C41_one_each, Flow.C42_release_every_path_partial, Lifetime.C45_policy_counterexample, Lifetime.C45_unmanaged_counterexample, Lifetime.C45_leak_counterexample, Lifetime.C45_reinit_counterexample, Lifetime.C45_free_after_copy_counterexample, Custodian.C46_annotations, Custodian.C46_pre_post, Custodian.C46_precall_retval, Utils.C47_refused_iff, Module.C50_strip_prefix, CppClass.C52_cannot_disable, CppClass.C52_inherited_partial, CppClass.C52_second_base_counterexample, CppClass.C52_defaults, CppClass.C53_hooks_once_partial, CppClass.C53_hook_twice_counterexample, CppClass.C53_own_hooks, CppClass.C54_policy_ignored_counterexample, CppClass.C54_last_set, CppClass.C55_reenabled_counterexample, Container.C60_pairs, Container.C60_argument, Container.C60_contents, CppClass.C66_declaration_partial, CppClass.C66_subclassing_counterexample, CppClass.C66_destructor_counterexample, CppClass.C66_pointer_counterexample, CppClass.C66_second_base_counterexample, Seq.C67_objects, Seq.C67_arguments_partial, Seq.C67_assign_status_counterexample, Handlers.C81_by_value, Handlers.C81_reference_inout_partial, Handlers.C81_pointer_copy, Handlers.C81_pointer_counted, Handlers.C81_pointer_transfer, Handlers.C81_pointer_existing, Schedule.C82_error, Schedule.C82_bases_first, Schedule.C82_deep_counterexample, Schedule.C82_mutual_conversion_counterexample, Schedule.C82_lost_conversion_counterexample, Schedule.C82_nested_counterexample, Schedule.C82_namespace_counterexample, Structure.C87_sections_partial, Returns.C94_shared_partial, Returns.C94_copy_partial, Returns.C94_return_partial, Returns.C94_smart_partial, Returns.C94_refines_partial, Returns.C94_refused, Returns.C94_refused_copy, Returns.C94_compiles_partial, Returns.C94_annotations, Overrides.C95_pointer_copy, Overrides.C95_pointer_counted, Overrides.C95_shared, Overrides.C95_pointer_steal_partial, Overrides.C95_pointer_borrowed_partial, Overrides.C95_supported, Overrides.C95_compiles_partial, Construct.C97_helper, Construct.C97_inherited_partial, Copy.C98_effect_partial, Copy.C98_copy_partial, Copy.C98_refines, Copy.C98_entry, Copy.C98_compiles_partial, Copy.C98_empty_counterexample, Copy.C98_smart_counterexample, Dispatch.C100_plain, Dispatch.C100_named_protected_counterexample, Dispatch.C100_undeclared_counterexample, Dispatch.C100_super_pure_counterexample, Exchange.C102_several_counterexample, Exchange.C103_several_counterexample, Arith.C112_unary_counterexample, Arith.C112_unary_only_counterexample, Static.C114_import, Static.C114_import_single, Replies.C115_temporary_counterexample, Replies.C115_sliced_counterexample, Replies.C115_generated, Replies.C115_not_supported, Replies.C115_owned_copy_partial, Replies.C115_owned_counted, Replies.C115_shared_ptr, Replies.C115_owned_taken_partial, Collector.C117_peekref_counterexample, Sinks.C119_runs_iff, Location.C120_passes_iff, Location.C120_none_lost_partial, Location.C120_exact_partial, Location.C120_headers_only_partial, FnMethods.C126_inherited_partial


**`propext`** (58 theorems):

CodeSink.C01_memory_and_file_agree, CodeSink.C02_second_flush_adds_nothing, CodeSink.C02_null_flush_raises, Params.C06_format, Overload.C25_empty_counterexample, Utils.C28_outcome, Utils.C28_value_iff, Utils.C28_lookup_errors, Module.C32_prefix_injective_partial, CppClass.C35_no_override, CppClass.C35_both_refused, Operators.C36_inplace_partial, Operators.C36_inplace_class_counterexample, CppClass.C37_narrowing_inherited, TypeMap.C37_exact, Lifetime.C38_registry, IntRange.C39_negative_counterexample, IntRange.C39_not_exact, Lifetime.C45_dealloc, Lifetime.C45_reference_existing, Custodian.C46_no_dict_error, Utils.C47_spec_round_trip, Utils.C47_plain_spec, Utils.C47_nameless_accepted_counterexample, Container.C60_list_changed_counterexample, Container.C60_members_partial, Container.C61_reinit_counterexample, Container.C62_uninitialized_counterexample, Container.C62_iterator_type_counterexample, Container.C62_reinit_counterexample, Container.C63_pairs_partial, Container.C63_char_key_counterexample, CppClass.C66_exact, CppClass.C66_obj, Wrap.C71_tuple_counterexample, Handlers.C81_reference_seen, Handlers.C81_reference_inout_failed_counterexample, Handlers.C81_pointer_inout_counterexample, Handlers.C81_null_pointer_counterexample, Handlers.C81_transfer_existing_counterexample, Overrides.C95_value, Overrides.C95_refused, Overrides.C95_reference_counterexample, Overrides.C95_borrowed_object_counterexample, Overrides.C95_empty_counterexample, Overrides.C95_smart_pointer_counterexample, Construct.C97_function, Construct.C97_inherited_counterexample, Exchange.C102_text, VirtualCalls.C108_seen_and_restored, Wrap.C108_rule_scalar, Shared.C110_singleton_counterexample, Replies.C115_reference_counterexample, Replies.C115_none_counterexample, Replies.C115_no_object_counterexample, Replies.C115_value_partial, Replies.C115_plain_partial, Replies.C115_refused
