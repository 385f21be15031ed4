# Axioms each theorem of MANIFEST.json depends on

Printed with `#print axioms` on the built project.  All are axioms of Lean itself.

## none

* `ZS.Props.C31_broken_by_inherited`
* `ZS.Props.C33_identity_not_equality`
* `ZS.Props.C52_set_returns`
* `ZS.Props.last_or_never`

## `propext`

* `ZS.Props.C04_combinable`
* `ZS.Props.C06_implementations_differ`
* `ZS.Props.C08_select_agree`
* `ZS.Props.C10_identity`
* `ZS.Props.C19_constants`
* `ZS.Props.C23_machine_determined`
* `ZS.Props.C30_calls`
* `ZS.Props.C36_no_checker`
* `ZS.Props.C37_shared_checker`
* `ZS.Props.C45_active`
* `ZS.Props.C45_policy_refuses`
* `ZS.Props.C46_other_attribute`
* `ZS.Props.C46_unknown_home`
* `ZS.Props.C47_repr_denies`
* `ZS.Props.C47_repr_replaces`
* `ZS.Props.C47_transparent_one`
* `ZS.Props.C50_two_steps`
* `ZS.Props.C50_two_succeed`
* `ZS.Props.C50_undisturbed`
* `ZS.Props.C52_existing_unaffected`
* `ZS.Props.C56_calls_kept`
* `ZS.Props.C56_lost`
* `ZS.Props.C57_init`
* `ZS.Props.C61_freed`
* `ZS.Props.C61_misspelt`
* `ZS.Props.C62_stuck`
* `ZS.Props.C64_unchecked`
* `ZS.Props.C66_last`
* `ZS.Props.C66_undeclared`
* `ZS.Props.C72_last`
* `ZS.Props.C72_same`
* `ZS.Props.C72_undeclared`
* `ZS.Props.C73_labels`
* `ZS.Props.C74_checker_left`
* `ZS.Props.C74_index`
* `ZS.Props.C74_left`
* `ZS.Props.C86_star`
* `ZS.Props.C87_slots`
* `ZS.Props.C87_tables`
* `ZS.Props.C88_clear`
* `ZS.Props.C88_dealloc`
* `ZS.Props.C88_slots`
* `ZS.Props.C89_bodies`
* `ZS.Props.C89_caught`
* `ZS.Props.C89_complete`
* `ZS.Props.C90_covered`

## `Quot.sound`, `propext`

* `ZS.Props.C06_proxy_spec`
* `ZS.Props.C06_result`
* `ZS.Props.C07_by_type_only`
* `ZS.Props.C07_direct`
* `ZS.Props.C07_none_or_checker`
* `ZS.Props.C07_select_complete`
* `ZS.Props.C07_select_sound`
* `ZS.Props.C09_factory_spec`
* `ZS.Props.C09_idempotent`
* `ZS.Props.C09_idempotent_bare`
* `ZS.Props.C09_no_swap`
* `ZS.Props.C09_result`
* `ZS.Props.C10_round_trip`
* `ZS.Props.C19_proxies_agree`
* `ZS.Props.C20_isinstance`
* `ZS.Props.C24_other_threads`
* `ZS.Props.C25_laws`
* `ZS.Props.C26_entry_point`
* `ZS.Props.C26_string_not_special`
* `ZS.Props.C27_add_remove`
* `ZS.Props.C28_monotone`
* `ZS.Props.C29_exact`
* `ZS.Props.C29_thread_unchanged`
* `ZS.Props.C31_outcomes`
* `ZS.Props.C32_clear`
* `ZS.Props.C40_one_step`
* `ZS.Props.C40_other_ids`
* `ZS.Props.C40_public_redefinable`
* `ZS.Props.C40_redefined_id`
* `ZS.Props.C40_second_redefinition`
* `ZS.Props.C40_translation`
* `ZS.Props.C41_permissions`
* `ZS.Props.C42_all`
* `ZS.Props.C44_around_plain`
* `ZS.Props.C44_around_proxy`
* `ZS.Props.C45_falsy_refused`
* `ZS.Props.C45_installs`
* `ZS.Props.C47_log`
* `ZS.Props.C48_identity`
* `ZS.Props.C49_unprotected`
* `ZS.Props.C50_calls_kept`
* `ZS.Props.C50_late_caller`
* `ZS.Props.C50_some_succeeds`
* `ZS.Props.C52_decisions_kept`
* `ZS.Props.C52_kind_fixed`
* `ZS.Props.C53_module_checker`
* `ZS.Props.C53_proxied`
* `ZS.Props.C56_nothing_invented`
* `ZS.Props.C56_with_checker`
* `ZS.Props.C57_clear`
* `ZS.Props.C57_none`
* `ZS.Props.C59_misread`
* `ZS.Props.C62_one_move`
* `ZS.Props.C62_turn`
* `ZS.Props.C65_compare`
* `ZS.Props.C65_proxy`
* `ZS.Props.C67_setProxied`
* `ZS.Props.C73_no_half`
* `ZS.Props.C73_one_implementation`
* `ZS.Props.C73_operators`
* `ZS.Props.C73_public`
* `ZS.Props.C73_same_objects`
* `ZS.Props.C73_shared`
* `ZS.Props.C73_statics`
* `ZS.Props.C74_python`
* `ZS.Props.C74_python_built`
* `ZS.Props.C82_available`
* `ZS.Props.C82_btrees`
* `ZS.Props.C82_default`
* `ZS.Props.C82_import`
* `ZS.Props.C82_no_pytz`
* `ZS.Props.C82_public`
* `ZS.Props.C82_shared`
* `ZS.Props.C85_class_call`
* `ZS.Props.C90_attributes`
* `ZS.Props.C92_teardown`
* `ZS.Props.ImportEx.C73_retry`
* `ZS.Props.combine_spec`

## `Classical.choice`, `Quot.sound`, `propext`

* `ZS.Props.C01_granted_iff`
* `ZS.Props.C01_read_check_table`
* `ZS.Props.C01_refusals`
* `ZS.Props.C02_write_check_table`
* `ZS.Props.C02_write_default_deny`
* `ZS.Props.C02_write_granted_iff`
* `ZS.Props.C03_checkers_agree`
* `ZS.Props.C03_hasattr_agree`
* `ZS.Props.C03_provisos_necessary`
* `ZS.Props.C04_combined_first_drops_half`
* `ZS.Props.C04_combined_table`
* `ZS.Props.C04_ordinary_first`
* `ZS.Props.C04_table_rows`
* `ZS.Props.C05_chain`
* `ZS.Props.C05_chain_exact`
* `ZS.Props.C11_confinement`
* `ZS.Props.C11_protected_types`
* `ZS.Props.C12_confinement`
* `ZS.Props.C12_necessary`
* `ZS.Props.C13_exact`
* `ZS.Props.C13_exact_c`
* `ZS.Props.C13_mediation_c`
* `ZS.Props.C13_mediation_py`
* `ZS.Props.C13_py_toctou`
* `ZS.Props.C14_denied_c`
* `ZS.Props.C14_denied_getattr_py`
* `ZS.Props.C14_denied_py`
* `ZS.Props.C14_nothing_done`
* `ZS.Props.C14_state_unchanged`
* `ZS.Props.C15_exact`
* `ZS.Props.C15_py_exploit`
* `ZS.Props.C15_py_slots`
* `ZS.Props.C15_read_irrelevant`
* `ZS.Props.C15_read_not_necessary`
* `ZS.Props.C15_read_not_sufficient`
* `ZS.Props.C15_success`
* `ZS.Props.C16_py_typeError`
* `ZS.Props.C16_refused_c`
* `ZS.Props.C16_refused_py`
* `ZS.Props.C16_text_c`
* `ZS.Props.C16_text_py`
* `ZS.Props.C17_c`
* `ZS.Props.C17_py_repoints`
* `ZS.Props.C17_same_iff`
* `ZS.Props.C17_stable`
* `ZS.Props.C18_binary`
* `ZS.Props.C18_pow`
* `ZS.Props.C19_agree`
* `ZS.Props.C19_checks_agree`
* `ZS.Props.C19_exceptions`
* `ZS.Props.C19_getattr`
* `ZS.Props.C19_unchecked`
* `ZS.Props.C21_answers`
* `ZS.Props.C21_canAccess`
* `ZS.Props.C21_canWrite`
* `ZS.Props.C21_no_operation`
* `ZS.Props.C22_every_name`
* `ZS.Props.C22_iter_differs`
* `ZS.Props.C22_iter_undeclared`
* `ZS.Props.C22_operation_c`
* `ZS.Props.C22_predicts`
* `ZS.Props.C23_private_machine`
* `ZS.Props.C24_proxy_operations`
* `ZS.Props.C26_answer`
* `ZS.Props.C27_bookkeeping`
* `ZS.Props.C28_decisions`
* `ZS.Props.C30_frame`
* `ZS.Props.C30_last_define`
* `ZS.Props.C31_after`
* `ZS.Props.C31_contents`
* `ZS.Props.C31_effects`
* `ZS.Props.C31_in_step`
* `ZS.Props.C32_clear_forgets`
* `ZS.Props.C33_names_checker`
* `ZS.Props.C33_names_content`
* `ZS.Props.C33_names_success`
* `ZS.Props.C33_order_irrelevant`
* `ZS.Props.C34_multi`
* `ZS.Props.C34_no_writes`
* `ZS.Props.C34_order_irrelevant`
* `ZS.Props.C35_last_declaration`
* `ZS.Props.C35_succeeds`
* `ZS.Props.C36_by_value`
* `ZS.Props.C36_like_unto`
* `ZS.Props.C36_like_unto_registered`
* `ZS.Props.C37_exact`
* `ZS.Props.C37_frame`
* `ZS.Props.C37_history`
* `ZS.Props.C37_new_class_apart`
* `ZS.Props.C38_effects`
* `ZS.Props.C38_last`
* `ZS.Props.C38_like`
* `ZS.Props.C38_order`
* `ZS.Props.C38_raises`
* `ZS.Props.C38_unmentioned`
* `ZS.Props.C39_module`
* `ZS.Props.C39_module_allow`
* `ZS.Props.C39_names`
* `ZS.Props.C39_unlisted`
* `ZS.Props.C40_defined`
* `ZS.Props.C40_given_registered`
* `ZS.Props.C41_collision`
* `ZS.Props.C41_ids`
* `ZS.Props.C42_check`
* `ZS.Props.C43_assertLocation`
* `ZS.Props.C43_bare`
* `ZS.Props.C43_none_becomes_something`
* `ZS.Props.C43_protected`
* `ZS.Props.C43_proxied`
* `ZS.Props.C43_untrusted`
* `ZS.Props.C44_combined_type_loses`
* `ZS.Props.C44_granted`
* `ZS.Props.C44_nested`
* `ZS.Props.C46_jail`
* `ZS.Props.C46_more_participants`
* `ZS.Props.C46_permission_map`
* `ZS.Props.C46_policy`
* `ZS.Props.C47_combined_log`
* `ZS.Props.C47_transparent`
* `ZS.Props.C48_attribute`
* `ZS.Props.C48_no_writes`
* `ZS.Props.C48_operations`
* `ZS.Props.C48_own_reads`
* `ZS.Props.C48_read_through`
* `ZS.Props.C49_constants`
* `ZS.Props.C49_mutators`
* `ZS.Props.C49_reads`
* `ZS.Props.C51_check`
* `ZS.Props.C51_paranoid`
* `ZS.Props.C53_only_name`
* `ZS.Props.C53_other_modules`
* `ZS.Props.C54_any_checker`
* `ZS.Props.C54_default_names`
* `ZS.Props.C54_monotone`
* `ZS.Props.C54_nothing_declared`
* `ZS.Props.C55_configuration`
* `ZS.Props.C57_fields_ints`
* `ZS.Props.C57_fields_objects`
* `ZS.Props.C57_ints`
* `ZS.Props.C57_leak`
* `ZS.Props.C57_objects`
* `ZS.Props.C58_dangling`
* `ZS.Props.C58_delitem`
* `ZS.Props.C58_ints`
* `ZS.Props.C58_objects`
* `ZS.Props.C58_unencodable`
* `ZS.Props.C59_hash`
* `ZS.Props.C59_ints`
* `ZS.Props.C59_objects`
* `ZS.Props.C60_hidden_names`
* `ZS.Props.C60_open_names`
* `ZS.Props.C60_operation`
* `ZS.Props.C60_program`
* `ZS.Props.C60_questions`
* `ZS.Props.C61_boot`
* `ZS.Props.C61_deeds`
* `ZS.Props.C61_methods`
* `ZS.Props.C61_namesake`
* `ZS.Props.C61_population`
* `ZS.Props.C61_prison`
* `ZS.Props.C61_send`
* `ZS.Props.C61_valhalla`
* `ZS.Props.C63_check`
* `ZS.Props.C63_check_int`
* `ZS.Props.C63_check_setattr`
* `ZS.Props.C63_getChecker`
* `ZS.Props.C63_getObject`
* `ZS.Props.C63_ints`
* `ZS.Props.C63_objects`
* `ZS.Props.C63_permission_id`
* `ZS.Props.C63_proxy`
* `ZS.Props.C63_select`
* `ZS.Props.C63_setattr_permission_id`
* `ZS.Props.C64_check`
* `ZS.Props.C64_index`
* `ZS.Props.C64_ints`
* `ZS.Props.C64_objects`
* `ZS.Props.C64_passive`
* `ZS.Props.C65_objects`
* `ZS.Props.C66_carried_out`
* `ZS.Props.C66_configured`
* `ZS.Props.C66_py`
* `ZS.Props.C67_alive`
* `ZS.Props.C67_collected`
* `ZS.Props.C67_counts`
* `ZS.Props.C67_full`
* `ZS.Props.C67_init_leaks`
* `ZS.Props.C67_reachable_stays`
* `ZS.Props.C67_referrers`
* `ZS.Props.C68_carried_out`
* `ZS.Props.C68_conflict`
* `ZS.Props.C68_declared`
* `ZS.Props.C68_effects`
* `ZS.Props.C68_order_free`
* `ZS.Props.C68_permissions`
* `ZS.Props.C68_permitted`
* `ZS.Props.C68_policy`
* `ZS.Props.C68_shipped`
* `ZS.Props.C68_unmentioned`
* `ZS.Props.C68_wrong`
* `ZS.Props.C69_always_compared`
* `ZS.Props.C69_handed_over`
* `ZS.Props.C69_together`
* `ZS.Props.C70_by_name`
* `ZS.Props.C70_nothing_done`
* `ZS.Props.C70_public`
* `ZS.Props.C70_refused`
* `ZS.Props.C70_undeclared`
* `ZS.Props.C71_between`
* `ZS.Props.C71_justified`
* `ZS.Props.C71_moved`
* `ZS.Props.C71_steady`
* `ZS.Props.C71_undisturbed`
* `ZS.Props.C72_carried_out`
* `ZS.Props.C72_configured`
* `ZS.Props.C72_slots`
* `ZS.Props.C73_imports`
* `ZS.Props.C73_public_everywhere`
* `ZS.Props.C74_checker_attributes`
* `ZS.Props.C74_checker_methods`
* `ZS.Props.C74_checker_slots`
* `ZS.Props.C74_ints`
* `ZS.Props.C74_length_hint`
* `ZS.Props.C74_mediated_ints`
* `ZS.Props.C74_mediated_objects`
* `ZS.Props.C74_objects`
* `ZS.Props.C74_safe_ints`
* `ZS.Props.C74_safe_objects`
* `ZS.Props.C75_carried_out`
* `ZS.Props.C75_configured`
* `ZS.Props.C75_held`
* `ZS.Props.C76_ProxyFactory`
* `ZS.Props.C76_ProxyFactory1`
* `ZS.Props.C76_Sequence`
* `ZS.Props.C76_canAccess`
* `ZS.Props.C76_canWrite`
* `ZS.Props.C76_check`
* `ZS.Props.C76_check_setattr`
* `ZS.Props.C76_combined_check`
* `ZS.Props.C76_combined_check_setattr`
* `ZS.Props.C76_defineChecker`
* `ZS.Props.C76_getCheckerForInstancesOf`
* `ZS.Props.C76_instanceChecker`
* `ZS.Props.C76_moduleChecker`
* `ZS.Props.C76_permission_id`
* `ZS.Props.C76_proxy`
* `ZS.Props.C76_selectChecker`
* `ZS.Props.C76_setattr_permission_id`
* `ZS.Props.C76_undefineChecker`
* `ZS.Props.C77_add`
* `ZS.Props.C77_checkPermission`
* `ZS.Props.C77_clear`
* `ZS.Props.C77_endInteraction`
* `ZS.Props.C77_getInteraction`
* `ZS.Props.C77_getSecurityPolicy`
* `ZS.Props.C77_init`
* `ZS.Props.C77_newInteraction`
* `ZS.Props.C77_newIx`
* `ZS.Props.C77_paranoid`
* `ZS.Props.C77_permissive`
* `ZS.Props.C77_queryInteraction`
* `ZS.Props.C77_remove`
* `ZS.Props.C77_restoreInteraction`
* `ZS.Props.C77_setSecurityPolicy`
* `ZS.Props.C78_bool`
* `ZS.Props.C78_carried_out`
* `ZS.Props.C78_check_name`
* `ZS.Props.C78_check_name1`
* `ZS.Props.C78_check_name_inplace`
* `ZS.Props.C78_compare`
* `ZS.Props.C78_configured`
* `ZS.Props.C78_contains`
* `ZS.Props.C78_delattr`
* `ZS.Props.C78_getCheckerPy`
* `ZS.Props.C78_getObjectPy`
* `ZS.Props.C78_getattr`
* `ZS.Props.C78_getattribute`
* `ZS.Props.C78_hash`
* `ZS.Props.C78_inplace`
* `ZS.Props.C78_length_hint`
* `ZS.Props.C78_loops`
* `ZS.Props.C78_ops`
* `ZS.Props.C78_repr`
* `ZS.Props.C78_session`
* `ZS.Props.C78_setattr`
* `ZS.Props.C78_source`
* `ZS.Props.C78_source_dropped`
* `ZS.Props.C78_source_state`
* `ZS.Props.C78_str`
* `ZS.Props.C78_wrapper`
* `ZS.Props.C79_Checker_init`
* `ZS.Props.C79_Checker_init1`
* `ZS.Props.C79_Checker_init_get`
* `ZS.Props.C79_Checker_init_set`
* `ZS.Props.C79_Combined_init`
* `ZS.Props.C79_InterfaceChecker`
* `ZS.Props.C79_MultiChecker`
* `ZS.Props.C79_NamesChecker`
* `ZS.Props.C79_NamesChecker_clash`
* `ZS.Props.C79_basicClear`
* `ZS.Props.C79_basicDel`
* `ZS.Props.C79_basicSet`
* `ZS.Props.C79_basicUpdate`
* `ZS.Props.C79_clear`
* `ZS.Props.C79_protectLikeUnto`
* `ZS.Props.C79_protectModule`
* `ZS.Props.C79_protectName`
* `ZS.Props.C79_protectSetAttribute`
* `ZS.Props.C80_action`
* `ZS.Props.C80_carried_out`
* `ZS.Props.C80_configure`
* `ZS.Props.C80_configured`
* `ZS.Props.C80_directive`
* `ZS.Props.C80_discriminators`
* `ZS.Props.C80_reading`
* `ZS.Props.C81_PermissionIdsVocabulary`
* `ZS.Props.C81_Permission_init`
* `ZS.Props.C81_PermissionsVocabulary`
* `ZS.Props.C81_allPermissions`
* `ZS.Props.C81_call`
* `ZS.Props.C81_carried_out`
* `ZS.Props.C81_checkPermission`
* `ZS.Props.C81_conflicts`
* `ZS.Props.C81_element`
* `ZS.Props.C81_fromUnicode`
* `ZS.Props.C81_load`
* `ZS.Props.C81_permission`
* `ZS.Props.C81_reading`
* `ZS.Props.C81_redefine`
* `ZS.Props.C81_securityPolicy`
* `ZS.Props.C81_shipped`
* `ZS.Props.C81_validate`
* `ZS.Props.C82_module_factory`
* `ZS.Props.C82_tables`
* `ZS.Props.C83_addCheckerPublic`
* `ZS.Props.C83_assertLocation`
* `ZS.Props.C83_create`
* `ZS.Props.C83_descriptor_class`
* `ZS.Props.C83_descriptor_get`
* `ZS.Props.C83_descriptor_set`
* `ZS.Props.C83_factory_init`
* `ZS.Props.C83_interaction`
* `ZS.Props.C83_participation`
* `ZS.Props.C83_principal`
* `ZS.Props.C83_principal_default`
* `ZS.Props.C83_protected`
* `ZS.Props.C83_trusted`
* `ZS.Props.C83_trusted_bare`
* `ZS.Props.C83_trusted_protects`
* `ZS.Props.C83_trusted_proxied`
* `ZS.Props.C83_unprotected`
* `ZS.Props.C83_untrusted`
* `ZS.Props.C83_untrusted_spec`
* `ZS.Props.C84_combined_check`
* `ZS.Props.C84_combined_check_setattr`
* `ZS.Props.C84_lines`
* `ZS.Props.C84_log`
* `ZS.Props.C84_log_default`
* `ZS.Props.C84_mixin`
* `ZS.Props.C84_source`
* `ZS.Props.C84_source_py`
* `ZS.Props.C84_transparent`
* `ZS.Props.C85_factory`
* `ZS.Props.C85_factory_default`
* `ZS.Props.C85_global`
* `ZS.Props.C85_global_module`
* `ZS.Props.C85_global_reduce`
* `ZS.Props.C85_global_repr`
* `ZS.Props.C85_init`
* `ZS.Props.C85_isinstance`
* `ZS.Props.C85_new`
* `ZS.Props.C85_proxy`
* `ZS.Props.C85_supplement`
* `ZS.Props.C85_testItems`
* `ZS.Props.C85_testItems_bare`
* `ZS.Props.C86_arguments`
* `ZS.Props.C86_carried_out`
* `ZS.Props.C86_load`
* `ZS.Props.C86_module_interface`
* `ZS.Props.C86_reading`
* `ZS.Props.C86_refused`
* `ZS.Props.C86_shipped`
* `ZS.Props.C86_signatures`
* `ZS.Props.C87_binop`
* `ZS.Props.C87_bool`
* `ZS.Props.C87_call`
* `ZS.Props.C87_call_float`
* `ZS.Props.C87_call_int`
* `ZS.Props.C87_call_ipow`
* `ZS.Props.C87_carried_out`
* `ZS.Props.C87_check`
* `ZS.Props.C87_check1`
* `ZS.Props.C87_check2`
* `ZS.Props.C87_check2i`
* `ZS.Props.C87_checkPermission`
* `ZS.Props.C87_check_int`
* `ZS.Props.C87_check_int_null`
* `ZS.Props.C87_check_method`
* `ZS.Props.C87_check_setattr`
* `ZS.Props.C87_clear`
* `ZS.Props.C87_clear_proxy`
* `ZS.Props.C87_configured`
* `ZS.Props.C87_contains`
* `ZS.Props.C87_default_repr`
* `ZS.Props.C87_getChecker`
* `ZS.Props.C87_getObject`
* `ZS.Props.C87_get_get_permissions`
* `ZS.Props.C87_get_set_permissions`
* `ZS.Props.C87_getattro`
* `ZS.Props.C87_getitem`
* `ZS.Props.C87_hash`
* `ZS.Props.C87_igetitem`
* `ZS.Props.C87_init`
* `ZS.Props.C87_init_proxy`
* `ZS.Props.C87_inplace`
* `ZS.Props.C87_isetitem`
* `ZS.Props.C87_iter`
* `ZS.Props.C87_iternext`
* `ZS.Props.C87_length`
* `ZS.Props.C87_length_hint`
* `ZS.Props.C87_mediated_numbers`
* `ZS.Props.C87_mediated_objects`
* `ZS.Props.C87_new`
* `ZS.Props.C87_numbers`
* `ZS.Props.C87_objects`
* `ZS.Props.C87_permission_id`
* `ZS.Props.C87_pow`
* `ZS.Props.C87_proxy`
* `ZS.Props.C87_repr`
* `ZS.Props.C87_richcompare`
* `ZS.Props.C87_safe_numbers`
* `ZS.Props.C87_safe_objects`
* `ZS.Props.C87_selectChecker`
* `ZS.Props.C87_sessions`
* `ZS.Props.C87_setattr_permission_id`
* `ZS.Props.C87_setattro`
* `ZS.Props.C87_setitem`
* `ZS.Props.C87_str`
* `ZS.Props.C87_unop`
* `ZS.Props.C88_init_checker`
* `ZS.Props.C88_init_proxy`
* `ZS.Props.C88_overlooked`
* `ZS.Props.C88_traverse`
* `ZS.Props.C90_methods`
* `ZS.Props.C90_names`
* `ZS.Props.C90_undeclared`
* `ZS.Props.C91_database`
* `ZS.Props.C91_enforced`
* `ZS.Props.C91_guarded`
* `ZS.Props.C91_map`
* `ZS.Props.C91_module`
* `ZS.Props.C91_policy`
* `ZS.Props.C91_small`
* `ZS.Props.C91_wire`
* `ZS.Props.C91_wire_again`
* `ZS.Props.C92_act`
* `ZS.Props.C92_actions`
* `ZS.Props.C92_add`
* `ZS.Props.C92_addAgent`
* `ZS.Props.C92_books`
* `ZS.Props.C92_joined`
* `ZS.Props.C92_moved`
* `ZS.Props.C92_pastures`
* `ZS.Props.C92_prison`
* `ZS.Props.C92_send`
* `ZS.Props.C92_setup`
* `ZS.Props.C92_transport`
* `ZS.Props.C92_travel`
* `ZS.Props.C92_travels`
* `ZS.Props.C93_addService`
* `ZS.Props.C93_agent`
* `ZS.Props.C93_boot`
* `ZS.Props.C93_loops`
* `ZS.Props.C93_module`
* `ZS.Props.C93_sandbox`
* `ZS.Props.C93_start`
* `ZS.Props.C94_closed`
* `ZS.Props.C94_history`
* `ZS.Props.C94_quiet`
* `ZS.Props.C94_running`
* `ZS.Props.C94_turn`
* `ZS.Props.check_pure`
* `ZS.Props.free_or_first`
