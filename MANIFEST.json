{
 "claims": [
  {
   "property": "C01",
   "status": "proved",
   "theorems": [
    "ZS.Props.C01_read_check_table",
    "ZS.Props.C01_granted_iff",
    "ZS.Props.C01_refusals"
   ],
   "note": ""
  },
  {
   "property": "C02",
   "status": "proved",
   "theorems": [
    "ZS.Props.C02_write_check_table",
    "ZS.Props.C02_write_granted_iff",
    "ZS.Props.C02_write_default_deny"
   ],
   "note": ""
  },
  {
   "property": "C03",
   "status": "proved",
   "theorems": [
    "ZS.Props.C03_checkers_agree",
    "ZS.Props.C03_hasattr_agree",
    "ZS.Props.C03_provisos_necessary"
   ],
   "note": "agreement under the stated provisos; C03_provisos_necessary shows they cannot be dropped"
  },
  {
   "property": "C04",
   "status": "proved",
   "theorems": [
    "ZS.Props.combine_spec",
    "ZS.Props.C04_combined_table",
    "ZS.Props.C04_combinable",
    "ZS.Props.C04_ordinary_first",
    "ZS.Props.C04_table_rows",
    "ZS.Props.C04_combined_first_drops_half"
   ],
   "note": "C04_combined_first_drops_half shows that the second half of a combined first checker is really lost."
  },
  {
   "property": "C05",
   "status": "proved",
   "theorems": [
    "ZS.Props.C05_chain",
    "ZS.Props.C05_chain_exact"
   ],
   "note": ""
  },
  {
   "property": "C06",
   "status": "proved",
   "theorems": [
    "ZS.Props.C06_proxy_spec",
    "ZS.Props.C06_result",
    "ZS.Props.C06_implementations_differ"
   ],
   "note": "C06_implementations_differ is the witness for the overlay difference"
  },
  {
   "property": "C07",
   "status": "proved",
   "theorems": [
    "ZS.Props.C07_select_sound",
    "ZS.Props.C07_select_complete",
    "ZS.Props.C07_none_or_checker",
    "ZS.Props.C07_direct",
    "ZS.Props.C07_by_type_only"
   ],
   "note": ""
  },
  {
   "property": "C08",
   "status": "proved",
   "theorems": [
    "ZS.Props.C08_select_agree"
   ],
   "note": ""
  },
  {
   "property": "C09",
   "status": "proved",
   "theorems": [
    "ZS.Props.C09_factory_spec",
    "ZS.Props.C09_result",
    "ZS.Props.C09_idempotent",
    "ZS.Props.C09_idempotent_bare",
    "ZS.Props.C09_no_swap"
   ],
   "note": ""
  },
  {
   "property": "C10",
   "status": "proved",
   "theorems": [
    "ZS.Props.C10_round_trip",
    "ZS.Props.C10_identity"
   ],
   "note": ""
  },
  {
   "property": "C11",
   "status": "proved",
   "theorems": [
    "ZS.Props.C11_confinement",
    "ZS.Props.C11_protected_types"
   ],
   "note": "Any number of operations interleaved with arbitrary changes of state by others; hypothesis OwnCheckers: application code hands out no proxies with foreign checkers and __Security_checker__ is a Checker or None. Exceptions (which carry the raw object) are not normal returns and out of scope."
  },
  {
   "property": "C12",
   "status": "proved",
   "theorems": [
    "ZS.Props.C12_confinement",
    "ZS.Props.C12_necessary"
   ],
   "note": "C12_necessary proves that each of the three exclusions breaks the claim."
  },
  {
   "property": "C13",
   "status": "proved",
   "theorems": [
    "ZS.Props.C13_mediation_c",
    "ZS.Props.C13_mediation_py",
    "ZS.Props.C13_exact_c",
    "ZS.Props.C13_exact",
    "ZS.Props.C13_py_toctou"
   ],
   "note": "Compiled proxies without conditions; pure-Python proxies provided application code does not re-assign the proxy's private slots during the check (C13_py_toctou shows that this is necessary)."
  },
  {
   "property": "C14",
   "status": "proved",
   "theorems": [
    "ZS.Props.C14_nothing_done",
    "ZS.Props.C14_denied_c",
    "ZS.Props.C14_denied_py",
    "ZS.Props.C14_denied_getattr_py",
    "ZS.Props.C14_state_unchanged",
    "ZS.Props.check_pure"
   ],
   "note": "str/repr are the subject of C16; pure-Python attribute reads repeat the check after an AttributeError-type refusal (C14_denied_getattr_py)."
  },
  {
   "property": "C15",
   "status": "proved",
   "theorems": [
    "ZS.Props.C15_exact",
    "ZS.Props.C15_success",
    "ZS.Props.C15_read_irrelevant",
    "ZS.Props.C15_read_not_sufficient",
    "ZS.Props.C15_read_not_necessary",
    "ZS.Props.C15_py_slots",
    "ZS.Props.C15_py_exploit"
   ],
   "note": "Pure-Python private slot names are excluded from the positive statements; C15_py_slots and C15_py_exploit prove that the claim fails for them."
  },
  {
   "property": "C16",
   "status": "proved",
   "theorems": [
    "ZS.Props.C16_refused_c",
    "ZS.Props.C16_text_c",
    "ZS.Props.C16_refused_py",
    "ZS.Props.C16_text_py",
    "ZS.Props.C16_py_typeError"
   ],
   "note": "The text is returned if the class has a __module__ and a __name__ that are strings (C16_text_c, C16_text_py); otherwise what asking for them raises is passed on."
  },
  {
   "property": "C17",
   "status": "proved",
   "theorems": [
    "ZS.Props.C17_c",
    "ZS.Props.C17_same_iff",
    "ZS.Props.C17_py_repoints",
    "ZS.Props.C17_stable"
   ],
   "note": "C17_py_repoints proves that pure-Python proxies are re-pointed by in-place operators."
  },
  {
   "property": "C18",
   "status": "proved",
   "theorems": [
    "ZS.Props.C18_binary",
    "ZS.Props.C18_pow"
   ],
   "note": "Three-argument pow with only the modulus proxied is compiled-only (the pure-Python method does not exist)."
  },
  {
   "property": "C19",
   "status": "proved",
   "theorems": [
    "ZS.Props.C19_agree",
    "ZS.Props.C19_unchecked",
    "ZS.Props.C19_checks_agree",
    "ZS.Props.C19_proxies_agree",
    "ZS.Props.C19_constants",
    "ZS.Props.C19_getattr",
    "ZS.Props.C19_exceptions"
   ],
   "note": "Agreement of checks and of result protection is a hypothesis of C19_agree; C19_checks_agree, C19_proxies_agree and C19_constants give sufficient conditions. Attribute reads: C19_getattr."
  },
  {
   "property": "C20",
   "status": "proved",
   "theorems": [
    "ZS.Props.C20_isinstance"
   ],
   "note": ""
  },
  {
   "property": "C21",
   "status": "proved",
   "theorems": [
    "ZS.Props.C21_canAccess",
    "ZS.Props.C21_canWrite",
    "ZS.Props.C21_answers",
    "ZS.Props.C21_no_operation"
   ],
   "note": "canAccess and canWrite against their tables, for every result of the checks; neither performs a raw operation on the object."
  },
  {
   "property": "C22",
   "status": "proved",
   "theorems": [
    "ZS.Props.C22_predicts",
    "ZS.Props.C22_operation_c",
    "ZS.Props.C22_every_name",
    "ZS.Props.C22_iter_undeclared",
    "ZS.Props.C22_iter_differs"
   ],
   "note": "For ordinary checkers and policies that do not distinguish an object from its proxy (C22_every_name also assumes that application code cannot see the model's record of events)."
  },
  {
   "property": "C23",
   "status": "proved",
   "theorems": [
    "ZS.Props.C23_private_machine",
    "ZS.Props.C23_machine_determined"
   ],
   "note": "calls are atomic steps of the interleaving; foreign policies are assumed not to switch interactions themselves"
  },
  {
   "property": "C24",
   "status": "proved",
   "theorems": [
    "ZS.Props.C24_other_threads",
    "ZS.Props.C24_proxy_operations"
   ],
   "note": ""
  },
  {
   "property": "C25",
   "status": "proved",
   "theorems": [
    "ZS.Props.C25_laws"
   ],
   "note": ""
  },
  {
   "property": "C26",
   "status": "proved",
   "theorems": [
    "ZS.Props.C26_entry_point",
    "ZS.Props.C26_answer",
    "ZS.Props.C26_string_not_special"
   ],
   "note": ""
  },
  {
   "property": "C27",
   "status": "proved",
   "theorems": [
    "ZS.Props.C27_bookkeeping",
    "ZS.Props.C27_add_remove"
   ],
   "note": ""
  },
  {
   "property": "C28",
   "status": "proved",
   "theorems": [
    "ZS.Props.C28_decisions",
    "ZS.Props.C28_monotone"
   ],
   "note": ""
  },
  {
   "property": "C29",
   "status": "proved",
   "theorems": [
    "ZS.Props.C29_thread_unchanged",
    "ZS.Props.C29_exact",
    "ZS.Props.free_or_first"
   ],
   "note": ""
  },
  {
   "property": "C30",
   "status": "proved",
   "theorems": [
    "ZS.Props.C30_calls",
    "ZS.Props.C30_last_define",
    "ZS.Props.C30_frame"
   ],
   "note": ""
  },
  {
   "property": "C31",
   "status": "proved",
   "theorems": [
    "ZS.Props.C31_in_step",
    "ZS.Props.C31_after",
    "ZS.Props.C31_effects",
    "ZS.Props.C31_broken_by_inherited",
    "ZS.Props.C31_outcomes",
    "ZS.Props.C31_contents"
   ],
   "note": "Exact: in step iff no such operation occurs; C31_broken_by_inherited shows concrete cases; C31_outcomes and C31_contents: which operations raise, and what the table holds after each."
  },
  {
   "property": "C32",
   "status": "proved",
   "theorems": [
    "ZS.Props.C32_clear",
    "ZS.Props.C32_clear_forgets"
   ],
   "note": ""
  },
  {
   "property": "C33",
   "status": "proved",
   "theorems": [
    "ZS.Props.C33_names_success",
    "ZS.Props.C33_names_content",
    "ZS.Props.C33_order_irrelevant",
    "ZS.Props.C33_names_checker",
    "ZS.Props.C33_identity_not_equality"
   ],
   "note": ""
  },
  {
   "property": "C34",
   "status": "proved",
   "theorems": [
    "ZS.Props.C34_multi",
    "ZS.Props.C34_order_irrelevant",
    "ZS.Props.C34_no_writes"
   ],
   "note": ""
  },
  {
   "property": "C35",
   "status": "proved",
   "theorems": [
    "ZS.Props.C35_last_declaration",
    "ZS.Props.last_or_never",
    "ZS.Props.C35_succeeds"
   ],
   "note": ""
  },
  {
   "property": "C36",
   "status": "proved",
   "theorems": [
    "ZS.Props.C36_like_unto",
    "ZS.Props.C36_by_value",
    "ZS.Props.C36_no_checker",
    "ZS.Props.C36_like_unto_registered"
   ],
   "note": ""
  },
  {
   "property": "C37",
   "status": "proved",
   "theorems": [
    "ZS.Props.C37_exact",
    "ZS.Props.C37_frame",
    "ZS.Props.C37_history",
    "ZS.Props.C37_new_class_apart",
    "ZS.Props.C37_shared_checker"
   ],
   "note": ""
  },
  {
   "property": "C38",
   "status": "proved",
   "theorems": [
    "ZS.Props.C38_raises",
    "ZS.Props.C38_effects",
    "ZS.Props.C38_last",
    "ZS.Props.C38_unmentioned",
    "ZS.Props.C38_like",
    "ZS.Props.C38_order"
   ],
   "note": "Assumes the classes declared on are unregistered or have a Checker with dictionaries shared with no other class (C37_shared_checker shows what happens otherwise). Conflict detection belongs to zope.configuration; C38_order covers conflict-free configurations. ClassDirective.factory is not modelled."
  },
  {
   "property": "C39",
   "status": "proved",
   "theorems": [
    "ZS.Props.C39_names",
    "ZS.Props.C39_module",
    "ZS.Props.C39_module_allow",
    "ZS.Props.C39_unlisted"
   ],
   "note": "Same assumption on the modules as C38 on classes."
  },
  {
   "property": "C40",
   "status": "proved",
   "theorems": [
    "ZS.Props.C40_translation",
    "ZS.Props.C40_other_ids",
    "ZS.Props.C40_redefined_id",
    "ZS.Props.C40_one_step",
    "ZS.Props.C40_second_redefinition",
    "ZS.Props.C40_public_redefinable",
    "ZS.Props.C40_defined",
    "ZS.Props.C40_given_registered"
   ],
   "note": "zope.schema's Id (stripping, well-formedness) and zope.configuration's sorting by order are trusted; one configuration context."
  },
  {
   "property": "C41",
   "status": "proved",
   "theorems": [
    "ZS.Props.C41_ids",
    "ZS.Props.C41_permissions",
    "ZS.Props.C41_collision"
   ],
   "note": "permission.py:65-107; zope.component as the list of registered utilities, zope.schema's SimpleVocabulary as a uniqueness check, token escaping as a parameter."
  },
  {
   "property": "C42",
   "status": "proved",
   "theorems": [
    "ZS.Props.C42_check",
    "ZS.Props.C42_all"
   ],
   "note": "permission.py:45-62; zope.component as the list of registered utilities with distinct names."
  },
  {
   "property": "C43",
   "status": "proved",
   "theorems": [
    "ZS.Props.C43_assertLocation",
    "ZS.Props.C43_proxied",
    "ZS.Props.C43_bare",
    "ZS.Props.C43_untrusted",
    "ZS.Props.C43_protected",
    "ZS.Props.C43_none_becomes_something"
   ],
   "note": "adapter.py:24-136; ILocation.providedBy is taken from the world. The state transition of each factory is characterised completely, including failures."
  },
  {
   "property": "C44",
   "status": "proved",
   "theorems": [
    "ZS.Props.C44_around_proxy",
    "ZS.Props.C44_around_plain",
    "ZS.Props.C44_nested",
    "ZS.Props.C44_granted",
    "ZS.Props.C44_combined_type_loses"
   ],
   "note": "Exact law for decorators around a proxy and around a plain object, unfolded for any number of decorators. C44_combined_type_loses: the second half of a type's CombinedChecker is dropped."
  },
  {
   "property": "C45",
   "status": "proved",
   "theorems": [
    "ZS.Props.C45_active",
    "ZS.Props.C45_installs",
    "ZS.Props.C45_falsy_refused",
    "ZS.Props.C45_policy_refuses"
   ],
   "note": "testing.py:44-104; exact for built-in policies; for a foreign policy that raises the body is not run."
  },
  {
   "property": "C46",
   "status": "proved",
   "theorems": [
    "ZS.Props.C46_policy",
    "ZS.Props.C46_unknown_home",
    "ZS.Props.C46_other_attribute",
    "ZS.Props.C46_more_participants",
    "ZS.Props.C46_jail",
    "ZS.Props.C46_permission_map"
   ],
   "note": "examples/sandbox_security.py:55-130, from the id of the object's home on; tables as mappings of tokens to lists. A home named like another class attribute makes the check raise AttributeError (C46_other_attribute)."
  },
  {
   "property": "C47",
   "status": "proved",
   "theorems": [
    "ZS.Props.C47_transparent_one",
    "ZS.Props.C47_transparent",
    "ZS.Props.C47_log",
    "ZS.Props.C47_repr_replaces",
    "ZS.Props.C47_repr_denies",
    "ZS.Props.C47_combined_log"
   ],
   "note": "checker.py:591-702, log kept as a list of lines beside the state; writing to the log file is assumed to succeed."
  },
  {
   "property": "C48",
   "status": "proved",
   "theorems": [
    "ZS.Props.C48_identity",
    "ZS.Props.C48_read_through",
    "ZS.Props.C48_own_reads",
    "ZS.Props.C48_no_writes",
    "ZS.Props.C48_operations",
    "ZS.Props.C48_attribute"
   ],
   "note": "identity, own readable names, no writes; pure-Python slots _wrapped/_checker excepted (C15)"
  },
  {
   "property": "C49",
   "status": "proved",
   "theorems": [
    "ZS.Props.C49_reads",
    "ZS.Props.C49_mutators",
    "ZS.Props.C49_unprotected",
    "ZS.Props.C49_constants"
   ],
   "note": "names listed literally in Spec/Defaults.lean"
  },
  {
   "property": "C50",
   "status": "proved",
   "theorems": [
    "ZS.Props.C50_some_succeeds",
    "ZS.Props.C50_calls_kept",
    "ZS.Props.C50_late_caller",
    "ZS.Props.C50_two_steps",
    "ZS.Props.C50_undisturbed",
    "ZS.Props.C50_two_succeed"
   ],
   "note": "Small-step model of checker.py:484-486; the steps are single dictionary operations. C50_undisturbed links it with the model of the whole function."
  },
  {
   "property": "C51",
   "status": "proved",
   "theorems": [
    "ZS.Props.C51_check",
    "ZS.Props.C51_paranoid"
   ],
   "note": "Hypotheses: application code does not change the security configuration during the operation; exceptions for __iter__ stated in the theorem."
  },
  {
   "property": "C52",
   "status": "proved",
   "theorems": [
    "ZS.Props.C52_set_returns",
    "ZS.Props.C52_existing_unaffected",
    "ZS.Props.C52_kind_fixed",
    "ZS.Props.C29_exact",
    "ZS.Props.C52_decisions_kept"
   ],
   "note": "that later interactions follow the new policy is C29_exact"
  },
  {
   "property": "C53",
   "status": "proved",
   "theorems": [
    "ZS.Props.C53_module_checker",
    "ZS.Props.C53_only_name",
    "ZS.Props.C53_proxied",
    "ZS.Props.C53_other_modules"
   ],
   "note": ""
  },
  {
   "property": "C54",
   "status": "proved",
   "theorems": [
    "ZS.Props.C54_monotone",
    "ZS.Props.C54_nothing_declared",
    "ZS.Props.C54_default_names",
    "ZS.Props.C54_any_checker"
   ],
   "note": "foreign policies must not themselves read the permission dictionaries"
  },
  {
   "property": "C55",
   "status": "proved",
   "theorems": [
    "ZS.Props.C55_configuration"
   ],
   "note": ""
  },
  {
   "property": "C56",
   "status": "proved",
   "theorems": [
    "ZS.Props.C56_nothing_invented",
    "ZS.Props.C56_calls_kept",
    "ZS.Props.C56_with_checker",
    "ZS.Props.C56_lost"
   ],
   "note": "Small-step model of protectclass.py:24-39 for one class; the steps are single dictionary operations."
  },
  {
   "property": "C57",
   "status": "proved",
   "theorems": [
    "ZS.Props.C57_objects",
    "ZS.Props.C57_ints",
    "ZS.Props.C57_fields_objects",
    "ZS.Props.C57_fields_ints",
    "ZS.Props.C57_init",
    "ZS.Props.C57_clear",
    "ZS.Props.C57_leak",
    "ZS.Props.C57_none"
   ],
   "note": "For every entry point of both extension modules and every behaviour of the called code. C57_leak counts the bytes objects left behind per check, C57_none and C57_init are the other two leaks."
  },
  {
   "property": "C58",
   "status": "proved",
   "theorems": [
    "ZS.Props.C58_objects",
    "ZS.Props.C58_ints",
    "ZS.Props.C58_unencodable",
    "ZS.Props.C58_dangling",
    "ZS.Props.C58_delitem"
   ],
   "note": "The exceptions are real: C58_unencodable, C58_dangling, C58_delitem exhibit the faults."
  },
  {
   "property": "C59",
   "status": "proved",
   "theorems": [
    "ZS.Props.C59_objects",
    "ZS.Props.C59_ints",
    "ZS.Props.C59_misread",
    "ZS.Props.C59_hash"
   ],
   "note": "C59_misread shows the exception. C59_hash is proxy_hash, for which only -1 means failure."
  },
  {
   "property": "C60",
   "status": "proved",
   "theorems": [
    "ZS.Props.C60_questions",
    "ZS.Props.C60_operation",
    "ZS.Props.C60_program",
    "ZS.Props.C60_hidden_names",
    "ZS.Props.C60_open_names"
   ],
   "note": "C60_operation and C60_program for any refused operations; C60_hidden_names for names nobody may use; C60_open_names shows that the exceptions are real. The pure-Python hypothesis NotRepointed is that of C13."
  },
  {
   "property": "C61",
   "status": "proved",
   "theorems": [
    "ZS.Props.C61_methods",
    "ZS.Props.C61_send",
    "ZS.Props.C61_population",
    "ZS.Props.C61_prison",
    "ZS.Props.C61_valhalla",
    "ZS.Props.C61_boot",
    "ZS.Props.C61_freed",
    "ZS.Props.C61_namesake",
    "ZS.Props.C61_deeds",
    "ZS.Props.C61_misspelt"
   ],
   "note": "C61_population, C61_send (exact), C61_methods and C61_deeds (exact tables), C61_prison, C61_valhalla by induction over moves; C61_boot shows that the shipped start meets the conditions; C61_freed and C61_namesake show the limits."
  },
  {
   "property": "C62",
   "status": "proved",
   "theorems": [
    "ZS.Props.C62_turn",
    "ZS.Props.C62_stuck",
    "ZS.Props.C62_one_move"
   ],
   "note": "C62_turn is exact for the shipped code; C62_stuck for the state it leaves; C62_one_move for every repaired GreenerPastures."
  },
  {
   "property": "C63",
   "status": "proved",
   "theorems": [
    "ZS.Props.C63_objects",
    "ZS.Props.C63_ints",
    "ZS.Props.C63_check",
    "ZS.Props.C63_check_int",
    "ZS.Props.C63_check_setattr",
    "ZS.Props.C63_permission_id",
    "ZS.Props.C63_setattr_permission_id",
    "ZS.Props.C63_proxy",
    "ZS.Props.C63_select",
    "ZS.Props.C63_getChecker",
    "ZS.Props.C63_getObject"
   ],
   "note": "For every slot of the C proxy type and every function of the C checker type that the models know. Runs that fault are the subject of C58; keyword arguments are not represented."
  },
  {
   "property": "C64",
   "status": "proved",
   "theorems": [
    "ZS.Props.C64_check",
    "ZS.Props.C64_objects",
    "ZS.Props.C64_ints",
    "ZS.Props.C64_index",
    "ZS.Props.C64_unchecked",
    "ZS.Props.C64_passive"
   ],
   "note": "Runs that end without a fault; C58 says when there is none. Other code is any sequence of answers; it does not change the fields of checkers during the run (only Checker.__init__ and the clear function do)."
  },
  {
   "property": "C65",
   "status": "proved",
   "theorems": [
    "ZS.Props.C65_objects",
    "ZS.Props.C65_compare",
    "ZS.Props.C65_proxy"
   ],
   "note": "Supposes that None is not a checker."
  },
  {
   "property": "C66",
   "status": "proved",
   "theorems": [
    "ZS.Props.C66_configured",
    "ZS.Props.C66_last",
    "ZS.Props.C66_undeclared",
    "ZS.Props.C66_carried_out",
    "ZS.Props.C66_py"
   ],
   "note": "Compiled proxies, given Relies (application code changes no declarations, brings no checkers of its own, returns only the registry's proxies) and directives that raise no error and touch no shared checkers. C66_py shows that the claim fails for pure-Python proxies."
  },
  {
   "property": "C67",
   "status": "proved",
   "theorems": [
    "ZS.Props.C67_alive",
    "ZS.Props.C67_counts",
    "ZS.Props.C67_reachable_stays",
    "ZS.Props.C67_collected",
    "ZS.Props.C67_full",
    "ZS.Props.C67_init_leaks",
    "ZS.Props.C67_referrers",
    "ZS.Props.C67_setProxied"
   ],
   "note": "Memory-level model of the collector; setProxiedObject excluded, with a witness. Also records two defects: second __init__ leaks, get_referrers misses checkers."
  },
  {
   "property": "C68",
   "status": "proved",
   "theorems": [
    "ZS.Props.C68_wrong",
    "ZS.Props.C68_conflict",
    "ZS.Props.C68_carried_out",
    "ZS.Props.C68_permissions",
    "ZS.Props.C68_policy",
    "ZS.Props.C68_declared",
    "ZS.Props.C68_unmentioned",
    "ZS.Props.C68_effects",
    "ZS.Props.C68_order_free",
    "ZS.Props.C68_permitted",
    "ZS.Props.C68_shipped"
   ],
   "note": "zope.configuration's contexts, conflict resolution and execution are modelled after its source, which is not in /repo; the XML is a sequence of events"
  },
  {
   "property": "C69",
   "status": "proved",
   "theorems": [
    "ZS.Props.C69_together",
    "ZS.Props.C69_always_compared",
    "ZS.Props.C69_handed_over"
   ],
   "note": "Both implementations. The interpreter's dispatch to reflected methods is the relation Together: which objects may meet, not which method is called."
  },
  {
   "property": "C70",
   "status": "proved",
   "theorems": [
    "ZS.Props.C70_public",
    "ZS.Props.C70_by_name",
    "ZS.Props.C70_refused",
    "ZS.Props.C70_undeclared",
    "ZS.Props.C70_nothing_done"
   ],
   "note": "The pickler is CPython's compiled one (outside the repository), modelled as far as it deals with a proxy."
  },
  {
   "property": "C71",
   "status": "proved",
   "theorems": [
    "ZS.Props.C71_between",
    "ZS.Props.C71_justified",
    "ZS.Props.C71_steady",
    "ZS.Props.C71_moved",
    "ZS.Props.C71_undisturbed"
   ],
   "note": "every access sees a state of its own; foreign checkers are not covered; that an undisturbed check is the check of the rest of the model is C71_undisturbed"
  },
  {
   "property": "C72",
   "status": "proved",
   "theorems": [
    "ZS.Props.C72_configured",
    "ZS.Props.C72_carried_out",
    "ZS.Props.C72_same",
    "ZS.Props.C72_last",
    "ZS.Props.C72_undeclared",
    "ZS.Props.C72_slots"
   ],
   "note": "All operations of pure-Python proxies; the operations that assign or expose the private slots are excluded from the session, each with a witness that it must be."
  },
  {
   "property": "C73",
   "status": "proved",
   "theorems": [
    "ZS.Props.C73_no_half",
    "ZS.Props.C73_one_implementation",
    "ZS.Props.C73_shared",
    "ZS.Props.C73_same_objects",
    "ZS.Props.C73_public",
    "ZS.Props.C73_statics",
    "ZS.Props.C73_operators",
    "ZS.Props.C73_imports",
    "ZS.Props.C73_public_everywhere",
    "ZS.Props.ImportEx.C73_retry",
    "ZS.Props.C73_labels"
   ],
   "note": "All imports, failures and repetitions."
  },
  {
   "property": "C74",
   "status": "proved",
   "theorems": [
    "ZS.Props.C74_objects",
    "ZS.Props.C74_ints",
    "ZS.Props.C74_length_hint",
    "ZS.Props.C74_left",
    "ZS.Props.C74_mediated_objects",
    "ZS.Props.C74_mediated_ints",
    "ZS.Props.C74_checker_methods",
    "ZS.Props.C74_checker_slots",
    "ZS.Props.C74_checker_attributes",
    "ZS.Props.C74_checker_left",
    "ZS.Props.C74_python",
    "ZS.Props.C74_python_built",
    "ZS.Props.C74_index",
    "ZS.Props.C74_safe_objects",
    "ZS.Props.C74_safe_ints"
   ],
   "note": "The layout of CPython's structures and PyType_Ready are assumed; the base types and classes are arbitrary."
  },
  {
   "property": "C75",
   "status": "proved",
   "theorems": [
    "ZS.Props.C75_configured",
    "ZS.Props.C75_carried_out",
    "ZS.Props.C75_held"
   ],
   "note": "composition of C38, C63, C64, C66 and C74: from the directives of a configuration to the calls the C functions make for the user; assumptions Relies, Issued, Fits and Explains as in C63 and C66; keyword arguments of calls are not represented"
  },
  {
   "property": "C76",
   "status": "proved",
   "theorems": [
    "ZS.Props.C76_permission_id",
    "ZS.Props.C76_setattr_permission_id",
    "ZS.Props.C76_check",
    "ZS.Props.C76_check_setattr",
    "ZS.Props.C76_proxy",
    "ZS.Props.C76_combined_check",
    "ZS.Props.C76_combined_check_setattr",
    "ZS.Props.C76_ProxyFactory",
    "ZS.Props.C76_ProxyFactory1",
    "ZS.Props.C76_canAccess",
    "ZS.Props.C76_canWrite",
    "ZS.Props.C76_selectChecker",
    "ZS.Props.C76_getCheckerForInstancesOf",
    "ZS.Props.C76_moduleChecker",
    "ZS.Props.C76_defineChecker",
    "ZS.Props.C76_undefineChecker",
    "ZS.Props.C76_instanceChecker",
    "ZS.Props.C76_Sequence"
   ],
   "note": "the syntax trees of checker.py, run by the interpreter, equal the model's functions; examples in Props/SourceExamples.lean and Props/SourceLast.lean"
  },
  {
   "property": "C77",
   "status": "proved",
   "theorems": [
    "ZS.Props.C77_getSecurityPolicy",
    "ZS.Props.C77_setSecurityPolicy",
    "ZS.Props.C77_queryInteraction",
    "ZS.Props.C77_getInteraction",
    "ZS.Props.C77_newInteraction",
    "ZS.Props.C77_endInteraction",
    "ZS.Props.C77_restoreInteraction",
    "ZS.Props.C77_checkPermission",
    "ZS.Props.C77_clear",
    "ZS.Props.C77_add",
    "ZS.Props.C77_remove",
    "ZS.Props.C77_init",
    "ZS.Props.C77_newIx",
    "ZS.Props.C77_paranoid",
    "ZS.Props.C77_permissive"
   ],
   "note": "the syntax trees of management.py and simplepolicies.py"
  },
  {
   "property": "C78",
   "status": "proved",
   "theorems": [
    "ZS.Props.C78_ops",
    "ZS.Props.C78_contains",
    "ZS.Props.C78_getCheckerPy",
    "ZS.Props.C78_getattr",
    "ZS.Props.C78_getattribute",
    "ZS.Props.C78_setattr",
    "ZS.Props.C78_delattr",
    "ZS.Props.C78_compare",
    "ZS.Props.C78_hash",
    "ZS.Props.C78_bool",
    "ZS.Props.C78_length_hint",
    "ZS.Props.C78_str",
    "ZS.Props.C78_repr",
    "ZS.Props.C78_check_name",
    "ZS.Props.C78_check_name1",
    "ZS.Props.C78_check_name_inplace",
    "ZS.Props.C78_wrapper",
    "ZS.Props.C78_inplace",
    "ZS.Props.C78_getObjectPy",
    "ZS.Props.C78_loops",
    "ZS.Props.C78_source",
    "ZS.Props.C78_source_dropped",
    "ZS.Props.C78_source_state",
    "ZS.Props.C78_session",
    "ZS.Props.C78_configured",
    "ZS.Props.C78_carried_out"
   ],
   "note": "the syntax tree of proxy.py operation by operation, the module-level loops, and sessions on the source; for `in` the value is left open"
  },
  {
   "property": "C79",
   "status": "proved",
   "theorems": [
    "ZS.Props.C79_protectName",
    "ZS.Props.C79_protectModule",
    "ZS.Props.C79_protectSetAttribute",
    "ZS.Props.C79_protectLikeUnto",
    "ZS.Props.C79_basicSet",
    "ZS.Props.C79_basicDel",
    "ZS.Props.C79_basicUpdate",
    "ZS.Props.C79_basicClear",
    "ZS.Props.C79_clear",
    "ZS.Props.C79_NamesChecker",
    "ZS.Props.C79_NamesChecker_clash",
    "ZS.Props.C79_InterfaceChecker",
    "ZS.Props.C79_MultiChecker",
    "ZS.Props.C79_Checker_init",
    "ZS.Props.C79_Checker_init1",
    "ZS.Props.C79_Checker_init_get",
    "ZS.Props.C79_Checker_init_set",
    "ZS.Props.C79_Combined_init"
   ],
   "note": "The text of the declarations, run by the interpreter, is the model's function. Generators are collected, permissions that are not strings differ from strings; keys are classes and modules."
  },
  {
   "property": "C80",
   "status": "proved",
   "theorems": [
    "ZS.Props.C80_directive",
    "ZS.Props.C80_reading",
    "ZS.Props.C80_action",
    "ZS.Props.C80_configure",
    "ZS.Props.C80_configured",
    "ZS.Props.C80_carried_out",
    "ZS.Props.C80_discriminators"
   ],
   "note": "The text of the directives emits the model's actions, and running the text of the functions they name is the model's configuring. ClassDirective.factory and __call__ left out; permissions are None or strings."
  },
  {
   "property": "C81",
   "status": "proved",
   "theorems": [
    "ZS.Props.C81_Permission_init",
    "ZS.Props.C81_checkPermission",
    "ZS.Props.C81_allPermissions",
    "ZS.Props.C81_PermissionsVocabulary",
    "ZS.Props.C81_PermissionIdsVocabulary",
    "ZS.Props.C81_validate",
    "ZS.Props.C81_fromUnicode",
    "ZS.Props.C81_redefine",
    "ZS.Props.C81_securityPolicy",
    "ZS.Props.C81_permission",
    "ZS.Props.C81_element",
    "ZS.Props.C81_reading",
    "ZS.Props.C81_conflicts",
    "ZS.Props.C81_call",
    "ZS.Props.C81_load",
    "ZS.Props.C81_shipped",
    "ZS.Props.C81_carried_out"
   ],
   "note": "The trees of permission.py and zcml.py are run by the interpreter of Model/PyCode.lean with the host Model/PyZcml.lean; C81_load equates loading from source with the model's loadFile. zope.configuration's nesting and conflict resolution are as in Model/File.lean; the provideInterface action of zope.component's utility is left out."
  },
  {
   "property": "C82",
   "status": "proved",
   "theorems": [
    "ZS.Props.C82_import",
    "ZS.Props.C82_tables",
    "ZS.Props.C82_shared",
    "ZS.Props.C82_btrees",
    "ZS.Props.C82_no_pytz",
    "ZS.Props.C82_available",
    "ZS.Props.C82_public",
    "ZS.Props.C82_default",
    "ZS.Props.C82_module_factory"
   ],
   "note": "The run of checker.py's own statements is evaluated by the kernel for every environment (the interfaces of zope.interface open) and compared with the model's initial state by what every entry grants."
  },
  {
   "property": "C83",
   "status": "proved",
   "theorems": [
    "ZS.Props.C83_assertLocation",
    "ZS.Props.C83_unprotected",
    "ZS.Props.C83_protected",
    "ZS.Props.C83_trusted",
    "ZS.Props.C83_untrusted",
    "ZS.Props.C83_trusted_proxied",
    "ZS.Props.C83_trusted_bare",
    "ZS.Props.C83_untrusted_spec",
    "ZS.Props.C83_trusted_protects",
    "ZS.Props.C83_descriptor_get",
    "ZS.Props.C83_descriptor_class",
    "ZS.Props.C83_descriptor_set",
    "ZS.Props.C83_create",
    "ZS.Props.C83_interaction",
    "ZS.Props.C83_participation",
    "ZS.Props.C83_principal",
    "ZS.Props.C83_principal_default",
    "ZS.Props.C83_factory_init",
    "ZS.Props.C83_addCheckerPublic"
   ],
   "note": "The syntax trees of adapter.py, decorator.py and testing.py are run by the interpreter of Model/PyCode.lean in the languages of Model/PyAdapt.lean; every theorem is for all arguments and states. zope.location, zope.component and contextlib are as DESIGN section 3 says."
  },
  {
   "property": "C84",
   "status": "proved",
   "theorems": [
    "ZS.Props.C84_log",
    "ZS.Props.C84_log_default",
    "ZS.Props.C84_mixin",
    "ZS.Props.C84_combined_check",
    "ZS.Props.C84_combined_check_setattr",
    "ZS.Props.C84_source",
    "ZS.Props.C84_source_py",
    "ZS.Props.C84_transparent",
    "ZS.Props.C84_lines"
   ],
   "note": "run from source, log included"
  },
  {
   "property": "C85",
   "status": "proved",
   "theorems": [
    "ZS.Props.C85_new",
    "ZS.Props.C85_init",
    "ZS.Props.C85_proxy",
    "ZS.Props.C85_isinstance",
    "ZS.Props.C85_testItems",
    "ZS.Props.C85_testItems_bare",
    "ZS.Props.C85_global",
    "ZS.Props.C85_global_module",
    "ZS.Props.C85_global_reduce",
    "ZS.Props.C85_global_repr",
    "ZS.Props.C85_supplement",
    "ZS.Props.C85_factory_default",
    "ZS.Props.C85_factory",
    "ZS.Props.C85_class_call"
   ],
   "note": "run from source"
  },
  {
   "property": "C86",
   "status": "proved",
   "theorems": [
    "ZS.Props.C86_arguments",
    "ZS.Props.C86_signatures",
    "ZS.Props.C86_reading",
    "ZS.Props.C86_load",
    "ZS.Props.C86_refused",
    "ZS.Props.C86_module_interface",
    "ZS.Props.C86_star",
    "ZS.Props.C86_shipped",
    "ZS.Props.C86_carried_out"
   ],
   "note": "Documents are trees of elements; what zope.configuration does between meta.zcml, schemas and handlers is modelled after it (DESIGN.md section 3). Factories and classes, modules or policies given as other objects are outside C86_load but covered by C86_refused and C86_signatures."
  },
  {
   "property": "C87",
   "status": "proved",
   "theorems": [
    "ZS.Props.C87_permission_id",
    "ZS.Props.C87_setattr_permission_id",
    "ZS.Props.C87_checkPermission",
    "ZS.Props.C87_check_int",
    "ZS.Props.C87_check_int_null",
    "ZS.Props.C87_check_method",
    "ZS.Props.C87_check_setattr",
    "ZS.Props.C87_clear",
    "ZS.Props.C87_init",
    "ZS.Props.C87_get_get_permissions",
    "ZS.Props.C87_get_set_permissions",
    "ZS.Props.C87_selectChecker",
    "ZS.Props.C87_proxy",
    "ZS.Props.C87_check",
    "ZS.Props.C87_check1",
    "ZS.Props.C87_check2",
    "ZS.Props.C87_check2i",
    "ZS.Props.C87_richcompare",
    "ZS.Props.C87_iter",
    "ZS.Props.C87_iternext",
    "ZS.Props.C87_getattro",
    "ZS.Props.C87_setattro",
    "ZS.Props.C87_hash",
    "ZS.Props.C87_bool",
    "ZS.Props.C87_call",
    "ZS.Props.C87_getitem",
    "ZS.Props.C87_setitem",
    "ZS.Props.C87_igetitem",
    "ZS.Props.C87_isetitem",
    "ZS.Props.C87_contains",
    "ZS.Props.C87_length",
    "ZS.Props.C87_length_hint",
    "ZS.Props.C87_pow",
    "ZS.Props.C87_call_ipow",
    "ZS.Props.C87_call_int",
    "ZS.Props.C87_call_float",
    "ZS.Props.C87_init_proxy",
    "ZS.Props.C87_clear_proxy",
    "ZS.Props.C87_getChecker",
    "ZS.Props.C87_getObject",
    "ZS.Props.C87_default_repr",
    "ZS.Props.C87_str",
    "ZS.Props.C87_repr",
    "ZS.Props.C87_new",
    "ZS.Props.C87_binop",
    "ZS.Props.C87_inplace",
    "ZS.Props.C87_unop",
    "ZS.Props.C87_objects",
    "ZS.Props.C87_numbers",
    "ZS.Props.C87_tables",
    "ZS.Props.C87_slots",
    "ZS.Props.C87_safe_objects",
    "ZS.Props.C87_safe_numbers",
    "ZS.Props.C87_mediated_objects",
    "ZS.Props.C87_mediated_numbers",
    "ZS.Props.C87_sessions",
    "ZS.Props.C87_configured",
    "ZS.Props.C87_carried_out"
   ],
   "note": "from the C text; dealloc, traverse and PyInit functions: C88"
  },
  {
   "property": "C88",
   "status": "proved",
   "theorems": [
    "ZS.Props.C88_init_proxy",
    "ZS.Props.C88_init_checker",
    "ZS.Props.C88_traverse",
    "ZS.Props.C88_clear",
    "ZS.Props.C88_dealloc",
    "ZS.Props.C88_overlooked",
    "ZS.Props.C88_slots"
   ],
   "note": "from the C text; zope.proxy base slots are assumed"
  },
  {
   "property": "C89",
   "status": "proved",
   "theorems": [
    "ZS.Props.C89_bodies",
    "ZS.Props.C89_complete",
    "ZS.Props.C89_caught"
   ],
   "note": "statements outside functions, from the text; the bodies of the C modules: C88"
  },
  {
   "property": "C90",
   "status": "proved",
   "theorems": [
    "ZS.Props.C90_methods",
    "ZS.Props.C90_names",
    "ZS.Props.C90_attributes",
    "ZS.Props.C90_covered",
    "ZS.Props.C90_undeclared"
   ],
   "note": "interfaces of this package; signatures from the text"
  },
  {
   "property": "C91",
   "status": "proved",
   "theorems": [
    "ZS.Props.C91_policy",
    "ZS.Props.C91_map",
    "ZS.Props.C91_module",
    "ZS.Props.C91_database",
    "ZS.Props.C91_enforced",
    "ZS.Props.C91_wire",
    "ZS.Props.C91_wire_again",
    "ZS.Props.C91_guarded",
    "ZS.Props.C91_small"
   ],
   "note": "examples/sandbox_security.py from its source text, without the functions that wire_security puts in place"
  },
  {
   "property": "C92",
   "status": "proved",
   "theorems": [
    "ZS.Props.C92_addAgent",
    "ZS.Props.C92_add",
    "ZS.Props.C92_transport",
    "ZS.Props.C92_send",
    "ZS.Props.C92_actions",
    "ZS.Props.C92_act",
    "ZS.Props.C92_setup",
    "ZS.Props.C92_teardown",
    "ZS.Props.C92_pastures",
    "ZS.Props.C92_travel",
    "ZS.Props.C92_travels",
    "ZS.Props.C92_prison",
    "ZS.Props.C92_books",
    "ZS.Props.C92_joined",
    "ZS.Props.C92_moved"
   ],
   "note": "the functions named; the making of the objects is C93 and turns without moves are C94; not WanderLust, main and __str__"
  },
  {
   "property": "C93",
   "status": "proved",
   "theorems": [
    "ZS.Props.C93_agent",
    "ZS.Props.C93_addService",
    "ZS.Props.C93_sandbox",
    "ZS.Props.C93_loops",
    "ZS.Props.C93_boot",
    "ZS.Props.C93_module",
    "ZS.Props.C93_start"
   ],
   "note": "constructors, addService and the statements of the module but `_homes = {}`, which is a hypothesis"
  },
  {
   "property": "C94",
   "status": "proved",
   "theorems": [
    "ZS.Props.C94_turn",
    "ZS.Props.C94_quiet",
    "ZS.Props.C94_running",
    "ZS.Props.C94_history",
    "ZS.Props.C94_closed"
   ],
   "note": "turns in which nobody wants to move; the others are in C61"
  }
 ]
}