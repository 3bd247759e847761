c("C01","proved",["C01_resolve_terminates","C01_resolve_total"],"CPython's own recursion limit is outside the model")
c("C02","proved",["C02_result_is_end_of_chain","C02_type_and_null"])
c("C03","proved",["C03_circular_iff","C03_circular_names_cycle","C03_other_outcomes"])
c("C04","proved",["C04_external","C04_unsupported","C04_empty_path","C04_only_value_errors"],"CPython's RecursionError on chains longer than the interpreter's limit is outside the model")
c("C05","proved",["C05_slashes"])
c("C06","proved",["C06_alias","C06_package_unambiguous"])
c("C07","proved",["C07_factory_entry","C07_factory_chain","C07_factory_missing"])
c("C08","proved",["C08_factory_injective"])
c("C09","proved",["C09_terminates","C09_bound_irrelevant"],"CPython's recursion limit is outside the model")
c("C10","proved",["C10_exact","C10_accepts_iff","C10_every_reference_checked","C10_shared_checked_everywhere"])
c("C11","proved",["C11_sound","C11_rejected","C11_accepted_sound","C11_rejection_is_located"])
c("C12","proved",["C12_segments","C12_split_join","C12_injective","C12_render","C12_index_collision"],"C12_index_collision states a limit: a list item and a key spelled x[0] share a path")
c("C13","proved",["C13_matches_iff","C13_strings","C13_table"],"patterns with [...] classes are not modelled; the table has none (C13_table)")
c("C14","proved",["C14_exact","C14_normal","C14_most_specific","C14_no_ties","C14_order_irrelevant"])
c("C15","partial",["C15_expects_partial","C15_expected_is_declared_partial","C15_inline_traits_wrong","C15_refuted","C15_document_refuted"],"The full statement is false of the code, which C15_refuted and C15_document_refuted prove: References in tags, security, externalDocs, correlationId of an inline trait are expected to be traits. Proved for all other places and all ordinary keys")
c("C16","partial",["C16_expects","C16_ordinary_names_partial","C16_entry_names_exact","C16_refuted","C16_document_refuted"],"The full statement is false of the code (C16_refuted, C16_document_refuted). C16_entry_names_exact gives exactly the bad names of every collection")
c("C17","partial",["C17_accepts_iff","C17_exact_partial","C17_allowed_accepted","C17_rejection","C17_behaviour","C17_refuted"],"The full statement is false of the code (C17_refuted): the validator deletes every occurrence of the prefix, so '#/components/tags/#/components/tags/foo' passes. C17_accepts_iff is the exact behaviour for all documents; the full statement is proved for references with no second '#'")
c("C18","partial",["C18_accepts_iff","C18_exact_partial","C18_allowed_accepted","C18_rejection","C18_behaviour","C18_unvisited","C18_refuted"],"False as stated (C18_refuted): repeated prefixes pass and seven documented places are never visited (C18_unvisited). C18_accepts_iff is the exact behaviour")
c("C19","proved",["C19_external_accepted","C19_one_warning_each"])
c("C20","partial",["C20_key_exact","C20_keys_exact","C20_exact_partial","C20_form_accepted","C20_refuted","C20_construct","C20_entry_type","C20_construct_partial","C20_construct_refuted"],"False as stated (C20_refuted): re.match with $ lets one trailing newline pass. C20_keys_exact is the exact accepted set for all strings, C20_construct says exactly which mappings each class of patterned objects can be made from")
c("C21","partial",["C21_exact","C21_classes","C21_exact_partial","C21_refuted","C21_construct","C21_construct_partial","C21_construct_refuted"],"False as stated (C21_refuted): one trailing newline passes. C21_exact is the exact accepted set for every class, C21_construct the effect of giving one more unknown field to the constructor of every class (the document itself: C32_construct). \\w and \\d are those of a Unicode parameter fixed on ASCII")
c("C22","partial",["C22_exact","C22_exact_partial","C22_refuted","C22_construct","C22_construct_partial","C22_construct_refuted"],"False as stated (C22_refuted): one trailing newline passes. C22_exact is the exact accepted set, C22_construct says which values the constructor of Contact takes as email")
c("C23","partial",["C23_exact","C23_exact_partial","C23_refuted","C23_construct"],"False as stated (C23_refuted): one trailing newline passes. C23_exact is the exact accepted set, int()'s digit limit included; C23_construct says which values the constructor of a document takes as asyncapi (C32_construct: with processors)")
c("C24","proved",["C24_channel"])
c("C25","proved",["C25_messageExample"])
c("C26","proved",["C26_securityScheme"])
c("C27","proved",["C27_oauthFlows"])
c("C28","proved",["C28_correlationID"])
c("C29","proved",["C29_amqpChannel","C29_solaceDestination","C29_ibmmqChannel"])
c("C30","proved",["C30_kafkaChannel","C30_ibmmqServer","C29_ibmmqChannel","C31_ibmmqMessage","C30_amqpOperation","C30_solaceOperation"])
c("C31","proved",["C31_kafkaServer","C31_ibmmqMessage"])
c("C41","proved",["C41_accepts_iff"])
c("C32","proved",["C32_exact","C32_order","C32_chain","C32_construct"],"assumes that processors leave extra_validators null or a list of processor classes, and do not change in place the list being iterated")
c("C42","proved",["C42_valid","C42_document","C42_before_processors"])
c("C34","proved",["C34_refines","C34_missing","C34_instance"])
c("C35","partial",["C35_assignment_partial","C35_history_partial","C35_rollback_partial","C35_type_error_unchanged","C35_raised_refuted","C35_setitem_refuted","C35_nested_refuted","C35_shadow_refuted"],"the full claim (README: always valid instances) is false, refuted by C35_*_refuted: item assignment is not validated, an assignment refused by a rule between fields stays in effect, an inner instance can be changed so that the outer one is invalid. Proved: accepted assignments keep validity; all histories do so for classes without rules between fields, or if refused assignments were undone.")
c("C36","proved",["C36_exact","C36_patterned"])
c("C37","proved",["C37_always","C37_default"])
c("C38","proved",["C38_reference","C38_plain","C38_only","C38_kafka_key"],"the key of a Kafka message, where any object is an alternative, depends on how pydantic compares a model with a plain dict; C38_kafka_key says how")
c("C40","proved",["C40_alias_or_name","C40_same","C40_twice_refuted"])
c("C43","proved",["C43_kept","C43_field","C43_idempotent","C43_stored","C43_document","C43_keys_lax","C43_shadow_refuted","C43_changed_refuted","C43_key_refuted"],"whatever choice pydantic makes in unions between a model and a plain dict (that concerns only the key of a Kafka message: a plain dict there must be one that stays, C43_key_refuted; what validation itself stored always stays, C43_idempotent, C43_stored). C43_shadow_refuted, C43_changed_refuted: the condition on extra fields is needed")
c("C39","partial",["C39_json_partial","C39_instance_partial","C39_json_valid","C39_unshown","C39_reflike_refuted","C39_multi_refuted","C39_null_refuted","C39_null_anypoint_refuted","C39_shadow_refuted","C39_key_none","C39_key_dict","C39_key_reference","C39_key_schema","C39_key_refuted"],"The full statement is false of the code, refuted by C39_*_refuted (explicit nulls in a schema with $ref or schema, null in a field with a non-null default, a schema field given twice). Proved for all classes and JSON inputs whose result has none of these (Regular); C39_unshown says when the first condition can fail. The key of a Kafka message must read back by itself (C39_key_*: all do but an empty Schema, C39_key_refuted, and possibly those with external documentation)")
c("C46","proved",["C46_reference","C46_multi","C46_schema","C46_needs_schema","C46_has_schema","C46_schema_key_suffices","C46_bad_format_accepted"],"externalDocs must be given as plain data, not as an instance. The last two: a JSON Schema with a key `schema` is taken for a MultiFormatSchema, and one with a non-string schemaFormat for a Schema")
c("C47","proved",["C47_validate_unified","C47_validate_tags","C47_validate_externalDocs","C47_accepted","C47_accepted_unified","C47_slots","C47_targets","C47_any_layout","C47_unified","C47_tags","C47_externalDocs","C47_assumptions"],"instances in the input must be valid; for the tags and externalDocs validators, and for C47_slots, the input holds no instances. C47_assumptions shows that the assumptions of C01-C19 about object graphs hold of every document construction returns")
c("C33","proved",["C33_builds","C33_references","C33_overrides","C33_fields","C33_checked","C33_default"],"instances among the arguments must be valid")
c("C44","proved",["C44_names","C44_unambiguous","C44_written","C44_read"],"C44_read: processors of a document may change it, so it is stated for documents whose processors only check")
c("C45","proved",["C45_declared","C45_required","C45_unknown","C45_written"],"two fields required by the specification are optional in the code, as the definition `defaulted` says: asyncapi and schemaFormat have defaults. The table of fixed fields is written from the specification, whose text is not in the sandbox (the submodule is empty)")
c("C48","proved",["C48_written","C48_instance","C48_fields","C48_covers"],"The grammar (Spec/Conform.lean) is written from the specification, whose text is not in the sandbox; where bindings state stricter rules in the code's field descriptions those are taken. URLs are abstract")
c("C49","partial",["C49_accepted_partial","C49_preserved_partial","C49_refuted","C49_converse_refuted"],"false as stated: an object that may have any keys (Schema, MultiFormatSchema, Kafka topic configuration) and has one spelt like a Python attribute (external_docs) can be refused (C49_refuted). Proved for all conforming JSON without such keys, at any depth (the eleven names are listed in Spec.snakeNames). The converse is false too: C49_converse_refuted")
c("C50","partial",["C50_rewritten","C50_object","C50_conforming","C50_retained","C50_refuted","C50_refuted_conversion","C50_refuted_key"],"proved as stated for all accepted JSON (C50_rewritten: the relation Rewritten); the last sentence, that conforming JSON is written without conversions, is false for schemas with ambiguous names (C50_refuted: a JSON Schema with the one key ref is read as a Reference; C50_refuted_conversion), and proved (C50_conforming, C50_retained) for conforming JSON whose schemas have none of the names of Spec.ambiguousNames and whose Kafka messages have a Schema or Reference for a key, not just any object (C50_refuted_key)")
c("C51","proved",["C51_any_list","C51_order","C51_unchanged"],"for input without model instances (as C47 for the tags and externalDocs validators)")
c("C52","proved",["C52_first","C52_exact","C52_listing","C52_any_layout"],"errors are modelled by what their texts show (location, string, path, class names), not by the texts")
c("C53","proved",["C53_stays_right","C53_accepts_grown","C53_inside","C53_new_entry","C53_append","C53_insert","C53_set_null","C53_edit","C53_add","C53_text","C53_extra_refuted"],"the exception in the statement is shown real by C53_extra_refuted")
c("C54","proved",["C54_written","C54_instance","C54_refuted"],"the exception in the statement is shown real by C54_refuted")
c("C55","partial",["C55_read_back_partial","written_no_processors","C55_refuted"],"false as stated (C55_refuted): a schema with a $ref and a keyword given as null is written as a Reference, which the validator then refuses; proved for documents that are Regular (C39) and whose Kafka message keys read back")
c("C56","proved",["C56_order","C56_validators","C56_lists"],"")
c("C58","proved",["C58_tags_error","C58_docs_error","C58_notes","C58_tags_identify","C58_docs_identify","C58_names","C58_document_tags","C58_document_docs","C58_case_lost"],"The exception in the statement (letter case, position in a list of tags) is necessary: C58_case_lost.")
c("C57","proved",["C57_hash","C57_history","C57_dedup","C57_changed"],"The proviso is necessary: C57_changed. The order of elements in a Python set is not modelled.")
c("C59","proved",["C59_exact","C59_equivalence","C59_written","C59_order","C59_round_trip","C59_written_alike","C59_validators"],"Floats are opaque: NaN and comparison of floats with integers are not covered.")
c("C60","proved",["C60_reference","C60_accepts_rest","C60_unreferenced","C60_entry","C60_field","C60_item","C60_lists","C60_unmentioned"],"")
c("C61","proved",["C61_exact","C61_others","C61_extract","C61_unmentioned"],"")
c("C62","proved",["C62_exact","C62_determined","C62_taken","C62_assigned","C62_same","C62_quiet","C62_all","C62_again","C62_twice","C62_never","C62_always","C62_ends","C62_guarded","C62_checked","C62_accepted","C62_references","C62_build"],"")
c("C63","proved",["C63_exact","C63_pointer","C63_resolves","C63_follows","C63_only","C63_has_path","C63_collections","C63_inside_schema","C63_inside_list"],"exact: objects with an addressable location; the pointer of JSON names is resolved to the object in every object graph of the document")
c("C64","proved",["C64_accepted","C64_references","C64_grows","C64_symm"],"")
c("C65","proved",["C65_exact","C65_determined","C65_positions","C65_unchanged","C65_appended","C65_endless","C65_ends","C65_removing","C65_checked","C65_same","C65_build","C65_refuted"],"C65_refuted: C32 does not extend to processors that edit the list. For processors that assign as well, see C69.")
c("C66","proved",["C66_accepted","C66_renamed"],"Spec/Rename.lean defines the renaming (recast), the path with the new names (Follows) and the right change of References (Rightly); C66_renamed is the case of one entry and a change of the beginning of the strings.")
c("C67","proved",["C67_exact","C67_inline","C67_others","C67_traits"],"C67_exact is the exact condition; C67_inline the copy of an object of the document; C67_traits the exception")
c("C68","proved",["C68_exact","C68_one_value","C68_accepted","C68_same","C68_well_formed","C68_written","C68_dumped","C68_round_trip"],"about the reader and writer of Model/Json.lean, an assumption on what pydantic-core (jiter, serde_json) does; floats are opaque: that what is written for a float is a numeral that denotes it is a hypothesis")
c("C69","proved",["C69_exact","C69_determined","C69_in_place","C69_unassigned","C69_replaced","C69_cleared","C69_once","C69_checked","C69_accepted","C69_references","C69_build"],"")
c("C70","proved",["C70_exact","C70_refused","C70_fields","C70_missing","C70_unexpected","C70_alone","C70_whole","C70_location","C70_independent","C70_once"],"what pydantic 2.12 does with several faults at once is stated in Model/Errors.lean and part of the trusted base; an error about the document that a processor raises counts as an entry only if it is a ValueError or AssertionError")
c("C71","proved",["C71_object","C71_silent","C71_always","C71_field","C71_field_always","C71_cause","C71_key","C71_means","C71_one","C71_email","C71_contact"],"pydantic puts 'Value error, ' before the text; texts of pydantic's own errors, of int() and of processors are not modelled")
c("C72","proved",["C72_values","C72_new","C72_later","C72_own","C72_extra","C72_extra_instance","C72_payload","C72_entries","C72_places","C72_seen","C72_assign_values","C72_assign","C72_setItem"],"that pydantic makes new lists, dicts and instances is part of the trusted base (revalidate_instances is always); processors that run only check; model_fields_set, which a revalidated instance shares with the original, has no identity in the model")
c("C73","proved",["C73_exact","C73_modes","C73_well_made","C73_written","C73_instance","C73_conforming","C73_accepted","C73_more","C73_fewer"],"what GenerateJsonSchema of pydantic makes of the declarations is part of the trusted base; keywords that check nothing (title, description, default, examples) are left out; that accepted URLs have 1 to 2083 characters is a hypothesis")
c("C74","proved",["C74_same","C74_equal","C74_shallow","C74_shallow_own","C74_shallow_seen","C74_shallow_map","C74_deep_mirror","C74_deep_new","C74_deep_apart","C74_deep_alike","C74_update","C74_update_valid","C74_update_unchecked","C74_update_alias","C74_construct","C74_construct_agrees","C74_construct_unchecked","C74_construct_missing"],"what model_copy, __copy__, __deepcopy__ and model_construct of pydantic do is part of the trusted base; processors have no identity in the model (a deep copy of a document copies processors that are objects); C74_construct_agrees has the hypotheses of C43 on values (no extra field with the name of a declared one, dicts as Kafka keys)")
c("C75","proved",["C75_exact","C75_extra","C75_declared","C75_again"],"what __delattr__ of pydantic does is part of the trusted base; names of dunder attributes (__dict__, __pydantic_extra__) are not modelled; C75_again is about instances other than map objects")
c("C76","proved",["C76_exact","C76_patterned","C76_inside","C76_plain","C76_fewer","C76_unaliased","C76_record","C76_unset_record","C76_given","C76_recorded","C76_recorded_assigns","C76_unset_default","C76_by_name"],"what pydantic does with the options is stated in Model/DumpWith.lean and part of the trusted base; include, exclude, round_trip and context are not modelled; processors that run only check")
