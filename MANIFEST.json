{
 "claims": [
  {
   "property": "C01",
   "status": "proved",
   "theorems": [
    "Verif.Props.C01_resolve_terminates",
    "Verif.Props.C01_resolve_total"
   ],
   "note": "CPython's own recursion limit is outside the model"
  },
  {
   "property": "C02",
   "status": "proved",
   "theorems": [
    "Verif.Props.C02_result_is_end_of_chain",
    "Verif.Props.C02_type_and_null"
   ],
   "note": ""
  },
  {
   "property": "C03",
   "status": "proved",
   "theorems": [
    "Verif.Props.C03_circular_iff",
    "Verif.Props.C03_circular_names_cycle",
    "Verif.Props.C03_other_outcomes"
   ],
   "note": ""
  },
  {
   "property": "C04",
   "status": "proved",
   "theorems": [
    "Verif.Props.C04_external",
    "Verif.Props.C04_unsupported",
    "Verif.Props.C04_empty_path",
    "Verif.Props.C04_only_value_errors"
   ],
   "note": "CPython's RecursionError on chains longer than the interpreter's limit is outside the model"
  },
  {
   "property": "C05",
   "status": "proved",
   "theorems": [
    "Verif.Props.C05_slashes"
   ],
   "note": ""
  },
  {
   "property": "C06",
   "status": "proved",
   "theorems": [
    "Verif.Props.C06_alias",
    "Verif.Props.C06_package_unambiguous"
   ],
   "note": ""
  },
  {
   "property": "C07",
   "status": "proved",
   "theorems": [
    "Verif.Props.C07_factory_entry",
    "Verif.Props.C07_factory_chain",
    "Verif.Props.C07_factory_missing"
   ],
   "note": ""
  },
  {
   "property": "C08",
   "status": "proved",
   "theorems": [
    "Verif.Props.C08_factory_injective"
   ],
   "note": ""
  },
  {
   "property": "C09",
   "status": "proved",
   "theorems": [
    "Verif.Props.C09_terminates",
    "Verif.Props.C09_bound_irrelevant"
   ],
   "note": "CPython's recursion limit is outside the model"
  },
  {
   "property": "C10",
   "status": "proved",
   "theorems": [
    "Verif.Props.C10_exact",
    "Verif.Props.C10_accepts_iff",
    "Verif.Props.C10_every_reference_checked",
    "Verif.Props.C10_shared_checked_everywhere"
   ],
   "note": ""
  },
  {
   "property": "C11",
   "status": "proved",
   "theorems": [
    "Verif.Props.C11_sound",
    "Verif.Props.C11_rejected",
    "Verif.Props.C11_accepted_sound",
    "Verif.Props.C11_rejection_is_located"
   ],
   "note": ""
  },
  {
   "property": "C12",
   "status": "proved",
   "theorems": [
    "Verif.Props.C12_segments",
    "Verif.Props.C12_split_join",
    "Verif.Props.C12_injective",
    "Verif.Props.C12_render",
    "Verif.Props.C12_index_collision"
   ],
   "note": "C12_index_collision states a limit: a list item and a key spelled x[0] share a path"
  },
  {
   "property": "C13",
   "status": "proved",
   "theorems": [
    "Verif.Props.C13_matches_iff",
    "Verif.Props.C13_strings",
    "Verif.Props.C13_table"
   ],
   "note": "patterns with [...] classes are not modelled; the table has none (C13_table)"
  },
  {
   "property": "C14",
   "status": "proved",
   "theorems": [
    "Verif.Props.C14_exact",
    "Verif.Props.C14_normal",
    "Verif.Props.C14_most_specific",
    "Verif.Props.C14_no_ties",
    "Verif.Props.C14_order_irrelevant"
   ],
   "note": ""
  },
  {
   "property": "C15",
   "status": "partial",
   "theorems": [
    "Verif.Props.C15_expects_partial",
    "Verif.Props.C15_expected_is_declared_partial",
    "Verif.Props.C15_inline_traits_wrong",
    "Verif.Props.C15_refuted",
    "Verif.Props.C15_document_refuted"
   ],
   "note": "The full statement is false of the code, which C15_refuted and C15_document_refuted prove: References in tags, security, externalDocs, correlationId of an inline trait are expected to be traits. Proved for all other places and all ordinary keys"
  },
  {
   "property": "C16",
   "status": "partial",
   "theorems": [
    "Verif.Props.C16_expects",
    "Verif.Props.C16_ordinary_names_partial",
    "Verif.Props.C16_entry_names_exact",
    "Verif.Props.C16_refuted",
    "Verif.Props.C16_document_refuted"
   ],
   "note": "The full statement is false of the code (C16_refuted, C16_document_refuted). C16_entry_names_exact gives exactly the bad names of every collection"
  },
  {
   "property": "C17",
   "status": "partial",
   "theorems": [
    "Verif.Props.C17_accepts_iff",
    "Verif.Props.C17_exact_partial",
    "Verif.Props.C17_allowed_accepted",
    "Verif.Props.C17_rejection",
    "Verif.Props.C17_behaviour",
    "Verif.Props.C17_refuted"
   ],
   "note": "The full statement is false of the code (C17_refuted): the validator deletes every occurrence of the prefix, so '#/components/tags/#/components/tags/foo' passes. C17_accepts_iff is the exact behaviour for all documents; the full statement is proved for references with no second '#'"
  },
  {
   "property": "C18",
   "status": "partial",
   "theorems": [
    "Verif.Props.C18_accepts_iff",
    "Verif.Props.C18_exact_partial",
    "Verif.Props.C18_allowed_accepted",
    "Verif.Props.C18_rejection",
    "Verif.Props.C18_behaviour",
    "Verif.Props.C18_unvisited",
    "Verif.Props.C18_refuted"
   ],
   "note": "False as stated (C18_refuted): repeated prefixes pass and seven documented places are never visited (C18_unvisited). C18_accepts_iff is the exact behaviour"
  },
  {
   "property": "C19",
   "status": "proved",
   "theorems": [
    "Verif.Props.C19_external_accepted",
    "Verif.Props.C19_one_warning_each"
   ],
   "note": ""
  },
  {
   "property": "C20",
   "status": "partial",
   "theorems": [
    "Verif.Props.C20_key_exact",
    "Verif.Props.C20_keys_exact",
    "Verif.Props.C20_exact_partial",
    "Verif.Props.C20_form_accepted",
    "Verif.Props.C20_refuted",
    "Verif.Props.C20_construct",
    "Verif.Props.C20_entry_type",
    "Verif.Props.C20_construct_partial",
    "Verif.Props.C20_construct_refuted"
   ],
   "note": "False as stated (C20_refuted): re.match with $ lets one trailing newline pass. C20_keys_exact is the exact accepted set for all strings, C20_construct says exactly which mappings each class of patterned objects can be made from"
  },
  {
   "property": "C21",
   "status": "partial",
   "theorems": [
    "Verif.Props.C21_exact",
    "Verif.Props.C21_classes",
    "Verif.Props.C21_exact_partial",
    "Verif.Props.C21_refuted",
    "Verif.Props.C21_construct",
    "Verif.Props.C21_construct_partial",
    "Verif.Props.C21_construct_refuted"
   ],
   "note": "False as stated (C21_refuted): one trailing newline passes. C21_exact is the exact accepted set for every class, C21_construct the effect of giving one more unknown field to the constructor of every class (the document itself: C32_construct). \\w and \\d are those of a Unicode parameter fixed on ASCII"
  },
  {
   "property": "C22",
   "status": "partial",
   "theorems": [
    "Verif.Props.C22_exact",
    "Verif.Props.C22_exact_partial",
    "Verif.Props.C22_refuted",
    "Verif.Props.C22_construct",
    "Verif.Props.C22_construct_partial",
    "Verif.Props.C22_construct_refuted"
   ],
   "note": "False as stated (C22_refuted): one trailing newline passes. C22_exact is the exact accepted set, C22_construct says which values the constructor of Contact takes as email"
  },
  {
   "property": "C23",
   "status": "partial",
   "theorems": [
    "Verif.Props.C23_exact",
    "Verif.Props.C23_exact_partial",
    "Verif.Props.C23_refuted",
    "Verif.Props.C23_construct"
   ],
   "note": "False as stated (C23_refuted): one trailing newline passes. C23_exact is the exact accepted set, int()'s digit limit included; C23_construct says which values the constructor of a document takes as asyncapi (C32_construct: with processors)"
  },
  {
   "property": "C24",
   "status": "proved",
   "theorems": [
    "Verif.Props.C24_channel"
   ],
   "note": ""
  },
  {
   "property": "C25",
   "status": "proved",
   "theorems": [
    "Verif.Props.C25_messageExample"
   ],
   "note": ""
  },
  {
   "property": "C26",
   "status": "proved",
   "theorems": [
    "Verif.Props.C26_securityScheme"
   ],
   "note": ""
  },
  {
   "property": "C27",
   "status": "proved",
   "theorems": [
    "Verif.Props.C27_oauthFlows"
   ],
   "note": ""
  },
  {
   "property": "C28",
   "status": "proved",
   "theorems": [
    "Verif.Props.C28_correlationID"
   ],
   "note": ""
  },
  {
   "property": "C29",
   "status": "proved",
   "theorems": [
    "Verif.Props.C29_amqpChannel",
    "Verif.Props.C29_solaceDestination",
    "Verif.Props.C29_ibmmqChannel"
   ],
   "note": ""
  },
  {
   "property": "C30",
   "status": "proved",
   "theorems": [
    "Verif.Props.C30_kafkaChannel",
    "Verif.Props.C30_ibmmqServer",
    "Verif.Props.C29_ibmmqChannel",
    "Verif.Props.C31_ibmmqMessage",
    "Verif.Props.C30_amqpOperation",
    "Verif.Props.C30_solaceOperation"
   ],
   "note": ""
  },
  {
   "property": "C31",
   "status": "proved",
   "theorems": [
    "Verif.Props.C31_kafkaServer",
    "Verif.Props.C31_ibmmqMessage"
   ],
   "note": ""
  },
  {
   "property": "C41",
   "status": "proved",
   "theorems": [
    "Verif.Props.C41_accepts_iff"
   ],
   "note": ""
  },
  {
   "property": "C32",
   "status": "proved",
   "theorems": [
    "Verif.Props.C32_exact",
    "Verif.Props.C32_order",
    "Verif.Props.C32_chain",
    "Verif.Props.C32_construct"
   ],
   "note": "assumes that processors leave extra_validators null or a list of processor classes, and do not change in place the list being iterated"
  },
  {
   "property": "C42",
   "status": "proved",
   "theorems": [
    "Verif.Props.C42_valid",
    "Verif.Props.C42_document",
    "Verif.Props.C42_before_processors"
   ],
   "note": ""
  },
  {
   "property": "C34",
   "status": "proved",
   "theorems": [
    "Verif.Props.C34_refines",
    "Verif.Props.C34_missing",
    "Verif.Props.C34_instance"
   ],
   "note": ""
  },
  {
   "property": "C35",
   "status": "partial",
   "theorems": [
    "Verif.Props.C35_assignment_partial",
    "Verif.Props.C35_history_partial",
    "Verif.Props.C35_rollback_partial",
    "Verif.Props.C35_type_error_unchanged",
    "Verif.Props.C35_raised_refuted",
    "Verif.Props.C35_setitem_refuted",
    "Verif.Props.C35_nested_refuted",
    "Verif.Props.C35_shadow_refuted"
   ],
   "note": "the full claim (README: always valid instances) is false, refuted by C35_*_refuted: item assignment is not validated, an assignment refused by a rule between fields stays in effect, an inner instance can be changed so that the outer one is invalid. Proved: accepted assignments keep validity; all histories do so for classes without rules between fields, or if refused assignments were undone."
  },
  {
   "property": "C36",
   "status": "proved",
   "theorems": [
    "Verif.Props.C36_exact",
    "Verif.Props.C36_patterned"
   ],
   "note": ""
  },
  {
   "property": "C37",
   "status": "proved",
   "theorems": [
    "Verif.Props.C37_always",
    "Verif.Props.C37_default"
   ],
   "note": ""
  },
  {
   "property": "C38",
   "status": "proved",
   "theorems": [
    "Verif.Props.C38_reference",
    "Verif.Props.C38_plain",
    "Verif.Props.C38_only",
    "Verif.Props.C38_kafka_key"
   ],
   "note": "the key of a Kafka message, where any object is an alternative, depends on how pydantic compares a model with a plain dict; C38_kafka_key says how"
  },
  {
   "property": "C40",
   "status": "proved",
   "theorems": [
    "Verif.Props.C40_alias_or_name",
    "Verif.Props.C40_same",
    "Verif.Props.C40_twice_refuted"
   ],
   "note": ""
  },
  {
   "property": "C43",
   "status": "proved",
   "theorems": [
    "Verif.Props.C43_kept",
    "Verif.Props.C43_field",
    "Verif.Props.C43_idempotent",
    "Verif.Props.C43_stored",
    "Verif.Props.C43_document",
    "Verif.Props.C43_keys_lax",
    "Verif.Props.C43_shadow_refuted",
    "Verif.Props.C43_changed_refuted",
    "Verif.Props.C43_key_refuted"
   ],
   "note": "whatever choice pydantic makes in unions between a model and a plain dict (that concerns only the key of a Kafka message: a plain dict there must be one that stays, C43_key_refuted; what validation itself stored always stays, C43_idempotent, C43_stored). C43_shadow_refuted, C43_changed_refuted: the condition on extra fields is needed"
  },
  {
   "property": "C39",
   "status": "partial",
   "theorems": [
    "Verif.Props.C39_json_partial",
    "Verif.Props.C39_instance_partial",
    "Verif.Props.C39_json_valid",
    "Verif.Props.C39_unshown",
    "Verif.Props.C39_reflike_refuted",
    "Verif.Props.C39_multi_refuted",
    "Verif.Props.C39_null_refuted",
    "Verif.Props.C39_null_anypoint_refuted",
    "Verif.Props.C39_shadow_refuted",
    "Verif.Props.C39_key_none",
    "Verif.Props.C39_key_dict",
    "Verif.Props.C39_key_reference",
    "Verif.Props.C39_key_schema",
    "Verif.Props.C39_key_refuted"
   ],
   "note": "The full statement is false of the code, refuted by C39_*_refuted (explicit nulls in a schema with $ref or schema, null in a field with a non-null default, a schema field given twice). Proved for all classes and JSON inputs whose result has none of these (Regular); C39_unshown says when the first condition can fail. The key of a Kafka message must read back by itself (C39_key_*: all do but an empty Schema, C39_key_refuted, and possibly those with external documentation)"
  },
  {
   "property": "C46",
   "status": "proved",
   "theorems": [
    "Verif.Props.C46_reference",
    "Verif.Props.C46_multi",
    "Verif.Props.C46_schema",
    "Verif.Props.C46_needs_schema",
    "Verif.Props.C46_has_schema",
    "Verif.Props.C46_schema_key_suffices",
    "Verif.Props.C46_bad_format_accepted"
   ],
   "note": "externalDocs must be given as plain data, not as an instance. The last two: a JSON Schema with a key `schema` is taken for a MultiFormatSchema, and one with a non-string schemaFormat for a Schema"
  },
  {
   "property": "C47",
   "status": "proved",
   "theorems": [
    "Verif.Props.C47_validate_unified",
    "Verif.Props.C47_validate_tags",
    "Verif.Props.C47_validate_externalDocs",
    "Verif.Props.C47_accepted",
    "Verif.Props.C47_accepted_unified",
    "Verif.Props.C47_slots",
    "Verif.Props.C47_targets",
    "Verif.Props.C47_any_layout",
    "Verif.Props.C47_unified",
    "Verif.Props.C47_tags",
    "Verif.Props.C47_externalDocs",
    "Verif.Props.C47_assumptions"
   ],
   "note": "instances in the input must be valid; for the tags and externalDocs validators, and for C47_slots, the input holds no instances. C47_assumptions shows that the assumptions of C01-C19 about object graphs hold of every document construction returns"
  },
  {
   "property": "C33",
   "status": "proved",
   "theorems": [
    "Verif.Props.C33_builds",
    "Verif.Props.C33_references",
    "Verif.Props.C33_overrides",
    "Verif.Props.C33_fields",
    "Verif.Props.C33_checked",
    "Verif.Props.C33_default"
   ],
   "note": "instances among the arguments must be valid"
  },
  {
   "property": "C44",
   "status": "proved",
   "theorems": [
    "Verif.Props.C44_names",
    "Verif.Props.C44_unambiguous",
    "Verif.Props.C44_written",
    "Verif.Props.C44_read"
   ],
   "note": "C44_read: processors of a document may change it, so it is stated for documents whose processors only check"
  },
  {
   "property": "C45",
   "status": "proved",
   "theorems": [
    "Verif.Props.C45_declared",
    "Verif.Props.C45_required",
    "Verif.Props.C45_unknown",
    "Verif.Props.C45_written"
   ],
   "note": "two fields required by the specification are optional in the code, as the definition `defaulted` says: asyncapi and schemaFormat have defaults. The table of fixed fields is written from the specification, whose text is not in the sandbox (the submodule is empty)"
  },
  {
   "property": "C48",
   "status": "proved",
   "theorems": [
    "Verif.Props.C48_written",
    "Verif.Props.C48_instance",
    "Verif.Props.C48_fields",
    "Verif.Props.C48_covers"
   ],
   "note": "The grammar (Spec/Conform.lean) is written from the specification, whose text is not in the sandbox; where bindings state stricter rules in the code's field descriptions those are taken. URLs are abstract"
  },
  {
   "property": "C49",
   "status": "partial",
   "theorems": [
    "Verif.Props.C49_accepted_partial",
    "Verif.Props.C49_preserved_partial",
    "Verif.Props.C49_refuted",
    "Verif.Props.C49_converse_refuted"
   ],
   "note": "false as stated: an object that may have any keys (Schema, MultiFormatSchema, Kafka topic configuration) and has one spelt like a Python attribute (external_docs) can be refused (C49_refuted). Proved for all conforming JSON without such keys, at any depth (the eleven names are listed in Spec.snakeNames). The converse is false too: C49_converse_refuted"
  },
  {
   "property": "C50",
   "status": "partial",
   "theorems": [
    "Verif.Props.C50_rewritten",
    "Verif.Props.C50_object",
    "Verif.Props.C50_conforming",
    "Verif.Props.C50_retained",
    "Verif.Props.C50_refuted",
    "Verif.Props.C50_refuted_conversion",
    "Verif.Props.C50_refuted_key"
   ],
   "note": "proved as stated for all accepted JSON (C50_rewritten: the relation Rewritten); the last sentence, that conforming JSON is written without conversions, is false for schemas with ambiguous names (C50_refuted: a JSON Schema with the one key ref is read as a Reference; C50_refuted_conversion), and proved (C50_conforming, C50_retained) for conforming JSON whose schemas have none of the names of Spec.ambiguousNames and whose Kafka messages have a Schema or Reference for a key, not just any object (C50_refuted_key)"
  },
  {
   "property": "C51",
   "status": "proved",
   "theorems": [
    "Verif.Props.C51_any_list",
    "Verif.Props.C51_order",
    "Verif.Props.C51_unchanged"
   ],
   "note": "for input without model instances (as C47 for the tags and externalDocs validators)"
  },
  {
   "property": "C52",
   "status": "proved",
   "theorems": [
    "Verif.Props.C52_first",
    "Verif.Props.C52_exact",
    "Verif.Props.C52_listing",
    "Verif.Props.C52_any_layout"
   ],
   "note": "errors are modelled by what their texts show (location, string, path, class names), not by the texts"
  },
  {
   "property": "C53",
   "status": "proved",
   "theorems": [
    "Verif.Props.C53_stays_right",
    "Verif.Props.C53_accepts_grown",
    "Verif.Props.C53_inside",
    "Verif.Props.C53_new_entry",
    "Verif.Props.C53_append",
    "Verif.Props.C53_insert",
    "Verif.Props.C53_set_null",
    "Verif.Props.C53_edit",
    "Verif.Props.C53_add",
    "Verif.Props.C53_text",
    "Verif.Props.C53_extra_refuted"
   ],
   "note": "the exception in the statement is shown real by C53_extra_refuted"
  },
  {
   "property": "C54",
   "status": "proved",
   "theorems": [
    "Verif.Props.C54_written",
    "Verif.Props.C54_instance",
    "Verif.Props.C54_refuted"
   ],
   "note": "the exception in the statement is shown real by C54_refuted"
  },
  {
   "property": "C55",
   "status": "partial",
   "theorems": [
    "Verif.Props.C55_read_back_partial",
    "Verif.Props.written_no_processors",
    "Verif.Props.C55_refuted"
   ],
   "note": "false as stated (C55_refuted): a schema with a $ref and a keyword given as null is written as a Reference, which the validator then refuses; proved for documents that are Regular (C39) and whose Kafka message keys read back"
  },
  {
   "property": "C56",
   "status": "proved",
   "theorems": [
    "Verif.Props.C56_order",
    "Verif.Props.C56_validators",
    "Verif.Props.C56_lists"
   ],
   "note": ""
  },
  {
   "property": "C58",
   "status": "proved",
   "theorems": [
    "Verif.Props.C58_tags_error",
    "Verif.Props.C58_docs_error",
    "Verif.Props.C58_notes",
    "Verif.Props.C58_tags_identify",
    "Verif.Props.C58_docs_identify",
    "Verif.Props.C58_names",
    "Verif.Props.C58_document_tags",
    "Verif.Props.C58_document_docs",
    "Verif.Props.C58_case_lost"
   ],
   "note": "The exception in the statement (letter case, position in a list of tags) is necessary: C58_case_lost."
  },
  {
   "property": "C57",
   "status": "proved",
   "theorems": [
    "Verif.Props.C57_hash",
    "Verif.Props.C57_history",
    "Verif.Props.C57_dedup",
    "Verif.Props.C57_changed"
   ],
   "note": "The proviso is necessary: C57_changed. The order of elements in a Python set is not modelled."
  },
  {
   "property": "C59",
   "status": "proved",
   "theorems": [
    "Verif.Props.C59_exact",
    "Verif.Props.C59_equivalence",
    "Verif.Props.C59_written",
    "Verif.Props.C59_order",
    "Verif.Props.C59_round_trip",
    "Verif.Props.C59_written_alike",
    "Verif.Props.C59_validators"
   ],
   "note": "Floats are opaque: NaN and comparison of floats with integers are not covered."
  },
  {
   "property": "C60",
   "status": "proved",
   "theorems": [
    "Verif.Props.C60_reference",
    "Verif.Props.C60_accepts_rest",
    "Verif.Props.C60_unreferenced",
    "Verif.Props.C60_entry",
    "Verif.Props.C60_field",
    "Verif.Props.C60_item",
    "Verif.Props.C60_lists",
    "Verif.Props.C60_unmentioned"
   ],
   "note": ""
  },
  {
   "property": "C61",
   "status": "proved",
   "theorems": [
    "Verif.Props.C61_exact",
    "Verif.Props.C61_others",
    "Verif.Props.C61_extract",
    "Verif.Props.C61_unmentioned"
   ],
   "note": ""
  },
  {
   "property": "C62",
   "status": "proved",
   "theorems": [
    "Verif.Props.C62_exact",
    "Verif.Props.C62_determined",
    "Verif.Props.C62_taken",
    "Verif.Props.C62_assigned",
    "Verif.Props.C62_same",
    "Verif.Props.C62_quiet",
    "Verif.Props.C62_all",
    "Verif.Props.C62_again",
    "Verif.Props.C62_twice",
    "Verif.Props.C62_never",
    "Verif.Props.C62_always",
    "Verif.Props.C62_ends",
    "Verif.Props.C62_guarded",
    "Verif.Props.C62_checked",
    "Verif.Props.C62_accepted",
    "Verif.Props.C62_references",
    "Verif.Props.C62_build"
   ],
   "note": ""
  },
  {
   "property": "C63",
   "status": "proved",
   "theorems": [
    "Verif.Props.C63_exact",
    "Verif.Props.C63_pointer",
    "Verif.Props.C63_resolves",
    "Verif.Props.C63_follows",
    "Verif.Props.C63_only",
    "Verif.Props.C63_has_path",
    "Verif.Props.C63_collections",
    "Verif.Props.C63_inside_schema",
    "Verif.Props.C63_inside_list"
   ],
   "note": "exact: objects with an addressable location; the pointer of JSON names is resolved to the object in every object graph of the document"
  },
  {
   "property": "C64",
   "status": "proved",
   "theorems": [
    "Verif.Props.C64_accepted",
    "Verif.Props.C64_references",
    "Verif.Props.C64_grows",
    "Verif.Props.C64_symm"
   ],
   "note": ""
  },
  {
   "property": "C65",
   "status": "proved",
   "theorems": [
    "Verif.Props.C65_exact",
    "Verif.Props.C65_determined",
    "Verif.Props.C65_positions",
    "Verif.Props.C65_unchanged",
    "Verif.Props.C65_appended",
    "Verif.Props.C65_endless",
    "Verif.Props.C65_ends",
    "Verif.Props.C65_removing",
    "Verif.Props.C65_checked",
    "Verif.Props.C65_same",
    "Verif.Props.C65_build",
    "Verif.Props.C65_refuted"
   ],
   "note": "C65_refuted: C32 does not extend to processors that edit the list. For processors that assign as well, see C69."
  },
  {
   "property": "C66",
   "status": "proved",
   "theorems": [
    "Verif.Props.C66_accepted",
    "Verif.Props.C66_renamed"
   ],
   "note": "Spec/Rename.lean defines the renaming (recast), the path with the new names (Follows) and the right change of References (Rightly); C66_renamed is the case of one entry and a change of the beginning of the strings."
  },
  {
   "property": "C67",
   "status": "proved",
   "theorems": [
    "Verif.Props.C67_exact",
    "Verif.Props.C67_inline",
    "Verif.Props.C67_others",
    "Verif.Props.C67_traits"
   ],
   "note": "C67_exact is the exact condition; C67_inline the copy of an object of the document; C67_traits the exception"
  },
  {
   "property": "C68",
   "status": "proved",
   "theorems": [
    "Verif.Props.C68_exact",
    "Verif.Props.C68_one_value",
    "Verif.Props.C68_accepted",
    "Verif.Props.C68_same",
    "Verif.Props.C68_well_formed",
    "Verif.Props.C68_written",
    "Verif.Props.C68_dumped",
    "Verif.Props.C68_round_trip"
   ],
   "note": "about the reader and writer of Model/Json.lean, an assumption on what pydantic-core (jiter, serde_json) does; floats are opaque: that what is written for a float is a numeral that denotes it is a hypothesis"
  },
  {
   "property": "C69",
   "status": "proved",
   "theorems": [
    "Verif.Props.C69_exact",
    "Verif.Props.C69_determined",
    "Verif.Props.C69_in_place",
    "Verif.Props.C69_unassigned",
    "Verif.Props.C69_replaced",
    "Verif.Props.C69_cleared",
    "Verif.Props.C69_once",
    "Verif.Props.C69_checked",
    "Verif.Props.C69_accepted",
    "Verif.Props.C69_references",
    "Verif.Props.C69_build"
   ],
   "note": ""
  },
  {
   "property": "C70",
   "status": "proved",
   "theorems": [
    "Verif.Props.C70_exact",
    "Verif.Props.C70_refused",
    "Verif.Props.C70_fields",
    "Verif.Props.C70_missing",
    "Verif.Props.C70_unexpected",
    "Verif.Props.C70_alone",
    "Verif.Props.C70_whole",
    "Verif.Props.C70_location",
    "Verif.Props.C70_independent",
    "Verif.Props.C70_once"
   ],
   "note": "what pydantic 2.12 does with several faults at once is stated in Model/Errors.lean and part of the trusted base; an error about the document that a processor raises counts as an entry only if it is a ValueError or AssertionError"
  },
  {
   "property": "C71",
   "status": "proved",
   "theorems": [
    "Verif.Props.C71_object",
    "Verif.Props.C71_silent",
    "Verif.Props.C71_always",
    "Verif.Props.C71_field",
    "Verif.Props.C71_field_always",
    "Verif.Props.C71_cause",
    "Verif.Props.C71_key",
    "Verif.Props.C71_means",
    "Verif.Props.C71_one",
    "Verif.Props.C71_email",
    "Verif.Props.C71_contact"
   ],
   "note": "pydantic puts 'Value error, ' before the text; texts of pydantic's own errors, of int() and of processors are not modelled"
  },
  {
   "property": "C72",
   "status": "proved",
   "theorems": [
    "Verif.Props.C72_values",
    "Verif.Props.C72_new",
    "Verif.Props.C72_later",
    "Verif.Props.C72_own",
    "Verif.Props.C72_extra",
    "Verif.Props.C72_extra_instance",
    "Verif.Props.C72_payload",
    "Verif.Props.C72_entries",
    "Verif.Props.C72_places",
    "Verif.Props.C72_seen",
    "Verif.Props.C72_assign_values",
    "Verif.Props.C72_assign",
    "Verif.Props.C72_setItem"
   ],
   "note": "that pydantic makes new lists, dicts and instances is part of the trusted base (revalidate_instances is always); processors that run only check; model_fields_set, which a revalidated instance shares with the original, has no identity in the model"
  },
  {
   "property": "C73",
   "status": "proved",
   "theorems": [
    "Verif.Props.C73_exact",
    "Verif.Props.C73_modes",
    "Verif.Props.C73_well_made",
    "Verif.Props.C73_written",
    "Verif.Props.C73_instance",
    "Verif.Props.C73_conforming",
    "Verif.Props.C73_accepted",
    "Verif.Props.C73_more",
    "Verif.Props.C73_fewer"
   ],
   "note": "what GenerateJsonSchema of pydantic makes of the declarations is part of the trusted base; keywords that check nothing (title, description, default, examples) are left out; that accepted URLs have 1 to 2083 characters is a hypothesis"
  },
  {
   "property": "C74",
   "status": "proved",
   "theorems": [
    "Verif.Props.C74_same",
    "Verif.Props.C74_equal",
    "Verif.Props.C74_shallow",
    "Verif.Props.C74_shallow_own",
    "Verif.Props.C74_shallow_seen",
    "Verif.Props.C74_shallow_map",
    "Verif.Props.C74_deep_mirror",
    "Verif.Props.C74_deep_new",
    "Verif.Props.C74_deep_apart",
    "Verif.Props.C74_deep_alike",
    "Verif.Props.C74_update",
    "Verif.Props.C74_update_valid",
    "Verif.Props.C74_update_unchecked",
    "Verif.Props.C74_update_alias",
    "Verif.Props.C74_construct",
    "Verif.Props.C74_construct_agrees",
    "Verif.Props.C74_construct_unchecked",
    "Verif.Props.C74_construct_missing"
   ],
   "note": "what model_copy, __copy__, __deepcopy__ and model_construct of pydantic do is part of the trusted base; processors have no identity in the model (a deep copy of a document copies processors that are objects); C74_construct_agrees has the hypotheses of C43 on values (no extra field with the name of a declared one, dicts as Kafka keys)"
  },
  {
   "property": "C75",
   "status": "proved",
   "theorems": [
    "Verif.Props.C75_exact",
    "Verif.Props.C75_extra",
    "Verif.Props.C75_declared",
    "Verif.Props.C75_again"
   ],
   "note": "what __delattr__ of pydantic does is part of the trusted base; names of dunder attributes (__dict__, __pydantic_extra__) are not modelled; C75_again is about instances other than map objects"
  },
  {
   "property": "C76",
   "status": "proved",
   "theorems": [
    "Verif.Props.C76_exact",
    "Verif.Props.C76_patterned",
    "Verif.Props.C76_inside",
    "Verif.Props.C76_plain",
    "Verif.Props.C76_fewer",
    "Verif.Props.C76_unaliased",
    "Verif.Props.C76_record",
    "Verif.Props.C76_unset_record",
    "Verif.Props.C76_given",
    "Verif.Props.C76_recorded",
    "Verif.Props.C76_recorded_assigns",
    "Verif.Props.C76_unset_default",
    "Verif.Props.C76_by_name"
   ],
   "note": "what pydantic does with the options is stated in Model/DumpWith.lean and part of the trusted base; include, exclude, round_trip and context are not modelled; processors that run only check"
  }
 ]
}