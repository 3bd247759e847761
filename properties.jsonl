{"id": "C01", "title": "Reference resolution always terminates", "statement": "resolve_reference(ref, spec) returns a result, returns None or raises ValueError for every reference string and every document, also when the document's references form cycles of any length; it never makes more recursive calls than there are distinct reference strings in the document plus one.", "quantifier": "all documents (arbitrary finite object graphs, shared and cyclic objects included), all reference strings", "why_tests_cant": "Cycle shapes and chain lengths are unbounded; a test only samples a few cycles.", "anchors": ["asyncapi3/validators/utils.py:resolve_reference", "asyncapi3/validators/utils.py:_initialize_visited_refs"]}
{"id": "C02", "title": "Resolution result is exactly the end of the reference chain", "statement": "If resolve_reference returns an object, that object is what you reach by walking the reference's path in the document and, each time a Reference is found there, continuing with that Reference's string; the returned object is never itself a Reference (and is null only if a plain mapping holds an explicit null there), and the reported type is the type of that object. Conversely every chain that ends at a non-Reference object without repeating a reference string is resolved to that object.", "quantifier": "all documents, all reference strings, chains of any length", "why_tests_cant": "The chain has no bounded length and the document no bounded shape.", "anchors": ["asyncapi3/validators/utils.py:resolve_reference", "asyncapi3/validators/utils.py:_resolve_path_parts"]}
{"id": "C03", "title": "Circular references are always detected, and only they are", "statement": "resolve_reference raises the circular-reference error exactly when following the chain of References from the given string comes back to a string already followed; a chain that reaches an object, an external URL or an invalid step is never reported as circular.", "quantifier": "all documents, all reference strings, cycles of any length with any lead-in", "why_tests_cant": "Tests check a self loop or a two-element loop only.", "anchors": ["asyncapi3/validators/utils.py:resolve_reference", "asyncapi3/validators/utils.py:_initialize_visited_refs"]}
{"id": "C04", "title": "Treatment of external and malformed reference strings", "statement": "A reference string beginning with http:// or https:// makes resolve_reference return None whatever the document contains; any other string that does not begin with '#', and any '#'-string with no non-slash character, raises ValueError; no other exception type ever escapes resolve_reference.", "quantifier": "all reference strings, all documents", "why_tests_cant": "String space is infinite.", "anchors": ["asyncapi3/validators/utils.py:_is_external_reference", "asyncapi3/validators/utils.py:_parse_reference_path"]}
{"id": "C05", "title": "Spelling of slashes does not matter", "statement": "Two '#'-references whose non-empty path segments are the same (extra leading, trailing or doubled slashes, or no slash after '#') navigate to the same object or both fail.", "quantifier": "all pairs of reference strings with the same non-empty segments, all documents", "why_tests_cant": "Infinite set of spellings.", "anchors": ["asyncapi3/validators/utils.py:_parse_reference_path", "asyncapi3/validators/utils.py:_resolve_path_parts"]}
{"id": "C06", "title": "Python name and JSON alias are interchangeable in reference paths", "statement": "In a reference path a model field can be named by its Python attribute name or by its JSON alias (e.g. security_schemes / securitySchemes) with the same outcome, at every position of the path, for every field of every model class.", "quantifier": "all model classes and fields in the package, all documents, all positions in a path", "why_tests_cant": "Every class/field combination and every document.", "anchors": ["asyncapi3/validators/utils.py:_find_model_field_name", "asyncapi3/validators/utils.py:_resolve_from_model"]}
{"id": "C07", "title": "References built by the Reference factory methods point at the named entry", "statement": "For each Reference.to_* factory and every key accepted by the key pattern: if the document has that entry the reference resolves as that entry does (to the entry itself when it is not a Reference, to the end of its chain otherwise); if the collection or the key is missing, resolution raises ValueError.", "quantifier": "all 22 factories, all patterned keys, all documents", "why_tests_cant": "All keys and documents; tests use one key per factory.", "anchors": ["asyncapi3/models/base.py:Reference.to_root_server_name..to_component_message_binding_name", "asyncapi3/validators/utils.py:resolve_reference"]}
{"id": "C08", "title": "Factory references identify their target uniquely", "statement": "Two factory-made references are equal exactly when they were made by the same factory from the same name, for all names accepted by the key pattern; equal references have equal hashes, so sets and dict keys deduplicate references by their string.", "quantifier": "all pairs of factories and names", "why_tests_cant": "Pairs of arbitrary strings.", "anchors": ["asyncapi3/models/base.py:Reference", "asyncapi3/models/base.py:Reference.__hash__"]}
{"id": "C09", "title": "UnifiedReferencesValidator terminates on every object graph", "statement": "Running UnifiedReferencesValidator on any document terminates (accepting or raising), also when objects are shared or an object contains itself.", "quantifier": "all finite object graphs", "why_tests_cant": "Cyclic graphs of all shapes.", "anchors": ["asyncapi3/validators/unified_references_validator.py:validate_references_recursive"]}
{"id": "C10", "title": "UnifiedReferencesValidator checks every reference, and nothing else", "statement": "UnifiedReferencesValidator accepts a document exactly when every Reference reachable from the document through non-null, non-excluded declared fields, list items and mapping values passes the single-reference check at the location where it is found; objects shared between several places are checked at every place.", "quantifier": "all documents, all locations, all sharing patterns", "why_tests_cant": "Positions and nesting are unbounded.", "anchors": ["asyncapi3/validators/unified_references_validator.py:validate_references", "asyncapi3/validators/unified_references_validator.py:validate_references_recursive", "asyncapi3/validators/unified_references_validator.py:_validate_model_references", "asyncapi3/validators/unified_references_validator.py:_validate_list_references", "asyncapi3/validators/unified_references_validator.py:_validate_mapping_references"]}
{"id": "C11", "title": "An accepted document has no dangling, circular or wrongly typed reference", "statement": "If UnifiedReferencesValidator accepts, then every reachable Reference is either an http(s) URL (or leads to one) or resolves to an existing object whose class is (a subclass of) the type the validator expects for that location.", "quantifier": "all accepted documents, all reachable references", "why_tests_cant": "Universal over documents.", "anchors": ["asyncapi3/validators/unified_references_validator.py:validate_reference", "asyncapi3/validators/unified_references_validator.py:_is_type_compatible"]}
{"id": "C12", "title": "Location paths survive arbitrary mapping keys", "statement": "The dotted location path built by escaping each mapping key splits back into exactly the original segments, whatever characters (dots, backslashes) the keys contain; so two different lists of segments never have the same path.", "quantifier": "all lists of segment strings", "why_tests_cant": "All strings.", "anchors": ["asyncapi3/validators/unified_references_validator.py:_escape_path_segment", "asyncapi3/validators/unified_references_validator.py:_split_path"]}
{"id": "C13", "title": "Path patterns mean what the table's comment says", "statement": "A pattern matches a path exactly when the pattern's segments can be aligned with the path's: '**' with any number of segments (zero included), '*' with exactly one, a segment containing '*' with one segment by glob, any other segment with an equal one.", "quantifier": "all patterns and paths", "why_tests_cant": "All strings; recursion with backtracking.", "anchors": ["asyncapi3/validators/unified_references_validator.py:_path_matches", "asyncapi3/validators/unified_references_validator.py:_path_matches_recursive", "asyncapi3/validators/unified_references_validator.py:_segment_matches"]}
{"id": "C14", "title": "Expected-type lookup picks the most specific pattern, independent of table order", "statement": "For every path the expected type is the type of a matching pattern of maximal specificity, an error is raised exactly when no pattern matches, and reordering the mapping table never changes the answer (no two matching patterns of equal specificity disagree).", "quantifier": "all paths, all permutations of the table", "why_tests_cant": "All paths, 77! orders.", "anchors": ["asyncapi3/validators/unified_references_validator.py:REFERENCE_TYPE_MAPPINGS", "asyncapi3/validators/unified_references_validator.py:_get_expected_type_for_path", "asyncapi3/validators/unified_references_validator.py:_pattern_specificity"]}
{"id": "C15", "title": "The expected type is the type the field declares, at every place a Reference can appear", "statement": "For each field of each model class in which a Reference may appear, at every place where that class can be nested in a document and for all mapping keys on the way, the expected type used by UnifiedReferencesValidator is the non-Reference type declared for that field.", "quantifier": "all reference positions of the class graph (every nesting), all mapping keys and list indices", "why_tests_cant": "Keys are arbitrary strings; tests use tame names. (False as it stands: for keys that coincide with names used in the pattern table or with 'root', and, for all keys, in traits written inline; see MANIFEST.)", "anchors": ["asyncapi3/validators/unified_references_validator.py:REFERENCE_TYPE_MAPPINGS", "asyncapi3/validators/unified_references_validator.py:_get_expected_type_for_path", "asyncapi3/validators/unified_references_validator.py:_normalize_path"]}
{"id": "C16", "title": "Entry names do not influence reference checking", "statement": "Renaming an entry of servers, channels, operations, messages or any components collection never changes whether a reference stored there is accepted.", "quantifier": "all keys accepted by the key pattern, all collections", "why_tests_cant": "All keys. (False of the code: entries named e.g. 'root', 'channel', 'tags'; see MANIFEST.)", "anchors": ["asyncapi3/validators/unified_references_validator.py:_normalize_path", "asyncapi3/validators/unified_references_validator.py:_get_expected_type_for_path"]}
{"id": "C17", "title": "TagsRefValidator accepts exactly the documents whose tag references are allowed", "statement": "TagsRefValidator accepts a document exactly when, in every tag list it is documented to verify and in components.tags, each Reference is either external (does not start with '#') or equals '#/components/tags/{key}' for an existing key of components.tags.", "quantifier": "all documents, all documented locations, all reference strings", "why_tests_cant": "All documents and strings. (False of the code in two ways: trait tag lists are documented but not visited; a repeated prefix is stripped everywhere; see MANIFEST.)", "anchors": ["asyncapi3/validators/tags_ref_validator.py:TagsRefValidator", "docs/extra_validators/references.md:Per Validator data"]}
{"id": "C18", "title": "ExternalDocsRefValidator accepts exactly the documents whose externalDocs references are allowed", "statement": "ExternalDocsRefValidator accepts a document exactly when, in every externalDocs field it is documented to verify and in components.externalDocs, each Reference is either external (does not start with '#') or equals '#/components/externalDocs/{key}' for an existing key.", "quantifier": "all documents, all documented locations, all reference strings", "why_tests_cant": "All documents and strings. (False of the code: component channels' messages, component message traits etc. are documented but not visited; prefix stripped everywhere; see MANIFEST.)", "anchors": ["asyncapi3/validators/external_docs_ref_validator.py:ExternalDocsRefValidator", "docs/extra_validators/references.md:793-826"]}
{"id": "C19", "title": "External tag and externalDocs references never cause rejection", "statement": "A document in which every tag (externalDocs) Reference does not start with '#' is accepted by TagsRefValidator (ExternalDocsRefValidator); each visited external reference produces exactly one warning.", "quantifier": "all documents", "why_tests_cant": "All documents.", "anchors": ["asyncapi3/validators/tags_ref_validator.py:validate_external_tag_ref", "asyncapi3/validators/external_docs_ref_validator.py:validate_external_external_doc_ref"]}
{"id": "C20", "title": "Patterned object keys contain only letters, digits, hyphens and underscores", "statement": "A patterned object (Servers, Channels, Operations, Messages, Parameters, components collections) can be constructed exactly when each key is a non-empty string of ASCII letters, digits, '-' and '_'.", "quantifier": "all mappings with string keys", "why_tests_cant": "All strings. (False of the code: one trailing newline is also accepted; see MANIFEST.)", "anchors": ["asyncapi3/models/helpers.py:validate_patterned_key", "asyncapi3/models/base_models.py:PatternedRootModel.validate_patterned_keys"]}
{"id": "C21", "title": "Extension fields", "statement": "An extendable model accepts an unknown field exactly when its name starts with 'x-' and continues with one or more word characters, digits, dots, hyphens or underscores; a non-extendable model accepts no unknown field.", "quantifier": "all unknown field names", "why_tests_cant": "All strings. (False at one trailing newline; see MANIFEST.)", "anchors": ["asyncapi3/models/base_models.py:ExtendableBaseModel.validate_extensions", "asyncapi3/models/base_models.py:NonExtendableBaseModel"]}
{"id": "C22", "title": "Email addresses", "statement": "Contact.email accepts a string exactly when it has the form local@domain.tld with local made of letters, digits and ._%+-, domain of letters, digits, dots and hyphens, tld of at least two letters, and no two consecutive dots anywhere.", "quantifier": "all strings", "why_tests_cant": "All strings. (False at one trailing newline; see MANIFEST.)", "anchors": ["asyncapi3/models/helpers.py:EmailStr._validate_email"]}
{"id": "C23", "title": "Only AsyncAPI 3.x.y versions are accepted", "statement": "The asyncapi field accepts a string exactly when it is major.minor.patch with decimal numbers, an optional -suffix of word characters, dots and hyphens, and major equal to 3.", "quantifier": "all strings", "why_tests_cant": "All strings. (Edge cases: trailing newline, leading zeros, non-ASCII digits; see MANIFEST.)", "anchors": ["asyncapi3/models/asyncapi.py:validate_asyncapi_version"]}
{"id": "C24", "title": "Channel parameters require an address expression", "statement": "A Channel with parameters is accepted exactly when its address is given and contains a '{', one or more characters other than '}', and then '}'; a Channel without parameters is never rejected for its address.", "quantifier": "all addresses, all parameter maps (the empty one included)", "why_tests_cant": "All strings.", "anchors": ["asyncapi3/models/channel.py:Channel.validate_parameters"]}
{"id": "C25", "title": "MessageExample has headers or payload", "statement": "A MessageExample is accepted exactly when headers or payload is given and not null.", "quantifier": "all field combinations", "why_tests_cant": "All values.", "anchors": ["asyncapi3/models/message.py:MessageExample.validate_headers_or_payload"]}
{"id": "C26", "title": "Security schemes carry exactly the fields their type requires", "statement": "A SecurityScheme is accepted exactly when: apiKey has in user/password; httpApiKey has a name and in query/header/cookie; http has a scheme; oauth2 has flows; openIdConnect has openIdConnectUrl; bearerFormat occurs only with type http and scheme 'bearer'; scopes occur only with oauth2 or openIdConnect.", "quantifier": "all 13 types and all combinations of the other fields with arbitrary strings", "why_tests_cant": "Field product is infinite.", "anchors": ["asyncapi3/models/security.py:SecurityScheme"]}
{"id": "C27", "title": "OAuth flows carry the URLs their flow requires", "statement": "An OAuthFlows object is accepted exactly when implicit and authorizationCode have authorizationUrl, and password, clientCredentials and authorizationCode have tokenUrl, whenever present.", "quantifier": "all combinations", "why_tests_cant": "All values.", "anchors": ["asyncapi3/models/security.py:OAuthFlows"]}
{"id": "C28", "title": "Correlation id location", "statement": "A CorrelationID location is accepted exactly when it starts with '$message.'.", "quantifier": "all strings", "why_tests_cant": "All strings.", "anchors": ["asyncapi3/models/security.py:CorrelationID.validate_runtime_expression"]}
{"id": "C29", "title": "Exclusive destination fields of AMQP, Solace and IBM MQ bindings", "statement": "AMQP channel binding: accepted exactly when is=routingKey with exchange and no queue, or is=queue with queue and no exchange. Solace destination: queue type with queue and no topic, or topic type with topic and no queue. IBM MQ channel: not both queue and topic, and queue present when destinationType is queue.", "quantifier": "all combinations", "why_tests_cant": "All values.", "anchors": ["asyncapi3/models/bindings/amqp.py:AMQPChannelBindings", "asyncapi3/models/bindings/solace.py:SolaceDestination", "asyncapi3/models/bindings/ibmmq.py:IBMMQChannelBindings"]}
{"id": "C30", "title": "Numeric ranges in bindings", "statement": "Kafka partitions/replicas are accepted exactly when absent or >= 1; IBM MQ heartBeatInterval exactly 0..999999, maxMsgLength exactly 0..104857600, expiry exactly >= 0; AMQP expiration exactly >= 0; Solace priority, when an integer, exactly 0..255.", "quantifier": "all integers", "why_tests_cant": "Unbounded integers.", "anchors": ["asyncapi3/models/bindings/kafka.py", "asyncapi3/models/bindings/ibmmq.py", "asyncapi3/models/bindings/amqp.py", "asyncapi3/models/bindings/solace.py"]}
{"id": "C31", "title": "Kafka and IBM MQ field dependencies", "statement": "Kafka server binding: a schemaRegistryVendor is accepted only with schemaRegistryUrl. IBM MQ message binding: headers are accepted only when type is binary.", "quantifier": "all combinations", "why_tests_cant": "All values.", "anchors": ["asyncapi3/models/bindings/kafka.py:KafkaServerBindings", "asyncapi3/models/bindings/ibmmq.py:IBMMQMessageBindings"]}
{"id": "C32", "title": "Extra processors run converters first, then validators, once each, in order", "statement": "When an AsyncAPI3 is constructed with processors that do not themselves assign to attributes of the document (see C62 for those that do), every extra converter is applied once in list order, then every extra validator once in list order, on the instance as left by the previous ones; the first failure stops the run and fails the construction; construction succeeds exactly when all succeed.", "quantifier": "all lists of converters and validators, all behaviours of them", "why_tests_cant": "Arbitrary user supplied processors.", "anchors": ["asyncapi3/models/asyncapi.py:AsyncAPI3.run_extra_processors"]}
{"id": "C33", "title": "as_builder gives an empty, valid, reference-checked document", "statement": "AsyncAPI3.as_builder(...) without further keyword arguments succeeds exactly when Info(...) with the same arguments does and every Reference in it (a tag, the externalDocs, the externalDocs of a tag) is external or leads to the info object's externalDocs, which are external or what is wanted there; the result is the document with that info, version 3.0.0, every collection (servers, channels, operations, the 19 of components) present and empty, no converters, and UnifiedReferencesValidator as the only validator. Further keyword arguments replace the corresponding default entirely and leave the others; unless they name other validators, every Reference of the built document is right.", "quantifier": "all info arguments, all keyword arguments", "why_tests_cant": "All arguments.", "anchors": ["asyncapi3/models/asyncapi.py:AsyncAPI3.as_builder"]}
{"id": "C34", "title": "Patterned objects behave like insertion-ordered maps", "statement": "After any sequence of item assignments and deletions, __getitem__, __contains__, __len__ and iteration of a patterned object answer as an insertion-ordered dict would; reading a missing key or deleting it raises KeyError and changes nothing.", "quantifier": "all operation sequences", "why_tests_cant": "Unbounded histories.", "anchors": ["asyncapi3/models/base_models.py:PatternedRootModel"]}
{"id": "C35", "title": "Instances stay valid however they are modified", "statement": "Whatever sequence of attribute assignments and item assignments is performed, every instance keeps satisfying its class's validators (README: 'always valid instances').", "quantifier": "all operation histories on an instance", "why_tests_cant": "Unbounded histories. (False of the code for item assignment on patterned objects, for refused assignments in classes with rules between fields, and for nested instances; see MANIFEST.)", "anchors": ["asyncapi3/models/base_models.py:ExtendableBaseModel", "asyncapi3/models/base_models.py:PatternedRootModel.__setitem__", "README.md:Model Validation Behavior"]}
{"id": "C36", "title": "Serialization omits unset optional fields and uses JSON names", "statement": "model_dump of any instance contains a declared field exactly when its value is not None, except Channel.address (null when unknown) and the required MultiFormatSchema.schema, which are always present, and except extra_converters/extra_validators, which never are; every declared field appears under its JSON alias; extension fields are kept.", "quantifier": "all classes, all instances", "why_tests_cant": "All classes and instances.", "anchors": ["asyncapi3/models/helpers.py:is_null", "asyncapi3/models/channel.py:Channel.address", "asyncapi3/models/asyncapi.py:extra_converters"]}
{"id": "C37", "title": "bindingVersion is always serialized", "statement": "Every instance of a class with a binding_version field serializes a non-null bindingVersion, whether or not it was given when the instance was made.", "quantifier": "all binding classes, all instances", "why_tests_cant": "All classes and instances.", "anchors": ["asyncapi3/models/bindings/*.py:binding_version", "README.md:Binding Version Behavior"]}
{"id": "C38", "title": "A lone $ref is always a Reference", "statement": "At every field or collection that admits a Reference, the input {'$ref': s} is parsed to Reference(s), for every string s and whatever the alternative types are (except the key of a Kafka message, where arbitrary objects are an alternative too); and an object is parsed to a Reference only if $ref is all it has.", "quantifier": "all reference positions of all classes, all strings s", "why_tests_cant": "All positions and strings.", "anchors": ["asyncapi3/models/*.py:X | Reference annotations"]}
{"id": "C39", "title": "Dump and parse are inverse", "statement": "Parsing the JSON dump of any parsed document yields the same document; hence dumping is stable after one parse (parse . dump . parse = parse).", "quantifier": "all classes, all JSON inputs", "why_tests_cant": "All documents. (Needs conditions; see MANIFEST.)", "anchors": ["asyncapi3/models/*.py:model classes", "tests/models: round-trip tests"]}
{"id": "C40", "title": "Fields can be given by alias or by Python name", "statement": "For every class, giving a declared field under its alias or under its Python name (not both) parses to the same instance.", "quantifier": "all classes, fields and inputs", "why_tests_cant": "All classes and inputs.", "anchors": ["asyncapi3/models/base_models.py:ConfigDict validate_by_name/validate_by_alias"]}
{"id": "C41", "title": "Nothing beyond the declared constraints is checked", "statement": "For every model class other than AsyncAPI3 and the patterned objects, and every input object: the instance is made exactly when every declared field is given a value its type accepts (under its alias or name) or has a default, string lengths are within limits, extra fields obey the class's extension rule, and the class's own constraints (C24-C31) hold; it then has exactly those fields, extras and record of given fields.", "quantifier": "all classes, all input objects", "why_tests_cant": "All classes and inputs; acceptance must have no further, hidden conditions.", "anchors": ["asyncapi3/models/*.py:model classes", "asyncapi3/models/base_models.py:ExtendableBaseModel", "asyncapi3/models/base_models.py:NonExtendableBaseModel"]}
{"id": "C42", "title": "Validation returns only fully valid instances", "statement": "Whatever is passed to model_validate (plain data, instances, instances spoiled by mutation, or mixtures), a returned instance satisfies, at every depth reachable through declared field types, every declared type, length limit, extension and key rule, version rule and class constraint. For a document with extra processors this holds of the document the first processor is given, and of the result if the processors keep documents valid.", "quantifier": "all classes, all inputs, all processors", "why_tests_cant": "All inputs of unbounded depth, including already built instances.", "anchors": ["asyncapi3/models/base_models.py:revalidate_instances", "asyncapi3/models/asyncapi.py:AsyncAPI3.run_extra_processors", "asyncapi3/models/*.py:validators"]}
{"id": "C43", "title": "Storing a valid instance does not change it", "statement": "A valid instance (of any class, with no extra field of a schema-like class named as a declared field, and no plain dict as a Kafka message key that would rather be a Schema) that is validated again - because it is passed to model_validate, put into a field, or part of a bigger input - is accepted and stays exactly as it was: values, extras and the record of given fields. Validating twice is validating once. A document is rebuilt as it was and handed to its processors.", "quantifier": "all classes, all valid instances", "why_tests_cant": "All instances of unbounded depth; every union of every class must pick the same member again.", "anchors": ["asyncapi3/models/base_models.py:revalidate_instances", "asyncapi3/models/*.py:union annotations"]}
{"id": "C46", "title": "Which kind of schema an object is parsed to", "statement": "At the places for schemas (headers and payload of messages and message traits, components.schemas) and for every object given there: what can be a Reference becomes one; an object with a `schema` key (and no non-string schemaFormat) becomes a MultiFormatSchema unless it has more of AsyncAPI's own Schema words (discriminator, deprecated, externalDocs with its content) than words of a MultiFormatSchema; an object without `schema` becomes a Schema. Ties go to the MultiFormatSchema.", "quantifier": "all objects at all schema places", "why_tests_cant": "All objects: the choice is made by pydantic from counts over all fields, nested ones included.", "anchors": ["asyncapi3/models/schema.py:Schema", "asyncapi3/models/schema.py:MultiFormatSchema", "asyncapi3/models/message.py:Message", "asyncapi3/models/components.py:Schemas"]}
{"id": "C47", "title": "Validating a document with the package's reference validators", "statement": "Given an input with extra_validators=[UnifiedReferencesValidator] (or TagsRefValidator, or ExternalDocsRefValidator) and no converters, AsyncAPI3.model_validate returns a document exactly when fields, extensions and version are right and every Reference in the resulting document is right: following it leads out of the document, or to an instance of a class expected at its location (for the tags and externalDocs validators: it is external or names an existing component, at the places they visit). With any list of processors that only check, a returned document is valid and every validator in the list has accepted it. In a document made from plain data, References stand only where the class declarations admit one, and an accepted one leads to a class named there. The verdict does not depend on which parts of the document share memory.", "quantifier": "all input documents, all processor lists that only check, all memory layouts", "why_tests_cant": "All documents of unbounded size; it relates construction, validity, object identity and reference checking.", "anchors": ["asyncapi3/models/asyncapi.py:AsyncAPI3.run_extra_processors", "asyncapi3/validators/unified_references_validator.py:UnifiedReferencesValidator", "asyncapi3/validators/tags_ref_validator.py:TagsRefValidator", "asyncapi3/validators/external_docs_ref_validator.py:ExternalDocsRefValidator"]}
{"id": "C44", "title": "JSON names of fields", "statement": "In JSON each attribute of each model class is named by its Python name in lower camel case (default_content_type is defaultContentType, in_ is in), save for a fixed list ($ref, clientID, the dotted Kafka topic settings, geo-replication, Statements). No key of an input can mean two attributes. An attribute of an accepted instance has the value given under its JSON name, else that under its Python name, else its default; in serialized form every key is the JSON name of the attribute whose value stands under it, or an extension.", "quantifier": "all classes and fields, all inputs, all valid instances", "why_tests_cant": "All classes, inputs and instances; a test sees the names of one class.", "anchors": ["asyncapi3/models/*.py:Field(alias=...)", "asyncapi3/models/base_models.py:ConfigDict validate_by_name/serialize_by_alias"]}
{"id": "C45", "title": "The fixed fields of AsyncAPI 3.0.0 objects", "statement": "For every object of the AsyncAPI 3.0.0 specification (bindings of single protocols aside): its class has exactly the fixed fields of the specification under their names; an input lacking a required one is refused (but asyncapi and schemaFormat have defaults); an accepted input has no keys but fixed fields and x- extensions (none of these in a Reference; a schema may have any keys); and the serialized form of a valid instance has every required field, not null, and no keys but fixed fields and extensions.", "quantifier": "all objects of the specification, all inputs, all valid instances", "why_tests_cant": "All inputs and instances.", "anchors": ["asyncapi3/models/*.py:model classes", "asyncapi3/models/base_models.py:ExtendableBaseModel", "asyncapi3/models/base_models.py:NonExtendableBaseModel"]}
{"id": "C48", "title": "What is written conforms to AsyncAPI 3.0.0", "statement": "For every model class and every JSON value read into it (or any valid instance made of what JSON gives), the serialized form conforms to a grammar of AsyncAPI 3.0.0 objects as JSON: every required field is present, every field present has the JSON name, type, length and enumeration of the specification, maps have well-formed keys, nothing else is there but x- extensions (where they are allowed) or free fields of schemas, and the rules between fields hold; the same at every depth.", "quantifier": "all model classes, all JSON inputs, all valid instances", "why_tests_cant": "All documents of unbounded size and depth, all classes including the bindings of all protocols.", "anchors": ["asyncapi3/models/*.py:model classes", "asyncapi3/models/bindings/*.py:model classes"]}
{"id": "C49", "title": "What conforms to AsyncAPI 3.0.0 is accepted", "statement": "Every JSON value that conforms to the grammar of AsyncAPI 3.0.0 objects is accepted by model_validate of its class, and what is then written conforms again.", "quantifier": "all model classes, all conforming JSON values", "why_tests_cant": "All documents of unbounded size and depth.", "anchors": ["asyncapi3/models/*.py:model classes", "asyncapi3/models/bindings/*.py:model classes"]}
{"id": "C50", "title": "What reading and writing changes", "statement": "For every model class and every JSON value that is accepted, model_validate followed by serialization changes nothing but this, at every depth: a field given under its Python name is written under its JSON name; a field given as null is left out (but for a channel's address and a MultiFormatSchema's schema); of fields not given, exactly those with a listed default (bindingVersion and some fifteen others) are filled in; URLs take normal form; values that pydantic converts to integers or booleans are converted; lists of processors are left out. Extensions and free keys stay as they are. (The key of a Kafka message, where any object may stand, is rewritten as a Schema or a Reference, or stays as it is.) Conforming JSON is written without any conversion and nothing of it is lost but nulls.", "quantifier": "all model classes, all JSON inputs", "why_tests_cant": "All documents of unbounded size and depth, all classes, all mixtures of names.", "anchors": ["asyncapi3/models/*.py:model classes", "asyncapi3/models/base_models.py:ExtendableBaseModel", "asyncapi3/models/base_models.py:NonExtendableBaseModel", "asyncapi3/models/base_models.py:PatternedRootModel"]}
{"id": "C51", "title": "Package validators only check, and only three of them can refuse", "statement": "Validating a document with any lists of classes of asyncapi3.validators under extra_converters and extra_validators either raises or returns the document that is built without them. It is refused only for what UnifiedReferencesValidator, TagsRefValidator or ExternalDocsRefValidator demand; the other seventeen classes accept every document, so naming them checks nothing. Neither the order of the classes, nor repeated ones, nor which of the two lists they stand in makes a difference to acceptance or to the JSON written.", "quantifier": "all inputs without model instances, all pairs of lists of the twenty classes", "why_tests_cant": "There are infinitely many lists and documents; that no combination changes the document or interferes with another one is a statement about all of them.", "anchors": ["asyncapi3/validators/__init__.py", "asyncapi3/validators/channels_ref_validator.py: ChannelsRefValidator.__call__", "asyncapi3/models/asyncapi.py: AsyncAPI3.run_extra_processors"]}
{"id": "C52", "title": "The error names the first wrong Reference and what is wrong with it", "statement": "When UnifiedReferencesValidator refuses a document, the error is about the first Reference, in document order (fields as declared, items and entries in order), that is not right, and gives its location. It says what is the case: that following the Reference comes back to a string already passed (the first such string), that a string of the chain leads nowhere (which step of it fails, where, and whether a key or field is missing, null, or the value cannot be entered), that it ends at an object of another class (its path, class and the classes expected), or that nothing is known about the place. The error is determined by the document: it does not depend on which parts share memory.", "quantifier": "all valid documents, in any memory layout, all Unicode tables", "why_tests_cant": "A test compares one message for one document; that the first wrong Reference is reported and the reason is the true one concerns all documents with any number of wrong References, chains and cycles.", "anchors": ["asyncapi3/validators/unified_references_validator.py: UnifiedReferencesValidator.validate_references, validate_reference", "asyncapi3/validators/utils.py: resolve_reference"]}
{"id": "C53", "title": "Adding to a document breaks no Reference", "statement": "A document that UnifiedReferencesValidator, TagsRefValidator or ExternalDocsRefValidator accepts stays accepted by it when it grows, as long as it stays valid: entries put under new keys into its collections (at any depth), items put anywhere into its lists, null fields set, extra fields added, texts and numbers changed (but for the strings of References). Only a Reference that is part of what was added can make the validator refuse it; and such References are judged in the new document, so they may point to what was added with them. There is one exception: an extra field named root holding an object (possible in a JSON Schema) hides the fields of its object from references.", "quantifier": "all valid documents, all ways in which they grow, any number of steps", "why_tests_cant": "A test adds one thing to one document; that nothing that is added can change where the existing references lead, through chains of any length, concerns all pairs of documents.", "anchors": ["asyncapi3/validators/utils.py: resolve_reference", "asyncapi3/validators/unified_references_validator.py: UnifiedReferencesValidator", "asyncapi3/validators/tags_ref_validator.py", "asyncapi3/validators/external_docs_ref_validator.py", "asyncapi3/models/base_models.py: PatternedRootModel.__setitem__"]}
{"id": "C54", "title": "What is written is well-formed JSON", "statement": "What model_dump(mode=\"json\") writes of any object that was read from JSON is JSON again - nothing but null, booleans, numbers, strings, lists and objects - and no object in it has the same key twice, however declared fields, their aliases, extension fields and extra fields are mixed. The same holds of instances made or edited in Python whose free places hold JSON, with one exception: an extra field can be put on a Schema by assigning to the JSON name of a declared field (schema.externalDocs = ...), and then both are written under that key.", "quantifier": "all inputs of all classes, at any depth; all valid instances", "why_tests_cant": "A test writes some documents; that names of fields, aliases and extras never collide and that no Python object is left over holds for every field of every class with every content.", "anchors": ["asyncapi3/models/base_models.py: ExtendableBaseModel", "asyncapi3/models/base_models.py: NonExtendableBaseModel", "asyncapi3/models/base_models.py: PatternedRootModel", "asyncapi3/models/schema.py: Schema"]}
{"id": "C55", "title": "A checked document that is written and read again passes its checks again", "statement": "A document that was accepted with any lists of the package's validators as extra_converters and extra_validators, then written as JSON, and read again with the same lists, is accepted again, is the same document, and is written as the same JSON. The lists themselves are not written: a document that is read from the JSON alone is checked by none of them.", "quantifier": "all documents read from JSON, all lists of package validators", "why_tests_cant": "A test reads some documents back; that no reference changes its meaning by being written and read again concerns all documents.", "anchors": ["asyncapi3/models/asyncapi.py: AsyncAPI3", "asyncapi3/validators/unified_references_validator.py: UnifiedReferencesValidator", "asyncapi3/validators/tags_ref_validator.py", "asyncapi3/validators/external_docs_ref_validator.py"]}
{"id": "C56", "title": "The order of keys does not matter", "statement": "Two JSON values that differ only in the order of the keys of their objects, at any depth, are accepted or refused alike by every model class; the instances made of them are equal up to that order, and so is what is written of them. In particular the choice among the members of a union (Schema, MultiFormatSchema or Reference) does not depend on it. The same holds of documents read with any lists of the package's validators: an accepted document stays accepted when its keys are reordered; and the validators do not depend on the order of the items of a list either.", "quantifier": "all JSON inputs of all classes, all permutations of keys at all depths, all lists of package validators", "why_tests_cant": "A test tries a few orders; there are factorially many per object, and objects nest without bound.", "anchors": ["asyncapi3/models/base_models.py: ExtendableBaseModel", "asyncapi3/models/base_models.py: NonExtendableBaseModel", "asyncapi3/models/base_models.py: PatternedRootModel", "asyncapi3/models/asyncapi.py: AsyncAPI3", "asyncapi3/validators/unified_references_validator.py: UnifiedReferencesValidator"]}
{"id": "C58", "title": "Rejections by the tag and externalDocs validators name the place", "statement": "When TagsRefValidator or ExternalDocsRefValidator rejects a document, the text says where in the document a Reference that does not pass the check stands and what is wrong with it: that it points elsewhere (with its string), or that the key it names is missing (with the key). No two locations of a document get the same text, except that the text does not tell the letter case of entry names (channels Orders and orders get the same one), and that TagsRefValidator does not tell the position in a list of tags. On an accepted document exactly one warning is logged for each location of an external reference, with the same description of the location and the string.", "quantifier": "all documents, all locations, all reference strings, all entry names and list positions", "why_tests_cant": "A test compares the text of a few documents; that the descriptions of all places are pairwise distinct whatever entries are called, so that a text can be traced back, is about all names and positions.", "anchors": ["asyncapi3/validators/tags_ref_validator.py: TagsRefValidator", "asyncapi3/validators/external_docs_ref_validator.py: ExternalDocsRefValidator"]}
{"id": "C57", "title": "Sets of References deduplicate by reference string", "statement": "References can be put into sets and used as dict keys. Two References are equal exactly if their reference strings are, and then have the same hash, whatever Python's string hash is in the process. A set of References, under any history of additions, removals and membership tests, behaves as the set of their strings, and keeps exactly one Reference per string; provided no Reference is changed after it was added (one that is changed while it is in a set is no longer found there).", "quantifier": "all References, all string hash functions, all histories of set operations of any length", "why_tests_cant": "A test compares a few hashes; deduplication must hold for every history of operations and for string hashes that differ from process to process and may collide.", "anchors": ["asyncapi3/models/base.py: Reference.__hash__", "asyncapi3/models/base_models.py: NonExtendableBaseModel"]}
{"id": "C59", "title": "Equality of instances means equal content", "statement": "Instances compare equal (==) exactly if they have the same class, equal declared fields and equal extra fields, at any depth, whatever the order of keys and whichever fields were given or left to their defaults (numbers compare as Python numbers: True equals 1). This is an equivalence relation. Equal instances read from JSON are written as equal JSON; instances read from the same JSON in another key order are equal; an instance that is written and read back is equal to what it was, and instances that are written alike are equal (both as far as C39 holds); the package's validators treat equal documents alike.", "quantifier": "all instances of all classes at any depth, all pairs and triples of them, all package validators", "why_tests_cant": "Equality is tested on examples; symmetry, transitivity and agreement with writing, reading and validation concern all pairs and triples of nested values.", "anchors": ["asyncapi3/models/base_models.py: ExtendableBaseModel", "asyncapi3/models/base_models.py: NonExtendableBaseModel", "asyncapi3/models/base_models.py: PatternedRootModel", "asyncapi3/models/base.py: Reference"]}
{"id": "C60", "title": "Removing from a document breaks only References to what was removed", "statement": "When something is removed from a document that UnifiedReferencesValidator, TagsRefValidator or ExternalDocsRefValidator accepts - entries deleted from its collections, items removed from its lists, fields set to null, extra fields deleted, at any depth, texts and numbers other than the strings of References perhaps changed - and it stays valid, the validator refuses the rest exactly if some remaining Reference leads, directly or by following further References, to something that is missing now. A Reference never becomes wrong in another way (wrong type, cycle). So an entry that no Reference path leads into can be deleted safely, and items can always be removed from lists.", "quantifier": "all valid documents, all removals at all depths, chains of References of any length", "why_tests_cant": "A test deletes one entry of one document; that no Reference depends on anything but what its path leads to concerns all documents, all chains and everything that can be removed.", "anchors": ["asyncapi3/validators/utils.py: resolve_reference", "asyncapi3/validators/unified_references_validator.py: UnifiedReferencesValidator", "asyncapi3/validators/tags_ref_validator.py", "asyncapi3/validators/external_docs_ref_validator.py", "asyncapi3/models/base_models.py: PatternedRootModel.__delitem__"]}
{"id": "C61", "title": "Moving an object to the components and referring to it keeps the document accepted", "statement": "When, in a document that UnifiedReferencesValidator accepts, an object is replaced by a Reference that leads (directly or by further References) to another object of the same class outside of it, then the new document is accepted exactly if that class is expected at the place and no remaining Reference leads to something below the object. References to the object itself stay right: they lead on through the new Reference. In particular an object can be moved under a new ordinary name into the collection of the components for its class, leaving '#/components/<collection>/<name>' behind (what ProcessorProtocol's documentation suggests a processor might do), unless a Reference leads below it; the exceptions are the places of C15 (fields of inline traits) and C16 (entries with reserved names). The tags and external docs validators want of the new Reference only what they want of any.", "quantifier": "all valid documents, all objects and places, all names, chains of References of any length", "why_tests_cant": "A test moves one object of one document; that nothing else in any document depends on whether an object is given inline or by Reference, except paths that go on below it, concerns all documents and chains.", "anchors": ["asyncapi3/protocols.py: ProcessorProtocol", "asyncapi3/validators/utils.py: resolve_reference", "asyncapi3/validators/unified_references_validator.py: UnifiedReferencesValidator", "asyncapi3/models/base.py: Reference"]}
{"id": "C62", "title": "A processor that assigns to the document makes all processors run again", "statement": "When a converter or validator assigns to an attribute of the document, an accepted value is put in, nothing else changes, and then all converters and all validators of the changed document run again, before the processor goes on; a value that is not accepted changes nothing and raises. So a converter that always assigns never comes to an end (RecursionError in Python), one that assigns only when needed is called twice, and so is every validator; processors come to an end if every accepted assignment makes some measure of the document smaller. Processors that do not assign run once each, as C32 says. However often they run: if nothing changes the list of validators and these only look at the document, each construction or assignment that succeeds leaves a document that all of them accept; with UnifiedReferencesValidator in the list, all its References are right.", "quantifier": "all processors (arbitrary state machines that change the document in place, assign, observe whether the assignment raised, and return or raise), all documents, all assigned values", "why_tests_cant": "Arbitrary user supplied processors, nested to any depth; the absence of an end is not observable by a test.", "anchors": ["asyncapi3/models/asyncapi.py:AsyncAPI3.run_extra_processors", "asyncapi3/models/base_models.py:ExtendableBaseModel", "asyncapi3/protocols.py:ProcessorProtocol"]}
{"id": "C63", "title": "Which parts of a document can be referred to", "statement": "An object in a document of which no extra field is named root (see C53) can be referred to if and only if it is not the document itself, the way to it leads through declared fields and entries of mappings only - not into a list -, and no key on the way is empty or contains a slash (there is no escaping: ~1 and %2F are taken literally). Then resolving '#/' followed by the JSON names and keys on the way, joined by '/', returns the object, or goes on with its string if it is a Reference. Keys of collections (servers, channels, operations, components.*, ...) never stand in the way; keys of plain mappings (variables of a server, ...) can. Nothing in extra fields is ever found: a reference into a Schema beyond the fields declared for it, such as #/components/schemas/User/properties/id, is always refused, and so is a reference into a list.", "quantifier": "All documents (instances at any depth), all objects in them, all reference strings", "why_tests_cant": "Ranges over all locations in all documents and all strings; that something can never be referred to cannot be shown by trying references.", "anchors": ["asyncapi3/validators/utils.py:resolve_reference", "asyncapi3/validators/utils.py:_resolve_path_part", "asyncapi3/validators/utils.py:_parse_reference_path", "asyncapi3/models/schema.py:Schema", "asyncapi3/models/server.py:Server", "asyncapi3/models/base_models.py:PatternedRootModel"]}
{"id": "C64", "title": "Two accepted documents put together are accepted", "statement": "When two documents that UnifiedReferencesValidator, TagsRefValidator or ExternalDocsRefValidator accepts are put together - lists have the items of both, mappings the entries of both, objects the fields that either has set, and what both have under the same key or in the same field is put together in the same way and is of the same class; texts and numbers may differ there, but not the strings of References or the extra fields named root - and the result is valid, then it is accepted too. Its References are those of the two, at the same places but for positions in lists.", "quantifier": "All pairs of valid documents and all ways to put them together, at any depth", "why_tests_cant": "A test merges some pairs of documents; that no Reference of either can change its meaning by what comes from the other concerns all pairs.", "anchors": ["asyncapi3/validators/utils.py: resolve_reference", "asyncapi3/validators/unified_references_validator.py: UnifiedReferencesValidator", "asyncapi3/validators/tags_ref_validator.py", "asyncapi3/validators/external_docs_ref_validator.py"]}
{"id": "C65", "title": "Processors that edit the list of processors in place", "statement": "When a converter or validator edits doc.extra_converters or doc.extra_validators in place (append, remove, ...; it does not assign to the document), call number k of a loop is of the class at position k of the list as it is at that moment, and the loop ends when the list is not longer than the number of calls made. So classes appended on the way are called in the same run; a loop in which every class appends one never ends; if no class makes the list longer it ends after at most as many calls as the list had items; if each class removes itself, only every other class is called and the rest stay in the list, although construction succeeds. Validators added by converters are called: if validators only look, the resulting document is accepted by all the validators in its list at the end. If nothing changes the lists, all is as C32 says.", "quantifier": "all processors that do not assign to the document (arbitrary functions of the document that may edit both lists), all documents, any number of calls", "why_tests_cant": "Processors are arbitrary user code, and the absence of an end is not observable by a test.", "anchors": ["asyncapi3/models/asyncapi.py:AsyncAPI3._run_extra_converters", "asyncapi3/models/asyncapi.py:AsyncAPI3._run_extra_validators", "asyncapi3/models/asyncapi.py:AsyncAPI3.run_extra_processors"]}
{"id": "C66", "title": "Renaming entries together with the References through them", "statement": "A document that UnifiedReferencesValidator accepts is still accepted after entries of its mappings (channels, messages, components, ...) are renamed, at any places and any number at once, if every internal Reference whose path goes through a renamed entry is changed to spell the path with the new names and nothing else is changed - provided the document is valid with the new names, no object has an extra field called root, and the References that stand below a renamed entry stand under ordinary names (C16) before and after. In particular: rename one entry k of a mapping to k', and replace the beginning '#/.../k' by '#/.../k'' in all References; it suffices that all References through the entry begin in this way.", "quantifier": "all documents, all renamings, all References, all places", "why_tests_cant": "Any number of References, directly or through others, may go through a renamed entry; and the expected type of a Reference depends on the text of its location.", "anchors": ["asyncapi3/validators/unified_references_validator.py:UnifiedReferencesValidator", "asyncapi3/validators/utils.py:resolve_reference"]}
{"id": "C67", "title": "Putting an object in the place of a Reference to it keeps the document accepted", "statement": "When, in a document that UnifiedReferencesValidator accepts, a Reference that leads (directly or by further References) to an object is replaced by an object of the same class, the new document is accepted exactly if the References inside the new object are right where they now stand; all other References, those that led through the replaced one included, stay right. In particular a Reference can be replaced by a copy of an object of the document (dereferencing), if the References inside the object stand under ordinary names (C16) in both places and not in the places of C15. Inlining a trait is the exception: it is refused whenever the trait has a Reference in tags, security, externalDocs or correlationId that leads to what belongs there. The tags and external docs validators also want only that the References inside the new object are right.", "quantifier": "all valid documents, all References and places, all objects, chains of References of any length", "why_tests_cant": "Any number of References may lead through the replaced one, and those in the copied object are judged by the text of their new location.", "anchors": ["asyncapi3/validators/unified_references_validator.py:UnifiedReferencesValidator", "asyncapi3/validators/utils.py:resolve_reference", "asyncapi3/validators/tags_ref_validator.py:TagsRefValidator", "asyncapi3/validators/external_docs_ref_validator.py:ExternalDocsRefValidator"]}
{"id": "C68", "title": "A JSON text stands for the value it denotes, both when it is read and when it is written", "statement": "model_validate_json accepts a text exactly if the text is JSON (RFC 8259) and the value it denotes is accepted by model_validate, with the same result: white space, escapes of characters (short, \\uXXXX, surrogate pairs) and the spelling of numbers make no difference, of members with the same name the last counts, and no text denotes two values. What model_dump_json writes of anything read from a JSON text is a JSON text that denotes exactly what model_dump(mode='json') gives, with no name twice in an object, whatever characters the strings contain; so it is read back as that data is, and under the conditions of C39 gives the same instance and is written in the same way again.", "quantifier": "all texts, all classes, all values of any size and depth, all strings (quotation marks, backslashes, control characters, characters beyond U+FFFF)", "why_tests_cant": "Texts, nesting depths and strings are unbounded, and every character and escape must be read back.", "anchors": ["README.md:257", "README.md:282", "asyncapi3/models/base_models.py:ExtendableBaseModel", "asyncapi3/models/base_models.py:PatternedRootModel", "asyncapi3/models/asyncapi.py:AsyncAPI3"]}
{"id": "C69", "title": "Processors that assign to the document, edit its lists in place and remember things, together", "statement": "A loop over the processors runs over the list object it started with. So a converter that assigns a new list to doc.extra_converters (the empty one, say) makes the new converters and the validators run at once, and after it all the remaining classes of the old list are still called, provided nobody changes that list; one that empties the list in place (clear) ends the loop, and nothing after it is called. If processors do not edit the lists in place and remember nothing, all is as C62 says, also if they assign new lists; if they do not assign, all is as C65 says. A converter that assigns on its first call only, because it remembers it, is called twice, and each validator twice. Whatever the converters do, to the document, to both lists, by assignment or in place: if the validators in the list after them only look at the document, a construction or assignment that succeeds leaves a document that all the validators in its list accept; with UnifiedReferencesValidator in a list that is left alone, all its References are right.", "quantifier": "all processors (arbitrary state machines that change the document and any list in place, keep lists that are no longer in the document, remember anything from call to call, assign, observe whether the assignment raised, and return or raise), all documents, all assigned values", "why_tests_cant": "Processors are arbitrary user code; tests exercise a few.", "anchors": ["asyncapi3/models/asyncapi.py:AsyncAPI3.run_extra_processors", "asyncapi3/models/asyncapi.py:AsyncAPI3._run_extra_converters", "asyncapi3/models/asyncapi.py:AsyncAPI3._run_extra_validators", "asyncapi3/models/base_models.py:ExtendableBaseModel", "asyncapi3/protocols.py:ProcessorProtocol"]}
{"id": "C70", "title": "What the ValidationError of a refused input lists", "statement": "If model_validate (or the constructor) refuses an input, e.errors() has an entry for everything that is wrong, and nothing else, each at its place. All fields, list items and dict entries are looked at, whatever else is wrong: an entry about the value of a field has as location the key under which the field is given (the alias if it is there, else the Python name) followed by the location in that value; a required field that is missing is named by its alias, if it has one; a key that a closed class does not have, and a field whose value is of the right type but too long or refused by the validator of the field, by the key. Patterned classes add nothing to a location; of a union none of whose members fits, the entries of all members are listed, under a label of each, or without label if there is only one apart from None. Validators that look at several fields, extension names, key patterns and processors come last: an entry about an object as a whole means that all its parts are right and it is then the only entry about that object. Following a location in the input leads to the value it is about, or for a missing field to an object without that key. What is listed about other keys does not depend on what is given for a field, so mending one field neither hides nor brings up anything about the others. For JSON in which no object has a key twice, no entry is listed twice.", "quantifier": "all classes of the package, all inputs (plain values, lists, dicts, instances that are validated again, nested to any depth), all environments (Unicode tables, URL normalisation, conversions, processors)", "why_tests_cant": "Tests look at the errors of a few inputs; that nothing is left out, and that entries do not disturb each other, is about all combinations of faults.", "anchors": ["asyncapi3/models/base_models.py:ExtendableBaseModel", "asyncapi3/models/base_models.py:NonExtendableBaseModel", "asyncapi3/models/base_models.py:PatternedRootModel", "asyncapi3/models/asyncapi.py:AsyncAPI3", "asyncapi3/models/base.py:Reference", "asyncapi3/models/operation.py:Operations"]}
{"id": "C71", "title": "What the messages of the package's validators say", "statement": "The msg of an entry of a ValidationError tells what is wrong. An object whose fields are right on their own, and which is refused by a rule of its class (address and parameters of a Channel; headers or payload of a MessageExample; OAuth flows; security schemes; AMQP, Solace, IBM MQ and Kafka bindings) or because of the name of a key (extensions, patterned classes), gets one entry with the text the package has for that situation, and the text is that of the first situation that is the case, in the order of the validators, names of keys coming first; it names the first offending key of the input. No such object is refused without a message of the package (a document may be, by a processor), and none with a message is accepted. A value refused by the validator of its field (asyncapi version, correlation id location, expiration, priority, heart beat, message length, expiry, partitions, replicas) gets the text for it, next to whatever else is wrong; the only values refused by a field validator without a text of the package are versions whose major part int() does not read. Every message, at any depth, has its cause at the place to which the location leads: what a message says is the case of the object, and no two situations of a class share a text. E-mail addresses that are refused are refused with their message.", "quantifier": "all classes of the package, all inputs (nested to any depth, dicts and instances), all environments", "why_tests_cant": "Tests check a few texts for single faults; which message is chosen when several rules are broken, and that each message is true wherever it appears, is about all combinations.", "anchors": ["asyncapi3/models/base_models.py:ExtendableBaseModel.validate_extensions", "asyncapi3/models/base_models.py:PatternedRootModel.validate_patterned_keys", "asyncapi3/models/helpers.py:validate_patterned_key", "asyncapi3/models/helpers.py:EmailStr", "asyncapi3/models/channel.py:Channel", "asyncapi3/models/message.py:MessageExample", "asyncapi3/models/security.py:SecurityScheme", "asyncapi3/models/security.py:OAuthFlows", "asyncapi3/models/security.py:CorrelationID", "asyncapi3/models/asyncapi.py:AsyncAPI3.validate_asyncapi_version", "asyncapi3/models/bindings/amqp.py:AMQPChannelBindings", "asyncapi3/models/bindings/solace.py:SolaceDestination", "asyncapi3/models/bindings/ibmmq.py:IBMMQChannelBindings", "asyncapi3/models/bindings/kafka.py:KafkaServerBindings"]}
{"id": "C72", "title": "What is put into a model is copied", "statement": "A model that is built by model_validate, a constructor or as_builder has no list, dict or model instance in common with what it was built from, at any depth: also model instances are copied. The exceptions are values at places without a type: under extension keys and the free keys of schemas and Kafka topic configurations, the payload of a MessageExample and the schema of a MultiFormatSchema, and the values in the nine other fields declared with dict[str, Any]; there the model holds the very objects that were given. So a later change in place of what was given (of a dict that was passed, of a Contact that was passed) is not seen in the model, and a change inside an extension value is. An assignment to a declared attribute copies what is assigned in the same way, and leaves the instance and the objects in all its other fields the same objects; an assignment to an extension attribute, and channels[key] = x of the map classes, put in the object itself, without a copy. Which objects are shared makes no difference to acceptance or to values.", "quantifier": "all classes, all inputs (dicts and instances, shared parts, any depth), all later changes of any object", "why_tests_cant": "Tests compare values; that no object anywhere in a result is one of the input's is about every object of every input.", "anchors": ["asyncapi3/models/base_models.py:ExtendableBaseModel", "asyncapi3/models/base_models.py:NonExtendableBaseModel", "asyncapi3/models/base_models.py:PatternedRootModel", "asyncapi3/models/schema.py:MultiFormatSchema", "asyncapi3/models/message.py:MessageExample", "asyncapi3/models/bindings/kafka.py:KafkaTopicConfiguration"]}
{"id": "C73", "title": "The generated JSON Schema", "statement": "For every class C of the package, C.model_json_schema(mode=...) is a well-formed JSON Schema (2020-12): only standard keywords with sensible values, no key twice, and every $ref leads to an entry of $defs; the two modes give the same schema. A JSON value satisfies the schema iff it is JSON of the declared types under the JSON names: an object with all required fields, each field that is present of its type and at most its maximal length, and no other keys if C is closed to extensions, at every depth (URLs: 1 character or more, web addresses at most 2083). Hence what the package writes always satisfies the schema of its class, so does everything that conforms to AsyncAPI 3.0.0, and so does every JSON input that the package accepts, unless a value in it was converted (true for an integer) or a field was given by its Python name. The schema does not express the package's other rules (forms of keys and e-mail addresses, rules between fields): values that satisfy it may be refused.", "quantifier": "all classes, both modes, all JSON values (any depth), all ways URLs may be parsed that respect the length limits", "why_tests_cant": "The package's test only checks that a dict is returned; agreement of a schema with validation is about every JSON value and every class.", "anchors": ["asyncapi3/models/asyncapi.py:AsyncAPI3", "asyncapi3/models/base_models.py:ExtendableBaseModel", "asyncapi3/models/base_models.py:NonExtendableBaseModel", "asyncapi3/models/base_models.py:PatternedRootModel", "asyncapi3/models/helpers.py:EmailStr", "asyncapi3/models/components.py:Components"]}
{"id": "C74", "title": "Copies of instances, and instances made without validation", "statement": "For every instance x of a class of the package: x.model_copy(), copy.copy(x), x.model_copy(deep=True) and copy.deepcopy(x) have the same content as x, so they are equal to x, valid iff x is, and written as the same JSON. A shallow copy is a new instance that holds the very objects of x: assigning to attributes of one does not change the other, every change inside of a common object is seen in both, and in particular storing an entry in the copy of a map object (channels, messages, ...) stores it in the original. A deep copy has no object in common with x (copy.deepcopy: the same object stands at two places of it iff it does so in x), no sequence of changes to the one changes the other, and a change to the copy has the effect it would have had on the original. x.model_copy(update=u) checks nothing: a declared field has the object given under its Python name, other keys (JSON names too) become extra fields if the class keeps such; the copy of a valid instance is valid iff the new values have their fields' types, no unknown key is given to a closed class, and the whole satisfies the constraints of the class. C.model_construct(**d) checks nothing either: a field has the given value, else its default, else it is missing; where validation accepts d and the values in it are valid as they are, the result is equal to the validated instance and written alike; a document made without info is not passed over by the tag and externalDocs validators, but ends in an AttributeError.", "quantifier": "all classes, all instances (any depth and any sharing of objects), all updates, all arguments, all sequences of changes in place", "why_tests_cant": "What a copy shares and what stays consistent depends on every part of every instance and on every later change; a test shows it for one field and one change. The package's tests copy nothing.", "anchors": ["asyncapi3/models/base_models.py:ExtendableBaseModel", "asyncapi3/models/base_models.py:NonExtendableBaseModel", "asyncapi3/models/base_models.py:PatternedRootModel", "asyncapi3/models/schema.py:Schema", "asyncapi3/models/channel.py:Channels"]}
{"id": "C75", "title": "Deleting attributes", "statement": "For every instance i of a class of the package and every name: del i.name raises an AttributeError iff i has no such declared attribute and no such extra field. Otherwise exactly that attribute is gone; all others, the other extra fields and the record of what was given (model_fields_set) stay as they were. Deleting an extension keeps a valid instance valid. Deleting a declared field, required or not, leaves an instance that is not valid. Where such an instance is validated again, it is refused if the field is required, and the field has its default otherwise.", "quantifier": "all classes, all instances, all names", "why_tests_cant": "It must hold for every field of every class and every content of the instance; the package's tests delete no attribute.", "anchors": ["asyncapi3/models/base_models.py:ExtendableBaseModel", "asyncapi3/models/base_models.py:NonExtendableBaseModel", "asyncapi3/models/base_models.py:PatternedRootModel"]}
{"id": "C76", "title": "Writing with options", "statement": "For every valid instance and all values of by_alias, exclude_unset, exclude_defaults and exclude_none: model_dump writes exactly the declared fields, in order, that it writes without options and that none of the options leaves out (exclude_unset: not given; exclude_defaults: equal to the default; exclude_none: null), each under its JSON name, or with by_alias=False under its Python name, then the extra fields, with exclude_none only those that are not null; map objects write all their entries. With JSON names, the result is what is written without options with entries left out, at every depth. by_alias=False changes nothing but keys of declared fields, and what it writes of an instance none of whose extra fields has the name of a declared one is read as the same data with JSON names on that level would be. Without exclude_unset, equal content is written equally; with it, equal instances can be written differently, and bindingVersion is not always written. With exclude_unset, an instance validated from a dict is written with exactly the fields that were given and its extra fields, and whatever is left out has its default, also after any history of assignments that succeed or fail.", "quantifier": "all classes, all valid instances (any depth), all combinations of the four options, all inputs and all histories of assignments", "why_tests_cant": "What is left out depends on every field of every class, on the history of the instance and on each option at every depth; the package's tests call model_dump without options.", "anchors": ["asyncapi3/models/base_models.py:ExtendableBaseModel", "asyncapi3/models/base_models.py:NonExtendableBaseModel", "asyncapi3/models/base_models.py:PatternedRootModel", "asyncapi3/models/helpers.py:is_null"]}
