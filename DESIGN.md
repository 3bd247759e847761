# Formal model of insspb/asyncapi3 in Lean 4 — design

Source: `/repo` (python, read as text only).  Lean project: `/verif/lean`.

## Layout

| module | models | source |
|---|---|---|
| `Verif/Py/Str.lean` | Python `str` as `List Char`: `startswith`, `strip`, `split`, `replace` | used by all |
| `Verif/Py/Uni.lean` | the Unicode classes `\d`, `\w` and digit values, a parameter fixed on ASCII | `re`, `int` |
| `Verif/Py/Regex.lean` | backtracking `re.match`/`re.search` for the regexes in the code, with Python's `$` | models/*.py |
| `Verif/Py/Heap.lean` | Python object graph (addresses, lists, dicts, pydantic instances with declared fields and extras); sharing and cycles allowed | what the validators inspect |
| `Verif/Py/Value.lean`, `Types.lean` | values as trees; annotations, field and class declarations | what pydantic sees |
| `Verif/Py/Layout.lean` | a tree laid out as an object graph | link between the two |
| `Verif/Gen/*.lean` | class table, pattern table, factory prefixes, generated from the source text by `tools/gen_*.py` (Python's `ast`, nothing is executed) | models/**, unified_references_validator.py:48-126, models/base.py |
| `Verif/Model/Resolve.lean` | `resolve_reference` and helpers | validators/utils.py |
| `Verif/Model/Path.lean`, `Unified.lean` | `UnifiedReferencesValidator` | validators/unified_references_validator.py |
| `Verif/Model/RefValidators.lean` | the two implemented special validators | validators/tags_ref_validator.py, external_docs_ref_validator.py |
| `Verif/Model/Patterns.lean` | keys, extension names, e-mail addresses, versions | base_models.py, helpers.py, asyncapi.py |
| `Verif/Model/Fields.lean` | every `field_validator`/`model_validator` of the models | models/** |
| `Verif/Model/Pyd.lean` | validation and serialization of the declared classes (pydantic 2.12 semantics of the configuration used), processors | models/** |
| `Verif/Model/Mutate.lean` | attribute assignment, item operations | base_models.py |
| `Verif/Model/Reenter.lean` | processors that assign to the document | asyncapi.py, base_models.py |
| `Verif/Model/Sharing.lean` | validation, assignment and item assignment on objects with an identity | base_models.py, models/** |
| `Verif/Model/JsonSchema.lean` | `model_json_schema` of the declared classes | declarations of models/**, helpers.py:75-86 |
| `Verif/Model/Copy.lean` | `model_copy`, `copy.copy`, `copy.deepcopy`, `model_construct` | base_models.py:17-121 (inherited) |
| `Verif/Model/Delete.lean` | `__delattr__` | base_models.py:17-121 (inherited) |
| `Verif/Model/DumpWith.lean` | `model_dump` with `by_alias`, `exclude_unset`, `exclude_defaults`, `exclude_none` | base_models.py:17-121 (inherited), helpers.py:11-16 |
| `Verif/Model/Live.lean` | processors that edit the list of processors in place | asyncapi.py |
| `Verif/Model/Objects.lean` | both together: the loops over list objects, with memory between calls | asyncapi.py, base_models.py |
| `Verif/Model/Errors.lean` | validation with the entries of its `ValidationError`: where, coarsely why, and the text if it is the package's | declarations of models/**, base_models.py |
| `Verif/Model/Messages.lean` | the texts with which the validators of the classes raise | base_models.py, helpers.py, asyncapi.py:255-275, channel.py, message.py, security.py, bindings/{amqp,solace,ibmmq,kafka}.py |
| `Verif/Model/Document.lean` | the reference validators as processors of a document | asyncapi.py:277-296 |
| `Verif/Model/Validators.lean` | the twenty classes of `asyncapi3.validators` | validators/*.py |
| `Verif/Model/Json.lean` | JSON text: `model_validate_json`, `model_dump_json` | README.md:257,282 (pydantic-core) |
| `Verif/Model/Builder.lean` | `as_builder` | asyncapi.py:157-253 |
| `Verif/Spec/*.lean` | small declarative specifications, independent of the model's helpers | README, docs, AsyncAPI 3.0.0 |
| `Verif/Props/*.lean` | the property theorems and their non-vacuity examples | — |
| `Verif/Conformance/*.lean` | the package's tests, run on the model (generated) | tests/** |

Everything else under `Verif/Lemmas` is proof machinery.

## Modelling conventions

* Exceptions are values (`Except`).  Python sets of visited things are lists; membership is all that is used.
* Recursions that Python bounds only by a "visited" set are modelled with a fuel argument; a theorem shows the
  fuel is never exhausted (that is the termination property), so the fuel is not a bound on the claim.
* Unicode tables (`\w`, `\d`, `int()` of non-ASCII digits) are a parameter constrained only on ASCII.
* URL parsing (`AnyUrl`, `HttpUrl`) and lax coercions of pydantic are parameters with stated laws.

## Plan per property

| id | plan |
|---|---|
| C01 | fuel theorem: number of distinct reference strings in the heap bounds the recursion; pigeonhole on the visited list |
| C02, C03 | declarative `Hop`/`Lands` relations (walk the path segment by segment); iff theorems by induction on the chain |
| C04, C05, C06 | case analysis of the parser; `split`/`strip` lemmas; congruence of navigation |
| C07, C08 | table of factory prefixes; `split` of a concrete prefix with an arbitrary patterned key |
| C09 | same fuel argument over object addresses |
| C10, C11 | declarative loop-free reachability; iff by induction on fuel; on acyclic graphs equals plain reachability |
| C12 | escape/split round trip by induction over characters with the escape state |
| C13 | inductive alignment relation; matcher ⇔ relation |
| C14 | argmax fold characterised; pairwise incompatibility of equal-score patterns (finite table) lifted to all paths. `Spec/Expects.lean` says what the table means (`Expects`, `Normal`), and `Spec/TreeRight.lean` when a Reference is right by it (`TRightAt`, used by C47, C52, C53, C60, C61, C67), and `C14_exact`, `C14_normal` that the code computes exactly that: where other statements mention `Path.expectedType` or `Path.normalize`, read these relations (C10_exact, C11_sound, C15_expects_partial and C16_expects are stated with them) |
| C15, C16 | typed-location relation from the generated class table; finite table of abstract locations checked by the kernel, lifted to all keys by a substitution lemma; concrete refutations for reserved keys |
| C17–C19 | typed document model; accept ⇔ all visited references allowed; refutations for unvisited documented locations and repeated prefix |
| C20–C23 | regex semantics; iff characterisations; refutations for trailing newline etc. |
| C24–C31 | validators branch by branch; iff with a declarative table of requirements |
| C32, C33 | pipeline as a monadic fold with a trace; builder as a function of arguments |
| C34, C35 | refinement to an ordered map over all operation sequences; invariant over assignment histories; refutation for `__setitem__` |
| C36–C40 | generic parse/dump over the generated class table; induction over values; C39 by a readback relation with side conditions, and refutations where the claim fails |
| C41 | acceptance of an input object by any class ⇔ field-by-field conditions plus the class's rule; the general theorem from which C24–C31 are read off |
| C42, C43 | an inductive predicate `Valid`; every result of validation has it; validating a valid value gives it back (each union must choose the same member again) |
| C44, C45 | tables written from the specification (camel case, fixed fields, required) compared with the class table by the kernel, lifted to all inputs and instances through C36, C41 |
| C46 | counts of fields decide between Schema and MultiFormatSchema; exact conditions by computing the scores of all inputs |
| C47 | trees (pydantic) and object graphs (validators) linked by a bisimulation; construction followed by a validator ⇔ declarative condition on the tree |
| C48 | grammar of conforming JSON (`Spec/Conform.lean`), independent of the class table; a kernel-checked table check relates rows to declared fields; induction on valid instances shows their JSON conforms |
| C49 | the same grammar; induction on conformance: each conforming value is accepted at every type fitting it. False for free-form objects with Python-named keys (`C49_refuted`), proved without them |
| C50 | a relation `Rewritten` between JSON read and JSON written (`Spec/Rewrite.lean`), independent of the class table; induction on the value, then on conformance to exclude conversions |
| C51 | the twenty classes as an enumeration with their calls (`Model/Validators.lean`); lists of calls by induction; documents that differ only in excluded fields have the same References and targets |
| C52 | the errors carry what their texts show; `Spec/Complaint.lean` lists the References in document order and says when a complaint is correct; the traversal is shown equal to checking that list one by one, and the complaint to determine the error |
| C53 | a relation `Grows` between documents (`Spec/Grows.lean`); paths, hops and checks are monotone along it; each way of adding to a document (item assignment, appending, setting a null field) is shown to be growth, at any depth |
| C54 | `WellFormed` JSON (`Spec/Written.lean`); induction over `ValidJson` instances: the keys written are the JSON names of declared fields and the extras, which are disjoint because pydantic takes the former from the latter; `C54_refuted` for assignment |
| C55 | C39 gives the same document up to what `forget` drops; `grows_forget` and `demands_both` show that the demands of the package validators do not depend on that; C51 puts the validators back |
| C56 | a relation `Reordered` (`Spec/Reorder.lean`: same keys, same values under them, at any depth); induction over the input: fields are found by lookup, scores of union members add up in any order, every check of a class sees only what the relation keeps; validators through C53's `Grows` both ways |
| C58 | `context` strings and texts modelled as the code builds them (`Model/RefValidators.lean`); `Spec/Context.lean` has one table of descriptions per place, `Spec/Complain.lean` the sentences; the walk is shown to visit each location with the described context, and templates are shown pairwise apart by a check on their fixed text up to the first quoted name, by `decide +kernel`, then lifted to all names (quote-free, by the key pattern) and positions |
| C57 | `Reference.__hash__` and Python's set (stored hashes, identity or equality) in `Model/HashSet.lean`, for any hash of strings; refinement of a set of strings (`Spec/HashSet.lean`) over histories, by an invariant |
| C59 | pydantic's `__eq__` as a function (`Model/Equal.lean`) against a relation (`Spec/Equal.lean`); induction over values; writing by the members of the written dict, validators through C53's `Grows` both ways |
| C60 | C53's `Grows` read backwards: a path of the smaller document leads to the corresponding thing in the larger one, where paths lead to one thing only, so chains of References agree as far as they go; removal at a location (`Leads`, `Replaced`) by induction along the location; the expected type of a place does not depend on positions in lists (`Lemmas/Place.lean`) |
| C61 | a path of the old document leads in the new one to the same thing (changed inside at most), or to or through the replaced object (`walk_changed`); chains of References by induction along the chain; the places inside a moved object are declared alike at the old and at the new location (`clean_inside`), so C15 gives the same expected types; adding the entry is C53 |
| C62 | processors are state machines (`Py/Program`): change in place, assign and observe whether it raised, return or raise. `Model/Reenter.exec` is an interpreter with a step bound that re-enters the processors at each accepted assignment; `Spec.Ends` the same as an inductive relation; equal for some bound, hence deterministic. No end: by induction on the bound; an end: by induction on the measure, then on the patience of a processor, then on the list; what validators accepted: inversion of the last run |
| C63 | locations (`TAt`) with their JSON path (`Spec/Address.JsonPath`); a location is addressable if it has no list index and no key that is empty or has a slash. Induction over the location gives the pointer (`C63_pointer`, `C63_resolves` in all object graphs), induction over the path that nothing else is ever found (`C63_only`, `C63_exact`); the table of fields shows that all names can be written |
| C64 | a relation `Merged a b m` (`Spec/Merge.lean`); `m` has grown (C53) out of both `a` and `b`, and each of its References stands in one of them, by induction over `Merged`; then C53's monotonicity gives the result |
| C65 | `Model/Live.lean`: the loops with a Python list iterator (position only) over the list as it is in the document at each step, with fuel; equivalent to a relation without fuel (`Spec/Live.lean`); appended, endless, removing cases by induction over it |
| C66 | `Spec/Rename.lean`: `recast` renames entries by location and changes Reference strings; walks, chains and locations correspond (induction over walks and locations), expected types stay by C16 |
| C67 | the reverse of C61: chains through the replaced Reference end at the new object instead (induction over chains); the copied object's References have the same declared slot in both places, so C15 gives the same expected type |
| C68 | `Spec/Json.lean` is the grammar of RFC 8259 as a relation between values and texts; `Model/Json.lean` a recursive-descent reader (with fuel, shown to suffice) and the compact writer. Soundness by induction over the fuel, completeness by induction over the grammar, writing by induction over the value; with C54 and C39 the whole way from text to instance to text |
| C69 | `Py/Objects.lean`: the document, the contents of other list objects, the memory of the processors, and which list object each of the two attributes is; `Model/Objects.lean`: an interpreter with fuel in which loops run over a list object and a position, and an assignment to one of the two attributes makes a new list object. Equivalent to a relation without fuel (`Spec/Objects.lean`) by induction; simulations to C62 (lists not edited in place: every list object keeps its contents) and C65 (no assignments); what validators have seen, by induction on the relation. |
| C70 | `Model/Errors.lean` repeats the validation of `Model/Pyd.lean` with lists of entries in place of `none` and is shown to accept the same, with the same results; `Spec/Errors.lean` says, given what is accepted, which entries there are: by the parts of a value (items, entries, fields, roots, members of a union), and what is missing, not allowed or refused at the value itself. Equivalence by induction over the input and, for unions, the type. |
| C71 | `Model/Messages.lean` gives for each validator of the package the text of its `ValueError`, and the entries of C70 carry it; `Spec/Messages.lean` lists, per class, the messages in order with the situation each is about, and those about keys and single fields. The first message that is the case is shown to be the text, class by class; with C70's equivalence this holds at any depth. |
| C72 | `Py/Object.lean`: values in which each list, dict and instance has an identity (a number of those that were there, or new). `Model/Sharing.lean` repeats `parse` and `assign` on them; forgetting identities gives `Model/Pyd.lean` and `Model/Mutate.lean` back (C72_values, C72_assign_values, by structural induction). `Spec/Sharing.lean` says what is part of an object, which places of a result have no type, and what a change in place does; that all common objects are inside of such places is by induction on the input, for all types. |
| C73 | `Model/JsonSchema.lean`: the schema as a JSON value, from the class table. `Spec/JsonSchema.lean`: validation by JSON Schema (for the keywords that occur) and JSON of the declared types, independently of each other. They agree by induction on the value, with an inner induction on the type; that `$defs` is complete and has no name twice is a kernel-checked table. What is written, conforms or is accepted has the declared types, by induction on each. |
| C74 | `Model/Copy.lean`, on the objects with identity of C72: a deep copy renames identities by a memo, a shallow copy changes only that of the instance. `Spec/Copy.lean`: having nothing in common, histories of changes in place, being built alike. By induction on the object: a deep copy commutes with changes in place. `update` by induction on its entries; `model_construct` compared with validation field by field, with C43. |
| C75 | `Model/Delete.lean`: `__delattr__`. Exactly one key is removed (the keys of an instance are distinct, C41); validity as in C42, validation again by the construction lemma of C43. |
| C76 | `Model/DumpWith.lean`: `model_dump` with four options. `Spec/DumpWith.lean`: which fields an option leaves out, being a value with entries left out or keys respelled, a right record of given fields. By induction on values, as in C36; the record by the construction lemma of C43 and by induction on the history of assignments. Reading by Python names by C40, level by level (not for all levels at once). |

Every property of the list is expressed in the model; none is left out as inexpressible.

## Trusted base, final

* **Lean's kernel** (4.33.0), with the axioms `propext`, `Quot.sound` and `Classical.choice`, no others. Of the theorems
  named in MANIFEST.json most depend on all three; about forty depend on `propext` and `Quot.sound` only or on less
  (`#print axioms` tells). Finite tables are checked by `decide +kernel`, which is kernel evaluation. No Mathlib theorem
  brings in further axioms.
* **That the model says what the code says.** Each definition under `Verif/Model` cites the lines it models; the
  class table, pattern table and factory prefixes are generated from the text by `tools/gen_*.py`.
  `tools/gen_conformance.py` translates the package's own test suite (1448 tests and parametrized cases; 64 are skipped,
  `-s` lists them: private helpers on made-up classes, `issubclass`, JSON Schema, monkeypatching) into `Verif/Conformance/*.lean`, where
  the kernel runs the model on each test's input and checks each of its assertions. These are tests of the model, not proofs,
  and no property rests on them; they found one mistake in the model (the key of a Kafka message), since corrected.
* **pydantic 2.12.5 / pydantic-core 2.41.5** (uv.lock) are not in /repo. What `Verif/Model/Pyd.lean` and `Mutate.lean` say
  about them is an assumption: order of fields, alias before name, extras, `revalidate_instances`, smart unions (number of
  fields given, then exactness, then order), after-validators, `validate_assignment` without rollback, serialization with
  `exclude`, `exclude_if` and aliases; `Model/Json.lean` that texts are read and
  written by RFC 8259 and that JSON is then validated as the same Python data would be; `Model/Equal.lean` on `__eq__` (type, `__dict__`, extras; not the set of given fields); `Model/Errors.lean` on the entries of a `ValidationError` (no `fail_fast`, `loc_by_alias`, nullable schemas add no
  label, all members of a failing union are reported, after-validators run only when there are no entries); `Model/Sharing.lean` that `list[T]`,
  `dict[str, T]` and model classes give new objects and `Any` and extra fields keep the given ones;
  `Model/JsonSchema.lean` what `GenerateJsonSchema` makes of the declarations (default arguments); `Model/Delete.lean` what `__delattr__` does; `Model/DumpWith.lean` what the options of `model_dump` do; `Model/Copy.lean` what `model_copy`, `__copy__`,
  `__deepcopy__` and `model_construct` do.

### Modelled

`validators/utils.py`, `unified_references_validator.py`, `tags_ref_validator.py`, `external_docs_ref_validator.py`
(all methods, with their texts; letter case of ASCII only, which entry names are), the seventeen other `*_ref_validator.py` (they return the document), all of `models/**`: declarations, configuration, validators, `as_builder`,
`run_extra_processors`, `PatternedRootModel`'s methods, `Reference.to_*` factories.

### Left open as parameters (theorems hold for every value of them)

* `\d`, `\w`, digit values outside ASCII (`Uni`); `sys.get_int_max_str_digits()`.
* lax conversions of pydantic (string to int, float to int, …) and URL parsing; of the latter only that a normal form is
  its own normal form (so web addresses whose normal form, but not they themselves, exceeds pydantic's limit of 2083 characters are left aside).
* the choice in a union between a model and a value that is no model (`mixed`), and whether a model made from a dict counts as
  a strict or a lax match (`built`). Only one field of one class has such a union, `KafkaMessageBindings.key`
  (`Schema | Reference | dict`), so most theorems do not depend on these; where they matter (C38, C39, C46) a theorem says what
  it needs. pydantic-core chooses by exactness and counts strictly; so do the package's own tests (tests/models/bindings/test_kafka.py:552-600),
  and that choice is used in the examples and in `Verif/Conformance`.
* what user processors do to a document.

### Not modelled

* `__init__.py` re-exports; the parts of a JSON Schema that check nothing (titles, descriptions, defaults, examples);
* texts of error messages other than those of the two reference validators above (those of `UnifiedReferencesValidator` and `resolve_reference` are modelled by what they show) and of the entries of a `ValidationError` (where they are and whether something is missing, not allowed or otherwise wrong is modelled, C70, and the texts of the package's own validators, C71; texts of pydantic, of `int()` and of processors, `input`, order of labels and label texts are not; an exception of a processor that is not a `ValueError` or `AssertionError` is raised as it is and not as a `ValidationError`); log levels and loggers; CPython's recursion limit
  and memory;
* `include`, `exclude`, `round_trip` and `context` of `model_dump`; `__replace__`, pickling, subclassing by users (the reference validators are proved for
  any class table, the rest for the package's own classes);
* inputs with keys that are no strings, `Mapping`s other than `dict`, other sequences than `list`, enum members, floats other
  than as opaque values, NaN; `NaN`/`Infinity` in JSON text, integers of more than 4300 digits and UTF-8 (C68); other differences between pydantic's
  JSON and Python modes;
* identities of objects are modelled for the two lists of processors while they are iterated over (C69) and for what validation and assignment share with their input (C72, for processors that only check); elsewhere a document is a value. `__pydantic_fields_set__` has no identity.

### Where the code falls short of its documentation

Proved as `*_refuted` theorems, next to what does hold (status *partial* in MANIFEST.json):

1. `re.match` with `$` accepts one trailing newline in keys, extension names, e-mail addresses and versions (C20–C23).
2. `TagsRefValidator` and `ExternalDocsRefValidator` delete every occurrence of the prefix, so a doubled prefix passes
   (C17, C18); seven places where the documentation promises a check of externalDocs are never visited (C18_unvisited).
3. `UnifiedReferencesValidator` rejects correct References in tags, security, externalDocs and correlationId of inline
   traits (C15), and under entries named like slots, such as `root` or `channel` (C16).
4. Item assignment is not validated, an assignment refused by a rule between fields stays in effect, and changing an inner
   instance can make the outer one invalid (C35).
5. Dump and parse are not inverse for explicit nulls in certain schemas and for fields with non-null defaults, nor for an
   empty Schema as the key of a Kafka message (C39).
6. A JSON Schema with a key `schema` becomes a MultiFormatSchema, a MultiFormatSchema with a non-string schemaFormat a
   Schema (C46). IBM MQ: a queue with destinationType topic is accepted (C29). `asyncapi` and `schemaFormat` are not
   required (C45).
7. A JSON Schema with a key `external_docs` (a MultiFormatSchema with `schema_format`, a Kafka topic configuration with
   `cleanup_policy`, …) is read as the declared field of that Python name, and may be refused (C49); one with the single key
   `ref` is read as a Reference and written with `$ref` (C50). The `schemaFormat` filled in is
   `application/vnd.aai.asyncapi;version=3.0.0`, while the field's description says `…asyncapi+json;version=…`.
8. Assigning to the JSON name of a declared field of a Schema (`schema.externalDocs = …`) adds an extra field, and both are
   written under that key (C54). An extra field `root` holding an object hides the declared fields of its Schema from
   reference paths (C53).
9. README.md:261 calls `AsyncAPI3.model_validate_yaml`, which does not exist (not a property; noted while reading).
10. `TagsRefValidator` and `ExternalDocsRefValidator` put `context.capitalize()` into texts, which lower-cases the names of
    entries: channels `Orders` and `orders` cannot be told apart (C58).
11. `AsyncAPI3` validates assignments and runs its processors in an `after` validator, so a converter that assigns to the
    document (its purpose) runs all converters and validators again, nested; one that does so unconditionally ends in
    RecursionError (C62). Nothing in the package or its documentation says so.
12. References know neither list indices nor extra fields nor escapes (RFC 6901 `~1`, `%2F`): `#/components/schemas/User/properties/id`
    and the like, common in AsyncAPI documents, are always refused, and a server variable named `a/b` cannot be referred to (C63).
13. A converter that removes itself from `extra_converters` makes the loop skip the next one, silently; one that always
    appends never ends (C65). `doc.extra_converters = []` in a converter does not end the loop, `.clear()` does (C69).
14. Replacing a Reference to a trait by the trait itself makes `UnifiedReferencesValidator` refuse the document, if the trait
    refers to tags, security schemes, external docs or a correlation id (C67; a consequence of 3).
15. The package's map objects are root models, so a shallow copy of one (`doc.channels.model_copy()`) has the dict of the original:
    storing an entry in the copy stores it in the document (C74; how pydantic copies root models).
