import Verif.Gen.Classes
/-!
# Model of `TagsRefValidator` and `ExternalDocsRefValidator`
(asyncapi3/validators/tags_ref_validator.py, external_docs_ref_validator.py)

One definition per method. A warning is represented by the context and the reference
string it reports; `tagWarning`, `tagError`, `docWarning`, `docError` give the texts.
The methods meant to be overridden by users are modelled as shipped.
-/
namespace Verif.RefV
open Verif Verif.Gen

variable {n : Nat}

/-- What can be raised. `typeError` stands for whatever Python raises when a
value of an unexpected type is iterated or searched.
tags_ref_validator.py:255-293, external_docs_ref_validator.py:526-564. -/
inductive Err where
  | pointsElsewhere (context ref : Str)
  | missing (context key : Str)
  | attributeError (name : Str)
  | typeError
  deriving DecidableEq, Repr

/-- Warnings logged, then success or an exception.
tags_ref_validator.py:35-293, external_docs_ref_validator.py:27-564. -/
structure Out where
  warn : List (Str × Str)
  res : Except Err Unit

/-- `pass` / `return`. tags_ref_validator.py:35-293, external_docs_ref_validator.py:27-564. -/
def Out.ok : Out := ⟨[], .ok ()⟩
/-- `raise`. tags_ref_validator.py:35-293, external_docs_ref_validator.py:27-564. -/
def Out.fail (e : Err) : Out := ⟨[], .error e⟩

/-- Python statement sequence: the second runs only if the first did not raise.
tags_ref_validator.py:35-293, external_docs_ref_validator.py:27-564. -/
def Out.andThen (a b : Out) : Out :=
  match a.res with
  | .ok _ => ⟨a.warn ++ b.warn, b.res⟩
  | .error _ => a

/-- Statements in order. tags_ref_validator.py:35-293, external_docs_ref_validator.py:27-564. -/
def seqAll : List Out → Out
  | [] => .ok
  | o :: os => o.andThen (seqAll os)

/-- `bool(v)`: `None`, empty strings, lists and dicts are false, and so are
patterned objects with an empty root (`__len__`, base_models.py:105). Numbers
and booleans (`atom`) count as true; the validators never test any. -/
def truthy (D : Doc Cls n) : Val n → Bool
  | .none => false
  | .str s => !s.isEmpty
  | .atom _ => true
  | .ptr a => match D.node a with
    | .list xs => !xs.isEmpty
    | .dict kvs => !kvs.isEmpty
    | .model c fs _ =>
      if (classDef c).kind = .patterned then
        match lookup p!"root" fs with
        | some r => match D.asDict r with
          | some kvs => !kvs.isEmpty
          | none => true
        | none => true
      else true

/-- `x = v.name; ...`. tags_ref_validator.py:35-293, external_docs_ref_validator.py:27-564. -/
def attr (D : Doc Cls n) (v : Val n) (name : Str) (k : Val n → Out) : Out :=
  match D.getattr v name with
  | some w => k w
  | none => .fail (.attributeError name)

/-- `if not v: return` (or `continue`); then `k`.
tags_ref_validator.py:35-293, external_docs_ref_validator.py:27-564. -/
def ifTruthy (D : Doc Cls n) (v : Val n) (k : Val n → Out) : Out :=
  if truthy D v then k v else .ok

/-- `if isinstance(v, Reference): continue`; then `k`.
tags_ref_validator.py:35-293, external_docs_ref_validator.py:27-564. -/
def unlessRef (D : Doc Cls n) (v : Val n) (k : Val n → Out) : Out :=
  if D.isRef table v then .ok else k v

/-- `if isinstance(v, Reference): k(v)`. tags_ref_validator.py:35-293, external_docs_ref_validator.py:27-564. -/
def ifRef (D : Doc Cls n) (v : Val n) (k : Val n → Out) : Out :=
  if D.isRef table v then k v else .ok

/-- `for i, x in enumerate(v): k(i, x)` for a list; `for x in v: k(x)` where `k` ignores the index.
tags_ref_validator.py:35-293, external_docs_ref_validator.py:27-564. -/
def forList (D : Doc Cls n) (v : Val n) (k : Nat → Val n → Out) : Out :=
  match v with
  | .ptr a => match D.node a with
    | .list xs => seqAll (xs.zipIdx.map fun p => k p.2 p.1)
    | _ => .fail .typeError
  | _ => .fail .typeError

/-- `for name, x in v.root.items(): k(name, x)`. tags_ref_validator.py:35-293, external_docs_ref_validator.py:27-564. -/
def forItems (D : Doc Cls n) (v : Val n) (k : Str → Val n → Out) : Out :=
  attr D v p!"root" fun r => match D.asDict r with
    | some kvs => seqAll (kvs.map fun p => k p.1 p.2)
    | none => .fail .typeError

/-- `f"{what} '{name}'"`, and what `"{what} '{{name}}'".format(name=name)` gives (e.g. tags_ref_validator.py:87,
external_docs_ref_validator.py:552). -/
def quoted (what name : Str) : Str := what ++ p!" '" ++ name ++ p!"'"

/-- `f"{what} in {context}"` (e.g. external_docs_ref_validator.py:132, 565). -/
def inside (what context : Str) : Str := what ++ p!" in " ++ context

/-- `f"{what} {i}"` (e.g. external_docs_ref_validator.py:192, 565). -/
def numbered (what : Str) (i : Nat) : Str := what ++ p!" " ++ Nat.toDigits 10 i

/-- `not spec.components or not spec.components.F or key not in spec.components.F.root`,
negated (tags_ref_validator.py:285-289, external_docs_ref_validator.py:528-532). -/
def whenKeyExists (D : Doc Cls n) (F key context : Str) : Out :=
  attr D (.ptr D.spec) p!"components" fun c =>
    if truthy D c then attr D c F fun coll =>
      if truthy D coll then attr D coll p!"root" fun r =>
        match D.asDict r with
        | some kvs => if (lookup key kvs).isSome then .ok else .fail (.missing context key)
        | none => .fail .typeError
      else .fail (.missing context key)
    else .fail (.missing context key)

/-- `validate_tag_ref` with `validate_internal_tag_ref` and
`validate_external_tag_ref` (tags_ref_validator.py:208-293), and
`validate_external_doc_ref` etc. (external_docs_ref_validator.py:449-536), which
differ only in the constants: attribute `F` of `components`, prefix `pre`, and in the texts
(`tagError`, `tagWarning`, `docError`, `docWarning`). -/
def validateRef (D : Doc Cls n) (F pre context : Str) (ref : Val n) : Out :=
  attr D ref p!"ref" fun v => match v with
    | .str s =>
      if Str.startsWith s p!"#" then
        if Str.startsWith s pre then whenKeyExists D F (Str.replace s pre []) context
        else .fail (.pointsElsewhere context s)
      else ⟨[(context, s)], .ok ()⟩
    | _ => .fail .typeError

/-! ### The texts -/

/-- `str.capitalize`, of a string of ASCII characters: the first character in upper case, the others in lower case.
Contexts begin with an ASCII letter, and names of entries have ASCII characters only in valid documents (C20); for
other characters Python has more case mappings. tags_ref_validator.py:252, external_docs_ref_validator.py:494. -/
def capitalize : Str → Str
  | [] => []
  | c :: cs => c.toUpper :: cs.map Char.toLower

/-- The text of the warning of `validate_external_tag_ref`, tags_ref_validator.py:251-254. -/
def tagWarning (w : Str × Str) : Str :=
  capitalize w.1 ++ p!" tag reference '" ++ w.2 ++ p!"' is external. Cannot validate external references."

/-- The texts of the errors of `validate_internal_tag_ref`, tags_ref_validator.py:278-282, 290-293. Other exceptions
have texts of Python's own. -/
def tagError : Err → Option Str
  | .pointsElsewhere context s => some (capitalize context ++ p!" tag reference '" ++ s ++
      p!"' must point to #/components/tags/ but points elsewhere.")
  | .missing context key => some (capitalize context ++ p!" references tag '" ++ key ++
      p!"' but tag does not exist in components/tags.")
  | _ => none

/-- The text of the warning of `validate_external_external_doc_ref`, external_docs_ref_validator.py:490-496. -/
def docWarning (w : Str × Str) : Str :=
  capitalize w.1 ++ p!" external documentation reference '" ++ w.2 ++
    p!"' is external. Cannot validate external references."

/-- The texts of the errors of `validate_internal_external_doc_ref`, external_docs_ref_validator.py:520-525, 533-536. -/
def docError : Err → Option Str
  | .pointsElsewhere context s => some (capitalize context ++ p!" external documentation reference '" ++ s ++
      p!"' must point to #/components/externalDocs/ but points elsewhere.")
  | .missing context key => some (capitalize context ++ p!" references external documentation '" ++ key ++
      p!"' but it does not exist in components/externalDocs.")
  | _ => none

/-! ### TagsRefValidator -/

/-- `validate_tag_ref`, tags_ref_validator.py:208-293. -/
def validateTagRef (D : Doc Cls n) (context : Str) : Val n → Out := validateRef D p!"tags" p!"#/components/tags/" context

/-- `_validate_tags_list`, tags_ref_validator.py:64-74. -/
def tagsList (D : Doc Cls n) (context : Str) (tags : Val n) : Out :=
  forList D tags fun _ tag => ifRef D tag (validateTagRef D context)

/-- One iteration of `_validate_tags_in_collection`, tags_ref_validator.py:83-88. -/
def tagsOfObject (D : Doc Cls n) (context : Str) (obj : Val n) : Out :=
  match D.getattr obj p!"tags" with
  | none => .ok
  | some tags => if truthy D tags then tagsList D context tags else .ok

/-- `_validate_tags_in_collection` of a collection's `root`, with the template `"{what} '{name}'"`,
tags_ref_validator.py:76-88. -/
def tagsInCollection (D : Doc Cls n) (what : Str) (coll : Val n) : Out :=
  forItems D coll fun name => tagsOfObject D (quoted what name)

/-- `if not spec.F: return`, then `k(spec.F)` (e.g. tags_ref_validator.py:98). -/
def inRoot (D : Doc Cls n) (F : Str) (k : Val n → Out) : Out :=
  attr D (.ptr D.spec) F fun v => ifTruthy D v k

/-- `if not spec.components or not spec.components.F: return`, then
`k(spec.components.F)` (e.g. tags_ref_validator.py:118). -/
def inComponents (D : Doc Cls n) (F : Str) (k : Val n → Out) : Out :=
  inRoot D p!"components" fun c => attr D c F fun v => ifTruthy D v k

/-- `validate_info_tags_refs`, tags_ref_validator.py:90-94. -/
def tagsInfo (D : Doc Cls n) : Out :=
  inRoot D p!"info" fun i => attr D i p!"tags" fun ts => ifTruthy D ts (tagsList D p!"info")

/-- The loops of `validate_channels_messages_tags_refs` (tags_ref_validator.py:168-183) and
`validate_components_channels_messages_tags_refs` (185-200), below the channels. -/
def tagsChannelMessages (D : Doc Cls n) (what : Str) (channels : Val n) : Out :=
  forItems D channels fun channelName ch => unlessRef D ch fun ch => attr D ch p!"messages" fun ms =>
    ifTruthy D ms fun ms => forItems D ms fun messageName m => unlessRef D m fun m =>
      attr D m p!"tags" fun ts => ifTruthy D ts
        (tagsList D (inside (quoted p!"message" messageName) (quoted what channelName)))

/-- `validate_components_tags_refs`, tags_ref_validator.py:202-208. -/
def tagsComponentsTags (D : Doc Cls n) (coll : Val n) : Out :=
  forItems D coll fun name tag => ifRef D tag (validateTagRef D (quoted p!"components tag" name))

/-- `TagsRefValidator.__call__`, tags_ref_validator.py:35-62: the thirteen methods in order
(tags_ref_validator.py:90-208). -/
def validateTags (D : Doc Cls n) : Out := seqAll [
  tagsInfo D,
  inRoot D p!"servers" (tagsInCollection D p!"server"),
  inRoot D p!"channels" (tagsInCollection D p!"channel"),
  inRoot D p!"channels" (tagsChannelMessages D p!"channel"),
  inRoot D p!"operations" (tagsInCollection D p!"operation"),
  inComponents D p!"messages" (tagsInCollection D p!"components message"),
  inComponents D p!"channels" (tagsInCollection D p!"components channel"),
  inComponents D p!"operations" (tagsInCollection D p!"components operation"),
  inComponents D p!"servers" (tagsInCollection D p!"components server"),
  inComponents D p!"operation_traits" (tagsInCollection D p!"components operation trait"),
  inComponents D p!"message_traits" (tagsInCollection D p!"components message trait"),
  inComponents D p!"channels" (tagsChannelMessages D p!"components channel"),
  inComponents D p!"tags" (tagsComponentsTags D)]

/-! ### ExternalDocsRefValidator -/

/-- `validate_external_doc_ref`, external_docs_ref_validator.py:449-536. -/
def validateDocRef (D : Doc Cls n) (context : Str) : Val n → Out :=
  validateRef D p!"external_docs" p!"#/components/externalDocs/" context

/-- `_validate_ref_field`, external_docs_ref_validator.py:435-447. -/
def refField (D : Doc Cls n) (context : Str) (obj : Val n) : Out :=
  match D.getattr obj p!"external_docs" with
  | none => .ok
  | some d => if truthy D d then ifRef D d (validateDocRef D context) else .ok

/-- `_validate_external_docs_collection` of a collection's `root`, `what` being
`f"{prefix}{item_type}"`, external_docs_ref_validator.py:538-552. An empty root makes the loop empty, so the test of
line 546 is omitted. -/
def docsCollection (D : Doc Cls n) (what : Str) (coll : Val n) : Out :=
  forItems D coll fun name x => unlessRef D x (refField D (quoted what name))

/-- `_validate_tags_external_docs_refs`, external_docs_ref_validator.py:554-565. -/
def docsTags (D : Doc Cls n) (context : Str) (tags : Val n) : Out :=
  forList D tags fun i tag => unlessRef D tag (refField D (inside (numbered p!"tag" i) context))

/-- `validate_info_external_docs_ref`, external_docs_ref_validator.py:73-77. -/
def docsInfo (D : Doc Cls n) : Out := inRoot D p!"info" (refField D p!"info")

/-- `validate_info_tags_external_docs_refs`, external_docs_ref_validator.py:79-88. -/
def docsInfoTags (D : Doc Cls n) : Out :=
  inRoot D p!"info" fun i => attr D i p!"tags" fun ts => ifTruthy D ts fun ts =>
    forList D ts fun i tag => unlessRef D tag (refField D (p!"tag at info.tags[" ++ Nat.toDigits 10 i ++ p!"]"))

/-- `if isinstance(x, Reference) or not x.F: continue`, then `k(x.F)`
(e.g. external_docs_ref_validator.py:123). -/
def below (D : Doc Cls n) (F : Str) (k : Val n → Out) (x : Val n) : Out :=
  unlessRef D x fun x => attr D x F fun v => ifTruthy D v k

/-- The outer two loops shared by the `validate_channels_messages_*` methods
(e.g. external_docs_ref_validator.py:106-115): `k` on each message, given
`f"message '{msg_name}' in channel '{channel_name}'"`. -/
def channelMessages (D : Doc Cls n) (k : Str → Val n → Out) (channels : Val n) : Out :=
  forItems D channels fun channelName => below D p!"messages" fun ms => forItems D ms fun msgName =>
    k (inside (quoted p!"message" msgName) (quoted p!"channel" channelName))

/-- `validate_channels_messages_external_docs_refs`, external_docs_ref_validator.py:102-115. -/
def docsChMsg (D : Doc Cls n) : Out :=
  inRoot D p!"channels" (channelMessages D fun context m => unlessRef D m (refField D context))

/-- `validate_channels_messages_headers_external_docs_refs`, lines 117-134. external_docs_ref_validator.py. -/
def docsChMsgHeaders (D : Doc Cls n) : Out :=
  inRoot D p!"channels" (channelMessages D fun context =>
    below D p!"headers" (refField D (inside p!"headers" context)))

/-- `validate_channels_messages_payload_external_docs_refs`, lines 136-153. external_docs_ref_validator.py. -/
def docsChMsgPayload (D : Doc Cls n) : Out :=
  inRoot D p!"channels" (channelMessages D fun context =>
    below D p!"payload" (refField D (inside p!"payload" context)))

/-- `validate_channels_messages_tags_external_docs_refs`, lines 155-172. external_docs_ref_validator.py. -/
def docsChMsgTags (D : Doc Cls n) : Out :=
  inRoot D p!"channels" (channelMessages D fun context =>
    below D p!"tags" (docsTags D (inside p!"tags" context)))

/-- `validate_channels_messages_traits_external_docs_refs`, lines 174-194. external_docs_ref_validator.py. -/
def docsChMsgTraits (D : Doc Cls n) : Out :=
  inRoot D p!"channels" (channelMessages D fun context => below D p!"traits" fun ts =>
    forList D ts fun i t => unlessRef D t (refField D (inside (numbered p!"trait" i) context)))

/-- `validate_channels_messages_traits_headers_external_docs_refs`, lines 196-216. external_docs_ref_validator.py. -/
def docsChMsgTraitsHeaders (D : Doc Cls n) : Out :=
  inRoot D p!"channels" (channelMessages D fun context => below D p!"traits" fun ts =>
    forList D ts fun i => below D p!"headers"
      (refField D (inside p!"headers" (inside (numbered p!"trait" i) context))))

/-- `validate_channels_messages_traits_tags_external_docs_refs`, lines 218-238. external_docs_ref_validator.py. -/
def docsChMsgTraitsTags (D : Doc Cls n) : Out :=
  inRoot D p!"channels" (channelMessages D fun context => below D p!"traits" fun ts =>
    forList D ts fun i => below D p!"tags"
      (docsTags D (inside p!"tags" (inside (numbered p!"trait" i) context))))

/-- `validate_operations_tags_external_docs_refs`, lines 246-255. external_docs_ref_validator.py. -/
def docsOpTags (D : Doc Cls n) : Out :=
  inRoot D p!"operations" fun os => forItems D os fun name =>
    below D p!"tags" (docsTags D (inside p!"tags" (quoted p!"operation" name)))

/-- `validate_operations_traits_external_docs_refs`, lines 257-269. external_docs_ref_validator.py. -/
def docsOpTraits (D : Doc Cls n) : Out :=
  inRoot D p!"operations" fun os => forItems D os fun name => below D p!"traits" fun ts =>
    forList D ts fun i t => unlessRef D t
      (refField D (inside (numbered p!"trait" i) (quoted p!"operation" name)))

/-- `validate_operations_traits_tags_external_docs_refs`, lines 271-287. external_docs_ref_validator.py. -/
def docsOpTraitsTags (D : Doc Cls n) : Out :=
  inRoot D p!"operations" fun os => forItems D os fun name => below D p!"traits" fun ts =>
    forList D ts fun i => below D p!"tags"
      (docsTags D (inside p!"tags" (inside (numbered p!"trait" i) (quoted p!"operation" name))))

/-- `validate_components_external_docs_external_docs_refs`, lines 300-313. external_docs_ref_validator.py. -/
def docsCompDocs (D : Doc Cls n) : Out :=
  inComponents D p!"external_docs" fun c => forItems D c fun name d =>
    ifRef D d (validateDocRef D (p!"components.externalDocs['" ++ name ++ p!"']"))

/-- `validate_components_schemas_external_docs_refs`, lines 423-433; the `hasattr` test of
line 432 repeats the one of `_validate_ref_field`. external_docs_ref_validator.py. -/
def docsCompSchemas (D : Doc Cls n) : Out :=
  inComponents D p!"schemas" fun c => forItems D c fun name s =>
    if (D.getattr s p!"external_docs").isSome then refField D (quoted p!"schema" name) s else .ok

/-- The loops of `validate_components_messages_headers_external_docs_refs`,
`validate_components_messages_payload_external_docs_refs` and
`validate_components_message_traits_headers_external_docs_refs`: the field `F` of each entry.
external_docs_ref_validator.py:324-348, 363-376. -/
def docsCompField (D : Doc Cls n) (what F : Str) (coll : Val n) : Out :=
  forItems D coll fun name => below D F (refField D (inside F (quoted what name)))

/-- `ExternalDocsRefValidator.__call__`, external_docs_ref_validator.py:27-71: the twenty-seven
methods in order (lines 73-433). `validate_components_tags_external_docs_refs` (415-423) is written out there and
has the context `f"tag '{name}'"`. -/
def validateDocs (D : Doc Cls n) : Out := seqAll [
  docsInfo D,
  docsInfoTags D,
  inRoot D p!"servers" (docsCollection D p!"server"),
  inRoot D p!"channels" (docsCollection D p!"channel"),
  docsChMsg D,
  docsChMsgHeaders D,
  docsChMsgPayload D,
  docsChMsgTags D,
  docsChMsgTraits D,
  docsChMsgTraitsHeaders D,
  docsChMsgTraitsTags D,
  inRoot D p!"operations" (docsCollection D p!"operation"),
  docsOpTags D,
  docsOpTraits D,
  docsOpTraitsTags D,
  inComponents D p!"channels" (docsCollection D p!"components channel"),
  docsCompDocs D,
  inComponents D p!"messages" (docsCollection D p!"components message"),
  inComponents D p!"messages" (docsCompField D p!"components message" p!"headers"),
  inComponents D p!"messages" (docsCompField D p!"components message" p!"payload"),
  inComponents D p!"message_traits" (docsCollection D p!"components message trait"),
  inComponents D p!"message_traits" (docsCompField D p!"components message trait" p!"headers"),
  inComponents D p!"operations" (docsCollection D p!"components operation"),
  inComponents D p!"operation_traits" (docsCollection D p!"components operation trait"),
  inComponents D p!"servers" (docsCollection D p!"components server"),
  inComponents D p!"tags" (docsCollection D p!"tag"),
  docsCompSchemas D]

end Verif.RefV
