import Verif.Spec.Refs
/-!
# How TagsRefValidator and ExternalDocsRefValidator describe a location

Nothing here refers to `Verif/Model`.
-/
namespace Verif.Spec
open Verif Verif.Gen

/-- A piece of a description: fixed text, the `i`-th entry name of the location, or its `i`-th list index. -/
inductive Piece where
  | text (s : Str)
  | name (i : Nat)
  | index (i : Nat)
  deriving DecidableEq, Repr

/-- The entry names on the way, outermost first. -/
def namesOn (steps : List LocStep) : List Str :=
  steps.filterMap fun st => match st with | .key k => some k | _ => none

/-- The list indices on the way, outermost first. -/
def indicesOn (steps : List LocStep) : List Nat :=
  steps.filterMap fun st => match st with | .index i => some i | _ => none

/-- A description filled in. -/
def fill (names : List Str) (indices : List Nat) (t : List Piece) : Str :=
  t.flatMap fun
    | .text s => s
    | .name i => names.getD i []
    | .index i => Nat.toDigits 10 (indices.getD i 0)

/-- `{what} '{name}'`. -/
def entry (what : Str) (i : Nat) : List Piece := [.text (what ++ p!" '"), .name i, .text p!"'"]

/-- `message '{name}' in {what} '{name}'`. -/
def message (what : Str) : List Piece := entry p!"message" 1 ++ .text p!" in " :: entry what 0

/-- How each place of a tag reference is described. -/
def tagContexts : List (List PStep × List Piece) := [
  (.field p!"info" :: itemsIn p!"tags", [.text p!"info"]),
  (entriesOf [p!"servers"] ++ itemsIn p!"tags", entry p!"server" 0),
  (entriesOf [p!"channels"] ++ itemsIn p!"tags", entry p!"channel" 0),
  (messagesOf [p!"channels"] ++ itemsIn p!"tags", message p!"channel"),
  (entriesOf [p!"operations"] ++ itemsIn p!"tags", entry p!"operation" 0),
  (entriesOf [p!"components", p!"messages"] ++ itemsIn p!"tags", entry p!"components message" 0),
  (entriesOf [p!"components", p!"channels"] ++ itemsIn p!"tags", entry p!"components channel" 0),
  (entriesOf [p!"components", p!"operations"] ++ itemsIn p!"tags", entry p!"components operation" 0),
  (entriesOf [p!"components", p!"servers"] ++ itemsIn p!"tags", entry p!"components server" 0),
  (entriesOf [p!"components", p!"operation_traits"] ++ itemsIn p!"tags", entry p!"components operation trait" 0),
  (entriesOf [p!"components", p!"message_traits"] ++ itemsIn p!"tags", entry p!"components message trait" 0),
  (messagesOf [p!"components", p!"channels"] ++ itemsIn p!"tags", message p!"components channel"),
  (entriesOf [p!"components", p!"tags"], entry p!"components tag" 0)]

/-- How each place of an external documentation reference is described. -/
def docContexts : List (List PStep × List Piece) :=
  let docs : List PStep := [.field p!"external_docs"]
  let tags := itemsIn p!"tags" ++ docs
  let traits := itemsIn p!"traits"
  let msg := message p!"channel"
  let op := entry p!"operation" 0
  [ (.field p!"info" :: docs, [.text p!"info"]),
    (.field p!"info" :: tags, [.text p!"tag at info.tags[", .index 0, .text p!"]"]),
    (entriesOf [p!"servers"] ++ docs, entry p!"server" 0),
    (entriesOf [p!"channels"] ++ docs, entry p!"channel" 0),
    (messagesOf [p!"channels"] ++ docs, msg),
    (messagesOf [p!"channels"] ++ .field p!"headers" :: docs, .text p!"headers in " :: msg),
    (messagesOf [p!"channels"] ++ .field p!"payload" :: docs, .text p!"payload in " :: msg),
    (messagesOf [p!"channels"] ++ tags, [.text p!"tag ", .index 0, .text p!" in tags in "] ++ msg),
    (messagesOf [p!"channels"] ++ traits ++ docs, [.text p!"trait ", .index 0, .text p!" in "] ++ msg),
    (messagesOf [p!"channels"] ++ traits ++ .field p!"headers" :: docs,
      [.text p!"headers in trait ", .index 0, .text p!" in "] ++ msg),
    (messagesOf [p!"channels"] ++ traits ++ tags,
      [.text p!"tag ", .index 1, .text p!" in tags in trait ", .index 0, .text p!" in "] ++ msg),
    (entriesOf [p!"operations"] ++ docs, op),
    (entriesOf [p!"operations"] ++ tags, [.text p!"tag ", .index 0, .text p!" in tags in "] ++ op),
    (entriesOf [p!"operations"] ++ traits ++ docs, [.text p!"trait ", .index 0, .text p!" in "] ++ op),
    (entriesOf [p!"operations"] ++ traits ++ tags,
      [.text p!"tag ", .index 1, .text p!" in tags in trait ", .index 0, .text p!" in "] ++ op),
    (entriesOf [p!"components", p!"channels"] ++ docs, entry p!"components channel" 0),
    (entriesOf [p!"components", p!"external_docs"],
      [.text p!"components.externalDocs['", .name 0, .text p!"']"]),
    (entriesOf [p!"components", p!"messages"] ++ docs, entry p!"components message" 0),
    (entriesOf [p!"components", p!"messages"] ++ .field p!"headers" :: docs,
      .text p!"headers in " :: entry p!"components message" 0),
    (entriesOf [p!"components", p!"messages"] ++ .field p!"payload" :: docs,
      .text p!"payload in " :: entry p!"components message" 0),
    (entriesOf [p!"components", p!"message_traits"] ++ docs, entry p!"components message trait" 0),
    (entriesOf [p!"components", p!"message_traits"] ++ .field p!"headers" :: docs,
      .text p!"headers in " :: entry p!"components message trait" 0),
    (entriesOf [p!"components", p!"operations"] ++ docs, entry p!"components operation" 0),
    (entriesOf [p!"components", p!"operation_traits"] ++ docs, entry p!"components operation trait" 0),
    (entriesOf [p!"components", p!"servers"] ++ docs, entry p!"components server" 0),
    (entriesOf [p!"components", p!"tags"] ++ docs, entry p!"tag" 0),
    (entriesOf [p!"components", p!"schemas"] ++ docs, entry p!"schema" 0)]

/-- The description of a location, from such a table. -/
def describe (table : List (List PStep × List Piece)) (steps : List LocStep) : Str :=
  match table.find? fun e => decide (e.1 = steps.map LocStep.shape) with
  | some e => fill (namesOn steps) (indicesOn steps) e.2
  | none => []

end Verif.Spec
