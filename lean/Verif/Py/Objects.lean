import Verif.Py.Value
/-!
# Programs that work on a document and its list objects

Processors again (`Verif/Py/Program.lean`), but with what Python lets them do besides: keep data from call to call, change
lists in place, and keep hold of a list that is no longer an attribute of the document. A list object has a number, its
identity.
-/
namespace Verif
open Verif.Gen

/-- The items of a list; anything else has none. (asyncapi3/models/asyncapi.py:286, 293: a null attribute is not iterated.) -/
def V.items : V → List V
  | .list l => l
  | _ => []

/-- What a processor can change without assigning: the document, in place, together with the two lists in it; the contents
of the other list objects; and whatever else it remembers (globals, class attributes, files).
Any asyncapi3/protocols.py:13-28. -/
structure Store (M : Type) where
  doc : V
  others : Nat → List V
  memory : M

/-- The store, and which list objects the attributes `extra_converters` and `extra_validators` are; `made` is the number of the
next list object. asyncapi3/models/asyncapi.py:137-155. Simplification: of all the objects of the document, only these two
lists have an identity. -/
structure World (M : Type) extends Store M where
  converters : Nat
  validators : Nat
  made : Nat

/-- What is in a list object now. -/
def World.items {M : Type} (w : World M) (j : Nat) : List V :=
  if j = w.converters then (w.doc.attr p!"extra_converters").items
  else if j = w.validators then (w.doc.attr p!"extra_validators").items
  else w.others j

/-- The world after changes that are no assignments. -/
def World.changed {M : Type} (w : World M) (s : Store M) : World M :=
  ⟨s, w.converters, w.validators, w.made⟩

/-- What a processor does next: it returns (`ok`) or raises, leaving the store `s`; or it executes `document.name = x`, having
changed the store to `s`, and goes on in the state `next true` if that succeeded and `next false` if it raised.
Any asyncapi3/protocols.py:13-28. -/
inductive Move (σ M : Type) where
  | stop (s : Store M) (ok : Bool)
  | assign (s : Store M) (name : Str) (x : V) (next : Bool → σ)

/-- The processor classes by number: the state `n()` starts in (asyncapi3/models/asyncapi.py:288, 295), and what it does in each
state, seeing the whole world. -/
structure Actors where
  State : Type
  Memory : Type
  start : Nat → State
  act : State → World Memory → Move State Memory

/-- What may be executed: a processor's body from a state, an assignment to an attribute of the document, the `mode="after"`
validators of the document, or the loop over a list object from a position on. -/
inductive Job (σ : Type) where
  | body (s : σ)
  | assign (name : Str) (x : V)
  | after
  | loop (list position : Nat)

end Verif
