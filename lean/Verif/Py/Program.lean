import Verif.Py.Value
/-!
# Programs that work on a document

What the user's processors may do. `ProcessorProtocol` (asyncapi3/protocols.py:13-28) leaves it open:
a processor is any class whose instances can be called with the document.
-/
namespace Verif
open Verif.Gen

/-- What a processor does next, seen from outside: it returns (`ok`) or raises (not `ok`), leaving the
document `doc`; or it executes `document.name = x`, having changed the document to `doc` in place, and goes on in
the state `next true` if the assignment succeeded and `next false` if it raised.
Any asyncapi3/protocols.py:13-28. -/
inductive Action (σ : Type) where
  | stop (doc : V) (ok : Bool)
  | assign (doc : V) (name : Str) (x : V) (next : Bool → σ)

/-- The processor classes by number: the state `n()` starts in (asyncapi3/models/asyncapi.py:288, 295), and what it
does in each state on seeing the document. Simplification: a processor is determined by its
own state and the document; it keeps nothing from call to call outside of the document. -/
structure Programs where
  State : Type
  start : Nat → State
  act : State → V → Action State

/-- What may be executed: a processor's body from a state, an assignment to an attribute of the document, the
`mode="after"` validators of the document, or the calls of a list of processor classes.
asyncapi3/models/asyncapi.py:277-296, asyncapi3/models/base_models.py:29. -/
inductive Task (σ : Type) where
  | body (s : σ)
  | assign (name : Str) (x : V)
  | after
  | calls (ps : List V)

/-- What an execution did: the processors called, in order and on which document; the document at
the end; and whether it came to an end without raising. -/
abbrev Effect := List (Nat × V) × V × Bool

end Verif
