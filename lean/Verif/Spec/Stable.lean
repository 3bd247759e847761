import Verif.Py.Value
/-!
# Instances whose extra fields do not hide declared ones

Nothing here refers to `Verif/Model`.
-/
namespace Verif.Spec
open Verif Verif.Gen

/-- No extra field has the name or the alias of a declared field. (Classes with arbitrary extra fields
can be given a field both ways, or be assigned its alias.) -/
def NotShadowed (i : V) : Prop := ∀ c fs ex set, i = .inst c fs ex set → ∀ e ∈ ex, ∀ f ∈ (classDef c).fields,
  e.1 ≠ f.name ∧ f.alias ≠ some e.1

/-- The same for all instances in a value, at any depth, of the classes that take arbitrary extra fields
(`Schema`, `MultiFormatSchema`, `KafkaTopicConfiguration`). -/
inductive Unshadowed : V → Prop
  | none : Unshadowed .none
  | bool {b} : Unshadowed (.bool b)
  | int {i} : Unshadowed (.int i)
  | float {x} : Unshadowed (.float x)
  | str {s} : Unshadowed (.str s)
  | url {k s} : Unshadowed (.url k s)
  | proc {n} : Unshadowed (.proc n)
  | list {l} : (∀ v ∈ l, Unshadowed v) → Unshadowed (.list l)
  | dict {d} : (∀ e ∈ d, Unshadowed e.2) → Unshadowed (.dict d)
  | inst {c fs ex set} : ((classDef c).kind = .openExtra → NotShadowed (.inst c fs ex set)) → (∀ e ∈ fs, Unshadowed e.2) →
      Unshadowed (.inst c fs ex set)

/-- The annotation of the key of a Kafka message, `Schema | Reference | dict[str, Any] | None`
(models/bindings/kafka.py:252): the only one in which a JSON object can be either an instance or a
plain dict. -/
def keyTy : Ty Cls := .union [.model .Schema, .model .Reference, .dict .any, .none]

/-- Every key of a Kafka message in a value, at any depth, is as `K` says. -/
inductive Keys (K : V → Prop) : V → Prop
  | none : Keys K .none
  | bool {b} : Keys K (.bool b)
  | int {i} : Keys K (.int i)
  | float {x} : Keys K (.float x)
  | str {s} : Keys K (.str s)
  | url {k s} : Keys K (.url k s)
  | proc {n} : Keys K (.proc n)
  | list {l} : (∀ v ∈ l, Keys K v) → Keys K (.list l)
  | dict {d} : (∀ e ∈ d, Keys K e.2) → Keys K (.dict d)
  | inst {c fs ex set} : (c = .KafkaMessageBindings → K ((V.inst c fs ex set).attr p!"key")) →
      (∀ e ∈ fs, Keys K e.2) → Keys K (.inst c fs ex set)

end Verif.Spec
