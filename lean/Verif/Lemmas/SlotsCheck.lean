import Verif.Lemmas.Slots
/-! The finite checks behind C15 and C16 (kernel evaluation over the enumerated slots; the
quantification over names, list indices and Unicode tables is in `Lemmas/Slots.lean`). -/
namespace Verif.Props
open Verif Verif.Spec Verif.Gen Verif.Slots

theorem all_slots : checkAll (slotTest rows) 18 [] (.AsyncAPI3, []) (.model .AsyncAPI3) = true := by
  decide +kernel

/-- The segments of an entry location, the entry name abstract. -/
def entrySegs (coll : List Str) (a : ASeg) : List ASeg := coll.map .lit ++ [a]

def badB (coll : List Str) (cs : List Cls) (k : Str) : Bool :=
  ([(p!"channel", Cls.Channel), (p!"correlation_id", .CorrelationID),
      (p!"external_docs", .ExternalDocumentation), (p!"messages", .Message), (p!"reply", .OperationReply),
      (p!"security", .SecurityScheme), (p!"servers", .Server), (p!"tags", .Tag)].any fun e =>
        decide (k = e.1) && decide (cs ≠ [e.2])) ||
  (decide (k = p!"root") && decide (coll.getLast? ≠ some p!"servers" ∧ coll.getLast? ≠ some p!"messages" ∧
    coll.getLast? ≠ some p!"tags" ∧ coll.getLast? ≠ some p!"external_docs"))

def reservedWords : List Str := mappings.flatMap fun e => Str.split '.' e.1

theorem entry_words : ∀ c ∈ collections, ∀ k ∈ reservedWords, k ≠ p!"root" →
    (decide ((bestA ((entrySegs c.1 (.lit k)).reverse ++ [.lit p!"spec"]) rows none).map Prod.fst = some c.2) =
      !badB c.1 c.2 k) := by decide +kernel

theorem entry_other : ∀ c ∈ collections, ∀ b : Bool,
    (bestA ((entrySegs c.1 (.key b)).reverse ++ [.lit p!"spec"]) rows none).map Prod.fst = some c.2 := by
  decide +kernel

theorem entry_root : ∀ c ∈ collections,
    (decide (Path.expectedType Uni.ascii mappings (render (entryAt c.1 p!"root")) = some c.2) =
      !badB c.1 c.2 p!"root") := by decide +kernel

end Verif.Props
