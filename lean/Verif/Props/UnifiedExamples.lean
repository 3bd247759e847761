import Verif.Props.Slots
/-!
# Concrete documents for C09–C16
-/
namespace Verif.Props
open Verif Verif.Spec Verif.Resolve Verif.Unified Verif.Gen

/-- C03/C10: `exDoc` contains a reference cycle, so it is rejected, at the place of the first
Reference in the cycle. -/
example : validate table Uni.ascii mappings exDoc = some (.error
    (.invalidRef (render (entryAt [p!"channels"] p!"in")) (.circular p!"#/channels/loop1"))) := by
  decide +kernel

/-- A document with a chain, an external reference, a shared Reference object (5, in two
`tags` lists) and a tag whose extra-free field graph loops back: the dict 8 is reached again
from channel 7 through its own `parameters` (an object graph only item assignment can
produce). -/
def okDoc (name : Str) : Doc Cls 14 where
  spec := 0
  node := fun a => match a.val with
    | 0 => mkInst .AsyncAPI3 [(p!"asyncapi", .str p!"3.0.0"), (p!"info", .ptr 1),
             (p!"channels", .ptr 2), (p!"components", .ptr 9)]
    | 1 => mkInst .Info [(p!"title", .str p!"t"), (p!"version", .str p!"1"), (p!"tags", .ptr 4)]
    | 2 => mkInst .Channels [(p!"root", .ptr 3)]
    | 3 => .dict [(name, .ptr 6), (p!"c", .ptr 7), (p!"ext", .ptr 13)]
    | 4 => .list [.ptr 5]
    | 5 => mkInst .Reference [(p!"ref", .str p!"#/components/tags/t")]
    | 6 => mkInst .Reference [(p!"ref", .str p!"#/channels/c")]
    | 7 => mkInst .Channel [(p!"address", .str p!"a/b"), (p!"tags", .ptr 4), (p!"parameters", .ptr 8)]
    | 8 => .dict [(p!"self", .ptr 7)]
    | 9 => mkInst .Components [(p!"tags", .ptr 10)]
    | 10 => mkInst .ComponentsTags [(p!"root", .ptr 11)]
    | 11 => .dict [(p!"t", .ptr 12)]
    | 12 => mkInst .Tag [(p!"name", .str p!"n")]
    | _ => mkInst .Reference [(p!"ref", .str p!"https://example.com/x")]

theorem okDoc_wf : WF table (okDoc p!"a") := by apply wf_of_check; decide +kernel

/-- C10, C11: accepted. -/
theorem okDoc_accepted : validate table Uni.ascii mappings (okDoc p!"a") = some (.ok ()) := by
  decide +kernel

/-- The shared Reference occurs at two locations. -/
theorem okDoc_shared :
    Occurs table (okDoc p!"a") [.field p!"info", .field p!"tags", .index 0] p!"#/components/tags/t" ∧
    Occurs table (okDoc p!"a") [.field p!"channels", .field p!"root", .key p!"c", .field p!"tags", .index 0]
      p!"#/components/tags/t" := by
  have notRef : ∀ a : Fin 14, ((okDoc p!"a").isRef table (.ptr a)) = false →
      ∀ r, ¬ IsReference table (okDoc p!"a") (.ptr a) r := by
    intro a h r hr
    have := (isRef_iff okDoc_wf (.ptr a)).2 ⟨r, hr⟩
    rw [h] at this; cases this
  have fld : ∀ (a c : Fin 14) (cls : Cls) (fs ex) (f : FieldInfo), (okDoc p!"a").node a = .model cls fs ex →
      f ∈ table.fields cls → f.exclude = false → (f.name, .ptr c) ∈ fs →
      Child table (okDoc p!"a") a (.field f.name) (.ptr c) :=
    fun a c cls fs ex f h1 h2 h3 h4 => .field h1 h2 h3 h4 (by simp)
  have hb : IsReference table (okDoc p!"a") (.ptr 5) p!"#/components/tags/t" :=
    ⟨5, .Reference, _, _, rfl, rfl, by decide, by decide +kernel⟩
  constructor
  · refine ⟨[0, 1, 4, 5], 5, ?_, hb⟩
    refine .cons (notRef _ (by decide +kernel)) (fld 0 1 .AsyncAPI3 _ _ ⟨p!"info", none, false⟩ rfl
      (by decide +kernel) rfl (by decide +kernel)) ?_ ?_
    refine .cons (notRef _ (by decide +kernel)) (fld 1 4 .Info _ _ ⟨p!"tags", none, false⟩ rfl
      (by decide +kernel) rfl (by decide +kernel)) ?_ ?_
    refine .cons (notRef _ (by decide +kernel)) (.item (xs := [.ptr 5]) rfl rfl) .nil ?_
    all_goals decide
  · refine ⟨[0, 2, 3, 7, 4, 5], 5, ?_, hb⟩
    refine .cons (notRef _ (by decide +kernel)) (fld 0 2 .AsyncAPI3 _ _ ⟨p!"channels", none, false⟩ rfl
      (by decide +kernel) rfl (by decide +kernel)) ?_ ?_
    refine .cons (notRef _ (by decide +kernel)) (fld 2 3 .Channels _ _ ⟨p!"root", none, false⟩ rfl
      (by decide +kernel) rfl (by decide +kernel)) ?_ ?_
    refine .cons (c := 7) (notRef _ (by decide +kernel)) (.entry (kvs := [(p!"a", .ptr 6), (p!"c", .ptr 7), (p!"ext", .ptr 13)]) rfl (by decide)) ?_ ?_
    refine .cons (notRef _ (by decide +kernel)) (fld 7 4 .Channel _ _ ⟨p!"tags", none, false⟩ rfl
      (by decide +kernel) rfl (by decide +kernel)) ?_ ?_
    refine .cons (notRef _ (by decide +kernel)) (.item (xs := [.ptr 5]) rfl rfl) .nil ?_
    all_goals decide

/-- **C16, refuted** on whole documents: renaming the entry `a` to `root`, `reply`, … makes an
accepted document rejected. -/
theorem C16_document_refuted :
    validate table Uni.ascii mappings (okDoc p!"a") = some (.ok ()) ∧
    validate table Uni.ascii mappings (okDoc p!"root") =
      some (.error (.unknownType p!"spec.channels")) ∧
    validate table Uni.ascii mappings (okDoc p!"reply") =
      some (.error (.typeMismatch (render (entryAt [p!"channels"] p!"reply")) p!"spec.channels.c" (.cls .Channel) [.OperationReply])) := by
  refine ⟨okDoc_accepted, ?_, ?_⟩ <;> decide +kernel

/-- An operation with an inline trait that uses a component tag. -/
def traitDoc (ref : Str) : Doc Cls 17 where
  spec := 0
  node := fun a => match a.val with
    | 0 => mkInst .AsyncAPI3 [(p!"asyncapi", .str p!"3.0.0"), (p!"info", .ptr 1),
             (p!"channels", .ptr 2), (p!"operations", .ptr 5), (p!"components", .ptr 12)]
    | 1 => mkInst .Info [(p!"title", .str p!"t"), (p!"version", .str p!"1")]
    | 2 => mkInst .Channels [(p!"root", .ptr 3)]
    | 3 => .dict [(p!"c", .ptr 4)]
    | 4 => mkInst .Channel [(p!"address", .str p!"a/b")]
    | 5 => mkInst .Operations [(p!"root", .ptr 6)]
    | 6 => .dict [(p!"op", .ptr 7)]
    | 7 => mkInst .Operation [(p!"action", .str p!"send"), (p!"channel", .ptr 8), (p!"traits", .ptr 9)]
    | 8 => mkInst .Reference [(p!"ref", .str p!"#/channels/c")]
    | 9 => .list [.ptr 10]
    | 10 => mkInst .OperationTrait [(p!"tags", .ptr 11)]
    | 11 => .list [.ptr 15]
    | 12 => mkInst .Components [(p!"tags", .ptr 13)]
    | 13 => mkInst .ComponentsTags [(p!"root", .ptr 14)]
    | 14 => .dict [(p!"t", .ptr 16)]
    | 15 => mkInst .Reference [(p!"ref", .str ref)]
    | _ => mkInst .Tag [(p!"name", .str p!"n")]

/-- **C15, refuted** on a whole document: an operation's inline trait refers to a tag in the
components, as the AsyncAPI specification allows; the document is rejected. -/
theorem C15_document_refuted :
    (∃ path, resolve table (traitDoc p!"#/components/tags/t") p!"#/components/tags/t" =
      some (.ok (some ⟨.ptr 16, .cls .Tag, path⟩))) ∧
    validate table Uni.ascii mappings (traitDoc p!"#/components/tags/t") = some (.error (.typeMismatch
      (render [.field p!"operations", .field p!"root", .key p!"op", .field p!"traits", .index 0,
        .field p!"tags", .index 0]) p!"spec.components.tags.t" (.cls .Tag) [.OperationTrait])) := by
  refine ⟨⟨p!"spec.components.tags.t", ?_⟩, ?_⟩ <;> decide +kernel

end Verif.Props
