import Verif.Lemmas.Complaint
import Verif.Props.Document
/-!
# C52: what the error of `UnifiedReferencesValidator` says

The vocabulary is in `Spec/Complaint.lean`.
-/
namespace Verif.Props
open Verif Verif.Gen Verif.Spec Verif.Pyd Verif.Unified Verif.Resolve

variable {n : Nat} {D : Doc Cls n} {U : Uni} {limit : Option Nat}

/-- **C52.** The list in which "first" is meant: exactly the References of the document, with their locations. -/
theorem C52_listing {doc : V} (hs : Sound U limit doc) (steps : List LocStep) (s : Str) :
    (steps, s) ∈ refsIn doc ↔ ∃ w, TAt doc steps w ∧ TRef w s :=
  mem_refsIn hs

/-- `C52_first` with the expected type as the code computes it. -/
theorem first_complaint {doc : V} (h : Depicts D doc) (hs : Sound U limit doc) {e : Err Cls}
    (he : Unified.validate table U mappings D = some (.error e)) :
    ∃ before steps s after, refsIn doc = before ++ (steps, s) :: after ∧
      (∀ p ∈ before, TRefOk doc (Path.expectedType U mappings (render p.1)) p.2) ∧
      ¬ TRefOk doc (Path.expectedType U mappings (render steps)) s ∧
      Complaint doc steps (Path.expectedType U mappings (render steps)) (Path.normalize U (render steps)) s e := by
  have key : Unified.validate table U mappings D = checkAll U mappings D p!"spec" (refsIn doc) :=
    validateRec_refs h hs (n + 1) [] (.ptr D.spec) doc p!"spec" h.1 hs .nil (by simp) (by simp)
  rw [key] at he
  obtain ⟨before, ⟨steps, s⟩, after, hl, hb, hx⟩ := seq_error he
  have hm : ∀ p ∈ before, (p.1, p.2) ∈ refsIn doc := fun p hp => by rw [hl]; simp [hp]
  refine ⟨before, steps, s, after, hl, fun p hp => ?_, fun hok => ?_, complaint h hs hx⟩
  · exact (checkString_ok h hs (hm p hp)).1 (hb p hp)
  · have := (checkString_ok (M := mappings) h hs (steps := steps) (s := s) (by rw [hl]; simp)).2 hok
    change checkString U mappings D (render steps) s = _ at hx
    rw [this] at hx
    cases hx

/-- `C52_exact` with the expected type as the code computes it. -/
theorem complaint_iff {doc : V} (h : Depicts D doc) (hs : Sound U limit doc) (e : Err Cls) :
    Unified.validate table U mappings D = some (.error e) ↔
    ∃ before steps s after, refsIn doc = before ++ (steps, s) :: after ∧
      (∀ p ∈ before, TRefOk doc (Path.expectedType U mappings (render p.1)) p.2) ∧
      ¬ TRefOk doc (Path.expectedType U mappings (render steps)) s ∧
      Complaint doc steps (Path.expectedType U mappings (render steps)) (Path.normalize U (render steps)) s e := by
  refine ⟨first_complaint h hs, ?_⟩
  rintro ⟨b, st, s, a, hl, hb, hx, hc⟩
  obtain ⟨o, ho⟩ := C09_terminates table U mappings D
  match o with
  | .ok () =>
    rw [C47_unified h hs] at ho
    obtain ⟨w, hw, hr⟩ := (mem_refsIn hs).1 (show (st, s) ∈ refsIn doc by rw [hl]; simp)
    exact absurd (rightAt_iff.1 (ho st w s hw hr)) hx
  | .error e' =>
    obtain ⟨b', st', s', a', hl', hb', hx', hc'⟩ := first_complaint h hs ho
    have key : (st, s) = (st', s') :=
      first_unique (hl.symm.trans hl') (fun hm => hx (hb' (st, s) hm)) (fun hm => hx' (hb (st', s') hm))
    cases key
    rw [ho, complaint_unique hs hc hc']

theorem complains_iff {doc : V} {steps : List LocStep} {s : Str} {e : Err Cls} : Complains U mappings doc steps s e ↔
    Complaint doc steps (Path.expectedType U mappings (render steps)) (Path.normalize U (render steps)) s e := by
  constructor
  · rintro ⟨expected, norm, h1, h2, h3⟩
    obtain rfl : Path.expectedType U mappings (render steps) = expected := Option.ext fun cs => by
      rw [C14_exact]; exact (h1 cs).symm
    obtain rfl := (C14_normal U _ _).2 h2
    exact h3
  · exact fun h => ⟨_, _, fun cs => C14_exact U mappings _ cs, (C14_normal U _ _).1 rfl, h⟩

/-- **C52.** When the validator raises, the error is about the first Reference (in document order) that is wrong, and
says correctly what is wrong with it. -/
theorem C52_first {doc : V} (h : Depicts D doc) (hs : Sound U limit doc) {e : Err Cls}
    (he : Unified.validate table U mappings D = some (.error e)) :
    ∃ before steps s after, refsIn doc = before ++ (steps, s) :: after ∧
      (∀ p ∈ before, TRightAt U mappings doc p.1 p.2) ∧ ¬ TRightAt U mappings doc steps s ∧
      Complains U mappings doc steps s e := by
  simp only [rightAt_iff, complains_iff]
  exact first_complaint h hs he

/-- **C52.** There is only one such error. -/
theorem C52_exact {doc : V} (h : Depicts D doc) (hs : Sound U limit doc) (e : Err Cls) :
    Unified.validate table U mappings D = some (.error e) ↔
    ∃ before steps s after, refsIn doc = before ++ (steps, s) :: after ∧
      (∀ p ∈ before, TRightAt U mappings doc p.1 p.2) ∧ ¬ TRightAt U mappings doc steps s ∧
      Complains U mappings doc steps s e := by
  simp only [rightAt_iff, complains_iff]
  exact complaint_iff h hs e

/-- **C52.** So the error does not depend on which parts of the document share memory. -/
theorem C52_any_layout {m : Nat} {D' : Doc Cls m} {doc : V} (h : Depicts D doc) (h' : Depicts D' doc) (hs : Sound U limit doc) :
    Unified.validate table U mappings D = Unified.validate table U mappings D' := by
  obtain ⟨o, ho⟩ := C09_terminates table U mappings D
  match o with
  | .ok () => rw [ho, eq_comm, ← C47_any_layout h h' hs, ho]
  | .error e => rw [ho, eq_comm, C52_exact h' hs, ← C52_exact h hs, ho]

/-! ### Examples -/

set_option maxRecDepth 20000

/-- The sample document with the given reference string, validated without looking at references. -/
def sampleDoc (ref : Str) : V := (Pyd.validate packageEnv .AsyncAPI3 (.dict (sampleInput ref 3))).getD .none

theorem sampleDoc_ok {ref : Str} (h : (Pyd.validate packageEnv .AsyncAPI3 (.dict (sampleInput ref 3))).isSome = true) :
    Depicts (graphOf (sampleDoc ref)) (sampleDoc ref) ∧ Sound packageEnv.U packageEnv.digits (sampleDoc ref) := by
  obtain ⟨v, hv⟩ := Option.isSome_iff_exists.1 h
  obtain ⟨h1, h2, -⟩ := C47_accepted packageEnv packageEnv_checks _ (plain_input rfl).2 v hv
  have : sampleDoc ref = v := by simp [sampleDoc, hv]
  rw [this]
  exact ⟨graphOf_valid h1, h2⟩

/-- A tag where a message is expected, after a correct reference to a tag: all that `C52_first` assumes is the case. -/
example : Depicts (graphOf (sampleDoc p!"#/components/tags/a")) (sampleDoc p!"#/components/tags/a") ∧
    Sound packageEnv.U packageEnv.digits (sampleDoc p!"#/components/tags/a") ∧
    Unified.validate table .ascii mappings (graphOf (sampleDoc p!"#/components/tags/a")) =
      some (.error (.typeMismatch p!"spec.channels.root.c.messages.root.m" p!"spec.components.tags.a" (.cls .Tag) [.Message])) := by
  obtain ⟨h1, h2⟩ := sampleDoc_ok (ref := p!"#/components/tags/a") (by decide +kernel)
  exact ⟨h1, h2, by decide +kernel⟩

/-- The References of that document, in order. -/
example : refsIn (sampleDoc p!"#/components/tags/a") = [
    ([.field p!"info", .field p!"tags", .index 0], p!"#/components/tags/a"),
    ([.field p!"channels", .field p!"root", .key p!"c", .field p!"messages", .field p!"root", .key p!"m"], p!"#/components/tags/a"),
    ([.field p!"components", .field p!"messages", .field p!"root", .key p!"n"], p!"#/components/messages/o")] := by
  decide +kernel

/-- Nothing there; a chain to itself; a syntax that is not supported. -/
example : Unified.validate table .ascii mappings (graphOf (sampleDoc p!"#/components/messages/x")) =
      some (.error (.invalidRef p!"spec.channels.root.c.messages.root.m" (.keyNotFound p!"x" p!"spec.components.messages.x"))) ∧
    Unified.validate table .ascii mappings (graphOf (sampleDoc p!"#/channels/c/messages/m")) =
      some (.error (.invalidRef p!"spec.channels.root.c.messages.root.m" (.circular p!"#/channels/c/messages/m"))) ∧
    Unified.validate table .ascii mappings (graphOf (sampleDoc p!"messages/n")) =
      some (.error (.invalidRef p!"spec.channels.root.c.messages.root.m" (.unsupported p!"messages/n"))) := by
  decide +kernel

end Verif.Props
