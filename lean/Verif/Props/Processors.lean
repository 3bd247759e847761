import Verif.Props.Fields
/-!
# C32: extra processors
-/
namespace Verif.Props
open Verif Verif.Spec Verif.Pyd Verif.Gen

/-! ### Running a list -/

theorem runs_callAll (E : Env) (ps : List V) (doc : V) : Runs E.call ps doc (callAll E ps doc).1 (callAll E ps doc).2 := by
  induction ps generalizing doc with
  | nil => exact .done
  | cons p ps ih =>
    by_cases hp : ∃ n, p = .proc n
    · obtain ⟨n, rfl⟩ := hp
      simp only [callAll]
      cases h : E.call n doc with
      | none => exact .fail h
      | some doc' => exact .step h (ih doc')
    · have : callAll E (p :: ps) doc = ([], none) := by
        cases p <;> first | rfl | exact absurd ⟨_, rfl⟩ hp
      rw [this]
      exact .notCallable fun n e => hp ⟨n, e⟩

theorem runs_unique {call : Nat → V → Option V} {ps doc l r l' r'} (h : Runs call ps doc l r)
    (h' : Runs call ps doc l' r') : l = l' ∧ r = r' := by
  induction h generalizing l' r' with
  | done => cases h'; exact ⟨rfl, rfl⟩
  | step h1 _ ih =>
    cases h' with
    | step h2 h3 =>
      rw [h1] at h2; cases h2
      obtain ⟨rfl, rfl⟩ := ih h3; exact ⟨rfl, rfl⟩
    | fail h2 => rw [h1] at h2; cases h2
    | notCallable h2 => exact absurd rfl (h2 _)
  | fail h1 =>
    cases h' with
    | step h2 h3 => rw [h1] at h2; cases h2
    | fail h2 => exact ⟨rfl, rfl⟩
    | notCallable h2 => exact absurd rfl (h2 _)
  | notCallable h1 =>
    cases h' with
    | step => exact absurd rfl (h1 _)
    | fail => exact absurd rfl (h1 _)
    | notCallable => exact ⟨rfl, rfl⟩

theorem runs_iff (E : Env) {ps doc l r} : Runs E.call ps doc l r ↔ callAll E ps doc = (l, r) := by
  constructor
  · intro h
    obtain ⟨h1, h2⟩ := runs_unique (runs_callAll E ps doc) h
    rw [← h1, ← h2]
  · intro h
    have := runs_callAll E ps doc
    rwa [h] at this

theorem items_unique {v : V} {l l' : List V} (h : Items v l) (h' : Items v l') : l = l' := by
  rcases h with ⟨rfl, rfl⟩ | rfl <;> rcases h' with ⟨h, rfl⟩ | h
  · rfl
  · cases h
  · cases h
  · exact V.list.inj h

theorem items_processorsOf {v : V} {l : List V} (h : Items v l) : processorsOf v = l := by
  rcases h with ⟨rfl, rfl⟩ | rfl <;> rfl

/-- Processors leave `extra_validators` null or a list of processor classes. (pydantic's
`validate_assignment` sees to it when they assign the field.) -/
def Tame (call : Nat → V → Option V) : Prop :=
  ∀ n doc doc', (∃ ns : List Nat, Items (doc.attr p!"extra_validators") (ns.map .proc)) →
    call n doc = some doc' → ∃ ns : List Nat, Items (doc'.attr p!"extra_validators") (ns.map .proc)

/-- A document as pydantic makes it: both fields null or lists of processor classes. -/
def ListsOk (doc : V) : Prop :=
  (∃ ns : List Nat, Items (doc.attr p!"extra_converters") (ns.map .proc)) ∧
  ∃ ns : List Nat, Items (doc.attr p!"extra_validators") (ns.map .proc)

theorem tame_runs {call : Nat → V → Option V} (ht : Tame call) {ps doc l mid} (h : Runs call ps doc l (some mid))
    (hd : ∃ ns : List Nat, Items (doc.attr p!"extra_validators") (ns.map .proc)) :
    ∃ ns : List Nat, Items (mid.attr p!"extra_validators") (ns.map .proc) := by
  generalize hr : some mid = r at h
  induction h with
  | done => cases hr; exact hd
  | step h1 _ ih => exact ih (ht _ _ _ hd h1) hr
  | fail => cases hr
  | notCallable => cases hr

/-- **C32.** What `run_extra_processors` calls, on which documents, and with which outcome: first
the converters in order, then the validators of the document the converters leave, each on
the document left by the one before, up to the first failure. -/
theorem C32_exact (E : Env) (ht : Tame E.call) (doc : V) (hd : ListsOk doc) (log : List (Nat × V)) (r : Option V) :
    runProcessors E doc = (log, r) ↔ Processed E.call doc log r := by
  obtain ⟨⟨cs, hcs⟩, hvs⟩ := hd
  unfold runProcessors
  rw [items_processorsOf hcs]
  constructor
  · intro h
    cases hrun : callAll E (cs.map .proc) doc with
    | mk l o =>
      rw [hrun] at h
      have hr := (runs_iff E).2 hrun
      cases o with
      | none =>
        simp only [Prod.mk.injEq] at h
        obtain ⟨rfl, rfl⟩ := h
        exact .converterFailed hcs hr
      | some mid =>
        obtain ⟨vs, hm⟩ := tame_runs ht hr hvs
        simp only [items_processorsOf hm, Prod.mk.injEq] at h
        obtain ⟨rfl, rfl⟩ := h
        exact .ran hcs hr hm (runs_callAll E _ mid)
  · intro h
    cases h with
    | converterFailed hcs' hr =>
      rw [← items_processorsOf hcs'] at hr
      rw [items_processorsOf hcs] at hr
      rw [(runs_iff E).1 hr]
    | ran hcs' hr hm hr' =>
      rw [← items_processorsOf hcs'] at hr
      rw [items_processorsOf hcs] at hr
      rw [(runs_iff E).1 hr]
      simp only [items_processorsOf hm, (runs_iff E).1 hr']

/-! ### Consequences, in plain terms -/

theorem runs_success {call : Nat → V → Option V} {ps doc l j} (h : Runs call ps doc l (some j)) :
    ps = l.map fun e => .proc e.1 := by
  generalize hr : some j = r at h
  induction h with
  | done => rfl
  | step _ _ ih => rw [List.map_cons, ← ih hr]
  | fail => cases hr
  | notCallable => cases hr

theorem runs_prefix {call : Nat → V → Option V} {ps doc l r} (h : Runs call ps doc l r) :
    (l.map fun e => V.proc e.1) <+: ps := by
  induction h with
  | done => exact List.prefix_rfl
  | step _ _ ih => rw [List.map_cons]; exact List.cons_prefix_cons.2 ⟨rfl, ih⟩
  | fail => exact List.cons_prefix_cons.2 ⟨rfl, List.nil_prefix⟩
  | notCallable => exact List.nil_prefix

/-- `log` is a chain of calls from `doc`: each call got the document the previous one left; all
but the last succeeded, and the last gives the result. -/
def Chain (call : Nat → V → Option V) : V → List (Nat × V) → Option V → Prop
  | doc, [], r => r = some doc
  | doc, (n, d) :: rest, r => d = doc ∧
    ((∃ d', call n d = some d' ∧ Chain call d' rest r) ∨ (call n d = none ∧ rest = [] ∧ r = none))

theorem runs_chain {call : Nat → V → Option V} {ps doc l r} (hp : ∀ p ∈ ps, ∃ n, p = .proc n)
    (h : Runs call ps doc l r) : Chain call doc l r := by
  induction h with
  | done => rfl
  | step h1 _ ih => exact ⟨rfl, .inl ⟨_, h1, ih fun p hm => hp p (by simp [hm])⟩⟩
  | fail h1 => exact ⟨rfl, .inr ⟨h1, rfl, rfl⟩⟩
  | notCallable h1 => obtain ⟨n, rfl⟩ := hp _ List.mem_cons_self; exact absurd rfl (h1 n)

/-- **C32**, order: if the run succeeds, the classes called are exactly the converters, then exactly
the validators, each once and in list order. If it fails, they are a beginning of that list. -/
theorem C32_order (E : Env) (ht : Tame E.call) (doc : V) (hd : ListsOk doc) :
    (∀ j, (runProcessors E doc).2 = some j → ∃ cs l mid vs, Items (doc.attr p!"extra_converters") cs ∧
      Runs E.call cs doc l (some mid) ∧ Items (mid.attr p!"extra_validators") vs ∧
      (runProcessors E doc).1.map (fun e => V.proc e.1) = cs ++ vs) ∧
    ((runProcessors E doc).2 = none → (∃ cs, Items (doc.attr p!"extra_converters") cs ∧
        (runProcessors E doc).1.map (fun e => V.proc e.1) <+: cs) ∨
      ∃ cs l mid vs, Items (doc.attr p!"extra_converters") cs ∧ Runs E.call cs doc l (some mid) ∧
        Items (mid.attr p!"extra_validators") vs ∧ ∃ some_of_them, some_of_them <+: vs ∧
        (runProcessors E doc).1.map (fun e => V.proc e.1) = cs ++ some_of_them) := by
  have h : Processed E.call doc (runProcessors E doc).1 (runProcessors E doc).2 := (C32_exact E ht doc hd _ _).1 rfl
  constructor
  · intro j hj
    generalize (runProcessors E doc).1 = log at h
    rw [hj] at h
    cases h with
    | @ran cs l1 mid vs l2 _ h1 h2 h3 h4 =>
      refine ⟨cs, l1, mid, vs, h1, h2, h3, ?_⟩
      rw [List.map_append, ← runs_success h2, ← runs_success h4]
  · intro hj
    generalize (runProcessors E doc).1 = log at h
    rw [hj] at h
    cases h with
    | converterFailed h1 h2 => exact .inl ⟨_, h1, runs_prefix h2⟩
    | @ran cs l1 mid vs l2 _ h1 h2 h3 h4 =>
      refine .inr ⟨cs, l1, mid, vs, h1, h2, h3, _, runs_prefix h4, ?_⟩
      rw [List.map_append, ← runs_success h2]

theorem chain_append {call : Nat → V → Option V} {doc l mid l' r} (h : Chain call doc l (some mid))
    (h' : Chain call mid l' r) : Chain call doc (l ++ l') r := by
  induction l generalizing doc with
  | nil => cases h; exact h'
  | cons e l ih =>
    obtain ⟨n, d⟩ := e
    obtain ⟨rfl, ⟨d', h1, h2⟩ | ⟨_, _, h⟩⟩ := h
    · exact ⟨rfl, .inl ⟨d', h1, ih h2⟩⟩
    · cases h

/-- **C32**, effects: the calls form a chain from the document, each on what the previous one left,
the first failure being the last call. -/
theorem C32_chain (E : Env) (ht : Tame E.call) (doc : V) (hd : ListsOk doc) :
    Chain E.call doc (runProcessors E doc).1 (runProcessors E doc).2 := by
  have h : Processed E.call doc (runProcessors E doc).1 (runProcessors E doc).2 := (C32_exact E ht doc hd _ _).1 rfl
  generalize (runProcessors E doc).1 = log at h
  generalize (runProcessors E doc).2 = r at h
  cases h with
  | converterFailed h1 h2 =>
    obtain ⟨ns, hn⟩ := hd.1
    have := items_unique h1 hn; subst this
    exact runs_chain (by simp) h2
  | ran h1 h2 h3 h4 =>
    obtain ⟨ns, hn⟩ := hd.1
    have := items_unique h1 hn; subst this
    obtain ⟨ms, hm⟩ := tame_runs ht h2 hd.2
    have := items_unique h3 hm; subst this
    exact chain_append (runs_chain (by simp) h2) (runs_chain (by simp) h4)

/-! ### Construction of a document -/

theorem accepts_processors {E : Env} {x v : V} (h : Accepts E x (.union [.list .processors, .none]) v) :
    ∃ ns : List Nat, Items v (ns.map .proc) := by
  obtain ⟨sc, h⟩ := h
  have hitems : ∀ (l : List V) (r : List V × Score), parseItems .processors (parsers E l) = some r →
      ∃ ns : List Nat, r.1 = ns.map .proc := by
    intro l
    induction l with
    | nil => intro r h; cases h; exact ⟨[], rfl⟩
    | cons x l ih =>
      intro r h
      simp only [parsers, parseItems] at h
      have hx : parse E x .processors = parseProc x := by
        cases x <;> rfl
      rw [hx] at h
      cases x <;> simp only [parseProc, reduceCtorEq] at h
      cases hr : parseItems .processors (parsers E l) with
      | none => rw [hr] at h; cases h
      | some r' =>
        rw [hr] at h
        simp only [Option.some.injEq] at h
        subst h
        obtain ⟨ns, hn⟩ := ih _ hr
        exact ⟨_ :: ns, by rw [List.map_cons, ← hn]⟩
  cases x with
  | none => cases h; exact ⟨[], .inl ⟨rfl, rfl⟩⟩
  | list l =>
    change (pick E none [(parseItems .processors (parsers E l)).map _, none]) = _ at h
    cases hr : parseItems .processors (parsers E l) with
    | none => rw [hr] at h; simp [pick] at h
    | some r =>
      rw [hr] at h
      simp only [Option.map_some, pick, Option.some.injEq, Prod.mk.injEq] at h
      obtain ⟨ns, hn⟩ := hitems l r hr
      exact ⟨ns, .inr (by rw [← h.1, hn])⟩
  | _ => cases h

theorem fieldOk_processors {E : Env} {d : List (Str × V)} {f : FieldDef Cls} {v : V}
    (hf : f.ty = .union [.list .processors, .none]) (hd : f.dflt = .null) (h : FieldOk (Accepts E) d f v) :
    ∃ ns : List Nat, Items v (ns.map .proc) := by
  rcases h.1 with ⟨_, x, _, ha⟩ | ⟨_, hv⟩
  · rw [hf] at ha; exact accepts_processors ha
  · rw [hd] at hv; exact ⟨[], .inl ⟨hv, rfl⟩⟩

theorem document_lists {E : Env} {d : List (Str × V)} {i : V} (h : Fieldwise (Accepts E) .AsyncAPI3 d i) :
    ListsOk i := by
  obtain ⟨l, h1⟩ := fieldOk_processors rfl rfl (fieldwise_field h (f := defAsyncAPI3.fields[8])
    (by exact List.mem_of_getElem (i := 8) rfl))
  obtain ⟨l', h2⟩ := fieldOk_processors rfl rfl (fieldwise_field h (f := defAsyncAPI3.fields[9])
    (by exact List.mem_of_getElem (i := 9) rfl))
  exact ⟨⟨l, h1⟩, l', h2⟩

theorem accepts_str {E : Env} {x v : V} (h : Accepts E x .str v) : ∃ s, v = .str s := by
  obtain ⟨sc, h⟩ := h
  cases x <;> first | (cases h; exact ⟨_, rfl⟩) | cases h

/-- The version of a document, if given, is acceptable (C23). -/
def VersionRule (E : Env) (d : List (Str × V)) (i : V) : Prop :=
  lookup p!"asyncapi" d ≠ none → ∃ s, i.attr p!"asyncapi" = .str s ∧ VersionOk E.U E.digits s

theorem versionRule_iff {E : Env} {d : List (Str × V)} {i : V} (h : Fieldwise (Accepts E) .AsyncAPI3 d i) :
    (∀ f ∈ (classDef .AsyncAPI3).fields, (∃ k x, GivenAs f d k x) →
      fieldCheck E .AsyncAPI3 f.name (i.attr f.name) = true) ↔ VersionRule E d i := by
  have hgiven : (∃ k x, GivenAs (defAsyncAPI3.fields[0]) d k x) ↔ lookup p!"asyncapi" d ≠ none := by
    rw [← findKey_isSome]
    show ((lookup p!"asyncapi" d).map _).isSome = true ↔ _
    cases lookup p!"asyncapi" d <;> simp
  have hm : defAsyncAPI3.fields[0] ∈ (classDef .AsyncAPI3).fields := by exact List.mem_of_getElem (i := 0) rfl
  constructor
  · intro hall hg
    have hg' := hgiven.2 hg
    have h0 := hall _ hm hg'
    rcases (fieldwise_field h hm).1 with ⟨k, x, _, ha⟩ | ⟨hn, _⟩
    · obtain ⟨s, hs⟩ := accepts_str ha
      refine ⟨s, hs, ?_⟩
      change fieldCheck E .AsyncAPI3 p!"asyncapi" (i.attr p!"asyncapi") = true at h0
      change i.attr p!"asyncapi" = _ at hs
      rw [hs] at h0
      exact (C23_exact E.U E.digits s).1 h0
    · obtain ⟨k, x, hk⟩ := hg'; exact absurd hk (hn k x)
  · intro hv f hf hg
    by_cases hn : f.name = p!"asyncapi"
    · have hfe : f = defAsyncAPI3.fields[0] := by
        have : ∀ f ∈ (classDef .AsyncAPI3).fields, f.name = p!"asyncapi" → f = defAsyncAPI3.fields[0] := by
          intro f hf
          change f ∈ defAsyncAPI3.fields at hf
          simp only [defAsyncAPI3, List.mem_cons, List.not_mem_nil, or_false] at hf
          rcases hf with rfl | rfl | rfl | rfl | rfl | rfl | rfl | rfl | rfl | rfl <;>
            first | (intro _; rfl) | (intro h; exact absurd h (by decide))
        exact this f hf hn
      subst hfe
      obtain ⟨s, hs, hok⟩ := hv (hgiven.1 hg)
      show fieldCheck E .AsyncAPI3 p!"asyncapi" (i.attr p!"asyncapi") = true
      rw [hs]
      exact (C23_exact E.U E.digits s).2 hok
    · exact check_of_not_checked _ (by simpa [checkedFields] using hn)

/-- **C32**, **C41** for the document itself: construction succeeds exactly when every field is right,
extra fields are extensions, the version is acceptable and all processors succeed; the result is
the document as they leave it. -/
theorem C32_construct (E : Env) (ht : Tame E.call) (d : List (Str × V)) (j : V) :
    validate E .AsyncAPI3 (.dict d) = some j ↔ ∃ i log, Fieldwise (Accepts E) .AsyncAPI3 d i ∧
      ExtensionRule E.U .AsyncAPI3 i ∧ VersionRule E d i ∧ Processed E.call i log (some j) := by
  have hk : (classDef Cls.AsyncAPI3).kind ≠ .patterned := by decide
  unfold validate
  rw [parse_model_dict E hk, construct_eq]
  have hafter : ∀ i, after E .AsyncAPI3 i = if baseCheck E .AsyncAPI3 i then (runProcessors E i).2 else none := by
    intro i; unfold after; simp [modelCheck]
  simp only [Option.getD_none, hafter]
  constructor
  · intro h
    split at h
    · rename_i hok
      split at h
      · rename_i hb
        obtain ⟨h1, h2⟩ := (allOk_given _).1 ⟨hok, rfl⟩
        cases hr : (runProcessors E (.inst .AsyncAPI3 (fieldsOf E .AsyncAPI3 d) (extrasOf .AsyncAPI3 d)
          (setOf .AsyncAPI3 d))).2 with
        | none => rw [hr] at h; cases h
        | some j' =>
          rw [hr] at h
          simp only [Option.map_some, Option.some.injEq] at h
          subst h
          exact ⟨_, _, h1, (baseCheck_iff E _ hk _).1 hb, (versionRule_iff h1).1 h2,
            (C32_exact E ht _ (document_lists h1) _ _).1 (Prod.ext rfl hr)⟩
      · cases h
    · cases h
  · rintro ⟨i, log, h1, h2, h3, h4⟩
    obtain ⟨hok, rfl⟩ := (allOk_given i).2 ⟨h1, (versionRule_iff h1).2 h3⟩
    rw [if_pos hok, if_pos ((baseCheck_iff E _ hk _).2 h2)]
    rw [(C32_exact E ht _ (document_lists h1) _ _).2 h4]
    rfl

/-! ### A concrete case -/

/-- Processor 0 adds an extension field; processor 1 fails unless that field is there. -/
def markEnv : Env := { plainEnv with
  call := fun n doc => match n, doc with
    | 0, .inst c fs ex set => some (.inst c fs (ex ++ [(p!"x-seen", .bool true)]) set)
    | 1, .inst c fs ex set => if (lookup p!"x-seen" ex).isSome then some (.inst c fs ex set) else none
    | _, _ => none }

theorem mark_tame : Tame markEnv.call := by
  intro n doc doc' hd h
  match n, doc with
  | 0, .inst c fs ex set => cases h; exact hd
  | 1, .inst c fs ex set =>
    simp only [markEnv] at h
    split at h
    · cases h; exact hd
    · cases h
  | n + 2, _ => cases h
  | 0, .none | 0, .bool _ | 0, .int _ | 0, .float _ | 0, .str _ | 0, .url _ _ | 0, .proc _ | 0, .list _ | 0, .dict _ => cases h
  | 1, .none | 1, .bool _ | 1, .int _ | 1, .float _ | 1, .str _ | 1, .url _ _ | 1, .proc _ | 1, .list _ | 1, .dict _ => cases h

/-- The converter runs before the validator, although the validator's field comes first in the
input. -/
example : (validate markEnv .AsyncAPI3 (.dict [(p!"extra_validators", .list [.proc 1]),
    (p!"extra_converters", .list [.proc 0]),
    (p!"info", .dict [(p!"title", .str p!"t"), (p!"version", .str p!"1")])])).isSome = true := by decide +kernel
example : (validate markEnv .AsyncAPI3 (.dict [(p!"extra_validators", .list [.proc 1]),
    (p!"info", .dict [(p!"title", .str p!"t"), (p!"version", .str p!"1")])])).isSome = false := by decide +kernel
example : ListsOk (.inst .AsyncAPI3 [(p!"extra_converters", .list [.proc 0]),
    (p!"extra_validators", .none)] [] []) := ⟨⟨[0], .inr rfl⟩, [], .inl ⟨rfl, rfl⟩⟩

end Verif.Props
