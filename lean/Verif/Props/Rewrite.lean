import Verif.Lemmas.Exact
import Verif.Lemmas.ValueEq
import Verif.Props.Conform
/-!
# C50: what reading and writing changes

`Verif/Spec/Rewrite.lean` says what may become of JSON that is read and written again: which keys are renamed, left out and
filled in, and which scalars are converted.
-/
namespace Verif.Props
open Verif Verif.Gen Verif.Spec Verif.Pyd

/-- **C50.** JSON that is accepted, read and written again, is rewritten as `Rewritten` says, at every depth. -/
theorem C50_rewritten (E : Env) (c : Cls) (t : STy) (ht : TypeOf c t) (j : V) (hj : j.isJson = true)
    (v : V) (h : validate E c j = some v) : Rewritten (readerOf E) j (dump v) t := by
  unfold validate at h
  obtain ⟨⟨v', sc⟩, hp, rfl⟩ := Option.map_eq_some_iff.1 h
  exact rewritten j hj _ _ _ hp t (typeOf_fits ht)

/-- **C50**, unfolded once, for an object other than a map: what is written for each key of the object that was read. -/
theorem C50_object (E : Env) (c : Cls) (rs : List Row) (hrs : (c, rs) ∈ grammar) (d : List (Str × V))
    (hj : (V.dict d).isJson = true) (v : V) (h : validate E c (.dict d) = some v) : ∃ d', dump v = .dict d' ∧
      -- a fixed field that was given under its JSON name, and not as null, is written, rewritten
      (∀ r ∈ rs, ∀ x, lookup r.name d = some x → x ≠ .none → ∃ w, lookup r.name d' = some w ∧ Rewritten (readerOf E) x w r.ty) ∧
      -- one that was not given under either name is left out, or filled in
      (∀ r ∈ rs, lookup r.name d = none → lookup (attrOf c r.name) d = none → lookup r.name d' = filledIn c r.name) ∧
      -- one that was given as null is left out
      (∀ r ∈ rs, lookup r.name d = some .none → (c, r.name) ∉ keepsNull → lookup r.name d' = none) ∧
      -- extensions, and other keys that are no name of a fixed field, stay as they are
      (∀ k, (∀ r ∈ rs, k ≠ r.name ∧ k ≠ attrOf c r.name) → k ≠ p!"extra_converters" → k ≠ p!"extra_validators" →
        lookup k d' = lookup k d) := by
  have hr := C50_rewritten E c _ (.inl ⟨rs, hrs, rfl⟩) _ hj v h
  generalize dump v = w at hr
  cases hr with
  | object hrs' h1 h2 h3 h4 h5 h6 h7 =>
    rename_i d'
    cases rows_unique hrs hrs'
    have hval : ∀ {k x}, lookup k d = some x → valueFor (readerOf E) c d k = some x := by
      intro k x hx
      unfold valueFor
      rw [hx]
    refine ⟨d', rfl, ?_, ?_, ?_, ?_⟩
    · intro r hr x hx hn
      obtain ⟨w, hw⟩ := (h4 r hr x (hval hx)).2 (.inl hn)
      exact ⟨w, hw, h3 r hr x w (hval hx) hw⟩
    · intro r hr hx hy
      refine h5 r hr ?_
      unfold valueFor
      rw [hx]
      exact hy
    · intro r hr hx hk
      cases hl : lookup r.name d' with
      | none => rfl
      | some w =>
        rcases (h4 r hr _ (hval hx)).1 ⟨w, hl⟩ with h | h
        · exact absurd rfl h
        · exact absurd h hk
    · intro k hk hx hy
      refine h7 k (fun r hr => (hk r hr).1) ?_
      rintro (⟨r, hr, h, -⟩ | ⟨-, -, h | h⟩)
      · exact (hk r hr).2 h
      · exact hx h
      · exact hy h

/-- **C50.** Conforming JSON, whose schemas have no ambiguous names and whose Kafka messages have a Schema or a Reference as
key, if any, is accepted, and rewritten without any conversion of scalars or names. -/
theorem C50_conforming (E : Env) (c : Cls) (t : STy) (ht : TypeOf c t) (j : V)
    (h : Conforms (worldOf E ambiguousNames False) j t) :
    ∃ v, validate E c j = some v ∧ Rewritten (exactReader E.U fun k s u => E.url k s = some u) j (dump v) t := by
  have := conforming_accepted (R := ambiguousNames) (fun _ _ h => .inl h) h _ (typeOf_fits ht)
  obtain ⟨⟨v, sc⟩, hv⟩ := Option.isSome_iff_exists.1 this
  have hval : validate E c j = some v := by unfold validate; rw [hv]; rfl
  refine ⟨v, hval, exactly h ?_ _ (C50_rewritten E c t ht j (conforms_json h) v hval)⟩
  rcases ht with ⟨rs, -, rfl⟩ | ⟨u, hu, rfl⟩
  · rfl
  · exact List.all_eq_true.1 grammar_okSTy.2 _ hu

theorem retained_of_rewritten {E : Env} {j w : V} {t : STy} (h : Rewritten (exactOf E) j w t) :
    Retained (fun s u => ∃ k, E.url k s = some u) j w := by
  induction h with
  | any | null | string | integer | boolean | email | enum => exact .same
  | asInteger h => exact h.elim
  | asBoolean h => exact h.elim
  | url h => exact .url ⟨_, h⟩
  | list _ ih => exact .list ih
  | either _ _ ih => exact ih
  | @map l t _ ih | @keyed l t _ ih =>
    have hl : ∀ k, lookup k (l.map fun p => (p.1, p.2.1)) = (lookup k l).map (·.1) ∧
        lookup k (l.map fun p => (p.1, p.2.2)) = (lookup k l).map (·.2) := by
      intro k
      clear ih
      induction l with
      | nil => exact ⟨rfl, rfl⟩
      | cons e l ihl =>
        simp only [List.map_cons, lookup]
        split
        · exact ⟨rfl, rfl⟩
        · exact ihl (fun p hp => by rename_i h _; exact h p (.tail _ hp))
    refine .object ?_ ?_ ?_
    · intro k x hx _
      rw [(hl k).1] at hx
      obtain ⟨p, hp, -⟩ := Option.map_eq_some_iff.1 hx
      exact ⟨p.2, by rw [(hl k).2, hp]; rfl⟩
    · intro k x w hx hw
      rw [(hl k).1] at hx
      rw [(hl k).2] at hw
      obtain ⟨p, hp, rfl⟩ := Option.map_eq_some_iff.1 hx
      rw [hp] at hw
      cases hw
      exact ih (k, p) (lookup_some_mem hp)
    · intro k w hx hw
      rw [(hl k).1] at hx
      rw [(hl k).2, Option.map_eq_none_iff.1 hx] at hw
      cases hw
  | @object c rs d d' hrs h1 h2 h3 h4 h5 h6 h7 ih =>
    have hval : ∀ k, valueFor (exactOf E) c d k = lookup k d := by
      intro k
      unfold valueFor
      show (match lookup k d with | some x => some x | none => lookup k d) = _
      split <;> simp_all
    have htk : ∀ k, (∀ r ∈ rs, k ≠ r.name) → ¬ Taken (exactOf E) c rs d k := by
      rintro k hk (⟨r, hr, h, -⟩ | ⟨h, -⟩)
      · exact hk r hr h
      · exact h
    have hcase : ∀ k, (∃ r ∈ rs, k = r.name) ∨ lookup k d' = lookup k d := by
      intro k
      by_cases hk : ∃ r ∈ rs, k = r.name
      · exact .inl hk
      · have hk' : ∀ r ∈ rs, k ≠ r.name := fun r hr h => hk ⟨r, hr, h⟩
        exact .inr (h7 k hk' (htk k hk'))
    refine .object ?_ ?_ ?_
    · intro k x hx hn
      rcases hcase k with ⟨r, hr, rfl⟩ | h
      · exact (h4 r hr x (by rw [hval]; exact hx)).2 (.inl hn)
      · exact ⟨x, by rw [h]; exact hx⟩
    · intro k x w hx hw
      rcases hcase k with ⟨r, hr, rfl⟩ | h
      · exact ih r hr x w (by rw [hval]; exact hx) hw
      · rw [h, hx] at hw
        cases hw
        exact .same
    · intro k w hx hw
      rcases hcase k with ⟨r, hr, rfl⟩ | h
      · have := h5 r hr (by rw [hval]; exact hx)
        exact ⟨c, by rw [← this]; exact hw⟩
      · rw [h, hx] at hw
        cases hw

/-- **C50.** Of such JSON nothing is lost but nulls, and nothing comes in but what the tables
`otherDefaults` and `bindingVersions` fill in. -/
theorem C50_retained (E : Env) (c : Cls) (t : STy) (ht : TypeOf c t) (j : V)
    (h : Conforms (worldOf E ambiguousNames False) j t) :
    ∃ v, validate E c j = some v ∧ Retained (fun s u => ∃ k, E.url k s = some u) j (dump v) := by
  obtain ⟨v, hv, hr⟩ := C50_conforming E c t ht j h
  exact ⟨v, hv, retained_of_rewritten hr⟩

/-! ### Concrete cases -/

set_option maxRecDepth 20000

/-- The small document meets the hypotheses of all of these. -/
example : ∃ v, validate exactEnv .AsyncAPI3 (.dict smallDocument) = some v ∧
    Retained (fun s u => ∃ k, exactEnv.url k s = some u) (.dict smallDocument) (dump v) :=
  C50_retained exactEnv .AsyncAPI3 _ (.inl ⟨documentRows, List.mem_of_getElem (i := 0) (h := by decide +kernel) rfl, rfl⟩) _
    smallDocument_conforms

/-- A channel without address is written with a null one; `null` for a title is left out, an extension stays. -/
example : (validate exactEnv .Channel (.dict [(p!"title", .none), (p!"x-a", .int 1)])).map dump =
    some (.dict [(p!"address", .none), (p!"x-a", .int 1)]) :=
  sameResult_eq (by decide +kernel)

/-- A Python name is replaced, a binding version filled in. -/
example : (validate exactEnv .KafkaServerBindings (.dict [(p!"schema_registry_url", .str p!"u")])).map dump =
    some (.dict [(p!"schemaRegistryUrl", .str p!"u"), (p!"bindingVersion", .str p!"0.5.0")]) :=
  sameResult_eq (by decide +kernel)

/-- **C50 is false of schemas with ambiguous names**, even if they have no name of a declared field: a JSON Schema with
the one key `ref` conforms, but is read as a Reference and written as such. -/
theorem C50_refuted : Conforms (worldOf exactEnv pythonNames) (.dict [(p!"payload", .dict [(p!"ref", .str p!"abc")])]) (.object .Message) ∧
    (validate exactEnv .Message (.dict [(p!"payload", .dict [(p!"ref", .str p!"abc")])])).map dump =
      some (.dict [(p!"payload", .dict [(p!"$ref", .str p!"abc")])]) ∧
    ¬ Rewritten (exactOf exactEnv) (.dict [(p!"payload", .dict [(p!"ref", .str p!"abc")])])
      (.dict [(p!"payload", .dict [(p!"$ref", .str p!"abc")])]) (.object .Message) := by
  refine ⟨?_, sameResult_eq (by decide +kernel), ?_⟩
  · refine conforms_object (List.mem_of_getElem (i := 12) (h := by decide +kernel) rfl) (by decide +kernel) (by decide +kernel)
      ?_ trivial
    simp only [List.forall_mem_cons, List.not_mem_nil, false_implies, implies_true, and_true]
    refine .inl ⟨opt p!"payload" anySchema, List.mem_of_getElem (i := 11) (h := by decide +kernel) rfl, rfl, .either (.tail _ (.head _)) (fun h => nomatch h) ?_⟩
    refine conforms_object (List.mem_of_getElem (i := 19) (h := by decide +kernel) rfl) (by decide +kernel) (by decide +kernel)
      ?_ trivial
    simp only [List.forall_mem_cons, List.not_mem_nil, false_implies, implies_true, and_true]
    refine .inr ⟨by decide, .inl ⟨by decide, ?_⟩, rfl⟩
    rintro ⟨l, hl, hk⟩
    simp only [snakeNames, List.mem_cons, List.not_mem_nil, or_false, Prod.mk.injEq, reduceCtorEq, false_and, true_and] at hl
    subst hl
    exact absurd hk (by decide)
  · intro h
    cases retained_of_rewritten h with
    | object _ h2 _ =>
      have := h2 p!"payload" _ _ rfl rfl
      cases this with
      | object h1 _ _ =>
        obtain ⟨w, hw⟩ := h1 p!"ref" _ rfl (by simp)
        cases hw

/-- **C50 is false of Kafka messages whose key is just any object**: an object with the one key `ref` is read as a Reference. -/
theorem C50_refuted_key : Conforms (worldOf exactEnv ambiguousNames) (.dict [(p!"key", .dict [(p!"ref", .str p!"u")])]) (.object .KafkaMessageBindings) ∧
    (validate exactEnv .KafkaMessageBindings (.dict [(p!"key", .dict [(p!"ref", .str p!"u")])])).map dump =
      some (.dict [(p!"key", .dict [(p!"$ref", .str p!"u")]), (p!"bindingVersion", .str p!"0.5.0")]) := by
  refine ⟨?_, sameResult_eq (by decide +kernel)⟩
  obtain ⟨rs, hrs, hr, h1, h2⟩ : ∃ rs, (Cls.KafkaMessageBindings, rs) ∈ grammar ∧
      opt p!"key" (.either [.object .Schema, .object .Reference, freeMap]) ∈ rs ∧
      rs.all (fun r => (!r.required || (lookup r.name [(p!"key", V.dict [(p!"ref", .str p!"u")])]).isSome) && r.max == none) = true ∧
      (rs.map (·.name)).Nodup :=
    ⟨_, List.mem_of_getElem (i := 98) (h := by decide +kernel) rfl, List.mem_cons_self, by decide +kernel, by decide +kernel⟩
  refine conforms_object hrs h1 h2 ?_ trivial
  simp only [List.forall_mem_cons, List.not_mem_nil, false_implies, implies_true, and_true]
  refine .inl ⟨_, hr, rfl, .either (.tail _ (.tail _ (.head _))) (fun _ _ => trivial) (.map ?_)⟩
  simp only [List.forall_mem_cons, List.not_mem_nil, false_implies, implies_true, and_true]
  exact .any rfl

/-- A MultiFormatSchema with the names of three fields of a Schema is read as a Schema, and an integer converted. -/
theorem C50_refuted_conversion :
    (validate exactEnv .Message (.dict [(p!"payload", .dict [(p!"schemaFormat", .str p!"f"), (p!"schema", .dict []),
      (p!"discriminator", .str p!"d"), (p!"deprecated", .int 1), (p!"externalDocs", .dict [(p!"url", .str p!"u")])])])).map dump =
    some (.dict [(p!"payload", .dict [(p!"discriminator", .str p!"d"), (p!"externalDocs", .dict [(p!"url", .str p!"u")]),
      (p!"deprecated", .bool true), (p!"schemaFormat", .str p!"f"), (p!"schema", .dict [])])]) :=
  sameResult_eq (by decide +kernel)

end Verif.Props
