import Verif.Lemmas.Rewrite
/-! Conforming JSON is rewritten without conversions. -/
namespace Verif.Pyd
open Verif Verif.Gen Verif.Spec Verif.Props

variable {E : Env}

/-- No conversions. -/
def exactOf (E : Env) : Reader := exactReader E.U fun k s u => E.url k s = some u

theorem exact_object {c : Cls} {rs : List Row} (hrs : (c, rs) ∈ grammar) {d : List (Str × V)} {w : V}
    (h : Rewritten (readerOf E) (.dict d) w (.object c))
    (hn : ∀ r ∈ rs, attrOf c r.name ≠ r.name → lookup (attrOf c r.name) d = none)
    (hx : ∀ k, k = p!"extra_converters" ∨ k = p!"extra_validators" → c = .AsyncAPI3 → lookup k d = none)
    (hf : ∀ r ∈ rs, ∀ x w, lookup r.name d = some x → Rewritten (readerOf E) x w r.ty → Rewritten (exactOf E) x w r.ty) :
    Rewritten (exactOf E) (.dict d) w (.object c) := by
  have hval : ∀ r ∈ rs, valueFor (readerOf E) c d r.name = lookup r.name d := by
    intro r hr
    unfold valueFor
    split
    · rename_i x hx; exact hx.symm
    · rename_i hnone
      rw [hnone]
      by_cases e : attrOf c r.name = r.name
      · show lookup (attrOf c r.name) d = none
        rw [e]; exact hnone
      · exact hn r hr e
  have hval' : ∀ k, valueFor (exactOf E) c d k = lookup k d := by
    intro k
    unfold valueFor
    show (match lookup k d with | some x => some x | none => lookup k d) = _
    split <;> simp_all
  have hnone : ∀ k, (∀ r ∈ rs, k ≠ r.name) → Taken (readerOf E) c rs d k → lookup k d = none := by
    rintro k hk (⟨r, hr, hkr, hn'⟩ | ⟨-, hc, hkx⟩)
    · have hkr : k = attrOf c r.name := hkr
      rw [hkr]
      exact hn r hr (by rw [← hkr]; exact hk r hr)
    · exact hx k hkx hc
  cases h with
  | object hrs' h1 h2 h3 h4 h5 h6 h7 =>
    cases rows_unique hrs hrs'
    refine .object hrs ?_ ?_ ?_ ?_ ?_ ?_ ?_
    · intro e he
      have hl : lookup e.1 d ≠ none := by
        obtain ⟨x, hx⟩ := lookup_isSome_of_mem (List.mem_map.2 ⟨e, he, rfl⟩)
        rw [hx]; simp
      rcases h1 e he with ⟨r, hr, h | h⟩ | h | h | ⟨-, hc, h⟩
      · exact .inl ⟨r, hr, .inl h⟩
      · have h : e.1 = attrOf c r.name := h
        by_cases e' : attrOf c r.name = r.name
        · exact .inl ⟨r, hr, .inl (h.trans e')⟩
        · exact absurd (by rw [h]; exact hn r hr e') hl
      · exact .inr (.inl h)
      · exact .inr (.inr (.inl h))
      · exact absurd (hx _ h hc) hl
    · intro r hr hq
      rw [hval', ← hval r hr]
      exact h2 r hr hq
    · intro r hr x w hl hw
      rw [hval'] at hl
      exact hf r hr x w hl (h3 r hr x w (by rw [hval r hr]; exact hl) hw)
    · intro r hr x hl
      rw [hval', ← hval r hr] at hl
      exact h4 r hr x hl
    · intro r hr hl
      rw [hval', ← hval r hr] at hl
      exact h5 r hr hl
    · rintro k hk (⟨r, hr, hkr, -⟩ | h)
      · exact absurd hkr (hk r hr)
      · exact absurd h.1 not_false
    · intro k hk htk
      by_cases ht : Taken (readerOf E) c rs d k
      · rw [h6 k hk ht, hnone k hk ht]
      · exact h7 k hk ht

/-- The world in which schemas have no ambiguous keys. -/
abbrev plainWorld (E : Env) : World := worldOf E ambiguousNames False

theorem plain_reserves : ∀ c k, pythonNames c k → (plainWorld E).reserved c k := fun _ _ h => .inl h

/-- The keys of conforming objects. -/
theorem conforming_keys {W : World} {c : Cls} {d : List (Str × V)} (h : Conforms W (.dict d) (.object c)) :
    ∃ rs, (c, rs) ∈ grammar ∧ KeysOk W c rs d ∧ ∀ r ∈ rs, r.required = true → ∃ x, lookup r.name d = some x := by
  cases h with
  | object hrs h1 h2 h3 h4 h5 => exact ⟨_, hrs, h4, h1⟩

/-- An object conforms to `c` and is rewritten as `c`. -/
theorem exact_same {c : Cls} {rs : List Row} (hrs : (c, rs) ∈ grammar) {d : List (Str × V)} {w : V} (hk : KeysOk (plainWorld E) c rs d)
    (h : Rewritten (readerOf E) (.dict d) w (.object c))
    (hf : ∀ r ∈ rs, ∀ x w, lookup r.name d = some x → Rewritten (readerOf E) x w r.ty → Rewritten (exactOf E) x w r.ty) :
    Rewritten (exactOf E) (.dict d) w (.object c) := by
  have key : ∀ f ∈ (classDef c).fields, ∀ x, lookup f.name d = some x → f.exclude = false ∧ jsonName f = f.name :=
    fun f hf x hx => key_name plain_reserves hrs hk hf hx
  refine exact_object hrs h ?_ ?_ hf
  · intro r hr hne
    obtain ⟨f, hf, hrf⟩ := field_of_row hrs hr
    have ha : attrOf c r.name = f.name := by rw [← hrf.name]; exact attrOf_json hf
    rw [ha] at hne ⊢
    cases hl : lookup f.name d with
    | none => rfl
    | some x => exact absurd ((key f hf x hl).2.symm.trans hrf.name) hne
  · intro k hkn hc
    subst hc
    obtain ⟨f, hf, hfn, -, -⟩ := processor_field k hkn
    cases hl : lookup k d with
    | none => rfl
    | some x =>
      have := (key f hf x (by rw [hfn]; exact hl)).1
      rw [(excluded_iff hf).2 ⟨rfl, by rw [hfn]; exact hkn⟩] at this
      cases this

def schemaRows : List Row := [opt p!"discriminator" .string, opt p!"externalDocs" (orRef .ExternalDocumentation),
    opt p!"deprecated" .boolean]
def multiRows : List Row := [req p!"schemaFormat" .string, req p!"schema" .any]
def referenceRows : List Row := [req p!"$ref" .string]

theorem schema_rows : (.Schema, schemaRows) ∈ grammar := List.mem_of_getElem (i := 19) (h := by decide +kernel) rfl
theorem multi_rows : (.MultiFormatSchema, multiRows) ∈ grammar := List.mem_of_getElem (i := 20) (h := by decide +kernel) rfl
theorem reference_rows : (.Reference, referenceRows) ∈ grammar := List.mem_of_getElem (i := 17) (h := by decide +kernel) rfl

theorem attr_reference : attrOf .Reference p!"$ref" = p!"ref" := by decide +kernel
theorem attr_multi : attrOf .MultiFormatSchema p!"schemaFormat" = p!"schema_format" ∧ attrOf .MultiFormatSchema p!"schema" = p!"schema" := by
  decide +kernel
theorem attr_schema : attrOf .Schema p!"discriminator" = p!"discriminator" ∧ attrOf .Schema p!"externalDocs" = p!"external_docs" ∧
    attrOf .Schema p!"deprecated" = p!"deprecated" := by decide +kernel

/-- No object has a field named like that of a Reference. -/
theorem no_ref : grammar.all (fun e => e.1 == .Reference || e.2.all fun r => r.name != p!"$ref" && r.name != p!"ref") = true := by
  decide +kernel

theorem ref_keys : OrNewline (ExtensionForm E.U) p!"$ref" → False := by
  intro h
  have := extension_take h
  cases this

theorem ref_keys' : OrNewline (ExtensionForm E.U) p!"ref" → False := by
  intro h
  have := extension_take h
  cases this

/-- No Python name of a field is `$ref`. -/
theorem no_ref_attr : grammar.all (fun e => e.2.all fun r => attrOf e.1 r.name != p!"$ref") = true := by
  decide +kernel

theorem lookup_none {d : List (Str × V)} {k : Str} (h : ∀ e ∈ d, e.1 ≠ k) : lookup k d = none := by
  cases hl : lookup k d with
  | none => rfl
  | some x => exact absurd rfl (h _ (lookup_some_mem hl))

/-- A value conforms to Reference, but is read as something else. -/
theorem exact_reference {c : Cls} (hc : c ≠ .Reference) {d : List (Str × V)} {w : V}
    (h : Conforms (plainWorld E) (.dict d) (.object .Reference))
    (h' : Rewritten (readerOf E) (.dict d) w (.object c)) : Rewritten (exactOf E) (.dict d) w (.object c) := by
  obtain ⟨rs, hrs, hk, -⟩ := conforming_keys h
  cases rows_unique reference_rows hrs
  have hkey : ∀ e ∈ d, e.1 = p!"$ref" := by
    intro e he
    rcases hk e he with ⟨r, hr, h⟩ | ⟨⟨h, -⟩ | ⟨h, -⟩, -⟩
    · rw [h]
      cases hr with
      | head => rfl
      | tail _ hr => cases hr
    · exact absurd h (by decide)
    · exact absurd h (by decide)
  have hgr := h'
  cases hgr with
  | object hrs' _ _ _ _ _ _ _ =>
    rename_i rs' d' _ _ _ _ _ _ _
    have hn := List.all_eq_true.1 no_ref _ hrs'
    have ha := List.all_eq_true.1 (List.all_eq_true.1 no_ref_attr _ hrs')
    have hn : ∀ r ∈ rs', r.name ≠ p!"$ref" := by
      simp only [Bool.or_eq_true, beq_iff_eq, hc, false_or] at hn
      intro r hr
      have := List.all_eq_true.1 hn r hr
      rw [Bool.and_eq_true] at this
      simpa using this.1
    refine exact_object hrs' h' ?_ ?_ ?_
    · intro r hr _
      refine lookup_none fun e he he' => ?_
      have := ha r hr
      rw [← he', hkey e he] at this
      cases this
    · intro k hkx _
      refine lookup_none fun e he he' => ?_
      rw [hkey e he] at he'
      rcases hkx with rfl | rfl <;> cases he'
    · intro r hr x w hl
      exact absurd ((hkey _ (lookup_some_mem hl))) (hn r hr)

/-- A value conforms to something else, but is read as a Reference. -/
theorem exact_as_reference {c : Cls} (hc : c ≠ .Reference) {d : List (Str × V)} {w : V}
    (h : Conforms (plainWorld E) (.dict d) (.object c)) (hd : c ∈ anyFields → c = .Schema ∨ c = .MultiFormatSchema)
    (h' : Rewritten (readerOf E) (.dict d) w (.object .Reference)) : Rewritten (exactOf E) (.dict d) w (.object .Reference) := by
  obtain ⟨rs, hrs, hk, hq⟩ := conforming_keys h
  have hn : ∀ r ∈ rs, r.name ≠ p!"ref" := by
    have hn := List.all_eq_true.1 no_ref _ hrs
    simp only [Bool.or_eq_true, beq_iff_eq, hc, false_or] at hn
    intro r hr
    have := List.all_eq_true.1 hn r hr
    rw [Bool.and_eq_true] at this
    simpa using this.2
  have hgr := h'
  cases hgr with
  | object hrs' hkeys _ _ _ _ _ _ =>
    cases rows_unique reference_rows hrs'
    have hkey : ∀ e ∈ d, e.1 = p!"$ref" ∨ e.1 = p!"ref" := by
      intro e he
      rcases hkeys e he with ⟨r, hr, h⟩ | h | ⟨h, -⟩ | ⟨-, h, -⟩
      · cases hr with
        | head =>
          rcases h with h | h
          · exact .inl h
          · exact .inr (h.trans attr_reference)
        | tail _ hr => cases hr
      · exact absurd h (by decide)
      · exact absurd h (by decide)
      · cases h
    have href : lookup p!"ref" d = none := by
      refine lookup_none fun e he he' => ?_
      rcases hk e he with ⟨r, hr, h⟩ | ⟨⟨h, hr⟩ | ⟨-, h⟩, -⟩
      · exact hn r hr (h.symm.trans he')
      · rcases hd h with rfl | rfl
        · refine hr (.inr ⟨_, List.mem_cons_self, ?_⟩)
          rw [he']; decide
        · cases rows_unique multi_rows hrs
          obtain ⟨x, hx⟩ := hq (req p!"schema" .any) (.tail _ (.head _)) rfl
          rcases hkey _ (lookup_some_mem hx) with h | h <;> cases h
      · rw [he'] at h; exact ref_keys' h
    refine exact_object reference_rows h' ?_ ?_ ?_
    · intro r hr _
      cases hr with
      | head => show lookup (attrOf .Reference p!"$ref") d = none; rw [attr_reference]; exact href
      | tail _ hr => cases hr
    · intro k _ h
      cases h
    · intro r hr x w _ h
      cases hr with
      | head => cases h; exact .string
      | tail _ hr => cases hr

/-- A MultiFormatSchema is read as a Schema. -/
theorem exact_as_schema {d : List (Str × V)} {w : V} (h : Conforms (plainWorld E) (.dict d) (.object .MultiFormatSchema))
    (h' : Rewritten (readerOf E) (.dict d) w (.object .Schema)) : Rewritten (exactOf E) (.dict d) w (.object .Schema) := by
  obtain ⟨rs, hrs, hk, -⟩ := conforming_keys h
  cases rows_unique multi_rows hrs
  have hnone : ∀ k ∈ [p!"discriminator", p!"deprecated", p!"externalDocs", p!"external_docs"], lookup k d = none := by
    intro k hkm
    refine lookup_none fun e he he' => ?_
    rcases hk e he with ⟨r, hr, h⟩ | ⟨⟨-, hr⟩ | ⟨h, -⟩, -⟩
    · rw [he'] at h
      have : ∀ r ∈ multiRows, r.name ∉ [p!"discriminator", p!"deprecated", p!"externalDocs", p!"external_docs"] := by
        simp only [multiRows, List.forall_mem_cons, req]
        decide
      exact this r hr (h ▸ hkm)
    · exact hr (.inr ⟨_, .tail _ (.head _), by rw [he']; exact hkm⟩)
    · exact absurd h (by decide)
  refine exact_object schema_rows h' ?_ ?_ ?_
  · intro r hr _
    have : ∀ r ∈ schemaRows, attrOf .Schema r.name ∈ [p!"discriminator", p!"deprecated", p!"externalDocs", p!"external_docs"] := by
      simp only [schemaRows, List.forall_mem_cons, opt, attr_schema]
      decide
    exact hnone _ (this r hr)
  · intro k _ h
    cases h
  · intro r hr x w hl
    have : ∀ r ∈ schemaRows, r.name ∈ [p!"discriminator", p!"deprecated", p!"externalDocs", p!"external_docs"] := by
      simp only [schemaRows, List.forall_mem_cons, opt]
      decide
    rw [hnone _ (this r hr)] at hl
    cases hl

/-- A Schema without key `schema` is not read as a MultiFormatSchema. -/
theorem not_as_multi {d : List (Str × V)} {w : V} (h : Conforms (plainWorld E) (.dict d) (.object .Schema))
    (h' : Rewritten (readerOf E) (.dict d) w (.object .MultiFormatSchema)) : False := by
  obtain ⟨rs, hrs, hk, -⟩ := conforming_keys h
  cases rows_unique schema_rows hrs
  have hl : lookup p!"schema" d = none := by
    refine lookup_none fun e he he' => ?_
    rcases hk e he with ⟨r, hr, h⟩ | ⟨⟨-, hr⟩ | ⟨h, -⟩, -⟩
    · rw [he'] at h
      have : ∀ r ∈ schemaRows, p!"schema" ≠ r.name := by
        simp only [schemaRows, List.forall_mem_cons, opt]
        decide
      exact this r hr h
    · refine hr (.inr ⟨_, List.mem_cons_self, ?_⟩)
      rw [he']; decide
    · exact absurd h (by decide)
  cases h' with
  | object hrs' _ hq _ _ _ _ _ =>
    cases rows_unique multi_rows hrs'
    rcases hq (req p!"schema" .any) (.tail _ (.head _)) rfl with h | h
    · apply h
      unfold valueFor
      show (match lookup p!"schema" d with | some x => some x | none => lookup (attrOf .MultiFormatSchema p!"schema") d) = none
      rw [attr_multi.2, hl]
    · exact h (by decide +kernel)

/-! ### The places where one of several types may stand -/

/-- The lists of alternatives in the grammar. -/
inductive Alternatives : List STy → Prop
  | orRef {c} : c ≠ .Reference → c ≠ .KafkaTopicConfiguration → Alternatives [.object c, .object .Reference]
  | anySchema : Alternatives [.object .MultiFormatSchema, .object .Schema, .object .Reference]
  | strings : Alternatives [.string, .list .string]
  | address : Alternatives [.string, .null]
  | integerOrSchema : Alternatives [.integer, .object .Schema, .object .Reference]
  | stringOrSchema : Alternatives [.string, .object .Schema, .object .Reference]
  | principal : Alternatives [.string, .map strings]
  | condition : Alternatives [freeMap, .list freeMap]
  | key : Alternatives [.object .Schema, .object .Reference, freeMap]

/-- `Alternatives`, for tables. -/
def alternatives : List STy → Bool
  | [.object c, .object .Reference] => c != .Reference && c != .KafkaTopicConfiguration
  | [.object .MultiFormatSchema, .object .Schema, .object .Reference] => true
  | [.string, .list .string] => true
  | [.string, .null] => true
  | [.integer, .object .Schema, .object .Reference] => true
  | [.string, .object .Schema, .object .Reference] => true
  | [.string, .map (.either [.string, .list .string])] => true
  | [.map .any, .list (.map .any)] => true
  | [.object .Schema, .object .Reference, .map .any] => true
  | _ => false

theorem alternatives_iff {ts : List STy} (h : alternatives ts = true) : Alternatives ts := by
  unfold alternatives at h
  split at h
  · simp only [Bool.and_eq_true, bne_iff_ne, ne_eq] at h
    exact .orRef h.1 h.2
  · exact .anySchema
  · exact .strings
  · exact .address
  · exact .integerOrSchema
  · exact .stringOrSchema
  · exact .principal
  · exact .condition
  · exact .key
  · cases h

/-- Every list of alternatives in the type is one of these. -/
def okSTy : STy → Bool
  | .list t => okSTy t
  | .map t => okSTy t
  | .keyed t => okSTy t
  | .either ts => alternatives ts
  | _ => true

theorem grammar_okSTy : (grammar.all fun e => e.2.all fun r => okSTy r.ty) = true ∧ (keyedObjects.all fun e => okSTy e.2) = true := by
  decide +kernel

theorem alternative_ok {ts : List STy} (h : Alternatives ts) : ∀ t ∈ ts, okSTy t = true := by
  cases h <;> simp [okSTy, strings, freeMap, alternatives]

theorem rewritten_dict {R : Reader} {c : Cls} {j w : V} (h : Rewritten R j w (.object c)) : ∃ d, j = .dict d := by
  cases h
  exact ⟨_, rfl⟩

theorem conforms_dict {W : World} {c : Cls} {j : V} (h : Conforms W j (.object c)) : ∃ d, j = .dict d := by
  cases h
  exact ⟨_, rfl⟩

/-- A free map is itself. -/
theorem free_map {R : Reader} (d : List (Str × V)) : Rewritten R (.dict d) (.dict d) freeMap := by
  have := Rewritten.map (R := R) (l := d.map fun e => (e.1, e.2, e.2)) (t := .any) (fun p hp => by
    obtain ⟨e, -, rfl⟩ := List.mem_map.1 hp
    exact .any)
  simp only [List.map_map, Function.comp_def, List.map_id'] at this
  exact this

theorem same_map {R R' : Reader} {v w : V} (h : Rewritten R v w freeMap) : Rewritten R' v w freeMap := by
  cases h with
  | map h =>
    refine .map fun p hp => ?_
    have := h p hp
    revert this
    generalize p.2.1 = a
    generalize p.2.2 = b
    intro h
    cases h
    exact .any

/-- Conforming JSON without ambiguous names is rewritten without conversions. -/
theorem exactly {j : V} {t : STy} (h : Conforms (plainWorld E) j t) : okSTy t = true → ∀ w, Rewritten (readerOf E) j w t →
    Rewritten (exactOf E) j w t := by
  induction h with
  | any _ => intro _ w h; cases h; exact .any
  | null => intro _ w h; cases h; exact .null
  | string => intro _ w h; cases h; exact .string
  | integer =>
    intro _ w h
    cases h with
    | integer => exact .integer
    | asInteger h =>
      rcases h with ⟨b, h, -⟩ | ⟨b, h, -⟩ | ⟨b, h, -⟩ <;> cases h
  | boolean =>
    intro _ w h
    cases h with
    | boolean => exact .boolean
    | asBoolean h =>
      rcases h with ⟨h, -⟩ | ⟨h, -⟩ | ⟨b, h, -⟩ | ⟨b, h, -⟩ <;> cases h
  | email _ => intro _ w h; cases h; exact .email
  | url _ =>
    intro _ w h
    cases h with
    | url h => exact .url h
  | enumStr _ => intro _ w h; cases h; exact .enum
  | enumInt _ => intro _ w h; cases h; exact .enum
  | list _ ih =>
    intro ho w h
    cases h with
    | list h =>
      refine .list fun p hp => ih _ (List.mem_map_of_mem (f := (·.1)) hp) ho _ (h p hp)
  | map _ ih =>
    intro ho w h
    cases h with
    | map h =>
      refine .map fun p hp => ih _ (List.mem_map_of_mem (f := fun p => (p.1, p.2.1)) hp) ho _ (h p hp)
  | keyed _ _ ih =>
    intro ho w h
    cases h with
    | keyed h =>
      refine .keyed fun p hp => ih _ (List.mem_map_of_mem (f := fun p => (p.1, p.2.1)) hp) ho _ (h p hp)
  | @object c rs d hrs h1 h2 h3 h4 h5 ih =>
    intro _ w h
    refine exact_same hrs h4 h fun r hr x w hl hw => ?_
    exact ih r hr _ (lookup_some_mem hl) rfl (List.all_eq_true.1 (List.all_eq_true.1 grammar_okSTy.1 _ hrs) r hr) _ hw
  | @either v t ts ht hfree hc ih =>
    intro ho w h
    have ha := alternatives_iff ho
    have ih := ih (alternative_ok ha t ht) w
    cases h with
    | either ht' h' =>
      rename_i t'
      have fin : Rewritten (exactOf E) v w t' → Rewritten (exactOf E) v w (.either ts) := fun h => .either ht' h
      cases ha with
      | orRef hc1 hc2 =>
        apply fin
        simp only [List.mem_cons, List.not_mem_nil, or_false] at ht ht'
        rcases ht with rfl | rfl <;> rcases ht' with rfl | rfl
        · exact ih h'
        · obtain ⟨d, rfl⟩ := conforms_dict hc
          refine exact_as_reference hc1 hc (fun h => ?_) h'
          simp only [anyFields, List.mem_cons, List.not_mem_nil, or_false] at h
          rcases h with h | h | h
          · exact .inl h
          · exact .inr h
          · exact absurd h hc2
        · obtain ⟨d, rfl⟩ := conforms_dict hc
          exact exact_reference hc1 hc h'
        · exact ih h'
      | anySchema =>
        apply fin
        simp only [List.mem_cons, List.not_mem_nil, or_false] at ht ht'
        rcases ht with rfl | rfl | rfl <;> obtain ⟨d, rfl⟩ := conforms_dict hc <;> rcases ht' with rfl | rfl | rfl
        · exact ih h'
        · exact exact_as_schema hc h'
        · exact exact_as_reference (by decide) hc (fun _ => .inr rfl) h'
        · exact (not_as_multi hc h').elim
        · exact ih h'
        · exact exact_as_reference (by decide) hc (fun _ => .inl rfl) h'
        · exact exact_reference (by decide) hc h'
        · exact exact_reference (by decide) hc h'
        · exact ih h'
      | strings =>
        apply fin
        simp only [List.mem_cons, List.not_mem_nil, or_false] at ht ht'
        rcases ht with rfl | rfl <;> rcases ht' with rfl | rfl
        · exact ih h'
        · cases hc; cases h'
        · cases hc; cases h'
        · exact ih h'
      | address =>
        apply fin
        simp only [List.mem_cons, List.not_mem_nil, or_false] at ht ht'
        rcases ht with rfl | rfl <;> rcases ht' with rfl | rfl
        · exact ih h'
        · cases hc; cases h'
        · cases hc; cases h'
        · exact ih h'
      | integerOrSchema =>
        apply fin
        simp only [List.mem_cons, List.not_mem_nil, or_false] at ht ht'
        rcases ht with rfl | rfl | rfl
        · rcases ht' with rfl | rfl | rfl
          · exact ih h'
          · cases hc; cases h'
          · cases hc; cases h'
        all_goals
          obtain ⟨d, rfl⟩ := conforms_dict hc
          rcases ht' with rfl | rfl | rfl
        · cases h' with
          | asInteger h => rcases h with ⟨b, h, -⟩ | ⟨b, h, -⟩ | ⟨b, h, -⟩ <;> cases h
        · exact ih h'
        · exact exact_as_reference (by decide) hc (fun _ => .inl rfl) h'
        · cases h' with
          | asInteger h => rcases h with ⟨b, h, -⟩ | ⟨b, h, -⟩ | ⟨b, h, -⟩ <;> cases h
        · exact exact_reference (by decide) hc h'
        · exact ih h'
      | stringOrSchema =>
        apply fin
        simp only [List.mem_cons, List.not_mem_nil, or_false] at ht ht'
        rcases ht with rfl | rfl | rfl
        · rcases ht' with rfl | rfl | rfl
          · exact ih h'
          · cases hc; cases h'
          · cases hc; cases h'
        all_goals
          obtain ⟨d, rfl⟩ := conforms_dict hc
          rcases ht' with rfl | rfl | rfl
        · cases h'
        · exact ih h'
        · exact exact_as_reference (by decide) hc (fun _ => .inl rfl) h'
        · cases h'
        · exact exact_reference (by decide) hc h'
        · exact ih h'
      | principal =>
        apply fin
        simp only [List.mem_cons, List.not_mem_nil, or_false] at ht ht'
        rcases ht with rfl | rfl <;> rcases ht' with rfl | rfl
        · exact ih h'
        · cases hc; cases h'
        · cases hc; cases h'
        · exact ih h'
      | condition =>
        apply fin
        simp only [List.mem_cons, List.not_mem_nil, or_false] at ht ht'
        rcases ht with rfl | rfl <;> rcases ht' with rfl | rfl
        · exact ih h'
        · cases hc; cases h'
        · cases hc; cases h'
        · exact ih h'
      | key =>
        apply fin
        have hne : t ≠ freeMap := fun h => hfree h List.mem_cons_self
        simp only [List.mem_cons, List.not_mem_nil, or_false] at ht ht'
        rcases ht with rfl | rfl | rfl
        · obtain ⟨d, rfl⟩ := conforms_dict hc
          rcases ht' with rfl | rfl | rfl
          · exact ih h'
          · exact exact_as_reference (by decide) hc (fun _ => .inl rfl) h'
          · exact same_map h'
        · obtain ⟨d, rfl⟩ := conforms_dict hc
          rcases ht' with rfl | rfl | rfl
          · exact exact_reference (by decide) hc h'
          · exact ih h'
          · exact same_map h'
        · exact absurd rfl hne

end Verif.Pyd
