import Verif.Props.RefParse
import Verif.Lemmas.Resolve
import Verif.Spec.SchemaKind
/-!
# C46: MultiFormatSchema or Schema
-/
namespace Verif.Props
open Verif Verif.Gen Verif.Spec Verif.Pyd

/-- Places for schemas in a document: the headers and payloads of messages and message traits, and
`components.schemas`. -/
def isSchemaPlace (ts : List (Ty Cls)) : Prop :=
  ts = [.model .MultiFormatSchema, .model .Schema, .model .Reference, .none] ∨
  ts = [.model .MultiFormatSchema, .model .Schema, .model .Reference]

theorem and_count (a b : Score) : (a.and b).exact = min a.exact b.exact ∧
    ((a.and b).count.getD 0 = a.count.getD 0 + b.count.getD 0) := by
  obtain ⟨ae, ac⟩ := a
  obtain ⟨be, bc⟩ := b
  refine ⟨rfl, ?_⟩
  cases ac <;> cases bc <;> simp [Score.and]

theorem findKey_has {f : FieldDef Cls} {d : List (Str × V)} :
    (if (findKey f d).isSome then 1 else 0) = has d (match f.alias with | none => [f.name] | some a => [a, f.name]) := by
  unfold findKey has
  cases f.alias with
  | none => simp only [Option.isSome_map, List.any_cons, List.any_nil, Bool.or_false]
  | some a =>
    cases h : lookup a d with
    | some x => simp [h]
    | none => simp [h]

theorem findKey_two (f : FieldDef Cls) (d : List (Str × V)) (a : Str) (ha : f.alias = some a) :
    findKey f d = ((lookup a d).map (a, ·)).or ((lookup f.name d).map (f.name, ·)) := by
  unfold findKey
  rw [ha]
  simp only
  cases lookup a d <;> rfl

/-- Score of a model made from a dict. -/
theorem dict_score {E : Env} {c : Cls} (hk : (classDef c).kind ≠ .patterned) {d : List (Str × V)} {v : V} {sc : Score}
    (h : parse E (.dict d) (.model c) = some (v, sc)) :
    sc = ⟨min (fieldsScore E c d (classDef c).fields).exact E.built,
        some ((fieldsScore E c d (classDef c).fields).count.getD 0)⟩ ∧
      ∀ f ∈ (classDef c).fields, (one E c d f).isSome = true := by
  rw [parse_model_dict E hk, construct_eq] at h
  split at h
  · rename_i hok
    rw [Option.map_eq_some_iff] at h
    obtain ⟨i, -, h⟩ := h
    cases h
    refine ⟨?_, fun f hf => ?_⟩
    · generalize fieldsScore E c d (classDef c).fields = s
      obtain ⟨e, n⟩ := s
      cases n <;> simp [Score.and]
    · unfold allOk at hok
      rw [Bool.and_eq_true] at hok
      exact List.all_eq_true.1 hok.1 f hf
  · cases h

/-- What one field adds to the count. -/
def adds (E : Env) (d : List (Str × V)) (f : FieldDef Cls) : Nat :=
  match findKey f d with
  | none => 0
  | some (_, x) => match parse E x f.ty with
    | some (_, sc) => 1 + sc.count.getD 0
    | none => 0

theorem fieldsScore_count (E : Env) (c : Cls) (d : List (Str × V)) (L : List (FieldDef Cls)) :
    (fieldsScore E c d L).count.getD 0 = (L.map (adds E d)).sum := by
  induction L with
  | nil => rfl
  | cons f L ih =>
    rw [fieldsScore, List.map_cons, List.sum_cons, ← ih, adds]
    cases findKey f d with
    | none => simp
    | some kx =>
      obtain ⟨k, x⟩ := kx
      simp only
      cases parse E x f.ty with
      | none => simp
      | some vs =>
        obtain ⟨v, sc⟩ := vs
        simp only
        rw [(and_count _ _).2, (and_count _ _).2]
        simp only [Option.getD_some]
        omega

theorem adds_plain {E : Env} {d : List (Str × V)} {c : Cls} {f : FieldDef Cls} (ho : (one E c d f).isSome = true)
    (hf : ∀ x v sc, parse E x f.ty = some (v, sc) → sc.count = none) :
    adds E d f = if (findKey f d).isSome then 1 else 0 := by
  unfold adds
  unfold one at ho
  cases hk : findKey f d with
  | none => rfl
  | some kx =>
    obtain ⟨k, x⟩ := kx
    rw [hk] at ho
    simp only at ho ⊢
    cases hp : parse E x f.ty with
    | none => rw [hp] at ho; cases ho
    | some vs =>
      obtain ⟨v, sc⟩ := vs
      simp only [hf x v sc hp]; rfl

theorem plain_str {E : Env} {x v : V} {sc : Score} (h : parse E x .str = some (v, sc)) : sc.count = none := by
  rw [parse_eq_shape] at h
  simp only [parseAs] at h
  unfold parseStr at h
  split at h
  · cases h; rfl
  · cases h
theorem plain_bool {E : Env} {x v : V} {sc : Score} (h : parse E x .bool = some (v, sc)) : sc.count = none := by
  rw [parse_eq_shape] at h
  simp only [parseAs] at h
  unfold parseBool at h
  split at h
  · cases h; rfl
  · split at h
    · cases h; rfl
    · split at h
      · cases h; rfl
      · cases h
  · rw [Option.map_eq_some_iff] at h; obtain ⟨_, _, h⟩ := h; cases h; rfl
  · rw [Option.map_eq_some_iff] at h; obtain ⟨_, _, h⟩ := h; cases h; rfl
  · cases h
theorem plain_none {E : Env} {x v : V} {sc : Score} (h : parse E x .none = some (v, sc)) : sc.count = none := by
  rw [parse_eq_shape] at h
  simp only [parseAs] at h
  split at h
  · cases h; rfl
  · cases h
theorem plain_any {E : Env} {x v : V} {sc : Score} (h : parse E x .any = some (v, sc)) : sc.count = none := by
  rw [parse_eq_shape] at h
  simp only [parseAs] at h
  cases h; rfl
theorem plain_url {E : Env} {x v : V} {sc : Score} (h : parse E x .anyUrl = some (v, sc)) : sc.count = none := by
  rw [parse_eq_shape] at h
  simp only [parseAs] at h
  unfold parseUrl at h
  split at h
  · rw [Option.map_eq_some_iff] at h; obtain ⟨_, _, h⟩ := h; cases h; rfl
  · split at h
    · cases h; rfl
    · rw [Option.map_eq_some_iff] at h; obtain ⟨_, _, h⟩ := h; cases h; rfl
  · cases h

theorem plain_union {E : Env} {ts : List (Ty Cls)} (hts : ∀ t ∈ ts, ∀ x v sc, parse E x t = some (v, sc) → sc.count = none)
    {x v : V} {sc : Score} (h : parse E x (.union ts) = some (v, sc)) : sc.count = none := by
  rw [parse_union] at h
  split at h
  · cases h; rfl
  · rcases pick_mem h with h | h
    · cases h
    · obtain ⟨t, ht, h⟩ := List.mem_map.1 h
      exact hts t ht x v sc h

theorem exact_str {E : Env} {x v : V} {sc : Score} (h : parse E x .str = some (v, sc)) : 1 ≤ sc.exact := by
  rw [parse_eq_shape] at h
  simp only [parseAs] at h
  unfold parseStr at h
  split at h
  · cases h; exact Nat.le_succ 1
  · cases h
theorem exact_any {E : Env} {x v : V} {sc : Score} (h : parse E x .any = some (v, sc)) : 1 ≤ sc.exact := by
  rw [parse_eq_shape] at h
  simp only [parseAs] at h
  cases h; exact Nat.le_refl 1

theorem fieldsScore_exact {E : Env} {c : Cls} {d : List (Str × V)} {L : List (FieldDef Cls)}
    (h : ∀ f ∈ L, ∀ x v sc, parse E x f.ty = some (v, sc) → 1 ≤ sc.exact) : 1 ≤ (fieldsScore E c d L).exact := by
  induction L with
  | nil => exact Nat.le_succ 1
  | cons f L ih =>
    have ih := ih fun f hf => h f (List.mem_cons_of_mem _ hf)
    rw [fieldsScore]
    split
    · split
      · rename_i hp
        have := h f List.mem_cons_self _ _ _ hp
        simp only [Score.and]; omega
      · exact ih
    · exact ih

theorem multi_score {E : Env} {d : List (Str × V)} {v : V} {sc : Score}
    (h : parse E (.dict d) (.model .MultiFormatSchema) = some (v, sc)) : sc = ⟨E.built, some (multiWords d)⟩ := by
  obtain ⟨h1, h2⟩ := dict_score (c := .MultiFormatSchema) (by decide) h
  rw [h1, fieldsScore_count]
  have hx : 1 ≤ (fieldsScore E .MultiFormatSchema d (classDef .MultiFormatSchema).fields).exact := by
    refine fieldsScore_exact fun f hf x v sc hp => ?_
    change f ∈ [defMultiFormatSchema.fields[0], defMultiFormatSchema.fields[1]] at hf
    simp only [List.mem_cons, List.not_mem_nil, or_false] at hf
    rcases hf with rfl | rfl
    · exact exact_str hp
    · exact exact_any hp
  rw [show min (fieldsScore E .MultiFormatSchema d (classDef .MultiFormatSchema).fields).exact E.built = E.built from by
    have := E.built_le; omega]
  change Score.mk E.built (some (([defMultiFormatSchema.fields[0], defMultiFormatSchema.fields[1]].map (adds E d)).sum)) = _
  rw [List.map_cons, List.map_cons, List.map_nil,
    adds_plain (h2 (defMultiFormatSchema.fields[0]) (List.mem_of_getElem (i := 0) rfl)) fun _ _ _ => plain_str,
    adds_plain (h2 (defMultiFormatSchema.fields[1]) (List.mem_of_getElem (i := 1) rfl)) fun _ _ _ => plain_any,
    findKey_has, findKey_has]
  rfl

theorem docs_score {E : Env} {d : List (Str × V)} {v : V} {sc : Score}
    (h : parse E (.dict d) (.model .ExternalDocumentation) = some (v, sc)) :
    sc.count = some (has d [p!"url"] + has d [p!"description"]) ∧ has d [p!"url"] = 1 := by
  obtain ⟨h1, h2⟩ := dict_score (c := .ExternalDocumentation) (by decide) h
  rw [h1, fieldsScore_count]
  change some (([defExternalDocumentation.fields[0], defExternalDocumentation.fields[1]].map (adds E d)).sum) = _ ∧ _
  have ho := h2 (defExternalDocumentation.fields[0]) (List.mem_of_getElem (i := 0) rfl)
  rw [List.map_cons, List.map_cons, List.map_nil,
    adds_plain ho fun _ _ _ => plain_url,
    adds_plain (h2 (defExternalDocumentation.fields[1]) (List.mem_of_getElem (i := 1) rfl)) fun _ _ _ => plain_union fun t ht => by
      change t ∈ [Ty.str, Ty.none] at ht
      simp only [List.mem_cons, List.not_mem_nil, or_false] at ht
      rcases ht with rfl | rfl
      · exact fun _ _ _ => plain_str
      · exact fun _ _ _ => plain_none,
    findKey_has, findKey_has]
  refine ⟨rfl, ?_⟩
  have : (findKey (defExternalDocumentation.fields[0]) d).isSome = true := by
    unfold one at ho
    cases hk : findKey (defExternalDocumentation.fields[0]) d with
    | some _ => rfl
    | none => rw [hk] at ho; cases ho
  have h3 := findKey_has (f := defExternalDocumentation.fields[0]) (d := d)
  rw [this] at h3
  exact h3.symm

/-- The keys of what is parsed to a Reference, and its score. -/
theorem ref_score {E : Env} {d : List (Str × V)} {v : V} {sc : Score}
    (h : parse E (.dict d) (.model .Reference) = some (v, sc)) :
    sc.count = some 1 ∧ ∀ k, k ≠ p!"$ref" → k ≠ p!"ref" → lookup k d = none := by
  obtain ⟨h1, h2⟩ := dict_score (c := .Reference) (by decide) h
  have ho := h2 (defReference.fields[0]) (List.mem_of_getElem (i := 0) rfl)
  obtain ⟨k, s, hk, hd, hl, -⟩ := C38_only E d v ⟨sc, h⟩
  constructor
  · rw [h1, fieldsScore_count]
    change some (([defReference.fields[0]].map (adds E d)).sum) = _
    rw [List.map_cons, List.map_nil, adds_plain ho fun _ _ _ => plain_str]
    have : (findKey (defReference.fields[0]) d).isSome = true := by
      unfold one at ho
      cases hk : findKey (defReference.fields[0]) d with
      | some _ => rfl
      | none => rw [hk] at ho; cases ho
    rw [this]; rfl
  · intro j hj1 hj2
    cases hl : lookup j d with
    | none => rfl
    | some x =>
      have : (j, x) ∈ d := lookup_some_mem hl
      have := hd _ this
      simp only at this
      subst this
      rcases hk with rfl | rfl
      · exact absurd rfl hj1
      · exact absurd rfl hj2

theorem schema_score {E : Env} {d : List (Str × V)} (hd : ∀ c fs ex set, docsOf d ≠ some (.inst c fs ex set)) {v : V} {sc : Score}
    (h : parse E (.dict d) (.model .Schema) = some (v, sc)) : sc.exact ≤ E.built ∧ sc.count = some (schemaWords d) := by
  obtain ⟨h1, h2⟩ := dict_score (c := .Schema) (by decide) h
  refine ⟨by rw [h1]; exact Nat.min_le_right _ _, ?_⟩
  rw [h1, fieldsScore_count]
  change some (([defSchema.fields[0], defSchema.fields[1], defSchema.fields[2]].map (adds E d)).sum) = _
  have hdocs : adds E d (defSchema.fields[1]) = docsWords (docsOf d) := by
    have ho := h2 (defSchema.fields[1]) (List.mem_of_getElem (i := 1) rfl)
    have hkey : (findKey (defSchema.fields[1]) d).map (·.2) = docsOf d := by
      rw [findKey_two _ _ p!"externalDocs" rfl]
      change Option.map (fun e : Str × V => e.2) (((lookup p!"externalDocs" d).map fun x => (p!"externalDocs", x)).or
        ((lookup p!"external_docs" d).map fun x => (p!"external_docs", x))) = _
      unfold docsOf
      cases lookup p!"externalDocs" d with
      | some x => rfl
      | none => cases lookup p!"external_docs" d <;> rfl
    unfold adds
    unfold one at ho
    cases hk : findKey (defSchema.fields[1]) d with
    | none => rw [hk] at hkey; rw [← hkey]; rfl
    | some kx =>
      obtain ⟨k, x⟩ := kx
      rw [hk] at hkey ho
      rw [← hkey] at hd ⊢
      simp only [Option.map_some] at hd ho ⊢
      cases hp : parse E x (defSchema.fields[1]).ty with
      | none => rw [hp] at ho; cases ho
      | some vs =>
        obtain ⟨w, sc'⟩ := vs
        simp only
        change parse E x (.union [.model .ExternalDocumentation, .model .Reference, .none]) = _ at hp
        cases x with
        | none => cases hp; rfl
        | dict e =>
          rw [parse_union] at hp
          change pick E none [_, _, none] = _ at hp
          simp only [docsWords]
          cases h3 : parse E (.dict e) (.model .ExternalDocumentation) with
          | some r =>
            obtain ⟨w', sc3⟩ := r
            obtain ⟨h4, h5⟩ := docs_score h3
            have h6 : parse E (.dict e) (.model .Reference) = none := by
              cases h6 : parse E (.dict e) (.model .Reference) with
              | none => rfl
              | some r =>
                have := (ref_score (sc := r.2) (v := r.1) h6).2 p!"url" (by decide) (by decide)
                unfold has at h5
                simp [this] at h5
            rw [h3, h6] at hp
            cases hp
            rw [h4, h5]; rfl
          | none =>
            cases h6 : parse E (.dict e) (.model .Reference) with
            | none => rw [h3, h6] at hp; cases hp
            | some r =>
              have := ref_score (sc := r.2) (v := r.1) h6
              rw [h3, h6] at hp
              cases hp
              rw [show sc'.count = _ from this.1]
              have h5 : has e [p!"url"] = 0 := by
                unfold has
                simp [this.2 p!"url" (by decide) (by decide)]
              rw [h5]; rfl
        | inst c fs ex set => exact absurd rfl (hd c fs ex set)
        | _ => cases hp
  rw [List.map_cons, List.map_cons, List.map_cons, List.map_nil, hdocs,
    adds_plain (h2 (defSchema.fields[0]) (List.mem_of_getElem (i := 0) rfl)) fun _ _ _ => plain_union fun t ht => by
      change t ∈ [Ty.str, Ty.none] at ht
      simp only [List.mem_cons, List.not_mem_nil, or_false] at ht
      rcases ht with rfl | rfl
      · exact fun _ _ _ => plain_str
      · exact fun _ _ _ => plain_none,
    adds_plain (h2 (defSchema.fields[2]) (List.mem_of_getElem (i := 2) rfl)) fun _ _ _ => plain_union fun t ht => by
      change t ∈ [Ty.bool, Ty.none] at ht
      simp only [List.mem_cons, List.not_mem_nil, or_false] at ht
      rcases ht with rfl | rfl
      · exact fun _ _ _ => plain_bool
      · exact fun _ _ _ => plain_none,
    findKey_has, findKey_has]
  simp only [schemaWords, List.sum_cons, List.sum_nil, Nat.add_zero]
  change some (has d [p!"discriminator"] + (_ + has d [p!"deprecated"])) = _
  rw [Nat.add_assoc]

/-- The words of a Reference leave no room for others. -/
theorem ref_words {E : Env} {d : List (Str × V)} {v : V} (h : Accepts E (.dict d) (.model .Reference) v) :
    (∀ w, ¬ Accepts E (.dict d) (.model .MultiFormatSchema) w) ∧ schemaWords d = 0 := by
  obtain ⟨sc, h⟩ := h
  have hl := (ref_score h).2
  constructor
  · rintro w ⟨sc', h'⟩
    obtain ⟨-, h2⟩ := dict_score (c := .MultiFormatSchema) (by decide) h'
    have ho := h2 (defMultiFormatSchema.fields[1]) (List.mem_of_getElem (i := 1) rfl)
    have hk : findKey (defMultiFormatSchema.fields[1]) d = none := by
      change (lookup p!"schema" d).map (p!"schema", ·) = none
      rw [hl p!"schema" (by decide) (by decide)]; rfl
    unfold one at ho
    rw [hk] at ho
    cases ho
  · unfold schemaWords docsOf has
    simp [hl p!"externalDocs" (by decide) (by decide), hl p!"external_docs" (by decide) (by decide),
      hl p!"discriminator" (by decide) (by decide), hl p!"deprecated" (by decide) (by decide), docsWords]

theorem parse_place {E : Env} {ts : List (Ty Cls)} (ht : isSchemaPlace ts) (d : List (Str × V)) :
    parse E (.dict d) (.union ts) = pick E none [parse E (.dict d) (.model .MultiFormatSchema),
      parse E (.dict d) (.model .Schema), parse E (.dict d) (.model .Reference)] := by
  rw [parse_union]
  rcases ht with rfl | rfl
  · have : parse E (.dict d) .none = none := rfl
    change pick E none [_, _, _, parse E (.dict d) .none] = _
    rw [this]
    generalize parse E (.dict d) (.model .MultiFormatSchema) = a
    generalize parse E (.dict d) (.model .Schema) = b
    generalize parse E (.dict d) (.model .Reference) = c
    rcases a with _ | a <;> rcases b with _ | b <;> rcases c with _ | c <;> rfl
  · rfl

/-- **C46**: what can be a Reference is one. -/
theorem C46_reference (E : Env) (ts : List (Ty Cls)) (ht : isSchemaPlace ts) (d : List (Str × V)) (w : V)
    (h : Accepts E (.dict d) (.model .Reference) w) (v : V) : Accepts E (.dict d) (.union ts) v ↔ v = w := by
  obtain ⟨hm, hz⟩ := ref_words h
  obtain ⟨sc, h⟩ := h
  have hm' : parse E (.dict d) (.model .MultiFormatSchema) = none := by
    cases hx : parse E (.dict d) (.model .MultiFormatSchema) with
    | none => rfl
    | some r => exact absurd ⟨r.2, hx⟩ (hm r.1)
  have hd : docsOf d = none := by
    unfold docsOf
    rw [(ref_score h).2 p!"externalDocs" (by decide) (by decide)]
    exact (ref_score h).2 p!"external_docs" (by decide) (by decide)
  have hp : parse E (.dict d) (.union ts) = some (w, sc) := by
    rw [parse_place ht, hm', h]
    cases hx : parse E (.dict d) (.model .Schema) with
    | none => rfl
    | some r =>
      obtain ⟨u, sc'⟩ := r
      have := schema_score (by rw [hd]; simp) hx
      rw [hz] at this
      have hb : better E sc' sc = true := by
        obtain ⟨e, n⟩ := sc; obtain ⟨e', n'⟩ := sc'
        have h1 := (ref_score h).1
        simp only at this h1
        rw [this.2, h1]; simp [better]
      simp only [pick, hb, if_true]
  constructor
  · rintro ⟨sc', h'⟩; rw [hp] at h'; cases h'; rfl
  · rintro rfl; exact ⟨_, hp⟩

/-- **C46**: an object that can be a MultiFormatSchema is one, if it cannot be a Schema or has at least as many
words of a MultiFormatSchema as AsyncAPI's own words of a Schema. -/
theorem C46_multi (E : Env) (ts : List (Ty Cls)) (ht : isSchemaPlace ts) (d : List (Str × V))
    (hd : ∀ c fs ex set, docsOf d ≠ some (.inst c fs ex set)) (w : V)
    (h : Accepts E (.dict d) (.model .MultiFormatSchema) w)
    (hs : (∀ u, ¬ Accepts E (.dict d) (.model .Schema) u) ∨ schemaWords d ≤ multiWords d) (v : V) :
    Accepts E (.dict d) (.union ts) v ↔ v = w := by
  have hr : parse E (.dict d) (.model .Reference) = none := by
    cases hx : parse E (.dict d) (.model .Reference) with
    | none => rfl
    | some r => exact absurd h ((ref_words ⟨r.2, hx⟩).1 w)
  obtain ⟨sc, h⟩ := h
  have hp : parse E (.dict d) (.union ts) = some (w, sc) := by
    rw [parse_place ht, h, hr]
    cases hx : parse E (.dict d) (.model .Schema) with
    | none => rfl
    | some r =>
      obtain ⟨u, sc'⟩ := r
      have hle := hs.resolve_left fun hn => hn u ⟨sc', hx⟩
      obtain ⟨e, n⟩ := sc'
      obtain ⟨h0, h1⟩ := schema_score hd hx
      have h2 := multi_score h
      simp only at h0 h1
      subst h1 h2
      have : better E ⟨E.built, some (multiWords d)⟩ ⟨e, some (schemaWords d)⟩ = false := by
        simp only [better]
        split
        · simp; omega
        · simp; omega
      simp only [pick, this]; rfl
  constructor
  · rintro ⟨sc', h'⟩; rw [hp] at h'; cases h'; rfl
  · rintro rfl; exact ⟨_, hp⟩

/-- **C46**: an object that can be a Schema, and not a Reference, is one, if it cannot be a MultiFormatSchema
or has more of AsyncAPI's own words of a Schema. -/
theorem C46_schema (E : Env) (ts : List (Ty Cls)) (ht : isSchemaPlace ts) (d : List (Str × V))
    (hd : ∀ c fs ex set, docsOf d ≠ some (.inst c fs ex set)) (w : V)
    (h : Accepts E (.dict d) (.model .Schema) w) (hr : ∀ u, ¬ Accepts E (.dict d) (.model .Reference) u)
    (hs : (∀ u, ¬ Accepts E (.dict d) (.model .MultiFormatSchema) u) ∨ multiWords d < schemaWords d) (v : V) :
    Accepts E (.dict d) (.union ts) v ↔ v = w := by
  have hr' : parse E (.dict d) (.model .Reference) = none := by
    cases hx : parse E (.dict d) (.model .Reference) with
    | none => rfl
    | some r => exact absurd ⟨r.2, hx⟩ (hr r.1)
  obtain ⟨sc, h⟩ := h
  have hp : parse E (.dict d) (.union ts) = some (w, sc) := by
    rw [parse_place ht, h, hr']
    cases hx : parse E (.dict d) (.model .MultiFormatSchema) with
    | none => rfl
    | some r =>
      obtain ⟨u, sc'⟩ := r
      have hle := hs.resolve_left fun hn => hn u ⟨sc', hx⟩
      have h1 := multi_score hx
      obtain ⟨e, n⟩ := sc
      obtain ⟨h0, h2⟩ := schema_score hd h
      simp only at h0 h2
      subst h1 h2
      have : better E ⟨E.built, some (multiWords d)⟩ ⟨e, some (schemaWords d)⟩ = true := by
        simp only [better]
        split
        · omega
        · simp; omega
      simp only [pick, this]; rfl
  constructor
  · rintro ⟨sc', h'⟩; rw [hp] at h'; cases h'; rfl
  · rintro rfl; exact ⟨_, hp⟩

/-- **C46**: an object without `schema` is never a MultiFormatSchema. -/
theorem C46_needs_schema (E : Env) (d : List (Str × V)) (h : lookup p!"schema" d = none) (u : V) :
    ¬ Accepts E (.dict d) (.model .MultiFormatSchema) u := by
  rintro ⟨sc', h'⟩
  obtain ⟨-, h2⟩ := dict_score (c := .MultiFormatSchema) (by decide) h'
  have ho := h2 (defMultiFormatSchema.fields[1]) (List.mem_of_getElem (i := 1) rfl)
  have hk : findKey (defMultiFormatSchema.fields[1]) d = none := by
    change (lookup p!"schema" d).map (p!"schema", ·) = none
    rw [h]; rfl
  unfold one at ho
  rw [hk] at ho
  cases ho

/-- **C46**: an object with `schema` and, if at all, a string as `schemaFormat` can be a MultiFormatSchema. -/
theorem C46_has_schema (E : Env) (d : List (Str × V)) (x : V) (h : lookup p!"schema" d = some x)
    (hf : ∀ y, (lookup p!"schemaFormat" d = some y ∨ (lookup p!"schemaFormat" d = none ∧ lookup p!"schema_format" d = some y)) →
      ∃ s, y = .str s) :
    ∃ w, Accepts E (.dict d) (.model .MultiFormatSchema) w ∧ w.attr p!"schema" = x := by
  have h1 : one E .MultiFormatSchema d (defMultiFormatSchema.fields[1]) = some (x, ⟨1, some 1⟩) := by
    have hk : findKey (defMultiFormatSchema.fields[1]) d = some (p!"schema", x) := by
      change (lookup p!"schema" d).map (p!"schema", ·) = _
      rw [h]; rfl
    unfold one
    rw [hk]
    have : parse E x (defMultiFormatSchema.fields[1]).ty = some (x, ⟨1, none⟩) := by
      rw [parse_eq_shape]; rfl
    simp only [this]; rfl
  have h0 : (one E .MultiFormatSchema d (defMultiFormatSchema.fields[0])).isSome = true := by
    have hk : findKey (defMultiFormatSchema.fields[0]) d = ((lookup p!"schemaFormat" d).map (p!"schemaFormat", ·)).or
        ((lookup p!"schema_format" d).map (p!"schema_format", ·)) := findKey_two _ _ _ rfl
    unfold one
    rw [hk]
    cases h2 : lookup p!"schemaFormat" d with
    | some y =>
      obtain ⟨s, rfl⟩ := hf y (.inl h2)
      rfl
    | none =>
      cases h3 : lookup p!"schema_format" d with
      | some y =>
        obtain ⟨s, rfl⟩ := hf y (.inr ⟨h2, h3⟩)
        rfl
      | none => rfl
  have hok : allOk E .MultiFormatSchema d = true := by
    unfold allOk
    rw [Bool.and_eq_true]
    refine ⟨?_, rfl⟩
    change [defMultiFormatSchema.fields[0], defMultiFormatSchema.fields[1]].all _ = true
    simp only [List.all_cons, List.all_nil, h0, h1]; rfl
  refine ⟨.inst .MultiFormatSchema (fieldsOf E .MultiFormatSchema d) (extrasOf .MultiFormatSchema d)
    (Pyd.setOf .MultiFormatSchema d), ⟨(fieldsScore E .MultiFormatSchema d (classDef .MultiFormatSchema).fields).and ⟨E.built, some 0⟩, ?_⟩, ?_⟩
  · rw [parse_model_dict E (by decide), construct_eq, if_pos hok]; rfl
  · change V.attr _ (defMultiFormatSchema.fields[1]).name = _
    rw [attr_fieldsOf (f := defMultiFormatSchema.fields[1]) (List.mem_of_getElem (i := 1) rfl)]
    unfold valueOf
    rw [h1]

/-! ### Concrete cases -/

/-- The places are there. -/
example : ∃ ts, isSchemaPlace ts ∧ ∃ f ∈ (classDef .Message).fields, f.name = p!"payload" ∧ f.ty = .union ts :=
  ⟨_, .inl rfl, defMessage.fields[1], List.mem_of_getElem (i := 1) rfl, rfl, rfl⟩
example : ∃ ts, isSchemaPlace ts ∧ ∃ f ∈ (classDef .MessageTrait).fields, f.name = p!"headers" ∧ f.ty = .union ts :=
  ⟨_, .inl rfl, defMessageTrait.fields[0], List.mem_of_getElem (i := 0) rfl, rfl, rfl⟩
example : ∃ ts, isSchemaPlace ts ∧ ∃ f ∈ (classDef .Schemas).fields, f.ty = .dict (.union ts) :=
  ⟨_, .inr rfl, defSchemas.fields[0], List.mem_of_getElem (i := 0) rfl, rfl⟩

/-- `{"schemaFormat": "avro", "schema": {}}` -/
def avro : List (Str × V) := [(p!"schemaFormat", .str p!"avro"), (p!"schema", .dict [])]
/-- `{"type": "object"}` -/
def object : List (Str × V) := [(p!"type", .str p!"object")]

set_option maxRecDepth 20000 in
example (E : Env) : Accepts E (.dict avro) (.model .MultiFormatSchema) (.inst .MultiFormatSchema
    [(p!"schema_format", .str p!"avro"), (p!"schema", .dict [])] [] [p!"schema_format", p!"schema"]) ∧
    schemaWords avro ≤ multiWords avro := ⟨⟨_, rfl⟩, by decide⟩
set_option maxRecDepth 20000 in
example (E : Env) : Accepts E (.dict object) (.model .Schema) (.inst .Schema
    [(p!"discriminator", .none), (p!"external_docs", .none), (p!"deprecated", .none)] object [p!"type"]) ∧
    (∀ u, ¬ Accepts E (.dict object) (.model .Reference) u) := by
  refine ⟨⟨_, rfl⟩, ?_⟩
  rintro u ⟨sc, h⟩
  cases h

/-- A JSON Schema with a property `schema` of its own is taken for a MultiFormatSchema. -/
theorem C46_schema_key_suffices : ∃ d v, (∃ e ∈ d, e = (p!"type", V.str p!"object")) ∧ lookup p!"schemaFormat" d = none ∧
    ∀ E, Accepts E (.dict d) (.union [.model .MultiFormatSchema, .model .Schema, .model .Reference]) v ∧
      ∃ fs ex set, v = .inst .MultiFormatSchema fs ex set :=
  ⟨[(p!"type", .str p!"object"), (p!"schema", .none)], .inst .MultiFormatSchema
    [(p!"schema_format", .str p!"application/vnd.aai.asyncapi;version=3.0.0"), (p!"schema", .none)]
    [(p!"type", .str p!"object")] [p!"schema", p!"type"], ⟨_, List.mem_cons_self, rfl⟩, rfl,
    fun E => ⟨⟨_, rfl⟩, _, _, _, rfl⟩⟩

/-- A MultiFormatSchema whose `schemaFormat` is not a string is not refused: it is taken for a Schema. -/
theorem C46_bad_format_accepted : ∃ v, ∀ E, Accepts E
    (.dict [(p!"schemaFormat", .int 5), (p!"schema", .dict [])]) (.union [.model .MultiFormatSchema, .model .Schema, .model .Reference]) v ∧
      ∃ fs ex set, v = .inst .Schema fs ex set :=
  ⟨.inst .Schema [(p!"discriminator", .none), (p!"external_docs", .none), (p!"deprecated", .none)]
    [(p!"schemaFormat", .int 5), (p!"schema", .dict [])] [p!"schemaFormat", p!"schema"],
    fun E => ⟨⟨_, rfl⟩, _, _, _, rfl⟩⟩

end Verif.Props
