import Verif.Lemmas.ReadBack
/-! What is parsed from JSON is made of JSON. -/
namespace Verif.Pyd
open Verif Verif.Gen Verif.Spec Verif.Props

/-- `dict[str, Any]` -/
def isDictAny : Ty Cls → Bool
  | .dict .any => true
  | _ => false

theorem isDictAny_iff {t : Ty Cls} : isDictAny t = true ↔ t = .dict .any := by
  unfold isDictAny
  split
  · simp
  · rename_i h; simp only [Bool.false_eq_true, false_iff]; exact h

/-- Types whose values are plain data. -/
def plainTy : Ty Cls → Bool
  | .any | .none | .str | .int | .bool | .email | .lit _ => true
  | .list t => plainTy t
  | .dict t => plainTy t
  | _ => false

mutual
/-- Unions with `dict[str, Any]` have only plain members, apart from the key of a Kafka message. -/
def jsonTy : Ty Cls → Bool
  | .list t => jsonTy t
  | .dict t => jsonTy t
  | .union ts => (!(ts.any isDictAny) || special ts || ts.all plainTy) && jsonTyAll ts
  | _ => true
def jsonTyAll : List (Ty Cls) → Bool
  | [] => true
  | t :: ts => jsonTy t && jsonTyAll ts
end

theorem fields_jsonTy : Cls.all.all (fun c => (classDef c).fields.all fun f => jsonTy f.ty) = true := by
  decide +kernel

theorem field_jsonTy {c : Cls} {f : FieldDef Cls} (hf : f ∈ (classDef c).fields) : jsonTy f.ty = true :=
  List.all_eq_true.1 (List.all_eq_true.1 fields_jsonTy c (Cls.mem_all c)) f hf

theorem plain_json {U : Uni} {limit : Option Nat} {norm : UrlKind → Str → Prop} {v : V} {t : Ty Cls} (ht : plainTy t = true)
    (h : ValidJson U limit norm v t) : v.isJson = true := by
  induction h with
  | any h => exact h
  | list _ ih => rw [V.isJson, isJsonList_iff]; exact fun v hv => ih v hv ht
  | dict _ ih => rw [V.isJson, isJsonDict_iff]; exact fun e he => ih e he ht
  | union => cases ht
  | model => cases ht
  | anyUrl => cases ht
  | httpUrl => cases ht
  | _ => rfl

variable {E : Env}

/-- Everything parsing makes of `x` is valid and made of JSON. -/
def GoodJ (E : Env) (x : V) : Prop :=
  x.isJson = true → ∀ t v sc, jsonTy t = true → parse E x t = some (v, sc) → ValidJson E.U E.digits (NormalUrl E) v t

theorem default_validJson {c : Cls} {f : FieldDef Cls} (hf : f ∈ (classDef c).fields) {v : V}
    (hv : dfltValue f.dflt = some v) : ValidJson E.U E.digits (NormalUrl E) v f.ty := by
  have key : ∀ t, dfltFits1 f.dflt t = true → ValidJson E.U E.digits (NormalUrl E) v t := by
    intro t h
    generalize f.dflt = df at *
    cases df <;> simp only [dfltValue, Option.some.injEq, reduceCtorEq] at hv <;> subst hv <;> cases t <;>
      simp only [dfltFits1, Bool.false_eq_true, List.contains_iff_mem] at h
    all_goals first | exact .none | exact .bool | exact .str | exact .int | exact .litStr h | exact .litInt h
  have := List.all_eq_true.1 (List.all_eq_true.1 defaults_fit c (Cls.mem_all c)) f hf
  unfold dfltFits at this
  split at this
  · rename_i ts hty
    rw [List.any_eq_true] at this
    obtain ⟨t, ht, h⟩ := this
    rw [hty]
    exact .union ht (key _ h)
  · exact key _ this

theorem extras_json {c : Cls} {d : List (Str × V)} (hj : ∀ e ∈ d, e.2.isJson = true) :
    ∀ e ∈ extrasOf c d, e.2.isJson = true := by
  intro e he
  unfold extrasOf at he
  exact hj e (List.mem_filter.1 he).1

/-- What is given under a JSON name is no extra field. -/
theorem extras_json_names (c : Cls) (d : List (Str × V)) :
    ∀ e ∈ extrasOf c d, ∀ f ∈ (classDef c).fields, e.1 ≠ jsonName f := by
  intro e he f hf hn
  unfold extrasOf at he
  obtain ⟨he, hu⟩ := List.mem_filter.1 he
  rw [Bool.not_eq_true'] at hu
  obtain ⟨x, hx⟩ : ∃ x, lookup e.1 d = some x := lookup_isSome_of_mem (List.mem_map.2 ⟨e, he, rfl⟩)
  have : (usedKeys c d).contains e.1 = true := mem_usedKeys.2 ⟨f, hf, x, hx, by
    unfold jsonName at hn
    cases ha : f.alias with
    | none => rw [ha] at hn; exact .inr ⟨hn, fun a h => by cases h⟩
    | some a => rw [ha] at hn; exact .inl (by rw [hn]; rfl)⟩
  rw [this] at hu; cases hu

theorem list_processors_json {v : V} (h : ValidJson E.U E.digits (NormalUrl E) v (.union [.list .processors, .none])) :
    processorsOf v = [] := by
  cases h with
  | union ht hv =>
    simp only [List.mem_cons, List.not_mem_nil, or_false] at ht
    rcases ht with rfl | rfl
    · cases hv with
      | @list l _ hl =>
        cases l with
        | nil => rfl
        | cons a l => have := hl a List.mem_cons_self; cases this
    · cases hv; rfl

/-- A document made of JSON has no processors. -/
theorem after_json {c : Cls} {j i : V}
    (hj : c = .AsyncAPI3 → processorsOf (j.attr p!"extra_converters") = [] ∧ processorsOf (j.attr p!"extra_validators") = [])
    (h : after E c j = some i) : i = j := by
  by_cases hc : c = .AsyncAPI3
  · subst hc
    obtain ⟨h1, h2⟩ := hj rfl
    have : after E .AsyncAPI3 j = (runProcessors E j).2 := by unfold after; rw [after_checks h]; rfl
    rw [this] at h
    unfold runProcessors at h
    rw [h1] at h
    simp only [callAll] at h
    rw [h2] at h
    simp only [callAll, Option.some.injEq] at h
    exact h.symm
  · rw [after_of_checks hc (after_checks h)] at h
    exact (Option.some.inj h).symm

theorem construct_validJson {c : Cls} (hk : (classDef c).kind ≠ .patterned)
    {d : List (Str × V)} (hd : ∀ e ∈ d, GoodJ E e.2) (hj : ∀ e ∈ d, e.2.isJson = true) {set? : Option (List Str)} {floor : Nat} {i : V} {sc : Score}
    (h : construct E c (entries E d) set? floor = some (i, sc)) :
    ValidJson E.U E.digits (NormalUrl E) i (.model c) := by
  rw [construct_eq] at h
  split at h
  · rename_i hok
    rw [Option.map_eq_some_iff] at h
    obtain ⟨i', h, he⟩ := h
    cases he
    have hb := after_checks h
    have hv := instance_valid hk (fun e _ => parse_valid e.2) _ hok hb
    obtain ⟨h1, h2⟩ := fields_of_allOk hok
    have hfields : ∀ f ∈ (classDef c).fields, ValidJson E.U E.digits (NormalUrl E) (valueOf E c d f) f.ty := by
      intro f hf
      rcases (h1 f hf).1.1 with ⟨k, x, hk, sc, ha⟩ | ⟨_, hv⟩
      · exact hd _ (mem_of_given hk) (hj _ (mem_of_given hk)) _ _ _ (field_jsonTy hf) ha
      · exact default_validJson hf (hasDefault_iff.1 hv)
    have hi := after_json (by
      rintro rfl
      constructor
      · have hf : defAsyncAPI3.fields[8] ∈ (classDef .AsyncAPI3).fields := List.mem_of_getElem (i := 8) rfl
        have := hfields _ hf
        rw [← attr_fieldsOf (ex := extrasOf .AsyncAPI3 d) (set := set?.getD (setOf .AsyncAPI3 d)) hf] at this
        exact list_processors_json this
      · have hf : defAsyncAPI3.fields[9] ∈ (classDef .AsyncAPI3).fields := List.mem_of_getElem (i := 9) rfl
        have := hfields _ hf
        rw [← attr_fieldsOf (ex := extrasOf .AsyncAPI3 d) (set := set?.getD (setOf .AsyncAPI3 d)) hf] at this
        exact list_processors_json this) h
    subst hi
    cases hv with
    | model hm1 hm2 hm3 =>
      refine .model hm1 (fun f hf => ?_) (extras_json hj) hm3 (extras_json_names c d)
      rw [attr_fieldsOf hf]; exact hfields f hf
  · cases h

theorem parseEntries_validJson {d : List (Str × V)} (hd : ∀ e ∈ d, GoodJ E e.2) (hj : ∀ e ∈ d, e.2.isJson = true)
    {t : Ty Cls} (hs : jsonTy t = true)
    {r : List (Str × V) × Score} (h : parseEntries t (entries E d) = some r) :
    ∀ e ∈ r.1, ValidJson E.U E.digits (NormalUrl E) e.2 t := by
  induction d generalizing r with
  | nil => cases h; simp
  | cons x d ih =>
    obtain ⟨k, x⟩ := x
    simp only [entries, parseEntries] at h
    cases hx : parse E x t with
    | none => rw [hx] at h; cases h
    | some vs =>
      obtain ⟨v, sc⟩ := vs
      rw [hx] at h
      cases hr : parseEntries t (entries E d) with
      | none => rw [hr] at h; cases h
      | some r' =>
        obtain ⟨r', sc'⟩ := r'
        rw [hr] at h
        simp only [Option.some.injEq] at h
        subst h
        intro e he
        rcases List.mem_cons.1 he with rfl | he
        · exact hd (k, x) List.mem_cons_self (hj (k, x) List.mem_cons_self) _ _ _ hs hx
        · exact ih (fun e he => hd e (List.mem_cons_of_mem _ he)) (fun e he => hj e (List.mem_cons_of_mem _ he)) hr e he

theorem parseItems_validJson {l : List V} (hd : ∀ v ∈ l, GoodJ E v) (hj : ∀ v ∈ l, v.isJson = true)
    {t : Ty Cls} (hs : jsonTy t = true)
    {r : List V × Score} (h : parseItems t (parsers E l) = some r) :
    ∀ v ∈ r.1, ValidJson E.U E.digits (NormalUrl E) v t := by
  induction l generalizing r with
  | nil => cases h; simp
  | cons x l ih =>
    simp only [parsers, parseItems] at h
    cases hx : parse E x t with
    | none => rw [hx] at h; cases h
    | some vs =>
      obtain ⟨v, sc⟩ := vs
      rw [hx] at h
      cases hr : parseItems t (parsers E l) with
      | none => rw [hr] at h; cases h
      | some r' =>
        obtain ⟨r', sc'⟩ := r'
        rw [hr] at h
        simp only [Option.some.injEq] at h
        subst h
        intro e he
        rcases List.mem_cons.1 he with rfl | he
        · exact hd x List.mem_cons_self (hj x List.mem_cons_self) _ _ _ hs hx
        · exact ih (fun e he => hd e (List.mem_cons_of_mem _ he)) (fun e he => hj e (List.mem_cons_of_mem _ he)) hr e he

/-- Parts of a value. -/
def PartsGoodJ (E : Env) : V → Prop
  | .list l => ∀ v ∈ l, GoodJ E v
  | .dict d => ∀ e ∈ d, GoodJ E e.2
  | _ => True

theorem parseDict_validJson {d : List (Str × V)} (hd : ∀ e ∈ d, GoodJ E e.2) (hj : ∀ e ∈ d, e.2.isJson = true)
    {t : Ty Cls} (hs : jsonTy t = true) {v : V} {sc : Score}
    (h : parseDict t (.dict (entries E d)) = some (v, sc)) : ValidJson E.U E.digits (NormalUrl E) v (.dict t) := by
  simp only [parseDict, Option.map_eq_some_iff, Prod.mk.injEq] at h
  obtain ⟨r, hr, rfl, _⟩ := h
  exact .dict (parseEntries_validJson hd hj hs hr)

theorem parseModel_validJson {c : Cls} {x : V} (hx : PartsGoodJ E x) (hj : x.isJson = true) {v : V} {sc : Score}
    (h : parse E x (.model c) = some (v, sc)) : ValidJson E.U E.digits (NormalUrl E) v (.model c) := by
  obtain ⟨d, rfl⟩ : ∃ d, x = .dict d := by
    have := takes_of_parse h (l := [.dict, .inst c]) rfl
    cases x <;> first | exact ⟨_, rfl⟩ | (cases hj; done) | simp [headOf] at this
  rw [V.isJson, isJsonDict_iff] at hj
  by_cases hk : (classDef c).kind = .patterned
  · have hval : Valid E.U E.digits v (.model c) := parse_valid _ _ _ _ (.inr (by
      cases c <;> first | rfl | cases hk)) h
    obtain ⟨t, hf⟩ := patterned_root c hk
    rw [parse_eq_shape] at h
    simp only [parseAs, shapeOf, parseModel] at h
    rw [hk, hf] at h
    simp only [parseRootTy] at h
    unfold constructRoot at h
    cases hr : parseDict t (.dict (entries E d)) with
    | none => rw [hr] at h; cases h
    | some ws =>
      obtain ⟨w, s⟩ := ws
      have hjt : jsonTy (.dict t) = true := field_jsonTy (c := c) (f := ⟨p!"root", none, .dict t, .required, false, false, none⟩)
        (by rw [hf]; exact List.mem_cons_self)
      have hw := parseDict_validJson (t := t) hx hj hjt hr
      rw [hr] at h
      simp only at h
      split at h
      · cases h
      · rename_i i hi
        have hne : c ≠ .AsyncAPI3 := by rintro rfl; cases hk
        have := after_json (fun e => absurd e hne) hi
        cases h
        subst this
        cases hval with
        | model hm1 hm2 hm3 =>
          refine .model hm1 (fun f hff => ?_) (by simp) hm3 (by simp)
          rw [hf] at hff
          simp only [List.mem_singleton] at hff
          subst hff; exact hw
  · rw [parse_model_dict E hk] at h
    exact construct_validJson hk hx hj h

mutual
theorem parse_validJson_parts {x : V} (hx : PartsGoodJ E x) (hj : x.isJson = true) :
    ∀ (t : Ty Cls) (v : V) (sc : Score), jsonTy t = true → parse E x t = some (v, sc) →
      ValidJson E.U E.digits (NormalUrl E) v t
  | .any, v, sc, hc, h => by
    rw [parse_eq_shape] at h
    simp only [parseAs, Option.some.injEq, Prod.mk.injEq] at h
    rw [← h.1]; exact .any hj
  | .none, v, sc, hc, h => by
    rw [parse_eq_shape] at h
    simp only [parseAs] at h
    split at h <;> cases h
    exact .none
  | .str, v, sc, hc, h => by cases x <;> first | (cases h; exact .str) | cases h
  | .int, v, sc, hc, h => by
    have := parse_valid x .int v sc (.inr rfl) h
    cases this; exact .int
  | .bool, v, sc, hc, h => by
    have := parse_valid x .bool v sc (.inr rfl) h
    cases this; exact .bool
  | .anyUrl, v, sc, hc, h => by
    rw [parse_eq_shape] at h
    simp only [parseAs] at h
    cases x <;> simp only [parseUrl, reduceCtorEq, Option.map_eq_some_iff, Prod.mk.injEq, true_or, if_true,
      Option.some.injEq] at h
    · obtain ⟨u, hu, rfl, _⟩ := h; exact .anyUrl (E.url_idem _ _ _ hu)
    · cases hj
  | .httpUrl, v, sc, hc, h => by
    rw [parse_eq_shape] at h
    simp only [parseAs] at h
    cases x <;> simp only [parseUrl, reduceCtorEq, Option.map_eq_some_iff, Prod.mk.injEq, false_or] at h
    · obtain ⟨u, hu, rfl, _⟩ := h; exact .httpUrl (E.url_idem _ _ _ hu)
    · cases hj
  | .email, v, sc, hc, h => by
    have := parse_valid x .email v sc (.inr rfl) h
    cases this; exact .email (by assumption)
  | .processors, v, sc, hc, h => by cases x <;> first | (cases h; done) | (cases hj; done)
  | .lit vs, v, sc, hc, h => by
    rcases accepts_lit (E := E) (x := x) ⟨sc, h⟩ with ⟨s, rfl, hs⟩ | ⟨n, rfl, hn⟩
    · exact .litStr hs
    · exact .litInt hn
  | .list t, v, sc, hc, h => by
    rw [parse_eq_shape] at h
    simp only [parseAs] at h
    cases x <;> simp only [shapeOf, reduceCtorEq, Option.map_eq_some_iff, Prod.mk.injEq] at h
    obtain ⟨r, hr, rfl, _⟩ := h
    rw [V.isJson, isJsonList_iff] at hj
    exact .list (parseItems_validJson (t := t) hx hj hc hr)
  | .dict t, v, sc, hc, h => by
    rw [parse_eq_shape] at h
    simp only [parseAs] at h
    cases x with
    | dict d =>
      rw [V.isJson, isJsonDict_iff] at hj
      exact parseDict_validJson (t := t) hx hj hc h
    | _ => cases h
  | .model c, v, sc, hc, h => parseModel_validJson hx hj h
  | .union ts, v, sc, hc, h => by
    rw [jsonTy, Bool.and_eq_true] at hc
    have hp := h
    rw [parse_union] at h
    split at h
    · rename_i hn
      rw [Bool.and_eq_true] at hn
      cases h
      exact .union (hasNone_mem hn.2) .none
    · rcases pick_mem h with h | h
      · cases h
      · obtain ⟨t, ht, hv⟩ := parse_validJson_each hx hj ts v sc hc.2 h
        exact .union ht hv
theorem parse_validJson_each {x : V} (hx : PartsGoodJ E x) (hj : x.isJson = true) :
    ∀ (ts : List (Ty Cls)) (v : V) (sc : Score), jsonTyAll ts = true → some (v, sc) ∈ ts.map (parse E x) →
      ∃ t ∈ ts, ValidJson E.U E.digits (NormalUrl E) v t
  | [], v, sc, _, h => by simp at h
  | t :: ts, v, sc, hc, h => by
    rw [jsonTyAll, Bool.and_eq_true] at hc
    rw [List.map_cons, List.mem_cons] at h
    rcases h with h | h
    · exact ⟨t, by simp, parse_validJson_parts hx hj t v sc hc.1 h.symm⟩
    · obtain ⟨t', ht, hv⟩ := parse_validJson_each hx hj ts v sc hc.2 h
      exact ⟨t', by simp [ht], hv⟩
end

/-- What is parsed from JSON is valid and made of JSON. -/
theorem parse_validJson : ∀ x, GoodJ E x := by
  apply V.ind
  · intro l h hj; exact parse_validJson_parts (x := .list l) h hj
  · intro d h hj; exact parse_validJson_parts (x := .dict d) h hj
  · intro c fs ex set h1 h2 hj; cases hj
  all_goals intros; intro hj; exact parse_validJson_parts trivial hj

end Verif.Pyd
