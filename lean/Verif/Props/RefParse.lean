import Verif.Props.Valid
/-!
# C38: a lone `$ref` is parsed to a Reference
-/
namespace Verif.Props
open Verif Verif.Gen Verif.Spec Verif.Pyd

/-- `{"$ref": s}`. -/
abbrev loneRef (s : Str) : V := .dict [(p!"$ref", .str s)]
/-- `Reference(ref=s)` as validation makes it. -/
abbrev referenceTo (s : Str) : V := .inst .Reference [(p!"ref", .str s)] [] [p!"ref"]

/-- `u` is the annotation `t` or a part of it (not looking into classes). -/
inductive Part : Ty Cls → Ty Cls → Prop
  | refl {t} : Part t t
  | list {u t} : Part u t → Part u (.list t)
  | dict {u t} : Part u t → Part u (.dict t)
  | union {u t ts} : t ∈ ts → Part u t → Part u (.union ts)

/-! The type tree of the class table, flattened. -/
mutual
def unionsOf : Ty Cls → List (List (Ty Cls))
  | .list t => unionsOf t
  | .dict t => unionsOf t
  | .union ts => ts :: unionsOfAll ts
  | _ => []
def unionsOfAll : List (Ty Cls) → List (List (Ty Cls))
  | [] => []
  | t :: ts => unionsOf t ++ unionsOfAll ts
end

theorem unionsOfAll_mem {ts : List (Ty Cls)} {t : Ty Cls} (ht : t ∈ ts) {u} (hu : u ∈ unionsOf t) : u ∈ unionsOfAll ts := by
  induction ts with
  | nil => cases ht
  | cons a ts ih =>
    rw [unionsOfAll, List.mem_append]
    rcases List.mem_cons.1 ht with rfl | ht
    · exact .inl hu
    · exact .inr (ih ht)

theorem mem_unionsOf {us : List (Ty Cls)} {t : Ty Cls} (h : Part (.union us) t) : us ∈ unionsOf t := by
  generalize hu : Ty.union us = u at h
  induction h with
  | refl => subst hu; simp [unionsOf]
  | list _ ih => rw [unionsOf]; exact ih
  | dict _ ih => rw [unionsOf]; exact ih
  | union ht _ ih => rw [unionsOf]; exact List.mem_cons_of_mem _ (unionsOfAll_mem ht ih)

/-- Members of unions that refuse `{"$ref": s}`, or take it to a Schema, or to a Reference. -/
inductive Answer where
  | refuse | schema | reference | other
  deriving DecidableEq

def answer : Ty Cls → Answer
  | .none | .int | .str => .refuse
  | .list _ => .refuse
  | .model .Reference => .reference
  | .model .Schema => .schema
  | .model c => if (classDef c).kind = .patterned ∨ c = .KafkaTopicConfiguration then .other else .refuse
  | _ => .other

set_option maxRecDepth 20000 in
theorem answer_refuse (E : Env) (s : Str) (t : Ty Cls) (h : answer t = .refuse) : parse E (loneRef s) t = none := by
  cases t with
  | model c => cases c <;> first | rfl | cases h
  | _ => first | rfl | cases h

theorem answer_schema (E : Env) (s : Str) (t : Ty Cls) (h : answer t = .schema) :
    ∃ v, parse E (loneRef s) t = some (v, ⟨min 2 E.built, some 0⟩) := by
  cases t with
  | model c => cases c <;> first | exact ⟨_, rfl⟩ | cases h
  | _ => cases h

theorem answer_reference (E : Env) (s : Str) (t : Ty Cls) (h : answer t = .reference) :
    parse E (loneRef s) t = some (referenceTo s, ⟨min 2 E.built, some 1⟩) := by
  cases t with
  | model c => cases c <;> first | rfl | cases h
  | _ => cases h

theorem better_self (E : Env) (e n : Nat) : better E ⟨e, some n⟩ ⟨e, some n⟩ = false := by
  simp [better]

/-- Whatever came before, once the Reference is there it stays. -/
theorem pick_reference (E : Env) (s : Str) (ts : List (Ty Cls)) (h : ∀ t ∈ ts, answer t ≠ .other) (cur : Res)
    (hc : cur = none ∨ (∃ v, cur = some (v, ⟨min 2 E.built, some 0⟩)) ∨ cur = some (referenceTo s, ⟨min 2 E.built, some 1⟩))
    (hr : (∃ t ∈ ts, answer t = .reference) ∨ cur = some (referenceTo s, ⟨min 2 E.built, some 1⟩)) :
    pick E cur (ts.map (parse E (loneRef s))) = some (referenceTo s, ⟨min 2 E.built, some 1⟩) := by
  induction ts generalizing cur with
  | nil => rcases hr with ⟨t, ht, _⟩ | hr
           · cases ht
           · exact hr
  | cons t ts ih =>
    have h' : ∀ t ∈ ts, answer t ≠ .other := fun t ht => h t (List.mem_cons_of_mem _ ht)
    rw [List.map_cons]
    cases ha : answer t with
    | other => exact absurd ha (h t List.mem_cons_self)
    | refuse =>
      rw [answer_refuse E s t ha]
      refine ih h' cur hc ?_
      rcases hr with ⟨t', ht', hr⟩ | hr
      · rcases List.mem_cons.1 ht' with rfl | ht'
        · rw [ha] at hr; cases hr
        · exact .inl ⟨t', ht', hr⟩
      · exact .inr hr
    | schema =>
      obtain ⟨v, hv⟩ := answer_schema E s t ha
      rw [hv]
      have hr' : (∃ t ∈ ts, answer t = .reference) ∨ cur = some (referenceTo s, ⟨min 2 E.built, some 1⟩) := by
        rcases hr with ⟨t', ht', hr⟩ | hr
        · rcases List.mem_cons.1 ht' with rfl | ht'
          · rw [ha] at hr; cases hr
          · exact .inl ⟨t', ht', hr⟩
        · exact .inr hr
      rcases hc with rfl | ⟨w, rfl⟩ | rfl
      · refine ih h' _ (.inr (.inl ⟨v, rfl⟩)) (hr'.imp_right fun h => by cases h)
      · refine ih h' _ (.inr (.inl ⟨w, by rw [better_self]; rfl⟩)) (hr'.imp_right fun h => by simp at h)
      · exact ih h' _ (.inr (.inr rfl)) (.inr rfl)
    | reference =>
      rw [answer_reference E s t ha]
      rcases hc with rfl | ⟨w, rfl⟩ | rfl
      · exact ih h' _ (.inr (.inr rfl)) (.inr rfl)
      · exact ih h' _ (.inr (.inr rfl)) (.inr rfl)
      · have : (if better E ⟨min 2 E.built, some 1⟩ ⟨min 2 E.built, some 1⟩ then
            (referenceTo s, (⟨min 2 E.built, some 1⟩ : Score)) else (referenceTo s, ⟨min 2 E.built, some 1⟩)) =
            (referenceTo s, ⟨min 2 E.built, some 1⟩) := by split <;> rfl
        exact ih h' _ (.inr (.inr (congrArg some this))) (.inr (congrArg some this))

/-- The one union in which a Reference competes with arbitrary data: the key of a Kafka message. -/
def isKafkaKey (c : Cls) (f : FieldDef Cls) : Prop := c = .KafkaMessageBindings ∧ f.name = p!"key"

/-- Is a member the class Reference? -/
def isRefTy : Ty Cls → Bool
  | .model .Reference => true
  | _ => false

theorem unionTable : Cls.all.all (fun c => (classDef c).fields.all fun f =>
    (c == .KafkaMessageBindings && f.name == p!"key") ||
    (unionsOf f.ty).all fun ts => !(ts.any isRefTy) || ts.all fun t => answer t != .other) = true := by decide +kernel

/-- **C38**: at every place of every class whose annotation has a union with Reference as a member, at
any nesting of lists and dicts, the input `{"$ref": s}` is parsed to that Reference, for every `s`;
except the key of a Kafka message. -/
theorem C38_reference (E : Env) (c : Cls) (f : FieldDef Cls) (hf : f ∈ (classDef c).fields) (hk : ¬ isKafkaKey c f)
    (ts : List (Ty Cls)) (hp : Part (.union ts) f.ty) (hr : .model .Reference ∈ ts) (s : Str) :
    Accepts E (loneRef s) (.union ts) (referenceTo s) ∧
      ∀ v, Accepts E (loneRef s) (.union ts) v → v = referenceTo s := by
  have h := List.all_eq_true.1 (List.all_eq_true.1 unionTable c (Cls.mem_all c)) f hf
  rw [Bool.or_eq_true] at h
  have h1 : ¬ (c == .KafkaMessageBindings && f.name == p!"key") = true := by
    simpa [isKafkaKey] using hk
  have h2 := List.all_eq_true.1 (h.resolve_left h1) ts (mem_unionsOf hp)
  have h3 : ts.any isRefTy = true := List.any_eq_true.2 ⟨_, hr, rfl⟩
  rw [h3] at h2
  simp only [Bool.not_true, Bool.false_or, List.all_eq_true, bne_iff_ne] at h2
  have hparse : parse E (loneRef s) (.union ts) = some (referenceTo s, ⟨min 2 E.built, some 1⟩) := by
    rw [parse_union]
    exact pick_reference E s ts h2 none (.inl rfl) (.inl ⟨_, hr, rfl⟩)
  refine ⟨⟨_, hparse⟩, ?_⟩
  rintro v ⟨sc, hv⟩
  rw [hparse] at hv
  cases hv; rfl

/-- **C38** where the annotation is Reference itself. -/
theorem C38_plain (E : Env) (s : Str) (v : V) :
    Accepts E (loneRef s) (.model .Reference) v ↔ v = referenceTo s := by
  constructor
  · rintro ⟨sc, h⟩; cases h; rfl
  · rintro rfl; exact ⟨_, rfl⟩

/-- **C38**, conversely: an object is parsed to a Reference only if `$ref` (or its Python name `ref`) with a
string is all it has; in particular an inline object with further fields never is. -/
theorem C38_only (E : Env) (d : List (Str × V)) (v : V) (h : Accepts E (.dict d) (.model .Reference) v) :
    ∃ k s, (k = p!"$ref" ∨ k = p!"ref") ∧ (∀ e ∈ d, e.1 = k) ∧ lookup k d = some (.str s) ∧ v = referenceTo s := by
  have hv : validate E .Reference (.dict d) = some v := by
    obtain ⟨sc, h⟩ := h
    unfold validate; rw [h]; rfl
  obtain ⟨⟨fs, hfs, hok, hi, hex⟩, -, -⟩ := (C41_accepts_iff E .Reference (by decide) (by decide) d v).1 hv
  have h0 := hok (defReference.fields[0]) (List.mem_of_getElem (i := 0) rfl)
  rcases h0.1 with ⟨k, x, hg, ha⟩ | ⟨_, hd⟩
  · obtain ⟨s, hs⟩ := accepts_str ha
    have hx : x = .str s := by
      rw [hs] at ha
      obtain ⟨sc, ha⟩ := ha
      cases x <;> cases ha
      rfl
    subst hx
    have hk : k = p!"$ref" ∨ k = p!"ref" := by
      rcases hg.2 with e | ⟨e, _⟩
      · cases e; exact .inl rfl
      · exact .inr e
    have hall : ∀ e ∈ d, e.1 = k := by
      intro e he
      have := hex rfl
      rw [List.filter_eq_nil_iff] at this
      have := this e he
      simp only [decide_eq_true_eq] at this
      rw [Classical.not_forall] at this
      obtain ⟨f, this⟩ := this
      rw [Classical.not_forall] at this
      obtain ⟨hf, this⟩ := this
      rw [Classical.not_forall] at this
      obtain ⟨y, this⟩ := this
      rw [Classical.not_not] at this
      have hf0 : f = defReference.fields[0] := by
        change f ∈ defReference.fields at hf
        simp only [defReference, List.mem_cons, List.not_mem_nil, or_false] at hf
        exact hf
      subst hf0
      rcases this.2 with e1 | ⟨e1, e2⟩
      · rcases hg.2 with e3 | ⟨e3, e4⟩
        · rw [e1] at e3; cases e3; rfl
        · exact absurd this.1 (by rw [e4 _ e1]; simp)
      · rcases hg.2 with e3 | ⟨e3, e4⟩
        · exact absurd hg.1 (by rw [e2 _ e3]; simp)
        · rw [e1, e3]
    refine ⟨k, s, hk, hall, hg.1, ?_⟩
    have hv2 : parse E (.dict d) (.model .Reference) = construct E .Reference (entries E d) none E.built :=
      parse_model_dict E (by decide) d
    obtain ⟨sc, h⟩ := h
    rw [hv2, construct_eq] at h
    split at h
    · have hafter : ∀ j, after E .Reference j = some j := fun j => rfl
      rw [hafter] at h
      simp only [Option.map_some, Option.some.injEq, Prod.mk.injEq] at h
      obtain ⟨h, _⟩ := h
      have hx0 : extrasOf .Reference d = [] := by
        rw [← h] at hi
        simp only [V.inst.injEq, true_and] at hi
        rw [hi.2.1]; exact hex rfl
      have hv0 : valueOf E .Reference d (defReference.fields[0]) = .str s := by
        have := attr_fieldsOf (E := E) (c := .Reference) (d := d) (ex := extrasOf .Reference d)
          (set := Pyd.setOf .Reference d) (f := defReference.fields[0]) (List.mem_of_getElem (i := 0) rfl)
        rw [← this]
        change v.attr p!"ref" = _ at hs
        rw [← h] at hs
        exact hs
      rw [← h, Option.getD_none]
      have hset : Pyd.setOf .Reference d = [p!"ref"] := by
        unfold Pyd.setOf
        rw [hx0]
        have hgiven : (findKey (defReference.fields[0]) d).isSome = true := findKey_isSome.2 ⟨k, _, hg⟩
        change (([defReference.fields[0]].filter fun f => (findKey f d).isSome).map (·.name)) ++ [] = _
        rw [List.filter_cons, hgiven]; rfl
      rw [hx0, hset]
      change V.inst .Reference [(p!"ref", valueOf E .Reference d (defReference.fields[0]))] [] [p!"ref"] = _
      rw [hv0]
    · cases h
  · cases hd

/-- **C38**, the exception: the key of a Kafka message becomes a Reference exactly if the union prefers a
model with one given field over a plain dict; otherwise it stays a dict. -/
theorem C38_kafka_key (E : Env) (s : Str) :
    parse E (loneRef s) (.union [.model .Schema, .model .Reference, .dict .any, .none]) =
      some (if E.mixed ⟨min 2 E.built, some 1⟩ ⟨1, none⟩ then (loneRef s, ⟨1, none⟩) else (referenceTo s, ⟨min 2 E.built, some 1⟩)) := rfl

/-! ### Concrete cases -/

example : Part (.union [.model .Tag, .model .Reference]) (.union [.list (.union [.model .Tag, .model .Reference]), .none]) :=
  .union List.mem_cons_self (.list .refl)
example : (⟨p!"tags", none, .union [.list (.union [.model .Tag, .model .Reference]), .none], .null, false, true, none⟩ :
    FieldDef Cls) ∈ (classDef .Info).fields := by
  show _ ∈ defInfo.fields
  simp [defInfo]
example : (⟨p!"key", none, .union [.model .Schema, .model .Reference, .dict .any, .none], .null, false, true, none⟩ :
    FieldDef Cls) ∈ (classDef .KafkaMessageBindings).fields := by
  show _ ∈ defKafkaMessageBindings.fields
  simp [defKafkaMessageBindings]

end Verif.Props
