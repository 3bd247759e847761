import Verif.Lemmas.Valid
import Verif.Spec.Dump
/-!
# C36, C37: serialization
-/
namespace Verif.Props
open Verif Verif.Gen Verif.Spec Verif.Pyd

/-- May a value of the type be `None`? -/
def nullable : Ty Cls → Bool
  | .any | .none => true
  | .union ts => ts.any fun t => match t with
    | .any | .none | .union _ => true
    | _ => false
  | _ => false

theorem not_none_of_valid {U : Uni} {limit : Option Nat} {v : V} {t : Ty Cls} (h : Valid U limit v t)
    (hn : nullable t = false) : v ≠ .none := by
  cases h <;> simp only [nullable, reduceCtorEq, Bool.true_eq_false] at hn <;> first | (intro e; cases e; done) | skip
  rename_i t ts ht hv
  rw [List.any_eq_false] at hn
  have := hn t ht
  cases hv <;> first | (intro e; cases e; done) | simp at this

/-- The class table against `Shown`. -/
def dumpTable : Bool := Cls.all.all fun c => (classDef c).fields.all fun f =>
  (f.exclude == (c == .AsyncAPI3 && (f.name == p!"extra_converters" || f.name == p!"extra_validators"))) &&
  (f.exclude ||
    (if c == .Channel && f.name == p!"address" || c == .MultiFormatSchema && f.name == p!"schema" then !f.excludeNull
     else f.excludeNull || !nullable f.ty))

theorem dumpTable_ok : dumpTable = true := by decide +kernel

theorem shown_iff {U : Uni} {limit : Option Nat} {c : Cls} {f : FieldDef Cls} (hf : f ∈ (classDef c).fields) {v : V}
    (hv : Valid U limit v f.ty) : (!f.exclude && !(f.excludeNull && v.isNone)) = true ↔ Shown c f v := by
  have h := List.all_eq_true.1 (List.all_eq_true.1 dumpTable_ok c (Cls.mem_all c)) f hf
  simp only [Bool.and_eq_true, beq_iff_eq, Bool.or_eq_true] at h
  obtain ⟨h1, h2⟩ := h
  unfold Shown
  have h1' : f.exclude = true ↔ (c = .AsyncAPI3 ∧ (f.name = p!"extra_converters" ∨ f.name = p!"extra_validators")) := by
    rw [h1]; simp
  rw [← h1', Bool.and_eq_true]
  by_cases he : f.exclude = true
  · simp [he]
  · have h3 := h2.resolve_left he
    have he' : f.exclude = false := by simpa using he
    by_cases hx : c = .Channel ∧ f.name = p!"address" ∨ c = .MultiFormatSchema ∧ f.name = p!"schema"
    · rw [if_pos hx] at h3
      have h3 : f.excludeNull = false := by simpa using h3
      simp [he', h3, hx]
    · rw [if_neg hx, Bool.or_eq_true] at h3
      simp only [he', Bool.not_false, true_and, Bool.false_eq_true, not_false_eq_true, hx, or_false]
      rcases h3 with h3 | h3
      · rw [h3]
        cases v <;> simp [V.isNone]
      · have := not_none_of_valid hv (by simpa using h3)
        simp only [this, ne_eq, not_false_eq_true, iff_true]
        cases v <;> first | exact absurd rfl this | simp [V.isNone]

theorem dumpDict_map (d : List (Str × V)) : dumpDict d = d.map fun e => (e.1, dump e.2) := by
  induction d with
  | nil => rfl
  | cons e d ih => obtain ⟨k, v⟩ := e; simp only [dumpDict, List.map_cons, ih]

theorem dumpList_map (l : List V) : dumpList l = l.map dump := by
  induction l with
  | nil => rfl
  | cons v l ih => simp only [dumpList, List.map_cons, ih]

theorem names_nodup (c : Cls) : ((classDef c).fields.map (·.name)).Nodup := by
  have h : Cls.all.all (fun c => decide ((classDef c).fields.map (·.name)).Nodup) = true := by decide +kernel
  exact of_decide_eq_true (List.all_eq_true.1 h c (Cls.mem_all c))

theorem find_name {L : List (FieldDef Cls)} (hn : (L.map (·.name)).Nodup) {f : FieldDef Cls} (hf : f ∈ L) :
    L.find? (·.name == f.name) = some f := by
  induction L with
  | nil => cases hf
  | cons a L ih =>
    rw [List.map_cons, List.nodup_cons] at hn
    rw [List.find?_cons]
    rcases List.mem_cons.1 hf with rfl | hf
    · simp
    · have : (a.name == f.name) = false := by
        rw [beq_eq_false_iff_ne]; intro e
        exact hn.1 (e ▸ List.mem_map.2 ⟨f, hf, rfl⟩)
      rw [this]; exact ih hn.2 hf

theorem attr_of_named {c : Cls} {fs ex : List (Str × V)} {set : List Str} (hn : (fs.map (·.1)).Nodup) {e : Str × V}
    (he : e ∈ fs) : (V.inst c fs ex set).attr e.1 = e.2 := by
  have := lookup_named (name := fun e : Str × V => e.1) (val := fun e => e.2) hn he
  have e2 : fs.map (fun f : Str × V => (f.1, f.2)) = fs := by simp
  rw [e2] at this
  simp only [V.attr, this, Option.getD_some]

open Classical in
theorem dumpFields_eq {U : Uni} {limit : Option Nat} {c : Cls} (fs ex : List (Str × V)) (set : List Str)
    (hfs : fs.map (·.1) = (classDef c).fields.map (·.name))
    (hv : ∀ f ∈ (classDef c).fields, Valid U limit ((V.inst c fs ex set).attr f.name) f.ty) :
    dumpFields c fs = ((classDef c).fields.filter fun f => Shown c f ((V.inst c fs ex set).attr f.name)).map
      fun f => (jsonName f, dump ((V.inst c fs ex set).attr f.name)) := by
  have hnd := names_nodup c
  have hn : (fs.map (·.1)).Nodup := hfs ▸ hnd
  have key : ∀ (gs : List (Str × V)) (L : List (FieldDef Cls)), (∀ e ∈ gs, e ∈ fs) → (∀ f ∈ L, f ∈ (classDef c).fields) →
      gs.map (·.1) = L.map (·.name) → dumpFields c gs =
        (L.filter fun f => Shown c f ((V.inst c fs ex set).attr f.name)).map
          fun f => (jsonName f, dump ((V.inst c fs ex set).attr f.name)) := by
    intro gs
    induction gs with
    | nil => intro L _ _ h; cases L with
      | nil => rfl
      | cons => cases h
    | cons e gs ih =>
      intro L hg hL h
      cases L with
      | nil => cases h
      | cons f L =>
        simp only [List.map_cons, List.cons.injEq] at h
        obtain ⟨k, v⟩ := e
        have ha := attr_of_named (c := c) (ex := ex) (set := set) hn (hg (k, v) List.mem_cons_self)
        simp only at h ha
        have hf := hL f List.mem_cons_self
        have hfo : fieldOf c k = some f := by rw [h.1]; exact find_name hnd hf
        rw [h.1] at ha
        have hs := shown_iff hf (hv f hf)
        have := ih L (fun e he => hg e (List.mem_cons_of_mem _ he)) (fun f hf => hL f (List.mem_cons_of_mem _ hf)) h.2
        simp only [dumpFields, hfo, List.filter_cons]
        by_cases hsh : Shown c f ((V.inst c fs ex set).attr f.name)
        · have hb := hs.2 hsh
          rw [ha] at hb
          simp only [Bool.and_eq_true, Bool.not_eq_true'] at hb
          simp only [hsh, decide_true, if_true, List.map_cons, hb.1, hb.2, Bool.false_eq_true, if_false, this]
          rw [ha]; rfl
        · have hb : ¬ _ := fun h => hsh (hs.1 h)
          rw [ha] at hb
          simp only [hsh, decide_false, Bool.false_eq_true, if_false]
          by_cases he : f.exclude = true
          · simp only [he, if_true, this]
          · by_cases he2 : (f.excludeNull && v.isNone) = true
            · simp only [he2, he, if_true, if_false, this, Bool.false_eq_true]
            · exact absurd (by simp only [he, he2]; rfl) hb
  exact key fs _ (fun _ h => h) (fun _ h => h) hfs

open Classical in
/-- **C36**: the serialized form of any valid instance is exactly: its declared fields in order, those
that are to be shown, each under its JSON name, then its extension fields. -/
theorem C36_exact (U : Uni) (limit : Option Nat) (c : Cls) (hk : (classDef c).kind ≠ .patterned) (v : V)
    (hv : Valid U limit v (.model c)) :
    dump v = .dict ((((classDef c).fields.filter fun f => Shown c f (v.attr f.name)).map
      fun f => (jsonName f, dump (v.attr f.name))) ++ v.extras.map fun e => (e.1, dump e.2)) := by
  cases hv with
  | @model c fs ex set hfs hty hcon =>
    have h := dumpFields_eq fs ex set hfs hty
    have hd : dump (.inst c fs ex set) = .dict (dumpFields c fs ++ dumpDict ex) := by
      rw [dump]
      split
      · rename_i e; exact absurd e hk
      · rfl
    rw [hd, h, dumpDict_map]; rfl

/-- **C36** for patterned objects: the entries, serialized. -/
theorem C36_patterned (U : Uni) (limit : Option Nat) (c : Cls) (hk : (classDef c).kind = .patterned) (v : V)
    (hv : Valid U limit v (.model c)) :
    ∃ d, v.attr p!"root" = .dict d ∧ dump v = .dict (d.map fun e => (e.1, dump e.2)) := by
  obtain ⟨t, hf⟩ := patterned_root c hk
  cases hv with
  | @model c fs ex set hfs hty hcon =>
    rw [hf] at hfs hty
    have hr := hty _ List.mem_cons_self
    simp only at hr
    simp only [List.map_cons, List.map_nil] at hfs
    cases fs with
    | nil => cases hfs
    | cons e fs =>
      simp only [List.map_cons, List.cons.injEq, List.map_eq_nil_iff] at hfs
      obtain ⟨k, w⟩ := e
      obtain ⟨rfl, rfl⟩ := hfs
      have ha : (V.inst c [(p!"root", w)] ex set).attr p!"root" = w := rfl
      rw [ha] at hr
      cases hr with
      | @dict d _ hd =>
        refine ⟨d, rfl, ?_⟩
        simp only [dump, hk, dumpDict, lookup, if_true, Option.getD_some]
        rw [dumpDict_map]

/-- The fields `binding_version` of the class table. -/
theorem bindingVersions : Cls.all.all (fun c => (classDef c).fields.all fun f =>
    f.name != p!"binding_version" || (jsonName f == p!"bindingVersion" && (match f.ty with | .str => true | _ => false) &&
      (match f.dflt with | .str _ => true | _ => false) && c != .AsyncAPI3 && (classDef c).kind != .patterned)) = true := by
  decide +kernel

/-- **C37**: every valid instance of a class with a `binding_version` writes a `bindingVersion`, a string. -/
theorem C37_always (U : Uni) (limit : Option Nat) (c : Cls) (f : FieldDef Cls) (hf : f ∈ (classDef c).fields)
    (hn : f.name = p!"binding_version") (v : V) (hv : Valid U limit v (.model c)) :
    ∃ out s, dump v = .dict out ∧ v.attr p!"binding_version" = .str s ∧ (p!"bindingVersion", .str s) ∈ out := by
  have h := List.all_eq_true.1 (List.all_eq_true.1 bindingVersions c (Cls.mem_all c)) f hf
  simp only [hn, bne_self_eq_false, Bool.false_or, Bool.and_eq_true, bne_iff_ne, beq_iff_eq] at h
  obtain ⟨⟨⟨⟨hj, ht⟩, hd⟩, hc⟩, hk⟩ := h
  have hx := C36_exact U limit c hk v hv
  have hty : Valid U limit (v.attr f.name) f.ty := by
    cases hv with | model _ h _ => exact h f hf
  have : f.ty = .str := by split at ht <;> first | assumption | cases ht
  rw [this, hn] at hty
  generalize hs : v.attr p!"binding_version" = w at hty
  cases hty with
  | @str s =>
    refine ⟨_, s, hx, rfl, List.mem_append.2 (.inl (List.mem_map.2 ⟨f, List.mem_filter.2 ⟨hf, ?_⟩, ?_⟩))⟩
    · simp only [decide_eq_true_eq]
      exact ⟨fun h => hc h.1, .inl (by rw [hn, hs]; simp)⟩
    · rw [hj, hn, hs]; rfl

/-- **C37**: an instance made without `bindingVersion` has, and so writes, the default of its class. -/
theorem C37_default (E : Env) (c : Cls) (f : FieldDef Cls) (hf : f ∈ (classDef c).fields)
    (hn : f.name = p!"binding_version") (d : List (Str × V)) (hb : ∀ v, (p!"bindingVersion", v) ∉ d)
    (hb' : ∀ v, (p!"binding_version", v) ∉ d) (v : V) (h : validate E c (.dict d) = some v) :
    ∃ out s, f.dflt = .str s ∧ dump v = .dict out ∧ (p!"bindingVersion", .str s) ∈ out := by
  have ht := List.all_eq_true.1 (List.all_eq_true.1 bindingVersions c (Cls.mem_all c)) f hf
  simp only [hn, bne_self_eq_false, Bool.false_or, Bool.and_eq_true, bne_iff_ne, beq_iff_eq] at ht
  obtain ⟨⟨⟨⟨hj, _⟩, hd⟩, hc⟩, hk⟩ := ht
  have hval : Valid E.U E.digits v (.model c) := by
    unfold validate at h
    rw [Option.map_eq_some_iff] at h
    obtain ⟨⟨v', sc⟩, h, rfl⟩ := h
    exact parse_valid (.dict d) _ _ _ (.inr (by show (c != .AsyncAPI3) = true; simpa using hc)) h
  obtain ⟨out, s, h1, h2, h3⟩ := C37_always E.U E.digits c f hf hn v hval
  refine ⟨out, s, ?_, h1, h3⟩
  obtain ⟨i, hi, hfw⟩ : ∃ i, v = i ∧ Fieldwise (Accepts E) c d i :=
    ⟨v, rfl, ((C41_accepts_iff E c hk hc d v).1 h).1⟩
  subst hi
  have hok := fieldwise_field hfw hf
  rw [hn, h2] at hok
  rcases hok.1 with ⟨k, x, hg, _⟩ | ⟨_, hdv⟩
  · exfalso
    have hm := mem_of_given hg
    rcases hg.2 with ha | ⟨rfl, _⟩
    · have : k = p!"bindingVersion" := by
        rw [← hj]; unfold jsonName; rw [ha]; rfl
      exact hb x (this ▸ hm)
    · exact hb' x (hn ▸ hm)
  · split at hd
    · rename_i s' hs'
      rw [hs'] at hdv
      cases hdv
      exact hs'
    · cases hd

/-! ### Concrete cases -/

/-- A channel without address: written as `null`; its other unset fields are left out. -/
example : (validate plainEnv .Channel (.dict [(p!"title", .str p!"t"), (p!"x-a", .int 1)])).map
    (fun v => match dump v with | .dict d => d.map (·.1) | _ => []) =
    some [p!"address", p!"title", p!"x-a"] := by decide +kernel
/-- A binding without version. -/
example : (validate plainEnv .KafkaServerBindings (.dict [])).map
    (fun v => match dump v with | .dict d => d.map (·.1) | _ => []) = some [p!"bindingVersion"] := by decide +kernel

end Verif.Props
