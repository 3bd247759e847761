import Verif.Lemmas.Forget
import Verif.Props.Alias
import Verif.Props.RefParse
/-! Reading back what was written. -/
namespace Verif.Pyd
open Verif Verif.Gen Verif.Spec Verif.Props

/-- Reading the written form back gives the value again, up to the record of given fields. -/
def Back (E : Env) (v : V) (t : Ty Cls) : Prop := ∃ v' sc, parse E (dump v) t = some (v', sc) ∧ forget v' = forget v

theorem lookup_append {β : Type} (k : Str) (a b : List (Str × β)) :
    lookup k (a ++ b) = (lookup k a).orElse fun _ => lookup k b := by
  induction a with
  | nil => rfl
  | cons x a ih =>
    obtain ⟨k', v⟩ := x
    simp only [List.cons_append, lookup]
    split
    · rfl
    · exact ih

theorem lookup_none_of {β : Type} {k : Str} {d : List (Str × β)} (h : ∀ e ∈ d, e.1 ≠ k) : lookup k d = none := by
  cases hl : lookup k d with
  | none => rfl
  | some w => exact absurd rfl (h _ (lookup_some_mem hl))

theorem jsonNames_nodup (c : Cls) : ((classDef c).fields.map jsonName).Nodup := by
  have h : Cls.all.all (fun c => decide ((classDef c).fields.map jsonName).Nodup) = true := by decide +kernel
  exact of_decide_eq_true (List.all_eq_true.1 h c (Cls.mem_all c))

section
open Classical

/-- The written form of the declared fields. -/
noncomputable def writtenFields (c : Cls) (i : V) : List (Str × V) :=
  ((classDef c).fields.filter fun f => Shown c f (i.attr f.name)).map fun f => (jsonName f, dump (i.attr f.name))

theorem lookup_written_shown {c : Cls} {i : V} {f : FieldDef Cls} (hf : f ∈ (classDef c).fields)
    (hs : Shown c f (i.attr f.name)) : lookup (jsonName f) (writtenFields c i) = some (dump (i.attr f.name)) := by
  unfold writtenFields
  refine lookup_named jsonName (fun f => dump (i.attr f.name)) ?_ (List.mem_filter.2 ⟨hf, by simpa using hs⟩)
  exact (List.filter_sublist.map jsonName).nodup (jsonNames_nodup c)

theorem lookup_written_none {c : Cls} {i : V} {f : FieldDef Cls} (hf : f ∈ (classDef c).fields) {k : Str}
    (hk : k = f.name ∨ k = jsonName f) (hn : k = jsonName f → ¬ Shown c f (i.attr f.name)) :
    lookup k (writtenFields c i) = none := by
  refine lookup_none_of fun e he hek => ?_
  unfold writtenFields at he
  rw [List.mem_map] at he
  obtain ⟨g, hg, rfl⟩ := he
  rw [List.mem_filter, decide_eq_true_eq] at hg
  have : g = f := apart hg.1 hf (by
    simp only at hek
    rcases hk with h | h
    · exact .inr (.inl (hek.trans h))
    · exact .inr (.inr (hek.trans h)))
  subst this
  exact hn hek.symm hg.2

theorem findKey_written {c : Cls} {i : V} {ex : List (Str × V)}
    (hsep : ∀ e ∈ ex, ∀ f ∈ (classDef c).fields, e.1 ≠ f.name ∧ f.alias ≠ some e.1) {f : FieldDef Cls}
    (hf : f ∈ (classDef c).fields) :
    findKey f (writtenFields c i ++ ex) = if Shown c f (i.attr f.name) then some (jsonName f, dump (i.attr f.name)) else none := by
  have hexn : lookup f.name ex = none := lookup_none_of fun e he h => (hsep e he f hf).1 h
  have hexa : ∀ a, f.alias = some a → lookup a ex = none := fun a ha =>
    lookup_none_of fun e he h => (hsep e he f hf).2 (by rw [ha, h])
  unfold findKey
  cases ha : f.alias with
  | none =>
    have hj : jsonName f = f.name := by unfold jsonName; rw [ha]; rfl
    simp only
    by_cases hs : Shown c f (i.attr f.name)
    · have := lookup_written_shown hf hs
      rw [hj] at this
      rw [if_pos hs, lookup_append, this, hj]; rfl
    · rw [if_neg hs, lookup_append, lookup_written_none hf (.inl rfl) (fun _ => hs), hexn]; rfl
  | some a =>
    have hj : jsonName f = a := by unfold jsonName; rw [ha]; rfl
    simp only
    by_cases hs : Shown c f (i.attr f.name)
    · rw [if_pos hs, lookup_append, ← hj, lookup_written_shown hf hs]; rfl
    · rw [if_neg hs, lookup_append, lookup_written_none hf (.inr hj.symm) (fun _ => hs), hexa a ha]
      simp only [Option.orElse]
      rw [lookup_append, lookup_written_none hf (.inl rfl) (fun _ => hs), hexn]; rfl

theorem extrasOf_written {c : Cls} {i : V} {ex : List (Str × V)}
    (hsep : ∀ e ∈ ex, ∀ f ∈ (classDef c).fields, e.1 ≠ f.name ∧ f.alias ≠ some e.1) :
    extrasOf c (writtenFields c i ++ ex) = ex := by
  have hused : ∀ k, k ∈ usedKeys c (writtenFields c i ++ ex) ↔
      ∃ f ∈ (classDef c).fields, Shown c f (i.attr f.name) ∧ k = jsonName f := by
    intro k
    unfold usedKeys
    rw [List.mem_filterMap]
    constructor
    · rintro ⟨f, hf, h⟩
      rw [findKey_written hsep hf] at h
      split at h
      · rename_i hs; cases h; exact ⟨f, hf, hs, rfl⟩
      · cases h
    · rintro ⟨f, hf, hs, rfl⟩
      exact ⟨f, hf, by rw [findKey_written hsep hf, if_pos hs]; rfl⟩
  unfold extrasOf
  rw [List.filter_append]
  have h1 : (writtenFields c i).filter (fun e => !(usedKeys c (writtenFields c i ++ ex)).contains e.1) = [] := by
    rw [List.filter_eq_nil_iff]
    intro e he hcon
    unfold writtenFields at he
    rw [List.mem_map] at he
    obtain ⟨f, hf, rfl⟩ := he
    rw [List.mem_filter, decide_eq_true_eq] at hf
    have := (hused (jsonName f)).2 ⟨f, hf.1, hf.2, rfl⟩
    simp [this] at hcon
  have h2 : ex.filter (fun e => !(usedKeys c (writtenFields c i ++ ex)).contains e.1) = ex := by
    rw [List.filter_eq_self]
    intro e he
    have : e.1 ∉ usedKeys c (writtenFields c i ++ ex) := by
      rw [hused]
      rintro ⟨f, hf, _, hk⟩
      have := hsep e he f hf
      unfold jsonName at hk
      cases ha : f.alias with
      | none => rw [ha] at hk; exact this.1 hk
      | some a => rw [ha] at hk; exact this.2 (by rw [ha]; simpa using hk.symm)
    simpa using this
  rw [h1, h2]; rfl

/-- An instance whose fields can be read back is read back, and then meets the `after` validators. -/
theorem construct_written {E : Env} {c : Cls} {fs ex : List (Str × V)} {set : List Str} (hk : (classDef c).kind ≠ .patterned)
    (hfs : fs.map (·.1) = (classDef c).fields.map (·.name))
    (hsep : ∀ e ∈ ex, ∀ f ∈ (classDef c).fields, e.1 ≠ f.name ∧ f.alias ≠ some e.1)
    (hdef : ∀ f ∈ (classDef c).fields, ¬ Shown c f ((V.inst c fs ex set).attr f.name) →
      HasDefault f.dflt ((V.inst c fs ex set).attr f.name))
    (hf : ∀ f ∈ (classDef c).fields, Shown c f ((V.inst c fs ex set).attr f.name) →
      Back E ((V.inst c fs ex set).attr f.name) f.ty ∧
      lengthOk f.maxLen ((V.inst c fs ex set).attr f.name) = true ∧
      fieldCheck E c f.name ((V.inst c fs ex set).attr f.name) = true)
    (hx : (classDef c).kind = .nonExtendable → ex = []) :
    ∃ i', forget i' = forget (.inst c fs ex set) ∧
      parse E (.dict (writtenFields c (.inst c fs ex set) ++ ex)) (.model c) = (after E c i').map fun j =>
        (j, (fieldsScore E c (writtenFields c (.inst c fs ex set) ++ ex) (classDef c).fields).and ⟨E.built, some 0⟩) := by
  have hone : ∀ f ∈ (classDef c).fields, ∃ v' sc,
      one E c (writtenFields c (.inst c fs ex set) ++ ex) f = some (v', sc) ∧
        forget v' = forget ((V.inst c fs ex set).attr f.name) := by
    intro f hff
    by_cases hs : Shown c f ((V.inst c fs ex set).attr f.name)
    · obtain ⟨⟨v', sc, h1, h4⟩, h2, h3⟩ := hf f hff hs
      refine ⟨v', sc.and ⟨2, some 1⟩, ?_, h4⟩
      unfold one
      rw [findKey_written hsep hff, if_pos hs]
      simp only [h1]
      rw [if_pos (by
        rw [← lengthOk_forget, ← fieldCheck_forget, h4, lengthOk_forget, fieldCheck_forget, h2, h3]; rfl)]
    · refine ⟨_, .exactly, ?_, rfl⟩
      unfold one
      rw [findKey_written hsep hff, if_neg hs]
      simp only
      rw [hasDefault_iff.1 (hdef f hff hs)]; rfl
  have hval : ∀ f ∈ (classDef c).fields, forget (valueOf E c (writtenFields c (.inst c fs ex set) ++ ex) f) =
      forget ((V.inst c fs ex set).attr f.name) := by
    intro f hff; obtain ⟨v', sc, h, h4⟩ := hone f hff; unfold valueOf; rw [h]; exact h4
  have hextras := extrasOf_written (i := .inst c fs ex set) hsep
  have hall : allOk E c (writtenFields c (.inst c fs ex set) ++ ex) = true := by
    unfold allOk
    rw [Bool.and_eq_true, List.all_eq_true]
    refine ⟨fun f hff => ?_, ?_⟩
    · obtain ⟨_, sc, h, _⟩ := hone f hff; rw [h]; rfl
    · rw [hextras]
      by_cases hn : (classDef c).kind = .nonExtendable
      · rw [hx hn]; simp
      · simp [hn]
  refine ⟨.inst c (fieldsOf E c (writtenFields c (.inst c fs ex set) ++ ex)) ex
    (setOf c (writtenFields c (.inst c fs ex set) ++ ex)), ?_, ?_⟩
  · simp only [forget, V.inst.injEq, true_and, and_true]
    have hfs' : fs = (classDef c).fields.map fun f => (f.name, (V.inst c fs ex set).attr f.name) :=
      eq_of_names (fun f : FieldDef Cls => f.name) _ (names_nodup c) hfs fun f hff => lookup_of_names hfs hff
    conv => rhs; rw [hfs']
    unfold fieldsOf
    rw [forgetDict_map, forgetDict_map, List.map_map, List.map_map]
    exact List.map_congr_left fun f hff => Prod.ext rfl (hval f hff)
  · rw [parse_model_dict E hk, construct_eq, hall, hextras]; rfl

theorem dump_written {U : Uni} {limit : Option Nat} {c : Cls} (hk : (classDef c).kind ≠ .patterned)
    {fs ex : List (Str × V)} {set : List Str}
    (hv : Valid U limit (.inst c fs ex set) (.model c)) (hex : ∀ e ∈ ex, e.2.isJson = true) :
    dump (.inst c fs ex set) = .dict (writtenFields c (.inst c fs ex set) ++ ex) := by
  rw [C36_exact U limit c hk _ hv]
  have : (V.inst c fs ex set).extras.map (fun e => (e.1, dump e.2)) = ex := by
    change ex.map _ = ex
    conv => rhs; rw [← List.map_id ex]
    exact List.map_congr_left fun e he => Prod.ext rfl (dump_json e.2 (hex e he))
  rw [this]; rfl
end

/-! ### Unions -/

/-- The heads of written values. -/
def writes : Ty Cls → Option (List Head)
  | .any | .union _ => none
  | .none => some [.none]
  | .str | .email | .anyUrl | .httpUrl => some [.str]
  | .int => some [.int]
  | .bool => some [.bool]
  | .processors => some [.proc]
  | .lit _ => some [.str, .int]
  | .list _ => some [.list]
  | .dict _ => some [.dict]
  | .model _ => some [.dict]

theorem writes_of_valid {U : Uni} {limit : Option Nat} {norm : UrlKind → Str → Prop} {v : V} {t : Ty Cls}
    (h : ValidJson U limit norm v t) {l : List Head} (hl : writes t = some l) : headOf (dump v) ∈ l := by
  cases h with
  | @model c fs ex set h1 h2 h3 h4 h5 =>
    simp only [writes, Option.some.injEq] at hl
    subst hl
    have hv := validJson_valid (ValidJson.model h1 h2 h3 h4 h5)
    by_cases hk : (classDef c).kind = .patterned
    · obtain ⟨d, _, h⟩ := C36_patterned U limit c hk _ hv
      rw [h]; simp [headOf]
    · rw [dump_written hk hv h3]; simp [headOf]
  | _ => simp only [writes, Option.some.injEq, reduceCtorEq] at hl <;> subst hl <;> simp [headOf, dump]

/-- What `t` writes, `u` does not take. -/
def writesApart (t u : Ty Cls) : Bool :=
  match writes t, takes u with
  | some g, some k => g.all fun h => !(k.contains h)
  | _, _ => false

theorem refuse_apart {E : Env} {norm : UrlKind → Str → Prop} {v : V} {t u : Ty Cls}
    (hv : ValidJson E.U E.digits norm v t) (ha : writesApart t u = true) : parse E (dump v) u = none := by
  cases hp : parse E (dump v) u with
  | none => rfl
  | some r =>
    unfold writesApart at ha
    split at ha
    · rename_i g k hg hkk
      have h1 := writes_of_valid hv hg
      have h2 := takes_of_parse (v := r.1) (sc := r.2) hp hkk
      have := List.all_eq_true.1 ha _ h1
      simp only [Bool.not_eq_true', List.contains_eq_mem, decide_eq_false_iff_not] at this
      exact absurd h2 this
    · cases ha

/-- Classes that never write `$ref` or `ref`. -/
def noRefKey (c : Cls) : Bool :=
  (classDef c).kind != .patterned && (classDef c).kind != .openExtra &&
    (classDef c).fields.all fun f => jsonName f != p!"$ref" && jsonName f != p!"ref"

/-- Pairs of union members of which the first, written, is told from the second. -/
def toldApart (t u : Ty Cls) : Bool :=
  if isRefTy t then answer u != .other else
  writesApart t u || match t, u with
  | .model .Schema, .model .Reference | .model .Schema, .model .MultiFormatSchema
  | .model .MultiFormatSchema, .model .Reference | .model .MultiFormatSchema, .model .Schema => true
  | .model c, .model .Reference => noRefKey c
  | _, _ => false

def unionTold : List (Ty Cls) → Bool
  | [] => true
  | t :: ts => ts.all (fun u => toldApart t u && toldApart u t) && unionTold ts

theorem unionTold_mem {ts : List (Ty Cls)} (h : unionTold ts = true) {t u : Ty Cls} (ht : t ∈ ts) (hu : u ∈ ts) :
    t = u ∨ toldApart t u = true := by
  induction ts with
  | nil => cases ht
  | cons a ts ih =>
    rw [unionTold, Bool.and_eq_true, List.all_eq_true] at h
    rcases List.mem_cons.1 ht with rfl | ht'
    · rcases List.mem_cons.1 hu with rfl | hu'
      · exact .inl rfl
      · have := h.1 u hu'
        rw [Bool.and_eq_true] at this; exact .inr this.1
    · rcases List.mem_cons.1 hu with rfl | hu'
      · have := h.1 t ht'
        rw [Bool.and_eq_true] at this; exact .inr this.2
      · exact ih h.2 ht' hu'

mutual
/-- All unions in the type are unambiguous in writing. -/
def toldTy : Ty Cls → Bool
  | .list t => toldTy t
  | .dict t => toldTy t
  | .union ts => (unionTold ts || isAnyNone ts) && toldAll ts
  | _ => true
def toldAll : List (Ty Cls) → Bool
  | [] => true
  | t :: ts => toldTy t && toldAll ts
end

theorem toldAll_mem {ts : List (Ty Cls)} (h : toldAll ts = true) {t : Ty Cls} (ht : t ∈ ts) : toldTy t = true := by
  induction ts with
  | nil => cases ht
  | cons a ts ih =>
    rw [toldAll, Bool.and_eq_true] at h
    rcases List.mem_cons.1 ht with rfl | ht
    · exact h.1
    · exact ih h.2 ht

theorem fields_told : Cls.all.all (fun c => (classDef c).fields.all fun f =>
    toldTy f.ty || (c == .KafkaMessageBindings && f.name == p!"key")) = true := by
  decide +kernel

theorem field_told {c : Cls} {f : FieldDef Cls} (hf : f ∈ (classDef c).fields) :
    toldTy f.ty = true ∨ (c = .KafkaMessageBindings ∧ f.name = p!"key" ∧ f.ty = keyTy) := by
  have := List.all_eq_true.1 (List.all_eq_true.1 fields_told c (Cls.mem_all c)) f hf
  simp only [Bool.or_eq_true, Bool.and_eq_true, beq_iff_eq] at this
  rcases this with h | ⟨rfl, hn⟩
  · exact .inl h
  · exact .inr ⟨rfl, hn, key_ty hf hn⟩

end Verif.Pyd
