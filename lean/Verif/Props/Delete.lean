import Verif.Model.Delete
import Verif.Props.Copy
/-!
# C75: deleting attributes

`del i.name` (`Verif/Model/Delete.lean`). Validity is that of `Verif/Spec/Valid.lean`.
-/
namespace Verif.Props
open Verif Verif.Gen Verif.Spec Verif.Pyd Verif.Mutate

theorem removed_some {d d' : List (Str × V)} {k : Str} (hd : (d.map (·.1)).Nodup) (h : dictDel d k = some d') :
    k ∈ d.map (·.1) ∧ d' = d.filter (fun e => !decide (e.1 = k)) := by
  induction d generalizing d' with
  | nil => cases h
  | cons e d ih =>
    simp only [List.map_cons, List.nodup_cons] at hd
    simp only [dictDel] at h
    split at h
    · rename_i he
      cases h
      refine ⟨by simp [he], ?_⟩
      rw [List.filter_cons_of_neg (by simp [he])]
      refine (List.filter_eq_self.2 fun x hx => ?_).symm
      have : x.1 ≠ k := fun e' => hd.1 (by rw [he, ← e']; exact List.mem_map_of_mem hx)
      simp [this]
    · rename_i he
      rw [Option.map_eq_some_iff] at h
      obtain ⟨d'', h, rfl⟩ := h
      obtain ⟨h1, h2⟩ := ih hd.2 h
      refine ⟨by simp only [List.map_cons, List.mem_cons]; exact .inr h1, ?_⟩
      rw [List.filter_cons_of_pos (by simp [he]), ← h2]

theorem removed_none {d : List (Str × V)} {k : Str} : dictDel d k = none ↔ k ∉ d.map (·.1) := by
  induction d with
  | nil => simp [dictDel]
  | cons e d ih =>
    simp only [dictDel]
    split
    · rename_i he; simp [he]
    · rename_i he
      rw [Option.map_eq_none_iff, ih]
      simp only [List.map_cons, List.mem_cons, not_or]
      exact ⟨fun h => ⟨fun e => he e.symm, h⟩, fun h => h.2⟩

theorem lookup_removed (d : List (Str × V)) (k j : Str) :
    lookup j (d.filter fun e => !decide (e.1 = k)) = if j = k then none else lookup j d := by
  rw [Sharing.find_filter fun x => !decide (x = k)]
  by_cases h : j = k <;> simp [h]

/-- **C75.** `del i.name` raises an AttributeError iff there is no such field. Otherwise the field is gone: a declared one from the
attributes, another one from the extra fields; everything else is as it was. -/
theorem C75_exact (c : Cls) (fs ex : List (Str × V)) (set : List Str) (hf : (fs.map (·.1)).Nodup) (he : (ex.map (·.1)).Nodup) (k : Str) :
    ((∃ f ∈ (classDef c).fields, f.name = k) →
      (delAttr (.inst c fs ex set) k = none ↔ lookup k fs = none) ∧
      ∀ j, delAttr (.inst c fs ex set) k = some j → ∃ fs', j = .inst c fs' ex set ∧
        ∀ n, lookup n fs' = if n = k then none else lookup n fs) ∧
    ((∀ f ∈ (classDef c).fields, f.name ≠ k) →
      (delAttr (.inst c fs ex set) k = none ↔ lookup k ex = none) ∧
      ∀ j, delAttr (.inst c fs ex set) k = some j → ∃ ex', j = .inst c fs ex' set ∧
        ∀ n, lookup n ex' = if n = k then none else lookup n ex) := by
  have gone : ∀ d : List (Str × V), dictDel d k = none ↔ lookup k d = none := by
    intro d
    rw [removed_none]
    constructor
    · intro h
      cases hl : lookup k d with
      | none => rfl
      | some v => exact absurd (List.mem_map_of_mem (f := (·.1)) (lookup_some_mem hl)) h
    · intro h hm
      obtain ⟨v, hv⟩ := lookup_isSome_of_mem hm
      rw [h] at hv; cases hv
  constructor
  · intro hd
    have hs := isSome_fieldOf.2 hd
    simp only [delAttr, hs, if_true, Option.map_eq_none_iff, Option.map_eq_some_iff]
    refine ⟨gone fs, ?_⟩
    rintro j ⟨fs', h, rfl⟩
    obtain ⟨-, rfl⟩ := removed_some hf h
    exact ⟨_, rfl, fun n => lookup_removed fs k n⟩
  · intro hd
    have hs : (fieldOf c k).isSome = false := by
      rw [← Bool.not_eq_true, isSome_fieldOf]
      rintro ⟨f, hf, hn⟩; exact hd f hf hn
    simp only [delAttr, hs, Bool.false_eq_true, if_false, Option.map_eq_none_iff, Option.map_eq_some_iff]
    refine ⟨gone ex, ?_⟩
    rintro j ⟨ex', h, rfl⟩
    obtain ⟨-, rfl⟩ := removed_some he h
    exact ⟨_, rfl, fun n => lookup_removed ex k n⟩

/-- **C75.** Deleting an extension (or another extra field) keeps an instance valid. -/
theorem C75_extra (U : Uni) (limit : Option Nat) (c : Cls) (i j : V) (hi : Valid U limit i (.model c)) (hk : Keyed i) (k : Str)
    (hx : ∀ f ∈ (classDef c).fields, f.name ≠ k) (h : delAttr i k = some j) : Valid U limit j (.model c) := by
  cases hi with
  | @model _ fs ex set hfs hty hcon =>
    cases hk with
    | inst h1 _ h2 _ =>
      have hs : (fieldOf c k).isSome = false := by
        rw [← Bool.not_eq_true, isSome_fieldOf]
        rintro ⟨f, hf, hn⟩; exact hx f hf hn
      simp only [delAttr, hs, Bool.false_eq_true, if_false, Option.map_eq_some_iff] at h
      obtain ⟨ex', h, rfl⟩ := h
      obtain ⟨-, rfl⟩ := removed_some h2 h
      refine .model hfs hty ⟨fun hk e he => hcon.extensions hk e (List.mem_of_mem_filter he), fun hk => ?_, hcon.keys, hcon.lengths, ?_,
        hcon.version⟩
      · have := hcon.closed hk
        simp only [V.extras] at this ⊢
        rw [this]; rfl
      · have := hcon.rule
        revert this
        cases c <;> first | exact id | exact fun r => ⟨r.apiKey, r.httpApiKey, r.http, r.oauth2, r.openIdConnect, r.bearerFormat, r.scopes⟩

/-- **C75.** Deleting a declared field, required or not, leaves an instance that is not valid: the field is missing. -/
theorem C75_declared (U : Uni) (limit : Option Nat) (c : Cls) (i j : V) (hi : Valid U limit i (.model c)) (hk : Keyed i) (k : Str)
    (hx : ∃ f ∈ (classDef c).fields, f.name = k) (h : delAttr i k = some j) : ¬ Valid U limit j (.model c) := by
  intro hj
  cases hi with
  | @model _ fs ex set hfs hty hcon =>
    cases hk with
    | inst h1 _ h2 _ =>
      obtain ⟨fs', rfl, hl⟩ := ((C75_exact c fs ex set h1 h2 k).1 hx).2 j h
      cases hj with
      | model hfs' _ _ =>
        obtain ⟨f, hf, rfl⟩ := hx
        have hm : f.name ∈ fs'.map (·.1) := by rw [hfs']; exact List.mem_map_of_mem hf
        obtain ⟨v, hv⟩ := lookup_isSome_of_mem hm
        rw [hl f.name, if_pos rfl] at hv
        cases hv

/-- **C75.** Where such an instance is validated again (stored in another one, for instance), a required field that is missing is
found out, and an optional one gets its default. -/
theorem C75_again (E : Env) (hcall : OnlyChecks E.call) (c : Cls) (hp : (classDef c).kind ≠ .patterned) (fs ex : List (Str × V)) (set : List Str)
    (hfs : (fs.map (·.1)).Nodup) (f : FieldDef Cls) (hf : f ∈ (classDef c).fields)
    (ha : ∀ a, f.alias = some a → lookup a fs = none ∧ lookup a ex = none) (hn : lookup f.name ex = none)
    (j : V) (h : delAttr (.inst c fs ex set) f.name = some j) :
    (f.dflt = .required → validate E c j = none) ∧ ∀ w, validate E c j = some w → HasDefault f.dflt (w.attr f.name) := by
  have hs := isSome_fieldOf.2 ⟨f, hf, rfl⟩
  simp only [delAttr, hs, if_true, Option.map_eq_some_iff] at h
  obtain ⟨fs', h, rfl⟩ := h
  obtain ⟨-, rfl⟩ := removed_some hfs h
  generalize hd : update (fs.filter fun e => !decide (e.1 = f.name)) ex = d
  have hlook : ∀ k, lookup k ex = none → (k = f.name ∨ lookup k fs = none) → lookup k d = none := by
    intro k h1 h2
    rw [← hd, Sharing.find_update, h1, lookup_removed]
    rcases h2 with h2 | h2
    · simp [h2]
    · simp [h2]
  have hfk : findKey f d = none := by
    unfold findKey
    cases halias : f.alias with
    | none => simp only [hlook f.name hn (.inl rfl), Option.map_none]
    | some a => simp only [hlook a (ha a halias).2 (.inr (ha a halias).1), hlook f.name hn (.inl rfl), Option.map_none]
  have hparse : validate E c (.inst c (fs.filter fun e => !decide (e.1 = f.name)) ex set) =
      (construct E c (entries E d) (some set) 2).map (·.1) := by
    rw [← hd, ← update_entries]
    unfold validate
    rw [parse_eq_shape]
    simp only [parseAs, shapeOf, parseModel, if_true]
    split
    · rename_i hk _; exact absurd hk hp
    · rename_i hk _; exact absurd hk hp
    · rfl
  have main : ∀ w, validate E c (.inst c (fs.filter fun e => !decide (e.1 = f.name)) ex set) = some w → HasDefault f.dflt (w.attr f.name) := by
    intro w hw
    rw [hparse, construct_eq] at hw
    split at hw
    · rename_i hok
      rw [Option.map_map, Option.map_eq_some_iff] at hw
      obtain ⟨j, hj, rfl⟩ := hw
      have := after_same hcall hj
      subst this
      have hall : (one E c d f).isSome = true := by
        unfold allOk at hok
        rw [Bool.and_eq_true] at hok
        exact List.all_eq_true.1 hok.1 f hf
      have hattr : (V.inst c (fieldsOf E c d) (extrasOf c d) ((some set).getD (setOf c d))).attr f.name = valueOf E c d f :=
        attr_fieldsOf hf
      show HasDefault f.dflt (V.attr (V.inst c (fieldsOf E c d) (extrasOf c d) ((some set).getD (setOf c d))) f.name)
      rw [hattr, hasDefault_iff]
      unfold valueOf
      unfold one at hall ⊢
      rw [hfk] at hall ⊢
      cases hdv : dfltValue f.dflt with
      | none => rw [hdv] at hall; cases hall
      | some v => rfl
    · cases hw
  refine ⟨fun hreq => ?_, main⟩
  cases hv : validate E c (.inst c (fs.filter fun e => !decide (e.1 = f.name)) ex set) with
  | none => rfl
  | some w =>
    have := main w hv
    rw [hreq] at this
    exact this.elim

/-! ### Examples -/

/-- A license with an extension, made by validation. -/
def anExtendedLicense : V := .inst .License [(p!"name", .str p!"MIT"), (p!"url", .none)] [(p!"x-a", .int 1)] [p!"name", p!"x-a"]

theorem anExtendedLicense_made : validate plainEnv .License (.dict [(p!"name", .str p!"MIT"), (p!"x-a", .int 1)]) = some anExtendedLicense := rfl

theorem anExtendedLicense_valid : Valid plainEnv.U plainEnv.digits anExtendedLicense (.model .License) :=
  C42_valid plainEnv .License (by decide) _ _ anExtendedLicense_made

/-- `del x.x_a` is not meant: the extra field is named `x-a`, so `delattr(x, "x-a")`. -/
example : delAttr anExtendedLicense p!"x-a" = some (.inst .License [(p!"name", .str p!"MIT"), (p!"url", .none)] [] [p!"name", p!"x-a"]) ∧
    delAttr anExtendedLicense p!"x-b" = none ∧
    (delAttr anExtendedLicense p!"url").bind (delAttr · p!"url") = none := ⟨rfl, rfl, rfl⟩

theorem anExtendedLicense_keyed : Keyed anExtendedLicense := by
  refine .inst (by decide) ?_ (by decide) ?_
  · intro e he
    simp only [List.mem_cons, List.not_mem_nil, or_false] at he
    rcases he with rfl | rfl
    · exact .str
    · exact .none
  · intro e he
    simp only [List.mem_cons, List.not_mem_nil, or_false] at he
    subst he
    exact .int

example : Valid plainEnv.U plainEnv.digits (.inst .License [(p!"name", .str p!"MIT"), (p!"url", .none)] [] [p!"name", p!"x-a"]) (.model .License) :=
  C75_extra plainEnv.U plainEnv.digits .License anExtendedLicense _ anExtendedLicense_valid anExtendedLicense_keyed p!"x-a" (by decide) rfl

example : ¬ Valid plainEnv.U plainEnv.digits (.inst .License [(p!"name", .str p!"MIT")] [(p!"x-a", .int 1)] [p!"name", p!"x-a"]) (.model .License) :=
  C75_declared plainEnv.U plainEnv.digits .License anExtendedLicense _ anExtendedLicense_valid anExtendedLicense_keyed p!"url" (by decide) rfl

/-- Validated again, the license without `url` has it again, and the one without `name` is refused. -/
example : ((delAttr anExtendedLicense p!"url").bind (validate plainEnv .License)) = some anExtendedLicense ∧
    (delAttr anExtendedLicense p!"name").bind (validate plainEnv .License) = none := ⟨rfl, rfl⟩

end Verif.Props
