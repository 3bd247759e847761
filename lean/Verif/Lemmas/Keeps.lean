import Verif.Lemmas.JsonValid
import Verif.Lemmas.Bisim
/-! Validation keeps properties of values that are about their parts. -/
namespace Verif.Pyd
open Verif Verif.Gen Verif.Spec Verif.Props

variable {E : Env}

/-- A value without parts. -/
def IsScalar : V → Prop
  | .list _ | .dict _ | .inst _ _ _ _ => False
  | _ => True

/-- If `P` holds of the input, `Q` holds of what validation against a type makes of its parts. -/
structure Keeps (E : Env) (P : V → Prop) (Q : V → Ty Cls → Prop) : Prop where
  scalar : ∀ v t, IsScalar v → Q v t
  same : ∀ v, P v → Q v .any
  item : ∀ l, P (.list l) → ∀ v ∈ l, P v
  entry : ∀ d, P (.dict d) → ∀ e ∈ d, P e.2
  nothing : P (.dict [])
  field : ∀ c fs ex set, P (.inst c fs ex set) → ∀ e ∈ fs, P e.2
  merged : ∀ c fs ex set, P (.inst c fs ex set) → P (.dict (update fs ex))
  list : ∀ l t, (∀ v ∈ l, Q v t) → Q (.list l) (.list t)
  dict : ∀ d r t, P (.dict d) → r.map (·.1) = d.map (·.1) → (∀ e ∈ r, Q e.2 t) → Q (.dict r) (.dict t)
  union : ∀ x v sc t ts, t ∈ ts → parse E x (.union ts) = some (v, sc) → parse E x t = some (v, sc) → Q v t →
    Q v (.union ts)
  inst : ∀ c fs ex set d, Valid E.U E.digits (.inst c fs ex set) (.model c) →
    (∀ f ∈ (classDef c).fields, ∀ v, (f.name, v) ∈ fs → Q v f.ty) →
    P (.dict d) → ex.Sublist d → Q (.inst c fs ex set) (.model c)

variable {P : V → Prop} {Q : V → Ty Cls → Prop}

/-- What the parts of `x` become has `Q`. -/
def KeptAs (E : Env) (Q : V → Ty Cls → Prop) (x : V) : Prop := ∀ t v sc, docFree t = true → parse E x t = some (v, sc) → Q v t

theorem parseEntries_keys {t : Ty Cls} {d : List (Str × V)} {r : List (Str × V) × Score}
    (h : parseEntries t (entries E d) = some r) : r.1.map (·.1) = d.map (·.1) := by
  induction d generalizing r with
  | nil => cases h; rfl
  | cons x d ih =>
    obtain ⟨k, x⟩ := x
    simp only [entries, parseEntries] at h
    cases hx : parse E x t with
    | none => rw [hx] at h; cases h
    | some vs =>
      rw [hx] at h
      cases hr : parseEntries t (entries E d) with
      | none => rw [hr] at h; cases h
      | some r' =>
        rw [hr] at h
        simp only [Option.some.injEq] at h
        subst h
        simp only [List.map_cons, ih hr]

theorem parseEntries_kept {t : Ty Cls} (ht : docFree t = true) {d : List (Str × V)} (hd : ∀ e ∈ d, KeptAs E Q e.2)
    {r : List (Str × V) × Score} (h : parseEntries t (entries E d) = some r) : ∀ e ∈ r.1, Q e.2 t := by
  induction d generalizing r with
  | nil => cases h; simp
  | cons x d ih =>
    obtain ⟨k, x⟩ := x
    simp only [entries, parseEntries] at h
    cases hx : parse E x t with
    | none => rw [hx] at h; cases h
    | some vs =>
      obtain ⟨v, sc⟩ := vs
      rw [hx] at h
      cases hr : parseEntries t (entries E d) with
      | none => rw [hr] at h; cases h
      | some r' =>
        rw [hr] at h
        simp only [Option.some.injEq] at h
        subst h
        intro e he
        rcases List.mem_cons.1 he with rfl | he
        · exact hd (k, x) List.mem_cons_self _ _ _ ht hx
        · exact ih (fun e he => hd e (List.mem_cons_of_mem _ he)) hr e he

theorem parseItems_kept {t : Ty Cls} (ht : docFree t = true) {l : List V} (hd : ∀ v ∈ l, KeptAs E Q v)
    {r : List V × Score} (h : parseItems t (parsers E l) = some r) : ∀ v ∈ r.1, Q v t := by
  induction l generalizing r with
  | nil => cases h; simp
  | cons x l ih =>
    simp only [parsers, parseItems] at h
    cases hx : parse E x t with
    | none => rw [hx] at h; cases h
    | some vs =>
      obtain ⟨v, sc⟩ := vs
      rw [hx] at h
      cases hr : parseItems t (parsers E l) with
      | none => rw [hr] at h; cases h
      | some r' =>
        rw [hr] at h
        simp only [Option.some.injEq] at h
        subst h
        intro e he
        rcases List.mem_cons.1 he with rfl | he
        · exact hd x List.mem_cons_self _ _ _ ht hx
        · exact ih (fun e he => hd e (List.mem_cons_of_mem _ he)) hr e he

theorem parseDict_kept (K : Keeps E P Q) {t : Ty Cls} (ht : docFree t = true) {d : List (Str × V)} (hP : P (.dict d))
    (hd : ∀ e ∈ d, KeptAs E Q e.2) {v : V} {sc : Score}
    (h : parseDict t (.dict (entries E d)) = some (v, sc)) : Q v (.dict t) := by
  simp only [parseDict, Option.map_eq_some_iff, Prod.mk.injEq] at h
  obtain ⟨r, hr, rfl, _⟩ := h
  exact K.dict d _ t hP (parseEntries_keys hr) (parseEntries_kept ht hd hr)

theorem default_kept (K : Keeps E P Q) {df : Dflt} {v : V} {t : Ty Cls} (h : dfltValue df = some v) : Q v t := by
  cases df <;> cases h <;> exact K.scalar _ _ trivial

/-- The instance before the `after` validators change anything. -/
theorem instance_kept (K : Keeps E P Q) {c : Cls} (hk : (classDef c).kind ≠ .patterned) {d : List (Str × V)}
    (hP : P (.dict d)) (hd : ∀ e ∈ d, KeptAs E Q e.2) {set : List Str} (hok : allOk E c d = true)
    (hb : (baseCheck E c (.inst c (fieldsOf E c d) (extrasOf c d) set) &&
      modelCheck c (.inst c (fieldsOf E c d) (extrasOf c d) set)) = true) :
    Valid E.U E.digits (.inst c (fieldsOf E c d) (extrasOf c d) set) (.model c) ∧
    Q (.inst c (fieldsOf E c d) (extrasOf c d) set) (.model c) := by
  have hv := instance_valid hk (fun e _ => parse_valid e.2) _ hok hb
  refine ⟨hv, K.inst c _ _ _ d hv ?_ hP (List.filter_sublist)⟩
  obtain ⟨h1, h2⟩ := fields_of_allOk hok
  intro f hf v hv
  have : v = valueOf E c d f := by
    have h1 := (lookup_iff (by rw [fieldsOf, List.map_map]; exact names_nodup c)).2 hv
    have h2 := lookup_named (fun f : FieldDef Cls => f.name) (valueOf E c d) (names_nodup c) hf
    unfold fieldsOf at h1
    rw [h2] at h1
    exact (Option.some.inj h1).symm
  subst this
  rcases (h1 f hf).1.1 with ⟨k, x, hk, sc, ha⟩ | ⟨_, hv⟩
  · exact hd _ (mem_of_given hk) _ _ _ (field_docFree hf) ha
  · exact default_kept K (hasDefault_iff.1 hv)

theorem construct_kept (K : Keeps E P Q) {c : Cls} (hk : (classDef c).kind ≠ .patterned) {d : List (Str × V)}
    (hP : P (.dict d)) (hd : ∀ e ∈ d, KeptAs E Q e.2) {set? : Option (List Str)} {floor : Nat} {i : V} {sc : Score}
    (h : construct E c (entries E d) set? floor = some (i, sc)) :
    ∃ j, Valid E.U E.digits j (.model c) ∧ Q j (.model c) ∧ after E c j = some i := by
  rw [construct_eq] at h
  split at h
  · rename_i hok
    rw [Option.map_eq_some_iff] at h
    obtain ⟨i', h, he⟩ := h
    cases he
    obtain ⟨h1, h2⟩ := instance_kept K hk hP hd hok (after_checks h)
    exact ⟨_, h1, h2, h⟩
  · cases h

theorem constructRoot_kept (K : Keeps E P Q) {c : Cls} {r : Res} {t : Ty Cls} (hf : (classDef c).fields = [⟨p!"root", none, .dict t, .required, false, false, none⟩])
    (hr : ∀ v sc, r = some (v, sc) → Q v (.dict t)) {set? : Option (List Str)}
    {floor : Nat} {i : V} {sc : Score} (hk : (classDef c).kind = .patterned)
    (hv : Valid E.U E.digits i (.model c))
    (h : constructRoot E c r set? floor = some (i, sc)) : Q i (.model c) := by
  have hne : c ≠ .AsyncAPI3 := by rintro rfl; cases hk
  unfold constructRoot at h
  cases r with
  | none => cases h
  | some vs =>
    obtain ⟨v, s⟩ := vs
    simp only at h
    split at h
    · cases h
    · rename_i j hj
      have := after_of_checks hne (after_checks hj)
      rw [hj] at this
      cases this
      cases h
      refine K.inst c _ _ _ [] hv (fun f hff w he => ?_) K.nothing (List.Sublist.refl _)
      rw [hf] at hff
      simp only [List.mem_singleton, Prod.mk.injEq] at he hff
      subst hff
      rw [he.2]
      exact hr v s rfl

/-- Parts of a value. -/
def PartsKept (E : Env) (Q : V → Ty Cls → Prop) : V → Prop
  | .list l => ∀ v ∈ l, KeptAs E Q v
  | .dict d => ∀ e ∈ d, KeptAs E Q e.2
  | .inst _ fs ex _ => (∀ e ∈ fs, KeptAs E Q e.2) ∧ ∀ e ∈ ex, KeptAs E Q e.2
  | _ => True

theorem update_kept {fs ex : List (Str × V)} (h1 : ∀ e ∈ fs, KeptAs E Q e.2) (h2 : ∀ e ∈ ex, KeptAs E Q e.2) :
    ∀ e ∈ update fs ex, KeptAs E Q e.2 := by
  intro e he
  rcases mem_update he with ⟨y, hy, e'⟩ | ⟨y, hy, e'⟩
  · rw [← e']; exact h1 y hy
  · rw [← e']; exact h2 y hy

/-- An instance of a class that is not patterned, before the `after` validators change anything. -/
theorem parseModel_instance (K : Keeps E P Q) {c : Cls} (hk : (classDef c).kind ≠ .patterned) {x : V} (hP : P x)
    (hx : PartsKept E Q x) {v : V} {sc : Score} (h : parse E x (.model c) = some (v, sc)) :
    ∃ j, Valid E.U E.digits j (.model c) ∧ Q j (.model c) ∧ after E c j = some v := by
  rw [parse_eq_shape] at h
  simp only [parseAs] at h
  cases x <;> simp only [shapeOf, parseModel, reduceCtorEq] at h
  · rename_i d
    have h' : construct E c (entries E d) none E.built = some (v, sc) := by
      revert h
      generalize (classDef c).kind = k at hk
      cases k <;> first | exact absurd rfl hk | exact id
    exact construct_kept K hk hP hx h'
  · rename_i c' fs ex set
    split at h
    · rename_i hcc
      subst hcc
      have h' : construct E c' (update (entries E fs) (entries E ex)) (some set) 2 = some (v, sc) := by
        revert h
        generalize (classDef c').kind = k at hk
        cases k <;> first | exact absurd rfl hk | exact id
      rw [update_entries] at h'
      exact construct_kept K hk (K.merged _ _ _ _ hP) (update_kept hx.1 hx.2) h'
    · cases h

theorem parseModel_kept (K : Keeps E P Q) {c : Cls} (hc : c ≠ .AsyncAPI3) {x : V} (hP : P x)
    (hx : PartsKept E Q x) {v : V} {sc : Score} (h : parse E x (.model c) = some (v, sc)) : Q v (.model c) := by
  by_cases hk : (classDef c).kind = .patterned
  · have hv := parse_valid x (.model c) v sc (.inr (by simpa [docFree] using hc)) h
    rw [parse_eq_shape] at h
    simp only [parseAs] at h
    obtain ⟨t, hf⟩ := patterned_root c hk
    have hs : docFree (.dict t) = true := field_docFree (c := c) (f := ⟨p!"root", none, .dict t, .required, false, false, none⟩) (by rw [hf]; exact List.mem_cons_self)
    cases x <;> simp only [shapeOf, parseModel, reduceCtorEq] at h
    · rename_i d
      rw [hk, hf] at h
      exact constructRoot_kept K hf (fun v sc hv => parseDict_kept (t := t) K hs hP hx hv) hk hv h
    · rename_i c' fs ex set
      split at h
      · rename_i hcc
        subst hcc
        rw [hk, hf] at h
        simp only at h
        rw [lookup_entries] at h
        cases hl : lookup p!"root" fs with
        | none => rw [hl] at h; cases h
        | some w =>
          rw [hl] at h
          exact constructRoot_kept K hf (fun v sc hv => hx.1 (p!"root", w) (lookup_some_mem hl) _ _ _ hs hv) hk hv h
      · cases h
  · obtain ⟨j, -, hq, ha⟩ := parseModel_instance K hk hP hx h
    have := after_of_checks hc (after_checks ha)
    rw [ha] at this
    cases this
    exact hq

mutual
theorem parse_kept_parts (K : Keeps E P Q) {x : V} (hP : P x) (hx : PartsKept E Q x) : ∀ (t : Ty Cls) (v : V) (sc : Score),
    docFree t = true → parse E x t = some (v, sc) → Q v t
  | .any, v, sc, hc, h => by
    rw [parse_eq_shape] at h
    simp only [parseAs, Option.some.injEq, Prod.mk.injEq] at h
    rw [← h.1]; exact K.same _ hP
  | .none, v, sc, hc, h => by
    have := parse_valid x .none v sc (.inr rfl) h
    cases this; exact K.scalar _ _ trivial
  | .str, v, sc, hc, h => by
    have := parse_valid x .str v sc (.inr rfl) h
    cases this; exact K.scalar _ _ trivial
  | .int, v, sc, hc, h => by
    have := parse_valid x .int v sc (.inr rfl) h
    cases this; exact K.scalar _ _ trivial
  | .bool, v, sc, hc, h => by
    have := parse_valid x .bool v sc (.inr rfl) h
    cases this; exact K.scalar _ _ trivial
  | .anyUrl, v, sc, hc, h => by
    have := parse_valid x .anyUrl v sc (.inr rfl) h
    cases this; exact K.scalar _ _ trivial
  | .httpUrl, v, sc, hc, h => by
    have := parse_valid x .httpUrl v sc (.inr rfl) h
    cases this; exact K.scalar _ _ trivial
  | .email, v, sc, hc, h => by
    have := parse_valid x .email v sc (.inr rfl) h
    cases this; exact K.scalar _ _ trivial
  | .processors, v, sc, hc, h => by
    have := parse_valid x .processors v sc (.inr rfl) h
    cases this; exact K.scalar _ _ trivial
  | .lit vs, v, sc, hc, h => by
    have := parse_valid x (.lit vs) v sc (.inr rfl) h
    cases this <;> exact K.scalar _ _ trivial
  | .list t, v, sc, hc, h => by
    rw [parse_eq_shape] at h
    simp only [parseAs] at h
    cases x <;> simp only [shapeOf, reduceCtorEq, Option.map_eq_some_iff, Prod.mk.injEq] at h
    obtain ⟨r, hr, rfl, _⟩ := h
    exact K.list _ t (parseItems_kept (t := t) hc hx hr)
  | .dict t, v, sc, hc, h => by
    rw [parse_eq_shape] at h
    simp only [parseAs] at h
    cases x with
    | dict d => exact parseDict_kept (t := t) K hc hP hx h
    | _ => cases h
  | .model c, v, sc, hc, h => parseModel_kept K (by simpa [docFree] using hc) hP hx h
  | .union ts, v, sc, hc, h => by
    have h0 := h
    rw [parse_union] at h
    split at h
    · cases h; exact K.scalar _ _ trivial
    · rcases pick_mem h with h | h
      · cases h
      · obtain ⟨t, ht, hp, hq⟩ := parse_kept_each K hP hx ts v sc hc h
        exact K.union x v sc t ts ht h0 hp hq
theorem parse_kept_each (K : Keeps E P Q) {x : V} (hP : P x) (hx : PartsKept E Q x) : ∀ (ts : List (Ty Cls)) (v : V) (sc : Score),
    docFreeAll ts = true → some (v, sc) ∈ ts.map (parse E x) → ∃ t ∈ ts, parse E x t = some (v, sc) ∧ Q v t
  | [], v, sc, hc, h => by cases h
  | t :: ts, v, sc, hc, h => by
    rw [docFreeAll, Bool.and_eq_true] at hc
    rw [List.map_cons, List.mem_cons] at h
    rcases h with h | h
    · exact ⟨t, List.mem_cons_self, h.symm, parse_kept_parts K hP hx t v sc hc.1 h.symm⟩
    · obtain ⟨u, hu, hq⟩ := parse_kept_each K hP hx ts v sc hc.2 h
      exact ⟨u, List.mem_cons_of_mem _ hu, hq⟩
end

/-- Everything but extras of instances; those are kept as they are. -/
theorem parse_kept (K : Keeps E P Q) (hex : ∀ c fs ex set, P (.inst c fs ex set) → ∀ e ∈ ex, P e.2) :
    ∀ x, P x → KeptAs E Q x := by
  intro x
  induction x using V.ind with
  | list l ih => exact fun hP => parse_kept_parts K hP fun v hv => ih v hv (K.item _ hP v hv)
  | dict d ih => exact fun hP => parse_kept_parts K hP fun e he => ih e he (K.entry _ hP e he)
  | inst c fs ex set ih1 ih2 =>
    exact fun hP => parse_kept_parts K hP ⟨fun e he => ih1 e he (K.field _ _ _ _ hP e he),
      fun e he => ih2 e he (hex _ _ _ _ hP e he)⟩
  | none => exact fun hP => parse_kept_parts K hP trivial
  | bool => exact fun hP => parse_kept_parts K hP trivial
  | int => exact fun hP => parse_kept_parts K hP trivial
  | float => exact fun hP => parse_kept_parts K hP trivial
  | str => exact fun hP => parse_kept_parts K hP trivial
  | url => exact fun hP => parse_kept_parts K hP trivial
  | proc => exact fun hP => parse_kept_parts K hP trivial

theorem parts_kept (K : Keeps E P Q) (hex : ∀ c fs ex set, P (.inst c fs ex set) → ∀ e ∈ ex, P e.2) {x : V} (hP : P x) :
    PartsKept E Q x := by
  cases x with
  | list l => exact fun v hv => parse_kept K hex v (K.item _ hP v hv)
  | dict d => exact fun e he => parse_kept K hex _ (K.entry _ hP e he)
  | inst c fs ex set => exact ⟨fun e he => parse_kept K hex _ (K.field _ _ _ _ hP e he),
      fun e he => parse_kept K hex _ (hex _ _ _ _ hP e he)⟩
  | _ => trivial

/-! ### Soundness -/

theorem update_keys_nodup {fs ex : List (Str × V)} (h1 : (fs.map (·.1)).Nodup) (h2 : (ex.map (·.1)).Nodup) :
    ((update fs ex).map (·.1)).Nodup := by
  unfold update
  rw [List.map_append, List.map_map]
  have e : ((fun x : Str × V => x.1) ∘ fun x : Str × V => (x.1, (lookup x.1 ex).getD x.2)) = fun x => x.1 := by
    funext x; rfl
  rw [e, List.nodup_append]
  refine ⟨h1, List.Sublist.nodup (List.Sublist.map _ List.filter_sublist) h2, ?_⟩
  intro a ha b hb hab
  subst hab
  obtain ⟨x, hx, rfl⟩ := List.mem_map.1 ha
  obtain ⟨y, hy, he⟩ := List.mem_map.1 hb
  have hy := (List.mem_filter.1 hy).2
  rw [he, (lookup_iff h1).2 (show (x.1, x.2) ∈ fs from hx)] at hy
  cases hy

theorem name_of_entry {c : Cls} {fs ex set} {U : Uni} {limit : Option Nat} (hv : Valid U limit (.inst c fs ex set) (.model c))
    {e : Str × V} (he : e ∈ fs) : ∃ f ∈ (classDef c).fields, e = (f.name, e.2) := by
  have : e.1 ∈ fs.map (·.1) := List.mem_map.2 ⟨e, he, rfl⟩
  rw [valid_names hv] at this
  obtain ⟨f, hf, hn⟩ := List.mem_map.1 this
  exact ⟨f, hf, by rw [hn]⟩

theorem sound_keeps (E : Env) : Keeps E (Sound E.U E.digits) (fun v _ => Sound E.U E.digits v) where
  scalar v t h := by cases v <;> first | (cases h; done) | constructor
  same _ h := h
  item l h := by cases h with | list h => exact h
  entry d h := by cases h with | dict _ h => exact h
  nothing := .dict (by simp) (by simp)
  field c fs ex set h := by cases h with | inst _ h _ _ => exact h
  merged c fs ex set h := by
    cases h with
    | inst hv h1 h2 h3 =>
      refine .dict (update_keys_nodup (by rw [valid_names hv]; exact names_nodup c) h2) fun e he => ?_
      rcases mem_update he with ⟨y, hy, e'⟩ | ⟨y, hy, e'⟩
      · rw [← e']; exact h1 y hy
      · rw [← e']; exact h3 y hy
  list l t h := .list h
  dict d r t hP hk h := by cases hP with | dict hn _ => exact .dict (by rw [hk]; exact hn) h
  union _ _ _ _ _ _ _ _ h := h
  inst c fs ex set d hv hf hP hs := by
    cases hP with
    | dict hn hd =>
      refine .inst hv (fun e he => ?_) (List.Sublist.nodup (List.Sublist.map _ hs) hn) fun e he => hd e (hs.subset he)
      obtain ⟨f, hff, hn⟩ := name_of_entry hv he
      exact hf f hff e.2 (by rw [← hn]; exact he)

theorem sound_extras {U : Uni} {limit : Option Nat} (c : Cls) (fs ex : List (Str × V)) (set : List Str)
    (h : Sound U limit (.inst c fs ex set)) : ∀ e ∈ ex, Sound U limit e.2 := by
  cases h with | inst _ _ _ h => exact h

theorem data_keeps (E : Env) : Keeps E Data Clean where
  scalar v t h := .data (by cases v <;> first | (cases h; done) | constructor)
  same _ h := .data h
  item l h := by cases h with | list h => exact h
  entry d h := by cases h with | dict h => exact h
  nothing := .dict (by simp)
  field c fs ex set h := by cases h
  merged c fs ex set h := by cases h
  list l t h := .list h
  dict d r t hP hk h := .dict h
  union _ _ _ _ _ h _ _ hq := .union h hq
  inst c fs ex set d hv hf hP hs := by
    cases hP with
    | dict hd => exact .model (fun f hff v hv => hf f hff v hv) fun e he => hd e (hs.subset he)

theorem data_extras (c : Cls) (fs ex : List (Str × V)) (set : List Str) (h : Data (.inst c fs ex set)) :
    ∀ e ∈ ex, Data e.2 := by cases h

/-- Validation of a sound value gives a sound value. -/
theorem parse_sound (E : Env) {x : V} (h : Sound E.U E.digits x) {t : Ty Cls} (ht : docFree t = true) {v : V} {sc : Score}
    (hp : parse E x t = some (v, sc)) : Sound E.U E.digits v :=
  parse_kept (sound_keeps E) sound_extras x h t v sc ht hp

/-! ### Results are settled -/

/-- The plain dict a Kafka message key became is the one that was given. -/
theorem key_same {x : V} {d : List (Str × V)} {sc : Score} {t : Ty Cls}
    (ht : t ∈ [Ty.model Cls.Schema, .model .Reference, .dict .any, .none])
    (h : parse E x t = some (.dict d, sc)) : x = .dict d := by
  simp only [List.mem_cons, List.not_mem_nil, or_false] at ht
  rcases ht with rfl | rfl | rfl | rfl
  · have := parse_valid x (.model .Schema) _ _ (.inr rfl) h
    cases this
  · have := parse_valid x (.model .Reference) _ _ (.inr rfl) h
    cases this
  · cases x with
    | dict d' =>
      obtain ⟨e, _, h'⟩ := dict_any_parse E d'
      rw [h'] at h; cases h; rfl
    | _ => cases h
  · have := parse_valid x .none _ _ (.inr rfl) h
    cases this

theorem settled_keeps (E : Env) (hd : E.digits ≠ some 0) : Keeps E (fun _ => True) (fun v t => Valid E.U E.digits v t →
    docFree t = true → stableTy t = true ∨ t = keyTy → Unshadowed v → Kept E v t) where
  scalar v t h hv h1 h2 hu := valid_kept hd hv h1 (h2.imp_right fun e => ⟨e, fun d hd => by subst hd; cases h⟩) hu
    (by cases v <;> first | (cases h; done) | constructor)
  same v _ _ _ _ _ := ⟨⟨1, none⟩, by rw [parse_eq_shape]; rfl⟩
  item _ _ _ _ := trivial
  entry _ _ _ _ := trivial
  nothing := trivial
  field _ _ _ _ _ _ _ := trivial
  merged _ _ _ _ _ := trivial
  list l t h hv h1 h2 hu := by
    have h2 : stableTy t = true := h2.resolve_right fun h => by cases h
    cases hv with | list hv =>
    cases hu with | list hu =>
    obtain ⟨sc, hi⟩ := kept_items (E := E) (t := t) fun v hm => h v hm (hv v hm) h1 (.inl h2) (hu v hm)
    refine ⟨sc, ?_⟩
    rw [parse_eq_shape]
    simp only [parseAs, shapeOf, hi, Option.map_some]
  dict d r t _ _ h hv h1 h2 hu := by
    have h2 : stableTy t = true := h2.resolve_right fun h => by cases h
    cases hv with | dict hv =>
    cases hu with | dict hu =>
    exact kept_dict fun e he => h e he (hv e he) h1 (.inl h2) (hu e he)
  union x v sc t ts ht h0 h1 hq hv hf hs hu := by
    have hft : docFree t = true := docFreeAll_mem hf ht
    have hvt := parse_valid x t v sc (.inr hft) h1
    rcases hs with hs | hs
    · simp only [stableTy, Bool.and_eq_true, Bool.or_eq_true] at hs
      exact kept_union ht (.inl hs.1) hvt (hq hvt hft (.inl (stableAll_mem hs.2 ht)) hu)
    · have hts := hs
      rw [keyTy, Ty.union.injEq] at hts
      subst hts
      refine kept_union ht (.inr ⟨rfl, ?_⟩) hvt (hq hvt hft (.inl ?_) hu)
      · rintro d rfl
        have := key_same ht h1
        subst this
        exact ⟨sc, h0⟩
      · simp only [List.mem_cons, List.not_mem_nil, or_false] at ht
        rcases ht with rfl | rfl | rfl | rfl <;> rfl
  inst c fs ex set d hv hf _ _ hv' h1 _ hu := by
    have hc : c ≠ .AsyncAPI3 := by rintro rfl; cases h1
    cases hv with | model hfs hvf hcon =>
    cases hu with | inst hns hu =>
    obtain ⟨sc, h⟩ := model_kept hd hfs (fun f hff => hf f hff _ (lookup_mem_attr (ex := ex) (set := set) hfs hff)
      (hvf f hff) (field_docFree hff) ((field_stable hff).imp_right fun h => h.2.2)
      (hu _ (lookup_mem_attr (ex := ex) (set := set) hfs hff))) hcon (by
        by_cases hk : (classDef c).kind = .openExtra
        · exact hns hk
        · exact notShadowed_of_valid hk (.model hfs hvf hcon))
    rw [after_of_checks hc (checks_of_consistent hd hfs hcon).1] at h
    exact ⟨sc, h⟩

/-- What validation gives is accepted as it is. -/
theorem parse_settled (hd : E.digits ≠ some 0) {x v : V} {sc : Score} {t : Ty Cls} (ht : docFree t = true)
    (hs : stableTy t = true ∨ t = keyTy) (h : parse E x t = some (v, sc)) (hu : Unshadowed v) : Kept E v t :=
  parse_kept (settled_keeps E hd) (fun _ _ _ _ _ _ _ => trivial) x trivial t v sc ht h
    (parse_valid x t v sc (.inr ht) h) ht hs hu

theorem Keeps.and {P' : V → Prop} {Q' : V → Ty Cls → Prop} (K : Keeps E P Q) (K' : Keeps E P' Q') :
    Keeps E (fun v => P v ∧ P' v) (fun v t => Q v t ∧ Q' v t) where
  scalar v t h := ⟨K.scalar v t h, K'.scalar v t h⟩
  same v h := ⟨K.same v h.1, K'.same v h.2⟩
  item l h v hv := ⟨K.item l h.1 v hv, K'.item l h.2 v hv⟩
  entry l h v hv := ⟨K.entry l h.1 v hv, K'.entry l h.2 v hv⟩
  nothing := ⟨K.nothing, K'.nothing⟩
  field c fs ex set h v hv := ⟨K.field c fs ex set h.1 v hv, K'.field c fs ex set h.2 v hv⟩
  merged c fs ex set h := ⟨K.merged c fs ex set h.1, K'.merged c fs ex set h.2⟩
  list l t h := ⟨K.list l t fun v hv => (h v hv).1, K'.list l t fun v hv => (h v hv).2⟩
  dict d r t hP hk h := ⟨K.dict d r t hP.1 hk fun v hv => (h v hv).1, K'.dict d r t hP.2 hk fun v hv => (h v hv).2⟩
  union x v sc t ts ht h0 h1 h := ⟨K.union x v sc t ts ht h0 h1 h.1, K'.union x v sc t ts ht h0 h1 h.2⟩
  inst c fs ex set d hv hf hP hs := ⟨K.inst c fs ex set d hv (fun f hff v hv => (hf f hff v hv).1) hP.1 hs,
    K'.inst c fs ex set d hv (fun f hff v hv => (hf f hff v hv).2) hP.2 hs⟩

/-- A document before its processors run. -/
theorem document_kept (K : Keeps E P Q) (hex : ∀ c fs ex set, P (.inst c fs ex set) → ∀ e ∈ ex, P e.2) {x : V} (h : P x)
    {v : V} {sc : Score} (hp : parse E x (.model .AsyncAPI3) = some (v, sc)) :
    ∃ j, Valid E.U E.digits j (.model .AsyncAPI3) ∧ Q j (.model .AsyncAPI3) ∧ (runProcessors E j).2 = some v := by
  have hk : (classDef Cls.AsyncAPI3).kind ≠ .patterned := by decide
  obtain ⟨j, hv, hs, ha⟩ := parseModel_instance K hk h (parts_kept K hex h) hp
  have hr : (runProcessors E j).2 = some v := by
    have : after E .AsyncAPI3 j = (runProcessors E j).2 := by unfold after; rw [after_checks ha]; rfl
    rw [← this]; exact ha
  exact ⟨j, hv, hs, hr⟩

end Verif.Pyd
