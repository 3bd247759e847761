import Verif.Props.Processors
import Verif.Spec.Valid
import Verif.Lemmas.Resolve
/-! Parsing gives valid values. -/
namespace Verif
open Verif.Gen

/-- Induction over values. -/
theorem V.ind {P : V → Prop} (list : ∀ l, (∀ v ∈ l, P v) → P (.list l))
    (dict : ∀ d, (∀ e ∈ d, P e.2) → P (.dict d))
    (inst : ∀ c fs ex set, (∀ e ∈ fs, P e.2) → (∀ e ∈ ex, P e.2) → P (.inst c fs ex set))
    (none : P .none) (bool : ∀ b, P (.bool b)) (int : ∀ i, P (.int i)) (float : ∀ x, P (.float x))
    (str : ∀ s, P (.str s)) (url : ∀ k s, P (.url k s)) (proc : ∀ n, P (.proc n)) : ∀ v, P v := by
  intro v
  refine V.rec (motive_1 := P) (motive_2 := fun l => ∀ v ∈ l, P v) (motive_3 := fun d => ∀ e ∈ d, P e.2)
    (motive_4 := fun e => P e.2) none bool int float str url proc list dict inst ?_ ?_ ?_ ?_ ?_ v
  · simp
  · intro v l h1 h2; simpa using ⟨h1, h2⟩
  · simp
  · intro e d h1 h2 e' he'
    rcases List.mem_cons.1 he' with rfl | he'
    · exact h1
    · exact h2 e' he'
  · intro k v h; exact h

namespace Pyd
open Verif.Spec Verif.Props

/-- Entries of an updated dict. -/
theorem update_entries (E : Env) (d e : List (Str × V)) : update (entries E d) (entries E e) = entries E (update d e) := by
  simp only [entries_map]
  unfold update
  rw [List.map_append, List.map_map, List.map_map]
  congr 1
  · apply List.map_congr_left
    intro x _
    simp only [Function.comp]
    have := lookup_entries E x.1 e
    rw [entries_map] at this
    rw [this]
    cases lookup x.1 e <;> rfl
  · induction e with
    | nil => rfl
    | cons x e ih =>
      have := lookup_entries E x.1 d
      rw [entries_map] at this
      simp only [List.map_cons, List.filter_cons, this, Option.isNone_map]
      split
      · simp only [List.map_cons]; congr 1
      · exact ih

theorem mem_update {β : Type} {d e : List (Str × β)} {x : Str × β} (h : x ∈ update d e) :
    (∃ y ∈ d, y.2 = x.2) ∨ (∃ y ∈ e, y.2 = x.2) := by
  unfold update at h
  rcases List.mem_append.1 h with h | h
  · rw [List.mem_map] at h
    obtain ⟨y, hy, rfl⟩ := h
    cases hl : lookup y.1 e with
    | none => exact .inl ⟨y, hy, rfl⟩
    | some v => exact .inr ⟨(y.1, v), lookup_some_mem hl, rfl⟩
  · exact .inr ⟨x, (List.mem_filter.1 h).1, rfl⟩

/-- Processors leave a valid document valid. -/
def Preserves (E : Env) : Prop := ∀ n doc doc', Valid E.U E.digits doc (.model .AsyncAPI3) →
  E.call n doc = some doc' → Valid E.U E.digits doc' (.model .AsyncAPI3)

mutual
/-- Does a type not mention the document class? -/
def docFree : Ty Cls → Bool
  | .model c => c != .AsyncAPI3
  | .list t => docFree t
  | .dict t => docFree t
  | .union ts => docFreeAll ts
  | _ => true
def docFreeAll : List (Ty Cls) → Bool
  | [] => true
  | t :: ts => docFree t && docFreeAll ts
end

theorem fields_docFree : Cls.all.all (fun c => (classDef c).fields.all fun f => docFree f.ty) = true := by
  decide +kernel

theorem field_docFree {c : Cls} {f : FieldDef Cls} (hf : f ∈ (classDef c).fields) : docFree f.ty = true :=
  List.all_eq_true.1 (List.all_eq_true.1 fields_docFree c (Cls.mem_all c)) f hf

theorem docFreeAll_mem {ts : List (Ty Cls)} (h : docFreeAll ts = true) {t : Ty Cls} (ht : t ∈ ts) : docFree t = true := by
  induction ts with
  | nil => cases ht
  | cons a ts ih =>
    rw [docFreeAll, Bool.and_eq_true] at h
    rcases List.mem_cons.1 ht with rfl | ht
    · exact h.1
    · exact ih h.2 ht

/-- Types that processors cannot spoil. -/
def Safe (E : Env) (t : Ty Cls) : Prop := Preserves E ∨ docFree t = true

/-- Everything parsing makes of `x` is valid. -/
def Good (E : Env) (x : V) : Prop := ∀ t v sc, Safe E t → parse E x t = some (v, sc) → Valid E.U E.digits v t

/-- Is the default of the declared type? (not for unions) -/
def dfltFits1 : Dflt → Ty Cls → Bool
  | .required, _ => true
  | .null, .none => true
  | .bool _, .bool => true
  | .str _, .str => true
  | .int _, .int => true
  | .str s, .lit vs => vs.contains (.s s)
  | .int i, .lit vs => vs.contains (.i i)
  | _, _ => false
/-- Is the default of the declared type? -/
def dfltFits (df : Dflt) : Ty Cls → Bool
  | .union ts => ts.any (dfltFits1 df)
  | t => dfltFits1 df t

theorem defaults_fit : Cls.all.all (fun c => (classDef c).fields.all fun f => dfltFits f.dflt f.ty) = true := by
  decide +kernel

theorem dfltFits1_valid {U : Uni} {limit : Option Nat} {df : Dflt} {t : Ty Cls} {v : V} (h : dfltFits1 df t = true)
    (hv : dfltValue df = some v) : Valid U limit v t := by
  cases df <;> simp only [dfltValue, Option.some.injEq, reduceCtorEq] at hv <;> subst hv <;> cases t <;>
    simp only [dfltFits1, Bool.false_eq_true, List.contains_iff_mem] at h
  all_goals first | exact .none | exact .bool | exact .str | exact .int | exact .litStr h | exact .litInt h

theorem default_valid {U : Uni} {limit : Option Nat} {c : Cls} {f : FieldDef Cls} (hf : f ∈ (classDef c).fields) {v : V}
    (hv : dfltValue f.dflt = some v) : Valid U limit v f.ty := by
  have := List.all_eq_true.1 (List.all_eq_true.1 defaults_fit c (Cls.mem_all c)) f hf
  unfold dfltFits at this
  split at this
  · rename_i ts hty
    rw [List.any_eq_true] at this
    obtain ⟨t, ht, h⟩ := this
    rw [hty]
    exact .union ht (dfltFits1_valid h hv)
  · exact dfltFits1_valid this hv

theorem mem_of_given {f : FieldDef Cls} {d : List (Str × V)} {k : Str} {x : V} (h : GivenAs f d k x) : (k, x) ∈ d :=
  lookup_some_mem h.1

theorem field_valid {E : Env} {c : Cls} {d : List (Str × V)} {f : FieldDef Cls} {v : V} (hf : f ∈ (classDef c).fields)
    (hd : ∀ e ∈ d, Good E e.2) (h : FieldOk (Accepts E) d f v) : Valid E.U E.digits v f.ty := by
  rcases h.1 with ⟨k, x, hk, sc, ha⟩ | ⟨_, hv⟩
  · exact hd _ (mem_of_given hk) _ _ _ (.inr (field_docFree hf)) ha
  · exact default_valid hf (hasDefault_iff.1 hv)

theorem callAll_valid {E : Env} (hc : Preserves E) {ps : List V} {doc doc' : V}
    (hd : Valid E.U E.digits doc (.model .AsyncAPI3)) (h : (callAll E ps doc).2 = some doc') :
    Valid E.U E.digits doc' (.model .AsyncAPI3) := by
  induction ps generalizing doc with
  | nil => cases h; exact hd
  | cons p ps ih =>
    cases p <;> first | cases h | skip
    rename_i n
    simp only [callAll] at h
    cases hn : E.call n doc with
    | none => rw [hn] at h; cases h
    | some d => rw [hn] at h; exact ih (hc _ _ _ hd hn) h

theorem runProcessors_valid {E : Env} (hc : Preserves E) {doc doc' : V}
    (hd : Valid E.U E.digits doc (.model .AsyncAPI3)) (h : (runProcessors E doc).2 = some doc') :
    Valid E.U E.digits doc' (.model .AsyncAPI3) := by
  unfold runProcessors at h
  cases hr : callAll E (processorsOf (doc.attr p!"extra_converters")) doc with
  | mk l o =>
    rw [hr] at h
    cases o with
    | none => cases h
    | some mid => exact callAll_valid hc (callAll_valid hc hd (by rw [hr])) h

theorem asyncapi_str {E : Env} {d : List (Str × V)} {f : FieldDef Cls} {v : V} (hf : f ∈ (classDef .AsyncAPI3).fields)
    (hn : f.name = p!"asyncapi") (h : FieldOk (Accepts E) d f v)
    (hc : (∃ k x, GivenAs f d k x) → fieldCheck E .AsyncAPI3 f.name v = true) :
    v = .str p!"3.0.0" ∨ ∃ s, v = .str s ∧ VersionOk E.U E.digits s := by
  have hfe : f = defAsyncAPI3.fields[0] := by
    change f ∈ defAsyncAPI3.fields at hf
    revert hn
    simp only [defAsyncAPI3, List.mem_cons, List.not_mem_nil, or_false] at hf
    rcases hf with rfl | rfl | rfl | rfl | rfl | rfl | rfl | rfl | rfl | rfl <;>
      first | (intro _; rfl) | (intro h; exact absurd h (by decide))
  subst hfe
  rcases h.1 with ⟨k, x, hk, ha⟩ | ⟨_, hv⟩
  · obtain ⟨s, hs⟩ := accepts_str ha
    have := hc ⟨k, x, hk⟩
    subst hs
    exact .inr ⟨s, rfl, (C23_exact E.U E.digits s).1 this⟩
  · exact .inl hv

/-- What is known of an instance built from a dict before the `after` validators. -/
theorem fields_of_allOk {E : Env} {c : Cls} {d : List (Str × V)} (hok : allOk E c d = true) :
    (∀ f ∈ (classDef c).fields, FieldOk (Accepts E) d f (valueOf E c d f) ∧
      ((∃ k x, GivenAs f d k x) → fieldCheck E c f.name (valueOf E c d f) = true)) ∧
    ((classDef c).kind = .nonExtendable → extrasOf c d = []) := by
  obtain ⟨h1, h2⟩ := (allOk_given _).1 ⟨hok, rfl⟩
  constructor
  · intro f hf
    have := h2 f hf
    rw [attr_fieldsOf hf] at this
    have h3 := fieldwise_field h1 hf
    rw [attr_fieldsOf hf] at h3
    exact ⟨h3, this⟩
  · obtain ⟨fs, _, _, h3, h4⟩ := h1
    rw [← extrasOf_eq] at h4
    exact h4

theorem asyncapi_field : ∃ f ∈ (classDef .AsyncAPI3).fields, f.name = p!"asyncapi" :=
  ⟨defAsyncAPI3.fields[0], by exact List.mem_of_getElem (i := 0) rfl, rfl⟩

/-- Before processors run, the new instance is valid. -/
theorem instance_valid {E : Env} {c : Cls} (hk : (classDef c).kind ≠ .patterned) {d : List (Str × V)}
    (hd : ∀ e ∈ d, Good E e.2) (set : List Str) (hok : allOk E c d = true)
    (hb : (baseCheck E c (.inst c (fieldsOf E c d) (extrasOf c d) set) &&
      modelCheck c (.inst c (fieldsOf E c d) (extrasOf c d) set)) = true) :
    Valid E.U E.digits (.inst c (fieldsOf E c d) (extrasOf c d) set) (.model c) := by
  obtain ⟨h1, h2⟩ := fields_of_allOk hok
  rw [Bool.and_eq_true] at hb
  refine .model (by simp [fieldsOf]) (fun f hf => ?_) ⟨(baseCheck_iff E c hk _).1 hb.1, ?_, ?_, ?_, ?_, ?_⟩
  · rw [attr_fieldsOf hf]; exact field_valid hf hd (h1 f hf).1
  · rintro (h | h)
    · exact h2 h
    · exact absurd h hk
  · intro h; exact absurd h hk
  · intro f hf; rw [attr_fieldsOf hf]; exact (h1 f hf).1.2
  · by_cases hc : c = .AsyncAPI3
    · subst hc; trivial
    · refine (rule_iff E c hc _).1 ⟨fun f hf => ?_, hb.2⟩
      rw [attr_fieldsOf hf]
      by_cases hg : ∃ k x, GivenAs f d k x
      · exact (h1 f hf).2 hg
      · rcases (h1 f hf).1.1 with ⟨k, x, hk, _⟩ | ⟨_, hv⟩
        · exact absurd ⟨k, x, hk⟩ hg
        · exact (default_check E c hc f hf _ (hasDefault_iff.1 hv)).1
  · rintro rfl
    obtain ⟨f, hf, hn⟩ := asyncapi_field
    rw [← hn, attr_fieldsOf hf]
    exact asyncapi_str hf hn (h1 f hf).1 (h1 f hf).2

theorem after_checks {E : Env} {c : Cls} {j i : V} (h : after E c j = some i) :
    (baseCheck E c j && modelCheck c j) = true := by
  unfold after at h
  split at h
  · assumption
  · cases h

theorem construct_valid {E : Env} {c : Cls} (hc : Safe E (.model c)) (hk : (classDef c).kind ≠ .patterned)
    {d : List (Str × V)} (hd : ∀ e ∈ d, Good E e.2) {set? : Option (List Str)} {floor : Nat} {i : V} {sc : Score}
    (h : construct E c (entries E d) set? floor = some (i, sc)) : Valid E.U E.digits i (.model c) := by
  rw [construct_eq] at h
  split at h
  · rename_i hok
    rw [Option.map_eq_some_iff] at h
    obtain ⟨i', h, he⟩ := h
    cases he
    have hb := after_checks h
    have hv := instance_valid hk hd _ hok hb
    generalize V.inst c (fieldsOf E c d) (extrasOf c d) _ = j at h hv hb
    by_cases he : c = .AsyncAPI3
    · subst he
      have : after E .AsyncAPI3 j = (runProcessors E j).2 := by
        unfold after; rw [hb]; rfl
      rw [this] at h
      exact runProcessors_valid (hc.resolve_right (by decide)) hv h
    · have : after E c j = some j := by
        have hafter : after E c j = if baseCheck E c j && modelCheck c j then some j else none := by
          cases c <;> first | rfl | exact absurd rfl he
        rw [hafter, hb]; rfl
      rw [this] at h
      cases h; exact hv
  · cases h

/-- A patterned class has the field `root`, a dict, without validators. -/
theorem patterned_root (c : Cls) (hk : (classDef c).kind = .patterned) :
    ∃ t, (classDef c).fields = [⟨p!"root", none, .dict t, .required, false, false, none⟩] := by
  cases c <;> first | (cases hk; done) | exact ⟨_, rfl⟩

theorem constructRoot_valid {E : Env} {c : Cls} {t : Ty Cls} (hk : (classDef c).kind = .patterned)
    (hf : (classDef c).fields = [⟨p!"root", none, .dict t, .required, false, false, none⟩]) {r : Res}
    (hr : ∀ v sc, r = some (v, sc) → Valid E.U E.digits v (.dict t)) {set? : Option (List Str)} {floor : Nat}
    {i : V} {sc : Score} (h : constructRoot E c r set? floor = some (i, sc)) : Valid E.U E.digits i (.model c) := by
  have hne : c ≠ .AsyncAPI3 := by rintro rfl; cases hk
  unfold constructRoot at h
  cases r with
  | none => cases h
  | some vs =>
    obtain ⟨v, s⟩ := vs
    simp only at h
    have hv := hr v s rfl
    have hafter : ∀ j, after E c j = if baseCheck E c j && modelCheck c j then some j else none := by
      intro j; cases c <;> first | rfl | exact absurd rfl hne
    rw [hafter] at h
    split at h
    · cases h
    · rename_i j hj
      split at hj
      · rename_i hb
        simp only [Option.some.injEq, Prod.mk.injEq] at h hj
        rw [Bool.and_eq_true] at hb
        rw [← h.1, ← hj]
        generalize set?.getD [p!"root"] = set at *
        refine .model (by rw [hf]; rfl) (fun f hff => ?_) ⟨?_, fun _ => rfl, ?_, ?_, ?_, fun e => absurd e hne⟩
        · rw [hf] at hff
          simp only [List.mem_singleton] at hff
          subst hff; exact hv
        · intro h'; rw [hk] at h'; cases h'
        · intro _ d hd e he
          have : v = .dict d := hd
          subst this
          have hb1 := hb.1
          unfold baseCheck at hb1
          rw [hk] at hb1
          change Patterns.patternedKeys (d.map (·.1)) = true at hb1
          have := (C20_keys_exact (d.map (·.1))).1 hb1
          exact this e.1 (List.mem_map.2 ⟨e, he, rfl⟩)
        · intro f hff
          rw [hf] at hff
          simp only [List.mem_singleton] at hff
          subst hff
          intro m s hm; cases hm
        · have : ∀ i, Rule c i := by
            intro i; cases c <;> first | trivial | (cases hk; done)
          exact this _
      · cases hj

theorem parseEntries_valid {E : Env} {d : List (Str × V)} (hd : ∀ e ∈ d, Good E e.2) {t : Ty Cls} (hs : Safe E t)
    {r : List (Str × V) × Score} (h : parseEntries t (entries E d) = some r) :
    ∀ e ∈ r.1, Valid E.U E.digits e.2 t := by
  induction d generalizing r with
  | nil => cases h; simp
  | cons x d ih =>
    obtain ⟨k, x⟩ := x
    simp only [entries, parseEntries] at h
    cases hx : parse E x t with
    | none => rw [hx] at h; cases h
    | some vs =>
      obtain ⟨v, sc⟩ := vs
      rw [hx] at h
      cases hr : parseEntries t (entries E d) with
      | none => rw [hr] at h; cases h
      | some r' =>
        obtain ⟨r', sc'⟩ := r'
        rw [hr] at h
        simp only [Option.some.injEq] at h
        subst h
        intro e he
        rcases List.mem_cons.1 he with rfl | he
        · exact hd (k, x) List.mem_cons_self _ _ _ hs hx
        · exact ih (fun e he => hd e (by simp [he])) hr e he

theorem parseItems_valid {E : Env} {l : List V} (hl : ∀ v ∈ l, Good E v) {t : Ty Cls} (hs : Safe E t)
    {r : List V × Score} (h : parseItems t (parsers E l) = some r) :
    ∀ v ∈ r.1, Valid E.U E.digits v t := by
  induction l generalizing r with
  | nil => cases h; simp
  | cons x l ih =>
    simp only [parsers, parseItems] at h
    cases hx : parse E x t with
    | none => rw [hx] at h; cases h
    | some vs =>
      obtain ⟨v, sc⟩ := vs
      rw [hx] at h
      cases hr : parseItems t (parsers E l) with
      | none => rw [hr] at h; cases h
      | some r' =>
        obtain ⟨r', sc'⟩ := r'
        rw [hr] at h
        simp only [Option.some.injEq] at h
        subst h
        intro e he
        rcases List.mem_cons.1 he with rfl | he
        · exact hl x List.mem_cons_self _ _ _ hs hx
        · exact ih (fun e he => hl e (by simp [he])) hr e he

theorem parseDict_valid {E : Env} {d : List (Str × V)} (hd : ∀ e ∈ d, Good E e.2) {t : Ty Cls} (hs : Safe E t) {v : V} {sc : Score}
    (h : parseDict t (.dict (entries E d)) = some (v, sc)) : Valid E.U E.digits v (.dict t) := by
  simp only [parseDict, Option.map_eq_some_iff, Prod.mk.injEq] at h
  obtain ⟨r, hr, rfl, _⟩ := h
  exact .dict (parseEntries_valid hd hs hr)

/-- The shape of a value. -/
def shapeOf (E : Env) : V → Shape
  | .list l => .list (parsers E l)
  | .dict d => .dict (entries E d)
  | .inst c fs ex set => .inst c (entries E fs) (entries E ex) set
  | _ => .scalar

theorem parse_eq_shape (E : Env) (x : V) (t : Ty Cls) : parse E x t = parseAs E x (shapeOf E x) t := by
  cases x <;> rfl

theorem parse_union (E : Env) (x : V) (ts : List (Ty Cls)) : parse E x (.union ts) =
    if x.isNone && hasNone ts then some (.none, .exactly) else pick E none (ts.map (parse E x)) := by
  rw [parse_eq_shape]
  simp only [parseAs]
  congr 2
  induction ts with
  | nil => rfl
  | cons t ts ih => rw [parseEach, ih, List.map_cons, parse_eq_shape]

theorem pick_mem {E : Env} {rs : List Res} {cur : Res} {r : V × Score} (h : pick E cur rs = some r) :
    cur = some r ∨ some r ∈ rs := by
  induction rs generalizing cur with
  | nil => exact .inl h
  | cons o rs ih =>
    cases o with
    | none =>
      rcases ih h with h | h
      · exact .inl h
      · exact .inr (by simp [h])
    | some n =>
      cases cur with
      | none =>
        rcases ih h with h | h
        · exact .inr (by simp [h])
        · exact .inr (by simp [h])
      | some c =>
        rcases ih h with h | h
        · split at h
          · exact .inr (by simp [h])
          · exact .inl h
        · exact .inr (by simp [h])

theorem hasNone_mem {ts : List (Ty Cls)} (h : hasNone ts = true) : Ty.none ∈ ts := by
  induction ts with
  | nil => cases h
  | cons t ts ih => cases t <;> first | exact List.mem_cons_self | exact List.mem_cons_of_mem _ (ih h)

/-- Parts of a value. -/
def PartsGood (E : Env) : V → Prop
  | .list l => ∀ v ∈ l, Good E v
  | .dict d => ∀ e ∈ d, Good E e.2
  | .inst _ fs ex _ => (∀ e ∈ fs, Good E e.2) ∧ ∀ e ∈ ex, Good E e.2
  | _ => True

theorem parseModel_valid {E : Env} {c : Cls} (hc : Safe E (.model c)) {x : V} (hx : PartsGood E x) {v : V} {sc : Score}
    (h : parse E x (.model c) = some (v, sc)) : Valid E.U E.digits v (.model c) := by
  rw [parse_eq_shape] at h
  simp only [parseAs] at h
  by_cases hk : (classDef c).kind = .patterned
  · obtain ⟨t, hf⟩ := patterned_root c hk
    have hs : Safe E (.dict t) := .inr (field_docFree (c := c) (by rw [hf]; exact List.mem_cons_self))
    cases x <;> simp only [shapeOf, parseModel, reduceCtorEq] at h
    · rename_i d
      rw [hk, hf] at h
      exact constructRoot_valid hk hf (fun v sc hv => parseDict_valid (t := t) hx hs hv) h
    · rename_i c' fs ex set
      split at h
      · rename_i hcc
        subst hcc
        rw [hk, hf] at h
        simp only at h
        rw [lookup_entries] at h
        cases hl : lookup p!"root" fs with
        | none => rw [hl] at h; cases h
        | some w =>
          rw [hl] at h
          exact constructRoot_valid hk hf
            (fun v sc hv => hx.1 (p!"root", w) (lookup_some_mem hl) _ _ _ hs hv) h
      · cases h
  · cases x <;> simp only [shapeOf, parseModel, reduceCtorEq] at h
    · rename_i d
      have h' : construct E c (entries E d) none E.built = some (v, sc) := by
        revert h
        generalize (classDef c).kind = k at hk
        cases k <;> first | exact absurd rfl hk | exact id
      exact construct_valid hc hk hx h'
    · rename_i c' fs ex set
      split at h
      · rename_i hcc
        subst hcc
        have h' : construct E c' (update (entries E fs) (entries E ex)) (some set) 2 = some (v, sc) := by
          revert h
          generalize (classDef c').kind = k at hk
          cases k <;> first | exact absurd rfl hk | exact id
        rw [update_entries] at h'
        refine construct_valid hc hk (fun e he => ?_) h'
        rcases mem_update he with ⟨y, hy, e'⟩ | ⟨y, hy, e'⟩
        · rw [← e']; exact hx.1 y hy
        · rw [← e']; exact hx.2 y hy
      · cases h

mutual
theorem parse_valid_parts {E : Env} {x : V} (hx : PartsGood E x) : ∀ (t : Ty Cls) (v : V) (sc : Score),
    Safe E t → parse E x t = some (v, sc) → Valid E.U E.digits v t
  | .any, v, sc, hc, h => .any
  | .none, v, sc, hc, h => by
    rw [parse_eq_shape] at h
    simp only [parseAs] at h
    split at h <;> cases h
    exact .none
  | .str, v, sc, hc, h => by cases x <;> first | (cases h; exact .str) | cases h
  | .int, v, sc, hc, h => by
    rw [parse_eq_shape] at h
    simp only [parseAs] at h
    cases x <;> simp only [parseInt, reduceCtorEq, Option.map_eq_some_iff, Option.some.injEq, Prod.mk.injEq] at h
    · rw [← h.1]; exact .int
    · rw [← h.1]; exact .int
    · obtain ⟨_, _, rfl, _⟩ := h; exact .int
    · obtain ⟨_, _, rfl, _⟩ := h; exact .int
  | .bool, v, sc, hc, h => by
    rw [parse_eq_shape] at h
    simp only [parseAs] at h
    cases x <;> simp only [parseBool, reduceCtorEq, Option.map_eq_some_iff, Option.some.injEq, Prod.mk.injEq] at h
    · rw [← h.1]; exact .bool
    · split at h
      · cases h; exact .bool
      · split at h <;> cases h; exact .bool
    · obtain ⟨_, _, rfl, _⟩ := h; exact .bool
    · obtain ⟨_, _, rfl, _⟩ := h; exact .bool
  | .anyUrl, v, sc, hc, h => by
    rw [parse_eq_shape] at h
    simp only [parseAs] at h
    cases x <;> simp only [parseUrl, reduceCtorEq, Option.map_eq_some_iff, Prod.mk.injEq, true_or, if_true,
      Option.some.injEq] at h
    · obtain ⟨_, _, rfl, _⟩ := h; exact .anyUrl
    · rw [← h.1]; exact .anyUrl
  | .httpUrl, v, sc, hc, h => by
    rw [parse_eq_shape] at h
    simp only [parseAs] at h
    cases x <;> simp only [parseUrl, reduceCtorEq, Option.map_eq_some_iff, Prod.mk.injEq, false_or] at h
    · obtain ⟨_, _, rfl, _⟩ := h; exact .httpUrl
    · split at h
      · rename_i hk; subst hk; cases h; exact .httpUrl
      · rw [Option.map_eq_some_iff] at h
        obtain ⟨_, _, h⟩ := h; cases h; exact .httpUrl
  | .email, v, sc, hc, h => by
    rw [parse_eq_shape] at h
    simp only [parseAs] at h
    cases x <;> simp only [parseEmail, reduceCtorEq] at h
    split at h <;> cases h
    rename_i hm
    exact .email ((C22_exact _).1 hm)
  | .processors, v, sc, hc, h => by cases x <;> first | (cases h; exact .processors) | cases h
  | .lit vs, v, sc, hc, h => by
    rcases accepts_lit (E := E) (x := x) ⟨sc, h⟩ with ⟨s, rfl, hs⟩ | ⟨n, rfl, hn⟩
    · exact .litStr hs
    · exact .litInt hn
  | .list t, v, sc, hc, h => by
    rw [parse_eq_shape] at h
    simp only [parseAs] at h
    cases x <;> simp only [shapeOf, reduceCtorEq, Option.map_eq_some_iff, Prod.mk.injEq] at h
    obtain ⟨r, hr, rfl, _⟩ := h
    exact .list (parseItems_valid (t := t) hx hc hr)
  | .dict t, v, sc, hc, h => by
    rw [parse_eq_shape] at h
    simp only [parseAs] at h
    cases x <;> first | cases h | exact parseDict_valid (t := t) hx hc h
  | .model c, v, sc, hc, h => parseModel_valid hc hx h
  | .union ts, v, sc, hc, h => by
    rw [parse_union] at h
    split at h
    · rename_i hn
      rw [Bool.and_eq_true] at hn
      cases h
      exact .union (hasNone_mem hn.2) .none
    · rcases pick_mem h with h | h
      · cases h
      · obtain ⟨t, ht, hv⟩ := parse_valid_each hx ts v sc hc h
        exact .union ht hv
theorem parse_valid_each {E : Env} {x : V} (hx : PartsGood E x) : ∀ (ts : List (Ty Cls)) (v : V) (sc : Score),
    Safe E (.union ts) → some (v, sc) ∈ ts.map (parse E x) → ∃ t ∈ ts, Valid E.U E.digits v t
  | [], v, sc, _, h => by simp at h
  | t :: ts, v, sc, hc, h => by
    rw [List.map_cons, List.mem_cons] at h
    rcases h with h | h
    · exact ⟨t, by simp, parse_valid_parts hx t v sc (hc.imp_right fun h => docFreeAll_mem h List.mem_cons_self) h.symm⟩
    · obtain ⟨t', ht, hv⟩ := parse_valid_each hx ts v sc (hc.imp_right fun h => (Bool.and_eq_true _ _ ▸ h : _ ∧ _).2) h
      exact ⟨t', by simp [ht], hv⟩
end

theorem parse_valid {E : Env} : ∀ x, Good E x := by
  apply V.ind
  · intro l h; exact parse_valid_parts (x := .list l) h
  · intro d h; exact parse_valid_parts (x := .dict d) h
  · intro c fs ex set h1 h2; exact parse_valid_parts (x := .inst c fs ex set) ⟨h1, h2⟩
  all_goals intros; exact parse_valid_parts trivial

end Pyd
end Verif
