import Verif.Model.Sharing
import Verif.Spec.Sharing
import Verif.Lemmas.Errors
import Verif.Lemmas.Assign
import Verif.Lemmas.RoundTrip
/-! Validation of objects with an identity, against validation of values; which objects are new. -/
namespace Verif.Sharing
open Verif Verif.Gen Verif.Spec Verif.Pyd Verif.Props

theorem obVals_eq (l : List Ob) : obVals l = l.map Ob.val := by
  induction l with
  | nil => rfl
  | cons x l ih => simp [obVals, ih]

theorem obEntries_eq (d : List (Str × Ob)) : obEntries d = d.map fun e => (e.1, e.2.val) := by
  induction d with
  | nil => rfl
  | cons x l ih => obtain ⟨k, x⟩ := x; simp [obEntries, ih]

theorem newItems_eq (l : List V) : newItems l = l.map Ob.new := by
  induction l with
  | nil => rfl
  | cons x l ih => simp [newItems, ih]

theorem newEntries_eq (d : List (Str × V)) : newEntries d = d.map fun e => (e.1, Ob.new e.2) := by
  induction d with
  | nil => rfl
  | cons x l ih => obtain ⟨k, x⟩ := x; simp [newEntries, ih]

theorem val_new (v : V) : (Ob.new v).val = v := by
  induction v using V.ind with
  | list l ih =>
    simp only [Ob.new, Ob.val, obVals_eq, newItems_eq, List.map_map]
    congr 1
    exact (List.map_congr_left (fun x hx => ih x hx)).trans (List.map_id _)
  | dict d ih =>
    simp only [Ob.new, Ob.val, obEntries_eq, newEntries_eq, List.map_map]
    congr 1
    refine (List.map_congr_left (g := id) fun x hx => ?_).trans (List.map_id _)
    simp [ih x hx]
  | inst c fs ex set ih ih' =>
    simp only [Ob.new, Ob.val, obEntries_eq, newEntries_eq, List.map_map]
    congr 1
    · refine (List.map_congr_left (g := id) fun x hx => ?_).trans (List.map_id _)
      simp [ih x hx]
    · refine (List.map_congr_left (g := id) fun x hx => ?_).trans (List.map_id _)
      simp [ih' x hx]
  | _ => rfl

theorem isNone_val (x : Ob) : x.val.isNone = x.isNone := by cases x <;> rfl

/-- Forget the identities. -/
def blank (r : Got) : Res := r.map fun r => (r.1.val, r.2)

/-- Forget the identities. -/
def bare (d : List (Str × Ob × Reader)) : List (Str × V × Parser) := d.map fun e => (e.1, e.2.1.val, fun t => blank (e.2.2 t))

/-- Forget the identities. -/
def Form.shape : Form → Shape
  | .scalar => .scalar
  | .list l => .list (l.map fun p t => blank (p t))
  | .dict d => .dict (bare d)
  | .inst c fs ex set => .inst c (bare fs) (bare ex) set

theorem blank_scalar (r : Res) : blank (scalar r) = r := by
  cases r with
  | none => rfl
  | some r => simp [blank, scalar, val_new]

theorem bare_lookup (k : Str) (d : List (Str × Ob × Reader)) :
    lookup k (bare d) = (lookup k d).map fun e => (e.1.val, fun t => blank (e.2 t)) := by
  unfold bare
  exact lookup_map (fun e : Ob × Reader => (e.1.val, fun t => blank (e.2 t))) k d

theorem bare_findKey (f : FieldDef Cls) (d : List (Str × Ob × Reader)) :
    findKey f (bare d) = (findKey f d).map fun e => (e.1, e.2.1.val, fun t => blank (e.2.2 t)) := by
  unfold findKey
  cases ha : f.alias with
  | none => simp only [bare_lookup]; cases lookup f.name d <;> rfl
  | some a =>
    simp only [bare_lookup]
    cases lookup a d with
    | some x => rfl
    | none => simp only [Option.map_none]; cases lookup f.name d <;> rfl

theorem bare_update (d e : List (Str × Ob × Reader)) : bare (update d e) = update (bare d) (bare e) := by
  unfold update bare
  simp only [List.map_append, List.map_map]
  congr 1
  · apply List.map_congr_left
    intro x _
    have h := bare_lookup x.1 e
    unfold bare at h
    simp only [Function.comp, h]
    cases lookup x.1 e <;> rfl
  · rw [List.filter_map]
    congr 1
    apply List.filter_congr
    intro x _
    have h := bare_lookup x.1 d
    unfold bare at h
    simp only [Function.comp, h]
    cases lookup x.1 d <;> rfl

theorem bare_leftOver (used : List Str) (d : List (Str × Ob × Reader)) :
    unused used (bare d) = (leftOver used d).map fun e => (e.1, e.2.val) := by
  unfold unused leftOver bare
  rw [List.filter_map, List.map_map, List.map_map]
  rfl

/-- Forget the identities. -/
def GotFields.strip (r : GotFields) : FieldsRes := ⟨obEntries r.fields, r.set, r.used, r.score⟩

theorem readFields_bare (E : Env) (c : Cls) (d : List (Str × Ob × Reader)) (L : List (FieldDef Cls)) :
    parseFields E c (bare d) L = (readFields E c d L).map GotFields.strip := by
  induction L with
  | nil => rfl
  | cons f rest ih =>
    simp only [parseFields, readFields, bare_findKey, ih]
    cases hk : findKey f d with
    | none =>
      simp only [Option.map_none]
      cases dfltValue f.dflt with
      | none => rfl
      | some v =>
        simp only
        cases readFields E c d rest with
        | none => rfl
        | some r => simp [GotFields.strip, obEntries, val_new]
    | some e =>
      obtain ⟨k, x, p⟩ := e
      simp only [Option.map_some]
      cases hp : p f.ty with
      | none => rfl
      | some r =>
        obtain ⟨v, sc⟩ := r
        simp only [blank, Option.map_some]
        by_cases hc : (lengthOk f.maxLen v.val && fieldCheck E c f.name v.val) = true
        · simp only [hc, if_true]; cases readFields E c d rest <;> rfl
        · simp only [hc, Bool.false_eq_true, if_false]; rfl

theorem build_bare {E : Env} (hc : OnlyChecks E.call) (c : Cls) (d : List (Str × Ob × Reader)) (set? : Option (List Str))
    (floor : Nat) : construct E c (bare d) set? floor = blank (build E c d set? floor) := by
  unfold construct build
  rw [readFields_bare]
  cases readFields E c d (classDef c).fields with
  | none => rfl
  | some r =>
    simp only [Option.map_some, GotFields.strip, bare_leftOver]
    by_cases hn : (classDef c).kind = .nonExtendable ∧ leftOver r.used d ≠ []
    · rw [if_pos hn, if_pos (by simpa using hn)]; rfl
    · rw [if_neg hn, if_neg (by simpa using hn)]
      simp only [Ob.val, obEntries_eq, List.map_map, Function.comp_def]
      cases h : after E c _ with
      | none => rfl
      | some j =>
        simp only [blank, Option.map_some, Ob.val, obEntries_eq]
        rw [Props.after_same hc h]

theorem buildRoot_bare {E : Env} (hc : OnlyChecks E.call) (c : Cls) (r : Got) (set? : Option (List Str)) (floor : Nat) :
    constructRoot E c (blank r) set? floor = blank (buildRoot E c r set? floor) := by
  cases r with
  | none => rfl
  | some r =>
    obtain ⟨v, sc⟩ := r
    simp only [buildRoot, constructRoot, blank, Option.map_some, Ob.val, obEntries]
    cases h : after E c _ with
    | none => rfl
    | some j =>
      simp only [Option.map_some, Ob.val, obEntries]
      rw [Props.after_same hc h]

theorem readEntries_bare (t : Ty Cls) (d : List (Str × Ob × Reader)) :
    parseEntries t (bare d) = (readEntries t d).map fun r => (obEntries r.1, r.2) := by
  induction d with
  | nil => rfl
  | cons e d ih =>
    obtain ⟨k, x, p⟩ := e
    simp only [bare, List.map_cons] at ih ⊢
    simp only [readEntries, parseEntries, ih]
    cases p t with
    | none => rfl
    | some r => obtain ⟨v, sc⟩ := r; simp only [blank, Option.map_some]; cases readEntries t d <;> rfl

theorem readItems_bare (t : Ty Cls) (l : List Reader) :
    parseItems t (l.map fun p t => blank (p t)) = (readItems t l).map fun r => (obVals r.1, r.2) := by
  induction l with
  | nil => rfl
  | cons p l ih =>
    simp only [List.map_cons, readItems, parseItems, ih]
    cases p t with
    | none => rfl
    | some r => obtain ⟨v, sc⟩ := r; simp only [blank, Option.map_some]; cases readItems t l <;> rfl

theorem readDict_bare (t : Ty Cls) (s : Form) : parseDict t s.shape = blank (readDict t s) := by
  cases s with
  | dict d =>
    simp only [parseDict, readDict, Form.shape, readEntries_bare, blank]
    cases readEntries t d <;> rfl
  | _ => rfl

theorem readRootTy_bare (t : Ty Cls) (s : Form) : parseRootTy s.shape t = blank (readRootTy s t) := by
  cases t with
  | dict t => exact readDict_bare t s
  | _ => rfl

theorem readModel_bare {E : Env} (hc : OnlyChecks E.call) (c : Cls) (s : Form) :
    parseModel E c s.shape (parseRootTy s.shape) = blank (readModel E c s (readRootTy s)) := by
  have hroot := fun t => readRootTy_bare t s
  cases s with
  | scalar => rfl
  | list l => rfl
  | dict d =>
    simp only [readModel, parseModel, Form.shape] at hroot ⊢
    by_cases hk : (classDef c).kind = .patterned
    · rw [hk]
      rcases (classDef c).fields with _ | ⟨f, _ | ⟨g, l⟩⟩
      · rfl
      · simp only [hroot]
        exact buildRoot_bare hc _ _ _ _
      · rfl
    · cases hk' : (classDef c).kind with
      | patterned => exact absurd hk' hk
      | _ => exact build_bare hc c d _ _
  | inst c' fs ex set =>
    simp only [readModel, parseModel, Form.shape]
    by_cases hc' : c' = c
    · simp only [hc', if_true]
      by_cases hk : (classDef c).kind = .patterned
      · rw [hk]
        rcases (classDef c).fields with _ | ⟨f, _ | ⟨g, l⟩⟩
        · rfl
        · simp only [bare_lookup]
          cases hl : lookup f.name fs with
          | none => rfl
          | some e =>
            simp only [Option.map_some]
            exact buildRoot_bare hc _ _ _ _
        · rfl
      · rw [← bare_update]
        cases hk' : (classDef c).kind with
        | patterned => exact absurd hk' hk
        | _ => exact build_bare hc c _ _ _
    · simp only [hc', if_false]; rfl

theorem choose_bare (E : Env) (cur : Got) (l : List Got) : pick E (blank cur) (l.map blank) = blank (choose E cur l) := by
  induction l generalizing cur with
  | nil => rfl
  | cons r l ih =>
    cases r with
    | none => simpa only [List.map_cons, choose, blank, Option.map_none, pick] using ih cur
    | some r =>
      cases cur with
      | none => simpa only [List.map_cons, choose, blank, Option.map_none, Option.map_some, pick] using ih (some r)
      | some c =>
        have := ih (some (if better E c.2 r.2 then r else c))
        simp only [List.map_cons, choose, blank, Option.map_some, pick] at this ⊢
        rw [← this]
        congr 2
        split <;> rfl

mutual
theorem readAs_bare {E : Env} (hc : OnlyChecks E.call) (x : Ob) (s : Form) :
    ∀ t, parseAs E x.val s.shape t = blank (readAs E x s t)
  | .any => rfl
  | .none => by
    simp only [parseAs, readAs, isNone_val]
    split <;> rfl
  | .str | .int | .bool | .anyUrl | .httpUrl | .email | .processors | .lit _ => by
    simp only [parseAs, readAs, blank_scalar]
  | .list t => by
    simp only [parseAs, readAs]
    cases s with
    | list l =>
      simp only [Form.shape, readItems_bare]
      cases readItems t l <;> rfl
    | _ => rfl
  | .dict t => by simp only [parseAs, readAs]; exact readDict_bare t s
  | .model c => by simp only [parseAs, readAs]; exact readModel_bare hc c s
  | .union ts => by
    simp only [parseAs, readAs, isNone_val, readEach_bare hc x s ts]
    split
    · rfl
    · exact choose_bare E none _
theorem readEach_bare {E : Env} (hc : OnlyChecks E.call) (x : Ob) (s : Form) :
    ∀ ts, parseEach E x.val s.shape ts = (readEach E x s ts).map blank
  | [] => rfl
  | t :: ts => by simp only [parseEach, readEach, List.map_cons, readAs_bare hc x s t, readEach_bare hc x s ts]
end

theorem readings_eq (E : Env) (d : List (Str × Ob)) : readings E d = d.map fun e => (e.1, e.2, read E e.2) := by
  induction d with
  | nil => rfl
  | cons e d ih => obtain ⟨k, x⟩ := e; simp [readings, ih]

theorem readers_eq (E : Env) (l : List Ob) : readers E l = l.map (read E) := by
  induction l with
  | nil => rfl
  | cons e d ih => simp [readers, ih]

mutual
theorem read_bare {E : Env} (hc : OnlyChecks E.call) : ∀ x t, parse E x.val t = blank (read E x t)
  | .list id l, t => by
    have := readAs_bare hc (.list id l) (.list (readers E l)) t
    simpa only [Ob.val, parse, read, Form.shape, ← readers_bare hc l] using this
  | .dict id d, t => by
    have := readAs_bare hc (.dict id d) (.dict (readings E d)) t
    simpa only [Ob.val, parse, read, Form.shape, ← readings_bare hc d] using this
  | .inst id c fs ex set, t => by
    have := readAs_bare hc (.inst id c fs ex set) (.inst c (readings E fs) (readings E ex) set) t
    simpa only [Ob.val, parse, read, Form.shape, ← readings_bare hc fs, ← readings_bare hc ex] using this
  | .none, t => readAs_bare hc .none .scalar t
  | .bool b, t => readAs_bare hc (.bool b) .scalar t
  | .int b, t => readAs_bare hc (.int b) .scalar t
  | .float b, t => readAs_bare hc (.float b) .scalar t
  | .str b, t => readAs_bare hc (.str b) .scalar t
  | .url k b, t => readAs_bare hc (.url k b) .scalar t
  | .proc b, t => readAs_bare hc (.proc b) .scalar t
theorem readers_bare {E : Env} (hc : OnlyChecks E.call) : ∀ l, parsers E (obVals l) = (readers E l).map fun p t => blank (p t)
  | [] => rfl
  | x :: l => by
    simp only [obVals, parsers, readers, List.map_cons, readers_bare hc l]
    congr 1
    funext t
    exact read_bare hc x t
theorem readings_bare {E : Env} (hc : OnlyChecks E.call) : ∀ d, entries E (obEntries d) = bare (readings E d)
  | [] => rfl
  | (k, x) :: d => by
    simp only [obEntries, entries, readings, bare, List.map_cons]
    rw [readings_bare hc d]
    simp only [bare]
    congr 3
    funext t
    exact read_bare hc x t
end

/-! ### Which objects are new -/

/-- Short for `SharesOnlyFree`. -/
abbrev Good (x : Ob) (t : Ty Cls) (y : Ob) : Prop := SharesOnlyFree x t y

theorem new_ids (v : V) : ∀ w, PartOf (Ob.new v) w → w.id = none := by
  induction v using V.ind with
  | list l ih =>
    intro w h
    simp only [Ob.new] at h
    cases h with
    | self => rfl
    | item hm hp =>
      rw [newItems_eq] at hm
      obtain ⟨u, hu, rfl⟩ := List.mem_map.1 hm
      exact ih u hu w hp
  | dict d ih =>
    intro w h
    simp only [Ob.new] at h
    cases h with
    | self => rfl
    | entry hm hp =>
      rw [newEntries_eq] at hm
      obtain ⟨u, hu, e⟩ := List.mem_map.1 hm
      cases e
      exact ih u hu w hp
  | inst c fs ex set ih ih' =>
    intro w h
    simp only [Ob.new] at h
    cases h with
    | self => rfl
    | field hm hp =>
      rw [newEntries_eq] at hm
      obtain ⟨u, hu, e⟩ := List.mem_map.1 hm
      cases e
      exact ih u hu w hp
    | extra hm hp =>
      rw [newEntries_eq] at hm
      obtain ⟨u, hu, e⟩ := List.mem_map.1 hm
      cases e
      exact ih' u hu w hp
  | _ => intro w h; simp only [Ob.new] at h; cases h; rfl

theorem good_new (x : Ob) (t : Ty Cls) (v : V) : Good x t (Ob.new v) :=
  fun w n hw hn => by rw [new_ids v w hw] at hn; cases hn

theorem good_scalar {x : Ob} {t : Ty Cls} {r : Res} {y sc} (h : scalar r = some (y, sc)) : Good x t y := by
  simp only [scalar, Option.map_eq_some_iff, Prod.mk.injEq] at h
  obtain ⟨a, -, rfl, -⟩ := h
  exact good_new x t a.1

theorem PartOf.trans {x y z : Ob} (h : PartOf x y) (h' : PartOf y z) : PartOf x z := by
  induction h with
  | self => exact h'
  | item hm _ ih => exact .item hm (ih h')
  | entry hm _ ih => exact .entry hm (ih h')
  | field hm _ ih => exact .field hm (ih h')
  | extra hm _ ih => exact .extra hm (ih h')

theorem Good.part {x x' : Ob} {t : Ty Cls} {y : Ob} (h : Good x' t y) (hx : PartOf x x') : Good x t y := by
  intro w n hw hn
  obtain ⟨z, h1, h2, h3⟩ := h w n hw hn
  exact ⟨z, h1, h2, PartOf.trans hx h3⟩

/-- What a reader returns has parts in common with `x` only at free places. -/
def GoodReader (x : Ob) (p : Reader) : Prop := ∀ t y sc, p t = some (y, sc) → Good x t y

/-- All parts of a form are parts of `x`. -/
def GoodEntries (x : Ob) (d : List (Str × Ob × Reader)) : Prop := ∀ e ∈ d, PartOf x e.2.1 ∧ GoodReader x e.2.2

def Form.Good (x : Ob) : Form → Prop
  | .scalar => True
  | .list l => ∀ p ∈ l, GoodReader x p
  | .dict d => GoodEntries x d
  | .inst _ fs ex _ => GoodEntries x fs ∧ GoodEntries x ex

theorem readFields_mem {E : Env} {c : Cls} {d : List (Str × Ob × Reader)} {L : List (FieldDef Cls)} {r : GotFields}
    (h : readFields E c d L = some r) : ∀ k w, (k, w) ∈ r.fields → ∃ f ∈ L, k = f.name ∧
      ((∃ e ∈ d, ∃ sc, e.2.2 f.ty = some (w, sc)) ∨ ∃ v, w = Ob.new v) := by
  induction L generalizing r with
  | nil => cases h; intro k w hm; cases hm
  | cons f rest ih =>
    simp only [readFields] at h
    cases hk : findKey f d with
    | none =>
      rw [hk] at h
      cases hd : dfltValue f.dflt with
      | none => simp only [hd] at h; cases h
      | some v =>
        simp only [hd] at h
        cases hr : readFields E c d rest with
        | none => simp only [hr] at h; cases h
        | some r' =>
          simp only [hr, Option.some.injEq] at h
          subst h
          intro k w hm
          rcases List.mem_cons.1 hm with e | hm
          · cases e; exact ⟨f, List.mem_cons_self .., rfl, .inr ⟨v, rfl⟩⟩
          · obtain ⟨g, hg, h⟩ := ih hr k w hm
            exact ⟨g, List.mem_cons_of_mem _ hg, h⟩
    | some e =>
      obtain ⟨k', x, p⟩ := e
      rw [hk] at h
      simp only at h
      cases hp : p f.ty with
      | none => simp only [hp] at h; cases h
      | some q =>
        obtain ⟨v, sc⟩ := q
        simp only [hp] at h
        split at h
        · cases hr : readFields E c d rest with
          | none => simp only [hr] at h; cases h
          | some r' =>
            simp only [hr, Option.some.injEq] at h
            subst h
            intro k w hm
            rcases List.mem_cons.1 hm with e | hm
            · cases e; exact ⟨f, List.mem_cons_self .., rfl, .inl ⟨_, findKey_mem hk, sc, hp⟩⟩
            · obtain ⟨g, hg, h⟩ := ih hr k w hm
              exact ⟨g, List.mem_cons_of_mem _ hg, h⟩
        · cases h

theorem build_good {E : Env} {c : Cls} {d : List (Str × Ob × Reader)} {set? : Option (List Str)} {floor : Nat} {x y : Ob}
    {sc : Score} (hd : GoodEntries x d) (h : build E c d set? floor = some (y, sc)) : Good x (.model c) y := by
  unfold build at h
  cases hr : readFields E c d (classDef c).fields with
  | none => simp only [hr] at h; cases h
  | some r =>
    simp only [hr] at h
    split at h
    · cases h
    · split at h
      · cases h
      · simp only [Option.some.injEq, Prod.mk.injEq] at h
        obtain ⟨rfl, -⟩ := h
        intro w n hw hn
        cases hw with
        | self => cases hn
        | field hm hp =>
          obtain ⟨f, hf, rfl, hcase⟩ := readFields_mem hr _ _ hm
          rcases hcase with ⟨e, he, sc', hp'⟩ | ⟨v, rfl⟩
          · obtain ⟨z, h1, h2, h3⟩ := (hd e he).2 _ _ _ hp' w n hp hn
            exact ⟨z, .field hf hm h1, h2, h3⟩
          · rw [new_ids v w hp] at hn; cases hn
        | extra hm hp =>
          have hm' := hm
          unfold leftOver at hm'
          obtain ⟨e, he, heq⟩ := List.mem_map.1 hm'
          cases heq
          exact ⟨_, .extra hm, hp, (hd e (List.mem_filter.1 he).1).1⟩

theorem buildRoot_good {E : Env} {c : Cls} {f : FieldDef Cls} (hf : f ∈ (classDef c).fields) (hn : f.name = p!"root") {r : Got}
    {set? : Option (List Str)} {floor : Nat} {x y : Ob} {sc : Score}
    (hd : ∀ v sc, r = some (v, sc) → Good x f.ty v) (h : buildRoot E c r set? floor = some (y, sc)) : Good x (.model c) y := by
  cases r with
  | none => cases h
  | some r =>
    obtain ⟨v, sc'⟩ := r
    simp only [buildRoot] at h
    split at h
    · cases h
    · simp only [Option.some.injEq, Prod.mk.injEq] at h
      obtain ⟨rfl, -⟩ := h
      intro w n hw hid
      cases hw with
      | self => cases hid
      | field hm hp =>
        obtain ⟨z, h1, h2, h3⟩ := hd v sc' rfl w n (by simp only [List.mem_singleton, Prod.mk.injEq] at hm; rw [hm.2] at hp; exact hp) hid
        exact ⟨z, .field hf (by rw [hn]; exact List.mem_singleton.2 rfl) h1, h2, h3⟩
      | extra hm hp => cases hm

theorem readEntries_mem {t : Ty Cls} {d : List (Str × Ob × Reader)} {r : List (Str × Ob)} {sc : Score}
    (h : readEntries t d = some (r, sc)) : ∀ k w, (k, w) ∈ r → ∃ e ∈ d, ∃ sc, e.2.2 t = some (w, sc) := by
  induction d generalizing r sc with
  | nil => cases h; intro k w hm; cases hm
  | cons e d ih =>
    obtain ⟨k', x, p⟩ := e
    simp only [readEntries] at h
    cases hp : p t with
    | none => simp only [hp] at h; cases h
    | some q =>
      obtain ⟨v, s1⟩ := q
      simp only [hp] at h
      cases hr : readEntries t d with
      | none => simp only [hr] at h; cases h
      | some q =>
        obtain ⟨r', s2⟩ := q
        simp only [hr, Option.some.injEq, Prod.mk.injEq] at h
        obtain ⟨rfl, -⟩ := h
        intro k w hm
        rcases List.mem_cons.1 hm with e | hm
        · cases e; exact ⟨_, List.mem_cons_self .., s1, hp⟩
        · obtain ⟨e, he, h⟩ := ih hr k w hm
          exact ⟨e, List.mem_cons_of_mem _ he, h⟩

theorem readItems_mem {t : Ty Cls} {d : List Reader} {r : List Ob} {sc : Score}
    (h : readItems t d = some (r, sc)) : ∀ w ∈ r, ∃ p ∈ d, ∃ sc, p t = some (w, sc) := by
  induction d generalizing r sc with
  | nil => cases h; intro w hm; cases hm
  | cons p d ih =>
    simp only [readItems] at h
    cases hp : p t with
    | none => simp only [hp] at h; cases h
    | some q =>
      obtain ⟨v, s1⟩ := q
      simp only [hp] at h
      cases hr : readItems t d with
      | none => simp only [hr] at h; cases h
      | some q =>
        obtain ⟨r', s2⟩ := q
        simp only [hr, Option.some.injEq, Prod.mk.injEq] at h
        obtain ⟨rfl, -⟩ := h
        intro w hm
        rcases List.mem_cons.1 hm with e | hm
        · cases e; exact ⟨_, List.mem_cons_self .., s1, hp⟩
        · obtain ⟨e, he, h⟩ := ih hr w hm
          exact ⟨e, List.mem_cons_of_mem _ he, h⟩

theorem readDict_good {t : Ty Cls} {s : Form} {x y : Ob} {sc : Score} (hs : s.Good x) (h : readDict t s = some (y, sc)) :
    Good x (.dict t) y := by
  cases s with
  | dict d =>
    simp only [readDict, Option.map_eq_some_iff, Prod.mk.injEq] at h
    obtain ⟨⟨r, s'⟩, hr, rfl, -⟩ := h
    intro w n hw hn
    cases hw with
    | self => cases hn
    | entry hm hp =>
      obtain ⟨e, he, s2, hq⟩ := readEntries_mem hr _ _ hm
      obtain ⟨z, h1, h2, h3⟩ := (hs e he).2 _ _ _ hq w n hp hn
      exact ⟨z, .entry hm h1, h2, h3⟩
  | _ => cases h

/-- The one field of a patterned class is `root`. -/
theorem root_name (c : Cls) (hk : (classDef c).kind = .patterned) : ∀ f ∈ (classDef c).fields, f.name = p!"root" := by
  revert hk
  cases c <;> decide

theorem readModel_good {E : Env} {c : Cls} {s : Form} {x y : Ob} {sc : Score} (hs : s.Good x)
    (h : readModel E c s (readRootTy s) = some (y, sc)) : Good x (.model c) y := by
  cases s with
  | scalar => cases h
  | list l => cases h
  | dict d =>
    simp only [readModel] at h
    split at h
    · rename_i f hk hf
      refine buildRoot_good (f := f) (by rw [hf]; exact List.mem_singleton.2 rfl) (root_name c hk f (by rw [hf]; exact List.mem_singleton.2 rfl)) ?_ h
      intro v s' hv
      cases ht : f.ty with
      | dict t => rw [ht] at hv; exact readDict_good (s := .dict d) hs hv
      | _ => rw [ht] at hv; cases hv
    · cases h
    · exact build_good hs h
  | inst c' fs ex set =>
    simp only [readModel] at h
    split at h
    · rename_i hc
      split at h
      · rename_i f hk hf
        cases hl : lookup f.name fs with
        | none => simp only [hl] at h; cases h
        | some e =>
          simp only [hl] at h
          refine buildRoot_good (f := f) (by rw [hf]; exact List.mem_singleton.2 rfl) (root_name c hk f (by rw [hf]; exact List.mem_singleton.2 rfl)) ?_ h
          intro v s' hv
          exact (hs.1 _ (lookup_some_mem hl)).2 _ _ _ hv
      · cases h
      · exact build_good (fun e he => (update_mem he).elim (hs.1 e) (hs.2 e)) h
    · cases h

theorem choose_mem {E : Env} {cur : Got} {l : List Got} {r} (h : choose E cur l = some r) : cur = some r ∨ some r ∈ l := by
  induction l generalizing cur with
  | nil => exact .inl h
  | cons q l ih =>
    cases q with
    | none => exact (ih h).imp id (List.mem_cons_of_mem _)
    | some q =>
      cases cur with
      | none =>
        rcases ih h with e | e
        · exact .inr (by rw [e]; exact List.mem_cons_self ..)
        · exact .inr (List.mem_cons_of_mem _ e)
      | some c =>
        rcases ih h with e | e
        · split at e
          · exact .inr (by rw [e]; exact List.mem_cons_self ..)
          · exact .inl e
        · exact .inr (List.mem_cons_of_mem _ e)

theorem readEach_mem {E : Env} {x : Ob} {s : Form} {ts : List (Ty Cls)} {r : Got} (h : r ∈ readEach E x s ts) :
    ∃ t ∈ ts, r = readAs E x s t := by
  induction ts with
  | nil => simp only [readEach] at h; cases h
  | cons t ts ih =>
    simp only [readEach] at h
    rcases List.mem_cons.1 h with e | h
    · exact ⟨t, List.mem_cons_self .., e⟩
    · obtain ⟨u, hu, e⟩ := ih h
      exact ⟨u, List.mem_cons_of_mem _ hu, e⟩

theorem readAs_good {E : Env} {x : Ob} {s : Form} (hs : s.Good x) : ∀ (t : Ty Cls) y sc, readAs E x s t = some (y, sc) → Good x t y := by
  have hscalar : ∀ (t : Ty Cls) (r : Res) y sc, scalar r = some (y, sc) → Good x t y := fun t r y sc h => good_scalar h
  intro t
  induction t using Ty.rec (motive_2 := fun ts => ∀ t ∈ ts, ∀ y sc, readAs E x s t = some (y, sc) → Good x t y) with
  | any =>
    intro y sc h
    simp only [readAs, Option.some.injEq, Prod.mk.injEq] at h
    obtain ⟨rfl, -⟩ := h
    exact fun w n hw hn => ⟨x, .any x, hw, .self x⟩
  | none =>
    intro y sc h
    simp only [readAs] at h
    split at h
    · cases h; exact good_new x _ .none
    · cases h
  | list t _ =>
    intro y sc h
    simp only [readAs] at h
    cases s with
    | list l =>
      simp only [Option.map_eq_some_iff, Prod.mk.injEq] at h
      obtain ⟨⟨r, s'⟩, hr, rfl, -⟩ := h
      intro w n hw hn
      cases hw with
      | self => cases hn
      | item hm hp =>
        obtain ⟨p, he, s2, hq⟩ := readItems_mem hr _ hm
        obtain ⟨z, h1, h2, h3⟩ := hs p he _ _ _ hq w n hp hn
        exact ⟨z, .item hm h1, h2, h3⟩
    | _ => cases h
  | dict t _ => intro y sc h; simp only [readAs] at h; exact readDict_good hs h
  | model c => intro y sc h; simp only [readAs] at h; exact readModel_good hs h
  | union ts ih =>
    intro y sc h
    simp only [readAs] at h
    split at h
    · cases h; exact good_new x _ .none
    · rcases choose_mem h with e | e
      · cases e
      · obtain ⟨t, ht, e⟩ := readEach_mem e
        intro w n hw hn
        obtain ⟨z, h1, h2, h3⟩ := ih t ht y sc e.symm w n hw hn
        exact ⟨z, .member ht h1, h2, h3⟩
  | nil => rename_i hm _ _ _; cases hm
  | cons t ts ih ih' =>
    rename_i t' hm y sc h
    rcases List.mem_cons.1 hm with e | hm
    · subst e; exact ih y sc h
    · exact ih' t' hm y sc h
  | _ => intro y sc h; simp only [readAs] at h; exact hscalar _ _ _ _ h

theorem Ob.ind {P : Ob → Prop} (list : ∀ id l, (∀ v ∈ l, P v) → P (.list id l))
    (dict : ∀ id d, (∀ e ∈ d, P e.2) → P (.dict id d))
    (inst : ∀ id c fs ex set, (∀ e ∈ fs, P e.2) → (∀ e ∈ ex, P e.2) → P (.inst id c fs ex set))
    (none : P .none) (bool : ∀ b, P (.bool b)) (int : ∀ i, P (.int i)) (float : ∀ x, P (.float x))
    (str : ∀ s, P (.str s)) (url : ∀ k s, P (.url k s)) (proc : ∀ n, P (.proc n)) : ∀ v, P v := by
  intro v
  refine Ob.rec (motive_1 := P) (motive_2 := fun l => ∀ v ∈ l, P v) (motive_3 := fun d => ∀ e ∈ d, P e.2)
    (motive_4 := fun e => P e.2) none bool int float str url proc list dict inst ?_ ?_ ?_ ?_ ?_ v
  · intro v hv; cases hv
  · intro h t ih1 ih2 v hv
    rcases List.mem_cons.1 hv with e | hv
    · rw [e]; exact ih1
    · exact ih2 v hv
  · intro e he; cases he
  · intro h t ih1 ih2 e he
    rcases List.mem_cons.1 he with e' | he
    · rw [e']; exact ih1
    · exact ih2 e he
  · intro k v ih; exact ih

theorem readings_good {E : Env} {x : Ob} {d : List (Str × Ob)} (hp : ∀ e ∈ d, PartOf x e.2)
    (h : ∀ e ∈ d, ∀ (t : Ty Cls) y sc, read E e.2 t = some (y, sc) → Good e.2 t y) : GoodEntries x (readings E d) := by
  intro e he
  rw [readings_eq] at he
  obtain ⟨e', he', rfl⟩ := List.mem_map.1 he
  exact ⟨hp e' he', fun t y sc hr => (h e' he' t y sc hr).part (hp e' he')⟩

theorem read_good {E : Env} (x : Ob) : ∀ (t : Ty Cls) y sc, read E x t = some (y, sc) → Good x t y := by
  induction x using Ob.ind with
  | list id l ih =>
    intro t y sc h
    refine readAs_good (s := .list (readers E l)) ?_ t y sc h
    intro p hp t y sc hr
    rw [readers_eq] at hp
    obtain ⟨w, hw, rfl⟩ := List.mem_map.1 hp
    exact (ih w hw t y sc hr).part (.item hw (.self _))
  | dict id d ih =>
    intro t y sc h
    exact readAs_good (s := .dict (readings E d)) (readings_good (fun e he => .entry he (.self _)) ih) t y sc h
  | inst id c fs ex set ih ih' =>
    intro t y sc h
    exact readAs_good (s := .inst c (readings E fs) (readings E ex) set)
      ⟨readings_good (fun e he => .field he (.self _)) ih, readings_good (fun e he => .extra he (.self _)) ih'⟩ t y sc h
  | _ => intro t y sc h; exact readAs_good (s := .scalar) trivial t y sc h

/-! ### What is kept -/

theorem find_filter {β : Type} (p : Str → Bool) (d : List (Str × β)) (k : Str) :
    lookup k (d.filter fun e => p e.1) = if p k then lookup k d else none := by
  induction d with
  | nil => simp [lookup]
  | cons e d ih =>
    obtain ⟨k', v⟩ := e
    simp only [List.filter_cons]
    by_cases hp : p k' = true
    · simp only [hp, if_true, lookup, ih]
      by_cases hk : k' = k
      · subst hk; simp [hp]
      · simp [hk]
    · simp only [hp, Bool.false_eq_true, if_false, lookup, ih]
      by_cases hk : k' = k
      · subst hk; simp [hp]
      · simp [hk]

theorem find_put (d : List (Str × Ob)) (k j : Str) (x : Ob) : lookup j (put d k x) = if j = k then some x else lookup j d := by
  induction d with
  | nil => simp only [put, lookup, eq_comm]
  | cons e d ih =>
    obtain ⟨k', w⟩ := e
    simp only [put]
    by_cases hk : k' = k
    · subst hk
      simp only [if_true, lookup]
      by_cases hj : k' = j
      · subst hj; simp
      · simp [hj, Ne.symm hj]
    · simp only [hk, if_false, lookup, ih]
      by_cases hj : k' = j
      · subst hj; simp [hk]
      · simp [hj]

theorem find_update {β : Type} (d e : List (Str × β)) (k : Str) :
    lookup k (update d e) = (lookup k e).orElse fun _ => lookup k d := by
  unfold update
  rw [lookup_append]
  have h1 : lookup k (d.map fun x => (x.1, (lookup x.1 e).getD x.2)) = (lookup k d).map fun v => (lookup k e).getD v := by
    induction d with
    | nil => rfl
    | cons x d ih =>
      obtain ⟨k', v⟩ := x
      simp only [List.map_cons, lookup, ih]
      by_cases hk : k' = k
      · subst hk; simp
      · simp [hk]
  rw [h1, find_filter fun j => (lookup j d).isNone]
  cases hd : lookup k d <;> cases he : lookup k e <;> simp [Option.orElse]

theorem find_leftOver (used : List Str) (d : List (Str × Ob × Reader)) (k : Str) :
    lookup k (leftOver used d) = if used.contains k then none else (lookup k d).map (·.1) := by
  unfold leftOver
  rw [show (fun e : Str × Ob × Reader => (e.1, e.2.1)) = fun e => (e.1, (fun q : Ob × Reader => q.1) e.2) from rfl,
    lookup_map, find_filter fun j => !used.contains j]
  cases used.contains k <;> simp

theorem readFields_used {E : Env} {c : Cls} {d : List (Str × Ob × Reader)} {L : List (FieldDef Cls)} {r : GotFields}
    (h : readFields E c d L = some r) : ∀ k ∈ r.used, ∃ f ∈ L, k = f.name ∨ f.alias = some k := by
  induction L generalizing r with
  | nil => cases h; intro k hm; cases hm
  | cons f rest ih =>
    simp only [readFields] at h
    cases hk : findKey f d with
    | none =>
      rw [hk] at h
      cases hd : dfltValue f.dflt with
      | none => simp only [hd] at h; cases h
      | some v =>
        simp only [hd] at h
        cases hr : readFields E c d rest with
        | none => simp only [hr] at h; cases h
        | some r' =>
          simp only [hr, Option.some.injEq] at h
          subst h
          intro k hm
          obtain ⟨g, hg, h⟩ := ih hr k hm
          exact ⟨g, List.mem_cons_of_mem _ hg, h⟩
    | some e =>
      obtain ⟨k', x, p⟩ := e
      rw [hk] at h
      simp only at h
      cases hp : p f.ty with
      | none => simp only [hp] at h; cases h
      | some q =>
        obtain ⟨v, sc⟩ := q
        simp only [hp] at h
        split at h
        · cases hr : readFields E c d rest with
          | none => simp only [hr] at h; cases h
          | some r' =>
            simp only [hr, Option.some.injEq] at h
            subst h
            intro k hm
            rcases List.mem_cons.1 hm with e | hm
            · subst e
              refine ⟨f, List.mem_cons_self .., ?_⟩
              unfold findKey at hk
              cases ha : f.alias with
              | none =>
                simp only [ha, Option.map_eq_some_iff, Prod.mk.injEq] at hk
                obtain ⟨_, -, h, -⟩ := hk
                exact .inl h.symm
              | some a =>
                simp only [ha] at hk
                split at hk
                · simp only [Option.some.injEq, Prod.mk.injEq] at hk
                  exact .inr (by rw [hk.1])
                · simp only [Option.map_eq_some_iff, Prod.mk.injEq] at hk
                  obtain ⟨_, -, h, -⟩ := hk
                  exact .inl h.symm
            · obtain ⟨g, hg, h⟩ := ih hr k hm
              exact ⟨g, List.mem_cons_of_mem _ hg, h⟩
        · cases h

theorem readFields_find {E : Env} {c : Cls} {d : List (Str × Ob × Reader)} {L : List (FieldDef Cls)} {r : GotFields}
    (hn : (L.map (·.name)).Nodup) (h : readFields E c d L = some r) : ∀ f ∈ L, ∀ k x p, findKey f d = some (k, x, p) →
      ∃ v sc, p f.ty = some (v, sc) ∧ lookup f.name r.fields = some v := by
  induction L generalizing r with
  | nil => intro f hf; cases hf
  | cons g rest ih =>
    simp only [List.map_cons, List.nodup_cons] at hn
    simp only [readFields] at h
    have other : ∀ f ∈ rest, f.name ≠ g.name := fun f hf e => hn.1 (by rw [← e]; exact List.mem_map_of_mem hf)
    intro f hf k x p hk
    cases hg : findKey g d with
    | none =>
      rw [hg] at h
      cases hd : dfltValue g.dflt with
      | none => simp only [hd] at h; cases h
      | some v =>
        simp only [hd] at h
        cases hr : readFields E c d rest with
        | none => simp only [hr] at h; cases h
        | some r' =>
          simp only [hr, Option.some.injEq] at h
          subst h
          rcases List.mem_cons.1 hf with e | hf
          · subst e; rw [hg] at hk; cases hk
          · obtain ⟨v', s', h1, h2⟩ := ih hn.2 hr f hf k x p hk
            exact ⟨v', s', h1, by simp only [lookup]; rw [if_neg (other f hf).symm]; exact h2⟩
    | some e =>
      obtain ⟨k', x', p'⟩ := e
      rw [hg] at h
      simp only at h
      cases hp : p' g.ty with
      | none => simp only [hp] at h; cases h
      | some q =>
        obtain ⟨v, sc⟩ := q
        simp only [hp] at h
        split at h
        · cases hr : readFields E c d rest with
          | none => simp only [hr] at h; cases h
          | some r' =>
            simp only [hr, Option.some.injEq] at h
            subst h
            rcases List.mem_cons.1 hf with e | hf
            · subst e; rw [hg] at hk; cases hk
              exact ⟨v, sc, hp, by simp [lookup]⟩
            · obtain ⟨v', s', h1, h2⟩ := ih hn.2 hr f hf k x p hk
              exact ⟨v', s', h1, by simp only [lookup]; rw [if_neg (other f hf).symm]; exact h2⟩
        · cases h

/-- What an instance that is built holds. -/
theorem build_parts {E : Env} {c : Cls} {d : List (Str × Ob × Reader)} {set? : Option (List Str)} {floor : Nat} {y : Ob}
    {sc : Score} (h : build E c d set? floor = some (y, sc)) : ∃ fs ex set, y = .inst none c fs ex set ∧
      (∀ f ∈ (classDef c).fields, ∀ k x p, findKey f d = some (k, x, p) → ∃ v sc, p f.ty = some (v, sc) ∧ lookup f.name fs = some v) ∧
      (∀ k, (∀ f ∈ (classDef c).fields, k ≠ f.name ∧ f.alias ≠ some k) → lookup k ex = (lookup k d).map (·.1)) ∧
      (∀ k w, (k, w) ∈ fs → ∃ f ∈ (classDef c).fields, k = f.name ∧
        ((∃ e ∈ d, ∃ sc, e.2.2 f.ty = some (w, sc)) ∨ ∃ v, w = Ob.new v)) := by
  unfold build at h
  cases hr : readFields E c d (classDef c).fields with
  | none => simp only [hr] at h; cases h
  | some r =>
    simp only [hr] at h
    split at h
    · cases h
    · split at h
      · cases h
      · simp only [Option.some.injEq, Prod.mk.injEq] at h
        obtain ⟨rfl, -⟩ := h
        refine ⟨_, _, _, rfl, readFields_find (Pyd.names_nodup c) hr, ?_, readFields_mem hr⟩
        intro k hk
        rw [find_leftOver, if_neg]
        intro hm
        obtain ⟨f, hf, e⟩ := readFields_used hr k (List.contains_iff_mem.1 hm)
        exact e.elim (hk f hf).1 (hk f hf).2

theorem find_readings (E : Env) (d : List (Str × Ob)) (k : Str) : lookup k (readings E d) = (lookup k d).map fun x => (x, read E x) := by
  rw [readings_eq]
  exact lookup_map (fun x => (x, read E x)) k d

/-! ### What is certainly new -/

mutual
/-- A value of this type may stand at a place of type `Any` itself. -/
def topAny : Ty Cls → Bool
  | .any => true
  | .union ts => oneTopAny ts
  | _ => false
def oneTopAny : List (Ty Cls) → Bool
  | [] => false
  | t :: ts => topAny t || oneTopAny ts
end

theorem oneTopAny_mem {t : Ty Cls} {ts : List (Ty Cls)} (hm : t ∈ ts) (h : topAny t = true) : oneTopAny ts = true := by
  induction ts with
  | nil => cases hm
  | cons u us ih =>
    simp only [oneTopAny, Bool.or_eq_true]
    rcases List.mem_cons.1 hm with e | hm
    · exact .inl (e ▸ h)
    · exact .inr (ih hm)

theorem new_id (v : V) : (Ob.new v).id = none := new_ids v _ (.self _)

theorem scalar_id {r : Res} {y sc} (h : scalar r = some (y, sc)) : y.id = none := by
  simp only [scalar, Option.map_eq_some_iff, Prod.mk.injEq] at h
  obtain ⟨a, -, rfl, -⟩ := h
  exact new_id a.1

theorem buildRoot_inst {E : Env} {c : Cls} {r : Got} {set? : Option (List Str)} {floor : Nat} {y : Ob} {sc : Score}
    (h : buildRoot E c r set? floor = some (y, sc)) : ∃ v sc set, r = some (v, sc) ∧ y = .inst none c [(p!"root", v)] [] set := by
  cases r with
  | none => cases h
  | some r =>
    obtain ⟨v, sc'⟩ := r
    simp only [buildRoot] at h
    split at h
    · cases h
    · simp only [Option.some.injEq, Prod.mk.injEq] at h
      exact ⟨v, sc', _, rfl, h.1.symm⟩

theorem readModel_inst {E : Env} {c : Cls} {s : Form} {y : Ob} {sc : Score}
    (h : readModel E c s (readRootTy s) = some (y, sc)) : ∃ fs ex set, y = .inst none c fs ex set := by
  cases s with
  | scalar => cases h
  | list l => cases h
  | dict d =>
    simp only [readModel] at h
    split at h
    · obtain ⟨v, _, set, -, e⟩ := buildRoot_inst h; exact ⟨_, _, _, e⟩
    · cases h
    · obtain ⟨fs, ex, set, e, -⟩ := build_parts h; exact ⟨_, _, _, e⟩
  | inst c' fs ex set =>
    simp only [readModel] at h
    split at h
    · split at h
      · split at h
        · obtain ⟨v, _, set, -, e⟩ := buildRoot_inst h; exact ⟨_, _, _, e⟩
        · cases h
      · cases h
      · obtain ⟨fs, ex, set, e, -⟩ := build_parts h; exact ⟨_, _, _, e⟩
    · cases h

theorem readDict_id {t : Ty Cls} {s : Form} {y : Ob} {sc : Score} (h : readDict t s = some (y, sc)) : y.id = none := by
  cases s with
  | dict d =>
    simp only [readDict, Option.map_eq_some_iff, Prod.mk.injEq] at h
    obtain ⟨r, hr, rfl, -⟩ := h
    rfl
  | _ => cases h

theorem readAs_id {E : Env} {x : Ob} {s : Form} : ∀ (t : Ty Cls) y sc, readAs E x s t = some (y, sc) → topAny t = false → y.id = none := by
  intro t
  induction t using Ty.rec (motive_2 := fun ts => ∀ t ∈ ts, ∀ y sc, readAs E x s t = some (y, sc) → topAny t = false → y.id = none) with
  | any => intro y sc h ht; cases ht
  | none =>
    intro y sc h _
    simp only [readAs] at h
    split at h
    · cases h; rfl
    · cases h
  | list t _ =>
    intro y sc h _
    simp only [readAs] at h
    cases s with
    | list l =>
      simp only [Option.map_eq_some_iff, Prod.mk.injEq] at h
      obtain ⟨r, hr, rfl, -⟩ := h
      rfl
    | _ => cases h
  | dict t _ => intro y sc h _; simp only [readAs] at h; exact readDict_id h
  | model c =>
    intro y sc h _
    simp only [readAs] at h
    obtain ⟨_, _, _, rfl⟩ := readModel_inst h
    rfl
  | union ts ih =>
    intro y sc h ht
    simp only [readAs] at h
    split at h
    · cases h; rfl
    · rcases choose_mem h with e | e
      · cases e
      · obtain ⟨t, hm, e⟩ := readEach_mem e
        refine ih t hm y sc e.symm ?_
        cases htt : topAny t with
        | false => rfl
        | true => rw [topAny, oneTopAny_mem hm htt] at ht; cases ht
  | nil => rename_i hm _ _ _ _; cases hm
  | cons t ts ih ih' =>
    rename_i t' hm y sc h ht
    rcases List.mem_cons.1 hm with e | hm
    · subst e; exact ih y sc h ht
    · exact ih' t' hm y sc h ht
  | _ => intro y sc h _; simp only [readAs] at h; exact scalar_id h

theorem read_as (E : Env) (x : Ob) : ∃ s, read E x = readAs E x s := by
  cases x <;> exact ⟨_, rfl⟩

theorem read_id {E : Env} {x : Ob} {t : Ty Cls} {y sc} (h : read E x t = some (y, sc)) (ht : topAny t = false) : y.id = none := by
  obtain ⟨s, e⟩ := read_as E x
  rw [e] at h
  exact readAs_id t y sc h ht

/-- The two fields that themselves are of type `Any`. -/
theorem topAny_fields (c : Cls) : ∀ f ∈ (classDef c).fields, topAny f.ty = true →
    (c = .MultiFormatSchema ∧ f.name = p!"schema") ∨ (c = .MessageExample ∧ f.name = p!"payload") := by
  cases c <;> decide

/-! ### Assignment, on values -/

theorem entries_put (d : List (Str × Ob)) (k : Str) (x : Ob) : obEntries (put d k x) = Mutate.dictSet (obEntries d) k x.val := by
  induction d with
  | nil => rfl
  | cons e d ih =>
    obtain ⟨k', w⟩ := e
    simp only [put, obEntries, Mutate.dictSet]
    split
    · rfl
    · simp only [obEntries, ih]

theorem entries_find (d : List (Str × Ob)) (k : Str) : lookup k (obEntries d) = (lookup k d).map Ob.val := by
  rw [obEntries_eq]; exact lookup_map Ob.val k d

theorem entries_update (d e : List (Str × Ob)) : obEntries (update d e) = update (obEntries d) (obEntries e) := by
  unfold update
  simp only [obEntries_eq, List.map_append, List.map_map]
  congr 1
  · apply List.map_congr_left
    intro x _
    have h := entries_find e x.1
    rw [obEntries_eq] at h
    simp only [Function.comp, h]
    cases lookup x.1 e <;> rfl
  · rw [List.filter_map]
    congr 1
    apply List.filter_congr
    intro x _
    have h := entries_find d x.1
    rw [obEntries_eq] at h
    simp only [Function.comp, h]
    cases lookup x.1 d <;> rfl

theorem val_refill (id : Option Nat) (c : Cls) (d : List (Str × Ob)) (set : List Str) :
    (refill id c d set).val = Mutate.rebuild c (obEntries d) set := by
  unfold refill Mutate.rebuild
  simp only [Ob.val, entries_find]
  congr 1
  · rw [obEntries_eq, List.map_map]
    apply List.map_congr_left
    intro f _
    simp only [Function.comp]
    cases lookup f.name d <;> rfl
  · simp only [obEntries_eq]
    rw [List.filter_map]
    rfl

theorem assign_val {E : Env} (hc : OnlyChecks E.call) (rb : Bool) {i : Ob} {name : Str} {x : Ob} :
    (∀ j, assign E i name x = some j → Mutate.assign E rb i.val name x.val = .done j.val) ∧
    (assign E i name x = none → ∃ v, Mutate.assign E rb i.val name x.val = .raised v) := by
  have fin : ∀ (c : Cls) (old : V) (j : Ob),
      (∀ k, ((after E c j.val).map fun _ => j) = some k → Mutate.finish E rb c old j.val = .done k.val) ∧
      (((after E c j.val).map fun _ => j) = none → ∃ v, Mutate.finish E rb c old j.val = .raised v) := by
    intro c old j
    cases h : after E c j.val with
    | none => exact ⟨fun k hk => (by cases hk), fun _ => ⟨_, by unfold Mutate.finish; rw [h]⟩⟩
    | some w =>
      constructor
      · intro k hk
        simp only [Option.map_some, Option.some.injEq] at hk
        subst hk
        unfold Mutate.finish
        rw [h, Props.after_same hc h]
      · intro hk; cases hk
  cases i with
  | inst id c fs ex set =>
    simp only [assign, Ob.val, Mutate.assign]
    cases hf : fieldOf c name with
    | none =>
      simp only
      have hv := val_refill id c (put (update fs ex) name x) (Mutate.addSet set name)
      rw [entries_put, entries_update] at hv
      have := fin c (.inst c (obEntries fs) (obEntries ex) set) (refill id c (put (update fs ex) name x) (Mutate.addSet set name))
      rw [hv] at this
      cases (classDef c).kind with
      | extendable => simpa only [hv] using this
      | openExtra => simpa only [hv] using this
      | _ => exact ⟨fun j h => (by cases h), fun _ => ⟨_, rfl⟩⟩
    | some f =>
      simp only [read_bare hc]
      cases hr : read E x f.ty with
      | none => exact ⟨fun j h => (by cases h), fun _ => ⟨_, rfl⟩⟩
      | some r =>
        obtain ⟨v, sc⟩ := r
        simp only [blank, Option.map_some]
        have hv := val_refill id c (put (update fs ex) name v) (Mutate.addSet set name)
        rw [entries_put, entries_update] at hv
        have := fin c (.inst c (obEntries fs) (obEntries ex) set) (refill id c (put (update fs ex) name v) (Mutate.addSet set name))
        rw [hv] at this
        split
        · simpa only [hv] using this
        · exact ⟨fun j h => (by cases h), fun _ => ⟨_, rfl⟩⟩
  | _ => exact ⟨fun j h => (by cases h), fun _ => ⟨_, rfl⟩⟩

/-! ### Changes in place -/

theorem changed_same (n : Nat) (f : Ob → Ob) (y : Ob) (h : ∀ w, PartOf y w → w.id ≠ some n) : changed n f y = y := by
  have entries : ∀ d : List (Str × Ob), (∀ e ∈ d, changed n f e.2 = e.2) → changedEntries n f d = d := by
    intro d hd
    induction d with
    | nil => rfl
    | cons e d ih =>
      obtain ⟨k, x⟩ := e
      simp only [changedEntries]
      rw [hd (k, x) (List.mem_cons_self ..), ih fun e he => hd e (List.mem_cons_of_mem _ he)]
  induction y using Ob.ind with
  | list id l ih =>
    simp only [changed]
    rw [if_neg (show ¬ id = some n from h _ (.self _))]
    congr 1
    have hl : ∀ w ∈ l, changed n f w = w := fun w hw => ih w hw fun u hu => h u (.item hw hu)
    clear ih h
    induction l with
    | nil => rfl
    | cons x l ih =>
      simp only [changedItems]
      rw [hl x (List.mem_cons_self ..), ih fun w hw => hl w (List.mem_cons_of_mem _ hw)]
  | dict id d ih =>
    simp only [changed]
    rw [if_neg (show ¬ id = some n from h _ (.self _)), entries d fun e he => ih e he fun u hu => h u (.entry he hu)]
  | inst id c fs ex set ih ih' =>
    simp only [changed]
    rw [if_neg (show ¬ id = some n from h _ (.self _)), entries fs fun e he => ih e he fun u hu => h u (.field he hu),
      entries ex fun e he => ih' e he fun u hu => h u (.extra he hu)]
  | _ => rfl

end Verif.Sharing
