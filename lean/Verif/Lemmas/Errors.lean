import Verif.Model.Errors
import Verif.Spec.Errors
import Verif.Lemmas.Valid
import Verif.Lemmas.Messages
import Verif.Props.Fields
import Verif.Props.Mutate
/-! Validation with entries of the error, against validation without. -/
namespace Verif.Pyd
open Verif Verif.Gen Verif.Spec

/-- Forget the entries. -/
def noEntries (d : List (Str × V × Checker)) : List (Str × V × Parser) :=
  d.map fun e => (e.1, e.2.1, fun t => (e.2.2 t).toOption)

/-- Forget the entries. -/
def CShape.shape : CShape → Shape
  | .scalar => .scalar
  | .list l => .list (l.map fun p t => (p t).toOption)
  | .dict d => .dict (noEntries d)
  | .inst c fs ex set => .inst c (noEntries fs) (noEntries ex) set

/-- The entries. -/
def errs : Out → List Fault
  | .ok _ => []
  | .error l => l

theorem orSaying_opt (o : Option Str) (r : Res) : (orSaying o r).toOption = r := by cases r <;> rfl

theorem orItself_opt (r : Res) : (orItself r).toOption = r := orSaying_opt none r

theorem strip_lookup (k : Str) (d : List (Str × V × Checker)) :
    lookup k (noEntries d) = (lookup k d).map fun e => (e.1, fun t => (e.2 t).toOption) := by
  unfold noEntries
  exact lookup_map (fun e : V × Checker => (e.1, fun t => (e.2 t).toOption)) k d

theorem strip_findKey (f : FieldDef Cls) (d : List (Str × V × Checker)) :
    findKey f (noEntries d) = (findKey f d).map fun e => (e.1, e.2.1, fun t => (e.2.2 t).toOption) := by
  unfold findKey
  cases ha : f.alias with
  | none => simp only [strip_lookup]; cases lookup f.name d <;> rfl
  | some a =>
    simp only [strip_lookup]
    cases lookup a d with
    | some x => rfl
    | none => simp only [Option.map_none]; cases lookup f.name d <;> rfl

theorem strip_update (d e : List (Str × V × Checker)) : noEntries (update d e) = update (noEntries d) (noEntries e) := by
  unfold update noEntries
  simp only [List.map_append, List.map_map]
  congr 1
  · apply List.map_congr_left
    intro x _
    have h := strip_lookup x.1 e
    unfold noEntries at h
    simp only [Function.comp, h]
    cases lookup x.1 e <;> rfl
  · rw [List.filter_map]
    congr 1
    apply List.filter_congr
    intro x _
    have h := strip_lookup x.1 d
    unfold noEntries at h
    simp only [Function.comp, h]
    cases lookup x.1 d <;> rfl

theorem strip_spare (used : List Str) (d : List (Str × V × Checker)) : unused used (noEntries d) = spare used d := by
  unfold unused spare noEntries
  rw [List.filter_map, List.map_map]
  rfl

/-- Failure comes with entries. -/
def Speaks (p : Checker) : Prop := ∀ t, p t ≠ .error []

theorem under_eq_nil {s : Step} {l : List Fault} : under s l = [] ↔ l = [] := by
  unfold under; exact List.map_eq_nil_iff

theorem findKey_mem {β : Type} {f : FieldDef Cls} {d : List (Str × β)} {k : Str} {x : β}
    (h : findKey f d = some (k, x)) : (k, x) ∈ d := by
  unfold findKey at h
  cases ha : f.alias with
  | none =>
    rw [ha] at h
    simp only [Option.map_eq_some_iff, Prod.mk.injEq] at h
    obtain ⟨y, h, rfl, rfl⟩ := h
    exact lookup_some_mem h
  | some a =>
    rw [ha] at h
    simp only at h
    cases hl : lookup a d with
    | some y =>
      rw [hl] at h
      simp only [Option.some.injEq, Prod.mk.injEq] at h
      obtain ⟨rfl, rfl⟩ := h
      exact lookup_some_mem hl
    | none =>
      rw [hl] at h
      simp only [Option.map_eq_some_iff, Prod.mk.injEq] at h
      obtain ⟨y, h, rfl, rfl⟩ := h
      exact lookup_some_mem h

theorem parseFields_strip (E : Env) (c : Cls) (d : List (Str × V × Checker)) (hd : ∀ e ∈ d, Speaks e.2.2)
    (L : List (FieldDef Cls)) :
    parseFields E c (noEntries d) L =
      match (checkFields E c d L).errors with
      | [] => some (checkFields E c d L).res
      | _ => none := by
  induction L with
  | nil => rfl
  | cons f rest ih =>
    simp only [parseFields, checkFields, strip_findKey, ih]
    cases hk : findKey f d with
    | none =>
      simp only [Option.map_none]
      cases dfltValue f.dflt with
      | none => rfl
      | some v => simp only; cases (checkFields E c d rest).errors <;> rfl
    | some e =>
      obtain ⟨k, x, p⟩ := e
      simp only [Option.map_some]
      cases hp : p f.ty with
      | ok r =>
        obtain ⟨v, sc⟩ := r
        simp only [Except.toOption]
        by_cases hc : (lengthOk f.maxLen v && fieldCheck E c f.name v) = true
        · simp only [hc, if_true]; cases (checkFields E c d rest).errors <;> rfl
        · simp only [hc, Bool.false_eq_true, if_false]
      | error l =>
        simp only [Except.toOption]
        have hl : l ≠ [] := fun e => hd _ (findKey_mem hk) f.ty (by simp only [hp, e])
        cases l with
        | nil => exact absurd rfl hl
        | cons q l => rfl

theorem orSaying_speaks (o : Option Str) (r : Res) : orSaying o r ≠ .error [] := by
  cases r <;> simp [orSaying, saying]

theorem orItself_speaks (r : Res) : orItself r ≠ .error [] := orSaying_speaks none r

theorem make_strip (E : Env) (c : Cls) (d : List (Str × V × Checker)) (hd : ∀ e ∈ d, Speaks e.2.2)
    (set? : Option (List Str)) (floor : Nat) :
    (make E c d set? floor).toOption = construct E c (noEntries d) set? floor := by
  unfold make construct
  rw [parseFields_strip E c d hd]
  simp only [strip_spare]
  generalize checkFields E c d (classDef c).fields = r
  cases hr : r.errors with
  | cons q l => rfl
  | nil =>
    simp only [List.nil_append]
    unfold forbidden
    by_cases hk : (classDef c).kind = .nonExtendable
    · rw [hk]
      simp only [true_and]
      cases hs : spare r.res.used d with
      | nil =>
        simp only [List.map_nil, ne_eq, not_true_eq_false, if_false]
        rw [orSaying_opt]
        cases after E c _ <;> rfl
      | cons q l =>
        rw [if_pos (by simp)]; rfl
    · have hn : forbidden c (spare r.res.used d) = [] := by
        unfold forbidden; split
        · rename_i h; exact absurd h hk
        · rfl
      unfold forbidden at hn
      rw [hn]
      simp only [hk, false_and, if_false]
      rw [orSaying_opt]
      cases after E c _ <;> rfl

theorem make_speaks (E : Env) (c : Cls) (d : List (Str × V × Checker)) (set? : Option (List Str)) (floor : Nat) :
    make E c d set? floor ≠ .error [] := by
  unfold make
  simp only
  split
  · exact orSaying_speaks _ _
  · rename_i h
    intro e
    exact h (Except.error.inj e)

theorem makeRoot_strip (E : Env) (c : Cls) (r : Out) (set? : Option (List Str)) (floor : Nat) :
    (makeRoot E c r set? floor).toOption = constructRoot E c r.toOption set? floor := by
  cases r with
  | error l => rfl
  | ok r =>
    obtain ⟨v, sc⟩ := r
    simp only [makeRoot, constructRoot, Except.toOption]
    have := orSaying_opt
    unfold Except.toOption at this
    rw [this]
    cases after E c _ <;> rfl

theorem makeRoot_speaks (E : Env) (c : Cls) (r : Out) (hr : r ≠ .error []) (set? : Option (List Str)) (floor : Nat) :
    makeRoot E c r set? floor ≠ .error [] := by
  cases r with
  | error l => exact hr
  | ok r => exact orSaying_speaks _ _

theorem checkEntries_strip (t : Ty Cls) (d : List (Str × V × Checker)) :
    (checkEntries t d).toOption = parseEntries t (noEntries d) := by
  induction d with
  | nil => rfl
  | cons e d ih =>
    obtain ⟨k, x, p⟩ := e
    simp only [noEntries, List.map_cons] at ih ⊢
    simp only [checkEntries, parseEntries, ← ih]
    cases p t with
    | ok r => obtain ⟨v, sc⟩ := r; cases checkEntries t d <;> rfl
    | error l => cases checkEntries t d <;> rfl

theorem checkEntries_speaks (t : Ty Cls) (d : List (Str × V × Checker)) (hd : ∀ e ∈ d, Speaks e.2.2) :
    checkEntries t d ≠ .error [] := by
  induction d with
  | nil => simp [checkEntries]
  | cons e d ih =>
    obtain ⟨k, x, p⟩ := e
    have h1 := hd _ (List.mem_cons_self ..) t
    have h2 := ih fun e he => hd e (List.mem_cons_of_mem _ he)
    simp only [checkEntries]
    simp only at h1
    cases hp : p t <;> cases hc : checkEntries t d <;> simp_all [under_eq_nil]

theorem checkItems_strip (t : Ty Cls) (n : Nat) (l : List Checker) :
    (checkItems t n l).toOption = parseItems t (l.map fun p t => (p t).toOption) := by
  induction l generalizing n with
  | nil => rfl
  | cons p l ih =>
    simp only [List.map_cons, checkItems, parseItems, ← ih (n + 1)]
    cases p t with
    | ok r => obtain ⟨v, sc⟩ := r; cases checkItems t (n + 1) l <;> rfl
    | error e => cases checkItems t (n + 1) l <;> rfl

theorem checkItems_speaks (t : Ty Cls) (n : Nat) (l : List Checker) (hd : ∀ p ∈ l, Speaks p) :
    checkItems t n l ≠ .error [] := by
  induction l generalizing n with
  | nil => simp [checkItems]
  | cons p d ih =>
    have h1 := hd _ (List.mem_cons_self ..) t
    have h2 := ih (n + 1) fun e he => hd e (List.mem_cons_of_mem _ he)
    simp only [checkItems]
    cases hp : p t <;> cases hc : checkItems t (n + 1) d <;> simp_all [under_eq_nil]

/-- All parts fail with entries only. -/
def CShape.Speaks : CShape → Prop
  | .scalar => True
  | .list l => ∀ p ∈ l, Pyd.Speaks p
  | .dict d => ∀ e ∈ d, Pyd.Speaks e.2.2
  | .inst _ fs ex _ => (∀ e ∈ fs, Pyd.Speaks e.2.2) ∧ ∀ e ∈ ex, Pyd.Speaks e.2.2

theorem map_toOption {α β : Type} (g : α → β) (r : Except (List Fault) α) : (r.map g).toOption = r.toOption.map g := by
  cases r <;> rfl

theorem map_speaks {α β : Type} (g : α → β) {r : Except (List Fault) α} (h : r ≠ .error []) : r.map g ≠ .error [] := by
  cases r <;> simp_all [Except.map]

theorem itself_speaks {α : Type} : (.error itself : Except (List Fault) α) ≠ .error [] := by simp [itself, saying]

theorem checkDict_both (t : Ty Cls) (s : CShape) (hs : s.Speaks) :
    (checkDict t s).toOption = parseDict t s.shape ∧ checkDict t s ≠ .error [] := by
  cases s with
  | dict d =>
    simp only [checkDict, parseDict, CShape.shape, map_toOption, checkEntries_strip]
    exact ⟨trivial, map_speaks _ (checkEntries_speaks t d hs)⟩
  | _ => exact ⟨rfl, itself_speaks⟩

theorem checkRootTy_both (t : Ty Cls) (s : CShape) (hs : s.Speaks) :
    (checkRootTy s t).toOption = parseRootTy s.shape t ∧ checkRootTy s t ≠ .error [] := by
  cases t with
  | dict t => exact checkDict_both t s hs
  | _ => exact ⟨rfl, itself_speaks⟩

theorem update_mem {β : Type} {d e : List (Str × β)} {x : Str × β} (h : x ∈ update d e) :
    x ∈ d ∨ x ∈ e := by
  unfold update at h
  rcases List.mem_append.1 h with h | h
  · obtain ⟨y, hy, rfl⟩ := List.mem_map.1 h
    cases hl : lookup y.1 e with
    | none => exact .inl hy
    | some z => exact .inr (lookup_some_mem hl)
  · exact .inr (List.mem_filter.1 h).1

theorem checkModel_both (E : Env) (c : Cls) (s : CShape) (hs : s.Speaks) :
    (checkModel E c s (checkRootTy s)).toOption = parseModel E c s.shape (parseRootTy s.shape) ∧
      checkModel E c s (checkRootTy s) ≠ .error [] := by
  have hroot := fun t => checkRootTy_both t s hs
  cases s with
  | scalar => exact ⟨rfl, itself_speaks⟩
  | list l => exact ⟨rfl, itself_speaks⟩
  | dict d =>
    simp only [checkModel, parseModel, CShape.shape] at hroot ⊢
    by_cases hk : (classDef c).kind = .patterned
    · rw [hk]
      rcases (classDef c).fields with _ | ⟨f, _ | ⟨g, l⟩⟩
      · exact ⟨rfl, itself_speaks⟩
      · simp only [makeRoot_strip, (hroot _).1]
        exact ⟨trivial, makeRoot_speaks _ _ _ (hroot _).2 _ _⟩
      · exact ⟨rfl, itself_speaks⟩
    · cases hk' : (classDef c).kind with
      | patterned => exact absurd hk' hk
      | _ => exact ⟨make_strip E c d hs _ _, make_speaks E c _ _ _⟩
  | inst c' fs ex set =>
    simp only [checkModel, parseModel, CShape.shape]
    by_cases hc : c' = c
    · simp only [hc, if_true]
      by_cases hk : (classDef c).kind = .patterned
      · rw [hk]
        rcases (classDef c).fields with _ | ⟨f, _ | ⟨g, l⟩⟩
        · exact ⟨rfl, itself_speaks⟩
        · simp only [strip_lookup]
          cases hl : lookup f.name fs with
          | none => exact ⟨rfl, itself_speaks⟩
          | some e =>
            simp only [Option.map_some, makeRoot_strip]
            exact ⟨trivial, makeRoot_speaks _ _ _ (hs.1 _ (lookup_some_mem hl) _) _ _⟩
        · exact ⟨rfl, itself_speaks⟩
      · rw [← strip_update]
        cases hk' : (classDef c).kind with
        | patterned => exact absurd hk' hk
        | _ => exact ⟨make_strip E c _ (fun e he => (update_mem he).elim (hs.1 e) (hs.2 e)) _ _, make_speaks E c _ _ _⟩
    · simp only [hc, if_false]
      exact ⟨rfl, itself_speaks⟩

theorem pick_none (E : Env) (cur : Res) (l : List Res) : pick E cur (none :: l) = pick E cur l := rfl

theorem pick_eq_none {E : Env} {cur : Res} {l : List Res} : pick E cur l = none ↔ cur = none ∧ ∀ r ∈ l, r = none := by
  induction l generalizing cur with
  | nil => simp [pick]
  | cons r l ih =>
    cases r with
    | none => simp only [pick, ih]; simp
    | some n =>
      cases cur with
      | none => simp only [pick, ih]; simp
      | some c => simp only [pick, ih]; simp

theorem labelled_speaks {ts : List (Ty Cls)} {rs : List Out} (hlen : rs.length = ts.length)
    (h1 : ∀ r ∈ rs, r ≠ .error []) (h2 : ∀ r ∈ rs, r.toOption = none) (h : ts ≠ []) : labelled ts rs ≠ [] := by
  cases ts with
  | nil => exact absurd rfl h
  | cons t ts =>
    cases rs with
    | nil => simp at hlen
    | cons r rs =>
      have h1 := h1 _ (List.mem_cons_self ..)
      have h2 := h2 _ (List.mem_cons_self ..)
      cases r with
      | ok r => cases h2
      | error l =>
        intro e
        simp only [labelled, List.append_eq_nil_iff, under_eq_nil] at e
        exact h1 (by rw [e.1])

theorem nonNull_others (ts : List (Ty Cls)) : nonNull ts = others ts := by
  unfold others
  induction ts with
  | nil => rfl
  | cons t ts ih => cases t <;> simp [nonNull, ih]

theorem checkEach_map (E : Env) (v : V) (s : CShape) (ts : List (Ty Cls)) :
    checkEach E v s ts = (nonNull ts).map (checkAs E v s) := by
  induction ts with
  | nil => simp only [checkEach, nonNull, List.map_nil]
  | cons t ts ih => cases t <;> simp [checkEach, nonNull, ih]

theorem hasNone_iff' {ts : List (Ty Cls)} : hasNone ts = true ↔ Ty.none ∈ ts := by
  induction ts with
  | nil => simp [hasNone]
  | cons t ts ih => cases t <;> simp [hasNone, ih]

theorem parseEach_map' (E : Env) (v : V) (s : Shape) (ts : List (Ty Cls)) :
    parseEach E v s ts = ts.map (parseAs E v s) := by
  induction ts with
  | nil => simp only [parseEach, List.map_nil]
  | cons t ts ih => simp only [parseEach, ih, List.map_cons]

/-- `None` plays no part in the choice for other values. -/
theorem pick_nonNull (E : Env) (v : V) (s : Shape) (ts : List (Ty Cls)) (h : ¬ (v.isNone && hasNone ts) = true)
    (cur : Res) : pick E cur (ts.map (parseAs E v s)) = pick E cur ((nonNull ts).map (parseAs E v s)) := by
  induction ts generalizing cur with
  | nil => rfl
  | cons t ts ih =>
    have h' : ¬ (v.isNone && hasNone ts) = true := by
      intro e
      apply h
      rw [Bool.and_eq_true, hasNone_iff'] at e ⊢
      exact ⟨e.1, List.mem_cons_of_mem _ e.2⟩
    have key : ∀ r : Res, pick E cur (r :: ts.map (parseAs E v s)) = pick E cur (r :: (nonNull ts).map (parseAs E v s)) := by
      intro r
      cases r with
      | none => exact ih h' cur
      | some r => cases cur <;> exact ih h' _
    cases t with
    | none =>
      have hv : v.isNone = false := by
        cases hv : v.isNone with
        | false => rfl
        | true => exact absurd (by simp [hv, hasNone]) h
      simp only [List.map_cons, nonNull]
      rw [show parseAs E v s .none = none by simp [parseAs, hv]]
      exact ih h' cur
    | _ => simp only [List.map_cons, nonNull]; exact key _

theorem checkAs_both (E : Env) (v : V) (s : CShape) (hs : s.Speaks) (t : Ty Cls) :
    (checkAs E v s t).toOption = parseAs E v s.shape t ∧ checkAs E v s t ≠ .error [] := by
  refine Ty.rec (motive_1 := fun t => (checkAs E v s t).toOption = parseAs E v s.shape t ∧ checkAs E v s t ≠ .error [])
    (motive_2 := fun ts => ∀ t ∈ ts, (checkAs E v s t).toOption = parseAs E v s.shape t ∧ checkAs E v s t ≠ .error [])
    ?_ ?_ ?_ ?_ ?_ ?_ ?_ ?_ ?_ ?_ ?_ ?_ ?_ ?_ ?_ ?_ t
  · simp [checkAs, parseAs, Except.toOption]
  · simp only [checkAs, parseAs]; split
    · exact ⟨rfl, by simp⟩
    · exact ⟨rfl, itself_speaks⟩
  · simp only [checkAs, parseAs]; exact ⟨orItself_opt _, orItself_speaks _⟩
  · simp only [checkAs, parseAs]; exact ⟨orItself_opt _, orItself_speaks _⟩
  · simp only [checkAs, parseAs]; exact ⟨orItself_opt _, orItself_speaks _⟩
  · simp only [checkAs, parseAs]; exact ⟨orItself_opt _, orItself_speaks _⟩
  · simp only [checkAs, parseAs]; exact ⟨orItself_opt _, orItself_speaks _⟩
  · simp only [checkAs, parseAs]; exact ⟨orSaying_opt _ _, orSaying_speaks _ _⟩
  · simp only [checkAs, parseAs]; exact ⟨orItself_opt _, orItself_speaks _⟩
  · intro vs; simp only [checkAs, parseAs]; exact ⟨orItself_opt _, orItself_speaks _⟩
  · intro t _
    simp only [checkAs, parseAs]
    cases s with
    | list l =>
      simp only [CShape.shape, map_toOption, checkItems_strip]
      exact ⟨trivial, map_speaks _ (checkItems_speaks t 0 l hs)⟩
    | _ => exact ⟨rfl, itself_speaks⟩
  · intro t _
    simp only [checkAs, parseAs]
    exact checkDict_both t s hs
  · intro c
    simp only [checkAs, parseAs]
    exact checkModel_both E c s hs
  · intro ts ih
    simp only [checkAs, parseAs]
    split
    · exact ⟨rfl, by simp⟩
    · rename_i hn
      have hsub : ∀ t ∈ nonNull ts, t ∈ ts := by
        intro t ht; rw [nonNull_others] at ht; exact (List.mem_filter.1 ht).1
      have he : (checkEach E v s ts).map Except.toOption = (nonNull ts).map (parseAs E v s.shape) := by
        rw [checkEach_map, List.map_map]
        exact List.map_congr_left fun t ht => (ih t (hsub t ht)).1
      have hp : pickOut E (checkEach E v s ts) = pick E none (parseEach E v s.shape ts) := by
        unfold pickOut
        rw [he, parseEach_map', pick_nonNull E v s.shape ts hn]
      rw [hp]
      cases hr : pick E none (parseEach E v s.shape ts) with
      | some r => exact ⟨rfl, by simp⟩
      | none =>
        refine ⟨rfl, ?_⟩
        rw [← hp] at hr
        unfold pickOut at hr
        have hall : ∀ r ∈ checkEach E v s ts, r.toOption = none := by
          intro r hr'
          exact (pick_eq_none.1 hr).2 _ (List.mem_map.2 ⟨r, hr', rfl⟩)
        have hspk : ∀ r ∈ checkEach E v s ts, r ≠ .error [] := by
          intro r hr'
          rw [checkEach_map] at hr'
          obtain ⟨t, ht, rfl⟩ := List.mem_map.1 hr'
          exact (ih t (hsub t ht)).2
        have hlen : (checkEach E v s ts).length = (nonNull ts).length := by rw [checkEach_map, List.length_map]
        intro e
        have e := Except.error.inj e
        revert e hall hspk hlen
        generalize checkEach E v s ts = rs
        generalize nonNull ts = ns
        intro hall hspk hlen e
        unfold unionFaults at e
        split at e
        · simp [itself, saying] at e
        · subst e; exact hspk _ (List.mem_cons_self ..) rfl
        · rename_i h _
          exact labelled_speaks hlen hspk hall h e
  · intro t ht; cases ht
  · intro t ts h1 h2 t' ht'
    rcases List.mem_cons.1 ht' with rfl | h
    · exact h1
    · exact h2 _ h

theorem checks_map (E : Env) (d : List (Str × V)) : checks E d = d.map fun e => (e.1, e.2, check E e.2) := by
  induction d with
  | nil => rfl
  | cons e d ih => obtain ⟨k, v⟩ := e; simp only [checks, List.map_cons, ih]

theorem checkers_map (E : Env) (l : List V) : checkers E l = l.map (check E) := by
  induction l with
  | nil => rfl
  | cons v l ih => simp only [checkers, List.map_cons, ih]

/-- The shape of a value. -/
def cshapeOf (E : Env) : V → CShape
  | .list l => .list (checkers E l)
  | .dict d => .dict (checks E d)
  | .inst c fs ex set => .inst c (checks E fs) (checks E ex) set
  | _ => .scalar

theorem check_eq (E : Env) (v : V) : check E v = checkAs E v (cshapeOf E v) := by
  cases v <;> simp only [check, cshapeOf]

theorem check_both (E : Env) (v : V) : ∀ t, (check E v t).toOption = parse E v t ∧ check E v t ≠ .error [] := by
  have hd : ∀ d : List (Str × V), (∀ e ∈ d, ∀ t, (check E e.2 t).toOption = parse E e.2 t ∧ check E e.2 t ≠ .error []) →
      (∀ e ∈ checks E d, Speaks e.2.2) ∧ noEntries (checks E d) = entries E d := by
    intro d h
    rw [checks_map, entries_map]
    constructor
    · intro e he
      obtain ⟨x, hx, rfl⟩ := List.mem_map.1 he
      exact fun t => (h x hx t).2
    · unfold noEntries
      rw [List.map_map]
      apply List.map_congr_left
      intro e he
      simp only [Function.comp]
      congr 2
      funext t
      exact (h e he t).1
  induction v using V.ind with
  | list l ih =>
    intro t
    have h := checkAs_both E (.list l) (.list (checkers E l)) (by
      rw [checkers_map]; intro p hp
      obtain ⟨x, hx, rfl⟩ := List.mem_map.1 hp
      exact fun t => (ih x hx t).2) t
    have e : (checkers E l).map (fun p t => (p t).toOption) = parsers E l := by
      rw [checkers_map, parsers_map, List.map_map]
      apply List.map_congr_left
      intro x hx
      funext t
      exact (ih x hx t).1
    simp only [CShape.shape, e] at h
    simpa only [check, parse] using h
  | dict d ih =>
    intro t
    have h := checkAs_both E (.dict d) (.dict (checks E d)) (hd d ih).1 t
    simp only [CShape.shape, (hd d ih).2] at h
    simpa only [check, parse] using h
  | inst c fs ex set ih1 ih2 =>
    intro t
    have h := checkAs_both E (.inst c fs ex set) (.inst c (checks E fs) (checks E ex) set) ⟨(hd fs ih1).1, (hd ex ih2).1⟩ t
    simp only [CShape.shape, (hd fs ih1).2, (hd ex ih2).2] at h
    simpa only [check, parse] using h
  | none => intro t; simpa only [check, parse, CShape.shape] using checkAs_both E .none .scalar trivial t
  | bool b => intro t; simpa only [check, parse, CShape.shape] using checkAs_both E (.bool b) .scalar trivial t
  | int b => intro t; simpa only [check, parse, CShape.shape] using checkAs_both E (.int b) .scalar trivial t
  | float b => intro t; simpa only [check, parse, CShape.shape] using checkAs_both E (.float b) .scalar trivial t
  | str b => intro t; simpa only [check, parse, CShape.shape] using checkAs_both E (.str b) .scalar trivial t
  | url k b => intro t; simpa only [check, parse, CShape.shape] using checkAs_both E (.url k b) .scalar trivial t
  | proc b => intro t; simpa only [check, parse, CShape.shape] using checkAs_both E (.proc b) .scalar trivial t

/-! ### The entries, one by one -/

theorem lookup_checks (E : Env) (k : Str) (d : List (Str × V)) :
    lookup k (checks E d) = (lookup k d).map fun v => (v, check E v) := by
  rw [checks_map]; exact lookup_map (fun v => (v, check E v)) k d

theorem findKey_checks (E : Env) (f : FieldDef Cls) (d : List (Str × V)) :
    findKey f (checks E d) = (findKey f d).map fun e => (e.1, e.2, check E e.2) := by
  unfold findKey
  cases ha : f.alias with
  | none => simp only [lookup_checks]; cases lookup f.name d <;> rfl
  | some a =>
    simp only [lookup_checks]
    cases lookup a d with
    | some x => rfl
    | none => simp only [Option.map_none]; cases lookup f.name d <;> rfl

theorem checks_update (E : Env) (d e : List (Str × V)) : checks E (update d e) = update (checks E d) (checks E e) := by
  unfold update
  have hl := fun k d => lookup_checks E k d
  simp only [hl]
  simp only [checks_map, List.map_append, List.map_map]
  congr 1
  · apply List.map_congr_left
    intro x _
    simp only [Function.comp]
    cases lookup x.1 e <;> rfl
  · rw [List.filter_map]
    congr 1
    apply List.filter_congr
    intro x _
    simp only [Function.comp]
    cases lookup x.1 d <;> rfl

theorem mem_under {s : Step} {l : List Fault} {q : Fault} : q ∈ under s l ↔ ∃ p ∈ l, q = ⟨s :: p.loc, p.why⟩ := by
  unfold under; rw [List.mem_map]
  constructor
  · rintro ⟨p, h, rfl⟩; exact ⟨p, h, rfl⟩
  · rintro ⟨p, h, rfl⟩; exact ⟨p, h, rfl⟩

/-- An entry about one field. -/
def About (E : Env) (c : Cls) (d : List (Str × V)) (f : FieldDef Cls) (q : Fault) : Prop :=
  match findKey f d with
  | some (k, x) => (∃ p ∈ errs (check E x f.ty), q = ⟨.key k :: p.loc, p.why⟩) ∨
      ∃ v sc, check E x f.ty = .ok (v, sc) ∧ ¬ (lengthOk f.maxLen v && fieldCheck E c f.name v) = true ∧
        q = ⟨[.key k], refusal E c f v⟩
  | none => f.dflt = .required ∧ q = ⟨[.key (f.alias.getD f.name)], .missing⟩

theorem mem_checkFields (E : Env) (c : Cls) (d : List (Str × V)) (L : List (FieldDef Cls)) (q : Fault) :
    q ∈ (checkFields E c (checks E d) L).errors ↔ ∃ f ∈ L, About E c d f q := by
  induction L with
  | nil => simp [checkFields]
  | cons f rest ih =>
    have hc : (∃ g ∈ f :: rest, About E c d g q) ↔ About E c d f q ∨ ∃ g ∈ rest, About E c d g q := by simp
    rw [hc, ← ih]
    unfold About
    simp only [checkFields, findKey_checks]
    cases hk : findKey f d with
    | none =>
      simp only [Option.map_none]
      cases hd : f.dflt <;> simp [dfltValue]
    | some e =>
      obtain ⟨k, x⟩ := e
      simp only [Option.map_some]
      cases hp : check E x f.ty with
      | error l => simp [errs, mem_under]
      | ok r =>
        obtain ⟨v, sc⟩ := r
        simp only [errs, Except.ok.injEq, Prod.mk.injEq]
        by_cases hb : (lengthOk f.maxLen v && fieldCheck E c f.name v) = true
        · simp [hb]
        · simp only [hb, Bool.false_eq_true, if_false, List.mem_cons]
          refine or_congr ?_ Iff.rfl
          constructor
          · rintro e; exact .inr ⟨v, sc, ⟨rfl, rfl⟩, hb, e⟩
          · rintro (⟨p, hp, _⟩ | ⟨_, _, ⟨rfl, rfl⟩, _, h⟩)
            · cases hp
            · exact h

theorem used_checkFields (E : Env) (c : Cls) (d : List (Str × V)) (L : List (FieldDef Cls)) :
    (checkFields E c (checks E d) L).res.used = L.filterMap fun f => (findKey f d).map (·.1) := by
  induction L with
  | nil => rfl
  | cons f rest ih =>
    simp only [checkFields, findKey_checks, List.filterMap_cons]
    cases hk : findKey f d with
    | none =>
      simp only [Option.map_none]
      cases dfltValue f.dflt <;> simp [ih]
    | some e =>
      obtain ⟨k, x⟩ := e
      simp only [Option.map_some]
      cases hp : check E x f.ty with
      | error l => simp [ih]
      | ok r => simp only []; split <;> simp [ih]

theorem spare_checks (E : Env) (used : List Str) (d : List (Str × V)) :
    spare used (checks E d) = d.filter fun e => !(used.contains e.1) := by
  unfold spare
  rw [checks_map, List.filter_map, List.map_map]
  simp only [Function.comp_def]
  simp

/-- An entry about the fields. -/
theorem mem_fieldErrors (E : Env) (c : Cls) (d : List (Str × V)) (q : Fault) :
    q ∈ (checkFields E c (checks E d) (classDef c).fields).errors ++
        forbidden c (spare (checkFields E c (checks E d) (classDef c).fields).res.used (checks E d)) ↔
      (∃ f ∈ (classDef c).fields, About E c d f q) ∨
      ((classDef c).kind = .nonExtendable ∧ ∃ k x, lookup k d = some x ∧
        (∀ f ∈ (classDef c).fields, ∀ y, ¬ GivenAs f d k y) ∧ q = ⟨[.key k], .unexpected⟩) := by
  rw [List.mem_append, mem_checkFields, used_checkFields, spare_checks]
  refine or_congr Iff.rfl ?_
  have hx : (d.filter fun e => !(((classDef c).fields.filterMap fun f => (findKey f d).map (·.1)).contains e.1)) =
      extrasOf c d := rfl
  rw [hx]
  unfold forbidden
  by_cases hk : (classDef c).kind = .nonExtendable
  · rw [hk]
    simp only [List.mem_map, true_and]
    have hm : ∀ k x, (k, x) ∈ extrasOf c d ↔ (k, x) ∈ d ∧ ∀ f ∈ (classDef c).fields, ∀ y, ¬ GivenAs f d k y := by
      intro k x
      classical
      rw [extrasOf_eq, List.mem_filter]
      simp only [decide_eq_true_eq]
    constructor
    · rintro ⟨⟨k, x⟩, he, rfl⟩
      obtain ⟨h1, h2⟩ := (hm k x).1 he
      cases hl : lookup k d with
      | none => exact absurd h1 (lookup_none.1 hl x)
      | some y => exact ⟨k, y, hl, h2, rfl⟩
    · rintro ⟨k, x, hl, h2, rfl⟩
      exact ⟨(k, x), (hm k x).2 ⟨lookup_some_mem hl, h2⟩, rfl⟩
  · cases hk' : (classDef c).kind with
    | nonExtendable => exact absurd hk' hk
    | _ => simp

theorem nil_or_mem {α : Type} (l : List α) : l = [] ∨ ∃ q, q ∈ l := by
  cases l with
  | nil => exact .inl rfl
  | cons q l => exact .inr ⟨q, List.mem_cons_self ..⟩

theorem noEntries_checks (E : Env) (d : List (Str × V)) : noEntries (checks E d) = entries E d := by
  rw [checks_map, entries_map]
  unfold noEntries
  rw [List.map_map]
  apply List.map_congr_left
  intro e _
  simp only [Function.comp]
  congr 2
  funext t
  exact (check_both E e.2 t).1

theorem checks_speak (E : Env) (d : List (Str × V)) : ∀ e ∈ checks E d, Speaks e.2.2 := by
  intro e he
  rw [checks_map] at he
  obtain ⟨x, _, rfl⟩ := List.mem_map.1 he
  exact fun t => (check_both E x.2 t).2

/-- With nothing to say about the fields, the validators of the class have the word. -/
theorem make_quiet {E : Env} {c : Cls} {d : List (Str × V)} {set? : Option (List Str)} {floor : Nat}
    (h : (checkFields E c (checks E d) (classDef c).fields).errors ++
        forbidden c (spare (checkFields E c (checks E d) (classDef c).fields).res.used (checks E d)) = []) :
    allOk E c d = true ∧ ∃ r, (r = none ↔ after E c (.inst c (fieldsOf E c d) (extrasOf c d) (set?.getD (setOf c d))) = none) ∧
      make E c (checks E d) set? floor =
        orSaying (Messages.ofObject E.U c (.inst c (fieldsOf E c d) (extrasOf c d) (set?.getD (setOf c d)))) r := by
  have hp := parseFields_strip E c (checks E d) (checks_speak E d) (classDef c).fields
  obtain ⟨h1, h2⟩ := List.append_eq_nil_iff.1 h
  rw [noEntries_checks, parseFields_eq, h1] at hp
  simp only at hp
  split at hp
  · rename_i hall
    have hres := (Option.some.inj hp).symm
    have hsp : spare (checkFields E c (checks E d) (classDef c).fields).res.used (checks E d) = extrasOf c d := by
      rw [spare_checks, hres]; rfl
    refine ⟨?_, ?_⟩
    · unfold allOk
      rw [hall, Bool.true_and, Bool.not_eq_true']
      rw [hsp] at h2
      unfold forbidden at h2
      by_cases hk : (classDef c).kind = .nonExtendable
      · rw [hk] at h2 ⊢
        simp only [List.map_eq_nil_iff] at h2
        rw [h2]; rfl
      · rw [Bool.and_eq_false_iff]; left
        simpa using hk
    · unfold make
      simp only [h]
      refine ⟨(after E c (.inst c (fieldsOf E c d) (extrasOf c d) (set?.getD (setOf c d)))).map fun i =>
        (i, (fieldsScore E c d (classDef c).fields).and ⟨floor, some 0⟩), Option.map_eq_none_iff, ?_⟩
      rw [hsp, hres]; rfl
  · cases hp

/-- The entries of an instance that is made. -/
theorem mem_make (E : Env) (c : Cls) (d : List (Str × V)) (set? : Option (List Str)) (floor : Nat) (q : Fault) :
    q ∈ errs (make E c (checks E d) set? floor) ↔
      (∃ f ∈ (classDef c).fields, About E c d f q) ∨
      ((classDef c).kind = .nonExtendable ∧ ∃ k x, lookup k d = some x ∧
        (∀ f ∈ (classDef c).fields, ∀ y, ¬ GivenAs f d k y) ∧ q = ⟨[.key k], .unexpected⟩) ∨
      ((∀ q', ¬ ∃ f ∈ (classDef c).fields, About E c d f q') ∧
        ¬ ((classDef c).kind = .nonExtendable ∧ ∃ k x, lookup k d = some x ∧
          ∀ f ∈ (classDef c).fields, ∀ y, ¬ GivenAs f d k y) ∧
        (make E c (checks E d) set? floor).toOption = none ∧ allOk E c d = true ∧
        q = ⟨[], .wrong (Messages.ofObject E.U c (.inst c (fieldsOf E c d) (extrasOf c d) (set?.getD (setOf c d))))⟩) := by
  have hm := mem_fieldErrors E c d
  rcases nil_or_mem ((checkFields E c (checks E d) (classDef c).fields).errors ++
    forbidden c (spare (checkFields E c (checks E d) (classDef c).fields).res.used (checks E d))) with h | ⟨q0, h⟩
  · have hn : ∀ q, ¬ _ := fun q => (hm q).not.1 (by rw [h]; simp)
    have h1 : ∀ q', ¬ ∃ f ∈ (classDef c).fields, About E c d f q' := fun q' h' => hn q' (.inl h')
    have h2 : ¬ ((classDef c).kind = .nonExtendable ∧ ∃ k x, lookup k d = some x ∧
          ∀ f ∈ (classDef c).fields, ∀ y, ¬ GivenAs f d k y) := by
      rintro ⟨hk, k, x, h3, h4⟩
      exact hn _ (.inr ⟨hk, k, x, h3, h4, rfl⟩)
    obtain ⟨hok, r, _, hr⟩ := make_quiet (set? := set?) (floor := floor) h
    rw [hr]
    constructor
    · intro hq
      refine .inr (.inr ⟨h1, h2, ?_⟩)
      cases r with
      | some r => cases hq
      | none => simp only [orSaying, errs, saying, List.mem_singleton] at hq; exact ⟨rfl, hok, hq⟩
    · rintro (h' | ⟨hk, k, x, h3, h4, _⟩ | ⟨_, _, h5, _, rfl⟩)
      · exact absurd h' (h1 q)
      · exact absurd ⟨hk, k, x, h3, h4⟩ h2
      · cases r with
        | some r => cases h5
        | none => simp [orSaying, errs, saying]
  · have he : errs (make E c (checks E d) set? floor) = (checkFields E c (checks E d) (classDef c).fields).errors ++
        forbidden c (spare (checkFields E c (checks E d) (classDef c).fields).res.used (checks E d)) := by
      unfold make
      simp only
      split
      · rename_i h0; rw [h0] at h; cases h
      · rfl
    rw [he, hm q]
    constructor
    · rintro (h' | h')
      · exact .inl h'
      · exact .inr (.inl h')
    · rintro (h' | h' | ⟨h1, h2, _⟩)
      · exact .inl h'
      · exact .inr h'
      · exfalso
        rcases (hm q0).1 h with h' | ⟨hk, k, x, h3, h4, _⟩
        · exact h1 q0 h'
        · exact h2 ⟨hk, k, x, h3, h4⟩

/-! ### Against the specification -/

theorem tells_iff {P : Str → Prop} {o text : Option Str} (h : ∀ t, o = some t ↔ P t) :
    Tells P text ↔ text = o := by
  cases text with
  | some t => exact (h t).symm.trans eq_comm
  | none =>
    show (∀ t, ¬ P t) ↔ none = o
    simp only [← h]
    cases o <;> simp

theorem faulty_iff {accept : V → Ty Cls → V → Prop} {U : Uni} {limit : Option Nat} {v : V} {t : Ty Cls} {loc : List Step}
    {why : Why} :
    Faulty accept U limit v t loc why ↔
      (∃ pre v' t' loc', loc = pre ++ loc' ∧ (∀ y, ¬ accept v t y) ∧ Portion v t pre v' t' ∧ Faulty accept U limit v' t' loc' why) ∨
      Own accept U limit v t loc why ∨
      ((∀ y, ¬ accept v t y) ∧ (∀ pre v' t', Portion v t pre v' t' → ∃ y, accept v' t' y) ∧
        (∀ loc why, ¬ Own accept U limit v t loc why) ∧ loc = [] ∧
        ∃ text, Tells (WholeSays accept U v t) text ∧ why = .wrong text) := by
  constructor
  · intro h
    cases h with
    | deeper h1 h2 h3 => exact .inl ⟨_, _, _, _, rfl, h1, h2, h3⟩
    | own h => exact .inr (.inl h)
    | whole h1 h2 h3 h4 => exact .inr (.inr ⟨h1, h2, h3, rfl, _, h4, rfl⟩)
  · rintro (⟨pre, v', t', loc', rfl, h1, h2, h3⟩ | h | ⟨h1, h2, h3, rfl, text, h4, rfl⟩)
    · exact .deeper h1 h2 h3
    · exact .own h
    · exact .whole h1 h2 h3 h4

theorem runtime_iff {v : V} : Fields.runtimeExpression v = true ↔ ∃ rest, v = .str (p!"$message." ++ rest) := by
  cases v <;> simp only [Fields.runtimeExpression, Str.startsWith, List.isPrefixOf_iff_prefix,
    Bool.false_eq_true, reduceCtorEq, exists_false, V.str.injEq]
  constructor
  · rintro ⟨r, e⟩; exact ⟨r, e.symm⟩
  · rintro ⟨r, e⟩; exact ⟨r, e.symm⟩

theorem fieldRule_iff {E : Env} {c : Cls} {name : Str} {v : V} :
    fieldCheck E c name v = true ↔ FieldRule (VersionOk E.U E.digits) c name v := by
  constructor
  · intro h
    constructor
    · rintro rfl rfl
      simp only [fieldCheck, if_true] at h
      cases v with
      | str s => exact ⟨s, rfl, (Props.C23_exact _ _ _).1 h⟩
      | _ => simp at h
    · rintro rfl rfl
      simp only [fieldCheck, if_true] at h
      exact runtime_iff.1 h
    · rintro rfl rfl
      simp only [fieldCheck, if_true] at h
      exact Props.notNegative_iff.1 h
    · rintro rfl rfl
      simp only [fieldCheck, if_true] at h
      exact Props.solacePriority_iff.1 h
    · rintro rfl rfl
      simp only [fieldCheck, if_true] at h
      exact Props.heartBeat_iff.1 h
    · rintro rfl rfl
      simp only [fieldCheck, if_true] at h
      exact Props.maxMsgLength_iff.1 h
    · rintro rfl rfl
      simp only [fieldCheck, if_true] at h
      exact Props.notNegative_iff.1 h
    · rintro rfl (rfl | rfl)
      · simp only [fieldCheck, if_true] at h
        exact Props.positive_iff.1 h
      · simp only [fieldCheck, if_true] at h
        split at h
        · exact Props.positive_iff.1 h
        · exact Props.positive_iff.1 h
  · rintro ⟨h1, h2, h3, h4, h5, h6, h7, h8⟩
    unfold fieldCheck
    split
    · split
      · rename_i hn
        obtain ⟨s, rfl, hs⟩ := h1 rfl hn
        exact (Props.C23_exact _ _ _).2 hs
      · rfl
    · split
      · rename_i hn
        exact runtime_iff.2 (h2 rfl hn)
      · rfl
    · split
      · rename_i hn; exact Props.notNegative_iff.2 (h3 rfl hn)
      · rfl
    · split
      · rename_i hn; exact Props.solacePriority_iff.2 (h4 rfl hn)
      · rfl
    · split
      · rename_i hn; exact Props.heartBeat_iff.2 (h5 rfl hn)
      · rfl
    · split
      · rename_i hn; exact Props.maxMsgLength_iff.2 (h6 rfl hn)
      · rfl
    · split
      · rename_i hn; exact Props.notNegative_iff.2 (h7 rfl hn)
      · rfl
    · split
      · rename_i hn; exact Props.positive_iff.2 (h8 rfl (.inl hn))
      · split
        · rename_i hn; exact Props.positive_iff.2 (h8 rfl (.inr hn))
        · rfl
    · rfl

theorem accepts_iff {E : Env} {x : V} {t : Ty Cls} {y : V} : Accepts E x t y ↔ ∃ sc, check E x t = .ok (y, sc) := by
  unfold Accepts
  rw [← (check_both E x t).1]
  cases check E x t <;> simp [Except.toOption]

theorem refuses_iff {E : Env} {x : V} {t : Ty Cls} : (∀ y, ¬ Accepts E x t y) ↔ ∃ q, q ∈ errs (check E x t) := by
  have h := (check_both E x t).2
  simp only [accepts_iff]
  cases hc : check E x t with
  | ok r => obtain ⟨v, sc⟩ := r; simp [errs]
  | error l =>
    rw [hc] at h
    rcases nil_or_mem l with rfl | hq
    · exact absurd rfl h
    · simpa [errs] using hq

theorem accepted_iff {E : Env} {x : V} {t : Ty Cls} : (∃ y, Accepts E x t y) ↔ ∀ q, q ∉ errs (check E x t) := by
  have := refuses_iff (E := E) (x := x) (t := t)
  rw [← not_iff_not]
  simpa using this

theorem refuses_none {E : Env} {x : V} {t : Ty Cls} : (∀ y, ¬ Accepts E x t y) ↔ (check E x t).toOption = none := by
  simp only [accepts_iff]
  cases hc : check E x t with
  | ok r => obtain ⟨v, sc⟩ := r; simp [Except.toOption]
  | error l => simp [Except.toOption]

/-- The entries of an object of class `c`. -/
def objectEntries (c : Cls) : V → Option (List (Str × V))
  | .dict d => some d
  | .inst c' fs ex _ => if c' = c then some (update fs ex) else none
  | _ => none

theorem hasKey_iff {c : Cls} {v : V} {d : List (Str × V)} (h : objectEntries c v = some d) {k : Str} {x : V} :
    HasKey c v k x ↔ lookup k d = some x := by
  unfold HasKey
  cases v with
  | dict d' =>
    simp only [objectEntries, Option.some.injEq] at h
    subst h
    simp
  | inst c' fs ex set =>
    simp only [objectEntries] at h
    split at h
    · rename_i hc
      subst hc
      simp only [Option.some.injEq] at h
      subst h
      rw [Props.lookup_update]
      simp only [reduceCtorEq, false_and, exists_false, false_or, V.inst.injEq, true_and]
      constructor
      · rintro ⟨fs, ex, set, ⟨rfl, rfl, rfl⟩, h | ⟨h1, h2⟩⟩
        · rw [h]; rfl
        · rw [h1]; exact h2
      · intro h
        refine ⟨_, _, _, ⟨rfl, rfl, rfl⟩, ?_⟩
        cases hl : lookup k ex with
        | some y => rw [hl] at h; exact .inl h
        | none => rw [hl] at h; exact .inr ⟨rfl, h⟩
    · cases h
  | _ => simp [objectEntries] at h

theorem givenIn_iff {c : Cls} {v : V} {d : List (Str × V)} (h : objectEntries c v = some d) {f : FieldDef Cls} {k : Str} {x : V} :
    GivenIn c v f k x ↔ GivenAs f d k x := by
  unfold GivenIn GivenAs
  simp only [hasKey_iff h]
  refine and_congr Iff.rfl (or_congr Iff.rfl (and_congr Iff.rfl ?_))
  constructor
  · intro h a ha
    cases hl : lookup a d with
    | none => rfl
    | some y => exact absurd hl (h a y ha)
  · intro h a y ha hl
    rw [h a ha] at hl; cases hl

theorem objectLike {c : Cls} {v : V} {d : List (Str × V)} (h : objectEntries c v = some d) : ObjectLike c v := by
  unfold ObjectLike
  cases v with
  | dict d' => exact .inl ⟨d', rfl⟩
  | inst c' fs ex set =>
    simp only [objectEntries] at h
    split at h
    · rename_i hc; subst hc; exact .inr ⟨_, _, _, rfl⟩
    · cases h
  | _ => simp [objectEntries] at h

theorem not_objectLike {c : Cls} {v : V} (h : objectEntries c v = none) : ¬ ObjectLike c v := by
  rintro (⟨d, rfl⟩ | ⟨fs, ex, set, rfl⟩) <;> simp [objectEntries] at h

theorem hasKey_object {c : Cls} {v : V} {k : Str} {x : V} (h : HasKey c v k x) : ObjectLike c v := by
  rcases h with ⟨d, rfl, _⟩ | ⟨fs, ex, set, rfl, _⟩
  · exact .inl ⟨_, rfl⟩
  · exact .inr ⟨_, _, _, rfl⟩

theorem check_object {E : Env} {c : Cls} {v : V} {d : List (Str × V)} (hk : (classDef c).kind ≠ .patterned)
    (h : objectEntries c v = some d) : ∃ set? floor, check E v (.model c) = make E c (checks E d) set? floor := by
  cases v with
  | dict d' =>
    simp only [objectEntries, Option.some.injEq] at h
    subst h
    refine ⟨none, E.built, ?_⟩
    simp only [check, checkAs, checkModel]
    cases hk' : (classDef c).kind with
    | patterned => exact absurd hk' hk
    | _ => rfl
  | inst c' fs ex set =>
    simp only [objectEntries] at h
    split at h
    · rename_i hc
      subst hc
      simp only [Option.some.injEq] at h
      subst h
      refine ⟨some set, 2, ?_⟩
      simp only [check, checkAs, checkModel, if_true, checks_update]
      cases hk' : (classDef c').kind with
      | patterned => exact absurd hk' hk
      | _ => rfl
    · cases h
  | _ => simp [objectEntries] at h

theorem check_no_object {E : Env} {c : Cls} {v : V} (h : objectEntries c v = none) :
    check E v (.model c) = .error itself := by
  cases v with
  | dict d' => simp [objectEntries] at h
  | inst c' fs ex set =>
    simp only [objectEntries] at h
    split at h
    · cases h
    · rename_i hc
      simp only [check, checkAs, checkModel, hc, if_false]
  | _ => simp only [check, checkAs, checkModel]

/-- What is to be shown of one value. -/
def Right (E : Env) (v : V) (t : Ty Cls) : Prop :=
  ∀ q : Fault, q ∈ errs (check E v t) ↔ Faulty (Accepts E) E.U E.digits v t q.loc q.why

theorem no_own {accept : V → Ty Cls → V → Prop} {U : Uni} {limit : Option Nat} {v : V} {t : Ty Cls}
    (ht : ∀ c, t ≠ .model c) {loc : List Step} {why : Why} : ¬ Own accept U limit v t loc why := by
  intro h; cases h <;> exact ht _ rfl

theorem no_says {accept : V → Ty Cls → V → Prop} {U : Uni} {v : V} {t : Ty Cls}
    (h1 : ∀ c, t ≠ .model c) (h2 : t ≠ .email) (text : Str) : none = some text ↔ WholeSays accept U v t text := by
  constructor
  · intro h; cases h
  · intro h
    cases h with
    | email => exact absurd rfl h2
    | object => exact absurd rfl (h1 _)

/-- A value without parts. -/
theorem right_itself {E : Env} {v : V} {t : Ty Cls} (o : Option Str)
    (h : errs (check E v t) = [] ∨ check E v t = .error (saying o))
    (hp : ∀ pre v' t', ¬ Portion v t pre v' t')
    (ho : ∀ loc why, ¬ Own (Accepts E) E.U E.digits v t loc why)
    (hw : (∀ y, ¬ Accepts E v t y) → ∀ text, o = some text ↔ WholeSays (Accepts E) E.U v t text) : Right E v t := by
  intro q
  rw [faulty_iff]
  rcases h with h | h
  · rw [h]
    have hn : ¬ ∀ y, ¬ Accepts E v t y := by
      rw [refuses_iff, h]; simp
    constructor
    · intro hq; cases hq
    · rintro (⟨_, _, _, _, _, h1, _⟩ | h1 | ⟨h1, _⟩)
      · exact absurd h1 hn
      · exact absurd h1 (ho _ _)
      · exact absurd h1 hn
  · have hn : ∀ y, ¬ Accepts E v t y := by
      rw [refuses_iff, h]; exact ⟨⟨[], .wrong o⟩, by simp [errs, saying]⟩
    rw [h]
    simp only [errs, saying, List.mem_singleton]
    constructor
    · rintro rfl
      exact .inr (.inr ⟨hn, fun _ _ _ h => absurd h (hp _ _ _), ho, rfl, o, (tells_iff (hw hn)).2 rfl, rfl⟩)
    · rintro (⟨_, _, _, _, _, _, h1, _⟩ | h1 | ⟨_, _, _, h2, text, h3, h4⟩)
      · exact absurd h1 (hp _ _ _)
      · exact absurd h1 (ho _ _)
      · obtain ⟨loc, why⟩ := q
        simp only at h2 h4
        rw [h2, h4, (tells_iff (hw hn)).1 h3]

theorem ofObject_set (U : Uni) (c : Cls) (fs ex : List (Str × V)) (s s' : List Str) :
    Messages.ofObject U c (.inst c fs ex s) = Messages.ofObject U c (.inst c fs ex s') := by
  cases c <;> rfl

theorem assembled_iff {E : Env} {c : Cls} {v i : V} {d : List (Str × V)} (hk : (classDef c).kind ≠ .patterned)
    (hd : objectEntries c v = some d) : Assembled (Accepts E) c v i ↔ Fieldwise (Accepts E) c d i := by
  constructor
  · intro h
    cases h with
    | dict _ h => simp only [objectEntries, Option.some.injEq] at hd; subst hd; exact h
    | inst _ h =>
      simp only [objectEntries, if_true, Option.some.injEq] at hd; subst hd; exact h
    | root h => exact absurd h hk
  · intro h
    cases v with
    | dict d' => simp only [objectEntries, Option.some.injEq] at hd; subst hd; exact .dict hk h
    | inst c' fs ex set =>
      simp only [objectEntries] at hd
      split at hd
      · rename_i hc; subst hc
        simp only [Option.some.injEq] at hd; subst hd
        exact .inst hk h
      · cases hd
    | _ => simp [objectEntries] at hd

theorem right_object {E : Env} {c : Cls} {v : V} {d : List (Str × V)} (hk : (classDef c).kind ≠ .patterned)
    (hd : objectEntries c v = some d) (ih : ∀ k x, lookup k d = some x → ∀ t, Right E x t) : Right E v (.model c) := by
  obtain ⟨set?, floor, hc⟩ := check_object (E := E) hk hd
  intro q
  have hg : ∀ {f k x}, findKey f d = some (k, x) ↔ GivenIn c v f k x := by
    intro f k x; rw [findKey_iff, givenIn_iff hd]
  have hpart : ∀ {pre v' t'}, Portion v (.model c) pre v' t' ↔
      ∃ f ∈ (classDef c).fields, ∃ k, findKey f d = some (k, v') ∧ pre = [.key k] ∧ t' = f.ty := by
    intro pre v' t'
    constructor
    · intro h
      cases h with
      | field h1 h2 h3 => exact ⟨_, h2, _, hg.2 h3, rfl, rfl⟩
      | root h1 => exact absurd h1 hk
      | rootOf h1 => exact absurd h1 hk
    · rintro ⟨f, hf, k, h3, rfl, rfl⟩
      exact .field hk hf (hg.1 h3)
  have hown : ∀ {loc why}, Own (Accepts E) E.U E.digits v (.model c) loc why ↔
      (∃ f ∈ (classDef c).fields, findKey f d = none ∧ f.dflt = .required ∧
        loc = [.key (f.alias.getD f.name)] ∧ why = .missing) ∨
      ((classDef c).kind = .nonExtendable ∧ ∃ k x, lookup k d = some x ∧
        (∀ f ∈ (classDef c).fields, ∀ y, ¬ GivenAs f d k y) ∧ loc = [.key k] ∧ why = .unexpected) ∨
      (∃ f ∈ (classDef c).fields, ∃ k x y sc, findKey f d = some (k, x) ∧ check E x f.ty = .ok (y, sc) ∧
        ¬ (lengthOk f.maxLen y && fieldCheck E c f.name y) = true ∧ loc = [.key k] ∧ why = refusal E c f y) := by
    intro loc why
    constructor
    · intro h
      cases h with
      | @missing _ _ f h1 h2 h3 h4 h5 =>
        refine .inl ⟨f, h3, ?_, h4, rfl, rfl⟩
        cases hf : findKey f d with
        | none => rfl
        | some e => exact absurd (hg.1 hf) (h5 e.1 e.2)
      | unexpected h1 h2 h3 =>
        exact .inr (.inl ⟨h1, _, _, (hasKey_iff hd).1 h2, fun f hf y hy => h3 f hf y ((givenIn_iff hd).2 hy), rfl, rfl⟩)
      | @tooLong _ _ f k x s m h1 h2 h3 h4 h5 h6 =>
        obtain ⟨sc, h4⟩ := accepts_iff.1 h4
        have hl : lengthOk f.maxLen (.str s) = false := by
          rw [← Bool.not_eq_true, lengthOk_iff]
          intro h; have := h m s h5 rfl; omega
        refine .inr (.inr ⟨f, h2, k, x, .str s, sc, hg.2 h3, h4, by rw [hl]; simp, rfl, ?_⟩)
        unfold refusal; rw [hl]; rfl
      | @refused _ _ f k x y text h1 h2 h3 h4 h5 h6 h7 =>
        obtain ⟨sc, h4⟩ := accepts_iff.1 h4
        have hl : lengthOk f.maxLen y = true := lengthOk_iff.2 h5
        refine .inr (.inr ⟨f, h2, k, x, y, sc, hg.2 h3, h4, ?_, rfl, ?_⟩)
        · rw [hl, Bool.true_and, fieldRule_iff]; exact h6
        · unfold refusal; rw [hl, (tells_iff fun t => Messages.field_iff (E := E)).1 h7]; rfl
    · rintro (⟨f, hf, h1, h2, rfl, rfl⟩ | ⟨h1, k, x, h2, h3, rfl, rfl⟩ | ⟨f, hf, k, x, y, sc, h1, h2, h3, rfl, rfl⟩)
      · refine .missing hk (objectLike hd) hf h2 fun k x h => ?_
        rw [hg.2 h] at h1; cases h1
      · exact .unexpected h1 ((hasKey_iff hd).2 h2) fun f hf y hy => h3 f hf y ((givenIn_iff hd).1 hy)
      · unfold refusal
        cases hl : lengthOk f.maxLen y with
        | true =>
          rw [hl, Bool.true_and, fieldRule_iff] at h3
          exact .refused hk hf (hg.1 h1) (accepts_iff.2 ⟨sc, h2⟩) (lengthOk_iff.1 hl) h3
            ((tells_iff fun t => Messages.field_iff (E := E)).2 rfl)
        | false =>
          have hl' : ¬ ∀ n s, f.maxLen = some n → y = .str s → s.length ≤ n := by
            rw [← lengthOk_iff, hl]; simp
          simp only [Classical.not_forall, Nat.not_le] at hl'
          obtain ⟨m, s, h4, rfl, h5⟩ := hl'
          exact .tooLong hk hf (hg.1 h1) (accepts_iff.2 ⟨sc, h2⟩) h4 h5
  have hsub : ∀ {f k x}, findKey f d = some (k, x) → ∀ t, Right E x t := by
    intro f k x h
    exact ih k x (findKey_iff.1 h).1
  have habout : ∀ {f q}, f ∈ (classDef c).fields → (About E c d f q ↔
      (∃ k x p, findKey f d = some (k, x) ∧ p ∈ errs (check E x f.ty) ∧ q = ⟨.key k :: p.loc, p.why⟩) ∨
      (∃ k x y sc, findKey f d = some (k, x) ∧ check E x f.ty = .ok (y, sc) ∧
        ¬ (lengthOk f.maxLen y && fieldCheck E c f.name y) = true ∧ q = ⟨[.key k], refusal E c f y⟩) ∨
      (findKey f d = none ∧ f.dflt = .required ∧ q = ⟨[.key (f.alias.getD f.name)], .missing⟩)) := by
    intro f q _
    unfold About
    cases hf : findKey f d with
    | none => simp
    | some e =>
      obtain ⟨k, x⟩ := e
      simp only [Option.some.injEq, Prod.mk.injEq, reduceCtorEq, false_and, or_false]
      constructor
      · rintro (⟨p, h1, h2⟩ | ⟨y, sc, h1, h2, h3⟩)
        · exact .inl ⟨k, x, p, ⟨rfl, rfl⟩, h1, h2⟩
        · exact .inr ⟨k, x, y, sc, ⟨rfl, rfl⟩, h1, h2, h3⟩
      · rintro (⟨_, _, p, ⟨rfl, rfl⟩, h1, h2⟩ | ⟨_, _, y, sc, ⟨rfl, rfl⟩, h1, h2, h3⟩)
        · exact .inl ⟨p, h1, h2⟩
        · exact .inr ⟨y, sc, h1, h2, h3⟩
  have hsays : allOk E c d = true → (∀ loc why, ¬ Own (Accepts E) E.U E.digits v (.model c) loc why) → ∀ text,
      Messages.ofObject E.U c (.inst c (fieldsOf E c d) (extrasOf c d) (set?.getD (setOf c d))) = some text ↔
        WholeSays (Accepts E) E.U v (.model c) text := by
    intro hok hno text
    rw [ofObject_set E.U c _ _ _ (setOf c d), Messages.ofObject_iff]
    constructor
    · intro h
      exact .object ((assembled_iff hk hd).2 ((allOk_given _).1 ⟨hok, rfl⟩).1) h
    · intro h
      cases h with
      | @object _ _ i _ ha h =>
        have hf := (assembled_iff hk hd).1 ha
        have hi := (allOk_given (E := E) (c := c) (d := d) i).2 ⟨hf, ?_⟩
        · rw [hi.2] at h; exact h
        · rintro f hf' ⟨k, x, hgx⟩
          cases hfc : fieldCheck E c f.name (i.attr f.name) with
          | true => rfl
          | false =>
            exfalso
            obtain ⟨_, _, hall, _⟩ := hf
            have h1 := (fieldOk_iff.1 (hall f hf'))
            rw [findKey_iff.2 hgx] at h1
            obtain ⟨⟨sc, h1⟩, h2⟩ := h1
            obtain ⟨sc', h3⟩ := accepts_iff.1 ⟨sc, h1⟩
            refine hno _ _ (hown.2 (.inr (.inr ⟨f, hf', k, x, _, sc', findKey_iff.2 hgx, h3, ?_, rfl, rfl⟩)))
            rw [hfc, Bool.and_false]; simp
  have hmm := fun q => mem_make E c d set? floor q
  constructor
  · intro hq
    have hr : ∀ y, ¬ Accepts E v (.model c) y := refuses_iff.2 ⟨q, hq⟩
    rw [hc, hmm q] at hq
    obtain ⟨loc, why⟩ := q
    rw [faulty_iff]
    rcases hq with ⟨f, hf, ha⟩ | ⟨h1, k, x, h2, h3, h4⟩ | ⟨h1, h2, h3, h3', h4⟩
    · rcases (habout hf).1 ha with ⟨k, x, p, h1, h2, h3⟩ | ⟨k, x, y, sc, h1, h2, h3, h4⟩ | ⟨h1, h2, h3⟩
      · cases h3
        exact .inl ⟨[.key k], x, f.ty, p.loc, rfl, hr, hpart.2 ⟨f, hf, k, h1, rfl, rfl⟩, (hsub h1 f.ty p).1 h2⟩
      · cases h4
        exact .inr (.inl (hown.2 (.inr (.inr ⟨f, hf, k, x, y, sc, h1, h2, h3, rfl, rfl⟩))))
      · cases h3
        exact .inr (.inl (hown.2 (.inl ⟨f, hf, h1, h2, rfl, rfl⟩)))
    · cases h4
      exact .inr (.inl (hown.2 (.inr (.inl ⟨h1, k, x, h2, h3, rfl, rfl⟩))))
    · cases h4
      have hno : ∀ loc why, ¬ Own (Accepts E) E.U E.digits v (.model c) loc why := by
        intro loc why ho
        rcases hown.1 ho with ⟨f, hf, h5, h6, rfl, rfl⟩ | ⟨h5, k, x, h6, h7, rfl, rfl⟩ | ⟨f, hf, k, x, y, sc, h5, h6, h7, rfl, rfl⟩
        · exact h1 _ ⟨f, hf, (habout hf).2 (.inr (.inr ⟨h5, h6, rfl⟩))⟩
        · exact h2 ⟨h5, k, x, h6, h7⟩
        · exact h1 _ ⟨f, hf, (habout hf).2 (.inr (.inl ⟨k, x, y, sc, h5, h6, h7, rfl⟩))⟩
      refine .inr (.inr ⟨hr, ?_, hno, rfl, _, (tells_iff (hsays h3' hno)).2 rfl, rfl⟩)
      intro pre v' t' hp
      obtain ⟨f, hf, k, h5, rfl, rfl⟩ := hpart.1 hp
      rw [accepted_iff]
      intro q' hq'
      exact h1 _ ⟨f, hf, (habout hf).2 (.inl ⟨k, v', q', h5, hq', rfl⟩)⟩
  · intro hq
    rw [hc, hmm q]
    obtain ⟨loc, why⟩ := q
    rw [faulty_iff] at hq
    rcases hq with ⟨pre, v', t', loc', h1, hr, hp, h3⟩ | ho | ⟨hr, h2, h3, h4, text, h5, h6⟩
    · simp only at h1
      obtain ⟨f, hf, k, h5, rfl, rfl⟩ := hpart.1 hp
      subst h1
      exact .inl ⟨f, hf, (habout hf).2 (.inl ⟨k, v', ⟨loc', why⟩, h5, (hsub h5 f.ty ⟨loc', why⟩).2 h3, rfl⟩)⟩
    · rcases hown.1 ho with ⟨f, hf, h5, h6, h7, h8⟩ | ⟨h5, k, x, h6, h7, h8, h9⟩ | ⟨f, hf, k, x, y, sc, h5, h6, h7, h8, h9⟩
      · simp only at h7 h8
        subst h7 h8
        exact .inl ⟨f, hf, (habout hf).2 (.inr (.inr ⟨h5, h6, rfl⟩))⟩
      · simp only at h8 h9
        subst h8 h9
        exact .inr (.inl ⟨h5, k, x, h6, h7, rfl⟩)
      · simp only at h8 h9
        subst h8 h9
        exact .inl ⟨f, hf, (habout hf).2 (.inr (.inl ⟨k, x, y, sc, h5, h6, h7, rfl⟩))⟩
    · simp only at h4 h6
      subst h4 h6
      have k1 : ∀ q', ¬ ∃ f ∈ (classDef c).fields, About E c d f q' := by
        rintro q' ⟨f, hf, ha⟩
        rcases (habout hf).1 ha with ⟨k, x, p, h1, h4, _⟩ | ⟨k, x, y, sc, h1, h4, h5, _⟩ | ⟨h1, h4, _⟩
        · exact accepted_iff.1 (h2 _ _ _ (hpart.2 ⟨f, hf, k, h1, rfl, rfl⟩)) p h4
        · exact h3 _ _ (hown.2 (.inr (.inr ⟨f, hf, k, x, y, sc, h1, h4, h5, rfl, rfl⟩)))
        · exact h3 _ _ (hown.2 (.inl ⟨f, hf, h1, h4, rfl, rfl⟩))
      have k2 : ¬ ((classDef c).kind = .nonExtendable ∧ ∃ k x, lookup k d = some x ∧
          ∀ f ∈ (classDef c).fields, ∀ y, ¬ GivenAs f d k y) := by
        rintro ⟨h1, k, x, h4, h5⟩
        exact h3 _ _ (hown.2 (.inr (.inl ⟨h1, k, x, h4, h5, rfl, rfl⟩)))
      have hq : (checkFields E c (checks E d) (classDef c).fields).errors ++
          forbidden c (spare (checkFields E c (checks E d) (classDef c).fields).res.used (checks E d)) = [] := by
        rcases nil_or_mem ((checkFields E c (checks E d) (classDef c).fields).errors ++
          forbidden c (spare (checkFields E c (checks E d) (classDef c).fields).res.used (checks E d))) with h | ⟨q0, h⟩
        · exact h
        · rcases (mem_fieldErrors E c d q0).1 h with h' | ⟨hk, k, x, h3, h4, _⟩
          · exact absurd h' (k1 q0)
          · exact absurd ⟨hk, k, x, h3, h4⟩ k2
      have hok := (make_quiet (set? := set?) (floor := floor) hq).1
      refine .inr (.inr ⟨k1, k2, by rw [← hc]; exact refuses_none.1 hr, hok, ?_⟩)
      rw [(tells_iff (hsays hok h3)).1 h5]

/-! ### Patterned classes, lists, dicts, unions -/

theorem root_is_dict (c : Cls) (hk : (classDef c).kind = .patterned) :
    ∃ f t, (classDef c).fields = [f] ∧ f.ty = .dict t ∧ f.name = p!"root" := by
  cases c <;> first
    | exact absurd hk (by decide)
    | exact ⟨_, _, rfl, rfl, rfl⟩

theorem errs_map {g : V × Score → V × Score} (r : Out) : errs (r.map g) = errs r := by cases r <;> rfl

/-- The entries of a dict, one by one. -/
theorem mem_checkEntries (E : Env) (t : Ty Cls) (d : List (Str × V)) (q : Fault) :
    (match checkEntries t (checks E d) with
      | .ok _ => False
      | .error l => q ∈ l) ↔ ∃ k x p, (k, x) ∈ d ∧ p ∈ errs (check E x t) ∧ q = ⟨.key k :: p.loc, p.why⟩ := by
  induction d with
  | nil => simp [checks, checkEntries]
  | cons e d ih =>
    obtain ⟨k, x⟩ := e
    have hc : (∃ k' x' p, (k', x') ∈ (k, x) :: d ∧ p ∈ errs (check E x' t) ∧ q = ⟨.key k' :: p.loc, p.why⟩) ↔
        (∃ p ∈ errs (check E x t), q = ⟨.key k :: p.loc, p.why⟩) ∨
        ∃ k' x' p, (k', x') ∈ d ∧ p ∈ errs (check E x' t) ∧ q = ⟨.key k' :: p.loc, p.why⟩ := by
      constructor
      · rintro ⟨k', x', p, h, h1, h2⟩
        rcases List.mem_cons.1 h with h | h
        · cases h; exact .inl ⟨p, h1, h2⟩
        · exact .inr ⟨k', x', p, h, h1, h2⟩
      · rintro (⟨p, h1, h2⟩ | ⟨k', x', p, h, h1, h2⟩)
        · exact ⟨k, x, p, List.mem_cons_self .., h1, h2⟩
        · exact ⟨k', x', p, List.mem_cons_of_mem _ h, h1, h2⟩
    rw [hc, ← ih]
    simp only [checks, checkEntries]
    cases hp : check E x t <;> cases hr : checkEntries t (checks E d) <;> simp [errs, mem_under]

/-- The items of a list, one by one. -/
theorem mem_checkItems (E : Env) (t : Ty Cls) (n : Nat) (l : List V) (q : Fault) :
    (match checkItems t n (checkers E l) with
      | .ok _ => False
      | .error l => q ∈ l) ↔
      ∃ i x p, l[i]? = some x ∧ p ∈ errs (check E x t) ∧ q = ⟨.index (n + i) :: p.loc, p.why⟩ := by
  induction l generalizing n with
  | nil => simp [checkers, checkItems]
  | cons y l ih =>
    have hc : (∃ i x p, (y :: l)[i]? = some x ∧ p ∈ errs (check E x t) ∧ q = ⟨.index (n + i) :: p.loc, p.why⟩) ↔
        (∃ p ∈ errs (check E y t), q = ⟨.index n :: p.loc, p.why⟩) ∨
        ∃ i x p, l[i]? = some x ∧ p ∈ errs (check E x t) ∧ q = ⟨.index (n + 1 + i) :: p.loc, p.why⟩ := by
      constructor
      · rintro ⟨i, x, p, h, h1, h2⟩
        cases i with
        | zero => simp only [List.getElem?_cons_zero, Option.some.injEq] at h; subst h; exact .inl ⟨p, h1, h2⟩
        | succ i =>
          refine .inr ⟨i, x, p, by simpa using h, h1, ?_⟩
          rw [h2]; congr 3; omega
      · rintro (⟨p, h1, h2⟩ | ⟨i, x, p, h, h1, h2⟩)
        · exact ⟨0, y, p, rfl, h1, h2⟩
        · refine ⟨i + 1, x, p, by simpa using h, h1, ?_⟩
          rw [h2]; congr 3; omega
    rw [hc, ← ih (n + 1)]
    simp only [checkers, checkItems]
    cases hp : check E y t <;> cases hr : checkItems t (n + 1) (checkers E l) <;> simp [errs, mem_under]

/-- A value of a type other than a class, all of whose entries are about parts. -/
theorem right_parts {E : Env} {v : V} {t : Ty Cls} (ht : ∀ c, t ≠ .model c)
    (h : ∀ q, q ∈ errs (check E v t) ↔ (∀ y, ¬ Accepts E v t y) ∧
      ∃ pre v' t' p, Portion v t pre v' t' ∧ p ∈ errs (check E v' t') ∧ q = ⟨pre ++ p.loc, p.why⟩)
    (ih : ∀ pre v' t', Portion v t pre v' t' → Right E v' t') : Right E v t := by
  intro q
  rw [h q, faulty_iff]
  obtain ⟨loc, why⟩ := q
  constructor
  · rintro ⟨hr, pre, v', t', p, hp, h1, h2⟩
    cases h2
    exact .inl ⟨pre, v', t', p.loc, rfl, hr, hp, (ih pre v' t' hp p).1 h1⟩
  · rintro (⟨pre, v', t', loc', h0, hr, hp, h1⟩ | ho | ⟨hr, h1, _, h2, h3⟩)
    · simp only at h0
      subst h0
      exact ⟨hr, pre, v', t', ⟨loc', why⟩, hp, (ih pre v' t' hp ⟨loc', why⟩).2 h1, rfl⟩
    · exact absurd ho (no_own ht)
    · exfalso
      obtain ⟨q', hq'⟩ := refuses_iff.1 hr
      obtain ⟨_, pre, v', t', p, hp, h4, _⟩ := (h q').1 hq'
      exact accepted_iff.1 (h1 _ _ _ hp) p h4

theorem mem_checkDict (E : Env) (t : Ty Cls) (d : List (Str × V)) (q : Fault) : q ∈ errs (check E (.dict d) (.dict t)) ↔
    ∃ k x p, (k, x) ∈ d ∧ p ∈ errs (check E x t) ∧ q = ⟨.key k :: p.loc, p.why⟩ := by
  rw [← mem_checkEntries E t d q]
  simp only [check, checkAs, checkDict]
  cases checkEntries t (checks E d) <;> simp [errs, Except.map]

theorem right_dict {E : Env} {d : List (Str × V)} {t : Ty Cls} (ih : ∀ e ∈ d, ∀ t, Right E e.2 t) :
    Right E (.dict d) (.dict t) := by
  have key := mem_checkDict E t d
  refine right_parts (by simp) (fun q => ?_) ?_
  · constructor
    · intro hq
      refine ⟨refuses_iff.2 ⟨q, hq⟩, ?_⟩
      obtain ⟨k, x, p, h1, h2, rfl⟩ := (key q).1 hq
      exact ⟨[.key k], x, t, p, .entry h1, h2, rfl⟩
    · rintro ⟨_, pre, v', t', p, hp, h1, rfl⟩
      cases hp with
      | entry h => exact (key _).2 ⟨_, _, p, h, h1, rfl⟩
  · intro pre v' t' hp
    cases hp with
    | entry h => exact ih _ h _

theorem right_list {E : Env} {l : List V} {t : Ty Cls} (ih : ∀ e ∈ l, ∀ t, Right E e t) :
    Right E (.list l) (.list t) := by
  have key : ∀ q, q ∈ errs (check E (.list l) (.list t)) ↔
      ∃ i x p, l[i]? = some x ∧ p ∈ errs (check E x t) ∧ q = ⟨.index i :: p.loc, p.why⟩ := by
    intro q
    have := mem_checkItems E t 0 l q
    simp only [Nat.zero_add] at this
    rw [← this]
    simp only [check, checkAs]
    cases checkItems t 0 (checkers E l) <;> simp [errs, Except.map]
  refine right_parts (by simp) (fun q => ?_) ?_
  · constructor
    · intro hq
      refine ⟨refuses_iff.2 ⟨q, hq⟩, ?_⟩
      obtain ⟨k, x, p, h1, h2, rfl⟩ := (key q).1 hq
      exact ⟨[.index k], x, t, p, .item h1, h2, rfl⟩
    · rintro ⟨_, pre, v', t', p, hp, h1, rfl⟩
      cases hp with
      | item h => exact (key _).2 ⟨_, _, p, h, h1, rfl⟩
  · intro pre v' t' hp
    cases hp with
    | item h => exact ih _ (List.mem_of_getElem? h) _

theorem mem_labelled {E : Env} {v : V} {s : CShape} {ts : List (Ty Cls)} {q : Fault} :
    q ∈ labelled ts (ts.map (checkAs E v s)) ↔
      ∃ t ∈ ts, ∃ p ∈ errs (checkAs E v s t), q = ⟨.member t :: p.loc, p.why⟩ := by
  induction ts with
  | nil => simp [labelled]
  | cons t ts ih =>
    simp only [List.map_cons, List.mem_cons, exists_eq_or_imp, ← ih]
    cases hc : checkAs E v s t with
    | ok r => simp [labelled, errs]
    | error l => simp [labelled, errs, mem_under]

theorem right_union {E : Env} {v : V} {ts : List (Ty Cls)} (ih : ∀ t ∈ ts, Right E v t) : Right E v (.union ts) := by
  have hsub : ∀ t ∈ others ts, t ∈ ts := fun t h => (List.mem_filter.1 h).1
  by_cases ho : others ts = []
  · refine right_itself none ?_ ?_ (fun _ _ => no_own (by simp)) fun _ => no_says (by simp) (by simp)
    · rw [check_eq]
      simp only [checkAs, checkEach_map, nonNull_others, ho, unionFaults]
      split
      · exact .inl rfl
      · right; rfl
    · intro pre v' t' hp
      cases hp with
      | only h => rw [ho] at h; cases h
      | one h _ => rw [ho] at h; simp at h
  · refine right_parts (by simp) (fun q => ?_) ?_
    · have hu := check_eq E v
      have hpo : ∀ {pre v' t'}, Portion v (.union ts) pre v' t' → v' = v := by
        intro pre v' t' h; cases h <;> rfl
      by_cases hr : ∀ y, ¬ Accepts E v (.union ts) y
      · simp only [hr, not_false_eq_true, implies_true, true_and]
        have hc := refuses_none.1 hr
        rw [hu] at hc ⊢
        simp only [checkAs] at hc ⊢
        split at hc
        · simp [Except.toOption] at hc
        · rename_i hv
          simp only [hv, Bool.false_eq_true, if_false]
          cases hp : pickOut E (checkEach E v (cshapeOf E v) ts) with
          | some r => rw [hp] at hc; simp [Except.toOption] at hc
          | none =>
            have hall : ∀ t ∈ others ts, ∃ l, checkAs E v (cshapeOf E v) t = .error l := by
              intro t ht
              have := (pick_eq_none.1 hp).2 (checkAs E v (cshapeOf E v) t).toOption (by
                rw [checkEach_map, nonNull_others]
                exact List.mem_map.2 ⟨_, List.mem_map.2 ⟨t, ht, rfl⟩, rfl⟩)
              cases hx : checkAs E v (cshapeOf E v) t with
              | error l => exact ⟨l, rfl⟩
              | ok r => rw [hx] at this; cases this
            rw [show ∀ l, errs (.error l) = l from fun _ => rfl]
            simp only [checkEach_map, nonNull_others]
            rcases hos : others ts with _ | ⟨t, _ | ⟨t', rest⟩⟩
            · exact absurd hos ho
            · obtain ⟨l, hl⟩ := hall t (by rw [hos]; simp)
              simp only [List.map_cons, List.map_nil, hl, unionFaults]
              constructor
              · intro hq
                refine ⟨[], v, t, q, .only hos, ?_, rfl⟩
                rw [hu, hl]; exact hq
              · rintro ⟨pre, v', t', p, hp, h1, rfl⟩
                cases hp with
                | only h =>
                  rw [hos] at h; cases h
                  rw [hu, hl] at h1; exact h1
                | one h _ => rw [hos] at h; simp at h
            · have e : unionFaults (t :: t' :: rest) ((t :: t' :: rest).map (checkAs E v (cshapeOf E v))) =
                  labelled (t :: t' :: rest) ((t :: t' :: rest).map (checkAs E v (cshapeOf E v))) := rfl
              rw [e, mem_labelled]
              constructor
              · rintro ⟨s, hs, p, h1, rfl⟩
                refine ⟨[.member s], v, s, p, .one (by rw [hos]; simp) (by rw [hos]; exact hs), ?_, rfl⟩
                rw [hu]; exact h1
              · rintro ⟨pre, v', s, p, hp, h1, rfl⟩
                cases hp with
                | only h => rw [hos] at h; cases h
                | one _ h =>
                  rw [hos] at h
                  rw [hu] at h1
                  exact ⟨s, h, p, h1, rfl⟩
      · simp only [hr, false_and, iff_false]
        exact fun hq => hr (refuses_iff.2 ⟨q, hq⟩)
    · intro pre v' t' hp
      cases hp with
      | only h => exact ih _ (hsub _ (by rw [h]; simp))
      | one _ h => exact ih _ (hsub _ h)

/-- A patterned class whose root is `x`. -/
theorem right_root {E : Env} {c : Cls} {v x : V} {f : FieldDef Cls} {set? : Option (List Str)} {floor : Nat}
    (hk : (classDef c).kind = .patterned) (hf : (classDef c).fields = [f])
    (hc : check E v (.model c) = makeRoot E c (check E x f.ty) set? floor)
    (hp : ∀ pre v' t', Portion v (.model c) pre v' t' ↔ pre = [] ∧ v' = x ∧ t' = f.ty)
    (ih : Right E x f.ty) : Right E v (.model c) := by
  have ho : ∀ {loc why}, ¬ Own (Accepts E) E.U E.digits v (.model c) loc why := by
    intro loc why h
    cases h with
    | missing h1 => exact h1 hk
    | unexpected h1 => rw [hk] at h1; cases h1
    | tooLong h1 => exact h1 hk
    | refused h1 => exact h1 hk
  intro q
  rw [faulty_iff]
  cases hx : check E x f.ty with
  | error l =>
    have hr : ∀ y, ¬ Accepts E v (.model c) y := by
      rw [refuses_none, hc, hx]; rfl
    have he : errs (check E v (.model c)) = errs (check E x f.ty) := by rw [hc, hx]; rfl
    rw [he, ih q]
    constructor
    · intro h
      exact .inl ⟨[], x, f.ty, q.loc, rfl, hr, (hp _ _ _).2 ⟨rfl, rfl, rfl⟩, h⟩
    · rintro (⟨pre, v', t', loc', h0, _, h1, h2⟩ | h | ⟨_, h1, _⟩)
      · obtain ⟨rfl, rfl, rfl⟩ := (hp _ _ _).1 h1
        rw [List.nil_append] at h0
        rw [h0]; exact h2
      · exact absurd h ho
      · have := h1 _ _ _ ((hp _ _ _).2 ⟨rfl, rfl, rfl⟩)
        obtain ⟨y, hy⟩ := this
        obtain ⟨sc, hy⟩ := accepts_iff.1 hy
        rw [hx] at hy; cases hy
  | ok r =>
    have hax : Accepts E x f.ty r.1 := accepts_iff.2 ⟨r.2, hx⟩
    have hox : ∃ y, Accepts E x f.ty y := ⟨r.1, hax⟩
    obtain ⟨o, ho', hi⟩ : ∃ o, o = Messages.ofObject E.U c (.inst c [(p!"root", r.1)] [] []) ∧
        (errs (check E v (.model c)) = [] ∨ check E v (.model c) = .error (saying o)) := by
      refine ⟨_, rfl, ?_⟩
      rw [hc, hx, ofObject_set E.U c _ _ [] (set?.getD [p!"root"])]
      simp only [makeRoot]
      generalize (after E c _).map _ = r'
      cases r' with
      | none => exact .inr rfl
      | some r => exact .inl rfl
    have hsays : ∀ text, o = some text ↔ WholeSays (Accepts E) E.U v (.model c) text := by
      intro text
      rw [ho', Messages.ofObject_iff]
      constructor
      · intro h
        exact .object (.root hk ((hp _ _ _).2 ⟨rfl, rfl, rfl⟩) hax) h
      · intro h
        cases h with
        | @object _ _ i _ ha h =>
          cases ha with
          | dict h1 => exact absurd hk h1
          | inst h1 => exact absurd hk h1
          | @root _ v' t' y set _ h1 h2 =>
            obtain ⟨_, rfl, rfl⟩ := (hp _ _ _).1 h1
            obtain ⟨sc, h2⟩ := accepts_iff.1 h2
            rw [hx] at h2
            cases h2
            rw [← Messages.ofObject_iff] at h ⊢
            rw [ofObject_set E.U c _ _ [] set]; exact h
    rcases hi with hi | hi
    · have hn : ¬ ∀ y, ¬ Accepts E v (.model c) y := by rw [refuses_iff, hi]; simp
      rw [hi]
      constructor
      · intro h; cases h
      · rintro (⟨_, _, _, _, _, h, _⟩ | h | ⟨h, _⟩)
        · exact absurd h hn
        · exact absurd h ho
        · exact absurd h hn
    · have hr : ∀ y, ¬ Accepts E v (.model c) y := by rw [refuses_none, hi]; rfl
      rw [hi]
      simp only [errs, saying, List.mem_singleton]
      constructor
      · rintro rfl
        refine .inr (.inr ⟨hr, ?_, fun _ _ => ho, rfl, o, (tells_iff hsays).2 rfl, rfl⟩)
        intro pre v' t' h
        obtain ⟨rfl, rfl, rfl⟩ := (hp _ _ _).1 h
        exact hox
      · rintro (⟨pre, v', t', loc', h0, _, h1, h2⟩ | h | ⟨_, _, _, h1, text, h2, h3⟩)
        · obtain ⟨rfl, rfl, rfl⟩ := (hp _ _ _).1 h1
          have := (ih ⟨loc', q.why⟩).2 h2
          rw [hx] at this; cases this
        · exact absurd h ho
        · obtain ⟨loc, why⟩ := q
          simp only at h1 h3
          rw [h1, h3, (tells_iff hsays).1 h2]

theorem portion_none {v : V} {t : Ty Cls} (h1 : ∀ c, t ≠ .model c) (h2 : ∀ ts, t ≠ .union ts)
    (h3 : ∀ l t', v = .list l → t ≠ .list t') (h4 : ∀ d t', v = .dict d → t ≠ .dict t') {pre v' t'} :
    ¬ Portion v t pre v' t' := by
  intro h
  cases h with
  | item => exact h3 _ _ rfl rfl
  | entry => exact h4 _ _ rfl rfl
  | field => exact h1 _ rfl
  | root => exact h1 _ rfl
  | rootOf => exact h1 _ rfl
  | only => exact h2 _ rfl
  | one => exact h2 _ rfl

theorem orSaying_cases (o : Option Str) (r : Res) : errs (orSaying o r) = [] ∨ orSaying o r = .error (saying o) := by
  cases r
  · exact .inr rfl
  · exact .inl rfl

theorem orItself_cases (r : Res) : errs (orItself r) = [] ∨ orItself r = .error (saying none) := orSaying_cases none r

theorem not_assembled {E : Env} {c : Cls} {v : V} (h : ∀ i, ¬ Assembled (Accepts E) c v i) (text : Str) :
    none = some text ↔ WholeSays (Accepts E) E.U v (.model c) text := by
  constructor
  · intro h; cases h
  · intro h'
    cases h' with
    | object ha _ => exact absurd ha (h _)

theorem right_model {E : Env} {c : Cls} {v : V}
    (ihd : ∀ d, v = .dict d → ∀ e ∈ d, ∀ t, Right E e.2 t)
    (ihi : ∀ c' fs ex set, v = .inst c' fs ex set → (∀ e ∈ fs, ∀ t, Right E e.2 t) ∧ ∀ e ∈ ex, ∀ t, Right E e.2 t) :
    Right E v (.model c) := by
  cases ho : objectEntries c v with
  | none =>
    refine right_itself none (.inr (check_no_object ho)) ?_ ?_ fun _ => not_assembled ?_
    · intro pre v' t' h
      cases h with
      | field _ _ h => exact not_objectLike ho (hasKey_object h.1)
      | root => simp [objectEntries] at ho
      | rootOf => simp [objectEntries] at ho
    · intro loc why h
      cases h with
      | missing _ h => exact not_objectLike ho h
      | unexpected _ h => exact not_objectLike ho (hasKey_object h)
      | tooLong _ _ h => exact not_objectLike ho (hasKey_object h.1)
      | refused _ _ h => exact not_objectLike ho (hasKey_object h.1)
    · intro i h
      cases h with
      | dict => simp [objectEntries] at ho
      | inst => simp [objectEntries] at ho
      | root _ h =>
        cases h with
        | root => simp [objectEntries] at ho
        | rootOf => simp [objectEntries] at ho
  | some d =>
    by_cases hk : (classDef c).kind = .patterned
    · obtain ⟨f, t, hf, hty, hn⟩ := root_is_dict c hk
      cases v with
      | dict d' =>
        have hd : ∀ s, check E (.dict d') (.dict s) = checkDict s (.dict (checks E d')) := by
          intro s; simp only [check, checkAs]
        refine right_root (x := .dict d') (set? := none) (floor := E.built) hk hf ?_ ?_ ?_
        · rw [hty, hd]
          simp only [check, checkAs, checkModel, hk, hf, hty, checkRootTy]
        · intro pre v' t'
          constructor
          · intro h
            cases h with
            | field h => exact absurd hk h
            | root _ h => rw [hf] at h; rw [List.mem_singleton.1 h]; exact ⟨rfl, rfl, rfl⟩
          · rintro ⟨rfl, rfl, rfl⟩
            exact .root hk (by rw [hf]; simp)
        · rw [hty]; exact right_dict (ihd d' rfl)
      | inst c' fs ex set =>
        simp only [objectEntries] at ho
        split at ho
        · rename_i hc
          subst hc
          cases hl : lookup f.name fs with
          | none =>
            refine right_itself none (.inr ?_) ?_ ?_ fun _ => not_assembled ?_
            · simp only [check, checkAs, checkModel, hk, hf, if_true, lookup_checks, hl, Option.map_none]; rfl
            · intro pre v' t' h
              cases h with
              | field h => exact h hk
              | rootOf _ h h' =>
                rw [hf] at h; rw [List.mem_singleton.1 h, hl] at h'; cases h'
            · intro loc why h
              cases h with
              | missing h1 => exact h1 hk
              | unexpected h1 => rw [hk] at h1; cases h1
              | tooLong h1 => exact h1 hk
              | refused h1 => exact h1 hk
            · intro i h
              cases h with
              | inst h => exact h hk
              | root _ h =>
                cases h with
                | rootOf _ h h' => rw [hf] at h; rw [List.mem_singleton.1 h, hl] at h'; cases h'
          | some x =>
            refine right_root (x := x) (set? := some set) (floor := 2) hk hf ?_ ?_ ?_
            · simp only [check, checkAs, checkModel, hk, hf, if_true, lookup_checks, hl, Option.map_some]
            · intro pre v' t'
              constructor
              · intro h
                cases h with
                | field h => exact absurd hk h
                | rootOf _ h h' =>
                  rw [hf] at h; rw [List.mem_singleton.1 h] at h' ⊢
                  rw [hl] at h'; cases h'; exact ⟨rfl, rfl, rfl⟩
              · rintro ⟨rfl, rfl, rfl⟩
                exact .rootOf hk (by rw [hf]; simp) hl
            · exact (ihi _ _ _ _ rfl).1 _ (lookup_some_mem hl) _
        · cases ho
      | _ => simp [objectEntries] at ho
    · refine right_object hk ho ?_
      intro k x hl t
      cases v with
      | dict d' =>
        simp only [objectEntries, Option.some.injEq] at ho
        subst ho
        exact ihd _ rfl _ (lookup_some_mem hl) t
      | inst c' fs ex set =>
        simp only [objectEntries] at ho
        split at ho
        · simp only [Option.some.injEq] at ho
          subst ho
          have h := ihi _ _ _ _ rfl
          rcases update_mem (lookup_some_mem hl) with hm | hm
          · exact h.1 _ hm t
          · exact h.2 _ hm t
        · cases ho
      | _ => simp [objectEntries] at ho

theorem right_all {E : Env} {v : V} (ihl : ∀ l, v = .list l → ∀ e ∈ l, ∀ t, Right E e t)
    (ihd : ∀ d, v = .dict d → ∀ e ∈ d, ∀ t, Right E e.2 t)
    (ihi : ∀ c' fs ex set, v = .inst c' fs ex set → (∀ e ∈ fs, ∀ t, Right E e.2 t) ∧ ∀ e ∈ ex, ∀ t, Right E e.2 t)
    (t : Ty Cls) : Right E v t := by
  have hs : ∀ t : Ty Cls, (∀ c, t ≠ .model c) → (∀ ts, t ≠ .union ts) → (∀ t', t ≠ .list t') → (∀ t', t ≠ .dict t') →
      t ≠ .email → (errs (check E v t) = [] ∨ check E v t = .error (saying none)) → Right E v t := by
    intro t h1 h2 h3 h4 h6 h5
    exact right_itself none h5 (fun _ _ _ => portion_none h1 h2 (fun _ t' _ => h3 t') (fun _ t' _ => h4 t'))
      (fun _ _ => no_own h1) fun _ => no_says h1 h6
  refine Ty.rec (motive_1 := fun t => Right E v t) (motive_2 := fun ts => ∀ t ∈ ts, Right E v t)
    ?_ ?_ ?_ ?_ ?_ ?_ ?_ ?_ ?_ ?_ ?_ ?_ ?_ ?_ ?_ ?_ t
  · exact hs _ (by simp) (by simp) (by simp) (by simp) (by simp) (by rw [check_eq]; simp only [checkAs]; exact .inl rfl)
  · refine hs _ (by simp) (by simp) (by simp) (by simp) (by simp) ?_
    rw [check_eq]; simp only [checkAs]
    split
    · exact .inl rfl
    · exact .inr rfl
  · exact hs _ (by simp) (by simp) (by simp) (by simp) (by simp) (by rw [check_eq]; simp only [checkAs]; exact orItself_cases _)
  · exact hs _ (by simp) (by simp) (by simp) (by simp) (by simp) (by rw [check_eq]; simp only [checkAs]; exact orItself_cases _)
  · exact hs _ (by simp) (by simp) (by simp) (by simp) (by simp) (by rw [check_eq]; simp only [checkAs]; exact orItself_cases _)
  · exact hs _ (by simp) (by simp) (by simp) (by simp) (by simp) (by rw [check_eq]; simp only [checkAs]; exact orItself_cases _)
  · exact hs _ (by simp) (by simp) (by simp) (by simp) (by simp) (by rw [check_eq]; simp only [checkAs]; exact orItself_cases _)
  · refine right_itself (Messages.email v) (by rw [check_eq]; simp only [checkAs]; exact orSaying_cases _ _)
      (fun _ _ _ => portion_none (by simp) (by simp) (by simp) (by simp)) (fun _ _ => no_own (by simp)) ?_
    intro hr text
    rw [refuses_none, check_eq] at hr
    simp only [checkAs] at hr
    constructor
    · intro h
      cases v with
      | str s =>
        simp only [Messages.email] at h
        split at h
        · cases h
        · cases h; exact .email
      | _ => cases h
    · intro h
      cases h with
      | @email s =>
        cases hv : Patterns.validateEmail s with
        | true => simp [parseEmail, hv, orSaying, Except.toOption] at hr
        | false => simp [Messages.email, hv]
  · exact hs _ (by simp) (by simp) (by simp) (by simp) (by simp) (by rw [check_eq]; simp only [checkAs]; exact orItself_cases _)
  · intro vs
    exact hs _ (by simp) (by simp) (by simp) (by simp) (by simp) (by rw [check_eq]; simp only [checkAs]; exact orItself_cases _)
  · intro t _
    by_cases h : ∃ l, v = .list l
    · obtain ⟨l, rfl⟩ := h
      exact right_list (ihl l rfl)
    · refine right_itself none (.inr ?_) (fun _ _ _ => portion_none (by simp) (by simp) (fun l _ e => absurd ⟨l, e⟩ h) (by simp))
        (fun _ _ => no_own (by simp)) fun _ => no_says (by simp) (by simp)
      cases v with
      | list l => exact absurd ⟨l, rfl⟩ h
      | _ => simp only [check, checkAs]; rfl
  · intro t _
    by_cases h : ∃ l, v = .dict l
    · obtain ⟨l, rfl⟩ := h
      exact right_dict (ihd l rfl)
    · refine right_itself none (.inr ?_) (fun _ _ _ => portion_none (by simp) (by simp) (by simp) (fun l _ e => absurd ⟨l, e⟩ h))
        (fun _ _ => no_own (by simp)) fun _ => no_says (by simp) (by simp)
      cases v with
      | dict l => exact absurd ⟨l, rfl⟩ h
      | _ => simp only [check, checkAs, checkDict]; rfl
  · intro c
    exact right_model ihd ihi
  · intro ts ih
    exact right_union ih
  · intro t ht; cases ht
  · intro t ts h1 h2 t' ht'
    rcases List.mem_cons.1 ht' with rfl | h
    · exact h1
    · exact h2 _ h

theorem right (E : Env) (v : V) : ∀ t, Right E v t := by
  induction v using V.ind with
  | list l ih => exact right_all (fun _ e => by cases e; exact ih) (fun _ e => by cases e) (fun _ _ _ _ e => by cases e)
  | dict d ih => exact right_all (fun _ e => by cases e) (fun _ e => by cases e; exact ih) (fun _ _ _ _ e => by cases e)
  | inst c fs ex set h1 h2 =>
    exact right_all (fun _ e => by cases e) (fun _ e => by cases e) (fun _ _ _ _ e => by cases e; exact ⟨h1, h2⟩)
  | _ => exact right_all (fun _ e => by cases e) (fun _ e => by cases e) (fun _ _ _ _ e => by cases e)

end Verif.Pyd
