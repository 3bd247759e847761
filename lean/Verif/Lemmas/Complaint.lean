import Verif.Lemmas.Navigate
import Verif.Spec.Complaint
/-! The traversal of `UnifiedReferencesValidator` checks the References one by one, in document order. -/
namespace Verif
open Verif.Gen Verif.Spec Verif.Pyd Verif.Props Verif.Unified Verif.Resolve

theorem seq_append (l m : List (Option (Except (Err Cls) Unit))) :
    seq (l ++ m) = seq (seq l :: m) := by
  induction l with
  | nil => rfl
  | cons r l ih =>
    match r with
    | none => rfl
    | some (.ok ()) => simpa [seq] using ih
    | some (.error e) => rfl

theorem seq_cons_congr {r r' : Option (Except (Err Cls) Unit)} {l l'} (h : r = r') (hl : seq l = seq l') :
    seq (r :: l) = seq (r' :: l') := by
  subst h
  match r with
  | none => rfl
  | some (.ok ()) => simpa [seq] using hl
  | some (.error e) => rfl

theorem seq_ok_cons (l : List (Option (Except (Err Cls) Unit))) : seq (some (.ok ()) :: l) = seq l := rfl

/-- The error is that of the first member that fails. -/
theorem seq_error {α : Type} {f : α → Option (Except (Err Cls) Unit)} {l : List α} {e}
    (h : seq (l.map f) = some (.error e)) :
    ∃ before x after, l = before ++ x :: after ∧ (∀ y ∈ before, f y = some (.ok ())) ∧ f x = some (.error e) := by
  induction l with
  | nil => simp [seq] at h
  | cons x l ih =>
    match hx : f x with
    | none => rw [List.map_cons, hx] at h; simp [seq] at h
    | some (.ok ()) =>
      rw [List.map_cons, hx, seq_ok_cons] at h
      obtain ⟨b, y, a, rfl, hb, hy⟩ := ih h
      refine ⟨x :: b, y, a, rfl, fun z hz => ?_, hy⟩
      rcases List.mem_cons.1 hz with rfl | hz
      · exact hx
      · exact hb z hz
    | some (.error e') =>
      rw [List.map_cons, hx] at h
      simp only [seq, Option.some.injEq, Except.error.injEq] at h
      exact ⟨[], x, l, rfl, by simp, by rw [hx, h]⟩

variable {n : Nat} {D : Doc Cls n} {U : Uni} {limit : Option Nat} {M : List (Str × List Cls)}

/-- What `validate_reference` does with a Reference with string `s`. -/
def checkString (U : Uni) (M : List (Str × List Cls)) (D : Doc Cls n) (path s : Str) : Option (Except (Err Cls) Unit) :=
  match resolve table D s with
  | none => none
  | some (.error (.valueError m)) => some (.error (.invalidRef path m))
  | some (.error (.attributeError a)) => some (.error (.attributeError a))
  | some (.ok none) => some (.ok ())
  | some (.ok (some res)) =>
    match Path.expectedType U M path with
    | none => some (.error (.unknownType (Path.normalize U path)))
    | some expected =>
      if compatible table res.ty expected then some (.ok ()) else some (.error (.typeMismatch path res.path res.ty expected))

theorem checkString_eq (W : WF table D) {v : Val n} {s : Str} (h : IsReference table D v s) (path : Str) :
    validateReference table U M D v path = checkString U M D path s := by
  unfold validateReference checkString
  rw [isReference_getattr W h]
  simp only
  match resolve table D s with
  | none => rfl
  | some (.error (.valueError m)) => rfl
  | some (.error (.attributeError m)) => rfl
  | some (.ok none) => rfl
  | some (.ok (some res)) =>
    simp only
    cases Path.expectedType U M path with
    | none => rfl
    | some cs => rfl

/-- Check everything in the list, in order. -/
def checkAll (U : Uni) (M : List (Str × List Cls)) (D : Doc Cls n) (path : Str) (l : List (List LocStep × Str)) :
    Option (Except (Err Cls) Unit) :=
  seq (l.map fun e => checkString U M D (path ++ e.1.flatMap stepText) e.2)

theorem checkAll_below (path : Str) (st : LocStep) (l : List (List LocStep × Str)) :
    checkAll U M D path (below st l) = checkAll U M D (path ++ stepText st) l := by
  simp [checkAll, below, List.map_map, Function.comp_def, List.append_assoc]

theorem checkAll_append (path : Str) (l m : List (List LocStep × Str)) :
    checkAll U M D path (l ++ m) = seq (checkAll U M D path l :: m.map fun e => checkString U M D (path ++ e.1.flatMap stepText) e.2) := by
  simp [checkAll, seq_append]

theorem seq_single (r : Option (Except (Err Cls) Unit)) : seq [r] = r := by
  match r with
  | none => rfl
  | some (.ok ()) => rfl
  | some (.error e) => rfl

theorem seq_seq (r : Option (Except (Err Cls) Unit)) (l) : seq (r :: l) = seq [r, seq l] := by
  match r with
  | none => rfl
  | some (.ok ()) => simp [seq_ok_cons, seq_single]
  | some (.error e) => rfl

theorem checkAll_append' (path : Str) (l m : List (List LocStep × Str)) :
    checkAll U M D path (l ++ m) = seq [checkAll U M D path l, checkAll U M D path m] := by
  rw [checkAll_append, seq_seq]; rfl

theorem hidden_iff {c : Cls} {f : FieldDef Cls} (hf : f ∈ (classDef c).fields) : hiddenField c f.name = f.exclude := by
  cases he : f.exclude with
  | true =>
    simp only [hiddenField, List.any_eq_true, Bool.and_eq_true, decide_eq_true_eq]
    exact ⟨f, hf, rfl, he⟩
  | false =>
    rw [← Bool.not_eq_true]
    simp only [hiddenField, List.any_eq_true, Bool.and_eq_true, decide_eq_true_eq, not_exists, not_and]
    intro g hg hn
    rw [List.inj_on_of_nodup_map (names_nodup c) hg hf hn, he]; simp

theorem descends_snoc {a b c : Fin n} {ss st} (h : Descends table D a ss b) (hb : ∀ r, ¬ IsReference table D (.ptr b) r)
    (hc : Child table D b st (.ptr c)) : Descends table D a (ss ++ [st]) c := by
  induction h with
  | nil => exact .cons hb hc .nil
  | cons h1 h2 _ ih => exact .cons h1 h2 (ih hb hc)

/-- The traversal. -/
theorem validateRec_refs {doc : V} (hD : Depicts D doc) (hS : Sound U limit doc) (fuel : Nat) :
    ∀ (visited : List (Fin n)) (x : Val n) (w : V) (path : Str), Rep D x w → Sound U limit w → visited.Nodup →
      n + 1 ≤ fuel + visited.length →
      (∀ a, x = .ptr a → ∀ b ∈ visited, ∃ st ss, Descends table D b (st :: ss) a) →
      validateRec table U M D fuel visited x path = checkAll U M D path (refsIn w) := by
  have W := represents_wf hD hS
  induction fuel with
  | zero => intro visited x w path _ _ hnd hk; have := Unified.length_le_of_nodup hnd; omega
  | succ k ih =>
    intro visited x w path hr hs hnd hk hvis
    cases x with
    | ptr a =>
      have ha : a ∉ visited := fun hm => by
        obtain ⟨st, ss, hd⟩ := hvis a rfl a hm
        exact represents_acyclic hD a st ss hd
      have hnd' : (a :: visited).Nodup := List.nodup_cons.2 ⟨ha, hnd⟩
      by_cases hR : D.isRef table (.ptr a) = true
      · obtain ⟨s, hs'⟩ := (isRef_iff W _).1 hR
        have e1 : validateRec table U M D (k+1) visited (.ptr a) path = validateReference table U M D (.ptr a) path := by
          simp [validateRec, ha, hR]
        rw [e1, checkString_eq W hs']
        obtain ⟨fs, ex, set, rfl, hm⟩ := (reference_iff hr).1 hs'
        have hn : (fs.map (·.1)).Nodup := by rw [valid_names (sound_inst hs)]; exact names_nodup _
        simp [refsIn, refString, (lookup_iff hn).2 hm, checkAll, seq_single]
      have hr' : ∀ s, ¬ IsReference table D (.ptr a) s := fun s hs => hR ((isRef_iff W _).2 ⟨s, hs⟩)
      have hchild : ∀ st y, Child table D a st y → ∀ c, y = .ptr c → ∀ b ∈ a :: visited, ∃ st ss, Descends table D b (st :: ss) c := by
        rintro st y hc c rfl b hb
        rcases List.mem_cons.1 hb with rfl | hb
        · exact ⟨st, [], .cons hr' hc .nil⟩
        · obtain ⟨st', ss, hd⟩ := hvis a rfl b hb
          exact ⟨st', ss ++ [st], descends_snoc hd hr' hc⟩
      have hk' : n + 1 ≤ k + (a :: visited).length := by simp; omega
      simp only [validateRec, if_neg ha, if_neg hR]
      cases hn : D.node a with
      | list xs =>
        obtain ⟨l, rfl, hlen, hx⟩ := rep_of_list hr hn
        have hsl : ∀ v ∈ l, Sound U limit v := by cases hs with | list h => exact h
        simp only [refsIn]
        have key : ∀ (l' : List V) (xs' : List (Val n)) (i : Nat), xs'.length = l'.length → (∀ j, xs'[j]? = xs[i + j]?) → (∀ j, l'[j]? = l[i + j]?) →
            seq ((xs'.zipIdx i).map fun (x, i) => validateRec table U M D k (a :: visited) x (path ++ '[' :: (digits i ++ [']']))) =
            checkAll U M D path (refsItems i l') := by
          intro l'
          induction l' with
          | nil => intro xs' i hl _ _; have : xs' = [] := by simpa using hl
                   subst this; rfl
          | cons v l' ih' =>
            intro xs' i hl h1 h2
            cases xs' with
            | nil => simp at hl
            | cons x xs' =>
              have e1 : xs[i]? = some x := by have := h1 0; simpa using this.symm
              have e2 : l[i]? = some v := by have := h2 0; simpa using this.symm
              simp only [List.zipIdx_cons, List.map_cons, refsItems]
              rw [checkAll_append', seq_seq]
              refine seq_cons_congr ?_ (seq_cons_congr ?_ rfl)
              · rw [checkAll_below]
                exact ih _ x v _ (hx i x v e1 e2) (hsl v (List.mem_of_getElem? e2)) hnd' hk' (hchild _ x (.item hn e1))
              · exact ih' xs' (i + 1) (by simpa using hl) (fun j => by have := h1 (j + 1); rw [Nat.add_assoc, Nat.add_comm 1 j]; simpa using this)
                  (fun j => by have := h2 (j + 1); rw [Nat.add_assoc, Nat.add_comm 1 j]; simpa using this)
        exact key l xs 0 hlen (by simp) (by simp)
      | dict kvs =>
        obtain ⟨d, rfl, hp⟩ := rep_of_dict hr hn
        have hsl : ∀ e ∈ d, Sound U limit e.2 := by cases hs with | dict _ h => exact h
        simp only [refsIn]
        have key : ∀ (d' : List (Str × V)) (kvs' : List (Str × Val n)), Pairs D kvs' d' → (∀ e ∈ kvs', e ∈ kvs) → (∀ e ∈ d', e ∈ d) →
            seq (kvs'.map fun (key, x) => validateRec table U M D k (a :: visited) x (path ++ '.' :: Path.escape key)) =
            checkAll U M D path (refsEntries d') := by
          intro d'
          induction d' with
          | nil => intro kvs' hp _ _; have : kvs' = [] := by simpa using hp.1
                   subst this; rfl
          | cons e d' ih' =>
            intro kvs' hp h1 h2
            cases kvs' with
            | nil => have := hp.1; simp at this
            | cons g kvs' =>
              obtain ⟨hkey, hrep, hp'⟩ := hp.cons
              obtain ⟨kk, v⟩ := e
              obtain ⟨kk', x⟩ := g
              simp only at hkey hrep
              subst hkey
              simp only [List.map_cons, refsEntries]
              rw [checkAll_append', seq_seq]
              refine seq_cons_congr ?_ (seq_cons_congr ?_ rfl)
              · rw [checkAll_below, Path.escape_eq]
                exact ih _ x v _ hrep (hsl _ (h2 _ (List.mem_cons_self ..))) hnd' hk' (hchild _ x (.entry hn (h1 _ (List.mem_cons_self ..))))
              · exact ih' kvs' hp' (fun e he => h1 e (by simp [he])) (fun e he => h2 e (by simp [he]))
        exact key d kvs hp (fun _ h => h) (fun _ h => h)
      | model c gs hx =>
        obtain ⟨fs, ex, set, rfl, hp, -⟩ := rep_of_model hr hn
        have hcr : c ≠ .Reference := by
          rintro rfl
          obtain ⟨s, hs'⟩ := W.refField a _ _ _ hn (table_sub.2 rfl)
          exact hr' s ⟨a, _, _, _, rfl, hn, table_sub.2 rfl, hs'⟩
        have hsl : ∀ e ∈ fs, Sound U limit e.2 := by cases hs with | inst _ h _ _ => exact h
        have hnames := valid_names (sound_inst hs)
        simp only [refsIn, if_neg hcr]
        have key : ∀ (L : List (FieldDef Cls)) (fs' : List (Str × V)) (gs' : List (Str × Val n)), Pairs D gs' fs' →
            fs'.map (·.1) = L.map (·.name) → (∀ f ∈ L, f ∈ (classDef c).fields) → (∀ e ∈ gs', e ∈ gs) → (∀ e ∈ fs', e ∈ fs) →
            seq ((L.map fun f => (⟨f.name, f.alias, f.exclude⟩ : FieldInfo)).map fun f =>
              match D.getattr (.ptr a) f.name with
              | none => some (.error (.attributeError f.name))
              | some x =>
                if x = .none ∨ f.exclude = true then some (.ok ())
                else validateRec table U M D k (a :: visited) x (path ++ '.' :: f.name)) =
            checkAll U M D path (refsFields c fs') := by
          intro L
          induction L with
          | nil => intro fs' gs' _ h _ _ _; have : fs' = [] := by simpa using h
                   subst this; rfl
          | cons f L ih' =>
            intro fs' gs' hp h hL h1 h2
            cases fs' with
            | nil => simp at h
            | cons e fs' =>
              cases gs' with
              | nil => have := hp.1; simp at this
              | cons g gs' =>
                obtain ⟨hkey, hrep, hp'⟩ := hp.cons
                obtain ⟨kk, v⟩ := e
                obtain ⟨kk', x⟩ := g
                simp only [List.map_cons, List.cons.injEq] at h
                simp only at hkey hrep
                subst hkey
                obtain ⟨h0, h⟩ := h
                subst h0
                have hfc := hL f (by simp)
                have hgx := h1 _ (List.mem_cons_self ..)
                simp only [List.map_cons, refsFields]
                rw [checkAll_append', seq_seq]
                refine seq_cons_congr ?_ (seq_cons_congr ?_ rfl)
                · rw [getattr_field W hn hgx, hidden_iff hfc]
                  simp only
                  by_cases hex : f.exclude = true
                  · simp [hex, checkAll, seq]
                  · have hex' : f.exclude = false := by simpa using hex
                    by_cases hxn : x = .none
                    · subst hxn
                      rw [rep_of_none hrep]
                      simp [refsIn, below, checkAll, seq]
                    · rw [if_neg (by simp [hxn, hex']), if_neg hex, checkAll_below]
                      exact ih _ x v _ hrep (hsl _ (h2 _ (List.mem_cons_self ..))) hnd' hk'
                        (hchild _ x (.field (f := ⟨f.name, f.alias, f.exclude⟩) hn (mem_table.2 ⟨f, hfc, rfl⟩) (by simpa using hex) hgx hxn))
                · exact ih' fs' gs' hp' h (fun f hf => hL f (by simp [hf])) (fun e he => h1 e (by simp [he])) (fun e he => h2 e (by simp [he]))
        have := key (classDef c).fields fs gs hp hnames (fun _ h => h) (fun _ h => h) (fun _ h => h)
        exact this
    | _ =>
      have : refsIn w = [] := by cases hr <;> rfl
      rw [this]; rfl


/-! ### The list of References -/

theorem mem_below {st : LocStep} {l : List (List LocStep × Str)} {steps s} :
    (steps, s) ∈ below st l ↔ ∃ ss, steps = st :: ss ∧ (ss, s) ∈ l := by
  simp only [below, List.mem_map, Prod.mk.injEq, Prod.exists]
  constructor
  · rintro ⟨ss, s', h, rfl, rfl⟩; exact ⟨ss, rfl, h⟩
  · rintro ⟨ss, rfl, h⟩; exact ⟨ss, s, h, rfl, rfl⟩

theorem mem_refsItems {l : List V} {i : Nat} {steps s} :
    (steps, s) ∈ refsItems i l ↔ ∃ j v ss, l[j]? = some v ∧ steps = .index (i + j) :: ss ∧ (ss, s) ∈ refsIn v := by
  induction l generalizing i with
  | nil => simp [refsItems]
  | cons v l ih =>
    simp only [refsItems, List.mem_append, mem_below, ih]
    constructor
    · rintro (⟨ss, rfl, h⟩ | ⟨j, w, ss, h1, rfl, h⟩)
      · exact ⟨0, v, ss, rfl, rfl, h⟩
      · exact ⟨j + 1, w, ss, by simpa using h1, by rw [Nat.add_assoc, Nat.add_comm 1 j], h⟩
    · rintro ⟨j, w, ss, h1, rfl, h⟩
      cases j with
      | zero => simp at h1; subst h1; exact .inl ⟨ss, rfl, h⟩
      | succ j => exact .inr ⟨j, w, ss, by simpa using h1, by rw [Nat.add_assoc, Nat.add_comm 1 j], h⟩

theorem mem_refsEntries {d : List (Str × V)} {steps s} :
    (steps, s) ∈ refsEntries d ↔ ∃ k v ss, (k, v) ∈ d ∧ steps = .key k :: ss ∧ (ss, s) ∈ refsIn v := by
  induction d with
  | nil => simp [refsEntries]
  | cons e d ih =>
    obtain ⟨k, v⟩ := e
    simp only [refsEntries, List.mem_append, mem_below, ih]
    constructor
    · rintro (⟨ss, rfl, h⟩ | ⟨j, w, ss, h1, rfl, h⟩)
      · exact ⟨k, v, ss, by simp, rfl, h⟩
      · exact ⟨j, w, ss, by simp [h1], rfl, h⟩
    · rintro ⟨j, w, ss, h1, rfl, h⟩
      rcases List.mem_cons.1 h1 with e | h1
      · cases e; exact .inl ⟨ss, rfl, h⟩
      · exact .inr ⟨j, w, ss, h1, rfl, h⟩

theorem mem_refsFields {c : Cls} {d : List (Str × V)} {steps s} :
    (steps, s) ∈ refsFields c d ↔
      ∃ k v ss, (k, v) ∈ d ∧ hiddenField c k = false ∧ steps = .field k :: ss ∧ (ss, s) ∈ refsIn v := by
  induction d with
  | nil => simp [refsFields]
  | cons e d ih =>
    obtain ⟨k, v⟩ := e
    have : (steps, s) ∈ (if hiddenField c k = true then [] else below (.field k) (refsIn v)) ↔
        hiddenField c k = false ∧ ∃ ss, steps = .field k :: ss ∧ (ss, s) ∈ refsIn v := by
      split <;> rename_i hh
      · simp [hh]
      · simp only [Bool.not_eq_true] at hh
        simp only [hh, true_and, mem_below]
    simp only [refsFields, List.mem_append, this, ih]
    constructor
    · rintro (⟨hh, ss, rfl, h⟩ | ⟨j, w, ss, h1, hh, rfl, h⟩)
      · exact ⟨k, v, ss, by simp, hh, rfl, h⟩
      · exact ⟨j, w, ss, by simp [h1], hh, rfl, h⟩
    · rintro ⟨j, w, ss, h1, hh, rfl, h⟩
      rcases List.mem_cons.1 h1 with e | h1
      · cases e; exact .inl ⟨hh, ss, rfl, h⟩
      · exact .inr ⟨j, w, ss, h1, hh, rfl, h⟩

theorem mem_refString {fs : List (Str × V)} {steps s} (hn : (fs.map (·.1)).Nodup) :
    (steps, s) ∈ refString fs ↔ steps = [] ∧ (p!"ref", .str s) ∈ fs := by
  unfold refString
  rw [← lookup_iff hn]
  split
  · rename_i h; simp [h, eq_comm]
  · rename_i h
    simp only [List.not_mem_nil, false_iff, not_and]
    intro _ h'
    exact h _ h'

/-- The list holds exactly the References of the document, with their locations. -/
theorem mem_refsIn {steps s} : ∀ {w : V}, Sound U limit w →
    ((steps, s) ∈ refsIn w ↔ ∃ u, TAt w steps u ∧ TRef u s) := by
  induction steps with
  | nil =>
    intro w hs
    have e : (∃ u, TAt w [] u ∧ TRef u s) ↔ TRef w s := by
      constructor
      · rintro ⟨u, h, h'⟩; cases h; exact h'
      · exact fun h => ⟨w, .nil, h⟩
    rw [e]
    cases w with
    | list l => simp [refsIn, mem_refsItems, TRef]
    | dict d => simp [refsIn, mem_refsEntries, TRef]
    | inst c fs ex set =>
      have hn : (fs.map (·.1)).Nodup := by rw [valid_names (sound_inst hs)]; exact names_nodup _
      simp only [refsIn]
      split
      · rename_i hc; subst hc
        rw [mem_refString hn]
        constructor
        · rintro ⟨_, h⟩; exact ⟨fs, ex, set, rfl, h⟩
        · rintro ⟨_, _, _, e, h⟩; cases e; exact ⟨rfl, h⟩
      · rename_i hc
        simp only [mem_refsFields]
        constructor
        · rintro ⟨_, _, _, _, _, h, _⟩; cases h
        · rintro ⟨_, _, _, e, h⟩; cases e; exact absurd rfl hc
    | _ => simp [refsIn, TRef]
  | cons st ss ih =>
    intro w hs
    have e : (∃ u, TAt w (st :: ss) u ∧ TRef u s) ↔ ∃ v, TChild w st v ∧ (ss, s) ∈ refsIn v := by
      constructor
      · rintro ⟨u, h, h'⟩
        cases h with
        | cons h1 h2 => exact ⟨_, h1, (ih (sound_within hs (tchild_within h1))).2 ⟨u, h2, h'⟩⟩
      · rintro ⟨v, h, h'⟩
        obtain ⟨u, h1, h2⟩ := (ih (sound_within hs (tchild_within h))).1 h'
        exact ⟨u, .cons h h1, h2⟩
    rw [e]
    cases w with
    | list l =>
      simp only [refsIn, mem_refsItems, Nat.zero_add]
      constructor
      · rintro ⟨j, v, ss', h1, h2, h3⟩; cases h2; exact ⟨v, .item h1, h3⟩
      · rintro ⟨v, h1, h2⟩
        cases h1 with | item h1 => exact ⟨_, v, ss, h1, rfl, h2⟩
    | dict d =>
      simp only [refsIn, mem_refsEntries]
      constructor
      · rintro ⟨k, v, ss', h1, h2, h3⟩; cases h2; exact ⟨v, .entry h1, h3⟩
      · rintro ⟨v, h1, h2⟩
        cases h1 with | entry h1 => exact ⟨_, v, ss, h1, rfl, h2⟩
    | inst c fs ex set =>
      have hnames := valid_names (sound_inst hs)
      have hn : (fs.map (·.1)).Nodup := by rw [hnames]; exact names_nodup _
      simp only [refsIn]
      split
      · rename_i hc; subst hc
        rw [mem_refString hn]
        constructor
        · rintro ⟨h, _⟩; cases h
        · rintro ⟨v, h1, h2⟩
          obtain ⟨u, h3, fs', ex', set', e, -⟩ := (ih (sound_within hs (tchild_within h1))).1 h2
          obtain ⟨t, ht⟩ := reference_leaf hs ⟨fs, ex, set, rfl⟩ h1 h3
          rw [ht] at e; cases e
      · simp only [mem_refsFields]
        constructor
        · rintro ⟨k, v, ss', h1, h2, h3, h4⟩
          cases h3
          obtain ⟨f, hf, rfl⟩ : ∃ f ∈ (classDef c).fields, f.name = k := by
            have : k ∈ fs.map (·.1) := List.mem_map.2 ⟨_, h1, rfl⟩
            rw [hnames] at this
            simpa using this
          refine ⟨v, .field hf (by rw [← hidden_iff hf]; exact h2) h1 ?_, h4⟩
          rintro rfl
          simp [refsIn] at h4
        · rintro ⟨v, h1, h2⟩
          cases h1 with
          | field hf he hm hne => exact ⟨_, v, ss, hm, by rw [hidden_iff hf]; exact he, rfl, h2⟩
    | _ =>
      simp only [refsIn, List.not_mem_nil, false_iff]
      rintro ⟨v, h, _⟩; cases h

/-! ### The complaint -/

theorem pathText_eq (x : Str) (segs : List Str) : pathText x segs = x ++ segs.flatMap ('.' :: ·) := by
  induction segs generalizing x with
  | nil => simp [pathText]
  | cons s l ih =>
    have : pathText x (s :: l) = pathText (x ++ '.' :: s) l := rfl
    rw [this, ih]; simp

theorem typeOf_kind {x : Val n} {v : V} (h : Rep D x v) : D.typeOf x = kindOf v := by
  cases h <;> simp_all [Doc.typeOf, kindOf]

theorem stuck_down {part path : Str} {x : Val n} {m : Msg} (h : Stuck table D part path x m) {w : V} (hr : Rep D x w) :
    TStuck part path w m := by
  cases h with
  | root hd hk =>
    obtain ⟨d, hd', hp⟩ := root_down hr hd
    refine .root hd' fun u hu => ?_
    obtain ⟨x, hx, -⟩ := hp.up hu
    exact hk x hx
  | dict hn hk =>
    obtain ⟨d, rfl, hp⟩ := rep_of_dict hr hn
    refine .dict fun u hu => ?_
    obtain ⟨x, hx, -⟩ := hp.up hu
    exact hk x hx
  | field hn hno hf =>
    have hno' : ∀ d, ¬ TRoot w d := fun d hd => by
      obtain ⟨kvs, hk, -⟩ := root_up hr hd
      exact hno kvs hk
    obtain ⟨fs, ex, set, rfl, hp, -⟩ := rep_of_model hr hn
    exact .field hno' fun f hf' h => hf _ (mem_table.2 ⟨f, hf', rfl⟩) h
  | @null a c gs hs f hn hno hf hname hk =>
    have hno' : ∀ d, ¬ TRoot w d := fun d hd => by
      obtain ⟨kvs, hk, -⟩ := root_up hr hd
      exact hno kvs hk
    obtain ⟨fs, ex, set, rfl, hp, -⟩ := rep_of_model hr hn
    obtain ⟨g, hg, rfl⟩ := mem_table.1 hf
    obtain ⟨u, hu, hru⟩ := hp.down hk
    rw [rep_of_none hru] at hu
    exact .null hno' hg hname hu
  | other h1 h2 =>
    refine .other ?_ ?_
    · rintro d rfl
      obtain ⟨a, kvs, rfl, ha, -⟩ := rep_dict hr
      simp [Doc.asDict, ha] at h2
    · rintro c fs ex set rfl
      obtain ⟨a, gs, hs, rfl, ha, -⟩ := rep_inst hr
      simp [Doc.asModel, ha] at h1

theorem explains_down {doc : V} (h : Depicts D doc) {ref : Str} {m : Msg} (he : Explains table D ref m) : TExplains doc ref m := by
  cases he with
  | unsupported h => exact .unsupported h
  | empty h1 h2 => exact .empty h1 h2
  | stuck h1 h2 h3 =>
    obtain ⟨u, hu, hr⟩ := walk_down h2 h.1
    refine .stuck h1 hu ?_
    have := stuck_down h3 hr
    rwa [pathText_eq] at this

theorem goes_snoc {α : Type} {R : α → α → Prop} {s l r t} (h : Goes R s l r) (hr : r ∉ l) (ht : R r t) : Goes R s (l ++ [r]) t := by
  induction h with
  | here => exact .hop ht .here (by simp)
  | @hop s u l r h1 h2 h3 ih =>
    rw [List.mem_cons, not_or] at hr
    refine .hop h1 (ih hr.2 ht) ?_
    intro hm
    rcases List.mem_append.1 hm with hm | hm
    · exact h3 hm
    · simp at hm; exact hr.1 hm.symm

theorem goes_reaches {α : Type} {R : α → α → Prop} {s : α} {l r} (h : Goes R s l r) :
    Relation.ReflTransGen R s r ∧ ∀ x ∈ l, Relation.TransGen R x r := by
  induction h with
  | here => exact ⟨.refl, by simp⟩
  | hop h1 _ _ ih =>
    refine ⟨ih.1.head h1, fun x hx => ?_⟩
    rcases List.mem_cons.1 hx with rfl | hx
    · exact .head' h1 ih.1
    · exact ih.2 x hx

theorem goes_nodup {α : Type} {R : α → α → Prop} {s : α} {l r} (h : Goes R s l r) : l.Nodup := by
  induction h with
  | here => exact .nil
  | hop _ _ h3 ih => exact List.nodup_cons.2 ⟨h3, ih⟩

theorem goes_compare {α : Type} {R : α → α → Prop} (hu : ∀ a b c, R a b → R a c → b = c) {s : α} {l r} (h : Goes R s l r) :
    ∀ {l' r'}, Goes R s l' r' → (l = l' ∧ r = r') ∨ (∃ m, l' = l ++ r :: m) ∨ (∃ m, l = l' ++ r' :: m) := by
  induction h with
  | here =>
    intro l' r' h'
    cases h' with
    | here => exact .inl ⟨rfl, rfl⟩
    | hop _ _ _ => exact .inr (.inl ⟨_, rfl⟩)
  | hop h1 _ _ ih =>
    intro l' r' h'
    cases h' with
    | here => exact .inr (.inr ⟨_, rfl⟩)
    | hop h1' h2' _ =>
      cases hu _ _ _ h1 h1'
      rcases ih h2' with ⟨rfl, rfl⟩ | ⟨m, rfl⟩ | ⟨m, rfl⟩
      · exact .inl ⟨rfl, rfl⟩
      · exact .inr (.inl ⟨m, rfl⟩)
      · exact .inr (.inr ⟨m, rfl⟩)

theorem goes_unique {α : Type} {R : α → α → Prop} (hu : ∀ a b c, R a b → R a c → b = c) {s : α} {l r l' r'} (h : Goes R s l r)
    (hr : r ∈ l) (h' : Goes R s l' r') (hr' : r' ∈ l') : r = r' := by
  rcases goes_compare hu h h' with ⟨_, e⟩ | ⟨m, rfl⟩ | ⟨m, rfl⟩
  · exact e
  · have := goes_nodup h'
    rw [List.nodup_append] at this
    exact absurd rfl (this.2.2 r hr r (by simp))
  · have := goes_nodup h
    rw [List.nodup_append] at this
    exact absurd rfl (this.2.2 r' hr' r' (by simp))

/-- Which string the resolver calls circular. -/
theorem resolveFuel_circular (W : WF table D) (k : Nat) (visited : List Str) (s ref r : Str) (hg : Goes (Hop table D) s visited.reverse ref)
    (h : resolveFuel table D k visited ref = some (.error (.valueError (.circular r)))) : ∃ l, Goes (Hop table D) s l r ∧ r ∈ l := by
  induction k generalizing visited ref with
  | zero => simp [resolveFuel] at h
  | succ k ih =>
    rcases resolveFuel_succ W C06_package_unambiguous k visited ref with ⟨hv, he⟩ | ⟨hv, ⟨o, ho, hk⟩ | ⟨next, hn, he⟩⟩
    · rw [he] at h; cases h
      exact ⟨_, hg, by simpa using hv⟩
    · rw [hk k] at h; subst h
      cases ho with | broken _ _ hm _ => exact absurd rfl (hm r)
    · rw [he] at h
      exact ih (ref :: visited) next (by simpa using goes_snoc hg (by simpa using hv) hn) h

/-- What is said about a Reference that fails the check. -/
theorem complaint {doc : V} (h : Depicts D doc) (hs : Sound U limit doc) {steps : List LocStep} {s : Str} {e : Err Cls}
    (he : checkString U M D (render steps) s = some (.error e)) :
    Complaint doc steps (Path.expectedType U M (render steps)) (Path.normalize U (render steps)) s e := by
  have W := represents_wf h hs
  have Un := C06_package_unambiguous
  unfold checkString at he
  rcases resolve_cases W Un s with ⟨r, hr, ho⟩ | ⟨r, ho, hr, hc⟩
  · have hr' : THops doc s r := by unfold THops; rw [← hop_eq h]; exact hr
    generalize resolve table D s = out at ho he
    cases ho with
    | external hx => simp at he
    | broken hd hx hm hex =>
      simp only [Option.some.injEq, Except.error.injEq] at he
      subst he
      exact .broken hr' hx (explains_down h hex)
    | @lands v segs hl hsp =>
      simp only at he
      obtain ⟨⟨hx, segs', hsp', hw⟩, hnr⟩ := hl
      cases spells_unique hsp hsp'
      obtain ⟨u, hu, hru⟩ := walk_down hw h.1
      have hnt : ∀ t, ¬ TRef u t := fun t ht => hnr t ((reference_iff hru).2 ht)
      split at he
      · rename_i hexp
        simp only [Option.some.injEq, Except.error.injEq] at he
        subst he
        exact .unknown hr' ⟨hx, segs, hsp, hu⟩ hnt hexp
      · rename_i cs hexp
        split at he
        · cases he
        · rename_i hcomp
          simp only [Option.some.injEq, Except.error.injEq] at he
          subst he
          rw [typeOf_kind hru] at hcomp ⊢
          rw [pathText_eq]
          refine .mismatch hr' hsp hu hnt hexp fun c hc hk => hcomp ?_
          rw [compatible_iff]
          exact ⟨c, hk, c, hc, .inl rfl⟩
  · obtain ⟨l, hl, hm⟩ := resolveFuel_circular W _ [] s s r .here ho
    rw [ho] at he
    simp only [Option.some.injEq, Except.error.injEq] at he
    subst he
    rw [hop_eq h] at hl
    exact .circular hl hm

theorem checkString_ok {doc : V} (h : Depicts D doc) (hs : Sound U limit doc) {steps : List LocStep} {s : Str}
    (hm : (steps, s) ∈ refsIn doc) :
    checkString U M D (render steps) s = some (.ok ()) ↔ TRefOk doc (Path.expectedType U M (render steps)) s := by
  obtain ⟨b, _, hb⟩ := (descends_iff h hs).2 ((mem_refsIn hs).1 hm)
  rw [← checkString_eq (represents_wf h hs) hb, validateReference_ok (represents_wf h hs) C06_package_unambiguous hb, refOk_iff h hs]


/-! ### It determines the error -/

theorem dict_unique {d : List (Str × V)} {k v w} (hn : (d.map (·.1)).Nodup) (h : (k, v) ∈ d) (h' : (k, w) ∈ d) : v = w := by
  rw [← lookup_iff hn] at h h'
  rw [h] at h'; cases h'; rfl

theorem inst_nodup {c fs ex set} (h : Sound U limit (.inst c fs ex set)) : (fs.map (·.1)).Nodup := by
  rw [valid_names (sound_inst h)]; exact names_nodup _

theorem troot_unique {v : V} (hs : Sound U limit v) {d d'} (h : TRoot v d) (h' : TRoot v d') : d = d' := by
  obtain ⟨c, fs, ex, set, rfl, h⟩ := h
  obtain ⟨_, _, _, _, e, h'⟩ := h'
  cases e
  have hn := inst_nodup hs
  have hx : (ex.map (·.1)).Nodup := by cases hs with | inst _ _ h _ => exact h
  rcases h with h | ⟨hno, h⟩ <;> rcases h' with h' | ⟨hno', h'⟩
  · cases dict_unique hn h h'; rfl
  · exact absurd h (hno' _)
  · exact absurd h' (hno _)
  · cases dict_unique hx h h'; rfl

theorem troot_sound {v : V} (hs : Sound U limit v) {d} (h : TRoot v d) : (d.map (·.1)).Nodup := by
  obtain ⟨c, fs, ex, set, rfl, h⟩ := h
  have key : Sound U limit (.dict d) := by
    cases hs with
    | inst _ h1 _ h2 =>
      rcases h with h | ⟨_, h⟩
      · exact h1 _ h
      · exact h2 _ h
  cases key with | dict h _ => exact h

theorem same_field {c : Cls} {f g : FieldDef Cls} {k : Str} (hf : f ∈ (classDef c).fields) (hg : g ∈ (classDef c).fields)
    (h : f.name = k ∨ f.alias = some k) (h' : g.name = k ∨ g.alias = some k) : f.name = g.name := by
  have := C06_package_unambiguous c _ (mem_table.2 ⟨f, hf, rfl⟩) _ (mem_table.2 ⟨g, hg, rfl⟩) k h h'
  exact congrArg FieldInfo.name this

theorem tstep_unique {v : V} (hs : Sound U limit v) {k u w} (h : TStep v k u) (h' : TStep v k w) : u = w := by
  cases h with
  | root h1 h2 =>
    cases h' with
    | root h1' h2' => cases troot_unique hs h1 h1'; exact dict_unique (troot_sound hs h1) h2 h2'
    | dict h2' => obtain ⟨_, _, _, _, e, _⟩ := h1; cases e
    | field h0 => exact absurd h1 (h0 _)
  | dict h2 =>
    cases h' with
    | root h1' => obtain ⟨_, _, _, _, e, _⟩ := h1'; cases e
    | dict h2' => cases hs with | dict hn _ => exact dict_unique hn h2 h2'
  | field h0 h1 h2 h3 h4 =>
    cases h' with
    | root h1' => exact absurd h1' (h0 _)
    | field h0' h1' h2' h3' h4' =>
      rw [same_field h1 h1' h2 h2'] at h3
      exact dict_unique (inst_nodup hs) h3 h3'

theorem tstep_within {v w : V} {k} (h : TStep v k w) : Within w v := by
  cases h with
  | root h1 h2 =>
    obtain ⟨c, fs, ex, set, rfl, h | ⟨_, h⟩⟩ := h1
    · exact .field h (.entry h2 .refl)
    · exact .extra h (.entry h2 .refl)
  | dict h => exact .entry h .refl
  | field _ _ _ h _ => exact .field h .refl

theorem twalk_unique {ks} : ∀ {v u w : V}, Sound U limit v → TWalk v ks u → TWalk v ks w → u = w := by
  induction ks with
  | nil => intro v u w _ h h'; cases h; cases h'; rfl
  | cons k ks ih =>
    intro v u w hs h h'
    cases h with
    | cons h1 h2 =>
      cases h' with
      | cons h1' h2' =>
        cases tstep_unique hs h1 h1'
        exact ih (sound_within hs (tstep_within h1)) h2 h2'

theorem twalk_within {ks} : ∀ {v u : V}, TWalk v ks u → Within u v := by
  induction ks with
  | nil => intro v u h; cases h; exact .refl
  | cons k ks ih => intro v u h; cases h with | cons h1 h2 => exact within_trans (ih h2) (tstep_within h1)

theorem twalk_split {a b : List Str} : ∀ {v u : V}, TWalk v (a ++ b) u → ∃ w, TWalk v a w ∧ TWalk w b u := by
  induction a with
  | nil => exact fun h => ⟨_, .nil, h⟩
  | cons k a ih =>
    intro v u h
    cases h with
    | cons h1 h2 => obtain ⟨w, hw, hu⟩ := ih h2; exact ⟨w, .cons h1 hw, hu⟩

theorem tdenotes_unique {doc u w : V} (hs : Sound U limit doc) {r} (h : TDenotes doc r u) (h' : TDenotes doc r w) : u = w := by
  obtain ⟨_, s, h1, h2⟩ := h
  obtain ⟨_, s', h1', h2'⟩ := h'
  cases spells_unique h1 h1'
  exact twalk_unique hs h2 h2'

theorem tref_unique {v : V} (hs : Sound U limit v) {s t} (h : TRef v s) (h' : TRef v t) : s = t := by
  obtain ⟨fs, ex, set, rfl, h⟩ := h
  obtain ⟨_, _, _, e, h'⟩ := h'
  cases e
  cases dict_unique (inst_nodup hs) h h'; rfl

theorem tdenotes_within {doc u : V} {r} (h : TDenotes doc r u) : Within u doc := by
  obtain ⟨_, s, h1, h2⟩ := h; exact twalk_within h2

theorem thop_unique {doc : V} (hs : Sound U limit doc) : ∀ a b c, THop doc a b → THop doc a c → b = c := by
  rintro a b c ⟨v, h1, h2⟩ ⟨v', h1', h2'⟩
  cases tdenotes_unique hs h1 h1'
  exact tref_unique (sound_within hs (tdenotes_within h1)) h2 h2'

theorem stuck_step {v : V} (hs : Sound U limit v) {part path m} (h : TStuck part path v m) {w} (h' : TStep v part w) : False := by
  cases h with
  | root h1 h2 =>
    cases h' with
    | root h1' h2' => cases troot_unique hs h1 h1'; exact h2 _ h2'
    | dict => obtain ⟨_, _, _, _, e, _⟩ := h1; cases e
    | field h0 => exact h0 _ h1
  | dict h2 =>
    cases h' with
    | root h1' => obtain ⟨_, _, _, _, e, _⟩ := h1'; cases e
    | dict h2' => exact h2 _ h2'
  | field h0 h1 =>
    cases h' with
    | root h1' => exact h0 _ h1'
    | field _ h1' h2' => exact h1 _ h1' h2'
  | null h0 h1 h2 h3 =>
    cases h' with
    | root h1' => exact h0 _ h1'
    | field _ h1' h2' h3' h4' =>
      rw [same_field h1 h1' h2 h2'] at h3
      exact h4' (dict_unique (inst_nodup hs) h3' h3)
  | other h1 h2 =>
    cases h' with
    | root h1' => obtain ⟨_, _, _, _, e, _⟩ := h1'; exact h2 _ _ _ _ e
    | dict => exact h1 _ rfl
    | field => exact h2 _ _ _ _ rfl

theorem stuck_unique {v : V} {part path m m'} (h : TStuck part path v m) (h' : TStuck part path v m') : m = m' := by
  cases h with
  | root h1 _ =>
    cases h' with
    | root => rfl
    | dict => rfl
    | field h0 => exact absurd h1 (h0 _)
    | null h0 => exact absurd h1 (h0 _)
    | other _ h2 => obtain ⟨_, _, _, _, e, _⟩ := h1; exact absurd e (h2 _ _ _ _)
  | dict =>
    cases h' with
    | root => rfl
    | dict => rfl
    | other h1 => exact absurd rfl (h1 _)
  | field h0 h1 =>
    cases h' with
    | root h1' => exact absurd h1' (h0 _)
    | field => rfl
    | null _ h1' h2' => exact absurd h2' (h1 _ h1')
    | other _ h2 => exact absurd rfl (h2 _ _ _ _)
  | null h0 h1 h2 =>
    cases h' with
    | root h1' => exact absurd h1' (h0 _)
    | field _ h1' => exact absurd h2 (h1' _ h1)
    | null => rfl
    | other _ h2 => exact absurd rfl (h2 _ _ _ _)
  | other h1 h2 =>
    cases h' with
    | root h1' => obtain ⟨_, _, _, _, e, _⟩ := h1'; exact absurd e (h2 _ _ _ _)
    | dict => exact absurd rfl (h1 _)
    | field => exact absurd rfl (h2 _ _ _ _)
    | null => exact absurd rfl (h2 _ _ _ _)
    | other => rfl

theorem pieces_slashes : ∀ l : Str, (∀ c ∈ l, c = '/') → Str.pieces '/' l = []
  | [], _ => rfl
  | c :: l, h => by
    cases h c (by simp)
    rw [Str.pieces_cons_sep]
    exact pieces_slashes l fun c hc => h c (by simp [hc])

theorem explains_nowhere {doc : V} (hs : Sound U limit doc) {r m} (h : TExplains doc r m) {v} (h' : TDenotes doc r v) : False := by
  obtain ⟨_, segs, hsp, hw⟩ := h'
  cases h with
  | unsupported h => obtain ⟨ps, e, _⟩ := hsp; exact h _ e
  | empty h1 h2 =>
    rw [spells_iff] at hsp
    obtain ⟨_, e, hne⟩ := hsp
    apply hne
    rw [e, segsOf, h1]
    exact pieces_slashes _ h2
  | stuck h1 h2 h3 =>
    cases spells_unique hsp h1
    obtain ⟨u, hu, hw⟩ := twalk_split hw
    cases twalk_unique hs h2 hu
    cases hw with
    | cons hst _ => exact stuck_step (sound_within hs (twalk_within h2)) h3 hst

theorem explains_unique {doc : V} (hs : Sound U limit doc) {r m m'} (h : TExplains doc r m) (h' : TExplains doc r m') : m = m' := by
  have nospell : ∀ {rest}, r = '#' :: rest → (∀ c ∈ rest, c = '/') → ∀ segs, ¬ Spells r segs := by
    intro rest e hall segs hsp
    rw [spells_iff] at hsp
    obtain ⟨_, e', hne⟩ := hsp
    apply hne
    rw [e', segsOf, e]
    exact pieces_slashes _ hall
  cases h with
  | unsupported h =>
    cases h' with
    | unsupported => rfl
    | empty h1 => exact absurd h1 (h _)
    | stuck h1 => obtain ⟨ps, e, _⟩ := h1; exact absurd e (h _)
  | empty h1 h2 =>
    cases h' with
    | unsupported h => exact absurd h1 (h _)
    | empty => rfl
    | stuck h1' => exact absurd h1' (nospell h1 h2 _)
  | @stuck pre part post v _ h1 h2 h3 =>
    cases h' with
    | unsupported h => obtain ⟨ps, e, _⟩ := h1; exact absurd e (h _)
    | empty h1' h2' => exact absurd h1 (nospell h1' h2' _)
    | @stuck pre' part' post' v' _ h1' h2' h3' =>
      have e := spells_unique h1 h1'
      have key : ∀ {pre part post pre' part' post' : _} {v v' : V} {m m'}, pre ++ part :: post = pre' ++ part' :: post' → TWalk doc pre v →
          TStuck part (dotted (pre ++ [part])) v m → TWalk doc pre' v' → TStuck part' (dotted (pre' ++ [part'])) v' m' →
          pre.length < pre'.length → False := by
        intro pre part post pre' part' post' v v' m m' e h2 h3 h2' _ hlt
        obtain ⟨mid, rfl⟩ : ∃ mid, pre' = pre ++ part :: mid := by
          rw [List.append_eq_append_iff] at e
          rcases e with ⟨a, h4, h5⟩ | ⟨a, h4, h5⟩
          · cases a with
            | nil => simp at h4; subst h4; simp at hlt
            | cons x a => simp at h5; obtain ⟨rfl, _⟩ := h5; exact ⟨a, h4⟩
          · subst h4; simp at hlt; omega
        obtain ⟨u, hu, hw⟩ := twalk_split h2'
        cases twalk_unique hs h2 hu
        cases hw with
        | cons hst _ => exact stuck_step (sound_within hs (twalk_within h2)) h3 hst
      rcases Nat.lt_trichotomy pre.length pre'.length with hl | hl | hl
      · exact (key e h2 h3 h2' h3' hl).elim
      · obtain ⟨rfl, e'⟩ := List.append_inj e hl
        obtain ⟨rfl, -⟩ := List.cons.inj e'
        cases twalk_unique hs h2 h2'
        exact stuck_unique h3 h3'
      · exact (key e.symm h2' h3' h2 h3 hl).elim

theorem chain_end {α : Type} {R : α → α → Prop} (hu : ∀ a b c, R a b → R a c → b = c) {s r r' : α} (h : Relation.ReflTransGen R s r)
    (h' : Relation.ReflTransGen R s r') (hr : ∀ t, ¬ R r t) : Relation.ReflTransGen R r' r := by
  rcases Relation.ReflTransGen.total_of_right_unique (fun a b c => hu a b c) h h' with h | h
  · rcases Relation.ReflTransGen.cases_head h with rfl | ⟨t, ht, _⟩
    · exact .refl
    · exact absurd ht (hr t)
  · exact h

theorem chain_ends {α : Type} {R : α → α → Prop} (hu : ∀ a b c, R a b → R a c → b = c) {s r r' : α} (h : Relation.ReflTransGen R s r)
    (hr : ∀ t, ¬ R r t) (h' : Relation.ReflTransGen R s r') (hr' : ∀ t, ¬ R r' t) : r = r' := by
  rcases Relation.ReflTransGen.cases_head (chain_end hu h h' hr) with e | ⟨t, ht, _⟩
  · exact e.symm
  · exact absurd ht (hr' t)

theorem chain_no_circle {α : Type} {R : α → α → Prop} (hu : ∀ a b c, R a b → R a c → b = c) {s r l r' : _} (h : Relation.ReflTransGen R s r)
    (hr : ∀ t, ¬ R r t) (h' : Goes R s l r') (hm : r' ∈ l) : False := by
  obtain ⟨h1, h2⟩ := goes_reaches h'
  have := cycle_stays hu (h2 _ hm) (chain_end hu h h1 hr)
  obtain ⟨d, hd, _⟩ := Relation.TransGen.head'_iff.1 this
  exact hr d hd

/-- A complaint is determined by the document and the Reference. -/
theorem complaint_unique {doc : V} (hs : Sound U limit doc) {steps expected shown s e e'}
    (h : Complaint doc steps expected shown s e) (h' : Complaint doc steps expected shown s e') : e = e' := by
  have hu := thop_unique hs
  have nohop : ∀ {r v}, TDenotes doc r v → (∀ t, ¬ TRef v t) → ∀ t, ¬ THop doc r t := by
    rintro r v hd hn t ⟨w, hw, ht⟩
    cases tdenotes_unique hs hd hw
    exact hn t ht
  have nohop' : ∀ {r m}, TExplains doc r m → ∀ t, ¬ THop doc r t := by
    rintro r m hx t ⟨w, hw, ht⟩
    exact explains_nowhere hs hx hw
  have den : ∀ {r segs v}, Spells r segs → TWalk doc segs v → TDenotes doc r v := fun h1 h2 => ⟨spells_not_external h1, _, h1, h2⟩
  cases h with
  | circular h1 h2 =>
    cases h' with
    | circular h1' h2' => rw [goes_unique hu h1 h2 h1' h2']
    | broken h1' _ h3' => exact (chain_no_circle hu h1' (nohop' h3') h1 h2).elim
    | mismatch h1' h2' h3' h4' => exact (chain_no_circle hu h1' (nohop (den h2' h3') h4') h1 h2).elim
    | unknown h1' h2' h3' => exact (chain_no_circle hu h1' (nohop h2' h3') h1 h2).elim
  | broken h1 _ h3 =>
    cases h' with
    | circular h1' h2' => exact (chain_no_circle hu h1 (nohop' h3) h1' h2').elim
    | broken h1' _ h3' =>
      cases chain_ends hu h1 (nohop' h3) h1' (nohop' h3')
      rw [explains_unique hs h3 h3']
    | mismatch h1' h2' h3' h4' =>
      cases chain_ends hu h1 (nohop' h3) h1' (nohop (den h2' h3') h4')
      exact (explains_nowhere hs h3 (den h2' h3')).elim
    | unknown h1' h2' h3' =>
      cases chain_ends hu h1 (nohop' h3) h1' (nohop h2' h3')
      exact (explains_nowhere hs h3 h2').elim
  | mismatch h1 h2 h3 h4 h5 =>
    cases h' with
    | circular h1' h2' => exact (chain_no_circle hu h1 (nohop (den h2 h3) h4) h1' h2').elim
    | broken h1' _ h3' =>
      cases chain_ends hu h1 (nohop (den h2 h3) h4) h1' (nohop' h3')
      exact (explains_nowhere hs h3' (den h2 h3)).elim
    | mismatch h1' h2' h3' h4' h5' =>
      cases chain_ends hu h1 (nohop (den h2 h3) h4) h1' (nohop (den h2' h3') h4')
      cases spells_unique h2 h2'
      cases twalk_unique hs h3 h3'
      rw [h5] at h5'; cases h5'; rfl
    | unknown _ _ _ h4' => rw [h5] at h4'; cases h4'
  | unknown h1 h2 h3 h4 =>
    cases h' with
    | circular h1' h2' => exact (chain_no_circle hu h1 (nohop h2 h3) h1' h2').elim
    | broken h1' _ h3' =>
      cases chain_ends hu h1 (nohop h2 h3) h1' (nohop' h3')
      exact (explains_nowhere hs h3' h2).elim
    | mismatch _ _ _ _ h5' => rw [h4] at h5'; cases h5'
    | unknown => rfl

/-- The first member of a list with a property is determined. -/
theorem first_unique {α : Type} : ∀ {b b' : List α} {p p' : α} {a a' : List α},
    b ++ p :: a = b' ++ p' :: a' → p ∉ b' → p' ∉ b → p = p'
  | [], [], _, _, _, _, e, _, _ => by simp at e; exact e.1
  | [], y :: b', _, _, _, _, e, hp, _ => by simp at e; exact absurd (by simp [e.1]) hp
  | x :: b, [], _, _, _, _, e, _, hp' => by simp at e; exact absurd (by simp [e.1]) hp'
  | x :: b, y :: b', _, _, _, _, e, hp, hp' => by
    simp at e
    exact first_unique e.2 (fun hm => hp (by simp [hm])) (fun hm => hp' (by simp [hm]))

end Verif
