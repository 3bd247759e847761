import Verif.Lemmas.Errors
import Verif.Spec.Written
/-! Each entry of an error is listed once. -/
namespace Verif.Pyd
open Verif Verif.Gen Verif.Spec

/-- The location of an entry is a proper one if something is missing or not allowed. -/
theorem faulty_proper {accept : V → Ty Cls → V → Prop} {U : Uni} {limit : Option Nat} {v : V} {t : Ty Cls}
    {loc : List Step} {why : Why} (h : Faulty accept U limit v t loc why) (hw : ∀ text, why ≠ .wrong text) : loc ≠ [] := by
  induction h with
  | deeper _ _ _ ih =>
    intro e
    exact ih hw (List.append_eq_nil_iff.1 e).2
  | own h => cases h <;> simp
  | whole => exact absurd rfl (hw _)

/-- The entries of a failure. -/
def entriesIn {α : Type} : Except (List Fault) α → List Fault
  | .ok _ => []
  | .error l => l

theorem entriesIn_map {α : Type} (g : α → V × Score) (r : Except (List Fault) α) : errs (r.map g) = entriesIn r := by
  cases r <;> rfl

theorem checkEntries_errs (E : Env) (t : Ty Cls) (d : List (Str × V)) :
    entriesIn (checkEntries t (checks E d)) = d.flatMap fun e => under (.key e.1) (errs (check E e.2 t)) := by
  induction d with
  | nil => rfl
  | cons e d ih =>
    obtain ⟨k, x⟩ := e
    simp only [checks, checkEntries, List.flatMap_cons, ← ih]
    cases check E x t <;> cases checkEntries t (checks E d) <;> simp [entriesIn, errs, under]

theorem checkItems_errs (E : Env) (t : Ty Cls) (n : Nat) (l : List V) :
    entriesIn (checkItems t n (checkers E l)) = (l.zipIdx n).flatMap fun e => under (.index e.2) (errs (check E e.1 t)) := by
  induction l generalizing n with
  | nil => rfl
  | cons x l ih =>
    simp only [checkers, checkItems, List.zipIdx_cons, List.flatMap_cons, ← ih]
    cases check E x t <;> cases checkItems t (n + 1) (checkers E l) <;> simp [entriesIn, errs, under]

theorem labelled_errs (E : Env) (v : V) (s : CShape) (ts : List (Ty Cls)) :
    labelled ts (ts.map (checkAs E v s)) = ts.flatMap fun t => under (.member t) (errs (checkAs E v s t)) := by
  induction ts with
  | nil => rfl
  | cons t ts ih =>
    simp only [List.map_cons, List.flatMap_cons, ← ih]
    cases checkAs E v s t <;> simp [labelled, errs, under]

/-- The entries about one field. -/
def fieldErrs (E : Env) (c : Cls) (d : List (Str × V)) (f : FieldDef Cls) : List Fault :=
  match findKey f d with
  | some (k, x) => match check E x f.ty with
    | .ok (v, _) => if lengthOk f.maxLen v && fieldCheck E c f.name v then [] else [⟨[.key k], refusal E c f v⟩]
    | .error l => under (.key k) l
  | none => match dfltValue f.dflt with
    | some _ => []
    | none => [⟨[.key (f.alias.getD f.name)], .missing⟩]

theorem checkFields_errs (E : Env) (c : Cls) (d : List (Str × V)) (L : List (FieldDef Cls)) :
    (checkFields E c (checks E d) L).errors = L.flatMap (fieldErrs E c d) := by
  induction L with
  | nil => rfl
  | cons f rest ih =>
    simp only [checkFields, findKey_checks, List.flatMap_cons, ← ih, fieldErrs]
    cases findKey f d with
    | none => cases dfltValue f.dflt <;> rfl
    | some e =>
      obtain ⟨k, x⟩ := e
      simp only [Option.map_some]
      cases check E x f.ty with
      | error l => rfl
      | ok r => simp only []; split <;> rfl

theorem under_nodup {s : Step} {l : List Fault} (h : l.Nodup) : (under s l).Nodup := by
  unfold under
  refine h.map ?_
  intro a b e
  simp only [Fault.mk.injEq, List.cons.injEq, true_and] at e
  cases a; cases b; simp_all

theorem under_disjoint {s s' : Step} (h : s ≠ s') (l l' : List Fault) : List.Disjoint (under s l) (under s' l') := by
  intro q h1 h2
  obtain ⟨p, _, rfl⟩ := mem_under.1 h1
  obtain ⟨p', _, e⟩ := mem_under.1 h2
  simp only [Fault.mk.injEq, List.cons.injEq] at e
  exact h e.1.1

theorem flatMap_nodup {α β : Type} {l : List α} {g : α → List β} (h1 : ∀ a ∈ l, (g a).Nodup)
    (h2 : l.Pairwise fun a b => List.Disjoint (g a) (g b)) : (l.flatMap g).Nodup :=
  List.nodup_flatMap.2 ⟨h1, h2⟩

/-- Types that are told apart. -/
def apart : Ty Cls → Ty Cls → Bool
  | .model c, .model c' => decide (c ≠ c')
  | .list t, .list t' => apart t t'
  | .dict t, .dict t' => apart t t'
  | .any, .any => false
  | .none, .none => false
  | .str, .str => false
  | .int, .int => false
  | .bool, .bool => false
  | .anyUrl, .anyUrl => false
  | .httpUrl, .httpUrl => false
  | .email, .email => false
  | .processors, .processors => false
  | .lit _, .lit _ => false
  | .union _, .union _ => false
  | _, _ => true

theorem apart_ne {t : Ty Cls} : ∀ {t'}, apart t t' = true → t ≠ t' := by
  suffices h : ∀ t' t : Ty Cls, t = t' → apart t t' = false by
    intro t' h1 h2
    rw [h t' t h2] at h1; cases h1
  rintro t' t rfl
  refine Ty.rec (motive_1 := fun t => apart t t = false) (motive_2 := fun _ => True)
    ?_ ?_ ?_ ?_ ?_ ?_ ?_ ?_ ?_ ?_ ?_ ?_ ?_ ?_ ?_ ?_ t
  all_goals (intros; simp_all [apart])

mutual
/-- No union has a member twice. -/
def distinctTy : Ty Cls → Bool
  | .list t => distinctTy t
  | .dict t => distinctTy t
  | .union ts => distinctAll ts && distinctList ts
  | _ => true
/-- So for each of them. -/
def distinctAll : List (Ty Cls) → Bool
  | [] => true
  | t :: ts => distinctTy t && distinctAll ts
/-- No member twice. -/
def distinctList : List (Ty Cls) → Bool
  | [] => true
  | t :: ts => ts.all (apart t) && distinctList ts
end

theorem distinctAll_mem {ts : List (Ty Cls)} (h : distinctAll ts = true) : ∀ t ∈ ts, distinctTy t = true := by
  induction ts with
  | nil => simp
  | cons t ts ih =>
    simp only [distinctAll, Bool.and_eq_true] at h
    intro t' ht'
    rcases List.mem_cons.1 ht' with rfl | h'
    · exact h.1
    · exact ih h.2 t' h'

theorem distinctList_nodup {ts : List (Ty Cls)} (h : distinctList ts = true) : ts.Nodup := by
  induction ts with
  | nil => exact List.nodup_nil
  | cons t ts ih =>
    simp only [distinctList, Bool.and_eq_true, List.all_eq_true] at h
    rw [List.nodup_cons]
    exact ⟨fun hm => apart_ne (h.1 t hm) rfl, ih h.2⟩

theorem fields_distinct (c : Cls) : ∀ f ∈ (classDef c).fields, distinctTy f.ty = true := by
  have : (classDef c).fields.all (fun f => distinctTy f.ty) = true := by cases c <;> decide
  exact List.all_eq_true.1 this

/-- The keys under which a field can be given. -/
def keysOf (f : FieldDef Cls) : List Str := f.name :: f.alias.toList

theorem keys_apart (c : Cls) : (classDef c).fields.all (fun f => (classDef c).fields.all fun g =>
    f.name == g.name || (keysOf f).all fun k => !(keysOf g).contains k) = true := by
  cases c <;> decide +kernel

theorem findKey_keys {f : FieldDef Cls} {d : List (Str × V)} {k : Str} {x : V} (h : findKey f d = some (k, x)) :
    k ∈ keysOf f := by
  have := (findKey_iff.1 h).2
  unfold keysOf
  rcases this with h | ⟨rfl, _⟩
  · rw [h]; simp
  · simp

theorem fieldErrs_key {E : Env} {c : Cls} {d : List (Str × V)} {f : FieldDef Cls} {q : Fault}
    (h : q ∈ fieldErrs E c d f) : ∃ k ∈ keysOf f, ∃ loc, q.loc = .key k :: loc := by
  unfold fieldErrs at h
  split at h
  · rename_i k x hf
    refine ⟨k, findKey_keys hf, ?_⟩
    split at h
    · split at h
      · cases h
      · rw [List.mem_singleton.1 h]; exact ⟨_, rfl⟩
    · obtain ⟨p, _, rfl⟩ := mem_under.1 h; exact ⟨_, rfl⟩
  · split at h
    · cases h
    · rw [List.mem_singleton.1 h]
      refine ⟨_, ?_, _, rfl⟩
      unfold keysOf
      cases f.alias <;> simp

theorem fieldErrs_why {E : Env} {c : Cls} {d : List (Str × V)} {f : FieldDef Cls} {q : Fault}
    (h : q ∈ fieldErrs E c d f) (hq : q.why = .unexpected) : ∃ k s loc, q.loc = .key k :: s :: loc := by
  unfold fieldErrs at h
  split at h
  · rename_i k x hf
    split at h
    · split at h
      · cases h
      · rw [List.mem_singleton.1 h] at hq; cases hq
    · rename_i l hl
      obtain ⟨p, hp, rfl⟩ := mem_under.1 h
      have hr := (right E x f.ty p).1 (by rw [hl]; exact hp)
      simp only at hq
      rw [hq] at hr
      obtain ⟨loc, why⟩ := p
      cases loc with
      | nil =>
        exfalso
        exact faulty_proper hr (by simp) rfl
      | cons s loc => exact ⟨k, s, loc, rfl⟩
  · split at h
    · cases h
    · rw [List.mem_singleton.1 h] at hq; cases hq

theorem fieldErrs_nodup {E : Env} {c : Cls} {d : List (Str × V)} {f : FieldDef Cls}
    (ih : ∀ k x, lookup k d = some x → (errs (check E x f.ty)).Nodup) : (fieldErrs E c d f).Nodup := by
  unfold fieldErrs
  split
  · rename_i k x hf
    have h := ih k x (findKey_iff.1 hf).1
    split
    · split
      · exact List.nodup_nil
      · exact List.nodup_singleton _
    · rename_i l hl
      rw [hl] at h
      exact under_nodup h
  · split
    · exact List.nodup_nil
    · exact List.nodup_singleton _

theorem itself_nodup : itself.Nodup := List.nodup_singleton _

theorem orSaying_nodup (o : Option Str) (r : Res) : (errs (orSaying o r)).Nodup := by
  cases r <;> simp [orSaying, errs, saying]

theorem make_nodup {E : Env} {c : Cls} {d : List (Str × V)} {set? : Option (List Str)} {floor : Nat}
    (hd : (d.map (·.1)).Nodup)
    (ih : ∀ f ∈ (classDef c).fields, ∀ k x, lookup k d = some x → (errs (check E x f.ty)).Nodup) :
    (errs (make E c (checks E d) set? floor)).Nodup := by
  unfold make
  simp only
  split
  · exact orSaying_nodup _ _
  · simp only [errs]
    rw [List.nodup_append']
    refine ⟨?_, ?_, ?_⟩
    · rw [checkFields_errs]
      refine flatMap_nodup (fun f hf => fieldErrs_nodup (ih f hf)) ?_
      have hp : (classDef c).fields.Pairwise fun f g => f.name ≠ g.name := List.pairwise_map.1 (names_nodup c)
      refine hp.imp_of_mem ?_
      intro f g hf hg hne q h1 h2
      obtain ⟨k, hk, loc, e⟩ := fieldErrs_key h1
      obtain ⟨k', hk', loc', e'⟩ := fieldErrs_key h2
      rw [e] at e'
      simp only [List.cons.injEq, Step.key.injEq] at e'
      have h := keys_apart c
      rw [List.all_eq_true] at h
      have h := h f hf
      rw [List.all_eq_true] at h
      have h := h g hg
      rw [Bool.or_eq_true, beq_iff_eq, List.all_eq_true] at h
      rcases h with h | h
      · exact hne h
      · have h := h k hk
        rw [Bool.not_eq_true', List.contains_eq_mem, decide_eq_false_iff_not] at h
        exact h (e'.1 ▸ hk')
    · unfold forbidden
      split
      · rw [spare_checks]
        have h1 : ((d.filter fun e => !((checkFields E c (checks E d) (classDef c).fields).res.used.contains e.1)).map (·.1)).Nodup :=
          hd.sublist (List.filter_sublist.map _)
        have h2 := h1.map (f := fun k => (⟨[.key k], .unexpected⟩ : Fault)) (fun a b e => by
          simp only [Fault.mk.injEq, List.cons.injEq, Step.key.injEq, and_true] at e; exact e)
        rw [List.map_map] at h2
        exact h2
      · exact List.nodup_nil
    · intro q h1 h2
      rw [checkFields_errs, List.mem_flatMap] at h1
      obtain ⟨f, hf, h1⟩ := h1
      unfold forbidden at h2
      split at h2
      · obtain ⟨e, _, rfl⟩ := List.mem_map.1 h2
        obtain ⟨k, s, loc, e⟩ := fieldErrs_why h1 rfl
        cases e
      · cases h2

theorem dict_nodup {E : Env} {d : List (Str × V)} {t : Ty Cls} (hd : (d.map (·.1)).Nodup)
    (ih : ∀ e ∈ d, (errs (check E e.2 t)).Nodup) : (errs (check E (.dict d) (.dict t))).Nodup := by
  simp only [check, checkAs, checkDict, entriesIn_map, checkEntries_errs]
  refine flatMap_nodup (fun e he => under_nodup (ih e he)) ?_
  refine (List.pairwise_map.1 hd).imp ?_
  intro a b h
  exact under_disjoint (by simpa using h) _ _

theorem errs_nodup (E : Env) {v : V} (h : WellFormed v) : ∀ t, distinctTy t = true → (errs (check E v t)).Nodup := by
  have hunion : ∀ {v : V} {ts : List (Ty Cls)}, (∀ t ∈ ts, distinctTy t = true → (errs (check E v t)).Nodup) →
      distinctTy (.union ts) = true → (errs (check E v (.union ts))).Nodup := by
    intro v ts ih ht
    simp only [distinctTy, Bool.and_eq_true] at ht
    have hall := distinctAll_mem ht.1
    have hn := distinctList_nodup ht.2
    rw [check_eq]
    simp only [checkAs]
    split
    · exact List.nodup_nil
    · split
      · exact List.nodup_nil
      · simp only [errs, checkEach_map, nonNull_others]
        have hsub : ∀ t ∈ others ts, t ∈ ts := fun t h => (List.mem_filter.1 h).1
        have hno : (others ts).Nodup := hn.filter _
        have hmem : ∀ t ∈ others ts, (errs (checkAs E v (cshapeOf E v) t)).Nodup := by
          intro t ht
          rw [← check_eq]
          exact ih t (hsub t ht) (hall t (hsub t ht))
        have hlab : (labelled (others ts) ((others ts).map (checkAs E v (cshapeOf E v)))).Nodup := by
          rw [labelled_errs]
          refine flatMap_nodup (fun t ht => under_nodup (hmem t ht)) ?_
          exact hno.imp fun h => under_disjoint (by simpa using h) _ _
        revert hmem hlab
        generalize others ts = os
        intro hmem hlab
        rcases os with _ | ⟨t, _ | ⟨t', rest⟩⟩
        · exact itself_nodup
        · have := hmem t (by simp)
          simp only [List.map_cons, List.map_nil] at hlab ⊢
          cases hc : checkAs E v (cshapeOf E v) t with
          | error l => rw [hc] at this; exact this
          | ok r => rw [hc] at hlab; exact hlab
        · exact hlab
  have hsc : ∀ {v : V} (t : Ty Cls), (∀ c, t ≠ .model c) → (∀ ts, t ≠ .union ts) → (∀ t', t ≠ .list t') → (∀ t', t ≠ .dict t') →
      (errs (check E v t)).Nodup := by
    intro v t h1 h2 h3 h4
    rw [check_eq]
    cases t with
    | model c => exact absurd rfl (h1 c)
    | union ts => exact absurd rfl (h2 ts)
    | list t => exact absurd rfl (h3 t)
    | dict t => exact absurd rfl (h4 t)
    | any => simp only [checkAs]; exact List.nodup_nil
    | none => simp only [checkAs]; split; exacts [List.nodup_nil, itself_nodup]
    | _ => simp only [checkAs]; exact orSaying_nodup _ _
  have hlift : ∀ {v : V}, (∀ t, distinctTy t = true → (errs (check E v (.list t))).Nodup) →
      (∀ t, distinctTy t = true → (errs (check E v (.dict t))).Nodup) → (∀ c, (errs (check E v (.model c))).Nodup) →
      ∀ t, distinctTy t = true → (errs (check E v t)).Nodup := by
    intro v h1 h2 h3 t
    refine Ty.rec (motive_1 := fun t => distinctTy t = true → (errs (check E v t)).Nodup)
      (motive_2 := fun ts => ∀ t ∈ ts, distinctTy t = true → (errs (check E v t)).Nodup)
      ?_ ?_ ?_ ?_ ?_ ?_ ?_ ?_ ?_ ?_ ?_ ?_ ?_ ?_ ?_ ?_ t
    · exact fun _ => hsc _ (by simp) (by simp) (by simp) (by simp)
    · exact fun _ => hsc _ (by simp) (by simp) (by simp) (by simp)
    · exact fun _ => hsc _ (by simp) (by simp) (by simp) (by simp)
    · exact fun _ => hsc _ (by simp) (by simp) (by simp) (by simp)
    · exact fun _ => hsc _ (by simp) (by simp) (by simp) (by simp)
    · exact fun _ => hsc _ (by simp) (by simp) (by simp) (by simp)
    · exact fun _ => hsc _ (by simp) (by simp) (by simp) (by simp)
    · exact fun _ => hsc _ (by simp) (by simp) (by simp) (by simp)
    · exact fun _ => hsc _ (by simp) (by simp) (by simp) (by simp)
    · exact fun _ _ => hsc _ (by simp) (by simp) (by simp) (by simp)
    · intro t _ ht; exact h1 t (by simpa only [distinctTy] using ht)
    · intro t _ ht; exact h2 t (by simpa only [distinctTy] using ht)
    · intro c _; exact h3 c
    · intro ts ih ht; exact hunion ih ht
    · intro t ht; cases ht
    · intro t ts a b t' ht'
      rcases List.mem_cons.1 ht' with rfl | h
      · exact a
      · exact b _ h
  have hscalar : ∀ {v : V}, cshapeOf E v = .scalar → ∀ t, distinctTy t = true → (errs (check E v t)).Nodup := by
    intro v hv
    refine hlift ?_ ?_ ?_
    · intro t _; rw [check_eq, hv]; simp only [checkAs]; exact itself_nodup
    · intro t _; rw [check_eq, hv]; simp only [checkAs, checkDict]; exact itself_nodup
    · intro c; rw [check_eq, hv]; simp only [checkAs, checkModel]; exact itself_nodup
  induction h with
  | none => exact hscalar rfl
  | bool => exact hscalar rfl
  | int => exact hscalar rfl
  | float => exact hscalar rfl
  | str => exact hscalar rfl
  | @list l _ ih =>
    refine hlift ?_ ?_ ?_
    · intro t ht
      simp only [check, checkAs, entriesIn_map, checkItems_errs]
      refine flatMap_nodup (fun e he => under_nodup (ih e.1 (List.fst_mem_of_mem_zipIdx he) t ht)) ?_
      have hp : ((l.zipIdx 0).map (·.2)).Nodup := by
        rw [List.zipIdx_map_snd]; exact List.nodup_range' ..
      refine (List.pairwise_map.1 hp).imp ?_
      intro a b h
      exact under_disjoint (by simpa using h) _ _
    · intro t _; simp only [check, checkAs, checkDict]; exact itself_nodup
    · intro c; simp only [check, checkAs, checkModel]; exact itself_nodup
  | @dict d hd _ ih =>
    refine hlift ?_ ?_ ?_
    · intro t _; simp only [check, checkAs]; exact itself_nodup
    · intro t ht; exact dict_nodup hd fun e he => ih e he t ht
    · intro c
      by_cases hk : (classDef c).kind = .patterned
      · obtain ⟨f, t, hf, hty, hn⟩ := root_is_dict c hk
        have hc : check E (.dict d) (.model c) = makeRoot E c (check E (.dict d) (.dict t)) none E.built := by
          simp only [check, checkAs, checkModel, hk, hf, hty, checkRootTy]
        have ht : distinctTy t = true := by
          have := fields_distinct c f (by rw [hf]; simp)
          rw [hty] at this
          simpa only [distinctTy] using this
        have hdn := dict_nodup hd fun e he => ih e he t ht
        rw [hc]
        cases hx : check E (.dict d) (.dict t) with
        | error l => rw [hx] at hdn; exact hdn
        | ok r => simp only [makeRoot]; exact orSaying_nodup _ _
      · obtain ⟨set?, floor, hc⟩ := check_object (E := E) (c := c) (v := .dict d) hk rfl
        rw [hc]
        exact make_nodup hd fun f hf k x hl => ih _ (lookup_some_mem hl) _ (fields_distinct c f hf)

end Verif.Pyd
