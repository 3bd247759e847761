import Verif.Spec.Reorder
import Verif.Props.Written
/-!
# Validation does not depend on the order of keys
-/
namespace Verif.Props
open Verif Verif.Gen Verif.Spec Verif.Pyd Verif.Document Verif.Mutate

/-- Same keys, and the same under them. -/
def Alikes (d d' : List (Str × V)) : Prop :=
  (∀ k, k ∈ d.map (·.1) ↔ k ∈ d'.map (·.1)) ∧ ∀ k v w, (k, v) ∈ d → (k, w) ∈ d' → Reordered v w

/-- The same outcome of validation. -/
def Alike : Res → Res → Prop
  | none, none => True
  | some (v, s), some (w, s') => Reordered v w ∧ s = s'
  | _, _ => False

theorem alikes_lookup {d d' : List (Str × V)} (h : Alikes d d') (k : Str) :
    (lookup k d = none ∧ lookup k d' = none) ∨ ∃ v w, lookup k d = some v ∧ lookup k d' = some w ∧ Reordered v w := by
  cases h1 : lookup k d with
  | none =>
    left
    refine ⟨rfl, ?_⟩
    cases h2 : lookup k d' with
    | none => rfl
    | some w =>
      obtain ⟨v, hv⟩ := lookup_isSome_of_mem ((h.1 k).2 (List.mem_map_of_mem (f := (·.1)) (lookup_some_mem h2)))
      rw [h1] at hv; cases hv
  | some v =>
    have hm := lookup_some_mem h1
    have := (h.1 k).1 (List.mem_map_of_mem (f := (·.1)) hm)
    obtain ⟨w, hw⟩ := lookup_isSome_of_mem this
    exact .inr ⟨v, w, rfl, hw, h.2 k v w hm (lookup_some_mem hw)⟩

theorem reordered_isNone {v w : V} (h : Reordered v w) : w.isNone = v.isNone := by cases h <;> rfl

theorem reordered_isStr {v w : V} (h : Reordered v w) (s : Str) : Fields.isStr w s = Fields.isStr v s := by cases h <;> rfl

theorem reordered_attr {v w : V} (h : Reordered v w) (n : Str) : Reordered (v.attr n) (w.attr n) := by
  cases h with
  | inst h1 h2 h3 h4 h5 h6 h7 h8 =>
    rename_i c fs fs' ex ex' set set'
    have ha : Alikes fs fs' := ⟨fun k => by rw [h1], h3⟩
    simp only [V.attr]
    rcases alikes_lookup ha n with ⟨e1, e2⟩ | ⟨v, w, e1, e2, hr⟩
    · rw [e1, e2]; exact .none
    · rw [e1, e2]; exact hr
  | _ => exact .none

theorem reordered_fieldCheck {v w : V} (h : Reordered v w) (E : Env) (c : Cls) (n : Str) :
    fieldCheck E c n w = fieldCheck E c n v := by
  cases h <;> rfl

theorem reordered_lengthOk {v w : V} (h : Reordered v w) (m : Option Nat) : lengthOk m w = lengthOk m v := by
  cases m <;> cases h <;> rfl

theorem reordered_modelCheck {v w : V} (h : Reordered v w) (c : Cls) : modelCheck c w = modelCheck c v := by
  have hn : ∀ n, (w.attr n).isNone = (v.attr n).isNone := fun n => reordered_isNone (reordered_attr h n)
  have hn2 : ∀ n m, ((w.attr n).attr m).isNone = ((v.attr n).attr m).isNone := fun n m =>
    reordered_isNone (reordered_attr (reordered_attr h n) m)
  have hs : ∀ n s, Fields.isStr (w.attr n) s = Fields.isStr (v.attr n) s := fun n s => reordered_isStr (reordered_attr h n) s
  have ha := reordered_attr h p!"address"
  unfold modelCheck
  split
  · unfold Fields.channelParameters
    rw [hn]
    split
    · rfl
    · revert ha
      generalize v.attr p!"address" = a
      generalize w.attr p!"address" = b
      intro ha
      cases ha <;> rfl
  all_goals simp only [Fields.headersOrPayload, Fields.oauthFlows, Fields.implicitFlow, Fields.passwordFlow,
    Fields.clientCredentialsFlow, Fields.authorizationCodeFlow, Fields.securityScheme, Fields.apiKey, Fields.bearerFormat,
    Fields.httpApiKey, Fields.http, Fields.oauth2, Fields.openIdConnect, Fields.scopes, Fields.amqpChannel,
    Fields.solaceDestination, Fields.ibmmqChannel, Fields.ibmmqMessage, Fields.kafkaServer, hn, hn2, hs]

theorem validateExtensions_congr (U : Uni) {l l' : List Str} (h : ∀ k, k ∈ l ↔ k ∈ l') :
    Patterns.validateExtensions U l' = Patterns.validateExtensions U l := by
  have key : ∀ l, Patterns.validateExtensions U l = true ↔ ∀ k ∈ l, Regex.isMatch (Patterns.extensionRegex U) k = true := by
    intro l
    induction l with
    | nil => simp [Patterns.validateExtensions]
    | cons k l ih => simp only [Patterns.validateExtensions, List.mem_cons, forall_eq_or_imp]; split <;> simp_all
  rw [Bool.eq_iff_iff, key, key]
  exact ⟨fun hh k hk => hh k ((h k).1 hk), fun hh k hk => hh k ((h k).2 hk)⟩

theorem patternedKeys_congr {l l' : List Str} (h : ∀ k, k ∈ l ↔ k ∈ l') : Patterns.patternedKeys l' = Patterns.patternedKeys l := by
  have key : ∀ l, Patterns.patternedKeys l = true ↔ ∀ k ∈ l, Patterns.patternedKey k = true := by
    intro l
    induction l with
    | nil => simp [Patterns.patternedKeys]
    | cons k l ih => simp only [Patterns.patternedKeys, List.mem_cons, forall_eq_or_imp]; split <;> simp_all
  rw [Bool.eq_iff_iff, key, key]
  exact ⟨fun hh k hk => hh k ((h k).1 hk), fun hh k hk => hh k ((h k).2 hk)⟩

theorem reordered_baseCheck {v w : V} (h : Reordered v w) (E : Env) (c : Cls) : baseCheck E c w = baseCheck E c v := by
  unfold baseCheck
  split
  · cases h with
    | inst h1 h2 h3 h4 h5 h6 h7 h8 => exact validateExtensions_congr _ h6
    | _ => rfl
  · have ha := reordered_attr h p!"root"
    revert ha
    generalize v.attr p!"root" = a
    generalize w.attr p!"root" = b
    intro ha
    cases ha with
    | dict h1 h2 h3 h4 => exact patternedKeys_congr h3
    | _ => rfl
  · rfl

/-! ### Fields -/

theorem findKey_alikes {d d' : List (Str × V)} (h : Alikes d d') (f : FieldDef Cls) :
    (findKey f d = none ∧ findKey f d' = none) ∨
      ∃ k v w, findKey f d = some (k, v) ∧ findKey f d' = some (k, w) ∧ Reordered v w := by
  unfold findKey
  cases f.alias with
  | none =>
    rcases alikes_lookup h f.name with ⟨e1, e2⟩ | ⟨v, w, e1, e2, hr⟩
    · exact .inl (by simp [e1, e2])
    · exact .inr ⟨f.name, v, w, by simp [e1], by simp [e2], hr⟩
  | some a =>
    rcases alikes_lookup h a with ⟨e1, e2⟩ | ⟨v, w, e1, e2, hr⟩
    · rcases alikes_lookup h f.name with ⟨e3, e4⟩ | ⟨v, w, e3, e4, hr⟩
      · exact .inl (by simp [e1, e2, e3, e4])
      · exact .inr ⟨f.name, v, w, by simp [e1, e3], by simp [e2, e4], hr⟩
    · exact .inr ⟨a, v, w, by simp [e1], by simp [e2], hr⟩

/-- A value that validation treats like all its reorderings. -/
def Respects (E : Env) (x : V) : Prop := ∀ y, Reordered x y → ∀ t, Alike (parse E x t) (parse E y t)

/-- A default is nothing with keys. -/
theorem default_reordered {dl : Dflt} {v : V} (h : dfltValue dl = some v) : Reordered v v := by
  cases dl <;> simp only [dfltValue, reduceCtorEq, Option.some.injEq] at h <;> subst h <;>
    first | constructor | skip
  all_goals first
    | exact .list rfl (by simp)
    | exact .dict (by simp) (by simp) (by simp) (by simp)

variable {E : Env}

theorem one_alikes {d d' : List (Str × V)} (h : Alikes d d') (hp : ∀ e ∈ d, Respects E e.2) (c : Cls) (f : FieldDef Cls) :
    Alike (one E c d f) (one E c d' f) := by
  unfold one
  rcases findKey_alikes h f with ⟨e1, e2⟩ | ⟨k, v, w, e1, e2, hr⟩
  · rw [e1, e2]
    cases hd : dfltValue f.dflt with
    | none => trivial
    | some v => exact ⟨default_reordered hd, rfl⟩
  · rw [e1, e2]
    have hm := hp (k, v) (mem_of_given (findKey_iff.1 e1)) w hr f.ty
    simp only
    revert hm
    cases h1 : parse E v f.ty with
    | none =>
      cases h2 : parse E w f.ty with
      | none => intro _; trivial
      | some r => intro hm; cases hm
    | some r =>
      cases h2 : parse E w f.ty with
      | none => intro hm; cases hm
      | some r' =>
        rintro ⟨hm1, hm2⟩
        simp only [reordered_lengthOk hm1, reordered_fieldCheck hm1, hm2]
        split
        · exact ⟨hm1, rfl⟩
        · trivial

theorem valueOf_alikes {d d' : List (Str × V)} (h : Alikes d d') (hp : ∀ e ∈ d, Respects E e.2) (c : Cls) (f : FieldDef Cls) :
    Reordered (valueOf E c d f) (valueOf E c d' f) := by
  have := one_alikes h hp c f
  unfold valueOf
  revert this
  cases one E c d f with
  | none => cases one E c d' f with
    | none => intro _; exact .none
    | some r => intro h; cases h
  | some r => cases one E c d' f with
    | none => intro h; cases h
    | some r' => intro h; exact h.1

theorem oneSome_alikes {d d' : List (Str × V)} (h : Alikes d d') (hp : ∀ e ∈ d, Respects E e.2) (c : Cls) (f : FieldDef Cls) :
    (one E c d' f).isSome = (one E c d f).isSome := by
  have := one_alikes h hp c f
  revert this
  cases one E c d f with
  | none => cases one E c d' f with
    | none => intro _; rfl
    | some r => intro h; cases h
  | some r => cases one E c d' f with
    | none => intro h; cases h
    | some r' => intro _; rfl

theorem score_alikes {d d' : List (Str × V)} (h : Alikes d d') (hp : ∀ e ∈ d, Respects E e.2) (c : Cls) (L : List (FieldDef Cls)) :
    fieldsScore E c d' L = fieldsScore E c d L := by
  induction L with
  | nil => rfl
  | cons f L ih =>
    unfold fieldsScore
    rcases findKey_alikes h f with ⟨e1, e2⟩ | ⟨k, v, w, e1, e2, hr⟩
    · rw [e1, e2]; exact ih
    · rw [e1, e2]
      have hm := hp (k, v) (mem_of_given (findKey_iff.1 e1)) w hr f.ty
      simp only
      revert hm
      cases h1 : parse E v f.ty with
      | none => cases h2 : parse E w f.ty with
        | none => intro _; exact ih
        | some r => intro hm; cases hm
      | some r => cases h2 : parse E w f.ty with
        | none => intro hm; cases hm
        | some r' => rintro ⟨_, hm2⟩; simp only [hm2, ih]

theorem given_alikes {d d' : List (Str × V)} (h : Alikes d d') (f : FieldDef Cls) :
    (findKey f d').map (·.1) = (findKey f d).map (·.1) ∧ (findKey f d').isSome = (findKey f d).isSome := by
  rcases findKey_alikes h f with ⟨e1, e2⟩ | ⟨k, v, w, e1, e2, hr⟩ <;> rw [e1, e2] <;> exact ⟨rfl, rfl⟩

theorem used_alikes {d d' : List (Str × V)} (h : Alikes d d') (c : Cls) : usedKeys c d' = usedKeys c d := by
  unfold usedKeys
  simp only [given_alikes h]

theorem extras_alikes {d d' : List (Str × V)} (h : Alikes d d') (c : Cls) : Alikes (extrasOf c d) (extrasOf c d') := by
  unfold extrasOf
  rw [used_alikes h]
  constructor
  · intro k
    simp only [List.mem_map, List.mem_filter]
    constructor
    · rintro ⟨e, ⟨he, hu⟩, rfl⟩
      obtain ⟨e', he', hk⟩ := List.mem_map.1 ((h.1 e.1).1 (List.mem_map_of_mem he))
      exact ⟨e', ⟨he', by rw [hk]; exact hu⟩, hk⟩
    · rintro ⟨e, ⟨he, hu⟩, rfl⟩
      obtain ⟨e', he', hk⟩ := List.mem_map.1 ((h.1 e.1).2 (List.mem_map_of_mem he))
      exact ⟨e', ⟨he', by rw [hk]; exact hu⟩, hk⟩
  · intro k v w hv hw
    exact h.2 k v w (List.mem_filter.1 hv).1 (List.mem_filter.1 hw).1

theorem set_alikes {d d' : List (Str × V)} (h : Alikes d d') (c : Cls) (n : Str) : n ∈ Pyd.setOf c d ↔ n ∈ Pyd.setOf c d' := by
  unfold Pyd.setOf
  simp only [List.mem_append, given_alikes h, (extras_alikes h c).1 n]

theorem allOk_alikes {d d' : List (Str × V)} (h : Alikes d d') (hp : ∀ e ∈ d, Respects E e.2) (c : Cls) :
    allOk E c d' = allOk E c d := by
  unfold allOk
  simp only [oneSome_alikes h hp]
  congr 3
  have := (extras_alikes h c).1
  rw [Bool.eq_iff_iff]
  cases h1 : extrasOf c d with
  | nil =>
    cases h2 : extrasOf c d' with
    | nil => simp
    | cons e l => rw [h1, h2] at this; simpa using this e.1
  | cons e l =>
    cases h2 : extrasOf c d' with
    | nil => rw [h1, h2] at this; simpa using this e.1
    | cons => simp

theorem nodup_extras {d : List (Str × V)} (h : (d.map (·.1)).Nodup) (c : Cls) : ((extrasOf c d).map (·.1)).Nodup :=
  h.sublist (List.filter_sublist.map _)

theorem inst_alikes {d d' : List (Str × V)} (hn : (d.map (·.1)).Nodup) (hn' : (d'.map (·.1)).Nodup) (h : Alikes d d')
    (hp : ∀ e ∈ d, Respects E e.2) (c : Cls) :
    Reordered (.inst c (fieldsOf E c d) (extrasOf c d) (Pyd.setOf c d)) (.inst c (fieldsOf E c d') (extrasOf c d') (Pyd.setOf c d')) := by
  have hnames := names_nodup c
  refine .inst ?_ ?_ ?_ (nodup_extras hn c) (nodup_extras hn' c) (extras_alikes h c).1 (extras_alikes h c).2 (set_alikes h c)
  · unfold fieldsOf; simp only [List.map_map]; rfl
  · unfold fieldsOf; simp only [List.map_map]; exact hnames
  · intro k v w hv hw
    unfold fieldsOf at hv hw
    obtain ⟨f, hf, e⟩ := List.mem_map.1 hv
    obtain ⟨g, hg, e'⟩ := List.mem_map.1 hw
    cases e
    simp only [Prod.mk.injEq] at e'
    have : g = f := by
      have h1 := lookup_named (·.name) id hnames hf
      have h2 := lookup_named (·.name) id hnames hg
      rw [e'.1] at h2
      exact Option.some.inj (h2.symm.trans h1)
    subst this
    rw [← e'.2]
    exact valueOf_alikes h hp c g

/-! ### Entries and items -/

theorem score_comm (a b c : Score) : a.and (b.and c) = b.and (a.and c) := by
  obtain ⟨a1, a2⟩ := a; obtain ⟨b1, b2⟩ := b; obtain ⟨c1, c2⟩ := c
  unfold Score.and
  simp only [Score.mk.injEq]
  refine ⟨by omega, ?_⟩
  cases a2 <;> cases b2 <;> cases c2 <;> simp only [Option.some.injEq] <;> omega

/-- The entries one by one. -/
theorem parseEntries_eq (E : Env) (t : Ty Cls) (d : List (Str × V)) : parseEntries t (entries E d) =
    if d.all (fun e => (parse E e.2 t).isSome) then
      some (d.map fun e => (e.1, ((parse E e.2 t).map (·.1)).getD .none),
        (d.map fun e => ((parse E e.2 t).map (·.2)).getD .exactly).foldr Score.and .exactly)
    else none := by
  induction d with
  | nil => rfl
  | cons e d ih =>
    obtain ⟨k, v⟩ := e
    simp only [entries, parseEntries, ih, List.all_cons, List.map_cons, List.foldr_cons]
    cases h : parse E v t with
    | none => simp
    | some r =>
      simp only [Option.isSome_some, Bool.true_and]
      cases hd : d.all fun e => (parse E e.2 t).isSome <;> simp

theorem parse_alikes {d d' : List (Str × V)} (h : Alikes d d') (hp : ∀ e ∈ d, Respects E e.2) (t : Ty Cls) {k : Str} {v w : V}
    (hv : (k, v) ∈ d) (hw : (k, w) ∈ d') : Alike (parse E v t) (parse E w t) := hp _ hv w (h.2 k v w hv hw) t

theorem alike_isSome {r r' : Res} (h : Alike r r') : r'.isSome = r.isSome := by
  cases r <;> cases r' <;> first | rfl | cases h

theorem alike_score {r r' : Res} (h : Alike r r') : (r'.map (·.2)).getD .exactly = (r.map (·.2)).getD .exactly := by
  cases r <;> cases r' <;> first | rfl | (cases h; done) | exact h.2.symm

theorem alike_value {r r' : Res} (h : Alike r r') : Reordered ((r.map (·.1)).getD .none) ((r'.map (·.1)).getD .none) := by
  cases r <;> cases r' <;> first | exact .none | (cases h; done) | exact h.1

theorem perm_alikes {d d' : List (Str × V)} (hn : (d.map (·.1)).Nodup) (hn' : (d'.map (·.1)).Nodup) (h : Alikes d d') :
    (d.map fun e => (e.1, (lookup e.1 d').getD .none)).Perm d' := by
  have hnd : ∀ l : List (Str × V), (l.map (·.1)).Nodup → l.Nodup := fun l hl => by
    have := List.Pairwise.of_map (f := fun e : Str × V => e.1) (R := (· ≠ ·)) (S := (· ≠ ·)) (fun a b hab hh => hab (by rw [hh])) hl
    exact this
  rw [List.perm_ext_iff_of_nodup (hnd _ (by simp only [List.map_map]; exact hn)) (hnd _ hn')]
  rintro ⟨k, w⟩
  constructor
  · intro hm
    obtain ⟨e, he, e1⟩ := List.mem_map.1 hm
    simp only [Prod.mk.injEq] at e1
    obtain ⟨rfl, rfl⟩ := e1
    rcases alikes_lookup h e.1 with ⟨e1, _⟩ | ⟨v, w, _, e2, _⟩
    · obtain ⟨v, hv⟩ := lookup_isSome_of_mem (List.mem_map_of_mem (f := (·.1)) he)
      rw [e1] at hv; cases hv
    · rw [e2]; exact lookup_some_mem e2
  · intro hm
    obtain ⟨e, he, hk⟩ := List.mem_map.1 ((h.1 k).2 (List.mem_map_of_mem hm))
    refine List.mem_map.2 ⟨e, he, ?_⟩
    rw [hk, (lookup_iff hn').2 hm]
    rfl

theorem entries_alikes {d d' : List (Str × V)} (hn : (d.map (·.1)).Nodup) (hn' : (d'.map (·.1)).Nodup) (h : Alikes d d')
    (hp : ∀ e ∈ d, Respects E e.2) (t : Ty Cls) : Alike (parseDict t (.dict (entries E d))) (parseDict t (.dict (entries E d'))) := by
  unfold parseDict
  simp only [parseEntries_eq]
  have hall : d'.all (fun e => (parse E e.2 t).isSome) = d.all fun e => (parse E e.2 t).isSome := by
    rw [Bool.eq_iff_iff, List.all_eq_true, List.all_eq_true]
    constructor
    · rintro hh ⟨k, v⟩ he
      obtain ⟨⟨k', w⟩, he', rfl⟩ := List.mem_map.1 ((h.1 k).1 (List.mem_map_of_mem he))
      exact (alike_isSome (parse_alikes h hp t he he')) ▸ hh _ he'
    · rintro hh ⟨k, w⟩ he
      obtain ⟨⟨k', v⟩, he', rfl⟩ := List.mem_map.1 ((h.1 k).2 (List.mem_map_of_mem he))
      exact (alike_isSome (parse_alikes h hp t he' he)).trans (hh _ he')
  rw [hall]
  split
  · refine ⟨.dict ?_ ?_ ?_ ?_, ?_⟩
    · simp only [List.map_map]; exact hn
    · simp only [List.map_map]; exact hn'
    · simp only [List.map_map]; exact h.1
    · intro k v w hv hw
      obtain ⟨⟨k1, v1⟩, he, e1⟩ := List.mem_map.1 hv
      obtain ⟨⟨k2, w2⟩, he', e2⟩ := List.mem_map.1 hw
      simp only [Prod.mk.injEq] at e1 e2
      obtain ⟨rfl, rfl⟩ := e1
      obtain ⟨rfl, rfl⟩ := e2
      exact alike_value (parse_alikes h hp t he he')
    · show List.foldr _ _ _ = List.foldr _ _ _
      have hperm := (perm_alikes hn hn' h).map fun e => ((parse E e.2 t).map (·.2)).getD .exactly
      rw [← hperm.foldr_eq' (fun x _ y _ z => score_comm y x z)]
      congr 1
      simp only [List.map_map]
      refine List.map_congr_left fun e he => ?_
      obtain ⟨k, v⟩ := e
      rcases alikes_lookup h k with ⟨e1, _⟩ | ⟨v', w, _, e2, _⟩
      · obtain ⟨v, hv⟩ := lookup_isSome_of_mem (List.mem_map_of_mem (f := (·.1)) he)
        rw [e1] at hv; cases hv
      · simp only [Function.comp, e2, Option.getD_some]
        exact (alike_score (parse_alikes h hp t he (lookup_some_mem e2))).symm
  · trivial

theorem items_alike {l l' : List V} (hl : l.length = l'.length) (h : ∀ (i : Nat) v w, l[i]? = some v → l'[i]? = some w → Reordered v w)
    (hp : ∀ v ∈ l, Respects E v) (t : Ty Cls) :
    match parseItems t (parsers E l), parseItems t (parsers E l') with
    | none, none => True
    | some (a, s), some (b, s') => a.length = b.length ∧ (∀ (i : Nat) v w, a[i]? = some v → b[i]? = some w → Reordered v w) ∧ s = s'
    | _, _ => False := by
  induction l generalizing l' with
  | nil =>
    cases l' with
    | nil => simp [parsers, parseItems]
    | cons => simp at hl
  | cons v l ih =>
    cases l' with
    | nil => simp at hl
    | cons w l' =>
      have hh := ih (l' := l') (by simpa using hl) (fun i a b ha hb => h (i + 1) a b (by simpa using ha) (by simpa using hb))
        (fun a ha => hp a (List.mem_cons_of_mem _ ha))
      have h0 := hp v List.mem_cons_self w (h 0 v w rfl rfl) t
      simp only [parsers, parseItems]
      revert h0 hh
      cases parse E v t with
      | none => cases parse E w t with
        | none => intros; trivial
        | some r => intro _ h0; cases h0
      | some r => cases parse E w t with
        | none => intro _ h0; cases h0
        | some r' =>
          cases parseItems t (parsers E l) with
          | none => cases parseItems t (parsers E l') with
            | none => intros; trivial
            | some r => intro hh; cases hh
          | some r2 => cases parseItems t (parsers E l') with
            | none => intro hh; cases hh
            | some r2' =>
              rintro ⟨hh1, hh2, hh3⟩ ⟨h01, h02⟩
              refine ⟨by simp [hh1], ?_, by simp [hh3, h02]⟩
              intro i a b ha hb
              cases i with
              | zero => simp at ha hb; subst ha hb; exact h01
              | succ i => exact hh2 i a b (by simpa using ha) (by simpa using hb)

/-! ### Values -/

theorem alike_refl {r : Res} (h : ∀ v s, r = some (v, s) → Reordered v v) : Alike r r := by
  cases r with
  | none => trivial
  | some p => exact ⟨h _ _ rfl, rfl⟩

theorem pick_alike {ts : List (Ty Cls)} {x y : V} (h : ∀ t ∈ ts, Alike (parse E x t) (parse E y t)) {cur cur' : Res}
    (hc : Alike cur cur') : Alike (pick E cur (ts.map (parse E x))) (pick E cur' (ts.map (parse E y))) := by
  induction ts generalizing cur cur' with
  | nil => exact hc
  | cons t ts ih =>
    have ht := h t List.mem_cons_self
    have ih := fun {cur cur' : Res} (hc : Alike cur cur') => ih (fun t ht => h t (List.mem_cons_of_mem _ ht)) hc
    simp only [List.map_cons]
    revert ht
    cases parse E x t with
    | none => cases parse E y t with
      | none => intro _; exact ih hc
      | some r => intro ht; cases ht
    | some r => cases parse E y t with
      | none => intro ht; cases ht
      | some r' =>
        intro ht
        cases cur with
        | none => cases cur' with
          | none => exact ih ht
          | some => cases hc
        | some a => cases cur' with
          | none => cases hc
          | some b =>
            simp only [pick]
            refine ih ?_
            rw [show b.2 = a.2 from hc.2.symm, show r'.2 = r.2 from ht.2.symm]
            split
            · exact ht
            · exact hc

theorem reordered_json {x y : V} (h : Reordered x y) (hj : x.isJson = true) : y.isJson = true := by
  induction h with
  | list hl h ih =>
    rename_i l l'
    rw [V.isJson, isJsonList_iff] at hj ⊢
    intro w hw
    obtain ⟨i, hi, rfl⟩ := List.getElem_of_mem hw
    have hi' : i < l.length := by omega
    exact ih i l[i] _ (List.getElem?_eq_getElem hi') (List.getElem?_eq_getElem hi) (hj _ (List.getElem_mem _))
  | dict h1 h2 h3 h4 ih =>
    rw [V.isJson, isJsonDict_iff] at hj ⊢
    rintro ⟨k, w⟩ hw
    obtain ⟨⟨k', v⟩, hv, rfl⟩ := List.mem_map.1 ((h3 k).2 (List.mem_map_of_mem hw))
    exact ih _ v w hv hw (hj _ hv)
  | _ => exact hj

theorem after_json_document {d : List (Str × V)} (hj : (V.dict d).isJson = true) (hok : allOk E .AsyncAPI3 d = true) :
    after E .AsyncAPI3 (built E d) = if baseCheck E .AsyncAPI3 (built E d) then some (built E d) else none := by
  obtain ⟨h1, h2⟩ := json_processors hj hok
  unfold after
  simp only [modelCheck, Bool.and_true]
  split
  · unfold runProcessors
    rw [h1]
    simp only [callAll]
    rw [h2]
    rfl
  · rfl

theorem model_alike {c : Cls} {d d' : List (Str × V)} (hn : (d.map (·.1)).Nodup) (hn' : (d'.map (·.1)).Nodup) (h : Alikes d d')
    (hp : ∀ e ∈ d, Respects E e.2) (hj : (V.dict d).isJson = true) (hj' : (V.dict d').isJson = true) :
    Alike (parse E (.dict d) (.model c)) (parse E (.dict d') (.model c)) := by
  by_cases hk : (classDef c).kind = .patterned
  · obtain ⟨t, hf⟩ := patterned_root c hk
    have hpd : ∀ d, parse E (.dict d) (.model c) = constructRoot E c (parseDict t (.dict (entries E d))) none E.built := by
      intro d
      rw [parse_eq_shape]
      simp only [parseAs, shapeOf, parseModel]
      rw [hk, hf]
      rfl
    rw [hpd, hpd]
    have he := entries_alikes (E := E) hn hn' h hp t
    have hne : c ≠ .AsyncAPI3 := by rintro rfl; cases hk
    have haft : ∀ i, after E c i = if baseCheck E c i && modelCheck c i then some i else none := by
      intro i; unfold after; split <;> first | rfl | (split <;> first | rfl | exact absurd rfl hne)
    unfold constructRoot
    revert he
    cases parseDict t (.dict (entries E d)) with
    | none => cases parseDict t (.dict (entries E d')) with
      | none => intro _; trivial
      | some r => intro he; cases he
    | some r => cases parseDict t (.dict (entries E d')) with
      | none => intro he; cases he
      | some r' =>
        rintro ⟨he1, he2⟩
        have hi : Reordered (.inst c [(p!"root", r.1)] [] [p!"root"]) (.inst c [(p!"root", r'.1)] [] [p!"root"]) := by
          refine .inst rfl (by simp) ?_ (by simp) (by simp) (by simp) (by simp) (by simp)
          intro k v w hv hw
          simp only [List.mem_singleton, Prod.mk.injEq] at hv hw
          rw [hv.2, hw.2]; exact he1
        simp only [Option.getD_none, haft, reordered_baseCheck hi, reordered_modelCheck hi, he2]
        by_cases hb : (baseCheck E c (.inst c [(p!"root", r.1)] [] [p!"root"]) &&
            modelCheck c (.inst c [(p!"root", r.1)] [] [p!"root"])) = true
        · rw [if_pos hb, if_pos hb]; exact ⟨hi, rfl⟩
        · rw [if_neg hb, if_neg hb]; trivial
  · rw [parse_model_dict E hk, parse_model_dict E hk, construct_eq, construct_eq, allOk_alikes h hp]
    split
    · rename_i hok
      have hi := inst_alikes (E := E) hn hn' h hp c
      rw [Option.getD_none, Option.getD_none, score_alikes h hp]
      by_cases hc : c = .AsyncAPI3
      · subst hc
        have e1 := after_json_document (E := E) hj hok
        have e2 := after_json_document (E := E) hj' ((allOk_alikes h hp .AsyncAPI3).trans hok)
        unfold built at e1 e2
        rw [e1, e2, reordered_baseCheck hi]
        split
        · exact ⟨hi, rfl⟩
        · trivial
      · have haft : ∀ i, after E c i = if baseCheck E c i && modelCheck c i then some i else none := by
          intro i; unfold after; split <;> first | rfl | (split <;> first | rfl | exact absurd rfl hc)
        rw [haft, haft, reordered_baseCheck hi, reordered_modelCheck hi]
        split
        · exact ⟨hi, rfl⟩
        · trivial
    · trivial

/-- The parts of a value. -/
def PartsRespect (E : Env) : V → Prop
  | .list l => ∀ v ∈ l, Respects E v
  | .dict d => ∀ e ∈ d, Respects E e.2
  | _ => True

mutual
theorem respects_parts {x y : V} (hxy : Reordered x y) (hx : PartsRespect E x)
    (hm : ∀ c, Alike (parse E x (.model c)) (parse E y (.model c))) :
    ∀ t, Alike (parse E x t) (parse E y t)
  | .any => by rw [parse_eq_shape, parse_eq_shape]; exact ⟨hxy, rfl⟩
  | .none => by
    rw [parse_eq_shape, parse_eq_shape]
    simp only [parseAs, reordered_isNone hxy]
    split
    · exact ⟨.none, rfl⟩
    · trivial
  | .str => by
    cases hxy <;> first | exact trivial | (refine alike_refl fun v s h => ?_; have := parse_valid _ .str v s (.inr rfl) h; cases this; exact .str)
  | .int => by
    cases hxy <;> first | exact trivial | (refine alike_refl fun v s h => ?_; have := parse_valid _ .int v s (.inr rfl) h; cases this; exact .int)
  | .bool => by
    cases hxy <;> first | exact trivial | (refine alike_refl fun v s h => ?_; have := parse_valid _ .bool v s (.inr rfl) h; cases this; exact .bool)
  | .anyUrl => by
    cases hxy <;> first | exact trivial | (refine alike_refl fun v s h => ?_; have := parse_valid _ .anyUrl v s (.inr rfl) h; cases this; exact .url)
  | .httpUrl => by
    cases hxy <;> first | exact trivial | (refine alike_refl fun v s h => ?_; have := parse_valid _ .httpUrl v s (.inr rfl) h; cases this; exact .url)
  | .email => by
    cases hxy <;> first | exact trivial | (refine alike_refl fun v s h => ?_; have := parse_valid _ .email v s (.inr rfl) h; cases this; exact .str)
  | .processors => by
    cases hxy <;> first | exact trivial | exact ⟨.proc, rfl⟩
  | .lit vs => by
    cases hxy <;> first | exact trivial | (refine alike_refl fun v s h => ?_; have := parse_valid _ (.lit vs) v s (.inr rfl) h; cases this <;> first | exact .str | exact .int)
  | .list t => by
    cases hxy with
    | list hl h =>
      rename_i l l'
      have := items_alike (E := E) hl h hx t
      show Alike ((parseItems t (parsers E l)).map _) ((parseItems t (parsers E l')).map _)
      revert this
      cases parseItems t (parsers E l) with
      | none => cases parseItems t (parsers E l') with
        | none => intro _; trivial
        | some r => intro h; cases h
      | some r => cases parseItems t (parsers E l') with
        | none => intro h; cases h
        | some r' => rintro ⟨h1, h2, h3⟩; exact ⟨.list h1 h2, h3⟩
    | _ => exact trivial
  | .dict t => by
    cases hxy with
    | dict h1 h2 h3 h4 => exact entries_alikes (E := E) h1 h2 ⟨h3, h4⟩ hx t
    | _ => exact trivial
  | .model c => hm c
  | .union ts => by
    rw [parse_union, parse_union, reordered_isNone hxy]
    split
    · exact ⟨.none, rfl⟩
    · exact pick_alike (respects_each hxy hx hm ts) trivial
theorem respects_each {x y : V} (hxy : Reordered x y) (hx : PartsRespect E x)
    (hm : ∀ c, Alike (parse E x (.model c)) (parse E y (.model c))) :
    ∀ ts : List (Ty Cls), ∀ t ∈ ts, Alike (parse E x t) (parse E y t)
  | [], _, h => by cases h
  | t :: ts, t', h => by
    rcases List.mem_cons.1 h with h | h
    · rw [h]; exact respects_parts hxy hx hm t
    · exact respects_each hxy hx hm ts t' h
end

theorem json_respects (E : Env) : ∀ x : V, x.isJson = true → Respects E x := by
  apply V.ind
  · intro l ih hj y hxy
    rw [V.isJson, isJsonList_iff] at hj
    refine respects_parts hxy (fun v hv => ih v hv (hj v hv)) fun c => ?_
    cases hxy; exact trivial
  · intro d ih hj y hxy
    have hj' := hj
    rw [V.isJson, isJsonDict_iff] at hj
    refine respects_parts hxy (fun e he => ih e he (hj e he)) fun c => ?_
    cases hxy with
    | dict h1 h2 h3 h4 =>
      exact model_alike (E := E) h1 h2 ⟨h3, h4⟩ (fun e he => ih e he (hj e he)) hj' (reordered_json (.dict h1 h2 h3 h4) hj')
  · intro c fs ex set _ _ hj; cases hj
  all_goals intros; intro y hxy; refine respects_parts hxy trivial fun c => ?_; cases hxy; exact trivial

theorem proc_respects (E : Env) (n : Nat) : Respects E (.proc n) := by
  intro y hxy
  refine respects_parts hxy trivial fun c => ?_
  cases hxy; exact trivial

theorem procs_respect (E : Env) (ns : List Nat) : Respects E (.list (ns.map .proc)) := by
  intro y hxy
  refine respects_parts hxy (fun v hv => ?_) fun c => ?_
  · obtain ⟨n, _, rfl⟩ := List.mem_map.1 hv
    exact proc_respects E n
  · cases hxy; exact trivial

end Verif.Props
