import Verif.Lemmas.Rename
import Verif.Props.Grows
import Verif.Props.Address
import Verif.Props.Slots
import Verif.Props.Extract
/-!
# C66: renaming entries
-/
namespace Verif.Props
open Verif Verif.Gen Verif.Spec Verif.Pyd Verif.Mutate Verif.Document

variable {U : Uni} {limit : Option Nat} {K : List LocStep → Str → Str} {r : Str → Str}

theorem renamed_newLoc {steps loc : List LocStep} : Renamed steps (newLoc K loc steps) := by
  induction steps generalizing loc with
  | nil => exact .nil
  | cons st steps ih =>
    cases st with
    | key k => exact .cons (.inr ⟨_, _, rfl, rfl⟩) ih
    | field k => exact .cons (.inl rfl) ih
    | index k => exact .cons (.inl rfl) ih

/-- **C66.** A document that `UnifiedReferencesValidator` accepts is accepted after any renaming of entries of its mappings, if
it stays valid, its References are changed rightly, and those that stand below a renamed entry do so under ordinary names
(C16) before and after. -/
theorem C66_accepted (U : Uni) (limit : Option Nat) (K : List LocStep → Str → Str) (r : Str → Str) (doc : V)
    (hn : NoExtraRoot doc) (hr : Rightly K r doc)
    (hk : ∀ steps w s, TAt doc steps w → TRef w s → newLoc K [] steps = steps ∨ OrdinaryKeys steps ∧ OrdinaryKeys (newLoc K [] steps))
    (hv : Valid U limit doc (.model .AsyncAPI3)) (hs : Sound U limit doc) (hc : Clean doc (.model .AsyncAPI3))
    (hv' : Valid U limit (recast K r [] doc) (.model .AsyncAPI3)) (hs' : Sound U limit (recast K r [] doc))
    (hc' : Clean (recast K r [] doc) (.model .AsyncAPI3)) (hp : Validator.unified.run U doc = some doc) :
    Validator.unified.run U (recast K r [] doc) = some (recast K r [] doc) := by
  have hd := demands_iff.1 ((run_iff hv hs hc .unified doc).1 hp).2
  rw [run_iff hv' hs' hc', demands_iff]
  refine ⟨rfl, fun steps' w' s' hat' hr' => ?_⟩
  obtain ⟨steps, w, s, hat, hrf, rfl, rfl⟩ := at_recast hs hat' hr'
  have hok : TRefOk doc (Path.expectedType U mappings (render steps)) s := rightAt_iff.1 (hd steps w s hat hrf)
  have he : Path.expectedType U mappings (render (newLoc K [] steps)) = Path.expectedType U mappings (render steps) := by
    rcases hk steps w s hat hrf with h | ⟨h1, h2⟩
    · rw [h]
    · obtain ⟨o, cs, hsl⟩ := C47_slots hc hat hrf
      exact (C16_ordinary_names_partial U hsl renamed_newLoc h1 h2).symm
  show TRightAt _ _ _ _ _
  rw [rightAt_iff, he]
  exact refOk_recast hs hn hr ⟨w, at_within hat, hrf⟩ hok

/-! ### One entry -/

section
variable {dloc : List LocStep} {k k' : Str}

theorem onlyKey_other {loc : List LocStep} {j : Str} (h : loc ≠ dloc) : onlyKey dloc k k' loc j = j := by
  simp [onlyKey, h]

theorem newLoc_below {loc steps : List LocStep} (h : dloc.length < loc.length) : newLoc (onlyKey dloc k k') loc steps = steps := by
  induction steps generalizing loc with
  | nil => rfl
  | cons st steps ih =>
    have hl : dloc.length < (loc ++ [st]).length := by simp; omega
    cases st with
    | key j => simp only [newLoc, ih hl]; rw [onlyKey_other (by rintro rfl; omega)]
    | field j => simp only [newLoc, ih hl]
    | index j => simp only [newLoc, ih hl]

theorem newLoc_only {loc steps : List LocStep} : newLoc (onlyKey dloc k k') loc steps = steps ∨
    ∃ sub rest, dloc = loc ++ sub ∧ steps = sub ++ .key k :: rest ∧ newLoc (onlyKey dloc k k') loc steps = sub ++ .key k' :: rest := by
  induction steps generalizing loc with
  | nil => exact .inl rfl
  | cons st steps ih =>
    have key : ∀ st', (newLoc (onlyKey dloc k k') loc (st :: steps) = st :: newLoc (onlyKey dloc k k') (loc ++ [st]) steps → st' = st →
        newLoc (onlyKey dloc k k') loc (st :: steps) = st :: steps ∨ ∃ sub rest, dloc = loc ++ sub ∧ st :: steps = sub ++ .key k :: rest ∧
          newLoc (onlyKey dloc k k') loc (st :: steps) = sub ++ .key k' :: rest) := by
      rintro st' h1 rfl
      rcases ih (loc := loc ++ [st']) with h | ⟨sub, rest, h2, h3, h4⟩
      · exact .inl (by rw [h1, h])
      · exact .inr ⟨st' :: sub, rest, by rw [h2]; simp, by rw [h3]; rfl, by rw [h1, h4]; rfl⟩
    cases st with
    | key j =>
      by_cases hj : loc = dloc ∧ j = k
      · obtain ⟨rfl, rfl⟩ := hj
        refine .inr ⟨[], steps, by simp, rfl, ?_⟩
        rw [newLoc, newLoc_below (by simp), show onlyKey loc j k' loc j = k' by simp [onlyKey]]
        rfl
      · exact key _ (by simp only [newLoc, onlyKey, hj, if_false]) rfl
    | field j => exact key _ rfl rfl
    | index j => exact key _ rfl rfl

theorem follows_below {loc : List LocStep} {v : V} {path path'} (h : Follows (onlyKey dloc k k') loc v path path') :
    dloc.length < loc.length → path' = path := by
  induction h with
  | nil => exact fun _ => rfl
  | entry _ _ ih =>
    intro hl
    rw [ih (by simp; omega), onlyKey_other (by rintro rfl; omega)]
  | root _ _ ih => exact fun hl => ih (by simp; omega)
  | field _ _ _ _ _ _ ih => intro hl; rw [ih (by simp; omega)]

/-- A path that can be followed has the new name where it leads to the mapping and then to the entry. -/
theorem follows_only {loc : List LocStep} {v : V} {path path'} (h : Follows (onlyKey dloc k k') loc v path path') :
    path' = path ∨ ∃ pre rest sub d, path = pre ++ k :: rest ∧ dloc = loc ++ sub ∧ Leads (.dict d) v pre sub := by
  induction h with
  | nil => exact .inl rfl
  | @entry loc d j w path path' hm hf ih =>
    by_cases hj : loc = dloc ∧ j = k
    · obtain ⟨rfl, rfl⟩ := hj
      exact .inr ⟨[], path, [], d, rfl, by simp, .nil⟩
    · rcases ih with rfl | ⟨pre, rest, sub, d', rfl, h2, h3⟩
      · exact .inl (by simp only [onlyKey, hj, if_false])
      · exact .inr ⟨j :: pre, rest, .key j :: sub, d', rfl, by rw [h2]; simp, .entry hm h3⟩
  | root hm _ ih =>
    rcases ih with rfl | ⟨pre, rest, sub, d', h1, h2, h3⟩
    · exact .inl rfl
    · exact .inr ⟨pre, rest, .field p!"root" :: sub, d', h1, by rw [h2]; simp, .root hm h3⟩
  | @field loc c fs ex set f j w path path' hn hf hk hm hne _ ih =>
    rcases ih with rfl | ⟨pre, rest, sub, d', rfl, h2, h3⟩
    · exact .inl rfl
    · exact .inr ⟨j :: pre, rest, .field f.name :: sub, d', rfl, by rw [h2]; simp, .field hn hf hk hm hne h3⟩

/-- … and there it has it. -/
theorem follows_through {v : V} {pre : List Str} {sub : List LocStep} {d : List (Str × V)} (h : Leads (.dict d) v pre sub) :
    ∀ {loc : List LocStep} {rest path' : List Str}, Sound U limit v → dloc = loc ++ sub →
      Follows (onlyKey dloc k k') loc v (pre ++ k :: rest) path' → path' = pre ++ k' :: rest := by
  induction h with
  | nil =>
    intro loc rest path' _ he hf
    rw [List.append_nil] at he
    subst he
    cases hf with
    | entry _ hf => rw [follows_below hf (by simp)]; simp [onlyKey]
  | @entry d' j w path steps hm _ ih =>
    intro loc rest path' hs he hf
    cases hf with
    | entry hm' hf =>
      cases hs with
      | dict hnd hd =>
        cases dict_unique hnd hm hm'
        rw [onlyKey_other (by rintro rfl; simp at he), ih (hd _ hm) (by rw [he]; simp) hf]
        rfl
  | @root c fs ex set d' path steps hm _ ih =>
    intro loc rest path' hs he hf
    cases path with
    | nil =>
      cases hf with
      | root hm' hf =>
        cases dict_unique (inst_nodup hs) hm hm'
        exact ih (sound_within hs (.field hm .refl)) (by rw [he]; simp) hf
      | field hn => exact absurd ⟨_, _, _, _, rfl, .inl hm⟩ (hn d')
    | cons p path =>
      cases hf with
      | root hm' hf =>
        cases dict_unique (inst_nodup hs) hm hm'
        exact ih (sound_within hs (.field hm .refl)) (by rw [he]; simp) hf
      | field hn => exact absurd ⟨_, _, _, _, rfl, .inl hm⟩ (hn d')
  | @field c fs ex set f j w path steps hn hf hj hm hne _ ih =>
    intro loc rest path' hs he hfo
    cases hfo with
    | root hm' _ => exact absurd ⟨_, _, _, _, rfl, .inl hm'⟩ (hn _)
    | field _ hg hj' hm' _ hfo =>
      rw [← Verif.same_field hf hg hj hj'] at hm' hfo
      cases dict_unique (inst_nodup hs) hm hm'
      rw [ih (sound_within hs (.field hm .refl)) (by rw [he]; simp) hfo]
      rfl

end

theorem split_append (c : Char) (a b : Str) : Str.split c (a ++ c :: b) = Str.split c a ++ Str.split c b := by
  induction a with
  | nil => rw [List.nil_append, Str.split_cons_sep]; simp [Str.split]
  | cons x a ih =>
    by_cases h : x = c
    · subst h
      rw [List.cons_append, Str.split_cons_sep, Str.split_cons_sep, ih]
      rfl
    · obtain ⟨y, l, e, h1⟩ := Str.split_cons_ne h (a ++ c :: b)
      obtain ⟨z, m, e', h2⟩ := Str.split_cons_ne h a
      rw [ih, e', List.cons_append, List.cons.injEq] at e
      obtain ⟨rfl, rfl⟩ := e
      rw [List.cons_append, h1, h2]
      rfl

theorem pieces_append (c : Char) (a b : Str) : Str.pieces c (a ++ c :: b) = Str.pieces c a ++ Str.pieces c b := by
  simp only [Str.pieces, split_append, List.filter_append]

theorem spells_append {s t : Str} {path : List Str} (h : Spells s path) : Spells (s ++ '/' :: t) (path ++ Str.pieces '/' t) := by
  have h0 := h
  obtain ⟨ps, rfl, -⟩ := h0
  rw [Resolve.spells_iff] at h ⊢
  obtain ⟨-, rfl, hne⟩ := h
  refine ⟨by simp [Str.startsWith], ?_, by simp [hne]⟩
  simp only [Resolve.segsOf, List.cons_append, List.drop_succ_cons, List.drop_zero, pieces_append]

theorem redirect_url {old new s : Str} (ho : ∃ t, old = '#' :: t) (h : External s) : redirect old new s = s := by
  obtain ⟨t, rfl⟩ := ho
  rcases h with ⟨u, rfl⟩ | ⟨u, rfl⟩ <;> simp [redirect]

/-- The new name is put into the References rightly. -/
theorem rightly_only (doc : V) (jp : List Str) (k k' : Str) (dloc : List LocStep) (d : List (Str × V))
    (hm : Leads (.dict d) doc jp dloc) (hplain : ∀ p ∈ jp ++ [k, k'], p ≠ [] ∧ '/' ∉ p) (hs : Sound U limit doc)
    (hcan : ∀ s, HasRef doc s → ∀ pre rest x, Spells s (pre ++ k :: rest) → Leads x doc pre dloc →
      s = pointer (jp ++ [k]) ∨ (pointer (jp ++ [k]) ++ p!"/") <+: s) :
    Rightly (onlyKey dloc k k') (redirect (pointer (jp ++ [k])) (pointer (jp ++ [k']))) doc := by
  have hold : Spells (pointer (jp ++ [k])) (jp ++ [k]) := pointer_spells (by simp) fun p hp => hplain p (by
    simp only [List.mem_append, List.mem_cons, List.not_mem_nil, or_false] at hp ⊢; tauto)
  have hnew : Spells (pointer (jp ++ [k'])) (jp ++ [k']) := pointer_spells (by simp) fun p hp => hplain p (by
    simp only [List.mem_append, List.mem_cons, List.not_mem_nil, or_false] at hp ⊢; tauto)
  have thr : ∀ {rest path'}, Follows (onlyKey dloc k k') [] doc (jp ++ k :: rest) path' → path' = jp ++ k' :: rest :=
    fun h => follows_through hm hs (by simp) h
  intro s hh
  refine ⟨redirect_url ⟨_, rfl⟩, fun path path' hsp hf => ?_⟩
  by_cases h1 : s = pointer (jp ++ [k])
  · subst h1
    cases Resolve.spells_unique hsp hold
    rw [thr hf]
    simpa [redirect] using hnew
  · by_cases h2 : (pointer (jp ++ [k]) ++ p!"/") <+: s
    · obtain ⟨t, rfl⟩ := h2
      have e : pointer (jp ++ [k]) ++ p!"/" ++ t = pointer (jp ++ [k]) ++ '/' :: t := by simp
      rw [e] at hsp h1 ⊢
      cases Resolve.spells_unique hsp (spells_append (t := t) hold)
      rw [List.append_assoc] at hf
      rw [thr hf]
      have := spells_append (t := t) hnew
      rw [List.append_assoc] at this
      have hr : redirect (pointer (jp ++ [k])) (pointer (jp ++ [k'])) (pointer (jp ++ [k]) ++ '/' :: t) = pointer (jp ++ [k']) ++ '/' :: t := by
        unfold redirect
        rw [if_neg h1, if_pos (by rw [← e, List.isPrefixOf_iff_prefix]; exact List.prefix_append _ _)]
        rw [List.drop_left]
      rw [hr]
      exact this
    · have hr : redirect (pointer (jp ++ [k])) (pointer (jp ++ [k'])) s = s := by
        unfold redirect
        rw [if_neg h1, if_neg (by rw [List.isPrefixOf_iff_prefix]; exact h2)]
      rw [hr]
      rcases follows_only hf with rfl | ⟨pre, rest, sub, d', rfl, h3, h4⟩
      · exact hsp
      · simp only [List.nil_append] at h3
        subst h3
        rcases hcan s hh pre rest _ hsp h4 with h | h
        · exact absurd h h1
        · exact absurd h h2

/-- **C66.** In particular a document stays accepted when one entry `k` of a mapping that `jp` leads to is renamed to `k'`, and in
all References `#/…/k` becomes `#/…/k'`: if all References through the entry begin like this, and those below it stand
under ordinary names. -/
theorem C66_renamed (U : Uni) (limit : Option Nat) (doc : V) (jp : List Str) (k k' : Str) (dloc : List LocStep) (d : List (Str × V))
    (hm : Leads (.dict d) doc jp dloc) (hplain : ∀ p ∈ jp ++ [k, k'], p ≠ [] ∧ '/' ∉ p) (hn : NoExtraRoot doc)
    (hcan : ∀ s, HasRef doc s → ∀ pre rest x, Spells s (pre ++ k :: rest) → Leads x doc pre dloc →
      s = pointer (jp ++ [k]) ∨ (pointer (jp ++ [k]) ++ p!"/") <+: s)
    (hord : ∀ rest w s, TAt doc (dloc ++ .key k :: rest) w → TRef w s → OrdinaryKeys (dloc ++ .key k :: rest)) (hk' : Ordinary k')
    (hv : Valid U limit doc (.model .AsyncAPI3)) (hs : Sound U limit doc) (hc : Clean doc (.model .AsyncAPI3)) (doc' : V)
    (hd' : doc' = recast (onlyKey dloc k k') (redirect (pointer (jp ++ [k])) (pointer (jp ++ [k']))) [] doc)
    (hv' : Valid U limit doc' (.model .AsyncAPI3)) (hs' : Sound U limit doc') (hc' : Clean doc' (.model .AsyncAPI3))
    (hp : Validator.unified.run U doc = some doc) : Validator.unified.run U doc' = some doc' := by
  subst hd'
  refine C66_accepted U limit _ _ doc hn (rightly_only doc jp k k' dloc d hm hplain hs hcan) ?_ hv hs hc hv' hs' hc' hp
  intro steps w s hat hr
  rcases newLoc_only (dloc := dloc) (k := k) (k' := k') (loc := []) (steps := steps) with h | ⟨sub, rest, h1, h2, h3⟩
  · exact .inl h
  · simp only [List.nil_append] at h1
    subst h1 h2
    have ho := hord rest w s hat hr
    refine .inr ⟨ho, ?_⟩
    rw [h3]
    intro j hj
    simp only [List.mem_append, List.mem_cons, LocStep.key.injEq] at hj
    rcases hj with hj | rfl | hj
    · exact ho j (by simp [hj])
    · exact hk'
    · exact ho j (by simp [hj])

/-! ### A document that meets the assumptions -/

/-- A check of all Reference strings. -/
def refsPass (p : Str → Bool) : Nat → V → Bool
  | 0, _ => false
  | k + 1, .list l => l.all (refsPass p k)
  | k + 1, .dict d => d.all fun e => refsPass p k e.2
  | k + 1, .inst c fs ex _ => (c != .Reference || fs.all fun e => e.1 != p!"ref" || match e.2 with | .str s => p s | _ => false) &&
      (fs.all fun e => refsPass p k e.2) && ex.all fun e => refsPass p k e.2
  | _ + 1, _ => true

theorem refsPass_sound {p : Str → Bool} {v : V} {k : Nat} (h : refsPass p k v = true) {s : Str} (hr : HasRef v s) : p s = true := by
  obtain ⟨w, hw, fs, ex, set, rfl, hm⟩ := hr
  induction hw generalizing k with
  | refl =>
    cases k with
    | zero => cases h
    | succ k =>
      simp only [refsPass, Bool.and_eq_true, List.all_eq_true, bne_self_eq_false, Bool.false_or] at h
      simpa using h.1.1 _ hm
  | item hm _ ih =>
    cases k with
    | zero => cases h
    | succ k => simp only [refsPass, List.all_eq_true] at h; exact ih (h _ hm)
  | entry hm _ ih =>
    cases k with
    | zero => cases h
    | succ k => simp only [refsPass, List.all_eq_true] at h; exact ih (h _ hm)
  | field hm _ ih =>
    cases k with
    | zero => cases h
    | succ k => simp only [refsPass, Bool.and_eq_true, List.all_eq_true] at h; exact ih (h.1.2 _ hm)
  | extra hm _ ih =>
    cases k with
    | zero => cases h
    | succ k => simp only [refsPass, Bool.and_eq_true, List.all_eq_true] at h; exact ih (h.2 _ hm)

/-- A check of all keys. -/
def keysPass (p : Str → Bool) : Nat → V → Bool
  | 0, _ => false
  | k + 1, .list l => l.all (keysPass p k)
  | k + 1, .dict d => d.all fun e => p e.1 && keysPass p k e.2
  | k + 1, .inst _ fs _ _ => fs.all fun e => keysPass p k e.2
  | _ + 1, _ => true

theorem keysPass_sound {p : Str → Bool} {v w : V} {steps : List LocStep} (hat : TAt v steps w) : ∀ {k : Nat}, keysPass p k v = true →
    ∀ j, .key j ∈ steps → p j = true := by
  induction hat with
  | nil => intro k _ j hj; cases hj
  | cons hc _ ih =>
    intro k h j hj
    cases k with
    | zero => cases h
    | succ k =>
      cases hc with
      | item hi =>
        simp only [keysPass, List.all_eq_true] at h
        rcases List.mem_cons.1 hj with hj | hj
        · cases hj
        · exact ih (h _ (List.mem_of_getElem? hi)) j hj
      | entry hm =>
        simp only [keysPass, List.all_eq_true, Bool.and_eq_true] at h
        rcases List.mem_cons.1 hj with hj | hj
        · cases hj; exact (h _ hm).1
        · exact ih (h _ hm).2 j hj
      | field _ _ hm _ =>
        simp only [keysPass, List.all_eq_true] at h
        rcases List.mem_cons.1 hj with hj | hj
        · cases hj
        · exact ih (h _ hm) j hj

set_option maxRecDepth 20000

/-- The location of the message collection of `small` (C53). -/
def messagesAt : List LocStep := [.field p!"components", .field p!"messages", .field p!"root"]

/-- `small` with the message `n` renamed to `z`; the Reference to it is changed. -/
def renamedSmall : V := recast (onlyKey messagesAt p!"n" p!"z") (redirect p!"#/components/messages/n" p!"#/components/messages/z") [] small

/-- The same as JSON. -/
def renamedInput : List (Str × V) := [
  (p!"asyncapi", .str p!"3.0.0"),
  (p!"info", .dict [(p!"title", .str p!"t"), (p!"version", .str p!"1"),
    (p!"tags", .list [.dict [(p!"$ref", .str p!"#/components/tags/a")]])]),
  (p!"channels", .dict [(p!"c", .dict [(p!"address", .str p!"x"),
    (p!"messages", .dict [(p!"m", .dict [(p!"$ref", .str p!"#/components/messages/z")])])])]),
  (p!"components", .dict [(p!"messages", .dict [(p!"z", .dict [(p!"$ref", .str p!"#/components/messages/o")]),
    (p!"o", .dict [(p!"name", .str p!"hi")])]),
    (p!"tags", .dict [(p!"a", .dict [(p!"name", .str p!"a")])])]),
  (p!"extra_validators", .list [.proc 3])]

theorem renamed_made : validate packageEnv .AsyncAPI3 (.dict renamedInput) = some renamedSmall := sameResult_eq (by decide +kernel)

/-- All the assumptions of `C66_renamed` hold of `small`, and so it is accepted after the message was renamed. -/
example : Validator.unified.run .ascii renamedSmall = some renamedSmall := by
  obtain ⟨hv, hs, hc, -⟩ := C47_accepted packageEnv packageEnv_checks _ (plain_input rfl).2 small small_made
  obtain ⟨hv', hs', hc', -⟩ := C47_accepted packageEnv packageEnv_checks _ (plain_input rfl).2 renamedSmall renamed_made
  have hm : ∃ d, Leads (.dict d) small [p!"components", p!"messages"] messagesAt := by
    have h : (match locate small messagesAt with | some (.dict _) => true | _ => false) = true := by decide +kernel
    split at h
    · rename_i d e
      exact ⟨d, json_leads (locate_at e) hs (noRoot_sound (k := 12) (by decide +kernel)) (names_path (by decide +kernel))⟩
    · cases h
  obtain ⟨d, hm⟩ := hm
  refine C66_renamed .ascii _ small [p!"components", p!"messages"] p!"n" p!"z" messagesAt d hm (by simp) (noRoot_sound (k := 12) (by decide +kernel))
    ?_ ?_ (ordinaryB_sound (by decide +kernel)) hv hs (hc (plain_input (U := .ascii) (limit := none) rfl).1) renamedSmall rfl hv' hs'
    (hc' (plain_input (U := .ascii) (limit := none) rfl).1) ?_
  · intro s hh pre rest x hsp _
    have := refsPass_sound (p := fun s => s == p!"#/components/messages/n" || !(Resolve.segsOf s).contains p!"n") (k := 12) (by decide +kernel) hh
    simp only [Bool.or_eq_true, beq_iff_eq, Bool.not_eq_true', List.contains_eq_mem, decide_eq_false_iff_not] at this
    rcases this with rfl | h
    · exact .inl rfl
    · rw [Resolve.spells_iff] at hsp
      exact absurd (by rw [← hsp.2.1]; simp) h
  · intro rest w s hat _ j hj
    exact ordinaryB_sound (keysPass_sound (k := 12) hat (by decide +kernel) j hj)
  · have : (Validator.unified.run .ascii small).isSome = true := by decide +kernel
    obtain ⟨x, hx⟩ := Option.isSome_iff_exists.1 this
    rw [hx, run_only_checks hx]

end Verif.Props
