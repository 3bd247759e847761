import Verif.Props.Document
import Verif.Lemmas.Describe
/-!
# C58: what TagsRefValidator and ExternalDocsRefValidator say
-/
namespace Verif.Props
open Verif Verif.Spec Verif.Gen Verif.RefV Verif.Resolve
variable {n : Nat} {D : Doc Cls n}

theorem blames_text {pre context s : Str} {e : Err} (h : Blames pre context s e) :
    ∃ w, WrongWith pre s w ∧
      ((∃ r, w = .elsewhere r ∧ e = .pointsElsewhere context r) ∨ ∃ k, w = .missing k ∧ e = .missing context k) := by
  rcases h with ⟨h, rfl⟩ | ⟨rest, key, h, hd, rfl⟩
  · exact ⟨_, .elsewhere h, .inl ⟨_, rfl, rfl⟩⟩
  · exact ⟨_, .missing h hd, .inr ⟨_, rfl, rfl⟩⟩

/-- **C58.** TagsRefValidator rejects with a text that describes the location of a Reference that does not pass its
check, and says what is wrong with it. -/
theorem C58_tags_error (T : Typed D) {e} (h : (validateTags D).res = .error e) :
    ∃ steps s w, StandsAt D tagPlaces steps s ∧ ¬ Checked D p!"tags" tagPrefix s ∧ WrongWith tagPrefix s w ∧
      tagError e = some (tagText steps w) := by
  obtain ⟨steps, s, h1, h2, h3⟩ := C17_rejection T h
  obtain ⟨w, hw, ⟨r, rfl, rfl⟩ | ⟨k, rfl, rfl⟩⟩ := blames_text h3
  · exact ⟨steps, s, _, h1, h2, hw, by simp only [tagError, tagText, sentence_eq]⟩
  · exact ⟨steps, s, _, h1, h2, hw, by simp only [tagError, tagText, sentence_eq]⟩

/-- **C58.** The same for ExternalDocsRefValidator. -/
theorem C58_docs_error (T : Typed D) {e} (h : (validateDocs D).res = .error e) :
    ∃ steps s w, StandsAt D docPlaces steps s ∧ ¬ Checked D p!"external_docs" docPrefix s ∧ WrongWith docPrefix s w ∧
      docError e = some (docText steps w) := by
  obtain ⟨steps, s, h1, h2, h3⟩ := C18_rejection T h
  obtain ⟨w, hw, ⟨r, rfl, rfl⟩ | ⟨k, rfl, rfl⟩⟩ := blames_text h3
  · exact ⟨steps, s, _, h1, h2, hw, by simp only [docError, docText, sentence_eq]⟩
  · exact ⟨steps, s, _, h1, h2, hw, by simp only [docError, docText, sentence_eq]⟩

/-- **C58.** On an accepted document they log, for each location of an external reference, that it is external, and
nothing else. -/
theorem C58_notes (T : Typed D) :
    ((validateTags D).res = .ok () → ∃ L : List (List LocStep × Str), L.Nodup ∧
      (∀ steps s, (steps, s) ∈ L ↔ StandsAt D tagPlaces steps s ∧ NotHash s) ∧
      (validateTags D).warn.map tagWarning = L.map fun x => tagNote x.1 x.2) ∧
    ((validateDocs D).res = .ok () → ∃ L : List (List LocStep × Str), L.Nodup ∧
      (∀ steps s, (steps, s) ∈ L ↔ StandsAt D docPlaces steps s ∧ NotHash s) ∧
      (validateDocs D).warn.map docWarning = L.map fun x => docNote x.1 x.2) := by
  constructor
  · intro h
    obtain ⟨L, h1, h2, h3⟩ := (C19_one_warning_each T).1 h
    refine ⟨L, h1, h2, ?_⟩
    rw [h3, List.map_map]
    exact List.map_congr_left fun x _ => by simp only [Function.comp, tagWarning, tagNote, sentence_eq]
  · intro h
    obtain ⟨L, h1, h2, h3⟩ := (C19_one_warning_each T).2 h
    refine ⟨L, h1, h2, ?_⟩
    rw [h3, List.map_map]
    exact List.map_congr_left fun x _ => by simp only [Function.comp, docWarning, docNote, sentence_eq]

/-! ### Which location is meant -/

theorem noQuote_names {steps : List LocStep} (h : NoQuote steps) : QuoteFree (namesOn steps) := by
  intro nm hnm
  obtain ⟨st, hst, e⟩ := List.mem_filterMap.1 hnm
  cases st <;> simp at e
  subst e
  exact h _ hst

/-- A text that begins with a description: the description and what follows it. -/
theorem text_inj {contexts : List (List PStep × List Piece)} {f g : Str}
    (ha : Apart (followed contexts f g) = true) (hc : AllClosed (followed contexts f g) = true)
    (hl : lower f = f ∧ lower g = g) (b b' : Bool) {steps steps' : List LocStep} {x y : Str}
    (h : steps.map LocStep.shape ∈ contexts.map Prod.fst) (h' : steps'.map LocStep.shape ∈ contexts.map Prod.fst)
    (q : NoQuote steps) (q' : NoQuote steps')
    (e : sentence (describe contexts steps) ++ (if b then f else g) ++ x =
      sentence (describe contexts steps') ++ (if b' then f else g) ++ y) :
    b = b' ∧ steps.map LocStep.shape = steps'.map LocStep.shape ∧ x = y ∧
    ∃ t, (steps.map LocStep.shape, t) ∈ contexts ∧
      (∀ i, .name i ∈ toks t → lower ((namesOn steps).getD i []) = lower ((namesOn steps').getD i [])) ∧
      (∀ i, .index i ∈ toks t → (indicesOn steps).getD i 0 = (indicesOn steps').getD i 0) := by
  obtain ⟨t, ht, e1⟩ := describe_mem h
  obtain ⟨t', ht', e2⟩ := describe_mem h'
  have hfg : ∀ b : Bool, lower (if b then f else g) = if b then f else g := by intro b; cases b; exacts [hl.2, hl.1]
  have hfill : ∀ (b : Bool) (names : List Str) (ix : List Nat) (t : List Piece),
      lower (fill names ix (t ++ [.text (if b then f else g)])) = lower (fill names ix t) ++ if b then f else g := by
    intro b names ix t
    have : fill names ix (t ++ [.text (if b then f else g)]) = fill names ix t ++ if b then f else g := by
      simp [fill]
    rw [this, lower, List.map_append]
    congr 1
    exact hfg b
  -- the same up to case, with what follows unchanged
  have hcase : ∀ (s s' a a' x y : Str), capitalize s ++ a ++ x = capitalize s' ++ a' ++ y → lower a = a → lower a' = a' →
      lower s ++ a ++ lower x = lower s' ++ a' ++ lower y := by
    intro s s' a a' x y e l l'
    have := congrArg lower e
    simp only [lower, List.map_append] at this
    have h1 := lower_capitalize s
    have h2 := lower_capitalize s'
    simp only [lower] at h1 h2 l l'
    rw [h1, h2, l, l'] at this
    simpa [lower] using this
  rw [sentence_eq, sentence_eq] at e
  have e3 := hcase _ _ _ _ _ _ e (hfg b) (hfg b')
  rw [e1, e2, ← hfill b, ← hfill b'] at e3
  obtain ⟨i0, i1, i2, _⟩ := apart_inj ha hc (mem_followed ht b) (mem_followed ht' b') (noQuote_names q) (noQuote_names q') e3
  simp only [Prod.mk.injEq] at i0
  obtain ⟨⟨hs, rfl⟩, htt⟩ := i0
  have htt : t = t' := (List.append_cancel_right htt)
  subst htt
  have i1 : ∀ i, .name i ∈ toks t → lower ((namesOn steps).getD i []) = lower ((namesOn steps').getD i []) :=
    fun i hi => i1 i (by simp only [toks, List.flatMap_append, List.mem_append] at hi ⊢; exact .inl hi)
  have i2 : ∀ i, .index i ∈ toks t → (indicesOn steps).getD i 0 = (indicesOn steps').getD i 0 :=
    fun i hi => i2 i (by simp only [toks, List.flatMap_append, List.mem_append] at hi ⊢; exact .inl hi)
  refine ⟨rfl, hs, ?_, t, ht, i1, i2⟩
  -- the lengths of what precedes are the same
  have hlen : ∀ s : Str, (capitalize s).length = (lower s).length := by intro s; cases s <;> simp [capitalize, lower]
  have hd : lower (describe contexts steps) = lower (describe contexts steps') := by
    rw [e1, e2, fill_eq, fill_eq, lower_fillT, lower_fillT]
    exact fillT_congr (fun i hi => by
        have := i1 i (by
          obtain ⟨k, hk, e⟩ := List.mem_map.1 hi
          cases k <;> simp [lowerTok] at e
          rw [← e]; exact hk)
        simp only [List.getD, List.getElem?_map] at this ⊢
        cases h1 : (namesOn steps)[i]? <;> cases h2 : (namesOn steps')[i]? <;> simpa [h1, h2, lower] using this)
      (fun i hi => i2 i (by
          obtain ⟨k, hk, e⟩ := List.mem_map.1 hi
          cases k <;> simp [lowerTok] at e
          rw [← e]; exact hk))
  rw [(capitalize_iff _ _).2 hd, List.append_assoc, List.append_assoc] at e
  exact List.append_cancel_left (List.append_cancel_left e)

theorem shape_of_lower {steps steps' : List LocStep}
    (h : steps.map (LocStep.uncounted ∘ LocStep.lower) = steps'.map (LocStep.uncounted ∘ LocStep.lower)) :
    steps.map LocStep.shape = steps'.map LocStep.shape ∧ (namesOn steps).map lower = (namesOn steps').map lower := by
  induction steps generalizing steps' with
  | nil => cases steps' with
    | nil => exact ⟨rfl, rfl⟩
    | cons => simp at h
  | cons a l ih => cases steps' with
    | nil => simp at h
    | cons b l' =>
      simp only [List.map_cons, List.cons.injEq] at h
      obtain ⟨h0, h⟩ := h
      obtain ⟨i1, i2⟩ := ih h
      rw [namesOn_cons a, namesOn_cons b]
      cases a <;> cases b <;> simp [LocStep.uncounted, LocStep.lower] at h0 <;>
        simp [LocStep.shape, i1, i2, h0, lower]

theorem indices_of_lower {steps steps' : List LocStep} (h : steps.map LocStep.lower = steps'.map LocStep.lower) :
    indicesOn steps = indicesOn steps' := by
  induction steps generalizing steps' with
  | nil => cases steps' with
    | nil => rfl
    | cons => simp at h
  | cons a l ih => cases steps' with
    | nil => simp at h
    | cons b l' =>
      simp only [List.map_cons, List.cons.injEq] at h
      obtain ⟨h0, h⟩ := h
      rw [indicesOn_cons a, indicesOn_cons b]
      cases a <;> cases b <;> simp [LocStep.lower] at h0 <;> simp [ih h, h0]

/-- Descriptions in lower case depend on the shape, the names in lower case and the indices they mention. -/
theorem describe_congr {contexts : List (List PStep × List Piece)} {steps steps' : List LocStep}
    (hs : steps.map LocStep.shape = steps'.map LocStep.shape)
    (hn : (namesOn steps).map lower = (namesOn steps').map lower)
    (hi : ∀ t, (steps.map LocStep.shape, t) ∈ contexts → ∀ i, .index i ∈ toks t →
      (indicesOn steps).getD i 0 = (indicesOn steps').getD i 0) :
    sentence (describe contexts steps) = sentence (describe contexts steps') := by
  rw [sentence_eq, sentence_eq, capitalize_iff]
  unfold describe
  rw [hs]
  cases hf : contexts.find? fun e => decide (e.1 = steps'.map LocStep.shape) with
  | none => rfl
  | some e =>
    simp only
    rw [fill_eq, fill_eq, lower_fillT, lower_fillT, hn]
    refine fillT_congr (fun _ _ => rfl) fun i hi' => hi e.2 ?_ i ?_
    · have h1 := List.find?_some hf
      simp only [decide_eq_true_eq] at h1
      rw [hs, ← h1]; exact List.mem_of_find?_eq_some hf
    · obtain ⟨k, hk, e⟩ := List.mem_map.1 hi'
      cases k <;> simp [lowerTok] at e
      rw [← e]; exact hk

theorem tags_places : tagContexts.map Prod.fst = tagPlaces := by decide +kernel
theorem docs_places : docContexts.map Prod.fst = docPlaces := by decide +kernel
theorem tags_uncounted : (tagContexts.all fun e => (toks e.2).all fun k =>
    match k with | .index _ => false | _ => true) = true := by decide +kernel

/-- **C58.** What TagsRefValidator says of two locations is the same exactly if the locations are the same up to the
position in a list of tags and the letter case of entry names, and the same is wrong. -/
theorem C58_tags_identify {steps steps' : List LocStep} (h : steps.map LocStep.shape ∈ tagPlaces)
    (h' : steps'.map LocStep.shape ∈ tagPlaces) (q : NoQuote steps) (q' : NoQuote steps') (w w' : Wrong) :
    tagText steps w = tagText steps' w' ↔
      steps.map (LocStep.uncounted ∘ LocStep.lower) = steps'.map (LocStep.uncounted ∘ LocStep.lower) ∧ w = w' := by
  rw [← tags_places] at h h'
  have hl : lower p!" tag reference '" = p!" tag reference '" ∧ lower p!" references tag '" = p!" references tag '" := by
    decide +kernel
  have fin : ∀ {b b' : Bool} {x y : Str}, (sentence (describe tagContexts steps) ++
      (if b then p!" tag reference '" else p!" references tag '") ++ x =
      sentence (describe tagContexts steps') ++ (if b' then p!" tag reference '" else p!" references tag '") ++ y) →
      b = b' ∧ x = y ∧ steps.map (LocStep.uncounted ∘ LocStep.lower) = steps'.map (LocStep.uncounted ∘ LocStep.lower) := by
    intro b b' x y e
    obtain ⟨hb, hs, hx, t, ht, i1, _⟩ := text_inj tags_apart tags_closed hl b b' h h' q q' e
    refine ⟨hb, hx, steps_uncounted hs (names_of_getD hs fun i hi => i1 i ?_)⟩
    have := List.all_eq_true.1 (List.all_eq_true.1 tags_named _ ht) i (List.mem_range.2 hi)
    simpa using this
  constructor
  · intro e
    cases w <;> cases w' <;> simp only [tagText, List.append_assoc] at e
    · obtain ⟨_, e, r⟩ := fin (b := true) (b' := true) (by simpa only [if_true, Bool.false_eq_true, if_false, List.append_assoc] using e)
      exact ⟨r, by rw [List.append_cancel_right e]⟩
    · obtain ⟨e, _⟩ := fin (b := true) (b' := false) (by simpa only [if_true, Bool.false_eq_true, if_false, List.append_assoc] using e)
      cases e
    · obtain ⟨e, _⟩ := fin (b := false) (b' := true) (by simpa only [if_true, Bool.false_eq_true, if_false, List.append_assoc] using e)
      cases e
    · obtain ⟨_, e, r⟩ := fin (b := false) (b' := false) (by simpa only [Bool.false_eq_true, if_false, List.append_assoc] using e)
      exact ⟨r, by rw [List.append_cancel_right e]⟩
  · rintro ⟨e, rfl⟩
    obtain ⟨hs, hn⟩ := shape_of_lower e
    have : sentence (describe tagContexts steps) = sentence (describe tagContexts steps') :=
      describe_congr hs hn fun t ht i hi => by
        have := List.all_eq_true.1 (List.all_eq_true.1 tags_uncounted _ ht) _ hi
        cases this
    cases w <;> simp only [tagText, this]

/-- **C58.** What ExternalDocsRefValidator says of two locations is the same exactly if the locations are the same up
to the letter case of entry names, and the same is wrong. -/
theorem C58_docs_identify {steps steps' : List LocStep} (h : steps.map LocStep.shape ∈ docPlaces)
    (h' : steps'.map LocStep.shape ∈ docPlaces) (q : NoQuote steps) (q' : NoQuote steps') (w w' : Wrong) :
    docText steps w = docText steps' w' ↔ steps.map LocStep.lower = steps'.map LocStep.lower ∧ w = w' := by
  rw [← docs_places] at h h'
  have hl : lower p!" external documentation reference '" = p!" external documentation reference '" ∧
      lower p!" references external documentation '" = p!" references external documentation '" := by
    decide +kernel
  have fin : ∀ {b b' : Bool} {x y : Str}, (sentence (describe docContexts steps) ++
      (if b then p!" external documentation reference '" else p!" references external documentation '") ++ x =
      sentence (describe docContexts steps') ++
      (if b' then p!" external documentation reference '" else p!" references external documentation '") ++ y) →
      b = b' ∧ x = y ∧ steps.map LocStep.lower = steps'.map LocStep.lower := by
    intro b b' x y e
    obtain ⟨hb, hs, hx, t, ht, i1, i2⟩ := text_inj docs_apart docs_closed hl b b' h h' q q' e
    refine ⟨hb, hx, steps_lower hs (names_of_getD hs fun i hi => i1 i ?_) (indices_of_getD hs fun i hi => i2 i ?_)⟩
    · have := List.all_eq_true.1 (List.all_eq_true.1 docs_named _ ht) i (List.mem_range.2 hi)
      simpa using this
    · have := List.all_eq_true.1 (List.all_eq_true.1 docs_counted _ ht) i (List.mem_range.2 hi)
      simpa using this
  constructor
  · intro e
    cases w <;> cases w' <;> simp only [docText, List.append_assoc] at e
    · obtain ⟨_, e, r⟩ := fin (b := true) (b' := true) (by simpa only [if_true, Bool.false_eq_true, if_false, List.append_assoc] using e)
      exact ⟨r, by rw [List.append_cancel_right e]⟩
    · obtain ⟨e, _⟩ := fin (b := true) (b' := false) (by simpa only [if_true, Bool.false_eq_true, if_false, List.append_assoc] using e)
      cases e
    · obtain ⟨e, _⟩ := fin (b := false) (b' := true) (by simpa only [if_true, Bool.false_eq_true, if_false, List.append_assoc] using e)
      cases e
    · obtain ⟨_, e, r⟩ := fin (b := false) (b' := false) (by simpa only [Bool.false_eq_true, if_false, List.append_assoc] using e)
      exact ⟨r, by rw [List.append_cancel_right e]⟩
  · rintro ⟨e, rfl⟩
    have e' : steps.map (LocStep.uncounted ∘ LocStep.lower) = steps'.map (LocStep.uncounted ∘ LocStep.lower) := by
      rw [← List.map_map, e, List.map_map]
    obtain ⟨hs, hn⟩ := shape_of_lower e'
    have : sentence (describe docContexts steps) = sentence (describe docContexts steps') :=
      describe_congr hs hn fun _ _ i _ => by rw [indices_of_lower e]
    cases w <;> simp only [docText, this]

/-! ### In documents -/

/-- A key comes right after the field `root`. -/
def rooted : Bool → List PStep → Bool
  | _, [] => true
  | _, .field f :: l => rooted (decide (f = p!"root")) l
  | _, .anyIndex :: l => rooted false l
  | b, .anyKey :: l => b && rooted false l

theorem root_patterned : Cls.all.all (fun c => (classDef c).fields.all fun f =>
    decide (f.name ≠ p!"root") || decide ((classDef c).kind = .patterned)) = true := by decide +kernel

theorem keyForm_noQuote {k : Str} (h : OrNewline KeyForm k) : '\'' ∉ k := by
  have key : ∀ k, KeyForm k → '\'' ∉ k := by
    intro k ⟨_, h⟩ hm
    rcases h _ hm with h | h | h | h
    · simp [Letter] at h
    · simp [Digit] at h
    · simp at h
    · simp at h
  rcases h with h | ⟨t, rfl, h⟩
  · exact key _ h
  · intro hm
    rcases List.mem_append.1 hm with hm | hm
    · exact key _ h hm
    · simp at hm

theorem noQuote_at {U : Uni} {limit : Option Nat} {v w : V} {steps} (h : TAt v steps w) : ∀ {b}, Sound U limit v →
    (b = true → ∀ d, v = .dict d → ∀ e ∈ d, '\'' ∉ e.1) → rooted b (steps.map LocStep.shape) = true → NoQuote steps := by
  induction h with
  | nil => intro b _ _ _ nm h; simp at h
  | @cons v st u ss w hc hat ih =>
    intro b hs hb hr nm hm
    cases hc with
    | item hi =>
      cases hs with | list hs =>
      rcases List.mem_cons.1 hm with hm | hm
      · cases hm
      · exact ih (b := false) (hs _ (List.mem_of_getElem? hi)) (by simp) hr nm hm
    | @entry d k _ he =>
      have hr' : b = true ∧ rooted false (ss.map LocStep.shape) = true := by
        rw [← Bool.and_eq_true]; exact hr
      rcases List.mem_cons.1 hm with hm | hm
      · cases hm; exact hb hr'.1 d rfl _ he
      · cases hs with | dict _ hs => exact ih (b := false) (hs _ he) (by simp) hr'.2 nm hm
    | @field c fs ex set f _ hf _ hfs _ =>
      rcases List.mem_cons.1 hm with hm | hm
      · cases hm
      · cases hs with | inst hv hs _ _ =>
        refine ih (b := decide (f.name = p!"root")) (hs _ hfs) ?_ hr nm hm
        intro hroot d hd e he
        have hroot := of_decide_eq_true hroot
        have hp := List.all_eq_true.1 (List.all_eq_true.1 root_patterned c (Cls.mem_all c)) f hf
        cases hv with | model hn _ hcons =>
        simp only [hroot, ne_eq, not_true, decide_false, Bool.false_or, decide_eq_true_eq] at hp
        have hnd : (fs.map (·.1)).Nodup := by rw [hn]; exact names_nodup c
        refine keyForm_noQuote (hcons.keys hp d ?_ e he)
        subst hd
        rw [hroot] at hfs
        simp only [V.attr, (lookup_iff hnd).2 hfs, Option.getD_some]

/-- **C58.** The entry names on the way to a checked place of a document have no quotes, so that texts identify the
location as above. -/
theorem C58_names {U : Uni} {limit : Option Nat} {doc : V} (hs : Sound U limit doc) {steps s}
    (h : TStandsAt doc tagPlaces steps s ∨ TStandsAt doc docPlaces steps s) : NoQuote steps := by
  have hp : (tagPlaces ++ docPlaces).all (rooted false) = true := by decide +kernel
  have : steps.map LocStep.shape ∈ tagPlaces ++ docPlaces ∧ ∃ w, TAt doc steps w := by
    rcases h with ⟨h, w, hw, _⟩ | ⟨h, w, hw, _⟩
    · exact ⟨List.mem_append_left _ h, w, hw⟩
    · exact ⟨List.mem_append_right _ h, w, hw⟩
  obtain ⟨h, w, hw⟩ := this
  exact noQuote_at hw hs (by simp) (List.all_eq_true.1 hp _ h)

/-- **C58.** A document that TagsRefValidator rejects: the text tells of a Reference in it that does not pass the check,
and can be told of no other location, up to the position in the list of tags and the letter case of entry names. -/
theorem C58_document_tags {U : Uni} {limit : Option Nat} {doc : V} (h : Depicts D doc)
    (hv : Valid U limit doc (.model .AsyncAPI3)) (hs : Sound U limit doc) (hc : Clean doc (.model .AsyncAPI3)) {e}
    (he : (validateTags D).res = .error e) :
    ∃ steps s w, TStandsAt doc tagPlaces steps s ∧ ¬ TChecked doc p!"tags" tagPrefix s ∧ WrongWith tagPrefix s w ∧
      tagError e = some (tagText steps w) ∧
      ∀ steps' s' w', TStandsAt doc tagPlaces steps' s' → tagError e = some (tagText steps' w') →
        steps'.map (LocStep.uncounted ∘ LocStep.lower) = steps.map (LocStep.uncounted ∘ LocStep.lower) ∧ w' = w := by
  obtain ⟨steps, s, w, h1, h2, h3, h4⟩ := C58_tags_error ((C47_assumptions h hv hs).2.2.2 hc) he
  rw [standsAt_iff h hs] at h1
  rw [checked_iff h hs] at h2
  refine ⟨steps, s, w, h1, h2, h3, h4, fun steps' s' w' h' e' => ?_⟩
  rw [h4, Option.some.injEq] at e'
  exact (C58_tags_identify h'.1 h1.1 (C58_names hs (.inl h')) (C58_names hs (.inl h1)) w' w).1 e'.symm

/-- **C58.** The same for ExternalDocsRefValidator, up to the letter case of entry names. -/
theorem C58_document_docs {U : Uni} {limit : Option Nat} {doc : V} (h : Depicts D doc)
    (hv : Valid U limit doc (.model .AsyncAPI3)) (hs : Sound U limit doc) (hc : Clean doc (.model .AsyncAPI3)) {e}
    (he : (validateDocs D).res = .error e) :
    ∃ steps s w, TStandsAt doc docPlaces steps s ∧ ¬ TChecked doc p!"external_docs" docPrefix s ∧
      WrongWith docPrefix s w ∧ docError e = some (docText steps w) ∧
      ∀ steps' s' w', TStandsAt doc docPlaces steps' s' → docError e = some (docText steps' w') →
        steps'.map LocStep.lower = steps.map LocStep.lower ∧ w' = w := by
  obtain ⟨steps, s, w, h1, h2, h3, h4⟩ := C58_docs_error ((C47_assumptions h hv hs).2.2.2 hc) he
  rw [standsAt_iff h hs] at h1
  rw [checked_iff h hs] at h2
  refine ⟨steps, s, w, h1, h2, h3, h4, fun steps' s' w' h' e' => ?_⟩
  rw [h4, Option.some.injEq] at e'
  exact (C58_docs_identify h'.1 h1.1 (C58_names hs (.inr h')) (C58_names hs (.inr h1)) w' w).1 e'.symm

/-! ### Examples -/

/-- Texts, as Python prints them. -/
example : tagText [.field p!"channels", .field p!"root", .key p!"orders", .field p!"messages", .field p!"root",
    .key p!"made", .field p!"tags", .index 3] (.missing p!"a") =
    p!"Message 'made' in channel 'orders' references tag 'a' but tag does not exist in components/tags." := by
  decide +kernel
example : docText [.field p!"operations", .field p!"root", .key p!"send", .field p!"traits", .index 1, .field p!"tags",
    .index 12, .field p!"external_docs"] (.elsewhere p!"#/x") =
    p!"Tag 12 in tags in trait 1 in operation 'send' external documentation reference '#/x' must point to #/components/externalDocs/ but points elsewhere." := by
  decide +kernel

/-- A rejected document and what is said of it. -/
example : ∃ e, (validateTags (refDoc p!"#/components/tags/nope" p!"#/components/externalDocs/d" p!"#/x")).res = .error e ∧
    tagError e = some p!"Info references tag 'nope' but tag does not exist in components/tags." :=
  ⟨_, rfl, by decide +kernel⟩
example : ∃ e, (validateDocs (refDoc p!"#/components/tags/foo" p!"#/channels/d" p!"#/x")).res = .error e ∧
    docError e = some p!"Info external documentation reference '#/channels/d' must point to #/components/externalDocs/ but points elsewhere." :=
  ⟨_, rfl, by decide +kernel⟩

/-- A document with the two channels `Orders` and `orders`; the tag reference of one of them is wrong. -/
def caseInput (upper low : Str) : List (Str × V) := [
  (p!"asyncapi", .str p!"3.0.0"),
  (p!"info", .dict [(p!"title", .str p!"t"), (p!"version", .str p!"1")]),
  (p!"channels", .dict [
    (p!"Orders", .dict [(p!"tags", .list [.dict [(p!"$ref", .str upper)]])]),
    (p!"orders", .dict [(p!"tags", .list [.dict [(p!"$ref", .str low)]])])]),
  (p!"components", .dict [(p!"tags", .dict [(p!"a", .dict [(p!"name", .str p!"a")])])])]

/-- What is said when TagsRefValidator is called on the document built from `d`. -/
def saidOf (d : List (Str × V)) : Option Str :=
  match Pyd.validate plainEnv .AsyncAPI3 (.dict d) with
  | some doc => match (validateTags (graphOf doc)).res with
    | .ok () => none
    | .error e => tagError e
  | none => none

/-- **C58, the exception**: two documents, wrong at two different channels, and the text is the same. -/
theorem C58_case_lost :
    saidOf (caseInput p!"#/components/tags/b" p!"#/components/tags/a") =
      some p!"Channel 'orders' references tag 'b' but tag does not exist in components/tags." ∧
    saidOf (caseInput p!"#/components/tags/a" p!"#/components/tags/b") =
      some p!"Channel 'orders' references tag 'b' but tag does not exist in components/tags." ∧
    saidOf (caseInput p!"#/components/tags/a" p!"#/components/tags/a") = none := by
  decide +kernel

end Verif.Props
