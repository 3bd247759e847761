import Verif.Props.Resolve
/-!
# C07, C08: the `Reference.to_*` factories
-/
namespace Verif.Props
open Verif Verif.Spec Verif.Resolve Verif.Gen
variable {n : Nat}

/-- The spelled path of a factory reference: JSON names of the attributes. -/
def homeSegs (f : Factory) : List Str := Str.pieces '/' (f.pre.drop 1)

theorem factory_spells (f : Factory) {k : Str} (hk : k ≠ []) (hs : '/' ∉ k) :
    Spells (f.ref k) (homeSegs f ++ [k]) := by
  have key : ∀ f : Factory, f.pre = '#' :: Str.join '/' ([] :: homeSegs f) ++ ['/'] ∧
      (∀ p ∈ homeSegs f, '/' ∉ p ∧ p ≠ []) ∧ homeSegs f ≠ [] := by
    intro f; cases f <;> decide
  obtain ⟨h1, h2, h3⟩ := key f
  refine ⟨([] :: homeSegs f) ++ [k], ?_, ?_, ?_, ?_⟩
  · have snoc : ∀ (l : List Str), l ≠ [] → Str.join '/' (l ++ [k]) = Str.join '/' l ++ '/' :: k := by
      intro l hl
      induction l with
      | nil => exact absurd rfl hl
      | cons x xs ih =>
        cases xs with
        | nil => simp [Str.join]
        | cons y ys =>
          rw [List.cons_append, Str.join_cons _ _ (by simp), ih (by simp),
            Str.join_cons '/' x (rest := y :: ys) (by simp)]
          simp
    rw [Factory.ref, h1, snoc _ (by simp)]
    simp
  · intro p hp
    simp only [List.cons_append, List.mem_cons, List.mem_append, List.not_mem_nil, or_false] at hp
    rcases hp with rfl | hp | rfl
    · simp
    · exact (h2 p hp).1
    · exact hs
  · have : (homeSegs f).filter (fun p => decide (p ≠ [])) = homeSegs f := by
      rw [List.filter_eq_self]; intro p hp; simpa using (h2 p hp).2
    simp only [List.cons_append]
    rw [List.filter_cons_of_neg (by simp), List.filter_append, this]
    simp [hk]
  · simp

theorem homeSegs_cases (f : Factory) :
    (∃ attr, home f = .inl attr ∧ homeSegs f = [attr] ∧
      ⟨attr, none, false⟩ ∈ table.fields .AsyncAPI3) ∨
    (∃ attr al fi, home f = .inr attr ∧ homeSegs f = [p!"components", al] ∧
      fi ∈ table.fields .Components ∧ fi.name = attr ∧ (fi.name = al ∨ fi.alias = some al)) := by
  cases f <;> first
    | exact .inl ⟨_, rfl, by decide, by decide⟩
    | exact .inr ⟨_, p!"schemas", ⟨p!"schemas", none, false⟩, rfl, by decide, by decide, rfl, .inl rfl⟩
    | exact .inr ⟨_, p!"servers", ⟨p!"servers", none, false⟩, rfl, by decide, by decide, rfl, .inl rfl⟩
    | exact .inr ⟨_, p!"channels", ⟨p!"channels", none, false⟩, rfl, by decide, by decide, rfl, .inl rfl⟩
    | exact .inr ⟨_, p!"operations", ⟨p!"operations", none, false⟩, rfl, by decide, by decide, rfl, .inl rfl⟩
    | exact .inr ⟨_, p!"messages", ⟨p!"messages", none, false⟩, rfl, by decide, by decide, rfl, .inl rfl⟩
    | exact .inr ⟨_, p!"parameters", ⟨p!"parameters", none, false⟩, rfl, by decide, by decide, rfl, .inl rfl⟩
    | exact .inr ⟨_, p!"replies", ⟨p!"replies", none, false⟩, rfl, by decide, by decide, rfl, .inl rfl⟩
    | exact .inr ⟨_, p!"tags", ⟨p!"tags", none, false⟩, rfl, by decide, by decide, rfl, .inl rfl⟩
    | exact .inr ⟨_, p!"securitySchemes", ⟨p!"security_schemes", some p!"securitySchemes", false⟩, rfl, by decide, by decide, rfl, .inr rfl⟩
    | exact .inr ⟨_, p!"serverVariables", ⟨p!"server_variables", some p!"serverVariables", false⟩, rfl, by decide, by decide, rfl, .inr rfl⟩
    | exact .inr ⟨_, p!"correlationIds", ⟨p!"correlation_ids", some p!"correlationIds", false⟩, rfl, by decide, by decide, rfl, .inr rfl⟩
    | exact .inr ⟨_, p!"replyAddresses", ⟨p!"reply_addresses", some p!"replyAddresses", false⟩, rfl, by decide, by decide, rfl, .inr rfl⟩
    | exact .inr ⟨_, p!"externalDocs", ⟨p!"external_docs", some p!"externalDocs", false⟩, rfl, by decide, by decide, rfl, .inr rfl⟩
    | exact .inr ⟨_, p!"operationTraits", ⟨p!"operation_traits", some p!"operationTraits", false⟩, rfl, by decide, by decide, rfl, .inr rfl⟩
    | exact .inr ⟨_, p!"messageTraits", ⟨p!"message_traits", some p!"messageTraits", false⟩, rfl, by decide, by decide, rfl, .inr rfl⟩
    | exact .inr ⟨_, p!"serverBindings", ⟨p!"server_bindings", some p!"serverBindings", false⟩, rfl, by decide, by decide, rfl, .inr rfl⟩
    | exact .inr ⟨_, p!"channelBindings", ⟨p!"channel_bindings", some p!"channelBindings", false⟩, rfl, by decide, by decide, rfl, .inr rfl⟩
    | exact .inr ⟨_, p!"operationBindings", ⟨p!"operation_bindings", some p!"operationBindings", false⟩, rfl, by decide, by decide, rfl, .inr rfl⟩
    | exact .inr ⟨_, p!"messageBindings", ⟨p!"message_bindings", some p!"messageBindings", false⟩, rfl, by decide, by decide, rfl, .inr rfl⟩

/-- A factory reference denotes exactly the entry it names. -/
theorem denotes_factory {D : Doc Cls n} (W : WF table D) (S : Shape D) (f : Factory) {k : Str}
    (hk : k ≠ []) (hs : '/' ∉ k) (v : Val n) :
    Denotes table D (f.ref k) v ↔ Entry D f k v := by
  have U := table_unambiguous
  have hsp := factory_spells f hk hs
  -- the last step
  have last : ∀ {u : Val n}, Holds D (home f) u → (Walk table D u [k] v ↔
      ∃ b kvs, u = .ptr b ∧ RootDict D b kvs ∧ (k, v) ∈ kvs) := by
    intro u hu
    constructor
    · intro h
      cases h with
      | cons h1 h2 =>
        cases h2
        rcases S.colls f _ hu with h | ⟨b, kvs, h, hR⟩
        · cases h
        · simp only [Val.ptr.injEq] at h
          subst h
          refine ⟨_, kvs, rfl, hR, ?_⟩
          cases h1 with
          | root h1 h2 => rwa [rootDict_unique W h1 hR] at h2
          | dict h1 h2 => obtain ⟨_, _, _, _, h, _⟩ := hR; rw [h] at h1; cases h1
          | field _ h2 => exact absurd hR (h2 _)
    · rintro ⟨b, kvs, rfl, hR, hm⟩
      exact .cons (.root hR hm) .nil
  -- a field step from a given instance
  have fieldStep : ∀ {a c fs ex p fi u}, D.node a = .model c fs ex → c = .AsyncAPI3 ∨ c = .Components →
      fi ∈ table.fields c → (fi.name = p ∨ fi.alias = some p) →
      (Step table D a p u ↔ (fi.name, u) ∈ fs ∧ u ≠ .none) := by
    intro a c fs ex p fi u hn hc hfi hp
    constructor
    · intro h
      cases h with
      | root h1 _ => exact absurd h1 (S.noRoot a c fs ex hn hc _)
      | dict h1 _ => rw [hn] at h1; cases h1
      | field h1 h2 h3 h4 h5 h6 =>
        rw [hn] at h1; cases h1
        cases U _ _ h3 _ hfi p h4 hp
        exact ⟨h5, h6⟩
    · rintro ⟨h1, h2⟩
      exact .field hn (S.noRoot a c fs ex hn hc) hfi hp h1 h2
  obtain ⟨fs, ex, hspec⟩ := S.spec
  have hden : Denotes table D (f.ref k) v ↔ Walk table D (.ptr D.spec) (homeSegs f ++ [k]) v := by
    constructor
    · rintro ⟨_, segs, h1, h2⟩; cases spells_unique hsp h1; exact h2
    · intro h; exact ⟨spells_not_external hsp, _, hsp, h⟩
  rw [hden]
  rcases homeSegs_cases f with ⟨attr, hh, hseg, hf⟩ | ⟨attr, al, fi, hh, hseg, hfi, hname, hal⟩
  · rw [hseg]
    constructor
    · intro h
      cases h with
      | cons h1 h2 =>
        rw [fieldStep hspec (.inl rfl) hf (.inl rfl)] at h1
        have hH : Holds D (home f) _ := hh ▸ Holds.root hspec h1.1
        obtain ⟨b, kvs, rfl, h3, h4⟩ := (last hH).1 h2
        exact ⟨b, kvs, hH, h3, h4⟩
    · rintro ⟨b, kvs, hH, hR, hm⟩
      have h2 := (last hH).2 ⟨b, kvs, rfl, hR, hm⟩
      rw [hh] at hH
      cases hH with
      | root h1 h3 =>
        exact .cons ((fieldStep h1 (.inl rfl) hf (.inl rfl)).2 ⟨h3, by simp⟩) h2
  · rw [hseg]
    have hcf : (⟨p!"components", none, false⟩ : FieldInfo) ∈ table.fields .AsyncAPI3 := by decide
    constructor
    · intro h
      cases h with
      | cons h1 h2 =>
        rw [fieldStep hspec (.inl rfl) hcf (.inl rfl)] at h1
        rcases S.comps fs ex _ hspec h1.1 with h | ⟨c, fs', ex', rfl, hc⟩
        · exact absurd h h1.2
        · cases h2 with
          | cons h3 h4 =>
            rw [fieldStep hc (.inr rfl) hfi hal, hname] at h3
            have hH : Holds D (home f) _ := hh ▸ Holds.comp hspec h1.1 hc h3.1
            obtain ⟨b, kvs, rfl, h5, h6⟩ := (last hH).1 h4
            exact ⟨b, kvs, hH, h5, h6⟩
    · rintro ⟨b, kvs, hH, hR, hm⟩
      have h2 := (last hH).2 ⟨b, kvs, rfl, hR, hm⟩
      rw [hh] at hH
      cases hH with
      | comp h1 h3 h4 h5 =>
        exact .cons ((fieldStep h1 (.inl rfl) hcf (.inl rfl)).2 ⟨h3, by simp⟩)
          (.cons ((fieldStep h4 (.inr rfl) hfi hal).2 ⟨hname ▸ h5, by simp⟩) h2)

/-- **C07.** If the document has the entry and it is not a Reference, a factory
reference resolves to that very entry, with its type. -/
theorem C07_factory_entry {D : Doc Cls n} (W : WF table D) (S : Shape D) (f : Factory) {k : Str}
    (hk : k ≠ []) (hs : '/' ∉ k) {v : Val n} (he : Entry D f k v)
    (hv : ∀ s, ¬ IsReference table D v s) :
    ∃ path, resolve table D (f.ref k) = some (.ok (some ⟨v, D.typeOf v, path⟩)) := by
  have hd := (denotes_factory W S f hk hs v).2 he
  obtain ⟨ty, path, h⟩ := (C02_result_is_end_of_chain W table_unambiguous (f.ref k) v).2
    ⟨_, .refl, hd, hv⟩
  have := (C02_type_and_null W table_unambiguous _ _ _ _ h).1
  subst this
  exact ⟨path, h⟩

/-- What leads to a Reference resolves exactly as its string does. -/
theorem same_of_hop {D : Doc Cls n} (W : WF table D) {r s : Str} (hop : Hop table D r s) : SameOutcome table D r s := by
  have U := table_unambiguous
  have hu : ∀ a b c, Hop table D a b → Hop table D a c → b = c := fun a b c => hop_unique W U
  have hops : ∀ (P : Str → Prop), (P r → False) →
      ((∃ t, Hops table D r t ∧ P t) ↔ (∃ t, Hops table D s t ∧ P t)) := by
    intro P hP
    constructor
    · rintro ⟨t, ht, hp⟩
      rcases Relation.ReflTransGen.cases_head ht with rfl | ⟨u, hu', hut⟩
      · exact (hP hp).elim
      · cases hu _ _ _ hop hu'; exact ⟨t, hut, hp⟩
    · rintro ⟨t, ht, hp⟩; exact ⟨t, ht.head hop, hp⟩
  refine ⟨fun u => ?_, ?_, ?_, ?_⟩
  · rw [C02_result_is_end_of_chain W U, C02_result_is_end_of_chain W U]
    exact hops _ (fun hl => hop_not_lands W U hop hl)
  · rw [(C03_other_outcomes W U _).1, (C03_other_outcomes W U _).1]
    exact hops _ (fun hx => hop_not_external hop hx)
  · rw [C03_circular_iff W U, C03_circular_iff W U]
    constructor
    · rintro ⟨t, ht, hc⟩
      rcases Relation.ReflTransGen.cases_head ht with rfl | ⟨u, hu', hut⟩
      · exact ⟨s, .refl, cycle_stays hu hc (.single hop)⟩
      · cases hu _ _ _ hop hu'; exact ⟨t, hut, hc⟩
    · rintro ⟨t, ht, hc⟩; exact ⟨t, ht.head hop, hc⟩
  · rw [(C03_other_outcomes W U _).2, (C03_other_outcomes W U _).2]
    exact hops _ (fun hx => by obtain ⟨v, hd, -⟩ := hop; exact hx.2 v hd)

/-- **C07.** If the entry is itself a Reference with string `s`, the factory
reference resolves exactly as `s` does. -/
theorem C07_factory_chain {D : Doc Cls n} (W : WF table D) (S : Shape D) (f : Factory) {k : Str}
    (hk : k ≠ []) (hs : '/' ∉ k) {v : Val n} (he : Entry D f k v) {s : Str}
    (hv : IsReference table D v s) : SameOutcome table D (f.ref k) s :=
  same_of_hop W ⟨v, (denotes_factory W S f hk hs v).2 he, hv⟩

/-- **C07.** If the collection is null or has no such key, resolution raises a
(non-circular) `ValueError`. -/
theorem C07_factory_missing {D : Doc Cls n} (W : WF table D) (S : Shape D) (f : Factory) {k : Str}
    (hk : k ≠ []) (hs : '/' ∉ k) (he : ∀ v, ¬ Entry D f k v) :
    ∃ m, resolve table D (f.ref k) = some (.error (.valueError m)) ∧ ∀ r, m ≠ .circular r := by
  refine ((C03_other_outcomes W table_unambiguous _).2).2 ⟨_, .refl, ?_, ?_⟩
  · exact spells_not_external (factory_spells f hk hs)
  · intro v hv; exact he v ((denotes_factory W S f hk hs v).1 hv)

/-- A `Reference` instance compares and hashes by its single field `ref`
(pydantic `BaseModel.__eq__`; `Reference.__hash__`, base.py:34-40). -/
structure RefObj where
  ref : Str
  deriving DecidableEq

/-- `Reference.__hash__` (base.py:34-40), relative to Python's `str.__hash__`. -/
def RefObj.hash (strHash : Str → Int) (r : RefObj) : Int := strHash r.ref

/-- **C08.** Factory-made references are equal exactly when made by the same
factory from the same name (names without `/`, in particular all names accepted
by the key pattern), and equal references have equal hashes. -/
theorem C08_factory_injective (f g : Factory) (k l : Str) (hk : '/' ∉ k) (hl : '/' ∉ l) :
    (RefObj.mk (f.ref k) = RefObj.mk (g.ref l) ↔ f = g ∧ k = l) ∧
    ∀ strHash : Str → Int, ∀ r s : RefObj, r = s → r.hash strHash = s.hash strHash := by
  refine ⟨?_, by rintro h r s rfl; rfl⟩
  constructor
  · intro h
    have h : f.pre ++ k = g.pre ++ l := by simpa [Factory.ref] using h
    have key : ∀ f : Factory, ∃ q, f.pre = q ++ ['/'] := by
      intro f; exact ⟨f.pre.dropLast, by cases f <;> rfl⟩
    have inj : ∀ f g : Factory, f.pre = g.pre → f = g := by
      intro f g; cases f <;> cases g <;> first | (intro _; rfl) | (intro h; exact absurd h (by decide))
    have tail : ∀ (q k : Str), '/' ∉ k →
        ((q ++ ['/'] ++ k).reverse.takeWhile (· ≠ '/')).reverse = k := by
      intro q k hk
      rw [List.reverse_append, List.takeWhile_append_of_pos]
      · simp
      · intro c hc; simp at hc; simp; rintro rfl; exact hk hc
    obtain ⟨q, hq⟩ := key f
    obtain ⟨q', hq'⟩ := key g
    have hkl : k = l := by
      rw [← tail q k hk, ← tail q' l hl, ← hq, ← hq', h]
    subst hkl
    exact ⟨inj f g (List.append_cancel_right h), rfl⟩
  · rintro ⟨rfl, rfl⟩; rfl

end Verif.Props
