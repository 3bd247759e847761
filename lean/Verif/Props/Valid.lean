import Verif.Lemmas.Valid
/-!
# C42: what validation returns is valid at every depth

Whatever the input (plain data, instances, mixtures of both, instances spoiled by mutation), the
result of a successful validation satisfies every constraint of every class, at every depth.
-/
namespace Verif.Props
open Verif Verif.Gen Verif.Spec Verif.Pyd

/-- **C42**, for every class but the document: no assumption. -/
theorem C42_valid (E : Env) (c : Cls) (hc : c ≠ .AsyncAPI3) (x v : V) (h : validate E c x = some v) :
    Valid E.U E.digits v (.model c) := by
  unfold validate at h
  rw [Option.map_eq_some_iff] at h
  obtain ⟨⟨v', sc⟩, h, rfl⟩ := h
  refine parse_valid x _ _ _ (.inr ?_) h
  show (c != .AsyncAPI3) = true
  simpa using hc

/-- **C42**, for the document: valid, if its processors leave valid documents valid. -/
theorem C42_document (E : Env) (hp : Preserves E) (x v : V) (h : validate E .AsyncAPI3 x = some v) :
    Valid E.U E.digits v (.model .AsyncAPI3) := by
  unfold validate at h
  rw [Option.map_eq_some_iff] at h
  obtain ⟨⟨v', sc⟩, h, rfl⟩ := h
  exact parse_valid x _ _ _ (.inl hp) h

theorem document_before {E : Env} {d : List (Str × V)} {set? : Option (List Str)} {floor : Nat} {j : V} {sc : Score}
    (h : construct E .AsyncAPI3 (entries E d) set? floor = some (j, sc)) :
    ∃ i, Valid E.U E.digits i (.model .AsyncAPI3) ∧ ListsOk i ∧ (runProcessors E i).2 = some j := by
  rw [construct_eq] at h
  split at h
  · rename_i hok
    rw [Option.map_eq_some_iff] at h
    obtain ⟨i', h, he⟩ := h
    cases he
    have hb := after_checks h
    have hv := instance_valid (by decide) (fun e _ => parse_valid e.2) _ hok hb
    refine ⟨_, hv, ?_, ?_⟩
    · have hl := document_lists ((allOk_given _).1 ⟨hok, rfl⟩).1
      exact hl
    · unfold after at h
      rw [hb] at h
      exact h
  · cases h

/-- **C42**, for the document with arbitrary processors: what they are first given is valid. -/
theorem C42_before_processors (E : Env) (ht : Tame E.call) (x j : V) (h : validate E .AsyncAPI3 x = some j) :
    ∃ i log, Valid E.U E.digits i (.model .AsyncAPI3) ∧ Processed E.call i log (some j) := by
  unfold validate at h
  rw [Option.map_eq_some_iff] at h
  obtain ⟨⟨v', sc⟩, h, rfl⟩ := h
  rw [parse_eq_shape] at h
  simp only [parseAs] at h
  have key : ∀ d set? floor, construct E .AsyncAPI3 (entries E d) set? floor = some (v', sc) →
      ∃ i log, Valid E.U E.digits i (.model .AsyncAPI3) ∧ Processed E.call i log (some v') := by
    intro d set? floor h
    obtain ⟨i, h1, h2, h3⟩ := document_before h
    exact ⟨i, _, h1, (C32_exact E ht i h2 _ _).1 (Prod.ext rfl h3)⟩
  cases x <;> simp only [shapeOf, parseModel, reduceCtorEq] at h
  · exact key _ _ _ h
  · split at h
    · rw [update_entries] at h; exact key _ _ _ h
    · cases h

/-! ### Concrete cases -/

/-- Validators that only look satisfy the assumption of `C42_document`. -/
theorem preserves_of_readonly (E : Env) (h : ∀ n doc doc', E.call n doc = some doc' → doc' = doc) : Preserves E :=
  fun n doc doc' hd he => by rw [h n doc doc' he]; exact hd

example : Preserves plainEnv := preserves_of_readonly _ fun _ _ _ h => (Option.some.inj h).symm

set_option maxRecDepth 10000

/-- An instance spoiled by nested mutation (an OAuth flow without its URL) is refused when it is
used again, since instances are always revalidated. -/
example : (validate plainEnv .SecurityScheme (.dict [(p!"type", .str p!"oauth2"), (p!"flows",
    .inst .OAuthFlows [(p!"implicit", .inst .OAuthFlow [(p!"authorization_url", .none), (p!"token_url", .none),
      (p!"refresh_url", .none), (p!"available_scopes", .dict [])] [] []), (p!"password", .none),
      (p!"client_credentials", .none), (p!"authorization_code", .none)] [] [])])).isSome = false := by decide +kernel
/-- The same with its URL is accepted. -/
example : (validate plainEnv .SecurityScheme (.dict [(p!"type", .str p!"oauth2"), (p!"flows",
    .inst .OAuthFlows [(p!"implicit", .inst .OAuthFlow [(p!"authorization_url", .url .any p!"https://x"),
      (p!"token_url", .none), (p!"refresh_url", .none), (p!"available_scopes", .dict [])] [] []), (p!"password", .none),
      (p!"client_credentials", .none), (p!"authorization_code", .none)] [] [])])).isSome = true := by decide +kernel
/-- A document. -/
example : (validate plainEnv .AsyncAPI3 (.dict [(p!"asyncapi", .str p!"3.0.0"),
    (p!"info", .dict [(p!"title", .str p!"t"), (p!"version", .str p!"1")]),
    (p!"channels", .dict [(p!"c", .dict [(p!"address", .str p!"a")])])])).isSome = true := by decide +kernel

end Verif.Props
