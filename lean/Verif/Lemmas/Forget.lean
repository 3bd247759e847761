import Verif.Lemmas.Stable
import Verif.Spec.RoundTrip
import Verif.Props.Dump
/-! Nothing looks at the record of given fields. -/
namespace Verif.Pyd
open Verif Verif.Gen Verif.Spec Verif.Props

theorem forgetDict_map (d : List (Str × V)) : forgetDict d = d.map fun e => (e.1, forget e.2) := by
  induction d with
  | nil => rfl
  | cons e d ih => obtain ⟨k, v⟩ := e; simp only [forgetDict, List.map_cons, ih]

theorem forgetList_map (l : List V) : forgetList l = l.map forget := by
  induction l with
  | nil => rfl
  | cons v l ih => simp only [forgetList, List.map_cons, ih]

theorem forgetDict_keys (d : List (Str × V)) : (forgetDict d).map (·.1) = d.map (·.1) := by
  rw [forgetDict_map]; simp

theorem isNone_forget (v : V) : (forget v).isNone = v.isNone := by cases v <;> rfl

theorem attr_forget (i : V) (n : Str) : (forget i).attr n = forget (i.attr n) := by
  cases i <;> try rfl
  rename_i c fs ex set
  simp only [forget, V.attr]
  rw [forgetDict_map, lookup_map]
  cases lookup n fs <;> rfl

theorem isStr_forget (v : V) (s : Str) : Fields.isStr (forget v) s = Fields.isStr v s := by cases v <;> rfl

theorem forget_eq_none {v : V} : forget v = .none ↔ v = .none := by
  cases v <;> simp [forget]

theorem channel_forget (i : V) : Fields.channelParameters (forget i) = Fields.channelParameters i := by
  unfold Fields.channelParameters
  rw [attr_forget, attr_forget, isNone_forget]
  cases i.attr p!"address" <;> rfl

theorem modelCheck_forget (c : Cls) (i : V) : modelCheck c (forget i) = modelCheck c i := by
  unfold modelCheck
  cases c
  case Channel => exact channel_forget i
  all_goals first
    | rfl
    | simp only [Fields.headersOrPayload, Fields.oauthFlows, Fields.implicitFlow, Fields.passwordFlow,
        Fields.clientCredentialsFlow, Fields.authorizationCodeFlow, Fields.securityScheme, Fields.apiKey, Fields.httpApiKey,
        Fields.http, Fields.bearerFormat, Fields.oauth2, Fields.openIdConnect, Fields.scopes, Fields.amqpChannel,
        Fields.solaceDestination, Fields.ibmmqChannel, Fields.ibmmqMessage, Fields.kafkaServer,
        attr_forget, isNone_forget, isStr_forget]

theorem fieldCheck_forget (E : Env) (c : Cls) (n : Str) (v : V) : fieldCheck E c n (forget v) = fieldCheck E c n v := by
  cases v <;> first | rfl | (cases c <;> rfl)

theorem lengthOk_forget (m : Option Nat) (v : V) : lengthOk m (forget v) = lengthOk m v := by
  cases m <;> cases v <;> rfl

theorem extras_forget (i : V) : (forget i).extras.map (·.1) = i.extras.map (·.1) := by
  cases i <;> try rfl
  exact forgetDict_keys _

theorem baseCheck_forget (E : Env) (c : Cls) (i : V) : baseCheck E c (forget i) = baseCheck E c i := by
  unfold baseCheck
  rw [extras_forget, attr_forget]
  cases (classDef c).kind <;> try rfl
  cases i.attr p!"root" <;> try rfl
  simp only [forget, forgetDict_keys]

/-- The checks of an instance depend on what `forget` keeps. -/
theorem checks_forget (E : Env) (c : Cls) {i j : V} (h : forget i = forget j) :
    (baseCheck E c i && modelCheck c i) = (baseCheck E c j && modelCheck c j) := by
  rw [← baseCheck_forget E c i, ← modelCheck_forget c i, h, baseCheck_forget, modelCheck_forget]

theorem dumpFields_forget (c : Cls) (fs : List (Str × V)) (h : ∀ e ∈ fs, dump (forget e.2) = dump e.2) :
    dumpFields c (forgetDict fs) = dumpFields c fs := by
  induction fs with
  | nil => rfl
  | cons e fs ih =>
    obtain ⟨k, v⟩ := e
    simp only [forgetDict, dumpFields]
    rw [ih fun e he => h e (List.mem_cons_of_mem _ he), isNone_forget, h (k, v) List.mem_cons_self]

theorem dump_forget : ∀ v, dump (forget v) = dump v := by
  have hd : ∀ d : List (Str × V), (∀ e ∈ d, dump (forget e.2) = dump e.2) → dumpDict (forgetDict d) = dumpDict d := by
    intro d h
    rw [forgetDict_map, dumpDict_map, dumpDict_map, List.map_map]
    exact List.map_congr_left fun e he => Prod.ext rfl (h e he)
  apply V.ind
  · intro l h
    simp only [forget, dump, V.list.injEq]
    rw [forgetList_map, dumpList_map, dumpList_map, List.map_map]
    exact List.map_congr_left h
  · intro d h
    simp only [forget, dump, V.dict.injEq]
    exact hd d h
  · intro c fs ex set h1 h2
    simp only [forget, dump]
    rw [dumpFields_forget c fs h1, hd ex h2, hd fs h1]
  all_goals intros; rfl

/-- What is equal up to the record of given fields is written in the same way. -/
theorem dump_congr {a b : V} (h : forget a = forget b) : dump a = dump b := by
  rw [← dump_forget a, h, dump_forget]

theorem isJsonList_iff (l : List V) : isJsonList l = true ↔ ∀ v ∈ l, v.isJson = true := by
  induction l with
  | nil => simp [isJsonList]
  | cons v l ih => simp [isJsonList, ih]
theorem isJsonDict_iff (d : List (Str × V)) : isJsonDict d = true ↔ ∀ e ∈ d, e.2.isJson = true := by
  induction d with
  | nil => simp [isJsonDict]
  | cons e d ih => obtain ⟨k, v⟩ := e; simp [isJsonDict, ih]

/-- JSON is written as it is. -/
theorem dump_json : ∀ v : V, v.isJson = true → dump v = v := by
  apply V.ind
  · intro l h hj
    rw [V.isJson, isJsonList_iff] at hj
    simp only [dump, dumpList_map, V.list.injEq]
    conv => rhs; rw [← List.map_id l]
    exact List.map_congr_left fun v hv => h v hv (hj v hv)
  · intro d h hj
    rw [V.isJson, isJsonDict_iff] at hj
    simp only [dump, dumpDict_map, V.dict.injEq]
    conv => rhs; rw [← List.map_id d]
    exact List.map_congr_left fun e he => Prod.ext rfl (h e he (hj e he))
  · intro c fs ex set _ _ hj; cases hj
  all_goals intros; first | rfl | (rename_i h; cases h)

theorem validJson_valid {U : Uni} {limit : Option Nat} {norm : UrlKind → Str → Prop} {v : V} {t : Ty Cls}
    (h : ValidJson U limit norm v t) : Valid U limit v t := by
  induction h with
  | any => exact .any
  | none => exact .none
  | str => exact .str
  | int => exact .int
  | bool => exact .bool
  | anyUrl => exact .anyUrl
  | httpUrl => exact .httpUrl
  | email h => exact .email h
  | litStr h => exact .litStr h
  | litInt h => exact .litInt h
  | list _ ih => exact .list ih
  | dict _ ih => exact .dict ih
  | union ht _ ih => exact .union ht ih
  | model h1 _ _ h3 _ ih => exact .model h1 ih h3

end Verif.Pyd
