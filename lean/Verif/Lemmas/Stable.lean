import Verif.Props.Mutate
import Verif.Spec.Stable
import Verif.Props.Factory
/-! Validating a validated value again. -/
namespace Verif.Pyd
open Verif Verif.Gen Verif.Spec Verif.Props Verif.Mutate

/-! ### Which values a type can take and give, by their outermost constructor -/

inductive Head where
  | none | bool | int | float | str | url | proc | list | dict
  | inst (c : Cls)
  deriving DecidableEq

def headOf : V → Head
  | .none => .none
  | .bool _ => .bool
  | .int _ => .int
  | .float _ => .float
  | .str _ => .str
  | .url _ _ => .url
  | .proc _ => .proc
  | .list _ => .list
  | .dict _ => .dict
  | .inst c _ _ _ => .inst c

/-- What the type may accept; `none`: anything. -/
def takes : Ty Cls → Option (List Head)
  | .any | .union _ => none
  | .none => some [.none]
  | .str | .email => some [.str]
  | .int => some [.int, .bool, .float, .str]
  | .bool => some [.bool, .int, .float, .str]
  | .anyUrl | .httpUrl => some [.str, .url]
  | .processors => some [.proc]
  | .lit _ => some [.str, .int]
  | .list _ => some [.list]
  | .dict _ => some [.dict]
  | .model c => some [.dict, .inst c]

/-- What the type may give. -/
def gives : Ty Cls → Option (List Head)
  | .any | .union _ => none
  | .none => some [.none]
  | .str | .email => some [.str]
  | .int => some [.int]
  | .bool => some [.bool]
  | .anyUrl | .httpUrl => some [.url]
  | .processors => some [.proc]
  | .lit _ => some [.str, .int]
  | .list _ => some [.list]
  | .dict _ => some [.dict]
  | .model c => some [.inst c]

theorem takes_of_parse {E : Env} {x v : V} {t : Ty Cls} {sc : Score} (h : parse E x t = some (v, sc)) {l : List Head}
    (hl : takes t = some l) : headOf x ∈ l := by
  rw [parse_eq_shape] at h
  cases t <;> simp only [takes, Option.some.injEq, reduceCtorEq] at hl <;> subst hl <;> cases x <;>
    first
      | (simp [headOf]; done)
      | (simp only [parseAs, parseStr, parseInt, parseBool, parseUrl, parseEmail, parseLit, parseProc, parseDict,
          parseModel, shapeOf, V.isNone, reduceCtorEq, Bool.false_eq_true, if_false] at h; done)
      | skip
  all_goals
    simp only [parseAs, parseModel, shapeOf] at h
    split at h
    · rename_i hc; subst hc; simp [headOf]
    · cases h

theorem gives_of_valid {U : Uni} {limit : Option Nat} {v : V} {t : Ty Cls} (h : Valid U limit v t) {l : List Head}
    (hl : gives t = some l) : headOf v ∈ l := by
  cases h <;> simp only [gives, Option.some.injEq, reduceCtorEq] at hl <;> subst hl <;> simp [headOf]

/-- What `t` gives, `u` does not take. -/
def apartTy (t u : Ty Cls) : Bool :=
  match gives t, takes u with
  | some g, some k => g.all fun h => !(k.contains h)
  | _, _ => false

/-- No member takes what another member gives. -/
def unionOk : List (Ty Cls) → Bool
  | [] => true
  | t :: ts => ts.all (fun u => apartTy t u && apartTy u t) && unionOk ts

/-- The two unions with members that overlap. -/
def special : List (Ty Cls) → Bool
  | [.any, .none] => true
  | [.model .Schema, .model .Reference, .dict .any, .none] => true
  | _ => false

/-- `Any | None`. -/
def isAnyNone : List (Ty Cls) → Bool
  | [.any, .none] => true
  | _ => false

theorem unionOk_mem {ts : List (Ty Cls)} (h : unionOk ts = true) {t u : Ty Cls} (ht : t ∈ ts) (hu : u ∈ ts) :
    t = u ∨ apartTy t u = true := by
  induction ts with
  | nil => cases ht
  | cons a ts ih =>
    rw [unionOk, Bool.and_eq_true, List.all_eq_true] at h
    rcases List.mem_cons.1 ht with rfl | ht'
    · rcases List.mem_cons.1 hu with rfl | hu'
      · exact .inl rfl
      · have := h.1 u hu'
        rw [Bool.and_eq_true] at this; exact .inr this.1
    · rcases List.mem_cons.1 hu with rfl | hu'
      · have := h.1 t ht'
        rw [Bool.and_eq_true] at this; exact .inr this.2
      · exact ih h.2 ht' hu'

mutual
/-- All unions in the type are unambiguous. -/
def stableTy : Ty Cls → Bool
  | .list t => stableTy t
  | .dict t => stableTy t
  | .union ts => (unionOk ts || isAnyNone ts) && stableAll ts
  | _ => true
def stableAll : List (Ty Cls) → Bool
  | [] => true
  | t :: ts => stableTy t && stableAll ts
end

theorem stableAll_mem {ts : List (Ty Cls)} (h : stableAll ts = true) {t : Ty Cls} (ht : t ∈ ts) : stableTy t = true := by
  induction ts with
  | nil => cases ht
  | cons a ts ih =>
    rw [stableAll, Bool.and_eq_true] at h
    rcases List.mem_cons.1 ht with rfl | ht
    · exact h.1
    · exact ih h.2 ht

theorem fields_stable : Cls.all.all (fun c => (classDef c).fields.all fun f =>
    stableTy f.ty || (c == .KafkaMessageBindings && f.name == p!"key")) = true := by
  decide +kernel

theorem key_ty {f : FieldDef Cls} (hf : f ∈ (classDef .KafkaMessageBindings).fields) (hn : f.name = p!"key") : f.ty = keyTy := by
  change f ∈ defKafkaMessageBindings.fields at hf
  simp only [defKafkaMessageBindings, List.mem_cons, List.not_mem_nil, or_false] at hf
  rcases hf with rfl | rfl | rfl | rfl | rfl
  · rfl
  all_goals cases hn

/-- All unions in the types of fields are unambiguous, except for the key of a Kafka message. -/
theorem field_stable {c : Cls} {f : FieldDef Cls} (hf : f ∈ (classDef c).fields) :
    stableTy f.ty = true ∨ (c = .KafkaMessageBindings ∧ f.name = p!"key" ∧ f.ty = keyTy) := by
  have := List.all_eq_true.1 (List.all_eq_true.1 fields_stable c (Cls.mem_all c)) f hf
  simp only [Bool.or_eq_true, Bool.and_eq_true, beq_iff_eq] at this
  rcases this with h | ⟨rfl, hn⟩
  · exact .inl h
  · exact .inr ⟨rfl, hn, key_ty hf hn⟩

/-- If all candidates that exist are the same, that is what is picked. -/
theorem pick_same {E : Env} {rs : List Res} {r : V × Score} {cur : Res} (hc : cur = none ∨ cur = some r)
    (h : ∀ o ∈ rs, o = none ∨ o = some r) (hr : cur = some r ∨ some r ∈ rs) : pick E cur rs = some r := by
  induction rs generalizing cur with
  | nil => rcases hr with hr | hr
           · exact hr
           · cases hr
  | cons o rs ih =>
    have h' := fun o ho => h o (List.mem_cons_of_mem _ ho)
    rcases h o List.mem_cons_self with rfl | rfl
    · refine ih hc h' ?_
      rcases hr with hr | hr
      · exact .inl hr
      · rcases List.mem_cons.1 hr with hr | hr
        · cases hr
        · exact .inr hr
    · rcases hc with rfl | rfl
      · exact ih (.inr rfl) h' (.inl rfl)
      · simp only [pick, ite_self]
        exact ih (.inr rfl) h' (.inl rfl)

/-! ### Validating valid values -/

/-- Validation accepts `v` for the type, and leaves it as it is. -/
def Kept (E : Env) (v : V) (t : Ty Cls) : Prop := ∃ sc, parse E v t = some (v, sc)

theorem kept_items {E : Env} {t : Ty Cls} {l : List V} (h : ∀ v ∈ l, Kept E v t) :
    ∃ sc, parseItems t (parsers E l) = some (l, sc) := by
  induction l with
  | nil => exact ⟨_, rfl⟩
  | cons v l ih =>
    obtain ⟨sc, hv⟩ := h v List.mem_cons_self
    obtain ⟨sc', hl⟩ := ih fun v hv => h v (List.mem_cons_of_mem _ hv)
    exact ⟨sc.and sc', by simp only [parsers, parseItems, hv, hl]⟩

theorem kept_entries {E : Env} {t : Ty Cls} {d : List (Str × V)} (h : ∀ e ∈ d, Kept E e.2 t) :
    ∃ sc, parseEntries t (entries E d) = some (d, sc) := by
  induction d with
  | nil => exact ⟨_, rfl⟩
  | cons e d ih =>
    obtain ⟨k, v⟩ := e
    obtain ⟨sc, hv⟩ := h (k, v) List.mem_cons_self
    obtain ⟨sc', hl⟩ := ih fun v hv => h v (List.mem_cons_of_mem _ hv)
    exact ⟨sc.and sc', by simp only [entries, parseEntries, hv, hl]⟩

theorem kept_dict {E : Env} {t : Ty Cls} {d : List (Str × V)} (h : ∀ e ∈ d, Kept E e.2 t) :
    Kept E (.dict d) (.dict t) := by
  obtain ⟨sc, h⟩ := kept_entries h
  refine ⟨sc, ?_⟩
  rw [parse_eq_shape]
  simp only [parseAs, shapeOf, parseDict, h, Option.map_some]

/-- Where the values of fields are found again. -/
theorem findKey_own {c : Cls} {fs ex : List (Str × V)} {set : List Str}
    (hfs : fs.map (·.1) = (classDef c).fields.map (·.name))
    (hsep : ∀ e ∈ ex, ∀ f ∈ (classDef c).fields, e.1 ≠ f.name ∧ f.alias ≠ some e.1) {f : FieldDef Cls}
    (hf : f ∈ (classDef c).fields) :
    findKey f (fs ++ ex) = some (f.name, (V.inst c fs ex set).attr f.name) := by
  have happ : ∀ k, lookup k (fs ++ ex) = (lookup k fs).orElse fun _ => lookup k ex := by
    intro k
    clear hfs
    induction fs with
    | nil => rfl
    | cons x fs ih =>
      obtain ⟨k', v⟩ := x
      simp only [List.cons_append, lookup]
      split
      · rfl
      · exact ih
  have hname : lookup f.name (fs ++ ex) = some ((V.inst c fs ex set).attr f.name) := by
    rw [happ, lookup_of_names hfs hf (ex := ex) (set := set)]; rfl
  unfold findKey
  cases ha : f.alias with
  | none => simp only; rw [hname]; rfl
  | some a =>
    simp only
    by_cases han : a = f.name
    · subst han; rw [hname]
    · have hn : lookup a (fs ++ ex) = none := by
        cases hl : lookup a (fs ++ ex) with
        | none => rfl
        | some w =>
          exfalso
          rcases List.mem_append.1 (lookup_some_mem hl) with hm | hm
          · have : a ∈ fs.map (·.1) := List.mem_map.2 ⟨_, hm, rfl⟩
            rw [hfs, List.mem_map] at this
            obtain ⟨g, hg, hga⟩ := this
            have := C06_package_unambiguous c ⟨f.name, f.alias, f.exclude⟩
              (List.mem_map.2 ⟨f, hf, rfl⟩) ⟨g.name, g.alias, g.exclude⟩
              (List.mem_map.2 ⟨g, hg, rfl⟩) a (.inr ha) (.inl hga)
            simp only [FieldInfo.mk.injEq] at this
            exact han (by rw [this.1, hga])
          · exact (hsep _ hm f hf).2 ha
      rw [hn]; simp only; rw [hname]; rfl

open Classical in
/-- An instance whose fields are kept is built again as it was, and then meets the `after` validators. -/
theorem construct_own {E : Env} {c : Cls} {fs ex : List (Str × V)} {set : List Str} (hk : (classDef c).kind ≠ .patterned)
    (hfs : fs.map (·.1) = (classDef c).fields.map (·.name))
    (hsep : ∀ e ∈ ex, ∀ f ∈ (classDef c).fields, e.1 ≠ f.name ∧ f.alias ≠ some e.1)
    (hf : ∀ f ∈ (classDef c).fields, Kept E ((V.inst c fs ex set).attr f.name) f.ty ∧
      lengthOk f.maxLen ((V.inst c fs ex set).attr f.name) = true ∧
      fieldCheck E c f.name ((V.inst c fs ex set).attr f.name) = true)
    (hx : (classDef c).kind = .nonExtendable → ex = []) :
    ∃ sc, parse E (.inst c fs ex set) (.model c) = (after E c (.inst c fs ex set)).map fun i => (i, sc) := by
  have hup : update fs ex = fs ++ ex := by
    unfold update
    congr 1
    · conv => rhs; rw [← List.map_id fs]
      apply List.map_congr_left
      intro e he
      have hin : e.1 ∈ fs.map (·.1) := List.mem_map.2 ⟨e, he, rfl⟩
      rw [hfs, List.mem_map] at hin
      obtain ⟨f, hff, hfe⟩ := hin
      have : lookup e.1 ex = none := by
        cases hl : lookup e.1 ex with
        | none => rfl
        | some w => exact absurd hfe.symm (hsep _ (lookup_some_mem hl) f hff).1
      rw [this]; rfl
    · rw [List.filter_eq_self]
      intro e he
      cases hl : lookup e.1 fs with
      | none => rfl
      | some w =>
        have : e.1 ∈ fs.map (·.1) := List.mem_map.2 ⟨_, lookup_some_mem hl, rfl⟩
        rw [hfs, List.mem_map] at this
        obtain ⟨f, hff, hfe⟩ := this
        exact absurd hfe.symm (hsep e he f hff).1
  have hfind : ∀ f ∈ (classDef c).fields, findKey f (fs ++ ex) = some (f.name, (V.inst c fs ex set).attr f.name) :=
    fun f hf => findKey_own hfs hsep hf
  have hone : ∀ f ∈ (classDef c).fields, ∃ sc, one E c (fs ++ ex) f = some ((V.inst c fs ex set).attr f.name, sc) := by
    intro f hff
    obtain ⟨⟨sc, h1⟩, h2, h3⟩ := hf f hff
    exact ⟨_, by unfold one; rw [hfind f hff]; simp only [h1]; rw [if_pos (by rw [h2, h3]; rfl)]⟩
  have hval : ∀ f ∈ (classDef c).fields, valueOf E c (fs ++ ex) f = (V.inst c fs ex set).attr f.name := by
    intro f hff; obtain ⟨sc, h⟩ := hone f hff; unfold valueOf; rw [h]
  have hfields : fieldsOf E c (fs ++ ex) = fs := by
    symm
    refine eq_of_names (fun f : FieldDef Cls => f.name) _ (names_nodup c) hfs fun f hff => ?_
    rw [hval f hff]
    exact lookup_of_names hfs hff
  have hextras : extrasOf c (fs ++ ex) = ex := by
    rw [extrasOf_eq, List.filter_append]
    have h1 : fs.filter (fun e => decide (∀ f ∈ (classDef c).fields, ∀ x, ¬ GivenAs f (fs ++ ex) e.1 x)) = [] := by
      rw [List.filter_eq_nil_iff]
      intro e he hcon
      rw [decide_eq_true_eq] at hcon
      have hin : e.1 ∈ fs.map (·.1) := List.mem_map.2 ⟨e, he, rfl⟩
      rw [hfs, List.mem_map] at hin
      obtain ⟨f, hff, hfe⟩ := hin
      exact hcon f hff _ (hfe ▸ findKey_iff.1 (hfind f hff))
    have h2 : ex.filter (fun e => decide (∀ f ∈ (classDef c).fields, ∀ x, ¬ GivenAs f (fs ++ ex) e.1 x)) = ex := by
      rw [List.filter_eq_self]
      intro e he
      rw [decide_eq_true_eq]
      intro f hff x hg
      have := (findKey_iff.2 hg).symm.trans (hfind f hff)
      simp only [Option.some.injEq, Prod.mk.injEq] at this
      exact (hsep e he f hff).1 this.1
    rw [h1, h2]; rfl
  have hall : allOk E c (fs ++ ex) = true := by
    unfold allOk
    rw [Bool.and_eq_true, List.all_eq_true]
    refine ⟨fun f hff => ?_, ?_⟩
    · obtain ⟨sc, h⟩ := hone f hff; rw [h]; rfl
    · rw [hextras]
      by_cases hn : (classDef c).kind = .nonExtendable
      · rw [hx hn]; simp
      · simp [hn]
  have hparse : parse E (.inst c fs ex set) (.model c) = construct E c (entries E (fs ++ ex)) (some set) 2 := by
    rw [parse_eq_shape]
    simp only [parseAs, shapeOf, parseModel]
    rw [← hup, ← update_entries]
    generalize (classDef c).kind = k at hk
    cases k <;> first | exact absurd rfl hk | rfl
  rw [hparse, construct_eq, hall, hfields, hextras]
  exact ⟨_, rfl⟩

theorem after_of_checks {E : Env} {c : Cls} (hc : c ≠ .AsyncAPI3) {i : V}
    (h : (baseCheck E c i && modelCheck c i) = true) : after E c i = some i := by
  have : after E c i = if baseCheck E c i && modelCheck c i then some i else none := by
    cases c <;> first | rfl | exact absurd rfl hc
  rw [this, h]; rfl

theorem version_default {E : Env} (hd : E.digits ≠ some 0) : Patterns.validateVersion E.U E.digits p!"3.0.0" = true := by
  rw [C23_exact]
  have hdig : ∀ c : Char, c.toNat < 128 → ('0'.toNat ≤ c.toNat ∧ c.toNat ≤ '9'.toNat) → E.U.digit c = true := by
    intro c h1 h2; rw [E.U.digit_ascii c h1]; simpa using h2
  have h0 : E.U.digit '0' = true := hdig _ (by decide) (by decide)
  have h3 : E.U.digit '3' = true := hdig _ (by decide) (by decide)
  refine .inl ⟨p!"3", ⟨p!"0", p!"0", [], rfl, ⟨by simp, by simpa using h3⟩, ⟨by simp, by simpa using h0⟩,
    ⟨by simp, by simpa using h0⟩, .inl rfl⟩, ?_, ?_⟩
  · have : E.U.val '3' = 3 := by rw [E.U.val_ascii '3' (by decide) h3]; rfl
    simp [numberValue, this]
  · intro m hm
    cases m with
    | zero => exact absurd hm hd
    | succ m => simp

/-- What `Consistent` says, as the checks of the model. -/
theorem checks_of_consistent {E : Env} (hd : E.digits ≠ some 0) {c : Cls} {fs ex : List (Str × V)} {set : List Str}
    (hfs : fs.map (·.1) = (classDef c).fields.map (·.name))
    (hcon : Consistent E.U E.digits c (.inst c fs ex set)) :
    (baseCheck E c (.inst c fs ex set) && modelCheck c (.inst c fs ex set)) = true ∧
    ∀ f ∈ (classDef c).fields, lengthOk f.maxLen ((V.inst c fs ex set).attr f.name) = true ∧
      fieldCheck E c f.name ((V.inst c fs ex set).attr f.name) = true := by
  have hbase : baseCheck E c (.inst c fs ex set) = true := by
    by_cases hk : (classDef c).kind = .patterned
    · unfold baseCheck
      rw [hk]
      simp only
      split
      · rename_i d hd'
        rw [C20_keys_exact]
        intro k hk'
        rw [List.mem_map] at hk'
        obtain ⟨e, he, rfl⟩ := hk'
        exact hcon.keys hk d hd' e he
      · rfl
    · exact (baseCheck_iff E c hk _).2 hcon.extensions
  have hlen : ∀ f ∈ (classDef c).fields, lengthOk f.maxLen ((V.inst c fs ex set).attr f.name) = true :=
    fun f hf => lengthOk_iff.2 (hcon.lengths f hf)
  by_cases hc : c = .AsyncAPI3
  · subst hc
    refine ⟨by rw [hbase]; rfl, fun f hf => ⟨hlen f hf, ?_⟩⟩
    unfold fieldCheck
    by_cases hn : f.name = p!"asyncapi"
    · rw [if_pos hn, hn]
      rcases hcon.version rfl with h | ⟨s, h, hs⟩
      · rw [h]; exact version_default hd
      · rw [h]; exact (C23_exact _ _ _).2 hs
    · rw [if_neg hn]
  · obtain ⟨h1, h2⟩ := (rule_iff E c hc (.inst c fs ex set)).2 hcon.rule
    exact ⟨by rw [hbase, h2]; rfl, fun f hf => ⟨hlen f hf, h1 f hf⟩⟩

/-- What a model makes of a dict fits no better than `built`. -/
theorem model_dict_score {E : Env} {c : Cls} (hk : (classDef c).kind ≠ .patterned) {d : List (Str × V)} {v : V} {sc : Score}
    (h : parse E (.dict d) (.model c) = some (v, sc)) : sc.exact ≤ E.built ∧ ∃ m, sc.count = some m := by
  rw [parse_model_dict E hk, construct_eq] at h
  split at h
  · rw [Option.map_eq_some_iff] at h
    obtain ⟨i, _, he⟩ := h
    cases he
    refine ⟨by simp only [Score.and]; omega, ?_⟩
    unfold Score.and
    cases (fieldsScore E c d (classDef c).fields).count <;> exact ⟨_, rfl⟩
  · cases h

theorem dict_any_parse (E : Env) (d : List (Str × V)) :
    ∃ e, 1 ≤ e ∧ parse E (.dict d) (.dict .any) = some (.dict d, ⟨e, none⟩) := by
  have : ∀ d : List (Str × V), ∃ e, 1 ≤ e ∧ parseEntries .any (entries E d) = some (d, ⟨e, none⟩) := by
    intro d
    induction d with
    | nil => exact ⟨2, by omega, rfl⟩
    | cons x d ih =>
      obtain ⟨k, x⟩ := x
      obtain ⟨e, he, h⟩ := ih
      have hx : parse E x .any = some (x, ⟨1, none⟩) := by rw [parse_eq_shape]; rfl
      refine ⟨min 1 e, by omega, ?_⟩
      simp only [entries, parseEntries, hx, h, Score.and]
  obtain ⟨e, he, h⟩ := this d
  refine ⟨e, he, ?_⟩
  rw [parse_eq_shape]
  simp only [parseAs, shapeOf, parseDict, h, Option.map_some]

/-- If a dict fits a model built from it only laxly, the key of a Kafka message stays a dict. -/
theorem kafka_dict {E : Env} (hE : ByExactness E.mixed) (hb : E.built = 0) (d : List (Str × V)) :
    Kept E (.dict d) keyTy := by
  unfold keyTy
  obtain ⟨e, he, hd⟩ := dict_any_parse E d
  refine ⟨⟨e, none⟩, ?_⟩
  rw [parse_union]
  simp only [V.isNone, Bool.false_and, Bool.false_eq_true, if_false, List.map_cons, List.map_nil, hd]
  have hn : parse E (.dict d) .none = none := by rw [parse_eq_shape]; rfl
  rw [hn]
  have key : ∀ cur : Res, (∀ r, cur = some r → r.2.exact = 0 ∧ ∃ m, r.2.count = some m) →
      pick E cur [some (.dict d, ⟨e, none⟩), none] = some (.dict d, ⟨e, none⟩) := by
    intro cur hcur
    cases cur with
    | none => rfl
    | some r =>
      obtain ⟨h0, m, hm⟩ := hcur r rfl
      have : better E r.2 ⟨e, none⟩ = true := by
        unfold better; rw [hm]; simp only; rw [hE, h0]; simp; omega
      simp only [pick, this, if_true]
  have hs : ∀ r, parse E (.dict d) (.model .Schema) = some r → r.2.exact = 0 ∧ ∃ m, r.2.count = some m :=
    fun r h => by
      have := model_dict_score (by decide) (v := r.1) (sc := r.2) h
      rw [hb] at this; exact ⟨by omega, this.2⟩
  have hr : ∀ r, parse E (.dict d) (.model .Reference) = some r → r.2.exact = 0 ∧ ∃ m, r.2.count = some m :=
    fun r h => by
      have := model_dict_score (by decide) (v := r.1) (sc := r.2) h
      rw [hb] at this; exact ⟨by omega, this.2⟩
  generalize parse E (.dict d) (.model .Schema) = rs at hs
  generalize parse E (.dict d) (.model .Reference) = rr at hr
  cases rs with
  | none =>
    cases rr with
    | none => exact key none (by intro r h; cases h)
    | some b => exact key (some b) (by intro r h; cases h; exact hr b rfl)
  | some a =>
    cases rr with
    | none => exact key (some a) (by intro r h; cases h; exact hs a rfl)
    | some b =>
      have : pick E none [some a, some b, some (.dict d, ⟨e, none⟩), none] =
        pick E (some (if better E a.2 b.2 then b else a)) [some (.dict d, ⟨e, none⟩), none] := rfl
      rw [this]
      refine key _ (by intro r h; cases h; split; exacts [hr b rfl, hs a rfl])

theorem kept_none {E : Env} {ts : List (Ty Cls)} (h : Ty.none ∈ ts) : Kept E .none (.union ts) := by
  have : hasNone ts = true := by
    clear E
    induction ts with
    | nil => cases h
    | cons t ts ih =>
      rcases List.mem_cons.1 h with rfl | h
      · rfl
      · have := ih h
        cases t <;> first | rfl | exact this
  exact ⟨.exactly, by rw [parse_union, this]; rfl⟩

/-- The member that keeps a value is chosen. -/
theorem kept_union {E : Env} {v : V} {t : Ty Cls} {ts : List (Ty Cls)} (ht : t ∈ ts)
    (hu : (unionOk ts = true ∨ isAnyNone ts = true) ∨ Ty.union ts = keyTy ∧ ∀ d, v = .dict d → Kept E v (.union ts))
    (hv : Valid E.U E.digits v t) (hk : Kept E v t) :
    Kept E v (.union ts) := by
  by_cases hn : v = .none ∧ Ty.none ∈ ts
  · rw [hn.1]; exact kept_none hn.2
  have hn' : (v.isNone && hasNone ts) = false := by
    rw [Bool.and_eq_false_iff]
    by_cases h : v = .none
    · right
      cases hh : hasNone ts with
      | false => rfl
      | true => exact absurd ⟨h, hasNone_mem hh⟩ hn
    · left; exact isNone_false.2 h
  obtain ⟨sc, hk⟩ := hk
  have main : (∀ u ∈ ts, u = t ∨ parse E v u = none) → Kept E v (.union ts) := by
    intro h
    refine ⟨sc, ?_⟩
    rw [parse_union, hn']
    simp only [Bool.false_eq_true, if_false]
    refine pick_same (.inl rfl) (fun o ho => ?_) (.inr (List.mem_map.2 ⟨t, ht, hk⟩))
    rw [List.mem_map] at ho
    obtain ⟨u, hu, rfl⟩ := ho
    rcases h u hu with rfl | h
    · exact .inr hk
    · exact .inl h
  have apart : ∀ u, apartTy t u = true → parse E v u = none := by
    intro u ha
    cases hp : parse E v u with
    | none => rfl
    | some r =>
      unfold apartTy at ha
      split at ha
      · rename_i g k hg hkk
        have h1 := gives_of_valid hv hg
        have h2 := takes_of_parse (v := r.1) (sc := r.2) hp hkk
        have := List.all_eq_true.1 ha _ h1
        simp only [Bool.not_eq_true', List.contains_eq_mem, decide_eq_false_iff_not] at this
        exact absurd h2 this
      · cases ha
  rcases hu with (hu | hu) | ⟨hu, hkey⟩
  · refine main fun u huu => ?_
    rcases unionOk_mem hu ht huu with rfl | ha
    · exact .inl rfl
    · exact .inr (apart u ha)
  · unfold isAnyNone at hu
    split at hu
    · simp only [List.mem_cons, List.not_mem_nil, or_false] at ht
      have hvn : v ≠ .none := fun h => hn ⟨h, by simp⟩
      rcases ht with rfl | rfl
      · refine main fun u huu => ?_
        simp only [List.mem_cons, List.not_mem_nil, or_false] at huu
        rcases huu with rfl | rfl
        · exact .inl rfl
        · right
          rw [parse_eq_shape]
          simp only [parseAs, isNone_false.2 hvn, Bool.false_eq_true, if_false]
      · cases hv; exact absurd rfl hvn
    · cases hu
  · rw [keyTy, Ty.union.injEq] at hu
    subst hu
    · simp only [List.mem_cons, List.not_mem_nil, or_false] at ht
      rcases ht with rfl | rfl | rfl | rfl
      · refine main fun u huu => ?_
        simp only [List.mem_cons, List.not_mem_nil, or_false] at huu
        rcases huu with rfl | rfl | rfl | rfl
        · exact .inl rfl
        all_goals exact .inr (apart _ (by decide))
      · refine main fun u huu => ?_
        simp only [List.mem_cons, List.not_mem_nil, or_false] at huu
        rcases huu with rfl | rfl | rfl | rfl
        · exact .inr (apart _ (by decide))
        · exact .inl rfl
        all_goals exact .inr (apart _ (by decide))
      · cases hv; exact hkey _ rfl
      · cases hv; exact absurd ⟨rfl, by simp⟩ hn

/-- Fields of a valid instance are kept, so it is built again. -/
theorem model_kept {E : Env} (hd : E.digits ≠ some 0) {c : Cls} {fs ex : List (Str × V)} {set : List Str}
    (hfs : fs.map (·.1) = (classDef c).fields.map (·.name))
    (hf : ∀ f ∈ (classDef c).fields, Kept E ((V.inst c fs ex set).attr f.name) f.ty)
    (hcon : Consistent E.U E.digits c (.inst c fs ex set)) (hu : NotShadowed (.inst c fs ex set)) :
    ∃ sc, parse E (.inst c fs ex set) (.model c) = (after E c (.inst c fs ex set)).map fun i => (i, sc) := by
  obtain ⟨h1, h2⟩ := checks_of_consistent hd hfs hcon
  by_cases hk : (classDef c).kind = .patterned
  · obtain ⟨t, hft⟩ := patterned_root c hk
    have hex : ex = [] := hcon.closed (.inr hk)
    rw [hft] at hfs
    match fs, hfs with
    | [(k, w)], hfs =>
      simp only [List.map_cons, List.map_nil, List.cons.injEq, and_true] at hfs
      subst hfs hex
      obtain ⟨sc, hw⟩ := hf _ (by rw [hft]; exact List.mem_cons_self)
      have hw' : parse E w (.dict t) = some (w, sc) := hw
      refine ⟨sc.and ⟨2, none⟩, ?_⟩
      rw [parse_eq_shape]
      simp only [parseAs, shapeOf, parseModel, if_true]
      rw [hk, hft]
      simp only [entries, lookup, if_true, hw', constructRoot, Option.getD_some]
      cases after E c (V.inst c [(p!"root", w)] [] set) <;> rfl
  · exact construct_own hk hfs (fun e he f hff => hu c fs ex set rfl e he f hff)
      (fun f hff => ⟨hf f hff, h2 f hff⟩) (fun hn => hcon.closed (.inl hn))

theorem lookup_mem_attr {c : Cls} {fs ex : List (Str × V)} {set : List Str}
    (hfs : fs.map (·.1) = (classDef c).fields.map (·.name)) {f : FieldDef Cls} (hf : f ∈ (classDef c).fields) :
    (f.name, (V.inst c fs ex set).attr f.name) ∈ fs := lookup_some_mem (lookup_of_names hfs hf)

theorem aliasesNoExtension : Cls.all.all (fun c => (classDef c).fields.all fun f =>
    (f.alias.getD []).take 2 != p!"x-") = true := by decide +kernel

/-- Extension names are no field names. -/
theorem notShadowed_of_valid {U : Uni} {limit : Option Nat} {c : Cls} {i : V} (hk : (classDef c).kind ≠ .openExtra)
    (h : Valid U limit i (.model c)) : NotShadowed i := by
  intro c' fs ex set he e hm f hf
  refine ⟨separate_of_valid hk h c' fs ex set he e hm f hf, ?_⟩
  intro ha
  subst he
  cases h with
  | model hfs _ hcon =>
    have hext : ex = [] ∨ (classDef c).kind = .extendable := by
      revert hk
      cases hkk : (classDef c).kind
      · exact fun _ => .inr rfl
      · exact fun _ => .inl (hcon.closed (.inl hkk))
      · exact fun h => absurd rfl h
      · exact fun _ => .inl (hcon.closed (.inr hkk))
    rcases hext with rfl | hext
    · cases hm
    · have := List.all_eq_true.1 (List.all_eq_true.1 aliasesNoExtension c (Cls.mem_all c)) f hf
      rw [ha] at this
      have hform := hcon.extensions hext e hm
      have : e.1.take 2 ≠ p!"x-" := by simpa using this
      rcases hform with ⟨r, hr, _⟩ | ⟨t, ht, r, hr, _⟩
      · rw [hr] at this; exact this rfl
      · rw [ht, hr] at this; exact this rfl

mutual
/-- No Kafka message inside. -/
def noKafka : V → Bool
  | .list l => noKafkaList l
  | .dict d => noKafkaDict d
  | .inst c fs _ _ => c != .KafkaMessageBindings && noKafkaDict fs
  | _ => true
def noKafkaList : List V → Bool
  | [] => true
  | v :: l => noKafka v && noKafkaList l
def noKafkaDict : List (Str × V) → Bool
  | [] => true
  | (_, v) :: d => noKafka v && noKafkaDict d
end

theorem noKafkaList_mem {l : List V} (h : noKafkaList l = true) : ∀ v ∈ l, noKafka v = true := by
  induction l with
  | nil => simp
  | cons v l ih =>
    rw [noKafkaList, Bool.and_eq_true] at h
    intro w hw
    rcases List.mem_cons.1 hw with rfl | hw
    · exact h.1
    · exact ih h.2 w hw

theorem noKafkaDict_mem {d : List (Str × V)} (h : noKafkaDict d = true) : ∀ e ∈ d, noKafka e.2 = true := by
  induction d with
  | nil => simp
  | cons v l ih =>
    obtain ⟨k, v⟩ := v
    rw [noKafkaDict, Bool.and_eq_true] at h
    intro w hw
    rcases List.mem_cons.1 hw with rfl | hw
    · exact h.1
    · exact ih h.2 w hw

/-- Without Kafka messages there is nothing to say about their keys. -/
theorem keys_free {K : V → Prop} : ∀ v, noKafka v = true → Keys K v := by
  intro v
  induction v using V.ind with
  | list l ih => exact fun h => .list fun v hv => ih v hv (noKafkaList_mem h v hv)
  | dict d ih => exact fun h => .dict fun v hv => ih v hv (noKafkaDict_mem h v hv)
  | inst c fs ex set ih _ =>
    intro h
    rw [noKafka, Bool.and_eq_true] at h
    refine .inst (fun hc => ?_) fun v hv => ih v hv (noKafkaDict_mem h.2 v hv)
    rw [hc] at h; simp at h
  | _ => intros; constructor

theorem keys_imp {K K' : V → Prop} (h : ∀ k, K k → K' k) {v : V} (hv : Keys K v) : Keys K' v := by
  induction hv with
  | list _ ih => exact .list ih
  | dict _ ih => exact .dict ih
  | inst hk _ ih => exact .inst (fun hc => h _ (hk hc)) ih
  | _ => constructor

/-- A valid value is accepted as it is. -/
theorem valid_kept {E : Env} (hd : E.digits ≠ some 0) {v : V} {t : Ty Cls}
    (hv : Valid E.U E.digits v t) : docFree t = true →
    (stableTy t = true ∨ t = keyTy ∧ ∀ d, v = .dict d → Kept E v t) → Unshadowed v →
    Keys (fun k => ∀ d, k = .dict d → Kept E k keyTy) v → Kept E v t := by
  induction hv with
  | any => intro _ _ _ _; exact ⟨⟨1, none⟩, by rw [parse_eq_shape]; rfl⟩
  | none => intro _ _ _ _; exact ⟨_, rfl⟩
  | str => intro _ _ _ _; exact ⟨_, rfl⟩
  | int => intro _ _ _ _; exact ⟨_, rfl⟩
  | bool => intro _ _ _ _; exact ⟨_, rfl⟩
  | anyUrl =>
    intro _ _ _ _
    exact ⟨.exactly, by rw [parse_eq_shape]; simp [parseAs, parseUrl]⟩
  | httpUrl =>
    intro _ _ _ _
    exact ⟨.exactly, by rw [parse_eq_shape]; simp [parseAs, parseUrl]⟩
  | email h =>
    intro _ _ _ _
    refine ⟨.exactly, ?_⟩
    rw [parse_eq_shape]
    simp only [parseAs, parseEmail, (C22_exact _).2 h, if_true]
  | processors => intro _ _ _ _; exact ⟨_, rfl⟩
  | litStr h =>
    intro _ _ _ _
    refine ⟨.exactly, ?_⟩
    rw [parse_eq_shape]
    simp only [parseAs, parseLit, List.contains_iff_mem.2 h, if_true]
  | litInt h =>
    intro _ _ _ _
    refine ⟨.exactly, ?_⟩
    rw [parse_eq_shape]
    simp only [parseAs, parseLit, List.contains_iff_mem.2 h, if_true]
  | @list l t h ih =>
    intro h1 h2 hu hK
    cases hu with | list hu =>
    cases hK with | list hK =>
    have h2 : stableTy t = true := h2.resolve_right fun h => by cases h.1
    obtain ⟨sc, hi⟩ := kept_items (E := E) (t := t) fun v hv => ih v hv h1 (.inl h2) (hu v hv) (hK v hv)
    refine ⟨sc, ?_⟩
    rw [parse_eq_shape]
    simp only [parseAs, shapeOf, hi, Option.map_some]
  | @dict d t h ih =>
    intro h1 h2 hu hK
    cases hu with | dict hu =>
    cases hK with | dict hK =>
    have h2 : stableTy t = true := h2.resolve_right fun h => by cases h.1
    exact kept_dict fun e he => ih e he h1 (.inl h2) (hu e he) (hK e he)
  | union ht hv ih =>
    intro h1 h2 hu hK
    rcases h2 with h2 | h2
    · simp only [stableTy, Bool.and_eq_true, Bool.or_eq_true] at h2
      exact kept_union ht (.inl h2.1) hv (ih (docFreeAll_mem h1 ht) (.inl (stableAll_mem h2.2 ht)) hu hK)
    · refine kept_union ht (.inr h2) hv (ih (docFreeAll_mem h1 ht) (.inl ?_) hu hK)
      have hts := h2.1
      rw [keyTy, Ty.union.injEq] at hts
      subst hts
      simp only [List.mem_cons, List.not_mem_nil, or_false] at ht
      rcases ht with rfl | rfl | rfl | rfl <;> rfl
  | @model c fs ex set hfs hf hcon ih =>
    intro h1 _ hu hK
    have hc : c ≠ .AsyncAPI3 := by rintro rfl; cases h1
    cases hu with | inst hns hu =>
    cases hK with | inst hkk hK =>
    obtain ⟨sc, h⟩ := model_kept hd hfs (fun f hff => ih f hff (field_docFree hff) (by
        rcases field_stable hff with h | ⟨rfl, hn, hty⟩
        · exact .inl h
        · refine .inr ⟨hty, fun d hd' => ?_⟩
          rw [hn] at hd' ⊢; rw [hty]; exact hkk rfl d hd')
      (hu _ (lookup_mem_attr (ex := ex) (set := set) hfs hff))
      (hK _ (lookup_mem_attr (ex := ex) (set := set) hfs hff))) hcon (by
        by_cases hk : (classDef c).kind = .openExtra
        · exact hns hk
        · exact notShadowed_of_valid hk (.model hfs hf hcon))
    rw [after_of_checks hc (checks_of_consistent hd hfs hcon).1] at h
    exact ⟨sc, h⟩

end Verif.Pyd
