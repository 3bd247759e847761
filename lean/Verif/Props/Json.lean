import Verif.Lemmas.Json
import Verif.Props.Written
/-!
# C68: JSON texts

`model_validate_json` takes a text for the value it denotes by RFC 8259, and `model_dump_json` writes a text that denotes what is written.
-/
namespace Verif.Props
open Verif Verif.Gen Verif.Spec Verif.Pyd Verif.Mutate Verif.Json

/-- **C68.** Exactly the texts of RFC 8259 are read, each as the value it denotes. -/
theorem C68_exact (F : Str → Str) (t : Str) (v : V) : read F t = some v ↔ IsTextOf F v t := read_iff F t v

/-- **C68.** No text denotes two values. -/
theorem C68_one_value (F : Str → Str) (t : Str) (v w : V) (h : IsTextOf F v t) (h' : IsTextOf F w t) : v = w :=
  Option.some.inj (((C68_exact F t v).2 h).symm.trans ((C68_exact F t w).2 h'))

/-- **C68.** A text is accepted exactly if it is JSON and the value it denotes is, with the same result; so spelling, white space and the order
of escapes do not matter. -/
theorem C68_accepted (E : Env) (F : Str → Str) (c : Cls) (t : Str) (i : V) :
    validateJson E F c t = some i ↔ ∃ v, IsTextOf F v t ∧ validate E c v = some i := by
  unfold validateJson
  constructor
  · intro h
    split at h
    · cases h
    · rename_i v hr
      exact ⟨v, (C68_exact F t v).1 hr, h⟩
  · rintro ⟨v, hv, h⟩
    rw [(C68_exact F t v).2 hv]
    exact h

/-- **C68.** Two texts of the same value are treated alike. -/
theorem C68_same (E : Env) (F : Str → Str) (c : Cls) (t u : Str) (v : V) (ht : IsTextOf F v t) (hu : IsTextOf F v u) :
    validateJson E F c t = validateJson E F c u := by
  unfold validateJson
  rw [(C68_exact F t v).2 ht, (C68_exact F u v).2 hu]

theorem members_names {F : Str → Str} {p : Spec.Part} {t : Str} (h : JsonText F p t) : match p with
    | .value v => WellFormed v
    | .items l => ∀ v ∈ l, WellFormed v
    | .members d => ∀ e ∈ d, WellFormed e.2 := by
  induction h with
  | null => exact .none
  | true => exact .bool
  | false => exact .bool
  | int => exact .int
  | float => exact .float
  | str => exact .str
  | emptyList => exact .list (by simp)
  | list _ ih => exact .list ih
  | emptyDict => exact .dict (by simp) (by simp)
  | @dict d d' t _ hl ih =>
    have hn : (d'.map (·.1)).Nodup := by rw [(lastWins_iff _ _).1 hl]; exact collect_nodup d
    refine .dict hn fun e he => ?_
    have := (lookup_iff hn).2 he
    rw [hl.2] at this
    exact ih _ (List.mem_reverse.1 (lookup_some_mem this))
  | item _ _ _ ih => intro v hv; obtain rfl := List.mem_singleton.1 hv; exact ih
  | items _ _ _ _ ih ihl =>
    intro v hv
    rcases List.mem_cons.1 hv with rfl | hv
    · exact ih
    · exact ihl v hv
  | member _ _ _ _ _ _ ih => intro v hv; obtain rfl := List.mem_singleton.1 hv; exact ih
  | members _ _ _ _ _ _ _ ih ihd =>
    intro v hv
    rcases List.mem_cons.1 hv with rfl | hv
    · exact ih
    · exact ihd v hv

/-- **C68.** In what is read no object has a key twice. -/
theorem C68_well_formed (F : Str → Str) (t : Str) (v : V) (h : IsTextOf F v t) : WellFormed v := by
  obtain ⟨_, _, _, _, _, h, _⟩ := h
  exact members_names h

theorem blank_nil : Blank [] := fun _ h => absurd h List.not_mem_nil

theorem writeItems_cons (W : Str → Str) (v w : V) (l : List V) : writeItems W (v :: w :: l) = write W v ++ ',' :: writeItems W (w :: l) := by
  rw [writeItems]
  simp

theorem writeMembers_cons (W : Str → Str) (k : Str) (v : V) (e : Str × V) (d : List (Str × V)) :
    writeMembers W ((k, v) :: e :: d) = writeString k ++ ':' :: (write W v ++ ',' :: writeMembers W (e :: d)) := by
  rw [writeMembers]
  simp

theorem items_written {F W : Str → Str} : ∀ {l : List V}, l ≠ [] → (∀ v ∈ l, JsonText F (.value v) (write W v)) →
    JsonText F (.items l) (writeItems W l)
  | [], h, _ => absurd rfl h
  | [v], _, h => by
    have := JsonText.item blank_nil (h v (List.mem_cons_self ..)) blank_nil
    rw [writeItems]
    simpa using this
  | v :: w :: l, _, h => by
    have := JsonText.items blank_nil (h v (List.mem_cons_self ..)) blank_nil
      (items_written (l := w :: l) (by simp) fun x hx => h x (List.mem_cons_of_mem _ hx))
    rw [writeItems_cons]
    simpa using this

theorem members_written {F W : Str → Str} : ∀ {d : List (Str × V)}, d ≠ [] → (∀ e ∈ d, JsonText F (.value e.2) (write W e.2)) →
    JsonText F (.members d) (writeMembers W d)
  | [], h, _ => absurd rfl h
  | [(k, v)], _, h => by
    have := JsonText.member blank_nil (strText_write k) blank_nil blank_nil (h (k, v) (List.mem_cons_self ..)) blank_nil
    rw [writeMembers, writeString]
    simpa using this
  | (k, v) :: e :: d, _, h => by
    have := JsonText.members blank_nil (strText_write k) blank_nil blank_nil (h (k, v) (List.mem_cons_self ..)) blank_nil
      (members_written (d := e :: d) (by simp) fun x hx => h x (List.mem_cons_of_mem _ hx))
    rw [writeMembers_cons, writeString]
    simpa using this

theorem lastWins_self {d : List (Str × V)} (hn : (d.map (·.1)).Nodup) : LastWins d d := by
  have : collect d = d := by
    have h : ∀ r acc : List (Str × V), ((acc ++ r).map (·.1)).Nodup → r.foldl (fun acc e => dictSet acc e.1 e.2) acc = acc ++ r := by
      intro r
      induction r with
      | nil => intro acc _; simp
      | cons e r ih =>
        intro acc hn
        have hf : e.1 ∉ acc.map (·.1) := by
          rw [List.map_append, List.nodup_append] at hn
          exact fun h => hn.2.2 _ h _ (List.mem_cons_self ..) rfl
        rw [List.foldl_cons, dictSet_fresh hf, ih _ (by simpa using hn)]
        simp
    exact h d [] hn
  rw [lastWins_iff]
  exact this.symm

/-- **C68.** What is written is JSON, and denotes what was written. -/
theorem C68_written (F W : Str → Str) (v : V) (hv : WellFormed v) (hf : FloatsBack F W v) : IsTextOf F v (write W v) := by
  suffices h : JsonText F (.value v) (write W v) from ⟨[], _, [], by simp, blank_nil, h, blank_nil⟩
  induction hv with
  | none => rw [write]; exact .null
  | @bool b => cases b <;> rw [write]; exacts [.false, .true]
  | int => rw [write]; exact .int (intText_write _)
  | @float x =>
    rw [write]
    have := JsonText.float (F := F) (hf x .refl).1
    rwa [(hf x .refl).2] at this
  | str => rw [write]; exact .str (strText_write _)
  | @list l _ ih =>
    rw [write]
    cases l with
    | nil => rw [writeItems]; exact .emptyList blank_nil
    | cons a l => exact .list (items_written (by simp) fun v hv => ih v hv fun x hx => hf x (.item hv hx))
  | @dict d hn _ ih =>
    rw [write]
    cases d with
    | nil => rw [writeMembers]; exact .emptyDict blank_nil
    | cons a d => exact .dict (members_written (by simp) fun e he => ih e he fun x hx => hf x (.entry he hx)) (lastWins_self hn)

/-- **C68.** Anything read from JSON text is written as JSON text that denotes what `model_dump` gives, and is read back from it as it is
read from the dumped data. -/
theorem C68_dumped (E : Env) (F W : Str → Str) (c : Cls) (t : Str) (i : V) (h : validateJson E F c t = some i)
    (hf : FloatsBack F W (dump i)) :
    IsTextOf F (dump i) (dumpJson W i) ∧ validateJson E F c (dumpJson W i) = validate E c (dump i) := by
  obtain ⟨v, hv, hi⟩ := (C68_accepted E F c t i).1 h
  have ht := C68_written F W (dump i) (C54_written E c v (C68_well_formed F t v hv) i hi) hf
  refine ⟨ht, ?_⟩
  unfold validateJson dumpJson
  rw [(C68_exact F _ _).2 ht]

/-- **C68.** So what is read from a text, written, and read again is the same, and is written in the same way (under the conditions of C39
on the instance). -/
theorem C68_round_trip (E : Env) (hd : E.digits ≠ some 0) (F W : Str → Str) (c : Cls) (t : Str) (i : V) (h : validateJson E F c t = some i)
    (hf : FloatsBack F W (dump i)) (hr : Regular i) (hK : Keys (ReadsBack E) i) :
    ∃ i', validateJson E F c (dumpJson W i) = some i' ∧ forget i' = forget i ∧ dumpJson W i' = dumpJson W i := by
  obtain ⟨v, hv, hi⟩ := (C68_accepted E F c t i).1 h
  obtain ⟨i', h', hf', hd'⟩ := C39_json_partial E hd c v (wellFormed_json (C68_well_formed F t v hv)) i hi hr hK
  exact ⟨i', (C68_dumped E F W c t i h hf).2.trans h', hf', by unfold dumpJson; rw [hd']⟩

/-! ### Examples -/

/-- A document with white space, escapes, numbers and a name that is given twice. -/
def aText : Str := p!" {\"asyncapi\" : \"3.0.0\",\n \"info\":{\"title\":\"\\u0041\\n\\ud83d\\ude00\", \"version\":\"0\", \"version\":\"1\"}, \"x-n\":[1, -2.5e3, true, null, [], {}]} "

/-- What it denotes. -/
def theDocument : V := .dict [(p!"asyncapi", .str p!"3.0.0"), (p!"info", .dict [(p!"title", .str ['A', '\n', '😀']), (p!"version", .str p!"1")]),
  (p!"x-n", .list [.int 1, .float p!"-2.5e3", .bool true, .none, .list [], .dict []])]

theorem aText_read : read id aText = some theDocument := sameResult_eq (by decide +kernel)

theorem aText_denotes : IsTextOf id theDocument aText := (C68_exact _ _ _).1 aText_read

/-- What is written of it. -/
theorem aText_written : write id theDocument =
    p!"{\"asyncapi\":\"3.0.0\",\"info\":{\"title\":\"A\\n😀\",\"version\":\"1\"},\"x-n\":[1,-2.5e3,true,null,[],{}]}" := by decide +kernel

/-- The text parsed. -/
def theInstance : V := (validate exactEnv .AsyncAPI3 theDocument).getD .none

theorem theInstance_made : validate exactEnv .AsyncAPI3 theDocument = some theInstance := by rfl
theorem theInstance_dump : dump theInstance = theDocument := sameJson_eq _ _ (by decide +kernel)

theorem within_float {x : Str} {v : V} : Within (.float x) v ↔ match v with
    | .float y => x = y
    | .list l => ∃ w ∈ l, Within (.float x) w
    | .dict d => ∃ e ∈ d, Within (.float x) e.2
    | .inst _ fs ex _ => (∃ e ∈ fs, Within (.float x) e.2) ∨ ∃ e ∈ ex, Within (.float x) e.2
    | _ => False := by
  constructor
  · intro h
    cases h with
    | refl => exact rfl
    | item hv h => exact ⟨_, hv, h⟩
    | entry he h => exact ⟨_, he, h⟩
    | field he h => exact .inl ⟨_, he, h⟩
    | extra he h => exact .inr ⟨_, he, h⟩
  · intro h
    cases v with
    | float y => obtain rfl : x = y := h; exact .refl
    | list l => obtain ⟨w, hw, h⟩ := h; exact .item hw h
    | dict d => obtain ⟨e, he, h⟩ := h; exact .entry he h
    | inst c fs ex set =>
      rcases h with ⟨e, he, h⟩ | ⟨e, he, h⟩
      · exact .field he h
      · exact .extra he h
    | _ => cases h

theorem within_dict {x : Str} {d : List (Str × V)} : Within (.float x) (.dict d) ↔ ∃ e ∈ d, Within (.float x) e.2 := within_float
theorem within_list {x : Str} {l : List V} : Within (.float x) (.list l) ↔ ∃ w ∈ l, Within (.float x) w := within_float
theorem within_str {x s : Str} : Within (.float x) (.str s) ↔ False := within_float
theorem within_int {x : Str} {i : Int} : Within (.float x) (.int i) ↔ False := within_float
theorem within_bool {x : Str} {b : Bool} : Within (.float x) (.bool b) ↔ False := within_float
theorem within_none {x : Str} : Within (.float x) .none ↔ False := within_float
theorem within_self {x y : Str} : Within (.float x) (.float y) ↔ x = y := within_float

theorem theFloats : FloatsBack id id theDocument := by
  intro x hx
  obtain rfl : x = p!"-2.5e3" := by
    simpa [theDocument, within_dict, within_list, within_str, within_int, within_bool, within_none, within_self] using hx
  exact ⟨⟨['-'], ['2'], p!".5", p!"e3", rfl, .inr rfl, ⟨by simp, by simp [IsDigit], .inr (by decide)⟩, .inr ⟨['5'], rfl, by simp, by simp [IsDigit]⟩,
    .inr ⟨'e', [], ['3'], rfl, .inl rfl, .inl rfl, by simp, by simp [IsDigit]⟩, .inl (by simp)⟩, rfl⟩

/-- It is read from the text, written, and read again. -/
example : ∃ i', validateJson exactEnv id .AsyncAPI3 (dumpJson id theInstance) = some i' ∧ forget i' = forget theInstance ∧
    dumpJson id i' = dumpJson id theInstance :=
  C68_round_trip exactEnv (by intro h; cases h) id id .AsyncAPI3 aText theInstance
    ((C68_accepted _ _ _ _ _).2 ⟨_, aText_denotes, theInstance_made⟩) (by rw [theInstance_dump]; exact theFloats)
    (isRegular_sound _ (by decide +kernel)) (keys_free _ (by decide +kernel))

/-- Not JSON: a number with a needless zero, a comma too many, a raw line break in a string, half a surrogate pair, two values. -/
example : read id p!"01" = none ∧ read id p!"[1,]" = none ∧ read id p!"\"\n\"" = none ∧ read id p!"\"\\ud83d\"" = none ∧ read id p!"1 2" = none :=
  ⟨rfl, rfl, rfl, rfl, rfl⟩

end Verif.Props
