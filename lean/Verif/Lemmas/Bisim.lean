import Verif.Lemmas.Layout
import Verif.Spec.Refs
import Verif.Spec.Factory
/-! An object graph that holds a document is as the specifications assume, and navigates like the document. -/
namespace Verif
open Verif.Gen Verif.Spec Verif.Pyd

variable {n : Nat} {D : Doc Cls n} {U : Uni} {limit : Option Nat}

theorem sound_within {v w : V} (h : Sound U limit v) (hw : Within w v) : Sound U limit w := by
  induction hw with
  | refl => exact h
  | item hv _ ih => cases h with | list h => exact ih (h _ hv)
  | entry hv _ ih => cases h with | dict _ h => exact ih (h _ hv)
  | field hv _ ih => cases h with | inst _ h _ _ => exact ih (h _ hv)
  | extra hv _ ih => cases h with | inst _ _ _ h => exact ih (h _ hv)

theorem within_trans {u v w : V} (h1 : Within u v) (h2 : Within v w) : Within u w := by
  induction h2 with
  | refl => exact h1
  | item hv _ ih => exact .item hv ih
  | entry hv _ ih => exact .entry hv ih
  | field hv _ ih => exact .field hv ih
  | extra hv _ ih => exact .extra hv ih

/-! ### Entries correspond -/

/-- Entries of the graph and of the tree correspond. -/
def Pairs (D : Doc Cls n) (gs : List (Str × Val n)) (fs : List (Str × V)) : Prop :=
  gs.map (·.1) = fs.map (·.1) ∧
    ∀ (i : Nat) k x k' v, gs[i]? = some (k, x) → fs[i]? = some (k', v) → Rep D x v

theorem key_eq {gs : List (Str × Val n)} {fs : List (Str × V)} (h : gs.map (·.1) = fs.map (·.1)) {i : Nat} {k k' x v}
    (h1 : gs[i]? = some (k, x)) (h2 : fs[i]? = some (k', v)) : k = k' := by
  have e : (gs.map (·.1))[i]? = (fs.map (·.1))[i]? := by rw [h]
  rw [List.getElem?_map, List.getElem?_map, h1, h2] at e
  simpa using e

theorem Pairs.down {gs : List (Str × Val n)} {fs : List (Str × V)} (h : Pairs D gs fs) {k x} (hx : (k, x) ∈ gs) :
    ∃ v, (k, v) ∈ fs ∧ Rep D x v := by
  obtain ⟨i, hi⟩ := List.mem_iff_getElem?.1 hx
  have hlen : gs.length = fs.length := by simpa using congrArg List.length h.1
  have hlt := (List.getElem?_eq_some_iff.1 hi).1
  obtain ⟨⟨k', v⟩, hv⟩ : ∃ e, fs[i]? = some e := ⟨_, List.getElem?_eq_getElem (by omega)⟩
  have := key_eq h.1 hi hv
  subst this
  exact ⟨v, List.mem_iff_getElem?.2 ⟨i, hv⟩, h.2 i k x k v hi hv⟩

theorem Pairs.up {gs : List (Str × Val n)} {fs : List (Str × V)} (h : Pairs D gs fs) {k v} (hv : (k, v) ∈ fs) :
    ∃ x, (k, x) ∈ gs ∧ Rep D x v := by
  obtain ⟨i, hi⟩ := List.mem_iff_getElem?.1 hv
  have hlen : gs.length = fs.length := by simpa using congrArg List.length h.1
  have hlt := (List.getElem?_eq_some_iff.1 hi).1
  obtain ⟨⟨k', x⟩, hx⟩ : ∃ e, gs[i]? = some e := ⟨_, List.getElem?_eq_getElem (by omega)⟩
  have := key_eq h.1 hx hi
  subst this
  exact ⟨x, List.mem_iff_getElem?.2 ⟨i, hx⟩, h.2 i k' x k' v hx hi⟩

theorem Pairs.cons {g : Str × Val n} {gs : List (Str × Val n)} {f : Str × V} {fs : List (Str × V)} (h : Pairs D (g :: gs) (f :: fs)) :
    g.1 = f.1 ∧ Rep D g.2 f.2 ∧ Pairs D gs fs := by
  obtain ⟨h1, h2⟩ := h
  simp only [List.map_cons, List.cons.injEq] at h1
  exact ⟨h1.1, h2 0 g.1 g.2 f.1 f.2 rfl rfl, h1.2, fun i => h2 (i + 1)⟩

/-! ### Inversion -/

theorem rep_none {x : Val n} : Rep D x .none ↔ x = .none := by
  constructor
  · intro h; cases h; rfl
  · rintro rfl; exact .none

theorem rep_of_none {v : V} (h : Rep D .none v) : v = .none := by cases h; rfl

theorem rep_str {x : Val n} {s : Str} (h : Rep D x (.str s)) : x = .str s := by cases h; rfl

theorem rep_of_str {v : V} {s : Str} (h : Rep D (.str s) v) : v = .str s := by cases h; rfl

theorem rep_of_list {a : Fin n} {xs} {v : V} (h : Rep D (.ptr a) v) (ha : D.node a = .list xs) :
    ∃ l, v = .list l ∧ xs.length = l.length ∧
      ∀ (i : Nat) x v, xs[i]? = some x → l[i]? = some v → Rep D x v := by
  cases h with
  | list h1 h2 h3 => rw [ha] at h1; cases h1; exact ⟨_, rfl, h2, h3⟩
  | dict h1 => rw [ha] at h1; cases h1
  | inst h1 => rw [ha] at h1; cases h1

theorem rep_of_dict {a : Fin n} {kvs} {v : V} (h : Rep D (.ptr a) v) (ha : D.node a = .dict kvs) :
    ∃ d, v = .dict d ∧ Pairs D kvs d := by
  cases h with
  | list h1 => rw [ha] at h1; cases h1
  | dict h1 h2 h3 => rw [ha] at h1; cases h1; exact ⟨_, rfl, h2, h3⟩
  | inst h1 => rw [ha] at h1; cases h1

theorem rep_of_model {a : Fin n} {c gs hs} {v : V} (h : Rep D (.ptr a) v) (ha : D.node a = .model c gs hs) :
    ∃ fs ex set, v = .inst c fs ex set ∧ Pairs D gs fs ∧ Pairs D hs ex := by
  cases h with
  | list h1 => rw [ha] at h1; cases h1
  | dict h1 => rw [ha] at h1; cases h1
  | inst h1 h2 h3 h4 h5 => rw [ha] at h1; cases h1; exact ⟨_, _, _, rfl, ⟨h2, h4⟩, h3, h5⟩

theorem rep_dict {x : Val n} {d : List (Str × V)} (h : Rep D x (.dict d)) :
    ∃ a kvs, x = .ptr a ∧ D.node a = .dict kvs ∧ Pairs D kvs d := by
  cases h with
  | dict h1 h2 h3 => exact ⟨_, _, rfl, h1, h2, h3⟩

theorem rep_list {x : Val n} {l : List V} (h : Rep D x (.list l)) :
    ∃ a xs, x = .ptr a ∧ D.node a = .list xs ∧ xs.length = l.length ∧
      ∀ (i : Nat) x v, xs[i]? = some x → l[i]? = some v → Rep D x v := by
  cases h with
  | list h1 h2 h3 => exact ⟨_, _, rfl, h1, h2, h3⟩

theorem rep_inst {x : Val n} {c fs ex set} (h : Rep D x (.inst c fs ex set)) :
    ∃ a gs hs, x = .ptr a ∧ D.node a = .model c gs hs ∧ Pairs D gs fs ∧ Pairs D hs ex := by
  cases h with
  | inst h1 h2 h3 h4 h5 => exact ⟨_, _, _, rfl, h1, ⟨h2, h4⟩, h3, h5⟩

theorem valid_names {c fs ex set} (h : Valid U limit (.inst c fs ex set) (.model c)) :
    fs.map (·.1) = (classDef c).fields.map (·.name) := by
  cases h with | model h _ _ => exact h

theorem valid_field {c fs ex set} (h : Valid U limit (.inst c fs ex set) (.model c)) {f : FieldDef Cls}
    (hf : f ∈ (classDef c).fields) {v : V} (hv : (f.name, v) ∈ fs) : Valid U limit v f.ty := by
  cases h with
  | model h1 h2 _ =>
    have := h2 f hf
    have hn : (fs.map (·.1)).Nodup := by rw [h1]; exact names_nodup c
    have hl : lookup f.name fs = some v := (lookup_iff hn).2 hv
    simp only [V.attr, hl, Option.getD_some] at this
    exact this

theorem sound_inst {c fs ex set} (h : Sound U limit (.inst c fs ex set)) : Valid U limit (.inst c fs ex set) (.model c) := by
  cases h with | inst h _ _ _ => exact h

/-! ### What the specifications assume -/

theorem represents_wf {doc : V} (h : Depicts D doc) (hs : Sound U limit doc) : WF table D := by
  have key : ∀ a, ∃ w, Sound U limit w ∧ Rep D (.ptr a) w := fun a => by
    obtain ⟨w, hw, hr⟩ := h.2 a
    exact ⟨w, sound_within hs hw, hr⟩
  refine ⟨?_, ?_, ?_, ?_, ?_⟩
  · intro a kvs ha
    obtain ⟨w, hw, hr⟩ := key a
    obtain ⟨d, rfl, hp⟩ := rep_of_dict hr ha
    cases hw with
    | dict hn _ => change (kvs.map (·.1)).Nodup; rw [hp.1]; exact hn
  · intro a c gs hs ha
    obtain ⟨w, hw, hr⟩ := key a
    obtain ⟨fs, ex, set, rfl, hp, -⟩ := rep_of_model hr ha
    change (gs.map (·.1)).Nodup
    rw [hp.1, valid_names (sound_inst hw)]; exact names_nodup c
  · intro a c gs hs ha
    obtain ⟨w, hw, hr⟩ := key a
    obtain ⟨fs, ex, set, rfl, -, hp⟩ := rep_of_model hr ha
    cases hw with
    | inst _ _ hn _ => change (hs.map (·.1)).Nodup; rw [hp.1]; exact hn
  · intro a c gs hs ha f hf
    obtain ⟨w, hw, hr⟩ := key a
    obtain ⟨fs, ex, set, rfl, hp, -⟩ := rep_of_model hr ha
    have hm : f.name ∈ gs.map (·.1) := by
      rw [hp.1, valid_names (sound_inst hw)]
      simp only [table, List.mem_map] at hf
      obtain ⟨g, hg, rfl⟩ := hf
      exact List.mem_map.2 ⟨g, hg, rfl⟩
    obtain ⟨e, he, hk⟩ := List.mem_map.1 hm
    exact ⟨e.2, by rw [← hk]; exact he⟩
  · intro a c gs hs ha hc
    have hc : c = .Reference := by simpa [table] using hc
    subst hc
    obtain ⟨w, hw, hr⟩ := key a
    obtain ⟨fs, ex, set, rfl, hp, -⟩ := rep_of_model hr ha
    have hv := sound_inst hw
    have hf : defReference.fields[0] ∈ (classDef .Reference).fields := List.mem_of_getElem (i := 0) rfl
    have hm : p!"ref" ∈ fs.map (·.1) := by
      rw [valid_names hv]; exact List.mem_map.2 ⟨_, hf, rfl⟩
    obtain ⟨⟨k, v⟩, he, hk⟩ := List.mem_map.1 hm
    simp only at hk
    subst hk
    have := valid_field hv hf he
    change Valid U limit v .str at this
    cases this with
    | @str s =>
      obtain ⟨x, hx, hrx⟩ := hp.up he
      rw [rep_str hrx] at hx
      exact ⟨s, hx⟩

theorem fits_of_valid {v : V} {t : Ty Cls} (hv : Valid U limit v t) : ∀ {x : Val n}, Rep D x v → Fits D t x := by
  induction hv with
  | any => exact fun _ => .any
  | none => intro x h; rw [rep_none.1 h]; exact .none
  | str => intro x h; rw [rep_str h]; exact .str
  | int => intro x h; cases h; exact .scalar trivial (by simp) (by simp)
  | bool => intro x h; cases h; exact .scalar trivial (by simp) (by simp)
  | anyUrl => intro x h; cases h <;> exact .scalar trivial (by simp) (by simp)
  | httpUrl => intro x h; cases h; exact .scalar trivial (by simp) (by simp)
  | email _ => intro x h; rw [rep_str h]; exact .scalar trivial (by simp) (by simp)
  | processors => intro x h; cases h; exact .scalar trivial (by simp) (by simp)
  | litStr _ => intro x h; rw [rep_str h]; exact .scalar trivial (by simp) (by simp)
  | litInt _ => intro x h; cases h; exact .scalar trivial (by simp) (by simp)
  | list _ ih =>
    intro x h
    obtain ⟨a, xs, rfl, ha, hlen, hx⟩ := rep_list h
    refine .list ha fun y hy => ?_
    obtain ⟨i, hi⟩ := List.mem_iff_getElem?.1 hy
    have hlt := (List.getElem?_eq_some_iff.1 hi).1
    obtain ⟨w, hw⟩ : ∃ w, _ = some w := ⟨_, List.getElem?_eq_getElem (show i < _ by rw [← hlen]; exact hlt)⟩
    exact ih w (List.mem_iff_getElem?.2 ⟨i, hw⟩) (hx i y w hi hw)
  | dict _ ih =>
    intro x h
    obtain ⟨a, kvs, rfl, ha, hp⟩ := rep_dict h
    refine .dict ha fun y hy => ?_
    obtain ⟨w, hw, hr⟩ := hp.down (k := y.1) (x := y.2) hy
    exact ih _ hw hr
  | union ht _ ih => intro x h; exact .union ht (ih h)
  | model _ _ _ _ =>
    intro x h
    obtain ⟨a, gs, hs, rfl, ha, -, -⟩ := rep_inst h
    exact .model ha

theorem data_within {v w : V} (h : Data v) (hw : Within w v) : Data w := by
  induction hw with
  | refl => exact h
  | item hv _ ih => cases h with | list h => exact ih (h _ hv)
  | entry hv _ ih => cases h with | dict h => exact ih (h _ hv)
  | field hv _ ih => cases h
  | extra hv _ ih => cases h

theorem dataExtras_of_data {v : V} (h : Data v) : DataExtras v := by
  induction h with
  | list _ ih => exact .list ih
  | dict _ ih => exact .dict ih
  | none => exact .none
  | bool => exact .bool
  | int => exact .int
  | float => exact .float
  | str => exact .str
  | url => exact .url
  | proc => exact .proc

theorem dataExtras_within {v w : V} (h : DataExtras v) (hw : Within w v) : DataExtras w := by
  induction hw with
  | refl => exact h
  | item hv _ ih => cases h with | list h => exact ih (h _ hv)
  | entry hv _ ih => cases h with | dict h => exact ih (h _ hv)
  | field hv _ ih => cases h with | inst h _ => exact ih (h _ hv)
  | extra hv hw ih => cases h with | inst _ h => exact dataExtras_of_data (data_within (h _ hv) hw)

theorem represents_typed {c fs ex set} (h : Depicts D (.inst c fs ex set)) (hc : c = .AsyncAPI3)
    (hs : Sound U limit (.inst c fs ex set)) (he : DataExtras (.inst c fs ex set)) : Typed D := by
  subst hc
  have key : ∀ a, ∃ w, Sound U limit w ∧ DataExtras w ∧ Rep D (.ptr a) w := fun a => by
    obtain ⟨w, hw, hr⟩ := h.2 a
    exact ⟨w, sound_within hs hw, dataExtras_within he hw, hr⟩
  refine ⟨represents_wf h hs, ?_, ?_, ?_, ?_, ?_⟩
  · obtain ⟨a, gs, hs', ha, hn, -, -⟩ := rep_inst h.1
    cases ha
    exact ⟨gs, hs', hn⟩
  · intro a c gs hs' ha f hf x hx
    obtain ⟨w, hw, -, hr⟩ := key a
    obtain ⟨fs', ex', set', rfl, hp, -⟩ := rep_of_model hr ha
    obtain ⟨v, hv, hrv⟩ := hp.down hx
    exact fits_of_valid (valid_field (sound_inst hw) hf hv) hrv
  · intro a c gs hs' ha k x hx
    obtain ⟨w, hw, -, hr⟩ := key a
    obtain ⟨fs', ex', set', rfl, hp, -⟩ := rep_of_model hr ha
    obtain ⟨v, hv, hrv⟩ := hp.down hx
    have : k ∈ fs'.map (·.1) := List.mem_map.2 ⟨_, hv, rfl⟩
    rw [valid_names (sound_inst hw)] at this
    obtain ⟨f, hf, e⟩ := List.mem_map.1 this
    exact ⟨f, hf, e⟩
  · intro a c gs hs' ha hk
    obtain ⟨w, hw, -, hr⟩ := key a
    obtain ⟨fs', ex', set', rfl, -, hp⟩ := rep_of_model hr ha
    have hx : ex' = [] := by
      cases sound_inst hw with | model _ _ hc => exact hc.closed hk
    subst hx
    have := hp.1
    simpa using this
  · intro a c gs hs' ha k x hx s hsx
    obtain ⟨w, -, hd, hr⟩ := key a
    obtain ⟨fs', ex', set', rfl, -, hp⟩ := rep_of_model hr ha
    obtain ⟨v, hv, hrv⟩ := hp.down hx
    obtain ⟨b, c', gs', hs'', rfl, hb, -, -⟩ := hsx
    obtain ⟨_, _, _, rfl, -, -⟩ := rep_of_model hrv hb
    cases hd with | inst _ hd => cases hd _ hv

/-! ### The shape the factories rely on -/

/-- `X | None` with a patterned class `X`. -/
def isCollection : Ty Cls → Bool
  | .union [.model c, .none] => (classDef c).kind == .patterned
  | _ => false

/-- The declared field a factory leads to. -/
def homeField (f : Factory) : Option (FieldDef Cls) :=
  match home f with
  | .inl a => (classDef .AsyncAPI3).fields.find? (·.name == a)
  | .inr a => (classDef .Components).fields.find? (·.name == a)

theorem home_table : Factory.all.all (fun f => match homeField f with
    | some g => isCollection g.ty
    | none => false) = true := by decide +kernel

theorem Factory.mem_all (f : Factory) : f ∈ Factory.all := by cases f <;> decide

theorem extension_start {U : Uni} {k : Str} (h : OrNewline (ExtensionForm U) k) : ∃ r, k = 'x' :: r := by
  rcases h with ⟨r, e, _⟩ | ⟨k', rfl, r, e, _⟩
  · exact ⟨_, e⟩
  · rw [e]; exact ⟨_, rfl⟩

theorem no_root {c fs ex set} (h : Valid U limit (.inst c fs ex set) (.model c)) (hc : c = .AsyncAPI3 ∨ c = .Components)
    (w : V) : (p!"root", w) ∉ fs ∧ (p!"root", w) ∉ ex := by
  constructor
  · intro hm
    have : p!"root" ∈ fs.map (·.1) := List.mem_map.2 ⟨_, hm, rfl⟩
    rw [valid_names h] at this
    rcases hc with rfl | rfl <;> revert this <;> decide +kernel
  · intro hm
    cases h with
    | model _ _ hcons =>
      have hk : (classDef c).kind = .extendable := by rcases hc with rfl | rfl <;> rfl
      obtain ⟨r, hr⟩ := extension_start (hcons.extensions hk _ hm)
      cases hr

theorem nullable_valid {v : V} {c : Cls} (h : Valid U limit v (.union [.model c, .none])) :
    v = .none ∨ ∃ fs ex set, v = .inst c fs ex set ∧ Valid U limit (.inst c fs ex set) (.model c) := by
  cases h with
  | union ht hv =>
    simp only [List.mem_cons, List.not_mem_nil, or_false] at ht
    rcases ht with rfl | rfl
    · cases hv with | model h1 h2 h3 => exact .inr ⟨_, _, _, rfl, .model h1 h2 h3⟩
    · cases hv; exact .inl rfl

/-- A valid patterned instance holds a dict. -/
theorem patterned_dict {c fs ex set} (hk : (classDef c).kind = .patterned) (h : Valid U limit (.inst c fs ex set) (.model c)) :
    ∃ d, (p!"root", .dict d) ∈ fs := by
  obtain ⟨t, hf⟩ := patterned_root c hk
  have hn := valid_names h
  rw [hf] at hn
  have hm : p!"root" ∈ fs.map (·.1) := by rw [hn]; exact List.mem_cons_self
  obtain ⟨⟨k, v⟩, he, hkk⟩ := List.mem_map.1 hm
  simp only at hkk
  subst hkk
  have := valid_field h (f := ⟨p!"root", none, .dict t, .required, false, false, none⟩) (by rw [hf]; exact List.mem_cons_self) he
  cases this with | dict => exact ⟨_, he⟩

theorem represents_shape {c fs ex set} (h : Depicts D (.inst c fs ex set)) (hc : c = .AsyncAPI3)
    (hs : Sound U limit (.inst c fs ex set)) : Shape D := by
  subst hc
  have key : ∀ a, ∃ w, Sound U limit w ∧ Rep D (.ptr a) w := fun a => by
    obtain ⟨w, hw, hr⟩ := h.2 a
    exact ⟨w, sound_within hs hw, hr⟩
  have collOk : ∀ (f : Factory) (g : FieldDef Cls), homeField f = some g → ∀ a c gs hs', D.node a = .model c gs hs' →
      g ∈ (classDef c).fields → ∀ x, (g.name, x) ∈ gs → x = .none ∨ ∃ b kvs, x = .ptr b ∧ RootDict D b kvs := by
    intro f g hg a c gs hs' ha hgc x hx
    obtain ⟨w, hw, hr⟩ := key a
    obtain ⟨fs', ex', set', rfl, hp, -⟩ := rep_of_model hr ha
    obtain ⟨v, hv, hrv⟩ := hp.down hx
    have hval := valid_field (sound_inst hw) hgc hv
    have ht := List.all_eq_true.1 home_table f (Factory.mem_all f)
    simp only [hg] at ht
    unfold isCollection at ht
    split at ht
    · rename_i c' hty
      rw [hty] at hval
      rcases nullable_valid hval with rfl | ⟨fs2, ex2, set2, rfl, hv2⟩
      · left; exact rep_none.1 hrv
      · right
        obtain ⟨b, gs2, hs2, rfl, hb, hp2, -⟩ := rep_inst hrv
        obtain ⟨d, hd⟩ := patterned_dict (by simpa using ht) hv2
        obtain ⟨y, hy, hry⟩ := hp2.up hd
        obtain ⟨b', kvs, rfl, hb', -⟩ := rep_dict hry
        exact ⟨b, kvs, rfl, c', gs2, hs2, b', hb, hb', .inl hy⟩
    · cases ht
  refine ⟨?_, ?_, ?_, ?_⟩
  · obtain ⟨a, gs, hs', ha, hn, -, -⟩ := rep_inst h.1
    cases ha
    exact ⟨gs, hs', hn⟩
  · intro gs hs' x ha hx
    obtain ⟨w, hw, hr⟩ := key D.spec
    obtain ⟨fs', ex', set', rfl, hp, -⟩ := rep_of_model hr ha
    obtain ⟨v, hv, hrv⟩ := hp.down hx
    have hval := valid_field (sound_inst hw) (f := defAsyncAPI3.fields[7]) (List.mem_of_getElem (i := 7) rfl) hv
    rcases nullable_valid hval with rfl | ⟨fs2, ex2, set2, rfl, -⟩
    · left; exact rep_none.1 hrv
    · obtain ⟨b, gs2, hs2, rfl, hb, -, -⟩ := rep_inst hrv
      exact .inr ⟨b, gs2, hs2, rfl, hb⟩
  · intro f x hx
    have hh : ∃ g, homeField f = some g := by
      have ht := List.all_eq_true.1 home_table f (Factory.mem_all f)
      cases hg : homeField f with
      | none => simp [hg] at ht
      | some g => exact ⟨g, rfl⟩
    obtain ⟨g, hg⟩ := hh
    have hg' := hg
    unfold homeField at hg'
    generalize home f = hm at hx hg'
    cases hx with
    | root ha hm =>
      have hmem := List.mem_of_find?_eq_some hg'
      have hname := List.find?_some hg'
      simp only [beq_iff_eq] at hname
      exact collOk f g hg _ _ _ _ ha hmem x (by rw [hname]; exact hm)
    | comp _ _ hb hm =>
      have hmem := List.mem_of_find?_eq_some hg'
      have hname := List.find?_some hg'
      simp only [beq_iff_eq] at hname
      exact collOk f g hg _ _ _ _ hb hmem x (by rw [hname]; exact hm)
  · intro a c gs hs' ha hc kvs hroot
    obtain ⟨w, hw, hr⟩ := key a
    obtain ⟨fs', ex', set', rfl, hp, hq⟩ := rep_of_model hr ha
    obtain ⟨c2, gs2, hs2, b, ha2, hb, hx⟩ := hroot
    rw [ha] at ha2
    cases ha2
    rcases hx with hx | ⟨-, hx⟩
    · obtain ⟨v, hv, -⟩ := hp.down hx
      exact (no_root (sound_inst hw) hc v).1 hv
    · obtain ⟨v, hv, -⟩ := hq.down hx
      exact (no_root (sound_inst hw) hc v).2 hv
