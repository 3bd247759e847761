import Verif.Spec.Refs
import Verif.Lemmas.WFCheck
/-! A decidable sufficient check for `Spec.Typed`, for concrete documents. -/
namespace Verif
open Verif.Spec Verif.Gen
variable {n : Nat}

mutual
/-- Sufficient check for `Fits`. -/
def fitsB (D : Doc Cls n) : Ty Cls → Val n → Bool
  | .any, _ => true
  | .none, v => decide (v = .none)
  | .str, v => match v with | .str _ => true | _ => false
  | .int, v | .bool, v | .anyUrl, v | .httpUrl, v | .email, v | .processors, v | .lit _, v =>
    match v with | .str _ => true | .atom _ => true | _ => false
  | .list t, v => match v with
    | .ptr a => match D.node a with
      | .list xs => xs.all (fitsB D t)
      | _ => false
    | _ => false
  | .dict t, v => match v with
    | .ptr a => match D.node a with
      | .dict kvs => kvs.all fun p => fitsB D t p.2
      | _ => false
    | _ => false
  | .model c, v => match v with
    | .ptr a => match D.node a with
      | .model c' _ _ => decide (c' = c)
      | _ => false
    | _ => false
  | .union ts, v => fitsAnyB D ts v
def fitsAnyB (D : Doc Cls n) : List (Ty Cls) → Val n → Bool
  | [], _ => false
  | t :: ts, v => fitsB D t v || fitsAnyB D ts v
end

mutual
theorem fitsB_sound {D : Doc Cls n} : ∀ (t : Ty Cls) (v : Val n), fitsB D t v = true → Fits D t v
  | .any, v, _ => .any
  | .none, v, h => by simp [fitsB] at h; subst h; exact .none
  | .str, v, h => by cases v <;> simp [fitsB] at h; exact .str
  | .int, v, h => by cases v <;> simp [fitsB] at h <;> exact .scalar trivial (by simp) (by simp)
  | .bool, v, h => by cases v <;> simp [fitsB] at h <;> exact .scalar trivial (by simp) (by simp)
  | .anyUrl, v, h => by cases v <;> simp [fitsB] at h <;> exact .scalar trivial (by simp) (by simp)
  | .httpUrl, v, h => by cases v <;> simp [fitsB] at h <;> exact .scalar trivial (by simp) (by simp)
  | .email, v, h => by cases v <;> simp [fitsB] at h <;> exact .scalar trivial (by simp) (by simp)
  | .processors, v, h => by cases v <;> simp [fitsB] at h <;> exact .scalar trivial (by simp) (by simp)
  | .lit _, v, h => by cases v <;> simp [fitsB] at h <;> exact .scalar trivial (by simp) (by simp)
  | .list t, v, h => by
    cases v <;> simp only [fitsB] at h <;> try cases h
    split at h
    · rename_i hn
      rw [List.all_eq_true] at h
      exact .list hn fun x hx => fitsB_sound t x (h x hx)
    · cases h
  | .dict t, v, h => by
    cases v <;> simp only [fitsB] at h <;> try cases h
    split at h
    · rename_i hn
      rw [List.all_eq_true] at h
      exact .dict hn fun p hp => fitsB_sound t p.2 (h p hp)
    · cases h
  | .model c, v, h => by
    cases v <;> simp only [fitsB] at h <;> try cases h
    split at h
    · rename_i hn
      have := of_decide_eq_true h; subst this
      exact .model hn
    · cases h
  | .union ts, v, h => by
    simp only [fitsB] at h
    obtain ⟨t, ht, hf⟩ := fitsAnyB_sound ts v h
    exact .union ht hf
theorem fitsAnyB_sound {D : Doc Cls n} : ∀ (ts : List (Ty Cls)) (v : Val n), fitsAnyB D ts v = true →
    ∃ t ∈ ts, Fits D t v
  | [], v, h => by simp [fitsAnyB] at h
  | t :: ts, v, h => by
    simp only [fitsAnyB, Bool.or_eq_true] at h
    rcases h with h | h
    · exact ⟨t, by simp, fitsB_sound t v h⟩
    · obtain ⟨t', h1, h2⟩ := fitsAnyB_sound ts v h
      exact ⟨t', by simp [h1], h2⟩
end

/-- Sufficient check of one node. -/
def nodeTypedB (D : Doc Cls n) : Node Cls n → Bool
  | .model c fs ex =>
    (classDef c).fields.all (fun f => fs.all fun p => !decide (p.1 = f.name) || fitsB D f.ty p.2) &&
    fs.all (fun p => (classDef c).fields.any fun f => decide (f.name = p.1)) &&
    ((classDef c).kind = .extendable || (classDef c).kind = .openExtra || ex.isEmpty) &&
    ex.all (fun p => match p.2 with | .ptr _ => false | _ => true)
  | _ => true

theorem typed_of_check {D : Doc Cls n} (h0 : ∀ a, nodeOk table (D.node a) = true)
    (h1 : (match D.node D.spec with | .model .AsyncAPI3 _ _ => true | _ => false) = true)
    (h2 : ∀ a, nodeTypedB D (D.node a) = true) : Typed D := by
  refine ⟨wf_of_check h0, ?_, ?_, ?_, ?_, ?_⟩
  · split at h1
    · rename_i fs ex h; exact ⟨fs, ex, h⟩
    · cases h1
  · intro a c fs ex e f hf v hv
    have := h2 a; rw [e] at this
    simp only [nodeTypedB, Bool.and_eq_true, List.all_eq_true] at this
    have := this.1.1.1 f hf _ hv
    simp at this
    exact fitsB_sound _ _ this
  · intro a c fs ex e k v hv
    have := h2 a; rw [e] at this
    simp only [nodeTypedB, Bool.and_eq_true, List.all_eq_true] at this
    have := this.1.1.2 _ hv
    simpa using this
  · intro a c fs ex e hk
    have := h2 a; rw [e] at this
    simp only [nodeTypedB, Bool.and_eq_true] at this
    have := this.1.2
    rcases hk with hk | hk <;> simpa [hk] using this
  · rintro a c fs ex e k v hv s ⟨b, _, _, _, rfl, _⟩
    have := h2 a; rw [e] at this
    simp only [nodeTypedB, Bool.and_eq_true, List.all_eq_true] at this
    have := this.2 _ hv
    simp at this

end Verif
