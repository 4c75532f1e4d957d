import Verif.Model.NameLookup
import Verif.Proofs.NameCodes

/-!
# C37, second part: names of mechanisms, attributes and object classes
-/

namespace Kry

/-! ## Names -/

/-- Entries of `l` with code `c` all have value `v`. -/
def noClash (c v : Nat) : List (Nat × Nat) → Bool
  | [] => true
  | b :: l => match Nat.beq c b.1 with
    | true => Nat.beq v b.2 && noClash c v l
    | false => noClash c v l

/-- Equal codes have equal values. -/
def functionalL : List (Nat × Nat) → Bool
  | [] => true
  | a :: l => match noClash a.1 a.2 l with
    | true => functionalL l
    | false => false

theorem noClash_spec {c v : Nat} : ∀ {l : List (Nat × Nat)}, noClash c v l = true → ∀ b ∈ l, c = b.1 → v = b.2
  | [], _, b, hb, _ => by cases hb
  | x :: l, h, b, hb, e => by
    unfold noClash at h
    rcases List.mem_cons.mp hb with hx | hx
    · subst hx
      have : Nat.beq c b.1 = true := by rw [e]; exact Nat.beq_refl _
      rw [this] at h
      simp at h
      exact h.1
    · split at h
      · simp at h; exact noClash_spec h.2 b hx e
      · exact noClash_spec h b hx e

theorem functionalL_spec : ∀ {l : List (Nat × Nat)}, functionalL l = true → ∀ a ∈ l, ∀ b ∈ l, a.1 = b.1 → a.2 = b.2
  | [], _, a, ha, _, _, _ => by cases ha
  | x :: l, h, a, ha, b, hb, e => by
    unfold functionalL at h
    split at h
    · rename_i hc
      rcases List.mem_cons.mp ha with hx | hx <;> rcases List.mem_cons.mp hb with hy | hy
      · subst hx; subst hy; rfl
      · subst hx; exact noClash_spec hc b hy e
      · subst hy; exact (noClash_spec hc a hx e.symm).symm
      · exact functionalL_spec h a hx b hy e
    · cases h

theorem nameLookup_iff {tab : List (Nat × String)}
    (h : functionalL (tab.map fun e => (nameCode e.2, e.1)) = true) (id : Nat) (name : String) :
    nameLookup tab name = .ok id ↔ (id, name) ∈ tab := by
  unfold nameLookup
  constructor
  · intro hl
    split at hl
    · rename_i e he
      injection hl with hl
      have h1 := List.mem_of_find?_eq_some he
      have h2 := List.find?_some he
      simp at h2
      rw [← hl, ← h2]; exact h1
    · cases hl
  · intro hm
    cases hf : tab.find? (fun e => e.2 == name) with
    | none => have := List.find?_eq_none.mp hf _ hm; simp at this
    | some e =>
      have h1 := List.mem_of_find?_eq_some hf
      have h2 := List.find?_some hf
      simp at h2
      have := functionalL_spec h (nameCode e.2, e.1) (List.mem_map.mpr ⟨e, h1, rfl⟩) (nameCode name, id)
        (List.mem_map.mpr ⟨(id, name), hm, rfl⟩) (by simp [h2])
      simp at this
      simp [this]

set_option maxRecDepth 20000 in
theorem mechCodes_eq : (mechNames.map fun e => (nameCode e.2, e.1)) = mechNamesCodes := by decide +kernel
set_option maxRecDepth 20000 in
theorem attrCodes_eq : (attrNames.map fun e => (nameCode e.2, e.1)) = attrNamesCodes := by decide +kernel
theorem objCodes_eq : (objNames.map fun e => (nameCode e.2, e.1)) = objNamesCodes := by decide +kernel

/-- **C37 (names).**  For every string, the mechanism, attribute and object-class name lookups succeed
exactly when the table lists the name, with the number listed; otherwise they report an error. -/
theorem C37_names_exact (name : String) (id : Nat) :
    (nameLookup mechNames name = .ok id ↔ (id, name) ∈ mechNames) ∧
    (nameLookup attrNames name = .ok id ↔ (id, name) ∈ attrNames) ∧
    (nameLookup objNames name = .ok id ↔ (id, name) ∈ objNames) :=
  ⟨nameLookup_iff (by rw [mechCodes_eq]; decide +kernel) id name,
   nameLookup_iff (by rw [attrCodes_eq]; decide +kernel) id name,
   nameLookup_iff (by rw [objCodes_eq]; decide +kernel) id name⟩

/-! A listed and an unlisted name. -/

example : nameLookup mechNames "CKM_RSA_PKCS" = .ok CKM_RSA_PKCS ∧
    nameLookup mechNames "CKM_NOPE" = .error .argumentsBad := by decide +kernel

end Kry
