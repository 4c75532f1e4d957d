import Verif.Model.Attr
import Verif.Proofs.Basic

/-!
# C37: attribute and mechanism names resolve correctly
-/

namespace Kry

theorem getD_eq_getElem' {α : Type} [Inhabited α] (l : List α) {i : Nat} (h : i < l.length) :
    l.getD i default = l[i] := by
  simp [List.getD, List.getElem?_eq_getElem h]

/-- Strictly increasing keys. -/
def StrictSorted : List (Nat × AttrType) → Prop
  | [] => True
  | [_] => True
  | a :: b :: l => a.1 < b.1 ∧ StrictSorted (b :: l)

instance : ∀ l, Decidable (StrictSorted l)
  | [] => isTrue trivial
  | [_] => isTrue trivial
  | a :: b :: l => by
    unfold StrictSorted
    have := instDecidableStrictSorted (b :: l)
    infer_instance

theorem StrictSorted.tail {a : Nat × AttrType} {l : List (Nat × AttrType)} (h : StrictSorted (a :: l)) :
    StrictSorted l := by
  cases l with
  | nil => trivial
  | cons b l => exact h.2

theorem StrictSorted.head_lt {a : Nat × AttrType} : ∀ {l : List (Nat × AttrType)}, StrictSorted (a :: l) →
    ∀ b ∈ l, a.1 < b.1
  | [], _, b, hb => by cases hb
  | c :: l, h, b, hb => by
    rcases List.mem_cons.mp hb with e | e
    · rw [e]; exact h.1
    · have h2 : StrictSorted (a :: l) := by
        cases l with
        | nil => trivial
        | cons d l => exact ⟨Nat.lt_trans h.1 h.2.1, h.2.2⟩
      exact StrictSorted.head_lt h2 b e

theorem sorted_mono {l : List (Nat × AttrType)} (h : StrictSorted l) : ∀ {i j : Nat}, i < j → j < l.length →
    (l.getD i default).1 < (l.getD j default).1 := by
  induction l with
  | nil => intro i j _ hj; simp at hj
  | cons a l ih =>
    intro i j hij hj
    cases j with
    | zero => omega
    | succ j =>
      have hj' : j < l.length := by simpa using hj
      cases i with
      | zero =>
        have hm : l.getD j default ∈ l := by
          rw [getD_eq_getElem' _ hj']; exact List.getElem_mem hj'
        simpa using h.head_lt _ hm
      | succ i => simpa using ih h.tail (by omega) hj'

/-- The loop keeps the position of `id` (if any) inside the searched part. -/
theorem bsLoop_spec {l : List (Nat × AttrType)} (hs : StrictSorted l) (id k : Nat) (hk : k < l.length)
    (hid : (l.getD k default).1 = id) : ∀ fuel base size, size ≤ fuel + 1 → base + size ≤ l.length →
      base ≤ k → k < base + size → bsLoop l id fuel base size = k := by
  intro fuel
  induction fuel with
  | zero => intro base size h1 _ h3 h4; simp [bsLoop]; omega
  | succ fuel ih =>
    intro base size h1 h2 h3 h4
    unfold bsLoop
    split
    · rename_i hgt
      simp only
      split
      · rename_i hc
        have : k < base + size / 2 := by
          rcases Nat.lt_or_ge k (base + size / 2) with h | h
          · exact h
          · exfalso
            rcases Nat.eq_or_lt_of_le h with e | e
            · rw [e, hid] at hc; omega
            · have := sorted_mono hs e hk; rw [hid] at this; omega
        apply ih <;> omega
      · rename_i hc
        have : base + size / 2 ≤ k := by
          rcases Nat.lt_or_ge k (base + size / 2) with h | h
          · exfalso
            have := sorted_mono hs h (by omega)
            rw [hid] at this; omega
          · exact h
        apply ih <;> omega
    · omega

theorem bsLoop_lt {l : List (Nat × AttrType)} (id : Nat) : ∀ fuel base size, 0 < size →
    base + size ≤ l.length → bsLoop l id fuel base size < l.length := by
  intro fuel
  induction fuel with
  | zero => intro base size h1 h2; simp [bsLoop]; omega
  | succ fuel ih =>
    intro base size h1 h2
    unfold bsLoop
    split
    · simp only
      split
      · apply ih <;> omega
      · apply ih <;> omega
    · omega

/-- The binary search over a strictly sorted table finds exactly the entries of the table. -/
theorem searchById_iff {l : List (Nat × AttrType)} (hs : StrictSorted l) (id : Nat) (t : AttrType) :
    searchById l id = some (id, t) ↔ (id, t) ∈ l := by
  unfold searchById
  split
  · rename_i h0
    have : l = [] := List.length_eq_zero_iff.mp h0
    subst this; simp
  · rename_i h0
    simp only
    constructor
    · intro h
      split at h
      · injection h with h
        rw [← h]
        have hlt := bsLoop_lt (l := l) id l.length 0 l.length (by omega) (by omega)
        rw [getD_eq_getElem' _ hlt]; exact List.getElem_mem hlt
      · cases h
    · intro h
      obtain ⟨k, hk, he⟩ := List.getElem_of_mem h
      have hg : l.getD k default = (id, t) := by rw [getD_eq_getElem' _ hk]; exact he
      have := bsLoop_spec hs id k hk (by rw [hg]) l.length 0 l.length (by omega) (by omega) (by omega) (by omega)
      rw [this, hg]; simp

theorem searchById_fst {l : List (Nat × AttrType)} {id : Nat} {e : Nat × AttrType}
    (h : searchById l id = some e) : e.1 = id := by
  unfold searchById at h
  split at h
  · cases h
  · simp only at h
    split at h
    · rename_i hc; injection h with h; rw [← h]; exact hc
    · cases h

theorem attrMap_sorted : StrictSorted attrMap := by decide +kernel

/-- **C37.**  For every 64-bit (indeed every) number, the binary search over the attribute table answers
"type `t`" exactly when the table lists `(id, t)`, and "unknown" exactly when the table has no entry for
the number. -/
theorem C37_lookup_exact (id : Nat) :
    (∀ t, searchById attrMap id = some (id, t) ↔ (id, t) ∈ attrMap) ∧
    (searchById attrMap id = none ↔ ∀ t, (id, t) ∉ attrMap) := by
  have h := fun t => searchById_iff attrMap_sorted id t
  refine ⟨h, ?_⟩
  constructor
  · intro hn t ht
    rw [(h t).mpr ht] at hn; cases hn
  · intro hn
    cases hs : searchById attrMap id with
    | none => rfl
    | some e =>
      obtain ⟨i, t⟩ := e
      have : i = id := searchById_fst hs
      subst this
      exact absurd ((h t).mp hs) (hn t)

/-- The linear lookup that the rest of the model uses is the binary search of the code. -/
theorem C37_model_lookup_is_search (id : Nat) : attrKind id = (searchById attrMap id).map Prod.snd := by
  obtain ⟨h1, h2⟩ := C37_lookup_exact id
  unfold attrKind
  cases hs : searchById attrMap id with
  | none =>
    have := h2.mp hs
    cases hg : AMap.get attrMap id with
    | none => rfl
    | some t => exact absurd (AMap.get_mem hg) (this t)
  | some e =>
    obtain ⟨i, t⟩ := e
    have : i = id := searchById_fst hs
    subst this
    have hm := (h1 t).mp hs
    have key : ∀ (l : List (Nat × AttrType)), StrictSorted l → (i, t) ∈ l → AMap.get l i = some t := by
      intro l
      induction l with
      | nil => intro _ h; cases h
      | cons a l ih =>
        intro hsort hmem
        unfold AMap.get
        rcases List.mem_cons.mp hmem with e | e
        · subst e; simp
        · have := hsort.head_lt _ e
          rw [if_neg (by simp at this; omega)]
          exact ih hsort.tail e
    simp [key attrMap attrMap_sorted hm]

/-! Concrete cases: a listed and an unlisted number and name. -/

example : (CKA_SENSITIVE, AttrType.bool) ∈ attrMap ∧ searchById attrMap CKA_SENSITIVE = some (CKA_SENSITIVE, .bool) ∧
    searchById attrMap 0x7777 = none ∧ attrMap.length = 165 := by decide +kernel

end Kry
