import Verif.Spec.Encoding
import Verif.Proofs.Basic
import Verif.Props.C37

/-!
# C36: attribute values convert losslessly
-/

namespace Kry
open Spec

theorem allDigits_iff (v : Bytes) : allDigits v = true ↔ ∀ b ∈ v, 48 ≤ b.toNat ∧ b.toNat ≤ 57 := by
  simp [allDigits, List.all_eq_true]

theorem toUlongArray_ok (a : Attr) (h1 : a.atype = .ulongArray) (h2 : a.value.length % 8 = 0) :
    a.toUlongArray = .ok (chunks8 a.value) := by
  simp [Attr.toUlongArray, h1, h2, ulongSize]

/-- **C36, rejection.**  A buffer passed for a known attribute type is accepted exactly when it is a
well formed value of that type; in particular malformed input is rejected, never altered. -/
theorem C36_accepted_iff_well_formed (t : Nat) (k : AttrType) (v : Bytes) (hk : attrKind t = some k) :
    (∃ a, Attr.fromCk ⟨t, .data v⟩ = .ok a) ↔ WellFormed k v := by
  unfold Attr.fromCk
  simp only [hk]
  cases k
  · -- bool
    simp only [CkAttr.toBool, PVal.len, WellFormed]
    by_cases h : v.length = 1 <;> simp [h]
  · simp only [CkAttr.toUlong, PVal.len, WellFormed, ulongSize]
    by_cases h : v.length = 8 <;> simp [h]
  · simp only [CkAttr.toStr, PVal.len, WellFormed]
    by_cases h : v.length = 0
    · have : v = [] := List.length_eq_zero_iff.mp h
      subst this; simp [validUtf8]
    · by_cases h2 : validUtf8 v = true <;> simp [h, h2]
  · simp [WellFormed]
  · simp [WellFormed]
  · simp only [CkAttr.toDate, PVal.len, WellFormed, vecToDate]
    by_cases h : v.length = 0
    · have : v = [] := List.length_eq_zero_iff.mp h
      subst this; simp
    · have hne : v ≠ [] := fun e => h (by rw [e]; rfl)
      by_cases h8 : v.length = 8
      · by_cases hd : allDigits v = true
        · have := (allDigits_iff v).mp hd
          simp [h8, hd, hne]; exact this
        · have : ¬ ∀ b ∈ v, 48 ≤ b.toNat ∧ b.toNat ≤ 57 := fun hh => hd ((allDigits_iff v).mpr hh)
          simp [h8, hd, hne]
          simpa using this
      · simp [h, h8, hne]
  · simp [WellFormed]
  · simp [WellFormed]

/-- **C36, losslessness (partial).**  What is kept of an accepted buffer has the attribute's type and
kind and denotes the same value.

Missing with respect to C36: the empty date, which the code turns into the text "00000000"
(`C36_empty_date_is_altered`). -/
theorem C36_value_kept_partial (t : Nat) (k : AttrType) (v : Bytes) (a : Attr) (hk : attrKind t = some k)
    (hd : ¬ (k = .date ∧ v = [])) (h : Attr.fromCk ⟨t, .data v⟩ = .ok a) :
    a.typ = t ∧ a.atype = k ∧ SameValue k v a.value := by
  unfold Attr.fromCk at h
  simp only [hk] at h
  cases k
  · simp only [CkAttr.toBool, PVal.len] at h
    by_cases hl : v.length = 1
    · simp [hl] at h
      match v, hl with
      | [b], _ =>
        subst h
        refine ⟨rfl, rfl, b, _, rfl, rfl, ?_⟩
        by_cases hb : b = 0 <;> simp [hb]
    · simp [hl] at h
  · simp only [CkAttr.toUlong, PVal.len, ulongSize] at h
    by_cases hl : v.length = 8
    · simp [hl] at h
      subst h
      exact ⟨rfl, rfl, (ulongBytes_fromLE v hl).symm⟩
    · simp [hl] at h
  · simp only [CkAttr.toStr, PVal.len] at h
    by_cases hl : v.length = 0
    · have e : v = [] := List.length_eq_zero_iff.mp hl
      subst e; simp at h; subst h; exact ⟨rfl, rfl, rfl⟩
    · by_cases h2 : validUtf8 v = true
      · simp [hl, h2] at h; subst h; exact ⟨rfl, rfl, rfl⟩
      · simp [hl, h2] at h
  · simp [CkAttr.toBuf] at h; subst h; exact ⟨rfl, rfl, rfl⟩
  · simp [CkAttr.toBuf] at h; subst h; exact ⟨rfl, rfl, rfl⟩
  · simp only [CkAttr.toDate, PVal.len, vecToDate] at h
    by_cases hl : v.length = 0
    · exact absurd ⟨rfl, List.length_eq_zero_iff.mp hl⟩ hd
    · by_cases h8 : v.length = 8
      · by_cases h2 : allDigits v = true
        · simp [h8, h2] at h; subst h; exact ⟨rfl, rfl, rfl⟩
        · simp [h8, h2] at h
      · simp [hl, h8] at h
  · cases h
  · simp at h; subst h; exact ⟨rfl, rfl, rfl⟩

/-- The stored form converts back to the value that was converted, for every value of every kind the
code reads: booleans, numbers below 2^64, text, byte strings, arrays of numbers, dates. -/
theorem C36_round_trips (t : Nat) :
    (∀ b, (Attr.ofBool t b).toBool = .ok b) ∧
    (∀ n, n < 2 ^ 64 → (Attr.ofUlong t n).toUlong = .ok n) ∧
    (∀ s, validUtf8 s = true → (Attr.ofString t s).toStr = .ok s) ∧
    (∀ v, (Attr.ofBytes t v).toBytes = .ok v) ∧
    (∀ l : List Nat, (∀ n ∈ l, n < 2 ^ 64) → (Attr.ofUlongArray t l).toUlongArray = .ok l) ∧
    (∀ d, d.length = 8 → (∀ b ∈ d, 48 ≤ b.toNat ∧ b.toNat ≤ 57) →
      ∃ s, (Attr.ofDate t d).toDateString = .ok s ∧ stringToDate s = .ok d) := by
  refine ⟨fun b => toBool_ofBool t b, fun n h => toUlong_ofUlong t n h, ?_, ?_, ?_, ?_⟩
  · intro s h; simp [Attr.toStr, Attr.ofString, h]
  · intro v; simp [Attr.toBytes, Attr.ofBytes]
  · intro l h
    have hlen : (l.flatMap ulongBytes).length % 8 = 0 := by
      clear h
      induction l with
      | nil => rfl
      | cons n l ih => simp only [List.flatMap_cons, List.length_append, ulongBytes_length]; omega
    have hc : ∀ l : List Nat, (∀ n ∈ l, n < 2 ^ 64) → chunks8 (l.flatMap ulongBytes) = l := by
      intro l
      induction l with
      | nil => intro _; rfl
      | cons n l ih =>
        intro h
        have h1 := fromLE_ulongBytes n (h n (List.mem_cons_self ..))
        have h2 := ih (fun m hm => h m (List.mem_cons_of_mem _ hm))
        simp only [List.flatMap_cons]
        match hu : ulongBytes n, ulongBytes_length n with
        | [b0, b1, b2, b3, b4, b5, b6, b7], _ =>
          simp only [List.cons_append, List.nil_append, chunks8, h2]
          rw [← hu, h1]
    rw [toUlongArray_ok _ rfl hlen]
    exact congrArg Except.ok (hc l h)
  · intro d h8 hd
    have hall := (allDigits_iff d).mpr hd
    match d, h8 with
    | [y0, y1, y2, y3, m0, m1, d0, d1], _ =>
      refine ⟨_, rfl, ?_⟩
      simp [stringToDate, vecToDate, hall]

/-- And the other direction: an array of whole numbers is read completely, no byte lost. -/
theorem C36_array_read_complete (t : Nat) (v : Bytes) (l : List Nat)
    (h : (Attr.ofUlongBytes t v).toUlongArray = .ok l) : l.flatMap ulongBytes = v := by
  by_cases hm : v.length % 8 = 0
  · rw [toUlongArray_ok _ rfl hm] at h
    · injection h with h
      subst h
      show (chunks8 v).flatMap ulongBytes = v
      clear t
      have : ∀ n (v : Bytes), v.length = 8 * n → (chunks8 v).flatMap ulongBytes = v := by
        intro n
        induction n with
        | zero => intro v hv; have := List.length_eq_zero_iff.mp hv; subst this; rfl
        | succ n ih =>
          intro v hv
          match v, hv with
          | b0 :: b1 :: b2 :: b3 :: b4 :: b5 :: b6 :: b7 :: rest, hv =>
            simp only [chunks8, List.flatMap_cons, ulongBytes_fromLE _ (rfl : [b0, b1, b2, b3, b4, b5, b6, b7].length = 8)]
            rw [ih rest (by simp at hv; omega)]; rfl
      exact this (v.length / 8) v (by omega)
  · simp [Attr.toUlongArray, Attr.ofUlongBytes, ulongSize, hm] at h

/-! ## The hypotheses are met -/

example : attrKind CKA_ENCRYPT = some .bool ∧ attrKind CKA_VALUE_LEN = some .num ∧
    attrKind CKA_LABEL = some .string ∧ attrKind CKA_VALUE = some .bytes ∧
    attrKind CKA_ALLOWED_MECHANISMS = some .ulongArray ∧ attrKind CKA_START_DATE = some .date := by
  decide +kernel

example : Attr.fromCk ⟨CKA_ENCRYPT, .data [255]⟩ = .ok (Attr.ofBool CKA_ENCRYPT true) ∧
    Attr.fromCk ⟨CKA_START_DATE, .data [50, 48, 50, 54, 49, 49, 49, 54]⟩
      = .ok (Attr.ofDate CKA_START_DATE [50, 48, 50, 54, 49, 49, 49, 54]) ∧
    Attr.fromCk ⟨CKA_START_DATE, .data [50, 48, 50, 54, 49, 49, 49, 64]⟩ = .error .attrValueInvalid ∧
    Attr.fromCk ⟨CKA_VALUE_LEN, .data [1, 2]⟩ = .error .attrValueInvalid := by decide +kernel

/-- **C36 is violated by the empty date**: the application passes an empty CKA_START_DATE (PKCS#11:
"no date") and reads back the eight characters "00000000" (`src/pkcs11/mod.rs:988-996`). -/
theorem C36_empty_date_is_altered : attrKind CKA_START_DATE = some .date ∧ WellFormed .date [] ∧
    Attr.fromCk ⟨CKA_START_DATE, .data []⟩
      = .ok (Attr.ofDate CKA_START_DATE [48, 48, 48, 48, 48, 48, 48, 48]) := by
  refine ⟨by decide +kernel, Or.inl rfl, by decide +kernel⟩

/-- A NULL pointer given with the right length for a boolean or a number is dereferenced instead of
rejected (`src/pkcs11/mod.rs:915-935`): the process dies. -/
theorem C36_null_value_crashes (t : Nat) :
    (attrKind t = some .bool → Attr.fromCk ⟨t, .null 1⟩ = .error .panic) ∧
    (attrKind t = some .num → Attr.fromCk ⟨t, .null 8⟩ = .error .panic) := by
  constructor <;> intro h <;> simp [Attr.fromCk, h, CkAttr.toBool, CkAttr.toUlong, PVal.len]

end Kry
