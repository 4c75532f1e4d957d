import Verif.Proofs.NssKeys

/-! Numbers and names of the objects of an NSS database. -/

namespace Kry

theorem digitsVal_append (a b : Bytes) (acc : Nat) :
    digitsVal acc (a ++ b) = (digitsVal acc a).bind fun n => digitsVal n b := by
  induction a generalizing acc with
  | nil => rfl
  | cons x a ih =>
    rw [List.cons_append, digitsVal, digitsVal]
    split
    · exact ih _
    · rfl

theorem digit_val (acc n : Nat) (h : n < 10) : digitsVal acc [UInt8.ofNat (n + 48)] = some (acc * 10 + n) := by
  have : (UInt8.ofNat (n + 48)).toNat = n + 48 := by
    rw [UInt8.toNat_ofNat']
    exact Nat.mod_eq_of_lt (by omega)
  rw [digitsVal, this, if_pos (by omega), digitsVal, Nat.add_sub_cancel]

theorem decimal_val (fuel n : Nat) (h : n < 10 ^ (fuel + 1)) : digitsVal 0 (decimal fuel n) = some n := by
  induction fuel generalizing n with
  | zero =>
    have hn : n < 10 := by simpa using h
    rw [decimal, Nat.mod_eq_of_lt hn, digit_val 0 n hn]
    simp
  | succ fuel ih =>
    rw [decimal]
    split
    · rename_i hn
      rw [digit_val 0 n hn]
      simp
    · have h1 : n / 10 < 10 ^ (fuel + 1) := Nat.div_lt_of_lt_mul (by rw [← Nat.pow_succ']; exact h)
      rw [digitsVal_append, ih _ h1, Option.bind_some, digit_val _ _ (Nat.mod_lt _ (by omega))]
      congr 1
      omega

theorem decimal_digit (fuel n : Nat) : (∀ b ∈ decimal fuel n, 48 ≤ b.toNat ∧ b.toNat ≤ 57) ∧ decimal fuel n ≠ [] := by
  have one : ∀ n, n < 10 → 48 ≤ (UInt8.ofNat (n + 48)).toNat ∧ (UInt8.ofNat (n + 48)).toNat ≤ 57 := by
    intro n hn
    rw [UInt8.toNat_ofNat', Nat.mod_eq_of_lt (by omega)]
    omega
  induction fuel generalizing n with
  | zero =>
    rw [decimal]
    refine ⟨fun b hb => ?_, by simp⟩
    rw [List.mem_singleton.1 hb]
    exact one _ (Nat.mod_lt _ (by omega))
  | succ fuel ih =>
    rw [decimal]
    split
    · rename_i hn
      refine ⟨fun b hb => ?_, by simp⟩
      rw [List.mem_singleton.1 hb]
      exact one _ hn
    · refine ⟨fun b hb => ?_, by simp⟩
      rcases List.mem_append.1 hb with hb | hb
      · exact (ih _).1 b hb
      · rw [List.mem_singleton.1 hb]
        exact one _ (Nat.mod_lt _ (by omega))

theorem splitDash_none (l : Bytes) (h : ∀ b ∈ l, b ≠ 45) : splitDash l = [l] := by
  induction l with
  | nil => rfl
  | cons b l ih =>
    rw [splitDash, if_neg (h b (.head _)), ih fun c hc => h c (.tail _ hc)]

theorem splitDash_append (a r : Bytes) (h : ∀ b ∈ a, b ≠ 45) : splitDash (a ++ 45 :: r) = a :: splitDash r := by
  induction a with
  | nil => rw [List.nil_append, splitDash, if_pos rfl]
  | cons b a ih =>
    rw [List.cons_append, splitDash, if_neg (h b (.head _)), ih fun c hc => h c (.tail _ hc)]

/-- The name of an object leads back to its table and number. -/
theorem nssId_parse (t : NssTbl) (id : Nat) (h : id < 2 ^ 32) : nssIdParse (nssIdFormat t id) = .ok (t, id) := by
  have hd := decimal_digit 9 id
  have hp : parseU32 (decimal 9 id) = .ok id := by
    have hv := decimal_val 9 id (Nat.lt_trans h (by decide))
    cases hx : decimal 9 id with
    | nil => exact absurd hx hd.2
    | cons b l =>
      have hb := (hd.1 b (by rw [hx]; exact .head _)).1
      rw [hx] at hv
      unfold parseU32
      split
      · rename_i h1
        injection h1 with h1 _
        subst h1
        exact absurd hb (by decide)
      · simp only
        rw [if_neg (by simp), hv]
        simp only [if_pos h]
  have hs : splitDash (nssIdFormat t id) = [ascii "NSSID", t.name, decimal 9 id] := by
    unfold nssIdFormat
    rw [show ascii "NSSID-" = ascii "NSSID" ++ [45] from by decide +kernel, List.append_assoc, List.append_assoc, List.singleton_append,
      splitDash_append _ _ (by decide +kernel), splitDash_append _ _ (by cases t <;> decide +kernel), splitDash_none]
    intro b hb hc
    subst hc
    exact absurd (hd.1 _ hb).1 (by decide)
  unfold nssIdParse
  rw [hs]
  simp only [hp, ne_eq, not_true_eq_false, if_false]
  cases t
  · rw [if_pos rfl]
  · rw [if_neg (by decide +kernel), if_pos rfl]

theorem nssMaxId_none (rows : List (Nat × NssRow)) (id : Nat) (h : nssMaxId rows < id) : AMap.get rows id = none := by
  induction rows with
  | nil => rfl
  | cons p rows ih =>
    obtain ⟨i, r⟩ := p
    unfold nssMaxId at h
    rw [AMap.get, if_neg (by omega), ih (by omega)]

theorem nssFreeId_ok (rows : List (Nat × NssRow)) (fuel id n : Nat) (h : nssFreeId rows fuel id = .ok n) : AMap.get rows n = none ∧ n ≤ 0x3fffffff ∧ id ≤ n := by
  induction fuel generalizing id with
  | zero => cases h
  | succ fuel ih =>
    rw [nssFreeId] at h
    split at h
    · cases h
    · split at h
      · rename_i h1 h2
        injection h with h; subst h
        exact ⟨by simpa using h2, by omega, Nat.le_refl _⟩
      · obtain ⟨a, b, c⟩ := ih _ h
        exact ⟨a, b, by omega⟩

/-- A new number is positive, not taken, and small. -/
theorem nssNextId_ok (rows : List (Nat × NssRow)) (n : Nat) (h : nssNextId rows = .ok n) : AMap.get rows n = none ∧ 0 < n ∧ n ≤ 0x3fffffff := by
  unfold nssNextId at h
  simp only at h
  split at h
  · rename_i hm
    injection h with h; subst h
    exact ⟨nssMaxId_none _ _ (by omega), by omega, by omega⟩
  · obtain ⟨a, b, c⟩ := nssFreeId_ok _ _ _ _ h
    exact ⟨a, by omega, b⟩

end Kry
