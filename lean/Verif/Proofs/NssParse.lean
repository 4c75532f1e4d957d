import Verif.Model.NssConfig

/-!
# Lemmas on the NSS configuration parser
-/

namespace Kry

theorem posOf_none {b : UInt8} {l : Bytes} (h : b ∉ l) : posOf b l = none := by
  induction l with
  | nil => rfl
  | cons x xs ih =>
    simp only [List.mem_cons, not_or] at h
    simp [posOf, Ne.symm h.1, ih h.2]

theorem posOf_append {b : UInt8} {l r : Bytes} (h : b ∉ l) :
    posOf b (l ++ b :: r) = some l.length := by
  induction l with
  | nil => simp [posOf]
  | cons x xs ih =>
    simp only [List.mem_cons, not_or] at h
    simp [posOf, Ne.symm h.1, ih h.2]

/-- What a position found says about the slice. -/
theorem posOf_some {b : UInt8} {l : Bytes} {n : Nat} (h : posOf b l = some n) :
    l = l.take n ++ b :: l.drop (n + 1) ∧ b ∉ l.take n ∧ n < l.length := by
  induction l generalizing n with
  | nil => cases h
  | cons x xs ih =>
    simp only [posOf] at h
    split at h
    · rename_i hx
      cases h
      subst hx
      simp
    · rename_i hx
      cases hp : posOf b xs with
      | none => rw [hp] at h; cases h
      | some m =>
        rw [hp] at h
        simp only [Option.map_some, Option.some.injEq] at h
        subst h
        obtain ⟨a1, a2, a3⟩ := ih hp
        refine ⟨?_, ?_, ?_⟩
        · simp only [List.take_succ_cons, List.drop_succ_cons, List.cons_append]
          exact congrArg (x :: ·) a1
        · simp only [List.take_succ_cons, List.mem_cons, not_or]
          exact ⟨Ne.symm hx, a2⟩
        · simp only [List.length_cons]; omega

/-- Without a backslash there is nothing to count. -/
theorem escapes_zero {args : Bytes} {k : Nat} (h : ∀ j : Nat, j < k → args[j]? ≠ some 92) :
    escapes args k = 0 := by
  cases k with
  | zero => rfl
  | succ k => simp [escapes, h k (by omega)]

/-- The end of a value found lies between the start of the search and the end of the string. -/
theorem findEnd_range (args : Bytes) (find : UInt8) (fuel idx : Nat) (h : idx ≤ args.length) :
    idx ≤ findEnd args find fuel idx ∧ findEnd args find fuel idx ≤ args.length := by
  induction fuel generalizing idx with
  | zero =>
    unfold findEnd
    split
    · omega
    · simp only; omega
  | succ fuel ih =>
    unfold findEnd
    split
    · omega
    · cases hp : posOf find (args.drop idx) with
      | none => simp only; omega
      | some pos =>
        have hlt := (posOf_some hp).2.2
        rw [List.length_drop] at hlt
        simp only
        split
        · have := ih (idx + pos + 1) (by omega)
          omega
        · omega

/-- The bound on the rounds of the search plays no part. -/
theorem findEnd_fuel (args : Bytes) (find : UInt8) (fuel idx : Nat)
    (h : args.length ≤ fuel + idx) :
    findEnd args find (fuel + 1) idx = findEnd args find fuel idx := by
  induction fuel generalizing idx with
  | zero =>
    have : args.length ≤ idx := by omega
    unfold findEnd
    simp [this]
  | succ fuel ih =>
    unfold findEnd
    split
    · rfl
    · cases hp : posOf find (args.drop idx) with
      | none => simp only
      | some pos =>
        simp only
        split
        · exact ih (idx + pos + 1) (by omega)
        · rfl

/-- Panics of `parse_flags` need two commas. -/
theorem parseFlagsFrom_error (lower : Bytes → Bytes) (args : Bytes) (fuel idx : Nat) (c : NssCfg)
    (hf : args.length ≤ fuel + idx) {r : Rv}
    (h : parseFlagsFrom lower args fuel idx c = .error r) :
    r = .argumentsBad ∨ (r = .panic ∧ (idx = 0 → 2 ≤ args.count 44) ∧
      (0 < idx → 1 ≤ (args.drop idx).count 44)) := by
  induction fuel generalizing idx c with
  | zero =>
    unfold parseFlagsFrom at h
    rw [if_pos (by omega)] at h
    cases h
  | succ fuel ih =>
    unfold parseFlagsFrom at h
    split at h
    · cases h
    rename_i hlt
    simp only at h
    cases hp : posOf 44 (args.drop idx) with
    | none =>
      rw [hp] at h
      simp only [Option.getD_none] at h
      split at h
      · rename_i r' hs
        unfold sliceOf at hs
        rw [if_pos (by omega)] at hs
        cases hs
      · split at h
        · cases h; exact .inl rfl
        · unfold parseFlagsFrom at h
          rw [if_pos (by omega)] at h
          cases h
    | some n =>
      obtain ⟨e1, _, e3⟩ := posOf_some hp
      rw [List.length_drop] at e3
      rw [hp] at h
      simp only [Option.getD_some] at h
      have hc : 1 ≤ (args.drop idx).count 44 := by
        rw [e1, List.count_append, List.count_cons_self]; omega
      split at h
      · rename_i r' hs
        unfold sliceOf at hs
        split at hs
        · cases hs
        · rename_i hbad
          cases hs; cases h
          refine .inr ⟨rfl, fun h0 => ?_, fun _ => hc⟩
          subst h0
          exact absurd ⟨by omega, by omega⟩ hbad
      · rename_i piece hs
        have hle : idx ≤ n := by
          unfold sliceOf at hs
          split at hs
          · omega
          · cases hs
        split at h
        · cases h; exact .inl rfl
        · rcases ih (n + 1) _ (by omega) h with h1 | ⟨h1, -, h3⟩
          · exact .inl h1
          · refine .inr ⟨h1, fun h0 => ?_, fun _ => hc⟩
            subst h0
            have h3 := h3 (by omega)
            rw [List.drop_zero] at e1
            rw [e1]
            simp only [List.count_append, List.count_cons_self]
            omega

end Kry
