import Verif.Proofs.NssIds
import Verif.Proofs.ReadBack

/-! Rows of an NSS database: what is written and what is read. -/

namespace Kry

/-- The columns of a row that was made. -/
theorem nssMakeRow_get {l : List Attr} {row : NssRow} (h : nssMakeRow l = .ok row) (t : Nat) :
    (nssSkippable t = true → AMap.get row t = none) ∧
    (l.find? (fun a => a.typ == t) = none → AMap.get row t = none) ∧
    (nssSkippable t = false → ∀ a, l.find? (fun a => a.typ == t) = some a → ∃ v, nssColVal a = .ok v ∧ AMap.get row t = some v) := by
  induction l generalizing row with
  | nil =>
    injection h with h; subst h
    exact ⟨fun _ => rfl, fun _ => rfl, fun _ a ha => by cases ha⟩
  | cons a l ih =>
    rw [nssMakeRow] at h
    split at h
    · rename_i hs
      obtain ⟨i1, i2, i3⟩ := ih h
      by_cases hat : a.typ = t
      · subst hat
        exact ⟨i1, fun _ => i1 hs, fun hs' => by rw [hs] at hs'; cases hs'⟩
      · rw [List.find?_cons_of_neg (by simpa using hat)]
        exact ⟨i1, i2, i3⟩
    · rename_i hs
      have hs : nssSkippable a.typ = false := by simpa using hs
      split at h
      · cases h
      split at h
      · cases h
      rename_i v hv
      split at h
      · cases h
      rename_i row' hr
      injection h with h; subst h
      obtain ⟨i1, i2, i3⟩ := ih hr
      by_cases hat : a.typ = t
      · subst hat
        rw [List.find?_cons_of_pos (by simp), AMap.get, if_pos rfl]
        refine ⟨fun h => ?_, fun h => ?_, fun _ b hb => ?_⟩
        · rw [hs] at h; cases h
        · cases h
        · injection hb with hb; subst hb
          exact ⟨v, hv, rfl⟩
      · rw [List.find?_cons_of_neg (by simpa using hat), AMap.get, if_neg hat]
        exact ⟨i1, i2, i3⟩

/-- Reading columns that can all be read. -/
theorem nssReadCols_ok (row : NssRow) (rd : Nat → Option Attr) (cols : List Nat) (o : Obj) (hcls : ClsOk o)
    (h : ∀ c ∈ cols, nssIgnored c = false → ∀ b, AMap.get row c = some b →
      ∃ a, rd c = some a ∧ nssReadCol c b = .ok a ∧ a.typ = c ∧ (c = CKA_CLASS → ∃ n, a.toUlong = .ok n)) :
    ∃ o', nssReadCols row cols o = .ok o' ∧ ClsOk o' ∧
      ∀ t, o'.find t = if t ∈ cols ∧ nssIgnored t = false ∧ (AMap.get row t).isSome = true then rd t else o.find t := by
  induction cols generalizing o with
  | nil => exact ⟨o, rfl, hcls, fun t => by rw [if_neg (by simp)]⟩
  | cons c cols ih =>
    have h' : ∀ c ∈ cols, nssIgnored c = false → ∀ b, AMap.get row c = some b →
      ∃ a, rd c = some a ∧ nssReadCol c b = .ok a ∧ a.typ = c ∧ (c = CKA_CLASS → ∃ n, a.toUlong = .ok n) := fun x hx => h x (.tail _ hx)
    rw [nssReadCols]
    by_cases hi : nssIgnored c = true
    · rw [if_pos hi]
      obtain ⟨o', h1, h2, h3⟩ := ih o hcls h'
      refine ⟨o', h1, h2, fun t => ?_⟩
      rw [h3]
      by_cases htc : t = c
      · subst htc
        rw [if_neg (by simp [hi]), if_neg (by simp [hi])]
      · simp [htc]
    · rw [if_neg hi]
      have hi : nssIgnored c = false := by simpa using hi
      cases hg : AMap.get row c with
      | none =>
        obtain ⟨o', h1, h2, h3⟩ := ih o hcls h'
        refine ⟨o', h1, h2, fun t => ?_⟩
        rw [h3]
        by_cases htc : t = c
        · subst htc
          rw [if_neg (by simp [hg]), if_neg (by simp [hg])]
        · simp [htc]
      | some b =>
        obtain ⟨a, hrd, hra, hty, hcl⟩ := h c (.head _) hi b hg
        have hset : ∃ o1, o.setAttr a = .ok o1 := by
          unfold Obj.setAttr
          split
          · rename_i hc
            obtain ⟨n, hn⟩ := hcl (by rw [← hty, hc])
            rw [hn]
            exact ⟨_, rfl⟩
          · exact ⟨_, rfl⟩
        obtain ⟨o1, ho1⟩ := hset
        obtain ⟨o', h1, h2, h3⟩ := ih o1 (clsOk_setAttr hcls ho1) h'
        refine ⟨o', ?_, h2, fun t => ?_⟩
        · simp only [hra, ho1]
          exact h1
        · rw [h3, find_setAttr ho1, hty]
          by_cases htc : c = t
          · subst htc
            by_cases hm : c ∈ cols <;> simp [hm, hi, hg, hrd]
          · have : ¬ t = c := fun e => htc e.symm
            simp [htc, this]

theorem nssParamSet_ok (n : Nat) (h : n < 0x8F) : nssParamSet (toBE 4 n) = .ok n := by
  unfold nssParamSet
  rw [if_pos (toBE_length 4 n), fromBE_toBE 4 n (by omega), if_pos h]

/-- A storable value is read as it was. -/
theorem nssStorable_read {sealed : Nat → Bool} {a : Attr} (h : Spec.nssStorable sealed a) (hs : sealed a.typ = false) {v : Bytes} (hv : nssColVal a = .ok v) :
    nssReadCol a.typ v = .ok a := by
  obtain ⟨hk, hd⟩ := h
  obtain ⟨typ, k, val⟩ := a
  simp only at hk hd hs hv ⊢
  have other : ∀ k, k ≠ .num → k ≠ .deny → k ≠ .ignore → k ≠ .ulongArray → attrKind typ = some k → (val = [0xa5, 0x00, 0x5a] → sealed typ = true) →
      nssColVal ⟨typ, k, val⟩ = .ok v → nssReadCol typ v = .ok ⟨typ, k, val⟩ := by
    intro k h1 h2 h3 h4 hk hd hv
    unfold nssColVal at hv
    have hne : val ≠ nssNull := fun hn => by rw [hd hn] at hs; cases hs
    unfold nssReadCol
    simp only [hk]
    by_cases he : val = []
    · rw [if_pos he] at hv
      injection hv with hv; subst hv
      subst he
      cases k <;> first | rfl | (exact absurd rfl ‹_›)
    · rw [if_neg he] at hv
      have : v = val := by
        cases k <;> first | (injection hv with hv; exact hv.symm) | (exact absurd rfl ‹_›)
      subst this
      cases k <;> first | (simp only [if_neg hne]) | (exact absurd rfl ‹_›)
  cases k with
  | num =>
    obtain ⟨_, n, hn, hlt, hp⟩ := hd
    subst hn
    unfold nssColVal at hv
    rw [if_neg (by
      intro he
      have := congrArg List.length he
      rw [ulongBytes_length] at this
      cases this)] at hv
    have hu : (⟨typ, .num, ulongBytes n⟩ : Attr).toUlong = .ok n := toUlong_ofUlong typ n (by omega)
    simp only [hu] at hv
    unfold nssNumVal at hv
    rw [if_neg (by intro he; rw [he] at hlt; exact absurd hlt (by decide)), if_pos hlt] at hv
    injection hv with hv; subst hv
    unfold nssReadCol
    simp only [hk]
    by_cases ht : typ = CKA_PARAMETER_SET
    · simp only [if_pos ht, nssParamSet_ok n (hp ht)]
    · simp only [if_neg ht, toBE_length, if_true, fromBE_toBE 4 n (by omega)]
  | bool => exact other .bool (by simp) (by simp) (by simp) (by simp) hk hd hv
  | string => exact other .string (by simp) (by simp) (by simp) (by simp) hk hd hv
  | bytes => exact other .bytes (by simp) (by simp) (by simp) (by simp) hk hd hv
  | date => exact other .date (by simp) (by simp) (by simp) (by simp) hk hd hv
  | ulongArray => exact absurd hd (by simp)
  | deny => exact absurd hd (by simp)
  | ignore => exact absurd hd (by simp)

end Kry
