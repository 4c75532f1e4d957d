import Verif.Proofs.Basic
import Verif.Spec.Object

/-! # Helper lemmas about attribute edits and copies -/

namespace Kry
open Spec

theorem valueIn_eq (l : List Attr) (t : Nat) :
    valueIn l t = (l.find? fun a => a.typ == t).map Attr.value := by
  induction l with
  | nil => rfl
  | cons a l ih =>
    simp only [valueIn, List.find?_cons]
    by_cases h : a.typ = t
    · simp [h]
    · have : (a.typ == t) = false := by simp [h]
      simp [h, this, ih]

theorem value_eq (o : Obj) (t : Nat) : value o t = (o.find t).map Attr.value := valueIn_eq _ _

theorem find_blindCopy (o : Obj) (uid : Bytes) (t : Nat) :
    (o.blindCopy uid).find t =
      if t = CKA_CLASS then some (Attr.ofUlong CKA_CLASS o.cls)
      else if t = CKA_UNIQUE_ID then some (Attr.ofString CKA_UNIQUE_ID uid)
      else o.find t := by
  have hg : ((Obj.new o.cls).generateUnique uid).attrs =
      [Attr.ofUlong CKA_CLASS o.cls, Attr.ofString CKA_UNIQUE_ID uid] := by
    simp [Obj.new, Obj.generateUnique, Attr.ofUlong, Obj.push]
  simp only [Obj.find, Obj.blindCopy, hg, List.cons_append, List.nil_append, List.find?_cons]
  by_cases h1 : t = CKA_CLASS
  · subst h1; simp [Attr.ofUlong]
  · have e1 : ((Attr.ofUlong CKA_CLASS o.cls).typ == t) = false := by
      simp [Attr.ofUlong]; exact fun e => h1 e.symm
    rw [e1]
    by_cases h2 : t = CKA_UNIQUE_ID
    · subst h2; simp [Attr.ofString]
    · have e2 : ((Attr.ofString CKA_UNIQUE_ID uid).typ == t) = false := by
        simp [Attr.ofString]; exact fun e => h2 e.symm
      rw [e2, if_neg h1, if_neg h2]
      simp only [List.find?_filter]
      congr 1
      funext a
      by_cases ha : a.typ = t
      · simp [ha, h2]
      · simp [ha]

/-- If every template entry of type `t` converts to `a`, applying the template leaves attribute `t` as
it was or sets it to one of those. -/
theorem applyTemplate_find (t : Nat) (P : Attr → Prop) (tm : Template) :
    ∀ (o : Obj), (∀ c ∈ tm, c.typ = t → ∀ a, Attr.fromCk c = .ok a → P a) →
      ((applyTemplate o tm).2.find t = o.find t ∨
        ∃ a, (applyTemplate o tm).2.find t = some a ∧ P a) := by
  induction tm with
  | nil => intro o _; left; rfl
  | cons c rest ih =>
    intro o h
    unfold applyTemplate
    cases hc : Attr.fromCk c with
    | error e => left; rfl
    | ok a =>
      simp only
      cases hs : o.setAttr a with
      | error e => left; rfl
      | ok o1 =>
        simp only
        have hrest := ih o1 (fun c' hc' => h c' (List.mem_cons_of_mem _ hc'))
        have hf := find_setAttr hs t
        rcases hrest with h1 | h1
        · by_cases ht : a.typ = t
          · right
            refine ⟨a, ?_, h c (List.mem_cons_self ..) (by rw [← fromCk_typ hc]; exact ht) a hc⟩
            rw [h1, hf, if_pos ht]
          · left; rw [h1, hf, if_neg ht]
        · exact Or.inr h1

theorem applyTemplate_find_none {t : Nat} {tm : Template} (o : Obj) (h : ∀ c ∈ tm, c.typ ≠ t) :
    (applyTemplate o tm).2.find t = o.find t := by
  rcases applyTemplate_find t (fun _ => False) tm o (fun c hc e => absurd e (h c hc)) with h1 | ⟨_, _, h1⟩
  · exact h1
  · exact h1.elim

/-- The `cls` field only changes through a CKA_CLASS entry. -/
theorem applyTemplate_cls {tm : Template} (h : ∀ c ∈ tm, c.typ ≠ CKA_CLASS) :
    ∀ o : Obj, (applyTemplate o tm).2.cls = o.cls := by
  induction tm with
  | nil => intro o; rfl
  | cons c rest ih =>
    intro o
    unfold applyTemplate
    cases hc : Attr.fromCk c with
    | error e => rfl
    | ok a =>
      have ht : a.typ ≠ CKA_CLASS := by rw [fromCk_typ hc]; exact h c (List.mem_cons_self ..)
      simp only [Obj.setAttr, if_neg ht]
      rw [ih (fun c' hc' => h c' (List.mem_cons_of_mem _ hc'))]

/-! Facts about the checks -/

theorem checkSetAttributes_ok {fa : List FAttr} {tm : Template} (h : checkSetAttributes fa tm = .ok ()) :
    ∀ c ∈ tm, ∃ f, findF fa c.typ = some f ∧ f.is oaNeverSettable = false ∧
      (f.is oaUnchangeable = true → f.attr.atype = .bool ∧
        ∃ b, c.toBool = .ok b ∧ f.is (if b then oaChangeToTrue else oaChangeToFalse) = true) := by
  induction tm with
  | nil => intro c hc; cases hc
  | cons c rest ih =>
    unfold checkSetAttributes at h
    intro c' hc'
    cases hf : findF fa c.typ with
    | none => rw [hf] at h; simp at h
    | some f =>
      rw [hf] at h
      simp only at h
      split at h
      · cases h
      · rename_i hns
        have hns : f.is oaNeverSettable = false := by simpa using hns
        split at h
        · rename_i hun
          split at h
          · rename_i hb
            cases hcb : c.toBool with
            | error e => rw [hcb] at h; cases h
            | ok b =>
              rw [hcb] at h
              cases b
              · simp only at h
                split at h
                · cases h
                · rename_i hcf
                  rcases List.mem_cons.mp hc' with e | e
                  · subst e
                    exact ⟨f, hf, hns, fun _ => ⟨hb, false, hcb, by simpa using hcf⟩⟩
                  · exact ih h c' e
              · simp only at h
                split at h
                · cases h
                · rename_i hcf
                  rcases List.mem_cons.mp hc' with e | e
                  · subst e
                    exact ⟨f, hf, hns, fun _ => ⟨hb, true, hcb, by simpa using hcf⟩⟩
                  · exact ih h c' e
          · cases h
        · rename_i hun
          rcases List.mem_cons.mp hc' with e | e
          · subst e
            exact ⟨f, hf, hns, fun hu => absurd hu hun⟩
          · exact ih h c' e

theorem copyChecks_ok {fa : List FAttr} {origin : Obj} {tm : Template}
    (h : copyChecks fa origin tm = .ok ()) :
    ∀ c ∈ tm, ∃ f, findF fa c.typ = some f ∧ (f.is oaUnchangeable = true → f.is oaChangeOnCopy = true) := by
  induction tm with
  | nil => intro c hc; cases hc
  | cons c rest ih =>
    unfold copyChecks at h
    intro c' hc'
    cases hf : findF fa c.typ with
    | none => rw [hf] at h; simp at h
    | some f =>
      rw [hf] at h
      simp only at h
      split at h
      · split at h
        · cases h
        · split at h
          · cases h
          · rename_i hcc
            rcases List.mem_cons.mp hc' with e | e
            · subst e; exact ⟨f, hf, fun _ => by simpa using hcc⟩
            · exact ih h c' e
      · rename_i hun
        rcases List.mem_cons.mp hc' with e | e
        · subst e; exact ⟨f, hf, fun hu => absurd hu hun⟩
        · exact ih h c' e

/-- `fromCk` of an attribute whose wire value is a boolean. -/
theorem fromCk_bool {c : CkAttr} {b : Bool} {a : Attr} (hk : attrKind c.typ = some .bool)
    (hb : c.toBool = .ok b) (h : Attr.fromCk c = .ok a) : a = Attr.ofBool c.typ b := by
  unfold Attr.fromCk at h
  rw [hk] at h
  simp only [hb] at h
  injection h with h; exact h.symm

/-! `copyFix*` touch only two attributes. -/

theorem find_copyFixNE (origin o : Obj) (t : Nat) (h : t ≠ CKA_NEVER_EXTRACTABLE) :
    (copyFixNeverExtractable origin o).find t = o.find t := by
  unfold copyFixNeverExtractable
  split
  · rw [find_setBool, if_neg (Ne.symm h)]
  · rfl

theorem find_copyFixAS (origin o : Obj) (t : Nat) (h : t ≠ CKA_ALWAYS_SENSITIVE) :
    (copyFixAlwaysSensitive origin o).find t = o.find t := by
  unfold copyFixAlwaysSensitive
  split
  · rw [find_setBool, if_neg (Ne.symm h)]
  · rfl

theorem cls_copyFixNE (origin o : Obj) : (copyFixNeverExtractable origin o).cls = o.cls := by
  unfold copyFixNeverExtractable; split <;> rfl

theorem cls_copyFixAS (origin o : Obj) : (copyFixAlwaysSensitive origin o).cls = o.cls := by
  unfold copyFixAlwaysSensitive; split <;> rfl

/-- Shape of a successful copy. -/
theorem factoriesCopy_ok {uid : Bytes} {o o' : Obj} {t : Template} (h : factoriesCopy uid o t = .ok o') :
    ∃ F, objFactory o = .ok F ∧ o.isCopyable = true ∧ copyChecks F.attrs o t = .ok () ∧
      (applyTemplate (o.blindCopy uid) t).1 = .ok () ∧
      o' = copyFixAlwaysSensitive o (copyFixNeverExtractable o (applyTemplate (o.blindCopy uid) t).2) := by
  unfold factoriesCopy at h
  split at h
  · cases h
  · rename_i hc
    cases hF : objFactory o with
    | error e => rw [hF] at h; cases h
    | ok F =>
      rw [hF] at h
      simp only [Factory.copy] at h
      have hd : defaultCopy F uid o t = .ok o' := by
        split at h
        · cases h
        · cases h
        · exact h
      unfold defaultCopy at hd
      split at hd
      · cases hd
      · rename_i hcc
        split at hd
        · cases hd
        · rename_i o1 ha
          injection hd with hd
          refine ⟨F, rfl, by simpa using hc, hcc, by rw [ha], by rw [ha]; exact hd.symm⟩

end Kry
