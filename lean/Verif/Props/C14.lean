import Verif.Proofs.Object
import Verif.Props.Examples

/-!
# C14: one-way attributes only move one way
-/

namespace Kry
open Spec

/-- In every registered factory, attribute `t` (if the factory knows it) is a boolean that
C_SetAttributeValue may only set to `v` and that C_CopyObject may not set. -/
def guarded (t : Nat) (v : Bool) (F : Factory) : Bool :=
  F.attrs.all fun f =>
    f.typ != t || (f.attr.atype == .bool && f.is oaUnchangeable &&
      !f.is (if v then oaChangeToFalse else oaChangeToTrue) && !f.is oaChangeOnCopy)

theorem guarded_sensitive : allFactories (guarded CKA_SENSITIVE true) = true := by decide +kernel
theorem guarded_wwt : allFactories (guarded CKA_WRAP_WITH_TRUSTED true) = true := by decide +kernel
theorem guarded_extractable : allFactories (guarded CKA_EXTRACTABLE false) = true := by decide +kernel
theorem guarded_copyable : allFactories (guarded CKA_COPYABLE false) = true := by decide +kernel

theorem guarded_spec {t : Nat} {v : Bool} {F : Factory} {f : FAttr} (h : guarded t v F = true)
    (hf : findF F.attrs t = some f) : f.attr.atype = .bool ∧ f.is oaUnchangeable = true ∧
      f.is (if v then oaChangeToFalse else oaChangeToTrue) = false ∧ f.is oaChangeOnCopy = false := by
  unfold guarded at h
  rw [List.all_eq_true] at h
  have := h f (findF_mem hf)
  simp [findF_typ hf] at this
  simp [this.1.1.1, this.1.1.2, this.1.2, this.2]

/-- Reads of attribute `t` give `v`. -/
def Reads (o : Obj) (t : Nat) (v : Bool) : Prop := if v then IsTrue o t else IsFalse o t

theorem Reads_of_find {o o' : Obj} {t : Nat} {v : Bool} (h : Reads o t v) (e : o'.find t = o.find t) :
    Reads o' t v := by
  unfold Reads IsTrue IsFalse at *
  simp only [value_eq, e] at *
  exact h

theorem Reads_ofBool {o : Obj} {t : Nat} {v : Bool} (e : o.find t = some (Attr.ofBool t v)) :
    Reads o t v := by
  unfold Reads IsTrue IsFalse
  simp only [value_eq, e]
  cases v <;> simp [Attr.ofBool]

theorem oneway_step {t : Nat} {v : Bool} (hg : allFactories (guarded t v) = true)
    (hk : attrKind t = some .bool) (h1 : t ≠ CKA_CLASS) (h2 : t ≠ CKA_UNIQUE_ID)
    (h3 : t ≠ CKA_ALWAYS_SENSITIVE) (h4 : t ≠ CKA_NEVER_EXTRACTABLE) {o o' : Obj}
    (hs : Step o o') (hr : Reads o t v) : Reads o' t v := by
  cases hs with
  | set F tm hF =>
    obtain ⟨k, hmem⟩ := objFactory_mem hF
    have hgF := allFactories_spec hg hmem
    unfold setObjectAttributes
    split
    · exact hr
    · split
      · exact hr
      · rename_i hck
        have hall := checkSetAttributes_ok hck
        rcases applyTemplate_find t (fun a => a = Attr.ofBool t v) tm o (by
          intro c hc ht a ha
          obtain ⟨f, hf, _, hun⟩ := hall c hc
          rw [ht] at hf
          obtain ⟨g1, g2, g3, _⟩ := guarded_spec hgF hf
          obtain ⟨_, b, hb, hbit⟩ := hun g2
          have := fromCk_bool (by rw [ht]; exact hk) hb ha
          rw [this, ht]
          cases v <;> cases b <;> simp_all) with e | ⟨a, ha, e⟩
        · exact Reads_of_find hr e
        · subst e; exact Reads_ofBool ha
  | copy _ uid tm hc =>
    obtain ⟨F, hF, _, hck, _, rfl⟩ := factoriesCopy_ok hc
    obtain ⟨k, hmem⟩ := objFactory_mem hF
    have hgF := allFactories_spec hg hmem
    have hall := copyChecks_ok hck
    apply Reads_of_find hr
    rw [find_copyFixAS _ _ _ h3, find_copyFixNE _ _ _ h4, applyTemplate_find_none, find_blindCopy,
      if_neg h1, if_neg h2]
    intro c hc' ht
    obtain ⟨f, hf, hcc⟩ := hall c hc'
    rw [ht] at hf
    obtain ⟨_, g2, _, g4⟩ := guarded_spec hgF hf
    rw [hcc g2] at g4; cases g4

theorem oneway {t : Nat} {v : Bool} (hg : allFactories (guarded t v) = true)
    (hk : attrKind t = some .bool) (h1 : t ≠ CKA_CLASS) (h2 : t ≠ CKA_UNIQUE_ID)
    (h3 : t ≠ CKA_ALWAYS_SENSITIVE) (h4 : t ≠ CKA_NEVER_EXTRACTABLE) {o o' : Obj}
    (hs : Evolves o o') (hr : Reads o t v) : Reads o' t v := by
  induction hs with
  | refl => exact hr
  | step _ s ih => exact oneway_step hg hk h1 h2 h3 h4 s ih

/-- C14 for CKA_SENSITIVE: true stays true under every history of C_SetAttributeValue and
C_CopyObject, on the object and on all its (transitive) copies. -/
theorem C14_sensitive_stays_true {o o' : Obj} (h : Evolves o o') (hs : IsTrue o CKA_SENSITIVE) :
    IsTrue o' CKA_SENSITIVE :=
  oneway (v := true) guarded_sensitive (by decide +kernel) (by decide) (by decide) (by decide) (by decide) h hs

/-- C14 for CKA_WRAP_WITH_TRUSTED. -/
theorem C14_wrap_with_trusted_stays_true {o o' : Obj} (h : Evolves o o')
    (hs : IsTrue o CKA_WRAP_WITH_TRUSTED) : IsTrue o' CKA_WRAP_WITH_TRUSTED :=
  oneway (v := true) guarded_wwt (by decide +kernel) (by decide) (by decide) (by decide) (by decide) h hs

/-- C14 for CKA_EXTRACTABLE: false stays false. -/
theorem C14_extractable_stays_false {o o' : Obj} (h : Evolves o o') (hs : IsFalse o CKA_EXTRACTABLE) :
    IsFalse o' CKA_EXTRACTABLE :=
  oneway (v := false) guarded_extractable (by decide +kernel) (by decide) (by decide) (by decide) (by decide) h hs

/-- C14 for CKA_COPYABLE: false stays false. -/
theorem C14_copyable_stays_false {o o' : Obj} (h : Evolves o o') (hs : IsFalse o CKA_COPYABLE) :
    IsFalse o' CKA_COPYABLE :=
  oneway (v := false) guarded_copyable (by decide +kernel) (by decide) (by decide) (by decide) (by decide) h hs

/-! ## The hypotheses are met -/

/-- The template of a C_SetAttributeValue that renames the key and makes it not copyable. -/
def exC14Set : Template := [.mk' CKA_LABEL [107], .ofBool CKA_SENSITIVE true]

/-- The history: change the label, then copy, then change the copy. -/
def exC14End : Obj :=
  let o1 := (setObjectAttributes aesF exAes exC14Set).2
  let o2 := okObj (factoriesCopy exUid2 o1 [.ofBool CKA_TOKEN true])
  (setObjectAttributes aesF o2 [.ofBool CKA_COPYABLE false]).2

theorem exC14_evolves : Evolves exAes exC14End :=
  .step (.step (.step (.refl _) (.set _ aesF exC14Set (by decide +kernel)))
    (.copy _ (okObj (factoriesCopy exUid2 (setObjectAttributes aesF exAes exC14Set).2 [.ofBool CKA_TOKEN true]))
      exUid2 [.ofBool CKA_TOKEN true] (by decide +kernel)))
    (.set _ aesF [.ofBool CKA_COPYABLE false] (by decide +kernel))

/-- Every hypothesis and conclusion of the four theorems holds for this history, and the history really
changes the object: the calls succeed and the end object differs from the start. -/
example : IsTrue exAes CKA_SENSITIVE ∧ IsTrue exAes CKA_WRAP_WITH_TRUSTED ∧
    IsFalse exAes CKA_EXTRACTABLE ∧ IsFalse exC14End CKA_COPYABLE ∧ exC14End ≠ exAes ∧
    (setObjectAttributes aesF exAes exC14Set).1 = .ok () := by
  refine ⟨⟨1, ?_, ?_⟩, ⟨1, ?_, ?_⟩, ?_, ?_, ?_, ?_⟩ <;> first | decide +kernel | (unfold IsFalse; decide +kernel)

/-- And the guarded direction is really refused: clearing CKA_SENSITIVE fails. -/
example : (setObjectAttributes aesF exAes [.ofBool CKA_SENSITIVE false]).1 = .error .attrReadOnly := by
  decide +kernel

end Kry
