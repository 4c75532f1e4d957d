import Verif.Proofs.Keys

/-! # Typing of the attributes of a freshly made object -/

namespace Kry
open Spec

theorem createLoop_all {fa : List FAttr} {u : Nat} {P : Attr → Prop} : ∀ (t : Template) (o o' : Obj),
    (∀ c ∈ t, ∀ a, Attr.fromCk c = .ok a → P a) → (∀ a ∈ o.attrs, P a) →
    createLoop fa u o t = .ok o' → ∀ a ∈ o'.attrs, P a
  | [], o, o', _, ho, h => by unfold createLoop at h; injection h with h; rw [← h]; exact ho
  | c :: rest, o, o', hc, ho, h => by
    unfold createLoop at h
    have hr := fun c' h' => hc c' (List.mem_cons_of_mem _ h')
    split at h
    · cases h
    · split at h
      · cases h
      · simp only at h
        split at h
        · cases h
        · split at h
          · exact createLoop_all rest _ _ hr ho h
          · split at h
            · cases h
            · rename_i a ha
              refine createLoop_all rest _ _ hr ?_ h
              intro b hb
              simp [Obj.push] at hb
              rcases hb with hb | hb
              · exact ho b hb
              · rw [hb]; exact hc c (List.mem_cons_self ..) a ha

theorem defaultsLoop_all {r : Nat} {P : Attr → Prop} : ∀ (fa : List FAttr) (o o' : Obj),
    (∀ f ∈ fa, f.hasDefault = true → P f.attr) → (∀ a ∈ o.attrs, P a) →
    defaultsLoop r o fa = .ok o' → ∀ a ∈ o'.attrs, P a
  | [], o, o', _, ho, h => by unfold defaultsLoop at h; injection h with h; rw [← h]; exact ho
  | f :: rest, o, o', hf, ho, h => by
    unfold defaultsLoop at h
    have hr := fun f' h' => hf f' (List.mem_cons_of_mem _ h')
    split at h
    · exact defaultsLoop_all rest _ _ hr ho h
    · split at h
      · rename_i hd
        refine defaultsLoop_all rest _ _ hr ?_ h
        intro b hb
        simp [Obj.push] at hb
        rcases hb with hb | hb
        · exact ho b hb
        · rw [hb]; exact hf f (List.mem_cons_self ..) hd
      · split at h
        · cases h
        · exact defaultsLoop_all rest _ _ hr ho h

theorem internalObjectCreate_all {F : Factory} {t : Template} {u r : Nat} {o : Obj} {P : Attr → Prop}
    (h : internalObjectCreate F t u r = .ok o) (hc : ∀ c ∈ t, ∀ a, Attr.fromCk c = .ok a → P a)
    (hd : ∀ f ∈ F.attrs, f.hasDefault = true → P f.attr) (h0 : ∀ a ∈ (Obj.new F.cls).attrs, P a) :
    ∀ a ∈ o.attrs, P a := by
  unfold internalObjectCreate at h
  split at h
  · cases h
  · rename_i o1 h1
    exact defaultsLoop_all _ _ _ hd (createLoop_all _ _ _ hc h0 h1) h

/-- Defaults of `t` are booleans in the table. -/
def boolDefault (t : Nat) (F : Factory) : Bool :=
  F.attrs.all fun f => f.typ != t || !f.hasDefault || f.attr == Attr.ofBool t true || f.attr == Attr.ofBool t false

theorem boolDefault_sensitive : allFactories (boolDefault CKA_SENSITIVE) = true := by decide +kernel
theorem boolDefault_extractable : allFactories (boolDefault CKA_EXTRACTABLE) = true := by decide +kernel

theorem find_mem {o : Obj} {t : Nat} {a : Attr} (h : o.find t = some a) : a ∈ o.attrs :=
  List.mem_of_find?_eq_some h

theorem toBool_of_fromCk {c : CkAttr} {a : Attr} (hk : attrKind c.typ = some .bool) (h : Attr.fromCk c = .ok a) :
    ∃ b, a = Attr.ofBool c.typ b := by
  unfold Attr.fromCk at h
  rw [hk] at h
  simp only at h
  split at h
  · injection h with h; exact ⟨_, h.symm⟩
  · cases h

/-- A boolean attribute of a freshly made object is a well-formed boolean. -/
theorem created_bool {F : Factory} {k : Nat × Nat} (hF : (k, F) ∈ registry) {tm : Template} {u r t : Nat} {o : Obj}
    (h : internalObjectCreate F tm u r = .ok o) (hk : attrKind t = some .bool) (ht : t ≠ CKA_CLASS)
    (hd : allFactories (boolDefault t) = true) {a : Attr} (ha : o.find t = some a) :
    ∃ b, a = Attr.ofBool t b := by
  have hall := internalObjectCreate_all (P := fun a => a.typ = t → ∃ b, a = Attr.ofBool t b) h (by
      intro c _ a hca e
      have e' := (fromCk_typ hca).symm.trans e
      rw [← e'] at hk ⊢
      exact toBool_of_fromCk hk hca) (by
      intro f hf hfd e
      have := allFactories_spec hd hF
      unfold boolDefault at this
      rw [List.all_eq_true] at this
      have := this f hf
      have e' : f.typ = t := e
      simp [e', hfd] at this
      rcases this with h | h <;> exact ⟨_, h⟩) (by
      intro a ha e
      simp [Obj.new] at ha
      rw [ha] at e
      exact absurd e.symm ht)
  exact hall a (find_mem ha) (find_typ ha)

end Kry
