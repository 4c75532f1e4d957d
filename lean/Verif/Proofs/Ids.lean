import Verif.Spec.Ids
import Verif.Proofs.Orderly

/-!
# Where unique identifiers come from

A call that makes an object takes CKA_UNIQUE_ID from the random generator or from the template.
-/

namespace Kry
open Spec

/-- Every CKA_UNIQUE_ID in the object satisfies `P`. -/
def IdFrom (P : Bytes → Prop) (o : Obj) : Prop := ∀ a ∈ o.attrs, a.typ = CKA_UNIQUE_ID → P a.value

section
variable {P : Bytes → Prop}

theorem id_fromCk {c : CkAttr} {a : Attr} (h : Attr.fromCk c = .ok a) (hp : c.typ = CKA_UNIQUE_ID → P c.toBuf) :
    a.typ = CKA_UNIQUE_ID → P a.value := by
  intro ht
  have hc : a.typ = c.typ := fromCk_typ h
  have hk : attrKind c.typ = some .string := by rw [← hc, ht]; decide +kernel
  unfold Attr.fromCk at h
  rw [hk] at h
  simp only at h
  have hb : ∀ s, c.toStr = .ok s → s = c.toBuf := by
    intro s hs
    unfold CkAttr.toStr at hs
    unfold CkAttr.toBuf
    cases hp : c.pval with
    | null n =>
      rw [hp] at hs
      split at hs
      · injection hs with hs; exact hs.symm
      · cases hs
    | data bs =>
      rw [hp] at hs
      split at hs
      · rename_i h0
        injection hs with hs
        rw [← hs, List.eq_nil_of_length_eq_zero h0]
      · simp only at hs
        split at hs
        · injection hs with hs; exact hs.symm
        · cases hs
  split at h
  · rename_i s hs
    injection h with h
    rw [← h]
    exact hb s hs ▸ hp (hc ▸ ht)
  · cases h

theorem ids_new (c : Nat) : IdFrom P (Obj.new c) := by
  intro a ha ht
  simp only [Obj.new, List.mem_singleton] at ha
  subst ha
  exact absurd (show CKA_CLASS = CKA_UNIQUE_ID from ht) (by decide)

theorem ids_push {o : Obj} {a : Attr} (h : IdFrom P o) (ha : a.typ = CKA_UNIQUE_ID → P a.value) : IdFrom P (o.push a) := by
  intro b hb
  simp only [Obj.push, List.mem_append, List.mem_singleton] at hb
  rcases hb with hb | rfl
  · exact h b hb
  · exact ha

theorem ids_put {o : Obj} {a : Attr} (h : IdFrom P o) (ha : a.typ = CKA_UNIQUE_ID → P a.value) : IdFrom P (o.put a) := by
  intro b hb
  rcases mem_setList hb with rfl | hb
  · exact ha
  · exact h b hb

theorem ids_setAttr {o o' : Obj} {a : Attr} (hs : o.setAttr a = .ok o') (h : IdFrom P o)
    (ha : a.typ = CKA_UNIQUE_ID → P a.value) : IdFrom P o' := by
  unfold Obj.setAttr at hs
  repeat' split at hs
  all_goals first
    | (cases hs; done)
    | (injection hs with hs; rw [← hs]; intro b hb; rcases mem_setList hb with rfl | hb
       · exact ha
       · exact h b hb)

theorem ids_setBool {o : Obj} {t : Nat} {b : Bool} (h : IdFrom P o) (ht : t ≠ CKA_UNIQUE_ID) :
    IdFrom P (o.put (Attr.ofBool t b)) := ids_put h (fun e => absurd e ht)

theorem ids_createLoop {fa : List FAttr} {u : Nat} {tm : Template} {o o' : Obj}
    (ht : ∀ c ∈ tm, c.typ = CKA_UNIQUE_ID → P c.toBuf)
    (hc : createLoop fa u o tm = .ok o') (h : IdFrom P o) : IdFrom P o' := by
  induction tm generalizing o with
  | nil => injection hc with hc; rw [← hc]; exact h
  | cons c tm ih =>
    have hr := fun f' h' => ht f' (List.mem_cons_of_mem _ h')
    unfold createLoop at hc
    split at hc
    · cases hc
    split at hc
    · cases hc
    · extract_lets dup at hc
      clear_value dup
      split at hc
      · cases hc
      · split at hc
        · exact ih hr hc h
        · split at hc
          · cases hc
          · rename_i a ha
            exact ih hr hc (ids_push h (id_fromCk ha (ht c (List.mem_cons_self ..))))

theorem id_tables : allFactories (fun F => F.attrs.all (fun f => !f.hasDefault || f.attr.typ != CKA_UNIQUE_ID)) = true := by
  decide +kernel

theorem ids_defaultsLoop {q : Nat} {fa : List FAttr} {o o' : Obj}
    (hf : ∀ f ∈ fa, f.hasDefault = true → f.attr.typ ≠ CKA_UNIQUE_ID)
    (hc : defaultsLoop q o fa = .ok o') (h : IdFrom P o) : IdFrom P o' := by
  induction fa generalizing o with
  | nil => injection hc with hc; rw [← hc]; exact h
  | cons f fa ih =>
    have hr := fun f' h' => hf f' (List.mem_cons_of_mem _ h')
    unfold defaultsLoop at hc
    repeat' split at hc
    all_goals first
      | (cases hc; done)
      | exact ih hr hc h
      | exact ih hr hc (ids_push h (fun e => absurd e (hf f (List.mem_cons_self ..) (by assumption))))

theorem ids_generateUnique {o : Obj} {uid : Bytes} (hu : P uid) (h : IdFrom P o) : IdFrom P (o.generateUnique uid) := by
  unfold Obj.generateUnique
  split
  · exact h
  · exact ids_push h (fun _ => hu)

variable {F : Factory} {k : Nat × Nat} (hF : (k, F) ∈ registry) {uid : Bytes} (hu : P uid)
  {tm : Template} (ht : ∀ c ∈ tm, c.typ = CKA_UNIQUE_ID → P c.toBuf)

include hF ht in
theorem ids_internal {a b : Nat} {o : Obj}
    (hc : internalObjectCreate F tm a b = .ok o) : IdFrom P o := by
  have hk := allFactories_spec id_tables hF
  simp only [List.all_eq_true] at hk
  unfold internalObjectCreate at hc
  split at hc
  · cases hc
  · rename_i o0 h0
    exact ids_defaultsLoop (fun f hf hd => by have := hk f hf; rw [hd] at this; simpa using this) hc
      (ids_createLoop ht h0 (ids_new _))

include hF ht hu in
theorem ids_keyInternal {a b : Nat} {o : Obj} (hc : internalKeyCreate F uid tm a b = .ok o) : IdFrom P o := by
  unfold internalKeyCreate at hc
  split at hc
  · cases hc
  · rename_i o0 h0
    injection hc with hc; rw [← hc]; exact ids_generateUnique hu (ids_internal hF ht h0)

include hF ht hu in
theorem ids_default {o : Obj} (hc : defaultObjectCreate F uid tm = .ok o) : IdFrom P o := by
  unfold defaultObjectCreate at hc
  split at hc
  · cases hc
  · rename_i o0 h0
    injection hc with hc; rw [← hc]; exact ids_generateUnique hu (ids_internal hF ht h0)

include hF ht hu in
theorem ids_keyCreate {o : Obj} (hc : keyCreate F uid tm = .ok o) : IdFrom P o := by
  unfold keyCreate at hc
  split at hc
  · cases hc
  · rename_i o0 h0
    have hz := ids_keyInternal hF hu ht h0
    have hl : CKA_LOCAL ≠ CKA_UNIQUE_ID := by decide
    have hs : CKA_ALWAYS_SENSITIVE ≠ CKA_UNIQUE_ID := by decide
    have hn : CKA_NEVER_EXTRACTABLE ≠ CKA_UNIQUE_ID := by decide
    simp only at hc
    repeat' split at hc
    all_goals
      injection hc with hc; rw [← hc]
      first
        | exact hz
        | exact ids_setBool hz hl
        | exact ids_setBool (ids_setBool hz hs) hn
        | exact ids_setBool (ids_setBool (ids_setBool hz hl) hs) hn

theorem ids_ensureUlong {o o' : Obj} {t v : Nat} (hc : o.ensureUlong t v = .ok o') (h : IdFrom P o)
    (ht : t ≠ CKA_UNIQUE_ID) : IdFrom P o' := by
  unfold Obj.ensureUlong at hc
  repeat' split at hc
  all_goals first
    | (cases hc; done)
    | (injection hc with hc; rw [← hc]; exact h)
    | (injection hc with hc; rw [← hc]; exact ids_push h (fun e => absurd e ht))

theorem ids_trust {o o' : Obj} (hc : trustChecks o = .ok o') (h : IdFrom P o) : IdFrom P o' := by
  unfold trustChecks at hc
  split at hc
  · cases hc
  · rename_i o1 h1
    have z1 := ids_ensureUlong h1 h (by decide)
    repeat' split at hc
    all_goals first
      | (cases hc; done)
      | (injection hc with hc; rw [← hc]; exact z1)
      | (injection hc with hc; rw [← hc]; exact ids_put z1 (fun e => absurd e (by decide)))

theorem ids_nssTrust {o o' : Obj} (hc : nssTrustChecks o = .ok o') (h : IdFrom P o) : IdFrom P o' := by
  unfold nssTrustChecks at hc
  repeat' split at hc
  all_goals first
    | (cases hc; done)
    | (injection hc with hc; rw [← hc]; exact ids_ensureUlong (by assumption) h (by decide))

theorem ids_hotp {o o' : Obj} (hc : hotpValidate o = .ok o') (h : IdFrom P o) : IdFrom P o' := by
  unfold hotpValidate at hc
  split at hc
  · cases hc
  · rename_i o1 h1
    have z1 := ids_ensureUlong h1 h (by decide)
    split at hc
    · cases hc
    · rename_i o2 h2
      have z2 := ids_ensureUlong h2 z1 (by decide)
      have z3 : IdFrom P (o2.put (Attr.ofBytes CKA_ALLOWED_MECHANISMS (ulongBytes CKM_HOTP))) :=
        ids_put z2 (fun e => absurd e (by decide))
      split at hc
      · cases hc
      · simp only at hc
        repeat' split at hc
        all_goals first
          | (cases hc; done)
          | skip
        all_goals
          injection hc with hc
          subst hc
          rename_i hm _ _
          repeat' split at hm
          all_goals first
            | (cases hm; done)
            | (injection hm with hm; rw [← hm]; exact z2)
            | (injection hm with hm; rw [← hm]; exact z3)

theorem ids_asym {O : Oracle} {k : FactoryKind} {o o' : Obj} (hc : asymChecks O k o = .ok o')
    (h : IdFrom P o) : IdFrom P o' := by
  unfold asymChecks at hc
  split at hc
  · cases hc
  · rename_i l hl
    clear hl
    injection hc with hc
    rw [← hc]
    have hm : ∀ a ∈ l.filter (fun a => asymUpdTypes.contains a.typ), a.typ ∈ asymUpdTypes := by
      intro a ha
      simpa using (List.mem_filter.1 ha).2
    generalize l.filter (fun a => asymUpdTypes.contains a.typ) = m at hm
    clear hc
    have hu : ∀ t ∈ asymUpdTypes, t ≠ CKA_UNIQUE_ID := by
      decide +kernel
    induction m generalizing o with
    | nil => exact h
    | cons a m ih =>
      have := hu _ (hm a (List.mem_cons_self ..))
      exact ih (o := o.put a) (ids_put h (fun e => absurd e this))
        (fun b hb => hm b (List.mem_cons_of_mem _ hb))

theorem ids_rsaInfo {O : Oracle} {o o' : Obj} (hc : rsaPublicKeyInfo O o = .ok o') (h : IdFrom P o) :
    IdFrom P o' := by
  unfold rsaPublicKeyInfo at hc
  repeat' split at hc
  all_goals first | (cases hc; done) | skip
  unfold Obj.ensureBytes at hc
  repeat' split at hc
  all_goals first
    | (cases hc; done)
    | (injection hc with hc; rw [← hc]; exact h)
    | (injection hc with hc; rw [← hc]; exact ids_push h (fun e => absurd e (show CKA_PUBLIC_KEY_INFO ≠ _ by decide)))

include hu ht in
/-- C_CreateObject. -/
theorem ids_create {O : Oracle} {o : Obj}
    (hc : factoriesCreate O uid tm = .ok o) : IdFrom P o := by
  unfold factoriesCreate at hc
  split at hc
  · cases hc
  · rename_i F hs
    have hmem : ∃ k, (k, F) ∈ registry := by
      unfold createSelect at hs
      split at hs
      · cases hs
      · simp only at hs
        split at hs
        · cases hs
        · exact ⟨_, getFactory_mem hs⟩
    obtain ⟨k, hF⟩ := hmem
    unfold Factory.create at hc
    repeat' split at hc
    all_goals first
      | (cases hc; done)
      | exact ids_default hF hu ht hc
      | (injection hc with hc; rw [← hc]; exact ids_default hF hu ht (by assumption))
      | exact ids_trust hc (ids_default hF hu ht (by assumption))
      | exact ids_nssTrust hc (ids_default hF hu ht (by assumption))
      | exact ids_ensureUlong hc (ids_keyCreate hF hu ht (by assumption)) (by decide)
      | exact ids_hotp hc (ids_keyCreate hF hu ht (by assumption))
      | exact ids_asym hc (ids_keyCreate hF hu ht (by assumption))
      | exact ids_rsaInfo hc (ids_keyCreate hF hu ht (by assumption))
      | exact ids_hotp hc (ids_put (ids_keyCreate hF hu ht (by assumption))
          (fun e => absurd e (by decide)))
      | exact ids_hotp hc (ids_put (ids_keyCreate hF hu ht (by assumption))
          (fun e => absurd e (show CKA_VALUE_LEN ≠ _ by decide)))


theorem ids_applyTemplate {tm : Template} (ht : ∀ c ∈ tm, c.typ = CKA_UNIQUE_ID → P c.toBuf) {o : Obj} (h : IdFrom P o) :
    IdFrom P (applyTemplate o tm).2 := by
  induction tm generalizing o with
  | nil => exact h
  | cons c tm ih =>
    have hr := fun f' h' => ht f' (List.mem_cons_of_mem _ h')
    unfold applyTemplate
    split
    · exact h
    · rename_i a ha
      split
      · exact h
      · rename_i o1 h1
        exact ih hr (ids_setAttr h1 h (id_fromCk ha (ht c (List.mem_cons_self ..))))

include hu in
theorem ids_blindCopy {o : Obj} : IdFrom P (o.blindCopy uid) := by
  have z := ids_generateUnique hu (ids_new (P := P) o.cls)
  intro a ha
  unfold Obj.blindCopy at ha
  simp only [List.mem_append, List.mem_filter] at ha
  rcases ha with ha | ha
  · exact z a ha
  · intro e
    have := ha.2
    simp [e] at this

include hu ht in
/-- C_CopyObject. -/
theorem ids_copy {o o' : Obj} (hc : factoriesCopy uid o tm = .ok o') : IdFrom P o' := by
  obtain ⟨F, _, _, _, _, rfl⟩ := factoriesCopy_ok hc
  have z := ids_applyTemplate ht (ids_blindCopy hu (o := o))
  generalize (applyTemplate (o.blindCopy uid) tm).2 = p at z
  have z1 : IdFrom P (copyFixNeverExtractable o p) := by
    unfold copyFixNeverExtractable
    split
    · exact ids_setBool z (by decide)
    · exact z
  unfold copyFixAlwaysSensitive
  split
  · exact ids_setBool z1 (by decide)
  · exact z1

theorem ids_ensureAll {o o' : Obj} {l : List Attr} (hl : ∀ a ∈ l, a.typ ≠ CKA_UNIQUE_ID) (hc : ensureAll o l = .ok o')
    (h : IdFrom P o) : IdFrom P o' := by
  induction l generalizing o with
  | nil => injection hc with hc; rw [← hc]; exact h
  | cons a l ih =>
    have hr := fun t' h' => hl t' (List.mem_cons_of_mem _ h')
    unfold ensureAll at hc
    split at hc
    · split at hc
      · cases hc
      · exact ih hr hc h
    · exact ih hr hc (ids_push h (fun e => absurd e (hl a (List.mem_cons_self ..))))

include hF hu ht in
theorem ids_importSecret {data : Bytes} {o : Obj} (hc : importSecret F uid data tm = .ok o) : IdFrom P o := by
  unfold importSecret at hc
  split at hc
  · cases hc
  · rename_i o1 h1
    have z := ids_keyInternal hF hu ht h1
    unfold setKey at hc
    split at hc
    · cases hc
    · have z2 : IdFrom P (o1.put (Attr.ofBytes CKA_VALUE data)) :=
        ids_put z (fun e => absurd e (show CKA_VALUE ≠ _ by decide))
      unfold setKeyLen at hc
      repeat' split at hc
      all_goals first | (cases hc; done) | exact ids_ensureUlong hc z2 (by decide)

theorem keeps_ids_aes {tm : Template} (ht : ∀ c ∈ tm, c.typ = CKA_UNIQUE_ID → P c.toBuf) (t v : Nat)
    (h : t ≠ CKA_UNIQUE_ID) : ∀ c ∈ Template.addMissingUlong tm t v, c.typ = CKA_UNIQUE_ID → P c.toBuf := by
  intro c hc e
  unfold Template.addMissingUlong at hc
  split at hc
  · exact ht c hc e
  · rcases List.mem_append.1 hc with hc | hc
    · exact ht c hc e
    · simp only [List.mem_singleton] at hc; subst hc; exact absurd e h

include hF hu ht in
/-- Unwrapped and encapsulated keys. -/
theorem ids_import {M : Mechs} (hM : HonoursId M) {data : Bytes} {o : Obj}
    (hc : importWrapped M uid F data tm = .ok o) : IdFrom P o := by
  unfold importWrapped at hc
  split at hc
  · exact ids_importSecret hF hu ht hc
  · exact ids_importSecret hF hu ht hc
  · unfold importAes at hc
    simp only at hc
    repeat' split at hc
    all_goals first | (cases hc; done) | exact ids_importSecret hF hu ht hc
  all_goals
    repeat' split at hc
    all_goals first
      | (cases hc; done)
      | (rename_i h1 _ _ h2
         exact ids_ensureAll (hM.importAttrs _ _ _ _ h2) hc (ids_keyInternal hF hu ht h1))

theorem ids_fresh {o : Obj} (h : IdFrom P o) : IdFrom P (fresh o) := by
  have hm : ∀ l : List Attr, ∀ a ∈ oneUid l, a ∈ l := by
    intro l
    induction l with
    | nil => intro a ha; exact ha
    | cons b l ih =>
      intro a ha
      unfold oneUid at ha
      split at ha
      · rcases List.mem_cons.1 ha with ha | ha
        · exact ha ▸ List.mem_cons_self ..
        · exact List.mem_cons_of_mem _ (List.mem_filter.1 ha).1
      · rcases List.mem_cons.1 ha with ha | ha
        · exact ha ▸ List.mem_cons_self ..
        · exact List.mem_cons_of_mem _ (ih a ha)
  exact fun a ha => h a (hm _ a ha)

end

theorem ids_getStr {P : Bytes → Prop} {o : Obj} {u : Bytes} (h : IdFrom P o) (hg : o.getStr CKA_UNIQUE_ID = .ok u) : P u := by
  unfold Obj.getStr at hg
  split at hg
  · cases hg
  · rename_i a ha
    have := h a (find_mem ha) (find_typ ha)
    unfold Attr.toStr at hg
    repeat' split at hg
    all_goals first | (cases hg; done) | (injection hg with hg; exact hg ▸ this)

variable {M : Mechs} {C : Crypto} {O : Oracle}

/-- An object made by a call has an identifier drawn by that call or named in its template. -/
theorem ids_made (hM : HonoursId M) {e : Env} {sl : Slot} {c : Call} {o : Obj} {u : Bytes}
    (m : MadeBy M C O e sl c o) (hu : ∀ p, e.uuid p ≠ u) (ht : ¬ asksId c u) : o.getStr CKA_UNIQUE_ID ≠ .ok u := by
  intro hg
  have P : IdFrom (fun v => v ≠ u) o := by
    cases m with
    | sess hx m =>
      cases m with
      | create p hr ho => exact ids_create (P := fun v => v ≠ u) (hu p) (fun c hc he hv => ht ⟨_, List.mem_singleton.2 rfl, c, hc, he, hv⟩) ho
      | copy e' p hr hs ho => exact ids_copy (P := fun v => v ≠ u) (hu p) (fun c hc he hv => ht ⟨_, List.mem_singleton.2 rfl, c, hc, he, hv⟩) ho
    | op hx m =>
      cases m with
      | genKey j hr ho =>
        refine ids_fresh fun a ha he hv => ?_
        rcases hM.genKey _ _ _ _ _ ho a ha he with ⟨p, h⟩ | ⟨c, hc, h1, h2⟩
        · exact hu (j :: p) (h.symm.trans hv)
        · exact ht ⟨_, List.mem_singleton.2 rfl, c, hc, h1, h2.trans hv⟩
      | genPub j hr' hr ho =>
        refine ids_fresh fun a ha he hv => ?_
        rcases (hM.genPair _ _ _ _ _ _ _ ho).1 a ha he with ⟨p, h⟩ | ⟨c, hc, h1, h2⟩
        · exact hu (j :: p) (h.symm.trans hv)
        · exact ht ⟨_, List.mem_cons_self .., c, hc, h1, h2.trans hv⟩
      | genPriv j hr' hr ho =>
        refine ids_fresh fun a ha he hv => ?_
        rcases (hM.genPair _ _ _ _ _ _ _ ho).2 a ha he with ⟨p, h⟩ | ⟨c, hc, h1, h2⟩
        · exact hu (j :: p) (h.symm.trans hv)
        · exact ht ⟨_, List.mem_cons_of_mem _ (List.mem_singleton.2 rfl), c, hc, h1, h2.trans hv⟩
      | derive j hr ho hm =>
        refine ids_fresh fun a ha he hv => ?_
        rcases hM.derive _ _ _ _ _ _ _ ho _ hm a ha he with ⟨p, h⟩ | ⟨c, hc, h1, h2⟩
        · exact hu (j :: p) (h.symm.trans hv)
        · exact ht ⟨_, List.mem_singleton.2 rfl, c, hc, h1, h2.trans hv⟩
      | unwrap p hr hF ho =>
        obtain ⟨k, hF⟩ := keyTemplateFactory_mem hF
        exact ids_fresh (ids_import (P := fun v => v ≠ u) hF (hu p) (fun c hc he hv => ht ⟨_, List.mem_singleton.2 rfl, c, hc, he, hv⟩) hM ho)
      | encap p hr hF ho =>
        obtain ⟨k, hF⟩ := keyTemplateFactory_mem hF
        exact ids_fresh (ids_import (P := fun v => v ≠ u) hF (hu p) (fun c hc he hv => ht ⟨_, List.mem_singleton.2 rfl, c, hc, he, hv⟩) hM ho)
      | decap p hr hF ho =>
        obtain ⟨k, hF⟩ := keyTemplateFactory_mem hF
        exact ids_fresh (ids_import (P := fun v => v ≠ u) hF (hu p) (fun c hc he hv => ht ⟨_, List.mem_singleton.2 rfl, c, hc, he, hv⟩) hM ho)
  exact ids_getStr P hg rfl

end Kry
