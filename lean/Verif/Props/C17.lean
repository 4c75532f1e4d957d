import Verif.Props.C16
import Verif.Props.C14
import Verif.Proofs.Typed

/-!
# C17: CKA_ALWAYS_SENSITIVE and CKA_NEVER_EXTRACTABLE are truthful
-/

namespace Kry
open Spec

namespace Spec

/-- Results of key generation: the modelled secret-key mechanisms, and any key that a key-pair mechanism
has passed through `default_key_attributes` (all of them end so, e.g. `src/ossl/rsa.rs`). -/
inductive Generated : Obj → Prop
  | aes (rnd : Nat → Res Bytes) (uid : Bytes) (mech : Nat) (tm : Template) (g : Obj)
      (h : generateAes rnd uid mech tm = .ok g) : Generated g
  | generic (rnd : Nat → Res Bytes) (uid : Bytes) (kt mech : Nat) (tm : Template) (g : Obj)
      (h : generateGeneric rnd uid kt mech tm = .ok g) : Generated g
  | hotp (rnd : Nat → Res Bytes) (uid : Bytes) (mech : Nat) (tm : Template) (g : Obj)
      (h : generateHotp rnd uid mech tm = .ok g) : Generated g
  | pair (o : Obj) (mech : Nat) : Generated (defaultKeyAttributes o mech)

/-- `Life gen past o`: `o` is the current state of a key; `past` lists the states that it and the keys it
was copied or derived from have been in, `o` included; `gen` tells whether all of these go back to a
generation on the token.

Restrictions against the English property (each is needed, see the counterexamples below):
* a C_CopyObject template does not name CKA_NEVER_EXTRACTABLE, and does not name CKA_ALWAYS_SENSITIVE
  unless the key has a readable CKA_SENSITIVE;
* the copied key has both history attributes (keys made by C_UnwrapKey have not);
* a C_UnwrapKey template names neither history attribute;
* ECDH and FFDH derivations are left out. -/
inductive Life : Bool → List Obj → Obj → Prop
  | generate (g : Obj) : Generated g → Life true [g] g
  | create (O : Oracle) (uid : Bytes) (tm : Template) (o : Obj) (c : Nat) :
      factoriesCreate O uid tm = .ok o → HasUlong o CKA_CLASS c → c ∈ keyClasses → Life false [o] o
  | unwrap (F : Factory) (uid data : Bytes) (tm : Template) (o : Obj) : (∃ k, (k, F) ∈ registry) →
      importSecret F uid data tm = .ok o →
      (∀ c ∈ tm, c.typ ≠ CKA_ALWAYS_SENSITIVE ∧ c.typ ≠ CKA_NEVER_EXTRACTABLE) → Life false [o] o
  | set {gen : Bool} {past : List Obj} {o : Obj} (F : Factory) (tm : Template) : Life gen past o →
      objFactory o = .ok F →
      Life gen ((setObjectAttributes F o tm).2 :: past) (setObjectAttributes F o tm).2
  | copy {gen : Bool} {past : List Obj} {o o' : Obj} (uid : Bytes) (tm : Template) : Life gen past o →
      factoriesCopy uid o tm = .ok o' →
      (∀ c ∈ tm, c.typ ≠ CKA_NEVER_EXTRACTABLE) →
      ((∀ c ∈ tm, c.typ ≠ CKA_ALWAYS_SENSITIVE) ∨ ∃ b, o.getBool CKA_SENSITIVE = .ok b) →
      (∃ b, o.getBool CKA_ALWAYS_SENSITIVE = .ok b) → (∃ b, o.getBool CKA_NEVER_EXTRACTABLE = .ok b) →
      Life gen (o' :: past) o'
  | kdf {gen : Bool} {past : List Obj} {o o1 o' : Obj} (F : Factory) (uid : Bytes) (tm : Template) (v : Bytes) :
      Life gen past o → keyTemplateFactory tm = .ok F → Obj.secretClass F.cls = true →
      deriveKeyFromTemplate uid o tm = .ok o1 → setKey F o1 v = .ok o' → Life gen (o' :: past) o'
  | simple {gen : Bool} {past : List Obj} {o o' : Obj} (k : SimpleKdf) (uid : Bytes) (tm : Template) :
      Life gen past o → (∀ other, k ≠ .baseAndKey other) → simpleDerive k uid o tm = .ok o' →
      Life gen (o' :: past) o'
  | concat {gen1 gen2 : Bool} {past1 past2 : List Obj} {o1 o2 o' : Obj} (other : KeyInfo) (uid : Bytes)
      (tm : Template) : Life gen1 past1 o1 → Life gen2 past2 o2 →
      Obj.secretClass o1.cls = true → Obj.secretClass o2.cls = true →
      (∃ b, o1.getBool CKA_ALWAYS_SENSITIVE = .ok b) → (∃ b, o2.getBool CKA_ALWAYS_SENSITIVE = .ok b) →
      KeyInfo.ofObj o2 = .ok other → simpleDerive (.baseAndKey other) uid o1 tm = .ok o' →
      Life (gen1 && gen2) (o' :: (past1 ++ past2)) o'

end Spec

theorem generated_shape {g : Obj} (h : Generated g) :
    ∃ o mech, ∀ t, t ≠ CKA_OTP_COUNTER → value g t = value (defaultKeyAttributes o mech) t := by
  cases h with
  | aes rnd uid mech tm _ h =>
    unfold generateAes at h
    split at h; · cases h
    split at h; · cases h
    split at h; · cases h
    split at h; · cases h
    split at h; · cases h
    injection h with h
    exact ⟨_, _, fun t _ => by rw [← h]⟩
  | generic rnd uid kt mech tm _ h =>
    unfold generateGeneric at h
    split at h; · cases h
    split at h; · cases h
    split at h; · cases h
    split at h; · cases h
    injection h with h
    exact ⟨_, _, fun t _ => by rw [← h]⟩
  | hotp rnd uid mech tm _ h =>
    unfold generateHotp at h
    split at h; · cases h
    split at h; · cases h
    split at h; · cases h
    simp only at h
    split at h
    · injection h with h
      exact ⟨_, _, fun t _ => by rw [← h]⟩
    · rename_i og _ _ _ _
      injection h with h
      refine ⟨og, mech, fun t ht => ?_⟩
      rw [← h, value_eq, value_eq, find_put, if_neg]
      intro e; exact ht e.symm
  | pair o mech => exact ⟨o, mech, fun _ _ => rfl⟩

theorem secret_has_sensitive : allFactories (fun F => !Obj.secretClass F.cls ||
    ((F.attrs.any fun f => f.typ == CKA_SENSITIVE && f.hasDefault) &&
     (F.attrs.any fun f => f.typ == CKA_EXTRACTABLE && f.hasDefault))) = true := by decide +kernel

theorem newValue_some {F : Factory} {tm : Template} {t : Nat} {v : Option Bytes}
    (hd : F.attrs.any (fun f => f.typ == t && f.hasDefault) = true) (h : NewValue F tm t v) : v ≠ none := by
  rw [List.any_eq_true] at hd
  obtain ⟨f, hf, h2⟩ := hd
  simp at h2
  cases h with
  | cls => simp
  | given => simp
  | default => simp
  | absent _ h' => rw [h' f hf h2.1] at h2; cases h2.2

theorem setKey_same {F : Factory} {o o' : Obj} {v : Bytes} (h : setKey F o v = .ok o') :
    SameBut [CKA_VALUE, CKA_VALUE_LEN] o o' := by
  unfold setKey at h
  split at h
  · cases h
  · have s1 : SameBut [CKA_VALUE, CKA_VALUE_LEN] o (o.put (Attr.ofBytes CKA_VALUE v)) :=
      same_put (by show CKA_VALUE ∈ _; simp)
    unfold setKeyLen at h
    split at h
    · split at h
      · cases h
      · exact s1.trans' (same_ensureUlong (by simp) h)
    · exact s1.trans' (same_ensureUlong (by simp) h)

theorem same_value {l : List Nat} {o o' : Obj} (h : SameBut l o o') {t : Nat} (ht : t ∉ l) :
    value o' t = value o t := by rw [value_eq, value_eq, h t ht]

/-- `keyDerive` on a secret class. -/
theorem derive_life {F : Factory} {k : Nat × Nat} (hF : (k, F) ∈ registry) (hs : Obj.secretClass F.cls = true)
    {uid : Bytes} {tm : Template} {base o : Obj} (h : keyDerive F uid tm base = .ok o) :
    (IsTrue o CKA_ALWAYS_SENSITIVE → IsTrue base CKA_ALWAYS_SENSITIVE ∧ IsTrue o CKA_SENSITIVE) ∧
    (IsTrue o CKA_NEVER_EXTRACTABLE → IsTrue base CKA_NEVER_EXTRACTABLE ∧ IsFalse o CKA_EXTRACTABLE) := by
  have hi : internalKeyDerive F uid tm base = .ok o := by
    unfold keyDerive at h
    split at h
    · cases h
    · rename_i o1 h1
      split at h
      · split at h
        · split at h
          · cases h
          · injection h with h; rw [h1, h]
        · injection h with h; rw [h1, h]
      · injection h with h; rw [h1, h]
  obtain ⟨_, hA, hN⟩ := C16_derive F uid tm base o hi
  unfold internalKeyDerive at hi
  split at hi
  · cases hi
  · rename_i o1 h1
    unfold internalKeyCreate at h1
    split at h1
    · cases h1
    · rename_i o0 h0
      injection h1 with h1
      have hv := secret_has_sensitive
      have hv := allFactories_spec hv hF
      simp only [hs, Bool.not_true, Bool.false_or, Bool.and_eq_true] at hv
      have hcls : o1.cls = F.cls := by
        rw [← h1, generateUnique_cls, internalObjectCreate_cls h0]
      have key : ∀ t, t ≠ CKA_CLASS → t ≠ CKA_UNIQUE_ID → attrKind t = some .bool →
          allFactories (boolDefault t) = true → F.attrs.any (fun f => f.typ == t && f.hasDefault) = true →
          ∃ b, o1.find t = some (Attr.ofBool t b) := by
        intro t ht hu hk hd hany
        have := newValue_some hany (C15_values F k hF tm _ _ o0 h0 t)
        rw [value_eq] at this
        cases hf : o0.find t with
        | none => rw [hf] at this; exact absurd rfl this
        | some a =>
          obtain ⟨b, hb⟩ := created_bool hF h0 hk ht hd hf
          refine ⟨b, ?_⟩
          rw [← h1, find_generateUnique, if_neg hu, hf, hb]
      obtain ⟨sb, hsb⟩ := key CKA_SENSITIVE (by decide) (by decide) (by decide +kernel)
        boolDefault_sensitive hv.1
      obtain ⟨eb, heb⟩ := key CKA_EXTRACTABLE (by decide) (by decide) (by decide +kernel)
        boolDefault_extractable hv.2
      have e1 : ¬ (CKA_LOCAL = CKA_SENSITIVE) := by decide
      have e2 : ¬ (CKA_ALWAYS_SENSITIVE = CKA_SENSITIVE) := by decide
      have e3 : ¬ (CKA_NEVER_EXTRACTABLE = CKA_SENSITIVE) := by decide
      have e4 : ¬ (CKA_LOCAL = CKA_EXTRACTABLE) := by decide
      have e5 : ¬ (CKA_ALWAYS_SENSITIVE = CKA_EXTRACTABLE) := by decide
      have e6 : ¬ (CKA_NEVER_EXTRACTABLE = CKA_EXTRACTABLE) := by decide
      have e7 : ¬ (CKA_NEVER_EXTRACTABLE = CKA_ALWAYS_SENSITIVE) := by decide
      have tb : ∀ t b, (Attr.ofBool t b).toBool = .ok b := by intro t b; cases b <;> rfl
      have hsens : (o1.setBool CKA_LOCAL false).isSensitive = sb := by
        unfold Obj.isSensitive Obj.boolOr
        rw [cls_setBool, hcls, if_pos hs, find_setBool, if_neg e1, hsb]
        simp only [tb]
      have hext : ∀ b, ((o1.setBool CKA_LOCAL false).setBool CKA_ALWAYS_SENSITIVE b).isExtractable = eb := by
        intro b
        unfold Obj.isExtractable Obj.boolOr
        rw [cls_setBool, cls_setBool, hcls, if_pos hs, find_setBool, if_neg e5, find_setBool, if_neg e4, heb]
        simp only [tb]
      have fin : ∀ (p : Obj) (b c : Bool), (b = true → sb = true) → (c = true → eb = false) →
          p = ((o1.setBool CKA_LOCAL false).setBool CKA_ALWAYS_SENSITIVE b).setBool CKA_NEVER_EXTRACTABLE c →
          (IsTrue p CKA_ALWAYS_SENSITIVE → IsTrue p CKA_SENSITIVE) ∧
          (IsTrue p CKA_NEVER_EXTRACTABLE → IsFalse p CKA_EXTRACTABLE) := by
        rintro p b c hb hc rfl
        constructor
        · intro ht
          have := hb ((isTrue_ofBool (b := b) (by simp [find_setBool, e7])).mp ht)
          exact (isTrue_ofBool (b := sb) (by simp [find_setBool, e1, e2, e3, hsb])).mpr this
        · intro ht
          have := hc ((isTrue_ofBool (b := c) (by simp [find_setBool])).mp ht)
          unfold IsFalse
          rw [value_eq]; simp [find_setBool, e4, e5, e6, heb, this, Attr.ofBool]
      have goal : (IsTrue o CKA_ALWAYS_SENSITIVE → IsTrue o CKA_SENSITIVE) ∧
          (IsTrue o CKA_NEVER_EXTRACTABLE → IsFalse o CKA_EXTRACTABLE) := by
        injection hi with hi
        rcases hx : base.getBool CKA_ALWAYS_SENSITIVE with e | b <;>
          rcases hy : base.getBool CKA_NEVER_EXTRACTABLE with e' | b'
        · rw [hx, hy] at hi; exact fin _ false false (by simp) (by simp) hi.symm
        · rw [hx, hy] at hi
          cases b'
          · exact fin _ false false (by simp) (by simp) hi.symm
          · simp only [hext] at hi
            exact fin _ false (!eb) (by simp) (by simp) hi.symm
        · rw [hx, hy] at hi
          cases b
          · exact fin _ false false (by simp) (by simp) hi.symm
          · simp only [hsens] at hi
            exact fin _ sb false (by simp) (by simp) hi.symm
        · rw [hx, hy] at hi
          cases b <;> cases b'
          · exact fin _ false false (by simp) (by simp) hi.symm
          · simp only [hext] at hi
            exact fin _ false (!eb) (by simp) (by simp) hi.symm
          · simp only [hsens] at hi
            exact fin _ sb false (by simp) (by simp) hi.symm
          · simp only [hsens, hext] at hi
            exact fin _ sb (!eb) (by simp) (by simp) hi.symm
      exact ⟨fun h => ⟨hA h, goal.1 h⟩, fun h => ⟨hN h, goal.2 h⟩⟩

theorem keyTemplateFactory_mem {tm : Template} {F : Factory} (h : keyTemplateFactory tm = .ok F) :
    ∃ k, (k, F) ∈ registry := by
  unfold keyTemplateFactory at h
  split at h
  · cases h
  · split at h
    · cases h
    · exact ⟨_, getFactory_mem h⟩

theorem set_step {o : Obj} {F : Factory} {tm : Template} (hF : objFactory o = .ok F) {t : Nat}
    (ht : t = CKA_ALWAYS_SENSITIVE ∨ t = CKA_NEVER_EXTRACTABLE) :
    value (setObjectAttributes F o tm).2 t = value o t := by
  obtain ⟨k, hmem⟩ := objFactory_mem hF
  have := allFactories_spec reserved_never hmem
  rw [List.all_eq_true] at this
  have := this t (by rcases ht with h | h <;> simp [h, reservedAttrs])
  have : neverSet F t = true := by
    rcases ht with h | h
    · rw [h] at this ⊢
      have e : (CKA_ALWAYS_SENSITIVE == CKA_TRUSTED) = false := by decide
      simpa [e] using this
    · rw [h] at this ⊢
      have e : (CKA_NEVER_EXTRACTABLE == CKA_TRUSTED) = false := by decide
      simpa [e] using this
  rw [value_eq, value_eq, set_keeps this]

theorem copy_as {uid : Bytes} {o o' : Obj} {tm : Template} (h : factoriesCopy uid o tm = .ok o')
    (hnt : (∀ c ∈ tm, c.typ ≠ CKA_ALWAYS_SENSITIVE) ∨ ∃ b, o.getBool CKA_SENSITIVE = .ok b)
    (has : ∃ b, o.getBool CKA_ALWAYS_SENSITIVE = .ok b) (ht : IsTrue o' CKA_ALWAYS_SENSITIVE) :
    IsTrue o CKA_ALWAYS_SENSITIVE := by
  obtain ⟨c, hc⟩ := has
  cases hb : o.getBool CKA_SENSITIVE with
  | ok b => exact ((C16_copy_partial uid o o' tm h).2 b c hb hc ht).1
  | error e =>
    have hnt : ∀ c ∈ tm, c.typ ≠ CKA_ALWAYS_SENSITIVE := by
      rcases hnt with h | ⟨b, h⟩
      · exact h
      · rw [hb] at h; cases h
    obtain ⟨F, hF, _, hck, _, rfl⟩ := factoriesCopy_ok h
    have hf : ∀ p : Obj, p.find CKA_ALWAYS_SENSITIVE = o.find CKA_ALWAYS_SENSITIVE → p.getBool CKA_SENSITIVE = .error e →
        (copyFixAlwaysSensitive o p).find CKA_ALWAYS_SENSITIVE = o.find CKA_ALWAYS_SENSITIVE := by
      intro p hp he
      unfold copyFixAlwaysSensitive
      rw [he]; exact hp
    obtain ⟨k, hmem⟩ := objFactory_mem hF
    have hall := copyChecks_ok hck
    unfold IsTrue at ht ⊢
    rw [value_eq, hf] at ht
    · rw [value_eq]; exact ht
    · rw [find_copyFixNE _ _ _ (by decide), applyTemplate_find_none _ hnt, find_blindCopy]; rfl
    · rw [← hb]
      unfold Obj.getBool
      rw [find_copyFixNE _ _ _ (by decide), applyTemplate_find_none, find_blindCopy]; rfl
      intro c hc e
      obtain ⟨f, hf, hcc⟩ := hall c hc
      rw [e] at hf
      obtain ⟨_, g2, _, g4⟩ := guarded_spec (allFactories_spec guarded_sensitive hmem) hf
      rw [hcc g2] at g4; cases g4

theorem copy_ne {uid : Bytes} {o o' : Obj} {tm : Template} (h : factoriesCopy uid o tm = .ok o')
    (hnt : ∀ c ∈ tm, c.typ ≠ CKA_NEVER_EXTRACTABLE)
    (has : ∃ b, o.getBool CKA_NEVER_EXTRACTABLE = .ok b) (ht : IsTrue o' CKA_NEVER_EXTRACTABLE) :
    IsTrue o CKA_NEVER_EXTRACTABLE := by
  obtain ⟨c, hc⟩ := has
  obtain ⟨F, hF, _, hck, _, rfl⟩ := factoriesCopy_ok h
  have hsame : (applyTemplate (o.blindCopy uid) tm).2.find CKA_NEVER_EXTRACTABLE = o.find CKA_NEVER_EXTRACTABLE := by
    rw [applyTemplate_find_none _ hnt, find_blindCopy]; rfl
  unfold IsTrue at ht ⊢
  rw [value_eq, find_copyFixAS _ _ _ (by decide)] at ht
  rw [value_eq]
  revert ht
  generalize (applyTemplate (o.blindCopy uid) tm).2 = p at hsame
  have hpc : p.getBool CKA_NEVER_EXTRACTABLE = .ok c := by
    rw [← hc]; unfold Obj.getBool; rw [hsame]
  unfold copyFixNeverExtractable
  split
  · simp only [hpc]
    rw [find_setBool, if_pos rfl]
    intro ht
    obtain ⟨b, h1, h2⟩ := ht
    have : c = true := by
      cases c
      · simp [Attr.ofBool] at h1; exact absurd h1.symm h2
      · rfl
    have := getBool_true_iff (by rw [hc, this] : o.getBool CKA_NEVER_EXTRACTABLE = .ok true)
    unfold IsTrue at this
    rw [value_eq] at this; exact this
  · rw [hsame]; exact id

theorem simple_shape {k : SimpleKdf} {uid : Bytes} {o o' : Obj} {tm : Template}
    (h : simpleDerive k uid o tm = .ok o') : ∃ (base : KeyInfo) (tm' : Template) (F : Factory) (kk : Nat × Nat) (o1 o2 : Obj),
      KeyInfo.ofObj o = .ok base ∧
      (kk, F) ∈ registry ∧ Obj.secretClass F.cls = true ∧ keyDerive F uid tm' o = .ok o1 ∧
      (match k with | .baseAndKey other => baseAndKeyAttrs base other tm' o1 | _ => .ok o1) = .ok o2 ∧
      SameBut [CKA_VALUE, CKA_VALUE_LEN] o2 o' := by
  unfold simpleDerive at h
  split at h
  · cases h
  · split at h
    · cases h
    · rename_i base hbase
      simp only at h
      split at h
      · cases h
      · rename_i F hF
        split at h
        · cases h
        · rename_i o1 h1
          split at h
          · cases h
          · rename_i o2 h2
            split at h
            · cases h
            · split at h
              · split at h
                · rename_i hcls
                  have hs : Obj.secretClass F.cls = true := by
                    rcases hcls with h | h <;> rw [h] <;> decide
                  obtain ⟨kk, hmem⟩ := keyTemplateFactory_mem hF
                  refine ⟨base, _, F, kk, o1, o2, hbase, hmem, hs, ?_, h2, setKey_same h⟩
                  have : keyClass F.cls = true := by unfold keyClass; simp [hs]
                  rw [if_pos this] at h1; exact h1
                · cases h
              · cases h

theorem boolOr_getBool {o : Obj} {t : Nat} {d b : Bool} (h : o.getBool t = .ok b) : o.boolOr t d = b := by
  unfold Obj.getBool at h
  unfold Obj.boolOr
  cases hf : o.find t with
  | none => rw [hf] at h; cases h
  | some a => rw [hf] at h; simp only at h ⊢; rw [h]

theorem boolOr_default {o : Obj} {t : Nat} {d : Bool} (h : o.boolOr t d = !d) : o.getBool t = .ok (!d) := by
  unfold Obj.getBool
  unfold Obj.boolOr at h
  cases hf : o.find t with
  | none => rw [hf] at h; cases d <;> cases h
  | some a =>
    rw [hf] at h
    simp only at h ⊢
    split at h
    · rename_i b hb; rw [hb, h]
    · cases d <;> cases h

/-- **C17** (partial: see `Life` for what is left out).  A key that reports CKA_ALWAYS_SENSITIVE goes back
to generation on the token, and it and every key it was copied or derived from have been sensitive in
every state they have been in; likewise CKA_NEVER_EXTRACTABLE and unextractability. -/
theorem C17_partial {gen : Bool} {past : List Obj} {o : Obj} (h : Life gen past o) :
    (IsTrue o CKA_ALWAYS_SENSITIVE → gen = true ∧ ∀ s ∈ past, IsTrue s CKA_SENSITIVE) ∧
    (IsTrue o CKA_NEVER_EXTRACTABLE → gen = true ∧ ∀ s ∈ past, IsFalse s CKA_EXTRACTABLE) ∧ o ∈ past := by
  have value_true : ∀ {a b : Obj} {t : Nat}, value a t = value b t → IsTrue a t → IsTrue b t := by
    intro a b t e h; unfold IsTrue at *; rw [← e]; exact h
  have value_false : ∀ {a b : Obj} {t : Nat}, value a t = value b t → IsFalse a t → IsFalse b t := by
    intro a b t e h; unfold IsFalse at *; rw [← e]; exact h
  induction h with
  | generate g hg =>
    obtain ⟨o, mech, hv⟩ := generated_shape hg
    obtain ⟨_, _, h3, h4⟩ := C16_generated o mech
    refine ⟨fun ht => ⟨rfl, ?_⟩, fun ht => ⟨rfl, ?_⟩, by simp⟩
    · intro s hs
      simp at hs; subst hs
      exact value_true (hv _ (by decide)).symm (h3 (value_true (hv _ (by decide)) ht))
    · intro s hs
      simp at hs; subst hs
      exact value_false (hv _ (by decide)).symm (h4 (value_true (hv _ (by decide)) ht))
  | create O uid tm o c hc hcl hk =>
    obtain ⟨_, _, _, _, h5, h6⟩ := C16_create O uid tm o c hc hcl hk
    have no : ∀ t, (IsFalse o t ∨ value o t = none) → ¬ IsTrue o t := by
      rintro t (h | h) ⟨b, hb, hb0⟩
      · unfold IsFalse at h; rw [hb] at h; simp at h; exact hb0 h
      · rw [hb] at h; cases h
    refine ⟨fun ht => absurd ht (no _ ?_), fun ht => absurd ht (no _ ?_), by simp⟩
    · by_cases hp : c = CKO_PUBLIC_KEY
      · exact .inr (h6 hp).1
      · exact .inl (h5 hp).1
    · by_cases hp : c = CKO_PUBLIC_KEY
      · exact .inr (h6 hp).2
      · exact .inl (h5 hp).2
  | unwrap F uid data tm o hF hi hno =>
    obtain ⟨k, hF⟩ := hF
    unfold importSecret at hi
    split at hi
    · cases hi
    · rename_i o1 h1
      have hsk := setKey_same hi
      unfold keyUnwrap internalKeyCreate at h1
      split at h1
      · cases h1
      · rename_i o0 h0
        injection h1 with h1
        have nv : ∀ t, t ≠ CKA_CLASS → t ≠ CKA_UNIQUE_ID → t ∉ [CKA_VALUE, CKA_VALUE_LEN] →
            (∀ c ∈ tm, c.typ ≠ t) → allFactories (reservedIn t none) = true → value o t = none := by
          intro t a1 a2 a3 a4 a5
          rw [same_value hsk a3, value_eq, ← h1, find_generateUnique, if_neg a2, ← value_eq]
          have := C15_values F k hF tm _ _ o0 h0 t
          generalize value o0 t = v at this
          cases this with
          | cls e => exact absurd e a1
          | given c a _ _ hc ht _ => exact absurd ht (a4 c hc)
          | default f _ hf ht hd =>
            have := allFactories_spec a5 hF
            unfold reservedIn at this
            rw [List.all_eq_true] at this
            have := this f hf
            rw [ht] at this
            simp [hd] at this
          | absent => rfl
        have v1 := nv CKA_ALWAYS_SENSITIVE (by decide) (by decide) (by decide) (fun c hc => (hno c hc).1) reserved_as
        have v2 := nv CKA_NEVER_EXTRACTABLE (by decide) (by decide) (by decide) (fun c hc => (hno c hc).2) reserved_ne
        refine ⟨?_, ?_, by simp⟩
        · rintro ⟨b, hb, _⟩; rw [v1] at hb; cases hb
        · rintro ⟨b, hb, _⟩; rw [v2] at hb; cases hb
  | @set gen past o F tm hl hF ih =>
    obtain ⟨ih1, ih2, ih3⟩ := ih
    refine ⟨fun ht => ?_, fun ht => ?_, List.mem_cons_self ..⟩
    · obtain ⟨hg, hp⟩ := ih1 (value_true (set_step hF (.inl rfl)) ht)
      refine ⟨hg, fun s hs => ?_⟩
      rcases List.mem_cons.mp hs with h | h
      · rw [h]
        exact C14_sensitive_stays_true (.step (.refl _) (.set o F tm hF)) (hp o ih3)
      · exact hp s h
    · obtain ⟨hg, hp⟩ := ih2 (value_true (set_step hF (.inr rfl)) ht)
      refine ⟨hg, fun s hs => ?_⟩
      rcases List.mem_cons.mp hs with h | h
      · rw [h]
        exact C14_extractable_stays_false (.step (.refl _) (.set o F tm hF)) (hp o ih3)
      · exact hp s h
  | @copy gen past o o' uid tm hl hc h1 h2 h3 h4 ih =>
    obtain ⟨ih1, ih2, ih3⟩ := ih
    refine ⟨fun ht => ?_, fun ht => ?_, List.mem_cons_self ..⟩
    · obtain ⟨hg, hp⟩ := ih1 (copy_as hc h2 h3 ht)
      refine ⟨hg, fun s hs => ?_⟩
      rcases List.mem_cons.mp hs with h | h
      · rw [h]
        exact C14_sensitive_stays_true (.step (.refl _) (.copy o o' uid tm hc)) (hp o ih3)
      · exact hp s h
    · obtain ⟨hg, hp⟩ := ih2 (copy_ne hc h1 h4 ht)
      refine ⟨hg, fun s hs => ?_⟩
      rcases List.mem_cons.mp hs with h | h
      · rw [h]
        exact C14_extractable_stays_false (.step (.refl _) (.copy o o' uid tm hc)) (hp o ih3)
      · exact hp s h
  | @kdf gen past o o1 o' F uid tm v hl hF hs hd hk ih =>
    obtain ⟨ih1, ih2, ih3⟩ := ih
    obtain ⟨kk, hmem⟩ := keyTemplateFactory_mem hF
    unfold deriveKeyFromTemplate at hd
    rw [hF] at hd
    simp only at hd
    split at hd
    · obtain ⟨d1, d2⟩ := derive_life hmem hs hd
      have sk := setKey_same hk
      refine ⟨fun ht => ?_, fun ht => ?_, List.mem_cons_self ..⟩
      · obtain ⟨hb, hs'⟩ := d1 (value_true (same_value sk (by decide)) ht)
        obtain ⟨hg, hp⟩ := ih1 hb
        refine ⟨hg, fun s hs => ?_⟩
        rcases List.mem_cons.mp hs with h | h
        · rw [h]; exact value_true (same_value sk (by decide)).symm hs'
        · exact hp s h
      · obtain ⟨hb, hs'⟩ := d2 (value_true (same_value sk (by decide)) ht)
        obtain ⟨hg, hp⟩ := ih2 hb
        refine ⟨hg, fun s hs => ?_⟩
        rcases List.mem_cons.mp hs with h | h
        · rw [h]; exact value_false (same_value sk (by decide)).symm hs'
        · exact hp s h
    · cases hd
  | @simple gen past o o' k uid tm hl hno hd ih =>
    obtain ⟨ih1, ih2, ih3⟩ := ih
    obtain ⟨base, tm', F, kk, o1, o2, _, hmem, hs, hkd, ho2, sk⟩ := simple_shape hd
    have ho2 : o1 = o2 := by
      cases k with
      | baseAndKey other => exact absurd rfl (hno other)
      | _ => injection ho2
    subst ho2
    obtain ⟨d1, d2⟩ := derive_life hmem hs hkd
    refine ⟨fun ht => ?_, fun ht => ?_, List.mem_cons_self ..⟩
    · obtain ⟨hb, hs'⟩ := d1 (value_true (same_value sk (by decide)) ht)
      obtain ⟨hg, hp⟩ := ih1 hb
      refine ⟨hg, fun s hs => ?_⟩
      rcases List.mem_cons.mp hs with h | h
      · rw [h]; exact value_true (same_value sk (by decide)).symm hs'
      · exact hp s h
    · obtain ⟨hb, hs'⟩ := d2 (value_true (same_value sk (by decide)) ht)
      obtain ⟨hg, hp⟩ := ih2 hb
      refine ⟨hg, fun s hs => ?_⟩
      rcases List.mem_cons.mp hs with h | h
      · rw [h]; exact value_false (same_value sk (by decide)).symm hs'
      · exact hp s h
  | @concat gen1 gen2 past1 past2 p1 p2 o' other uid tm hl1 hl2 hc1 hc2 hA1 hA2 hko hd ih1 ih2 =>
    obtain ⟨base, tm', F, kk, o1, o2, hb, hmem, hs, hkd, ho2, sk⟩ := simple_shape hd
    simp only at ho2
    obtain ⟨a1, hA1⟩ := hA1
    obtain ⟨a2, hA2⟩ := hA2
    have kiBase : ∀ {o : Obj} {i : KeyInfo}, KeyInfo.ofObj o = .ok i → i.sensitive = o.isSensitive ∧
        i.extractable = o.isExtractable ∧ i.alwaysSensitive = o.isAlwaysSensitive ∧
        i.neverExtractable = o.isNeverExtractable := by
      intro o i h
      unfold KeyInfo.ofObj at h
      split at h
      · cases h
      · injection h with h; subst h; simp
    obtain ⟨b1, b2, b3, b4⟩ := kiBase hb
    obtain ⟨c1, c2, c3, c4⟩ := kiBase hko
    have hAt : ∀ {o : Obj} {b : Bool}, o.getBool CKA_ALWAYS_SENSITIVE = .ok b → o.isAlwaysSensitive = true →
        IsTrue o CKA_ALWAYS_SENSITIVE := by
      intro o b h1 h2
      unfold Obj.isAlwaysSensitive at h2
      rw [boolOr_getBool h1] at h2
      exact getBool_true_iff (by rw [h1, h2])
    have hNt : ∀ {o : Obj}, o.isNeverExtractable = true → IsTrue o CKA_NEVER_EXTRACTABLE := by
      intro o h
      exact getBool_true_iff (boolOr_default (d := false) h)
    have sensOf : ∀ {o : Obj}, Obj.secretClass o.cls = true → IsTrue o CKA_SENSITIVE → o.isSensitive = true := by
      intro o h1 h2
      unfold Obj.isSensitive
      rw [if_pos h1]
      unfold Obj.boolOr
      obtain ⟨b, hb, hb0⟩ := h2
      rw [value_eq] at hb
      cases hf : o.find CKA_SENSITIVE with
      | none => rfl
      | some a =>
        rw [hf] at hb; simp at hb
        by_cases ha : a.atype ≠ .bool
        · simp [Attr.toBool, ha]
        · simp only [Attr.toBool, if_neg ha, hb]; simpa using hb0
    have extOf : ∀ {o : Obj}, Obj.secretClass o.cls = true → IsFalse o CKA_EXTRACTABLE → o.isExtractable = false := by
      intro o h1 h2
      unfold Obj.isExtractable
      rw [if_pos h1]
      unfold Obj.boolOr
      unfold IsFalse at h2
      rw [value_eq] at h2
      cases hf : o.find CKA_EXTRACTABLE with
      | none => rfl
      | some a =>
        rw [hf] at h2; simp at h2
        by_cases ha : a.atype ≠ .bool
        · simp [Attr.toBool, ha]
        · simp only [Attr.toBool, if_neg ha, h2]; decide
    -- the attributes of the result
    have shape : ∃ s x, (base.sensitive = true → s = true) ∧ (base.extractable = false → x = false) ∧
        o2 = (((o1.setBool CKA_SENSITIVE s).setBool CKA_EXTRACTABLE x).setBool CKA_ALWAYS_SENSITIVE
          (base.alwaysSensitive && other.alwaysSensitive)).setBool CKA_NEVER_EXTRACTABLE
          (base.neverExtractable && other.neverExtractable) := by
      unfold baseAndKeyAttrs at ho2
      simp only at ho2
      split at ho2
      · cases ho2
      · rename_i s hs'
        split at ho2
        · cases ho2
        · rename_i x hx'
          injection ho2 with ho2
          refine ⟨s, x, ?_, ?_, ho2.symm⟩
          · intro h; rw [h] at hs'; simp at hs'; exact hs'
          · intro h; rw [h] at hx'; simp at hx'; exact hx'
    obtain ⟨s, x, hs1, hx1, rfl⟩ := shape
    have e1 : ¬ (CKA_NEVER_EXTRACTABLE = CKA_ALWAYS_SENSITIVE) := by decide
    have e2 : ¬ (CKA_NEVER_EXTRACTABLE = CKA_SENSITIVE) := by decide
    have e3 : ¬ (CKA_ALWAYS_SENSITIVE = CKA_SENSITIVE) := by decide
    have e4 : ¬ (CKA_EXTRACTABLE = CKA_SENSITIVE) := by decide
    have e5 : ¬ (CKA_NEVER_EXTRACTABLE = CKA_EXTRACTABLE) := by decide
    have e6 : ¬ (CKA_ALWAYS_SENSITIVE = CKA_EXTRACTABLE) := by decide
    obtain ⟨i1, i2, i3⟩ := ih1
    obtain ⟨j1, j2, j3⟩ := ih2
    refine ⟨fun ht => ?_, fun ht => ?_, List.mem_cons_self ..⟩
    · have := (isTrue_ofBool (b := base.alwaysSensitive && other.alwaysSensitive) (by
        simp [find_setBool, e1])).mp (value_true (same_value sk (by decide)) ht)
      simp at this
      rw [b3, c3] at this
      obtain ⟨g1, q1⟩ := i1 (hAt hA1 this.1)
      obtain ⟨g2, q2⟩ := j1 (hAt hA2 this.2)
      refine ⟨by rw [g1, g2]; rfl, fun s' hs' => ?_⟩
      rcases List.mem_cons.mp hs' with h | h
      · rw [h]
        refine value_true (same_value sk (by decide)).symm ?_
        refine (isTrue_ofBool (b := s) (by simp [find_setBool, e2, e3, e4])).mpr (hs1 ?_)
        rw [b1]; exact sensOf hc1 (q1 _ i3)
      · rcases List.mem_append.mp h with h | h
        · exact q1 _ h
        · exact q2 _ h
    · have := (isTrue_ofBool (b := base.neverExtractable && other.neverExtractable) (by
        simp [find_setBool])).mp (value_true (same_value sk (by decide)) ht)
      simp at this
      rw [b4, c4] at this
      obtain ⟨g1, q1⟩ := i2 (hNt this.1)
      obtain ⟨g2, q2⟩ := j2 (hNt this.2)
      refine ⟨by rw [g1, g2]; rfl, fun s' hs' => ?_⟩
      rcases List.mem_cons.mp hs' with h | h
      · rw [h]
        refine value_false (same_value sk (by decide)).symm ?_
        unfold IsFalse
        rw [value_eq]
        have : x = false := hx1 (by rw [b2]; exact extOf hc1 (q1 _ i3))
        simp [find_setBool, e5, e6, Attr.ofBool, this]
      · rcases List.mem_append.mp h with h | h
        · exact q1 _ h
        · exact q2 _ h

/-! ## Non-vacuity -/

/-- Generate an AES key, relabel it, copy it, derive a key from the copy: both attributes are true at the
end, the history has four states. -/
def exC17Set : Template := [.mk' CKA_LABEL [120], .ofBool CKA_DERIVE true]
def exC17Gen : Template := [.ofUlong CKA_VALUE_LEN 16, .ofBool CKA_DERIVE true]
def exC17a : Obj := okObj (generateAes exRnd exUid CKM_AES_KEY_GEN exC17Gen)
def exC17b : Obj := (setObjectAttributes aesF exC17a exC17Set).2
def exC17c : Obj := okObj (factoriesCopy exUid2 exC17b [.ofBool CKA_TOKEN true])
def exC17d : Obj := okObj (simpleDerive (.xor exKeyBytes) exUid exC17c [.ofUlong CKA_KEY_TYPE CKK_AES, .ofUlong CKA_VALUE_LEN 16])

theorem exC17_life : Life true [exC17d, exC17c, exC17b, exC17a] exC17d :=
  .simple (.xor exKeyBytes) exUid [.ofUlong CKA_KEY_TYPE CKK_AES, .ofUlong CKA_VALUE_LEN 16]
    (.copy exUid2 [.ofBool CKA_TOKEN true]
      (.set aesF exC17Set
        (.generate exC17a (.aes exRnd exUid CKM_AES_KEY_GEN exC17Gen _ (by decide +kernel)))
        (by decide +kernel))
      (by decide +kernel) (by decide) (.inl (by decide)) ⟨true, by decide +kernel⟩ ⟨true, by decide +kernel⟩)
    (by intro _ h; cases h) (by decide +kernel)

example : IsTrue exC17d CKA_ALWAYS_SENSITIVE ∧ IsTrue exC17d CKA_NEVER_EXTRACTABLE ∧
    exC17d.getBytes CKA_VALUE ≠ exC17c.getBytes CKA_VALUE ∧ exC17b ≠ exC17a :=
  ⟨⟨1, by decide +kernel⟩, ⟨1, by decide +kernel⟩, by decide +kernel, by decide +kernel⟩

/-! ## Counterexamples in the code to the full property -/

/-- An imported key; the copy reports CKA_NEVER_EXTRACTABLE because the template said so. -/
theorem C17_copy_forges : ∃ (past : List Obj) (o o' : Obj) (tm : Template),
    Life false past o ∧ factoriesCopy exUid2 o tm = .ok o' ∧ IsTrue o' CKA_NEVER_EXTRACTABLE :=
  ⟨[exAes], exAes, okObj (factoriesCopy exUid2 exAes [.ofBool CKA_NEVER_EXTRACTABLE true]),
    [.ofBool CKA_NEVER_EXTRACTABLE true],
    .create exOracle exUid exAesTemplate exAes CKO_SECRET_KEY (by decide +kernel) (by unfold HasUlong; decide +kernel)
      (by decide), by decide +kernel, ⟨1, by decide +kernel⟩⟩

/-- Template of a C_UnwrapKey. -/
def exUnwrapTmpl : Template := [.ofUlong CKA_CLASS CKO_SECRET_KEY, .ofUlong CKA_KEY_TYPE CKK_AES,
  .ofUlong CKA_VALUE_LEN 16, .ofBool CKA_DERIVE true]

/-- A key that came in through C_UnwrapKey. -/
def exUnwrapped : Obj := okObj (importSecret aesF exUid exKeyBytes exUnwrapTmpl)

/-- A key unwrapped with an innocent template carries neither history attribute; a plain copy of it
reports both as true. -/
theorem C17_unwrap_copy_forges : ∃ (o o' : Obj), Life false [o] o ∧ factoriesCopy exUid2 o [] = .ok o' ∧
    IsTrue o' CKA_ALWAYS_SENSITIVE ∧ IsTrue o' CKA_NEVER_EXTRACTABLE :=
  ⟨exUnwrapped, okObj (factoriesCopy exUid2 exUnwrapped []),
    .unwrap aesF exUid exKeyBytes exUnwrapTmpl exUnwrapped
      ⟨(CKO_SECRET_KEY, CKK_AES), by decide +kernel⟩ (by decide +kernel) (by decide),
    by decide +kernel, ⟨1, by decide +kernel⟩, ⟨1, by decide +kernel⟩⟩

/-- CKM_CONCATENATE_BASE_AND_KEY of an unwrapped key with itself: CKA_ALWAYS_SENSITIVE is reported true. -/
theorem C17_concat_forges : ∃ (o o' : Obj) (other : KeyInfo), Life false [o] o ∧ KeyInfo.ofObj o = .ok other ∧
    simpleDerive (.baseAndKey other) exUid2 o [] = .ok o' ∧ IsTrue o' CKA_ALWAYS_SENSITIVE :=
  ⟨exUnwrapped, okObj (simpleDerive (.baseAndKey ⟨true, false, true, false, exKeyBytes⟩) exUid2 exUnwrapped []),
    ⟨true, false, true, false, exKeyBytes⟩,
    .unwrap aesF exUid exKeyBytes exUnwrapTmpl exUnwrapped
      ⟨(CKO_SECRET_KEY, CKK_AES), by decide +kernel⟩ (by decide +kernel) (by decide),
    by decide +kernel, by decide +kernel, ⟨1, by decide +kernel⟩⟩

/-- ECDH/FFDH derivation: whatever the base key (it is not even consulted), the derived key reports being
local, always sensitive and never extractable. -/
theorem C17_agreement_forges : ∃ (tm : Template) (o : Obj),
    agreementDerive exOracle exUid CKM_ECDH1_DERIVE tm exKeyBytes = .ok o ∧
    IsTrue o CKA_LOCAL ∧ IsTrue o CKA_ALWAYS_SENSITIVE ∧ IsTrue o CKA_NEVER_EXTRACTABLE :=
  ⟨[.ofUlong CKA_CLASS CKO_SECRET_KEY, .ofUlong CKA_KEY_TYPE CKK_AES],
    okObj (agreementDerive exOracle exUid CKM_ECDH1_DERIVE
      [.ofUlong CKA_CLASS CKO_SECRET_KEY, .ofUlong CKA_KEY_TYPE CKK_AES] exKeyBytes),
    by decide +kernel, ⟨1, by decide +kernel⟩, ⟨1, by decide +kernel⟩, ⟨1, by decide +kernel⟩⟩

end Kry
