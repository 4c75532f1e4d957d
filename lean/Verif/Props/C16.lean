import Verif.Proofs.Keys

/-!
# C16: reserved attributes cannot be forged
-/

namespace Kry
open Spec

/-- The key classes. -/
def Spec.keyClasses : List Nat := [CKO_PUBLIC_KEY, CKO_PRIVATE_KEY, CKO_SECRET_KEY, CKO_OTP_KEY]

/-- The attributes reserved to the token. -/
def Spec.reservedAttrs : List Nat :=
  [CKA_LOCAL, CKA_KEY_GEN_MECHANISM, CKA_ALWAYS_SENSITIVE, CKA_NEVER_EXTRACTABLE, CKA_TRUSTED, CKA_UNIQUE_ID]

/-- In every table the attribute, if listed, is marked never settable, not ignored and has the given
default. -/
def reservedIn (t : Nat) (d : Option Bytes) (F : Factory) : Bool :=
  F.attrs.all fun f => f.typ != t || (f.is oaNeverSettable && !f.is oaIgnored &&
    (if f.hasDefault then d == some f.attr.value else d == none))

theorem reserved_keygen : allFactories (fun F => !keyClass F.cls ||
    (reservedIn CKA_KEY_GEN_MECHANISM (some (toLE 8 CK_UNAVAILABLE_INFORMATION)) F &&
      (findF F.attrs CKA_KEY_GEN_MECHANISM).isSome)) = true := by decide +kernel
theorem reserved_trusted : allFactories (fun F => !keyClass F.cls ||
    reservedIn CKA_TRUSTED (some [0]) F) = true := by decide +kernel
theorem reserved_uid : allFactories (reservedIn CKA_UNIQUE_ID none) = true := by decide +kernel
theorem reserved_as : allFactories (reservedIn CKA_ALWAYS_SENSITIVE none) = true := by decide +kernel
theorem reserved_ne : allFactories (reservedIn CKA_NEVER_EXTRACTABLE none) = true := by decide +kernel
theorem pub_no_as : allFactories (fun F => F.cls != CKO_PUBLIC_KEY ||
    ((findF F.attrs CKA_ALWAYS_SENSITIVE).isNone && (findF F.attrs CKA_NEVER_EXTRACTABLE).isNone)) = true := by
  decide +kernel

/-- The value of a reserved attribute after the generic creation of C_CreateObject. -/
theorem reserved_new {F : Factory} {tm : Template} {required : Nat} {t : Nat} {d v : Option Bytes}
    (ht : t ≠ CKA_CLASS) (hr : reservedIn t d F = true)
    (hA : Acceptable F oaNeverSettable required tm) (hv : NewValue F tm t v) : v = d ∨ v = none := by
  unfold reservedIn at hr
  rw [List.all_eq_true] at hr
  cases hv with
  | cls e => exact absurd e ht
  | given c a _ hni hc hct hca =>
    obtain ⟨f, hf, hft⟩ := hA.known c hc
    have := hr f hf
    rw [hft, hct] at this
    simp at this
    exact absurd ⟨f, hf, hft, this.1.1⟩ (hA.allowed c hc)
  | default f _ hf hft hd =>
    have := hr f hf
    rw [hft] at this
    simp [hd] at this
    left; exact this.2.symm
  | absent _ _ => right; rfl

theorem reserved_new_some {F : Factory} {k : Nat × Nat} (hF : (k, F) ∈ registry) {tm : Template} {required : Nat}
    {t : Nat} {b : Bytes} {v : Option Bytes} (ht : t ≠ CKA_CLASS) (hr : reservedIn t (some b) F = true)
    (hin : (findF F.attrs t).isSome = true)
    (hA : Acceptable F oaNeverSettable required tm) (hv : NewValue F tm t v) : v = some b := by
  rcases reserved_new ht hr hA hv with h | h
  · exact h
  · exfalso
    subst h
    cases hf : findF F.attrs t with
    | none => rw [hf] at hin; cases hin
    | some f =>
      have hd : f.hasDefault = true := by
        unfold reservedIn at hr
        rw [List.all_eq_true] at hr
        have := hr f (findF_mem hf)
        rw [findF_typ hf] at this
        by_cases h : f.hasDefault = true
        · exact h
        · simp [h] at this
      generalize hx : (none : Option Bytes) = x at hv
      cases hv with
      | cls e => exact ht e
      | given => cases hx
      | default => cases hx
      | absent _ h2 => rw [h2 f (findF_mem hf) (findF_typ hf)] at hd; cases hd

theorem keyClass_iff (c : Nat) : keyClass c = true ↔ c ∈ keyClasses := by
  simp [keyClass, Obj.secretClass, keyClasses]
  constructor
  · rintro (h | (h | h) | h) <;> simp [h]
  · rintro (h | h | h | h) <;> simp [h]

/-- **C16, C_CreateObject.**  Whatever the template, a key made by C_CreateObject has CKA_LOCAL false,
no generation mechanism, is not trusted, carries the token's unique id and, if it is a secret or private
key, has CKA_ALWAYS_SENSITIVE and CKA_NEVER_EXTRACTABLE false. -/
theorem C16_create (O : Oracle) (uid : Bytes) (tm : Template) (o : Obj) (c : Nat)
    (h : factoriesCreate O uid tm = .ok o) (hc : HasUlong o CKA_CLASS c) (hk : c ∈ keyClasses) :
    IsFalse o CKA_LOCAL ∧ HasUlong o CKA_KEY_GEN_MECHANISM CK_UNAVAILABLE_INFORMATION ∧
    ¬ IsTrue o CKA_TRUSTED ∧ value o CKA_UNIQUE_ID = some uid ∧
    (c ≠ CKO_PUBLIC_KEY → IsFalse o CKA_ALWAYS_SENSITIVE ∧ IsFalse o CKA_NEVER_EXTRACTABLE) ∧
    (c = CKO_PUBLIC_KEY → value o CKA_ALWAYS_SENSITIVE = none ∧ value o CKA_NEVER_EXTRACTABLE = none) := by
  obtain ⟨F, k, hF, hsel, hA, hval⟩ := C15_create_object O uid tm o h
  have hcr : F.create O uid tm = .ok o := by
    unfold factoriesCreate at h; rw [hsel] at h; exact h
  have hcls : F.cls < 2 ^ 64 := by
    have := allFactories_spec classes_small hF; simpa using this
  have hFc : F.cls = c := by
    have h1 := hval CKA_CLASS (by
      cases F.kind <;> simp [computed] <;> decide)
    have h2 : value o CKA_CLASS = some (toLE 8 F.cls) := by
      generalize hx : value o CKA_CLASS = x at h1
      cases h1 with
      | cls _ => rfl
      | given _ _ e => exact absurd rfl e
      | default _ e => exact absurd (Or.inl rfl) e
      | absent e => exact absurd (Or.inl rfl) e
    unfold HasUlong at hc
    rw [h2] at hc
    injection hc with hc
    have hlt : c < 256 ^ 8 := by
      simp [keyClasses] at hk
      rcases hk with h | h | h | h <;> rw [h] <;> decide
    exact toLE_injective 8 _ _ (by have e : (256:Nat)^8 = 2^64 := by decide
                                   rw [e]; exact hcls) hlt hc
  have hkc : keyClass F.cls = true := by rw [hFc]; exact (keyClass_iff c).mpr hk
  obtain ⟨o1, h1, hs⟩ := create_key O uid F k hF hkc tm o hcr
  obtain ⟨o0, h0, _, hfind⟩ := keyCreate_ok h1
  have hnv := fun t => C15_values F k hF tm _ _ o0 h0 t
  have hfo : ∀ x, x ∉ keyExtra → o.find x = _ := fun x hx => (hs x hx).trans (hfind x)
  have vne : ∀ x, x ∉ keyExtra → x ≠ CKA_NEVER_EXTRACTABLE → x ≠ CKA_ALWAYS_SENSITIVE → x ≠ CKA_LOCAL →
      x ≠ CKA_UNIQUE_ID → value o x = value o0 x := by
    intro x h1 h2 h3 h4 h5
    rw [value_eq, value_eq, hfo x h1]
    simp only [h2, h3, h4, and_false, if_false]
    rw [find_generateUnique, if_neg h5]
  refine ⟨?_, ?_, ?_, ?_, ?_, ?_⟩
  · unfold IsFalse
    rw [value_eq, hfo CKA_LOCAL (by decide)]
    have e1 : ¬ (CKA_LOCAL = CKA_NEVER_EXTRACTABLE) := by decide
    have e2 : ¬ (CKA_LOCAL = CKA_ALWAYS_SENSITIVE) := by decide
    simp [e1, e2, hkc, Attr.ofBool]
  · unfold HasUlong
    rw [vne CKA_KEY_GEN_MECHANISM (by decide) (by decide) (by decide) (by decide) (by decide)]
    have := allFactories_spec reserved_keygen hF
    simp [hkc] at this
    exact reserved_new_some hF (by decide) this.1 this.2 hA (hnv _)
  · rintro ⟨b, hb, hb0⟩
    rw [vne CKA_TRUSTED (by decide) (by decide) (by decide) (by decide) (by decide)] at hb
    have := allFactories_spec reserved_trusted hF
    simp [hkc] at this
    rcases reserved_new (by decide) this hA (hnv CKA_TRUSTED) with h | h
    · rw [hb] at h; injection h with h; injection h with h; exact hb0 h
    · rw [hb] at h; cases h
  · rw [value_eq, hfo CKA_UNIQUE_ID (by decide)]
    have e1 : ¬ (CKA_UNIQUE_ID = CKA_NEVER_EXTRACTABLE) := by decide
    have e2 : ¬ (CKA_UNIQUE_ID = CKA_ALWAYS_SENSITIVE) := by decide
    have e3 : ¬ (CKA_UNIQUE_ID = CKA_LOCAL) := by decide
    simp only [e1, e2, e3, and_false, if_false]
    rw [find_generateUnique, if_pos rfl]
    have hn := reserved_new (by decide) (allFactories_spec reserved_uid hF) hA (hnv CKA_UNIQUE_ID)
    have hn : value o0 CKA_UNIQUE_ID = none := by rcases hn with h | h <;> exact h
    rw [value_eq] at hn
    cases hx : o0.find CKA_UNIQUE_ID with
    | none => rfl
    | some a => rw [hx] at hn; cases hn
  · intro hp
    have hsec : Obj.secretClass F.cls = true := by
      unfold keyClass at hkc
      rw [hFc] at hkc ⊢
      simp [hp] at hkc
      exact hkc
    unfold IsFalse
    rw [value_eq, value_eq, hfo CKA_ALWAYS_SENSITIVE (by decide), hfo CKA_NEVER_EXTRACTABLE (by decide)]
    have e1 : ¬ (CKA_ALWAYS_SENSITIVE = CKA_NEVER_EXTRACTABLE) := by decide
    simp [hsec, e1, Attr.ofBool]
  · intro hp
    have hsec : ¬ Obj.secretClass F.cls = true := by rw [hFc, hp]; decide
    have hp' := allFactories_spec pub_no_as hF
    rw [hFc, hp] at hp'
    simp at hp'
    have none_of : ∀ x, x ≠ CKA_CLASS → findF F.attrs x = none → value o0 x = none := by
      intro x hx hf
      generalize hy : value o0 x = y
      have := hnv x
      rw [hy] at this
      cases this with
      | cls e => exact absurd e hx
      | given c a _ _ hc hct _ =>
        obtain ⟨f, hf', hft⟩ := hA.known c hc
        exact absurd (hft.trans hct) (findF_none hf f hf')
      | default f _ hf' hft _ => exact absurd hft (findF_none hf f hf')
      | absent => rfl
    have e1 : ¬ (CKA_ALWAYS_SENSITIVE = CKA_LOCAL) := by decide
    have e2 : ¬ (CKA_NEVER_EXTRACTABLE = CKA_LOCAL) := by decide
    have e3 : ¬ (CKA_ALWAYS_SENSITIVE = CKA_UNIQUE_ID) := by decide
    have e4 : ¬ (CKA_NEVER_EXTRACTABLE = CKA_UNIQUE_ID) := by decide
    constructor
    · have := none_of CKA_ALWAYS_SENSITIVE (by decide) hp'.1
      rw [value_eq] at this ⊢
      rw [hfo CKA_ALWAYS_SENSITIVE (by decide)]
      simp only [hsec, e1, false_and, and_false, if_false]
      rw [find_generateUnique, if_neg e3]; exact this
    · have := none_of CKA_NEVER_EXTRACTABLE (by decide) hp'.2
      rw [value_eq] at this ⊢
      rw [hfo CKA_NEVER_EXTRACTABLE (by decide)]
      simp only [hsec, e2, false_and, and_false, if_false]
      rw [find_generateUnique, if_neg e4]; exact this

/-- Attribute `t` is marked never settable in the table of `F`, if listed. -/
def neverSet (F : Factory) (t : Nat) : Bool := F.attrs.all fun f => f.typ != t || f.is oaNeverSettable

theorem reserved_never : allFactories (fun F => reservedAttrs.all fun t =>
    neverSet F t || (!keyClass F.cls && t == CKA_TRUSTED)) = true := by decide +kernel

theorem set_keeps {F : Factory} {o : Obj} {tm : Template} {t : Nat} (h : neverSet F t = true) :
    (setObjectAttributes F o tm).2.find t = o.find t := by
  unfold setObjectAttributes
  split
  · rfl
  · split
    · rfl
    · rename_i hck
      apply applyTemplate_find_none
      intro c hc ht
      obtain ⟨f, hf, hns, _⟩ := checkSetAttributes_ok hck c hc
      unfold neverSet at h
      rw [List.all_eq_true] at h
      have := h f (findF_mem hf)
      rw [findF_typ hf, ht] at this
      simp [hns] at this

/-- **C16, C_SetAttributeValue.**  On a key, no C_SetAttributeValue changes a reserved attribute,
whether the call succeeds or fails. -/
theorem C16_set (o : Obj) (F : Factory) (tm : Template) (hF : objFactory o = .ok F)
    (hk : ∃ c ∈ keyClasses, F.cls = c) (t : Nat) (ht : t ∈ reservedAttrs) :
    value (setObjectAttributes F o tm).2 t = value o t := by
  obtain ⟨k, hmem⟩ := objFactory_mem hF
  obtain ⟨c, hc, hFc⟩ := hk
  have hkc : keyClass F.cls = true := by rw [hFc]; exact (keyClass_iff c).mpr hc
  have := allFactories_spec reserved_never hmem
  rw [List.all_eq_true] at this
  have := this t ht
  simp only [hkc, Bool.not_true, Bool.false_and, Bool.or_false] at this
  rw [value_eq, value_eq, set_keeps this]

/-- Boolean attribute written by the token. -/
theorem isTrue_ofBool {o : Obj} {t : Nat} {b : Bool} (h : o.find t = some (Attr.ofBool t b)) :
    IsTrue o t ↔ b = true := by
  unfold IsTrue
  rw [value_eq, h]
  cases b <;> simp [Attr.ofBool]

theorem getBool_true_iff {o : Obj} {t : Nat} : o.getBool t = .ok true → IsTrue o t := by
  intro h
  unfold Obj.getBool at h
  split at h
  · cases h
  · rename_i a ha
    unfold Attr.toBool at h
    split at h
    · cases h
    · split at h
      · rename_i b hb
        injection h with h
        exact ⟨b, by rw [value_eq, ha]; simp [hb], by simpa using h⟩
      · cases h

theorem getBool_false {o : Obj} {t : Nat} : o.getBool t = .ok false → IsFalse o t := by
  intro h
  unfold Obj.getBool at h
  split at h
  · cases h
  · rename_i a ha
    unfold Attr.toBool at h
    split at h
    · cases h
    · split at h
      · rename_i b hb
        injection h with h
        unfold IsFalse
        rw [value_eq, ha]; simp [hb]; simpa using h
      · cases h

/-- **C16, generated keys.**  A key that passed through the token's generation step (every C_GenerateKey
and C_GenerateKeyPair mechanism ends with it) is local, records the mechanism, and its two history
attributes are those of its current sensitivity and extractability: never what the template said about
them. -/
theorem C16_generated (o : Obj) (mech : Nat) :
    let g := defaultKeyAttributes o mech
    IsTrue g CKA_LOCAL ∧ HasUlong g CKA_KEY_GEN_MECHANISM mech ∧
    (IsTrue g CKA_ALWAYS_SENSITIVE → IsTrue g CKA_SENSITIVE) ∧
    (IsTrue g CKA_NEVER_EXTRACTABLE → IsFalse g CKA_EXTRACTABLE) := by
  intro g
  have hfind : ∀ t, g.find t =
      if CKA_ALWAYS_SENSITIVE = t then some (Attr.ofBool t (match o.getBool CKA_SENSITIVE with
        | .ok b => b
        | .error _ => false))
      else if CKA_NEVER_EXTRACTABLE = t then some (Attr.ofBool t (!(match o.getBool CKA_EXTRACTABLE with
        | .ok b => b
        | .error _ => true)))
      else if CKA_KEY_GEN_MECHANISM = t then some (Attr.ofUlong t mech)
      else if CKA_LOCAL = t then some (Attr.ofBool t true) else o.find t := by
    intro t
    have hg1 : ((o.setBool CKA_LOCAL true).put (Attr.ofUlong CKA_KEY_GEN_MECHANISM mech)).getBool CKA_EXTRACTABLE
        = o.getBool CKA_EXTRACTABLE := by
      unfold Obj.getBool
      rw [find_put, find_setBool]
      have e1 : ¬ ((Attr.ofUlong CKA_KEY_GEN_MECHANISM mech).typ = CKA_EXTRACTABLE) := by
        show ¬ CKA_KEY_GEN_MECHANISM = CKA_EXTRACTABLE; decide
      have e2 : ¬ (CKA_LOCAL = CKA_EXTRACTABLE) := by decide
      rw [if_neg e1, if_neg e2]
    have hg2 : ∀ b, (((o.setBool CKA_LOCAL true).put (Attr.ofUlong CKA_KEY_GEN_MECHANISM mech)).setBool
        CKA_NEVER_EXTRACTABLE b).getBool CKA_SENSITIVE = o.getBool CKA_SENSITIVE := by
      intro b
      unfold Obj.getBool
      rw [find_setBool, find_put, find_setBool]
      have e1 : ¬ ((Attr.ofUlong CKA_KEY_GEN_MECHANISM mech).typ = CKA_SENSITIVE) := by
        show ¬ CKA_KEY_GEN_MECHANISM = CKA_SENSITIVE; decide
      have e2 : ¬ (CKA_LOCAL = CKA_SENSITIVE) := by decide
      have e3 : ¬ (CKA_NEVER_EXTRACTABLE = CKA_SENSITIVE) := by decide
      rw [if_neg e3, if_neg e1, if_neg e2]
    show (defaultKeyAttributes o mech).find t = _
    unfold defaultKeyAttributes
    simp only [hg1, hg2]
    rw [find_setBool, find_setBool, find_put, find_setBool]
    by_cases h1 : CKA_ALWAYS_SENSITIVE = t
    · subst h1; simp; rfl
    · simp only [if_neg h1]
      by_cases h2 : CKA_NEVER_EXTRACTABLE = t
      · subst h2; simp; rfl
      · simp only [if_neg h2]
        by_cases h3 : CKA_KEY_GEN_MECHANISM = t
        · subst h3; simp [Attr.ofUlong]
        · have : ¬ (Attr.ofUlong CKA_KEY_GEN_MECHANISM mech).typ = t := h3
          simp only [if_neg this, if_neg h3]
          by_cases h4 : CKA_LOCAL = t
          · subst h4; simp
          · simp only [if_neg h4]
  have same : ∀ t, CKA_ALWAYS_SENSITIVE ≠ t → CKA_NEVER_EXTRACTABLE ≠ t → CKA_KEY_GEN_MECHANISM ≠ t →
      CKA_LOCAL ≠ t → value g t = value o t := by
    intro t h1 h2 h3 h4
    rw [value_eq, value_eq, hfind t, if_neg h1, if_neg h2, if_neg h3, if_neg h4]
  refine ⟨?_, ?_, ?_, ?_⟩
  · exact (isTrue_ofBool (b := true) (by
      rw [hfind, if_neg (by decide), if_neg (by decide), if_neg (by decide), if_pos rfl])).mpr rfl
  · unfold HasUlong
    rw [value_eq, hfind]
    have e1 : ¬ (CKA_ALWAYS_SENSITIVE = CKA_KEY_GEN_MECHANISM) := by decide
    have e2 : ¬ (CKA_NEVER_EXTRACTABLE = CKA_KEY_GEN_MECHANISM) := by decide
    rw [if_neg e1, if_neg e2, if_pos rfl]; rfl
  · intro h
    have := (isTrue_ofBool (by rw [hfind, if_pos rfl])).mp h
    have hs : o.getBool CKA_SENSITIVE = .ok true := by
      split at this
      · rename_i b hb; rw [hb, this]
      · cases this
    have := getBool_true_iff hs
    unfold IsTrue at this ⊢
    rw [same CKA_SENSITIVE (by decide) (by decide) (by decide) (by decide)]
    exact this
  · intro h
    have e1 : ¬ (CKA_ALWAYS_SENSITIVE = CKA_NEVER_EXTRACTABLE) := by decide
    have := (isTrue_ofBool (by rw [hfind, if_neg e1, if_pos rfl])).mp h
    have hs : o.getBool CKA_EXTRACTABLE = .ok false := by
      split at this
      · rename_i b hb; rw [hb]; simpa using this
      · cases this
    have := getBool_false hs
    unfold IsFalse at this ⊢
    rw [same CKA_EXTRACTABLE (by decide) (by decide) (by decide) (by decide)]
    exact this

/-- **C16, C_CopyObject.**  The unique id of a copy is the token's, and its CKA_ALWAYS_SENSITIVE, when
the key has CKA_SENSITIVE and CKA_ALWAYS_SENSITIVE, is never more than the original's.
The remaining reserved attributes are not protected: see `C16_copy_forges`. -/
theorem C16_copy_partial (uid : Bytes) (o o' : Obj) (tm : Template) (h : factoriesCopy uid o tm = .ok o') :
    value o' CKA_UNIQUE_ID = some uid ∧
    (∀ b c, o.getBool CKA_SENSITIVE = .ok b → o.getBool CKA_ALWAYS_SENSITIVE = .ok c →
      IsTrue o' CKA_ALWAYS_SENSITIVE → IsTrue o CKA_ALWAYS_SENSITIVE ∧ IsTrue o' CKA_SENSITIVE) := by
  obtain ⟨F, hF, _, hck, _, rfl⟩ := factoriesCopy_ok h
  obtain ⟨k, hmem⟩ := objFactory_mem hF
  have hall := copyChecks_ok hck
  have hno : ∀ t, allFactories (fun F => F.attrs.all fun f =>
      f.typ != t || (f.is oaUnchangeable && !f.is oaChangeOnCopy)) = true → ∀ c ∈ tm, c.typ ≠ t := by
    intro t ht c hc e
    obtain ⟨f, hf, hcc⟩ := hall c hc
    have := allFactories_spec ht hmem
    rw [List.all_eq_true] at this
    have := this f (findF_mem hf)
    rw [findF_typ hf, e] at this
    simp at this
    rw [hcc this.1] at this
    exact absurd this.2 (by simp)
  constructor
  · rw [value_eq, find_copyFixAS _ _ _ (by decide), find_copyFixNE _ _ _ (by decide),
      applyTemplate_find_none _ (hno CKA_UNIQUE_ID (by decide +kernel)), find_blindCopy]
    rfl
  · intro b c hb hc ht
    have hs1 : (copyFixNeverExtractable o (applyTemplate (o.blindCopy uid) tm).2).getBool CKA_SENSITIVE
        = o.getBool CKA_SENSITIVE := by
      unfold Obj.getBool
      rw [find_copyFixNE _ _ _ (by decide), applyTemplate_find_none _ (hno CKA_SENSITIVE (by decide +kernel)),
        find_blindCopy]
      rfl
    have hs2 : (copyFixAlwaysSensitive o (copyFixNeverExtractable o
        (applyTemplate (o.blindCopy uid) tm).2)).getBool CKA_SENSITIVE = o.getBool CKA_SENSITIVE := by
      rw [← hs1]
      unfold Obj.getBool
      rw [find_copyFixAS _ _ _ (by decide)]
    have hf : (copyFixAlwaysSensitive o (copyFixNeverExtractable o
        (applyTemplate (o.blindCopy uid) tm).2)).find CKA_ALWAYS_SENSITIVE
        = some (Attr.ofBool CKA_ALWAYS_SENSITIVE (b && c)) := by
      unfold copyFixAlwaysSensitive
      rw [hs1, hb, hc]
      simp only
      rw [find_setBool, if_pos rfl]
    have := (isTrue_ofBool hf).mp ht
    simp at this
    refine ⟨getBool_true_iff (by rw [hc, this.2]), getBool_true_iff (by rw [hs2, hb, this.1])⟩

/-- **C16, C_DeriveKey (token-side derivations).**  A derived key is not local; its history attributes
are true only if the base key's are. -/
theorem C16_derive (F : Factory) (uid : Bytes) (tm : Template) (base o : Obj)
    (h : internalKeyDerive F uid tm base = .ok o) :
    IsFalse o CKA_LOCAL ∧
    (IsTrue o CKA_ALWAYS_SENSITIVE → IsTrue base CKA_ALWAYS_SENSITIVE) ∧
    (IsTrue o CKA_NEVER_EXTRACTABLE → IsTrue base CKA_NEVER_EXTRACTABLE) := by
  unfold internalKeyDerive at h
  split at h
  · cases h
  · rename_i o1 h1
    injection h with h
    subst h
    have e1 : ¬ (CKA_NEVER_EXTRACTABLE = CKA_LOCAL) := by decide
    have e2 : ¬ (CKA_ALWAYS_SENSITIVE = CKA_LOCAL) := by decide
    have e3 : ¬ (CKA_NEVER_EXTRACTABLE = CKA_ALWAYS_SENSITIVE) := by decide
    have fin : ∀ (p : Obj) (b c : Bool),
        (b = true → base.getBool CKA_ALWAYS_SENSITIVE = .ok true) →
        (c = true → base.getBool CKA_NEVER_EXTRACTABLE = .ok true) →
        p = ((o1.setBool CKA_LOCAL false).setBool CKA_ALWAYS_SENSITIVE b).setBool CKA_NEVER_EXTRACTABLE c →
        IsFalse p CKA_LOCAL ∧ (IsTrue p CKA_ALWAYS_SENSITIVE → IsTrue base CKA_ALWAYS_SENSITIVE) ∧
          (IsTrue p CKA_NEVER_EXTRACTABLE → IsTrue base CKA_NEVER_EXTRACTABLE) := by
      rintro p b c hb hc rfl
      refine ⟨?_, fun ht => ?_, fun ht => ?_⟩
      · unfold IsFalse
        rw [value_eq]; simp [find_setBool, e1, e2, Attr.ofBool]
      · exact getBool_true_iff (hb ((isTrue_ofBool (b := b) (by simp [find_setBool, e3])).mp ht))
      · exact getBool_true_iff (hc ((isTrue_ofBool (b := c) (by simp [find_setBool])).mp ht))
    rcases hx : base.getBool CKA_ALWAYS_SENSITIVE with e | b <;>
      rcases hy : base.getBool CKA_NEVER_EXTRACTABLE with e' | b'
    · exact fin _ false false (by simp) (by simp) rfl
    · cases b'
      · exact fin _ false false (by simp) (by simp) rfl
      · exact fin _ false _ (by simp) (fun _ => hy) rfl
    · cases b
      · exact fin _ false false (by simp) (by simp) rfl
      · exact fin _ _ false (fun _ => hx) (by simp) rfl
    · cases b <;> cases b'
      · exact fin _ false false (by simp) (by simp) rfl
      · exact fin _ false _ (by simp) (fun _ => hy) rfl
      · exact fin _ _ false (fun _ => hx) (by simp) rfl
      · exact fin _ _ _ (fun _ => hx) (fun _ => hy) rfl

/-! ## Non-vacuity -/

example : factoriesCreate exOracle exUid exAesTemplate = .ok exAes ∧ HasUlong exAes CKA_CLASS CKO_SECRET_KEY ∧
    CKO_SECRET_KEY ∈ keyClasses ∧ objFactory exAes = .ok aesF ∧ aesF.cls = CKO_SECRET_KEY := by
  unfold HasUlong; decide +kernel

example : IsTrue exAesGen CKA_ALWAYS_SENSITIVE ∧ IsTrue exAesGen CKA_NEVER_EXTRACTABLE :=
  ⟨⟨1, by decide +kernel⟩, ⟨1, by decide +kernel⟩⟩

/-- A generated key copied: hypotheses and conclusion of `C16_copy_partial`, non-trivially. -/
def exC16Copy : Obj := okObj (factoriesCopy exUid2 exAesGen [.ofBool CKA_TOKEN true])

example : factoriesCopy exUid2 exAesGen [.ofBool CKA_TOKEN true] = .ok exC16Copy ∧
    exAesGen.getBool CKA_SENSITIVE = .ok true ∧ exAesGen.getBool CKA_ALWAYS_SENSITIVE = .ok true ∧
    exC16Copy.getBool CKA_ALWAYS_SENSITIVE = .ok true := by decide +kernel

def exDeriveTmpl : Template := [.ofUlong CKA_CLASS CKO_SECRET_KEY, .ofUlong CKA_KEY_TYPE CKK_AES, .ofUlong CKA_VALUE_LEN 16]

example : isOk (internalKeyDerive aesF exUid exDeriveTmpl exAesGen) = true ∧
    (okObj (internalKeyDerive aesF exUid exDeriveTmpl exAesGen)).getBool CKA_ALWAYS_SENSITIVE = .ok true := by
  decide +kernel

/-! ## Counterexamples in the code

Flags are tested with `is(SettableOnlyOnCreate | NeverSettable)`, which demands both bits and so never
refuses anything; C_CopyObject does not test "never settable" at all. -/

/-- C_UnwrapKey: the template decides all six reserved attributes. -/
theorem C16_unwrap_forges :
    ∃ (tm : Template) (o : Obj), importSecret aesF exUid exKeyBytes tm = .ok o ∧
      IsTrue o CKA_TRUSTED ∧ IsTrue o CKA_LOCAL ∧ IsTrue o CKA_ALWAYS_SENSITIVE ∧
      IsTrue o CKA_NEVER_EXTRACTABLE ∧ HasUlong o CKA_KEY_GEN_MECHANISM CKM_AES_KEY_GEN ∧
      value o CKA_UNIQUE_ID = some [120] := by
  refine ⟨[.ofBool CKA_TRUSTED true, .ofBool CKA_LOCAL true, .ofBool CKA_ALWAYS_SENSITIVE true,
    .ofBool CKA_NEVER_EXTRACTABLE true, .ofUlong CKA_KEY_GEN_MECHANISM CKM_AES_KEY_GEN,
    .mk' CKA_UNIQUE_ID [120], .ofUlong CKA_VALUE_LEN 16], ?_⟩
  refine ⟨_, rfl, ?_⟩
  refine ⟨⟨1, ?_⟩, ⟨1, ?_⟩, ⟨1, ?_⟩, ⟨1, ?_⟩, ?_, ?_⟩ <;> first | decide +kernel | (unfold HasUlong; decide +kernel)

/-- C_GenerateKey: the template decides CKA_TRUSTED and CKA_UNIQUE_ID. -/
theorem C16_generate_forges :
    ∃ (tm : Template) (o : Obj), generateAes exRnd exUid CKM_AES_KEY_GEN tm = .ok o ∧
      IsTrue o CKA_TRUSTED ∧ value o CKA_UNIQUE_ID = some [120] := by
  refine ⟨[.ofUlong CKA_VALUE_LEN 16, .ofBool CKA_TRUSTED true, .mk' CKA_UNIQUE_ID [120]], _, rfl, ⟨1, ?_⟩, ?_⟩ <;>
    decide +kernel

/-- C_DeriveKey: the template decides CKA_TRUSTED, CKA_KEY_GEN_MECHANISM and CKA_UNIQUE_ID. -/
theorem C16_derive_forges :
    ∃ (tm : Template) (o : Obj), keyDerive aesF exUid tm exAesGen = .ok o ∧
      IsTrue o CKA_TRUSTED ∧ HasUlong o CKA_KEY_GEN_MECHANISM CKM_AES_KEY_GEN ∧
      value o CKA_UNIQUE_ID = some [120] := by
  refine ⟨[.ofUlong CKA_VALUE_LEN 16, .ofBool CKA_TRUSTED true, .mk' CKA_UNIQUE_ID [120],
    .ofUlong CKA_KEY_GEN_MECHANISM CKM_AES_KEY_GEN], _, rfl, ⟨1, ?_⟩, ?_, ?_⟩ <;>
    first | decide +kernel | (unfold HasUlong; decide +kernel)

/-- C_CopyObject: an imported key becomes "local", "generated", "trusted" and "never extractable". -/
theorem C16_copy_forges :
    ∃ (tm : Template) (o : Obj), factoriesCopy exUid2 exAes tm = .ok o ∧
      IsTrue o CKA_TRUSTED ∧ IsTrue o CKA_LOCAL ∧ IsTrue o CKA_NEVER_EXTRACTABLE ∧
      HasUlong o CKA_KEY_GEN_MECHANISM CKM_AES_KEY_GEN := by
  refine ⟨[.ofBool CKA_TRUSTED true, .ofBool CKA_LOCAL true, .ofBool CKA_NEVER_EXTRACTABLE true,
    .ofUlong CKA_KEY_GEN_MECHANISM CKM_AES_KEY_GEN], okObj (factoriesCopy exUid2 exAes
    [.ofBool CKA_TRUSTED true, .ofBool CKA_LOCAL true, .ofBool CKA_NEVER_EXTRACTABLE true,
    .ofUlong CKA_KEY_GEN_MECHANISM CKM_AES_KEY_GEN]), by decide +kernel, ⟨1, ?_⟩, ⟨1, ?_⟩, ⟨1, ?_⟩, ?_⟩ <;>
    first | decide +kernel | (unfold HasUlong; decide +kernel)

end Kry
