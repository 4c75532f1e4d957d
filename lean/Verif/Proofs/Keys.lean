import Verif.Proofs.Create
import Verif.Model.Derive
import Verif.Props.C15

/-! # Lemmas about the key-making functions -/

namespace Kry
open Spec

theorem createLoop_cls {fa : List FAttr} {u : Nat} : ∀ (t : Template) (o o' : Obj),
    createLoop fa u o t = .ok o' → o'.cls = o.cls
  | [], o, o', h => by unfold createLoop at h; injection h with h; rw [h]
  | c :: rest, o, o', h => by
    unfold createLoop at h
    split at h
    · cases h
    · split at h
      · cases h
      · simp only at h
        split at h
        · cases h
        · split at h
          · exact createLoop_cls rest _ _ h
          · split at h
            · cases h
            · have := createLoop_cls rest _ _ h
              rw [this]; rfl

theorem defaultsLoop_cls {r : Nat} : ∀ (fa : List FAttr) (o o' : Obj),
    defaultsLoop r o fa = .ok o' → o'.cls = o.cls
  | [], o, o', h => by unfold defaultsLoop at h; injection h with h; rw [h]
  | f :: rest, o, o', h => by
    unfold defaultsLoop at h
    split at h
    · exact defaultsLoop_cls rest _ _ h
    · split at h
      · have := defaultsLoop_cls rest _ _ h
        rw [this]; rfl
      · split at h
        · cases h
        · exact defaultsLoop_cls rest _ _ h

theorem internalObjectCreate_cls {F : Factory} {t : Template} {u r : Nat} {o : Obj}
    (h : internalObjectCreate F t u r = .ok o) : o.cls = F.cls := by
  unfold internalObjectCreate at h
  split at h
  · cases h
  · rename_i o1 h1
    rw [defaultsLoop_cls _ _ _ h, createLoop_cls _ _ _ h1]; rfl

theorem generateUnique_cls (o : Obj) (uid : Bytes) : (o.generateUnique uid).cls = o.cls := by
  unfold Obj.generateUnique; split <;> rfl

/-- The attribute after `generate_unique`. -/
theorem find_generateUnique (o : Obj) (uid : Bytes) (t : Nat) :
    (o.generateUnique uid).find t =
      if t = CKA_UNIQUE_ID then (o.find CKA_UNIQUE_ID).or (some (Attr.ofString CKA_UNIQUE_ID uid))
      else o.find t := by
  unfold Obj.generateUnique
  by_cases ht : t = CKA_UNIQUE_ID
  · subst ht
    split
    · rename_i h
      have : (o.find CKA_UNIQUE_ID).isSome = true := by
        rw [Obj.find, List.find?_isSome]
        simpa using h
      simp only [if_true]
      cases hf : o.find CKA_UNIQUE_ID with
      | none => rw [hf] at this; cases this
      | some a => rfl
    · rw [find_push]; simp [Attr.ofString]
  · rw [if_neg ht]
    split
    · rfl
    · rw [find_push]
      have : ¬ (Attr.ofString CKA_UNIQUE_ID uid).typ = t := by
        intro e; exact ht e.symm
      simp [this]

/-- What `key_create` makes: the generic object plus four attributes. -/
theorem keyCreate_ok {F : Factory} {uid : Bytes} {t : Template} {o : Obj} (h : keyCreate F uid t = .ok o) :
    ∃ o0, internalObjectCreate F t oaNeverSettable oaRequiredOnCreate = .ok o0 ∧ o.cls = F.cls ∧
      ∀ x, o.find x =
        if Obj.secretClass F.cls = true ∧ x = CKA_NEVER_EXTRACTABLE then some (Attr.ofBool x false)
        else if Obj.secretClass F.cls = true ∧ x = CKA_ALWAYS_SENSITIVE then some (Attr.ofBool x false)
        else if keyClass F.cls = true ∧ x = CKA_LOCAL then some (Attr.ofBool x false)
        else (o0.generateUnique uid).find x := by
  unfold keyCreate internalKeyCreate at h
  cases hi : internalObjectCreate F t oaNeverSettable oaRequiredOnCreate with
  | error e => rw [hi] at h; cases h
  | ok o0 =>
    rw [hi] at h
    refine ⟨o0, rfl, ?_⟩
    have hc : (o0.generateUnique uid).cls = F.cls := by
      rw [generateUnique_cls, internalObjectCreate_cls hi]
    simp only [hc] at h
    by_cases hk : keyClass F.cls = true
    · by_cases hs : Obj.secretClass F.cls = true
      · rw [if_pos hk] at h
        have hs' : Obj.secretClass ((o0.generateUnique uid).setBool CKA_LOCAL false).cls = true := by
          simp only [Obj.setBool]; rw [hc]; exact hs
        rw [if_pos hs'] at h
        injection h with h
        subst h
        refine ⟨by simp only [Obj.setBool]; exact hc, fun x => ?_⟩
        rw [find_setBool, find_setBool, find_setBool]
        simp only [hs, hk, true_and]
        by_cases h1 : CKA_NEVER_EXTRACTABLE = x
        · subst h1; simp
        · have h1' : ¬ x = CKA_NEVER_EXTRACTABLE := fun e => h1 e.symm
          simp only [h1, h1', if_false]
          by_cases h2 : CKA_ALWAYS_SENSITIVE = x
          · subst h2; simp
          · have h2' : ¬ x = CKA_ALWAYS_SENSITIVE := fun e => h2 e.symm
            simp only [h2, h2', if_false]
            by_cases h3 : CKA_LOCAL = x
            · subst h3; simp
            · have h3' : ¬ x = CKA_LOCAL := fun e => h3 e.symm
              simp only [h3, h3', if_false]
      · rw [if_pos hk] at h
        have hs' : ¬ Obj.secretClass ((o0.generateUnique uid).setBool CKA_LOCAL false).cls = true := by
          simp only [Obj.setBool]; rw [hc]; exact hs
        rw [if_neg hs'] at h
        injection h with h
        subst h
        refine ⟨by simp only [Obj.setBool]; exact hc, fun x => ?_⟩
        rw [find_setBool]
        simp only [hs, hk, true_and, false_and, if_false, Bool.false_eq_true]
        by_cases h3 : CKA_LOCAL = x
        · subst h3; simp
        · have h3' : ¬ x = CKA_LOCAL := fun e => h3 e.symm
          simp only [h3, h3', if_false]
    · have hs : ¬ Obj.secretClass F.cls = true := by
        intro hs; exact hk (by simp [keyClass, hs])
      rw [if_neg hk] at h
      rw [hc] at h
      rw [if_neg hs] at h
      injection h with h
      subst h
      refine ⟨hc, fun x => ?_⟩
      simp [hs, hk]

/-- Attributes that the type-specific part of C_CreateObject of a key may touch. -/
def keyExtra : List Nat :=
  [CKA_VALUE_LEN, CKA_KEY_TYPE, CKA_ALLOWED_MECHANISMS, CKA_PUBLIC_KEY_INFO, CKA_VALUE, CKA_EC_POINT]

/-- The kinds of factories that make keys. -/
def FactoryKind.isKey : FactoryKind → Bool
  | .data | .x509 | .trust | .nssTrust | .profile | .mechanism | .validation => false
  | _ => true

theorem isKey_cls : allFactories (fun F => F.kind.isKey == keyClass F.cls) = true := by decide +kernel

theorem create_key (O : Oracle) (uid : Bytes) (F : Factory) (k : Nat × Nat) (hF : (k, F) ∈ registry)
    (hk : keyClass F.cls = true) (t : Template) (o : Obj) (h : F.create O uid t = .ok o) :
    ∃ o1, keyCreate F uid t = .ok o1 ∧ SameBut keyExtra o1 o := by
  have hik : F.kind.isKey = true := by
    have := allFactories_spec isKey_cls hF; simp [hk] at this; exact this
  have hasym : ∀ kd, (match keyCreate F uid t with
        | .error e => .error e
        | .ok o => asymChecks O kd o) = Except.ok o →
      ∃ o1, keyCreate F uid t = .ok o1 ∧ SameBut keyExtra o1 o := by
    intro kd h
    split at h
    · cases h
    · rename_i o1 h1
      exact ⟨o1, h1, asymChecks_same (by simp [keyExtra]) (by simp [keyExtra]) (by simp [keyExtra]) h⟩
  unfold Factory.create at h
  cases hkd : F.kind with
  | data => rw [hkd] at hik; cases hik
  | x509 => rw [hkd] at hik; cases hik
  | trust => rw [hkd] at hik; cases hik
  | nssTrust => rw [hkd] at hik; cases hik
  | profile => rw [hkd] at hik; cases hik
  | mechanism => rw [hkd] at hik; cases hik
  | validation => rw [hkd] at hik; cases hik
  | genericSecret ks =>
    rw [hkd] at h
    simp only at h
    split at h
    · cases h
    · rename_i o1 h1
      refine ⟨o1, h1, ?_⟩
      split at h
      · cases h
      · split at h
        · cases h
        · split at h
          · cases h
          · exact same_ensureUlong (by simp [keyExtra]) h
  | aes =>
    rw [hkd] at h
    simp only at h
    split at h
    · cases h
    · rename_i o1 h1
      refine ⟨o1, h1, ?_⟩
      split at h
      · cases h
      · split at h
        · cases h
        · exact same_ensureUlong (by simp [keyExtra]) h
  | hotp =>
    rw [hkd] at h
    simp only at h
    split at h
    · cases h
    · rename_i o1 h1
      refine ⟨o1, h1, ?_⟩
      obtain ⟨o0, h0, _, hf⟩ := keyCreate_ok h1
      split at h
      · cases h
      · rename_i len _
        split at h
        · cases h
        · have s1 : SameBut keyExtra o1 (o1.put (Attr.ofUlong CKA_VALUE_LEN len)) :=
            same_put (by simp [keyExtra, Attr.ofUlong])
          refine s1.trans' (hotpValidate_same (by simp [keyExtra]) (by simp [keyExtra]) ?_ h)
          rw [s1 CKA_CLASS (by decide), hf CKA_CLASS]
          have e1 : ¬ (CKA_CLASS = CKA_NEVER_EXTRACTABLE) := by decide
          have e2 : ¬ (CKA_CLASS = CKA_ALWAYS_SENSITIVE) := by decide
          have e3 : ¬ (CKA_CLASS = CKA_LOCAL) := by decide
          have e4 : ¬ (CKA_CLASS = CKA_UNIQUE_ID) := by decide
          simp only [e1, e2, e3, and_false, if_false]
          rw [find_generateUnique, if_neg e4]
          exact create_find_class hF h0
  | rsaPub =>
    rw [hkd] at h
    simp only at h
    split at h
    · cases h
    · rename_i o1 h1
      refine ⟨o1, h1, ?_⟩
      split at h
      · cases h
      · unfold rsaPublicKeyInfo at h
        split at h
        · cases h
        · split at h
          · cases h
          · split at h
            · cases h
            · exact same_ensureBytes (by simp [keyExtra]) h
  | rsaPriv =>
    rw [hkd] at h
    simp only at h
    split at h
    · cases h
    · rename_i o1 h1
      refine ⟨o1, h1, ?_⟩
      split at h
      · cases h
      · unfold rsaPublicKeyInfo at h
        split at h
        · cases h
        · split at h
          · cases h
          · split at h
            · cases h
            · exact same_ensureBytes (by simp [keyExtra]) h
  | _ => rw [hkd] at h; exact hasym _ h

theorem cls_put (o : Obj) (a : Attr) : (o.put a).cls = o.cls := rfl
theorem cls_setBool (o : Obj) (t : Nat) (b : Bool) : (o.setBool t b).cls = o.cls := rfl

end Kry
