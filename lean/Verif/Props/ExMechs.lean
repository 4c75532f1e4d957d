import Verif.Proofs.Ids
import Verif.Props.MachineEx

/-!
# The mechanisms of the examples make orderly objects

`exMechs` generates AES keys with the modelled `generateAes`; the hypotheses `OrderlyMechs` and `HonoursId`
hold of it.
-/

namespace Kry
open Spec

theorem aesF_mem : ((CKO_SECRET_KEY, CKK_AES), aesF) ∈ registry := by
  have h : getFactory CKO_SECRET_KEY CKK_AES = .ok aesF := rfl
  exact getFactory_mem h

theorem orderly_generateAes {rnd : Nat → Res Bytes} {uid : Bytes} {m : Nat} {tm : Template} {o : Obj}
    (h : generateAes rnd uid m tm = .ok o) : Orderly o := by
  unfold generateAes at h
  split at h
  · cases h
  split at h
  · cases h
  rename_i o0 h0
  have z0 : Orderly o0 := orderly_keyInternal aesF_mem h0
  split at h
  · cases h
  rename_i o1 h1
  have z1 := orderly_ensureUlong h1 z0 (by decide +kernel)
  split at h
  · cases h
  rename_i o2 h2
  have z2 := orderly_ensureUlong h2 z1 (by decide +kernel)
  split at h
  · cases h
  rename_i o3 h3
  have z3 : Orderly o3 := by
    unfold defaultSecretKeyGenerate at h3
    repeat' split at h3
    all_goals first | (cases h3; done) | skip
    injection h3 with h3
    rw [← h3]
    exact orderly_put z2 (neat_other (show attrKind CKA_VALUE ≠ _ by decide +kernel)
      (show attrKind CKA_VALUE ≠ _ by decide +kernel)) (show CKA_VALUE ≠ CKA_CLASS by decide)
  injection h with h
  rw [← h]
  unfold defaultKeyAttributes
  simp only
  refine orderly_setBool (orderly_setBool (orderly_put (orderly_setBool z3 (by decide +kernel))
    (neat_ulong _ _ (by decide +kernel)) (show CKA_KEY_GEN_MECHANISM ≠ CKA_CLASS by decide)) (by decide +kernel)) (by decide +kernel)

theorem ids_generateAes {P : Bytes → Prop} {rnd : Nat → Res Bytes} {uid : Bytes} {m : Nat} {tm : Template} {o : Obj}
    (hu : P uid) (ht : ∀ c ∈ tm, c.typ = CKA_UNIQUE_ID → P c.toBuf) (h : generateAes rnd uid m tm = .ok o) : IdFrom P o := by
  unfold generateAes at h
  split at h
  · cases h
  split at h
  · cases h
  rename_i o0 h0
  have z0 : IdFrom P o0 := ids_keyInternal aesF_mem hu ht h0
  split at h
  · cases h
  rename_i o1 h1
  have z1 := ids_ensureUlong h1 z0 (by decide)
  split at h
  · cases h
  rename_i o2 h2
  have z2 := ids_ensureUlong h2 z1 (by decide)
  split at h
  · cases h
  rename_i o3 h3
  have z3 : IdFrom P o3 := by
    unfold defaultSecretKeyGenerate at h3
    repeat' split at h3
    all_goals first | (cases h3; done) | skip
    injection h3 with h3
    rw [← h3]
    exact ids_put z2 (fun e => absurd e (show CKA_VALUE ≠ _ by decide))
  injection h with h
  rw [← h]
  unfold defaultKeyAttributes
  simp only
  exact ids_setBool (ids_setBool (ids_put (ids_setBool z3 (by decide))
    (fun e => absurd e (show CKA_KEY_GEN_MECHANISM ≠ _ by decide))) (by decide)) (by decide)

theorem exMechs_orderly : OrderlyMechs exMechs where
  genKey _ _ _ _ _ h := orderly_generateAes h
  genPair _ _ _ _ _ _ _ h := by cases h
  derive _ _ _ _ _ _ _ h := by cases h
  importAttrs _ _ b l h a ha := by
    injection h with h
    rw [← h, List.mem_singleton] at ha
    rw [ha]
    exact neat_other (show attrKind CKA_VALUE ≠ _ by decide +kernel) (show attrKind CKA_VALUE ≠ _ by decide +kernel)

theorem exMechs_ids : HonoursId exMechs where
  genKey e m _ tm o h := by
    refine ids_generateAes (P := fun v => (∃ p, v = e.uuid p) ∨ ∃ c ∈ tm, c.typ = CKA_UNIQUE_ID ∧ c.toBuf = v) ?_ ?_ h
    · exact .inl ⟨[], rfl⟩
    · exact fun c hc ht => .inr ⟨c, hc, ht, rfl⟩
  genPair _ _ _ _ _ _ _ h := by cases h
  derive _ _ _ _ _ _ _ h := by cases h
  importAttrs _ _ b l h a ha := by
    injection h with h
    rw [← h, List.mem_singleton] at ha
    rw [ha]
    show CKA_VALUE ≠ _
    decide

end Kry
