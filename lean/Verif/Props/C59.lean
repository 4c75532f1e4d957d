import Verif.Props.C58

/-!
# C59 — A call refused for lack of room can be made again

A call that answers CKR_BUFFER_TOO_SMALL has no effect: made again with another buffer, it gives what it would have given the first time.

* `C59_update_partial`: C_EncryptUpdate and C_DecryptUpdate, all modes but CTR and CTS, in every state of an operation.
* `C59_final`: C_EncryptFinal and C_DecryptFinal, all modes.
* `C59_oneshot_partial`: C_Encrypt and C_Decrypt for ECB, CBC and GCM.
* `C59_pad_violation`: C_Encrypt with CKM_AES_CBC_PAD: the data taken by the refused call is encrypted as well, the result is not the encryption of the data.
* `C59_ctr_violation`: with CKM_AES_CTR the blocks of the refused call are counted, and the call fails the second time.
* `C59_cts_violation`: with CKM_AES_CTS the second call fails always.
* `C59_ccm_violation`: C_Encrypt with CKM_AES_CCM of half of the announced data, made twice, encrypts the data twice.
* `C59_cts_room_violation`: with CKM_AES_CTS a buffer of exactly the length asked for fails with CKR_DEVICE_ERROR, one a little longer makes the token panic.
-/

namespace Kry

theorem aesData_error {w : Res Bytes × AesOp} {e : Rv} {o : AesOp} (h : aesData w = (.error e, o)) : w = (.error e, o) := by
  obtain ⟨r, o'⟩ := w
  cases r with
  | ok b => cases h
  | error r => cases h; rfl

theorem blockUpdate_room (L : AesLib) (o o' : AesOp) (inp : Bytes) (room : Nat) : o.blockUpdate L inp room ≠ (.error .bufferTooSmall, o') := by
  unfold AesOp.blockUpdate AesOp.opErr
  simp only
  intro h
  repeat' split at h
  all_goals first | (cases h; done) | skip
  all_goals
    rename_i hf
    repeat' split at hf
    all_goals cases hf
    all_goals cases h

theorem plainUpdate_room (L : AesLib) (o o' : AesOp) (inp : Bytes) (room : Nat) : o.plainUpdate L inp room ≠ (.error .bufferTooSmall, o') := by
  unfold AesOp.plainUpdate AesOp.opErr
  intro h
  repeat' split at h
  all_goals cases h

theorem gcmUpdate_room (L : AesLib) (o o' : AesOp) (inp : Bytes) (room : Nat) : o.gcmUpdate L inp room ≠ (.error .bufferTooSmall, o') := by
  unfold AesOp.gcmUpdate AesOp.opErr
  simp only
  intro h
  repeat' split at h
  all_goals first | (cases h; done) | skip
  exact plainUpdate_room L _ _ _ _ h

/-- The effect of a refused encryption call. -/
theorem encryptUpdate_refused (L : AesLib) (o o' : AesOp) (hm : o.mech ≠ .ctr ∧ o.mech ≠ .cts) (p : Bytes) (room : Nat)
    (h : o.encryptUpdate L p room = (.error .bufferTooSmall, o')) : o' = { o with inUse := true } := by
  unfold AesOp.encryptUpdate at h
  split at h
  · cases h
  simp only at h
  cases hk : o.mech with
  | ctr => exact absurd hk hm.1
  | cts => exact absurd hk hm.2
  | ecb | cbc | cbcPad =>
    simp only [hk] at h ⊢
    split at h
    · cases h; rfl
    · exact absurd h (blockUpdate_room L _ _ _ _)
  | gcm =>
    simp only [hk] at h ⊢
    split at h
    · cases h; rfl
    · exact absurd h (plainUpdate_room L _ _ _ _)
  | ccm =>
    simp only [hk] at h ⊢
    unfold AesOp.opErr at h
    repeat' split at h
    all_goals first | (cases h; rfl) | (cases h; done) | exact absurd h (plainUpdate_room L _ _ _ _)

/-- The effect of a refused decryption call. -/
theorem decryptUpdate_refused (L : AesLib) (o o' : AesOp) (hm : o.mech ≠ .ctr ∧ o.mech ≠ .cts) (p : Bytes) (room : Nat)
    (h : o.decryptUpdate L p room = (.error .bufferTooSmall, o')) : o' = { o with inUse := true } := by
  unfold AesOp.decryptUpdate at h
  split at h
  · cases h
  cases hk : o.mech with
  | ctr => exact absurd hk hm.1
  | cts => exact absurd hk hm.2
  | ecb | cbc | cbcPad =>
    simp only [hk] at h ⊢
    split at h
    · cases h; rfl
    · exact absurd h (blockUpdate_room L _ _ _ _)
  | gcm =>
    simp only [hk] at h ⊢
    split at h
    · cases h; rfl
    · exact absurd h (gcmUpdate_room L _ _ _ _)
  | ccm =>
    simp only [hk] at h ⊢
    split at h
    · cases h
    · unfold AesOp.ccmUpdate AesOp.ccmOpen AesOp.opErr at h
      simp only at h
      repeat' split at h
      all_goals cases h
      rfl

/-- Updates: made again, the call gives what it would have given.
Missing: CTR and CTS, see `C59_ctr_violation` and `C59_cts_violation`. -/
theorem C59_update_partial (L : AesLib) (o o' : AesOp) (hm : o.mech ≠ .ctr ∧ o.mech ≠ .cts) (p : Bytes) (room : Nat)
    (h : aesCall L o (.update p (some room)) = (.error .bufferTooSmall, o')) (room' : Nat) :
    aesCall L o' (.update p (some room')) = aesCall L o (.update p (some room')) := by
  unfold aesCall at h ⊢
  cases hf : o.finalized with
  | true => rw [hf] at h; cases h
  | false =>
    cases he : o.ctx.enc with
    | true =>
      simp only [hf, he, Bool.false_eq_true, if_false, if_true] at h ⊢
      have := encryptUpdate_refused L o o' hm p room (aesData_error h)
      subst this
      simp only [hf, he, Bool.false_eq_true, if_false, if_true]
      unfold AesOp.encryptUpdate
      simp only [hf, Bool.false_eq_true, if_false]
    | false =>
      simp only [hf, he, Bool.false_eq_true, if_false] at h ⊢
      have hr := aesData_error h
      have := decryptUpdate_refused L o o' hm p room hr
      subst this
      simp only [hf, he, Bool.false_eq_true, if_false]
      unfold AesOp.decryptUpdate at hr ⊢
      simp only [hf, Bool.false_eq_true, if_false] at hr ⊢
      cases hk : o.mech with
      | ctr => exact absurd hk hm.1
      | cts => exact absurd hk hm.2
      | ecb | cbc | cbcPad | gcm => rfl
      | ccm =>
        simp only [hk] at hr ⊢
        split at hr
        · cases hr
        · rename_i c
          rw [if_neg c, if_neg c]

/-- Finals: a refused call changes nothing. -/
theorem C59_final (L : AesLib) (o o' : AesOp) (room : Nat) (h : aesCall L o (.final (some room)) = (.error .bufferTooSmall, o')) :
    o' = o := by
  unfold aesCall at h
  cases hf : o.finalized with
  | true => rw [hf] at h; cases h
  | false =>
    cases he : o.ctx.enc with
    | true =>
      simp only [hf, he, Bool.false_eq_true, if_false, if_true] at h
      have h := aesData_error h
      unfold AesOp.encryptFinal AesOp.opErr at h
      simp only [hf, Bool.false_eq_true, if_false] at h
      split at h
      · cases h
      cases hk : o.mech <;> simp only [hk] at h <;> repeat' split at h
      all_goals cases h
      all_goals rfl
    | false =>
      simp only [hf, he, Bool.false_eq_true, if_false] at h
      have h := aesData_error h
      unfold AesOp.decryptFinal at h
      simp only [hf, Bool.false_eq_true, if_false] at h
      split at h
      · cases h
      cases hk : o.mech <;> simp only [hk] at h <;> repeat' split at h
      all_goals cases h

theorem encryptFinal_room (L : AesLib) (o o' : AesOp) (room : Nat) (h : o.encryptFinal L room = (.error .bufferTooSmall, o')) :
    (o.mech = .gcm ∨ o.mech = .ccm) ∧ room < o.params.taglen ∨ o.mech = .cbcPad := by
  unfold AesOp.encryptFinal AesOp.opErr at h
  split at h
  · cases h
  split at h
  · cases h
  cases hk : o.mech <;> simp only [hk] at h <;> repeat' split at h
  all_goals first | (cases h; done) | skip
  · exact .inr rfl
  · rename_i c; exact .inl ⟨.inl rfl, c⟩
  · rename_i c; exact .inl ⟨.inr rfl, c⟩

theorem decryptFinal_room (L : AesLib) (o o' : AesOp) (room : Nat) : o.decryptFinal L room ≠ (.error .bufferTooSmall, o') := by
  unfold AesOp.decryptFinal
  intro h
  split at h
  · cases h
  split at h
  · cases h
  simp only at h
  cases hk : o.mech <;> simp only [hk] at h <;> repeat' split at h
  all_goals cases h

theorem plainUpdate_len (L : AesLib) (o o' : AesOp) (hc : o.ctx.mech = .gcm) (inp out : Bytes) (room : Nat)
    (h : o.plainUpdate L inp room = (.ok out, o')) : out.length ≤ inp.length ∧ o'.mech = o.mech ∧ o'.params = o.params := by
  unfold AesOp.plainUpdate AesOp.opErr Evp.osslUpdate Evp.update at h
  rw [hc] at h
  simp only at h
  repeat' split at h
  all_goals cases h
  · rename_i hu
    split at hu
    · cases hu
    · cases hu
      exact ⟨by rw [streamXor_length]; exact Nat.le_refl _, rfl, rfl⟩
  · exact ⟨Nat.zero_le _, rfl, rfl⟩

theorem blockUpdate_mech (L : AesLib) (o o' : AesOp) (hb : o.buffer = []) (inp : Bytes) (r : Res Bytes) (room : Nat)
    (h : o.blockUpdate L inp room = (r, o')) : o'.mech = o.mech := by
  unfold AesOp.blockUpdate AesOp.opErr at h
  simp only [hb, ne_eq, not_true_eq_false, false_and, if_false] at h
  repeat' split at h
  all_goals cases h; rfl

/-- The refused C_Encrypt is the refused update in it. -/
theorem encrypt_refused (L : AesLib) (o o' : AesOp) (hm : o.mech = .ecb ∨ o.mech = .cbc ∨ o.mech = .gcm) (hb : o.buffer = [])
    (hc : o.ctx.mech = o.mech) (d : Bytes) (room : Nat) (h : o.encrypt L d room = (.error .bufferTooSmall, o')) :
    o' = { o with inUse := true } := by
  have hm' : o.mech ≠ .ctr ∧ o.mech ≠ .cts := by
    rcases hm with e | e | e <;> rw [e] <;> exact ⟨by simp, by simp⟩
  unfold AesOp.encrypt at h
  split at h
  · cases h
  rename_i hf
  split at h
  · rename_i hu
    cases h
    exact encryptUpdate_refused L o o' hm' d room hu
  · rename_i out o1 hu
    exfalso
    split at h
    · cases h
    split at h
    · rename_i r o2 hF
      cases h
      have hr := encryptFinal_room L _ _ _ hF
      unfold AesOp.encryptUpdate at hu
      rw [if_neg hf] at hu
      rcases hm with e | e | e <;> simp only [e] at hu
      · split at hu
        · cases hu
        · have := blockUpdate_mech L _ _ (by exact hb) _ _ _ hu
          simp only at this
          rw [this] at hr
          simp at hr
      · split at hu
        · cases hu
        · have := blockUpdate_mech L _ _ (by exact hb) _ _ _ hu
          simp only at this
          rw [this] at hr
          simp at hr
      · split at hu
        · cases hu
        · rename_i hroom
          obtain ⟨hl, hk, hp⟩ := plainUpdate_len L _ _ (by rw [hc]; exact e) _ _ _ hu
          simp only at hk hp
          rw [hk, hp] at hr
          rcases hr with ⟨-, hr⟩ | hr
          · omega
          · cases hr
    · cases h

/-- The refused C_Decrypt is the refused update in it. -/
theorem decrypt_refused (L : AesLib) (o o' : AesOp) (hm : o.mech ≠ .ctr ∧ o.mech ≠ .cts) (d : Bytes) (room : Nat)
    (h : o.decrypt L d room = (.error .bufferTooSmall, o')) : o' = { o with inUse := true } := by
  unfold AesOp.decrypt at h
  split at h
  · cases h
  split at h
  · rename_i hu
    cases h
    exact decryptUpdate_refused L o o' hm d room hu
  · exfalso
    split at h
    · cases h
    split at h
    · rename_i hF
      cases h
      exact decryptFinal_room L _ _ _ hF
    · cases h

/-- Whole messages: C_Decrypt in all modes but CTR and CTS, C_Encrypt in ECB, CBC and GCM.
Missing: the modes of the violations below. -/
theorem C59_oneshot_partial (L : AesLib) (m : AesMech) (p : AesParam) (e : Bool) (o o' : AesOp)
    (hm : m = .ecb ∨ m = .cbc ∨ m = .gcm ∨ e = false ∧ (m = .cbcPad ∨ m = .ccm)) (hn : aesNew m p e = .ok o) (d : Bytes) (room : Nat)
    (h : aesCall L o (.oneShot d (some room)) = (.error .bufferTooSmall, o')) (room' : Nat) :
    aesCall L o' (.oneShot d (some room')) = aesCall L o (.oneShot d (some room')) := by
  unfold aesNew at hn
  cases hp : aesParams m p with
  | error r => rw [hp] at hn; cases hn
  | ok q =>
    rw [hp] at hn
    cases hn
    cases he : e with
    | true =>
      have hm' : m = .ecb ∨ m = .cbc ∨ m = .gcm := by
        rcases hm with c | c | c | ⟨c, -⟩
        · exact .inl c
        · exact .inr (.inl c)
        · exact .inr (.inr c)
        · rw [he] at c; cases c
      subst he
      have := encrypt_refused L _ o' hm' rfl rfl d room (aesData_error h)
      subst this
      rcases hm' with c | c | c <;> subst c <;> rfl
    | false =>
      have hm' : m ≠ .ctr ∧ m ≠ .cts := by
        rcases hm with c | c | c | ⟨-, c | c⟩ <;> rw [c] <;> exact ⟨by simp, by simp⟩
      subst he
      have hd := aesData_error h
      have := decrypt_refused L _ o' hm' d room hd
      subst this
      rcases hm with c | c | c | ⟨-, c | c⟩ <;> subst c <;> try rfl
      show aesData (AesOp.decrypt L _ d room') = aesData (AesOp.decrypt L _ d room')
      congr 1
      unfold AesOp.decrypt AesOp.decryptUpdate at hd ⊢
      simp only [Bool.false_eq_true, if_false] at hd ⊢
      by_cases c : d.length + ([] : Bytes).length > q.datalen + q.taglen
      · rw [if_pos c] at hd; cases hd
      · rw [if_neg c, if_neg c]

/-! ## Cases and violations -/

/-- C_EncryptUpdate in CBC, refused and made again. -/
example : aesSession exAesLib .cbc (.iv exIv) true [.update (List.replicate 20 1) (some 3), .update (List.replicate 20 1) (some 16)] =
    some [.error .bufferTooSmall, .ok (.data (exBlockFn (xorBytes (List.replicate 16 1) exIv)))] := by decide +kernel

/-- C_Encrypt in GCM, refused and made again, and C_EncryptFinal in CBC with padding. -/
example : (aesSession exAesLib .gcm exGcm true [.oneShot (List.replicate 20 1) (some 20), .oneShot (List.replicate 20 1) (some 40)]).map
      (fun rs => rs.take 1) = some [.error .bufferTooSmall] ∧
    (aesSession exAesLib .gcm exGcm true [.oneShot (List.replicate 20 1) (some 20), .oneShot (List.replicate 20 1) (some 40)]).map
      (fun rs => rs.drop 1) = aesSession exAesLib .gcm exGcm true [.oneShot (List.replicate 20 1) (some 40)] ∧
    (aesSession exAesLib .cbcPad (.iv exIv) true [.update [1, 2] (some 0), .final (some 15), .final (some 16)]).map Spec.written =
      some (exBlockFn (xorBytes (1 :: 2 :: List.replicate 14 14) exIv)) := by decide +kernel

/-- CBC with padding: the second C_Encrypt does not give the encryption of the data. -/
theorem C59_pad_violation : ∃ good bad,
    aesSession exAesLib .cbcPad (.iv exIv) true [.oneShot (List.replicate 20 1) (some 64)] = some [.ok (.data good)] ∧
    aesSession exAesLib .cbcPad (.iv exIv) true [.oneShot (List.replicate 20 1) (some 16), .oneShot (List.replicate 20 1) (some 64)] =
      some [.error .bufferTooSmall, .ok (.data bad)] ∧ good ≠ bad := by
  refine ⟨Spec.written ((aesSession exAesLib .cbcPad (.iv exIv) true [.oneShot (List.replicate 20 1) (some 64)]).getD []),
    Spec.written ((aesSession exAesLib .cbcPad (.iv exIv) true [.oneShot (List.replicate 20 1) (some 16), .oneShot (List.replicate 20 1) (some 64)]).getD []), ?_, ?_, ?_⟩ <;>
    decide +kernel

/-- CTR with five blocks left: three blocks, refused and made again. -/
theorem C59_ctr_violation :
    (aesSession exAesLib .ctr (.ctr 8 (exCb 250)) true [.update (List.replicate 48 1) (some 48)]).map Spec.written ≠ some [] ∧
    aesSession exAesLib .ctr (.ctr 8 (exCb 250)) true [.update (List.replicate 48 1) (some 10), .update (List.replicate 48 1) (some 48)] =
      some [.error .bufferTooSmall, .error .dataLenRange] := by
  constructor <;> decide +kernel

/-- CTS: refused and made again. -/
theorem C59_cts_violation (L : AesLib) :
    aesSession L .cts (.iv exIv) true [.oneShot (List.replicate 20 1) (some 10), .oneShot (List.replicate 20 1) (some 20)] =
      some [.error .bufferTooSmall, .error .operationNotInitialized] := by
  rfl

/-- CCM: ten of twenty announced bytes, refused and made again, are encrypted twice. -/
theorem C59_ccm_violation :
    aesSession exAesLib .ccm exCcm true [.oneShot (List.replicate 10 0x41) (some 0), .oneShot (List.replicate 10 0x41) (some 28)] =
      some [.error .bufferTooSmall, .ok (.data exCcmText)] := by
  decide +kernel

/-- CTS: the length asked for is not enough, and more than it makes the token panic. -/
theorem C59_cts_room_violation :
    aesSession exAesLib .cts (.iv exIv) true [.oneShot (List.replicate 40 1) none, .oneShot (List.replicate 40 1) (some 40)] =
      some [.ok (.len 40), .error .deviceError] ∧
    aesSession exAesLib .cts (.iv exIv) true [.oneShot (List.replicate 20 1) none, .oneShot (List.replicate 20 1) (some 25)] =
      some [.ok (.len 20), .error .panic] := by
  constructor <;> decide +kernel

end Kry
