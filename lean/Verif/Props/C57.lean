import Verif.Props.C54

/-!
# C57 — GCM: the data is the data, and the tag guards it

Encryption: the bytes written by all calls together are the data combined with the key stream of the IV, followed by the tag over the
additional data and the ciphertext, however the data is cut and whatever calls were refused for lack of room.  Decryption succeeds for
exactly these bytes and gives the data back.

* `C57_encrypt`, `C57_encrypt_oneshot`: encryption.
* `C57_decrypt_oneshot`, `C57_roundtrip`: C_Decrypt.
* `C57_decrypt_partial`: decryption in parts when all parts after the first are no longer than the tag.
* `C57_skip_violation`: with a longer part later on, some of its bytes are never decrypted: the correct ciphertext is refused with
  CKR_ENCRYPTED_DATA_INVALID, and the bytes written are not the data.
-/

namespace Kry

namespace Spec

/-- The data combined with a key stream. -/
def masked (ks : Nat → UInt8) (d : Bytes) : Bytes := (List.range d.length).map fun i => d.getD i 0 ^^^ ks i

/-- What GCM makes of the data: ciphertext and tag. -/
def gcmSealed (L : AesLib) (iv aad : Bytes) (tagBits : Nat) (d : Bytes) : Bytes :=
  masked (L.gcmKs iv) d ++ (L.gcmTag iv aad (masked (L.gcmKs iv) d)).take ((tagBits + 7) / 8)

/-- A call that hands over data, even if it is refused. -/
def attempted (cs : List AesCall) : Prop := ∃ p room, .update p (some room) ∈ cs

/-- Parts of at most `t` bytes. -/
def short (t : Nat) (cs : List AesCall) : Prop := ∀ p room, .update p room ∈ cs → p.length ≤ t

end Spec

theorem masked_eq (ks : Nat → UInt8) (d : Bytes) : Spec.masked ks d = streamXor ks 0 d := by
  apply List.ext_getElem
  · simp [Spec.masked, streamXor_length]
  · intro i h1 h2
    have hi : i < d.length := by simpa [Spec.masked] using h1
    have := streamXor_getD ks 0 d i hi
    rw [List.getD_eq_getElem?_getD, List.getElem?_eq_getElem h2, Option.getD_some] at this
    simp only [Spec.masked, List.getElem_map, List.getElem_range]
    rw [this, Nat.zero_add]

/-! ## Encryption -/

/-- After `fed` was encrypted. -/
structure GcmOn (L : AesLib) (iv aad : Bytes) (t : Nat) (fed out : Bytes) (o : AesOp) : Prop where
  mech : o.mech = .gcm
  cmech : o.ctx.mech = .gcm
  enc : o.ctx.enc = true
  fin : o.finalized = false
  chain : o.ctx.chain = iv
  aad : o.ctx.aad = aad
  taglen : o.params.taglen = t
  pos : o.ctx.pos = fed.length
  seen : o.ctx.seen = streamXor (L.gcmKs iv) 0 fed
  out : out = streamXor (L.gcmKs iv) 0 fed

theorem GcmOn.call {L : AesLib} {iv aad fed out : Bytes} {t : Nat} {o : AesOp} (h : GcmOn L iv aad t fed out o) (p : Bytes) (room : Nat) :
    (room < p.length + t ∧ ∃ o', aesCall L o (.update p (some room)) = (.error .bufferTooSmall, o') ∧ o'.inUse = true ∧ GcmOn L iv aad t fed out o') ∨
    (p.length + t ≤ room ∧ ∃ b o', aesCall L o (.update p (some room)) = (.ok (.data b), o') ∧ o'.inUse = true ∧
      GcmOn L iv aad t (fed ++ p) (out ++ b) o' ∧ b.length = p.length) := by
  unfold aesCall
  rw [h.fin, h.enc]
  simp only [Bool.false_eq_true, if_false, if_true]
  unfold AesOp.encryptUpdate
  rw [h.fin]
  simp only [Bool.false_eq_true, if_false, h.mech, h.taglen]
  by_cases c : room < p.length + t
  · left
    rw [if_pos c]
    exact ⟨c, _, rfl, rfl, ⟨rfl, h.cmech, h.enc, rfl, h.chain, h.aad, h.taglen, h.pos, h.seen, h.out⟩⟩
  · right
    refine ⟨by omega, ?_⟩
    rw [if_neg c]
    unfold AesOp.plainUpdate
    by_cases hp : p.length > 0
    · rw [if_pos hp]
      have hu : o.ctx.osslUpdate L p room = some (streamXor (L.gcmKs iv) fed.length p,
          { o.ctx with pos := o.ctx.pos + p.length, seen := o.ctx.seen ++ streamXor (L.gcmKs iv) fed.length p }) := by
        unfold Evp.osslUpdate Evp.bufferSize Evp.blockSize Evp.update
        simp only [h.cmech, if_true, h.enc, h.chain, h.pos]
        rw [if_neg (by omega)]
      rw [hu]
      refine ⟨_, _, rfl, rfl, ⟨rfl, h.cmech, h.enc, rfl, h.chain, h.aad, h.taglen, ?_, ?_, ?_⟩, streamXor_length _ _ _⟩
      · simp [h.pos]
      · simp only [h.seen]
        rw [streamXor_append, Nat.zero_add]
      · rw [h.out, streamXor_append, Nat.zero_add]
    · rw [if_neg hp]
      have : p = [] := List.length_eq_zero_iff.1 (by omega)
      subst this
      refine ⟨[], _, rfl, rfl, ⟨rfl, h.cmech, h.enc, rfl, h.chain, h.aad, h.taglen, ?_, ?_, ?_⟩, rfl⟩
      · simp [h.pos]
      · simp [h.seen]
      · simp [h.out]

theorem GcmOn.query {L : AesLib} {iv aad fed out : Bytes} {t : Nat} {o : AesOp} (h : GcmOn L iv aad t fed out o) (p : Bytes) :
    aesCall L o (.update p none) = (.ok (.len (p.length + t)), o) := by
  unfold aesCall
  rw [h.fin, h.enc]
  simp only [Bool.false_eq_true, if_false, if_true]
  unfold AesOp.encryptionLen
  rw [h.mech, h.taglen]
  rfl

theorem GcmOn.run {L : AesLib} {iv aad fed out : Bytes} {t : Nat} {o : AesOp} (h : GcmOn L iv aad t fed out o) (cs : List AesCall)
    (hu : Spec.updates cs) :
    (∀ r ∈ (aesRun L o cs).1, r = .error .bufferTooSmall ∨ ∃ a, r = .ok a) ∧
    GcmOn L iv aad t (fed ++ Spec.taken cs (aesRun L o cs).1) (out ++ Spec.written (aesRun L o cs).1) (aesRun L o cs).2 ∧
    ((o.inUse = true ∨ Spec.attempted cs) → (aesRun L o cs).2.inUse = true) := by
  induction cs generalizing o fed out with
  | nil =>
    refine ⟨by simp [aesRun], by simpa [aesRun, Spec.taken, Spec.written] using h, fun hh => ?_⟩
    rcases hh with hh | ⟨p, room, hh⟩
    · exact hh
    · simp at hh
  | cons c cs ih =>
    have hcs : Spec.updates cs := fun c h => hu c (List.mem_cons_of_mem _ h)
    obtain ⟨p, room, e⟩ := hu c List.mem_cons_self
    subst e
    cases room with
    | none =>
      have he := h.query p
      obtain ⟨i1, i2, i3⟩ := ih h hcs
      simp only [aesRun, he, Spec.taken, Spec.written]
      refine ⟨fun r hr => ?_, i2, fun hh => i3 ?_⟩
      · rcases List.mem_cons.1 hr with e | e
        · exact .inr ⟨_, e⟩
        · exact i1 r e
      · rcases hh with hh | ⟨p', room', hh⟩
        · exact .inl hh
        · rcases List.mem_cons.1 hh with e | e
          · cases e
          · exact .inr ⟨_, _, e⟩
    | some room =>
      rcases h.call p room with ⟨-, o', he, hiu, h'⟩ | ⟨-, b, o', he, hiu, h', -⟩
      · obtain ⟨i1, i2, i3⟩ := ih h' hcs
        simp only [aesRun, he, Spec.taken, Spec.written]
        refine ⟨fun r hr => ?_, i2, fun _ => i3 (.inl hiu)⟩
        rcases List.mem_cons.1 hr with e | e
        · exact .inl e
        · exact i1 r e
      · obtain ⟨i1, i2, i3⟩ := ih h' hcs
        simp only [aesRun, he, Spec.taken, Spec.written]
        refine ⟨fun r hr => ?_, by simpa only [List.append_assoc] using i2, fun _ => i3 (.inl hiu)⟩
        rcases List.mem_cons.1 hr with e | e
        · exact .inr ⟨_, e⟩
        · exact i1 r e

theorem GcmOn.final {L : AesLib} {iv aad fed out : Bytes} {t : Nat} {o : AesOp} (h : GcmOn L iv aad t fed out o) (ht : t ≤ 16)
    (hi : o.inUse = true) (room : Nat) :
    (aesCall L o (.final (some room))).1 =
      if room < t then .error .bufferTooSmall else .ok (.data ((L.gcmTag iv aad out).take t)) := by
  unfold aesCall
  rw [h.fin, h.enc]
  simp only [Bool.false_eq_true, if_false, if_true]
  unfold AesOp.encryptFinal
  rw [h.fin, hi]
  simp only [Bool.false_eq_true, if_false, h.mech, h.taglen, Bool.not_true]
  by_cases c : room < t
  · rw [if_pos c, if_pos c]; rfl
  · rw [if_neg c, if_neg c]
    have hf : o.ctx.osslFinal L room = some [] := by
      unfold Evp.osslFinal Evp.bufferSize Evp.blockSize Evp.final
      simp [h.cmech, h.enc]
    rw [hf]
    simp only [ne_eq, not_true_eq_false, if_false]
    rw [if_neg (by rw [L.gcmTag_len]; omega), h.chain, h.aad, h.seen, h.out]
    rfl

theorem gcmNew_on (L : AesLib) (iv aad : Bytes) (tb : Nat) (o : AesOp) (h : aesNew .gcm (.gcm iv aad tb) true = .ok o) :
    GcmOn L iv aad ((tb + 7) / 8) [] [] o ∧ (tb + 7) / 8 ≤ 16 ∧ 0 < (tb + 7) / 8 ∧ o.inUse = false := by
  unfold aesNew aesParams at h
  simp only at h
  split at h
  · cases h
  rename_i p hp
  split at hp
  · cases hp
  split at hp
  · cases hp
  split at hp
  · cases hp
  cases hp
  cases h
  exact ⟨⟨rfl, rfl, rfl, rfl, rfl, rfl, rfl, rfl, rfl, rfl⟩, by omega, by omega, rfl⟩

/-- Encryption in parts: every call succeeds or says that its buffer is too small; the bytes written, with those of C_EncryptFinal, are
ciphertext and tag of the data accepted. -/
theorem C57_encrypt (L : AesLib) (iv aad : Bytes) (tb : Nat) (o : AesOp) (h : aesNew .gcm (.gcm iv aad tb) true = .ok o)
    (cs : List AesCall) (hu : Spec.updates cs) (ha : Spec.attempted cs) (room : Nat) :
    (∀ r ∈ (aesRun L o cs).1, r = .error .bufferTooSmall ∨ ∃ a, r = .ok a) ∧
    ((room < (tb + 7) / 8 ∧ (aesCall L (aesRun L o cs).2 (.final (some room))).1 = .error .bufferTooSmall) ∨
      ∃ b, (aesCall L (aesRun L o cs).2 (.final (some room))).1 = .ok (.data b) ∧
        Spec.written (aesRun L o cs).1 ++ b = Spec.gcmSealed L iv aad tb (Spec.taken cs (aesRun L o cs).1)) := by
  obtain ⟨h0, ht, -, -⟩ := gcmNew_on L iv aad tb o h
  obtain ⟨i1, i2, i3⟩ := h0.run cs hu
  refine ⟨i1, ?_⟩
  have hf := i2.final ht (i3 (.inr ha)) room
  simp only [List.nil_append] at i2 hf
  by_cases c : room < (tb + 7) / 8
  · left; rw [if_pos c] at hf; exact ⟨c, hf⟩
  · right
    rw [if_neg c] at hf
    refine ⟨_, hf, ?_⟩
    unfold Spec.gcmSealed
    rw [masked_eq, ← i2.out]

/-- C_Encrypt. -/
theorem C57_encrypt_oneshot (L : AesLib) (iv aad : Bytes) (tb : Nat) (o : AesOp) (h : aesNew .gcm (.gcm iv aad tb) true = .ok o)
    (d : Bytes) (room : Nat) (hr : d.length + (tb + 7) / 8 ≤ room) :
    (aesCall L o (.oneShot d none)).1 = .ok (.len (d.length + (tb + 7) / 8)) ∧
    (aesCall L o (.oneShot d (some room))).1 = .ok (.data (Spec.gcmSealed L iv aad tb d)) := by
  obtain ⟨h0, ht, -, -⟩ := gcmNew_on L iv aad tb o h
  constructor
  · unfold aesCall
    rw [h0.fin, h0.enc]
    simp only [Bool.false_eq_true, if_false, if_true]
    unfold AesOp.encryptionLen
    rw [h0.mech, h0.taglen]
    rfl
  · rcases h0.call d room with ⟨hc, -⟩ | ⟨-, b, o', he, hiu, h', hl⟩
    · omega
    · have hf := h'.final ht hiu (room - b.length)
      rw [if_neg (by omega)] at hf
      have := oneShot_eq L o d room h0.fin h0.enc b o' he (by omega) h'.fin h'.enc _ hf
      rw [this]
      have ho := h'.out
      simp only [List.nil_append] at ho
      unfold Spec.gcmSealed
      rw [masked_eq, ← ho]
      rfl

/-! ## Decryption -/

/-- After `fed` was handed over, of which the last bytes are kept back. -/
structure GcmBack (L : AesLib) (iv aad : Bytes) (t : Nat) (fed out : Bytes) (o : AesOp) : Prop where
  mech : o.mech = .gcm
  cmech : o.ctx.mech = .gcm
  enc : o.ctx.enc = false
  fin : o.finalized = false
  chain : o.ctx.chain = iv
  aad : o.ctx.aad = aad
  taglen : o.params.taglen = t
  fed : fed = o.ctx.seen ++ o.buffer
  pos : o.ctx.pos = o.ctx.seen.length
  kept : o.buffer.length ≤ t
  full : o.ctx.seen = [] ∨ o.buffer.length = t
  out : out = streamXor (L.gcmKs iv) 0 o.ctx.seen

theorem GcmBack.upd {L : AesLib} {iv aad fed out : Bytes} {t : Nat} {o : AesOp} (h : GcmBack L iv aad t fed out o) (x : Bytes) (room : Nat)
    (hr : x.length ≤ room) :
    o.ctx.osslUpdate L x room = some (streamXor (L.gcmKs iv) o.ctx.seen.length x,
      { o.ctx with pos := o.ctx.pos + x.length, seen := o.ctx.seen ++ x }) := by
  unfold Evp.osslUpdate Evp.bufferSize Evp.blockSize Evp.update
  simp only [h.cmech, if_true, h.enc, h.chain, h.pos]
  rw [if_neg (by omega)]
  simp

/-- One part, when nothing is kept back or the part is short. -/
theorem GcmBack.call {L : AesLib} {iv aad fed out : Bytes} {t : Nat} {o : AesOp} (h : GcmBack L iv aad t fed out o) (p : Bytes) (room : Nat)
    (hp : o.buffer = [] ∨ p.length ≤ t) :
    (room < p.length + o.buffer.length - t ∧
      ∃ o', aesCall L o (.update p (some room)) = (.error .bufferTooSmall, o') ∧ o'.inUse = true ∧ GcmBack L iv aad t fed out o' ∧
        o'.buffer = o.buffer) ∨
    (p.length + o.buffer.length - t ≤ room ∧ ∃ b o', aesCall L o (.update p (some room)) = (.ok (.data b), o') ∧ o'.inUse = true ∧
      GcmBack L iv aad t (fed ++ p) (out ++ b) o' ∧ b.length = p.length + o.buffer.length - t) := by
  have hcall : aesCall L o (.update p (some room)) = aesData (o.decryptUpdate L p room) := by
    unfold aesCall; rw [h.fin, h.enc]; rfl
  have hupd := h.upd
  have hfed := h.fed
  have hkept := h.kept
  have hfull := h.full
  rw [hcall]
  unfold AesOp.decryptUpdate
  rw [h.fin]
  simp only [Bool.false_eq_true, if_false, h.mech, h.taglen]
  by_cases c : room < p.length + o.buffer.length - t
  · left
    rw [if_pos c]
    exact ⟨c, _, rfl, rfl, ⟨rfl, h.cmech, h.enc, rfl, h.chain, h.aad, h.taglen, h.fed, h.pos, h.kept, h.full, h.out⟩, rfl⟩
  right
  refine ⟨by omega, ?_⟩
  rw [if_neg c]
  unfold AesOp.gcmUpdate
  simp only [h.taglen]
  by_cases hb : o.buffer = []
  · rw [if_neg (by simp [hb])]
    have hbl : o.buffer.length = 0 := by rw [hb]; rfl
    rw [hbl] at c hfull ⊢
    rw [hb, List.append_nil] at hfed
    by_cases ct : p.length > t
    · rw [if_pos ct]
      unfold AesOp.plainUpdate
      rw [if_pos (by rw [List.length_take]; omega)]
      simp only
      rw [hupd (p.take (p.length - t)) room (by rw [List.length_take]; omega)]
      refine ⟨_, _, rfl, rfl, ⟨rfl, h.cmech, h.enc, rfl, h.chain, h.aad, h.taglen, ?_, ?_, ?_, .inr ?_, ?_⟩, ?_⟩
      · simp only [hfed, List.append_assoc, List.take_append_drop]
      · simp [h.pos]
      · simp only [List.length_drop]; omega
      · simp only [List.length_drop]; omega
      · simp only; rw [streamXor_append, Nat.zero_add, h.out]
      · rw [streamXor_length, List.length_take]; omega
    · rw [if_neg ct]
      refine ⟨[], _, rfl, rfl, ⟨rfl, h.cmech, h.enc, rfl, h.chain, h.aad, h.taglen, ?_, h.pos, ?_, ?_, ?_⟩, ?_⟩
      · rw [hfed]
      · simp only; omega
      · rcases hfull with hf | hf
        · exact .inl hf
        · right; simp only; omega
      · rw [List.append_nil]; exact h.out
      · simp; omega
  · rw [if_pos hb]
    have ct : p.length ≤ t := by rcases hp with hp | hp; exact absurd hp hb; exact hp
    rw [if_neg (by omega)]
    by_cases cl : (o.buffer ++ p).length > t
    · rw [if_pos cl]
      simp only [List.length_append] at cl ⊢
      rw [hupd ((o.buffer ++ p).take (o.buffer.length + p.length - t)) room (by rw [List.length_take, List.length_append]; omega)]
      refine ⟨_, _, rfl, rfl, ⟨rfl, h.cmech, h.enc, rfl, h.chain, h.aad, h.taglen, ?_, ?_, ?_, .inr ?_, ?_⟩, ?_⟩
      · simp only [hfed, List.append_assoc, List.take_append_drop]
      · simp [h.pos]
      · simp only [List.length_drop, List.length_append]; omega
      · simp only [List.length_drop, List.length_append]; omega
      · simp only; rw [streamXor_append, Nat.zero_add, h.out]
      · rw [streamXor_length, List.length_take, List.length_append]; omega
    · rw [if_neg cl]
      rw [List.length_append] at cl
      refine ⟨[], _, rfl, rfl, ⟨rfl, h.cmech, h.enc, rfl, h.chain, h.aad, h.taglen, ?_, h.pos, ?_, ?_, ?_⟩, ?_⟩
      · simp only [hfed, List.append_assoc]
      · simp only [List.length_append]; omega
      · rcases hfull with hf | hf
        · exact .inl hf
        · right; simp only [List.length_append]; omega
      · rw [List.append_nil]; exact h.out
      · simp; omega

theorem GcmBack.query {L : AesLib} {iv aad fed out : Bytes} {t : Nat} {o : AesOp} (h : GcmBack L iv aad t fed out o) (p : Bytes) :
    ∃ n, aesCall L o (.update p none) = (.ok (.len n), o) := by
  unfold aesCall
  rw [h.fin, h.enc]
  simp only [Bool.false_eq_true, if_false]
  unfold AesOp.decryptionLen
  rw [h.mech]
  exact ⟨_, rfl⟩

theorem GcmBack.run {L : AesLib} {iv aad fed out : Bytes} {t : Nat} {o : AesOp} (h : GcmBack L iv aad t fed out o) (cs : List AesCall)
    (hu : Spec.updates cs) (hs : Spec.short t cs) :
    (∀ r ∈ (aesRun L o cs).1, r = .error .bufferTooSmall ∨ ∃ a, r = .ok a) ∧
    GcmBack L iv aad t (fed ++ Spec.taken cs (aesRun L o cs).1) (out ++ Spec.written (aesRun L o cs).1) (aesRun L o cs).2 ∧
    ((o.inUse = true ∨ Spec.attempted cs) → (aesRun L o cs).2.inUse = true) := by
  induction cs generalizing o fed out with
  | nil =>
    refine ⟨by simp [aesRun], by simpa [aesRun, Spec.taken, Spec.written] using h, fun hh => ?_⟩
    rcases hh with hh | ⟨p, room, hh⟩
    · exact hh
    · simp at hh
  | cons c cs ih =>
    have hcs : Spec.updates cs := fun c h => hu c (List.mem_cons_of_mem _ h)
    have hss : Spec.short t cs := fun p room h => hs p room (List.mem_cons_of_mem _ h)
    obtain ⟨p, room, e⟩ := hu c List.mem_cons_self
    subst e
    cases room with
    | none =>
      obtain ⟨n, he⟩ := h.query p
      obtain ⟨i1, i2, i3⟩ := ih h hcs hss
      simp only [aesRun, he, Spec.taken, Spec.written]
      refine ⟨fun r hr => ?_, i2, fun hh => i3 ?_⟩
      · rcases List.mem_cons.1 hr with e | e
        · exact .inr ⟨_, e⟩
        · exact i1 r e
      · rcases hh with hh | ⟨p', room', hh⟩
        · exact .inl hh
        · rcases List.mem_cons.1 hh with e | e
          · cases e
          · exact .inr ⟨_, _, e⟩
    | some room =>
      rcases h.call p room (.inr (hs p _ List.mem_cons_self)) with ⟨-, o', he, hiu, h', -⟩ | ⟨-, b, o', he, hiu, h', -⟩
      · obtain ⟨i1, i2, i3⟩ := ih h' hcs hss
        simp only [aesRun, he, Spec.taken, Spec.written]
        refine ⟨fun r hr => ?_, i2, fun _ => i3 (.inl hiu)⟩
        rcases List.mem_cons.1 hr with e | e
        · exact .inl e
        · exact i1 r e
      · obtain ⟨i1, i2, i3⟩ := ih h' hcs hss
        simp only [aesRun, he, Spec.taken, Spec.written]
        refine ⟨fun r hr => ?_, by simpa only [List.append_assoc] using i2, fun _ => i3 (.inl hiu)⟩
        rcases List.mem_cons.1 hr with e | e
        · exact .inr ⟨_, e⟩
        · exact i1 r e

/-- The bytes handed over are ciphertext and tag of the bytes written. -/
theorem gcm_genuine {L : AesLib} {iv aad fed out : Bytes} {tb : Nat} {o : AesOp} (h : GcmBack L iv aad ((tb + 7) / 8) fed out o)
    (ht : (tb + 7) / 8 ≤ 16) :
    (o.buffer.length = (tb + 7) / 8 ∧ (L.gcmTag iv aad o.ctx.seen).take o.buffer.length = o.buffer) ↔
      fed = Spec.gcmSealed L iv aad tb out := by
  have hs : streamXor (L.gcmKs iv) 0 out = o.ctx.seen := by rw [h.out, streamXor_twice]
  unfold Spec.gcmSealed
  rw [masked_eq, hs, h.fed]
  constructor
  · rintro ⟨h1, h2⟩
    rw [h1] at h2
    rw [h2]
  · intro he
    have := List.append_cancel_left he
    have hl : o.buffer.length = (tb + 7) / 8 := by rw [this, List.length_take, L.gcmTag_len]; omega
    exact ⟨hl, by rw [hl]; exact this.symm⟩

theorem GcmBack.final {L : AesLib} {iv aad fed out : Bytes} {tb : Nat} {o : AesOp} (h : GcmBack L iv aad ((tb + 7) / 8) fed out o)
    (ht : (tb + 7) / 8 ≤ 16) (hi : o.inUse = true) (room : Nat) :
    (fed = Spec.gcmSealed L iv aad tb out ∧ (aesCall L o (.final (some room))).1 = .ok (.data [])) ∨
      (fed ≠ Spec.gcmSealed L iv aad tb out ∧ ((aesCall L o (.final (some room))).1 = .error .dataLenRange ∨
        (aesCall L o (.final (some room))).1 = .error .encryptedDataInvalid)) := by
  have hg := gcm_genuine h ht
  have hcall : aesCall L o (.final (some room)) = aesData (o.decryptFinal L room) := by
    unfold aesCall; rw [h.fin, h.enc]; rfl
  rw [hcall]
  unfold AesOp.decryptFinal
  rw [h.fin, hi]
  simp only [Bool.false_eq_true, if_false, Bool.not_true, h.mech, h.taglen]
  by_cases c : o.buffer.length ≠ (tb + 7) / 8
  · right
    rw [if_pos c]
    exact ⟨fun e => c (hg.2 e).1, .inl rfl⟩
  rw [if_neg c]
  have hf : ({ o.ctx with tag := o.buffer } : Evp).osslFinal L room =
      if (L.gcmTag iv aad o.ctx.seen).take o.buffer.length = o.buffer then some [] else none := by
    unfold Evp.osslFinal Evp.bufferSize Evp.blockSize Evp.final
    simp [h.cmech, h.enc, h.chain, h.aad]
  rw [hf]
  by_cases c2 : (L.gcmTag iv aad o.ctx.seen).take o.buffer.length = o.buffer
  · left
    rw [if_pos c2]
    exact ⟨hg.1 ⟨by simpa using c, c2⟩, rfl⟩
  · right
    rw [if_neg c2]
    exact ⟨fun e => c2 (hg.2 e).2, .inr rfl⟩

theorem gcmNew_back (L : AesLib) (iv aad : Bytes) (tb : Nat) (o : AesOp) (h : aesNew .gcm (.gcm iv aad tb) false = .ok o) :
    GcmBack L iv aad ((tb + 7) / 8) [] [] o ∧ (tb + 7) / 8 ≤ 16 ∧ 0 < (tb + 7) / 8 ∧ o.inUse = false ∧ o.buffer = [] := by
  unfold aesNew aesParams at h
  simp only at h
  split at h
  · cases h
  rename_i p hp
  split at hp
  · cases hp
  split at hp
  · cases hp
  split at hp
  · cases hp
  cases hp
  cases h
  exact ⟨⟨rfl, rfl, rfl, rfl, rfl, rfl, rfl, rfl, rfl, by simp, .inl rfl, rfl⟩, by omega, by omega, rfl, rfl⟩

/-- Decryption in parts, the first of any length, the others no longer than the tag: the calls succeed or their buffer is too small;
C_DecryptFinal succeeds exactly when the bytes handed over are ciphertext and tag of the bytes written.
Missing: longer parts, see `C57_skip_violation`. -/
theorem C57_decrypt_partial (L : AesLib) (iv aad : Bytes) (tb : Nat) (o : AesOp) (h : aesNew .gcm (.gcm iv aad tb) false = .ok o)
    (p : Bytes) (r0 : Nat) (cs : List AesCall) (hu : Spec.updates cs) (hs : Spec.short ((tb + 7) / 8) cs) (room : Nat) :
    let all := .update p (some r0) :: cs
    (∀ r ∈ (aesRun L o all).1, r = .error .bufferTooSmall ∨ ∃ a, r = .ok a) ∧
    ((aesCall L (aesRun L o all).2 (.final (some room))).1 = .ok (.data []) ↔
      Spec.taken all (aesRun L o all).1 = Spec.gcmSealed L iv aad tb (Spec.written (aesRun L o all).1)) := by
  intro all
  obtain ⟨h0, ht, -, -, hb⟩ := gcmNew_back L iv aad tb o h
  have key : (∀ r ∈ (aesRun L o all).1, r = .error .bufferTooSmall ∨ ∃ a, r = .ok a) ∧
      GcmBack L iv aad ((tb + 7) / 8) (Spec.taken all (aesRun L o all).1) (Spec.written (aesRun L o all).1) (aesRun L o all).2 ∧
      (aesRun L o all).2.inUse = true := by
    rcases h0.call p r0 (.inl hb) with ⟨-, o', he, hiu, h', -⟩ | ⟨-, b, o', he, hiu, h', -⟩
    · obtain ⟨i1, i2, i3⟩ := h'.run cs hu hs
      simp only [all, aesRun, he, Spec.taken, Spec.written]
      refine ⟨fun r hr => ?_, by simpa using i2, i3 (.inl hiu)⟩
      rcases List.mem_cons.1 hr with e | e
      · exact .inl e
      · exact i1 r e
    · obtain ⟨i1, i2, i3⟩ := h'.run cs hu hs
      simp only [all, aesRun, he, Spec.taken, Spec.written]
      refine ⟨fun r hr => ?_, by simpa only [List.append_assoc, List.nil_append] using i2, i3 (.inl hiu)⟩
      rcases List.mem_cons.1 hr with e | e
      · exact .inr ⟨_, e⟩
      · exact i1 r e
  refine ⟨key.1, ?_⟩
  rcases key.2.1.final ht key.2.2 room with ⟨h1, h2⟩ | ⟨h1, h2⟩
  · exact ⟨fun _ => h1, fun _ => h2⟩
  · refine ⟨fun e => ?_, fun e => absurd e h1⟩
    rw [e] at h2
    rcases h2 with h2 | h2 <;> cases h2

/-- C_Decrypt with enough room gives `d` for exactly the ciphertext and tag of `d`. -/
theorem C57_decrypt_oneshot (L : AesLib) (iv aad : Bytes) (tb : Nat) (o : AesOp) (h : aesNew .gcm (.gcm iv aad tb) false = .ok o)
    (c d : Bytes) (room : Nat) (hr : c.length ≤ room) :
    (aesCall L o (.oneShot c (some room))).1 = .ok (.data d) ↔ c = Spec.gcmSealed L iv aad tb d := by
  obtain ⟨h0, ht, hpos, -, hb⟩ := gcmNew_back L iv aad tb o h
  have hbl : o.buffer.length = 0 := by rw [hb]; rfl
  have hcall : aesCall L o (.oneShot c (some room)) = aesData (o.decrypt L c room) := by
    unfold aesCall; rw [h0.fin, h0.enc]; rfl
  rcases h0.call c room (.inl hb) with ⟨hc, -⟩ | ⟨-, b, o', he, hiu, h', hl⟩
  · omega
  have hupd : o.decryptUpdate L c room = (.ok b, o') := by
    unfold aesCall at he
    rw [h0.fin, h0.enc] at he
    simp only [Bool.false_eq_true, if_false] at he
    unfold aesData at he
    split at he <;> cases he
    assumption
  rw [hcall]
  unfold AesOp.decrypt
  rw [h0.fin, hupd]
  simp only [Bool.false_eq_true, if_false]
  rw [if_neg (by omega)]
  have hfc : ∀ n, (aesCall L o' (.final (some n))).1 = (aesData (o'.decryptFinal L n)).1 := by
    intro n; unfold aesCall; rw [h'.fin, h'.enc]; rfl
  have hfin := h'.final ht hiu (room - b.length)
  rw [hfc] at hfin
  simp only [List.nil_append] at hfin h'
  generalize o'.decryptFinal L (room - b.length) = w at hfin ⊢
  obtain ⟨r, o''⟩ := w
  -- the data is determined by the ciphertext
  have uniq : ∀ d d', Spec.gcmSealed L iv aad tb d = Spec.gcmSealed L iv aad tb d' → d = d' := by
    intro d d' e
    unfold Spec.gcmSealed at e
    have e1 := List.append_inj_left' e (by simp only [List.length_take, L.gcmTag_len])
    rw [masked_eq, masked_eq] at e1
    rw [← streamXor_twice (L.gcmKs iv) 0 d, e1, streamXor_twice]
  rcases hfin with ⟨h1, h2⟩ | ⟨h1, h2⟩
  · cases r with
    | error r => cases h2
    | ok x =>
      cases h2
      simp only [aesData, List.append_nil]
      constructor
      · intro e; cases e; exact h1
      · intro e; rw [uniq d b (e.symm.trans h1)]
  · cases r with
    | ok x => rcases h2 with h2 | h2 <;> cases h2
    | error r =>
      simp only [aesData]
      refine ⟨fun e => (by cases e), fun e => ?_⟩
      exfalso
      -- had the bytes been genuine, C_DecryptFinal would have accepted them
      have hls := congrArg List.length e
      unfold Spec.gcmSealed at hls
      rw [List.length_append, List.length_take, L.gcmTag_len, masked_eq, streamXor_length] at hls
      have hfed := h'.fed
      have hsl : o'.ctx.seen.length = c.length - (tb + 7) / 8 := by
        have h3 := congrArg List.length h'.out
        rw [streamXor_length] at h3
        omega
      have e2 : o'.ctx.seen ++ o'.buffer = Spec.masked (L.gcmKs iv) d ++ (L.gcmTag iv aad (Spec.masked (L.gcmKs iv) d)).take ((tb + 7) / 8) := by
        rw [← hfed]; exact e
      have e3 := List.append_inj_left e2 (by rw [hsl, masked_eq, streamXor_length]; omega)
      have e4 : b = d := by rw [h'.out, e3, masked_eq, streamXor_twice]
      exact h1 (e4 ▸ e)

/-- C_Decrypt undoes C_Encrypt. -/
theorem C57_roundtrip (L : AesLib) (iv aad : Bytes) (tb : Nat) (o o' : AesOp) (h : aesNew .gcm (.gcm iv aad tb) true = .ok o)
    (h' : aesNew .gcm (.gcm iv aad tb) false = .ok o') (d c : Bytes) (room : Nat)
    (he : (aesCall L o (.oneShot d (some room))).1 = .ok (.data c)) :
    (aesCall L o' (.oneShot c (some room))).1 = .ok (.data d) := by
  obtain ⟨h0, ht, -, -⟩ := gcmNew_on L iv aad tb o h
  have hr : d.length + (tb + 7) / 8 ≤ room := by
    apply Nat.le_of_not_lt
    intro hlt
    rcases h0.call d room with ⟨-, o1, e1, -, -⟩ | ⟨hc, -⟩
    · unfold aesCall at e1 he
      rw [h0.fin, h0.enc] at e1 he
      simp only [Bool.false_eq_true, if_false, if_true] at e1 he
      unfold AesOp.encrypt at he
      rw [h0.fin] at he
      simp only [Bool.false_eq_true, if_false] at he
      generalize o.encryptUpdate L d room = w at e1 he
      obtain ⟨r, o2⟩ := w
      cases r with
      | ok x => cases e1
      | error r => cases he
    · omega
  have h2 := (C57_encrypt_oneshot L iv aad tb o h d room hr).2
  rw [he] at h2
  injection h2 with h2
  injection h2 with h2
  rw [C57_decrypt_oneshot L iv aad tb o' h' c d room ?_, h2]
  rw [h2]
  unfold Spec.gcmSealed
  rw [List.length_append, List.length_take, L.gcmTag_len, masked_eq, streamXor_length]
  omega

/-! ## Cases and the violation -/

/-- An IV of twelve bytes, additional data, a tag of twelve bytes. -/
def exGcm : AesParam := .gcm [1, 2, 3, 4, 5, 6, 7, 8, 9, 10, 11, 12] [7, 7] 96

/-- Forty bytes, encrypted. -/
def exGcmText : Bytes := Spec.gcmSealed exAesLib [1, 2, 3, 4, 5, 6, 7, 8, 9, 10, 11, 12] [7, 7] 96 (List.replicate 40 0x41)

/-- Encryption in parts with a refused call, as in `C57_encrypt`. -/
example : aesSession exAesLib .gcm exGcm true
    [.update (List.replicate 15 0x41) (some 100), .update (List.replicate 25 0x41) (some 30), .update (List.replicate 25 0x41) (some 37), .final (some 12)] =
    some [.ok (.data (exGcmText.take 15)), .error .bufferTooSmall, .ok (.data ((exGcmText.drop 15).take 25)), .ok (.data (exGcmText.drop 40))] := by
  decide +kernel

/-- Decryption, the first part long, the others short, as in `C57_decrypt_partial`. -/
example : (aesSession exAesLib .gcm exGcm false
    [.update (exGcmText.take 30) (some 100), .update ((exGcmText.drop 30).take 10) (some 100), .update (exGcmText.drop 40) (some 100), .final (some 0)]).map Spec.written =
    some (List.replicate 40 0x41) := by
  decide +kernel

/-- The same ciphertext in two parts, the second of them longer than the tag: ten bytes are lost and C_DecryptFinal refuses. -/
theorem C57_skip_violation :
    aesSession exAesLib .gcm exGcm false [.oneShot exGcmText (some 52)] = some [.ok (.data (List.replicate 40 0x41))] ∧
    ∃ b, aesSession exAesLib .gcm exGcm false [.update (exGcmText.take 30) (some 100), .update (exGcmText.drop 30) (some 100), .final (some 0)] =
        some [.ok (.data (List.replicate 18 0x41)), .ok (.data b), .error .encryptedDataInvalid] ∧ b.length = 12 := by
  refine ⟨by decide +kernel, List.replicate 12 0x41, by decide +kernel, rfl⟩

end Kry
