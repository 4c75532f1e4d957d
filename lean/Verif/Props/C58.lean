import Verif.Props.C57

/-!
# C58 — CCM: the data is the data, and the tag guards it

CCM is told the length of the data at the start.  Encryption of exactly that much, in whatever parts, gives ciphertext and tag; decryption succeeds
for exactly these bytes and gives the data back.

* `C58_encrypt_partial`: encryption in parts, while no more data than announced is handed over.
* `C58_encrypt_oneshot`, `C58_roundtrip`: C_Encrypt and C_Decrypt.
* `C58_decrypt_partial`, `C58_decrypt_oneshot_partial`: decryption, when at least one byte is handed over.
* `C58_excess_violation`: after the announced data was encrypted, C_EncryptUpdate takes more, and C_EncryptFinal succeeds: these bytes are lost.
* `C58_empty_violation`: C_Decrypt of nothing succeeds, without any tag, whatever the announced length.
-/

namespace Kry

namespace Spec

/-- What CCM makes of the data: ciphertext and tag. -/
def ccmSealed (L : AesLib) (iv aad : Bytes) (t : Nat) (d : Bytes) : Bytes := (L.ccmEnc iv aad t d).1 ++ (L.ccmEnc iv aad t d).2

/-- No call failed, except for lack of room. -/
def unbroken (rs : List (Res AesOut)) : Prop := ∀ r ∈ rs, r = .error .bufferTooSmall ∨ ∃ a, r = .ok a

end Spec

/-- A call failed for another reason. -/
def Rough (rs : List (Res AesOut)) : Prop := ∃ e, e ≠ .bufferTooSmall ∧ .error e ∈ rs

theorem not_smooth {rs : List (Res AesOut)} (h : Rough rs) : ¬ Spec.unbroken rs := by
  obtain ⟨e, h1, h2⟩ := h
  intro hs
  rcases hs _ h2 with h | ⟨a, h⟩
  · injection h with h; exact h1 h
  · cases h

/-! ## Encryption -/

/-- After `fed` was handed over. -/
structure CcmOn (L : AesLib) (iv aad : Bytes) (n t : Nat) (fed out : Bytes) (o : AesOp) : Prop where
  mech : o.mech = .ccm
  cmech : o.ctx.mech = .ccm
  enc : o.ctx.enc = true
  fin : o.finalized = false
  chain : o.ctx.chain = iv
  caad : o.ctx.aad = aad
  ctag : o.ctx.taglen = t
  taglen : o.params.taglen = t
  datalen : o.params.datalen = n
  pos : 0 < n
  phase : (o.ctx.pos = 0 ∧ o.buffer = fed ∧ fed.length < n ∧ out = [] ∧ o.ctx.tag = []) ∨
    (o.inUse = true ∧ fed.length = n ∧ o.buffer = [] ∧ out = (L.ccmEnc iv aad t fed).1 ∧ o.ctx.tag = (L.ccmEnc iv aad t fed).2)

theorem CcmOn.used {L : AesLib} {iv aad fed out : Bytes} {n t : Nat} {o : AesOp} (h : CcmOn L iv aad n t fed out o) :
    CcmOn L iv aad n t fed out { o with inUse := true } :=
  ⟨h.mech, h.cmech, h.enc, h.fin, h.chain, h.caad, h.ctag, h.taglen, h.datalen, h.pos, by
    rcases h.phase with hp | ⟨-, hp⟩
    · exact .inl hp
    · exact .inr ⟨rfl, hp⟩⟩

theorem CcmOn.upd {L : AesLib} {iv aad fed out : Bytes} {n t : Nat} {o : AesOp} (h : CcmOn L iv aad n t fed out o) (x : Bytes) (room : Nat)
    (hr : x.length ≤ room) (hp : o.ctx.pos = 0) :
    o.ctx.osslUpdate L x room = some ((L.ccmEnc iv aad t x).1, { o.ctx with tag := (L.ccmEnc iv aad t x).2, pos := 1 }) := by
  unfold Evp.osslUpdate Evp.bufferSize Evp.blockSize Evp.update
  simp only [h.cmech, if_true, h.enc, h.chain, h.caad, h.ctag, hp]
  rw [if_neg (by omega)]
  simp

theorem CcmOn.call {L : AesLib} {iv aad fed out : Bytes} {n t : Nat} {o : AesOp} (h : CcmOn L iv aad n t fed out o) (p : Bytes) (room : Nat) :
    (∃ o', aesCall L o (.update p (some room)) = (.error .bufferTooSmall, o') ∧ CcmOn L iv aad n t fed out o') ∨
    (∃ e o', aesCall L o (.update p (some room)) = (.error e, o') ∧ e ≠ .bufferTooSmall) ∨
    (∃ b o', aesCall L o (.update p (some room)) = (.ok (.data b), o') ∧
      (n < (fed ++ p).length ∨ CcmOn L iv aad n t (fed ++ p) (out ++ b) o')) := by
  have hcall : aesCall L o (.update p (some room)) = aesData (o.encryptUpdate L p room) := by
    unfold aesCall; rw [h.fin, h.enc]; rfl
  have hu := h.used
  have hpos := h.pos
  rw [hcall]
  unfold AesOp.encryptUpdate
  rw [h.fin]
  simp only [Bool.false_eq_true, if_false, h.mech, h.taglen, h.datalen]
  by_cases c1 : n > AesOp.maxCcmBuf ∧ p.length ≠ n
  · right; left; rw [if_pos c1]; exact ⟨_, _, rfl, by simp⟩
  rw [if_neg c1]
  by_cases c2 : p.length + o.buffer.length > n
  · right; left; rw [if_pos c2]; exact ⟨_, _, rfl, by simp⟩
  rw [if_neg c2]
  by_cases c3 : room < (if p.length + o.buffer.length < n then 0 else n + t)
  · left
    rw [if_pos c3]
    refine ⟨_, rfl, ?_⟩
    rw [h.mech, h.fin] at hu
    exact hu
  rw [if_neg c3]
  by_cases c4 : p.length < n
  · rw [if_pos c4]
    right; right
    rcases h.phase with ⟨h1, h2, h3, h4, h5⟩ | ⟨h1, h2, h3, h4, h5⟩
    · by_cases c5 : (o.buffer ++ p).length = n
      · rw [if_pos c5]
        have hl : o.buffer.length + p.length = n := by rw [← c5, List.length_append]
        rw [if_neg (by omega)] at c3
        have hup := h.upd (o.buffer ++ p) room (by omega) h1
        simp only [hup]
        rw [if_neg (by rw [L.ccm_len]; simpa using c5)]
        refine ⟨_, _, rfl, .inr ⟨rfl, h.cmech, h.enc, rfl, h.chain, h.caad, h.ctag, h.taglen, h.datalen, h.pos, .inr ⟨rfl, ?_, rfl, ?_, ?_⟩⟩⟩
        · rw [← h2]; exact c5
        · rw [h4, ← h2]; rfl
        · rw [← h2]
      · rw [if_neg c5]
        have hl : o.buffer.length + p.length ≠ n := by rw [← List.length_append]; exact c5
        refine ⟨[], _, rfl, .inr ⟨rfl, h.cmech, h.enc, rfl, h.chain, h.caad, h.ctag, h.taglen, h.datalen, h.pos, .inl ⟨h1, ?_, ?_, ?_, h5⟩⟩⟩
        · simp only [h2]
        · rw [List.length_append, ← h2]; omega
        · simp [h4]
    · rw [h3]
      simp only [List.nil_append]
      rw [if_neg (by omega)]
      refine ⟨[], _, rfl, ?_⟩
      by_cases c6 : p = []
      · right
        subst c6
        rw [List.append_nil, List.append_nil]
        exact ⟨rfl, h.cmech, h.enc, rfl, h.chain, h.caad, h.ctag, h.taglen, h.datalen, h.pos, .inr ⟨rfl, h2, rfl, h4, h5⟩⟩
      · left
        have : 0 < p.length := List.length_pos_iff.2 c6
        rw [List.length_append]; omega
  · rw [if_neg c4]
    have hpn : p.length = n := by omega
    rw [if_neg (by omega)] at c3
    rcases h.phase with ⟨h1, h2, h3, h4, h5⟩ | ⟨h1, h2, h3, h4, h5⟩
    · have hb : o.buffer = [] := List.length_eq_zero_iff.1 (by omega)
      have hfed : fed = [] := by rw [← h2, hb]
      subst hfed
      unfold AesOp.plainUpdate
      rw [if_pos (by omega)]
      have hup := h.upd p room (by omega) h1
      simp only [hup]
      right; right
      refine ⟨_, _, rfl, .inr ⟨rfl, h.cmech, h.enc, rfl, h.chain, h.caad, h.ctag, h.taglen, h.datalen, h.pos, .inr ⟨rfl, ?_, h2, ?_, ?_⟩⟩⟩
      · simpa using hpn
      · simp [h4]
      · simp
    · unfold AesOp.plainUpdate
      rw [if_pos (by omega)]
      simp only
      cases hw : o.ctx.osslUpdate L p room with
      | none =>
        right; left; exact ⟨_, _, rfl, by simp⟩
      | some w =>
        right; right; exact ⟨_, _, rfl, .inl (by rw [List.length_append]; omega)⟩

theorem CcmOn.query {L : AesLib} {iv aad fed out : Bytes} {n t : Nat} {o : AesOp} (h : CcmOn L iv aad n t fed out o) (p : Bytes) :
    ∃ k, aesCall L o (.update p none) = (.ok (.len k), o) := by
  unfold aesCall
  rw [h.fin, h.enc]
  simp only [Bool.false_eq_true, if_false, if_true]
  unfold AesOp.encryptionLen
  rw [h.mech]
  exact ⟨_, rfl⟩

theorem CcmOn.run {L : AesLib} {iv aad fed out : Bytes} {n t : Nat} {o : AesOp} (h : CcmOn L iv aad n t fed out o) (cs : List AesCall)
    (hu : Spec.updates cs) :
    Rough (aesRun L o cs).1 ∨ n < (fed ++ Spec.taken cs (aesRun L o cs).1).length ∨
      CcmOn L iv aad n t (fed ++ Spec.taken cs (aesRun L o cs).1) (out ++ Spec.written (aesRun L o cs).1) (aesRun L o cs).2 := by
  induction cs generalizing o fed out with
  | nil => right; right; simpa [aesRun, Spec.taken, Spec.written] using h
  | cons c cs ih =>
    have hcs : Spec.updates cs := fun c h => hu c (List.mem_cons_of_mem _ h)
    obtain ⟨p, room, e⟩ := hu c List.mem_cons_self
    subst e
    have more : ∀ r rs, Rough rs → Rough (r :: rs) := fun r rs ⟨e, h1, h2⟩ => ⟨e, h1, List.mem_cons_of_mem _ h2⟩
    cases room with
    | none =>
      obtain ⟨k, he⟩ := h.query p
      simp only [aesRun, he, Spec.taken, Spec.written]
      rcases ih h hcs with i | i
      · exact .inl (more _ _ i)
      · exact .inr i
    | some room =>
      rcases h.call p room with ⟨o', he, h'⟩ | ⟨e, o', he, hne⟩ | ⟨b, o', he, h'⟩
      · simp only [aesRun, he, Spec.taken, Spec.written]
        rcases ih h' hcs with i | i
        · exact .inl (more _ _ i)
        · exact .inr i
      · left
        simp only [aesRun, he]
        exact ⟨e, hne, List.mem_cons_self⟩
      · simp only [aesRun, he, Spec.taken, Spec.written]
        rcases h' with h' | h'
        · right; left
          rw [List.length_append] at h' ⊢
          rw [List.length_append]
          omega
        · rcases ih h' hcs with i | i
          · exact .inl (more _ _ i)
          · right; simpa only [List.append_assoc] using i

theorem CcmOn.final {L : AesLib} {iv aad fed out : Bytes} {n t : Nat} {o : AesOp} (h : CcmOn L iv aad n t fed out o) (ht : 0 < t ∧ t ≤ 16)
    (room : Nat) :
    if fed.length = n then (aesCall L o (.final (some room))).1 =
      if room < t then .error .bufferTooSmall else .ok (.data (L.ccmEnc iv aad t fed).2)
    else ∃ e, (aesCall L o (.final (some room))).1 = .error e := by
  have hcall : aesCall L o (.final (some room)) = aesData (o.encryptFinal L room) := by
    unfold aesCall; rw [h.fin, h.enc]; rfl
  have hf : o.ctx.osslFinal L room = some [] := by
    unfold Evp.osslFinal Evp.bufferSize Evp.blockSize Evp.final
    simp [h.cmech]
  rw [hcall]
  unfold AesOp.encryptFinal
  rw [h.fin]
  simp only [Bool.false_eq_true, if_false, h.mech, h.taglen]
  rcases h.phase with ⟨h1, h2, h3, h4, h5⟩ | ⟨h1, h2, h3, h4, h5⟩
  · rw [if_neg (by omega)]
    cases o.inUse with
    | false => exact ⟨_, rfl⟩
    | true =>
      simp only [Bool.not_true, Bool.false_eq_true, if_false]
      by_cases c : room < t
      · rw [if_pos c]; exact ⟨_, rfl⟩
      · rw [if_neg c, hf]
        simp only [ne_eq, not_true_eq_false, if_false]
        rw [if_pos (by rw [h5]; exact ht.1)]
        exact ⟨_, rfl⟩
  · rw [if_pos h2, h1]
    simp only [Bool.not_true, Bool.false_eq_true, if_false]
    by_cases c : room < t
    · rw [if_pos c, if_pos c]; rfl
    · rw [if_neg c, if_neg c, hf]
      have htl : o.ctx.tag.length = t := by rw [h5]; exact L.ccm_tag_len _ _ _ _ ht.2
      simp only [ne_eq, not_true_eq_false, if_false]
      rw [if_neg (by omega), List.take_of_length_le (by omega), h5]
      rfl

theorem ccmParams (nonce aad : Bytes) (t n : Nat) (e : Bool) (o : AesOp) (h : aesNew .ccm (.ccm nonce aad t n) e = .ok o) :
    o = ⟨.ccm, ⟨nonce, 0, n, aad, t⟩, false, false, ⟨.ccm, e, nonce, [], 0, [], aad, t, []⟩, [], 0⟩ ∧ 0 < n ∧ 0 < t ∧ t ≤ 16 := by
  unfold aesNew aesParams at h
  simp only at h
  split at h
  · cases h
  rename_i p hp
  split at hp
  · cases hp
  split at hp
  · cases hp
  split at hp
  · cases hp
  split at hp
  · cases hp
  split at hp
  · cases hp
  rename_i c1 c2 c3 c4 c5
  cases hp
  cases h
  have hm : t ∈ [4, 6, 8, 10, 12, 14, 16] := Classical.not_not.1 c5
  simp at hm
  exact ⟨rfl, by omega, by omega, by omega⟩

theorem ccmNew_on (L : AesLib) (nonce aad : Bytes) (t n : Nat) (o : AesOp) (h : aesNew .ccm (.ccm nonce aad t n) true = .ok o) :
    CcmOn L nonce aad n t [] [] o ∧ 0 < t ∧ t ≤ 16 := by
  obtain ⟨rfl, h1, h2⟩ := ccmParams nonce aad t n true o h
  exact ⟨⟨rfl, rfl, rfl, rfl, rfl, rfl, rfl, rfl, rfl, h1, .inl ⟨rfl, rfl, h1, rfl, rfl⟩⟩, h2⟩

/-- Encryption in parts: when all the announced data was handed over and no call failed, ciphertext and tag; with less, C_EncryptFinal fails.
Missing: more data than announced, see `C58_excess_violation`. -/
theorem C58_encrypt_partial (L : AesLib) (nonce aad : Bytes) (t n : Nat) (o : AesOp) (h : aesNew .ccm (.ccm nonce aad t n) true = .ok o)
    (cs : List AesCall) (hu : Spec.updates cs) (hs : Spec.unbroken (aesRun L o cs).1) (room : Nat) (hr : t ≤ room) :
    ((Spec.taken cs (aesRun L o cs).1).length = n →
      ∃ b, (aesCall L (aesRun L o cs).2 (.final (some room))).1 = .ok (.data b) ∧
        Spec.written (aesRun L o cs).1 ++ b = Spec.ccmSealed L nonce aad t (Spec.taken cs (aesRun L o cs).1)) ∧
    ((Spec.taken cs (aesRun L o cs).1).length < n → ∃ e, (aesCall L (aesRun L o cs).2 (.final (some room))).1 = .error e) := by
  obtain ⟨h0, ht⟩ := ccmNew_on L nonce aad t n o h
  have hrun := h0.run cs hu
  simp only [List.nil_append] at hrun
  rcases hrun with i | i | i
  · exact absurd hs (not_smooth i)
  · exact ⟨fun _ => by omega, fun _ => by omega⟩
  · have hf := i.final ht room
    refine ⟨fun e => ?_, fun e => ?_⟩
    · rw [if_pos e, if_neg (by omega)] at hf
      refine ⟨_, hf, ?_⟩
      rcases i.phase with ⟨-, -, h3, -⟩ | ⟨-, -, -, h4, -⟩
      · omega
      · rw [h4]; rfl
    · rw [if_neg (by omega)] at hf
      exact hf

/-- C_Encrypt of the announced amount of data. -/
theorem C58_encrypt_oneshot (L : AesLib) (nonce aad : Bytes) (t n : Nat) (o : AesOp) (h : aesNew .ccm (.ccm nonce aad t n) true = .ok o)
    (d : Bytes) (hd : d.length = n) (room : Nat) (hr : n + t ≤ room) :
    (aesCall L o (.oneShot d (some room))).1 = .ok (.data (Spec.ccmSealed L nonce aad t d)) := by
  obtain ⟨h0, ht⟩ := ccmNew_on L nonce aad t n o h
  have hn := h0.pos
  have he : ∃ o', aesCall L o (.update d (some room)) = (.ok (.data (L.ccmEnc nonce aad t d).1), o') ∧
      CcmOn L nonce aad n t d (L.ccmEnc nonce aad t d).1 o' := by
    obtain ⟨rfl, -⟩ := ccmParams nonce aad t n true o h
    have hup := h0.upd d room (by omega) rfl
    have : aesCall L ⟨.ccm, ⟨nonce, 0, n, aad, t⟩, false, false, ⟨.ccm, true, nonce, [], 0, [], aad, t, []⟩, [], 0⟩ (.update d (some room)) =
        (.ok (.data (L.ccmEnc nonce aad t d).1),
          ⟨.ccm, ⟨nonce, 0, n, aad, t⟩, false, true, ⟨.ccm, true, nonce, [], 1, [], aad, t, (L.ccmEnc nonce aad t d).2⟩, [], 0⟩) := by
      unfold aesCall
      simp only [Bool.false_eq_true, if_false, if_true]
      unfold AesOp.encryptUpdate
      simp only [Bool.false_eq_true, if_false]
      rw [if_neg (fun c => c.2 hd), if_neg (by simp; omega), if_neg (by rw [if_neg (by simp; omega)]; omega), if_neg (by omega)]
      unfold AesOp.plainUpdate
      rw [if_pos (by omega)]
      simp only at hup ⊢
      rw [hup]
      rfl
    refine ⟨_, this, ⟨rfl, rfl, rfl, rfl, rfl, rfl, rfl, rfl, rfl, hn, .inr ⟨rfl, hd, rfl, rfl, rfl⟩⟩⟩
  obtain ⟨o', he, h'⟩ := he
  have hl : (L.ccmEnc nonce aad t d).1.length = n := by rw [L.ccm_len, hd]
  have hf := h'.final ht (room - (L.ccmEnc nonce aad t d).1.length)
  rw [if_pos hd, if_neg (by omega)] at hf
  exact oneShot_eq L o d room h0.fin h0.enc _ o' he (by omega) h'.fin h'.enc _ hf

/-! ## Decryption -/

/-- After `fed` was handed over. -/
structure CcmBack (L : AesLib) (iv aad : Bytes) (n t : Nat) (fed out : Bytes) (o : AesOp) : Prop where
  mech : o.mech = .ccm
  cmech : o.ctx.mech = .ccm
  enc : o.ctx.enc = false
  fin : o.finalized = false
  chain : o.ctx.chain = iv
  caad : o.ctx.aad = aad
  taglen : o.params.taglen = t
  datalen : o.params.datalen = n
  pos : 0 < n
  phase : (o.ctx.pos = 0 ∧ o.buffer = fed ∧ fed.length < n + t ∧ out = []) ∨
    (o.inUse = true ∧ fed.length = n + t ∧ o.buffer = [] ∧ L.ccmDec iv aad (fed.take n) (fed.drop n) = some out)

theorem CcmBack.used {L : AesLib} {iv aad fed out : Bytes} {n t : Nat} {o : AesOp} (h : CcmBack L iv aad n t fed out o) :
    CcmBack L iv aad n t fed out { o with inUse := true } :=
  ⟨h.mech, h.cmech, h.enc, h.fin, h.chain, h.caad, h.taglen, h.datalen, h.pos, by
    rcases h.phase with hp | ⟨-, hp⟩
    · exact .inl hp
    · exact .inr ⟨rfl, hp⟩⟩

theorem CcmBack.upd {L : AesLib} {iv aad fed out : Bytes} {n t : Nat} {o : AesOp} (h : CcmBack L iv aad n t fed out o) (x tag : Bytes)
    (room : Nat) (hr : x.length ≤ room) (hp : o.ctx.pos = 0) :
    ({ o.ctx with tag := tag } : Evp).osslUpdate L x room =
      match L.ccmDec iv aad x tag with
      | none => none
      | some p => some (p, { o.ctx with tag := tag, pos := 1 }) := by
  unfold Evp.osslUpdate Evp.bufferSize Evp.blockSize Evp.update
  simp only [h.cmech, if_true, h.enc, h.chain, h.caad, hp]
  rw [if_neg (by omega)]
  simp
  cases L.ccmDec iv aad x tag <;> rfl

theorem CcmBack.opened {L : AesLib} {iv aad fed out : Bytes} {n t : Nat} {o : AesOp} (h : CcmBack L iv aad n t fed out o) (all : Bytes)
    (hl : all.length = n + t) (hp : o.ctx.pos = 0) (ho : out = []) (room : Nat) (hr : n ≤ room) (o1 : AesOp) (h1 : o1.ctx = o.ctx)
    (h2 : o1.params = o.params) (h3 : o1.mech = .ccm) (h4 : o1.finalized = false) (h5 : o1.inUse = true) :
    (L.ccmDec iv aad (all.take n) (all.drop n) = none ∧ ∃ o', o1.ccmOpen L all room = (.error .deviceError, o')) ∨
    (∃ d o', o1.ccmOpen L all room = (.ok d, o') ∧ CcmBack L iv aad n t all (out ++ d) o' ∧ o'.inUse = true) := by
  unfold AesOp.ccmOpen
  rw [h1, h2, h.datalen, h.upd (all.take n) (all.drop n) room (by rw [List.length_take]; omega) hp]
  cases hd : L.ccmDec iv aad (all.take n) (all.drop n) with
  | none => exact .inl ⟨rfl, _, rfl⟩
  | some d =>
    refine .inr ⟨d, _, rfl, ⟨h3, h.cmech, h.enc, h4, h.chain, h.caad, h2 ▸ h.taglen, h2 ▸ h.datalen, h.pos, .inr ⟨h5, hl, rfl, ?_⟩⟩, h5⟩
    rw [ho]; exact hd

theorem CcmBack.call {L : AesLib} {iv aad fed out : Bytes} {n t : Nat} {o : AesOp} (h : CcmBack L iv aad n t fed out o) (p : Bytes) (room : Nat) :
    (room < n ∧ ∃ o', aesCall L o (.update p (some room)) = (.error .bufferTooSmall, o') ∧ CcmBack L iv aad n t fed out o' ∧ o'.inUse = true) ∨
    (∃ e o', aesCall L o (.update p (some room)) = (.error e, o') ∧ e ≠ .bufferTooSmall ∧
      ((fed ++ p).length = n + t → n ≤ AesOp.maxCcmBuf ∨ fed = [] → L.ccmDec iv aad ((fed ++ p).take n) ((fed ++ p).drop n) = none)) ∨
    (∃ b o', aesCall L o (.update p (some room)) = (.ok (.data b), o') ∧
      ((n + t < (fed ++ p).length ∧ fed.length = n + t) ∨ (CcmBack L iv aad n t (fed ++ p) (out ++ b) o' ∧ o'.inUse = true))) := by
  have hcall : aesCall L o (.update p (some room)) = aesData (o.decryptUpdate L p room) := by
    unfold aesCall; rw [h.fin, h.enc]; rfl
  have hu := h.used
  have hpos := h.pos
  rw [hcall]
  unfold AesOp.decryptUpdate
  rw [h.fin]
  simp only [Bool.false_eq_true, if_false, h.mech, h.taglen, h.datalen]
  by_cases c1 : p.length + o.buffer.length > n + t
  · right; left
    rw [if_pos c1]
    refine ⟨_, _, rfl, by simp, fun e => ?_⟩
    exfalso
    rw [List.length_append] at e
    rcases h.phase with ⟨-, h2, -⟩ | ⟨-, h2, h3, -⟩
    · rw [h2] at c1; omega
    · rw [h3] at c1; simp only [List.length_nil] at c1; omega
  rw [if_neg c1]
  unfold AesOp.ccmUpdate
  simp only [h.taglen, h.datalen]
  by_cases c2 : n > AesOp.maxCcmBuf ∧ p.length ≠ n + t
  · right; left
    rw [if_pos c2]
    refine ⟨_, _, rfl, by simp, fun e hh => ?_⟩
    exfalso
    rcases hh with hh | hh
    · omega
    · subst hh; simp at e; omega
  rw [if_neg c2]
  by_cases c3 : room < n
  · left
    rw [if_pos c3]
    rw [h.mech, h.fin] at hu
    exact ⟨c3, _, rfl, hu, rfl⟩
  rw [if_neg c3]
  rcases h.phase with ⟨h1, h2, h3, h4⟩ | ⟨h1, h2, h3, h4⟩
  · -- still collecting
    have hall : ∀ (all : Bytes) (o1 : AesOp), all = fed ++ p → all.length = n + t → o1.ctx = o.ctx → o1.params = o.params → o1.mech = .ccm → o1.finalized = false →
        o1.inUse = true →
        (room < n ∧ ∃ o', aesData (o1.ccmOpen L all room) = (.error .bufferTooSmall, o') ∧ CcmBack L iv aad n t fed out o' ∧ o'.inUse = true) ∨
        (∃ e o', aesData (o1.ccmOpen L all room) = (.error e, o') ∧ e ≠ .bufferTooSmall ∧
          ((fed ++ p).length = n + t → n ≤ AesOp.maxCcmBuf ∨ fed = [] → L.ccmDec iv aad ((fed ++ p).take n) ((fed ++ p).drop n) = none)) ∨
        (∃ b o', aesData (o1.ccmOpen L all room) = (.ok (.data b), o') ∧
          ((n + t < (fed ++ p).length ∧ fed.length = n + t) ∨ (CcmBack L iv aad n t (fed ++ p) (out ++ b) o' ∧ o'.inUse = true))) := by
      intro all o1 ha hl a1 a2 a3 a4 a5
      subst ha
      rcases h.opened (fed ++ p) hl h1 h4 room (by omega) o1 a1 a2 a3 a4 a5 with ⟨hn, o', he⟩ | ⟨d, o', he, hk, hi⟩
      · right; left; rw [he]; exact ⟨_, _, rfl, by simp, fun _ _ => hn⟩
      · right; right; rw [he]; exact ⟨_, _, rfl, .inr ⟨hk, hi⟩⟩
    by_cases c4 : p.length < n + t
    · rw [if_pos c4, if_pos c4]
      simp only [h2]
      by_cases c5 : (fed ++ p).length = n + t
      · rw [if_pos c5]
        exact hall _ _ rfl c5 rfl rfl rfl rfl rfl
      · rw [if_neg c5]
        right; right
        refine ⟨[], _, rfl, .inr ⟨⟨rfl, h.cmech, h.enc, rfl, h.chain, h.caad, h.taglen, h.datalen, h.pos, .inl ⟨h1, rfl, ?_, ?_⟩⟩, rfl⟩⟩
        · rw [h2] at c1; rw [List.length_append] at c5 ⊢; omega
        · rw [h4]; rfl
    · rw [if_neg c4, if_neg c4]
      have hb : o.buffer = [] := List.length_eq_zero_iff.1 (by omega)
      have hfed : fed = [] := by rw [← h2, hb]
      have hl : p.length = n + t := by omega
      rw [if_pos hl]
      exact hall p _ (by rw [hfed]; rfl) hl rfl rfl rfl rfl rfl
  · -- all there
    by_cases c4 : p.length < n + t
    · rw [if_pos c4, if_pos c4]
      simp only [h3, List.nil_append]
      rw [if_neg (by omega)]
      right; right
      refine ⟨[], _, rfl, ?_⟩
      by_cases c6 : p = []
      · right
        subst c6
        rw [List.append_nil, List.append_nil]
        exact ⟨⟨rfl, h.cmech, h.enc, rfl, h.chain, h.caad, h.taglen, h.datalen, h.pos, .inr ⟨rfl, h2, rfl, h4⟩⟩, rfl⟩
      · left
        have : 0 < p.length := List.length_pos_iff.2 c6
        exact ⟨by rw [List.length_append]; omega, h2⟩
    · rw [if_neg c4, if_neg c4]
      have hl : p.length = n + t := by omega
      rw [if_pos hl]
      unfold AesOp.ccmOpen
      simp only
      split
      · right; left
        refine ⟨_, _, rfl, by simp, fun e => ?_⟩
        rw [List.length_append] at e; omega
      · right; right; exact ⟨_, _, rfl, .inl ⟨by rw [List.length_append]; omega, h2⟩⟩

theorem CcmBack.run {L : AesLib} {iv aad fed out : Bytes} {n t : Nat} {o : AesOp} (h : CcmBack L iv aad n t fed out o) (cs : List AesCall)
    (hu : Spec.updates cs) :
    Rough (aesRun L o cs).1 ∨ n + t < (fed ++ Spec.taken cs (aesRun L o cs).1).length ∨
      (CcmBack L iv aad n t (fed ++ Spec.taken cs (aesRun L o cs).1) (out ++ Spec.written (aesRun L o cs).1) (aesRun L o cs).2) := by
  induction cs generalizing o fed out with
  | nil => right; right; simpa [aesRun, Spec.taken, Spec.written] using h
  | cons c cs ih =>
    have hcs : Spec.updates cs := fun c h => hu c (List.mem_cons_of_mem _ h)
    obtain ⟨p, room, e⟩ := hu c List.mem_cons_self
    subst e
    have more : ∀ r rs, Rough rs → Rough (r :: rs) := fun r rs ⟨e, h1, h2⟩ => ⟨e, h1, List.mem_cons_of_mem _ h2⟩
    cases room with
    | none =>
      have he : (∃ k, aesCall L o (.update p none) = (.ok (.len k), o)) ∨
          (∃ o', aesCall L o (.update p none) = (.error .encryptedDataLenRange, o')) := by
        unfold aesCall
        rw [h.fin, h.enc]
        simp only [Bool.false_eq_true, if_false]
        unfold AesOp.decryptionLen
        rw [h.mech]
        simp only [Bool.false_eq_true, if_false]
        by_cases c : o.buffer.length + p.length < o.params.taglen
        · rw [if_pos c]; exact .inr ⟨_, rfl⟩
        · rw [if_neg c]; exact .inl ⟨_, rfl⟩
      rcases he with ⟨k, he⟩ | ⟨o', he⟩
      · simp only [aesRun, he, Spec.taken, Spec.written]
        rcases ih h hcs with i | i
        · exact .inl (more _ _ i)
        · exact .inr i
      · left
        simp only [aesRun, he]
        exact ⟨_, by simp, List.mem_cons_self⟩
    | some room =>
      rcases h.call p room with ⟨-, o', he, h', -⟩ | ⟨e, o', he, hne, -⟩ | ⟨b, o', he, h'⟩
      · simp only [aesRun, he, Spec.taken, Spec.written]
        rcases ih h' hcs with i | i
        · exact .inl (more _ _ i)
        · exact .inr i
      · left
        simp only [aesRun, he]
        exact ⟨e, hne, List.mem_cons_self⟩
      · simp only [aesRun, he, Spec.taken, Spec.written]
        rcases h' with ⟨h', -⟩ | ⟨h', -⟩
        · right; left
          rw [List.length_append] at h' ⊢
          rw [List.length_append]
          omega
        · rcases ih h' hcs with i | i
          · exact .inl (more _ _ i)
          · right; simpa only [List.append_assoc] using i

theorem CcmBack.final {L : AesLib} {iv aad fed out : Bytes} {n t : Nat} {o : AesOp} (h : CcmBack L iv aad n t fed out o) (hne : fed ≠ [])
    (room : Nat) :
    if fed.length = n + t then (aesCall L o (.final (some room))).1 = .ok (.data [])
    else ∃ e, (aesCall L o (.final (some room))).1 = .error e := by
  have hcall : aesCall L o (.final (some room)) = aesData (o.decryptFinal L room) := by
    unfold aesCall; rw [h.fin, h.enc]; rfl
  rw [hcall]
  unfold AesOp.decryptFinal
  rw [h.fin]
  simp only [Bool.false_eq_true, if_false, h.mech]
  rcases h.phase with ⟨h1, h2, h3, h4⟩ | ⟨h1, h2, h3, h4⟩
  · rw [if_neg (by omega)]
    cases o.inUse with
    | false => exact ⟨_, rfl⟩
    | true =>
      simp only [Bool.not_true, Bool.false_eq_true, if_false]
      rw [if_pos (by rw [h2]; exact hne)]
      exact ⟨_, rfl⟩
  · rw [if_pos h2, h1]
    simp only [Bool.not_true, Bool.false_eq_true, if_false, h3, ne_eq, not_true_eq_false]
    rfl

theorem ccmNew_back (L : AesLib) (nonce aad : Bytes) (t n : Nat) (o : AesOp) (h : aesNew .ccm (.ccm nonce aad t n) false = .ok o) :
    CcmBack L nonce aad n t [] [] o ∧ 0 < t ∧ t ≤ 16 := by
  obtain ⟨rfl, h1, h2⟩ := ccmParams nonce aad t n false o h
  exact ⟨⟨rfl, rfl, rfl, rfl, rfl, rfl, rfl, rfl, h1, .inl ⟨rfl, rfl, by simp; omega, rfl⟩⟩, h2⟩

theorem ccm_genuine (L : AesLib) (iv aad c out : Bytes) (n t : Nat) (hl : c.length = n + t)
    (h : L.ccmDec iv aad (c.take n) (c.drop n) = some out) : c = Spec.ccmSealed L iv aad t out ∧ out.length = n := by
  rw [L.ccm_dec] at h
  have hd : (c.drop n).length = t := by rw [List.length_drop]; omega
  rw [hd] at h
  constructor
  · unfold Spec.ccmSealed
    rw [h, List.take_append_drop]
  · have := L.ccm_len iv aad t out
    rw [h, List.length_take] at this
    omega

/-- Decryption in parts, when something was handed over, not more than announced, and no call failed: C_DecryptFinal succeeds exactly if all was
handed over; then that is ciphertext and tag of the bytes written.
Missing: nothing handed over, see `C58_empty_violation`. -/
theorem C58_decrypt_partial (L : AesLib) (nonce aad : Bytes) (t n : Nat) (o : AesOp) (h : aesNew .ccm (.ccm nonce aad t n) false = .ok o)
    (cs : List AesCall) (hu : Spec.updates cs) (hs : Spec.unbroken (aesRun L o cs).1) (room : Nat)
    (hne : Spec.taken cs (aesRun L o cs).1 ≠ []) (hm : (Spec.taken cs (aesRun L o cs).1).length ≤ n + t) :
    ((aesCall L (aesRun L o cs).2 (.final (some room))).1 = .ok (.data []) ∧
      Spec.taken cs (aesRun L o cs).1 = Spec.ccmSealed L nonce aad t (Spec.written (aesRun L o cs).1)) ∨
    ((Spec.taken cs (aesRun L o cs).1).length < n + t ∧ ∃ e, (aesCall L (aesRun L o cs).2 (.final (some room))).1 = .error e) := by
  obtain ⟨h0, ht⟩ := ccmNew_back L nonce aad t n o h
  have hrun := h0.run cs hu
  simp only [List.nil_append] at hrun
  rcases hrun with i | i | i
  · exact absurd hs (not_smooth i)
  · omega
  · have hf := i.final hne room
    by_cases c : (Spec.taken cs (aesRun L o cs).1).length = n + t
    · left
      rw [if_pos c] at hf
      refine ⟨hf, ?_⟩
      rcases i.phase with ⟨-, -, h3, -⟩ | ⟨-, -, -, h4⟩
      · omega
      · exact (ccm_genuine L nonce aad _ _ n t c h4).1
    · right
      rw [if_neg c] at hf
      exact ⟨by omega, hf⟩

/-- C_Decrypt of one byte or more, with enough room, gives `d` for exactly the ciphertext and tag of `d`, of the announced length.
Missing: C_Decrypt of nothing. -/
theorem C58_decrypt_oneshot_partial (L : AesLib) (nonce aad : Bytes) (t n : Nat) (o : AesOp)
    (h : aesNew .ccm (.ccm nonce aad t n) false = .ok o) (c d : Bytes) (hne : c ≠ []) (room : Nat) (hr : n ≤ room) :
    (aesCall L o (.oneShot c (some room))).1 = .ok (.data d) ↔ c = Spec.ccmSealed L nonce aad t d ∧ d.length = n := by
  obtain ⟨h0, ht⟩ := ccmNew_back L nonce aad t n o h
  have hcall : aesCall L o (.oneShot c (some room)) = aesData (o.decrypt L c room) := by
    unfold aesCall; rw [h0.fin, h0.enc]; rfl
  have hsl : ∀ d, (Spec.ccmSealed L nonce aad t d).length = d.length + t := by
    intro d; unfold Spec.ccmSealed; rw [List.length_append, L.ccm_len, L.ccm_tag_len _ _ _ _ ht.2]
  have hdec : ∀ d, d.length = n → L.ccmDec nonce aad ((Spec.ccmSealed L nonce aad t d).take n) ((Spec.ccmSealed L nonce aad t d).drop n) = some d := by
    intro d hd
    have h1 : (Spec.ccmSealed L nonce aad t d).take n = (L.ccmEnc nonce aad t d).1 := by
      unfold Spec.ccmSealed; rw [← hd, ← L.ccm_len nonce aad t d, List.take_left]
    have h2 : (Spec.ccmSealed L nonce aad t d).drop n = (L.ccmEnc nonce aad t d).2 := by
      unfold Spec.ccmSealed; rw [← hd, ← L.ccm_len nonce aad t d, List.drop_left]
    rw [h1, h2, L.ccm_dec, L.ccm_tag_len _ _ _ _ ht.2]
  have hcupd : ∀ r o', aesCall L o (.update c (some room)) = (r, o') → aesData (o.decryptUpdate L c room) = (r, o') := by
    intro r o' e; rw [← e]; unfold aesCall; rw [h0.fin, h0.enc]; rfl
  rw [hcall]
  unfold AesOp.decrypt
  rw [h0.fin]
  simp only [Bool.false_eq_true, if_false]
  rcases h0.call c room with ⟨hlt, -⟩ | ⟨e, o', he, hne', hnone⟩ | ⟨b, o', he, h'⟩
  · omega
  · have he := hcupd _ _ he
    generalize o.decryptUpdate L c room = w at he ⊢
    obtain ⟨r, o2⟩ := w
    cases r with
    | ok x => cases he
    | error r =>
      simp only [aesData]
      refine ⟨fun h => (by cases h), ?_⟩
      rintro ⟨rfl, hd⟩
      have := hnone (by simp [hsl, hd]) (.inr rfl)
      rw [List.nil_append, hdec d hd] at this
      cases this
  · have he := hcupd _ _ he
    generalize o.decryptUpdate L c room = w at he ⊢
    obtain ⟨r, o2⟩ := w
    cases r with
    | error r => cases he
    | ok x =>
      cases he
      simp only [List.nil_append] at h'
      rcases h' with ⟨-, h'⟩ | ⟨h', hiu⟩
      · simp at h'; omega
      · have hbl : b.length ≤ room := by
          rcases h'.phase with ⟨-, -, -, h4⟩ | ⟨-, h2, -, h4⟩
          · rw [h4]; simp
          · have := (ccm_genuine L nonce aad c b n t h2 h4).2; omega
        simp only
        rw [if_neg (by omega)]
        have hf := h'.final hne (room - b.length)
        have hfc : aesCall L o' (.final (some (room - b.length))) = aesData (o'.decryptFinal L (room - b.length)) := by
          unfold aesCall; rw [h'.fin, h'.enc]; rfl
        rw [hfc] at hf
        generalize o'.decryptFinal L (room - b.length) = w at hf ⊢
        obtain ⟨r, o3⟩ := w
        by_cases cl : c.length = n + t
        · rw [if_pos cl] at hf
          cases r with
          | error r => cases hf
          | ok x =>
            cases hf
            simp only [aesData, List.append_nil]
            rcases h'.phase with ⟨-, -, h3, -⟩ | ⟨-, h2, -, h4⟩
            · omega
            · have hg := ccm_genuine L nonce aad c b n t h2 h4
              constructor
              · intro e; cases e; exact hg
              · rintro ⟨rfl, hd⟩
                rw [hdec d hd] at h4
                cases h4
                rfl
        · rw [if_neg cl] at hf
          obtain ⟨e, hf⟩ := hf
          cases r with
          | ok x => cases hf
          | error r =>
            simp only [aesData]
            refine ⟨fun h => (by cases h), ?_⟩
            rintro ⟨rfl, hd⟩
            rw [hsl, hd] at cl
            exact absurd rfl cl

/-- C_Decrypt undoes C_Encrypt. -/
theorem C58_roundtrip (L : AesLib) (nonce aad : Bytes) (t n : Nat) (o o' : AesOp) (h : aesNew .ccm (.ccm nonce aad t n) true = .ok o)
    (h' : aesNew .ccm (.ccm nonce aad t n) false = .ok o') (d : Bytes) (hd : d.length = n) (room : Nat) (hr : n + t ≤ room) :
    ∃ c, (aesCall L o (.oneShot d (some room))).1 = .ok (.data c) ∧ (aesCall L o' (.oneShot c (some room))).1 = .ok (.data d) := by
  refine ⟨_, C58_encrypt_oneshot L nonce aad t n o h d hd room hr, ?_⟩
  obtain ⟨h0, ht⟩ := ccmNew_on L nonce aad t n o h
  have hn := h0.pos
  rw [C58_decrypt_oneshot_partial L nonce aad t n o' h' _ d ?_ room (by omega)]
  · exact ⟨rfl, hd⟩
  · intro e
    have := congrArg List.length e
    unfold Spec.ccmSealed at this
    rw [List.length_append, L.ccm_len, List.length_nil] at this
    omega

/-! ## Cases and violations -/

/-- A nonce of twelve bytes, additional data, a tag of eight bytes, twenty bytes of data announced. -/
def exCcm : AesParam := .ccm [1, 2, 3, 4, 5, 6, 7, 8, 9, 10, 11, 12] [7, 7] 8 20

/-- Twenty bytes, encrypted. -/
def exCcmText : Bytes := Spec.ccmSealed exAesLib [1, 2, 3, 4, 5, 6, 7, 8, 9, 10, 11, 12] [7, 7] 8 (List.replicate 20 0x41)

/-- Encryption in parts, the second refused at first. -/
example : aesSession exAesLib .ccm exCcm true
    [.update (List.replicate 15 0x41) (some 0), .update (List.replicate 5 0x41) (some 20), .update (List.replicate 5 0x41) (some 28), .final (some 8)] =
    some [.ok (.data []), .error .bufferTooSmall, .ok (.data (exCcmText.take 20)), .ok (.data (exCcmText.drop 20))] := by
  decide +kernel

/-- Decryption in parts. -/
example : aesSession exAesLib .ccm exCcm false
    [.update (exCcmText.take 25) (some 20), .update (exCcmText.drop 25) (some 20), .final (some 0)] =
    some [.ok (.data []), .ok (.data (List.replicate 20 0x41)), .ok (.data [])] := by
  decide +kernel

/-- Three bytes more than announced: C_EncryptUpdate takes them, C_EncryptFinal succeeds with the tag of the data without them. -/
theorem C58_excess_violation :
    aesSession exAesLib .ccm exCcm true [.update (List.replicate 20 0x41) (some 28), .update [1, 2, 3] (some 28), .final (some 8)] =
    some [.ok (.data (exCcmText.take 20)), .ok (.data []), .ok (.data (exCcmText.drop 20))] := by
  decide +kernel

/-- C_Decrypt of nothing succeeds, for every key, nonce and announced length up to the size of the internal buffer. -/
theorem C58_empty_violation (L : AesLib) (nonce aad : Bytes) (t n : Nat) (o : AesOp) (h : aesNew .ccm (.ccm nonce aad t n) false = .ok o)
    (room : Nat) (hr : n ≤ room) (hm : n ≤ 2 ^ 20) : (aesCall L o (.oneShot [] (some room))).1 = .ok (.data []) := by
  obtain ⟨rfl, h1, h2, h3⟩ := ccmParams nonce aad t n false o h
  have e : AesOp.decryptUpdate L ⟨.ccm, ⟨nonce, 0, n, aad, t⟩, false, false, ⟨.ccm, false, nonce, [], 0, [], aad, t, []⟩, [], 0⟩ [] room =
      (.ok [], ⟨.ccm, ⟨nonce, 0, n, aad, t⟩, false, true, ⟨.ccm, false, nonce, [], 0, [], aad, t, []⟩, [], 0⟩) := by
    unfold AesOp.decryptUpdate AesOp.ccmUpdate
    simp only [List.length_nil, Bool.false_eq_true, if_false]
    have hp : 0 < n + t := by omega
    have hq : ¬ 0 = n + t := by omega
    rw [if_neg (by omega), if_neg (by unfold AesOp.maxCcmBuf; omega), if_neg (by omega)]
    simp [hp, hq]
  unfold aesCall AesOp.decrypt
  simp only [Bool.false_eq_true, if_false]
  rw [e]
  simp only [List.length_nil]
  rw [if_neg (by omega)]
  rfl

/-- The hypotheses can be met. -/
example : ∃ o, aesNew .ccm exCcm false = .ok o ∧ (aesCall exAesLib o (.oneShot [] (some 20))).1 = .ok (.data []) :=
  ⟨_, rfl, C58_empty_violation exAesLib [1, 2, 3, 4, 5, 6, 7, 8, 9, 10, 11, 12] [7, 7] 8 20 _ rfl 20 (by decide) (by decide)⟩

end Kry
