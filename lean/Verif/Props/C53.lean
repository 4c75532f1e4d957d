import Verif.Proofs.AesDec
import Verif.Props.C52

/-!
# C53 — Multi-part decryption with AES in ECB, CBC and CBC_PAD mode

Decrypting what encryption gave returns the data, however the ciphertext is cut into parts and whatever buffers the calls are given.

* `C53_parts`, `C53_final`: ECB and CBC, in full.
* `C53_pad_partial`: CBC_PAD, when the first part accepted has at least one block and C_DecryptFinal at least 16 bytes of room.
* `C53_pad_sound`: with CBC_PAD nothing else is ever given out as the plaintext than what the ciphertext decrypts to without its padding.
* `C53_small_first_violation`: with CBC_PAD and a first part of less than 16 bytes the next call fails with CKR_DEVICE_ERROR and
  the operation is over.
* `C53_final_length_violation`: asked for the length, C_DecryptFinal answers 0 for CBC_PAD; called with that much room it fails with
  CKR_ENCRYPTED_DATA_INVALID on good ciphertext and the operation is over.
-/

namespace Kry

/-- ECB and CBC: each call succeeds or says that its buffer is too small; the bytes written are the beginning of the data whose
encryption begins with the ciphertext accepted. -/
theorem C53_parts (L : AesLib) (m : AesMech) (p : AesParam) (o : AesOp) (hm : m = .ecb ∨ m = .cbc)
    (h : aesNew m p false = .ok o) (cs : List AesCall) (hu : Spec.updates cs) (d rest : Bytes) (hd : d.length % 16 = 0)
    (hE : Spec.enciphered (m != .ecb) L.enc (Spec.ivOf p) d (Spec.taken cs (aesRun L o cs).1 ++ rest)) :
    (∀ r ∈ (aesRun L o cs).1, r = .error .bufferTooSmall ∨ ∃ a, r = .ok a) ∧
      Spec.written (aesRun L o cs).1 = d.take ((Spec.taken cs (aesRun L o cs).1).length / 16 * 16) := by
  have hm' : m = .ecb ∨ m = .cbc ∨ m = .cbcPad := by rcases hm with h | h <;> simp [h]
  obtain ⟨hA, hmm, he, -, hiv⟩ := aesNew_along (L := L) hm' (.inr (by rcases hm with h | h <;> simp [h])) h
  obtain ⟨h1, h2, h3, h4, -, -⟩ := hA.run cs hu
  refine ⟨h1, ?_⟩
  have hb := h2.blocks
  simp only [List.nil_append] at hb
  have hmech : (aesRun L o cs).2.ctx.mech = m := by rw [h3, ← hA.mech, hmm]
  rw [hmech, h4, he] at hb
  generalize Spec.taken cs (aesRun L o cs).1 = fed at *
  generalize Spec.written (aesRun L o cs).1 = out at *
  have hiv' : m = .ecb ∨ o.params.iv.length = 16 := by rcases hiv with h | h; exact .inl h; exact .inr h.1
  have hE' : Spec.enciphered (m != .ecb) L.enc o.params.iv d (fed ++ rest) := by
    rcases hiv with e | ⟨-, e⟩
    · subst e; simpa [Spec.enciphered] using hE
    · rw [e] at hE; exact hE
  have hdl : d.length = 16 * (d.length / 16) := by omega
  have hund := cryptBlocks_undo L m o.params.iv d (fed ++ rest) (d.length / 16) hiv' hdl hE'
  have hfl : (fed ++ rest).length = d.length := by rw [hE'.1]; omega
  simp only [List.length_append] at hfl
  have hfr : fed ++ rest = fed.take (16 * (fed.length / 16)) ++ (fed.drop (16 * (fed.length / 16)) ++ rest) := by
    rw [← List.append_assoc, List.take_append_drop]
  have htl : (fed.take (16 * (fed.length / 16))).length = 16 * (fed.length / 16) := by simp; omega
  have hn : d.length / 16 = fed.length / 16 + (d.length / 16 - fed.length / 16) := by omega
  have hb1 := cryptBlocks_take L m false (fed.length / 16) o.params.iv (fed.take (16 * (fed.length / 16)))
    (fed.drop (16 * (fed.length / 16))) (by omega)
  rw [List.take_append_drop, hb] at hb1
  rw [hfr, hn, cryptBlocks_append _ _ _ _ _ _ _ _ htl, ← hb1] at hund
  have hol := (cryptBlocks_length L m false (fed.length / 16) o.params.iv fed hiv' (by omega)).1
  rw [hb] at hol
  simp only at hund hol
  rw [← hund, List.take_append_of_le_length (by omega), List.take_of_length_le (by omega)]

/-- ECB and CBC: C_DecryptFinal, once data was offered, succeeds when the ciphertext accepted consists of whole blocks, and only
then. -/
theorem C53_final (L : AesLib) (m : AesMech) (p : AesParam) (o : AesOp) (hm : m = .ecb ∨ m = .cbc)
    (h : aesNew m p false = .ok o) (cs : List AesCall) (hu : Spec.updates cs) (part : Bytes) (room room' : Nat)
    (hc : .update part (some room) ∈ cs) :
    (aesCall L (aesRun L o cs).2 (.final (some room'))).1 =
      if (Spec.taken cs (aesRun L o cs).1).length % 16 = 0 then .ok (.data []) else .error .dataLenRange := by
  have hm' : m = .ecb ∨ m = .cbc ∨ m = .cbcPad := by rcases hm with h | h <;> simp [h]
  obtain ⟨hA, hmm, he, -, hiv⟩ := aesNew_along (L := L) hm' (.inr (by rcases hm with h | h <;> simp [h])) h
  obtain ⟨-, h2, h3, h4, h5, -⟩ := hA.run cs hu
  have huse : (aesRun L o cs).2.inUse = true := by
    rw [h5, Bool.or_eq_true, List.any_eq_true]
    exact .inr ⟨_, hc, rfl⟩
  have hbl := h2.buffer_length
  simp only [List.nil_append] at hbl
  generalize (aesRun L o cs).2 = o' at *
  have hmech : o'.mech = m := by rw [h2.mech, h3, ← hA.mech, hmm]
  have hfin : o'.ctx.osslFinal L 16 = some [] := by
    unfold Evp.osslFinal
    have : ¬ 16 < o'.ctx.bufferSize 0 := by unfold Evp.bufferSize; rw [h2.straight.blockSize]; simp
    rw [if_neg this]
    have hcm : o'.ctx.mech = m := by rw [← h2.mech, hmech]
    rcases hm with e | e <;> simp [Evp.final, hcm, e, h2.straight.held]
  have henc : o'.ctx.enc = false := by rw [h4, he]
  have hb0 : (o'.buffer = []) ↔ (Spec.taken cs (aesRun L o cs).1).length % 16 = 0 := by
    rw [← hbl, List.length_eq_zero_iff]
  by_cases hz : o'.buffer = []
  · rw [if_pos (hb0.1 hz)]
    rcases hm with e | e <;>
      simp [aesCall, h2.fin, henc, AesOp.decryptFinal, huse, hmech, e, hz, hfin, aesData]
  · rw [if_neg (fun hh => hz (hb0.2 hh))]
    rcases hm with e | e <;>
      simp [aesCall, h2.fin, henc, AesOp.decryptFinal, huse, hmech, e, hz, aesData]

/-! ## CBC_PAD -/

theorem aesNew_back {L : AesLib} {p : AesParam} {o : AesOp} (h : aesNew .cbcPad p false = .ok o) :
    AlongBack L (Spec.ivOf p) [] [] o ∧ o.inUse = false := by
  unfold aesNew at h
  cases hp : aesParams .cbcPad p with
  | error r => rw [hp] at h; cases h
  | ok q =>
    rw [hp] at h
    cases h
    unfold aesParams at hp
    cases p <;> simp at hp
    split at hp <;> simp at hp
    subst hp
    exact ⟨⟨rfl, rfl, by assumption, rfl, ⟨rfl, rfl, rfl, rfl, rfl⟩⟩, rfl⟩

theorem unpad_padded (x : Bytes) (k : Nat) (h0 : 0 < k) (h16 : x.length + k = 16) :
    unpad (x ++ List.replicate k (UInt8.ofNat k)) = some x := by
  have hlast : (x ++ List.replicate k (UInt8.ofNat k)).getLast? = some (UInt8.ofNat k) := by
    rw [List.getLast?_append]
    simp [List.getLast?_replicate, Nat.pos_iff_ne_zero.1 h0]
  have hk : (UInt8.ofNat k).toNat = k := by simp; omega
  unfold unpad
  rw [hlast]
  simp only [hk]
  rw [if_neg (by omega)]
  have hx : 16 - k = x.length := by omega
  rw [hx, List.drop_left, List.take_left, if_pos rfl]

theorem unpad_some {b x : Bytes} (hb : b.length = 16) (h : unpad b = some x) :
    ∃ k, 0 < k ∧ x.length + k = 16 ∧ b = x ++ List.replicate k (UInt8.ofNat k) := by
  unfold unpad at h
  split at h
  · cases h
  · rename_i q _
    split at h
    · cases h
    · split at h
      · cases h
        rename_i h1 h2
        refine ⟨q.toNat, by omega, by simp; omega, ?_⟩
        have : UInt8.ofNat q.toNat = q := by simp
        rw [this, ← h2, List.take_append_drop]
      · cases h

/-- What C_DecryptFinal answers. -/
theorem AlongBack.final {L : AesLib} {iv fed out : Bytes} {o : AesOp} (h : AlongBack L iv fed out o) (hu : o.inUse = true)
    (room : Nat) (hr : 16 ≤ room) :
    (aesCall L o (.final (some room))).1 =
      if fed.length % 16 ≠ 0 then .error .dataLenRange
      else if fed = [] then .error .encryptedDataInvalid
      else match unpad (blockStep L .cbc false o.ctx.chain o.ctx.held).1 with
        | none => .error .encryptedDataInvalid
        | some b => .ok (.data b) := by
  have hbl := h.buffer_length
  have hbs : ¬ room < o.ctx.bufferSize 0 := by
    simp [Evp.bufferSize, Evp.blockSize, h.back.mech]; omega
  unfold aesCall
  simp only [h.fin, h.back.enc, Bool.false_eq_true, if_false]
  unfold AesOp.decryptFinal
  simp only [h.fin, hu, Bool.false_eq_true, if_false, Bool.not_true, h.mech]
  by_cases hb : o.buffer = []
  · have h16 : fed.length % 16 = 0 := by rw [← hbl, hb]; rfl
    simp only [hb, h16, ne_eq, not_true_eq_false, if_false]
    have hbl2 := h.back.len
    have hhl : o.ctx.held.length = fed.length - 16 * (fed.length / 16 - 1) := by
      rw [h.back.held, List.length_drop, hbl2]; omega
    unfold Evp.osslFinal
    rw [if_neg hbs]
    unfold Evp.final
    simp only [h.back.mech, h.back.enc, Bool.false_eq_true, if_false]
    by_cases hf : fed = []
    · have : o.ctx.held.length ≠ 16 := by rw [hhl, hf]; simp
      rw [if_pos this, if_pos hf]
      rfl
    · have hfl : 0 < fed.length := List.length_pos_iff.2 hf
      have : ¬ o.ctx.held.length ≠ 16 := by rw [hhl]; omega
      rw [if_neg this, if_neg hf]
      cases unpad (blockStep L .cbc false o.ctx.chain o.ctx.held).1 <;> rfl
  · have h16 : fed.length % 16 ≠ 0 := by
      rw [← hbl]
      exact fun h => hb (List.length_eq_zero_iff.1 h)
    rw [if_pos hb, if_pos h16]
    rfl

/-- The last block beside the others. -/
theorem AlongBack.last {L : AesLib} {iv fed out : Bytes} {o : AesOp} (h : AlongBack L iv fed out o) (h16 : fed.length % 16 = 0)
    (hf : fed ≠ []) :
    (cryptBlocks L .cbcPad false (fed.length / 16) iv fed).1 = out ++ (blockStep L .cbc false o.ctx.chain o.ctx.held).1 ∧
      out.length = 16 * (fed.length / 16 - 1) ∧ (blockStep L .cbc false o.ctx.chain o.ctx.held).1.length = 16 := by
  have hfl : 0 < fed.length := List.length_pos_iff.2 hf
  have hfe : fed.take (16 * (fed.length / 16)) = fed := List.take_of_length_le (by omega)
  have hB := h.back
  rw [hfe] at hB
  have hn : fed.length / 16 = (fed.length / 16 - 1) + 1 := by omega
  have htl : (fed.take (16 * (fed.length / 16 - 1))).length = 16 * (fed.length / 16 - 1) := by simp; omega
  have hfd : fed = fed.take (16 * (fed.length / 16 - 1)) ++ o.ctx.held := by rw [hB.held, List.take_append_drop]
  have hhl : o.ctx.held.length = 16 := by rw [hB.held, List.length_drop]; omega
  have hb1 := cryptBlocks_take L .cbcPad false (fed.length / 16 - 1) iv (fed.take (16 * (fed.length / 16 - 1))) o.ctx.held (by omega)
  rw [← hfd, hB.blocks] at hb1
  have ha := cryptBlocks_append L .cbcPad false (fed.length / 16 - 1) 1 iv _ o.ctx.held htl
  rw [← hfd, ← hn, ← hb1] at ha
  have hol := cryptBlocks_length L .cbcPad false (fed.length / 16 - 1) iv fed (.inr h.ivlen) (by omega)
  rw [hB.blocks] at hol
  refine ⟨?_, hol.1, ?_⟩
  · rw [ha]
    simp only [cryptBlocks, List.append_nil]
    rw [List.take_of_length_le (by omega)]
    rfl
  · rcases hol.2 with e | e
    · cases e
    · exact blockStep_length L .cbc false _ _ (.inr e)

/-- CBC_PAD: when the first part accepted that is not empty has at least 16 bytes, each call succeeds or says that its buffer is too
small, and C_DecryptFinal with 16 bytes of room completes the data whose padded encryption was accepted.
Missing: smaller first parts, C_DecryptFinal with just the room it needs. -/
theorem C53_pad_partial (L : AesLib) (p : AesParam) (o : AesOp) (h : aesNew .cbcPad p false = .ok o) (cs : List AesCall)
    (hu : Spec.updates cs) (part : Bytes) (room room' : Nat) (hc : .update part (some room) ∈ cs)
    (ho : 16 ≤ (Spec.opening cs (aesRun L o cs).1).length) (hr : 16 ≤ room') (d : Bytes)
    (hE : Spec.enciphered true L.enc (Spec.ivOf p) (Spec.padded d) (Spec.taken cs (aesRun L o cs).1)) :
    (∀ r ∈ (aesRun L o cs).1, r = .error .bufferTooSmall ∨ ∃ a, r = .ok a) ∧
      ∃ b, (aesCall L (aesRun L o cs).2 (.final (some room'))).1 = .ok (.data b) ∧ Spec.written (aesRun L o cs).1 ++ b = d := by
  obtain ⟨hA, -⟩ := aesNew_back (L := L) h
  obtain ⟨h1, h2, h3⟩ := hA.run cs hu (.inr ⟨rfl, .inr ho⟩)
  refine ⟨h1, ?_⟩
  have huse : (aesRun L o cs).2.inUse = true := by
    rw [h3, Bool.or_eq_true, List.any_eq_true]
    exact .inr ⟨_, hc, rfl⟩
  simp only [List.nil_append] at h2
  generalize Spec.taken cs (aesRun L o cs).1 = fed at *
  generalize Spec.written (aesRun L o cs).1 = out at *
  generalize (aesRun L o cs).2 = o' at *
  have hpl : (Spec.padded d).length = 16 * (d.length / 16 + 1) := by simp [Spec.padded]; omega
  have hfl : fed.length = 16 * (d.length / 16 + 1) := by rw [hE.1, hpl]; omega
  have hf : fed ≠ [] := fun e => by simp [e] at hfl
  have h16 : fed.length % 16 = 0 := by omega
  obtain ⟨ha, hol, hbl⟩ := h2.last h16 hf
  have hund := cryptBlocks_undo L .cbcPad (Spec.ivOf p) (Spec.padded d) fed (fed.length / 16) (.inr h2.ivlen) (by omega) hE
  rw [ha] at hund
  have hsplit : out = d.take (16 * (d.length / 16)) ∧ (blockStep L .cbc false o'.ctx.chain o'.ctx.held).1 =
      d.drop (16 * (d.length / 16)) ++ List.replicate (16 - d.length % 16) (UInt8.ofNat (16 - d.length % 16)) := by
    have e : Spec.padded d = d.take (16 * (d.length / 16)) ++
        (d.drop (16 * (d.length / 16)) ++ List.replicate (16 - d.length % 16) (UInt8.ofNat (16 - d.length % 16))) := by
      rw [← List.append_assoc, List.take_append_drop]; rfl
    rw [e] at hund
    exact List.append_inj hund (by rw [hol, List.length_take]; omega)
  rw [h2.final huse room' hr, if_neg (by omega), if_neg hf, hsplit.2,
    unpad_padded _ _ (by omega) (by rw [List.length_drop]; omega)]
  exact ⟨_, rfl, by rw [hsplit.1, List.take_append_drop]⟩

/-- CBC_PAD: whatever C_DecryptFinal completes is what the ciphertext accepted decrypts to, less its padding. -/
theorem C53_pad_sound (L : AesLib) (p : AesParam) (o : AesOp) (h : aesNew .cbcPad p false = .ok o) (cs : List AesCall)
    (hu : Spec.updates cs) (room' : Nat) (ho : 16 ≤ (Spec.opening cs (aesRun L o cs).1).length) (b : Bytes)
    (hb : (aesCall L (aesRun L o cs).2 (.final (some room'))).1 = .ok (.data b)) :
    Spec.deciphered true L.dec (Spec.ivOf p) (Spec.taken cs (aesRun L o cs).1)
      (Spec.padded (Spec.written (aesRun L o cs).1 ++ b)) := by
  obtain ⟨hA, -⟩ := aesNew_back (L := L) h
  obtain ⟨h1, h2, h3⟩ := hA.run cs hu (.inr ⟨rfl, .inr ho⟩)
  simp only [List.nil_append] at h2
  generalize Spec.taken cs (aesRun L o cs).1 = fed at *
  generalize Spec.written (aesRun L o cs).1 = out at *
  generalize (aesRun L o cs).2 = o' at *
  have huse : o'.inUse = true := by
    cases hU : o'.inUse with
    | true => rfl
    | false => simp [aesCall, h2.fin, h2.back.enc, AesOp.decryptFinal, hU, aesData] at hb
  have hr : 16 ≤ room' := by
    rcases Nat.lt_or_ge room' 16 with hlt | hge
    · have hbs : room' < o'.ctx.bufferSize 0 := by simp [Evp.bufferSize, Evp.blockSize, h2.back.mech]; omega
      by_cases hz : o'.buffer = [] <;>
        simp [aesCall, h2.fin, h2.back.enc, AesOp.decryptFinal, huse, h2.mech, hz, Evp.osslFinal, hbs, aesData] at hb
    · exact hge
  rw [h2.final huse room' hr] at hb
  by_cases h16 : fed.length % 16 = 0
  · rw [if_neg (by omega)] at hb
    by_cases hf : fed = []
    · rw [if_pos hf] at hb; cases hb
    · rw [if_neg hf] at hb
      have hfl : 0 < fed.length := List.length_pos_iff.2 hf
      obtain ⟨ha, hol, hbl⟩ := h2.last h16 hf
      have hD := cryptBlocks_deciphered L .cbcPad (Spec.ivOf p) fed (.inr h2.ivlen)
      rw [ha] at hD
      cases hp : unpad (blockStep L .cbc false o'.ctx.chain o'.ctx.held).1 with
      | none => rw [hp] at hb; cases hb
      | some x =>
        rw [hp] at hb
        cases hb
        obtain ⟨k, hk, hx, he⟩ := unpad_some hbl hp
        rw [he] at hD
        have : Spec.padded (out ++ b) = out ++ (b ++ List.replicate k (UInt8.ofNat k)) := by
          unfold Spec.padded
          have : 16 - (out ++ b).length % 16 = k := by simp only [List.length_append, hol]; omega
          rw [this, List.append_assoc]
        rw [this]
        exact hD
  · rw [if_pos (by omega)] at hb; cases hb

/-! ## Cases and violations -/

/-- The encryption of 30 bytes with padding. -/
def exPadded : Bytes := Spec.written ((aesSession exAesLib .cbcPad (.iv exIv) true [.oneShot (List.replicate 30 7) (some 32)]).getD [])

/-- Seventeen bytes, then the rest, with a too small buffer in between. -/
def exBackParts : List AesCall :=
  [.update (exPadded.take 17) (some 16), .update (exPadded.drop 17) (some 3), .update (exPadded.drop 17) (some 16)]

theorem exBackParts_updates : Spec.updates exBackParts := by
  intro c hc
  simp only [exBackParts, List.mem_cons, List.not_mem_nil, or_false] at hc
  rcases hc with rfl | rfl | rfl <;> exact ⟨_, _, rfl⟩

/-- The operation of the cases. -/
def exBackOp : AesOp := ⟨.cbcPad, ⟨exIv, 0, 0, [], 0⟩, false, false, aesCtx .cbcPad ⟨exIv, 0, 0, [], 0⟩ false, [], 0⟩

theorem enciphered_check (chained : Bool) (E : Bytes → Bytes) (iv d c : Bytes) (h1 : c.length = 16 * (d.length / 16))
    (h2 : ∀ i ∈ List.range (d.length / 16), Spec.blk c i =
      E (if chained then List.zipWith (· ^^^ ·) (Spec.blk d i) (if i = 0 then iv else Spec.blk c (i - 1)) else Spec.blk d i)) :
    Spec.enciphered chained E iv d c := ⟨h1, fun i hi => h2 i (List.mem_range.2 hi)⟩

/-- The hypotheses of `C53_pad_partial` are met, and C_DecryptFinal writes the last 14 bytes. -/
example : aesNew .cbcPad (.iv exIv) false = .ok exBackOp ∧ Spec.updates exBackParts ∧
    16 ≤ (Spec.opening exBackParts (aesRun exAesLib exBackOp exBackParts).1).length ∧
    Spec.enciphered true exAesLib.enc (Spec.ivOf (.iv exIv)) (Spec.padded (List.replicate 30 7))
      (Spec.taken exBackParts (aesRun exAesLib exBackOp exBackParts).1) ∧
    (aesCall exAesLib (aesRun exAesLib exBackOp exBackParts).2 (.final (some 16))).1 = .ok (.data (List.replicate 14 7)) :=
  ⟨rfl, exBackParts_updates, by decide +kernel, enciphered_check _ _ _ _ _ (by decide +kernel) (by decide +kernel), by decide +kernel⟩

/-- A first part of five bytes: the next call ends the operation with CKR_DEVICE_ERROR, though its buffer is large enough and the
ciphertext is good. -/
theorem C53_small_first_violation :
    aesSession exAesLib .cbcPad (.iv exIv) false
      [.update (exPadded.take 5) (some 100), .update (exPadded.drop 5) (some 100), .final (some 100)] =
      some [.ok (.data []), .error .deviceError, .error .operationNotInitialized] := by decide +kernel

/-- The length query of C_DecryptFinal answers 0; with no room the call fails and the operation is over; with 16 bytes of room it
would have written 14. -/
theorem C53_final_length_violation :
    aesSession exAesLib .cbcPad (.iv exIv) false [.update exPadded (some 32), .final none, .final (some 0), .final (some 16)] =
      some [.ok (.data (List.replicate 16 7)), .ok (.len 0), .error .encryptedDataInvalid, .error .operationNotInitialized] ∧
    aesSession exAesLib .cbcPad (.iv exIv) false [.update exPadded (some 32), .final (some 16)] =
      some [.ok (.data (List.replicate 16 7)), .ok (.data (List.replicate 14 7))] := by
  constructor <;> decide +kernel

/-- CBC: 25 of 32 bytes of ciphertext accepted, in two odd parts. -/
example : ∃ o d, aesNew .cbc (.iv exIv) false = .ok o ∧
    Spec.enciphered true exAesLib.enc (Spec.ivOf (.iv exIv)) d
      (Spec.taken [.update (exPadded.take 5) (some 0), .update ((exPadded.drop 5).take 20) (some 16)]
        (aesRun exAesLib o [.update (exPadded.take 5) (some 0), .update ((exPadded.drop 5).take 20) (some 16)]).1 ++
        exPadded.drop 25) ∧ d.length % 16 = 0 :=
  ⟨_, Spec.padded (List.replicate 30 7), rfl, enciphered_check _ _ _ _ _ (by decide +kernel) (by decide +kernel), by decide +kernel⟩

end Kry
