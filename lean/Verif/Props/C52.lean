import Verif.Proofs.AesRuns

/-!
# C52 — Multi-part encryption with AES in ECB, CBC and CBC_PAD mode

However the data is cut into parts, and whatever buffers the calls are given (too small ones and none at all included), the bytes
written are the encryption of the data accepted, block by block, with PKCS #7 padding for CBC_PAD; C_EncryptFinal refuses data that is
no multiple of the block size in the other two modes; a call with a NULL buffer says how much the same call writes.
-/

namespace Kry

/-- A block function for examples: reverse the block and invert some bits. -/
def exBlockFn (b : Bytes) : Bytes := (((b ++ List.replicate 16 0).take 16).map (· ^^^ 0x5a)).reverse

theorem exBlockFn_len (b : Bytes) : (exBlockFn b).length = 16 := by simp [exBlockFn]

theorem exBlockFn_inv (b : Bytes) (h : b.length = 16) : exBlockFn (exBlockFn b) = b := by
  have h1 : ∀ x : UInt8, x ^^^ 0x5a ^^^ 0x5a = x := by
    intro x; rw [UInt8.xor_assoc]; simp
  have e1 : exBlockFn b = (b.map (· ^^^ 0x5a)).reverse := by
    unfold exBlockFn
    rw [List.take_append_of_le_length (by omega), List.take_of_length_le (by omega)]
  have h2 : (exBlockFn b).length = 16 := exBlockFn_len b
  unfold exBlockFn at h2 ⊢
  rw [List.take_append_of_le_length (by omega), List.take_of_length_le (by omega)]
  change (List.map _ (exBlockFn b)).reverse = b
  rw [e1]
  simp [Function.comp_def, h1]

/-- A library for examples. -/
def exAesLib : AesLib where
  enc := exBlockFn
  dec := exBlockFn
  enc_len := exBlockFn_len
  dec_len := exBlockFn_len
  dec_enc := exBlockFn_inv
  gcmKs := fun iv p => (iv.getD (p % 12) 0) ^^^ UInt8.ofNat p
  gcmTag := fun iv aad c => (exBlockFn (toBE 16 (fromBE c + 3 * fromBE aad + 7 * fromBE iv)))
  gcmTag_len := fun _ _ _ => exBlockFn_len _
  ccmEnc := fun iv aad t d => (xorBytes d (List.replicate d.length 0x33), (exBlockFn (toBE 16 (fromBE (d ++ aad) + fromBE iv))).take t)
  ccmDec := fun iv aad c t =>
    let d := xorBytes c (List.replicate c.length 0x33)
    if (exBlockFn (toBE 16 (fromBE (d ++ aad) + fromBE iv))).take t.length = t then some d else none
  ccm_len := fun _ _ _ d => by simp [xorBytes]
  ccm_tag_len := fun _ _ t d ht => by simp only [List.length_take, exBlockFn_len]; omega
  ccm_dec := fun iv aad c t p => by
    have twice : ∀ x : Bytes, xorBytes (xorBytes x (List.replicate x.length 0x33)) (List.replicate x.length 0x33) = x := by
      intro x
      induction x with
      | nil => rfl
      | cons b x ih =>
        simp only [xorBytes, List.length_cons, List.replicate_succ, List.zipWith_cons_cons] at ih ⊢
        rw [ih, UInt8.xor_assoc]
        simp
    have len : ∀ x : Bytes, (xorBytes x (List.replicate x.length 0x33)).length = x.length := by intro x; simp [xorBytes]
    simp only [Prod.mk.injEq]
    constructor
    · intro h
      split at h
      · rename_i ht
        cases h
        exact ⟨by rw [len, twice], ht⟩
      · cases h
    · rintro ⟨rfl, ht⟩
      rw [len, twice, if_pos ht]
  cts := fun _ _ d => d.map (· ^^^ 0x21)
  cts_len := fun _ _ _ => by simp

/-- A run of calls after C_EncryptInit or C_DecryptInit. -/
def aesSession (L : AesLib) (m : AesMech) (p : AesParam) (enc : Bool) (cs : List AesCall) : Option (List (Res AesOut)) :=
  match aesNew m p enc with
  | .ok o => some (aesRun L o cs).1
  | .error _ => none

/-- Whatever the parts and the buffers: a call either succeeds or says that its buffer is too small, and the bytes written are the
encryption of the whole blocks of the data accepted. -/
theorem C52_parts (L : AesLib) (m : AesMech) (p : AesParam) (o : AesOp) (hm : m = .ecb ∨ m = .cbc ∨ m = .cbcPad)
    (h : aesNew m p true = .ok o) (cs : List AesCall) (hu : Spec.updates cs) :
    (∀ r ∈ (aesRun L o cs).1, r = .error .bufferTooSmall ∨ ∃ a, r = .ok a) ∧
      Spec.enciphered (m != .ecb) L.enc (Spec.ivOf p) (Spec.taken cs (aesRun L o cs).1) (Spec.written (aesRun L o cs).1) := by
  obtain ⟨hA, hmm, he, -, hiv⟩ := aesNew_along (L := L) hm (.inl rfl) h
  obtain ⟨h1, h2, h3, h4, -, -⟩ := hA.run cs hu
  refine ⟨h1, ?_⟩
  have hb := h2.blocks
  simp only [List.nil_append] at hb
  have hmech : (aesRun L o cs).2.ctx.mech = m := by rw [h3, ← hA.mech, hmm]
  rw [hmech, h4, he] at hb
  rcases hiv with hE | ⟨hl, hp⟩
  · have := cryptBlocks_enciphered L m (Spec.ivOf p) (Spec.taken cs (aesRun L o cs).1) (.inl hE)
    have hb' := cryptBlocks_enciphered L m o.params.iv (Spec.taken cs (aesRun L o cs).1) (.inl hE)
    rw [hb] at hb'
    subst hE
    simpa [Spec.enciphered] using hb'
  · have hb' := cryptBlocks_enciphered L m o.params.iv (Spec.taken cs (aesRun L o cs).1) (.inr hl)
    rw [hb] at hb'
    rw [hp]
    exact hb'

/-- C_EncryptFinal in ECB and CBC mode, once data was offered: it writes nothing more and succeeds, unless the data accepted is no
multiple of 16 bytes. -/
theorem C52_final (L : AesLib) (m : AesMech) (p : AesParam) (o : AesOp) (hm : m = .ecb ∨ m = .cbc)
    (h : aesNew m p true = .ok o) (cs : List AesCall) (hu : Spec.updates cs) (part : Bytes) (room room' : Nat)
    (hc : .update part (some room) ∈ cs) :
    (aesCall L (aesRun L o cs).2 (.final (some room'))).1 =
      if (Spec.taken cs (aesRun L o cs).1).length % 16 = 0 then .ok (.data []) else .error .dataLenRange := by
  have hm' : m = .ecb ∨ m = .cbc ∨ m = .cbcPad := by rcases hm with h | h <;> simp [h]
  obtain ⟨hA, hmm, he, -, hiv⟩ := aesNew_along (L := L) hm' (.inl rfl) h
  obtain ⟨-, h2, h3, h4, h5, -⟩ := hA.run cs hu
  have huse : (aesRun L o cs).2.inUse = true := by
    rw [h5, Bool.or_eq_true, List.any_eq_true]
    exact .inr ⟨_, hc, rfl⟩
  have hbl := h2.buffer_length
  simp only [List.nil_append] at hbl
  generalize (aesRun L o cs).2 = o' at *
  have hmech : o'.mech = m := by rw [h2.mech, h3, ← hA.mech, hmm]
  have hfin : o'.ctx.osslFinal L 16 = some [] := by
    unfold Evp.osslFinal
    have : ¬ 16 < o'.ctx.bufferSize 0 := by unfold Evp.bufferSize; rw [h2.straight.blockSize]; simp
    rw [if_neg this]
    have hcm : o'.ctx.mech = m := by rw [← h2.mech, hmech]
    rcases hm with e | e <;> simp [Evp.final, hcm, e, h2.straight.held]
  have henc : o'.ctx.enc = true := by rw [h4, he]
  have hb0 : (o'.buffer = []) ↔ (Spec.taken cs (aesRun L o cs).1).length % 16 = 0 := by
    rw [← hbl, List.length_eq_zero_iff]
  by_cases hz : o'.buffer = []
  · rw [if_pos (hb0.1 hz)]
    rcases hm with e | e <;>
      simp [aesCall, h2.fin, henc, AesOp.encryptFinal, huse, hmech, e, hz, hfin, aesData]
  · rw [if_neg (fun hh => hz (hb0.2 hh))]
    rcases hm with e | e <;>
      simp [aesCall, h2.fin, henc, AesOp.encryptFinal, huse, hmech, e, hz, AesOp.opErr, aesData]

/-- C_EncryptFinal in CBC_PAD mode, once data was offered: with less than 16 bytes of room it says so and changes nothing, else it
completes the encryption of the padded data. -/
theorem C52_pad (L : AesLib) (p : AesParam) (o : AesOp) (h : aesNew .cbcPad p true = .ok o) (cs : List AesCall)
    (hu : Spec.updates cs) (part : Bytes) (room room' : Nat) (hc : .update part (some room) ∈ cs) :
    (room' < 16 → aesCall L (aesRun L o cs).2 (.final (some room')) = (.error .bufferTooSmall, (aesRun L o cs).2)) ∧
    (16 ≤ room' → ∃ b, (aesCall L (aesRun L o cs).2 (.final (some room'))).1 = .ok (.data b) ∧
      Spec.enciphered true L.enc (Spec.ivOf p) (Spec.padded (Spec.taken cs (aesRun L o cs).1))
        (Spec.written (aesRun L o cs).1 ++ b)) := by
  obtain ⟨hA, hmm, he, -, hiv⟩ := aesNew_along (L := L) (.inr (.inr rfl)) (.inl rfl) h
  obtain ⟨hl, hp⟩ : o.params.iv.length = 16 ∧ p = .iv o.params.iv := by rcases hiv with h | h; cases h; exact h
  obtain ⟨-, h2, h3, h4, h5, -⟩ := hA.run cs hu
  have huse : (aesRun L o cs).2.inUse = true := by
    rw [h5, Bool.or_eq_true, List.any_eq_true]
    exact .inr ⟨_, hc, rfl⟩
  simp only [List.nil_append] at h2
  have hbl := h2.buffer_length
  generalize Spec.taken cs (aesRun L o cs).1 = fed at *
  generalize Spec.written (aesRun L o cs).1 = out at *
  generalize (aesRun L o cs).2 = o' at *
  have hmech : o'.mech = .cbcPad := by rw [h2.mech, h3, ← hA.mech, hmm]
  have hcm : o'.ctx.mech = .cbcPad := by rw [← h2.mech, hmech]
  have henc : o'.ctx.enc = true := by rw [h4, he]
  have hheld := h2.straight.held
  have hch : o'.ctx.chain.length = 16 := by rcases h2.straight.chain with h | h; rw [hcm] at h; cases h; exact h
  refine ⟨fun hr => ?_, fun hr => ?_⟩
  · simp [aesCall, h2.fin, henc, AesOp.encryptFinal, huse, hmech, hr, aesData]
  · have hbs0 : ¬ room' < o'.ctx.bufferSize 0 := by
      unfold Evp.bufferSize; rw [h2.straight.blockSize]; simp; omega
    have hbs : ¬ room' < o'.ctx.bufferSize o'.buffer.length := by
      unfold Evp.bufferSize; rw [h2.straight.blockSize]; simp
      split <;> try split
      all_goals omega
    have hready : o'.ctx.ready o'.buffer.length = 0 := by rw [h2.straight.ready]; omega
    have hup : (if o'.buffer ≠ [] then o'.ctx.osslUpdate L o'.buffer room' else some ([], o'.ctx)) =
        some ([], { o'.ctx with held := o'.buffer }) := by
      by_cases hz : o'.buffer = []
      · rw [if_neg (by simp [hz]), hz, ← hheld]
      · rw [if_pos hz]
        unfold Evp.osslUpdate
        rw [if_neg hbs]
        simp [Evp.update, hcm, hheld, hready, cryptBlocks]
    have hf : ({ o'.ctx with held := o'.buffer } : Evp).osslFinal L room' =
        some (blockStep L .cbc true o'.ctx.chain (o'.buffer ++ List.replicate (16 - o'.buffer.length) (UInt8.ofNat (16 - o'.buffer.length)))).1 := by
      unfold Evp.osslFinal
      have : ¬ room' < ({ o'.ctx with held := o'.buffer } : Evp).bufferSize 0 := hbs0
      rw [if_neg this]
      simp [Evp.final, hcm, henc]
    have hlen := blockStep_length L .cbc true o'.ctx.chain
      (o'.buffer ++ List.replicate (16 - o'.buffer.length) (UInt8.ofNat (16 - o'.buffer.length))) (.inr hch)
    refine ⟨(blockStep L .cbc true o'.ctx.chain (o'.buffer ++ List.replicate (16 - o'.buffer.length) (UInt8.ofNat (16 - o'.buffer.length)))).1, ?_, ?_⟩
    · have hr' : ¬ room' < 16 := by omega
      unfold aesCall
      simp only [h2.fin, henc, Bool.false_eq_true, if_false, if_true]
      unfold AesOp.encryptFinal
      simp only [h2.fin, huse, hmech, Bool.false_eq_true, if_false, Bool.not_true, if_neg hr']
      rw [hup]
      simp only [ne_eq, not_true_eq_false, if_false, hf, hlen, aesData]
    · have hpl : Spec.padded fed = fed.take (16 * (fed.length / 16)) ++
          (o'.buffer ++ List.replicate (16 - o'.buffer.length) (UInt8.ofNat (16 - o'.buffer.length))) := by
        unfold Spec.padded
        rw [← List.append_assoc, h2.buffer, List.take_append_drop, ← h2.buffer, hbl]
      have htl : (fed.take (16 * (fed.length / 16))).length = 16 * (fed.length / 16) := by simp; omega
      have hbl2 : (o'.buffer ++ List.replicate (16 - o'.buffer.length) (UInt8.ofNat (16 - o'.buffer.length))).length = 16 := by
        simp; omega
      have hE := cryptBlocks_enciphered L .cbcPad o.params.iv (Spec.padded fed) (.inr hl)
      have hn : (Spec.padded fed).length / 16 = fed.length / 16 + 1 := by
        rw [hpl, List.length_append, htl, hbl2]; omega
      have hb0 := h2.blocks
      rw [← List.take_append_drop (16 * (fed.length / 16)) fed, List.length_append, List.length_take, List.length_drop] at hb0
      have hb1 : cryptBlocks L .cbcPad true (fed.length / 16) o.params.iv (fed.take (16 * (fed.length / 16))) = (out, o'.ctx.chain) := by
        have := h2.blocks
        rw [hcm, henc] at this
        rw [← this]
        conv => rhs; rw [← List.take_append_drop (16 * (fed.length / 16)) fed]
        rw [List.take_append_drop]
        have h9 := cryptBlocks_take L .cbcPad true (fed.length / 16) o.params.iv _ (fed.drop (16 * (fed.length / 16)))
          (Nat.le_of_eq htl.symm)
        rw [List.take_append_drop] at h9
        exact h9.symm
      rw [hn, hpl, cryptBlocks_append _ _ _ _ _ _ _ _ htl, hb1, ← hpl] at hE
      simp only [cryptBlocks, List.append_nil] at hE
      rw [List.take_of_length_le (by omega)] at hE
      rw [hp]
      exact hE

/-- A length query changes nothing and tells exactly how much the call writes and what room it needs. -/
theorem C52_query (L : AesLib) (m : AesMech) (p : AesParam) (o : AesOp) (hm : m = .ecb ∨ m = .cbc ∨ m = .cbcPad)
    (h : aesNew m p true = .ok o) (cs : List AesCall) (hu : Spec.updates cs) (part : Bytes) :
    ∃ n, aesCall L (aesRun L o cs).2 (.update part none) = (.ok (.len n), (aesRun L o cs).2) ∧
      ∀ room,
        (room < n → (aesCall L (aesRun L o cs).2 (.update part (some room))).1 = .error .bufferTooSmall) ∧
        (n ≤ room → ∃ b, (aesCall L (aesRun L o cs).2 (.update part (some room))).1 = .ok (.data b) ∧ b.length = n) := by
  obtain ⟨hA, -, -, -, -⟩ := aesNew_along (L := L) hm (.inl rfl) h
  obtain ⟨-, h2, -, -, -, -⟩ := hA.run cs hu
  refine ⟨_, h2.query part, fun room => ?_⟩
  rcases h2.call part room with ⟨hr, hc⟩ | ⟨hr, b, c, hc, hl, -⟩
  · exact ⟨fun _ => by rw [hc], fun h => by omega⟩
  · exact ⟨fun h => by omega, fun _ => ⟨b, by rw [hc], hl⟩⟩

/-- C_Encrypt is C_EncryptUpdate followed by C_EncryptFinal on the rest of the buffer. -/
theorem oneShot_eq (L : AesLib) (o : AesOp) (d : Bytes) (room : Nat) (hf : o.finalized = false) (he : o.ctx.enc = true) (b : Bytes)
    (o' : AesOp) (h : aesCall L o (.update d (some room)) = (.ok (.data b), o')) (hb : b.length ≤ room)
    (hf' : o'.finalized = false) (he' : o'.ctx.enc = true) (b' : Bytes)
    (h' : (aesCall L o' (.final (some (room - b.length)))).1 = .ok (.data b')) :
    (aesCall L o (.oneShot d (some room))).1 = .ok (.data (b ++ b')) := by
  unfold aesCall at h h' ⊢
  simp only [hf, he, hf', he', Bool.false_eq_true, if_false, if_true] at h h' ⊢
  unfold AesOp.encrypt
  simp only [hf, Bool.false_eq_true, if_false]
  generalize o.encryptUpdate L d room = q at h ⊢
  obtain ⟨r, o1⟩ := q
  cases r with
  | error r => simp [aesData] at h
  | ok r =>
    simp only [aesData, Prod.mk.injEq, Except.ok.injEq, AesOut.data.injEq] at h
    obtain ⟨rfl, rfl⟩ := h
    have : ¬ r.length > room := by omega
    simp only [if_neg this]
    generalize o1.encryptFinal L (room - r.length) = q at h' ⊢
    obtain ⟨r', o2⟩ := q
    cases r' with
    | error r => simp [aesData] at h'
    | ok r' =>
      simp only [aesData, Except.ok.injEq, AesOut.data.injEq] at h'
      subst h'
      rfl

/-- C_Encrypt with the room its length query asks for. -/
theorem C52_oneshot (L : AesLib) (m : AesMech) (p : AesParam) (o : AesOp) (hm : m = .ecb ∨ m = .cbc ∨ m = .cbcPad)
    (h : aesNew m p true = .ok o) (d : Bytes) (n room : Nat) (hq : (aesCall L o (.oneShot d none)).1 = .ok (.len n))
    (hr : n ≤ room) :
    ∃ b, (aesCall L o (.oneShot d (some room))).1 = .ok (.data b) ∧ b.length = n ∧
      Spec.enciphered (m != .ecb) L.enc (Spec.ivOf p) (if m = .cbcPad then Spec.padded d else d) b := by
  obtain ⟨hA, hmm, he, -, -⟩ := aesNew_along (L := L) hm (.inl rfl) h
  have hbuf : o.buffer = [] := hA.buffer
  have hu : Spec.updates [.update d (some room)] := by
    intro c hc
    rw [List.mem_singleton.1 hc]
    exact ⟨_, _, rfl⟩
  -- what the query answers
  have hn : (m = .cbcPad ∧ n = (d.length / 16 + 1) * 16) ∨ (m ≠ .cbcPad ∧ d.length % 16 = 0 ∧ n = d.length) := by
    unfold aesCall at hq
    simp only [hA.fin, he, Bool.false_eq_true, if_false, if_true] at hq
    unfold AesOp.encryptionLen at hq
    rw [hmm, hbuf] at hq
    rcases hm with e | e | e <;> subst e
    · right
      by_cases hd : d.length % 16 = 0
      · simp [aesLen, hd] at hq; exact ⟨by simp, hd, hq.symm⟩
      · simp [aesLen, hd, AesOp.opErr] at hq
    · right
      by_cases hd : d.length % 16 = 0
      · simp [aesLen, hd] at hq; exact ⟨by simp, hd, hq.symm⟩
      · simp [aesLen, hd, AesOp.opErr] at hq
    · left
      simp [aesLen] at hq
      exact ⟨rfl, by omega⟩
  rcases hA.call' d room with ⟨hlt, -⟩ | ⟨-, b, o', hc, hbl, hA', he'⟩
  · simp only [List.length_nil] at hlt
    rcases hn with ⟨-, h⟩ | ⟨-, h1, h2⟩ <;> omega
  · simp only [List.length_nil] at hbl
    rw [he] at he'
    have hble : b.length ≤ room := by rcases hn with ⟨-, h⟩ | ⟨-, h1, h2⟩ <;> omega
    have hrun : (aesRun L o [.update d (some room)]).2 = o' ∧ (aesRun L o [.update d (some room)]).1 = [.ok (.data b)] := by
      unfold aesRun aesRun
      rw [hc]
      exact ⟨rfl, rfl⟩
    have hT : Spec.taken [.update d (some room)] (aesRun L o [.update d (some room)]).1 = d := by
      rw [hrun.2]; simp [Spec.taken]
    have hW : Spec.written (aesRun L o [.update d (some room)]).1 = b := by
      rw [hrun.2]; simp [Spec.written]
    rcases hn with ⟨e, hn⟩ | ⟨e, h16, hn⟩
    · subst e
      obtain ⟨b', hb', hE⟩ := (C52_pad L p o h _ hu d room (room - b.length) List.mem_cons_self).2 (by omega)
      rw [hrun.1] at hb'
      rw [hT, hW] at hE
      refine ⟨b ++ b', oneShot_eq L o d room hA.fin he b _ hc hble hA'.fin he' b' hb', ?_, ?_⟩
      · rw [hE.1, hn]
        have : (Spec.padded d).length / 16 = d.length / 16 + 1 := by simp [Spec.padded]; omega
        omega
      · rw [if_pos rfl]; exact hE
    · have hf := C52_final L m p o (by rcases hm with e | e | h <;> simp_all) h _ hu d room (room - b.length) List.mem_cons_self
      rw [hT, if_pos h16, hrun.1] at hf
      have hE := (C52_parts L m p o hm h _ hu).2
      rw [hT, hW] at hE
      refine ⟨b ++ [], oneShot_eq L o d room hA.fin he b _ hc hble hA'.fin he' [] hf, ?_, ?_⟩
      · simp; omega
      · simpa [e] using hE

/-! ## Cases -/

/-- An IV. -/
def exIv : Bytes := (List.range 16).map fun i => UInt8.ofNat (3 * i + 1)

/-- Twenty, then seven, then thirty bytes; a query and a too small buffer in between. -/
def exParts : List AesCall :=
  [.update (List.replicate 20 1) (some 16), .update (List.replicate 7 2) none, .update (List.replicate 7 2) (some 0),
    .update (List.replicate 30 3) (some 16), .update (List.replicate 30 3) (some 40)]

theorem exParts_updates : Spec.updates exParts := by
  intro c hc
  simp only [exParts, List.mem_cons, List.not_mem_nil, or_false] at hc
  rcases hc with rfl | rfl | rfl | rfl | rfl <;> exact ⟨_, _, rfl⟩

/-- The hypotheses of the theorems hold for a CBC operation; 57 bytes are accepted, three blocks written, one call had too little room. -/
example : ∃ o, aesNew .cbc (.iv exIv) true = .ok o ∧ Spec.updates exParts ∧
    (Spec.taken exParts (aesRun exAesLib o exParts).1).length = 57 ∧ (Spec.written (aesRun exAesLib o exParts).1).length = 48 ∧
    .error .bufferTooSmall ∈ (aesRun exAesLib o exParts).1 ∧
    (aesCall exAesLib (aesRun exAesLib o exParts).2 (.final (some 100))).1 = .error .dataLenRange :=
  ⟨_, rfl, exParts_updates, by decide +kernel, by decide +kernel, by decide +kernel, by decide +kernel⟩

/-- The same with padding: C_EncryptFinal writes the fourth block. -/
example : ∃ o b, aesNew .cbcPad (.iv exIv) true = .ok o ∧
    (aesCall exAesLib (aesRun exAesLib o exParts).2 (.final (some 16))).1 = .ok (.data b) ∧ b.length = 16 := by
  refine ⟨_, exBlockFn (xorBytes (List.replicate 9 3 ++ List.replicate 7 7)
    (((Spec.written (aesRun exAesLib ⟨.cbcPad, ⟨exIv, 0, 0, [], 0⟩, false, false, aesCtx .cbcPad ⟨exIv, 0, 0, [], 0⟩ true, [], 0⟩
      exParts).1).drop 32))), rfl, by decide +kernel, exBlockFn_len _⟩

/-- C_Encrypt of 20 bytes with padding: the query asks for 32 bytes. -/
example : ∃ o, aesNew .cbcPad (.iv exIv) true = .ok o ∧
    (aesCall exAesLib o (.oneShot (List.replicate 20 9) none)).1 = .ok (.len 32) := ⟨_, rfl, by decide +kernel⟩

end Kry
