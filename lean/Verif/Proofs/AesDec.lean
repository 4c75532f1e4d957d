import Verif.Proofs.AesRuns

/-!
Decryption in the block modes.
-/

namespace Kry

theorem xor_twice (a b : Bytes) (h : a.length = b.length) : List.zipWith (· ^^^ ·) (List.zipWith (· ^^^ ·) a b) b = a := by
  induction a generalizing b with
  | nil => simp
  | cons x a ih =>
    cases b with
    | nil => simp at h
    | cons y b =>
      have : x ^^^ y ^^^ y = x := by rw [UInt8.xor_assoc]; simp
      simp [this, ih b (by simpa using h)]

/-- Decryption undoes encryption. -/
theorem cryptBlocks_undo (L : AesLib) (m : AesMech) (iv d c : Bytes) (n : Nat) (hiv : m = .ecb ∨ iv.length = 16)
    (hd : d.length = 16 * n) (h : Spec.enciphered (m != .ecb) L.enc iv d c) : (cryptBlocks L m false n iv c).1 = d := by
  induction n generalizing iv d c with
  | zero => simp [cryptBlocks, List.length_eq_zero_iff.1 (by omega : d.length = 0)]
  | succ n ih =>
    have hc : c.length = 16 * (n + 1) := by rw [h.1]; omega
    have hb : (c.take 16).length = 16 := by simp; omega
    have hdb : (d.take 16).length = 16 := by simp; omega
    have h0 := h.2 0 (by omega)
    rw [cryptBlocks_succ]
    simp only
    have hb0 : (blockStep L m false iv (c.take 16)).1 = d.take 16 := by
      simp only [Spec.blk, Nat.mul_zero, List.drop_zero, if_true] at h0
      rcases hiv with e | hl
      · subst e
        simp only [bne_self_eq_false, Bool.false_eq_true, if_false] at h0
        show L.dec (c.take 16) = _
        rw [h0, L.dec_enc _ hdb]
      · by_cases e : m = .ecb
        · subst e
          simp only [bne_self_eq_false, Bool.false_eq_true, if_false] at h0
          show L.dec (c.take 16) = _
          rw [h0, L.dec_enc _ hdb]
        · have e' : (m != .ecb) = true := by simp [e]
          simp only [e', if_true] at h0
          have : (blockStep L m false iv (c.take 16)).1 = xorBytes (L.dec (c.take 16)) iv := by cases m <;> simp_all [blockStep]
          rw [this, h0, L.dec_enc _ (by simp [hdb, hl])]
          exact xor_twice _ _ (by omega)
    have hch := blockStep_chain L m false iv (c.take 16) hiv hb
    rw [hb0, ih (blockStep L m false iv (c.take 16)).2 (d.drop 16) (c.drop 16) hch (by simp; omega), List.take_append_drop]
    refine ⟨by simp [h.1]; omega, fun i hi => ?_⟩
    have hi' : i < n := by simp at hi; omega
    rw [blk_drop, blk_drop, h.2 (i + 1) (by omega)]
    by_cases e : m = .ecb
    · subst e; simp
    · have e' : (m != .ecb) = true := by simp [e]
      simp only [e', if_true, Nat.succ_ne_zero, if_false, Nat.add_sub_cancel]
      congr 2
      cases i with
      | zero => cases m <;> simp_all [blockStep, Spec.blk]
      | succ i => simp [blk_drop]

/-- The blocks come out as expected. -/
theorem cryptBlocks_deciphered (L : AesLib) (m : AesMech) (c d : Bytes) (hc : m = .ecb ∨ c.length = 16) :
    Spec.deciphered (m != .ecb) L.dec c d (cryptBlocks L m false (d.length / 16) c d).1 := by
  generalize hn : d.length / 16 = n
  induction n generalizing c d with
  | zero => exact ⟨by simp [cryptBlocks, hn], fun i hi => by omega⟩
  | succ n ih =>
    have hlen := cryptBlocks_length L m false (n + 1) c d hc (by omega)
    refine ⟨by rw [hlen.1, hn], fun i hi => ?_⟩
    rw [hn] at hi
    have hb : (d.take 16).length = 16 := by simp; omega
    have h1 := blockStep_length L m false c (d.take 16) hc
    have h2 := blockStep_chain L m false c (d.take 16) hc hb
    have h3 := (ih (blockStep L m false c (d.take 16)).2 (d.drop 16) h2 (by simp; omega)).2
    rw [cryptBlocks_succ]
    simp only
    cases i with
    | zero =>
      rw [blk_zero _ _ h1]
      cases m <;> simp [blockStep, Spec.blk, xorBytes]
    | succ i =>
      rw [blk_succ _ _ _ h1, h3 i (by simp; omega), blk_drop]
      simp only [Nat.succ_ne_zero, if_false, Nat.add_sub_cancel]
      by_cases hm : m = .ecb
      · subst hm; simp
      · have hm' : (m != .ecb) = true := by simp [hm]
        simp only [hm', if_true]
        congr 1
        cases i with
        | zero => cases m <;> simp_all [blockStep, Spec.blk]
        | succ i => simp [blk_drop]

/-! ## Decryption with padding: the library holds the last block back -/

/-- A context of CBC decryption with padding that was given `n` blocks in all. -/
structure Evp.Back (L : AesLib) (iv fed : Bytes) (n : Nat) (out : Bytes) (c : Evp) : Prop where
  mech : c.mech = .cbcPad
  enc : c.enc = false
  len : fed.length = 16 * n
  held : c.held = fed.drop (16 * (n - 1))
  blocks : cryptBlocks L .cbcPad false (n - 1) iv fed = (out, c.chain)

theorem Evp.Back.update {L : AesLib} {iv fed out : Bytes} {n : Nat} {c : Evp} (h : c.Back L iv fed n out) (k : Nat) (d : Bytes)
    (hd : d.length = 16 * k) (hk : 0 < k) (room : Nat) (hr : 16 * k ≤ room) :
    ∃ b c', c.osslUpdate L d room = some (b, c') ∧ c'.Back L iv (fed ++ d) (n + k) (out ++ b) ∧
      (iv.length = 16 → b.length = 16 * (n + k - 1 - (n - 1))) := by
  have hbs : c.blockSize = 16 := by simp [Evp.blockSize, h.mech]
  have h1 : ¬ room < c.bufferSize d.length := by
    unfold Evp.bufferSize
    rw [hbs]
    have : d.length % 16 = 0 := by omega
    have h2 : ¬ d.length = 0 := by omega
    simp [this, h2]
    omega
  unfold Evp.osslUpdate
  rw [if_neg h1]
  have hlen := h.len
  have hfed : fed = fed.take (16 * (n - 1)) ++ c.held := by rw [h.held, List.take_append_drop]
  have htl : (fed.take (16 * (n - 1))).length = 16 * (n - 1) := by simp; omega
  have hhl : c.held.length = 16 * (n - (n - 1)) := by rw [h.held, List.length_drop]; omega
  have hready : c.ready (c.held ++ d).length = n + k - 1 - (n - 1) := by
    unfold Evp.ready Evp.pads
    rw [h.enc, h.mech]
    simp only [Bool.not_false, beq_self_eq_true, Bool.and_self, if_true, List.length_append, hhl, hd]
    omega
  have hup : c.update L d = some ((cryptBlocks L .cbcPad false (n + k - 1 - (n - 1)) c.chain (c.held ++ d)).1,
      { c with chain := (cryptBlocks L .cbcPad false (n + k - 1 - (n - 1)) c.chain (c.held ++ d)).2,
               held := (c.held ++ d).drop (16 * (n + k - 1 - (n - 1))) }) := by
    unfold Evp.update
    simp only [h.mech, hready, h.enc]
  have hb := cryptBlocks_take L .cbcPad false (n - 1) iv (fed.take (16 * (n - 1))) c.held (Nat.le_of_eq htl.symm)
  rw [← hfed, h.blocks] at hb
  have hb := hb.symm
  have hfd : fed ++ d = fed.take (16 * (n - 1)) ++ (c.held ++ d) := by
    conv => lhs; rw [hfed]
    rw [List.append_assoc]
  refine ⟨_, _, hup, ⟨h.mech, h.enc, by simp [hlen, hd]; omega, ?_, ?_⟩, fun hiv => ?_⟩
  · simp only
    rw [hfd, List.drop_append (l₁ := fed.take _), List.drop_eq_nil_of_le (as := fed.take _) (by omega), List.nil_append, htl]
    congr 1
    omega
  · have hn : n + k - 1 = (n - 1) + (n + k - 1 - (n - 1)) := by omega
    rw [hfd]
    conv => lhs; rw [hn]
    rw [cryptBlocks_append _ _ _ _ _ _ _ _ htl, hb]
  · refine (cryptBlocks_length L .cbcPad false _ c.chain _ (.inr ?_) ?_).1
    · have h5 := cryptBlocks_length L .cbcPad false (n - 1) iv (fed.take (16 * (n - 1))) (.inr hiv) (by omega)
      rw [hb] at h5
      rcases h5.2 with e | e
      · cases e
      · exact e
    · simp only [List.length_append, hhl, hd]; omega

/-- After `fed` was accepted and `out` written. -/
structure AlongBack (L : AesLib) (iv fed out : Bytes) (o : AesOp) : Prop where
  mech : o.mech = .cbcPad
  fin : o.finalized = false
  ivlen : iv.length = 16
  buffer : o.buffer = fed.drop (16 * (fed.length / 16))
  back : o.ctx.Back L iv (fed.take (16 * (fed.length / 16))) (fed.length / 16) out

theorem AlongBack.used {L : AesLib} {iv fed out : Bytes} {o : AesOp} (h : AlongBack L iv fed out o) (b : Bool) :
    AlongBack L iv fed out { o with inUse := b } := ⟨h.mech, h.fin, h.ivlen, h.buffer, h.back⟩

theorem AlongBack.buffer_length {L : AesLib} {iv fed out : Bytes} {o : AesOp} (h : AlongBack L iv fed out o) :
    o.buffer.length = fed.length % 16 := by
  rw [h.buffer, List.length_drop]; omega

/-- What an update call does, when a whole block was handed to the library before, or the buffer is empty. -/
theorem AlongBack.call {L : AesLib} {iv fed out : Bytes} {o : AesOp} (h : AlongBack L iv fed out o) (inp : Bytes) (room : Nat)
    (hst : 16 ≤ fed.length ∨ fed = [] ∨ inp = []) :
    (aesCall L o (.update inp (some room)) = (.error .bufferTooSmall, { o with inUse := true })) ∨
    ∃ b o', aesCall L o (.update inp (some room)) = (.ok (.data b), o') ∧ AlongBack L iv (fed ++ inp) (out ++ b) o' ∧
      o'.inUse = true ∧ o'.params = o.params := by
  have key : aesCall L o (.update inp (some room)) =
      aesData (if room < (o.buffer.length + inp.length) / 16 * 16 then (.error .bufferTooSmall, { o with inUse := true })
        else ({ o with inUse := true } : AesOp).blockUpdate L inp room) := by
    unfold aesCall
    rw [h.fin, h.back.enc]
    simp [AesOp.decryptUpdate, h.fin, h.mech]
  have hbl := h.buffer_length
  rw [key]
  by_cases hr : room < (o.buffer.length + inp.length) / 16 * 16
  · left; rw [if_pos hr]; rfl
  right
  rw [if_neg hr]
  have hfl : (fed.take (16 * (fed.length / 16))).length = 16 * (fed.length / 16) := by simp; omega
  have hfed : fed = fed.take (16 * (fed.length / 16)) ++ o.buffer := by rw [h.buffer, List.take_append_drop]
  by_cases hfirst : o.buffer ≠ [] ∧ o.buffer.length + inp.length ≥ 16
  · have hbpos : 0 < o.buffer.length := List.length_pos_iff.2 hfirst.1
    have h16 : 16 ≤ fed.length := by
      rcases hst with h | h | h
      · exact h
      · simp [h] at hbl; simp [hbl] at hbpos
      · subst h; have := hfirst.2; simp at this; omega
    unfold AesOp.blockUpdate
    rw [if_pos hfirst]
    have hx : (o.buffer ++ inp.take (16 - o.buffer.length)).length = 16 * 1 := by simp; omega
    obtain ⟨b, c', hu, hB, hbl1⟩ := h.back.update 1 _ hx (by omega) room (by omega)
    have hb16 : ¬ b.length ≠ 16 := by rw [hbl1 h.ivlen]; omega
    simp only [hu, if_neg hb16]
    have hstop : inp.length - (inp.length - (16 - o.buffer.length)) % 16 =
        (16 - o.buffer.length) + 16 * ((inp.length - (16 - o.buffer.length)) / 16) := by omega
    have hall : (fed ++ inp).length / 16 = fed.length / 16 + 1 + (inp.length - (16 - o.buffer.length)) / 16 := by
      simp only [List.length_append]; omega
    have htake : (fed ++ inp).take (16 * ((fed ++ inp).length / 16)) =
        fed.take (16 * (fed.length / 16)) ++ (o.buffer ++ inp.take (16 - o.buffer.length)) ++
          (inp.take (inp.length - (inp.length - (16 - o.buffer.length)) % 16)).drop (16 - o.buffer.length) := by
      have e1 : fed ++ inp = fed.take (16 * (fed.length / 16)) ++ (o.buffer ++ inp) := by
        conv => lhs; rw [hfed]
        rw [List.append_assoc]
      have e2 : inp.take (16 - o.buffer.length) ++
          (inp.take (inp.length - (inp.length - (16 - o.buffer.length)) % 16)).drop (16 - o.buffer.length) =
          inp.take (inp.length - (inp.length - (16 - o.buffer.length)) % 16) := by
        conv => rhs; rw [← List.take_append_drop (16 - o.buffer.length) (inp.take (inp.length - (inp.length - (16 - o.buffer.length)) % 16))]
        rw [List.take_take, Nat.min_eq_left (by omega)]
      rw [List.append_assoc, List.append_assoc, e2, hall, e1]
      rw [List.take_append, List.take_of_length_le (l := fed.take _) (by omega), hfl, List.take_append,
        List.take_of_length_le (l := o.buffer) (by omega)]
      congr 3
      omega
    have hdrop : (fed ++ inp).drop (16 * ((fed ++ inp).length / 16)) =
        inp.drop (inp.length - (inp.length - (16 - o.buffer.length)) % 16) := by
      rw [List.drop_append, List.drop_eq_nil_of_le (by omega), List.nil_append]
      congr 1
      omega
    by_cases hm : inp.length - (inp.length - (16 - o.buffer.length)) % 16 - (16 - o.buffer.length) > 0
    · rw [if_pos hm]
      have hl : ((inp.take (inp.length - (inp.length - (16 - o.buffer.length)) % 16)).drop (16 - o.buffer.length)).length =
          16 * ((inp.length - (16 - o.buffer.length)) / 16) := by
        simp only [List.length_drop, List.length_take]; omega
      have hbl1' := hbl1 h.ivlen
      obtain ⟨b2, c2, hu2, hB2, -⟩ := hB.update _ _ hl (by omega) (room - b.length) (by omega)
      simp only [hu2]
      refine ⟨b ++ b2, _, rfl, ⟨h.mech, h.fin, h.ivlen, ?_, ?_⟩, rfl, rfl⟩
      · simp only [List.nil_append, hdrop]
      · rw [htake, hall, ← List.append_assoc out]
        exact hB2
    · rw [if_neg hm]
      have h0 : (inp.length - (16 - o.buffer.length)) / 16 = 0 := by omega
      refine ⟨b, _, rfl, ⟨h.mech, h.fin, h.ivlen, ?_, ?_⟩, rfl, rfl⟩
      · simp only [List.nil_append, hdrop]
      · have hz : (inp.take (inp.length - (inp.length - (16 - o.buffer.length)) % 16)).drop (16 - o.buffer.length) = [] :=
          List.drop_eq_nil_of_le (by simp only [List.length_take]; omega)
        rw [htake, hall, h0, hz, List.append_nil]
        exact hB
  · unfold AesOp.blockUpdate
    rw [if_neg hfirst]
    simp only
    by_cases hbuf : o.buffer = []
    · have hfe : fed.take (16 * (fed.length / 16)) = fed := by
        conv => rhs; rw [hfed, hbuf, List.append_nil]
      have hf16 : fed.length = 16 * (fed.length / 16) := by rw [hbuf] at hbl; simp at hbl; omega
      have hstop : inp.length - inp.length % 16 = 16 * (inp.length / 16) := by omega
      simp only [Nat.sub_zero, hstop, List.drop_zero, List.length_nil, hbuf, List.nil_append]
      have hall : (fed ++ inp).length / 16 = fed.length / 16 + inp.length / 16 := by
        simp only [List.length_append]; omega
      have htake : (fed ++ inp).take (16 * ((fed ++ inp).length / 16)) = fed ++ inp.take (16 * (inp.length / 16)) := by
        rw [List.take_append, List.take_of_length_le (by omega)]
        congr 2
        omega
      have hdrop : (fed ++ inp).drop (16 * ((fed ++ inp).length / 16)) = inp.drop (16 * (inp.length / 16)) := by
        rw [List.drop_append, List.drop_eq_nil_of_le (by omega), List.nil_append]
        congr 1
        omega
      have hback := h.back
      rw [hfe] at hback
      by_cases hm : 16 * (inp.length / 16) > 0
      · rw [if_pos hm]
        have hl : (inp.take (16 * (inp.length / 16))).length = 16 * (inp.length / 16) := by
          simp only [List.length_take]; omega
        obtain ⟨b, c', hu, hB, -⟩ := hback.update _ _ hl (by omega) room (by simp [hbuf] at hr; omega)
        simp only [hu]
        refine ⟨b, _, rfl, ⟨h.mech, h.fin, h.ivlen, ?_, ?_⟩, rfl, rfl⟩
        · simp only [hdrop]
        · rw [htake, hall]; exact hB
      · rw [if_neg hm]
        have h0 : inp.length / 16 = 0 := by omega
        refine ⟨[], _, rfl, ⟨h.mech, h.fin, h.ivlen, ?_, ?_⟩, rfl, rfl⟩
        · simp only [hdrop]
        · rw [htake, hall, h0, List.append_nil]
          simpa using hback
    · have hlt : o.buffer.length + inp.length < 16 := by
        rcases Nat.lt_or_ge (o.buffer.length + inp.length) 16 with h | h
        · exact h
        · exact absurd ⟨hbuf, h⟩ hfirst
      have hstop : inp.length - (inp.length - 0) % 16 = 0 := by omega
      have hall : (fed ++ inp).length / 16 = fed.length / 16 := by
        simp only [List.length_append]; omega
      simp only [hstop, List.drop_zero]
      refine ⟨[], _, rfl, ⟨h.mech, h.fin, h.ivlen, ?_, ?_⟩, rfl, rfl⟩
      · simp only
        rw [hall, List.drop_append_of_le_length (by omega), ← h.buffer]
      · rw [hall, List.take_append_of_le_length (by omega), List.append_nil]
        exact h.back

/-- What a length query does. -/
theorem AlongBack.query {L : AesLib} {iv fed out : Bytes} {o : AesOp} (h : AlongBack L iv fed out o) (inp : Bytes) :
    aesCall L o (.update inp none) = (.ok (.len ((fed.length % 16 + inp.length) / 16 * 16)), o) := by
  unfold aesCall
  rw [h.fin, h.back.enc]
  simp [AesOp.decryptionLen, h.mech, aesLen, ← h.buffer_length]

/-- A run of update calls. -/
theorem AlongBack.run {L : AesLib} {iv fed out : Bytes} {o : AesOp} (h : AlongBack L iv fed out o) (cs : List AesCall)
    (hu : Spec.updates cs)
    (hst : 16 ≤ fed.length ∨ (fed = [] ∧
      (Spec.opening cs (aesRun L o cs).1 = [] ∨ 16 ≤ (Spec.opening cs (aesRun L o cs).1).length))) :
    (∀ r ∈ (aesRun L o cs).1, r = .error .bufferTooSmall ∨ ∃ a, r = .ok a) ∧
    AlongBack L iv (fed ++ Spec.taken cs (aesRun L o cs).1) (out ++ Spec.written (aesRun L o cs).1) (aesRun L o cs).2 ∧
    (aesRun L o cs).2.inUse = (o.inUse || cs.any fun | .update _ (some _) => true | _ => false) := by
  induction cs generalizing o fed out with
  | nil =>
    refine ⟨by simp [aesRun], by simpa [aesRun, Spec.taken, Spec.written] using h, by simp [aesRun]⟩
  | cons c cs ih =>
    obtain ⟨p, room, rfl⟩ := hu c List.mem_cons_self
    have hu' : Spec.updates cs := fun c hc => hu c (List.mem_cons_of_mem _ hc)
    have hrun : ∀ c, aesRun L o (c :: cs) = ((aesCall L o c).1 :: (aesRun L (aesCall L o c).2 cs).1, (aesRun L (aesCall L o c).2 cs).2) :=
      fun _ => rfl
    rw [hrun] at hst ⊢
    cases room with
    | none =>
      rw [h.query p] at hst ⊢
      obtain ⟨h1, h2, h3⟩ := ih h hu' (by simpa [Spec.opening] using hst)
      refine ⟨?_, by simpa [Spec.taken, Spec.written] using h2, by simpa using h3⟩
      intro r hr
      rcases List.mem_cons.1 hr with rfl | hr
      · exact .inr ⟨_, rfl⟩
      · exact h1 r hr
    | some room =>
      have hpre : 16 ≤ fed.length ∨ fed = [] ∨ p = [] := by
        rcases hst with h | ⟨h, -⟩
        · exact .inl h
        · exact .inr (.inl h)
      rcases h.call p room hpre with hc | ⟨b, o', hc, hA, hin, -⟩
      · rw [hc] at hst ⊢
        obtain ⟨h1, h2, h3⟩ := ih (h.used true) hu' (by simpa [Spec.opening] using hst)
        refine ⟨?_, by simpa [Spec.taken, Spec.written] using h2, by simpa using h3⟩
        intro r hr
        rcases List.mem_cons.1 hr with rfl | hr
        · exact .inl rfl
        · exact h1 r hr
      · rw [hc] at hst ⊢
        have hst' : 16 ≤ (fed ++ p).length ∨ (fed ++ p = [] ∧
            (Spec.opening cs (aesRun L o' cs).1 = [] ∨ 16 ≤ (Spec.opening cs (aesRun L o' cs).1).length)) := by
          rcases hst with h | ⟨h, hop⟩
          · left; simp; omega
          · subst h
            by_cases hp : p = []
            · subst hp
              right
              exact ⟨rfl, by simpa [Spec.opening] using hop⟩
            · left
              simpa [Spec.opening, hp] using hop
        obtain ⟨h1, h2, h3⟩ := ih hA hu' hst'
        refine ⟨?_, by simpa [Spec.taken, Spec.written, List.append_assoc] using h2, by simpa [hin] using h3⟩
        intro r hr
        rcases List.mem_cons.1 hr with rfl | hr
        · exact .inr ⟨_, rfl⟩
        · exact h1 r hr

end Kry
