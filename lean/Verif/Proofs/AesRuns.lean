import Verif.Proofs.AesBlocks
import Verif.Spec.Aes

/-!
Runs of update calls in the block modes.
-/

namespace Kry

/-! ## Blocks -/

theorem blk_zero (o os : Bytes) (h : o.length = 16) : Spec.blk (o ++ os) 0 = o := by
  simp [Spec.blk, List.take_append_of_le_length, h]

theorem blk_succ (o os : Bytes) (i : Nat) (h : o.length = 16) : Spec.blk (o ++ os) (i + 1) = Spec.blk os i := by
  unfold Spec.blk
  rw [List.drop_append, List.drop_eq_nil_of_le (by omega), List.nil_append, h]
  congr 1

theorem blk_drop (d : Bytes) (i : Nat) : Spec.blk (d.drop 16) i = Spec.blk d (i + 1) := by
  unfold Spec.blk
  rw [List.drop_drop]
  congr 2
  omega

/-- The blocks come out as expected. -/
theorem cryptBlocks_enciphered (L : AesLib) (m : AesMech) (c d : Bytes) (hc : m = .ecb ∨ c.length = 16) :
    Spec.enciphered (m != .ecb) L.enc c d (cryptBlocks L m true (d.length / 16) c d).1 := by
  generalize hn : d.length / 16 = n
  induction n generalizing c d with
  | zero => exact ⟨by simp [cryptBlocks, hn], fun i hi => by omega⟩
  | succ n ih =>
    have hlen := cryptBlocks_length L m true (n + 1) c d hc (by omega)
    refine ⟨by rw [hlen.1, hn], fun i hi => ?_⟩
    rw [hn] at hi
    have hb : (d.take 16).length = 16 := by simp; omega
    have h1 := blockStep_length L m true c (d.take 16) hc
    have h2 := blockStep_chain L m true c (d.take 16) hc hb
    have h3 := (ih (blockStep L m true c (d.take 16)).2 (d.drop 16) h2 (by simp; omega)).2
    rw [cryptBlocks_succ]
    simp only
    cases i with
    | zero =>
      rw [blk_zero _ _ h1]
      cases m <;> simp [blockStep, Spec.blk, xorBytes]
    | succ i =>
      rw [blk_succ _ _ _ h1, h3 i (by simp; omega), blk_drop]
      simp only [Nat.succ_ne_zero, if_false, Nat.add_sub_cancel]
      by_cases hm : m = .ecb
      · subst hm; simp
      · have hm' : (m != .ecb) = true := by simp [hm]
        simp only [hm', if_true]
        congr 2
        cases i with
        | zero =>
          rw [blk_zero _ _ h1]
          cases m <;> simp_all [blockStep]
        | succ i => rw [blk_succ _ _ _ h1]; simp

/-! ## Runs -/

/-- After `fed` was accepted and `out` written, from the IV `iv` on. -/
structure Along (L : AesLib) (iv fed out : Bytes) (o : AesOp) : Prop where
  mech : o.mech = o.ctx.mech
  fin : o.finalized = false
  straight : o.ctx.Straight
  buffer : o.buffer = fed.drop (16 * (fed.length / 16))
  blocks : cryptBlocks L o.ctx.mech o.ctx.enc (fed.length / 16) iv fed = (out, o.ctx.chain)

theorem Along.used {L : AesLib} {iv fed out : Bytes} {o : AesOp} (h : Along L iv fed out o) (b : Bool) :
    Along L iv fed out { o with inUse := b } := ⟨h.mech, h.fin, h.straight, h.buffer, h.blocks⟩

theorem Along.buffer_length {L : AesLib} {iv fed out : Bytes} {o : AesOp} (h : Along L iv fed out o) :
    o.buffer.length = fed.length % 16 := by
  rw [h.buffer, List.length_drop]; omega

/-- What an update call with a buffer does. -/
theorem Along.call {L : AesLib} {iv fed out : Bytes} {o : AesOp} (h : Along L iv fed out o) (inp : Bytes) (room : Nat) :
    (room < (fed.length % 16 + inp.length) / 16 * 16 ∧
      aesCall L o (.update inp (some room)) = (.error .bufferTooSmall, { o with inUse := true })) ∨
    ((fed.length % 16 + inp.length) / 16 * 16 ≤ room ∧ ∃ b c,
      aesCall L o (.update inp (some room)) =
        (.ok (.data b), { o with inUse := true, ctx := { o.ctx with chain := c }, buffer := (o.buffer ++ inp).drop (16 * ((o.buffer ++ inp).length / 16)) }) ∧
      b.length = (fed.length % 16 + inp.length) / 16 * 16 ∧
      Along L iv (fed ++ inp) (out ++ b)
        { o with inUse := true, ctx := { o.ctx with chain := c }, buffer := (o.buffer ++ inp).drop (16 * ((o.buffer ++ inp).length / 16)) }) := by
  have key : aesCall L o (.update inp (some room)) =
      aesData (if room < (o.buffer.length + inp.length) / 16 * 16 then (.error .bufferTooSmall, { o with inUse := true })
        else ({ o with inUse := true } : AesOp).blockUpdate L inp room) := by
    unfold aesCall
    have hf := h.fin
    have hm := h.mech
    rw [hf]
    simp only [Bool.false_eq_true, if_false]
    rcases h.straight.mech with e | e | e <;> rw [e] at hm <;> cases hE : o.ctx.enc <;>
      simp [AesOp.encryptUpdate, AesOp.decryptUpdate, hf, hm]
  have hbl := h.buffer_length
  rw [key, ← hbl]
  by_cases hr : room < (o.buffer.length + inp.length) / 16 * 16
  · left
    rw [if_pos hr]
    exact ⟨hr, rfl⟩
  · right
    rw [if_neg hr]
    refine ⟨by omega, ?_⟩
    have hu := blockUpdate_straight L { o with inUse := true } inp room h.straight (by simp only; omega) (by simp only; omega)
    simp only at hu
    rw [hu]
    refine ⟨_, _, rfl, ?_, ?_⟩
    · have := (cryptBlocks_length L o.ctx.mech o.ctx.enc ((o.buffer ++ inp).length / 16) o.ctx.chain (o.buffer ++ inp)
        h.straight.chain (by omega)).1
      rw [this, List.length_append]; omega
    · have hfed : fed = fed.take (16 * (fed.length / 16)) ++ o.buffer := by rw [h.buffer, List.take_append_drop]
      have htl : (fed.take (16 * (fed.length / 16))).length = 16 * (fed.length / 16) := by simp; omega
      have hfi : fed ++ inp = fed.take (16 * (fed.length / 16)) ++ (o.buffer ++ inp) := by
        conv => lhs; rw [hfed]
        rw [List.append_assoc]
      have hk : (fed ++ inp).length / 16 = fed.length / 16 + (o.buffer ++ inp).length / 16 := by
        simp only [List.length_append, hbl]; omega
      have hc := cryptBlocks_length L o.ctx.mech o.ctx.enc ((o.buffer ++ inp).length / 16) o.ctx.chain (o.buffer ++ inp)
        h.straight.chain (by omega)
      have hb0 := h.blocks
      rw [hfed, cryptBlocks_take _ _ _ _ _ _ _ (by rw [← hfed]; omega)] at hb0
      rw [← hfed] at hb0
      refine ⟨h.mech, h.fin, h.straight.withChain _ hc.2, ?_, ?_⟩
      · simp only
        rw [hk, hfi]
        conv => rhs; rw [List.drop_append, List.drop_eq_nil_of_le (by omega), List.nil_append, htl]
        congr 1
        omega
      · simp only
        rw [hk, hfi, cryptBlocks_append _ _ _ _ _ _ _ _ htl, hb0]

theorem Along.call' {L : AesLib} {iv fed out : Bytes} {o : AesOp} (h : Along L iv fed out o) (inp : Bytes) (room : Nat) :
    (room < (fed.length % 16 + inp.length) / 16 * 16 ∧
      aesCall L o (.update inp (some room)) = (.error .bufferTooSmall, { o with inUse := true })) ∨
    ((fed.length % 16 + inp.length) / 16 * 16 ≤ room ∧ ∃ b o', aesCall L o (.update inp (some room)) = (.ok (.data b), o') ∧
      b.length = (fed.length % 16 + inp.length) / 16 * 16 ∧ Along L iv (fed ++ inp) (out ++ b) o' ∧ o'.ctx.enc = o.ctx.enc) := by
  rcases h.call inp room with h | ⟨h1, b, c, h2, h3, h4⟩
  · exact .inl h
  · exact .inr ⟨h1, b, _, h2, h3, h4, rfl⟩

/-- What a length query does. -/
theorem Along.query {L : AesLib} {iv fed out : Bytes} {o : AesOp} (h : Along L iv fed out o) (inp : Bytes) :
    aesCall L o (.update inp none) = (.ok (.len ((fed.length % 16 + inp.length) / 16 * 16)), o) := by
  have hbl := h.buffer_length
  have hm := h.mech
  unfold aesCall
  rw [h.fin]
  simp only [Bool.false_eq_true, if_false, ← hbl]
  rcases h.straight.mech with e | e | e <;> rw [e] at hm <;> cases hE : o.ctx.enc <;>
    simp [AesOp.encryptionLen, AesOp.decryptionLen, hm, aesLen]

/-- A run of update calls. -/
theorem Along.run {L : AesLib} {iv fed out : Bytes} {o : AesOp} (h : Along L iv fed out o) (cs : List AesCall)
    (hu : Spec.updates cs) :
    (∀ r ∈ (aesRun L o cs).1, r = .error .bufferTooSmall ∨ ∃ a, r = .ok a) ∧
    Along L iv (fed ++ Spec.taken cs (aesRun L o cs).1) (out ++ Spec.written (aesRun L o cs).1) (aesRun L o cs).2 ∧
    (aesRun L o cs).2.ctx.mech = o.ctx.mech ∧ (aesRun L o cs).2.ctx.enc = o.ctx.enc ∧
    (aesRun L o cs).2.inUse = (o.inUse || cs.any fun | .update _ (some _) => true | _ => false) ∧
    (aesRun L o cs).2.params = o.params := by
  induction cs generalizing o fed out with
  | nil =>
    refine ⟨by simp [aesRun], by simpa [aesRun, Spec.taken, Spec.written] using h, rfl, rfl, by simp [aesRun], rfl⟩
  | cons c cs ih =>
    obtain ⟨p, room, rfl⟩ := hu c List.mem_cons_self
    have hu' : Spec.updates cs := fun c hc => hu c (List.mem_cons_of_mem _ hc)
    unfold aesRun
    cases room with
    | none =>
      rw [h.query p]
      have := ih h hu'
      simp only
      generalize aesRun L o cs = q at this ⊢
      obtain ⟨rs, o'⟩ := q
      obtain ⟨h1, h2, h3, h4, h5, h6⟩ := this
      refine ⟨?_, by simpa [Spec.taken, Spec.written] using h2, h3, h4, by simpa using h5, h6⟩
      intro r hr
      rcases List.mem_cons.1 hr with rfl | hr
      · exact .inr ⟨_, rfl⟩
      · exact h1 r hr
    | some room =>
      rcases h.call p room with ⟨_, hc⟩ | ⟨_, b, ch, hc, _, hA⟩
      · rw [hc]
        have := ih (h.used true) hu'
        simp only
        generalize aesRun L { o with inUse := true } cs = q at this ⊢
        obtain ⟨rs, o'⟩ := q
        obtain ⟨h1, h2, h3, h4, h5, h6⟩ := this
        refine ⟨?_, by simpa [Spec.taken, Spec.written] using h2, h3, h4, by simpa using h5, h6⟩
        intro r hr
        rcases List.mem_cons.1 hr with rfl | hr
        · exact .inl rfl
        · exact h1 r hr
      · rw [hc]
        have := ih hA hu'
        simp only
        generalize aesRun L _ cs = q at this ⊢
        obtain ⟨rs, o'⟩ := q
        obtain ⟨h1, h2, h3, h4, h5, h6⟩ := this
        refine ⟨?_, by simpa [Spec.taken, Spec.written, List.append_assoc] using h2, h3, h4, by simpa using h5, h6⟩
        intro r hr
        rcases List.mem_cons.1 hr with rfl | hr
        · exact .inr ⟨_, rfl⟩
        · exact h1 r hr

/-- A new operation. -/
theorem aesNew_along {L : AesLib} {m : AesMech} {p : AesParam} {e : Bool} {o : AesOp}
    (hm : m = .ecb ∨ m = .cbc ∨ m = .cbcPad) (he : e = true ∨ m ≠ .cbcPad) (h : aesNew m p e = .ok o) :
    Along L o.params.iv [] [] o ∧ o.mech = m ∧ o.ctx.enc = e ∧ o.inUse = false ∧
      (m = .ecb ∨ (o.params.iv.length = 16 ∧ p = .iv o.params.iv)) := by
  unfold aesNew at h
  cases hp : aesParams m p with
  | error r => rw [hp] at h; cases h
  | ok q =>
    rw [hp] at h
    cases h
    have hiv : m = .ecb ∨ (q.iv.length = 16 ∧ p = .iv q.iv) := by
      rcases hm with rfl | rfl | rfl
      · exact .inl rfl
      all_goals
        right
        unfold aesParams at hp
        cases p <;> simp at hp
        split at hp <;> simp at hp
        subst hp
        exact ⟨by assumption, rfl⟩
    refine ⟨⟨rfl, rfl, ⟨hm, he, rfl, ?_⟩, rfl, rfl⟩, rfl, rfl, rfl, hiv⟩
    rcases hiv with h | h
    · exact .inl h
    · exact .inr h.1

end Kry
