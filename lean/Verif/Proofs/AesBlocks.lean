import Verif.Model.Aes

/-!
Block modes: what `blockUpdate` does to the stream of blocks.
-/

namespace Kry

theorem xorBytes_length (a b : Bytes) : (xorBytes a b).length = min a.length b.length := by
  simp [xorBytes]

theorem blockStep_length (L : AesLib) (m : AesMech) (e : Bool) (c b : Bytes) (hc : m = .ecb ∨ c.length = 16) :
    (blockStep L m e c b).1.length = 16 := by
  unfold blockStep
  split <;> simp_all [L.enc_len, L.dec_len, xorBytes_length]

theorem blockStep_chain (L : AesLib) (m : AesMech) (e : Bool) (c b : Bytes) (hc : m = .ecb ∨ c.length = 16)
    (hb : b.length = 16) : m = .ecb ∨ (blockStep L m e c b).2.length = 16 := by
  rcases hc with h | h
  · exact .inl h
  · right
    unfold blockStep
    split <;> simp_all [L.enc_len]

theorem cryptBlocks_length (L : AesLib) (m : AesMech) (e : Bool) (n : Nat) (c d : Bytes) (hc : m = .ecb ∨ c.length = 16)
    (hd : 16 * n ≤ d.length) :
    (cryptBlocks L m e n c d).1.length = 16 * n ∧ (m = .ecb ∨ (cryptBlocks L m e n c d).2.length = 16) := by
  induction n generalizing c d with
  | zero => exact ⟨rfl, hc⟩
  | succ n ih =>
    have hb : (d.take 16).length = 16 := by simp; omega
    have h1 := blockStep_length L m e c (d.take 16) hc
    have h2 := blockStep_chain L m e c (d.take 16) hc hb
    unfold cryptBlocks
    generalize blockStep L m e c (d.take 16) = p at h1 h2 ⊢
    obtain ⟨o, c1⟩ := p
    have h3 := ih c1 (d.drop 16) h2 (by simp; omega)
    simp only
    generalize cryptBlocks L m e n c1 (d.drop 16) = q at h3 ⊢
    obtain ⟨os, c2⟩ := q
    refine ⟨?_, h3.2⟩
    simp only at h1 h3 ⊢
    simp [h1, h3.1]
    omega

theorem cryptBlocks_succ (L : AesLib) (m : AesMech) (e : Bool) (n : Nat) (c d : Bytes) :
    cryptBlocks L m e (n + 1) c d =
      ((blockStep L m e c (d.take 16)).1 ++ (cryptBlocks L m e n (blockStep L m e c (d.take 16)).2 (d.drop 16)).1,
        (cryptBlocks L m e n (blockStep L m e c (d.take 16)).2 (d.drop 16)).2) := rfl

/-- Only the first `n` blocks count. -/
theorem cryptBlocks_take (L : AesLib) (m : AesMech) (e : Bool) (n : Nat) (c x y : Bytes) (hx : 16 * n ≤ x.length) :
    cryptBlocks L m e n c (x ++ y) = cryptBlocks L m e n c x := by
  induction n generalizing c x with
  | zero => rfl
  | succ n ih =>
    unfold cryptBlocks
    have h1 : (x ++ y).take 16 = x.take 16 := List.take_append_of_le_length (by omega)
    have h2 : (x ++ y).drop 16 = x.drop 16 ++ y := List.drop_append_of_le_length (by omega)
    rw [h1, h2]
    simp only
    rw [ih _ (x.drop 16) (by simp; omega)]

theorem cryptBlocks_append (L : AesLib) (m : AesMech) (e : Bool) (a b : Nat) (c x y : Bytes) (hx : x.length = 16 * a) :
    cryptBlocks L m e (a + b) c (x ++ y) =
      ((cryptBlocks L m e a c x).1 ++ (cryptBlocks L m e b (cryptBlocks L m e a c x).2 y).1,
        (cryptBlocks L m e b (cryptBlocks L m e a c x).2 y).2) := by
  induction a generalizing c x with
  | zero =>
    have : x = [] := List.length_eq_zero_iff.1 (by omega)
    subst this
    simp [cryptBlocks]
  | succ a ih =>
    have h0 : a + 1 + b = (a + b) + 1 := by omega
    rw [h0, cryptBlocks_succ, cryptBlocks_succ L m e a]
    have h1 : (x ++ y).take 16 = x.take 16 := List.take_append_of_le_length (by omega)
    have h2 : (x ++ y).drop 16 = x.drop 16 ++ y := List.drop_append_of_le_length (by omega)
    rw [h1, h2]
    rw [ih _ (x.drop 16) (by simp; omega)]
    simp [List.append_assoc]

theorem cryptBlocks_mech (L : AesLib) (e : Bool) (n : Nat) (c d : Bytes) :
    cryptBlocks L .cbcPad e n c d = cryptBlocks L .cbc e n c d := by
  induction n generalizing c d with
  | zero => rfl
  | succ n ih =>
    have : blockStep L .cbcPad e c (d.take 16) = blockStep L .cbc e c (d.take 16) := by cases e <;> rfl
    unfold cryptBlocks
    rw [this]
    simp only [ih]

/-- A context that holds nothing back. -/
structure Evp.Straight (c : Evp) : Prop where
  mech : c.mech = .ecb ∨ c.mech = .cbc ∨ c.mech = .cbcPad
  enc : c.enc = true ∨ c.mech ≠ .cbcPad
  held : c.held = []
  chain : c.mech = .ecb ∨ c.chain.length = 16

theorem Evp.Straight.blockSize {c : Evp} (h : c.Straight) : c.blockSize = 16 := by
  rcases h.mech with e | e | e <;> simp [Evp.blockSize, e]

theorem Evp.Straight.ready {c : Evp} (h : c.Straight) (n : Nat) : c.ready n = n / 16 := by
  unfold Evp.ready Evp.pads
  rcases h.enc with e | e
  · simp [e]
  · simp [e]

theorem Evp.Straight.update {c : Evp} (h : c.Straight) (L : AesLib) (n : Nat) (d : Bytes) (hd : d.length = 16 * n) (hn : 0 < n)
    (room : Nat) (hr : 16 * n ≤ room) :
    c.osslUpdate L d room =
      some ((cryptBlocks L c.mech c.enc n c.chain d).1, { c with chain := (cryptBlocks L c.mech c.enc n c.chain d).2 }) := by
  have h1 : ¬ room < c.bufferSize d.length := by
    unfold Evp.bufferSize
    rw [h.blockSize]
    have : d.length % 16 = 0 := by omega
    have h2 : ¬ d.length = 0 := by omega
    simp [this, h2]
    omega
  unfold Evp.osslUpdate
  rw [if_neg h1]
  have hn' : d.length / 16 = n := by omega
  have hdr : d.drop (16 * n) = [] := List.drop_eq_nil_of_le (by omega)
  have key : Evp.update L c d =
      (let d := c.held ++ d
       let n := c.ready d.length
       let (o, chain) := cryptBlocks L c.mech c.enc n c.chain d
       some (o, { c with chain := chain, held := d.drop (16 * n) })) := by
    unfold Evp.update
    rcases h.mech with e | e | e <;> simp [e]
  rw [key]
  simp only [h.held, h.ready, List.nil_append, hn', hdr]

theorem Evp.Straight.withChain {c : Evp} (h : c.Straight) (ch : Bytes) (hc : c.mech = .ecb ∨ ch.length = 16) :
    ({ c with chain := ch } : Evp).Straight := ⟨h.mech, h.enc, h.held, hc⟩

/-- The part on block modes, on a context that holds nothing back. -/
theorem blockUpdate_straight (L : AesLib) (o : AesOp) (inp : Bytes) (room : Nat) (hs : o.ctx.Straight)
    (hb : o.buffer.length < 16) (hr : (o.buffer.length + inp.length) / 16 * 16 ≤ room) :
    let d := o.buffer ++ inp
    let n := d.length / 16
    let p := cryptBlocks L o.ctx.mech o.ctx.enc n o.ctx.chain d
    o.blockUpdate L inp room = (.ok p.1, { o with ctx := { o.ctx with chain := p.2 }, buffer := d.drop (16 * n) }) := by
  intro d n p
  have hdl : d.length = o.buffer.length + inp.length := by simp [d]
  -- a whole run of blocks
  by_cases hfirst : o.buffer ≠ [] ∧ o.buffer.length + inp.length ≥ 16
  · have hbl : 0 < o.buffer.length := List.length_pos_iff.2 hfirst.1
    have hx : (o.buffer ++ inp.take (16 - o.buffer.length)).length = 16 * 1 := by
      simp; omega
    have hu := hs.update L 1 _ hx (by omega) room (by omega)
    have hd : d = (o.buffer ++ inp.take (16 - o.buffer.length)) ++ inp.drop (16 - o.buffer.length) := by
      simp [d]
    have hcl := cryptBlocks_length L o.ctx.mech o.ctx.enc 1 o.ctx.chain
      (o.buffer ++ inp.take (16 - o.buffer.length)) hs.chain (by omega)
    have hn : n = 1 + (inp.length - (16 - o.buffer.length)) / 16 := by simp only [n, hdl]; omega
    have hp := cryptBlocks_append L o.ctx.mech o.ctx.enc 1 ((inp.length - (16 - o.buffer.length)) / 16) o.ctx.chain _
      (inp.drop (16 - o.buffer.length)) hx
    rw [← hd, ← hn] at hp
    change p = _ at hp
    unfold AesOp.blockUpdate
    rw [if_pos hfirst]
    simp only [hu]
    rw [hp]
    generalize cryptBlocks L o.ctx.mech o.ctx.enc 1 o.ctx.chain (o.buffer ++ inp.take (16 - o.buffer.length)) = q at hcl ⊢
    obtain ⟨out, c1⟩ := q
    simp only at hcl ⊢
    have hq : ¬ out.length ≠ 16 := by omega
    simp only [if_neg hq]
    have hst : inp.length - (inp.length - (16 - o.buffer.length)) % 16 =
        (16 - o.buffer.length) + 16 * ((inp.length - (16 - o.buffer.length)) / 16) := by omega
    have hdrop : d.drop (16 * n) = inp.drop (inp.length - (inp.length - (16 - o.buffer.length)) % 16) := by
      rw [hst, hn, hd, List.drop_append, List.drop_eq_nil_of_le (by omega), List.nil_append, List.drop_drop]
      congr 1
      omega
    rw [hdrop]
    by_cases hm : inp.length - (inp.length - (16 - o.buffer.length)) % 16 - (16 - o.buffer.length) > 0
    · rw [if_pos hm]
      have hl : ((inp.take (inp.length - (inp.length - (16 - o.buffer.length)) % 16)).drop (16 - o.buffer.length)).length =
          16 * ((inp.length - (16 - o.buffer.length)) / 16) := by
        simp only [List.length_drop, List.length_take]; omega
      have hu2 := (hs.withChain c1 hcl.2).update L _ _ hl (by omega) (room - out.length) (by omega)
      simp only [hu2]
      have hy : inp.drop (16 - o.buffer.length) =
          (inp.take (inp.length - (inp.length - (16 - o.buffer.length)) % 16)).drop (16 - o.buffer.length) ++
            inp.drop (inp.length - (inp.length - (16 - o.buffer.length)) % 16) := by
        conv => lhs; rw [← List.take_append_drop (inp.length - (inp.length - (16 - o.buffer.length)) % 16) inp]
        rw [List.drop_append_of_le_length (by simp only [List.length_take]; omega)]
      have hc2 := cryptBlocks_take L o.ctx.mech o.ctx.enc ((inp.length - (16 - o.buffer.length)) / 16) c1 _
        (inp.drop (inp.length - (inp.length - (16 - o.buffer.length)) % 16)) (Nat.le_of_eq hl.symm)
      rw [← hy] at hc2
      simp only [hc2, List.nil_append]
    · rw [if_neg hm]
      have h0 : (inp.length - (16 - o.buffer.length)) / 16 = 0 := by omega
      simp [h0, cryptBlocks]
  · unfold AesOp.blockUpdate
    rw [if_neg hfirst]
    simp only
    by_cases hbuf : o.buffer = []
    · have hd : d = inp := by simp [d, hbuf]
      have hn : n = inp.length / 16 := by simp [n, hd]
      have hst : inp.length - inp.length % 16 = 16 * (inp.length / 16) := by omega
      simp only [Nat.sub_zero, hst, List.drop_zero, List.length_nil, hbuf, List.nil_append]
      by_cases hm : 16 * (inp.length / 16) > 0
      · rw [if_pos hm]
        have hl : (inp.take (16 * (inp.length / 16))).length = 16 * (inp.length / 16) := by
          simp only [List.length_take]; omega
        have hu := hs.update L _ _ hl (by omega) room (by simp [hbuf] at hr; omega)
        simp only [hu]
        have hc2 := cryptBlocks_take L o.ctx.mech o.ctx.enc (inp.length / 16) o.ctx.chain _
          (inp.drop (16 * (inp.length / 16))) (Nat.le_of_eq hl.symm)
        rw [List.take_append_drop] at hc2
        simp only [p, hn, hd, hc2]
      · rw [if_neg hm]
        have h0 : inp.length / 16 = 0 := by omega
        simp [p, hn, hd, h0, cryptBlocks]
    · have hlt : o.buffer.length + inp.length < 16 := by
        rcases Nat.lt_or_ge (o.buffer.length + inp.length) 16 with h | h
        · exact h
        · exact absurd ⟨hbuf, h⟩ hfirst
      have hn : n = 0 := by simp only [n, hdl]; omega
      have hst : inp.length - (inp.length - 0) % 16 = 0 := by omega
      simp only [hst, List.drop_zero]
      simp [p, hn, cryptBlocks, d]

end Kry
