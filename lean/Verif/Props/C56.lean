import Verif.Model.AesMac
import Verif.Props.C52

/-!
# C56 — AES-MAC is the MAC of the message, however it was cut into parts

The MAC is the first bytes of the last block of the CBC encryption, under the zero IV, of the message filled up with zeros to whole blocks.
It does not depend on how the message is divided into C_SignUpdate calls, nor on calls that only ask for the length or whose buffer is too small;
verification accepts exactly this MAC.

* `C56_parts`, `C56_oneshot`: multi-part and single-part signing, for all messages and divisions.
* `C56_verify`, `C56_verify_oneshot`: verification.
* `C56_zero_violation`: CKM_AES_MAC_GENERAL takes the length 0; then the empty signature verifies for every message.
* `C56_noparts_violation`: C_SignFinal without any C_SignUpdate is refused, while C_Sign of the empty message is not.
-/

namespace Kry

namespace Spec

/-- Filled up with zeros to whole blocks. -/
def zeroFilled (d : Bytes) : Bytes := d ++ List.replicate ((16 - d.length % 16) % 16) 0

/-- The last block of the CBC encryption under the zero IV. -/
def lastBlock (E : Bytes → Bytes) (d : Bytes) : Bytes :=
  (List.range (d.length / 16)).foldl (fun c i => E (List.zipWith (· ^^^ ·) (blk d i) c)) (List.replicate 16 0)

/-- The MAC of a message. -/
def cbcMac (E : Bytes → Bytes) (len : Nat) (d : Bytes) : Bytes := (lastBlock E (zeroFilled d)).take len

/-- Bytes in the MAC. -/
def macLen : AesMacMech → Nat
  | .mac => 8
  | .general n => n

/-- Calls before the last one: parts, questions for the length, buffers that are too small. -/
def before (len : Nat) (cs : List MacCall) : Prop :=
  ∀ c ∈ cs, (∃ p, c = .update p) ∨ c = .signFinal none ∨ (∃ d, c = .sign d none) ∨ (∃ room, room < len ∧ c = .signFinal (some room)) ∨
    (∃ d room, room < len ∧ c = .sign d (some room))

/-- The message handed over. -/
def macInput : List MacCall → Bytes
  | .update p :: cs => p ++ macInput cs
  | _ :: cs => macInput cs
  | [] => []

end Spec

theorem lastBlock_append (E : Bytes → Bytes) (d b : Bytes) (hd : d.length % 16 = 0) (hb : b.length = 16) :
    Spec.lastBlock E (d ++ b) = E (xorBytes b (Spec.lastBlock E d)) := by
  unfold Spec.lastBlock
  have hn : (d ++ b).length / 16 = d.length / 16 + 1 := by rw [List.length_append, hb]; omega
  rw [hn, List.range_succ, List.foldl_append]
  simp only [List.foldl_cons, List.foldl_nil]
  have h1 : Spec.blk (d ++ b) (d.length / 16) = b := by
    unfold Spec.blk
    have e : 16 * (d.length / 16) = d.length := by omega
    rw [e, List.drop_left, List.take_of_length_le (by omega)]
  rw [h1]
  have h2 : ∀ k, k ≤ d.length / 16 → ∀ z : Bytes,
      (List.range k).foldl (fun c i => E (List.zipWith (· ^^^ ·) (Spec.blk (d ++ b) i) c)) z =
        (List.range k).foldl (fun c i => E (List.zipWith (· ^^^ ·) (Spec.blk d i) c)) z := by
    intro k
    induction k with
    | zero => intro _ z; rfl
    | succ k ih =>
      intro hk z
      rw [List.range_succ, List.foldl_append, List.foldl_append, ih (by omega)]
      simp only [List.foldl_cons, List.foldl_nil]
      have : Spec.blk (d ++ b) k = Spec.blk d k := by
        unfold Spec.blk
        rw [List.drop_append_of_le_length (by omega), List.take_append_of_le_length (by rw [List.length_drop]; omega)]
      rw [this]
  rw [h2 _ (Nat.le_refl _)]
  rfl

theorem lastBlock_length (L : AesLib) (d : Bytes) : (Spec.lastBlock L.enc d).length = 16 := by
  unfold Spec.lastBlock
  cases d.length / 16 with
  | zero => rfl
  | succ n =>
    rw [List.range_succ, List.foldl_append]
    exact L.enc_len _

/-- The blocks `d` have been encrypted. -/
structure Macked (L : AesLib) (d : Bytes) (m : AesMacOp) : Prop where
  whole : d.length % 16 = 0
  straight : m.op.ctx.Straight
  mech : m.op.mech = .cbc
  cmech : m.op.ctx.mech = .cbc
  enc : m.op.ctx.enc = true
  fin : m.op.finalized = false
  buffer : m.op.buffer = []
  chain : m.op.ctx.chain = m.macbuf
  mac : m.macbuf = Spec.lastBlock L.enc d

/-- One block more. -/
theorem Macked.block {L : AesLib} {d : Bytes} {m : AesMacOp} (h : Macked L d m) (b : Bytes) (hb : b.length = 16) :
    ∃ m', m.block L b = (.ok (), m') ∧ Macked L (d ++ b) m' ∧ m'.finalized = m.finalized ∧ m'.inUse = m.inUse ∧ m'.pad = m.pad ∧
      m'.maclen = m.maclen := by
  have hbu := blockUpdate_straight L { m.op with inUse := true } b 16 h.straight (by simp [h.buffer]) (by simp [h.buffer, hb])
  simp only [h.buffer, List.nil_append, hb, h.cmech, h.enc] at hbu
  have e1 : cryptBlocks L .cbc true (16 / 16) m.op.ctx.chain b = (L.enc (xorBytes b m.macbuf), L.enc (xorBytes b m.macbuf)) := by
    have : (16 : Nat) / 16 = 0 + 1 := rfl
    rw [this]
    simp only [cryptBlocks, blockStep, h.chain]
    rw [List.take_of_length_le (by omega)]
    simp
  rw [e1] at hbu
  have hup : m.op.encryptUpdate L b 16 = (.ok (L.enc (xorBytes b m.macbuf)),
      { m.op with inUse := true, ctx := { m.op.ctx with chain := L.enc (xorBytes b m.macbuf) }, buffer := [] }) := by
    unfold AesOp.encryptUpdate
    rw [h.fin]
    simp only [h.mech, Bool.false_eq_true, if_false, h.buffer, hb]
    rw [if_neg (by simp)]
    rw [List.drop_eq_nil_of_le (by omega)] at hbu
    simpa [h.mech, h.fin, h.buffer, h.cmech, h.enc] using hbu
  have hx : m.macbuf.length = 16 := by rw [h.mac]; exact lastBlock_length L d
  unfold AesMacOp.block
  rw [hup]
  simp only [L.enc_len, ne_eq, not_true_eq_false, if_false]
  rw [List.drop_eq_nil_of_le (by omega), List.append_nil]
  refine ⟨_, rfl, ⟨by rw [List.length_append, hb]; have := h.whole; omega,
    h.straight.withChain _ (.inr (L.enc_len _)), h.mech, h.cmech, h.enc, h.fin, rfl, rfl, ?_⟩, rfl, rfl, rfl, rfl⟩
  rw [lastBlock_append L.enc d b h.whole hb, ← h.mac]

/-- The loop. -/
theorem Macked.blocks {L : AesLib} (n : Nat) {d : Bytes} {m : AesMacOp} (h : Macked L d m) (x : Bytes) (hn : 16 * n ≤ x.length) :
    ∃ m', m.blocks L n x = (.ok (x.drop (16 * n)), m') ∧ Macked L (d ++ x.take (16 * n)) m' ∧ m'.finalized = m.finalized ∧
      m'.inUse = m.inUse ∧ m'.maclen = m.maclen := by
  induction n generalizing d m x with
  | zero => exact ⟨m, by simp [AesMacOp.blocks], by simpa using h, rfl, rfl, rfl⟩
  | succ n ih =>
    obtain ⟨m1, e1, h1, f1, u1, -, l1⟩ := h.block (x.take 16) (by rw [List.length_take]; omega)
    obtain ⟨m2, e2, h2, f2, u2, l2⟩ := ih h1 (x.drop 16) (by rw [List.length_drop]; omega)
    refine ⟨m2, ?_, ?_, f2.trans f1, u2.trans u1, l2.trans l1⟩
    · simp only [AesMacOp.blocks, e1, e2, List.drop_drop]
      rw [show 16 + 16 * n = 16 * (n + 1) by omega]
    · have e : d ++ x.take 16 ++ (x.drop 16).take (16 * n) = d ++ x.take (16 * (n + 1)) := by
        rw [List.append_assoc, show 16 * (n + 1) = 16 + 16 * n by omega, List.take_add]
      rwa [e] at h2

/-- After the message `fed`, of which the last bytes are held back. -/
def MacFed (L : AesLib) (fed : Bytes) (m : AesMacOp) : Prop :=
  ∃ d, fed = d ++ m.pad ∧ Macked L d m ∧ m.pad.length ≤ 16 ∧ m.finalized = false

/-- One part more. -/
theorem MacFed.update {L : AesLib} {fed : Bytes} {m : AesMacOp} (h : MacFed L fed m) (p : Bytes) :
    ∃ m', m.update L p = (.ok (), m') ∧ MacFed L (fed ++ p) m' ∧ m'.inUse = true ∧ m'.maclen = m.maclen := by
  obtain ⟨d, e, hm, hp, hf⟩ := h
  have hm1 : Macked L d { m with inUse := true } :=
    ⟨hm.whole, hm.straight, hm.mech, hm.cmech, hm.enc, hm.fin, hm.buffer, hm.chain, hm.mac⟩
  unfold AesMacOp.update
  rw [hf]
  simp only [Bool.false_eq_true, if_false]
  by_cases c1 : m.pad.length + p.length < 16
  · rw [if_pos c1]
    refine ⟨_, rfl, ⟨d, by rw [e, List.append_assoc], ⟨hm.whole, hm.straight, hm.mech, hm.cmech, hm.enc, hm.fin, hm.buffer, hm.chain, hm.mac⟩,
      by simp; omega, rfl⟩, rfl, rfl⟩
  rw [if_neg c1]
  -- the loop
  have rest : ∀ (d' x : Bytes) (m1 : AesMacOp), Macked L d' m1 → m1.finalized = false → m1.inUse = true → m1.maclen = m.maclen →
      fed ++ p = d' ++ x → ∃ m',
      (match m1.blocks L ((x.length - 1) / 16) x with
        | (.error r, m) => ((.error r : Res Unit), m)
        | (.ok rest, m) => (.ok (), { m with pad := rest })) = (.ok (), m') ∧ MacFed L (fed ++ p) m' ∧ m'.inUse = true ∧ m'.maclen = m.maclen := by
    intro d' x m1 hk hf1 hu1 hl1 he
    obtain ⟨m2, e2, h2, f2, u2, l2⟩ := hk.blocks ((x.length - 1) / 16) x (by omega)
    rw [e2]
    refine ⟨_, rfl, ⟨d' ++ x.take (16 * ((x.length - 1) / 16)), ?_,
      ⟨h2.whole, h2.straight, h2.mech, h2.cmech, h2.enc, h2.fin, h2.buffer, h2.chain, h2.mac⟩, ?_, f2.trans hf1⟩, u2.trans hu1, l2.trans hl1⟩
    · rw [List.append_assoc, List.take_append_drop, he]
    · simp only [List.length_drop]; omega
  by_cases c2 : m.pad.length > 0
  · rw [if_pos c2]
    have hm2 : Macked L d { m with inUse := true, pad := m.pad ++ p.take (16 - m.pad.length) } :=
      ⟨hm.whole, hm.straight, hm.mech, hm.cmech, hm.enc, hm.fin, hm.buffer, hm.chain, hm.mac⟩
    obtain ⟨m1, e1, h1, f1, u1, -, l1⟩ := hm2.block (m.pad ++ p.take (16 - m.pad.length)) (by simp; omega)
    rw [hf] at e1
    rw [e1]
    refine rest _ _ m1 h1 (f1.trans hf) u1 l1 ?_
    rw [e, List.append_assoc, List.append_assoc, List.append_assoc, List.take_append_drop]
  · rw [if_neg c2]
    have hpn : m.pad = [] := List.length_eq_zero_iff.1 (by omega)
    simp only
    have := rest d p { m with inUse := true } hm1 hf rfl rfl (by rw [e, hpn, List.append_nil])
    rw [hf] at this
    exact this

/-- The end. -/
theorem MacFed.finalize {L : AesLib} {fed : Bytes} {m : AesMacOp} (h : MacFed L fed m) (hu : m.inUse = true) :
    ∃ m', m.finalize L = (.ok (Spec.cbcMac L.enc m.maclen fed), m') := by
  obtain ⟨d, e, hm, hp, hf⟩ := h
  have hm1 : Macked L d { m with finalized := true } :=
    ⟨hm.whole, hm.straight, hm.mech, hm.cmech, hm.enc, hm.fin, hm.buffer, hm.chain, hm.mac⟩
  unfold AesMacOp.finalize
  rw [hu, hf]
  simp only [Bool.not_true, Bool.false_eq_true, if_false]
  have hw := hm.whole
  by_cases c : m.pad.length > 0
  · rw [if_pos c]
    obtain ⟨m1, e1, h1, -, -, -, l1⟩ := hm1.block (m.pad ++ List.replicate (16 - m.pad.length) 0) (by simp; omega)
    simp only [hu] at e1
    rw [e1]
    simp only [l1]
    refine ⟨m1, ?_⟩
    have : Spec.zeroFilled fed = d ++ (m.pad ++ List.replicate (16 - m.pad.length) 0) := by
      unfold Spec.zeroFilled
      rw [e, List.append_assoc]
      congr 3
      rw [List.length_append]
      omega
    unfold Spec.cbcMac
    rw [this, h1.mac]
  · rw [if_neg c]
    have hpn : m.pad = [] := List.length_eq_zero_iff.1 (by omega)
    refine ⟨{ m with finalized := true, inUse := true }, ?_⟩
    have : Spec.zeroFilled fed = d := by
      unfold Spec.zeroFilled
      rw [e, hpn, List.append_nil, hw]
      simp
    unfold Spec.cbcMac
    rw [this, hm.mac]

/-- The verdict. -/
theorem MacFed.finalizeVer {L : AesLib} {fed : Bytes} {m : AesMacOp} (h : MacFed L fed m) (hu : m.inUse = true) (sig : Bytes) :
    ∃ m', m.finalizeVer L sig = (if sig = Spec.cbcMac L.enc m.maclen fed then .ok () else .error .signatureInvalid, m') := by
  obtain ⟨m', e⟩ := h.finalize hu
  unfold AesMacOp.finalizeVer
  rw [e]
  refine ⟨m', ?_⟩
  simp only
  by_cases c : sig = Spec.cbcMac L.enc m.maclen fed
  · rw [if_neg (by simp [c]), if_pos c]
  · rw [if_pos (fun h => c h.symm), if_neg c]

theorem aesMacNew_fed (L : AesLib) (k : AesMacMech) (m : AesMacOp) (h : aesMacNew k = .ok m) :
    MacFed L [] m ∧ m.inUse = false ∧ m.maclen = Spec.macLen k ∧ Spec.macLen k ≤ 16 := by
  have key : ∀ n, n ≤ 16 → ∀ o, aesNew .cbc (.iv (List.replicate 16 0)) true = .ok o →
      MacFed L [] ⟨false, false, [], List.replicate 16 0, n, o⟩ := by
    intro n hn o ho
    obtain ⟨a1, a2, a3, a4, a5⟩ := aesNew_along (L := L) (.inr (.inl rfl)) (.inl rfl) ho
    cases ho
    exact ⟨[], rfl, ⟨rfl, a1.straight, rfl, rfl, rfl, rfl, rfl, rfl, rfl⟩, by simp, rfl⟩
  unfold aesMacNew at h
  cases k with
  | mac =>
    simp only at h
    cases ho : aesNew .cbc (.iv (List.replicate 16 0)) true with
    | error r => rw [ho] at h; cases h
    | ok o => rw [ho] at h; cases h; exact ⟨key 8 (by omega) o ho, rfl, rfl, by simp [Spec.macLen]⟩
  | general n =>
    simp only at h
    by_cases c : n > 16
    · rw [if_pos c] at h; cases h
    · rw [if_neg c] at h
      cases ho : aesNew .cbc (.iv (List.replicate 16 0)) true with
      | error r => rw [ho] at h; cases h
      | ok o => rw [ho] at h; cases h; exact ⟨key n (by omega) o ho, rfl, rfl, by simp [Spec.macLen]; omega⟩

/-- A run of calls before the last one. -/
theorem MacFed.run {L : AesLib} {fed : Bytes} {m : AesMacOp} (h : MacFed L fed m) (cs : List MacCall) (hc : Spec.before m.maclen cs) :
    (∀ c r, (c, r) ∈ cs.zip (macRun L m cs).1 → (∃ p, c = .update p) → r = .ok .done) ∧
    MacFed L (fed ++ Spec.macInput cs) (macRun L m cs).2 ∧ (macRun L m cs).2.maclen = m.maclen ∧
    ((m.inUse = true ∨ ∃ p, .update p ∈ cs) → (macRun L m cs).2.inUse = true) := by
  induction cs generalizing m fed with
  | nil => exact ⟨by simp [macRun], by simpa [macRun, Spec.macInput] using h, rfl, fun h => by simpa [macRun] using h⟩
  | cons c cs ih =>
    have hf : m.finalized = false := by obtain ⟨_, _, _, _, hf⟩ := h; exact hf
    have hcs : Spec.before m.maclen cs := fun c h => hc c (List.mem_cons_of_mem _ h)
    -- calls without effect
    have idle : ∀ r, (∀ p, c ≠ .update p) → macCall L m c = (r, m) → Spec.macInput (c :: cs) = Spec.macInput cs →
        (∀ c' r', (c', r') ∈ (c :: cs).zip (macRun L m (c :: cs)).1 → (∃ p, c' = .update p) → r' = .ok .done) ∧
        MacFed L (fed ++ Spec.macInput (c :: cs)) (macRun L m (c :: cs)).2 ∧ (macRun L m (c :: cs)).2.maclen = m.maclen ∧
        ((m.inUse = true ∨ ∃ p, .update p ∈ c :: cs) → (macRun L m (c :: cs)).2.inUse = true) := by
      intro r hnu he hmsg
      obtain ⟨i1, i2, i3, i4⟩ := ih h hcs
      simp only [macRun, he, hmsg, List.zip_cons_cons, List.mem_cons]
      refine ⟨fun c' r' hmem hup => ?_, i2, i3, fun hu => i4 ?_⟩
      · rcases hmem with hmem | hmem
        · cases hmem; obtain ⟨p, hp⟩ := hup; exact absurd hp (hnu p)
        · exact i1 c' r' hmem hup
      · rcases hu with hu | ⟨p, hu | hu⟩
        · exact .inl hu
        · exact absurd hu.symm (hnu p)
        · exact .inr ⟨p, hu⟩
    rcases hc c List.mem_cons_self with ⟨p, e⟩ | e | ⟨d, e⟩ | ⟨room, hr, e⟩ | ⟨d, room, hr, e⟩
    · subst e
      obtain ⟨m1, e1, h1, u1, l1⟩ := h.update p
      have he : macCall L m (.update p) = (.ok .done, m1) := by unfold macCall; rw [hf]; simp [e1]
      obtain ⟨i1, i2, i3, i4⟩ := ih h1 (l1 ▸ hcs)
      simp only [macRun, he, Spec.macInput, List.zip_cons_cons, List.mem_cons]
      refine ⟨fun c' r' hmem hup => ?_, by rw [← List.append_assoc]; exact i2, i3.trans l1, fun _ => i4 (.inl u1)⟩
      rcases hmem with hmem | hmem
      · cases hmem; rfl
      · exact i1 c' r' hmem hup
    · subst e
      exact idle _ (fun p h => by cases h) (by unfold macCall; rw [hf]; rfl) rfl
    · subst e
      exact idle _ (fun p h => by cases h) (by unfold macCall; rw [hf]; rfl) rfl
    · subst e
      exact idle _ (fun p h => by cases h) (by unfold macCall; rw [hf]; simp only [Bool.false_eq_true, if_false]; rw [if_pos hr]) rfl
    · subst e
      exact idle _ (fun p h => by cases h) (by unfold macCall; rw [hf]; simp only [Bool.false_eq_true, if_false]; rw [if_pos hr]) rfl

/-- Signing in parts. -/
theorem C56_parts (L : AesLib) (k : AesMacMech) (m : AesMacOp) (hm : aesMacNew k = .ok m) (cs : List MacCall)
    (hc : Spec.before (Spec.macLen k) cs) (hp : ∃ p, .update p ∈ cs) (room : Nat) (hr : Spec.macLen k ≤ room) :
    (∀ c r, (c, r) ∈ cs.zip (macRun L m cs).1 → (∃ p, c = .update p) → r = .ok .done) ∧
    (macCall L (macRun L m cs).2 (.signFinal (some room))).1 = .ok (.data (Spec.cbcMac L.enc (Spec.macLen k) (Spec.macInput cs))) := by
  obtain ⟨h0, -, hl, -⟩ := aesMacNew_fed L k m hm
  obtain ⟨i1, i2, i3, i4⟩ := h0.run cs (hl ▸ hc)
  refine ⟨i1, ?_⟩
  have hf : (macRun L m cs).2.finalized = false := by obtain ⟨_, _, _, _, hf⟩ := i2; exact hf
  obtain ⟨m', e⟩ := i2.finalize (i4 (.inr hp))
  unfold macCall
  rw [hf]
  simp only [Bool.false_eq_true, if_false]
  rw [if_neg (by omega), e]
  simp only [i3, hl, List.nil_append]

/-- Signing in one call, also after questions for the length and buffers that were too small. -/
theorem C56_oneshot (L : AesLib) (k : AesMacMech) (m : AesMacOp) (hm : aesMacNew k = .ok m) (cs : List MacCall)
    (hc : Spec.before (Spec.macLen k) cs) (hp : ∀ p, .update p ∉ cs) (d : Bytes) (room : Nat) (hr : Spec.macLen k ≤ room) :
    (macCall L (macRun L m cs).2 (.sign d (some room))).1 = .ok (.data (Spec.cbcMac L.enc (Spec.macLen k) d)) := by
  obtain ⟨h0, hu, hl, -⟩ := aesMacNew_fed L k m hm
  have hsame : (macRun L m cs).2 = m := by
    have hf : m.finalized = false := by obtain ⟨_, _, _, _, hf⟩ := h0; exact hf
    rw [← hl] at hc
    clear hr
    induction cs with
    | nil => rfl
    | cons c cs ih =>
      have ih := ih (fun c h => hc c (List.mem_cons_of_mem _ h)) (fun p h => hp p (List.mem_cons_of_mem _ h))
      rcases hc c List.mem_cons_self with ⟨p, e⟩ | e | ⟨d', e⟩ | ⟨room', hr', e⟩ | ⟨d', room', hr', e⟩
      · subst e; exact absurd List.mem_cons_self (hp p)
      all_goals
        subst e
        simp only [macRun, macCall, hf, Bool.false_eq_true, if_false]
      · exact ih
      · exact ih
      · rw [if_pos hr']; exact ih
      · rw [if_pos hr']; exact ih
  rw [hsame]
  have hf : m.finalized = false := by obtain ⟨_, _, _, _, hf⟩ := h0; exact hf
  obtain ⟨m1, e1, h1, u1, l1⟩ := h0.update d
  obtain ⟨m2, e2⟩ := h1.finalize u1
  unfold macCall macBegin
  rw [hf, hu]
  simp only [Bool.false_eq_true, if_false]
  rw [if_neg (by omega), e1]
  simp only [e2, l1, hl, List.nil_append]

/-- Verification in parts: exactly the MAC of the message is accepted. -/
theorem C56_verify (L : AesLib) (k : AesMacMech) (m : AesMacOp) (hm : aesMacNew k = .ok m) (cs : List MacCall)
    (hc : Spec.before (Spec.macLen k) cs) (hp : ∃ p, .update p ∈ cs) (sig : Bytes) :
    (macCall L (macRun L m cs).2 (.verifyFinal sig)).1 = .ok .done ↔ sig = Spec.cbcMac L.enc (Spec.macLen k) (Spec.macInput cs) := by
  obtain ⟨h0, -, hl, h16⟩ := aesMacNew_fed L k m hm
  obtain ⟨i1, i2, i3, i4⟩ := h0.run cs (hl ▸ hc)
  have hf : (macRun L m cs).2.finalized = false := by obtain ⟨_, _, _, _, hf⟩ := i2; exact hf
  have hml : ∀ d, (Spec.cbcMac L.enc (Spec.macLen k) d).length = Spec.macLen k := by
    intro d; unfold Spec.cbcMac; rw [List.length_take, lastBlock_length]; omega
  obtain ⟨m', e⟩ := i2.finalizeVer (i4 (.inr hp)) sig
  unfold macCall
  rw [hf]
  simp only [Bool.false_eq_true, if_false]
  simp only [i3, hl, List.nil_append] at e ⊢
  by_cases c : sig.length ≠ Spec.macLen k
  · rw [if_pos c]
    exact ⟨fun h => (by cases h), fun h => absurd (h ▸ hml _) c⟩
  · rw [if_neg c, e]
    by_cases c2 : sig = Spec.cbcMac L.enc (Spec.macLen k) (Spec.macInput cs)
    · rw [if_pos c2]; simp [c2]
    · rw [if_neg c2]; simp [c2]

/-- Verification in one call. -/
theorem C56_verify_oneshot (L : AesLib) (k : AesMacMech) (m : AesMacOp) (hm : aesMacNew k = .ok m) (d sig : Bytes) :
    (macCall L m (.verify d sig)).1 = .ok .done ↔ sig = Spec.cbcMac L.enc (Spec.macLen k) d := by
  obtain ⟨h0, hu, hl, h16⟩ := aesMacNew_fed L k m hm
  have hf : m.finalized = false := by obtain ⟨_, _, _, _, hf⟩ := h0; exact hf
  have hml : ∀ d, (Spec.cbcMac L.enc (Spec.macLen k) d).length = Spec.macLen k := by
    intro d; unfold Spec.cbcMac; rw [List.length_take, lastBlock_length]; omega
  obtain ⟨m1, e1, h1, u1, l1⟩ := h0.update d
  obtain ⟨m2, e⟩ := h1.finalizeVer u1 sig
  unfold macCall macBegin
  rw [hf, hu]
  simp only [Bool.false_eq_true, if_false]
  simp only [l1, hl, List.nil_append] at e ⊢
  by_cases c : sig.length ≠ Spec.macLen k
  · rw [if_pos c]
    exact ⟨fun h => (by cases h), fun h => absurd (h ▸ hml _) c⟩
  · rw [if_neg c, e1]
    simp only [e]
    by_cases c2 : sig = Spec.cbcMac L.enc (Spec.macLen k) d
    · rw [if_pos c2]; simp [c2]
    · rw [if_neg c2]; simp [c2]

/-! ## Cases and violations -/

/-- Thirty-five bytes in parts of several lengths, a question for the length and a buffer that is too small between them. -/
def exMacCalls : List MacCall :=
  [.update (List.replicate 5 7), .signFinal none, .update (List.replicate 11 9), .update [], .signFinal (some 3), .update (List.replicate 19 1)]

example : ∃ m, aesMacNew .mac = .ok m ∧ Spec.before (Spec.macLen .mac) exMacCalls ∧ (∃ p, .update p ∈ exMacCalls) := by
  refine ⟨_, rfl, ?_, ⟨List.replicate 5 7, List.mem_cons_self⟩⟩
  intro c hc
  simp only [exMacCalls, List.mem_cons, List.not_mem_nil, or_false] at hc
  rcases hc with e | e | e | e | e | e <;> subst e
  · exact .inl ⟨_, rfl⟩
  · exact .inr (.inl rfl)
  · exact .inl ⟨_, rfl⟩
  · exact .inl ⟨_, rfl⟩
  · exact .inr (.inr (.inr (.inl ⟨3, by decide, rfl⟩)))
  · exact .inl ⟨_, rfl⟩

/-- CKM_AES_MAC_GENERAL with length 0: the empty signature verifies for every message. -/
theorem C56_zero_violation (L : AesLib) : ∃ m, aesMacNew (.general 0) = .ok m ∧ ∀ d, (macCall L m (.verify d [])).1 = .ok .done := by
  refine ⟨_, rfl, fun d => ?_⟩
  rw [C56_verify_oneshot L (.general 0) _ rfl]
  rfl

/-- No parts at all: C_SignFinal is refused, C_Sign of the empty message gives its MAC. -/
theorem C56_noparts_violation (L : AesLib) : ∃ m, aesMacNew .mac = .ok m ∧
    (macCall L m (.signFinal (some 16))).1 = .error .operationNotInitialized ∧
    (macCall L m (.sign [] (some 16))).1 = .ok (.data (List.replicate 8 0)) := by
  refine ⟨_, rfl, rfl, ?_⟩
  have := C56_oneshot L .mac _ rfl [] (fun c h => by simp at h) (fun p h => by simp at h) [] 16 (by decide)
  exact this

end Kry
