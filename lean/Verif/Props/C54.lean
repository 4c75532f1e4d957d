import Verif.Props.C52
import Verif.Proofs.Basic

/-!
# C54 — AES in counter mode

The bytes written are the data accepted combined with the encryptions of the counter block, counted up by one per block, however the
data is cut; decryption with other parts gives the data back; the counter never runs over into the nonce, that is the bits of the
counter block that do not count stay as they are for every block of the operation.

* `C54_stream`, `C54_roundtrip`: in full.
* `C54_nonce_partial`: for counters whose width is a multiple of eight bits, or one more.
* `C54_nonce_violation`: a counter of 4 bits that starts at 11 takes six blocks, the sixth with another nonce: the limit
  is computed with the number of bits left over as a mask.
* `C54_last_violation`: C_Encrypt of the last block the counter has left fails with CKR_DATA_LEN_RANGE.
-/

namespace Kry

namespace Spec

/-- `out` is `d` combined with the encryptions of the counter block `cb`, `cb + 1`, … -/
def counted (E : Bytes → Bytes) (cb d out : Bytes) : Prop :=
  out.length = d.length ∧
    ∀ i, i < d.length → out.getD i 0 = d.getD i 0 ^^^ (E (toBE 16 ((fromBE cb + i / 16) % 2 ^ 128))).getD (i % 16) 0

end Spec

theorem streamXor_length (ks : Nat → UInt8) (p : Nat) (d : Bytes) : (streamXor ks p d).length = d.length := by
  induction d generalizing p with
  | nil => rfl
  | cons b d ih => simp [streamXor, ih]

theorem streamXor_append (ks : Nat → UInt8) (p : Nat) (x y : Bytes) :
    streamXor ks p (x ++ y) = streamXor ks p x ++ streamXor ks (p + x.length) y := by
  induction x generalizing p with
  | nil => simp [streamXor]
  | cons b x ih =>
    have : p + 1 + x.length = p + (x.length + 1) := by omega
    simp [streamXor, ih, this]

theorem streamXor_getD (ks : Nat → UInt8) (p : Nat) (d : Bytes) (i : Nat) (hi : i < d.length) :
    (streamXor ks p d).getD i 0 = d.getD i 0 ^^^ ks (p + i) := by
  induction d generalizing p i with
  | nil => simp at hi
  | cons b d ih =>
    cases i with
    | zero => simp [streamXor]
    | succ i =>
      have := ih (p + 1) i (by simpa using hi)
      have e : p + 1 + i = p + (i + 1) := by omega
      simp only [streamXor, List.getD_cons_succ, this, e]

theorem streamXor_twice (ks : Nat → UInt8) (p : Nat) (d : Bytes) : streamXor ks p (streamXor ks p d) = d := by
  induction d generalizing p with
  | nil => rfl
  | cons b d ih =>
    have : b ^^^ ks p ^^^ ks p = b := by rw [UInt8.xor_assoc]; simp
    simp [streamXor, this, ih]

/-! ## Runs -/

/-- After `fed` was accepted and `out` written. -/
structure CtrAlong (L : AesLib) (cb : Bytes) (N : Nat) (fed out : Bytes) (o : AesOp) : Prop where
  mech : o.mech = .ctr
  cmech : o.ctx.mech = .ctr
  chain : o.ctx.chain = cb
  pos : o.ctx.pos = fed.length
  out : out = streamXor (ctrKs L cb) 0 fed
  max : o.params.maxblocks = N
  limit : N ≠ 0 → fed.length ≤ 16 * o.blockctr ∧ o.blockctr ≤ N

theorem CtrAlong.call {L : AesLib} {cb fed out : Bytes} {N : Nat} {o : AesOp} (h : CtrAlong L cb N fed out o) (inp : Bytes)
    (room : Nat) :
    (∃ r o', aesCall L o (.update inp (some room)) = (.error r, o') ∧ CtrAlong L cb N fed out o') ∨
    ∃ b o', aesCall L o (.update inp (some room)) = (.ok (.data b), o') ∧ CtrAlong L cb N (fed ++ inp) (out ++ b) o' := by
  unfold aesCall
  by_cases hf : o.finalized = true
  · left; rw [if_pos hf]; exact ⟨_, _, rfl, h⟩
  rw [if_neg hf]
  have key : (if o.ctx.enc = true then aesData (o.encryptUpdate L inp room) else aesData (o.decryptUpdate L inp room)) =
      aesData (match ({ o with inUse := true } : AesOp).ctrCount inp.length with
        | (.error r, o) => (.error r, o)
        | (.ok (), o) => if room < inp.length then (.error .bufferTooSmall, o) else o.plainUpdate L inp room) := by
    unfold AesOp.encryptUpdate AesOp.decryptUpdate
    rw [if_neg hf, if_neg hf]
    simp only [h.mech, ite_self]
    rfl
  show (∃ r o', (if o.ctx.enc = true then aesData (o.encryptUpdate L inp room) else aesData (o.decryptUpdate L inp room)) =
    (.error r, o') ∧ _) ∨ ∃ b o', (if o.ctx.enc = true then aesData (o.encryptUpdate L inp room)
      else aesData (o.decryptUpdate L inp room)) = (.ok (.data b), o') ∧ _
  rw [key]
  -- the counter
  have hcount : (∃ r o', ({ o with inUse := true } : AesOp).ctrCount inp.length = (.error r, o') ∧ CtrAlong L cb N fed out o') ∨
      ∃ o', ({ o with inUse := true } : AesOp).ctrCount inp.length = (.ok (), o') ∧ CtrAlong L cb N fed out o' ∧
        (N ≠ 0 → fed.length + inp.length ≤ 16 * o'.blockctr) := by
    unfold AesOp.ctrCount
    simp only [h.max]
    by_cases hN : N ≠ 0
    · rw [if_pos hN]
      have := h.limit hN
      by_cases hl : o.blockctr + (inp.length + 15) / 16 > N
      · left
        rw [if_pos hl]
        exact ⟨_, _, rfl, ⟨h.mech, h.cmech, h.chain, h.pos, h.out, h.max, h.limit⟩⟩
      · right
        rw [if_neg hl]
        exact ⟨_, rfl, ⟨h.mech, h.cmech, h.chain, h.pos, h.out, h.max, fun _ => ⟨by simp only; omega, by simp only; omega⟩⟩,
          fun _ => by simp only; omega⟩
    · right
      rw [if_neg hN]
      exact ⟨_, rfl, ⟨h.mech, h.cmech, h.chain, h.pos, h.out, h.max, h.limit⟩, fun e => absurd e hN⟩
  rcases hcount with ⟨r, o', hc, hA⟩ | ⟨o', hc, hA, hlim⟩
  · left; rw [hc]; exact ⟨_, _, rfl, hA⟩
  · rw [hc]
    simp only
    by_cases hr : room < inp.length
    · left; rw [if_pos hr]; exact ⟨_, _, rfl, hA⟩
    · right
      rw [if_neg hr]
      unfold AesOp.plainUpdate
      by_cases hi : inp.length > 0
      · rw [if_pos hi]
        have hu : o'.ctx.osslUpdate L inp room =
            some (streamXor (ctrKs L cb) fed.length inp, { o'.ctx with pos := fed.length + inp.length }) := by
          unfold Evp.osslUpdate
          have : ¬ room < o'.ctx.bufferSize inp.length := by simpa [Evp.bufferSize, Evp.blockSize, hA.cmech] using hr
          rw [if_neg this]
          simp [Evp.update, hA.cmech, hA.chain, hA.pos]
        rw [hu]
        refine ⟨_, _, rfl, ⟨hA.mech, hA.cmech, hA.chain, by simp, ?_, hA.max, fun hN => ⟨?_, (hA.limit hN).2⟩⟩⟩
        · rw [streamXor_append, hA.out, Nat.zero_add]
        · simp only [List.length_append]; exact hlim hN
      · rw [if_neg hi]
        have : inp = [] := List.length_eq_zero_iff.1 (by omega)
        subst this
        refine ⟨[], _, rfl, by simpa using hA⟩

theorem CtrAlong.query {L : AesLib} {cb fed out : Bytes} {N : Nat} {o : AesOp} (h : CtrAlong L cb N fed out o) (inp : Bytes) :
    ∃ r, aesCall L o (.update inp none) = (r, o) ∧ ∀ b, r ≠ .ok (.data b) := by
  unfold aesCall
  by_cases hf : o.finalized = true
  · rw [if_pos hf]; exact ⟨_, rfl, by simp⟩
  rw [if_neg hf]
  cases he : o.ctx.enc <;> simp [AesOp.encryptionLen, AesOp.decryptionLen, h.mech, aesLen]

theorem CtrAlong.run {L : AesLib} {cb fed out : Bytes} {N : Nat} {o : AesOp} (h : CtrAlong L cb N fed out o) (cs : List AesCall)
    (hu : Spec.updates cs) :
    CtrAlong L cb N (fed ++ Spec.taken cs (aesRun L o cs).1) (out ++ Spec.written (aesRun L o cs).1) (aesRun L o cs).2 := by
  induction cs generalizing o fed out with
  | nil => simpa [aesRun, Spec.taken, Spec.written] using h
  | cons c cs ih =>
    obtain ⟨p, room, rfl⟩ := hu c List.mem_cons_self
    have hu' : Spec.updates cs := fun c hc => hu c (List.mem_cons_of_mem _ hc)
    have hrun : ∀ c, aesRun L o (c :: cs) = ((aesCall L o c).1 :: (aesRun L (aesCall L o c).2 cs).1, (aesRun L (aesCall L o c).2 cs).2) :=
      fun _ => rfl
    rw [hrun]
    cases room with
    | none =>
      obtain ⟨r, hq, hr⟩ := h.query p
      rw [hq]
      have := ih h hu'
      have hw : Spec.written (r :: (aesRun L o cs).1) = Spec.written (aesRun L o cs).1 := by
        cases r with
        | error r => rfl
        | ok a => cases a with
          | data b => exact absurd rfl (hr b)
          | len n => rfl
      simpa [Spec.taken, hw] using this
    | some room =>
      rcases h.call p room with ⟨r, o', hc, hA⟩ | ⟨b, o', hc, hA⟩
      · rw [hc]
        simpa [Spec.taken, Spec.written] using ih hA hu'
      · rw [hc]
        simpa [Spec.taken, Spec.written, List.append_assoc] using ih hA hu'

theorem ctrNew_along {L : AesLib} {bits : Nat} {cb : Bytes} {e : Bool} {o : AesOp} (h : aesNew .ctr (.ctr bits cb) e = .ok o) :
    ∃ N, ctrMaxBlocks bits cb = .ok N ∧ CtrAlong L cb N [] [] o := by
  unfold aesNew aesParams at h
  cases hp : ctrMaxBlocks bits cb with
  | error r => simp [hp] at h
  | ok N =>
    simp only [hp] at h
    cases h
    exact ⟨N, rfl, ⟨rfl, rfl, rfl, rfl, rfl, rfl, fun _ => ⟨by simp, by simp⟩⟩⟩

/-! ## The theorems -/

/-- Encryption and decryption: the bytes written are the bytes accepted combined with the encryptions of the counter blocks. -/
theorem C54_stream (L : AesLib) (bits : Nat) (cb : Bytes) (e : Bool) (o : AesOp) (h : aesNew .ctr (.ctr bits cb) e = .ok o)
    (cs : List AesCall) (hu : Spec.updates cs) :
    Spec.counted L.enc cb (Spec.taken cs (aesRun L o cs).1) (Spec.written (aesRun L o cs).1) := by
  obtain ⟨N, -, hA⟩ := ctrNew_along (L := L) h
  have := (hA.run cs hu).out
  simp only [List.nil_append] at this
  rw [this]
  refine ⟨streamXor_length _ _ _, fun i hi => ?_⟩
  rw [streamXor_getD _ _ _ _ hi, Nat.zero_add]
  rfl

/-- What is decrypted is what was encrypted, whatever the parts of the one and of the other. -/
theorem C54_roundtrip (L : AesLib) (bits bits' : Nat) (cb : Bytes) (o o' : AesOp) (h : aesNew .ctr (.ctr bits cb) true = .ok o)
    (h' : aesNew .ctr (.ctr bits' cb) false = .ok o') (cs cs' : List AesCall) (hu : Spec.updates cs) (hu' : Spec.updates cs')
    (heq : Spec.taken cs' (aesRun L o' cs').1 = Spec.written (aesRun L o cs).1) :
    Spec.written (aesRun L o' cs').1 = Spec.taken cs (aesRun L o cs).1 := by
  obtain ⟨N, -, hA⟩ := ctrNew_along (L := L) h
  obtain ⟨N', -, hA'⟩ := ctrNew_along (L := L) h'
  have h1 := (hA.run cs hu).out
  have h2 := (hA'.run cs' hu').out
  simp only [List.nil_append] at h1 h2
  rw [h2, heq, h1, streamXor_twice]

theorem fromLE_take_succ (r : Bytes) (k : Nat) : fromLE (r.take (k + 1)) = fromLE (r.take k) + (r.getD k 0).toNat * 256 ^ k := by
  induction r generalizing k with
  | nil => simp [fromLE]
  | cons b r ih =>
    cases k with
    | zero => simp [fromLE]
    | succ k =>
      have := ih k
      simp only [List.take_succ_cons, fromLE, this, List.getD_cons_succ, Nat.pow_succ]
      rw [Nat.mul_add]
      have : 256 * ((r.getD k 0).toNat * 256 ^ k) = (r.getD k 0).toNat * (256 ^ k * 256) := by
        rw [Nat.mul_left_comm, Nat.mul_comm 256]
      omega

theorem fromLE_take_mod (r : Bytes) (k : Nat) : fromLE r % 256 ^ k = fromLE (r.take k) := by
  induction r generalizing k with
  | nil => simp [fromLE]
  | cons b r ih =>
    cases k with
    | zero => simp [fromLE, Nat.mod_one]
    | succ k =>
      simp only [List.take_succ_cons, fromLE, ← ih k, Nat.pow_succ]
      have hb : b.toNat < 256 := b.toNat_lt
      have h1 : 256 ^ k * 256 = 256 * 256 ^ k := Nat.mul_comm _ _
      have h2 : (b.toNat + 256 * fromLE r) / 256 = fromLE r := by omega
      rw [h1, Nat.mod_mul, h2]
      omega

theorem ctrSubFull_eq (cb : Bytes) (hcb : cb.length = 16) (k m : Nat) (hk : k ≤ 16) :
    ctrSubFull cb k m = m - fromBE cb % 256 ^ k := by
  unfold fromBE
  rw [fromLE_take_mod]
  induction k with
  | zero => simp [ctrSubFull, fromLE]
  | succ k ih =>
    have hg : cb.getD (15 - k) 0 = cb.reverse.getD k 0 := by
      simp only [List.getD_eq_getElem?_getD]
      rw [List.getElem?_reverse (by omega), hcb]
    have h2 : 2 ^ (8 * k) = 256 ^ k := by rw [Nat.pow_mul]
    rw [ctrSubFull, ih (by omega), fromLE_take_succ, hg, h2]
    omega

/-- The limit, for widths that are a multiple of eight or one more. -/
theorem ctrMaxBlocks_eq (bits : Nat) (cb : Bytes) (N : Nat) (hcb : cb.length = 16) (hb : bits < 128) (h8 : bits % 8 ≤ 1)
    (h : ctrMaxBlocks bits cb = .ok N) : N ≠ 0 ∧ N + fromBE cb % 2 ^ bits + 1 ≤ 2 ^ bits := by
  unfold ctrMaxBlocks at h
  rw [if_pos hb] at h
  simp only at h
  rw [ctrSubFull_eq cb hcb _ _ (by omega)] at h
  have h2 : 2 ^ (8 * (bits / 8)) = 256 ^ (bits / 8) := by rw [Nat.pow_mul]
  have hpos : 0 < 2 ^ bits := Nat.two_pow_pos bits
  by_cases h0 : bits % 8 = 0
  · have hbits : 2 ^ bits = 256 ^ (bits / 8) := by rw [← h2]; congr 1; omega
    rw [h0] at h
    simp only [Nat.lt_irrefl, if_false, gt_iff_lt] at h
    split at h
    · cases h
    · cases h
      rename_i hz
      refine ⟨hz, ?_⟩
      rw [hbits] at hz ⊢
      omega
  · have h1 : bits % 8 = 1 := by omega
    have hbits : 2 ^ bits = 256 ^ (bits / 8) * 2 := by
      rw [← h2, ← Nat.pow_succ]; congr 1; omega
    rw [h1] at h
    simp only [Nat.lt_one_iff, gt_iff_lt, Nat.zero_lt_one, if_true] at h
    have hmod : fromBE cb % 2 ^ bits = fromBE cb % 256 ^ (bits / 8) + ((cb.getD (15 - bits / 8) 0).toNat &&& 1) * 2 ^ (8 * (bits / 8)) := by
      rw [hbits, Nat.mod_mul, h2, Nat.and_one_is_mod]
      have hg : cb.getD (15 - bits / 8) 0 = cb.reverse.getD (bits / 8) 0 := by
        simp only [List.getD_eq_getElem?_getD]
        rw [List.getElem?_reverse (by omega), hcb]
      have hs := fromLE_take_succ cb.reverse (bits / 8)
      have hm1 := fromLE_take_mod cb.reverse (bits / 8 + 1)
      have hm0 := fromLE_take_mod cb.reverse (bits / 8)
      have hp : 256 ^ (bits / 8 + 1) = 256 ^ (bits / 8) * 256 := Nat.pow_succ ..
      rw [hp, Nat.mod_mul, hm0, hs] at hm1
      have hP : 0 < 256 ^ (bits / 8) := Nat.pow_pos (by omega)
      have hd : fromLE cb.reverse / 256 ^ (bits / 8) % 256 = (cb.reverse.getD (bits / 8) 0).toNat := by
        have : 256 ^ (bits / 8) * (fromLE cb.reverse / 256 ^ (bits / 8) % 256) =
            256 ^ (bits / 8) * (cb.reverse.getD (bits / 8) 0).toNat := by
          rw [Nat.mul_comm _ (cb.reverse.getD (bits / 8) 0).toNat]; omega
        exact Nat.eq_of_mul_eq_mul_left hP this
      have hd2 : fromLE cb.reverse / 256 ^ (bits / 8) % 2 = (cb.reverse.getD (bits / 8) 0).toNat % 2 := by omega
      rw [hg]
      unfold fromBE
      rw [hd2, Nat.mul_comm (256 ^ (bits / 8))]
    split at h
    · cases h
    · cases h
      rename_i hz
      refine ⟨hz, ?_⟩
      rw [hmod]
      omega

/-- The bits that do not count are the same for every block: no block of the operation is encrypted under another nonce. -/
theorem C54_nonce_partial (L : AesLib) (bits : Nat) (cb : Bytes) (e : Bool) (o : AesOp) (hcb : cb.length = 16) (hb : bits < 128)
    (h8 : bits % 8 ≤ 1) (h : aesNew .ctr (.ctr bits cb) e = .ok o) (cs : List AesCall) (hu : Spec.updates cs) (i : Nat)
    (hi : i < (Spec.taken cs (aesRun L o cs).1).length) :
    (fromBE cb + i / 16) / 2 ^ bits = fromBE cb / 2 ^ bits := by
  obtain ⟨N, hN, hA⟩ := ctrNew_along (L := L) h
  obtain ⟨hN0, hle⟩ := ctrMaxBlocks_eq bits cb N hcb hb h8 hN
  have hl := (hA.run cs hu).limit hN0
  simp only [List.nil_append] at hl
  have hd := Nat.div_add_mod (fromBE cb) (2 ^ bits)
  have hpos : 0 < 2 ^ bits := Nat.two_pow_pos bits
  have hlt : fromBE cb % 2 ^ bits + i / 16 < 2 ^ bits := by omega
  conv => lhs; rw [← hd, Nat.add_assoc, Nat.mul_add_div hpos, Nat.div_eq_of_lt hlt, Nat.add_zero]

/-! ## Cases and violations -/

/-- A counter block with `n` in its last byte. -/
def exCb (n : UInt8) : Bytes := List.replicate 15 0x11 ++ [n]

/-- The hypotheses are met: a counter of eight bits that starts at 250 takes five blocks and no more. -/
example : ∃ o, aesNew .ctr (.ctr 8 (exCb 250)) true = .ok o ∧
    (Spec.taken [.update (List.replicate 40 1) (some 40), .update (List.replicate 32 1) (some 40), .update [1] (some 1)]
      (aesRun exAesLib o [.update (List.replicate 40 1) (some 40), .update (List.replicate 32 1) (some 40), .update [1] (some 1)]).1).length
      = 72 :=
  ⟨_, rfl, by decide +kernel⟩

/-- A counter of four bits that starts at eleven: all six blocks are encrypted, the sixth with the nonce counted up. -/
theorem C54_nonce_violation :
    ∃ b, aesSession exAesLib .ctr (.ctr 4 (exCb 0x1b)) true [.update (List.replicate 96 0) (some 96)] = some [.ok (.data b)] ∧
      b.drop 80 = exAesLib.enc (exCb 0x20) := by
  refine ⟨Spec.written ((aesSession exAesLib .ctr (.ctr 4 (exCb 0x1b)) true [.update (List.replicate 96 0) (some 96)]).getD []), ?_, ?_⟩ <;>
    decide +kernel

/-- A counter of eight bits that starts at 254 has two values left; C_Encrypt of one block fails. -/
theorem C54_last_violation :
    aesSession exAesLib .ctr (.ctr 8 (exCb 254)) true [.oneShot (List.replicate 16 0) (some 16)] = some [.error .dataLenRange] := by
  decide +kernel

end Kry
