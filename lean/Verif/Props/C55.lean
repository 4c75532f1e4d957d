import Verif.Model.Aes
import Verif.Proofs.Basic

/-!
# C55 — The IVs generated for messages never repeat

In one message encryption operation (C_MessageEncryptInit), with a counter as the generator, no two messages are encrypted under the
same IV.

* `C55_counter_partial`: CKG_GENERATE_COUNTER with the same IV length and the same number of fixed bits in every message, whatever else is in the
  application's buffers.
* `C55_xor_partial`: CKG_GENERATE_COUNTER_XOR when the application puts the same bytes into the buffer before each message.
* `C55_fixed`: the fixed bytes are those of the application.
* `C55_xor_violation`: CKG_GENERATE_COUNTER_XOR with the buffer left as the token wrote it: the fourth message has the IV of the first.
* `C55_fixed_violation`: with other fixed bits after the first message, the limit of the first message stays in force and IVs repeat.
-/

namespace Kry

namespace Spec

/-- No IV occurs twice among the successes. -/
def fresh (rs : List (Res Bytes)) : Prop := rs.Pairwise fun a b => ∀ iv, a = .ok iv → b ≠ .ok iv

end Spec

theorem and_not_mask (x y m : UInt8) : ((x &&& ~~~m) ||| (y &&& m)) &&& m = y &&& m := by
  apply UInt8.toBitVec_inj.1
  simp only [UInt8.toBitVec_and, UInt8.toBitVec_or, UInt8.toBitVec_not]
  ext i hi
  simp
  cases y.toBitVec[i] <;> cases m.toBitVec[i] <;> simp

theorem xor_cancel (x y z : UInt8) (h : x ^^^ y = x ^^^ z) : y = z := by
  have h1 : x ^^^ (x ^^^ y) = y := by rw [← UInt8.xor_assoc]; simp
  have h2 : x ^^^ (x ^^^ z) = z := by rw [← UInt8.xor_assoc]; simp
  rw [← h1, h, h2]

theorem xorBytes_cancel (a x y : Bytes) (hx : a.length = x.length) (hy : a.length = y.length) (h : xorBytes a x = xorBytes a y) :
    x = y := by
  induction a generalizing x y with
  | nil =>
    cases x with
    | nil => cases y with
      | nil => rfl
      | cons v y => simp at hy
    | cons u x => simp at hx
  | cons b a ih =>
    cases x with
    | nil => simp at hx
    | cons u x =>
      cases y with
      | nil => simp at hy
      | cons v y =>
        simp only [xorBytes, List.zipWith_cons_cons, List.cons.injEq] at h
        rw [xor_cancel _ _ _ h.1, ih x y (by simpa using hx) (by simpa using hy) h.2]

/-- The bits of the counter an IV can hold determine the counter. -/
theorem counter_bits (g c c' : Nat) (hg : 0 < g) (h8 : (g + 7) / 8 ≤ 8) (hc : c < 2 ^ g) (hc' : c' < 2 ^ g)
    (h1 : (toBE 8 c).getD (8 - (g + 7) / 8) 0 &&& ivMask g = (toBE 8 c').getD (8 - (g + 7) / 8) 0 &&& ivMask g)
    (h2 : (toBE 8 c).drop (8 - (g + 7) / 8 + 1) = (toBE 8 c').drop (8 - (g + 7) / 8 + 1)) : c = c' := by
  -- on the little-endian side
  have hlt : ∀ x, x < 2 ^ g → x < 256 ^ 8 := by
    intro x hx
    have : 2 ^ g ≤ 2 ^ 64 := Nat.pow_le_pow_right (by omega) (by omega)
    have e : (256 : Nat) ^ 8 = 2 ^ 64 := by decide
    omega
  have hget : ∀ x, (toBE 8 x).getD (8 - (g + 7) / 8) 0 = (toLE 8 x).getD ((g + 7) / 8 - 1) 0 := by
    intro x
    simp only [toBE, List.getD_eq_getElem?_getD]
    rw [List.getElem?_reverse (by simp; omega)]
    congr 2
    simp; omega
  have hdr : ∀ x, (toBE 8 x).drop (8 - (g + 7) / 8 + 1) = ((toLE 8 x).take ((g + 7) / 8 - 1)).reverse := by
    intro x
    simp only [toBE]
    rw [List.drop_reverse]
    congr 2
    simp; omega
  rw [hget, hget] at h1
  rw [hdr, hdr, List.reverse_inj] at h2
  have hnth : ∀ k x j, j < k → ((toLE k x).getD j 0).toNat = x / 256 ^ j % 256 := by
    intro k
    induction k with
    | zero => intro x j hj; omega
    | succ k ih =>
      intro x j hj
      cases j with
      | zero => simp [toLE]
      | succ j =>
        simp only [toLE, List.getD_cons_succ]
        rw [ih (x / 256) j (by omega), Nat.div_div_eq_div_mul, Nat.pow_succ, Nat.mul_comm]
  have htk : ∀ k x j, j ≤ k → fromLE ((toLE k x).take j) = x % 256 ^ j := by
    intro k
    induction k with
    | zero => intro x j hj; have : j = 0 := by omega
              subst this; simp [fromLE, Nat.mod_one]
    | succ k ih =>
      intro x j hj
      cases j with
      | zero => simp [fromLE, Nat.mod_one]
      | succ j =>
        simp only [toLE, List.take_succ_cons, fromLE]
        rw [ih (x / 256) j (by omega), Nat.pow_succ, Nat.mul_comm (256 ^ j), Nat.mod_mul]
        simp
  have hm : c % 256 ^ ((g + 7) / 8 - 1) = c' % 256 ^ ((g + 7) / 8 - 1) := by
    have := congrArg fromLE h2
    rwa [htk 8 c _ (by omega), htk 8 c' _ (by omega)] at this
  have hk : (256 : Nat) ^ ((g + 7) / 8 - 1) = 2 ^ (8 * ((g + 7) / 8 - 1)) := by rw [Nat.pow_mul]
  have hP : 0 < (256 : Nat) ^ ((g + 7) / 8 - 1) := Nat.pow_pos (by omega)
  -- the top byte
  have htop : ∀ x, x < 2 ^ g → x / 256 ^ ((g + 7) / 8 - 1) < 2 ^ (g - 8 * ((g + 7) / 8 - 1)) := by
    intro x hx
    rw [Nat.div_lt_iff_lt_mul hP, hk, ← Nat.pow_add]
    have : g - 8 * ((g + 7) / 8 - 1) + 8 * ((g + 7) / 8 - 1) = g := by omega
    rwa [this]
  have hmask : (ivMask g).toNat = 2 ^ (g - 8 * ((g + 7) / 8 - 1)) - 1 := by
    unfold ivMask
    split
    · have : g - 8 * ((g + 7) / 8 - 1) = 8 := by omega
      rw [this]; rfl
    · have e : g - 8 * ((g + 7) / 8 - 1) = g % 8 := by omega
      rw [e]
      have : 2 ^ (g % 8) ≤ 2 ^ 7 := Nat.pow_le_pow_right (by omega) (by omega)
      simp
      omega
  have hval : ∀ x, x < 2 ^ g → ((toLE 8 x).getD ((g + 7) / 8 - 1) 0 &&& ivMask g).toNat = x / 256 ^ ((g + 7) / 8 - 1) := by
    intro x hx
    rw [UInt8.toNat_and, hnth 8 x _ (by omega), hmask, Nat.and_two_pow_sub_one_eq_mod]
    have h3 := htop x hx
    have h4 : 2 ^ (g - 8 * ((g + 7) / 8 - 1)) ≤ 2 ^ 8 := Nat.pow_le_pow_right (by omega) (by omega)
    rw [Nat.mod_eq_of_lt (by omega : x / 256 ^ ((g + 7) / 8 - 1) < 256), Nat.mod_eq_of_lt h3]
  have hd : c / 256 ^ ((g + 7) / 8 - 1) = c' / 256 ^ ((g + 7) / 8 - 1) := by
    have := congrArg UInt8.toNat h1
    rwa [hval c hc, hval c' hc'] at this
  rw [← Nat.div_add_mod c (256 ^ ((g + 7) / 8 - 1)), ← Nat.div_add_mod c' (256 ^ ((g + 7) / 8 - 1)), hd, hm]

theorem toBE8_inj (c c' : Nat) (hc : c < 2 ^ 64) (hc' : c' < 2 ^ 64) (h : toBE 8 c = toBE 8 c') : c = c' := by
  have e : (256 : Nat) ^ 8 = 2 ^ 64 := by decide
  rw [← fromBE_toBE 8 c (by omega), h, fromBE_toBE 8 c' (by omega)]

/-- Different counters give different IVs, whatever the buffers. -/
theorem ivCounter_inj (buf buf' : Bytes) (fixed c c' : Nat) (hl : buf.length = buf'.length) (hf : fixed < buf.length * 8)
    (hc : c < 2 ^ (buf.length * 8 - fixed)) (hc' : c' < 2 ^ (buf.length * 8 - fixed)) (h64 : c < 2 ^ 64) (h64' : c' < 2 ^ 64)
    (h : ivCounter buf fixed c = ivCounter buf' fixed c') : c = c' := by
  unfold ivCounter at h
  simp only [← hl] at h
  by_cases hg : (buf.length * 8 - fixed + 7) / 8 > 8
  · rw [if_pos hg, if_pos hg] at h
    have := List.append_inj_right' h (by simp [toBE_length])
    exact toBE8_inj c c' h64 h64' this
  · rw [if_neg hg, if_neg hg] at h
    have hd := List.append_inj_right' h (by simp [toBE_length])
    have hl2 := List.append_inj_left' h (by simp [toBE_length])
    have hb := List.append_inj_right' hl2 (by simp)
    simp only [List.cons.injEq, and_true] at hb
    have hb' := congrArg (· &&& ivMask (buf.length * 8 - fixed)) hb
    simp only [and_not_mask] at hb'
    exact counter_bits _ c c' (by omega) (by omega) hc hc' hb' hd

/-- Different counters give different IVs, for the same buffer. -/
theorem ivCounterXor_inj (buf : Bytes) (fixed c c' : Nat) (hf : fixed < buf.length * 8)
    (hc : c < 2 ^ (buf.length * 8 - fixed)) (hc' : c' < 2 ^ (buf.length * 8 - fixed)) (h64 : c < 2 ^ 64) (h64' : c' < 2 ^ 64)
    (h : ivCounterXor buf fixed c = ivCounterXor buf fixed c') : c = c' := by
  unfold ivCounterXor at h
  simp only at h
  by_cases hg : (buf.length * 8 - fixed + 7) / 8 > 8
  · rw [if_pos hg, if_pos hg] at h
    have h1 := List.append_cancel_left h
    exact toBE8_inj c c' h64 h64'
      (xorBytes_cancel _ _ _ (by simp [toBE_length]; omega) (by simp [toBE_length]; omega) h1)
  · rw [if_neg hg, if_neg hg] at h
    have hd := List.append_inj_right h (by simp)
    have hb := List.append_inj_left h (by simp)
    have hb := List.append_cancel_left hb
    simp only [List.cons.injEq, and_true] at hb
    have hd' := xorBytes_cancel _ _ _ (by simp [toBE_length]; omega) (by simp [toBE_length]; omega) hd
    exact counter_bits _ c c' (by omega) (by omega) hc hc' (xor_cancel _ _ _ hb) hd'

/-- The limit for a number of generated bits. -/
def ivMax (genbits : Nat) : Nat := if genbits ≥ 64 then 2 ^ 64 - 1 else 2 ^ genbits

theorem ivMax_lt (g c : Nat) (h : c < ivMax g) : c < 2 ^ g ∧ c < 2 ^ 64 := by
  unfold ivMax at h
  split at h
  · have : 2 ^ 64 ≤ 2 ^ g := Nat.pow_le_pow_right (by omega) (by omega)
    omega
  · have : 2 ^ g ≤ 2 ^ 64 := Nat.pow_le_pow_right (by omega) (by omega)
    omega

/-- A generator of counter kind that gives different IVs for different counters. -/
theorem run_fresh (P : IvReq → Prop) (mk : IvReq → Nat → Bytes) (n fixed : Nat)
    (hP : ∀ q, P q → q.buf.length = n ∧ q.fixed = fixed ∧
      ((q.kind = .counter ∧ mk q = ivCounter q.buf q.fixed) ∨ (q.kind = .counterXor ∧ mk q = ivCounterXor q.buf q.fixed)))
    (hinj : ∀ q q' c c', P q → P q' → fixed < n * 8 → c < 2 ^ (n * 8 - fixed) → c' < 2 ^ (n * 8 - fixed) → c < 2 ^ 64 → c' < 2 ^ 64 →
      mk q c = mk q' c' → c = c')
    (qs : List (IvReq × Bytes)) (hqs : ∀ q ∈ qs, P q.1) (g : IvGen) (hg : g.counter = 0 ∨ g.maxcount = ivMax (n * 8 - fixed)) :
    Spec.fresh (ivRun g qs) ∧
      ∀ iv, .ok iv ∈ ivRun g qs → ∃ q c, P q ∧ iv = mk q c ∧ g.counter ≤ c ∧ c < ivMax (n * 8 - fixed) ∧ fixed < n * 8 := by
  induction qs generalizing g with
  | nil => exact ⟨List.Pairwise.nil, fun iv h => by simp [ivRun] at h⟩
  | cons x qs ih =>
    obtain ⟨q, rnd⟩ := x
    have hq := hqs _ List.mem_cons_self
    have hqs' : ∀ q ∈ qs, P q.1 := fun q h => hqs q (List.mem_cons_of_mem _ h)
    obtain ⟨hn, hfx, hk⟩ := hP _ hq
    -- one message
    have hone : ((∃ r, (ivBegin g q rnd).1 = .error r) ∧ ((ivBegin g q rnd).2.counter = g.counter)
          ∧ ((ivBegin g q rnd).2.counter = 0 ∨ (ivBegin g q rnd).2.maxcount = ivMax (n * 8 - fixed))) ∨
        ((ivBegin g q rnd).1 = .ok (mk q g.counter) ∧ g.counter < ivMax (n * 8 - fixed) ∧ fixed < n * 8 ∧
          (ivBegin g q rnd).2.counter = g.counter + 1 ∧ (ivBegin g q rnd).2.maxcount = ivMax (n * 8 - fixed)) := by
      have hkn : q.kind ≠ .noGen := by intro e; rw [e] at hk; simp at hk
      have hkr : q.kind ≠ .random := by intro e; rw [e] at hk; simp at hk
      unfold ivBegin
      by_cases c1 : q.buf = [] ∨ q.buf.length > 2 ^ 32 - 1
      · left; rw [if_pos c1]; exact ⟨⟨_, rfl⟩, rfl, hg⟩
      rw [if_neg c1]
      by_cases c2 : q.fixed > q.buf.length * 8
      · left; rw [if_pos c2]; exact ⟨⟨_, rfl⟩, rfl, hg⟩
      rw [if_neg c2, if_neg (fun h => hkr h.1)]
      by_cases c3 : q.kind ≠ .noGen ∧ q.buf.length * 8 - q.fixed = 0
      · left; rw [if_pos c3]; exact ⟨⟨_, rfl⟩, rfl, hg⟩
      rw [if_neg c3, if_neg hkn]
      have c4 : q.buf.length * 8 - q.fixed ≠ 0 := fun h => c3 ⟨hkn, h⟩
      unfold generateIv
      rw [hn, hfx] at c4 ⊢
      simp only
      have hmax : ∀ g' : IvGen, g' = (if g.counter = 0 then { g with maxcount := if n * 8 - fixed ≥ 64 then 2 ^ 64 - 1 else 2 ^ (n * 8 - fixed) } else g) →
          g'.counter = g.counter ∧ g'.maxcount = ivMax (n * 8 - fixed) := by
        intro g' e
        by_cases h0 : g.counter = 0
        · rw [if_pos h0] at e; subst e; exact ⟨rfl, rfl⟩
        · rw [if_neg h0] at e; subst e; exact ⟨rfl, by rcases hg with h | h; exact absurd h h0; exact h⟩
      obtain ⟨m1, m2⟩ := hmax _ rfl
      generalize (if g.counter = 0 then ({ g with maxcount := if n * 8 - fixed ≥ 64 then 2 ^ 64 - 1 else 2 ^ (n * 8 - fixed) } : IvGen) else g) = g' at m1 m2 ⊢
      by_cases c5 : g'.counter ≥ g'.maxcount
      · left; rw [if_pos c5]; exact ⟨⟨_, rfl⟩, m1, .inr m2⟩
      · right
        rw [if_neg c5]
        refine (?_ : _ ∧ _)
        rcases hk with ⟨hk, hm⟩ | ⟨hk, hm⟩ <;> rw [hk] <;> simp only [hm, m1] <;>
          exact ⟨by rw [hfx], by omega, by omega, trivial, m2⟩
    have hrun : ivRun g ((q, rnd) :: qs) = (ivBegin g q rnd).1 :: ivRun (ivBegin g q rnd).2 qs := rfl
    rw [hrun]
    generalize ivBegin g q rnd = w at hone ⊢
    obtain ⟨r, g'⟩ := w
    rcases hone with ⟨⟨e, he⟩, h1, h2⟩ | ⟨he, h1, h2, h3, h4⟩
    · simp only at he h1 h2 ⊢
      obtain ⟨i1, i2⟩ := ih hqs' g' h2
      refine ⟨List.Pairwise.cons (fun b _ iv h => by rw [he] at h; cases h) i1, fun iv h => ?_⟩
      rcases List.mem_cons.1 h with h | h
      · rw [he] at h; cases h
      · obtain ⟨q2, c, a1, a2, a3, a4⟩ := i2 iv h
        exact ⟨q2, c, a1, a2, by omega, a4⟩
    · simp only at he h3 h4 ⊢
      obtain ⟨i1, i2⟩ := ih hqs' g' (.inr h4)
      refine ⟨List.Pairwise.cons (fun b hb iv h hb2 => ?_) i1, fun iv h => ?_⟩
      · subst hb2
        rw [he] at h
        cases h
        obtain ⟨q2, c, a1, a2, a3, a4, -⟩ := i2 _ hb
        obtain ⟨l1, l2⟩ := ivMax_lt _ _ h1
        obtain ⟨l3, l4⟩ := ivMax_lt _ _ a4
        have := hinj q q2 g.counter c hq a1 h2 l1 l3 l2 l4 a2
        omega
      · rcases List.mem_cons.1 h with h | h
        · rw [he] at h
          cases h
          exact ⟨q, g.counter, hq, rfl, Nat.le_refl _, h1, h2⟩
        · obtain ⟨q2, c, a1, a2, a3, a4⟩ := i2 iv h
          exact ⟨q2, c, a1, a2, by omega, a4⟩

/-- CKG_GENERATE_COUNTER, the same length and number of fixed bits for all messages, any buffers, any number of messages.
Missing: messages that change these. -/
theorem C55_counter_partial (n fixed : Nat) (qs : List (IvReq × Bytes))
    (h : ∀ q ∈ qs, q.1.buf.length = n ∧ q.1.fixed = fixed ∧ q.1.kind = .counter) : Spec.fresh (ivRun ⟨0, 0⟩ qs) :=
  (run_fresh (fun q => q.buf.length = n ∧ q.fixed = fixed ∧ q.kind = .counter) (fun q => ivCounter q.buf q.fixed) n fixed
    (fun q hq => ⟨hq.1, hq.2.1, .inl ⟨hq.2.2, rfl⟩⟩)
    (fun q q' c c' hq hq' hf a1 a2 a3 a4 e => by
      obtain ⟨h1, h2, -⟩ := hq
      obtain ⟨h3, h4, -⟩ := hq'
      subst h1 h2
      simp only [h4] at e
      exact ivCounter_inj _ _ _ _ _ h3.symm hf a1 a2 a3 a4 e) qs h ⟨0, 0⟩ (.inl rfl)).1

/-- CKG_GENERATE_COUNTER_XOR, the same bytes in the buffer before each message.
Missing: buffers left as the token wrote them (see `C55_xor_violation`). -/
theorem C55_xor_partial (buf : Bytes) (fixed : Nat) (qs : List (IvReq × Bytes)) (h : ∀ q ∈ qs, q.1 = ⟨buf, fixed, .counterXor⟩) :
    Spec.fresh (ivRun ⟨0, 0⟩ qs) :=
  (run_fresh (fun q => q = ⟨buf, fixed, .counterXor⟩) (fun q => ivCounterXor q.buf q.fixed) buf.length fixed
    (fun q hq => by subst hq; exact ⟨rfl, rfl, .inr ⟨rfl, rfl⟩⟩)
    (fun q q' c c' hq hq' hf a1 a2 a3 a4 e => by
      subst hq hq'
      exact ivCounterXor_inj _ _ _ _ hf a1 a2 a3 a4 e) qs h ⟨0, 0⟩ (.inl rfl)).1

/-- The whole bytes among the fixed bits are those the application put into the buffer, whatever the generator, and the IV has the
length asked for. -/
theorem C55_fixed (g g' : IvGen) (q : IvReq) (rnd iv : Bytes) (hr : rnd.length = (q.buf.length * 8 - q.fixed + 7) / 8)
    (h : ivBegin g q rnd = (.ok iv, g')) :
    iv.take (q.fixed / 8) = q.buf.take (q.fixed / 8) ∧ iv.length = q.buf.length := by
  unfold ivBegin at h
  split at h
  · cases h
  split at h
  · cases h
  split at h
  · cases h
  split at h
  · cases h
  split at h
  · cases h; exact ⟨rfl, rfl⟩
  rename_i c1 c2 c3 c4 c5
  have c6 : q.buf.length * 8 - q.fixed ≠ 0 := fun e => c4 ⟨c5, e⟩
  have key : ∀ a b : Bytes, q.fixed / 8 ≤ a.length → a.take (q.fixed / 8) = q.buf.take (q.fixed / 8) → (a ++ b).take (q.fixed / 8) = q.buf.take (q.fixed / 8) :=
    fun a b h1 h2 => by rw [List.take_append_of_le_length h1, h2]
  have htk : (q.buf.take (q.fixed / 8)).take (q.fixed / 8) = q.buf.take (q.fixed / 8) := by rw [List.take_take, Nat.min_self]
  have hlt : (q.buf.take (q.fixed / 8)).length = q.fixed / 8 := by rw [List.length_take]; omega
  unfold generateIv at h
  simp only at h
  generalize (if g.counter = 0 then ({ g with maxcount := if q.buf.length * 8 - q.fixed ≥ 64 then 2 ^ 64 - 1 else 2 ^ (q.buf.length * 8 - q.fixed) } : IvGen) else g) = g1 at h
  split at h
  · cases h
  split at h
  · cases h
  · cases h
    unfold ivCounter
    simp only
    split
    · refine ⟨?_, by simp [toBE_length]; omega⟩
      rw [List.append_assoc, List.append_assoc]
      exact key _ _ (by omega) htk
    · refine ⟨?_, by simp [toBE_length]; omega⟩
      rw [List.append_assoc]
      exact key _ _ (by omega) htk
  · cases h
    unfold ivCounterXor
    simp only
    split
    · refine ⟨?_, by simp [xorBytes, toBE_length]; omega⟩
      exact key _ _ (by simp; omega) (by rw [List.take_take, Nat.min_eq_left (by omega)])
    · refine ⟨?_, by simp [xorBytes, toBE_length]; omega⟩
      rw [List.append_assoc]
      exact key _ _ (by omega) htk
  · cases h
    unfold ivRandom
    simp only
    refine ⟨?_, by simp [hr]; omega⟩
    rw [List.append_assoc]
    exact key _ _ (by omega) htk

/-! ## Cases and violations -/

/-- A series of messages in which the application passes the buffer back as the token left it. -/
def ivLoop (g : IvGen) (buf : Bytes) : List (Nat × IvKind) → List (Res Bytes)
  | [] => []
  | (fixed, kind) :: ks =>
    match ivBegin g ⟨buf, fixed, kind⟩ [] with
    | (.ok iv, g) => .ok iv :: ivLoop g iv ks
    | (.error r, g) => .error r :: ivLoop g buf ks

/-- Twelve bytes. -/
def exIv12 : Bytes := [1, 2, 3, 4, 5, 6, 7, 8, 0, 0, 0, 0]

/-- The hypotheses of `C55_counter_partial` are met; 100 fixed bits leave no room, 92 leave room for sixteen messages. -/
example : (ivRun ⟨0, 0⟩ ((List.range 20).map fun i => (⟨UInt8.ofNat i :: exIv12.drop 1, 92, .counter⟩, []))).map (fun r => r.toOption.isSome) =
    List.replicate 16 true ++ List.replicate 4 false := by decide +kernel

/-- CKG_GENERATE_COUNTER_XOR with the buffer as the token left it: the first and the fourth IV are the same. -/
theorem C55_xor_violation :
    (ivLoop ⟨0, 0⟩ exIv12 [(64, .counterXor), (64, .counterXor), (64, .counterXor), (64, .counterXor)])[0]? = some (.ok exIv12) ∧
    (ivLoop ⟨0, 0⟩ exIv12 [(64, .counterXor), (64, .counterXor), (64, .counterXor), (64, .counterXor)])[3]? = some (.ok exIv12) := by
  constructor <;> decide +kernel

/-- CKG_GENERATE_COUNTER with 64 fixed bits in the first message and 95 afterwards: the second and the fourth IV are the same. -/
theorem C55_fixed_violation : ∃ iv,
    (ivLoop ⟨0, 0⟩ exIv12 [(64, .counter), (95, .counter), (95, .counter), (95, .counter)])[1]? = some (.ok iv) ∧
    (ivLoop ⟨0, 0⟩ exIv12 [(64, .counter), (95, .counter), (95, .counter), (95, .counter)])[3]? = some (.ok iv) := by
  refine ⟨[1, 2, 3, 4, 5, 6, 7, 8, 0, 0, 0, 1], ?_, ?_⟩ <;> decide +kernel

end Kry
