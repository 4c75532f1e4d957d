import Verif.Model.Hmac

/-!
# C50: HMAC

`C50_multi`: however the data is cut into updates, the output is the RFC 2104 value of the concatenation, truncated to the requested
length.  `C50_oneshot`, `C50_verify`, `C50_verifySig`: the other calls.  `C50_reset`: a reset operation starts again from the beginning.
`C50_after`: nothing more can be done after the end.
-/

namespace Kry
namespace Spec

/-- RFC 2104 over hash `a`. -/
def hmac (a : HashAlg) (key msg : Bytes) : Bytes :=
  let k := if key.length > a.blen then a.h key else key
  let k0 := k ++ List.replicate (a.blen - k.length) 0
  a.h (k0.map (· ^^^ 0x5c) ++ a.h (k0.map (· ^^^ 0x36) ++ msg))

/-- What is assumed of a hash: its outputs have its size, which fits a block, which fits the buffers of the source
(`MAX_BSZ`; the largest block is that of SHA3-224, 144 bytes). -/
structure HashOk (a : HashAlg) : Prop where
  size : ∀ m, (a.h m).length = a.hlen
  fits : a.hlen ≤ a.blen
  max : a.blen ≤ MAX_BSZ

end Spec

open Spec

theorem xor_rep (n : Nat) (c : UInt8) (l : Bytes) (h : l.length = n) :
    List.zipWith (· ^^^ ·) (List.replicate n c) l = l.map (· ^^^ c) := by
  induction l generalizing n with
  | nil => subst h; rfl
  | cons b l ih =>
    cases n with
    | zero => cases h
    | succ n =>
      simp only [List.replicate_succ, List.zipWith_cons_cons, List.map_cons]
      rw [ih n (by simpa using h), UInt8.xor_comm]

/-- The key as the algorithm uses it. -/
def keyBlock (a : HashAlg) (key : Bytes) : Bytes :=
  let k := if key.length > a.blen then a.h key else key
  k ++ List.replicate (a.blen - k.length) 0

theorem keyBlock_length {a : HashAlg} (ha : HashOk a) (key : Bytes) : (keyBlock a key).length = a.blen := by
  unfold keyBlock
  have := ha.size key
  have := ha.fits
  simp only [List.length_append, List.length_replicate]
  split <;> omega

/-- What holds between the calls: `msg` was fed so far. -/
structure Fed (a : HashAlg) (key : Bytes) (n : Nat) (msg : Bytes) (o : Hmac) : Prop where
  alg : o.alg = a
  keyIs : o.key = key
  outlen : o.outlen = n
  fin : o.fin = false
  state : o.state.length = MAX_BSZ
  opad : o.opad.take a.blen = (keyBlock a key).map (· ^^^ 0x5c)
  inner : o.inner = (keyBlock a key).map (· ^^^ 0x36) ++ msg

theorem fed_init {a : HashAlg} (ha : HashOk a) (key : Bytes) (n : Nat) (b : Bytes) (c d : Bool) (s : Option Bytes) (hc : c = false) :
    Fed a key n [] (Hmac.init ⟨a, key, n, List.replicate MAX_BSZ 0, List.replicate MAX_BSZ 0x36, List.replicate MAX_BSZ 0x5c, b, c, d, s⟩) := by
  have hm := ha.max
  have hs := ha.size key
  have hf := ha.fits
  have st : (if key.length ≤ a.blen then overwrite key (List.replicate MAX_BSZ 0) else overwrite (a.h key) (List.replicate MAX_BSZ 0)) =
      keyBlock a key ++ List.replicate (MAX_BSZ - a.blen) 0 := by
    unfold keyBlock overwrite
    by_cases hk : key.length ≤ a.blen
    · rw [if_pos hk, if_neg (by omega), List.append_assoc, List.drop_replicate, List.replicate_append_replicate]
      congr 2; omega
    · rw [if_neg hk, if_pos (by omega), List.append_assoc, List.drop_replicate, List.replicate_append_replicate]
      congr 2; omega
  have hl := keyBlock_length ha key
  have pad : ∀ c : UInt8, (xorFirst a.blen (List.replicate MAX_BSZ c) (keyBlock a key ++ List.replicate (MAX_BSZ - a.blen) 0)).take a.blen =
      (keyBlock a key).map (· ^^^ c) := by
    intro c
    unfold xorFirst
    rw [List.take_replicate, Nat.min_eq_left hm, List.take_append_of_le_length (by omega : a.blen ≤ (keyBlock a key).length),
      List.take_of_length_le (by omega : (keyBlock a key).length ≤ a.blen), xor_rep _ _ _ hl, List.take_append_of_le_length (by simp [hl]),
      List.take_of_length_le (by simp [hl])]
  unfold Hmac.init
  simp only [st, pad]
  exact ⟨rfl, rfl, rfl, hc, by simp [hl]; omega, pad _, by simp⟩

theorem fed_internal {a : HashAlg} (ha : HashOk a) (key : Bytes) (n : Nat) : Fed a key n [] (Hmac.internal a key n) :=
  fed_init ha key n _ _ _ _ rfl

theorem fed_update {a : HashAlg} {key : Bytes} {n : Nat} {msg : Bytes} {o : Hmac} (h : Fed a key n msg o) (d : Bytes) :
    (o.update d).1 = .ok () ∧ Fed a key n (msg ++ d) (o.update d).2 := by
  unfold Hmac.update
  rw [if_neg (by rw [h.fin]; simp)]
  exact ⟨rfl, h.alg, h.keyIs, h.outlen, h.fin, h.state, h.opad, by rw [h.inner, List.append_assoc]⟩

theorem fed_feed {a : HashAlg} {key : Bytes} {n : Nat} {msg : Bytes} {o : Hmac} (h : Fed a key n msg o) (l : List Bytes) :
    (o.feed l).1 = .ok () ∧ Fed a key n (msg ++ l.flatten) (o.feed l).2 := by
  induction l generalizing msg o with
  | nil => exact ⟨rfl, by rw [List.flatten_nil, List.append_nil]; exact h⟩
  | cons d l ih =>
    obtain ⟨h1, h2⟩ := fed_update h d
    unfold Hmac.feed
    generalize o.update d = p at h1 h2
    obtain ⟨r, o1⟩ := p
    simp only at h1 h2
    subst h1
    simp only
    have := ih h2
    rwa [List.append_assoc] at this

theorem fed_final {a : HashAlg} (ha : HashOk a) {key : Bytes} {n : Nat} (hn : n ≤ a.hlen) {msg : Bytes} {o : Hmac} (h : Fed a key n msg o) :
    (o.finalize n).1 = .ok ((hmac a key msg).take n) ∧ (o.finalize n).2.fin = true ∧ (o.finalize n).2.sig = o.sig := by
  unfold Hmac.finalize
  rw [if_neg (by rw [h.fin]; simp)]
  simp only [h.outlen, h.alg, h.opad, h.inner]
  rw [if_neg (by simp)]
  refine ⟨?_, rfl, rfl⟩
  have e1 : (overwrite (a.h ((keyBlock a key).map (· ^^^ 0x36) ++ msg)) o.state).take a.hlen = a.h ((keyBlock a key).map (· ^^^ 0x36) ++ msg) := by
    unfold overwrite
    rw [List.take_append_of_le_length (by rw [ha.size]; omega), List.take_of_length_le (by rw [ha.size]; omega)]
  rw [e1]
  simp only
  congr 1
  show List.take n (overwrite _ _) = _
  have e2 : hmac a key msg = a.h ((keyBlock a key).map (· ^^^ 0x5c) ++ a.h ((keyBlock a key).map (· ^^^ 0x36) ++ msg)) := rfl
  rw [e2]
  generalize hz : a.h ((keyBlock a key).map (· ^^^ 0x5c) ++ a.h ((keyBlock a key).map (· ^^^ 0x36) ++ msg)) = z
  have hl : z.length = a.hlen := by rw [← hz]; exact ha.size _
  unfold overwrite
  rw [List.take_append_of_le_length (by omega)]

/-- However the data is cut into updates, and whatever the length of the key: the output is the RFC 2104 value, truncated. -/
theorem C50_multi {a : HashAlg} (ha : HashOk a) (key : Bytes) (n : Nat) (hn : n ≤ a.hlen) (parts : List Bytes) :
    ((Hmac.internal a key n).feed parts).1 = .ok () ∧
      (((Hmac.internal a key n).feed parts).2.finalize n).1 = .ok ((hmac a key parts.flatten).take n) := by
  obtain ⟨h1, h2⟩ := fed_feed (fed_internal ha key n) parts
  exact ⟨h1, (fed_final ha hn h2).1⟩

/-- In one call. -/
theorem C50_oneshot {a : HashAlg} (ha : HashOk a) (key msg : Bytes) (n : Nat) (hn : n ≤ a.hlen) :
    ((Hmac.internal a key n).mac msg n).1 = .ok ((hmac a key msg).take n) := by
  obtain ⟨h1, h2⟩ := fed_update (fed_internal ha key n) msg
  unfold Hmac.mac Hmac.start
  rw [if_neg (by simp [Hmac.internal, Hmac.init])]
  simp only
  generalize (Hmac.internal a key n).update msg = p at h1 h2 ⊢
  obtain ⟨r, o⟩ := p
  simp only at h1 h2 ⊢
  subst h1
  exact (fed_final ha hn h2).1

/-- Verification accepts exactly the truncated RFC 2104 value of what was fed. -/
theorem C50_verify {a : HashAlg} (ha : HashOk a) (key : Bytes) (n : Nat) (hn : n ≤ a.hlen) (parts : List Bytes) (s : Bytes) :
    (((Hmac.internal a key n).feed parts).2.verifyFinal s).1 =
      if s = (hmac a key parts.flatten).take n then .ok () else .error .signatureInvalid := by
  obtain ⟨h1, h2⟩ := fed_feed (fed_internal ha key n) parts
  generalize ((Hmac.internal a key n).feed parts).2 = o at h2
  have f := (fed_final ha hn h2).1
  rw [List.nil_append] at f
  unfold Hmac.verifyFinal
  rw [h2.outlen]
  generalize o.finalize n = p at f
  obtain ⟨r, o1⟩ := p
  simp only at f
  subst f
  simp only
  by_cases h : s = List.take n (hmac a key parts.flatten)
  · rw [if_pos h.symm, if_pos h]
  · rw [if_neg (Ne.symm h), if_neg h]

/-- With the signature given at the start. -/
theorem C50_verifySig {a : HashAlg} (ha : HashOk a) (key : Bytes) (n : Nat) (hn : n ≤ a.hlen) (parts : List Bytes) (s : Bytes) :
    if s.length = n then ∃ o, Hmac.new a key n (some s) = .ok o ∧ (o.feed parts).1 = .ok () ∧
        ((o.feed parts).2.verifySigFinal).1 = if s = (hmac a key parts.flatten).take n then .ok () else .error .signatureInvalid
    else Hmac.new a key n (some s) = .error .signatureLenRange := by
  split
  · rename_i hs
    refine ⟨{ Hmac.internal a key n with sig := some s }, by unfold Hmac.new; simp only [hs]; rw [if_neg (fun h => h rfl)], ?_⟩
    have h0 : Fed a key n [] { Hmac.internal a key n with sig := some s } := by
      obtain ⟨h1, h2, h3, h4, h5, h6, h7⟩ := fed_internal ha key n
      exact ⟨h1, h2, h3, h4, h5, h6, h7⟩
    obtain ⟨h1, h2⟩ := fed_feed h0 parts
    have sg : ∀ (l : List Bytes) (o : Hmac), (o.feed l).2.sig = o.sig := by
      intro l
      induction l with
      | nil => intro o; rfl
      | cons d l ih =>
        intro o
        unfold Hmac.feed Hmac.update
        by_cases hb : o.fin = true
        · simp [hb]
        · simp only [if_neg hb, ih]
    refine ⟨h1, ?_⟩
    have sg := sg parts { Hmac.internal a key n with sig := some s }
    generalize (Hmac.feed _ parts).2 = o at h2 sg ⊢
    have f := fed_final ha hn h2
    rw [List.nil_append] at f
    unfold Hmac.verifySigFinal
    rw [h2.outlen]
    generalize o.finalize n = p at f
    obtain ⟨r, o1⟩ := p
    obtain ⟨f1, f2, f3⟩ := f
    simp only at f1 f3
    subst f1
    simp only [f3, sg]
    by_cases h : s = List.take n (hmac a key parts.flatten)
    · rw [if_pos h.symm, if_pos h]
    · rw [if_neg (Ne.symm h), if_neg h]
  · rename_i hs
    unfold Hmac.new
    simp only [if_pos hs]

/-- A reset operation is a new one, wherever it was. -/
theorem C50_reset {a : HashAlg} (ha : HashOk a) (o : Hmac) (key : Bytes) (n : Nat) (hn : n ≤ a.hlen) (h1 : o.alg = a) (h2 : o.key = key)
    (h3 : o.outlen = n) (parts : List Bytes) :
    (o.reinit.feed parts).1 = .ok () ∧ ((o.reinit.feed parts).2.finalize n).1 = .ok ((hmac a key parts.flatten).take n) := by
  have h0 : Fed a key n [] o.reinit := by
    unfold Hmac.reinit
    rw [h1, h2, h3]
    exact fed_init ha key n _ _ _ _ rfl
  obtain ⟨g1, g2⟩ := fed_feed h0 parts
  exact ⟨g1, (fed_final ha hn g2).1⟩

/-- After the end nothing is accepted and nothing is given out, for any operation. -/
theorem C50_after (o : Hmac) (n m : Nat) (d : Bytes) :
    ((o.finalize n).2.finalize m).1 = .error .operationNotInitialized ∧
      ((o.finalize n).2.update d).1 = .error .operationNotInitialized ∧ ∃ r, ((o.finalize n).2.mac d m).1 = .error r := by
  have hf : (o.finalize n).2.fin = true := by
    unfold Hmac.finalize
    by_cases hb : o.fin = true
    · rw [if_pos hb]; exact hb
    · rw [if_neg hb]
      simp only
      split <;> rfl
  generalize (o.finalize n).2 = p at hf
  refine ⟨by unfold Hmac.finalize; rw [if_pos hf], by unfold Hmac.update; rw [if_pos hf], ?_⟩
  unfold Hmac.mac
  split
  · exact ⟨_, rfl⟩
  · unfold Hmac.update; rw [if_pos hf]; exact ⟨_, rfl⟩

/-- A toy hash meets the assumptions: two bytes, blocks of four. -/
def exHash : HashAlg :=
  ⟨fun m => [UInt8.ofNat (m.foldl (fun s b => s * 31 + b.toNat) 7), UInt8.ofNat m.length], 2, 4⟩

theorem exHash_ok : HashOk exHash := ⟨fun _ => rfl, by decide, by decide⟩

/-- Short and long keys, data in three parts, one of them empty. -/
example : ((Hmac.internal exHash [1, 2] 2).feed [[5], [], [6, 7]]).1 = .ok () ∧
    (((Hmac.internal exHash [1, 2, 3, 4, 5] 1).feed [[5], [], [6, 7]]).2.finalize 1).1 =
      .ok ((Spec.hmac exHash [1, 2, 3, 4, 5] [5, 6, 7]).take 1) ∧
    Spec.hmac exHash [1, 2] [5, 6, 7] ≠ Spec.hmac exHash [1, 2] [5, 6] := by decide +kernel

end Kry
