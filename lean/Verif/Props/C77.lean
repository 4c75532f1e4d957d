import Verif.Model.Ecdsa
import Verif.Proofs.Der

/-! C77: ECDSA signatures.

PKCS#11 signatures are the two numbers in fixed width; OpenSSL's are DER.  The conversions are inverse to each other and change no number.  A signature made is
accepted; one that is accepted has the exact length and was accepted by OpenSSL for exactly its two numbers; parts and the whole give the same. -/

namespace Kry

namespace Spec

/-- The DER signature with the numbers `r` and `s`. -/
def DerSig (r s : Nat) (d : Bytes) : Prop := ∃ x y, bigUintOk x = true ∧ bigUintOk y = true ∧ fromBE x = r ∧ fromBE y = s ∧ d = derTlv 0x30 (derTlv 2 x ++ derTlv 2 y)

/-- The two numbers in `n` bytes each. -/
def RawSig (n r s : Nat) (sig : Bytes) : Prop := sig = toBE n r ++ toBE n s ∧ r < 256 ^ n ∧ s < 256 ^ n

end Spec

theorem fromBE_replicate (k : Nat) (b : Bytes) : fromBE (List.replicate k 0 ++ b) = fromBE b := by
  induction k with
  | zero => rfl
  | succ k ih => rw [List.replicate_succ, List.cons_append, fromBE_zero, ih]

theorem toBE_pad {b : Bytes} {n : Nat} (h : b.length ≤ n) : toBE n (fromBE b) = List.replicate (n - b.length) 0 ++ b := by
  have := toBE_fromBE_all (List.replicate (n - b.length) 0 ++ b)
  rw [fromBE_replicate] at this
  rw [List.length_append, List.length_replicate, Nat.sub_add_cancel h] at this
  exact this

theorem nopad_drop (b : Bytes) : b.drop (b.length - (nopad b).length) = nopad b := by
  induction b with
  | nil => rfl
  | cons x b ih =>
    by_cases h : x = 0
    · subst h
      rw [nopad_zero]
      have := nopad_len b
      rw [List.length_cons, show b.length + 1 - (nopad b).length = (b.length - (nopad b).length) + 1 by omega, List.drop_succ_cons, ih]
    · rw [nopad_cons h]; simp

theorem nopad_lt {b : Bytes} {n : Nat} (h : fromBE b < 256 ^ n) : (nopad b).length ≤ n := by
  cases hb : nopad b with
  | nil => exact Nat.zero_le _
  | cons x r =>
    have := nopad_ge b x r hb
    have : 256 ^ r.length < 256 ^ n := Nat.lt_of_le_of_lt this h
    exact (Nat.pow_lt_pow_iff_right (by omega)).1 this

/-- A DER number is determined by its bytes without padding. -/
def canonInt (b : Bytes) : Bytes := match b with
  | [] => [0]
  | x :: r => if 128 ≤ x.toNat then 0 :: x :: r else x :: r

theorem bigUint_canon {x : Bytes} (h : bigUintOk x = true) : x = canonInt (nopad x) := by
  match x with
  | [a] =>
    have ha : a.toNat < 128 := by simpa [bigUintOk] using h
    by_cases hz : a = 0
    · subst hz; rfl
    · rw [nopad_cons hz, canonInt, if_neg (by omega)]
  | a :: b :: r =>
    simp only [bigUintOk, Bool.and_eq_true, decide_eq_true_eq, Bool.not_eq_true', Bool.and_eq_false_iff, beq_eq_false_iff_ne, decide_eq_false_iff_not] at h
    by_cases hz : a = 0
    · subst hz
      have hb : 128 ≤ b.toNat := by
        rcases h.2 with h | h
        · exact absurd rfl h
        · omega
      have hb0 : b ≠ 0 := by intro e; subst e; revert hb; decide
      rw [nopad_zero, nopad_cons hb0, canonInt, if_pos hb]
    · rw [nopad_cons hz, canonInt, if_neg (by omega)]

theorem bigUint_unique {x y : Bytes} (hx : bigUintOk x = true) (hy : bigUintOk y = true) (h : fromBE x = fromBE y) : x = y := by
  rw [bigUint_canon hx, bigUint_canon hy, nopad_unique h]

theorem bigUint_zero {x : Bytes} (h : bigUintOk x = true) (hz : nopad x = []) : x.length = 1 := by
  rw [bigUint_canon h, hz]; rfl

theorem sigHalf_ok {h : Bytes} {n : Nat} (hok : bigUintOk h = true) (hn : 0 < n) (hv : fromBE h < 256 ^ n) : sigHalf h n = .ok (toBE n (fromBE h)) := by
  unfold sigHalf
  simp only
  by_cases hl : n < h.length
  · rw [if_pos hl]
    have h1 := nopad_lt hv
    have h2 : (nopad h).length ≠ 0 := by
      intro hz
      have := bigUint_zero hok (List.eq_nil_of_length_eq_zero hz)
      omega
    rw [if_neg (by omega), nopad_drop, ← nopad_num h, toBE_pad h1]
  · rw [if_neg hl, if_neg (by omega), Nat.sub_self, List.drop_zero, toBE_pad (by omega)]

theorem sigHalf_large {h : Bytes} {n : Nat} (hv : 256 ^ n ≤ fromBE h) : sigHalf h n = .error .generalError := by
  have h1 : n < (nopad h).length := by
    have h2 := fromBE_lt (nopad h)
    rw [nopad_num] at h2
    exact (Nat.pow_lt_pow_iff_right (a := 256) (by omega)).1 (Nat.lt_of_le_of_lt hv h2)
  have h2 := nopad_len h
  unfold sigHalf
  simp only
  have h3 : n < h.length := by omega
  rw [if_pos h3, if_pos ⟨h3, .inr h1⟩]

theorem parseEcdsa_write {x y : Bytes} (hx : bigUintOk x = true) (hy : bigUintOk y = true) (hl : (derTlv 0x30 (derTlv 2 x ++ derTlv 2 y)).length < 2 ^ 32) :
    parseEcdsa (derTlv 0x30 (derTlv 2 x ++ derTlv 2 y)) = .ok (x, y) := by
  have h0 := derTlv_len 0x30 (derTlv 2 x ++ derTlv 2 y)
  have h1 := derTlv_len 2 x
  have h2 := derTlv_len 2 y
  have h3 : (derTlv 2 x ++ derTlv 2 y).length = (derTlv 2 x).length + (derTlv 2 y).length := List.length_append
  unfold parseEcdsa derSeq
  have := derField_tlv 0x30 (by decide) (derTlv 2 x ++ derTlv 2 y) [] (by omega)
  rw [List.append_nil] at this
  rw [this]
  simp only [if_true]
  have := uintField_int hx (derTlv 2 y) (by omega)
  unfold derInt at this
  rw [this]
  simp only
  have := uintField_int hy [] (by omega)
  unfold derInt at this
  rw [List.append_nil] at this
  rw [this]
  simp

/-- **C77 (to PKCS#11).**  A DER signature becomes the two numbers in `n` bytes each when they fit, and is refused otherwise. -/
theorem C77_to_raw (d : Bytes) (r s n : Nat) (h : Spec.DerSig r s d) (hn : 0 < n) (hl : d.length < 2 ^ 32) :
    (r < 256 ^ n → s < 256 ^ n → ecdsaToRaw d (2 * n) = .ok (toBE n r ++ toBE n s)) ∧ (256 ^ n ≤ r ∨ 256 ^ n ≤ s → ecdsaToRaw d (2 * n) = .error .generalError) := by
  obtain ⟨x, y, hx, hy, rfl, rfl, rfl⟩ := h
  have e1 : 2 * n / 2 = n := by omega
  have e2 : 2 * n - n = n := by omega
  have hp := parseEcdsa_write hx hy hl
  refine ⟨fun hr hs => ?_, fun hrs => ?_⟩
  · unfold ecdsaToRaw
    rw [hp]
    simp only [Der.toRes, e1, e2]
    rw [sigHalf_ok hx hn hr, sigHalf_ok hy hn hs]
  · unfold ecdsaToRaw
    rw [hp]
    simp only [Der.toRes, e1, e2]
    by_cases hr : 256 ^ n ≤ fromBE x
    · rw [sigHalf_large hr]
    · rw [sigHalf_ok hx hn (by omega), sigHalf_large (hrs.resolve_left hr)]

/-- **C77 (to DER).**  A PKCS#11 signature of two halves of `n` bytes becomes the DER signature with the numbers of the halves. -/
theorem C77_to_der (sig : Bytes) (n : Nat) (hn : 0 < n) (hs : sig.length = 2 * n) :
    ∃ d, ecdsaToDer sig = .ok d ∧ Spec.DerSig (fromBE (sig.take n)) (fromBE (sig.drop n)) d ∧ Spec.RawSig n (fromBE (sig.take n)) (fromBE (sig.drop n)) sig := by
  have e1 : sig.length / 2 = n := by omega
  have l1 : (sig.take n).length = n := by rw [List.length_take]; omega
  have l2 : (sig.drop n).length = n := by rw [List.length_drop]; omega
  obtain ⟨x, hx⟩ := derUint_total (sig.take n) (by intro h; rw [h] at l1; simp at l1; omega)
  obtain ⟨y, hy⟩ := derUint_total (sig.drop n) (by intro h; rw [h] at l2; simp at l2; omega)
  obtain ⟨x1, x2, _⟩ := derUint_facts hx
  obtain ⟨y1, y2, _⟩ := derUint_facts hy
  refine ⟨_, ?_, ⟨x, y, x1, y1, x2, y2, rfl⟩, ?_, ?_, ?_⟩
  · unfold ecdsaToDer
    rw [e1, hx]
    simp only
    rw [hy]
    rfl
  · have a := toBE_fromBE_all (sig.take n)
    have b := toBE_fromBE_all (sig.drop n)
    rw [l1] at a; rw [l2] at b
    rw [a, b, List.take_append_drop]
  · have := fromBE_lt (sig.take n); rw [l1] at this; exact this
  · have := fromBE_lt (sig.drop n); rw [l2] at this; exact this

theorem derUint_len {b d : Bytes} (h : derUint b = .ok d) : d.length ≤ b.length + 1 := by
  cases b with
  | nil => cases h
  | cons x r =>
    rw [(derUint_cons x r).1] at h
    injection h with h; subst h
    unfold derUintData
    split
    · exact Nat.le_refl _
    · have : ∀ (k : Nat) (b : Bytes), b.length ≤ k → (skipZeros b).length ≤ b.length := by
        intro k
        induction k with
        | zero => intro b hb; cases b with
          | nil => exact Nat.le_refl _
          | cons x b => simp at hb
        | succ k ih =>
          intro b hb
          match b with
          | [] => exact Nat.le_refl _
          | [x] => exact Nat.le_refl _
          | x :: y :: r =>
            rw [skipZeros]
            split
            · exact Nat.le_trans (ih (y :: r) (by simp only [List.length_cons] at hb ⊢; omega)) (by simp)
            · exact Nat.le_refl _
      exact Nat.le_trans (this _ (x :: r) (Nat.le_refl _)) (Nat.le_succ _)

theorem derLen_small {n : Nat} (h : n < 128) : (derLen n).length = 1 := by unfold derLen; rw [if_pos h]; rfl

theorem derLen_256 {n : Nat} (h : n < 256) : (derLen n).length ≤ 2 := by
  unfold derLen
  split
  · simp
  · have : (nopad (toBE 8 n)).length ≤ 1 := nopad_lt (by rw [fromBE_toBE 8 n (by omega)]; simpa using h)
    show (nopad (toBE 8 n)).length + 1 ≤ 2
    omega

/-- **C77 (room).**  For halves of at most 124 bytes (the curves have at most 66) the DER form is at most 10 bytes longer: the buffer of `sign_final` is enough. -/
theorem C77_fits (d : Bytes) (r s n : Nat) (hn : 0 < n) (h124 : n ≤ 124) (h : Spec.DerSig r s d) (hr : r < 256 ^ n) (hs : s < 256 ^ n) : d.length ≤ 2 * n + 10 := by
  have int : ∀ x : Bytes, bigUintOk x = true → fromBE x < 256 ^ n → (derTlv 2 x).length ≤ n + 3 := by
    intro x hx hv
    have h1 := nopad_lt hv
    have h2 : x.length ≤ n + 1 := by
      rw [bigUint_canon hx]
      unfold canonInt
      cases hc : nopad x with
      | nil => simp only [List.length_singleton]; omega
      | cons a r =>
        rw [hc, List.length_cons] at h1
        simp only
        split <;> simp only [List.length_cons] <;> omega
    unfold derTlv
    rw [List.length_cons, List.length_append, derLen_small (by omega)]
    omega
  obtain ⟨x, y, hx, hy, rfl, rfl, rfl⟩ := h
  have h1 := int x hx hr
  have h2 := int y hy hs
  unfold derTlv at h1 h2 ⊢
  rw [List.length_cons, List.length_append]
  have h3 : (2 :: (derLen x.length ++ x) ++ 2 :: (derLen y.length ++ y)).length ≤ 2 * n + 6 := by rw [List.length_append]; omega
  have := derLen_256 (n := (2 :: (derLen x.length ++ x) ++ 2 :: (derLen y.length ++ y)).length) (by omega)
  omega

/-- **C77 (there and back).**  A PKCS#11 signature converted to DER and back is the same; so different signatures of one length stay different. -/
theorem C77_back (sig d : Bytes) (n : Nat) (hn : 0 < n) (hs : sig.length = 2 * n) (h : ecdsaToDer sig = .ok d) (hl : d.length < 2 ^ 32) : ecdsaToRaw d (2 * n) = .ok sig := by
  obtain ⟨d', h1, h2, h3, h4, h5⟩ := C77_to_der sig n hn hs
  rw [h] at h1; injection h1 with h1
  subst h1
  rw [(C77_to_raw d _ _ n h2 hn hl).1 h4 h5, ← h3]

/-- **C77 (back and there).**  A DER signature whose numbers fit, converted to PKCS#11 form and back, is the same. -/
theorem C77_forth (d sig : Bytes) (r s n : Nat) (hn : 0 < n) (h : Spec.DerSig r s d) (hl : d.length < 2 ^ 32) (hc : ecdsaToRaw d (2 * n) = .ok sig) :
    sig.length = 2 * n ∧ ecdsaToDer sig = .ok d := by
  obtain ⟨h1, h2⟩ := C77_to_raw d r s n h hn hl
  by_cases hr : r < 256 ^ n
  · by_cases hs : s < 256 ^ n
    · rw [h1 hr hs] at hc
      injection hc with hc
      subst hc
      have hlen : (toBE n r ++ toBE n s).length = 2 * n := by rw [List.length_append, toBE_length, toBE_length]; omega
      refine ⟨hlen, ?_⟩
      obtain ⟨d', g1, ⟨x', y', gx, gy, gr, gs, gd⟩, _⟩ := C77_to_der _ n hn hlen
      obtain ⟨x, y, hx, hy, hrx, hsy, hd⟩ := h
      have t1 : (toBE n r ++ toBE n s).take n = toBE n r := by
        have := List.take_left (l₁ := toBE n r) (l₂ := toBE n s); rw [toBE_length] at this; exact this
      have t2 : (toBE n r ++ toBE n s).drop n = toBE n s := by
        have := List.drop_left (l₁ := toBE n r) (l₂ := toBE n s); rw [toBE_length] at this; exact this
      rw [t1, fromBE_toBE n r hr] at gr
      rw [t2, fromBE_toBE n s hs] at gs
      rw [g1, gd, hd, bigUint_unique hx gx (by rw [hrx, gr]), bigUint_unique hy gy (by rw [hsy, gs])]
    · rw [h2 (.inr (by omega))] at hc; cases hc
  · rw [h2 (.inl (by omega))] at hc; cases hc

/-! ## The operation -/

/-- A context that was just made. -/
def freshEcdsa (o : EcdsaOp) : Prop := o.inUse = false ∧ o.finalized = false ∧ o.data = []

theorem new_fresh {raw : Bool} {bits : Nat} {sig : Option Bytes} {o : EcdsaOp} (h : EcdsaOp.new raw bits sig = .ok o) :
    freshEcdsa o ∧ o.raw = raw ∧ o.outLen = 2 * ((bits + 7) / 8) := by
  unfold EcdsaOp.new at h
  simp only at h
  repeat' split at h
  all_goals first | (cases h; done) | (injection h with h; subst h; exact ⟨⟨rfl, rfl, rfl⟩, rfl, rfl⟩)

/-- The context after some parts. -/
theorem updates_ok (o : EcdsaOp) (hr : o.raw = false) (hf : o.finalized = false) : ∀ (ps : List Bytes), ps ≠ [] →
    o.updates ps = (.ok (), { o with inUse := true, data := o.data ++ ps.flatten }) := by
  have step : ∀ (o : EcdsaOp) (p : Bytes), o.raw = false → o.finalized = false → o.update p = (.ok (), { o with inUse := true, data := o.data ++ p }) := by
    intro o p hr hf
    unfold EcdsaOp.update
    simp [hr, hf]
  intro ps
  induction ps generalizing o with
  | nil => intro h; exact absurd rfl h
  | cons p ps ih =>
    intro _
    rw [EcdsaOp.updates, step o p hr hf]
    simp only
    cases ps with
    | nil => simp [EcdsaOp.updates]
    | cons q ps =>
      rw [ih { o with inUse := true, data := o.data ++ p } hr hf (by simp)]
      simp

/-- **C77 (parts).**  Signing or verifying data in parts gives what doing it at once gives, for the mechanisms that hash. -/
theorem C77_parts (P : EcdsaPrims) (o : EcdsaOp) (ps : List Bytes) (n : Nat) (signature : Option Bytes) (h : freshEcdsa o) (hr : o.raw = false) (hp : ps ≠ []) :
    (o.updates ps).1 = .ok () ∧ ((o.updates ps).2.signFinal P n).1 = (o.sign P ps.flatten n).1 ∧
      ((o.updates ps).2.verifyFinal P signature).1 = (o.verify P ps.flatten signature).1 := by
  obtain ⟨h1, h2, h3⟩ := h
  rw [updates_ok o hr h2 ps hp]
  have e : o.update ps.flatten = (.ok (), { o with inUse := true, data := o.data ++ ps.flatten }) := by
    unfold EcdsaOp.update; simp [hr, h2]
  refine ⟨rfl, ?_, ?_⟩
  · unfold EcdsaOp.sign
    simp only [h1, h2, hr, Bool.false_eq_true, if_false]
    rw [e]
    simp only [h2, hr]
  · unfold EcdsaOp.verify
    simp only [h1, h2, hr, Bool.false_eq_true, if_false]
    rw [e]
    simp only [h2, hr]

/-- CKM_ECDSA takes its data in one piece: a part is refused and ends the operation. -/
theorem C77_raw_parts (P : EcdsaPrims) (o : EcdsaOp) (p data : Bytes) (n : Nat) (signature : Option Bytes) (hr : o.raw = true) :
    (o.update p).1 = .error .operationNotInitialized ∧ ((o.update p).2.sign P data n).1 = .error .operationNotInitialized ∧
      ((o.update p).2.verify P data signature).1 = .error .operationNotInitialized ∧ ((o.update p).2.signFinal P n).1 = .error .operationNotInitialized ∧
      ((o.update p).2.verifyFinal P signature).1 = .error .operationNotInitialized := by
  have e : o.update p = (.error .operationNotInitialized, { o with finalized := true }) := by unfold EcdsaOp.update; simp [hr]
  rw [e]
  refine ⟨rfl, ?_, ?_, ?_, ?_⟩
  · unfold EcdsaOp.sign; split <;> simp
  · unfold EcdsaOp.verify; split <;> simp
  · unfold EcdsaOp.signFinal; split <;> simp
  · unfold EcdsaOp.verifyFinal; split <;> simp

/-- What the mechanism does with data: OpenSSL's function for it. -/
def EcdsaPrims.signOf (P : EcdsaPrims) (raw : Bool) : Bytes → Res Bytes := if raw then P.signRaw else P.sign

def EcdsaPrims.verOf (P : EcdsaPrims) (raw : Bool) : Bytes → Bytes → Res Unit := if raw then P.verRaw else P.ver

theorem sign_fresh (P : EcdsaPrims) (o : EcdsaOp) (data : Bytes) (n : Nat) (h : freshEcdsa o) (hn : n = o.outLen) (s : Bytes) :
    (o.sign P data n).1 = .ok s → ∃ d, P.signOf o.raw data = .ok d ∧ ecdsaToRaw d n = .ok s := by
  obtain ⟨h1, h2, h3⟩ := h
  unfold EcdsaOp.sign EcdsaPrims.signOf
  rw [h1, h2]
  simp only [Bool.false_eq_true, if_false]
  cases hr : o.raw with
  | true =>
    simp only [if_true]
    rw [if_neg (fun hc => hc hn)]
    cases P.signRaw data with
    | error r => intro h; cases h
    | ok d => intro h; exact ⟨d, rfl, h⟩
  | false =>
    have e : o.update data = (.ok (), { o with inUse := true, data := o.data ++ data }) := by unfold EcdsaOp.update; simp [hr, h2]
    simp only [Bool.false_eq_true, if_false]
    rw [e]
    unfold EcdsaOp.signFinal
    simp only [Bool.not_true, Bool.false_eq_true, if_false, h2, h3, List.nil_append]
    cases P.sign data with
    | error r => intro h; cases h
    | ok d =>
      simp only
      split
      · intro h; cases h
      · intro h; exact ⟨d, rfl, h⟩

/-- **C77 (signing works).**  When OpenSSL makes a signature whose numbers fit, C_Sign gives them in PKCS#11 form: the room for the DER form suffices (curves up to 992 bits). -/
theorem C77_signs (P : EcdsaPrims) (o : EcdsaOp) (data d : Bytes) (r s n : Nat) (h : freshEcdsa o) (hn : 0 < n) (h124 : n ≤ 124) (ho : o.outLen = 2 * n)
    (hd : P.signOf o.raw data = .ok d) (hsig : Spec.DerSig r s d) (hr : r < 256 ^ n) (hs : s < 256 ^ n) : (o.sign P data o.outLen).1 = .ok (toBE n r ++ toBE n s) := by
  have hf := C77_fits d r s n hn h124 hsig hr hs
  have hraw := (C77_to_raw d r s n hsig hn (by omega)).1 hr hs
  obtain ⟨h1, h2, h3⟩ := h
  unfold EcdsaOp.sign
  rw [h1, h2]
  simp only [Bool.false_eq_true, if_false]
  unfold EcdsaPrims.signOf at hd
  cases hr : o.raw with
  | true =>
    rw [hr] at hd
    simp only [if_true] at hd ⊢
    rw [if_neg (fun hc => hc rfl), hd]
    simp only [ho]
    exact hraw
  | false =>
    rw [hr] at hd
    have e : o.update data = (.ok (), { o with inUse := true, data := o.data ++ data }) := by unfold EcdsaOp.update; simp [hr, h2]
    simp only [Bool.false_eq_true, if_false] at hd ⊢
    rw [e]
    unfold EcdsaOp.signFinal
    simp only [Bool.not_true, Bool.false_eq_true, if_false, h2, h3, List.nil_append, hd]
    rw [ho, if_neg (by omega)]
    exact hraw

theorem wanted_eq {o1 o2 : EcdsaOp} {sg : Option Bytes} (h1 : o1.outLen = o2.outLen) (h2 : o1.sig = o2.sig) : o1.wanted sg = o2.wanted sg := by
  unfold EcdsaOp.wanted; rw [h1, h2]

/-- **C77 (accepted).**  C_Verify accepts a signature exactly when it has the length of the mechanism and OpenSSL accepts the DER signature made of its halves. -/
theorem C77_accepts (P : EcdsaPrims) (o : EcdsaOp) (data sig : Bytes) (n : Nat) (h : freshEcdsa o) (hn : 0 < n) (ho : o.outLen = 2 * n) :
    (o.verify P data (some sig)).1 = .ok () ↔ sig.length = 2 * n ∧ ∃ d, Spec.DerSig (fromBE (sig.take n)) (fromBE (sig.drop n)) d ∧ P.verOf o.raw data d = .ok () := by
  obtain ⟨h1, h2, h3⟩ := h
  have key : (o.verify P data (some sig)).1 = match o.wanted (some sig) with | .error r => .error r | .ok d => P.verOf o.raw data d := by
    unfold EcdsaOp.verify EcdsaPrims.verOf
    rw [h1, h2]
    simp only [Bool.false_eq_true, if_false]
    cases hr : o.raw with
    | true =>
      simp only [if_true]
      split <;> rename_i hw <;> rw [Eq.trans (wanted_eq (by rfl) (by rfl)) hw]
    | false =>
      have e : o.update data = (.ok (), { o with inUse := true, data := o.data ++ data }) := by unfold EcdsaOp.update; simp [hr, h2]
      simp only [Bool.false_eq_true, if_false]
      rw [e]
      unfold EcdsaOp.verifyFinal
      simp only [Bool.not_true, Bool.false_eq_true, if_false, h2, h3, List.nil_append]
      split <;> rename_i hw <;> rw [Eq.trans (wanted_eq (by rfl) (by rfl)) hw]
  rw [key]
  unfold EcdsaOp.wanted
  simp only
  by_cases hl : sig.length = 2 * n
  · rw [if_neg (by rw [ho]; exact fun hc => hc hl)]
    obtain ⟨d, g1, g2, _⟩ := C77_to_der sig n hn hl
    rw [g1]
    refine ⟨fun hv => ⟨hl, d, g2, hv⟩, ?_⟩
    rintro ⟨_, d', ⟨x', y', a1, a2, a3, a4, a5⟩, hv⟩
    obtain ⟨x, y, b1, b2, b3, b4, b5⟩ := g2
    have : d' = d := by rw [a5, b5, bigUint_unique a1 b1 (by rw [a3, b3]), bigUint_unique a2 b2 (by rw [a4, b4])]
    rw [← this]; exact hv
  · rw [if_pos (by rw [ho]; exact hl)]
    exact ⟨fun h => (by cases h), fun h => absurd h.1 hl⟩

/-- **C77 (signed is verified).**  When OpenSSL accepts what it signs, C_Verify accepts what C_Sign made, with the same mechanism and data. -/
theorem C77_verifies (P P' : EcdsaPrims) (o o' : EcdsaOp) (data sig : Bytes) (n : Nat) (h : freshEcdsa o) (h' : freshEcdsa o') (hraw : o'.raw = o.raw) (hn : 0 < n)
    (ho : o.outLen = 2 * n) (ho' : o'.outLen = 2 * n)
    (hlaw : ∀ d, P.signOf o.raw data = .ok d → d.length < 2 ^ 32 ∧ (∃ r s, Spec.DerSig r s d) ∧ P'.verOf o.raw data d = .ok ())
    (hs : (o.sign P data o.outLen).1 = .ok sig) : (o'.verify P' data (some sig)).1 = .ok () := by
  obtain ⟨d, g1, g2⟩ := sign_fresh P o data o.outLen h rfl sig hs
  obtain ⟨g3, ⟨r, s, g4⟩, g5⟩ := hlaw d g1
  rw [ho] at g2
  obtain ⟨hl, hd⟩ := C77_forth d sig r s n hn g4 g3 g2
  obtain ⟨d', q1, q2, _⟩ := C77_to_der sig n hn hl
  rw [hd] at q1; injection q1 with q1
  rw [← q1] at q2
  rw [C77_accepts P' o' data sig n h' hn ho', hraw]
  exact ⟨hl, d, q2, g5⟩

/-- **C77 (finished).**  After a signature was given or a verification answered, every further call on the operation is refused and changes nothing. -/
theorem C77_finished (P P' : EcdsaPrims) (o : EcdsaOp) (data sig : Bytes) (n : Nat) (signature : Option Bytes) :
    (∀ o1, (o1 = (o.sign P data n).2 ∧ (o.sign P data n).1 = .ok sig) ∨ (o1 = (o.signFinal P n).2 ∧ (o.signFinal P n).1 = .ok sig) ∨
        (o1 = (o.verify P data signature).2 ∧ (o.verify P data signature).1 ≠ .error .operationNotInitialized) ∨
        (o1 = (o.verifyFinal P signature).2 ∧ (o.verifyFinal P signature).1 ≠ .error .operationNotInitialized) → o1.finalized = true) ∧
    ∀ o1 : EcdsaOp, o1.finalized = true → ∀ (data : Bytes) (n : Nat) (sg : Option Bytes),
      o1.sign P' data n = (.error .operationNotInitialized, o1) ∧ o1.update data = (.error .operationNotInitialized, o1) ∧
      o1.signFinal P' n = (.error .operationNotInitialized, o1) ∧ o1.verify P' data sg = (.error .operationNotInitialized, o1) ∧
      o1.verifyFinal P' sg = (.error .operationNotInitialized, o1) := by
  have sf : ∀ (o : EcdsaOp), (o.signFinal P n).1 = .ok sig → (o.signFinal P n).2.finalized = true := by
    intro o
    unfold EcdsaOp.signFinal
    simp only
    repeat' split
    all_goals first | (intro h; cases h; done) | (intro _; rfl)
  have vf : ∀ (o : EcdsaOp), (o.verifyFinal P signature).1 ≠ .error .operationNotInitialized → (o.verifyFinal P signature).2.finalized = true := by
    intro o
    unfold EcdsaOp.verifyFinal
    simp only
    repeat' split
    all_goals first | (intro h; exact absurd rfl h) | (intro _; rfl)
  have up : ∀ (o : EcdsaOp) r o2, o.update data = (.error r, o2) → r = .operationNotInitialized := by
    intro o r o2 h
    unfold EcdsaOp.update at h
    simp only at h
    repeat' split at h
    all_goals first | (injection h with h _; injection h with h; exact h.symm) | (injection h with h _; cases h)
  refine ⟨?_, ?_⟩
  · rintro o1 (⟨rfl, h⟩ | ⟨rfl, h⟩ | ⟨rfl, h⟩ | ⟨rfl, h⟩)
    · revert h
      unfold EcdsaOp.sign
      simp only
      repeat' split
      all_goals first | (intro h; cases h; done) | (intro _; rfl) | exact sf _
    · exact sf o h
    · revert h
      unfold EcdsaOp.verify
      simp only
      repeat' split
      all_goals first
        | exact fun h => absurd rfl h
        | (intro _; rfl)
        | exact vf _
        | (rename_i hu; intro h; rw [up _ _ _ hu] at h; exact absurd rfl h)
    · exact vf o h
  · intro o1 hf data n sg
    have hu : o1.update data = (.error .operationNotInitialized, o1) := by
      unfold EcdsaOp.update
      cases hr : o1.raw <;> simp [hf]
      cases o1; simp_all
    refine ⟨?_, hu, ?_, ?_, ?_⟩
    · unfold EcdsaOp.sign; rw [hf]; simp
    · unfold EcdsaOp.signFinal; rw [hf]; simp
    · unfold EcdsaOp.verify; rw [hf]; simp
    · unfold EcdsaOp.verifyFinal; rw [hf]; simp

/-- **C77 (signature given first).**  C_VerifySignatureInit takes a signature exactly when it has the right length, and then verification answers what C_Verify
answers for this signature. -/
theorem C77_given_first (P : EcdsaPrims) (raw : Bool) (bits : Nat) (sig : Bytes) (hb : 0 < bits) :
    (sig.length ≠ 2 * ((bits + 7) / 8) → EcdsaOp.new raw bits (some sig) = .error .signatureLenRange) ∧
    (sig.length = 2 * ((bits + 7) / 8) → ∃ o o', EcdsaOp.new raw bits (some sig) = .ok o ∧ EcdsaOp.new raw bits none = .ok o' ∧
      ∀ data, (o.verify P data none).1 = (o'.verify P data (some sig)).1) := by
  refine ⟨fun h => ?_, fun h => ?_⟩
  · unfold EcdsaOp.new; simp [h]
  · obtain ⟨d, hd, _⟩ := C77_to_der sig ((bits + 7) / 8) (by omega) h
    refine ⟨{ raw := raw, outLen := 2 * ((bits + 7) / 8), sig := some d }, { raw := raw, outLen := 2 * ((bits + 7) / 8) }, ?_, rfl, fun data => ?_⟩
    · unfold EcdsaOp.new; simp [h, hd]
    · cases raw <;> simp [EcdsaOp.verify, EcdsaOp.wanted, EcdsaOp.update, EcdsaOp.verifyFinal, h, hd]

/-! ## An example -/

/-- A toy in the place of OpenSSL: r is 0x90, s the number of bytes modulo 128. -/
def exEcSign (data : Bytes) : Bytes := derTlv 0x30 (derTlv 2 [0, 0x90] ++ derTlv 2 [UInt8.ofNat (data.length % 128)])

def exEcPrims : EcdsaPrims :=
  ⟨fun d => .ok (exEcSign d), fun d => .ok (exEcSign d), fun d s => if s = exEcSign d then .ok () else .error .signatureInvalid,
   fun d s => if s = exEcSign d then .ok () else .error .signatureInvalid⟩

/-- It meets the hypothesis of C77_verifies. -/
example (raw : Bool) (data : Bytes) : ∀ d, exEcPrims.signOf raw data = .ok d →
    d.length < 2 ^ 32 ∧ (∃ r s, Spec.DerSig r s d) ∧ exEcPrims.verOf raw data d = .ok () := by
  intro d h
  have e : d = exEcSign data := by cases raw <;> (injection h with h; exact h.symm)
  subst e
  have hs : (UInt8.ofNat (data.length % 128)).toNat < 128 := by rw [UInt8.toNat_ofNat']; omega
  refine ⟨?_, ⟨_, _, [0, 0x90], [UInt8.ofNat (data.length % 128)], by decide, by simpa [bigUintOk] using hs, rfl, rfl, rfl⟩, ?_⟩
  · show (exEcSign data).length < 2 ^ 32
    simp [exEcSign, derTlv, derLen]
  · cases raw <;> simp [EcdsaPrims.verOf, exEcPrims]

def exEcOp : EcdsaOp := { raw := false, outLen := 64 }

/-- P-256: the key has 256 bits, signatures 64 bytes; signing in two parts, verifying at once, a changed signature, a short one. -/
example : EcdsaOp.new false 256 none = .ok exEcOp ∧ freshEcdsa exEcOp ∧
    (exEcOp.sign exEcPrims [1, 2, 3] 64).1 = .ok (List.replicate 31 0 ++ [0x90] ++ List.replicate 31 0 ++ [3]) ∧
    ((exEcOp.updates [[1], [2, 3]]).2.signFinal exEcPrims 64).1 = .ok (List.replicate 31 0 ++ [0x90] ++ List.replicate 31 0 ++ [3]) ∧
    (exEcOp.verify exEcPrims [1, 2, 3] (some (List.replicate 31 0 ++ [0x90] ++ List.replicate 31 0 ++ [3]))).1 = .ok () ∧
    (exEcOp.verify exEcPrims [1, 2, 3] (some (List.replicate 31 0 ++ [0x91] ++ List.replicate 31 0 ++ [3]))).1 = .error .signatureInvalid ∧
    (exEcOp.verify exEcPrims [1, 2, 3] (some (List.replicate 30 0 ++ [0x90] ++ List.replicate 31 0 ++ [3]))).1 = .error .signatureLenRange := by
  unfold freshEcdsa
  decide +kernel

/-- The curves: the room of C77_fits. -/
example : ∀ bits ∈ [256, 384, 521], (bits + 7) / 8 ≤ 124 ∧ 0 < (bits + 7) / 8 := by decide

end Kry
