import Verif.Model.Hotp
import Verif.Props.C50
import Verif.Proofs.Basic

/-! The password of HOTP. -/

namespace Kry
namespace Spec

/-- RFC 4226: the last nibble of the HMAC of the counter chooses four bytes; their low 31 bits, modulo `10^d`, are written with `d`
decimal digits. -/
def hotp (a : HashAlg) (secret : Bytes) (c d : Nat) : Bytes :=
  let mac := hmac a secret (toBE 8 c)
  let off := (mac.getD (mac.length - 1) 0).toNat % 16
  let n := fromBE ((mac.drop off).take 4) % 2 ^ 31
  (List.range d).map fun i => UInt8.ofNat (48 + n / 10 ^ (d - 1 - i) % 10)

end Spec

open Spec

/-- The `d` low decimal digits. -/
def digits (d n : Nat) : Bytes := (List.range d).map fun i => UInt8.ofNat (48 + n / 10 ^ (d - 1 - i) % 10)

theorem digits_length (d n : Nat) : (digits d n).length = d := by simp [digits]

theorem digits_succ (d n : Nat) : digits (d + 1) n = digits d (n / 10) ++ [UInt8.ofNat (n % 10 + 48)] := by
  unfold digits
  rw [List.range_succ, List.map_append]
  congr 1
  · apply List.map_congr_left
    intro i hi
    have hi := List.mem_range.1 hi
    have : d + 1 - 1 - i = (d - 1 - i) + 1 := by omega
    rw [this, Nat.pow_succ', ← Nat.div_div_eq_div_mul]
  · simp [Nat.add_comm]

theorem digits_zero (d : Nat) : digits d 0 = List.replicate d 48 := by
  induction d with
  | zero => rfl
  | succ d ih =>
    rw [digits_succ, Nat.zero_div, ih, List.replicate_succ']
    rfl

theorem digits_mod (d n : Nat) : digits d (n % 10 ^ d) = digits d n := by
  induction d generalizing n with
  | zero => rfl
  | succ d ih =>
    rw [digits_succ, digits_succ, ← ih (n / 10)]
    congr 2
    · rw [Nat.pow_succ', Nat.mod_mul_right_div_self]
    · rw [Nat.mod_mod_of_dvd _ (Nat.dvd_trans (Nat.dvd_refl 10) ⟨10 ^ d, Nat.pow_succ'⟩)]

theorem decimal_digits (fuel w n : Nat) (hw : 0 < w) (h : n < 10 ^ w) (hf : n < 10 ^ (fuel + 1)) :
    (decimal fuel n).length ≤ w ∧ List.replicate (w - (decimal fuel n).length) 48 ++ decimal fuel n = digits w n := by
  have small : ∀ n < 10, List.replicate (w - 1) 48 ++ [UInt8.ofNat (n + 48)] = digits w n := by
    intro n hn
    obtain ⟨w, rfl⟩ : ∃ k, w = k + 1 := ⟨w - 1, by omega⟩
    rw [digits_succ, Nat.div_eq_of_lt hn, digits_zero, Nat.mod_eq_of_lt hn]
    rfl
  induction fuel generalizing w n with
  | zero =>
    have hn : n < 10 := by simpa using hf
    unfold decimal
    rw [Nat.mod_eq_of_lt hn]
    exact ⟨hw, small n hn⟩
  | succ fuel ih =>
    unfold decimal
    split
    · rename_i hn; exact ⟨hw, small n hn⟩
    · rename_i hn
      obtain ⟨w, rfl⟩ : ∃ k, w = k + 1 := ⟨w - 1, by omega⟩
      have hw0 : 0 < w := by
        cases w with
        | zero => simp at h; omega
        | succ w => omega
      have h1 : n / 10 < 10 ^ w := Nat.div_lt_of_lt_mul (by rw [← Nat.pow_succ']; exact h)
      have h2 : n / 10 < 10 ^ (fuel + 1) := Nat.div_lt_of_lt_mul (by rw [← Nat.pow_succ']; exact hf)
      obtain ⟨i1, i2⟩ := ih w (n / 10) hw0 h1 h2 (by
        intro n hn
        obtain ⟨w, rfl⟩ : ∃ k, w = k + 1 := ⟨w - 1, by omega⟩
        rw [digits_succ, Nat.div_eq_of_lt hn, digits_zero, Nat.mod_eq_of_lt hn]
        rfl)
      simp only [List.length_append, List.length_cons, List.length_nil]
      refine ⟨by omega, ?_⟩
      have : w + 1 - ((decimal fuel (n / 10)).length + (0 + 1)) = w - (decimal fuel (n / 10)).length := by omega
      rw [this, ← List.append_assoc, i2, digits_succ]

theorem and7f (b : UInt8) : (b &&& 0x7f).toNat = b.toNat % 128 := by
  rw [UInt8.toNat_and]
  exact Nat.and_two_pow_sub_one_eq_mod b.toNat 7

theorem fromBE4 (a b c d : UInt8) : fromBE [a, b, c, d] = ((a.toNat * 256 + b.toNat) * 256 + c.toNat) * 256 + d.toNat := by
  simp only [fromBE, List.reverse_cons, List.reverse_nil, List.nil_append, List.cons_append, fromLE]
  omega

/-- Clearing the top bit of the first of four bytes. -/
theorem fromBE_top (l : Bytes) (off : Nat) (h : off + 4 ≤ l.length) :
    ((l.set off (l.getD off 0 &&& 0x7f)).drop off).take 4 ≠ [] ∧
    (((l.set off (l.getD off 0 &&& 0x7f)).drop off).take 4).length = 4 ∧
    fromBE (((l.set off (l.getD off 0 &&& 0x7f)).drop off).take 4) = fromBE ((l.drop off).take 4) % 2 ^ 31 := by
  have hs : (l.set off (l.getD off 0 &&& 0x7f)).drop off = ((l.drop off).set 0 (l.getD off 0 &&& 0x7f)) := by
    rw [List.drop_set, if_neg (by omega), Nat.sub_self]
  have hg : l.getD off 0 = (l.drop off).getD 0 0 := by
    simp [List.getD_eq_getElem?_getD, List.getElem?_drop]
  rw [hs, hg]
  have hl : 4 ≤ (l.drop off).length := by rw [List.length_drop]; omega
  generalize l.drop off = m at hl
  match m, hl with
  | a :: b :: c :: d :: r, _ =>
    simp only [List.set_cons_zero, List.getD_cons_zero, List.take_succ_cons, List.take_zero]
    refine ⟨by simp, rfl, ?_⟩
    rw [fromBE4, fromBE4, and7f]
    have := a.toNat_lt; have := b.toNat_lt; have := c.toNat_lt; have := d.toNat_lt
    omega

/-- What is assumed of the hashes. -/
structure Spec.OtpOk (H : OtpHash) : Prop where
  sha1 : HashOk H.sha1 ∧ H.sha1.hlen = 20
  sha256 : HashOk H.sha256 ∧ H.sha256.hlen = 32
  sha512 : HashOk H.sha512 ∧ H.sha512.hlen = 64

/-- The hash of a key length, as RFC 4226 and its relatives choose it. -/
def Spec.otpHash (H : OtpHash) (len : Nat) : HashAlg := if len = 20 then H.sha1 else if len = 32 then H.sha256 else H.sha512

theorem pick_ok {H : OtpHash} (hH : OtpOk H) {len n : Nat} {a : HashAlg} (h : H.pick len = some (a, n)) :
    a = otpHash H len ∧ HashOk a ∧ a.hlen = n ∧ 20 ≤ n := by
  unfold OtpHash.pick at h
  unfold otpHash
  split at h
  · injection h with h; injection h with h1 h2; subst h1 h2; rename_i hl; exact ⟨(if_pos hl).symm, hH.sha1.1, hH.sha1.2, by omega⟩
  · rename_i h1
    rw [if_neg h1]
    split at h
    · injection h with h; injection h with h1 h2; subst h1 h2; rename_i hl; exact ⟨(if_pos hl).symm, hH.sha256.1, hH.sha256.2, by omega⟩
    · rename_i h2
      rw [if_neg h2]
      split at h
      · injection h with h; injection h with h1 h2; subst h1 h2; exact ⟨rfl, hH.sha512.1, hH.sha512.2, by omega⟩
      · cases h

theorem hmac_length {a : HashAlg} (ha : HashOk a) (k m : Bytes) : (hmac a k m).length = a.hlen := ha.size _

/-- An operation whose HMAC is ready for secret `v`. -/
structure Ready (H : OtpHash) (v : Bytes) (o : Hotp) : Prop where
  pick : H.pick v.length = some (o.hmac.alg, o.macLen)
  fed : Fed o.hmac.alg v o.macLen [] o.hmac
  idle : o.hmac.inUse = false

theorem make_ready {H : OtpHash} (hH : OtpOk H) {c v : Bytes} {u : Bool} {len : Nat} {o : Hotp} (h : Hotp.make H c u len v = .ok o) :
    Ready H v o ∧ o.counter = c ∧ o.upd = u ∧ o.length = len := by
  unfold Hotp.make at h
  split at h
  · cases h
  · rename_i a n hp
    injection h with h
    subst h
    obtain ⟨_, ha, hn, _⟩ := pick_ok hH hp
    exact ⟨⟨hp, fed_internal ha v n, rfl⟩, rfl, rfl, rfl⟩

theorem reinit_ready {H : OtpHash} (hH : OtpOk H) {v : Bytes} {o : Hotp} (hp : H.pick v.length = some (o.hmac.alg, o.macLen))
    (hk : o.hmac.key = v) (hn : o.hmac.outlen = o.macLen) : Ready H v { o with hmac := o.hmac.reinit } := by
  obtain ⟨_, ha, hl, _⟩ := pick_ok hH hp
  refine ⟨hp, ?_, rfl⟩
  show Fed o.hmac.alg v o.macLen [] o.hmac.reinit
  unfold Hmac.reinit
  rw [hk, hn]
  exact fed_init ha v _ _ _ _ _ rfl

theorem update_parts (h : Hmac) (d : Bytes) : (h.update d).2.alg = h.alg ∧ (h.update d).2.key = h.key ∧ (h.update d).2.outlen = h.outlen := by
  unfold Hmac.update
  split <;> exact ⟨rfl, rfl, rfl⟩

theorem finalize_parts (h : Hmac) (n : Nat) : (h.finalize n).2.alg = h.alg ∧ (h.finalize n).2.key = h.key ∧ (h.finalize n).2.outlen = h.outlen := by
  unfold Hmac.finalize
  by_cases hb : h.fin = true
  · rw [if_pos hb]; exact ⟨rfl, rfl, rfl⟩
  · rw [if_neg hb]; simp only; split <;> exact ⟨rfl, rfl, rfl⟩

theorem mac_parts (h : Hmac) (d : Bytes) (n : Nat) : (h.mac d n).2.alg = h.alg ∧ (h.mac d n).2.key = h.key ∧ (h.mac d n).2.outlen = h.outlen := by
  unfold Hmac.mac
  split
  · exact ⟨rfl, rfl, rfl⟩
  · have a := update_parts h d
    generalize h.update d = p at a
    obtain ⟨r, x⟩ := p
    simp only at a ⊢
    cases r with
    | error r => exact a
    | ok _ =>
      have b := finalize_parts x n
      exact ⟨b.1.trans a.1, b.2.1.trans a.2.1, b.2.2.trans a.2.2⟩

/-- The generated password is the one of RFC 4226; what is left can be reset. -/
theorem generate_ok {H : OtpHash} (hH : OtpOk H) {v : Bytes} {o : Hotp} (hr : Ready H v o) (c : Nat) :
    (o.generate (toBE 8 c)).1 = (if o.length = 6 ∨ o.length = 7 ∨ o.length = 8 then .ok (hotp (otpHash H v.length) v c o.length)
      else .error .generalError) ∧
    (o.generate (toBE 8 c)).2.counter = o.counter ∧ (o.generate (toBE 8 c)).2.upd = o.upd ∧ (o.generate (toBE 8 c)).2.length = o.length ∧
    (o.generate (toBE 8 c)).2.macLen = o.macLen ∧ (o.generate (toBE 8 c)).2.hmac.alg = o.hmac.alg ∧
    (o.generate (toBE 8 c)).2.hmac.key = v ∧ (o.generate (toBE 8 c)).2.hmac.outlen = o.macLen := by
  obtain ⟨he, ha, hl, h20⟩ := pick_ok hH hr.pick
  have hm : (o.hmac.mac (toBE 8 c) o.macLen).1 = .ok (hmac (otpHash H v.length) v (toBE 8 c)) := by
    obtain ⟨h1, h2⟩ := fed_update hr.fed (toBE 8 c)
    unfold Hmac.mac Hmac.start
    rw [if_neg (by rw [hr.idle]; simp)]
    simp only
    generalize o.hmac.update (toBE 8 c) = p at h1 h2 ⊢
    obtain ⟨r, x⟩ := p
    simp only at h1 h2 ⊢
    subst h1
    have := (fed_final ha (Nat.le_of_eq hl.symm) h2).1
    simp only
    rw [this, he, List.nil_append, List.take_of_length_le (by rw [← he, hmac_length ha]; omega)]
  have hpt := mac_parts o.hmac (toBE 8 c) o.macLen
  unfold Hotp.generate
  generalize o.hmac.mac (toBE 8 c) o.macLen = p at hm hpt ⊢
  obtain ⟨r, x⟩ := p
  simp only at hm hpt ⊢
  subst hm
  simp only
  have hlen : (hmac (otpHash H v.length) v (toBE 8 c)).length = o.macLen := by rw [← he, hmac_length ha, hl]
  have rest : ∀ r : Res Bytes, ∀ q : Res Bytes × Hotp, q = (r, { o with hmac := x }) → q.2.counter = o.counter ∧ q.2.upd = o.upd ∧ q.2.length = o.length ∧
      q.2.macLen = o.macLen ∧ q.2.hmac.alg = o.hmac.alg ∧ q.2.hmac.key = v ∧ q.2.hmac.outlen = o.macLen := by
    intro r q hq
    subst hq
    exact ⟨rfl, rfl, rfl, rfl, hpt.1, hpt.2.1.trans hr.fed.keyIs, hpt.2.2.trans hr.fed.outlen⟩
  unfold hotp
  simp only [hlen]
  generalize hmac (otpHash H v.length) v (toBE 8 c) = mac at hlen
  have hoff : (mac.getD (o.macLen - 1) 0).toNat % 16 + 4 ≤ mac.length := by
    have := Nat.mod_lt (mac.getD (o.macLen - 1) 0).toNat (by decide : 0 < 16)
    omega
  generalize (mac.getD (o.macLen - 1) 0).toNat % 16 = off at hoff
  obtain ⟨_, t2, t3⟩ := fromBE_top mac off hoff
  rw [if_neg (fun h => h t2), t3]
  generalize fromBE (List.take 4 (List.drop off mac)) % 2 ^ 31 = n
  have fits : ∀ d, 0 < d → d ≤ 8 → (decimalPadded d (n % 10 ^ d)) = digits d n := by
    intro d h1 h2
    have hlt : n % 10 ^ d < 10 ^ d := Nat.mod_lt _ (Nat.pow_pos (by decide))
    have := (decimal_digits 9 d (n % 10 ^ d) h1 hlt (Nat.lt_of_lt_of_le hlt (Nat.pow_le_pow_right (by decide) (by omega)))).2
    unfold decimalPadded
    simp only
    rw [this, digits_mod]
  by_cases h6 : o.length = 6
  · simp only [h6, if_pos]
    have := fits 6 (by decide) (by decide)
    rw [show (10 : Nat) ^ 6 = 1000000 from rfl] at this
    rw [this, if_neg (fun h => h (digits_length _ _))]
    exact ⟨by simp [digits], h6 ▸ rest _ _ rfl⟩
  · by_cases h7 : o.length = 7
    · simp only [h7]
      have := fits 7 (by decide) (by decide)
      rw [show (10 : Nat) ^ 7 = 10000000 from rfl] at this
      simp only [show (7 : Nat) ≠ 6 from by decide, if_false, if_true]
      rw [this, if_neg (fun h => h (digits_length _ _))]
      exact ⟨by simp [digits], h7 ▸ rest _ _ rfl⟩
    · by_cases h8 : o.length = 8
      · simp only [h8]
        have := fits 8 (by decide) (by decide)
        rw [show (10 : Nat) ^ 8 = 100000000 from rfl] at this
        simp only [show (8 : Nat) ≠ 6 from by decide, show (8 : Nat) ≠ 7 from by decide, if_false, if_true]
        rw [this, if_neg (fun h => h (digits_length _ _))]
        exact ⟨by simp [digits], h8 ▸ rest _ _ rfl⟩
      · simp only [h6, h7, h8, if_false, or_self]
        exact ⟨trivial, by simpa using rest (.error .generalError) _ rfl⟩

end Kry
