import Verif.Model.Pkcs8
import Verif.Proofs.Basic

/-! DER: what is written is read back. -/

namespace Kry

theorem fromLE_snoc (l : Bytes) (x : UInt8) : fromLE (l ++ [x]) = fromLE l + 256 ^ l.length * x.toNat := by
  induction l with
  | nil => simp [fromLE]
  | cons b l ih =>
    simp only [List.cons_append, fromLE, ih, List.length_cons, Nat.pow_succ]
    rw [Nat.mul_add, Nat.add_assoc, Nat.mul_comm (256 ^ l.length) 256, Nat.mul_assoc]

theorem fromBE_cons (x : UInt8) (l : Bytes) : fromBE (x :: l) = fromBE l + 256 ^ l.length * x.toNat := by
  unfold fromBE
  rw [List.reverse_cons, fromLE_snoc, List.length_reverse]

theorem fromBE_zero (l : Bytes) : fromBE (0 :: l) = fromBE l := by
  rw [fromBE_cons]; simp

theorem fromBE_lt (l : Bytes) : fromBE l < 256 ^ l.length := by
  have := fromLE_lt l.reverse
  rw [List.length_reverse] at this
  exact this

theorem toBE_fromBE_all (l : Bytes) : toBE l.length (fromBE l) = l := by
  unfold toBE fromBE
  have := toLE_fromLE l.reverse
  rw [List.length_reverse] at this
  rw [this, List.reverse_reverse]

theorem nopad_zero (l : Bytes) : nopad (0 :: l) = nopad l := rfl

theorem nopad_cons {x : UInt8} (h : x ≠ 0) (l : Bytes) : nopad (x :: l) = x :: l := by
  unfold nopad
  rw [List.dropWhile_cons_of_neg (by simpa using h)]

theorem nopad_num (l : Bytes) : fromBE (nopad l) = fromBE l := by
  induction l with
  | nil => rfl
  | cons x l ih =>
    by_cases h : x = 0
    · subst h; rw [nopad_zero, fromBE_zero, ih]
    · rw [nopad_cons h]

theorem nopad_len (l : Bytes) : (nopad l).length ≤ l.length := by
  induction l with
  | nil => exact Nat.le_refl _
  | cons x l ih =>
    by_cases h : x = 0
    · subst h; rw [nopad_zero]; exact Nat.le_trans ih (Nat.le_succ _)
    · rw [nopad_cons h]; exact Nat.le_refl _

/-- Without padding the first byte is not zero. -/
theorem nopad_head (l : Bytes) : ∀ x r, nopad l = x :: r → x ≠ 0 := by
  induction l with
  | nil => intro x r h; cases h
  | cons y l ih =>
    intro x r h
    by_cases hy : y = 0
    · subst hy; rw [nopad_zero] at h; exact ih x r h
    · rw [nopad_cons hy] at h
      injection h with h _
      rw [← h]; exact hy

theorem nopad_idem (l : Bytes) : nopad (nopad l) = nopad l := by
  cases h : nopad l with
  | nil => rfl
  | cons x r => exact nopad_cons (nopad_head l x r h) r

theorem nopad_ge (l : Bytes) (x : UInt8) (r : Bytes) (h : nopad l = x :: r) : 256 ^ r.length ≤ fromBE l := by
  have hx : x.toNat ≠ 0 := fun hz => nopad_head l x r h (UInt8.toNat_inj.1 hz)
  rw [← nopad_num, h, fromBE_cons]
  have : 256 ^ r.length * 1 ≤ 256 ^ r.length * x.toNat := Nat.mul_le_mul_left _ (by omega)
  omega

theorem nopad_nil {l : Bytes} (h : nopad l = []) : fromBE l = 0 := by
  rw [← nopad_num, h]; rfl

/-- Two numbers written without padding are the same bytes. -/
theorem nopad_unique {a b : Bytes} (h : fromBE a = fromBE b) : nopad a = nopad b := by
  have len : ∀ a b : Bytes, fromBE a = fromBE b → (nopad a).length ≤ (nopad b).length := by
    intro a b h
    cases ha : nopad a with
    | nil => exact Nat.zero_le _
    | cons x r =>
      have h1 := nopad_ge a x r ha
      have h2 := fromBE_lt (nopad b)
      rw [nopad_num, ← h] at h2
      have h3 : 256 ^ r.length < 256 ^ (nopad b).length := Nat.lt_of_le_of_lt h1 h2
      exact (Nat.pow_lt_pow_iff_right (by omega)).1 h3
  have hl : (nopad a).length = (nopad b).length := Nat.le_antisymm (len a b h) (len b a h.symm)
  rw [← toBE_fromBE_all (nopad a), ← toBE_fromBE_all (nopad b), hl, nopad_num, nopad_num, h]

theorem derReadLen_derLen (n : Nat) (h : n < 2 ^ 32) (rest : Bytes) : derReadLen (derLen n ++ rest) = some (n, rest) := by
  unfold derLen
  by_cases hs : n < 128
  · rw [if_pos hs]
    show derReadLen (UInt8.ofNat n :: rest) = _
    have : (UInt8.ofNat n).toNat = n := by rw [UInt8.toNat_ofNat']; omega
    unfold derReadLen
    simp only
    rw [this, if_pos hs]
  · rw [if_neg hs]
    show derReadLen (UInt8.ofNat (128 + (nopad (toBE 8 n)).length) :: (nopad (toBE 8 n) ++ rest)) = _
    have hnum : fromBE (toBE 8 n) = n := fromBE_toBE 8 n (Nat.lt_trans h (by decide))
    cases hb : nopad (toBE 8 n) with
    | nil =>
      have := nopad_nil hb
      omega
    | cons x r =>
      have hge := nopad_ge _ x r hb
      rw [hnum] at hge
      have hlen : r.length < 4 := by
        have : 256 ^ r.length < 256 ^ 4 := Nat.lt_of_le_of_lt hge (by simpa using h)
        exact (Nat.pow_lt_pow_iff_right (by omega)).1 this
      have hk : (UInt8.ofNat (128 + (x :: r).length)).toNat = 128 + (x :: r).length := by
        rw [UInt8.toNat_ofNat', List.length_cons]; omega
      unfold derReadLen
      simp only
      rw [hk, if_neg (by omega)]
      simp only [Nat.add_sub_cancel_left]
      rw [if_neg (by simp only [List.length_cons, List.length_append]; omega), List.take_left, List.drop_left, ← hb, nopad_num, hnum, if_neg]
      rw [hb, List.length_cons, Nat.add_sub_cancel]
      omega

theorem derRead_tlv (t : UInt8) (ht : ¬ t &&& 0x1f = 0x1f) (body rest : Bytes) (h : body.length < 2 ^ 32) : derRead (derTlv t body ++ rest) = some (t, body, rest) := by
  unfold derTlv
  rw [List.cons_append, derRead, if_neg ht, List.append_assoc, derReadLen_derLen _ h]
  simp only
  rw [if_neg (by rw [List.length_append]; omega), List.take_left, List.drop_left]

theorem derField_tlv (t : UInt8) (ht : ¬ t &&& 0x1f = 0x1f) (body rest : Bytes) (h : body.length < 2 ^ 32) : derField t (derTlv t body ++ rest) = .ok (body, rest) := by
  unfold derField
  rw [derRead_tlv t ht body rest h]
  simp

theorem derTlv_len (t : UInt8) (body : Bytes) : body.length < (derTlv t body).length := by
  unfold derTlv
  rw [List.length_cons, List.length_append]; omega

theorem skipZeros_facts (b : Bytes) : fromBE (skipZeros b) = fromBE b ∧ nopad (skipZeros b) = nopad b := by
  have : ∀ (n : Nat) (b : Bytes), b.length ≤ n → fromBE (skipZeros b) = fromBE b ∧ nopad (skipZeros b) = nopad b := by
    intro n
    induction n with
    | zero => intro b hb; cases b with
      | nil => exact ⟨rfl, rfl⟩
      | cons x b => simp at hb
    | succ n ih =>
      intro b hb
      match b with
      | [] => exact ⟨rfl, rfl⟩
      | [x] => exact ⟨rfl, rfl⟩
      | x :: y :: r =>
        rw [skipZeros]
        split
        · rename_i hx
          obtain ⟨h1, h2⟩ := ih (y :: r) (by simp only [List.length_cons] at hb ⊢; omega)
          rw [h1, h2, hx.1, fromBE_zero, nopad_zero]
          exact ⟨rfl, rfl⟩
        · exact ⟨rfl, rfl⟩
  exact this _ b (Nat.le_refl _)

theorem skipZeros_ok (b : Bytes) : ∀ x r, b = x :: r → x.toNat < 128 → bigUintOk (skipZeros b) = true := by
  have : ∀ (n : Nat) (b : Bytes), b.length ≤ n → ∀ x r, b = x :: r → x.toNat < 128 → bigUintOk (skipZeros b) = true := by
    intro n
    induction n with
    | zero => intro b hb x r h; rw [h] at hb; simp at hb
    | succ n ih =>
      intro b hb x r h hx
      match b with
      | [z] =>
        injection h with h _
        subst h
        simpa [skipZeros, bigUintOk] using hx
      | z :: y :: r' =>
        injection h with h _
        subst h
        rw [skipZeros]
        split
        · rename_i hc
          exact ih (y :: r') (by simp only [List.length_cons] at hb ⊢; omega) y r' rfl hc.2
        · rename_i hc
          unfold bigUintOk
          simp only [Bool.and_eq_true, decide_eq_true_eq, Bool.not_eq_true', Bool.and_eq_false_iff, beq_eq_false_iff_ne, decide_eq_false_iff_not]
          refine ⟨hx, ?_⟩
          by_cases hz : z = 0
          · exact .inr fun hy => hc ⟨hz, hy⟩
          · exact .inl hz
  exact this _ b (Nat.le_refl _)

/-- The number written by `DerEncBigUint::new`. -/
def derUintData (x : UInt8) (r : Bytes) : Bytes := if 128 ≤ x.toNat then 0 :: x :: r else skipZeros (x :: r)

theorem derUint_cons (x : UInt8) (r : Bytes) : derUint (x :: r) = .ok (derUintData x r) ∧ bigUintOk (derUintData x r) = true := by
  have ok : bigUintOk (derUintData x r) = true := by
    unfold derUintData
    by_cases hx : 128 ≤ x.toNat
    · rw [if_pos hx]
      unfold bigUintOk
      have : ¬ x.toNat < 128 := by omega
      simp [this]
    · rw [if_neg hx]
      exact skipZeros_ok _ x r rfl (by omega)
  refine ⟨?_, ok⟩
  have : derUint (x :: r) = if bigUintOk (derUintData x r) = true then .ok (derUintData x r) else .error .generalError := rfl
  rw [this, if_pos ok]

/-- `DerEncBigUint::new` fails only by its panic. -/
theorem derUint_total (b : Bytes) (h : b ≠ []) : ∃ d, derUint b = .ok d := by
  cases b with
  | nil => exact absurd rfl h
  | cons x r => exact ⟨_, (derUint_cons x r).1⟩

/-- What it gives: a DER number with the same value. -/
theorem derUint_facts {b d : Bytes} (h : derUint b = .ok d) : bigUintOk d = true ∧ fromBE d = fromBE b ∧ nopad d = nopad b := by
  cases b with
  | nil => cases h
  | cons x r =>
    obtain ⟨h1, h2⟩ := derUint_cons x r
    rw [h1] at h
    injection h with h; subst h
    refine ⟨h2, ?_⟩
    unfold derUintData
    split
    · exact ⟨fromBE_zero _, nopad_zero _⟩
    · exact skipZeros_facts _

/-- A DER number is kept. -/
theorem derUint_self {d : Bytes} (h : bigUintOk d = true) : derUint d = .ok d := by
  match d with
  | [x] =>
    have hx : x.toNat < 128 := by simpa [bigUintOk] using h
    rw [(derUint_cons x []).1]
    unfold derUintData
    rw [if_neg (by omega)]; rfl
  | x :: y :: r =>
    unfold bigUintOk at h
    simp only [Bool.and_eq_true, decide_eq_true_eq, Bool.not_eq_true', Bool.and_eq_false_iff, beq_eq_false_iff_ne, decide_eq_false_iff_not] at h
    have hs : skipZeros (x :: y :: r) = x :: y :: r := by
      rw [skipZeros, if_neg]
      intro hc
      rcases h.2 with h | h
      · exact h hc.1
      · exact h hc.2
    rw [(derUint_cons x (y :: r)).1]
    unfold derUintData
    rw [if_neg (by omega), hs]

theorem uintField_int {d : Bytes} (h : bigUintOk d = true) (rest : Bytes) (hl : d.length < 2 ^ 32) : uintField (derInt d ++ rest) = .ok (d, rest) := by
  unfold uintField derInt
  rw [derField_tlv 2 (by decide) d rest hl]
  simp only
  rw [derUint_self h]

theorem uintFields_ints : ∀ (ds : List Bytes) (rest : Bytes), (∀ d ∈ ds, bigUintOk d = true ∧ d.length < 2 ^ 32) →
    uintFields ds.length ((ds.map derInt).flatten ++ rest) = .ok (ds, rest) := by
  intro ds
  induction ds with
  | nil => intro rest _; rfl
  | cons d ds ih =>
    intro rest h
    rw [List.map_cons, List.flatten_cons, List.append_assoc, List.length_cons, uintFields, uintField_int (h d (.head _)).1 _ (h d (.head _)).2]
    simp only
    rw [ih rest (fun x hx => h x (.tail _ hx))]

theorem u64Field_small (n : UInt8) (hn : n.toNat < 128) (rest : Bytes) : u64Field (derTlv 2 [n] ++ rest) = .ok (n.toNat, rest) := by
  unfold u64Field
  rw [derField_tlv 2 (by decide) [n] rest (by simp)]
  have h1 : fromBE [n] = n.toNat := by simp [fromBE, fromLE]
  have : bigUintOk [n] = true := by simpa [bigUintOk] using hn
  simp only
  rw [h1, this, if_pos]
  simp
  omega

theorem mem_flatten_len {ds : List Bytes} {d : Bytes} (h : d ∈ ds) : d.length < ((ds.map derInt).flatten).length := by
  induction ds with
  | nil => cases h
  | cons x ds ih =>
    rw [List.map_cons, List.flatten_cons, List.length_append]
    cases h with
    | head =>
      have := derTlv_len 2 d
      unfold derInt; omega
    | tail _ h => have := ih h; omega

/-- The numbers of an RSA key are read back. -/
theorem parseRsa_write (ds : List Bytes) (h8 : ds.length = 8) (hok : ∀ d ∈ ds, bigUintOk d = true)
    (hl : (derTlv 2 [0] ++ (ds.map derInt).flatten).length < 2 ^ 32) : parseRsa (derTlv 0x30 (derTlv 2 [0] ++ (ds.map derInt).flatten)) = .ok ds := by
  have hl8 : ∀ d ∈ ds, bigUintOk d = true ∧ d.length < 2 ^ 32 := fun d hd =>
    ⟨hok d hd, by have := mem_flatten_len hd; rw [List.length_append] at hl; omega⟩
  unfold parseRsa derSeq
  have := derField_tlv 0x30 (by decide) (derTlv 2 [0] ++ (ds.map derInt).flatten) [] hl
  rw [List.append_nil] at this
  rw [this]
  simp only [if_true]
  rw [u64Field_small 0 (by decide)]
  simp only
  have := uintFields_ints ds [] hl8
  rw [List.append_nil, h8] at this
  rw [this]
  simp

/-- PKCS#8 data is opened, also behind a padding with zeros. -/
theorem openPkcs8_write (attrsOk : Bytes → Bool) (alg key pad : Bytes) (hp : ∀ x ∈ pad, x = 0) (hl : (pkcs8 alg key).length < 2 ^ 32) :
    openPkcs8 attrsOk (pkcs8 alg key ++ pad) = .ok (alg, key) := by
  unfold pkcs8 at hl ⊢
  have hb := derTlv_len 0x30 (derTlv 2 [0] ++ (derTlv 0x30 alg ++ derTlv 4 key))
  have h1 : (derTlv 0x30 alg).length + (derTlv 4 key).length ≤ (derTlv 2 [0] ++ (derTlv 0x30 alg ++ derTlv 4 key)).length := by
    simp only [List.length_append]; omega
  have ha := derTlv_len 0x30 alg
  have hk := derTlv_len 4 key
  unfold openPkcs8
  rw [derRead_tlv 0x30 (by decide) _ pad (by omega)]
  simp only
  have : pad.all (· == 0) = true := by rw [List.all_eq_true]; intro x hx; simp [hp x hx]
  rw [this]
  simp only [Bool.not_true, Bool.false_eq_true, if_false, ne_eq, not_true_eq_false]
  unfold parsePkcs8
  rw [u64Field_small 0 (by decide)]
  simp only
  rw [derField_tlv 0x30 (by decide) alg _ (by omega)]
  simp only
  have := derField_tlv 4 (by decide) key [] (by omega)
  rw [List.append_nil] at this
  rw [this]
  simp

end Kry
