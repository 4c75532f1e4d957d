import Verif.Props.C17

/-!
# C45, C46: the simple derivations (concatenate, xor, extract)
-/

namespace Kry
open Spec

namespace Spec

/-- Bit `i` of a byte string, most significant bit of the first byte first. -/
def bitAt (v : Bytes) (i : Nat) : Bool := (v.getD (i / 8) 0).toNat.testBit (7 - i % 8)

/-- What PKCS#11 says the `n`-byte output of each mechanism is, for base key value `v`. -/
def SimpleOutput (k : SimpleKdf) (v : Bytes) (n : Nat) (out : Bytes) : Prop :=
  out.length = n ∧
  match k with
  | .baseAndKey other => out <+: v ++ other.value
  | .baseAndData d => out <+: v ++ d
  | .dataAndBase d => out <+: d ++ v
  | .xor d => out <+: List.zipWith (· ^^^ ·) v d
  | .extract off => ∀ j < 8 * n, bitAt out j = bitAt v ((off + j) % (8 * v.length))

end Spec

theorem resize_prefix (v : Bytes) (n : Nat) (h : n ≤ v.length) : resize v n = v.take n := by
  unfold resize
  have : n - v.length = 0 := by omega
  rw [this]; simp

theorem xor_zip (d v : Bytes) (n : Nat) (h1 : n ≤ d.length) (h2 : n ≤ v.length) :
    resize (d.zipIdx.map fun (x, i) => match v[i]? with | some b => x ^^^ b | none => x) n
      = (List.zipWith (· ^^^ ·) v d).take n := by
  rw [resize_prefix _ _ (by simpa using h1)]
  apply List.ext_getElem
  · simp; omega
  · intro i hi hi'
    simp at hi hi'
    simp
    have : i < v.length := by omega
    rw [List.getElem?_eq_getElem this]
    simp only
    exact UInt8.xor_comm _ _

theorem extract_bit (a b : Nat) (sh k : Nat) (hb : b < 256) (h0 : 0 < sh) (h8 : sh < 8) (hk : k < 8) :
    (((a * 2 ^ sh) % 256 ||| b / 2 ^ (8 - sh)) % 256).testBit (7 - k)
      = if k + sh < 8 then a.testBit (7 - (k + sh)) else b.testBit (7 - (k + sh - 8)) := by
  have e : (256 : Nat) = 2 ^ 8 := by decide
  rw [e, Nat.testBit_mod_two_pow, Nat.testBit_or, Nat.testBit_mod_two_pow, Nat.testBit_mul_two_pow,
    Nat.testBit_div_two_pow]
  have l1 : 7 - k < 8 := by omega
  simp only [l1, decide_true, Bool.true_and]
  by_cases h : k + sh < 8
  · have hs : sh ≤ 7 - k := by omega
    have hz : b.testBit (7 - k + (8 - sh)) = false := by
      apply Nat.testBit_lt_two_pow
      apply Nat.lt_of_lt_of_le hb
      rw [e]
      exact Nat.pow_le_pow_right (by decide) (by omega)
    rw [if_pos h, hz]
    simp [hs]
    congr 1; omega
  · have hs : ¬ sh ≤ 7 - k := by omega
    rw [if_neg h]
    simp [hs]
    congr 1; omega

theorem extractByte_bit (v : Bytes) (off i k : Nat) (hs : off % 8 ≠ 0) (hk : k < 8) (hv : v.length ≠ 0) :
    (extractByte v off i).toNat.testBit (7 - k) = bitAt v ((off + (8 * i + k)) % (8 * v.length)) := by
  unfold extractByte
  simp only [UInt8.toNat_ofNat']
  unfold shl8 shr8
  have m : (8 - off % 8) % 8 = 8 - off % 8 := by omega
  rw [m]
  rw [extract_bit _ _ (off % 8) k (UInt8.toNat_lt _) (by omega) (by omega) hk]
  have hbase : (off - off % 8) / 8 = off / 8 := by omega
  rw [hbase]
  unfold bitAt
  have e1 : (off + (8 * i + k)) % (8 * v.length) % 8 = (off + k) % 8 := by
    rw [Nat.mod_mul_right_mod]; omega
  have e2 : (off + (8 * i + k)) % (8 * v.length) / 8 = ((off + (8 * i + k)) / 8) % v.length := by
    rw [Nat.mod_mul_right_div_self]
  rw [e1, e2]
  by_cases h : k + off % 8 < 8
  · rw [if_pos h]
    have : (off + (8 * i + k)) / 8 = off / 8 + i := by omega
    rw [this]
    congr 1; omega
  · rw [if_neg h]
    have : (off + (8 * i + k)) / 8 = off / 8 + i + 1 := by omega
    rw [this]
    congr 1; omega

theorem bitAt_map (n : Nat) (f : Nat → UInt8) (j : Nat) (hj : j < 8 * n) :
    bitAt ((List.range n).map f) j = (f (j / 8)).toNat.testBit (7 - j % 8) := by
  unfold bitAt
  have : j / 8 < n := by omega
  simp [List.getD, this]

theorem value_setKey {F : Factory} {o o' : Obj} {v : Bytes} (h : setKey F o v = .ok o') :
    value o' CKA_VALUE = some v := by
  unfold setKey at h
  split at h
  · cases h
  · have hv : (o.put (Attr.ofBytes CKA_VALUE v)).find CKA_VALUE = some (Attr.ofBytes CKA_VALUE v) := by
      rw [find_put]; exact if_pos rfl
    have fin : ∀ {n : Nat}, (o.put (Attr.ofBytes CKA_VALUE v)).ensureUlong CKA_VALUE_LEN n = .ok o' →
        value o' CKA_VALUE = some v := by
      intro n h
      rw [value_eq, same_ensureUlong (l := [CKA_VALUE_LEN]) (by simp) h CKA_VALUE (by decide), hv]; rfl
    unfold setKeyLen at h
    split at h
    · split at h
      · cases h
      · exact fin h
    · exact fin h

/-- **C46** (partial: CKM_EXTRACT_KEY_FROM_KEY only for bit offsets that are not a multiple of 8, see
`C46_extract_aligned_wrong`).  A successful derivation stores exactly the bytes the mechanism
specifies, of the length that CKA_VALUE_LEN says if the template has it. -/
theorem C46_output_partial (k : SimpleKdf) (uid : Bytes) (key : Obj) (tm : Template) (o : Obj) (v : Bytes)
    (h : simpleDerive k uid key tm = .ok o) (hv : value key CKA_VALUE = some v)
    (hoff : ∀ off, k = .extract off → off % 8 ≠ 0) :
    ∃ out, value o CKA_VALUE = some out ∧ SimpleOutput k v out.length out ∧
      (∀ c ∈ tm, c.typ = CKA_VALUE_LEN → (∀ d ∈ tm, d.typ = CKA_VALUE_LEN → d = c) → c.toUlong = .ok out.length) := by
  unfold simpleDerive at h
  split at h; · cases h
  split at h; · cases h
  rename_i base hbase
  have hbv : base.value = v := by
    unfold KeyInfo.ofObj at hbase
    split at hbase
    · cases hbase
    · rename_i w hw
      injection hbase with hbase
      subst hbase
      unfold Obj.getBytes at hw
      rw [value_eq] at hv
      split at hw
      · cases hw
      · rename_i a ha
        rw [ha] at hv; injection hv with hv
        unfold Attr.toBytes at hw
        split at hw
        · cases hw
        · injection hw with hw; exact hw.symm.trans hv
  simp only at h
  split at h; · cases h
  rename_i F hF
  split at h; · cases h
  split at h; · cases h
  rename_i o2 _
  split at h; · cases h
  rename_i n hn
  split at h
  · rename_i hlen
    split at h
    · rw [hbv] at h hlen
      have hout : SimpleOutput k v n (k.output v n) := by
        cases k with
        | baseAndKey other =>
          simp [SimpleKdf.lenOk, SimpleKdf.outlen] at hlen
          simp only [SimpleKdf.output, resize_prefix _ _ (show n ≤ (v ++ other.value).length by simpa using hlen)]
          exact ⟨by simp; omega, List.take_prefix _ _⟩
        | baseAndData d =>
          simp [SimpleKdf.lenOk, SimpleKdf.outlen] at hlen
          simp only [SimpleKdf.output, resize_prefix _ _ (show n ≤ (v ++ d).length by simpa using hlen)]
          exact ⟨by simp; omega, List.take_prefix _ _⟩
        | dataAndBase d =>
          simp [SimpleKdf.lenOk, SimpleKdf.outlen] at hlen
          simp only [SimpleKdf.output, resize_prefix _ _ (show n ≤ (d ++ v).length by simp; omega)]
          exact ⟨by simp; omega, List.take_prefix _ _⟩
        | xor d =>
          simp [SimpleKdf.lenOk, SimpleKdf.outlen] at hlen
          have e : SimpleKdf.output (.xor d) v n = (List.zipWith (· ^^^ ·) v d).take n :=
            xor_zip d v n (by omega) (by omega)
          rw [e]
          exact ⟨by simp; omega, List.take_prefix _ _⟩
        | extract off =>
          simp [SimpleKdf.lenOk] at hlen
          refine ⟨by simp [SimpleKdf.output], ?_⟩
          intro j hj
          have hs := hoff off rfl
          show bitAt ((List.range n).map fun i => extractByte v off i) j = _
          rw [bitAt_map _ _ _ hj, extractByte_bit v off (j / 8) (j % 8) hs (by omega) (by omega)]
          have : 8 * (j / 8) + j % 8 = j := by omega
          rw [this]
      refine ⟨_, value_setKey h, ?_, ?_⟩
      · rw [hout.1]; exact hout
      · intro c hc ht huniq
        rw [hout.1, ← hn]
        have hfind : ∀ (l : Template), (∃ x, l = tm ++ x) → Template.findA l CKA_VALUE_LEN = some c := by
          rintro l ⟨x, rfl⟩
          unfold Template.findA
          rw [List.find?_append]
          cases hf : tm.find? (fun c => c.typ == CKA_VALUE_LEN) with
          | none =>
            rw [List.find?_eq_none] at hf
            exact absurd (by simpa using ht) (hf c hc)
          | some d =>
            have h1 := List.mem_of_find?_eq_some hf
            have h2 := List.find?_some hf
            rw [huniq d h1 (by simpa using h2)]; rfl
        rw [hfind]
        unfold Template.addMissingUlong
        split
        · split
          · exact ⟨[], by simp⟩
          · exact ⟨_, rfl⟩
        · split
          · exact ⟨_, rfl⟩
          · exact ⟨_, by rw [List.append_assoc]⟩
    · cases h
  · cases h

/-! ## Non-vacuity and counterexamples -/

/-- An AES key that may be used for derivation; it is sensitive and cannot be extracted. -/
def exDerTmpl : Template :=
  [.ofUlong CKA_CLASS CKO_SECRET_KEY, .ofUlong CKA_KEY_TYPE CKK_AES, .mk' CKA_VALUE exKeyBytes,
   .ofBool CKA_DERIVE true]
def exDer : Obj := okObj (factoriesCreate exOracle exUid exDerTmpl)

example : factoriesCreate exOracle exUid exDerTmpl = .ok exDer ∧ value exDer CKA_VALUE = some exKeyBytes := by
  decide +kernel

/-- Each mechanism succeeds on it; the outputs are not trivial. -/
example :
    let go := fun k => (okObj (simpleDerive k exUid2 exDer [.ofUlong CKA_VALUE_LEN 3])).getBytes CKA_VALUE
    go (.baseAndKey ⟨true, false, false, false, [9, 9]⟩) = .ok [1, 2, 3] ∧ go (.baseAndData [7]) = .ok [1, 2, 3] ∧
    go (.dataAndBase [7]) = .ok [7, 1, 2] ∧ go (.xor [255, 255, 255]) = .ok [254, 253, 252] ∧
    go (.extract 12) = .ok [32, 48, 64] := by decide +kernel

/-- CKM_EXTRACT_KEY_FROM_KEY with a byte-aligned offset computes a wrong key (in a debug build it panics
instead): the two bytes at bit 0 of `01 02 03 ...` should be `01 02`, the code answers `03 03`. -/
theorem C46_extract_aligned_wrong : ∃ (o : Obj),
    simpleDerive (.extract 0) exUid2 exDer [.ofUlong CKA_VALUE_LEN 2] = .ok o ∧
    value exDer CKA_VALUE = some [1, 2, 3, 4, 5, 6, 7, 8, 9, 10, 11, 12, 13, 14, 15, 16] ∧
    value o CKA_VALUE = some [3, 3] ∧
    ¬ SimpleOutput (.extract 0) [1, 2, 3, 4, 5, 6, 7, 8, 9, 10, 11, 12, 13, 14, 15, 16] 2 [3, 3] := by
  refine ⟨okObj (simpleDerive (.extract 0) exUid2 exDer [.ofUlong CKA_VALUE_LEN 2]), by decide +kernel,
    by decide +kernel, by decide +kernel, ?_⟩
  rintro ⟨_, h⟩
  have := h 6 (by decide)
  exact absurd this (by decide)

/-! ## C45: derivation does not lower the protection of the base key -/

/-- **C45** for CKM_CONCATENATE_BASE_AND_KEY: if either key is sensitive the result is; if either cannot
be extracted the result cannot. -/
theorem C45_concat_inherits_partial (other : KeyInfo) (uid : Bytes) (key key2 : Obj) (tm : Template) (o : Obj)
    (hko : KeyInfo.ofObj key2 = .ok other)
    (h : simpleDerive (.baseAndKey other) uid key tm = .ok o) :
    (key.isSensitive = true ∨ key2.isSensitive = true → IsTrue o CKA_SENSITIVE) ∧
    (key.isExtractable = false ∨ key2.isExtractable = false → IsFalse o CKA_EXTRACTABLE) := by
  obtain ⟨base, tm', F, kk, o1, o2, hb, _, _, _, ho2, sk⟩ := simple_shape h
  have ki : ∀ {o : Obj} {i : KeyInfo}, KeyInfo.ofObj o = .ok i → i.sensitive = o.isSensitive ∧
      i.extractable = o.isExtractable := by
    intro o i h
    unfold KeyInfo.ofObj at h
    split at h
    · cases h
    · injection h with h; subst h; simp
  obtain ⟨b1, b2⟩ := ki hb
  obtain ⟨c1, c2⟩ := ki hko
  simp only at ho2
  unfold baseAndKeyAttrs at ho2
  simp only at ho2
  split at ho2
  · cases ho2
  · rename_i s hs'
    split at ho2
    · cases ho2
    · rename_i x hx'
      injection ho2 with ho2
      have e2 : ¬ (CKA_NEVER_EXTRACTABLE = CKA_SENSITIVE) := by decide
      have e3 : ¬ (CKA_ALWAYS_SENSITIVE = CKA_SENSITIVE) := by decide
      have e4 : ¬ (CKA_EXTRACTABLE = CKA_SENSITIVE) := by decide
      have e5 : ¬ (CKA_NEVER_EXTRACTABLE = CKA_EXTRACTABLE) := by decide
      have e6 : ¬ (CKA_ALWAYS_SENSITIVE = CKA_EXTRACTABLE) := by decide
      constructor
      · intro hor
        have hs : s = true := by
          rw [← b1, ← c1] at hor
          rcases hor with h | h <;> rw [h] at hs' <;> simp at hs' <;> exact hs'
        unfold IsTrue
        rw [same_value sk (by decide)]
        exact (isTrue_ofBool (b := s) (by rw [← ho2]; simp [find_setBool, e2, e3, e4])).mpr hs
      · intro hor
        have hx : x = false := by
          rw [← b2, ← c2] at hor
          rcases hor with h | h <;> rw [h] at hx' <;> simp at hx' <;> exact hx'
        unfold IsFalse
        rw [same_value sk (by decide), value_eq, ← ho2]
        simp [find_setBool, e5, e6, hx, Attr.ofBool]

example : ∃ o, KeyInfo.ofObj exDer = .ok ⟨true, false, false, false, exKeyBytes⟩ ∧
    simpleDerive (.baseAndKey ⟨true, false, false, false, exKeyBytes⟩) exUid2 exDer
      [.ofBool CKA_SENSITIVE false, .ofBool CKA_EXTRACTABLE true] = .ok o ∧ exDer.isSensitive = true ∧
      exDer.isExtractable = false :=
  ⟨okObj (simpleDerive (.baseAndKey ⟨true, false, false, false, exKeyBytes⟩) exUid2 exDer
      [.ofBool CKA_SENSITIVE false, .ofBool CKA_EXTRACTABLE true]), by decide +kernel⟩

/-- The other simple mechanisms let the template choose: from a key that is sensitive and cannot be
extracted, one C_DeriveKey (xor with zeros, or concatenation with one byte) and one C_GetAttributeValue
read the secret value. -/
theorem C45_launders : ∃ (d1 d2 : Bytes) (tm : Template) (o1 o2 : Obj) (b1 b2 : Bytes),
    IsTrue exDer CKA_SENSITIVE ∧ IsFalse exDer CKA_EXTRACTABLE ∧ value exDer CKA_VALUE = some exKeyBytes ∧
    simpleDerive (.xor d1) exUid2 exDer tm = .ok o1 ∧ simpleDerive (.baseAndData d2) exUid2 exDer tm = .ok o2 ∧
    getObjectAttributes o1 [⟨CKA_VALUE, false, 16, List.replicate 16 0⟩] = (.ok (), [⟨CKA_VALUE, false, 16, b1⟩]) ∧
    getObjectAttributes o2 [⟨CKA_VALUE, false, 16, List.replicate 16 0⟩] = (.ok (), [⟨CKA_VALUE, false, 16, b2⟩]) ∧
    b1 = exKeyBytes ∧ b2 = exKeyBytes := by
  refine ⟨List.replicate 16 0, [0], [.ofBool CKA_SENSITIVE false, .ofBool CKA_EXTRACTABLE true, .ofUlong CKA_VALUE_LEN 16],
    okObj (simpleDerive (.xor (List.replicate 16 0)) exUid2 exDer
      [.ofBool CKA_SENSITIVE false, .ofBool CKA_EXTRACTABLE true, .ofUlong CKA_VALUE_LEN 16]),
    okObj (simpleDerive (.baseAndData [0]) exUid2 exDer
      [.ofBool CKA_SENSITIVE false, .ofBool CKA_EXTRACTABLE true, .ofUlong CKA_VALUE_LEN 16]),
    exKeyBytes, exKeyBytes, ⟨1, by decide +kernel⟩, ?_⟩
  unfold IsFalse
  decide +kernel

end Kry
