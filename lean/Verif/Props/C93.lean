import Verif.Props.C92

/-!
# C93: what the numbers of a mechanism and its parameter mean

The numbers are those of PKCS #11 v3.2, written out, and the tables are compared with them in both directions.

* `C93_pq`, `C93_pqSet`: mechanisms and parameter sets of ML-DSA and SLH-DSA.
* `C93_aes`, `C93_mac`, `C93_ecdsa`: the modes of AES, AES-MAC and CMAC, ECDSA.
* `C93_rsa`: mechanisms of RSA with CK_RSA_PKCS_PSS_PARAMS.
* `C93_pss`: through the calls of a session, the answers for a parameter of RSA-PSS that is refused.  `C93_pss_taken`: for one that is read.
* `C93_hash_violation`: the hash of the parameter may be given as a MAC or a signature mechanism, which is no hash.
-/

namespace Kry
namespace Spec

/-- CKM_SHA_1, CKM_SHA224, … . -/
def rsaHashNo : RsaHash → Nat
  | .sha1 => 0x220 | .sha224 => 0x255 | .sha256 => 0x250 | .sha384 => 0x260 | .sha512 => 0x270
  | .sha3_224 => 0x2b5 | .sha3_256 => 0x2b0 | .sha3_384 => 0x2c0 | .sha3_512 => 0x2d0

/-- CKG_MGF1_SHA1, … . -/
def rsaMgfNo : RsaHash → Nat
  | .sha1 => 1 | .sha256 => 2 | .sha384 => 3 | .sha512 => 4 | .sha224 => 5
  | .sha3_224 => 6 | .sha3_256 => 7 | .sha3_384 => 8 | .sha3_512 => 9

/-- CKM_SHA1_RSA_PKCS, … . -/
def rsaPkcsNo : RsaHash → Nat
  | .sha1 => 0x06 | .sha256 => 0x40 | .sha384 => 0x41 | .sha512 => 0x42 | .sha224 => 0x46
  | .sha3_256 => 0x60 | .sha3_384 => 0x61 | .sha3_512 => 0x62 | .sha3_224 => 0x66

/-- CKM_SHA1_RSA_PKCS_PSS, … . -/
def rsaPssNo : RsaHash → Nat
  | .sha1 => 0x0e | .sha256 => 0x43 | .sha384 => 0x44 | .sha512 => 0x45 | .sha224 => 0x47
  | .sha3_256 => 0x63 | .sha3_384 => 0x64 | .sha3_512 => 0x65 | .sha3_224 => 0x67

/-- CKM_ECDSA_SHA1, … . -/
def ecdsaNo : RsaHash → Nat
  | .sha1 => 0x1042 | .sha224 => 0x1043 | .sha256 => 0x1044 | .sha384 => 0x1045 | .sha512 => 0x1046
  | .sha3_224 => 0x1047 | .sha3_256 => 0x1048 | .sha3_384 => 0x1049 | .sha3_512 => 0x104a

/-- The numbers the token reads as a hash in a parameter, for CKM_RSA_PKCS_PSS only the first: the hash, and its MACs and signatures. -/
def readsHash (n : Nat) (h : RsaHash) : Prop :=
  n = rsaHashNo h ∨ n = rsaHashNo h + 1 ∨ n = rsaHashNo h + 2 ∨ n = rsaPkcsNo h ∨ n = rsaPssNo h ∨ n = ecdsaNo h

/-- CK_RSA_PKCS_PSS_PARAMS with the hash as numbered by `n`. -/
def pssParam (n : Nat) (p : RsaPss) : Bytes := ulongBytes n ++ ulongBytes (rsaMgfNo p.mgf) ++ ulongBytes p.salt

/-- Parameter `q` says `p`. -/
def pssSays (q : Bytes) (p : RsaPss) : Prop := p.salt < 2 ^ 64 ∧ ∃ n, readsHash n p.hash ∧ q = pssParam n p

/-- Mechanism `m` with parameter `q` stands for `mech`. -/
def rsaMeans (m : Nat) (q : Bytes) : RsaMech → Prop
  | .pkcs => m = 1
  | .x509 => m = 3
  | .pss p => m = 0x0d ∧ p.salt < 2 ^ 64 ∧ q = pssParam (rsaHashNo p.hash) p
  | .hashPkcs h => m = rsaPkcsNo h
  | .hashPss h p => m = rsaPssNo h ∧ pssSays q p
  | .oaep _ | .other => False

/-- The mechanisms of ML-DSA and, for `true`, SLH-DSA. -/
def pqNumber : Bool → PqMech → Option Nat
  | false, .pure => some 0x1d
  | false, .prehash => some 0x1f
  | false, .hashed .sha224 => some 0x23
  | false, .hashed .sha256 => some 0x24
  | false, .hashed .sha384 => some 0x25
  | false, .hashed .sha512 => some 0x26
  | false, .hashed .sha3_224 => some 0x27
  | false, .hashed .sha3_256 => some 0x28
  | false, .hashed .sha3_384 => some 0x29
  | false, .hashed .sha3_512 => some 0x2a
  | true, .pure => some 0x2e
  | true, .prehash => some 0x34
  | true, .hashed .sha224 => some 0x36
  | true, .hashed .sha256 => some 0x37
  | true, .hashed .sha384 => some 0x38
  | true, .hashed .sha512 => some 0x39
  | true, .hashed .sha3_224 => some 0x3a
  | true, .hashed .sha3_256 => some 0x3b
  | true, .hashed .sha3_384 => some 0x3c
  | true, .hashed .sha3_512 => some 0x3d
  | _, _ => none

/-- The values of CKA_PARAMETER_SET, with the family. -/
def pqSetNumber : PqSet → Bool × Nat
  | .ml44 => (false, 1) | .ml65 => (false, 2) | .ml87 => (false, 3)
  | .slh128s k => (true, if k then 2 else 1)
  | .slh128f k => (true, if k then 4 else 3)
  | .slh192s k => (true, if k then 6 else 5)
  | .slh192f k => (true, if k then 8 else 7)
  | .slh256s k => (true, if k then 10 else 9)
  | .slh256f k => (true, if k then 12 else 11)

/-- SHA-512/224 and SHA-512/256 with their MACs, which the model leaves out. -/
def sha512t (n : Nat) : Prop := 0x48 ≤ n ∧ n ≤ 0x4e

/-- Why a parameter of RSA-PSS is refused: its size; a hash that is none; a mask function that is none, or another hash than that of the mechanism. -/
inductive PssRefused (m : Nat) (q : Bytes) : Rv → Prop
  | size : q.length ≠ 24 → PssRefused m q .argumentsBad
  | hash : q.length = 24 → ¬ sha512t (fromLE (q.take 8)) → (∀ h, ¬ readsHash (fromLE (q.take 8)) h) → PssRefused m q .mechanismInvalid
  | mask {h} : q.length = 24 → readsHash (fromLE (q.take 8)) h → (∀ g, rsaMgfNo g ≠ fromLE ((q.drop 8).take 8)) → PssRefused m q .mechanismParamInvalid
  | other {h h'} : q.length = 24 → readsHash (fromLE (q.take 8)) h → m = rsaPssNo h' → h' ≠ h → PssRefused m q .mechanismParamInvalid

/-- The modes of AES. -/
def aesNumber : AesMech → Nat
  | .ecb => 0x1081 | .cbc => 0x1082 | .cbcPad => 0x1085 | .ctr => 0x1086 | .gcm => 0x1087 | .ccm => 0x1088 | .cts => 0x1089

/-- AES-MAC and, for `cmac`, CMAC; `general` are those with a length. -/
def macNumber (cmac general : Bool) : Nat := (if cmac then 0x108a else 0x1083) + if general then 1 else 0

end Spec

open Spec

/-- What a table has is in it. -/
theorem tab_mem {β : Type} : {l : List (Nat × β)} → {n : Nat} → {b : β} → l.lookup n = some b → (n, b) ∈ l
  | [], _, _, h => by cases h
  | (a, c) :: l, n, b, h => by
    rw [List.lookup_cons] at h
    by_cases hn : n = a
    · subst hn
      simp only [beq_self_eq_true] at h
      injection h with h
      subst h
      exact List.mem_cons_self
    · rw [show (n == a) = false from by simpa using hn] at h
      exact List.mem_cons_of_mem _ (tab_mem h)

/-- **C93**: the numbers of the mechanisms of ML-DSA and SLH-DSA. -/
theorem C93_pq (m : Nat) (slh : Bool) (mech : PqMech) : pqTab.lookup m = some (slh, mech) ↔ pqNumber slh mech = some m := by
  constructor
  · intro h
    have all : ∀ p ∈ pqTab, pqNumber p.2.1 p.2.2 = some p.1 := by decide
    exact all _ (tab_mem h)
  · intro h
    cases slh <;> cases mech <;> (try (rename_i g; cases g)) <;> first | (injection h with h; subst h; decide) | cases h

/-- **C93**: the numbers of the parameter sets. -/
theorem C93_pqSet (n : Nat) (slh : Bool) (set : PqSet) : (pqSetTab slh).lookup n = some set ↔ pqSetNumber set = (slh, n) := by
  constructor
  · intro h
    have all : ∀ b, ∀ p ∈ pqSetTab b, pqSetNumber p.2 = (b, p.1) := by decide
    exact all slh _ (tab_mem h)
  · intro h
    cases set <;> (try (rename_i b; cases b)) <;> (injection h with h1 h2; subst h1; subst h2; decide)

/-- **C93**: the numbers of the modes of AES. -/
theorem C93_aes (m : Nat) (mech : AesMech) : aesMech m = some mech ↔ m = aesNumber mech := by
  constructor
  · intro h
    unfold aesMech at h
    cases c : aesTable.find? (fun x => x.1 == m) with
    | none => rw [c] at h; cases h
    | some p =>
      rw [c] at h
      injection h with h
      have all : ∀ p ∈ aesTable, p.1 = aesNumber p.2 := by decide
      have e := all p (List.mem_of_find?_eq_some c)
      have e2 : p.1 = m := by simpa using List.find?_some c
      rw [← e2, e, show p.2 = mech from h]
  · rintro rfl
    cases mech <;> decide

/-- **C93**: the numbers of AES-MAC and CMAC. -/
theorem C93_mac (m : Nat) (s : AesSig) : aesSig m = some s ↔ m = macNumber s.cmac s.general := by
  constructor
  · intro h
    unfold aesSig at h
    repeat' split at h
    all_goals first | (cases h; done) | (injection h with h; subst h; assumption)
  · obtain ⟨a, b⟩ := s
    rintro rfl
    cases a <;> cases b <;> decide

/-- **C93**: the numbers of ECDSA: without a hash, and one for each hash. -/
theorem C93_ecdsa (m : Nat) : ecMech m = true ↔ m = 0x1041 ∨ ∃ h, m = ecdsaNo h := by
  constructor
  · intro h
    unfold ecMech at h
    rw [List.contains_iff_mem] at h
    simp only [List.mem_cons, List.not_mem_nil, or_false] at h
    rcases h with h | h | h | h | h | h | h | h | h | h
    · exact .inl h
    · exact .inr ⟨.sha1, h⟩
    · exact .inr ⟨.sha224, h⟩
    · exact .inr ⟨.sha256, h⟩
    · exact .inr ⟨.sha384, h⟩
    · exact .inr ⟨.sha512, h⟩
    · exact .inr ⟨.sha3_224, h⟩
    · exact .inr ⟨.sha3_256, h⟩
    · exact .inr ⟨.sha3_384, h⟩
    · exact .inr ⟨.sha3_512, h⟩
  · rintro (rfl | ⟨h, rfl⟩)
    · decide
    · cases h <;> decide

/-! ## RSA -/

theorem hash_reads (n : Nat) (h : RsaHash) : rsaHashTab.lookup n = some h ↔ readsHash n h := by
  constructor
  · intro hl
    have all : ∀ p ∈ rsaHashTab, (p.1 = rsaHashNo p.2 ∨ p.1 = rsaHashNo p.2 + 1 ∨ p.1 = rsaHashNo p.2 + 2 ∨ p.1 = rsaPkcsNo p.2 ∨ p.1 = rsaPssNo p.2 ∨ p.1 = ecdsaNo p.2) := by decide
    exact all _ (tab_mem hl)
  · intro hr
    rcases hr with h1 | h1 | h1 | h1 | h1 | h1 <;> subst h1 <;> cases h <;> decide

theorem mgf_reads (n : Nat) (g : RsaHash) : rsaMgfTab.lookup n = some g ↔ n = rsaMgfNo g := by
  constructor
  · intro hl
    have all : ∀ p ∈ rsaMgfTab, p.1 = rsaMgfNo p.2 := by decide
    exact all _ (tab_mem hl)
  · intro hr
    subst hr; cases g <;> decide

theorem pkcs_reads (n : Nat) (g : RsaHash) : rsaPkcsTab.lookup n = some g ↔ n = rsaPkcsNo g := by
  constructor
  · intro hl
    have all : ∀ p ∈ rsaPkcsTab, p.1 = rsaPkcsNo p.2 := by decide
    exact all _ (tab_mem hl)
  · intro hr
    subst hr; cases g <;> decide

theorem pss_reads (n : Nat) (g : RsaHash) : rsaPssTab.lookup n = some g ↔ n = rsaPssNo g := by
  constructor
  · intro hl
    have all : ∀ p ∈ rsaPssTab, p.1 = rsaPssNo p.2 := by decide
    exact all _ (tab_mem hl)
  · intro hr
    subst hr; cases g <;> decide

theorem len8 (n : Nat) : (ulongBytes n).length = 8 := by
  unfold ulongBytes; simp [toLE]

theorem reads_small {n : Nat} {h : RsaHash} (hr : readsHash n h) : n < 2 ^ 64 := by
  rcases hr with h1 | h1 | h1 | h1 | h1 | h1 <;> subst h1 <;> cases h <;> decide

theorem pss_take (n : Nat) (p : RsaPss) : (pssParam n p).take 8 = ulongBytes n := by
  unfold pssParam; rw [List.append_assoc, List.take_append_of_le_length (by rw [len8]; omega), List.take_of_length_le (by rw [len8]; omega)]

theorem plain_hash {n : Nat} {h : RsaHash} (hi : rsaIsHash n = true) (hr : readsHash n h) : n = rsaHashNo h := by
  rcases hr with h1 | h1 | h1 | h1 | h1 | h1 <;> subst h1 <;> revert hi <;> cases h <;> decide

/-- The parameter is read as it is meant. -/
theorem pss_of (q : Bytes) (p : RsaPss) : rsaPssOf q = .ok p ↔ pssSays q p := by
  unfold rsaPssOf
  constructor
  · intro h
    by_cases hl : q.length ≠ 24
    · rw [if_pos hl] at h; cases h
    · rw [if_neg hl] at h
      have hl : q.length = 24 := by omega
      cases c1 : rsaHashTab.lookup (fromLE (q.take 8)) with
      | none => rw [c1] at h; cases h
      | some x =>
        rw [c1] at h
        simp only at h
        cases c2 : rsaMgfTab.lookup (fromLE ((q.drop 8).take 8)) with
        | none => rw [c2] at h; cases h
        | some g =>
          rw [c2] at h
          injection h with h
          subst h
          have l3 : (q.drop 16).length = 8 := by rw [List.length_drop]; omega
          have e3 := ulongBytes_fromLE _ l3
          refine ⟨?_, fromLE (q.take 8), (hash_reads _ _).1 c1, ?_⟩
          · have := fromLE_lt (q.drop 16)
            rw [l3] at this
            simpa using this
          · unfold pssParam
            simp only
            rw [← (mgf_reads _ _).1 c2, e3, ulongBytes_fromLE _ (by rw [List.length_take]; omega), ulongBytes_fromLE _ (by rw [List.length_take, List.length_drop]; omega)]
            rw [List.append_assoc, show q.drop 16 = (q.drop 8).drop 8 from by rw [List.drop_drop], List.take_append_drop, List.take_append_drop]
  · rintro ⟨hs, n, hn, rfl⟩
    have l : (pssParam n p).length = 24 := by unfold pssParam; simp [len8]
    rw [if_neg (by omega)]
    have t1 := pss_take n p
    have t2 : (pssParam n p).drop 8 = ulongBytes (rsaMgfNo p.mgf) ++ ulongBytes p.salt := by
      unfold pssParam; rw [List.append_assoc, List.drop_append_of_le_length (by rw [len8]; omega), List.drop_of_length_le (by rw [len8]; omega), List.nil_append]
    have t3 : (pssParam n p).drop 16 = ulongBytes p.salt := by
      rw [show (16 : Nat) = 8 + 8 from rfl, ← List.drop_drop, t2, List.drop_append_of_le_length (by rw [len8]; omega), List.drop_of_length_le (by rw [len8]; omega), List.nil_append]
    have t4 : ((pssParam n p).drop 8).take 8 = ulongBytes (rsaMgfNo p.mgf) := by
      rw [t2, List.take_append_of_le_length (by rw [len8]; omega), List.take_of_length_le (by rw [len8]; omega)]
    rw [t1, fromLE_ulongBytes _ (reads_small hn), (hash_reads _ _).2 hn]
    simp only
    rw [t4, fromLE_ulongBytes _ (show rsaMgfNo p.mgf < 2 ^ 64 by cases p.mgf <;> decide), (mgf_reads _ _).2 rfl]
    simp only
    rw [t3, fromLE_ulongBytes _ hs]

/-- **C93**: the numbers of the mechanisms of RSA, with CK_RSA_PKCS_PSS_PARAMS. -/
theorem C93_rsa (m : Nat) (q : Bytes) (mech : RsaMech) : rsaMechOf m q = .ok mech ↔ rsaMeans m q mech := by
  unfold rsaMechOf
  by_cases h1 : m = CKM_RSA_X_509
  · rw [if_pos h1]; subst h1
    constructor
    · intro h; injection h with h; subst h; rfl
    · intro h
      cases mech with
      | x509 => rfl
      | pkcs => exact absurd (show (_ : Nat) = _ from h) (by decide)
      | oaep p => exact h.elim
      | pss p => exact absurd h.1 (by decide)
      | hashPkcs g => exact absurd (show (_ : Nat) = _ from h) (by cases g <;> decide)
      | hashPss g p => exact absurd h.1 (by cases g <;> decide)
      | other => exact h.elim
  rw [if_neg h1]
  by_cases h2 : m = CKM_RSA_PKCS
  · rw [if_pos h2]; subst h2
    constructor
    · intro h; injection h with h; subst h; rfl
    · intro h
      cases mech with
      | x509 => exact absurd (show (_ : Nat) = _ from h) (by decide)
      | pkcs => rfl
      | oaep p => exact h.elim
      | pss p => exact absurd h.1 (by decide)
      | hashPkcs g => exact absurd (show (_ : Nat) = _ from h) (by cases g <;> decide)
      | hashPss g p => exact absurd h.1 (by cases g <;> decide)
      | other => exact h.elim
  rw [if_neg h2]
  by_cases h3 : m = CKM_RSA_PKCS_PSS
  · rw [if_pos h3]; subst h3
    constructor
    · intro h
      cases c : rsaPssOf q with
      | error r => rw [c] at h; cases h
      | ok p =>
        rw [c] at h
        obtain ⟨hs, n, hn, hq⟩ := (pss_of _ _).1 c
        subst hq
        simp only at h
        rw [pss_take, fromLE_ulongBytes _ (reads_small hn)] at h
        by_cases hi : rsaIsHash n = true
        · rw [if_pos hi] at h
          injection h with h
          subst h
          exact ⟨rfl, hs, by rw [plain_hash hi hn]⟩
        · rw [if_neg hi] at h; cases h
    · intro h
      cases mech with
      | x509 => exact absurd (show (_ : Nat) = _ from h) (by decide)
      | pkcs => exact absurd (show (_ : Nat) = _ from h) (by decide)
      | oaep p => exact h.elim
      | pss p =>
        obtain ⟨-, hs, rfl⟩ := h
        rw [(pss_of _ _).2 ⟨hs, _, .inl rfl, rfl⟩]
        simp only
        rw [pss_take, fromLE_ulongBytes _ (reads_small (.inl rfl)), if_pos (show rsaIsHash (rsaHashNo p.hash) = true by cases p.hash <;> decide)]
      | hashPkcs g => exact absurd (show (_ : Nat) = _ from h) (by cases g <;> decide)
      | hashPss g p => exact absurd h.1 (by cases g <;> decide)
      | other => exact h.elim
  rw [if_neg h3]
  constructor
  · intro h
    cases c1 : rsaPkcsTab.lookup m with
    | some g => rw [c1] at h; injection h with h; subst h; exact (pkcs_reads _ _).1 c1
    | none =>
      rw [c1] at h
      simp only at h
      cases c2 : rsaPssTab.lookup m with
      | none => rw [c2] at h; cases h
      | some g =>
        rw [c2] at h
        simp only at h
        cases c : rsaPssOf q with
        | error r => rw [c] at h; cases h
        | ok p => rw [c] at h; injection h with h; subst h; exact ⟨(pss_reads _ _).1 c2, (pss_of _ _).1 c⟩
  · intro h
    cases mech with
    | x509 => exact absurd h h1
    | pkcs => exact absurd h h2
    | oaep p => exact h.elim
    | pss p => exact absurd h.1 h3
    | hashPkcs g => rw [(pkcs_reads _ _).2 h]
    | hashPss g p =>
      have hn : rsaPkcsTab.lookup m = none := by rw [h.1]; cases g <;> decide
      rw [hn]
      simp only
      rw [(pss_reads _ _).2 h.1]
      simp only
      rw [(pss_of _ _).2 h.2]
    | other => exact h.elim

/-- The parameter of a mechanism of RSA-PSS. -/
theorem pss_mech {m : Nat} {q : Bytes} (hm : m = CKM_RSA_PKCS_PSS ∨ ∃ h, m = rsaPssNo h) :
    rsaSigns m = true ∧ ((∃ r, rsaPssOf q = .error r ∧ rsaMechOf m q = .error r) ∨
      ∃ p, rsaPssOf q = .ok p ∧ ∀ h, m = rsaPssNo h → rsaMechOf m q = .ok (.hashPss h p)) := by
  rcases hm with rfl | ⟨h, rfl⟩
  · refine ⟨by decide, ?_⟩
    cases c : rsaPssOf q with
    | error r => exact .inl ⟨r, rfl, by unfold rsaMechOf; rw [c]; rfl⟩
    | ok p => exact .inr ⟨p, rfl, fun h hh => absurd hh (by cases h <;> decide)⟩
  · refine ⟨by cases h <;> decide, ?_⟩
    cases c : rsaPssOf q with
    | error r => exact .inl ⟨r, rfl, by unfold rsaMechOf; rw [c]; cases h <;> rfl⟩
    | ok p =>
      refine .inr ⟨p, rfl, fun g hg => ?_⟩
      have : h = g := by revert hg; cases h <;> cases g <;> decide
      subst this
      unfold rsaMechOf; rw [c]; cases h <;> rfl

/-- What is refused. -/
theorem pss_refused {m : Nat} {q : Bytes} {r : Rv} (hm : m = CKM_RSA_PKCS_PSS ∨ ∃ h, m = rsaPssNo h) (hr : PssRefused m q r) :
    rsaMechOf m q = .error r ∨ ∃ mech, rsaMechOf m q = .ok mech ∧ rsaSigParams mech = .error r := by
  obtain ⟨-, h | h⟩ := pss_mech (q := q) hm
  · obtain ⟨r', h1, h2⟩ := h
    left
    suffices hs : rsaPssOf q = .error r by rw [h1] at hs; injection hs with hs; subst hs; exact h2
    unfold rsaPssOf
    cases hr with
    | size hl => rw [if_pos hl]
    | hash hl _ hn =>
      rw [if_neg (by omega)]
      cases c : rsaHashTab.lookup (fromLE (q.take 8)) with
      | none => rfl
      | some x => exact absurd ((hash_reads _ _).1 c) (hn x)
    | mask hl hh hn =>
      rw [if_neg (by omega), (hash_reads _ _).2 hh]
      simp only
      cases c : rsaMgfTab.lookup (fromLE ((q.drop 8).take 8)) with
      | none => rfl
      | some x => exact absurd ((mgf_reads _ _).1 c).symm (hn x)
    | other hl hh ho hd =>
      unfold rsaPssOf at h1
      rw [if_neg (by omega), (hash_reads _ _).2 hh] at h1
      rw [if_neg (by omega), (hash_reads _ _).2 hh]
      simp only at h1 ⊢
      cases c : rsaMgfTab.lookup (fromLE ((q.drop 8).take 8)) with
      | none => rfl
      | some x => rw [c] at h1; cases h1
  · obtain ⟨p, h1, h3⟩ := h
    unfold rsaPssOf at h1
    cases hr with
    | size hl => rw [if_pos hl] at h1; cases h1
    | hash hl _ hn =>
      rw [if_neg (by omega)] at h1
      cases c : rsaHashTab.lookup (fromLE (q.take 8)) with
      | none => rw [c] at h1; cases h1
      | some x => exact absurd ((hash_reads _ _).1 c) (hn x)
    | mask hl hh hn =>
      rw [if_neg (by omega), (hash_reads _ _).2 hh] at h1
      simp only at h1
      cases c : rsaMgfTab.lookup (fromLE ((q.drop 8).take 8)) with
      | none => rw [c] at h1; cases h1
      | some x => exact absurd ((mgf_reads _ _).1 c).symm (hn x)
    | @other h h' hl hh ho hd =>
      refine .inr ⟨_, h3 _ ho, ?_⟩
      rw [if_neg (by omega), (hash_reads _ _).2 hh] at h1
      simp only at h1
      have hp : p.hash = h := by
        cases c : rsaMgfTab.lookup (fromLE ((q.drop 8).take 8)) with
        | none => rw [c] at h1; cases h1
        | some x => rw [c] at h1; injection h1 with h1; rw [← h1]
      unfold rsaSigParams
      simp only
      rw [if_pos (by rw [hp]; exact hd)]

variable {M : Mechs} {C : Crypto} {O : Oracle} {d : List (Nat × Db)} {tr : Trace} {e : Env} {h i key m : Nat} {k : OpKind} {q sig : Bytes} {V : Obj → Prop}

/-- **C93**: where a signature or verification with RSA-PSS can be started with a key, the answer for a parameter that is refused. -/
theorem C93_pss {K : RsaKeys} {r : Rv} (hm : m = CKM_RSA_PKCS_PSS ∨ ∃ h, m = rsaPssNo h) (hk : k = .sign ∨ k = .verify ∨ k = .verifySig)
    (hX : CanStart (withRsa M K) C O d tr e h i k m q key sig V) (q' sig' : Bytes) (hr : PssRefused m q' r) :
    startWith (withRsa M K) C O d tr e h k m key q' sig' = .err r := by
  have hd : k ≠ .digest := by rcases hk with h | h | h <;> subst h <;> decide
  have hk' : rsaKind k = true := by rcases hk with h | h | h <;> subst h <;> rfl
  obtain ⟨x, op, -, -, h3⟩ := start_swap hd hX
  rw [h3]
  have hs := (pss_mech (q := q') hm).1
  unfold withRsa
  simp only [hs, hk', if_true]
  unfold rsaStart
  rcases pss_refused hm hr with h1 | ⟨mech, h1, h2⟩
  · rw [h1]; rfl
  · rw [h1]
    simp only
    rw [h2]
    rfl

/-- **C93**: where a signature or verification with RSA-PSS can be started with a key, the answer for another parameter that is read, according to whether OpenSSL takes it. -/
theorem C93_pss_taken {K : RsaKeys} {kd : RsaKey} {q' : Bytes} {mech : RsaMech} (hm : m = CKM_RSA_PKCS_PSS ∨ ∃ h, m = rsaPssNo h) (hk : k = .sign ∨ k = .verify ∨ k = .verifySig)
    (hX : CanStart (withRsa M K) C O d tr e h i k m q key sig (rsaKeyIs k kd)) (hq : rsaMeans m q' mech) (ha : ∀ g p, mech = .hashPss g p → p.hash = g) (sig' : Bytes) :
    startWith (withRsa M K) C O d tr e h k m key q' sig' = if (K.load mech kd).isSome then lenAnswer k kd.n.length sig' else .err .deviceError := by
  have hd : k ≠ .digest := by rcases hk with h | h | h <;> subst h <;> decide
  have hk' : rsaKind k = true := by rcases hk with h | h | h <;> subst h <;> rfl
  obtain ⟨x, op, hx, h2, h3⟩ := start_swap hd hX
  rw [h3]
  have hs := (pss_mech (q := q') hm).1
  have hn : ∀ q s, (withRsa M K).new (e.sub 1) k m q (some x) s = rsaStart K m q (decide (k = .sign)) x (givenFor k s) := by
    intro q s
    unfold withRsa
    simp only [hs, hk', if_true]
    rfl
  rw [hn] at h2 ⊢
  have size : rsaKeySize 1024 16384 kd.n = .ok kd.n.length := by
    unfold rsaStart at h2
    cases c1 : rsaMechOf m q with
    | error r => rw [c1] at h2; cases h2
    | ok mq =>
      rw [c1] at h2
      simp only at h2
      cases c2 : rsaSigParams mq with
      | error r => rw [c2] at h2; cases h2
      | ok u =>
        rw [c2] at h2
        simp only at h2
        rw [rsaKey_is hx] at h2
        simp only at h2
        cases c3 : K.load mq kd with
        | none => rw [c3] at h2; cases h2
        | some P =>
          rw [c3] at h2
          unfold RsaOp.sigverNew at h2
          rw [c2] at h2
          simp only at h2
          unfold rsaKeySize at h2 ⊢
          by_cases hc : kd.n.length * 8 < 1024 ∨ ((16384 : Nat) ≠ 0 ∧ 16384 < kd.n.length * 8)
          · rw [if_pos hc] at h2; cases h2
          · rw [if_neg hc]
  have par : (∃ p, mech = .pss p) ∨ ∃ g p, mech = .hashPss g p ∧ p.hash = g := by
    cases mech with
    | pss p => exact .inl ⟨p, rfl⟩
    | hashPss g p => exact .inr ⟨g, p, rfl, ha _ _ rfl⟩
    | x509 => rcases hm with rfl | ⟨g, rfl⟩; exact absurd (show (_ : Nat) = _ from hq) (by decide); exact absurd (show (_ : Nat) = _ from hq) (by cases g <;> decide)
    | pkcs => rcases hm with rfl | ⟨g, rfl⟩; exact absurd (show (_ : Nat) = _ from hq) (by decide); exact absurd (show (_ : Nat) = _ from hq) (by cases g <;> decide)
    | oaep p => exact hq.elim
    | hashPkcs f =>
      rcases hm with rfl | ⟨g, rfl⟩
      · exact absurd (show (_ : Nat) = _ from hq) (by cases f <;> decide)
      · exact absurd (show (_ : Nat) = _ from hq) (by cases f <;> cases g <;> decide)
    | other => exact hq.elim
  obtain ⟨mx, pp, e1, e2⟩ : ∃ mx pp, rsaMaxLen kd.n.length mech = .ok mx ∧ rsaSigParams mech = .ok pp := by
    rcases par with ⟨p, rfl⟩ | ⟨g, p, rfl, hg⟩
    · exact ⟨_, _, rfl, rfl⟩
    · exact ⟨0, some p, rfl, by unfold rsaSigParams; simp only; rw [if_neg (fun h => h hg.symm)]⟩
  unfold rsaStart
  rw [(C93_rsa _ _ _).2 hq]
  simp only [e2]
  rw [rsaKey_is hx]
  simp only
  cases c3 : K.load mech kd with
  | none => rfl
  | some P =>
    unfold RsaOp.sigverNew
    rw [e2, size]
    simp only [e1, Option.isSome_some, if_true]
    unfold givenFor lenAnswer
    by_cases hv : k = .verifySig
    · simp only [hv, if_true, true_and]
      by_cases hl : sig'.length ≠ kd.n.length
      · rw [if_pos hl, if_pos hl]; rfl
      · rw [if_neg hl, if_neg hl]; rfl
    · simp only [hv, if_false, false_and]
      rfl

/-! ## Cases -/

/-- SHA-256 with a mask of SHA-384 and a salt of 32 bytes. -/
abbrev exPssP : RsaPss := ⟨.sha256, .sha384, 32⟩

example : rsaMechOf 0x43 (pssParam 0x250 exPssP) = .ok (.hashPss .sha256 exPssP) :=
  (C93_rsa _ _ _).2 ⟨rfl, by decide, 0x250, .inl rfl, rfl⟩

example : rsaMechOf 0x0d (pssParam 0x250 exPssP) = .ok (.pss exPssP) := (C93_rsa _ _ _).2 ⟨rfl, by decide, rfl⟩

example : aesMech 0x1086 = some .ctr ∧ aesSig 0x108b = some ⟨true, true⟩ ∧ ecMech 0x1045 = true :=
  ⟨(C93_aes _ _).2 rfl, (C93_mac _ _).2 rfl, (C93_ecdsa _).2 (.inr ⟨.sha384, rfl⟩)⟩

example : pqTab.lookup 0x37 = some (true, .hashed .sha256) := (C93_pq _ _ _).2 rfl

example : (pqSetTab true).lookup 8 = some (.slh192f true) := (C93_pqSet _ _ _).2 rfl

/-- A token with one mechanism and a public key. -/
def exPssTr : Trace :=
  [(exEnv 0, .initialize [(7, ⟨[CKM_SHA256_RSA_PKCS_PSS], none, none⟩)]), (exEnv 1, .initToken 7 exSoPin none),
   (exEnv 2, .openSession 7 (CKF_RW_SESSION ||| CKF_SERIAL_SESSION)),
   (exEnv 3, .login 1 CKU_SO exSoPin), (exEnv 4, .sess 1 (.initPin exPin)), (exEnv 5, .logout 1), (exEnv 6, .login 1 CKU_USER exPin),
   (exEnv 7, .sess 1 (.createObject [.ofUlong CKA_CLASS CKO_PUBLIC_KEY, .ofUlong CKA_KEY_TYPE CKK_RSA,
     .mk' CKA_MODULUS exRsN, .mk' CKA_PUBLIC_EXPONENT [1, 0, 1], .ofBool CKA_VERIFY true]))]

def exPssPub : Obj := (readAt exCrypto (after exRsM exCrypto exOracle [] exPssTr) 7 7).getD (Obj.new 0)

set_option maxRecDepth 20000 in
/-- A session that can verify with CKM_SHA256_RSA_PKCS_PSS. -/
theorem exPss_start {n : Nat} (hn : n = 0x250 ∨ n = 0x251) :
    CanStart exRsM exCrypto exOracle [] exPssTr (exEnv 8) 1 7 .verify CKM_SHA256_RSA_PKCS_PSS (pssParam n exPssP) 7 [] (rsaKeyIs .verify (exRsKey .verify)) where
  there := ⟨exEnv 0, .rwUser, CKF_RW_SESSION ||| CKF_SERIAL_SESSION, by decide +kernel⟩
  value := seen_read (o := exPssPub) (by decide +kernel) (by decide +kernel)
  started := by rcases hn with rfl | rfl <;> decide +kernel

/-- SHA-1 instead, and no parameter at all. -/
example : startWith exRsM exCrypto exOracle [] exPssTr (exEnv 8) 1 .verify CKM_SHA256_RSA_PKCS_PSS 7 (pssParam 0x220 exPssP) [] = .err .mechanismParamInvalid :=
  C93_pss (.inr ⟨.sha256, rfl⟩) (by decide) (exPss_start (.inl rfl)) _ _ (.other (h := .sha1) (h' := .sha256) (by decide) (.inl (by decide)) rfl (by decide))

example : startWith exRsM exCrypto exOracle [] exPssTr (exEnv 8) 1 .verify CKM_SHA256_RSA_PKCS_PSS 7 [] [] = .err .argumentsBad :=
  C93_pss (.inr ⟨.sha256, rfl⟩) (by decide) (exPss_start (.inl rfl)) _ _ (.size (by decide))

/-- A mask of SHA-1 and a salt of 20 bytes instead. -/
example : startWith exRsM exCrypto exOracle [] exPssTr (exEnv 8) 1 .verify CKM_SHA256_RSA_PKCS_PSS 7 (pssParam 0x250 ⟨.sha256, .sha1, 20⟩) [] = .ok :=
  (C93_pss_taken (mech := .hashPss .sha256 ⟨.sha256, .sha1, 20⟩) (.inr ⟨.sha256, rfl⟩) (by decide) (exPss_start (.inl rfl)) ⟨rfl, by decide, 0x250, .inl rfl, rfl⟩
    (fun g p h => by cases h; rfl) _).trans rfl

/-- A hash that is none (0x999), and a mask function that is none. -/
example : PssRefused CKM_RSA_PKCS_PSS (pssParam 0x999 exPssP) .mechanismInvalid :=
  .hash (by decide) (by unfold sha512t; decide) (fun h => by cases h <;> (unfold readsHash; decide))

example : PssRefused CKM_RSA_PKCS_PSS (ulongBytes 0x250 ++ ulongBytes 10 ++ ulongBytes 32) .mechanismParamInvalid :=
  .mask (h := .sha256) (by decide) (.inl (by decide)) (fun g => by cases g <;> decide)

/-- **C93, not met**: a verification is started although the parameter names CKM_SHA256_HMAC, which is no hash, and means what CKM_SHA256 there means. -/
theorem C93_hash_violation : ∃ M C O d tr e h key n,
    (∀ g, n ≠ rsaHashNo g) ∧ startWith M C O d tr e h .verify CKM_SHA256_RSA_PKCS_PSS key (pssParam n exPssP) [] = .ok ∧
      rsaMechOf CKM_SHA256_RSA_PKCS_PSS (pssParam n exPssP) = rsaMechOf CKM_SHA256_RSA_PKCS_PSS (pssParam (rsaHashNo .sha256) exPssP) :=
  ⟨exRsM, exCrypto, exOracle, [], exPssTr, exEnv 8, 1, 7, 0x251, fun g => by cases g <;> decide, (exPss_start (.inr rfl)).started,
    ((C93_rsa _ _ (.hashPss .sha256 exPssP)).2 ⟨rfl, by decide, 0x251, .inr (.inl rfl), rfl⟩).trans
      ((C93_rsa _ _ (.hashPss .sha256 exPssP)).2 ⟨rfl, by decide, 0x250, .inl rfl, rfl⟩).symm⟩

end Kry
