import Verif.Props.C62

/-!
# C64: key derivation by hashing

`C64_value`: the derived key holds the start of the hash of the base key, of the length in the template; without a length and a key type, the whole
hash.  `C64_protect`: it claims no better history than the base key.  `C64_once`: an operation derives once.  `C64_panic_violation`:
some templates abort the process.
-/

namespace Kry
namespace Spec

/-- Hashes and the mechanisms that derive with them (PKCS#11 3.1, 6.20.7 and the like). -/
def hashOfDerivation : List (Nat × Nat) :=
  [(CKM_SHA1_KEY_DERIVATION, CKM_SHA_1), (CKM_SHA224_KEY_DERIVATION, CKM_SHA224), (CKM_SHA256_KEY_DERIVATION, CKM_SHA256),
   (CKM_SHA384_KEY_DERIVATION, CKM_SHA384), (CKM_SHA512_KEY_DERIVATION, CKM_SHA512), (CKM_SHA3_224_KEY_DERIVATION, CKM_SHA3_224),
   (CKM_SHA3_256_KEY_DERIVATION, CKM_SHA3_256), (CKM_SHA3_384_KEY_DERIVATION, CKM_SHA3_384), (CKM_SHA3_512_KEY_DERIVATION, CKM_SHA3_512),
   (CKM_SHA512_224_KEY_DERIVATION, CKM_SHA512_224), (CKM_SHA512_256_KEY_DERIVATION, CKM_SHA512_256)]

end Spec

open Spec

theorem hashKdf_new {mech : Nat} {k : HashKdf} (h : HashKdf.new mech = .ok k) : (mech, k.prf) ∈ hashOfDerivation ∧ k.fin = false := by
  unfold HashKdf.new at h
  split at h
  · rename_i p hp
    injection h with h
    subst h
    have hm := List.mem_of_find?_eq_some hp
    have e : p.2 = mech := by simpa using List.find?_some hp
    refine ⟨?_, rfl⟩
    have all : ∀ p ∈ hashDerivations, (p.2, p.1) ∈ hashOfDerivation := by decide
    rw [← e]
    exact all p hm
  · cases h

theorem hashKeySize_ok {F : Factory} {m n : Nat} {t t' : Template} (h : hashKeySize F m t = .ok (n, t')) :
    (∀ c ∈ t, c ∈ t') ∧ ((∃ c ∈ t, c.typ = CKA_VALUE_LEN ∧ c.toUlong = .ok n) ∨
      ((∀ c ∈ t, c.typ ≠ CKA_VALUE_LEN) ∧ recommendKeySize F m = .ok n)) := by
  unfold hashKeySize at h
  split at h
  · rename_i c hc
    split at h; · cases h
    rename_i size hs
    split at h; · cases h
    injection h with h
    injection h with e1 e2
    subst e1; subst e2
    exact ⟨fun _ h => h, .inl ⟨c, List.mem_of_find?_eq_some hc, by simpa using List.find?_some hc, hs⟩⟩
  · rename_i hc
    split at h
    · split at h; · cases h
      rename_i n' hn
      injection h with h
      injection h with e1 e2
      subst e1; subst e2
      refine ⟨fun _ h => List.mem_append_left _ h, .inr ⟨?_, hn⟩⟩
      intro c hcm ht
      have := List.find?_eq_none.mp hc c hcm
      simp [ht] at this
    · cases h

theorem hashDerive_shape {a : HashAlg} (ha : HashOk a) {uid : Bytes} {key : Obj} {t : Template} {out : List Obj} {secret : Bytes}
    (h : hashDerive a uid key t = .ok out) (hv : value key CKA_VALUE = some secret) :
    ∃ F kk n t' o o', (kk, F) ∈ registry ∧ keyTemplateFactory (Template.addMissingUlong t CKA_KEY_TYPE CKK_GENERIC_SECRET) = .ok F ∧
      (F.cls = CKO_SECRET_KEY ∨ F.cls = CKO_OTP_KEY) ∧
      hashKeySize F a.hlen (Template.addMissingUlong t CKA_KEY_TYPE CKK_GENERIC_SECRET) = .ok (n, t') ∧
      keyDerive F uid t' key = .ok o ∧ n ≤ a.hlen ∧ setKey F o ((a.h secret).take n) = .ok o' ∧ out = [o'] := by
  unfold hashDerive at h
  split at h; · cases h
  simp only at h
  split at h; · cases h
  rename_i F hF
  obtain ⟨kk, hkk⟩ := keyTemplateFactory_mem hF
  split at h; · cases h
  rename_i n t' hn
  split at h; · cases h
  rename_i o ho
  split at ho
  case isFalse => cases ho
  split at h; · cases h
  rename_i v hg
  have := value_getBytes hg hv
  subst this
  split at h; · cases h
  rename_i dkm hd
  have hd' : dkm = a.h v := by
    simp [DigestOp.digest, DigestOp.new] at hd
    exact hd.symm
  subst hd'
  split at h
  case isFalse => cases h
  rename_i hcls
  split at h; · cases h
  rename_i hlt
  split at h; · cases h
  rename_i o' ho'
  injection h with h
  exact ⟨F, kk, n, t', o, o', hkk, hF, hcls, hn, ho, by rw [ha.size] at hlt; omega, ho', h.symm⟩

theorem hashDerive_fresh {k : HashKdf} {algs : Nat → HashAlg} {uid : Bytes} {key : Obj} {t : Template} (hf : k.fin = false) :
    (k.derive algs uid key t).1 = hashDerive (algs k.prf) uid key t := by
  unfold HashKdf.derive
  rw [if_neg (by simp [hf])]

/-- The only secret keys of type CKK_GENERIC_SECRET are those without a fixed size. -/
theorem generic_kind : registry.all (fun p => p.1.2 != CKK_GENERIC_SECRET || !(p.2.cls == CKO_SECRET_KEY || p.2.cls == CKO_OTP_KEY) ||
    p.2.kind == .genericSecret 0) = true := by decide +kernel

/-- **C64**: the value. -/
theorem C64_value (algs : Nat → HashAlg) (ha : ∀ m, HashOk (algs m)) (mech : Nat) (uid : Bytes) (key : Obj) (t : Template) (k : HashKdf)
    (out : List Obj) (secret : Bytes) (hk : HashKdf.new mech = .ok k) (h : (k.derive algs uid key t).1 = .ok out)
    (hv : value key CKA_VALUE = some secret) :
    ∃ hash o v, (mech, hash) ∈ hashOfDerivation ∧ out = [o] ∧ value o CKA_VALUE = some v ∧ v <+: (algs hash).h secret ∧
      (∀ c ∈ t, c.typ = CKA_VALUE_LEN → c.toUlong = .ok v.length) ∧ value o CKA_VALUE_LEN = some (toLE 8 v.length) ∧
      ((∀ c ∈ t, c.typ ≠ CKA_VALUE_LEN ∧ c.typ ≠ CKA_KEY_TYPE) → v = (algs hash).h secret) := by
  obtain ⟨k1, k2⟩ := hashKdf_new hk
  rw [hashDerive_fresh k2] at h
  obtain ⟨F, kk, n, t', o, o', hkk, hF, hcls, hn, hd, hle, hset, hout⟩ := hashDerive_shape (ha _) h hv
  obtain ⟨s1, ⟨w, s2, s3⟩, _⟩ := setKey_sized hset
  have : w = ((algs k.prf).h secret).take n := by rw [s1] at s2; injection s2 with s2; exact s2.symm
  subst this
  have hl : (((algs k.prf).h secret).take n).length = n := by rw [List.length_take, (ha _).size]; omega
  obtain ⟨z1, z2⟩ := hashKeySize_ok hn
  refine ⟨k.prf, o', _, k1, hout, s1, List.take_prefix .., ?_, s3, ?_⟩
  · rw [hl]
    intro c hc ht
    rcases z2 with ⟨c0, hc0, ht0, hu⟩ | ⟨hno, _⟩
    · obtain ⟨o0, h0, _⟩ := keyDerive_same hd
      have acc := (C15_accepts_iff F kk hkk _ _ _).mp ⟨o0, h0⟩
      have : c = c0 := once_unique (P := fun t => t = CKA_CLASS ∨ Marked F t oaIgnored) acc.once (z1 _ (mem_addMissingUlong hc)) (z1 _ hc0) (ht.trans ht0.symm)
        (by
          rw [ht]
          rintro (e | ⟨f, hf, e, hi⟩)
          · exact absurd e (by decide)
          · have := allFactories_spec notIgnored_valueLen hkk
            unfold notIgnored at this
            rw [List.all_eq_true] at this
            have := this f hf
            simp [e, hi] at this)
      rw [this]; exact hu
    · exact absurd ht (hno c (mem_addMissingUlong hc))
  · intro hno
    have hnone : Template.findA t CKA_KEY_TYPE = none := List.find?_eq_none.mpr fun c hc => by simpa using (hno c hc).2
    have hadd : Template.addMissingUlong t CKA_KEY_TYPE CKK_GENERIC_SECRET = t ++ [CkAttr.ofUlong CKA_KEY_TYPE CKK_GENERIC_SECRET] := by
      unfold Template.addMissingUlong
      rw [hnone]
    have hkind : F.kind = .genericSecret 0 := by
      rw [hadd] at hF
      unfold keyTemplateFactory at hF
      split at hF; · cases hF
      rename_i cls _
      have : tmplUlong (t ++ [CkAttr.ofUlong CKA_KEY_TYPE CKK_GENERIC_SECRET]) CKA_KEY_TYPE .templateInconsistent = .ok CKK_GENERIC_SECRET := by
        unfold tmplUlong
        rw [List.find?_append, show t.find? (fun c => c.typ == CKA_KEY_TYPE) = none from hnone]
        decide
      rw [this] at hF
      have hg := List.all_eq_true.mp generic_kind _ (getFactory_mem hF)
      simp only [bne_self_eq_false, Bool.false_or] at hg
      rcases hcls with e | e <;> rw [e] at hg
      · simpa using hg
      · simpa using hg
    have hrec : recommendKeySize F (algs k.prf).hlen = .ok n := by
      rcases z2 with ⟨c0, hc0, ht0, hu⟩ | ⟨_, h⟩
      · rw [hadd] at hc0
        rcases List.mem_append.mp hc0 with q | q
        · exact absurd ht0 (hno c0 q).1
        · rw [List.mem_singleton.mp q] at ht0; exact absurd ht0 (by decide)
      · exact h
    simp only [recommendKeySize, hkind] at hrec
    have : n = (algs k.prf).hlen := by simpa using hrec.symm
    rw [this, List.take_of_length_le (Nat.le_of_eq ((ha _).size _))]

/-- **C64**: the derived key is a secret key, always sensitive only if it is sensitive and the base key always was, never extractable only if it is
not and the base key never was. -/
theorem C64_protect (algs : Nat → HashAlg) (ha : ∀ m, HashOk (algs m)) (mech : Nat) (uid : Bytes) (key : Obj) (t : Template) (k : HashKdf)
    (out : List Obj) (secret : Bytes) (hk : HashKdf.new mech = .ok k) (h : (k.derive algs uid key t).1 = .ok out)
    (hv : value key CKA_VALUE = some secret) :
    ∀ o ∈ out, (IsTrue o CKA_ALWAYS_SENSITIVE → IsTrue key CKA_ALWAYS_SENSITIVE ∧ IsTrue o CKA_SENSITIVE) ∧
      (IsTrue o CKA_NEVER_EXTRACTABLE → IsTrue key CKA_NEVER_EXTRACTABLE ∧ IsFalse o CKA_EXTRACTABLE) := by
  obtain ⟨k1, k2⟩ := hashKdf_new hk
  rw [hashDerive_fresh k2] at h
  obtain ⟨F, kk, n, t', o, o', hkk, hF, hcls, hn, hd, hle, hset, hout⟩ := hashDerive_shape (ha _) h hv
  rw [hout]
  intro x hx
  rw [List.mem_singleton.mp hx]
  have hsec : Obj.secretClass F.cls = true := by rcases hcls with e | e <;> rw [e] <;> decide
  have same := setKey_same hset
  unfold IsTrue IsFalse
  rw [same_value same (t := CKA_ALWAYS_SENSITIVE) (by decide), same_value same (t := CKA_NEVER_EXTRACTABLE) (by decide),
    same_value same (t := CKA_SENSITIVE) (by decide), same_value same (t := CKA_EXTRACTABLE) (by decide)]
  exact derive_life hkk hsec hd

/-- **C64**: once. -/
theorem C64_once (k : HashKdf) (algs : Nat → HashAlg) (uid uid' : Bytes) (key key' : Obj) (t t' : Template) :
    ((k.derive algs uid key t).2.derive algs uid' key' t').1 = .error .operationNotInitialized := by
  unfold HashKdf.derive
  split
  · rfl
  · rfl

/-! ## Examples and the violation -/

/-- A derivation with the toy hash of two bytes. -/
def exHashKdf (mech : Nat) (t : Template) : Res (List Obj) :=
  match HashKdf.new mech with
  | .error r => .error r
  | .ok k => (k.derive (fun _ => exHash) exUid2 exTlsKey t).1

example : ((exHashKdf CKM_SHA256_KEY_DERIVATION [.ofUlong CKA_CLASS CKO_SECRET_KEY]).map fun l => l.map fun o => value o CKA_VALUE) =
      .ok [some (exHash.h ((value exTlsKey CKA_VALUE).getD []))] ∧
    ((exHashKdf CKM_SHA256_KEY_DERIVATION [.ofUlong CKA_CLASS CKO_SECRET_KEY, .ofUlong CKA_VALUE_LEN 1]).map fun l => l.map fun o => (value o CKA_VALUE).map List.length) =
      .ok [some 1] ∧
    exHashKdf CKM_SHA256_KEY_DERIVATION [.ofUlong CKA_CLASS CKO_SECRET_KEY, .ofUlong CKA_VALUE_LEN 3] = .error .templateInconsistent ∧
    exHashKdf CKM_SHA256_HMAC [.ofUlong CKA_CLASS CKO_SECRET_KEY] = .error .mechanismInvalid := by decide +kernel

def exPanicTmpl : Template := [.ofUlong CKA_CLASS CKO_SECRET_KEY, .ofUlong CKA_KEY_TYPE CKK_SHA512_HMAC]
def exPanicF : Factory := match getFactory CKO_SECRET_KEY CKK_SHA512_HMAC with | .ok F => F | .error _ => aesF

/-- Without a length, a key type that has a fixed size larger than the hash aborts the process: for every hash of 32 bytes there is a template with
this outcome. -/
theorem C64_panic_violation (a : HashAlg) (ha : HashOk a) (h32 : a.hlen = 32) :
    hashDerive a exUid2 exTlsKey exPanicTmpl = .error .panic := by
  have h1 : exTlsKey.checkKeyOps CKO_SECRET_KEY CK_UNAVAILABLE_INFORMATION CKA_DERIVE = .ok () := by decide +kernel
  have h2 : Template.addMissingUlong exPanicTmpl CKA_KEY_TYPE CKK_GENERIC_SECRET = exPanicTmpl := by decide +kernel
  have h3 : keyTemplateFactory exPanicTmpl = .ok exPanicF := by decide +kernel
  have h4 : hashKeySize exPanicF 32 exPanicTmpl = .ok (64, exPanicTmpl ++ [CkAttr.ofUlong CKA_VALUE_LEN 64]) := by decide +kernel
  have h5 : keyDerive exPanicF exUid2 (exPanicTmpl ++ [CkAttr.ofUlong CKA_VALUE_LEN 64]) exTlsKey =
      .ok (okObj (keyDerive exPanicF exUid2 (exPanicTmpl ++ [CkAttr.ofUlong CKA_VALUE_LEN 64]) exTlsKey)) := by decide +kernel
  have h6 : keyClass exPanicF.cls = true := by decide +kernel
  have h7 : exTlsKey.getBytes CKA_VALUE = .ok ((value exTlsKey CKA_VALUE).getD []) := by decide +kernel
  have h8 : exPanicF.cls = CKO_SECRET_KEY := by decide +kernel
  unfold hashDerive
  rw [h1]
  simp only [h2, h3, h32, h4]
  rw [if_pos h6, h5]
  simp only [h7]
  simp only [DigestOp.digest, DigestOp.new, h32, Bool.or_self, Bool.false_eq_true, if_false, ne_eq, not_true_eq_false, List.nil_append]
  rw [if_pos (.inl h8), ha.size, h32, if_pos (by decide)]

/-- There are hashes of 32 bytes. -/
example : HashOk ⟨fun m => m.take 32 ++ List.replicate (32 - m.length) 0, 32, 64⟩ :=
  ⟨fun m => by simp; omega, by decide, by decide⟩

end Kry
