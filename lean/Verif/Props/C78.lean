import Verif.Model.RsaOp

/-! C78: RSA operations.

OpenSSL's RSA is a parameter; everything around it is the code: which mechanisms and sizes are accepted, how buffers and lengths are treated, when an operation ends.  What is
encrypted is decrypted, what is wrapped is unwrapped, what is signed is verified, in parts or at once; data longer than the padding allows is not signed; a
finished operation answers nothing any more; asking for a length, or giving a buffer that is too small, does not end it. -/

namespace Kry

namespace Spec

/-- OpenSSL with the public key (`P`) and the private key (`P'`) of one pair whose modulus has `k` bytes: answers about lengths, and each side undoes the other. -/
structure RsaPair (P P' : RsaPrims) (k : Nat) : Prop where
  encLen : ∀ m, P.encLen m = .ok k
  decLen : ∀ c, P'.decLen c = .ok k
  encSize : ∀ m c, P.enc m = .ok c → c.length = k
  decSize : ∀ c m, P'.dec c = .ok m → m.length ≤ k
  undo : ∀ m c, P.enc m = .ok c → P'.dec c = .ok m
  signLen : ∀ m, P'.signLen m = .ok k
  signSize : ∀ m s, P'.sign m = .ok s ∨ P'.signFed m = .ok s → s.length = k
  accepts : ∀ m s, P'.sign m = .ok s → P.ver m s = .ok ()
  acceptsFed : ∀ m s, P'.signFed m = .ok s → P.verFed m s = .ok ()

/-- The bytes the padding leaves for the message, with a modulus of `k` bytes (RFC 8017, 7.1.1, 7.2.1, 8.2.1; raw RSA has none): at most this many, exactly this
many for PSS over a hash. -/
def maySign (k : Nat) (mech : RsaMech) (len : Nat) : Prop :=
  match mech with
  | .x509 => len ≤ k
  | .pkcs => len + 11 ≤ k
  | .pss p => len = p.hash.size
  | _ => True

end Spec

/-- An operation for encryption or decryption as C_EncryptInit and C_DecryptInit make it. -/
def madeCrypt (o : RsaOp) (k : Nat) : Prop := ∃ minBits maxBits mech modulus, RsaOp.encdecNew minBits maxBits mech modulus = .ok o ∧ modulus.length = k ∧ 0 < minBits

/-- An operation for signing or verifying as C_SignInit, C_VerifyInit and C_VerifySignatureInit make it. -/
def madeSig (o : RsaOp) (mech : RsaMech) (k : Nat) (sig : Option Bytes) : Prop :=
  ∃ minBits maxBits modulus, RsaOp.sigverNew minBits maxBits mech modulus sig = .ok o ∧ modulus.length = k

theorem rsaKeySize_ok {minBits maxBits k : Nat} {m : Bytes} (h : rsaKeySize minBits maxBits m = .ok k) : k = m.length ∧ minBits ≤ 8 * k ∧ (maxBits ≠ 0 → 8 * k ≤ maxBits) := by
  unfold rsaKeySize at h
  split at h
  · cases h
  · rename_i hc
    injection h with h
    subst h
    refine ⟨rfl, by omega, fun hm => by omega⟩

theorem crypt_made {minBits maxBits : Nat} {mech : RsaMech} {modulus : Bytes} {o : RsaOp} (h : RsaOp.encdecNew minBits maxBits mech modulus = .ok o) :
    ∃ m, o = { mech := mech, maxInput := m, outputLen := modulus.length, encctx := true } ∧ minBits ≤ 8 * modulus.length := by
  unfold RsaOp.encdecNew at h
  split at h
  · cases h
  · split at h
    · cases h
    · rename_i k hk
      obtain ⟨h1, h2, h3⟩ := rsaKeySize_ok hk
      subst h1
      split at h
      · cases h
      · rename_i m hm
        injection h with h
        exact ⟨m, h.symm, h2⟩

theorem sig_made {minBits maxBits : Nat} {mech : RsaMech} {modulus : Bytes} {sig : Option Bytes} {o : RsaOp} (h : RsaOp.sigverNew minBits maxBits mech modulus sig = .ok o) :
    ∃ m, o = { mech := mech, maxInput := m, outputLen := modulus.length, sigctx := true, sig := sig } ∧ rsaMaxLen modulus.length mech = .ok m ∧
      (∀ s, sig = some s → s.length = modulus.length) := by
  unfold RsaOp.sigverNew at h
  split at h
  · cases h
  · split at h
    · cases h
    · rename_i k hk
      obtain ⟨h1, _, _⟩ := rsaKeySize_ok hk
      subst h1
      split at h
      · cases h
      · rename_i m hm
        split at h
        · injection h with h
          exact ⟨m, h.symm, hm, fun s hs => by cases hs⟩
        · split at h
          · cases h
          · rename_i s hl
            injection h with h
            refine ⟨m, h.symm, hm, fun s' hs => ?_⟩
            injection hs with hs
            subst hs
            exact Decidable.of_not_not hl

/-- **C78 (encrypted is decrypted).**  What C_Encrypt wrote for a public key, C_Decrypt with the private key turns back into the same data, with any buffers of at least
the modulus' size; the ciphertext has exactly this size. -/
theorem C78_back (P P' : RsaPrims) (o o' : RsaOp) (k n n' : Nat) (plain : Bytes) (r : RsaOut) (hp : Spec.RsaPair P P' k) (h : madeCrypt o k) (h' : madeCrypt o' k)
    (hn : k ≤ n) (hn' : k ≤ n') (he : (rsaCEncrypt P o plain (some n)).1 = .ok r) :
    r.len = k ∧ r.written.length = k ∧ (rsaCDecrypt P' o' r.written (some n')).1 = .ok ⟨plain.length, plain⟩ := by
  obtain ⟨a, b, mech, modulus, h1, rfl, h3⟩ := h
  obtain ⟨a', b', mech', modulus', g1, g2, g3⟩ := h'
  obtain ⟨m, rfl, hm⟩ := crypt_made h1
  obtain ⟨m', rfl, hm'⟩ := crypt_made g1
  have hk : 0 < modulus.length := by omega
  simp only [rsaCEncrypt, RsaOp.encrypt, Bool.false_eq_true, if_false, if_true] at he
  rw [hp.encLen] at he
  simp only at he
  rw [if_neg (by omega), if_neg (by omega)] at he
  cases hc : P.enc plain with
  | error e => rw [hc] at he; cases he
  | ok c =>
    rw [hc] at he
    injection he with he
    subst he
    have hl := hp.encSize _ _ hc
    have hd := hp.undo _ _ hc
    have hs := hp.decSize _ _ hd
    refine ⟨hl, hl, ?_⟩
    simp only [rsaCDecrypt, RsaOp.decrypt, Bool.false_eq_true, if_false, if_true]
    rw [hp.decLen]
    simp only
    rw [if_neg (by omega), if_neg (by omega), hd]
    simp only
    rw [if_neg (by omega)]

/-- **C78 (wrapped is unwrapped).**  What C_WrapKey wrote with an RSA mechanism, C_UnwrapKey turns back into the same encoding of the key. -/
theorem C78_wrap_back (P P' : RsaPrims) (a b n : Nat) (mech : RsaMech) (modulus keydata : Bytes) (r : RsaOut) (hp : Spec.RsaPair P P' modulus.length) (ha : 0 < a)
    (hn : n ≠ 0) (h : rsaWrap a b mech modulus P keydata n = .ok r) :
    modulus.length ≤ n ∧ r.len = modulus.length ∧ r.written.length = modulus.length ∧ rsaUnwrap a b mech modulus P' r.written = .ok keydata := by
  unfold rsaWrap at h
  cases hnew : RsaOp.encdecNew a b mech modulus with
  | error e => rw [hnew] at h; cases h
  | ok o =>
    rw [hnew] at h
    simp only at h
    cases hq : o.cryptLen with
    | error e => rw [hq] at h; cases h
    | ok needed =>
      rw [hq] at h
      simp only at h
      rw [if_neg hn] at h
      split at h
      · cases h
      · rename_i hlt
        obtain ⟨m, ho, hm⟩ := crypt_made hnew
        have hneed : needed = modulus.length := by
          unfold RsaOp.cryptLen at hq
          split at hq
          · injection hq with hq; rw [← hq, ho]
          · injection hq with hq; rw [← hq, ho]
          · cases hq
        have hk : modulus.length ≤ n := by omega
        have made : madeCrypt o modulus.length := ⟨a, b, mech, modulus, hnew, rfl, ha⟩
        obtain ⟨e1, e2, e3⟩ := C78_back P P' o o modulus.length n modulus.length keydata r hp made made hk (Nat.le_refl _) h
        refine ⟨hk, e1, e2, ?_⟩
        unfold rsaUnwrap
        rw [hnew]
        simp only
        have q : o.decrypt P' r.written 0 = (.ok ⟨modulus.length, []⟩, o) := by
          rw [ho]
          simp only [RsaOp.decrypt, Bool.false_eq_true, if_false, if_true]
          rw [hp.decLen]
        rw [q]
        simp only
        unfold rsaCDecrypt at e3
        simp only at e3
        cases hx : o.decrypt P' r.written modulus.length with
        | mk x1 x2 =>
          rw [hx] at e3
          simp only at e3
          rw [e3]
          simp

/-- **C78 (asking).**  For CKM_RSA_PKCS and CKM_RSA_PKCS_OAEP a call with a NULL buffer gives the size that is enough; it, and a call with a buffer that is too
small, which is refused with CKR_BUFFER_TOO_SMALL, leave the operation as it was. -/
theorem C78_asking (P P' : RsaPrims) (o : RsaOp) (k n : Nat) (data : Bytes) (hp : Spec.RsaPair P P' k) (h : madeCrypt o k) (hm : o.mech = .pkcs ∨ ∃ p, o.mech = .oaep p)
    (h0 : 0 < n) (hn : n < k) :
    rsaCEncrypt P o data none = (.ok ⟨k, []⟩, o) ∧ rsaCDecrypt P' o data none = (.ok ⟨k, []⟩, o) ∧
      rsaCEncrypt P o data (some n) = (.error .bufferTooSmall, o) ∧ rsaCDecrypt P' o data (some n) = (.error .bufferTooSmall, o) := by
  obtain ⟨a, b, mech, modulus, h1, rfl, h3⟩ := h
  obtain ⟨m, rfl, _⟩ := crypt_made h1
  have hq : (RsaOp.cryptLen { mech := mech, maxInput := m, outputLen := modulus.length, encctx := true }) = .ok modulus.length := by
    unfold RsaOp.cryptLen
    rcases hm with hm | ⟨p, hm⟩
    · have hm' : mech = .pkcs := hm
      rw [hm']
    · have hm' : mech = .oaep p := hm
      rw [hm']
  refine ⟨?_, ?_, ?_, ?_⟩
  · unfold rsaCEncrypt; simp only; rw [hq]
  · unfold rsaCDecrypt; simp only; rw [hq]
  · simp only [rsaCEncrypt, RsaOp.encrypt, Bool.false_eq_true, if_false, if_true]
    rw [hp.encLen]
    simp only
    rw [if_neg (by omega), if_pos hn]
  · simp only [rsaCDecrypt, RsaOp.decrypt, Bool.false_eq_true, if_false, if_true]
    rw [hp.decLen]
    simp only
    rw [if_neg (by omega), if_pos ⟨hn, hn⟩]

/-- **C78 (nothing beyond the buffer).**  With a buffer of `n > 0` bytes, a successful C_Encrypt or C_Decrypt wrote as many bytes as it reports, and not more than fit. -/
theorem C78_honest (P P' : RsaPrims) (o o1 : RsaOp) (k n : Nat) (data : Bytes) (r : RsaOut) (hp : Spec.RsaPair P P' k) (h0 : 0 < n)
    (h : rsaCEncrypt P o data (some n) = (.ok r, o1) ∨ rsaCDecrypt P' o data (some n) = (.ok r, o1)) :
    r.len = r.written.length ∧ r.written.length ≤ n ∧ o1.finalized = true := by
  rcases h with h | h
  · simp only [rsaCEncrypt, RsaOp.encrypt] at h
    repeat' split at h
    all_goals first
      | (cases h; done)
      | (exfalso; omega)
      | (rename_i l hl _ hlt _ c hc
         cases h
         have e := hp.encSize _ _ hc
         rw [hp.encLen] at hl
         injection hl with hl
         exact ⟨rfl, by show c.length ≤ n; omega, rfl⟩)
  · simp only [rsaCDecrypt, RsaOp.decrypt] at h
    repeat' split at h
    all_goals first
      | (cases h; done)
      | (exfalso; omega)
      | (rename_i mm hmm hlt
         cases h
         exact ⟨rfl, by show mm.length ≤ n; omega, rfl⟩)

/-- **C78 (limits).**  Data is signed only when the padding leaves room for it: a signature exists only for data of an allowed length, and other data is refused with
CKR_DATA_LEN_RANGE before OpenSSL sees it. -/
theorem C78_limits (P : RsaPrims) (o : RsaOp) (mech : RsaMech) (k n : Nat) (sig : Option Bytes) (data : Bytes) (h : madeSig o mech k sig) :
    (∀ s, (o.sign P data n).1 = .ok s → Spec.maySign k mech data.length) ∧
      (¬ Spec.maySign k mech data.length → (o.sign P data n).1 = .error .dataLenRange) := by
  obtain ⟨a, b, modulus, h1, rfl⟩ := h
  obtain ⟨m, rfl, hm, _⟩ := sig_made h1
  have main : ¬ Spec.maySign modulus.length mech data.length →
      (RsaOp.sign P { mech := mech, maxInput := m, outputLen := modulus.length, sigctx := true, sig := sig } data n).1 = .error .dataLenRange := by
    intro hno
    unfold Spec.maySign at hno
    unfold RsaOp.sign
    simp only [Bool.false_eq_true, if_false]
    cases mech with
    | x509 =>
      simp only [rsaMaxLen] at hm
      injection hm with hm
      simp only at hno
      simp only [RsaMech.plain, if_true]
      rw [if_pos (by simp only [RsaOp.badData, decide_eq_true_eq]; omega)]
    | pkcs =>
      simp only [rsaMaxLen] at hm
      split at hm
      · cases hm
      · injection hm with hm
        simp only at hno
        simp only [RsaMech.plain, if_true]
        rw [if_pos (by simp only [RsaOp.badData, decide_eq_true_eq]; omega)]
    | pss p =>
      simp only [rsaMaxLen] at hm
      injection hm with hm
      simp only at hno
      simp only [RsaMech.plain, if_true]
      rw [if_pos (by simp only [RsaOp.badData, bne_iff_ne]; omega)]
    | _ => exact absurd trivial hno
  refine ⟨fun s hs => ?_, main⟩
  by_cases hno : Spec.maySign modulus.length mech data.length
  · exact hno
  · rw [main hno] at hs; cases hs

theorem rsaUpdates_ok (o : RsaOp) (hp : o.mech.plain = false) (hf : o.finalized = false) (hs : o.sigctx = true) : ∀ (ps : List Bytes), ps ≠ [] →
    o.updates ps = (.ok (), { o with inUse := true, data := o.data ++ ps.flatten }) := by
  have step : ∀ (o : RsaOp) (p : Bytes), o.mech.plain = false → o.finalized = false → o.sigctx = true → o.update p = (.ok (), { o with inUse := true, data := o.data ++ p }) := by
    intro o p hp hf hs
    unfold RsaOp.update
    simp [hp, hf, hs]
  intro ps
  induction ps generalizing o with
  | nil => intro h; exact absurd rfl h
  | cons p ps ih =>
    intro _
    rw [RsaOp.updates, step o p hp hf hs]
    simp only
    cases ps with
    | nil => simp [RsaOp.updates]
    | cons q ps =>
      rw [ih { o with inUse := true, data := o.data ++ p } hp hf hs (by simp)]
      simp

/-- **C78 (parts).**  For the mechanisms that hash, signing and verifying data in parts gives what doing it at once gives; the others take their data in one piece, and
refuse a part without losing the operation. -/
theorem C78_parts (P : RsaPrims) (o : RsaOp) (mech : RsaMech) (k n : Nat) (sig signature : Option Bytes) (ps : List Bytes) (h : madeSig o mech k sig) (hps : ps ≠ []) :
    (o.mech.plain = false → (o.updates ps).1 = .ok () ∧ ((o.updates ps).2.signFinal P n).1 = (o.sign P ps.flatten n).1 ∧
      ((o.updates ps).2.verifyFinal P signature).1 = (o.verify P ps.flatten signature).1) ∧
    (o.mech.plain = true → o.updates ps = (.error .operationNotInitialized, o)) := by
  obtain ⟨a, b, modulus, h1, rfl⟩ := h
  obtain ⟨m, rfl, hm, _⟩ := sig_made h1
  refine ⟨fun hp => ?_, fun hp => ?_⟩
  · have e : ∀ p, RsaOp.update { mech := mech, maxInput := m, outputLen := modulus.length, sigctx := true, sig := sig } p =
        (.ok (), { mech := mech, maxInput := m, outputLen := modulus.length, sigctx := true, sig := sig, inUse := true, data := p }) := by
      intro p
      unfold RsaOp.update
      have hp' : mech.plain = false := hp
      simp [hp']
    rw [rsaUpdates_ok _ hp rfl rfl ps hps]
    refine ⟨rfl, ?_, ?_⟩
    · unfold RsaOp.sign
      have hp' : mech.plain = false := hp
      simp only [Bool.false_eq_true, if_false, hp']
      rw [e]
      simp only [List.nil_append]
    · unfold RsaOp.verify
      have hp' : mech.plain = false := hp
      simp only [Bool.false_eq_true, if_false, hp']
      rw [e]
      simp only [List.nil_append]
  · have hp' : mech.plain = true := hp
    cases ps with
    | nil => exact absurd rfl hps
    | cons p ps =>
      have : RsaOp.update { mech := mech, maxInput := m, outputLen := modulus.length, sigctx := true, sig := sig } p =
          (.error .operationNotInitialized, { mech := mech, maxInput := m, outputLen := modulus.length, sigctx := true, sig := sig }) := by
        unfold RsaOp.update
        simp [hp']
      rw [RsaOp.updates, this]

/-- **C78 (signed is verified).**  What C_Sign made, C_Verify with the public key and the same mechanism and data accepts, and so does the call to which the signature was
given at the start; the signature has the modulus' size. -/
theorem C78_verifies (P P' : RsaPrims) (o o' : RsaOp) (mech : RsaMech) (k : Nat) (data s : Bytes) (hp : Spec.RsaPair P P' k) (h : madeSig o mech k none)
    (hs : (o.sign P' data k).1 = .ok s) :
    s.length = k ∧ (madeSig o' mech k none → (o'.verify P data (some s)).1 = .ok ()) ∧ (madeSig o' mech k (some s) → (o'.verify P data none).1 = .ok ()) := by
  obtain ⟨a, b, modulus, h1, rfl⟩ := h
  obtain ⟨m, rfl, hm, _⟩ := sig_made h1
  unfold RsaOp.sign at hs
  simp only [Bool.false_eq_true, if_false] at hs
  cases hpl : mech.plain with
  | true =>
    simp only [hpl, if_true] at hs
    split at hs
    · cases hs
    · rename_i hbad
      have hle : data.length ≤ m := by
        revert hbad
        cases mech <;> simp [RsaOp.badData] <;> omega
      rw [if_neg (fun hc => hc rfl), hp.signLen] at hs
      simp only at hs
      rw [if_neg (fun hc => hc rfl)] at hs
      cases hsg : P'.sign data with
      | error e => rw [hsg] at hs; cases hs
      | ok s' =>
        rw [hsg] at hs
        injection hs with hs
        subst hs
        have hl := hp.signSize _ _ (.inl hsg)
        refine ⟨hl, ?_, ?_⟩
        · rintro ⟨a', b', modulus', g1, g2⟩
          obtain ⟨m', rfl, hm', _⟩ := sig_made g1
          rw [g2, hm] at hm'
          injection hm' with hm'
          unfold RsaOp.verify
          simp only [Bool.false_eq_true, if_false, hpl, if_true, RsaOp.badLen, RsaOp.wanted]
          rw [if_neg (by omega), if_neg (by simp only [bne_iff_ne]; omega)]
          exact hp.accepts _ _ hsg
        · rintro ⟨a', b', modulus', g1, g2⟩
          obtain ⟨m', rfl, hm', _⟩ := sig_made g1
          rw [g2, hm] at hm'
          injection hm' with hm'
          unfold RsaOp.verify
          simp only [Bool.false_eq_true, if_false, hpl, if_true, RsaOp.badLen, RsaOp.wanted]
          rw [if_neg (by omega)]
          exact hp.accepts _ _ hsg
  | false =>
    have e : ∀ (o : RsaOp) (p : Bytes), o.mech.plain = false → o.finalized = false → o.sigctx = true → o.data = [] →
        o.update p = (.ok (), { o with inUse := true, data := p }) := by
      intro o p h1 h2 h3 h4
      unfold RsaOp.update
      simp [h1, h2, h3, h4]
    simp only [hpl, Bool.false_eq_true, if_false] at hs
    rw [e _ _ hpl rfl rfl rfl] at hs
    simp only [RsaOp.signFinal, Bool.not_true, Bool.false_eq_true, if_false, if_true] at hs
    cases hsg : P'.signFed data with
    | error e => rw [hsg] at hs; cases hs
    | ok s' =>
      rw [hsg] at hs
      simp only at hs
      have hl := hp.signSize _ _ (.inr hsg)
      rw [if_neg (by omega)] at hs
      injection hs with hs
      subst hs
      refine ⟨hl, ?_, ?_⟩
      · rintro ⟨a', b', modulus', g1, g2⟩
        obtain ⟨m', rfl, hm', _⟩ := sig_made g1
        unfold RsaOp.verify
        simp only [Bool.false_eq_true, if_false, hpl]
        rw [e _ _ hpl rfl rfl rfl]
        simp only [RsaOp.verifyFinal, Bool.not_true, Bool.false_eq_true, if_false, if_true, RsaOp.wanted]
        exact hp.acceptsFed _ _ hsg
      · rintro ⟨a', b', modulus', g1, g2⟩
        obtain ⟨m', rfl, hm', _⟩ := sig_made g1
        unfold RsaOp.verify
        simp only [Bool.false_eq_true, if_false, hpl]
        rw [e _ _ hpl rfl rfl rfl]
        simp only [RsaOp.verifyFinal, Bool.not_true, Bool.false_eq_true, if_false, if_true, RsaOp.wanted]
        exact hp.acceptsFed _ _ hsg

/-- **C78 (accepted means checked).**  A signature is accepted only when OpenSSL accepted exactly it for exactly this data; for the mechanisms without hash it has the
modulus' size and the data an allowed length. -/
theorem C78_accepted (P : RsaPrims) (o : RsaOp) (mech : RsaMech) (k : Nat) (data s : Bytes) (h : madeSig o mech k none) (ha : (o.verify P data (some s)).1 = .ok ()) :
    (mech.plain = true → P.ver data s = .ok () ∧ s.length = k ∧ data.length ≤ o.maxInput) ∧ (mech.plain = false → P.verFed data s = .ok ()) := by
  obtain ⟨a, b, modulus, h1, rfl⟩ := h
  obtain ⟨m, rfl, hm, _⟩ := sig_made h1
  unfold RsaOp.verify at ha
  simp only [Bool.false_eq_true, if_false] at ha
  cases hpl : mech.plain with
  | true =>
    simp only [hpl, if_true, RsaOp.badLen, RsaOp.wanted] at ha
    refine ⟨fun _ => ?_, fun hc => (by cases hc)⟩
    split at ha
    · cases ha
    · split at ha
      · cases ha
      · rename_i h2 h3
        refine ⟨ha, ?_, ?_⟩
        · simp only [bne_iff_ne] at h3
          exact Decidable.of_not_not h3
        · show data.length ≤ m
          omega
  | false =>
    refine ⟨fun hc => (by cases hc), fun _ => ?_⟩
    have e : ∀ (o : RsaOp) (p : Bytes), o.mech.plain = false → o.finalized = false → o.sigctx = true → o.data = [] →
        o.update p = (.ok (), { o with inUse := true, data := p }) := by
      intro o p h1 h2 h3 h4
      unfold RsaOp.update
      simp [h1, h2, h3, h4]
    simp only [hpl, Bool.false_eq_true, if_false] at ha
    rw [e _ _ hpl rfl rfl rfl] at ha
    simp only [RsaOp.verifyFinal, Bool.not_true, Bool.false_eq_true, if_false, if_true, RsaOp.wanted] at ha
    exact ha

/-- **C78 (finished).**  A signature given, and any answer to a verification of a mechanism, ends the operation; an ended operation refuses every call and stays
as it is. -/
theorem C78_finished (P : RsaPrims) (o : RsaOp) (mech : RsaMech) (k n : Nat) (sig signature : Option Bytes) (data : Bytes) (h : madeSig o mech k sig) :
    ((o.sign P data n).2.finalized = true ∧ (o.verify P data signature).2.finalized = true) ∧
    ∀ (o1 : RsaOp) (P1 : RsaPrims), o1.finalized = true → ∀ (data : Bytes) (n : Nat) (sg : Option Bytes),
      o1.sign P1 data n = (.error .operationNotInitialized, o1) ∧ o1.update data = (.error .operationNotInitialized, o1) ∧
      o1.signFinal P1 n = (.error .operationNotInitialized, o1) ∧ o1.verify P1 data sg = (.error .operationNotInitialized, o1) ∧
      o1.verifyFinal P1 sg = (.error .operationNotInitialized, o1) ∧ o1.encrypt P1 data n = (.error .operationNotInitialized, o1) ∧
      o1.decrypt P1 data n = (.error .operationNotInitialized, o1) ∧ o1.noParts = (.error .operationNotInitialized, o1) := by
  refine ⟨?_, ?_⟩
  · obtain ⟨a, b, modulus, h1, rfl⟩ := h
    obtain ⟨m, rfl, hm, _⟩ := sig_made h1
    have e : ∀ (o : RsaOp) (p : Bytes), o.mech.plain = false → o.finalized = false → o.sigctx = true → o.data = [] →
        o.update p = (.ok (), { o with inUse := true, data := p }) := by
      intro o p h1 h2 h3 h4
      unfold RsaOp.update
      simp [h1, h2, h3, h4]
    refine ⟨?_, ?_⟩
    · unfold RsaOp.sign
      simp only [Bool.false_eq_true, if_false]
      cases hpl : mech.plain with
      | true =>
        simp only [if_true]
        repeat' split
        all_goals rfl
      | false =>
        simp only [Bool.false_eq_true, if_false]
        rw [e _ _ hpl rfl rfl rfl]
        simp only [RsaOp.signFinal, Bool.not_true, Bool.false_eq_true, if_false, if_true]
        repeat' split
        all_goals rfl
    · unfold RsaOp.verify
      simp only [Bool.false_eq_true, if_false]
      cases hpl : mech.plain with
      | true =>
        simp only [if_true]
        repeat' split
        all_goals rfl
      | false =>
        simp only [Bool.false_eq_true, if_false]
        rw [e _ _ hpl rfl rfl rfl]
        simp only [RsaOp.verifyFinal, Bool.not_true, Bool.false_eq_true, if_false, if_true]
        repeat' split
        all_goals rfl
  · intro o1 P1 hf data n sg
    refine ⟨?_, ?_, ?_, ?_, ?_, ?_, ?_, ?_⟩
    · unfold RsaOp.sign; split <;> simp [hf]
    · unfold RsaOp.update; simp [hf]
    · unfold RsaOp.signFinal; split <;> simp [hf]
    · unfold RsaOp.verify; split <;> simp [hf]
    · unfold RsaOp.verifyFinal; split <;> simp [hf]
    · unfold RsaOp.encrypt; split <;> simp [hf]
    · unfold RsaOp.decrypt; split <;> simp [hf]
    · unfold RsaOp.noParts; rw [← hf]

/-- **C78 (parameters).**  An operation is made only for a modulus between the sizes of the mechanism; the PSS parameters must name the hash of the mechanism; a label
of OAEP needs the source CKZ_DATA_SPECIFIED, and OpenSSL gets exactly this label. -/
theorem C78_parameters (minBits maxBits : Nat) (mech : RsaMech) (modulus : Bytes) (sig : Option Bytes) (o : RsaOp) :
    (RsaOp.sigverNew minBits maxBits mech modulus sig = .ok o ∨ RsaOp.encdecNew minBits maxBits mech modulus = .ok o →
      minBits ≤ 8 * modulus.length ∧ (maxBits ≠ 0 → 8 * modulus.length ≤ maxBits)) ∧
    (RsaOp.sigverNew minBits maxBits mech modulus sig = .ok o → ∀ h p, mech = .hashPss h p → p.hash = h) ∧
    (RsaOp.encdecNew minBits maxBits mech modulus = .ok o → ∀ p, mech = .oaep p → p.label ≠ [] →
      p.source = 1 ∧ rsaEncParams mech = .ok (some (p.hash, p.mgf, some p.label))) := by
  refine ⟨?_, ?_, ?_⟩
  · rintro (h | h)
    · unfold RsaOp.sigverNew at h
      split at h
      · cases h
      · split at h
        · cases h
        · rename_i k hk
          obtain ⟨h1, h2, h3⟩ := rsaKeySize_ok hk
          subst h1
          exact ⟨h2, h3⟩
    · unfold RsaOp.encdecNew at h
      split at h
      · cases h
      · split at h
        · cases h
        · rename_i k hk
          obtain ⟨h1, h2, h3⟩ := rsaKeySize_ok hk
          subst h1
          exact ⟨h2, h3⟩
  · rintro h hh p rfl
    unfold RsaOp.sigverNew at h
    simp only [rsaSigParams] at h
    by_cases hc : hh = p.hash
    · exact hc.symm
    · rw [if_pos hc] at h; cases h
  · rintro h p rfl hl
    unfold RsaOp.encdecNew at h
    have hz : p.label.length ≠ 0 := fun hc => hl (List.eq_nil_of_length_eq_zero hc)
    by_cases h0 : p.source = 0
    · simp only [rsaEncParams, if_pos h0, if_pos hz] at h
      cases h
    · by_cases h1 : p.source = 1
      · refine ⟨h1, ?_⟩
        simp only [rsaEncParams]
        rw [if_neg h0, if_pos h1, if_neg hz]
      · simp only [rsaEncParams, if_neg h0, if_neg h1] at h
        cases h

/-! ## A pair that meets the hypotheses -/

/-- A stand-in for OpenSSL with a modulus of 128 bytes: messages of at most 100 bytes are padded with their length. -/
def toyRsa : RsaPrims where
  encLen := fun _ => .ok 128
  enc := fun m => if 100 < m.length then .error .deviceError else .ok (UInt8.ofNat m.length :: (m ++ List.replicate (127 - m.length) 0))
  decLen := fun _ => .ok 128
  dec := fun c => match c with
    | [] => .error .deviceError
    | x :: r => .ok ((r.take x.toNat).take 128)
  signLen := fun _ => .ok 128
  sign := fun m => .ok (List.replicate 127 1 ++ [UInt8.ofNat m.length])
  signFed := fun m => .ok (List.replicate 127 2 ++ [UInt8.ofNat m.length])
  ver := fun m s => if s = List.replicate 127 1 ++ [UInt8.ofNat m.length] then .ok () else .error .signatureInvalid
  verFed := fun m s => if s = List.replicate 127 2 ++ [UInt8.ofNat m.length] then .ok () else .error .signatureInvalid

theorem toyRsa_pair : Spec.RsaPair toyRsa toyRsa 128 where
  encLen := fun _ => rfl
  decLen := fun _ => rfl
  encSize := by
    intro m c h
    simp only [toyRsa] at h
    split at h
    · cases h
    · injection h with h
      subst h
      simp only [List.length_cons, List.length_append, List.length_replicate]
      omega
  decSize := by
    intro c m h
    simp only [toyRsa] at h
    split at h
    · cases h
    · injection h with h
      subst h
      exact List.length_take_le _ _
  undo := by
    intro m c h
    simp only [toyRsa] at h ⊢
    split at h
    · cases h
    · rename_i hl
      injection h with h
      subst h
      simp only
      have : (UInt8.ofNat m.length).toNat = m.length := by
        rw [UInt8.toNat_ofNat']
        omega
      rw [this, List.take_left, List.take_of_length_le (by omega)]
  signLen := fun _ => rfl
  signSize := by
    intro m s h
    rcases h with h | h <;> (simp only [toyRsa] at h; injection h with h; subst h; simp)
  accepts := by
    intro m s h
    simp only [toyRsa] at h ⊢
    injection h with h
    rw [if_pos h.symm]
  acceptsFed := by
    intro m s h
    simp only [toyRsa] at h ⊢
    injection h with h
    rw [if_pos h.symm]

def exModulus : Bytes := List.replicate 128 0xc5

def exOaep (h : RsaHash) : RsaMech := .oaep ⟨h, h, 1, [7, 7]⟩

/-- The OAEP operation for a modulus of 1024 bits and SHA-256. -/
def exRsaOp : RsaOp := { mech := exOaep .sha256, maxInput := 62, outputLen := 128, encctx := true }

theorem C78_example_new : RsaOp.encdecNew 1024 16384 (exOaep .sha256) exModulus = .ok exRsaOp := by decide +kernel

example : madeCrypt exRsaOp 128 := ⟨1024, 16384, exOaep .sha256, exModulus, C78_example_new, by decide +kernel, by decide⟩

/-- Whether a call succeeded. -/
def rsaOk {α : Type} : Res α → Bool
  | .ok _ => true
  | .error _ => false

/-- The bytes a call wrote. -/
def rsaWrote : Res RsaOut → Bytes
  | .ok r => r.written
  | .error _ => []

example : rsaOk (rsaCEncrypt toyRsa exRsaOp [1, 2, 3] (some 128)).1 = true ∧
    (rsaCDecrypt toyRsa exRsaOp (rsaWrote (rsaCEncrypt toyRsa exRsaOp [1, 2, 3] (some 128)).1) (some 200)).1 = .ok ⟨3, [1, 2, 3]⟩ := by decide +kernel

example : rsaOk (rsaWrap 1024 16384 .pkcs exModulus toyRsa [9, 8] 128) = true ∧
    rsaUnwrap 1024 16384 .pkcs exModulus toyRsa (rsaWrote (rsaWrap 1024 16384 .pkcs exModulus toyRsa [9, 8] 128)) = .ok [9, 8] := by decide +kernel

/-- PSS over SHA-256 hashes, and with the hashing. -/
def exPss : RsaMech := .pss ⟨.sha256, .sha256, 32⟩

def exHashPss : RsaMech := .hashPss .sha256 ⟨.sha256, .sha256, 32⟩

def exPssOp : RsaOp := { mech := exPss, maxInput := 32, outputLen := 128, sigctx := true }

def exHashOp : RsaOp := { mech := exHashPss, maxInput := 0, outputLen := 128, sigctx := true }

example : madeSig exPssOp exPss 128 none := ⟨1024, 16384, exModulus, by decide +kernel, by decide +kernel⟩

example : madeSig exHashOp exHashPss 128 none := ⟨1024, 16384, exModulus, by decide +kernel, by decide +kernel⟩

example : rsaOk (exPssOp.sign toyRsa (List.replicate 32 5) 128).1 = true ∧ (exPssOp.sign toyRsa [1] 128).1 = .error .dataLenRange := by decide +kernel

example : (exHashOp.updates [[1], [2, 3]]).1 = .ok () ∧ ((exHashOp.updates [[1], [2, 3]]).2.signFinal toyRsa 128).1 = (exHashOp.sign toyRsa [1, 2, 3] 128).1 ∧
    rsaOk (exHashOp.sign toyRsa [1, 2, 3] 128).1 = true := by decide +kernel

/-! ## What does not hold -/

/-- A buffer of length zero that is not NULL: C_Encrypt and C_Decrypt report success and the modulus' size, and write nothing.  PKCS#11 asks for
CKR_BUFFER_TOO_SMALL. -/
theorem C78_zero_buffer_violation (P P' : RsaPrims) (o : RsaOp) (k : Nat) (data : Bytes) (hp : Spec.RsaPair P P' k) (h : madeCrypt o k) :
    rsaCEncrypt P o data (some 0) = (.ok ⟨k, []⟩, o) ∧ rsaCDecrypt P' o data (some 0) = (.ok ⟨k, []⟩, o) ∧ 0 < k := by
  obtain ⟨a, b, mech, modulus, h1, rfl, h3⟩ := h
  obtain ⟨m, rfl, hm⟩ := crypt_made h1
  refine ⟨?_, ?_, by omega⟩
  · simp only [rsaCEncrypt, RsaOp.encrypt, Bool.false_eq_true, if_false, if_true]
    rw [hp.encLen]
  · simp only [rsaCDecrypt, RsaOp.decrypt, Bool.false_eq_true, if_false, if_true]
    rw [hp.decLen]

/-- CKM_RSA_X_509 is offered for encryption, but the call that asks for the size of the result fails. -/
theorem C78_x509_length_violation (P : RsaPrims) (minBits maxBits : Nat) (modulus data : Bytes) (o : RsaOp) (h : RsaOp.encdecNew minBits maxBits .x509 modulus = .ok o) :
    rsaCEncrypt P o data none = (.error .generalError, o) ∧ rsaCDecrypt P o data none = (.error .generalError, o) := by
  obtain ⟨m, rfl, hm⟩ := crypt_made h
  exact ⟨rfl, rfl⟩

example : rsaOk (RsaOp.encdecNew 1024 16384 .x509 exModulus) = true := by decide +kernel

/-- C_EncryptInit with OAEP and SHA-512 computes a negative length for every key of 1024 bits: it panics when overflow is checked. -/
theorem C78_oaep_violation (modulus : Bytes) (mgf : RsaHash) (h : modulus.length = 128) :
    RsaOp.encdecNew 1024 16384 (.oaep ⟨.sha512, mgf, 0, []⟩) modulus = .error .panic := by
  unfold RsaOp.encdecNew rsaKeySize
  simp only [rsaEncParams, h, if_true, List.length_nil, ne_eq, not_true_eq_false, if_false]
  rw [if_neg (by omega)]
  simp only [rsaMaxLen, RsaHash.size]
  rfl

/-- A buffer that has room for the plaintext, but not for the modulus, is refused by C_Decrypt, although PKCS#11 allows it and the code has a branch for it: this branch is
never reached. -/
theorem C78_short_buffer_violation (P P' : RsaPrims) (o o1 : RsaOp) (k n : Nat) (cipher : Bytes) (r : RsaOut) (hp : Spec.RsaPair P P' k) (h : madeCrypt o k)
    (h0 : n ≠ 0) (hd : rsaCDecrypt P' o cipher (some n) = (.ok r, o1)) : k ≤ n := by
  obtain ⟨a, b, mech, modulus, h1, rfl, h3⟩ := h
  obtain ⟨m, rfl, hm⟩ := crypt_made h1
  simp only [rsaCDecrypt, RsaOp.decrypt, Bool.false_eq_true, if_false, if_true] at hd
  rw [hp.decLen] at hd
  simp only at hd
  rw [if_neg h0] at hd
  split at hd
  · cases hd
  · omega

/-- A modulus with a leading zero byte is accepted, but then the expected size is not OpenSSL's: no data can be signed. -/
theorem C78_padded_violation (P P' : RsaPrims) (o : RsaOp) (mech : RsaMech) (k n : Nat) (data s : Bytes) (hp : Spec.RsaPair P P' k) (h : madeSig o mech (k + 1) none)
    (hn : n = o.outputLen) : (o.sign P' data n).1 ≠ .ok s := by
  obtain ⟨a, b, modulus, h1, h2⟩ := h
  obtain ⟨m, rfl, hm, _⟩ := sig_made h1
  have hn' : n = k + 1 := by rw [hn]; exact h2
  intro hs
  unfold RsaOp.sign at hs
  simp only [Bool.false_eq_true, if_false] at hs
  cases hpl : mech.plain with
  | true =>
    simp only [hpl, if_true] at hs
    split at hs
    · cases hs
    · rw [if_neg (by rw [h2, hn']; exact fun hc => hc rfl), hp.signLen] at hs
      simp only at hs
      rw [if_pos (by omega)] at hs
      cases hs
  | false =>
    have e : ∀ (o : RsaOp) (p : Bytes), o.mech.plain = false → o.finalized = false → o.sigctx = true → o.data = [] →
        o.update p = (.ok (), { o with inUse := true, data := p }) := by
      intro o p h1 h2 h3 h4
      unfold RsaOp.update
      simp [h1, h2, h3, h4]
    simp only [hpl, Bool.false_eq_true, if_false] at hs
    rw [e _ _ hpl rfl rfl rfl] at hs
    simp only [RsaOp.signFinal, Bool.not_true, Bool.false_eq_true, if_false, if_true] at hs
    cases hsg : P'.signFed data with
    | error e => rw [hsg] at hs; cases hs
    | ok s' =>
      rw [hsg] at hs
      simp only at hs
      have hl := hp.signSize _ _ (.inr hsg)
      rw [if_pos (by omega)] at hs
      cases hs

example : madeSig { mech := .pkcs, maxInput := 118, outputLen := 129, sigctx := true } .pkcs (128 + 1) none :=
  ⟨1024, 16384, 0 :: exModulus, by decide +kernel, by decide +kernel⟩

end Kry
