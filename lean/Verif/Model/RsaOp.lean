import Verif.Model.Base

/-! The RSA operation: encryption, decryption, signing, verification (`src/ossl/rsa.rs`). -/

namespace Kry

/-- The hashes of `mech_type_to_digest_alg` and `mgf1_to_digest_alg` (`src/ossl/rsa.rs:105-119`). -/
inductive RsaHash where
  | sha1 | sha224 | sha256 | sha384 | sha512 | sha3_224 | sha3_256 | sha3_384 | sha3_512
deriving DecidableEq, Repr

/-- `hash_len` for them (`src/ossl/rsa.rs:237-242`), in bytes. -/
def RsaHash.size : RsaHash → Nat
  | .sha1 => 20
  | .sha224 | .sha3_224 => 28
  | .sha256 | .sha3_256 => 32
  | .sha384 | .sha3_384 => 48
  | .sha512 | .sha3_512 => 64

/-- `CK_RSA_PKCS_PSS_PARAMS` as read by `parse_sig_params` (`src/ossl/rsa.rs:153-168`); unknown hashes and masks are not represented. -/
structure RsaPss where
  hash : RsaHash
  mgf : RsaHash
  salt : Nat
deriving DecidableEq, Repr

/-- `CK_RSA_PKCS_OAEP_PARAMS` as read by `parse_enc_params` (`src/ossl/rsa.rs:184-206`); `label` are the `ulSourceDataLen` bytes. -/
structure RsaOaep where
  hash : RsaHash
  mgf : RsaHash
  source : Nat
  label : Bytes
deriving DecidableEq, Repr

/-- A mechanism with its parameter (`src/ossl/rsa.rs:127-151`, `:181-184`): CKM_RSA_X_509, CKM_RSA_PKCS, CKM_RSA_PKCS_OAEP, CKM_RSA_PKCS_PSS, the mechanisms
CKM_…_RSA_PKCS and CKM_…_RSA_PKCS_PSS that hash, and any other one. -/
inductive RsaMech where
  | x509 | pkcs
  | oaep (p : RsaOaep)
  | pss (p : RsaPss)
  | hashPkcs (h : RsaHash)
  | hashPss (h : RsaHash) (p : RsaPss)
  | other
deriving DecidableEq, Repr

/-- `parse_sig_params` (`src/ossl/rsa.rs:124-172`): the parameters for OpenSSL. -/
def rsaSigParams : RsaMech → Res (Option RsaPss)
  | .x509 | .pkcs | .hashPkcs _ => .ok none
  | .pss p => .ok (some p)
  | .hashPss h p => if h ≠ p.hash then .error .mechanismParamInvalid else .ok (some p)
  | .oaep _ | .other => .error .mechanismInvalid

/-- `parse_enc_params` (`src/ossl/rsa.rs:178-211`): hash, mask hash and label for OpenSSL. -/
def rsaEncParams : RsaMech → Res (Option (RsaHash × RsaHash × Option Bytes))
  | .x509 | .pkcs => .ok none
  | .oaep p =>
    if p.source = 0 then
      if p.label.length ≠ 0 then .error .mechanismParamInvalid else .ok (some (p.hash, p.mgf, none))
    else if p.source = 1 then .ok (some (p.hash, p.mgf, if p.label.length = 0 then none else some p.label))
    else .error .mechanismParamInvalid
  | _ => .error .mechanismInvalid

/-- `max_message_len` (`src/ossl/rsa.rs:258-275`) for a modulus of `k` bytes.  A subtraction below zero panics in builds with overflow checks; in others it wraps. -/
def rsaMaxLen (k : Nat) : RsaMech → Res Nat
  | .x509 => .ok k
  | .pkcs => if k < 11 then .error .panic else .ok (k - 11)
  | .pss p => .ok p.hash.size
  | .oaep p => if k < 2 * p.hash.size + 2 then .error .panic else .ok (k - 2 * p.hash.size - 2)
  | _ => .ok 0

/-- `get_key_size` (`src/ossl/rsa.rs:245-254`): `minBits`, `maxBits` are those of the mechanism (`src/rsa.rs:24-60`). -/
def rsaKeySize (minBits maxBits : Nat) (modulus : Bytes) : Res Nat :=
  if modulus.length * 8 < minBits ∨ (maxBits ≠ 0 ∧ maxBits < modulus.length * 8) then .error .keySizeRange else .ok modulus.length

/-- OpenSSL's contexts for one key and mechanism, as a parameter.  `encLen`, `decLen`, `signLen` are its answers without a buffer (`ctx.encrypt(plain, None)` and so
on); `sign`, `ver` take the data at once, `signFed`, `verFed` the data fed before. -/
structure RsaPrims where
  encLen : Bytes → Res Nat
  enc : Bytes → Res Bytes
  decLen : Bytes → Res Nat
  dec : Bytes → Res Bytes
  signLen : Bytes → Res Nat
  sign : Bytes → Res Bytes
  signFed : Bytes → Res Bytes
  ver : Bytes → Bytes → Res Unit
  verFed : Bytes → Bytes → Res Unit

/-- `RsaPKCSOperation` (`src/ossl/rsa.rs:215-233`); `sigctx`, `encctx` say which context is there, `data` is what the signature context was fed, `sig` the signature set
in it. -/
structure RsaOp where
  mech : RsaMech
  maxInput : Nat
  outputLen : Nat
  finalized : Bool := false
  inUse : Bool := false
  sigctx : Bool := false
  encctx : Bool := false
  data : Bytes := []
  sig : Option Bytes := none
deriving DecidableEq, Repr

/-- `encdec_new` (`src/ossl/rsa.rs:279-317`); key objects OpenSSL refuses are not represented. -/
def RsaOp.encdecNew (minBits maxBits : Nat) (mech : RsaMech) (modulus : Bytes) : Res RsaOp :=
  match rsaEncParams mech with
  | .error r => .error r
  | .ok _ => match rsaKeySize minBits maxBits modulus with
    | .error r => .error r
    | .ok k => match rsaMaxLen k mech with
      | .error r => .error r
      | .ok m => .ok { mech := mech, maxInput := m, outputLen := k, encctx := true }

/-- `sigver_new` (`src/ossl/rsa.rs:340-388`) with the signature of `verify_signature_new`. -/
def RsaOp.sigverNew (minBits maxBits : Nat) (mech : RsaMech) (modulus : Bytes) (signature : Option Bytes) : Res RsaOp :=
  match rsaSigParams mech with
  | .error r => .error r
  | .ok _ => match rsaKeySize minBits maxBits modulus with
    | .error r => .error r
    | .ok k => match rsaMaxLen k mech with
      | .error r => .error r
      | .ok m => match signature with
        | none => .ok { mech := mech, maxInput := m, outputLen := k, sigctx := true }
        | some s => if s.length ≠ k then .error .signatureLenRange
          else .ok { mech := mech, maxInput := m, outputLen := k, sigctx := true, sig := some s }

/-- What a call into a buffer reports: the length it returns and the bytes it wrote at the start of the buffer. -/
structure RsaOut where
  len : Nat
  written : Bytes
deriving DecidableEq, Repr

/-- `encrypt` (`src/ossl/rsa.rs:574-607`) into a buffer of `n` bytes. -/
def RsaOp.encrypt (P : RsaPrims) (o : RsaOp) (plain : Bytes) (n : Nat) : Res RsaOut × RsaOp :=
  if o.inUse then (.error .operationNotInitialized, o)
  else if o.finalized then (.error .operationNotInitialized, o)
  else if o.encctx then
    match P.encLen plain with
    | .error r => (.error r, o)
    | .ok outlen =>
      if n = 0 then (.ok ⟨outlen, []⟩, o)
      else if n < outlen then (.error .bufferTooSmall, o)
      else
        let o := { o with finalized := true }
        match P.enc plain with
        | .error r => (.error r, o)
        | .ok c => (.ok ⟨c.length, c⟩, o)
  else (.error .generalError, { o with finalized := true })

/-- `encrypt_update`, `encrypt_final`, `decrypt_update`, `decrypt_final` (`src/ossl/rsa.rs:609-621`, `:685-697`). -/
def RsaOp.noParts (o : RsaOp) : Res RsaOut × RsaOp := (.error .operationNotInitialized, { o with finalized := true })

/-- `encryption_len`, `decryption_len` (`src/ossl/rsa.rs:623-628`, `:699-704`). -/
def RsaOp.cryptLen (o : RsaOp) : Res Nat :=
  match o.mech with
  | .pkcs | .oaep _ => .ok o.outputLen
  | _ => .error .generalError

/-- `decrypt` (`src/ossl/rsa.rs:632-683`) into a buffer of `n` bytes; OpenSSL's answer into its own or a temporary buffer of at least `outlen` bytes is `dec`. -/
def RsaOp.decrypt (P : RsaPrims) (o : RsaOp) (cipher : Bytes) (n : Nat) : Res RsaOut × RsaOp :=
  if o.inUse then (.error .operationNotInitialized, o)
  else if o.finalized then (.error .operationNotInitialized, o)
  else if o.encctx then
    match P.decLen cipher with
    | .error r => (.error r, o)
    | .ok outlen =>
      if n = 0 then (.ok ⟨outlen, []⟩, o)
      else if n < outlen ∧ n < o.outputLen then (.error .bufferTooSmall, o)
      else
        let o := { o with finalized := true }
        match P.dec cipher with
        | .error r => (.error r, o)
        | .ok m => if n < m.length then (.error .generalError, o) else (.ok ⟨m.length, m⟩, o)
  else (.error .generalError, { o with finalized := true })

/-- The mechanisms that sign their input without hashing it (`src/ossl/rsa.rs:716`, `:759`, `:829`, `:867`). -/
def RsaMech.plain : RsaMech → Bool
  | .x509 | .pkcs | .pss _ => true
  | _ => false

/-- `sign_update` and `verify_int_update` (`src/ossl/rsa.rs:753-780`, `:861-888`). -/
def RsaOp.update (o : RsaOp) (part : Bytes) : Res Unit × RsaOp :=
  if o.finalized then (.error .operationNotInitialized, o)
  else if !o.inUse && o.mech.plain then (.error .operationNotInitialized, o)
  else
    let o := { o with inUse := true }
    if o.sigctx then (.ok (), { o with data := o.data ++ part }) else (.error .generalError, o)

/-- `sign_final` (`src/ossl/rsa.rs:782-807`) into a buffer of `n` bytes; OpenSSL refuses (here CKR_DEVICE_ERROR) when the signature does not fit. -/
def RsaOp.signFinal (P : RsaPrims) (o : RsaOp) (n : Nat) : Res Bytes × RsaOp :=
  if !o.inUse then (.error .operationNotInitialized, o)
  else if o.finalized then (.error .operationNotInitialized, o)
  else
    let o := { o with finalized := true }
    if o.sigctx then
      match P.signFed o.data with
      | .error r => (.error r, o)
      | .ok s => if s.length ≠ n then (.error .deviceError, o) else (.ok s, o)
    else (.error .generalError, o)

/-- The length check on data to sign (`src/ossl/rsa.rs:721-725`). -/
def RsaOp.badData (o : RsaOp) (data : Bytes) : Bool :=
  match o.mech with
  | .pss _ => data.length != o.maxInput
  | _ => decide (o.maxInput < data.length)

/-- `sign` (`src/ossl/rsa.rs:708-751`) into a buffer of `n` bytes. -/
def RsaOp.sign (P : RsaPrims) (o : RsaOp) (data : Bytes) (n : Nat) : Res Bytes × RsaOp :=
  if o.inUse then (.error .operationNotInitialized, o)
  else if o.finalized then (.error .operationNotInitialized, o)
  else if o.mech.plain then
    let o := { o with finalized := true }
    if o.badData data then (.error .dataLenRange, o)
    else if n ≠ o.outputLen then (.error .generalError, o)
    else if o.sigctx then
      match P.signLen data with
      | .error r => (.error r, o)
      | .ok l => if l ≠ n then (.error .generalError, o)
        else match P.sign data with
          | .error r => (.error r, o)
          | .ok s => (.ok s, o)
    else (.error .generalError, o)
  else match o.update data with
    | (.error r, o) => (.error r, o)
    | (.ok (), o) => o.signFinal P n

/-- The signature OpenSSL compares: the argument, or the one set before; it fails when there is none (`src/ossl/rsa.rs:842-843`, `:903-904`). -/
def RsaOp.wanted (o : RsaOp) (signature : Option Bytes) : Res Bytes :=
  match signature with
  | some s => .ok s
  | none => match o.sig with
    | some s => .ok s
    | none => .error .generalError

/-- `verify_int_final` (`src/ossl/rsa.rs:891-913`). -/
def RsaOp.verifyFinal (P : RsaPrims) (o : RsaOp) (signature : Option Bytes) : Res Unit × RsaOp :=
  if !o.inUse then (.error .operationNotInitialized, o)
  else if o.finalized then (.error .operationNotInitialized, o)
  else
    let o := { o with finalized := true }
    if o.sigctx then
      match o.wanted signature with
      | .error r => (.error r, o)
      | .ok s => (P.verFed o.data s, o)
    else (.error .generalError, o)

/-- The length check on a signature that is given (`src/ossl/rsa.rs:837-841`). -/
def RsaOp.badLen (o : RsaOp) : Option Bytes → Bool
  | some s => s.length != o.outputLen
  | none => false

/-- `verify_internal` (`src/ossl/rsa.rs:816-858`). -/
def RsaOp.verify (P : RsaPrims) (o : RsaOp) (data : Bytes) (signature : Option Bytes) : Res Unit × RsaOp :=
  if o.inUse then (.error .operationNotInitialized, o)
  else if o.finalized then (.error .operationNotInitialized, o)
  else if o.mech.plain then
    let o := { o with finalized := true }
    if o.maxInput < data.length then (.error .dataLenRange, o)
    else if o.badLen signature then (.error .signatureLenRange, o)
    else if o.sigctx then
      match o.wanted signature with
      | .error r => (.error r, o)
      | .ok s => (P.ver data s, o)
    else (.error .generalError, o)
  else match o.update data with
    | (.error r, o) => (.error r, o)
    | (.ok (), o) => o.verifyFinal P signature

/-- Several parts: `sign_update` or `verify_update` again and again (`src/ossl/rsa.rs:753-780`, `:921-923`, `:938-940`). -/
def RsaOp.updates (o : RsaOp) : List Bytes → Res Unit × RsaOp
  | [] => (.ok (), o)
  | p :: ps => match o.update p with
    | (.error r, o) => (.error r, o)
    | (.ok (), o) => o.updates ps

/-- `wrap` (`src/ossl/rsa.rs:510-536`) of the key data into a buffer of `n` bytes. -/
def rsaWrap (minBits maxBits : Nat) (mech : RsaMech) (modulus : Bytes) (P : RsaPrims) (keydata : Bytes) (n : Nat) : Res RsaOut :=
  match RsaOp.encdecNew minBits maxBits mech modulus with
  | .error r => .error r
  | .ok o => match o.cryptLen with
    | .error r => .error r
    | .ok needed =>
      if n = 0 then .ok ⟨needed, []⟩
      else if n < needed then .error .bufferTooSmall
      else (o.encrypt P keydata n).1

/-- `unwrap` (`src/ossl/rsa.rs:544-556`): the second call goes to the operation the first one left. -/
def rsaUnwrap (minBits maxBits : Nat) (mech : RsaMech) (modulus : Bytes) (P : RsaPrims) (data : Bytes) : Res Bytes :=
  match RsaOp.encdecNew minBits maxBits mech modulus with
  | .error r => .error r
  | .ok o => match o.decrypt P data 0 with
    | (.error r, _) => .error r
    | (.ok x, o) => match o.decrypt P data x.len with
      | (.error r, _) => .error r
      | (.ok y, _) => .ok (y.written ++ List.replicate (y.len - y.written.length) 0)

/-- C_Encrypt and C_Decrypt around the operation (`src/fns/encryption.rs:84-122`, `:361-401`): `buf = none` is a NULL pointer, otherwise the length of the buffer. -/
def rsaCEncrypt (P : RsaPrims) (o : RsaOp) (plain : Bytes) (buf : Option Nat) : Res RsaOut × RsaOp :=
  match buf with
  | none => match o.cryptLen with
    | .error r => (.error r, o)
    | .ok l => (.ok ⟨l, []⟩, o)
  | some n => o.encrypt P plain n

/-- See `rsaCEncrypt` (`src/fns/encryption.rs:361-401`). -/
def rsaCDecrypt (P : RsaPrims) (o : RsaOp) (cipher : Bytes) (buf : Option Nat) : Res RsaOut × RsaOp :=
  match buf with
  | none => match o.cryptLen with
    | .error r => (.error r, o)
    | .ok l => (.ok ⟨l, []⟩, o)
  | some n => o.decrypt P cipher n

end Kry
