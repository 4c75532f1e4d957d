import Verif.Model.RsaOp
import Verif.Model.EdCalls

/-!
# RSA signatures behind C_Sign*, C_Verify* and C_VerifySignature*

`src/rsa.rs:21-100`, `:601-666`, `src/ossl/rsa.rs`.
-/

namespace Kry

/-- The attributes read by `rsa_object_to_pkey` (`src/ossl/rsa.rs:44-100`); `crt` are CKA_PRIME_1, CKA_PRIME_2, CKA_EXPONENT_1, CKA_EXPONENT_2 and CKA_COEFFICIENT where there. -/
structure RsaKey where
  priv : Bool
  n : Bytes
  e : Bytes
  d : Bytes := []
  crt : List (Option Bytes) := []
deriving DecidableEq, Repr

/-- OpenSSL's import of keys and its signature contexts (`src/ossl/rsa.rs:44-100`, `:350-364`) as a parameter, or a failure; that primes, exponents and coefficient are only used
together is part of it. -/
structure RsaKeys where
  load : RsaMech → RsaKey → Option RsaPrims

/-- CKM_…_RSA_PKCS (`src/ossl/rsa.rs:130-141`). -/
def rsaPkcsTab : List (Nat × RsaHash) :=
  [(CKM_SHA1_RSA_PKCS, .sha1), (CKM_SHA224_RSA_PKCS, .sha224), (CKM_SHA256_RSA_PKCS, .sha256), (CKM_SHA384_RSA_PKCS, .sha384), (CKM_SHA512_RSA_PKCS, .sha512),
   (CKM_SHA3_224_RSA_PKCS, .sha3_224), (CKM_SHA3_256_RSA_PKCS, .sha3_256), (CKM_SHA3_384_RSA_PKCS, .sha3_384), (CKM_SHA3_512_RSA_PKCS, .sha3_512)]

/-- CKM_…_RSA_PKCS_PSS (`src/ossl/rsa.rs:142-151`). -/
def rsaPssTab : List (Nat × RsaHash) :=
  [(CKM_SHA1_RSA_PKCS_PSS, .sha1), (CKM_SHA224_RSA_PKCS_PSS, .sha224), (CKM_SHA256_RSA_PKCS_PSS, .sha256), (CKM_SHA384_RSA_PKCS_PSS, .sha384), (CKM_SHA512_RSA_PKCS_PSS, .sha512),
   (CKM_SHA3_224_RSA_PKCS_PSS, .sha3_224), (CKM_SHA3_256_RSA_PKCS_PSS, .sha3_256), (CKM_SHA3_384_RSA_PKCS_PSS, .sha3_384), (CKM_SHA3_512_RSA_PKCS_PSS, .sha3_512)]

/-- `mech_type_to_digest_alg` (`src/ossl/common.rs:106-174`), also for the hash of a parameter; SHA-512/224 and SHA-512/256 with their MACs (`:166-171`) are left out. -/
def rsaHashTab : List (Nat × RsaHash) :=
  [(CKM_SHA_1, .sha1), (CKM_SHA1_RSA_PKCS, .sha1), (CKM_SHA1_RSA_PKCS_PSS, .sha1), (CKM_ECDSA_SHA1, .sha1), (CKM_SHA_1_HMAC, .sha1), (CKM_SHA_1_HMAC_GENERAL, .sha1),
   (CKM_SHA224, .sha224), (CKM_SHA224_RSA_PKCS, .sha224), (CKM_SHA224_RSA_PKCS_PSS, .sha224), (CKM_ECDSA_SHA224, .sha224), (CKM_SHA224_HMAC, .sha224), (CKM_SHA224_HMAC_GENERAL, .sha224),
   (CKM_SHA256, .sha256), (CKM_SHA256_RSA_PKCS, .sha256), (CKM_SHA256_RSA_PKCS_PSS, .sha256), (CKM_ECDSA_SHA256, .sha256), (CKM_SHA256_HMAC, .sha256), (CKM_SHA256_HMAC_GENERAL, .sha256),
   (CKM_SHA384, .sha384), (CKM_SHA384_RSA_PKCS, .sha384), (CKM_SHA384_RSA_PKCS_PSS, .sha384), (CKM_ECDSA_SHA384, .sha384), (CKM_SHA384_HMAC, .sha384), (CKM_SHA384_HMAC_GENERAL, .sha384),
   (CKM_SHA512, .sha512), (CKM_SHA512_RSA_PKCS, .sha512), (CKM_SHA512_RSA_PKCS_PSS, .sha512), (CKM_ECDSA_SHA512, .sha512), (CKM_SHA512_HMAC, .sha512), (CKM_SHA512_HMAC_GENERAL, .sha512),
   (CKM_SHA3_224, .sha3_224), (CKM_SHA3_224_RSA_PKCS, .sha3_224), (CKM_SHA3_224_RSA_PKCS_PSS, .sha3_224), (CKM_ECDSA_SHA3_224, .sha3_224), (CKM_SHA3_224_HMAC, .sha3_224), (CKM_SHA3_224_HMAC_GENERAL, .sha3_224),
   (CKM_SHA3_256, .sha3_256), (CKM_SHA3_256_RSA_PKCS, .sha3_256), (CKM_SHA3_256_RSA_PKCS_PSS, .sha3_256), (CKM_ECDSA_SHA3_256, .sha3_256), (CKM_SHA3_256_HMAC, .sha3_256), (CKM_SHA3_256_HMAC_GENERAL, .sha3_256),
   (CKM_SHA3_384, .sha3_384), (CKM_SHA3_384_RSA_PKCS, .sha3_384), (CKM_SHA3_384_RSA_PKCS_PSS, .sha3_384), (CKM_ECDSA_SHA3_384, .sha3_384), (CKM_SHA3_384_HMAC, .sha3_384), (CKM_SHA3_384_HMAC_GENERAL, .sha3_384),
   (CKM_SHA3_512, .sha3_512), (CKM_SHA3_512_RSA_PKCS, .sha3_512), (CKM_SHA3_512_RSA_PKCS_PSS, .sha3_512), (CKM_ECDSA_SHA3_512, .sha3_512), (CKM_SHA3_512_HMAC, .sha3_512), (CKM_SHA3_512_HMAC_GENERAL, .sha3_512)]

/-- `mgf1_to_digest_alg` (`src/ossl/rsa.rs:105-119`). -/
def rsaMgfTab : List (Nat × RsaHash) :=
  [(CKG_MGF1_SHA1, .sha1), (CKG_MGF1_SHA224, .sha224), (CKG_MGF1_SHA256, .sha256), (CKG_MGF1_SHA384, .sha384), (CKG_MGF1_SHA512, .sha512),
   (CKG_MGF1_SHA3_224, .sha3_224), (CKG_MGF1_SHA3_256, .sha3_256), (CKG_MGF1_SHA3_384, .sha3_384), (CKG_MGF1_SHA3_512, .sha3_512)]

/-- CK_RSA_PKCS_PSS_PARAMS: three numbers (`src/ossl/rsa.rs:154-168`, `src/pkcs11/mod.rs:1016-1024`). -/
def rsaPssOf (q : Bytes) : Res RsaPss :=
  if q.length ≠ 24 then .error .argumentsBad
  else match rsaHashTab.lookup (fromLE (q.take 8)) with
    | none => .error .mechanismInvalid
    | some h => match rsaMgfTab.lookup (fromLE ((q.drop 8).take 8)) with
      | none => .error .mechanismParamInvalid
      | some g => .ok ⟨h, g, fromLE (q.drop 16)⟩

/-- Numbers for which `hash_size` is known (`src/hash.rs:233-240`), other than SHA-512/224 and SHA-512/256. -/
def rsaIsHash (n : Nat) : Bool :=
  [CKM_SHA_1, CKM_SHA224, CKM_SHA256, CKM_SHA384, CKM_SHA512, CKM_SHA3_224, CKM_SHA3_256, CKM_SHA3_384, CKM_SHA3_512].contains n

/-- The mechanism and its parameter (`src/ossl/rsa.rs:124-172`); a parameter of a mechanism that needs none is ignored.  For CKM_RSA_PKCS_PSS the hash is also looked up by
`max_message_len` (`src/ossl/rsa.rs:237-242`, `:262-265`), in the source after the key is loaded and its size checked. -/
def rsaMechOf (m : Nat) (q : Bytes) : Res RsaMech :=
  if m = CKM_RSA_X_509 then .ok .x509
  else if m = CKM_RSA_PKCS then .ok .pkcs
  else if m = CKM_RSA_PKCS_PSS then match rsaPssOf q with
    | .error r => .error r
    | .ok p => if rsaIsHash (fromLE (q.take 8)) then .ok (.pss p) else .error .mechanismInvalid
  else match rsaPkcsTab.lookup m with
    | some h => .ok (.hashPkcs h)
    | none => match rsaPssTab.lookup m with
      | some h => match rsaPssOf q with
        | .error r => .error r
        | .ok p => .ok (.hashPss h p)
      | none => .error .mechanismInvalid

/-- The mechanisms that sign (`src/rsa.rs:69-97`). -/
def rsaSigns (m : Nat) : Bool :=
  m == CKM_RSA_X_509 || m == CKM_RSA_PKCS || m == CKM_RSA_PKCS_PSS || (rsaPkcsTab.lookup m).isSome || (rsaPssTab.lookup m).isSome

/-- The attributes (`src/ossl/rsa.rs:51-78`); the class is checked before (`src/object/mod.rs:306`). -/
def rsaKeyOf (priv : Bool) (o : Obj) : Res RsaKey :=
  match o.getBytes CKA_MODULUS with
  | .error r => .error r
  | .ok n => match o.getBytes CKA_PUBLIC_EXPONENT with
    | .error r => .error r
    | .ok e =>
      if priv then match o.getBytes CKA_PRIVATE_EXPONENT with
        | .error r => .error r
        | .ok d => .ok ⟨true, n, e, d, [CKA_PRIME_1, CKA_PRIME_2, CKA_EXPONENT_1, CKA_EXPONENT_2, CKA_COEFFICIENT].map fun t => (o.find t).map (·.value)⟩
      else .ok ⟨false, n, e, [], []⟩

/-- The fields of `RsaPKCSOperation` for signatures (`src/ossl/rsa.rs:215-233`) with key and parameter, in serial form (model only; `finalized` is a field of `Op`). -/
def rsaOp (m : Nat) (q : Bytes) (key : RsaKey) (o : RsaOp) : Op :=
  ⟨m, o.finalized, false, none, packL [q, packBool key.priv, key.n, key.e, key.d, packNat key.crt.length, packL (key.crt.map packSig), packNat o.maxInput, packNat o.outputLen,
    packBool o.inUse, o.data, packSig o.sig]⟩

/-- Read `rsaOp` (model only). -/
def rsaOf (op : Op) : Option (Bytes × RsaKey × RsaOp) :=
  match unpackL 12 op.data with
  | [q, pr, n, e, d, l, crt, mi, ol, iu, dt, sg] => match rsaMechOf op.mech q with
    | .error _ => none
    | .ok mech => some (q, ⟨pr != [], n, e, d, (unpackL (fromLE l) crt).map unpackSig⟩,
        { mech := mech, maxInput := fromLE mi, outputLen := fromLE ol, finalized := op.fin, inUse := iu != [], sigctx := true, data := dt, sig := unpackSig sg })
  | _ => none

/-- `sigver_new` (`src/ossl/rsa.rs:340-388`), with the sizes of `src/rsa.rs:24-42`, `src/ossl/rsa.rs:33-36`; keys OpenSSL refuses are CKR_DEVICE_ERROR. -/
def rsaStart (K : RsaKeys) (m : Nat) (q : Bytes) (signs : Bool) (x : Obj) (given : Option Bytes) : Res Op :=
  match rsaMechOf m q with
  | .error r => .error r
  | .ok mech => match rsaSigParams mech with
    | .error r => .error r
    | .ok _ => match rsaKeyOf signs x with
      | .error r => .error r
      | .ok key => match K.load mech key with
        | none => .error .deviceError
        | some _ => match RsaOp.sigverNew 1024 16384 mech key.n given with
          | .error r => .error r
          | .ok o => .ok (rsaOp m q key o)

/-- Nothing is given out (model only). -/
def rsaNothing (p : Res Unit × RsaOp) : Res Bytes × RsaOp :=
  match p with
  | (.error r, o) => (.error r, o)
  | (.ok (), o) => (.ok [], o)

/-- `Sign`, `Verify` and `VerifySignature` (`src/ossl/rsa.rs:707-811`, `:916-962`); the buffer for a signature has `signature_len` bytes (`src/fns/signing.rs:112-113`, `:241-242`). -/
def rsaRun (P : RsaPrims) (k : OpKind) (a : Act) (o : RsaOp) (i : OpIn) : Res Bytes × RsaOp :=
  match a with
  | .update => rsaNothing (o.update i.data)
  | .oneShot => match k with
    | .sign => o.sign P i.data o.outputLen
    | .verify => rsaNothing (o.verify P i.data (some i.sig))
    | _ => rsaNothing (o.verify P i.data none)
  | _ => match k with
    | .sign => o.signFinal P o.outputLen
    | .verify => rsaNothing (o.verifyFinal P (some i.sig))
    | _ => rsaNothing (o.verifyFinal P none)

/-- A call on the operation object. -/
def rsaDo (K : RsaKeys) (k : OpKind) (a : Act) (op : Op) (i : OpIn) : Res Bytes × Op :=
  match rsaOf op with
  | none => (.error .generalError, op)
  | some (q, key, o) => match K.load o.mech key with
    | none => (.error .generalError, op)
    | some P => ((rsaRun P k a o i).1, rsaOp op.mech q key (rsaRun P k a o i).2)

/-- `signature_len` (`src/ossl/rsa.rs:809-811`, `:929-931`). -/
def rsaLen (op : Op) : Res Nat :=
  match rsaOf op with
  | none => .error .generalError
  | some (_, _, o) => .ok o.outputLen

/-- The kinds of operations for signatures (model only). -/
def rsaKind (k : OpKind) : Bool := k = .sign || k = .verify || k = .verifySig

/-- The RSA mechanisms for signatures in the machine (`src/rsa.rs:21-58`, `:601-666`); encryption with CKM_RSA_X_509 and CKM_RSA_PKCS and other mechanisms are those of `M`. -/
def withRsa (M : Mechs) (K : RsaKeys) : Mechs := { M with
  flags := fun m => if rsaSigns m then (CKF_SIGN ||| CKF_VERIFY) ||| M.flags m else M.flags m
  fam := fun m => if rsaSigns m then .rsa else M.fam m
  new := fun e k m q key sig => if rsaSigns m then
      if rsaKind k then match key with
        | some o => rsaStart K m q (decide (k = .sign)) o (if k = .verifySig then some sig else none)
        | none => .error .mechanismInvalid
      else M.new e k m q key sig
    else M.new e k m q key sig
  len := fun k a op n => if rsaSigns op.mech ∧ rsaKind k then (rsaLen op, op) else M.len k a op n
  run := fun e k a op i => if rsaSigns op.mech ∧ rsaKind k then rsaDo K k a op i else M.run e k a op i }

end Kry
