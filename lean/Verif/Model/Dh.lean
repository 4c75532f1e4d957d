import Verif.Model.HashKdf
import Verif.Model.Der

/-!
# Key agreement: CKM_ECDH1_DERIVE, CKM_ECDH1_COFACTOR_DERIVE (`src/ossl/ecdh.rs`) and CKM_DH_PKCS_DERIVE (`src/ossl/ffdh.rs`)

OpenSSL is a parameter: `DhEnv.load` turns the private key object into a `DhPkey`, whose functions answer for that key, and `DhEnv.kdf` is
OpenSSL's X9.63 and one-step key derivation.  Not modelled: the FIPS build, the clearing of memory, key generation and import.
-/

namespace Kry

/-- `kdf_type_to_digest_alg` (`src/ossl/ecdh.rs:24-38`); the digest is named by its mechanism. -/
def kdfDigest (kdf : Nat) : Res Nat :=
  if kdf = CKD_SHA1_KDF ∨ kdf = CKD_SHA1_KDF_SP800 then .ok CKM_SHA_1
  else if kdf = CKD_SHA224_KDF ∨ kdf = CKD_SHA224_KDF_SP800 then .ok CKM_SHA224
  else if kdf = CKD_SHA256_KDF ∨ kdf = CKD_SHA256_KDF_SP800 then .ok CKM_SHA256
  else if kdf = CKD_SHA384_KDF ∨ kdf = CKD_SHA384_KDF_SP800 then .ok CKM_SHA384
  else if kdf = CKD_SHA512_KDF ∨ kdf = CKD_SHA512_KDF_SP800 then .ok CKM_SHA512
  else if kdf = CKD_SHA3_224_KDF ∨ kdf = CKD_SHA3_224_KDF_SP800 then .ok CKM_SHA3_224
  else if kdf = CKD_SHA3_256_KDF ∨ kdf = CKD_SHA3_256_KDF_SP800 then .ok CKM_SHA3_256
  else if kdf = CKD_SHA3_384_KDF ∨ kdf = CKD_SHA3_384_KDF_SP800 then .ok CKM_SHA3_384
  else if kdf = CKD_SHA3_512_KDF ∨ kdf = CKD_SHA3_512_KDF_SP800 then .ok CKM_SHA3_512
  else .error .mechanismParamInvalid

/-- `kdf_type_is_x963` (`src/ossl/ecdh.rs:40-56`). -/
def kdfIsX963 (kdf : Nat) : Res Bool :=
  if kdf ∈ [CKD_SHA1_KDF, CKD_SHA224_KDF, CKD_SHA256_KDF, CKD_SHA384_KDF, CKD_SHA512_KDF, CKD_SHA3_224_KDF, CKD_SHA3_256_KDF, CKD_SHA3_384_KDF,
      CKD_SHA3_512_KDF] then .ok true
  else if kdf ∈ [CKD_SHA1_KDF_SP800, CKD_SHA224_KDF_SP800, CKD_SHA256_KDF_SP800, CKD_SHA384_KDF_SP800, CKD_SHA512_KDF_SP800,
      CKD_SHA3_224_KDF_SP800, CKD_SHA3_256_KDF_SP800, CKD_SHA3_384_KDF_SP800, CKD_SHA3_512_KDF_SP800] then .ok false
  else .error .mechanismParamInvalid

/-- The two calls of `EVP_PKEY_derive`: the length announced by the first, the buffer of that length after the second, and the length it reports. -/
structure DhOut where
  announced : Nat
  buf : Bytes
  len : Nat
deriving DecidableEq, Repr

/-- OpenSSL for one private key: `init` is `EVP_PKEY_derive_init`, `bits` is `EVP_PKEY_get_bits`, `size` is `EVP_PKEY_get_size`, `peer` is `make_peer`
(`ossl/src/pkey.rs:1796-1839`), `run` is `EVP_PKEY_derive` with the peer's public value and the cofactor mode. -/
structure DhPkey where
  init : Res Unit
  bits : Res Nat
  size : Nat
  peer : Bytes → Res Unit
  run : Bool → Bytes → Res DhOut

/-- OpenSSL: `privkey_from_object` (`src/ossl/common.rs:103-105`), and X963KdfDerive, OneStepKdfDerive (`ossl/src/derive.rs`) with the digest, the
secret, the info and the length of the output. -/
structure DhEnv where
  load : Obj → Res DhPkey
  kdf : Bool → Nat → Bytes → Option Bytes → Nat → Res Bytes

/-- `EcdhDerive::derive`, `FfdhDerive::derive` (`ossl/src/derive.rs:834-869`, `:908-960`) into a buffer of `n` zero bytes: the buffer afterwards and
the length returned. -/
def dhFill (x : DhOut) (n : Nat) : Bytes × Nat :=
  let len := if x.len < n then x.len else n
  if x.announced ≤ n then (x.buf ++ List.replicate (n - x.announced) 0, len)
  else (x.buf.drop (x.announced - len) ++ List.replicate (n - len) 0, len)

/-- CK_ECDH1_DERIVE_PARAMS; the data is `none` when the pointer is NULL, otherwise as long as the length says; `sharedLen` is ulSharedDataLen. -/
structure EcdhParams where
  kdf : Nat
  shared : Option Bytes
  sharedLen : Nat
  pub : Option Bytes

/-- `ECDHOperation` (`src/ossl/ecdh.rs:58-71`). -/
structure EcdhOp where
  mech : Nat
  kdf : Nat
  pub : Bytes
  shared : Option Bytes
  fin : Bool
deriving DecidableEq, Repr

/-- `derive_operation` (`src/ec/ecdh.rs:47-61`) with `derive_new` (`src/ossl/ecdh.rs:78-112`). -/
def EcdhOp.new (mech : Nat) (p : EcdhParams) : Res EcdhOp :=
  if mech = CKM_ECDH1_DERIVE ∨ mech = CKM_ECDH1_COFACTOR_DERIVE then
    if p.kdf = CKD_NULL ∧ (p.shared.isSome ∨ p.sharedLen ≠ 0) then .error .mechanismParamInvalid
    else match p.pub with
      | none => .error .mechanismParamInvalid
      | some [] => .error .mechanismParamInvalid
      | some b => .ok {
          mech := mech
          kdf := p.kdf
          pub := b
          shared := if p.shared.isSome ∨ p.sharedLen > 0 then some (p.shared.getD []) else none
          fin := false }
  else .error .mechanismInvalid

/-- `asn1::parse_single::<&[u8]>` of an OCTET STRING. -/
def derOctets (b : Bytes) : Option Bytes :=
  match derField 4 b with
  | .ok (c, []) => some c
  | _ => none

/-- `as_secret_key_factory` and `recommend_key_size`, with the error replaced (`src/ossl/ecdh.rs:170-176`, `src/ossl/ffdh.rs:184-190`). -/
def dhRecommend (F : Factory) (n : Nat) : Res Nat :=
  if F.cls = CKO_SECRET_KEY ∨ F.cls = CKO_OTP_KEY then
    match recommendKeySize F n with
    | .ok m => .ok m
    | .error _ => .error .templateInconsistent
  else .error .generalError

/-- The length of the derived key (`src/ossl/ecdh.rs:157-179`). -/
def ecdhLen (F : Factory) (kdf max : Nat) (t : Template) : Res Nat :=
  match Template.findA t CKA_VALUE_LEN with
  | some c => match c.toUlong with
    | .error r => .error r
    | .ok n => if kdf = CKD_NULL ∧ n > max then .error .templateInconsistent else .ok n
  | none => if kdf ≠ CKD_NULL then .error .templateInconsistent else dhRecommend F max

/-- The peer's point (`src/ossl/ecdh.rs:181-191`). -/
def ecdhPoint (max : Nat) (pub : Bytes) : Res Bytes :=
  if pub.length > 2 * max + 1 then
    match derOctets pub with
    | some p => .ok p
    | none => .error .mechanismParamInvalid
  else .ok pub

/-- From the agreed secret to the value of the key (`src/ossl/ecdh.rs:200-229`). -/
def ecdhValue (E : DhEnv) (k : EcdhOp) (secret : Bytes) (n : Nat) : Res Bytes :=
  if k.kdf = CKD_NULL then
    if secret.length < n then .error .templateInconsistent else .ok (secret.drop (secret.length - n))
  else match kdfDigest k.kdf with
    | .error r => .error r
    | .ok d => match kdfIsX963 k.kdf with
      | .error r => .error r
      | .ok x => E.kdf x d secret k.shared n

/-- `derive` (`src/ossl/ecdh.rs:134-239`) after the check of `finalized`; `agreementDerive` asks for the factory again. -/
def ecdhDerive (E : DhEnv) (O : Oracle) (uid : Bytes) (k : EcdhOp) (key : Obj) (t : Template) : Res (List Obj) :=
  match E.load key with
  | .error r => .error r
  | .ok pk => match pk.init with
    | .error r => .error r
    | .ok () => match keyTemplateFactory t with
      | .error r => .error r
      | .ok F => match pk.bits with
        | .error r => .error r
        | .ok bits => match ecdhLen F k.kdf ((bits + 7) / 8) t with
          | .error r => .error r
          | .ok n => match ecdhPoint ((bits + 7) / 8) k.pub with
            | .error r => .error r
            | .ok pt => match pk.peer pt with
              | .error r => .error r
              | .ok () => match pk.run (k.mech == CKM_ECDH1_COFACTOR_DERIVE) pt with
                | .error r => .error r
                | .ok x =>
                  let (buf, len) := dhFill x ((bits + 7) / 8)
                  match ecdhValue E k (buf.take len) n with
                  | .error r => .error r
                  | .ok v => match agreementDerive O uid k.mech t v with
                    | .error r => .error r
                    | .ok o => .ok [o]

/-- `derive` (`src/ossl/ecdh.rs:134-239`). -/
def EcdhOp.derive (E : DhEnv) (O : Oracle) (uid : Bytes) (k : EcdhOp) (key : Obj) (t : Template) : Res (List Obj) × EcdhOp :=
  if k.fin then (.error .operationNotInitialized, k) else (ecdhDerive E O uid k key t, { k with fin := true })

/-- `FFDHOperation` (`src/ossl/ffdh.rs:80-88`). -/
structure FfdhOp where
  mech : Nat
  pub : Bytes
  fin : Bool
deriving DecidableEq, Repr

/-- `derive_operation` (`src/ffdh.rs:252-267`) with `derive_new` (`src/ossl/ffdh.rs:92-105`). -/
def FfdhOp.new (mech : Nat) (param : Bytes) : Res FfdhOp :=
  if mech = CKM_DH_PKCS_DERIVE then
    if param = [] then .error .mechanismParamInvalid else .ok ⟨mech, param, false⟩
  else .error .mechanismInvalid

/-- The length asked of OpenSSL (`src/ossl/ffdh.rs:174-191`). -/
def ffdhLen (F : Factory) (max : Nat) (t : Template) : Res Nat :=
  match Template.findA t CKA_VALUE_LEN with
  | some c => match c.toUlong with
    | .error r => .error r
    | .ok n => if n > max then .error .templateInconsistent else .ok n
  | none => dhRecommend F max

/-- From what OpenSSL answered to the value of the key (`src/ossl/ffdh.rs:193-228`); `set_outlen` has no effect. -/
def ffdhValue (F : Factory) (max n : Nat) (x : DhOut) : Res Bytes :=
  let (buf, len) := dhFill x n
  if len ≠ n then
    if n ≠ max then .error .generalError
    else match dhRecommend F len with
      | .error r => .error r
      | .ok m => if len = m then .ok (buf.take len) else .error .templateInconsistent
  else .ok buf

/-- `derive` (`src/ossl/ffdh.rs:154-239`) after the check of `finalized`. -/
def ffdhDerive (E : DhEnv) (O : Oracle) (uid : Bytes) (k : FfdhOp) (key : Obj) (t : Template) : Res (List Obj) :=
  match keyTemplateFactory t with
  | .error r => .error r
  | .ok F => match E.load key with
    | .error r => .error r
    | .ok pk => match pk.peer k.pub with
      | .error r => .error r
      | .ok () => match pk.init with
        | .error r => .error r
        | .ok () => match ffdhLen F pk.size t with
          | .error r => .error r
          | .ok n => match pk.run false k.pub with
            | .error r => .error r
            | .ok x => match ffdhValue F pk.size n x with
              | .error r => .error r
              | .ok v => match agreementDerive O uid k.mech t v with
                | .error r => .error r
                | .ok o => .ok [o]

/-- `derive` (`src/ossl/ffdh.rs:154-239`). -/
def FfdhOp.derive (E : DhEnv) (O : Oracle) (uid : Bytes) (k : FfdhOp) (key : Obj) (t : Template) : Res (List Obj) × FfdhOp :=
  if k.fin then (.error .operationNotInitialized, k) else (ffdhDerive E O uid k key t, { k with fin := true })

end Kry
