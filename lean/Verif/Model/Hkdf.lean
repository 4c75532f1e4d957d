import Verif.Model.HashKdf

/-!
# HKDF (`src/ossl/hkdf.rs`)

OpenSSL's HKDF is the parameter `lib`; the hash behind each mechanism is an arbitrary `HashAlg` (`algs`, indexed by the hash, the HMAC or the
general HMAC mechanism).  Not modelled: the FIPS indicator, the clearing of memory.
-/

namespace Kry

/-- `HkdfMode` (`ossl/src/derive.rs:79-85`). -/
inductive HkdfMode where
  | both | extract | expand
deriving DecidableEq, Repr

/-- `HkdfDerive` (`ossl/src/derive.rs:89-178`): mode, hash, key, salt, info, length of the output. -/
abbrev HkdfLib := HkdfMode → HashAlg → Bytes → Option Bytes → Option Bytes → Nat → Res Bytes

/-- CK_HKDF_PARAMS; the flags are bytes, the salt and the info are `none` when the pointer is NULL. -/
structure HkdfParams where
  extract : UInt8
  expand : UInt8
  prf : Nat
  saltType : Nat
  salt : Option Bytes
  saltLen : Nat
  saltKey : Nat
  info : Option Bytes
  infoLen : Nat

/-- `HKDFOperation` (`src/ossl/hkdf.rs:28-54`). -/
structure Hkdf where
  mech : Nat
  fin : Bool
  mode : HkdfMode
  prf : Nat
  prflen : Nat
  saltType : Nat
  saltKey : Nat
  salt : Option Bytes
  info : Option Bytes
  isData : Bool

/-- The mechanisms that `hmac_size` knows (`src/hmac.rs:140-147`, `HASH_MECH_SET` in `src/hash.rs:74-186`). -/
def hkdfHashes : List Nat :=
  [CKM_SHA_1, CKM_SHA_1_HMAC, CKM_SHA_1_HMAC_GENERAL, CKM_SHA224, CKM_SHA224_HMAC, CKM_SHA224_HMAC_GENERAL,
   CKM_SHA256, CKM_SHA256_HMAC, CKM_SHA256_HMAC_GENERAL, CKM_SHA384, CKM_SHA384_HMAC, CKM_SHA384_HMAC_GENERAL,
   CKM_SHA512, CKM_SHA512_HMAC, CKM_SHA512_HMAC_GENERAL, CKM_SHA3_224, CKM_SHA3_224_HMAC, CKM_SHA3_224_HMAC_GENERAL,
   CKM_SHA3_256, CKM_SHA3_256_HMAC, CKM_SHA3_256_HMAC_GENERAL, CKM_SHA3_384, CKM_SHA3_384_HMAC, CKM_SHA3_384_HMAC_GENERAL,
   CKM_SHA3_512, CKM_SHA3_512_HMAC, CKM_SHA3_512_HMAC_GENERAL, CKM_SHA512_224, CKM_SHA512_224_HMAC, CKM_SHA512_224_HMAC_GENERAL,
   CKM_SHA512_256, CKM_SHA512_256_HMAC, CKM_SHA512_256_HMAC_GENERAL]

/-- The salt of the parameter (`src/ossl/hkdf.rs:142-173`); `bytes_to_vec` and `bytes_to_slice` are given `saltLen` and `infoLen` bytes. -/
def hkdfSalt (p : HkdfParams) (hlen : Nat) : Res (Option Bytes) :=
  if p.saltType = CKF_HKDF_SALT_NULL then
    if p.saltLen > 0 ∨ p.salt.isSome then .error .mechanismParamInvalid else .ok (some (List.replicate hlen 0))
  else if p.saltType = CKF_HKDF_SALT_DATA then
    match p.salt with
    | none => .error .mechanismParamInvalid
    | some s => if p.saltLen = 0 then .error .mechanismParamInvalid else .ok (some (s.take p.saltLen))
  else if p.saltType = CKF_HKDF_SALT_KEY then .ok none
  else if p.extract ≠ 0 then .error .mechanismParamInvalid else .ok none

/-- `HKDFOperation::new` (`src/ossl/hkdf.rs:120-203`) after `derive_operation` (`src/hkdf.rs:60-72`). -/
def Hkdf.new (algs : Nat → HashAlg) (mech : Nat) (p : HkdfParams) : Res Hkdf :=
  if mech ≠ CKM_HKDF_DERIVE ∧ mech ≠ CKM_HKDF_DATA then .error .mechanismInvalid
  else if p.extract = 0 ∧ p.expand = 0 then .error .mechanismParamInvalid
  else if p.extract ≠ 0 ∧ p.saltLen > 0 ∧ p.salt.isNone then .error .mechanismParamInvalid
  else if p.expand ≠ 0 ∧ p.infoLen > 0 ∧ p.info.isNone then .error .mechanismParamInvalid
  else if p.prf ∉ hkdfHashes then .error .mechanismParamInvalid
  else match hkdfSalt p (algs p.prf).hlen with
    | .error r => .error r
    | .ok salt => .ok ⟨mech, false,
        if p.extract = 1 then (if p.expand = 1 then .both else .extract) else .expand,
        p.prf, (algs p.prf).hlen, p.saltType, p.saltKey, salt,
        if p.infoLen > 0 then some ((p.info.getD []).take p.infoLen) else none, mech == CKM_HKDF_DATA⟩

/-- `verify_key` (`src/ossl/hkdf.rs:63-114`). -/
def Hkdf.verifyKey (k : Hkdf) (key : Obj) (matchlen : Nat) : Res Unit :=
  let usable : Res Unit :=
    match key.getUlong CKA_CLASS with
    | .error _ => .error .keyHandleInvalid
    | .ok c =>
      if c = CKO_SECRET_KEY then
        match key.getUlong CKA_KEY_TYPE with
        | .error _ => .error .keyTypeInconsistent
        | .ok kt =>
          if kt = CKK_GENERIC_SECRET ∨ kt = CKK_HKDF then key.checkKeyOps CKO_SECRET_KEY CK_UNAVAILABLE_INFORMATION CKA_DERIVE
          else .error .keyTypeInconsistent
      else if c = CKO_DATA then
        if k.mode = .expand ∨ k.saltType = CKF_HKDF_SALT_NULL ∨ k.salt.isNone then .error .mechanismParamInvalid else .ok ()
      else .error .keyHandleInvalid
  match usable with
  | .error r => .error r
  | .ok () =>
    if matchlen > 0 then
      let len := match key.getUlong CKA_VALUE_LEN with
        | .ok n => n
        | .error _ => match key.getBytes CKA_VALUE with
          | .ok v => v.length
          | .error _ => 0
      if len = 0 then .error .keySizeRange else .ok ()
    else .ok ()

/-- `requires_objects` (`src/ossl/hkdf.rs:218-225`). -/
def Hkdf.wantsSalt (k : Hkdf) : Bool := k.saltType == CKF_HKDF_SALT_KEY

/-- `receives_objects` (`src/ossl/hkdf.rs:226-238`) with the one object of the handle. -/
def Hkdf.receive (k : Hkdf) (s : Obj) : Res Hkdf :=
  match k.verifyKey s 0 with
  | .error r => .error r
  | .ok () => match s.getBytes CKA_VALUE with
    | .error _ => .error .keyHandleInvalid
    | .ok v => .ok { k with salt := some v }

/-- `derive` (`src/ossl/hkdf.rs:247-304`) after the check of `finalized`. -/
def hkdfDerive (k : Hkdf) (lib : HkdfLib) (algs : Nat → HashAlg) (O : Oracle) (uid : Bytes) (key : Obj) (t : Template) : Res (List Obj) :=
  match k.verifyKey key k.prflen with
  | .error r => .error r
  | .ok () =>
    if k.salt.isNone ∧ k.mode ≠ .expand then
      if k.saltType = CKF_HKDF_SALT_KEY then .error .generalError else .error .mechanismParamInvalid
    else match (if k.isData then commonDeriveData k.prflen O uid t else commonDeriveKey k.prflen uid key t) with
      | .error r => .error r
      | .ok (o, n) =>
        if k.mode = .extract ∧ n ≠ k.prflen then .error .templateInconsistent
        else if n = 0 ∨ n > 2 ^ 32 - 1 then .error .keySizeRange
        else match key.getBytes CKA_VALUE with
          | .error r => .error r
          | .ok v => match lib k.mode (algs k.prf) v k.salt k.info n with
            | .error r => .error r
            | .ok dkm => .ok [o.put (Attr.ofBytes CKA_VALUE dkm)]

/-- `derive` (`src/ossl/hkdf.rs:247-304`). -/
def Hkdf.derive (k : Hkdf) (lib : HkdfLib) (algs : Nat → HashAlg) (O : Oracle) (uid : Bytes) (key : Obj) (t : Template) :
    Res (List Obj) × Hkdf :=
  if k.fin then (.error .operationNotInitialized, k) else (hkdfDerive k lib algs O uid key t, { k with fin := true })

/-- The checks of `derive_key` on the base key (`src/fns/keymgmt.rs:540-575`); the usable mechanisms of the key and the session are in Model/Ops. -/
def hkdfGate (algs : Nat → HashAlg) (p : HkdfParams) (key : Obj) : Res Unit :=
  if key.cls = CKO_DATA then
    if p.extract = 0 then .error .mechanismParamInvalid
    else match key.getBytes CKA_VALUE with
      | .error r => .error r
      | .ok v =>
        if (AMap.get hashDerivations p.prf).isNone ∨ (algs p.prf).hlen ≠ v.length then .error .mechanismParamInvalid
        else if p.saltType = CKF_HKDF_SALT_DATA then
          if p.salt.isNone ∨ p.saltLen = 0 then .error .mechanismParamInvalid else .ok ()
        else if p.saltType = CKF_HKDF_SALT_KEY then
          if p.saltKey = 0 then .error .mechanismParamInvalid else .ok ()
        else .error .mechanismParamInvalid
  else match key.getBool CKA_DERIVE with
    | .error r => .error r
    | .ok b => if b then .ok () else .error .keyFunctionNotPermitted

/-- `derive_key` for HKDF (`src/fns/keymgmt.rs:531-622`); `salt` is the object of the handle in the parameter. -/
def hkdfCall (lib : HkdfLib) (algs : Nat → HashAlg) (O : Oracle) (uid : Bytes) (mech : Nat) (p : HkdfParams) (salt key : Obj) (t : Template) :
    Res (List Obj) :=
  match hkdfGate algs p key with
  | .error r => .error r
  | .ok () => match Hkdf.new algs mech p with
    | .error r => .error r
    | .ok k => match (if k.wantsSalt then k.receive salt else .ok k) with
      | .error r => .error r
      | .ok k => (k.derive lib algs O uid key t).1

end Kry
