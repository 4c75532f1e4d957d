import Verif.Model.NssAttrs
import Verif.Model.Env

/-!
# Keys of the NSS database backend (`src/storage/nssdb/ci.rs`)

Cryptography is the parameter `N : NssLib`; the laws assumed of it are stated where they are used.  A derived key object is kept as the
operation it was made for (which fixes its key type and permissions, `src/storage/nssdb/ci.rs:337-362`) and its value.
Not modelled: the clearing of memory, poisoned locks, `key_length` values that the key type refuses (any failure of PBKDF2 is a fault of the
environment).
-/

namespace Kry

/-- `KeyOp` (`src/storage/nssdb/ci.rs:28-33`). -/
inductive NssKeyOp where
  | enc | sig
deriving DecidableEq, Repr

/-- `PBKDF2Params` (`src/kasn1/mod.rs`), the PRF being HMAC-SHA256. -/
structure NssKdf where
  salt : Bytes
  iter : Nat
  keyLen : Option Nat
deriving DecidableEq, Repr

/-- `BrokenAlgorithmParameters` (`src/storage/nssdb/ci.rs:205-223`): PBES2 with its key derivation (`none` if not PBKDF2) and its IV (`none` if the
cipher is not AES-CBC), PBMAC1 with its key derivation and whether the scheme is HMAC-SHA256, or another one. -/
inductive NssScheme where
  | pbes2 (kdf : Option NssKdf) (iv : Option Bytes)
  | pbmac1 (kdf : Option NssKdf) (hmac : Bool)
  | other
deriving DecidableEq, Repr

/-- `NSSEncryptedDataInfo` (`src/storage/nssdb/ci.rs:239-245`). -/
structure NssInfo where
  scheme : NssScheme
  data : Bytes
deriving DecidableEq, Repr

/-- What the backend asks of the cryptographic code:
* `sha1`: SHA-1 (`src/storage/nssdb/ci.rs:594-610`);
* `kdf`: PBKDF2 with HMAC-SHA256, secret, salt, iterations, length (`src/storage/aci.rs:27-62`);
* `enc`/`dec`: AES-CBC with padding, key, IV, text (`src/storage/nssdb/ci.rs:249-312`);
* `mac`: HMAC-SHA256, key, message (`src/storage/nssdb/ci.rs:512-535`, `:617-639`);
* `der`/`parse`: DER of `NSSEncryptedDataInfo` (`src/storage/nssdb/ci.rs:402`, `:501`). -/
structure NssLib where
  sha1 : Bytes → Bytes
  kdf : Bytes → Bytes → Nat → Nat → Bytes
  enc : Bytes → Bytes → Bytes → Bytes
  dec : Bytes → Bytes → Bytes → Option Bytes
  mac : Bytes → Bytes → Bytes
  der : NssInfo → Bytes
  parse : Bytes → Option NssInfo

/-- `KeysWithCaching` (`src/storage/nssdb/ci.rs:61-66`). -/
structure NssKeys where
  enckey : Option Bytes
  cache : List (Bytes × (NssKeyOp × Bytes))
deriving DecidableEq, Repr, Inhabited

/-- Order of byte strings (`BTreeMap` keys, `src/storage/nssdb/ci.rs:65`). -/
def bytesLt : Bytes → Bytes → Bool
  | _, [] => false
  | [], _ :: _ => true
  | a :: as, b :: bs => if a.toNat < b.toNat then true else if a = b then bytesLt as bs else false

/-- The greatest key of the cache (`src/storage/nssdb/ci.rs:157`). -/
def lastKey : List (Bytes × (NssKeyOp × Bytes)) → Option Bytes
  | [] => none
  | (k, _) :: m => match lastKey m with
    | none => some k
    | some x => if bytesLt k x then some x else some k

namespace NssKeys

/-- `default` (`src/storage/nssdb/ci.rs:68-75`). -/
def default : NssKeys := ⟨none, []⟩

/-- `set_key` (`src/storage/nssdb/ci.rs:110-115`): the cache is left alone. -/
def setKey (k : NssKeys) (key : Bytes) : NssKeys := { k with enckey := some key }

/-- `unset_key` (`src/storage/nssdb/ci.rs:119-124`): the cache is left alone, although the comment says otherwise. -/
def unsetKey (k : NssKeys) : NssKeys := { k with enckey := none }

/-- `get_cached_key` (`src/storage/nssdb/ci.rs:131-147`). -/
def cached (k : NssKeys) (salt : Bytes) : Option (NssKeyOp × Bytes) :=
  if k.enckey.isNone then none else AMap.get k.cache salt

/-- `set_cached_key` (`src/storage/nssdb/ci.rs:153-164`), `MAX_KEY_CACHE_SIZE` = 128 (`src/storage/nssdb/ci.rs:25`). -/
def setCached (k : NssKeys) (salt : Bytes) (v : NssKeyOp × Bytes) : NssKeys :=
  let c := if k.cache.length > 128 then
      (match lastKey k.cache with
       | none => k.cache
       | some x => AMap.erase k.cache x)
    else k.cache
  { k with cache := AMap.insert c salt v }

/-- `invalidate_cached_key` (`src/storage/nssdb/ci.rs:168-177`). -/
def invalidate (k : NssKeys) (salt : Bytes) : NssKeys := { k with cache := AMap.erase k.cache salt }

end NssKeys

variable (N : NssLib)

/-- `derive_key_internal` (`src/storage/nssdb/ci.rs:319-380`). -/
def nssDeriveKey (e : Env) (k : NssKeys) (p : NssKdf) (op : NssKeyOp) : Res (NssKeyOp × Bytes) × NssKeys :=
  if p.salt.length ≠ 32 then (.error .generalError, k)
  else match k.cached p.salt with
    | some v => (.ok v, k)
    | none => match p.keyLen with
      | none => (.error .mechanismParamInvalid, k)
      | some n => match k.enckey with
        | none => (.error .userNotLoggedIn, k)
        | some m => match e.fails with
          | some r => (.error r, k)
          | none => (.ok (op, N.kdf m p.salt p.iter n), k.setCached p.salt (op, N.kdf m p.salt p.iter n))

/-- The IV as the cipher gets it (`src/storage/nssdb/ci.rs:261-270`). -/
def nssIv (iv : Bytes) : Res Bytes :=
  if iv.length = 14 then .ok (4 :: 14 :: iv) else if iv.length = 16 then .ok iv else .error .argumentsBad

/-- `aes_cbc_decrypt` (`src/storage/nssdb/ci.rs:249-283`). -/
def nssAesDecrypt (e : Env) (key : NssKeyOp × Bytes) (iv data : Bytes) : Res Bytes :=
  match nssIv iv with
  | .error r => .error r
  | .ok iv =>
    if key.1 ≠ .enc then .error .keyTypeInconsistent
    else match e.fails with
      | some r => .error r
      | none => match N.dec key.2 iv data with
        | none => .error .encryptedDataInvalid
        | some p => .ok p

/-- `decrypt_data` (`src/storage/nssdb/ci.rs:397-437`). -/
def nssDecrypt (e : Env) (k : NssKeys) (data : Bytes) : Res Bytes × NssKeys :=
  match N.parse data with
  | none => (.error .dataInvalid, k)
  | some ⟨.pbes2 (some p) iv, d⟩ =>
    match nssDeriveKey N (e.sub 0) k p .enc with
    | (.error r, k) => (.error r, k)
    | (.ok key, k) => match iv with
      | none => (.error .mechanismInvalid, k)
      | some iv => match nssAesDecrypt N (e.sub 1) key iv d with
        | .error r => (.error r, k.invalidate p.salt)
        | .ok plain => (.ok plain, k)
  | some _ => (.error .mechanismInvalid, k)

/-- `encrypt_data` (`src/storage/nssdb/ci.rs:445-505`) with `aes_cbc_encrypt` (`src/storage/nssdb/ci.rs:287-312`). -/
def nssEncrypt (e : Env) (k : NssKeys) (iterations : Nat) (data : Bytes) : Res Bytes × NssKeys :=
  match (e.sub 0).fails with
  | some r => (.error r, k)
  | none =>
    let p : NssKdf := ⟨(e.sub 0).rnd 32, iterations, some 32⟩
    match nssDeriveKey N (e.sub 1) k p .enc with
    | (.error r, k) => (.error r, k)
    | (.ok key, k) => match (e.sub 2).fails with
      | some r => (.error r, k.invalidate p.salt)
      | none =>
        if key.1 ≠ .enc then (.error .keyTypeInconsistent, k.invalidate p.salt)
        else
          let iv := (e.sub 2).rnd 14
          (.ok (N.der ⟨.pbes2 (some p) (some iv), N.enc key.2 (4 :: 14 :: iv) data⟩), k)

/-- What is authenticated (`src/storage/nssdb/ci.rs:529-533`, `:632-636`): the number of the object, the type, the value. -/
def nssMacText (id typ : Nat) (value : Bytes) : Bytes := toBE 4 id ++ toBE 4 typ ++ value

/-- `hmac_verify` (`src/storage/nssdb/ci.rs:512-535`): CKM_SHA256_HMAC_GENERAL with the length of the signature at hand, 1 to 32 bytes
(`src/hmac.rs:223-230`). -/
def nssHmacVerify (e : Env) (key : NssKeyOp × Bytes) (id typ : Nat) (value sig : Bytes) : Res Unit :=
  if sig.length = 0 ∨ sig.length > 32 then .error .mechanismParamInvalid
  else if key.1 ≠ .sig then .error .keyTypeInconsistent
  else match e.fails with
    | some r => .error r
    | none =>
      if (N.mac key.2 (nssMacText id typ value)).take sig.length = sig then .ok () else .error .signatureInvalid

/-- `check_signature` (`src/storage/nssdb/ci.rs:543-589`). -/
def nssCheckSig (e : Env) (k : NssKeys) (value signature : Bytes) (id typ : Nat) : Res Unit × NssKeys :=
  match N.parse signature with
  | none => (.error .dataInvalid, k)
  | some ⟨.pbmac1 (some p) hmac, sig⟩ =>
    match nssDeriveKey N (e.sub 0) k p .sig with
    | (.error r, k) => (.error r, k)
    | (.ok key, k) =>
      if !hmac then (.error .mechanismInvalid, k)
      else match nssHmacVerify N (e.sub 1) key id typ value sig with
        | .error r => (.error r, k.invalidate p.salt)
        | .ok () => (.ok (), k)
  | some _ => (.error .mechanismInvalid, k)

/-- `enckey_derive` (`src/storage/nssdb/ci.rs:594-610`). -/
def nssEnckey (e : Env) (pin salt : Bytes) : Res Bytes :=
  match e.fails with
  | some r => .error r
  | none => .ok (N.sha1 (salt ++ pin))

/-- `make_signature` (`src/storage/nssdb/ci.rs:647-706`) with `hmac_sign` (`src/storage/nssdb/ci.rs:617-639`). -/
def nssMakeSig (e : Env) (k : NssKeys) (value : Bytes) (id typ iterations : Nat) : Res Bytes × NssKeys :=
  match (e.sub 0).fails with
  | some r => (.error r, k)
  | none =>
    let p : NssKdf := ⟨(e.sub 0).rnd 32, iterations, some 32⟩
    match nssDeriveKey N (e.sub 1) k p .sig with
    | (.error r, k) => (.error r, k)
    | (.ok key, k) => match (e.sub 2).fails with
      | some r => (.error r, k.invalidate p.salt)
      | none =>
        if key.1 ≠ .sig then (.error .keyTypeInconsistent, k.invalidate p.salt)
        else (.ok (N.der ⟨.pbmac1 (some p) true, N.mac key.2 (nssMacText id typ value)⟩), k)

end Kry
