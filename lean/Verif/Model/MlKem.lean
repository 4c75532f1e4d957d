import Verif.Model.Ops

/-!
# ML-KEM encapsulation and decapsulation

`src/mlkem.rs:353-427` and `src/ossl/mlkem.rs`, without key import and generation.  OpenSSL's ML-KEM (`EvpPkey::import`, `OsslAsymcipher::new`,
`EVP_PKEY_encapsulate`, `EVP_PKEY_decapsulate`) is `KemEnv`.
-/

namespace Kry

/-- The parameter sets. -/
inductive KemSet
  | k512 | k768 | k1024
deriving DecidableEq, Repr

/-- OpenSSL: loading of a public key, of a private key with its seed, the length announced for the ciphertext, encapsulation (secret and ciphertext) with the
randomness of the call, decapsulation. -/
structure KemEnv where
  loadPub : KemSet → Bytes → Res Unit
  loadPriv : KemSet → Bytes → Option Bytes → Res Unit
  announced : KemSet → Bytes → Option Nat
  encap : Env → KemSet → Bytes → Option (Bytes × Bytes)
  decap : KemSet → Bytes → Option Bytes → Bytes → Option Bytes

/-- `mlkem_param_set_to_pkey_type` (`src/ossl/mlkem.rs:20-29`), also the match of `encapsulate_ciphertext_len` (`src/mlkem.rs:374-379`). -/
def kemSet (n : Nat) : Res KemSet :=
  if n = CKP_ML_KEM_512 then .ok .k512
  else if n = CKP_ML_KEM_768 then .ok .k768
  else if n = CKP_ML_KEM_1024 then .ok .k1024
  else .error .attrValueInvalid

/-- `ML_KEM_*_CIPHERTEXT_BYTES` (`src/mlkem.rs:32-34`). -/
def KemSet.ctBytes : KemSet → Nat
  | .k512 => 768
  | .k768 => 1088
  | .k1024 => 1568

/-- `encapsulate_ciphertext_len` (`src/mlkem.rs:368-382`). -/
def kemEncapLen (k : Obj) : Res Nat :=
  match k.getUlong CKA_KEY_TYPE with
  | .error r => .error r
  | .ok kt =>
    if kt ≠ CKK_ML_KEM then .error .keyTypeInconsistent
    else match k.getUlong CKA_PARAMETER_SET with
      | .error r => .error r
      | .ok p => match kemSet p with
        | .error r => .error r
        | .ok s => .ok s.ctBytes

/-- `evp_pkey_from_object` (`src/ossl/common.rs:66-105`) for an ML-KEM key with the checks of `mlkem_object_to_pkey` (`src/ossl/mlkem.rs:39-49`, `:58`): the
parameter set.  Other key types do not get here (`check_key_ops`) and are refused. -/
def kemLoadSet (k : Obj) (cls : Nat) : Res KemSet :=
  match k.getUlong CKA_KEY_TYPE with
  | .error r => .error r
  | .ok kt =>
    if kt ≠ CKK_ML_KEM then .error .keyTypeInconsistent
    else match k.getUlong CKA_CLASS with
      | .error r => .error r
      | .ok c =>
        if c ≠ cls then .error .keyTypeInconsistent
        else match k.getUlong CKA_PARAMETER_SET with
          | .error r => .error r
          | .ok p => kemSet p

/-- `encapsulate` (`src/ossl/mlkem.rs:80-94`, `ossl/src/asymcipher.rs:214-259`) into a buffer of `room` bytes: the secret and the ciphertext. -/
def kemEncap (E : KemEnv) (e : Env) (room : Nat) (k : Obj) : Res (Bytes × Bytes) :=
  match kemLoadSet k CKO_PUBLIC_KEY with
  | .error r => .error r
  | .ok s => match k.getBytes CKA_VALUE with
    | .error r => .error r
    | .ok ek => match E.loadPub s ek with
      | .error r => .error r
      | .ok () => match E.announced s ek with
        | none => .error .deviceError
        | some n =>
          if room < n then .error .bufferTooSmall
          else match E.encap e s ek with
            | none => .error .deviceError
            | some x => .ok x

/-- The seed handed to OpenSSL; a missing or ill-typed CKA_SEED counts as none (`src/ossl/mlkem.rs:64-67`). -/
def kemSeed (k : Obj) : Option Bytes :=
  match k.getBytes CKA_SEED with
  | .ok d => some d
  | .error _ => none

/-- `decapsulate` (`src/ossl/mlkem.rs:102-107`, `ossl/src/asymcipher.rs:263-300`).  A refusal of OpenSSL is CKR_DEVICE_ERROR (`src/error.rs:275-284`). -/
def kemDecap (E : KemEnv) (k : Obj) (ct : Bytes) : Res Bytes :=
  match kemLoadSet k CKO_PRIVATE_KEY with
  | .error r => .error r
  | .ok s => match k.getBytes CKA_VALUE with
    | .error r => .error r
    | .ok dk =>
      match E.loadPriv s dk (kemSeed k) with
      | .error r => .error r
      | .ok () => match E.decap s dk (kemSeed k) ct with
        | none => .error .deviceError
        | some x => .ok x

/-- The mechanisms with ML-KEM in place (`src/mlkem.rs:384-427`).  `fnEncap` checked that the buffer has room for `kemEncapLen`; this is the room used here,
the real one is not smaller (`kemEncap_room`). -/
def withKem (M : Mechs) (E : KemEnv) : Mechs :=
  { M with
    encapLen := kemEncapLen
    encapsulate := fun e k => match kemEncapLen k with
      | .error r => .error r
      | .ok n => kemEncap E e n k
    decapsulate := fun _ k ct => kemDecap E k ct }

end Kry
