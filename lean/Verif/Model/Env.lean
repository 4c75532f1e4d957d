import Verif.Model.Factory

/-!
# Environment of one API call, and ideal cryptography

Everything the modelled code asks from outside is an input of the model: whether a storage operation
fails, the bytes of the random generator, the UUIDs.  Cryptography is a structure of functions with
the laws assumed of them.
-/

namespace Kry

/-- The outside world seen by one API call.  Each place of the code that talks to the outside has its
own path (a list of numbers), so that all answers are independent of each other:
* `fault p`: the operation at `p` fails with this error (SQLite errors `src/storage/sqlite_common.rs:17-56`,
  random generator or OpenSSL failures);
* `rand p`: bytes delivered by `CSPRNG` (`src/rng.rs:23-26`) at `p`;
* `uuid p`: the text of `Uuid::new_v4()` (`src/object/mod.rs:135`) at `p`. -/
structure Env where
  fault : List Nat → Option Rv
  rand : List Nat → Bytes
  uuid : List Nat → Bytes

namespace Env

/-- The part of the environment used by a sub-call (model device, no counterpart in `/repo`). -/
def sub (e : Env) (i : Nat) : Env :=
  ⟨fun p => e.fault (i :: p), fun p => e.rand (i :: p), fun p => e.uuid (i :: p)⟩

/-- The failure, if any, of the operation at this place. -/
def fails (e : Env) : Option Rv := e.fault []

/-- `generate_random` for a buffer of `n` bytes (`src/rng.rs:23-26`): always exactly `n` bytes. -/
def rnd (e : Env) (n : Nat) : Bytes := (e.rand [] ++ List.replicate n 0).take n

/-- A fresh UUID (`src/object/mod.rs:135`). -/
def uid (e : Env) : Bytes := e.uuid []

end Env

/-- Key-derivation part of `KKBPS1Params` (`src/kasn1/mod.rs:288-309`): PBKDF2 with its salt and iteration
count (`src/storage/aci.rs:152-157`), or HKDF-Expand with its `info` (`src/storage/aci.rs:265-272`).
Key lengths are fixed to 32 and algorithm identifiers are implied. -/
inductive Kdf where
  | pbkdf2 (salt : Bytes) (iterations : Nat)
  | kkdf1 (info : Bytes)
deriving DecidableEq, Repr

/-- `KProtectedData` (`src/kasn1/mod.rs:315-332`) as written by `encrypt_key` and `encrypt_data`
(`src/storage/aci.rs:175-189`, `:291-305`): key version, KDF, GCM parameters and ciphertext. -/
structure PData where
  version : Nat
  kdf : Kdf
  iv : Bytes
  tag : Bytes
  data : Bytes
deriving DecidableEq, Repr

/-- Cryptography used by the storage layer, with the idealised laws the theorems rely on.
* `sha`: SHA-256;
* `kek0`: PBKDF2 from the block `K0` of HMAC on (`src/native/pbkdf2.rs:38-86`, `src/native/hmac.rs:185-254`);
* `dek`: HKDF-Expand of the master key (`src/storage/aci.rs:68-107`);
* `enc`/`dec`: AES-GCM encryption and decryption (`src/encryption.rs:44-85`, `:91-130`), key, IV,
  additional data, text; the pair is (ciphertext, tag);
* `der`/`parse`: DER encoding of `KProtectedData` (`src/storage/aci.rs:191`, `:210`).
Laws: decryption undoes encryption; what decrypts was encrypted so; a sealed text determines its key,
additional data and plaintext (no forgery, key-committing); different `K0` blocks give different keys,
and so do different master keys or different `info`; DER is read back. -/
structure Crypto where
  sha : Bytes → Bytes
  kek0 : Bytes → Bytes → Nat → Bytes
  dek : Bytes → Bytes → Bytes
  enc : Bytes → Bytes → Bytes → Bytes → Bytes × Bytes
  dec : Bytes → Bytes → Bytes → Bytes × Bytes → Option Bytes
  der : PData → Bytes
  parse : Bytes → Option PData
  dec_enc : ∀ k iv aad p, dec k iv aad (enc k iv aad p) = some p
  enc_of_dec : ∀ k iv aad c p, dec k iv aad c = some p → enc k iv aad p = c
  enc_inj : ∀ k iv aad p k' iv' aad' p', enc k iv aad p = enc k' iv' aad' p' →
    k = k' ∧ aad = aad' ∧ p = p'
  kek0_inj : ∀ p s i p' s' i', kek0 p s i = kek0 p' s' i' → p = p'
  dek_inj : ∀ m i m' i', dek m i = dek m' i' → m = m' ∧ i = i'
  parse_der : ∀ d, parse (der d) = some d

/-- The block `K0` that HMAC-SHA256 makes of a key (`src/native/hmac.rs:187-192`): at most 64 bytes are
padded with zeros, more are hashed first. -/
def Crypto.pinKey (C : Crypto) (pin : Bytes) : Bytes :=
  let k := if pin.length ≤ 64 then pin else C.sha pin
  k ++ List.replicate (64 - k.length) 0

/-- PBKDF2 of a PIN with HMAC-SHA256 (`src/storage/aci.rs:27-62`, `src/pbkdf2.rs:110-148`). -/
def Crypto.kek (C : Crypto) (pin salt : Bytes) (iterations : Nat) : Bytes :=
  C.kek0 (C.pinKey pin) salt iterations

end Kry
