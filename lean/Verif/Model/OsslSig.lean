import Verif.Model.Base

/-! The project's wrapper of OpenSSL's signature contexts (`ossl/src/signature.rs`). -/

namespace Kry

/-- The kinds of errors of the wrapper (`ossl/src/lib.rs`). -/
inductive OsslErr where
  | ossl | wrapper | bufferSize | nullPtr
deriving DecidableEq, Repr

/-- `From<ossl::Error>` (`src/error.rs:275-284`). -/
def OsslErr.rv : OsslErr → Rv
  | .wrapper => .generalError
  | _ => .deviceError

/-- Results of the wrapper. -/
abbrev OsslRes (α : Type) := Except OsslErr α

/-- OpenSSL for one key, algorithm and set of parameters, as a parameter: the signature of a message at once (`EVP_PKEY_sign`, `EVP_DigestSign`) with the length
announced for it, whether a signature is accepted (`EVP_PKEY_verify`, `EVP_DigestVerify`), and the same for data fed before (`…_final`). -/
structure OsslPrims where
  announced : Nat
  sign : Bytes → Option Bytes
  ver : Bytes → Bytes → Bool
  signFed : Bytes → Option Bytes
  verFed : Bytes → Bytes → Bool

/-- Which functions of OpenSSL a context uses (`ossl/src/signature.rs:722-907`): `EVP_PKEY_…_init`, `EVP_Digest…Init_ex`, `EVP_PKEY_…_message_init`. -/
inductive SigMode where
  | oneshot | legacy | message
deriving DecidableEq, Repr

/-- `OsslSignature` (`ossl/src/signature.rs:695-712`); `fed` is what OpenSSL was fed and `given` the signature set in its context. -/
structure OsslSig where
  signs : Bool
  mode : SigMode
  updates : Bool
  data : Option Bytes := none
  signature : Option Bytes := none
  fed : Bytes := []
  given : Option Bytes := none
deriving DecidableEq, Repr

/-- `MAX_BUFFER_LEN` (`ossl/src/signature.rs:682`). -/
def osslMaxBuffer : Nat := 1024 * 1024

/-- `store_data` (`ossl/src/signature.rs:911-928`). -/
def OsslSig.store (c : OsslSig) (data : Bytes) : OsslRes Unit × OsslSig :=
  match c.data with
  | some b => if osslMaxBuffer < b.length + data.length then (.error .bufferSize, c) else (.ok (), { c with data := some (b ++ data) })
  | none => if osslMaxBuffer < data.length then (.error .bufferSize, c) else (.ok (), { c with data := some data })

/-- `sign` (`ossl/src/signature.rs:934-1030`) into a buffer of `n` bytes. -/
def OsslSig.sign (P : OsslPrims) (c : OsslSig) (data : Bytes) (n : Nat) : OsslRes Bytes :=
  if !c.signs then .error .wrapper
  else if n < P.announced then .error .bufferSize
  else match P.sign data with
    | none => .error .ossl
    | some s => .ok s

/-- `verify` (`ossl/src/signature.rs:1033-1085`). -/
def OsslSig.verify (P : OsslPrims) (c : OsslSig) (data : Bytes) (signature : Option Bytes) : OsslRes Unit :=
  if c.signs then .error .wrapper
  else match signature with
    | some s => if P.ver data s then .ok () else .error .ossl
    | none => match c.signature with
      | none => .error .wrapper
      | some s => if P.ver data s then .ok () else .error .ossl

/-- `update` (`ossl/src/signature.rs:1088-1168`); OpenSSL's own update does not fail. -/
def OsslSig.update (c : OsslSig) (data : Bytes) : OsslRes Unit × OsslSig :=
  if !c.updates then c.store data else (.ok (), { c with fed := c.fed ++ data })

/-- `sign_final` (`ossl/src/signature.rs:1171-1228`) into a buffer of `n` bytes; OpenSSL fails when the signature does not fit. -/
def OsslSig.signFinal (P : OsslPrims) (c : OsslSig) (n : Nat) : OsslRes Bytes × OsslSig :=
  if !c.signs then (.error .wrapper, c)
  else if !c.updates then
    match c.data with
    | some b => (OsslSig.sign P { c with data := none } b n, { c with data := none })
    | none => (.error .wrapper, c)
  else match P.signFed c.fed with
    | none => (.error .ossl, c)
    | some s => if n < s.length then (.error .ossl, c) else (.ok s, c)

/-- `set_signature` (`ossl/src/signature.rs:1234-1264`). -/
def OsslSig.setSignature (c : OsslSig) (s : Bytes) : OsslRes OsslSig :=
  if c.signs then .error .wrapper
  else if c.mode = .legacy ∨ c.updates = false then .ok { c with signature := some s }
  else .ok { c with given := some s }

/-- `verify_final` (`ossl/src/signature.rs:1267-1333`). -/
def OsslSig.verifyFinal (P : OsslPrims) (c : OsslSig) (signature : Option Bytes) : OsslRes Unit × OsslSig :=
  if c.signs then (.error .wrapper, c)
  else if !c.updates then
    match c.data with
    | some b => (OsslSig.verify P { c with data := none } b signature, { c with data := none })
    | none => (.error .wrapper, c)
  else if c.mode = .legacy then
    match signature with
    | some s => (if P.verFed c.fed s then .ok () else .error .ossl, c)
    | none => match c.signature with
      | none => (.error .nullPtr, c)
      | some s => (if P.verFed c.fed s then .ok () else .error .ossl, c)
  else
    let c := match signature with
      | some s => { c with given := some s }
      | none => c
    match c.given with
    | none => (.error .ossl, c)
    | some s => (if P.verFed c.fed s then .ok () else .error .ossl, c)

end Kry
