import Verif.Model.Der

/-! ECDSA: the two forms of a signature and the operation (`src/ossl/ecdsa.rs`). -/

namespace Kry

/-- `slice_to_sig_half` (`src/ossl/ecdsa.rs:68-88`): one number into `n` bytes. -/
def sigHalf (h : Bytes) (n : Nat) : Res Bytes :=
  let len := if n < h.length then (nopad h).length else h.length
  if n < h.length ∧ (len = 0 ∨ n < len) then .error .generalError
  else .ok (List.replicate (n - len) 0 ++ h.drop (h.length - len))

/-- `parse_single::<EcdsaSignature>` (`src/ossl/ecdsa.rs:58-63`). -/
def parseEcdsa (d : Bytes) : Der (Bytes × Bytes) :=
  match derSeq d with
  | .error e => .error e
  | .ok c => match uintField c with
    | .error e => .error e
    | .ok (r, x) => match uintField x with
      | .error e => .error e
      | .ok (s, x) => if x = [] then .ok (r, s) else .error .bad

/-- `ossl_to_pkcs11_signature` (`src/ossl/ecdsa.rs:98-110`) into a buffer of `n` bytes. -/
def ecdsaToRaw (d : Bytes) (n : Nat) : Res Bytes :=
  match (parseEcdsa d).toRes .generalError with
  | .error r => .error r
  | .ok (r, s) => match sigHalf r (n / 2) with
    | .error e => .error e
    | .ok a => match sigHalf s (n - n / 2) with
      | .error e => .error e
      | .ok b => .ok (a ++ b)

/-- `pkcs11_to_ossl_signature` (`src/ossl/ecdsa.rs:117-128`). -/
def ecdsaToDer (sig : Bytes) : Res Bytes :=
  match derUint (sig.take (sig.length / 2)) with
  | .error r => .error r
  | .ok r => match derUint (sig.drop (sig.length / 2)) with
    | .error e => .error e
    | .ok s => .ok (derTlv 0x30 (derInt r ++ derInt s))

/-- OpenSSL's signature context for one key, as a parameter: the DER signature of the data, and whether a DER signature is one of the data.  `signRaw`, `verRaw` are
for CKM_ECDSA, the others hash the data first. -/
structure EcdsaPrims where
  signRaw : Bytes → Res Bytes
  sign : Bytes → Res Bytes
  verRaw : Bytes → Bytes → Res Unit
  ver : Bytes → Bytes → Res Unit

/-- `EcdsaOperation` (`src/ossl/ecdsa.rs:150-162`); `raw` is `mech == CKM_ECDSA`, `data` what the context was fed, `sig` the signature set in it. -/
structure EcdsaOp where
  raw : Bool
  outLen : Nat
  finalized : Bool := false
  inUse : Bool := false
  data : Bytes := []
  sig : Option Bytes := none
deriving DecidableEq, Repr

/-- `new_op` (`src/ossl/ecdsa.rs:170-204`) with the number of bits of the key. -/
def EcdsaOp.new (raw : Bool) (bits : Nat) (signature : Option Bytes) : Res EcdsaOp :=
  let n := 2 * ((bits + 7) / 8)
  match signature with
  | none => .ok { raw := raw, outLen := n }
  | some s =>
    if s.length ≠ n then .error .signatureLenRange
    else match ecdsaToDer s with
      | .error r => .error r
      | .ok d => .ok { raw := raw, outLen := n, sig := some d }

/-- `sign_update` and `verify_int_update` (`src/ossl/ecdsa.rs:310-320`, `:383-393`). -/
def EcdsaOp.update (o : EcdsaOp) (part : Bytes) : Res Unit × EcdsaOp :=
  let o := if o.raw then { o with finalized := true } else o
  if o.finalized then (.error .operationNotInitialized, o)
  else (.ok (), { o with inUse := true, data := o.data ++ part })

/-- `sign_final` (`src/ossl/ecdsa.rs:322-344`) into a buffer of `n` bytes; OpenSSL refuses (here CKR_DEVICE_ERROR) when the DER does not fit in `n + 10` bytes. -/
def EcdsaOp.signFinal (P : EcdsaPrims) (o : EcdsaOp) (n : Nat) : Res Bytes × EcdsaOp :=
  if !o.inUse then (.error .operationNotInitialized, o)
  else if o.finalized then (.error .operationNotInitialized, o)
  else
    let o := { o with finalized := true }
    match P.sign o.data with
    | .error r => (.error r, o)
    | .ok d => if n + 10 < d.length then (.error .deviceError, o) else (ecdsaToRaw d n, o)

/-- `sign` (`src/ossl/ecdsa.rs:286-308`) into a buffer of `n` bytes. -/
def EcdsaOp.sign (P : EcdsaPrims) (o : EcdsaOp) (data : Bytes) (n : Nat) : Res Bytes × EcdsaOp :=
  if o.inUse then (.error .operationNotInitialized, o)
  else if o.finalized then (.error .operationNotInitialized, o)
  else if o.raw then
    let o := { o with finalized := true }
    if n ≠ o.outLen then (.error .signatureLenRange, o)
    else match P.signRaw data with
      | .error r => (.error r, o)
      | .ok d => (ecdsaToRaw d n, o)
  else match o.update data with
    | (.error r, o) => (.error r, o)
    | (.ok (), o) => o.signFinal P n

/-- The signature to verify: the argument, or the one set before (`src/ossl/ecdsa.rs:366-375`, `:406-416`); OpenSSL fails when none was set. -/
def EcdsaOp.wanted (o : EcdsaOp) (signature : Option Bytes) : Res Bytes :=
  match signature with
  | some s => if s.length ≠ o.outLen then .error .signatureLenRange else ecdsaToDer s
  | none => match o.sig with
    | some d => .ok d
    | none => .error .generalError

/-- `verify_int_final` (`src/ossl/ecdsa.rs:396-417`). -/
def EcdsaOp.verifyFinal (P : EcdsaPrims) (o : EcdsaOp) (signature : Option Bytes) : Res Unit × EcdsaOp :=
  if !o.inUse then (.error .operationNotInitialized, o)
  else if o.finalized then (.error .operationNotInitialized, o)
  else
    let o := { o with finalized := true }
    match o.wanted signature with
    | .error r => (.error r, o)
    | .ok d => (P.ver o.data d, o)

/-- `verify_internal` (`src/ossl/ecdsa.rs:353-380`). -/
def EcdsaOp.verify (P : EcdsaPrims) (o : EcdsaOp) (data : Bytes) (signature : Option Bytes) : Res Unit × EcdsaOp :=
  if o.inUse then (.error .operationNotInitialized, o)
  else if o.finalized then (.error .operationNotInitialized, o)
  else if o.raw then
    let o := { o with finalized := true }
    match o.wanted signature with
    | .error r => (.error r, o)
    | .ok d => (P.verRaw data d, o)
  else match o.update data with
    | (.error r, o) => (.error r, o)
    | (.ok (), o) => o.verifyFinal P signature

/-- Several parts: `sign_update` or `verify_update` again and again (`src/ossl/ecdsa.rs:310-320`, `:425-427`). -/
def EcdsaOp.updates (o : EcdsaOp) : List Bytes → Res Unit × EcdsaOp
  | [] => (.ok (), o)
  | p :: ps => match o.update p with
    | (.error r, o) => (.error r, o)
    | (.ok (), o) => o.updates ps

end Kry
