import Verif.Model.OsslSig

/-! EdDSA signatures (`src/ossl/eddsa.rs`). -/

namespace Kry

/-- The two curves of CKM_EDDSA, told apart by the length of signatures (`src/ossl/eddsa.rs:22-25`, `:150`). -/
inductive EdCurve where
  | ed25519 | ed448
deriving DecidableEq, Repr

/-- `2 * ((bits + 7) / 8)` (`src/ossl/eddsa.rs:150`) for the 253 and 456 bits OpenSSL reports. -/
def EdCurve.outLen : EdCurve → Nat
  | .ed25519 => 2 * ((253 + 7) / 8)
  | .ed448 => 2 * ((456 + 7) / 8)

/-- The `SigAlg`s of EdDSA (`ossl/src/signature.rs:77-81`). -/
inductive EdAlg where
  | ed25519 | ed25519ctx | ed25519ph | ed448 | ed448ph
deriving DecidableEq, Repr

/-- `CK_EDDSA_PARAMS` as read (`src/ossl/eddsa.rs:45-52`); `flag` is `phFlag`. -/
structure EdParam where
  flag : Nat
  context : Bytes
deriving DecidableEq, Repr

/-- `parse_params` (`src/ossl/eddsa.rs:29-73`) outside FIPS; `none` is a parameter of length zero. -/
def edParse (c : EdCurve) (param : Option EdParam) : Res (EdAlg × Option Bytes) :=
  match param with
  | none => if c.outLen = 114 then .error .mechanismParamInvalid else .ok (.ed25519, none)
  | some p =>
    let ctx := if p.context.length = 0 then none else some p.context
    if c.outLen = 64 then .ok (if p.flag = 1 then .ed25519ph else .ed25519ctx, ctx)
    else if c.outLen = 114 then .ok (if p.flag = 1 then .ed448ph else .ed448, ctx)
    else .error .mechanismParamInvalid

/-- OpenSSL for one key, as a parameter: whether it takes an algorithm with a context, and its functions. -/
structure EdEnv where
  takes : EdAlg → Option Bytes → Bool
  ossl : EdAlg → Option Bytes → OsslPrims

/-- `EddsaOperation` (`src/ossl/eddsa.rs:111-126`); `alg` and `context` are what OpenSSL was told. -/
structure EdOp where
  outLen : Nat
  alg : EdAlg
  context : Option Bytes
  sigctx : OsslSig
  finalized : Bool := false
  inUse : Bool := false
deriving DecidableEq, Repr

/-- `new_op` (`src/ossl/eddsa.rs:134-169`); `sigalg_supports_updates` denies updates for these algorithms (`ossl/src/signature.rs:172-180`). -/
def EdOp.new (E : EdEnv) (mode : SigMode) (signs : Bool) (c : EdCurve) (param : Option EdParam) (signature : Option Bytes) : Res EdOp :=
  match edParse c param with
  | .error r => .error r
  | .ok (alg, ctx) =>
    if !E.takes alg ctx then .error .deviceError
    else
      let s : OsslSig := { signs := signs, mode := mode, updates := false }
      match signature with
      | none => .ok { outLen := c.outLen, alg := alg, context := ctx, sigctx := s }
      | some g => match s.setSignature g with
        | .error e => .error e.rv
        | .ok s => .ok { outLen := c.outLen, alg := alg, context := ctx, sigctx := s }

/-- `sign_update` and `verify_int_update` (`src/ossl/eddsa.rs:266-290`, `:339-363`). -/
def EdOp.update (o : EdOp) (part : Bytes) : Res Unit × EdOp :=
  if o.finalized then (.error .operationNotInitialized, o)
  else
    let o := { o with inUse := true }
    match o.sigctx.update part with
    | (.ok (), c) => (.ok (), { o with sigctx := c })
    | (.error .bufferSize, c) => (.error .tokenResourceExceeded, { o with sigctx := c })
    | (.error e, c) => (.error e.rv, { o with sigctx := c })

/-- `sign_final` (`src/ossl/eddsa.rs:292-313`) into a buffer of `n` bytes. -/
def EdOp.signFinal (E : EdEnv) (o : EdOp) (n : Nat) : Res Bytes × EdOp :=
  if !o.inUse then (.error .operationNotInitialized, o)
  else if o.finalized then (.error .operationNotInitialized, o)
  else
    let o := { o with finalized := true }
    match o.sigctx.signFinal (E.ossl o.alg o.context) n with
    | (.error e, c) => (.error e.rv, { o with sigctx := c })
    | (.ok s, c) => (if s.length ≠ n then .error .deviceError else .ok s, { o with sigctx := c })

/-- `sign` (`src/ossl/eddsa.rs:255-264`) into a buffer of `n` bytes. -/
def EdOp.sign (E : EdEnv) (o : EdOp) (data : Bytes) (n : Nat) : Res Bytes × EdOp :=
  if o.inUse then (.error .operationNotInitialized, o)
  else if o.finalized then (.error .operationNotInitialized, o)
  else match o.update data with
    | (.error r, o) => (.error r, o)
    | (.ok (), o) => o.signFinal E n

/-- `verify_int_final` (`src/ossl/eddsa.rs:367-388`): every failure is CKR_SIGNATURE_INVALID. -/
def EdOp.verifyFinal (E : EdEnv) (o : EdOp) (signature : Option Bytes) : Res Unit × EdOp :=
  if !o.inUse then (.error .operationNotInitialized, o)
  else if o.finalized then (.error .operationNotInitialized, o)
  else
    let o := { o with finalized := true }
    match o.sigctx.verifyFinal (E.ossl o.alg o.context) signature with
    | (.error _, c) => (.error .signatureInvalid, { o with sigctx := c })
    | (.ok (), c) => (.ok (), { o with sigctx := c })

/-- `verify_internal` (`src/ossl/eddsa.rs:322-335`). -/
def EdOp.verify (E : EdEnv) (o : EdOp) (data : Bytes) (signature : Option Bytes) : Res Unit × EdOp :=
  if o.inUse then (.error .operationNotInitialized, o)
  else if o.finalized then (.error .operationNotInitialized, o)
  else match o.update data with
    | (.error r, o) => (.error r, o)
    | (.ok (), o) => o.verifyFinal E signature

/-- Several parts: `sign_update` or `verify_update` again and again (`src/ossl/eddsa.rs:266-290`, `:396-398`); the caller stops at a refused part. -/
def EdOp.parts (o : EdOp) : List Bytes → Res Unit × EdOp
  | [] => (.ok (), o)
  | p :: ps => match o.update p with
    | (.error r, o) => (.error r, o)
    | (.ok (), o) => o.parts ps

end Kry
