import Verif.Model.Der
import Verif.Model.OsslSig

/-! ML-DSA and SLH-DSA signatures (`src/ossl/mldsa.rs`, `src/ossl/slhdsa.rs`).  The two files differ in names, sizes and key import only; lines are those of the first. -/

namespace Kry

/-- The mechanism types a hash parameter can name: those of `HASH_MECH_SET` (`src/hash.rs`), and any other. -/
inductive PqHash where
  | sha1 | sha224 | sha256 | sha384 | sha512 | sha512_224 | sha512_256 | sha3_224 | sha3_256 | sha3_384 | sha3_512 | other
deriving DecidableEq, Repr

/-- `hash_size` (`src/hash.rs:233-240`); `none` is `INVALID_HASH_SIZE`. -/
def PqHash.size : PqHash → Option Nat
  | .sha1 => some 20
  | .sha224 | .sha3_224 | .sha512_224 => some 28
  | .sha256 | .sha3_256 | .sha512_256 => some 32
  | .sha384 | .sha3_384 => some 48
  | .sha512 | .sha3_512 => some 64
  | .other => none

/-- The OIDs chosen in `hash_mldsa_m_prime` (`src/ossl/mldsa.rs:445-456`, `src/kasn1/pyca/oid.rs:177-202`): the last number of 2.16.840.1.101.3.4.2. -/
def PqHash.arc : PqHash → Option UInt8
  | .sha256 => some 1
  | .sha384 => some 2
  | .sha512 => some 3
  | .sha224 => some 4
  | .sha3_224 => some 7
  | .sha3_256 => some 8
  | .sha3_384 => some 9
  | .sha3_512 => some 10
  | _ => none

/-- The parameter sets of CKA_PARAMETER_SET (`src/ossl/mldsa.rs:60-66`, `src/ossl/slhdsa.rs:70-86`). -/
inductive PqSet where
  | ml44 | ml65 | ml87
  | slh128s (shake : Bool) | slh128f (shake : Bool) | slh192s (shake : Bool) | slh192f (shake : Bool) | slh256s (shake : Bool) | slh256f (shake : Bool)
deriving DecidableEq, Repr

/-- `mldsa_param_to_sig_size`, `slhdsa_param_to_sig_size` (`src/ossl/mldsa.rs:70-80`, `src/ossl/slhdsa.rs:28-33`, `:90-102`). -/
def PqSet.sigSize : PqSet → Nat
  | .ml44 => 2420
  | .ml65 => 3309
  | .ml87 => 4627
  | .slh128s _ => 7856
  | .slh128f _ => 17088
  | .slh192s _ => 16224
  | .slh192f _ => 35664
  | .slh256s _ => 29792
  | .slh256f _ => 49856

/-- `sigalg_supports_updates` and the probe after it (`ossl/src/signature.rs:172-206`, `:864-903`): `probe` is OpenSSL's answer for ML-DSA. -/
def PqSet.updates (probe : Bool) : PqSet → Bool
  | .ml44 | .ml65 | .ml87 => probe
  | _ => false

/-- The mechanisms (`src/ossl/mldsa.rs:344-366`): CKM_ML_DSA, CKM_HASH_ML_DSA, CKM_HASH_ML_DSA_SHA…, the two SHAKE ones, any other. -/
inductive PqMech where
  | «pure» | prehash | hashed (h : PqHash) | shake | other
deriving DecidableEq, Repr

/-- `CK_SIGN_ADDITIONAL_CONTEXT` and `CK_HASH_SIGN_ADDITIONAL_CONTEXT` as read (`src/ossl/mldsa.rs:182-219`); `hash` counts for CKM_HASH_ML_DSA only. -/
structure PqParam where
  hedge : Nat
  context : Bytes
  hash : PqHash := .other
deriving DecidableEq, Repr

/-- `MlDsaParams` (`src/ossl/mldsa.rs:138-149`). -/
structure PqPars where
  set : PqSet
  hedge : Nat
  context : Option Bytes
  hash : PqHash
  sigsize : Nat
deriving DecidableEq, Repr

/-- `MlDsaParams::new` (`src/ossl/mldsa.rs:154-221`); `none` is a NULL parameter. -/
def PqPars.new (mech : PqMech) (set : PqSet) (param : Option PqParam) : Res PqPars :=
  let base : PqPars := { set := set, hedge := 0, context := none, hash := .other, sigsize := set.sigSize }
  match param with
  | none => .ok base
  | some p =>
    if mech = .other then .error .mechanismInvalid
    else if p.hedge ≠ 0 ∧ p.hedge ≠ 1 ∧ p.hedge ≠ 2 then .error .mechanismParamInvalid
    else if 255 < p.context.length then .error .mechanismParamInvalid
    else
      let ctx := if p.context.length = 0 then none else some p.context
      .ok { base with hedge := p.hedge, context := ctx, hash := if mech = .prehash then p.hash else .other }

/-- What OpenSSL is told at initialisation (`mldsa_params`, `ossl/src/signature.rs:629-652`). -/
structure PqTold where
  raw : Bool
  context : Option Bytes
  deterministic : Bool
deriving DecidableEq, Repr

/-- `ossl_params` with the flags of `sigver_new` (`src/ossl/mldsa.rs:229-242`, `:305-336`): the flag for signing is set for verification, too. -/
def PqPars.told (p : PqPars) (mech : PqMech) : PqTold :=
  { raw := mech != .pure, context := p.context, deterministic := p.hedge == 2 }

/-- `MlDsaOperation` (`src/ossl/mldsa.rs:246-266`); `hasher` is what the digest was fed, `told` what OpenSSL was told. -/
structure PqOp where
  mech : PqMech
  pars : PqPars
  told : PqTold
  sigctx : OsslSig
  finalized : Bool := false
  inUse : Bool := false
  hashsize : Nat := 0
  hasher : Option Bytes := none
  signature : Option Bytes := none
deriving DecidableEq, Repr

/-- `set_signature` (`src/ossl/mldsa.rs:387-407`). -/
def PqOp.setSignature (o : PqOp) (s : Bytes) : Res PqOp :=
  if s.length ≠ o.pars.set.sigSize then .error .signatureLenRange
  else if o.mech = .pure then
    match o.sigctx.setSignature s with
    | .error e => .error e.rv
    | .ok c => .ok { o with sigctx := c }
  else .ok { o with signature := some s }

/-- The match on the mechanism in `sigver_new`, with `setup_digest` (`src/ossl/mldsa.rs:345-366`, `:410-422`). -/
def PqOp.setup (o : PqOp) : Res PqOp :=
  match o.mech with
  | .pure => .ok o
  | .prehash => match o.pars.hash.size with
    | none => .error .mechanismInvalid
    | some n => .ok { o with hashsize := n }
  | .hashed h => match h.size with
    | none => .error .mechanismInvalid
    | some n => .ok { o with hashsize := n, hasher := some [], pars := { o.pars with hash := h } }
  | _ => .error .mechanismInvalid

/-- `sigver_new` (`src/ossl/mldsa.rs:292-384`); keys OpenSSL refuses are not represented. -/
def PqOp.new (probe signs : Bool) (mech : PqMech) (set : PqSet) (param : Option PqParam) (signature : Option Bytes) : Res PqOp :=
  match PqPars.new mech set param with
  | .error r => .error r
  | .ok pars =>
    let o : PqOp := { mech := mech, pars := pars, told := pars.told mech, sigctx := { signs := signs, mode := .message, updates := set.updates probe } }
    match o.setup with
    | .error r => .error r
    | .ok o =>
      if signs then .ok o
      else match signature with
        | none => .ok o
        | some s => o.setSignature s

/-- The context in M' (`src/ossl/mldsa.rs:436-443`). -/
def pqCtxBytes : Option Bytes → Bytes
  | some c => UInt8.ofNat c.length :: c
  | none => [0]

/-- `hash_mldsa_m_prime` (`src/ossl/mldsa.rs:429-472`). -/
def PqPars.mPrime (p : PqPars) (hmsg : Bytes) : Res Bytes :=
  match p.hash.arc with
  | none => .error .mechanismParamInvalid
  | some a =>
    if p.hash.size ≠ some hmsg.length then .error .dataLenRange
    else .ok (1 :: pqCtxBytes p.context ++ derTlv 6 [0x60, 0x86, 0x48, 0x01, 0x65, 0x03, 0x04, 0x02, a] ++ hmsg)

/-- OpenSSL and the hashes, as parameters: OpenSSL's functions depend on what it was told. -/
structure PqEnv where
  ossl : PqTold → OsslPrims
  hash : PqHash → Bytes → Bytes

/-- `verify_hash` (`src/ossl/mldsa.rs:491-505`). -/
def PqOp.verifyHash (E : PqEnv) (o : PqOp) (hash : Bytes) (signature : Option Bytes) : Res Unit :=
  match o.pars.mPrime hash with
  | .error r => .error r
  | .ok m =>
    match signature.orElse fun _ => o.signature with
    | none => .error .signatureLenRange
    | some s => match o.sigctx.verify (E.ossl o.told) m (some s) with
      | .error e => .error e.rv
      | .ok () => .ok ()

/-- `sign_hash` (`src/ossl/mldsa.rs:507-514`) and the check on the length after it. -/
def PqOp.signHash (E : PqEnv) (o : PqOp) (hash : Bytes) (n : Nat) : Res Bytes :=
  match o.pars.mPrime hash with
  | .error r => .error r
  | .ok m => match o.sigctx.sign (E.ossl o.told) m n with
    | .error e => .error e.rv
    | .ok s => if s.length ≠ n then .error .deviceError else .ok s

/-- `sign_update` and `verify_int_update` (`src/ossl/mldsa.rs:656-695`, `:546-585`). -/
def PqOp.update (o : PqOp) (part : Bytes) : Res Unit × PqOp :=
  if o.finalized then (.error .operationNotInitialized, o)
  else
    let o := { o with inUse := true }
    match o.mech with
    | .pure => match o.sigctx.update part with
      | (.ok (), c) => (.ok (), { o with sigctx := c })
      | (.error e, c) => (.error e.rv, { o with sigctx := c, finalized := true })
    | .prehash => (.error .operationNotInitialized, { o with finalized := true })
    | .hashed _ => match o.hasher with
      | some fed => (.ok (), { o with hasher := some (fed ++ part) })
      | none => (.error .generalError, o)
    | _ => (.error .generalError, o)

/-- `sign_final` (`src/ossl/mldsa.rs:697-734`) into a buffer of `n` bytes. -/
def PqOp.signFinal (E : PqEnv) (o : PqOp) (n : Nat) : Res Bytes × PqOp :=
  if !o.inUse then (.error .operationNotInitialized, o)
  else if o.finalized then (.error .operationNotInitialized, o)
  else
    let o := { o with finalized := true }
    match o.mech with
    | .pure => match o.sigctx.signFinal (E.ossl o.told) n with
      | (.error e, c) => (.error e.rv, { o with sigctx := c })
      | (.ok s, c) => (if s.length ≠ n then .error .deviceError else .ok s, { o with sigctx := c })
    | .hashed h => match o.hasher with
      | some fed => (o.signHash E (E.hash h fed) n, o)
      | none => (.error .generalError, o)
    | _ => (.error .generalError, o)

/-- `sign` (`src/ossl/mldsa.rs:628-654`) into a buffer of `n` bytes. -/
def PqOp.sign (E : PqEnv) (o : PqOp) (data : Bytes) (n : Nat) : Res Bytes × PqOp :=
  if o.inUse then (.error .operationNotInitialized, o)
  else if o.finalized then (.error .operationNotInitialized, o)
  else if o.mech = .prehash then
    let o := { o with finalized := true }
    if data.length ≠ o.hashsize then (.error .dataLenRange, o) else (o.signHash E data n, o)
  else match o.update data with
    | (.error r, o) => (.error r, o)
    | (.ok (), o) => o.signFinal E n

/-- `verify_int_final` (`src/ossl/mldsa.rs:590-624`). -/
def PqOp.verifyFinal (E : PqEnv) (o : PqOp) (signature : Option Bytes) : Res Unit × PqOp :=
  if !o.inUse then (.error .operationNotInitialized, o)
  else if o.finalized then (.error .operationNotInitialized, o)
  else
    let o := { o with finalized := true }
    match o.mech with
    | .pure => match o.sigctx.verifyFinal (E.ossl o.told) signature with
      | (.error e, c) => (.error e.rv, { o with sigctx := c })
      | (.ok (), c) => (.ok (), { o with sigctx := c })
    | .hashed h => match o.hasher with
      | some fed => (o.verifyHash E (E.hash h fed) signature, o)
      | none => (.error .generalError, o)
    | _ => (.error .generalError, o)

/-- `verify_internal` (`src/ossl/mldsa.rs:517-542`). -/
def PqOp.verify (E : PqEnv) (o : PqOp) (data : Bytes) (signature : Option Bytes) : Res Unit × PqOp :=
  if o.inUse then (.error .operationNotInitialized, o)
  else if o.finalized then (.error .operationNotInitialized, o)
  else if o.mech = .prehash then
    let o := { o with finalized := true }
    if data.length ≠ o.hashsize then (.error .dataLenRange, o) else (o.verifyHash E data signature, o)
  else match o.update data with
    | (.error r, o) => (.error r, o)
    | (.ok (), o) => o.verifyFinal E signature

/-- Several parts: `sign_update` or `verify_update` again and again (`src/ossl/mldsa.rs:656-695`, `:745-747`). -/
def PqOp.parts (o : PqOp) : List Bytes → Res Unit × PqOp
  | [] => (.ok (), o)
  | p :: ps => match o.update p with
    | (.error r, o) => (.error r, o)
    | (.ok (), o) => o.parts ps

end Kry
