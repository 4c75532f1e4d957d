import Verif.Model.PqSig
import Verif.Model.EdCalls

/-!
# ML-DSA and SLH-DSA behind C_Sign*, C_Verify* and C_VerifySignature*

`src/mldsa.rs:60-110`, `:358-416`, `src/slhdsa.rs:70-120`, `:362-420`, `src/ossl/mldsa.rs`, `src/ossl/slhdsa.rs`.
-/

namespace Kry

/-- The mechanisms registered (`src/mldsa.rs:91-105`, `src/slhdsa.rs:100-117`) with their meaning in `sigver_new` (`src/ossl/mldsa.rs:344-366`); `true` is SLH-DSA. -/
def pqTab : List (Nat × Bool × PqMech) :=
  [(CKM_ML_DSA, false, .pure), (CKM_HASH_ML_DSA, false, .prehash), (CKM_HASH_ML_DSA_SHA224, false, .hashed .sha224), (CKM_HASH_ML_DSA_SHA256, false, .hashed .sha256),
   (CKM_HASH_ML_DSA_SHA384, false, .hashed .sha384), (CKM_HASH_ML_DSA_SHA512, false, .hashed .sha512), (CKM_HASH_ML_DSA_SHA3_224, false, .hashed .sha3_224),
   (CKM_HASH_ML_DSA_SHA3_256, false, .hashed .sha3_256), (CKM_HASH_ML_DSA_SHA3_384, false, .hashed .sha3_384), (CKM_HASH_ML_DSA_SHA3_512, false, .hashed .sha3_512),
   (CKM_SLH_DSA, true, .pure), (CKM_HASH_SLH_DSA, true, .prehash), (CKM_HASH_SLH_DSA_SHA224, true, .hashed .sha224), (CKM_HASH_SLH_DSA_SHA256, true, .hashed .sha256),
   (CKM_HASH_SLH_DSA_SHA384, true, .hashed .sha384), (CKM_HASH_SLH_DSA_SHA512, true, .hashed .sha512), (CKM_HASH_SLH_DSA_SHA3_224, true, .hashed .sha3_224),
   (CKM_HASH_SLH_DSA_SHA3_256, true, .hashed .sha3_256), (CKM_HASH_SLH_DSA_SHA3_384, true, .hashed .sha3_384), (CKM_HASH_SLH_DSA_SHA3_512, true, .hashed .sha3_512)]

/-- Values of CKA_PARAMETER_SET (`src/ossl/mldsa.rs:57-67`, `src/ossl/slhdsa.rs:68-86`). -/
def pqSetTab : Bool → List (Nat × PqSet)
  | false => [(CKP_ML_DSA_44, .ml44), (CKP_ML_DSA_65, .ml65), (CKP_ML_DSA_87, .ml87)]
  | true => [(CKP_SLH_DSA_SHA2_128S, .slh128s false), (CKP_SLH_DSA_SHAKE_128S, .slh128s true), (CKP_SLH_DSA_SHA2_128F, .slh128f false), (CKP_SLH_DSA_SHAKE_128F, .slh128f true),
     (CKP_SLH_DSA_SHA2_192S, .slh192s false), (CKP_SLH_DSA_SHAKE_192S, .slh192s true), (CKP_SLH_DSA_SHA2_192F, .slh192f false), (CKP_SLH_DSA_SHAKE_192F, .slh192f true),
     (CKP_SLH_DSA_SHA2_256S, .slh256s false), (CKP_SLH_DSA_SHAKE_256S, .slh256s true), (CKP_SLH_DSA_SHA2_256F, .slh256f false), (CKP_SLH_DSA_SHAKE_256F, .slh256f true)]

/-- What a key consists of (`src/ossl/mldsa.rs:88-126`, `src/ossl/slhdsa.rs:110-141`): `set` is CKA_PARAMETER_SET, `value` CKA_VALUE, `seed` CKA_SEED of a private ML-DSA key if there. -/
structure PqKey where
  priv : Bool
  set : Nat
  value : Bytes
  seed : Option Bytes := none
deriving DecidableEq, Repr

/-- OpenSSL's import of keys and its contexts as a parameter, or a failure; `probe` is whether it takes messages for ML-DSA in parts (`ossl/src/signature.rs:864-903`). -/
structure PqKeys where
  load : Bool → PqKey → Option PqEnv
  probe : Bool

/-- The parameter (`src/ossl/mldsa.rs:166-219`): nothing, which stands for NULL, or a CK_SIGN_ADDITIONAL_CONTEXT or CK_HASH_SIGN_ADDITIONAL_CONTEXT of its size (`get_parameters`,
`src/pkcs11/mod.rs:1016-1024`), whose pointer `mem` follows. -/
def pqParamOf (mem : Bytes → PqParam) (mech : PqMech) (q : Bytes) : Res (Option PqParam) :=
  if q.length = 0 then .ok none
  else if q.length ≠ (if mech = .prehash then 32 else 24) then .error .argumentsBad
  else .ok (some (mem q))

/-- The attributes read (`src/ossl/mldsa.rs:88-126`, `:314-315`); the class is checked before (`src/object/mod.rs:306`). -/
def pqKeyOf (slh priv : Bool) (o : Obj) : Res PqKey :=
  match o.getUlong CKA_PARAMETER_SET with
  | .error r => .error r
  | .ok s => match o.getBytes CKA_VALUE with
    | .error r => .error r
    | .ok v => .ok ⟨priv, s, v, if priv && !slh then (match o.getBytes CKA_SEED with | .error _ => none | .ok x => some x) else none⟩

/-- The operation before anything was fed and without a signature, from what the caller gave (`src/ossl/mldsa.rs:292-384`). -/
def pqBase (K : PqKeys) (mem : Bytes → PqParam) (slh : Bool) (mech : PqMech) (q : Bytes) (key : PqKey) (given : Option Bytes) : Res PqOp :=
  match (pqSetTab slh).lookup key.set with
  | none => .error .generalError
  | some set => match pqParamOf mem mech q with
    | .error r => .error r
    | .ok p => PqOp.new K.probe key.priv mech set p given

/-- The fields of `MlDsaOperation` that change (`src/ossl/mldsa.rs:246-266`), with key and parameter, from which the others follow, in serial form (model only). -/
def pqOp (m : Nat) (q : Bytes) (key : PqKey) (o : PqOp) : Op :=
  ⟨m, o.finalized, false, none, packL [q, packBool key.priv, packNat key.set, key.value, packSig key.seed, packBool o.inUse, packSig o.hasher, packSig o.signature,
    packSig o.sigctx.data, packSig o.sigctx.signature, o.sigctx.fed, packSig o.sigctx.given]⟩

/-- An operation with other values in the fields that change (model only). -/
def pqWith (b : PqOp) (fin use : Bool) (hasher signature data sig2 : Option Bytes) (fed : Bytes) (given : Option Bytes) : PqOp :=
  ⟨b.mech, b.pars, b.told, ⟨b.sigctx.signs, b.sigctx.mode, b.sigctx.updates, data, sig2, fed, given⟩, fin, use, b.hashsize, hasher, signature⟩

/-- Read `pqOp` (model only). -/
def pqOf (K : PqKeys) (mem : Bytes → PqParam) (op : Op) : Option (Bool × Bytes × PqKey × PqOp) :=
  match pqTab.lookup op.mech with
  | none => none
  | some (slh, mech) => match unpackL 12 op.data with
    | [q, pr, st, v, sd, iu, hs, sg, dt, s2, fd, gv] =>
      let key : PqKey := ⟨pr != [], fromLE st, v, unpackSig sd⟩
      match pqBase K mem slh mech q key none with
      | .error _ => none
      | .ok b => some (slh, q, key, pqWith b op.fin (iu != []) (unpackSig hs) (unpackSig sg) (unpackSig dt) (unpackSig s2) fd (unpackSig gv))
    | _ => none

/-- `sigver_new` (`src/ossl/mldsa.rs:292-384`); keys OpenSSL refuses are CKR_DEVICE_ERROR. -/
def pqStart (K : PqKeys) (mem : Bytes → PqParam) (m : Nat) (q : Bytes) (signs : Bool) (x : Obj) (given : Option Bytes) : Res Op :=
  match pqTab.lookup m with
  | none => .error .mechanismInvalid
  | some (slh, mech) => match pqKeyOf slh signs x with
    | .error r => .error r
    | .ok key => match pqBase K mem slh mech q key given with
      | .error r => .error r
      | .ok o => match K.load slh key with
        | none => .error .deviceError
        | some _ => .ok (pqOp m q key o)

/-- Nothing is given out (model only). -/
def pqNothing (p : Res Unit × PqOp) : Res Bytes × PqOp :=
  match p with
  | (.error r, o) => (.error r, o)
  | (.ok (), o) => (.ok [], o)

/-- `Sign`, `Verify` and `VerifySignature` (`src/ossl/mldsa.rs:627-771`); the buffer for a signature has `signature_len` bytes (`src/fns/signing.rs:112-113`, `:241-242`). -/
def pqRun (E : PqEnv) (k : OpKind) (a : Act) (o : PqOp) (i : OpIn) : Res Bytes × PqOp :=
  match a with
  | .update => pqNothing (o.update i.data)
  | .oneShot => match k with
    | .sign => o.sign E i.data o.pars.sigsize
    | .verify => pqNothing (o.verify E i.data (some i.sig))
    | _ => pqNothing (o.verify E i.data none)
  | _ => match k with
    | .sign => o.signFinal E o.pars.sigsize
    | .verify => pqNothing (o.verifyFinal E (some i.sig))
    | _ => pqNothing (o.verifyFinal E none)

/-- A call on the operation object. -/
def pqDo (K : PqKeys) (mem : Bytes → PqParam) (k : OpKind) (a : Act) (op : Op) (i : OpIn) : Res Bytes × Op :=
  match pqOf K mem op with
  | none => (.error .generalError, op)
  | some (slh, q, key, o) => match K.load slh key with
    | none => (.error .generalError, op)
    | some E => ((pqRun E k a o i).1, pqOp op.mech q key (pqRun E k a o i).2)

/-- `signature_len` (`src/ossl/mldsa.rs:736-738`, `:754-756`). -/
def pqLen (K : PqKeys) (mem : Bytes → PqParam) (op : Op) : Res Nat :=
  match pqOf K mem op with
  | none => .error .generalError
  | some (_, _, _, o) => .ok o.pars.sigsize

/-- ML-DSA and SLH-DSA in the machine (`src/mldsa.rs:60-110`, `:358-416`, `src/slhdsa.rs:70-120`, `:362-420`); other mechanisms are those of `M`. -/
def withPq (M : Mechs) (K : PqKeys) (mem : Bytes → PqParam) : Mechs := { M with
  flags := fun m => if (pqTab.lookup m).isSome then CKF_SIGN ||| CKF_VERIFY else M.flags m
  fam := fun m => match pqTab.lookup m with
    | some (slh, _) => if slh then .slhdsa else .mldsa
    | none => M.fam m
  new := fun e k m q key sig => if (pqTab.lookup m).isSome then
      match key with
      | some o => pqStart K mem m q (decide (k = .sign)) o (if k = .verifySig then some sig else none)
      | none => .error .mechanismInvalid
    else M.new e k m q key sig
  len := fun k a op n => if (pqTab.lookup op.mech).isSome then (pqLen K mem op, op) else M.len k a op n
  run := fun e k a op i => if (pqTab.lookup op.mech).isSome then pqDo K mem k a op i else M.run e k a op i }

end Kry
