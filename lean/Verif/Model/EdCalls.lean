import Verif.Model.AesSign
import Verif.Model.EdSig

/-!
# EdDSA behind C_Sign*, C_Verify* and C_VerifySignature*

`src/ec/eddsa.rs:329-383`, `src/ossl/eddsa.rs`.
-/

namespace Kry

/-- OpenSSL's import of Edwards keys (`eddsa_object_to_pkey`, `src/ossl/eddsa.rs:80-108`) as a parameter: from CKA_EC_PARAMS and CKA_VALUE of a private key (`true`) or CKA_EC_POINT of a
public key (`false`) the curve and what OpenSSL does with the key, or a failure; `mode` is which of its functions this version of OpenSSL needs. -/
structure EdKeys where
  load : Bool → Bytes → Bytes → Option (EdCurve × EdEnv)
  mode : SigMode

/-- What a key consists of: private or public, parameters, value or point. -/
structure EdKey where
  priv : Bool
  params : Bytes
  value : Bytes
deriving DecidableEq, Repr

/-- The attributes read by `eddsa_object_to_pkey` (`src/ossl/eddsa.rs:80-108`, `src/ec/mod.rs:154-165`); the class is checked before (`src/object/mod.rs:306`).  An unreadable
CKA_EC_PARAMS is a failure of `EdKeys.load`. -/
def edKey (priv : Bool) (o : Obj) : Res EdKey :=
  match o.getBytes CKA_EC_PARAMS with
  | .error r => .error r
  | .ok p => match o.getBytes (if priv then CKA_VALUE else CKA_EC_POINT) with
    | .error r => .error r
    | .ok v => .ok ⟨priv, p, v⟩

/-- The parameter (`src/ossl/eddsa.rs:37-52`): nothing, or a CK_EDDSA_PARAMS of 24 bytes (`get_parameters`, `src/pkcs11/mod.rs:1016-1024`), whose pointer `mem` follows. -/
def edParamOf (mem : Bytes → EdParam) (q : Bytes) : Res (Option EdParam) :=
  if q.length = 0 then .ok none else if q.length ≠ 24 then .error .argumentsBad else .ok (some (mem q))

/-- An algorithm in serial form (model only). -/
def packAlg : EdAlg → Bytes
  | .ed25519 => [] | .ed25519ctx => [1] | .ed25519ph => [2] | .ed448 => [3] | .ed448ph => [4]

/-- Read `packAlg` (model only). -/
def unpackAlg : Bytes → EdAlg
  | [1] => .ed25519ctx | [2] => .ed25519ph | [3] => .ed448 | [4] => .ed448ph | _ => .ed25519

/-- A mode in serial form (model only). -/
def packMode : SigMode → Bytes
  | .oneshot => [] | .legacy => [1] | .message => [2]

/-- Read `packMode` (model only). -/
def unpackMode : Bytes → SigMode
  | [1] => .legacy | [2] => .message | _ => .oneshot

/-- The fields of `EddsaOperation` (`src/ossl/eddsa.rs:111-126`) with the key, in serial form (model only; `finalized` is a field of `Op`). -/
def edOp (key : EdKey) (o : EdOp) : Op :=
  ⟨CKM_EDDSA, o.finalized, false, none, packL [packBool key.priv, key.params, key.value, packNat o.outLen, packAlg o.alg, packSig o.context, packBool o.sigctx.signs,
    packMode o.sigctx.mode, packBool o.sigctx.updates, packSig o.sigctx.data, packSig o.sigctx.signature, o.sigctx.fed, packSig o.sigctx.given, packBool o.inUse]⟩

/-- Read `edOp` (model only). -/
def edOf (op : Op) : Option (EdKey × EdOp) :=
  match unpackL 14 op.data with
  | [pr, ps, v, len, alg, ctx, sg, md, up, dt, sn, fed, gv, iu] =>
    some (⟨pr != [], ps, v⟩, ⟨fromLE len, unpackAlg alg, unpackSig ctx, ⟨sg != [], unpackMode md, up != [], unpackSig dt, unpackSig sn, fed, unpackSig gv⟩, op.fin, iu != []⟩)
  | _ => none

/-- `EddsaOperation::new_op` (`src/ossl/eddsa.rs:134-169`). -/
def edStart (K : EdKeys) (mem : Bytes → EdParam) (q : Bytes) (signs : Bool) (o : Obj) (given : Option Bytes) : Res Op :=
  match edKey signs o with
  | .error r => .error r
  | .ok key => match K.load key.priv key.params key.value with
    | none => .error .deviceError
    | some (c, E) => match edParamOf mem q with
      | .error r => .error r
      | .ok p => match EdOp.new E K.mode signs c p given with
        | .error r => .error r
        | .ok o => .ok (edOp key o)

/-- Nothing is given out (model only). -/
def edNothing (p : Res Unit × EdOp) : Res Bytes × EdOp :=
  match p with
  | (.error r, o) => (.error r, o)
  | (.ok (), o) => (.ok [], o)

/-- `Sign`, `Verify` and `VerifySignature` (`src/ossl/eddsa.rs:254-422`); the buffer for a signature has `signature_len` bytes (`src/fns/signing.rs:112-113`, `:241-242`). -/
def edRun (E : EdEnv) (k : OpKind) (a : Act) (o : EdOp) (i : OpIn) : Res Bytes × EdOp :=
  match a with
  | .update => edNothing (o.update i.data)
  | .oneShot => match k with
    | .sign => o.sign E i.data o.outLen
    | .verify => edNothing (o.verify E i.data (some i.sig))
    | _ => edNothing (o.verify E i.data none)
  | _ => match k with
    | .sign => o.signFinal E o.outLen
    | .verify => edNothing (o.verifyFinal E (some i.sig))
    | _ => edNothing (o.verifyFinal E none)

/-- A call on the operation object; `signature_len` is `output_len` (`src/ossl/eddsa.rs:404-406`). -/
def edDo (K : EdKeys) (k : OpKind) (a : Act) (op : Op) (i : OpIn) : Res Bytes × Op :=
  match edOf op with
  | none => (.error .generalError, op)
  | some (key, o) => match K.load key.priv key.params key.value with
    | none => (.error .generalError, op)
    | some (_, E) => ((edRun E k a o i).1, edOp key (edRun E k a o i).2)

/-- `signature_len` (`src/ossl/eddsa.rs:315-317`, `:404-406`). -/
def edLen (op : Op) : Res Nat :=
  match edOf op with
  | none => .error .generalError
  | some (_, o) => .ok o.outLen

/-- CKM_EDDSA in the machine (`src/ec/eddsa.rs:23-38`, `:329-383`); other mechanisms are those of `M`.  The flags of the curves are left out. -/
def withEd (M : Mechs) (K : EdKeys) (mem : Bytes → EdParam) : Mechs := { M with
  flags := fun m => if m = CKM_EDDSA then CKF_SIGN ||| CKF_VERIFY else M.flags m
  fam := fun m => if m = CKM_EDDSA then .eddsa else M.fam m
  new := fun e k m q key sig => if m = CKM_EDDSA then
      match key with
      | some o => edStart K mem q (decide (k = .sign)) o (if k = .verifySig then some sig else none)
      | none => .error .mechanismInvalid
    else M.new e k m q key sig
  len := fun k a op n => if op.mech = CKM_EDDSA then (edLen op, op) else M.len k a op n
  run := fun e k a op i => if op.mech = CKM_EDDSA then edDo K k a op i else M.run e k a op i }

end Kry
