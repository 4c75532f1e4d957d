import Verif.Model.Ecdsa
import Verif.Model.EdCalls

/-!
# ECDSA behind C_Sign*, C_Verify* and C_VerifySignature*

`src/ec/ecdsa.rs:360-410`, `src/ossl/ecdsa.rs`.
-/

namespace Kry

/-- OpenSSL's import of keys on NIST curves and its signature contexts (`ecc_object_to_pkey`, `src/ossl/ecdsa.rs:27-56`, `new_op`, `:176-190`) as a parameter: from the mechanism,
CKA_EC_PARAMS and CKA_VALUE of a private key (`true`) or CKA_EC_POINT of a public key (`false`) the number of bits and what OpenSSL does with key and hash, or a failure. -/
structure EcKeys where
  load : Nat → Bool → Bytes → Bytes → Option (Nat × EcdsaPrims)

/-- The mechanisms (`src/ec/ecdsa.rs:85-99`). -/
def ecMech (m : Nat) : Bool :=
  [CKM_ECDSA, CKM_ECDSA_SHA1, CKM_ECDSA_SHA224, CKM_ECDSA_SHA256, CKM_ECDSA_SHA384, CKM_ECDSA_SHA512, CKM_ECDSA_SHA3_224, CKM_ECDSA_SHA3_256, CKM_ECDSA_SHA3_384,
    CKM_ECDSA_SHA3_512].contains m

/-- The fields of `EcdsaOperation` (`src/ossl/ecdsa.rs:150-162`) with the key, in serial form (model only; `finalized` is a field of `Op`). -/
def ecOp (m : Nat) (key : EdKey) (o : EcdsaOp) : Op :=
  ⟨m, o.finalized, false, none, packL [packBool key.priv, key.params, key.value, packBool o.raw, packNat o.outLen, packBool o.inUse, o.data, packSig o.sig]⟩

/-- Read `ecOp` (model only). -/
def ecOf (op : Op) : Option (EdKey × EcdsaOp) :=
  match unpackL 8 op.data with
  | [pr, ps, v, raw, len, iu, dt, sg] => some (⟨pr != [], ps, v⟩, ⟨raw != [], fromLE len, op.fin, iu != [], dt, unpackSig sg⟩)
  | _ => none

/-- `EcdsaOperation::new_op` (`src/ossl/ecdsa.rs:170-204`); the attributes read are those of `edKey` (`:35-53`). -/
def ecStart (K : EcKeys) (m : Nat) (signs : Bool) (o : Obj) (given : Option Bytes) : Res Op :=
  match edKey signs o with
  | .error r => .error r
  | .ok key => match K.load m key.priv key.params key.value with
    | none => .error .deviceError
    | some (bits, _) => match EcdsaOp.new (decide (m = CKM_ECDSA)) bits given with
      | .error r => .error r
      | .ok o => .ok (ecOp m key o)

/-- Nothing is given out (model only). -/
def ecNothing (p : Res Unit × EcdsaOp) : Res Bytes × EcdsaOp :=
  match p with
  | (.error r, o) => (.error r, o)
  | (.ok (), o) => (.ok [], o)

/-- `Sign`, `Verify` and `VerifySignature` (`src/ossl/ecdsa.rs:285-349`, `:419-457`); the buffer for a signature has `signature_len` bytes (`src/fns/signing.rs:112-113`,
`:241-242`). -/
def ecRun (P : EcdsaPrims) (k : OpKind) (a : Act) (o : EcdsaOp) (i : OpIn) : Res Bytes × EcdsaOp :=
  match a with
  | .update => ecNothing (o.update i.data)
  | .oneShot => match k with
    | .sign => o.sign P i.data o.outLen
    | .verify => ecNothing (o.verify P i.data (some i.sig))
    | _ => ecNothing (o.verify P i.data none)
  | _ => match k with
    | .sign => o.signFinal P o.outLen
    | .verify => ecNothing (o.verifyFinal P (some i.sig))
    | _ => ecNothing (o.verifyFinal P none)

/-- A call on the operation object. -/
def ecDo (K : EcKeys) (k : OpKind) (a : Act) (op : Op) (i : OpIn) : Res Bytes × Op :=
  match ecOf op with
  | none => (.error .generalError, op)
  | some (key, o) => match K.load op.mech key.priv key.params key.value with
    | none => (.error .generalError, op)
    | some (_, P) => ((ecRun P k a o i).1, ecOp op.mech key (ecRun P k a o i).2)

/-- `signature_len` (`src/ossl/ecdsa.rs:346-348`, `:432-434`). -/
def ecLen (op : Op) : Res Nat :=
  match ecOf op with
  | none => .error .generalError
  | some (_, o) => .ok o.outLen

/-- The ECDSA mechanisms in the machine (`src/ec/ecdsa.rs:24-40`, `:360-410`); other mechanisms are those of `M`.  The flags of the curves are left out. -/
def withEc (M : Mechs) (K : EcKeys) : Mechs := { M with
  flags := fun m => if ecMech m then CKF_SIGN ||| CKF_VERIFY else M.flags m
  fam := fun m => if ecMech m then .ecdsa else M.fam m
  new := fun e k m q key sig => if ecMech m then
      match key with
      | some o => ecStart K m (decide (k = .sign)) o (if k = .verifySig then some sig else none)
      | none => .error .mechanismInvalid
    else M.new e k m q key sig
  len := fun k a op n => if ecMech op.mech then (ecLen op, op) else M.len k a op n
  run := fun e k a op i => if ecMech op.mech then ecDo K k a op i else M.run e k a op i }

end Kry
