import Verif.Model.AesCalls
import Verif.Model.AesMac

/-!
# AES-MAC and CMAC behind the calls of a session

`src/ossl/aes.rs:2405-2995`, `src/aes.rs:420-535`: the operation of `Model/AesMac.lean` and that of CMAC put into the machine of calls.  AES is the parameter `L` by key value,
OpenSSL's CMAC the parameter `K`; neither fails.  An operation is kept in `Op.data` in a serial form that belongs to the model (`packL`), the source keeps the structure.
-/

namespace Kry

/-- OpenSSL's CMAC (`OsslMac`, `src/ossl/aes.rs:2469-2482`) by key value and message: 16 bytes, and it does not matter how the message is cut. -/
structure CmacLib where
  mac : Bytes → Bytes → Bytes
  mac_len : ∀ k d, (mac k d).length = 16

/-- `AesCmacOperation` (`src/ossl/aes.rs:2408-2430`); `fed` stands for the context, the signature is kept beside it. -/
structure CmacOp where
  finalized : Bool
  inUse : Bool
  maclen : Nat
  fed : Bytes
deriving DecidableEq, Repr

namespace CmacOp

/-- `update` (`src/ossl/aes.rs:2513-2530`). -/
def update (o : CmacOp) (data : Bytes) : Res Unit × CmacOp :=
  if o.finalized then (.error .operationNotInitialized, o) else (.ok (), { o with inUse := true, fed := o.fed ++ data })

/-- `finalize` (`src/ossl/aes.rs:2534-2559`); the buffer has `maclen` bytes. -/
def finalize (K : CmacLib) (key : Bytes) (o : CmacOp) : Res Bytes × CmacOp :=
  if o.finalized then (.error .operationNotInitialized, o)
  else if (K.mac key o.fed).length ≠ 16 then (.error .generalError, { o with inUse := true, finalized := true })
  else (.ok ((K.mac key o.fed).take o.maclen), { o with inUse := true, finalized := true })

/-- `begin` and, if there are data, `update` (`src/ossl/aes.rs:2505-2510`, `:2631-2635`). -/
def start (o : CmacOp) (data : Bytes) : Res Unit × CmacOp :=
  if o.inUse then (.error .operationNotInitialized, o)
  else if 0 < data.length then o.update data
  else (.ok (), o)

end CmacOp

/-- The comparison in `finalize_ver` (`src/ossl/aes.rs:2579-2595`, `:2899-2914`). -/
def verdict (given : Option Bytes) (computed : Bytes) : Res Bytes :=
  match given with
  | none => .error .generalError
  | some s => if computed ≠ s then .error .signatureInvalid else .ok []

/-- The end of a signature, or of a verification (`finalize`, `finalize_ver`, `src/ossl/aes.rs:2620-2700`, `:2934-2995`). -/
def macEnd {α : Type} (k : OpKind) (given : Option Bytes) (i : OpIn) (p : Res Bytes × α) : Res Bytes × α :=
  match p with
  | (.error r, o) => (.error r, o)
  | (.ok c, o) => match k with
    | .sign => (.ok c, o)
    | .verify => (verdict (some i.sig) c, o)
    | _ => (verdict given c, o)

/-- After a step. -/
def macThen {α : Type} (p : Res Unit × α) (f : α → Res Bytes × α) : Res Bytes × α :=
  match p with
  | (.error r, o) => (.error r, o)
  | (.ok (), o) => f o

/-- `Sign`, `Verify` and `VerifySignature` for `AesMacOperation` (`src/ossl/aes.rs:2934-2995`). -/
def aesMacRun (L : AesLib) (k : OpKind) (a : Act) (given : Option Bytes) (o : AesMacOp) (i : OpIn) : Res Bytes × AesMacOp :=
  match a with
  | .update => macThen (o.update L i.data) fun o => (.ok [], o)
  | .oneShot => macThen (macBegin L o i.data) fun o => macEnd k given i (o.finalize L)
  | _ => macEnd k given i (o.finalize L)

/-- `Sign`, `Verify` and `VerifySignature` for `AesCmacOperation` (`src/ossl/aes.rs:2628-2700`). -/
def cmacRun (K : CmacLib) (key : Bytes) (k : OpKind) (a : Act) (given : Option Bytes) (o : CmacOp) (i : OpIn) : Res Bytes × CmacOp :=
  match a with
  | .update => macThen (o.update i.data) fun o => (.ok [], o)
  | .oneShot => macThen (o.start i.data) fun o => macEnd k given i (o.finalize K key)
  | _ => macEnd k given i (o.finalize K key)

/-- The mechanisms (`src/ossl/aes.rs:2434-2441`, `:2743-2747`): CMAC or MAC, with a length or without. -/
structure AesSig where
  cmac : Bool
  general : Bool
deriving DecidableEq, Repr

/-- The mechanism of a number (`src/aes.rs:438-447`). -/
def aesSig (m : Nat) : Option AesSig :=
  if m = CKM_AES_MAC then some ⟨false, false⟩
  else if m = CKM_AES_MAC_GENERAL then some ⟨false, true⟩
  else if m = CKM_AES_CMAC then some ⟨true, false⟩
  else if m = CKM_AES_CMAC_GENERAL then some ⟨true, true⟩
  else none

/-- The parameter (`src/ossl/aes.rs:2449-2466`, `:2756-2774`; size: `get_parameters`, `src/pkcs11/mod.rs:1016-1024`). -/
def sigParam (s : AesSig) (q : Bytes) : Res AesMacMech :=
  if s.general then if q.length ≠ 8 then .error .argumentsBad else .ok (.general (fromLE q))
  else if q.length ≠ 0 then .error .argumentsBad else .ok .mac

/-- `AesCmacOperation::init` (`src/ossl/aes.rs:2449-2466`) without the key. -/
def cmacNew (m : AesMacMech) : Res CmacOp :=
  match m with
  | .general n => if n > 16 then .error .mechanismParamInvalid else .ok ⟨false, false, n, []⟩
  | .mac => .ok ⟨false, false, 16, []⟩

/-- A signature in serial form (model only). -/
def packSig : Option Bytes → Bytes
  | none => []
  | some s => 1 :: s

/-- Read `packSig` (model only). -/
def unpackSig : Bytes → Option Bytes
  | [] => none
  | _ :: s => some s

/-- The fields of `AesMacOperation` (`src/ossl/aes.rs:2708-2732`) with the key, in serial form (model only; `finalized` is a field of `Op`). -/
def aesMacOp (m : Nat) (key : Bytes) (given : Option Bytes) (o : AesMacOp) : Op :=
  ⟨m, o.finalized, false, none, packL (packSig given :: packBool o.inUse :: o.pad :: o.macbuf :: packNat o.maclen :: packBool o.op.finalized :: o.op.fields key)⟩

/-- Read `aesMacOp` (model only). -/
def aesMacOf (op : Op) : Option (Bytes × Option Bytes × AesMacOp) :=
  match unpackL 25 op.data with
  | sg :: iu :: pad :: buf :: ml :: f :: l => match AesOp.read (f != []) l with
    | some (key, o) => some (key, unpackSig sg, ⟨op.fin, iu != [], pad, buf, fromLE ml, o⟩)
    | none => none
  | _ => none

/-- The fields of `AesCmacOperation` (`src/ossl/aes.rs:2408-2430`) with the key, in serial form (model only; `finalized` is a field of `Op`). -/
def cmacOp (m : Nat) (key : Bytes) (given : Option Bytes) (o : CmacOp) : Op :=
  ⟨m, o.finalized, false, none, packL [packSig given, key, packBool o.inUse, packNat o.maclen, o.fed]⟩

/-- Read `cmacOp` (model only). -/
def cmacOf (op : Op) : Option (Bytes × Option Bytes × CmacOp) :=
  match unpackL 5 op.data with
  | [sg, key, iu, ml, fed] => some (key, unpackSig sg, ⟨op.fin, iu != [], fromLE ml, fed⟩)
  | _ => none

/-- The signature given at the start has the length of the MAC (`src/ossl/aes.rs:2493-2500`, `:2792-2799`). -/
def givenOk (given : Option Bytes) (maclen : Nat) : Bool :=
  match given with
  | none => true
  | some s => s.length == maclen

/-- `init` with the key read from the object (`src/ossl/aes.rs:2444-2502`, `:2750-2802`). -/
def aesSigStart (s : AesSig) (m : Nat) (q : Bytes) (key : Obj) (given : Option Bytes) : Res Op :=
  match sigParam s q with
  | .error r => .error r
  | .ok mm =>
    if s.cmac then match cmacNew mm with
      | .error r => .error r
      | .ok o => match key.getBytes CKA_VALUE with
        | .error r => .error r
        | .ok v => if v.length = 16 ∨ v.length = 24 ∨ v.length = 32 then
            if givenOk given o.maclen then .ok (cmacOp m v given o) else .error .signatureLenRange
          else .error .keyIndigestible
    else match aesMacNew mm with
      | .error r => .error r
      | .ok o => match key.getBytes CKA_VALUE with
        | .error r => .error r
        | .ok v => if v.length = 16 ∨ v.length = 24 ∨ v.length = 32 then
            if givenOk given o.maclen then .ok (aesMacOp m v given o) else .error .signatureLenRange
          else .error .keySizeRange

/-- A call on the operation object. -/
def aesSigDo (L : Bytes → AesLib) (K : CmacLib) (s : AesSig) (k : OpKind) (a : Act) (op : Op) (i : OpIn) : Res Bytes × Op :=
  if s.cmac then match cmacOf op with
    | none => (.error .generalError, op)
    | some (key, given, o) => ((cmacRun K key k a given o i).1, cmacOp op.mech key given (cmacRun K key k a given o i).2)
  else match aesMacOf op with
    | none => (.error .generalError, op)
    | some (key, given, o) => ((aesMacRun (L key) k a given o i).1, aesMacOp op.mech key given (aesMacRun (L key) k a given o i).2)

/-- `signature_len` (`src/ossl/aes.rs:2646-2648`, `:2949-2951`). -/
def aesSigLen (s : AesSig) (op : Op) : Res Nat :=
  if s.cmac then match cmacOf op with
    | none => .error .generalError
    | some (_, _, o) => .ok o.maclen
  else match aesMacOf op with
    | none => .error .generalError
    | some (_, _, o) => .ok o.maclen

/-- AES-MAC and CMAC in the machine (`src/aes.rs:420-520`, flags `:48`); other mechanisms are those of `M`. -/
def withAesMac (M : Mechs) (L : Bytes → AesLib) (K : CmacLib) : Mechs := { M with
  flags := fun m => if (aesSig m).isSome then CKF_SIGN ||| CKF_VERIFY else M.flags m
  fam := fun m => if (aesSig m).isSome then .aes else M.fam m
  new := fun e k m q key sig => match aesSig m with
    | some s => match key with
      | some o => aesSigStart s m q o (if k = .verifySig then some sig else none)
      | none => .error .mechanismInvalid
    | none => M.new e k m q key sig
  len := fun k a op n => match aesSig op.mech with
    | some s => (aesSigLen s op, op)
    | none => M.len k a op n
  run := fun e k a op i => match aesSig op.mech with
    | some s => aesSigDo L K s k a op i
    | none => M.run e k a op i }

end Kry
