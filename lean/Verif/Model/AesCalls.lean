import Verif.Model.MacCalls
import Verif.Model.Aes

/-!
# AES behind the calls of a session

`src/aes.rs`, `src/ossl/aes.rs`: the operations of `Model/Aes.lean` put into the machine of calls, for C_Encrypt* and C_Decrypt*.  What AES computes with a key is the
parameter `L`, by key bytes; what the pointers in the structures of CKM_AES_GCM and CKM_AES_CCM point to is the parameter `mem`.  The message calls and key wrapping with these
mechanisms are left to the given mechanisms `M`.
-/

namespace Kry

/-- The modelled mechanisms by their numbers (`register_mechanisms`, `src/ossl/aes.rs:175-203`). -/
def aesTable : List (Nat × AesMech) :=
  [(CKM_AES_ECB, .ecb), (CKM_AES_CBC, .cbc), (CKM_AES_CBC_PAD, .cbcPad), (CKM_AES_CTR, .ctr), (CKM_AES_CTS, .cts), (CKM_AES_GCM, .gcm), (CKM_AES_CCM, .ccm)]

/-- The mechanism of a number (`src/ossl/aes.rs:175-203`). -/
def aesMech (m : Nat) : Option AesMech := (aesTable.find? fun x => x.1 == m).map (·.2)

/-- Flags (`AES_MECHS`, `src/aes.rs:32-52`; `src/ossl/aes.rs:175-190`). -/
def aesFlags : AesMech → Nat
  | .gcm | .ccm => CKF_ENCRYPT ||| CKF_DECRYPT ||| CKF_WRAP ||| CKF_UNWRAP ||| CKF_MESSAGE_ENCRYPT ||| CKF_MESSAGE_DECRYPT ||| CKF_MULTI_MESSAGE
  | _ => CKF_ENCRYPT ||| CKF_DECRYPT ||| CKF_WRAP ||| CKF_UNWRAP

/-- The mechanism parameter as `init_params` reads it (`src/ossl/aes.rs:208-430`): an IV, CK_AES_CTR_PARAMS (a CK_ULONG and 16 bytes; another size is refused by
`get_parameters`, `src/pkcs11/mod.rs:1016-1024`), or a structure with pointers. -/
def aesParamOf (mem : Bytes → AesParam) (mm : AesMech) (q : Bytes) : Res AesParam :=
  match mm with
  | .ecb => .ok .none
  | .cbc | .cbcPad | .cts => .ok (.iv q)
  | .ctr => if q.length ≠ 24 then .error .argumentsBad else .ok (.ctr (fromLE (q.take 8)) (q.drop 8))
  | .gcm | .ccm => .ok (mem q)

/-- Little-endian digits of a number (model only: serial form). -/
def natDigits : Nat → Nat → Bytes
  | 0, _ => []
  | f + 1, n => if n = 0 then [] else UInt8.ofNat (n % 256) :: natDigits f (n / 256)

/-- A number in serial form (model only). -/
def packNat (n : Nat) : Bytes := natDigits (n.log2 + 1) n

/-- A truth value in serial form (model only). -/
def packBool (b : Bool) : Bytes := if b then [1] else []

/-- A mechanism in serial form (model only). -/
def packMech : AesMech → Bytes
  | .ecb => [] | .cbc => [1] | .cbcPad => [2] | .ctr => [3] | .cts => [4] | .gcm => [5] | .ccm => [6]

/-- Read `packMech` (model only). -/
def unpackMech : Bytes → AesMech
  | [1] => .cbc | [2] => .cbcPad | [3] => .ctr | [4] => .cts | [5] => .gcm | [6] => .ccm | _ => .ecb

/-- Several fields in serial form (model only). -/
def packL : List Bytes → Bytes
  | [] => []
  | b :: l => packB b ++ packL l

/-- Read `packL` (model only). -/
def unpackL : Nat → Bytes → List Bytes
  | 0, _ => []
  | n + 1, d => (unpackB d).1 :: unpackL n (unpackB d).2

/-- The fields of `AesOperation` (`src/ossl/aes.rs:143-165`) with the key, in serial form (model only; `finalized` is a field of `Op`). -/
def AesOp.fields (key : Bytes) (o : AesOp) : List Bytes :=
  [key, packMech o.mech, o.params.iv, packNat o.params.maxblocks, packNat o.params.datalen, o.params.aad, packNat o.params.taglen, packBool o.inUse,
   packMech o.ctx.mech, packBool o.ctx.enc, o.ctx.chain, o.ctx.held, packNat o.ctx.pos, o.ctx.seen, o.ctx.aad, packNat o.ctx.taglen, o.ctx.tag, o.buffer, packNat o.blockctr]

/-- Read `AesOp.fields` (model only). -/
def AesOp.read (fin : Bool) : List Bytes → Option (Bytes × AesOp)
  | [key, m, iv, mb, dl, ad, tl, iu, cm, ce, ch, hd, ps, se, ca, ct, tg, bu, bc] =>
    some (key, ⟨unpackMech m, ⟨iv, fromLE mb, fromLE dl, ad, fromLE tl⟩, fin, iu != [], ⟨unpackMech cm, ce != [], ch, hd, fromLE ps, se, ca, fromLE ct, tg⟩, bu, fromLE bc⟩)
  | _ => none

/-- The operation object. -/
def aesOp (m : Nat) (key : Bytes) (o : AesOp) : Op := ⟨m, o.finalized, false, none, packL (o.fields key)⟩

/-- The operation in an operation object. -/
def aesOf (op : Op) : Option (Bytes × AesOp) := AesOp.read op.fin (unpackL 19 op.data)

/-- `encrypt_new` and `decrypt_new` with the key read from the object (`src/ossl/aes.rs:594-669`, `object_to_raw_key` `:56-60`, `check_key_len` `src/aes.rs:76-81`). -/
def aesStart (mem : Bytes → AesParam) (mm : AesMech) (m : Nat) (q : Bytes) (enc : Bool) (key : Obj) : Res Op :=
  match aesParamOf mem mm q with
  | .error r => .error r
  | .ok p => match aesNew mm p enc with
    | .error r => .error r
    | .ok o => match key.getBytes CKA_VALUE with
      | .error r => .error r
      | .ok v => if v.length = 16 ∨ v.length = 24 ∨ v.length = 32 then .ok (aesOp m v o) else .error .keySizeRange

/-- The call of the application (`src/fns/encryption.rs:67-300`, `:344-577`). -/
def aesCallOf (a : Act) (d : Bytes) (room : Option Nat) : AesCall :=
  match a with
  | .update => .update d room
  | .oneShot => .oneShot d room
  | _ => .final room

/-- Output bytes of a call. -/
def AesOut.bytes : AesOut → Bytes
  | .data b => b
  | .len _ => []

/-- Length answered by a call. -/
def AesOut.size : AesOut → Nat
  | .data _ => 0
  | .len n => n

/-- A call on the operation object; whether it is `Encryption` or `Decryption` was settled when it was made (`src/ossl/aes.rs:619`, `:657`). -/
def aesDo (L : Bytes → AesLib) (op : Op) (c : AesCall) : Res AesOut × Op :=
  match aesOf op with
  | none => (.error .generalError, op)
  | some (key, o) => ((aesCall (L key) o c).1, aesOp op.mech key (aesCall (L key) o c).2)

/-- AES in the machine (`src/aes.rs:262-300`); other mechanisms, and what else can be done with these, are those of `M`. -/
def withAes (M : Mechs) (L : Bytes → AesLib) (mem : Bytes → AesParam) : Mechs := { M with
  flags := fun m => match aesMech m with
    | some mm => aesFlags mm
    | none => M.flags m
  fam := fun m => if (aesMech m).isSome then .aes else M.fam m
  new := fun e k m q key sig => match aesMech m with
    | some mm => if k = .enc ∨ k = .dec then
        match key with
        | some o => aesStart mem mm m q (decide (k = .enc)) o
        | none => .error .mechanismInvalid
      else M.new e k m q key sig
    | none => M.new e k m q key sig
  len := fun k a op n => if (aesMech op.mech).isSome ∧ (k = .enc ∨ k = .dec) then
      ((aesDo L op (aesCallOf a (List.replicate n 0) none)).1.map AesOut.size, (aesDo L op (aesCallOf a (List.replicate n 0) none)).2)
    else M.len k a op n
  run := fun e k a op i => if (aesMech op.mech).isSome ∧ (k = .enc ∨ k = .dec) then
      ((aesDo L op (aesCallOf a i.data (some (i.out.getD 0)))).1.map AesOut.bytes, (aesDo L op (aesCallOf a i.data (some (i.out.getD 0)))).2)
    else M.run e k a op i }

end Kry
