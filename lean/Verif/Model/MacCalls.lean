import Verif.Model.Ops
import Verif.Model.OpState

/-!
# HMAC and digests behind the calls of a session

`src/hmac.rs`, `src/hash.rs`: the operations of `Model/Hmac.lean` and `HashOp` put into the machine of calls.  The hash functions themselves (OpenSSL) are the parameter `H`,
by hash mechanism; they never fail.  An operation is kept in `Op.data` in a serial form that belongs to the model (`packB`), the source keeps the structure.
-/

namespace Kry

/-- `HashBasedOp` (`src/hash.rs:46-66`) without key generation and derivation. -/
structure HashRow where
  hash : Nat
  kt : Nat
  mac : Nat
  general : Nat
  size : Nat
  block : Nat

/-- `HASH_MECH_SET` (`src/hash.rs:18-39`, `:74-186`). -/
def hashRows : List HashRow := [
  ⟨CKM_SHA_1, CKK_SHA_1_HMAC, CKM_SHA_1_HMAC, CKM_SHA_1_HMAC_GENERAL, 20, 64⟩,
  ⟨CKM_SHA224, CKK_SHA224_HMAC, CKM_SHA224_HMAC, CKM_SHA224_HMAC_GENERAL, 28, 64⟩,
  ⟨CKM_SHA256, CKK_SHA256_HMAC, CKM_SHA256_HMAC, CKM_SHA256_HMAC_GENERAL, 32, 64⟩,
  ⟨CKM_SHA384, CKK_SHA384_HMAC, CKM_SHA384_HMAC, CKM_SHA384_HMAC_GENERAL, 48, 128⟩,
  ⟨CKM_SHA512, CKK_SHA512_HMAC, CKM_SHA512_HMAC, CKM_SHA512_HMAC_GENERAL, 64, 128⟩,
  ⟨CKM_SHA3_224, CKK_SHA3_224_HMAC, CKM_SHA3_224_HMAC, CKM_SHA3_224_HMAC_GENERAL, 28, 144⟩,
  ⟨CKM_SHA3_256, CKK_SHA3_256_HMAC, CKM_SHA3_256_HMAC, CKM_SHA3_256_HMAC_GENERAL, 32, 136⟩,
  ⟨CKM_SHA3_384, CKK_SHA3_384_HMAC, CKM_SHA3_384_HMAC, CKM_SHA3_384_HMAC_GENERAL, 48, 104⟩,
  ⟨CKM_SHA3_512, CKK_SHA3_512_HMAC, CKM_SHA3_512_HMAC, CKM_SHA3_512_HMAC_GENERAL, 64, 72⟩,
  ⟨CKM_SHA512_224, CKK_SHA512_224_HMAC, CKM_SHA512_224_HMAC, CKM_SHA512_224_HMAC_GENERAL, 28, 128⟩,
  ⟨CKM_SHA512_256, CKK_SHA512_256_HMAC, CKM_SHA512_256_HMAC, CKM_SHA512_256_HMAC_GENERAL, 32, 128⟩]

/-- The hash of the row. -/
def HashRow.alg (H : Nat → Bytes → Bytes) (r : HashRow) : HashAlg := ⟨H r.hash, r.size, r.block⟩

/-- The row of an HMAC mechanism (`HMAC_MECHS`, `src/hmac.rs:19-54`). -/
def macRow (m : Nat) : Option HashRow := hashRows.find? fun r => r.mac == m || r.general == m

/-- The row of a digest mechanism (`register`, `src/hash.rs:209-214`). -/
def digestRow (m : Nat) : Option HashRow := hashRows.find? fun r => r.hash == m

/-- `check_and_fetch_param` (`src/hmac.rs:213-230`): `minlen` and `maxlen` are equal for the mechanism without a length (`src/hmac.rs:27-51`). -/
def macParam (r : HashRow) (m : Nat) (q : Bytes) : Res Nat :=
  if r.mac = m then if q.length ≠ 0 then .error .mechanismParamInvalid else .ok r.size
  else if q.length ≠ 8 then .error .mechanismParamInvalid
  else if fromLE q < 1 ∨ r.size < fromLE q then .error .mechanismParamInvalid else .ok (fromLE q)

/-- Serial form of bytes (model only: stands for a field of a structure in memory). -/
def packB : Bytes → Bytes
  | [] => [0]
  | b :: l => 1 :: b :: packB l

/-- Read `packB`. -/
def unpackB : Bytes → Bytes × Bytes
  | [] => ([], [])
  | [_] => ([], [])
  | x :: y :: l => if x = 1 then (y :: (unpackB l).1, (unpackB l).2) else ([], y :: l)

/-- The fields of `HMACOperation` (`src/native/hmac.rs:60-89`) in serial form (model only; `finalized` is a field of `Op`). -/
def Hmac.pack (o : Hmac) : Bytes :=
  packB o.key ++ (packB (List.replicate o.outlen 0) ++ (packB o.state ++ (packB o.ipad ++ (packB o.opad ++ (packB o.inner ++
    (packB [if o.inUse then 1 else 0] ++ packB (match o.sig with | none => [] | some s => 1 :: s)))))))

/-- Read `Hmac.pack` (model only). -/
def Hmac.unpack (a : HashAlg) (fin : Bool) (d : Bytes) : Hmac :=
  let d := unpackB d
  let key := d.1
  let d := unpackB d.2
  let outlen := d.1.length
  let d := unpackB d.2
  let st := d.1
  let d := unpackB d.2
  let ipad := d.1
  let d := unpackB d.2
  let opad := d.1
  let d := unpackB d.2
  let inner := d.1
  let d := unpackB d.2
  let flags := d.1
  let sig := (unpackB d.2).1
  ⟨a, key, outlen, st, ipad, opad, inner, fin, flags.headD 0 == 1, match sig with | [] => none | _ :: s => some s⟩

/-- The fields of `HashOperation` (`src/ossl/hash.rs:14-25`) in serial form (model only; `finalized` is a field of `Op`). -/
def HashOp.pack (o : HashOp) : Bytes := packB o.fed ++ packB [if o.inUse then 1 else 0]

/-- Read `HashOp.pack` (model only). -/
def HashOp.unpack (a : HashAlg) (fin : Bool) (d : Bytes) : HashOp :=
  let d := unpackB d
  let flags := (unpackB d.2).1
  ⟨a, d.1, fin, flags.headD 0 == 1⟩

/-- The operation object of an HMAC. -/
def macOp (m : Nat) (o : Hmac) : Op := ⟨m, o.fin, false, none, o.pack⟩

/-- The operation object of a digest. -/
def digestOp (m : Nat) (o : HashOp) : Op := ⟨m, o.fin, false, none, o.pack⟩

/-- `new_op` (`src/hmac.rs:237-266`) after the checks of `hmacCheck`; the signature is given only to C_VerifySignatureInit. -/
def macNew (a : HashAlg) (r : HashRow) (m : Nat) (q : Bytes) (key : Obj) (sig : Option Bytes) : Res Op :=
  match key.getBytes CKA_VALUE with
  | .error x => .error x
  | .ok v => match macParam r m q with
    | .error x => .error x
    | .ok n => match Hmac.new a v n sig with
      | .error x => .error x
      | .ok o => .ok (macOp m o)

/-- No output. -/
def quietly (p : Res Unit × Hmac) : Res Bytes × Hmac :=
  (match p.1 with
    | .error x => .error x
    | .ok () => .ok [], p.2)

/-- `VerifySignature::verify` (`src/native/hmac.rs:376-380`). -/
def Hmac.verifySigAll (o : Hmac) (data : Bytes) : Res Unit × Hmac :=
  match o.start with
  | .error r => (.error r, o)
  | .ok () =>
    let (r, o) := o.update data
    match r with
    | .error r => (.error r, o)
    | .ok () => o.verifySigFinal

/-- `Sign`, `Verify` and `VerifySignature` for `HMACOperation` (`src/native/hmac.rs:331-401`). -/
def hmacRun (k : OpKind) (a : Act) (o : Hmac) (i : OpIn) : Res Bytes × Hmac :=
  match a with
  | .update => quietly (o.update i.data)
  | .oneShot => match k with
    | .sign => o.mac i.data o.outlen
    | .verify => quietly (o.verify i.data i.sig)
    | .verifySig => quietly (o.verifySigAll i.data)
    | _ => (.error .mechanismInvalid, o)
  | _ => match k with
    | .sign => o.finalize o.outlen
    | .verify => quietly (o.verifyFinal i.sig)
    | .verifySig => quietly o.verifySigFinal
    | _ => (.error .mechanismInvalid, o)

/-- `Digest` for `HashOperation` (`src/ossl/hash.rs:82-130`). -/
def digestRun (k : OpKind) (a : Act) (o : HashOp) (i : OpIn) : Res Bytes × HashOp :=
  match a with
  | .update => (match (o.update i.data).1 with
    | .error x => .error x
    | .ok () => .ok [], (o.update i.data).2)
  | .oneShot => if k = .digest then o.digest i.data o.alg.hlen else (.error .mechanismInvalid, o)
  | _ => if k = .digest then o.final o.alg.hlen else (.error .mechanismInvalid, o)

/-- HMAC and digest mechanisms in the machine (`src/hmac.rs:301-371`, `src/hash.rs:190-205`, `:255-270`); the others are those of `M`. -/
def withMac (M : Mechs) (H : Nat → Bytes → Bytes) : Mechs := { M with
  flags := fun m => if (macRow m).isSome then CKF_SIGN ||| CKF_VERIFY else if (digestRow m).isSome then CKF_DIGEST else M.flags m
  fam := fun m => match macRow m with
    | some r => .hmac r.kt
    | none => if (digestRow m).isSome then .digest else M.fam m
  new := fun e k m q key sig => match macRow m with
    | some r => match key with
      | some o => macNew (r.alg H) r m q o (if k = .verifySig then some sig else none)
      | none => .error .mechanismInvalid
    | none => match digestRow m with
      | some r => .ok (digestOp m (HashOp.new (r.alg H)))
      | none => M.new e k m q key sig
  len := fun k a op n => match macRow op.mech with
    | some r => (.ok (Hmac.unpack (r.alg H) op.fin op.data).outlen, op)
    | none => match digestRow op.mech with
      | some r => (.ok r.size, op)
      | none => M.len k a op n
  run := fun e k a op i => match macRow op.mech with
    | some r => ((hmacRun k a (Hmac.unpack (r.alg H) op.fin op.data) i).1, macOp op.mech (hmacRun k a (Hmac.unpack (r.alg H) op.fin op.data) i).2)
    | none => match digestRow op.mech with
      | some r => ((digestRun k a (HashOp.unpack (r.alg H) op.fin op.data) i).1, digestOp op.mech (digestRun k a (HashOp.unpack (r.alg H) op.fin op.data) i).2)
      | none => M.run e k a op i }

end Kry
