import Verif.Model.Sp800
import Verif.Model.Derive

/-!
# Derivations that use a hash directly: CKM_*_KEY_DERIVATION (`src/hash.rs`) and the SSH key derivation (`src/native/sshkdf.rs`)

The hash behind each mechanism is an arbitrary `HashAlg` (`algs`, indexed by the hash mechanism); it never fails.  Not modelled: the clearing
of memory, NULL pointers inside the parameters.
-/

namespace Kry

/-- `HASH_MECH_SET` (`src/hash.rs:74-186`): the hashes, each with its derivation mechanism. -/
def hashDerivations : List (Nat × Nat) :=
  [(CKM_SHA_1, CKM_SHA1_KEY_DERIVATION), (CKM_SHA224, CKM_SHA224_KEY_DERIVATION), (CKM_SHA256, CKM_SHA256_KEY_DERIVATION),
   (CKM_SHA384, CKM_SHA384_KEY_DERIVATION), (CKM_SHA512, CKM_SHA512_KEY_DERIVATION), (CKM_SHA3_224, CKM_SHA3_224_KEY_DERIVATION),
   (CKM_SHA3_256, CKM_SHA3_256_KEY_DERIVATION), (CKM_SHA3_384, CKM_SHA3_384_KEY_DERIVATION), (CKM_SHA3_512, CKM_SHA3_512_KEY_DERIVATION),
   (CKM_SHA512_224, CKM_SHA512_224_KEY_DERIVATION), (CKM_SHA512_256, CKM_SHA512_256_KEY_DERIVATION)]

/-- `HashOperation` (`src/ossl/hash.rs:16-25`); `fed` is what the hasher got since its last reset. -/
structure DigestOp where
  alg : HashAlg
  fed : Bytes
  fin : Bool
  inUse : Bool

namespace DigestOp

/-- `new` (`src/ossl/hash.rs:30-41`). -/
def new (a : HashAlg) : DigestOp := ⟨a, [], false, false⟩

/-- `reset` (`src/ossl/hash.rs:62-67`). -/
def reset (o : DigestOp) : DigestOp := { o with fed := [], fin := false, inUse := false }

/-- `digest` (`src/ossl/hash.rs:83-97`) into a buffer of `n` bytes. -/
def digest (o : DigestOp) (data : Bytes) (n : Nat) : Res Bytes × DigestOp :=
  if o.inUse || o.fin then (.error .operationNotInitialized, o)
  else if n ≠ o.alg.hlen then (.error .generalError, o)
  else (.ok (o.alg.h (o.fed ++ data)), { o with fin := true, fed := o.fed ++ data })

/-- `digest_update` (`src/ossl/hash.rs:99-111`). -/
def update (o : DigestOp) (data : Bytes) : Res Unit × DigestOp :=
  if o.fin then (.error .operationNotInitialized, o)
  else (.ok (), { o with inUse := true, fed := o.fed ++ data })

/-- `digest_final` (`src/ossl/hash.rs:113-126`) into a buffer of `n` bytes. -/
def final (o : DigestOp) (n : Nat) : Res Bytes × DigestOp :=
  if o.fin then (.error .operationNotInitialized, o)
  else if n ≠ o.alg.hlen then (.error .generalError, o)
  else (.ok (o.alg.h o.fed), { o with fin := true })

/-- Several `digest_update` calls, then `digest_final`. -/
def run (o : DigestOp) : List Bytes → Nat → Res Bytes × DigestOp
  | [], n => o.final n
  | d :: l, n => match o.update d with
    | (.error r, o) => (.error r, o)
    | (.ok (), o) => o.run l n

end DigestOp

/-! ## CKM_*_KEY_DERIVATION -/

/-- `HashKDFOperation` (`src/hash.rs:304-313`). -/
structure HashKdf where
  mech : Nat
  prf : Nat
  fin : Bool

/-- `derive_operation` (`src/hash.rs:284-299`); the mechanism has no parameter to look at. -/
def HashKdf.new (mech : Nat) : Res HashKdf :=
  match hashDerivations.find? fun p => p.2 == mech with
  | some p => .ok ⟨mech, p.1, false⟩
  | none => .error .mechanismInvalid

/-- The key size (`src/hash.rs:373-389`): the template with CKA_VALUE_LEN, and the size. -/
def hashKeySize (F : Factory) (hashsize : Nat) (t : Template) : Res (Nat × Template) :=
  match Template.findA t CKA_VALUE_LEN with
  | some c => match c.toUlong with
    | .error r => .error r
    | .ok size => if size > hashsize then .error .templateInconsistent else .ok (size, t)
  | none =>
    if F.cls = CKO_SECRET_KEY ∨ F.cls = CKO_OTP_KEY then
      match recommendKeySize F hashsize with
      | .error r => .error r
      | .ok n => .ok (n, t ++ [CkAttr.ofUlong CKA_VALUE_LEN n])
    else .error .generalError

/-- `derive` (`src/hash.rs:339-405`) after the check of `finalized`; the slice `dkm[..keysize]` panics beyond the end. -/
def hashDerive (a : HashAlg) (uid : Bytes) (key : Obj) (t : Template) : Res (List Obj) :=
  match key.checkKeyOps CKO_SECRET_KEY CK_UNAVAILABLE_INFORMATION CKA_DERIVE with
  | .error r => .error r
  | .ok () =>
    let t := Template.addMissingUlong t CKA_KEY_TYPE CKK_GENERIC_SECRET
    match keyTemplateFactory t with
    | .error r => .error r
    | .ok F => match hashKeySize F a.hlen t with
      | .error r => .error r
      | .ok (n, t) => match (if keyClass F.cls then keyDerive F uid t key else .error .generalError) with
        | .error r => .error r
        | .ok o => match key.getBytes CKA_VALUE with
          | .error r => .error r
          | .ok v => match ((DigestOp.new a).digest v a.hlen).1 with
            | .error r => .error r
            | .ok dkm =>
              if F.cls = CKO_SECRET_KEY ∨ F.cls = CKO_OTP_KEY then
                if dkm.length < n then .error .panic
                else match setKey F o (dkm.take n) with
                  | .error r => .error r
                  | .ok o => .ok [o]
              else .error .generalError

/-- `derive` (`src/hash.rs:339-405`). -/
def HashKdf.derive (k : HashKdf) (algs : Nat → HashAlg) (uid : Bytes) (key : Obj) (t : Template) : Res (List Obj) × HashKdf :=
  if k.fin then (.error .operationNotInitialized, k) else (hashDerive (algs k.prf) uid key t, { k with fin := true })

/-! ## SSH -/

/-- `Vec::swap_remove` of the first entry of type `typ`. -/
def Template.swapRemove (t : Template) (typ : Nat) : Template :=
  match t.findIdx? fun c => c.typ == typ with
  | none => t
  | some i => match t.getLast? with
    | none => t
    | some l => (t.set i l).dropLast

/-- `common_derive_data_object` (`src/misc.rs:104-128`); `dl` is the default length. -/
def commonDeriveData (dl : Nat) (O : Oracle) (uid : Bytes) (t : Template) : Res (Obj × Nat) :=
  let t := Template.addMissingUlong t CKA_CLASS CKO_DATA
  let len : Res Nat := match Template.findA t CKA_VALUE_LEN with
    | none => if dl = 0 then .error .templateIncomplete else .ok dl
    | some c => c.toUlong
  match len with
  | .error r => .error r
  | .ok n => match getFactory CKO_DATA 0 with
    | .error _ => .error .generalError
    | .ok F => match F.create O uid (t.swapRemove CKA_VALUE_LEN) with
      | .error r => .error r
      | .ok o => .ok (o, n)

/-- `common_derive_key_object` (`src/misc.rs:140-165`); `dl` is the default length. -/
def commonDeriveKey (dl : Nat) (uid : Bytes) (key : Obj) (t : Template) : Res (Obj × Nat) :=
  match deriveKeyFromTemplate uid key (Template.addMissingUlong t CKA_CLASS CKO_SECRET_KEY) with
  | .error r => .error r
  | .ok o => match o.getUlong CKA_VALUE_LEN with
    | .error _ => if dl = 0 then .error .templateIncomplete else .ok (o.put (Attr.ofUlong CKA_VALUE_LEN dl), dl)
    | .ok n => .ok (o, n)

/-- `SSHKDFOperation` (`src/native/sshkdf.rs:21-36`). -/
structure SshKdf where
  mech : Nat
  fin : Bool
  prf : Nat
  keyType : UInt8
  hash : Bytes
  sid : Bytes
  isData : Bool

/-- `new` (`src/native/sshkdf.rs:43-75`). -/
def SshKdf.new (mech prf : Nat) (keyType : UInt8) (hash sid : Bytes) : Res SshKdf :=
  if (AMap.get hashDerivations prf).isNone then .error .mechanismParamInvalid
  else if keyType = 0x41 ∨ keyType = 0x42 then .ok ⟨mech, false, prf, keyType, hash, sid, true⟩
  else if keyType = 0x43 ∨ keyType = 0x44 ∨ keyType = 0x45 ∨ keyType = 0x46 then .ok ⟨mech, false, prf, keyType, hash, sid, false⟩
  else .error .mechanismParamInvalid

/-- The loop over the segments (`src/native/sshkdf.rs:132-154`); `dkm` is what has been written. -/
def sshLoop (k : SshKdf) (keyval : Bytes) (n segment : Nat) : Nat → Nat → DigestOp → Bytes → Res Bytes
  | 0, _, _, dkm => .ok dkm
  | todo + 1, ctr, op, dkm =>
    let len := if dkm.length + segment > n then n - dkm.length else segment
    let op := if ctr ≠ 0 then op.reset else op
    match op.run (if ctr = 0 then [keyval, k.hash, [k.keyType], k.sid] else [keyval, k.hash, dkm]) segment with
    | (.error r, _) => .error r
    | (.ok b, op) => sshLoop k keyval n segment todo (ctr + 1) op (dkm ++ b.take len)

/-- `derive` (`src/native/sshkdf.rs:94-158`) after the check of `finalized`. -/
def sshDerive (k : SshKdf) (a : HashAlg) (O : Oracle) (uid : Bytes) (key : Obj) (t : Template) : Res (List Obj) :=
  match key.checkKeyOps CKO_SECRET_KEY CKK_GENERIC_SECRET CKA_DERIVE with
  | .error r => .error r
  | .ok () => match (if k.isData then commonDeriveData 0 O uid t else commonDeriveKey 0 uid key t) with
    | .error r => .error r
    | .ok (o, n) =>
      if n = 0 ∨ n > 2 ^ 32 - 1 then .error .templateInconsistent
      else match key.getBytes CKA_VALUE with
        | .error r => .error r
        | .ok v =>
          if a.hlen = 0 then .error .panic
          else match sshLoop k v n a.hlen ((n + a.hlen - 1) / a.hlen) 0 (DigestOp.new a) [] with
            | .error r => .error r
            | .ok dkm => .ok [o.put (Attr.ofBytes CKA_VALUE dkm)]

/-- `derive` (`src/native/sshkdf.rs:94-158`). -/
def SshKdf.derive (k : SshKdf) (algs : Nat → HashAlg) (O : Oracle) (uid : Bytes) (key : Obj) (t : Template) : Res (List Obj) × SshKdf :=
  if k.fin then (.error .operationNotInitialized, k) else (sshDerive k (algs k.prf) O uid key t, { k with fin := true })

end Kry
