import Verif.Model.Sp800
import Verif.Model.Derive

/-!
# PBKDF2 (`src/pbkdf2.rs`, `src/native/pbkdf2.rs`)

The hash behind each HMAC mechanism is an arbitrary `HashAlg` (`algs`, indexed by the HMAC mechanism).  Not modelled: the clearing of memory;
`mechanisms.get` of the HMAC mechanism always succeeds.
-/

namespace Kry

/-- The choice of the HMAC mechanism (`src/pbkdf2.rs:99-109`). -/
def pbkdf2Prfs : List (Nat × Nat) :=
  [(CKP_PKCS5_PBKD2_HMAC_SHA1, CKM_SHA_1_HMAC), (CKP_PKCS5_PBKD2_HMAC_SHA224, CKM_SHA224_HMAC), (CKP_PKCS5_PBKD2_HMAC_SHA256, CKM_SHA256_HMAC),
   (CKP_PKCS5_PBKD2_HMAC_SHA384, CKM_SHA384_HMAC), (CKP_PKCS5_PBKD2_HMAC_SHA512, CKM_SHA512_HMAC),
   (CKP_PKCS5_PBKD2_HMAC_SHA512_224, CKM_SHA512_224_HMAC), (CKP_PKCS5_PBKD2_HMAC_SHA512_256, CKM_SHA512_256_HMAC)]

/-- `mock_password_object` (`src/pbkdf2.rs:51-62`). -/
def passwordObj (pass : Bytes) : Obj :=
  ((((Obj.new CKO_SECRET_KEY).put (Attr.ofUlong CKA_KEY_TYPE CKK_GENERIC_SECRET)).put (Attr.ofUlong CKA_VALUE_LEN pass.length)).put
    (Attr.ofBytes CKA_VALUE pass)).setBool CKA_DERIVE true

/-- `prf_fn` (`src/native/pbkdf2.rs:18-35`) into a buffer of `n` bytes. -/
def pbkdf2Prf (algs : Nat → HashAlg) (prf : Nat) (pass : Obj) (i : Bytes) (n : Nat) : Res Bytes :=
  match hmacNew (algs prf) ((AMap.get prfKeyTypes prf).getD CKK_GENERIC_SECRET) pass with
  | .error r => .error r
  | .ok (.hmac o) => (o.mac i n).1
  | .ok (.other ..) => .error .generalError

/-- The loop over the iterations (`src/native/pbkdf2.rs:68-75`): `todo` iterations left, `uIn` and `tI` the buffers. -/
def pbkdf2Rounds (f : Bytes → Res Bytes) : Nat → Bytes → Bytes → Res Bytes
  | 0, _, tI => .ok tI
  | todo + 1, uIn, tI => match f uIn with
    | .error r => .error r
    | .ok u => pbkdf2Rounds f todo u (List.zipWith (· ^^^ ·) tI u)

/-- The loop over the blocks (`src/native/pbkdf2.rs:61-83`): `todo` blocks left, `b` the number of the block, `dkm` what was written. -/
def pbkdf2Blocks (f : Bytes → Res Bytes) (salt : Bytes) (iter dklen hlen : Nat) : Nat → Nat → Bytes → Res Bytes
  | 0, _, dkm => .ok dkm
  | todo + 1, b, dkm =>
    if b + 1 ≥ 2 ^ 32 then .error .generalError
    else match pbkdf2Rounds f iter (salt ++ toBE 4 (b + 1)) (List.replicate hlen 0) with
      | .error r => .error r
      | .ok t => pbkdf2Blocks f salt iter dklen hlen todo (b + 1) (dkm ++ t.take (min (dklen - b * hlen) hlen))

/-- `pbkdf2_derive` (`src/native/pbkdf2.rs:38-86`); a hash without output is not registered (division by zero). -/
def pbkdf2Derive (algs : Nat → HashAlg) (prf : Nat) (pass : Obj) (salt : Bytes) (iter dklen : Nat) : Res Bytes :=
  let hlen := (algs prf).hlen
  if hlen = 0 then .error .panic
  else if dklen / hlen > 2 ^ 32 - 1 then .error .keySizeRange
  else pbkdf2Blocks (fun i => pbkdf2Prf algs prf pass i hlen) salt iter dklen hlen ((dklen + hlen - 1) / hlen) 0 []

/-- CK_PKCS5_PBKD2_PARAMS2; `prfData` says that the PRF data pointer or length is not zero. -/
structure Pbkdf2Params where
  saltSource : Nat
  salt : Bytes
  iterations : Nat
  prf : Nat
  prfData : Bool
  password : Bytes

/-- The key length (`src/pbkdf2.rs:134-146`). -/
def pbkdf2KeyLen (F : Factory) (max : Nat) (t : Template) : Res Nat :=
  match Template.findA t CKA_VALUE_LEN with
  | some c => c.toUlong
  | none =>
    if F.cls = CKO_SECRET_KEY ∨ F.cls = CKO_OTP_KEY then
      match recommendKeySize F max with
      | .ok n => .ok n
      | .error _ => .error .templateInconsistent
    else .error .generalError

/-- `generate_key` (`src/pbkdf2.rs:77-157`). -/
def pbkdf2Generate (algs : Nat → HashAlg) (O : Oracle) (uid : Bytes) (mech : Nat) (p : Pbkdf2Params) (t : Template) : Res Obj :=
  if mech ≠ CKM_PKCS5_PBKD2 then .error .mechanismInvalid
  else if p.prfData then .error .mechanismParamInvalid
  else match AMap.get pbkdf2Prfs p.prf with
    | none => .error .mechanismParamInvalid
    | some prf =>
      if p.saltSource ≠ CKZ_SALT_SPECIFIED ∨ p.salt = [] then .error .mechanismParamInvalid
      else match keyTemplateFactory t with
        | .error r => .error r
        | .ok F => match pbkdf2KeyLen F (algs prf).hlen t with
          | .error r => .error r
          | .ok n => match pbkdf2Derive algs prf (passwordObj p.password) p.salt p.iterations n with
            | .error r => .error r
            | .ok dkm => match F.create O uid (t ++ [CkAttr.mk' CKA_VALUE dkm]) with
              | .error r => .error r
              | .ok o => .ok (defaultKeyAttributes o mech)

end Kry
