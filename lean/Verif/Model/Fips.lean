import Verif.Model.Object

/-!
# The FIPS indicators

The code of the `fips` feature that decides whether an operation is reported as approved:
`src/fips/indicators.rs` (tables and key checks), `src/fips/mod.rs` (`FipsApproval`),
`src/session.rs` (the indicator of a session) and the calls of `src/fns/` that move it.  The rest of
the model describes the build without this feature; the indicator does not change what a call
returns, so it is modelled on its own.
-/

namespace Kry

/-- `KRF_FIPS` (`src/fips/indicators.rs:23`). -/
abbrev KRF_FIPS : Nat := 1

/-! ### The tables -/

/-- Bits to bytes (`btb!`, `src/fips/indicators.rs:173-177`). -/
def btb (n : Nat) : Nat := (n + 7) / 8

/-- `([usize; 4], (usize, usize))`: discrete sizes and a range.  The zeros that fill the array up are
left out; `size_check` skips them. -/
structure FipsSizes where
  steps : List Nat
  min : Nat
  max : Nat
deriving DecidableEq, Repr

/-- `step_and_range!()` (`src/fips/indicators.rs:204-206`). -/
def noSizes : FipsSizes := ⟨[], 0, 0⟩

/-- `FipsKeyType` (`src/fips/indicators.rs:254-261`). -/
structure FipsKeyType where
  keytype : Nat
  operations : Nat
  sizes : FipsSizes

/-- `FipsMechanism` (`src/fips/indicators.rs:264-282`). -/
structure FipsMechanism where
  mechanism : Nat
  operations : Nat
  restrictions : List (Nat × FipsSizes)
  genflags : Nat

/-- `FIPS_CHECKS.keys` (`src/fips/indicators.rs:293-389`). -/
def fipsKeys : List FipsKeyType := [
  ⟨CKK_RSA, CKF_SIGN ||| CKF_VERIFY ||| CKF_ENCRYPT ||| CKF_DECRYPT ||| CKF_WRAP ||| CKF_UNWRAP, ⟨[], btb 2048, btb 16384⟩⟩ /- :294 -/,
  ⟨CKK_RSA, CKF_VERIFY ||| CKF_DECRYPT ||| CKF_UNWRAP, ⟨[btb 1024, btb 1280, btb 1536, btb 1792], 0, 0⟩⟩ /- :305 -/,
  ⟨CKK_EC, CKF_SIGN ||| CKF_VERIFY ||| CKF_DERIVE, ⟨[btb 256, btb 384, btb 521], 0, 0⟩⟩ /- :310 -/,
  ⟨CKK_AES, CKF_SIGN ||| CKF_VERIFY ||| CKF_ENCRYPT ||| CKF_DECRYPT ||| CKF_WRAP ||| CKF_UNWRAP, ⟨[btb 128, btb 192, btb 256], 0, 0⟩⟩ /- :315 -/,
  ⟨CKK_GENERIC_SECRET, CKF_SIGN ||| CKF_VERIFY ||| CKF_DERIVE, ⟨[], btb 112, btb (255 * 64 * 8)⟩⟩ /- :325 -/,
  ⟨CKK_SHA224_HMAC, CKF_SIGN ||| CKF_VERIFY ||| CKF_DERIVE, ⟨[btb 224], 0, 0⟩⟩ /- :330 -/,
  ⟨CKK_SHA256_HMAC, CKF_SIGN ||| CKF_VERIFY ||| CKF_DERIVE, ⟨[btb 256], 0, 0⟩⟩ /- :335 -/,
  ⟨CKK_SHA384_HMAC, CKF_SIGN ||| CKF_VERIFY ||| CKF_DERIVE, ⟨[btb 384], 0, 0⟩⟩ /- :340 -/,
  ⟨CKK_SHA512_HMAC, CKF_SIGN ||| CKF_VERIFY ||| CKF_DERIVE, ⟨[btb 512], 0, 0⟩⟩ /- :345 -/,
  ⟨CKK_SHA3_224_HMAC, CKF_SIGN ||| CKF_VERIFY ||| CKF_DERIVE, ⟨[btb 224], 0, 0⟩⟩ /- :350 -/,
  ⟨CKK_SHA3_256_HMAC, CKF_SIGN ||| CKF_VERIFY ||| CKF_DERIVE, ⟨[btb 256], 0, 0⟩⟩ /- :355 -/,
  ⟨CKK_SHA3_384_HMAC, CKF_SIGN ||| CKF_VERIFY ||| CKF_DERIVE, ⟨[btb 384], 0, 0⟩⟩ /- :360 -/,
  ⟨CKK_SHA3_512_HMAC, CKF_SIGN ||| CKF_VERIFY ||| CKF_DERIVE, ⟨[btb 512], 0, 0⟩⟩ /- :365 -/,
  ⟨CKK_EC_EDWARDS, CKF_SIGN ||| CKF_VERIFY, ⟨[btb 255, btb 448], 0, 0⟩⟩ /- :370 -/,
  ⟨CKK_HKDF, CKF_DERIVE, ⟨[], btb 112, btb 512⟩⟩ /- :375 -/,
  ⟨CKK_ML_KEM, CKF_ENCAPSULATE ||| CKF_DECAPSULATE, ⟨[btb 1632, btb 2400, btb 3168], 0, 0⟩⟩ /- :380 -/,
  ⟨CKK_ML_DSA, CKF_SIGN ||| CKF_VERIFY, ⟨[btb 2560, btb 4032, btb 4896], 0, 0⟩⟩ /- :385 -/]

/-- `FIPS_CHECKS.mechs` (`src/fips/indicators.rs:390-1156`). -/
def fipsMechs : List FipsMechanism := [
  ⟨CKM_RSA_PKCS_KEY_PAIR_GEN, CKF_GENERATE_KEY_PAIR,
   [(CKK_RSA, ⟨[], btb 2048, btb 16384⟩), (KRY_UNSPEC, noSizes)], CKF_SIGN ||| CKF_VERIFY ||| CKF_ENCRYPT ||| CKF_DECRYPT ||| CKF_WRAP ||| CKF_UNWRAP⟩ /- :393 -/,
  ⟨CKM_RSA_PKCS_OAEP, CKF_ENCRYPT ||| CKF_DECRYPT,
   [(CKK_RSA, ⟨[], btb 2048, btb 16384⟩), (KRY_UNSPEC, noSizes)], 0⟩ /- :407 -/,
  ⟨CKM_SHA1_RSA_PKCS, CKF_VERIFY,
   [(CKK_RSA, noSizes), (KRY_UNSPEC, noSizes)], 0⟩ /- :416 -/,
  ⟨CKM_SHA224_RSA_PKCS, CKF_SIGN ||| CKF_VERIFY,
   [(CKK_RSA, noSizes), (KRY_UNSPEC, noSizes)], 0⟩ /- :422 -/,
  ⟨CKM_SHA256_RSA_PKCS, CKF_SIGN ||| CKF_VERIFY,
   [(CKK_RSA, noSizes), (KRY_UNSPEC, noSizes)], 0⟩ /- :428 -/,
  ⟨CKM_SHA384_RSA_PKCS, CKF_SIGN ||| CKF_VERIFY,
   [(CKK_RSA, noSizes), (KRY_UNSPEC, noSizes)], 0⟩ /- :434 -/,
  ⟨CKM_SHA512_RSA_PKCS, CKF_SIGN ||| CKF_VERIFY,
   [(CKK_RSA, noSizes), (KRY_UNSPEC, noSizes)], 0⟩ /- :440 -/,
  ⟨CKM_SHA3_224_RSA_PKCS, CKF_SIGN ||| CKF_VERIFY,
   [(CKK_RSA, noSizes), (KRY_UNSPEC, noSizes)], 0⟩ /- :446 -/,
  ⟨CKM_SHA3_256_RSA_PKCS, CKF_SIGN ||| CKF_VERIFY,
   [(CKK_RSA, noSizes), (KRY_UNSPEC, noSizes)], 0⟩ /- :452 -/,
  ⟨CKM_SHA3_384_RSA_PKCS, CKF_SIGN ||| CKF_VERIFY,
   [(CKK_RSA, noSizes), (KRY_UNSPEC, noSizes)], 0⟩ /- :458 -/,
  ⟨CKM_SHA3_512_RSA_PKCS, CKF_SIGN ||| CKF_VERIFY,
   [(CKK_RSA, noSizes), (KRY_UNSPEC, noSizes)], 0⟩ /- :464 -/,
  ⟨CKM_SHA1_RSA_PKCS_PSS, CKF_VERIFY,
   [(CKK_RSA, noSizes), (KRY_UNSPEC, noSizes)], 0⟩ /- :470 -/,
  ⟨CKM_SHA224_RSA_PKCS_PSS, CKF_SIGN ||| CKF_VERIFY,
   [(CKK_RSA, noSizes), (KRY_UNSPEC, noSizes)], 0⟩ /- :476 -/,
  ⟨CKM_SHA256_RSA_PKCS_PSS, CKF_SIGN ||| CKF_VERIFY,
   [(CKK_RSA, noSizes), (KRY_UNSPEC, noSizes)], 0⟩ /- :482 -/,
  ⟨CKM_SHA384_RSA_PKCS_PSS, CKF_SIGN ||| CKF_VERIFY,
   [(CKK_RSA, noSizes), (KRY_UNSPEC, noSizes)], 0⟩ /- :488 -/,
  ⟨CKM_SHA512_RSA_PKCS_PSS, CKF_SIGN ||| CKF_VERIFY,
   [(CKK_RSA, noSizes), (KRY_UNSPEC, noSizes)], 0⟩ /- :494 -/,
  ⟨CKM_SHA3_224_RSA_PKCS_PSS, CKF_SIGN ||| CKF_VERIFY,
   [(CKK_RSA, noSizes), (KRY_UNSPEC, noSizes)], 0⟩ /- :500 -/,
  ⟨CKM_SHA3_256_RSA_PKCS_PSS, CKF_SIGN ||| CKF_VERIFY,
   [(CKK_RSA, noSizes), (KRY_UNSPEC, noSizes)], 0⟩ /- :506 -/,
  ⟨CKM_SHA3_384_RSA_PKCS_PSS, CKF_SIGN ||| CKF_VERIFY,
   [(CKK_RSA, noSizes), (KRY_UNSPEC, noSizes)], 0⟩ /- :512 -/,
  ⟨CKM_SHA3_512_RSA_PKCS_PSS, CKF_SIGN ||| CKF_VERIFY,
   [(CKK_RSA, noSizes), (KRY_UNSPEC, noSizes)], 0⟩ /- :518 -/,
  ⟨CKM_EC_KEY_PAIR_GEN, CKF_GENERATE_KEY_PAIR,
   [(CKK_EC, noSizes), (KRY_UNSPEC, noSizes)], CKF_SIGN ||| CKF_VERIFY ||| CKF_DERIVE⟩ /- :525 -/,
  ⟨CKM_ECDSA_SHA224, CKF_SIGN ||| CKF_VERIFY,
   [(CKK_EC, noSizes), (KRY_UNSPEC, noSizes)], 0⟩ /- :531 -/,
  ⟨CKM_ECDSA_SHA256, CKF_SIGN ||| CKF_VERIFY,
   [(CKK_EC, noSizes), (KRY_UNSPEC, noSizes)], 0⟩ /- :537 -/,
  ⟨CKM_ECDSA_SHA384, CKF_SIGN ||| CKF_VERIFY,
   [(CKK_EC, noSizes), (KRY_UNSPEC, noSizes)], 0⟩ /- :543 -/,
  ⟨CKM_ECDSA_SHA512, CKF_SIGN ||| CKF_VERIFY,
   [(CKK_EC, noSizes), (KRY_UNSPEC, noSizes)], 0⟩ /- :549 -/,
  ⟨CKM_EC_EDWARDS_KEY_PAIR_GEN, CKF_GENERATE_KEY_PAIR,
   [(CKK_EC_EDWARDS, noSizes), (KRY_UNSPEC, noSizes)], CKF_SIGN ||| CKF_VERIFY⟩ /- :556 -/,
  ⟨CKM_EDDSA, CKF_SIGN ||| CKF_VERIFY,
   [(CKK_EC_EDWARDS, noSizes), (KRY_UNSPEC, noSizes)], 0⟩ /- :562 -/,
  ⟨CKM_AES_KEY_GEN, CKF_GENERATE,
   [(CKK_AES, noSizes), (KRY_UNSPEC, noSizes)], CKF_ENCRYPT ||| CKF_DECRYPT ||| CKF_SIGN ||| CKF_VERIFY ||| CKF_WRAP ||| CKF_UNWRAP ||| CKF_DERIVE⟩ /- :569 -/,
  ⟨CKM_AES_ECB, CKF_ENCRYPT ||| CKF_DECRYPT,
   [(CKK_AES, noSizes), (KRY_UNSPEC, noSizes)], 0⟩ /- :581 -/,
  ⟨CKM_AES_CBC, CKF_ENCRYPT ||| CKF_DECRYPT,
   [(CKK_AES, noSizes), (KRY_UNSPEC, noSizes)], 0⟩ /- :587 -/,
  ⟨CKM_AES_CBC_PAD, CKF_ENCRYPT ||| CKF_DECRYPT,
   [(CKK_AES, noSizes), (KRY_UNSPEC, noSizes)], 0⟩ /- :593 -/,
  ⟨CKM_AES_CTR, CKF_ENCRYPT ||| CKF_DECRYPT,
   [(CKK_AES, noSizes), (KRY_UNSPEC, noSizes)], 0⟩ /- :599 -/,
  ⟨CKM_AES_GCM, CKF_ENCRYPT ||| CKF_DECRYPT ||| CKF_WRAP ||| CKF_UNWRAP,
   [(CKK_AES, noSizes), (KRY_UNSPEC, noSizes)], 0⟩ /- :605 -/,
  ⟨CKM_AES_CTS, CKF_ENCRYPT ||| CKF_DECRYPT,
   [(CKK_AES, noSizes), (KRY_UNSPEC, noSizes)], 0⟩ /- :611 -/,
  ⟨CKM_AES_CMAC, CKF_SIGN ||| CKF_VERIFY,
   [(CKK_AES, noSizes), (KRY_UNSPEC, noSizes)], 0⟩ /- :617 -/,
  ⟨CKM_AES_CMAC_GENERAL, CKF_SIGN ||| CKF_VERIFY,
   [(CKK_AES, noSizes), (KRY_UNSPEC, noSizes)], 0⟩ /- :623 -/,
  ⟨CKM_AES_KEY_WRAP, CKF_ENCRYPT ||| CKF_DECRYPT ||| CKF_WRAP ||| CKF_UNWRAP,
   [(KRY_UNSPEC, noSizes), (KRY_UNSPEC, noSizes)], CKF_SIGN ||| CKF_VERIFY ||| CKF_ENCRYPT ||| CKF_DECRYPT ||| CKF_WRAP ||| CKF_UNWRAP ||| CKF_DERIVE⟩ /- :629 -/,
  ⟨CKM_AES_KEY_WRAP_KWP, CKF_ENCRYPT ||| CKF_DECRYPT ||| CKF_WRAP ||| CKF_UNWRAP,
   [(KRY_UNSPEC, noSizes), (KRY_UNSPEC, noSizes)], CKF_SIGN ||| CKF_VERIFY ||| CKF_ENCRYPT ||| CKF_DECRYPT ||| CKF_WRAP ||| CKF_UNWRAP ||| CKF_DERIVE⟩ /- :641 -/,
  ⟨CKM_SHA224, CKF_DIGEST,
   [(KRY_UNSPEC, noSizes), (KRY_UNSPEC, noSizes)], 0⟩ /- :654 -/,
  ⟨CKM_SHA256, CKF_DIGEST,
   [(KRY_UNSPEC, noSizes), (KRY_UNSPEC, noSizes)], 0⟩ /- :660 -/,
  ⟨CKM_SHA384, CKF_DIGEST,
   [(KRY_UNSPEC, noSizes), (KRY_UNSPEC, noSizes)], 0⟩ /- :666 -/,
  ⟨CKM_SHA512, CKF_DIGEST,
   [(KRY_UNSPEC, noSizes), (KRY_UNSPEC, noSizes)], 0⟩ /- :672 -/,
  ⟨CKM_SHA3_224, CKF_DIGEST,
   [(KRY_UNSPEC, noSizes), (KRY_UNSPEC, noSizes)], 0⟩ /- :678 -/,
  ⟨CKM_SHA3_256, CKF_DIGEST,
   [(KRY_UNSPEC, noSizes), (KRY_UNSPEC, noSizes)], 0⟩ /- :684 -/,
  ⟨CKM_SHA3_384, CKF_DIGEST,
   [(KRY_UNSPEC, noSizes), (KRY_UNSPEC, noSizes)], 0⟩ /- :690 -/,
  ⟨CKM_SHA3_512, CKF_DIGEST,
   [(KRY_UNSPEC, noSizes), (KRY_UNSPEC, noSizes)], 0⟩ /- :696 -/,
  ⟨CKM_SHA224_HMAC, CKF_SIGN ||| CKF_VERIFY,
   [(CKK_SHA224_HMAC, ⟨[], btb 112, btb 224⟩), (CKK_GENERIC_SECRET, ⟨[], btb 112, btb 224⟩)], 0⟩ /- :703 -/,
  ⟨CKM_SHA256_HMAC, CKF_SIGN ||| CKF_VERIFY,
   [(CKK_SHA256_HMAC, ⟨[], btb 112, btb 256⟩), (CKK_GENERIC_SECRET, ⟨[], btb 112, btb 256⟩)], 0⟩ /- :712 -/,
  ⟨CKM_SHA384_HMAC, CKF_SIGN ||| CKF_VERIFY,
   [(CKK_SHA384_HMAC, ⟨[], btb 112, btb 384⟩), (CKK_GENERIC_SECRET, ⟨[], btb 112, btb 384⟩)], 0⟩ /- :721 -/,
  ⟨CKM_SHA512_HMAC, CKF_SIGN ||| CKF_VERIFY,
   [(CKK_SHA512_HMAC, ⟨[], btb 112, btb 512⟩), (CKK_GENERIC_SECRET, ⟨[], btb 112, btb 512⟩)], 0⟩ /- :730 -/,
  ⟨CKM_SHA512_224_HMAC, CKF_SIGN ||| CKF_VERIFY,
   [(CKK_SHA512_224_HMAC, ⟨[], btb 112, btb 224⟩), (CKK_GENERIC_SECRET, ⟨[], btb 112, btb 224⟩)], 0⟩ /- :739 -/,
  ⟨CKM_SHA512_256_HMAC, CKF_SIGN ||| CKF_VERIFY,
   [(CKK_SHA512_256_HMAC, ⟨[], btb 112, btb 256⟩), (CKK_GENERIC_SECRET, ⟨[], btb 112, btb 256⟩)], 0⟩ /- :748 -/,
  ⟨CKM_SHA3_224_HMAC, CKF_SIGN ||| CKF_VERIFY,
   [(CKK_SHA3_224_HMAC, ⟨[], btb 112, btb 224⟩), (CKK_GENERIC_SECRET, ⟨[], btb 112, btb 224⟩)], 0⟩ /- :757 -/,
  ⟨CKM_SHA3_256_HMAC, CKF_SIGN ||| CKF_VERIFY,
   [(CKK_SHA3_256_HMAC, ⟨[], btb 112, btb 256⟩), (CKK_GENERIC_SECRET, ⟨[], btb 112, btb 256⟩)], 0⟩ /- :766 -/,
  ⟨CKM_SHA3_384_HMAC, CKF_SIGN ||| CKF_VERIFY,
   [(CKK_SHA3_384_HMAC, ⟨[], btb 112, btb 384⟩), (CKK_GENERIC_SECRET, ⟨[], btb 112, btb 384⟩)], 0⟩ /- :775 -/,
  ⟨CKM_SHA3_512_HMAC, CKF_SIGN ||| CKF_VERIFY,
   [(CKK_SHA3_512_HMAC, ⟨[], btb 112, btb 512⟩), (CKK_GENERIC_SECRET, ⟨[], btb 112, btb 512⟩)], 0⟩ /- :784 -/,
  ⟨CKM_SHA224_HMAC_GENERAL, CKF_SIGN ||| CKF_VERIFY,
   [(CKK_SHA224_HMAC, ⟨[], btb 112, btb 224⟩), (CKK_GENERIC_SECRET, ⟨[], btb 112, btb 224⟩)], 0⟩ /- :793 -/,
  ⟨CKM_SHA256_HMAC_GENERAL, CKF_SIGN ||| CKF_VERIFY,
   [(CKK_SHA256_HMAC, ⟨[], btb 112, btb 256⟩), (CKK_GENERIC_SECRET, ⟨[], btb 112, btb 256⟩)], 0⟩ /- :802 -/,
  ⟨CKM_SHA384_HMAC_GENERAL, CKF_SIGN ||| CKF_VERIFY,
   [(CKK_SHA384_HMAC, ⟨[], btb 112, btb 384⟩), (CKK_GENERIC_SECRET, ⟨[], btb 112, btb 384⟩)], 0⟩ /- :811 -/,
  ⟨CKM_SHA512_HMAC_GENERAL, CKF_SIGN ||| CKF_VERIFY,
   [(CKK_SHA512_HMAC, ⟨[], btb 112, btb 512⟩), (CKK_GENERIC_SECRET, ⟨[], btb 112, btb 512⟩)], 0⟩ /- :820 -/,
  ⟨CKM_SHA3_224_HMAC_GENERAL, CKF_SIGN ||| CKF_VERIFY,
   [(CKK_SHA3_224_HMAC, ⟨[], btb 112, btb 224⟩), (CKK_GENERIC_SECRET, ⟨[], btb 112, btb 224⟩)], 0⟩ /- :829 -/,
  ⟨CKM_SHA3_256_HMAC_GENERAL, CKF_SIGN ||| CKF_VERIFY,
   [(CKK_SHA3_256_HMAC, ⟨[], btb 112, btb 256⟩), (CKK_GENERIC_SECRET, ⟨[], btb 112, btb 256⟩)], 0⟩ /- :838 -/,
  ⟨CKM_SHA3_384_HMAC_GENERAL, CKF_SIGN ||| CKF_VERIFY,
   [(CKK_SHA3_384_HMAC, ⟨[], btb 112, btb 384⟩), (CKK_GENERIC_SECRET, ⟨[], btb 112, btb 384⟩)], 0⟩ /- :847 -/,
  ⟨CKM_SHA3_512_HMAC_GENERAL, CKF_SIGN ||| CKF_VERIFY,
   [(CKK_SHA3_512_HMAC, ⟨[], btb 112, btb 512⟩), (CKK_GENERIC_SECRET, ⟨[], btb 112, btb 512⟩)], 0⟩ /- :856 -/,
  ⟨CKM_TLS_MAC, CKF_SIGN ||| CKF_VERIFY,
   [(CKK_GENERIC_SECRET, ⟨[], btb 112, btb 512⟩), (KRY_UNSPEC, noSizes)], 0⟩ /- :865 -/,
  ⟨CKM_PKCS5_PBKD2, CKF_GENERATE,
   [(KRY_UNSPEC, ⟨[], btb 112, btb 256⟩), (KRY_UNSPEC, noSizes)], CKF_DERIVE⟩ /- :875 -/,
  ⟨CKM_GENERIC_SECRET_KEY_GEN, CKF_GENERATE,
   [(CKK_GENERIC_SECRET, ⟨[], btb 112, btb (255 * 64 * 8)⟩), (KRY_UNSPEC, noSizes)], CKF_SIGN ||| CKF_VERIFY ||| CKF_DERIVE⟩ /- :884 -/,
  ⟨CKM_HKDF_KEY_GEN, CKF_GENERATE,
   [(CKK_HKDF, ⟨[btb 256, btb 384, btb 512], btb 160, btb 224⟩), (KRY_UNSPEC, noSizes)], CKF_DERIVE⟩ /- :893 -/,
  ⟨CKM_HKDF_DERIVE, CKF_DERIVE,
   [(CKK_GENERIC_SECRET, ⟨[], btb 112, btb (255 * 64 * 8)⟩), (CKK_HKDF, ⟨[], btb 112, btb (255 * 64 * 8)⟩)], CKF_SIGN ||| CKF_VERIFY ||| CKF_ENCRYPT ||| CKF_DECRYPT ||| CKF_WRAP ||| CKF_UNWRAP ||| CKF_DERIVE⟩ /- :903 -/,
  ⟨CKM_HKDF_DATA, CKF_DERIVE,
   [(KRY_UNSPEC, ⟨[], btb 112, btb (255 * 64 * 8)⟩), (KRY_UNSPEC, noSizes)], CKF_SIGN ||| CKF_VERIFY ||| CKF_ENCRYPT ||| CKF_DECRYPT ||| CKF_WRAP ||| CKF_UNWRAP ||| CKF_DERIVE⟩ /- :918 -/,
  ⟨CKM_TLS12_EXTENDED_MASTER_KEY_DERIVE_DH, CKF_DERIVE,
   [(CKK_GENERIC_SECRET, ⟨[btb (48 * 8)], 0, 0⟩), (KRY_UNSPEC, noSizes)], CKF_SIGN ||| CKF_VERIFY ||| CKF_ENCRYPT ||| CKF_DECRYPT ||| CKF_DERIVE⟩ /- :933 -/,
  ⟨CKM_TLS12_EXTENDED_MASTER_KEY_DERIVE, CKF_DERIVE,
   [(CKK_GENERIC_SECRET, ⟨[btb (48 * 8)], 0, 0⟩), (KRY_UNSPEC, noSizes)], CKF_SIGN ||| CKF_VERIFY ||| CKF_ENCRYPT ||| CKF_DECRYPT ||| CKF_DERIVE⟩ /- :946 -/,
  ⟨CKM_TLS12_KEY_AND_MAC_DERIVE, CKF_DERIVE,
   [(CKK_GENERIC_SECRET, ⟨[], btb 112, btb (255 * 64 * 8)⟩), (KRY_UNSPEC, noSizes)], CKF_SIGN ||| CKF_VERIFY ||| CKF_ENCRYPT ||| CKF_DECRYPT ||| CKF_DERIVE⟩ /- :959 -/,
  ⟨CKM_TLS12_KEY_SAFE_DERIVE, CKF_DERIVE,
   [(CKK_GENERIC_SECRET, ⟨[], btb 112, btb (255 * 64 * 8)⟩), (KRY_UNSPEC, noSizes)], CKF_SIGN ||| CKF_VERIFY ||| CKF_ENCRYPT ||| CKF_DECRYPT ||| CKF_DERIVE⟩ /- :972 -/,
  ⟨CKM_SP800_108_COUNTER_KDF, CKF_DERIVE,
   [(CKK_AES, noSizes), (KRY_UNSPEC, ⟨[], btb 112, btb (0x1000000)⟩)], CKF_SIGN ||| CKF_VERIFY ||| CKF_ENCRYPT ||| CKF_DECRYPT ||| CKF_WRAP ||| CKF_UNWRAP ||| CKF_DERIVE⟩ /- :985 -/,
  ⟨CKM_SP800_108_FEEDBACK_KDF, CKF_DERIVE,
   [(CKK_AES, noSizes), (KRY_UNSPEC, ⟨[], btb 112, btb (0x1000000)⟩)], CKF_SIGN ||| CKF_VERIFY ||| CKF_ENCRYPT ||| CKF_DECRYPT ||| CKF_WRAP ||| CKF_UNWRAP ||| CKF_DERIVE⟩ /- :1000 -/,
  ⟨CKM_CONCATENATE_BASE_AND_KEY, CKF_DERIVE,
   [(KRY_UNSPEC, ⟨[], btb 112, btb (255 * 64 * 8)⟩), (KRY_UNSPEC, noSizes)], CKF_SIGN ||| CKF_VERIFY ||| CKF_ENCRYPT ||| CKF_DECRYPT ||| CKF_WRAP ||| CKF_UNWRAP ||| CKF_DERIVE⟩ /- :1015 -/,
  ⟨CKM_CONCATENATE_BASE_AND_DATA, CKF_DERIVE,
   [(KRY_UNSPEC, ⟨[], btb 112, btb (255 * 64 * 8)⟩), (KRY_UNSPEC, noSizes)], CKF_SIGN ||| CKF_VERIFY ||| CKF_ENCRYPT ||| CKF_DECRYPT ||| CKF_WRAP ||| CKF_UNWRAP ||| CKF_DERIVE⟩ /- :1030 -/,
  ⟨CKM_CONCATENATE_DATA_AND_BASE, CKF_DERIVE,
   [(KRY_UNSPEC, ⟨[], btb 112, btb (255 * 64 * 8)⟩), (KRY_UNSPEC, noSizes)], CKF_SIGN ||| CKF_VERIFY ||| CKF_ENCRYPT ||| CKF_DECRYPT ||| CKF_WRAP ||| CKF_UNWRAP ||| CKF_DERIVE⟩ /- :1045 -/,
  ⟨CKM_XOR_BASE_AND_DATA, CKF_DERIVE,
   [(KRY_UNSPEC, ⟨[], btb 112, btb (255 * 64 * 8)⟩), (KRY_UNSPEC, noSizes)], CKF_SIGN ||| CKF_VERIFY ||| CKF_ENCRYPT ||| CKF_DECRYPT ||| CKF_WRAP ||| CKF_UNWRAP ||| CKF_DERIVE⟩ /- :1060 -/,
  ⟨CKM_ML_KEM_KEY_PAIR_GEN, CKF_GENERATE_KEY_PAIR,
   [(CKK_ML_KEM, noSizes), (KRY_UNSPEC, noSizes)], CKF_ENCAPSULATE ||| CKF_DECAPSULATE⟩ /- :1076 -/,
  ⟨CKM_ML_KEM, CKF_ENCAPSULATE ||| CKF_DECAPSULATE,
   [(CKK_ML_KEM, noSizes), (KRY_UNSPEC, noSizes)], 0⟩ /- :1082 -/,
  ⟨CKM_ML_DSA_KEY_PAIR_GEN, CKF_GENERATE_KEY_PAIR,
   [(CKK_ML_DSA, noSizes), (KRY_UNSPEC, noSizes)], CKF_SIGN ||| CKF_VERIFY⟩ /- :1089 -/,
  ⟨CKM_ML_DSA, CKF_SIGN ||| CKF_VERIFY,
   [(CKK_ML_DSA, noSizes), (KRY_UNSPEC, noSizes)], 0⟩ /- :1095 -/,
  ⟨CKM_HASH_ML_DSA, CKF_SIGN ||| CKF_VERIFY,
   [(CKK_ML_DSA, noSizes), (KRY_UNSPEC, noSizes)], 0⟩ /- :1101 -/,
  ⟨CKM_HASH_ML_DSA_SHA224, CKF_SIGN ||| CKF_VERIFY,
   [(CKK_ML_DSA, noSizes), (KRY_UNSPEC, noSizes)], 0⟩ /- :1107 -/,
  ⟨CKM_HASH_ML_DSA_SHA256, CKF_SIGN ||| CKF_VERIFY,
   [(CKK_ML_DSA, noSizes), (KRY_UNSPEC, noSizes)], 0⟩ /- :1113 -/,
  ⟨CKM_HASH_ML_DSA_SHA384, CKF_SIGN ||| CKF_VERIFY,
   [(CKK_ML_DSA, noSizes), (KRY_UNSPEC, noSizes)], 0⟩ /- :1119 -/,
  ⟨CKM_HASH_ML_DSA_SHA512, CKF_SIGN ||| CKF_VERIFY,
   [(CKK_ML_DSA, noSizes), (KRY_UNSPEC, noSizes)], 0⟩ /- :1125 -/,
  ⟨CKM_HASH_ML_DSA_SHA3_224, CKF_SIGN ||| CKF_VERIFY,
   [(CKK_ML_DSA, noSizes), (KRY_UNSPEC, noSizes)], 0⟩ /- :1131 -/,
  ⟨CKM_HASH_ML_DSA_SHA3_256, CKF_SIGN ||| CKF_VERIFY,
   [(CKK_ML_DSA, noSizes), (KRY_UNSPEC, noSizes)], 0⟩ /- :1137 -/,
  ⟨CKM_HASH_ML_DSA_SHA3_384, CKF_SIGN ||| CKF_VERIFY,
   [(CKK_ML_DSA, noSizes), (KRY_UNSPEC, noSizes)], 0⟩ /- :1143 -/,
  ⟨CKM_HASH_ML_DSA_SHA3_512, CKF_SIGN ||| CKF_VERIFY,
   [(CKK_ML_DSA, noSizes), (KRY_UNSPEC, noSizes)], 0⟩ /- :1149 -/]

/-! ### Key checks -/

/-- One round of the loop over the discrete sizes in `size_check` (`src/fips/indicators.rs:1161-1169`). -/
def sizeStep (len : Nat) (r : Option Bool) (size : Nat) : Option Bool :=
  if size ≠ 0 ∧ r ≠ some true then some (decide (len = size)) else r

/-- `size_check` (`src/fips/indicators.rs:1159-1181`). -/
def sizeCheck (len : Nat) (z : FipsSizes) : Option Bool :=
  match z.steps.foldl (sizeStep len) none with
  | some b => some b
  | none =>
    if (z.min, z.max) ≠ (0, 0) then
      if z.min ≠ 0 ∧ len < z.min then some false
      else if z.max ≠ 0 ∧ z.max < len then some false
      else some true
    else none

/-- The length `check_key` goes by (`src/fips/indicators.rs:1193-1216`).  `ecLen` is the length of the
curve in bytes, `get_oid_from_obj` and `oid_to_bits` (`None` when one of them fails). -/
def fipsKeyLen (ecLen : Obj → Option Nat) (o : Obj) (keytype : Nat) : Option Nat :=
  if keytype = CKK_RSA then
    match o.getBytes CKA_MODULUS with
    | .ok m => some m.length
    | .error _ => none
  else if keytype = CKK_EC ∨ keytype = CKK_EC_EDWARDS then ecLen o
  else
    match o.getUlong CKA_VALUE_LEN with
    | .ok l => some l
    | .error _ => none

/-- The operations and their attributes (`src/fips/indicators.rs:1219-1227` with `flag_to_op`,
`:239-250`). -/
def fipsUses : List (Nat × Nat) :=
  [(CKF_SIGN, CKA_SIGN), (CKF_VERIFY, CKA_VERIFY), (CKF_ENCRYPT, CKA_ENCRYPT),
   (CKF_DECRYPT, CKA_DECRYPT), (CKF_WRAP, CKA_WRAP), (CKF_UNWRAP, CKA_UNWRAP),
   (CKF_DERIVE, CKA_DERIVE)]

/-- The loop over the usage attributes (`src/fips/indicators.rs:1218-1246`): no attribute is true
whose operation `genflags` does not list. -/
def fipsUsesOk (o : Obj) (genflags : Nat) : Bool :=
  fipsUses.all fun (f, a) =>
    genflags &&& f != 0 || (match o.getBool a with
      | .ok b => !b
      | .error _ => true)

/-- The loop over the restrictions (`src/fips/indicators.rs:1248-1273`); `passes` is `key_passes`. -/
def fipsRestricted (len keytype : Nat) : List (Nat × FipsSizes) → Bool → Bool
  | [], passes => passes
  | (kt, z) :: rest, passes =>
    if kt ≠ KRY_UNSPEC ∧ kt ≠ keytype then fipsRestricted len keytype rest passes
    else match sizeCheck len z with
      | some true => fipsRestricted len keytype rest true
      | some false => false
      | none => fipsRestricted len keytype rest true

/-- The loop over the key types (`src/fips/indicators.rs:1276-1296`). -/
def fipsKeyRule (keys : List FipsKeyType) (len keytype op : Nat) : Bool :=
  keys.any fun k => k.keytype == keytype && k.operations &&& op != 0 && sizeCheck len k.sizes == some true

/-- `check_key` (`src/fips/indicators.rs:1187-1297`). -/
def checkKey (ecLen : Obj → Option Nat) (o : Obj) (op : Nat) (genflags : Option Nat)
    (restrictions : Option (List (Nat × FipsSizes))) : Bool :=
  match o.getUlong CKA_KEY_TYPE with
  | .error _ => false
  | .ok kt =>
    match fipsKeyLen ecLen o kt with
    | none => false
    | some len =>
      (match genflags with
        | some gf => fipsUsesOk o gf
        | none => true) &&
      (match restrictions with
        | some rs => fipsRestricted len kt rs false
        | none => true) &&
      fipsKeyRule fipsKeys len kt op

/-- `has_fips_flag` (`src/fips/indicators.rs:1299-1306`). -/
def hasFipsFlag (o : Obj) : Bool :=
  match o.getUlong CKA_OBJECT_VALIDATION_FLAGS with
  | .ok f => f &&& KRF_FIPS == KRF_FIPS
  | .error _ => false

/-- `add_fips_flag` (`src/fips/indicators.rs:1309-1318`). -/
def addFipsFlag (o : Obj) : Obj :=
  let flag := (match o.getUlong CKA_OBJECT_VALIDATION_FLAGS with
    | .ok f => f
    | .error _ => 0) ||| KRF_FIPS
  match o.setAttr (.ofUlong CKA_OBJECT_VALIDATION_FLAGS flag) with
  | .ok o' => o'
  | .error _ => o

/-- `is_key_approved` (`src/fips/indicators.rs:1324-1329`). -/
def isKeyApproved (ecLen : Obj → Option Nat) (o : Obj) (op : Nat) : Bool :=
  if hasFipsFlag o then true else checkKey ecLen o op none none

/-- `add_missing_validation_flag` (`src/fips/indicators.rs:1333-1340`), called on every object read
from the storage (`src/storage/format.rs:328`). -/
def addMissingFlag (ecLen : Obj → Option Nat) (o : Obj) : Obj :=
  match o.getUlong CKA_OBJECT_VALIDATION_FLAGS with
  | .ok _ => o
  | .error _ => if isKeyApproved ecLen o CK_UNAVAILABLE_INFORMATION then addFipsFlag o else o

/-- What an operation checks (`src/fips/indicators.rs:1352-1363`): the input key, the output key; none
for an operation `is_approved` does not know. -/
def fipsChecked (op : Nat) : Option (Bool × Bool) :=
  if op = CKF_DIGEST then some (false, false)
  else if op = CKF_SIGN ∨ op = CKF_VERIFY ∨ op = CKF_ENCRYPT ∨ op = CKF_DECRYPT ∨ op = CKF_WRAP then
    some (true, false)
  else if op = CKF_GENERATE ∨ op = CKF_GENERATE_KEY_PAIR then some (false, true)
  else if op = CKF_UNWRAP ∨ op = CKF_DERIVE then some (true, true)
  else none

/-- `valid_key` (`src/fips/indicators.rs:1383-1388`). -/
def inputOk (ecLen : Obj → Option Nat) (iobj : Option Obj) (op : Nat) : Bool :=
  match iobj with
  | some o => isKeyApproved ecLen o op
  | none => false

/-- The loop of `is_approved` over the mechanisms (`src/fips/indicators.rs:1365-1424`): the answer and
the output object, marked when it passes. -/
def isApprovedIn (ecLen : Obj → Option Nat) (mechanism op : Nat) (inp out : Bool)
    (iobj oobj : Option Obj) : List FipsMechanism → Bool × Option Obj
  | [] => (false, oobj)
  | m :: rest =>
    if mechanism ≠ m.mechanism then isApprovedIn ecLen mechanism op inp out iobj oobj rest
    else if m.operations &&& op = 0 then (false, oobj)
    else if !inp && !out then (true, oobj)
    else if inp && !inputOk ecLen iobj op then (false, oobj)
    else if !out then (true, oobj)
    else
      match oobj with
      | none => isApprovedIn ecLen mechanism op inp out iobj oobj rest
      | some o =>
        if checkKey ecLen o CK_UNAVAILABLE_INFORMATION (some m.genflags) (some m.restrictions) then
          (true, some (addFipsFlag o))
        else if mechanism = CKM_HKDF_DATA then
          match o.getBytes CKA_VALUE with
          | .ok v =>
            match m.restrictions with
            | [] => (false, oobj)
            | r :: _ => (sizeCheck v.length r.2 == some true, oobj)
          | .error _ => isApprovedIn ecLen mechanism op inp out iobj oobj rest
        else isApprovedIn ecLen mechanism op inp out iobj oobj rest

/-- `is_approved` (`src/fips/indicators.rs:1346-1425`). -/
def isApproved (ecLen : Obj → Option Nat) (mechanism op : Nat) (iobj oobj : Option Obj) :
    Bool × Option Obj :=
  match fipsChecked op with
  | none => (false, oobj)
  | some (inp, out) => isApprovedIn ecLen mechanism op inp out iobj oobj fipsMechs

/-! ### The indicator of a session -/

/-- `Session::set_fips_indicator` (`src/session.rs:380-391`). -/
def setIndicator (i : Option Bool) (flag : Bool) : Option Bool :=
  match i with
  | some false => some false
  | _ => some flag

/-- `finalize_fips_approval` (`src/lib.rs:411-426`). -/
def finalizeApproval (i : Option Bool) (approved : Option Bool) : Option Bool :=
  if i.getD true then setIndicator i (approved.getD false) else i

/-- `Session::get_last_validation_flags` (`src/session.rs:404-411`), what
`C_GetSessionValidationFlags` reports. -/
def lastValidationFlags (i : Option Bool) : Nat := if i = some true then KRF_FIPS else 0

/-- What a call does to the indicator of its session.  Whether a key is approved and what the
operation itself reports (`fips_approved()`) are part of the call here. -/
inductive FipsCall where
  /-- `C_EncryptInit`, `C_DecryptInit`, `C_SignInit`, `C_VerifyInit`, `C_VerifySignatureInit`,
  `C_MessageEncryptInit`, `C_MessageDecryptInit` that succeed: `set_operation` clears the indicator
  (`src/session.rs:558`), `init_fips_approval` sets it by the key (`src/lib.rs:397-405`). -/
  | initKey (keyOk : Bool)
  /-- `C_DigestInit`, and an `Init` of another kind whose mechanism takes no key: `set_operation`. -/
  | initDigest
  /-- `C_DigestKey` (`src/fns/digest.rs:210-216`). -/
  | digestKey (keyOk : Bool)
  /-- The last call of an operation, one-shot or multi-part, and a part of a message
  (`C_EncryptMessage`, `C_EncryptMessageNext`, …): `finalize_fips_approval`. -/
  | finish (approved : Option Bool)
  /-- `C_EncryptMessageBegin`, `C_DecryptMessageBegin`: `reset_fips_indicator`, whether or not the call
  succeeds (`src/fns/encryption.rs:771`, `:1165`). -/
  | messageBegin
  /-- `C_GenerateKey`, `C_GenerateKeyPair`, `C_WrapKey`, `C_UnwrapKey`: `reset_fips_indicator` first;
  `set_fips_indicator` when the key was made (`src/fns/keymgmt.rs:40`, `:70`, `:143`, `:191`, `:274`,
  `:319`, `:396`, `:442`). -/
  | create (result : Option Bool)
  /-- `C_DeriveKey` that succeeds (`src/fns/keymgmt.rs:632`, `:652`). -/
  | derive (approved : Bool)
  /-- Every other call on the session, `C_EncryptUpdate` and the other `Update` calls included. -/
  | other
deriving DecidableEq, Repr

/-- The indicator after a call. -/
def fipsStep (i : Option Bool) : FipsCall → Option Bool
  | .initKey k => setIndicator none k
  | .initDigest => none
  | .digestKey k => setIndicator i k
  | .finish a => finalizeApproval i a
  | .messageBegin => none
  | .create none => none
  | .create (some b) => setIndicator none b
  | .derive b => setIndicator none b
  | .other => i

/-- The indicator after a sequence of calls. -/
def fipsRun (i : Option Bool) (l : List FipsCall) : Option Bool := l.foldl fipsStep i

/-! ### `FipsApproval` -/

/-- The approval of one operation (`src/fips/mod.rs:127-130`) and the thread-local cell the OpenSSL
callback writes (`src/fips/mod.rs:76-78`). -/
structure Approval where
  approved : Option Bool
  cell : Bool
deriving DecidableEq, Repr

/-- What happens to the approval of an operation. -/
inductive ApprovalStep where
  /-- OpenSSL calls `fips_indicator_callback` (`src/fips/mod.rs:80-118`). -/
  | callback
  /-- `clear` (`:158-160`). -/
  | clear
  /-- `update` (`:164-169`). -/
  | update
  /-- `set` (`:200-205`). -/
  | set (b : Bool)
  /-- `finalize` (`:209-213`). -/
  | finalize
  /-- `reset` (`:151-153`). -/
  | reset
deriving DecidableEq, Repr

/-- `FipsApproval::update`. -/
def Approval.update (a : Approval) : Approval := if a.cell then ⟨some false, a.cell⟩ else a

/-- `FipsApproval::set`. -/
def Approval.set (a : Approval) (b : Bool) : Approval :=
  if a.approved = some false then a else ⟨some b, a.cell⟩

/-- One step of an approval (`src/fips/mod.rs:132-214`). -/
def approvalStep (a : Approval) : ApprovalStep → Approval
  | .callback => ⟨a.approved, true⟩
  | .clear => ⟨a.approved, false⟩
  | .update => a.update
  | .set b => a.set b
  | .finalize => a.update.set true
  | .reset => ⟨none, a.cell⟩

/-- `FipsApproval::init` (`src/fips/mod.rs:145-148`). -/
def Approval.init : Approval := ⟨none, false⟩

/-- A sequence of steps. -/
def approvalRun (a : Approval) (l : List ApprovalStep) : Approval := l.foldl approvalStep a

end Kry
