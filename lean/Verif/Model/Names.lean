import Verif.Model.Base

/-! The name tables of `src/pkcs11/mod.rs`.  GENERATED by tools/gen_consts.py; do not edit. -/

namespace Kry

/-- `static MECHMAP` (`src/pkcs11/mod.rs:164-635`), in file order. -/
def mechNames : List (Nat × String) := [
  (CKM_AES_KEY_GEN, "CKM_AES_KEY_GEN"),
  (CKM_RSA_PKCS_KEY_PAIR_GEN, "CKM_RSA_PKCS_KEY_PAIR_GEN"),
  (CKM_RSA_PKCS, "CKM_RSA_PKCS"),
  (CKM_RSA_9796, "CKM_RSA_9796"),
  (CKM_RSA_X_509, "CKM_RSA_X_509"),
  (CKM_MD2_RSA_PKCS, "CKM_MD2_RSA_PKCS"),
  (CKM_MD5_RSA_PKCS, "CKM_MD5_RSA_PKCS"),
  (CKM_SHA1_RSA_PKCS, "CKM_SHA1_RSA_PKCS"),
  (CKM_RIPEMD128_RSA_PKCS, "CKM_RIPEMD128_RSA_PKCS"),
  (CKM_RIPEMD160_RSA_PKCS, "CKM_RIPEMD160_RSA_PKCS"),
  (CKM_RSA_PKCS_OAEP, "CKM_RSA_PKCS_OAEP"),
  (CKM_RSA_X9_31_KEY_PAIR_GEN, "CKM_RSA_X9_31_KEY_PAIR_GEN"),
  (CKM_RSA_X9_31, "CKM_RSA_X9_31"),
  (CKM_SHA1_RSA_X9_31, "CKM_SHA1_RSA_X9_31"),
  (CKM_RSA_PKCS_PSS, "CKM_RSA_PKCS_PSS"),
  (CKM_SHA1_RSA_PKCS_PSS, "CKM_SHA1_RSA_PKCS_PSS"),
  (CKM_ML_KEM_KEY_PAIR_GEN, "CKM_ML_KEM_KEY_PAIR_GEN"),
  (CKM_DSA_KEY_PAIR_GEN, "CKM_DSA_KEY_PAIR_GEN"),
  (CKM_DSA, "CKM_DSA"),
  (CKM_DSA_SHA1, "CKM_DSA_SHA1"),
  (CKM_DSA_SHA224, "CKM_DSA_SHA224"),
  (CKM_DSA_SHA256, "CKM_DSA_SHA256"),
  (CKM_DSA_SHA384, "CKM_DSA_SHA384"),
  (CKM_DSA_SHA512, "CKM_DSA_SHA512"),
  (CKM_ML_KEM, "CKM_ML_KEM"),
  (CKM_DSA_SHA3_224, "CKM_DSA_SHA3_224"),
  (CKM_DSA_SHA3_256, "CKM_DSA_SHA3_256"),
  (CKM_DSA_SHA3_384, "CKM_DSA_SHA3_384"),
  (CKM_DSA_SHA3_512, "CKM_DSA_SHA3_512"),
  (CKM_ML_DSA_KEY_PAIR_GEN, "CKM_ML_DSA_KEY_PAIR_GEN"),
  (CKM_ML_DSA, "CKM_ML_DSA"),
  (CKM_HASH_ML_DSA, "CKM_HASH_ML_DSA"),
  (CKM_DH_PKCS_KEY_PAIR_GEN, "CKM_DH_PKCS_KEY_PAIR_GEN"),
  (CKM_DH_PKCS_DERIVE, "CKM_DH_PKCS_DERIVE"),
  (CKM_HASH_ML_DSA_SHA224, "CKM_HASH_ML_DSA_SHA224"),
  (CKM_HASH_ML_DSA_SHA256, "CKM_HASH_ML_DSA_SHA256"),
  (CKM_HASH_ML_DSA_SHA384, "CKM_HASH_ML_DSA_SHA384"),
  (CKM_HASH_ML_DSA_SHA512, "CKM_HASH_ML_DSA_SHA512"),
  (CKM_HASH_ML_DSA_SHA3_224, "CKM_HASH_ML_DSA_SHA3_224"),
  (CKM_HASH_ML_DSA_SHA3_256, "CKM_HASH_ML_DSA_SHA3_256"),
  (CKM_HASH_ML_DSA_SHA3_384, "CKM_HASH_ML_DSA_SHA3_384"),
  (CKM_HASH_ML_DSA_SHA3_512, "CKM_HASH_ML_DSA_SHA3_512"),
  (CKM_HASH_ML_DSA_SHAKE128, "CKM_HASH_ML_DSA_SHAKE128"),
  (CKM_HASH_ML_DSA_SHAKE256, "CKM_HASH_ML_DSA_SHAKE256"),
  (CKM_SLH_DSA_KEY_PAIR_GEN, "CKM_SLH_DSA_KEY_PAIR_GEN"),
  (CKM_SLH_DSA, "CKM_SLH_DSA"),
  (CKM_X9_42_DH_KEY_PAIR_GEN, "CKM_X9_42_DH_KEY_PAIR_GEN"),
  (CKM_X9_42_DH_DERIVE, "CKM_X9_42_DH_DERIVE"),
  (CKM_X9_42_DH_HYBRID_DERIVE, "CKM_X9_42_DH_HYBRID_DERIVE"),
  (CKM_X9_42_MQV_DERIVE, "CKM_X9_42_MQV_DERIVE"),
  (CKM_HASH_SLH_DSA, "CKM_HASH_SLH_DSA"),
  (CKM_HASH_SLH_DSA_SHA224, "CKM_HASH_SLH_DSA_SHA224"),
  (CKM_HASH_SLH_DSA_SHA256, "CKM_HASH_SLH_DSA_SHA256"),
  (CKM_HASH_SLH_DSA_SHA384, "CKM_HASH_SLH_DSA_SHA384"),
  (CKM_HASH_SLH_DSA_SHA512, "CKM_HASH_SLH_DSA_SHA512"),
  (CKM_HASH_SLH_DSA_SHA3_224, "CKM_HASH_SLH_DSA_SHA3_224"),
  (CKM_HASH_SLH_DSA_SHA3_256, "CKM_HASH_SLH_DSA_SHA3_256"),
  (CKM_HASH_SLH_DSA_SHA3_384, "CKM_HASH_SLH_DSA_SHA3_384"),
  (CKM_HASH_SLH_DSA_SHA3_512, "CKM_HASH_SLH_DSA_SHA3_512"),
  (CKM_HASH_SLH_DSA_SHAKE128, "CKM_HASH_SLH_DSA_SHAKE128"),
  (CKM_HASH_SLH_DSA_SHAKE256, "CKM_HASH_SLH_DSA_SHAKE256"),
  (CKM_SHA256_RSA_PKCS, "CKM_SHA256_RSA_PKCS"),
  (CKM_SHA384_RSA_PKCS, "CKM_SHA384_RSA_PKCS"),
  (CKM_SHA512_RSA_PKCS, "CKM_SHA512_RSA_PKCS"),
  (CKM_SHA256_RSA_PKCS_PSS, "CKM_SHA256_RSA_PKCS_PSS"),
  (CKM_SHA384_RSA_PKCS_PSS, "CKM_SHA384_RSA_PKCS_PSS"),
  (CKM_SHA512_RSA_PKCS_PSS, "CKM_SHA512_RSA_PKCS_PSS"),
  (CKM_SHA224_RSA_PKCS, "CKM_SHA224_RSA_PKCS"),
  (CKM_SHA224_RSA_PKCS_PSS, "CKM_SHA224_RSA_PKCS_PSS"),
  (CKM_SHA512_224, "CKM_SHA512_224"),
  (CKM_SHA512_224_HMAC, "CKM_SHA512_224_HMAC"),
  (CKM_SHA512_224_HMAC_GENERAL, "CKM_SHA512_224_HMAC_GENERAL"),
  (CKM_SHA512_224_KEY_DERIVATION, "CKM_SHA512_224_KEY_DERIVATION"),
  (CKM_SHA512_256, "CKM_SHA512_256"),
  (CKM_SHA512_256_HMAC, "CKM_SHA512_256_HMAC"),
  (CKM_SHA512_256_HMAC_GENERAL, "CKM_SHA512_256_HMAC_GENERAL"),
  (CKM_SHA512_256_KEY_DERIVATION, "CKM_SHA512_256_KEY_DERIVATION"),
  (CKM_SHA512_T, "CKM_SHA512_T"),
  (CKM_SHA512_T_HMAC, "CKM_SHA512_T_HMAC"),
  (CKM_SHA512_T_HMAC_GENERAL, "CKM_SHA512_T_HMAC_GENERAL"),
  (CKM_SHA512_T_KEY_DERIVATION, "CKM_SHA512_T_KEY_DERIVATION"),
  (CKM_TLS12_EXTENDED_MASTER_KEY_DERIVE, "CKM_TLS12_EXTENDED_MASTER_KEY_DERIVE"),
  (CKM_TLS12_EXTENDED_MASTER_KEY_DERIVE_DH, "CKM_TLS12_EXTENDED_MASTER_KEY_DERIVE_DH"),
  (CKM_SHA3_256_RSA_PKCS, "CKM_SHA3_256_RSA_PKCS"),
  (CKM_SHA3_384_RSA_PKCS, "CKM_SHA3_384_RSA_PKCS"),
  (CKM_SHA3_512_RSA_PKCS, "CKM_SHA3_512_RSA_PKCS"),
  (CKM_SHA3_256_RSA_PKCS_PSS, "CKM_SHA3_256_RSA_PKCS_PSS"),
  (CKM_SHA3_384_RSA_PKCS_PSS, "CKM_SHA3_384_RSA_PKCS_PSS"),
  (CKM_SHA3_512_RSA_PKCS_PSS, "CKM_SHA3_512_RSA_PKCS_PSS"),
  (CKM_SHA3_224_RSA_PKCS, "CKM_SHA3_224_RSA_PKCS"),
  (CKM_SHA3_224_RSA_PKCS_PSS, "CKM_SHA3_224_RSA_PKCS_PSS"),
  (CKM_RC2_KEY_GEN, "CKM_RC2_KEY_GEN"),
  (CKM_RC2_ECB, "CKM_RC2_ECB"),
  (CKM_RC2_CBC, "CKM_RC2_CBC"),
  (CKM_RC2_MAC, "CKM_RC2_MAC"),
  (CKM_RC2_MAC_GENERAL, "CKM_RC2_MAC_GENERAL"),
  (CKM_RC2_CBC_PAD, "CKM_RC2_CBC_PAD"),
  (CKM_RC4_KEY_GEN, "CKM_RC4_KEY_GEN"),
  (CKM_RC4, "CKM_RC4"),
  (CKM_DES_KEY_GEN, "CKM_DES_KEY_GEN"),
  (CKM_DES_ECB, "CKM_DES_ECB"),
  (CKM_DES_CBC, "CKM_DES_CBC"),
  (CKM_DES_MAC, "CKM_DES_MAC"),
  (CKM_DES_MAC_GENERAL, "CKM_DES_MAC_GENERAL"),
  (CKM_DES_CBC_PAD, "CKM_DES_CBC_PAD"),
  (CKM_DES2_KEY_GEN, "CKM_DES2_KEY_GEN"),
  (CKM_DES3_KEY_GEN, "CKM_DES3_KEY_GEN"),
  (CKM_DES3_ECB, "CKM_DES3_ECB"),
  (CKM_DES3_CBC, "CKM_DES3_CBC"),
  (CKM_DES3_MAC, "CKM_DES3_MAC"),
  (CKM_DES3_MAC_GENERAL, "CKM_DES3_MAC_GENERAL"),
  (CKM_DES3_CBC_PAD, "CKM_DES3_CBC_PAD"),
  (CKM_DES3_CMAC_GENERAL, "CKM_DES3_CMAC_GENERAL"),
  (CKM_DES3_CMAC, "CKM_DES3_CMAC"),
  (CKM_CDMF_KEY_GEN, "CKM_CDMF_KEY_GEN"),
  (CKM_CDMF_ECB, "CKM_CDMF_ECB"),
  (CKM_CDMF_CBC, "CKM_CDMF_CBC"),
  (CKM_CDMF_MAC, "CKM_CDMF_MAC"),
  (CKM_CDMF_MAC_GENERAL, "CKM_CDMF_MAC_GENERAL"),
  (CKM_CDMF_CBC_PAD, "CKM_CDMF_CBC_PAD"),
  (CKM_DES_OFB64, "CKM_DES_OFB64"),
  (CKM_DES_OFB8, "CKM_DES_OFB8"),
  (CKM_DES_CFB64, "CKM_DES_CFB64"),
  (CKM_DES_CFB8, "CKM_DES_CFB8"),
  (CKM_MD2, "CKM_MD2"),
  (CKM_MD2_HMAC, "CKM_MD2_HMAC"),
  (CKM_MD2_HMAC_GENERAL, "CKM_MD2_HMAC_GENERAL"),
  (CKM_MD5, "CKM_MD5"),
  (CKM_MD5_HMAC, "CKM_MD5_HMAC"),
  (CKM_MD5_HMAC_GENERAL, "CKM_MD5_HMAC_GENERAL"),
  (CKM_SHA_1, "CKM_SHA_1"),
  (CKM_SHA_1_HMAC, "CKM_SHA_1_HMAC"),
  (CKM_SHA_1_HMAC_GENERAL, "CKM_SHA_1_HMAC_GENERAL"),
  (CKM_RIPEMD128, "CKM_RIPEMD128"),
  (CKM_RIPEMD128_HMAC, "CKM_RIPEMD128_HMAC"),
  (CKM_RIPEMD128_HMAC_GENERAL, "CKM_RIPEMD128_HMAC_GENERAL"),
  (CKM_RIPEMD160, "CKM_RIPEMD160"),
  (CKM_RIPEMD160_HMAC, "CKM_RIPEMD160_HMAC"),
  (CKM_RIPEMD160_HMAC_GENERAL, "CKM_RIPEMD160_HMAC_GENERAL"),
  (CKM_SHA256, "CKM_SHA256"),
  (CKM_SHA256_HMAC, "CKM_SHA256_HMAC"),
  (CKM_SHA256_HMAC_GENERAL, "CKM_SHA256_HMAC_GENERAL"),
  (CKM_SHA224, "CKM_SHA224"),
  (CKM_SHA224_HMAC, "CKM_SHA224_HMAC"),
  (CKM_SHA224_HMAC_GENERAL, "CKM_SHA224_HMAC_GENERAL"),
  (CKM_SHA384, "CKM_SHA384"),
  (CKM_SHA384_HMAC, "CKM_SHA384_HMAC"),
  (CKM_SHA384_HMAC_GENERAL, "CKM_SHA384_HMAC_GENERAL"),
  (CKM_SHA512, "CKM_SHA512"),
  (CKM_SHA512_HMAC, "CKM_SHA512_HMAC"),
  (CKM_SHA512_HMAC_GENERAL, "CKM_SHA512_HMAC_GENERAL"),
  (CKM_SECURID_KEY_GEN, "CKM_SECURID_KEY_GEN"),
  (CKM_SECURID, "CKM_SECURID"),
  (CKM_HOTP_KEY_GEN, "CKM_HOTP_KEY_GEN"),
  (CKM_HOTP, "CKM_HOTP"),
  (CKM_ACTI, "CKM_ACTI"),
  (CKM_ACTI_KEY_GEN, "CKM_ACTI_KEY_GEN"),
  (CKM_SHA3_256, "CKM_SHA3_256"),
  (CKM_SHA3_256_HMAC, "CKM_SHA3_256_HMAC"),
  (CKM_SHA3_256_HMAC_GENERAL, "CKM_SHA3_256_HMAC_GENERAL"),
  (CKM_SHA3_256_KEY_GEN, "CKM_SHA3_256_KEY_GEN"),
  (CKM_SHA3_224, "CKM_SHA3_224"),
  (CKM_SHA3_224_HMAC, "CKM_SHA3_224_HMAC"),
  (CKM_SHA3_224_HMAC_GENERAL, "CKM_SHA3_224_HMAC_GENERAL"),
  (CKM_SHA3_224_KEY_GEN, "CKM_SHA3_224_KEY_GEN"),
  (CKM_SHA3_384, "CKM_SHA3_384"),
  (CKM_SHA3_384_HMAC, "CKM_SHA3_384_HMAC"),
  (CKM_SHA3_384_HMAC_GENERAL, "CKM_SHA3_384_HMAC_GENERAL"),
  (CKM_SHA3_384_KEY_GEN, "CKM_SHA3_384_KEY_GEN"),
  (CKM_SHA3_512, "CKM_SHA3_512"),
  (CKM_SHA3_512_HMAC, "CKM_SHA3_512_HMAC"),
  (CKM_SHA3_512_HMAC_GENERAL, "CKM_SHA3_512_HMAC_GENERAL"),
  (CKM_SHA3_512_KEY_GEN, "CKM_SHA3_512_KEY_GEN"),
  (CKM_CAST_KEY_GEN, "CKM_CAST_KEY_GEN"),
  (CKM_CAST_ECB, "CKM_CAST_ECB"),
  (CKM_CAST_CBC, "CKM_CAST_CBC"),
  (CKM_CAST_MAC, "CKM_CAST_MAC"),
  (CKM_CAST_MAC_GENERAL, "CKM_CAST_MAC_GENERAL"),
  (CKM_CAST_CBC_PAD, "CKM_CAST_CBC_PAD"),
  (CKM_CAST3_KEY_GEN, "CKM_CAST3_KEY_GEN"),
  (CKM_CAST3_ECB, "CKM_CAST3_ECB"),
  (CKM_CAST3_CBC, "CKM_CAST3_CBC"),
  (CKM_CAST3_MAC, "CKM_CAST3_MAC"),
  (CKM_CAST3_MAC_GENERAL, "CKM_CAST3_MAC_GENERAL"),
  (CKM_CAST3_CBC_PAD, "CKM_CAST3_CBC_PAD"),
  (CKM_CAST128_KEY_GEN, "CKM_CAST128_KEY_GEN"),
  (CKM_CAST128_ECB, "CKM_CAST128_ECB"),
  (CKM_CAST128_MAC, "CKM_CAST128_MAC"),
  (CKM_CAST128_CBC, "CKM_CAST128_CBC"),
  (CKM_CAST128_MAC_GENERAL, "CKM_CAST128_MAC_GENERAL"),
  (CKM_CAST128_CBC_PAD, "CKM_CAST128_CBC_PAD"),
  (CKM_RC5_KEY_GEN, "CKM_RC5_KEY_GEN"),
  (CKM_RC5_ECB, "CKM_RC5_ECB"),
  (CKM_RC5_CBC, "CKM_RC5_CBC"),
  (CKM_RC5_MAC, "CKM_RC5_MAC"),
  (CKM_RC5_MAC_GENERAL, "CKM_RC5_MAC_GENERAL"),
  (CKM_RC5_CBC_PAD, "CKM_RC5_CBC_PAD"),
  (CKM_IDEA_KEY_GEN, "CKM_IDEA_KEY_GEN"),
  (CKM_IDEA_ECB, "CKM_IDEA_ECB"),
  (CKM_IDEA_CBC, "CKM_IDEA_CBC"),
  (CKM_IDEA_MAC, "CKM_IDEA_MAC"),
  (CKM_IDEA_MAC_GENERAL, "CKM_IDEA_MAC_GENERAL"),
  (CKM_IDEA_CBC_PAD, "CKM_IDEA_CBC_PAD"),
  (CKM_GENERIC_SECRET_KEY_GEN, "CKM_GENERIC_SECRET_KEY_GEN"),
  (CKM_CONCATENATE_BASE_AND_KEY, "CKM_CONCATENATE_BASE_AND_KEY"),
  (CKM_CONCATENATE_BASE_AND_DATA, "CKM_CONCATENATE_BASE_AND_DATA"),
  (CKM_CONCATENATE_DATA_AND_BASE, "CKM_CONCATENATE_DATA_AND_BASE"),
  (CKM_XOR_BASE_AND_DATA, "CKM_XOR_BASE_AND_DATA"),
  (CKM_EXTRACT_KEY_FROM_KEY, "CKM_EXTRACT_KEY_FROM_KEY"),
  (CKM_SSL3_PRE_MASTER_KEY_GEN, "CKM_SSL3_PRE_MASTER_KEY_GEN"),
  (CKM_SSL3_MASTER_KEY_DERIVE, "CKM_SSL3_MASTER_KEY_DERIVE"),
  (CKM_SSL3_KEY_AND_MAC_DERIVE, "CKM_SSL3_KEY_AND_MAC_DERIVE"),
  (CKM_SSL3_MASTER_KEY_DERIVE_DH, "CKM_SSL3_MASTER_KEY_DERIVE_DH"),
  (CKM_TLS_PRE_MASTER_KEY_GEN, "CKM_TLS_PRE_MASTER_KEY_GEN"),
  (CKM_TLS_MASTER_KEY_DERIVE, "CKM_TLS_MASTER_KEY_DERIVE"),
  (CKM_TLS_KEY_AND_MAC_DERIVE, "CKM_TLS_KEY_AND_MAC_DERIVE"),
  (CKM_TLS_MASTER_KEY_DERIVE_DH, "CKM_TLS_MASTER_KEY_DERIVE_DH"),
  (CKM_TLS_PRF, "CKM_TLS_PRF"),
  (CKM_SSL3_MD5_MAC, "CKM_SSL3_MD5_MAC"),
  (CKM_SSL3_SHA1_MAC, "CKM_SSL3_SHA1_MAC"),
  (CKM_MD5_KEY_DERIVATION, "CKM_MD5_KEY_DERIVATION"),
  (CKM_MD2_KEY_DERIVATION, "CKM_MD2_KEY_DERIVATION"),
  (CKM_SHA1_KEY_DERIVATION, "CKM_SHA1_KEY_DERIVATION"),
  (CKM_SHA256_KEY_DERIVATION, "CKM_SHA256_KEY_DERIVATION"),
  (CKM_SHA384_KEY_DERIVATION, "CKM_SHA384_KEY_DERIVATION"),
  (CKM_SHA512_KEY_DERIVATION, "CKM_SHA512_KEY_DERIVATION"),
  (CKM_SHA224_KEY_DERIVATION, "CKM_SHA224_KEY_DERIVATION"),
  (CKM_SHA3_256_KEY_DERIVATION, "CKM_SHA3_256_KEY_DERIVATION"),
  (CKM_SHA3_256_KEY_DERIVE, "CKM_SHA3_256_KEY_DERIVE"),
  (CKM_SHA3_224_KEY_DERIVATION, "CKM_SHA3_224_KEY_DERIVATION"),
  (CKM_SHA3_224_KEY_DERIVE, "CKM_SHA3_224_KEY_DERIVE"),
  (CKM_SHA3_384_KEY_DERIVATION, "CKM_SHA3_384_KEY_DERIVATION"),
  (CKM_SHA3_384_KEY_DERIVE, "CKM_SHA3_384_KEY_DERIVE"),
  (CKM_SHA3_512_KEY_DERIVATION, "CKM_SHA3_512_KEY_DERIVATION"),
  (CKM_SHA3_512_KEY_DERIVE, "CKM_SHA3_512_KEY_DERIVE"),
  (CKM_SHAKE_128_KEY_DERIVATION, "CKM_SHAKE_128_KEY_DERIVATION"),
  (CKM_SHAKE_128_KEY_DERIVE, "CKM_SHAKE_128_KEY_DERIVE"),
  (CKM_SHAKE_256_KEY_DERIVATION, "CKM_SHAKE_256_KEY_DERIVATION"),
  (CKM_SHAKE_256_KEY_DERIVE, "CKM_SHAKE_256_KEY_DERIVE"),
  (CKM_PBE_MD2_DES_CBC, "CKM_PBE_MD2_DES_CBC"),
  (CKM_PBE_MD5_DES_CBC, "CKM_PBE_MD5_DES_CBC"),
  (CKM_PBE_MD5_CAST_CBC, "CKM_PBE_MD5_CAST_CBC"),
  (CKM_PBE_MD5_CAST3_CBC, "CKM_PBE_MD5_CAST3_CBC"),
  (CKM_PBE_MD5_CAST128_CBC, "CKM_PBE_MD5_CAST128_CBC"),
  (CKM_PBE_SHA1_CAST128_CBC, "CKM_PBE_SHA1_CAST128_CBC"),
  (CKM_PBE_SHA1_RC4_128, "CKM_PBE_SHA1_RC4_128"),
  (CKM_PBE_SHA1_RC4_40, "CKM_PBE_SHA1_RC4_40"),
  (CKM_PBE_SHA1_DES3_EDE_CBC, "CKM_PBE_SHA1_DES3_EDE_CBC"),
  (CKM_PBE_SHA1_DES2_EDE_CBC, "CKM_PBE_SHA1_DES2_EDE_CBC"),
  (CKM_PBE_SHA1_RC2_128_CBC, "CKM_PBE_SHA1_RC2_128_CBC"),
  (CKM_PBE_SHA1_RC2_40_CBC, "CKM_PBE_SHA1_RC2_40_CBC"),
  (CKM_PKCS5_PBKD2, "CKM_PKCS5_PBKD2"),
  (CKM_PBA_SHA1_WITH_SHA1_HMAC, "CKM_PBA_SHA1_WITH_SHA1_HMAC"),
  (CKM_WTLS_PRE_MASTER_KEY_GEN, "CKM_WTLS_PRE_MASTER_KEY_GEN"),
  (CKM_WTLS_MASTER_KEY_DERIVE, "CKM_WTLS_MASTER_KEY_DERIVE"),
  (CKM_WTLS_MASTER_KEY_DERIVE_DH_ECC, "CKM_WTLS_MASTER_KEY_DERIVE_DH_ECC"),
  (CKM_WTLS_PRF, "CKM_WTLS_PRF"),
  (CKM_WTLS_SERVER_KEY_AND_MAC_DERIVE, "CKM_WTLS_SERVER_KEY_AND_MAC_DERIVE"),
  (CKM_WTLS_CLIENT_KEY_AND_MAC_DERIVE, "CKM_WTLS_CLIENT_KEY_AND_MAC_DERIVE"),
  (CKM_TLS10_MAC_SERVER, "CKM_TLS10_MAC_SERVER"),
  (CKM_TLS10_MAC_CLIENT, "CKM_TLS10_MAC_CLIENT"),
  (CKM_TLS12_MAC, "CKM_TLS12_MAC"),
  (CKM_TLS12_KDF, "CKM_TLS12_KDF"),
  (CKM_TLS12_MASTER_KEY_DERIVE, "CKM_TLS12_MASTER_KEY_DERIVE"),
  (CKM_TLS12_KEY_AND_MAC_DERIVE, "CKM_TLS12_KEY_AND_MAC_DERIVE"),
  (CKM_TLS12_MASTER_KEY_DERIVE_DH, "CKM_TLS12_MASTER_KEY_DERIVE_DH"),
  (CKM_TLS12_KEY_SAFE_DERIVE, "CKM_TLS12_KEY_SAFE_DERIVE"),
  (CKM_TLS_MAC, "CKM_TLS_MAC"),
  (CKM_TLS_KDF, "CKM_TLS_KDF"),
  (CKM_KEY_WRAP_LYNKS, "CKM_KEY_WRAP_LYNKS"),
  (CKM_KEY_WRAP_SET_OAEP, "CKM_KEY_WRAP_SET_OAEP"),
  (CKM_CMS_SIG, "CKM_CMS_SIG"),
  (CKM_KIP_DERIVE, "CKM_KIP_DERIVE"),
  (CKM_KIP_WRAP, "CKM_KIP_WRAP"),
  (CKM_KIP_MAC, "CKM_KIP_MAC"),
  (CKM_CAMELLIA_KEY_GEN, "CKM_CAMELLIA_KEY_GEN"),
  (CKM_CAMELLIA_ECB, "CKM_CAMELLIA_ECB"),
  (CKM_CAMELLIA_CBC, "CKM_CAMELLIA_CBC"),
  (CKM_CAMELLIA_MAC, "CKM_CAMELLIA_MAC"),
  (CKM_CAMELLIA_MAC_GENERAL, "CKM_CAMELLIA_MAC_GENERAL"),
  (CKM_CAMELLIA_CBC_PAD, "CKM_CAMELLIA_CBC_PAD"),
  (CKM_CAMELLIA_ECB_ENCRYPT_DATA, "CKM_CAMELLIA_ECB_ENCRYPT_DATA"),
  (CKM_CAMELLIA_CBC_ENCRYPT_DATA, "CKM_CAMELLIA_CBC_ENCRYPT_DATA"),
  (CKM_CAMELLIA_CTR, "CKM_CAMELLIA_CTR"),
  (CKM_ARIA_KEY_GEN, "CKM_ARIA_KEY_GEN"),
  (CKM_ARIA_ECB, "CKM_ARIA_ECB"),
  (CKM_ARIA_CBC, "CKM_ARIA_CBC"),
  (CKM_ARIA_MAC, "CKM_ARIA_MAC"),
  (CKM_ARIA_MAC_GENERAL, "CKM_ARIA_MAC_GENERAL"),
  (CKM_ARIA_CBC_PAD, "CKM_ARIA_CBC_PAD"),
  (CKM_ARIA_ECB_ENCRYPT_DATA, "CKM_ARIA_ECB_ENCRYPT_DATA"),
  (CKM_ARIA_CBC_ENCRYPT_DATA, "CKM_ARIA_CBC_ENCRYPT_DATA"),
  (CKM_SEED_KEY_GEN, "CKM_SEED_KEY_GEN"),
  (CKM_SEED_ECB, "CKM_SEED_ECB"),
  (CKM_SEED_CBC, "CKM_SEED_CBC"),
  (CKM_SEED_MAC, "CKM_SEED_MAC"),
  (CKM_SEED_MAC_GENERAL, "CKM_SEED_MAC_GENERAL"),
  (CKM_SEED_CBC_PAD, "CKM_SEED_CBC_PAD"),
  (CKM_SEED_ECB_ENCRYPT_DATA, "CKM_SEED_ECB_ENCRYPT_DATA"),
  (CKM_SEED_CBC_ENCRYPT_DATA, "CKM_SEED_CBC_ENCRYPT_DATA"),
  (CKM_SKIPJACK_KEY_GEN, "CKM_SKIPJACK_KEY_GEN"),
  (CKM_SKIPJACK_ECB64, "CKM_SKIPJACK_ECB64"),
  (CKM_SKIPJACK_CBC64, "CKM_SKIPJACK_CBC64"),
  (CKM_SKIPJACK_OFB64, "CKM_SKIPJACK_OFB64"),
  (CKM_SKIPJACK_CFB64, "CKM_SKIPJACK_CFB64"),
  (CKM_SKIPJACK_CFB32, "CKM_SKIPJACK_CFB32"),
  (CKM_SKIPJACK_CFB16, "CKM_SKIPJACK_CFB16"),
  (CKM_SKIPJACK_CFB8, "CKM_SKIPJACK_CFB8"),
  (CKM_SKIPJACK_WRAP, "CKM_SKIPJACK_WRAP"),
  (CKM_SKIPJACK_PRIVATE_WRAP, "CKM_SKIPJACK_PRIVATE_WRAP"),
  (CKM_SKIPJACK_RELAYX, "CKM_SKIPJACK_RELAYX"),
  (CKM_KEA_KEY_PAIR_GEN, "CKM_KEA_KEY_PAIR_GEN"),
  (CKM_KEA_KEY_DERIVE, "CKM_KEA_KEY_DERIVE"),
  (CKM_KEA_DERIVE, "CKM_KEA_DERIVE"),
  (CKM_FORTEZZA_TIMESTAMP, "CKM_FORTEZZA_TIMESTAMP"),
  (CKM_BATON_KEY_GEN, "CKM_BATON_KEY_GEN"),
  (CKM_BATON_ECB128, "CKM_BATON_ECB128"),
  (CKM_BATON_ECB96, "CKM_BATON_ECB96"),
  (CKM_BATON_CBC128, "CKM_BATON_CBC128"),
  (CKM_BATON_COUNTER, "CKM_BATON_COUNTER"),
  (CKM_BATON_SHUFFLE, "CKM_BATON_SHUFFLE"),
  (CKM_BATON_WRAP, "CKM_BATON_WRAP"),
  (CKM_EC_KEY_PAIR_GEN, "CKM_EC_KEY_PAIR_GEN"),
  (CKM_ECDSA, "CKM_ECDSA"),
  (CKM_ECDSA_SHA1, "CKM_ECDSA_SHA1"),
  (CKM_ECDSA_SHA224, "CKM_ECDSA_SHA224"),
  (CKM_ECDSA_SHA256, "CKM_ECDSA_SHA256"),
  (CKM_ECDSA_SHA384, "CKM_ECDSA_SHA384"),
  (CKM_ECDSA_SHA512, "CKM_ECDSA_SHA512"),
  (CKM_EC_KEY_PAIR_GEN_W_EXTRA_BITS, "CKM_EC_KEY_PAIR_GEN_W_EXTRA_BITS"),
  (CKM_ECDH1_DERIVE, "CKM_ECDH1_DERIVE"),
  (CKM_ECDH1_COFACTOR_DERIVE, "CKM_ECDH1_COFACTOR_DERIVE"),
  (CKM_ECMQV_DERIVE, "CKM_ECMQV_DERIVE"),
  (CKM_ECDH_AES_KEY_WRAP, "CKM_ECDH_AES_KEY_WRAP"),
  (CKM_RSA_AES_KEY_WRAP, "CKM_RSA_AES_KEY_WRAP"),
  (CKM_JUNIPER_KEY_GEN, "CKM_JUNIPER_KEY_GEN"),
  (CKM_JUNIPER_ECB128, "CKM_JUNIPER_ECB128"),
  (CKM_JUNIPER_CBC128, "CKM_JUNIPER_CBC128"),
  (CKM_JUNIPER_COUNTER, "CKM_JUNIPER_COUNTER"),
  (CKM_JUNIPER_SHUFFLE, "CKM_JUNIPER_SHUFFLE"),
  (CKM_JUNIPER_WRAP, "CKM_JUNIPER_WRAP"),
  (CKM_FASTHASH, "CKM_FASTHASH"),
  (CKM_AES_XTS, "CKM_AES_XTS"),
  (CKM_AES_XTS_KEY_GEN, "CKM_AES_XTS_KEY_GEN"),
  (CKM_AES_KEY_GEN, "CKM_AES_KEY_GEN"),
  (CKM_AES_ECB, "CKM_AES_ECB"),
  (CKM_AES_CBC, "CKM_AES_CBC"),
  (CKM_AES_MAC, "CKM_AES_MAC"),
  (CKM_AES_MAC_GENERAL, "CKM_AES_MAC_GENERAL"),
  (CKM_AES_CBC_PAD, "CKM_AES_CBC_PAD"),
  (CKM_AES_CTR, "CKM_AES_CTR"),
  (CKM_AES_GCM, "CKM_AES_GCM"),
  (CKM_AES_CCM, "CKM_AES_CCM"),
  (CKM_AES_CTS, "CKM_AES_CTS"),
  (CKM_AES_CMAC, "CKM_AES_CMAC"),
  (CKM_AES_CMAC_GENERAL, "CKM_AES_CMAC_GENERAL"),
  (CKM_AES_XCBC_MAC, "CKM_AES_XCBC_MAC"),
  (CKM_AES_XCBC_MAC_96, "CKM_AES_XCBC_MAC_96"),
  (CKM_AES_GMAC, "CKM_AES_GMAC"),
  (CKM_BLOWFISH_KEY_GEN, "CKM_BLOWFISH_KEY_GEN"),
  (CKM_BLOWFISH_CBC, "CKM_BLOWFISH_CBC"),
  (CKM_TWOFISH_KEY_GEN, "CKM_TWOFISH_KEY_GEN"),
  (CKM_TWOFISH_CBC, "CKM_TWOFISH_CBC"),
  (CKM_BLOWFISH_CBC_PAD, "CKM_BLOWFISH_CBC_PAD"),
  (CKM_TWOFISH_CBC_PAD, "CKM_TWOFISH_CBC_PAD"),
  (CKM_DES_ECB_ENCRYPT_DATA, "CKM_DES_ECB_ENCRYPT_DATA"),
  (CKM_DES_CBC_ENCRYPT_DATA, "CKM_DES_CBC_ENCRYPT_DATA"),
  (CKM_DES3_ECB_ENCRYPT_DATA, "CKM_DES3_ECB_ENCRYPT_DATA"),
  (CKM_DES3_CBC_ENCRYPT_DATA, "CKM_DES3_CBC_ENCRYPT_DATA"),
  (CKM_AES_ECB_ENCRYPT_DATA, "CKM_AES_ECB_ENCRYPT_DATA"),
  (CKM_AES_CBC_ENCRYPT_DATA, "CKM_AES_CBC_ENCRYPT_DATA"),
  (CKM_GOSTR3410_KEY_PAIR_GEN, "CKM_GOSTR3410_KEY_PAIR_GEN"),
  (CKM_GOSTR3410, "CKM_GOSTR3410"),
  (CKM_GOSTR3410_WITH_GOSTR3411, "CKM_GOSTR3410_WITH_GOSTR3411"),
  (CKM_GOSTR3410_KEY_WRAP, "CKM_GOSTR3410_KEY_WRAP"),
  (CKM_GOSTR3410_DERIVE, "CKM_GOSTR3410_DERIVE"),
  (CKM_GOSTR3411, "CKM_GOSTR3411"),
  (CKM_GOSTR3411_HMAC, "CKM_GOSTR3411_HMAC"),
  (CKM_GOST28147_KEY_GEN, "CKM_GOST28147_KEY_GEN"),
  (CKM_GOST28147_ECB, "CKM_GOST28147_ECB"),
  (CKM_GOST28147, "CKM_GOST28147"),
  (CKM_GOST28147_MAC, "CKM_GOST28147_MAC"),
  (CKM_GOST28147_KEY_WRAP, "CKM_GOST28147_KEY_WRAP"),
  (CKM_CHACHA20_KEY_GEN, "CKM_CHACHA20_KEY_GEN"),
  (CKM_CHACHA20, "CKM_CHACHA20"),
  (CKM_POLY1305_KEY_GEN, "CKM_POLY1305_KEY_GEN"),
  (CKM_POLY1305, "CKM_POLY1305"),
  (CKM_DSA_PARAMETER_GEN, "CKM_DSA_PARAMETER_GEN"),
  (CKM_DH_PKCS_PARAMETER_GEN, "CKM_DH_PKCS_PARAMETER_GEN"),
  (CKM_X9_42_DH_PARAMETER_GEN, "CKM_X9_42_DH_PARAMETER_GEN"),
  (CKM_DSA_PROBABILISTIC_PARAMETER_GEN, "CKM_DSA_PROBABILISTIC_PARAMETER_GEN"),
  (CKM_DSA_SHAWE_TAYLOR_PARAMETER_GEN, "CKM_DSA_SHAWE_TAYLOR_PARAMETER_GEN"),
  (CKM_DSA_FIPS_G_GEN, "CKM_DSA_FIPS_G_GEN"),
  (CKM_AES_OFB, "CKM_AES_OFB"),
  (CKM_AES_CFB64, "CKM_AES_CFB64"),
  (CKM_AES_CFB8, "CKM_AES_CFB8"),
  (CKM_AES_CFB128, "CKM_AES_CFB128"),
  (CKM_AES_CFB1, "CKM_AES_CFB1"),
  (CKM_AES_KEY_WRAP, "CKM_AES_KEY_WRAP"),
  (CKM_AES_KEY_WRAP_PAD, "CKM_AES_KEY_WRAP_PAD"),
  (CKM_AES_KEY_WRAP_KWP, "CKM_AES_KEY_WRAP_KWP"),
  (CKM_AES_KEY_WRAP_PKCS7, "CKM_AES_KEY_WRAP_PKCS7"),
  (CKM_RSA_PKCS_TPM_1_1, "CKM_RSA_PKCS_TPM_1_1"),
  (CKM_RSA_PKCS_OAEP_TPM_1_1, "CKM_RSA_PKCS_OAEP_TPM_1_1"),
  (CKM_SHA_1_KEY_GEN, "CKM_SHA_1_KEY_GEN"),
  (CKM_SHA224_KEY_GEN, "CKM_SHA224_KEY_GEN"),
  (CKM_SHA256_KEY_GEN, "CKM_SHA256_KEY_GEN"),
  (CKM_SHA384_KEY_GEN, "CKM_SHA384_KEY_GEN"),
  (CKM_SHA512_KEY_GEN, "CKM_SHA512_KEY_GEN"),
  (CKM_SHA512_224_KEY_GEN, "CKM_SHA512_224_KEY_GEN"),
  (CKM_SHA512_256_KEY_GEN, "CKM_SHA512_256_KEY_GEN"),
  (CKM_SHA512_T_KEY_GEN, "CKM_SHA512_T_KEY_GEN"),
  (CKM_NULL, "CKM_NULL"),
  (CKM_BLAKE2B_160, "CKM_BLAKE2B_160"),
  (CKM_BLAKE2B_160_HMAC, "CKM_BLAKE2B_160_HMAC"),
  (CKM_BLAKE2B_160_HMAC_GENERAL, "CKM_BLAKE2B_160_HMAC_GENERAL"),
  (CKM_BLAKE2B_160_KEY_DERIVE, "CKM_BLAKE2B_160_KEY_DERIVE"),
  (CKM_BLAKE2B_160_KEY_GEN, "CKM_BLAKE2B_160_KEY_GEN"),
  (CKM_BLAKE2B_256, "CKM_BLAKE2B_256"),
  (CKM_BLAKE2B_256_HMAC, "CKM_BLAKE2B_256_HMAC"),
  (CKM_BLAKE2B_256_HMAC_GENERAL, "CKM_BLAKE2B_256_HMAC_GENERAL"),
  (CKM_BLAKE2B_256_KEY_DERIVE, "CKM_BLAKE2B_256_KEY_DERIVE"),
  (CKM_BLAKE2B_256_KEY_GEN, "CKM_BLAKE2B_256_KEY_GEN"),
  (CKM_BLAKE2B_384, "CKM_BLAKE2B_384"),
  (CKM_BLAKE2B_384_HMAC, "CKM_BLAKE2B_384_HMAC"),
  (CKM_BLAKE2B_384_HMAC_GENERAL, "CKM_BLAKE2B_384_HMAC_GENERAL"),
  (CKM_BLAKE2B_384_KEY_DERIVE, "CKM_BLAKE2B_384_KEY_DERIVE"),
  (CKM_BLAKE2B_384_KEY_GEN, "CKM_BLAKE2B_384_KEY_GEN"),
  (CKM_BLAKE2B_512, "CKM_BLAKE2B_512"),
  (CKM_BLAKE2B_512_HMAC, "CKM_BLAKE2B_512_HMAC"),
  (CKM_BLAKE2B_512_HMAC_GENERAL, "CKM_BLAKE2B_512_HMAC_GENERAL"),
  (CKM_BLAKE2B_512_KEY_DERIVE, "CKM_BLAKE2B_512_KEY_DERIVE"),
  (CKM_BLAKE2B_512_KEY_GEN, "CKM_BLAKE2B_512_KEY_GEN"),
  (CKM_SALSA20, "CKM_SALSA20"),
  (CKM_CHACHA20_POLY1305, "CKM_CHACHA20_POLY1305"),
  (CKM_SALSA20_POLY1305, "CKM_SALSA20_POLY1305"),
  (CKM_X3DH_INITIALIZE, "CKM_X3DH_INITIALIZE"),
  (CKM_X3DH_RESPOND, "CKM_X3DH_RESPOND"),
  (CKM_X2RATCHET_INITIALIZE, "CKM_X2RATCHET_INITIALIZE"),
  (CKM_X2RATCHET_RESPOND, "CKM_X2RATCHET_RESPOND"),
  (CKM_X2RATCHET_ENCRYPT, "CKM_X2RATCHET_ENCRYPT"),
  (CKM_X2RATCHET_DECRYPT, "CKM_X2RATCHET_DECRYPT"),
  (CKM_XEDDSA, "CKM_XEDDSA"),
  (CKM_HKDF_DERIVE, "CKM_HKDF_DERIVE"),
  (CKM_HKDF_DATA, "CKM_HKDF_DATA"),
  (CKM_HKDF_KEY_GEN, "CKM_HKDF_KEY_GEN"),
  (CKM_SALSA20_KEY_GEN, "CKM_SALSA20_KEY_GEN"),
  (CKM_ECDSA_SHA3_224, "CKM_ECDSA_SHA3_224"),
  (CKM_ECDSA_SHA3_256, "CKM_ECDSA_SHA3_256"),
  (CKM_ECDSA_SHA3_384, "CKM_ECDSA_SHA3_384"),
  (CKM_ECDSA_SHA3_512, "CKM_ECDSA_SHA3_512"),
  (CKM_EC_EDWARDS_KEY_PAIR_GEN, "CKM_EC_EDWARDS_KEY_PAIR_GEN"),
  (CKM_EC_MONTGOMERY_KEY_PAIR_GEN, "CKM_EC_MONTGOMERY_KEY_PAIR_GEN"),
  (CKM_EDDSA, "CKM_EDDSA"),
  (CKM_SP800_108_COUNTER_KDF, "CKM_SP800_108_COUNTER_KDF"),
  (CKM_SP800_108_FEEDBACK_KDF, "CKM_SP800_108_FEEDBACK_KDF"),
  (CKM_SP800_108_DOUBLE_PIPELINE_KDF, "CKM_SP800_108_DOUBLE_PIPELINE_KDF"),
  (CKM_IKE2_PRF_PLUS_DERIVE, "CKM_IKE2_PRF_PLUS_DERIVE"),
  (CKM_IKE_PRF_DERIVE, "CKM_IKE_PRF_DERIVE"),
  (CKM_IKE1_PRF_DERIVE, "CKM_IKE1_PRF_DERIVE"),
  (CKM_IKE1_EXTENDED_DERIVE, "CKM_IKE1_EXTENDED_DERIVE"),
  (CKM_HSS_KEY_PAIR_GEN, "CKM_HSS_KEY_PAIR_GEN"),
  (CKM_HSS, "CKM_HSS"),
  (CKM_XMSS_KEY_PAIR_GEN, "CKM_XMSS_KEY_PAIR_GEN"),
  (CKM_XMSSMT_KEY_PAIR_GEN, "CKM_XMSSMT_KEY_PAIR_GEN"),
  (CKM_XMSS, "CKM_XMSS"),
  (CKM_XMSSMT, "CKM_XMSSMT"),
  (CKM_ECDH_X_AES_KEY_WRAP, "CKM_ECDH_X_AES_KEY_WRAP"),
  (CKM_ECDH_COF_AES_KEY_WRAP, "CKM_ECDH_COF_AES_KEY_WRAP"),
  (CKM_PUB_KEY_FROM_PRIV_KEY, "CKM_PUB_KEY_FROM_PRIV_KEY")]

/-- `static ATTRMAP` (`src/pkcs11/mod.rs:638-796`), in file order. -/
def attrNames : List (Nat × String) := [
  (CKA_CLASS, "CKA_CLASS"),
  (CKA_TOKEN, "CKA_TOKEN"),
  (CKA_PRIVATE, "CKA_PRIVATE"),
  (CKA_LABEL, "CKA_LABEL"),
  (CKA_UNIQUE_ID, "CKA_UNIQUE_ID"),
  (CKA_APPLICATION, "CKA_APPLICATION"),
  (CKA_VALUE, "CKA_VALUE"),
  (CKA_OBJECT_ID, "CKA_OBJECT_ID"),
  (CKA_CERTIFICATE_TYPE, "CKA_CERTIFICATE_TYPE"),
  (CKA_ISSUER, "CKA_ISSUER"),
  (CKA_SERIAL_NUMBER, "CKA_SERIAL_NUMBER"),
  (CKA_AC_ISSUER, "CKA_AC_ISSUER"),
  (CKA_OWNER, "CKA_OWNER"),
  (CKA_ATTR_TYPES, "CKA_ATTR_TYPES"),
  (CKA_TRUSTED, "CKA_TRUSTED"),
  (CKA_CERTIFICATE_CATEGORY, "CKA_CERTIFICATE_CATEGORY"),
  (CKA_JAVA_MIDP_SECURITY_DOMAIN, "CKA_JAVA_MIDP_SECURITY_DOMAIN"),
  (CKA_URL, "CKA_URL"),
  (CKA_HASH_OF_SUBJECT_PUBLIC_KEY, "CKA_HASH_OF_SUBJECT_PUBLIC_KEY"),
  (CKA_HASH_OF_ISSUER_PUBLIC_KEY, "CKA_HASH_OF_ISSUER_PUBLIC_KEY"),
  (CKA_NAME_HASH_ALGORITHM, "CKA_NAME_HASH_ALGORITHM"),
  (CKA_CHECK_VALUE, "CKA_CHECK_VALUE"),
  (CKA_KEY_TYPE, "CKA_KEY_TYPE"),
  (CKA_SUBJECT, "CKA_SUBJECT"),
  (CKA_ID, "CKA_ID"),
  (CKA_SENSITIVE, "CKA_SENSITIVE"),
  (CKA_ENCRYPT, "CKA_ENCRYPT"),
  (CKA_DECRYPT, "CKA_DECRYPT"),
  (CKA_WRAP, "CKA_WRAP"),
  (CKA_UNWRAP, "CKA_UNWRAP"),
  (CKA_SIGN, "CKA_SIGN"),
  (CKA_SIGN_RECOVER, "CKA_SIGN_RECOVER"),
  (CKA_VERIFY, "CKA_VERIFY"),
  (CKA_VERIFY_RECOVER, "CKA_VERIFY_RECOVER"),
  (CKA_DERIVE, "CKA_DERIVE"),
  (CKA_START_DATE, "CKA_START_DATE"),
  (CKA_END_DATE, "CKA_END_DATE"),
  (CKA_MODULUS, "CKA_MODULUS"),
  (CKA_MODULUS_BITS, "CKA_MODULUS_BITS"),
  (CKA_PUBLIC_EXPONENT, "CKA_PUBLIC_EXPONENT"),
  (CKA_PRIVATE_EXPONENT, "CKA_PRIVATE_EXPONENT"),
  (CKA_PRIME_1, "CKA_PRIME_1"),
  (CKA_PRIME_2, "CKA_PRIME_2"),
  (CKA_EXPONENT_1, "CKA_EXPONENT_1"),
  (CKA_EXPONENT_2, "CKA_EXPONENT_2"),
  (CKA_COEFFICIENT, "CKA_COEFFICIENT"),
  (CKA_PUBLIC_KEY_INFO, "CKA_PUBLIC_KEY_INFO"),
  (CKA_PRIME, "CKA_PRIME"),
  (CKA_SUBPRIME, "CKA_SUBPRIME"),
  (CKA_BASE, "CKA_BASE"),
  (CKA_PRIME_BITS, "CKA_PRIME_BITS"),
  (CKA_SUBPRIME_BITS, "CKA_SUBPRIME_BITS"),
  (CKA_SUB_PRIME_BITS, "CKA_SUB_PRIME_BITS"),
  (CKA_VALUE_BITS, "CKA_VALUE_BITS"),
  (CKA_VALUE_LEN, "CKA_VALUE_LEN"),
  (CKA_EXTRACTABLE, "CKA_EXTRACTABLE"),
  (CKA_LOCAL, "CKA_LOCAL"),
  (CKA_NEVER_EXTRACTABLE, "CKA_NEVER_EXTRACTABLE"),
  (CKA_ALWAYS_SENSITIVE, "CKA_ALWAYS_SENSITIVE"),
  (CKA_KEY_GEN_MECHANISM, "CKA_KEY_GEN_MECHANISM"),
  (CKA_MODIFIABLE, "CKA_MODIFIABLE"),
  (CKA_COPYABLE, "CKA_COPYABLE"),
  (CKA_DESTROYABLE, "CKA_DESTROYABLE"),
  (CKA_EC_PARAMS, "CKA_EC_PARAMS"),
  (CKA_EC_POINT, "CKA_EC_POINT"),
  (CKA_ALWAYS_AUTHENTICATE, "CKA_ALWAYS_AUTHENTICATE"),
  (CKA_WRAP_WITH_TRUSTED, "CKA_WRAP_WITH_TRUSTED"),
  (CKA_OTP_FORMAT, "CKA_OTP_FORMAT"),
  (CKA_OTP_LENGTH, "CKA_OTP_LENGTH"),
  (CKA_OTP_TIME_INTERVAL, "CKA_OTP_TIME_INTERVAL"),
  (CKA_OTP_USER_FRIENDLY_MODE, "CKA_OTP_USER_FRIENDLY_MODE"),
  (CKA_OTP_CHALLENGE_REQUIREMENT, "CKA_OTP_CHALLENGE_REQUIREMENT"),
  (CKA_OTP_TIME_REQUIREMENT, "CKA_OTP_TIME_REQUIREMENT"),
  (CKA_OTP_COUNTER_REQUIREMENT, "CKA_OTP_COUNTER_REQUIREMENT"),
  (CKA_OTP_PIN_REQUIREMENT, "CKA_OTP_PIN_REQUIREMENT"),
  (CKA_OTP_COUNTER, "CKA_OTP_COUNTER"),
  (CKA_OTP_TIME, "CKA_OTP_TIME"),
  (CKA_OTP_USER_IDENTIFIER, "CKA_OTP_USER_IDENTIFIER"),
  (CKA_OTP_SERVICE_IDENTIFIER, "CKA_OTP_SERVICE_IDENTIFIER"),
  (CKA_OTP_SERVICE_LOGO, "CKA_OTP_SERVICE_LOGO"),
  (CKA_OTP_SERVICE_LOGO_TYPE, "CKA_OTP_SERVICE_LOGO_TYPE"),
  (CKA_GOSTR3410_PARAMS, "CKA_GOSTR3410_PARAMS"),
  (CKA_GOSTR3411_PARAMS, "CKA_GOSTR3411_PARAMS"),
  (CKA_GOST28147_PARAMS, "CKA_GOST28147_PARAMS"),
  (CKA_HW_FEATURE_TYPE, "CKA_HW_FEATURE_TYPE"),
  (CKA_RESET_ON_INIT, "CKA_RESET_ON_INIT"),
  (CKA_HAS_RESET, "CKA_HAS_RESET"),
  (CKA_PIXEL_X, "CKA_PIXEL_X"),
  (CKA_PIXEL_Y, "CKA_PIXEL_Y"),
  (CKA_RESOLUTION, "CKA_RESOLUTION"),
  (CKA_CHAR_ROWS, "CKA_CHAR_ROWS"),
  (CKA_CHAR_COLUMNS, "CKA_CHAR_COLUMNS"),
  (CKA_COLOR, "CKA_COLOR"),
  (CKA_BITS_PER_PIXEL, "CKA_BITS_PER_PIXEL"),
  (CKA_CHAR_SETS, "CKA_CHAR_SETS"),
  (CKA_ENCODING_METHODS, "CKA_ENCODING_METHODS"),
  (CKA_MIME_TYPES, "CKA_MIME_TYPES"),
  (CKA_MECHANISM_TYPE, "CKA_MECHANISM_TYPE"),
  (CKA_REQUIRED_CMS_ATTRIBUTES, "CKA_REQUIRED_CMS_ATTRIBUTES"),
  (CKA_DEFAULT_CMS_ATTRIBUTES, "CKA_DEFAULT_CMS_ATTRIBUTES"),
  (CKA_SUPPORTED_CMS_ATTRIBUTES, "CKA_SUPPORTED_CMS_ATTRIBUTES"),
  (CKA_PROFILE_ID, "CKA_PROFILE_ID"),
  (CKA_X2RATCHET_BAG, "CKA_X2RATCHET_BAG"),
  (CKA_X2RATCHET_BAGSIZE, "CKA_X2RATCHET_BAGSIZE"),
  (CKA_X2RATCHET_BOBS1STMSG, "CKA_X2RATCHET_BOBS1STMSG"),
  (CKA_X2RATCHET_CKR, "CKA_X2RATCHET_CKR"),
  (CKA_X2RATCHET_CKS, "CKA_X2RATCHET_CKS"),
  (CKA_X2RATCHET_DHP, "CKA_X2RATCHET_DHP"),
  (CKA_X2RATCHET_DHR, "CKA_X2RATCHET_DHR"),
  (CKA_X2RATCHET_DHS, "CKA_X2RATCHET_DHS"),
  (CKA_X2RATCHET_HKR, "CKA_X2RATCHET_HKR"),
  (CKA_X2RATCHET_HKS, "CKA_X2RATCHET_HKS"),
  (CKA_X2RATCHET_ISALICE, "CKA_X2RATCHET_ISALICE"),
  (CKA_X2RATCHET_NHKR, "CKA_X2RATCHET_NHKR"),
  (CKA_X2RATCHET_NHKS, "CKA_X2RATCHET_NHKS"),
  (CKA_X2RATCHET_NR, "CKA_X2RATCHET_NR"),
  (CKA_X2RATCHET_NS, "CKA_X2RATCHET_NS"),
  (CKA_X2RATCHET_PNS, "CKA_X2RATCHET_PNS"),
  (CKA_X2RATCHET_RK, "CKA_X2RATCHET_RK"),
  (CKA_HSS_LEVELS, "CKA_HSS_LEVELS"),
  (CKA_HSS_LMS_TYPE, "CKA_HSS_LMS_TYPE"),
  (CKA_HSS_LMOTS_TYPE, "CKA_HSS_LMOTS_TYPE"),
  (CKA_HSS_LMS_TYPES, "CKA_HSS_LMS_TYPES"),
  (CKA_HSS_LMOTS_TYPES, "CKA_HSS_LMOTS_TYPES"),
  (CKA_HSS_KEYS_REMAINING, "CKA_HSS_KEYS_REMAINING"),
  (CKA_PARAMETER_SET, "CKA_PARAMETER_SET"),
  (CKA_OBJECT_VALIDATION_FLAGS, "CKA_OBJECT_VALIDATION_FLAGS"),
  (CKA_VALIDATION_TYPE, "CKA_VALIDATION_TYPE"),
  (CKA_VALIDATION_VERSION, "CKA_VALIDATION_VERSION"),
  (CKA_VALIDATION_LEVEL, "CKA_VALIDATION_LEVEL"),
  (CKA_VALIDATION_MODULE_ID, "CKA_VALIDATION_MODULE_ID"),
  (CKA_VALIDATION_FLAG, "CKA_VALIDATION_FLAG"),
  (CKA_VALIDATION_AUTHORITY_TYPE, "CKA_VALIDATION_AUTHORITY_TYPE"),
  (CKA_VALIDATION_COUNTRY, "CKA_VALIDATION_COUNTRY"),
  (CKA_VALIDATION_CERTIFICATE_IDENTIFIER, "CKA_VALIDATION_CERTIFICATE_IDENTIFIER"),
  (CKA_VALIDATION_CERTIFICATE_URI, "CKA_VALIDATION_CERTIFICATE_URI"),
  (CKA_VALIDATION_VENDOR_URI, "CKA_VALIDATION_VENDOR_URI"),
  (CKA_VALIDATION_PROFILE, "CKA_VALIDATION_PROFILE"),
  (CKA_ENCAPSULATE_TEMPLATE, "CKA_ENCAPSULATE_TEMPLATE"),
  (CKA_DECAPSULATE_TEMPLATE, "CKA_DECAPSULATE_TEMPLATE"),
  (CKA_TRUST_SERVER_AUTH, "CKA_TRUST_SERVER_AUTH"),
  (CKA_TRUST_CLIENT_AUTH, "CKA_TRUST_CLIENT_AUTH"),
  (CKA_TRUST_CODE_SIGNING, "CKA_TRUST_CODE_SIGNING"),
  (CKA_TRUST_EMAIL_PROTECTION, "CKA_TRUST_EMAIL_PROTECTION"),
  (CKA_TRUST_IPSEC_IKE, "CKA_TRUST_IPSEC_IKE"),
  (CKA_TRUST_TIME_STAMPING, "CKA_TRUST_TIME_STAMPING"),
  (CKA_TRUST_OCSP_SIGNING, "CKA_TRUST_OCSP_SIGNING"),
  (CKA_ENCAPSULATE, "CKA_ENCAPSULATE"),
  (CKA_DECAPSULATE, "CKA_DECAPSULATE"),
  (CKA_HASH_OF_CERTIFICATE, "CKA_HASH_OF_CERTIFICATE"),
  (CKA_PUBLIC_CRC64_VALUE, "CKA_PUBLIC_CRC64_VALUE"),
  (CKA_SEED, "CKA_SEED"),
  (CKA_WRAP_TEMPLATE, "CKA_WRAP_TEMPLATE"),
  (CKA_UNWRAP_TEMPLATE, "CKA_UNWRAP_TEMPLATE"),
  (CKA_DERIVE_TEMPLATE, "CKA_DERIVE_TEMPLATE"),
  (CKA_ALLOWED_MECHANISMS, "CKA_ALLOWED_MECHANISMS"),
  (CKA_VENDOR_DEFINED, "CKA_VENDOR_DEFINED")]

/-- `static OBJMAP` (`src/pkcs11/mod.rs:799-813`), in file order. -/
def objNames : List (Nat × String) := [
  (CKO_DATA, "CKO_DATA"),
  (CKO_CERTIFICATE, "CKO_CERTIFICATE"),
  (CKO_PUBLIC_KEY, "CKO_PUBLIC_KEY"),
  (CKO_PRIVATE_KEY, "CKO_PRIVATE_KEY"),
  (CKO_SECRET_KEY, "CKO_SECRET_KEY"),
  (CKO_HW_FEATURE, "CKO_HW_FEATURE"),
  (CKO_DOMAIN_PARAMETERS, "CKO_DOMAIN_PARAMETERS"),
  (CKO_MECHANISM, "CKO_MECHANISM"),
  (CKO_OTP_KEY, "CKO_OTP_KEY"),
  (CKO_PROFILE, "CKO_PROFILE"),
  (CKO_VALIDATION, "CKO_VALIDATION"),
  (CKO_TRUST, "CKO_TRUST"),
  (CKO_VENDOR_DEFINED, "CKO_VENDOR_DEFINED")]

end Kry
