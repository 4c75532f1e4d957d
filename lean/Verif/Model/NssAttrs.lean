import Verif.Model.Base

/-! The attribute table of the NSS database backend.  GENERATED by tools/gen_nss.py from `src/storage/nssdb/attrs.rs:174-369`; do not edit. -/

namespace Kry

/-- `NssAttributeInfo` (`src/storage/nssdb/attrs.rs:67-74`). -/
structure NssAttr where
  typ : Nat
  authenticated : Bool := false
  sensitive : Bool := false
  masked : Bool := false
  skippable : Bool := false
  deprecated : Bool := false
deriving DecidableEq, Repr

/-- `ALL_ATTRIBUTES` (`src/storage/nssdb/attrs.rs:174-369`), in file order; the NSS vendor constants are at `src/storage/nssdb/attrs.rs:12-64`. -/
def nssAttrs : List NssAttr := [
  { typ := CKA_CLASS },
  { typ := CKA_TOKEN },
  { typ := CKA_PRIVATE },
  { typ := CKA_LABEL },
  { typ := CKA_UNIQUE_ID },
  { typ := CKA_APPLICATION },
  { typ := CKA_VALUE, sensitive := true },
  { typ := CKA_OBJECT_ID },
  { typ := CKA_CERTIFICATE_TYPE },
  { typ := CKA_ISSUER },
  { typ := CKA_SERIAL_NUMBER },
  { typ := CKA_AC_ISSUER },
  { typ := CKA_OWNER },
  { typ := CKA_ATTR_TYPES },
  { typ := CKA_TRUSTED },
  { typ := CKA_CERTIFICATE_CATEGORY },
  { typ := CKA_JAVA_MIDP_SECURITY_DOMAIN },
  { typ := CKA_URL },
  { typ := CKA_HASH_OF_SUBJECT_PUBLIC_KEY },
  { typ := CKA_HASH_OF_ISSUER_PUBLIC_KEY },
  { typ := CKA_NAME_HASH_ALGORITHM, authenticated := true },
  { typ := CKA_CHECK_VALUE },
  { typ := CKA_KEY_TYPE },
  { typ := CKA_SUBJECT },
  { typ := CKA_ID },
  { typ := CKA_SENSITIVE },
  { typ := CKA_ENCRYPT },
  { typ := CKA_DECRYPT },
  { typ := CKA_WRAP },
  { typ := CKA_UNWRAP },
  { typ := CKA_SIGN },
  { typ := CKA_SIGN_RECOVER },
  { typ := CKA_VERIFY },
  { typ := CKA_VERIFY_RECOVER },
  { typ := CKA_DERIVE },
  { typ := CKA_START_DATE },
  { typ := CKA_END_DATE },
  { typ := CKA_MODULUS, authenticated := true },
  { typ := CKA_MODULUS_BITS },
  { typ := CKA_PUBLIC_EXPONENT, authenticated := true },
  { typ := CKA_PRIVATE_EXPONENT, sensitive := true },
  { typ := CKA_PRIME_1, sensitive := true },
  { typ := CKA_PRIME_2, sensitive := true },
  { typ := CKA_EXPONENT_1, sensitive := true },
  { typ := CKA_EXPONENT_2, sensitive := true },
  { typ := CKA_COEFFICIENT, sensitive := true },
  { typ := CKA_PUBLIC_KEY_INFO },
  { typ := CKA_PRIME },
  { typ := CKA_SUBPRIME },
  { typ := CKA_BASE },
  { typ := CKA_PRIME_BITS },
  { typ := CKA_SUB_PRIME_BITS },
  { typ := CKA_VALUE_BITS },
  { typ := CKA_VALUE_LEN },
  { typ := CKA_EXTRACTABLE },
  { typ := CKA_LOCAL },
  { typ := CKA_NEVER_EXTRACTABLE },
  { typ := CKA_ALWAYS_SENSITIVE },
  { typ := CKA_KEY_GEN_MECHANISM },
  { typ := CKA_MODIFIABLE },
  { typ := CKA_COPYABLE },
  { typ := CKA_DESTROYABLE },
  { typ := CKA_EC_PARAMS },
  { typ := CKA_EC_POINT },
  { typ := 0x200, deprecated := true }, -- DEPRECATED_CKA_SECONDARY_AUTH
  { typ := 0x201, deprecated := true }, -- DEPRECATED_CKA_AUTH_PIN_FLAGS
  { typ := CKA_ALWAYS_AUTHENTICATE },
  { typ := CKA_WRAP_WITH_TRUSTED },
  { typ := CKA_WRAP_TEMPLATE },
  { typ := CKA_UNWRAP_TEMPLATE },
  { typ := CKA_DERIVE_TEMPLATE },
  { typ := CKA_OTP_FORMAT },
  { typ := CKA_OTP_LENGTH },
  { typ := CKA_OTP_TIME_INTERVAL },
  { typ := CKA_OTP_USER_FRIENDLY_MODE },
  { typ := CKA_OTP_CHALLENGE_REQUIREMENT },
  { typ := CKA_OTP_TIME_REQUIREMENT },
  { typ := CKA_OTP_COUNTER_REQUIREMENT },
  { typ := CKA_OTP_PIN_REQUIREMENT },
  { typ := CKA_OTP_COUNTER },
  { typ := CKA_OTP_TIME },
  { typ := CKA_OTP_USER_IDENTIFIER },
  { typ := CKA_OTP_SERVICE_IDENTIFIER },
  { typ := CKA_OTP_SERVICE_LOGO },
  { typ := CKA_OTP_SERVICE_LOGO_TYPE },
  { typ := CKA_GOSTR3410_PARAMS },
  { typ := CKA_GOSTR3411_PARAMS },
  { typ := CKA_GOST28147_PARAMS },
  { typ := CKA_HW_FEATURE_TYPE },
  { typ := CKA_RESET_ON_INIT },
  { typ := CKA_HAS_RESET },
  { typ := CKA_PIXEL_X },
  { typ := CKA_PIXEL_Y },
  { typ := CKA_RESOLUTION },
  { typ := CKA_CHAR_ROWS },
  { typ := CKA_CHAR_COLUMNS },
  { typ := CKA_COLOR },
  { typ := CKA_BITS_PER_PIXEL },
  { typ := CKA_CHAR_SETS },
  { typ := CKA_ENCODING_METHODS },
  { typ := CKA_MIME_TYPES },
  { typ := CKA_MECHANISM_TYPE },
  { typ := CKA_REQUIRED_CMS_ATTRIBUTES },
  { typ := CKA_DEFAULT_CMS_ATTRIBUTES },
  { typ := CKA_SUPPORTED_CMS_ATTRIBUTES },
  { typ := CKA_PROFILE_ID },
  { typ := CKA_X2RATCHET_BAG },
  { typ := CKA_X2RATCHET_BAGSIZE },
  { typ := CKA_X2RATCHET_BOBS1STMSG },
  { typ := CKA_X2RATCHET_CKR },
  { typ := CKA_X2RATCHET_CKS },
  { typ := CKA_X2RATCHET_DHP },
  { typ := CKA_X2RATCHET_DHR },
  { typ := CKA_X2RATCHET_DHS },
  { typ := CKA_X2RATCHET_HKR },
  { typ := CKA_X2RATCHET_HKS },
  { typ := CKA_X2RATCHET_ISALICE },
  { typ := CKA_X2RATCHET_NHKR },
  { typ := CKA_X2RATCHET_NHKS },
  { typ := CKA_X2RATCHET_NR },
  { typ := CKA_X2RATCHET_NS },
  { typ := CKA_X2RATCHET_PNS },
  { typ := CKA_X2RATCHET_RK },
  { typ := CKA_HSS_LEVELS },
  { typ := CKA_HSS_LMS_TYPE },
  { typ := CKA_HSS_LMOTS_TYPE },
  { typ := CKA_HSS_LMS_TYPES },
  { typ := CKA_HSS_LMOTS_TYPES },
  { typ := CKA_HSS_KEYS_REMAINING },
  { typ := CKA_OBJECT_VALIDATION_FLAGS },
  { typ := CKA_PARAMETER_SET },
  { typ := CKA_VALIDATION_TYPE },
  { typ := CKA_VALIDATION_VERSION },
  { typ := CKA_VALIDATION_LEVEL },
  { typ := CKA_VALIDATION_MODULE_ID },
  { typ := CKA_VALIDATION_FLAG },
  { typ := CKA_VALIDATION_AUTHORITY_TYPE },
  { typ := CKA_VALIDATION_COUNTRY },
  { typ := CKA_VALIDATION_CERTIFICATE_IDENTIFIER },
  { typ := CKA_VALIDATION_CERTIFICATE_URI },
  { typ := CKA_VALIDATION_PROFILE },
  { typ := CKA_VALIDATION_VENDOR_URI },
  { typ := CKA_ENCAPSULATE_TEMPLATE },
  { typ := CKA_DECAPSULATE_TEMPLATE },
  { typ := CKA_TRUST_SERVER_AUTH, authenticated := true },
  { typ := CKA_TRUST_CLIENT_AUTH, authenticated := true },
  { typ := CKA_TRUST_CODE_SIGNING, authenticated := true },
  { typ := CKA_TRUST_EMAIL_PROTECTION, authenticated := true },
  { typ := CKA_TRUST_IPSEC_IKE, authenticated := true },
  { typ := CKA_TRUST_TIME_STAMPING, authenticated := true },
  { typ := CKA_TRUST_OCSP_SIGNING, authenticated := true },
  { typ := CKA_ENCAPSULATE },
  { typ := CKA_DECAPSULATE },
  { typ := CKA_HASH_OF_CERTIFICATE, authenticated := true },
  { typ := CKA_PUBLIC_CRC64_VALUE },
  { typ := CKA_SEED, sensitive := true },
  { typ := 0x80000001, masked := true }, -- CKA_NSS_TRUST
  { typ := 0xce534351, masked := true }, -- CKA_NSS_URL
  { typ := 0xce534352, masked := true }, -- CKA_NSS_EMAIL
  { typ := 0xce534353, masked := true }, -- CKA_NSS_SMIME_INFO
  { typ := 0xce534354, masked := true }, -- CKA_NSS_SMIME_TIMESTAMP
  { typ := 0xce534355, masked := true }, -- CKA_NSS_PKCS8_SALT
  { typ := 0xce534356, masked := true }, -- CKA_NSS_PASSWORD_CHECK
  { typ := 0xce534357, masked := true }, -- CKA_NSS_EXPIRES
  { typ := 0xce534358, masked := true }, -- CKA_NSS_KRL
  { typ := 0xce534364, masked := true }, -- CKA_NSS_PQG_COUNTER
  { typ := 0xce534365, masked := true }, -- CKA_NSS_PQG_SEED
  { typ := 0xce534366, masked := true }, -- CKA_NSS_PQG_H
  { typ := 0xce534367, masked := true }, -- CKA_NSS_PQG_SEED_BITS
  { typ := 0xce534368, masked := true }, -- CKA_NSS_MODULE_SPEC
  { typ := 0xce534369, authenticated := true, masked := true }, -- CKA_NSS_OVERRIDE_EXTENSIONS
  { typ := 0xce534373, masked := true }, -- CKA_NSS_SERVER_DISTRUST_AFTER
  { typ := 0xce534374, masked := true }, -- CKA_NSS_EMAIL_DISTRUST_AFTER
  { typ := CKA_NSS_TRUST_DIGITAL_SIGNATURE, masked := true },
  { typ := CKA_NSS_TRUST_NON_REPUDIATION, masked := true },
  { typ := CKA_NSS_TRUST_KEY_ENCIPHERMENT, masked := true },
  { typ := CKA_NSS_TRUST_DATA_ENCIPHERMENT, masked := true },
  { typ := CKA_NSS_TRUST_KEY_AGREEMENT, masked := true },
  { typ := CKA_NSS_TRUST_KEY_CERT_SIGN, masked := true },
  { typ := CKA_NSS_TRUST_CRL_SIGN, masked := true },
  { typ := CKA_NSS_TRUST_SERVER_AUTH, authenticated := true },
  { typ := CKA_NSS_TRUST_CLIENT_AUTH, authenticated := true },
  { typ := CKA_NSS_TRUST_CODE_SIGNING, authenticated := true },
  { typ := CKA_NSS_TRUST_EMAIL_PROTECTION, authenticated := true },
  { typ := CKA_NSS_TRUST_IPSEC_END_SYSTEM, masked := true },
  { typ := CKA_NSS_TRUST_IPSEC_TUNNEL, masked := true },
  { typ := CKA_NSS_TRUST_IPSEC_USER, masked := true },
  { typ := CKA_NSS_TRUST_TIME_STAMPING, masked := true },
  { typ := CKA_NSS_TRUST_STEP_UP_APPROVED, authenticated := true },
  { typ := CKA_NSS_CERT_SHA1_HASH, authenticated := true },
  { typ := CKA_NSS_CERT_MD5_HASH, authenticated := true },
  { typ := 0xd5a0db00, masked := true }, -- CKA_NSS_DB
  { typ := CKA_ALLOWED_MECHANISMS, skippable := true }]

end Kry
