import Verif.Model.Base

/-! The attribute map.  GENERATED by tools/gen_consts.py from `src/attribute.rs:116-290`
(static `ATTRMAP`, with the `nssdb` feature entries); do not edit. -/

namespace Kry

/-- `static ATTRMAP` of `src/attribute.rs:116-290`: attribute id and value kind, in file order.
The `name` column (used only by JSON tooling) is dropped. -/
def attrMap : List (Nat × AttrType) := [
  (CKA_CLASS, .num),
  (CKA_TOKEN, .bool),
  (CKA_PRIVATE, .bool),
  (CKA_LABEL, .string),
  (CKA_UNIQUE_ID, .string),
  (CKA_APPLICATION, .string),
  (CKA_VALUE, .bytes),
  (CKA_OBJECT_ID, .bytes),
  (CKA_CERTIFICATE_TYPE, .num),
  (CKA_ISSUER, .bytes),
  (CKA_SERIAL_NUMBER, .bytes),
  (CKA_AC_ISSUER, .bytes),
  (CKA_OWNER, .bytes),
  (CKA_ATTR_TYPES, .bytes),
  (CKA_TRUSTED, .bool),
  (CKA_CERTIFICATE_CATEGORY, .num),
  (CKA_JAVA_MIDP_SECURITY_DOMAIN, .num),
  (CKA_URL, .string),
  (CKA_HASH_OF_SUBJECT_PUBLIC_KEY, .bytes),
  (CKA_HASH_OF_ISSUER_PUBLIC_KEY, .bytes),
  (CKA_NAME_HASH_ALGORITHM, .num),
  (CKA_CHECK_VALUE, .ignore),
  (CKA_KEY_TYPE, .num),
  (CKA_SUBJECT, .bytes),
  (CKA_ID, .bytes),
  (CKA_SENSITIVE, .bool),
  (CKA_ENCRYPT, .bool),
  (CKA_DECRYPT, .bool),
  (CKA_WRAP, .bool),
  (CKA_UNWRAP, .bool),
  (CKA_SIGN, .bool),
  (CKA_SIGN_RECOVER, .bool),
  (CKA_VERIFY, .bool),
  (CKA_VERIFY_RECOVER, .bool),
  (CKA_DERIVE, .bool),
  (CKA_START_DATE, .date),
  (CKA_END_DATE, .date),
  (CKA_MODULUS, .bytes),
  (CKA_MODULUS_BITS, .num),
  (CKA_PUBLIC_EXPONENT, .bytes),
  (CKA_PRIVATE_EXPONENT, .bytes),
  (CKA_PRIME_1, .bytes),
  (CKA_PRIME_2, .bytes),
  (CKA_EXPONENT_1, .bytes),
  (CKA_EXPONENT_2, .bytes),
  (CKA_COEFFICIENT, .bytes),
  (CKA_PUBLIC_KEY_INFO, .bytes),
  (CKA_PRIME, .bytes),
  (CKA_SUBPRIME, .bytes),
  (CKA_BASE, .bytes),
  (CKA_PRIME_BITS, .bytes),
  (CKA_SUBPRIME_BITS, .num),
  (CKA_VALUE_BITS, .num),
  (CKA_VALUE_LEN, .num),
  (CKA_EXTRACTABLE, .bool),
  (CKA_LOCAL, .bool),
  (CKA_NEVER_EXTRACTABLE, .bool),
  (CKA_ALWAYS_SENSITIVE, .bool),
  (CKA_KEY_GEN_MECHANISM, .num),
  (CKA_MODIFIABLE, .bool),
  (CKA_COPYABLE, .bool),
  (CKA_DESTROYABLE, .bool),
  (CKA_EC_PARAMS, .bytes),
  (CKA_EC_POINT, .bytes),
  (CKA_ALWAYS_AUTHENTICATE, .bool),
  (CKA_WRAP_WITH_TRUSTED, .bool),
  (CKA_OTP_FORMAT, .num),
  (CKA_OTP_LENGTH, .num),
  (CKA_OTP_TIME_INTERVAL, .num),
  (CKA_OTP_USER_FRIENDLY_MODE, .bool),
  (CKA_OTP_CHALLENGE_REQUIREMENT, .num),
  (CKA_OTP_TIME_REQUIREMENT, .num),
  (CKA_OTP_COUNTER_REQUIREMENT, .num),
  (CKA_OTP_PIN_REQUIREMENT, .num),
  (CKA_OTP_USER_IDENTIFIER, .string),
  (CKA_OTP_SERVICE_IDENTIFIER, .string),
  (CKA_OTP_SERVICE_LOGO, .bytes),
  (CKA_OTP_SERVICE_LOGO_TYPE, .string),
  (CKA_OTP_COUNTER, .bytes),
  (CKA_OTP_TIME, .string),
  (CKA_GOSTR3410_PARAMS, .bytes),
  (CKA_GOSTR3411_PARAMS, .bytes),
  (CKA_GOST28147_PARAMS, .bytes),
  (CKA_HW_FEATURE_TYPE, .num),
  (CKA_RESET_ON_INIT, .bool),
  (CKA_HAS_RESET, .bool),
  (CKA_PIXEL_X, .num),
  (CKA_PIXEL_Y, .num),
  (CKA_RESOLUTION, .num),
  (CKA_CHAR_ROWS, .num),
  (CKA_CHAR_COLUMNS, .num),
  (CKA_COLOR, .bool),
  (CKA_BITS_PER_PIXEL, .num),
  (CKA_CHAR_SETS, .string),
  (CKA_ENCODING_METHODS, .string),
  (CKA_MIME_TYPES, .string),
  (CKA_MECHANISM_TYPE, .num),
  (CKA_REQUIRED_CMS_ATTRIBUTES, .bytes),
  (CKA_DEFAULT_CMS_ATTRIBUTES, .bytes),
  (CKA_SUPPORTED_CMS_ATTRIBUTES, .bytes),
  (CKA_PROFILE_ID, .num),
  (CKA_X2RATCHET_BAG, .bytes),
  (CKA_X2RATCHET_BAGSIZE, .num),
  (CKA_X2RATCHET_BOBS1STMSG, .bool),
  (CKA_X2RATCHET_CKR, .bytes),
  (CKA_X2RATCHET_CKS, .bytes),
  (CKA_X2RATCHET_DHP, .bytes),
  (CKA_X2RATCHET_DHR, .bytes),
  (CKA_X2RATCHET_DHS, .bytes),
  (CKA_X2RATCHET_HKR, .bytes),
  (CKA_X2RATCHET_HKS, .bytes),
  (CKA_X2RATCHET_ISALICE, .bool),
  (CKA_X2RATCHET_NHKR, .bytes),
  (CKA_X2RATCHET_NHKS, .bytes),
  (CKA_X2RATCHET_NR, .num),
  (CKA_X2RATCHET_NS, .num),
  (CKA_X2RATCHET_PNS, .num),
  (CKA_X2RATCHET_RK, .bytes),
  (CKA_HSS_LEVELS, .num),
  (CKA_HSS_LMS_TYPE, .num),
  (CKA_HSS_LMOTS_TYPE, .num),
  (CKA_HSS_LMS_TYPES, .bytes),
  (CKA_HSS_LMOTS_TYPES, .bytes),
  (CKA_HSS_KEYS_REMAINING, .num),
  (CKA_PARAMETER_SET, .num),
  (CKA_OBJECT_VALIDATION_FLAGS, .num),
  (CKA_VALIDATION_TYPE, .num),
  (CKA_VALIDATION_VERSION, .bytes),
  (CKA_VALIDATION_LEVEL, .num),
  (CKA_VALIDATION_MODULE_ID, .string),
  (CKA_VALIDATION_FLAG, .num),
  (CKA_VALIDATION_AUTHORITY_TYPE, .num),
  (CKA_VALIDATION_COUNTRY, .string),
  (CKA_VALIDATION_CERTIFICATE_IDENTIFIER, .string),
  (CKA_VALIDATION_CERTIFICATE_URI, .string),
  (CKA_VALIDATION_VENDOR_URI, .string),
  (CKA_VALIDATION_PROFILE, .string),
  (CKA_ENCAPSULATE_TEMPLATE, .deny),
  (CKA_DECAPSULATE_TEMPLATE, .deny),
  (CKA_TRUST_SERVER_AUTH, .num),
  (CKA_TRUST_CLIENT_AUTH, .num),
  (CKA_TRUST_CODE_SIGNING, .num),
  (CKA_TRUST_EMAIL_PROTECTION, .num),
  (CKA_TRUST_IPSEC_IKE, .num),
  (CKA_TRUST_TIME_STAMPING, .num),
  (CKA_TRUST_OCSP_SIGNING, .num),
  (CKA_ENCAPSULATE, .bool),
  (CKA_DECAPSULATE, .bool),
  (CKA_HASH_OF_CERTIFICATE, .bytes),
  (CKA_PUBLIC_CRC64_VALUE, .bytes),
  (CKA_SEED, .bytes),
  (CKA_WRAP_TEMPLATE, .deny),
  (CKA_UNWRAP_TEMPLATE, .deny),
  (CKA_DERIVE_TEMPLATE, .deny),
  (CKA_ALLOWED_MECHANISMS, .ulongArray),
  (CKA_VENDOR_DEFINED, .deny),
  (KRA_MAX_LOGIN_ATTEMPTS, .num),
  (KRA_LOGIN_ATTEMPTS, .num),
  (CKA_NSS_TRUST_SERVER_AUTH, .num),
  (CKA_NSS_TRUST_CLIENT_AUTH, .num),
  (CKA_NSS_TRUST_CODE_SIGNING, .num),
  (CKA_NSS_TRUST_EMAIL_PROTECTION, .num),
  (CKA_NSS_TRUST_STEP_UP_APPROVED, .num),
  (CKA_NSS_CERT_SHA1_HASH, .bytes),
  (CKA_NSS_CERT_MD5_HASH, .bytes)
]

end Kry
