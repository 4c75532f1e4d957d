import Verif.Model.Factory0

/-! Attribute tables of the object factories.  GENERATED by tools/gen_factories.py from the
`attr_element!` lists of the Rust sources; do not edit.  The number in the comment after an entry is
the source line of that entry. -/

namespace Kry

/-- Common object attributes, `add_common_object_attrs` (`src/object/factory.rs:265-273`). -/
def commonObjectAttrs : List FAttr :=
  [
  ⟨.ofUlong CKA_CLASS 0, oaRequiredOnCreate⟩ /- :267 -/,
  ⟨.ofString CKA_UNIQUE_ID [], oaNeverSettable ||| oaUnchangeable⟩ /- :270 -/]

/-- Storage object attributes, `add_common_storage_attrs` (`src/object/factory.rs:276-297`). -/
def commonStorageAttrs (priv : Bool) : List FAttr :=
  commonObjectAttrs ++ [
  ⟨.ofBool CKA_TOKEN false, oaDefval ||| oaChangeOnCopy⟩ /- :279 -/,
  ⟨.ofBool CKA_PRIVATE priv, oaDefval ||| oaChangeOnCopy⟩ /- :282 -/,
  ⟨.ofBool CKA_MODIFIABLE true, oaDefval ||| oaChangeOnCopy⟩ /- :285 -/,
  ⟨.ofString CKA_LABEL [], 0⟩ /- :288 -/,
  ⟨.ofBool CKA_COPYABLE true, oaDefval ||| oaChangeToFalse⟩ /- :291 -/,
  ⟨.ofBool CKA_DESTROYABLE true, oaDefval⟩ /- :294 -/]

/-- `DataFactory::new` (`src/object/factory.rs:580-602`). -/
def dataAttrs : List FAttr :=
  commonStorageAttrs false ++ [
  ⟨.ofString CKA_APPLICATION [], oaDefval⟩ /- :589 -/,
  ⟨.ofBytes CKA_OBJECT_ID [], 0⟩ /- :592 -/,
  ⟨.ofBytes CKA_VALUE [], oaDefval⟩ /- :595 -/]

/-- `ProfileFactory::new` (`src/object/factory.rs:641-657`). -/
def profileAttrs : List FAttr :=
  commonObjectAttrs ++ [
  ⟨.ofUlong CKA_PROFILE_ID CK_UNAVAILABLE_INFORMATION, oaRequiredOnCreate⟩ /- :650 -/]

/-- `MechanismFactory::new` (`src/object/factory.rs:708-724`). -/
def mechanismAttrs : List FAttr :=
  commonObjectAttrs ++ [
  ⟨.ofUlong CKA_MECHANISM_TYPE CK_UNAVAILABLE_INFORMATION, oaRequiredOnCreate⟩ /- :717 -/]

/-- Common key attributes, `add_common_key_attrs` (`src/object/key.rs:24-54`). -/
def commonKeyAttrs (priv : Bool) : List FAttr :=
  commonStorageAttrs priv ++ [
  ⟨.ofUlong CKA_KEY_TYPE CK_UNAVAILABLE_INFORMATION, oaRequiredOnCreate⟩ /- :27 -/,
  ⟨.ofBytes CKA_ID [], 0⟩ /- :30 -/,
  ⟨.ofDate CKA_START_DATE [], oaDefval⟩ /- :33 -/,
  ⟨.ofDate CKA_END_DATE [], oaDefval⟩ /- :36 -/,
  ⟨.ofBool CKA_DERIVE false, oaDefval⟩ /- :39 -/,
  ⟨.ofBool CKA_LOCAL false, oaDefval ||| oaNeverSettable⟩ /- :41 -/,
  ⟨.ofUlong CKA_KEY_GEN_MECHANISM CK_UNAVAILABLE_INFORMATION, oaDefval ||| oaNeverSettable⟩ /- :44 -/,
  ⟨.ofBytes CKA_ALLOWED_MECHANISMS [], 0⟩ /- :47 -/,
  ⟨.ofUlong CKA_OBJECT_VALIDATION_FLAGS 0, oaNeverSettable ||| oaEphemeral⟩ /- :50 -/]

/-- `add_common_public_key_attrs` (`src/object/key.rs:224-251`). -/
def commonPublicKeyAttrs : List FAttr :=
  commonKeyAttrs false ++ [
  ⟨.ofBytes CKA_SUBJECT [], oaDefval⟩ /- :227 -/,
  ⟨.ofBool CKA_ENCRYPT false, oaDefval⟩ /- :230 -/,
  ⟨.ofBool CKA_VERIFY false, oaDefval⟩ /- :232 -/,
  ⟨.ofBool CKA_VERIFY_RECOVER false, oaDefval⟩ /- :234 -/,
  ⟨.ofBool CKA_WRAP false, oaDefval⟩ /- :237 -/,
  ⟨.ofBool CKA_TRUSTED false, oaNeverSettable ||| oaDefval⟩ /- :239 -/,
  ⟨.ofBytes CKA_WRAP_TEMPLATE [], 0⟩ /- :242 -/,
  ⟨.ofBytes CKA_PUBLIC_KEY_INFO [], 0⟩ /- :245 -/,
  ⟨.ofBool CKA_ENCAPSULATE false, oaDefval⟩ /- :248 -/]

/-- `add_common_private_key_attrs` (`src/object/key.rs:271-316`). -/
def commonPrivateKeyAttrs : List FAttr :=
  commonKeyAttrs true ++ [
  ⟨.ofBytes CKA_SUBJECT [], oaDefval⟩ /- :274 -/,
  ⟨.ofBool CKA_SENSITIVE true, oaDefval ||| oaChangeToTrue⟩ /- :277 -/,
  ⟨.ofBool CKA_DECRYPT false, oaDefval⟩ /- :280 -/,
  ⟨.ofBool CKA_SIGN false, oaDefval⟩ /- :282 -/,
  ⟨.ofBool CKA_SIGN_RECOVER false, oaDefval⟩ /- :284 -/,
  ⟨.ofBool CKA_UNWRAP false, oaDefval⟩ /- :287 -/,
  ⟨.ofBool CKA_EXTRACTABLE false, oaChangeToFalse ||| oaDefval⟩ /- :289 -/,
  ⟨.ofBool CKA_ALWAYS_SENSITIVE false, oaNeverSettable⟩ /- :292 -/,
  ⟨.ofBool CKA_NEVER_EXTRACTABLE false, oaNeverSettable⟩ /- :295 -/,
  ⟨.ofBool CKA_WRAP_WITH_TRUSTED false, oaDefval ||| oaChangeToTrue⟩ /- :298 -/,
  ⟨.ofBytes CKA_UNWRAP_TEMPLATE [], 0⟩ /- :301 -/,
  ⟨.ofBool CKA_ALWAYS_AUTHENTICATE false, oaDefval⟩ /- :304 -/,
  ⟨.ofBytes CKA_PUBLIC_KEY_INFO [], 0⟩ /- :307 -/,
  ⟨.ofBytes CKA_DERIVE_TEMPLATE [], 0⟩ /- :310 -/,
  ⟨.ofBool CKA_DECAPSULATE false, oaDefval⟩ /- :313 -/]

/-- `add_common_secret_key_attrs` (`src/object/key.rs:327-372`). -/
def commonSecretKeyAttrs : List FAttr :=
  commonKeyAttrs true ++ [
  ⟨.ofBool CKA_SENSITIVE true, oaDefval ||| oaChangeToTrue⟩ /- :330 -/,
  ⟨.ofBool CKA_ENCRYPT false, oaDefval⟩ /- :333 -/,
  ⟨.ofBool CKA_DECRYPT false, oaDefval⟩ /- :335 -/,
  ⟨.ofBool CKA_SIGN false, oaDefval⟩ /- :337 -/,
  ⟨.ofBool CKA_VERIFY false, oaDefval⟩ /- :339 -/,
  ⟨.ofBool CKA_WRAP false, oaDefval⟩ /- :341 -/,
  ⟨.ofBool CKA_UNWRAP false, oaDefval⟩ /- :343 -/,
  ⟨.ofBool CKA_EXTRACTABLE false, oaChangeToFalse ||| oaDefval⟩ /- :345 -/,
  ⟨.ofBool CKA_ALWAYS_SENSITIVE false, oaNeverSettable⟩ /- :348 -/,
  ⟨.ofBool CKA_NEVER_EXTRACTABLE false, oaNeverSettable⟩ /- :351 -/,
  ⟨.ofIgnore CKA_CHECK_VALUE, oaIgnored⟩ /- :354 -/,
  ⟨.ofBool CKA_WRAP_WITH_TRUSTED false, oaDefval ||| oaChangeToTrue⟩ /- :357 -/,
  ⟨.ofBool CKA_TRUSTED false, oaNeverSettable ||| oaDefval⟩ /- :360 -/,
  ⟨.ofBytes CKA_WRAP_TEMPLATE [], 0⟩ /- :363 -/,
  ⟨.ofBytes CKA_UNWRAP_TEMPLATE [], 0⟩ /- :366 -/,
  ⟨.ofBytes CKA_DERIVE_TEMPLATE [], 0⟩ /- :369 -/]

/-- `GenericSecretKeyFactory::new` (`src/object/key.rs:519-548`). -/
def genericSecretAttrs : List FAttr :=
  replaceOrPush (commonSecretKeyAttrs ++ [
  ⟨.ofBytes CKA_VALUE [], oaSensitive ||| oaRequiredOnCreate ||| oaSettableOnlyOnCreate⟩ /- :529 -/,
  ⟨.ofBytes CKA_VALUE_LEN [], oaRequiredOnGenerate⟩ /- :533 -/])
  ⟨.ofBool CKA_PRIVATE true, oaDefval ||| oaChangeOnCopy⟩ /- :538 -/

/-- `add_common_certificate_attrs` (`src/object/certs.rs:23-48`). -/
def commonCertAttrs : List FAttr :=
  commonStorageAttrs false ++ [
  ⟨.ofUlong CKA_CERTIFICATE_TYPE 0, oaAlwaysRequired⟩ /- :26 -/,
  ⟨.ofBool CKA_TRUSTED false, oaDefval⟩ /- :29 -/,
  ⟨.ofUlong CKA_CERTIFICATE_CATEGORY CK_CERTIFICATE_CATEGORY_UNSPECIFIED, oaDefval⟩ /- :32 -/,
  ⟨.ofIgnore CKA_CHECK_VALUE, oaIgnored⟩ /- :36 -/,
  ⟨.ofDate CKA_START_DATE [], oaDefval⟩ /- :39 -/,
  ⟨.ofDate CKA_END_DATE [], oaDefval⟩ /- :42 -/,
  ⟨.ofBytes CKA_PUBLIC_KEY_INFO [], 0⟩ /- :45 -/]

/-- `X509Factory::new` (`src/object/certs.rs:95-140`). -/
def x509Attrs : List FAttr :=
  commonCertAttrs ++ [
  ⟨.ofBytes CKA_SUBJECT [], oaAlwaysRequired⟩ /- :105 -/,
  ⟨.ofBytes CKA_ID [], oaDefval⟩ /- :108 -/,
  ⟨.ofBytes CKA_ISSUER [], oaDefval⟩ /- :110 -/,
  ⟨.ofBytes CKA_SERIAL_NUMBER [], oaDefval⟩ /- :113 -/,
  ⟨.ofBytes CKA_VALUE [], oaAlwaysRequired⟩ /- :116 -/,
  ⟨.ofString CKA_URL [], 0⟩ /- :119 -/,
  ⟨.ofBytes CKA_HASH_OF_SUBJECT_PUBLIC_KEY [], oaDefval⟩ /- :122 -/,
  ⟨.ofBytes CKA_HASH_OF_ISSUER_PUBLIC_KEY [], oaDefval⟩ /- :125 -/,
  ⟨.ofUlong CKA_JAVA_MIDP_SECURITY_DOMAIN CK_SECURITY_DOMAIN_UNSPECIFIED, oaDefval⟩ /- :128 -/,
  ⟨.ofUlong CKA_NAME_HASH_ALGORITHM CKM_SHA_1, 0⟩ /- :131 -/]

/-- `TrustObject::new` (`src/object/certs.rs:219-277`). -/
def trustAttrs : List FAttr :=
  commonStorageAttrs false ++ [
  ⟨.ofBytes CKA_ISSUER [], oaRequiredOnCreate⟩ /- :232 -/,
  ⟨.ofBytes CKA_SERIAL_NUMBER [], oaRequiredOnCreate⟩ /- :238 -/,
  ⟨.ofBytes CKA_HASH_OF_CERTIFICATE [], 0⟩ /- :244 -/,
  ⟨.ofUlong CKA_NAME_HASH_ALGORITHM CKM_SHA_1, 0⟩ /- :250 -/,
  ⟨.ofUlong CKA_TRUST_SERVER_AUTH CKT_TRUST_UNKNOWN, oaDefval⟩ /- :268 -/,
  ⟨.ofUlong CKA_TRUST_CLIENT_AUTH CKT_TRUST_UNKNOWN, oaDefval⟩ /- :268 -/,
  ⟨.ofUlong CKA_TRUST_CODE_SIGNING CKT_TRUST_UNKNOWN, oaDefval⟩ /- :268 -/,
  ⟨.ofUlong CKA_TRUST_EMAIL_PROTECTION CKT_TRUST_UNKNOWN, oaDefval⟩ /- :268 -/,
  ⟨.ofUlong CKA_TRUST_IPSEC_IKE CKT_TRUST_UNKNOWN, oaDefval⟩ /- :268 -/,
  ⟨.ofUlong CKA_TRUST_TIME_STAMPING CKT_TRUST_UNKNOWN, oaDefval⟩ /- :268 -/,
  ⟨.ofUlong CKA_TRUST_OCSP_SIGNING CKT_TRUST_UNKNOWN, oaDefval⟩ /- :268 -/]

/-- `NSSTrustObject::new` (`src/object/certs.rs:351-421`). -/
def nssTrustAttrs : List FAttr :=
  commonStorageAttrs false ++ [
  ⟨.ofBytes CKA_ISSUER [], oaRequiredOnCreate⟩ /- :360 -/,
  ⟨.ofBytes CKA_SERIAL_NUMBER [], oaRequiredOnCreate⟩ /- :366 -/,
  ⟨.ofBytes CKA_NSS_CERT_SHA1_HASH [], oaRequiredOnCreate⟩ /- :372 -/,
  ⟨.ofBytes CKA_NSS_CERT_MD5_HASH [], oaRequiredOnCreate⟩ /- :378 -/,
  ⟨.ofUlong CKA_NSS_TRUST_SERVER_AUTH 0, 0⟩ /- :412 -/,
  ⟨.ofUlong CKA_NSS_TRUST_CLIENT_AUTH 0, 0⟩ /- :412 -/,
  ⟨.ofUlong CKA_NSS_TRUST_CODE_SIGNING 0, 0⟩ /- :412 -/,
  ⟨.ofUlong CKA_NSS_TRUST_EMAIL_PROTECTION 0, 0⟩ /- :412 -/,
  ⟨.ofUlong CKA_NSS_TRUST_STEP_UP_APPROVED 0, 0⟩ /- :412 -/]

/-- `add_common_otp_key_attrs` (`src/object/otp.rs:16-46`). -/
def commonOtpAttrs : List FAttr :=
  commonSecretKeyAttrs ++ [
  ⟨.ofUlong CKA_OTP_FORMAT CK_OTP_FORMAT_DECIMAL, oaDefval ||| oaSettableOnlyOnCreate⟩ /- :19 -/,
  ⟨.ofUlong CKA_OTP_LENGTH 6, oaDefval ||| oaSettableOnlyOnCreate⟩ /- :21 -/,
  ⟨.ofBool CKA_OTP_USER_FRIENDLY_MODE false, oaDefval⟩ /- :23 -/,
  ⟨.ofUlong CKA_OTP_CHALLENGE_REQUIREMENT CK_OTP_PARAM_IGNORED, oaDefval ||| oaSettableOnlyOnCreate⟩ /- :25 -/,
  ⟨.ofUlong CKA_OTP_TIME_REQUIREMENT CK_OTP_PARAM_IGNORED, oaDefval ||| oaSettableOnlyOnCreate⟩ /- :27 -/,
  ⟨.ofUlong CKA_OTP_COUNTER_REQUIREMENT CK_OTP_PARAM_IGNORED, oaDefval ||| oaSettableOnlyOnCreate⟩ /- :29 -/,
  ⟨.ofUlong CKA_OTP_PIN_REQUIREMENT CK_OTP_PARAM_IGNORED, oaDefval ||| oaSettableOnlyOnCreate⟩ /- :31 -/,
  ⟨.ofBytes CKA_OTP_COUNTER (List.replicate 8 0), oaDefval⟩ /- :33 -/,
  ⟨.ofString CKA_OTP_TIME [], oaDefval⟩ /- :35 -/,
  ⟨.ofString CKA_OTP_USER_IDENTIFIER [], 0⟩ /- :37 -/,
  ⟨.ofString CKA_OTP_SERVICE_IDENTIFIER [], 0⟩ /- :39 -/,
  ⟨.ofBytes CKA_OTP_SERVICE_LOGO [], 0⟩ /- :41 -/,
  ⟨.ofString CKA_OTP_SERVICE_LOGO_TYPE [], 0⟩ /- :43 -/]

/-- `HOTPKeyFactory::new` (`src/hotp.rs:60-136`). -/
def hotpAttrs : List FAttr :=
  replaceOrPush (replaceOrPush (replaceOrPush (replaceOrPush (replaceOrPush (replaceOrPush (commonOtpAttrs ++ [
  ⟨.ofBytes CKA_VALUE [], oaSensitive ||| oaRequiredOnCreate ||| oaSettableOnlyOnCreate⟩ /- :69 -/,
  ⟨.ofUlong CKA_VALUE_LEN 20, oaDefval⟩ /- :73 -/])
  ⟨.ofBool CKA_PRIVATE true, oaDefval ||| oaChangeOnCopy⟩ /- :78 -/)
  ⟨.ofBool CKA_SIGN true, oaDefval⟩ /- :84 -/)
  ⟨.ofBool CKA_VERIFY true, oaDefval⟩ /- :90 -/)
  ⟨.ofBytes CKA_OTP_COUNTER (List.replicate 8 0), oaDefval ||| oaSettableOnlyOnCreate⟩ /- :98 -/)
  ⟨.ofUlong CKA_OTP_FORMAT CK_OTP_FORMAT_DECIMAL, oaDefval ||| oaSettableOnlyOnCreate⟩ /- :110 -/)
  ⟨.ofBool CKA_OTP_USER_FRIENDLY_MODE true, oaDefval⟩ /- :122 -/

/-- `AesKeyFactory::new` (`src/aes.rs:101-122`). -/
def aesAttrs : List FAttr :=
  commonSecretKeyAttrs ++ [
  ⟨.ofBytes CKA_VALUE [], oaDefval ||| oaSensitive ||| oaRequiredOnCreate ||| oaSettableOnlyOnCreate⟩ /- :111 -/,
  ⟨.ofBytes CKA_VALUE_LEN [], oaRequiredOnGenerate⟩ /- :115 -/]

/-- `RSAPubFactory::new` (`src/rsa.rs:206-230`). -/
def rsaPubAttrs : List FAttr :=
  commonPublicKeyAttrs ++ [
  ⟨.ofBytes CKA_MODULUS [], oaRequiredOnCreate ||| oaUnchangeable⟩ /- :217 -/,
  ⟨.ofUlong CKA_MODULUS_BITS 0, oaRequiredOnGenerate ||| oaUnchangeable⟩ /- :220 -/,
  ⟨.ofBytes CKA_PUBLIC_EXPONENT [], oaRequiredOnCreate ||| oaUnchangeable⟩ /- :223 -/]

/-- `RSAPrivFactory::new` (`src/rsa.rs:360-400`). -/
def rsaPrivAttrs : List FAttr :=
  commonPrivateKeyAttrs ++ [
  ⟨.ofBytes CKA_MODULUS [], oaRequiredOnCreate ||| oaUnchangeable⟩ /- :371 -/,
  ⟨.ofBytes CKA_PUBLIC_EXPONENT [], oaRequiredOnCreate ||| oaUnchangeable⟩ /- :374 -/,
  ⟨.ofBytes CKA_PRIVATE_EXPONENT [], oaSensitive ||| oaRequiredOnCreate ||| oaSettableOnlyOnCreate ||| oaUnchangeable⟩ /- :377 -/,
  ⟨.ofBytes CKA_PRIME_1 [], oaSensitive ||| oaSettableOnlyOnCreate ||| oaUnchangeable⟩ /- :381 -/,
  ⟨.ofBytes CKA_PRIME_2 [], oaSensitive ||| oaSettableOnlyOnCreate ||| oaUnchangeable⟩ /- :384 -/,
  ⟨.ofBytes CKA_EXPONENT_1 [], oaSensitive ||| oaSettableOnlyOnCreate ||| oaUnchangeable⟩ /- :387 -/,
  ⟨.ofBytes CKA_EXPONENT_2 [], oaSensitive ||| oaSettableOnlyOnCreate ||| oaUnchangeable⟩ /- :390 -/,
  ⟨.ofBytes CKA_COEFFICIENT [], oaSensitive ||| oaSettableOnlyOnCreate ||| oaUnchangeable⟩ /- :393 -/]

/-- `ECDSAPubFactory::new` (`src/ec/ecdsa.rs:119-140`). -/
def ecPubAttrs : List FAttr :=
  commonPublicKeyAttrs ++ [
  ⟨.ofBytes CKA_EC_PARAMS [], oaAlwaysRequired ||| oaUnchangeable⟩ /- :129 -/,
  ⟨.ofBytes CKA_EC_POINT [], oaRequiredOnCreate ||| oaSettableOnlyOnCreate ||| oaUnchangeable⟩ /- :132 -/]

/-- `ECDSAPrivFactory::new` (`src/ec/ecdsa.rs:234-255`). -/
def ecPrivAttrs : List FAttr :=
  commonPrivateKeyAttrs ++ [
  ⟨.ofBytes CKA_EC_PARAMS [], oaRequiredOnCreate ||| oaUnchangeable⟩ /- :244 -/,
  ⟨.ofBytes CKA_VALUE [], oaSensitive ||| oaRequiredOnCreate ||| oaSettableOnlyOnCreate ||| oaUnchangeable⟩ /- :247 -/]

/-- `EDDSAPubFactory::new` (`src/ec/eddsa.rs:100-121`). -/
def edPubAttrs : List FAttr :=
  commonPublicKeyAttrs ++ [
  ⟨.ofBytes CKA_EC_PARAMS [], oaAlwaysRequired ||| oaUnchangeable⟩ /- :110 -/,
  ⟨.ofBytes CKA_EC_POINT [], oaRequiredOnCreate ||| oaSettableOnlyOnCreate ||| oaUnchangeable⟩ /- :113 -/]

/-- `EDDSAPrivFactory::new` (`src/ec/eddsa.rs:211-241`). -/
def edPrivAttrs : List FAttr :=
  replaceOrPush (commonPrivateKeyAttrs ++ [
  ⟨.ofBytes CKA_EC_PARAMS [], oaRequiredOnCreate ||| oaUnchangeable⟩ /- :221 -/,
  ⟨.ofBytes CKA_VALUE [], oaSensitive ||| oaRequiredOnCreate ||| oaSettableOnlyOnCreate ||| oaUnchangeable⟩ /- :224 -/])
  ⟨.ofBool CKA_PRIVATE true, oaDefval ||| oaChangeOnCopy⟩ /- :230 -/

/-- `ECMontgomeryPubFactory::new` (`src/ec/montgomery.rs:94-115`). -/
def montPubAttrs : List FAttr :=
  commonPublicKeyAttrs ++ [
  ⟨.ofBytes CKA_EC_PARAMS [], oaAlwaysRequired ||| oaUnchangeable⟩ /- :104 -/,
  ⟨.ofBytes CKA_EC_POINT [], oaRequiredOnCreate ||| oaSettableOnlyOnCreate ||| oaUnchangeable⟩ /- :107 -/]

/-- `ECMontgomeryPrivFactory::new` (`src/ec/montgomery.rs:205-226`). -/
def montPrivAttrs : List FAttr :=
  commonPrivateKeyAttrs ++ [
  ⟨.ofBytes CKA_EC_PARAMS [], oaRequiredOnCreate ||| oaUnchangeable⟩ /- :215 -/,
  ⟨.ofBytes CKA_VALUE [], oaSensitive ||| oaRequiredOnCreate ||| oaSettableOnlyOnCreate ||| oaUnchangeable⟩ /- :218 -/]

/-- `FFDHPubFactory::new` (`src/ffdh.rs:114-137`). -/
def dhPubAttrs : List FAttr :=
  commonPublicKeyAttrs ++ [
  ⟨.ofBytes CKA_PRIME [], oaAlwaysRequired ||| oaUnchangeable⟩ /- :123 -/,
  ⟨.ofBytes CKA_BASE [], oaAlwaysRequired ||| oaUnchangeable⟩ /- :126 -/,
  ⟨.ofBytes CKA_VALUE [], oaRequiredOnCreate ||| oaSettableOnlyOnCreate ||| oaUnchangeable⟩ /- :129 -/]

/-- `FFDHPrivFactory::new` (`src/ffdh.rs:178-205`). -/
def dhPrivAttrs : List FAttr :=
  commonPrivateKeyAttrs ++ [
  ⟨.ofBytes CKA_PRIME [], oaRequiredOnCreate ||| oaUnchangeable⟩ /- :187 -/,
  ⟨.ofBytes CKA_BASE [], oaRequiredOnCreate ||| oaUnchangeable⟩ /- :190 -/,
  ⟨.ofBytes CKA_VALUE [], oaRequiredOnCreate ||| oaSettableOnlyOnCreate ||| oaUnchangeable⟩ /- :193 -/,
  ⟨.ofUlong CKA_VALUE_BITS 0, oaSettableOnlyOnCreate ||| oaUnchangeable⟩ /- :197 -/]

/-- `MlDsaPubFactory::new` (`src/mldsa.rs:157-178`). -/
def mldsaPubAttrs : List FAttr :=
  commonPublicKeyAttrs ++ [
  ⟨.ofUlong CKA_PARAMETER_SET 0, oaRequiredOnCreate ||| oaUnchangeable⟩ /- :167 -/,
  ⟨.ofBytes CKA_VALUE [], oaRequiredOnCreate ||| oaUnchangeable⟩ /- :170 -/]

/-- `MlDsaPrivFactory::new` (`src/mldsa.rs:292-316`). -/
def mldsaPrivAttrs : List FAttr :=
  commonPrivateKeyAttrs ++ [
  ⟨.ofUlong CKA_PARAMETER_SET 0, oaRequiredOnCreate ||| oaUnchangeable⟩ /- :302 -/,
  ⟨.ofBytes CKA_VALUE [], oaSensitive ||| oaSettableOnlyOnCreate ||| oaUnchangeable⟩ /- :305 -/,
  ⟨.ofBytes CKA_SEED [], oaSensitive ||| oaSettableOnlyOnCreate ||| oaUnchangeable⟩ /- :308 -/]

/-- `MlKemPubFactory::new` (`src/mlkem.rs:150-171`). -/
def mlkemPubAttrs : List FAttr :=
  commonPublicKeyAttrs ++ [
  ⟨.ofUlong CKA_PARAMETER_SET 0, oaRequiredOnCreate ||| oaUnchangeable⟩ /- :160 -/,
  ⟨.ofBytes CKA_VALUE [], oaRequiredOnCreate ||| oaUnchangeable⟩ /- :163 -/]

/-- `MlKemPrivFactory::new` (`src/mlkem.rs:285-318`). -/
def mlkemPrivAttrs : List FAttr :=
  replaceOrPush (commonPrivateKeyAttrs ++ [
  ⟨.ofUlong CKA_PARAMETER_SET 0, oaRequiredOnCreate ||| oaUnchangeable⟩ /- :295 -/,
  ⟨.ofBytes CKA_VALUE [], oaSensitive ||| oaSettableOnlyOnCreate ||| oaUnchangeable⟩ /- :298 -/,
  ⟨.ofBytes CKA_SEED [], oaSensitive ||| oaSettableOnlyOnCreate ||| oaUnchangeable⟩ /- :301 -/])
  ⟨.ofBool CKA_PRIVATE true, oaDefval ||| oaChangeOnCopy⟩ /- :306 -/

/-- `SlhDsaPubFactory::new` (`src/slhdsa.rs:179-200`). -/
def slhdsaPubAttrs : List FAttr :=
  commonPublicKeyAttrs ++ [
  ⟨.ofUlong CKA_PARAMETER_SET 0, oaRequiredOnCreate ||| oaUnchangeable⟩ /- :189 -/,
  ⟨.ofBytes CKA_VALUE [], oaRequiredOnCreate ||| oaUnchangeable⟩ /- :192 -/]

/-- `SlhDsaPrivFactory::new` (`src/slhdsa.rs:300-320`). -/
def slhdsaPrivAttrs : List FAttr :=
  commonPrivateKeyAttrs ++ [
  ⟨.ofUlong CKA_PARAMETER_SET 0, oaRequiredOnCreate ||| oaUnchangeable⟩ /- :310 -/,
  ⟨.ofBytes CKA_VALUE [], oaSensitive ||| oaSettableOnlyOnCreate ||| oaUnchangeable⟩ /- :313 -/]

/-- `ValidationFactory::new` (fips) (`src/fips/indicators.rs:42-102`). -/
def validationAttrs : List FAttr :=
  commonObjectAttrs ++ [
  ⟨.ofUlong CKA_VALIDATION_TYPE 0, oaAlwaysRequired ||| oaNeverSettable ||| oaUnchangeable⟩ /- :52 -/,
  ⟨.ofBytes CKA_VALIDATION_VERSION [], oaAlwaysRequired ||| oaNeverSettable ||| oaUnchangeable⟩ /- :56 -/,
  ⟨.ofUlong CKA_VALIDATION_LEVEL 0, oaAlwaysRequired ||| oaNeverSettable ||| oaUnchangeable⟩ /- :60 -/,
  ⟨.ofString CKA_VALIDATION_MODULE_ID [], oaAlwaysRequired ||| oaNeverSettable ||| oaUnchangeable⟩ /- :64 -/,
  ⟨.ofUlong CKA_VALIDATION_FLAG 0, oaAlwaysRequired ||| oaNeverSettable ||| oaUnchangeable⟩ /- :68 -/,
  ⟨.ofUlong CKA_VALIDATION_AUTHORITY_TYPE 0, oaAlwaysRequired ||| oaNeverSettable ||| oaUnchangeable⟩ /- :72 -/,
  ⟨.ofString CKA_VALIDATION_COUNTRY [], oaAlwaysRequired ||| oaNeverSettable ||| oaUnchangeable⟩ /- :76 -/,
  ⟨.ofString CKA_VALIDATION_CERTIFICATE_IDENTIFIER [], oaAlwaysRequired ||| oaNeverSettable ||| oaUnchangeable⟩ /- :80 -/,
  ⟨.ofString CKA_VALIDATION_CERTIFICATE_URI [], oaAlwaysRequired ||| oaNeverSettable ||| oaUnchangeable⟩ /- :84 -/,
  ⟨.ofString CKA_VALIDATION_VENDOR_URI [], oaAlwaysRequired ||| oaNeverSettable ||| oaUnchangeable⟩ /- :88 -/,
  ⟨.ofString CKA_VALIDATION_PROFILE [], oaAlwaysRequired ||| oaNeverSettable ||| oaUnchangeable⟩ /- :92 -/]

end Kry
