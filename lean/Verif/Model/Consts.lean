/-! PKCS#11 numeric constants.  GENERATED by tools/gen_consts.py from
`src/pkcs11/headers/3.2/pkcs11.h` and `src/pkcs11/vendor.rs`; do not edit. -/

namespace Kry

/-- src/pkcs11/headers/3.2/pkcs11.h:89 -/
abbrev CK_CERTIFICATE_CATEGORY_UNSPECIFIED : Nat := 0x0
/-- src/pkcs11/headers/3.2/pkcs11.h:28 -/
abbrev CK_EFFECTIVELY_INFINITE : Nat := 0x0
/-- src/pkcs11/headers/3.2/pkcs11.h:32 -/
abbrev CK_FALSE : Nat := 0x0
/-- src/pkcs11/headers/3.2/pkcs11.h:30 -/
abbrev CK_INVALID_HANDLE : Nat := 0x0
/-- src/pkcs11/headers/3.2/pkcs11.h:105 -/
abbrev CK_OTP_FORMAT_DECIMAL : Nat := 0x0
/-- src/pkcs11/headers/3.2/pkcs11.h:111 -/
abbrev CK_OTP_PARAM_IGNORED : Nat := 0x0
/-- src/pkcs11/headers/3.2/pkcs11.h:95 -/
abbrev CK_OTP_VALUE : Nat := 0x0
/-- src/pkcs11/headers/3.2/pkcs11.h:116 -/
abbrev CK_SECURITY_DOMAIN_UNSPECIFIED : Nat := 0x0
/-- src/pkcs11/headers/3.2/pkcs11.h:90 -/
abbrev CK_CERTIFICATE_CATEGORY_TOKEN_USER : Nat := 0x1
/-- src/pkcs11/headers/3.2/pkcs11.h:112 -/
abbrev CK_OTP_PARAM_OPTIONAL : Nat := 0x1
/-- src/pkcs11/headers/3.2/pkcs11.h:117 -/
abbrev CK_SECURITY_DOMAIN_MANUFACTURER : Nat := 0x1
/-- src/pkcs11/headers/3.2/pkcs11.h:130 -/
abbrev CK_SP800_108_DKM_LENGTH_SUM_OF_KEYS : Nat := 0x1
/-- src/pkcs11/headers/3.2/pkcs11.h:122 -/
abbrev CK_SP800_108_ITERATION_VARIABLE : Nat := 0x1
/-- src/pkcs11/headers/3.2/pkcs11.h:31 -/
abbrev CK_TRUE : Nat := 0x1
/-- src/pkcs11/headers/3.2/pkcs11.h:91 -/
abbrev CK_CERTIFICATE_CATEGORY_AUTHORITY : Nat := 0x2
/-- src/pkcs11/headers/3.2/pkcs11.h:113 -/
abbrev CK_OTP_PARAM_MANDATORY : Nat := 0x2
/-- src/pkcs11/headers/3.2/pkcs11.h:118 -/
abbrev CK_SECURITY_DOMAIN_OPERATOR : Nat := 0x2
/-- src/pkcs11/headers/3.2/pkcs11.h:124 -/
abbrev CK_SP800_108_COUNTER : Nat := 0x2
/-- src/pkcs11/headers/3.2/pkcs11.h:131 -/
abbrev CK_SP800_108_DKM_LENGTH_SUM_OF_SEGMENTS : Nat := 0x2
/-- src/pkcs11/headers/3.2/pkcs11.h:92 -/
abbrev CK_CERTIFICATE_CATEGORY_OTHER_ENTITY : Nat := 0x3
/-- src/pkcs11/headers/3.2/pkcs11.h:119 -/
abbrev CK_SECURITY_DOMAIN_THIRD_PARTY : Nat := 0x3
/-- src/pkcs11/headers/3.2/pkcs11.h:125 -/
abbrev CK_SP800_108_DKM_LENGTH : Nat := 0x3
/-- src/pkcs11/headers/3.2/pkcs11.h:99 -/
abbrev CK_OTP_COUNTER : Nat := 0x4
/-- src/pkcs11/headers/3.2/pkcs11.h:126 -/
abbrev CK_SP800_108_BYTE_ARRAY : Nat := 0x4
/-- src/pkcs11/headers/3.2/pkcs11.h:100 -/
abbrev CK_OTP_FLAGS : Nat := 0x5
/-- src/pkcs11/mod.rs:23 -/
abbrev CK_UNAVAILABLE_INFORMATION : Nat := 0xffffffffffffffff
/-- src/pkcs11/headers/3.2/pkcs11.h:134 -/
abbrev CKA_CLASS : Nat := 0x0
/-- src/pkcs11/headers/3.2/pkcs11.h:135 -/
abbrev CKA_TOKEN : Nat := 0x1
/-- src/pkcs11/headers/3.2/pkcs11.h:136 -/
abbrev CKA_PRIVATE : Nat := 0x2
/-- src/pkcs11/headers/3.2/pkcs11.h:137 -/
abbrev CKA_LABEL : Nat := 0x3
/-- src/pkcs11/headers/3.2/pkcs11.h:138 -/
abbrev CKA_UNIQUE_ID : Nat := 0x4
/-- src/pkcs11/headers/3.2/pkcs11.h:139 -/
abbrev CKA_APPLICATION : Nat := 0x10
/-- src/pkcs11/headers/3.2/pkcs11.h:140 -/
abbrev CKA_VALUE : Nat := 0x11
/-- src/pkcs11/headers/3.2/pkcs11.h:141 -/
abbrev CKA_OBJECT_ID : Nat := 0x12
/-- src/pkcs11/headers/3.2/pkcs11.h:142 -/
abbrev CKA_CERTIFICATE_TYPE : Nat := 0x80
/-- src/pkcs11/headers/3.2/pkcs11.h:143 -/
abbrev CKA_ISSUER : Nat := 0x81
/-- src/pkcs11/headers/3.2/pkcs11.h:144 -/
abbrev CKA_SERIAL_NUMBER : Nat := 0x82
/-- src/pkcs11/headers/3.2/pkcs11.h:145 -/
abbrev CKA_AC_ISSUER : Nat := 0x83
/-- src/pkcs11/headers/3.2/pkcs11.h:146 -/
abbrev CKA_OWNER : Nat := 0x84
/-- src/pkcs11/headers/3.2/pkcs11.h:147 -/
abbrev CKA_ATTR_TYPES : Nat := 0x85
/-- src/pkcs11/headers/3.2/pkcs11.h:148 -/
abbrev CKA_TRUSTED : Nat := 0x86
/-- src/pkcs11/headers/3.2/pkcs11.h:149 -/
abbrev CKA_CERTIFICATE_CATEGORY : Nat := 0x87
/-- src/pkcs11/headers/3.2/pkcs11.h:150 -/
abbrev CKA_JAVA_MIDP_SECURITY_DOMAIN : Nat := 0x88
/-- src/pkcs11/headers/3.2/pkcs11.h:151 -/
abbrev CKA_URL : Nat := 0x89
/-- src/pkcs11/headers/3.2/pkcs11.h:152 -/
abbrev CKA_HASH_OF_SUBJECT_PUBLIC_KEY : Nat := 0x8a
/-- src/pkcs11/headers/3.2/pkcs11.h:153 -/
abbrev CKA_HASH_OF_ISSUER_PUBLIC_KEY : Nat := 0x8b
/-- src/pkcs11/headers/3.2/pkcs11.h:154 -/
abbrev CKA_NAME_HASH_ALGORITHM : Nat := 0x8c
/-- src/pkcs11/headers/3.2/pkcs11.h:155 -/
abbrev CKA_CHECK_VALUE : Nat := 0x90
/-- src/pkcs11/headers/3.2/pkcs11.h:156 -/
abbrev CKA_KEY_TYPE : Nat := 0x100
/-- src/pkcs11/headers/3.2/pkcs11.h:157 -/
abbrev CKA_SUBJECT : Nat := 0x101
/-- src/pkcs11/headers/3.2/pkcs11.h:158 -/
abbrev CKA_ID : Nat := 0x102
/-- src/pkcs11/headers/3.2/pkcs11.h:159 -/
abbrev CKA_SENSITIVE : Nat := 0x103
/-- src/pkcs11/headers/3.2/pkcs11.h:160 -/
abbrev CKA_ENCRYPT : Nat := 0x104
/-- src/pkcs11/headers/3.2/pkcs11.h:161 -/
abbrev CKA_DECRYPT : Nat := 0x105
/-- src/pkcs11/headers/3.2/pkcs11.h:162 -/
abbrev CKA_WRAP : Nat := 0x106
/-- src/pkcs11/headers/3.2/pkcs11.h:163 -/
abbrev CKA_UNWRAP : Nat := 0x107
/-- src/pkcs11/headers/3.2/pkcs11.h:164 -/
abbrev CKA_SIGN : Nat := 0x108
/-- src/pkcs11/headers/3.2/pkcs11.h:165 -/
abbrev CKA_SIGN_RECOVER : Nat := 0x109
/-- src/pkcs11/headers/3.2/pkcs11.h:166 -/
abbrev CKA_VERIFY : Nat := 0x10a
/-- src/pkcs11/headers/3.2/pkcs11.h:167 -/
abbrev CKA_VERIFY_RECOVER : Nat := 0x10b
/-- src/pkcs11/headers/3.2/pkcs11.h:168 -/
abbrev CKA_DERIVE : Nat := 0x10c
/-- src/pkcs11/headers/3.2/pkcs11.h:169 -/
abbrev CKA_START_DATE : Nat := 0x110
/-- src/pkcs11/headers/3.2/pkcs11.h:170 -/
abbrev CKA_END_DATE : Nat := 0x111
/-- src/pkcs11/headers/3.2/pkcs11.h:171 -/
abbrev CKA_MODULUS : Nat := 0x120
/-- src/pkcs11/headers/3.2/pkcs11.h:172 -/
abbrev CKA_MODULUS_BITS : Nat := 0x121
/-- src/pkcs11/headers/3.2/pkcs11.h:173 -/
abbrev CKA_PUBLIC_EXPONENT : Nat := 0x122
/-- src/pkcs11/headers/3.2/pkcs11.h:174 -/
abbrev CKA_PRIVATE_EXPONENT : Nat := 0x123
/-- src/pkcs11/headers/3.2/pkcs11.h:175 -/
abbrev CKA_PRIME_1 : Nat := 0x124
/-- src/pkcs11/headers/3.2/pkcs11.h:176 -/
abbrev CKA_PRIME_2 : Nat := 0x125
/-- src/pkcs11/headers/3.2/pkcs11.h:177 -/
abbrev CKA_EXPONENT_1 : Nat := 0x126
/-- src/pkcs11/headers/3.2/pkcs11.h:178 -/
abbrev CKA_EXPONENT_2 : Nat := 0x127
/-- src/pkcs11/headers/3.2/pkcs11.h:179 -/
abbrev CKA_COEFFICIENT : Nat := 0x128
/-- src/pkcs11/headers/3.2/pkcs11.h:180 -/
abbrev CKA_PUBLIC_KEY_INFO : Nat := 0x129
/-- src/pkcs11/headers/3.2/pkcs11.h:181 -/
abbrev CKA_PRIME : Nat := 0x130
/-- src/pkcs11/headers/3.2/pkcs11.h:182 -/
abbrev CKA_SUBPRIME : Nat := 0x131
/-- src/pkcs11/headers/3.2/pkcs11.h:183 -/
abbrev CKA_BASE : Nat := 0x132
/-- src/pkcs11/headers/3.2/pkcs11.h:184 -/
abbrev CKA_PRIME_BITS : Nat := 0x133
/-- src/pkcs11/headers/3.2/pkcs11.h:185 -/
abbrev CKA_SUBPRIME_BITS : Nat := 0x134
/-- src/pkcs11/headers/3.2/pkcs11.h:186 -/
abbrev CKA_SUB_PRIME_BITS : Nat := 0x134
/-- src/pkcs11/headers/3.2/pkcs11.h:187 -/
abbrev CKA_VALUE_BITS : Nat := 0x160
/-- src/pkcs11/headers/3.2/pkcs11.h:188 -/
abbrev CKA_VALUE_LEN : Nat := 0x161
/-- src/pkcs11/headers/3.2/pkcs11.h:189 -/
abbrev CKA_EXTRACTABLE : Nat := 0x162
/-- src/pkcs11/headers/3.2/pkcs11.h:190 -/
abbrev CKA_LOCAL : Nat := 0x163
/-- src/pkcs11/headers/3.2/pkcs11.h:191 -/
abbrev CKA_NEVER_EXTRACTABLE : Nat := 0x164
/-- src/pkcs11/headers/3.2/pkcs11.h:192 -/
abbrev CKA_ALWAYS_SENSITIVE : Nat := 0x165
/-- src/pkcs11/headers/3.2/pkcs11.h:193 -/
abbrev CKA_KEY_GEN_MECHANISM : Nat := 0x166
/-- src/pkcs11/headers/3.2/pkcs11.h:194 -/
abbrev CKA_MODIFIABLE : Nat := 0x170
/-- src/pkcs11/headers/3.2/pkcs11.h:195 -/
abbrev CKA_COPYABLE : Nat := 0x171
/-- src/pkcs11/headers/3.2/pkcs11.h:196 -/
abbrev CKA_DESTROYABLE : Nat := 0x172
/-- src/pkcs11/headers/3.2/pkcs11.h:197 -/
abbrev CKA_EC_PARAMS : Nat := 0x180
/-- src/pkcs11/headers/3.2/pkcs11.h:198 -/
abbrev CKA_EC_POINT : Nat := 0x181
/-- src/pkcs11/headers/3.2/pkcs11.h:199 -/
abbrev CKA_ALWAYS_AUTHENTICATE : Nat := 0x202
/-- src/pkcs11/headers/3.2/pkcs11.h:200 -/
abbrev CKA_WRAP_WITH_TRUSTED : Nat := 0x210
/-- src/pkcs11/headers/3.2/pkcs11.h:201 -/
abbrev CKA_OTP_FORMAT : Nat := 0x220
/-- src/pkcs11/headers/3.2/pkcs11.h:202 -/
abbrev CKA_OTP_LENGTH : Nat := 0x221
/-- src/pkcs11/headers/3.2/pkcs11.h:203 -/
abbrev CKA_OTP_TIME_INTERVAL : Nat := 0x222
/-- src/pkcs11/headers/3.2/pkcs11.h:204 -/
abbrev CKA_OTP_USER_FRIENDLY_MODE : Nat := 0x223
/-- src/pkcs11/headers/3.2/pkcs11.h:205 -/
abbrev CKA_OTP_CHALLENGE_REQUIREMENT : Nat := 0x224
/-- src/pkcs11/headers/3.2/pkcs11.h:206 -/
abbrev CKA_OTP_TIME_REQUIREMENT : Nat := 0x225
/-- src/pkcs11/headers/3.2/pkcs11.h:207 -/
abbrev CKA_OTP_COUNTER_REQUIREMENT : Nat := 0x226
/-- src/pkcs11/headers/3.2/pkcs11.h:208 -/
abbrev CKA_OTP_PIN_REQUIREMENT : Nat := 0x227
/-- src/pkcs11/headers/3.2/pkcs11.h:211 -/
abbrev CKA_OTP_USER_IDENTIFIER : Nat := 0x22a
/-- src/pkcs11/headers/3.2/pkcs11.h:212 -/
abbrev CKA_OTP_SERVICE_IDENTIFIER : Nat := 0x22b
/-- src/pkcs11/headers/3.2/pkcs11.h:213 -/
abbrev CKA_OTP_SERVICE_LOGO : Nat := 0x22c
/-- src/pkcs11/headers/3.2/pkcs11.h:214 -/
abbrev CKA_OTP_SERVICE_LOGO_TYPE : Nat := 0x22d
/-- src/pkcs11/headers/3.2/pkcs11.h:209 -/
abbrev CKA_OTP_COUNTER : Nat := 0x22e
/-- src/pkcs11/headers/3.2/pkcs11.h:210 -/
abbrev CKA_OTP_TIME : Nat := 0x22f
/-- src/pkcs11/headers/3.2/pkcs11.h:215 -/
abbrev CKA_GOSTR3410_PARAMS : Nat := 0x250
/-- src/pkcs11/headers/3.2/pkcs11.h:216 -/
abbrev CKA_GOSTR3411_PARAMS : Nat := 0x251
/-- src/pkcs11/headers/3.2/pkcs11.h:217 -/
abbrev CKA_GOST28147_PARAMS : Nat := 0x252
/-- src/pkcs11/headers/3.2/pkcs11.h:218 -/
abbrev CKA_HW_FEATURE_TYPE : Nat := 0x300
/-- src/pkcs11/headers/3.2/pkcs11.h:219 -/
abbrev CKA_RESET_ON_INIT : Nat := 0x301
/-- src/pkcs11/headers/3.2/pkcs11.h:220 -/
abbrev CKA_HAS_RESET : Nat := 0x302
/-- src/pkcs11/headers/3.2/pkcs11.h:221 -/
abbrev CKA_PIXEL_X : Nat := 0x400
/-- src/pkcs11/headers/3.2/pkcs11.h:222 -/
abbrev CKA_PIXEL_Y : Nat := 0x401
/-- src/pkcs11/headers/3.2/pkcs11.h:223 -/
abbrev CKA_RESOLUTION : Nat := 0x402
/-- src/pkcs11/headers/3.2/pkcs11.h:224 -/
abbrev CKA_CHAR_ROWS : Nat := 0x403
/-- src/pkcs11/headers/3.2/pkcs11.h:225 -/
abbrev CKA_CHAR_COLUMNS : Nat := 0x404
/-- src/pkcs11/headers/3.2/pkcs11.h:226 -/
abbrev CKA_COLOR : Nat := 0x405
/-- src/pkcs11/headers/3.2/pkcs11.h:227 -/
abbrev CKA_BITS_PER_PIXEL : Nat := 0x406
/-- src/pkcs11/headers/3.2/pkcs11.h:228 -/
abbrev CKA_CHAR_SETS : Nat := 0x480
/-- src/pkcs11/headers/3.2/pkcs11.h:229 -/
abbrev CKA_ENCODING_METHODS : Nat := 0x481
/-- src/pkcs11/headers/3.2/pkcs11.h:230 -/
abbrev CKA_MIME_TYPES : Nat := 0x482
/-- src/pkcs11/headers/3.2/pkcs11.h:231 -/
abbrev CKA_MECHANISM_TYPE : Nat := 0x500
/-- src/pkcs11/headers/3.2/pkcs11.h:232 -/
abbrev CKA_REQUIRED_CMS_ATTRIBUTES : Nat := 0x501
/-- src/pkcs11/headers/3.2/pkcs11.h:233 -/
abbrev CKA_DEFAULT_CMS_ATTRIBUTES : Nat := 0x502
/-- src/pkcs11/headers/3.2/pkcs11.h:234 -/
abbrev CKA_SUPPORTED_CMS_ATTRIBUTES : Nat := 0x503
/-- src/pkcs11/headers/3.2/pkcs11.h:235 -/
abbrev CKA_PROFILE_ID : Nat := 0x601
/-- src/pkcs11/headers/3.2/pkcs11.h:236 -/
abbrev CKA_X2RATCHET_BAG : Nat := 0x602
/-- src/pkcs11/headers/3.2/pkcs11.h:237 -/
abbrev CKA_X2RATCHET_BAGSIZE : Nat := 0x603
/-- src/pkcs11/headers/3.2/pkcs11.h:238 -/
abbrev CKA_X2RATCHET_BOBS1STMSG : Nat := 0x604
/-- src/pkcs11/headers/3.2/pkcs11.h:239 -/
abbrev CKA_X2RATCHET_CKR : Nat := 0x605
/-- src/pkcs11/headers/3.2/pkcs11.h:240 -/
abbrev CKA_X2RATCHET_CKS : Nat := 0x606
/-- src/pkcs11/headers/3.2/pkcs11.h:241 -/
abbrev CKA_X2RATCHET_DHP : Nat := 0x607
/-- src/pkcs11/headers/3.2/pkcs11.h:242 -/
abbrev CKA_X2RATCHET_DHR : Nat := 0x608
/-- src/pkcs11/headers/3.2/pkcs11.h:243 -/
abbrev CKA_X2RATCHET_DHS : Nat := 0x609
/-- src/pkcs11/headers/3.2/pkcs11.h:244 -/
abbrev CKA_X2RATCHET_HKR : Nat := 0x60a
/-- src/pkcs11/headers/3.2/pkcs11.h:245 -/
abbrev CKA_X2RATCHET_HKS : Nat := 0x60b
/-- src/pkcs11/headers/3.2/pkcs11.h:246 -/
abbrev CKA_X2RATCHET_ISALICE : Nat := 0x60c
/-- src/pkcs11/headers/3.2/pkcs11.h:247 -/
abbrev CKA_X2RATCHET_NHKR : Nat := 0x60d
/-- src/pkcs11/headers/3.2/pkcs11.h:248 -/
abbrev CKA_X2RATCHET_NHKS : Nat := 0x60e
/-- src/pkcs11/headers/3.2/pkcs11.h:249 -/
abbrev CKA_X2RATCHET_NR : Nat := 0x60f
/-- src/pkcs11/headers/3.2/pkcs11.h:250 -/
abbrev CKA_X2RATCHET_NS : Nat := 0x610
/-- src/pkcs11/headers/3.2/pkcs11.h:251 -/
abbrev CKA_X2RATCHET_PNS : Nat := 0x611
/-- src/pkcs11/headers/3.2/pkcs11.h:252 -/
abbrev CKA_X2RATCHET_RK : Nat := 0x612
/-- src/pkcs11/headers/3.2/pkcs11.h:253 -/
abbrev CKA_HSS_LEVELS : Nat := 0x617
/-- src/pkcs11/headers/3.2/pkcs11.h:254 -/
abbrev CKA_HSS_LMS_TYPE : Nat := 0x618
/-- src/pkcs11/headers/3.2/pkcs11.h:255 -/
abbrev CKA_HSS_LMOTS_TYPE : Nat := 0x619
/-- src/pkcs11/headers/3.2/pkcs11.h:256 -/
abbrev CKA_HSS_LMS_TYPES : Nat := 0x61a
/-- src/pkcs11/headers/3.2/pkcs11.h:257 -/
abbrev CKA_HSS_LMOTS_TYPES : Nat := 0x61b
/-- src/pkcs11/headers/3.2/pkcs11.h:258 -/
abbrev CKA_HSS_KEYS_REMAINING : Nat := 0x61c
/-- src/pkcs11/headers/3.2/pkcs11.h:259 -/
abbrev CKA_PARAMETER_SET : Nat := 0x61d
/-- src/pkcs11/headers/3.2/pkcs11.h:260 -/
abbrev CKA_OBJECT_VALIDATION_FLAGS : Nat := 0x61e
/-- src/pkcs11/headers/3.2/pkcs11.h:261 -/
abbrev CKA_VALIDATION_TYPE : Nat := 0x61f
/-- src/pkcs11/headers/3.2/pkcs11.h:262 -/
abbrev CKA_VALIDATION_VERSION : Nat := 0x620
/-- src/pkcs11/headers/3.2/pkcs11.h:263 -/
abbrev CKA_VALIDATION_LEVEL : Nat := 0x621
/-- src/pkcs11/headers/3.2/pkcs11.h:264 -/
abbrev CKA_VALIDATION_MODULE_ID : Nat := 0x622
/-- src/pkcs11/headers/3.2/pkcs11.h:265 -/
abbrev CKA_VALIDATION_FLAG : Nat := 0x623
/-- src/pkcs11/headers/3.2/pkcs11.h:266 -/
abbrev CKA_VALIDATION_AUTHORITY_TYPE : Nat := 0x624
/-- src/pkcs11/headers/3.2/pkcs11.h:267 -/
abbrev CKA_VALIDATION_COUNTRY : Nat := 0x625
/-- src/pkcs11/headers/3.2/pkcs11.h:268 -/
abbrev CKA_VALIDATION_CERTIFICATE_IDENTIFIER : Nat := 0x626
/-- src/pkcs11/headers/3.2/pkcs11.h:269 -/
abbrev CKA_VALIDATION_CERTIFICATE_URI : Nat := 0x627
/-- src/pkcs11/headers/3.2/pkcs11.h:270 -/
abbrev CKA_VALIDATION_VENDOR_URI : Nat := 0x628
/-- src/pkcs11/headers/3.2/pkcs11.h:271 -/
abbrev CKA_VALIDATION_PROFILE : Nat := 0x629
/-- src/pkcs11/headers/3.2/pkcs11.h:272 -/
abbrev CKA_ENCAPSULATE_TEMPLATE : Nat := 0x62a
/-- src/pkcs11/headers/3.2/pkcs11.h:273 -/
abbrev CKA_DECAPSULATE_TEMPLATE : Nat := 0x62b
/-- src/pkcs11/headers/3.2/pkcs11.h:274 -/
abbrev CKA_TRUST_SERVER_AUTH : Nat := 0x62c
/-- src/pkcs11/headers/3.2/pkcs11.h:275 -/
abbrev CKA_TRUST_CLIENT_AUTH : Nat := 0x62d
/-- src/pkcs11/headers/3.2/pkcs11.h:276 -/
abbrev CKA_TRUST_CODE_SIGNING : Nat := 0x62e
/-- src/pkcs11/headers/3.2/pkcs11.h:277 -/
abbrev CKA_TRUST_EMAIL_PROTECTION : Nat := 0x62f
/-- src/pkcs11/headers/3.2/pkcs11.h:278 -/
abbrev CKA_TRUST_IPSEC_IKE : Nat := 0x630
/-- src/pkcs11/headers/3.2/pkcs11.h:279 -/
abbrev CKA_TRUST_TIME_STAMPING : Nat := 0x631
/-- src/pkcs11/headers/3.2/pkcs11.h:280 -/
abbrev CKA_TRUST_OCSP_SIGNING : Nat := 0x632
/-- src/pkcs11/headers/3.2/pkcs11.h:281 -/
abbrev CKA_ENCAPSULATE : Nat := 0x633
/-- src/pkcs11/headers/3.2/pkcs11.h:282 -/
abbrev CKA_DECAPSULATE : Nat := 0x634
/-- src/pkcs11/headers/3.2/pkcs11.h:283 -/
abbrev CKA_HASH_OF_CERTIFICATE : Nat := 0x635
/-- src/pkcs11/headers/3.2/pkcs11.h:284 -/
abbrev CKA_PUBLIC_CRC64_VALUE : Nat := 0x636
/-- src/pkcs11/headers/3.2/pkcs11.h:285 -/
abbrev CKA_SEED : Nat := 0x637
/-- src/pkcs11/headers/3.2/pkcs11.h:288 -/
abbrev CKA_WRAP_TEMPLATE : Nat := 0x40000211
/-- src/pkcs11/headers/3.2/pkcs11.h:289 -/
abbrev CKA_UNWRAP_TEMPLATE : Nat := 0x40000212
/-- src/pkcs11/headers/3.2/pkcs11.h:290 -/
abbrev CKA_DERIVE_TEMPLATE : Nat := 0x40000213
/-- src/pkcs11/headers/3.2/pkcs11.h:291 -/
abbrev CKA_ALLOWED_MECHANISMS : Nat := 0x40000600
/-- src/pkcs11/headers/3.2/pkcs11.h:286 -/
abbrev CKA_VENDOR_DEFINED : Nat := 0x80000000
/-- src/pkcs11/vendor.rs:62 -/
abbrev CKA_NSS_TRUST_DIGITAL_SIGNATURE : Nat := 0xce536351
/-- src/pkcs11/vendor.rs:64 -/
abbrev CKA_NSS_TRUST_NON_REPUDIATION : Nat := 0xce536352
/-- src/pkcs11/vendor.rs:66 -/
abbrev CKA_NSS_TRUST_KEY_ENCIPHERMENT : Nat := 0xce536353
/-- src/pkcs11/vendor.rs:68 -/
abbrev CKA_NSS_TRUST_DATA_ENCIPHERMENT : Nat := 0xce536354
/-- src/pkcs11/vendor.rs:70 -/
abbrev CKA_NSS_TRUST_KEY_AGREEMENT : Nat := 0xce536355
/-- src/pkcs11/vendor.rs:72 -/
abbrev CKA_NSS_TRUST_KEY_CERT_SIGN : Nat := 0xce536356
/-- src/pkcs11/vendor.rs:74 -/
abbrev CKA_NSS_TRUST_CRL_SIGN : Nat := 0xce536357
/-- src/pkcs11/vendor.rs:75 -/
abbrev CKA_NSS_TRUST_SERVER_AUTH : Nat := 0xce536358
/-- src/pkcs11/vendor.rs:77 -/
abbrev CKA_NSS_TRUST_CLIENT_AUTH : Nat := 0xce536359
/-- src/pkcs11/vendor.rs:79 -/
abbrev CKA_NSS_TRUST_CODE_SIGNING : Nat := 0xce53635a
/-- src/pkcs11/vendor.rs:81 -/
abbrev CKA_NSS_TRUST_EMAIL_PROTECTION : Nat := 0xce53635b
/-- src/pkcs11/vendor.rs:83 -/
abbrev CKA_NSS_TRUST_IPSEC_END_SYSTEM : Nat := 0xce53635c
/-- src/pkcs11/vendor.rs:85 -/
abbrev CKA_NSS_TRUST_IPSEC_TUNNEL : Nat := 0xce53635d
/-- src/pkcs11/vendor.rs:87 -/
abbrev CKA_NSS_TRUST_IPSEC_USER : Nat := 0xce53635e
/-- src/pkcs11/vendor.rs:89 -/
abbrev CKA_NSS_TRUST_TIME_STAMPING : Nat := 0xce53635f
/-- src/pkcs11/vendor.rs:91 -/
abbrev CKA_NSS_TRUST_STEP_UP_APPROVED : Nat := 0xce536360
/-- src/pkcs11/vendor.rs:93 -/
abbrev CKA_NSS_CERT_SHA1_HASH : Nat := 0xce5363b4
/-- src/pkcs11/vendor.rs:95 -/
abbrev CKA_NSS_CERT_MD5_HASH : Nat := 0xce5363b5
/-- src/pkcs11/headers/3.2/pkcs11.h:300 -/
abbrev CKC_X_509 : Nat := 0x0
/-- src/pkcs11/headers/3.2/pkcs11.h:306 -/
abbrev CKD_NULL : Nat := 0x1
/-- src/pkcs11/headers/3.2/pkcs11.h:307 -/
abbrev CKD_SHA1_KDF : Nat := 0x2
/-- src/pkcs11/headers/3.2/pkcs11.h:310 -/
abbrev CKD_SHA224_KDF : Nat := 0x5
/-- src/pkcs11/headers/3.2/pkcs11.h:311 -/
abbrev CKD_SHA256_KDF : Nat := 0x6
/-- src/pkcs11/headers/3.2/pkcs11.h:312 -/
abbrev CKD_SHA384_KDF : Nat := 0x7
/-- src/pkcs11/headers/3.2/pkcs11.h:313 -/
abbrev CKD_SHA512_KDF : Nat := 0x8
/-- src/pkcs11/headers/3.2/pkcs11.h:315 -/
abbrev CKD_SHA3_224_KDF : Nat := 0xa
/-- src/pkcs11/headers/3.2/pkcs11.h:316 -/
abbrev CKD_SHA3_256_KDF : Nat := 0xb
/-- src/pkcs11/headers/3.2/pkcs11.h:317 -/
abbrev CKD_SHA3_384_KDF : Nat := 0xc
/-- src/pkcs11/headers/3.2/pkcs11.h:318 -/
abbrev CKD_SHA3_512_KDF : Nat := 0xd
/-- src/pkcs11/headers/3.2/pkcs11.h:319 -/
abbrev CKD_SHA1_KDF_SP800 : Nat := 0xe
/-- src/pkcs11/headers/3.2/pkcs11.h:320 -/
abbrev CKD_SHA224_KDF_SP800 : Nat := 0xf
/-- src/pkcs11/headers/3.2/pkcs11.h:321 -/
abbrev CKD_SHA256_KDF_SP800 : Nat := 0x10
/-- src/pkcs11/headers/3.2/pkcs11.h:322 -/
abbrev CKD_SHA384_KDF_SP800 : Nat := 0x11
/-- src/pkcs11/headers/3.2/pkcs11.h:323 -/
abbrev CKD_SHA512_KDF_SP800 : Nat := 0x12
/-- src/pkcs11/headers/3.2/pkcs11.h:324 -/
abbrev CKD_SHA3_224_KDF_SP800 : Nat := 0x13
/-- src/pkcs11/headers/3.2/pkcs11.h:325 -/
abbrev CKD_SHA3_256_KDF_SP800 : Nat := 0x14
/-- src/pkcs11/headers/3.2/pkcs11.h:326 -/
abbrev CKD_SHA3_384_KDF_SP800 : Nat := 0x15
/-- src/pkcs11/headers/3.2/pkcs11.h:327 -/
abbrev CKD_SHA3_512_KDF_SP800 : Nat := 0x16
/-- src/pkcs11/headers/3.2/pkcs11.h:385 -/
abbrev CKF_END_OF_MESSAGE : Nat := 0x1
/-- src/pkcs11/headers/3.2/pkcs11.h:341 -/
abbrev CKF_HKDF_SALT_NULL : Nat := 0x1
/-- src/pkcs11/headers/3.2/pkcs11.h:409 -/
abbrev CKF_RNG : Nat := 0x1
/-- src/pkcs11/headers/3.2/pkcs11.h:404 -/
abbrev CKF_TOKEN_PRESENT : Nat := 0x1
/-- src/pkcs11/headers/3.2/pkcs11.h:342 -/
abbrev CKF_HKDF_SALT_DATA : Nat := 0x2
/-- src/pkcs11/headers/3.2/pkcs11.h:350 -/
abbrev CKF_MESSAGE_ENCRYPT : Nat := 0x2
/-- src/pkcs11/headers/3.2/pkcs11.h:399 -/
abbrev CKF_RW_SESSION : Nat := 0x2
/-- src/pkcs11/headers/3.2/pkcs11.h:410 -/
abbrev CKF_WRITE_PROTECTED : Nat := 0x2
/-- src/pkcs11/headers/3.2/pkcs11.h:343 -/
abbrev CKF_HKDF_SALT_KEY : Nat := 0x4
/-- src/pkcs11/headers/3.2/pkcs11.h:411 -/
abbrev CKF_LOGIN_REQUIRED : Nat := 0x4
/-- src/pkcs11/headers/3.2/pkcs11.h:351 -/
abbrev CKF_MESSAGE_DECRYPT : Nat := 0x4
/-- src/pkcs11/headers/3.2/pkcs11.h:400 -/
abbrev CKF_SERIAL_SESSION : Nat := 0x4
/-- src/pkcs11/headers/3.2/pkcs11.h:352 -/
abbrev CKF_MESSAGE_SIGN : Nat := 0x8
/-- src/pkcs11/headers/3.2/pkcs11.h:412 -/
abbrev CKF_USER_PIN_INITIALIZED : Nat := 0x8
/-- src/pkcs11/headers/3.2/pkcs11.h:353 -/
abbrev CKF_MESSAGE_VERIFY : Nat := 0x10
/-- src/pkcs11/headers/3.2/pkcs11.h:354 -/
abbrev CKF_MULTI_MESSAGE : Nat := 0x20
/-- src/pkcs11/headers/3.2/pkcs11.h:393 -/
abbrev CKF_USER_FRIENDLY_OTP : Nat := 0x20
/-- src/pkcs11/headers/3.2/pkcs11.h:356 -/
abbrev CKF_FIND_OBJECTS : Nat := 0x40
/-- src/pkcs11/headers/3.2/pkcs11.h:357 -/
abbrev CKF_ENCRYPT : Nat := 0x100
/-- src/pkcs11/headers/3.2/pkcs11.h:358 -/
abbrev CKF_DECRYPT : Nat := 0x200
/-- src/pkcs11/headers/3.2/pkcs11.h:359 -/
abbrev CKF_DIGEST : Nat := 0x400
/-- src/pkcs11/headers/3.2/pkcs11.h:417 -/
abbrev CKF_TOKEN_INITIALIZED : Nat := 0x400
/-- src/pkcs11/headers/3.2/pkcs11.h:360 -/
abbrev CKF_SIGN : Nat := 0x800
/-- src/pkcs11/headers/3.2/pkcs11.h:362 -/
abbrev CKF_VERIFY : Nat := 0x2000
/-- src/pkcs11/headers/3.2/pkcs11.h:364 -/
abbrev CKF_GENERATE : Nat := 0x8000
/-- src/pkcs11/headers/3.2/pkcs11.h:365 -/
abbrev CKF_GENERATE_KEY_PAIR : Nat := 0x10000
/-- src/pkcs11/headers/3.2/pkcs11.h:419 -/
abbrev CKF_USER_PIN_COUNT_LOW : Nat := 0x10000
/-- src/pkcs11/headers/3.2/pkcs11.h:420 -/
abbrev CKF_USER_PIN_FINAL_TRY : Nat := 0x20000
/-- src/pkcs11/headers/3.2/pkcs11.h:366 -/
abbrev CKF_WRAP : Nat := 0x20000
/-- src/pkcs11/headers/3.2/pkcs11.h:367 -/
abbrev CKF_UNWRAP : Nat := 0x40000
/-- src/pkcs11/headers/3.2/pkcs11.h:421 -/
abbrev CKF_USER_PIN_LOCKED : Nat := 0x40000
/-- src/pkcs11/headers/3.2/pkcs11.h:368 -/
abbrev CKF_DERIVE : Nat := 0x80000
/-- src/pkcs11/headers/3.2/pkcs11.h:422 -/
abbrev CKF_USER_PIN_TO_BE_CHANGED : Nat := 0x80000
/-- src/pkcs11/headers/3.2/pkcs11.h:369 -/
abbrev CKF_EC_F_P : Nat := 0x100000
/-- src/pkcs11/headers/3.2/pkcs11.h:423 -/
abbrev CKF_SO_PIN_COUNT_LOW : Nat := 0x100000
/-- src/pkcs11/headers/3.2/pkcs11.h:424 -/
abbrev CKF_SO_PIN_FINAL_TRY : Nat := 0x200000
/-- src/pkcs11/headers/3.2/pkcs11.h:425 -/
abbrev CKF_SO_PIN_LOCKED : Nat := 0x400000
/-- src/pkcs11/headers/3.2/pkcs11.h:372 -/
abbrev CKF_EC_OID : Nat := 0x800000
/-- src/pkcs11/headers/3.2/pkcs11.h:426 -/
abbrev CKF_SO_PIN_TO_BE_CHANGED : Nat := 0x800000
/-- src/pkcs11/headers/3.2/pkcs11.h:373 -/
abbrev CKF_EC_UNCOMPRESS : Nat := 0x1000000
/-- src/pkcs11/headers/3.2/pkcs11.h:374 -/
abbrev CKF_EC_COMPRESS : Nat := 0x2000000
/-- src/pkcs11/headers/3.2/pkcs11.h:375 -/
abbrev CKF_EC_CURVENAME : Nat := 0x4000000
/-- src/pkcs11/headers/3.2/pkcs11.h:376 -/
abbrev CKF_ENCAPSULATE : Nat := 0x10000000
/-- src/pkcs11/headers/3.2/pkcs11.h:377 -/
abbrev CKF_DECAPSULATE : Nat := 0x20000000
/-- src/pkcs11/headers/3.2/pkcs11.h:432 -/
abbrev CKG_NO_GENERATE : Nat := 0x0
/-- src/pkcs11/headers/3.2/pkcs11.h:433 -/
abbrev CKG_GENERATE : Nat := 0x1
/-- src/pkcs11/headers/3.2/pkcs11.h:439 -/
abbrev CKG_MGF1_SHA1 : Nat := 0x1
/-- src/pkcs11/headers/3.2/pkcs11.h:434 -/
abbrev CKG_GENERATE_COUNTER : Nat := 0x2
/-- src/pkcs11/headers/3.2/pkcs11.h:440 -/
abbrev CKG_MGF1_SHA256 : Nat := 0x2
/-- src/pkcs11/headers/3.2/pkcs11.h:435 -/
abbrev CKG_GENERATE_RANDOM : Nat := 0x3
/-- src/pkcs11/headers/3.2/pkcs11.h:441 -/
abbrev CKG_MGF1_SHA384 : Nat := 0x3
/-- src/pkcs11/headers/3.2/pkcs11.h:436 -/
abbrev CKG_GENERATE_COUNTER_XOR : Nat := 0x4
/-- src/pkcs11/headers/3.2/pkcs11.h:442 -/
abbrev CKG_MGF1_SHA512 : Nat := 0x4
/-- src/pkcs11/headers/3.2/pkcs11.h:443 -/
abbrev CKG_MGF1_SHA224 : Nat := 0x5
/-- src/pkcs11/headers/3.2/pkcs11.h:444 -/
abbrev CKG_MGF1_SHA3_224 : Nat := 0x6
/-- src/pkcs11/headers/3.2/pkcs11.h:445 -/
abbrev CKG_MGF1_SHA3_256 : Nat := 0x7
/-- src/pkcs11/headers/3.2/pkcs11.h:446 -/
abbrev CKG_MGF1_SHA3_384 : Nat := 0x8
/-- src/pkcs11/headers/3.2/pkcs11.h:447 -/
abbrev CKG_MGF1_SHA3_512 : Nat := 0x9
/-- src/pkcs11/headers/3.2/pkcs11.h:456 -/
abbrev CKH_HEDGE_PREFERRED : Nat := 0x0
/-- src/pkcs11/headers/3.2/pkcs11.h:457 -/
abbrev CKH_HEDGE_REQUIRED : Nat := 0x1
/-- src/pkcs11/headers/3.2/pkcs11.h:458 -/
abbrev CKH_DETERMINISTIC_REQUIRED : Nat := 0x2
/-- src/pkcs11/headers/3.2/pkcs11.h:461 -/
abbrev CKK_RSA : Nat := 0x0
/-- src/pkcs11/headers/3.2/pkcs11.h:463 -/
abbrev CKK_DH : Nat := 0x2
/-- src/pkcs11/headers/3.2/pkcs11.h:464 -/
abbrev CKK_EC : Nat := 0x3
/-- src/pkcs11/headers/3.2/pkcs11.h:467 -/
abbrev CKK_GENERIC_SECRET : Nat := 0x10
/-- src/pkcs11/headers/3.2/pkcs11.h:482 -/
abbrev CKK_AES : Nat := 0x1f
/-- src/pkcs11/headers/3.2/pkcs11.h:486 -/
abbrev CKK_HOTP : Nat := 0x23
/-- src/pkcs11/headers/3.2/pkcs11.h:491 -/
abbrev CKK_SHA_1_HMAC : Nat := 0x28
/-- src/pkcs11/headers/3.2/pkcs11.h:494 -/
abbrev CKK_SHA256_HMAC : Nat := 0x2b
/-- src/pkcs11/headers/3.2/pkcs11.h:495 -/
abbrev CKK_SHA384_HMAC : Nat := 0x2c
/-- src/pkcs11/headers/3.2/pkcs11.h:496 -/
abbrev CKK_SHA512_HMAC : Nat := 0x2d
/-- src/pkcs11/headers/3.2/pkcs11.h:497 -/
abbrev CKK_SHA224_HMAC : Nat := 0x2e
/-- src/pkcs11/headers/3.2/pkcs11.h:505 -/
abbrev CKK_SHA3_224_HMAC : Nat := 0x36
/-- src/pkcs11/headers/3.2/pkcs11.h:506 -/
abbrev CKK_SHA3_256_HMAC : Nat := 0x37
/-- src/pkcs11/headers/3.2/pkcs11.h:507 -/
abbrev CKK_SHA3_384_HMAC : Nat := 0x38
/-- src/pkcs11/headers/3.2/pkcs11.h:508 -/
abbrev CKK_SHA3_512_HMAC : Nat := 0x39
/-- src/pkcs11/headers/3.2/pkcs11.h:515 -/
abbrev CKK_EC_EDWARDS : Nat := 0x40
/-- src/pkcs11/headers/3.2/pkcs11.h:516 -/
abbrev CKK_EC_MONTGOMERY : Nat := 0x41
/-- src/pkcs11/headers/3.2/pkcs11.h:517 -/
abbrev CKK_HKDF : Nat := 0x42
/-- src/pkcs11/headers/3.2/pkcs11.h:518 -/
abbrev CKK_SHA512_224_HMAC : Nat := 0x43
/-- src/pkcs11/headers/3.2/pkcs11.h:519 -/
abbrev CKK_SHA512_256_HMAC : Nat := 0x44
/-- src/pkcs11/headers/3.2/pkcs11.h:524 -/
abbrev CKK_ML_KEM : Nat := 0x49
/-- src/pkcs11/headers/3.2/pkcs11.h:525 -/
abbrev CKK_ML_DSA : Nat := 0x4a
/-- src/pkcs11/headers/3.2/pkcs11.h:526 -/
abbrev CKK_SLH_DSA : Nat := 0x4b
/-- src/pkcs11/headers/3.2/pkcs11.h:535 -/
abbrev CKM_RSA_PKCS_KEY_PAIR_GEN : Nat := 0x0
/-- src/pkcs11/headers/3.2/pkcs11.h:536 -/
abbrev CKM_RSA_PKCS : Nat := 0x1
/-- src/pkcs11/headers/3.2/pkcs11.h:537 -/
abbrev CKM_RSA_9796 : Nat := 0x2
/-- src/pkcs11/headers/3.2/pkcs11.h:538 -/
abbrev CKM_RSA_X_509 : Nat := 0x3
/-- src/pkcs11/headers/3.2/pkcs11.h:539 -/
abbrev CKM_MD2_RSA_PKCS : Nat := 0x4
/-- src/pkcs11/headers/3.2/pkcs11.h:540 -/
abbrev CKM_MD5_RSA_PKCS : Nat := 0x5
/-- src/pkcs11/headers/3.2/pkcs11.h:541 -/
abbrev CKM_SHA1_RSA_PKCS : Nat := 0x6
/-- src/pkcs11/headers/3.2/pkcs11.h:542 -/
abbrev CKM_RIPEMD128_RSA_PKCS : Nat := 0x7
/-- src/pkcs11/headers/3.2/pkcs11.h:543 -/
abbrev CKM_RIPEMD160_RSA_PKCS : Nat := 0x8
/-- src/pkcs11/headers/3.2/pkcs11.h:544 -/
abbrev CKM_RSA_PKCS_OAEP : Nat := 0x9
/-- src/pkcs11/headers/3.2/pkcs11.h:545 -/
abbrev CKM_RSA_X9_31_KEY_PAIR_GEN : Nat := 0xa
/-- src/pkcs11/headers/3.2/pkcs11.h:546 -/
abbrev CKM_RSA_X9_31 : Nat := 0xb
/-- src/pkcs11/headers/3.2/pkcs11.h:547 -/
abbrev CKM_SHA1_RSA_X9_31 : Nat := 0xc
/-- src/pkcs11/headers/3.2/pkcs11.h:548 -/
abbrev CKM_RSA_PKCS_PSS : Nat := 0xd
/-- src/pkcs11/headers/3.2/pkcs11.h:549 -/
abbrev CKM_SHA1_RSA_PKCS_PSS : Nat := 0xe
/-- src/pkcs11/headers/3.2/pkcs11.h:550 -/
abbrev CKM_ML_KEM_KEY_PAIR_GEN : Nat := 0xf
/-- src/pkcs11/headers/3.2/pkcs11.h:551 -/
abbrev CKM_DSA_KEY_PAIR_GEN : Nat := 0x10
/-- src/pkcs11/headers/3.2/pkcs11.h:552 -/
abbrev CKM_DSA : Nat := 0x11
/-- src/pkcs11/headers/3.2/pkcs11.h:553 -/
abbrev CKM_DSA_SHA1 : Nat := 0x12
/-- src/pkcs11/headers/3.2/pkcs11.h:554 -/
abbrev CKM_DSA_SHA224 : Nat := 0x13
/-- src/pkcs11/headers/3.2/pkcs11.h:555 -/
abbrev CKM_DSA_SHA256 : Nat := 0x14
/-- src/pkcs11/headers/3.2/pkcs11.h:556 -/
abbrev CKM_DSA_SHA384 : Nat := 0x15
/-- src/pkcs11/headers/3.2/pkcs11.h:557 -/
abbrev CKM_DSA_SHA512 : Nat := 0x16
/-- src/pkcs11/headers/3.2/pkcs11.h:558 -/
abbrev CKM_ML_KEM : Nat := 0x17
/-- src/pkcs11/headers/3.2/pkcs11.h:559 -/
abbrev CKM_DSA_SHA3_224 : Nat := 0x18
/-- src/pkcs11/headers/3.2/pkcs11.h:560 -/
abbrev CKM_DSA_SHA3_256 : Nat := 0x19
/-- src/pkcs11/headers/3.2/pkcs11.h:561 -/
abbrev CKM_DSA_SHA3_384 : Nat := 0x1a
/-- src/pkcs11/headers/3.2/pkcs11.h:562 -/
abbrev CKM_DSA_SHA3_512 : Nat := 0x1b
/-- src/pkcs11/headers/3.2/pkcs11.h:563 -/
abbrev CKM_ML_DSA_KEY_PAIR_GEN : Nat := 0x1c
/-- src/pkcs11/headers/3.2/pkcs11.h:564 -/
abbrev CKM_ML_DSA : Nat := 0x1d
/-- src/pkcs11/headers/3.2/pkcs11.h:565 -/
abbrev CKM_HASH_ML_DSA : Nat := 0x1f
/-- src/pkcs11/headers/3.2/pkcs11.h:566 -/
abbrev CKM_DH_PKCS_KEY_PAIR_GEN : Nat := 0x20
/-- src/pkcs11/headers/3.2/pkcs11.h:567 -/
abbrev CKM_DH_PKCS_DERIVE : Nat := 0x21
/-- src/pkcs11/headers/3.2/pkcs11.h:568 -/
abbrev CKM_HASH_ML_DSA_SHA224 : Nat := 0x23
/-- src/pkcs11/headers/3.2/pkcs11.h:569 -/
abbrev CKM_HASH_ML_DSA_SHA256 : Nat := 0x24
/-- src/pkcs11/headers/3.2/pkcs11.h:570 -/
abbrev CKM_HASH_ML_DSA_SHA384 : Nat := 0x25
/-- src/pkcs11/headers/3.2/pkcs11.h:571 -/
abbrev CKM_HASH_ML_DSA_SHA512 : Nat := 0x26
/-- src/pkcs11/headers/3.2/pkcs11.h:572 -/
abbrev CKM_HASH_ML_DSA_SHA3_224 : Nat := 0x27
/-- src/pkcs11/headers/3.2/pkcs11.h:573 -/
abbrev CKM_HASH_ML_DSA_SHA3_256 : Nat := 0x28
/-- src/pkcs11/headers/3.2/pkcs11.h:574 -/
abbrev CKM_HASH_ML_DSA_SHA3_384 : Nat := 0x29
/-- src/pkcs11/headers/3.2/pkcs11.h:575 -/
abbrev CKM_HASH_ML_DSA_SHA3_512 : Nat := 0x2a
/-- src/pkcs11/headers/3.2/pkcs11.h:576 -/
abbrev CKM_HASH_ML_DSA_SHAKE128 : Nat := 0x2b
/-- src/pkcs11/headers/3.2/pkcs11.h:577 -/
abbrev CKM_HASH_ML_DSA_SHAKE256 : Nat := 0x2c
/-- src/pkcs11/headers/3.2/pkcs11.h:578 -/
abbrev CKM_SLH_DSA_KEY_PAIR_GEN : Nat := 0x2d
/-- src/pkcs11/headers/3.2/pkcs11.h:579 -/
abbrev CKM_SLH_DSA : Nat := 0x2e
/-- src/pkcs11/headers/3.2/pkcs11.h:580 -/
abbrev CKM_X9_42_DH_KEY_PAIR_GEN : Nat := 0x30
/-- src/pkcs11/headers/3.2/pkcs11.h:581 -/
abbrev CKM_X9_42_DH_DERIVE : Nat := 0x31
/-- src/pkcs11/headers/3.2/pkcs11.h:582 -/
abbrev CKM_X9_42_DH_HYBRID_DERIVE : Nat := 0x32
/-- src/pkcs11/headers/3.2/pkcs11.h:583 -/
abbrev CKM_X9_42_MQV_DERIVE : Nat := 0x33
/-- src/pkcs11/headers/3.2/pkcs11.h:584 -/
abbrev CKM_HASH_SLH_DSA : Nat := 0x34
/-- src/pkcs11/headers/3.2/pkcs11.h:585 -/
abbrev CKM_HASH_SLH_DSA_SHA224 : Nat := 0x36
/-- src/pkcs11/headers/3.2/pkcs11.h:586 -/
abbrev CKM_HASH_SLH_DSA_SHA256 : Nat := 0x37
/-- src/pkcs11/headers/3.2/pkcs11.h:587 -/
abbrev CKM_HASH_SLH_DSA_SHA384 : Nat := 0x38
/-- src/pkcs11/headers/3.2/pkcs11.h:588 -/
abbrev CKM_HASH_SLH_DSA_SHA512 : Nat := 0x39
/-- src/pkcs11/headers/3.2/pkcs11.h:589 -/
abbrev CKM_HASH_SLH_DSA_SHA3_224 : Nat := 0x3a
/-- src/pkcs11/headers/3.2/pkcs11.h:590 -/
abbrev CKM_HASH_SLH_DSA_SHA3_256 : Nat := 0x3b
/-- src/pkcs11/headers/3.2/pkcs11.h:591 -/
abbrev CKM_HASH_SLH_DSA_SHA3_384 : Nat := 0x3c
/-- src/pkcs11/headers/3.2/pkcs11.h:592 -/
abbrev CKM_HASH_SLH_DSA_SHA3_512 : Nat := 0x3d
/-- src/pkcs11/headers/3.2/pkcs11.h:593 -/
abbrev CKM_HASH_SLH_DSA_SHAKE128 : Nat := 0x3e
/-- src/pkcs11/headers/3.2/pkcs11.h:594 -/
abbrev CKM_HASH_SLH_DSA_SHAKE256 : Nat := 0x3f
/-- src/pkcs11/headers/3.2/pkcs11.h:595 -/
abbrev CKM_SHA256_RSA_PKCS : Nat := 0x40
/-- src/pkcs11/headers/3.2/pkcs11.h:596 -/
abbrev CKM_SHA384_RSA_PKCS : Nat := 0x41
/-- src/pkcs11/headers/3.2/pkcs11.h:597 -/
abbrev CKM_SHA512_RSA_PKCS : Nat := 0x42
/-- src/pkcs11/headers/3.2/pkcs11.h:598 -/
abbrev CKM_SHA256_RSA_PKCS_PSS : Nat := 0x43
/-- src/pkcs11/headers/3.2/pkcs11.h:599 -/
abbrev CKM_SHA384_RSA_PKCS_PSS : Nat := 0x44
/-- src/pkcs11/headers/3.2/pkcs11.h:600 -/
abbrev CKM_SHA512_RSA_PKCS_PSS : Nat := 0x45
/-- src/pkcs11/headers/3.2/pkcs11.h:601 -/
abbrev CKM_SHA224_RSA_PKCS : Nat := 0x46
/-- src/pkcs11/headers/3.2/pkcs11.h:602 -/
abbrev CKM_SHA224_RSA_PKCS_PSS : Nat := 0x47
/-- src/pkcs11/headers/3.2/pkcs11.h:603 -/
abbrev CKM_SHA512_224 : Nat := 0x48
/-- src/pkcs11/headers/3.2/pkcs11.h:604 -/
abbrev CKM_SHA512_224_HMAC : Nat := 0x49
/-- src/pkcs11/headers/3.2/pkcs11.h:605 -/
abbrev CKM_SHA512_224_HMAC_GENERAL : Nat := 0x4a
/-- src/pkcs11/headers/3.2/pkcs11.h:606 -/
abbrev CKM_SHA512_224_KEY_DERIVATION : Nat := 0x4b
/-- src/pkcs11/headers/3.2/pkcs11.h:607 -/
abbrev CKM_SHA512_256 : Nat := 0x4c
/-- src/pkcs11/headers/3.2/pkcs11.h:608 -/
abbrev CKM_SHA512_256_HMAC : Nat := 0x4d
/-- src/pkcs11/headers/3.2/pkcs11.h:609 -/
abbrev CKM_SHA512_256_HMAC_GENERAL : Nat := 0x4e
/-- src/pkcs11/headers/3.2/pkcs11.h:610 -/
abbrev CKM_SHA512_256_KEY_DERIVATION : Nat := 0x4f
/-- src/pkcs11/headers/3.2/pkcs11.h:611 -/
abbrev CKM_SHA512_T : Nat := 0x50
/-- src/pkcs11/headers/3.2/pkcs11.h:612 -/
abbrev CKM_SHA512_T_HMAC : Nat := 0x51
/-- src/pkcs11/headers/3.2/pkcs11.h:613 -/
abbrev CKM_SHA512_T_HMAC_GENERAL : Nat := 0x52
/-- src/pkcs11/headers/3.2/pkcs11.h:614 -/
abbrev CKM_SHA512_T_KEY_DERIVATION : Nat := 0x53
/-- src/pkcs11/headers/3.2/pkcs11.h:615 -/
abbrev CKM_TLS12_EXTENDED_MASTER_KEY_DERIVE : Nat := 0x56
/-- src/pkcs11/headers/3.2/pkcs11.h:616 -/
abbrev CKM_TLS12_EXTENDED_MASTER_KEY_DERIVE_DH : Nat := 0x57
/-- src/pkcs11/headers/3.2/pkcs11.h:617 -/
abbrev CKM_SHA3_256_RSA_PKCS : Nat := 0x60
/-- src/pkcs11/headers/3.2/pkcs11.h:618 -/
abbrev CKM_SHA3_384_RSA_PKCS : Nat := 0x61
/-- src/pkcs11/headers/3.2/pkcs11.h:619 -/
abbrev CKM_SHA3_512_RSA_PKCS : Nat := 0x62
/-- src/pkcs11/headers/3.2/pkcs11.h:620 -/
abbrev CKM_SHA3_256_RSA_PKCS_PSS : Nat := 0x63
/-- src/pkcs11/headers/3.2/pkcs11.h:621 -/
abbrev CKM_SHA3_384_RSA_PKCS_PSS : Nat := 0x64
/-- src/pkcs11/headers/3.2/pkcs11.h:622 -/
abbrev CKM_SHA3_512_RSA_PKCS_PSS : Nat := 0x65
/-- src/pkcs11/headers/3.2/pkcs11.h:623 -/
abbrev CKM_SHA3_224_RSA_PKCS : Nat := 0x66
/-- src/pkcs11/headers/3.2/pkcs11.h:624 -/
abbrev CKM_SHA3_224_RSA_PKCS_PSS : Nat := 0x67
/-- src/pkcs11/headers/3.2/pkcs11.h:625 -/
abbrev CKM_RC2_KEY_GEN : Nat := 0x100
/-- src/pkcs11/headers/3.2/pkcs11.h:626 -/
abbrev CKM_RC2_ECB : Nat := 0x101
/-- src/pkcs11/headers/3.2/pkcs11.h:627 -/
abbrev CKM_RC2_CBC : Nat := 0x102
/-- src/pkcs11/headers/3.2/pkcs11.h:628 -/
abbrev CKM_RC2_MAC : Nat := 0x103
/-- src/pkcs11/headers/3.2/pkcs11.h:629 -/
abbrev CKM_RC2_MAC_GENERAL : Nat := 0x104
/-- src/pkcs11/headers/3.2/pkcs11.h:630 -/
abbrev CKM_RC2_CBC_PAD : Nat := 0x105
/-- src/pkcs11/headers/3.2/pkcs11.h:631 -/
abbrev CKM_RC4_KEY_GEN : Nat := 0x110
/-- src/pkcs11/headers/3.2/pkcs11.h:632 -/
abbrev CKM_RC4 : Nat := 0x111
/-- src/pkcs11/headers/3.2/pkcs11.h:633 -/
abbrev CKM_DES_KEY_GEN : Nat := 0x120
/-- src/pkcs11/headers/3.2/pkcs11.h:634 -/
abbrev CKM_DES_ECB : Nat := 0x121
/-- src/pkcs11/headers/3.2/pkcs11.h:635 -/
abbrev CKM_DES_CBC : Nat := 0x122
/-- src/pkcs11/headers/3.2/pkcs11.h:636 -/
abbrev CKM_DES_MAC : Nat := 0x123
/-- src/pkcs11/headers/3.2/pkcs11.h:637 -/
abbrev CKM_DES_MAC_GENERAL : Nat := 0x124
/-- src/pkcs11/headers/3.2/pkcs11.h:638 -/
abbrev CKM_DES_CBC_PAD : Nat := 0x125
/-- src/pkcs11/headers/3.2/pkcs11.h:639 -/
abbrev CKM_DES2_KEY_GEN : Nat := 0x130
/-- src/pkcs11/headers/3.2/pkcs11.h:640 -/
abbrev CKM_DES3_KEY_GEN : Nat := 0x131
/-- src/pkcs11/headers/3.2/pkcs11.h:641 -/
abbrev CKM_DES3_ECB : Nat := 0x132
/-- src/pkcs11/headers/3.2/pkcs11.h:642 -/
abbrev CKM_DES3_CBC : Nat := 0x133
/-- src/pkcs11/headers/3.2/pkcs11.h:643 -/
abbrev CKM_DES3_MAC : Nat := 0x134
/-- src/pkcs11/headers/3.2/pkcs11.h:644 -/
abbrev CKM_DES3_MAC_GENERAL : Nat := 0x135
/-- src/pkcs11/headers/3.2/pkcs11.h:645 -/
abbrev CKM_DES3_CBC_PAD : Nat := 0x136
/-- src/pkcs11/headers/3.2/pkcs11.h:646 -/
abbrev CKM_DES3_CMAC_GENERAL : Nat := 0x137
/-- src/pkcs11/headers/3.2/pkcs11.h:647 -/
abbrev CKM_DES3_CMAC : Nat := 0x138
/-- src/pkcs11/headers/3.2/pkcs11.h:648 -/
abbrev CKM_CDMF_KEY_GEN : Nat := 0x140
/-- src/pkcs11/headers/3.2/pkcs11.h:649 -/
abbrev CKM_CDMF_ECB : Nat := 0x141
/-- src/pkcs11/headers/3.2/pkcs11.h:650 -/
abbrev CKM_CDMF_CBC : Nat := 0x142
/-- src/pkcs11/headers/3.2/pkcs11.h:651 -/
abbrev CKM_CDMF_MAC : Nat := 0x143
/-- src/pkcs11/headers/3.2/pkcs11.h:652 -/
abbrev CKM_CDMF_MAC_GENERAL : Nat := 0x144
/-- src/pkcs11/headers/3.2/pkcs11.h:653 -/
abbrev CKM_CDMF_CBC_PAD : Nat := 0x145
/-- src/pkcs11/headers/3.2/pkcs11.h:654 -/
abbrev CKM_DES_OFB64 : Nat := 0x150
/-- src/pkcs11/headers/3.2/pkcs11.h:655 -/
abbrev CKM_DES_OFB8 : Nat := 0x151
/-- src/pkcs11/headers/3.2/pkcs11.h:656 -/
abbrev CKM_DES_CFB64 : Nat := 0x152
/-- src/pkcs11/headers/3.2/pkcs11.h:657 -/
abbrev CKM_DES_CFB8 : Nat := 0x153
/-- src/pkcs11/headers/3.2/pkcs11.h:658 -/
abbrev CKM_MD2 : Nat := 0x200
/-- src/pkcs11/headers/3.2/pkcs11.h:659 -/
abbrev CKM_MD2_HMAC : Nat := 0x201
/-- src/pkcs11/headers/3.2/pkcs11.h:660 -/
abbrev CKM_MD2_HMAC_GENERAL : Nat := 0x202
/-- src/pkcs11/headers/3.2/pkcs11.h:661 -/
abbrev CKM_MD5 : Nat := 0x210
/-- src/pkcs11/headers/3.2/pkcs11.h:662 -/
abbrev CKM_MD5_HMAC : Nat := 0x211
/-- src/pkcs11/headers/3.2/pkcs11.h:663 -/
abbrev CKM_MD5_HMAC_GENERAL : Nat := 0x212
/-- src/pkcs11/headers/3.2/pkcs11.h:664 -/
abbrev CKM_SHA_1 : Nat := 0x220
/-- src/pkcs11/headers/3.2/pkcs11.h:665 -/
abbrev CKM_SHA_1_HMAC : Nat := 0x221
/-- src/pkcs11/headers/3.2/pkcs11.h:666 -/
abbrev CKM_SHA_1_HMAC_GENERAL : Nat := 0x222
/-- src/pkcs11/headers/3.2/pkcs11.h:667 -/
abbrev CKM_RIPEMD128 : Nat := 0x230
/-- src/pkcs11/headers/3.2/pkcs11.h:668 -/
abbrev CKM_RIPEMD128_HMAC : Nat := 0x231
/-- src/pkcs11/headers/3.2/pkcs11.h:669 -/
abbrev CKM_RIPEMD128_HMAC_GENERAL : Nat := 0x232
/-- src/pkcs11/headers/3.2/pkcs11.h:670 -/
abbrev CKM_RIPEMD160 : Nat := 0x240
/-- src/pkcs11/headers/3.2/pkcs11.h:671 -/
abbrev CKM_RIPEMD160_HMAC : Nat := 0x241
/-- src/pkcs11/headers/3.2/pkcs11.h:672 -/
abbrev CKM_RIPEMD160_HMAC_GENERAL : Nat := 0x242
/-- src/pkcs11/headers/3.2/pkcs11.h:673 -/
abbrev CKM_SHA256 : Nat := 0x250
/-- src/pkcs11/headers/3.2/pkcs11.h:674 -/
abbrev CKM_SHA256_HMAC : Nat := 0x251
/-- src/pkcs11/headers/3.2/pkcs11.h:675 -/
abbrev CKM_SHA256_HMAC_GENERAL : Nat := 0x252
/-- src/pkcs11/headers/3.2/pkcs11.h:676 -/
abbrev CKM_SHA224 : Nat := 0x255
/-- src/pkcs11/headers/3.2/pkcs11.h:677 -/
abbrev CKM_SHA224_HMAC : Nat := 0x256
/-- src/pkcs11/headers/3.2/pkcs11.h:678 -/
abbrev CKM_SHA224_HMAC_GENERAL : Nat := 0x257
/-- src/pkcs11/headers/3.2/pkcs11.h:679 -/
abbrev CKM_SHA384 : Nat := 0x260
/-- src/pkcs11/headers/3.2/pkcs11.h:680 -/
abbrev CKM_SHA384_HMAC : Nat := 0x261
/-- src/pkcs11/headers/3.2/pkcs11.h:681 -/
abbrev CKM_SHA384_HMAC_GENERAL : Nat := 0x262
/-- src/pkcs11/headers/3.2/pkcs11.h:682 -/
abbrev CKM_SHA512 : Nat := 0x270
/-- src/pkcs11/headers/3.2/pkcs11.h:683 -/
abbrev CKM_SHA512_HMAC : Nat := 0x271
/-- src/pkcs11/headers/3.2/pkcs11.h:684 -/
abbrev CKM_SHA512_HMAC_GENERAL : Nat := 0x272
/-- src/pkcs11/headers/3.2/pkcs11.h:685 -/
abbrev CKM_SECURID_KEY_GEN : Nat := 0x280
/-- src/pkcs11/headers/3.2/pkcs11.h:686 -/
abbrev CKM_SECURID : Nat := 0x282
/-- src/pkcs11/headers/3.2/pkcs11.h:687 -/
abbrev CKM_HOTP_KEY_GEN : Nat := 0x290
/-- src/pkcs11/headers/3.2/pkcs11.h:688 -/
abbrev CKM_HOTP : Nat := 0x291
/-- src/pkcs11/headers/3.2/pkcs11.h:689 -/
abbrev CKM_ACTI : Nat := 0x2a0
/-- src/pkcs11/headers/3.2/pkcs11.h:690 -/
abbrev CKM_ACTI_KEY_GEN : Nat := 0x2a1
/-- src/pkcs11/headers/3.2/pkcs11.h:691 -/
abbrev CKM_SHA3_256 : Nat := 0x2b0
/-- src/pkcs11/headers/3.2/pkcs11.h:692 -/
abbrev CKM_SHA3_256_HMAC : Nat := 0x2b1
/-- src/pkcs11/headers/3.2/pkcs11.h:693 -/
abbrev CKM_SHA3_256_HMAC_GENERAL : Nat := 0x2b2
/-- src/pkcs11/headers/3.2/pkcs11.h:694 -/
abbrev CKM_SHA3_256_KEY_GEN : Nat := 0x2b3
/-- src/pkcs11/headers/3.2/pkcs11.h:695 -/
abbrev CKM_SHA3_224 : Nat := 0x2b5
/-- src/pkcs11/headers/3.2/pkcs11.h:696 -/
abbrev CKM_SHA3_224_HMAC : Nat := 0x2b6
/-- src/pkcs11/headers/3.2/pkcs11.h:697 -/
abbrev CKM_SHA3_224_HMAC_GENERAL : Nat := 0x2b7
/-- src/pkcs11/headers/3.2/pkcs11.h:698 -/
abbrev CKM_SHA3_224_KEY_GEN : Nat := 0x2b8
/-- src/pkcs11/headers/3.2/pkcs11.h:699 -/
abbrev CKM_SHA3_384 : Nat := 0x2c0
/-- src/pkcs11/headers/3.2/pkcs11.h:700 -/
abbrev CKM_SHA3_384_HMAC : Nat := 0x2c1
/-- src/pkcs11/headers/3.2/pkcs11.h:701 -/
abbrev CKM_SHA3_384_HMAC_GENERAL : Nat := 0x2c2
/-- src/pkcs11/headers/3.2/pkcs11.h:702 -/
abbrev CKM_SHA3_384_KEY_GEN : Nat := 0x2c3
/-- src/pkcs11/headers/3.2/pkcs11.h:703 -/
abbrev CKM_SHA3_512 : Nat := 0x2d0
/-- src/pkcs11/headers/3.2/pkcs11.h:704 -/
abbrev CKM_SHA3_512_HMAC : Nat := 0x2d1
/-- src/pkcs11/headers/3.2/pkcs11.h:705 -/
abbrev CKM_SHA3_512_HMAC_GENERAL : Nat := 0x2d2
/-- src/pkcs11/headers/3.2/pkcs11.h:706 -/
abbrev CKM_SHA3_512_KEY_GEN : Nat := 0x2d3
/-- src/pkcs11/headers/3.2/pkcs11.h:707 -/
abbrev CKM_CAST_KEY_GEN : Nat := 0x300
/-- src/pkcs11/headers/3.2/pkcs11.h:708 -/
abbrev CKM_CAST_ECB : Nat := 0x301
/-- src/pkcs11/headers/3.2/pkcs11.h:709 -/
abbrev CKM_CAST_CBC : Nat := 0x302
/-- src/pkcs11/headers/3.2/pkcs11.h:710 -/
abbrev CKM_CAST_MAC : Nat := 0x303
/-- src/pkcs11/headers/3.2/pkcs11.h:711 -/
abbrev CKM_CAST_MAC_GENERAL : Nat := 0x304
/-- src/pkcs11/headers/3.2/pkcs11.h:712 -/
abbrev CKM_CAST_CBC_PAD : Nat := 0x305
/-- src/pkcs11/headers/3.2/pkcs11.h:713 -/
abbrev CKM_CAST3_KEY_GEN : Nat := 0x310
/-- src/pkcs11/headers/3.2/pkcs11.h:714 -/
abbrev CKM_CAST3_ECB : Nat := 0x311
/-- src/pkcs11/headers/3.2/pkcs11.h:715 -/
abbrev CKM_CAST3_CBC : Nat := 0x312
/-- src/pkcs11/headers/3.2/pkcs11.h:716 -/
abbrev CKM_CAST3_MAC : Nat := 0x313
/-- src/pkcs11/headers/3.2/pkcs11.h:717 -/
abbrev CKM_CAST3_MAC_GENERAL : Nat := 0x314
/-- src/pkcs11/headers/3.2/pkcs11.h:718 -/
abbrev CKM_CAST3_CBC_PAD : Nat := 0x315
/-- src/pkcs11/headers/3.2/pkcs11.h:719 -/
abbrev CKM_CAST128_KEY_GEN : Nat := 0x320
/-- src/pkcs11/headers/3.2/pkcs11.h:720 -/
abbrev CKM_CAST128_ECB : Nat := 0x321
/-- src/pkcs11/headers/3.2/pkcs11.h:722 -/
abbrev CKM_CAST128_CBC : Nat := 0x322
/-- src/pkcs11/headers/3.2/pkcs11.h:721 -/
abbrev CKM_CAST128_MAC : Nat := 0x323
/-- src/pkcs11/headers/3.2/pkcs11.h:723 -/
abbrev CKM_CAST128_MAC_GENERAL : Nat := 0x324
/-- src/pkcs11/headers/3.2/pkcs11.h:724 -/
abbrev CKM_CAST128_CBC_PAD : Nat := 0x325
/-- src/pkcs11/headers/3.2/pkcs11.h:725 -/
abbrev CKM_RC5_KEY_GEN : Nat := 0x330
/-- src/pkcs11/headers/3.2/pkcs11.h:726 -/
abbrev CKM_RC5_ECB : Nat := 0x331
/-- src/pkcs11/headers/3.2/pkcs11.h:727 -/
abbrev CKM_RC5_CBC : Nat := 0x332
/-- src/pkcs11/headers/3.2/pkcs11.h:728 -/
abbrev CKM_RC5_MAC : Nat := 0x333
/-- src/pkcs11/headers/3.2/pkcs11.h:729 -/
abbrev CKM_RC5_MAC_GENERAL : Nat := 0x334
/-- src/pkcs11/headers/3.2/pkcs11.h:730 -/
abbrev CKM_RC5_CBC_PAD : Nat := 0x335
/-- src/pkcs11/headers/3.2/pkcs11.h:731 -/
abbrev CKM_IDEA_KEY_GEN : Nat := 0x340
/-- src/pkcs11/headers/3.2/pkcs11.h:732 -/
abbrev CKM_IDEA_ECB : Nat := 0x341
/-- src/pkcs11/headers/3.2/pkcs11.h:733 -/
abbrev CKM_IDEA_CBC : Nat := 0x342
/-- src/pkcs11/headers/3.2/pkcs11.h:734 -/
abbrev CKM_IDEA_MAC : Nat := 0x343
/-- src/pkcs11/headers/3.2/pkcs11.h:735 -/
abbrev CKM_IDEA_MAC_GENERAL : Nat := 0x344
/-- src/pkcs11/headers/3.2/pkcs11.h:736 -/
abbrev CKM_IDEA_CBC_PAD : Nat := 0x345
/-- src/pkcs11/headers/3.2/pkcs11.h:737 -/
abbrev CKM_GENERIC_SECRET_KEY_GEN : Nat := 0x350
/-- src/pkcs11/headers/3.2/pkcs11.h:738 -/
abbrev CKM_CONCATENATE_BASE_AND_KEY : Nat := 0x360
/-- src/pkcs11/headers/3.2/pkcs11.h:739 -/
abbrev CKM_CONCATENATE_BASE_AND_DATA : Nat := 0x362
/-- src/pkcs11/headers/3.2/pkcs11.h:740 -/
abbrev CKM_CONCATENATE_DATA_AND_BASE : Nat := 0x363
/-- src/pkcs11/headers/3.2/pkcs11.h:741 -/
abbrev CKM_XOR_BASE_AND_DATA : Nat := 0x364
/-- src/pkcs11/headers/3.2/pkcs11.h:742 -/
abbrev CKM_EXTRACT_KEY_FROM_KEY : Nat := 0x365
/-- src/pkcs11/headers/3.2/pkcs11.h:743 -/
abbrev CKM_SSL3_PRE_MASTER_KEY_GEN : Nat := 0x370
/-- src/pkcs11/headers/3.2/pkcs11.h:744 -/
abbrev CKM_SSL3_MASTER_KEY_DERIVE : Nat := 0x371
/-- src/pkcs11/headers/3.2/pkcs11.h:745 -/
abbrev CKM_SSL3_KEY_AND_MAC_DERIVE : Nat := 0x372
/-- src/pkcs11/headers/3.2/pkcs11.h:746 -/
abbrev CKM_SSL3_MASTER_KEY_DERIVE_DH : Nat := 0x373
/-- src/pkcs11/headers/3.2/pkcs11.h:747 -/
abbrev CKM_TLS_PRE_MASTER_KEY_GEN : Nat := 0x374
/-- src/pkcs11/headers/3.2/pkcs11.h:748 -/
abbrev CKM_TLS_MASTER_KEY_DERIVE : Nat := 0x375
/-- src/pkcs11/headers/3.2/pkcs11.h:749 -/
abbrev CKM_TLS_KEY_AND_MAC_DERIVE : Nat := 0x376
/-- src/pkcs11/headers/3.2/pkcs11.h:750 -/
abbrev CKM_TLS_MASTER_KEY_DERIVE_DH : Nat := 0x377
/-- src/pkcs11/headers/3.2/pkcs11.h:751 -/
abbrev CKM_TLS_PRF : Nat := 0x378
/-- src/pkcs11/headers/3.2/pkcs11.h:752 -/
abbrev CKM_SSL3_MD5_MAC : Nat := 0x380
/-- src/pkcs11/headers/3.2/pkcs11.h:753 -/
abbrev CKM_SSL3_SHA1_MAC : Nat := 0x381
/-- src/pkcs11/headers/3.2/pkcs11.h:754 -/
abbrev CKM_MD5_KEY_DERIVATION : Nat := 0x390
/-- src/pkcs11/headers/3.2/pkcs11.h:755 -/
abbrev CKM_MD2_KEY_DERIVATION : Nat := 0x391
/-- src/pkcs11/headers/3.2/pkcs11.h:756 -/
abbrev CKM_SHA1_KEY_DERIVATION : Nat := 0x392
/-- src/pkcs11/headers/3.2/pkcs11.h:757 -/
abbrev CKM_SHA256_KEY_DERIVATION : Nat := 0x393
/-- src/pkcs11/headers/3.2/pkcs11.h:758 -/
abbrev CKM_SHA384_KEY_DERIVATION : Nat := 0x394
/-- src/pkcs11/headers/3.2/pkcs11.h:759 -/
abbrev CKM_SHA512_KEY_DERIVATION : Nat := 0x395
/-- src/pkcs11/headers/3.2/pkcs11.h:760 -/
abbrev CKM_SHA224_KEY_DERIVATION : Nat := 0x396
/-- src/pkcs11/headers/3.2/pkcs11.h:761 -/
abbrev CKM_SHA3_256_KEY_DERIVATION : Nat := 0x397
/-- src/pkcs11/headers/3.2/pkcs11.h:762 -/
abbrev CKM_SHA3_256_KEY_DERIVE : Nat := 0x397
/-- src/pkcs11/headers/3.2/pkcs11.h:763 -/
abbrev CKM_SHA3_224_KEY_DERIVATION : Nat := 0x398
/-- src/pkcs11/headers/3.2/pkcs11.h:764 -/
abbrev CKM_SHA3_224_KEY_DERIVE : Nat := 0x398
/-- src/pkcs11/headers/3.2/pkcs11.h:765 -/
abbrev CKM_SHA3_384_KEY_DERIVATION : Nat := 0x399
/-- src/pkcs11/headers/3.2/pkcs11.h:766 -/
abbrev CKM_SHA3_384_KEY_DERIVE : Nat := 0x399
/-- src/pkcs11/headers/3.2/pkcs11.h:767 -/
abbrev CKM_SHA3_512_KEY_DERIVATION : Nat := 0x39a
/-- src/pkcs11/headers/3.2/pkcs11.h:768 -/
abbrev CKM_SHA3_512_KEY_DERIVE : Nat := 0x39a
/-- src/pkcs11/headers/3.2/pkcs11.h:769 -/
abbrev CKM_SHAKE_128_KEY_DERIVATION : Nat := 0x39b
/-- src/pkcs11/headers/3.2/pkcs11.h:770 -/
abbrev CKM_SHAKE_128_KEY_DERIVE : Nat := 0x39b
/-- src/pkcs11/headers/3.2/pkcs11.h:771 -/
abbrev CKM_SHAKE_256_KEY_DERIVATION : Nat := 0x39c
/-- src/pkcs11/headers/3.2/pkcs11.h:772 -/
abbrev CKM_SHAKE_256_KEY_DERIVE : Nat := 0x39c
/-- src/pkcs11/headers/3.2/pkcs11.h:773 -/
abbrev CKM_PBE_MD2_DES_CBC : Nat := 0x3a0
/-- src/pkcs11/headers/3.2/pkcs11.h:774 -/
abbrev CKM_PBE_MD5_DES_CBC : Nat := 0x3a1
/-- src/pkcs11/headers/3.2/pkcs11.h:775 -/
abbrev CKM_PBE_MD5_CAST_CBC : Nat := 0x3a2
/-- src/pkcs11/headers/3.2/pkcs11.h:776 -/
abbrev CKM_PBE_MD5_CAST3_CBC : Nat := 0x3a3
/-- src/pkcs11/headers/3.2/pkcs11.h:777 -/
abbrev CKM_PBE_MD5_CAST128_CBC : Nat := 0x3a4
/-- src/pkcs11/headers/3.2/pkcs11.h:778 -/
abbrev CKM_PBE_SHA1_CAST128_CBC : Nat := 0x3a5
/-- src/pkcs11/headers/3.2/pkcs11.h:779 -/
abbrev CKM_PBE_SHA1_RC4_128 : Nat := 0x3a6
/-- src/pkcs11/headers/3.2/pkcs11.h:780 -/
abbrev CKM_PBE_SHA1_RC4_40 : Nat := 0x3a7
/-- src/pkcs11/headers/3.2/pkcs11.h:781 -/
abbrev CKM_PBE_SHA1_DES3_EDE_CBC : Nat := 0x3a8
/-- src/pkcs11/headers/3.2/pkcs11.h:782 -/
abbrev CKM_PBE_SHA1_DES2_EDE_CBC : Nat := 0x3a9
/-- src/pkcs11/headers/3.2/pkcs11.h:783 -/
abbrev CKM_PBE_SHA1_RC2_128_CBC : Nat := 0x3aa
/-- src/pkcs11/headers/3.2/pkcs11.h:784 -/
abbrev CKM_PBE_SHA1_RC2_40_CBC : Nat := 0x3ab
/-- src/pkcs11/headers/3.2/pkcs11.h:988 -/
abbrev CKM_SP800_108_COUNTER_KDF : Nat := 0x3ac
/-- src/pkcs11/headers/3.2/pkcs11.h:989 -/
abbrev CKM_SP800_108_FEEDBACK_KDF : Nat := 0x3ad
/-- src/pkcs11/headers/3.2/pkcs11.h:990 -/
abbrev CKM_SP800_108_DOUBLE_PIPELINE_KDF : Nat := 0x3ae
/-- src/pkcs11/headers/3.2/pkcs11.h:785 -/
abbrev CKM_PKCS5_PBKD2 : Nat := 0x3b0
/-- src/pkcs11/headers/3.2/pkcs11.h:786 -/
abbrev CKM_PBA_SHA1_WITH_SHA1_HMAC : Nat := 0x3c0
/-- src/pkcs11/headers/3.2/pkcs11.h:787 -/
abbrev CKM_WTLS_PRE_MASTER_KEY_GEN : Nat := 0x3d0
/-- src/pkcs11/headers/3.2/pkcs11.h:788 -/
abbrev CKM_WTLS_MASTER_KEY_DERIVE : Nat := 0x3d1
/-- src/pkcs11/headers/3.2/pkcs11.h:789 -/
abbrev CKM_WTLS_MASTER_KEY_DERIVE_DH_ECC : Nat := 0x3d2
/-- src/pkcs11/headers/3.2/pkcs11.h:790 -/
abbrev CKM_WTLS_PRF : Nat := 0x3d3
/-- src/pkcs11/headers/3.2/pkcs11.h:791 -/
abbrev CKM_WTLS_SERVER_KEY_AND_MAC_DERIVE : Nat := 0x3d4
/-- src/pkcs11/headers/3.2/pkcs11.h:792 -/
abbrev CKM_WTLS_CLIENT_KEY_AND_MAC_DERIVE : Nat := 0x3d5
/-- src/pkcs11/headers/3.2/pkcs11.h:793 -/
abbrev CKM_TLS10_MAC_SERVER : Nat := 0x3d6
/-- src/pkcs11/headers/3.2/pkcs11.h:794 -/
abbrev CKM_TLS10_MAC_CLIENT : Nat := 0x3d7
/-- src/pkcs11/headers/3.2/pkcs11.h:795 -/
abbrev CKM_TLS12_MAC : Nat := 0x3d8
/-- src/pkcs11/headers/3.2/pkcs11.h:796 -/
abbrev CKM_TLS12_KDF : Nat := 0x3d9
/-- src/pkcs11/headers/3.2/pkcs11.h:797 -/
abbrev CKM_TLS12_MASTER_KEY_DERIVE : Nat := 0x3e0
/-- src/pkcs11/headers/3.2/pkcs11.h:798 -/
abbrev CKM_TLS12_KEY_AND_MAC_DERIVE : Nat := 0x3e1
/-- src/pkcs11/headers/3.2/pkcs11.h:799 -/
abbrev CKM_TLS12_MASTER_KEY_DERIVE_DH : Nat := 0x3e2
/-- src/pkcs11/headers/3.2/pkcs11.h:800 -/
abbrev CKM_TLS12_KEY_SAFE_DERIVE : Nat := 0x3e3
/-- src/pkcs11/headers/3.2/pkcs11.h:801 -/
abbrev CKM_TLS_MAC : Nat := 0x3e4
/-- src/pkcs11/headers/3.2/pkcs11.h:802 -/
abbrev CKM_TLS_KDF : Nat := 0x3e5
/-- src/pkcs11/headers/3.2/pkcs11.h:803 -/
abbrev CKM_KEY_WRAP_LYNKS : Nat := 0x400
/-- src/pkcs11/headers/3.2/pkcs11.h:804 -/
abbrev CKM_KEY_WRAP_SET_OAEP : Nat := 0x401
/-- src/pkcs11/headers/3.2/pkcs11.h:805 -/
abbrev CKM_CMS_SIG : Nat := 0x500
/-- src/pkcs11/headers/3.2/pkcs11.h:806 -/
abbrev CKM_KIP_DERIVE : Nat := 0x510
/-- src/pkcs11/headers/3.2/pkcs11.h:807 -/
abbrev CKM_KIP_WRAP : Nat := 0x511
/-- src/pkcs11/headers/3.2/pkcs11.h:808 -/
abbrev CKM_KIP_MAC : Nat := 0x512
/-- src/pkcs11/headers/3.2/pkcs11.h:809 -/
abbrev CKM_CAMELLIA_KEY_GEN : Nat := 0x550
/-- src/pkcs11/headers/3.2/pkcs11.h:810 -/
abbrev CKM_CAMELLIA_ECB : Nat := 0x551
/-- src/pkcs11/headers/3.2/pkcs11.h:811 -/
abbrev CKM_CAMELLIA_CBC : Nat := 0x552
/-- src/pkcs11/headers/3.2/pkcs11.h:812 -/
abbrev CKM_CAMELLIA_MAC : Nat := 0x553
/-- src/pkcs11/headers/3.2/pkcs11.h:813 -/
abbrev CKM_CAMELLIA_MAC_GENERAL : Nat := 0x554
/-- src/pkcs11/headers/3.2/pkcs11.h:814 -/
abbrev CKM_CAMELLIA_CBC_PAD : Nat := 0x555
/-- src/pkcs11/headers/3.2/pkcs11.h:815 -/
abbrev CKM_CAMELLIA_ECB_ENCRYPT_DATA : Nat := 0x556
/-- src/pkcs11/headers/3.2/pkcs11.h:816 -/
abbrev CKM_CAMELLIA_CBC_ENCRYPT_DATA : Nat := 0x557
/-- src/pkcs11/headers/3.2/pkcs11.h:817 -/
abbrev CKM_CAMELLIA_CTR : Nat := 0x558
/-- src/pkcs11/headers/3.2/pkcs11.h:818 -/
abbrev CKM_ARIA_KEY_GEN : Nat := 0x560
/-- src/pkcs11/headers/3.2/pkcs11.h:819 -/
abbrev CKM_ARIA_ECB : Nat := 0x561
/-- src/pkcs11/headers/3.2/pkcs11.h:820 -/
abbrev CKM_ARIA_CBC : Nat := 0x562
/-- src/pkcs11/headers/3.2/pkcs11.h:821 -/
abbrev CKM_ARIA_MAC : Nat := 0x563
/-- src/pkcs11/headers/3.2/pkcs11.h:822 -/
abbrev CKM_ARIA_MAC_GENERAL : Nat := 0x564
/-- src/pkcs11/headers/3.2/pkcs11.h:823 -/
abbrev CKM_ARIA_CBC_PAD : Nat := 0x565
/-- src/pkcs11/headers/3.2/pkcs11.h:824 -/
abbrev CKM_ARIA_ECB_ENCRYPT_DATA : Nat := 0x566
/-- src/pkcs11/headers/3.2/pkcs11.h:825 -/
abbrev CKM_ARIA_CBC_ENCRYPT_DATA : Nat := 0x567
/-- src/pkcs11/headers/3.2/pkcs11.h:826 -/
abbrev CKM_SEED_KEY_GEN : Nat := 0x650
/-- src/pkcs11/headers/3.2/pkcs11.h:827 -/
abbrev CKM_SEED_ECB : Nat := 0x651
/-- src/pkcs11/headers/3.2/pkcs11.h:828 -/
abbrev CKM_SEED_CBC : Nat := 0x652
/-- src/pkcs11/headers/3.2/pkcs11.h:829 -/
abbrev CKM_SEED_MAC : Nat := 0x653
/-- src/pkcs11/headers/3.2/pkcs11.h:830 -/
abbrev CKM_SEED_MAC_GENERAL : Nat := 0x654
/-- src/pkcs11/headers/3.2/pkcs11.h:831 -/
abbrev CKM_SEED_CBC_PAD : Nat := 0x655
/-- src/pkcs11/headers/3.2/pkcs11.h:832 -/
abbrev CKM_SEED_ECB_ENCRYPT_DATA : Nat := 0x656
/-- src/pkcs11/headers/3.2/pkcs11.h:833 -/
abbrev CKM_SEED_CBC_ENCRYPT_DATA : Nat := 0x657
/-- src/pkcs11/headers/3.2/pkcs11.h:834 -/
abbrev CKM_SKIPJACK_KEY_GEN : Nat := 0x1000
/-- src/pkcs11/headers/3.2/pkcs11.h:835 -/
abbrev CKM_SKIPJACK_ECB64 : Nat := 0x1001
/-- src/pkcs11/headers/3.2/pkcs11.h:836 -/
abbrev CKM_SKIPJACK_CBC64 : Nat := 0x1002
/-- src/pkcs11/headers/3.2/pkcs11.h:837 -/
abbrev CKM_SKIPJACK_OFB64 : Nat := 0x1003
/-- src/pkcs11/headers/3.2/pkcs11.h:838 -/
abbrev CKM_SKIPJACK_CFB64 : Nat := 0x1004
/-- src/pkcs11/headers/3.2/pkcs11.h:839 -/
abbrev CKM_SKIPJACK_CFB32 : Nat := 0x1005
/-- src/pkcs11/headers/3.2/pkcs11.h:840 -/
abbrev CKM_SKIPJACK_CFB16 : Nat := 0x1006
/-- src/pkcs11/headers/3.2/pkcs11.h:841 -/
abbrev CKM_SKIPJACK_CFB8 : Nat := 0x1007
/-- src/pkcs11/headers/3.2/pkcs11.h:842 -/
abbrev CKM_SKIPJACK_WRAP : Nat := 0x1008
/-- src/pkcs11/headers/3.2/pkcs11.h:843 -/
abbrev CKM_SKIPJACK_PRIVATE_WRAP : Nat := 0x1009
/-- src/pkcs11/headers/3.2/pkcs11.h:844 -/
abbrev CKM_SKIPJACK_RELAYX : Nat := 0x100a
/-- src/pkcs11/headers/3.2/pkcs11.h:845 -/
abbrev CKM_KEA_KEY_PAIR_GEN : Nat := 0x1010
/-- src/pkcs11/headers/3.2/pkcs11.h:846 -/
abbrev CKM_KEA_KEY_DERIVE : Nat := 0x1011
/-- src/pkcs11/headers/3.2/pkcs11.h:847 -/
abbrev CKM_KEA_DERIVE : Nat := 0x1012
/-- src/pkcs11/headers/3.2/pkcs11.h:848 -/
abbrev CKM_FORTEZZA_TIMESTAMP : Nat := 0x1020
/-- src/pkcs11/headers/3.2/pkcs11.h:849 -/
abbrev CKM_BATON_KEY_GEN : Nat := 0x1030
/-- src/pkcs11/headers/3.2/pkcs11.h:850 -/
abbrev CKM_BATON_ECB128 : Nat := 0x1031
/-- src/pkcs11/headers/3.2/pkcs11.h:851 -/
abbrev CKM_BATON_ECB96 : Nat := 0x1032
/-- src/pkcs11/headers/3.2/pkcs11.h:852 -/
abbrev CKM_BATON_CBC128 : Nat := 0x1033
/-- src/pkcs11/headers/3.2/pkcs11.h:853 -/
abbrev CKM_BATON_COUNTER : Nat := 0x1034
/-- src/pkcs11/headers/3.2/pkcs11.h:854 -/
abbrev CKM_BATON_SHUFFLE : Nat := 0x1035
/-- src/pkcs11/headers/3.2/pkcs11.h:855 -/
abbrev CKM_BATON_WRAP : Nat := 0x1036
/-- src/pkcs11/headers/3.2/pkcs11.h:856 -/
abbrev CKM_EC_KEY_PAIR_GEN : Nat := 0x1040
/-- src/pkcs11/headers/3.2/pkcs11.h:857 -/
abbrev CKM_ECDSA : Nat := 0x1041
/-- src/pkcs11/headers/3.2/pkcs11.h:858 -/
abbrev CKM_ECDSA_SHA1 : Nat := 0x1042
/-- src/pkcs11/headers/3.2/pkcs11.h:859 -/
abbrev CKM_ECDSA_SHA224 : Nat := 0x1043
/-- src/pkcs11/headers/3.2/pkcs11.h:860 -/
abbrev CKM_ECDSA_SHA256 : Nat := 0x1044
/-- src/pkcs11/headers/3.2/pkcs11.h:861 -/
abbrev CKM_ECDSA_SHA384 : Nat := 0x1045
/-- src/pkcs11/headers/3.2/pkcs11.h:862 -/
abbrev CKM_ECDSA_SHA512 : Nat := 0x1046
/-- src/pkcs11/headers/3.2/pkcs11.h:981 -/
abbrev CKM_ECDSA_SHA3_224 : Nat := 0x1047
/-- src/pkcs11/headers/3.2/pkcs11.h:982 -/
abbrev CKM_ECDSA_SHA3_256 : Nat := 0x1048
/-- src/pkcs11/headers/3.2/pkcs11.h:983 -/
abbrev CKM_ECDSA_SHA3_384 : Nat := 0x1049
/-- src/pkcs11/headers/3.2/pkcs11.h:984 -/
abbrev CKM_ECDSA_SHA3_512 : Nat := 0x104a
/-- src/pkcs11/headers/3.2/pkcs11.h:864 -/
abbrev CKM_ECDH1_DERIVE : Nat := 0x1050
/-- src/pkcs11/headers/3.2/pkcs11.h:865 -/
abbrev CKM_ECDH1_COFACTOR_DERIVE : Nat := 0x1051
/-- src/pkcs11/headers/3.2/pkcs11.h:866 -/
abbrev CKM_ECMQV_DERIVE : Nat := 0x1052
/-- src/pkcs11/headers/3.2/pkcs11.h:867 -/
abbrev CKM_ECDH_AES_KEY_WRAP : Nat := 0x1053
/-- src/pkcs11/headers/3.2/pkcs11.h:868 -/
abbrev CKM_RSA_AES_KEY_WRAP : Nat := 0x1054
/-- src/pkcs11/headers/3.2/pkcs11.h:985 -/
abbrev CKM_EC_EDWARDS_KEY_PAIR_GEN : Nat := 0x1055
/-- src/pkcs11/headers/3.2/pkcs11.h:986 -/
abbrev CKM_EC_MONTGOMERY_KEY_PAIR_GEN : Nat := 0x1056
/-- src/pkcs11/headers/3.2/pkcs11.h:987 -/
abbrev CKM_EDDSA : Nat := 0x1057
/-- src/pkcs11/headers/3.2/pkcs11.h:869 -/
abbrev CKM_JUNIPER_KEY_GEN : Nat := 0x1060
/-- src/pkcs11/headers/3.2/pkcs11.h:870 -/
abbrev CKM_JUNIPER_ECB128 : Nat := 0x1061
/-- src/pkcs11/headers/3.2/pkcs11.h:871 -/
abbrev CKM_JUNIPER_CBC128 : Nat := 0x1062
/-- src/pkcs11/headers/3.2/pkcs11.h:872 -/
abbrev CKM_JUNIPER_COUNTER : Nat := 0x1063
/-- src/pkcs11/headers/3.2/pkcs11.h:873 -/
abbrev CKM_JUNIPER_SHUFFLE : Nat := 0x1064
/-- src/pkcs11/headers/3.2/pkcs11.h:874 -/
abbrev CKM_JUNIPER_WRAP : Nat := 0x1065
/-- src/pkcs11/headers/3.2/pkcs11.h:875 -/
abbrev CKM_FASTHASH : Nat := 0x1070
/-- src/pkcs11/headers/3.2/pkcs11.h:876 -/
abbrev CKM_AES_XTS : Nat := 0x1071
/-- src/pkcs11/headers/3.2/pkcs11.h:877 -/
abbrev CKM_AES_XTS_KEY_GEN : Nat := 0x1072
/-- src/pkcs11/headers/3.2/pkcs11.h:878 -/
abbrev CKM_AES_KEY_GEN : Nat := 0x1080
/-- src/pkcs11/headers/3.2/pkcs11.h:879 -/
abbrev CKM_AES_ECB : Nat := 0x1081
/-- src/pkcs11/headers/3.2/pkcs11.h:880 -/
abbrev CKM_AES_CBC : Nat := 0x1082
/-- src/pkcs11/headers/3.2/pkcs11.h:881 -/
abbrev CKM_AES_MAC : Nat := 0x1083
/-- src/pkcs11/headers/3.2/pkcs11.h:882 -/
abbrev CKM_AES_MAC_GENERAL : Nat := 0x1084
/-- src/pkcs11/headers/3.2/pkcs11.h:883 -/
abbrev CKM_AES_CBC_PAD : Nat := 0x1085
/-- src/pkcs11/headers/3.2/pkcs11.h:884 -/
abbrev CKM_AES_CTR : Nat := 0x1086
/-- src/pkcs11/headers/3.2/pkcs11.h:885 -/
abbrev CKM_AES_GCM : Nat := 0x1087
/-- src/pkcs11/headers/3.2/pkcs11.h:886 -/
abbrev CKM_AES_CCM : Nat := 0x1088
/-- src/pkcs11/headers/3.2/pkcs11.h:887 -/
abbrev CKM_AES_CTS : Nat := 0x1089
/-- src/pkcs11/headers/3.2/pkcs11.h:888 -/
abbrev CKM_AES_CMAC : Nat := 0x108a
/-- src/pkcs11/headers/3.2/pkcs11.h:889 -/
abbrev CKM_AES_CMAC_GENERAL : Nat := 0x108b
/-- src/pkcs11/headers/3.2/pkcs11.h:890 -/
abbrev CKM_AES_XCBC_MAC : Nat := 0x108c
/-- src/pkcs11/headers/3.2/pkcs11.h:891 -/
abbrev CKM_AES_XCBC_MAC_96 : Nat := 0x108d
/-- src/pkcs11/headers/3.2/pkcs11.h:892 -/
abbrev CKM_AES_GMAC : Nat := 0x108e
/-- src/pkcs11/headers/3.2/pkcs11.h:893 -/
abbrev CKM_BLOWFISH_KEY_GEN : Nat := 0x1090
/-- src/pkcs11/headers/3.2/pkcs11.h:894 -/
abbrev CKM_BLOWFISH_CBC : Nat := 0x1091
/-- src/pkcs11/headers/3.2/pkcs11.h:895 -/
abbrev CKM_TWOFISH_KEY_GEN : Nat := 0x1092
/-- src/pkcs11/headers/3.2/pkcs11.h:896 -/
abbrev CKM_TWOFISH_CBC : Nat := 0x1093
/-- src/pkcs11/headers/3.2/pkcs11.h:897 -/
abbrev CKM_BLOWFISH_CBC_PAD : Nat := 0x1094
/-- src/pkcs11/headers/3.2/pkcs11.h:898 -/
abbrev CKM_TWOFISH_CBC_PAD : Nat := 0x1095
/-- src/pkcs11/headers/3.2/pkcs11.h:899 -/
abbrev CKM_DES_ECB_ENCRYPT_DATA : Nat := 0x1100
/-- src/pkcs11/headers/3.2/pkcs11.h:900 -/
abbrev CKM_DES_CBC_ENCRYPT_DATA : Nat := 0x1101
/-- src/pkcs11/headers/3.2/pkcs11.h:901 -/
abbrev CKM_DES3_ECB_ENCRYPT_DATA : Nat := 0x1102
/-- src/pkcs11/headers/3.2/pkcs11.h:902 -/
abbrev CKM_DES3_CBC_ENCRYPT_DATA : Nat := 0x1103
/-- src/pkcs11/headers/3.2/pkcs11.h:903 -/
abbrev CKM_AES_ECB_ENCRYPT_DATA : Nat := 0x1104
/-- src/pkcs11/headers/3.2/pkcs11.h:904 -/
abbrev CKM_AES_CBC_ENCRYPT_DATA : Nat := 0x1105
/-- src/pkcs11/headers/3.2/pkcs11.h:905 -/
abbrev CKM_GOSTR3410_KEY_PAIR_GEN : Nat := 0x1200
/-- src/pkcs11/headers/3.2/pkcs11.h:906 -/
abbrev CKM_GOSTR3410 : Nat := 0x1201
/-- src/pkcs11/headers/3.2/pkcs11.h:907 -/
abbrev CKM_GOSTR3410_WITH_GOSTR3411 : Nat := 0x1202
/-- src/pkcs11/headers/3.2/pkcs11.h:908 -/
abbrev CKM_GOSTR3410_KEY_WRAP : Nat := 0x1203
/-- src/pkcs11/headers/3.2/pkcs11.h:909 -/
abbrev CKM_GOSTR3410_DERIVE : Nat := 0x1204
/-- src/pkcs11/headers/3.2/pkcs11.h:910 -/
abbrev CKM_GOSTR3411 : Nat := 0x1210
/-- src/pkcs11/headers/3.2/pkcs11.h:911 -/
abbrev CKM_GOSTR3411_HMAC : Nat := 0x1211
/-- src/pkcs11/headers/3.2/pkcs11.h:912 -/
abbrev CKM_GOST28147_KEY_GEN : Nat := 0x1220
/-- src/pkcs11/headers/3.2/pkcs11.h:913 -/
abbrev CKM_GOST28147_ECB : Nat := 0x1221
/-- src/pkcs11/headers/3.2/pkcs11.h:914 -/
abbrev CKM_GOST28147 : Nat := 0x1222
/-- src/pkcs11/headers/3.2/pkcs11.h:915 -/
abbrev CKM_GOST28147_MAC : Nat := 0x1223
/-- src/pkcs11/headers/3.2/pkcs11.h:916 -/
abbrev CKM_GOST28147_KEY_WRAP : Nat := 0x1224
/-- src/pkcs11/headers/3.2/pkcs11.h:917 -/
abbrev CKM_CHACHA20_KEY_GEN : Nat := 0x1225
/-- src/pkcs11/headers/3.2/pkcs11.h:918 -/
abbrev CKM_CHACHA20 : Nat := 0x1226
/-- src/pkcs11/headers/3.2/pkcs11.h:919 -/
abbrev CKM_POLY1305_KEY_GEN : Nat := 0x1227
/-- src/pkcs11/headers/3.2/pkcs11.h:920 -/
abbrev CKM_POLY1305 : Nat := 0x1228
/-- src/pkcs11/headers/3.2/pkcs11.h:863 -/
abbrev CKM_EC_KEY_PAIR_GEN_W_EXTRA_BITS : Nat := 0x140b
/-- src/pkcs11/headers/3.2/pkcs11.h:921 -/
abbrev CKM_DSA_PARAMETER_GEN : Nat := 0x2000
/-- src/pkcs11/headers/3.2/pkcs11.h:922 -/
abbrev CKM_DH_PKCS_PARAMETER_GEN : Nat := 0x2001
/-- src/pkcs11/headers/3.2/pkcs11.h:923 -/
abbrev CKM_X9_42_DH_PARAMETER_GEN : Nat := 0x2002
/-- src/pkcs11/headers/3.2/pkcs11.h:924 -/
abbrev CKM_DSA_PROBABILISTIC_PARAMETER_GEN : Nat := 0x2003
/-- src/pkcs11/headers/3.2/pkcs11.h:925 -/
abbrev CKM_DSA_SHAWE_TAYLOR_PARAMETER_GEN : Nat := 0x2004
/-- src/pkcs11/headers/3.2/pkcs11.h:926 -/
abbrev CKM_DSA_FIPS_G_GEN : Nat := 0x2005
/-- src/pkcs11/headers/3.2/pkcs11.h:927 -/
abbrev CKM_AES_OFB : Nat := 0x2104
/-- src/pkcs11/headers/3.2/pkcs11.h:928 -/
abbrev CKM_AES_CFB64 : Nat := 0x2105
/-- src/pkcs11/headers/3.2/pkcs11.h:929 -/
abbrev CKM_AES_CFB8 : Nat := 0x2106
/-- src/pkcs11/headers/3.2/pkcs11.h:930 -/
abbrev CKM_AES_CFB128 : Nat := 0x2107
/-- src/pkcs11/headers/3.2/pkcs11.h:931 -/
abbrev CKM_AES_CFB1 : Nat := 0x2108
/-- src/pkcs11/headers/3.2/pkcs11.h:932 -/
abbrev CKM_AES_KEY_WRAP : Nat := 0x2109
/-- src/pkcs11/headers/3.2/pkcs11.h:933 -/
abbrev CKM_AES_KEY_WRAP_PAD : Nat := 0x210a
/-- src/pkcs11/headers/3.2/pkcs11.h:934 -/
abbrev CKM_AES_KEY_WRAP_KWP : Nat := 0x210b
/-- src/pkcs11/headers/3.2/pkcs11.h:935 -/
abbrev CKM_AES_KEY_WRAP_PKCS7 : Nat := 0x210c
/-- src/pkcs11/headers/3.2/pkcs11.h:936 -/
abbrev CKM_RSA_PKCS_TPM_1_1 : Nat := 0x4001
/-- src/pkcs11/headers/3.2/pkcs11.h:937 -/
abbrev CKM_RSA_PKCS_OAEP_TPM_1_1 : Nat := 0x4002
/-- src/pkcs11/headers/3.2/pkcs11.h:938 -/
abbrev CKM_SHA_1_KEY_GEN : Nat := 0x4003
/-- src/pkcs11/headers/3.2/pkcs11.h:939 -/
abbrev CKM_SHA224_KEY_GEN : Nat := 0x4004
/-- src/pkcs11/headers/3.2/pkcs11.h:940 -/
abbrev CKM_SHA256_KEY_GEN : Nat := 0x4005
/-- src/pkcs11/headers/3.2/pkcs11.h:941 -/
abbrev CKM_SHA384_KEY_GEN : Nat := 0x4006
/-- src/pkcs11/headers/3.2/pkcs11.h:942 -/
abbrev CKM_SHA512_KEY_GEN : Nat := 0x4007
/-- src/pkcs11/headers/3.2/pkcs11.h:943 -/
abbrev CKM_SHA512_224_KEY_GEN : Nat := 0x4008
/-- src/pkcs11/headers/3.2/pkcs11.h:944 -/
abbrev CKM_SHA512_256_KEY_GEN : Nat := 0x4009
/-- src/pkcs11/headers/3.2/pkcs11.h:945 -/
abbrev CKM_SHA512_T_KEY_GEN : Nat := 0x400a
/-- src/pkcs11/headers/3.2/pkcs11.h:946 -/
abbrev CKM_NULL : Nat := 0x400b
/-- src/pkcs11/headers/3.2/pkcs11.h:947 -/
abbrev CKM_BLAKE2B_160 : Nat := 0x400c
/-- src/pkcs11/headers/3.2/pkcs11.h:948 -/
abbrev CKM_BLAKE2B_160_HMAC : Nat := 0x400d
/-- src/pkcs11/headers/3.2/pkcs11.h:949 -/
abbrev CKM_BLAKE2B_160_HMAC_GENERAL : Nat := 0x400e
/-- src/pkcs11/headers/3.2/pkcs11.h:950 -/
abbrev CKM_BLAKE2B_160_KEY_DERIVE : Nat := 0x400f
/-- src/pkcs11/headers/3.2/pkcs11.h:951 -/
abbrev CKM_BLAKE2B_160_KEY_GEN : Nat := 0x4010
/-- src/pkcs11/headers/3.2/pkcs11.h:952 -/
abbrev CKM_BLAKE2B_256 : Nat := 0x4011
/-- src/pkcs11/headers/3.2/pkcs11.h:953 -/
abbrev CKM_BLAKE2B_256_HMAC : Nat := 0x4012
/-- src/pkcs11/headers/3.2/pkcs11.h:954 -/
abbrev CKM_BLAKE2B_256_HMAC_GENERAL : Nat := 0x4013
/-- src/pkcs11/headers/3.2/pkcs11.h:955 -/
abbrev CKM_BLAKE2B_256_KEY_DERIVE : Nat := 0x4014
/-- src/pkcs11/headers/3.2/pkcs11.h:956 -/
abbrev CKM_BLAKE2B_256_KEY_GEN : Nat := 0x4015
/-- src/pkcs11/headers/3.2/pkcs11.h:957 -/
abbrev CKM_BLAKE2B_384 : Nat := 0x4016
/-- src/pkcs11/headers/3.2/pkcs11.h:958 -/
abbrev CKM_BLAKE2B_384_HMAC : Nat := 0x4017
/-- src/pkcs11/headers/3.2/pkcs11.h:959 -/
abbrev CKM_BLAKE2B_384_HMAC_GENERAL : Nat := 0x4018
/-- src/pkcs11/headers/3.2/pkcs11.h:960 -/
abbrev CKM_BLAKE2B_384_KEY_DERIVE : Nat := 0x4019
/-- src/pkcs11/headers/3.2/pkcs11.h:961 -/
abbrev CKM_BLAKE2B_384_KEY_GEN : Nat := 0x401a
/-- src/pkcs11/headers/3.2/pkcs11.h:962 -/
abbrev CKM_BLAKE2B_512 : Nat := 0x401b
/-- src/pkcs11/headers/3.2/pkcs11.h:963 -/
abbrev CKM_BLAKE2B_512_HMAC : Nat := 0x401c
/-- src/pkcs11/headers/3.2/pkcs11.h:964 -/
abbrev CKM_BLAKE2B_512_HMAC_GENERAL : Nat := 0x401d
/-- src/pkcs11/headers/3.2/pkcs11.h:965 -/
abbrev CKM_BLAKE2B_512_KEY_DERIVE : Nat := 0x401e
/-- src/pkcs11/headers/3.2/pkcs11.h:966 -/
abbrev CKM_BLAKE2B_512_KEY_GEN : Nat := 0x401f
/-- src/pkcs11/headers/3.2/pkcs11.h:967 -/
abbrev CKM_SALSA20 : Nat := 0x4020
/-- src/pkcs11/headers/3.2/pkcs11.h:968 -/
abbrev CKM_CHACHA20_POLY1305 : Nat := 0x4021
/-- src/pkcs11/headers/3.2/pkcs11.h:969 -/
abbrev CKM_SALSA20_POLY1305 : Nat := 0x4022
/-- src/pkcs11/headers/3.2/pkcs11.h:970 -/
abbrev CKM_X3DH_INITIALIZE : Nat := 0x4023
/-- src/pkcs11/headers/3.2/pkcs11.h:971 -/
abbrev CKM_X3DH_RESPOND : Nat := 0x4024
/-- src/pkcs11/headers/3.2/pkcs11.h:972 -/
abbrev CKM_X2RATCHET_INITIALIZE : Nat := 0x4025
/-- src/pkcs11/headers/3.2/pkcs11.h:973 -/
abbrev CKM_X2RATCHET_RESPOND : Nat := 0x4026
/-- src/pkcs11/headers/3.2/pkcs11.h:974 -/
abbrev CKM_X2RATCHET_ENCRYPT : Nat := 0x4027
/-- src/pkcs11/headers/3.2/pkcs11.h:975 -/
abbrev CKM_X2RATCHET_DECRYPT : Nat := 0x4028
/-- src/pkcs11/headers/3.2/pkcs11.h:976 -/
abbrev CKM_XEDDSA : Nat := 0x4029
/-- src/pkcs11/headers/3.2/pkcs11.h:977 -/
abbrev CKM_HKDF_DERIVE : Nat := 0x402a
/-- src/pkcs11/headers/3.2/pkcs11.h:978 -/
abbrev CKM_HKDF_DATA : Nat := 0x402b
/-- src/pkcs11/headers/3.2/pkcs11.h:979 -/
abbrev CKM_HKDF_KEY_GEN : Nat := 0x402c
/-- src/pkcs11/headers/3.2/pkcs11.h:980 -/
abbrev CKM_SALSA20_KEY_GEN : Nat := 0x402d
/-- src/pkcs11/headers/3.2/pkcs11.h:991 -/
abbrev CKM_IKE2_PRF_PLUS_DERIVE : Nat := 0x402e
/-- src/pkcs11/headers/3.2/pkcs11.h:992 -/
abbrev CKM_IKE_PRF_DERIVE : Nat := 0x402f
/-- src/pkcs11/headers/3.2/pkcs11.h:993 -/
abbrev CKM_IKE1_PRF_DERIVE : Nat := 0x4030
/-- src/pkcs11/headers/3.2/pkcs11.h:994 -/
abbrev CKM_IKE1_EXTENDED_DERIVE : Nat := 0x4031
/-- src/pkcs11/headers/3.2/pkcs11.h:995 -/
abbrev CKM_HSS_KEY_PAIR_GEN : Nat := 0x4032
/-- src/pkcs11/headers/3.2/pkcs11.h:996 -/
abbrev CKM_HSS : Nat := 0x4033
/-- src/pkcs11/headers/3.2/pkcs11.h:997 -/
abbrev CKM_XMSS_KEY_PAIR_GEN : Nat := 0x4034
/-- src/pkcs11/headers/3.2/pkcs11.h:998 -/
abbrev CKM_XMSSMT_KEY_PAIR_GEN : Nat := 0x4035
/-- src/pkcs11/headers/3.2/pkcs11.h:999 -/
abbrev CKM_XMSS : Nat := 0x4036
/-- src/pkcs11/headers/3.2/pkcs11.h:1000 -/
abbrev CKM_XMSSMT : Nat := 0x4037
/-- src/pkcs11/headers/3.2/pkcs11.h:1001 -/
abbrev CKM_ECDH_X_AES_KEY_WRAP : Nat := 0x4038
/-- src/pkcs11/headers/3.2/pkcs11.h:1002 -/
abbrev CKM_ECDH_COF_AES_KEY_WRAP : Nat := 0x4039
/-- src/pkcs11/headers/3.2/pkcs11.h:1003 -/
abbrev CKM_PUB_KEY_FROM_PRIV_KEY : Nat := 0x403a
/-- src/pkcs11/headers/3.2/pkcs11.h:1024 -/
abbrev CKO_DATA : Nat := 0x0
/-- src/pkcs11/headers/3.2/pkcs11.h:1025 -/
abbrev CKO_CERTIFICATE : Nat := 0x1
/-- src/pkcs11/headers/3.2/pkcs11.h:1026 -/
abbrev CKO_PUBLIC_KEY : Nat := 0x2
/-- src/pkcs11/headers/3.2/pkcs11.h:1027 -/
abbrev CKO_PRIVATE_KEY : Nat := 0x3
/-- src/pkcs11/headers/3.2/pkcs11.h:1028 -/
abbrev CKO_SECRET_KEY : Nat := 0x4
/-- src/pkcs11/headers/3.2/pkcs11.h:1029 -/
abbrev CKO_HW_FEATURE : Nat := 0x5
/-- src/pkcs11/headers/3.2/pkcs11.h:1030 -/
abbrev CKO_DOMAIN_PARAMETERS : Nat := 0x6
/-- src/pkcs11/headers/3.2/pkcs11.h:1031 -/
abbrev CKO_MECHANISM : Nat := 0x7
/-- src/pkcs11/headers/3.2/pkcs11.h:1032 -/
abbrev CKO_OTP_KEY : Nat := 0x8
/-- src/pkcs11/headers/3.2/pkcs11.h:1033 -/
abbrev CKO_PROFILE : Nat := 0x9
/-- src/pkcs11/headers/3.2/pkcs11.h:1034 -/
abbrev CKO_VALIDATION : Nat := 0xa
/-- src/pkcs11/headers/3.2/pkcs11.h:1035 -/
abbrev CKO_TRUST : Nat := 0xb
/-- src/pkcs11/headers/3.2/pkcs11.h:1036 -/
abbrev CKO_VENDOR_DEFINED : Nat := 0x80000000
/-- src/pkcs11/vendor.rs:59 -/
abbrev CKO_NSS_TRUST : Nat := 0xce534353
/-- src/pkcs11/headers/3.2/pkcs11.h:1040 -/
abbrev CKP_BASELINE_PROVIDER : Nat := 0x1
/-- src/pkcs11/headers/3.2/pkcs11.h:1059 -/
abbrev CKP_ML_DSA_44 : Nat := 0x1
/-- src/pkcs11/headers/3.2/pkcs11.h:1064 -/
abbrev CKP_ML_KEM_512 : Nat := 0x1
/-- src/pkcs11/headers/3.2/pkcs11.h:1049 -/
abbrev CKP_PKCS5_PBKD2_HMAC_SHA1 : Nat := 0x1
/-- src/pkcs11/headers/3.2/pkcs11.h:1069 -/
abbrev CKP_SLH_DSA_SHA2_128S : Nat := 0x1
/-- src/pkcs11/headers/3.2/pkcs11.h:1041 -/
abbrev CKP_EXTENDED_PROVIDER : Nat := 0x2
/-- src/pkcs11/headers/3.2/pkcs11.h:1060 -/
abbrev CKP_ML_DSA_65 : Nat := 0x2
/-- src/pkcs11/headers/3.2/pkcs11.h:1065 -/
abbrev CKP_ML_KEM_768 : Nat := 0x2
/-- src/pkcs11/headers/3.2/pkcs11.h:1070 -/
abbrev CKP_SLH_DSA_SHAKE_128S : Nat := 0x2
/-- src/pkcs11/headers/3.2/pkcs11.h:1042 -/
abbrev CKP_AUTHENTICATION_TOKEN : Nat := 0x3
/-- src/pkcs11/headers/3.2/pkcs11.h:1061 -/
abbrev CKP_ML_DSA_87 : Nat := 0x3
/-- src/pkcs11/headers/3.2/pkcs11.h:1066 -/
abbrev CKP_ML_KEM_1024 : Nat := 0x3
/-- src/pkcs11/headers/3.2/pkcs11.h:1051 -/
abbrev CKP_PKCS5_PBKD2_HMAC_SHA224 : Nat := 0x3
/-- src/pkcs11/headers/3.2/pkcs11.h:1071 -/
abbrev CKP_SLH_DSA_SHA2_128F : Nat := 0x3
/-- src/pkcs11/headers/3.2/pkcs11.h:1052 -/
abbrev CKP_PKCS5_PBKD2_HMAC_SHA256 : Nat := 0x4
/-- src/pkcs11/headers/3.2/pkcs11.h:1043 -/
abbrev CKP_PUBLIC_CERTIFICATES_TOKEN : Nat := 0x4
/-- src/pkcs11/headers/3.2/pkcs11.h:1072 -/
abbrev CKP_SLH_DSA_SHAKE_128F : Nat := 0x4
/-- src/pkcs11/headers/3.2/pkcs11.h:1044 -/
abbrev CKP_COMPLETE_PROVIDER : Nat := 0x5
/-- src/pkcs11/headers/3.2/pkcs11.h:1053 -/
abbrev CKP_PKCS5_PBKD2_HMAC_SHA384 : Nat := 0x5
/-- src/pkcs11/headers/3.2/pkcs11.h:1073 -/
abbrev CKP_SLH_DSA_SHA2_192S : Nat := 0x5
/-- src/pkcs11/headers/3.2/pkcs11.h:1045 -/
abbrev CKP_HKDF_TLS_TOKEN : Nat := 0x6
/-- src/pkcs11/headers/3.2/pkcs11.h:1054 -/
abbrev CKP_PKCS5_PBKD2_HMAC_SHA512 : Nat := 0x6
/-- src/pkcs11/headers/3.2/pkcs11.h:1074 -/
abbrev CKP_SLH_DSA_SHAKE_192S : Nat := 0x6
/-- src/pkcs11/headers/3.2/pkcs11.h:1055 -/
abbrev CKP_PKCS5_PBKD2_HMAC_SHA512_224 : Nat := 0x7
/-- src/pkcs11/headers/3.2/pkcs11.h:1075 -/
abbrev CKP_SLH_DSA_SHA2_192F : Nat := 0x7
/-- src/pkcs11/headers/3.2/pkcs11.h:1056 -/
abbrev CKP_PKCS5_PBKD2_HMAC_SHA512_256 : Nat := 0x8
/-- src/pkcs11/headers/3.2/pkcs11.h:1076 -/
abbrev CKP_SLH_DSA_SHAKE_192F : Nat := 0x8
/-- src/pkcs11/headers/3.2/pkcs11.h:1077 -/
abbrev CKP_SLH_DSA_SHA2_256S : Nat := 0x9
/-- src/pkcs11/headers/3.2/pkcs11.h:1078 -/
abbrev CKP_SLH_DSA_SHAKE_256S : Nat := 0xa
/-- src/pkcs11/headers/3.2/pkcs11.h:1079 -/
abbrev CKP_SLH_DSA_SHA2_256F : Nat := 0xb
/-- src/pkcs11/headers/3.2/pkcs11.h:1080 -/
abbrev CKP_SLH_DSA_SHAKE_256F : Nat := 0xc
/-- src/pkcs11/headers/3.2/pkcs11.h:1190 -/
abbrev CKS_RO_PUBLIC_SESSION : Nat := 0x0
/-- src/pkcs11/headers/3.2/pkcs11.h:1197 -/
abbrev CKS_LAST_VALIDATION_OK : Nat := 0x1
/-- src/pkcs11/headers/3.2/pkcs11.h:1191 -/
abbrev CKS_RO_USER_FUNCTIONS : Nat := 0x1
/-- src/pkcs11/headers/3.2/pkcs11.h:1192 -/
abbrev CKS_RW_PUBLIC_SESSION : Nat := 0x2
/-- src/pkcs11/headers/3.2/pkcs11.h:1193 -/
abbrev CKS_RW_USER_FUNCTIONS : Nat := 0x3
/-- src/pkcs11/headers/3.2/pkcs11.h:1194 -/
abbrev CKS_RW_SO_FUNCTIONS : Nat := 0x4
/-- src/pkcs11/headers/3.2/pkcs11.h:1200 -/
abbrev CKT_TRUST_UNKNOWN : Nat := 0x0
/-- src/pkcs11/headers/3.2/pkcs11.h:1203 -/
abbrev CKT_NOT_TRUSTED : Nat := 0x3
/-- src/pkcs11/vendor.rs:98 -/
abbrev CKT_NSS_TRUSTED : Nat := 0xce534351
/-- src/pkcs11/vendor.rs:99 -/
abbrev CKT_NSS_TRUSTED_DELEGATOR : Nat := 0xce534352
/-- src/pkcs11/vendor.rs:100 -/
abbrev CKT_NSS_MUST_VERIFY_TRUST : Nat := 0xce534353
/-- src/pkcs11/vendor.rs:101 -/
abbrev CKT_NSS_TRUST_UNKNOWN : Nat := 0xce534355
/-- src/pkcs11/vendor.rs:102 -/
abbrev CKT_NSS_NOT_TRUSTED : Nat := 0xce53435a
/-- src/pkcs11/headers/3.2/pkcs11.h:1207 -/
abbrev CKU_SO : Nat := 0x0
/-- src/pkcs11/headers/3.2/pkcs11.h:1208 -/
abbrev CKU_USER : Nat := 0x1
/-- src/pkcs11/headers/3.2/pkcs11.h:1209 -/
abbrev CKU_CONTEXT_SPECIFIC : Nat := 0x2
/-- src/pkcs11/headers/3.2/pkcs11.h:1224 -/
abbrev CKZ_DATA_SPECIFIED : Nat := 0x1
/-- src/pkcs11/headers/3.2/pkcs11.h:1227 -/
abbrev CKZ_SALT_SPECIFIED : Nat := 0x1
/-- src/pkcs11/vendor.rs:15 -/
abbrev KRA_MAX_LOGIN_ATTEMPTS : Nat := 0x8007678c
/-- src/pkcs11/vendor.rs:16 -/
abbrev KRA_LOGIN_ATTEMPTS : Nat := 0x8007678d
/-- src/pkcs11/vendor.rs:35 -/
abbrev KRM_SSHKDF_DERIVE : Nat := 0x8007678c
/-- src/pkcs11/vendor.rs:11 -/
abbrev KRO_TOKEN_DATA : Nat := 0x8007678c
/-- src/pkcs11/vendor.rs:8 -/
abbrev KRY_VENDOR_OFFSET : Nat := 0x8007678b
/-- src/pkcs11/vendor.rs:26 -/
abbrev KRY_UNSPEC : Nat := 0xffffffffffffffff

end Kry
