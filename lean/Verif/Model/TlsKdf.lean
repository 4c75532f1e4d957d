import Verif.Model.Sp800
import Verif.Model.Derive
import Verif.Model.NssConfig

/-!
# TLS 1.2 key derivation and Finished MAC (`src/native/tlskdf.rs`)

The hash behind each HMAC mechanism is an arbitrary `HashAlg` (`algs`, indexed by the HMAC mechanism).  Buffers of 2^63 bytes and more cannot
be allocated: that panic is explicit.  Not modelled: the FIPS indicator, the clearing of memory, NULL pointers inside the parameters.
-/

namespace Kry

/-- `TLS_MASTER_SECRET_SIZE` (`src/native/tlskdf.rs:49`). -/
abbrev TLS_MASTER_SECRET_SIZE : Nat := 48
/-- `TLS_RANDOM_SEED_SIZE` (`src/native/tlskdf.rs:50`). -/
abbrev TLS_RANDOM_SEED_SIZE : Nat := 32
/-- `TLS_MASTER_SECRET_ALLOWED_MECHS` as bytes (`src/native/tlskdf.rs:52-59`, `:518-522`). -/
def tlsAllowedMechs : Bytes :=
  ([CKM_TLS12_KEY_AND_MAC_DERIVE, CKM_TLS12_KEY_SAFE_DERIVE, CKM_TLS_KDF, CKM_TLS12_KDF, CKM_TLS_MAC, CKM_TLS12_MAC].map (toLE 8)).flatten
/-- `TLS_MASTER_SECRET_LABEL` (`src/native/tlskdf.rs:60`). -/
def tlsMasterLabel : Bytes := asciiOf "master secret"
/-- `TLS_KEY_EXPANSION_LABEL` (`src/native/tlskdf.rs:61`). -/
def tlsExpansionLabel : Bytes := asciiOf "key expansion"
/-- `TLS_SERVER_FINISHED` (`src/native/tlskdf.rs:62`). -/
def tlsServerFinished : Bytes := asciiOf "server finished"
/-- `TLS_CLIENT_FINISHED` (`src/native/tlskdf.rs:63`). -/
def tlsClientFinished : Bytes := asciiOf "client finished"
/-- `TLS_EXTENDED_MASTER_SECRET_LABEL` (`src/native/tlskdf.rs:64`). -/
def tlsEmsLabel : Bytes := asciiOf "extended master secret"

/-- `hash_to_hmac_mech` (`src/hmac.rs:151-166`). -/
def hashToHmac : List (Nat × Nat) :=
  [(CKM_SHA_1, CKM_SHA_1_HMAC), (CKM_SHA224, CKM_SHA224_HMAC), (CKM_SHA256, CKM_SHA256_HMAC), (CKM_SHA384, CKM_SHA384_HMAC),
   (CKM_SHA512, CKM_SHA512_HMAC), (CKM_SHA3_224, CKM_SHA3_224_HMAC), (CKM_SHA3_256, CKM_SHA3_256_HMAC),
   (CKM_SHA3_384, CKM_SHA3_384_HMAC), (CKM_SHA3_512, CKM_SHA3_512_HMAC), (CKM_SHA512_224, CKM_SHA512_224_HMAC),
   (CKM_SHA512_256, CKM_SHA512_256_HMAC)]

/-- `TLSPRF::init` (`src/native/tlskdf.rs:75-91`): `mac_new` of the HMAC mechanism with CKF_DERIVE.  The mechanism is always registered. -/
def tlsPrfInit (algs : Nat → HashAlg) (prf : Nat) (key : Obj) : Res Hmac :=
  match hmacNew (algs prf) ((AMap.get prfKeyTypes prf).getD CKK_GENERIC_SECRET) key with
  | .error r => .error r
  | .ok (.hmac o) => .ok o
  | .ok (.other ..) => .error .generalError

/-- `mac_update` of each part, then `mac_final` into a buffer of `mac_len` bytes (`src/native/tlskdf.rs:108-109`, `:118-120`, `:127-128`). -/
def prfMac (op : Hmac) (parts : List Bytes) : Res Bytes × Hmac :=
  let (r, op) := op.feed parts
  match r with
  | .error r => (.error r, op)
  | .ok () => op.finalize op.outlen

/-- The loop of `TLSPRF::finish` (`src/native/tlskdf.rs:116-130`).  `room` is the number of MAC-sized pieces left in the buffer, `out` what
was written so far; writing outside the buffer panics. -/
def prfLoop (seed : Bytes) (reqlen : Nat) : (room : Nat) → (op : Hmac) → (ax out : Bytes) → Res Bytes
  | 0, _, _, out => if out.length < reqlen then .error .panic else .ok out
  | room + 1, op, ax, out =>
    if out.length < reqlen then
      match prfMac op.reinit [ax, seed] with
      | (.error r, _) => .error r
      | (.ok b, op) =>
        let out := out ++ b
        if out.length < reqlen then
          match prfMac op.reinit [ax] with
          | (.error r, _) => .error r
          | (.ok ax, op) => prfLoop seed reqlen room op ax out
        else prfLoop seed reqlen room op ax out
    else .ok out

/-- `TLSPRF::finish` (`src/native/tlskdf.rs:100-133`); division by a MAC length of 0 panics. -/
def prfFinish (op : Hmac) (seed : Bytes) (reqlen : Nat) : Res Bytes :=
  match prfMac op [seed] with
  | (.error r, _) => .error r
  | (.ok ax, op) =>
    let maclen := op.outlen
    if maclen = 0 then .error .panic
    else
      let room := (reqlen + maclen - 1) / maclen
      if room * maclen ≥ 2 ^ 63 then .error .panic
      else match prfLoop seed reqlen room op ax [] with
        | .error r => .error r
        | .ok out => .ok (resize out reqlen)

/-- The mechanism parameters: `CK_TLS12_EXTENDED_MASTER_KEY_DERIVE_PARAMS`, `CK_TLS12_MASTER_KEY_DERIVE_PARAMS`, `CK_TLS12_KEY_MAT_PARAMS`
and `CK_TLS_KDF_PARAMS`.  `version` says that `pVersion` is not NULL, `mat` that `pReturnedKeyMaterial` is not. -/
inductive TlsParam where
  | ems (hash : Nat) (sessionHash : Bytes) (version : Bool)
  | master (hash : Nat) (client server : Bytes) (version : Bool)
  | keyMat (hash : Nat) (macBits keyBits ivBits : Nat) (isExport : Bool) (client server : Bytes) (mat : Bool)
  | kdf (hash : Nat) (label client server context : Bytes)
  deriving DecidableEq, Repr

/-- `TLSKDFOperation` (`src/native/tlskdf.rs:163-198`). -/
structure TlsKdf where
  fin : Bool := false
  mech : Nat
  client : Bytes := []
  server : Bytes := []
  sessionHash : Bytes := []
  version : Bool := false
  prf : Nat
  label : Bytes
  context : Bytes := []
  maclen : Nat := 0
  keylen : Nat := 0
  ivlen : Nat := 0
  mat : Bool := false
  deriving DecidableEq, Repr

/-- `new_tls12_ems_derive` (`src/native/tlskdf.rs:247-290`). -/
def TlsKdf.newEms (mech hash : Nat) (sessionHash : Bytes) (version : Bool) : Res TlsKdf :=
  match AMap.get hashToHmac hash with
  | none => .error .mechanismParamInvalid
  | some prf =>
    if mech = CKM_TLS12_EXTENDED_MASTER_KEY_DERIVE_DH ∧ version then .error .mechanismParamInvalid
    else .ok { mech, sessionHash, version, prf, label := tlsEmsLabel }

/-- `new_tls12_mk_derive` (`src/native/tlskdf.rs:296-351`). -/
def TlsKdf.newMaster (mech hash : Nat) (client server : Bytes) (version : Bool) : Res TlsKdf :=
  if client.length ≠ TLS_RANDOM_SEED_SIZE ∨ server.length ≠ TLS_RANDOM_SEED_SIZE then .error .mechanismParamInvalid
  else match AMap.get hashToHmac hash with
    | none => .error .mechanismParamInvalid
    | some prf =>
      if mech = CKM_TLS12_MASTER_KEY_DERIVE_DH ∧ version then .error .mechanismParamInvalid
      else .ok { mech, client, server, version, prf, label := tlsMasterLabel }

/-- `new_tls12_keymac_derive` (`src/native/tlskdf.rs:360-420`). -/
def TlsKdf.newKeyMat (mech hash macBits keyBits ivBits : Nat) (isExport : Bool) (client server : Bytes) (mat : Bool) : Res TlsKdf :=
  let maclen := macBits / 8
  let keylen := keyBits / 8
  let ivlen := if mech = CKM_TLS12_KEY_SAFE_DERIVE then 0 else ivBits / 8
  if isExport then .error .mechanismParamInvalid
  else if client.length ≠ TLS_RANDOM_SEED_SIZE ∨ server.length ≠ TLS_RANDOM_SEED_SIZE then .error .mechanismParamInvalid
  else match AMap.get hashToHmac hash with
    | none => .error .mechanismParamInvalid
    | some prf =>
      if !mat then .error .mechanismParamInvalid
      else .ok { mech, client, server, prf, label := tlsExpansionLabel, maclen,
                 keylen := if keylen > 0 then keylen else TLS_MASTER_SECRET_SIZE, ivlen, mat := true }

/-- `new_tls_generic_key_derive` (`src/native/tlskdf.rs:426-481`). -/
def TlsKdf.newKdf (mech hash : Nat) (label client server context : Bytes) : Res TlsKdf :=
  if label.length = 0 then .error .mechanismParamInvalid
  else if client.length ≠ TLS_RANDOM_SEED_SIZE ∨ server.length ≠ TLS_RANDOM_SEED_SIZE then .error .mechanismParamInvalid
  else match AMap.get hashToHmac hash with
    | none => .error .mechanismParamInvalid
    | some prf => .ok { mech, client, server, prf, label, context }

/-- `TLSKDFOperation::new` (`src/native/tlskdf.rs:218-240`); a parameter of another mechanism has another size, so that `get_parameters`
refuses it (`src/pkcs11/mod.rs:1016-1024`). -/
def TlsKdf.new (mech : Nat) (p : TlsParam) : Res TlsKdf :=
  if mech = CKM_TLS12_MASTER_KEY_DERIVE ∨ mech = CKM_TLS12_MASTER_KEY_DERIVE_DH then
    match p with
    | .master hash c s v => newMaster mech hash c s v
    | _ => .error .argumentsBad
  else if mech = CKM_TLS12_KEY_AND_MAC_DERIVE ∨ mech = CKM_TLS12_KEY_SAFE_DERIVE then
    match p with
    | .keyMat hash m k i e c s out => newKeyMat mech hash m k i e c s out
    | _ => .error .argumentsBad
  else if mech = CKM_TLS12_KDF ∨ mech = CKM_TLS_KDF then
    match p with
    | .kdf hash l c s x => newKdf mech hash l c s x
    | _ => .error .argumentsBad
  else if mech = CKM_TLS12_EXTENDED_MASTER_KEY_DERIVE ∨ mech = CKM_TLS12_EXTENDED_MASTER_KEY_DERIVE_DH then
    match p with
    | .ems hash h v => newEms mech hash h v
    | _ => .error .argumentsBad
  else .error .mechanismInvalid

/-- `verify_key` (`src/native/tlskdf.rs:487-504`). -/
def TlsKdf.verifyKey (k : TlsKdf) (key : Obj) : Res Unit :=
  match key.checkKeyOps CKO_SECRET_KEY CKK_GENERIC_SECRET CKA_DERIVE with
  | .error r => .error r
  | .ok () => match key.find CKA_VALUE_LEN with
    | none => .error .generalError
    | some a => match a.toUlong with
      | .error _ => .error .keyFunctionNotPermitted
      | .ok l =>
        if (k.mech = CKM_TLS12_MASTER_KEY_DERIVE ∨ k.mech = CKM_TLS12_EXTENDED_MASTER_KEY_DERIVE) ∧ l ≠ TLS_MASTER_SECRET_SIZE then
          .error .keyFunctionNotPermitted
        else .ok ()

/-- `CkAttrs::add_missing_bool` (`src/attribute.rs:875-884`) and `add_missing_slice` (`:843-852`). -/
def Template.addMissing (t : Template) (c : CkAttr) : Template :=
  match Template.findA t c.typ with
  | some _ => t
  | none => t ++ [c]

/-- `attr.to_ulong()?` compared with the expected value (`src/native/tlskdf.rs:533-550`, `:704-709`). -/
def wantUlong (c : CkAttr) (n : Nat) : Res Unit :=
  match c.toUlong with
  | .error r => .error r
  | .ok v => if v ≠ n then .error .attrValueInvalid else .ok ()

/-- `attr.to_bool()?` compared with the expected value (`src/native/tlskdf.rs:710-721`). -/
def wantBool (c : CkAttr) (b : Bool) : Res Unit :=
  match c.toBool with
  | .error r => .error r
  | .ok v => if v ≠ b then .error .attrValueInvalid else .ok ()

/-- `attr.to_slice()?` compared with the expected value (`src/native/tlskdf.rs:551-556`). -/
def wantSlice (c : CkAttr) (b : Bytes) : Res Unit :=
  match c.toSlice with
  | .error r => .error r
  | .ok v => if v ≠ b then .error .attrValueInvalid else .ok ()

/-- A loop over the attributes of a template that stops at the first error. -/
def checkAll (f : CkAttr → Res Unit) : Template → Res Unit
  | [] => .ok ()
  | c :: l => match f c with
    | .error r => .error r
    | .ok () => checkAll f l

/-- One attribute in `verify_mk_template` (`src/native/tlskdf.rs:532-558`). -/
def mkAttrCheck (c : CkAttr) : Res Unit :=
  if c.typ = CKA_CLASS then wantUlong c CKO_SECRET_KEY
  else if c.typ = CKA_KEY_TYPE then wantUlong c CKK_GENERIC_SECRET
  else if c.typ = CKA_VALUE_LEN then wantUlong c TLS_MASTER_SECRET_SIZE
  else if c.typ = CKA_ALLOWED_MECHANISMS then wantSlice c tlsAllowedMechs
  else .ok ()

/-- `verify_mk_template` (`src/native/tlskdf.rs:513-561`). -/
def mkTemplate (t : Template) : Res Template :=
  let t := (t.addMissingUlong CKA_CLASS CKO_SECRET_KEY).addMissingUlong CKA_KEY_TYPE CKK_GENERIC_SECRET
  let t := t.addMissingUlong CKA_VALUE_LEN TLS_MASTER_SECRET_SIZE
  let t := t.addMissing (CkAttr.mk' CKA_ALLOWED_MECHANISMS tlsAllowedMechs)
  let t := ((t.addMissing (.ofBool CKA_SIGN true)).addMissing (.ofBool CKA_VERIFY true)).addMissing (.ofBool CKA_DERIVE true)
  match checkAll mkAttrCheck t with
  | .error r => .error r
  | .ok () => .ok t

/-- `tls_prf_seed` (`src/native/tlskdf.rs:570-589`). -/
def TlsKdf.seed (k : TlsKdf) (cliFirst : Bool) : Bytes :=
  k.label ++ (if cliFirst then k.client ++ k.server else k.server ++ k.client) ++ k.context

/-- `tls_prf_seed_ems` (`src/native/tlskdf.rs:594-601`). -/
def TlsKdf.seedEms (k : TlsKdf) : Bytes := k.label ++ k.sessionHash

/-- What a derivation gives out: the keys, the IVs written to `CK_SSL3_KEY_MAT_OUT`, the version written to `pVersion`. -/
structure TlsOut where
  keys : List Obj
  ivs : Option (Bytes × Bytes) := none
  version : Option (UInt8 × UInt8) := none
  deriving DecidableEq, Repr

/-- `as_key_factory()?.key_derive` (`src/object/factory.rs:546-560`). -/
def tlsKeyDerive (F : Factory) (uid : Bytes) (t : Template) (key : Obj) : Res Obj :=
  if keyClass F.cls then keyDerive F uid t key else .error .generalError

/-- `as_secret_key_factory()?.set_key`. -/
def tlsSetKey (F : Factory) (o : Obj) (v : Bytes) : Res Obj :=
  if F.cls = CKO_SECRET_KEY ∨ F.cls = CKO_OTP_KEY then setKey F o v else .error .generalError

/-- The version bytes (`src/native/tlskdf.rs:646-665`); indexing a shorter value panics. -/
def versionOf (key : Obj) : Res (UInt8 × UInt8) :=
  if key.isToken then .ok (0xff, 0xff)
  else match key.find CKA_VALUE with
    | none => .error .generalError
    | some a => match a.toBytes with
      | .error r => .error r
      | .ok (x :: y :: _) => .ok (x, y)
      | .ok _ => .error .panic

/-- `derive_master_key` (`src/native/tlskdf.rs:615-668`). -/
def TlsKdf.deriveMaster (k : TlsKdf) (algs : Nat → HashAlg) (uid : Bytes) (key : Obj) (t : Template) : Res TlsOut :=
  match k.verifyKey key with
  | .error r => .error r
  | .ok () => match mkTemplate t with
    | .error r => .error r
    | .ok t => match keyTemplateFactory t with
      | .error r => .error r
      | .ok F => match tlsKeyDerive F uid t key with
        | .error r => .error r
        | .ok o =>
          let seed : Res Bytes :=
            if k.mech = CKM_TLS12_EXTENDED_MASTER_KEY_DERIVE ∨ k.mech = CKM_TLS12_EXTENDED_MASTER_KEY_DERIVE_DH then .ok k.seedEms
            else if k.mech = CKM_TLS12_MASTER_KEY_DERIVE ∨ k.mech = CKM_TLS12_MASTER_KEY_DERIVE_DH then .ok (k.seed true)
            else .error .generalError
          match seed with
          | .error r => .error r
          | .ok seed => match tlsPrfInit algs k.prf key with
            | .error r => .error r
            | .ok op => match prfFinish op seed TLS_MASTER_SECRET_SIZE with
              | .error r => .error r
              | .ok dkm => match tlsSetKey F o dkm with
                | .error r => .error r
                | .ok o =>
                  if k.version then
                    match versionOf key with
                    | .error r => .error r
                    | .ok v => .ok { keys := [o], version := some v }
                  else .ok { keys := [o] }

/-- One attribute in `verify_key_expansion_template` (`src/native/tlskdf.rs:703-723`). -/
def expAttrCheck (keylen : Nat) (sens ext : Bool) (c : CkAttr) : Res Unit :=
  if c.typ = CKA_VALUE_LEN then wantUlong c keylen
  else if c.typ = CKA_SENSITIVE then wantBool c sens
  else if c.typ = CKA_EXTRACTABLE then wantBool c ext
  else .ok ()

/-- `verify_key_expansion_template` (`src/native/tlskdf.rs:676-726`). -/
def expTemplate (keylen : Nat) (key : Obj) (t : Template) : Res Template :=
  let sens := key.isSensitive
  let ext := key.isExtractable
  let t := (t.addMissingUlong CKA_CLASS CKO_SECRET_KEY).addMissingUlong CKA_KEY_TYPE CKK_GENERIC_SECRET
  let t := t.addMissingUlong CKA_VALUE_LEN keylen
  let t := ((t.addMissing (.ofBool CKA_ENCRYPT true)).addMissing (.ofBool CKA_DECRYPT true)).addMissing (.ofBool CKA_DERIVE true)
  let t := (t.addMissing (.ofBool CKA_SENSITIVE sens)).addMissing (.ofBool CKA_EXTRACTABLE ext)
  match checkAll (expAttrCheck keylen sens ext) t with
  | .error r => .error r
  | .ok () => .ok t

/-- `as_ck_bbool!` with a default (`src/native/tlskdf.rs:29-47`). -/
def boolOrDefault (key : Obj) (t : Nat) (d : Bool) : Bool :=
  match key.getBool t with
  | .ok b => b
  | .error _ => d

/-- The template of the MAC keys (`src/native/tlskdf.rs:762-771`). -/
def macTemplate (key : Obj) : Template :=
  [.ofUlong CKA_CLASS CKO_SECRET_KEY, .ofUlong CKA_KEY_TYPE CKK_GENERIC_SECRET, .ofBool CKA_SIGN true, .ofBool CKA_VERIFY true,
   .ofBool CKA_SENSITIVE (boolOrDefault key CKA_SENSITIVE true), .ofBool CKA_EXTRACTABLE (boolOrDefault key CKA_EXTRACTABLE false)]

/-- One pair of keys, client then server, of `len` bytes each from position `i` of the key material (`src/native/tlskdf.rs:772-790`,
`:795-813`); `u1`, `u2` are their unique identifiers.  The result has the position after them. -/
def tlsPair (u1 u2 : Bytes) (t : Template) (key : Obj) (dkm : Bytes) (i len : Nat) : Res (List Obj × Nat) :=
  match keyTemplateFactory t with
  | .error r => .error r
  | .ok F => match tlsKeyDerive F u1 t key with
    | .error r => .error r
    | .ok o1 => match tlsSetKey F o1 ((dkm.drop i).take len) with
      | .error r => .error r
      | .ok o1 => match tlsKeyDerive F u2 t key with
        | .error r => .error r
        | .ok o2 => match tlsSetKey F o2 ((dkm.drop (i + len)).take len) with
          | .error r => .error r
          | .ok o2 => .ok ([o1, o2], i + len + len)

/-- A pair of keys if their length is not 0 (`src/native/tlskdf.rs:760`, `:793`). -/
def tlsPairIf (u1 u2 : Bytes) (t : Template) (key : Obj) (dkm : Bytes) (i len : Nat) : Res (List Obj × Nat) :=
  if len > 0 then tlsPair u1 u2 t key dkm i len else .ok ([], i)

/-- `derive_mac_key` (`src/native/tlskdf.rs:741-835`); `uid 0` to `uid 3` are the unique identifiers generated.  The sizes are at most an
eighth of a `CK_ULONG` each, so their sum does not overflow. -/
def TlsKdf.deriveKeys (k : TlsKdf) (algs : Nat → HashAlg) (uid : Nat → Bytes) (key : Obj) (t : Template) : Res TlsOut :=
  match k.verifyKey key with
  | .error r => .error r
  | .ok () => match expTemplate k.keylen key t with
    | .error r => .error r
    | .ok t => match tlsPrfInit algs k.prf key with
      | .error r => .error r
      | .ok op => match prfFinish op (k.seed false) (2 * (k.maclen + k.keylen + k.ivlen)) with
        | .error r => .error r
        | .ok dkm => match tlsPairIf (uid 0) (uid 1) (macTemplate key) key dkm 0 k.maclen with
          | .error r => .error r
          | .ok (macs, i) => match tlsPairIf (uid 2) (uid 3) t key dkm i k.keylen with
            | .error r => .error r
            | .ok (keys, i) =>
              if k.ivlen > 0 then
                if k.mat then
                  .ok { keys := macs ++ keys, ivs := some ((dkm.drop i).take k.ivlen, (dkm.drop (i + k.ivlen)).take k.ivlen) }
                else .error .generalError
              else .ok { keys := macs ++ keys }

/-- `derive_generic_key` (`src/native/tlskdf.rs:841-868`). -/
def TlsKdf.deriveGeneric (k : TlsKdf) (algs : Nat → HashAlg) (uid : Bytes) (key : Obj) (t : Template) : Res TlsOut :=
  match k.verifyKey key with
  | .error r => .error r
  | .ok () =>
    let t := (t.addMissingUlong CKA_CLASS CKO_SECRET_KEY).addMissingUlong CKA_KEY_TYPE CKK_GENERIC_SECRET
    match keyTemplateFactory t with
    | .error r => .error r
    | .ok F => match tlsKeyDerive F uid t key with
      | .error r => .error r
      | .ok o => match o.getUlong CKA_VALUE_LEN with
        | .error _ => .error .templateIncomplete
        | .ok n => match tlsPrfInit algs k.prf key with
          | .error r => .error r
          | .ok op => match prfFinish op (k.seed true) n with
            | .error r => .error r
            | .ok dkm => match tlsSetKey F o dkm with
              | .error r => .error r
              | .ok o => .ok { keys := [o] }

/-- `derive` (`src/native/tlskdf.rs:890-918`). -/
def TlsKdf.derive (k : TlsKdf) (algs : Nat → HashAlg) (uid : Nat → Bytes) (key : Obj) (t : Template) : Res TlsOut × TlsKdf :=
  if k.fin then (.error .operationNotInitialized, k)
  else
    let k := { k with fin := true }
    let r : Res TlsOut :=
      if k.mech = CKM_TLS12_EXTENDED_MASTER_KEY_DERIVE ∨ k.mech = CKM_TLS12_EXTENDED_MASTER_KEY_DERIVE_DH ∨
          k.mech = CKM_TLS12_MASTER_KEY_DERIVE ∨ k.mech = CKM_TLS12_MASTER_KEY_DERIVE_DH then k.deriveMaster algs (uid 0) key t
      else if k.mech = CKM_TLS12_KEY_AND_MAC_DERIVE ∨ k.mech = CKM_TLS12_KEY_SAFE_DERIVE then k.deriveKeys algs uid key t
      else if k.mech = CKM_TLS12_KDF ∨ k.mech = CKM_TLS_KDF then k.deriveGeneric algs (uid 0) key t
      else .error .mechanismInvalid
    (r, k)

/-! ## The Finished MAC -/

/-- `TLSMACOperation` (`src/native/tlskdf.rs:933-942`). -/
structure TlsMac where
  mech : Nat
  fin : Bool
  inUse : Bool
  outlen : Nat
  seed : Bytes
  prf : Hmac

namespace TlsMac

/-- `new` (`src/native/tlskdf.rs:950-984`). -/
def new (algs : Nat → HashAlg) (mech hash maclen side : Nat) (key : Obj) : Res TlsMac :=
  if mech ≠ CKM_TLS_MAC ∧ mech ≠ CKM_TLS12_MAC then .error .mechanismInvalid
  else match AMap.get hashToHmac hash with
    | none => .error .mechanismParamInvalid
    | some prf =>
      let label : Res Bytes := if side = 1 then .ok tlsServerFinished else if side = 2 then .ok tlsClientFinished else .error .mechanismParamInvalid
      match label with
      | .error r => .error r
      | .ok label => match tlsPrfInit algs prf key with
        | .error r => .error r
        | .ok op => .ok ⟨mech, false, false, maclen, label, op⟩

/-- `begin` (`src/native/tlskdf.rs:987-992`). -/
def start (o : TlsMac) : Res Unit := if o.inUse then .error .operationNotInitialized else .ok ()

/-- `update` (`src/native/tlskdf.rs:995-1002`). -/
def update (o : TlsMac) (d : Bytes) : Res Unit × TlsMac :=
  if o.fin then (.error .operationNotInitialized, o)
  else (.ok (), { o with inUse := true, seed := o.seed ++ d })

/-- `finalize` (`src/native/tlskdf.rs:1005-1021`) for an output buffer of `n` bytes. -/
def finalize (o : TlsMac) (n : Nat) : Res Bytes × TlsMac :=
  if o.fin then (.error .operationNotInitialized, o)
  else if !o.inUse then (.error .operationNotInitialized, o)
  else
    let o := { o with fin := true }
    if n ≠ o.outlen then (.error .generalError, o)
    else (prfFinish o.prf o.seed o.outlen, o)

/-- `sign` (`src/native/tlskdf.rs:1040-1044`). -/
def sign (o : TlsMac) (d : Bytes) (n : Nat) : Res Bytes × TlsMac :=
  match o.start with
  | .error r => (.error r, o)
  | .ok () => match o.update d with
    | (.error r, o) => (.error r, o)
    | (.ok (), o) => o.finalize n

/-- `verify_final` (`src/native/tlskdf.rs:1070-1077`). -/
def verifyFinal (o : TlsMac) (s : Bytes) : Res Unit × TlsMac :=
  match o.finalize o.outlen with
  | (.error r, o) => (.error r, o)
  | (.ok v, o) => (if v ≠ s then .error .signatureInvalid else .ok (), o)

/-- `verify` (`src/native/tlskdf.rs:1060-1064`). -/
def verify (o : TlsMac) (d s : Bytes) : Res Unit × TlsMac :=
  match o.start with
  | .error r => (.error r, o)
  | .ok () => match o.update d with
    | (.error r, o) => (.error r, o)
    | (.ok (), o) => o.verifyFinal s

/-- The updates one after the other. -/
def feed (o : TlsMac) : List Bytes → Res Unit × TlsMac
  | [] => (.ok (), o)
  | d :: l => match o.update d with
    | (.error r, o) => (.error r, o)
    | (.ok (), o) => o.feed l

end TlsMac
end Kry
