import Verif.Model.Object

/-!
# Object factories (`src/object/factory.rs`, `src/object/key.rs`, `src/object/certs.rs`, `src/aes.rs`,
`src/hotp.rs`, `src/rsa.rs`, `src/ec/*.rs`, `src/ffdh.rs`, `src/mldsa.rs`, `src/mlkem.rs`,
`src/slhdsa.rs`)
-/

namespace Kry

/-- The factory implementations that exist; each constructor stands for the Rust type that implements
`ObjectFactory` (see `registry` for where each is registered). -/
inductive FactoryKind where
  | data | x509 | trust | nssTrust | profile | mechanism | validation
  | genericSecret (keysize : Nat) | aes | hotp
  | rsaPub | rsaPriv | ecPub | ecPriv | edPub | edPriv | montPub | montPriv | dhPub | dhPriv
  | mldsaPub | mldsaPriv | mlkemPub | mlkemPriv | slhdsaPub | slhdsaPriv
deriving DecidableEq, Repr, Inhabited

/-- A factory: `ObjectFactoryData` (`src/object/factory.rs:157-169`) plus which implementation it
is. -/
structure Factory where
  kind : FactoryKind
  cls : Nat
  attrs : List FAttr
deriving DecidableEq, Repr, Inhabited

/-- Parts of the object checks that run inside OpenSSL or the ASN.1 library; theorems hold for every
oracle.
* `rsaSpki`: serialization of an RSA public key (`src/rsa.rs:181-199`);
* `asym`: the type-specific import checks of the EC/Ed/Mont/DH/ML-DSA/ML-KEM/SLH-DSA factories
  (`src/ec/ecdsa.rs`, `src/ec/eddsa.rs`, `src/ec/montgomery.rs`, `src/ffdh.rs:147-152,215-221`,
  `src/mldsa.rs:186-194,324-333`, `src/mlkem.rs`, `src/slhdsa.rs`): they fail, or return values for
  some attributes of the object;
* `minRsaBytes`: 128, or 256 in FIPS builds (`src/ossl/rsa.rs:34-38`). -/
structure Oracle where
  rsaSpki : Bytes → Bytes → Res Bytes
  asym : FactoryKind → Obj → Res (List Attr)
  minRsaBytes : Nat

/-- `attributes.iter().find(|a| a.get_type() == t)` over a factory table. -/
def findF (fa : List FAttr) (t : Nat) : Option FAttr := fa.find? fun a => a.typ == t

/-- `incomplete` (`src/object/factory.rs:31-37`). -/
def incomplete : Rv → Rv
  | .attrNotFound => .templateIncomplete
  | e => e

/-- Template loop of `internal_object_create` (`src/object/factory.rs:323-349`). -/
def createLoop (fa : List FAttr) (unacceptable : Nat) : Obj → Template → Res Obj
  | o, [] => .ok o
  | o, c :: rest =>
    match findF fa c.typ with
    | none => .error .attrValueInvalid
    | some f =>
      if f.is unacceptable then .error .attrTypeInvalid
      else
        let dup : Res Unit :=
          match o.find c.typ with
          | none => .ok ()
          | some oa =>
            if oa.typ ≠ CKA_CLASS then .error .templateInconsistent
            else match c.toUlong with
              | .error e => .error e
              | .ok n => match oa.toUlong with
                | .error e => .error e
                | .ok m => if n ≠ m then .error .templateInconsistent else .ok ()
        match dup with
        | .error e => .error e
        | .ok () =>
          if f.is oaIgnored then createLoop fa unacceptable o rest
          else match Attr.fromCk c with
            | .error e => .error e
            | .ok a => createLoop fa unacceptable (o.push a) rest

/-- Default/required loop of `internal_object_create` (`src/object/factory.rs:350-363`). -/
def defaultsLoop (required : Nat) : Obj → List FAttr → Res Obj
  | o, [] => .ok o
  | o, f :: rest =>
    match o.find f.typ with
    | some _ => defaultsLoop required o rest
    | none =>
      if f.hasDefault then defaultsLoop required (o.push f.attr) rest
      else if f.is required || f.is oaAlwaysRequired then .error .templateIncomplete
      else defaultsLoop required o rest

/-- `internal_object_create` (`src/object/factory.rs:313-365`). -/
def internalObjectCreate (F : Factory) (t : Template) (unacceptable required : Nat) : Res Obj :=
  match createLoop F.attrs unacceptable (Obj.new F.cls) t with
  | .error e => .error e
  | .ok o => defaultsLoop required o F.attrs

/-- `default_object_create` (`src/object/factory.rs:367-378`). -/
def defaultObjectCreate (F : Factory) (uid : Bytes) (t : Template) : Res Obj :=
  match internalObjectCreate F t oaNeverSettable oaRequiredOnCreate with
  | .error e => .error e
  | .ok o => .ok (o.generateUnique uid)

/-- `internal_key_create` (`src/object/key.rs:56-69`). -/
def internalKeyCreate (F : Factory) (uid : Bytes) (t : Template) (unacceptable required : Nat) : Res Obj :=
  match internalObjectCreate F t unacceptable required with
  | .error e => .error e
  | .ok o => .ok (o.generateUnique uid)

/-- `set_attr` of a boolean attribute other than `CKA_CLASS`, which cannot fail. -/
def Obj.setBool (o : Obj) (t : Nat) (b : Bool) : Obj :=
  { o with attrs := Obj.setList o.attrs (Attr.ofBool t b) }

/-- `set_attr` of an arbitrary attribute other than `CKA_CLASS`, which cannot fail. -/
def Obj.put (o : Obj) (a : Attr) : Obj := { o with attrs := Obj.setList o.attrs a }

/-- Is `c` one of the key classes (`src/object/key.rs:82`). -/
def keyClass (c : Nat) : Bool := c == CKO_PUBLIC_KEY || Obj.secretClass c

/-- `key_create` (`src/object/key.rs:74-104`). -/
def keyCreate (F : Factory) (uid : Bytes) (t : Template) : Res Obj :=
  match internalKeyCreate F uid t oaNeverSettable oaRequiredOnCreate with
  | .error e => .error e
  | .ok o =>
    let o := if keyClass o.cls then o.setBool CKA_LOCAL false else o
    if Obj.secretClass o.cls then
      .ok ((o.setBool CKA_ALWAYS_SENSITIVE false).setBool CKA_NEVER_EXTRACTABLE false)
    else .ok o

/-- The flag argument `SettableOnlyOnCreate | NeverSettable` (`src/object/key.rs:114,127,148`). -/
abbrev oaGenUnacceptable : Nat := oaSettableOnlyOnCreate ||| oaNeverSettable

/-- `key_generate` (`src/object/key.rs:111-119`). -/
def keyGenerate (F : Factory) (uid : Bytes) (t : Template) : Res Obj :=
  internalKeyCreate F uid t oaGenUnacceptable oaRequiredOnGenerate

/-- `key_unwrap` (`src/object/key.rs:124-130`). -/
def keyUnwrap (F : Factory) (uid : Bytes) (t : Template) : Res Obj :=
  internalKeyCreate F uid t oaGenUnacceptable oaAlwaysRequired

/-- `internal_key_derive` (`src/object/key.rs:139-183`). -/
def internalKeyDerive (F : Factory) (uid : Bytes) (t : Template) (origin : Obj) : Res Obj :=
  match internalKeyCreate F uid t oaGenUnacceptable oaAlwaysRequired with
  | .error e => .error e
  | .ok o =>
    let o := o.setBool CKA_LOCAL false
    let o := match origin.getBool CKA_ALWAYS_SENSITIVE with
      | .ok true => o.setBool CKA_ALWAYS_SENSITIVE o.isSensitive
      | _ => o.setBool CKA_ALWAYS_SENSITIVE false
    let o := match origin.getBool CKA_NEVER_EXTRACTABLE with
      | .ok true => o.setBool CKA_NEVER_EXTRACTABLE (!o.isExtractable)
      | _ => o.setBool CKA_NEVER_EXTRACTABLE false
    .ok o

/-- `get_key_buffer_len` (`src/object/key.rs:403-408`). -/
def keyBufferLen (o : Obj) : Res Nat :=
  match o.getBytes CKA_VALUE with
  | .error e => .error (incomplete e)
  | .ok v => .ok v.length

/-- `get_key_len` (`src/object/key.rs:411-419`). -/
def keyLen (o : Obj) : Nat :=
  match o.getUlong CKA_VALUE_LEN with
  | .ok n => n
  | .error _ => 0

/-- AES `check_key_len` (`src/aes.rs:76-81`). -/
def aesCheckKeyLen (n : Nat) : Res Unit :=
  if n = 16 ∨ n = 24 ∨ n = 32 then .ok () else .error .keySizeRange

/-- `key_derive` (`src/object/key.rs:188-194`, AES override `src/aes.rs:157-171`). -/
def keyDerive (F : Factory) (uid : Bytes) (t : Template) (origin : Obj) : Res Obj :=
  match internalKeyDerive F uid t origin with
  | .error e => .error e
  | .ok o =>
    match F.kind with
    | .aes =>
      if keyLen o ≠ 0 then
        match aesCheckKeyLen (keyLen o) with
        | .error _ => .error .templateInconsistent
        | .ok () => .ok o
      else .ok o
    | _ => .ok o

/-- `set_key_len` (`src/object/key.rs:426-436`). -/
def setKeyLen (o : Obj) (len : Nat) : Res Obj :=
  match keyBufferLen o with
  | .ok blen => if len ≠ blen then .error .generalError else o.ensureUlong CKA_VALUE_LEN len
  | .error _ => o.ensureUlong CKA_VALUE_LEN len

/-- `set_key` (`src/object/key.rs:441-446`, AES override `src/aes.rs:211-217`). -/
def setKey (F : Factory) (o : Obj) (key : Bytes) : Res Obj :=
  match (match F.kind with | .aes => aesCheckKeyLen key.length | _ => .ok ()) with
  | .error e => .error e
  | .ok () => setKeyLen (o.put (Attr.ofBytes CKA_VALUE key)) key.length

/-- `default_export_for_wrapping` (`src/object/key.rs:374-382`). -/
def exportSecret (o : Obj) : Res Bytes :=
  if !o.isExtractable then .error .keyUnextractable
  else match o.getBytes CKA_VALUE with
    | .ok v => .ok v
    | .error _ => .error .deviceError

/-- `default_import_from_wrapped` (`src/object/key.rs:384-399`). -/
def importSecret (F : Factory) (uid : Bytes) (data : Bytes) (t : Template) : Res Obj :=
  match keyUnwrap F uid t with
  | .error e => .error e
  | .ok o => setKey F o data

/-- AES `import_from_wrapped` (`src/aes.rs:177-205`). -/
def importAes (F : Factory) (uid : Bytes) (data : Bytes) (t : Template) : Res Obj :=
  let cut : Res Bytes :=
    match t.find? (fun c => c.typ == CKA_VALUE_LEN) with
    | none => .ok data
    | some c => match c.toUlong with
      | .error e => .error e
      | .ok len => if len > data.length then .error .keySizeRange else .ok (data.take len)
  match cut with
  | .error e => .error e
  | .ok d => match aesCheckKeyLen d.length with
    | .error e => .error e
    | .ok () => importSecret F uid d t

/-- `recommend_key_size` (`src/object/key.rs:454-456`, `:614-620`, `src/aes.rs:222-232`,
`src/hotp.rs:259-261`). -/
def recommendKeySize (F : Factory) (max : Nat) : Res Nat :=
  match F.kind with
  | .genericSecret ks => if ks ≠ 0 then .ok ks else .ok max
  | .aes =>
    if max ≥ 32 then .ok 32 else if max > 24 then .ok 24 else if max > 16 then .ok 16
    else .error .keySizeRange
  | .hotp => .ok 32
  | _ => .error .generalError

/-- `basic_cert_object_create_checks` (`src/object/certs.rs:58-80`). -/
def certBasicChecks (o : Obj) : Res Unit :=
  match o.getBool CKA_TRUSTED with
  | .ok true => .error .attrReadOnly
  | _ => match o.getUlong CKA_CERTIFICATE_CATEGORY with
    | .ok c => if c ≤ 3 then .ok () else .error .attrValueInvalid
    | .error _ => .ok ()

/-- Checks of `X509Factory::create` after the generic creation (`src/object/certs.rs:149-193`).  The
subject hash is tested twice and the issuer hash never, as in the source. -/
def x509Checks (o : Obj) : Res Unit :=
  match certBasicChecks o with
  | .error e => .error e
  | .ok () =>
    match o.getBytes CKA_VALUE with
    | .error _ => .error .templateIncomplete
    | .ok value =>
      let url := match o.getStr CKA_URL with
        | .ok u => u
        | .error _ => []
      if value.length = 0 ∧ url.length = 0 then .error .attrValueInvalid
      else
        let hashOk : Res Unit :=
          if url.length > 0 then
            match o.getBytes CKA_HASH_OF_SUBJECT_PUBLIC_KEY with
            | .ok h => if h.length = 0 then .error .attrValueInvalid else .ok ()
            | .error _ => .error .templateIncomplete
          else .ok ()
        match hashOk with
        | .error e => .error e
        | .ok () => match o.getUlong CKA_JAVA_MIDP_SECURITY_DOMAIN with
          | .ok sd => if sd ≤ 3 then .ok () else .error .attrValueInvalid
          | .error _ => .ok ()

/-- The trust attributes looped over by `TrustObject::create` (`src/object/certs.rs:287-295`). -/
def trustAttrTypes : List Nat :=
  [CKA_TRUST_SERVER_AUTH, CKA_TRUST_CLIENT_AUTH, CKA_TRUST_CODE_SIGNING, CKA_TRUST_EMAIL_PROTECTION,
   CKA_TRUST_IPSEC_IKE, CKA_TRUST_TIME_STAMPING, CKA_TRUST_OCSP_SIGNING]

/-- The `some_trusted` loop of `TrustObject::create` (`src/object/certs.rs:297-304`). -/
def someTrusted (o : Obj) : List Nat → Res Bool
  | [] => .ok false
  | t :: ts => match o.getUlong t with
    | .error e => .error e
    | .ok v => if v ≠ CKT_TRUST_UNKNOWN ∧ v ≠ CKT_NOT_TRUSTED then .ok true else someTrusted o ts

/-- `TrustObject::create` after the generic creation (`src/object/certs.rs:284-325`). -/
def trustChecks (o : Obj) : Res Obj :=
  match o.ensureUlong CKA_CLASS CKO_TRUST with
  | .error _ => .error .templateInconsistent
  | .ok o => match someTrusted o trustAttrTypes with
    | .error e => .error e
    | .ok true => match o.getBytes CKA_HASH_OF_CERTIFICATE with
      | .error e => .error (incomplete e)
      | .ok h =>
        if h.length = 0 then .error .attrValueInvalid
        else match o.getUlong CKA_NAME_HASH_ALGORITHM with
          | .error e => .error (incomplete e)
          | .ok _ => .ok o
    | .ok false => match o.find CKA_NAME_HASH_ALGORITHM with
      | none => .ok (o.put (Attr.ofUlong CKA_NAME_HASH_ALGORITHM CKM_SHA_1))
      | some _ => .ok o

/-- `NSSTrustObject::create` after the generic creation (`src/object/certs.rs:427-438`). -/
def nssTrustChecks (o : Obj) : Res Obj :=
  match o.ensureUlong CKA_CLASS CKO_NSS_TRUST with
  | .error _ => .error .templateInconsistent
  | .ok o => match o.getBool CKA_PRIVATE with
    | .ok true => .error .attrValueInvalid
    | _ => .ok o

/-- `bytes_attr_not_empty!` (`src/rsa.rs:113-131`). -/
def bytesNotEmpty (o : Obj) (t : Nat) : Res Unit :=
  match o.getBytes t with
  | .ok e => if e.length = 0 then .error .attrValueInvalid else .ok ()
  | .error e => .error (incomplete e)

/-- `rsa_check_import` (`src/rsa.rs:140-179`).  `b + 7` overflows for `b` within 7 of `u64::MAX`
(release builds wrap to a small number; modelled as such). -/
def rsaCheckImport (O : Oracle) (o : Obj) : Res Unit :=
  match o.getBytes CKA_MODULUS with
  | .error _ => .error .templateIncomplete
  | .ok m =>
    let bits : Res Unit :=
      match o.getUlong CKA_MODULUS_BITS with
      | .ok b => if m.length ≠ ((b + 7) % 2 ^ 64) / 8 then .error .templateInconsistent else .ok ()
      | .error e => if e = .attrNotFound then .ok () else .error e
    match bits with
    | .error e => .error e
    | .ok () =>
      if m.length < O.minRsaBytes then .error .attrValueInvalid
      else match o.getUlong CKA_CLASS with
        | .error _ => .error .templateIncomplete
        | .ok c =>
          if c = CKO_PUBLIC_KEY then bytesNotEmpty o CKA_PUBLIC_EXPONENT
          else if c = CKO_PRIVATE_KEY then
            match bytesNotEmpty o CKA_PUBLIC_EXPONENT with
            | .error e => .error e
            | .ok () => bytesNotEmpty o CKA_PRIVATE_EXPONENT
          else .error .attrValueInvalid

/-- `rsa_check_public_key_info` (`src/rsa.rs:181-199`). -/
def rsaPublicKeyInfo (O : Oracle) (o : Obj) : Res Obj :=
  match o.getBytes CKA_MODULUS with
  | .error e => .error e
  | .ok m => match o.getBytes CKA_PUBLIC_EXPONENT with
    | .error e => .error e
    | .ok p => match O.rsaSpki m p with
      | .error e => .error e
      | .ok spki => o.ensureBytes CKA_PUBLIC_KEY_INFO spki

/-- The attributes that the type-specific import code of the EC/PQC factories may set:
`CKA_PUBLIC_KEY_INFO` (all), `CKA_VALUE` (ML-DSA/ML-KEM expanded from a seed, `src/mldsa.rs`,
`src/mlkem.rs`), `CKA_EC_POINT`. -/
def asymUpdTypes : List Nat := [CKA_PUBLIC_KEY_INFO, CKA_VALUE, CKA_EC_POINT]

/-- Type-specific import checks of the remaining asymmetric factories: delegated to the oracle, whose
answer may only touch `asymUpdTypes`. -/
def asymChecks (O : Oracle) (k : FactoryKind) (o : Obj) : Res Obj :=
  match O.asym k o with
  | .error e => .error e
  | .ok upd => .ok ((upd.filter fun a => asymUpdTypes.contains a.typ).foldl Obj.put o)

/-- One "if the attribute is readable it must satisfy `p`" step of `validate_object`
(`src/hotp.rs:165-214`). -/
def optCheck {α : Type} (r : Res α) (p : α → Bool) : Res Unit :=
  match r with
  | .ok v => if p v then .ok () else .error .attrValueInvalid
  | .error _ => .ok ()

/-- Sequencing of checks: the first failure wins. -/
def firstErr : List (Res Unit) → Res Unit
  | [] => .ok ()
  | .ok () :: rest => firstErr rest
  | .error e :: _ => .error e

/-- HOTP `validate_object` (`src/hotp.rs:138-218`). -/
def hotpValidate (o : Obj) : Res Obj :=
  match o.ensureUlong CKA_CLASS CKO_OTP_KEY with
  | .error _ => .error .templateInconsistent
  | .ok o => match o.ensureUlong CKA_KEY_TYPE CKK_HOTP with
    | .error _ => .error .templateInconsistent
    | .ok o =>
      if [CKA_ENCRYPT, CKA_DECRYPT, CKA_WRAP, CKA_UNWRAP].any fun t => o.getBool t == .ok true then
        .error .attrValueInvalid
      else
        let mech : Res Obj :=
          let set := o.put (Attr.ofBytes CKA_ALLOWED_MECHANISMS (ulongBytes CKM_HOTP))
          match o.getBytes CKA_ALLOWED_MECHANISMS with
          | .ok m =>
            if m.length = 0 then .ok set
            else if m ≠ ulongBytes CKM_HOTP then .error .attrValueInvalid
            else .ok o
          | .error _ => .ok set
        match mech with
        | .error e => .error e
        | .ok o =>
          match firstErr [
              optCheck (o.getBytes CKA_OTP_COUNTER) (fun c => c.length == 8),
              optCheck (o.getUlong CKA_OTP_FORMAT) (fun f => f == CK_OTP_FORMAT_DECIMAL),
              optCheck (o.getUlong CKA_VALUE_LEN) (fun n => n == 20 || n == 32 || n == 64),
              optCheck (o.getUlong CKA_OTP_LENGTH) (fun n => decide (6 ≤ n) && decide (n ≤ 8)),
              optCheck (o.getStr CKA_OTP_TIME) (fun s => s.length == 0),
              optCheck (o.getUlong CKA_OTP_TIME_REQUIREMENT) (fun n => n == CK_OTP_PARAM_IGNORED),
              optCheck (o.getUlong CKA_OTP_CHALLENGE_REQUIREMENT) (fun n => n == CK_OTP_PARAM_IGNORED),
              optCheck (o.getUlong CKA_OTP_PIN_REQUIREMENT) (fun n => n == CK_OTP_PARAM_IGNORED)] with
          | .error e => .error e
          | .ok () => .ok o

/-- `ObjectFactory::create` of every factory (`src/object/factory.rs:609-611` data, `:660-664`
profile, `:728-730` mechanism, `src/object/certs.rs:146-196`, `:281-326`, `:424-438`,
`src/object/key.rs:566-578`, `src/aes.rs:129-136`, `src/hotp.rs:222-236`, `src/rsa.rs:238-246`,
`:408-416`, and the `create` functions of the files named in `Oracle`).  The validation factory does
not override `create`, whose default is a general error (`src/object/factory.rs:246-248`). -/
def Factory.create (O : Oracle) (uid : Bytes) (F : Factory) (t : Template) : Res Obj :=
  match F.kind with
  | .data => defaultObjectCreate F uid t
  | .x509 => match defaultObjectCreate F uid t with
    | .error e => .error e
    | .ok o => match x509Checks o with
      | .error e => .error e
      | .ok () => .ok o
  | .trust => match defaultObjectCreate F uid t with
    | .error e => .error e
    | .ok o => trustChecks o
  | .nssTrust => match defaultObjectCreate F uid t with
    | .error e => .error e
    | .ok o => nssTrustChecks o
  | .profile => .error .templateIncomplete
  | .mechanism => .error .templateIncomplete
  | .validation => .error .generalError
  | .genericSecret ks => match keyCreate F uid t with
    | .error e => .error e
    | .ok o => match keyBufferLen o with
      | .error e => .error e
      | .ok len =>
        if len = 0 then .error .attrValueInvalid
        else if ks ≠ 0 ∧ len ≠ ks then .error .attrValueInvalid
        else o.ensureUlong CKA_VALUE_LEN len
  | .aes => match keyCreate F uid t with
    | .error e => .error e
    | .ok o => match keyBufferLen o with
      | .error e => .error e
      | .ok len => match aesCheckKeyLen len with
        | .error e => .error e
        | .ok () => o.ensureUlong CKA_VALUE_LEN len
  | .hotp => match keyCreate F uid t with
    | .error e => .error e
    | .ok o => match keyBufferLen o with
      | .error e => .error e
      | .ok len =>
        if len = 0 then .error .attrValueInvalid
        else hotpValidate (o.put (Attr.ofUlong CKA_VALUE_LEN len))
  | .rsaPub | .rsaPriv => match keyCreate F uid t with
    | .error e => .error e
    | .ok o => match rsaCheckImport O o with
      | .error e => .error e
      | .ok () => rsaPublicKeyInfo O o
  | k => match keyCreate F uid t with
    | .error e => .error e
    | .ok o => asymChecks O k o

/-- Check loop of `default_copy` (`src/object/factory.rs:408-434`). -/
def copyChecks (fa : List FAttr) (origin : Obj) : Template → Res Unit
  | [] => .ok ()
  | c :: rest =>
    match findF fa c.typ with
    | none => .error .templateInconsistent
    | some f =>
      if f.is oaUnchangeable then
        let both : Res Unit :=
          if f.is (oaChangeToFalse ||| oaChangeToTrue) then
            let val := match origin.getBool c.typ with
              | .ok b => b
              | .error _ => false
            if val && !f.is oaChangeToFalse then .error .attrReadOnly
            else if !val && !f.is oaChangeToTrue then .error .attrReadOnly
            else .ok ()
          else .ok ()
        match both with
        | .error e => .error e
        | .ok () =>
          if !f.is oaChangeOnCopy then .error .attrReadOnly else copyChecks fa origin rest
      else copyChecks fa origin rest

/-- `for ck_attr in template { obj.set_attr(Attribute::from_ck_attr(ck_attr)?)?; }`
(`src/object/factory.rs:437-439`, `:533-535`).  The object as changed so far is returned together with
the result, because a session object is modified in place. -/
def applyTemplate : Obj → Template → Res Unit × Obj
  | o, [] => (.ok (), o)
  | o, c :: rest =>
    match Attr.fromCk c with
    | .error e => (.error e, o)
    | .ok a => match o.setAttr a with
      | .error e => (.error e, o)
      | .ok o => applyTemplate o rest

/-- "special attrs handling" of `default_copy`, NEVER_EXTRACTABLE part
(`src/object/factory.rs:442-458`). -/
def copyFixNeverExtractable (origin o : Obj) : Obj :=
  match o.getBool CKA_EXTRACTABLE with
  | .ok e =>
    let val := match o.getBool CKA_NEVER_EXTRACTABLE with
      | .ok ne => !e && ne
      | .error _ => match origin.getBool CKA_EXTRACTABLE with
        | .ok oe => !e && !oe
        | .error _ => false
    o.setBool CKA_NEVER_EXTRACTABLE val
  | .error _ => o

/-- "special attrs handling" of `default_copy`, ALWAYS_SENSITIVE part
(`src/object/factory.rs:459-475`). -/
def copyFixAlwaysSensitive (origin o : Obj) : Obj :=
  match o.getBool CKA_SENSITIVE with
  | .ok b =>
    let val := match origin.getBool CKA_ALWAYS_SENSITIVE with
      | .ok ob => b && ob
      | .error _ => match origin.getBool CKA_SENSITIVE with
        | .ok os => b && os
        | .error _ => false
    o.setBool CKA_ALWAYS_SENSITIVE val
  | .error _ => o

/-- `default_copy` (`src/object/factory.rs:402-478`). -/
def defaultCopy (F : Factory) (uid : Bytes) (origin : Obj) (t : Template) : Res Obj :=
  match copyChecks F.attrs origin t with
  | .error e => .error e
  | .ok () => match applyTemplate (origin.blindCopy uid) t with
    | (.error e, _) => .error e
    | (.ok (), o) => .ok (copyFixAlwaysSensitive origin (copyFixNeverExtractable origin o))

/-- `ObjectFactory::copy` (`src/object/factory.rs:260-262`, overrides that refuse: `:673-679` profile,
`:751-757` mechanism). -/
def Factory.copy (uid : Bytes) (F : Factory) (origin : Obj) (t : Template) : Res Obj :=
  match F.kind with
  | .profile | .mechanism => .error .actionProhibited
  | _ => defaultCopy F uid origin t

/-- `check_set_attributes` (`src/object/factory.rs:484-513`). -/
def checkSetAttributes (fa : List FAttr) : Template → Res Unit
  | [] => .ok ()
  | c :: rest =>
    match findF fa c.typ with
    | none => .error .attrTypeInvalid
    | some f =>
      if f.is oaNeverSettable then .error .actionProhibited
      else if f.is oaUnchangeable then
        if f.attr.atype = .bool then
          match c.toBool with
          | .error e => .error e
          | .ok true => if !f.is oaChangeToTrue then .error .attrReadOnly else checkSetAttributes fa rest
          | .ok false => if !f.is oaChangeToFalse then .error .attrReadOnly else checkSetAttributes fa rest
        else .error .attrReadOnly
      else checkSetAttributes fa rest

/-- `set_object_attributes` (`src/object/factory.rs:520-538`); the second component is the object as
left in memory, also on failure. -/
def setObjectAttributes (F : Factory) (o : Obj) (t : Template) : Res Unit × Obj :=
  if !o.isModifiable then (.error .actionProhibited, o)
  else match checkSetAttributes F.attrs t with
    | .error e => (.error e, o)
    | .ok () => applyTemplate o t

/-- `builtin_create` of the mechanism and profile factories (`src/object/factory.rs:732-749`,
`:665-681`); `uid` stands for the stable UUID of `generate_stable_unique`
(`src/object/mod.rs:142-162`). -/
def builtinCreate (F : Factory) (idType id : Nat) (uid : Bytes) : Res Obj :=
  match internalObjectCreate F [CkAttr.ofUlong idType id] 0 oaRequiredOnCreate with
  | .error e => .error e
  | .ok o => .ok (o.generateUnique uid)

/-! ## The registry (`ObjectFactories`) -/

/-- `ObjectFactories` (`src/object/factory.rs:796-798`): (class, type) to factory. -/
abbrev Factories := List ((Nat × Nat) × Factory)

/-- A generic-secret factory with a fixed key size (`src/object/key.rs:519-556`). -/
def genericF (ks : Nat) : Factory := ⟨.genericSecret ks, CKO_SECRET_KEY, genericSecretAttrs⟩

/-- The AES factory (`src/aes.rs:84-122`). -/
def aesF : Factory := ⟨.aes, CKO_SECRET_KEY, aesAttrs⟩

/-- All registrations, with every cargo feature enabled: `src/object/factory.rs:1092-1113`,
`src/native/hmac.rs:100-113` with the sizes of `src/hash.rs:74-186`, `src/hkdf.rs:38-47`,
`src/aes.rs:66`, `src/hotp.rs:43`, `src/rsa.rs:101-108`, `src/ec/ecdsa.rs:102-109`,
`src/ec/eddsa.rs:83-90`, `src/ec/montgomery.rs:77-84`, `src/ffdh.rs:59-66`, `src/mldsa.rs:108-115`,
`src/mlkem.rs:101-108`, `src/slhdsa.rs:121-128`, `src/fips/mod.rs:33-38`. -/
def registry : Factories := [
  ((CKO_DATA, 0), ⟨.data, CKO_DATA, dataAttrs⟩),
  ((CKO_CERTIFICATE, CKC_X_509), ⟨.x509, CKO_CERTIFICATE, x509Attrs⟩),
  ((CKO_SECRET_KEY, CKK_GENERIC_SECRET), genericF 0),
  ((CKO_TRUST, 0), ⟨.trust, CKO_TRUST, trustAttrs⟩),
  ((CKO_NSS_TRUST, 0), ⟨.nssTrust, CKO_NSS_TRUST, nssTrustAttrs⟩),
  ((CKO_PROFILE, 0), ⟨.profile, CKO_PROFILE, profileAttrs⟩),
  ((CKO_MECHANISM, 0), ⟨.mechanism, CKO_MECHANISM, mechanismAttrs⟩),
  ((CKO_SECRET_KEY, CKK_SHA_1_HMAC), genericF 20),
  ((CKO_SECRET_KEY, CKK_SHA224_HMAC), genericF 28),
  ((CKO_SECRET_KEY, CKK_SHA256_HMAC), genericF 32),
  ((CKO_SECRET_KEY, CKK_SHA384_HMAC), genericF 48),
  ((CKO_SECRET_KEY, CKK_SHA512_HMAC), genericF 64),
  ((CKO_SECRET_KEY, CKK_SHA3_224_HMAC), genericF 28),
  ((CKO_SECRET_KEY, CKK_SHA3_256_HMAC), genericF 32),
  ((CKO_SECRET_KEY, CKK_SHA3_384_HMAC), genericF 48),
  ((CKO_SECRET_KEY, CKK_SHA3_512_HMAC), genericF 64),
  ((CKO_SECRET_KEY, CKK_SHA512_224_HMAC), genericF 28),
  ((CKO_SECRET_KEY, CKK_SHA512_256_HMAC), genericF 32),
  ((CKO_SECRET_KEY, CKK_HKDF), genericF 0),
  ((CKO_SECRET_KEY, CKK_AES), aesF),
  ((CKO_OTP_KEY, CKK_HOTP), ⟨.hotp, CKO_OTP_KEY, hotpAttrs⟩),
  ((CKO_PUBLIC_KEY, CKK_RSA), ⟨.rsaPub, CKO_PUBLIC_KEY, rsaPubAttrs⟩),
  ((CKO_PRIVATE_KEY, CKK_RSA), ⟨.rsaPriv, CKO_PRIVATE_KEY, rsaPrivAttrs⟩),
  ((CKO_PUBLIC_KEY, CKK_EC), ⟨.ecPub, CKO_PUBLIC_KEY, ecPubAttrs⟩),
  ((CKO_PRIVATE_KEY, CKK_EC), ⟨.ecPriv, CKO_PRIVATE_KEY, ecPrivAttrs⟩),
  ((CKO_PUBLIC_KEY, CKK_EC_EDWARDS), ⟨.edPub, CKO_PUBLIC_KEY, edPubAttrs⟩),
  ((CKO_PRIVATE_KEY, CKK_EC_EDWARDS), ⟨.edPriv, CKO_PRIVATE_KEY, edPrivAttrs⟩),
  ((CKO_PUBLIC_KEY, CKK_EC_MONTGOMERY), ⟨.montPub, CKO_PUBLIC_KEY, montPubAttrs⟩),
  ((CKO_PRIVATE_KEY, CKK_EC_MONTGOMERY), ⟨.montPriv, CKO_PRIVATE_KEY, montPrivAttrs⟩),
  ((CKO_PUBLIC_KEY, CKK_DH), ⟨.dhPub, CKO_PUBLIC_KEY, dhPubAttrs⟩),
  ((CKO_PRIVATE_KEY, CKK_DH), ⟨.dhPriv, CKO_PRIVATE_KEY, dhPrivAttrs⟩),
  ((CKO_PUBLIC_KEY, CKK_ML_DSA), ⟨.mldsaPub, CKO_PUBLIC_KEY, mldsaPubAttrs⟩),
  ((CKO_PRIVATE_KEY, CKK_ML_DSA), ⟨.mldsaPriv, CKO_PRIVATE_KEY, mldsaPrivAttrs⟩),
  ((CKO_PUBLIC_KEY, CKK_ML_KEM), ⟨.mlkemPub, CKO_PUBLIC_KEY, mlkemPubAttrs⟩),
  ((CKO_PRIVATE_KEY, CKK_ML_KEM), ⟨.mlkemPriv, CKO_PRIVATE_KEY, mlkemPrivAttrs⟩),
  ((CKO_PUBLIC_KEY, CKK_SLH_DSA), ⟨.slhdsaPub, CKO_PUBLIC_KEY, slhdsaPubAttrs⟩),
  ((CKO_PRIVATE_KEY, CKK_SLH_DSA), ⟨.slhdsaPriv, CKO_PRIVATE_KEY, slhdsaPrivAttrs⟩),
  ((CKO_VALIDATION, 0), ⟨.validation, CKO_VALIDATION, validationAttrs⟩)]

/-- `ObjectFactories::get_factory` (`src/object/factory.rs:818-826`). -/
def getFactory (cls typ : Nat) : Res Factory :=
  match AMap.get registry (cls, typ) with
  | some f => .ok f
  | none => .error .attrValueInvalid

/-- First template entry of type `t`, as an unsigned long. -/
def tmplUlong (t : Template) (typ : Nat) (missing : Rv) : Res Nat :=
  match t.find? (fun c => c.typ == typ) with
  | none => .error missing
  | some c => c.toUlong

/-- Selection of the factory in `ObjectFactories::create` (`src/object/factory.rs:830-872`). -/
def createSelect (t : Template) : Res Factory :=
  match tmplUlong t CKA_CLASS .templateIncomplete with
  | .error e => .error e
  | .ok cls =>
    let typ : Res Nat :=
      if cls = CKO_DATA ∨ cls = CKO_TRUST ∨ cls = CKO_PROFILE ∨ cls = CKO_MECHANISM
          ∨ cls = CKO_NSS_TRUST then .ok 0
      else if cls = CKO_CERTIFICATE then tmplUlong t CKA_CERTIFICATE_TYPE .templateIncomplete
      else if keyClass cls then tmplUlong t CKA_KEY_TYPE .templateIncomplete
      else .error .templateInconsistent
    match typ with
    | .error e => .error e
    | .ok ty => getFactory cls ty

/-- `ObjectFactories::create` (`src/object/factory.rs:830-874`). -/
def factoriesCreate (O : Oracle) (uid : Bytes) (t : Template) : Res Obj :=
  match createSelect t with
  | .error e => .error e
  | .ok F => F.create O uid t

/-- `get_object_factory` (`src/object/factory.rs:877-890`). -/
def objFactory (o : Obj) : Res Factory :=
  match o.getUlong CKA_CLASS with
  | .error e => .error e
  | .ok cls =>
    let typ : Res Nat :=
      if cls = CKO_CERTIFICATE then o.getUlong CKA_CERTIFICATE_TYPE
      else if keyClass cls then o.getUlong CKA_KEY_TYPE
      else .ok 0
    match typ with
    | .error e => .error e
    | .ok ty => getFactory cls ty

/-- Loop of `check_sensitive` (`src/object/factory.rs:903-912`). -/
def sensitiveLoop (fa : List FAttr) : Template → Res Unit
  | [] => .ok ()
  | c :: rest => match findF fa c.typ with
    | none => .error .attrTypeInvalid
    | some f => if f.is oaSensitive then .error .attrSensitive else sensitiveLoop fa rest

/-- `check_sensitive` (`src/object/factory.rs:896-914`). -/
def checkSensitive (o : Obj) (t : Template) : Res Unit :=
  match objFactory o with
  | .error e => .error e
  | .ok F => sensitiveLoop F.attrs t

/-- An output `CK_ATTRIBUTE` of C_GetAttributeValue: `pValue` is NULL, or a buffer with current
content `buf`; `len` is `ulValueLen`.  (The caller must own at least `ulValueLen` bytes.) -/
structure OutAttr where
  typ : Nat
  isNull : Bool
  len : Nat
  buf : Bytes
deriving DecidableEq, Repr, Inhabited

/-- One iteration of the loop of `get_object_attributes` (`src/object/factory.rs:934-1004`): the
attribute after the iteration and the error this entry would report. -/
def getOne (fa : List FAttr) (sensitive : Bool) (o : Obj) (a : OutAttr) : OutAttr × Option Rv :=
  match findF fa a.typ with
  | none => ({ a with len := CK_UNAVAILABLE_INFORMATION }, some .attrTypeInvalid)
  | some f =>
    if sensitive && f.is oaSensitive then
      ({ a with len := CK_UNAVAILABLE_INFORMATION }, some .attrSensitive)
    else match o.find a.typ with
      | none => ({ a with len := CK_UNAVAILABLE_INFORMATION }, some .attrTypeInvalid)
      | some oa =>
        if a.isNull then ({ a with len := oa.value.length }, none)
        else if a.len = CK_UNAVAILABLE_INFORMATION then (a, some .templateInconsistent)
        else if a.len < oa.value.length then
          ({ a with len := CK_UNAVAILABLE_INFORMATION }, some .bufferTooSmall)
        else
          ({ a with len := oa.value.length, buf := oa.value ++ a.buf.drop oa.value.length }, none)

/-- The whole loop: outputs and the first error (`src/object/factory.rs:928-1009`). -/
def getLoop (fa : List FAttr) (sensitive : Bool) (o : Obj) :
    List OutAttr → Option Rv → List OutAttr × Option Rv
  | [], r => ([], r)
  | a :: rest, r =>
    let (a', e) := getOne fa sensitive o a
    let (rest', r') := getLoop fa sensitive o rest (r.orElse fun _ => e)
    (a' :: rest', r')

/-- `get_object_attributes` (`src/object/factory.rs:922-1010`). -/
def getObjectAttributes (o : Obj) (t : List OutAttr) : Res Unit × List OutAttr :=
  let sensitive := o.isSensitive || !o.isExtractable
  match objFactory o with
  | .error e => (.error e, t)
  | .ok F =>
    let (t', r) := getLoop F.attrs sensitive o t none
    match r with
    | none => (.ok (), t')
    | some e => (.error e, t')

/-- `ObjectFactories::copy` (`src/object/factory.rs:1014-1023`). -/
def factoriesCopy (uid : Bytes) (o : Obj) (t : Template) : Res Obj :=
  if !o.isCopyable then .error .actionProhibited
  else match objFactory o with
    | .error e => .error e
    | .ok F => F.copy uid o t

/-- `get_obj_factory_from_key_template` (`src/object/factory.rs:1027-1041`). -/
def keyTemplateFactory (t : Template) : Res Factory :=
  match tmplUlong t CKA_CLASS .templateInconsistent with
  | .error e => .error e
  | .ok cls => match tmplUlong t CKA_KEY_TYPE .templateInconsistent with
    | .error e => .error e
    | .ok kt => getFactory cls kt

/-- `derive_key_from_template` (`src/object/factory.rs:1045-1052`); `as_key_factory` fails for the
non-key factories (`src/object/factory.rs:546-560`). -/
def deriveKeyFromTemplate (uid : Bytes) (key : Obj) (t : Template) : Res Obj :=
  match keyTemplateFactory t with
  | .error e => .error e
  | .ok F => if keyClass F.cls then keyDerive F uid t key else .error .generalError

/-- `default_key_attributes` (`src/object/key.rs:484-503`). -/
def defaultKeyAttributes (o : Obj) (mech : Nat) : Obj :=
  let o := o.setBool CKA_LOCAL true
  let o := o.put (Attr.ofUlong CKA_KEY_GEN_MECHANISM mech)
  let ext := match o.getBool CKA_EXTRACTABLE with
    | .ok b => b
    | .error _ => true
  let o := o.setBool CKA_NEVER_EXTRACTABLE (!ext)
  let sens := match o.getBool CKA_SENSITIVE with
    | .ok b => b
    | .error _ => false
  o.setBool CKA_ALWAYS_SENSITIVE sens

/-- `default_secret_key_generate` (`src/object/key.rs:468-480`); `rnd n` is the random generator's
answer for `n` bytes. -/
def defaultSecretKeyGenerate (rnd : Nat → Res Bytes) (o : Obj) : Res Obj :=
  match o.getUlong CKA_VALUE_LEN with
  | .error e => .error e
  | .ok n => match rnd n with
    | .error e => .error e
    | .ok v => .ok (o.put (Attr.ofBytes CKA_VALUE v))

/-- `GenericSecretKeyMechanism::generate_key` (`src/object/key.rs:664-682`) for key type `kt`. -/
def generateGeneric (rnd : Nat → Res Bytes) (uid : Bytes) (kt mech : Nat) (t : Template) : Res Obj :=
  match keyGenerate (genericF 0) uid t with
  | .error e => .error e
  | .ok o => match o.ensureUlong CKA_CLASS CKO_SECRET_KEY with
    | .error _ => .error .templateInconsistent
    | .ok o => match o.ensureUlong CKA_KEY_TYPE kt with
      | .error _ => .error .templateInconsistent
      | .ok o => match defaultSecretKeyGenerate rnd o with
        | .error e => .error e
        | .ok o => .ok (defaultKeyAttributes o mech)

/-- `AesMechanism::generate_key` (`src/aes.rs:299-319`).  The length is not checked, as in the
source. -/
def generateAes (rnd : Nat → Res Bytes) (uid : Bytes) (mech : Nat) (t : Template) : Res Obj :=
  if mech ≠ CKM_AES_KEY_GEN then .error .mechanismInvalid
  else match keyGenerate aesF uid t with
    | .error e => .error e
    | .ok o => match o.ensureUlong CKA_CLASS CKO_SECRET_KEY with
      | .error _ => .error .templateInconsistent
      | .ok o => match o.ensureUlong CKA_KEY_TYPE CKK_AES with
        | .error _ => .error .templateInconsistent
        | .ok o => match defaultSecretKeyGenerate rnd o with
          | .error e => .error e
          | .ok o => .ok (defaultKeyAttributes o mech)

/-- `HOTPKeyMechanism::generate_key` (`src/hotp.rs:303-323`). -/
def generateHotp (rnd : Nat → Res Bytes) (uid : Bytes) (mech : Nat) (t : Template) : Res Obj :=
  match keyGenerate ⟨.hotp, CKO_OTP_KEY, hotpAttrs⟩ uid t with
  | .error e => .error e
  | .ok o => match hotpValidate o with
    | .error e => .error e
    | .ok o => match defaultSecretKeyGenerate rnd o with
      | .error e => .error e
      | .ok o =>
        let o := defaultKeyAttributes o mech
        match o.getBytes CKA_OTP_COUNTER with
        | .ok _ => .ok o
        | .error _ => .ok (o.put (Attr.ofBytes CKA_OTP_COUNTER (List.replicate 8 0)))

end Kry
