import Verif.Model.Session

/-!
# Cryptographic operations and key management of a session

`src/fns/signing.rs`, `src/fns/encryption.rs`, `src/fns/digest.rs`, `src/fns/dualcrypto.rs`,
`src/fns/keymgmt.rs`, `session_cancel` of `src/fns/sessmgmt.rs`, and the admission checks of the
mechanisms (`src/aes.rs`, `src/rsa.rs`, `src/ec/*.rs`, `src/mldsa.rs`, `src/slhdsa.rs`, `src/mlkem.rs`,
`src/native/hmac.rs`, `src/native/tlskdf.rs`, `src/hotp.rs`, `src/hash.rs`).  The algorithms themselves are
the fields of `Mechs`, arbitrary functions: every theorem holds whatever they compute.  The `fips`
feature is off.  NULL pointer arguments answered with `CKR_ARGUMENTS_BAD` before anything happens are
not modelled, except the NULL output pointers that ask for a length and the NULL mechanism that cancels.
-/

namespace Kry

/-- The calls that drive an operation (`src/mechanism.rs:296-700`): one-shot, update, final; and for
message operations begin, next, next with `CKF_END_OF_MESSAGE` (`last`) and the end of the whole
operation (`finish`). -/
inductive Act where
  | oneShot | update | final | begin | next | last | finish
deriving DecidableEq, Repr, Inhabited

/-- Arguments of an operation call: data, signature, message parameter, associated data, and the size
of the output buffer (`none` = NULL pointer). -/
structure OpIn where
  data : Bytes
  sig : Bytes
  param : Bytes
  aad : Bytes
  out : Option Nat
deriving DecidableEq, Repr, Inhabited

/-- The implementations of `trait Mechanism` that start operations: `src/aes.rs`, `src/rsa.rs`,
`src/ec/ecdsa.rs`, `src/ec/eddsa.rs`, `src/mldsa.rs`, `src/slhdsa.rs`, `src/native/hmac.rs` (with the key type
of the mechanism), `src/tlskdf.rs`, `src/hotp.rs`, `src/hash.rs`; `other` for those that start none. -/
inductive Fam where
  | aes | rsa | ecdsa | eddsa | mldsa | slhdsa | hmac (ktype : Nat) | tlsMac | hotp | digest | other
deriving DecidableEq, Repr, Inhabited

/-- What the mechanisms do, as arbitrary functions (OpenSSL and the ASN.1 library are behind them).
* `flags`, `fam`: `info().flags` and implementation of a registered mechanism;
* `new`: the operation object made once the checks of `newOp` pass;
* `len`: `signature_len`, `digest_len`, `encryption_len`, `decryption_len`, `msg_*_len` for a number of
  input bytes; the last four may also change the operation (`src/ossl/aes.rs:1471-1548`);
* `run`: the work of one call: output and new operation state;
* `genKey`, `genPair`, `derive`, `deriveHandles`, `adkCount`, `hkdf`: key generation and derivation
  (`src/mechanism.rs:105-150`, `:600-640`);
* `exportPriv`, `importAttrs`: PKCS#8 encoding and decoding of private keys (`src/rsa.rs:438-545`,
  `src/ec/mod.rs:250-368`);
* `wrapLen`, `wrap`, `unwrap`: encryption of key bytes (`src/ossl/aes.rs:672-731`, `src/ossl/rsa.rs`);
* `encapLen`, `encapsulate`, `decapsulate`: ML-KEM (`src/ossl/mlkem.rs`). -/
structure Mechs where
  flags : Nat → Nat
  fam : Nat → Fam
  new : Env → OpKind → Nat → Bytes → Option Obj → Bytes → Res Op
  len : OpKind → Act → Op → Nat → Res Nat × Op
  run : Env → OpKind → Act → Op → OpIn → Res Bytes × Op
  genKey : Env → Nat → Bytes → Template → Res Obj
  genPair : Env → Nat → Bytes → Template → Template → Res (Obj × Obj)
  exportPriv : Obj → Res Bytes
  importAttrs : FactoryKind → Obj → Bytes → Res (List Attr)
  wrapLen : Nat → Bytes → Obj → Bytes → Res Nat
  wrap : Env → Nat → Bytes → Obj → Bytes → Res Bytes
  unwrap : Env → Nat → Bytes → Obj → Bytes → Res Bytes
  deriveHandles : Nat → Bytes → Res (List Nat)
  derive : Env → Nat → Bytes → Obj → List Obj → Template → Res (List Obj)
  adkCount : Nat → Bytes → Res Nat
  hkdf : Bytes → Res (Bool × Option Nat × Bool)
  encapLen : Obj → Res Nat
  encapsulate : Env → Obj → Res (Bytes × Bytes)
  decapsulate : Env → Obj → Bytes → Res Bytes

/-- `CKF_` flag a mechanism needs for an operation (`src/fns/signing.rs:46`, `:337`, `:735`,
`src/fns/encryption.rs:45`, `:325`, `:601`, `:993`, `src/fns/digest.rs:44`). -/
def opFlag : OpKind → Nat
  | .enc => CKF_ENCRYPT
  | .dec => CKF_DECRYPT
  | .digest => CKF_DIGEST
  | .sign => CKF_SIGN
  | .verify => CKF_VERIFY
  | .verifySig => CKF_VERIFY
  | .msgEnc => CKF_MESSAGE_ENCRYPT
  | .msgDec => CKF_MESSAGE_DECRYPT

/-- Usage attribute tested for an operation (see `famCheck`). -/
def usageAttr : OpKind → Nat
  | .enc => CKA_ENCRYPT
  | .dec => CKA_DECRYPT
  | .digest => 0
  | .sign => CKA_SIGN
  | .verify => CKA_VERIFY
  | .verifySig => CKA_VERIFY
  | .msgEnc => CKA_ENCRYPT
  | .msgDec => CKA_DECRYPT

/-- `check_and_fetch_key` (`src/native/hmac.rs:190-210`). -/
def hmacCheck (o : Obj) (kt op : Nat) : Res Unit :=
  let a : Res Unit := match o.checkKeyOps CKO_SECRET_KEY CKK_GENERIC_SECRET op with
    | .ok () => .ok ()
    | .error _ => o.checkKeyOps CKO_SECRET_KEY kt op
  match a with
  | .error _ => .error .keyTypeInconsistent
  | .ok () => match o.getBytes CKA_VALUE with
    | .error e => .error e
    | .ok _ => .ok ()

/-- The check of HOTP `sign_new`/`verify_new` (`src/hotp.rs:351-389`). -/
def hotpCheck (o : Obj) (op : Nat) : Res Unit :=
  match o.getUlong CKA_CLASS with
  | .error e => .error e
  | .ok c => match o.getUlong CKA_KEY_TYPE with
    | .error e => .error e
    | .ok k =>
      if c ≠ CKO_OTP_KEY ∨ k ≠ CKK_HOTP then .error .keyTypeInconsistent
      else match o.getBool op with
        | .error _ => .error .generalError
        | .ok true => .ok ()
        | .ok false => .error .keyFunctionNotPermitted

/-- Signature families with a private/public key pair of type `kt` (`src/ec/ecdsa.rs:369-410`,
`src/ec/eddsa.rs:342-380`, `src/mldsa.rs:370-412`, `src/slhdsa.rs:374-416`, `src/rsa.rs:609-660`). -/
def pairCheck (kt : Nat) (k : OpKind) (o : Obj) : Res Unit :=
  match k with
  | .sign => o.checkKeyOps CKO_PRIVATE_KEY kt CKA_SIGN
  | .verify => o.checkKeyOps CKO_PUBLIC_KEY kt CKA_VERIFY
  | .verifySig => o.checkKeyOps CKO_PUBLIC_KEY kt CKA_VERIFY
  | _ => .error .mechanismInvalid

/-- The key checks of the `*_new` functions (`src/aes.rs:268-300`, `:420-535`, `src/rsa.rs:560-665`,
`src/native/hmac.rs:190-345`, `src/tlskdf.rs:101-139` (CKA_DERIVE), `src/hotp.rs:346-395`, and those
of `pairCheck`); kinds a family does not implement are refused (`src/mechanism.rs:50-170`). -/
def famCheck (f : Fam) (k : OpKind) (o : Obj) : Res Unit :=
  match f with
  | .aes => match k with
    | .digest => .error .mechanismInvalid
    | k => o.checkKeyOps CKO_SECRET_KEY CKK_AES (usageAttr k)
  | .rsa => match k with
    | .enc => o.checkKeyOps CKO_PUBLIC_KEY CKK_RSA CKA_ENCRYPT
    | .dec => o.checkKeyOps CKO_PRIVATE_KEY CKK_RSA CKA_DECRYPT
    | k => pairCheck CKK_RSA k o
  | .ecdsa => pairCheck CKK_EC k o
  | .eddsa => pairCheck CKK_EC_EDWARDS k o
  | .mldsa => pairCheck CKK_ML_DSA k o
  | .slhdsa => pairCheck CKK_SLH_DSA k o
  | .hmac kt => match k with
    | .sign | .verify | .verifySig => hmacCheck o kt (usageAttr k)
    | _ => .error .mechanismInvalid
  | .tlsMac => match k with
    | .sign | .verify => hmacCheck o CK_UNAVAILABLE_INFORMATION CKA_DERIVE
    | _ => .error .mechanismInvalid
  | .hotp => match k with
    | .sign | .verify => hotpCheck o (usageAttr k)
    | _ => .error .mechanismInvalid
  | .digest => .error .mechanismInvalid
  | .other => .error .mechanismInvalid

/-- `check_allowed_mechs` (`src/lib.rs:523-550`). -/
def checkAllowed (m : Nat) (o : Obj) : Res Unit :=
  match o.find CKA_ALLOWED_MECHANISMS with
  | none => .ok ()
  | some a =>
    if a.value.length % 8 ≠ 0 then .error .generalError
    else if (chunks8 a.value).contains m then .ok () else .error .mechanismInvalid

variable (M : Mechs) (C : Crypto) (O : Oracle)

/-- `token.get_mechanisms().get(m)` (`src/mechanism.rs:262-268`) and a test of `info().flags`. -/
def mechWith (t : Token) (m f : Nat) : Res Unit :=
  if !t.mechsList.contains m then .error .mechanismInvalid
  else if M.flags m &&& f = 0 then .error .mechanismInvalid else .ok ()

/-- The `*_new` functions of the mechanisms.  Every one creates its operation with `finalized` and
`in_use` false. -/
def newOp (e : Env) (k : OpKind) (m : Nat) (param : Bytes) (key : Option Obj) (sig : Bytes) : Res Op :=
  let chk : Res Unit := match key with
    | some o => famCheck (M.fam m) k o
    | none => if M.fam m = .digest ∧ k = .digest then .ok () else .error .mechanismInvalid
  match chk with
  | .error r => .error r
  | .ok () => match M.new e k m param key sig with
    | .error r => .error r
    | .ok o => .ok { o with mech := m, fin := false, busy := false }

/-- `sign_init`, `verify_init`, `verify_signature_init`, `encrypt_init`, `decrypt_init`,
`message_encrypt_init`, `message_decrypt_init` (`src/fns/signing.rs:23-56`, `:314-347`, `:709-748`,
`src/fns/encryption.rs:23-64`, `:303-341`, `:580-620`, `:972-1012`). -/
def fnInitKey (e : Env) (k : OpKind) (m : Nat) (param : Bytes) (key : Nat) (sig : Bytes) (s : Session)
    (t : Token) : Res Unit × Session :=
  match s.checkNoOp k with
  | .error r => (.error r, s)
  | .ok () =>
    if !t.isInitialized then (.error .tokenNotInitialized, s)
    else match t.getObjectByHandle C (e.sub 0) key with
      | .error r => (.error r, s)
      | .ok o => match checkAllowed m o with
        | .error r => (.error r, s)
        | .ok () => match mechWith M t m (opFlag k) with
          | .error r => (.error r, s)
          | .ok () => match newOp M (e.sub 1) k m param (some o) sig with
            | .error r => (.error r, s)
            | .ok op => (.ok (), s.setOp k op ((k == .sign || k == .dec) && o.alwaysAuth))

/-- `digest_init` (`src/fns/digest.rs:22-54`). -/
def fnInitDigest (e : Env) (m : Nat) (param : Bytes) (s : Session) (t : Token) : Res Unit × Session :=
  match s.checkNoOp .digest with
  | .error r => (.error r, s)
  | .ok () =>
    if !t.isInitialized then (.error .tokenNotInitialized, s)
    else match mechWith M t m CKF_DIGEST with
      | .error r => (.error r, s)
      | .ok () => match newOp M (e.sub 1) .digest m param none [] with
        | .error r => (.error r, s)
        | .ok op => (.ok (), s.setOp .digest op false)

/-- Put the changed operation back (it is modified in place in the source). -/
def Session.putOp (s : Session) (k : OpKind) (o : Op) : Session := { s with ops := AMap.insert s.ops k o }

/-- One piece of work by the mechanism; the mechanism of an operation never changes. -/
def runOp (e : Env) (k : OpKind) (a : Act) (o : Op) (i : OpIn) : Res Bytes × Op :=
  let (r, o') := M.run e k a o i
  (r, { o' with mech := o.mech })

/-- A length question; only the encryption and decryption versions may change the operation. -/
def lenOp (k : OpKind) (a : Act) (o : Op) (n : Nat) : Res Nat × Op :=
  let (r, o') := M.len k a o n
  (r, { o' with mech := o.mech, busy := o.busy })

/-- The `updates_object` step after sign and verify (`src/fns/signing.rs:117-127`, `:245-255`,
`:405-415`, `:525-535`, `:810-820`, `:900-910`). -/
def afterUse (e : Env) (op : Op) (t : Token) : Res Unit × Token :=
  match op.upd with
  | none => (.ok (), t)
  | some (h, tm) =>
    if !t.isInitialized then (.error .tokenNotInitialized, t)
    else
      let (r, t) := t.setObjectAttrs C e h tm
      match r with
      | .ok () => (.ok (), t)
      | .error _ => (.error .generalError, t)

/-- `sign` and `sign_final` (`src/fns/signing.rs:82-134`, `:215-262`). -/
def fnSign (e : Env) (a : Act) (i : OpIn) (s : Session) (t : Token) : Out × Session × Token :=
  match s.getOp .sign with
  | .error r => (.err r, s, t)
  | .ok op => match (lenOp M .sign a op i.data.length).1 with
    | .error r => (.err r, s, t)
    | .ok n => match i.out with
      | none => (.size n, s, t)
      | some have' =>
        if have' < n then (.err .bufferTooSmall, s, t)
        else
          let (r, op) := runOp M (e.sub 0) .sign a op i
          let s := s.putOp .sign op
          match r with
          | .error r => (.err r, s, t)
          | .ok b =>
            let (r, t) := afterUse C (e.sub 1) op t
            match r with
            | .error r => (.err r, s, t)
            | .ok () => (.bytes b, s, t)

/-- `verify` and `verify_final` (`src/fns/signing.rs:372-425`, `:492-545`); `verify_signature` and
`verify_signature_final` (`:784-825`, `:879-920`), which have no signature argument to measure. -/
def fnVerify (e : Env) (k : OpKind) (a : Act) (i : OpIn) (s : Session) (t : Token) :
    Out × Session × Token :=
  match s.getOp k with
  | .error r => (.err r, s, t)
  | .ok op =>
    let lenOk : Res Unit := if k = .verify then
        match (lenOp M k a op i.data.length).1 with
        | .error r => .error r
        | .ok n => if n ≠ i.sig.length then .error .signatureLenRange else .ok ()
      else .ok ()
    match lenOk with
    | .error r => (.err r, s, t)
    | .ok () =>
      let (r, op) := runOp M (e.sub 0) k a op i
      let s := s.putOp k op
      match r with
      | .error r => (.err r, s, t)
      | .ok _ =>
        let (r, t) := afterUse C (e.sub 1) op t
        (Out.of r, s, t)

/-- `sign_update`, `verify_update`, `verify_signature_update`, `digest_update`
(`src/fns/signing.rs:166-190`, `:445-470`, `:839-860`, `src/fns/digest.rs:120-165`). -/
def fnFeed (e : Env) (k : OpKind) (data : Bytes) (s : Session) : Res Unit × Session :=
  match s.getOp k with
  | .error r => (.error r, s)
  | .ok op =>
    let (r, op) := runOp M e k .update op { (default : OpIn) with data := data }
    match r with
    | .error r => (.error r, s.putOp k op)
    | .ok _ => (.ok (), s.putOp k op)

/-- `digest` and `digest_final` (`src/fns/digest.rs:66-110`, `:242-285`). -/
def fnDigest (e : Env) (a : Act) (i : OpIn) (s : Session) : Out × Session :=
  match s.getOp .digest with
  | .error r => (.err r, s)
  | .ok op => match (lenOp M .digest a op i.data.length).1 with
    | .error r => (.err r, s)
    | .ok n => match i.out with
      | none => (.size n, s)
      | some have' =>
        if have' < n then (.err .bufferTooSmall, s)
        else
          let (r, op) := runOp M e .digest a op i
          (Out.ofBytes r, s.putOp .digest op)

/-- `encrypt`, `encrypt_update`, `encrypt_final`, `decrypt`, `decrypt_update`, `decrypt_final`
(`src/fns/encryption.rs:84-130`, `:160-205`, `:239-285`, `:361-410`, `:440-490`, `:520-565`). -/
def fnCrypt (e : Env) (k : OpKind) (a : Act) (i : OpIn) (s : Session) : Out × Session :=
  match s.getOp k with
  | .error r => (.err r, s)
  | .ok op => match i.out with
    | none =>
      let (r, op) := lenOp M k a op i.data.length
      (Out.ofSize r, s.putOp k op)
    | some _ =>
      let (r, op) := runOp M e k a op i
      (Out.ofBytes r, s.putOp k op)

/-- Message operations: `encrypt_message`, `encrypt_message_begin`, `encrypt_message_next`,
`message_encrypt_final` and the four for decryption (`src/fns/encryption.rs:637-965`, `:1030-1340`).
`in_use` is kept by `src/ossl/aes.rs:2002-2407`: a successful begin opens the message, a successful last
part or one-shot closes it, a failing next or last part leaves it open; after a failing begin or
one-shot it is whatever the mechanism left.  Simplification: the argument checks are made before the
session lookup in the source. -/
def fnMessage (e : Env) (k : OpKind) (a : Act) (i : OpIn) (s : Session) (t : Token) : Out × Session :=
  match a with
  | .oneShot =>
    if i.param = [] ∨ i.data = [] then (.err .argumentsBad, s)
    else match s.getOp k with
      | .error r => (.err r, s)
      | .ok op =>
        if op.busy then (.err .operationActive, s)
        else match i.out with
          | none =>
            let (r, op) := lenOp M k a op i.data.length
            (Out.ofSize r, s.putOp k op)
          | some _ =>
            let (r, op) := runOp M e k a op i
            match r with
            | .ok b => (.bytes b, s.putOp k { op with busy := false })
            | .error r => (.err r, s.putOp k op)
  | .begin =>
    if i.param = [] then (.err .argumentsBad, s)
    else match s.getOp k with
      | .error r => (.err r, s)
      | .ok op =>
        if op.busy then (.err .operationActive, s)
        else if !t.isInitialized then (.err .tokenNotInitialized, s)
        else match mechWith M t op.mech CKF_MULTI_MESSAGE with
          | .error r => (.err r, s)
          | .ok () =>
            let (r, op) := runOp M e k a op i
            match r with
            | .ok _ => (.ok, s.putOp k { op with busy := true })
            | .error r => (.err r, s.putOp k op)
  | .next | .last =>
    if i.param = [] ∨ i.data = [] then (.err .argumentsBad, s)
    else match s.getOp k with
      | .error r => (.err r, s)
      | .ok op =>
        if !op.busy then (.err .operationNotInitialized, s)
        else match i.out with
          | none =>
            let (r, op) := lenOp M k a op i.data.length
            (Out.ofSize r, s.putOp k op)
          | some _ =>
            let (r, op) := runOp M e k a op i
            match r with
            | .ok b => (.bytes b, s.putOp k { op with busy := decide (a = .next) })
            | .error r => (.err r, s.putOp k { op with busy := true })
  | .finish => match s.getOp k with
    | .error r => (.err r, s)
    | .ok op =>
      if op.busy then (.err .operationActive, s)
      else (.ok, s.putOp k { op with fin := true })
  | _ => (.err .functionNotSupported, s)

/-- `digest_key` (`src/fns/digest.rs:190-222`). -/
def fnDigestKey (e : Env) (key : Nat) (s : Session) (t : Token) : Res Unit × Session :=
  match s.getOp .digest with
  | .error r => (.error r, s)
  | .ok _ =>
    if !t.isInitialized then (.error .tokenNotInitialized, s)
    else match t.getObjectByHandle C (e.sub 0) key with
      | .error r => (.error r, s)
      | .ok o => match o.getUlong CKA_CLASS with
        | .error r => (.error r, s)
        | .ok c =>
          if c ≠ CKO_SECRET_KEY then (.error .keyHandleInvalid, s)
          else match o.getUlong CKA_KEY_TYPE with
            | .error r => (.error r, s)
            | .ok kt =>
              if kt ≠ CKK_GENERIC_SECRET ∧ kt ≠ CKK_AES then (.error .keyIndigestible, s)
              else match o.getBytes CKA_VALUE with
                | .error r => (.error r, s)
                | .ok v => fnFeed M (e.sub 1) .digest v s

/-- `check_op` (`src/session.rs:84-92`). -/
def Session.checkOp (s : Session) (k : OpKind) : Res Unit :=
  match AMap.get s.ops k with
  | some o => if o.fin then .error .operationNotInitialized else .ok ()
  | none => .error .operationNotInitialized

/-- The four dual-function calls (`src/fns/dualcrypto.rs`): `k2` is fed the plaintext of the encryption
or decryption `k1`; nothing is fed when only a length is asked. -/
def fnDual (e : Env) (k1 k2 : OpKind) (i : OpIn) (s : Session) : Out × Session :=
  match s.checkOp k2 with
  | .error r => (.err r, s)
  | .ok () =>
    let (r, s) := fnCrypt M (e.sub 0) k1 .update i s
    match r with
    | .bytes b =>
      let (r', s) := fnFeed M (e.sub 1) k2 (if k1 = .enc then i.data else b) s
      match r' with
      | .error r' => (.err r', s)
      | .ok () => (.bytes b, s)
    | r => (r, s)

/-- One `if` of `session_cancel` (`src/fns/sessmgmt.rs:454-498`). -/
def Session.cancelIf (flags f : Nat) (k : OpKind) (s : Session) : Session :=
  if flags &&& f ≠ 0 then s.cancelOp k else s

/-- The search of `session_cancel` (`src/fns/sessmgmt.rs:472-476`). -/
def Session.cancelSearch (flags : Nat) (s : Session) : Session :=
  if flags &&& CKF_FIND_OBJECTS ≠ 0 then { s with search := none } else s

/-- What `session_cancel` does to the session (`src/fns/sessmgmt.rs:454-498`). -/
def Session.cancelAll (flags : Nat) (s : Session) : Session :=
  let s := s.cancelIf flags CKF_MESSAGE_ENCRYPT .msgEnc
  let s := s.cancelIf flags CKF_MESSAGE_DECRYPT .msgDec
  let s := s.cancelSearch flags
  let s := s.cancelIf flags CKF_ENCRYPT .enc
  let s := s.cancelIf flags CKF_DECRYPT .dec
  let s := s.cancelIf flags CKF_DIGEST .digest
  let s := s.cancelIf flags CKF_SIGN .sign
  s.cancelIf flags CKF_VERIFY .verify

/-- `session_cancel` (`src/fns/sessmgmt.rs:448-505`). -/
def fnCancel (flags : Nat) (s : Session) : Out × Session :=
  if flags &&& CKF_MESSAGE_SIGN ≠ 0 ∨ flags &&& CKF_MESSAGE_VERIFY ≠ 0 then
    (.err .operationCancelFailed, s.cancelAll flags)
  else (.ok, s.cancelAll flags)

/-! ## Key management -/

/-- Keep only the first unique id. -/
def oneUid : List Attr → List Attr
  | [] => []
  | a :: l => if a.typ = CKA_UNIQUE_ID then a :: l.filter (fun b => b.typ != CKA_UNIQUE_ID) else a :: oneUid l

/-- Objects made by mechanisms come from `Object::new` (`src/object/mod.rs:111-119`), so have no handle
and no session yet; they are filled by the factories, which give an object one CKA_UNIQUE_ID
(`src/object/factory.rs:329-346` refuses a second one, `src/object/mod.rs:129-139` adds one only when
there is none). -/
def fresh (o : Obj) : Obj := { o with handle := 0, session := 0, attrs := oneUid o.attrs }

/-- The check every key-management call makes on a read-only session (`src/fns/keymgmt.rs:50-52` …). -/
def roCheck (s : Session) (tm : Template) : Res Unit :=
  if s.isWritable then .ok () else failIfTokenTrue tm

/-- `generate_key` (`src/fns/keymgmt.rs:21-86`). -/
def fnGenKey (e : Env) (h m : Nat) (param : Bytes) (tm : Template) (s : Session) (t : Token) :
    Res Nat × Token :=
  match roCheck s tm with
  | .error r => (.error r, t)
  | .ok () =>
    if !t.isInitialized then (.error .tokenNotInitialized, t)
    else match mechWith M t m CKF_GENERATE with
      | .error r => (.error r, t)
      | .ok () => match M.genKey (e.sub 0) m param tm with
        | .error r => (.error r, t)
        | .ok o => t.insertObject C (e.sub 1) h (fresh o)

/-- `generate_key_pair` (`src/fns/keymgmt.rs:116-210`). -/
def fnGenPair (e : Env) (h m : Nat) (param : Bytes) (pub priv : Template) (s : Session) (t : Token) :
    Res (Nat × Nat) × Token :=
  match roCheck s priv with
  | .error r => (.error r, t)
  | .ok () => match roCheck s pub with
    | .error r => (.error r, t)
    | .ok () =>
      if !t.isInitialized then (.error .tokenNotInitialized, t)
      else match mechWith M t m CKF_GENERATE_KEY_PAIR with
        | .error r => (.error r, t)
        | .ok () => match M.genPair (e.sub 0) m param pub priv with
          | .error r => (.error r, t)
          | .ok (pubk, privk) =>
            let (r, t) := t.insertObject C (e.sub 1) h (fresh pubk)
            match r with
            | .error r => (.error r, t)
            | .ok pubh =>
              let (r, t) := t.insertObject C (e.sub 2) h (fresh privk)
              match r with
              | .error r => (.error r, (t.destroyObject C (e.sub 3) pubh).2)
              | .ok privh => (.ok (pubh, privh), t)

/-- `export_for_wrapping` of every factory (`src/object/key.rs:199-201`, `:374-382`, `:598`,
`src/aes.rs:173`, `src/hotp.rs:254`, `src/rsa.rs:438-460`, `src/ec/mod.rs:250-301`); `as_key_factory`
fails for the non-key factories (`src/object/factory.rs:546-560`). -/
def exportForWrapping (F : Factory) (o : Obj) : Res Bytes :=
  match F.kind with
  | .genericSecret _ | .aes | .hotp => exportSecret o
  | .rsaPriv => match o.checkKeyOps CKO_PRIVATE_KEY CKK_RSA CKA_EXTRACTABLE with
    | .error r => .error r
    | .ok () => M.exportPriv o
  | .ecPriv | .edPriv | .montPriv =>
    match o.checkKeyOps CKO_PRIVATE_KEY CK_UNAVAILABLE_INFORMATION CKA_EXTRACTABLE with
    | .error r => .error r
    | .ok () => match o.getUlong CKA_KEY_TYPE with
      | .error r => .error r
      | .ok k =>
        if k = CKK_EC ∨ k = CKK_EC_EDWARDS ∨ k = CKK_EC_MONTGOMERY then M.exportPriv o
        else .error .keyTypeInconsistent
  | _ => if keyClass F.cls then .error .functionNotSupported else .error .generalError

/-- `wrap_key` (`src/fns/keymgmt.rs:254-332`) and the mechanisms' `wrap_key` (`src/aes.rs:326-343`,
`src/rsa.rs:737-755`): a NULL or empty buffer asks for the length. -/
def fnWrap (e : Env) (m : Nat) (param : Bytes) (wkey key : Nat) (out : Option Nat) (t : Token) : Out :=
  if !t.isInitialized then .err .tokenNotInitialized
  else match t.getObjectByHandle C (e.sub 0) key with
    | .error r => .err r
    | .ok k => match t.getObjectByHandle C (e.sub 1) wkey with
      | .error r => .err r
      | .ok w => match checkAllowed m w with
        | .error r => .err r
        | .ok () => match objFactory k with
          | .error r => .err r
          | .ok F => match mechWith M t m CKF_WRAP with
            | .error r => .err r
            | .ok () => match w.getBool CKA_WRAP with
              | .error r => .err r
              | .ok false => .err .wrappingKeyHandleInvalid
              | .ok true =>
                let trust : Res Unit := match k.getBool CKA_WRAP_WITH_TRUSTED with
                  | .error r => .error r
                  | .ok false => .ok ()
                  | .ok true => match w.getBool CKA_TRUSTED with
                    | .error r => .error r
                    | .ok true => .ok ()
                    | .ok false => .error .wrappingKeyHandleInvalid
                match trust with
                | .error r => .err r
                | .ok () => match exportForWrapping M F k with
                  | .error r => .err r
                  | .ok data => match M.wrapLen m param w data with
                    | .error r => .err r
                    | .ok n => match out with
                      | none => .size n
                      | some have' =>
                        if have' = 0 then .size n
                        else if have' < n then .err .bufferTooSmall
                        else Out.ofBytes (M.wrap (e.sub 2) m param w data)

/-- `ensure_bytes`/`ensure_ulong` of the imported values (`src/object/mod.rs:335-393`): an attribute that
is there must agree, otherwise it is added. -/
def ensureAll (o : Obj) : List Attr → Res Obj
  | [] => .ok o
  | a :: rest => match o.find a.typ with
    | some b => if b.value ≠ a.value then .error .attrValueInvalid else ensureAll o rest
    | none => ensureAll (o.push a) rest

/-- `import_from_wrapped` of every factory (`src/object/key.rs:206-212`, `:384-399`, `:602`,
`src/aes.rs:177-205`, `src/hotp.rs:258`, `src/rsa.rs:470-545`, `src/ec/mod.rs:304-368`). -/
def importWrapped (uid : Bytes) (F : Factory) (data : Bytes) (tm : Template) : Res Obj :=
  match F.kind with
  | .genericSecret _ | .hotp => importSecret F uid data tm
  | .aes => importAes F uid data tm
  | .rsaPriv | .ecPriv | .edPriv | .montPriv => match keyUnwrap F uid tm with
    | .error r => .error r
    | .ok o => match M.importAttrs F.kind o data with
      | .error r => .error r
      | .ok l => ensureAll o l
  | _ => if keyClass F.cls then .error .functionNotSupported else .error .generalError

/-- `unwrap_key` (`src/fns/keymgmt.rs:370-456`, which tests CKF_WRAP) and the mechanisms' `unwrap_key`
(`src/aes.rs:350-366`, `src/rsa.rs:766-783`, which test CKF_UNWRAP). -/
def fnUnwrap (e : Env) (h m : Nat) (param : Bytes) (key : Nat) (data : Bytes) (tm : Template) (s : Session)
    (t : Token) : Res Nat × Token :=
  match roCheck s tm with
  | .error r => (.error r, t)
  | .ok () =>
    if !t.isInitialized then (.error .tokenNotInitialized, t)
    else match t.getObjectByHandle C (e.sub 0) key with
      | .error r => (.error r, t)
      | .ok w => match checkAllowed m w with
        | .error r => (.error r, t)
        | .ok () => match keyTemplateFactory tm with
          | .error r => (.error r, t)
          | .ok F => match mechWith M t m CKF_WRAP with
            | .error r => (.error r, t)
            | .ok () => match w.getBool CKA_UNWRAP with
              | .error r => (.error r, t)
              | .ok false => (.error .wrappingKeyHandleInvalid, t)
              | .ok true => match mechWith M t m CKF_UNWRAP with
                | .error r => (.error r, t)
                | .ok () => match M.unwrap (e.sub 1) m param w data with
                  | .error r => (.error r, t)
                  | .ok bytes => match importWrapped M (e.sub 2).uid F bytes tm with
                    | .error r => (.error r, t)
                    | .ok o => t.insertObject C (e.sub 3) h (fresh o)

/-- The usage check of `derive_key` (`src/fns/keymgmt.rs:528-590`). -/
def deriveUsage (m : Nat) (param : Bytes) (k : Obj) : Res Unit :=
  let plain : Res Unit := match k.getBool CKA_DERIVE with
    | .error r => .error r
    | .ok true => .ok ()
    | .ok false => .error .keyFunctionNotPermitted
  if m = CKM_PUB_KEY_FROM_PRIV_KEY then .ok ()
  else if m = CKM_HKDF_DERIVE ∨ m = CKM_HKDF_DATA then
    if k.cls = CKO_DATA then
      match M.hkdf param with
      | .error r => .error r
      | .ok (extract, hlen, salt) =>
        if !extract then .error .mechanismParamInvalid
        else match k.getBytes CKA_VALUE with
          | .error r => .error r
          | .ok v =>
            if hlen ≠ some v.length then .error .mechanismParamInvalid
            else if !salt then .error .mechanismParamInvalid else .ok ()
    else plain
  else plain

/-- The additional key objects (`src/fns/keymgmt.rs:612-640`). -/
def fetchAll (e : Env) (t : Token) : List Nat → Nat → Res (List Obj)
  | [], _ => .ok []
  | h :: hs, i => match t.getObjectByHandle C (e.sub i) h with
    | .error r => .error r
    | .ok o => match fetchAll e t hs (i + 1) with
      | .error r => .error r
      | .ok l => .ok (o :: l)

/-- Insert objects until one fails: error, handles inserted so far, token. -/
def insertAll (e : Env) (h : Nat) (t : Token) : List Obj → Nat → Option Rv × List Nat × Token
  | [], _ => (none, [], t)
  | o :: os, i =>
    let (r, t) := t.insertObject C (e.sub i) h (fresh o)
    match r with
    | .error r => (some r, [], t)
    | .ok n =>
      let (r, l, t) := insertAll e h t os (i + 1)
      (r, n :: l, t)

/-- `destroy_object` of several handles, results ignored. -/
def destroyAll (e : Env) (t : Token) : List Nat → Nat → Token
  | [], _ => t
  | h :: hs, i => destroyAll e (t.destroyObject C (e.sub i) h).2 hs (i + 1)

/-- `derive_key` (`src/fns/keymgmt.rs:500-768`). -/
def fnDerive (e : Env) (h m : Nat) (param : Bytes) (key : Nat) (tm : Template) (s : Session) (t : Token) :
    Res (List Nat) × Token :=
  match roCheck s tm with
  | .error r => (.error r, t)
  | .ok () =>
    if !t.isInitialized then (.error .tokenNotInitialized, t)
    else match t.getObjectByHandle C (e.sub 0) key with
      | .error r => (.error r, t)
      | .ok k => match deriveUsage M m param k with
        | .error r => (.error r, t)
        | .ok () => match checkAllowed m k with
          | .error r => (.error r, t)
          | .ok () => match mechWith M t m CKF_DERIVE with
            | .error r => (.error r, t)
            | .ok () => match M.deriveHandles m param with
              | .error r => (.error r, t)
              | .ok hs => match fetchAll C (e.sub 1) t hs 0 with
                | .error r => (.error r, t)
                | .ok extra => match M.derive (e.sub 2) m param k extra tm with
                  | .error r => (.error r, t)
                  | .ok [] => (.error .generalError, t)
                  | .ok (o :: os) =>
                    if m = CKM_SP800_108_COUNTER_KDF ∨ m = CKM_SP800_108_FEEDBACK_KDF
                        ∨ m = CKM_SP800_108_DOUBLE_PIPELINE_KDF then
                      let (r, t) := t.insertObject C (e.sub 3) h (fresh o)
                      match r with
                      | .error r => (.error r, t)
                      | .ok n =>
                        if os = [] then (.ok [n], t)
                        else if m = CKM_SP800_108_DOUBLE_PIPELINE_KDF then (.error .mechanismInvalid, t)
                        else match M.adkCount m param with
                          | .error r => (.error r, t)
                          | .ok c =>
                            if c ≠ os.length then (.error .generalError, t)
                            else
                              let (r, l, t) := insertAll C (e.sub 4) h t os 0
                              match r with
                              | none => (.ok (n :: l), t)
                              | some r =>
                                (.error r, destroyAll C (e.sub 5) t (l ++ [n]) 0)
                    else if m = CKM_TLS12_KEY_AND_MAC_DERIVE ∨ m = CKM_TLS12_KEY_SAFE_DERIVE then
                      if os.length ≠ 1 ∧ os.length ≠ 3 then (.error .generalError, t)
                      else
                        let (r, l, t) := insertAll C (e.sub 4) h t (o :: os) 0
                        match r with
                        | none => (.ok l, t)
                        | some r => (.error r, destroyAll C (e.sub 5) t l 0)
                    else if os ≠ [] then (.error .generalError, t)
                    else
                      let (r, t) := t.insertObject C (e.sub 3) h (fresh o)
                      match r with
                      | .error r => (.error r, t)
                      | .ok n => (.ok [n], t)

/-- `encapsulate_key` (`src/fns/keymgmt.rs:806-905`, `src/mlkem.rs:384-408`). -/
def fnEncap (e : Env) (h m : Nat) (key : Nat) (tm : Template) (out : Option Nat) (s : Session) (t : Token) :
    Out × Token :=
  match roCheck s tm with
  | .error r => (.err r, t)
  | .ok () =>
    if !t.isInitialized then (.err .tokenNotInitialized, t)
    else match t.getObjectByHandle C (e.sub 0) key with
      | .error r => (.err r, t)
      | .ok k => match checkAllowed m k with
        | .error r => (.err r, t)
        | .ok () => match keyTemplateFactory tm with
          | .error r => (.err r, t)
          | .ok F => match mechWith M t m CKF_ENCAPSULATE with
            | .error r => (.err r, t)
            | .ok () => match M.encapLen k with
              | .error r => (.err r, t)
              | .ok n => match out with
                | none => (.size n, t)
                | some have' =>
                  if have' < n then (.err .bufferTooSmall, t)
                  else match k.checkKeyOps CKO_PUBLIC_KEY CKK_ML_KEM CKA_ENCAPSULATE with
                    | .error r => (.err r, t)
                    | .ok () => match M.encapsulate (e.sub 1) k with
                      | .error r => (.err r, t)
                      | .ok (secret, ct) => match importWrapped M (e.sub 2).uid F secret tm with
                        | .error r => (.err r, t)
                        | .ok o =>
                          let (r, t) := t.insertObject C (e.sub 3) h (fresh o)
                          match r with
                          | .error r => (.err r, t)
                          | .ok n => (.handleBytes n ct, t)

/-- `decapsulate_key` (`src/fns/keymgmt.rs:946-1020`, `src/mlkem.rs:411-427`). -/
def fnDecap (e : Env) (h m : Nat) (key : Nat) (data : Bytes) (tm : Template) (s : Session) (t : Token) :
    Res Nat × Token :=
  match roCheck s tm with
  | .error r => (.error r, t)
  | .ok () =>
    if !t.isInitialized then (.error .tokenNotInitialized, t)
    else match t.getObjectByHandle C (e.sub 0) key with
      | .error r => (.error r, t)
      | .ok k => match checkAllowed m k with
        | .error r => (.error r, t)
        | .ok () => match keyTemplateFactory tm with
          | .error r => (.error r, t)
          | .ok F => match mechWith M t m CKF_DECAPSULATE with
            | .error r => (.error r, t)
            | .ok () => match k.checkKeyOps CKO_PRIVATE_KEY CKK_ML_KEM CKA_DECAPSULATE with
              | .error r => (.error r, t)
              | .ok () => match M.decapsulate (e.sub 1) k data with
                | .error r => (.error r, t)
                | .ok secret => match importWrapped M (e.sub 2).uid F secret tm with
                  | .error r => (.error r, t)
                  | .ok o => t.insertObject C (e.sub 3) h (fresh o)

/-! ## Calls -/

/-- Operation and key-management calls on a session.  `opInit` with `mech = none` is the call with a
NULL mechanism pointer. -/
inductive OCall where
  | opInit (k : OpKind) (mech : Option (Nat × Bytes)) (key : Nat) (sig : Bytes)
  | opRun (k : OpKind) (a : Act) (i : OpIn)
  | digestKey (key : Nat)
  | digestEncrypt (i : OpIn)
  | decryptDigest (i : OpIn)
  | signEncrypt (i : OpIn)
  | decryptVerify (i : OpIn)
  | cancel (flags : Nat)
  | generateKey (mech : Nat) (param : Bytes) (t : Template)
  | generatePair (mech : Nat) (param : Bytes) (pub priv : Template)
  | wrap (mech : Nat) (param : Bytes) (wkey key : Nat) (out : Option Nat)
  | unwrap (mech : Nat) (param : Bytes) (key : Nat) (data : Bytes) (t : Template)
  | derive (mech : Nat) (param : Bytes) (key : Nat) (t : Template)
  | encapsulate (mech : Nat) (key : Nat) (t : Template) (out : Option Nat)
  | decapsulate (mech : Nat) (key : Nat) (data : Bytes) (t : Template)
deriving Repr

/-- The C_Xxx functions of each kind and phase; combinations that no API function makes are refused
without effect. -/
def fnOpRun (e : Env) (k : OpKind) (a : Act) (i : OpIn) (s : Session) (t : Token) : Out × Session × Token :=
  let un (p : Out × Session) : Out × Session × Token := (p.1, p.2, t)
  let feed (p : Res Unit × Session) : Out × Session × Token := (Out.of p.1, p.2, t)
  match k with
  | .msgEnc | .msgDec => un (fnMessage M e k a i s t)
  | .enc | .dec => match a with
    | .oneShot | .update | .final => un (fnCrypt M e k a i s)
    | _ => (.err .functionNotSupported, s, t)
  | .digest => match a with
    | .oneShot | .final => un (fnDigest M e a i s)
    | .update => feed (fnFeed M e k i.data s)
    | _ => (.err .functionNotSupported, s, t)
  | .sign => match a with
    | .oneShot | .final => fnSign M C e a i s t
    | .update => feed (fnFeed M e k i.data s)
    | _ => (.err .functionNotSupported, s, t)
  | .verify | .verifySig => match a with
    | .oneShot | .final => fnVerify M C e k a i s t
    | .update => feed (fnFeed M e k i.data s)
    | _ => (.err .functionNotSupported, s, t)

/-- One operation or key-management call on session `h` (dispatch of `src/fns/mod.rs`). -/
def opStep (e : Env) (h : Nat) (c : OCall) (s : Session) (t : Token) : Out × Session × Token :=
  match c with
  | .opInit k none _ _ => (.ok, s.cancelOp k, t)
  | .opInit k (some (m, param)) key sig =>
    let (r, s) := if k = .digest then fnInitDigest M e m param s t
      else fnInitKey M C e k m param key sig s t
    (Out.of r, s, t)
  | .opRun k a i => fnOpRun M C e k a i s t
  | .digestKey key =>
    let (r, s) := fnDigestKey M C e key s t
    (Out.of r, s, t)
  | .digestEncrypt i =>
    let (o, s) := fnDual M e .enc .digest i s
    (o, s, t)
  | .decryptDigest i =>
    let (o, s) := fnDual M e .dec .digest i s
    (o, s, t)
  | .signEncrypt i =>
    let (o, s) := fnDual M e .enc .sign i s
    (o, s, t)
  | .decryptVerify i =>
    let (o, s) := fnDual M e .dec .verify i s
    (o, s, t)
  | .cancel flags =>
    let (o, s) := fnCancel flags s
    (o, s, t)
  | .generateKey m p tm =>
    let (r, t) := fnGenKey M C e h m p tm s t
    (Out.ofHandle r, s, t)
  | .generatePair m p pub priv =>
    let (r, t) := fnGenPair M C e h m p pub priv s t
    match r with
    | .error r => (.err r, s, t)
    | .ok (a, b) => (.handles [a, b], s, t)
  | .wrap m p w k out => (fnWrap M C e m p w k out t, s, t)
  | .unwrap m p key data tm =>
    let (r, t) := fnUnwrap M C e h m p key data tm s t
    (Out.ofHandle r, s, t)
  | .derive m p key tm =>
    let (r, t) := fnDerive M C e h m p key tm s t
    match r with
    | .error r => (.err r, s, t)
    | .ok l => (.handles l, s, t)
  | .encapsulate m key tm out =>
    let (o, t) := fnEncap M C e h m key tm out s t
    (o, s, t)
  | .decapsulate m key data tm =>
    let (r, t) := fnDecap M C e h m key data tm s t
    (Out.ofHandle r, s, t)

end Kry
