import Verif.Model.Der
import Verif.Model.Ops

/-! Private keys as PKCS#8 data: RSA (`src/rsa.rs`) and elliptic curves (`src/ec/mod.rs`), and the public key information of RSA keys. -/

namespace Kry

/-- Contents of the AlgorithmIdentifier `RSA_ALG` (`src/kasn1/pkcs.rs:95-98`, `RSA_OID` in `src/kasn1/pyca/oid.rs`): the OID 1.2.840.113549.1.1.1 and NULL. -/
def rsaAlg : Bytes := [0x06, 0x09, 0x2a, 0x86, 0x48, 0x86, 0xf7, 0x0d, 0x01, 0x01, 0x01, 0x05, 0x00]

/-- `PrivateKeyInfo::new` and `write_single` (`src/kasn1/mod.rs:209-219`, `src/rsa.rs:454-459`): version 0, algorithm, key. -/
def pkcs8 (alg key : Bytes) : Bytes := derTlv 0x30 (derTlv 2 [0] ++ (derTlv 0x30 alg ++ derTlv 4 key))

/-- `tlv.parse::<PrivateKeyInfo>` (`src/kasn1/mod.rs:197-204`) of an element: contents of the algorithm and the key.  The attributes, in an element with tag
[1], are dropped by the callers; whether they parse is the parameter `attrsOk`.  The contents of the algorithm are not parsed: callers compare them with the
encodings they know, and a parse error there has the return code of a mismatch. -/
def parsePkcs8 (attrsOk : Bytes → Bool) (c : Bytes) : Der (Bytes × Bytes) :=
  match u64Field c with
  | .error e => .error e
  | .ok (_, r) => match derField 0x30 r with
    | .error e => .error e
    | .ok (alg, r) => match derField 4 r with
      | .error e => .error e
      | .ok (key, r) =>
        if r = [] then .ok (alg, key)
        else match derField 0xa1 r with
          | .error e => .error e
          | .ok (a, r) => if attrsOk a && r == [] then .ok (alg, key) else .error .bad

/-- `strip_tlv`, the check of the padding, and the parser (`src/rsa.rs:481-492`, `src/ec/mod.rs:314-326`). -/
def openPkcs8 (attrsOk : Bytes → Bool) (data : Bytes) : Der (Bytes × Bytes) :=
  match derRead data with
  | none => .error .bad
  | some (t, c, extra) =>
    if !extra.all (· == 0) then .error .bad
    else if t ≠ 0x30 then .error .bad
    else parsePkcs8 attrsOk c

/-! ### RSA -/

/-- The components of a private key, in the order of `RSAPrivateKey` (`src/rsa.rs:310-321`). -/
def rsaTypes : List Nat :=
  [CKA_MODULUS, CKA_PUBLIC_EXPONENT, CKA_PRIVATE_EXPONENT, CKA_PRIME_1, CKA_PRIME_2, CKA_EXPONENT_1, CKA_EXPONENT_2, CKA_COEFFICIENT]

/-- The arguments of `RSAPrivateKey::new_owned` (`src/rsa.rs:441-450`). -/
def getAll (o : Obj) : List Nat → Res (List Bytes)
  | [] => .ok []
  | t :: ts => match o.getBytes t with
    | .error r => .error r
    | .ok v => match getAll o ts with
      | .error r => .error r
      | .ok l => .ok (v :: l)

/-- `DerEncBigUint::new` of each (`src/rsa.rs:335-346`). -/
def derUints : List Bytes → Res (List Bytes)
  | [] => .ok []
  | b :: bs => match derUint b with
    | .error r => .error r
    | .ok d => match derUints bs with
      | .error r => .error r
      | .ok l => .ok (d :: l)

/-- The key part of `export_for_wrapping` (`src/rsa.rs:441-460`). -/
def rsaExport (o : Obj) : Res Bytes :=
  match getAll o rsaTypes with
  | .error r => .error r
  | .ok vs => match derUints vs with
    | .error r => .error r
    | .ok ds => .ok (pkcs8 rsaAlg (derTlv 0x30 (derTlv 2 [0] ++ (ds.map derInt).flatten)))

/-- Reads `n` numbers. -/
def uintFields : Nat → Bytes → Der (List Bytes × Bytes)
  | 0, b => .ok ([], b)
  | n + 1, b => match uintField b with
    | .error e => .error e
    | .ok (d, r) => match uintFields n r with
      | .error e => .error e
      | .ok (l, r) => .ok (d :: l, r)

/-- `SequenceOf<OtherPrimeInfo>` (`src/rsa.rs:299-304`, `:320`): every element is parsed and dropped.  `fuel` is at least the number of bytes. -/
def otherPrimes : Nat → Bytes → Der Unit
  | 0, b => if b = [] then .ok () else .error .bad
  | fuel + 1, b =>
    if b = [] then .ok ()
    else match derField 0x30 b with
      | .error e => .error e
      | .ok (c, r) => match uintFields 3 c with
        | .error e => .error e
        | .ok (_, x) => if x = [] then otherPrimes fuel r else .error .bad

/-- `parse_single::<RSAPrivateKey>` (`src/rsa.rs:309-321`): the version is not looked at. -/
def parseRsa (b : Bytes) : Der (List Bytes) :=
  match derSeq b with
  | .error e => .error e
  | .ok c => match u64Field c with
    | .error e => .error e
    | .ok (_, r) => match uintFields 8 r with
      | .error e => .error e
      | .ok (l, r) =>
        if r = [] then .ok l
        else match derField 0x30 r with
          | .error e => .error e
          | .ok (c, r) => match otherPrimes c.length c with
            | .error e => .error e
            | .ok () => if r = [] then .ok l else .error .bad

/-- `SubjectPublicKeyInfo` of an RSA key (`src/rsa.rs:183-191`, `src/kasn1/pkcs.rs:287-333`); a bit string starts with the number of unused bits. -/
def rsaSpkiDer (n e : Bytes) : Res Bytes :=
  match derUints [n, e] with
  | .error r => .error r
  | .ok ds => .ok (derTlv 0x30 (derTlv 0x30 rsaAlg ++ derTlv 3 (0 :: derTlv 0x30 (ds.map derInt).flatten)))

/-- `import_from_wrapped` after `key_unwrap` (`src/rsa.rs:477-538`): the attributes that are ensured, in order. -/
def rsaImport (attrsOk : Bytes → Bool) (o : Obj) (data : Bytes) : Res (List Attr) :=
  match o.ensureUlong CKA_CLASS CKO_PRIVATE_KEY with
  | .error r => .error r
  | .ok o => match o.ensureUlong CKA_KEY_TYPE CKK_RSA with
    | .error _ => .error .templateInconsistent
    | .ok o => match (openPkcs8 attrsOk data).toRes .wrappedKeyInvalid with
      | .error r => .error r
      | .ok (alg, key) =>
        if alg ≠ rsaAlg then .error .wrappedKeyInvalid
        else match (parseRsa key).toRes .wrappedKeyInvalid with
          | .error r => .error r
          | .ok ds =>
            let l := (rsaTypes.zip ds).map fun p => Attr.ofBytes p.1 (nopad p.2)
            match ensureAll o l with
            | .error r => .error r
            | .ok o => match o.getBytes CKA_MODULUS with
              | .error r => .error r
              | .ok n => match o.getBytes CKA_PUBLIC_EXPONENT with
                | .error r => .error r
                | .ok e => match rsaSpkiDer n e with
                  | .error r => .error r
                  | .ok info => .ok (Attr.ofUlong CKA_CLASS CKO_PRIVATE_KEY :: Attr.ofUlong CKA_KEY_TYPE CKK_RSA :: (l ++ [Attr.ofBytes CKA_PUBLIC_KEY_INFO info]))

/-! ### Elliptic curves -/

/-- The curves (`src/ec/mod.rs:83-95`). -/
inductive Curve
  | p256 | p384 | p521 | ed25519 | ed448 | x25519 | x448
deriving DecidableEq, Repr

/-- Contents of the OIDs (`EC_SECP256R1` … in `src/kasn1/oid.rs`, `src/kasn1/pyca/oid.rs`). -/
def Curve.oid : Curve → Bytes
  | .p256 => [0x2a, 0x86, 0x48, 0xce, 0x3d, 0x03, 0x01, 0x07]
  | .p384 => [0x2b, 0x81, 0x04, 0x00, 0x22]
  | .p521 => [0x2b, 0x81, 0x04, 0x00, 0x23]
  | .ed25519 => [0x2b, 0x65, 0x70]
  | .ed448 => [0x2b, 0x65, 0x71]
  | .x25519 => [0x2b, 0x65, 0x6e]
  | .x448 => [0x2b, 0x65, 0x6f]

/-- The names of `curvename_to_oid` (`src/ec/mod.rs:74-80`, `:125-136`). -/
def Curve.names : Curve → Bytes
  | .p256 => [0x70, 0x72, 0x69, 0x6d, 0x65, 0x32, 0x35, 0x36, 0x76, 0x31]
  | .p384 => [0x73, 0x65, 0x63, 0x70, 0x33, 0x38, 0x34, 0x72, 0x31]
  | .p521 => [0x73, 0x65, 0x63, 0x70, 0x35, 0x32, 0x31, 0x72, 0x31]
  | .ed25519 => [0x65, 0x64, 0x77, 0x61, 0x72, 0x64, 0x73, 0x32, 0x35, 0x35, 0x31, 0x39]
  | .ed448 => [0x65, 0x64, 0x77, 0x61, 0x72, 0x64, 0x73, 0x34, 0x34, 0x38]
  | .x25519 => [0x63, 0x75, 0x72, 0x76, 0x65, 0x32, 0x35, 0x35, 0x31, 0x39]
  | .x448 => [0x63, 0x75, 0x72, 0x76, 0x65, 0x34, 0x34, 0x38]

def Curve.all : List Curve := [.p256, .p384, .p521, .ed25519, .ed448, .x25519, .x448]

/-- Contents of the AlgorithmIdentifiers (`src/kasn1/pkcs.rs:102-153`): `id-ecPublicKey` and the curve, or the curve alone. -/
def Curve.alg (c : Curve) : Bytes :=
  match c with
  | .p256 | .p384 | .p521 => derTlv 6 [0x2a, 0x86, 0x48, 0xce, 0x3d, 0x02, 0x01] ++ derTlv 6 c.oid
  | _ => derTlv 6 c.oid

/-- The key type of a curve (`src/ec/mod.rs:344-367`). -/
def Curve.keyType : Curve → Nat
  | .p256 | .p384 | .p521 => CKK_EC
  | .ed25519 | .ed448 => CKK_EC_EDWARDS
  | .x25519 | .x448 => CKK_EC_MONTGOMERY

/-- `get_oid_from_obj` (`src/ec/mod.rs:139-149`) as `export_for_wrapping` uses it: the OID or the name of a known curve; every failure is CKR_GENERAL_ERROR
(`src/ec/mod.rs:263-266`, `:294`). -/
def curveOf (o : Obj) : Res Curve :=
  match o.getBytes CKA_EC_PARAMS with
  | .error _ => .error .generalError
  | .ok p =>
    match Curve.all.find? fun c => p == derTlv 6 c.oid || p == derTlv 0x13 c.names with
    | some c => .ok c
    | none => .error .generalError

/-- The key part of `export_for_wrapping` (`src/ec/mod.rs:263-301`), with `ECPrivateKey::new_owned` (`src/kasn1/pkcs.rs:64-74`). -/
def ecExport (o : Obj) : Res Bytes :=
  match o.getUlong CKA_KEY_TYPE with
  | .error r => .error r
  | .ok kt => match curveOf o with
    | .error r => .error r
    | .ok c => match o.getBytes CKA_VALUE with
      | .error r => .error r
      | .ok v =>
        if kt = CKK_EC then .ok (pkcs8 c.alg (derTlv 0x30 (derTlv 2 [1] ++ derTlv 4 v)))
        else if kt = CKK_EC_EDWARDS ∨ kt = CKK_EC_MONTGOMERY then .ok (pkcs8 c.alg v)
        else .error .generalError

/-- `parse_single::<ECPrivateKey>` (`src/kasn1/pkcs.rs:39-62`): the optional parts with tags [0] and [1] are dropped; whether they parse is `optOk`. -/
def parseEc (optOk : Bytes → Bool) (b : Bytes) : Der Bytes :=
  match derSeq b with
  | .error e => .error e
  | .ok c => match u64Field c with
    | .error e => .error e
    | .ok (_, r) => match derField 4 r with
      | .error e => .error e
      | .ok (v, r) => if r == [] || optOk r then .ok v else .error .bad

/-- `import_from_wrapped` (`src/ec/mod.rs:304-370`): the attributes that are ensured. -/
def ecImport (attrsOk optOk : Bytes → Bool) (kt : Nat) (o : Obj) (data : Bytes) : Res (List Attr) :=
  match o.ensureUlong CKA_CLASS CKO_PRIVATE_KEY with
  | .error _ => .error .templateInconsistent
  | .ok o => match o.ensureUlong CKA_KEY_TYPE kt with
    | .error _ => .error .templateInconsistent
    | .ok o => match (openPkcs8 attrsOk data).toRes .wrappedKeyInvalid with
      | .error r => .error r
      | .ok (alg, key) => match Curve.all.find? fun c => alg == c.alg with
        | none => .error .wrappedKeyInvalid
        | some c => match ensureAll o [Attr.ofBytes CKA_EC_PARAMS (derTlv 6 c.oid)] with
          | .error r => .error r
          | .ok _ =>
            if c.keyType ≠ kt then .error .templateInconsistent
            else match (if kt = CKK_EC then (parseEc optOk key).toRes .wrappedKeyInvalid else .ok key) with
              | .error r => .error r
              | .ok v => .ok [Attr.ofUlong CKA_CLASS CKO_PRIVATE_KEY, Attr.ofUlong CKA_KEY_TYPE kt, Attr.ofBytes CKA_EC_PARAMS (derTlv 6 c.oid), Attr.ofBytes CKA_VALUE v]

/-- The machine with these encodings in the place of the parameters. -/
def withPkcs8 (attrsOk optOk : Bytes → Bool) (M : Mechs) : Mechs :=
  { M with
    exportPriv := fun o => match o.getUlong CKA_KEY_TYPE with
      | .ok k => if k = CKK_RSA then rsaExport o else ecExport o
      | .error r => .error r
    importAttrs := fun k o data => match k with
      | .rsaPriv => rsaImport attrsOk o data
      | .ecPriv => ecImport attrsOk optOk CKK_EC o data
      | .edPriv => ecImport attrsOk optOk CKK_EC_EDWARDS o data
      | .montPriv => ecImport attrsOk optOk CKK_EC_MONTGOMERY o data
      | _ => M.importAttrs k o data }

end Kry
