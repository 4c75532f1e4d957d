import Verif.Model.Factory

/-!
# Key derivations whose output is computed in the token itself (`src/native/simplekdf.rs`) and the object
part of ECDH/FFDH derivation (`src/ossl/ecdh.rs`, `src/ossl/ffdh.rs`)
-/

namespace Kry

/-- `is_always_sensitive` (`src/object/mod.rs:206`): missing reads as true. -/
def Obj.isAlwaysSensitive (o : Obj) : Bool := o.boolOr CKA_ALWAYS_SENSITIVE true
/-- `is_never_extractable` (`src/object/mod.rs:210`). -/
def Obj.isNeverExtractable (o : Obj) : Bool := o.boolOr CKA_NEVER_EXTRACTABLE false

/-- `KeyInfo` (`src/native/simplekdf.rs:27-38`). -/
structure KeyInfo where
  sensitive : Bool
  extractable : Bool
  alwaysSensitive : Bool
  neverExtractable : Bool
  value : Bytes
deriving DecidableEq, Repr

/-- `KeyInfo::new_from_object` (`src/native/simplekdf.rs:48-56`). -/
def KeyInfo.ofObj (o : Obj) : Res KeyInfo :=
  match o.getBytes CKA_VALUE with
  | .error e => .error e
  | .ok v => .ok ⟨o.isSensitive, o.isExtractable, o.isAlwaysSensitive, o.isNeverExtractable, v⟩

/-- `CkAttrs::find_attr` (`src/attribute.rs:916-924`). -/
def Template.findA (t : Template) (typ : Nat) : Option CkAttr := t.find? fun c => c.typ == typ

/-- `CkAttrs::add_missing_ulong` (`src/attribute.rs:859-868`). -/
def Template.addMissingUlong (t : Template) (typ v : Nat) : Template :=
  match Template.findA t typ with
  | some _ => t
  | none => t ++ [CkAttr.ofUlong typ v]

/-- The mechanisms of `SimpleKDFOperation` with their parameter, after `SimpleKDFOperation::new`
(`src/native/simplekdf.rs:85-140`) and `receives_objects` (`:160-170`): the other key of
CKM_CONCATENATE_BASE_AND_KEY is already its `KeyInfo`.  Empty data is refused by `new` (`:110-112`). -/
inductive SimpleKdf where
  | baseAndKey (other : KeyInfo)
  | baseAndData (d : Bytes)
  | dataAndBase (d : Bytes)
  | xor (d : Bytes)
  | extract (bitOffset : Nat)
deriving DecidableEq, Repr

/-- `secret.resize(n, 0)`. -/
def resize (v : Bytes) (n : Nat) : Bytes := v.take n ++ List.replicate (n - v.length) 0

/-- `u8 << n` for `n < 8`: the upper bits are lost. -/
def shl8 (b : UInt8) (n : Nat) : Nat := (b.toNat * 2 ^ n) % 256

/-- `u8 >> n` as the release build computes it: the shift count is taken modulo 8 (the debug build
panics when `n` is 8). -/
def shr8 (b : UInt8) (n : Nat) : Nat := b.toNat / 2 ^ (n % 8)

/-- One byte of CKM_EXTRACT_KEY_FROM_KEY (`src/native/simplekdf.rs:341-351`). -/
def extractByte (v : Bytes) (bitOffset i : Nat) : UInt8 :=
  let sh := bitOffset % 8
  let base := (bitOffset - sh) / 8
  let a := v.getD ((base + i) % v.length) 0
  let b := v.getD ((base + i + 1) % v.length) 0
  UInt8.ofNat (shl8 a sh ||| shr8 b (8 - sh))

/-- The output bytes (`src/native/simplekdf.rs:284-354`) for a base value and a key length that passed
the length check. -/
def SimpleKdf.output (k : SimpleKdf) (base : Bytes) (keylen : Nat) : Bytes :=
  match k with
  | .baseAndKey other => resize (base ++ other.value) keylen
  | .baseAndData d => resize (base ++ d) keylen
  | .dataAndBase d => resize (d ++ base) keylen
  | .xor d => resize (d.zipIdx.map fun (x, i) => match base[i]? with | some b => x ^^^ b | none => x) keylen
  | .extract off => (List.range keylen).map fun i => extractByte base off i

/-- `outlen` (`src/native/simplekdf.rs:246-261`). -/
def SimpleKdf.outlen (k : SimpleKdf) (base : Bytes) : Nat :=
  match k with
  | .baseAndKey other => base.length + other.value.length
  | .baseAndData d | .dataAndBase d => base.length + d.length
  | .xor d => min base.length d.length
  | .extract _ => base.length

/-- The length check (`src/native/simplekdf.rs:276-288`).  `bitOffset + 7` wraps in a release build. -/
def SimpleKdf.lenOk (k : SimpleKdf) (base : Bytes) (keylen : Nat) : Bool :=
  match k with
  | .extract off => !(decide (keylen * 8 > base.length * 8)) && !(decide (((off + 7) % 2 ^ 64) / 8 > base.length * 8))
  | _ => !(decide (keylen > k.outlen base))

/-- Attribute changes of CKM_CONCATENATE_BASE_AND_KEY (`src/native/simplekdf.rs:205-244`). -/
def baseAndKeyAttrs (base other : KeyInfo) (t : Template) (o : Obj) : Res Obj :=
  let sens : Res Bool :=
    if base.sensitive || other.sensitive then .ok true
    else match Template.findA t CKA_SENSITIVE with
      | some c => c.toBool
      | none => .ok false
  match sens with
  | .error e => .error e
  | .ok s =>
    let o := o.setBool CKA_SENSITIVE s
    let ext : Res Bool :=
      if base.extractable && other.extractable then
        match Template.findA t CKA_EXTRACTABLE with
        | some c => c.toBool
        | none => .ok true
      else .ok false
    match ext with
    | .error e => .error e
    | .ok x =>
      let o := o.setBool CKA_EXTRACTABLE x
      let o := o.setBool CKA_ALWAYS_SENSITIVE (base.alwaysSensitive && other.alwaysSensitive)
      .ok (o.setBool CKA_NEVER_EXTRACTABLE (base.neverExtractable && other.neverExtractable))

/-- `SimpleKDFOperation::derive` (`src/native/simplekdf.rs:177-363`). -/
def simpleDerive (k : SimpleKdf) (uid : Bytes) (key : Obj) (t : Template) : Res Obj :=
  match key.checkKeyOps CKO_SECRET_KEY CK_UNAVAILABLE_INFORMATION CKA_DERIVE with
  | .error e => .error e
  | .ok () => match KeyInfo.ofObj key with
    | .error e => .error e
    | .ok base =>
      let tm := (Template.addMissingUlong t CKA_CLASS CKO_SECRET_KEY).addMissingUlong CKA_KEY_TYPE CKK_GENERIC_SECRET
      match keyTemplateFactory tm with
      | .error e => .error e
      | .ok F =>
        match (if keyClass F.cls then keyDerive F uid tm key else .error .generalError) with
        | .error e => .error e
        | .ok o =>
          let o' : Res Obj := match k with
            | .baseAndKey other => baseAndKeyAttrs base other tm o
            | _ => .ok o
          match o' with
          | .error e => .error e
          | .ok o =>
            let keylen : Res Nat := match Template.findA tm CKA_VALUE_LEN with
              | some c => c.toUlong
              | none =>
                if F.cls = CKO_SECRET_KEY ∨ F.cls = CKO_OTP_KEY then
                  match recommendKeySize F (k.outlen base.value) with
                  | .ok n => .ok n
                  | .error _ => .error .templateInconsistent
                else .error .generalError
            match keylen with
            | .error e => .error e
            | .ok n =>
              if k.lenOk base.value n then
                if F.cls = CKO_SECRET_KEY ∨ F.cls = CKO_OTP_KEY then setKey F o (k.output base.value n)
                else .error .generalError
              else .error .templateInconsistent

/-- The object part of ECDH and FFDH derivation, for the agreed secret `secret`
(`src/ossl/ecdh.rs:231-240`, `src/ossl/ffdh.rs:230-238`): the template plus CKA_VALUE is *created*, then
treated as a generated key. -/
def agreementDerive (O : Oracle) (uid : Bytes) (mech : Nat) (t : Template) (secret : Bytes) : Res Obj :=
  match keyTemplateFactory t with
  | .error e => .error e
  | .ok F => match F.create O uid (t ++ [CkAttr.mk' CKA_VALUE secret]) with
    | .error e => .error e
    | .ok o => .ok (defaultKeyAttributes o mech)

end Kry
