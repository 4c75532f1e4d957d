import Verif.Model.Ops
import Verif.Model.Der

/-!
# ML-KEM and ML-DSA key objects

Import checks of `src/mlkem.rs` and `src/mldsa.rs` (the two files are alike), `extract_public_key` of `src/ossl/common.rs` and the derivation of a public key
from a private key (`src/native/simplekdf.rs:398-561`) for these types.  OpenSSL and the parser of `SubjectPublicKeyInfo` are `MlEnv`.
-/

namespace Kry

/-- The algorithms. -/
inductive MlAlg
  | kem | dsa
deriving DecidableEq, Repr

/-- The parameter sets. -/
inductive MlSet
  | kem512 | kem768 | kem1024 | dsa44 | dsa65 | dsa87
deriving DecidableEq, Repr

/-- OpenSSL and the ASN.1 library.
* `expand`: `EvpPkey::import` of a seed and the private key of `export` (`src/ossl/mlkem.rs:163-176`, `src/ossl/mldsa.rs:824-837`);
* `pubOf`: `EvpPkey::import` of a private key with its seed and the public key of `export` (`src/ossl/common.rs:213-236`);
* `parse`: `asn1::parse_single::<SubjectPublicKeyInfo>`, the bytes of the bit string (`src/ossl/common.rs:206-209`). -/
structure MlEnv where
  expand : MlSet → Bytes → Res (Option Bytes)
  pubOf : MlSet → Bytes → Option Bytes → Res (Option Bytes)
  parse : Bytes → Option Bytes

/-- The matches on the parameter set (`src/mlkem.rs:119-136`, `:244-261`, `src/ossl/mlkem.rs:20-29`, `src/mldsa.rs:126-143`, `:251-268`). -/
def MlAlg.set : MlAlg → Nat → Option MlSet
  | .kem, n =>
    if n = CKP_ML_KEM_512 then some .kem512 else if n = CKP_ML_KEM_768 then some .kem768
    else if n = CKP_ML_KEM_1024 then some .kem1024 else none
  | .dsa, n =>
    if n = CKP_ML_DSA_44 then some .dsa44 else if n = CKP_ML_DSA_65 then some .dsa65
    else if n = CKP_ML_DSA_87 then some .dsa87 else none

/-- The key type. -/
def MlAlg.keyType : MlAlg → Nat
  | .kem => CKK_ML_KEM
  | .dsa => CKK_ML_DSA

/-- `ML_KEM_*_EK_SIZE` (`src/mlkem.rs:24-26`), `ML_DSA_*_PK_SIZE` (`src/mldsa.rs:23-28`). -/
def MlSet.pkSize : MlSet → Nat
  | .kem512 => 800
  | .kem768 => 1184
  | .kem1024 => 1568
  | .dsa44 => 1312
  | .dsa65 => 1952
  | .dsa87 => 2592

/-- `ML_KEM_*_DK_SIZE` (`src/mlkem.rs:28-30`), `ML_DSA_*_SK_SIZE` (`src/mldsa.rs:23-28`). -/
def MlSet.skSize : MlSet → Nat
  | .kem512 => 1632
  | .kem768 => 2400
  | .kem1024 => 3168
  | .dsa44 => 2560
  | .dsa65 => 4032
  | .dsa87 => 4896

/-- The length of a seed (`src/mlkem.rs:235`, `src/mldsa.rs:242`). -/
def MlAlg.seedLen : MlAlg → Nat
  | .kem => 64
  | .dsa => 32

/-- The last two arcs of the algorithm's identifier (`src/kasn1/oid.rs:28-41`). -/
def MlSet.arcs : MlSet → Bytes
  | .kem512 => [4, 1]
  | .kem768 => [4, 2]
  | .kem1024 => [4, 3]
  | .dsa44 => [3, 17]
  | .dsa65 => [3, 18]
  | .dsa87 => [3, 19]

/-- `SubjectPublicKeyInfo::new` and `serialize` (`src/kasn1/pkcs.rs:287-306`) with the identifier 2.16.840.1.101.3.4.x.y without parameters. -/
def mlSpki (s : MlSet) (pk : Bytes) : Bytes :=
  derTlv 0x30 (derTlv 0x30 (derTlv 6 ([0x60, 0x86, 0x48, 0x01, 0x65, 0x03, 0x04] ++ s.arcs)) ++ derTlv 3 (0 :: pk))

/-- `get_attr_as_ulong(CKA_PARAMETER_SET)` with the error replaced (`src/mlkem.rs:114-117`, `:229-232`). -/
def mlParam (o : Obj) : Res Nat :=
  match o.getUlong CKA_PARAMETER_SET with
  | .ok p => .ok p
  | .error _ => .error .templateIncomplete

/-- `mlkem_pub_check_import` (`src/mlkem.rs:113-141`), `mldsa_pub_check_import` (`src/mldsa.rs:120-148`). -/
def mlPubCheck (A : MlAlg) (o : Obj) : Res Unit :=
  match mlParam o with
  | .error r => .error r
  | .ok p => match o.getBytes CKA_VALUE with
    | .error _ => .error .templateIncomplete
    | .ok v => match A.set p with
      | none => .error .parameterSetNotSupported
      | some s => if v.length ≠ s.pkSize then .error .attrValueInvalid else .ok ()

/-- `verify_private_key` (`src/ossl/mlkem.rs:158-189`, `src/ossl/mldsa.rs:819-850`). -/
def mlVerify (E : MlEnv) (A : MlAlg) (p : Nat) (seed : Bytes) (key : Option Bytes) : Res (Option Bytes) :=
  match A.set p with
  | none => .error .attrValueInvalid
  | some s => match E.expand s seed with
    | .error r => .error r
    | .ok none => .error .keyIndigestible
    | .ok (some k) => match key with
      | some v => if v = k then .ok none else .error .keyIndigestible
      | none => .ok (some k)

/-- The seed of `mlkem_priv_check_import` (`src/mlkem.rs:233-241`). -/
def mlSeed (A : MlAlg) (o : Obj) : Res (Option Bytes) :=
  match o.getBytes CKA_SEED with
  | .error _ => .ok none
  | .ok s => if s.length ≠ A.seedLen then .error .attrValueInvalid else .ok (some s)

/-- The private key of `mlkem_priv_check_import` (`src/mlkem.rs:242-265`). -/
def mlKey (A : MlAlg) (p : Nat) (o : Obj) : Res (Option Bytes) :=
  match o.getBytes CKA_VALUE with
  | .error _ => .ok none
  | .ok v => match A.set p with
    | none => .error .parameterSetNotSupported
    | some s => if v.length ≠ s.skSize then .error .attrValueInvalid else .ok (some v)

/-- `mlkem_priv_check_import` (`src/mlkem.rs:228-276`), `mldsa_priv_check_import` (`src/mldsa.rs:235-283`). -/
def mlPrivCheck (E : MlEnv) (A : MlAlg) (o : Obj) : Res Obj :=
  match mlParam o with
  | .error r => .error r
  | .ok p => match mlSeed A o with
    | .error r => .error r
    | .ok seed => match mlKey A p o with
      | .error r => .error r
      | .ok key => match seed, key with
        | none, none => .error .templateIncomplete
        | none, some _ => .ok o
        | some s, key => match mlVerify E A p s key with
          | .error r => .error r
          | .ok none => .ok o
          | .ok (some v) => .ok (o.put (Attr.ofBytes CKA_VALUE v))

/-- The fallback of `extract_public_key` (`src/ossl/common.rs:213-244`) with `mlkem_object_to_pkey` (`src/ossl/mlkem.rs:35-72`, `src/ossl/mldsa.rs:88-125`). -/
def mlPubLoaded (E : MlEnv) (A : MlAlg) (o : Obj) : Res Bytes :=
  match o.getUlong CKA_KEY_TYPE with
  | .error r => .error r
  | .ok kt =>
    if kt ≠ A.keyType then .error .keyTypeInconsistent
    else match o.getUlong CKA_CLASS with
      | .error r => .error r
      | .ok c =>
        if c ≠ CKO_PRIVATE_KEY then .error .keyTypeInconsistent
        else match o.getUlong CKA_PARAMETER_SET with
          | .error r => .error r
          | .ok p => match A.set p with
            | none => .error .attrValueInvalid
            | some s => match o.getBytes CKA_VALUE with
              | .error r => .error r
              | .ok v => match E.pubOf s v (o.getBytes CKA_SEED).toOption with
                | .error r => .error r
                | .ok none => .error .keyUnextractable
                | .ok (some pk) => .ok pk

/-- `extract_public_key` (`src/ossl/common.rs:201-244`) for these types: CKA_PUBLIC_KEY_INFO is believed when it is there. -/
def mlExtract (E : MlEnv) (A : MlAlg) (o : Obj) : Res Bytes :=
  match o.find CKA_PUBLIC_KEY_INFO with
  | none => mlPubLoaded E A o
  | some a =>
    if a.value = [] then mlPubLoaded E A o
    else match E.parse a.value with
      | none => .error .generalError
      | some pk => .ok pk

/-- `mlkem_public_key_info` (`src/mlkem.rs:36-66`), `mldsa_public_key_info` (`src/mldsa.rs:30-60`). -/
def mlInfo (A : MlAlg) (o : Obj) (pk : Option Bytes) : Res Obj :=
  let raw : Res Bytes := match pk with
    | some p => .ok p
    | none => o.getBytes CKA_VALUE
  match raw with
  | .error r => .error r
  | .ok raw => match o.getUlong CKA_PARAMETER_SET with
    | .error r => .error r
    | .ok p => match A.set p with
      | none => .error .parameterSetNotSupported
      | some s => o.ensureBytes CKA_PUBLIC_KEY_INFO (mlSpki s raw)

/-- `create` of the public key factories after `key_create` (`src/mlkem.rs:182-186`, `src/mldsa.rs:189-193`). -/
def mlPubRest (A : MlAlg) (o : Obj) : Res Obj :=
  match mlPubCheck A o with
  | .error r => .error r
  | .ok () => mlInfo A o none

/-- `create` of the private key factories after `key_create` (`src/mlkem.rs:329-334`, `src/mldsa.rs:327-332`). -/
def mlPrivRest (E : MlEnv) (A : MlAlg) (o : Obj) : Res Obj :=
  match mlPrivCheck E A o with
  | .error r => .error r
  | .ok o => match mlExtract E A o with
    | .error r => .error r
    | .ok pk => mlInfo A o (some pk)

/-- The attributes that may have changed, in the form in which `Oracle.asym` returns them (`Attribute::from_bytes`, `src/mlkem.rs:271`,
`src/object/mod.rs` `ensure_bytes`). -/
def mlChanged : Res Obj → Res (List Attr)
  | .error r => .error r
  | .ok o => .ok ([CKA_VALUE, CKA_PUBLIC_KEY_INFO].filterMap fun t => (o.find t).map fun a => Attr.ofBytes t a.value)

/-- The factories of these types in place of the parameter `asym`. -/
def withMl (O : Oracle) (E : MlEnv) : Oracle := { O with
  asym := fun k o => match k with
    | .mlkemPub => mlChanged (mlPubRest .kem o)
    | .mldsaPub => mlChanged (mlPubRest .dsa o)
    | .mlkemPriv => mlChanged (mlPrivRest E .kem o)
    | .mldsaPriv => mlChanged (mlPrivRest E .dsa o)
    | k => O.asym k o }

/-- Where a missing attribute of the public key comes from: a default, or an attribute of the private key (`src/native/simplekdf.rs:398-434`). -/
inductive PubRule
  | dflt (b : Bool)
  | copy (t : Nat)
deriving DecidableEq, Repr

/-- `PUBKEY_ATTR_DEFAULTS` (`src/native/simplekdf.rs:398-434`). -/
def pubRules : List (Nat × PubRule) := [
  (CKA_TOKEN, .dflt false), (CKA_PRIVATE, .dflt false), (CKA_MODIFIABLE, .dflt true), (CKA_COPYABLE, .dflt true), (CKA_DESTROYABLE, .dflt false),
  (CKA_ENCRYPT, .copy CKA_DECRYPT), (CKA_VERIFY, .copy CKA_SIGN), (CKA_VERIFY_RECOVER, .copy CKA_SIGN_RECOVER), (CKA_WRAP, .copy CKA_UNWRAP),
  (CKA_DERIVE, .copy CKA_DERIVE), (CKA_ID, .copy CKA_ID), (CKA_START_DATE, .copy CKA_START_DATE), (CKA_END_DATE, .copy CKA_END_DATE),
  (CKA_SUBJECT, .copy CKA_SUBJECT), (CKA_PUBLIC_KEY_INFO, .copy CKA_PUBLIC_KEY_INFO), (CKA_ENCAPSULATE, .copy CKA_DECAPSULATE)]

/-- `add_missing_bool`, `add_missing_slice` (`src/attribute.rs:843-884`). -/
def addIfMissing (tm : Template) (c : CkAttr) : Template := if tm.any (fun d => d.typ == c.typ) then tm else tm ++ [c]

/-- The loop over the rules (`src/native/simplekdf.rs:533-548`). -/
def applyRules (key : Obj) : List (Nat × PubRule) → Template → Template
  | [], tm => tm
  | (t, .dflt b) :: rest, tm => applyRules key rest (addIfMissing tm (CkAttr.ofBool t b))
  | (t, .copy s) :: rest, tm => match key.find s with
    | none => applyRules key rest tm
    | some a => applyRules key rest (addIfMissing tm (CkAttr.mk' t a.value))

/-- CKA_CLASS and CKA_KEY_TYPE: what the template has must be right, what it lacks is added (`src/native/simplekdf.rs:516-531`,
`src/attribute.rs:962-973`). -/
def ensureAsks (tm : Template) (t n : Nat) : Res Template :=
  match tm.find? (fun c => c.typ == t) with
  | none => .ok (tm ++ [CkAttr.ofUlong t n])
  | some c => match c.toUlong with
    | .error _ => .error .templateInconsistent
    | .ok m => if m ≠ n then .error .templateInconsistent else .ok tm

/-- `pub_from_private` (`src/mlkem.rs:208-220`, `src/mldsa.rs:215-227`); `create` of the factory is found through the class and type that were ensured. -/
def mlPubFrom (O : Oracle) (E : MlEnv) (A : MlAlg) (uid : Bytes) (key : Obj) (tm : Template) : Res Obj :=
  match key.getUlong CKA_PARAMETER_SET with
  | .error _ => .error .keyUnextractable
  | .ok p => match mlExtract E A key with
    | .error r => .error r
    | .ok pk => match getFactory CKO_PUBLIC_KEY A.keyType with
      | .error r => .error r
      | .ok F => F.create (withMl O E) uid (tm ++ [CkAttr.ofUlong CKA_PARAMETER_SET p, CkAttr.mk' CKA_VALUE pk])

/-- `PubFromPrivOperation::derive` (`src/native/simplekdf.rs:490-560`) for a key of this type. -/
def pubFromPriv (O : Oracle) (E : MlEnv) (A : MlAlg) (uid : Bytes) (key : Obj) (tm : Template) : Res Obj :=
  if !key.isPrivate then .error .keyTypeInconsistent
  else match ensureAsks tm CKA_CLASS CKO_PUBLIC_KEY with
    | .error r => .error r
    | .ok tm => match ensureAsks tm CKA_KEY_TYPE A.keyType with
      | .error r => .error r
      | .ok tm => match mlPubFrom O E A uid key (applyRules key pubRules tm) with
        | .error r => .error r
        | .ok o => match key.find CKA_KEY_GEN_MECHANISM with
          | none => .ok o
          | some a => o.setAttr a

/-- Which of the two a key is. -/
def mlAlgOf (key : Obj) : Option MlAlg :=
  match key.getUlong CKA_KEY_TYPE with
  | .error _ => none
  | .ok kt => if kt = CKK_ML_KEM then some .kem else if kt = CKK_ML_DSA then some .dsa else none

/-- CKM_PUB_KEY_FROM_PRIV_KEY with the parameter check of `PubFromPrivOperation::new` (`src/native/simplekdf.rs:449-463`); other mechanisms and key types are those
of `M`. -/
def withPub (M : Mechs) (O : Oracle) (E : MlEnv) : Mechs := { M with
  derive := fun e m q k l tm =>
    if m ≠ CKM_PUB_KEY_FROM_PRIV_KEY then M.derive e m q k l tm
    else match mlAlgOf k with
      | none => M.derive e m q k l tm
      | some A =>
        if q ≠ [] then .error .mechanismParamInvalid
        else match pubFromPriv O E A e.uid k tm with
          | .error r => .error r
          | .ok o => .ok [o] }

end Kry
