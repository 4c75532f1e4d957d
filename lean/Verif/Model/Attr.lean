import Verif.Model.AttrMap

/-!
# Attributes

`src/attribute.rs` (`Attribute`) and the `CK_ATTRIBUTE` accessors of `src/pkcs11/mod.rs`.
-/

namespace Kry

/-- `Attribute` of `src/attribute.rs:306-310`. -/
structure Attr where
  typ : Nat
  atype : AttrType
  value : Bytes
deriving DecidableEq, Repr, Inhabited

/-- What `pValue`/`ulValueLen` of a caller-supplied `CK_ATTRIBUTE` denote: a NULL pointer with a
claimed length, or a readable buffer of exactly `ulValueLen` bytes.  (A pointer to less memory than
`ulValueLen` is a caller error outside the model.) -/
inductive PVal where
  | null (len : Nat)
  | data (bs : Bytes)
deriving DecidableEq, Repr, Inhabited

/-- An input `CK_ATTRIBUTE` (`type_`, `pValue`, `ulValueLen`), bindgen struct from
`src/pkcs11/headers/3.2/pkcs11.h`. -/
structure CkAttr where
  typ : Nat
  pval : PVal
deriving DecidableEq, Repr, Inhabited

/-- `ulValueLen`. -/
def PVal.len : PVal → Nat
  | .null n => n
  | .data bs => bs.length

/-- Convenience: an input attribute with a proper buffer. -/
abbrev CkAttr.mk' (t : Nat) (bs : Bytes) : CkAttr := ⟨t, .data bs⟩

/-- Convenience: boolean input attribute (`CK_TRUE`/`CK_FALSE`). -/
abbrev CkAttr.ofBool (t : Nat) (b : Bool) : CkAttr := ⟨t, .data [if b then 1 else 0]⟩

/-- Convenience: `CK_ULONG` input attribute. -/
abbrev CkAttr.ofUlong (t : Nat) (n : Nat) : CkAttr := ⟨t, .data (ulongBytes n)⟩

/-- A template. -/
abbrev Template := List CkAttr

/-- `Attrmap::search_by_id` (`src/attribute.rs:82-91`).  The Rust code does a binary search over the
static table; this is the linear search, and `Props/C37` shows that a binary search returns the same
entry because the table is strictly sorted. -/
def attrKind (id : Nat) : Option AttrType := AMap.get attrMap id

/-- `CK_ATTRIBUTE::to_ulong` (`src/pkcs11/mod.rs:915-920`); a NULL pointer of the right length is
dereferenced. -/
def CkAttr.toUlong (a : CkAttr) : Res Nat :=
  if a.pval.len ≠ ulongSize then .error .attrValueInvalid
  else match a.pval with
    | .null _ => .error .panic
    | .data bs => .ok (fromLE bs)

/-- `CK_ATTRIBUTE::to_bool` (`src/pkcs11/mod.rs:925-935`). -/
def CkAttr.toBool (a : CkAttr) : Res Bool :=
  if a.pval.len ≠ 1 then .error .attrValueInvalid
  else match a.pval with
    | .null _ => .error .panic
    | .data bs => .ok (bs.headD 0 ≠ 0)

/-- `CK_ATTRIBUTE::to_string` (`src/pkcs11/mod.rs:941-958`); strings are kept as their UTF-8
bytes. -/
def CkAttr.toStr (a : CkAttr) : Res Bytes :=
  if a.pval.len = 0 then .ok []
  else match a.pval with
    | .null _ => .error .attrValueInvalid
    | .data bs => if validUtf8 bs then .ok bs else .error .attrValueInvalid

/-- `CK_ATTRIBUTE::to_slice` (`src/pkcs11/mod.rs:963-976`). -/
def CkAttr.toSlice (a : CkAttr) : Res Bytes :=
  if a.pval.len = 0 then .ok []
  else match a.pval with
    | .null _ => .error .attrValueInvalid
    | .data bs => .ok bs

/-- `CK_ATTRIBUTE::to_buf` (`src/pkcs11/mod.rs:981-983`, macro `bytes_to_vec!` at `:844-859`):
NULL reads as empty. -/
def CkAttr.toBuf (a : CkAttr) : Bytes :=
  match a.pval with
  | .null _ => []
  | .data bs => bs

/-- Every byte is an ASCII digit (loop of `vec_to_date_validate`, `src/pkcs11/mod.rs:876-880`). -/
def allDigits (bs : Bytes) : Bool := bs.all fun b => decide (48 ≤ b.toNat) && decide (b.toNat ≤ 57)

/-- `vec_to_date_validate` (`src/pkcs11/mod.rs:872-886`); a `CK_DATE` is kept as its 8 bytes. -/
def vecToDate (bs : Bytes) : Res Bytes :=
  if bs.length ≠ 8 then .error .attrValueInvalid
  else if allDigits bs then .ok bs else .error .attrValueInvalid

/-- `CK_ATTRIBUTE::to_date` (`src/pkcs11/mod.rs:988-1004`): an empty value reads as
`0000-00-00`. -/
def CkAttr.toDate (a : CkAttr) : Res Bytes :=
  if a.pval.len = 0 then .ok (List.replicate 8 48)
  else match a.pval with
    | .null _ => .error .attrValueInvalid
    | .data bs => if bs.length ≠ 8 then .error .attrValueInvalid else vecToDate bs

/-- `string_to_ck_date` (`src/pkcs11/mod.rs:891-909`). -/
def stringToDate (s : Bytes) : Res Bytes :=
  match s with
  | [y0, y1, y2, y3, d1, m0, m1, d2, a0, a1] =>
    if d1 ≠ 45 ∨ d2 ≠ 45 then .error .attrValueInvalid
    else vecToDate [y0, y1, y2, y3, m0, m1, a0, a1]
  | _ => .error .attrValueInvalid

/-- `Attribute::from_bool` (`src/attribute.rs:509-515`). -/
def Attr.ofBool (t : Nat) (b : Bool) : Attr := ⟨t, .bool, [if b then 1 else 0]⟩

/-- `Attribute::from_ulong` (`src/attribute.rs:520-526`). -/
def Attr.ofUlong (t : Nat) (n : Nat) : Attr := ⟨t, .num, ulongBytes n⟩

/-- `Attribute::from_string` (`src/attribute.rs:540-546`). -/
def Attr.ofString (t : Nat) (s : Bytes) : Attr := ⟨t, .string, s⟩

/-- `Attribute::from_bytes` (`src/attribute.rs:551-557`). -/
def Attr.ofBytes (t : Nat) (v : Bytes) : Attr := ⟨t, .bytes, v⟩

/-- `Attribute::from_ulong_array` (`src/attribute.rs:562-575`). -/
def Attr.ofUlongArray (t : Nat) (v : List Nat) : Attr := ⟨t, .ulongArray, v.flatMap ulongBytes⟩

/-- `Attribute::from_ulong_bytevec` (`src/attribute.rs:498-504`). -/
def Attr.ofUlongBytes (t : Nat) (v : Bytes) : Attr := ⟨t, .ulongArray, v⟩

/-- `Attribute::from_date_bytes` / `from_date` (`src/attribute.rs:464-470`, `580-595`). -/
def Attr.ofDate (t : Nat) (v : Bytes) : Attr := ⟨t, .date, v⟩

/-- `Attribute::from_ignore` (`src/attribute.rs:473-479`). -/
def Attr.ofIgnore (t : Nat) : Attr := ⟨t, .ignore, []⟩

/-- `Attribute::to_bool` (`src/attribute.rs:353-364`). -/
def Attr.toBool (a : Attr) : Res Bool :=
  if a.atype ≠ .bool then .error .attrTypeInvalid
  else match a.value with
    | [b] => .ok (b ≠ 0)
    | _ => .error .attrValueInvalid

/-- `Attribute::to_ulong` (`src/attribute.rs:370-380`). -/
def Attr.toUlong (a : Attr) : Res Nat :=
  if a.atype ≠ .num then .error .attrTypeInvalid
  else if a.value.length ≠ ulongSize then .error .attrValueInvalid
  else .ok (fromLE a.value)

/-- `Attribute::to_string` (`src/attribute.rs:386-394`). -/
def Attr.toStr (a : Attr) : Res Bytes :=
  if a.atype ≠ .string then .error .attrTypeInvalid
  else if validUtf8 a.value then .ok a.value else .error .attrValueInvalid

/-- `Attribute::to_bytes` (`src/attribute.rs:397-402`). -/
def Attr.toBytes (a : Attr) : Res Bytes :=
  if a.atype ≠ .bytes then .error .attrTypeInvalid else .ok a.value

/-- The splitting loop of `Attribute::to_ulong_array` (`src/attribute.rs:419-425`). -/
def chunks8 : Bytes → List Nat
  | b0 :: b1 :: b2 :: b3 :: b4 :: b5 :: b6 :: b7 :: rest =>
      fromLE [b0, b1, b2, b3, b4, b5, b6, b7] :: chunks8 rest
  | _ => []

/-- `Attribute::to_ulong_array` (`src/attribute.rs:408-427`). -/
def Attr.toUlongArray (a : Attr) : Res (List Nat) :=
  if a.atype ≠ .ulongArray then .error .attrTypeInvalid
  else if a.value.length % ulongSize ≠ 0 then .error .attrValueInvalid
  else .ok (chunks8 a.value)

/-- `Attribute::to_date_string` (`src/attribute.rs:433-456`); bytes above 127 would become two UTF-8
bytes in Rust, the model keeps the single code unit. -/
def Attr.toDateString (a : Attr) : Res Bytes :=
  if a.atype ≠ .date then .error .attrTypeInvalid
  else match a.value with
    | [] => .ok []
    | [y0, y1, y2, y3, m0, m1, d0, d1] => .ok [y0, y1, y2, y3, 45, m0, m1, 45, d0, d1]
    | _ => .error .attrValueInvalid

/-- `Attribute::from_ck_attr` (`src/attribute.rs:599-628`). -/
def Attr.fromCk (a : CkAttr) : Res Attr :=
  match attrKind a.typ with
  | none => .error .attrTypeInvalid
  | some .bool => match a.toBool with
    | .ok b => .ok (Attr.ofBool a.typ b)
    | .error e => .error e
  | some .num => match a.toUlong with
    | .ok n => .ok (Attr.ofUlong a.typ n)
    | .error e => .error e
  | some .string => match a.toStr with
    | .ok s => .ok (Attr.ofString a.typ s)
    | .error e => .error e
  | some .bytes => .ok (Attr.ofBytes a.typ a.toBuf)
  | some .ulongArray => .ok (Attr.ofUlongBytes a.typ a.toBuf)
  | some .date => match a.toDate with
    | .ok d => .ok (Attr.ofDate a.typ d)
    | .error e => .error e
  | some .deny => .error .attrTypeInvalid
  | some .ignore => .ok (Attr.ofIgnore a.typ)

/-- `Attribute::match_ck_attr` (`src/attribute.rs:330-338`): same type and same raw bytes. -/
def Attr.matchCk (a : Attr) (c : CkAttr) : Bool := a.typ == c.typ && c.toBuf == a.value

end Kry

namespace Kry

/-- Loop of `slice::binary_search_by` of the Rust standard library (used by
`src/attribute.rs:83`, with the ordering of `src/attribute.rs:67-77`): `base` and `size` delimit the
part still searched. -/
def bsLoop (l : List (Nat × AttrType)) (id : Nat) : Nat → Nat → Nat → Nat
  | 0, base, _ => base
  | fuel + 1, base, size =>
    if size > 1 then
      let half := size / 2
      let mid := base + half
      let base := if (l.getD mid default).1 > id then base else mid
      bsLoop l id fuel base (size - half)
    else base

/-- `Attrmap::search_by_id` as written (`src/attribute.rs:82-91`): binary search, then the entry found.
The fuel is the length of the table, which the loop never exhausts. -/
def searchById (l : List (Nat × AttrType)) (id : Nat) : Option (Nat × AttrType) :=
  if l.length = 0 then none
  else
    let i := bsLoop l id l.length 0 l.length
    let e := l.getD i default
    if e.1 = id then some e else none

end Kry
