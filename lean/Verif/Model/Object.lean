import Verif.Model.FactoryTables

/-!
# Objects (`src/object/mod.rs`)
-/

namespace Kry

/-- `Object` (`src/object/mod.rs:78-97`), without the `zeroize` flag (memory scrubbing on drop has no
effect that the API can observe). -/
structure Obj where
  handle : Nat
  session : Nat
  cls : Nat
  attrs : List Attr
deriving DecidableEq, Repr, Inhabited

namespace Obj

/-- `Object::new` (`src/object/mod.rs:111-119`). -/
def new (cls : Nat) : Obj := ⟨0, 0, cls, [Attr.ofUlong CKA_CLASS cls]⟩

/-- `Object::get_attr` (`src/object/mod.rs:244-246`): the first attribute of that type. -/
def find (o : Obj) (t : Nat) : Option Attr := o.attrs.find? fun a => a.typ == t

/-- `self.attributes.push(..)`. -/
def push (o : Obj) (a : Attr) : Obj := { o with attrs := o.attrs ++ [a] }

/-- `Object::generate_unique` (`src/object/mod.rs:129-139`).  The random UUID is the argument
`uid`. -/
def generateUnique (o : Obj) (uid : Bytes) : Obj :=
  if o.attrs.any fun a => a.typ == CKA_UNIQUE_ID then o
  else o.push (Attr.ofString CKA_UNIQUE_ID uid)

/-- `Object::blind_copy` (`src/object/mod.rs:166-176`). -/
def blindCopy (o : Obj) (uid : Bytes) : Obj :=
  let n := (new o.cls).generateUnique uid
  { n with attrs := n.attrs ++ o.attrs.filter fun a => a.typ != CKA_UNIQUE_ID }

/-- The boolean checkers of `create_bool_checker!` (`src/object/mod.rs:40-53`, `204-211`). -/
def boolOr (o : Obj) (t : Nat) (d : Bool) : Bool :=
  match o.find t with
  | none => d
  | some a => match a.toBool with
    | .ok b => b
    | .error _ => d

/-- `is_token` (`src/object/mod.rs:204`). -/
def isToken (o : Obj) : Bool := o.boolOr CKA_TOKEN false
/-- `is_private` (`src/object/mod.rs:205`). -/
def isPrivate (o : Obj) : Bool := o.boolOr CKA_PRIVATE true
/-- `is_copyable` (`src/object/mod.rs:207`). -/
def isCopyable (o : Obj) : Bool := o.boolOr CKA_COPYABLE true
/-- `is_modifiable` (`src/object/mod.rs:208`). -/
def isModifiable (o : Obj) : Bool := o.boolOr CKA_MODIFIABLE true
/-- `is_destroyable` (`src/object/mod.rs:209`). -/
def isDestroyable (o : Obj) : Bool := o.boolOr CKA_DESTROYABLE false
/-- `always_auth` (`src/object/mod.rs:211`). -/
def alwaysAuth (o : Obj) : Bool := o.boolOr CKA_ALWAYS_AUTHENTICATE false

/-- The classes for which sensitivity applies (`src/object/mod.rs:216`, `:231`). -/
def secretClass (c : Nat) : Bool := c == CKO_PRIVATE_KEY || c == CKO_SECRET_KEY || c == CKO_OTP_KEY

/-- `is_sensitive` (`src/object/mod.rs:214-226`). -/
def isSensitive (o : Obj) : Bool := if secretClass o.cls then o.boolOr CKA_SENSITIVE true else false

/-- `is_extractable` (`src/object/mod.rs:229-241`). -/
def isExtractable (o : Obj) : Bool := if secretClass o.cls then o.boolOr CKA_EXTRACTABLE false else true

/-- Replace the first attribute of the same type or push (`src/object/mod.rs:254-262`). -/
def setList : List Attr → Attr → List Attr
  | [], a => [a]
  | b :: l, a => if b.typ = a.typ then a :: l else b :: setList l a

/-- `Object::set_attr` (`src/object/mod.rs:249-264`). -/
def setAttr (o : Obj) (a : Attr) : Res Obj :=
  if a.typ = CKA_CLASS then
    match a.toUlong with
    | .error e => .error e
    | .ok c => .ok { o with cls := c, attrs := setList o.attrs a }
  else .ok { o with attrs := setList o.attrs a }

/-- `Object::del_attr` (`src/object/mod.rs:267-269`). -/
def delAttr (o : Obj) (t : Nat) : Obj := { o with attrs := o.attrs.filter fun a => a.typ != t }

/-- `get_attr_as_bool` (`src/object/mod.rs:56-71`, `:276`). -/
def getBool (o : Obj) (t : Nat) : Res Bool :=
  match o.find t with
  | none => .error .attrNotFound
  | some a => a.toBool

/-- `get_attr_as_ulong` (`src/object/mod.rs:277`). -/
def getUlong (o : Obj) (t : Nat) : Res Nat :=
  match o.find t with
  | none => .error .attrNotFound
  | some a => a.toUlong

/-- `get_attr_as_string` (`src/object/mod.rs:278`). -/
def getStr (o : Obj) (t : Nat) : Res Bytes :=
  match o.find t with
  | none => .error .attrNotFound
  | some a => a.toStr

/-- `get_attr_as_bytes` (`src/object/mod.rs:279`). -/
def getBytes (o : Obj) (t : Nat) : Res Bytes :=
  match o.find t with
  | none => .error .attrNotFound
  | some a => a.toBytes

/-- `match_template` (`src/object/mod.rs:284-292`). -/
def matchTemplate (o : Obj) (t : Template) : Bool := t.all fun c => o.attrs.any fun a => a.matchCk c

/-- `check_key_ops` (`src/object/mod.rs:300-319`). -/
def checkKeyOps (o : Obj) (cls ktype op : Nat) : Res Unit :=
  match o.getUlong CKA_CLASS with
  | .error e => .error e
  | .ok c =>
    if c ≠ cls then .error .keyTypeInconsistent
    else
      let kt : Res Unit :=
        if ktype ≠ CK_UNAVAILABLE_INFORMATION then
          match o.getUlong CKA_KEY_TYPE with
          | .error e => .error e
          | .ok k => if k ≠ ktype then .error .keyTypeInconsistent else .ok ()
        else .ok ()
      match kt with
      | .error e => .error e
      | .ok () => match o.getBool op with
        | .ok true => .ok ()
        | _ => .error .keyFunctionNotPermitted

/-- `size_of::<Attribute>()` as used by `rough_size`: the exact number is irrelevant. -/
abbrev attrStructSize : Nat := 48

/-- `rough_size` (`src/object/mod.rs:322-328`). -/
def roughSize (o : Obj) : Nat := attrStructSize * o.attrs.length + (o.attrs.map fun a => a.value.length).sum

/-- `ensure_ulong` (`src/object/mod.rs:335-349`). -/
def ensureUlong (o : Obj) (t v : Nat) : Res Obj :=
  match o.find t with
  | some a => match a.toUlong with
    | .error e => .error e
    | .ok n => if n ≠ v then .error .attrValueInvalid else .ok o
  | none => .ok (o.push (Attr.ofUlong t v))

/-- `ensure_bytes` / `ensure_slice` (`src/object/mod.rs:356-393`). -/
def ensureBytes (o : Obj) (t : Nat) (v : Bytes) : Res Obj :=
  match o.find t with
  | some a => if a.value ≠ v then .error .attrValueInvalid else .ok o
  | none => .ok (o.push (Attr.ofBytes t v))

end Obj

end Kry
