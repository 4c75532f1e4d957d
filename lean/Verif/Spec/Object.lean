import Verif.Model.Factory

/-!
# Specifications about objects

These definitions say what the properties mean.  They look only at the attribute list of an object,
at templates, and at the API-level calls; they do not use the model's lookup helpers.
-/

namespace Kry.Spec

/-- The value of attribute `t` in an attribute list: the first entry of that type. -/
def valueIn : List Attr → Nat → Option Bytes
  | [], _ => none
  | a :: l, t => if a.typ = t then some a.value else valueIn l t

/-- The value of attribute `t` of an object. -/
def value (o : Obj) (t : Nat) : Option Bytes := valueIn o.attrs t

/-- The boolean attribute `t` is present and true / false. -/
def IsTrue (o : Obj) (t : Nat) : Prop := ∃ b : UInt8, value o t = some [b] ∧ b ≠ 0
def IsFalse (o : Obj) (t : Nat) : Prop := value o t = some [0]

/-- The number attribute `t` is present with value `n`. -/
def HasUlong (o : Obj) (t n : Nat) : Prop := value o t = some (toLE 8 n)

/-- One C_SetAttributeValue or C_CopyObject applied to an object, whatever the arguments and whether
or not it succeeds (a failing C_SetAttributeValue may leave a partly changed session object). -/
inductive Step : Obj → Obj → Prop
  | set (o : Obj) (F : Factory) (t : Template) (h : objFactory o = .ok F) :
      Step o (setObjectAttributes F o t).2
  | copy (o o' : Obj) (uid : Bytes) (t : Template) (h : factoriesCopy uid o t = .ok o') : Step o o'

/-- Any history of attribute changes and copies (of copies, of changed copies, ...). -/
inductive Evolves : Obj → Obj → Prop
  | refl (o : Obj) : Evolves o o
  | step {o o' o'' : Obj} : Evolves o o' → Step o' o'' → Evolves o o''

/-- The secret attributes of each key type, from the attribute tables of PKCS#11 (footnote "cannot be
revealed if object has its CKA_SENSITIVE attribute set to CK_TRUE or its CKA_EXTRACTABLE attribute set
to CK_FALSE"). -/
def secretAttrs (cls kt : Nat) : List Nat :=
  if cls = CKO_SECRET_KEY ∨ cls = CKO_OTP_KEY then [CKA_VALUE]
  else if cls = CKO_PRIVATE_KEY then
    if kt = CKK_RSA then
      [CKA_PRIVATE_EXPONENT, CKA_PRIME_1, CKA_PRIME_2, CKA_EXPONENT_1, CKA_EXPONENT_2, CKA_COEFFICIENT]
    else if kt = CKK_ML_DSA ∨ kt = CKK_ML_KEM then [CKA_VALUE, CKA_SEED]
    else [CKA_VALUE]
  else []

/-- Two attribute lists that agree except in the values of the attributes in `secret`. -/
inductive ListAgree (secret : List Nat) : List Attr → List Attr → Prop
  | nil : ListAgree secret [] []
  | cons {a b : Attr} {l m : List Attr} : a.typ = b.typ → a.atype = b.atype →
      (a.typ ∉ secret → a.value = b.value) → ListAgree secret l m → ListAgree secret (a :: l) (b :: m)

/-- Two objects that agree except in the values of the attributes in `secret`. -/
structure Agree (secret : List Nat) (o p : Obj) : Prop where
  handle : o.handle = p.handle
  session : o.session = p.session
  cls : o.cls = p.cls
  attrs : ListAgree secret o.attrs p.attrs

/-- A key of class `cls` and type `kt` whose cached class is the one in its attributes. -/
structure IsKey (o : Obj) (cls kt : Nat) : Prop where
  clsField : o.cls = cls
  clsAttr : o.attrs.find? (fun a => a.typ == CKA_CLASS) = some (Attr.ofUlong CKA_CLASS cls)
  ktAttr : o.attrs.find? (fun a => a.typ == CKA_KEY_TYPE) = some (Attr.ofUlong CKA_KEY_TYPE kt)

end Kry.Spec

namespace Kry.Spec

/-- Calls an application can make on one object. -/
inductive ObjCall where
  | get (out : List OutAttr)
  | set (t : Template)
  | copy (uid : Bytes) (t : Template)

/-- What the application sees of a call. -/
inductive Answer where
  | got (r : Res Unit) (out : List OutAttr)
  | setDone (r : Res Unit)
  | copied (r : Res Unit)
deriving DecidableEq

/-- One call; after a successful copy the history goes on with the copy (a history that goes on with
the original is the one without the copy). -/
def call (o : Obj) : ObjCall → Obj × Answer
  | .get out => let r := getObjectAttributes o out; (o, .got r.1 r.2)
  | .set t => match objFactory o with
    | .error e => (o, .setDone (.error e))
    | .ok F => let r := setObjectAttributes F o t; (r.2, .setDone r.1)
  | .copy uid t => match factoriesCopy uid o t with
    | .error e => (o, .copied (.error e))
    | .ok o' => (o', .copied (.ok ()))

/-- Everything the application sees of a history of calls. -/
def calls : Obj → List ObjCall → List Answer
  | _, [] => []
  | o, c :: cs => (call o c).2 :: calls (call o c).1 cs

/-- The templates of a call. -/
def ObjCall.tmpl : ObjCall → Template
  | .get _ => []
  | .set t => t
  | .copy _ t => t

end Kry.Spec
