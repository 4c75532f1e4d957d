import Verif.Model.State

/-!
# Regular objects

What a token object has to be like to survive storage: every attribute is in the form its type prescribes, no type but
CKA_CLASS occurs twice, and CKA_CLASS is always the class of the object.
-/

namespace Kry.Spec

/-- A value in the form that its type prescribes. -/
def formOf (k : AttrType) (v : Bytes) : Prop :=
  match k with
  | .bool => v = [0] ∨ v = [1]
  | .num => v.length = 8
  | .date => v = [] ∨ vecToDate v = .ok v
  | _ => True

/-- An attribute in the form of its type; a list of mechanisms may also be held as plain bytes (`src/hotp.rs:160-163`). -/
def InForm (a : Attr) : Prop :=
  (attrKind a.typ = some a.atype ∧ formOf a.atype a.value) ∨
  (attrKind a.typ = some .ulongArray ∧ a.atype = .bytes ∧ a.value.length % 8 = 0)

structure Regular (o : Obj) : Prop where
  form : ∀ a ∈ o.attrs, InForm a
  once : ((o.attrs.filter fun a => a.typ != CKA_CLASS).map Attr.typ).Nodup
  cls : ∀ a ∈ o.attrs, a.typ = CKA_CLASS → a = Attr.ofUlong CKA_CLASS o.cls
  has : o.find CKA_CLASS ≠ none
  lt : o.cls < 2 ^ 64

/-- What mechanisms and the key-type specific import code make is regular. -/
structure RegularMechs (M : Mechs) (O : Oracle) : Prop where
  genKey : ∀ e m q tm o, M.genKey e m q tm = .ok o → Regular o
  genPair : ∀ e m q pub priv a b, M.genPair e m q pub priv = .ok (a, b) → Regular a ∧ Regular b
  derive : ∀ e m q k l tm r, M.derive e m q k l tm = .ok r → ∀ o ∈ r, Regular o
  importAttrs : ∀ k o b l, M.importAttrs k o b = .ok l → ∀ a ∈ l, InForm a
  asym : ∀ k o l, O.asym k o = .ok l → ∀ a ∈ l, InForm a

end Kry.Spec
