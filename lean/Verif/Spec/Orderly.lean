import Verif.Model.State

/-!
# Orderly objects

What every object in memory is expected to satisfy: an attribute whose type says boolean or number holds
one, and the object's class is the one its CKA_CLASS names.
-/

namespace Kry.Spec

/-- The attribute holds a boolean or a number if its type says so. -/
def Neat (a : Attr) : Prop :=
  (attrKind a.typ = some .bool → ∃ b, a = Attr.ofBool a.typ b) ∧
  (attrKind a.typ = some .num → a.atype = .num ∧ a.value.length = 8)

/-- All attributes do, and CKA_CLASS is the class of the object. -/
structure Orderly (o : Obj) : Prop where
  neat : ∀ a ∈ o.attrs, Neat a
  cls : ∃ a, o.find CKA_CLASS = some a ∧ a.toUlong = .ok o.cls

/-- The objects the mechanisms make are orderly. -/
structure OrderlyMechs (M : Mechs) : Prop where
  genKey : ∀ e m q tm o, M.genKey e m q tm = .ok o → Orderly o
  genPair : ∀ e m q pub priv a b, M.genPair e m q pub priv = .ok (a, b) → Orderly a ∧ Orderly b
  derive : ∀ e m q k l tm r, M.derive e m q k l tm = .ok r → ∀ o ∈ r, Orderly o
  importAttrs : ∀ k o b l, M.importAttrs k o b = .ok l → ∀ a ∈ l, Neat a

end Kry.Spec
