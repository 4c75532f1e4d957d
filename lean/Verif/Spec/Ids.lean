import Verif.Model.State

/-!
# Where a unique identifier may come from
-/

namespace Kry.Spec

/-- The templates given to a call that makes objects. -/
def templates : Call → List Template
  | .sess _ (.createObject tm) => [tm]
  | .sess _ (.copyObject _ tm) => [tm]
  | .op _ (.generateKey _ _ tm) => [tm]
  | .op _ (.generatePair _ _ pub priv) => [pub, priv]
  | .op _ (.unwrap _ _ _ _ tm) => [tm]
  | .op _ (.derive _ _ _ tm) => [tm]
  | .op _ (.encapsulate _ _ tm _) => [tm]
  | .op _ (.decapsulate _ _ _ tm) => [tm]
  | _ => []

/-- A template of the call asks for the identifier `u`. -/
def asksId (c : Call) (u : Bytes) : Prop := ∃ tm ∈ templates c, ∃ a ∈ tm, a.typ = CKA_UNIQUE_ID ∧ a.toBuf = u

/-- The identifier of the object was drawn in the call or is one of the template. -/
def idFrom (e : Env) (tm : Template) (o : Obj) : Prop :=
  ∀ a ∈ o.attrs, a.typ = CKA_UNIQUE_ID → (∃ p, a.value = e.uuid p) ∨ ∃ c ∈ tm, c.typ = CKA_UNIQUE_ID ∧ c.toBuf = a.value

/-- The mechanisms give the objects they make such identifiers. -/
structure HonoursId (M : Mechs) : Prop where
  genKey : ∀ e m q tm o, M.genKey e m q tm = .ok o → idFrom e tm o
  genPair : ∀ e m q pub priv a b, M.genPair e m q pub priv = .ok (a, b) → idFrom e pub a ∧ idFrom e priv b
  derive : ∀ e m q k l tm r, M.derive e m q k l tm = .ok r → ∀ o ∈ r, idFrom e tm o
  importAttrs : ∀ k o b l, M.importAttrs k o b = .ok l → ∀ a ∈ l, a.typ ≠ CKA_UNIQUE_ID

end Kry.Spec
