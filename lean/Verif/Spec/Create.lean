import Verif.Spec.Object

/-! # Specification of object creation from a template

Written from PKCS#11 section 4.1 in terms of the attribute table of the object's class; no loop of the
model is used. -/

namespace Kry.Spec

/-- The table lists `t` with flag `flag`. -/
def Marked (F : Factory) (t flag : Nat) : Prop := ∃ f ∈ F.attrs, f.typ = t ∧ f.is flag = true

/-- The application supplies attribute `t` (an attribute that the class ignores does not count). -/
def Supplies (F : Factory) (tm : Template) (t : Nat) : Prop :=
  t = CKA_CLASS ∨ (¬ Marked F t oaIgnored ∧ ∃ c ∈ tm, c.typ = t)

/-- An acceptable template for objects of `F`: `reserved` marks the attributes the application may not
give, `required` those it must give. -/
structure Acceptable (F : Factory) (reserved required : Nat) (tm : Template) : Prop where
  /-- every attribute is known for the class -/
  known : ∀ c ∈ tm, ∃ f ∈ F.attrs, f.typ = c.typ
  /-- none is reserved to the token -/
  allowed : ∀ c ∈ tm, ¬ Marked F c.typ reserved
  /-- no attribute is given twice (CKA_CLASS may be, see `cls`) -/
  once : tm.Pairwise fun c d => c.typ = d.typ → c.typ = CKA_CLASS ∨ Marked F c.typ oaIgnored
  /-- the class given is the class created -/
  cls : ∀ c ∈ tm, c.typ = CKA_CLASS → c.pval = .data (toLE 8 F.cls)
  /-- every value is a value of its type -/
  values : ∀ c ∈ tm, Marked F c.typ oaIgnored ∨ ∃ a, Attr.fromCk c = .ok a
  /-- every attribute that must be there is given or has a default -/
  complete : ∀ f ∈ F.attrs, (f.is required = true ∨ f.is oaAlwaysRequired = true) →
    f.hasDefault = true ∨ Supplies F tm f.typ

/-- The value that attribute `t` of the new object must have: the class; else what the template says;
else the default of the table; else none. -/
inductive NewValue (F : Factory) (tm : Template) (t : Nat) : Option Bytes → Prop
  | cls : t = CKA_CLASS → NewValue F tm t (some (toLE 8 F.cls))
  | given (c : CkAttr) (a : Attr) : t ≠ CKA_CLASS → ¬ Marked F t oaIgnored → c ∈ tm → c.typ = t →
      Attr.fromCk c = .ok a → NewValue F tm t (some a.value)
  | default (f : FAttr) : ¬ Supplies F tm t → f ∈ F.attrs → f.typ = t → f.hasDefault = true →
      NewValue F tm t (some f.attr.value)
  | absent : ¬ Supplies F tm t → (∀ f ∈ F.attrs, f.typ = t → f.hasDefault = false) →
      NewValue F tm t none

end Kry.Spec
