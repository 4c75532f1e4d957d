import Verif.Model.Attr

/-!
# Object-attribute flags (`src/object/factory.rs:30-136`)
-/

namespace Kry

/-! Bits of `OAFlags` (`src/object/factory.rs:39-95`). -/
abbrev oaIgnored : Nat := 0x1
abbrev oaSensitive : Nat := 0x2
abbrev oaDefval : Nat := 0x4
abbrev oaRequiredOnCreate : Nat := 0x8
abbrev oaRequiredOnGenerate : Nat := 0x10
abbrev oaAlwaysRequired : Nat := 0x20
abbrev oaSettableOnlyOnCreate : Nat := 0x80
abbrev oaNeverSettable : Nat := 0x100
abbrev oaUnchangeable : Nat := 0x400
abbrev oaChangeToFalse : Nat := 0xC00
abbrev oaChangeToTrue : Nat := 0x1400
abbrev oaChangeOnCopy : Nat := 0x2400
abbrev oaEphemeral : Nat := 0x8000

/-- `ObjectAttr` (`src/object/factory.rs:102-108`): an allowed attribute, its default value and its
flags. -/
structure FAttr where
  attr : Attr
  flags : Nat
deriving DecidableEq, Repr, Inhabited

/-- `ObjectAttr::get_type` (`src/object/factory.rs:120-122`). -/
def FAttr.typ (a : FAttr) : Nat := a.attr.typ

/-- `ObjectAttr::is` (`src/object/factory.rs:125-130`): *all* bits of `val` are set, and `val` is not
empty. -/
def FAttr.is (a : FAttr) (val : Nat) : Bool := val != 0 && (a.flags &&& val == val)

/-- `ObjectAttr::has_default` (`src/object/factory.rs:133-135`). -/
def FAttr.hasDefault (a : FAttr) : Bool := a.flags &&& oaDefval == oaDefval

/-- Replacement of a table entry by one of the same type, or push (pattern of
`src/object/key.rs:537-543`). -/
def replaceOrPush : List FAttr → FAttr → List FAttr
  | [], a => [a]
  | b :: l, a => if b.typ = a.typ then a :: l else b :: replaceOrPush l a

end Kry
