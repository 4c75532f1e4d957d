import Verif.Model.Attr

/-! # Specification of attribute values

What an application may pass for each kind of attribute and what value that denotes, written from
PKCS#11 without the model's conversion functions. -/

namespace Kry.Spec

/-- `v` is a well formed value of kind `k`: one byte for a boolean, eight for a number, UTF-8 for text,
a multiple of eight for arrays of numbers, eight decimal digits or nothing for a date. -/
def WellFormed : AttrType → Bytes → Prop
  | .bool, v => v.length = 1
  | .num, v => v.length = 8
  | .string, v => validUtf8 v = true
  | .bytes, _ => True
  | .ulongArray, _ => True
  | .date, v => v = [] ∨ (v.length = 8 ∧ ∀ b ∈ v, 48 ≤ b.toNat ∧ b.toNat ≤ 57)
  | .deny, _ => False
  | .ignore, _ => True

/-- Two byte strings denote the same value of kind `k`: equal, except that any two non-zero bytes denote
the boolean "true", and ignored attributes carry no value. -/
def SameValue : AttrType → Bytes → Bytes → Prop
  | .bool, v, w => ∃ a b : UInt8, v = [a] ∧ w = [b] ∧ (a = 0 ↔ b = 0)
  | .ignore, _, w => w = []
  | _, v, w => v = w

end Kry.Spec
