import Verif.Spec.Objects

/-!
# What it takes to use a key
-/

namespace Kry.Spec

/-- The mechanism flag that stands for an operation in CK_MECHANISM_INFO. -/
def purpose : OpKind → Nat
  | .enc => CKF_ENCRYPT
  | .dec => CKF_DECRYPT
  | .digest => CKF_DIGEST
  | .sign => CKF_SIGN
  | .verify => CKF_VERIFY
  | .verifySig => CKF_VERIFY
  | .msgEnc => CKF_MESSAGE_ENCRYPT
  | .msgDec => CKF_MESSAGE_DECRYPT

/-- The attribute that permits a key to be used for an operation. -/
def usage : OpKind → Nat
  | .enc | .msgEnc => CKA_ENCRYPT
  | .dec | .msgDec => CKA_DECRYPT
  | .sign => CKA_SIGN
  | _ => CKA_VERIFY

/-- Mechanism `m` is in the list of the token in slot `i` and has flag `f`. -/
def offers (M : Mechs) (s : St) (i m f : Nat) : Prop :=
  ∃ sl, AMap.get s.slots i = some sl ∧ m ∈ sl.token.mechsList ∧ M.flags m &&& f ≠ 0

/-- `v` is the value of a list of unsigned longs with `m` among them. -/
def listed (v : Bytes) (m : Nat) : Prop := ∃ l : List Nat, v = l.flatMap ulongBytes ∧ m ∈ l

section
variable (M : Mechs) (C : Crypto) (O : Oracle)

/-- C_GetAttributeValue reports attribute `ty` as true. -/
def saysTrue (s : St) (h n ty : Nat) : Prop := ∃ b : UInt8, b ≠ 0 ∧ reports M C O s h n ty [b]

/-- If C_GetAttributeValue reports attribute `ty` at all, it says true. -/
def notFalse (s : St) (h n ty : Nat) : Prop :=
  ∀ v, reports M C O s h n ty v → ∃ b : UInt8, b ≠ 0 ∧ v = [b]

/-- If C_GetAttributeValue reports CKA_ALLOWED_MECHANISMS, `m` is among them. -/
def permits (s : St) (h n m : Nat) : Prop :=
  ∀ v, reports M C O s h n CKA_ALLOWED_MECHANISMS v → listed v m

end

end Kry.Spec

namespace Kry

/-- The key types of the HMAC mechanisms are known to the library (`src/native/hmac.rs:40-75`,
`src/object/key.rs:755-800`). -/
def HmacTypes (M : Mechs) : Prop := ∀ m kt, M.fam m = .hmac kt → ∃ F, getFactory CKO_SECRET_KEY kt = .ok F

end Kry
