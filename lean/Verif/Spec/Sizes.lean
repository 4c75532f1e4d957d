import Verif.Spec.Object

/-! # Sizes of secret keys, as an application reads them -/

namespace Kry.Spec

/-- The template's first entry of type `t` is the number `n`. -/
def asksFor (tm : Template) (t n : Nat) : Prop :=
  ∃ pre c post, tm = pre ++ c :: post ∧ c.typ = t ∧ (∀ d ∈ pre, d.typ ≠ t) ∧ c.toUlong = .ok n

/-- The template asks for a key of class `cls` and type `kt`. -/
def asksKey (tm : Template) (cls kt : Nat) : Prop := asksFor tm CKA_CLASS cls ∧ asksFor tm CKA_KEY_TYPE kt

/-- CKA_VALUE is there and has one of the given lengths. -/
def sizedIn (o : Obj) (l : List Nat) : Prop := ∃ v, value o CKA_VALUE = some v ∧ v.length ∈ l

/-- CKA_VALUE_LEN is the length of CKA_VALUE. -/
def lenTold (o : Obj) : Prop :=
  ∃ v, value o CKA_VALUE = some v ∧ value o CKA_VALUE_LEN = some (toLE 8 v.length)

/-- Key types for HMAC and their digest sizes (FIPS 180-4, FIPS 202). -/
def hmacSizes : List (Nat × Nat) :=
  [(CKK_SHA_1_HMAC, 20), (CKK_SHA224_HMAC, 28), (CKK_SHA256_HMAC, 32), (CKK_SHA384_HMAC, 48),
   (CKK_SHA512_HMAC, 64), (CKK_SHA3_224_HMAC, 28), (CKK_SHA3_256_HMAC, 32), (CKK_SHA3_384_HMAC, 48),
   (CKK_SHA3_512_HMAC, 64), (CKK_SHA512_224_HMAC, 28), (CKK_SHA512_256_HMAC, 32)]

/-- What a HOTP key must be: 6 to 8 digits, an 8-byte counter, CKM_HOTP and nothing else, not for
encryption or wrapping. -/
structure hotpProper (o : Obj) : Prop where
  digits : ∀ b, value o CKA_OTP_LENGTH = some b → 6 ≤ fromLE b ∧ fromLE b ≤ 8
  counter : ∀ b, value o CKA_OTP_COUNTER = some b → b.length = 8
  mechanism : value o CKA_ALLOWED_MECHANISMS = some (toLE 8 CKM_HOTP)
  usage : ∀ t ∈ [CKA_ENCRYPT, CKA_DECRYPT, CKA_WRAP, CKA_UNWRAP], ¬ IsTrue o t
  size : sizedIn o [20, 32, 64]

end Kry.Spec
