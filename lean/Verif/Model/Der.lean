import Verif.Model.Base

/-! DER as the code uses it: `src/kasn1/mod.rs` and the parts of the crate `asn1` (version 0.24, not in the repository) it calls.

The crate is modelled from its documented behaviour: `write_single` writes tag, length in the shortest form and contents; a parser reads one tag and one length at
a time, takes lengths of at most four bytes in the shortest form, and the parser of a SEQUENCE refuses what is left over.  Tags of more than one byte are never
written by the code; here they are a parse error, as they are for every structure the code reads. -/

namespace Kry

/-- How reading DER fails: a parse error, or a Rust panic in the code that is called back. -/
inductive DerErr
  | bad | panic
deriving DecidableEq, Repr

abbrev Der (α : Type) := Except DerErr α

/-- The return code of a caller that maps every parse error to one code (`src/rsa.rs:481-501`, `src/ossl/ecdsa.rs:103-106`). -/
def Der.toRes {α : Type} (r : Rv) : Der α → Res α
  | .ok a => .ok a
  | .error .bad => .error r
  | .error .panic => .error .panic

/-- Length of the contents, shortest form (`asn1::write_single`). -/
def derLen (n : Nat) : Bytes :=
  if n < 128 then [UInt8.ofNat n]
  else
    let b := (toBE 8 n).dropWhile (· == 0)
    UInt8.ofNat (128 + b.length) :: b

/-- One element (`asn1::write_single`). -/
def derTlv (tag : UInt8) (body : Bytes) : Bytes := tag :: (derLen body.length ++ body)

/-- The length of an element (`asn1::Parser`): short form, or one to four bytes that are needed. -/
def derReadLen : Bytes → Option (Nat × Bytes)
  | [] => none
  | b :: r =>
    if b.toNat < 128 then some (b.toNat, r)
    else
      let k := b.toNat - 128
      if k = 0 ∨ 4 < k ∨ r.length < k then none
      else
        let n := fromBE (r.take k)
        if n < 128 ∨ n < 256 ^ (k - 1) then none else some (n, r.drop k)

/-- One element: tag, contents and the rest (`asn1::Parser::read_tlv`, `asn1::strip_tlv`). -/
def derRead : Bytes → Option (UInt8 × Bytes × Bytes)
  | [] => none
  | t :: r =>
    if t &&& 0x1f = 0x1f then none
    else match derReadLen r with
      | none => none
      | some (n, r) => if r.length < n then none else some (t, r.take n, r.drop n)

/-- The next element, which must have the tag. -/
def derField (tag : UInt8) (b : Bytes) : Der (Bytes × Bytes) :=
  match derRead b with
  | none => .error .bad
  | some (t, c, r) => if t = tag then .ok (c, r) else .error .bad

/-- `asn1::BigUint::new`: not empty, not negative, no superfluous first byte. -/
def bigUintOk : Bytes → Bool
  | [] => false
  | [x] => decide (x.toNat < 128)
  | x :: y :: _ => decide (x.toNat < 128) && !(x == 0 && decide (y.toNat < 128))

/-- The loop of `DerEncBigUint::new` (`src/kasn1/mod.rs:50-56`). -/
def skipZeros : Bytes → Bytes
  | x :: y :: r => if x = 0 ∧ y.toNat < 128 then skipZeros (y :: r) else x :: y :: r
  | b => b

/-- `DerEncBigUint::new` (`src/kasn1/mod.rs:37-66`): `de.data[0]` panics for an empty buffer. -/
def derUint (b : Bytes) : Res Bytes :=
  match b with
  | [] => .error .panic
  | x :: _ =>
    let d := if 128 ≤ x.toNat then 0 :: b else skipZeros b
    if bigUintOk d then .ok d else .error .generalError

/-- `as_nopad_bytes` (`src/kasn1/mod.rs:75-84`). -/
def nopad (b : Bytes) : Bytes := b.dropWhile (· == 0)

/-- `write_single` of a `DerEncBigUint` (`src/kasn1/mod.rs:108-120`). -/
def derInt (d : Bytes) : Bytes := derTlv 2 d

/-- `parse_data` of a `DerEncBigUint` (`src/kasn1/mod.rs:96-107`) after the tag. -/
def uintField (b : Bytes) : Der (Bytes × Bytes) :=
  match derField 2 b with
  | .error e => .error e
  | .ok (c, r) => match derUint c with
    | .ok d => .ok (d, r)
    | .error .panic => .error .panic
    | .error _ => .error .bad

/-- A `u64` (`Version`, `src/kasn1/mod.rs:182`, `src/rsa.rs:294`): a whole number in the shortest form of at most 64 bits. -/
def u64Field (b : Bytes) : Der (Nat × Bytes) :=
  match derField 2 b with
  | .error e => .error e
  | .ok (c, r) => if bigUintOk c && decide (fromBE c < 2 ^ 64) then .ok (fromBE c, r) else .error .bad

/-- The contents of a SEQUENCE that is all of the data (`asn1::parse_single` of a structure). -/
def derSeq (b : Bytes) : Der Bytes :=
  match derField 0x30 b with
  | .error e => .error e
  | .ok (c, r) => if r = [] then .ok c else .error .bad

end Kry
