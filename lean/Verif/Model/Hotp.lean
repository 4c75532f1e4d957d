import Verif.Model.Hmac
import Verif.Model.Ops

/-!
# HOTP (`src/hotp.rs`)

The operation and its place in the mechanism table.  The parameter of the mechanism is a C structure with pointers: reading it is a
parameter `parse`, which answers the counter the application gave, if any.  The output of C_Sign is a `CK_OTP_SIGNATURE_INFO` whose only
entry points to the text of the password; the model's output is that text alone.  Arithmetic overflow of the counter is a panic, as
in builds with overflow checks (without them the counter starts again from zero).
-/

namespace Kry

/-- The three hashes of HOTP (`src/hotp.rs:463-468`). -/
structure OtpHash where
  sha1 : HashAlg
  sha256 : HashAlg
  sha512 : HashAlg

/-- `HOTPOperation` (`src/hotp.rs:390-399`).  `upd` is `update.is_some()`; the value inside is false until the operation has
succeeded. -/
structure Hotp where
  hmac : Hmac
  counter : Bytes
  length : Nat
  macLen : Nat
  upd : Bool

/-- The choice of the counter in `HOTPOperation::new` (`src/hotp.rs:433-459`): the counter and whether the key is to be updated. -/
def hotpCounter (key : Obj) (given : Option Bytes) : Res (Bytes × Bool) :=
  match key.getUlong CKA_OTP_COUNTER_REQUIREMENT with
  | .error _ => .error .generalError
  | .ok req =>
    let own : Res (Bytes × Bool) := match key.getBytes CKA_OTP_COUNTER with
      | .error _ => .error .generalError
      | .ok c => .ok (c, true)
    match given with
    | some c => if req = CK_OTP_PARAM_OPTIONAL ∨ req = CK_OTP_PARAM_MANDATORY then .ok (c, false) else own
    | none => if req = CK_OTP_PARAM_MANDATORY then .error .mechanismParamInvalid else own

/-- The hash for a key length (`src/hotp.rs:472-477`). -/
def OtpHash.pick (H : OtpHash) (len : Nat) : Option (HashAlg × Nat) :=
  if len = 20 then some (H.sha1, 20) else if len = 32 then some (H.sha256, 32) else if len = 64 then some (H.sha512, 64) else none

/-- The part of `HOTPOperation::new` after the counter (`src/hotp.rs:461-487`). -/
def Hotp.make (H : OtpHash) (counter : Bytes) (upd : Bool) (length : Nat) (value : Bytes) : Res Hotp :=
  match H.pick value.length with
  | none => .error .generalError
  | some (a, n) => .ok ⟨Hmac.internal a value n, counter, length, n, upd⟩

/-- Decimal digits of a number, without leading zeros (`format!("{}")`); ten digits are enough for a `u32`. -/
def decimal : Nat → Nat → Bytes
  | 0, n => [UInt8.ofNat (n % 10 + 48)]
  | fuel + 1, n => if n < 10 then [UInt8.ofNat (n + 48)] else decimal fuel (n / 10) ++ [UInt8.ofNat (n % 10 + 48)]

/-- `format!("{:0width$}")`. -/
def decimalPadded (width n : Nat) : Bytes :=
  let s := decimal 9 n
  List.replicate (width - s.length) 48 ++ s

/-- `generate_otp` (`src/hotp.rs:489-514`) into a buffer of `length` bytes. -/
def Hotp.generate (o : Hotp) (counter : Bytes) : Res Bytes × Hotp :=
  let (r, h) := o.hmac.mac counter o.macLen
  let o := { o with hmac := h }
  match r with
  | .error r => (.error r, o)
  | .ok mac =>
    let offset := (mac.getD (o.macLen - 1) 0).toNat % 16
    let mac := mac.set offset (mac.getD offset 0 &&& 0x7f)
    let part := (mac.drop offset).take 4
    if part.length ≠ 4 then (.error .panic, o)
    else
      let value := fromBE part
      let modulus : Option Nat :=
        if o.length = 6 then some 1000000 else if o.length = 7 then some 10000000 else if o.length = 8 then some 100000000 else none
      match modulus with
      | none => (.error .generalError, o)
      | some m =>
        let s := decimalPadded o.length (value % m)
        if s.length ≠ o.length then (.error .panic, o) else (.ok s, o)

/-- `u64 + 1`. -/
def next64 (n : Nat) : Res Nat := if n + 1 < 2 ^ 64 then .ok (n + 1) else .error .panic

/-- `sign_final` (`src/hotp.rs:539-588`).  C_Sign passes a buffer of the right size (`src/fns/signing.rs:112-113`). -/
def Hotp.signFinal (o : Hotp) : Res Bytes × Hotp :=
  let (r, o) := o.generate o.counter
  match r with
  | .error r => (.error r, o)
  | .ok b =>
    if o.upd then match next64 (fromBE o.counter) with
      | .error r => (.error r, o)
      | .ok c => (.ok b, { o with counter := toBE 8 c })
    else (.ok b, o)

/-- The loop of `verify_final` (`src/hotp.rs:633-649`) with `n` rounds to go; `first` is the round in which the HMAC is not reset. -/
def Hotp.tryCounters (sig : Bytes) : Nat → Bool → Nat → Hotp → Res Unit × Hotp
  | 0, _, _, o => (.error .signatureInvalid, o)
  | n + 1, first, c, o =>
    let o := if first then o else { o with hmac := o.hmac.reinit }
    let (r, o) := o.generate (toBE 8 c)
    match r with
    | .error r => (.error r, o)
    | .ok otp =>
      if sig = otp then
        if o.upd then match next64 c with
          | .error r => (.error r, o)
          | .ok c => (.ok (), { o with counter := toBE 8 c })
        else (.ok (), o)
      else match next64 c with
        | .error r => (.error r, o)
        | .ok c => Hotp.tryCounters sig n false c o

/-- `verify_final` (`src/hotp.rs:622-650`). -/
def Hotp.verifyFinal (o : Hotp) (sig : Bytes) : Res Unit × Hotp :=
  if sig.length ≠ o.length then (.error .signatureLenRange, o)
  else Hotp.tryCounters sig 5 true (fromBE o.counter) o

/-! The operation in the machine: the counter, the length and the secret are kept in `Op.data`, the handle to update in `Op.upd` (the
source keeps it in the operation from the start and gives it out only after success; the machine looks at it only then). -/

/-- What `updates_object` gives (`src/hotp.rs:596-607`, `:657-668`). -/
def hotpUpd (upd : Bool) (handle : Nat) (counter : Bytes) : Option (Nat × Template) :=
  if upd then some (handle, [.mk' CKA_OTP_COUNTER counter]) else none

/-- `HOTPOperation::new` (`src/hotp.rs:402-487`). -/
def hotpNew (H : OtpHash) (parse : Bytes → Res (Option Bytes)) (param : Bytes) (key : Obj) : Res Op :=
  let given : Res (Option Bytes) := if param = [] then .ok none else parse param
  match given with
  | .error r => .error r
  | .ok given => match hotpCounter key given with
    | .error r => .error r
    | .ok (c, upd) =>
      if c.length ≠ 8 then .error .generalError
      else match key.getUlong CKA_OTP_LENGTH with
        | .error _ => .error .generalError
        | .ok len => match key.getBytes CKA_VALUE with
          | .error r => .error r
          | .ok v => match Hotp.make H c upd len v with
            | .error r => .error r
            | .ok _ => .ok ⟨CKM_HOTP, false, false, hotpUpd upd key.handle c, c ++ ulongBytes len ++ v⟩

/-- The operation kept in `Op`; before the one use the HMAC is as it was made. -/
def hotpOf (H : OtpHash) (o : Op) : Res Hotp :=
  Hotp.make H (o.data.take 8) o.upd.isSome (fromLE ((o.data.drop 8).take 8)) (o.data.drop 16)

/-- `signature_len` (`src/hotp.rs:590-594`, `:652-654`): the two structures take 16 and 24 bytes. -/
def hotpLen (k : OpKind) (o : Op) : Res Nat :=
  let len := fromLE ((o.data.drop 8).take 8)
  .ok (if k = .sign then 40 + len else len)

/-- `sign`, `sign_update`, `sign_final`, `verify`, `verify_update`, `verify_final` (`src/hotp.rs:527-588`, `:611-650`). -/
def hotpRun (H : OtpHash) (k : OpKind) (a : Act) (op : Op) (i : OpIn) : Res Bytes × Op :=
  if a = .update then (.error .dataInvalid, op)
  else if a = .oneShot ∧ i.data ≠ [] then (.error .dataInvalid, op)
  else if op.fin then (.error .operationNotInitialized, op)
  else
    let done := { op with fin := true }
    let keep (h : Hotp) : Op := { done with upd := op.upd.map fun p => (p.1, [.mk' CKA_OTP_COUNTER h.counter]) }
    match hotpOf H op with
    | .error r => (.error r, done)
    | .ok h =>
      if k = .sign then match h.signFinal with
        | (.error r, _) => (.error r, done)
        | (.ok b, h) => (.ok b, keep h)
      else match h.verifyFinal i.sig with
        | (.error r, _) => (.error r, done)
        | (.ok (), h) => (.ok [], keep h)

/-- The mechanism table with HOTP (`src/hotp.rs:24-80`, `:340-387`). -/
def withHotp (H : OtpHash) (parse : Bytes → Res (Option Bytes)) (M : Mechs) : Mechs :=
  { M with
    flags := fun m => if m = CKM_HOTP then CKF_SIGN ||| CKF_VERIFY else M.flags m
    fam := fun m => if m = CKM_HOTP then .hotp else M.fam m
    new := fun e k m p key sig => if m = CKM_HOTP then
        match key with
        | some o => hotpNew H parse p o
        | none => .error .mechanismInvalid
      else M.new e k m p key sig
    len := fun k a o n => if o.mech = CKM_HOTP then (hotpLen k o, o) else M.len k a o n
    run := fun e k a o i => if o.mech = CKM_HOTP then hotpRun H k a o i else M.run e k a o i }

end Kry
