import Verif.Model.Base

/-!
# The HMAC operation (`src/native/hmac.rs`)

The hash is an arbitrary function (OpenSSL is behind it); the running digest is the list of bytes fed so far and never fails.
-/

namespace Kry

/-- A hash with its output and block sizes (`src/hash.rs`: `hash_size`, `block_size`). -/
structure HashAlg where
  h : Bytes → Bytes
  hlen : Nat
  blen : Nat

/-- `MAX_BSZ` (`src/native/hmac.rs:26`). -/
abbrev MAX_BSZ : Nat := 160

/-- `HMACOperation` (`src/native/hmac.rs:60-89`); `inner` is what the digest was fed since its last reset. -/
structure Hmac where
  alg : HashAlg
  key : Bytes
  outlen : Nat
  state : Bytes
  ipad : Bytes
  opad : Bytes
  inner : Bytes
  fin : Bool
  inUse : Bool
  sig : Option Bytes

/-- `copy_from_slice` onto the start of a buffer. -/
def overwrite (src dst : Bytes) : Bytes := src ++ dst.drop src.length

/-- The loop `for i in 0..blocklen` over one pad (`src/native/hmac.rs:183-188`). -/
def xorFirst (n : Nat) (pad state : Bytes) : Bytes :=
  List.zipWith (· ^^^ ·) (pad.take n) (state.take n) ++ pad.drop n

namespace Hmac

/-- `init` (`src/native/hmac.rs:172-194`). -/
def init (o : Hmac) : Hmac :=
  let st := if o.key.length ≤ o.alg.blen then overwrite o.key o.state else overwrite (o.alg.h o.key) o.state
  let ipad := xorFirst o.alg.blen o.ipad st
  let opad := xorFirst o.alg.blen o.opad st
  { o with state := st, ipad := ipad, opad := opad, inner := ipad.take o.alg.blen }

/-- `internal` (`src/native/hmac.rs:100-122`). -/
def internal (alg : HashAlg) (key : Bytes) (outlen : Nat) : Hmac :=
  init ⟨alg, key, outlen, List.replicate MAX_BSZ 0, List.replicate MAX_BSZ 0x36, List.replicate MAX_BSZ 0x5c, [], false, false, none⟩

/-- `new` (`src/native/hmac.rs:125-144`). -/
def new (alg : HashAlg) (key : Bytes) (outlen : Nat) (sig : Option Bytes) : Res Hmac :=
  match sig with
  | none => .ok (internal alg key outlen)
  | some s => if s.length ≠ outlen then .error .signatureLenRange else .ok { internal alg key outlen with sig := some s }

/-- `begin` (`src/native/hmac.rs:197-202`). -/
def start (o : Hmac) : Res Unit := if o.inUse then .error .operationNotInitialized else .ok ()

/-- `update` (`src/native/hmac.rs:205-218`). -/
def update (o : Hmac) (data : Bytes) : Res Unit × Hmac :=
  if o.fin then (.error .operationNotInitialized, o)
  else (.ok (), { o with inUse := true, inner := o.inner ++ data })

/-- `finalize` (`src/native/hmac.rs:221-246`) for an output buffer of `n` bytes. -/
def finalize (o : Hmac) (n : Nat) : Res Bytes × Hmac :=
  if o.fin then (.error .operationNotInitialized, o)
  else
    let o := { o with inUse := true, fin := true }
    if n ≠ o.outlen then (.error .generalError, o)
    else
      let st := overwrite (o.alg.h o.inner) o.state
      let inner := o.opad.take o.alg.blen ++ st.take o.alg.hlen
      let st := overwrite (o.alg.h inner) st
      (.ok (st.take n), { o with state := st, inner := inner })

/-- `reinit` (`src/native/hmac.rs:249-258`). -/
def reinit (o : Hmac) : Hmac :=
  init ⟨o.alg, o.key, o.outlen, List.replicate MAX_BSZ 0, List.replicate MAX_BSZ 0x36, List.replicate MAX_BSZ 0x5c, [], false, false, o.sig⟩

/-- `mac` and `sign` (`src/native/hmac.rs:312-316`, `:332-336`). -/
def mac (o : Hmac) (data : Bytes) (n : Nat) : Res Bytes × Hmac :=
  match o.start with
  | .error r => (.error r, o)
  | .ok () =>
    let (r, o) := o.update data
    match r with
    | .error r => (.error r, o)
    | .ok () => o.finalize n

/-- `Verify::verify_final` (`src/native/hmac.rs:362-369`). -/
def verifyFinal (o : Hmac) (s : Bytes) : Res Unit × Hmac :=
  let (r, o) := o.finalize o.outlen
  match r with
  | .error r => (.error r, o)
  | .ok v => (if v = s then .ok () else .error .signatureInvalid, o)

/-- `Verify::verify` (`src/native/hmac.rs:352-356`). -/
def verify (o : Hmac) (data s : Bytes) : Res Unit × Hmac :=
  match o.start with
  | .error r => (.error r, o)
  | .ok () =>
    let (r, o) := o.update data
    match r with
    | .error r => (.error r, o)
    | .ok () => o.verifyFinal s

/-- `VerifySignature::verify_final` (`src/native/hmac.rs:387-399`). -/
def verifySigFinal (o : Hmac) : Res Unit × Hmac :=
  let (r, o) := o.finalize o.outlen
  match r with
  | .error r => (.error r, o)
  | .ok v => match o.sig with
    | some s => (if v = s then .ok () else .error .signatureInvalid, o)
    | none => (.error .generalError, o)

/-- A multi-part operation: the updates one after the other. -/
def feed (o : Hmac) : List Bytes → Res Unit × Hmac
  | [] => (.ok (), o)
  | d :: l =>
    let (r, o) := o.update d
    match r with
    | .error r => (.error r, o)
    | .ok () => o.feed l

end Hmac
end Kry
