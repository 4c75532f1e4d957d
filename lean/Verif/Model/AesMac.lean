import Verif.Model.Aes

/-!
AES-MAC (`src/ossl/aes.rs:2704-2996`): CBC encryption under the zero IV, of which only the last block is kept.
-/

namespace Kry

/-- `AesMacOperation` (`src/ossl/aes.rs:2708-2732`); `pad` is the part of `padbuf` in use (`padlen` is its length).  Not modelled: the
signature handed over at initialisation. -/
structure AesMacOp where
  finalized : Bool
  inUse : Bool
  pad : Bytes
  macbuf : Bytes
  maclen : Nat
  op : AesOp
deriving DecidableEq, Repr

/-- CKM_AES_MAC, or CKM_AES_MAC_GENERAL with the length asked for. -/
inductive AesMacMech where
  | mac
  | general (len : Nat)
deriving DecidableEq, Repr

/-- `init` (`src/ossl/aes.rs:2750-2802`). -/
def aesMacNew (m : AesMacMech) : Res AesMacOp :=
  let maclen : Res Nat := match m with
    | .general n => if n > 16 then .error .mechanismParamInvalid else .ok n
    | .mac => .ok (16 / 2)
  match maclen with
  | .error r => .error r
  | .ok maclen => match aesNew .cbc (.iv (List.replicate 16 0)) true with
    | .error r => .error r
    | .ok op => .ok ⟨false, false, [], List.replicate 16 0, maclen, op⟩

namespace AesMacOp

/-- Encryption of one block into `macbuf` (`src/ossl/aes.rs:2831-2836`, `:2842-2849`). -/
def block (L : AesLib) (m : AesMacOp) (b : Bytes) : Res Unit × AesMacOp :=
  match m.op.encryptUpdate L b 16 with
  | (.error r, op) => (.error r, { m with op := op })
  | (.ok out, op) =>
    let m := { m with op := op, macbuf := out ++ m.macbuf.drop out.length }
    if out.length ≠ 16 then (.error .generalError, { m with finalized := true }) else (.ok (), m)

/-- The loop over the whole blocks (`src/ossl/aes.rs:2841-2852`): `while data_len > AES_BLOCK_SIZE`, of which there are `n` turns; returns
what remains. -/
def blocks (L : AesLib) : Nat → AesMacOp → Bytes → Res Bytes × AesMacOp
  | 0, m, d => (.ok d, m)
  | n + 1, m, d => match m.block L (d.take 16) with
    | (.error r, m) => (.error r, m)
    | (.ok (), m) => blocks L n m (d.drop 16)

/-- `update` (`src/ossl/aes.rs:2813-2859`). -/
def update (L : AesLib) (m : AesMacOp) (data : Bytes) : Res Unit × AesMacOp :=
  if m.finalized then (.error .operationNotInitialized, m)
  else
    let m := { m with inUse := true }
    if m.pad.length + data.length < 16 then (.ok (), { m with pad := m.pad ++ data })
    else
      let first : Res Bytes × AesMacOp :=
        if m.pad.length > 0 then
          let cursor := 16 - m.pad.length
          match ({ m with pad := m.pad ++ data.take cursor }).block L (m.pad ++ data.take cursor) with
          | (.error r, m) => (.error r, m)
          | (.ok (), m) => (.ok (data.drop cursor), m)
        else (.ok data, m)
      match first with
      | (.error r, m) => (.error r, m)
      | (.ok rest, m) => match m.blocks L ((rest.length - 1) / 16) rest with
        | (.error r, m) => (.error r, m)
        | (.ok rest, m) => (.ok (), { m with pad := rest })

/-- `finalize` (`src/ossl/aes.rs:2863-2896`); the buffer has the right length. -/
def finalize (L : AesLib) (m : AesMacOp) : Res Bytes × AesMacOp :=
  if !m.inUse then (.error .operationNotInitialized, m)
  else if m.finalized then (.error .operationNotInitialized, m)
  else
    let m := { m with finalized := true }
    if m.pad.length > 0 then
      match m.block L (m.pad ++ List.replicate (16 - m.pad.length) 0) with
      | (.error r, m) => (.error r, m)
      | (.ok (), m) => (.ok (m.macbuf.take m.maclen), m)
    else (.ok (m.macbuf.take m.maclen), m)

/-- `finalize_ver` (`src/ossl/aes.rs:2899-2914`). -/
def finalizeVer (L : AesLib) (m : AesMacOp) (sig : Bytes) : Res Unit × AesMacOp :=
  match m.finalize L with
  | (.error r, m) => (.error r, m)
  | (.ok computed, m) => if computed ≠ sig then (.error .signatureInvalid, m) else (.ok (), m)

end AesMacOp

/-- The calls on a MAC operation: C_SignUpdate or C_VerifyUpdate, C_SignFinal and C_Sign with the room of the buffer, or without one,
C_VerifyFinal and C_Verify. -/
inductive MacCall where
  | update (part : Bytes)
  | signFinal (room : Option Nat)
  | sign (data : Bytes) (room : Option Nat)
  | verifyFinal (sig : Bytes)
  | verify (data sig : Bytes)
deriving DecidableEq, Repr

/-- Their answers. -/
inductive MacOut where
  | done
  | data (b : Bytes)
  | len (n : Nat)
deriving DecidableEq, Repr

/-- `begin` and `update` (`src/ossl/aes.rs:2805-2810`, `:2936-2937`). -/
def macBegin (L : AesLib) (m : AesMacOp) (data : Bytes) : Res Unit × AesMacOp :=
  if m.inUse then (.error .operationNotInitialized, m) else m.update L data

/-- The calls (`src/fns/signing.rs:82-134`, `:166-175`, `:213-262`, `:372-411`; `src/ossl/aes.rs:2934-2975`).  A session no longer gives access to an
operation that is finalized (`src/session.rs:542-571`). -/
def macCall (L : AesLib) (m : AesMacOp) (c : MacCall) : Res MacOut × AesMacOp :=
  if m.finalized then (.error .operationNotInitialized, m)
  else match c with
    | .update p => match m.update L p with
      | (.error r, m) => (.error r, m)
      | (.ok (), m) => (.ok .done, m)
    | .signFinal none | .sign _ none => (.ok (.len m.maclen), m)
    | .signFinal (some room) =>
      if room < m.maclen then (.error .bufferTooSmall, m)
      else match m.finalize L with
        | (.error r, m) => (.error r, m)
        | (.ok b, m) => (.ok (.data b), m)
    | .sign d (some room) =>
      if room < m.maclen then (.error .bufferTooSmall, m)
      else match macBegin L m d with
        | (.error r, m) => (.error r, m)
        | (.ok (), m) => match m.finalize L with
          | (.error r, m) => (.error r, m)
          | (.ok b, m) => (.ok (.data b), m)
    | .verifyFinal sig =>
      if sig.length ≠ m.maclen then (.error .signatureLenRange, m)
      else match m.finalizeVer L sig with
        | (.error r, m) => (.error r, m)
        | (.ok (), m) => (.ok .done, m)
    | .verify d sig =>
      if sig.length ≠ m.maclen then (.error .signatureLenRange, m)
      else match macBegin L m d with
        | (.error r, m) => (.error r, m)
        | (.ok (), m) => match m.finalizeVer L sig with
          | (.error r, m) => (.error r, m)
          | (.ok (), m) => (.ok .done, m)

/-- A run of calls. -/
def macRun (L : AesLib) (m : AesMacOp) : List MacCall → List (Res MacOut) × AesMacOp
  | [] => ([], m)
  | c :: cs =>
    let (r, m) := macCall L m c
    let (rs, m) := macRun L m cs
    (r :: rs, m)

end Kry
