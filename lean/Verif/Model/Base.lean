import Verif.Model.Consts

/-!
# Base definitions of the model

Error values, byte strings, little-endian `CK_ULONG` encoding, UTF-8 validity and
association lists.  Paths cited in comments are relative to `/repo`.
-/

namespace Kry

/-- PKCS#11 return codes the modelled functions can produce (`src/error.rs:18-34`, constants from
`src/pkcs11/headers/3.2/pkcs11.h`).  `attrNotFound` is the internal
`ErrorKind::AttributeNotFound` (`src/error.rs:41`, `src/error.rs:102-111`), which reaches the
application as `CKR_GENERAL_ERROR`.  `panic` is not a return code: it stands for a Rust panic or an
invalid memory access (the process aborts). -/
inductive Rv where
  | generalError | argumentsBad | attrReadOnly | attrSensitive | attrTypeInvalid
  | attrValueInvalid | actionProhibited | bufferTooSmall | cantLock
  | cryptokiNotInitialized | cryptokiAlreadyInitialized | dataInvalid | dataLenRange | deviceError | deviceMemory
  | encryptedDataInvalid | encryptedDataLenRange | functionCanceled
  | functionFailed | functionNotSupported | keyFunctionNotPermitted
  | keyHandleInvalid | keyIndigestible | keyNeeded | keyNotNeeded | keyNotWrappable | keySizeRange | keyTypeInconsistent | keyUnextractable
  | keyChanged | mechanismInvalid | mechanismParamInvalid | objectHandleInvalid
  | operationActive | operationNotInitialized | operationCancelFailed | pinIncorrect | pinInvalid | pinLenRange | pinLocked
  | pinExpired | savedStateInvalid | sessionCount | sessionExists | sessionHandleInvalid
  | sessionParallelNotSupported | sessionReadOnly | sessionReadOnlyExists
  | sessionReadWriteSoExists | signatureInvalid | signatureLenRange | slotIdInvalid
  | stateUnsaveable | templateIncomplete | templateInconsistent | tokenNotPresent | tokenNotInitialized
  | tokenNotRecognized | tokenWriteProtected | tokenResourceExceeded | unwrappingKeyHandleInvalid | unwrappingKeyTypeInconsistent
  | userAlreadyLoggedIn | userAnotherAlreadyLoggedIn | userNotLoggedIn
  | userPinNotInitialized | userTypeInvalid | wrappedKeyInvalid | wrappedKeyLenRange
  | wrappingKeyHandleInvalid | wrappingKeyTypeInconsistent | wrappingKeySizeRange
  | randomNoRng | parameterSetNotSupported | attrNotFound | slotConfig | configError | panic
deriving DecidableEq, Repr, Inhabited

/-- A byte string (`Vec<u8>` / `&[u8]`). -/
abbrev Bytes := List UInt8

/-- Results of modelled functions: `Result<T>` of `src/error.rs:15`. -/
abbrev Res (α : Type) := Except Rv α

/-- Deciding equality of results, so that concrete evaluations can be checked by the kernel. -/
instance instDecEqRes {α : Type} [DecidableEq α] : DecidableEq (Res α) := fun a b =>
  match a, b with
  | .ok x, .ok y => if h : x = y then .isTrue (by rw [h]) else .isFalse (fun e => h (by injection e))
  | .error x, .error y =>
      if h : x = y then .isTrue (by rw [h]) else .isFalse (fun e => h (by injection e))
  | .ok _, .error _ => .isFalse (fun e => by cases e)
  | .error _, .ok _ => .isFalse (fun e => by cases e)

/-- `AttrType` of `src/attribute.rs:24-41`: the kind of value an attribute holds. -/
inductive AttrType where
  | bool | num | string | bytes | ulongArray | date | deny | ignore
deriving DecidableEq, Repr, Inhabited

/-- Little-endian encoding of `n` on `k` bytes (`to_ne_bytes` / `to_le_bytes` on the little-endian
hosts the model assumes). -/
def toLE : Nat → Nat → Bytes
  | 0, _ => []
  | k + 1, n => UInt8.ofNat (n % 256) :: toLE k (n / 256)

/-- Little-endian decoding (`from_ne_bytes`). -/
def fromLE : Bytes → Nat
  | [] => 0
  | b :: bs => b.toNat + 256 * fromLE bs

/-- Big-endian encoding on `k` bytes (`to_be_bytes`). -/
def toBE (k n : Nat) : Bytes := (toLE k n).reverse

/-- Big-endian decoding (`from_be_bytes`). -/
def fromBE (bs : Bytes) : Nat := fromLE bs.reverse

/-- `size_of::<CK_ULONG>()` on the modelled 64-bit hosts (`src/misc.rs:13`). -/
abbrev ulongSize : Nat := 8

/-- `CK_ULONG::to_ne_bytes` (used by `src/attribute.rs:524`). -/
def ulongBytes (n : Nat) : Bytes := toLE 8 n

/-- Is a byte a UTF-8 continuation byte. -/
def isCont (b : UInt8) : Bool := b.toNat / 64 == 2

/-- UTF-8 validity, the acceptance condition of `std::str::from_utf8` (RFC 3629: no overlong
forms, no surrogates, nothing above U+10FFFF). -/
def validUtf8 : Bytes → Bool
  | [] => true
  | b0 :: rest =>
    let n0 := b0.toNat
    if n0 < 0x80 then validUtf8 rest
    else match rest with
    | [] => false
    | b1 :: rest1 =>
      let n1 := b1.toNat
      if 0xC2 ≤ n0 ∧ n0 ≤ 0xDF then isCont b1 && validUtf8 rest1
      else match rest1 with
      | [] => false
      | b2 :: rest2 =>
        if n0 = 0xE0 then decide (0xA0 ≤ n1) && isCont b1 && isCont b2 && validUtf8 rest2
        else if n0 = 0xED then decide (n1 ≤ 0x9F) && isCont b1 && isCont b2 && validUtf8 rest2
        else if 0xE1 ≤ n0 ∧ n0 ≤ 0xEF then isCont b1 && isCont b2 && validUtf8 rest2
        else match rest2 with
        | [] => false
        | b3 :: rest3 =>
          if n0 = 0xF0 then decide (0x90 ≤ n1) && isCont b1 && isCont b2 && isCont b3 && validUtf8 rest3
          else if 0xF1 ≤ n0 ∧ n0 ≤ 0xF3 then isCont b1 && isCont b2 && isCont b3 && validUtf8 rest3
          else if n0 = 0xF4 then decide (n1 ≤ 0x8F) && isCont b1 && isCont b2 && isCont b3 && validUtf8 rest3
          else false

/-! ## Association lists

Rust `HashMap`/`BTreeMap`/`BiHashMap` values are modelled as association lists.  No theorem depends
on their order. -/

namespace AMap

variable {κ : Type} {α : Type} [DecidableEq κ]

/-- `HashMap::get`. -/
def get : List (κ × α) → κ → Option α
  | [], _ => none
  | (k, v) :: m, x => if k = x then some v else get m x

/-- `HashMap::remove`. -/
def erase (m : List (κ × α)) (x : κ) : List (κ × α) := m.filter fun p => p.1 ≠ x

/-- `HashMap::insert`. -/
def insert (m : List (κ × α)) (x : κ) (v : α) : List (κ × α) := (x, v) :: erase m x

/-- In-place change of one entry (`get_mut`). -/
def modify (m : List (κ × α)) (x : κ) (f : α → α) : List (κ × α) :=
  m.map fun p => if p.1 = x then (p.1, f p.2) else p

/-- `HashMap::keys`. -/
def keys (m : List (κ × α)) : List κ := m.map Prod.fst

/-- `HashMap::retain`. -/
def retain (m : List (κ × α)) (f : κ → α → Bool) : List (κ × α) := m.filter fun p => f p.1 p.2

end AMap

end Kry
