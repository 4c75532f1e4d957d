import Verif.Spec.Session

/-!
# What an observer of the calls and their answers knows about the operations of a session

As in `Spec/Session.lean`: a notebook kept from calls and answers alone.
-/

namespace Kry.Spec

/-- The things a session has at most one of. -/
inductive Kind where
  | search
  | op (k : OpKind)
deriving DecidableEq, Repr

/-- Is one going on?  `maybe` only after one of its calls failed: some errors end an operation and some
do not. -/
inductive Known where
  | no | yes | maybe
deriving DecidableEq, Repr

/-- After a failed call on it. -/
def Known.failed : Known → Known
  | .no => .no
  | _ => .maybe

/-- Operations on many messages, which go on after each of them. -/
def manyMessages : OpKind → Bool
  | .msgEnc | .msgDec => true
  | _ => false

/-- The calls that end an operation when they succeed: the final and the one-shot call, and
C_MessageEncryptFinal / C_MessageDecryptFinal. -/
def ending (k : OpKind) : Act → Bool
  | .oneShot | .final => !manyMessages k
  | .finish => manyMessages k
  | _ => false

/-- The flag that names a kind in C_SessionCancel; the implementation has none for
C_VerifySignatureInit. -/
def cancelFlag : Kind → Nat
  | .search => CKF_FIND_OBJECTS
  | .op .msgEnc => CKF_MESSAGE_ENCRYPT
  | .op .msgDec => CKF_MESSAGE_DECRYPT
  | .op .enc => CKF_ENCRYPT
  | .op .dec => CKF_DECRYPT
  | .op .digest => CKF_DIGEST
  | .op .sign => CKF_SIGN
  | .op .verify => CKF_VERIFY
  | .op .verifySig => 0

/-- The operations a call works on. -/
def worksWith : OCall → List OpKind
  | .opRun k _ _ => [k]
  | .digestKey _ => [.digest]
  | .digestEncrypt _ => [.enc, .digest]
  | .decryptDigest _ => [.dec, .digest]
  | .signEncrypt _ => [.enc, .sign]
  | .decryptVerify _ => [.dec, .verify]
  | _ => []

/-- Read one operation call with its answer. -/
def seeOp (g : Kind → Known) (c : OCall) (a : Out) (j : Kind) : Known :=
  match c, a with
  | .opInit k (some _) _ _, .ok => if j = .op k then .yes else g j
  | .opInit k none _ _, _ => if j = .op k then .no else g j
  | .cancel f, _ => if f &&& cancelFlag j ≠ 0 then .no else g j
  | .opRun k act _, .err _ => if j = .op k ∧ act ≠ .finish then (g j).failed else g j
  | .opRun _ _ _, .size _ => g j
  | .opRun k act _, _ => if j = .op k ∧ ending k act = true then .no else g j
  | c, .err _ => if ∃ k ∈ worksWith c, j = .op k then (g j).failed else g j
  | _, _ => g j

/-- Read one session call with its answer. -/
def seeSess (g : Kind → Known) (c : SCall) (a : Out) (j : Kind) : Known :=
  match c, a with
  | .findInit _, .ok => if j = .search then .yes else g j
  | .findFinal, _ => if j = .search then .no else g j
  | _, _ => g j

/-- Read one event. -/
def seeKinds (g : Nat → Kind → Known) : Event → Nat → Kind → Known
  | (.openSession _ _, .handle n), h => if h = n then fun _ => .no else g h
  | (.op h' c, a), h => if h = h' then seeOp (g h) c a else g h
  | (.sess h' c, a), h => if h = h' then seeSess (g h) c a else g h
  | _, h => g h

/-- What is known after a history about a kind in a session. -/
def known (l : List Event) : Nat → Kind → Known := l.foldl seeKinds fun _ _ => .no

end Kry.Spec

namespace Kry

/-- What the theorems assume of the mechanisms: a successful final or one-shot call of an operation that
is not on messages marks it finalized; a successful update, work on a message, and a successful question
for a length do not.  Read from `finalized` in `src/ossl/*.rs`, `src/native/*.rs`, `src/hash.rs`,
`src/hotp.rs`. -/
structure Lawful (M : Mechs) : Prop where
  ends : ∀ e k a op i b op', Spec.manyMessages k = false → a = .oneShot ∨ a = .final →
    M.run e k a op i = (.ok b, op') → op'.fin = true
  goes : ∀ e k a op i b op', Spec.manyMessages k = true ∨ a = .update →
    M.run e k a op i = (.ok b, op') → op'.fin = op.fin
  asks : ∀ k a op n m op', M.len k a op n = (.ok m, op') → op'.fin = op.fin

end Kry
