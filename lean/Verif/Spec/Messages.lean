import Verif.Spec.Operations

/-!
# What an observer of the calls and their answers knows about open messages

C_EncryptMessageBegin opens a message of a message operation, the C_EncryptMessageNext with CKF_END_OF_MESSAGE closes
it; the same for decryption.  As in `Spec/Operations.lean`: a notebook kept from calls and answers alone.
-/

namespace Kry.Spec

/-- Read one operation call with its answer.  `maybe` only after a failed begin or one-shot call. -/
def seeMsg (g : OpKind → Known) (c : OCall) (a : Out) (j : OpKind) : Known :=
  match c with
  | .opInit k (some _) _ _ => if j = k ∧ a = .ok then .no else g j
  | .opInit k none _ _ => if j = k then .no else g j
  | .cancel f => if f &&& cancelFlag (.op j) ≠ 0 then .no else g j
  | .opRun k act _ =>
    if j ≠ k then g j
    else match act, a with
      | .begin, .ok => .yes
      | .begin, .err _ | .oneShot, .err _ => if g j = .no then .maybe else g j
      | .oneShot, .bytes _ => .no
      | .next, .bytes _ => .yes
      | .last, .bytes _ => .no
      | .finish, .ok => .no
      | _, _ => g j
  | _ => g j

/-- Read one event. -/
def seeMsgs (g : Nat → OpKind → Known) : Event → Nat → OpKind → Known
  | (.openSession _ _, .handle n), h => if h = n then fun _ => .no else g h
  | (.op h' c, a), h => if h = h' then seeMsg (g h) c a else g h
  | _, h => g h

/-- Whether session `h` has an open message, after a history. -/
def message (l : List Event) : Nat → OpKind → Known := l.foldl seeMsgs fun _ _ => .no

end Kry.Spec
