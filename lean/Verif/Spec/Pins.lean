import Verif.Spec.Session

/-!
# What an observer knows about PINs

A second notebook, kept next to `Obs`: for every token the PINs each user may have, the number of
failed attempts since the last success, and whether C_InitToken succeeded.  Nothing here looks into the
machine.
-/

namespace Kry.Spec

/-- The answers that tell of a refused PIN. -/
def refusedPin (r : Rv) : Prop := r = .pinIncorrect ∨ r = .pinLocked ∨ r = .pinInvalid ∨ r = .pinExpired

instance (r : Rv) : Decidable (refusedPin r) := by unfold refusedPin; infer_instance

/-- Disk, random generator and cryptographic library may fail in any way, but not with an error by which
the code tells a refused PIN, a missing database or a storage without SO PIN
(`src/storage/sqlite_common.rs:16-56`: SQLite errors become none of these). -/
def plain (e : Env) : Prop :=
  ∀ p r, e.fault p = some r → ¬ refusedPin r ∧ r ≠ .userTypeInvalid ∧ r ≠ .cryptokiNotInitialized

/-- One user of one token. -/
structure PinNote where
  /-- the PINs that may be in force; none: the user has no PIN -/
  pins : List Bytes
  /-- failed attempts since the last success or change -/
  fails : Nat
deriving DecidableEq, Repr

/-- The notebook. -/
structure PinBook where
  note : Nat → User → PinNote
  /-- C_InitToken succeeded, and none failed with CKR_GENERAL_ERROR since -/
  known : Nat → Bool

def PinBook.empty : PinBook := ⟨fun _ _ => ⟨[], 0⟩, fun _ => false⟩

/-- Change the note of one user. -/
def PinBook.put (b : PinBook) (i : Nat) (u : User) (n : PinNote) : PinBook :=
  { b with note := fun j w => if j = i ∧ w = u then n else b.note j w }

/-- Whose PIN of which slot a call presents, and the PIN. -/
def presents (o : Obs) : Call → Option (Nat × User × Bytes)
  | .login h ut pin => match o.slotsOf h with
    | [] => none
    | i :: _ =>
      if ut = CKU_CONTEXT_SPECIFIC then (o.who i).map fun u => (i, u, pin)
      else if o.who i ≠ none then none
      else if ut = CKU_SO then some (i, .so, pin)
      else if ut = CKU_USER then some (i, .user, pin)
      else none
  | .sess h (.setPin old _) => match o.slotsOf h with
    | [] => none
    | i :: _ => some (i, (o.who i).getD .user, old)
  | .initToken i pin _ => some (i, .so, pin)
  | _ => none

/-- Another failed attempt; there are never more than ten. -/
def PinNote.miss (n : PinNote) : PinNote := { n with fails := min 10 (n.fails + 1) }

/-- Read one event; `o` is the first notebook before it. -/
def PinBook.see (o : Obs) (b : PinBook) : Event → PinBook
  | (c, .err .pinIncorrect) | (c, .err .pinLocked) => match presents o c with
    | some (i, u, _) => b.put i u (b.note i u).miss
    | none => b
  | (.login h ut pin, .ok) => match presents o (.login h ut pin) with
    | some (i, u, _) => b.put i u { b.note i u with fails := 0 }
    | none => b
  | (.sess h (.setPin old new), .ok) => match presents o (.sess h (.setPin old new)) with
    | some (i, u, _) => b.put i u ⟨[new], 0⟩
    | none => b
  | (.sess h (.initPin pin), .ok) => match o.slotsOf h with
    | [] => b
    | i :: _ => b.put i .user ⟨[pin], 0⟩
  | (.initToken i pin _, .ok) =>
    let b := (b.put i .so ⟨[pin], 0⟩).put i .user ⟨[], 0⟩
    { b with known := setAt b.known i true }
  | (.initToken i pin _, .err .generalError) =>
    let n := b.note i .so
    let b := b.put i .so { n with pins := [] :: (if b.known i then n.pins else pin :: n.pins) }
    { b with known := setAt b.known i false }
  | _ => b

/-- Read a history with both notebooks. -/
def readPins (l : List Event) : Obs × PinBook :=
  l.foldl (fun x ev => (x.1.see ev, x.2.see x.1 ev)) (.empty, .empty)

/-- The answer to a PIN that a user has to expect. -/
def verdict (C : Crypto) (n : PinNote) (pin : Bytes) : Out :=
  match n.pins with
  | [] => .err .userPinNotInitialized
  | p :: _ =>
    if 10 ≤ n.fails then .err .pinLocked
    else if C.pinKey pin = C.pinKey p then .ok
    else if n.fails = 9 then .err .pinLocked
    else .err .pinIncorrect

/-- The calls that check or set a PIN. -/
def pinCall : Call → Bool
  | .login .. | .initToken .. | .sess _ (.setPin ..) | .sess _ (.initPin ..) => true
  | _ => false

/-- Events that leave no doubt: C_Logout and C_InitToken do not answer CKR_GENERAL_ERROR. -/
def smooth : Event → Prop
  | (.logout _, .err .generalError) => False
  | (.initToken _ _ _, .err .generalError) => False
  | _ => True

end Kry.Spec
