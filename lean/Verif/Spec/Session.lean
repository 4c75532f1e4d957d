import Verif.Model.State

/-!
# What an observer of the calls and their answers knows about sessions and logins

Nothing here looks into the machine: an observer sees every call with its answer and keeps a notebook.
-/

namespace Kry.Spec

/-- A call and its answer. -/
abbrev Event := Call × Out

/-- An open session: its handle, its slot, the flags given to C_OpenSession, and whether it was opened
while the SO was already logged in. -/
structure Live where
  h : Nat
  slot : Nat
  flags : Nat
  late : Bool
deriving DecidableEq, Repr

/-- The notebook. -/
structure Obs where
  /-- the open sessions -/
  live : List Live
  /-- every handle returned since the library was initialised -/
  issued : List Nat
  /-- who is logged in to the token of a slot -/
  who : Nat → Option User
  /-- the last C_Logout on the slot failed with CKR_GENERAL_ERROR and since then nobody logged in
  and the sessions were not all closed -/
  stale : Nat → Bool

def Obs.empty : Obs := ⟨[], [], fun _ => none, fun _ => false⟩

/-- Change a function at one place. -/
def setAt {α : Type} (f : Nat → α) (i : Nat) (v : α) : Nat → α := fun j => if j = i then v else f j

/-- The slots of the sessions with this handle. -/
def Obs.slotsOf (o : Obs) (h : Nat) : List Nat := (o.live.filter fun l => l.h = h).map Live.slot

/-- Somebody logged in or out through session `h`. -/
def Obs.setWho (o : Obs) (h : Nat) (u : Option User) (st : Bool) : Obs :=
  match o.slotsOf h with
  | [] => o
  | i :: _ => { o with
      who := setAt o.who i u, stale := setAt o.stale i st
      live := o.live.map fun l => if l.slot = i then { l with late := false } else l }

/-- Read one event. -/
def Obs.see (o : Obs) : Event → Obs
  | (.openSession i f, .handle n) =>
    { o with live := ⟨n, i, f, o.who i == some .so⟩ :: o.live, issued := n :: o.issued }
  | (.closeSession h, .ok) =>
    let rest := o.live.filter fun l => l.h ≠ h
    let ended (i : Nat) : Prop := i ∈ o.slotsOf h ∧ ∀ l ∈ rest, l.slot ≠ i
    have (i : Nat) : Decidable (ended i) := inferInstanceAs (Decidable (_ ∧ _))
    { o with
      live := rest
      who := fun i => if ended i then none else o.who i
      stale := fun i => if ended i then false else o.stale i }
  | (.closeAll i, .ok) =>
    { o with live := o.live.filter fun l => l.slot ≠ i, who := setAt o.who i none,
             stale := setAt o.stale i false }
  | (.finalize, .ok) => .empty
  | (.crash, _) => .empty
  | (.login h ut _, .ok) =>
    if ut = CKU_SO then o.setWho h (some .so) false
    else if ut = CKU_USER then o.setWho h (some .user) false
    else o
  | (.login h ut _, .err .pinLocked) => if ut = CKU_CONTEXT_SPECIFIC then o.setWho h none false else o
  | (.logout h, .ok) => o.setWho h none false
  | (.logout h, .err .generalError) => o.setWho h none true
  | _ => o

/-- Read a whole history. -/
def observe (l : List Event) : Obs := l.foldl Obs.see .empty

/-- The session a call names. -/
def named : Call → Option Nat
  | .closeSession h | .login h _ _ | .logout h | .sess h _ | .op h _ => some h
  | _ => none

/-- The state C_GetSessionInfo should report. -/
def expected : Option User → (rw : Bool) → SState
  | none, false => .roPublic
  | none, true => .rwPublic
  | some .user, false => .roUser
  | some .user, true => .rwUser
  | some .so, _ => .rwSo

/-- The read/write flag of C_OpenSession. -/
def isRw (flags : Nat) : Bool := flags.testBit 1

end Kry.Spec

namespace Kry

variable (M : Mechs) (C : Crypto) (O : Oracle)

/-- The history of a run: calls with their answers. -/
def hist (s : St) : Trace → List Spec.Event
  | [] => []
  | (e, c) :: rest => (c, (step M C O e s c).1) :: hist (step M C O e s c).2 rest

end Kry
