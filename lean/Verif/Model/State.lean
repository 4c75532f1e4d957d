import Verif.Model.Ops

/-!
# Global state and the API (`src/lib.rs`, `src/slot.rs`, `src/fns/*.rs`)

One step of the machine is one API call, or the death of the process.  The files behind the slots
(`disks`) survive; while the library is initialised a slot's database is the one inside its token.
Every call is atomic with respect to others here: the locks (`src/lib.rs:296-330`, `src/slot.rs:108-176`)
make it so except for the lock order, which is treated separately.
-/

namespace Kry

/-- `Slot` (`src/slot.rs:18-29`). -/
structure Slot where
  token : Token
  sessions : List (Nat × Session)
deriving Repr

/-- `State` (`src/lib.rs:85-95`) and the files on disk. -/
structure St where
  slots : List (Nat × Slot)
  smap : List (Nat × Nat)
  next : Nat
  disks : List (Nat × Db)
deriving Repr

/-- API calls, and the death of the process. -/
inductive Call where
  | initialize (conf : List (Nat × TokCfg))
  | finalize
  | openSession (slot flags : Nat)
  | closeSession (h : Nat)
  | closeAll (slot : Nat)
  | login (h ut : Nat) (pin : Bytes)
  | logout (h : Nat)
  | initToken (slot : Nat) (pin : Bytes) (label : Option Bytes)
  | getTokenInfo (slot : Nat)
  | sess (h : Nat) (c : SCall)
  | op (h : Nat) (c : OCall)
  | crash
deriving Repr

namespace Slot

/-- `has_ro_sessions` (`src/slot.rs:185-193`). -/
def hasRo (s : Slot) : Bool := s.sessions.any fun p => p.2.state = .roPublic || p.2.state = .roUser

/-- The loop of `change_session_states` (`src/slot.rs:197-205`): stops at the first refusal. -/
def changeLoop (u : Option User) : List (Nat × Session) → Option Rv × List (Nat × Session)
  | [] => (none, [])
  | (h, s) :: rest =>
    match s.changeState u with
    | (some r, s) => (some r, (h, s) :: rest)
    | (none, s) =>
      let (r, rest) := changeLoop u rest
      (r, (h, s) :: rest)

/-- `invalidate_session_states` (`src/slot.rs:208-215`). -/
def invalidate (l : List (Nat × Session)) : List (Nat × Session) :=
  l.map fun p => (p.1, (p.2.changeState none).2)

end Slot

namespace St

/-- `STATE` at load time (`src/lib.rs:333-340`). -/
def init (disks : List (Nat × Db)) : St := ⟨[], [], 0, disks⟩

/-- `is_initialized` (`src/lib.rs:134-136`). -/
def ready (s : St) : Bool := s.next != 0

/-- `get_slot` (`src/lib.rs:139-147`). -/
def getSlot (s : St) (i : Nat) : Res Slot :=
  if !s.ready then .error .cryptokiNotInitialized
  else match AMap.get s.slots i with
    | some sl => .ok sl
    | none => .error .slotIdInvalid

/-- The slot of a session handle (`src/lib.rs:184-192`, `:194-205`, `:300-322`). -/
def getSessionSlot (s : St) (h : Nat) : Res (Nat × Slot) :=
  if !s.ready then .error .cryptokiNotInitialized
  else match AMap.get s.smap h with
    | none => .error .sessionHandleInvalid
    | some i => match s.getSlot i with
      | .error r => .error r
      | .ok sl => .ok (i, sl)

/-- `get_session` (`src/lib.rs:183-193`, `src/slot.rs:149-160`). -/
def getSession (s : St) (h : Nat) : Res (Nat × Slot × Session) :=
  match s.getSessionSlot h with
  | .error r => .error r
  | .ok (i, sl) => match AMap.get sl.sessions h with
    | none => .error .sessionHandleInvalid
    | some x => .ok (i, sl, x)

/-- Replace a slot. -/
def setSlot (s : St) (i : Nat) (sl : Slot) : St := { s with slots := AMap.modify s.slots i fun _ => sl }

/-- The files after the process is gone: those of the slots in use replace the old ones. -/
def files (s : St) : List (Nat × Db) :=
  s.slots.foldl (fun d p => AMap.insert d p.1 p.2.token.store.db) s.disks

end St

variable (M : Mechs) (C : Crypto) (O : Oracle)

/-- The slot loop of `initialize` (`src/fns/general.rs:58-73`): an error ends the call with the slots
added so far. -/
def initSlots (e : Env) (s : St) (already : Bool) : List (Nat × TokCfg) → Nat → Option Rv × St
  | [], _ => (if already then some .cryptokiAlreadyInitialized else none, s)
  | (i, cfg) :: rest, k =>
    let db : Db := match AMap.get s.slots i with
      | some sl => sl.token.store.db
      | none => match AMap.get s.disks i with
        | some d => d
        | none => Db.empty
    match Token.new C (e.sub k) db cfg with
    | .error r => (some r, s)
    | .ok t => match AMap.get s.slots i with
      | some _ => initSlots e s true rest (k + 1)
      | none => initSlots e { s with slots := s.slots ++ [(i, ⟨t, []⟩)] } already rest (k + 1)

/-- `initialize` (`src/fns/general.rs:19-80`); `conf` is the slot list of the configuration in force. -/
def fnInitialize (e : Env) (s : St) (conf : List (Nat × TokCfg)) : Out × St :=
  let (r, s) := if s.ready then initSlots C e s true conf 0
    else initSlots C e { s with slots := [], smap := [], next := 1 } false conf 0
  (match r with
    | none => .ok
    | some r => .err r, s)

/-- `finalize` (`src/fns/general.rs:95-103`, `src/lib.rs:112-131`).  Flushing an SQLite store cannot
fail (`src/storage/sqlite.rs:427-429`). -/
def fnFinalize (s : St) : Out × St :=
  if !s.ready then (.err .cryptokiNotInitialized, s)
  else (.ok, ⟨[], [], 0, s.files⟩)

/-- `open_session` (`src/fns/sessmgmt.rs:21-47`, `new_session` `src/lib.rs:209-221`). -/
def fnOpen (s : St) (i flags : Nat) : Out × St :=
  match s.getSlot i with
  | .error r => (.err r, s)
  | .ok sl =>
    if !sl.token.isInitialized then (.err .tokenNotInitialized, s)
    else if sl.token.logged = some .so ∧ flags &&& CKF_RW_SESSION = 0 then
      (.err .sessionReadWriteSoExists, s)
    else match Session.new i sl.token.logged flags with
      | .error r => (.err r, s)
      | .ok x =>
        (.handle s.next,
          { s.setSlot i { sl with sessions := AMap.insert sl.sessions s.next x } with
            smap := AMap.insert s.smap s.next i, next := s.next + 1 })

/-- `close_session` (`src/fns/sessmgmt.rs:78-85`, `drop_session` `src/lib.rs:252-264`). -/
def fnClose (e : Env) (s : St) (h : Nat) : Out × St :=
  match s.getSessionSlot h with
  | .error r => (.err r, s)
  | .ok (i, sl) =>
    if !sl.token.isInitialized then (.err .tokenNotInitialized, s)
    else
      let t := sl.token.dropSessionObjects h
      let ss := AMap.erase sl.sessions h
      let t := if ss = [] then (t.logout e).2 else t
      (.ok, { s.setSlot i ⟨t, ss⟩ with smap := AMap.erase s.smap h })

/-- `close_all_sessions` (`src/fns/sessmgmt.rs:101-111`, `src/lib.rs:268-274`): the session map is
emptied first, even if the slot does not exist. -/
def fnCloseAll (e : Env) (s : St) (i : Nat) : Out × St :=
  if !s.ready then (.err .cryptokiNotInitialized, s)
  else
    let s := { s with smap := AMap.retain s.smap fun _ v => v ≠ i }
    match s.getSlot i with
    | .error r => (.err r, s)
    | .ok sl =>
      if !sl.token.isInitialized then (.err .tokenNotInitialized, s.setSlot i { sl with sessions := [] })
      else
        let t := (AMap.keys sl.sessions).foldl Token.dropSessionObjects sl.token
        (.ok, s.setSlot i ⟨(t.logout e).2, []⟩)

/-- `login` (`src/fns/sessmgmt.rs:283-343`). -/
def fnLogin (e : Env) (s : St) (h ut : Nat) (pin : Bytes) : Out × St :=
  match s.getSession h with
  | .error r => (.err r, s)
  | .ok (i, sl, x) =>
    if ut = CKU_SO ∧ sl.hasRo = true then (.err .sessionReadOnlyExists, s)
    else if !sl.token.isInitialized then (.err .tokenNotInitialized, s)
    else if ut = CKU_CONTEXT_SPECIFIC then
      if x.login ≠ .required then (.err .operationNotInitialized, s)
      else
        let (r, t) := sl.token.login C (e.sub 0) ut pin
        match r with
        | .ok () => (.ok, s.setSlot i ⟨t, AMap.modify sl.sessions h fun x => { x with login := .loginOk }⟩)
        | .error r =>
          if r = .pinLocked then
            (.err r, s.setSlot i ⟨(t.logout (e.sub 1)).2, Slot.invalidate sl.sessions⟩)
          else (.err r, s.setSlot i ⟨t, sl.sessions⟩)
    else
      let (r, t) := sl.token.login C (e.sub 0) ut pin
      match r with
      | .error r => (.err r, s.setSlot i ⟨t, sl.sessions⟩)
      | .ok () =>
        let (r, ss) := Slot.changeLoop (Token.userOf ut) sl.sessions
        match r with
        | none => (.ok, s.setSlot i ⟨t, ss⟩)
        | some r => (.err r, s.setSlot i ⟨(t.logout (e.sub 1)).2, Slot.invalidate ss⟩)

/-- `logout` (`src/fns/sessmgmt.rs:370-386`). -/
def fnLogout (e : Env) (s : St) (h : Nat) : Out × St :=
  match s.getSession h with
  | .error r => (.err r, s)
  | .ok (i, sl, _) =>
    if !sl.token.isInitialized then (.err .tokenNotInitialized, s)
    else
      let (r, t) := sl.token.logout e
      match r with
      | .ok () => (.ok, s.setSlot i ⟨t, Slot.invalidate sl.sessions⟩)
      | .error r => (.err r, s.setSlot i ⟨t, sl.sessions⟩)

/-- `init_token` (`src/fns/stmgmt.rs:238-268`).  A label is 32 bytes. -/
def fnInitToken (e : Env) (s : St) (i : Nat) (pin : Bytes) (label : Option Bytes) : Out × St :=
  match s.getSlot i with
  | .error r => (.err r, s)
  | .ok sl =>
    if sl.sessions ≠ [] then (.err .sessionExists, s)
    else
      let lab := match label with
        | none => List.replicate 32 0x20
        | some l => l
      let (r, t) := sl.token.initToken C e pin lab
      let s := s.setSlot i ⟨t, sl.sessions⟩
      match r with
      | .ok () => (.ok, s)
      | .error .pinLocked => (.err .pinLocked, s)
      | .error .pinIncorrect => (.err .pinIncorrect, s)
      | .error .pinInvalid => (.err .pinInvalid, s)
      | .error .pinExpired => (.err .pinExpired, s)
      | .error _ => (.err .generalError, s)

/-- One step of the machine. -/
def step (e : Env) (s : St) (c : Call) : Out × St :=
  match c with
  | .initialize conf => fnInitialize C e s conf
  | .finalize => fnFinalize s
  | .openSession i f => fnOpen s i f
  | .closeSession h => fnClose e s h
  | .closeAll i => fnCloseAll e s i
  | .login h ut pin => fnLogin C e s h ut pin
  | .logout h => fnLogout e s h
  | .initToken i pin l => fnInitToken C e s i pin l
  | .getTokenInfo i => match s.getSlot i with
    | .error r => (.err r, s)
    | .ok sl => (.tokInfo sl.token.info, s)
  | .sess h c => match s.getSession h with
    | .error r => (.err r, s)
    | .ok (i, sl, x) =>
      let (o, x, t) := sessStep C O e h c x sl.token
      (o, s.setSlot i ⟨t, AMap.modify sl.sessions h fun _ => x⟩)
  | .op h c => match s.getSession h with
    | .error r => (.err r, s)
    | .ok (i, sl, x) =>
      let (o, x, t) := opStep M C e h c x sl.token
      (o, s.setSlot i ⟨t, AMap.modify sl.sessions h fun _ => x⟩)
  | .crash => (.ok, ⟨[], [], 0, s.files⟩)

/-- A run: the environment and call of every step. -/
abbrev Trace := List (Env × Call)

/-- The state after a run. -/
def run (s : St) : Trace → St
  | [] => s
  | (e, c) :: rest => run (step M C O e s c).2 rest

/-- The answers of a run. -/
def outs (s : St) : Trace → List Out
  | [] => []
  | (e, c) :: rest => (step M C O e s c).1 :: outs (step M C O e s c).2 rest

end Kry
