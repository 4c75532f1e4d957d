import Verif.Model.Token

/-!
# Sessions (`src/session.rs`) and the session-level calls of object management

`src/fns/objmgmt.rs`, `src/fns/stmgmt.rs`, `src/fns/sessmgmt.rs`.  NULL pointer arguments (answered
with `CKR_ARGUMENTS_BAD` before anything happens) are not modelled.
-/

namespace Kry

/-- `CK_STATE` values (`src/session.rs:336-358`). -/
inductive SState where
  | roPublic | roUser | rwPublic | rwUser | rwSo
deriving DecidableEq, Repr, Inhabited

/-- The nine kinds of operation (`src/session.rs:123-133`); searches are kept apart. -/
inductive OpKind where
  | msgEnc | msgDec | enc | dec | digest | sign | verify | verifySig
deriving DecidableEq, Repr, Inhabited

/-- `OpLoginStatus` (`src/session.rs:52-61`). -/
inductive OpLogin where
  | notInit | notRequired | required | loginOk
deriving DecidableEq, Repr, Inhabited

/-- An operation object (`Box<dyn Sign>` …): mechanism, `finalized()`, `busy()`, `updates_object()` and
the mechanism's own state, which is opaque here (`src/mechanism.rs`). -/
structure Op where
  mech : Nat
  fin : Bool
  busy : Bool
  upd : Option (Nat × Template)
  data : Bytes
deriving DecidableEq, Repr, Inhabited

/-- `Session` (`src/session.rs:311-322`).  `search` holds the remaining handles of an active search. -/
structure Session where
  slot : Nat
  state : SState
  flags : Nat
  search : Option (List Nat)
  ops : List (OpKind × Op)
  login : OpLogin
deriving DecidableEq, Repr, Inhabited

namespace Session

/-- `Session::new` (`src/session.rs:326-371`). -/
def new (slot : Nat) (u : Option User) (flags : Nat) : Res Session :=
  if flags &&& CKF_SERIAL_SESSION ≠ CKF_SERIAL_SESSION then .error .argumentsBad
  else
    let rw : Bool := flags &&& CKF_RW_SESSION == CKF_RW_SESSION
    let st : Res SState := match u with
      | none => .ok (if rw then .rwPublic else .roPublic)
      | some .user => .ok (if rw then .rwUser else .roUser)
      | some .so => if rw then .ok .rwUser else .error .operationNotInitialized
    match st with
    | .error r => .error r
    | .ok st => .ok ⟨slot, st, flags, none, [], .notInit⟩

/-- `change_session_state` (`src/session.rs:427-479`); `none` is `CK_UNAVAILABLE_INFORMATION`.  Only
these three user types are ever passed (`src/fns/sessmgmt.rs:331`, `src/slot.rs:213`). -/
def changeState (s : Session) (u : Option User) : Option Rv × Session :=
  match s.state, u with
  | .roPublic, none => (none, s)
  | .roPublic, some .user => (none, { s with state := .roUser })
  | .roPublic, some .so => (some .operationNotInitialized, s)
  | .rwPublic, none => (none, s)
  | .rwPublic, some .user => (none, { s with state := .rwUser })
  | .rwPublic, some .so => (none, { s with state := .rwSo })
  | .roUser, none => (none, { s with state := .roPublic })
  | .roUser, some .user => (none, s)
  | .roUser, some .so => (some .userAnotherAlreadyLoggedIn, s)
  | .rwUser, none => (none, { s with state := .rwPublic })
  | .rwUser, some .user => (none, s)
  | .rwUser, some .so => (some .userAnotherAlreadyLoggedIn, s)
  | .rwSo, none => (none, { s with state := .rwPublic })
  | .rwSo, some .user => (some .userAnotherAlreadyLoggedIn, s)
  | .rwSo, some .so => (none, s)

/-- `is_writable` (`src/session.rs:482-489`). -/
def isWritable (s : Session) : Bool :=
  match s.state with
  | .rwPublic | .rwUser | .rwSo => true
  | .roPublic | .roUser => false

/-- `check_login_status` (`src/session.rs:528-537`). -/
def checkLogin (s : Session) : Res Unit :=
  match s.login with
  | .notInit => .error .operationNotInitialized
  | .notRequired => .ok ()
  | .required => .error .userNotLoggedIn
  | .loginOk => .ok ()

/-- `check_no_op` (`src/session.rs:93-100`). -/
def checkNoOp (s : Session) (k : OpKind) : Res Unit :=
  match AMap.get s.ops k with
  | some o => if o.fin then .ok () else .error .operationActive
  | none => .ok ()

/-- `get_operation` (`src/session.rs:102-111`, `:542-547`). -/
def getOp (s : Session) (k : OpKind) : Res Op :=
  match s.checkLogin with
  | .error r => .error r
  | .ok () => match AMap.get s.ops k with
    | some o => if o.fin then .error .operationNotInitialized else .ok o
    | none => .error .operationNotInitialized

/-- `set_operation` (`src/session.rs:553-567`). -/
def setOp (s : Session) (k : OpKind) (o : Op) (needsLogin : Bool) : Session :=
  { s with ops := AMap.insert s.ops k o, login := if needsLogin then .required else .notRequired }

/-- `cancel_operation` (`src/session.rs:79-82`). -/
def cancelOp (s : Session) (k : OpKind) : Session := { s with ops := AMap.erase s.ops k }

/-- `new_search_operation` (`src/session.rs:492-506`); a search is never `finalized()`
(`src/session.rs:46-48`). -/
def newSearch (e : Env) (s : Session) (t : Token) (tm : Template) : Res Unit × Session × Token :=
  match s.search with
  | some _ => (.error .operationActive, s, t)
  | none =>
    let (r, t) := t.searchObjects e tm
    match r with
    | .error r => (.error r, s, t)
    | .ok l => (.ok (), { s with search := some l, login := .notRequired }, t)

/-- `find_objects` (`src/fns/objmgmt.rs:499-535`, `results` `src/session.rs:33-42`). -/
def findObjects (s : Session) (max : Nat) : Res (List Nat) × Session :=
  match s.checkLogin with
  | .error r => (.error r, s)
  | .ok () => match s.search with
    | none => (.error .operationNotInitialized, s)
    | some l => (.ok (l.take max), { s with search := some (l.drop max) })

end Session

/-- `fail_if_cka_token_true` (`src/fns/mod.rs:31-40`). -/
def failIfTokenTrue : Template → Res Unit
  | [] => .ok ()
  | c :: rest =>
    if c.typ = CKA_TOKEN then
      match c.toBool with
      | .error r => .error r
      | .ok true => .error .sessionReadOnly
      | .ok false => failIfTokenTrue rest
    else failIfTokenTrue rest

/-- Answers of the API functions: a return code, or `CKR_OK` with output. -/
inductive Out where
  | ok
  | err (r : Rv)
  | handle (n : Nat)
  | handles (l : List Nat)
  | size (n : Nat)
  | attrs (r : Res Unit) (l : List OutAttr)
  | sessInfo (slot : Nat) (state : SState) (flags : Nat)
  | tokInfo (i : TokInfo)
  | bytes (b : Bytes)
  | handleBytes (n : Nat) (b : Bytes)
deriving DecidableEq, Repr, Inhabited

/-- The answer of a function without output. -/
def Out.of : Res Unit → Out
  | .ok () => .ok
  | .error r => .err r

/-- The answer of a function that returns a handle. -/
def Out.ofHandle : Res Nat → Out
  | .ok n => .handle n
  | .error r => .err r

/-- The answer of a function that returns bytes. -/
def Out.ofBytes : Res Bytes → Out
  | .ok b => .bytes b
  | .error r => .err r

/-- The answer of a function that returns a length. -/
def Out.ofSize : Res Nat → Out
  | .ok n => .size n
  | .error r => .err r

/-- Calls that name a session and work on that session and its token only. -/
inductive SCall where
  | getSessionInfo
  | initPin (pin : Bytes)
  | setPin (old new : Bytes)
  | createObject (t : Template)
  | copyObject (h : Nat) (t : Template)
  | destroyObject (h : Nat)
  | getObjectSize (h : Nat)
  | getAttr (h : Nat) (t : List OutAttr)
  | setAttr (h : Nat) (t : Template)
  | findInit (t : Template)
  | find (max : Nat)
  | findFinal
deriving Repr

variable (C : Crypto) (O : Oracle)

/-- `init_pin` (`src/fns/stmgmt.rs:293-308`). -/
def fnInitPin (e : Env) (t : Token) (pin : Bytes) : Res Unit × Token :=
  if t.logged ≠ some .so then (.error .userNotLoggedIn, t)
  else t.setPin C e (some .user) pin []

/-- `set_pin` (`src/fns/stmgmt.rs:332-376`). -/
def fnSetPin (e : Env) (s : Session) (t : Token) (old new : Bytes) : Res Unit × Token :=
  if !s.isWritable then (.error .sessionReadOnly, t)
  else if new = [] ∨ old = [] then (.error .pinInvalid, t)
  else if !t.isInitialized then (.error .tokenNotInitialized, t)
  else if t.loggedIn then t.setPin C (e.sub 1) none new old
  else
    let (r, t) := t.login C (e.sub 0) CKU_USER old
    match r with
    | .error r => (.error r, t)
    | .ok () =>
      let (r, t) := t.setPin C (e.sub 1) none new old
      let (_, t) := t.logout (e.sub 2)
      (r, t)

/-- `create_object` (`src/fns/objmgmt.rs:21-94`). -/
def fnCreate (e : Env) (h : Nat) (s : Session) (t : Token) (tm : Template) : Res Nat × Token :=
  match (if s.isWritable then .ok () else failIfTokenTrue tm) with
  | .error r => (.error r, t)
  | .ok () =>
    if !t.isInitialized then (.error .tokenNotInitialized, t)
    else t.createObject C O e h tm

/-- `copy_object` (`src/fns/objmgmt.rs:123-158`). -/
def fnCopy (e : Env) (h : Nat) (s : Session) (t : Token) (oh : Nat) (tm : Template) : Res Nat × Token :=
  match (if s.isWritable then .ok () else failIfTokenTrue tm) with
  | .error r => (.error r, t)
  | .ok () =>
    if !t.isInitialized then (.error .tokenNotInitialized, t)
    else t.copyObject C e h oh tm

/-- `destroy_object` (`src/fns/objmgmt.rs:189-203`). -/
def fnDestroy (e : Env) (s : Session) (t : Token) (oh : Nat) : Res Unit × Token :=
  if !t.isInitialized then (.error .tokenNotInitialized, t)
  else match t.getObjectByHandle C (e.sub 0) oh with
    | .error r => (.error r, t)
    | .ok o =>
      if o.isToken && !s.isWritable then (.error .actionProhibited, t)
      else t.destroyObject C (e.sub 1) oh

/-- `set_attribute_value` (`src/fns/objmgmt.rs:397-429`). -/
def fnSetAttr (e : Env) (s : Session) (t : Token) (oh : Nat) (tm : Template) : Res Unit × Token :=
  if !t.isInitialized then (.error .tokenNotInitialized, t)
  else match t.getObjectByHandle C (e.sub 0) oh with
    | .error r => (.error r, t)
    | .ok o =>
      if o.isToken && !t.loggedIn then (.error .userNotLoggedIn, t)
      else if o.isToken && !s.isWritable then (.error .sessionReadOnly, t)
      else t.setObjectAttrs C (e.sub 1) oh tm

/-- One call on session `h`.  (`get_attribute_value` `src/fns/objmgmt.rs:266-371` without the
configurable DER wrapping of CKA_EC_POINT; the remaining calls `src/fns/objmgmt.rs:226-241`,
`:454-478`, `:499-535`, `:563-568`, `src/fns/sessmgmt.rs:129-143`.) -/
def sessStep (e : Env) (h : Nat) (c : SCall) (s : Session) (t : Token) : Out × Session × Token :=
  match c with
  | .getSessionInfo => (.sessInfo s.slot s.state s.flags, s, t)
  | .initPin pin =>
    if !t.isInitialized then (.err .tokenNotInitialized, s, t)
    else
      let (r, t) := fnInitPin C e t pin
      (Out.of r, s, t)
  | .setPin old new =>
    let (r, t) := fnSetPin C e s t old new
    (Out.of r, s, t)
  | .createObject tm =>
    let (r, t) := fnCreate C O e h s t tm
    (Out.ofHandle r, s, t)
  | .copyObject oh tm =>
    let (r, t) := fnCopy C e h s t oh tm
    (Out.ofHandle r, s, t)
  | .destroyObject oh =>
    let (r, t) := fnDestroy C e s t oh
    (Out.of r, s, t)
  | .getObjectSize oh =>
    if !t.isInitialized then (.err .tokenNotInitialized, s, t)
    else match t.getObjectSize C e oh with
      | .error r => (.err r, s, t)
      | .ok n => (.size n, s, t)
  | .getAttr oh tm =>
    if !t.isInitialized then (.err .tokenNotInitialized, s, t)
    else
      let (r, l) := t.getObjectAttrs C e oh tm
      (.attrs r l, s, t)
  | .setAttr oh tm =>
    let (r, t) := fnSetAttr C e s t oh tm
    (Out.of r, s, t)
  | .findInit tm =>
    if !t.isInitialized then (.err .tokenNotInitialized, s, t)
    else
      let (r, s, t) := s.newSearch e t tm
      (Out.of r, s, t)
  | .find max =>
    let (r, s) := s.findObjects max
    match r with
    | .error r => (.err r, s, t)
    | .ok l => (.handles l, s, t)
  | .findFinal => (.ok, { s with search := none }, t)

end Kry
