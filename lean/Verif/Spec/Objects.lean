import Verif.Model.State

/-!
# Objects as an application sees them

The life of session objects and of object handles, in words of calls and answers.
-/

namespace Kry.Spec

/-- The session object behind a handle of a slot. -/
def sessionObj (s : St) (i n : Nat) : Option Obj :=
  match AMap.get s.slots i with
  | none => none
  | some sl => AMap.get sl.token.sess n

/-- A private object made by a session (the objects describing the token itself belong to no session). -/
def privateSession (sl : Slot) (n : Nat) : Prop :=
  ∃ o, AMap.get sl.token.sess n = some o ∧ o.session ≠ 0 ∧ o.isPrivate = true

/-- The calls, with their answers, that may end the validity of object handle `n` of slot `i`:
destroying it, closing the session that made it, and, for a private session object, whatever logs out. -/
inductive Ends (i : Nat) (sl : Slot) (n : Nat) : Call → Out → Prop where
  | destroy (h : Nat) (x : Session) (hx : AMap.get sl.sessions h = some x) :
      Ends i sl n (.sess h (.destroyObject n)) .ok
  | close (h : Nat) (o : Obj) (ho : AMap.get sl.token.sess n = some o) (he : o.session = h) :
      Ends i sl n (.closeSession h) .ok
  | closeLast (h : Nat) (x : Session) (hx : AMap.get sl.sessions h = some x)
      (last : ∀ h' y, AMap.get sl.sessions h' = some y → h' = h) (hp : privateSession sl n) :
      Ends i sl n (.closeSession h) .ok
  | closeAll (o : Obj) (ho : AMap.get sl.token.sess n = some o) (he : o.session ≠ 0) :
      Ends i sl n (.closeAll i) .ok
  | logout (h : Nat) (r : Out) (x : Session) (hx : AMap.get sl.sessions h = some x)
      (hp : privateSession sl n) : Ends i sl n (.logout h) r
  | badLogin (h ut : Nat) (pin : Bytes) (r : Rv) (x : Session) (hx : AMap.get sl.sessions h = some x)
      (hp : privateSession sl n) : Ends i sl n (.login h ut pin) (.err r)
  | setPin (h : Nat) (old new : Bytes) (r : Out) (x : Session) (hx : AMap.get sl.sessions h = some x)
      (hl : sl.token.logged = none) (hp : privateSession sl n) :
      Ends i sl n (.sess h (.setPin old new)) r

/-- The session on which a call is made (0 for none). -/
def caller : Call → Nat
  | .sess h _ => h
  | .op h _ => h
  | _ => 0

/-- Calls that keep the handle table of slot `i`: all but leaving the library and C_InitToken. -/
def calm (i : Nat) : Call → Bool
  | .finalize => false
  | .crash => false
  | .initToken j _ _ => decide (j ≠ i)
  | _ => true

/-- Object calls that make a new object. -/
def makesS : SCall → Bool
  | .createObject _ => true
  | .copyObject .. => true
  | _ => false

/-- Key-management calls that make a new object. -/
def makesO : OCall → Bool
  | .generateKey .. => true
  | .generatePair .. => true
  | .unwrap .. => true
  | .derive .. => true
  | .encapsulate .. => true
  | .decapsulate .. => true
  | _ => false

/-- Calls that make a new object. -/
def makes : Call → Bool
  | .sess _ c => makesS c
  | .op _ c => makesO c
  | _ => false

/-- The object handles in an answer. -/
def gives : Out → List Nat
  | .handle n => [n]
  | .handles l => l
  | .handleBytes n _ => [n]
  | _ => []

/-- The object handles a call works on (those inside a mechanism parameter excepted). -/
def names : Call → List Nat
  | .sess _ (.copyObject n _) => [n]
  | .sess _ (.destroyObject n) => [n]
  | .sess _ (.getObjectSize n) => [n]
  | .sess _ (.getAttr n _) => [n]
  | .sess _ (.setAttr n _) => [n]
  | .op _ (.opInit k (some _) n _) => if k = .digest then [] else [n]
  | .op _ (.digestKey n) => [n]
  | .op _ (.wrap _ _ w n _) => [w, n]
  | .op _ (.unwrap _ _ n _ _) => [n]
  | .op _ (.derive _ _ n _) => [n]
  | .op _ (.encapsulate _ n _ _) => [n]
  | .op _ (.decapsulate _ n _ _) => [n]
  | _ => []

/-- The answer of a call that did not succeed. -/
def refusal : Out → Bool
  | .err _ => true
  | .attrs (.error _) _ => true
  | _ => false

/-- During the call nothing outside the library fails (storage, random generator). -/
def quiet (e : Env) : Prop := ∀ p, e.fault p = none

/-- If the object is a session object, attribute `ty` is stored as a CK_BBOOL. -/
def proper (s : St) (i n ty : Nat) : Prop :=
  ∀ o a, sessionObj s i n = some o → o.find ty = some a → a.atype = .bool

/-- Nobody is logged in to the token of slot `i`. -/
def loggedOut (s : St) (i : Nat) : Prop := ∀ sl, AMap.get s.slots i = some sl → sl.token.logged = none

/-- The token in slot `i` keeps, with the stored rows `rows`, an object whose CKA_TOKEN is true. -/
def tokenRows (s : St) (i : Nat) (rows : List (Nat × DbVal)) : Prop :=
  ∃ sl id v, AMap.get s.slots i = some sl ∧ (id, rows) ∈ sl.token.store.db.objs ∧
    AMap.get rows CKA_TOKEN = some (.int v) ∧ v ≠ 0

/-- The template does not ask for CKA_TOKEN true. -/
def noToken (tm : Template) : Prop := ∀ c ∈ tm, c.typ = CKA_TOKEN → c.toBool = .ok false

/-- The derivations whose parameter can ask for additional keys, each with a template of its own. -/
def manyKeys (m : Nat) : Prop := m = CKM_SP800_108_COUNTER_KDF ∨ m = CKM_SP800_108_FEEDBACK_KDF ∨
  m = CKM_SP800_108_DOUBLE_PIPELINE_KDF

/-- Key generation and derivation follow the template as far as CKA_TOKEN goes; nothing is said of the additional keys
of `manyKeys`. -/
structure HonoursToken (M : Mechs) : Prop where
  key : ∀ e m q tm o, M.genKey e m q tm = .ok o → noToken tm → o.isToken = false
  pair : ∀ e m q pub priv a b, M.genPair e m q pub priv = .ok (a, b) → noToken pub → noToken priv →
    a.isToken = false ∧ b.isToken = false
  derive : ∀ e m q k extra tm o os, M.derive e m q k extra tm = .ok (o :: os) → noToken tm →
    o.isToken = false ∧ (¬ manyKeys m → ∀ o' ∈ os, o'.isToken = false)

section
variable (M : Mechs) (C : Crypto) (O : Oracle)

/-- C_GetSessionInfo says that session `h` is read-only. -/
def readOnly (s : St) (h : Nat) : Prop :=
  ∃ e i st fl, (step M C O e s (.sess h .getSessionInfo)).1 = .sessInfo i st fl ∧ (st = .roPublic ∨ st = .roUser)

/-- C_GetSessionInfo says that session `h` is on slot `i`. -/
def onSlot (s : St) (h i : Nat) : Prop :=
  ∃ e st fl, (step M C O e s (.sess h .getSessionInfo)).1 = .sessInfo i st fl

/-- C_GetAttributeValue on session `h` reports the value `v` for attribute `ty` of the object with handle
`n` (for some environment, i.e. if storage works). -/
def reports (s : St) (h n ty : Nat) (v : Bytes) : Prop :=
  ∃ e q q', q.typ = ty ∧ q.isNull = false ∧
    (step M C O e s (.sess h (.getAttr n [q]))).1 = .attrs (.ok ()) [q'] ∧ v = q'.buf.take q'.len

/-- The whole object with handle `n` can be read when storage works: C_GetObjectSize answers. -/
def readable (s : St) (h n : Nat) : Prop :=
  ∃ e k, quiet e ∧ (step M C O e s (.sess h (.getObjectSize n))).1 = .size k

/-- No call of the run may end handle `n` of slot `i`. -/
def spared (i n : Nat) : St → Trace → Prop
  | _, [] => True
  | s, (e, c) :: rest =>
    (∀ sl, AMap.get s.slots i = some sl → ¬ Ends i sl n c (step M C O e s c).1) ∧
      spared i n (step M C O e s c).2 rest

/-- Some call of the run, made on a session of slot `i`, answered with object handle `n`. -/
def given (i n : Nat) : St → Trace → Prop
  | _, [] => False
  | s, (e, c) :: rest =>
    (caller c ≠ 0 ∧ onSlot M C O s (caller c) i ∧ n ∈ gives (step M C O e s c).1) ∨
      given i n (step M C O e s c).2 rest

end

end Kry.Spec
