import Verif.Spec.Objects

/-!
# What a search should find
-/

namespace Kry.Spec

/-- A stored attribute has the value of a template entry: the column holds what storing that value would
write. -/
def rowIs (rows : List (Nat × DbVal)) (c : CkAttr) : Prop :=
  ∃ a v, Attr.fromCk c = .ok a ∧ encodeAttr a = .ok (some v) ∧ AMap.get rows c.typ = some v

/-- The template asks for nothing the object keeps secret: the object is not sensitive, or every entry
names an attribute of its type that is not a sensitive one. -/
def mayAsk (o : Obj) (tm : Template) : Prop :=
  o.isSensitive = false ∨ ∃ F, objFactory o = .ok F ∧ ∀ c ∈ tm, ∃ f,
    F.attrs.find? (fun f => f.typ == c.typ) = some f ∧ f.is oaSensitive = false

/-- Handle `n` of slot `i` is a session object that matches the template. -/
def foundSession (s : St) (i : Nat) (tm : Template) (n : Nat) : Prop :=
  ∃ o, sessionObj s i n = some o ∧ mayAsk o tm ∧ ∀ c ∈ tm, ∃ a ∈ o.attrs, a.typ = c.typ ∧ a.value = c.toBuf

/-- The token in slot `i` stores, under the unique id `u`, an object that matches the template and, if
nobody is logged in, is not private.  (Objects whose unique id is a number below ten are internal.) -/
def foundStored (s : St) (i : Nat) (tm : Template) (u : Bytes) : Prop :=
  ∃ sl id rows o, AMap.get s.slots i = some sl ∧ (id, rows) ∈ sl.token.store.db.objs ∧
    AMap.get rows CKA_UNIQUE_ID = some (.text u) ∧ validUtf8 u = true ∧ internalUid u = false ∧
    (∀ c ∈ tm, rowIs rows c) ∧
    (sl.token.logged = none → AMap.get rows CKA_PRIVATE = some (.int 0)) ∧
    decodeRows (Obj.new CK_UNAVAILABLE_INFORMATION) rows = .ok o ∧ mayAsk o tm

/-- Handle `n` of slot `i` stands for the object with unique id `u`. -/
def standsFor (s : St) (i n : Nat) (u : Bytes) : Prop :=
  ∃ sl, AMap.get s.slots i = some sl ∧ sl.token.handles.get n = some u

/-- No session object of slot `i` has the unique id of a stored one. -/
def apart (s : St) (i : Nat) : Prop :=
  ∀ n o u sl id rows, sessionObj s i n = some o → o.getStr CKA_UNIQUE_ID = .ok u →
    AMap.get s.slots i = some sl → (id, rows) ∈ sl.token.store.db.objs →
    AMap.get rows CKA_UNIQUE_ID ≠ some (.text u)

/-- The calls that end the search of session `h` on slot `i`: C_FindObjectsFinal, C_SessionCancel for
searches, closing the session, leaving the library. -/
def endsSearch (i h : Nat) : Call → Bool
  | .sess h' .findFinal => h' == h
  | .op h' (.cancel f) => h' == h && decide (f &&& CKF_FIND_OBJECTS ≠ 0)
  | .closeSession h' => h' == h
  | .closeAll j => j == i
  | .finalize => true
  | .crash => true
  | _ => false

section
variable (M : Mechs) (C : Crypto) (O : Oracle)

/-- The handles that C_FindObjects answered on session `h` during a run. -/
def found (h : Nat) : St → Trace → List Nat
  | _, [] => []
  | s, (e, c) :: rest =>
    (match c, (step M C O e s c).1 with
      | .sess h' (.find _), .handles l => if h' = h then l else []
      | _, _ => []) ++ found h (step M C O e s c).2 rest

end

end Kry.Spec

namespace Kry.Spec

/-- Handle `n` of slot `i` stands for a stored object with CKA_TOKEN true whose CKA_PRIVATE is not false. -/
def privateStored (s : St) (i n : Nat) : Prop :=
  ∃ sl u id rows v, AMap.get s.slots i = some sl ∧ AMap.get sl.token.sess n = none ∧
    sl.token.handles.get n = some u ∧ (id, rows) ∈ sl.token.store.db.objs ∧
    AMap.get rows CKA_UNIQUE_ID = some (.text u) ∧
    AMap.get rows CKA_TOKEN = some (.int v) ∧ v ≠ 0 ∧ AMap.get rows CKA_PRIVATE ≠ some (.int 0)

/-- The object handles a call works on, C_GetObjectSize excepted. -/
def worksOn : Call → List Nat
  | .sess _ (.getObjectSize _) => []
  | c => names c

end Kry.Spec
