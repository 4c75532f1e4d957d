import Verif.Model.Sqlite

/-!
# The write transactions of the SQLite backend, statement by statement (`src/storage/sqlite.rs`)

`Verif.Model.Sqlite` treats `store_obj` and `remove_by_uid` as one step.  Here they are the sequences of SQL statements they
consist of, run on a connection with an open transaction, any of which may fail and between any two of which the
process may die.  Trusted: what the six statements do, and that SQLite makes the changes of a transaction permanent
all at once or not at all.
-/

namespace Kry

/-- A row of the `objects` table (`src/storage/sqlite.rs:46`). -/
structure SqlRow where
  id : Nat
  attr : Nat
  val : DbVal
deriving DecidableEq, Repr, Inhabited

/-- The table as SQLite has it. -/
abbrev SqlTbl := List SqlRow

/-- A connection: what is on disk, and the table as the open transaction sees it. -/
structure SqlConn where
  disk : SqlTbl
  tx : Option SqlTbl
deriving DecidableEq, Repr, Inhabited

/-- The statements (`conn.transaction()`, `src/storage/sqlite.rs:51`, `:57-59`, `tx.commit()`). -/
inductive SqlStmt where
  | start
  | selectId (uid : Bytes)
  | deleteId (id : Nat)
  | maxId
  | replace (row : SqlRow)
  | commit
deriving DecidableEq, Repr

/-- What a statement answers (an id; 0 for none) and does to the connection.  Outside a transaction the changing
statements do nothing here; the programs below do not issue them there. -/
def SqlStmt.exec (c : SqlConn) : SqlStmt → Nat × SqlConn
  | .start => (0, { c with tx := some c.disk })
  | .selectId uid => match c.tx with
    | none => (0, c)
    | some t => match t.find? fun r => r.attr == CKA_UNIQUE_ID && r.val == .text uid with
      | none => (0, c)
      | some r => (r.id, c)
  | .deleteId id => match c.tx with
    | none => (0, c)
    | some t => (0, { c with tx := some (t.filter fun r => r.id ≠ id) })
  | .maxId => match c.tx with
    | none => (0, c)
    | some t => (t.foldl (fun m r => max m r.id) 0, c)
  | .replace row => match c.tx with
    | none => (0, c)
    | some t => (0, { c with tx := some (t.filter (fun r => ¬ (r.id = row.id ∧ r.attr = row.attr)) ++ [row]) })
  | .commit => match c.tx with
    | none => (0, c)
    | some t => (0, ⟨t, none⟩)

/-- A function that issues statements: it ends, or issues one and goes on with the answer; when the statement fails the
function returns the error. -/
inductive SqlProg where
  | done (r : Res Unit)
  | sql (s : SqlStmt) (err : Rv) (k : Nat → SqlProg)

/-- What happens at a statement: it works, it fails, the process dies before it; a failing COMMIT may have
become permanent all the same. -/
inductive SqlFate where
  | works
  | fails (permanent : Bool)
  | dies
deriving DecidableEq, Repr

/-- Runs a program; `fate n` is what happens at the `n`-th statement.  Answers `none` when the process dies.  When the
function returns, `tx` is dropped and so rolled back (`set_drop_behavior(Rollback)`, `src/storage/sqlite.rs:533`,
`:541`); when the process dies, the journal does that. -/
def SqlProg.exec (fate : Nat → SqlFate) : SqlProg → Nat → SqlConn → Option (Res Unit) × SqlConn
  | .done r, _, c => (some r, { c with tx := none })
  | .sql s err k, n, c => match fate n with
    | .dies => (none, { c with tx := none })
    | .fails p =>
      let c := if s = .commit ∧ p = true then (s.exec c).2 else c
      (some (.error err), { c with tx := none })
    | .works =>
      let (a, c) := s.exec c
      (k a).exec fate (n + 1) c

/-- `delete_object` (`src/storage/sqlite.rs:326-343`), going on with the id. -/
def sqlDelete (uid : Bytes) (k : Nat → SqlProg) : SqlProg :=
  .sql (.selectId uid) .deviceMemory fun id =>
    if id ≠ 0 then .sql (.deleteId id) .deviceMemory fun _ => k id
    else k id

/-- The insertion loop of `store_object` (`src/storage/sqlite.rs:292-317`). -/
def sqlInsert (id : Nat) (k : SqlProg) : List Attr → SqlProg
  | [] => k
  | a :: rest =>
    if ¬ id < 2 ^ 31 then .done (.error .generalError)
    else if ¬ a.typ < 2 ^ 32 then .done (.error .generalError)
    else match encodeAttr a with
      | .error e => .done (.error e)
      | .ok none => sqlInsert id k rest
      | .ok (some v) => .sql (.replace ⟨id, a.typ, v⟩) .deviceMemory fun _ => sqlInsert id k rest

/-- `tx.commit().map_err(bad_storage)` (`src/storage/sqlite.rs:535`, `:543`). -/
def sqlCommit : SqlProg := .sql .commit .deviceMemory fun _ => .done (.ok ())

/-- `store_object` (`src/storage/sqlite.rs:274-319`). -/
def sqlStoreObject (uid : Bytes) (o : Obj) (k : SqlProg) : SqlProg :=
  sqlDelete uid fun id =>
    if id = 0 then .sql .maxId .generalError fun m => sqlInsert (m + 1) k o.attrs
    else sqlInsert id k o.attrs

/-- `store_obj` (`src/storage/sqlite.rs:529-536`). -/
def sqlStore (o : Obj) : SqlProg :=
  match o.getStr CKA_UNIQUE_ID with
  | .error r => .done (.error r)
  | .ok uid => .sql .start .deviceMemory fun _ => sqlStoreObject uid o sqlCommit

/-- `remove_by_uid` (`src/storage/sqlite.rs:538-544`). -/
def sqlRemove (uid : Bytes) : SqlProg :=
  .sql .start .deviceMemory fun _ => sqlDelete uid fun _ => sqlCommit

end Kry
