import Verif.Model.Env

/-!
# The SQLite backend (`src/storage/sqlite.rs`)

The `objects` table has rows `(id, attr, val)` with `UNIQUE (id, attr)`
(`src/storage/sqlite.rs:46`).  The model keeps its rows grouped by `id`, groups in ascending order of
`id` (what `ORDER by id` delivers), rows of one group in insertion order.  SQL semantics of the five
statements used is trusted.  A database whose tables do not exist yet is an empty one with
`ready = false`; statements run on it are not modelled (they are not reached: the token is then not
initialised).
-/

namespace Kry

/-- SQLite storage classes used (`rusqlite::types::Value`): comparison with `=` on a column without
affinity is equality of class and content. -/
inductive DbVal where
  | int (n : Int)
  | text (s : Bytes)
  | blob (b : Bytes)
deriving DecidableEq, Repr, Inhabited

/-- The `objects` table (`src/storage/sqlite.rs:46`), grouped by `id`. -/
abbrev ObjTable := List (Nat × List (Nat × DbVal))

/-- The two users of a token, `CKU_SO` / `CKU_USER`, `SO_ID` / `USER_ID`
(`src/storage/format.rs:83-93`). -/
inductive User where
  | so | user
deriving DecidableEq, Repr, Inhabited

/-- Keys `(name, value)` of the `meta` table (`src/storage/sqlite.rs:36-42`, `:384-387`, `:576-622`).
The version row is never read and is left out. -/
inductive MetaKey where
  | label | manufacturer | model | serial | flags
  | userFlags (u : User) | userCounter (u : User) | userData (u : User)
deriving DecidableEq, Repr, Inhabited

/-- A database file: tables present, `meta` (`UNIQUE(name, value)`), `objects`. -/
structure Db where
  ready : Bool
  metaT : List (MetaKey × Bytes)
  objs : ObjTable
deriving DecidableEq, Repr, Inhabited

/-- A new, empty file. -/
def Db.empty : Db := ⟨false, [], []⟩

/-- `CK_UNAVAILABLE_INFORMATION` cast (`src/storage/sqlite.rs:352-369`). -/
def numToVal (n : Nat) : Res DbVal :=
  if n = CK_UNAVAILABLE_INFORMATION then .ok (.int (-1))
  else if n < 2 ^ 32 then .ok (.int n)
  else .error .generalError

/-- `val_to_ulong` (`src/storage/sqlite.rs:374-381`). -/
def valToUlong (n : Int) : Res Nat :=
  if n = -1 then .ok CK_UNAVAILABLE_INFORMATION
  else if n < 0 then .error .generalError
  else .ok n.toNat

/-- Column value of one attribute in `store_object` (`src/storage/sqlite.rs:296-313`); `none` for the
kinds that are skipped. -/
def encodeAttr (a : Attr) : Res (Option DbVal) :=
  match a.atype with
  | .bool => match a.toBool with
    | .error e => .error e
    | .ok b => .ok (some (.int (if b then 1 else 0)))
  | .num => match a.toUlong with
    | .error e => .error e
    | .ok n => match numToVal n with
      | .error e => .error e
      | .ok v => .ok (some v)
  | .string => match a.toStr with
    | .error e => .error e
    | .ok s => .ok (some (.text s))
  | .bytes => match a.toBytes with
    | .error e => .error e
    | .ok b => .ok (some (.blob b))
  | .ulongArray => match a.toUlongArray with
    | .error e => .error e
    | .ok v => .ok (some (.blob (v.flatMap ulongBytes)))
  | .date => match a.toDateString with
    | .error e => .error e
    | .ok s => .ok (some (.text s))
  | .deny => .ok none
  | .ignore => .ok none

/-- `INSERT OR REPLACE INTO objects` within one id (`src/storage/sqlite.rs:57`). -/
def putRow (rows : List (Nat × DbVal)) (t : Nat) (v : DbVal) : List (Nat × DbVal) :=
  rows.filter (fun r => r.1 ≠ t) ++ [(t, v)]

/-- The insertion loop of `store_object` (`src/storage/sqlite.rs:293-317`). -/
def putRows (rows : List (Nat × DbVal)) : List Attr → Res (List (Nat × DbVal))
  | [] => .ok rows
  | a :: rest =>
    if ¬ a.typ < 2 ^ 32 then .error .generalError
    else match encodeAttr a with
      | .error e => .error e
      | .ok none => putRows rows rest
      | .ok (some v) => putRows (putRow rows a.typ v) rest

/-- `SEARCH_OBJ_ID` for an attribute value within one group (`src/storage/sqlite.rs:51`). -/
def hasRow (rows : List (Nat × DbVal)) (t : Nat) (v : DbVal) : Bool :=
  rows.any fun r => r.1 == t && r.2 == v

/-- The id found by `delete_object` (`src/storage/sqlite.rs:327-336`). -/
def findId (tbl : ObjTable) (uid : Bytes) : Option Nat :=
  match tbl.find? fun g => hasRow g.2 CKA_UNIQUE_ID (.text uid) with
  | none => none
  | some g => some g.1

/-- `MAX_ID` (`src/storage/sqlite.rs:59`). -/
def maxId (tbl : ObjTable) : Nat := tbl.foldl (fun m g => max m g.1) 0

/-- `DELETE_OBJ` (`src/storage/sqlite.rs:58`). -/
def deleteId (tbl : ObjTable) (id : Nat) : ObjTable := tbl.filter fun g => g.1 ≠ id

/-- A new group at its place in the order of ids. -/
def insertGroup (g : Nat × List (Nat × DbVal)) : ObjTable → ObjTable
  | [] => [g]
  | h :: t => if g.1 < h.1 then g :: h :: t else h :: insertGroup g t

/-- `delete_object` (`src/storage/sqlite.rs:326-343`). -/
def deleteObject (tbl : ObjTable) (uid : Bytes) : ObjTable :=
  match findId tbl uid with
  | none => tbl
  | some id => deleteId tbl id

/-- `store_object` (`src/storage/sqlite.rs:274-319`).  (Ids are unbounded here; the code would fail
beyond `i32::MAX`.) -/
def storeObject (tbl : ObjTable) (uid : Bytes) (o : Obj) : Res ObjTable :=
  let id := match findId tbl uid with
    | none => maxId tbl + 1
    | some id => id
  let tbl := deleteObject tbl uid
  match putRows [] o.attrs with
  | .error e => .error e
  | .ok [] => .ok tbl
  | .ok rows => .ok (insertGroup (id, rows) tbl)

/-- `store_obj` (`src/storage/sqlite.rs:529-536`): one transaction; any failure, including one of the
database (`e.fails`), rolls back. -/
def Db.storeObj (e : Env) (db : Db) (o : Obj) : Res Unit × Db :=
  match o.getStr CKA_UNIQUE_ID with
  | .error r => (.error r, db)
  | .ok uid => match e.fails with
    | some r => (.error r, db)
    | none => match storeObject db.objs uid o with
      | .error r => (.error r, db)
      | .ok t => (.ok (), { db with objs := t })

/-- `remove_by_uid` (`src/storage/sqlite.rs:538-544`). -/
def Db.removeByUid (e : Env) (db : Db) (uid : Bytes) : Res Unit × Db :=
  match e.fails with
  | some r => (.error r, db)
  | none => (.ok (), { db with objs := deleteObject db.objs uid })

/-- The attribute made of one row: `add_bool` … `add_date` and the dispatch
(`src/storage/sqlite.rs:73-170`, `:201-218`). -/
def decodeRow (t : Nat) (v : DbVal) : Res Attr :=
  match attrKind t with
  | none => .error .attrTypeInvalid
  | some .bool => match v with
    | .int n => .ok (Attr.ofBool t (n ≠ 0))
    | _ => .error .deviceMemory
  | some .num => match v with
    | .int n => match valToUlong n with
      | .error e => .error e
      | .ok u => .ok (Attr.ofUlong t u)
    | _ => .error .deviceMemory
  | some .string => match v with
    | .text s => .ok (Attr.ofString t s)
    | _ => .error .deviceMemory
  | some .bytes => match v with
    | .blob b => .ok (Attr.ofBytes t b)
    | _ => .error .deviceMemory
  | some .ulongArray => match v with
    | .blob b => if b.length % 8 ≠ 0 then .error .deviceMemory
      else .ok (Attr.ofUlongArray t (chunks8 b))
    | _ => .error .deviceMemory
  | some .date => match v with
    | .text [] => .ok (Attr.ofDate t [])
    | .text s => match stringToDate s with
      | .error e => .error e
      | .ok d => .ok (Attr.ofDate t d)
    | _ => .error .deviceMemory
  | some .deny => .error .attrTypeInvalid
  | some .ignore => .error .attrTypeInvalid

/-- The row loop of `rows_to_objects` for the rows of one object (`src/storage/sqlite.rs:178-224`). -/
def decodeRows (o : Obj) : List (Nat × DbVal) → Res Obj
  | [] => .ok o
  | (t, v) :: rest => match decodeRow t v with
    | .error e => .error e
    | .ok a => match o.setAttr a with
      | .error e => .error e
      | .ok o => decodeRows o rest

/-- `rows_to_objects` (`src/storage/sqlite.rs:175-226`): an object without class makes the whole query
fail, unless it is the last one. -/
def rowsToObjects : ObjTable → Res (List Obj)
  | [] => .ok []
  | g :: rest => match decodeRows (Obj.new CK_UNAVAILABLE_INFORMATION) g.2 with
    | .error e => .error e
    | .ok o =>
      if o.cls = CK_UNAVAILABLE_INFORMATION ∧ rest ≠ [] then .error .generalError
      else match rowsToObjects rest with
        | .error e => .error e
        | .ok l => .ok (o :: l)

/-- `fetch_by_uid` (`src/storage/sqlite.rs:431-464`).  `hints` are the requested types; an empty list
means everything. -/
def Db.fetchByUid (e : Env) (db : Db) (uid : Bytes) (hints : List Nat) : Res Obj :=
  if hints.any (fun t => decide (¬ t < 2 ^ 32)) then .error .generalError
  else match e.fails with
    | some r => .error r
    | none =>
      let groups := db.objs.filter fun g => hasRow g.2 CKA_UNIQUE_ID (.text uid)
      let groups := if hints = [] then groups
        else (groups.map fun g => (g.1, g.2.filter fun r => hints.contains r.1)).filter
          fun g => !g.2.isEmpty
      match rowsToObjects groups with
      | .error r => .error r
      | .ok [o] => .ok o
      | .ok _ => .error .generalError

/-- The value compared by `search` for one template entry (`src/storage/sqlite.rs:480-512`). -/
def searchVal (a : CkAttr) : Res DbVal :=
  if ¬ a.typ < 2 ^ 32 then .error .generalError
  else match attrKind a.typ with
    | none => .error .attrTypeInvalid
    | some .bool => match a.toBool with
      | .error e => .error e
      | .ok b => .ok (.int (if b then 1 else 0))
    | some .num => match a.toUlong with
      | .error e => .error e
      | .ok n => numToVal n
    | some .string => match a.toStr with
      | .error e => .error e
      | .ok s => .ok (.text s)
    | some .bytes => .ok (.blob a.toBuf)
    | some .ulongArray => match a.toSlice with
      | .error e => .error e
      | .ok su => if su.length % 8 ≠ 0 then .error .attrValueInvalid
        else .ok (.blob ((chunks8 su).flatMap ulongBytes))
    | some .date => match Attr.fromCk a with
      | .error e => .error e
      | .ok at' => match at'.toDateString with
        | .error e => .error e
        | .ok s => .ok (.text s)
    | some .deny => .error .attrTypeInvalid
    | some .ignore => .error .attrTypeInvalid

/-- The conditions of the `INTERSECT` query (`src/storage/sqlite.rs:471-514`). -/
def searchConds : Template → Res (List (Nat × DbVal))
  | [] => .ok []
  | a :: rest => match searchVal a with
    | .error e => .error e
    | .ok v => match searchConds rest with
      | .error e => .error e
      | .ok l => .ok ((a.typ, v) :: l)

/-- `search` (`src/storage/sqlite.rs:466-527`). -/
def Db.search (e : Env) (db : Db) (t : Template) : Res (List Obj) :=
  match searchConds t with
  | .error r => .error r
  | .ok conds => match e.fails with
    | some r => .error r
    | none => rowsToObjects (db.objs.filter fun g => conds.all fun c => hasRow g.2 c.1 c.2)

/-! ## Token information and users -/

/-- `copy_sized_string` (`src/misc.rs:179-197`): `d` is the previous content of the destination. -/
def copySized (s d : Bytes) : Bytes :=
  match s.getLast? with
  | none => d
  | some c =>
    let slen := if c = 0 then s.length - 1 else s.length
    if slen ≥ d.length then s.take d.length
    else s.take slen ++ List.replicate (d.length - slen) 0x20

/-- `StorageTokenInfo` (`src/storage/mod.rs:21-27`). -/
structure TokInfo where
  label : Bytes
  manufacturer : Bytes
  model : Bytes
  serial : Bytes
  flags : Nat
deriving DecidableEq, Repr, Inhabited

/-- ASCII text. -/
def ascii (s : String) : Bytes := s.toList.map fun c => UInt8.ofNat c.toNat

/-- `StorageTokenInfo::default` (`src/storage/mod.rs:29-46`, `src/defaults.rs:14-26`). -/
def TokInfo.default : TokInfo :=
  let blank (n : Nat) : Bytes := List.replicate n 0x20
  ⟨copySized (ascii "Kryoptic Soft Token") (blank 32), copySized (ascii "Kryoptic Project") (blank 32),
    copySized (ascii "v1") (blank 16), blank 16, 0⟩

/-- `f & !m` on flag words. -/
def clearFlags (f m : Nat) : Nat := f ^^^ (f &&& m)

/-- One row of `fetch_token_info` (`src/storage/sqlite.rs:556-571`). -/
def loadInfoRow (info : TokInfo) (k : MetaKey) (v : Bytes) : Res TokInfo :=
  match k with
  | .label => .ok { info with label := copySized v info.label }
  | .manufacturer => .ok { info with manufacturer := copySized v info.manufacturer }
  | .model => .ok { info with model := copySized v info.model }
  | .serial => .ok { info with serial := copySized v info.serial }
  | .flags => if v.length ≠ 4 then .error .generalError else .ok { info with flags := fromLE v }
  | _ => .ok info

/-- The row loop of `fetch_token_info`. -/
def loadInfoRows (info : TokInfo) : List (MetaKey × Bytes) → Res TokInfo
  | [] => .ok info
  | (k, v) :: rest => match loadInfoRow info k v with
    | .error e => .error e
    | .ok info => loadInfoRows info rest

/-- `fetch_token_info` (`src/storage/sqlite.rs:546-574`). -/
def Db.fetchTokenInfo (e : Env) (db : Db) : Res TokInfo :=
  match e.fails with
  | some r => .error r
  | none => loadInfoRows TokInfo.default db.metaT

/-- The flags that are stored (`src/storage/sqlite.rs:610-613`). -/
abbrev storedFlags : Nat := CKF_LOGIN_REQUIRED ||| CKF_TOKEN_INITIALIZED ||| CKF_WRITE_PROTECTED

/-- `store_token_info` (`src/storage/sqlite.rs:576-624`): one transaction. -/
def Db.storeTokenInfo (e : Env) (db : Db) (info : TokInfo) : Res Unit × Db :=
  match e.fails with
  | some r => (.error r, db)
  | none =>
    let m := AMap.insert db.metaT .label info.label
    let m := AMap.insert m .manufacturer info.manufacturer
    let m := AMap.insert m .model info.model
    let m := AMap.insert m .serial info.serial
    let m := AMap.insert m .flags (toLE 4 (info.flags &&& storedFlags))
    (.ok (), { db with metaT := m })

/-- `MAX_LOGIN_ATTEMPTS` (`src/storage/aci.rs:367`). -/
abbrev maxLoginAttempts : Nat := 10

/-- `StorageAuthInfo` (`src/storage/aci.rs:372-392`). -/
structure AuthInfo where
  defaultPin : Bool
  userData : Option Bytes
  maxAttempts : Nat
  curAttempts : Nat
deriving DecidableEq, Repr, Inhabited

/-- `StorageAuthInfo::default` (`src/storage/aci.rs:383-392`). -/
def AuthInfo.default : AuthInfo := ⟨false, none, maxLoginAttempts, 0⟩

/-- `locked` (`src/storage/aci.rs:405-407`). -/
def AuthInfo.locked (a : AuthInfo) : Bool := decide (a.maxAttempts ≤ a.curAttempts)

/-- `fetch_user` (`src/storage/sqlite.rs:626-661`). -/
def Db.fetchUser (e : Env) (db : Db) (u : User) : Res AuthInfo :=
  match e.fails with
  | some r => .error r
  | none =>
    let dp : Res Bool := match AMap.get db.metaT (.userFlags u) with
      | none => .ok false
      | some d => if d.length ≠ 4 then .error .generalError else .ok (fromLE d &&& 1 != 0)
    let cur : Res Nat := match AMap.get db.metaT (.userCounter u) with
      | none => .ok 0
      | some d => if d.length ≠ 4 then .error .generalError else .ok (fromLE d)
    match dp with
    | .error r => .error r
    | .ok dp => match cur with
      | .error r => .error r
      | .ok cur => match AMap.get db.metaT (.userData u) with
        | none => .error .userPinNotInitialized
        | some d => .ok ⟨dp, some d, maxLoginAttempts, cur⟩

/-- `store_user` (`src/storage/sqlite.rs:663-698`): one transaction; a false default-PIN flag is not
written, so it never clears a stored one. -/
def Db.storeUser (e : Env) (db : Db) (u : User) (a : AuthInfo) : Res Unit × Db :=
  if ¬ a.curAttempts < 2 ^ 32 then (.error .generalError, db)
  else match e.fails with
    | some r => (.error r, db)
    | none =>
      let m := if a.defaultPin then AMap.insert db.metaT (.userFlags u) (toLE 4 1) else db.metaT
      let m := AMap.insert m (.userCounter u) (toLE 4 a.curAttempts)
      let m := match a.userData with
        | none => m
        | some d => AMap.insert m (.userData u) d
      (.ok (), { db with metaT := m })

/-- `db_reset` (`src/storage/sqlite.rs:396-415`): one transaction dropping and recreating both
tables. -/
def Db.reset (e : Env) (db : Db) : Res Unit × Db :=
  match e.fails with
  | some r => (.error r, db)
  | none => (.ok (), ⟨true, [], []⟩)

/-- `is_initialized` (`src/storage/sqlite.rs:391-394`, `src/storage/sqlite_common.rs:72-102`). -/
def Db.isInitialized (e : Env) (db : Db) : Res Unit :=
  match e.fails with
  | some r => .error r
  | none => if db.ready then .ok () else .error .cryptokiNotInitialized

end Kry
