import Verif.Model.NssKeys
import Verif.Model.Storage
import Verif.Model.Derive
import Verif.Model.Hotp

/-!
# NSS database backend (`src/storage/nssdb/mod.rs`)

Both databases are attached (`no_cert_db` and `no_key_db` unset), created by this code (`src/storage/nssdb/mod.rs:253-296`), and used by one process.
A transaction works on a copy that replaces the tables on commit; failures of SQLite are faults of the environment.
Not modelled: the parsing of the configuration, the token information, `open`, the FIPS build.
-/

namespace Kry

/-- `get_attr_info` (`src/storage/nssdb/attrs.rs:371-373`). -/
def nssInfoOf (t : Nat) : Option NssAttr := nssAttrs.find? fun a => a.typ == t

/-- `ignore_attribute` (`src/storage/nssdb/attrs.rs:377-381`). -/
def nssIgnored (t : Nat) : Bool := match nssInfoOf t with
  | some a => a.masked || a.deprecated
  | none => false

/-- `is_sensitive_attribute` (`src/storage/nssdb/attrs.rs:385-389`). -/
def nssSensitive (t : Nat) : Bool := match nssInfoOf t with
  | some a => a.sensitive
  | none => false

/-- `is_db_attribute` (`src/storage/nssdb/attrs.rs:392-394`). -/
def nssKnown (t : Nat) : Bool := (nssInfoOf t).isSome

/-- `is_skippable_attribute` (`src/storage/nssdb/attrs.rs:398-402`). -/
def nssSkippable (t : Nat) : Bool := match nssInfoOf t with
  | some a => a.skippable
  | none => false

/-- The columns of the two tables (`src/storage/nssdb/mod.rs:263-267`, `:399-447`). -/
def nssCols : List Nat := (nssAttrs.filter fun a => !a.skippable && !a.deprecated).map NssAttr.typ

/-- The types that are encrypted (the filter at `src/storage/nssdb/mod.rs:1159`, `:1251`, `:1340`). -/
def nssSecrets : List Nat := (nssAttrs.filter fun a => a.sensitive).map NssAttr.typ

/-- The types that are signed (the filter at `src/storage/nssdb/mod.rs:1171`, `:1281`, `:1365`). -/
def nssSigned : List Nat := (nssAttrs.filter fun a => a.authenticated).map NssAttr.typ

/-- The types that are not stored (the filter at `src/storage/nssdb/mod.rs:1143`, `:1196`). -/
def nssSkipped : List Nat := (nssAttrs.filter fun a => a.skippable).map NssAttr.typ

/-- The two tables (`src/storage/nssdb/mod.rs:52-62`); the signatures of the public one are named "cert", of the private one "key". -/
inductive NssTbl where
  | pub | priv
deriving DecidableEq, Repr

/-- Names of entries of `metaData`: "password", or "sig_{db}_{id:08x}_{type:08x}" (`src/storage/nssdb/mod.rs:819`, `:836`, `:981`). -/
inductive NssMeta where
  | password
  | sig (t : NssTbl) (id typ : Nat)
deriving DecidableEq, Repr

/-- A row: the columns that are not NULL. -/
abbrev NssRow := List (Nat × Bytes)

/-- The databases. -/
structure NssDb where
  pub : List (Nat × NssRow)
  priv : List (Nat × NssRow)
  mdata : List (NssMeta × (Bytes × Bytes))
deriving DecidableEq, Repr, Inhabited

/-- `NSSStorage` (`src/storage/nssdb/mod.rs:172-183`). -/
structure Nss where
  db : NssDb
  keys : NssKeys
deriving DecidableEq, Repr, Inhabited

/-- The rows of a table. -/
def NssDb.rows (d : NssDb) : NssTbl → List (Nat × NssRow)
  | .pub => d.pub
  | .priv => d.priv

/-- Replacing the rows of a table. -/
def NssDb.setRows (d : NssDb) (t : NssTbl) (r : List (Nat × NssRow)) : NssDb :=
  match t with
  | .pub => { d with pub := r }
  | .priv => { d with priv := r }

/-- `NSS_SPECIAL_NULL_VALUE` (`src/storage/nssdb/mod.rs:70`). -/
def nssNull : Bytes := [0xa5, 0x00, 0x5a]

/-- `NSS_PASS_CHECK` (`src/storage/nssdb/mod.rs:156`). -/
def nssPassCheck : Bytes := ascii "password-check"

/-- The error of SQLite for a column that does not exist (`src/storage/sqlite_common.rs:50`). -/
def nssSqlBad : Rv := .deviceError

/-! ## Names of objects -/

/-- The names of the tables (`src/storage/nssdb/mod.rs:58-62`). -/
def NssTbl.name : NssTbl → Bytes
  | .pub => ascii "nssPublic"
  | .priv => ascii "nssPrivate"

/-- `nss_id_format` (`src/storage/nssdb/mod.rs:87-89`); ten digits are enough for a `u32`. -/
def nssIdFormat (t : NssTbl) (id : Nat) : Bytes := ascii "NSSID-" ++ t.name ++ 45 :: decimal 9 id

/-- `str::split('-')`. -/
def splitDash : Bytes → List Bytes
  | [] => [[]]
  | b :: bs => if b = 45 then [] :: splitDash bs else match splitDash bs with
    | [] => [[b]]
    | w :: ws => (b :: w) :: ws

/-- Decimal value of digits. -/
def digitsVal : Nat → Bytes → Option Nat
  | acc, [] => some acc
  | acc, b :: bs => if 48 ≤ b.toNat ∧ b.toNat ≤ 57 then digitsVal (acc * 10 + (b.toNat - 48)) bs else none

/-- `u32::from_str_radix(_, 10)`: an optional plus sign, at least one digit, no overflow. -/
def parseU32 (s : Bytes) : Res Nat :=
  let ds := match s with
    | 43 :: t => t
    | _ => s
  if ds = [] then .error .generalError
  else match digitsVal 0 ds with
    | none => .error .generalError
    | some n => if n < 2 ^ 32 then .ok n else .error .generalError

/-- `nss_id_parse` (`src/storage/nssdb/mod.rs:92-116`), with the check of the name of the table (`src/storage/nssdb/mod.rs:618-622`). -/
def nssIdParse (uid : Bytes) : Res (NssTbl × Nat) :=
  match splitDash uid with
  | [p, t, i] =>
    if p ≠ ascii "NSSID" then .error .generalError
    else match parseU32 i with
      | .error r => .error r
      | .ok n =>
        if t = NssTbl.pub.name then .ok (.pub, n)
        else if t = NssTbl.priv.name then .ok (.priv, n)
        else .error .generalError
  | _ => .error .generalError

/-! ## Values in columns -/

/-- `num_to_val` (`src/storage/nssdb/mod.rs:135-153`). -/
def nssNumVal (n : Nat) : Res Bytes :=
  if n = CK_UNAVAILABLE_INFORMATION then .ok (toBE 4 (2 ^ 32 - 1))
  else if n < 2 ^ 32 then .ok (toBE 4 n) else .error .generalError

/-- The value of an attribute in its column (`src/storage/nssdb/mod.rs:945-957`, `:1016-1028`). -/
def nssColVal (a : Attr) : Res Bytes :=
  if a.value = [] then .ok nssNull
  else match a.atype with
    | .num => match a.toUlong with
      | .error r => .error r
      | .ok n => nssNumVal n
    | .deny => .ok nssNull
    | .ignore => .ok nssNull
    | _ => .ok a.value

/-- `cka_parameter_set_fixup` (`src/storage/nssdb/mod.rs:457-496`), CKP_MAX_IDENTIFIER = 0x8F (`src/storage/nssdb/mod.rs:84`). -/
def nssParamSet (b : Bytes) : Res Nat :=
  if b.length = 4 then
    if fromBE b < 0x8F then .ok (fromBE b) else if fromLE b < 0x8F then .ok (fromLE b) else .error .attrValueInvalid
  else if b.length = 8 then
    if fromLE b < 0x8F then .ok (fromLE b) else if fromBE b < 0x8F then .ok (fromBE b) else .error .attrValueInvalid
  else .error .attrValueInvalid

/-- The attribute read from a column (`src/storage/nssdb/mod.rs:530-577`). -/
def nssReadCol (t : Nat) (b : Bytes) : Res Attr :=
  match attrKind t with
  | none => .error .attrTypeInvalid
  | some .num =>
    let n : Res Nat := if t = CKA_PARAMETER_SET then nssParamSet b
      else if b.length = 4 then .ok (fromBE b) else .error .attrValueInvalid
    match n with
    | .error r => .error r
    | .ok n => .ok ⟨t, .num, ulongBytes n⟩
  | some .ignore => .ok ⟨t, .ignore, []⟩
  | some .deny => .error .attrTypeInvalid
  | some .ulongArray => .error .attrTypeInvalid
  | some k => .ok ⟨t, k, if b = nssNull then [] else b⟩

/-- The loop of `rows_to_object` (`src/storage/nssdb/mod.rs:519-579`). -/
def nssReadCols (row : NssRow) : List Nat → Obj → Res Obj
  | [], o => .ok o
  | c :: cs, o =>
    if nssIgnored c then nssReadCols row cs o
    else match AMap.get row c with
      | none => nssReadCols row cs o
      | some b => match nssReadCol c b with
        | .error r => .error r
        | .ok a => match o.setAttr a with
          | .error r => .error r
          | .ok o => nssReadCols row cs o

/-- `rows_to_object` (`src/storage/nssdb/mod.rs:503-593`) of at most one row. -/
def nssRowObj (row : Option NssRow) (cols : List Nat) : Res Obj :=
  match row with
  | none => .ok (Obj.new CK_UNAVAILABLE_INFORMATION)
  | some row => match nssReadCols row cols (Obj.new CK_UNAVAILABLE_INFORMATION) with
    | .error r => .error r
    | .ok o => if o.cls = CK_UNAVAILABLE_INFORMATION then .error .generalError else .ok o

/-- `prepare_fetch` and `fetch_by_nssid` (`src/storage/nssdb/mod.rs:597-650`): all columns, or the listed ones. -/
def NssDb.fetchById (e : Env) (d : NssDb) (t : NssTbl) (id : Nat) (attrs : List Nat) : Res Obj :=
  if attrs.any fun c => !nssCols.contains c then .error nssSqlBad
  else match e.fails with
    | some r => .error r
    | none => nssRowObj (AMap.get (d.rows t) id) (if attrs = [] then nssCols else attrs)

/-! ## metaData -/

/-- `fetch_metadata` (`src/storage/nssdb/mod.rs:799-815`). -/
def NssDb.fetchMeta (e : Env) (d : NssDb) (m : NssMeta) : Res (Bytes × Bytes) :=
  match e.fails with
  | some r => .error r
  | none => match AMap.get d.mdata m with
    | none => .error .objectHandleInvalid
    | some v => .ok v

/-- `fetch_password` (`src/storage/nssdb/mod.rs:818-826`). -/
def NssDb.fetchPassword (e : Env) (d : NssDb) : Res (Bytes × Bytes) :=
  match d.fetchMeta e .password with
  | .ok v => .ok v
  | .error r => if r = .objectHandleInvalid then .error .userPinNotInitialized else .error r

/-- `save_metadata` (`src/storage/nssdb/mod.rs:842-857`): the table replaces on conflict (`src/storage/nssdb/mod.rs:354`). -/
def NssDb.saveMeta (e : Env) (d : NssDb) (m : NssMeta) (v : Bytes × Bytes) : Res NssDb :=
  match e.fails with
  | some r => .error r
  | none => .ok { d with mdata := AMap.insert d.mdata m v }

/-! ## Storing -/

/-- `MAX(id)` (`src/storage/nssdb/mod.rs:872-883`). -/
def nssMaxId : List (Nat × NssRow) → Nat
  | [] => 0
  | (i, _) :: m => max i (nssMaxId m)

/-- The loop of `get_next_id` (`src/storage/nssdb/mod.rs:891-902`).  `fuel` is the number of rows plus one: that many numbers cannot all be taken. -/
def nssFreeId (rows : List (Nat × NssRow)) : Nat → Nat → Res Nat
  | 0, _ => .error .objectHandleInvalid
  | fuel + 1, id =>
    if id > 0x3fffffff then .error .objectHandleInvalid
    else if (AMap.get rows id).isNone then .ok id else nssFreeId rows fuel (id + 1)

/-- `get_next_id` (`src/storage/nssdb/mod.rs:871-909`). -/
def nssNextId (rows : List (Nat × NssRow)) : Res Nat :=
  let m := nssMaxId rows
  if 0 < m ∧ m < 0x3fffffff then .ok (m + 1) else nssFreeId rows (rows.length + 1) 1

/-- The columns of `store_object` and `store_attributes` (`src/storage/nssdb/mod.rs:929-958`, `:999-1029`). -/
def nssMakeRow : List Attr → Res NssRow
  | [] => .ok []
  | a :: as =>
    if nssSkippable a.typ then nssMakeRow as
    else if !nssKnown a.typ then .error .attrTypeInvalid
    else match nssColVal a with
      | .error r => .error r
      | .ok v => match nssMakeRow as with
        | .error r => .error r
        | .ok row => .ok ((a.typ, v) :: row)

/-- `store_object` (`src/storage/nssdb/mod.rs:915-970`).  The order of the checks of the attributes and of the failures of SQLite is not kept apart;
deprecated types are no columns. -/
def NssDb.storeObject (e : Env) (d : NssDb) (t : NssTbl) (o : Obj) : Res (Nat × NssDb) :=
  match nssNextId (d.rows t) with
  | .error r => .error r
  | .ok id => match nssMakeRow o.attrs with
    | .error r => .error r
    | .ok row =>
      if row.any fun p => !nssCols.contains p.1 then .error nssSqlBad
      else match e.fails with
        | some r => .error r
        | none => .ok (id, d.setRows t (d.rows t ++ [(id, row)]))

/-- The attributes of a template (`src/storage/nssdb/mod.rs:999-1000`). -/
def nssFromTemplate : Template → Res (List Attr)
  | [] => .ok []
  | c :: cs => match Attr.fromCk c with
    | .error r => .error r
    | .ok a => match nssFromTemplate cs with
      | .error r => .error r
      | .ok as => .ok (a :: as)

/-- `UPDATE … SET` of one row: the given columns, the later one of two for the same column. -/
def nssSetCols (row new : NssRow) : NssRow := new.foldl (fun r p => AMap.insert r p.1 p.2) row

/-- `store_attributes` (`src/storage/nssdb/mod.rs:990-1037`); a statement without columns is a syntax error. -/
def NssDb.storeAttrs (e : Env) (d : NssDb) (t : NssTbl) (id : Nat) (tmpl : Template) : Res NssDb :=
  match nssFromTemplate tmpl with
  | .error r => .error r
  | .ok as => match nssMakeRow as with
    | .error r => .error r
    | .ok new =>
      if new = [] ∨ new.any fun p => !nssCols.contains p.1 then .error nssSqlBad
      else match e.fails with
        | some r => .error r
        | none => .ok (d.setRows t (AMap.modify (d.rows t) id fun row => nssSetCols row new))

variable (N : NssLib)

/-- Encryption of the secrets in `store` (`src/storage/nssdb/mod.rs:1250-1267`). -/
def nssEncLoop (e : Env) : List Nat → Nat → NssKeys → Obj → Res Obj × NssKeys
  | [], _, k, o => (.ok o, k)
  | t :: ts, i, k, o => match o.find t with
    | none => nssEncLoop e ts (i + 1) k o
    | some a => match nssEncrypt N (e.sub i) k 10000 a.value with
      | (.error r, k) => (.error r, k)
      | (.ok v, k) => match o.setAttr (Attr.ofBytes t v) with
        | .error r => (.error r, k)
        | .ok o => nssEncLoop e ts (i + 1) k o

/-- Signatures in `store` and `update` (`src/storage/nssdb/mod.rs:1281-1306`, `:1365-1391`); `val` gives the value of a type. -/
def nssSigLoop (e : Env) (tbl : NssTbl) (id : Nat) (val : Nat → Option Bytes) : List Nat → Nat → NssKeys → NssDb → Res NssDb × NssKeys
  | [], _, k, d => (.ok d, k)
  | t :: ts, i, k, d => match val t with
    | none => nssSigLoop e tbl id val ts (i + 1) k d
    | some v => match nssMakeSig N ((e.sub i).sub 0) k v id t 10000 with
      | (.error r, k) => (.error r, k)
      | (.ok s, k) => match d.saveMeta ((e.sub i).sub 1) (.sig tbl id t) (s, []) with
        | .error r => (.error r, k)
        | .ok d => nssSigLoop e tbl id val ts (i + 1) k d

/-- The table of a class (`src/storage/nssdb/mod.rs:1229-1235`). -/
def nssTblOf (cls : Nat) : Option NssTbl :=
  if cls = CKO_PRIVATE_KEY ∨ cls = CKO_SECRET_KEY then some .priv
  else if cls = CKO_PUBLIC_KEY ∨ cls = CKO_CERTIFICATE ∨ cls = CKO_TRUST ∨ cls = CKO_NSS_TRUST then some .pub
  else none

/-- The transaction of `store` (`src/storage/nssdb/mod.rs:1269-1308`). -/
def nssStoreTx (e : Env) (d : NssDb) (k : NssKeys) (t : NssTbl) (o : Obj) : Res (Nat × NssDb) × NssKeys :=
  match (e.sub 0).fails with
  | some r => (.error r, k)
  | none => match d.storeObject (e.sub 1) t o with
    | .error r => (.error r, k)
    | .ok (id, d) =>
      match nssSigLoop N (e.sub 2) t id (fun ty => (o.find ty).map Attr.value) nssSigned 0 k d with
      | (.error r, k) => (.error r, k)
      | (.ok d, k) => match (e.sub 3).fails with
        | some r => (.error r, k)
        | none => (.ok (id, d), k)

/-- `store` (`src/storage/nssdb/mod.rs:1224-1311`). -/
def Nss.store (e : Env) (s : Nss) (h : Handles) (o : Obj) : Res Nat × Nss × Handles :=
  match o.getUlong CKA_CLASS with
  | .error r => (.error r, s, h)
  | .ok cls => match nssTblOf cls with
    | none => (.error .attrValueInvalid, s, h)
    | some t =>
      if s.keys.enckey.isNone then (.error .userNotLoggedIn, s, h)
      else match objFactory o with
        | .error r => (.error r, s, h)
        | .ok F =>
          match nssEncLoop N (e.sub 0) (if t = .priv then nssSecrets else []) 0 s.keys (delAll o F.ephemeral) with
          | (.error r, k) => (.error r, { s with keys := k }, h)
          | (.ok o, k) => match nssStoreTx N (e.sub 1) s.db k t o with
            | (.error r, k) => (.error r, { s with keys := k }, h)
            | (.ok (id, d), k) =>
              let (n, h) := h.bump
              match h.insert n (nssIdFormat t id) with
              | (.error r, h) => (.error r, ⟨d, k⟩, h)
              | (.ok (), h) => (.ok n, ⟨d, k⟩, h)

/-- Encryption of the secrets in `update` (`src/storage/nssdb/mod.rs:1339-1359`). -/
def nssEncTmpl (e : Env) : List Nat → Nat → NssKeys → Template → Res Template × NssKeys
  | [], _, k, t => (.ok t, k)
  | ty :: ts, i, k, t => match Template.findA t ty with
    | none => nssEncTmpl e ts (i + 1) k t
    | some a => match nssEncrypt N (e.sub i) k 10000 a.toBuf with
      | (.error r, k) => (.error r, k)
      | (.ok v, k) => nssEncTmpl e ts (i + 1) k (replaceFirst t ty v)

/-- The value of a type in a template (`src/storage/nssdb/mod.rs:1369-1371`). -/
def nssTmplVal (t : Template) (ty : Nat) : Option Bytes := (Template.findA t ty).map CkAttr.toBuf

/-- `update` (`src/storage/nssdb/mod.rs:1318-1394`). -/
def Nss.update (e : Env) (s : Nss) (h : Handles) (handle : Nat) (tmpl : Template) : Res Unit × Nss :=
  match h.get handle with
  | none => (.error .objectHandleInvalid, s)
  | some uid => match nssIdParse uid with
    | .error r => (.error r, s)
    | .ok (t, id) =>
      if s.keys.enckey.isNone then (.error .userNotLoggedIn, s)
      else match nssEncTmpl N (e.sub 0) (if t = .priv then nssSecrets else []) 0 s.keys tmpl with
        | (.error r, k) => (.error r, { s with keys := k })
        | (.ok tmpl, k) => match (e.sub 1).fails with
          | some r => (.error r, { s with keys := k })
          | none => match s.db.storeAttrs (e.sub 2) t id tmpl with
            | .error r => (.error r, { s with keys := k })
            | .ok d => match nssSigLoop N (e.sub 3) t id (nssTmplVal tmpl) nssSigned 0 k d with
              | (.error r, k) => (.error r, { s with keys := k })
              | (.ok d, k) => match (e.sub 4).fails with
                | some r => (.error r, { s with keys := k })
                | none => (.ok (), ⟨d, k⟩)

/-! ## Reading -/

/-- `remove_ulong` with its answer ignored (`src/attribute.rs:887-895`, `src/storage/nssdb/mod.rs:1143-1151`): the first attribute of the type goes (its
place is taken by the last one, which does not matter for what is read); reading its value follows the pointer. -/
def nssDropType (t : Template) (ty : Nat) : Res Template :=
  match Template.findA t ty with
  | none => .ok t
  | some a => match a.toUlong with
    | .error .panic => .error .panic
    | _ => .ok (t.eraseP fun c => c.typ == ty)

/-- Removing several types in turn. -/
def nssDropTypes : List Nat → Template → Res Template
  | [], t => .ok t
  | ty :: ts, t => match nssDropType t ty with
    | .error r => .error r
    | .ok t => nssDropTypes ts t

/-- The columns that `fetch` asks for (`src/storage/nssdb/mod.rs:1130-1152`); none stands for all. -/
def nssHints (attrs : Template) : Res (List Nat) :=
  if attrs = [] then .ok []
  else
    let t := [CKA_CLASS, CKA_KEY_TYPE, CKA_CERTIFICATE_TYPE, CKA_EXTRACTABLE, CKA_SENSITIVE].foldl (fun t ty => t.addMissingUlong ty 0) attrs
    match nssDropTypes nssSkipped t with
    | .error r => .error r
    | .ok t => match nssDropTypes ((attrs.map CkAttr.typ).filter fun ty => !nssKnown ty) t with
      | .error r => .error r
      | .ok t => .ok (t.map CkAttr.typ)

/-- Decryption in `fetch` (`src/storage/nssdb/mod.rs:1159-1167`). -/
def nssDecLoop (e : Env) : List Nat → Nat → NssKeys → Obj → Res Obj × NssKeys
  | [], _, k, o => (.ok o, k)
  | t :: ts, i, k, o => match o.find t with
    | none => nssDecLoop e ts (i + 1) k o
    | some a => match nssDecrypt N (e.sub i) k a.value with
      | (.error r, k) => (.error r, k)
      | (.ok v, k) => match o.setAttr (Attr.ofBytes t v) with
        | .error r => (.error r, k)
        | .ok o => nssDecLoop e ts (i + 1) k o

/-- Checking the signatures in `fetch` (`src/storage/nssdb/mod.rs:1171-1192`). -/
def nssVerLoop (e : Env) (d : NssDb) (tbl : NssTbl) (id : Nat) (o : Obj) : List Nat → Nat → NssKeys → Res Unit × NssKeys
  | [], _, k => (.ok (), k)
  | t :: ts, i, k => match o.find t with
    | none => nssVerLoop e d tbl id o ts (i + 1) k
    | some a => match d.fetchMeta ((e.sub i).sub 0) (.sig tbl id t) with
      | .error r => (.error r, k)
      | .ok (s, _) => match nssCheckSig N ((e.sub i).sub 1) k a.value s id t with
        | (.error r, k) => (.error r, k)
        | (.ok (), k) => nssVerLoop e d tbl id o ts (i + 1) k

/-- `set_attribute_default` (`src/object/factory.rs:383-398`) for the types that are not stored (`src/storage/nssdb/mod.rs:1195-1204`). -/
def nssAddBack (asked : List Nat) : List Nat → Obj → Res Obj
  | [], o => .ok o
  | t :: ts, o => match objFactory o with
    | .error r => .error r
    | .ok F =>
      if asked.contains t then
        match (F.attrs.find? fun a => a.typ == t) with
        | some fa =>
          if fa.hasDefault then
            match o.setAttr fa.attr with
            | .error r => .error r
            | .ok o => nssAddBack asked ts o
          else nssAddBack asked ts o
        | none => nssAddBack asked ts o
      else nssAddBack asked ts o

/-- `fetch` (`src/storage/nssdb/mod.rs:1117-1210`); the cache of keys changes. -/
def Nss.fetch (e : Env) (s : Nss) (h : Handles) (handle : Nat) (attrs : Template) : Res Obj × Nss :=
  match h.get handle with
  | none => (.error .objectHandleInvalid, s)
  | some uid => match nssIdParse uid with
    | .error r => (.error r, s)
    | .ok (t, id) => match nssHints attrs with
      | .error r => (.error r, s)
      | .ok cols => match s.db.fetchById (e.sub 0) t id cols with
        | .error r => (.error r, s)
        | .ok o =>
          let checked : Res Obj × NssKeys :=
            if s.keys.enckey.isSome then
              match nssDecLoop N (e.sub 1) (if t = .priv then nssSecrets else []) 0 s.keys o with
              | (.error r, k) => (.error r, k)
              | (.ok o, k) => match nssVerLoop N (e.sub 2) s.db t id o nssSigned 0 k with
                | (.error r, k) => (.error r, k)
                | (.ok (), k) => (.ok o, k)
            else (.ok o, s.keys)
          match checked with
          | (.error r, k) => (.error r, { s with keys := k })
          | (.ok o, k) => match nssAddBack (attrs.map CkAttr.typ) nssSkipped o with
            | .error r => (.error r, { s with keys := k })
            | .ok o => (.ok { o with handle := handle }, { s with keys := k })

/-! ## Searching -/

/-- The tables to search (`src/storage/nssdb/mod.rs:675-697`): public, private; `none` if the class is not of this database. -/
def nssTables : Template → Bool → Bool → Res (Option (Bool × Bool))
  | [], pu, pr => .ok (some (pu, pr))
  | a :: as, pu, pr =>
    let c : Res (Option (Bool × Bool)) :=
      if a.typ = CKA_CLASS then
        match a.pval with
        | .null _ => .ok (some (pu, pr))
        | .data _ => match a.toUlong with
          | .error r => .error r
          | .ok cls => match nssTblOf cls with
            | some .priv => .ok (some (false, pr))
            | some .pub => .ok (some (pu, false))
            | none => .ok none
      else .ok (some (pu, pr))
    match c with
    | .error r => .error r
    | .ok none => .ok none
    | .ok (some (pu, pr)) => if pr && nssSensitive a.typ then .error .attrSensitive else nssTables as pu pr

/-- The value that a column is compared with (`src/storage/nssdb/mod.rs:720-738`). -/
def nssParamVal (k : AttrType) (a : CkAttr) : Res Bytes :=
  if a.pval.len = 0 then .ok nssNull
  else match k with
    | .num => match a.toUlong with
      | .error r => .error r
      | .ok n => nssNumVal n
    | _ => .ok a.toBuf

/-- The parameters of the query (`src/storage/nssdb/mod.rs:709-742`). -/
def nssParams : Template → Res (List (Nat × Bytes))
  | [] => .ok []
  | a :: as =>
    match attrKind a.typ with
    | none => .error .attrTypeInvalid
    | some k => match nssParamVal k a with
      | .error r => .error r
      | .ok v => match nssParams as with
        | .error r => .error r
        | .ok ps => .ok ((a.typ, v) :: ps)

/-- The rows of a query (`src/storage/nssdb/mod.rs:748-762`): `a… = ?` for each parameter, never true of NULL. -/
def nssSelect (ps : List (Nat × Bytes)) (rows : List (Nat × NssRow)) : List Nat :=
  (rows.filter fun r => ps.all fun p => AMap.get r.2 p.1 == some p.2).map Prod.fst

/-- `search_databases` (`src/storage/nssdb/mod.rs:767-796`). -/
def NssDb.searchIds (e : Env) (d : NssDb) (t : Template) : Res (List Bytes) :=
  match nssTables t true true with
  | .error r => .error r
  | .ok none => .ok []
  | .ok (some (pu, pr)) => match nssParams t with
    | .error r => .error r
    | .ok ps =>
      if (pu || pr) && ps.any (fun p => !nssCols.contains p.1) then .error nssSqlBad
      else match e.fails with
        | some r => .error r
        | none => .ok ((if pu then (nssSelect ps d.pub).map (nssIdFormat .pub) else []) ++
            (if pr then (nssSelect ps d.priv).map (nssIdFormat .priv) else []))

/-- Handles of the objects found (`src/storage/nssdb/mod.rs:1406-1418`). -/
def nssHandles : List Bytes → Handles → Res (List Nat) × Handles
  | [], h => (.ok [], h)
  | u :: us, h => match h.getByUid u with
    | some n => match nssHandles us h with
      | (.ok l, h) => (.ok (n :: l), h)
      | (.error r, h) => (.error r, h)
    | none =>
      let (n, h) := h.bump
      match h.insert n u with
      | (.error r, h) => (.error r, h)
      | (.ok (), h) => match nssHandles us h with
        | (.ok l, h) => (.ok (n :: l), h)
        | (.error r, h) => (.error r, h)

/-- `search` (`src/storage/nssdb/mod.rs:1400-1419`). -/
def Nss.search (e : Env) (s : Nss) (h : Handles) (t : Template) : Res (List Nat) × Handles :=
  match s.db.searchIds e t with
  | .error r => (.error r, h)
  | .ok ids => nssHandles ids h

/-- `remove` (`src/storage/nssdb/mod.rs:1422-1428`). -/
def Nss.remove : Res Unit := .error .functionNotSupported

/-! ## The PIN -/

/-- `auth_user` (`src/storage/nssdb/mod.rs:1448-1513`); the flags are always zero. -/
def Nss.authUser (e : Env) (s : Nss) (u : User) (pin : Bytes) (checkOnly : Bool) : Res Unit × Nss :=
  match u with
  | .so => match s.db.fetchPassword (e.sub 0) with
    | .ok _ => (.error .userTypeInvalid, s)
    | .error r => if r = .userPinNotInitialized then (.ok (), s) else (.error r, s)
  | .user => match s.db.fetchPassword (e.sub 0) with
    | .error r => (.error r, s)
    | .ok (salt, data) => match nssEnckey N (e.sub 1) pin salt with
      | .error r => (.error r, s)
      | .ok key =>
        if s.keys.enckey = some key then (.ok (), s)
        else match nssDecrypt N (e.sub 2) (s.keys.setKey key) data with
          | (.error r, k) => (.error r, { s with keys := k.unsetKey })
          | (.ok plain, k) =>
            if plain = nssPassCheck then
              (.ok (), { s with keys := if checkOnly && s.keys.enckey.isNone then k.unsetKey else k })
            else (.error .pinIncorrect, { s with keys := k.unsetKey })

/-- `unauth_user` (`src/storage/nssdb/mod.rs:1516-1518`). -/
def Nss.unauthUser (s : Nss) : Nss := { s with keys := s.keys.unsetKey }

/-- `set_user_pin` (`src/storage/nssdb/mod.rs:1526-1566`). -/
def Nss.setUserPin (e : Env) (s : Nss) (u : User) (pin : Bytes) : Res Unit × Nss :=
  if u ≠ .user then (.error .userTypeInvalid, s)
  else if pin.length > 500 then (.error .pinLenRange, s)
  else match (e.sub 0).fails with
    | some r => (.error r, s)
    | none =>
      let salt := (e.sub 0).rnd 20
      match nssEnckey N (e.sub 1) pin salt with
      | .error r => (.error r, s)
      | .ok key => match nssEncrypt N (e.sub 2) (NssKeys.default.setKey key) (if pin.length = 0 then 1 else 10000) nssPassCheck with
        | (.error r, _) => (.error r, s)
        | (.ok data, k) =>
          let s := { s with keys := k.unsetKey }
          match s.db.saveMeta (e.sub 3) .password (salt, data) with
          | .error r => (.error r, s)
          | .ok d => match (e.sub 4).fails with
            | some r => (.error r, s)
            | none => (.ok (), { s with db := d })

/-- `reinit` (`src/storage/nssdb/mod.rs:1099-1106`, `:325-374`): one transaction, then the columns are checked. -/
def Nss.reinit (e : Env) (s : Nss) : Res Unit × Nss :=
  match (e.sub 0).fails with
  | some r => (.error r, s)
  | none =>
    let s := { s with db := ⟨[], [], []⟩ }
    match (e.sub 1).fails with
    | some r => (.error r, s)
    | none => (.ok (), { s with keys := NssKeys.default })

end Kry
