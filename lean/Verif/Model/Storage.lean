import Verif.Model.Sqlite

/-!
# Access control, encryption and object storage (`src/storage/aci.rs`, `src/storage/format.rs`)

Modelled for the SQLite backend and for the build without the `fips` feature (`checked_pin` is the
identity, no validation flags are added on fetch).
-/

namespace Kry

variable (C : Crypto)

/-- `StorageACI` (`src/storage/aci.rs:417-426`); the master key is kept as its value. -/
structure Aci where
  keyVersion : Nat
  key : Option Bytes
  encrypt : Bool
deriving DecidableEq, Repr, Inhabited

/-- `def_iterations` (`src/storage/aci.rs:432`). -/
abbrev defIterations : Nat := 1000

/-- `SO_ID` / `USER_ID` as additional data (`src/storage/format.rs:83-84`). -/
def User.id : User → Bytes
  | .so => ascii "SO"
  | .user => ascii "USER"

/-- `encrypt_key` (`src/storage/aci.rs:141-195`): salt and IV are random. -/
def encryptKey (e : Env) (id pin : Bytes) (version : Nat) (key : Bytes) : Res Bytes :=
  match e.fails with
  | some r => .error r
  | none =>
    let salt := (e.sub 0).rnd 32
    let iv := (e.sub 1).rnd 12
    let c := C.enc (C.kek pin salt defIterations) iv id key
    .ok (C.der ⟨version, .pbkdf2 salt defIterations, iv, c.2, c.1⟩)

/-- `decrypt_key` (`src/storage/aci.rs:204-249`). -/
def decryptKey (e : Env) (id pin blob : Bytes) : Res (Nat × Bytes) :=
  match C.parse blob with
  | none => .error .dataInvalid
  | some d => match d.kdf with
    | .kkdf1 _ => .error .mechanismInvalid
    | .pbkdf2 salt it => match e.fails with
      | some r => .error r
      | none => match C.dec (C.kek pin salt it) d.iv id (d.data, d.tag) with
        | none => .error .encryptedDataInvalid
        | some k => .ok (d.version, k)

/-- `encrypt_data` (`src/storage/aci.rs:258-311`). -/
def encryptData (e : Env) (version : Nat) (key uid plain : Bytes) : Res Bytes :=
  match e.fails with
  | some r => .error r
  | none =>
    let iv := e.rnd 12
    let c := C.enc (C.dek key uid) iv uid plain
    .ok (C.der ⟨version, .kkdf1 uid, iv, c.2, c.1⟩)

/-- `decrypt_data` (`src/storage/aci.rs:320-364`): the HKDF `info` comes from the stored structure, the
additional data from the caller. -/
def decryptData (e : Env) (version : Nat) (key uid blob : Bytes) : Res Bytes :=
  match C.parse blob with
  | none => .error .dataInvalid
  | some d =>
    if d.version ≠ version then .error .keyChanged
    else match d.kdf with
      | .pbkdf2 _ _ => .error .mechanismInvalid
      | .kkdf1 info => match e.fails with
        | some r => .error r
        | none => match C.dec (C.dek key info) d.iv uid (d.data, d.tag) with
          | none => .error .encryptedDataInvalid
          | some p => .ok p

/-- `StorageACI::new` (`src/storage/aci.rs:430-437`). -/
def Aci.new (encrypt : Bool) : Aci := ⟨0, none, encrypt⟩

/-- `reset` (`src/storage/aci.rs:446-467`): the version is incremented before the key is generated, and
stays so if that fails. -/
def Aci.reset (e : Env) (a : Aci) : Res Unit × Aci :=
  if !a.encrypt then (.ok (), a)
  else match e.fails with
    | some r => (.error r, { a with keyVersion := a.keyVersion + 1 })
    | none => (.ok (), { a with keyVersion := a.keyVersion + 1, key := some (e.rnd 32) })

/-- `unauth` (`src/storage/aci.rs:470-472`). -/
def Aci.unauth (a : Aci) : Aci := { a with key := none }

/-- `encrypt_value` (`src/storage/aci.rs:477-495`). -/
def Aci.encryptValue (e : Env) (a : Aci) (uid v : Bytes) : Res Bytes :=
  match a.key with
  | some k => encryptData C e a.keyVersion k uid v
  | none => .error .generalError

/-- `decrypt_value` (`src/storage/aci.rs:501-519`). -/
def Aci.decryptValue (e : Env) (a : Aci) (uid v : Bytes) : Res Bytes :=
  match a.key with
  | some k => decryptData C e a.keyVersion k uid v
  | none => .error .generalError

/-- `"NO ENCRYPTION"` (`src/storage/aci.rs:541`). -/
def noEncryption : Bytes := ascii "NO ENCRYPTION"

/-- `key_to_user_data` (`src/storage/aci.rs:528-552`). -/
def Aci.keyToUserData (e : Env) (a : Aci) (u : User) (pin : Bytes) : Res AuthInfo :=
  let ek : Res Bytes :=
    if a.encrypt then
      match a.key with
      | some k => .ok k
      | none => .error .userNotLoggedIn
    else .ok noEncryption
  match ek with
  | .error r => .error r
  | .ok ek => match encryptKey C e u.id pin a.keyVersion ek with
    | .error r => .error r
    | .ok blob => .ok { AuthInfo.default with userData := some blob }

/-- `authenticate` (`src/storage/aci.rs:562-605`): answer (did the counter change), new state of the
manager and of the user record.  The object creation at `:587-589` succeeds exactly for 32-byte keys
(`CKA_VALUE_LEN` of the template must agree with the value); the key version is already replaced when
it fails. -/
def Aci.authenticate (e : Env) (a : Aci) (u : User) (info : AuthInfo) (pin : Bytes) (setKey : Bool) :
    Res Bool × Aci × AuthInfo :=
  if info.locked then (.ok false, a, info)
  else match info.userData with
    | none => (.error .generalError, a, info)
    | some wrapped =>
      let failed := { info with curAttempts := info.curAttempts + 1 }
      let good := { info with curAttempts := 0 }
      match decryptKey C e u.id pin wrapped with
      | .error _ => (.ok true, a, failed)
      | .ok (ver, key) =>
        if a.encrypt then
          if setKey then
            if key.length = 32 then
              (.ok (decide (info.curAttempts ≠ 0)), { a with keyVersion := ver, key := some key }, good)
            else (.error .attrValueInvalid, { a with keyVersion := ver }, info)
          else (.ok (decide (info.curAttempts ≠ 0)), a, good)
        else if key = noEncryption then (.ok (decide (info.curAttempts ≠ 0)), a, good)
        else (.ok true, a, failed)

/-! ## `StdStorageFormat` (`src/storage/format.rs`) -/

/-- `StdStorageFormat` (`src/storage/format.rs:169-174`). -/
structure Store where
  db : Db
  aci : Aci
deriving DecidableEq, Repr, Inhabited

/-- `user_flags` (`src/storage/format.rs:30-63`). -/
def userFlags (u : User) (a : AuthInfo) (flag : Nat) : Nat :=
  let remaining := if a.locked then 0 else a.maxAttempts - a.curAttempts
  match u with
  | .so =>
    let f := flag ||| (match remaining with
      | 0 => CKF_SO_PIN_LOCKED
      | 1 => CKF_SO_PIN_FINAL_TRY
      | 2 => CKF_SO_PIN_COUNT_LOW
      | 3 => CKF_SO_PIN_COUNT_LOW
      | _ => 0)
    if a.defaultPin then f ||| CKF_SO_PIN_TO_BE_CHANGED else f
  | .user =>
    let f := flag ||| (match remaining with
      | 0 => CKF_USER_PIN_LOCKED
      | 1 => CKF_USER_PIN_FINAL_TRY
      | 2 => CKF_USER_PIN_COUNT_LOW
      | 3 => CKF_USER_PIN_COUNT_LOW
      | _ => 0)
    if a.defaultPin then f ||| CKF_USER_PIN_TO_BE_CHANGED else f ||| CKF_USER_PIN_INITIALIZED

/-- `init_pin_flags` (`src/storage/format.rs:190-210`). -/
def Store.initPinFlags (e : Env) (s : Store) : Res Nat :=
  match s.db.fetchUser (e.sub 0) .so with
  | .error r => .error r
  | .ok so =>
    let soF := userFlags .so so 0
    match s.db.fetchUser (e.sub 1) .user with
    | .ok us => .ok (soF ||| userFlags .user us 0)
    | .error r => if r = .userPinNotInitialized then .ok soF else .error r

/-- `default_so_pin` (`src/storage/format.rs:213-218`). -/
def Store.defaultSoPin (e : Env) (s : Store) : Res Unit × Store :=
  match s.aci.keyToUserData C (e.sub 0) .so [] with
  | .error r => (.error r, s)
  | .ok data =>
    let (r, db) := s.db.storeUser (e.sub 1) .so data
    (r, { s with db := db })

/-- Lower-case hexadecimal digit (`hex::encode`, `src/storage/format.rs:234`). -/
def hexDigit (n : Nat) : UInt8 := if n < 10 then UInt8.ofNat (48 + n) else UInt8.ofNat (87 + n)

/-- `hex::encode`. -/
def hexEncode (bs : Bytes) : Bytes := bs.flatMap fun b => [hexDigit (b.toNat / 16), hexDigit (b.toNat % 16)]

/-- `default_token_info` (`src/storage/format.rs:221-237`). -/
def Store.defaultTokenInfo (e : Env) (s : Store) : Res TokInfo × Store :=
  let info := TokInfo.default
  let info := { info with flags := info.flags ||| CKF_TOKEN_INITIALIZED }
  let info := if s.aci.encrypt then { info with flags := info.flags ||| CKF_LOGIN_REQUIRED } else info
  match (e.sub 0).fails with
  | some r => (.error r, s)
  | none =>
    let info := { info with serial := hexEncode ((e.sub 0).rnd 8) }
    let (r, db) := s.db.storeTokenInfo (e.sub 1) info
    match r with
    | .error r => (.error r, { s with db := db })
    | .ok () => (.ok info, { s with db := db })

/-- `open` (`src/storage/format.rs:242-248`, `src/storage/sqlite.rs:417-425`). -/
def Store.open (e : Env) (s : Store) : Res TokInfo :=
  match (e.sub 0).fails with
  | some r => .error r
  | none => match s.db.isInitialized (e.sub 1) with
    | .error r => .error r
    | .ok () => match s.db.fetchTokenInfo (e.sub 2) with
      | .error r => .error r
      | .ok info => match s.initPinFlags (e.sub 3) with
        | .error r => .error r
        | .ok f => .ok { info with flags := info.flags ||| f }

/-- `reinit` (`src/storage/format.rs:252-263`): four separate transactions. -/
def Store.reinit (e : Env) (s : Store) : Res TokInfo × Store :=
  let (r, db) := s.db.reset (e.sub 0)
  let s := { s with db := db }
  match r with
  | .error r => (.error r, s)
  | .ok () =>
    let (r, aci) := s.aci.reset (e.sub 1)
    let s := { s with aci := aci }
    match r with
    | .error r => (.error r, s)
    | .ok () =>
      let (r, s) := s.defaultSoPin C (e.sub 2)
      match r with
      | .error r => (.error r, s)
      | .ok () =>
        let (r, s) := s.defaultTokenInfo (e.sub 3)
        match r with
        | .error r => (.error r, s)
        | .ok info => match s.initPinFlags (e.sub 4) with
          | .error r => (.error r, s)
          | .ok f => (.ok { info with flags := info.flags ||| f }, s)

/-- `Handles` (`src/token.rs:33-85`): a bijection between handles and unique ids, and the next handle. -/
structure Handles where
  map : List (Nat × Bytes)
  next : Nat
deriving DecidableEq, Repr, Inhabited

namespace Handles

/-- `Handles::new` (`src/token.rs:43-48`). -/
def new : Handles := ⟨[], 1⟩

/-- `get` (`src/token.rs:63-65`). -/
def get (h : Handles) (n : Nat) : Option Bytes := AMap.get h.map n

/-- `get_by_uid` (`src/token.rs:68-70`). -/
def getByUid (h : Handles) (uid : Bytes) : Option Nat :=
  match h.map.find? fun p => p.2 == uid with
  | none => none
  | some p => some p.1

/-- `insert` (`src/token.rs:52-60`): refused if either side is present. -/
def insert (h : Handles) (n : Nat) (uid : Bytes) : Res Unit × Handles :=
  if (h.get n).isSome || (h.getByUid uid).isSome then (.error .generalError, h)
  else (.ok (), { h with map := h.map ++ [(n, uid)] })

/-- `remove` (`src/token.rs:73-75`). -/
def remove (h : Handles) (n : Nat) : Handles := { h with map := AMap.erase h.map n }

/-- `next` (`src/token.rs:80-84`). -/
def bump (h : Handles) : Nat × Handles := (h.next, { h with next := h.next + 1 })

end Handles

/-- `get_sensitive` (`src/object/factory.rs:207-209`, `:220-224`). -/
def Factory.sensitive (F : Factory) : List Nat := (F.attrs.filter fun a => a.is oaSensitive).map FAttr.typ

/-- `get_ephemeral` (`src/object/factory.rs:214-216`, `:225-227`). -/
def Factory.ephemeral (F : Factory) : List Nat := (F.attrs.filter fun a => a.is oaEphemeral).map FAttr.typ

/-- The decryption loop of `fetch` (`src/storage/format.rs:315-324`). -/
def decryptLoop (e : Env) (a : Aci) (uid : Bytes) : List Nat → Nat → Obj → Res Obj
  | [], _, o => .ok o
  | t :: ts, i, o => match o.find t with
    | none => decryptLoop e a uid ts (i + 1) o
    | some at' => match a.decryptValue C (e.sub i) uid at'.value with
      | .error r => .error r
      | .ok p => match o.setAttr (Attr.ofBytes t p) with
        | .error r => .error r
        | .ok o => decryptLoop e a uid ts (i + 1) o

/-- The encryption loop of `store` (`src/storage/format.rs:347-355`). -/
def encryptLoop (e : Env) (a : Aci) (uid : Bytes) : List Nat → Nat → Obj → Res Obj
  | [], _, o => .ok o
  | t :: ts, i, o => match o.find t with
    | none => encryptLoop e a uid ts (i + 1) o
    | some at' => match a.encryptValue C (e.sub i) uid at'.value with
      | .error r => .error r
      | .ok p => match o.setAttr (Attr.ofBytes t p) with
        | .error r => .error r
        | .ok o => encryptLoop e a uid ts (i + 1) o

/-- `add_missing_ulong` on the list of requested types (`src/attribute.rs:866-874`). -/
def addMissing (l : List Nat) (t : Nat) : List Nat := if l.contains t then l else l ++ [t]

/-- The types asked of the database by `fetch` (`src/storage/format.rs:287-301`). -/
def fetchHints (attrs : List Nat) : List Nat :=
  if attrs = [] then []
  else addMissing (addMissing (addMissing (addMissing (addMissing attrs CKA_CLASS) CKA_KEY_TYPE)
    CKA_CERTIFICATE_TYPE) CKA_SENSITIVE) CKA_EXTRACTABLE

/-- `fetch` (`src/storage/format.rs:275-332`). -/
def Store.fetch (e : Env) (s : Store) (h : Handles) (handle : Nat) (attrs : List Nat) : Res Obj :=
  match h.get handle with
  | none => .error .objectHandleInvalid
  | some uid => match s.db.fetchByUid (e.sub 0) uid (fetchHints attrs) with
    | .error r => .error r
    | .ok o => match objFactory o with
      | .error r => .error r
      | .ok F =>
        let dec : Res Obj := if s.aci.encrypt then decryptLoop C (e.sub 1) s.aci uid F.sensitive 0 o
          else .ok o
        match dec with
        | .error r => .error r
        | .ok o => .ok { o with handle := handle }

/-- Removal of the ephemeral attributes (`src/storage/format.rs:359-361`, `:413-415`). -/
def delAll (o : Obj) (ts : List Nat) : Obj := ts.foldl Obj.delAttr o

/-- `store` (`src/storage/format.rs:338-370`); the handle table keeps the new entry even when writing
fails. -/
def Store.store (e : Env) (s : Store) (h : Handles) (o : Obj) : Res Nat × Store × Handles :=
  match objFactory o with
  | .error r => (.error r, s, h)
  | .ok F => match o.getStr CKA_UNIQUE_ID with
    | .error r => (.error r, s, h)
    | .ok uid =>
      let enc : Res Obj := if s.aci.encrypt then encryptLoop C (e.sub 0) s.aci uid F.sensitive 0 o
        else .ok o
      match enc with
      | .error r => (.error r, s, h)
      | .ok o =>
        let o := delAll o F.ephemeral
        let fin (handle : Nat) (h : Handles) : Res Nat × Store × Handles :=
          let (r, db) := s.db.storeObj (e.sub 1) o
          match r with
          | .error r => (.error r, { s with db := db }, h)
          | .ok () => (.ok handle, { s with db := db }, h)
        if o.handle = 0 then
          let (n, h) := h.bump
          let (r, h) := h.insert n uid
          match r with
          | .error r => (.error r, s, h)
          | .ok () => fin n h
        else fin o.handle h

/-- `insert_unique_vec` (`src/attribute.rs:948-960`): replace the first entry of that type. -/
def replaceFirst : Template → Nat → Bytes → Template
  | [], t, v => [⟨t, .data v⟩]
  | c :: rest, t, v => if c.typ = t then ⟨t, .data v⟩ :: rest else c :: replaceFirst rest t v

/-- The encryption loop of `update` (`src/storage/format.rs:394-405`). -/
def updateEncrypt (e : Env) (a : Aci) (uid : Bytes) : List Nat → Nat → Template → Res Template
  | [], _, t => .ok t
  | ty :: ts, i, t => match t.find? fun c => c.typ == ty with
    | none => updateEncrypt e a uid ts (i + 1) t
    | some c => match a.encryptValue C (e.sub i) uid c.toBuf with
      | .error r => .error r
      | .ok v => updateEncrypt e a uid ts (i + 1) (replaceFirst t ty v)

/-- `for ck_attr in attrs { obj.set_attr(Attribute::from_ck_attr(ck_attr)?)? }`
(`src/storage/format.rs:408-410`). -/
def setAllCk (o : Obj) : Template → Res Obj
  | [] => .ok o
  | c :: rest => match Attr.fromCk c with
    | .error r => .error r
    | .ok a => match o.setAttr a with
      | .error r => .error r
      | .ok o => setAllCk o rest

/-- `update` (`src/storage/format.rs:376-418`). -/
def Store.update (e : Env) (s : Store) (h : Handles) (handle : Nat) (t : Template) : Res Unit × Store :=
  match h.get handle with
  | none => (.error .objectHandleInvalid, s)
  | some uid => match s.db.fetchByUid (e.sub 0) uid [] with
    | .error r => (.error r, s)
    | .ok o => match objFactory o with
      | .error r => (.error r, s)
      | .ok F =>
        let t' : Res Template := if s.aci.encrypt then updateEncrypt C (e.sub 1) s.aci uid F.sensitive 0 t
          else .ok t
        match t' with
        | .error r => (.error r, s)
        | .ok t' => match setAllCk o t' with
          | .error r => (.error r, s)
          | .ok o =>
            let (r, db) := s.db.storeObj (e.sub 2) (delAll o F.ephemeral)
            (r, { s with db := db })

/-- Decimal value of a digit string. -/
def decVal (bs : Bytes) : Nat := bs.foldl (fun n b => 10 * n + (b.toNat - 48)) 0

/-- `uid.parse::<usize>()` is below 10 (`src/storage/format.rs:442-446`): an optional `+`, then at least
one digit. -/
def internalUid (uid : Bytes) : Bool :=
  let ds := match uid with
    | 43 :: r => r
    | l => l
  !ds.isEmpty && allDigits ds && decide (decVal ds < 10)

/-- The loop of `search` (`src/storage/format.rs:432-457`). -/
def searchLoop (t : Template) : List Obj → Handles → Res (List Nat) × Handles
  | [], h => (.ok [], h)
  | o :: rest, h =>
    let skip := o.isSensitive && (match checkSensitive o t with
      | .error _ => true
      | .ok () => false)
    if skip then searchLoop t rest h
    else match o.getStr CKA_UNIQUE_ID with
      | .error _ => searchLoop t rest h
      | .ok uid =>
        if internalUid uid then searchLoop t rest h
        else match h.getByUid uid with
          | some n =>
            let (r, h) := searchLoop t rest h
            match r with
            | .error r => (.error r, h)
            | .ok l => (.ok (n :: l), h)
          | none =>
            let (n, h) := h.bump
            let (r, h) := h.insert n uid
            match r with
            | .error r => (.error r, h)
            | .ok () =>
              let (r, h) := searchLoop t rest h
              match r with
              | .error r => (.error r, h)
              | .ok l => (.ok (n :: l), h)

/-- `search` (`src/storage/format.rs:425-459`). -/
def Store.search (e : Env) (s : Store) (h : Handles) (t : Template) : Res (List Nat) × Handles :=
  match s.db.search e t with
  | .error r => (.error r, h)
  | .ok objs => searchLoop t objs h

/-- `remove` (`src/storage/format.rs:462-472`). -/
def Store.remove (e : Env) (s : Store) (h : Handles) (handle : Nat) : Res Unit × Store :=
  match h.get handle with
  | none => (.error .objectHandleInvalid, s)
  | some uid =>
    let (r, db) := s.db.removeByUid e uid
    (r, { s with db := db })

/-- `auth_user` (`src/storage/format.rs:488-520`): result, new flags, new storage.  A failure to write
the attempt counter is ignored, as in the source (`:507`). -/
def Store.authUser (e : Env) (s : Store) (u : User) (pin : Bytes) (checkOnly : Bool) :
    Res Unit × Nat × Store :=
  match s.db.fetchUser (e.sub 0) u with
  | .error r => (.error r, 0, s)
  | .ok info =>
    let (r, aci, info') := s.aci.authenticate C (e.sub 1) u info pin (!checkOnly)
    let s := { s with aci := aci }
    match r with
    | .error r => (.error r, 0, s)
    | .ok update =>
      let s := if update then { s with db := (s.db.storeUser (e.sub 2) u info').2 } else s
      if info'.curAttempts = 0 then (.ok (), 0, s)
      else
        let f := userFlags u info' 0
        if info'.locked then (.error .pinLocked, f, s) else (.error .pinIncorrect, f, s)

/-- `unauth_user` (`src/storage/format.rs:523-528`). -/
def Store.unauthUser (e : Env) (s : Store) (u : User) : Res Unit × Store :=
  match s.db.fetchUser e u with
  | .error r => (.error r, s)
  | .ok _ => (.ok (), { s with aci := s.aci.unauth })

/-- `set_user_pin` (`src/storage/format.rs:534-543`). -/
def Store.setUserPin (e : Env) (s : Store) (u : User) (pin : Bytes) : Res Unit × Store :=
  match s.aci.keyToUserData C (e.sub 0) u pin with
  | .error r => (.error r, s)
  | .ok data =>
    let (r, db) := s.db.storeUser (e.sub 1) u data
    (r, { s with db := db })

end Kry
