import Verif.Model.Storage

/-!
# The token (`src/token.rs`)

Modelled for the SQLite backend without the `fips` feature.  `HashMap` iteration order is the order of
the association list; `sort` of handles never matters to the code.
-/

namespace Kry

variable (C : Crypto)

/-- `ObjectsDedup` (`src/config.rs:66-70`). -/
inductive Dedup where
  | trustOnly | trustAndCertificates | all
deriving DecidableEq, Repr

/-- What a slot's configuration gives its token (`src/slot.rs:51-62`): the registered mechanisms
(`src/enabled.rs`, `src/mechanism.rs`), the allow or deny list (`true` = deny) and the deduplication
option. -/
structure TokCfg where
  mechs : List Nat
  filter : Option (Bool × List Nat)
  dedup : Option Dedup
deriving DecidableEq, Repr

/-- `Token` (`src/token.rs:97-117`).  `logged` is `None` for `KRY_UNSPEC`; the only other values the
code ever assigns are `CKU_SO` and `CKU_USER` (`src/token.rs:363`, `:379`). -/
structure Token where
  info : TokInfo
  handles : Handles
  store : Store
  sess : List (Nat × Obj)
  logged : Option User
  cfg : TokCfg
deriving Repr

namespace Token

/-- `get_mechs_list` (`src/token.rs:483-507`, `:523-528`). -/
def mechsList (t : Token) : List Nat :=
  match t.cfg.filter with
  | none => t.cfg.mechs
  | some (false, l) => t.cfg.mechs.filter fun k => l.contains k
  | some (true, l) => t.cfg.mechs.filter fun k => !l.contains k

/-- `is_initialized` (`src/token.rs:241-243`). -/
def isInitialized (t : Token) : Bool := t.info.flags &&& CKF_TOKEN_INITIALIZED == CKF_TOKEN_INITIALIZED

/-- `is_logged_in(KRY_UNSPEC)` (`src/token.rs:323-330`). -/
def loggedIn (t : Token) : Bool := t.logged.isSome

/-- Eight hexadecimal groups of a UUID with hyphens (`Uuid::to_string`). -/
def uuidText (b : Bytes) : Bytes :=
  let h := hexEncode b
  h.take 8 ++ [45] ++ (h.drop 8).take 4 ++ [45] ++ (h.drop 12).take 4 ++ [45] ++ (h.drop 16).take 4
    ++ [45] ++ h.drop 20

/-- `generate_stable_unique` (`src/object/mod.rs:142-162`): UUID version 8 of `"kryoptic"`, class and
id. -/
def stableUid (cls id : Nat) : Bytes :=
  let b := ascii "kryoptic" ++ toBE 4 (cls % 2 ^ 32) ++ toBE 4 (id % 2 ^ 32)
  uuidText (b.take 6 ++ [UInt8.ofNat ((b.getD 6 0).toNat % 16 + 0x80)] ++ [b.getD 7 0]
    ++ [UInt8.ofNat ((b.getD 8 0).toNat % 64 + 0x80)] ++ b.drop 9)

/-- `get_object_by_handle` (`src/token.rs:541-557`). -/
def getObjectByHandle (e : Env) (t : Token) (h : Nat) : Res Obj :=
  let obj : Res Obj := match AMap.get t.sess h with
    | some o => .ok o
    | none => t.store.fetch C e t.handles h []
  match obj with
  | .error r => .error r
  | .ok o => if !t.loggedIn && o.isToken && o.isPrivate then .error .userNotLoggedIn else .ok o

/-- `insert_object` (`src/token.rs:572-592`). -/
def insertObject (e : Env) (t : Token) (s : Nat) (o : Obj) : Res Nat × Token :=
  if o.isToken then
    if !t.loggedIn then (.error .userNotLoggedIn, t)
    else
      let (r, st, h) := t.store.store C e t.handles o
      (r, { t with store := st, handles := h })
  else
    let (n, h) := t.handles.bump
    let t := { t with handles := h }
    let o := { o with handle := n, session := s }
    match o.getStr CKA_UNIQUE_ID with
    | .error r => (.error r, t)
    | .ok uid =>
      let (r, h) := t.handles.insert n uid
      let t := { t with handles := h }
      match r with
      | .error r => (.error r, t)
      | .ok () => (.ok n, { t with sess := AMap.insert t.sess n o })

/-- `insert_builtin_object` (`src/token.rs:947-961`). -/
def insertBuiltin (e : Env) (t : Token) (cls idType id : Nat) : Res Unit × Token :=
  match getFactory cls 0 with
  | .error r => (.error r, t)
  | .ok F => match builtinCreate F idType id (stableUid cls id) with
    | .error r => (.error r, t)
    | .ok o =>
      let (r, t) := t.insertObject C e 0 o
      match r with
      | .error r => (.error r, t)
      | .ok _ => (.ok (), t)

/-- A run of `insert_builtin_object` calls (`src/token.rs:211-213`). -/
def insertBuiltins (e : Env) (t : Token) (cls idType : Nat) : List Nat → Nat → Res Unit × Token
  | [], _ => (.ok (), t)
  | id :: rest, i =>
    let (r, t) := t.insertBuiltin C (e.sub i) cls idType id
    match r with
    | .error r => (.error r, t)
    | .ok () => insertBuiltins e t cls idType rest (i + 1)

/-- The profile objects (`src/token.rs:196-207`). -/
def profiles : List Nat := [CKP_BASELINE_PROVIDER, CKP_EXTENDED_PROVIDER, CKP_AUTHENTICATION_TOKEN,
  CKP_PUBLIC_CERTIFICATES_TOKEN, CKP_HKDF_TLS_TOKEN]

/-- `token_internal_objects_init` (`src/token.rs:182-216`). -/
def internalInit (e : Env) (t : Token) : Res Unit × Token :=
  let (r, t) := t.insertBuiltins C (e.sub 0) CKO_PROFILE CKA_PROFILE_ID profiles 0
  match r with
  | .error r => (.error r, t)
  | .ok () => t.insertBuiltins C (e.sub 1) CKO_MECHANISM CKA_MECHANISM_TYPE t.mechsList 0

/-- `fill_token_info` (`src/token.rs:220-226`). -/
def fillInfo (t : Token) (i : TokInfo) : Token := { t with info := { i with flags := i.flags ||| CKF_RNG } }

/-- `Token::new` followed by the configuration calls of `Slot::new` (`src/token.rs:124-177`,
`src/slot.rs:51-62`).  The built-in objects are created before the mechanism filter is installed. -/
def new (e : Env) (db : Db) (cfg : TokCfg) : Res Token :=
  let t : Token := ⟨{ TokInfo.default with flags := CKF_RNG }, Handles.new, ⟨db, Aci.new true⟩, [], none,
    { cfg with filter := none, dedup := none }⟩
  let t' : Res Token := match t.store.open (e.sub 0) with
    | .ok info => .ok (t.fillInfo info)
    | .error .cryptokiNotInitialized =>
      let t := t.fillInfo TokInfo.default
      .ok { t with info := { t.info with flags := clearFlags t.info.flags CKF_TOKEN_INITIALIZED } }
    | .error r => .error r
  match t' with
  | .error r => .error r
  | .ok t =>
    let (r, t) := t.internalInit C (e.sub 1)
    match r with
    | .error r => .error r
    | .ok () => .ok { t with cfg := cfg }

/-! ## Authentication -/

/-- The three PIN-count flags of a user (`src/token.rs:336-338`, `:342-344`). -/
def pinFlags : User → Nat
  | .user => CKF_USER_PIN_LOCKED ||| CKF_USER_PIN_FINAL_TRY ||| CKF_USER_PIN_COUNT_LOW
  | .so => CKF_SO_PIN_LOCKED ||| CKF_SO_PIN_FINAL_TRY ||| CKF_SO_PIN_COUNT_LOW

/-- `update_auth_flags` (`src/token.rs:333-349`). -/
def updateAuthFlags (t : Token) (u : User) (f : Nat) : Token :=
  { t with info := { t.info with flags := clearFlags t.info.flags (pinFlags u) ||| f } }

/-- `auth_user` (`src/token.rs:357-382`), for the two valid user types. -/
def authUser (e : Env) (t : Token) (u : User) (pin : Bytes) (checkOnly : Bool) : Res Unit × Token :=
  let (r, f, st) := t.store.authUser C e u pin checkOnly
  let t := { t with store := st }.updateAuthFlags u f
  match r with
  | .error r => (.error r, t)
  | .ok () => (.ok (), if checkOnly then t else { t with logged := some u })

/-- `CK_USER_TYPE` values of C_Login. -/
def userOf (n : Nat) : Option User :=
  if n = CKU_SO then some .so else if n = CKU_USER then some .user else none

/-- `login` (`src/token.rs:390-408`). -/
def login (e : Env) (t : Token) (ut : Nat) (pin : Bytes) : Res Unit × Token :=
  match userOf ut with
  | some u =>
    if t.logged = some u then (.error .userAlreadyLoggedIn, t)
    else if t.logged ≠ none then (.error .userAnotherAlreadyLoggedIn, t)
    else t.authUser C e u pin false
  | none =>
    if ut = CKU_CONTEXT_SPECIFIC then
      match t.logged with
      | none => (.error .userTypeInvalid, t)
      | some u => t.authUser C e u pin true
    else (.error .userTypeInvalid, t)

/-- `clear_private_session_objects` (`src/token.rs:438-456`). -/
def clearPrivate (t : Token) : Token :=
  let hs := (t.sess.filter fun p => p.2.session ≠ 0 ∧ p.2.isPrivate = true).map Prod.fst
  { t with
    sess := hs.foldl AMap.erase t.sess
    handles := hs.foldl Handles.remove t.handles }

/-- `clear_session_objects` / `drop_session_objects` (`src/token.rs:460-480`): removes by the handle
stored in the object. -/
def dropSessionObjects (t : Token) (s : Nat) : Token :=
  let hs := (t.sess.filter fun p => p.2.session = s).map fun p => p.2.handle
  { t with
    sess := hs.foldl AMap.erase t.sess
    handles := hs.foldl Handles.remove t.handles }

/-- `logout` (`src/token.rs:414-428`). -/
def logout (e : Env) (t : Token) : Res Unit × Token :=
  match t.logged with
  | none => (.error .userNotLoggedIn, t)
  | some u =>
    let t := t.clearPrivate
    let t := { t with logged := none }
    let (r, st) := t.store.unauthUser e u
    let t := { t with store := st }
    match r with
    | .error _ => (.error .generalError, t)
    | .ok () => (.ok (), t)

/-- `set_pin` (`src/token.rs:297-320`); `who = none` is `CK_UNAVAILABLE_INFORMATION`.  When nobody is
logged in then, `auth_user` (if an old PIN is given) refuses the type and `set_user_pin` fails with
`CKR_GENERAL_ERROR` (`src/storage/format.rs:87-93`). -/
def setPin (e : Env) (t : Token) (who : Option User) (pin old : Bytes) : Res Unit × Token :=
  let utype : Option User := match who with
    | none => t.logged
    | some u => some u
  match utype with
  | none => if old ≠ [] then (.error .userTypeInvalid, t) else (.error .generalError, t)
  | some u =>
    let (r, t) : Res Unit × Token := if old ≠ [] then t.authUser C (e.sub 0) u old true else (.ok (), t)
    match r with
    | .error r => (.error r, t)
    | .ok () =>
      let (r, st) := t.store.setUserPin C (e.sub 1) u pin
      let t := { t with store := st }
      match r with
      | .error r => (.error r, t)
      | .ok () =>
        (.ok (), match u with
          | .user => { t with info := { t.info with flags := t.info.flags ||| CKF_USER_PIN_INITIALIZED } }
          | .so => t)

/-- `initialize` (`src/token.rs:250-290`). -/
def initToken (e : Env) (t : Token) (pin label : Bytes) : Res Unit × Token :=
  let (r, t) : Res Unit × Token := if t.isInitialized then t.authUser C (e.sub 0) .so pin true else (.ok (), t)
  match r with
  | .error r => (.error r, t)
  | .ok () =>
    let t := { t with handles := Handles.new, sess := [], logged := none }
    let (r, st) := t.store.reinit C (e.sub 1)
    let t := { t with store := st }
    match r with
    | .error r => (.error r, t)
    | .ok info =>
      let (r, t) := t.setPin C (e.sub 2) (some .so) pin []
      let stop : Option Rv := match r with
        | .ok () => none
        | .error r => if r = .userTypeInvalid then none else some r
      match stop with
      | some r => (.error r, t)
      | none =>
        let info := { info with label := copySized label info.label }
        let (r, db) := t.store.db.storeTokenInfo (e.sub 3) info
        let t := { t with store := { t.store with db := db } }
        match r with
        | .error r => (.error r, t)
        | .ok () =>
          let t := t.fillInfo info
          let (r, st) := t.store.unauthUser (e.sub 4) .so
          let t := { t with store := st }
          match r with
          | .error r => (.error r, t)
          | .ok () => t.internalInit C (e.sub 5)

/-! ## Objects -/

/-- The duplicate search (`src/token.rs:595-605`). -/
def isDuplicate (e : Env) (t : Token) (tm : Template) : Res (Option Nat) × Token :=
  let (r, h) := t.store.search e t.handles tm
  let t := { t with handles := h }
  match r with
  | .error r => (.error r, t)
  | .ok [] => (.ok none, t)
  | .ok [n] => (.ok (some n), t)
  | .ok _ => (.error .generalError, t)

/-- `_is_cert_obj_duplicate` (`src/token.rs:607-623`). -/
def certDuplicate (e : Env) (t : Token) (o : Obj) : Res (Option Nat) × Token :=
  match o.find CKA_ISSUER, o.find CKA_SERIAL_NUMBER with
  | some i, some s => t.isDuplicate e [CkAttr.ofUlong CKA_CLASS o.cls, CkAttr.mk' CKA_ISSUER i.value,
      CkAttr.mk' CKA_SERIAL_NUMBER s.value]
  | _, _ => (.ok none, t)

/-- `_is_key_obj_duplicate` (`src/token.rs:626-642`). -/
def keyDuplicate (e : Env) (t : Token) (o : Obj) : Res (Option Nat) × Token :=
  match o.find CKA_ID, o.find CKA_KEY_TYPE with
  | some i, some k => t.isDuplicate e [CkAttr.ofUlong CKA_CLASS o.cls, CkAttr.mk' CKA_ID i.value,
      CkAttr.mk' CKA_KEY_TYPE k.value]
  | _, _ => (.ok none, t)

/-- `Vec::swap_remove` of the first entry of type `t` (`src/attribute.rs:903-914`). -/
def swapRemove (l : Template) (t : Nat) : Template :=
  match l.findIdx? fun c => c.typ == t with
  | none => l
  | some i =>
    match l.getLast? with
    | none => l
    | some last => if i + 1 = l.length then l.dropLast else (l.dropLast).set i last

/-- `check_dedup` (`src/token.rs:651-711`). -/
def checkDedup (e : Env) (t : Token) (o : Obj) : Res (Option Nat) × Token :=
  let isCert : Bool := o.cls == CKO_CERTIFICATE
  let isKey : Bool := o.cls == CKO_PUBLIC_KEY || o.cls == CKO_PRIVATE_KEY || o.cls == CKO_SECRET_KEY
  let isTrust : Bool := o.cls == CKO_TRUST || o.cls == CKO_NSS_TRUST
  match t.cfg.dedup with
  | some d =>
    let (r, t) : Res (Option Nat) × Token := match d with
      | .trustOnly => if isTrust then t.certDuplicate (e.sub 0) o else (.ok none, t)
      | .trustAndCertificates => if isCert || isTrust then t.certDuplicate (e.sub 0) o else (.ok none, t)
      | .all => if isCert || isTrust then t.certDuplicate (e.sub 0) o
        else if isKey then t.keyDuplicate (e.sub 0) o else (.ok none, t)
    match r with
    | .error r => (.error r, t)
    | .ok none => (.ok none, t)
    | .ok (some n) =>
      let updt := swapRemove (o.attrs.map fun a => CkAttr.mk' a.typ a.value) CKA_UNIQUE_ID
      let (r, st) := t.store.update C (e.sub 1) t.handles n updt
      let t := { t with store := st }
      match r with
      | .error r => (.error r, t)
      | .ok () => (.ok (some n), t)
  | none =>
    if isTrust then
      let (r, t) := t.certDuplicate (e.sub 0) o
      match r with
      | .error r => (.error r, t)
      | .ok none => (.ok none, t)
      | .ok (some _) => (.error .attrValueInvalid, t)
    else (.ok none, t)

/-- `create_object` (`src/token.rs:720-738`). -/
def createObject (O : Oracle) (e : Env) (t : Token) (s : Nat) (tm : Template) : Res Nat × Token :=
  match factoriesCreate O (e.sub 0).uid tm with
  | .error r => (.error r, t)
  | .ok o =>
    if o.isToken then
      if !t.loggedIn then (.error .userNotLoggedIn, t)
      else
        let (r, t) := t.checkDedup C (e.sub 1) o
        match r with
        | .error r => (.error r, t)
        | .ok (some n) => (.ok n, t)
        | .ok none => t.insertObject C (e.sub 2) s o
    else t.insertObject C (e.sub 2) s o

/-- `destroy_object` (`src/token.rs:745-772`): a failing removal from storage is ignored, as in the
source. -/
def destroyObject (e : Env) (t : Token) (h : Nat) : Res Unit × Token :=
  match AMap.get t.sess h with
  | some o =>
    if !o.isDestroyable then (.error .actionProhibited, t)
    else (.ok (), { t with sess := AMap.erase t.sess h, handles := t.handles.remove h })
  | none => match t.store.fetch C (e.sub 0) t.handles h [CKA_DESTROYABLE] with
    | .error r => (.error r, t)
    | .ok o =>
      if !o.isDestroyable then (.error .actionProhibited, t)
      else (.ok (), { t with store := (t.store.remove (e.sub 1) t.handles h).2,
                              handles := t.handles.remove h })

/-- `get_object_attrs` (`src/token.rs:781-812`). -/
def getObjectAttrs (e : Env) (t : Token) (h : Nat) (tm : List OutAttr) : Res Unit × List OutAttr :=
  let hints := tm.map OutAttr.typ ++ (if t.loggedIn then [] else [CKA_TOKEN, CKA_PRIVATE])
  let obj : Res Obj := match AMap.get t.sess h with
    | some o => .ok o
    | none => t.store.fetch C e t.handles h hints
  match obj with
  | .error r => (.error r, tm)
  | .ok o =>
    if !t.loggedIn && o.isToken && o.isPrivate then (.error .objectHandleInvalid, tm)
    else getObjectAttributes o tm

/-- `set_object_attrs` (`src/token.rs:820-858`). -/
def setObjectAttrs (e : Env) (t : Token) (h : Nat) (tm : Template) : Res Unit × Token :=
  match AMap.get t.sess h with
  | some o => match objFactory o with
    | .error r => (.error r, t)
    | .ok F =>
      let (r, o) := setObjectAttributes F o tm
      (r, { t with sess := AMap.modify t.sess h fun _ => o })
  | none =>
    if !t.loggedIn then (.error .userNotLoggedIn, t)
    else match t.store.fetch C (e.sub 0) t.handles h [CKA_CLASS, CKA_KEY_TYPE, CKA_MODIFIABLE] with
      | .error r => (.error r, t)
      | .ok o => match objFactory o with
        | .error r => (.error r, t)
        | .ok F =>
          if !o.isModifiable then (.error .actionProhibited, t)
          else match checkSetAttributes F.attrs tm with
            | .error r => (.error r, t)
            | .ok () =>
              let (r, st) := t.store.update C (e.sub 1) t.handles h tm
              (r, { t with store := st })

/-- `get_object_size` (`src/token.rs:863-873`). -/
def getObjectSize (e : Env) (t : Token) (h : Nat) : Res Nat :=
  match AMap.get t.sess h with
  | some o => .ok o.roughSize
  | none => match t.store.fetch C e t.handles h [] with
    | .error r => .error r
    | .ok o => .ok o.roughSize

/-- `copy_object` (`src/token.rs:880-899`). -/
def copyObject (e : Env) (t : Token) (s h : Nat) (tm : Template) : Res Nat × Token :=
  let obj : Res Obj := match AMap.get t.sess h with
    | some o => .ok o
    | none => match t.store.fetch C (e.sub 0) t.handles h [] with
      | .error r => .error r
      | .ok o => if !t.loggedIn && o.isPrivate then .error .userNotLoggedIn else .ok o
  match obj with
  | .error r => (.error r, t)
  | .ok o => match factoriesCopy (e.sub 1).uid o tm with
    | .error r => (.error r, t)
    | .ok n => t.insertObject C (e.sub 2) s n

/-- The session part of `search_objects` (`src/token.rs:917-927`). -/
def searchSession (t : Token) (tm : Template) : List Nat :=
  (t.sess.filter fun p =>
    !(p.2.isSensitive && (match checkSensitive p.2 tm with
      | .error _ => true
      | .ok () => false)) && p.2.matchTemplate tm).map fun p => p.2.handle

/-- `search_objects` (`src/token.rs:909-938`). -/
def searchObjects (e : Env) (t : Token) (tm : Template) : Res (List Nat) × Token :=
  let hs := t.searchSession tm
  let tm' := if t.loggedIn then tm else tm ++ [CkAttr.ofBool CKA_PRIVATE false]
  let (r, h) := t.store.search e t.handles tm'
  let t := { t with handles := h }
  match r with
  | .error r => (.error r, t)
  | .ok l => (.ok (hs ++ l), t)

end Token

end Kry
