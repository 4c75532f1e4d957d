import Verif.Model.Hmac
import Verif.Model.Session

/-!
# Saved operation state (`src/session.rs:573-773`, `src/fns/sessmgmt.rs:159-248`)

C_GetOperationState and C_SetOperationState with the two operations that can be saved: digests
(`src/ossl/hash.rs`) and HMAC (`src/native/hmac.rs`).

Outside of the model, as parameters (`SaveEnv`): the internal state OpenSSL exports for a running
digest, the DER coding of the three structures, and AES-GCM.  AES-GCM under the key of the process
(`OPSTATE_AES_KEY`, `src/session.rs:234-235`) is ideal: the process keeps a ledger of what it sealed,
and opening anything else fails.  The size query (NULL buffer) is not modelled.
-/

namespace Kry

/-- `HashOperation` (`src/ossl/hash.rs:14-25`); `fed` is what the digest was given. -/
structure HashOp where
  alg : HashAlg
  fed : Bytes
  fin : Bool
  inUse : Bool

namespace HashOp

/-- `new` (`src/ossl/hash.rs:30-41`). -/
def new (a : HashAlg) : HashOp := ⟨a, [], false, false⟩

/-- `digest` (`src/ossl/hash.rs:83-97`) into a buffer of `n` bytes. -/
def digest (o : HashOp) (data : Bytes) (n : Nat) : Res Bytes × HashOp :=
  if o.inUse || o.fin then (.error .operationNotInitialized, o)
  else if n ≠ o.alg.hlen then (.error .generalError, o)
  else (.ok (o.alg.h (o.fed ++ data)), { o with fed := o.fed ++ data, fin := true })

/-- `digest_update` (`src/ossl/hash.rs:99-111`). -/
def update (o : HashOp) (data : Bytes) : Res Unit × HashOp :=
  if o.fin then (.error .operationNotInitialized, o)
  else (.ok (), { o with fed := o.fed ++ data, inUse := true })

/-- `digest_final` (`src/ossl/hash.rs:113-126`). -/
def final (o : HashOp) (n : Nat) : Res Bytes × HashOp :=
  if o.fin then (.error .operationNotInitialized, o)
  else if n ≠ o.alg.hlen then (.error .generalError, o)
  else (.ok (o.alg.h o.fed), { o with fin := true })

/-- A multi-part operation: the updates one after the other. -/
def feed (o : HashOp) : List Bytes → Res Unit × HashOp
  | [] => (.ok (), o)
  | d :: l =>
    let (r, o) := o.update d
    match r with
    | .error r => (.error r, o)
    | .ok () => o.feed l

end HashOp

/-- An operation of a session: a digest, an HMAC, or one of another kind, which cannot be saved
(`src/mechanism.rs:321-328`). -/
inductive SavOp where
  | hash (mech : Nat) (o : HashOp)
  | hmac (mech : Nat) (o : Hmac)
  | other (mech : Nat) (fin : Bool)

/-- `finalized`. -/
def SavOp.fin : SavOp → Bool
  | .hash _ o => o.fin
  | .hmac _ o => o.fin
  | .other _ f => f

/-- The operations of a session (`src/session.rs:123-133`). -/
abbrev SavOps := List (OpKind × SavOp)

/-- `OperationState` (`src/session.rs:167-186`): the version and the entries, by kind. -/
structure OpRecord where
  version : Nat
  entries : List (OpKind × Nat × Bytes)
deriving DecidableEq, Repr

/-- `KProtectedData` with AES-GCM parameters (`src/kasn1/mod.rs`, `src/session.rs:674-684`): parameters,
tag and data are one sealed byte string here; the signature is not looked at when a state is set. -/
structure OpEnvelope where
  sealed_ : Bytes
  signature : Option Bytes
deriving DecidableEq, Repr

/-- What is behind the operation state: the exported state of a digest (`get_state`, `set_state` of
OpenSSL), the DER codings, sealing (the first argument is the nonce), and the mechanism table. -/
structure SaveEnv where
  getState : Nat → Bytes → Option Bytes
  setState : Nat → Bytes → Option Bytes
  encHmac : Bytes → Nat → Bytes
  decHmac : Bytes → Option (Bytes × Nat)
  encRecord : OpRecord → Bytes
  decRecord : Bytes → Option OpRecord
  encEnvelope : OpEnvelope → Bytes
  decEnvelope : Bytes → Option OpEnvelope
  sealing : Bytes → Bytes → Bytes
  /-- The hash of a digest mechanism. -/
  hashOf : Nat → Option HashAlg
  /-- The digest mechanism, the hash and the key type of an HMAC mechanism
  (`hmac_mech_to_hash_mech`, `src/hmac.rs:59-172`). -/
  hmacOf : Nat → Option (Nat × HashAlg × Nat)

/-- `op_state_save` (`src/session.rs:258-279`) with the `state_save` of the operations
(`src/ossl/hash.rs:74-79`, `src/native/hmac.rs:290-307`). -/
def saveOp (K : SaveEnv) (o : SavOp) : Res (Nat × Bytes) :=
  if o.fin then .error .operationNotInitialized
  else match o with
    | .hash m o => match K.getState m o.fed with
      | none => .error .stateUnsaveable
      | some b => .ok (m, b)
    | .hmac m o => match K.hmacOf m with
      | none => .error .stateUnsaveable
      | some (hm, _, _) => match K.getState hm o.inner with
        | none => .error .stateUnsaveable
        | some b => .ok (m, K.encHmac b o.outlen)
    | .other _ _ => .error .stateUnsaveable

/-- The order in which the operations are looked at (`src/session.rs:653-660`). -/
def saveKinds : List OpKind := [.msgEnc, .msgDec, .enc, .dec, .digest, .sign, .verify, .verifySig]

/-- The `op_save!` lines of `state_save` (`src/session.rs:626-660`): the return code so far and the
entries. -/
def saveLoop (K : SaveEnv) (ops : SavOps) : List OpKind → Option Rv → List (OpKind × Nat × Bytes) →
    Res (Option Rv × List (OpKind × Nat × Bytes))
  | [], ret, l => .ok (ret, l)
  | k :: ks, ret, l =>
    match AMap.get ops k with
    | none => saveLoop K ops ks ret l
    | some o => match saveOp K o with
      | .ok d => saveLoop K ops ks none (l ++ [(k, d)])
      | .error .stateUnsaveable =>
        saveLoop K ops ks (if ret = none then none else some .stateUnsaveable) l
      | .error .operationNotInitialized => saveLoop K ops ks ret l
      | .error r => .error r

/-- `state_save` up to the encryption (`src/session.rs:614-669`). -/
def stateContent (K : SaveEnv) (ops : SavOps) : Res Bytes :=
  match saveLoop K ops saveKinds (some .operationNotInitialized) [] with
  | .error r => .error r
  | .ok (some r, _) => .error r
  | .ok (none, l) => .ok (K.encRecord ⟨1, l⟩)

/-- `check_and_fetch_key` (`src/hmac.rs:191-209`). -/
def macKeyOf (kt : Nat) (key : Obj) (attr : Nat) : Res Bytes :=
  match key.getUlong CKA_CLASS with
  | .error r => .error r
  | .ok c =>
    if c ≠ CKO_SECRET_KEY then .error .keyTypeInconsistent
    else match key.getUlong CKA_KEY_TYPE with
      | .error r => .error r
      | .ok t =>
        if t ≠ CKK_GENERIC_SECRET ∧ t ≠ kt then .error .keyTypeInconsistent
        else if key.getBool attr ≠ .ok true then .error .keyTypeInconsistent
        else key.getBytes CKA_VALUE

/-- `digest_restore` (`src/hash.rs:272-282`, `src/ossl/hash.rs:43-52`). -/
def restoreHash (K : SaveEnv) (m : Nat) (b : Bytes) : Res SavOp :=
  match K.hashOf m with
  | none => .error .mechanismInvalid
  | some a => match K.setState m b with
    | none => .error .deviceError
    | some fed => .ok (.hash m ⟨a, fed, false, true⟩)

/-- `sign_restore` and `verify_restore` (`src/hmac.rs:268-298`, `src/native/hmac.rs:145-167`). -/
def restoreHmac (K : SaveEnv) (m : Nat) (key : Obj) (attr : Nat) (b : Bytes) : Res SavOp :=
  match K.hmacOf m with
  | none => .error .mechanismInvalid
  | some (hm, a, kt) => match macKeyOf kt key attr with
    | .error r => .error r
    | .ok v => match K.decHmac b with
      | none => .error .savedStateInvalid
      | some (s, n) => match K.setState hm s with
        | none => .error .deviceError
        | some fed => .ok (.hmac m { Hmac.internal a v n with inner := fed })

/-- The digest entry (`src/session.rs:748-755`). -/
def setDigest (K : SaveEnv) (key : Option Obj) (d : Option (Nat × Bytes)) (ops : SavOps) :
    Res Unit × SavOps :=
  match d with
  | none => (.ok (), ops)
  | some (m, b) =>
    if key.isSome then (.error .keyNotNeeded, ops)
    else match restoreHash K m b with
      | .error r => (.error r, ops)
      | .ok o => (.ok (), AMap.insert ops .digest o)

/-- The signature and the verification entry (`src/session.rs:756-767`). -/
def setMac (K : SaveEnv) (k : OpKind) (attr : Nat) (key : Option Obj) (d : Option (Nat × Bytes))
    (ops : SavOps) : Res Unit × SavOps :=
  match d with
  | none => (.ok (), ops)
  | some (m, b) => match key with
    | none => (.error .keyNeeded, ops)
    | some key => match restoreHmac K m key attr b with
      | .error r => (.error r, ops)
      | .ok o => (.ok (), AMap.insert ops k o)

/-- The entries of a record, in order (`src/session.rs:732-772`). -/
def setRecord (K : SaveEnv) (key : Option Obj) (r : OpRecord) (ops : SavOps) : Res Unit × SavOps :=
  if r.version ≠ 1 then (.error .savedStateInvalid, ops)
  else if (AMap.get r.entries .msgEnc).isSome ∨ (AMap.get r.entries .msgDec).isSome ∨
      (AMap.get r.entries .enc).isSome ∨ (AMap.get r.entries .dec).isSome then
    (.error .generalError, ops)
  else match setDigest K key (AMap.get r.entries .digest) ops with
    | (.error r, ops) => (.error r, ops)
    | (.ok (), ops) => match setMac K .sign CKA_SIGN key (AMap.get r.entries .sign) ops with
      | (.error r, ops) => (.error r, ops)
      | (.ok (), ops) => match setMac K .verify CKA_VERIFY key (AMap.get r.entries .verify) ops with
        | (.error r, ops) => (.error r, ops)
        | (.ok (), ops) =>
          if (AMap.get r.entries .verifySig).isSome then (.error .savedStateInvalid, ops)
          else (.ok (), ops)

/-- `state_restore` (`src/session.rs:700-773`). -/
def stateRestore (K : SaveEnv) (ledger : List (Bytes × Bytes)) (state : Bytes) (key : Option Obj)
    (ops : SavOps) : Res Unit × SavOps :=
  match K.decEnvelope state with
  | none => (.error .savedStateInvalid, ops)
  | some p => match AMap.get ledger p.sealed_ with
    | none => (.error .savedStateInvalid, ops)
    | some data => match K.decRecord data with
      | none => (.error .savedStateInvalid, ops)
      | some r => setRecord K key r ops

/-- The process: what it has sealed, and the operations of its sessions. -/
structure SaveProc where
  ledger : List (Bytes × Bytes)
  sess : List (Nat × SavOps)

/-- The calls.  `other` is any other call: it can do anything to the operations of all sessions.  `key`
of `set` is what the handle of the authentication key stands for (`src/fns/sessmgmt.rs:241-244`). -/
inductive SaveCall where
  | get (h : Nat) (nonce : Bytes) (room : Nat)
  | set (h : Nat) (state : Bytes) (encKey : Nat) (key : Option (Res Obj))
  | other (sess : List (Nat × SavOps))

/-- What a call answers. -/
inductive SaveOut where
  | state (r : Res Bytes)
  | done (r : Res Unit)
deriving DecidableEq

/-- C_GetOperationState (`src/fns/sessmgmt.rs:159-192`, `src/session.rs:666-697`). -/
def getOpState (K : SaveEnv) (p : SaveProc) (h : Nat) (nonce : Bytes) (room : Nat) :
    Res Bytes × SaveProc :=
  match AMap.get p.sess h with
  | none => (.error .sessionHandleInvalid, p)
  | some ops => match stateContent K ops with
    | .error r => (.error r, p)
    | .ok data =>
      let c := K.sealing nonce data
      let der := K.encEnvelope ⟨c, none⟩
      (if der.length > room then .error .generalError else .ok der,
        { p with ledger := AMap.insert p.ledger c data })

/-- C_SetOperationState (`src/fns/sessmgmt.rs:222-248`). -/
def setOpState (K : SaveEnv) (p : SaveProc) (h : Nat) (state : Bytes) (encKey : Nat)
    (key : Option (Res Obj)) : Res Unit × SaveProc :=
  if encKey ≠ 0 then (.error .keyNotNeeded, p)
  else match AMap.get p.sess h with
    | none => (.error .sessionHandleInvalid, p)
    | some ops => match key with
      | some (.error r) => (.error r, p)
      | some (.ok o) =>
        let (r, ops) := stateRestore K p.ledger state (some o) ops
        (r, { p with sess := AMap.insert p.sess h ops })
      | none =>
        let (r, ops) := stateRestore K p.ledger state none ops
        (r, { p with sess := AMap.insert p.sess h ops })

/-- One call. -/
def saveStep (K : SaveEnv) (p : SaveProc) : SaveCall → SaveOut × SaveProc
  | .get h nonce room => let (r, p) := getOpState K p h nonce room; (.state r, p)
  | .set h state encKey key => let (r, p) := setOpState K p h state encKey key; (.done r, p)
  | .other sess => (.done (.ok ()), { p with sess := sess })

/-- A history of calls. -/
def saveRun (K : SaveEnv) (p : SaveProc) (tr : List SaveCall) : SaveProc :=
  tr.foldl (fun p c => (saveStep K p c).2) p

/-- The process at its start: nothing sealed, no session. -/
def SaveProc.start : SaveProc := ⟨[], []⟩

end Kry
