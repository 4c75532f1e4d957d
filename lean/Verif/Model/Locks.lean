/-!
# Locks

Which locks each call takes, in which order, and what threads that make calls at the same time can do
(`src/lib.rs:345-452`, `src/slot.rs:99-240`, `src/fns/`).  What the calls compute is left out: the only effects are taking and dropping
locks.  A call may return at any point between two lock operations (an error, a length query), which drops all its guards.
`RwLock` and `Mutex` are those of the Rust standard library.
-/

namespace Kry

/-- The locks: CONFIG and STATE (`src/lib.rs:384`, `:449`), the sessions and the token of a slot (`src/slot.rs:25-27`), the connection of
its storage (`src/storage/sqlite.rs:67`, `src/storage/nssdb/mod.rs:174`) and its key cache (`src/storage/nssdb/ci.rs:65`). -/
inductive Lk where
  | conf
  | state
  | session (slot h : Nat)
  | token (slot : Nat)
  | db (slot : Nat)
  | cache (slot : Nat)
deriving DecidableEq, Repr

/-- Reading or writing; a `Mutex` is always written. -/
inductive LMode where
  | r
  | w
deriving DecidableEq, Repr

/-- A lock operation of a call. -/
inductive LAct where
  | acq (l : Lk) (m : LMode)
  | rel (l : Lk)
deriving DecidableEq, Repr

/-- A lock taken and dropped again. -/
def brief (l : Lk) (m : LMode) : List LAct := [.acq l m, .rel l]

/-- What the storage below the token does with its own locks: the methods of `src/storage/sqlite.rs:391-718` lock the connection;
those of `src/storage/nssdb/mod.rs` also use the key cache, either by itself (`:1163-1200`) or, for signatures, while the connection is
locked (`:1266-1300`, `:1357-1390`). -/
inductive StUse where
  | db
  | cache (m : LMode)
  | dbCache (m : LMode)
deriving DecidableEq, Repr

/-- The lock operations of one such use. -/
def StUse.acts (i : Nat) : StUse → List LAct
  | .db => brief (.db i) .w
  | .cache m => brief (.cache i) m
  | .dbCache m => .acq (.db i) .w :: (brief (.cache i) m ++ [.rel (.db i)])

/-- Any sequence of uses. -/
def stActs (i : Nat) (u : List StUse) : List LAct := u.flatMap (StUse.acts i)

/-- Who logs in. -/
inductive LUser where
  | so
  | user
  | context
deriving DecidableEq, Repr

/-- The functions that take locks. -/
inductive LFn where
  | initialize | finalize | getSlotList | getSlotInfo | getTokenInfo | getMechanismList | getMechanismInfo | initToken | initPin | setPin
  | openSession | closeSession | closeAllSessions | getSessionInfo | getOperationState | setOperationState | login (u : LUser) | logout
  | sessionCancel | getSessionValidationFlags
  | createObject | copyObject | destroyObject | getObjectSize | getAttributeValue | setAttributeValue
  | findObjectsInit | findObjects | findObjectsFinal
  | encryptInit | encrypt | encryptUpdate | encryptFinal | decryptInit | decrypt | decryptUpdate | decryptFinal
  | messageEncryptInit | encryptMessage | encryptMessageBegin | encryptMessageNext | messageEncryptFinal
  | messageDecryptInit | decryptMessage | decryptMessageBegin | decryptMessageNext | messageDecryptFinal
  | digestInit | digest | digestUpdate | digestKey | digestFinal
  | signInit | sign | signUpdate | signFinal | verifyInit | verify | verifyUpdate | verifyFinal
  | verifySignatureInit | verifySignature | verifySignatureUpdate | verifySignatureFinal
  | digestEncryptUpdate | decryptDigestUpdate | signEncryptUpdate | decryptVerifyUpdate
  | generateKey | generateKeyPair | wrapKey | unwrapKey | deriveKey | encapsulateKey | decapsulateKey
  | seedRandom | generateRandom
deriving DecidableEq, Repr

/-- A call: the function, the slot, the session it names, the sessions open on the slot in the order of the hash map, and what the storage
does.  `slots` are the slots in the order in which C_Initialize or C_Finalize goes through them. -/
structure LCall where
  fn : LFn
  slot : Nat
  sess : Nat
  open_ : List Nat
  slots : List Nat
  uses : List StUse
deriving DecidableEq, Repr

/-- The loops of `src/slot.rs:185-215`: one session after the other. -/
def eachSession (c : LCall) (m : LMode) : List LAct := c.open_.flatMap fun h => brief (.session c.slot h) m

/-- STATE for reading, then the token. -/
def tokenOnly (c : LCall) (m : LMode) : List LAct := .acq .state .r :: .acq (.token c.slot) m :: stActs c.slot c.uses

/-- STATE for reading, then the session. -/
def sessionOnly (c : LCall) (m : LMode) : List LAct := [.acq .state .r, .acq (.session c.slot c.sess) m]

/-- STATE for reading, the session, then the token. -/
def sessionToken (c : LCall) (ms mt : LMode) : List LAct :=
  .acq .state .r :: .acq (.session c.slot c.sess) ms :: .acq (.token c.slot) mt :: stActs c.slot c.uses

/-- `login` after the session has been dropped (`src/fns/sessmgmt.rs:294-343`). -/
def loginActs (c : LCall) : LUser → List LAct
  | .so => eachSession c .r ++ .acq (.token c.slot) .w :: (stActs c.slot c.uses ++ (eachSession c .w ++ eachSession c .w))
  | .user => .acq (.token c.slot) .w :: (stActs c.slot c.uses ++ (eachSession c .w ++ eachSession c .w))
  | .context => .acq (.token c.slot) .w :: (brief (.session c.slot c.sess) .w ++
      (stActs c.slot c.uses ++ (brief (.session c.slot c.sess) .w ++ eachSession c .w)))

/-- The key functions that drop the session and take it again for writing in the FIPS build while the token is locked
(`src/fns/keymgmt.rs:512-529`, `:627-629`; `:824-844`, `:880-882`; `:964-986`, `:1005-1007`). -/
def deriveActs (fips : Bool) (c : LCall) : List LAct :=
  if fips then .acq .state .r :: .acq (.session c.slot c.sess) .r :: .acq (.token c.slot) .w :: (stActs c.slot c.uses ++
    .rel (.session c.slot c.sess) :: .acq (.session c.slot c.sess) .w :: stActs c.slot c.uses)
  else sessionToken c .r .w

/-- The mode in which the functions that make keys take the session (`src/fns/objmgmt.rs:32-41`, `src/fns/keymgmt.rs:33-42`). -/
def makeMode (fips : Bool) : LMode := if fips then .w else .r

/-- The lock operations of a call. -/
def LCall.acts (fips : Bool) (c : LCall) : List LAct :=
  match c.fn with
  | .initialize /- src/fns/general.rs:20-68 -/ =>
      .acq .conf .w :: .acq .state .w :: c.slots.flatMap fun i => stActs i c.uses
  | .finalize /- src/fns/general.rs:100-102, src/lib.rs:112-131, src/slot.rs:236-239 -/ =>
      .acq .conf .w :: .acq .state .w :: c.slots.flatMap fun i => .acq (.token i) .w :: (stActs i c.uses ++ [.rel (.token i)])
  | .getSlotList /- src/fns/stmgmt.rs:26 -/ => [.acq .state .r]
  | .getSlotInfo /- :82 -/ => [.acq .state .r]
  | .getTokenInfo /- :113-115, src/slot.rs:101-104 -/ => tokenOnly c .r
  | .getMechanismList /- :147-148 -/ => tokenOnly c .r
  | .getMechanismInfo /- :206-207 -/ => tokenOnly c .r
  | .initToken /- :244-254 -/ => tokenOnly c .w
  | .initPin /- :298-299 -/ => tokenOnly c .w
  | .setPin /- :339-354 -/ => sessionToken c .r .w
  | .openSession /- src/fns/sessmgmt.rs:31-42 -/ => [.acq .state .w, .acq (.token c.slot) .r, .rel (.token c.slot)]
  | .closeSession /- :79-83, src/lib.rs:252-264 -/ =>
      .acq .state .w :: (brief (.token c.slot) .w ++ .acq (.token c.slot) .w :: stActs c.slot c.uses)
  | .closeAllSessions /- :102-104 -/ => .acq .state .w :: .acq (.token c.slot) .w :: stActs c.slot c.uses
  | .getSessionInfo /- :134-135 -/ => sessionOnly c .r
  | .getOperationState /- :164-187 -/ => sessionToken c .w .r
  | .setOperationState /- :233-240 -/ => sessionToken c .w .w
  | .login u /- :289-343 -/ => .acq .state .r :: (brief (.session c.slot c.sess) .r ++ loginActs c u)
  | .logout /- :371-379 -/ =>
      .acq .state .r :: (brief (.session c.slot c.sess) .r ++ .acq (.token c.slot) .w :: (stActs c.slot c.uses ++ eachSession c .w))
  | .sessionCancel /- :449-450 -/ => sessionOnly c .w
  | .getSessionValidationFlags /- :535-536 -/ => sessionOnly c .r
  | .createObject /- src/fns/objmgmt.rs:31-54 -/ => sessionToken c (makeMode fips) .w
  | .copyObject /- :133-148 -/ => sessionToken c .r .w
  | .destroyObject /- :193-196 -/ => sessionToken c .r .w
  | .getObjectSize /- :234-235 -/ => tokenOnly c .r
  | .getAttributeValue /- :286-309 -/ => brief .conf .r ++ tokenOnly c .w
  | .setAttributeValue /- :403-406 -/ => sessionToken c .r .w
  | .findObjectsInit /- :459-462 -/ => sessionToken c .w .w
  | .findObjects /- :508-509 -/ => sessionOnly c .w
  | .findObjectsFinal /- :564-565 -/ => sessionOnly c .w
  | .encryptInit /- src/fns/encryption.rs:28-38 -/ => sessionToken c .w .w
  | .encrypt /- :94-95 -/ => sessionOnly c .w
  | .encryptUpdate /- :194-195 -/ => sessionOnly c .w
  | .encryptFinal /- :244-248 -/ => sessionOnly c .w
  | .decryptInit /- :308-317 -/ => sessionToken c .w .w
  | .decrypt /- :371-372 -/ => sessionOnly c .w
  | .decryptUpdate /- :475-476 -/ => sessionOnly c .w
  | .decryptFinal /- :528-529 -/ => sessionOnly c .w
  | .messageEncryptInit /- :585-594 -/ => sessionToken c .w .w
  | .encryptMessage /- :663-664 -/ => sessionOnly c .w
  | .encryptMessageBegin /- :767-779 -/ => sessionToken c .w .w
  | .encryptMessageNext /- :858-859 -/ => sessionOnly c .w
  | .messageEncryptFinal /- :949-950 -/ => sessionOnly c .w
  | .messageDecryptInit /- :977-986 -/ => sessionToken c .w .w
  | .decryptMessage /- :1057-1058 -/ => sessionOnly c .w
  | .decryptMessageBegin /- :1161-1173 -/ => sessionToken c .w .w
  | .decryptMessageNext /- :1252-1253 -/ => sessionOnly c .w
  | .messageDecryptFinal /- :1339-1340 -/ => sessionOnly c .w
  | .digestInit /- src/fns/digest.rs:26-36 -/ => sessionToken c .w .r
  | .digest /- :76-77 -/ => sessionOnly c .w
  | .digestUpdate /- :161-162 -/ => sessionOnly c .w
  | .digestKey /- :194-198 -/ => sessionToken c .w .w
  | .digestFinal /- :250-251 -/ => sessionOnly c .w
  | .signInit /- src/fns/signing.rs:28-38 -/ => sessionToken c .w .w
  | .sign /- :92-118 -/ => sessionToken c .w .w
  | .signUpdate /- :186-187 -/ => sessionOnly c .w
  | .signFinal /- :223-246 -/ => sessionToken c .w .w
  | .verifyInit /- :319-328 -/ => sessionToken c .w .w
  | .verify /- :382-399 -/ => sessionToken c .w .w
  | .verifyUpdate /- :463-464 -/ => sessionOnly c .w
  | .verifyFinal /- :500-515 -/ => sessionToken c .w .w
  | .verifySignatureInit /- :716-725 -/ => sessionToken c .w .w
  | .verifySignature /- :792-801 -/ => sessionToken c .w .w
  | .verifySignatureUpdate /- :847-848 -/ => sessionOnly c .w
  | .verifySignatureFinal /- :880-887 -/ => sessionToken c .w .w
  | .digestEncryptUpdate /- src/fns/dualcrypto.rs:34-35 -/ => sessionOnly c .w
  | .decryptDigestUpdate /- :97-98 -/ => sessionOnly c .w
  | .signEncryptUpdate /- :161-162 -/ => sessionOnly c .w
  | .decryptVerifyUpdate /- :224-225 -/ => sessionOnly c .w
  | .generateKey /- src/fns/keymgmt.rs:32-57 -/ => sessionToken c (makeMode fips) .w
  | .generateKeyPair /- :135-166 -/ => sessionToken c (makeMode fips) .w
  | .wrapKey /- :266-280 -/ => sessionToken c (makeMode fips) .w
  | .unwrapKey /- :388-414 -/ => sessionToken c (makeMode fips) .w
  | .deriveKey => deriveActs fips c
  | .encapsulateKey => deriveActs fips c
  | .decapsulateKey => deriveActs fips c
  | .seedRandom /- src/fns/mod.rs:49 -/ => sessionOnly c .r ++ [.rel (.session c.slot c.sess), .rel .state]
  | .generateRandom /- :84 -/ => sessionOnly c .r ++ [.rel (.session c.slot c.sess), .rel .state]

/-! ## Threads -/

/-- A thread: the guards it holds, the lock it waits for, and the rest of its call. -/
structure Thr where
  held : List (Lk × LMode)
  wait : Option (Lk × LMode)
  todo : List LAct

/-- A thread between two calls. -/
def Thr.idle : Thr := ⟨[], none, []⟩

/-- The threads of a process, by number. -/
abbrev Threads := Nat → Thr

/-- One thread changes. -/
def Threads.set (σ : Threads) (t : Nat) (x : Thr) : Threads := fun u => if u = t then x else σ u

/-- Two guards on one lock can exist together. -/
def compat (m m' : LMode) : Prop := m = .r ∧ m' = .r

instance : Decidable (compat m m') := by unfold compat; infer_instance

/-- A step of one thread.  A call begins; a lock is asked for; it is given when no guard is in the way (whether a reader is let past a
waiting writer is left open); a guard is dropped; the call returns. -/
inductive LStep (fips : Bool) (P : LCall → Prop) (σ : Threads) : Threads → Prop where
  | begin_ (t : Nat) (c : LCall) : P c → σ t = .idle → LStep fips P σ (σ.set t ⟨[], none, c.acts fips⟩)
  | ask (t : Nat) {h l m r} : σ t = ⟨h, none, .acq l m :: r⟩ → LStep fips P σ (σ.set t ⟨h, some (l, m), r⟩)
  | give (t : Nat) {h l m r} : σ t = ⟨h, some (l, m), r⟩ → (∀ t' m', (l, m') ∈ (σ t').held → compat m m') →
      LStep fips P σ (σ.set t ⟨(l, m) :: h, none, r⟩)
  | drop (t : Nat) {h l r} : σ t = ⟨h, none, .rel l :: r⟩ → LStep fips P σ (σ.set t ⟨h.filter (fun x => x.1 ≠ l), none, r⟩)
  | ret (t : Nat) {h r} : σ t = ⟨h, none, r⟩ → LStep fips P σ (σ.set t .idle)

/-- Any number of steps. -/
inductive LRun (fips : Bool) (P : LCall → Prop) : Threads → Threads → Prop where
  | refl (σ) : LRun fips P σ σ
  | step {σ σ' σ''} : LRun fips P σ σ' → LStep fips P σ' σ'' → LRun fips P σ σ''

/-- All threads idle. -/
def Threads.start : Threads := fun _ => .idle

end Kry
