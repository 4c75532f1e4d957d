import Verif.Model.OpState
import Verif.Proofs.AMap
import Verif.Proofs.Basic
import Verif.Props.C50

/-!
# C42: a saved operation state restores the same operation

"C_SetOperationState with bytes from C_GetOperationState of the same process continues the operation as
if it had not been interrupted; any other bytes are rejected and change nothing."

* `C42_digest_partial`, `C42_mac_partial`: whatever happened in between and in whichever session the
  state is set, the operation continues: the data given before and after gives one digest, one HMAC.
  Multi-part calls only, and a digest alone or HMAC operations of one key.
* `C42_rejected`: bytes not holding what the process sealed are rejected and change nothing.
* `C42_both_violation`: the state of a session with a digest and an HMAC can be saved and never set.
* `C42_failed_violation`: a failing call changes the session.
* `C42_verifySig_violation`: the same for C_VerifySignature.
* `C42_dropped_violation`: active operations that cannot be saved are left out without an error.
* `C42_key_violation`: an HMAC is continued with another key, without an error.
* `C42_oneshot_violation`: a continued HMAC accepts the one-shot call the original refuses, a continued
  digest refuses the one-shot call the original accepts.
* `C42_altered_violation`: bytes that were altered (a signature added) are accepted.
-/

namespace Kry

namespace Spec

/-- What is assumed of the codings and of sealing. -/
structure SaveOk (K : SaveEnv) : Prop where
  state : ∀ m fed b, K.getState m fed = some b → K.setState m b = some fed
  hmac : ∀ s n, K.decHmac (K.encHmac s n) = some (s, n)
  record : ∀ r, K.decRecord (K.encRecord r) = some r
  envelope : ∀ p, K.decEnvelope (K.encEnvelope p) = some p
  sealing : ∀ n d n' d', K.sealing n d = K.sealing n' d' → d = d'

/-- The operation of a kind in a session. -/
def opIn (p : SaveProc) (h : Nat) (k : OpKind) : Option SavOp :=
  (AMap.get p.sess h).bind fun ops => AMap.get ops k

/-- An operation that cannot be saved: it is over, or it is neither a digest nor an HMAC. -/
def unsaved (o : SavOp) : Prop := o.fin = true ∨ ∃ m f, o = .other m f

/-- The operation is a digest that was given `msg`, and goes on with any further parts. -/
def digestOf (a : HashAlg) (msg : Bytes) (o : SavOp) : Prop :=
  ∃ m d, o = .hash m d ∧ ∀ parts, (d.feed parts).1 = .ok () ∧
    ((d.feed parts).2.final a.hlen).1 = .ok (a.h (msg ++ parts.flatten))

/-- The operation is an HMAC that was given `msg`, and goes on with any further parts, as a signature
or as a verification. -/
def macOf (a : HashAlg) (key : Bytes) (n : Nat) (msg : Bytes) (o : SavOp) : Prop :=
  ∃ m d, o = .hmac m d ∧ ∀ parts, (d.feed parts).1 = .ok () ∧
    ((d.feed parts).2.finalize n).1 = .ok ((Spec.hmac a key (msg ++ parts.flatten)).take n) ∧
    ∀ s, ((d.feed parts).2.verifyFinal s).1 =
      if s = (Spec.hmac a key (msg ++ parts.flatten)).take n then .ok () else .error .signatureInvalid

end Spec

open Spec

/-! ### Saving -/

/-- The entry of a kind in the saved record. -/
def savedOf (K : SaveEnv) (ops : SavOps) (k : OpKind) : Option (Nat × Bytes) :=
  (AMap.get ops k).bind fun o => (saveOp K o).toOption

theorem saveOp_errors {K : SaveEnv} {o : SavOp} {r : Rv} (h : saveOp K o = .error r) :
    r = .stateUnsaveable ∨ r = .operationNotInitialized := by
  unfold saveOp at h
  repeat' split at h
  all_goals first | (cases h; simp; done) | cases h

theorem saveLoop_spec (K : SaveEnv) (ops : SavOps) (ks : List OpKind) (ret : Option Rv)
    (l : List (OpKind × Nat × Bytes)) :
    ∃ ret', saveLoop K ops ks ret l =
        .ok (ret', l ++ ks.filterMap fun k => (savedOf K ops k).map fun d => (k, d)) ∧
      (ret' = none ↔ ret = none ∨ ∃ k ∈ ks, (savedOf K ops k).isSome) := by
  induction ks generalizing ret l with
  | nil => exact ⟨ret, by simp [saveLoop], by simp⟩
  | cons k ks ih =>
    unfold saveLoop
    cases hg : AMap.get ops k with
    | none =>
      have hs : savedOf K ops k = none := by simp [savedOf, hg]
      obtain ⟨r, h1, h2⟩ := ih ret l
      exact ⟨r, by simp [h1, hs], by simp [h2, hs]⟩
    | some o =>
      simp only
      cases ho : saveOp K o with
      | ok d =>
        have hs : savedOf K ops k = some d := by simp [savedOf, hg, ho, Except.toOption]
        obtain ⟨r, h1, h2⟩ := ih none (l ++ [(k, d)])
        exact ⟨r, by simp [h1, hs], by simp [h2, hs]⟩
      | error e =>
        have hs : savedOf K ops k = none := by simp [savedOf, hg, ho, Except.toOption]
        rcases saveOp_errors ho with he | he <;> subst he <;> simp only
        · obtain ⟨r, h1, h2⟩ := ih (if ret = none then none else some .stateUnsaveable) l
          refine ⟨r, by simp [h1, hs], ?_⟩
          rw [h2]
          cases ret <;> simp [hs]
        · obtain ⟨r, h1, h2⟩ := ih ret l
          exact ⟨r, by simp [h1, hs], by simp [h2, hs]⟩

theorem get_filterMap (f : OpKind → Option (Nat × Bytes)) (ks : List OpKind) (k : OpKind) :
    AMap.get (ks.filterMap fun k => (f k).map fun d => (k, d)) k = if k ∈ ks then f k else none := by
  induction ks with
  | nil => rfl
  | cons x ks ih =>
    rw [List.filterMap_cons]
    cases hx : f x with
    | none =>
      simp only [Option.map_none]
      rw [ih]
      by_cases hk : k = x
      · subst hk; simp [hx]
      · simp [hk]
    | some d =>
      simp only [Option.map_some]
      rw [AMap.get_cons, ih]
      by_cases hk : x = k
      · subst hk; simp [hx]
      · simp [hk, Ne.symm hk]

theorem content_ok {K : SaveEnv} {ops : SavOps} {data : Bytes} (h : stateContent K ops = .ok data) :
    ∃ l, data = K.encRecord ⟨1, l⟩ ∧ (∀ k, AMap.get l k = savedOf K ops k) ∧
      ∃ k, (savedOf K ops k).isSome := by
  unfold stateContent at h
  obtain ⟨ret, h1, h2⟩ := saveLoop_spec K ops saveKinds (some .operationNotInitialized) []
  rw [h1] at h
  cases ret with
  | some r => cases h
  | none =>
    cases h
    refine ⟨_, rfl, fun k => ?_, ?_⟩
    · rw [List.nil_append, get_filterMap]
      cases k <;> rfl
    · rcases h2.1 rfl with h | ⟨k, -, h⟩
      · cases h
      · exact ⟨k, h⟩

/-! ### The ledger -/

/-- Everything in the ledger was sealed. -/
def LedgerOk (K : SaveEnv) (l : List (Bytes × Bytes)) : Prop :=
  ∀ c d, AMap.get l c = some d → ∃ n, c = K.sealing n d

theorem getOp_ledger (K : SaveEnv) (p : SaveProc) (h : Nat) (nonce : Bytes) (room : Nat) :
    (getOpState K p h nonce room).2.ledger = p.ledger ∨
    ∃ ops data, AMap.get p.sess h = some ops ∧ stateContent K ops = .ok data ∧
      (getOpState K p h nonce room).2.ledger = AMap.insert p.ledger (K.sealing nonce data) data := by
  unfold getOpState
  cases hs : AMap.get p.sess h with
  | none => exact .inl rfl
  | some ops =>
    simp only
    cases hc : stateContent K ops with
    | error r => exact .inl rfl
    | ok data => exact .inr ⟨ops, data, rfl, hc, rfl⟩

theorem setOp_ledger (K : SaveEnv) (p : SaveProc) (h : Nat) (state : Bytes) (ek : Nat)
    (key : Option (Res Obj)) : (setOpState K p h state ek key).2.ledger = p.ledger := by
  unfold setOpState
  repeat' split
  all_goals rfl

theorem step_ledger (K : SaveEnv) (p : SaveProc) (c : SaveCall) :
    (saveStep K p c).2.ledger = p.ledger ∨
    ∃ h nonce room ops data, c = .get h nonce room ∧ AMap.get p.sess h = some ops ∧
      stateContent K ops = .ok data ∧
      (saveStep K p c).2.ledger = AMap.insert p.ledger (K.sealing nonce data) data := by
  cases c with
  | get h nonce room =>
    rcases getOp_ledger K p h nonce room with e | ⟨ops, data, e1, e2, e3⟩
    · exact .inl e
    · exact .inr ⟨h, nonce, room, ops, data, rfl, e1, e2, e3⟩
  | set h state ek key => exact .inl (setOp_ledger K p h state ek key)
  | other s => exact .inl rfl

theorem ledger_step {K : SaveEnv} {p : SaveProc} (hp : LedgerOk K p.ledger) (c : SaveCall) :
    LedgerOk K (saveStep K p c).2.ledger := by
  rcases step_ledger K p c with e | ⟨h, nonce, room, ops, data, -, -, -, e⟩
  · rw [e]; exact hp
  · rw [e]
    intro x d hx
    rw [AMap.get_insert] at hx
    split at hx
    · rename_i hc
      cases hx
      exact ⟨nonce, hc.symm⟩
    · exact hp x d hx

theorem ledger_run {K : SaveEnv} (tr : List SaveCall) {p : SaveProc} (hp : LedgerOk K p.ledger) :
    LedgerOk K (saveRun K p tr).ledger := by
  induction tr generalizing p with
  | nil => exact hp
  | cons c tr ih => exact ih (ledger_step hp c)

theorem ledger_start (K : SaveEnv) : LedgerOk K SaveProc.start.ledger := fun _ _ h => by cases h

theorem ledger_keeps {K : SaveEnv} (hk : SaveOk K) (tr : List SaveCall) {p : SaveProc}
    (hp : LedgerOk K p.ledger) {c d : Bytes} (h : AMap.get p.ledger c = some d) :
    AMap.get (saveRun K p tr).ledger c = some d := by
  induction tr generalizing p with
  | nil => exact h
  | cons x tr ih =>
    refine ih (ledger_step hp x) ?_
    rcases step_ledger K p x with e | ⟨h', nonce, room, ops, data, -, -, -, e⟩
    · rw [e]; exact h
    · rw [e, AMap.get_insert]
      split
      · rename_i hc
        obtain ⟨n, hn⟩ := hp c d h
        rw [hk.sealing _ _ _ _ (hc.trans hn)]
      · exact h

/-- What C_GetOperationState answers can be opened ever after, and gives the record of the session. -/
theorem get_opens {K : SaveEnv} (hk : SaveOk K) {p : SaveProc} (hp : LedgerOk K p.ledger) {h : Nat}
    {nonce : Bytes} {room : Nat} {b : Bytes} {ops : SavOps} (hs : AMap.get p.sess h = some ops)
    (hget : (getOpState K p h nonce room).1 = .ok b) (tr : List SaveCall) :
    ∃ c l data, b = K.encEnvelope ⟨c, none⟩ ∧
      AMap.get (saveRun K (getOpState K p h nonce room).2 tr).ledger c = some data ∧
      K.decRecord data = some ⟨1, l⟩ ∧ (∀ k, AMap.get l k = savedOf K ops k) ∧
      ∃ k, (savedOf K ops k).isSome := by
  have hp2 : LedgerOk K (getOpState K p h nonce room).2.ledger := ledger_step hp (.get h nonce room)
  have key : ∃ data, stateContent K ops = .ok data ∧ b = K.encEnvelope ⟨K.sealing nonce data, none⟩ ∧
      AMap.get (getOpState K p h nonce room).2.ledger (K.sealing nonce data) = some data := by
    unfold getOpState at hget ⊢
    rw [hs] at hget ⊢
    simp only at hget ⊢
    cases hc : stateContent K ops with
    | error r => rw [hc] at hget; cases hget
    | ok data =>
      rw [hc] at hget
      simp only at hget ⊢
      split at hget
      · cases hget
      · cases hget
        exact ⟨data, rfl, rfl, by rw [AMap.get_insert, if_pos rfl]⟩
  obtain ⟨data, h1, h2, h3⟩ := key
  obtain ⟨l, h4, h5, h6⟩ := content_ok h1
  exact ⟨_, l, data, h2, ledger_keeps hk tr hp2 h3, by rw [h4, hk.record], h5, h6⟩

theorem restore_opened {K : SaveEnv} (hk : SaveOk K) {ledger : List (Bytes × Bytes)} {c data : Bytes}
    {r : OpRecord} (sig : Option Bytes) (h1 : AMap.get ledger c = some data)
    (h2 : K.decRecord data = some r) (key : Option Obj) (ops : SavOps) :
    stateRestore K ledger (K.encEnvelope ⟨c, sig⟩) key ops = setRecord K key r ops := by
  unfold stateRestore
  simp only [hk.envelope, h1, h2]

/-! ### The operations -/

theorem hash_feed (a : HashAlg) (fed : Bytes) (u : Bool) (l : List Bytes) :
    ((HashOp.mk a fed false u).feed l).1 = .ok () ∧
    ((HashOp.mk a fed false u).feed l).2.alg = a ∧
    ((HashOp.mk a fed false u).feed l).2.fed = fed ++ l.flatten ∧
    ((HashOp.mk a fed false u).feed l).2.fin = false := by
  induction l generalizing fed u with
  | nil => exact ⟨rfl, rfl, by simp [HashOp.feed], rfl⟩
  | cons d l ih =>
    obtain ⟨h1, h2, h3, h4⟩ := ih (fed ++ d) true
    exact ⟨h1, h2, h3.trans (by simp), h4⟩

theorem digestOf_mk (m : Nat) (a : HashAlg) (fed : Bytes) (u : Bool) :
    digestOf a fed (.hash m ⟨a, fed, false, u⟩) := by
  refine ⟨m, _, rfl, fun parts => ?_⟩
  obtain ⟨h1, h2, h3, h4⟩ := hash_feed a fed u parts
  refine ⟨h1, ?_⟩
  unfold HashOp.final
  rw [h4, h2, h3]
  simp

theorem macOf_fed {a : HashAlg} (ha : HashOk a) {key : Bytes} {n : Nat} (hn : n ≤ a.hlen) {msg : Bytes}
    {o : Hmac} (m : Nat) (h : Fed a key n msg o) : macOf a key n msg (.hmac m o) := by
  refine ⟨m, o, rfl, fun parts => ?_⟩
  obtain ⟨h1, h2⟩ := fed_feed h parts
  have f := (fed_final ha hn h2).1
  refine ⟨h1, f, fun s => ?_⟩
  unfold Hmac.verifyFinal
  rw [h2.outlen]
  generalize (o.feed parts).2.finalize n = p at f
  obtain ⟨r, o1⟩ := p
  simp only at f
  subst f
  simp only
  by_cases h : s = List.take n (Spec.hmac a key (msg ++ parts.flatten))
  · rw [if_pos h.symm, if_pos h]
  · rw [if_neg (Ne.symm h), if_neg h]

theorem restored_fed {a : HashAlg} (ha : HashOk a) {key : Bytes} {n : Nat} {msg : Bytes} {o : Hmac}
    (h : Fed a key n msg o) : Fed a key n msg { Hmac.internal a key n with inner := o.inner } := by
  obtain ⟨h1, h2, h3, h4, h5, h6, -⟩ := fed_internal ha key n
  exact ⟨h1, h2, h3, h4, h5, h6, h.inner⟩

theorem savedOf_unsaved {K : SaveEnv} {ops : SavOps} {k : OpKind}
    (h : ∀ o, AMap.get ops k = some o → unsaved o) : savedOf K ops k = none := by
  unfold savedOf
  cases hg : AMap.get ops k with
  | none => rfl
  | some o =>
    rcases h o hg with hf | ⟨m, f, hf⟩
    · unfold saveOp; simp [hf, Except.toOption]
    · subst hf
      unfold saveOp
      by_cases hb : (SavOp.other m f).fin = true
      · simp [hb, Except.toOption]
      · simp [hb, Except.toOption]

theorem opIn_insert (p : SaveProc) (h h' : Nat) (ops : SavOps) (k : OpKind) :
    opIn ⟨p.ledger, AMap.insert p.sess h ops⟩ h' k =
      if h = h' then AMap.get ops k else opIn p h' k := by
  unfold opIn
  rw [AMap.get_insert]
  split <;> rfl

/-! ### The property -/

/-- **C42, digests (partial).**  A session has a digest operation that was given `parts`, and no other
operation that can be saved; C_GetOperationState answers `b`.  Whatever happens then (`tr2` may replace
or finish every operation), C_SetOperationState with `b` in any session succeeds, and the digest there
goes on with what follows: at the end it is the digest of everything, before and after.  Nothing else
changes in any session. -/
theorem C42_digest_partial {K : SaveEnv} (hk : SaveOk K) (tr tr2 : List SaveCall) (h h2 : Nat)
    (nonce b : Bytes) (room m : Nat) (a : HashAlg) (parts : List Bytes) (ops ops2 : SavOps)
    (hs : AMap.get (saveRun K .start tr).sess h = some ops) (hm : K.hashOf m = some a)
    (hd : AMap.get ops .digest = some (.hash m ((HashOp.new a).feed parts).2))
    (honly : ∀ k o, k ≠ .digest → AMap.get ops k = some o → unsaved o)
    (hget : (getOpState K (saveRun K .start tr) h nonce room).1 = .ok b)
    (hs2 : AMap.get (saveRun K (getOpState K (saveRun K .start tr) h nonce room).2 tr2).sess h2 = some ops2) :
    let p := saveRun K (getOpState K (saveRun K .start tr) h nonce room).2 tr2
    (setOpState K p h2 b 0 none).1 = .ok () ∧
    (∃ o, opIn (setOpState K p h2 b 0 none).2 h2 .digest = some o ∧ digestOf a parts.flatten o) ∧
    ∀ h' k, (h', k) ≠ (h2, .digest) → opIn (setOpState K p h2 b 0 none).2 h' k = opIn p h' k := by
  intro p
  obtain ⟨c, l, data, e1, e2, e3, e4, k0, e5⟩ := get_opens hk (ledger_run tr (ledger_start K)) hs hget tr2
  have hnone : ∀ k, k ≠ .digest → AMap.get l k = none := fun k hne => by
    rw [e4, savedOf_unsaved (fun o => honly k o hne)]
  obtain ⟨f1, f2, f3, f4⟩ := hash_feed a [] false parts
  have hdig : ∃ s, AMap.get l .digest = some (m, s) ∧ K.setState m s = some parts.flatten := by
    have hsome : (savedOf K ops .digest).isSome := by
      by_cases hkd : k0 = .digest
      · rw [← hkd]; exact e5
      · rw [savedOf_unsaved (fun o => honly k0 o hkd)] at e5; cases e5
    rw [e4]
    unfold savedOf at hsome ⊢
    rw [hd] at hsome ⊢
    simp only [Option.bind_some] at hsome ⊢
    unfold saveOp at hsome ⊢
    have hfin : (SavOp.hash m ((HashOp.new a).feed parts).2).fin = false := f4
    rw [hfin] at hsome ⊢
    simp only [Bool.false_eq_true, if_false] at hsome ⊢
    have hfed : ((HashOp.new a).feed parts).2.fed = parts.flatten := by
      have : ((HashOp.new a).feed parts).2.fed = [] ++ parts.flatten := f3
      simpa using this
    rw [hfed] at hsome ⊢
    cases hg : K.getState m parts.flatten with
    | none => rw [hg] at hsome; cases hsome
    | some s => exact ⟨s, rfl, hk.state _ _ _ hg⟩
  obtain ⟨s, d1, d2⟩ := hdig
  have hres : stateRestore K p.ledger b none ops2 =
      (.ok (), AMap.insert ops2 .digest (.hash m ⟨a, parts.flatten, false, true⟩)) := by
    rw [e1, restore_opened hk none e2 e3]
    unfold setRecord
    simp only [hnone _ (show OpKind.msgEnc ≠ .digest by decide),
      hnone _ (show OpKind.msgDec ≠ .digest by decide), hnone _ (show OpKind.enc ≠ .digest by decide),
      hnone _ (show OpKind.dec ≠ .digest by decide), hnone _ (show OpKind.sign ≠ .digest by decide),
      hnone _ (show OpKind.verify ≠ .digest by decide),
      hnone _ (show OpKind.verifySig ≠ .digest by decide), d1]
    simp [setDigest, setMac, restoreHash, hm, d2]
  have hset : setOpState K p h2 b 0 none = (.ok (), ⟨p.ledger, AMap.insert p.sess h2
      (AMap.insert ops2 .digest (.hash m ⟨a, parts.flatten, false, true⟩))⟩) := by
    unfold setOpState
    simp only [p] at hs2 hres ⊢
    rw [if_neg (by simp), hs2]
    simp only [hres]
  rw [hset]
  refine ⟨rfl, ⟨.hash m ⟨a, parts.flatten, false, true⟩, ?_, digestOf_mk m a _ _⟩, ?_⟩
  · rw [opIn_insert, if_pos rfl, AMap.get_insert, if_pos rfl]
  · intro h' k hne
    rw [opIn_insert]
    split
    · rename_i hh
      subst hh
      rw [AMap.get_insert, if_neg (fun hc => hne (by rw [hc]))]
      unfold opIn
      rw [hs2]; rfl
    · rfl

namespace Spec

/-- A key object that can be used with an HMAC mechanism of key type `kt`, and its value. -/
structure MacKey (kt attr : Nat) (key : Obj) (v : Bytes) : Prop where
  cls : key.getUlong CKA_CLASS = .ok CKO_SECRET_KEY
  typ : key.getUlong CKA_KEY_TYPE = .ok CKK_GENERIC_SECRET ∨ key.getUlong CKA_KEY_TYPE = .ok kt
  use : key.getBool attr = .ok true
  value : key.getBytes CKA_VALUE = .ok v

end Spec

theorem macKey_ok {kt attr : Nat} {key : Obj} {v : Bytes} (h : MacKey kt attr key v) :
    macKeyOf kt key attr = .ok v := by
  unfold macKeyOf
  rw [h.cls]
  simp only
  rw [if_neg (by simp)]
  rcases h.typ with ht | ht <;> rw [ht] <;> simp only
  · rw [if_neg (by simp), if_neg (by rw [h.use]; simp), h.value]
  · rw [if_neg (by simp), if_neg (by rw [h.use]; simp), h.value]

/-- The attribute that allows the use. -/
def macAttr (k : OpKind) : Nat := if k = .sign then CKA_SIGN else CKA_VERIFY

/-- **C42, HMAC (partial).**  A session has an HMAC signature or verification with the key value `v`
that was given `parts`, and no other operation that can be saved; C_GetOperationState answers `b`.
Whatever happens then, C_SetOperationState with `b` and a key object of value `v` in any session
succeeds, and the operation there goes on with what follows: at the end it gives, or accepts exactly,
the HMAC of everything, before and after.  Nothing else changes in any session. -/
theorem C42_mac_partial {K : SaveEnv} (hk : SaveOk K) (tr tr2 : List SaveCall) (h h2 : Nat)
    (nonce b v : Bytes) (room m hm kt n : Nat) (a : HashAlg) (ha : HashOk a) (hn : n ≤ a.hlen)
    (k : OpKind) (hkind : k = .sign ∨ k = .verify)
    (parts : List Bytes) (ops ops2 : SavOps) (key : Obj)
    (hs : AMap.get (saveRun K .start tr).sess h = some ops) (hmm : K.hmacOf m = some (hm, a, kt))
    (hkey : MacKey kt (macAttr k) key v)
    (hd : AMap.get ops k = some (.hmac m ((Hmac.internal a v n).feed parts).2))
    (honly : ∀ k' o, k' ≠ k → AMap.get ops k' = some o → unsaved o)
    (hget : (getOpState K (saveRun K .start tr) h nonce room).1 = .ok b)
    (hs2 : AMap.get (saveRun K (getOpState K (saveRun K .start tr) h nonce room).2 tr2).sess h2 = some ops2) :
    let p := saveRun K (getOpState K (saveRun K .start tr) h nonce room).2 tr2
    (setOpState K p h2 b 0 (some (.ok key))).1 = .ok () ∧
    (∃ o, opIn (setOpState K p h2 b 0 (some (.ok key))).2 h2 k = some o ∧
      macOf a v n parts.flatten o) ∧
    ∀ h' k', (h', k') ≠ (h2, k) →
      opIn (setOpState K p h2 b 0 (some (.ok key))).2 h' k' = opIn p h' k' := by
  intro p
  obtain ⟨c, l, data, e1, e2, e3, e4, k0, e5⟩ := get_opens hk (ledger_run tr (ledger_start K)) hs hget tr2
  have hnone : ∀ k', k' ≠ k → AMap.get l k' = none := fun k' hne => by
    rw [e4, savedOf_unsaved (fun o => honly k' o hne)]
  obtain ⟨-, fd⟩ := fed_feed (fed_internal ha v n) parts
  rw [List.nil_append] at fd
  generalize ((Hmac.internal a v n).feed parts).2 = o0 at fd hd
  have hmac : ∃ s, AMap.get l k = some (m, K.encHmac s n) ∧ K.setState hm s = some o0.inner := by
    have hsome : (savedOf K ops k).isSome := by
      by_cases hkd : k0 = k
      · rw [← hkd]; exact e5
      · rw [savedOf_unsaved (fun o => honly k0 o hkd)] at e5; cases e5
    rw [e4]
    unfold savedOf at hsome ⊢
    rw [hd] at hsome ⊢
    simp only [Option.bind_some] at hsome ⊢
    unfold saveOp at hsome ⊢
    have hfin : (SavOp.hmac m o0).fin = false := fd.fin
    rw [hfin] at hsome ⊢
    simp only [Bool.false_eq_true, if_false, hmm] at hsome ⊢
    cases hg : K.getState hm o0.inner with
    | none => rw [hg] at hsome; cases hsome
    | some s => exact ⟨s, by rw [fd.outlen]; rfl, hk.state _ _ _ hg⟩
  obtain ⟨s, d1, d2⟩ := hmac
  have hmk := macKey_ok hkey
  have hro : restoreHmac K m key (macAttr k) (K.encHmac s n) =
      .ok (.hmac m { Hmac.internal a v n with inner := o0.inner }) := by
    unfold restoreHmac
    simp only [hmm, hmk, hk.hmac, d2]
  have hres : stateRestore K p.ledger b (some key) ops2 =
      (.ok (), AMap.insert ops2 k (.hmac m { Hmac.internal a v n with inner := o0.inner })) := by
    rw [e1, restore_opened hk none e2 e3]
    unfold setRecord
    rcases hkind with hk1 | hk1 <;> subst hk1
    · simp only [macAttr, if_true] at hro
      simp only [hnone _ (show OpKind.msgEnc ≠ .sign by decide),
        hnone _ (show OpKind.msgDec ≠ .sign by decide), hnone _ (show OpKind.enc ≠ .sign by decide),
        hnone _ (show OpKind.dec ≠ .sign by decide), hnone _ (show OpKind.digest ≠ .sign by decide),
        hnone _ (show OpKind.verify ≠ .sign by decide),
        hnone _ (show OpKind.verifySig ≠ .sign by decide), d1]
      simp [setDigest, setMac, hro]
    · simp only [macAttr, show OpKind.verify ≠ .sign by decide, if_false] at hro
      simp only [hnone _ (show OpKind.msgEnc ≠ .verify by decide),
        hnone _ (show OpKind.msgDec ≠ .verify by decide), hnone _ (show OpKind.enc ≠ .verify by decide),
        hnone _ (show OpKind.dec ≠ .verify by decide), hnone _ (show OpKind.digest ≠ .verify by decide),
        hnone _ (show OpKind.sign ≠ .verify by decide),
        hnone _ (show OpKind.verifySig ≠ .verify by decide), d1]
      simp [setDigest, setMac, hro]
  have hset : setOpState K p h2 b 0 (some (.ok key)) = (.ok (), ⟨p.ledger, AMap.insert p.sess h2
      (AMap.insert ops2 k (.hmac m { Hmac.internal a v n with inner := o0.inner }))⟩) := by
    unfold setOpState
    simp only [p] at hs2 hres ⊢
    rw [if_neg (by simp), hs2]
    simp only [hres]
  rw [hset]
  refine ⟨rfl, ⟨_, ?_, macOf_fed ha hn m (restored_fed ha fd)⟩, ?_⟩
  · rw [opIn_insert, if_pos rfl, AMap.get_insert, if_pos rfl]
  · intro h' k' hne
    rw [opIn_insert]
    split
    · rename_i hh
      subst hh
      rw [AMap.get_insert, if_neg (fun hc => hne (by rw [hc]))]
      unfold opIn
      rw [hs2]; rfl
    · rfl

/-! ### Other bytes -/

/-- What the ledger holds was sealed by a C_GetOperationState of the history. -/
theorem ledger_source (K : SaveEnv) (tr : List SaveCall) (p : SaveProc) (c d : Bytes)
    (h : AMap.get (saveRun K p tr).ledger c = some d) :
    AMap.get p.ledger c = some d ∨ ∃ tr1 tr2 h nonce room ops,
      tr = tr1 ++ .get h nonce room :: tr2 ∧ AMap.get (saveRun K p tr1).sess h = some ops ∧
      stateContent K ops = .ok d ∧ c = K.sealing nonce d := by
  induction tr generalizing p with
  | nil => exact .inl h
  | cons x tr ih =>
    rcases ih (saveStep K p x).2 h with e | ⟨tr1, tr2, h', nonce, room, ops, e1, e2, e3, e4⟩
    · rcases step_ledger K p x with g | ⟨h', nonce, room, ops, data, g1, g2, g3, g4⟩
      · rw [g] at e; exact .inl e
      · rw [g4, AMap.get_insert] at e
        split at e
        · rename_i hc
          cases e
          exact .inr ⟨[], tr, h', nonce, room, ops, by rw [g1]; rfl, g2, g3, hc.symm⟩
        · exact .inl e
    · exact .inr ⟨x :: tr1, tr2, h', nonce, room, ops, by rw [e1]; rfl, e2, e3, e4⟩

/-- **C42, other bytes.**  C_SetOperationState, with any key handles, in any session, after any
history: either the bytes hold what a C_GetOperationState of this process sealed, or the call fails
(with `CKR_SAVED_STATE_INVALID` unless the session or a key handle is refused first) and changes
nothing. -/
theorem C42_rejected (K : SaveEnv) (tr : List SaveCall) (h : Nat) (state : Bytes) (ek : Nat)
    (key : Option (Res Obj)) :
    let p := saveRun K .start tr
    (∃ env tr1 tr2 h1 nonce room ops data, K.decEnvelope state = some env ∧
      tr = tr1 ++ .get h1 nonce room :: tr2 ∧ AMap.get (saveRun K .start tr1).sess h1 = some ops ∧
      stateContent K ops = .ok data ∧ env.sealed_ = K.sealing nonce data) ∨
    ((∃ r, (setOpState K p h state ek key).1 = .error r ∧ (r = .savedStateInvalid ∨ ek ≠ 0 ∨
        AMap.get p.sess h = none ∨ key = some (.error r))) ∧
      ∀ h' k, opIn (setOpState K p h state ek key).2 h' k = opIn p h' k) := by
  intro p
  have same : ∀ ops, AMap.get p.sess h = some ops → ∀ h' k,
      opIn ⟨p.ledger, AMap.insert p.sess h ops⟩ h' k = opIn p h' k := by
    intro ops hs h' k
    rw [opIn_insert]
    split
    · rename_i hh; subst hh; unfold opIn; rw [hs]; rfl
    · rfl
  have main : (∃ env d, K.decEnvelope state = some env ∧ AMap.get p.ledger env.sealed_ = some d) ∨
      ∀ key ops, stateRestore K p.ledger state key ops = (.error .savedStateInvalid, ops) := by
    cases he : K.decEnvelope state with
    | none => exact .inr fun key ops => by unfold stateRestore; rw [he]
    | some env =>
      cases hl : AMap.get p.ledger env.sealed_ with
      | none => exact .inr fun key ops => by unfold stateRestore; simp only [he, hl]
      | some d => exact .inl ⟨env, d, rfl, hl⟩
  rcases main with ⟨env, d, h1, h2⟩ | hfail
  · rcases ledger_source K tr .start env.sealed_ d h2 with e | ⟨tr1, tr2, h', nonce, room, ops, e1, e2, e3, e4⟩
    · cases e
    · exact .inl ⟨env, tr1, tr2, h', nonce, room, ops, d, h1, e1, e2, e3, e4⟩
  · refine .inr ?_
    unfold setOpState
    by_cases hek : ek ≠ 0
    · rw [if_pos hek]; exact ⟨⟨_, rfl, .inr (.inl hek)⟩, fun _ _ => rfl⟩
    · rw [if_neg hek]
      cases hs : AMap.get p.sess h with
      | none => exact ⟨⟨_, rfl, .inr (.inr (.inl rfl))⟩, fun _ _ => rfl⟩
      | some ops =>
        simp only
        match key with
        | none => simp only [hfail]; exact ⟨⟨_, rfl, .inl rfl⟩, same ops hs⟩
        | some (.ok o) => simp only [hfail]; exact ⟨⟨_, rfl, .inl rfl⟩, same ops hs⟩
        | some (.error r) => exact ⟨⟨r, rfl, .inr (.inr (.inr rfl))⟩, fun _ _ => rfl⟩

/-- **C42, violated: altered bytes.**  The bytes are an envelope with an optional signature nobody
looks at.  With a signature added they are other bytes, and the call does what it does with the
original ones. -/
theorem C42_altered_violation {K : SaveEnv} (hk : SaveOk K) (p : SaveProc) (h : Nat) (c sig : Bytes)
    (ek : Nat) (key : Option (Res Obj)) :
    K.encEnvelope ⟨c, some sig⟩ ≠ K.encEnvelope ⟨c, none⟩ ∧
    setOpState K p h (K.encEnvelope ⟨c, some sig⟩) ek key =
      setOpState K p h (K.encEnvelope ⟨c, none⟩) ek key := by
  constructor
  · intro e
    have := (hk.envelope ⟨c, some sig⟩).symm.trans ((congrArg K.decEnvelope e).trans (hk.envelope _))
    cases this
  · unfold setOpState stateRestore
    simp only [hk.envelope]

/-- **C42, violated: a digest and an HMAC.**  With both active C_GetOperationState succeeds, and what
it answers can never be set: with a key `CKR_KEY_NOT_NEEDED`, without one `CKR_KEY_NEEDED`. -/
theorem C42_both_violation {K : SaveEnv} (hk : SaveOk K) (tr tr2 : List SaveCall) (h h2 : Nat)
    (nonce b : Bytes) (room : Nat) (ops : SavOps)
    (hs : AMap.get (saveRun K .start tr).sess h = some ops)
    (hd : (savedOf K ops .digest).isSome) (hm : (savedOf K ops .sign).isSome)
    (hget : (getOpState K (saveRun K .start tr) h nonce room).1 = .ok b) (ek : Nat)
    (key : Option (Res Obj)) :
    (setOpState K (saveRun K (getOpState K (saveRun K .start tr) h nonce room).2 tr2) h2 b ek key).1 ≠
      .ok () := by
  obtain ⟨c, l, data, e1, e2, e3, e4, -⟩ := get_opens hk (ledger_run tr (ledger_start K)) hs hget tr2
  generalize saveRun K (getOpState K (saveRun K .start tr) h nonce room).2 tr2 = p at e2 ⊢
  have hfail : ∀ key ops, (stateRestore K p.ledger b key ops).1 ≠ .ok () := by
    intro key ops'
    rw [e1, restore_opened hk none e2 e3]
    unfold setRecord
    rw [if_neg (by simp)]
    simp only [e4]
    split
    · simp
    · cases hx : savedOf K ops .digest with
      | none => rw [hx] at hd; cases hd
      | some d =>
        cases hy : savedOf K ops .sign with
        | none => rw [hy] at hm; cases hm
        | some d' =>
          cases key with
          | some o => simp [setDigest]
          | none =>
            simp only [setDigest]
            cases restoreHash K d.1 d.2 <;> simp [setMac]
  unfold setOpState
  split
  · simp
  · split
    · simp
    · rename_i ops' _
      split
      · simp
      · rename_i o
        have := hfail (some o) ops'
        generalize stateRestore K p.ledger b (some o) ops' = q at this
        exact this
      · have := hfail none ops'
        generalize stateRestore K p.ledger b none ops' = q at this
        exact this

/-! ### A process to try it on -/

/-- A number as that many ones and a zero. -/
def encUnary (n : Nat) : Bytes := List.replicate n 1 ++ [0]

/-- The number at the start, and the rest. -/
def decUnary : Bytes → Option (Nat × Bytes)
  | [] => none
  | b :: l => if b = 0 then some (0, l) else (decUnary l).map fun p => (p.1 + 1, p.2)

theorem decUnary_enc (n : Nat) (r : Bytes) : decUnary (encUnary n ++ r) = some (n, r) := by
  induction n with
  | zero => rfl
  | succ n ih =>
    have : encUnary (n + 1) ++ r = 1 :: (encUnary n ++ r) := rfl
    rw [this]
    unfold decUnary
    rw [if_neg (by decide), ih]
    rfl

/-- Bytes with their length. -/
def encSized (b : Bytes) : Bytes := encUnary b.length ++ b

/-- Bytes with their length, and the rest. -/
def decSized (l : Bytes) : Option (Bytes × Bytes) :=
  (decUnary l).map fun p => (p.2.take p.1, p.2.drop p.1)

theorem decSized_enc (b r : Bytes) : decSized (encSized b ++ r) = some (b, r) := by
  unfold decSized encSized
  rw [List.append_assoc, decUnary_enc]
  simp

/-- The number of a kind. -/
def kindNo : OpKind → Nat
  | .msgEnc => 0 | .msgDec => 1 | .enc => 2 | .dec => 3 | .digest => 4 | .sign => 5 | .verify => 6
  | .verifySig => 7

/-- The kind of a number. -/
def kindOf : Nat → OpKind
  | 0 => .msgEnc | 1 => .msgDec | 2 => .enc | 3 => .dec | 4 => .digest | 5 => .sign | 6 => .verify
  | _ => .verifySig

/-- The entries one after the other. -/
def encEntries : List (OpKind × Nat × Bytes) → Bytes
  | [] => []
  | (k, m, b) :: l => encUnary (kindNo k) ++ (encUnary m ++ (encSized b ++ encEntries l))

/-- So many entries. -/
def decEntries : Nat → Bytes → Option (List (OpKind × Nat × Bytes))
  | 0, _ => some []
  | n + 1, l => (decUnary l).bind fun p => (decUnary p.2).bind fun q => (decSized q.2).bind fun r =>
      (decEntries n r.2).map fun es => (kindOf p.1, q.1, r.1) :: es

theorem decEntries_enc (l : List (OpKind × Nat × Bytes)) :
    decEntries l.length (encEntries l) = some l := by
  induction l with
  | nil => rfl
  | cons e l ih =>
    obtain ⟨k, m, b⟩ := e
    unfold encEntries
    rw [List.length_cons]
    unfold decEntries
    simp only [decUnary_enc, decSized_enc, ih, Option.bind_some, Option.map_some]
    cases k <;> rfl

/-- Toy codings: everything can be saved, sealing only adds the nonce. Mechanism 1 is the toy digest of
C50, mechanism 2 its HMAC. -/
def exSave : SaveEnv where
  getState := fun _ b => some b
  setState := fun _ b => some b
  encHmac := fun b n => encUnary n ++ b
  decHmac := fun b => (decUnary b).map fun p => (p.2, p.1)
  encRecord := fun r => encUnary r.version ++ (encUnary r.entries.length ++ encEntries r.entries)
  decRecord := fun b => (decUnary b).bind fun p => (decUnary p.2).bind fun q =>
    (decEntries q.1 q.2).map fun es => ⟨p.1, es⟩
  encEnvelope := fun e => match e.signature with
    | none => encUnary 0 ++ e.sealed_
    | some s => encUnary 1 ++ (encSized s ++ e.sealed_)
  decEnvelope := fun b => (decUnary b).bind fun p =>
    if p.1 = 0 then some ⟨p.2, none⟩ else (decSized p.2).map fun q => ⟨q.2, some q.1⟩
  sealing := fun n d => encSized n ++ d
  hashOf := fun m => if m = 1 then some exHash else none
  hmacOf := fun m => if m = 2 then some (1, exHash, CKK_SHA256_HMAC) else none

theorem exSave_ok : SaveOk exSave where
  state := fun m fed b h => by cases h; rfl
  hmac := fun s n => by simp [exSave, decUnary_enc]
  record := fun r => by simp [exSave, decUnary_enc, decEntries_enc]
  envelope := fun p => by
    obtain ⟨c, sig⟩ := p
    cases sig <;> simp [exSave, decUnary_enc, decSized_enc]
  sealing := fun n d n' d' h => by
    have h1 := decSized_enc n d
    have h2 := decSized_enc n' d'
    have : encSized n ++ d = encSized n' ++ d' := h
    rw [this, h2] at h1
    cases h1; rfl

/-- A generic secret that signs and verifies. -/
def exMacKey (v : Bytes) : Obj :=
  ⟨1, 0, CKO_SECRET_KEY, [.ofUlong CKA_CLASS CKO_SECRET_KEY, .ofUlong CKA_KEY_TYPE CKK_GENERIC_SECRET,
    .ofBool CKA_SIGN true, .ofBool CKA_VERIFY true, .ofBytes CKA_VALUE v]⟩

/-- A digest that was given three bytes in two parts. -/
def exDigestOp : SavOp := .hash 1 ((HashOp.new exHash).feed [[1, 2], [3]]).2

/-- An HMAC that was given three bytes in two parts. -/
def exMacOp : SavOp := .hmac 2 ((Hmac.internal exHash [9, 9] 2).feed [[1, 2], [3]]).2

/-- An encryption. -/
def exEncOp : SavOp := .other 3 false

/-- The answer of C_GetOperationState in session 5 of a process with these operations. -/
def exSaved (ops : SavOps) : Bytes :=
  match (getOpState exSave (saveRun exSave .start [.other [(5, ops)]]) 5 [7] 1000).1 with
  | .ok b => b
  | .error _ => []

/-- The process after that, with an empty session 6 and session 5 closed. -/
def exLater (ops : SavOps) : SaveProc :=
  saveRun exSave (getOpState exSave (saveRun exSave .start [.other [(5, ops)]]) 5 [7] 1000).2
    [.other [(6, [])]]

/-- The operation of a kind that C_SetOperationState leaves in session 6, and its answer. -/
def exSet (ops : SavOps) (key : Option Obj) (k : OpKind) : Res Unit × Option SavOp :=
  let r := setOpState exSave (exLater ops) 6 (exSaved ops) 0 (key.map .ok)
  (r.1, opIn r.2 6 k)

/-- The value of an HMAC operation after one more part. -/
def macAfter (d : Bytes) : Option SavOp → Option (Res Bytes)
  | some (.hmac _ o) => some ((o.update d).2.finalize o.outlen).1
  | _ => none

/-- C_Sign (one-shot) on an HMAC operation. -/
def signNow (d : Bytes) : Option SavOp → Option (Res Bytes)
  | some (.hmac _ o) => some (o.mac d o.outlen).1
  | _ => none

/-- C_Digest (one-shot) on a digest operation. -/
def digestNow (d : Bytes) : Option SavOp → Option (Res Bytes)
  | some (.hash _ o) => some (o.digest d o.alg.hlen).1
  | _ => none

/-- The digest and the HMAC above meet the hypotheses of `C42_digest_partial` and `C42_mac_partial`. -/
example : (getOpState exSave (saveRun exSave .start [.other [(5, [(.digest, exDigestOp)])]]) 5 [7] 1000).1 =
      .ok (exSaved [(.digest, exDigestOp)]) ∧
    AMap.get (exLater [(.digest, exDigestOp)]).sess 6 = some [] ∧
    (getOpState exSave (saveRun exSave .start [.other [(5, [(.enc, exEncOp), (.sign, exMacOp)])]]) 5 [7] 1000).1 =
      .ok (exSaved [(.enc, exEncOp), (.sign, exMacOp)]) ∧
    MacKey CKK_SHA256_HMAC (macAttr .sign) (exMacKey [9, 9]) [9, 9] ∧
    macAfter [4] (exSet [(.sign, exMacOp)] (some (exMacKey [9, 9])) .sign).2 =
      some (.ok ((Spec.hmac exHash [9, 9] [1, 2, 3, 4]).take 2)) := by
  refine ⟨by decide +kernel, rfl, by decide +kernel, ⟨?_, .inl ?_, ?_, ?_⟩, ?_⟩ <;>
    decide +kernel

/-- The hypotheses of `C42_both_violation` can be met. -/
example : (savedOf exSave [(.digest, exDigestOp), (.sign, exMacOp)] .digest).isSome ∧
    (savedOf exSave [(.digest, exDigestOp), (.sign, exMacOp)] .sign).isSome ∧
    (exSet [(.digest, exDigestOp), (.sign, exMacOp)] none .digest).1 = .error .keyNeeded ∧
    (exSet [(.digest, exDigestOp), (.sign, exMacOp)] (some (exMacKey [9, 9])) .digest).1 =
      .error .keyNotNeeded := by
  refine ⟨?_, ?_, ?_, ?_⟩ <;> decide +kernel

/-- **C42, violated: a failing call changes the session.**  Of the state of a digest and an HMAC, set
without a key, the digest is in the session although the call failed. -/
theorem C42_failed_violation :
    (exSet [(.digest, exDigestOp), (.sign, exMacOp)] none .digest).1 = .error .keyNeeded ∧
    (exSet [(.digest, exDigestOp), (.sign, exMacOp)] none .digest).2.isSome := by
  refine ⟨?_, ?_⟩ <;> decide +kernel

/-- **C42, violated: C_VerifySignature.**  The state of an HMAC under C_VerifySignature is saved and
refused when it is set. -/
theorem C42_verifySig_violation :
    (getOpState exSave (saveRun exSave .start [.other [(5, [(.verifySig, exMacOp)])]]) 5 [7] 1000).1 =
      .ok (exSaved [(.verifySig, exMacOp)]) ∧
    (exSet [(.verifySig, exMacOp)] (some (exMacKey [9, 9])) .verifySig).1 = .error .savedStateInvalid ∧
    (exSet [(.verifySig, exMacOp)] none .verifySig).1 = .error .savedStateInvalid := by
  refine ⟨?_, ?_, ?_⟩ <;> decide +kernel

/-- **C42, violated: dropped operations.**  A session encrypts and computes a digest.  Its state is
saved and set without an error, and the encryption is not there. -/
theorem C42_dropped_violation :
    (getOpState exSave (saveRun exSave .start [.other [(5, [(.enc, exEncOp), (.digest, exDigestOp)])]])
      5 [7] 1000).1 = .ok (exSaved [(.enc, exEncOp), (.digest, exDigestOp)]) ∧
    (exSet [(.enc, exEncOp), (.digest, exDigestOp)] none .enc).1 = .ok () ∧
    (exSet [(.enc, exEncOp), (.digest, exDigestOp)] none .enc).2.isNone := by
  refine ⟨?_, ?_, ?_⟩ <;> decide +kernel

/-- **C42, violated: another key.**  An HMAC saved under one key is continued under another one without
an error; the value is the HMAC of the data under neither. -/
theorem C42_key_violation :
    (exSet [(.sign, exMacOp)] (some (exMacKey [4, 4])) .sign).1 = .ok () ∧
    ∃ v, macAfter [4] (exSet [(.sign, exMacOp)] (some (exMacKey [4, 4])) .sign).2 = some (.ok v) ∧
      v ≠ Spec.hmac exHash [9, 9] [1, 2, 3, 4] ∧ v ≠ Spec.hmac exHash [4, 4] [1, 2, 3, 4] := by
  refine ⟨by decide +kernel, ((macAfter [4] (exSet [(.sign, exMacOp)] (some (exMacKey [4, 4])) .sign).2).bind
    Except.toOption).getD [], ?_, ?_, ?_⟩ <;> decide +kernel

/-- **C42, violated: one-shot calls.**  After data was given in parts C_Sign is refused; on the same
operation saved and restored it is accepted.  C_Digest on an operation without data is accepted; on the
same operation saved and restored it is refused. -/
theorem C42_oneshot_violation :
    signNow [4] (some exMacOp) = some (.error .operationNotInitialized) ∧
    (∃ v, signNow [4] (exSet [(.sign, exMacOp)] (some (exMacKey [9, 9])) .sign).2 = some (.ok v)) ∧
    (∃ v, digestNow [4] (some (.hash 1 (HashOp.new exHash))) = some (.ok v)) ∧
    digestNow [4] (exSet [(.digest, .hash 1 (HashOp.new exHash))] none .digest).2 =
      some (.error .operationNotInitialized) := by
  refine ⟨by decide +kernel, ⟨exHash.h ((keyBlock exHash [9, 9]).map (· ^^^ 0x5c) ++
    exHash.h ((keyBlock exHash [9, 9]).map (· ^^^ 0x36) ++ [1, 2, 3, 4])), by decide +kernel⟩,
    ⟨exHash.h [4], by decide +kernel⟩, by decide +kernel⟩

end Kry
