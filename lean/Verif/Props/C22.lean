import Verif.Proofs.Knows
import Verif.Proofs.Errors
import Verif.Proofs.Dead
import Verif.Props.MachineEx
import Verif.Props.Sessions

/-!
# C22: one operation of each kind, started and ended by its own calls

An observer who only sees calls and answers keeps `known` (`Spec/Operations.lean`): an operation is going on after a
successful C_XxxInit, until its final or one-shot call succeeds, it is cancelled, or one of its calls fails (then it
may be over).  `C22_active` and `C22_search_active`: while it is known to go on, every C_XxxInit of that kind answers
CKR_OPERATION_ACTIVE and changes nothing.  `C22_idle_init`: while it is known not to go on, C_XxxInit never answers
CKR_OPERATION_ACTIVE.  `C22_idle_run` and `C22_search_idle`: then its other calls change nothing and fail.
`C22_running_partial`: while it goes on they do not answer CKR_OPERATION_NOT_INITIALIZED.  The notebook of a session and
kind is not touched by calls on other sessions and kinds, so all of this includes that they do not interfere.

What does not hold: an operation with an always-authenticate key makes the calls of all other operations of the session
fail (`C22_login_violation`); C_FindObjectsFinal succeeds without a search (`C22_findFinal_violation`); C_SessionCancel
cannot end a C_VerifySignatureInit (`C22_cancel_violation`).
-/

namespace Kry
open Spec

variable {M : Mechs} {C : Crypto} {O : Oracle}

theorem checkNoOp_running {x : Session} {k : OpKind} (h : Running x k) : x.checkNoOp k = .error .operationActive := by
  obtain ⟨o, h1, h2⟩ := h
  unfold Session.checkNoOp
  simp [h1, h2]

theorem checkNoOp_idle {x : Session} {k : OpKind} (h : ¬ Running x k) : x.checkNoOp k = .ok () := by
  unfold Session.checkNoOp
  cases hg : AMap.get x.ops k with
  | none => rfl
  | some o =>
    cases hf : o.fin with
    | true => simp [hf]
    | false => exact (h ⟨o, hg, hf⟩).elim

theorem getOp_idle {x : Session} {k : OpKind} (h : ¬ Running x k) :
    x.getOp k = .error .operationNotInitialized ∨ x.getOp k = .error .userNotLoggedIn := by
  unfold Session.getOp Session.checkLogin
  cases x.login <;> simp only
  case required => exact .inr trivial
  case notInit => exact .inl trivial
  all_goals
    left
    cases hg : AMap.get x.ops k with
    | none => rfl
    | some o =>
      cases hf : o.fin with
      | true => simp [hf]
      | false => exact (h ⟨o, hg, hf⟩).elim

/-- **C22**: while an operation of kind `k` goes on in a session, C_XxxInit of that kind is refused and has no
effect. -/
theorem C22_active (hM : Lawful M) (d : List (Nat × Db)) (tr : Trace) (h i : Nat) (k : OpKind)
    (hs : onSlot M C O (after M C O d tr) h i)
    (hk : known (hist M C O (St.init d) tr) h (.op k) = .yes) (e : Env) (m : Nat × Bytes) (key : Nat) (sig : Bytes) :
    step M C O e (after M C O d tr) (.op h (.opInit k (some m) key sig)) =
      (.err .operationActive, after M C O d tr) := by
  have hi : Inv (after M C O d tr) := inv_reach M O d tr
  have hkn : KInv (known (hist M C O (St.init d) tr)) (after M C O d tr) := knows_reach hM d tr
  generalize after M C O d tr = s at *
  obtain ⟨sl, x, hg, h1, h2⟩ := getSession_live hi ((onSlot_iff hi).1 hs)
  have hr := checkNoOp_running ((hkn i sl h x h1 h2).yes k hk)
  obtain ⟨m, p⟩ := m
  unfold step
  simp only [hg, opStep]
  by_cases hd : k = .digest
  · subst hd
    simp only [if_pos, fnInitDigest, hr, Out.of]
    rw [setSlot_same hi h1 h2]
  · simp only [if_neg hd, fnInitKey, hr, Out.of]
    rw [setSlot_same hi h1 h2]

/-- **C22**: the same for searches. -/
theorem C22_search_active (hM : Lawful M) (d : List (Nat × Db)) (tr : Trace) (h i : Nat)
    (hs : onSlot M C O (after M C O d tr) h i)
    (hk : known (hist M C O (St.init d) tr) h .search = .yes) (e : Env) (tm : Template) :
    step M C O e (after M C O d tr) (.sess h (.findInit tm)) = (.err .operationActive, after M C O d tr) := by
  have hi : Inv (after M C O d tr) := inv_reach M O d tr
  have hkn : KInv (known (hist M C O (St.init d) tr)) (after M C O d tr) := knows_reach hM d tr
  generalize after M C O d tr = s at *
  obtain ⟨sl, x, hg, h1, h2⟩ := getSession_live hi ((onSlot_iff hi).1 hs)
  have hr := (hkn i sl h x h1 h2).search hk
  have ht := (hi.slot i sl h1).inited (by intro he; rw [he] at h2; cases h2)
  unfold step
  simp only [hg, sessStep]
  rw [if_neg (by simp [ht])]
  cases hx : x.search with
  | none => exact (hr hx).elim
  | some l =>
    simp only [Session.newSearch, hx, Out.of]
    rw [setSlot_same hi h1 h2]

/-- **C22**: while no operation of kind `k` goes on in a session, C_XxxInit of that kind is not refused for that
reason. -/
theorem C22_idle_init (hM : Lawful M) (hA : MechsApart M) (d : List (Nat × Db)) (tr : Trace) (h i : Nat) (k : OpKind)
    (hs : onSlot M C O (after M C O d tr) h i)
    (hk : known (hist M C O (St.init d) tr) h (.op k) = .no) (e : Env) (he : EnvApart e) (m : Option (Nat × Bytes))
    (key : Nat) (sig : Bytes) :
    (step M C O e (after M C O d tr) (.op h (.opInit k m key sig))).1 ≠ .err .operationActive := by
  have hi : Inv (after M C O d tr) := inv_reach M O d tr
  have hkn : KInv (known (hist M C O (St.init d) tr)) (after M C O d tr) := knows_reach hM d tr
  generalize after M C O d tr = s at *
  obtain ⟨sl, x, hg, h1, h2⟩ := getSession_live hi ((onSlot_iff hi).1 hs)
  have hr := checkNoOp_idle ((hkn i sl h x h1 h2).no k hk)
  have bad : ∀ {α : Type} {w : Res α} {r : Rv}, Apart w → w = .error r → Out.of (.error r) ≠ .err .operationActive := by
    intro α w r ha hw he
    injection he with he
    exact ha r hw (.inl he)
  cases m with
  | none =>
    unfold step
    simp only [hg, opStep]
    exact nofun
  | some m =>
  obtain ⟨m, p⟩ := m
  unfold step
  simp only [hg, opStep]
  by_cases hd : k = .digest
  · subst hd
    simp only [if_pos, fnInitDigest, hr]
    split
    · exact nofun
    split
    · rename_i hw; exact bad (mechWith_apart _ _ _) hw
    split
    · rename_i hw; exact bad (newOp_apart hA _ _ _ _ _ _) hw
    · exact nofun
  · simp only [if_neg hd, fnInitKey, hr]
    split
    · exact nofun
    split
    · rename_i hw; exact bad (byHandle_apart (he.sub 0) _ _) hw
    split
    · rename_i hw; exact bad (checkAllowed_apart _ _) hw
    split
    · rename_i hw; exact bad (mechWith_apart _ _ _) hw
    split
    · rename_i hw; exact bad (newOp_apart hA _ _ _ _ _ _) hw
    · exact nofun

/-- The calls that exist for a kind of operation: one-shot, update and final; for messages one-shot, begin, next
(with or without the end flag) and final. -/
def Spec.isCall (k : OpKind) (a : Act) : Bool :=
  match a with
  | .oneShot => true
  | .update | .final => !manyMessages k
  | _ => manyMessages k

/-- Message calls without parameter (or without data) are refused before anything else. -/
def Spec.hasArgs (k : OpKind) (a : Act) (i : OpIn) : Bool :=
  !manyMessages k || (match a with
    | .oneShot | .next | .last => !i.param.isEmpty && !i.data.isEmpty
    | .begin => !i.param.isEmpty
    | _ => true)

theorem opRun_refused {e : Env} {k : OpKind} {a : Act} {i : OpIn} {x : Session} {t : Token} {r : Rv}
    (hg : x.getOp k = .error r) (hc : isCall k a = true) (ha : hasArgs k a i = true) :
    fnOpRun M C e k a i x t = (.err r, x, t) := by
  have ne : ∀ {l : Bytes}, l.isEmpty = false → l ≠ [] := by intro l h he; rw [he] at h; cases h
  unfold fnOpRun
  cases k <;> cases a <;> first | (cases hc; done) | skip
  all_goals simp only [fnMessage, fnCrypt, fnDigest, fnFeed, fnSign, fnVerify, hg, Out.of]
  all_goals first
    | rfl
    | (simp only [hasArgs, manyMessages, Bool.not_true, Bool.false_or, Bool.and_eq_true, Bool.not_eq_true',
         List.isEmpty_eq_false_iff] at ha
       simp [ha])

/-- **C22**: while no operation of kind `k` goes on in a session, its calls change nothing and fail with
CKR_OPERATION_NOT_INITIALIZED, or with CKR_USER_NOT_LOGGED_IN when the session waits for a context-specific login. -/
theorem C22_idle_run (hM : Lawful M) (d : List (Nat × Db)) (tr : Trace) (h i : Nat) (k : OpKind)
    (hs : onSlot M C O (after M C O d tr) h i)
    (hk : known (hist M C O (St.init d) tr) h (.op k) = .no) (e : Env) (a : Act) (q : OpIn)
    (hc : isCall k a = true) (ha : hasArgs k a q = true) :
    ∃ r, step M C O e (after M C O d tr) (.op h (.opRun k a q)) = (.err r, after M C O d tr) ∧
      (r = .operationNotInitialized ∨ r = .userNotLoggedIn) := by
  have hi : Inv (after M C O d tr) := inv_reach M O d tr
  have hkn : KInv (known (hist M C O (St.init d) tr)) (after M C O d tr) := knows_reach hM d tr
  generalize after M C O d tr = s at *
  obtain ⟨sl, x, hg, h1, h2⟩ := getSession_live hi ((onSlot_iff hi).1 hs)
  have hr := (hkn i sl h x h1 h2).no k hk
  have go : ∀ r, x.getOp k = .error r →
      step M C O e s (.op h (.opRun k a q)) = (.err r, s) := by
    intro r hr
    unfold step
    simp only [hg, opStep, opRun_refused hr hc ha]
    rw [setSlot_same hi h1 h2]
  rcases getOp_idle hr with hr | hr
  · exact ⟨_, go _ hr, .inl rfl⟩
  · exact ⟨_, go _ hr, .inr rfl⟩

/-- **C22**: the same for searches. -/
theorem C22_search_idle (hM : Lawful M) (d : List (Nat × Db)) (tr : Trace) (h i : Nat)
    (hs : onSlot M C O (after M C O d tr) h i)
    (hk : known (hist M C O (St.init d) tr) h .search = .no) (e : Env) (max : Nat) :
    ∃ r, step M C O e (after M C O d tr) (.sess h (.find max)) = (.err r, after M C O d tr) ∧
      (r = .operationNotInitialized ∨ r = .userNotLoggedIn) := by
  have hi : Inv (after M C O d tr) := inv_reach M O d tr
  have hkn : KInv (known (hist M C O (St.init d) tr)) (after M C O d tr) := knows_reach hM d tr
  generalize after M C O d tr = s at *
  obtain ⟨sl, x, hg, h1, h2⟩ := getSession_live hi ((onSlot_iff hi).1 hs)
  have hr := (hkn i sl h x h1 h2).idle hk
  have go : ∀ r, x.findObjects max = (.error r, x) →
      step M C O e s (.sess h (.find max)) = (.err r, s) := by
    intro r hr
    unfold step
    simp only [hg, sessStep, hr]
    rw [setSlot_same hi h1 h2]
  unfold Session.findObjects Session.checkLogin at go
  rw [hr] at go
  cases hl : x.login <;> rw [hl] at go <;> simp only at go
  · exact ⟨_, go _ rfl, .inl rfl⟩
  · exact ⟨_, go _ rfl, .inl rfl⟩
  · exact ⟨_, go _ rfl, .inr rfl⟩
  · exact ⟨_, go _ rfl, .inl rfl⟩

theorem getOp_on {x : Session} {k : OpKind} (h : Running x k) (hl : x.login ≠ .notInit) :
    (∃ o, x.getOp k = .ok o) ∨ x.getOp k = .error .userNotLoggedIn := by
  obtain ⟨o, h1, h2⟩ := h
  unfold Session.getOp Session.checkLogin
  cases hlo : x.login <;> simp only
  · exact (hl hlo).elim
  · left; exact ⟨o, by simp [h1, h2]⟩
  · right; trivial
  · left; exact ⟨o, by simp [h1, h2]⟩

theorem runOp_apart (hA : MechsApart M) (e : Env) (k : OpKind) (a : Act) (o : Op) (i : OpIn) :
    Apart (runOp M e k a o i).1 := hA.run e k a o i

theorem lenOp_apart (hA : MechsApart M) (k : OpKind) (a : Act) (o : Op) (n : Nat) :
    Apart (lenOp M k a o n).1 := hA.len k a o n

theorem afterUse_codes (e : Env) (o : Op) (t : Token) : Apart (afterUse C e o t).1 := by
  unfold afterUse
  split
  · exact apart_ok _
  · split
    · apart_s
    · simp only
      split
      · exact apart_ok _
      · apart_s

theorem opRun_codes (hA : MechsApart M) {e : Env} {k : OpKind} {a : Act} {i : OpIn} {x : Session} {t : Token}
    (hm : manyMessages k = false) (hr : Running x k) (hl : x.login ≠ .notInit) :
    (fnOpRun M C e k a i x t).1 ≠ .err .operationNotInitialized := by
  have bad : ∀ {α : Type} {w : Res α} {r : Rv}, Apart w → w = .error r → Out.err r ≠ .err .operationNotInitialized := by
    intro α w r ha hw he
    injection he with he
    exact ha r hw (.inr he)
  have res : ∀ {α : Type} {w : Res α} {r : Rv}, Apart w → w = .error r →
      Out.of (.error r) ≠ .err .operationNotInitialized := fun ha hw => bad ha hw
  rcases getOp_on hr hl with ⟨o, hg⟩ | hg
  · have sign : ∀ a, (fnSign M C e a i x t).1 ≠ .err .operationNotInitialized ∨ k ≠ .sign := by
      intro a
      by_cases hk : k = .sign
      · subst hk
        left
        unfold fnSign
        simp only [hg]
        split
        · rename_i hw; exact bad (lenOp_apart hA _ _ _ _) hw
        split
        · exact nofun
        split
        · exact nofun
        split
        · rename_i hw; exact bad (runOp_apart hA _ _ _ _ _) hw
        split
        · rename_i hw; exact bad (afterUse_codes _ _ _) hw
        · exact nofun
      · exact .inr hk
    have verify : ∀ a, (fnVerify M C e k a i x t).1 ≠ .err .operationNotInitialized := by
      intro a
      unfold fnVerify
      simp only [hg]
      split
      · rename_i hw
        refine bad (w := (if k = .verify then _ else .ok () : Res Unit)) ?_ hw
        split
        · split
          · rename_i hw; exact (lenOp_apart hA _ _ _ _).map hw
          · split <;> apart_s
        · apart_s
      · split
        · rename_i hw; exact bad (runOp_apart hA _ _ _ _ _) hw
        · cases hw : (afterUse C (e.sub 1) (runOp M (e.sub 0) k a o i).2 t).1 with
          | error r => exact res (afterUse_codes _ _ _) hw
          | ok u => exact nofun
    have feed : (Out.of (fnFeed M e k i.data x).1) ≠ .err .operationNotInitialized := by
      unfold fnFeed
      simp only [hg]
      split
      · rename_i hw; exact res (runOp_apart hA _ _ _ _ _) hw
      · exact nofun
    have digest : ∀ a, k = .digest → (fnDigest M e a i x).1 ≠ .err .operationNotInitialized := by
      intro a hk
      subst hk
      unfold fnDigest
      simp only [hg]
      split
      · rename_i hw; exact bad (lenOp_apart hA _ _ _ _) hw
      split
      · exact nofun
      split
      · exact nofun
      cases hw : (runOp M e .digest a o i).1 with
      | error r => exact bad (runOp_apart hA _ _ _ _ _) hw
      | ok b => exact nofun
    have crypt : ∀ a, (fnCrypt M e k a i x).1 ≠ .err .operationNotInitialized := by
      intro a
      unfold fnCrypt
      simp only [hg]
      split
      · cases hw : (lenOp M k a o i.data.length).1 with
        | error r => exact bad (lenOp_apart hA _ _ _ _) hw
        | ok b => exact nofun
      · cases hw : (runOp M e k a o i).1 with
        | error r => exact bad (runOp_apart hA _ _ _ _ _) hw
        | ok b => exact nofun
    unfold fnOpRun
    cases k <;> first | (cases hm; done) | skip
    all_goals cases a <;> simp only
    all_goals first
      | exact crypt _
      | exact digest _ rfl
      | exact feed
      | exact verify _
      | exact (sign _).resolve_right (fun h => h rfl)
      | exact nofun
  · unfold fnOpRun
    cases k <;> first | (cases hm; done) | skip
    all_goals cases a <;> simp only [fnCrypt, fnDigest, fnFeed, fnSign, fnVerify, hg, Out.of]
    all_goals exact nofun

/-- **C22, partial**: while an operation goes on, its calls do not answer CKR_OPERATION_NOT_INITIALIZED, if the
mechanism itself never does (`MechsApart`).  Missing: the AES mechanism does answer it for a C_EncryptFinal or
C_DecryptFinal without an update (`src/ossl/aes.rs:1354-1362`), and the calls of an operation fail with
CKR_USER_NOT_LOGGED_IN when another operation of the session waits for a login (`C22_login_violation`). -/
theorem C22_running_partial (hM : Lawful M) (hA : MechsApart M) (d : List (Nat × Db)) (tr : Trace) (h i : Nat)
    (k : OpKind) (hm : manyMessages k = false) (hs : onSlot M C O (after M C O d tr) h i)
    (hk : known (hist M C O (St.init d) tr) h (.op k) = .yes) (e : Env) (a : Act) (q : OpIn) :
    (step M C O e (after M C O d tr) (.op h (.opRun k a q))).1 ≠ .err .operationNotInitialized := by
  have hi : Inv (after M C O d tr) := inv_reach M O d tr
  have hkn : KInv (known (hist M C O (St.init d) tr)) (after M C O d tr) := knows_reach hM d tr
  generalize after M C O d tr = s at *
  obtain ⟨sl, x, hg, h1, h2⟩ := getSession_live hi ((onSlot_iff hi).1 hs)
  have kx := hkn i sl h x h1 h2
  have hr := kx.yes k hk
  have hl : x.login ≠ .notInit := by
    intro hl
    obtain ⟨o, ho, _⟩ := hr
    rw [(kx.fresh hl).1] at ho; cases ho
  unfold step
  simp only [hg]
  exact opRun_codes hA hm hr hl

/-! ## The hypotheses are met -/

theorem exMechs_lawful : Lawful exMechs where
  ends := by
    intro e k a op i b op' hk ha h
    rcases ha with rfl | rfl <;> cases k <;> first | (cases hk; done) | (injection h with _ h; rw [← h])
  goes := by
    intro e k a op i b op' hk h
    rcases hk with hk | rfl
    · cases k <;> first | (cases hk; done) | skip
      all_goals cases a <;> (injection h with _ h; rw [← h])
    · cases k <;> (injection h with _ h; rw [← h])
  asks := by
    intro k a op n m op' h
    injection h with _ h; rw [← h]

theorem exMechs_apart : MechsApart exMechs where
  new := fun _ _ _ _ _ _ => apart_ok _
  len := fun _ _ _ _ => apart_ok _
  run := by
    intro e k a o i
    cases k <;> cases a <;> exact apart_ok _

/-- A digest and a search are going on in session 1; session 2 has neither. -/
def exC22 : Trace := exStart ++
  [(exEnv 6, .openSession 7 CKF_SERIAL_SESSION),
   (exEnv 7, .op 1 (.opInit .digest (some (CKM_SHA256, [])) 0 [])),
   (exEnv 8, .op 1 (.opRun .digest .update { (default : OpIn) with data := [1] })),
   (exEnv 9, .sess 1 (.findInit []))]

set_option maxRecDepth 10000 in
example : (exOuts exC22).drop 6 = [.handle 2, .ok, .ok, .ok] := by decide +kernel

set_option maxRecDepth 10000 in
example : known (hist exMechs exCrypto exOracle (St.init []) exC22) 1 (.op .digest) = .yes ∧
    known (hist exMechs exCrypto exOracle (St.init []) exC22) 1 .search = .yes ∧
    known (hist exMechs exCrypto exOracle (St.init []) exC22) 1 (.op .sign) = .no ∧
    known (hist exMechs exCrypto exOracle (St.init []) exC22) 2 (.op .digest) = .no ∧
    known (hist exMechs exCrypto exOracle (St.init []) exC22) 2 .search = .no := by decide +kernel

set_option maxRecDepth 10000 in
example : onSlot exMechs exCrypto exOracle (after exMechs exCrypto exOracle [] exC22) 1 7 :=
  ⟨exEnv 0, .rwPublic, 6, by decide +kernel⟩

set_option maxRecDepth 10000 in
example : onSlot exMechs exCrypto exOracle (after exMechs exCrypto exOracle [] exC22) 2 7 :=
  ⟨exEnv 0, .roPublic, 4, by decide +kernel⟩

example (n : Nat) : EnvApart (exEnv n) := by intro p r h; cases h

set_option maxRecDepth 10000 in
/-- The one-shot call ends it, and a new one can start. -/
example : (exOuts (exC22 ++ [(exEnv 10, .op 1 (.opRun .digest .final { (default : OpIn) with out := some 64 })),
    (exEnv 11, .op 1 (.opInit .digest (some (CKM_SHA256, [])) 0 [])),
    (exEnv 12, .op 1 (.cancel CKF_DIGEST)),
    (exEnv 13, .op 1 (.opRun .digest .update { (default : OpIn) with data := [1] }))])).drop 10 =
    [.bytes [1], .ok, .ok, .err .operationNotInitialized] := by decide +kernel

/-! ## What does not hold -/

/-- The slot also offers CKM_ECDSA. -/
def exConfEc : List (Nat × TokCfg) := [(7, ⟨[CKM_SHA256, CKM_AES_ECB, CKM_ECDSA], none, none⟩)]

/-- C_Initialize, C_InitToken, SO login, C_InitPIN, logout, user login, an EC key that wants a PIN for every
signature (object 9). -/
def exAlways : Trace :=
  [(exEnv 0, .initialize exConfEc), (exEnv 1, .initToken 7 exSoPin none),
   (exEnv 2, .openSession 7 (CKF_RW_SESSION ||| CKF_SERIAL_SESSION)),
   (exEnv 3, .login 1 CKU_SO exSoPin), (exEnv 4, .sess 1 (.initPin exPin)), (exEnv 5, .logout 1),
   (exEnv 6, .login 1 CKU_USER exPin),
   (exEnv 7, .sess 1 (.createObject (exEcTemplate [6] ++ [.ofBool CKA_ALWAYS_AUTHENTICATE true])))]

set_option maxRecDepth 10000 in
/-- **Counterexample**: a digest is going on; C_SignInit with a key that wants a PIN for every signature makes
C_DigestUpdate fail with CKR_USER_NOT_LOGGED_IN: the two operations share one login state (`src/session.rs:66-118`). -/
theorem C22_login_violation : ∃ (tr : Trace) (h : Nat) (e : Env) (q : OpIn),
    known (hist exMechs exCrypto exOracle (St.init []) tr) h (.op .digest) = .yes ∧
    (step exMechs exCrypto exOracle e (after exMechs exCrypto exOracle [] tr) (.op h (.opRun .digest .update q))).1 =
      .err .userNotLoggedIn :=
  ⟨exAlways ++ [(exEnv 8, .op 1 (.opInit .digest (some (CKM_SHA256, [])) 0 [])),
      (exEnv 9, .op 1 (.opInit .sign (some (CKM_ECDSA, [])) 9 []))], 1, exEnv 10,
    { (default : OpIn) with data := [1] }, by decide +kernel⟩

set_option maxRecDepth 10000 in
/-- **Counterexample**: C_FindObjectsFinal succeeds although no search was ever started in the session
(`src/fns/objmgmt.rs:563-567`). -/
theorem C22_findFinal_violation : ∃ (tr : Trace) (h : Nat) (e : Env),
    known (hist exMechs exCrypto exOracle (St.init []) tr) h .search = .no ∧
    (step exMechs exCrypto exOracle e (after exMechs exCrypto exOracle [] tr) (.sess h .findFinal)).1 = .ok :=
  ⟨exStart, 1, exEnv 6, by decide +kernel⟩

set_option maxRecDepth 10000 in
/-- **Counterexample**: C_SessionCancel with every flag set except the unsupported ones answers CKR_OK, yet a
C_VerifySignatureInit is still going on afterwards and blocks the next one (`src/fns/sessmgmt.rs:448-505`). -/
theorem C22_cancel_violation : ∃ (tr : Trace) (h : Nat) (e e' : Env) (m : Nat × Bytes) (key : Nat) (sig : Bytes),
    let s := after exMechs exCrypto exOracle [] tr
    let p := step exMechs exCrypto exOracle e s (.op h (.cancel (2 ^ 32 - 1 - CKF_MESSAGE_SIGN - CKF_MESSAGE_VERIFY)))
    p.1 = .ok ∧
    (step exMechs exCrypto exOracle e' p.2 (.op h (.opInit .verifySig (some m) key sig))).1 = .err .operationActive :=
  ⟨exStart ++
    [(exEnv 6, .login 1 CKU_USER exPin),
     (exEnv 7, .sess 1 (.createObject (exAesTemplate ++ [.ofBool CKA_VERIFY true]))),
     (exEnv 9, .op 1 (.opInit .verifySig (some (CKM_AES_ECB, [])) 8 [1]))], 1, exEnv 10, exEnv 11,
    (CKM_AES_ECB, []), 8, [1], by decide +kernel⟩

end Kry
