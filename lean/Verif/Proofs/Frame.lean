import Verif.Proofs.Acts

/-!
# What calls on a session leave alone

Login status, initialisation flag and configuration of the token; slot, state and flags of the session.
-/

namespace Kry

theorem initBit (n : Nat) : (n &&& CKF_TOKEN_INITIALIZED == CKF_TOKEN_INITIALIZED) = n.testBit 10 := by
  have h : n &&& CKF_TOKEN_INITIALIZED = if n.testBit 10 then CKF_TOKEN_INITIALIZED else 0 := by
    apply Nat.eq_of_testBit_eq
    intro i
    have e : CKF_TOKEN_INITIALIZED = 2 ^ 10 := rfl
    rw [Nat.testBit_and, e, Nat.testBit_two_pow]
    by_cases hi : 10 = i
    · subst hi
      cases n.testBit 10 <;> decide
    · have : (2 ^ 10).testBit i = false := by rw [Nat.testBit_two_pow]; simp [hi]
      cases n.testBit 10 <;> simp [hi, this]
  rw [h]
  cases n.testBit 10 <;> rfl

theorem isInitialized_eq (t : Token) : t.isInitialized = t.info.flags.testBit 10 := initBit _

theorem clearFlags_bit (f m i : Nat) (h : m.testBit i = false) : (clearFlags f m).testBit i = f.testBit i := by
  unfold clearFlags
  simp [Nat.testBit_xor, Nat.testBit_and, h]

theorem pinFlags_bit (u : User) : (Token.pinFlags u).testBit 10 = false := by cases u <;> decide

theorem userFlags_bit (u : User) (a : AuthInfo) : (userFlags u a 0).testBit 10 = false := by
  unfold userFlags
  cases u <;> simp only
  all_goals
    repeat' split
    all_goals first | decide | rfl

theorem authUser_flag_bit (C : Crypto) (e : Env) (s : Store) (u : User) (pin : Bytes) (co : Bool) :
    (s.authUser C e u pin co).2.1.testBit 10 = false := by
  unfold Store.authUser
  split
  · exact Nat.zero_testBit 10
  · rename_i info _
    generalize s.aci.authenticate C (e.sub 1) u info pin (!co) = p
    obtain ⟨r, a, i⟩ := p
    cases r with
    | error r => exact Nat.zero_testBit 10
    | ok upd =>
      simp only
      split
      · exact Nat.zero_testBit 10
      · split <;> exact userFlags_bit u i

/-- The part of a token that calls on sessions leave alone. -/
structure Same (a b : Token) : Prop where
  logged : b.logged = a.logged
  init : b.isInitialized = a.isInitialized
  cfg : b.cfg = a.cfg

theorem Same.refl (t : Token) : Same t t := ⟨rfl, rfl, rfl⟩

theorem Same.trans {a b c : Token} (x : Same a b) (y : Same b c) : Same a c :=
  ⟨y.logged.trans x.logged, y.init.trans x.init, y.cfg.trans x.cfg⟩

/-- Initialisation flag and configuration only. -/
structure SameI (a b : Token) : Prop where
  init : b.isInitialized = a.isInitialized
  cfg : b.cfg = a.cfg

theorem SameI.refl (t : Token) : SameI t t := ⟨rfl, rfl⟩

theorem SameI.trans {a b c : Token} (x : SameI a b) (y : SameI b c) : SameI a c :=
  ⟨y.init.trans x.init, y.cfg.trans x.cfg⟩

variable {C : Crypto}

theorem authUser_sameI (e : Env) (t : Token) (u : User) (pin : Bytes) (co : Bool) :
    SameI t (t.authUser C e u pin co).2 := by
  unfold Token.authUser
  have hf := authUser_flag_bit C e t.store u pin co
  generalize t.store.authUser C e u pin co = p at hf ⊢
  obtain ⟨r, f, st⟩ := p
  simp only at hf
  have hi : ({ t with store := st }.updateAuthFlags u f).isInitialized = t.isInitialized := by
    rw [isInitialized_eq, isInitialized_eq]
    show (clearFlags t.info.flags (Token.pinFlags u) ||| f).testBit 10 = _
    rw [Nat.testBit_or, hf, clearFlags_bit _ _ _ (pinFlags_bit u)]
    simp
  simp only
  cases r with
  | error r => exact ⟨hi, rfl⟩
  | ok _ => cases co <;> exact ⟨hi, rfl⟩

theorem authUser_logged (e : Env) (t : Token) (u : User) (pin : Bytes) (co : Bool) :
    (t.authUser C e u pin co).2.logged = t.logged ∨
      (co = false ∧ (t.authUser C e u pin co).1 = .ok () ∧ (t.authUser C e u pin co).2.logged = some u) := by
  unfold Token.authUser
  generalize t.store.authUser C e u pin co = p
  obtain ⟨r, f, st⟩ := p
  simp only
  cases r with
  | error r => exact .inl rfl
  | ok _ => cases co
            · exact .inr ⟨rfl, rfl, rfl⟩
            · exact .inl rfl

theorem authUser_check_logged (e : Env) (t : Token) (u : User) (pin : Bytes) :
    (t.authUser C e u pin true).2.logged = t.logged := by
  rcases authUser_logged (C := C) e t u pin true with h | h
  · exact h
  · cases h.1

theorem logout_sameI (e : Env) (t : Token) : SameI t (t.logout e).2 := by
  unfold Token.logout
  split
  · exact .refl t
  · simp only
    split <;> exact ⟨rfl, rfl⟩

theorem logout_logged (e : Env) (t : Token) : (t.logout e).2.logged = none := by
  unfold Token.logout
  split
  · assumption
  · simp only
    split <;> rfl

theorem login_sameI (e : Env) (t : Token) (ut : Nat) (pin : Bytes) : SameI t (t.login C e ut pin).2 := by
  unfold Token.login
  repeat' split
  all_goals first | exact .refl t | exact authUser_sameI _ _ _ _ _

theorem setPin_same (e : Env) (t : Token) (who : Option User) (pin old : Bytes) :
    Same t (t.setPin C e who pin old).2 := by
  have fin : ∀ (p : Res Unit × Token) (u : User), Same t p.2 → Same t (match p with
      | (r, t) => match r with
        | .error r => ((.error r : Res Unit), t)
        | .ok () =>
          let (r, st) := t.store.setUserPin C (e.sub 1) u pin
          let t := { t with store := st }
          match r with
          | .error r => (.error r, t)
          | .ok () =>
            (.ok (), match u with
              | .user => { t with info := { t.info with flags := t.info.flags ||| CKF_USER_PIN_INITIALIZED } }
              | .so => t)).2 := by
    intro p u h
    obtain ⟨r, t1⟩ := p
    cases r with
    | error r => exact h
    | ok _ =>
      simp only
      generalize t1.store.setUserPin C (e.sub 1) u pin = q
      obtain ⟨r, st⟩ := q
      cases r with
      | error r => exact ⟨h.logged, h.init, h.cfg⟩
      | ok _ =>
        cases u
        · exact ⟨h.logged, h.init, h.cfg⟩
        · refine ⟨h.logged, ?_, h.cfg⟩
          rw [← h.init, isInitialized_eq, isInitialized_eq]
          show (t1.info.flags ||| CKF_USER_PIN_INITIALIZED).testBit 10 = _
          rw [Nat.testBit_or]
          have : CKF_USER_PIN_INITIALIZED.testBit 10 = false := by decide
          simp [this]
  have go : ∀ u : User, Same t (if old ≠ [] then t.authUser C (e.sub 0) u old true else (.ok (), t)).2 := by
    intro u
    split
    · exact ⟨authUser_check_logged _ _ _ _, (authUser_sameI _ _ _ _ _).init, (authUser_sameI _ _ _ _ _).cfg⟩
    · exact .refl t
  unfold Token.setPin
  cases who with
  | some u => exact fin _ u (go u)
  | none =>
    cases hl : t.logged with
    | none =>
      simp only
      split <;> exact .refl t
    | some u => exact fin _ u (go u)

theorem fnSetPin_same (e : Env) (s : Session) (t : Token) (old new : Bytes) :
    Same t (fnSetPin C e s t old new).2 := by
  unfold fnSetPin
  split
  · exact .refl t
  split
  · exact .refl t
  split
  · exact .refl t
  split
  · exact setPin_same _ _ _ _ _
  · rename_i hl
    have hn : t.logged = none := by
      unfold Token.loggedIn at hl
      cases h : t.logged with
      | none => rfl
      | some u => rw [h] at hl; exact absurd rfl hl
    have a := login_sameI (C := C) (e.sub 0) t CKU_USER old
    have b : (t.login C (e.sub 0) CKU_USER old).2.logged = none ∨
        (t.login C (e.sub 0) CKU_USER old).1 = .ok () := by
      have e1 : t.login C (e.sub 0) CKU_USER old = t.authUser C (e.sub 0) .user old false := by
        unfold Token.login
        have : Token.userOf CKU_USER = some .user := by decide
        rw [this]
        simp [hn]
      rw [e1]
      rcases authUser_logged (C := C) (e.sub 0) t .user old false with h | h
      · left; rw [h, hn]
      · right; exact h.2.1
    generalize t.login C (e.sub 0) CKU_USER old = p at a b ⊢
    obtain ⟨r, t1⟩ := p
    cases r with
    | error r =>
      refine ⟨?_, a.init, a.cfg⟩
      rcases b with b | b
      · simp only at b ⊢; rw [b, hn]
      · cases b
    | ok _ =>
      simp only at a ⊢
      have c := setPin_same (C := C) (e.sub 1) t1 none new old
      generalize t1.setPin C (e.sub 1) none new old = q at c ⊢
      obtain ⟨r, t2⟩ := q
      have d := logout_sameI (e.sub 2) t2
      have l := logout_logged (e.sub 2) t2
      generalize t2.logout (e.sub 2) = w at d l ⊢
      obtain ⟨r', t3⟩ := w
      simp only at c d l ⊢
      exact ⟨by rw [l, hn], d.init.trans (c.init.trans a.init), d.cfg.trans (c.cfg.trans a.cfg)⟩

theorem insertObject_same (e : Env) (t : Token) (s : Nat) (o : Obj) :
    Same t (t.insertObject C e s o).2 := by
  unfold Token.insertObject
  repeat' split
  all_goals first | exact .refl t | exact ⟨rfl, rfl, rfl⟩ | skip
  all_goals
    simp only
    repeat' split
    all_goals exact ⟨rfl, rfl, rfl⟩

theorem act_same {h : Nat} {D : Nat → Prop} {N : Obj → Prop} {a b : Token} (x : TAct C Z h D N a b) : Same a b := by
  cases x with
  | insert e o h0 hs => exact insertObject_same e a h o
  | destroy e n =>
    unfold Token.destroyObject
    repeat' split
    all_goals first | exact .refl _ | exact ⟨rfl, rfl, rfl⟩
  | setAttrs e n tm =>
    unfold Token.setObjectAttrs
    repeat' split
    all_goals first | exact .refl _ | exact ⟨rfl, rfl, rfl⟩
  | search e tm => exact ⟨rfl, rfl, rfl⟩
  | update e n tm hl => exact ⟨rfl, rfl, rfl⟩
  | initPin e pin =>
    unfold fnInitPin
    split
    · exact .refl _
    · exact setPin_same _ _ _ _ _
  | changePin e s old new => exact fnSetPin_same _ _ _ _ _

theorem acts_same {h : Nat} {D : Nat → Prop} {N : Obj → Prop} {a b : Token} (x : TActs C Z h D N a b) : Same a b :=
  TActs.rel Same.refl (fun _ _ _ => Same.trans) (fun _ _ => act_same) x

/-! ## The session -/

/-- The part of a session that calls on it leave alone. -/
structure SameS (a b : Session) : Prop where
  slot : b.slot = a.slot
  state : b.state = a.state
  flags : b.flags = a.flags

theorem SameS.refl (s : Session) : SameS s s := ⟨rfl, rfl, rfl⟩

theorem sessStep_sameS (O : Oracle) (e : Env) (h : Nat) (c : SCall) (s : Session) (t : Token) :
    SameS s (sessStep C O e h c s t).2.1 := by
  cases c <;> simp only [sessStep, Session.newSearch, Session.findObjects]
  all_goals first
    | exact .refl s
    | exact ⟨rfl, rfl, rfl⟩
    | (repeat' split
       all_goals first | exact .refl s | exact ⟨rfl, rfl, rfl⟩ | skip
       all_goals
         simp only
         repeat' split
         all_goals first | exact .refl s | exact ⟨rfl, rfl, rfl⟩)

/-- Split everything; the session part is untouched at each leaf. -/
macro "same_s" : tactic => `(tactic| (
  repeat' split
  all_goals first | exact SameS.refl _ | exact ⟨rfl, rfl, rfl⟩ | skip
  all_goals
    simp only
    repeat' split
    all_goals first | exact SameS.refl _ | exact ⟨rfl, rfl, rfl⟩))

theorem SameS.trans {a b c : Session} (x : SameS a b) (y : SameS b c) : SameS a c :=
  ⟨y.slot.trans x.slot, y.state.trans x.state, y.flags.trans x.flags⟩

variable (M : Mechs)

theorem fnInitKey_sameS (e : Env) (k : OpKind) (m : Nat) (param : Bytes) (key : Nat) (sig : Bytes)
    (s : Session) (t : Token) : SameS s (fnInitKey M C e k m param key sig s t).2 := by
  unfold fnInitKey; same_s

theorem fnInitDigest_sameS (e : Env) (m : Nat) (param : Bytes) (s : Session) (t : Token) :
    SameS s (fnInitDigest M e m param s t).2 := by
  unfold fnInitDigest; same_s

theorem fnSign_sameS (e : Env) (a : Act) (i : OpIn) (s : Session) (t : Token) :
    SameS s (fnSign M C e a i s t).2.1 := by
  unfold fnSign; same_s

theorem fnVerify_sameS (e : Env) (k : OpKind) (a : Act) (i : OpIn) (s : Session) (t : Token) :
    SameS s (fnVerify M C e k a i s t).2.1 := by
  unfold fnVerify; same_s

theorem fnFeed_sameS (e : Env) (k : OpKind) (d : Bytes) (s : Session) :
    SameS s (fnFeed M e k d s).2 := by
  unfold fnFeed; same_s

theorem fnDigest_sameS (e : Env) (a : Act) (i : OpIn) (s : Session) :
    SameS s (fnDigest M e a i s).2 := by
  unfold fnDigest; same_s

theorem fnCrypt_sameS (e : Env) (k : OpKind) (a : Act) (i : OpIn) (s : Session) :
    SameS s (fnCrypt M e k a i s).2 := by
  unfold fnCrypt; same_s

theorem fnMessage_sameS (e : Env) (k : OpKind) (a : Act) (i : OpIn) (s : Session) (t : Token) :
    SameS s (fnMessage M e k a i s t).2 := by
  unfold fnMessage; same_s

theorem fnDigestKey_sameS (e : Env) (key : Nat) (s : Session) (t : Token) :
    SameS s (fnDigestKey M C e key s t).2 := by
  unfold fnDigestKey
  repeat' split
  all_goals first | exact SameS.refl _ | exact fnFeed_sameS M _ _ _ _

theorem fnDual_sameS (e : Env) (k1 k2 : OpKind) (i : OpIn) (s : Session) :
    SameS s (fnDual M e k1 k2 i s).2 := by
  unfold fnDual
  split
  · exact .refl s
  · have a := fnCrypt_sameS M (e.sub 0) k1 .update i s
    generalize fnCrypt M (e.sub 0) k1 .update i s = p at a ⊢
    obtain ⟨r, s1⟩ := p
    simp only at a ⊢
    split
    · rename_i b
      have c := fnFeed_sameS M (e.sub 1) k2 (if k1 = .enc then i.data else b) s1
      generalize fnFeed M (e.sub 1) k2 (if k1 = .enc then i.data else b) s1 = q at c ⊢
      obtain ⟨r, s2⟩ := q
      cases r <;> exact a.trans c
    · exact a

theorem fnCancel_sameS (f : Nat) (s : Session) : SameS s (fnCancel f s).2 := by
  have c : ∀ (p : Prop) [Decidable p] (k : OpKind) (x : Session), SameS s x →
      SameS s (if p then x.cancelOp k else x) := by
    intro p _ k x hx; split <;> exact ⟨hx.slot, hx.state, hx.flags⟩
  have d : ∀ (p : Prop) [Decidable p] (x : Session), SameS s x →
      SameS s (if p then { x with search := none } else x) := by
    intro p _ x hx; split <;> exact ⟨hx.slot, hx.state, hx.flags⟩
  unfold fnCancel
  have h8 : SameS s (s.cancelAll f) :=
    c _ _ _ (c _ _ _ (c _ _ _ (c _ _ _ (c _ _ _ (d _ _ (c _ _ _ (c _ _ _ (.refl s))))))))
  split <;> exact h8

theorem opStep_sameS (e : Env) (h : Nat) (c : OCall) (s : Session) (t : Token) :
    SameS s (opStep M C e h c s t).2.1 := by
  cases c with
  | opInit k mech key sig =>
    cases mech with
    | none => exact ⟨rfl, rfl, rfl⟩
    | some p =>
      obtain ⟨m, param⟩ := p
      simp only [opStep]
      split
      · exact fnInitDigest_sameS M _ _ _ _ _
      · exact fnInitKey_sameS M _ _ _ _ _ _ _ _
  | opRun k a i =>
    cases k <;> cases a <;> first
      | exact .refl s
      | exact fnMessage_sameS M _ _ _ _ _ _
      | exact fnCrypt_sameS M _ _ _ _ _
      | exact fnDigest_sameS M _ _ _ _
      | exact fnFeed_sameS M _ _ _ _
      | exact fnSign_sameS M _ _ _ _ _
      | exact fnVerify_sameS M _ _ _ _ _ _
  | digestKey key => exact fnDigestKey_sameS M _ _ _ _
  | digestEncrypt i => exact fnDual_sameS M _ _ _ _ _
  | decryptDigest i => exact fnDual_sameS M _ _ _ _ _
  | signEncrypt i => exact fnDual_sameS M _ _ _ _ _
  | decryptVerify i => exact fnDual_sameS M _ _ _ _ _
  | cancel f => exact fnCancel_sameS _ _
  | generatePair m p pub priv => simp only [opStep]; split <;> exact .refl s
  | derive m p key tm => simp only [opStep]; split <;> exact .refl s
  | _ => exact .refl s

end Kry
