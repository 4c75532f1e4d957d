import Verif.Proofs.VaultToken

/-! # C_InitToken, C_InitPIN and C_SetPIN on PINs and master key -/

namespace Kry
open Spec

variable {C : Crypto}

/-- The database says that the token is initialised. -/
def Inited (db : Db) : Prop :=
  db.ready = true ∧ ∃ fl, fl < 2 ^ 32 ∧ fl.testBit 10 = true ∧ AMap.get db.metaT .flags = some (toLE 4 fl)

theorem Inited.rest {a b : Token} (h : Inited a.store.db) (r : Rest a b) : Inited b.store.db := by
  obtain ⟨h1, fl, h2, h3, h4⟩ := h
  refine ⟨r.ready.trans h1, fl, h2, h3, ?_⟩
  rw [r.other .flags (fun u => ⟨nofun, nofun, nofun⟩)]
  exact h4

def noPins : Pins := fun _ => none

theorem vault_reset {K : Bytes} {v : Nat} (h : K.length = 32) : DbVault C ⟨true, [], []⟩ K v noPins :=
  ⟨h, List.nodup_nil, fun _ => rfl, fun _ _ => ⟨rfl, rfl⟩, fun _ _ _ h => by cases h⟩

theorem storeTokenInfo_vault {e : Env} {db : Db} {K : Bytes} {v : Nat} {π : Pins} {info : TokInfo}
    (h : DbVault C db K v π) :
    (∃ r, e.fails = some r ∧ db.storeTokenInfo e info = (.error r, db)) ∨
    ∃ db', db.storeTokenInfo e info = (.ok (), db') ∧ DbVault C db' K v π ∧ db'.objs = db.objs ∧
      db'.ready = db.ready ∧ AMap.get db'.metaT .flags = some (toLE 4 (info.flags &&& storedFlags)) := by
  unfold Db.storeTokenInfo
  cases hf : e.fails with
  | some r => exact .inl ⟨r, rfl, rfl⟩
  | none =>
    refine .inr ⟨_, rfl, ⟨h.len, ?_, ?_, ?_, ?_⟩, rfl, rfl, by simp [AMap.get_insert]⟩
    · exact AMap.nodup_insert _ _ (AMap.nodup_insert _ _ (AMap.nodup_insert _ _ (AMap.nodup_insert _ _
        (AMap.nodup_insert _ _ h.nodup))))
    · intro u; simpa [AMap.get_insert] using h.flags u
    · intro u hu; simpa [AMap.get_insert] using h.absent u hu
    · intro u p n hu; simpa [AMap.get_insert] using h.present u p n hu

/-- Only the SO, with this PIN. -/
def onlySo (pin : Bytes) : Pins := setU noPins .so (some (pin, 0))

inductive ReinitOut (C : Crypto) (e : Env) (s : Store) (K : Bytes) : Res TokInfo × Store → Prop where
  | kept (r : Rv) (hp : plain e → ¬ refusedPin r) (hq : ¬ quiet e) : ReinitOut C e s K (.error r, s)
  | wiped (r : Rv) (hp : plain e → ¬ refusedPin r) (s' : Store) (K' : Bytes) (v' : Nat) (π' : Pins)
      (h : DbVault C s'.db K' v' π') (ha : AciOk s'.aci K' v') (hπ : π' = noPins ∨ π' = onlySo [])
      (ho : s'.db.objs = []) : ReinitOut C e s K (.error r, s')
  | done (info : TokInfo) (hi : info.flags.testBit 10 = true) (s' : Store) (K' : Bytes) (v' : Nat)
      (h : DbVault C s'.db K' v' (onlySo [])) (ha : AciOk s'.aci K' v') (hk : s'.aci.key = some K')
      (ho : s'.db.objs = []) (hr : s'.db.ready = true) (hK : K' = (e.sub 1).rnd 32) : ReinitOut C e s K (.ok info, s')

theorem rnd_len (e : Env) (n : Nat) : (e.rnd n).length = n := by
  unfold Env.rnd
  rw [List.length_take, List.length_append, List.length_replicate]
  omega

theorem initPinFlags_err {e : Env} {s : Store} {K : Bytes} {v : Nat} {π : Pins} {r : Rv}
    (hd : DbVault C s.db K v π) (h : s.initPinFlags e = .error r) : plain e → ¬ refusedPin r := by
  intro q
  have f : ∀ i u r, s.db.fetchUser (e.sub i) u = .error r → ¬ refusedPin r := by
    intro i u r hr
    rcases hd.fetch (e.sub i) u with ⟨r', hf, hx⟩ | ⟨hf, hp, hx⟩ | ⟨p, n, b, hf, hp, hn, hw, hx⟩
    · rw [hx] at hr; injection hr with hr; subst hr; exact plain_fails (plain_sub q i) hf
    · rw [hx] at hr; injection hr with hr; subst hr; rintro (h | h | h | h) <;> cases h
    · rw [hx] at hr; cases hr
  unfold Store.initPinFlags at h
  split at h
  · injection h with h; subst h; exact f 0 .so _ (by assumption)
  · simp only at h
    split at h
    · cases h
    · split at h
      · cases h
      · injection h with h; subst h; exact f 1 .user _ (by assumption)

theorem store_reinit {e : Env} {s : Store} {K : Bytes} {v : Nat} {π : Pins}
    (hd : DbVault C s.db K v π) (ha : AciOk s.aci K v) : ReinitOut C e s K (s.reinit C e) := by
  unfold Store.reinit Db.reset
  cases hf0 : (e.sub 0).fails with
  | some r => exact .kept r (fun q => plain_fails (plain_sub q 0) hf0) fun q => (by
      have := quiet_fails (quiet_sub q 0); rw [hf0] at this; cases this)
  | none =>
    simp only
    unfold Aci.reset
    simp only [ha.enc, Bool.not_true, Bool.false_eq_true, if_false]
    cases hf1 : (e.sub 1).fails with
    | some r =>
      simp only
      exact .wiped r (fun q => plain_fails (plain_sub q 1) hf1) _ K (s.aci.keyVersion + 1) noPins (vault_reset hd.len)
        ⟨rfl, fun k hk => ⟨(ha.key k hk).1, rfl⟩⟩ (.inl rfl) rfl
    | none =>
      simp only
      generalize hK : (e.sub 1).rnd 32 = K'
      have lK : K'.length = 32 := by rw [← hK]; exact rnd_len _ _
      have a1 : AciOk ⟨s.aci.keyVersion + 1, some K', true⟩ K' (s.aci.keyVersion + 1) :=
        ⟨rfl, fun k hk => by injection hk with hk; exact ⟨hk.symm, rfl⟩⟩
      have d0 := vault_reset (C := C) (K := K') (v := s.aci.keyVersion + 1) lK
      generalize s.aci.keyVersion + 1 = v' at a1 d0 ⊢
      unfold Store.defaultSoPin Aci.keyToUserData
      simp only [if_true]
      rcases encryptKey_ok (C := C) (e := (e.sub 2).sub 0) (v := v') (K := K') (pin := []) (u := .so) with
        ⟨r, hf, hx⟩ | ⟨b, hf, hx, hw⟩
      · rw [hx]
        exact .wiped r (fun q => plain_fails (plain_sub (plain_sub q 2) 0) hf) _ K' v' noPins d0 a1 (.inl rfl) rfl
      · rw [hx]
        simp only [AuthInfo.default]
        rcases d0.store ((e.sub 2).sub 1) .so (n := 0) (by omega) hw with ⟨r, h1, h2⟩ | ⟨h1, h2, h3, h4, h5⟩
        · rw [h2]
          exact .wiped r (fun q => plain_fails (plain_sub (plain_sub q 2) 1) h1) _ K' v' noPins d0 a1 (.inl rfl) rfl
        · generalize Db.storeUser ((e.sub 2).sub 1) ⟨true, [], []⟩ .so ⟨false, some b, 10, 0⟩ = z at h2 h3 h4 h5 ⊢
          obtain ⟨r, db⟩ := z
          simp only at h2 h3 h4 h5
          subst h2
          have h3 : DbVault C db K' v' (onlySo []) := h3
          simp only
          unfold Store.defaultTokenInfo
          simp only [if_true]
          cases hf3 : ((e.sub 3).sub 0).fails with
          | some r =>
            exact .wiped r (fun q => plain_fails (plain_sub (plain_sub q 3) 0) hf3) _ K' v' _ h3 a1 (.inr rfl) h4
          | none =>
            simp only
            generalize hI : ({ TokInfo.default with serial := hexEncode (((e.sub 3).sub 0).rnd 8), flags := TokInfo.default.flags ||| CKF_TOKEN_INITIALIZED ||| CKF_LOGIN_REQUIRED } : TokInfo) = info
            have bI : info.flags.testBit 10 = true := by
              rw [← hI]; show (TokInfo.default.flags ||| CKF_TOKEN_INITIALIZED ||| CKF_LOGIN_REQUIRED).testBit 10 = true; decide
            rcases storeTokenInfo_vault (e := (e.sub 3).sub 1) (info := info) h3 with ⟨r, hf, hx⟩ | ⟨db', hx, d1, d2, d3, d4⟩
            · rw [hx]
              exact .wiped r (fun q => plain_fails (plain_sub (plain_sub q 3) 1) hf) _ K' v' _ h3 a1 (.inr rfl) h4
            · rw [hx]
              simp only
              cases hp : Store.initPinFlags (e.sub 4) ⟨db', ⟨v', some K', true⟩⟩ with
              | error r =>
                exact .wiped r (fun q => initPinFlags_err (s := ⟨db', ⟨v', some K', true⟩⟩) d1 hp (plain_sub q 4)) _ K' v' _ d1 a1 (.inr rfl)
                  (d2.trans h4)
              | ok f =>
                refine .done _ ?_ _ K' v' d1 a1 rfl (d2.trans h4) (d3.trans h5) hK.symm
                show (info.flags ||| f).testBit 10 = true
                rw [Nat.testBit_or, bI]; rfl

/-! ## The built-in objects -/

theorem builtin_profile (id : Nat) (uid : Bytes) : ∃ F o, getFactory CKO_PROFILE 0 = .ok F ∧
    builtinCreate F CKA_PROFILE_ID id uid = .ok o ∧ o.isToken = false :=
  ⟨_, _, rfl, rfl, rfl⟩

theorem builtin_mechanism (id : Nat) (uid : Bytes) : ∃ F o, getFactory CKO_MECHANISM 0 = .ok F ∧
    builtinCreate F CKA_MECHANISM_TYPE id uid = .ok o ∧ o.isToken = false :=
  ⟨_, _, rfl, rfl, rfl⟩

theorem getStr_err {o : Obj} {t : Nat} {r : Rv} (h : o.getStr t = .error r) : ¬ refusedPin r := by
  unfold Obj.getStr Attr.toStr at h
  rintro (rfl | rfl | rfl | rfl) <;> (repeat' split at h) <;> cases h

theorem insertBuiltin_err {e : Env} {t : Token} {cls ty id : Nat} {r : Rv}
    (hF : ∀ uid, ∃ F o, getFactory cls 0 = .ok F ∧ builtinCreate F ty id uid = .ok o ∧ o.isToken = false)
    (h : (t.insertBuiltin C e cls ty id).1 = .error r) : ¬ refusedPin r := by
  obtain ⟨F, o, h1, h2, h3⟩ := hF (Token.stableUid cls id)
  unfold Token.insertBuiltin at h
  rw [h1] at h
  simp only [h2] at h
  unfold Token.insertObject at h
  simp only [h3, Bool.false_eq_true, if_false] at h
  cases hg : ({ o with handle := t.handles.bump.1, session := 0 } : Obj).getStr CKA_UNIQUE_ID with
  | error r2 => rw [hg] at h; injection h with h; subst h; exact getStr_err hg
  | ok uid =>
    rw [hg] at h
    unfold Handles.insert at h
    simp only at h
    by_cases hi : ((t.handles.bump.2.get t.handles.bump.1).isSome || (t.handles.bump.2.getByUid uid).isSome) = true
    · simp only [if_pos hi] at h
      injection h with h; subst h; rintro (h | h | h | h) <;> cases h
    · simp only [if_neg hi] at h
      cases h

theorem insertBuiltins_err {e : Env} {cls ty : Nat} {l : List Nat} {r : Rv}
    (hF : ∀ id uid, ∃ F o, getFactory cls 0 = .ok F ∧ builtinCreate F ty id uid = .ok o ∧ o.isToken = false)
    {t : Token} {n : Nat} (h : (t.insertBuiltins C e cls ty l n).1 = .error r) : ¬ refusedPin r := by
  induction l generalizing t n with
  | nil => cases h
  | cons id l ih =>
    unfold Token.insertBuiltins at h
    have a := fun r => insertBuiltin_err (C := C) (e := e.sub n) (t := t) (r := r) (hF id)
    generalize t.insertBuiltin C (e.sub n) cls ty id = p at a h
    obtain ⟨r1, t1⟩ := p
    cases r1 with
    | error r1 => injection h with h; subst h; exact a _ rfl
    | ok _ => exact ih h

theorem internalInit_err {e : Env} {t : Token} {r : Rv} (h : (t.internalInit C e).1 = .error r) : ¬ refusedPin r := by
  unfold Token.internalInit at h
  have a := fun r => insertBuiltins_err (C := C) (e := e.sub 0) (t := t) (l := Token.profiles) (n := 0) (r := r) builtin_profile
  generalize t.insertBuiltins C (e.sub 0) CKO_PROFILE CKA_PROFILE_ID Token.profiles 0 = p at a h
  obtain ⟨r1, t1⟩ := p
  cases r1 with
  | error r1 => injection h with h; subst h; exact a _ rfl
  | ok _ => exact insertBuiltins_err builtin_mechanism h

/-! ## C_InitToken -/

/-- Outcomes of `Token::initialize`. -/
inductive InitOut (C : Crypto) (e : Env) (t : Token) (K : Bytes) (v : Nat) (π : Pins) (pin : Bytes) :
    Res Unit × Token → Prop where
  /-- The SO's PIN was refused, or could not be checked. -/
  | refused (r : Rv) (t' : Token) (π' : Pins) (hi : t.isInitialized = true) (h : TVault C t' K v π')
      (hs : samePins π π') (hq : quiet e → (.error r, π') = authP C π .so pin) (rest : Rest t t')
      (hl : t'.logged = t.logged) (hi' : t'.isInitialized = true) : InitOut C e t K v π pin (.error r, t')
  /-- The database could not be reset. -/
  | kept (r : Rv) (t' : Token) (π' : Pins) (hr : t.isInitialized = true → Right C π .so pin)
      (h : TVault C t' K v π') (hs : samePins π π') (rest : Rest t t') (hp : plain e → ¬ refusedPin r)
      (hq : ¬ quiet e) (hl : t'.logged = none) : InitOut C e t K v π pin (.error r, t')
  | wiped (r : Rv) (t' : Token) (K' : Bytes) (v' : Nat) (π' : Pins) (hr : t.isInitialized = true → Right C π .so pin)
      (h : TVault C t' K' v' π') (hπ : π' = noPins ∨ π' = onlySo [] ∨ π' = onlySo pin)
      (ho : t'.store.db.objs = []) (hp : plain e → ¬ refusedPin r) (hl : t'.logged = none) :
      InitOut C e t K v π pin (.error r, t')
  | done (t' : Token) (K' : Bytes) (v' : Nat) (hr : t.isInitialized = true → Right C π .so pin)
      (h : TVault C t' K' v' (onlySo pin)) (ho : t'.store.db.objs = []) (hi : Inited t'.store.db)
      (hf : t'.isInitialized = true) (hl : t'.logged = none) (hK : K' = ((e.sub 1).sub 1).rnd 32) :
      InitOut C e t K v π pin (.ok (), t')

theorem token_initToken {e : Env} {t : Token} {K : Bytes} {v : Nat} {π : Pins} {pin label : Bytes}
    (h : TVault C t K v π) (hpe : plain e) : InitOut C e t K v π pin (t.initToken C e pin label) := by
  unfold Token.initToken
  have pre : (∃ r t1 π1, (if t.isInitialized = true then t.authUser C (e.sub 0) .so pin true else (.ok (), t)) = (.error r, t1) ∧
        t.isInitialized = true ∧ TVault C t1 K v π1 ∧ samePins π π1 ∧ (quiet e → (.error r, π1) = authP C π .so pin) ∧
        Rest t t1 ∧ t1.logged = t.logged ∧ t1.isInitialized = true) ∨
      ∃ t1 π1, (if t.isInitialized = true then t.authUser C (e.sub 0) .so pin true else (.ok (), t)) = (.ok (), t1) ∧
        TVault C t1 K v π1 ∧ samePins π π1 ∧ Rest t t1 ∧ (t.isInitialized = true → Right C π .so pin) := by
    by_cases hi : t.isInitialized = true
    · simp only [if_pos hi]
      have a := token_authUser (e := e.sub 0) (u := .so) (pin := pin) (co := true) h
      have b := authUser_check_logged (C := C) (e.sub 0) t .so pin
      have b2 := (authUser_sameI (C := C) (e.sub 0) t .so pin true).init
      generalize t.authUser C (e.sub 0) .so pin true = p at a b b2 ⊢
      obtain ⟨r, t1⟩ := p
      obtain ⟨⟨⟨π1, h1, h2, h3⟩, h4⟩, h5, h6⟩ := a
      cases r with
      | error r => exact .inl ⟨r, t1, π1, rfl, hi, h1, h2, fun q => h3 (quiet_sub q 0), h4, b, b2.trans hi⟩
      | ok _ => exact .inr ⟨t1, π1, rfl, h1, h2, h4, fun _ => h5 rfl⟩
    · simp only [if_neg hi]
      exact .inr ⟨t, π, rfl, h, .refl _, .refl _, fun h => absurd h hi⟩
  rcases pre with ⟨r, t1, π1, e1, hi, h1, h2, h3, h4, h5, h6⟩ | ⟨t1, π1, e1, h1, h2, h3, hr⟩
  · rw [e1]
    exact .refused r t1 π1 hi h1 h2 h3 h4 h5 h6
  · rw [e1]
    simp only
    have a := store_reinit (e := e.sub 1) h1.db h1.aci
    generalize t1.store.reinit C (e.sub 1) = p at a ⊢
    cases a with
    | kept r hp hq =>
      exact .kept r _ π1 hr ⟨h1.db, h1.aci, fun u hu => (by cases hu)⟩ h2 ⟨h3.objs, h3.ready, h3.other⟩
        (fun q => hp (plain_sub q 1)) (fun q => hq (quiet_sub q 1)) rfl
    | wiped r hp s' K' v' π' hd ha hπ ho =>
      exact .wiped r _ K' v' π' hr ⟨hd, ha, fun u hu => (by cases hu)⟩ (hπ.elim .inl fun x => .inr (.inl x)) ho
        (fun q => hp (plain_sub q 1)) rfl
    | done info hi s' K' v' hd ha hk ho hrd hK =>
      simp only
      unfold Token.setPin
      simp only [ne_eq, not_true, if_false]
      have hd' : ∀ db : Db, db.metaT = s'.db.metaT → DbVault C db K' v' (onlySo []) := fun _ => hd.congr
      rcases store_setUserPin (e := (e.sub 2).sub 1) (u := .so) (pin := pin) hd ha hk with
        ⟨r, hx, hq, hpl⟩ | ⟨db, hx, d1, d2, d3, d4⟩
      · simp only [hx]
        by_cases hne : r = .userTypeInvalid
        · exact absurd hne (hpl (plain_sub (plain_sub hpe 2) 1)).2
        · simp only [if_neg hne]
          exact .wiped r _ K' v' _ hr ⟨hd, ha, fun u hu => (by cases hu)⟩ (.inr (.inl rfl)) ho
            (fun q => (hpl (plain_sub (plain_sub q 2) 1)).1) rfl
      · simp only [hx]
        have hon : setU (onlySo []) .so (some (pin, 0)) = onlySo pin := by
          funext w; cases w <;> rfl
        rw [hon] at d1
        have d5 : db.objs = [] := d2.trans ho
        rcases storeTokenInfo_vault (e := e.sub 3) (info := { info with label := copySized label info.label }) d1 with
          ⟨r, hf, hy⟩ | ⟨db', hy, f1, f2, f3, f4⟩
        · simp only [hy]
          exact .wiped r _ K' v' _ hr ⟨d1, ha, fun u hu => (by cases hu)⟩ (.inr (.inr rfl)) d5
            (fun q => plain_fails (plain_sub q 3) hf) rfl
        · simp only [hy, Token.fillInfo, Store.unauthUser]
          have f5 : db'.objs = [] := f2.trans d5
          rcases f1.fetch (e.sub 4) .so with ⟨r, hf, hz⟩ | ⟨hf, hp, hz⟩ | ⟨p, n, b, hf, hp, hn, hw, hz⟩
          · simp only [hz]
            exact .wiped r _ K' v' _ hr ⟨f1, ha, fun u hu => (by cases hu)⟩ (.inr (.inr rfl)) f5
              (fun q => plain_fails (plain_sub q 4) hf) rfl
          · cases hp
          · simp only [hz]
            generalize hT : (Token.mk _ _ _ _ _ _) = T
            have tl : T.logged = none := by rw [← hT]
            have tv : TVault C T K' v' (onlySo pin) := by
              rw [← hT]
              exact ⟨f1, ⟨ha.enc, fun k hk => by cases hk⟩, fun u hu => by cases hu⟩
            have to : T.store.db = db' := by rw [← hT]
            have ti : T.isInitialized = true := by
              rw [isInitialized_eq, ← hT]
              show (info.flags ||| CKF_RNG).testBit 10 = true
              rw [Nat.testBit_or, hi]; rfl
            have b1 := internal_store (C := C) (e.sub 5) T tl
            have b2 := internalInit_same (C := C) (e.sub 5) T
            have b3 := fun r => internalInit_err (C := C) (e := e.sub 5) (t := T) (r := r)
            clear hT
            generalize T.internalInit C (e.sub 5) = z at b1 b2 b3 ⊢
            obtain ⟨r, T'⟩ := z
            simp only at b1 b2 b3
            have tv' : TVault C T' K' v' (onlySo pin) :=
              ⟨b1 ▸ tv.db, b1 ▸ tv.aci, fun u hu => by rw [b2.logged, tl] at hu; cases hu⟩
            have to' : T'.store.db = db' := by rw [b1, to]
            cases r with
            | error r =>
              exact .wiped r _ K' v' _ hr tv' (.inr (.inr rfl)) (by rw [to']; exact f5) (fun _ => b3 _ rfl) (b2.logged.trans tl)
            | ok _ =>
              refine .done _ K' v' hr tv' (by rw [to']; exact f5) ?_ (b2.init.trans ti) (b2.logged.trans tl) hK
              rw [to']
              refine ⟨f3.trans (d3.trans hrd), info.flags &&& storedFlags, ?_, ?_, f4⟩
              · exact Nat.lt_of_le_of_lt Nat.and_le_right (by decide)
              · rw [Nat.testBit_and, hi]; decide

end Kry
