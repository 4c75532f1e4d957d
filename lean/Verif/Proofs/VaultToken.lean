import Verif.Proofs.Vault

/-! # What token functions do to PINs and master key -/

namespace Kry
open Spec

variable {C : Crypto}

/-- A PIN opens the record of a user. -/
def Right (C : Crypto) (π : Pins) (u : User) (pin : Bytes) : Prop :=
  ∃ p n, π u = some (p, n) ∧ C.pinKey pin = C.pinKey p

theorem samePins.ne {π π' : Pins} (h : samePins π π') {u : User} (hu : π u ≠ none) : π' u ≠ none := by
  intro e
  have := h u
  rw [e] at this
  cases hp : π u with
  | none => exact hu hp
  | some x => rw [hp] at this; cases this

theorem Right.same {π π' : Pins} {u : User} {pin : Bytes} (h : Right C π' u pin) (s : samePins π π') :
    Right C π u pin := by
  obtain ⟨p, n, h1, h2⟩ := h
  have := s u
  rw [h1] at this
  cases hp : π u with
  | none => rw [hp] at this; cases this
  | some x =>
    rw [hp] at this
    injection this with this
    exact ⟨x.1, x.2, hp, h2.trans (congrArg _ this)⟩

/-- The rest of the database is as before. -/
structure Rest (a b : Token) : Prop where
  objs : b.store.db.objs = a.store.db.objs
  ready : b.store.db.ready = a.store.db.ready
  other : ∀ k, (∀ u, k ≠ .userFlags u ∧ k ≠ .userCounter u ∧ k ≠ .userData u) →
    AMap.get b.store.db.metaT k = AMap.get a.store.db.metaT k

theorem Rest.refl (a : Token) : Rest a a := ⟨rfl, rfl, fun _ _ => rfl⟩
theorem Rest.trans {a b c : Token} (x : Rest a b) (y : Rest b c) : Rest a c :=
  ⟨y.objs.trans x.objs, y.ready.trans x.ready, fun k h => (y.other k h).trans (x.other k h)⟩

theorem storeUser_other (e : Env) (db : Db) (u : User) (a : AuthInfo) (k : MetaKey)
    (h : ∀ u, k ≠ .userFlags u ∧ k ≠ .userCounter u ∧ k ≠ .userData u) :
    AMap.get (db.storeUser e u a).2.metaT k = AMap.get db.metaT k := by
  obtain ⟨h1, h2, h3⟩ := h u
  unfold Db.storeUser
  split
  · rfl
  · split
    · rfl
    · simp only
      cases a.userData <;> cases a.defaultPin <;>
        simp [AMap.get_insert, h1.symm, h2.symm, h3.symm]

theorem authUser_other (e : Env) (s : Store) (u : User) (pin : Bytes) (co : Bool) (k : MetaKey)
    (h : ∀ u, k ≠ .userFlags u ∧ k ≠ .userCounter u ∧ k ≠ .userData u) :
    AMap.get (s.authUser C e u pin co).2.2.db.metaT k = AMap.get s.db.metaT k := by
  unfold Store.authUser
  split
  · rfl
  · simp only
    split
    · rfl
    · rename_i upd _
      have : AMap.get (if upd = true then { db := (s.db.storeUser (e.sub 2) u (s.aci.authenticate C (e.sub 1) u ‹_› pin !co).2.2).2, aci := (s.aci.authenticate C (e.sub 1) u ‹_› pin !co).2.1 } else ({ db := s.db, aci := (s.aci.authenticate C (e.sub 1) u ‹_› pin !co).2.1 } : Store)).db.metaT k = AMap.get s.db.metaT k := by
        split
        · exact storeUser_other _ _ _ _ _ h
        · rfl
      repeat' split
      all_goals first | exact this | exact storeUser_other _ _ _ _ _ h | rfl

/-- Outcome of a function of the token that may count attempts but changes no PIN. -/
structure TOut (C : Crypto) (e : Env) (t : Token) (K : Bytes) (v : Nat) (π : Pins) (x : Res Unit × Pins)
    (y : Res Unit × Token) : Prop where
  vault : ∃ π', TVault C y.2 K v π' ∧ samePins π π' ∧ (quiet e → (y.1, π') = x)
  rest : Rest t y.2

theorem token_authUser {e : Env} {t : Token} {K : Bytes} {v : Nat} {π : Pins} {u : User} {pin : Bytes} {co : Bool}
    (h : TVault C t K v π) :
    TOut C e t K v π (authP C π u pin) (t.authUser C e u pin co) ∧
    ((t.authUser C e u pin co).1 = .ok () → Right C π u pin) ∧
    (co = true → (t.authUser C e u pin co).2.store.aci = t.store.aci) := by
  have a := store_authUser (e := e) (u := u) (pin := pin) (co := co) h.db h.aci
  have b := fun k hk => authUser_other (C := C) e t.store u pin co k hk
  unfold Token.authUser
  generalize t.store.authUser C e u pin co = p at a b ⊢
  obtain ⟨r, f, st⟩ := p
  obtain ⟨⟨π', h1, h2, h3⟩, h4, h5, h6, h7, h8⟩ := a
  simp only at h1 h2 h3 h4 h5 h6 h7 h8 b ⊢
  cases r with
  | error r =>
    refine ⟨⟨⟨π', ⟨h1, h4, fun w hw => ⟨h2.ne (h.logged w hw).1, ?_⟩⟩, h2, h3⟩, ⟨h7, h8, b⟩⟩, fun h => (by cases h), fun hc => ?_⟩
    · show st.aci.key = some K
      rw [h6 (.inr (by intro h; cases h))]; exact (h.logged w hw).2
    · exact h6 (.inl hc)
  | ok _ =>
    obtain ⟨p, n, hp, hk, hK⟩ := h5 rfl
    cases co with
    | true =>
      refine ⟨⟨⟨π', ⟨h1, h4, fun w hw => ⟨h2.ne (h.logged w hw).1, ?_⟩⟩, h2, h3⟩, ⟨h7, h8, b⟩⟩, fun _ => ⟨p, n, hp, hk⟩, fun hc => ?_⟩
      · show st.aci.key = some K
        rw [h6 (.inl rfl)]; exact (h.logged w hw).2
      · exact h6 (.inl rfl)
    | false =>
      refine ⟨⟨⟨π', ⟨h1, h4, fun w hw => ?_⟩, h2, h3⟩, ⟨h7, h8, b⟩⟩, fun _ => ⟨p, n, hp, hk⟩, fun hc => (by cases hc)⟩
      injection hw with hw
      subst hw
      exact ⟨h2.ne (by rw [hp]; simp), hK rfl⟩

/-- What an undisturbed C_Login does to the PIN records. -/
def loginP (C : Crypto) (lg : Option User) (ut : Nat) (π : Pins) (pin : Bytes) : Res Unit × Pins :=
  match Token.userOf ut with
  | some u =>
    if lg = some u then (.error .userAlreadyLoggedIn, π)
    else if lg ≠ none then (.error .userAnotherAlreadyLoggedIn, π)
    else authP C π u pin
  | none =>
    if ut = CKU_CONTEXT_SPECIFIC then
      match lg with
      | none => (.error .userTypeInvalid, π)
      | some u => authP C π u pin
    else (.error .userTypeInvalid, π)

/-- The user an attempt is made for. -/
def target (lg : Option User) (ut : Nat) : Option User :=
  match Token.userOf ut with
  | some u => if lg = none then some u else none
  | none => if ut = CKU_CONTEXT_SPECIFIC then lg else none

theorem tout_refl {e : Env} {t : Token} {K : Bytes} {v : Nat} {π : Pins} {r : Rv} (h : TVault C t K v π) :
    TOut C e t K v π (.error r, π) (.error r, t) := ⟨⟨π, h, .refl _, fun _ => rfl⟩, .refl _⟩

theorem token_login {e : Env} {t : Token} {K : Bytes} {v : Nat} {π : Pins} {ut : Nat} {pin : Bytes}
    (h : TVault C t K v π) :
    TOut C e t K v π (loginP C t.logged ut π pin) (t.login C e ut pin) ∧
    ((t.login C e ut pin).1 = .ok () → ∃ u, target t.logged ut = some u ∧ Right C π u pin) := by
  unfold Token.login loginP target
  cases Token.userOf ut with
  | some u =>
    simp only
    by_cases h1 : t.logged = some u
    · simp only [if_pos h1]
      exact ⟨tout_refl h, fun h => (by cases h)⟩
    · by_cases h2 : t.logged = none
      · simp only [h2, ne_eq, not_true, if_false, reduceCtorEq, if_true]
        have a := token_authUser (e := e) (u := u) (pin := pin) (co := false) h
        exact ⟨a.1, fun hok => ⟨u, rfl, a.2.1 hok⟩⟩
      · simp only [if_neg h1, ne_eq, h2, not_false_eq_true, if_true]
        exact ⟨tout_refl h, fun h => (by cases h)⟩
  | none =>
    simp only
    split
    · cases hl : t.logged with
      | none => exact ⟨tout_refl h, fun h => (by cases h)⟩
      | some u =>
        have a := token_authUser (e := e) (u := u) (pin := pin) (co := true) h
        exact ⟨a.1, fun hok => ⟨u, rfl, a.2.1 hok⟩⟩
    · exact ⟨tout_refl h, fun h => (by cases h)⟩

theorem token_logout {e : Env} {t : Token} {K : Bytes} {v : Nat} {π : Pins} (h : TVault C t K v π) :
    TVault C (t.logout e).2 K v π ∧ Rest t (t.logout e).2 ∧
    (quiet e → t.logged ≠ none → (t.logout e).1 = .ok ()) := by
  unfold Token.logout
  cases hl : t.logged with
  | none => exact ⟨h, .refl _, fun _ hn => absurd rfl hn⟩
  | some u =>
    simp only [Store.unauthUser, Token.clearPrivate]
    rcases h.db.fetch e u with ⟨r, hf, hx⟩ | ⟨hf, hp, hx⟩ | ⟨p, n, b, hf, hp, hn, hw, hx⟩
    · rw [hx]
      exact ⟨⟨h.db, h.aci, fun w hw => (by cases hw)⟩, ⟨rfl, rfl, fun _ _ => rfl⟩,
        fun q => (by have := quiet_fails q; rw [hf] at this; cases this)⟩
    · exact absurd hp (h.logged u hl).1
    · rw [hx]
      exact ⟨⟨h.db, ⟨h.aci.enc, fun k hk => (by cases hk)⟩, fun w hw => (by cases hw)⟩, ⟨rfl, rfl, fun _ _ => rfl⟩,
        fun _ _ => rfl⟩

theorem drop_vault {t : Token} {K : Bytes} {v : Nat} {π : Pins} {h : Nat} (hv : TVault C t K v π) :
    TVault C (t.dropSessionObjects h) K v π ∧ Rest t (t.dropSessionObjects h) :=
  ⟨⟨hv.db, hv.aci, hv.logged⟩, ⟨rfl, rfl, fun _ _ => rfl⟩⟩

theorem dropAll_vault {t : Token} {K : Bytes} {v : Nat} {π : Pins} {l : List Nat} (hv : TVault C t K v π) :
    TVault C (l.foldl Token.dropSessionObjects t) K v π ∧ Rest t (l.foldl Token.dropSessionObjects t) := by
  induction l generalizing t with
  | nil => exact ⟨hv, .refl _⟩
  | cons h l ih =>
    have a := drop_vault (h := h) hv
    have b := ih a.1
    exact ⟨b.1, a.2.trans b.2⟩

/-! ## Setting a PIN -/

/-- What an undisturbed change of the PIN of `u` does. -/
def setPinP (C : Crypto) (π : Pins) (u : User) (pin old : Bytes) : Res Unit × Pins :=
  if old ≠ [] then
    match authP C π u old with
    | (.error r, π') => (.error r, π')
    | (.ok (), π') => (.ok (), setU π' u (some (pin, 0)))
  else (.ok (), setU π u (some (pin, 0)))

structure SetOut (C : Crypto) (e : Env) (t : Token) (K : Bytes) (v : Nat) (π : Pins) (u : User) (pin old : Bytes)
    (y : Res Unit × Token) : Prop where
  vault : ∃ π', TVault C y.2 K v π' ∧ (y.1 ≠ .ok () → samePins π π') ∧
    (y.1 = .ok () → ∃ π1, samePins π π1 ∧ π' = setU π1 u (some (pin, 0))) ∧
    (quiet e → (y.1, π') = setPinP C π u pin old)
  rest : Rest t y.2
  right : y.1 = .ok () → old ≠ [] → Right C π u old
  aci : y.2.store.aci = t.store.aci

theorem store_setUserPin {e : Env} {s : Store} {K : Bytes} {v : Nat} {π : Pins} {u : User} {pin : Bytes}
    (hd : DbVault C s.db K v π) (ha : AciOk s.aci K v) (hk : s.aci.key = some K) :
    (∃ r, s.setUserPin C e u pin = (.error r, s) ∧ ¬ quiet e ∧ (plain e → ¬ refusedPin r ∧ r ≠ .userTypeInvalid)) ∨
    ∃ db, s.setUserPin C e u pin = (.ok (), ⟨db, s.aci⟩) ∧ DbVault C db K v (setU π u (some (pin, 0))) ∧
      db.objs = s.db.objs ∧ db.ready = s.db.ready ∧
      (∀ k, (∀ u, k ≠ .userFlags u ∧ k ≠ .userCounter u ∧ k ≠ .userData u) →
        AMap.get db.metaT k = AMap.get s.db.metaT k) := by
  unfold Store.setUserPin Aci.keyToUserData
  simp only [ha.enc, if_true, hk, (ha.key K hk).2]
  rcases encryptKey_ok (C := C) (e := (e.sub 0)) (v := v) (K := K) (pin := pin) (u := u) with
    ⟨r, hf, hx⟩ | ⟨b, hf, hx, hw⟩
  · rw [hx]
    exact .inl ⟨r, rfl, fun q => (by have := quiet_fails (quiet_sub q 0); rw [hf] at this; cases this),
      fun q => ⟨(q [0] r hf).1, (q [0] r hf).2.1⟩⟩
  · rw [hx]
    simp only [AuthInfo.default]
    have o := fun k hk => storeUser_other (e.sub 1) s.db u ⟨false, some b, 10, 0⟩ k hk
    rcases hd.store (e.sub 1) u (n := 0) (by omega) hw with ⟨r, h1, h2⟩ | ⟨h1, h2, h3, h4, h5⟩
    · rw [h2]
      exact .inl ⟨r, rfl, fun q => (by have := quiet_fails (quiet_sub q 1); rw [h1] at this; cases this),
        fun q => ⟨(q [1] r h1).1, (q [1] r h1).2.1⟩⟩
    · generalize s.db.storeUser (e.sub 1) u ⟨false, some b, 10, 0⟩ = z at h2 h3 h4 h5 o ⊢
      obtain ⟨r, db⟩ := z
      simp only at h2 h3 h4 h5 o
      subst h2
      exact .inr ⟨db, rfl, h3, h4, h5, o⟩

theorem token_setPin {e : Env} {t : Token} {K : Bytes} {v : Nat} {π : Pins} {who : Option User} {u : User}
    {pin old : Bytes} (h : TVault C t K v π) (hk : t.store.aci.key = some K)
    (hu : (match who with | none => t.logged | some u => some u) = some u) :
    SetOut C e t K v π u pin old (t.setPin C e who pin old) := by
  revert hu
  suffices go : SetOut C e t K v π u pin old (match
      (if old ≠ [] then t.authUser C (e.sub 0) u old true else (.ok (), t) : Res Unit × Token) with
    | (r, t) => match r with
      | .error r => ((.error r : Res Unit), t)
      | .ok () =>
        let (r, st) := t.store.setUserPin C (e.sub 1) u pin
        let t := { t with store := st }
        match r with
        | .error r => (.error r, t)
        | .ok () =>
          (.ok (), match u with
            | .user => { t with info := { t.info with flags := t.info.flags ||| CKF_USER_PIN_INITIALIZED } }
            | .so => t)) by
    intro hu
    unfold Token.setPin
    cases who with
    | some w => injection hu with hu; subst hu; exact go
    | none =>
      cases hl : t.logged with
      | none => rw [hl] at hu; cases hu
      | some w => rw [hl] at hu; injection hu with hu; subst hu; exact go
  have pre : ∃ r t1 π1, (if old ≠ [] then t.authUser C (e.sub 0) u old true else (.ok (), t)) = (r, t1) ∧
      TVault C t1 K v π1 ∧ samePins π π1 ∧ Rest t t1 ∧ t1.store.aci = t.store.aci ∧
      (r = .ok () → old ≠ [] → Right C π u old) ∧
      (quiet e → (r, π1) = if old ≠ [] then authP C π u old else (.ok (), π)) := by
    by_cases ho : old ≠ []
    · simp only [if_pos ho]
      have a := token_authUser (e := e.sub 0) (u := u) (pin := old) (co := true) h
      generalize t.authUser C (e.sub 0) u old true = p at a ⊢
      obtain ⟨r, t1⟩ := p
      obtain ⟨⟨⟨π1, h1, h2, h3⟩, h4⟩, h5, h6⟩ := a
      exact ⟨r, t1, π1, rfl, h1, h2, h4, h6 rfl, fun hr _ => h5 hr, fun q => h3 (quiet_sub q 0)⟩
    · simp only [if_neg ho]
      exact ⟨_, t, π, rfl, h, .refl _, .refl _, rfl, fun _ hn => absurd hn ho, fun _ => rfl⟩
  obtain ⟨r, t1, π1, e1, h1, h2, h3, h4, h5, h6⟩ := pre
  rw [e1]
  cases r with
  | error r =>
    refine ⟨⟨π1, h1, fun _ => h2, fun h => (by cases h), fun q => ?_⟩, h3, fun h => (by cases h), h4⟩
    have := h6 q
    unfold setPinP
    by_cases ho : old ≠ []
    · rw [if_pos ho] at this ⊢; rw [← this]
    · rw [if_neg ho] at this; cases this
  | ok _ =>
    simp only
    rcases store_setUserPin (e := e.sub 1) (u := u) (pin := pin) h1.db h1.aci (by rw [h4]; exact hk) with
      ⟨r, hr, hq, _⟩ | ⟨db, hr, d1, d2, d3, d4⟩
    · rw [hr]
      exact ⟨⟨π1, ⟨h1.db, h1.aci, h1.logged⟩, fun _ => h2, fun h => (by cases h), fun q => absurd (quiet_sub q 1) hq⟩,
        ⟨h3.objs, h3.ready, h3.other⟩, fun h => (by cases h), h4⟩
    · rw [hr]
      simp only
      have lg : ∀ w, t1.logged = some w → setU π1 u (some (pin, 0)) w ≠ none ∧ t1.store.aci.key = some K :=
        fun w hw => ⟨setU_none (h1.logged w hw).1, (h1.logged w hw).2⟩
      have ex : quiet e → ((.ok () : Res Unit), setU π1 u (some (pin, 0))) = setPinP C π u pin old := by
        intro q
        have := h6 q
        unfold setPinP
        by_cases ho : old ≠ []
        · rw [if_pos ho] at this ⊢; rw [← this]
        · rw [if_neg ho] at this ⊢
          injection this with _ this
          rw [this]
      cases u <;>
      exact ⟨⟨_, ⟨d1, h1.aci, lg⟩, fun h => absurd rfl h, fun _ => ⟨π1, h2, rfl⟩, ex⟩,
        ⟨d2.trans h3.objs, d3.trans h3.ready, fun k hk => (d4 k hk).trans (h3.other k hk)⟩,
        fun _ ho => h5 rfl ho, h4⟩

end Kry
