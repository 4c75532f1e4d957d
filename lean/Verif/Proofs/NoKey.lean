import Verif.Proofs.VaultStep
import Verif.Proofs.Sealing

/-! # While nobody is logged in the token holds no key -/

namespace Kry
open Spec

variable {C : Crypto}

/-- Nobody logged in: no key. -/
def Shut (t : Token) : Prop := t.logged = none → t.store.aci.key = none

theorem not_fails {e : Env} {r : Rv} (q : quiet e) (h : e.fails = some r) : False := by
  rw [quiet_fails q] at h; cases h

/-! ## Authentication -/

theorem authenticate_key (e : Env) (a : Aci) (u : User) (info : AuthInfo) (pin : Bytes) (b : Bool) :
    (a.authenticate C e u info pin b).2.1.key = a.key ∨
      (b = true ∧ (∃ x, (a.authenticate C e u info pin b).1 = .ok x) ∧
        (a.authenticate C e u info pin b).2.2.curAttempts = 0) := by
  unfold Aci.authenticate
  repeat' split
  all_goals first
    | exact .inl rfl
    | exact .inr ⟨by assumption, ⟨_, rfl⟩, rfl⟩
    | skip
  all_goals (repeat' split)
  all_goals first
    | exact .inl rfl
    | exact .inr ⟨by assumption, ⟨_, rfl⟩, rfl⟩

theorem store_authUser_key (e : Env) (s : Store) (u : User) (pin : Bytes) (co : Bool) :
    (s.authUser C e u pin co).2.2.aci.key = s.aci.key ∨
      (co = false ∧ (s.authUser C e u pin co).1 = .ok ()) := by
  unfold Store.authUser
  split
  · exact .inl rfl
  · rename_i info _
    have a := authenticate_key (C := C) (e.sub 1) s.aci u info pin (!co)
    generalize s.aci.authenticate C (e.sub 1) u info pin (!co) = p at a ⊢
    obtain ⟨r, aci, info'⟩ := p
    simp only at a ⊢
    rcases a with a | ⟨h1, ⟨x, h2⟩, h3⟩
    · refine .inl ?_
      repeat' split
      all_goals exact a
    · subst h2
      refine .inr ⟨by cases co <;> simp_all, ?_⟩
      simp [h3]

theorem authUser_key (e : Env) (t : Token) (u : User) (pin : Bytes) (co : Bool) :
    (t.authUser C e u pin co).2.store.aci.key = t.store.aci.key ∨
      (co = false ∧ (t.authUser C e u pin co).1 = .ok ()) := by
  unfold Token.authUser
  have a := store_authUser_key (C := C) e t.store u pin co
  generalize t.store.authUser C e u pin co = p at a ⊢
  obtain ⟨r, f, st⟩ := p
  simp only at a ⊢
  rcases a with a | ⟨h1, h2⟩
  · refine .inl ?_
    cases r with
    | error r => exact a
    | ok _ => cases co <;> exact a
  · subst h2
    exact .inr ⟨h1, rfl⟩

theorem shut_authUser {e : Env} {t : Token} {u : User} {pin : Bytes} {co : Bool} (h : Shut t) :
    Shut (t.authUser C e u pin co).2 := by
  intro hl
  rcases authUser_logged (C := C) e t u pin co with a | ⟨h1, h2, h3⟩
  · rcases authUser_key (C := C) e t u pin co with b | ⟨h1, h2⟩
    · exact b.trans (h (a.symm.trans hl))
    · subst h1
      unfold Token.authUser at h2 hl
      generalize t.store.authUser C e u pin false = p at h2 hl
      obtain ⟨r, f, st⟩ := p
      cases r with
      | error r => cases h2
      | ok _ => cases hl
  · rw [h3] at hl; cases hl

theorem shut_login {e : Env} {t : Token} {ut : Nat} {pin : Bytes} (h : Shut t) :
    Shut (t.login C e ut pin).2 := by
  unfold Token.login
  repeat' split
  all_goals first | exact h | exact shut_authUser h

theorem shut_logout {e : Env} {t : Token} {K : Bytes} {v : Nat} {π : Pins} (q : quiet e) (hv : TVault C t K v π)
    (h : Shut t) : Shut (t.logout e).2 := by
  unfold Token.logout
  cases hl : t.logged with
  | none => exact h
  | some u =>
    simp only [Store.unauthUser, Token.clearPrivate]
    rcases hv.db.fetch e u with ⟨r, hf, hx⟩ | ⟨hf, hp, hx⟩ | ⟨p, n, b, hf, hp, hn, hw, hx⟩
    · exact (not_fails q hf).elim
    · exact absurd hp (hv.logged u hl).1
    · rw [hx]
      exact fun _ => rfl

theorem shut_drop {t : Token} {n : Nat} (h : Shut t) : Shut (t.dropSessionObjects n) := h

theorem shut_dropAll {l : List Nat} {t : Token} (h : Shut t) : Shut (l.foldl Token.dropSessionObjects t) := by
  induction l generalizing t with
  | nil => exact h
  | cons n l ih => exact ih (shut_drop h)

theorem setUserPin_aci (e : Env) (s : Store) (u : User) (pin : Bytes) : (s.setUserPin C e u pin).2.aci = s.aci := by
  unfold Store.setUserPin
  split <;> rfl

theorem setPin_key (e : Env) (t : Token) (who : Option User) (pin old : Bytes) :
    (t.setPin C e who pin old).2.store.aci.key = t.store.aci.key ∧ (t.setPin C e who pin old).2.logged = t.logged := by
  unfold Token.setPin
  simp only
  split
  · split <;> exact ⟨rfl, rfl⟩
  · rename_i u _
    have a : (if old ≠ [] then t.authUser C (e.sub 0) u old true else (.ok (), t)).2.store.aci.key = t.store.aci.key ∧
        (if old ≠ [] then t.authUser C (e.sub 0) u old true else (.ok (), t)).2.logged = t.logged := by
      split
      · refine ⟨?_, authUser_check_logged ..⟩
        rcases authUser_key (C := C) (e.sub 0) t u old true with b | b
        · exact b
        · cases b.1
      · exact ⟨rfl, rfl⟩
    generalize (if old ≠ [] then t.authUser C (e.sub 0) u old true else (.ok (), t)) = p at a ⊢
    obtain ⟨r, t1⟩ := p
    simp only at a ⊢
    split
    · exact a
    · have b := setUserPin_aci (C := C) (e.sub 1) t1.store u pin
      generalize t1.store.setUserPin C (e.sub 1) u pin = z at b ⊢
      obtain ⟨r2, st⟩ := z
      simp only at b ⊢
      split
      · exact ⟨by rw [b]; exact a.1, a.2⟩
      · cases u
        all_goals exact ⟨by simp only [b]; exact a.1, a.2⟩

theorem shut_setPin {e : Env} {t : Token} {who : Option User} {pin old : Bytes} (h : Shut t) :
    Shut (t.setPin C e who pin old).2 := by
  have a := setPin_key (C := C) e t who pin old
  intro hl
  exact a.1.trans (h (a.2.symm.trans hl))

theorem shut_fnInitPin {e : Env} {t : Token} {pin : Bytes} (h : Shut t) : Shut (fnInitPin C e t pin).2 := by
  unfold fnInitPin
  split
  · exact h
  · exact shut_setPin h

theorem shut_fnSetPin {e : Env} {s : Session} {t : Token} {K : Bytes} {v : Nat} {π : Pins} {old new : Bytes} (q : quiet e)
    (hv : TVault C t K v π) (h : Shut t) : Shut (fnSetPin C e s t old new).2 := by
  unfold fnSetPin
  by_cases c1 : (!s.isWritable) = true
  · rw [if_pos c1]; exact h
  rw [if_neg c1]
  by_cases c2 : new = [] ∨ old = []
  · rw [if_pos c2]; exact h
  rw [if_neg c2]
  by_cases c3 : (!t.isInitialized) = true
  · rw [if_pos c3]; exact h
  rw [if_neg c3]
  by_cases c4 : t.loggedIn = true
  · rw [if_pos c4]; exact shut_setPin h
  rw [if_neg c4]
  have a := token_login (e := e.sub 0) (ut := CKU_USER) (pin := old) hv
  have b := shut_login (C := C) (e := e.sub 0) (ut := CKU_USER) (pin := old) h
  generalize t.login C (e.sub 0) CKU_USER old = p at a b ⊢
  obtain ⟨r, t1⟩ := p
  cases r with
  | error r => exact b
  | ok _ =>
    simp only at a b ⊢
    obtain ⟨π1, hv1, _⟩ := a.1.vault
    have c := shut_setPin (C := C) (e := e.sub 1) (who := none) (pin := new) (old := old) b
    cases hl : t1.logged with
    | none =>
      have e1 : (t1.setPin C (e.sub 1) none new old).2 = t1 := by
        unfold Token.setPin
        simp only [hl]
        split <;> rfl
      rw [e1] at c ⊢
      exact shut_logout (quiet_sub q 2) hv1 c
    | some u =>
      obtain ⟨π2, hv2, _⟩ := (token_setPin (C := C) (e := e.sub 1) (who := none) (u := u) (pin := new) (old := old) hv1
        (hv1.logged u hl).2 hl).vault
      exact shut_logout (quiet_sub q 2) hv2 c

/-! ## C_InitToken -/

theorem initPinFlags_quiet {e : Env} {s : Store} {K : Bytes} {v : Nat} {π : Pins} (q : quiet e)
    (hd : DbVault C s.db K v π) (hs : π .so ≠ none) : ∃ f, s.initPinFlags e = .ok f := by
  unfold Store.initPinFlags
  rcases hd.fetch (e.sub 0) .so with ⟨r', hf, hx⟩ | ⟨hf, hp, hx⟩ | ⟨p, n, b, hf, hp, hn, hw, hx⟩
  · exact (not_fails (quiet_sub q 0) hf).elim
  · exact absurd hp hs
  · rw [hx]
    rcases hd.fetch (e.sub 1) .user with ⟨r', hf, hx⟩ | ⟨hf, hp, hx⟩ | ⟨p, n, b, hf, hp, hn, hw, hx⟩
    · exact (not_fails (quiet_sub q 1) hf).elim
    · rw [hx]; exact ⟨_, rfl⟩
    · rw [hx]; exact ⟨_, rfl⟩

theorem reinit_quiet {e : Env} {s : Store} {K : Bytes} {v : Nat} (q : quiet e) (ha : AciOk s.aci K v) :
    ∃ info, (s.reinit C e).1 = .ok info := by
  unfold Store.reinit Db.reset
  simp only [quiet_fails (quiet_sub q 0)]
  unfold Aci.reset
  simp only [ha.enc, Bool.not_true, Bool.false_eq_true, if_false, quiet_fails (quiet_sub q 1)]
  generalize hK : (e.sub 1).rnd 32 = K'
  have lK : K'.length = 32 := by rw [← hK]; exact rnd_len _ _
  have d0 := vault_reset (C := C) (K := K') (v := s.aci.keyVersion + 1) lK
  generalize s.aci.keyVersion + 1 = v' at d0 ⊢
  unfold Store.defaultSoPin Aci.keyToUserData
  simp only [if_true]
  rcases encryptKey_ok (C := C) (e := (e.sub 2).sub 0) (v := v') (K := K') (pin := []) (u := .so) with
    ⟨r, hf, hx⟩ | ⟨b, hf, hx, hw⟩
  · exact (not_fails (quiet_sub (quiet_sub q 2) 0) hf).elim
  · rw [hx]
    simp only [AuthInfo.default]
    rcases d0.store ((e.sub 2).sub 1) .so (n := 0) (by omega) hw with ⟨r, h1, h2⟩ | ⟨h1, h2, h3, h4, h5⟩
    · exact (not_fails (quiet_sub (quiet_sub q 2) 1) h1).elim
    · generalize Db.storeUser ((e.sub 2).sub 1) ⟨true, [], []⟩ .so ⟨false, some b, 10, 0⟩ = z at h2 h3 h4 h5 ⊢
      obtain ⟨r, db⟩ := z
      simp only at h2 h3 h4 h5
      subst h2
      have h3 : DbVault C db K' v' (onlySo []) := h3
      simp only
      unfold Store.defaultTokenInfo
      simp only [if_true, quiet_fails (quiet_sub (quiet_sub q 3) 0)]
      generalize ({ TokInfo.default with serial := hexEncode (((e.sub 3).sub 0).rnd 8), flags := TokInfo.default.flags ||| CKF_TOKEN_INITIALIZED ||| CKF_LOGIN_REQUIRED } : TokInfo) = info
      rcases storeTokenInfo_vault (e := (e.sub 3).sub 1) (info := info) h3 with ⟨r, hf, hx⟩ | ⟨db', hx, d1, d2, d3, d4⟩
      · exact (not_fails (quiet_sub (quiet_sub q 3) 1) hf).elim
      · rw [hx]
        simp only
        obtain ⟨f, hf⟩ := initPinFlags_quiet (s := ⟨db', ⟨v', some K', true⟩⟩) (quiet_sub q 4) d1 nofun
        rw [hf]
        exact ⟨_, rfl⟩

theorem shut_initToken {e : Env} {t : Token} {K : Bytes} {v : Nat} {π : Pins} {pin label : Bytes} (q : quiet e)
    (h : TVault C t K v π) (hc : Shut t) : Shut (t.initToken C e pin label).2 := by
  unfold Token.initToken
  have pre : Shut (if t.isInitialized = true then t.authUser C (e.sub 0) .so pin true else (.ok (), t)).2 ∧
      ∃ π1, TVault C (if t.isInitialized = true then t.authUser C (e.sub 0) .so pin true else (.ok (), t)).2 K v π1 := by
    split
    · obtain ⟨π1, h1, _⟩ := (token_authUser (e := e.sub 0) (u := .so) (pin := pin) (co := true) h).1.vault
      exact ⟨shut_authUser hc, π1, h1⟩
    · exact ⟨hc, π, h⟩
  generalize (if t.isInitialized = true then t.authUser C (e.sub 0) .so pin true else (.ok (), t)) = p at pre ⊢
  obtain ⟨r, t1⟩ := p
  obtain ⟨hc1, π1, h1⟩ := pre
  simp only at hc1 h1 ⊢
  cases r with
  | error r => exact hc1
  | ok _ =>
    simp only
    have a := store_reinit (e := e.sub 1) h1.db h1.aci
    obtain ⟨info0, hok⟩ := reinit_quiet (C := C) (quiet_sub q 1) h1.aci
    generalize t1.store.reinit C (e.sub 1) = p at a hok ⊢
    cases a with
    | kept r hp hq => cases hok
    | wiped r hp s' K' v' π' hd ha hπ ho => cases hok
    | done info hi s' K' v' hd ha hk ho hrd hK =>
      simp only
      unfold Token.setPin
      simp only [ne_eq, not_true, if_false]
      rcases store_setUserPin (e := (e.sub 2).sub 1) (u := .so) (pin := pin) hd ha hk with
        ⟨r, hx, hq, hpl⟩ | ⟨db, hx, d1, d2, d3, d4⟩
      · exact absurd (quiet_sub (quiet_sub q 2) 1) hq
      · simp only [hx]
        have hon : setU (onlySo []) .so (some (pin, 0)) = onlySo pin := by
          funext w; cases w <;> rfl
        rw [hon] at d1
        rcases storeTokenInfo_vault (e := e.sub 3) (info := { info with label := copySized label info.label }) d1 with
          ⟨r, hf, hy⟩ | ⟨db', hy, f1, f2, f3, f4⟩
        · exact (not_fails (quiet_sub q 3) hf).elim
        · simp only [hy, Token.fillInfo, Store.unauthUser]
          rcases f1.fetch (e.sub 4) .so with ⟨r, hf, hz⟩ | ⟨hf, hp, hz⟩ | ⟨p, n, b, hf, hp, hn, hw, hz⟩
          · exact (not_fails (quiet_sub q 4) hf).elim
          · cases hp
          · simp only [hz]
            generalize hT : (Token.mk _ _ _ _ _ _) = T
            have tl : T.logged = none := by rw [← hT]
            have tk : T.store.aci.key = none := by rw [← hT]; rfl
            intro _
            rw [internal_store (C := C) (e.sub 5) T tl]
            exact tk

/-! ## One step -/

theorem shut_new {e : Env} {db : Db} {cfg : TokCfg} {t : Token} (h : Token.new C e db cfg = .ok t) : Shut t := by
  unfold Token.new at h
  extract_lets src t0 tf sf t' at h
  have h1 : ∀ t1, t' = .ok t1 → t1.store.aci.key = none ∧ t1.logged = none := by
    intro t1 h1
    simp only [t', tf, sf, t0, src] at h1
    split at h1
    · injection h1 with h1; rw [← h1]; exact ⟨rfl, rfl⟩
    · injection h1 with h1; rw [← h1]; exact ⟨rfl, rfl⟩
    · cases h1
  cases ht : t' with
  | error r => rw [ht] at h; cases h
  | ok t1 =>
    rw [ht] at h
    obtain ⟨a, b⟩ := h1 t1 ht
    have d := internal_store (C := C) (e.sub 1) t1 b
    simp only at h
    generalize t1.internalInit C (e.sub 1) = z at d h
    obtain ⟨r, t2⟩ := z
    simp only at d h
    cases r with
    | error r => cases h
    | ok _ =>
      injection h with h
      rw [← h]
      intro _
      show t2.store.aci.key = none
      rw [d]; exact a

variable {M : Mechs} {O : Oracle}

/-- Every token in use is such. -/
def ShutAt (s : St) (i : Nat) : Prop := ∀ sl, AMap.get s.slots i = some sl → Shut sl.token

theorem shutAt_set {s : St} {i j : Nat} {sl sl' : Slot} (hj : AMap.get s.slots j = some sl) (h : ShutAt s i)
    (hc : j = i → Shut sl'.token) : ShutAt (s.setSlot j sl') i := by
  intro x hx
  rw [get_setSlot hj] at hx
  split at hx
  · injection hx with hx; subst hx; exact hc ‹_›
  · exact h x hx

theorem shut_step {e : Env} {s : St} {c : Call} {i : Nat} {K : Bytes} {v : Nat} {π : Pins} (q : quiet e) (hi : Inv s)
    (hv : SlotV C s i K v π) (h : ShutAt s i) : ShutAt (step M C O e s c).2 i := by
  cases c with
  | «initialize» conf =>
    intro sl hs
    cases hg : AMap.get s.slots i with
    | none =>
      obtain ⟨e', cfg, _, _, _, _, hn⟩ := step_new hg hs
      exact shut_new hn
    | some sl0 =>
      simp only [step, fnInitialize] at hs
      by_cases hr : s.ready = true
      · rw [if_pos hr] at hs
        rw [initSlots_keep hg] at hs
        injection hs with hs; subst hs; exact h _ hg
      · have := (hi.off (by simpa [St.ready] using hr)).1
        rw [this] at hg; cases hg
  | finalize =>
    simp only [step, fnFinalize]
    split
    · exact h
    · exact nofun
  | crash => exact nofun
  | openSession k f =>
    simp only [step, fnOpen]
    split
    · exact h
    · rename_i slj hg
      obtain ⟨hr, hj⟩ := getSlot_ok hg
      repeat' split
      all_goals first
        | exact h
        | exact shutAt_set (s := s) (sl' := { slj with sessions := _ }) hj h fun hji => h slj (hji ▸ hj)
  | closeSession n =>
    simp only [step, fnClose]
    split
    · exact h
    · rename_i j slj hg
      obtain ⟨hr, hm, hj⟩ := getSessionSlot_ok hg
      split
      · exact h
      · refine shutAt_set hj h fun hji => ?_
        subst hji
        have a := shut_drop (n := n) (h slj hj)
        simp only
        split
        · exact shut_logout q (drop_vault (hv.2 slj hj)).1 a
        · exact a
  | closeAll k =>
    simp only [step, fnCloseAll]
    split
    · exact h
    · split
      · exact h
      · rename_i slj hg
        obtain ⟨hr, hj⟩ := getSlot_ok hg
        split
        · exact shutAt_set (s := { s with smap := _ }) hj h fun hji => h slj (hji ▸ hj)
        · refine shutAt_set (s := { s with smap := _ }) hj h fun hji => ?_
          subst hji
          exact shut_logout q (dropAll_vault (hv.2 slj hj)).1 (shut_dropAll (h slj hj))
  | login n ut pin =>
    simp only [step, fnLogin]
    split
    · exact h
    · rename_i j slj x hg
      obtain ⟨hr, hm, hj, hx⟩ := getSession_ok hg
      have a : j = i → Shut (slj.token.login C (e.sub 0) ut pin).2 ∧ ∃ π', TVault C (slj.token.login C (e.sub 0) ut pin).2 K v π' := by
        intro hji
        subst hji
        obtain ⟨π', h1, _⟩ := (token_login (e := e.sub 0) (ut := ut) (pin := pin) (hv.2 slj hj)).1.vault
        exact ⟨shut_login (h slj hj), π', h1⟩
      generalize slj.token.login C (e.sub 0) ut pin = p at a ⊢
      obtain ⟨r, t⟩ := p
      simp only at a ⊢
      have b : j = i → Shut (t.logout (e.sub 1)).2 := fun hji => by
        obtain ⟨h1, π', h2⟩ := a hji
        exact shut_logout (quiet_sub q 1) h2 h1
      repeat' split
      all_goals first
        | exact h
        | exact shutAt_set hj h fun hji => (a hji).1
        | exact shutAt_set hj h b
  | logout n =>
    simp only [step, fnLogout]
    split
    · exact h
    · rename_i j slj x hg
      obtain ⟨hr, hm, hj, hx⟩ := getSession_ok hg
      have a : j = i → Shut (slj.token.logout e).2 := fun hji => shut_logout q (hv.2 slj (hji ▸ hj)) (h slj (hji ▸ hj))
      generalize slj.token.logout e = p at a ⊢
      obtain ⟨r, t⟩ := p
      simp only at a ⊢
      repeat' split
      all_goals first
        | exact h
        | exact shutAt_set hj h a
  | initToken k pin l =>
    simp only [step, fnInitToken]
    split
    · exact h
    · rename_i slj hg
      obtain ⟨hr, hj⟩ := getSlot_ok hg
      split
      · exact h
      · generalize hq : slj.token.initToken C e pin _ = p
        obtain ⟨r, t⟩ := p
        have a : k = i → Shut t := fun hji => by
          have : Shut (Prod.snd (r, t)) := hq ▸ shut_initToken q (hv.2 slj (hji ▸ hj)) (h slj (hji ▸ hj))
          exact this
        simp only
        split <;> exact shutAt_set hj h a
  | getTokenInfo k =>
    simp only [step]
    split <;> exact h
  | sess n c =>
    simp only [step]
    split
    · exact h
    · rename_i j slj x hg
      obtain ⟨hr, hm, hj, hx⟩ := getSession_ok hg
      refine shutAt_set hj h fun hji => ?_
      subst hji
      have tv := hv.2 slj hj
      have hs := h slj hj
      by_cases h1 : ∃ p, c = .initPin p
      · obtain ⟨p, rfl⟩ := h1
        simp only [sessStep]
        split
        · exact hs
        · exact shut_fnInitPin hs
      · by_cases h2 : ∃ p p', c = .setPin p p'
        · obtain ⟨p, p', rfl⟩ := h2
          exact shut_fnSetPin q tv hs
        · have st := sess_still (C := C) O e n c x slj.token (fun p hp => h1 ⟨p, hp⟩) (fun p q hp => h2 ⟨p, q, hp⟩)
          intro hl
          rw [st.aci]
          exact hs (st.logged.symm.trans hl)
  | op n c =>
    simp only [step]
    split
    · exact h
    · rename_i j slj x hg
      obtain ⟨hr, hm, hj, hx⟩ := getSession_ok hg
      refine shutAt_set hj h fun hji => ?_
      subst hji
      have st := op_still (C := C) M e n c x slj.token
      intro hl
      rw [st.aci]
      exact h slj hj (st.logged.symm.trans hl)

end Kry
