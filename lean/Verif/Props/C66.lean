import Verif.Proofs.NssKeys
import Verif.Props.MachineEx

/-!
# C66: the PIN of an NSS database

Which PINs `auth_user` accepts, in the state of a process that just started and after logins and logouts in the same process.
-/

namespace Kry

open Spec (calmEnv opens NssOk restarted)

variable {N : NssLib}

theorem fetchPassword_calm {e : Env} (he : calmEnv e) {d : NssDb} {v : Bytes × Bytes} (h : AMap.get d.mdata .password = some v) :
    d.fetchPassword e = .ok v := by
  unfold NssDb.fetchPassword NssDb.fetchMeta
  simp only [calm_fails he, h]

theorem fetchPassword_ok {e : Env} {d : NssDb} {v : Bytes × Bytes} (h : d.fetchPassword e = .ok v) : AMap.get d.mdata .password = some v := by
  unfold NssDb.fetchPassword at h
  split at h
  · rename_i w hw
    injection h with h; subst h
    unfold NssDb.fetchMeta at hw
    split at hw
    · cases hw
    · split at hw
      · cases hw
      · rename_i hg; injection hw with hw; subst hw; exact hg
  · split at h <;> cases h

/-- An accepted PIN of a user who was not logged in: the entry decrypted to the known text, and the key used is in the cache. -/
theorem auth_ok {e : Env} {s s' : Nss} {pin : Bytes} {chk : Bool} (h : s.authUser N e .user pin chk = (.ok (), s')) (hn : s.keys.enckey = none) :
    ∃ salt data k', AMap.get s.db.mdata .password = some (salt, data) ∧
      nssDecrypt N (e.sub 2) (s.keys.setKey (N.sha1 (salt ++ pin))) data = (.ok nssPassCheck, k') ∧
      s' = { s with keys := if chk then k'.unsetKey else k' } := by
  unfold Nss.authUser at h
  simp only at h
  split at h
  · cases h
  · rename_i salt data hp
    have hp := fetchPassword_ok hp
    split at h
    · cases h
    · rename_i key hk
      have hk : key = N.sha1 (salt ++ pin) := by
        unfold nssEnckey at hk
        split at hk
        · cases hk
        · injection hk with hk; exact hk.symm
      subst hk
      rw [hn] at h
      rw [if_neg (by simp)] at h
      generalize hx : nssDecrypt N (e.sub 2) (s.keys.setKey (N.sha1 (salt ++ pin))) data = x at h
      obtain ⟨r, k'⟩ := x
      cases r with
      | error r => cases h
      | ok plain =>
        simp only at h
        split at h
        · rename_i hpl
          subst hpl
          injection h with _ h
          refine ⟨salt, data, k', hp, hx, ?_⟩
          rw [← h]
          simp
        · cases h

theorem nssIv_ok {iv iv' : Bytes} (h : nssIv iv = .ok iv') : (iv.length = 14 ∧ iv' = 4 :: 14 :: iv) ∨ (iv.length = 16 ∧ iv' = iv) := by
  unfold nssIv at h
  split at h
  · injection h with h; exact Or.inl ⟨by assumption, h.symm⟩
  · split at h
    · injection h with h; exact Or.inr ⟨by assumption, h.symm⟩
    · cases h

/-- **C66 (partial).**  As long as no key is cached for the password entry (a process that just started, for one), an accepted PIN opens the entry. -/
theorem C66_wrong_partial (e : Env) (s : Nss) (pin salt data : Bytes) (chk : Bool) (hn : s.keys.enckey = none)
    (hp : AMap.get s.db.mdata .password = some (salt, data))
    (hc : ∀ p iv c, N.parse data = some ⟨.pbes2 (some p) iv, c⟩ → AMap.get s.keys.cache p.salt = none)
    (h : (s.authUser N e .user pin chk).1 = .ok ()) : opens N salt data pin := by
  have h' : s.authUser N e .user pin chk = (.ok (), (s.authUser N e .user pin chk).2) := by rw [← h]
  obtain ⟨salt', data', k', hp', hd, _⟩ := auth_ok h' hn
  rw [hp] at hp'
  injection hp' with hp'; injection hp' with h1 h2; subst h1; subst h2
  obtain ⟨p, iv, c, iv', key, hpa, hiv, hdk, hdec⟩ := decrypt_ok hd
  obtain ⟨hl, _, _, _, hor⟩ := derive_ok hdk
  rcases hor with ⟨hcc, _⟩ | ⟨_, m, n, hm, hkl, hv, _⟩
  · rw [show (s.keys.setKey (N.sha1 (salt ++ pin))).cache = s.keys.cache from rfl, hc p _ c hpa] at hcc
    cases hcc
  · have hm : m = N.sha1 (salt ++ pin) := by
      have : (s.keys.setKey (N.sha1 (salt ++ pin))).enckey = some (N.sha1 (salt ++ pin)) := rfl
      rw [this] at hm; injection hm with hm; exact hm.symm
    subst hm
    injection hv with _ hv
    subst hv
    refine ⟨p, iv, c, n, hpa, hl, hkl, ?_⟩
    rcases nssIv_ok hiv with ⟨a, b⟩ | ⟨a, b⟩
    · subst b; exact Or.inl ⟨a, hdec⟩
    · subst b; exact Or.inr ⟨a, hdec⟩

/-- The PIN that opens the entry is accepted when no key is cached for it and nothing fails. -/
theorem C66_right (e : Env) (he : calmEnv e) (s : Nss) (pin salt data : Bytes) (chk : Bool)
    (hp : AMap.get s.db.mdata .password = some (salt, data))
    (hc : ∀ p iv c, N.parse data = some ⟨.pbes2 (some p) iv, c⟩ → AMap.get s.keys.cache p.salt = none)
    (ho : opens N salt data pin) : (s.authUser N e .user pin chk).1 = .ok () := by
  obtain ⟨p, iv, c, n, hpa, hl, hkl, hor⟩ := ho
  have hiv : ∃ iv', nssIv iv = .ok iv' ∧ N.dec (N.kdf (N.sha1 (salt ++ pin)) p.salt p.iter n) iv' c = some nssPassCheck := by
    rcases hor with ⟨a, b⟩ | ⟨a, b⟩
    · exact ⟨_, by unfold nssIv; rw [if_pos a], b⟩
    · exact ⟨_, by unfold nssIv; rw [if_neg (by omega), if_pos a], b⟩
  obtain ⟨iv', hiv, hdec⟩ := hiv
  unfold Nss.authUser
  have hk : nssEnckey N (e.sub 1) pin salt = .ok (N.sha1 (salt ++ pin)) := by
    unfold nssEnckey; rw [calm_fails (calm_sub he 1)]
  simp only [fetchPassword_calm (calm_sub he 0) hp, hk]
  split
  · rfl
  · have hd := derive_fresh (N := N) (e := (e.sub 2).sub 0) (calm_sub (calm_sub he 2) 0) (k := s.keys.setKey (N.sha1 (salt ++ pin))) (op := .enc) hl rfl
      (hc p _ c hpa) hkl
    have := decrypt_calm (calm_sub he 2) hpa hiv hd
    rw [hdec] at this
    rw [this]
    simp only [if_true]

/-- **C66 (partial).**  In a process that just started, a PIN is accepted exactly when it opens the password entry. -/
theorem C66_started_partial (e : Env) (he : calmEnv e) (s : Nss) (pin salt data : Bytes) (chk : Bool) (hp : AMap.get s.db.mdata .password = some (salt, data)) :
    ((restarted s).authUser N e .user pin chk).1 = .ok () ↔ opens N salt data pin :=
  ⟨C66_wrong_partial e (restarted s) pin salt data chk rfl hp fun _ _ _ _ => rfl,
   C66_right e he (restarted s) pin salt data chk hp fun _ _ _ _ => rfl⟩

/-- What one decryption left in the cache makes every later one succeed, whatever the master key. -/
theorem decrypt_again {e e' : Env} (he : calmEnv e') {k k' : NssKeys} {d plain : Bytes} (h : nssDecrypt N e k d = (.ok plain, k')) (k2 : NssKeys)
    (hs : k2.enckey.isSome) (hc : k2.cache = k'.cache) : nssDecrypt N e' k2 d = (.ok plain, k2) := by
  obtain ⟨p, iv, c, iv', key, hpa, hiv, hdk, hdec⟩ := decrypt_ok h
  obtain ⟨hl, _, _, hg, _⟩ := derive_ok hdk
  have := decrypt_calm he hpa hiv (derive_cached (N := N) (e := e'.sub 0) (op := .enc) hl hs (by rw [hc]; exact hg))
  rw [hdec] at this
  exact this

/-- Any PIN is accepted when a key is cached that decrypts the password entry. -/
theorem auth_any {e : Env} (he : calmEnv e) {s : Nss} {pin salt data : Bytes} {chk : Bool} (hp : AMap.get s.db.mdata .password = some (salt, data))
    (hd : ∀ e' : Env, calmEnv e' → ∀ m, nssDecrypt N e' (s.keys.setKey m) data = (.ok nssPassCheck, s.keys.setKey m)) :
    (s.authUser N e .user pin chk).1 = .ok () := by
  unfold Nss.authUser
  have hk : nssEnckey N (e.sub 1) pin salt = .ok (N.sha1 (salt ++ pin)) := by
    unfold nssEnckey; rw [calm_fails (calm_sub he 1)]
  simp only [fetchPassword_calm (calm_sub he 0) hp, hk]
  split
  · rfl
  · rw [hd _ (calm_sub he 2)]
    simp only [if_true]

/-- **C66 is violated.**  After one login (or one check of a PIN) and a logout, *every* PIN is accepted: the key of the password entry stays in the
cache, which is looked up by salt alone. -/
theorem C66_any_violation (e : Env) (s s' : Nss) (pin : Bytes) (chk : Bool) (hn : s.keys.enckey = none)
    (h : s.authUser N e .user pin chk = (.ok (), s')) (e' : Env) (he' : calmEnv e') (pin' : Bytes) (chk' : Bool) :
    (s'.unauthUser.authUser N e' .user pin' chk').1 = .ok () := by
  obtain ⟨salt, data, k', hp, hd, hs⟩ := auth_ok h hn
  subst hs
  refine auth_any he' (salt := salt) (data := data) hp ?_
  intro e2 he2 m
  refine decrypt_again he2 hd _ rfl ?_
  cases chk <;> rfl

/-- The entry written with a new PIN, and the keys left behind. -/
theorem setPin_ok {e : Env} {s s' : Nss} {pin : Bytes} (h : s.setUserPin N e .user pin = (.ok (), s')) :
    ∃ iv data k', nssEncrypt N (e.sub 2) (NssKeys.default.setKey (N.sha1 ((e.sub 0).rnd 20 ++ pin))) (if pin.length = 0 then 1 else 10000) nssPassCheck
        = (.ok data, k') ∧ pin.length ≤ 500 ∧
      data = N.der ⟨.pbes2 (some ⟨((e.sub 2).sub 0).rnd 32, if pin.length = 0 then 1 else 10000, some 32⟩) (some iv),
        N.enc (N.kdf (N.sha1 ((e.sub 0).rnd 20 ++ pin)) (((e.sub 2).sub 0).rnd 32) (if pin.length = 0 then 1 else 10000) 32) (4 :: 14 :: iv) nssPassCheck⟩ ∧
      iv.length = 14 ∧
      AMap.get k'.cache (((e.sub 2).sub 0).rnd 32) =
        some (.enc, N.kdf (N.sha1 ((e.sub 0).rnd 20 ++ pin)) (((e.sub 2).sub 0).rnd 32) (if pin.length = 0 then 1 else 10000) 32) ∧
      s' = ⟨{ s.db with mdata := AMap.insert s.db.mdata .password ((e.sub 0).rnd 20, data) }, k'.unsetKey⟩ := by
  unfold Nss.setUserPin at h
  rw [if_neg (by simp)] at h
  split at h
  · cases h
  · rename_i hlen
    split at h
    · cases h
    · simp only at h
      split at h
      · cases h
      · rename_i key hk
        have hk : key = N.sha1 ((e.sub 0).rnd 20 ++ pin) := by
          unfold nssEnckey at hk
          split at hk
          · cases hk
          · injection hk with hk; exact hk.symm
        subst hk
        split at h
        · cases h
        · rename_i data k' hx
          have hx0 := hx
          unfold NssDb.saveMeta at h
          split at h
          · cases h
          · rename_i d hd
            split at hd
            · cases hd
            · injection hd with hd; subst hd
              split at h
              · cases h
              · injection h with _ h
                subst h
                unfold nssEncrypt at hx
                split at hx
                · cases hx
                · simp only at hx
                  split at hx
                  · cases hx
                  · rename_i key k1 hdk
                    split at hx
                    · cases hx
                    · split at hx
                      · cases hx
                      · injection hx with h1 h2; injection h1 with h1
                        subst h2
                        obtain ⟨_, _, _, hg, hor⟩ := derive_ok hdk
                        rcases hor with ⟨hc, _⟩ | ⟨_, m, n, hm, hkl, hv, _⟩
                        · cases hc
                        · have hm : m = N.sha1 ((e.sub 0).rnd 20 ++ pin) := by
                            injection hm with hm; exact hm.symm
                          subst hm
                          injection hkl with hkl; subst hkl
                          subst hv
                          exact ⟨_, data, k1, hx0, by omega, h1.symm, by unfold Env.rnd; simp, hg, rfl⟩

theorem rnd_length (e : Env) (n : Nat) : (e.rnd n).length = n := by
  unfold Env.rnd; simp

/-- The PIN that was set opens the new entry. -/
theorem C66_set (hN : NssOk N) (e : Env) (s s' : Nss) (pin : Bytes) (h : s.setUserPin N e .user pin = (.ok (), s')) :
    ∃ salt data, AMap.get s'.db.mdata .password = some (salt, data) ∧ opens N salt data pin := by
  obtain ⟨iv, data, k', _, _, hd, hiv, _, hs⟩ := setPin_ok h
  subst hs
  refine ⟨_, data, amap_get_insert _ _ _, ?_⟩
  subst hd
  exact ⟨_, iv, _, 32, hN.parse_der _, rnd_length _ _, rfl, Or.inl ⟨hiv, hN.dec_enc _ _ _⟩⟩

/-- The PIN that was set is accepted, by the same process and after a restart. -/
theorem C66_set_accepted (hN : NssOk N) (e : Env) (s s' : Nss) (pin : Bytes) (h : s.setUserPin N e .user pin = (.ok (), s')) (e' : Env) (he' : calmEnv e')
    (chk : Bool) : (s'.authUser N e' .user pin chk).1 = .ok () ∧ ((restarted s').authUser N e' .user pin chk).1 = .ok () := by
  constructor
  · obtain ⟨iv, data, k', _, _, hd, hiv, hg, hs⟩ := setPin_ok h
    subst hs
    refine auth_any he' (amap_get_insert _ _ _) ?_
    intro e2 he2 m
    have hp := hN.parse_der ⟨.pbes2 (some ⟨((e.sub 2).sub 0).rnd 32, if pin.length = 0 then 1 else 10000, some 32⟩) (some iv),
        N.enc (N.kdf (N.sha1 ((e.sub 0).rnd 20 ++ pin)) (((e.sub 2).sub 0).rnd 32) (if pin.length = 0 then 1 else 10000) 32) (4 :: 14 :: iv) nssPassCheck⟩
    rw [← hd] at hp
    have := decrypt_calm he2 hp (show nssIv iv = .ok (4 :: 14 :: iv) by unfold nssIv; rw [if_pos hiv])
      (derive_cached (N := N) (e := e2.sub 0) (op := .enc) (k := (k'.unsetKey).setKey m) (rnd_length _ _) rfl hg)
    rw [hN.dec_enc] at this
    exact this
  · obtain ⟨salt, data, hp, ho⟩ := C66_set hN e s s' pin h
    exact C66_right e' he' (restarted s') pin salt data chk hp (fun _ _ _ _ => rfl) ho

/-- **C66 is violated** even without a login: right after a PIN was set, the process that set it accepts *every* PIN. -/
theorem C66_set_violation (hN : NssOk N) (e : Env) (s s' : Nss) (pin : Bytes) (h : s.setUserPin N e .user pin = (.ok (), s')) (e' : Env) (he' : calmEnv e')
    (pin' : Bytes) (chk : Bool) : (s'.authUser N e' .user pin' chk).1 = .ok () := by
  obtain ⟨iv, data, k', _, _, hd, hiv, hg, hs⟩ := setPin_ok h
  subst hs
  refine auth_any he' (amap_get_insert _ _ _) ?_
  intro e2 he2 m
  have hp := hN.parse_der ⟨.pbes2 (some ⟨((e.sub 2).sub 0).rnd 32, if pin.length = 0 then 1 else 10000, some 32⟩) (some iv),
      N.enc (N.kdf (N.sha1 ((e.sub 0).rnd 20 ++ pin)) (((e.sub 2).sub 0).rnd 32) (if pin.length = 0 then 1 else 10000) 32) (4 :: 14 :: iv) nssPassCheck⟩
  rw [← hd] at hp
  have := decrypt_calm he2 hp (show nssIv iv = .ok (4 :: 14 :: iv) by unfold nssIv; rw [if_pos hiv])
    (derive_cached (N := N) (e := e2.sub 0) (op := .enc) (k := (k'.unsetKey).setKey m) (rnd_length _ _) rfl hg)
  rw [hN.dec_enc] at this
  exact this

/-- A refused PIN takes the key of the user away, also of one who is logged in (C_SetPIN with a wrong old PIN, a context-specific login). -/
theorem C66_refused (e : Env) (he : calmEnv e) (s : Nss) (pin salt data : Bytes) (chk : Bool) (hp : AMap.get s.db.mdata .password = some (salt, data))
    (h : (s.authUser N e .user pin chk).1 ≠ .ok ()) : (s.authUser N e .user pin chk).2.keys.enckey = none := by
  unfold Nss.authUser at h ⊢
  have hk : nssEnckey N (e.sub 1) pin salt = .ok (N.sha1 (salt ++ pin)) := by
    unfold nssEnckey; rw [calm_fails (calm_sub he 1)]
  simp only [fetchPassword_calm (calm_sub he 0) hp, hk] at h ⊢
  split
  · rename_i c; rw [if_pos c] at h; exact absurd rfl h
  · rename_i c; rw [if_neg c] at h
    generalize nssDecrypt N (e.sub 2) (s.keys.setKey (N.sha1 (salt ++ pin))) data = x at h ⊢
    obtain ⟨r, k⟩ := x
    cases r with
    | error r => rfl
    | ok pl =>
      simp only at h ⊢
      split
      · rename_i c2; rw [if_pos c2] at h; exact absurd rfl h
      · rfl

/-- A wrong PIN whose key happens to decrypt the entry (to another text) leaves that key in the cache: the right PIN is then refused as well. -/
theorem C66_lockout_violation (e e' : Env) (he : calmEnv e) (he' : calmEnv e') (s : Nss) (pin wrong salt data iv iv' c other : Bytes) (p : NssKdf) (n : Nat)
    (chk chk' : Bool) (hn : s.keys.enckey = none) (hp : AMap.get s.db.mdata .password = some (salt, data))
    (hpa : N.parse data = some ⟨.pbes2 (some p) (some iv), c⟩) (hl : p.salt.length = 32) (hkl : p.keyLen = some n) (hiv : nssIv iv = .ok iv')
    (hc : AMap.get s.keys.cache p.salt = none)
    (hw : N.dec (N.kdf (N.sha1 (salt ++ wrong)) p.salt p.iter n) iv' c = some other) (hne : other ≠ nssPassCheck) :
    let s1 := (s.authUser N e .user wrong chk).2
    (s1.authUser N e' .user pin chk').1 = .error .pinIncorrect := by
  intro s1
  have hd := derive_fresh (N := N) (e := (e.sub 2).sub 0) (calm_sub (calm_sub he 2) 0) (k := s.keys.setKey (N.sha1 (salt ++ wrong))) (op := .enc) hl rfl hc hkl
  have h1 := decrypt_calm (calm_sub he 2) hpa hiv hd
  rw [hw] at h1
  have hs1 : s1 = { s with keys := ((s.keys.setKey (N.sha1 (salt ++ wrong))).setCached p.salt
      (.enc, N.kdf (N.sha1 (salt ++ wrong)) p.salt p.iter n)).unsetKey } := by
    show (s.authUser N e .user wrong chk).2 = _
    unfold Nss.authUser
    have hk : nssEnckey N (e.sub 1) wrong salt = .ok (N.sha1 (salt ++ wrong)) := by
      unfold nssEnckey; rw [calm_fails (calm_sub he 1)]
    simp only [fetchPassword_calm (calm_sub he 0) hp, hk, hn]
    rw [if_neg (by simp), h1]
    simp only [if_neg hne]
  have hg : AMap.get s1.keys.cache p.salt = some (.enc, N.kdf (N.sha1 (salt ++ wrong)) p.salt p.iter n) := by
    rw [hs1]; exact setCached_get _ _ _
  have hn1 : s1.keys.enckey = none := by rw [hs1]; rfl
  have hp1 : AMap.get s1.db.mdata .password = some (salt, data) := by rw [hs1]; exact hp
  have h2 := decrypt_calm (N := N) (calm_sub he' 2) hpa hiv (derive_cached (e := (e'.sub 2).sub 0) (op := .enc)
    (k := s1.keys.setKey (N.sha1 (salt ++ pin))) hl rfl hg)
  rw [hw] at h2
  unfold Nss.authUser
  have hk : nssEnckey N (e'.sub 1) pin salt = .ok (N.sha1 (salt ++ pin)) := by
    unfold nssEnckey; rw [calm_fails (calm_sub he' 1)]
  simp only [fetchPassword_calm (calm_sub he' 0) hp1, hk, hn1]
  rw [if_neg (by simp), h2]
  simp only [if_neg hne]

/-- Logins, checks of a PIN and logouts, each with its own environment. -/
inductive NssLogin where
  | login (e : Env) (pin : Bytes) (chk : Bool)
  | logout

/-- A run of such calls. -/
def nssLogins (N : NssLib) (s : Nss) : List NssLogin → Nss
  | [] => s
  | .login e pin chk :: cs => nssLogins N (s.authUser N e .user pin chk).2 cs
  | .logout :: cs => nssLogins N s.unauthUser cs

/-- Only the right key is cached for the entry, and only the right master key is in use. -/
def rightOnly (N : NssLib) (s : Nss) (salt data pin : Bytes) : Prop :=
  AMap.get s.db.mdata .password = some (salt, data) ∧
  ∃ p iv c n, N.parse data = some ⟨.pbes2 (some p) (some iv), c⟩ ∧ p.keyLen = some n ∧
    ∀ v, AMap.get s.keys.cache p.salt = some v → v = (.enc, N.kdf (N.sha1 (salt ++ pin)) p.salt p.iter n)

theorem amap_get_erase_ne {κ α : Type} [DecidableEq κ] (m : List (κ × α)) (x y : κ) (v : α) (h : AMap.get (AMap.erase m x) y = some v) :
    AMap.get m y = some v := by
  by_cases hxy : y = x
  · subst hxy; rw [amap_get_erase] at h; cases h
  · unfold AMap.erase at h
    induction m with
    | nil => cases h
    | cons p m ih =>
      obtain ⟨a, b⟩ := p
      rw [List.filter_cons] at h
      split at h
      · rw [AMap.get] at h ⊢
        split
        · rename_i e; rw [if_pos e] at h; exact h
        · rename_i e; rw [if_neg e] at h; exact ih h
      · rename_i hp
        have hp : a = x := by simpa using hp
        rw [AMap.get, if_neg (by rw [hp]; exact fun e => hxy e.symm)]
        exact ih h

theorem auth_rightOnly {e : Env} {s : Nss} {salt data pin pin' : Bytes} {chk : Bool} (h : rightOnly N s salt data pin)
    (hw : ∀ p iv iv' c n q, N.parse data = some ⟨.pbes2 (some p) (some iv), c⟩ → nssIv iv = .ok iv' →
      N.kdf (N.sha1 (salt ++ q)) p.salt p.iter n ≠ N.kdf (N.sha1 (salt ++ pin)) p.salt p.iter n →
      N.dec (N.kdf (N.sha1 (salt ++ q)) p.salt p.iter n) iv' c = none) :
    rightOnly N (s.authUser N e .user pin' chk).2 salt data pin := by
  obtain ⟨hp, p, iv, c, n, hpa, hkl, hr⟩ := h
  unfold Nss.authUser
  split
  · cases ‹User.user = User.so›
  split
  · exact ⟨hp, p, iv, c, n, hpa, hkl, hr⟩
  · rename_i salt' data' hf
    have hf := fetchPassword_ok hf
    rw [hp] at hf
    injection hf with hf; injection hf with h1 h2; subst h1; subst h2
    split
    · exact ⟨hp, p, iv, c, n, hpa, hkl, hr⟩
    · rename_i key hk
      have hk : key = N.sha1 (salt ++ pin') := by
        unfold nssEnckey at hk
        split at hk
        · cases hk
        · injection hk with hk; exact hk.symm
      subst hk
      split
      · exact ⟨hp, p, iv, c, n, hpa, hkl, hr⟩
      · have key : ∀ v, AMap.get (nssDecrypt N (e.sub 2) (s.keys.setKey (N.sha1 (salt ++ pin'))) data).2.cache p.salt = some v →
            v = (.enc, N.kdf (N.sha1 (salt ++ pin)) p.salt p.iter n) := by
          intro v hv
          unfold nssDecrypt at hv
          simp only [hpa] at hv
          generalize hx : nssDeriveKey N ((e.sub 2).sub 0) (s.keys.setKey (N.sha1 (salt ++ pin'))) p .enc = x at hv
          obtain ⟨r, k1⟩ := x
          cases r with
          | error r =>
            simp only at hv
            unfold nssDeriveKey at hx
            repeat' split at hx
            all_goals first
              | (injection hx with _ hx; subst hx; exact hr v hv)
              | (injection hx with hx _; cases hx)
          | ok w =>
            obtain ⟨_, _, _, hg, hor⟩ := derive_ok hx
            simp only at hv
            rcases hor with ⟨hc, he⟩ | ⟨hc, m, n', hm, hkl', hw', he⟩
            · subst he
              split at hv
              · exact hr v (amap_get_erase_ne _ _ _ _ hv)
              · exact hr v hv
            · have hm : m = N.sha1 (salt ++ pin') := by
                injection hm with hm; exact hm.symm
              subst hm
              rw [hkl] at hkl'
              injection hkl' with hkl'; subst hkl'
              split at hv
              · rw [show (k1.invalidate p.salt).cache = AMap.erase k1.cache p.salt from rfl, amap_get_erase] at hv
                cases hv
              · rename_i pl hdec
                rw [hg] at hv
                injection hv with hv; subst hv; subst hw'
                unfold nssAesDecrypt at hdec
                split at hdec
                · cases hdec
                · rename_i iv' hiv
                  rw [if_neg (by simp)] at hdec
                  split at hdec
                  · cases hdec
                  · split at hdec
                    · cases hdec
                    · rename_i pl' hd
                      by_cases heq : N.kdf (N.sha1 (salt ++ pin')) p.salt p.iter n = N.kdf (N.sha1 (salt ++ pin)) p.salt p.iter n
                      · rw [heq]
                      · rw [hw p iv iv' c n pin' hpa hiv heq] at hd
                        cases hd
        generalize nssDecrypt N (e.sub 2) (s.keys.setKey (N.sha1 (salt ++ pin'))) data = x at key ⊢
        obtain ⟨r, k⟩ := x
        refine ⟨?_, p, iv, c, n, hpa, hkl, ?_⟩
        · cases r with
          | error r => exact hp
          | ok pl => simp only; split <;> exact hp
        · intro v hv
          cases r with
          | error r => exact key v hv
          | ok pl =>
            simp only at hv
            split at hv
            · simp only at hv
              split at hv
              · exact key v hv
              · exact key v hv
            · exact key v hv

/-- **C66 (partial).**  If no wrong key decrypts the password entry to anything, then the right PIN is accepted after any number of logins, with
whatever PINs and failures, and logouts since the process started. -/
theorem C66_right_runs_partial (s : Nss) (pin salt data : Bytes) (hp : AMap.get s.db.mdata .password = some (salt, data)) (ho : opens N salt data pin)
    (hw : ∀ p iv iv' c n q, N.parse data = some ⟨.pbes2 (some p) (some iv), c⟩ → nssIv iv = .ok iv' →
      N.kdf (N.sha1 (salt ++ q)) p.salt p.iter n ≠ N.kdf (N.sha1 (salt ++ pin)) p.salt p.iter n →
      N.dec (N.kdf (N.sha1 (salt ++ q)) p.salt p.iter n) iv' c = none)
    (cs : List NssLogin) (e : Env) (he : calmEnv e) (chk : Bool) :
    ((nssLogins N (restarted s) cs).authUser N e .user pin chk).1 = .ok () := by
  obtain ⟨p, iv, c, n, hpa, hl, hkl, hor⟩ := ho
  have inv : ∀ (cs : List NssLogin) (s : Nss), rightOnly N s salt data pin → rightOnly N (nssLogins N s cs) salt data pin := by
    intro cs
    induction cs with
    | nil => exact fun s h => h
    | cons a cs ih =>
      intro s h
      cases a with
      | login e pin' chk => exact ih _ (auth_rightOnly h hw)
      | logout => exact ih _ h
  have base : rightOnly N (restarted s) salt data pin := ⟨hp, p, iv, c, n, hpa, hkl, fun v hv => by cases hv⟩
  obtain ⟨hp', p', iv0, c', n', hpa', hkl', hr⟩ := inv cs _ base
  rw [hpa] at hpa'
  injection hpa' with hpa'; injection hpa' with h1 h2; injection h1 with h1 h3
  injection h1 with h1; injection h3 with h3; subst h1; subst h2; subst h3
  rw [hkl] at hkl'; injection hkl' with hkl'; subst hkl'
  generalize nssLogins N (restarted s) cs = t at hp' hr
  cases hc : AMap.get t.keys.cache p.salt with
  | none =>
    refine C66_right e he t pin salt data chk hp' ?_ ⟨p, iv, c, n, hpa, hl, hkl, hor⟩
    intro p' iv' c' hpa'
    rw [hpa] at hpa'
    injection hpa' with hpa'; injection hpa' with h1 h2; injection h1 with h1 h3
    injection h1 with h1; subst h1
    exact hc
  | some v =>
    have hv := hr v hc
    subst hv
    refine auth_any he hp' ?_
    intro e2 he2 m
    have hiv : ∃ iv', nssIv iv = .ok iv' ∧ N.dec (N.kdf (N.sha1 (salt ++ pin)) p.salt p.iter n) iv' c = some nssPassCheck := by
      rcases hor with ⟨a, b⟩ | ⟨a, b⟩
      · exact ⟨_, by unfold nssIv; rw [if_pos a], b⟩
      · exact ⟨_, by unfold nssIv; rw [if_neg (by omega), if_pos a], b⟩
    obtain ⟨iv', hiv, hdec⟩ := hiv
    have := decrypt_calm he2 hpa hiv (derive_cached (N := N) (e := e2.sub 0) (op := .enc) (k := t.keys.setKey m) hl rfl hc)
    rw [hdec] at this
    exact this

/-- The SO may log in with any PIN as long as no user PIN was set, and never afterwards. -/
theorem C66_so (e : Env) (he : calmEnv e) (s : Nss) (pin : Bytes) (chk : Bool) :
    (s.authUser N e .so pin chk).1 = .ok () ↔ AMap.get s.db.mdata .password = none := by
  unfold Nss.authUser
  cases h : AMap.get s.db.mdata .password with
  | none =>
    have : s.db.fetchPassword (e.sub 0) = .error .userPinNotInitialized := by
      unfold NssDb.fetchPassword NssDb.fetchMeta
      simp only [calm_fails (calm_sub he 0), h]
      rfl
    simp only [this, if_true]
  | some v =>
    simp only [fetchPassword_calm (calm_sub he 0) h]
    constructor
    · intro h'; cases h'
    · intro h'; cases h'

/-! ## A concrete case -/

/-- DER stand-in of the parameters of PBKDF2. -/
def exNssKdf (p : NssKdf) : Bytes := pack p.salt ++ (pack (natCode p.iter) ++ (match p.keyLen with
  | none => pack []
  | some n => pack (natCode n)))

def exNssUnKdf (l : Bytes) : Option (NssKdf × Bytes) :=
  match unpack l with
  | none => none
  | some (s, l) => match unpack l with
    | none => none
    | some (i, l) => match unpack l with
      | none => none
      | some (n, l) => some (⟨s, natDecode i, if n = [] then none else some (natDecode n)⟩, l)

theorem natCode_ne (n : Nat) : natCode n ≠ [] := by
  unfold natCode
  split <;> simp

theorem exNssUnKdf_kdf (p : NssKdf) (r : Bytes) : exNssUnKdf (exNssKdf p ++ r) = some (p, r) := by
  obtain ⟨s, i, n⟩ := p
  unfold exNssUnKdf exNssKdf
  cases n with
  | none => simp [List.append_assoc, unpack_pack, natDecode_code]
  | some n => simp [List.append_assoc, unpack_pack, natDecode_code, natCode_ne]

def exNssDer (i : NssInfo) : Bytes :=
  match i.scheme with
  | .other => [9, 9, 9] ++ 0 :: i.data
  | .pbes2 none none => [9, 9, 9] ++ 1 :: i.data
  | .pbes2 none (some iv) => [9, 9, 9] ++ 2 :: (pack iv ++ i.data)
  | .pbes2 (some p) none => [9, 9, 9] ++ 3 :: (exNssKdf p ++ i.data)
  | .pbes2 (some p) (some iv) => [9, 9, 9] ++ 4 :: (exNssKdf p ++ (pack iv ++ i.data))
  | .pbmac1 none false => [9, 9, 9] ++ 5 :: i.data
  | .pbmac1 none true => [9, 9, 9] ++ 6 :: i.data
  | .pbmac1 (some p) false => [9, 9, 9] ++ 7 :: (exNssKdf p ++ i.data)
  | .pbmac1 (some p) true => [9, 9, 9] ++ 8 :: (exNssKdf p ++ i.data)

def exNssParse : Bytes → Option NssInfo
  | 9 :: 9 :: 9 :: 0 :: d => some ⟨.other, d⟩
  | 9 :: 9 :: 9 :: 1 :: d => some ⟨.pbes2 none none, d⟩
  | 9 :: 9 :: 9 :: 2 :: l => (unpack l).map fun x => ⟨.pbes2 none (some x.1), x.2⟩
  | 9 :: 9 :: 9 :: 3 :: l => (exNssUnKdf l).map fun x => ⟨.pbes2 (some x.1) none, x.2⟩
  | 9 :: 9 :: 9 :: 4 :: l => match exNssUnKdf l with
    | none => none
    | some (p, l) => (unpack l).map fun x => ⟨.pbes2 (some p) (some x.1), x.2⟩
  | 9 :: 9 :: 9 :: 5 :: d => some ⟨.pbmac1 none false, d⟩
  | 9 :: 9 :: 9 :: 6 :: d => some ⟨.pbmac1 none true, d⟩
  | 9 :: 9 :: 9 :: 7 :: l => (exNssUnKdf l).map fun x => ⟨.pbmac1 (some x.1) false, x.2⟩
  | 9 :: 9 :: 9 :: 8 :: l => (exNssUnKdf l).map fun x => ⟨.pbmac1 (some x.1) true, x.2⟩
  | _ => none

theorem exNssParse_der (i : NssInfo) : exNssParse (exNssDer i) = some i := by
  obtain ⟨s, d⟩ := i
  cases s with
  | other => rfl
  | pbes2 k iv => cases k <;> cases iv <;> simp [exNssDer, exNssParse, exNssUnKdf_kdf, unpack_pack]
  | pbmac1 k h => cases k <;> cases h <;> simp [exNssDer, exNssParse, exNssUnKdf_kdf]

/-- Transparent cryptography with the laws. -/
def exNss : NssLib where
  sha1 := fun b => b
  kdf := fun m s _ _ => m ++ s
  enc := fun k iv p => exSeal k iv [] p
  dec := fun k iv c => exDec k iv [] (c, [])
  mac := fun k m => toBE 32 (fromBE (k ++ m))
  der := exNssDer
  parse := exNssParse

theorem exNss_ok : NssOk exNss where
  dec_enc := fun k iv p => exDec_seal k iv [] p
  parse_der := exNssParse_der
  der_long := fun i => by
    obtain ⟨s, d⟩ := i
    show 3 < (exNssDer ⟨s, d⟩).length
    cases s with
    | other => simp [exNssDer]
    | pbes2 k iv => cases k <;> cases iv <;> simp [exNssDer]
    | pbmac1 k h => cases k <;> cases h <;> simp [exNssDer]
  mac_len := fun _ _ => by
    show (toBE 32 _).length = 32
    have : ∀ k n, (toLE k n).length = k := by
      intro k
      induction k with
      | zero => intro n; rfl
      | succ k ih => intro n; rw [toLE, List.length_cons, ih]
    unfold toBE
    rw [List.length_reverse, this]

/-- A calm environment whose random bytes are `n`. -/
def exCalm (n : UInt8) : Env := ⟨fun _ => none, fun _ => List.replicate 64 n, fun _ => []⟩

theorem exCalm_ok (n : UInt8) : calmEnv (exCalm n) := fun _ => rfl

/-- An empty database on which the PIN "abcd" was set. -/
def exNssSet : Nss := ((⟨⟨[], [], []⟩, NssKeys.default⟩ : Nss).setUserPin exNss (exCalm 7) .user [97, 98, 99, 100]).2

set_option maxRecDepth 20000 in
/-- Witness of the theorems: the PIN is set; after a restart the right one is accepted and another refused; after login and logout the other one is
accepted. -/
theorem C66_witness :
    ((⟨⟨[], [], []⟩, NssKeys.default⟩ : Nss).setUserPin exNss (exCalm 7) .user [97, 98, 99, 100]).1 = .ok () ∧
    ((restarted exNssSet).authUser exNss (exCalm 0) .user [97, 98, 99, 100] false).1 = .ok () ∧
    ((restarted exNssSet).authUser exNss (exCalm 0) .user [97, 98, 99, 101] false).1 = .error .encryptedDataInvalid ∧
    (((restarted exNssSet).authUser exNss (exCalm 0) .user [97, 98, 99, 100] false).2.unauthUser.authUser exNss (exCalm 0) .user [97, 98, 99, 101] false).1
      = .ok () ∧
    (exNssSet.authUser exNss (exCalm 0) .user [] false).1 = .ok () := by
  decide +kernel

/-- A cipher without redundancy: every key decrypts everything. -/
def exNssXor : NssLib := { exNss with
  enc := fun k _ p => p.map fun b => b ^^^ k.foldl (· ^^^ ·) 0
  dec := fun k _ c => some (c.map fun b => b ^^^ k.foldl (· ^^^ ·) 0) }

/-- As `exNssSet`, with that cipher. -/
def exNssSetXor : Nss := restarted ((⟨⟨[], [], []⟩, NssKeys.default⟩ : Nss).setUserPin exNssXor (exCalm 7) .user [97, 98, 99, 100]).2

set_option maxRecDepth 20000 in
/-- Witness of `C66_lockout_violation`: the right PIN is accepted first, but refused after a wrong one. -/
theorem C66_lockout_witness :
    (exNssSetXor.authUser exNssXor (exCalm 0) .user [97, 98, 99, 100] false).1 = .ok () ∧
    (exNssSetXor.authUser exNssXor (exCalm 0) .user [97, 98, 99, 101] false).1 = .error .pinIncorrect ∧
    ((exNssSetXor.authUser exNssXor (exCalm 0) .user [97, 98, 99, 101] false).2.authUser exNssXor (exCalm 0) .user [97, 98, 99, 100] false).1
      = .error .pinIncorrect := by
  decide +kernel

end Kry
