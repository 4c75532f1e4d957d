import Verif.Spec.Nss

/-! Facts about the key cache of the NSS backend. -/

namespace Kry

open Spec (calmEnv)

theorem calm_sub {e : Env} (h : calmEnv e) (i : Nat) : calmEnv (e.sub i) := fun p => h (i :: p)

theorem calm_fails {e : Env} (h : calmEnv e) : e.fails = none := h []

theorem amap_get_insert {κ α : Type} [DecidableEq κ] (m : List (κ × α)) (x : κ) (v : α) : AMap.get (AMap.insert m x v) x = some v := by
  unfold AMap.insert AMap.get
  rw [if_pos rfl]

theorem amap_get_erase {κ α : Type} [DecidableEq κ] (m : List (κ × α)) (x : κ) : AMap.get (AMap.erase m x) x = none := by
  unfold AMap.erase
  induction m with
  | nil => rfl
  | cons p m ih =>
    rw [List.filter_cons]
    split
    · rename_i hp
      have hp : p.1 ≠ x := by simpa using hp
      obtain ⟨a, b⟩ := p
      rw [AMap.get, if_neg hp, ih]
    · exact ih

theorem setCached_get (k : NssKeys) (s : Bytes) (v : NssKeyOp × Bytes) : AMap.get (k.setCached s v).cache s = some v := by
  unfold NssKeys.setCached
  exact amap_get_insert _ _ _

theorem setCached_key (k : NssKeys) (s : Bytes) (v : NssKeyOp × Bytes) : (k.setCached s v).enckey = k.enckey := rfl

variable {N : NssLib}

/-- A key that was derived: its salt has 32 bytes, and it came from the cache or was made from the master key and put there. -/
theorem derive_ok {e : Env} {k k' : NssKeys} {p : NssKdf} {op : NssKeyOp} {v : NssKeyOp × Bytes}
    (h : nssDeriveKey N e k p op = (.ok v, k')) :
    p.salt.length = 32 ∧ k.enckey.isSome ∧ k'.enckey = k.enckey ∧ AMap.get k'.cache p.salt = some v ∧
      ((AMap.get k.cache p.salt = some v ∧ k' = k) ∨
       (AMap.get k.cache p.salt = none ∧ ∃ m n, k.enckey = some m ∧ p.keyLen = some n ∧ v = (op, N.kdf m p.salt p.iter n) ∧ k' = k.setCached p.salt v)) := by
  unfold nssDeriveKey at h
  split at h
  · cases h
  · rename_i hl
    have hl : p.salt.length = 32 := by simpa using hl
    split at h
    · rename_i v' hc
      injection h with h1 h2; injection h1 with h1
      subst h1; subst h2
      unfold NssKeys.cached at hc
      split at hc
      · cases hc
      · rename_i hk
        exact ⟨hl, by cases hx : k.enckey <;> simp_all, rfl, hc, Or.inl ⟨hc, rfl⟩⟩
    · rename_i hc
      split at h
      · cases h
      · rename_i n hn
        split at h
        · cases h
        · rename_i m hm
          split at h
          · cases h
          · injection h with h1 h2; injection h1 with h1
            subst h1; subst h2
            unfold NssKeys.cached at hc
            rw [hm] at hc
            rw [if_neg (by simp)] at hc
            exact ⟨hl, by rw [hm]; rfl, rfl, setCached_get _ _ _, Or.inr ⟨hc, m, n, hm, hn, rfl, rfl⟩⟩

/-- Deriving a key does not touch the master key. -/
theorem derive_enckey (e : Env) (k : NssKeys) (p : NssKdf) (op : NssKeyOp) : (nssDeriveKey N e k p op).2.enckey = k.enckey := by
  unfold nssDeriveKey
  repeat' split
  all_goals rfl

theorem decrypt_enckey (e : Env) (k : NssKeys) (d : Bytes) : (nssDecrypt N e k d).2.enckey = k.enckey := by
  unfold nssDecrypt
  have a := fun p => derive_enckey (N := N) (e.sub 0) k p .enc
  split
  · rfl
  · rename_i p iv c _
    have a := a p
    generalize nssDeriveKey N (e.sub 0) k p .enc = x at a ⊢
    obtain ⟨r, k1⟩ := x
    cases r with
    | error r => exact a
    | ok v =>
      simp only at a ⊢
      repeat' split
      all_goals exact a
  · rfl

/-- What a successful decryption tells. -/
theorem decrypt_ok {e : Env} {k k' : NssKeys} {d plain : Bytes} (h : nssDecrypt N e k d = (.ok plain, k')) :
    ∃ p iv c iv' key, N.parse d = some ⟨.pbes2 (some p) (some iv), c⟩ ∧ nssIv iv = .ok iv' ∧
      nssDeriveKey N (e.sub 0) k p .enc = (.ok (.enc, key), k') ∧ N.dec key iv' c = some plain := by
  unfold nssDecrypt at h
  split at h
  · cases h
  · rename_i p iv c hp
    generalize hx : nssDeriveKey N (e.sub 0) k p .enc = x at h
    obtain ⟨r, k1⟩ := x
    cases r with
    | error r => cases h
    | ok v =>
      simp only at h
      split at h
      · cases h
      · rename_i iv0
        split at h
        · cases h
        · rename_i pl hd
          injection h with h1 h2; injection h1 with h1; subst h1; subst h2
          unfold nssAesDecrypt at hd
          split at hd
          · cases hd
          · rename_i iv' hiv
            obtain ⟨op, key⟩ := v
            simp only at hd
            split at hd
            · cases hd
            · rename_i hop
              have hop : op = .enc := by cases op <;> simp_all
              subst hop
              split at hd
              · cases hd
              · split at hd
                · cases hd
                · rename_i pl' hdec
                  injection hd with hd; subst hd
                  exact ⟨p, _, c, iv', key, hp, hiv, hx, hdec⟩
  · cases h

/-- Decryption with the key at hand in the cache, or derivable. -/
theorem decrypt_calm {e : Env} (he : calmEnv e) {k k' : NssKeys} {d c iv iv' key : Bytes} {p : NssKdf}
    (hp : N.parse d = some ⟨.pbes2 (some p) (some iv), c⟩) (hiv : nssIv iv = .ok iv')
    (hk : nssDeriveKey N (e.sub 0) k p .enc = (.ok (.enc, key), k')) :
    nssDecrypt N e k d = match N.dec key iv' c with
      | some plain => (.ok plain, k')
      | none => (.error .encryptedDataInvalid, k'.invalidate p.salt) := by
  unfold nssDecrypt
  simp only [hp, hk]
  unfold nssAesDecrypt
  simp only [hiv, calm_fails (calm_sub he 1), ne_eq, not_true_eq_false, if_false]
  cases N.dec key iv' c <;> rfl

/-- A cached key is used whatever the master key. -/
theorem derive_cached {e : Env} {k : NssKeys} {p : NssKdf} {op : NssKeyOp} {v : NssKeyOp × Bytes} (hl : p.salt.length = 32)
    (hs : k.enckey.isSome) (hc : AMap.get k.cache p.salt = some v) : nssDeriveKey N e k p op = (.ok v, k) := by
  unfold nssDeriveKey
  rw [if_neg (by simpa using hl)]
  have : k.cached p.salt = some v := by
    unfold NssKeys.cached
    rw [if_neg (by cases hx : k.enckey <;> simp_all), hc]
  rw [this]

/-- A key that is not cached is made from the master key. -/
theorem derive_fresh {e : Env} (he : calmEnv e) {k : NssKeys} {p : NssKdf} {op : NssKeyOp} {m : Bytes} {n : Nat} (hl : p.salt.length = 32)
    (hm : k.enckey = some m) (hc : AMap.get k.cache p.salt = none) (hn : p.keyLen = some n) :
    nssDeriveKey N e k p op = (.ok (op, N.kdf m p.salt p.iter n), k.setCached p.salt (op, N.kdf m p.salt p.iter n)) := by
  unfold nssDeriveKey
  rw [if_neg (by simpa using hl)]
  have : k.cached p.salt = none := by
    unfold NssKeys.cached
    split
    · rfl
    · exact hc
  simp only [this, hn, hm, calm_fails he]

end Kry
