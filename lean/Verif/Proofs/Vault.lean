import Verif.Proofs.Gone
import Verif.Proofs.FetchQuiet
import Verif.Spec.Pins

/-!
# The PINs and the master key of a token

`Pins` says for each user which PIN wraps the master key in the database and how many attempts failed;
`DbVault` ties it to the rows of the `meta` table.
-/

namespace Kry
open Spec

theorem quiet_plain {e : Env} (q : quiet e) : plain e := fun p r h => by rw [q p] at h; cases h
theorem plain_sub {e : Env} (q : plain e) (i : Nat) : plain (e.sub i) := fun p r h => q (i :: p) r h
theorem plain_fails {e : Env} (q : plain e) {r : Rv} (h : e.fails = some r) : ¬ refusedPin r := (q [] r h).1

/-- The PIN of each user and the number of failed attempts. -/
abbrev Pins := User → Option (Bytes × Nat)

/-- Change one user's entry. -/
def setU (π : Pins) (u : User) (x : Option (Bytes × Nat)) : Pins := fun w => if w = u then x else π w

/-- `b` is the master key `K` of version `v` wrapped for user `u` under `pin`. -/
def Wrapped (C : Crypto) (v : Nat) (K : Bytes) (u : User) (pin b : Bytes) : Prop :=
  ∃ salt it iv, b = C.der ⟨v, .pbkdf2 salt it, iv, (C.enc (C.kek pin salt it) iv u.id K).2,
    (C.enc (C.kek pin salt it) iv u.id K).1⟩

structure DbVault (C : Crypto) (db : Db) (K : Bytes) (v : Nat) (π : Pins) : Prop where
  len : K.length = 32
  nodup : (AMap.keys db.metaT).Nodup
  flags : ∀ u, AMap.get db.metaT (.userFlags u) = none
  absent : ∀ u, π u = none → AMap.get db.metaT (.userData u) = none ∧ AMap.get db.metaT (.userCounter u) = none
  present : ∀ u p n, π u = some (p, n) → n ≤ 10 ∧ AMap.get db.metaT (.userCounter u) = some (toLE 4 n) ∧
    ∃ b, AMap.get db.metaT (.userData u) = some b ∧ Wrapped C v K u p b

structure AciOk (a : Aci) (K : Bytes) (v : Nat) : Prop where
  enc : a.encrypt = true
  key : ∀ k, a.key = some k → k = K ∧ a.keyVersion = v

structure TVault (C : Crypto) (t : Token) (K : Bytes) (v : Nat) (π : Pins) : Prop where
  db : DbVault C t.store.db K v π
  aci : AciOk t.store.aci K v
  logged : ∀ u, t.logged = some u → π u ≠ none ∧ t.store.aci.key = some K

section
variable {C : Crypto} {db : Db} {K : Bytes} {v : Nat} {π : Pins}

theorem DbVault.congr {db' : Db} (h : DbVault C db K v π) (e : db'.metaT = db.metaT) : DbVault C db' K v π :=
  ⟨h.len, e ▸ h.nodup, fun u => e ▸ h.flags u, fun u hu => e ▸ h.absent u hu, fun u p n hu => e ▸ h.present u p n hu⟩

theorem DbVault.fetch (h : DbVault C db K v π) (e : Env) (u : User) :
    (∃ r, e.fails = some r ∧ db.fetchUser e u = .error r) ∨
    (e.fails = none ∧ π u = none ∧ db.fetchUser e u = .error .userPinNotInitialized) ∨
    ∃ p n b, e.fails = none ∧ π u = some (p, n) ∧ n ≤ 10 ∧ Wrapped C v K u p b ∧
      db.fetchUser e u = .ok ⟨false, some b, 10, n⟩ := by
  unfold Db.fetchUser
  cases hf : e.fails with
  | some r => exact .inl ⟨r, rfl, rfl⟩
  | none =>
    right
    simp only
    rw [h.flags u]
    cases hp : π u with
    | none =>
      left
      obtain ⟨h1, h2⟩ := h.absent u hp
      rw [h1, h2]
      exact ⟨trivial, rfl, rfl⟩
    | some q =>
      right
      obtain ⟨p, n⟩ := q
      obtain ⟨hn, h1, b, h2, hw⟩ := h.present u p n hp
      refine ⟨p, n, b, trivial, rfl, hn, hw, ?_⟩
      rw [h1, h2]
      have l4 : (toLE 4 n).length = 4 := by simp [toLE]
      have f4 : fromLE (toLE 4 n) = n := fromLE_toLE 4 n (by omega)
      simp [l4, f4]

/-- `store_user` either fails and changes nothing or sets one entry. -/
theorem DbVault.store (h : DbVault C db K v π) (e : Env) (u : User) {p b : Bytes} {n : Nat} (hn : n ≤ 10)
    (hw : Wrapped C v K u p b) :
    ((∃ r, e.fails = some r ∧ db.storeUser e u ⟨false, some b, 10, n⟩ = (.error r, db)) ∨
     (e.fails = none ∧ (db.storeUser e u ⟨false, some b, 10, n⟩).1 = .ok () ∧
      DbVault C (db.storeUser e u ⟨false, some b, 10, n⟩).2 K v (setU π u (some (p, n))) ∧
      (db.storeUser e u ⟨false, some b, 10, n⟩).2.objs = db.objs ∧
      (db.storeUser e u ⟨false, some b, 10, n⟩).2.ready = db.ready)) := by
  unfold Db.storeUser
  have hlt : n < 2 ^ 32 := by omega
  simp only [hlt, not_true, if_false]
  cases hf : e.fails with
  | some r => exact .inl ⟨r, rfl, rfl⟩
  | none =>
    right
    refine ⟨rfl, rfl, ⟨h.len, AMap.nodup_insert _ _ (AMap.nodup_insert _ _ h.nodup), fun w => ?_, fun w hw' => ?_, fun w q m hq => ?_⟩, rfl, rfl⟩
    · simp [AMap.get_insert, h.flags w]
    · unfold setU at hw'
      split at hw'
      · cases hw'
      · rename_i hne
        have hne' : ¬ u = w := fun e => hne e.symm
        obtain ⟨h1, h2⟩ := h.absent w hw'
        constructor <;> simp [AMap.get_insert, hne', h1, h2]
    · unfold setU at hq
      split at hq
      · rename_i he
        subst he
        injection hq with hq; injection hq with e1 e2; subst e1; subst e2
        exact ⟨hn, by simp [AMap.get_insert], b, by simp [AMap.get_insert], hw⟩
      · rename_i hne
        have hne' : ¬ u = w := fun e => hne e.symm
        obtain ⟨h1, h2, b', h3, h4⟩ := h.present w q m hq
        exact ⟨h1, by simp [AMap.get_insert, hne', h2], b', by simp [AMap.get_insert, hne', h3], h4⟩

/-- Without users the master key is of no consequence. -/
theorem DbVault.free (h : DbVault C db K v π) (hn : ∀ u, π u = none) {K' : Bytes} {v' : Nat}
    (hl : K'.length = 32) : DbVault C db K' v' π :=
  ⟨hl, h.nodup, h.flags, h.absent, fun u p n hu => by rw [hn u] at hu; cases hu⟩

end

/-! ## Opening the wrapped key -/

variable {C : Crypto}

theorem userId_inj {u w : User} (h : u.id = w.id) : u = w := by
  cases u <;> cases w <;> first | rfl | (revert h; decide)

/-- Opening with any PIN: the right one (up to the block `K0` of HMAC) gives the key, any other fails. -/
theorem decryptKey_wrapped {e : Env} {v : Nat} {K p b pin : Bytes} {u : User} (hw : Wrapped C v K u p b)
    (hf : e.fails = none) :
    decryptKey C e u.id pin b = if C.pinKey pin = C.pinKey p then .ok (v, K) else .error .encryptedDataInvalid := by
  obtain ⟨salt, it, iv, rfl⟩ := hw
  unfold decryptKey
  rw [C.parse_der]
  simp only [hf]
  by_cases hk : C.pinKey pin = C.pinKey p
  · rw [if_pos hk]
    unfold Crypto.kek
    rw [hk]
    have h := C.dec_enc (C.kek0 (C.pinKey p) salt it) iv u.id K
    rw [show ((C.enc (C.kek0 (C.pinKey p) salt it) iv u.id K).1, (C.enc (C.kek0 (C.pinKey p) salt it) iv u.id K).2) =
      C.enc (C.kek0 (C.pinKey p) salt it) iv u.id K from rfl, h]
  · rw [if_neg hk]
    cases hd : C.dec (C.kek pin salt it) iv u.id ((C.enc (C.kek p salt it) iv u.id K).1,
        (C.enc (C.kek p salt it) iv u.id K).2) with
    | none => rfl
    | some k =>
      have h1 := C.enc_of_dec _ _ _ _ _ hd
      have h2 := (C.enc_inj _ _ _ _ _ _ _ _ h1).1
      exact absurd (C.kek0_inj _ _ _ _ _ _ h2) hk

theorem decryptKey_fault {e : Env} {v : Nat} {K p b pin : Bytes} {u : User} {r : Rv} (hw : Wrapped C v K u p b)
    (hf : e.fails = some r) : decryptKey C e u.id pin b = .error r := by
  obtain ⟨salt, it, iv, rfl⟩ := hw
  unfold decryptKey
  rw [C.parse_der]
  simp only [hf]

theorem encryptKey_ok {e : Env} {v : Nat} {K pin : Bytes} {u : User} :
    (∃ r, e.fails = some r ∧ encryptKey C e u.id pin v K = .error r) ∨
    ∃ b, e.fails = none ∧ encryptKey C e u.id pin v K = .ok b ∧ Wrapped C v K u pin b := by
  unfold encryptKey
  cases e.fails with
  | some r => exact .inl ⟨r, rfl, rfl⟩
  | none => exact .inr ⟨_, rfl, rfl, _, _, _, rfl⟩

/-! ## Authentication -/

/-- What an undisturbed attempt answers and changes. -/
def authP (C : Crypto) (π : Pins) (u : User) (pin : Bytes) : Res Unit × Pins :=
  match π u with
  | none => (.error .userPinNotInitialized, π)
  | some (p, n) =>
    if 10 ≤ n then (.error .pinLocked, π)
    else if C.pinKey pin = C.pinKey p then (.ok (), setU π u (some (p, 0)))
    else (.error (if 10 ≤ n + 1 then .pinLocked else .pinIncorrect), setU π u (some (p, n + 1)))

/-- The same PINs are in force. -/
def samePins (π π' : Pins) : Prop := ∀ u, (π' u).map Prod.fst = (π u).map Prod.fst

theorem samePins.refl (π : Pins) : samePins π π := fun _ => rfl
theorem samePins.trans {a b c : Pins} (x : samePins a b) (y : samePins b c) : samePins a c :=
  fun u => (y u).trans (x u)

theorem setU_self {π : Pins} {u : User} {x : Option (Bytes × Nat)} (h : π u = x) : setU π u x = π := by
  funext w
  unfold setU
  split
  · rename_i e; rw [e, h]
  · rfl

theorem setU_same {π : Pins} {u : User} {p : Bytes} {n m : Nat} (h : π u = some (p, n)) :
    samePins π (setU π u (some (p, m))) := by
  intro w
  unfold setU
  split
  · rename_i e; rw [e, h]; rfl
  · rfl

theorem setU_none {π : Pins} {u w : User} {x : Bytes × Nat} (h : π w ≠ none) : setU π u (some x) w ≠ none := by
  unfold setU
  split
  · simp
  · exact h

/-- The counter has been touched only. -/
structure AuthOut (C : Crypto) (e : Env) (s : Store) (K : Bytes) (v : Nat) (π : Pins) (u : User) (pin : Bytes)
    (co : Bool) (x : Res Unit × Nat × Store) : Prop where
  pins : ∃ π', DbVault C x.2.2.db K v π' ∧ samePins π π' ∧ (quiet e → (x.1, π') = authP C π u pin)
  aci : AciOk x.2.2.aci K v
  right : x.1 = .ok () → ∃ p n, π u = some (p, n) ∧ C.pinKey pin = C.pinKey p ∧ (co = false → x.2.2.aci.key = some K)
  keep : co = true ∨ x.1 ≠ .ok () → x.2.2.aci = s.aci
  objs : x.2.2.db.objs = s.db.objs
  ready : x.2.2.db.ready = s.db.ready

theorem store_authUser {e : Env} {s : Store} {K : Bytes} {v : Nat} {π : Pins} {u : User} {pin : Bytes} {co : Bool}
    (hd : DbVault C s.db K v π) (ha : AciOk s.aci K v) :
    AuthOut C e s K v π u pin co (s.authUser C e u pin co) := by
  unfold Store.authUser
  rcases hd.fetch (e.sub 0) u with ⟨r, hf, hx⟩ | ⟨hf, hp, hx⟩ | ⟨p, n, b, hf, hp, hn, hw, hx⟩
  · rw [hx]
    exact ⟨⟨π, hd, .refl _, fun q => (by have := quiet_fails (quiet_sub q 0); rw [hf] at this; cases this)⟩, ha,
      fun h => (by cases h), fun _ => rfl, rfl, rfl⟩
  · rw [hx]
    exact ⟨⟨π, hd, .refl _, fun _ => by unfold authP; rw [hp]⟩, ha, fun h => (by cases h), fun _ => rfl, rfl, rfl⟩
  · rw [hx]
    simp only [Aci.authenticate, AuthInfo.locked]
    by_cases hl : 10 ≤ n
    · have h0 : n ≠ 0 := by omega
      simp only [hl, decide_true, if_true, Bool.false_eq_true, if_false, h0]
      exact ⟨⟨π, hd, .refl _, fun _ => by unfold authP; rw [hp]; simp [hl]⟩, ha, fun h => (by cases h),
        fun _ => rfl, rfl, rfl⟩
    · simp only [hl, decide_false, Bool.false_eq_true, if_false]
      have key : (e.sub 1).fails = none → C.pinKey pin = C.pinKey p →
          decryptKey C (e.sub 1) u.id pin b = .ok (v, K) := fun h1 h2 => by rw [decryptKey_wrapped hw h1, if_pos h2]
      by_cases hg : (e.sub 1).fails = none ∧ C.pinKey pin = C.pinKey p
      · rw [key hg.1 hg.2]
        simp only [ha.enc, if_true, hd.len]
        have fin : ∀ (db : Db), DbVault C db K v (setU π u (some (p, 0))) → db.objs = s.db.objs →
            db.ready = s.db.ready →
            AuthOut C e s K v π u pin co (.ok (), 0, ⟨db, if (!co) = true then ⟨v, some K, true⟩ else s.aci⟩) := by
          intro db h1 h2 h3
          refine ⟨⟨_, h1, setU_same hp, fun _ => ?_⟩, ?_, fun _ => ⟨p, n, hp, hg.2, fun h => by simp [h]⟩, ?_, h2, h3⟩
          · unfold authP; rw [hp]; simp [hl, hg.2]
          · cases co
            · exact ⟨rfl, fun k hk => by injection hk with hk; exact ⟨hk.symm, rfl⟩⟩
            · exact ha
          · intro h
            rcases h with h | h
            · simp [h]
            · exact absurd rfl h
        have he : ({ s.aci with keyVersion := v, key := some K } : Aci) = ⟨v, some K, true⟩ := by rw [← ha.enc]
        by_cases h0 : n = 0
        · subst h0
          have := fin s.db (by rw [setU_self hp]; exact hd) rfl rfl
          cases co <;> simpa [he] using this
        · have hlt : ∃ db, (s.db.storeUser (e.sub 2) u ⟨false, some b, 10, 0⟩).2 = db ∧
              ((e.sub 2).fails = none → DbVault C db K v (setU π u (some (p, 0)))) ∧
              ((e.sub 2).fails ≠ none → db = s.db) ∧ db.objs = s.db.objs ∧ db.ready = s.db.ready := by
            rcases hd.store (e.sub 2) u (n := 0) (by omega) hw with ⟨r, h1, h2⟩ | ⟨h1, h2, h3, h4, h5⟩
            · exact ⟨_, rfl, fun h => (by rw [h1] at h; cases h), fun _ => (by rw [h2]), (by rw [h2]), (by rw [h2])⟩
            · exact ⟨_, rfl, fun _ => h3, fun h => absurd h1 h, h4, h5⟩
          obtain ⟨db, e1, d1, d2, d3, d4⟩ := hlt
          have : AuthOut C e s K v π u pin co (.ok (), 0, ⟨db, if (!co) = true then ⟨v, some K, true⟩ else s.aci⟩) := by
            by_cases h2 : (e.sub 2).fails = none
            · exact fin db (d1 h2) d3 d4
            · have hdb := d2 h2
              subst hdb
              have f2 := fin
              refine ⟨⟨π, hd, .refl _, fun q => absurd (quiet_fails (quiet_sub q 2)) h2⟩, ?_,
                fun _ => ⟨p, n, hp, hg.2, fun h => by simp [h]⟩, ?_, rfl, rfl⟩
              · cases co
                · exact ⟨rfl, fun k hk => by injection hk with hk; exact ⟨hk.symm, rfl⟩⟩
                · exact ha
              · intro h
                rcases h with h | h
                · simp [h]
                · exact absurd rfl h
          cases co <;> simpa [he, h0, e1] using this
      · have hbad : ∃ r, decryptKey C (e.sub 1) u.id pin b = .error r := by
          cases hf1 : (e.sub 1).fails with
          | some r => exact ⟨r, decryptKey_fault hw hf1⟩
          | none =>
            refine ⟨_, (decryptKey_wrapped hw hf1).trans (if_neg fun h => hg ⟨hf1, h⟩)⟩
        obtain ⟨r, hr⟩ := hbad
        rw [hr]
        simp only [if_true, Nat.add_eq_zero_iff, Nat.one_ne_zero, and_false, if_false]
        have hq : quiet e → C.pinKey pin ≠ C.pinKey p := fun q h =>
          hg ⟨quiet_fails (quiet_sub q 1), h⟩
        have fin : ∀ (db : Db) (f : Nat) (π' : Pins), DbVault C db K v π' → samePins π π' →
            (quiet e → π' = setU π u (some (p, n + 1))) → db.objs = s.db.objs → db.ready = s.db.ready →
            AuthOut C e s K v π u pin co (.error (if 10 ≤ n + 1 then .pinLocked else .pinIncorrect), f, ⟨db, s.aci⟩) := by
          intro db f π' h1 h2 h3 h4 h5
          refine ⟨⟨π', h1, h2, fun q => ?_⟩, ha, fun h => (by cases h), fun _ => rfl, h4, h5⟩
          unfold authP; rw [hp]
          simp [hl, hq q, h3 q]
        rcases hd.store (e.sub 2) u (n := n + 1) (by omega) hw with ⟨r2, h1, h2⟩ | ⟨h1, h2, h3, h4, h5⟩
        · rw [h2]
          by_cases h10 : 10 ≤ n + 1
          · have := fin s.db (userFlags u ⟨false, some b, 10, n + 1⟩ 0) π hd (.refl _)
              (fun q => by have := quiet_fails (quiet_sub q 2); rw [h1] at this; cases this) rfl rfl
            simpa [h10] using this
          · have := fin s.db (userFlags u ⟨false, some b, 10, n + 1⟩ 0) π hd (.refl _)
              (fun q => by have := quiet_fails (quiet_sub q 2); rw [h1] at this; cases this) rfl rfl
            simpa [h10] using this
        · by_cases h10 : 10 ≤ n + 1
          · have := fin _ (userFlags u ⟨false, some b, 10, n + 1⟩ 0) _ h3 (setU_same hp) (fun _ => rfl) h4 h5
            simpa [h10] using this
          · have := fin _ (userFlags u ⟨false, some b, 10, n + 1⟩ 0) _ h3 (setU_same hp) (fun _ => rfl) h4 h5
            simpa [h10] using this

end Kry
