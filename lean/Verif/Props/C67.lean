import Verif.Props.C66
import Verif.Proofs.Basic

/-!
# C67: changing the PIN of an NSS database

`set_user_pin` replaces the password entry and nothing else.
-/

namespace Kry

open Spec (calmEnv opens NssOk restarted)

variable {N : NssLib}

/-- **C67 (partial).**  A PIN change leaves every object and every signature of the database alone. -/
theorem C67_rows_partial (e : Env) (s : Nss) (u : User) (pin : Bytes) :
    (s.setUserPin N e u pin).2.db.pub = s.db.pub ∧ (s.setUserPin N e u pin).2.db.priv = s.db.priv ∧
      ∀ t id ty, AMap.get (s.setUserPin N e u pin).2.db.mdata (.sig t id ty) = AMap.get s.db.mdata (.sig t id ty) := by
  unfold Nss.setUserPin
  have ins : ∀ (m : List (NssMeta × (Bytes × Bytes))) v t id ty, AMap.get (AMap.insert m .password v) (.sig t id ty) = AMap.get m (.sig t id ty) := by
    intro m v t id ty
    unfold AMap.insert
    rw [AMap.get, if_neg (by simp)]
    unfold AMap.erase
    induction m with
    | nil => rfl
    | cons p m ih =>
      obtain ⟨a, b⟩ := p
      rw [List.filter_cons]
      split
      · rw [AMap.get, AMap.get, ih]
      · rename_i hp
        have hp : a = .password := by simpa using hp
        subst hp
        rw [ih, AMap.get, if_neg (by simp)]
  split
  · exact ⟨rfl, rfl, fun _ _ _ => rfl⟩
  split
  · exact ⟨rfl, rfl, fun _ _ _ => rfl⟩
  split
  · exact ⟨rfl, rfl, fun _ _ _ => rfl⟩
  simp only
  split
  · exact ⟨rfl, rfl, fun _ _ _ => rfl⟩
  split
  · exact ⟨rfl, rfl, fun _ _ _ => rfl⟩
  unfold NssDb.saveMeta
  split
  · exact ⟨rfl, rfl, fun _ _ _ => rfl⟩
  · rename_i d hd
    split at hd
    · cases hd
    · injection hd with hd
      subst hd
      split
      · exact ⟨rfl, rfl, fun _ _ _ => rfl⟩
      · exact ⟨rfl, rfl, ins _ _⟩

/-- A refused PIN change (length, failure of the environment) leaves the database alone. -/
theorem C67_refused (e : Env) (s : Nss) (u : User) (pin : Bytes) (h : (s.setUserPin N e u pin).1 ≠ .ok ()) : (s.setUserPin N e u pin).2.db = s.db := by
  unfold Nss.setUserPin at h ⊢
  split
  · rfl
  rename_i c1; rw [if_neg c1] at h
  split
  · rfl
  rename_i c2; rw [if_neg c2] at h
  split
  · rfl
  rename_i c3; simp only [c3] at h
  simp only
  split
  · rfl
  rename_i c4; simp only [c4] at h
  split
  · rfl
  rename_i c5; simp only [c5] at h
  split
  · rfl
  rename_i c6; simp only [c6] at h
  split
  · rfl
  rename_i c7; simp only [c7] at h
  exact absurd rfl h

/-- All the keys at hand were made from one master key. -/
def keysOf (N : NssLib) (m : Bytes) (k : NssKeys) : Prop :=
  k.enckey = some m ∧ ∀ salt v, AMap.get k.cache salt = some v → ∃ i n, v.2 = N.kdf m salt i n

theorem amap_insert_ne {κ α : Type} [DecidableEq κ] (m : List (κ × α)) (x y : κ) (v w : α) (hne : y ≠ x) (h : AMap.get (AMap.insert m x v) y = some w) :
    AMap.get m y = some w := by
  unfold AMap.insert at h
  rw [AMap.get, if_neg (fun e => hne e.symm)] at h
  exact amap_get_erase_ne _ _ _ _ h

theorem setCached_ne {k : NssKeys} {x y : Bytes} {v w : NssKeyOp × Bytes} (hne : y ≠ x) (h : AMap.get (k.setCached x v).cache y = some w) :
    AMap.get k.cache y = some w := by
  unfold NssKeys.setCached at h
  have h := amap_insert_ne _ _ _ _ _ hne h
  split at h
  · split at h
    · exact h
    · exact amap_get_erase_ne _ _ _ _ h
  · exact h

theorem keysOf_derive {e : Env} {m : Bytes} {k : NssKeys} (h : keysOf N m k) (p : NssKdf) (op : NssKeyOp) :
    keysOf N m (nssDeriveKey N e k p op).2 ∧ ∀ v, (nssDeriveKey N e k p op).1 = .ok v → ∃ i n, v.2 = N.kdf m p.salt i n := by
  generalize hx : nssDeriveKey N e k p op = x
  obtain ⟨r, k'⟩ := x
  cases r with
  | error r =>
    refine ⟨?_, fun v hv => by cases hv⟩
    unfold nssDeriveKey at hx
    repeat' split at hx
    all_goals first
      | (injection hx with _ hx; subst hx; exact h)
      | (injection hx with hx _; cases hx)
  | ok w =>
    obtain ⟨_, _, _, _, hor⟩ := derive_ok hx
    rcases hor with ⟨hc, he⟩ | ⟨_, m', n, hm, _, hw, he⟩
    · subst he
      exact ⟨h, fun v hv => by injection hv with hv; subst hv; exact h.2 _ _ hc⟩
    · rw [h.1] at hm
      injection hm with hm; subst hm
      subst he
      refine ⟨⟨h.1, ?_⟩, fun v hv => by injection hv with hv; subst hv; subst hw; exact ⟨_, _, rfl⟩⟩
      intro salt v hv
      by_cases hs : salt = p.salt
      · subst hs
        rw [setCached_get] at hv
        injection hv with hv; subst hv; subst hw
        exact ⟨_, _, rfl⟩
      · exact h.2 _ _ (setCached_ne hs hv)

theorem keysOf_invalidate {m : Bytes} {k : NssKeys} (h : keysOf N m k) (x : Bytes) : keysOf N m (k.invalidate x) :=
  ⟨h.1, fun salt v hv => h.2 salt v (amap_get_erase_ne _ _ _ _ hv)⟩

theorem keysOf_decrypt {e : Env} {m : Bytes} {k : NssKeys} (h : keysOf N m k) (d : Bytes) : keysOf N m (nssDecrypt N e k d).2 := by
  unfold nssDecrypt
  split
  · exact h
  · rename_i p iv c _
    have a := (keysOf_derive (e := e.sub 0) h p .enc).1
    generalize nssDeriveKey N (e.sub 0) k p .enc = x at a ⊢
    obtain ⟨r, k1⟩ := x
    cases r with
    | error r => exact a
    | ok v =>
      simp only at a ⊢
      split
      · exact a
      · split
        · exact keysOf_invalidate a _
        · exact a
  · exact h

/-- The text cannot be decrypted with any key made from the master key `m`. -/
def lostTo (N : NssLib) (m d : Bytes) : Prop :=
  ∀ p iv iv' c i n, N.parse d = some ⟨.pbes2 (some p) (some iv), c⟩ → nssIv iv = .ok iv' → N.dec (N.kdf m p.salt i n) iv' c = none

theorem decrypt_lost {e : Env} {m : Bytes} {k : NssKeys} (h : keysOf N m k) {d : Bytes} (hl : lostTo N m d) (plain : Bytes) :
    (nssDecrypt N e k d).1 ≠ .ok plain := by
  intro hd
  have hd : nssDecrypt N e k d = (.ok plain, (nssDecrypt N e k d).2) := by rw [← hd]
  obtain ⟨p, iv, c, iv', key, hp, hiv, hdk, hdec⟩ := decrypt_ok hd
  obtain ⟨i, n, hv⟩ := (keysOf_derive (e := e.sub 0) h p .enc).2 (.enc, key) (by rw [hdk])
  simp only at hv
  subst hv
  rw [hl p iv iv' c i n hp hiv] at hdec
  cases hdec

theorem decLoop_lost {e : Env} {m : Bytes} : ∀ (ts : List Nat) (i : Nat) (k : NssKeys) (o : Obj), keysOf N m k → ts.Nodup →
    ∀ t ∈ ts, ∀ a, o.find t = some a → lostTo N m a.value → ∀ o', (nssDecLoop N e ts i k o).1 ≠ .ok o' := by
  intro ts
  induction ts with
  | nil => intro i k o _ _ t ht; cases ht
  | cons u ts ih =>
    intro i k o hk hnd t ht a ha hl o' hok
    rw [nssDecLoop] at hok
    have hu := (List.nodup_cons.1 hnd).1
    have hnd := (List.nodup_cons.1 hnd).2
    by_cases htu : t = u
    · subst htu
      simp only [ha] at hok
      have hd := decrypt_lost (e := e.sub i) hk hl
      generalize nssDecrypt N (e.sub i) k a.value = x at hd hok
      obtain ⟨r, k1⟩ := x
      cases r with
      | error r => cases hok
      | ok v => exact hd v rfl
    · have ht : t ∈ ts := by
        rcases List.mem_cons.1 ht with h | h
        · exact absurd h htu
        · exact h
      cases hf : o.find u with
      | none =>
        simp only [hf] at hok
        exact ih (i + 1) k o hk hnd t ht a ha hl o' hok
      | some b =>
        simp only [hf] at hok
        have hk1 := keysOf_decrypt (e := e.sub i) hk b.value
        generalize nssDecrypt N (e.sub i) k b.value = x at hk1 hok
        obtain ⟨r, k1⟩ := x
        cases r with
        | error r => cases hok
        | ok v =>
          simp only at hok
          split at hok
          · cases hok
          · rename_i o1 ho1
            refine ih (i + 1) k1 o1 hk1 hnd t ht a ?_ hl o' hok
            rw [find_setAttr ho1, if_neg (fun h => htu h.symm)]
            exact ha

theorem nssSecrets_nodup : nssSecrets.Nodup := by decide +kernel

/-- Reading an object of which a secret cannot be decrypted fails. -/
theorem fetch_lost {e : Env} {m : Bytes} {s : Nss} {h : Handles} {handle id : Nat} {attrs : Template} {uid : Bytes} {cols : List Nat} {o : Obj}
    {t : Nat} {a : Attr} (hk : keysOf N m s.keys) (hh : h.get handle = some uid) (hu : nssIdParse uid = .ok (.priv, id)) (hc : nssHints attrs = .ok cols)
    (ho : s.db.fetchById (e.sub 0) .priv id cols = .ok o) (ht : t ∈ nssSecrets) (ha : o.find t = some a) (hl : lostTo N m a.value) (o' : Obj) :
    (s.fetch N e h handle attrs).1 ≠ .ok o' := by
  intro hok
  unfold Nss.fetch at hok
  simp only [hh, hu, hc, ho, hk.1, Option.isSome_some, if_true] at hok
  have hd := decLoop_lost (N := N) (e := e.sub 1) nssSecrets 0 s.keys o hk nssSecrets_nodup t ht a ha hl
  generalize nssDecLoop N (e.sub 1) nssSecrets 0 s.keys o = x at hd hok
  obtain ⟨r, k1⟩ := x
  cases r with
  | error r => cases hok
  | ok o1 => exact hd o1 rfl

/-- The keys after a PIN was set and used to log in. -/
theorem keysOf_setPin {e e' : Env} {s s1 s2 : Nss} {pin : Bytes} (h : s.setUserPin N e .user pin = (.ok (), s1))
    (h2 : s1.authUser N e' .user pin false = (.ok (), s2)) :
    keysOf N (N.sha1 ((e.sub 0).rnd 20 ++ pin)) s2.keys ∧ s2.db.pub = s.db.pub ∧ s2.db.priv = s.db.priv := by
  have hr := C67_rows_partial (N := N) e s .user pin
  rw [h] at hr
  obtain ⟨iv, data, k', hx, _, _, _, _, hs⟩ := setPin_ok h
  have hkeys : keysOf N (N.sha1 ((e.sub 0).rnd 20 ++ pin)) k' := by
    have base : keysOf N (N.sha1 ((e.sub 0).rnd 20 ++ pin)) (NssKeys.default.setKey (N.sha1 ((e.sub 0).rnd 20 ++ pin))) :=
      ⟨rfl, fun salt v hv => by cases hv⟩
    unfold nssEncrypt at hx
    split at hx
    · cases hx
    · simp only at hx
      have a := (keysOf_derive (e := (e.sub 2).sub 1) base
        ⟨((e.sub 2).sub 0).rnd 32, if pin.length = 0 then 1 else 10000, some 32⟩ .enc).1
      generalize nssDeriveKey N ((e.sub 2).sub 1) _ _ .enc = y at a hx
      obtain ⟨r, k1⟩ := y
      cases r with
      | error r => cases hx
      | ok v =>
        simp only at a hx
        split at hx
        · cases hx
        · split at hx
          · cases hx
          · injection hx with _ hx; subst hx; exact a
  obtain ⟨salt, data', k2, hp, hd, hs2⟩ := auth_ok h2 (by rw [hs]; rfl)
  rw [hs] at hp
  rw [show (⟨{ s.db with mdata := AMap.insert s.db.mdata .password ((e.sub 0).rnd 20, data) }, k'.unsetKey⟩ : Nss).db.mdata =
    AMap.insert s.db.mdata .password ((e.sub 0).rnd 20, data) from rfl, amap_get_insert] at hp
  injection hp with hp; injection hp with h3 h4; subst h3; subst h4
  have hk2 : keysOf N (N.sha1 ((e.sub 0).rnd 20 ++ pin)) k2 := by
    have := keysOf_decrypt (N := N) (e := e'.sub 2) (m := N.sha1 ((e.sub 0).rnd 20 ++ pin)) (k := s1.keys.setKey (N.sha1 ((e.sub 0).rnd 20 ++ pin)))
      ⟨rfl, by rw [hs]; exact hkeys.2⟩ data
    rw [hd] at this
    exact this
  subst hs2
  exact ⟨hk2, hr.1, hr.2.1⟩

/-- **C67 is violated.**  After the PIN was changed and the user logged in with the new one, a key object whose secret was encrypted under the old PIN
cannot be read any more (unless a key made from the new PIN happens to decrypt it). -/
theorem C67_lost_violation (e e1 e2 : Env) (s s1 s2 : Nss) (pin : Bytes) (h : s.setUserPin N e .user pin = (.ok (), s1))
    (h1 : s1.authUser N e1 .user pin false = (.ok (), s2)) (hs : Handles) (handle id : Nat) (attrs : Template) (uid : Bytes) (cols : List Nat) (o : Obj)
    (t : Nat) (a : Attr) (hh : hs.get handle = some uid) (hu : nssIdParse uid = .ok (.priv, id)) (hc : nssHints attrs = .ok cols)
    (ho : s.db.fetchById (e2.sub 0) .priv id cols = .ok o) (ht : t ∈ nssSecrets) (ha : o.find t = some a)
    (hl : lostTo N (N.sha1 ((e.sub 0).rnd 20 ++ pin)) a.value) (o' : Obj) :
    (s2.fetch N e2 hs handle attrs).1 ≠ .ok o' := by
  obtain ⟨hk, hpub, hpriv⟩ := keysOf_setPin h h1
  refine fetch_lost hk hh hu hc ?_ ht ha hl o'
  unfold NssDb.fetchById NssDb.rows at ho ⊢
  rw [hpriv]
  exact ho

/-- A user who changes their PIN has no keys afterwards, although the token still counts them as logged in: nothing can be stored. -/
theorem C67_kicked_violation (e e1 : Env) (s s1 : Nss) (pin : Bytes) (h : s.setUserPin N e .user pin = (.ok (), s1)) (hs : Handles) (o : Obj) (n : Nat) :
    (s1.store N e1 hs o).1 ≠ .ok n := by
  obtain ⟨iv, data, k', _, _, _, _, _, hs1⟩ := setPin_ok h
  intro hok
  have hk : s1.keys.enckey.isNone = true := by rw [hs1]; rfl
  unfold Nss.store at hok
  split at hok
  · cases hok
  · split at hok
    · cases hok
    · rw [if_pos hk] at hok
      cases hok

/-! ## Witness -/

/-- A calm environment whose random bytes are different at each place. -/
def exPlaces (n : UInt8) : Env := ⟨fun _ => none, fun p => n :: p.map (fun i => UInt8.ofNat (i + 1)), fun _ => []⟩

theorem exPlaces_ok (n : UInt8) : calmEnv (exPlaces n) := fun _ => rfl

/-- A secret key of an NSS database. -/
def exNssKey : Obj := ⟨0, 0, CKO_SECRET_KEY, [Attr.ofUlong CKA_CLASS CKO_SECRET_KEY, Attr.ofUlong CKA_KEY_TYPE CKK_AES, Attr.ofBool CKA_TOKEN true,
  Attr.ofBytes CKA_VALUE [1, 2, 3, 4, 5, 6, 7, 8]]⟩

/-- A database with the PIN "abcd" and the user logged in. -/
def exNssIn : Nss := (exNssSet.authUser exNss (exCalm 0) .user [97, 98, 99, 100] false).2

/-- The key was stored there. -/
def exNssStored : Res Nat × Nss × Handles := exNssIn.store exNss (exPlaces 9) Handles.new exNssKey

/-- The PIN was changed to "efgh". -/
def exNssNew : Res Unit × Nss := exNssStored.2.1.setUserPin exNss (exCalm 8) .user [101, 102, 103, 104]

/-- The user logged in with the new PIN. -/
def exNssBack : Res Unit × Nss := exNssNew.2.authUser exNss (exCalm 0) .user [101, 102, 103, 104] false

/-- The object read, or the error. -/
def okNssObj (r : Res Obj) : Except Rv (List Attr) := match r with
  | .ok o => .ok o.attrs
  | .error r => .error r

set_option maxRecDepth 20000 in
/-- Witness of `C67_lost_violation`: the key is stored and can be read; the PIN is changed, the user logs in with the new one, and the key cannot be read. -/
theorem C67_lost_witness :
    exNssStored.1 = .ok 1 ∧
    okNssObj (exNssStored.2.1.fetch exNss (exCalm 0) exNssStored.2.2 1 []).1 = .ok [Attr.ofUlong CKA_CLASS CKO_SECRET_KEY,
      Attr.ofBool CKA_TOKEN true, Attr.ofBytes CKA_VALUE [1, 2, 3, 4, 5, 6, 7, 8], Attr.ofUlong CKA_KEY_TYPE CKK_AES] ∧
    exNssNew.1 = .ok () ∧ exNssBack.1 = .ok () ∧
    okNssObj (exNssBack.2.fetch exNss (exCalm 0) exNssStored.2.2 1 []).1 = .error .encryptedDataInvalid := by
  decide +kernel

/-- The blob of the stored key. -/
def exNssBlob : Bytes := match AMap.get exNssStored.2.1.db.priv 1 with
  | some row => (AMap.get row CKA_VALUE).getD []
  | none => []

/-- The last hypothesis of `C67_lost_violation` holds of it. -/
theorem C67_lostTo_witness : lostTo exNss (exNss.sha1 (((exCalm 8).sub 0).rnd 20 ++ [101, 102, 103, 104])) exNssBlob := by
  intro p iv iv' c i n hp hiv
  have key : ∀ x, exNss.parse exNssBlob = some x → (match x with
      | ⟨.pbes2 (some p) (some iv), c⟩ => (match nssIv iv with
        | .ok iv' => (exNss.dec (((exCalm 8).sub 0).rnd 20 ++ [101, 102, 103, 104] ++ p.salt) iv' c).isNone
        | .error _ => true)
      | _ => true) = true := by
    intro x hx
    have : ((exNss.parse exNssBlob).all fun x => (match x with
      | ⟨.pbes2 (some p) (some iv), c⟩ => (match nssIv iv with
        | .ok iv' => (exNss.dec (((exCalm 8).sub 0).rnd 20 ++ [101, 102, 103, 104] ++ p.salt) iv' c).isNone
        | .error _ => true)
      | _ => true)) = true := by decide +kernel
    rw [hx] at this
    exact this
  have := key _ hp
  simp only [hiv, Option.isNone_iff_eq_none] at this
  exact this

end Kry
