import Verif.Props.C71

/-! C73: storing and changing an object of an NSS database touches nothing else, and a call that fails changes nothing. -/

namespace Kry
open Spec (handlesReal askable holdsCol tidy)

variable {N : NssLib}

theorem sigLoop_meta {e : Env} {tbl : NssTbl} {id : Nat} {val : Nat → Option Bytes} : ∀ (ts : List Nat) (i : Nat) (k k' : NssKeys) (d d' : NssDb),
    nssSigLoop N e tbl id val ts i k d = (.ok d', k') → ∀ x, (∀ u, val u ≠ none → x ≠ .sig tbl id u) → AMap.get d'.mdata x = AMap.get d.mdata x := by
  intro ts
  induction ts with
  | nil => intro i k k' d d' h x _; injection h with h _; injection h with h; subst h; rfl
  | cons u ts ih =>
    intro i k k' d d' h x hx
    rw [nssSigLoop] at h
    split at h
    · exact ih _ _ _ _ _ h x hx
    rename_i v hv
    split at h
    · cases h
    split at h
    · cases h
    · rename_i d1 hd1
      rw [ih _ _ _ _ _ h x hx]
      unfold NssDb.saveMeta at hd1
      split at hd1
      · cases hd1
      · injection hd1 with hd1; subst hd1
        show AMap.get (AMap.insert _ _ _) _ = _
        rw [AMap.get_insert, if_neg (fun he => hx u (by rw [hv]; simp) he.symm)]

/-- A transaction of `store` that succeeds. -/
theorem storeTx_frame {e : Env} {d d' : NssDb} {k k' : NssKeys} {t : NssTbl} {o : Obj} {id : Nat} (h : nssStoreTx N e d k t o = (.ok (id, d'), k')) :
    nssNextId (d.rows t) = .ok id ∧ (∃ row, ∀ t', d'.rows t' = if t' = t then d.rows t ++ [(id, row)] else d.rows t') ∧
    ∀ x, (∀ u, x ≠ .sig t id u) → AMap.get d'.mdata x = AMap.get d.mdata x := by
  unfold nssStoreTx at h
  split at h
  · cases h
  split at h
  · cases h
  rename_i id1 d1 hso
  split at h
  · cases h
  rename_i d2 k2 hsl
  split at h
  · cases h
  injection h with h _
  injection h with h
  injection h with h1 h
  subst h; subst h1
  unfold NssDb.storeObject at hso
  split at hso
  · cases hso
  rename_i id2 hid
  split at hso
  · cases hso
  rename_i row hrow
  split at hso
  · cases hso
  split at hso
  · cases hso
  injection hso with hso
  injection hso with ha hb
  subst ha; subst hb
  refine ⟨hid, ⟨row, fun t' => ?_⟩, fun x hx => ?_⟩
  · rw [sigLoop_rows _ _ _ _ _ _ hsl t', rows_setRows]
  · rw [sigLoop_meta _ _ _ _ _ _ hsl x fun u _ => hx u]
    cases t <;> rfl

theorem insert_real {d : NssDb} {hs : Handles} (ok : HsOk hs) (hr : handlesReal hs d) {t : NssTbl} {id : Nat} (hid : id < 2 ^ 32) (hn : AMap.get (d.rows t) id = none) :
    ∃ h', hs.bump.2.insert hs.next (nssIdFormat t id) = (.ok (), h') ∧ h'.get hs.next = some (nssIdFormat t id) ∧ ∀ n, n ≠ hs.next → h'.get n = hs.get n := by
  have a := hs_insert (D := fun _ => False) ok (nssIdFormat t id)
  have hg : hs.bump.2.get hs.next = none := by
    show hs.get hs.next = none
    cases hx : hs.get hs.next with
    | none => rfl
    | some u => exact absurd (ok.low _ _ hx).2 (Nat.lt_irrefl _)
  have hu : hs.bump.2.getByUid (nssIdFormat t id) = none := by
    show hs.getByUid _ = none
    cases hx : hs.getByUid (nssIdFormat t id) with
    | none => rfl
    | some n =>
      obtain ⟨t', id', hl, he, hne⟩ := hr n _ (getByUid_some ok.nd hx)
      obtain ⟨h1, h2⟩ := idFormat_inj hid hl he
      subst h1; subst h2
      exact absurd hn hne
  have hins : (hs.bump.2.insert hs.next (nssIdFormat t id)).1 = .ok () := by
    unfold Handles.insert
    rw [hg, hu]
    rfl
  obtain ⟨_, _, h3, h4, _⟩ := a
  refine ⟨_, Prod.ext hins rfl, (h4 hins).1, h3⟩

/-- **C73.**  A C_CreateObject (C_CopyObject, C_GenerateKey, ...) on an NSS database that fails leaves the database and the handles in use as they were.  One that
succeeds makes one object with a number that was free and gives it a new handle; every other object, the signatures of every other object, the password entry and
the other handles stay. -/
theorem C73_store (e : Env) (s s' : Nss) (hs h' : Handles) (o : Obj) (r : Res Nat) (ok : HsOk hs) (hr : handlesReal hs s.db)
    (h : s.store N e hs o = (r, s', h')) :
    (∀ c, r = .error c → s'.db = s.db ∧ ∀ n, h'.get n = hs.get n) ∧
    (∀ n, r = .ok n → ∃ t id, id < 2 ^ 32 ∧ hs.get n = none ∧ h'.get n = some (nssIdFormat t id) ∧ AMap.get (s.db.rows t) id = none ∧
      (∃ row, AMap.get (s'.db.rows t) id = some row) ∧ (∀ t' id', (t', id') ≠ (t, id) → AMap.get (s'.db.rows t') id' = AMap.get (s.db.rows t') id') ∧
      (∀ x, (∀ u, x ≠ .sig t id u) → AMap.get s'.db.mdata x = AMap.get s.db.mdata x) ∧ ∀ m, m ≠ n → h'.get m = hs.get m) := by
  have bad : ∀ (c : Rv) (k : NssKeys), (.error c, { s with keys := k }, hs) = (r, s', h') →
      (∀ c, r = .error c → s'.db = s.db ∧ ∀ n, h'.get n = hs.get n) ∧
      (∀ n, r = .ok n → ∃ t id, id < 2 ^ 32 ∧ hs.get n = none ∧ h'.get n = some (nssIdFormat t id) ∧ AMap.get (s.db.rows t) id = none ∧
        (∃ row, AMap.get (s'.db.rows t) id = some row) ∧ (∀ t' id', (t', id') ≠ (t, id) → AMap.get (s'.db.rows t') id' = AMap.get (s.db.rows t') id') ∧
        (∀ x, (∀ u, x ≠ .sig t id u) → AMap.get s'.db.mdata x = AMap.get s.db.mdata x) ∧ ∀ m, m ≠ n → h'.get m = hs.get m) := by
    intro c k hx
    injection hx with h1 h2
    injection h2 with h2 h3
    subst h1; subst h2; subst h3
    exact ⟨fun _ _ => ⟨rfl, fun _ => rfl⟩, fun n hn => by cases hn⟩
  unfold Nss.store at h
  split at h
  · exact bad _ s.keys h
  split at h
  · exact bad _ s.keys h
  rename_i t ht
  split at h
  · exact bad _ s.keys h
  split at h
  · exact bad _ s.keys h
  split at h
  · exact bad _ _ h
  split at h
  · exact bad _ _ h
  rename_i id d k2 htx
  obtain ⟨hid, ⟨row, hrows⟩, hmeta⟩ := storeTx_frame htx
  obtain ⟨n1, n2, n3⟩ := nssNextId_ok _ _ hid
  obtain ⟨h2, hins, hget, hoth⟩ := insert_real ok hr (by omega) n1
  simp only at h
  rw [show hs.bump.2.insert hs.bump.1 (nssIdFormat t id) = (.ok (), h2) from hins] at h
  injection h with h1 h3
  injection h3 with h3 h4
  subst h1; subst h3; subst h4
  refine ⟨(fun c hc => by cases hc), fun n hn => ?_⟩
  injection hn with hn
  subst hn
  refine ⟨t, id, by omega, ?_, hget, n1, ⟨row, ?_⟩, fun t' id' hne => ?_, hmeta, hoth⟩
  · cases hx : hs.get hs.bump.1 with
    | none => rfl
    | some u => exact absurd (ok.low _ _ hx).2 (Nat.lt_irrefl _)
  · simp only [hrows, if_true, AMap.get_append, n1]
    simp [AMap.get]
  · simp only [hrows]
    split
    · rename_i heq
      subst heq
      have : id' ≠ id := fun hx => hne (by rw [hx])
      rw [AMap.get_append]
      cases AMap.get (s.db.rows t') id' with
      | some _ => rfl
      | none => simp [AMap.get, Ne.symm this]
    · rfl

/-! ## Changing an object -/

theorem setCols_get : ∀ (new row : NssRow) (c : Nat), c ∉ new.map Prod.fst → AMap.get (nssSetCols row new) c = AMap.get row c := by
  intro new
  induction new with
  | nil => intro row c _; rfl
  | cons p new ih =>
    intro row c hc
    show AMap.get (nssSetCols (AMap.insert row p.1 p.2) new) c = _
    rw [ih _ _ (fun hm => hc (.tail _ hm)), AMap.get_insert, if_neg (fun he => hc (by rw [← he]; exact .head _))]

theorem makeRow_types : ∀ (l : List Attr) (row : NssRow), nssMakeRow l = .ok row → ∀ c ∈ row.map Prod.fst, c ∈ l.map Attr.typ := by
  intro l
  induction l with
  | nil => intro row h c hc; injection h with h; subst h; exact hc
  | cons a l ih =>
    intro row h c hc
    rw [nssMakeRow] at h
    split at h
    · exact .tail _ (ih _ h c hc)
    split at h
    · cases h
    split at h
    · cases h
    split at h
    · cases h
    rename_i row1 hr
    injection h with h
    subst h
    rcases List.mem_cons.1 hc with hx | hx
    · rw [hx]; exact .head _
    · exact .tail _ (ih _ hr c hx)

theorem fromTemplate_types : ∀ (t : Template) (l : List Attr), nssFromTemplate t = .ok l → l.map Attr.typ = t.map CkAttr.typ := by
  intro t
  induction t with
  | nil => intro l h; injection h with h; subst h; rfl
  | cons c t ih =>
    intro l h
    rw [nssFromTemplate] at h
    split at h
    · cases h
    rename_i a ha
    split at h
    · cases h
    rename_i as has
    injection h with h
    subst h
    simp only [List.map_cons, ih _ has, fromCk_typ ha]

theorem encTmpl_types {e : Env} : ∀ (ts : List Nat) (i : Nat) (k k' : NssKeys) (t t' : Template), nssEncTmpl N e ts i k t = (.ok t', k') →
    t'.map CkAttr.typ = t.map CkAttr.typ := by
  intro ts
  induction ts with
  | nil => intro i k k' t t' h; injection h with h _; injection h with h; subst h; rfl
  | cons ty ts ih =>
    intro i k k' t t' h
    rw [nssEncTmpl] at h
    split at h
    · exact ih _ _ _ _ _ h
    rename_i a ha
    split at h
    · cases h
    · unfold Template.findA at ha
      rw [ih _ _ _ _ _ h, replaceFirst_map ⟨a, List.mem_of_find?_eq_some ha, by simpa using List.find?_some ha⟩]

theorem findA_types {t : Template} {u : Nat} (h : Template.findA t u ≠ none) : u ∈ t.map CkAttr.typ := by
  unfold Template.findA at h
  cases hx : t.find? fun c => c.typ == u with
  | none => exact absurd hx h
  | some c => exact List.mem_map.2 ⟨c, List.mem_of_find?_eq_some hx, by simpa using List.find?_some hx⟩

/-- What `update` does. -/
theorem nssUpdate_parts {e : Env} {s s' : Nss} {hs : Handles} {n : Nat} {tm : Template} {r : Res Unit} (h : s.update N e hs n tm = (r, s')) :
    (r ≠ .ok () → s'.db = s.db) ∧
    (r = .ok () → ∃ uid t id tm' k k' new as, hs.get n = some uid ∧ nssIdParse uid = .ok (t, id) ∧
      nssEncTmpl N (e.sub 0) (nssSecretsOf t) 0 s.keys tm = (.ok tm', k) ∧ nssFromTemplate tm' = .ok as ∧ nssMakeRow as = .ok new ∧ (∀ p ∈ new, p.1 ∈ nssCols) ∧
      (∀ t', s'.db.rows t' = if t' = t then AMap.modify (s.db.rows t) id (fun row => nssSetCols row new) else s.db.rows t') ∧
      nssSigLoop N (e.sub 3) t id (nssTmplVal tm') nssSigned 0 k (s.db.setRows t (AMap.modify (s.db.rows t) id fun row => nssSetCols row new)) = (.ok s'.db, k') ∧
      s'.keys = k') := by
  have bad : ∀ (c : Rv) (k : NssKeys), (.error c, { s with keys := k }) = (r, s') → (r ≠ .ok () → s'.db = s.db) ∧
    (r = .ok () → ∃ uid t id tm' k k' new as, hs.get n = some uid ∧ nssIdParse uid = .ok (t, id) ∧
      nssEncTmpl N (e.sub 0) (nssSecretsOf t) 0 s.keys tm = (.ok tm', k) ∧ nssFromTemplate tm' = .ok as ∧ nssMakeRow as = .ok new ∧ (∀ p ∈ new, p.1 ∈ nssCols) ∧
      (∀ t', s'.db.rows t' = if t' = t then AMap.modify (s.db.rows t) id (fun row => nssSetCols row new) else s.db.rows t') ∧
      nssSigLoop N (e.sub 3) t id (nssTmplVal tm') nssSigned 0 k (s.db.setRows t (AMap.modify (s.db.rows t) id fun row => nssSetCols row new)) = (.ok s'.db, k') ∧
      s'.keys = k') := by
    intro c k hx
    injection hx with h1 h2
    subst h1; subst h2
    exact ⟨fun _ => rfl, fun hn => by cases hn⟩
  unfold Nss.update at h
  split at h
  · exact bad _ s.keys h
  rename_i uid hu
  split at h
  · exact bad _ s.keys h
  rename_i t id hp
  split at h
  · exact bad _ s.keys h
  split at h
  · exact bad _ _ h
  rename_i tm' k1 henc
  split at h
  · exact bad _ _ h
  split at h
  · exact bad _ _ h
  rename_i d hd
  split at h
  · exact bad _ _ h
  rename_i d2 k2 hsl
  split at h
  · exact bad _ _ h
  injection h with h1 h2
  subst h1; subst h2
  refine ⟨fun hx => absurd rfl hx, fun _ => ?_⟩
  unfold NssDb.storeAttrs at hd
  split at hd
  · cases hd
  rename_i as has
  split at hd
  · cases hd
  rename_i new hnew
  split at hd
  · cases hd
  rename_i hcols
  split at hd
  · cases hd
  injection hd with hd
  subst hd
  refine ⟨uid, t, id, tm', k1, k2, new, as, hu, hp, henc, has, hnew, ?_, ?_, hsl, rfl⟩
  · intro p hp
    simp only [List.any_eq_true, not_or, not_exists, not_and] at hcols
    simpa using hcols.2 p hp
  · intro t'
    have := sigLoop_rows _ _ _ _ _ _ hsl t'
    rw [rows_setRows] at this
    exact this

/-- What C_SetAttributeValue does. -/
theorem setAttrs_parts {e : Env} {s s' : Nss} {hs : Handles} {logged : Bool} {n : Nat} {tm : Template} {r : Res Unit}
    (h : s.setObjectAttrs N e hs logged n tm = (r, s')) :
    (r ≠ .ok () → s'.db = s.db) ∧ (r = .ok () → logged = true ∧ ∃ s1 o F, s1.db = s.db ∧
      s.fetch N (e.sub 0) hs n [CkAttr.ofUlong CKA_CLASS CK_UNAVAILABLE_INFORMATION, CkAttr.ofUlong CKA_KEY_TYPE CK_UNAVAILABLE_INFORMATION,
        CkAttr.ofBool CKA_MODIFIABLE false] = (.ok o, s1) ∧ objFactory o = .ok F ∧ o.isModifiable = true ∧ checkSetAttributes F.attrs tm = .ok () ∧
      s1.update N (e.sub 1) hs n tm = (.ok (), s')) := by
  unfold Nss.setObjectAttrs at h
  split at h
  · injection h with h1 h2
    subst h1; subst h2
    exact ⟨fun _ => rfl, fun hn => by cases hn⟩
  rename_i hl
  have hdb := fetch_db (N := N) (e.sub 0) s hs n [CkAttr.ofUlong CKA_CLASS CK_UNAVAILABLE_INFORMATION, CkAttr.ofUlong CKA_KEY_TYPE CK_UNAVAILABLE_INFORMATION,
      CkAttr.ofBool CKA_MODIFIABLE false]
  generalize hf : s.fetch N (e.sub 0) hs n [CkAttr.ofUlong CKA_CLASS CK_UNAVAILABLE_INFORMATION, CkAttr.ofUlong CKA_KEY_TYPE CK_UNAVAILABLE_INFORMATION,
      CkAttr.ofBool CKA_MODIFIABLE false] = x at h hdb
  obtain ⟨q, s1⟩ := x
  simp only at hdb
  have bad : ∀ (c : Rv), (.error c, s1) = (r, s') → r = .error c ∧ s'.db = s.db := by
    intro c hx
    injection hx with h1 h2
    subst h1; subst h2
    exact ⟨rfl, hdb⟩
  cases q with
  | error q =>
    obtain ⟨h1, h2⟩ := bad q h
    exact ⟨fun _ => h2, fun hn => by rw [h1] at hn; cases hn⟩
  | ok o =>
    simp only at h
    split at h
    · obtain ⟨h1, h2⟩ := bad _ h
      exact ⟨fun _ => h2, fun hn => by rw [h1] at hn; cases hn⟩
    rename_i F hF
    split at h
    · obtain ⟨h1, h2⟩ := bad _ h
      exact ⟨fun _ => h2, fun hn => by rw [h1] at hn; cases hn⟩
    rename_i hm
    split at h
    · obtain ⟨h1, h2⟩ := bad _ h
      exact ⟨fun _ => h2, fun hn => by rw [h1] at hn; cases hn⟩
    rename_i hc
    refine ⟨fun hn => by rw [(nssUpdate_parts h).1 hn, hdb], fun hn => ?_⟩
    subst hn
    exact ⟨by simpa using hl, s1, o, F, hdb, rfl, hF, by simpa using hm, hc, h⟩

/-- **C73.**  A C_SetAttributeValue on an object of an NSS database that fails leaves the database as it was.  One that succeeds needs a login and changes nothing
but the attributes of the template, and their signatures, of the object of the handle. -/
theorem C73_set (e : Env) (s s' : Nss) (hs : Handles) (logged : Bool) (n : Nat) (tm : Template) (r : Res Unit) (h : s.setObjectAttrs N e hs logged n tm = (r, s')) :
    (∀ c, r = .error c → s'.db = s.db) ∧
    (r = .ok () → logged = true ∧ ∃ uid t id, hs.get n = some uid ∧ nssIdParse uid = .ok (t, id) ∧
      (∀ t' id', (t', id') ≠ (t, id) → AMap.get (s'.db.rows t') id' = AMap.get (s.db.rows t') id') ∧
      (∀ c, c ∉ tm.map CkAttr.typ → (AMap.get (s'.db.rows t) id).bind (fun row => AMap.get row c) = (AMap.get (s.db.rows t) id).bind fun row => AMap.get row c) ∧
      ((AMap.get (s'.db.rows t) id).isSome = (AMap.get (s.db.rows t) id).isSome) ∧
      (∀ x, (∀ u ∈ tm.map CkAttr.typ, x ≠ .sig t id u) → AMap.get s'.db.mdata x = AMap.get s.db.mdata x)) := by
  obtain ⟨h1, h2⟩ := setAttrs_parts h
  refine ⟨fun c hc => h1 (by rw [hc]; simp), fun hr => ?_⟩
  obtain ⟨hl, s1, o, F, hdb, _, _, _, _, hup⟩ := h2 hr
  obtain ⟨uid, t, id, tm', k, k', new, as, hu, hp, henc, has, hnew, _, hrows, hsl, _⟩ := (nssUpdate_parts hup).2 rfl
  have htt : tm'.map CkAttr.typ = tm.map CkAttr.typ := encTmpl_types _ _ _ _ _ _ henc
  refine ⟨hl, uid, t, id, hu, hp, ?_, ?_, ?_, ?_⟩
  · intro t' id' hne
    rw [hrows, hdb]
    split
    · rename_i heq
      subst heq
      rw [AMap.get_modify, if_neg (fun hx => hne (by rw [hx]))]
    · rfl
  · intro c hc
    rw [hrows, if_pos rfl, hdb, AMap.get_modify, if_pos rfl]
    cases AMap.get (s.db.rows t) id with
    | none => rfl
    | some row =>
      show AMap.get (nssSetCols row new) c = AMap.get row c
      refine setCols_get _ _ _ fun hm => hc ?_
      rw [← htt, ← fromTemplate_types _ _ has]
      exact makeRow_types _ _ hnew c hm
  · rw [hrows, if_pos rfl, hdb, AMap.get_modify, if_pos rfl]
    cases AMap.get (s.db.rows t) id <;> rfl
  · intro x hx
    rw [sigLoop_meta _ _ _ _ _ _ hsl x, hdb]
    · cases t <;> rfl
    · intro u hv
      refine hx u ?_
      rw [← htt]
      refine findA_types fun hn => hv ?_
      unfold nssTmplVal
      rw [hn]
      rfl

/-! ## Runs of calls -/

/-- A call that reaches the NSS database, with what the environment does to it. -/
inductive NssCall where
  | store (e : Env) (o : Obj)
  | set (e : Env) (logged : Bool) (n : Nat) (tm : Template)
  | destroy (e : Env) (n : Nat)
  | search (e : Env) (logged : Bool) (tm : Template)
  | read (e : Env) (logged : Bool) (n : Nat) (tm : Template)
  | login (e : Env) (u : User) (pin : Bytes) (checkOnly : Bool)
  | logout
  | setPin (e : Env) (u : User) (pin : Bytes)

/-- The database, the keys and the handles after a call. -/
def NssCall.run (N : NssLib) (s : Nss) (hs : Handles) : NssCall → Nss × Handles
  | .store e o => (s.store N e hs o).2
  | .set e l n tm => ((s.setObjectAttrs N e hs l n tm).2, hs)
  | .destroy e n => (s.destroyObject N e hs n).2
  | .search e l tm => (s, (s.searchObjects e hs l tm).2)
  | .read e l n tm => ((s.objectForAttrs N e hs l n tm).2, hs)
  | .login e u pin c => ((s.authUser N e u pin c).2, hs)
  | .logout => (s.unauthUser, hs)
  | .setPin e u pin => ((s.setUserPin N e u pin).2, hs)

/-- The state after several calls. -/
def nssRuns (N : NssLib) (s : Nss) (hs : Handles) : List NssCall → Nss × Handles
  | [] => (s, hs)
  | c :: cs => nssRuns N (c.run N s hs).1 (c.run N s hs).2 cs

/-- Handles are in order and stand for objects of the database, whose numbers fit 32 bits. -/
structure NssSound (s : Nss) (hs : Handles) : Prop where
  ok : HsOk hs
  real : handlesReal hs s.db
  small : ∀ t id, AMap.get (s.db.rows t) id ≠ none → id < 2 ^ 32

theorem sound_of {s s' : Nss} {hs : Handles} (h : NssSound s hs) (hr : ∀ t id, (AMap.get (s'.db.rows t) id).isSome = (AMap.get (s.db.rows t) id).isSome) :
    NssSound s' hs := by
  have hn : ∀ t id, AMap.get (s'.db.rows t) id ≠ none ↔ AMap.get (s.db.rows t) id ≠ none := by
    intro t id
    have := hr t id
    cases h1 : AMap.get (s'.db.rows t) id <;> cases h2 : AMap.get (s.db.rows t) id <;> simp_all
  refine ⟨h.ok, fun n u hu => ?_, fun t id hx => h.small t id ((hn t id).1 hx)⟩
  obtain ⟨t, id, a, b, c⟩ := h.real n u hu
  exact ⟨t, id, a, b, (hn t id).2 c⟩

theorem handles_real {d : NssDb} : ∀ (ids : List Bytes) (h : Handles), HsOk h → handlesReal h d →
    (∀ u ∈ ids, ∃ t id, id < 2 ^ 32 ∧ u = nssIdFormat t id ∧ AMap.get (d.rows t) id ≠ none) →
    HsOk (nssHandles ids h).2 ∧ handlesReal (nssHandles ids h).2 d := by
  intro ids
  induction ids with
  | nil => intro h ok hr _; exact ⟨ok, hr⟩
  | cons u ids ih =>
    intro h ok hr hu
    have hu' : ∀ u ∈ ids, ∃ t id, id < 2 ^ 32 ∧ u = nssIdFormat t id ∧ AMap.get (d.rows t) id ≠ none := fun x hx => hu x (.tail _ hx)
    rw [nssHandles]
    have step : ∀ (n : Nat) (h1 : Handles), HsOk h1 → handlesReal h1 d →
        HsOk (match nssHandles ids h1 with
          | (.ok l, h) => ((.ok (n :: l), h) : Res (List Nat) × Handles)
          | (.error r, h) => (.error r, h)).2 ∧ handlesReal (match nssHandles ids h1 with
          | (.ok l, h) => ((.ok (n :: l), h) : Res (List Nat) × Handles)
          | (.error r, h) => (.error r, h)).2 d := by
      intro n h1 ok1 hr1
      have := ih h1 ok1 hr1 hu'
      generalize nssHandles ids h1 = x at this ⊢
      obtain ⟨r, h2⟩ := x
      cases r <;> exact this
    cases hg : h.getByUid u with
    | some n => exact step n h ok hr
    | none =>
      obtain ⟨a, b, keep, c, err⟩ := hs_insert (D := fun _ => False) ok u
      simp only
      rw [show h.bump = (h.next, h.bump.2) from rfl]
      simp only
      generalize h.bump.2.insert h.next u = y at a b c keep err ⊢
      obtain ⟨r, h1⟩ := y
      have hr1 : handlesReal h1 d := by
        intro n v hv
        by_cases hn : n = h.next
        · subst hn
          cases r with
          | error r =>
            have := err r rfl
            simp only at this hv
            rw [this] at hv
            exact hr _ v hv
          | ok _ =>
            rw [(c rfl).1] at hv
            injection hv with hv
            subst hv
            exact hu _ (.head _)
        · exact hr n v (by rw [← keep n hn]; exact hv)
      cases r with
      | error r => exact ⟨a, hr1⟩
      | ok _ => exact step h.next h1 a hr1

theorem select_mem {ps : List (Nat × Bytes)} {rows : List (Nat × NssRow)} {id : Nat} (h : id ∈ nssSelect ps rows) : AMap.get rows id ≠ none := by
  unfold nssSelect at h
  obtain ⟨p, hp, rfl⟩ := List.mem_map.1 h
  have hm := (List.mem_filter.1 hp).1
  intro hn
  exact amap_none_keys hn (List.mem_map.2 ⟨p, hm, rfl⟩)

theorem searchIds_real {e : Env} {d : NssDb} {tm : Template} {ids : List Bytes} (h : d.searchIds e tm = .ok ids)
    (small : ∀ t id, AMap.get (d.rows t) id ≠ none → id < 2 ^ 32) :
    ∀ u ∈ ids, ∃ t id, id < 2 ^ 32 ∧ u = nssIdFormat t id ∧ AMap.get (d.rows t) id ≠ none := by
  unfold NssDb.searchIds at h
  split at h
  · cases h
  · injection h with h; subst h; intro u hu; cases hu
  split at h
  · cases h
  split at h
  · cases h
  split at h
  · cases h
  injection h with h
  subst h
  intro u hu
  rcases List.mem_append.1 hu with hu | hu
  · split at hu
    · obtain ⟨id, hi, rfl⟩ := List.mem_map.1 hu
      exact ⟨.pub, id, small .pub id (select_mem hi), rfl, select_mem (rows := d.rows .pub) hi⟩
    · cases hu
  · split at hu
    · obtain ⟨id, hi, rfl⟩ := List.mem_map.1 hu
      exact ⟨.priv, id, small .priv id (select_mem hi), rfl, select_mem (rows := d.rows .priv) hi⟩
    · cases hu

theorem sound_step (c : NssCall) (s : Nss) (hs : Handles) (h : NssSound s hs) : NssSound (c.run N s hs).1 (c.run N s hs).2 := by
  cases c with
  | store e o =>
    have hk := store_handles (N := N) (e := e) (s := s) (o := o) h.ok
    obtain ⟨a, b⟩ := C73_store (N := N) e s (s.store N e hs o).2.1 hs (s.store N e hs o).2.2 o (s.store N e hs o).1 h.ok h.real rfl
    show NssSound (s.store N e hs o).2.1 (s.store N e hs o).2.2
    generalize s.store N e hs o = x at hk a b ⊢
    obtain ⟨r, s', h'⟩ := x
    cases r with
    | error r =>
      obtain ⟨e1, e2⟩ := a r rfl
      simp only at e1 e2 hk ⊢
      refine ⟨hk, fun n u hu => ?_, fun t id hx => h.small t id (by rw [← e1]; exact hx)⟩
      rw [e1]
      exact h.real n u (by rw [← e2]; exact hu)
    | ok n =>
      obtain ⟨t, id, hsm, h1, h2, h3, ⟨row, h4⟩, h5, h6, h7⟩ := b n rfl
      simp only at h1 h2 h3 h4 h5 h6 h7 hk ⊢
      refine ⟨hk, fun m u hu => ?_, fun t' id' hx => ?_⟩
      · by_cases hm : m = n
        · subst hm
          rw [h2] at hu
          injection hu with hu
          exact ⟨t, id, hsm, hu.symm, by rw [h4]; simp⟩
        · rw [h7 m hm] at hu
          obtain ⟨t', id', a, b, c⟩ := h.real m u hu
          by_cases he : (t', id') = (t, id)
          · injection he with he1 he2
            subst he1; subst he2
            exact absurd h3 c
          · exact ⟨t', id', a, b, by rw [h5 t' id' he]; exact c⟩
      · by_cases he : (t', id') = (t, id)
        · injection he with he1 he2
          rw [he2]; exact hsm
        · rw [h5 t' id' he] at hx
          exact h.small t' id' hx
  | set e l n tm =>
    show NssSound (s.setObjectAttrs N e hs l n tm).2 hs
    obtain ⟨a, b⟩ := C73_set (N := N) e s (s.setObjectAttrs N e hs l n tm).2 hs l n tm (s.setObjectAttrs N e hs l n tm).1 rfl
    generalize s.setObjectAttrs N e hs l n tm = x at a b ⊢
    obtain ⟨r, s'⟩ := x
    refine sound_of h fun t id => ?_
    cases r with
    | error r => simp only at a; rw [a r rfl]
    | ok _ =>
      obtain ⟨_, uid, t1, id1, _, _, h1, _, h2, _⟩ := b rfl
      by_cases he : (t, id) = (t1, id1)
      · injection he with he1 he2
        rw [he1, he2]; exact h2
      · simp only at h1 ⊢
        rw [h1 t id he]
  | destroy e n =>
    show NssSound (s.destroyObject N e hs n).2.1 (s.destroyObject N e hs n).2.2
    have d1 : (s.destroyObject N e hs n).2.1.db = s.db :=
      (C71_dead_partial (N := N) e s (s.destroyObject N e hs n).2.1 hs (s.destroyObject N e hs n).2.2 n (s.destroyObject N e hs n).1 rfl).1
    have hh : (s.destroyObject N e hs n).2.2 = hs ∨ (s.destroyObject N e hs n).2.2 = hs.remove n := by
      unfold Nss.destroyObject
      repeat' split
      all_goals first
        | exact .inl rfl
        | exact .inr rfl
    have h1 : NssSound (s.destroyObject N e hs n).2.1 hs := sound_of h fun t id => by rw [d1]
    rcases hh with hh | hh
    · rw [hh]; exact h1
    · rw [hh]
      refine ⟨(hs_remove (D := fun _ => True) h1.ok trivial).1, fun m u hu => ?_, h1.small⟩
      rw [get_remove] at hu
      split at hu
      · cases hu
      · exact h1.real m u hu
  | search e l tm =>
    show NssSound s (s.search e hs _).2
    unfold Nss.search
    split
    · exact h
    · rename_i ids hids
      obtain ⟨a, b⟩ := handles_real ids hs h.ok h.real (searchIds_real hids h.small)
      exact ⟨a, b, h.small⟩
  | read e l n tm =>
    show NssSound (s.objectForAttrs N e hs l n tm).2 hs
    have : (s.objectForAttrs N e hs l n tm).2.db = s.db := by
      unfold Nss.objectForAttrs
      have := fetch_db (N := N) e s hs n (tm ++ if l then [] else [CkAttr.ofBool CKA_TOKEN false, CkAttr.ofBool CKA_PRIVATE false])
      generalize s.fetch N e hs n (tm ++ if l then [] else [CkAttr.ofBool CKA_TOKEN false, CkAttr.ofBool CKA_PRIVATE false]) = x at this ⊢
      obtain ⟨r, s'⟩ := x
      cases r with
      | error r => exact this
      | ok o =>
        simp only
        split <;> exact this
    exact sound_of h fun t id => by rw [this]
  | login e u pin c =>
    have : (s.authUser N e u pin c).2.db = s.db := by
      unfold Nss.authUser
      repeat' split
      all_goals rfl
    exact sound_of h fun t id => by show (AMap.get ((s.authUser N e u pin c).2.db.rows t) id).isSome = _; rw [this]
  | logout => exact sound_of h fun _ _ => rfl
  | setPin e u pin =>
    obtain ⟨h1, h2, _⟩ := C67_rows_partial (N := N) e s u pin
    refine sound_of h fun t id => ?_
    show (AMap.get ((s.setUserPin N e u pin).2.db.rows t) id).isSome = _
    cases t
    · show (AMap.get (s.setUserPin N e u pin).2.db.pub id).isSome = _
      rw [h1]; rfl
    · show (AMap.get (s.setUserPin N e u pin).2.db.priv id).isSome = _
      rw [h2]; rfl

/-- **C73.**  Whatever calls were made since the token was initialised, the premises of C73_store hold. -/
theorem C73_runs (k : NssKeys) (cs : List NssCall) : HsOk (nssRuns N ⟨⟨[], [], []⟩, k⟩ Handles.new cs).2 ∧
    handlesReal (nssRuns N ⟨⟨[], [], []⟩, k⟩ Handles.new cs).2 (nssRuns N ⟨⟨[], [], []⟩, k⟩ Handles.new cs).1.db := by
  have all : ∀ (cs : List NssCall) (s : Nss) (hs : Handles), NssSound s hs → NssSound (nssRuns N s hs cs).1 (nssRuns N s hs cs).2 := by
    intro cs
    induction cs with
    | nil => intro s hs h; exact h
    | cons c cs ih => intro s hs h; exact ih _ _ (sound_step c s hs h)
  have init : NssSound ⟨⟨[], [], []⟩, k⟩ Handles.new :=
    ⟨⟨List.nodup_nil, List.nodup_nil, fun n u hu => (by cases hu), by decide⟩, fun n u hu => (by cases hu), fun t id hx => (by cases t <;> exact absurd rfl hx)⟩
  have := all cs _ _ init
  exact ⟨this.ok, this.real⟩

end Kry
