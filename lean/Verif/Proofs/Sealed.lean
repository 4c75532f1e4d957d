import Verif.Proofs.RegularTok
import Verif.Proofs.Kept
import Verif.Proofs.Undo
import Verif.Props.C29

/-!
# Secret attributes are stored encrypted

The invariant behind C30: what the table holds of an object, in each attribute that its kind marks as sensitive, is a ciphertext made for
that object under one of the keys `P`.
-/

namespace Kry
open Spec

variable {C : Crypto} {M : Mechs} {O : Oracle}

/-- The types that say which kind of object it is. -/
def kindTypes : List Nat := [CKA_CLASS, CKA_KEY_TYPE, CKA_CERTIFICATE_TYPE]

/-- The rows `r` of `u`: the sensitive ones hold ciphertexts. -/
def SealedR (C : Crypto) (P : Bytes → Prop) (u : Bytes) (r : List (Nat × DbVal)) : Prop :=
  ∃ (o : Obj) (f : Nat → Option Attr), Decodes r f ∧ (∀ t ∈ kindTypes, f t = o.find t) ∧ f CKA_CLASS ≠ none ∧
    (∃ F, objFactory o = .ok F) ∧ ∀ F, objFactory o = .ok F → ∀ t ∈ F.sensitive, ∀ x, f t = some x → ∃ k p, P k ∧ carries C k u p x.value

/-- A table of objects, each with a unique id, and all sealed. -/
structure SealedT (C : Crypto) (P : Bytes → Prop) (t : ObjTable) : Prop where
  named : ∀ g ∈ t, ∃ u, hasRow g.2 CKA_UNIQUE_ID (.text u) = true
  rows : ∀ u r, rowsOf t u = some r → SealedR C P u r

theorem SealedR.mono {P Q : Bytes → Prop} (h : ∀ k, P k → Q k) {u : Bytes} {r : List (Nat × DbVal)} (s : SealedR C P u r) : SealedR C Q u r := by
  obtain ⟨o, f, h1, h2, h3, h5, h4⟩ := s
  exact ⟨o, f, h1, h2, h3, h5, fun F hF t ht x hx => by
    obtain ⟨k, p, a, b⟩ := h4 F hF t ht x hx
    exact ⟨k, p, h k a, b⟩⟩

theorem SealedT.mono {P Q : Bytes → Prop} (h : ∀ k, P k → Q k) {t : ObjTable} (s : SealedT C P t) : SealedT C Q t :=
  ⟨s.named, fun u r hr => (s.rows u r hr).mono h⟩

theorem encrypt_carries {e : Env} {a : Aci} {u p c : Bytes} (h : a.encryptValue C e u p = .ok c) :
    ∃ k, a.key = some k ∧ carries C k u p c := by
  unfold Aci.encryptValue at h
  split at h
  · rename_i k hk
    refine ⟨k, hk, ?_⟩
    unfold encryptData at h
    split at h
    · cases h
    · injection h with h
      rw [← h]
      exact ⟨_, _, C.parse_der _, rfl⟩
  · cases h

theorem sens_bytes {o : Obj} {F : Factory} (h : objFactory o = .ok F) : ∀ t ∈ F.sensitive, attrKind t = some .bytes := by
  obtain ⟨k, hm⟩ := objFactory_mem h
  have hb := allFactories_spec sensitive_bytes hm
  simpa only [List.all_eq_true, beq_iff_eq] using hb

theorem sens_nodup {o : Obj} {F : Factory} (h : objFactory o = .ok F) : F.sensitive.Nodup := by
  obtain ⟨k, hm⟩ := objFactory_mem h
  have hb := allFactories_spec sensitive_nodup hm
  simpa only [decide_eq_true_eq] using hb

theorem kind_kept {o : Obj} {F : Factory} (h : objFactory o = .ok F) {t : Nat} (ht : t ∈ kindTypes) :
    t ∉ F.sensitive ∧ t ∉ F.ephemeral ∧ attrKind t = some .num := by
  have h1 := plain_kept t ht
  refine ⟨fun h2 => ?_, fun h2 => ?_, h1⟩
  · have := sens_bytes h t h2
    rw [h1] at this; cases this
  · rw [ephemeral_mem h h2] at ht
    exact absurd ht (by decide)

/-- Storing a regular object. -/
theorem storeObj_sealed {e e' : Env} {db : Db} {a : Aci} {o x : Obj} {F : Factory} {uid : Bytes} {P : Bytes → Prop}
    (ok : TblOk db.objs) (hr : Regular o) (hF : objFactory o = .ok F) (hu : o.getStr CKA_UNIQUE_ID = .ok uid)
    (hx : encryptLoop C e a uid F.sensitive 0 o = .ok x) (hP : ∀ k, a.key = some k → P k) (h : SealedT C P db.objs) :
    SealedT C P (db.storeObj e' (delAll x F.ephemeral)).2.objs := by
  refine storeObj_move h ?_
  intro u t' hu' hst
  have hr1 := regular_encryptLoop (sens_bytes hF) hx hr
  have hdel : ∀ t ∈ F.ephemeral, t ≠ CKA_CLASS := by
    intro t ht e
    rw [ephemeral_mem hF ht] at e
    exact absurd e (by decide)
  have hr2 := regular_delAll (l := F.ephemeral) hr1 hdel
  have : u = uid := by
    unfold Obj.getStr at hu' hu
    rw [find_delAll, if_neg (uid_notIn hF).2, encryptLoop_find hx (uid_notIn hF).1] at hu'
    rw [hu'] at hu
    injection hu
  subst this
  obtain ⟨_, r, hrow, hd⟩ := rows_regular ok hr2 hu' hst
  obtain ⟨_, rows, _, hrr⟩ := store_inv ok (regular_uidCount hr2) hu' hst
  refine ⟨fun g hg => (store_groups ok (regular_uidCount hr2) hu' hst g hg).elim (h.named g) fun z => ⟨u, z⟩, ?_⟩
  intro v w hv
  by_cases huv : u = v
  · subst huv
    rw [hrow] at hv
    injection hv with hv
    subst hv
    have kind : ∀ t ∈ kindTypes, (if attrKind t ≠ some .ignore ∧ attrKind t ≠ some .deny then
        ((delAll x F.ephemeral).find t).map normA else none) = o.find t := by
      intro t ht
      obtain ⟨k1, k2, k3⟩ := kind_kept hF ht
      rw [if_pos (by rw [k3]; exact ⟨nofun, nofun⟩), find_delAll, if_neg k2, encryptLoop_find hx k1]
      cases hy : o.find t with
      | none => rfl
      | some y => simp only [Option.map_some]; rw [normA_num (by rw [find_typ hy, k3]; nofun)]
    refine ⟨o, _, hd, kind, by rw [kind _ (by decide)]; exact hr.has, ⟨F, hF⟩, ?_⟩
    intro F' hF' t ht y hy
    rw [hF] at hF'; injection hF' with hF'; subst hF'
    have kb := sens_bytes hF t ht
    rw [if_pos (by rw [kb]; exact ⟨nofun, nofun⟩), find_delAll] at hy
    split at hy
    · cases hy
    · have sp := encryptLoop_spec (sens_nodup hF) hx ht
      split at sp
      · rw [sp] at hy; cases hy
      · obtain ⟨c, e1, hc, he⟩ := sp
        rw [hc] at hy
        simp only [Option.map_some] at hy
        injection hy with hy
        rw [normA_num (by show attrKind t ≠ _; rw [kb]; nofun)] at hy
        subst hy
        obtain ⟨k, hk, hca⟩ := encrypt_carries he
        exact ⟨k, _, hP k hk, hca⟩
  · rw [hrr, if_neg huv] at hv
    exact h.rows v w hv

theorem insert_sealed {k : Nat} {t : Token} (e : Env) {o : Obj} {P : Bytes → Prop} (hz : Zero o) (hr : Regular o)
    (ok : TblOk t.store.db.objs) (he : t.store.aci.encrypt = true) (hP : ∀ k, t.store.aci.key = some k → P k)
    (h : SealedT C P t.store.db.objs) : SealedT C P (t.insertObject C e k o).2.store.db.objs := by
  by_cases ht : o.isToken = true
  · unfold Token.insertObject
    rw [if_pos ht]
    split
    · exact h
    · rcases store_shape (C := C) e t.store t.handles o hz.handle with
        ⟨r, h'⟩ | ⟨F, uid, x, hF, huid, hx, ⟨r, _, h'⟩ | ⟨hins, r, _, h'⟩⟩
      · simp only [h']; exact h
      · simp only [h']; exact h
      · simp only [h']
        rw [if_pos he] at hx
        exact storeObj_sealed ok hr hF huid hx hP h
  · rw [(insert_sess (C := C) t e k o).2 (by simpa using ht)]
    exact h

/-! ## Changing an object -/

theorem replaceFirst_map {tm : Template} {t : Nat} {v : Bytes} (h : ∃ c ∈ tm, c.typ = t) :
    (replaceFirst tm t v).map CkAttr.typ = tm.map CkAttr.typ := by
  induction tm with
  | nil => obtain ⟨_, h, _⟩ := h; cases h
  | cons a tm ih =>
    unfold replaceFirst
    split
    · rename_i e; simp [e]
    · rename_i e
      simp only [List.map_cons]
      rw [ih]
      obtain ⟨c, hc, he⟩ := h
      rcases List.mem_cons.1 hc with rfl | hc
      · exact absurd he e
      · exact ⟨c, hc, he⟩

/-- With distinct types the new entry is the only one of its type. -/
theorem replaceFirst_only {tm : Template} {t : Nat} {v : Bytes} (hn : (tm.map CkAttr.typ).Nodup) {c : CkAttr}
    (hc : c ∈ replaceFirst tm t v) (ht : c.typ = t) : c = ⟨t, .data v⟩ := by
  induction tm with
  | nil => unfold replaceFirst at hc; simpa using hc
  | cons a tm ih =>
    rw [List.map_cons, List.nodup_cons] at hn
    unfold replaceFirst at hc
    split at hc
    · rename_i e
      rcases List.mem_cons.1 hc with h | h
      · exact h
      · exact absurd (List.mem_map.2 ⟨c, h, ht.trans e.symm⟩) hn.1
    · rename_i e
      rcases List.mem_cons.1 hc with h | h
      · rw [h] at ht; exact absurd ht e
      · exact ih hn.2 h

theorem updateEncrypt_sealed {e : Env} {a : Aci} {u : Bytes} {ts : List Nat} {i : Nat} {tm tm' : Template} (hn : (tm.map CkAttr.typ).Nodup)
    (hts : ts.Nodup) (h : updateEncrypt C e a u ts i tm = .ok tm') {c : CkAttr} (hc : c ∈ tm') (ht : c.typ ∈ ts) :
    ∃ k p, a.key = some k ∧ carries C k u p c.toBuf := by
  induction ts generalizing i tm with
  | nil => cases ht
  | cons t ts ih =>
    rw [List.nodup_cons] at hts
    unfold updateEncrypt at h
    by_cases e0 : c.typ = t
    · have hnot : c.typ ∉ ts := by rw [e0]; exact hts.1
      split at h
      · rename_i hf
        have := updateEncrypt_keep h hc hnot
        rw [List.find?_eq_none] at hf
        exact absurd (by simpa using e0) (hf c this)
      · rename_i c0 hf
        split at h
        · cases h
        · rename_i v hv
          have := replaceFirst_only hn (updateEncrypt_keep h hc hnot) e0
          subst this
          obtain ⟨k, hk, hca⟩ := encrypt_carries hv
          exact ⟨k, _, hk, hca⟩
    · have ht' : c.typ ∈ ts := (List.mem_cons.1 ht).resolve_left e0
      split at h
      · exact ih hn hts.2 h ht'
      · rename_i c0 hf
        split at h
        · cases h
        · refine ih ?_ hts.2 h ht'
          rw [replaceFirst_map ⟨c0, List.mem_of_find?_eq_some hf, by simpa using List.find?_some hf⟩]
          exact hn

theorem fromCk_value {c : CkAttr} {a : Attr} (hk : attrKind c.typ = some .bytes) (h : Attr.fromCk c = .ok a) : a.value = c.toBuf := by
  unfold Attr.fromCk at h
  rw [hk] at h
  simp only at h
  repeat' split at h
  all_goals first | (cases h; done) | (injection h with h; rw [← h]; rfl)

/-- The value an object has after attributes were set: the old one, or one of those set. -/
theorem setAllCk_some {tm : Template} {o o' : Obj} {t : Nat} {x : Attr} (h : setAllCk o tm = .ok o') (hx : o'.find t = some x) :
    o.find t = some x ∨ ∃ c ∈ tm, c.typ = t ∧ Attr.fromCk c = .ok x := by
  by_cases ht : ∀ c ∈ tm, c.typ ≠ t
  · rw [setAllCk_find h ht] at hx; exact .inl hx
  · induction tm generalizing o with
    | nil => exact absurd (fun c hc => by cases hc) ht
    | cons c tm ih =>
      unfold setAllCk at h
      split at h
      · cases h
      · rename_i a ha
        split at h
        · cases h
        · rename_i o1 h1
          by_cases hr : ∀ c ∈ tm, c.typ ≠ t
          · rw [setAllCk_find h hr, find_setAttr h1] at hx
            split at hx
            · rename_i e
              injection hx with hx
              subst hx
              exact .inr ⟨c, List.mem_cons_self .., (fromCk_typ ha).symm.trans e, ha⟩
            · exact .inl hx
          · rcases ih h hr with hx' | ⟨c', h1', h2', h3'⟩
            · rw [find_setAttr h1] at hx'
              split at hx'
              · rename_i e
                injection hx' with hx'
                subst hx'
                exact .inr ⟨c, List.mem_cons_self .., (fromCk_typ ha).symm.trans e, ha⟩
              · exact .inl hx'
            · exact .inr ⟨c', List.mem_cons_of_mem _ h1', h2', h3'⟩

theorem regular_setAllCk {tm : Template} {o o' : Obj} (h : setAllCk o tm = .ok o') (hc : ∀ c ∈ tm, c.typ ≠ CKA_CLASS) (hr : Regular o) :
    Regular o' := by
  induction tm generalizing o with
  | nil => injection h with h; rw [← h]; exact hr
  | cons c tm ih =>
    unfold setAllCk at h
    split at h
    · cases h
    · rename_i a ha
      split at h
      · cases h
      · rename_i o1 h1
        refine ih h (fun c hm => hc c (List.mem_cons_of_mem _ hm)) (regular_setAttr h1 hr (inForm_fromCk ha) ?_)
        rw [fromCk_typ ha]
        exact hc c (List.mem_cons_self ..)

theorem update_sealed {e : Env} {s : Store} {hd : Handles} {n : Nat} {tm : Template} {P : Bytes → Prop} (ok : TblOk s.db.objs)
    (hu : ∀ c ∈ tm, c.typ ≠ CKA_UNIQUE_ID) (hp : plainSet tm) (he : s.aci.encrypt = true) (hP : ∀ k, s.aci.key = some k → P k)
    (h : SealedT C P s.db.objs) : SealedT C P (s.update C e hd n tm).2.db.objs := by
  rcases update_store (C := C) e s hd n tm ok hu with ⟨h1, _⟩ | ⟨u, o, F, tm', o1, t', hg, hf, hF, htm, ho, z, hu', hst, h1⟩
  · rw [h1]; exact h
  · rw [h1]
    show SealedT C P t'
    rw [if_pos he] at htm
    obtain ⟨r, hr, hnr, _, hdec⟩ := fetchByUid_ok ok hf
    have hpick : pick [] r = r := by unfold pick; rw [if_pos rfl]
    rw [hpick] at hdec
    have ro : Regular o := regular_sound1 (fetchByUid_sound ok hf) (orderly_decodeRows hdec (orderly_new _ (by decide))).cls
    -- what is set and is of no sensitive type was asked for
    have hkeep : ∀ c ∈ tm', c.typ ∉ F.sensitive → c ∈ tm := fun c hc ht => updateEncrypt_keep htm hc ht
    have hkind : ∀ t ∈ kindTypes, ∀ c ∈ tm', c.typ ≠ t := by
      intro t ht c hc e
      have := hkeep c hc (by rw [e]; exact (kind_kept hF ht).1)
      exact hp.2 c this (by rw [e]; exact ht)
    have ro1 := regular_setAllCk ho (hkind _ (by decide)) ro
    have hdel : ∀ t ∈ F.ephemeral, t ≠ CKA_CLASS := by
      intro t ht e
      rw [ephemeral_mem hF ht] at e
      exact absurd e (by decide)
    have ro2 := regular_delAll (l := F.ephemeral) ro1 hdel
    obtain ⟨_, r', hrow, hd'⟩ := rows_regular ok ro2 hu' hst
    obtain ⟨_, rows, _, hrr⟩ := store_inv ok z hu' hst
    refine ⟨fun g hg => (store_groups ok z hu' hst g hg).elim (h.named g) fun z => ⟨u, z⟩, ?_⟩
    intro v w hv
    by_cases huv : u = v
    · subst huv
      rw [hrow] at hv
      injection hv with hv
      subst hv
      obtain ⟨og, f, hdf, hkf, hcf, hof, hsf⟩ := h.rows u r hr
      -- the object read agrees with the rows
      have hfind : ∀ t, o.find t = f t := by
        intro t
        have a := decodeRows_find hnr hdec t
        have b := hdf t
        cases hx : AMap.get r t with
        | none =>
          rw [hx] at a b
          simp only at a b
          rw [a, b]
          have : t ≠ CKA_CLASS := by
            intro e; rw [e] at b; exact hcf b
          have hne : (CKA_CLASS == t) = false := by simpa using fun e => this e.symm
          show List.find? _ [Attr.ofUlong CKA_CLASS _] = none
          rw [List.find?_cons_of_neg (by show ¬ (CKA_CLASS == t) = true; rw [hne]; nofun)]
          rfl
        | some v =>
          rw [hx] at a b
          simp only at a b
          obtain ⟨a1, ha1, ha2⟩ := a
          obtain ⟨b1, hb1, hb2⟩ := b
          rw [ha1] at hb2; injection hb2 with hb2
          rw [ha2, hb1, hb2]
      have hog : objFactory og = .ok F := by
        rw [← hF]
        refine objFactory_congr ?_ ?_ ?_
        all_goals rw [hfind, hkf _ (by decide)]
      have kind : ∀ t ∈ kindTypes, (if attrKind t ≠ some .ignore ∧ attrKind t ≠ some .deny then
          ((delAll o1 F.ephemeral).find t).map normA else none) = o.find t := by
        intro t ht
        obtain ⟨k1, k2, k3⟩ := kind_kept hF ht
        rw [if_pos (by rw [k3]; exact ⟨nofun, nofun⟩), find_delAll, if_neg k2, setAllCk_find ho (hkind t ht)]
        cases hy : o.find t with
        | none => rfl
        | some y => simp only [Option.map_some]; rw [normA_num (by rw [find_typ hy, k3]; nofun)]
      refine ⟨o, _, hd', kind, by rw [kind _ (by decide)]; exact ro.has, ⟨F, hF⟩, ?_⟩
      intro F' hF' t ht y hy
      rw [hF] at hF'; injection hF' with hF'; subst hF'
      have kb := sens_bytes hF t ht
      rw [if_pos (by rw [kb]; exact ⟨nofun, nofun⟩), find_delAll] at hy
      split at hy
      · cases hy
      · cases hz : o1.find t with
        | none => rw [hz] at hy; cases hy
        | some x =>
          rw [hz] at hy
          simp only [Option.map_some] at hy
          injection hy with hy
          rw [normA_num (by rw [find_typ hz, kb]; nofun)] at hy
          subst hy
          rcases setAllCk_some ho hz with hx | ⟨c, hc, hct, hfx⟩
          · exact hsf F hog t ht x (by rw [← hfind]; exact hx)
          · obtain ⟨k, p, hk, hca⟩ := updateEncrypt_sealed hp.1 (sens_nodup hF) htm hc (by rw [hct]; exact ht)
            refine ⟨k, p, hP k hk, ?_⟩
            rw [fromCk_value (by rw [hct]; exact kb) hfx]
            exact hca
    · rw [hrr, if_neg huv] at hv
      exact h.rows v w hv

theorem setAttrs_sealed {e : Env} {t : Token} {n : Nat} {tm : Template} {P : Bytes → Prop} (ok : TblOk t.store.db.objs)
    (hp : plainSet tm) (he : t.store.aci.encrypt = true) (hP : ∀ k, t.store.aci.key = some k → P k)
    (h : SealedT C P t.store.db.objs) : SealedT C P (t.setObjectAttrs C e n tm).2.store.db.objs := by
  unfold Token.setObjectAttrs
  split
  · split
    · exact h
    · exact h
  · split
    · exact h
    split
    · exact h
    split
    · exact h
    rename_i F hF
    split
    · exact h
    split
    · exact h
    rename_i hck
    exact update_sealed ok (checkSet_noUid hF hck) hp he hP h

theorem destroy_sealed {e : Env} {t : Token} {n : Nat} {P : Bytes → Prop} (ok : TblOk t.store.db.objs)
    (h : SealedT C P t.store.db.objs) : SealedT C P (t.destroyObject C e n).2.store.db.objs := by
  unfold Token.destroyObject
  split
  · split <;> exact h
  · split
    · exact h
    · split
      · exact h
      · simp only [Store.remove]
        split
        · exact h
        · rename_i uid hg
          unfold Db.removeByUid
          split
          · exact h
          · refine ⟨fun g hg => h.named g ((mem_delete ok).1 hg).1, ?_⟩
            intro u r hr
            simp only at hr
            rw [rowsOf_delete ok] at hr
            split at hr
            · cases hr
            · exact h.rows u r hr

/-! ## Calls -/

theorem act_loosen {Z : Lic} {k : Nat} {D : Nat → Prop} {N : Obj → Prop} {a b : Token} (hZ : ¬ Z.pin) (x : TAct C Z k D N a b) :
    TAct C .noPin k D N a b := by
  cases x with
  | insert e o t hz hn => exact .insert e o _ hz hn
  | destroy e n t hd => exact .destroy e n _ hd
  | setAttrs e n tm t hw => exact .setAttrs e n tm _ trivial
  | search e tm t hf => exact .search e tm _ trivial
  | update e n tm t hl hu hdd => exact .update e n tm _ hl hu hdd
  | initPin e pin t hp => exact absurd hp hZ
  | changePin e s old new t hp hd => exact absurd hp hZ

/-- A token with key `K` whose table is sealed. -/
structure SealTok (C : Crypto) (P : Bytes → Prop) (K : Option Bytes) (t : Token) : Prop where
  tbl : TblOk t.store.db.objs
  dd : t.cfg.dedup = none
  enc : t.store.aci.encrypt = true
  key : t.store.aci.key = K
  sealed : SealedT C P t.store.db.objs

theorem act_sealed {Z : Lic} {k : Nat} {D : Nat → Prop} {N : Obj → Prop} {a b : Token} {P : Bytes → Prop} {K : Option Bytes}
    (x : TAct C Z k D N a b) (hZ : ¬ Z.pin) (hN : ∀ o, N o → Regular o) (hW : ∀ n tm, Z.wr n tm → plainSet tm)
    (hP : ∀ k, K = some k → P k) (h : SealTok C P K a) : SealTok C P K b := by
  have ok : TblOk b.store.db.objs := (act_move (I := False) x h.tbl).ok h.tbl
  have dd : b.cfg.dedup = none := by rw [(act_same x).cfg]; exact h.dd
  have st := act_still (act_loosen hZ x)
  have en : b.store.aci.encrypt = true := by rw [st.aci]; exact h.enc
  have ke : b.store.aci.key = K := by rw [st.aci]; exact h.key
  have hP' : ∀ k, a.store.aci.key = some k → P k := by rw [h.key]; exact hP
  refine ⟨ok, dd, en, ke, ?_⟩
  cases x with
  | insert e o t hz hn => exact insert_sealed e hz (hN o hn) h.tbl h.enc hP' h.sealed
  | destroy e n t hd => exact destroy_sealed h.tbl h.sealed
  | setAttrs e n tm t hw => exact setAttrs_sealed h.tbl (hW n tm hw) h.enc hP' h.sealed
  | search e tm t hf => exact h.sealed
  | update e n tm t hl hu hdd => exact absurd h.dd hdd
  | initPin e pin t hp => exact absurd hp hZ
  | changePin e s old new t hp hd => exact absurd hp hZ

theorem sealed_sess {e : Env} {h : Nat} {c : SCall} {t : Token} {x : Session} {P : Bytes → Prop} {K : Option Bytes}
    (hp : plainCall (.sess h c)) (hN : ∀ o, MadeS C O e x t c o → Regular o) (hP : ∀ k, K = some k → P k) (hk : SealTok C P K t) :
    SealedT C P (sessStep C O e h c x t).2.2.store.db.objs := by
  by_cases hpin : (∃ p, c = .initPin p) ∨ ∃ p q, c = .setPin p q
  · have : (sessStep C O e h c x t).2.2.store.db.objs = t.store.db.objs := by
      rcases hpin with ⟨p, rfl⟩ | ⟨p, q, rfl⟩
      · simp only [sessStep]
        split
        · rfl
        · unfold fnInitPin
          split
          · rfl
          · rw [setPin_objs]
      · simp only [sessStep]
        rw [fnSetPin_objs]
    rw [this]; exact hk.sealed
  have a := acts_sessMadeW (C := C) (Z := ⟨False, fun n tm => c = .setAttr n tm, True⟩) (h := h) (D := fun n => c = .destroyObject n) O e c x t
    (fun n hc => hc) (fun hz => hpin hz) (fun n tm hc => hc) (fun _ => trivial)
    (fun old new hc => absurd (.inr ⟨old, new, hc⟩) hpin)
  exact (TActs.inv (P := SealTok C P K) (fun _ _ x p => act_sealed x (fun h => h) hN
    (fun n tm (hw : c = .setAttr n tm) => by subst hw; exact hp) hP p) a hk).sealed

theorem sealed_op {e : Env} {h : Nat} {c : OCall} {t : Token} {x : Session} {P : Bytes → Prop} {K : Option Bytes}
    (hM : plainMechs M) (hN : ∀ o, MadeO M e x c o → Regular o) (hP : ∀ k, K = some k → P k) (hk : SealTok C P K t) :
    SealedT C P (opStep M C e h c x t).2.2.store.db.objs := by
  have a := acts_opMadeW (C := C) (Z := ⟨False, fun _ tm => plainSet tm, False⟩) (h := h) (D := fun _ => True) M e c x t
    (fun n _ => trivial) (fun e k a op i n tm hu => hM e k a op i n tm hu)
  exact (TActs.inv (P := SealTok C P K) (fun _ _ x p => act_sealed x (fun h => h) hN (fun _ _ h => h) hP p) a hk).sealed

/-- One step. -/
theorem sealed_step {e : Env} {s : St} {c : Call} {i : Nat} {P : Bytes → Prop} (hi : Inv s) (ht : TInv s) (hr : RInv s) (hE : Encrypts s)
    (hR : RegularMechs M O) (hM : plainMechs M) (hdd : ∀ i sl, AMap.get s.slots i = some sl → sl.token.cfg.dedup = none)
    (hp : plainCall c) (hP : ∀ k, holdsKey s i k → P k) (h : SealedT C P (dbAt s i).objs) :
    SealedT C P (dbAt (step M C O e s c).2 i).objs := by
  have fin : SealedT C P (dbAt ⟨[], [], 0, s.files⟩ i).objs := by rw [dbAt_files hi]; exact h
  by_cases h1 : c = .finalize
  · subst h1
    simp only [step, fnFinalize]
    split
    · exact h
    · exact fin
  by_cases h2 : c = .crash
  · subst h2; exact fin
  cases hs : AMap.get s.slots i with
  | some sl =>
    have hr0 : SealedT C P sl.token.store.db.objs := by rw [← dbAt_some hs]; exact h
    have k0 : SealTok C P sl.token.store.aci.key sl.token := ⟨ht.slots i sl hs, hdd i sl hs, hE i sl hs, rfl, hr0⟩
    have hP0 : ∀ k, sl.token.store.aci.key = some k → P k := fun k hk => hP k ⟨sl, hs, hk⟩
    by_cases h4 : ∃ h k, c = .sess h k
    · obtain ⟨hh, k, rfl⟩ := h4
      simp only [step]
      split
      · exact h
      · rename_i j slj x hgs
        obtain ⟨_, hm', hj, hx⟩ := getSession_ok hgs
        by_cases ij : j = i
        · subst ij
          rw [hs] at hj; injection hj with hj; subst hj
          rw [dbAt_some ((get_setSlot hs).trans (if_pos rfl))]
          exact sealed_sess hp (fun o m => regular_made hR (ht.slots j sl hs) hp (hr j sl hs) (MadeBy.sess (M := M) hx m)) hP0 k0
        · rw [dbAt_some ((get_setSlot_ne ij).trans hs)]; exact hr0
    by_cases h5 : ∃ h k, c = .op h k
    · obtain ⟨hh, k, rfl⟩ := h5
      simp only [step]
      split
      · exact h
      · rename_i j slj x hgs
        obtain ⟨_, hm', hj, hx⟩ := getSession_ok hgs
        by_cases ij : j = i
        · subst ij
          rw [hs] at hj; injection hj with hj; subst hj
          rw [dbAt_some ((get_setSlot hs).trans (if_pos rfl))]
          exact sealed_op hM (fun o m => regular_made (C := C) hR (ht.slots j sl hs) hp (hr j sl hs) (MadeBy.op hx m)) hP0 k0
        · rw [dbAt_some ((get_setSlot_ne ij).trans hs)]; exact hr0
    by_cases h6 : ∃ p l, c = .initToken i p l
    · obtain ⟨pin, l, rfl⟩ := h6
      show SealedT C P (dbAt (fnInitToken C e s i pin l).2 i).objs
      unfold fnInitToken
      split
      · exact h
      · split
        · exact h
        · rename_i slj hg _
          obtain ⟨_, hj⟩ := getSlot_ok hg
          rw [hs] at hj; injection hj with hj; subst hj
          extract_lets lab
          have z : SealedT C P (sl.token.initToken C e pin lab).2.store.db.objs := by
            rcases initToken_objs (C := C) e sl.token pin lab with z | z
            · rw [z]; exact hr0
            · rw [z]; exact ⟨fun g h => (by cases h), fun u r h => by cases h⟩
          generalize sl.token.initToken C e pin lab = p at z ⊢
          obtain ⟨r, t⟩ := p
          simp only
          repeat' split
          all_goals
            rw [dbAt_some ((get_setSlot hs).trans (if_pos rfl))]
            exact z
    obtain ⟨sl', hs', ho⟩ := step_objs (M := M) (O := O) (e := e) hi hs h1 h2 (fun p l hc => h6 ⟨p, l, hc⟩)
      (fun h k hc => h4 ⟨h, k, hc⟩) (fun h k hc => h5 ⟨h, k, hc⟩)
    rw [dbAt_some hs', ho]; exact hr0
  | none =>
    cases hs' : AMap.get (step M C O e s c).2.slots i with
    | none =>
      have : dbAt (step M C O e s c).2 i = dbAt s i := by
        unfold dbAt; rw [hs', hs, step_disks h1 h2]
      rw [this]; exact h
    | some sl =>
      obtain ⟨e', cfg, conf, hcc, hmem, _, hnew⟩ := step_new hs hs'
      unfold dbAt at h
      rw [hs] at h
      rw [dbAt_some hs', new_objs hnew]
      revert h
      simp only
      cases AMap.get s.disks i <;> exact fun h => h

end Kry
