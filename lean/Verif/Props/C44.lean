import Verif.Proofs.Search
import Verif.Props.C28
import Verif.Props.C14Life

/-!
# C44: duplicate handling never destroys unrelated objects

`C44_create`: whatever de-duplication is configured, C_CreateObject changes at most one stored object; one that has the
class of the new object and its identifying attributes, on a token configured to merge objects of that class.  In
particular it changes none on a token without de-duplication (`C44_off`).
-/

namespace Kry
namespace Spec

/-- The classes that a setting merges (`src/config.rs:56-70`). -/
def merges (d : Dedup) (cls : Nat) : Prop :=
  cls = CKO_TRUST ∨ cls = CKO_NSS_TRUST ∨
  (cls = CKO_CERTIFICATE ∧ d ≠ .trustOnly) ∨
  ((cls = CKO_PUBLIC_KEY ∨ cls = CKO_PRIVATE_KEY ∨ cls = CKO_SECRET_KEY) ∧ d = .all)

/-- The attributes that identify an object of a class: issuer and serial number of a certificate or of trust in one; id and
type of a key. -/
def identifying (cls : Nat) : List Nat :=
  if cls = CKO_PUBLIC_KEY ∨ cls = CKO_PRIVATE_KEY ∨ cls = CKO_SECRET_KEY then [CKA_ID, CKA_KEY_TYPE] else [CKA_ISSUER, CKA_SERIAL_NUMBER]

/-- The stored rows have the class of `o` and its identifying attributes. -/
def sameAs (o : Obj) (rows : List (Nat × DbVal)) : Prop :=
  rowIs rows (.ofUlong CKA_CLASS o.cls) ∧ ∀ t ∈ identifying o.cls, ∃ a, o.find t = some a ∧ rowIs rows (.mk' t a.value)

end Spec

open Spec

variable {M : Mechs} {C : Crypto} {O : Oracle}

/-- What a search for duplicates finds, in a table it does not change. -/
theorem isDuplicate_found {e : Env} {t : Token} {tm : Template} (ok : TblOk t.store.db.objs) (hk : HsOk t.handles) :
    (t.isDuplicate e tm).2.store = t.store ∧ (t.isDuplicate e tm).2.cfg = t.cfg ∧
    ∀ n, (t.isDuplicate e tm).1 = .ok (some n) → ∃ u rows, (t.isDuplicate e tm).2.handles.get n = some u ∧
      rowsOf t.store.db.objs u = some rows ∧ ∀ c ∈ tm, rowIs rows c := by
  have ex := @store_search_exact e t.store t.handles tm
  unfold Token.isDuplicate
  generalize t.store.search e t.handles tm = p at ex ⊢
  obtain ⟨r, h⟩ := p
  refine ⟨?_, ?_, fun n hn => ?_⟩
  · simp only; repeat' split
    all_goals rfl
  · simp only; repeat' split
    all_goals rfl
  · simp only at hn ⊢
    rcases r with r | l
    · cases hn
    · obtain ⟨e1, _⟩ := ex (r := l) ok hk rfl
      rcases l with _ | ⟨m, _ | ⟨m', l⟩⟩
      · cases hn
      · injection hn with hn
        injection hn with hn
        subst hn
        obtain ⟨u, id, rows, o, h1, h2, h3, _, _, h4, _⟩ := (e1 m).1 (List.mem_singleton.2 rfl)
        exact ⟨u, rows, h1, (rowsOf_iff ok).2 ⟨id, h2, (hasRow_get (ok.rows _ h2)).2 h3⟩, h4⟩
      · cases hn

theorem certDuplicate_found {e : Env} {t : Token} {o : Obj} (ok : TblOk t.store.db.objs) (hk : HsOk t.handles) {n : Nat}
    (hn : (t.certDuplicate e o).1 = .ok (some n)) :
    ∃ u rows, (t.certDuplicate e o).2.handles.get n = some u ∧ rowsOf t.store.db.objs u = some rows ∧
      rowIs rows (.ofUlong CKA_CLASS o.cls) ∧
      ∀ ty ∈ [CKA_ISSUER, CKA_SERIAL_NUMBER], ∃ a, o.find ty = some a ∧ rowIs rows (.mk' ty a.value) := by
  unfold Token.certDuplicate at hn ⊢
  generalize h1 : o.find CKA_ISSUER = x1 at hn ⊢
  generalize h2 : o.find CKA_SERIAL_NUMBER = x2 at hn ⊢
  cases x1 with
  | none => cases hn
  | some i =>
    cases x2 with
    | none => cases hn
    | some s =>
      simp only at hn ⊢
      obtain ⟨u, rows, k1, k2, k3⟩ := (isDuplicate_found ok hk).2.2 n hn
      refine ⟨u, rows, k1, k2, k3 _ (.head _), fun ty ht => ?_⟩
      rcases List.mem_cons.1 ht with rfl | ht
      · exact ⟨i, h1, k3 _ (.tail _ (.head _))⟩
      · cases List.mem_singleton.1 ht
        exact ⟨s, h2, k3 _ (.tail _ (.tail _ (.head _)))⟩

theorem keyDuplicate_found {e : Env} {t : Token} {o : Obj} (ok : TblOk t.store.db.objs) (hk : HsOk t.handles) {n : Nat}
    (hn : (t.keyDuplicate e o).1 = .ok (some n)) :
    ∃ u rows, (t.keyDuplicate e o).2.handles.get n = some u ∧ rowsOf t.store.db.objs u = some rows ∧
      rowIs rows (.ofUlong CKA_CLASS o.cls) ∧
      ∀ ty ∈ [CKA_ID, CKA_KEY_TYPE], ∃ a, o.find ty = some a ∧ rowIs rows (.mk' ty a.value) := by
  unfold Token.keyDuplicate at hn ⊢
  generalize h1 : o.find CKA_ID = x1 at hn ⊢
  generalize h2 : o.find CKA_KEY_TYPE = x2 at hn ⊢
  cases x1 with
  | none => cases hn
  | some i =>
    cases x2 with
    | none => cases hn
    | some s =>
      simp only at hn ⊢
      obtain ⟨u, rows, k1, k2, k3⟩ := (isDuplicate_found ok hk).2.2 n hn
      refine ⟨u, rows, k1, k2, k3 _ (.head _), fun ty ht => ?_⟩
      rcases List.mem_cons.1 ht with rfl | ht
      · exact ⟨i, h1, k3 _ (.tail _ (.head _))⟩
      · cases List.mem_singleton.1 ht
        exact ⟨s, h2, k3 _ (.tail _ (.tail _ (.head _)))⟩

theorem isDuplicate_store (e : Env) (t : Token) (tm : Template) : (t.isDuplicate e tm).2.store = t.store := by
  unfold Token.isDuplicate
  generalize t.store.search e t.handles tm = p
  obtain ⟨r, h⟩ := p
  simp only
  repeat' split
  all_goals rfl

theorem certDuplicate_store' (e : Env) (t : Token) (o : Obj) : (t.certDuplicate e o).2.store = t.store := by
  unfold Token.certDuplicate
  generalize o.find CKA_ISSUER = x1
  generalize o.find CKA_SERIAL_NUMBER = x2
  cases x1 <;> cases x2 <;> simp only [isDuplicate_store]

theorem keyDuplicate_store (e : Env) (t : Token) (o : Obj) : (t.keyDuplicate e o).2.store = t.store := by
  unfold Token.keyDuplicate
  generalize o.find CKA_ID = x1
  generalize o.find CKA_KEY_TYPE = x2
  cases x1 <;> cases x2 <;> simp only [isDuplicate_store]

/-- The merge half of `check_dedup`, on what the search for duplicates answered. -/
def mergeInto (C : Crypto) (e : Env) (o : Obj) (p : Res (Option Nat) × Token) : Res (Option Nat) × Token :=
  match p.1 with
  | .error r => (.error r, p.2)
  | .ok none => (.ok none, p.2)
  | .ok (some n) =>
    let updt := Token.swapRemove (o.attrs.map fun a : Attr => CkAttr.mk' a.typ a.value) CKA_UNIQUE_ID
    let q := p.2.store.update C (e.sub 1) p.2.handles n updt
    match q.1 with
    | .error r => (.error r, { p.2 with store := q.2 })
    | .ok () => (.ok (some n), { p.2 with store := q.2 })

/-- What a merge leaves of the table. -/
def MergeEff (t : Token) (o : Obj) (q : Res (Option Nat) × Token) : Prop :=
  q.2.store.db.objs = t.store.db.objs ∨
    ∃ d u rows, t.cfg.dedup = some d ∧ merges d o.cls ∧ rowsOf t.store.db.objs u = some rows ∧ sameAs o rows ∧
      (∀ v, v ≠ u → rowsOf q.2.store.db.objs v = rowsOf t.store.db.objs v) ∧ ∀ r, q.1 = .ok r → r ≠ none

theorem mergeInto_eff {e : Env} {t : Token} {o : Obj} (hz : Zero o) (ok : TblOk t.store.db.objs)
    {d : Dedup} {p : Res (Option Nat) × Token} (hd : t.cfg.dedup = some d) (hs : p.2.store = t.store)
    (hp : ∀ n, p.1 = .ok (some n) → merges d o.cls ∧ ∃ u rows, p.2.handles.get n = some u ∧ rowsOf t.store.db.objs u = some rows ∧ sameAs o rows) :
    MergeEff t o (mergeInto C e o p) := by
  obtain ⟨r, t1⟩ := p
  unfold mergeInto
  simp only at hs hp ⊢
  rcases r with r | _ | n
  · exact .inl (by rw [← hs])
  · exact .inl (by rw [← hs])
  · obtain ⟨hm, u, rows, g1, g2, g3⟩ := hp n rfl
    simp only
    have hno : ∀ c ∈ Token.swapRemove (o.attrs.map fun a : Attr => CkAttr.mk' a.typ a.value) CKA_UNIQUE_ID, c.typ ≠ CKA_UNIQUE_ID :=
      swapRemove_gone (by
        have := hz.uid
        unfold uidCount at this
        rw [List.filter_map, List.length_map]
        exact this)
    have ok1 : TblOk t1.store.db.objs := by rw [hs]; exact ok
    generalize Token.swapRemove (o.attrs.map fun a : Attr => CkAttr.mk' a.typ a.value) CKA_UNIQUE_ID = updt at hno ⊢
    have hup := update_store (C := C) (e.sub 1) t1.store t1.handles n updt ok1 hno
    generalize t1.store.update C (e.sub 1) t1.handles n updt = q at hup ⊢
    obtain ⟨r', st⟩ := q
    rcases hup with ⟨h1, r, h2⟩ | ⟨u', o', F, tm', o1, t', hg', hf, hF, htm, ho, z, hu', hst, h1⟩
    · left
      simp only at h1 h2 ⊢
      subst h1 h2
      show t1.store.db.objs = _
      rw [hs]
    · right
      rw [g1] at hg'
      injection hg' with hg'
      subst hg'
      injection h1 with h1 h1'
      subst h1 h1'
      refine ⟨d, u, rows, hd, hm, g2, g3, fun v hv => ?_, ?_⟩
      · simp only
        obtain ⟨_, _, _, hr⟩ := store_inv ok1 z hu' hst
        rw [hr, if_neg (fun h => hv h.symm), hs]
      · intro r hr
        injection hr with hr
        subst hr
        nofun

theorem checkDedup_merge (e : Env) (t : Token) (o : Obj) {d : Dedup} (hd : t.cfg.dedup = some d) :
    t.checkDedup C e o = mergeInto C e o (match d with
      | .trustOnly => if (o.cls == CKO_TRUST || o.cls == CKO_NSS_TRUST) = true then t.certDuplicate (e.sub 0) o else (.ok none, t)
      | .trustAndCertificates => if (o.cls == CKO_CERTIFICATE || (o.cls == CKO_TRUST || o.cls == CKO_NSS_TRUST)) = true then t.certDuplicate (e.sub 0) o else (.ok none, t)
      | .all => if (o.cls == CKO_CERTIFICATE || (o.cls == CKO_TRUST || o.cls == CKO_NSS_TRUST)) = true then t.certDuplicate (e.sub 0) o
        else if (o.cls == CKO_PUBLIC_KEY || o.cls == CKO_PRIVATE_KEY || o.cls == CKO_SECRET_KEY) = true then t.keyDuplicate (e.sub 0) o else (.ok none, t)) := by
  unfold Token.checkDedup
  simp only [hd]
  generalize (o.cls == CKO_TRUST || o.cls == CKO_NSS_TRUST) = b1
  generalize (o.cls == CKO_CERTIFICATE) = b2
  generalize (o.cls == CKO_PUBLIC_KEY || o.cls == CKO_PRIVATE_KEY || o.cls == CKO_SECRET_KEY) = b3
  generalize t.certDuplicate (e.sub 0) o = p1
  generalize t.keyDuplicate (e.sub 0) o = p2
  obtain ⟨r1, t1⟩ := p1
  obtain ⟨r2, t2⟩ := p2
  cases d <;> cases b1 <;> cases b2 <;> cases b3 <;>
    simp only [Bool.or_true, Bool.true_or, Bool.or_false, Bool.false_eq_true, if_true, if_false, mergeInto]
  all_goals first
    | rfl
    | (rcases r1 with r | _ | n <;> simp only <;> split <;> rfl)
    | (rcases r2 with r | _ | n <;> simp only <;> split <;> rfl)

/-- `check_dedup` changes at most a stored object like the new one. -/
theorem dedup_rows {e : Env} {t : Token} {o : Obj} (hz : Zero o) (ok : TblOk t.store.db.objs) (hk : HsOk t.handles) :
    MergeEff t o (t.checkDedup C e o) := by
  cases hd : t.cfg.dedup with
  | none => exact .inl (by rw [(checkDedup_store e o hd).1])
  | some d =>
    have notkey : (o.cls = CKO_TRUST ∨ o.cls = CKO_NSS_TRUST ∨ o.cls = CKO_CERTIFICATE) → identifying o.cls = [CKA_ISSUER, CKA_SERIAL_NUMBER] := by
      intro h
      unfold identifying
      rw [if_neg]
      rcases h with h | h | h <;> rw [h] <;> decide
    rw [checkDedup_merge e t o hd]
    have viaCert : (o.cls = CKO_TRUST ∨ o.cls = CKO_NSS_TRUST ∨ o.cls = CKO_CERTIFICATE) → merges d o.cls →
        MergeEff t o (mergeInto C e o (t.certDuplicate (e.sub 0) o)) := by
      intro hc hm
      refine mergeInto_eff hz ok hd (certDuplicate_store' _ _ _) fun n hn => ?_
      obtain ⟨u, rows, k1, k2, k3, k4⟩ := certDuplicate_found ok hk hn
      exact ⟨hm, u, rows, k1, k2, k3, by rw [notkey hc]; exact k4⟩
    have triv : MergeEff t o (mergeInto C e o (.ok none, t)) := .inl rfl
    have both : d ≠ .trustOnly → (o.cls == CKO_CERTIFICATE || (o.cls == CKO_TRUST || o.cls == CKO_NSS_TRUST)) = true →
        MergeEff t o (mergeInto C e o (t.certDuplicate (e.sub 0) o)) := by
      intro hne h
      simp only [Bool.or_eq_true, beq_iff_eq] at h
      rcases h with h | h | h
      · exact viaCert (.inr (.inr h)) (.inr (.inr (.inl ⟨h, hne⟩)))
      · exact viaCert (.inl h) (.inl h)
      · exact viaCert (.inr (.inl h)) (.inr (.inl h))
    cases d with
    | trustOnly =>
      simp only
      split
      · rename_i h
        simp only [Bool.or_eq_true, beq_iff_eq] at h
        exact viaCert (h.imp_right .inl) (h.imp_right .inl)
      · exact triv
    | trustAndCertificates =>
      simp only
      split
      · rename_i h
        exact both nofun h
      · exact triv
    | all =>
      simp only
      split
      · rename_i h
        exact both nofun h
      · split
        · rename_i h
          simp only [Bool.or_eq_true, beq_iff_eq, or_assoc] at h
          refine mergeInto_eff hz ok hd (keyDuplicate_store _ _ _) fun n hn => ?_
          obtain ⟨u, rows, k1, k2, k3, k4⟩ := keyDuplicate_found ok hk hn
          exact ⟨.inr (.inr (.inr ⟨h, rfl⟩)), u, rows, k1, k2, k3, by
            unfold identifying; rw [if_pos h]; exact k4⟩
        · exact triv

theorem create_rows {e : Env} {t : Token} {h : Nat} {tm : Template} (ok : TblOk t.store.db.objs) (hk : HsOk t.handles) {v : Bytes}
    (hv : ∀ o, factoriesCreate O (e.sub 0).uid tm = .ok o → o.getStr CKA_UNIQUE_ID ≠ .ok v) :
    rowsOf (t.createObject C O e h tm).2.store.db.objs v = rowsOf t.store.db.objs v ∨
    ∃ o d rows, factoriesCreate O (e.sub 0).uid tm = .ok o ∧ t.cfg.dedup = some d ∧ merges d o.cls ∧
      rowsOf t.store.db.objs v = some rows ∧ sameAs o rows ∧
      ∀ v', v' ≠ v → rowsOf (t.createObject C O e h tm).2.store.db.objs v' = rowsOf t.store.db.objs v' := by
  unfold Token.createObject
  cases hf : factoriesCreate O (e.sub 0).uid tm with
  | error r => exact .inl rfl
  | ok o =>
    have hz := zero_create hf
    have hv := hv o hf
    simp only
    split
    · split
      · exact .inl rfl
      · have m := dedup_rows (C := C) (e := e.sub 1) hz ok hk
        unfold MergeEff at m
        generalize t.checkDedup C (e.sub 1) o = p at m ⊢
        obtain ⟨r, t1⟩ := p
        rcases m with m | ⟨d, u, rows, m1, m2, m3, m4, m5, m6⟩
        · left
          simp only at m
          rcases r with r | _ | n
          · simp only [m]
          · simp only
            rw [insert_rows _ hz hv (by rw [m]; exact ok), m]
          · simp only [m]
        · have fin : rowsOf t1.store.db.objs v = rowsOf t.store.db.objs v ∨
              ∃ o' d rows, (Except.ok o : Res Obj) = .ok o' ∧ t.cfg.dedup = some d ∧ merges d o'.cls ∧
                rowsOf t.store.db.objs v = some rows ∧ sameAs o' rows ∧
                ∀ v', v' ≠ v → rowsOf t1.store.db.objs v' = rowsOf t.store.db.objs v' := by
            by_cases hu : v = u
            · subst hu
              exact .inr ⟨o, d, rows, rfl, m1, m2, m3, m4, m5⟩
            · exact .inl (m5 v hu)
          rcases r with r | _ | n
          · exact fin
          · exact absurd rfl (m6 _ rfl)
          · exact fin
    · exact .inl (insert_rows _ hz hv ok)

/-- Creating an object leaves every existing object (not the one it creates) as it is, except for at most one: of the same slot,
of the same class and with the same identifying attributes as the new one, when the slot is configured to merge such objects. -/
theorem C44_create (d : List (Nat × Db)) (hd : ∀ p ∈ d, TblOk p.2.objs) (tr : Trace) (e : Env) (h : Nat) (tm : Template) (j : Nat) (v : Bytes)
    (hv : ∀ o, factoriesCreate O (e.sub 0).uid tm = .ok o → o.getStr CKA_UNIQUE_ID ≠ .ok v)
    (hch : rowsOf (dbAt (step M C O e (after M C O d tr) (.sess h (.createObject tm))).2 j).objs v ≠ rowsOf (dbAt (after M C O d tr) j).objs v) :
    ∃ sl dd o rows, AMap.get (after M C O d tr).slots j = some sl ∧ sl.token.cfg.dedup = some dd ∧
      factoriesCreate O (e.sub 0).uid tm = .ok o ∧ merges dd o.cls ∧
      rowsOf (dbAt (after M C O d tr) j).objs v = some rows ∧ sameAs o rows ∧
      ∀ j' v', (j', v') ≠ (j, v) →
        rowsOf (dbAt (step M C O e (after M C O d tr) (.sess h (.createObject tm))).2 j').objs v' = rowsOf (dbAt (after M C O d tr) j').objs v' := by
  have ht : TInv (after M C O d tr) := tinv_reach M O hd tr
  have hh : HInv (after M C O d tr) := hinv_reach M O d tr
  generalize after M C O d tr = s at ht hh hch ⊢
  cases hg : s.getSession h with
  | error r => simp only [step, hg] at hch; exact absurd rfl hch
  | ok y =>
    obtain ⟨i, sl, x⟩ := y
    obtain ⟨_, _, hs, hx⟩ := getSession_ok hg
    simp only [step, hg] at hch ⊢
    have key : ∀ {w}, (∀ o, factoriesCreate O (e.sub 0).uid tm = .ok o → o.getStr CKA_UNIQUE_ID ≠ .ok w) → 
        rowsOf (sessStep C O e h (.createObject tm) x sl.token).2.2.store.db.objs w = rowsOf sl.token.store.db.objs w ∨
        ∃ o d rows, factoriesCreate O (e.sub 0).uid tm = .ok o ∧ sl.token.cfg.dedup = some d ∧ merges d o.cls ∧
          rowsOf sl.token.store.db.objs w = some rows ∧ sameAs o rows ∧
          ∀ v', v' ≠ w → rowsOf (sessStep C O e h (.createObject tm) x sl.token).2.2.store.db.objs v' = rowsOf sl.token.store.db.objs v' := by
      intro w hw
      have k := create_rows (C := C) (h := h) (ht.slots i sl hs) (hh i sl hs).ok.hs hw
      simp only [sessStep]
      unfold fnCreate
      split
      · exact .inl rfl
      · split
        · exact .inl rfl
        · exact k
    generalize sessStep C O e h (.createObject tm) x sl.token = y at hch key ⊢
    obtain ⟨o, x', t'⟩ := y
    simp only at hch key ⊢
    have at' : ∀ k, k ≠ i → dbAt (s.setSlot i ⟨t', AMap.modify sl.sessions h fun _ => x'⟩) k = dbAt s k := by
      intro k hk
      unfold dbAt
      rw [get_setSlot_ne (fun e => hk e.symm)]
      rfl
    have at1 : dbAt (s.setSlot i ⟨t', AMap.modify sl.sessions h fun _ => x'⟩) i = t'.store.db := dbAt_some ((get_setSlot hs).trans (if_pos rfl))
    by_cases hj : j = i
    · subst hj
      rw [at1, dbAt_some hs] at hch
      rcases key hv with k | ⟨o, dd, rows, k1, k2, k3, k4, k5, k6⟩
      · exact absurd k hch
      · refine ⟨sl, dd, o, rows, hs, k2, k1, k3, by rw [dbAt_some hs]; exact k4, k5, fun j' v' hne => ?_⟩
        by_cases hj' : j' = j
        · subst hj'
          rw [at1, dbAt_some hs]
          exact k6 v' fun e => hne (by rw [e])
        · rw [at' j' hj']
    · rw [at' j hj] at hch; exact absurd rfl hch

/-- Without de-duplication, creating an object leaves every existing object as it is. -/
theorem C44_off (d : List (Nat × Db)) (hd : ∀ p ∈ d, TblOk p.2.objs) (tr : Trace) (hm : ∀ p ∈ tr, noMerge p.2) (e : Env) (h : Nat) (tm : Template)
    (j : Nat) (v : Bytes) (hv : ∀ o, factoriesCreate O (e.sub 0).uid tm = .ok o → o.getStr CKA_UNIQUE_ID ≠ .ok v) :
    rowsOf (dbAt (step M C O e (after M C O d tr) (.sess h (.createObject tm))).2 j).objs v = rowsOf (dbAt (after M C O d tr) j).objs v := by
  by_cases hch : rowsOf (dbAt (step M C O e (after M C O d tr) (.sess h (.createObject tm))).2 j).objs v = rowsOf (dbAt (after M C O d tr) j).objs v
  · exact hch
  · obtain ⟨sl, dd, _, _, hs, hdd, _⟩ := C44_create d hd tr e h tm j v hv hch
    rw [noDedup_run tr (inv_empty d 0) hm (fun i sl h => by cases h) j sl hs] at hdd
    cases hdd

/-! ## Cases -/

/-- A merging slot with two keys: one with the id [5] that may not be modified, and one with the id [6]. -/
def exMergeTwo : Trace := ((exEnv 0, .initialize exConfAll) :: exStart.drop 1) ++
  [(exEnv 6, .login 1 CKU_USER exPin),
   (exEnv 7, .sess 1 (.createObject (exAesTemplate ++ [.ofBool CKA_TOKEN true, .ofBool CKA_MODIFIABLE false, .mk' CKA_ID [5],
     .mk' CKA_LABEL [80]]))),
   (exEnv 8, .sess 1 (.createObject (exAesTemplate ++ [.ofBool CKA_TOKEN true, .mk' CKA_ID [6]])))]

def exMergeTm : Template := exAesTemplate ++ [.ofBool CKA_TOKEN true, .mk' CKA_ID [5], .mk' CKA_LABEL [90]]

/-- The state after creating a third key with the id [5]. -/
def exMergeEnd : St := (step exMechs exCrypto exOracle (exEnv 9) (exRun exMergeTwo) (.sess 1 (.createObject exMergeTm))).2

set_option maxRecDepth 20000 in
/-- The hypotheses of `C44_create`: the object with the id [5] changes, and the new one has another unique id; the other object
stays, and there is no third. -/
example : (∀ o, factoriesCreate exOracle ((exEnv 9).sub 0).uid exMergeTm = .ok o → o.getStr CKA_UNIQUE_ID ≠ .ok [97, 104, 97]) ∧
    rowsOf (dbAt exMergeEnd 7).objs [97, 104, 97] ≠ rowsOf (dbAt (exRun exMergeTwo) 7).objs [97, 104, 97] ∧
    rowsOf (dbAt exMergeEnd 7).objs [97, 105, 97] = rowsOf (dbAt (exRun exMergeTwo) 7).objs [97, 105, 97] ∧
    (rowsOf (dbAt exMergeEnd 7).objs [97, 105, 97]).isSome = true ∧ (dbAt exMergeEnd 7).objs.length = 2 := by
  refine ⟨?_, by decide +kernel, by decide +kernel, by decide +kernel, by decide +kernel⟩
  have h : ∃ o, factoriesCreate exOracle ((exEnv 9).sub 0).uid exMergeTm = .ok o ∧ o.getStr CKA_UNIQUE_ID = .ok [97, 106, 97] := ⟨_, rfl, rfl⟩
  obtain ⟨o, h1, h2⟩ := h
  intro o' h
  rw [h1] at h; injection h with h; subst h
  rw [h2]; intro h; injection h with h; revert h; decide

set_option maxRecDepth 20000 in
/-- The hypotheses of `C44_off`: the history of `C28_call`, on a slot that does not merge, where a second key with the same id
becomes a second object. -/
example : (∀ p ∈ exC27In, noMerge p.2) ∧
    (dbAt (exRun (exC27In ++ [(exEnv 7, .sess 1 (.createObject exMergeTm))])) 7).objs.length = 1 ∧
    (dbAt (exRun (exC27In ++ [(exEnv 7, .sess 1 (.createObject exMergeTm)), (exEnv 9, .sess 1 (.createObject exMergeTm))])) 7).objs.length = 2 :=
  ⟨fun p hp => (exC27In_plain p hp).2, by decide +kernel, by decide +kernel⟩

set_option maxRecDepth 20000 in
/-- **Counterexample** to reading more into C44: the object that is merged into may have CKA_MODIFIABLE false.  C_SetAttributeValue
refuses to change it, C_CreateObject changes it (`src/token.rs:651-711` updates the storage without the checks of
`set_object_attrs`). -/
theorem C44_modifiable_violation : ∃ (tr : Trace) (h n : Nat) (e : Env) (tm : Template),
    reports exMechs exCrypto exOracle (exRun tr) h n CKA_MODIFIABLE (bbool false) ∧
    reports exMechs exCrypto exOracle (exRun tr) h n CKA_LABEL [80] ∧
    (step exMechs exCrypto exOracle e (exRun tr) (.sess h (.setAttr n [.mk' CKA_LABEL [90]]))).1 = .err .actionProhibited ∧
    (step exMechs exCrypto exOracle e (exRun tr) (.sess h (.createObject tm))).1 = .handle n ∧
    reports exMechs exCrypto exOracle (step exMechs exCrypto exOracle e (exRun tr) (.sess h (.createObject tm))).2 h n CKA_LABEL [90] := by
  refine ⟨exMergeTwo, 1, 8, exEnv 9, exMergeTm, ?_, ?_, by decide +kernel, by decide +kernel, ?_⟩
  · exact ⟨exEnv 0, ⟨CKA_MODIFIABLE, false, 1, [9]⟩, ⟨CKA_MODIFIABLE, false, 1, [0]⟩, rfl, rfl, by decide +kernel, rfl⟩
  · exact ⟨exEnv 0, ⟨CKA_LABEL, false, 1, [9]⟩, ⟨CKA_LABEL, false, 1, [80]⟩, rfl, rfl, by decide +kernel, rfl⟩
  · exact ⟨exEnv 0, ⟨CKA_LABEL, false, 1, [9]⟩, ⟨CKA_LABEL, false, 1, [90]⟩, rfl, rfl, by decide +kernel, rfl⟩

end Kry
